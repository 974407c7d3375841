import Verif.Model.Prim

/-!
# Texts as bytes
-/

namespace Sneturfahi.Spec

/-- The bytes of a text: UTF-8, one character after the other (the encoding of a character is that of Lean's library). -/
def encode (t : List Char) : List UInt8 := t.flatMap String.utf8EncodeChar

/-- The bytes are those of a text. -/
def Utf8 (bytes : List UInt8) : Prop := ∃ t, bytes = encode t

/-- Every line of the text is ended by a newline. -/
def Complete (t : List Char) : Prop := t = [] ∨ ∃ u, t = u ++ ['\n']

/-- The bytes of one line: a newline (byte 10) may only be the last. -/
def OneLine (bytes : List UInt8) : Prop := ∃ l, 10 ∉ l ∧ (bytes = l ∨ bytes = l ++ [10])

/-- No text the program is given at once has 4 GiB or more: no line at a terminal, not all of standard input otherwise. -/
def BytesWithinLimit (terminal : Bool) (stdin : List UInt8) : Prop :=
  if terminal then ∀ a line b, stdin = a ++ line ++ b → 10 ∉ line → line.length < 2 ^ 32
  else stdin.length < 2 ^ 32

end Sneturfahi.Spec
