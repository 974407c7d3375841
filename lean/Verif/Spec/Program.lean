import Verif.Spec.Outline
import Verif.Model.Print

/-!
# What the command line program reads
-/

namespace Sneturfahi.Spec

open Sneturfahi

/-- The white space characters of Unicode: tab, newline, vertical tab, form feed, carriage return, space, next line,
no-break space, Ogham space mark, the eleven spaces from U+2000 on, line separator, paragraph separator, narrow no-break
space, medium mathematical space, ideographic space. -/
def whiteSpace : List Char :=
  ['\t', '\n', '\x0b', '\x0c', '\r', ' ', '\u0085', '\u00a0', '\u1680',
    '\u2000', '\u2001', '\u2002', '\u2003', '\u2004', '\u2005', '\u2006', '\u2007', '\u2008', '\u2009', '\u200a',
    '\u2028', '\u2029', '\u202f', '\u205f', '\u3000']

/-- `t` is `text` without the white space around it. -/
def Trimmed (text t : List Char) : Prop :=
  ∃ a b, text = a ++ t ++ b ∧ (∀ c ∈ a, c ∈ whiteSpace) ∧ (∀ c ∈ b, c ∈ whiteSpace) ∧
    (∀ c, t.head? = some c → c ∉ whiteSpace) ∧ (∀ c, t.getLast? = some c → c ∉ whiteSpace)

/-- Some switch asks for something to be printed. -/
def Args.Asks (args : Args) : Prop := args.decompose = true ∨ args.lex = true ∨ args.cst = true

/-- No text the program is given at once has 4 GiB or more: no line at a terminal, not all of standard input otherwise. -/
def WithinLimit (terminal : Bool) (stdin : List Char) : Prop :=
  if terminal then ∀ a line b, stdin = a ++ line ++ b → '\n' ∉ line → byteLen line < 2 ^ 32
  else byteLen stdin < 2 ^ 32

/-- The same surroundings, except that memory is laid out differently. -/
def SameButAddresses (s s' : Surroundings) : Prop :=
  s.plain = s'.plain ∧ s.reason = s'.reason ∧ s.emptied = s'.emptied ∧ s.arena = s'.arena

end Sneturfahi.Spec
