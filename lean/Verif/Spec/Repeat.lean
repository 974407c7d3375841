import Verif.Spec.Brivla

/-!
# Repeating a word

Specification side: the words that may be repeated, and a text with repetitions taken out.
-/

namespace Sneturfahi.Spec

open Sneturfahi

/-- The words that can be repeated: brivla, `go'i`, names, digits, letters, `jai`, `coi`, `zo'u`, `ni'o` (as selma'o). -/
def repeatable : List Selmaho := [.Gismu, .Goha, .Cmevla, .Pa, .By, .Jai, .Coi, .Zohu, .Niho]

/-- Two words of this kind, both of the same kind; all brivla are of one kind. -/
def Kindred (x y : Token) : Prop := wordClass x.selmaho = wordClass y.selmaho ∧ wordClass x.selmaho ∈ repeatable

instance (x y : Token) : Decidable (Kindred x y) := inferInstanceAs (Decidable (_ ∧ _))

/-- Tokens without the words that quote or that make something else of the word before them (`zo`, `zoi`, `lo'u`, `zei`, `bu`). -/
def Open (toks : List Token) : Prop := ∀ t ∈ toks, t.selmaho ∉ [Selmaho.Zo, .Zoi, .Lohu, .Zei, .Bu]

/-- Of several words in a row that are alike only the last one is left. -/
def collapse : List Token → List Token
  | [] => []
  | [t] => [t]
  | t :: u :: l => if Kindred t u then collapse (u :: l) else t :: collapse (u :: l)

end Sneturfahi.Spec
