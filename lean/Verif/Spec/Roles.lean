import Verif.Spec.Brivla

/-!
# The part a word plays

Specification side: words that the grammar does not tell apart.
-/

namespace Sneturfahi.Spec

open Sneturfahi

/-- Indicators (and `nai`, which is always one, see C75). -/
def feelings : List Selmaho := [.Ui, .Cai, .Nai, .Daho, .Fuho, .Y]

/-- Erasure words. -/
def erasers : List Selmaho := [.Si, .Sa, .Su]

/-- The words no construct makes use of, erasure words apart: those of experimental selma'o, unknown cmavo, unclassifiable words and the
lexer's delimiters of quotes. -/
def Idle (s : Selmaho) : Prop := s.isFundamentallyExperimental = true ∨ s ∈ [Selmaho.UnknownCmavo, .AnyText, .ZoiDelimiter]

instance (s : Selmaho) : Decidable (Idle s) := inferInstanceAs (Decidable (_ ∨ _))

/-- The part a word plays: one for all brivla, one for all indicators, one for the erasure words, one for the words without use, and
one for each other selma'o. -/
def role (s : Selmaho) : Selmaho :=
  if s ∈ brivla then .Gismu
  else if s ∈ feelings then .Ui
  else if s ∈ erasers then .Si
  else if Idle s then .AnyText
  else s

/-- The parts of some words. -/
def roles (toks : List Token) : List Selmaho := toks.map (fun t => role t.selmaho)

/-- Nodes that differ only in the kind of brivla or of indicator get one name. -/
def nameRole : NodeName → NodeName
  | .TanruUnit2_Lujvo => .TanruUnit2_Gismu
  | .TanruUnit2_Fuhivla => .TanruUnit2_Gismu
  | .Indicator_Cai => .Indicator_Ui
  | .Indicator_Nai => .Indicator_Ui
  | .Indicator_Daho => .Indicator_Ui
  | .Indicator_Fuho => .Indicator_Ui
  | .Indicator_Y => .Indicator_Ui
  | .word s => .word (role s)
  | n => n

mutual
/-- A tree in which of a token only the part it plays is left. -/
def faceless : Val → Val
  | .leaf k t => .leaf k ⟨false, role t.selmaho, ⟨0, 0⟩⟩
  | .node n fs => .node (nameRole n) (facelessL fs)
  | .tuple fs => .tuple (facelessL fs)
  | .many vs => .many (facelessL vs)
  | .sep first rest => .sep (faceless first) (facelessL rest)
/-- The same for several trees. -/
def facelessL : List Val → List Val
  | [] => []
  | v :: vs => faceless v :: facelessL vs
end

end Sneturfahi.Spec
