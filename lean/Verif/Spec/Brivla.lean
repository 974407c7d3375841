import Verif.Spec.Join

/-!
# Brivla

Specification side: token sequences and trees in which gismu, lujvo and fu'ivla are not told apart.
-/

namespace Sneturfahi.Spec

open Sneturfahi

/-- The three kinds of brivla. -/
def brivla : List Selmaho := [.Gismu, .Lujvo, .Fuhivla]

/-- The kind of a word, all brivla being of one kind. -/
def wordClass (s : Selmaho) : Selmaho := if s ∈ brivla then .Gismu else s

/-- The kinds of some words. -/
def classes (toks : List Token) : List Selmaho := toks.map (fun t => wordClass t.selmaho)

/-- Nodes that differ only in the kind of brivla get one name. -/
def nameClass : NodeName → NodeName
  | .TanruUnit2_Lujvo => .TanruUnit2_Gismu
  | .TanruUnit2_Fuhivla => .TanruUnit2_Gismu
  | .word s => .word (wordClass s)
  | n => n

mutual
/-- A tree in which of a token only the kind of word is left, all brivla being of one kind. -/
def blind : Val → Val
  | .leaf k t => .leaf k ⟨false, wordClass t.selmaho, ⟨0, 0⟩⟩
  | .node n fs => .node (nameClass n) (blindL fs)
  | .tuple fs => .tuple (blindL fs)
  | .many vs => .many (blindL vs)
  | .sep first rest => .sep (blind first) (blindL rest)
/-- The same for several trees. -/
def blindL : List Val → List Val
  | [] => []
  | v :: vs => blind v :: blindL vs
end

end Sneturfahi.Spec
