import Verif.Spec.Join

/-!
# Emphasis and indicators

Specification side: the words that can be added to others, and a tree without them.
-/

namespace Sneturfahi.Spec

open Sneturfahi

/-- The words that emphasise the word after them or comment on the word before them: `ba'e` and the indicators. -/
def decorating : List Selmaho := .Bahe :: indicating

/-- The words that quote or make something else of the word before them, `lu` and `fu'e`. -/
def taking : List Selmaho := [.Bu, .Zei, .Zo, .Zoi, .Lohu, .Lu, .Fuhe]

/-- The tokens without `ba'e` and indicators. -/
def undecorated (toks : List Token) : List Token := toks.filter (fun t => t.selmaho ∉ decorating)

/-- Is it a token? -/
def isLeaf : Val → Bool
  | .leaf _ _ => true
  | _ => false

mutual
/-- A tree without `ba'e` and indicators: of a word node only the word itself is left, of a text node all but the indicators
before it. -/
def bare : Val → Val
  | .leaf k t => .leaf k t
  | .node (.word s) fs => .node (.word s) (fs.filter isLeaf)
  | .node .Text fs => .node .Text ((bareL fs).drop 1)
  | .node n fs => .node n (bareL fs)
  | .tuple fs => .tuple (bareL fs)
  | .many vs => .many (bareL vs)
  | .sep first rest => .sep (bare first) (bareL rest)
/-- The same for several trees. -/
def bareL : List Val → List Val
  | [] => []
  | v :: vs => bare v :: bareL vs
end

end Sneturfahi.Spec
