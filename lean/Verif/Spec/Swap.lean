import Verif.Spec.Join
import Verif.Spec.Peg
import Verif.Spec.Repeat

/-!
# A text in which a piece is exchanged

Specification side: trees that differ in one place, and pieces of texts that are closed by a word at their end.
-/

namespace Sneturfahi.Spec

open Sneturfahi

/-- The second tree is the first one with one part, somewhere, exchanged for another as `R` says. -/
inductive Swap (R : Val → Val → Prop) : Val → Val → Prop
  | here {v w : Val} : R v w → Swap R v w
  | node {n : NodeName} {before after : List Val} {v w : Val} : Swap R v w →
      Swap R (.node n (before ++ v :: after)) (.node n (before ++ w :: after))
  | tuple {before after : List Val} {v w : Val} : Swap R v w → Swap R (.tuple (before ++ v :: after)) (.tuple (before ++ w :: after))
  | many {before after : List Val} {v w : Val} : Swap R v w → Swap R (.many (before ++ v :: after)) (.many (before ++ w :: after))
  | sepFirst {rest : List Val} {v w : Val} : Swap R v w → Swap R (.sep v rest) (.sep w rest)
  | sepRest {first : Val} {before after : List Val} {v w : Val} : Swap R v w →
      Swap R (.sep first (before ++ v :: after)) (.sep first (before ++ w :: after))

/-! ### Brackets -/

/-- The words that open, the words that close, and the production that reads all of it. -/
def brackets : List (Selmaho × Selmaho × CRule) :=
  [(.Lu, .Lihu, .SumtiComponent1), (.Li, .Loho, .SumtiComponent1), (.Le, .Ku, .SumtiComponent1), (.To, .Toi, .Free), (.Soi, .Sehu, .Free),
    (.Noi, .Kuho, .RelativeClause), (.Goi, .Gehu, .RelativeClause), (.Be, .Beho, .BoundArguments)]

/-- What is read from the opening word on, up to the closing word: `lu` and a text, `li` and an expression, `lo` and a description and so on. -/
def opened : Selmaho → Gr
  | .Lu => .seq (.call (.word .Lu)) (.call .Text)
  | .Li => .seq (gWithFree (.call (.word .Li))) (.call .Expression)
  | .Le => .seq (gWithFree (.call .Gadri)) (.seq (.call .GadriSumtiPre) (.call .GadriSumtiContents))
  | .To => .seq (.call (.word .To)) (.call .Text)
  | .Soi => .seq (gWithFree (.call (.word .Soi))) (.wrap .tuple (.seq (.call .Sumti) (.opt (.call .Sumti))))
  | .Noi => .seq (gWithFree (.call (.word .Noi))) (.call .Subsentence)
  | .Goi => .seq (gWithFree (.call (.word .Goi))) (.call .Arg)
  | .Be => .seq (gWithFree (.call (.word .Be))) (gSeparated (.call .Arg) (gWithFree (.call (.word .Bei))))
  | _ => .raw .Bahe

/-- The words that must not be used between the brackets: in general those that open them. Since `ku` has other uses as well, between `lo` and `ku`
there must be no other description or name, no quotes or notes, no clauses and bound arguments, and no numbers. -/
def barred : Selmaho → List Selmaho
  | .Lu => [.Lu]
  | .Li => [.Li]
  | .Le => [.Le, .La, .Lu, .Be, .Nu, .Noi, .Goi, .Pa, .Sei, .To, .Vei]
  | .To => [.To]
  | .Soi => [.Soi, .Sei]
  | .Noi => [.Noi]
  | .Goi => [.Goi]
  | .Be => [.Be]
  | _ => []

/-- The node made of what is between the brackets (`fields`), the closing word, and what comes after it. -/
def bracketNode : Selmaho → List Val → Val
  | .Lu, fs => .node .SumtiComponent1_Lu [.node .LuSumti fs]
  | .Li, fs => .node .SumtiComponent1_Li fs
  | .Le, fs => .node .SumtiComponent1_Gadri [.node .GadriSumti fs]
  | .To, fs => .node .Free_To fs
  | .Soi, fs => .node .Free_Soi fs
  | .Noi, fs => .node .RelativeClause_Noi [.node .NoiRelativeClause fs]
  | .Goi, fs => .node .RelativeClause_Goi [.node .GoiRelativeClause fs]
  | .Be, fs => .node .BoundArguments fs
  | _, fs => .tuple fs

/-- The fields of a closed piece: what is between the brackets, the closing word with the indicators after it, and anything after that (free modifiers). -/
def closedFields (inner : List Val) (c : Token) : List Val → List Val
  | ind :: more => inner ++ .many [.node (.word c.selmaho) [.many [], .leaf .token c, ind]] :: more
  | [] => inner

/-- `l` is a closed piece of a text, read by production `r`: a pronoun, or words between brackets. Its node is `f after`, where `after` is made of
the indicators, and perhaps free modifiers, after it. -/
inductive ClosedPiece : CRule → List Token → (List Val → Val) → Prop
  | pronoun (k : Token) : k.selmaho = .Koha →
      ClosedPiece .SumtiComponent1 [k] (fun after => .node .SumtiComponent1_Koha [.node (.word .Koha) (.many [] :: .leaf .token k :: after)])
  | bracket (o c : Token) (s : List Token) (r : CRule) (inner : List Val) : (o.selmaho, c.selmaho, r) ∈ brackets → Open s →
      (∀ t ∈ s, t.selmaho ∉ barred o.selmaho) → Peg cst (opened o.selmaho) (o :: s) (.ok [] inner) →
      ClosedPiece r (o :: s ++ [c]) (fun after => bracketNode o.selmaho (closedFields inner c after))

/-- The last word is not `ba'e`. -/
def NotEmphasised (l : List Token) : Prop := ∀ t, l.getLast? = some t → t.selmaho ≠ .Bahe

/-- `m` is `l` with one closed piece exchanged for another of the same kind. -/
inductive Exchanged : List Token → List Token → Prop
  | mk {r : CRule} {a b x y : List Token} {f g : List Val → Val} : ClosedPiece r a f → ClosedPiece r b g → Open x → Open y → NotEmphasised x →
      Exchanged (x ++ a ++ y) (x ++ b ++ y)

end Sneturfahi.Spec
