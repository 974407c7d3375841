import Verif.Spec.Swap

/-!
# Pieces within pieces

Specification side: closed pieces in which closed pieces may be nested, to any depth.
-/

namespace Sneturfahi.Spec

open Sneturfahi

/-- `l` is a closed piece read by production `r`, or made from one by putting a piece of this kind in the place of another within it. -/
inductive NestedPiece : CRule → List Token → Prop
  | closed {r : CRule} {a : List Token} {f : List Val → Val} : ClosedPiece r a f → NestedPiece r a
  | within {r r' : CRule} {x a b y : List Token} : NestedPiece r (x ++ a ++ y) → NestedPiece r' a → NestedPiece r' b → NotEmphasised x →
      NestedPiece r (x ++ b ++ y)

/-- A text in which all the quotes are closed: one without quotes, or one with a pronoun replaced by `lu`, such a text, `li'u`. -/
inductive QuotedText : List Token → Prop
  | plain {t : List Token} : IsText t → Open t → (∀ u ∈ t, u.selmaho ≠ .Lu) → QuotedText t
  | quote {x y t : List Token} {k lu lihu : Token} : QuotedText (x ++ [k] ++ y) → QuotedText t → k.selmaho = .Koha → lu.selmaho = .Lu →
      lihu.selmaho = .Lihu → NotEmphasised x → QuotedText (x ++ (lu :: t ++ [lihu]) ++ y)

end Sneturfahi.Spec
