import Verif.Spec.Tree

/-!
# The meaning of the grammar

Specification side: what it means to read a construct of the grammar at the start of a token sequence, as rules of
inference.  A reading yields values and what is left, or does not apply (`error`, the next alternative is tried), or fails
for good (`failure`, no alternative is tried).  Where the error is located and what it says is left out here (C49, C52).
-/

namespace Sneturfahi.Spec

open Sneturfahi

/-- How reading ends. -/
inductive Outcome where
  | ok (rest : List Token) (vals : List Val)
  | error
  | failure

/-- No success. -/
def Outcome.Bad : Outcome → Prop
  | .ok _ _ => False
  | _ => True

/-- `Peg g e s o`: reading `e` at the start of `s` ends with `o`, for the productions `g`. -/
inductive Peg (g : CRule → Gr) : Gr → List Token → Outcome → Prop
  -- nothing
  | eps {s : List Token} : Peg g .eps s (.ok s [])
  -- a word of selma'o `x`
  | raw {x : Selmaho} {t : Token} {s : List Token} : t.selmaho = x → Peg g (.raw x) (t :: s) (.ok s [.leaf .token t])
  | rawOther {x : Selmaho} {t : Token} {s : List Token} : t.selmaho ≠ x → Peg g (.raw x) (t :: s) .error
  | rawEnd {x : Selmaho} : Peg g (.raw x) [] .error
  -- any word
  | any {k : LeafKind} {t : Token} {s : List Token} : Peg g (.any k) (t :: s) (.ok s [.leaf k t])
  | anyEnd {k : LeafKind} : Peg g (.any k) [] .error
  -- a production
  | call {r : CRule} {s : List Token} {o : Outcome} : Peg g (g r) s o → Peg g (.call r) s o
  -- one after the other
  | seq {a b : Gr} {s r q : List Token} {vs ws : List Val} : Peg g a s (.ok r vs) → Peg g b r (.ok q ws) →
      Peg g (.seq a b) s (.ok q (vs ++ ws))
  | seqFirst {a b : Gr} {s : List Token} {o : Outcome} : Peg g a s o → o.Bad → Peg g (.seq a b) s o
  | seqSecond {a b : Gr} {s r : List Token} {vs : List Val} {o : Outcome} : Peg g a s (.ok r vs) → Peg g b r o → o.Bad →
      Peg g (.seq a b) s o
  -- the second alternative is read only if the first does not apply
  | altFirst {a b : Gr} {s : List Token} {o : Outcome} : Peg g a s o → o ≠ .error → Peg g (.alt a b) s o
  | altSecond {a b : Gr} {s : List Token} {o : Outcome} : Peg g a s .error → Peg g b s o → Peg g (.alt a b) s o
  -- something optional
  | optPresent {a : Gr} {s r : List Token} {vs : List Val} : Peg g a s (.ok r vs) → Peg g (.opt a) s (.ok r [.many vs])
  | optAbsent {a : Gr} {s : List Token} : Peg g a s .error → Peg g (.opt a) s (.ok s [.many []])
  | optFailure {a : Gr} {s : List Token} : Peg g a s .failure → Peg g (.opt a) s .failure
  -- as many as there are
  | many0End {a : Gr} {s : List Token} : Peg g a s .error → Peg g (.many0 a) s (.ok s [.many []])
  | many0More {a : Gr} {s r q : List Token} {vs ws : List Val} : Peg g a s (.ok r vs) → r.length ≠ s.length →
      Peg g (.many0 a) r (.ok q [.many ws]) → Peg g (.many0 a) s (.ok q [.many (vs ++ ws)])
  | many0Failure {a : Gr} {s : List Token} : Peg g a s .failure → Peg g (.many0 a) s .failure
  | many0Stuck {a : Gr} {s r : List Token} {vs : List Val} : Peg g a s (.ok r vs) → r.length = s.length →
      Peg g (.many0 a) s .error
  | many0Later {a : Gr} {s r : List Token} {vs : List Val} {o : Outcome} : Peg g a s (.ok r vs) → r.length ≠ s.length →
      Peg g (.many0 a) r o → o.Bad → Peg g (.many0 a) s o
  -- at least one
  | many1 {a : Gr} {s r q : List Token} {vs ws : List Val} : Peg g a s (.ok r vs) →
      Peg g (.many0 a) r (.ok q [.many ws]) → Peg g (.many1 a) s (.ok q [.many (vs ++ ws)])
  | many1First {a : Gr} {s : List Token} {o : Outcome} : Peg g a s o → o.Bad → Peg g (.many1 a) s o
  | many1Later {a : Gr} {s r : List Token} {vs : List Val} {o : Outcome} : Peg g a s (.ok r vs) →
      Peg g (.many0 a) r o → o.Bad → Peg g (.many1 a) s o
  -- as many as come before the first `b`
  | tillEnd {a b : Gr} {s r : List Token} {ws : List Val} : Peg g b s (.ok r ws) → Peg g (.manyTill a b) s (.ok r (.many [] :: ws))
  | tillMore {a b : Gr} {s r q : List Token} {vs us ws : List Val} : Peg g b s .error → Peg g a s (.ok r vs) →
      r.length ≠ s.length → Peg g (.manyTill a b) r (.ok q (.many us :: ws)) →
      Peg g (.manyTill a b) s (.ok q (.many (vs ++ us) :: ws))
  | tillFailure {a b : Gr} {s : List Token} : Peg g b s .failure → Peg g (.manyTill a b) s .failure
  | tillItem {a b : Gr} {s : List Token} {o : Outcome} : Peg g b s .error → Peg g a s o → o.Bad → Peg g (.manyTill a b) s o
  | tillStuck {a b : Gr} {s r : List Token} {vs : List Val} : Peg g b s .error → Peg g a s (.ok r vs) →
      r.length = s.length → Peg g (.manyTill a b) s .error
  | tillLater {a b : Gr} {s r : List Token} {vs : List Val} {o : Outcome} : Peg g b s .error → Peg g a s (.ok r vs) →
      r.length ≠ s.length → Peg g (.manyTill a b) r o → o.Bad → Peg g (.manyTill a b) s o
  -- what must not follow
  | not {a : Gr} {s : List Token} : Peg g a s .error → Peg g (.not a) s (.ok s [])
  | notThere {a : Gr} {s r : List Token} {vs : List Val} : Peg g a s (.ok r vs) → Peg g (.not a) s .error
  | notFailure {a : Gr} {s : List Token} : Peg g a s .failure → Peg g (.not a) s .failure
  -- no other alternative from here on
  | cut {a : Gr} {s : List Token} {o : Outcome} : Peg g a s o → o ≠ .error → Peg g (.cut a) s o
  | cutError {a : Gr} {s : List Token} : Peg g a s .error → Peg g (.cut a) s .failure
  -- must not be empty
  | must {n : NodeName} {a : Gr} {s r : List Token} {vs : List Val} : Peg g a s (.ok r vs) → r.length ≠ s.length →
      Peg g (.mustConsume n a) s (.ok r vs)
  | mustEmpty {n : NodeName} {a : Gr} {s r : List Token} {vs : List Val} : Peg g a s (.ok r vs) → r.length = s.length →
      Peg g (.mustConsume n a) s .error
  | mustBad {n : NodeName} {a : Gr} {s : List Token} {o : Outcome} : Peg g a s o → o.Bad → Peg g (.mustConsume n a) s o
  -- must satisfy a condition
  | post {c : PostCond} {a : Gr} {s r : List Token} {vs : List Val} : Peg g a s (.ok r vs) → c.holds vs = true →
      Peg g (.postCond c a) s (.ok r vs)
  | postViolated {c : PostCond} {a : Gr} {s r : List Token} {vs : List Val} : Peg g a s (.ok r vs) → c.holds vs = false →
      Peg g (.postCond c a) s .error
  | postBad {c : PostCond} {a : Gr} {s : List Token} {o : Outcome} : Peg g a s o → o.Bad → Peg g (.postCond c a) s o
  -- the values become the fields of a node
  | wrap {sh : CShape} {a : Gr} {s r : List Token} {vs : List Val} : Peg g a s (.ok r vs) →
      Peg g (.wrap sh a) s (.ok r [sh.build vs])
  | wrapBad {sh : CShape} {a : Gr} {s : List Token} {o : Outcome} : Peg g a s o → o.Bad → Peg g (.wrap sh a) s o

mutual
/-- `sub` is part of `v`, and `pre` are the tokens of `v` before it. -/
inductive At : List Token → Val → Val → Prop
  | self {v : Val} : At [] v v
  | node {pre : List Token} {v : Val} {n : NodeName} {fs : List Val} : AtL pre v fs → At pre v (.node n fs)
  | tuple {pre : List Token} {v : Val} {fs : List Val} : AtL pre v fs → At pre v (.tuple fs)
  | many {pre : List Token} {v : Val} {vs : List Val} : AtL pre v vs → At pre v (.many vs)
  | sepFirst {pre : List Token} {v first : Val} {rest : List Val} : At pre v first → At pre v (.sep first rest)
  | sepRest {pre : List Token} {v first : Val} {rest : List Val} : AtL pre v rest →
      At (tokens first ++ pre) v (.sep first rest)
/-- The same for several values. -/
inductive AtL : List Token → Val → List Val → Prop
  | head {pre : List Token} {v w : Val} {ws : List Val} : At pre v w → AtL pre v (w :: ws)
  | tail {pre : List Token} {v w : Val} {ws : List Val} : AtL pre v ws → AtL (tokens w ++ pre) v (w :: ws)
end

end Sneturfahi.Spec
