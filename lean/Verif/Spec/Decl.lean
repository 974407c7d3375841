import Verif.Spec.Peg
import Verif.Model.Derive

/-!
# What a declaration says

Specification side: how a text is read as a struct or enum, given how its types are read.  Nothing of the code the
macro generates, nor of the combinators of nom, is mentioned here.
-/

namespace Sneturfahi.Spec

open Sneturfahi Rust Derive

/-- A way of reading: `R s o` says that reading at the start of `s` ends with `o`. -/
abbrev Reader := List Token → Outcome → Prop

/-- One after the other; the first that does not succeed ends it. -/
inductive InOrder : List Reader → Reader
  | done {s : List Token} : InOrder [] s (.ok s [])
  | next {R : Reader} {Rs : List Reader} {s r q : List Token} {vs ws : List Val} :
      R s (.ok r vs) → InOrder Rs r (.ok q ws) → InOrder (R :: Rs) s (.ok q (vs ++ ws))
  | stop {R : Reader} {Rs : List Reader} {s : List Token} {o : Outcome} : R s o → o.Bad → InOrder (R :: Rs) s o
  | later {R : Reader} {Rs : List Reader} {s r : List Token} {vs : List Val} {o : Outcome} :
      R s (.ok r vs) → InOrder Rs r o → o.Bad → InOrder (R :: Rs) s o

/-- The first that applies.  None applies: error.  One that fails for good before: failure. -/
inductive FirstOf : List Reader → Reader
  | none {s : List Token} : FirstOf [] s .error
  | this {R : Reader} {Rs : List Reader} {s : List Token} {o : Outcome} : R s o → o ≠ .error → FirstOf (R :: Rs) s o
  | other {R : Reader} {Rs : List Reader} {s : List Token} {o : Outcome} : R s .error → FirstOf Rs s o → FirstOf (R :: Rs) s o

/-- Any number of times, until it no longer applies.  (An element without tokens is an error.) -/
inductive Repeated (R : Reader) : Reader
  | done {s : List Token} : R s .error → Repeated R s (.ok s [])
  | more {s r q : List Token} {vs ws : List Val} : R s (.ok r vs) → r.length ≠ s.length → Repeated R r (.ok q ws) →
      Repeated R s (.ok q (vs ++ ws))
  | failure {s : List Token} : R s .failure → Repeated R s .failure
  | stuck {s r : List Token} {vs : List Val} : R s (.ok r vs) → r.length = s.length → Repeated R s .error
  | later {s r : List Token} {vs : List Val} {o : Outcome} : R s (.ok r vs) → r.length ≠ s.length → Repeated R r o →
      o.Bad → Repeated R s o

/-- At least once. -/
inductive RepeatedOnce (R : Reader) : Reader
  | more {s r q : List Token} {vs ws : List Val} : R s (.ok r vs) → Repeated R r (.ok q ws) →
      RepeatedOnce R s (.ok q (vs ++ ws))
  | stop {s : List Token} {o : Outcome} : R s o → o.Bad → RepeatedOnce R s o
  | later {s r : List Token} {vs : List Val} {o : Outcome} : R s (.ok r vs) → Repeated R r o → o.Bad → RepeatedOnce R s o

/-- Nothing is read; it is an error if `R` would apply. -/
inductive Unless (R : Reader) : Reader
  | clear {s : List Token} : R s .error → Unless R s (.ok s [])
  | there {s r : List Token} {vs : List Val} : R s (.ok r vs) → Unless R s .error
  | failure {s : List Token} : R s .failure → Unless R s .failure

/-- What succeeds is turned into something else, or into an error. -/
inductive Then (R : Reader) (f : (before after : List Token) → List Val → Option (List Val)) : Reader
  | good {s r : List Token} {vs ws : List Val} : R s (.ok r vs) → f s r vs = some ws → Then R f s (.ok r ws)
  | wrong {s r : List Token} {vs : List Val} : R s (.ok r vs) → f s r vs = none → Then R f s .error
  | bad {s : List Token} {o : Outcome} : R s o → o.Bad → Then R f s o

/-- An error is a failure for good. -/
inductive OrFail (R : Reader) : Reader
  | as_is {s : List Token} {o : Outcome} : R s o → o ≠ .error → OrFail R s o
  | fails {s : List Token} : R s .error → OrFail R s .failure

/-- The values become the fields of a node. -/
def Making (shape : CShape) (R : Reader) : Reader := Then R fun _ _ vs => some [shape.build vs]

/-- At least one token. -/
def Something (R : Reader) : Reader :=
  Then R fun before after vs => if after.length = before.length then none else some vs

/-- A condition on the value. -/
def Checked (c : PostCond) (R : Reader) : Reader := Then R fun _ _ vs => if c.holds vs then some vs else none

/-- The values in a list. -/
def Listed (R : Reader) : Reader := Then R fun _ _ vs => some [.many vs]

/-- Several conditions, from the first to the last. -/
def CheckedAll : List PostCond → Reader → Reader
  | [], R => R
  | c :: cs, R => CheckedAll cs (Checked c R)

section
variable (M : RTy → Reader)

/-- The content of a field, apart from lookaheads and `cut`: with `many0` or `many1` the elements of a slice. -/
inductive ContentReads : Option (List Char) → RTy → Reader
  | plain {t : RTy} {s : List Token} {o : Outcome} : M t s o → ContentReads none t s o
  | many0 {t : RTy} {s : List Token} {o : Outcome} : Listed (Repeated (M t)) s o →
      ContentReads (some c!"many0") (.slice t) s o
  | many1 {t : RTy} {s : List Token} {o : Outcome} : Listed (RepeatedOnce (M t)) s o →
      ContentReads (some c!"many1") (.slice t) s o

/-- A field: what must not come, then the content; with `cut` there is no way back. -/
def FieldReads (a : FieldAttrs) (t : RTy) : Reader :=
  InOrder (a.nots.map (fun n => Unless (M n)) ++
    [if a.cut then OrFail (ContentReads M a.with_ t) else ContentReads M a.with_ t])

/-- A struct or variant: its fields in order. -/
inductive BodyReads : (fields : List RField) → (must : Bool) → (constructor : List Char) → Reader
  | mk {fs : List RField} {as : List FieldAttrs} {must : Bool} {n : List Char} {shape : CShape} {s : List Token}
      {o : Outcome} :
      fs.map (fun f => (parseAttributes f.attrs).bind fieldAttrs) = as.map some → shapeOf n = some shape →
      (if must then Something else id)
        (Making shape (InOrder ((fs.zip as).map fun p => FieldReads M p.2 p.1.ty))) s o →
      BodyReads fs must n s o

/-- A declaration: a struct is read as its fields; an enum as the first variant that applies; then the
conditions; then what must not follow. -/
inductive DeclReads : RItem → Reader
  | struct {i : RItem} {fs : List RField} {ps : List PAttr} {c : ContainerAttrs} {conds : List PostCond}
      {s : List Token} {o : Outcome} : i.data = .struct fs → parseAttributes i.attrs = some ps →
      containerAttrs ps = some c → c.postConds.map (condOf i.data) = conds.map some →
      InOrder (CheckedAll conds (BodyReads M fs false i.name) :: c.afterNots.map (fun n => Unless (M n))) s o →
      DeclReads i s o
  | enum {i : RItem} {vs : List RVariant} {must : List Bool} {ps : List PAttr} {c : ContainerAttrs}
      {conds : List PostCond} {s : List Token} {o : Outcome} : i.data = .enum vs → parseAttributes i.attrs = some ps →
      containerAttrs ps = some c → c.postConds.map (condOf i.data) = conds.map some →
      vs.map (fun v => (parseAttributes v.attrs).bind variantAttrs) = must.map some →
      InOrder (CheckedAll conds (FirstOf ((vs.zip must).map fun p =>
          BodyReads M p.1.fields p.2 (i.name ++ c!"::" ++ p.1.name))) ::
        c.afterNots.map (fun n => Unless (M n))) s o →
      DeclReads i s o

end

/-- The fields of a struct that only keeps the span of a word.  The two such structs are leaves of the tree. -/
abbrev OneSpan (fs : List RField) : Prop := fs = [⟨[], [], .name c!"Span" .nil⟩]

/-- A struct or enum without these. -/
def Plain (i : RItem) : Prop :=
  (∀ fs, i.data = .struct fs → ¬ OneSpan fs) ∧ ∀ vs, i.data = .enum vs → ∀ v ∈ vs, ¬ OneSpan v.fields

end Sneturfahi.Spec

namespace Sneturfahi.Spec

open Sneturfahi Rust Derive

/-- If it applies, its values in a list, else the empty list. -/
inductive Optional (R : Reader) : Reader
  | present {s r : List Token} {vs : List Val} : R s (.ok r vs) → Optional R s (.ok r [.many vs])
  | absent {s : List Token} : R s .error → Optional R s (.ok s [.many []])
  | failure {s : List Token} : R s .failure → Optional R s .failure

/-- A type with type parameters `env` in scope, whose `Self` is `self`, compiles. -/
def Compiles (names : Names) (env : List (List Char × Gr)) (self : Option Gr) (t : RTy) : Prop :=
  ∃ fuel g, tyGr names fuel env self t = some g

/-- How a type is read by the code generated for it. -/
def CodeReads (G : CRule → Gr) (names : Names) (env : List (List Char × Gr)) (self : Option Gr) (t : RTy) : Reader :=
  fun s o => ∃ fuel g, tyGr names fuel env self t = some g ∧ Peg G g s o

/-- `Self`, `Option` and `Token` are not the names of declarations. -/
def Reserved (n : List Char) : Prop := n = c!"Self" ∨ n = c!"Option" ∨ n = c!"Token"

end Sneturfahi.Spec
