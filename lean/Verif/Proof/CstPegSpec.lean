import Verif.Spec.Peg
import Verif.Proof.CstDerive

/-!
# The parser computes the meaning of the grammar
-/

namespace Sneturfahi

open Spec

namespace Spec

theorem Peg.unique {g : CRule → Gr} {e : Gr} {s : List Token} {o : Outcome} (h : Peg g e s o) :
    ∀ o', Peg g e s o' → o = o' := by
  induction h with
  | _ => intro o' h'; cases h' <;> grind [Outcome.Bad]

end Spec

/-- A result without the location and text of errors. -/
def CRes.outcome : CRes → Outcome
  | .ok r vs => .ok r.list vs
  | .error _ => .error
  | .failure _ => .failure

/-- `p` computes the meaning of `e`. -/
def Means (g : CRule → Gr) (e : Gr) (p : CParser) : Prop := ∀ s, (p s).All (fun res => Peg g e s.list res.outcome)

/-- What the loop of a repetition yields with `acc` read before. -/
def Loops (g : CRule → Gr) (a : Gr) (acc : List Val) (s : List Token) : CRes → Prop
  | .ok r vs => ∃ ws, vs = [.many (acc ++ ws)] ∧ Peg g (.many0 a) s (.ok r.list [.many ws])
  | .error _ => Peg g (.many0 a) s .error
  | .failure _ => Peg g (.many0 a) s .failure

theorem manyLoop_means {g : CRule → Gr} {a : Gr} {p : CParser} (hp : Means g a p) (k : NomKind) :
    ∀ (fuel : Nat) (s : Toks) (acc : List Val), (manyLoop p k fuel s acc).All (Loops g a acc s.list) := by
  intro fuel
  induction fuel with
  | zero => intros; trivial
  | succ fuel ih =>
    intro s acc
    unfold manyLoop
    refine (hp s).bind ?_
    intro res hres
    cases res with
    | error e => exact ⟨[], by simp, .many0End hres⟩
    | failure e => exact .many0Failure hres
    | ok rest vs =>
      simp only
      split
      · rename_i he
        exact .many0Stuck hres he
      · rename_i he
        refine (ih rest (acc ++ vs)).mono ?_
        intro res h
        cases res with
        | ok r us =>
          obtain ⟨ws, rfl, h⟩ := h
          exact ⟨vs ++ ws, by simp, .many0More hres he h⟩
        | error e => exact .many0Later hres he h trivial
        | failure e => exact .many0Later hres he h trivial

/-- The same for `many_till`. -/
def Tills (g : CRule → Gr) (a b : Gr) (acc : List Val) (s : List Token) : CRes → Prop
  | .ok r vs => ∃ us ws, vs = .many (acc ++ us) :: ws ∧ Peg g (.manyTill a b) s (.ok r.list (.many us :: ws))
  | .error _ => Peg g (.manyTill a b) s .error
  | .failure _ => Peg g (.manyTill a b) s .failure

theorem tillLoop_means {g : CRule → Gr} {a b : Gr} {p q : CParser} (hp : Means g a p) (hq : Means g b q) :
    ∀ (fuel : Nat) (s : Toks) (acc : List Val), (tillLoop p q fuel s acc).All (Tills g a b acc s.list) := by
  intro fuel
  induction fuel with
  | zero => intros; trivial
  | succ fuel ih =>
    intro s acc
    unfold tillLoop
    refine (hq s).bind ?_
    intro res hb
    cases res with
    | ok rest ws => exact ⟨[], ws, by simp, .tillEnd hb⟩
    | failure e => exact .tillFailure hb
    | error e =>
      refine (hp s).bind ?_
      intro res ha
      cases res with
      | error e => exact .tillItem hb ha trivial
      | failure e => exact .tillItem hb ha trivial
      | ok rest vs =>
        simp only
        split
        · rename_i he
          exact .tillStuck hb ha he
        · rename_i he
          refine (ih rest (acc ++ vs)).mono ?_
          intro res h
          cases res with
          | ok r us =>
            obtain ⟨us, ws, rfl, h⟩ := h
            exact ⟨vs ++ us, ws, by simp, .tillMore hb ha he h⟩
          | error e => exact .tillLater hb ha he h trivial
          | failure e => exact .tillLater hb ha he h trivial

theorem means_inv (g : CRule → Gr) : Inv (Means g) where
  eps := fun _ => .eps
  raw := fun sel s => by
    unfold rawC
    split
    · rename_i hl
      show Peg g _ s.list _
      rw [hl]; exact .rawEnd
    · rename_i t ts hl
      split
      · rename_i ht
        show Peg g _ s.list _
        rw [hl]; exact .raw ht
      · rename_i ht
        show Peg g _ s.list _
        rw [hl]; exact .rawOther ht
  any := fun k s => by
    unfold anyC
    split
    · rename_i hl
      show Peg g _ s.list _
      rw [hl]; exact .anyEnd
    · rename_i t ts hl
      show Peg g _ s.list _
      rw [hl]; exact .any
  seq := fun {a b p q} hp hq s => by
    refine (hp s).bind ?_
    intro res ha
    cases res with
    | ok rest vs =>
      refine (hq rest).bind ?_
      intro res' hb
      cases res' with
      | ok rest' ws => exact .seq ha hb
      | error e => exact .seqSecond ha hb trivial
      | failure e => exact .seqSecond ha hb trivial
    | error e => exact .seqFirst ha trivial
    | failure e => exact .seqFirst ha trivial
  alt := fun {a b p q} hp hq s => by
    refine (hp s).bind ?_
    intro res ha
    cases res with
    | ok rest vs => exact .altFirst ha (by simp [CRes.outcome])
    | failure e => exact .altFirst ha (by simp [CRes.outcome])
    | error e =>
      refine (hq s).bind ?_
      intro res' hb
      cases res' with
      | error e' => exact .altSecond ha hb
      | ok rest' ws => exact .altSecond ha hb
      | failure e' => exact .altSecond ha hb
  opt := fun {a p} hp s => by
    refine (hp s).bind ?_
    intro res ha
    cases res with
    | ok rest vs => exact .optPresent ha
    | failure e => exact .optFailure ha
    | error e => exact .optAbsent ha
  many0 := fun {a p} hp s => by
    refine (manyLoop_means hp .many0 (s.list.length + 1) s []).mono ?_
    intro res h
    cases res with
    | ok r vs =>
      obtain ⟨ws, rfl, h⟩ := h
      exact h
    | error e => exact h
    | failure e => exact h
  many1 := fun {a p} hp s => by
    refine (hp s).bind ?_
    intro res ha
    cases res with
    | ok rest vs =>
      refine (manyLoop_means hp .many1 (rest.list.length + 1) rest vs).mono ?_
      intro res h
      cases res with
      | ok r us =>
        obtain ⟨ws, rfl, h⟩ := h
        exact .many1 ha h
      | error e => exact .many1Later ha h trivial
      | failure e => exact .many1Later ha h trivial
    | failure e => exact .many1First ha trivial
    | error e => exact .many1First ha trivial
  manyTill := fun {a b p q} hp hq s => by
    refine (tillLoop_means hp hq (s.list.length + 1) s []).mono ?_
    intro res h
    cases res with
    | ok r vs =>
      obtain ⟨us, ws, rfl, h⟩ := h
      exact h
    | error e => exact h
    | failure e => exact h
  not := fun {a p} hp s => by
    refine (hp s).bind ?_
    intro res ha
    cases res with
    | ok rest vs => exact .notThere ha
    | failure e => exact .notFailure ha
    | error e => exact .not ha
  cut := fun {a p} hp s => by
    refine (hp s).bind ?_
    intro res ha
    cases res with
    | ok rest vs => exact .cut ha (by simp [CRes.outcome])
    | failure e => exact .cut ha (by simp [CRes.outcome])
    | error e => exact .cutError ha
  mustConsume := fun n {a p} hp s => by
    refine (hp s).bind ?_
    intro res ha
    cases res with
    | ok rest vs =>
      simp only
      split
      · rename_i he; exact .mustEmpty ha he
      · rename_i he; exact .must ha he
    | failure e => exact .mustBad ha trivial
    | error e => exact .mustBad ha trivial
  postCond := fun c {a p} hp s => by
    refine (hp s).bind ?_
    intro res ha
    cases res with
    | ok rest vs =>
      simp only
      split
      · rename_i he; exact .post ha he
      · rename_i he; exact .postViolated ha (by simpa using he)
    | failure e => exact .postBad ha trivial
    | error e => exact .postBad ha trivial
  wrap := fun sh {a p} hp s => by
    refine (hp s).bind ?_
    intro res ha
    cases res with
    | ok rest vs => exact .wrap ha
    | failure e => exact .wrapBad ha trivial
    | error e => exact .wrapBad ha trivial

theorem runCst_means (r : CRule) : Means cst (.call r) (runCst r) := by
  intro s
  rw [runCst_def]
  exact (means_inv cst).evalCst (g := cst) (fun _ _ => trivial) (fun r p hp s => (hp s).mono fun _ h => .call h) (cstFuel s) r s

end Sneturfahi
