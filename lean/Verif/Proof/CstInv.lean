import Verif.Spec.Tree

/-!
# Invariants of generated parsers

A property of parsers that every combinator preserves holds of every production (`Inv.evalCst`).
-/

namespace Sneturfahi

open Spec

/-- `P` holds of the value if there is one; there is no panic. -/
def Exec.All {α : Type} (P : α → Prop) : Exec α → Prop
  | .val a => P a
  | .panic => False
  | .diverge => True

@[simp] theorem Exec.All_val {α : Type} (P : α → Prop) (a : α) : (Exec.val a).All P ↔ P a := Iff.rfl
@[simp] theorem Exec.All_panic {α : Type} (P : α → Prop) : (Exec.panic : Exec α).All P ↔ False := Iff.rfl
@[simp] theorem Exec.All_diverge {α : Type} (P : α → Prop) : (Exec.diverge : Exec α).All P ↔ True := Iff.rfl

theorem Exec.All.bind {α β : Type} {P : α → Prop} {Q : β → Prop} {x : Exec α} {f : α → Exec β} (h : x.All P)
    (hf : ∀ a, P a → (f a).All Q) : (x >>= f).All Q := by
  cases x with
  | val a => exact hf a h
  | panic => exact h.elim
  | diverge => trivial

theorem Exec.All.mono {α : Type} {P Q : α → Prop} {x : Exec α} (h : x.All P) (hpq : ∀ a, P a → Q a) : x.All Q := by
  cases x with
  | val a => exact hpq a h
  | panic => exact h.elim
  | diverge => trivial

/-- What has to be checked of a property of parsers, for each construct. -/
structure Inv (Q : Gr → CParser → Prop) : Prop where
  eps : Q .eps (fun input => pure (.ok input []))
  raw : ∀ s, Q (.raw s) (rawC s)
  any : ∀ k, Q (.any k) (anyC k)
  seq : ∀ {a b p q}, Q a p → Q b q → Q (.seq a b) (seqC p q)
  alt : ∀ {a b p q}, Q a p → Q b q → Q (.alt a b) (altC p q)
  opt : ∀ {a p}, Q a p → Q (.opt a) (optC p)
  many0 : ∀ {a p}, Q a p → Q (.many0 a) (many0C p)
  many1 : ∀ {a p}, Q a p → Q (.many1 a) (many1C p)
  manyTill : ∀ {a b p q}, Q a p → Q b q → Q (.manyTill a b) (manyTillC p q)
  not : ∀ {a p}, Q a p → Q (.not a) (notC p)
  cut : ∀ {a p}, Q a p → Q (.cut a) (cutC p)
  mustConsume : ∀ n {a p}, Q a p → Q (.mustConsume n a) (mustConsumeC n p)
  postCond : ∀ c {a p}, Q a p → Q (.postCond c a) (postCondC c p)
  wrap : ∀ sh {a p}, Q a p → Q (.wrap sh a) (wrapC sh p)

theorem Inv.evalGr {Q : Gr → CParser → Prop} (h : Inv Q) {call : CRule → CParser} (hc : ∀ r, Q (.call r) (call r))
    (e : Gr) : Q e (evalGr call e) := by
  induction e with
  | eps => exact h.eps
  | raw s => exact h.raw s
  | any k => exact h.any k
  | call r => exact hc r
  | seq a b iha ihb => exact h.seq iha ihb
  | alt a b iha ihb => exact h.alt iha ihb
  | opt a ih => exact h.opt ih
  | many0 a ih => exact h.many0 ih
  | many1 a ih => exact h.many1 ih
  | manyTill a b iha ihb => exact h.manyTill iha ihb
  | not a ih => exact h.not ih
  | cut a ih => exact h.cut ih
  | mustConsume n a ih => exact h.mustConsume n ih
  | postCond c a ih => exact h.postCond c ih
  | wrap sh a ih => exact h.wrap sh ih

theorem Inv.evalCst {Q : Gr → CParser → Prop} (h : Inv Q) {g : CRule → Gr} (h0 : ∀ r, Q (.call r) (fun _ => .diverge))
    (hcall : ∀ r p, Q (g r) p → Q (.call r) p) (fuel : Nat) (r : CRule) : Q (.call r) (evalCst g fuel r) := by
  induction fuel generalizing r with
  | zero => exact h0 r
  | succ fuel ih => exact hcall r _ (h.evalGr ih (g r))

/-! ### Slices -/

namespace Spec

theorem Cut.refl (s : Toks) : Cut s [] s := by simp [Cut]

theorem Cut.trans {s r t : Toks} {w w' : List Token} (h : Cut s w r) (h' : Cut r w' t) : Cut s (w ++ w') t := by
  obtain ⟨h1, h2⟩ := h
  obtain ⟨h3, h4⟩ := h'
  refine ⟨by rw [h1, h3, List.append_assoc], ?_⟩
  rw [h4, h2]; simp; omega

theorem Cut.one {s : Toks} {t : Token} {ts : List Token} (h : s.list = t :: ts) : Cut s [t] ⟨s.ptr + 1, ts⟩ := by
  simp [Cut, h]

/-- Two tails at the same address are the same. -/
theorem Cut.same {s r r' : Toks} {w w' : List Token} (h : Cut s w r) (h' : Cut s w' r') (hp : r.ptr = r'.ptr) :
    w = w' ∧ r = r' := by
  obtain ⟨h1, h2⟩ := h
  obtain ⟨h3, h4⟩ := h'
  have hl : w.length = w'.length := by omega
  rw [h1] at h3
  obtain ⟨e1, e2⟩ := List.append_inj h3 hl
  refine ⟨e1, ?_⟩
  cases r; cases r'
  simp_all

theorem Cut.length {s r : Toks} {w : List Token} (h : Cut s w r) : s.list.length = w.length + r.list.length := by
  rw [h.1]; simp

end Spec

theorem tokensL_append (a b : List Val) : tokensL (a ++ b) = tokensL a ++ tokensL b := by
  induction a with
  | nil => simp [tokensL]
  | cons v a ih => simp [tokensL, ih]

theorem tokens_build (sh : CShape) (vs : List Val) : tokens (sh.build vs) = tokensL vs := by
  unfold CShape.build
  split <;> simp [tokens, tokensL]

/-! ### Success consumes its tokens, errors point into the input -/

/-- What the error says about the tokens `w` before its location and the tokens `rest` from there on. -/
def GotOK (w rest : List Token) : CstError → Prop
  | .expectedGot ex none => ex ≠ [] ∧ rest = []
  | .expectedGot ex (some t) => ex ≠ [] ∧ (∃ w', w = w' ++ [t]) ∧ t.selmaho ∉ ex
  | _ => True

/-- An error of a parser run on `s`. -/
def ErrOK (s : Toks) (e : Located) : Prop := ∃ w, Cut s w e.location ∧ GotOK w e.location.list e.error

theorem GotOK.lift {w' w rest : List Token} {e : CstError} (h : GotOK w rest e) : GotOK (w' ++ w) rest e := by
  cases e with
  | expectedGot ex got =>
    cases got with
    | none => exact h
    | some t =>
      obtain ⟨h1, ⟨u, rfl⟩, h2⟩ := h
      exact ⟨h1, ⟨w' ++ u, by simp⟩, h2⟩
  | _ => trivial

theorem ErrOK.lift {s r : Toks} {w : List Token} {e : Located} (h : Cut s w r) (he : ErrOK r e) : ErrOK s e := by
  obtain ⟨w', h1, h2⟩ := he
  exact ⟨w ++ w', h.trans h1, h2.lift⟩

theorem ErrOK.or {s : Toks} {e e' : Located} (h : ErrOK s e) (h' : ErrOK s e') : ErrOK s (e.or e') := by
  unfold Located.or
  split
  · split
    · exact h'
    · exact h
  · rename_i hp
    simp only [ne_eq, Decidable.not_not] at hp
    obtain ⟨w, h1, h2⟩ := h
    obtain ⟨w', h3, h4⟩ := h'
    obtain ⟨rfl, hl⟩ := h1.same h3 hp
    split
    · rename_i ex g ex' g' he he'
      split
      · rename_i hg
        subst hg
        refine ⟨w, h1, ?_⟩
        rw [he] at h2
        rw [he'] at h4
        cases g with
        | none => exact ⟨by simp [h2.1], h2.2⟩
        | some t =>
          exact ⟨by simp [h2.1], h2.2.1, by simp [h2.2.2, h4.2.2]⟩
      · exact ⟨w, h3, h4⟩
    · exact ⟨w, h3, h4⟩

theorem ErrOK.here (s : Toks) {e : CstError} (h : ∀ ex g, e ≠ .expectedGot ex g) : ErrOK s ⟨s, e⟩ := by
  refine ⟨[], Cut.refl s, ?_⟩
  cases e with
  | expectedGot ex g => exact absurd rfl (h ex g)
  | _ => trivial

/-- What the outcome of a parser run on `s` looks like. -/
def ResOK (s : Toks) : CRes → Prop
  | .ok r vs => Cut s (tokensL vs) r
  | .error e => ErrOK s e
  | .failure e => ErrOK s e

/-- `p` consumes exactly the tokens of its value, and its errors point into its input. -/
def Sound (p : CParser) : Prop := ∀ s, (p s).All (ResOK s)

theorem manyLoop_sound {p : CParser} (hp : Sound p) (k : NomKind) : ∀ (fuel : Nat) (s r : Toks) (acc : List Val),
    Cut s (tokensL acc) r → (manyLoop p k fuel r acc).All (ResOK s) := by
  intro fuel
  induction fuel with
  | zero => intros; trivial
  | succ fuel ih =>
    intro s r acc hc
    unfold manyLoop
    refine (hp r).bind ?_
    intro res hres
    cases res with
    | error e => simpa [ResOK, tokensL, tokens] using hc
    | failure e => exact ErrOK.lift hc hres
    | ok rest vs =>
      simp only
      split
      · exact ErrOK.lift hc (ErrOK.here r (by simp))
      · exact ih s rest (acc ++ vs) (by rw [tokensL_append]; exact hc.trans hres)

theorem tillLoop_sound {p q : CParser} (hp : Sound p) (hq : Sound q) : ∀ (fuel : Nat) (s r : Toks) (acc : List Val),
    Cut s (tokensL acc) r → (tillLoop p q fuel r acc).All (ResOK s) := by
  intro fuel
  induction fuel with
  | zero => intros; trivial
  | succ fuel ih =>
    intro s r acc hc
    unfold tillLoop
    refine (hq r).bind ?_
    intro res hres
    cases res with
    | ok rest ws =>
      show Cut _ _ _
      simp only [tokensL, tokens]
      exact hc.trans hres
    | failure e => exact ErrOK.lift hc hres
    | error e =>
      refine (hp r).bind ?_
      intro res' hres'
      cases res' with
      | error e' => exact ErrOK.lift hc hres'
      | failure e' => exact ErrOK.lift hc hres'
      | ok rest vs =>
        simp only
        split
        · exact ErrOK.lift hc (ErrOK.here r (by simp))
        · exact ih s rest (acc ++ vs) (by rw [tokensL_append]; exact hc.trans hres')

theorem sound_inv : Inv (fun _ p => Sound p) where
  eps := fun s => Cut.refl s
  raw := fun sel s => by
    unfold rawC
    split
    · rename_i h
      refine ⟨[], Cut.refl s, ?_⟩
      simp [GotOK, h]
    · rename_i t ts h
      split
      · simpa [ResOK, tokensL, tokens] using Cut.one h
      · rename_i hne
        exact ⟨[t], Cut.one h, by simp [GotOK, hne]⟩
  any := fun k s => by
    unfold anyC
    split
    · exact ErrOK.here s (by simp)
    · rename_i t ts h
      simpa [ResOK, tokensL, tokens] using Cut.one h
  seq := fun {a b p q} hp hq s => by
    refine (hp s).bind ?_
    intro res hres
    cases res with
    | ok rest vs =>
      refine (hq rest).bind ?_
      intro res' hres'
      cases res' with
      | ok rest' ws =>
        show Cut _ _ _
        rw [tokensL_append]
        exact hres.trans hres'
      | error e => exact ErrOK.lift hres hres'
      | failure e => exact ErrOK.lift hres hres'
    | error e => exact hres
    | failure e => exact hres
  alt := fun {a b p q} hp hq s => by
    refine (hp s).bind ?_
    intro res hres
    cases res with
    | ok rest vs => exact hres
    | failure e => exact hres
    | error e =>
      refine (hq s).bind ?_
      intro res' hres'
      cases res' with
      | error e' => exact ErrOK.or hres hres'
      | ok rest' ws => exact hres'
      | failure e' => exact hres'
  opt := fun {a p} hp s => by
    refine (hp s).bind ?_
    intro res hres
    cases res with
    | ok rest vs => simpa [ResOK, tokensL, tokens] using hres
    | failure e => exact hres
    | error e => simpa [ResOK, tokensL, tokens] using Cut.refl s
  many0 := fun {a p} hp s => manyLoop_sound hp _ _ s s [] (by simpa [tokensL] using Cut.refl s)
  many1 := fun {a p} hp s => by
    refine (hp s).bind ?_
    intro res hres
    cases res with
    | ok rest vs => exact manyLoop_sound hp _ _ s rest vs hres
    | failure e => exact hres
    | error e => exact hres
  manyTill := fun {a b p q} hp hq s => tillLoop_sound hp hq _ s s [] (by simpa [tokensL] using Cut.refl s)
  not := fun {a p} hp s => by
    refine (hp s).bind ?_
    intro res hres
    cases res with
    | ok rest vs => exact ErrOK.here s (by simp)
    | failure e => exact hres
    | error e => simpa [ResOK, tokensL, tokens] using Cut.refl s
  cut := fun {a p} hp s => by
    refine (hp s).bind ?_
    intro res hres
    cases res <;> exact hres
  mustConsume := fun n {a p} hp s => by
    refine (hp s).bind ?_
    intro res hres
    cases res with
    | ok rest vs =>
      simp only
      split
      · exact ErrOK.here s (by simp)
      · exact hres
    | failure e => exact hres
    | error e => exact hres
  postCond := fun c {a p} hp s => by
    refine (hp s).bind ?_
    intro res hres
    cases res with
    | ok rest vs =>
      simp only
      split
      · exact hres
      · exact ErrOK.here s (by simp)
    | failure e => exact hres
    | error e => exact hres
  wrap := fun sh {a p} hp s => by
    refine (hp s).bind ?_
    intro res hres
    cases res with
    | ok rest vs =>
      show Cut _ _ _
      have h : Cut s (tokensL vs) rest := hres
      simpa [tokensL, tokens_build] using h
    | failure e => exact hres
    | error e => exact hres

theorem evalCst_sound (g : CRule → Gr) (fuel : Nat) (r : CRule) : Sound (evalCst g fuel r) :=
  sound_inv.evalCst (Q := fun _ p => Sound p) (fun _ _ => trivial) (fun _ _ h => h) fuel r

end Sneturfahi
