import Verif.Proof.CstWF

/-!
# Unfolding `runCst`

More fuel does not change an outcome, so `runCst` satisfies the equation of the recursion it models.
-/

namespace Sneturfahi

/-- What has to be checked of a relation between parsers, for each construct. -/
structure Inv2 (Q : CParser → CParser → Prop) : Prop where
  eps : Q (fun input => pure (.ok input [])) (fun input => pure (.ok input []))
  raw : ∀ s, Q (rawC s) (rawC s)
  any : ∀ k, Q (anyC k) (anyC k)
  seq : ∀ {p q p' q'}, Q p p' → Q q q' → Q (seqC p q) (seqC p' q')
  alt : ∀ {p q p' q'}, Q p p' → Q q q' → Q (altC p q) (altC p' q')
  opt : ∀ {p p'}, Q p p' → Q (optC p) (optC p')
  many0 : ∀ {p p'}, Q p p' → Q (many0C p) (many0C p')
  many1 : ∀ {p p'}, Q p p' → Q (many1C p) (many1C p')
  manyTill : ∀ {p q p' q'}, Q p p' → Q q q' → Q (manyTillC p q) (manyTillC p' q')
  not : ∀ {p p'}, Q p p' → Q (notC p) (notC p')
  cut : ∀ {p p'}, Q p p' → Q (cutC p) (cutC p')
  mustConsume : ∀ n {p p'}, Q p p' → Q (mustConsumeC n p) (mustConsumeC n p')
  postCond : ∀ c {p p'}, Q p p' → Q (postCondC c p) (postCondC c p')
  wrap : ∀ sh {p p'}, Q p p' → Q (wrapC sh p) (wrapC sh p')

theorem Inv2.evalGr {Q : CParser → CParser → Prop} (h : Inv2 Q) {call call' : CRule → CParser}
    (hc : ∀ r, Q (call r) (call' r)) (e : Gr) : Q (evalGr call e) (evalGr call' e) := by
  induction e with
  | eps => exact h.eps
  | raw s => exact h.raw s
  | any k => exact h.any k
  | call r => exact hc r
  | seq a b iha ihb => exact h.seq iha ihb
  | alt a b iha ihb => exact h.alt iha ihb
  | opt a ih => exact h.opt ih
  | many0 a ih => exact h.many0 ih
  | many1 a ih => exact h.many1 ih
  | manyTill a b iha ihb => exact h.manyTill iha ihb
  | not a ih => exact h.not ih
  | cut a ih => exact h.cut ih
  | mustConsume n a ih => exact h.mustConsume n ih
  | postCond c a ih => exact h.postCond c ih
  | wrap sh a ih => exact h.wrap sh ih

theorem Inv2.evalCst {Q : CParser → CParser → Prop} (h : Inv2 Q) (h0 : Q (fun _ => .diverge) (fun _ => .diverge))
    (g : CRule → Gr) (fuel : Nat) (r : CRule) : Q (evalCst g fuel r) (evalCst g fuel r) := by
  induction fuel generalizing r with
  | zero => exact h0
  | succ fuel ih => exact h.evalGr ih (g r)

/-- `q` gives every outcome that `p` gives. -/
def Extends (p q : CParser) : Prop := ∀ s res, p s = .val res → q s = .val res

theorem Exec.bind_eq_val {α β : Type} {x : Exec α} {f : α → Exec β} {b : β} :
    (x >>= f) = .val b ↔ ∃ a, x = .val a ∧ f a = .val b := by
  cases x with
  | val a => simp
  | panic => simp
  | diverge => simp

theorem manyLoop_extends {p q : CParser} (h : Extends p q) (k : NomKind) : ∀ (fuel : Nat) (s : Toks) (acc : List Val)
    (res : CRes), manyLoop p k fuel s acc = .val res → manyLoop q k fuel s acc = .val res := by
  intro fuel
  induction fuel with
  | zero => intro s acc res h; simp [manyLoop] at h
  | succ fuel ih =>
    intro s acc res hm
    unfold manyLoop at hm ⊢
    obtain ⟨a, ha, hm⟩ := Exec.bind_eq_val.mp hm
    rw [h s a ha]
    cases a with
    | ok rest vs =>
      simp only [Exec.val_bind] at hm ⊢
      split
      · rename_i he; rw [if_pos he] at hm; exact hm
      · rename_i he; rw [if_neg he] at hm; exact ih _ _ _ hm
    | error e => exact hm
    | failure e => exact hm

theorem tillLoop_extends {p q p' q' : CParser} (h : Extends p p') (h' : Extends q q') : ∀ (fuel : Nat) (s : Toks) (acc : List Val)
    (res : CRes), tillLoop p q fuel s acc = .val res → tillLoop p' q' fuel s acc = .val res := by
  intro fuel
  induction fuel with
  | zero => intro s acc res h; simp [tillLoop] at h
  | succ fuel ih =>
    intro s acc res hm
    unfold tillLoop at hm ⊢
    obtain ⟨a, ha, hm⟩ := Exec.bind_eq_val.mp hm
    rw [h' s a ha]
    cases a with
    | ok rest vs => exact hm
    | failure e => exact hm
    | error e =>
      simp only [Exec.val_bind] at hm ⊢
      obtain ⟨a, ha, hm⟩ := Exec.bind_eq_val.mp hm
      rw [h s a ha]
      cases a with
      | ok rest vs =>
        simp only [Exec.val_bind] at hm ⊢
        split
        · rename_i he; rw [if_pos he] at hm; exact hm
        · rename_i he; rw [if_neg he] at hm; exact ih _ _ _ hm
      | error e => exact hm
      | failure e => exact hm

theorem extends_inv : Inv2 Extends where
  eps := fun _ _ h => h
  raw := fun _ _ _ h => h
  any := fun _ _ _ h => h
  seq := fun {p q p' q'} h h' s res hm => by
    unfold seqC at hm ⊢
    obtain ⟨a, ha, hm⟩ := Exec.bind_eq_val.mp hm
    rw [h s a ha]
    cases a with
    | ok rest vs =>
      simp only [Exec.val_bind] at hm ⊢
      obtain ⟨a, ha, hm⟩ := Exec.bind_eq_val.mp hm
      rw [h' _ a ha]
      exact hm
    | error e => exact hm
    | failure e => exact hm
  alt := fun {p q p' q'} h h' s res hm => by
    unfold altC at hm ⊢
    obtain ⟨a, ha, hm⟩ := Exec.bind_eq_val.mp hm
    rw [h s a ha]
    cases a with
    | error e =>
      simp only [Exec.val_bind] at hm ⊢
      obtain ⟨a, ha, hm⟩ := Exec.bind_eq_val.mp hm
      rw [h' _ a ha]
      exact hm
    | ok rest vs => exact hm
    | failure e => exact hm
  opt := fun {p p'} h s res hm => by
    unfold optC at hm ⊢
    obtain ⟨a, ha, hm⟩ := Exec.bind_eq_val.mp hm
    rw [h s a ha]; exact hm
  many0 := fun {p p'} h s res hm => manyLoop_extends h _ _ _ _ _ hm
  many1 := fun {p p'} h s res hm => by
    unfold many1C at hm ⊢
    obtain ⟨a, ha, hm⟩ := Exec.bind_eq_val.mp hm
    rw [h s a ha]
    cases a with
    | ok rest vs => exact manyLoop_extends h _ _ _ _ _ hm
    | error e => exact hm
    | failure e => exact hm
  manyTill := fun {p q p' q'} h h' s res hm => tillLoop_extends h h' _ _ _ _ hm
  not := fun {p p'} h s res hm => by
    unfold notC at hm ⊢
    obtain ⟨a, ha, hm⟩ := Exec.bind_eq_val.mp hm
    rw [h s a ha]; exact hm
  cut := fun {p p'} h s res hm => by
    unfold cutC at hm ⊢
    obtain ⟨a, ha, hm⟩ := Exec.bind_eq_val.mp hm
    rw [h s a ha]; exact hm
  mustConsume := fun n {p p'} h s res hm => by
    unfold mustConsumeC at hm ⊢
    obtain ⟨a, ha, hm⟩ := Exec.bind_eq_val.mp hm
    rw [h s a ha]; exact hm
  postCond := fun c {p p'} h s res hm => by
    unfold postCondC at hm ⊢
    obtain ⟨a, ha, hm⟩ := Exec.bind_eq_val.mp hm
    rw [h s a ha]; exact hm
  wrap := fun sh {p p'} h s res hm => by
    unfold wrapC at hm ⊢
    obtain ⟨a, ha, hm⟩ := Exec.bind_eq_val.mp hm
    rw [h s a ha]; exact hm

theorem evalCst_succ_extends (g : CRule → Gr) (fuel : Nat) (r : CRule) :
    Extends (evalCst g fuel r) (evalCst g (fuel + 1) r) := by
  induction fuel generalizing r with
  | zero => intro s res h; simp [evalCst] at h
  | succ fuel ih => exact extends_inv.evalGr (fun r => ih r) (g r)

theorem evalCst_extends (g : CRule → Gr) {fuel fuel' : Nat} (h : fuel ≤ fuel') (r : CRule) :
    Extends (evalCst g fuel r) (evalCst g fuel' r) := by
  induction h with
  | refl => exact fun _ _ h => h
  | step _ ih => exact fun s res h => evalCst_succ_extends g _ r s res (ih s res h)

theorem runCst_def (r : CRule) (s : Toks) : runCst r s = evalCst cst (cstFuel s) r s := by rw [runCst]

theorem cstFuel_enough (w : CstWF cst) (hw : w.bound = 32) (r : CRule) (s : Toks) :
    w.bound * s.list.length + w.rank r < cstFuel s := by
  have h := w.rank_lt r
  rw [hw] at h ⊢
  unfold cstFuel
  omega

theorem cstWF_bound : cstWF.bound = 32 := rfl

/-- `runCst` ends. -/
theorem runCst_ends (r : CRule) (s : Toks) : Ends (runCst r) s := by
  obtain ⟨res, h⟩ := evalCst_ends cstWF (cstFuel s) r s (cstFuel_enough cstWF cstWF_bound r s)
  exact ⟨res, by rw [runCst_def]; exact h⟩

/-- `runCst` gives the outcome of `evalCst` whenever that has one. -/
theorem runCst_of_evalCst {fuel : Nat} {r : CRule} {s : Toks} {res : CRes} (h : evalCst cst fuel r s = .val res) :
    runCst r s = .val res := by
  obtain ⟨res', h'⟩ := runCst_ends r s
  rw [h']
  rw [runCst_def] at h'
  rcases Nat.le_total fuel (cstFuel s) with hl | hl
  · rw [← h', evalCst_extends cst hl r s res h]
  · rw [← evalCst_extends cst hl r s res' h', h]

/-- The equation of the recursion. -/
theorem runCst_eq (r : CRule) : runCst r = evalGr runCst (cst r) := by
  funext s
  obtain ⟨res, h⟩ := runCst_ends r s
  rw [h]
  symm
  have hf : cstFuel s = (cstFuel s - 1) + 1 := by unfold cstFuel; omega
  have h' := h
  rw [runCst_def, hf, evalCst] at h'
  exact extends_inv.evalGr (fun r s res h => runCst_of_evalCst h) (cst r) s res h'


theorem runCst_sound (r : CRule) : Sound (runCst r) := by
  intro s
  rw [runCst_def]
  exact evalCst_sound cst (cstFuel s) r s

theorem runCst_honest (r : CRule) : Honest cstWF.cons (.call r) (runCst r) := by
  intro s
  rw [runCst_def]
  exact evalCst_honest cstWF (cstFuel s) r s

end Sneturfahi
