import Verif.Model.Cst

/-!
# The parser does not depend on where the tokens are stored
-/

namespace Sneturfahi

/-- The same tokens `d` places further on in memory. -/
def Toks.shift (d : Nat) (t : Toks) : Toks := ⟨t.ptr + d, t.list⟩
def Located.shift (d : Nat) (e : Located) : Located := ⟨e.location.shift d, e.error⟩
def CRes.shift (d : Nat) : CRes → CRes
  | .ok rest vs => .ok (rest.shift d) vs
  | .error e => .error (e.shift d)
  | .failure e => .failure (e.shift d)

def ShiftsAt (a : CParser) : Prop := ∀ d input, a (input.shift d) = (CRes.shift d <$> a input)

theorem Located.or_shift (d : Nat) (e e' : Located) : (e.shift d).or (e'.shift d) = (e.or e').shift d := by
  obtain ⟨⟨p, l⟩, x⟩ := e
  obtain ⟨⟨p', l'⟩, x'⟩ := e'
  simp only [Located.or, Located.shift, Toks.shift]
  by_cases h : p = p'
  · subst h
    simp only [ne_eq, not_true_eq_false, if_false]
    split
    · split <;> rfl
    · rfl
  · have h1 : p + d ≠ p' + d := by omega
    have h2 : p ≠ p' := h
    simp only [if_pos h1, if_pos h2, Nat.add_le_add_iff_right]
    split <;> rfl

theorem rawC_shift (s : Selmaho) : ShiftsAt (rawC s) := by
  intro d input
  unfold rawC
  cases input with
  | mk ptr list =>
    cases list with
    | nil => rfl
    | cons t ts =>
      simp only [Toks.shift]
      split
      · simp only [Exec.pure_eq, Exec.map_val, CRes.shift, Toks.shift]
        rw [Nat.add_right_comm]
      · simp only [Exec.pure_eq, Exec.map_val, CRes.shift, Toks.shift, Located.shift]
        rw [Nat.add_right_comm]

theorem anyC_shift (k : LeafKind) : ShiftsAt (anyC k) := by
  intro d input
  unfold anyC
  cases input with
  | mk ptr list =>
    cases list with
    | nil => rfl
    | cons t ts =>
      simp only [Toks.shift, Exec.pure_eq, Exec.map_val, CRes.shift]
      rw [Nat.add_right_comm]

theorem seqC_shift {a b : CParser} (ha : ShiftsAt a) (hb : ShiftsAt b) : ShiftsAt (seqC a b) := by
  intro d input
  unfold seqC
  rw [ha]
  cases a input with
  | panic => rfl
  | diverge => rfl
  | val r =>
    cases r with
    | error e => rfl
    | failure e => rfl
    | ok rest vs =>
      simp only [Exec.map_val, CRes.shift, Exec.val_bind]
      rw [hb]
      cases b rest with
      | panic => rfl
      | diverge => rfl
      | val r => cases r <;> rfl

theorem altC_shift {a b : CParser} (ha : ShiftsAt a) (hb : ShiftsAt b) : ShiftsAt (altC a b) := by
  intro d input
  unfold altC
  rw [ha]
  cases a input with
  | panic => rfl
  | diverge => rfl
  | val r =>
    cases r with
    | ok rest vs => rfl
    | failure e => rfl
    | error e =>
      simp only [Exec.map_val, CRes.shift, Exec.val_bind]
      rw [hb]
      cases b input with
      | panic => rfl
      | diverge => rfl
      | val r =>
        cases r with
        | ok rest vs => rfl
        | failure e => rfl
        | error e' =>
          simp only [Exec.map_val, CRes.shift, Exec.val_bind, Exec.pure_eq, Located.or_shift]

theorem optC_shift {a : CParser} (ha : ShiftsAt a) : ShiftsAt (optC a) := by
  intro d input
  unfold optC
  rw [ha]
  cases a input with
  | panic => rfl
  | diverge => rfl
  | val r => cases r <;> rfl

theorem notC_shift {a : CParser} (ha : ShiftsAt a) : ShiftsAt (notC a) := by
  intro d input
  unfold notC
  rw [ha]
  cases a input with
  | panic => rfl
  | diverge => rfl
  | val r => cases r <;> rfl

theorem cutC_shift {a : CParser} (ha : ShiftsAt a) : ShiftsAt (cutC a) := by
  intro d input
  unfold cutC
  rw [ha]
  cases a input with
  | panic => rfl
  | diverge => rfl
  | val r => cases r <;> rfl

theorem wrapC_shift {a : CParser} (sh : CShape) (ha : ShiftsAt a) : ShiftsAt (wrapC sh a) := by
  intro d input
  unfold wrapC
  rw [ha]
  cases a input with
  | panic => rfl
  | diverge => rfl
  | val r => cases r <;> rfl

theorem postCondC_shift {a : CParser} (c : PostCond) (ha : ShiftsAt a) : ShiftsAt (postCondC c a) := by
  intro d input
  unfold postCondC
  rw [ha]
  cases a input with
  | panic => rfl
  | diverge => rfl
  | val r =>
    cases r with
    | ok rest vs =>
      simp only [Exec.map_val, CRes.shift, Exec.val_bind]
      split <;> rfl
    | failure e => rfl
    | error e => rfl

theorem mustConsumeC_shift {a : CParser} (n : NodeName) (ha : ShiftsAt a) : ShiftsAt (mustConsumeC n a) := by
  intro d input
  unfold mustConsumeC
  rw [ha]
  cases a input with
  | panic => rfl
  | diverge => rfl
  | val r =>
    cases r with
    | ok rest vs =>
      simp only [Exec.map_val, CRes.shift, Exec.val_bind, Toks.shift]
      by_cases hc : rest.list.length = input.list.length <;> simp [hc, CRes.shift, Located.shift, Toks.shift]
    | failure e => rfl
    | error e => rfl

theorem manyLoop_shift {a : CParser} (k : NomKind) (ha : ShiftsAt a) (d : Nat) : ∀ fuel input acc,
    manyLoop a k fuel (input.shift d) acc = (CRes.shift d <$> manyLoop a k fuel input acc) := by
  intro fuel
  induction fuel with
  | zero => intros; rfl
  | succ fuel ih =>
    intro input acc
    unfold manyLoop
    rw [ha]
    cases a input with
    | panic => rfl
    | diverge => rfl
    | val r =>
      cases r with
      | failure e => rfl
      | error e => rfl
      | ok rest vs =>
        simp only [Exec.map_val, CRes.shift, Exec.val_bind]
        rw [ih]
        simp only [Toks.shift]
        by_cases hc : rest.list.length = input.list.length <;> simp [hc, CRes.shift, Located.shift, Toks.shift, Located.ofKind]

theorem many0C_shift {a : CParser} (ha : ShiftsAt a) : ShiftsAt (many0C a) := by
  intro d input
  exact manyLoop_shift _ ha d _ _ _

theorem many1C_shift {a : CParser} (ha : ShiftsAt a) : ShiftsAt (many1C a) := by
  intro d input
  unfold many1C
  rw [ha]
  cases a input with
  | panic => rfl
  | diverge => rfl
  | val r =>
    cases r with
    | failure e => rfl
    | error e => rfl
    | ok rest vs => exact manyLoop_shift _ ha d _ _ _

theorem tillLoop_shift {a stop : CParser} (ha : ShiftsAt a) (hs : ShiftsAt stop) (d : Nat) : ∀ fuel input acc,
    tillLoop a stop fuel (input.shift d) acc = (CRes.shift d <$> tillLoop a stop fuel input acc) := by
  intro fuel
  induction fuel with
  | zero => intros; rfl
  | succ fuel ih =>
    intro input acc
    unfold tillLoop
    rw [hs]
    cases stop input with
    | panic => rfl
    | diverge => rfl
    | val r =>
      cases r with
      | failure e => rfl
      | ok rest vs => rfl
      | error e =>
        simp only [Exec.map_val, CRes.shift, Exec.val_bind]
        rw [ha]
        cases a input with
        | panic => rfl
        | diverge => rfl
        | val r =>
          cases r with
          | failure e => rfl
          | error e => rfl
          | ok rest vs =>
            simp only [Exec.map_val, CRes.shift, Exec.val_bind]
            rw [ih]
            simp only [Toks.shift]
            by_cases hc : rest.list.length = input.list.length <;> simp [hc, CRes.shift, Located.shift, Toks.shift, Located.ofKind]

theorem evalGr_shift {call : CRule → CParser} (hc : ∀ r, ShiftsAt (call r)) : ∀ g, ShiftsAt (evalGr call g)
  | .eps => fun _ _ => rfl
  | .raw s => rawC_shift s
  | .any k => anyC_shift k
  | .call r => hc r
  | .seq a b => seqC_shift (evalGr_shift hc a) (evalGr_shift hc b)
  | .alt a b => altC_shift (evalGr_shift hc a) (evalGr_shift hc b)
  | .opt a => optC_shift (evalGr_shift hc a)
  | .many0 a => many0C_shift (evalGr_shift hc a)
  | .many1 a => many1C_shift (evalGr_shift hc a)
  | .manyTill a stop => fun d _ => tillLoop_shift (evalGr_shift hc a) (evalGr_shift hc stop) d _ _ _
  | .not a => notC_shift (evalGr_shift hc a)
  | .cut a => cutC_shift (evalGr_shift hc a)
  | .mustConsume n a => mustConsumeC_shift n (evalGr_shift hc a)
  | .postCond c a => postCondC_shift c (evalGr_shift hc a)
  | .wrap sh a => wrapC_shift sh (evalGr_shift hc a)

theorem evalCst_shift (g : CRule → Gr) : ∀ fuel r, ShiftsAt (evalCst g fuel r)
  | 0, _ => fun _ _ => rfl
  | fuel + 1, r => evalGr_shift (evalCst_shift g fuel) (g r)

theorem allConsumingC_shift {a : CParser} (ha : ShiftsAt a) : ShiftsAt (allConsumingC a) := by
  intro d input
  unfold allConsumingC
  rw [ha]
  cases a input with
  | panic => rfl
  | diverge => rfl
  | val r =>
    cases r with
    | ok rest vs =>
      simp only [Exec.map_val, CRes.shift, Exec.val_bind, Toks.shift]
      by_cases hc : rest.list.length = 0 <;> simp [hc, CRes.shift, Located.shift, Toks.shift, Located.ofKind]
    | failure e => rfl
    | error e => rfl

/-- What `Cst::parse` answers for tokens stored elsewhere. -/
theorem parseCst_shift (p : Profile) (d : Nat) (input : Toks) :
    parseCst p (input.shift d) = (Except.mapError (Located.shift d) <$> parseCst p input) := by
  have ha : ShiftsAt (allConsumingC (runCst .Text)) := by
    apply allConsumingC_shift
    intro d input
    exact evalCst_shift _ _ _ d input
  unfold parseCst
  rw [ha]
  cases allConsumingC (runCst .Text) input with
  | panic => rfl
  | diverge => rfl
  | val r =>
    cases r with
    | error e => rfl
    | failure e => rfl
    | ok rest vs =>
      simp only [Exec.map_val, CRes.shift, Exec.val_bind, Toks.shift]
      by_cases hc : p = .debug ∧ rest.list ≠ []
      · simp only [if_pos hc]; rfl
      · simp only [if_neg hc]
        split <;> rfl

end Sneturfahi
