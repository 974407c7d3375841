import Verif.Model.CstWork
import Verif.Proof.CstPegSpec

/-!
# The number of calls the parser makes
-/

namespace Sneturfahi

/-- `t` does what `x` does; if that ends, it makes at least `k` calls, nested at least `m` deep, and at most `M`. -/
def Uses {α : Type} (k m M : Nat) (t : Counted α) (x : Exec α) : Prop :=
  ∃ u : Used, t = x.map (fun a => (a, u)) ∧ ∀ a, x = .val a → k ≤ u.calls ∧ m ≤ u.depth ∧ u.depth ≤ M

variable {α β : Type} {k m M : Nat} {t : Counted α} {x : Exec α}

theorem uses_pure (a : α) : Uses 0 0 M (pure a : Counted α) (pure a) := ⟨⟨0, 0⟩, rfl, fun _ _ => ⟨Nat.le_refl _, Nat.le_refl _, Nat.zero_le _⟩⟩
theorem uses_lift (x : Exec α) : Uses 0 0 M (.lift x) x := ⟨⟨0, 0⟩, rfl, fun _ _ => ⟨Nat.le_refl _, Nat.le_refl _, Nat.zero_le _⟩⟩
theorem uses_diverge : Uses (α := α) k m M .diverge .diverge := ⟨⟨0, 0⟩, rfl, nofun⟩
theorem uses_panic : Uses (α := α) k m M .panic .panic := ⟨⟨0, 0⟩, rfl, nofun⟩

theorem Uses.mono {k' m' M' : Nat} (h : Uses k m M t x) (hk : k' ≤ k) (hm : m' ≤ m) (hM : M ≤ M') : Uses k' m' M' t x := by
  obtain ⟨u, h1, h2⟩ := h
  exact ⟨u, h1, fun a ha => by have := h2 a ha; omega⟩

theorem Uses.bind {k' m' : Nat} {f : α → Counted β} {g : α → Exec β} (h : Uses k m M t x)
    (hf : ∀ a, x = .val a → Uses k' m' M (f a) (g a)) : Uses (k + k') (max m m') M (t >>= f) (x >>= g) := by
  obtain ⟨u, h1, h2⟩ := h
  cases x with
  | panic => exact ⟨⟨0, 0⟩, by rw [h1]; rfl, nofun⟩
  | diverge => exact ⟨⟨0, 0⟩, by rw [h1]; rfl, nofun⟩
  | val a =>
    obtain ⟨v, h3, h4⟩ := hf a rfl
    refine ⟨u.andThen v, ?_, fun b hb => ?_⟩
    · rw [h1]
      show Exec.map _ (f a) = Exec.map _ (g a)
      rw [h3]
      cases g a <;> rfl
    · have := h2 a rfl
      have := h4 b hb
      simp only [Used.andThen]
      omega

theorem Uses.inside (h : Uses k m M t x) : Uses (k + 1) (m + 1) (M + 1) (.inside t) x := by
  obtain ⟨u, h1, h2⟩ := h
  refine ⟨u.inside, ?_, fun a ha => ?_⟩
  · rw [h1]; cases x <;> rfl
  · have := h2 a ha
    simp only [Used.inside]; omega

/-- The same, of parsers, without lower bounds. -/
def UsesP (M : Nat) (t : WParser) (p : CParser) : Prop := ∀ s, Uses 0 0 M (t s) (p s)

theorem Uses.then {f : α → Counted β} {g : α → Exec β} (h : Uses 0 0 M t x) (hf : ∀ a, Uses 0 0 M (f a) (g a)) : Uses 0 0 M (t >>= f) (x >>= g) :=
  (h.bind fun a _ => hf a).mono (Nat.le_refl _) (Nat.zero_le _) (Nat.le_refl _)

theorem uses_manyLoop {t : WParser} {p : CParser} (h : UsesP M t p) (kd : NomKind) (fuel : Nat) :
    ∀ s acc, Uses 0 0 M (manyLoopW t kd fuel s acc) (manyLoop p kd fuel s acc) := by
  induction fuel with
  | zero => intros; exact uses_diverge
  | succ fuel ih =>
    intro s acc
    refine (h s).then fun a => ?_
    cases a with
    | ok r vs =>
      show Uses 0 0 M (if _ then _ else _) (if _ then _ else _)
      split
      · exact uses_pure _
      · exact ih _ _
    | error e => exact uses_pure _
    | failure e => exact uses_pure _

theorem uses_tillLoop {t t' : WParser} {p p' : CParser} (h : UsesP M t p) (h' : UsesP M t' p') (fuel : Nat) :
    ∀ s acc, Uses 0 0 M (tillLoopW t t' fuel s acc) (tillLoop p p' fuel s acc) := by
  induction fuel with
  | zero => intros; exact uses_diverge
  | succ fuel ih =>
    intro s acc
    refine (h' s).then fun a => ?_
    cases a with
    | ok r vs => exact uses_pure _
    | failure e => exact uses_pure _
    | error e =>
      refine (h s).then fun a => ?_
      cases a with
      | ok r vs =>
        show Uses 0 0 M (if _ then _ else _) (if _ then _ else _)
        split
        · exact uses_pure _
        · exact ih _ _
      | error e => exact uses_pure _
      | failure e => exact uses_pure _

theorem uses_evalGr {callW : CRule → WParser} {call : CRule → CParser} (h : ∀ r, UsesP M (callW r) (call r)) (e : Gr) :
    UsesP M (evalGrW callW e) (evalGr call e) := by
  induction e with
  | eps => intro s; exact uses_pure _
  | raw x => intro s; exact uses_lift _
  | any k => intro s; exact uses_lift _
  | call r => exact h r
  | seq a b ha hb =>
    intro s
    refine (ha s).then fun o => ?_
    cases o with
    | ok r vs =>
      refine (hb r).then fun o => ?_
      cases o <;> exact uses_pure _
    | _ => exact uses_pure _
  | alt a b ha hb =>
    intro s
    refine (ha s).then fun o => ?_
    cases o with
    | error e =>
      refine (hb s).then fun o => ?_
      cases o <;> exact uses_pure _
    | _ => exact uses_pure _
  | many0 a ha => intro s; exact uses_manyLoop ha _ _ _ _
  | many1 a ha =>
    intro s
    refine (ha s).then fun o => ?_
    cases o with
    | ok r vs => exact uses_manyLoop ha _ _ _ _
    | _ => exact uses_pure _
  | manyTill a b ha hb => intro s; exact uses_tillLoop ha hb _ _ _
  | mustConsume n a ha =>
    intro s
    refine (ha s).then fun o => ?_
    cases o with
    | ok r vs =>
      show Uses 0 0 M (if _ then _ else _) (if _ then _ else _)
      split <;> exact uses_pure _
    | _ => exact uses_pure _
  | postCond c a ha =>
    intro s
    refine (ha s).then fun o => ?_
    cases o with
    | ok r vs =>
      show Uses 0 0 M (if _ then _ else _) (if _ then _ else _)
      split <;> exact uses_pure _
    | _ => exact uses_pure _
  | opt a ha => intro s; refine (ha s).then fun o => ?_; cases o <;> exact uses_pure _
  | not a ha => intro s; refine (ha s).then fun o => ?_; cases o <;> exact uses_pure _
  | cut a ha => intro s; refine (ha s).then fun o => ?_; cases o <;> exact uses_pure _
  | wrap sh a ha => intro s; refine (ha s).then fun o => ?_; cases o <;> exact uses_pure _

theorem uses_evalCst (g : CRule → Gr) (fuel : Nat) : ∀ r, UsesP fuel (evalCstW g fuel r) (evalCst g fuel r) := by
  induction fuel with
  | zero => intro r s; exact uses_diverge
  | succ fuel ih =>
    intro r s
    exact (uses_evalGr ih (g r) s).inside.mono (Nat.zero_le _) (Nat.zero_le _) (Nat.le_refl _)

end Sneturfahi
