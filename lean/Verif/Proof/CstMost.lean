import Verif.Proof.CstBahes

/-!
# The number of calls the parser makes, from above
-/

namespace Sneturfahi

/-- `t` does what `x` does; if that ends, it makes at most `k` calls. -/
def Most {α : Type} (k : Nat) (t : Counted α) (x : Exec α) : Prop :=
  ∃ u : Used, t = x.map (fun a => (a, u)) ∧ ∀ a, x = .val a → u.calls ≤ k

namespace Most

variable {α β : Type} {k k' : Nat} {t : Counted α} {x : Exec α}

theorem pure (a : α) : Most k (Pure.pure a : Counted α) (Pure.pure a) := ⟨⟨0, 0⟩, rfl, fun _ _ => Nat.zero_le _⟩
theorem lift (x : Exec α) : Most k (.lift x) x := ⟨⟨0, 0⟩, rfl, fun _ _ => Nat.zero_le _⟩
theorem diverge : Most (α := α) k .diverge .diverge := ⟨⟨0, 0⟩, rfl, nofun⟩

theorem mono (h : Most k t x) (hk : k ≤ k') : Most k' t x := by
  obtain ⟨u, h1, h2⟩ := h
  exact ⟨u, h1, fun a ha => Nat.le_trans (h2 a ha) hk⟩

theorem bind {f : α → Counted β} {g : α → Exec β} (h : Most k t x) (hf : ∀ a, x = .val a → Most k' (f a) (g a)) : Most (k + k') (t >>= f) (x >>= g) := by
  obtain ⟨u, h1, h2⟩ := h
  cases x with
  | panic => exact ⟨⟨0, 0⟩, by rw [h1]; rfl, nofun⟩
  | diverge => exact ⟨⟨0, 0⟩, by rw [h1]; rfl, nofun⟩
  | val a =>
    obtain ⟨v, h3, h4⟩ := hf a rfl
    refine ⟨u.andThen v, ?_, fun b hb => ?_⟩
    · rw [h1]
      show Exec.map _ (f a) = Exec.map _ (g a)
      rw [h3]
      cases g a <;> rfl
    · have := h2 a rfl
      have := h4 b hb
      simp only [Used.andThen]
      omega

/-- What comes after makes no calls. -/
theorem bind0 {f : α → Counted β} {g : α → Exec β} (h : Most k t x) (hf : ∀ a, Most 0 (f a) (g a)) : Most k (t >>= f) (x >>= g) :=
  h.bind (k' := 0) fun a _ => hf a

theorem inside (h : Most k t x) : Most (k + 1) (.inside t) x := by
  obtain ⟨u, h1, h2⟩ := h
  refine ⟨u.inside, ?_, fun a ha => ?_⟩
  · rw [h1]; cases x <;> rfl
  · have := h2 a ha
    simp only [Used.inside]; omega

end Most

/-- How many places of `e` there are where something is called, those that are repeated counted several times. -/
def sites : Gr → Nat
  | .eps => 0
  | .raw _ => 0
  | .any _ => 0
  | .call _ => 1
  | .seq a b => sites a + sites b
  | .alt a b => sites a + sites b
  | .opt a => sites a
  | .many0 a => 2 * sites a
  | .many1 a => 3 * sites a
  | .manyTill a b => 2 * (sites a + sites b)
  | .not a => sites a
  | .cut a => sites a
  | .mustConsume _ a => sites a
  | .postCond _ a => sites a
  | .wrap _ a => sites a

variable {m : Nat → Nat} {L : Nat}

theorem most_manyLoop {t : WParser} {p : CParser} {A : Nat} (hm : ∀ l, l < L → 2 * m l ≤ m (l + 1)) (hle : ∀ s r vs, p s = .val (.ok r vs) → r.list.length ≤ s.list.length)
    (kd : NomKind) (fuel : Nat) : ∀ (s : Toks) (acc : List Val), s.list.length ≤ L →
      (∀ s' : Toks, s'.list.length ≤ s.list.length → Most (A * m s'.list.length) (t s') (p s')) →
      Most (2 * A * m s.list.length) (manyLoopW t kd fuel s acc) (manyLoop p kd fuel s acc) := by
  have mono : ∀ j i, i ≤ j → j ≤ L → m i ≤ m j := by
    intro j
    induction j with
    | zero => intro i hi _; cases Nat.le_zero.mp hi; exact Nat.le_refl _
    | succ j ih =>
      intro i hi hj
      rcases Nat.lt_or_eq_of_le hi with h | rfl
      · have := ih i (by omega) (by omega)
        have := hm j (by omega)
        omega
      · exact Nat.le_refl _
  induction fuel with
  | zero => intros; exact .diverge
  | succ fuel ih =>
    intro s acc hs h
    have e : 2 * A * m s.list.length = A * m s.list.length + A * m s.list.length := by
      rw [Nat.mul_assoc, Nat.two_mul]
    rw [e]
    refine (h s (Nat.le_refl _)).bind fun o ho => ?_
    cases o with
    | ok r vs =>
      show Most _ (if _ then _ else _) (if _ then _ else _)
      split
      · exact .pure _
      · rename_i hne
        have hlt : r.list.length < s.list.length := by
          have := hle s r vs ho
          omega
        refine (ih r _ (by omega) fun s' hs' => h s' (by omega)).mono ?_
        have h1 := hm r.list.length (by omega)
        have h2 := mono s.list.length (r.list.length + 1) (by omega) hs
        have h3 : 2 * A * m r.list.length = A * (2 * m r.list.length) := by
          rw [Nat.mul_comm 2 A, Nat.mul_assoc]
        rw [h3]
        exact Nat.mul_le_mul_left A (by omega)
    | error e => exact .pure _
    | failure e => exact .pure _

theorem most_tillLoop {t t' : WParser} {p p' : CParser} {A B : Nat} (hm : ∀ l, l < L → 2 * m l ≤ m (l + 1))
    (hle : ∀ s r vs, p s = .val (.ok r vs) → r.list.length ≤ s.list.length) (fuel : Nat) : ∀ (s : Toks) (acc : List Val), s.list.length ≤ L →
      (∀ s' : Toks, s'.list.length ≤ s.list.length → Most (A * m s'.list.length) (t s') (p s') ∧ Most (B * m s'.list.length) (t' s') (p' s')) →
      Most (2 * (A + B) * m s.list.length) (tillLoopW t t' fuel s acc) (tillLoop p p' fuel s acc) := by
  have mono : ∀ j i, i ≤ j → j ≤ L → m i ≤ m j := by
    intro j
    induction j with
    | zero => intro i hi _; cases Nat.le_zero.mp hi; exact Nat.le_refl _
    | succ j ih =>
      intro i hi hj
      rcases Nat.lt_or_eq_of_le hi with h | rfl
      · have := ih i (by omega) (by omega)
        have := hm j (by omega)
        omega
      · exact Nat.le_refl _
  induction fuel with
  | zero => intros; exact .diverge
  | succ fuel ih =>
    intro s acc hs h
    have e : 2 * (A + B) * m s.list.length = B * m s.list.length + (A * m s.list.length + (A + B) * m s.list.length) := by
      rw [Nat.mul_assoc, Nat.two_mul, Nat.add_mul]
      omega
    rw [e]
    refine (h s (Nat.le_refl _)).2.bind fun o ho => ?_
    cases o with
    | ok r vs => exact .pure _
    | failure e => exact .pure _
    | error e =>
      refine (h s (Nat.le_refl _)).1.bind fun o ho => ?_
      cases o with
      | ok r vs =>
        show Most _ (if _ then _ else _) (if _ then _ else _)
        split
        · exact .pure _
        · rename_i hne
          have hlt : r.list.length < s.list.length := by
            have := hle s r vs ho
            omega
          refine (ih r _ (by omega) fun s' hs' => h s' (by omega)).mono ?_
          have h1 := hm r.list.length (by omega)
          have h2 := mono s.list.length (r.list.length + 1) (by omega) hs
          have h3 : 2 * (A + B) * m r.list.length = (A + B) * (2 * m r.list.length) := by
            rw [Nat.mul_comm 2 (A + B), Nat.mul_assoc]
          rw [h3]
          exact Nat.mul_le_mul_left (A + B) (by omega)
      | error e => exact .pure _
      | failure e => exact .pure _

/-- The calls a body makes, if those it can make are bounded by `m`, which at least doubles with each token. -/
theorem most_evalGr {g : CRule → Gr} (w : CstWF g) {callW : CRule → WParser} {call : CRule → CParser} (hcall : ∀ r, Honest w.cons (.call r) (call r))
    (n : Nat) (hm : ∀ l, l < L → 2 * m l ≤ m (l + 1))
    (hc : ∀ r (s : Toks), (s.list.length < L ∨ (s.list.length ≤ L ∧ w.rank r < n)) → Most (m s.list.length) (callW r s) (call r s)) (e : Gr) :
    ∀ s : Toks, s.list.length ≤ L → (s.list.length < L ∨ rankG w.cons w.rank n e = true) →
      Most (sites e * m s.list.length) (evalGrW callW e s) (evalGr call e s) := by
  have hon : ∀ e, Honest w.cons e (evalGr call e) := (honest_inv w.cons).evalGr hcall
  have mono : ∀ j i, i ≤ j → j ≤ L → m i ≤ m j := by
    intro j
    induction j with
    | zero => intro i hi _; cases Nat.le_zero.mp hi; exact Nat.le_refl _
    | succ j ih =>
      intro i hi hj
      rcases Nat.lt_or_eq_of_le hi with h | rfl
      · have := ih i (by omega) (by omega)
        have := hm j (by omega)
        omega
      · exact Nat.le_refl _
  induction e with
  | eps => intro s _ _; exact .pure _
  | raw x => intro s _ _; exact .lift _
  | any k => intro s _ _; exact .lift _
  | call r =>
    intro s hs hr
    rw [sites, Nat.one_mul]
    refine hc r s ?_
    rcases hr with h | h
    · exact .inl h
    · exact .inr ⟨hs, by simpa [rankG] using h⟩
  | seq a b ha hb =>
    intro s hs hr
    simp only [rankG, Bool.and_eq_true, Bool.or_eq_true] at hr
    rw [sites, Nat.add_mul]
    refine (ha s hs (hr.imp_right And.left)).bind fun o ho => ?_
    cases o with
    | ok r vs =>
      have hle := (hon a).le ho
      refine ((hb r (by omega) ?_).bind0 fun o => ?_).mono (Nat.mul_le_mul_left _ (mono _ _ hle hs))
      · rcases hr with h | ⟨_, h | h⟩
        · exact .inl (by omega)
        · have := (hon a).lt ho h
          exact .inl (by omega)
        · exact .inr h
      · cases o <;> exact .pure _
    | _ => exact .pure _
  | alt a b ha hb =>
    intro s hs hr
    simp only [rankG, Bool.and_eq_true] at hr
    rw [sites, Nat.add_mul]
    refine (ha s hs (hr.imp_right And.left)).bind fun o _ => ?_
    cases o with
    | error e =>
      refine (hb s hs (hr.imp_right And.right)).bind0 fun o => ?_
      cases o <;> exact .pure _
    | _ => exact .pure _
  | many0 a ha =>
    intro s hs hr
    rw [sites]
    refine most_manyLoop hm (fun s r vs h => (hon a).le h) _ _ s [] hs fun s' hs' => ha s' (by omega) ?_
    exact hr.imp_left (by omega)
  | many1 a ha =>
    intro s hs hr
    have e : sites (.many1 a) * m s.list.length = sites a * m s.list.length + 2 * sites a * m s.list.length := by
      rw [sites, ← Nat.add_mul]
      congr 1
      omega
    rw [e]
    refine (ha s hs hr).bind fun o ho => ?_
    cases o with
    | ok r vs =>
      have hle := (hon a).le ho
      refine (most_manyLoop hm (fun s r vs h => (hon a).le h) _ _ r vs (by omega) fun s' hs' => ha s' (by omega) ?_).mono
        (Nat.mul_le_mul_left _ (mono _ _ hle hs))
      exact hr.imp_left (by omega)
    | _ => exact .pure _
  | manyTill a b ha hb =>
    intro s hs hr
    simp only [rankG, Bool.and_eq_true] at hr
    rw [sites]
    refine most_tillLoop hm (fun s r vs h => (hon a).le h) _ s [] hs fun s' hs' => ⟨ha s' (by omega) ?_, hb s' (by omega) ?_⟩
    · exact hr.imp (by omega) And.left
    · exact hr.imp (by omega) And.right
  | mustConsume n a ha =>
    intro s hs hr
    refine (ha s hs hr).bind0 fun o => ?_
    cases o with
    | ok r vs =>
      show Most 0 (if _ then _ else _) (if _ then _ else _)
      split <;> exact .pure _
    | _ => exact .pure _
  | postCond c a ha =>
    intro s hs hr
    refine (ha s hs hr).bind0 fun o => ?_
    cases o with
    | ok r vs =>
      show Most 0 (if _ then _ else _) (if _ then _ else _)
      split <;> exact .pure _
    | _ => exact .pure _
  | opt a ha => intro s hs hr; refine (ha s hs hr).bind0 fun o => ?_; cases o <;> exact .pure _
  | not a ha => intro s hs hr; refine (ha s hs hr).bind0 fun o => ?_; cases o <;> exact .pure _
  | cut a ha => intro s hs hr; refine (ha s hs hr).bind0 fun o => ?_; cases o <;> exact .pure _
  | wrap sh a ha => intro s hs hr; refine (ha s hs hr).bind0 fun o => ?_; cases o <;> exact .pure _

/-- The calls made by a production. -/
theorem most_evalCst {g : CRule → Gr} (w : CstWF g) {B : Nat} (hB : 2 ≤ B) (hs : ∀ r, sites (g r) < B) : ∀ (fuel : Nat) (r : CRule) (s : Toks),
    w.bound * s.list.length + w.rank r < fuel →
      Most (B ^ ((w.bound + 1) * s.list.length + w.rank r + 1)) (evalCstW g fuel r s) (evalCst g fuel r s) := by
  intro fuel
  induction fuel with
  | zero => intro r s h; omega
  | succ fuel ih =>
    intro r s hf
    have hpos : 0 < B := by omega
    let L := s.list.length
    let m : Nat → Nat := fun l => if l < L then B ^ ((w.bound + 1) * l + w.bound) else B ^ ((w.bound + 1) * L + w.rank r)
    have hm : ∀ l, l < L → 2 * m l ≤ m (l + 1) := by
      intro l hl
      have h1 : m l = B ^ ((w.bound + 1) * l + w.bound) := if_pos hl
      have h2 : B ^ ((w.bound + 1) * (l + 1)) ≤ m (l + 1) := by
        show _ ≤ if _ then _ else _
        split
        · exact Nat.pow_le_pow_right hpos (by omega)
        · have : l + 1 = L := by omega
          rw [this]
          exact Nat.pow_le_pow_right hpos (by omega)
      have h3 : (w.bound + 1) * (l + 1) = ((w.bound + 1) * l + w.bound) + 1 := by
        rw [Nat.mul_add]; omega
      rw [h3, Nat.pow_succ] at h2
      rw [h1]
      refine Nat.le_trans ?_ h2
      rw [Nat.mul_comm]
      exact Nat.mul_le_mul_left _ hB
    have hc : ∀ r' (s' : Toks), (s'.list.length < L ∨ (s'.list.length ≤ L ∧ w.rank r' < w.rank r)) →
        Most (m s'.list.length) (evalCstW g fuel r' s') (evalCst g fuel r' s') := by
      intro r' s' hs'
      have hr := w.rank_lt r'
      refine (ih r' s' ?_).mono ?_
      · rcases hs' with h | ⟨h, h'⟩
        · have : w.bound * (s'.list.length + 1) ≤ w.bound * s.list.length := Nat.mul_le_mul_left _ h
          rw [Nat.mul_add] at this
          omega
        · have : w.bound * s'.list.length ≤ w.bound * s.list.length := Nat.mul_le_mul_left _ h
          omega
      · show _ ≤ if _ then _ else _
        split
        · exact Nat.pow_le_pow_right hpos (by omega)
        · rename_i hn
          obtain ⟨h, h'⟩ := hs'.resolve_left hn
          have : s'.list.length = L := by omega
          rw [this]
          exact Nat.pow_le_pow_right hpos (by omega)
    have hmL : m s.list.length = B ^ ((w.bound + 1) * s.list.length + w.rank r) := if_neg (Nat.lt_irrefl _)
    have := (most_evalGr w (evalCst_honest w fuel) (w.rank r) hm hc (g r) s (Nat.le_refl _) (.inr (w.rank_ok r))).inside
    refine this.mono ?_
    rw [hmL, Nat.pow_succ, Nat.mul_comm]
    have h1 : 0 < B ^ ((w.bound + 1) * s.list.length + w.rank r) := Nat.pow_pos hpos
    have h2 := Nat.mul_le_mul_left (B ^ ((w.bound + 1) * s.list.length + w.rank r)) (hs r)
    rw [Nat.mul_succ] at h2
    omega

end Sneturfahi
