import Verif.Model.RulesWork
import Verif.Proof.RulesTotal

/-!
# The number of calls the rules make, and how deeply they are nested
-/

namespace Sneturfahi

open Derives

/-- `t` does what `x` does; if that ends, it makes at most `k` calls, nested at most `M` deep. -/
def Within {α : Type} (k M : Nat) (t : Counted α) (x : Exec α) : Prop :=
  ∃ u : Used, t = x.map (fun a => (a, u)) ∧ ∀ a, x = .val a → u.calls ≤ k ∧ u.depth ≤ M

namespace Within

variable {α β : Type} {k k' M M' : Nat} {t : Counted α} {x : Exec α}

theorem pure (a : α) : Within k M (Pure.pure a : Counted α) (Pure.pure a) := ⟨⟨0, 0⟩, rfl, fun _ _ => ⟨Nat.zero_le _, Nat.zero_le _⟩⟩
theorem lift (x : Exec α) : Within k M (.lift x) x := ⟨⟨0, 0⟩, rfl, fun _ _ => ⟨Nat.zero_le _, Nat.zero_le _⟩⟩
theorem diverge : Within (α := α) k M .diverge .diverge := ⟨⟨0, 0⟩, rfl, nofun⟩

theorem mono (h : Within k M t x) (hk : k ≤ k') (hM : M ≤ M') : Within k' M' t x := by
  obtain ⟨u, h1, h2⟩ := h
  exact ⟨u, h1, fun a ha => ⟨Nat.le_trans (h2 a ha).1 hk, Nat.le_trans (h2 a ha).2 hM⟩⟩

theorem bind {f : α → Counted β} {g : α → Exec β} (h : Within k M t x) (hf : ∀ a, x = .val a → Within k' M (f a) (g a)) :
    Within (k + k') M (t >>= f) (x >>= g) := by
  obtain ⟨u, h1, h2⟩ := h
  cases x with
  | panic => exact ⟨⟨0, 0⟩, by rw [h1]; rfl, nofun⟩
  | diverge => exact ⟨⟨0, 0⟩, by rw [h1]; rfl, nofun⟩
  | val a =>
    obtain ⟨v, h3, h4⟩ := hf a rfl
    refine ⟨u.andThen v, ?_, fun b hb => ?_⟩
    · rw [h1]
      show Exec.map _ (f a) = Exec.map _ (g a)
      rw [h3]
      cases g a <;> rfl
    · have := h2 a rfl
      have := h4 b hb
      simp only [Used.andThen]
      omega

/-- What comes after makes no calls. -/
theorem bind0 {f : α → Counted β} {g : α → Exec β} (h : Within k M t x) (hf : ∀ a, Within 0 M (f a) (g a)) : Within k M (t >>= f) (x >>= g) :=
  h.bind (k' := 0) fun a _ => hf a

theorem inside (h : Within k M t x) : Within (k + 1) (M + 1) (.inside t) x := by
  obtain ⟨u, h1, h2⟩ := h
  refine ⟨u.inside, ?_, fun a ha => ?_⟩
  · rw [h1]; cases x <;> rfl
  · have := h2 a ha
    simp only [Used.inside]; omega

end Within

/-- How many places of `e` there are where a rule is called, those that are repeated counted twice. -/
def places : Exp Rule → Nat
  | .null => 0
  | .eof => 0
  | .oneOf _ => 0
  | .call _ => 1
  | .not e => places e
  | .peek e => places e
  | .alt a b => places a + places b
  | .longest a b => places a + places b
  | .seq a b => places a + places b
  | .rep _ e => 2 * places e
  | .andPeek e p => places e + places p
  | .andNot e p => places e + places p
  | .guardNot p e => places p + places e

theorem grows {m : Nat → Nat} {L : Nat} (hm : ∀ l, l < L → 2 * m l ≤ m (l + 1)) : ∀ j i, i ≤ j → j ≤ L → m i ≤ m j := by
  intro j
  induction j with
  | zero => intro i hi _; cases Nat.le_zero.mp hi; exact Nat.le_refl _
  | succ j ih =>
    intro i hi hj
    rcases Nat.lt_or_eq_of_le hi with h | rfl
    · have := ih i (by omega) (by omega)
      have := hm j (by omega)
      omega
    · exact Nat.le_refl _

variable {m : Nat → Nat} {L M : Nat}

theorem within_repLoop {t : KParser} {p : Parser} {A : Nat} (hm : ∀ l, l < L → 2 * m l ≤ m (l + 1)) (fuel : Nat) :
    ∀ (s : Str) first last num, s.chars.length ≤ L →
      (∀ (s' : Str) c r, s'.chars.length ≤ s.chars.length → p s' = .val (some (c, r)) → r.chars.length < s'.chars.length) →
      (∀ s' : Str, s'.chars.length ≤ s.chars.length → Within (A * m s'.chars.length) M (t s') (p s')) →
      Within (2 * A * m s.chars.length) M (repLoopK t fuel s first last num) (repLoop p fuel s first last num) := by
  induction fuel with
  | zero => intros; exact .diverge
  | succ fuel ih =>
    intro s first last num hs hlt h
    have e : 2 * A * m s.chars.length = A * m s.chars.length + A * m s.chars.length := by
      rw [Nat.mul_assoc, Nat.two_mul]
    rw [e]
    refine (h s (Nat.le_refl _)).bind fun o ho => ?_
    rcases o with _ | ⟨c, r⟩
    · exact .pure _
    · have hl := hlt s c r (Nat.le_refl _) ho
      refine (ih r _ _ _ (by omega) (fun s' c r' hs' => hlt s' c r' (by omega)) fun s' hs' => h s' (by omega)).mono ?_ (Nat.le_refl _)
      have h1 := hm r.chars.length (by omega)
      have h2 := grows hm s.chars.length (r.chars.length + 1) (by omega) hs
      have h3 : 2 * A * m r.chars.length = A * (2 * m r.chars.length) := by
        rw [Nat.mul_comm 2 A, Nat.mul_assoc]
      rw [h3]
      exact Nat.mul_le_mul_left A (by omega)

theorem Good.rest {g : Rule → Exp Rule} {p : Parser} {e : Exp Rule} {s c r : Str} (h : Good g p e s) (hp : p s = .val (some (c, r))) :
    ∃ m, Derives g e s.chars (some (m, r.chars)) ∧ m.length + r.chars.length = s.chars.length := by
  obtain ⟨res, h1, h2⟩ := h
  rw [hp] at h1
  injection h1 with h1
  cases res with
  | none => cases h1
  | some x =>
    obtain ⟨m, rest⟩ := x
    simp only [Res.at, Option.some.injEq, Prod.mk.injEq] at h1
    have e : r.chars = rest := by rw [h1.2]
    refine ⟨m, e ▸ h2, ?_⟩
    have := append_eq' h2
    rw [← this, e, List.length_append]

/-- The calls a body makes, if those it can make are bounded by `m`, which at least doubles with each character. -/
theorem within_evalExp {g : Rule → Exp Rule} (w : WF g) {callK : Rule → KParser} {call : Rule → Parser} (n : Nat) (hm : ∀ l, l < L → 2 * m l ≤ m (l + 1))
    (hg : ∀ r (s : Str), (s.chars.length < L ∨ (s.chars.length ≤ L ∧ w.rank r < n)) → Good g (call r) (.call r) s)
    (hc : ∀ r (s : Str), (s.chars.length < L ∨ (s.chars.length ≤ L ∧ w.rank r < n)) → Within (m s.chars.length) M (callK r s) (call r s)) (e : Exp Rule) :
    ∀ s : Str, s.chars.length ≤ L → repOK w.cons e = true → (s.chars.length < L ∨ rankOK w.cons w.rank n e = true) →
      Within (places e * m s.chars.length) M (evalExpK callK e s) (evalExp call e s) := by
  have good : ∀ (e : Exp Rule) (s : Str), s.chars.length ≤ L → repOK w.cons e = true → (s.chars.length < L ∨ rankOK w.cons w.rank n e = true) →
      Good g (evalExp call e) e s := by
    intro e s hs hr h
    by_cases hl : s.chars.length < L
    · exact evalExp_good w call w.bound e s hr (rankOK_bound w.rank_lt e) fun r s' hs' => hg r s' (.inl (by omega))
    · refine evalExp_good w call n e s hr (h.resolve_left hl) fun r s' hs' => hg r s' ?_
      rcases hs' with h | ⟨h, h'⟩
      · exact .inl (by omega)
      · exact .inr ⟨by omega, h'⟩
  have mono := grows hm
  -- what is tried after `a`
  have after : ∀ (a b : Exp Rule) (s c r : Str), s.chars.length ≤ L → repOK w.cons a = true → (s.chars.length < L ∨ rankOK w.cons w.rank n a = true) →
      (s.chars.length < L ∨ (consE w.cons a = true ∨ rankOK w.cons w.rank n b = true)) → evalExp call a s = .val (some (c, r)) →
      r.chars.length ≤ s.chars.length ∧ (r.chars.length < L ∨ rankOK w.cons w.rank n b = true) := by
    intro a b s c r hs hr h h' ho
    obtain ⟨k, hd, hk⟩ := (good a s hs hr h).rest ho
    refine ⟨by omega, ?_⟩
    rcases h' with h' | h' | h'
    · exact .inl (by omega)
    · have := List.length_pos_iff.mpr (Derives.consumes w.cons_ok hd h' _ _ rfl)
      exact .inl (by omega)
    · exact .inr h'
  induction e with
  | null => intro s _ _ _; exact .lift _
  | eof => intro s _ _ _; exact .lift _
  | oneOf chs => intro s _ _ _; exact .lift _
  | call r =>
    intro s hs _ hr
    rw [places, Nat.one_mul]
    refine hc r s ?_
    rcases hr with h | h
    · exact .inl h
    · exact .inr ⟨hs, by simpa [rankOK] using h⟩
  | not a ha =>
    intro s hs h1 h2
    refine (ha s hs h1 h2).bind0 fun o => ?_
    cases o
    · exact .lift _
    · exact .pure _
  | peek a ha =>
    intro s hs h1 h2
    refine (ha s hs h1 h2).bind0 fun o => ?_
    cases o
    · exact .pure _
    · exact .lift _
  | alt a b ha hb =>
    intro s hs h1 h2
    simp only [repOK, rankOK, Bool.and_eq_true] at h1 h2
    rw [places, Nat.add_mul]
    refine (ha s hs h1.1 (h2.imp_right And.left)).bind fun o _ => ?_
    cases o
    · exact hb s hs h1.2 (h2.imp_right And.right)
    · exact .pure _
  | longest a b ha hb =>
    intro s hs h1 h2
    simp only [repOK, rankOK, Bool.and_eq_true] at h1 h2
    rw [places, Nat.add_mul]
    refine (ha s hs h1.1 (h2.imp_right And.left)).bind fun o _ => ?_
    refine (hb s hs h1.2 (h2.imp_right And.right)).bind0 fun o' => ?_
    rcases o with _ | ⟨x, y⟩ <;> rcases o' with _ | ⟨x', y'⟩ <;> exact .pure _
  | seq a b ha hb =>
    intro s hs h1 h2
    simp only [repOK, rankOK, Bool.and_eq_true, Bool.or_eq_true] at h1 h2
    rw [places, Nat.add_mul]
    refine (ha s hs h1.1 (h2.imp_right And.left)).bind fun o ho => ?_
    rcases o with _ | ⟨c, r⟩
    · exact .pure _
    · obtain ⟨hl, hr⟩ := after a b s c r hs h1.1 (h2.imp_right And.left) (h2.imp_right And.right) ho
      refine ((hb r (by omega) h1.2 hr).bind0 fun o => ?_).mono (Nat.mul_le_mul_left _ (mono _ _ hl hs)) (Nat.le_refl _)
      rcases o with _ | ⟨x, y⟩
      · exact .pure _
      · exact .lift _
  | rep k a ha =>
    intro s hs h1 h2
    simp only [repOK, rankOK, Bool.and_eq_true] at h1 h2
    rw [places]
    refine (within_repLoop hm _ s _ _ _ hs (fun s' c r hs' ho => ?_) fun s' hs' => ?_).bind0 fun o => ?_
    · obtain ⟨k, hd, hk⟩ := (good a s' (by omega) h1.1 (h2.imp_left (by omega))).rest ho
      have := List.length_pos_iff.mpr (Derives.consumes w.cons_ok hd h1.2 _ _ rfl)
      omega
    · exact ha s' (by omega) h1.1 (h2.imp_left (by omega))
    · obtain ⟨rest, first, last, num⟩ := o
      show Within 0 M (if _ then _ else _) (if _ then _ else _)
      split
      · exact .pure _
      · exact .lift _
  | andPeek a b ha hb =>
    intro s hs h1 h2
    simp only [repOK, rankOK, Bool.and_eq_true, Bool.or_eq_true] at h1 h2
    rw [places, Nat.add_mul]
    refine (ha s hs h1.1 (h2.imp_right And.left)).bind fun o ho => ?_
    rcases o with _ | ⟨c, r⟩
    · exact .pure _
    · obtain ⟨hl, hr⟩ := after a b s c r hs h1.1 (h2.imp_right And.left) (h2.imp_right And.right) ho
      refine ((hb r (by omega) h1.2 hr).bind0 fun o => ?_).mono (Nat.mul_le_mul_left _ (mono _ _ hl hs)) (Nat.le_refl _)
      cases o <;> exact .pure _
  | andNot a b ha hb =>
    intro s hs h1 h2
    simp only [repOK, rankOK, Bool.and_eq_true, Bool.or_eq_true] at h1 h2
    rw [places, Nat.add_mul]
    refine (ha s hs h1.1 (h2.imp_right And.left)).bind fun o ho => ?_
    rcases o with _ | ⟨c, r⟩
    · exact .pure _
    · obtain ⟨hl, hr⟩ := after a b s c r hs h1.1 (h2.imp_right And.left) (h2.imp_right And.right) ho
      refine ((hb r (by omega) h1.2 hr).bind0 fun o => ?_).mono (Nat.mul_le_mul_left _ (mono _ _ hl hs)) (Nat.le_refl _)
      cases o <;> exact .pure _
  | guardNot a b ha hb =>
    intro s hs h1 h2
    simp only [repOK, rankOK, Bool.and_eq_true] at h1 h2
    rw [places, Nat.add_mul]
    refine (ha s hs h1.1 (h2.imp_right And.left)).bind fun o _ => ?_
    cases o
    · exact hb s hs h1.2 (h2.imp_right And.right)
    · exact .pure _

/-- The calls made by a rule. -/
theorem within_evalRule (w : WF grammar) {B : Nat} (hB : 2 ≤ B) (hs : ∀ r, places (grammar r) < B) : ∀ (fuel : Nat) (r : Rule) (s : Str),
    w.bound * s.chars.length + w.rank r < fuel →
      Within (B ^ ((w.bound + 1) * s.chars.length + w.rank r + 1)) fuel (evalRuleK fuel r s) (evalRule grammar fuel r s) := by
  intro fuel
  induction fuel with
  | zero => intro r s h; omega
  | succ fuel ih =>
    intro r s hf
    have hpos : 0 < B := by omega
    let L := s.chars.length
    let m : Nat → Nat := fun l => if l < L then B ^ ((w.bound + 1) * l + w.bound) else B ^ ((w.bound + 1) * L + w.rank r)
    have hm : ∀ l, l < L → 2 * m l ≤ m (l + 1) := by
      intro l hl
      have h1 : m l = B ^ ((w.bound + 1) * l + w.bound) := if_pos hl
      have h2 : B ^ ((w.bound + 1) * (l + 1)) ≤ m (l + 1) := by
        show _ ≤ if _ then _ else _
        split
        · exact Nat.pow_le_pow_right hpos (by omega)
        · have : l + 1 = L := by omega
          rw [this]
          exact Nat.pow_le_pow_right hpos (by omega)
      have h3 : (w.bound + 1) * (l + 1) = ((w.bound + 1) * l + w.bound) + 1 := by
        rw [Nat.mul_add]; omega
      rw [h3, Nat.pow_succ] at h2
      rw [h1]
      refine Nat.le_trans ?_ h2
      rw [Nat.mul_comm]
      exact Nat.mul_le_mul_left _ hB
    have room : ∀ r' (s' : Str), (s'.chars.length < L ∨ (s'.chars.length ≤ L ∧ w.rank r' < w.rank r)) → w.bound * s'.chars.length + w.rank r' < fuel := by
      intro r' s' hs'
      have hr := w.rank_lt r'
      rcases hs' with h | ⟨h, h'⟩
      · have : w.bound * (s'.chars.length + 1) ≤ w.bound * s.chars.length := Nat.mul_le_mul_left _ h
        rw [Nat.mul_add] at this
        omega
      · have : w.bound * s'.chars.length ≤ w.bound * s.chars.length := Nat.mul_le_mul_left _ h
        omega
    have hc : ∀ r' (s' : Str), (s'.chars.length < L ∨ (s'.chars.length ≤ L ∧ w.rank r' < w.rank r)) →
        Within (m s'.chars.length) fuel (evalRuleK fuel r' s') (evalRule grammar fuel r' s') := by
      intro r' s' hs'
      have hr := w.rank_lt r'
      refine (ih r' s' (room r' s' hs')).mono ?_ (Nat.le_refl _)
      show _ ≤ if _ then _ else _
      split
      · exact Nat.pow_le_pow_right hpos (by omega)
      · rename_i hn
        obtain ⟨h, h'⟩ := hs'.resolve_left hn
        have : s'.chars.length = L := by omega
        rw [this]
        exact Nat.pow_le_pow_right hpos (by omega)
    have hmL : m s.chars.length = B ^ ((w.bound + 1) * s.chars.length + w.rank r) := if_neg (Nat.lt_irrefl _)
    have := (within_evalExp w (w.rank r) hm (fun r' s' hs' => evalRule_good w fuel r' s' (room r' s' hs')) hc (grammar r) s (Nat.le_refl _) (w.rep_ok r)
      (.inr (w.rank_ok r))).inside
    refine this.mono ?_ (Nat.le_refl _)
    rw [hmL, Nat.pow_succ, Nat.mul_comm]
    have h1 : 0 < B ^ ((w.bound + 1) * s.chars.length + w.rank r) := Nat.pow_pos hpos
    have h2 := Nat.mul_le_mul_left (B ^ ((w.bound + 1) * s.chars.length + w.rank r)) (hs r)
    rw [Nat.mul_succ] at h2
    omega

theorem grammar_places : ∀ r, places (grammar r) < 16 := by
  intro r
  cases r <;> decide +kernel

end Sneturfahi
