import Verif.Proof.LujvoForm
import Verif.Props.CmavoForm

/-!
# Without y, only words built from rafsi match the rule for lujvo
-/

namespace Sneturfahi.Lj

set_option linter.constructorNameAsVariable false

open Derives Spec Names Props

attribute [local irreducible] parseRule

/-- The letter y. -/
def isYLetter (c : Char) : Bool := c!"yY".contains c

/-- The rules that consume a y. -/
def needY : Rule → Bool
  | .y | .hy_rafsi | .stressed_hy_rafsi | .y_rafsi | .stressed_y_rafsi | .brivla_rafsi | .fuhivla_rafsi | .extended_rafsi |
    .stressed_brivla_rafsi | .stressed_fuhivla_rafsi | .stressed_extended_rafsi => true
  | _ => false

theorem needY_ok : ∀ r, needY r = true → needE isYLetter needY (grammar r) = true := by
  intro r
  cases r <;> decide +kernel

/-- No commas and no y. -/
def Bare0 (cs : List Char) : Prop := ∀ c ∈ cs, c ≠ ',' ∧ isYLetter c = false

theorem Bare0.tail {c : Char} {cs : List Char} (h : Bare0 (c :: cs)) : Bare0 cs := fun x hx => h x (by simp [hx])
theorem Bare0.suffix {a b : List Char} (h : Bare0 (a ++ b)) : Bare0 b := fun x hx => h x (by simp [hx])

theorem no_y {rule : Rule} (hr : needY rule = true) {cs : List Char} (h : Bare0 cs) : ans (.call rule) cs = none :=
  ans_none.mpr (needE_sound needY_ok (derives_iff.mpr rfl) (fun c hc => (h c hc).2) (show needY rule = true from hr))

section
variable {cs r : List Char}

theorem one {rule : Rule} {s : List Char} (hs : wordShape rule = some [[s]]) (h : ans (.call rule) cs = some r) (b : Bare0 cs) :
    ∃ c ∈ s, cs = c :: r := by
  obtain ⟨m, hm⟩ := ans_some.mp h
  obtain ⟨k, c, hk, hc, _, _, e⟩ := oneLetter hs hm
  cases k with
  | nil => exact ⟨c, hc, e⟩
  | cons x k =>
    exfalso
    refine (b x (by rw [e]; simp)).1 (hk x (by simp))

theorem i_consonant (h : ans (.call .consonant) cs = some r) (b : Bare0 cs) : ∃ c, IsConsonantLetter c ∧ cs = c :: r := by
  obtain ⟨c, hc, e⟩ := one (rule := .consonant) rfl h b
  exact ⟨c, hc, e⟩

theorem vowels_y : ∀ c ∈ allVowels, isYLetter c = false → IsVowelLetter c := by unfold IsVowelLetter; decide

theorem i_vowel {rule : Rule} (hr : wordShape rule = some [[allVowels]]) (h : ans (.call rule) cs = some r) (b : Bare0 cs) :
    ∃ c, IsVowelLetter c ∧ cs = c :: r := by
  obtain ⟨c, hc, e⟩ := one hr h b
  exact ⟨c, vowels_y c hc (b c (by simp [e])).2, e⟩

theorem i_h (h : ans (.call .h) cs = some r) (b : Bare0 cs) : ∃ c ∈ c!"'h", cs = c :: r := one (rule := .h) rfl h b

theorem i_diphthong (h : ans (.call .diphthong) cs = some r) (b : Bare0 cs) : ∃ v w, IsDiphthong v w ∧ cs = v :: w :: r := by
  have hb : ans (grammar .diphthong) cs = some r := by rw [← ans_body]; exact h
  have e : grammar .diphthong = .andNot (.alt (.seq (.call .a) (.alt (.call .i) (.call .u))) (.seq (.alt (.call .e) (.call .o)) (.call .i)))
      (.call .nucleus) := rfl
  have key : ans (.alt (.seq (.call .a) (.alt (.call .i) (.call .u))) (.seq (.alt (.call .e) (.call .o)) (.call .i))) cs = some r := by
    rw [e, ans_andNot, Option.bind_eq_some_iff] at hb
    obtain ⟨t, h1, h2⟩ := hb
    split at h2
    · cases h2
    · cases h2; exact h1
  rw [ans_alt, Option.or_eq_some_iff, ans_seq, ans_seq] at key
  rcases key with h | ⟨_, h⟩
  · obtain ⟨t, h1, h2⟩ := Option.bind_eq_some_iff.mp h
    obtain ⟨v, hv, rfl⟩ := one (rule := .a) rfl h1 b
    rw [ans_alt, Option.or_eq_some_iff] at h2
    rcases h2 with h2 | ⟨_, h2⟩
    · obtain ⟨w, hw, rfl⟩ := one (rule := .i) rfl h2 b.tail
      have : ∀ d ∈ c!"iI", d ∈ c!"iuIU" := by decide
      exact ⟨v, w, .inl ⟨hv, this w hw⟩, rfl⟩
    · obtain ⟨w, hw, rfl⟩ := one (rule := .u) rfl h2 b.tail
      have : ∀ d ∈ c!"uU", d ∈ c!"iuIU" := by decide
      exact ⟨v, w, .inl ⟨hv, this w hw⟩, rfl⟩
  · obtain ⟨t, h1, h2⟩ := Option.bind_eq_some_iff.mp h
    rw [ans_alt, Option.or_eq_some_iff] at h1
    rcases h1 with h1 | ⟨_, h1⟩
    · obtain ⟨v, hv, rfl⟩ := one (rule := .e) rfl h1 b
      obtain ⟨w, hw, rfl⟩ := one (rule := .i) rfl h2 b.tail
      have : ∀ d ∈ c!"eE", d ∈ c!"eoEO" := by decide
      exact ⟨v, w, .inr ⟨this v hv, hw⟩, rfl⟩
    · obtain ⟨v, hv, rfl⟩ := one (rule := .o) rfl h1 b
      obtain ⟨w, hw, rfl⟩ := one (rule := .i) rfl h2 b.tail
      have : ∀ d ∈ c!"oO", d ∈ c!"eoEO" := by decide
      exact ⟨v, w, .inr ⟨this v hv, hw⟩, rfl⟩

theorem i_pair (h : ans (.call .initial_pair) cs = some r) (b : Bare0 cs) : ∃ c d, IsInitialPair c d ∧ cs = c :: d :: r := by
  obtain ⟨m, hm⟩ := ans_some.mp h
  obtain ⟨k, k', x, y, hk, hk', hx, hy, _, e, hp⟩ := initialPair_inv hm
  cases k with
  | cons z k => exact absurd (hk z (by simp)) (b z (by rw [e]; simp)).1
  | nil =>
    cases k' with
    | cons z k => exact absurd (hk' z (by simp)) (b z (by rw [e]; simp)).1
    | nil => exact ⟨x, y, ⟨hx, hy, hp⟩, e⟩

end

section
variable {cs r : List Char} {a b p : Exp Rule}

theorem v_seq (h : ans (.seq a b) cs = some r) : ∃ t, ans a cs = some t ∧ ans b t = some r := by
  rw [ans_seq] at h; exact Option.bind_eq_some_iff.mp h
theorem v_alt (h : ans (.alt a b) cs = some r) : ans a cs = some r ∨ ans b cs = some r := by
  rw [ans_alt, Option.or_eq_some_iff] at h
  rcases h with h | h
  · exact .inl h
  · exact .inr h.2
theorem v_peek (h : ans (.peek a) cs = some r) : r = cs ∧ ∃ t, ans a cs = some t := by
  rw [ans_peek] at h
  split at h
  · rename_i h1
    cases h
    exact ⟨rfl, Option.isSome_iff_exists.mp h1⟩
  · cases h
theorem v_not (h : ans (.not a) cs = some r) : r = cs ∧ ans a cs = none := by
  rw [ans_not] at h
  split at h
  · cases h
  · rename_i h1
    cases h
    exact ⟨rfl, by simpa using h1⟩
theorem v_opt (h : ans (.opt a) cs = some r) : ans a cs = some r ∨ r = cs := by
  have h : ans (.alt a .null) cs = some r := h
  rcases v_alt h with h | h
  · exact .inl h
  · rw [ans_null] at h; cases h; exact .inr rfl
theorem v_andNot (h : ans (.andNot a p) cs = some r) : ans a cs = some r := by
  rw [ans_andNot] at h
  obtain ⟨t, h1, h2⟩ := Option.bind_eq_some_iff.mp h
  split at h2
  · cases h2
  · cases h2; exact h1
theorem v_guard (h : ans (.guardNot p a) cs = some r) : ans a cs = some r := by
  rw [ans_guardNot] at h
  split at h
  · cases h
  · exact h
theorem v_call {rule : Rule} (h : ans (.call rule) cs = some r) : ans (grammar rule) cs = some r := by rw [← ans_body]; exact h

theorem i_unstressed (h : ans (.call .unstressed_vowel) cs = some r) (b : Bare0 cs) : ∃ c, IsVowelLetter c ∧ cs = c :: r := by
  obtain ⟨t, h1, h2⟩ := v_seq (v_call h)
  obtain ⟨rfl, _⟩ := v_not h1
  obtain ⟨t, h2, h3⟩ := v_seq h2
  obtain ⟨rfl, _⟩ := v_not h3
  exact i_vowel (rule := .vowel) rfl h2 b

theorem i_undiph (h : ans (.call .unstressed_diphthong) cs = some r) (b : Bare0 cs) : ∃ v w, IsDiphthong v w ∧ cs = v :: w :: r := by
  obtain ⟨t, h1, h2⟩ := v_seq (v_call h)
  obtain ⟨rfl, _⟩ := v_not h1
  obtain ⟨t, h2, h3⟩ := v_seq h2
  obtain ⟨rfl, _⟩ := v_not h3
  exact i_diphthong h2 b

theorem i_sdiph (h : ans (.call .stressed_diphthong) cs = some r) (b : Bare0 cs) : ∃ v w, IsDiphthong v w ∧ cs = v :: w :: r := by
  rcases v_alt (v_call h) with h | h
  · obtain ⟨t, h1, h2⟩ := v_seq h
    obtain ⟨rfl, _⟩ := v_peek h1
    exact i_diphthong h2 b
  · obtain ⟨t, h1, h2⟩ := v_seq h
    obtain ⟨rfl, _⟩ := v_peek h2
    exact i_diphthong h1 b

theorem i_hyphen (h : ans (.call .r_hyphen) cs = some r) (b : Bare0 cs) : ∃ c, IsHyphen c r ∧ cs = c :: r := by
  rcases v_alt (v_call h) with h | h
  · obtain ⟨t, h1, h2⟩ := v_seq h
    obtain ⟨rfl, _⟩ := v_peek h2
    obtain ⟨c, hc, e⟩ := one (rule := .r) rfl h1 b
    exact ⟨c, .inl hc, e⟩
  · obtain ⟨t, h1, h2⟩ := v_seq h
    obtain ⟨rfl, u, hu⟩ := v_peek h2
    obtain ⟨c, hc, rfl⟩ := one (rule := .n) rfl h1 b
    obtain ⟨d, hd, e⟩ := one (rule := .r) rfl hu b.tail
    exact ⟨c, .inr ⟨hc, d, u, e, hd⟩, rfl⟩

theorem i_cvc {v : Rule} (hv : ∀ {cs r}, ans (.call v) cs = some r → Bare0 cs → ∃ c, IsVowelLetter c ∧ cs = c :: r)
    (h : ans (.seq (.call .consonant) (.seq (.call v) (.call .consonant))) cs = some r) (b : Bare0 cs) :
    ∃ a, RafsiBefore a r ∧ cs = a ++ r := by
  obtain ⟨t, h1, h2⟩ := v_seq h
  obtain ⟨u, h2, h3⟩ := v_seq h2
  obtain ⟨c, hc, rfl⟩ := i_consonant h1 b
  obtain ⟨x, hx, rfl⟩ := hv h2 b.tail
  obtain ⟨d, hd, rfl⟩ := i_consonant h3 b.tail.tail
  exact ⟨_, .cvc hc hx hd, rfl⟩

theorem i_ccv {v : Rule} (hv : ∀ {cs r}, ans (.call v) cs = some r → Bare0 cs → ∃ c, IsVowelLetter c ∧ cs = c :: r)
    (h : ans (.seq (.call .initial_pair) (.call v)) cs = some r) (b : Bare0 cs) : ∃ c d x, IsInitialPair c d ∧ IsVowelLetter x ∧ cs = c :: d :: x :: r := by
  obtain ⟨t, h1, h2⟩ := v_seq h
  obtain ⟨c, d, hp, rfl⟩ := i_pair h1 b
  obtain ⟨x, hx, rfl⟩ := hv h2 b.tail.tail
  exact ⟨c, d, x, hp, hx, rfl⟩

theorem i_stressed (h : ans (.call .stressed_vowel) cs = some r) (b : Bare0 cs) : ∃ c, IsVowelLetter c ∧ cs = c :: r :=
  i_vowel (rule := .stressed_vowel) rfl h b

/-- CVV, up to the hyphen. -/
theorem i_cvv {v d : Rule} (hv : ∀ {cs r}, ans (.call v) cs = some r → Bare0 cs → ∃ c, IsVowelLetter c ∧ cs = c :: r)
    (hd : ∀ {cs r}, ans (.call d) cs = some r → Bare0 cs → ∃ v w, IsDiphthong v w ∧ cs = v :: w :: r) {e : Exp Rule}
    (h : ans (.seq (.call .consonant) (.seq (.alt (.seq (.call .unstressed_vowel) (.seq (.call .h) (.call v))) (.call d)) e)) cs = some r) (b : Bare0 cs) :
    ∃ a t, VowelRafsi a ∧ (∀ x, IsHyphen x r → RafsiBefore (a ++ [x]) r) ∧ cs = a ++ t ∧ ans e t = some r := by
  obtain ⟨t, h1, h2⟩ := v_seq h
  obtain ⟨u, h2, h3⟩ := v_seq h2
  obtain ⟨c, hc, rfl⟩ := i_consonant h1 b
  rcases v_alt h2 with h2 | h2
  · obtain ⟨t1, h4, h5⟩ := v_seq h2
    obtain ⟨t2, h5, h6⟩ := v_seq h5
    obtain ⟨x, hx, rfl⟩ := i_unstressed h4 b.tail
    obtain ⟨q, hq, rfl⟩ := i_h h5 b.tail.tail
    obtain ⟨y, hy, rfl⟩ := hv h6 b.tail.tail.tail
    exact ⟨[c, x, q, y], u, .cvhv hc hx hq hy, fun z hz => .cvhv hc hx hq hy hz, rfl, h3⟩
  · obtain ⟨x, y, hx, rfl⟩ := hd h2 b.tail
    exact ⟨[c, x, y], u, .cvv hc hx, fun z hz => .cvv hc hx hz, rfl, h3⟩

theorem vowelRafsi_ne {a : List Char} (h : VowelRafsi a) : a ≠ [] := by cases h <;> simp

theorem i_yless (h : ans (.call .y_less_rafsi) cs = some r) (b : Bare0 cs) : ∃ a, RafsiBefore a r ∧ cs = a ++ r := by
  have h := v_andNot (v_guard (v_guard (v_guard (v_guard (v_call h)))))
  rcases v_alt h with h | h
  · exact i_cvc i_unstressed (v_call h) b
  rcases v_alt h with h | h
  · obtain ⟨c, d, x, hp, hx, rfl⟩ := i_ccv i_unstressed (v_call h) b
    exact ⟨[c, d, x], .ccv hp hx, rfl⟩
  · obtain ⟨a, t, ha, hh, rfl, h2⟩ := i_cvv i_unstressed i_undiph (v_call h) b
    obtain ⟨x, hx, rfl⟩ := i_hyphen h2 b.suffix
    exact ⟨a ++ [x], hh x hx, by simp⟩

theorem i_syless (h : ans (.call .stressed_y_less_rafsi) cs = some r) (b : Bare0 cs) : ∃ a, (RafsiBefore a r ∨ VowelRafsi a) ∧ cs = a ++ r := by
  rcases v_alt (v_call h) with h | h
  · obtain ⟨t, h1, h2⟩ := v_seq h
    obtain ⟨rfl, _⟩ := v_not h2
    obtain ⟨a, ha, e⟩ := i_cvc i_stressed (v_call h1) b
    exact ⟨a, .inl ha, e⟩
  rcases v_alt h with h | h
  · obtain ⟨c, d, x, hp, hx, rfl⟩ := i_ccv i_stressed (v_call h) b
    exact ⟨[c, d, x], .inl (.ccv hp hx), rfl⟩
  · obtain ⟨a, t, ha, hh, rfl, h2⟩ := i_cvv i_stressed i_sdiph (v_call h) b
    rcases v_opt h2 with h2 | rfl
    · obtain ⟨x, hx, rfl⟩ := i_hyphen h2 b.suffix
      exact ⟨a ++ [x], .inl (hh x hx), by simp⟩
    · exact ⟨a, .inr ha, rfl⟩

theorem i_short (h : ans (.call .short_final_rafsi) cs = some r) (b : Bare0 cs) : ∃ f, ShortRafsi f ∧ cs = f ++ r := by
  obtain ⟨t, h1, h2⟩ := v_seq (v_call h)
  obtain ⟨rfl, _⟩ := v_peek h1
  obtain ⟨t, h2, h3⟩ := v_seq h2
  obtain ⟨rfl, _⟩ := v_peek h3
  rcases v_alt h2 with h | h
  · obtain ⟨t, h6, h7⟩ := v_seq h
    obtain ⟨c, hc, rfl⟩ := i_consonant h6 b
    obtain ⟨v, w, hv, rfl⟩ := i_diphthong h7 b.tail
    exact ⟨_, .cvv hc hv, rfl⟩
  · obtain ⟨c, d, x, hp, hx, rfl⟩ := i_ccv (i_vowel (rule := .vowel) rfl) h b
    exact ⟨_, .ccv hp hx, rfl⟩

theorem i_gismu (h : ans (.call .gismu) cs = some r) (b : Bare0 cs) : ∃ f, LastRafsi f ∧ cs = f ++ r := by
  obtain ⟨t, h1, h2⟩ := v_seq (v_call h)
  obtain ⟨t2, h2, h3⟩ := v_seq h2
  obtain ⟨rfl, _⟩ := v_peek h2
  obtain ⟨t3, h3, h4⟩ := v_seq h3
  obtain ⟨t4, h4, h5⟩ := v_seq h4
  obtain ⟨rfl, _⟩ := v_peek h5
  rcases v_alt h1 with h | h
  · obtain ⟨c, d, x, hp, hx, rfl⟩ := i_ccv i_stressed h b
    obtain ⟨e, he, rfl⟩ := i_consonant h3 b.tail.tail.tail
    obtain ⟨y, hy, rfl⟩ := i_vowel (rule := .vowel) rfl h4 b.tail.tail.tail.tail
    exact ⟨[c, d, x, e, y], .ccvcv hp hx he hy, rfl⟩
  · obtain ⟨u, h6, h7⟩ := v_seq h
    obtain ⟨u2, h7, h8⟩ := v_seq h7
    obtain ⟨c, hc, rfl⟩ := i_consonant h6 b
    obtain ⟨x, hx, rfl⟩ := i_stressed h7 b.tail
    obtain ⟨d, hd, rfl⟩ := i_consonant h8 b.tail.tail
    obtain ⟨e, he, rfl⟩ := i_consonant h3 b.tail.tail.tail
    obtain ⟨y, hy, rfl⟩ := i_vowel (rule := .vowel) rfl h4 b.tail.tail.tail.tail
    exact ⟨[c, x, d, e, y], .cvccv hc hx hd he hy, rfl⟩

theorem i_final (h : ans (.call .cvv_final_rafsi) cs = some r) (b : Bare0 cs) : ∃ c v q w, IsConsonantLetter c ∧ IsVowelLetter v ∧ q ∈ c!"'h" ∧
    IsVowelLetter w ∧ cs = c :: v :: q :: w :: r := by
  obtain ⟨t, h1, h2⟩ := v_seq (v_call h)
  obtain ⟨t2, h2, h3⟩ := v_seq h2
  obtain ⟨t3, h3, h4⟩ := v_seq h3
  obtain ⟨t4, h4, h5⟩ := v_seq h4
  obtain ⟨rfl, _⟩ := v_peek h4
  obtain ⟨t5, h5, h6⟩ := v_seq h5
  obtain ⟨rfl, _⟩ := v_peek h6
  obtain ⟨c, hc, rfl⟩ := i_consonant h1 b
  obtain ⟨x, hx, rfl⟩ := i_stressed h2 b.tail
  obtain ⟨q, hq, rfl⟩ := i_h h3 b.tail.tail
  obtain ⟨y, hy, rfl⟩ := i_vowel (rule := .vowel) rfl h5 b.tail.tail.tail
  exact ⟨c, x, q, y, hc, hx, hq, hy, rfl⟩

end

theorem v_rep {rule : Rule} {cs t : List Char} (h : ans (.rep 0 (.call rule)) cs = some t) :
    (ans (.call rule) cs = none ∧ t = cs) ∨ ∃ u, ans (.call rule) cs = some u ∧ ans (.rep 0 (.call rule)) u = some t := by
  have h3 : ∃ m, Derives grammar (.rep 0 (.call rule)) cs (some (m, t)) := by
    simp only [ans] at h
    split at h
    · rename_i hex
      have := Classical.choose_spec (Classical.choose_spec hex)
      simp only [Option.some.injEq] at h
      rw [h] at this
      exact ⟨_, this⟩
    · cases h
  obtain ⟨m, hm⟩ := h3
  cases hr : ans (.call rule) cs with
  | none =>
    left
    have := ans_rep_stop hr
    rw [h] at this
    cases this
    exact ⟨rfl, rfl⟩
  | some u =>
    right
    refine ⟨u, rfl, ?_⟩
    obtain ⟨m0, hm0⟩ := ans_some.mp hr
    generalize hres : (some (m, t) : Res) = res at hm
    cases hm with
    | repStop h0 =>
      have := derives_iff.mp h0
      rw [hm0] at this
      cases this
    | repStep h1 h2 =>
      have h1' := derives_iff.mp h1
      rw [hm0] at h1'
      cases h1'
      have h2' := ans_sound h2
      rename_i res
      cases res with
      | none => simp [Res.prepend] at hres
      | some x =>
        obtain ⟨x1, x2⟩ := x
        simp only [Res.prepend, Option.some.injEq, Prod.mk.injEq] at hres
        obtain ⟨_, rfl⟩ := hres
        simpa using h2'

/-- What a text without y is, on which the rule for lujvo succeeds. -/
inductive Whole (cs : List Char) : Prop
  | rafsi : RafsiWord cs → Whole cs
  | fuhivla : ans (.call .fuhivla) cs = some [] → Whole cs
  | gismu : ans (.call .gismu) cs = some [] → Whole cs
  | final {c v q w} : IsConsonantLetter c → IsVowelLetter v → q ∈ c!"'h" → IsVowelLetter w → cs = [c, v, q, w] → Whole cs

theorem before_len {a r : List Char} (h : RafsiBefore a r) : 0 < a.length := by cases h <;> simp

theorem whole : ∀ (n : Nat) {cs : List Char}, cs.length ≤ n → Bare0 cs → ans (.call .lujvo_minimal) cs = some [] → Whole cs := by
  intro n
  induction n with
  | zero =>
    intro cs hn b h
    cases cs with
    | cons _ _ => simp at hn
    | nil =>
      exfalso
      obtain ⟨m, hm⟩ := ans_some.mp h
      rw [lowV_none (rule := .lujvo_minimal) (by decide)] at hm
      cases hm
  | succ n ih =>
    intro cs hn b h
    obtain ⟨t, h1, h2⟩ := v_seq (v_call h)
    rcases v_rep h1 with ⟨_, rfl⟩ | ⟨u, h3, h4⟩
    · rcases v_alt (v_call h2) with h | h
      · exact .fuhivla h
      rcases v_alt h with h | h
      · exact .gismu h
      rcases v_alt h with h | h
      · obtain ⟨c, v, q, w, hc, hv, hq, hw, e⟩ := i_final h b
        exact .final hc hv hq hw e
      · obtain ⟨u, h3, h4⟩ := v_seq h
        rcases v_alt (v_call h3) with h | h
        · rw [no_y rfl b] at h; cases h
        rcases v_alt h with h | h
        · rw [no_y rfl b] at h; cases h
        · obtain ⟨a, ha, rfl⟩ := i_syless h b
          obtain ⟨f, hf, rfl⟩ := i_short h4 b.suffix
          rw [List.append_nil] at *
          rcases ha with ha | ha
          · exact .rafsi (.two ha (.short hf))
          · exact .rafsi (.bare ha hf)
    · rcases v_alt (v_call h3) with h | h
      · rw [no_y rfl b] at h; cases h
      rcases v_alt h with h | h
      · rw [no_y rfl b] at h; cases h
      obtain ⟨t1, h5, h6⟩ := v_seq h
      obtain ⟨rfl, _⟩ := v_not h5
      obtain ⟨t2, h6, h7⟩ := v_seq h6
      obtain ⟨rfl, hx⟩ := v_not h7
      obtain ⟨a, ha, rfl⟩ := i_yless h6 b
      have hl := before_len ha
      have hu : ans (.call .lujvo_minimal) u = some [] := by
        rw [ans_body]
        show ans (.seq (.rep 0 (.call .initial_rafsi)) (.call .brivla_core)) u = some []
        rw [ans_seq, h4]
        exact h2
      rw [List.length_append] at hn
      cases ih (by omega) b.suffix hu with
      | rafsi h => exact .rafsi (.more ha h)
      | fuhivla h =>
        exfalso
        rw [ans_body] at hx
        have : ans (.alt (.call .fuhivla) (.alt (.call .extended_rafsi) (.call .stressed_extended_rafsi))) u = none := hx
        rw [ans_alt, h] at this
        cases this
      | gismu h =>
        obtain ⟨f, hf, e⟩ := i_gismu h b.suffix
        rw [List.append_nil] at e
        subst e
        exact .rafsi (.two ha hf)
      | final hc hv hq hw e =>
        subst e
        exact .rafsi (.two ha (.cvhv hc hv hq hw))

end Sneturfahi.Lj
