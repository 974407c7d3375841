import Verif.Proof.FuAlign

/-!
# Rafsi in words without y
-/

namespace Sneturfahi.Fu

set_option linter.constructorNameAsVariable false
set_option linter.unusedSimpArgs false

open Derives Spec Names Props
open Lj (C V D Y Q isL Bare0 isYLetter)

attribute [local irreducible] parseRule
attribute [-simp] text_cons text_nil text_append

/-! ### From the rules -/

section
open Lj
theorem i_gismu {cs r : List Char} (h : ans (.call .gismu) cs = some r) (b : Bare0 cs) : ∃ f, LastRafsi f ∧ f.length = 5 ∧ cs = f ++ r := by
  obtain ⟨t, h1, h2⟩ := v_seq (v_call h)
  obtain ⟨t2, h2, h3⟩ := v_seq h2
  obtain ⟨rfl, _⟩ := v_peek h2
  obtain ⟨t3, h3, h4⟩ := v_seq h3
  obtain ⟨t4, h4, h5⟩ := v_seq h4
  obtain ⟨rfl, _⟩ := v_peek h5
  rcases v_alt h1 with h | h
  · obtain ⟨c, d, x, hp, hx, rfl⟩ := i_ccv i_stressed h b
    obtain ⟨e, he, rfl⟩ := i_consonant h3 b.tail.tail.tail
    obtain ⟨y, hy, rfl⟩ := i_vowel (rule := .vowel) rfl h4 b.tail.tail.tail.tail
    exact ⟨[c, d, x, e, y], .ccvcv hp hx he hy, rfl, rfl⟩
  · obtain ⟨u, h6, h7⟩ := v_seq h
    obtain ⟨u2, h7, h8⟩ := v_seq h7
    obtain ⟨c, hc, rfl⟩ := i_consonant h6 b
    obtain ⟨x, hx, rfl⟩ := i_stressed h7 b.tail
    obtain ⟨d, hd, rfl⟩ := i_consonant h8 b.tail.tail
    obtain ⟨e, he, rfl⟩ := i_consonant h3 b.tail.tail.tail
    obtain ⟨y, hy, rfl⟩ := i_vowel (rule := .vowel) rfl h4 b.tail.tail.tail.tail
    exact ⟨[c, x, d, e, y], .cvccv hc hx hd he hy, rfl, rfl⟩
end

theorem yless_inv {s : List Sound} (h : Fi s) {r : List Char} (ha : ans (.call .y_less_rafsi) (text s) = some r) :
    ∃ a t, RafsiBefore a (text t) ∧ text s = a ++ text t ∧ Fi t ∧ r = text t ∧ t.length < s.length := by
  obtain ⟨t, ht, rfl, b, rfl⟩ := at_sound rfl h ha
  obtain ⟨a, h1, h2⟩ := Lj.i_yless ha h.bare
  refine ⟨a, t, h1, h2, ht, rfl, ?_⟩
  have := Lj.before_len h1
  cases b with
  | nil =>
    have e := congrArg List.length h2
    rw [List.nil_append, List.length_append] at e
    omega
  | cons x b => simp; omega

theorem rafsi_sound : ∀ (n : Nat) {s : List Sound}, s.length ≤ n → Fi s → ∀ r, ans (.call .rafsi_string) (text s) = some r → Rafsis (text s) := by
  intro n
  induction n with
  | zero =>
    intro s hn h r ha
    cases s with
    | cons _ _ => simp at hn
    | nil =>
      exfalso
      have : ans (.call .rafsi_string) (text []) = none := by rw [text_nil]; exact ans_none.mpr (by decide +kernel)
      rw [this] at ha; cases ha
  | succ n ih =>
    intro s hn h r ha
    rw [Lj.rafsi_string_eq] at ha
    obtain ⟨t, h1, h2⟩ := Option.bind_eq_some_iff.mp ha
    rcases Lj.v_rep h1 with ⟨_, rfl⟩ | ⟨u, h3, h4⟩
    · rcases Lj.v_alt h2 with h3 | h3
      · obtain rfl := gismu_end h h3
        obtain ⟨f, hf, h5, e⟩ := i_gismu h3 h.bare
        rw [List.append_nil] at e
        rw [e]
        exact .inr ⟨hf, fun hs => by cases hs <;> simp at h5⟩
      rcases Lj.v_alt h3 with h3 | h3
      · obtain rfl := final_end h h3
        obtain ⟨c, v, q, w, hc, hv, hq, hw, e⟩ := Lj.i_final h3 h.bare
        rw [e]
        exact .inr ⟨.cvhv hc hv hq hw, fun hs => by cases hs⟩
      rcases Lj.v_alt h3 with h3 | h3
      · obtain ⟨u, h4, h5⟩ := Lj.v_seq h3
        obtain ⟨t2, ht2, rfl, e2⟩ := syless_nv h h4
        obtain rfl := short_end ht2 e2 h5
        obtain ⟨a, ha, e3⟩ := Lj.i_syless h4 h.bare
        obtain ⟨f, hf, e4⟩ := Lj.i_short h5 ht2.bare
        rw [List.append_nil] at e4
        rw [e4] at ha e3
        rw [e3]
        rcases ha with ha | ha
        · exact .inl (.two ha (.short hf))
        · exact .inl (.bare ha hf)
      exfalso
      rcases Lj.v_alt h3 with h3 | h3
      · rw [y_no rfl h] at h3; cases h3
      rcases Lj.v_alt h3 with h3 | h3
      · rw [y_no rfl h] at h3; cases h3
      rcases Lj.v_alt h3 with h3 | h3
      · obtain ⟨u, h4, h5⟩ := Lj.v_seq h3
        obtain ⟨u2, h5, h6⟩ := Lj.v_seq h5
        have : ∃ t, Fi t ∧ u = text t := by
          rcases Lj.v_opt h4 with h4 | rfl
          · obtain ⟨t, ht, e, _⟩ := at_sound rfl h h4
            exact ⟨t, ht, e⟩
          · exact ⟨s, h, rfl⟩
        obtain ⟨t, ht, rfl⟩ := this
        obtain ⟨t2, ht2, rfl, _⟩ := at_sound rfl ht h5
        rw [y_no rfl ht2] at h6; cases h6
      rcases Lj.v_alt h3 with h3 | h3
      · rw [y_no rfl h] at h3; cases h3
      · rw [y_no rfl h] at h3; cases h3
    · obtain ⟨a, t2, hb, e, ht2, rfl, hl⟩ := yless_inv h h3
      have := ih (by omega) ht2 r (by rw [Lj.rafsi_string_eq, h4]; exact h2)
      rw [e]
      rcases this with h | h
      · exact .inl (.more hb h)
      · exact .inl (.two hb h.1)

/-! ### To the rules -/

theorem Fi.smallText {s : List Sound} (h : Fi s) : Lj.Small (text s) := by
  intro c hc hm
  have k := h.letters c hc
  have : ∀ c ∈ c!"AEIOUY", isYLetter c = true ∨ capital c = true := by decide
  rcases this c hm with h | h
  · rw [k.2.1] at h; cases h
  · rw [k.2.2] at h; cases h

/-- The consonants of a text that are next to each other are next to each other in the sounds. -/
theorem first_consonant {s : List Sound} (h : Names.Good s) (hd : ∀ c, Sound.digit c ∉ s) {c : Char} {t : List Char} (hc : IsConsonantLetter c) (e : text s = c :: t) :
    ∃ u, s = C c :: u ∧ t = text u := by
  cases s with
  | nil => cases e
  | cons x u =>
    rw [text_cons] at e
    cases x with
    | consonant d => simp [Sound.letters] at e; obtain ⟨rfl, rfl⟩ := e; exact ⟨u, rfl, rfl⟩
    | digit d => exact absurd (List.mem_cons_self) (hd d)
    | vowels g =>
      obtain ⟨a, b, rfl⟩ := group_ne h.1
      simp [Sound.letters] at e
      obtain ⟨rfl, _⟩ := e
      exact absurd hc (kinds.1 a (group_mem h.1 a (by simp))).2.2.2
    | glide d =>
      simp [Sound.letters] at e
      obtain ⟨rfl, _⟩ := e
      have : ∀ d ∈ c!"iuIU", ¬ IsConsonantLetter d := by decide
      exact absurd hc (this d h.1)
    | apostrophe d =>
      simp [Sound.letters] at e
      obtain ⟨rfl, _⟩ := e
      have : ∀ d ∈ c!"'h", ¬ IsConsonantLetter d := by decide
      exact absurd hc (this d h.1)

theorem split_consonant : ∀ {s : List Sound}, Names.Good s → (∀ c, Sound.digit c ∉ s) → ∀ {p t : List Char} {c : Char}, IsConsonantLetter c → text s = p ++ c :: t →
    ∃ a u, s = a ++ C c :: u ∧ t = text u
  | [], _, _, p, t, c, _, e => by rw [text_nil] at e; cases p <;> cases e
  | x :: s, h, hd, p, t, c, hc, e => by
    have hd' : ∀ c, Sound.digit c ∉ s := fun c hm => hd c (by simp [hm])
    cases p with
    | nil =>
      obtain ⟨u, e1, e2⟩ := first_consonant h hd hc e
      exact ⟨[], u, e1, e2⟩
    | cons y p =>
      rw [text_cons] at e
      have step : ∀ q, text s = q ++ c :: t → ∃ a u, x :: s = a ++ C c :: u ∧ t = text u := by
        intro q eq
        obtain ⟨a, u, e1, e2⟩ := split_consonant h.2.2.2 hd' hc eq
        exact ⟨x :: a, u, by rw [e1]; rfl, e2⟩
      cases x with
      | consonant d => simp [Sound.letters] at e; exact step _ e.2
      | digit d => simp [Sound.letters] at e; exact step _ e.2
      | glide d => simp [Sound.letters] at e; exact step _ e.2
      | apostrophe d => simp [Sound.letters] at e; exact step _ e.2
      | vowels g =>
        have hg : VowelGroup g := h.1
        have hm := group_mem hg
        have hcv : c ∉ vowelSet := fun hv => (kinds.1 c hv).2.2.2 hc
        rcases group_cases hg with ⟨v, hv, rfl⟩ | ⟨v, w, hv, rfl⟩
        · simp [Sound.letters] at e; exact step _ e.2
        · cases p with
          | nil =>
            simp [Sound.letters] at e
            exact absurd (e.2.1 ▸ hm w (by simp)) hcv
          | cons z p => simp [Sound.letters] at e; exact step _ e.2.2

theorem Fi.noDigit {s : List Sound} (h : Fi s) : ∀ c, Sound.digit c ∉ s := fun _ hc => h.small _ hc

theorem Fi.pairs {s : List Sound} (h : Fi s) :
    (∀ p c d r, text s = p ++ c :: d :: r → IsConsonantLetter c → IsConsonantLetter d → PermissiblePair (lower c) (lower d)) ∧
    (∀ p c d e r, text s = p ++ c :: d :: e :: r → IsConsonantLetter c → IsConsonantLetter d → IsConsonantLetter e →
      [lower c, lower d, lower e] ∉ forbiddenTriples) := by
  constructor
  · intro p c d r e hc hd
    obtain ⟨a, u, rfl, e2⟩ := split_consonant h.good h.noDigit hc e
    have h2 := h.suffix
    obtain ⟨u2, rfl, _⟩ := first_consonant h2.tail.good h2.tail.noDigit hd e2.symm
    exact h2.good.2.1
  · intro p c d f r e hc hd hf
    obtain ⟨a, u, rfl, e2⟩ := split_consonant h.good h.noDigit hc e
    have h2 := h.suffix
    obtain ⟨u2, rfl, e3⟩ := first_consonant h2.tail.good h2.tail.noDigit hd e2.symm
    obtain ⟨u3, rfl, _⟩ := first_consonant h2.tail.tail.good h2.tail.tail.noDigit hf e3.symm
    exact h2.good.2.2.1

theorem rafsi_complete {s : List Sound} (h : Fi s) (hr : Rafsis (text s)) : (ans (.call .rafsi_string) (text s)).isSome := by
  rcases hr with hr | ⟨hl, hs⟩
  · obtain ⟨T, e, h1, h2⟩ := Lj.lujvo_sounds ⟨hr, h.pairs⟩ h.smallText
    rw [← e]
    exact Lj.str_rafsi h1 h2
  · obtain ⟨T, e, h1, h2, _⟩ := Lj.last_sounds hl h.smallText
    rw [← e]
    have hk : Lj.Ok T := by
      have hp := h.pairs
      rw [← e] at hp
      exact ⟨Lj.fine_good h2 hp.1 hp.2, Lj.fine_plain h2, Lj.fine_hy h2⟩
    have len : 4 ≤ (text T).length := by
      rw [e]
      generalize text s = w at hl hs
      cases hl with
      | short h => exact absurd h hs
      | _ => simp
    rcases h1 with h1 | h1
    · exfalso
      cases h1 <;> simp [text_cons, text_nil, Sound.letters] at len
    · exact Lj.str_rafsi (.tail h1) hk

/-- The rule for rafsi without hyphens between them. -/
theorem rafsi_iff {s : List Sound} (h : Fi s) : (ans (.call .rafsi_string) (text s)).isSome = true ↔ Rafsis (text s) := by
  constructor
  · intro hs
    obtain ⟨r, hr⟩ := Option.isSome_iff_exists.mp hs
    exact rafsi_sound _ (Nat.le_refl _) h r hr
  · exact rafsi_complete h

theorem slinkuhi_iff {s : List Sound} (h : Fi s) (hr : ¬ Rafsis (text s)) :
    (ans (.call .slinkuhi) (text s)).isSome = true ↔ ∃ c t, text s = c :: t ∧ IsConsonantLetter c ∧ Rafsis t := by
  have h0 : ans (.call .rafsi_string) (text s) = none := by
    cases e : ans (.call .rafsi_string) (text s) with
    | none => rfl
    | some r => exact absurd ((rafsi_iff h).mp (by rw [e]; rfl)) hr
  rw [ans_body]
  show (ans (.seq (.not (.call .rafsi_string)) (.seq (.call .consonant) (.call .rafsi_string))) (text s)).isSome = true ↔ _
  rw [ans_seq, ans_not, h0]
  simp only [Option.isSome_none, Bool.false_eq_true, if_false, Option.bind_some]
  rw [ans_seq, t_consonant s h]
  cases s with
  | nil => simp [takeS, text_nil]
  | cons x t =>
    cases hx : isCons x with
    | true =>
      cases x with
      | consonant c =>
        simp only [takeS, isCons, if_true, Option.map_some, Option.bind_some, rafsi_iff h.tail]
        constructor
        · intro hr; exact ⟨c, text t, text_cons _ _, h.good.1, hr⟩
        · rintro ⟨c', t', e, _, hr⟩
          have e : c :: text t = c' :: t' := e
          simp at e
          rw [e.2]; exact hr
      | _ => cases hx
    | false =>
      simp only [takeS, hx, Bool.false_eq_true, if_false, Option.map_none, Option.bind_none, Option.isSome_none, false_iff]
      rintro ⟨c', t', e, hc, _⟩
      obtain ⟨u, e2, _⟩ := first_consonant h.good h.noDigit hc e
      cases e2
      cases hx

end Sneturfahi.Fu
