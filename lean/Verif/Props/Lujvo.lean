import Verif.Proof.LujvoInv
import Verif.Props.Names

/-!
# Words built from rafsi are lujvo (C84), and without y no others are (C85)
-/

namespace Sneturfahi.Props

open Spec Derives

set_option linter.constructorNameAsVariable false

namespace LForm

theorem five_last {v : Char} (h : IsVowelLetter v) : ¬ IsConsonantLetter v := by
  have : ∀ v ∈ c!"aeiouAEIOU", ¬ IsConsonantLetter v := by decide
  exact this v h
theorem diph_last {v w : Char} (h : IsDiphthong v w) : ¬ IsConsonantLetter w := by
  have : ∀ w ∈ c!"iuIU", ¬ IsConsonantLetter w := by decide
  have i : ∀ w ∈ c!"iI", w ∈ c!"iuIU" := by decide
  rcases h with h | h
  · exact this w h.2
  · exact this w (i w h.2)

/-- What the parts of a word tell about it. -/
structure Facts (w : List Char) : Prop where
  first : ∃ c t, w = c :: t ∧ IsConsonantLetter c ∧ ∃ d ∈ t, IsConsonantLetter d
  last : ∃ u v, w = u ++ [v] ∧ ¬ IsConsonantLetter v
  size : 6 ≤ w.length

theorem before_first {a r : List Char} (h : RafsiBefore a r) : 3 ≤ a.length ∧ ∃ c t, a = c :: t ∧ IsConsonantLetter c := by
  cases h with
  | cvc h => exact ⟨by simp, _, _, rfl, h⟩
  | ccv h => exact ⟨by simp, _, _, rfl, h.1⟩
  | cvv h => exact ⟨by simp, _, _, rfl, h⟩
  | cvhv h => exact ⟨by simp, _, _, rfl, h⟩
  | cvcy h => exact ⟨by simp, _, _, rfl, h⟩
  | cvccy h => exact ⟨by simp, _, _, rfl, h⟩
  | ccvcy h => exact ⟨by simp, _, _, rfl, h.1⟩

theorem short_first {f : List Char} (h : ShortRafsi f) : 3 ≤ f.length ∧ (∃ c t, f = c :: t ∧ IsConsonantLetter c) ∧
    ∃ u v, f = u ++ [v] ∧ ¬ IsConsonantLetter v := by
  cases h with
  | @cvv c v w h h2 => exact ⟨by simp, ⟨_, _, rfl, h⟩, [c, v], w, rfl, diph_last h2⟩
  | @ccv c d v h h2 => exact ⟨by simp, ⟨_, _, rfl, h.1⟩, [c, d], v, rfl, five_last h2⟩

theorem last_first {f : List Char} (h : LastRafsi f) : 3 ≤ f.length ∧ (∃ c t, f = c :: t ∧ IsConsonantLetter c) ∧
    ∃ u v, f = u ++ [v] ∧ ¬ IsConsonantLetter v := by
  cases h with
  | short h => exact short_first h
  | @cvhv c v q w h _ _ h2 => exact ⟨by simp, ⟨_, _, rfl, h⟩, [c, v, q], w, rfl, five_last h2⟩
  | @cvccv c v d e w h _ _ _ h2 => exact ⟨by simp, ⟨_, _, rfl, h⟩, [c, v, d, e], w, rfl, five_last h2⟩
  | @ccvcv c d v e w h _ _ h2 => exact ⟨by simp, ⟨_, _, rfl, h.1⟩, [c, d, v, e], w, rfl, five_last h2⟩

theorem vowel_first {a : List Char} (h : VowelRafsi a) : 3 ≤ a.length ∧ ∃ c t, a = c :: t ∧ IsConsonantLetter c := by
  cases h with
  | cvv h => exact ⟨by simp, _, _, rfl, h⟩
  | cvhv h => exact ⟨by simp, _, _, rfl, h⟩

theorem join {a f : List Char} (ha : 3 ≤ a.length ∧ ∃ c t, a = c :: t ∧ IsConsonantLetter c)
    (hf : 3 ≤ f.length ∧ (∃ c t, f = c :: t ∧ IsConsonantLetter c) ∧ ∃ u v, f = u ++ [v] ∧ ¬ IsConsonantLetter v) : Facts (a ++ f) := by
  obtain ⟨ha, c, t, rfl, hc⟩ := ha
  obtain ⟨hf, ⟨d, t', e, hd⟩, u, v, e2, hv⟩ := hf
  refine ⟨⟨c, t ++ f, rfl, hc, d, by simp [e], hd⟩, ⟨c :: t ++ u, v, by simp [e2], hv⟩, ?_⟩
  simp only [List.length_append]
  omega

theorem facts {w : List Char} (h : RafsiWord w) : Facts w := by
  induction h with
  | two ha hf => exact join (before_first ha) (last_first hf)
  | bare ha hf => exact join (vowel_first ha) (short_first hf)
  | more ha _ ih =>
    obtain ⟨c, t, e, hc, _⟩ := ih.first
    exact join (before_first ha) ⟨by have := ih.size; omega, ⟨c, t, e, hc⟩, ih.last⟩

theorem vowels_no_consonant {w : List Char} (h : CmavoVowels w) : ∀ c ∈ w, ¬ IsConsonantLetter c := by
  have hg : ∀ {g}, VowelGroup g → ∀ c ∈ g, ¬ IsConsonantLetter c := by
    intro g hg c hc
    have k1 : ∀ v ∈ c!"aeiouyAEIOUY", ¬ IsConsonantLetter v := by decide
    have k2 : ∀ v ∈ c!"aA" ++ c!"iuIU" ++ c!"eoEO" ++ c!"iI", ¬ IsConsonantLetter v := by decide
    rcases hg with ⟨v, hv, rfl⟩ | ⟨v, hv, w, hw, rfl⟩ | ⟨v, hv, w, hw, rfl⟩
    · simp at hc; subst hc; exact k1 _ hv
    · refine k2 c ?_
      simp only [List.mem_cons, List.not_mem_nil, or_false] at hc
      rcases hc with rfl | rfl
      · simp only [List.mem_append]; exact .inl (.inl (.inl hv))
      · simp only [List.mem_append]; exact .inl (.inl (.inr hw))
    · refine k2 c ?_
      simp only [List.mem_cons, List.not_mem_nil, or_false] at hc
      rcases hc with rfl | rfl
      · simp only [List.mem_append]; exact .inl (.inr hv)
      · simp only [List.mem_append]; exact .inr hw
  induction h with
  | one h => exact hg h
  | @more g q t h hq _ ih =>
    intro c hc
    simp only [List.mem_append, List.mem_cons] at hc
    rcases hc with hc | rfl | hc
    · exact hg h c hc
    · have : ∀ q ∈ c!"'h", ¬ IsConsonantLetter q := by decide
      exact this _ hq
    · exact ih c hc

theorem not_cmavo {w : List Char} (h : Facts w) : ¬ CmavoForm w := by
  intro hf
  obtain ⟨c, t, rfl, hc, d, hd, hdc⟩ := h.first
  rcases hf with ⟨x, _, e⟩ | ⟨_, hy⟩ | hv | ⟨x, t', e, _, hv⟩
  · simp at e
    simp [e.2] at hd
  · have := hy d (by simp [hd])
    have k : ∀ v ∈ c!"yY", ¬ IsConsonantLetter v := by decide
    exact k d this hdc
  · exact vowels_no_consonant hv c (by simp) hc
  · simp only [List.cons.injEq] at e
    exact vowels_no_consonant hv d (e.2 ▸ hd) hdc

/-- A word that begins like this is not in the table. -/
theorem by_general {word : List Char} (h : Facts (word.filter (fun c => c != ','))) : classifyBase word = (generalPure word, false) := by
  obtain ⟨c, t, e, hc, d, hd, hdc⟩ := h.first
  have hq : ∀ c : Char, IsConsonantLetter c → hToApostrophe c = c := by
    intro c hc
    unfold hToApostrophe
    split
    · rename_i h
      have : c = 'h' := by simpa using h
      subst this
      exact absurd hc (by decide)
    · rfl
  have ett : tableText word = c :: t.map hToApostrophe := by
    have : tableText word = (word.filter (fun c => c != ',')).map hToApostrophe := rfl
    rw [this, e]
    simp [hq c hc]
  rcases classify_cases word with ⟨a, ha, hw, _, h2⟩ | ⟨hy, hlen, h2⟩ | h2
  · exfalso
    have := List.all_eq_true.mp (List.all_eq_true.mp CForm.table_forms a ha) _ hw
    simp only [Bool.or_eq_true, beq_iff_eq] at this
    rcases this with this | this
    · rw [ett] at this
      simp only [List.cons.injEq] at this
      exact absurd (this.1 ▸ hc) (by decide)
    · exact not_cmavo h (CForm.unquote_form (CForm.formB_sound this))
  · exfalso
    simp only [isY, Bool.and_eq_true, List.all_eq_true, beq_iff_eq] at hy
    have := hy.2 c (by rw [ett]; simp)
    subst this
    exact absurd hc (by decide)
  · exact h2

theorem matches_none {rule : Rule} {cs : List Char} (h : ∀ (_ : parseRule rule cs = some (cs, [])), False) : matchesAll rule cs = false := by
  cases hm : matchesAll rule cs with
  | false => rfl
  | true =>
    unfold matchesAll at hm
    split at hm
    · rename_i m r hp
      simp only [List.isEmpty_iff] at hm
      subst hm
      have := parseRule_append hp
      rw [List.append_nil] at this
      subst this
      exact (h hp).elim
    · cases hm

end LForm

/-- **C84.** A word that is, commas aside, built from two or more rafsi, with permissible consonants only, and in which no vowel is
a capital, is classified as a lujvo. -/
theorem C84_lujvo (word : Str) (ht : word.chars.getLast? ≠ some ',') (h : LujvoForm (word.chars.filter (fun c => c != ',')))
    (hcap : ∀ c ∈ word.chars, c ∉ c!"AEIOUY") :
    classify word = .val (.Lujvo, false) := by
  have hf := LForm.facts h.1
  rw [classify_eq]
  unfold classifyPure
  rw [LForm.by_general hf, generalPure_comma ht]
  have hcm := noCommas_free word.chars
  have hsm : Lj.Small (noCommas word.chars) := fun c hc => hcap c (List.mem_filter.mp hc).1
  have hsame : (noCommas word.chars).filter (fun c => c != ',') = noCommas word.chars := by
    show (word.chars.filter (fun c => c != ',')).filter (fun c => c != ',') = word.chars.filter (fun c => c != ',')
    simp
  change LujvoForm (noCommas word.chars) at h
  change LForm.Facts (noCommas word.chars) at hf
  generalize noCommas word.chars = w at h hf hcm hsame hsm
  have m1 : matchesAll .cmevla w = false := LForm.matches_none (fun hp => by
    obtain ⟨u, c, e, hc⟩ := name_last ((Names.name_iff hcm).mp hp)
    obtain ⟨u', v, e', hv⟩ := hf.last
    have := List.append_inj_right' (e.symm.trans e') rfl
    simp at this
    exact hv (this ▸ hc))
  have m2 : matchesAll .cmavo_minimal w = false := LForm.matches_none (fun hp => by
    have := cmavo_form_sound (CForm.minimal_form hp)
    change CmavoForm (w.filter _) at this
    rw [hsame] at this
    exact LForm.not_cmavo hf this)
  have m3 : matchesAll .gismu w = false := LForm.matches_none (fun hp => by
    have hg : classify ⟨0, w⟩ = .val (.Gismu, false) := by
      rw [classify_eq]
      unfold classifyPure
      rw [LForm.by_general (by rw [hsame]; exact hf)]
      have : generalPure w = .Gismu := by
        unfold generalPure
        rw [m1, m2]
        simp [matchesAll, hp]
      rw [this]
      rfl
    obtain ⟨a, b, c, d, e, el, _⟩ := C09_gismu_shape _ _ hg
    rw [hsame] at el
    have := hf.size
    rw [el] at this
    simp at this)
  obtain ⟨T, rfl, hs, hk⟩ := Lj.lujvo_sounds h hsm
  obtain ⟨hl, hfu⟩ := Lj.str_lujvo hs hk
  have m4 : matchesAll .fuhivla (Names.text T) = false := LForm.matches_none (fun hp => by rw [hfu] at hp; cases hp)
  have m5 : matchesAll .lujvo_minimal (Names.text T) = true := by
    unfold matchesAll
    rw [hl]
    rfl
  have : generalPure (Names.text T) = .Lujvo := by
    unfold generalPure
    simp [m1, m2, m3, m4, m5]
  rw [this]
  rfl

/-- **C85.** A word without y that is classified as a lujvo is, commas aside, built from two or more rafsi, with permissible
consonants only. -/
theorem C85_only_rafsi (word : Str) (x : Bool) (h : classify word = .val (.Lujvo, x)) (hy : ∀ c ∈ word.chars, c ∉ c!"yY") :
    x = false ∧ word.chars.getLast? ≠ some ',' ∧ LujvoForm (word.chars.filter (fun c => c != ',')) := by
  obtain ⟨hg, hx⟩ := classify_by_rule (classify_val h) (by decide)
  have ht : word.chars.getLast? ≠ some ',' := by
    intro e
    rw [general_trailing e] at hg
    cases hg
  refine ⟨hx, ht, ?_, fun p c d r e hc hd => C13_permissible_pairs word .Lujvo x h (by decide) p r c d e hc hd, ?_⟩
  · have hs := hg
    rw [generalPure_comma ht] at hs
    have hb : Lj.Bare0 (noCommas word.chars) := fun c hc => by
      obtain ⟨h1, h2⟩ := List.mem_filter.mp hc
      exact ⟨by simpa using h2, by simpa [Lj.isYLetter] using hy c h1⟩
    obtain ⟨rule, hr, hp⟩ := general_rule hs (by decide)
    simp at hr
    subst hr
    have no : ∀ rule ∈ [Rule.gismu, .fuhivla], ans (.call rule) (noCommas word.chars) ≠ some [] := by
      intro rule hr e
      have hm : matchesAll rule (noCommas word.chars) = true := by
        obtain ⟨m, hm⟩ := ans_some.mp e
        unfold matchesAll
        rw [hm]
        rfl
      unfold generalPure at hs
      simp only [List.mem_cons, List.not_mem_nil, or_false] at hr
      rcases hr with rfl | rfl
      · cases h1 : matchesAll .cmevla (noCommas word.chars) <;> cases h2 : matchesAll .cmavo_minimal (noCommas word.chars) <;>
          simp [h1, h2, hm] at hs
      · cases h1 : matchesAll .cmevla (noCommas word.chars) <;> cases h2 : matchesAll .cmavo_minimal (noCommas word.chars) <;>
          cases h3 : matchesAll .gismu (noCommas word.chars) <;> simp [h1, h2, h3, hm] at hs
    cases Lj.whole _ (Nat.le_refl _) hb (ans_some.mpr ⟨_, hp⟩) with
    | rafsi h => exact h
    | fuhivla h => exact absurd h (no _ (by simp))
    | gismu h => exact absurd h (no _ (by simp))
    | @final c v q w hc hv hq hw e =>
      exfalso
      have five : ∀ v : Char, IsVowelLetter v → VowelGroup [v] := by
        intro v hv
        have : ∀ v ∈ c!"aeiouAEIOU", v ∈ c!"aeiouyAEIOUY" := by decide
        exact .inl ⟨v, this v hv, rfl⟩
      have := general_of_form ht (.inr (.inr (.inr ⟨c, [v, q, w], e, .inl hc, .more (five v hv) hq (.one (five w hw))⟩)))
      rw [hg] at this
      cases this
  · intro p c d e r heq hc hd he
    exact C13_no_forbidden_triple word .Lujvo x h (by decide) p r c d e heq hc hd he

/-- **C85, both ways.** A word without y and without capital vowels is classified as a lujvo if and only if it does not end in
a comma and is, commas aside, built from two or more rafsi, with permissible consonants only. -/
theorem C85_exactly (word : Str) (x : Bool) (hy : ∀ c ∈ word.chars, c ∉ c!"yYAEIOU") : classify word = .val (.Lujvo, x) ↔
    x = false ∧ word.chars.getLast? ≠ some ',' ∧ LujvoForm (word.chars.filter (fun c => c != ',')) := by
  have k1 : ∀ c ∈ c!"yY", c ∈ c!"yYAEIOU" := by decide
  have k2 : ∀ c ∈ c!"AEIOUY", c ∈ c!"yYAEIOU" := by decide
  constructor
  · intro h
    exact C85_only_rafsi word x h (fun c hc h => hy c hc (k1 c h))
  · rintro ⟨rfl, ht, hf⟩
    exact C84_lujvo word ht hf (fun c hc h => hy c hc (k2 c h))

/-! A test for examples. -/

namespace LForm

/-- Only permissible consonants next to each other. -/
def near (c : Char) : List Char → Bool
  | [] => true
  | [d] => !decide (IsConsonantLetter c) || !decide (IsConsonantLetter d) || decide (PermissiblePair (lower c) (lower d))
  | d :: e :: _ => (!decide (IsConsonantLetter c) || !decide (IsConsonantLetter d) || decide (PermissiblePair (lower c) (lower d))) &&
      !decide ([lower c, lower d, lower e] ∈ forbiddenTriples)

def pairs : List Char → Bool
  | [] => true
  | c :: w => near c w && pairs w

theorem pairs_sound : ∀ {w : List Char}, pairs w = true →
    (∀ p c d r, w = p ++ c :: d :: r → IsConsonantLetter c → IsConsonantLetter d → PermissiblePair (lower c) (lower d)) ∧
    (∀ p c d e r, w = p ++ c :: d :: e :: r → IsConsonantLetter c → IsConsonantLetter d → IsConsonantLetter e →
      [lower c, lower d, lower e] ∉ forbiddenTriples) := by
  intro w
  induction w with
  | nil => intro _; constructor <;> (intros; simp_all)
  | cons x w ih =>
    intro h
    rw [pairs, Bool.and_eq_true] at h
    obtain ⟨h1, h2⟩ := h
    constructor
    · intro p c d r e hc hd
      cases p with
      | nil =>
        simp only [List.nil_append, List.cons.injEq] at e
        obtain ⟨rfl, rfl⟩ := e
        have h1 : (!decide (IsConsonantLetter x) || !decide (IsConsonantLetter d) || decide (PermissiblePair (lower x) (lower d))) = true := by
          cases r with
          | nil => exact h1
          | cons y r => exact (Bool.and_eq_true _ _ ▸ h1).1
        simp only [Bool.or_eq_true, Bool.not_eq_true', decide_eq_false_iff_not, decide_eq_true_eq] at h1
        rcases h1 with (h | h) | h
        · exact absurd hc h
        · exact absurd hd h
        · exact h
      | cons z p =>
        simp only [List.cons_append, List.cons.injEq] at e
        exact (ih h2).1 p c d r e.2 hc hd
    · intro p c d f r e hc hd hf
      cases p with
      | nil =>
        simp only [List.nil_append, List.cons.injEq] at e
        obtain ⟨rfl, rfl⟩ := e
        simp only [near, Bool.and_eq_true, Bool.not_eq_true', decide_eq_false_iff_not] at h1
        exact h1.2
      | cons z p =>
        simp only [List.cons_append, List.cons.injEq] at e
        exact (ih h2).2 p c d f r e.2 hc hd hf

end LForm

/-- The form is met: every kind of rafsi, hyphens r, n and y, capital consonants, h for the apostrophe. -/
example : LujvoForm c!"lobjbobaurbihunrokytangyBridyselgri" := by
  refine ⟨.more (a := c!"lob") (.cvc (by decide) ?_ (by decide)) (.more (a := c!"jbo") (.ccv ?_ ?_)
    (.more (a := c!"baur") (.cvv (by decide) ?_ ?_) (.more (a := c!"bihun") (.cvhv (by decide) ?_ (by decide) ?_ ?_)
    (.more (a := c!"roky") (.cvcy (by decide) ?_ (by decide) (by decide)) (.more (a := c!"tangy") (.cvccy (by decide) ?_ (by decide) (by decide) (by decide))
    (.more (a := c!"Bridy") (.ccvcy ?_ ?_ (by decide) (by decide)) (.two (a := c!"sel") (f := c!"gri") (.cvc (by decide) ?_ (by decide)) (.short (.ccv ?_ ?_)))))))))
    , LForm.pairs_sound (by decide +kernel)⟩ <;> first | (unfold IsVowelLetter; decide) | (unfold IsInitialPair; decide +kernel) | (unfold IsDiphthong; decide) | exact .inl (by decide) |
      exact .inr ⟨by decide, _, _, rfl, by decide⟩

/-- Two rafsi, the first without a hyphen; C85 in use. -/
example : LujvoForm c!"bauvla" ∧ classify ⟨0, c!"bauvla"⟩ = .val (.Lujvo, false) := by
  have h : LujvoForm c!"bauvla" := ⟨.bare (a := c!"bau") (f := c!"vla") (.cvv (by decide) (by unfold IsDiphthong; decide))
    (.ccv (by unfold IsInitialPair; decide +kernel) (by unfold IsVowelLetter; decide)), LForm.pairs_sound (by decide +kernel)⟩
  exact ⟨h, (C85_exactly ⟨0, c!"bauvla"⟩ false (by decide)).mpr ⟨rfl, by decide, h⟩⟩

namespace LForm

/-- The end of a rafsi of the kind CVV or CV'V. -/
def VowelEnd (z w : Char) : Prop := IsDiphthong z w ∨ (z ∈ c!"'h" ∧ IsVowelLetter w)

theorem end_kinds {z w : Char} (h : VowelEnd z w) : (¬ IsConsonantLetter z) ∧ (¬ IsConsonantLetter w) ∧ z ∉ c!"yY" ∧ w ∉ c!"yY'h" := by
  have k1 : ∀ z ∈ c!"aA", ¬ IsConsonantLetter z ∧ z ∉ c!"yY" := by decide
  have k2 : ∀ z ∈ c!"eoEO", ¬ IsConsonantLetter z ∧ z ∉ c!"yY" := by decide
  have k3 : ∀ z ∈ c!"'h", ¬ IsConsonantLetter z ∧ z ∉ c!"yY" := by decide
  have k4 : ∀ z ∈ c!"iuIU", ¬ IsConsonantLetter z ∧ z ∉ c!"yY'h" := by decide
  have k5 : ∀ z ∈ c!"iI", ¬ IsConsonantLetter z ∧ z ∉ c!"yY'h" := by decide
  have k6 : ∀ z ∈ c!"aeiouAEIOU", ¬ IsConsonantLetter z ∧ z ∉ c!"yY'h" := by decide
  rcases h with (h | h) | h
  · exact ⟨(k1 z h.1).1, (k4 w h.2).1, (k1 z h.1).2, (k4 w h.2).2⟩
  · exact ⟨(k2 z h.1).1, (k5 w h.2).1, (k2 z h.1).2, (k5 w h.2).2⟩
  · exact ⟨(k3 z h.1).1, (k6 w h.2).1, (k3 z h.1).2, (k6 w h.2).2⟩

theorem hyphen_letters {h : Char} {r : List Char} (hh : IsHyphen h r) : IsConsonantLetter h ∧ h ∈ c!"rRnN" := by
  have k1 : ∀ h ∈ c!"rR", IsConsonantLetter h ∧ h ∈ c!"rRnN" := by decide
  have k2 : ∀ h ∈ c!"nN", IsConsonantLetter h ∧ h ∈ c!"rRnN" := by decide
  rcases hh with h | h
  · exact k1 _ h
  · exact k2 _ h.1

/-- Inside a rafsi that is not the last, vowels are followed by a hyphen. -/
theorem before_end {a r p t : List Char} {z w d : Char} (h : RafsiBefore a r) (hz : VowelEnd z w) (hd : d ∉ c!"rRnN") (hr : ∃ c u, r = c :: u ∧ IsConsonantLetter c) :
    a ++ r = p ++ z :: w :: d :: t → ∃ q, p = a ++ q := by
  obtain ⟨k1, k2, k3, k4⟩ := end_kinds hz
  obtain ⟨c0, u, rfl, hc0⟩ := hr
  intro e
  cases h with
  | cvc h1 h2 h3 =>
    rcases p with _ | ⟨_, _ | ⟨_, _ | ⟨_, p⟩⟩⟩ <;> simp at e
    · exact absurd (e.1 ▸ h1) k1
    · exact absurd (e.2.2.1 ▸ h3) k2
    · exact absurd (e.2.2.1 ▸ h3) k1
    · exact ⟨p, by simp [e]⟩
  | ccv h1 h2 =>
    rcases p with _ | ⟨_, _ | ⟨_, _ | ⟨_, p⟩⟩⟩ <;> simp at e
    · exact absurd (e.1 ▸ h1.1) k1
    · exact absurd (e.2.1 ▸ h1.2.1) k1
    · exact absurd (e.2.2.2.1 ▸ hc0) k2
    · exact ⟨p, by simp [e]⟩
  | cvv h1 h2 h3 =>
    obtain ⟨g1, g2⟩ := hyphen_letters h3
    rcases p with _ | ⟨_, _ | ⟨_, _ | ⟨_, _ | ⟨_, p⟩⟩⟩⟩ <;> simp at e
    · exact absurd (e.1 ▸ h1) k1
    · exact absurd (e.2.2.2.1 ▸ g2) hd
    · exact absurd (e.2.2.2.1 ▸ g1) k2
    · exact absurd (e.2.2.2.1 ▸ g1) k1
    · exact ⟨p, by simp [e]⟩
  | cvhv h1 h2 h3 h4 h5 =>
    obtain ⟨g1, g2⟩ := hyphen_letters h5
    rcases p with _ | ⟨_, _ | ⟨_, _ | ⟨_, _ | ⟨_, _ | ⟨_, p⟩⟩⟩⟩⟩ <;> simp at e
    · exact absurd (e.1 ▸ h1) k1
    · refine absurd ?_ k4
      have : ∀ q ∈ c!"'h", q ∈ c!"yY'h" := by decide
      exact e.2.2.1 ▸ this _ h3
    · exact absurd (e.2.2.2.2.1 ▸ g2) hd
    · exact absurd (e.2.2.2.2.1 ▸ g1) k2
    · exact absurd (e.2.2.2.2.1 ▸ g1) k1
    · exact ⟨p, by simp [e]⟩
  | cvcy h1 h2 h3 h4 =>
    rcases p with _ | ⟨_, _ | ⟨_, _ | ⟨_, _ | ⟨_, p⟩⟩⟩⟩ <;> simp at e
    · exact absurd (e.1 ▸ h1) k1
    · exact absurd (e.2.2.1 ▸ h3) k2
    · exact absurd (e.2.2.1 ▸ h3) k1
    · exact absurd (e.2.2.2.1 ▸ h4) k3
    · exact ⟨p, by simp [e]⟩
  | cvccy h1 h2 h3 h4 h5 =>
    rcases p with _ | ⟨_, _ | ⟨_, _ | ⟨_, _ | ⟨_, _ | ⟨_, p⟩⟩⟩⟩⟩ <;> simp at e
    · exact absurd (e.1 ▸ h1) k1
    · exact absurd (e.2.2.1 ▸ h3) k2
    · exact absurd (e.2.2.1 ▸ h3) k1
    · exact absurd (e.2.2.2.1 ▸ h4) k1
    · exact absurd (e.2.2.2.2.1 ▸ h5) k3
    · exact ⟨p, by simp [e]⟩
  | ccvcy h1 h2 h3 h4 =>
    rcases p with _ | ⟨_, _ | ⟨_, _ | ⟨_, _ | ⟨_, _ | ⟨_, p⟩⟩⟩⟩⟩ <;> simp at e
    · exact absurd (e.1 ▸ h1.1) k1
    · exact absurd (e.2.1 ▸ h1.2.1) k1
    · exact absurd (e.2.2.2.1 ▸ h3) k2
    · exact absurd (e.2.2.2.1 ▸ h3) k1
    · exact absurd (e.2.2.2.2.1 ▸ h4) k3
    · exact ⟨p, by simp [e]⟩

theorem last_len {f : List Char} (h : LastRafsi f) : f.length ≤ 5 := by
  cases h with
  | short h => cases h <;> simp
  | _ => simp

theorem vowels_hyphen {l : List Char} (h : RafsiWord l) : ∀ {p t : List Char} {z w d : Char}, l = p ++ z :: w :: d :: t → VowelEnd z w →
    d ∉ c!"rRnN" → t.length ≤ 2 := by
  induction h with
  | @two a f ha hf =>
    intro p t z w d e hz hd
    obtain ⟨_, hc, _⟩ := last_first hf
    obtain ⟨q, rfl⟩ := before_end ha hz hd hc e
    rw [List.append_assoc] at e
    have e := List.append_cancel_left e
    have := last_len hf
    rw [e] at this
    simp only [List.length_append, List.length_cons] at this
    omega
  | @bare a f ha hf =>
    intro p t z w d e hz hd
    have h3 : f.length = 3 := by cases hf <;> rfl
    obtain ⟨k1, _, _, k4⟩ := end_kinds hz
    have e2 := congrArg List.length e
    simp only [List.length_append, List.length_cons] at e2
    cases ha with
    | cvv h1 h2 =>
      cases p with
      | nil => simp at e; exact absurd (e.1 ▸ h1) k1
      | cons y p =>
        simp only [List.length_cons, List.length_nil] at e2
        omega
    | cvhv h1 h2 h3 h4 =>
      rcases p with _ | ⟨y, _ | ⟨y', p⟩⟩
      · simp at e; exact absurd (e.1 ▸ h1) k1
      · simp at e
        have : ∀ q ∈ c!"'h", q ∈ c!"yY'h" := by decide
        exact absurd (e.2.2.1 ▸ this _ h3) k4
      · simp only [List.length_cons, List.length_nil] at e2
        omega
  | @more a l ha hl ih =>
    intro p t z w d e hz hd
    obtain ⟨c, u, hc, hc', _⟩ := (facts hl).first
    obtain ⟨q, rfl⟩ := before_end ha hz hd ⟨c, u, hc, hc'⟩ e
    rw [List.append_assoc] at e
    exact ih (List.append_cancel_left e) hz hd

end LForm

/-- **C85, hyphens.** In a word without y that is classified as a lujvo, a diphthong, or an apostrophe and a vowel, is followed by r
or n, unless at most the last rafsi comes after it. (Lojban itself asks for the hyphen only in the first rafsi of a word.) -/
theorem C85_hyphens (word : Str) (x : Bool) (h : classify word = .val (.Lujvo, x)) (hy : ∀ c ∈ word.chars, c ∉ c!"yY")
    (before after : List Char) (v w d : Char) (hw : word.chars.filter (fun c => c != ',') = before ++ v :: w :: d :: after)
    (hv : IsDiphthong v w ∨ (v ∈ c!"'h" ∧ IsVowelLetter w)) (hlen : 3 ≤ after.length) : d ∈ c!"rRnN" := by
  obtain ⟨_, _, hf, _⟩ := C85_only_rafsi word x h hy
  refine Decidable.byContradiction fun hd => ?_
  have := LForm.vowels_hyphen hf hw hv hd
  omega

/-- So `lojbauselgri` and `jbobauvlagri` are no lujvo, though they are built from rafsi. -/
example : ∀ x, classify ⟨0, c!"lojbauselgri"⟩ ≠ .val (.Lujvo, x) ∧ classify ⟨0, c!"jbobauvlagri"⟩ ≠ .val (.Lujvo, x) := by
  intro x
  constructor
  · intro h
    exact absurd (C85_hyphens ⟨0, c!"lojbauselgri"⟩ x h (by decide) c!"lojb" c!"elgri" 'a' 'u' 's' rfl (.inl (.inl (by decide))) (by decide)) (by decide)
  · intro h
    exact absurd (C85_hyphens ⟨0, c!"jbobauvlagri"⟩ x h (by decide) c!"jbob" c!"lagri" 'a' 'u' 'v' rfl (.inl (.inl (by decide))) (by decide)) (by decide)

/-- Other words that are close to lujvo: one rafsi only. -/
example : ¬ LujvoForm c!"gri" ∧ ¬ LujvoForm c!"bangu" := by
  constructor <;> exact fun h => absurd (LForm.facts h.1).size (by decide)

end Sneturfahi.Props
