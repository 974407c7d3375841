import Verif.Proof.Names
import Verif.Props.CmavoForm

/-!
# Exactly the words of the form of a name are names (C83)
-/

namespace Sneturfahi.Props

open Spec Derives

set_option linter.constructorNameAsVariable false

theorem noCommas_free (cs : List Char) : ',' ∉ noCommas cs := by
  intro h
  have := (List.mem_filter.mp h).2
  simp at this

/-- The last letter of a name. -/
theorem name_last {w : List Char} (h : NameForm w) : ∃ u c, w = u ++ [c] ∧ IsConsonantLetter c := by
  obtain ⟨s, ⟨hw, _, _, _, c, hc⟩, rfl⟩ := h
  obtain ⟨a, rfl⟩ := List.getLast?_eq_some_iff.mp hc
  exact ⟨a.flatMap Sound.letters, c, by simp [Sound.letters], hw (.consonant c) (by simp)⟩

/-- **C83.** A word is classified as a name (Cmevla) if and only if it does not end in a comma and has, commas aside, the
form of a name; and it is never marked experimental. -/
theorem C83_names (word : Str) (x : Bool) : classify word = .val (.Cmevla, x) ↔
    x = false ∧ word.chars.getLast? ≠ some ',' ∧ NameForm (word.chars.filter (fun c => c != ',')) := by
  constructor
  · intro h
    obtain ⟨hg, hx⟩ := classify_by_rule (classify_val h) (by decide)
    have ht : word.chars.getLast? ≠ some ',' := by
      intro e
      rw [general_trailing e] at hg
      cases hg
    refine ⟨hx, ht, ?_⟩
    rw [generalPure_comma ht] at hg
    obtain ⟨rule, hr, hp⟩ := general_rule hg (by decide)
    simp at hr
    subst hr
    exact (Names.name_iff (noCommas_free _)).mp hp
  · rintro ⟨rfl, ht, hf⟩
    have hp := (Names.name_iff (noCommas_free word.chars)).mpr hf
    have hgen : generalPure word.chars = .Cmevla := by
      rw [generalPure_comma ht]
      unfold generalPure
      simp [matchesAll, hp]
    obtain ⟨u, c, e, hc⟩ := name_last hf
    have hq : ∀ c : Char, IsConsonantLetter c → hToApostrophe c = c := by
      intro c hc
      unfold hToApostrophe
      split
      · rename_i h
        have : c = 'h' := by simpa using h
        subst this
        exact absurd hc (by decide)
      · rfl
    have ett : tableText word.chars = u.map hToApostrophe ++ [c] := by
      have : tableText word.chars = (word.chars.filter (fun c => c != ',')).map hToApostrophe := rfl
      rw [this, e]
      simp [hq c hc]
    have hlast : ∀ {u' : List Char} {v : Char}, tableText word.chars = u' ++ [v] → IsConsonantLetter v := by
      intro u' v e'
      rw [ett] at e'
      have := List.append_inj_right' e' rfl
      simp at this
      subst this
      exact hc
    rw [classify_eq]
    unfold classifyPure
    rcases classify_cases word.chars with ⟨a, ha, hw, _, h2⟩ | ⟨hy, hlen, h2⟩ | h2
    · exfalso
      have := List.all_eq_true.mp (List.all_eq_true.mp CForm.table_forms a ha) _ hw
      simp only [Bool.or_eq_true, beq_iff_eq] at this
      rcases this with this | this
      · exact absurd (hlast (u' := c!" vi'ei'") (v := 'e') this) (by decide)
      · obtain ⟨u', v, e', hv⟩ := CForm.form_last (CForm.formB_sound this)
        exact hv (hlast e')
    · exfalso
      simp only [isY, Bool.and_eq_true, List.all_eq_true, beq_iff_eq] at hy
      have := hy.2 c (by rw [ett]; simp)
      subst this
      exact absurd hc (by decide)
    · rw [h2, hgen]
      rfl

/-- **C83, one reading.** A word divides into the sounds of a name in one way only. -/
theorem C83_one_reading (s t : List Sound) (hs : NameSounds s) (ht : NameSounds t)
    (h : s.flatMap Sound.letters = t.flatMap Sound.letters) : s = t :=
  Names.unique ((Names.good_iff hs.2.2.2.2).mpr ⟨hs.1, hs.2.1, hs.2.2.1⟩) ((Names.good_iff ht.2.2.2.2).mpr ⟨ht.1, ht.2.1, ht.2.2.1⟩) h

/-- **C83, no other class.** No word that has the form of a name has the form of a cmavo. -/
theorem C83_not_cmavo (w : List Char) (h : NameForm w) : ¬ CmavoForm w := by
  intro hf
  obtain ⟨u, c, rfl, hc⟩ := name_last h
  obtain ⟨u', v, e, hv⟩ := CForm.form_last hf
  have := List.append_inj_right' e rfl
  simp at this
  subst this
  exact hv hc

/-! A test for examples. -/

namespace NForm

instance : DecidablePred VowelGroup := fun g => decidable_of_iff (CForm.groupB g = true) ⟨CForm.groupB_sound, fun h => by
  rcases h with ⟨v, hv, rfl⟩ | ⟨v, hv, w, hw, rfl⟩ | ⟨v, hv, w, hw, rfl⟩
  · simpa [CForm.groupB] using hv
  · simp only [CForm.groupB, Bool.or_eq_true, Bool.and_eq_true, List.contains_iff_mem]; exact .inl ⟨hv, hw⟩
  · simp only [CForm.groupB, Bool.or_eq_true, Bool.and_eq_true, List.contains_iff_mem]; exact .inr ⟨hv, hw⟩⟩

instance : DecidablePred Sound.WellFormed := fun x => by
  cases x <;> simp only [Sound.WellFormed] <;> infer_instance

instance (x y : Sound) : Decidable (x.MayPrecede y) := by
  cases x <;> cases y <;> simp only [Sound.MayPrecede] <;> infer_instance

instance (x : Sound) (s : List Sound) : Decidable (Names.Next x s) := by
  cases s <;> simp only [Names.Next] <;> infer_instance

instance (s : List Sound) : Decidable (Names.Triple s) := by
  unfold Names.Triple
  split <;> infer_instance

def good : (s : List Sound) → Decidable (Names.Good s)
  | [] => .isTrue trivial
  | x :: s => by
    have := good s
    unfold Names.Good
    infer_instance

instance (s : List Sound) : Decidable (Names.Good s) := good s

theorem form {s : List Sound} {w : List Char} (h : Names.Good s ∧ (∀ d, s.head? ≠ some (.apostrophe d)) ∧ (∃ c, s.getLast? = some (.consonant c)) ∧
    w = s.flatMap Sound.letters) : NameForm w := by
  obtain ⟨h1, h2, h3⟩ := (Names.good_iff h.2.2.1).mp h.1
  exact ⟨s, ⟨h1, h2, h3, h.2.1, h.2.2.1⟩, h.2.2.2⟩

end NForm

/-- The form is met: a diphthong, an apostrophe, a glide, consonants in a row, a digit, capitals. -/
example : NameForm c!"djAiha1iaNd" ∧ classify ⟨0, c!"dj,Aiha1iaNd"⟩ = .val (.Cmevla, false) := by
  have h : NameForm c!"djAiha1iaNd" := NForm.form (s := [.consonant 'd', .consonant 'j', .vowels c!"Ai", .apostrophe 'h', .vowels c!"a", .digit '1',
    .glide 'i', .vowels c!"a", .consonant 'N', .consonant 'd']) ⟨by decide +kernel, by simp, ⟨'d', rfl⟩, rfl⟩
  exact ⟨h, (C83_names ⟨0, c!"dj,Aiha1iaNd"⟩ false).mpr ⟨rfl, by decide, h⟩⟩

/-- Words that are close to names: a glide after a consonant, a vowel after a digit, a forbidden triple, a pair that is
not permissible, an apostrophe at the start, no consonant at the end, a comma at the end. -/
example : ∀ w ∈ [c!"kiut", c!"1an", c!"antsen", c!"abtan", c!"'an", c!"djano", c!"djan,"],
    classify ⟨0, w⟩ ≠ .val (.Cmevla, false) := by
  have h : ∀ w ∈ [c!"kiut", c!"1an", c!"antsen", c!"abtan", c!"'an", c!"djano", c!"djan,"], classifyPure w ≠ (.Cmevla, false) := by decide +kernel
  intro w hw e
  exact h w hw (classify_val e)
example : ∀ w ∈ [c!"kit", c!"ikiut", c!"1ian", c!"antcen"], NameForm w → w ∈ [c!"kit", c!"1ian"] := by
  intro w hw h
  have hc : ∀ w ∈ [c!"kit", c!"ikiut", c!"1ian", c!"antcen"], w.getLast? ≠ some ',' ∧ w.filter (fun c => c != ',') = w := by decide
  have e := (C83_names ⟨0, w⟩ false).mpr ⟨rfl, (hc w hw).1, by rw [(hc w hw).2]; exact h⟩
  have hcl : ∀ w ∈ [c!"kit", c!"ikiut", c!"1ian", c!"antcen"], classifyPure w = (.Cmevla, false) → w ∈ [c!"kit", c!"1ian"] := by decide +kernel
  exact hcl w hw (classify_val e)

end Sneturfahi.Props
