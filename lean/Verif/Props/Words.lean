import Verif.Proof.WinRules
import Verif.Props.Classify

/-!
# Which words are recognised (C60 –)
-/

namespace Sneturfahi.Props

open Spec Derives

/-! ### C60 -/

/-- The letters of a gismu, as the code has it: `CVCCV` with a permissible pair in the middle, or `CCVCV` beginning with an
initial pair; the first vowel may be `y` and may be a capital, the last is one of a e i o u in lower case. -/
def GismuExact (letters : List Char) : Prop :=
  ∃ a b c d e, letters = [a, b, c, d, e] ∧ e ∈ c!"aeiou" ∧
    ((IsConsonantLetter a ∧ IsVowelOrY b ∧ IsConsonantLetter c ∧ IsConsonantLetter d ∧ PermissiblePair (lower c) (lower d)) ∨
     (IsConsonantLetter a ∧ IsConsonantLetter b ∧ IsVowelOrY c ∧ IsConsonantLetter d ∧ [lower a, lower b] ∈ initialPairs))

/-- The consonants that may follow `c` in the middle of a word. -/
def afterPair (c : Char) : List Char := allConsonants.filter (fun d => decide (PermissiblePair (lower c) (lower d)))

/-- The consonants that may follow `c` at the beginning of a word. -/
def afterInitial (c : Char) : List Char := allConsonants.filter (fun d => decide ([lower c, lower d] ∈ initialPairs))

/-- The letters that are `c` up to case. -/
def bothCases (c : Char) : List Char := [c, c.toUpper]

/-- All texts of the pattern are gismu, and neither cmevla nor cmavo. -/
noncomputable def gismuCheck (p : List (List Char)) : Bool := always (.ok p.length) (winR true grammarM 40 .gismu (winOf p)) &&
    never p.length (winR true grammarM 40 .cmevla (winOf p)) && never p.length (winR true grammarM 40 .cmavo_minimal (winOf p))

theorem gismu_win1 : (c!"bcdfgjklmnprstvxz").all
    (fun c => gismuCheck [allConsonants, allVowels, bothCases c, afterPair c, c!"aeiou"]) = true := by
  decide +kernel

theorem gismu_win2 : (c!"bcdfgjklmnprstvxz").all
    (fun c => gismuCheck [bothCases c, afterInitial c, allVowels, allConsonants, c!"aeiou"]) = true := by
  decide +kernel

theorem not_gismu_win1 :
    always .fail (winR true grammarM 40 .gismu (winOf [allConsonants, allVowels, allConsonants, allConsonants, c!"AEIOUYy"])) = true := by
  decide +kernel

theorem not_gismu_win2 :
    always .fail (winR true grammarM 40 .gismu (winOf [allConsonants, allConsonants, allVowels, allConsonants, c!"AEIOUYy"])) = true := by
  decide +kernel

theorem cases_of_consonant : ∀ c ∈ allConsonants, lower c ∈ c!"bcdfgjklmnprstvxz" ∧ c ∈ bothCases (lower c) := by decide +kernel
theorem lower_lower : ∀ c ∈ allConsonants, lower (lower c) = lower c := by decide +kernel
theorem vowels_final : ∀ c ∈ allVowels, c ∈ c!"aeiou" ∨ c ∈ c!"AEIOUYy" := by decide
theorem mem_allVowels {c : Char} (h : IsVowelOrY c) : c ∈ allVowels := by
  have : ∀ c ∈ c!"aeiouAEIOUyY", c ∈ allVowels := by decide
  apply this
  rcases h with h | rfl | rfl
  · have : ∀ c ∈ c!"aeiouAEIOU", c ∈ c!"aeiouAEIOUyY" := by decide
    exact this c h
  · decide
  · decide

theorem gismuCheck_word {p : List (List Char)} (h : gismuCheck p = true) {m : List Char} (hm : Fits p m) : generalPure m = .Gismu := by
  simp only [gismuCheck, Bool.and_eq_true] at h
  unfold generalPure
  rw [matchesAll_win_not h.1.2 hm, matchesAll_win_not h.2 hm, matchesAll_win h.1.1 hm]
  rfl

/-- A comma-free text of that form is a gismu. -/
theorem gismuExact_general {l : List Char} (h : GismuExact l) : generalPure l = .Gismu := by
  obtain ⟨a, b, c, d, e, rfl, he, ⟨ha, hb, hc, hd, hp⟩ | ⟨ha, hb, hc, hd, hp⟩⟩ := h
  · have hc' := cases_of_consonant c hc
    refine gismuCheck_word (List.all_eq_true.mp gismu_win1 _ hc'.1) ⟨ha, mem_allVowels hb, hc'.2, ?_, he, trivial⟩
    simp only [afterPair, List.mem_filter, decide_eq_true_eq, lower_lower c hc]
    exact ⟨hd, hp⟩
  · have ha' := cases_of_consonant a ha
    refine gismuCheck_word (List.all_eq_true.mp gismu_win2 _ ha'.1) ⟨ha'.2, ?_, mem_allVowels hc, hd, he, trivial⟩
    simp only [afterInitial, List.mem_filter, decide_eq_true_eq, lower_lower a ha]
    exact ⟨hb, hp⟩

/-- Two consonants in a row somewhere. -/
theorem gismuExact_cluster {l : List Char} (h : GismuExact l) :
    ∃ u x y v, l = u ++ x :: y :: v ∧ IsConsonantLetter x ∧ IsConsonantLetter y := by
  obtain ⟨a, b, c, d, e, rfl, he, ⟨ha, hb, hc, hd, hp⟩ | ⟨ha, hb, hc, hd, hp⟩⟩ := h
  · exact ⟨[a, b], c, d, [e], rfl, hc, hd⟩
  · exact ⟨[], a, b, [c, d, e], rfl, ha, hb⟩

theorem commaSim_noCommas {cs : List Char} (h : NoTrail cs) : CommaSim cs (noCommas cs) := by
  refine ⟨by simp [noCommas], ⟨fun _ => ?_, fun _ => h⟩⟩
  intro hl
  have := List.mem_of_getLast? hl
  simp [noCommas] at this

theorem generalPure_comma {cs : List Char} (h : NoTrail cs) : generalPure cs = generalPure (noCommas cs) := by
  unfold generalPure
  simp only [matchesAll_comma _ (commaSim_noCommas h)]

theorem isY_noClusters {w : List Char} (h : isY w = true) : noClusters w = true := by
  simp only [isY, Bool.and_eq_true, List.all_eq_true, beq_iff_eq] at h
  have hw := h.2
  clear h
  induction w with
  | nil => rfl
  | cons a w ih =>
    cases w with
    | nil => rfl
    | cons b w =>
      have ha : a = 'y' := hw a (by simp)
      subst ha
      simp only [noClusters, Bool.and_eq_true]
      exact ⟨by
        have : decide (IsConsonantLetter 'y') = false := by decide
        rw [this]; rfl, ih (fun c hc => hw c (by simp [hc]))⟩

/-- **C60.** A word is classified Gismu if and only if it does not end in a comma and its letters (commas aside) are exactly
five, of the shape `CVCCV` with a permissible pair, or `CCVCV` with an initial pair, the last vowel being one of a e i o u in
lower case. -/
theorem C60_gismu_iff (word : Str) (x : Bool) :
    classify word = .val (.Gismu, x) ↔
      x = false ∧ word.chars.getLast? ≠ some ',' ∧ GismuExact (word.chars.filter (fun c => c != ',')) := by
  constructor
  · intro h
    have hx := (C16_experimental word _ _ h).2.2 (by decide)
    obtain ⟨rule, hr, hp⟩ := classify_rule h (by decide) (by decide)
    simp at hr
    subst hr
    have hnt : NoTrail word.chars := parseRule_noTrail hp
    refine ⟨hx, hnt, ?_⟩
    have hpairs := C13_permissible_pairs word _ _ h (by decide)
    obtain ⟨a, b, c, d, e, hl, hs⟩ := C09_gismu_shape word x h
    have hm : matchesAll .gismu [a, b, c, d, e] = true := by
      have : matchesAll .gismu word.chars = true := by unfold matchesAll; rw [hp]; rfl
      rw [matchesAll_comma _ (commaSim_noCommas hnt)] at this
      rwa [show noCommas word.chars = _ from hl] at this
    have hnf : ∀ m, matchesAll .gismu m = true → parseRule .gismu m ≠ none := by
      intro m hm h0
      unfold matchesAll at hm
      rw [h0] at hm
      cases hm
    have he : e ∈ c!"aeiou" := by
      rcases hs with ⟨ha, hb, hc, hd, he⟩ | ⟨ha, hb, hc, hd, he, _⟩
      · rcases vowels_final e (mem_allVowels he) with h1 | h1
        · exact h1
        · exact absurd (win_fail_end (m := [a, b, c, d, e]) not_gismu_win1 ⟨ha, mem_allVowels hb, hc, hd, h1, trivial⟩) (hnf _ hm)
      · rcases vowels_final e (mem_allVowels he) with h1 | h1
        · exact h1
        · exact absurd (win_fail_end (m := [a, b, c, d, e]) not_gismu_win2 ⟨ha, hb, mem_allVowels hc, hd, h1, trivial⟩) (hnf _ hm)
    refine ⟨a, b, c, d, e, hl, he, ?_⟩
    rcases hs with ⟨ha, hb, hc, hd, _⟩ | ⟨ha, hb, hc, hd, _, hi⟩
    · exact .inl ⟨ha, hb, hc, hd, hpairs [a, b] [e] c d hl hc hd⟩
    · exact .inr ⟨ha, hb, hc, hd, hi⟩
  · rintro ⟨rfl, hnt, hg⟩
    change NoTrail word.chars at hnt
    change GismuExact (noCommas word.chars) at hg
    have hgen : generalPure word.chars = .Gismu := by rw [generalPure_comma hnt]; exact gismuExact_general hg
    have hnc : noClusters (tableText word.chars) = false := by
      obtain ⟨u, a, b, v, hl, ha, hb⟩ := gismuExact_cluster hg
      rw [Bool.eq_false_iff]
      intro hn
      simp only [tableText, hl, List.map_append, List.map_cons, hToApostrophe_consonant ha, hToApostrophe_consonant hb] at hn
      exact noClusters_pair hn ⟨ha, hb⟩
    rw [classify_eq]
    congr 1
    unfold classifyPure
    rcases classify_cases word.chars with ⟨a, ha, hw, _, _⟩ | ⟨hy, _, _⟩ | h2
    · rw [List.all_eq_true.mp tableWords_noClusters _ (List.mem_flatMap.mpr ⟨a, ha, hw⟩)] at hnc
      cases hnc
    · rw [isY_noClusters hy] at hnc
      cases hnc
    · rw [h2, hgen]
      rfl

example : GismuExact ((c!"br,oda").filter (fun c => c != ',')) := by
  exact ⟨'b', 'r', 'o', 'd', 'a', by decide, by decide, .inr ⟨by decide, by decide, by decide, by decide, by decide⟩⟩

end Sneturfahi.Props
