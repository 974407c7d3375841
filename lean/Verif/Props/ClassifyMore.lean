import Verif.Props.Classify

/-!
# More about `Selmaho::classify`: exact forms of C10, C14, C17 and C18
-/

namespace Sneturfahi.Props

open Spec Derives

set_option linter.constructorNameAsVariable false

/-! ### C10 -/

/-- **C10, only once.** A word classified Gismu contains the letter `y` at most once, and only as its first vowel: the
other vowel, the last letter, is a, e, i, o or u. -/
theorem C10_y_first_vowel_only (word : Str) (x : Bool) (h : classify word = .val (.Gismu, x))
    (hy : ∃ c ∈ word.chars, lower c = 'y') :
    ∃ a b c d e, word.chars.filter (fun c => c != ',') = [a, b, c, d, e] ∧ IsPlainVowel e ∧
      ((lower b = 'y' ∧ IsConsonantLetter a ∧ IsConsonantLetter c ∧ IsConsonantLetter d) ∨
       (lower c = 'y' ∧ IsConsonantLetter a ∧ IsConsonantLetter b ∧ IsConsonantLetter d)) := by
  obtain ⟨a, b, c, d, e, hl, hs⟩ := C09_gismu_shape word x h
  have he : IsPlainVowel e := C10_final_not_y word x h e (by rw [hl]; simp)
  refine ⟨a, b, c, d, e, hl, he, ?_⟩
  have hmem : ∃ z, z ∈ [a, b, c, d, e] ∧ lower z = 'y' := by
    obtain ⟨z, hz, hzy⟩ := hy
    refine ⟨z, ?_, hzy⟩
    rw [← hl, List.mem_filter]
    refine ⟨hz, ?_⟩
    by_cases hc : z = ','
    · subst hc; exact absurd hzy (by decide)
    · simpa using hc
  have hcon : ∀ z, IsConsonantLetter z → lower z ≠ 'y' := by
    intro z hz
    have : ∀ z ∈ allConsonants, lower z ≠ 'y' := by decide
    exact this z hz
  have hpl : lower e ≠ 'y' := by
    have : ∀ z ∈ c!"aeiouAEIOU", lower z ≠ 'y' := by decide
    exact this e he
  obtain ⟨z, hz, hzy⟩ := hmem
  simp only [List.mem_cons, List.not_mem_nil, or_false] at hz
  rcases hs with ⟨h1, _, h3, h4, _⟩ | ⟨h1, h2, _, h4, _, _⟩
  · left
    rcases hz with rfl | rfl | rfl | rfl | rfl
    · exact absurd hzy (hcon _ h1)
    · exact ⟨hzy, h1, h3, h4⟩
    · exact absurd hzy (hcon _ h3)
    · exact absurd hzy (hcon _ h4)
    · exact absurd hzy hpl
  · right
    rcases hz with rfl | rfl | rfl | rfl | rfl
    · exact absurd hzy (hcon _ h1)
    · exact absurd hzy (hcon _ h2)
    · exact ⟨hzy, h1, h2, h4⟩
    · exact absurd hzy (hcon _ h4)
    · exact absurd hzy hpl

example : ∃ c ∈ c!"b,ry,di", lower c = 'y' := by decide
example : classify ⟨0, c!"b,ry,di"⟩ = .val (.Gismu, false) := by rw [classify_eq]; decide +kernel

/-! ### C14 -/

theorem matchesAll_trailing (rule : Rule) {cs : List Char} (h : cs.getLast? = some ',') : matchesAll rule cs = false := by
  unfold matchesAll
  split
  · rename_i m r hp
    cases r with
    | cons _ _ => rfl
    | nil =>
      have := parseRule_noTrail hp
      have happ := parseRule_append hp
      simp at happ
      subst happ
      exact absurd h this
  · rfl

theorem general_trailing {cs : List Char} (h : cs.getLast? = some ',') : generalPure cs = .AnyText := by
  unfold generalPure
  simp only [matchesAll_trailing _ h, Bool.false_eq_true, if_false]

/-- **C14, the exact effect of commas.** Commas make no difference to the classification of a word, with one
exception: a word that ends in a comma and is not found in the table - that is, whose classification without the commas
would be Gismu, Lujvo, Fuhivla, Cmevla, UnknownCmavo or AnyText - is AnyText. -/
theorem C14_exact (word : Str) (ptr : Nat) (s : Selmaho) (e : Bool)
    (h : classify ⟨ptr, word.chars.filter (fun c => c != ',')⟩ = .val (s, e)) :
    classify word = .val
      (if word.chars.getLast? = some ',' ∧ s ∈ [Selmaho.Gismu, .Lujvo, .Fuhivla, .Cmevla, .UnknownCmavo, .AnyText]
       then (.AnyText, false) else (s, e)) := by
  have hf : (word.chars.filter (fun c => c != ',')).filter (fun c => c != ',') = word.chars.filter (fun c => c != ',') := by
    rw [List.filter_filter]; simp
  have hlast : (word.chars.filter (fun c => c != ',')).getLast? ≠ some ',' := by
    intro hl
    have := List.mem_of_getLast? hl
    simp at this
  by_cases hc : word.chars.getLast? = some ','
  · by_cases hs : s ∈ [Selmaho.Gismu, .Lujvo, .Fuhivla, .Cmevla, .UnknownCmavo, .AnyText]
    · rw [if_pos ⟨hc, hs⟩]
      have hv := classify_val h
      rw [classify_eq]
      have hd : (directText word.chars).bind lookupDirect = none := by
        have hdt : directText word.chars = directText (word.chars.filter (fun c => c != ',')) := by
          simp only [directText, tableText, noCommas, hf]
          rfl
        rw [hdt]
        cases hx : (directText (word.chars.filter (fun c => c != ','))).bind lookupDirect with
        | none => rfl
        | some r =>
          exfalso
          simp only [classifyPure, classifyBase, hx] at hv
          obtain ⟨w, _, hr⟩ := Option.bind_eq_some_iff.mp hx
          have hr1 : r.1 = s := congrArg Prod.fst hv
          rcases lookupDirect_some hr with ⟨a, ha, _, hra⟩ | ⟨_, hra⟩
          · have hsel := arms_selmaho a ha
            rw [hra] at hr1
            simp only at hr1
            rw [hr1] at hsel
            apply hsel
            have : ∀ t ∈ [Selmaho.Gismu, .Lujvo, .Fuhivla, .Cmevla, .UnknownCmavo, .AnyText], t ∈ ruleSelmaho := by decide
            exact this s hs
          · rw [hra] at hr1
            simp only at hr1
            subst hr1
            revert hs
            decide
      simp only [classifyPure, classifyBase, hd, general_trailing hc]
      rfl
    · rw [if_neg (fun hh => hs hh.2)]
      exact C14_commas_cmavo ptr word.ptr _ word.chars s e hf h hs
  · rw [if_neg (fun hh => hc hh.1)]
    rw [← h]
    exact C14_commas word.ptr ptr word.chars _ hf.symm ⟨fun hh => absurd hh hc, fun hh => absurd hh hlast⟩

/-! ### C17 -/

/-- **C17, converse.** Only words of the table are classified as cmavo of a selmaho (other than the hesitation `y`): up
to commas and `h`, the word is in an entry with that selmaho and flag. -/
theorem C17_only_table (word : Str) (s : Selmaho) (x : Bool) (h : classify word = .val (s, x))
    (hs : s ∉ [Selmaho.Gismu, .Lujvo, .Fuhivla, .Cmevla, .UnknownCmavo, .AnyText]) (hy : s ≠ .Y) :
    ∃ entry ∈ armsBeforeY ++ armsAfterY,
      (word.chars.filter (fun c => c != ',')).map (fun c => if c = 'h' then '\'' else c) ∈ entry.words ∧
      entry.selmaho = s ∧ x = (s.isFundamentallyExperimental || entry.experimental) := by
  have hv := classify_val h
  unfold classifyPure at hv
  rcases classify_cases word.chars with ⟨a, ha, hw, _, h2⟩ | ⟨_, _, h2⟩ | h2
  · rw [h2] at hv
    simp only [Prod.mk.injEq] at hv
    obtain ⟨rfl, hx⟩ := hv
    exact ⟨a, ha, hw, rfl, hx.symm⟩
  · rw [h2] at hv; cases hv; exact absurd rfl hy
  · rw [h2] at hv
    cases hv
    exfalso
    apply hs
    unfold generalPure
    repeat' split
    all_goals decide

/-- The table words that do not fit the buffer of 16 bytes. -/
def longWords : List (List Char) :=
  (armsBeforeY ++ armsAfterY).flatMap (fun a => a.words.filter (fun w => 16 < byteLen w))

theorem longWords_eq : longWords = [c!"fa'u'u'u'u'u'u'u'u",
    c!"cu'u'u'u'u'u'u'u'u'u'u'u'u'u'u'u'u'u'u'u'u'u'u'u'u'u'u'u'u'u'u'u'u'u'u'u'u'u'u'u'u'u'u'u'u'u'u'u'u"] := by
  decide +kernel

/-- A word whose letters all are `h`-variants of those of `w`. -/
theorem letterwise_of_map {a w : List Char} (h : a.map (fun c => if c = 'h' then '\'' else c) = w) :
    Letterwise HVariant a w := by
  induction a generalizing w with
  | nil => cases h; exact .nil
  | cons c a ih =>
    cases h
    by_cases hc : c = 'h'
    · subst hc
      exact .variant ⟨by decide, by decide⟩ (ih rfl)
    · rw [List.map_cons, if_neg hc]
      exact .same (ih rfl)

set_option maxRecDepth 4000 in
/-- **C17, the words that are too long.** Exactly two words of the table have more than 16 bytes; with commas and `h` at
will, they are never found: they are unknown cmavo, or unclassifiable if a comma comes last. -/
theorem C17_long_words (w : List Char) (hw : ∃ entry ∈ armsBeforeY ++ armsAfterY, w ∈ entry.words) (hlen : 16 < byteLen w)
    (word : Str) (hword : (word.chars.filter (fun c => c != ',')).map (fun c => if c = 'h' then '\'' else c) = w) :
    (w = c!"fa'u'u'u'u'u'u'u'u" ∨
      w = c!"cu'u'u'u'u'u'u'u'u'u'u'u'u'u'u'u'u'u'u'u'u'u'u'u'u'u'u'u'u'u'u'u'u'u'u'u'u'u'u'u'u'u'u'u'u'u'u'u'u") ∧
    classify word = .val (if word.chars.getLast? = some ',' then (.AnyText, false) else (.UnknownCmavo, true)) := by
  have hm : w ∈ longWords := by
    obtain ⟨entry, he, hwe⟩ := hw
    exact List.mem_flatMap.mpr ⟨entry, he, List.mem_filter.mpr ⟨hwe, by simpa using hlen⟩⟩
  rw [longWords_eq] at hm
  have hm' := hm
  simp only [List.mem_cons, List.not_mem_nil, or_false] at hm'
  refine ⟨hm', ?_⟩
  have hc : classify ⟨0, w⟩ = .val (.UnknownCmavo, true) := by
    rcases hm' with rfl | rfl
    · rw [classify_eq]; decide +kernel
    · rw [classify_eq]; decide +kernel
  have h2 : classify ⟨0, word.chars.filter (fun c => c != ',')⟩ = .val (.UnknownCmavo, true) := by
    rw [← hc]
    exact C15_h_classify 0 0 _ _ (letterwise_of_map hword)
  rw [C14_exact word 0 _ _ h2]
  by_cases hl : word.chars.getLast? = some ',' <;> simp [hl]

/-! ### C18 -/

theorem arms_Y : allArms.all (fun a => a.selmaho != .Y || (a.words == [c!"ie'o", c!"ko'o'o'o'o"] && a.experimental)) = true := by
  decide +kernel

/-- **C18, exactly.** A word is classified Y if and only if it consists, commas aside, of one to sixteen letters `y`
(it is then not experimental), or is one of the experimental words `ie'o` and `ko'o'o'o'o`. -/
theorem C18_exact (word : Str) (x : Bool) :
    classify word = .val (.Y, x) ↔
      (x = false ∧ ∃ n, 1 ≤ n ∧ n ≤ 16 ∧ word.chars.filter (fun c => c != ',') = List.replicate n 'y') ∨
      (x = true ∧ (word.chars.filter (fun c => c != ',')).map (fun c => if c = 'h' then '\'' else c) ∈
        [c!"ie'o", c!"ko'o'o'o'o"]) := by
  constructor
  · intro h
    have hv := classify_val h
    unfold classifyPure at hv
    rcases classify_cases word.chars with ⟨a, ha, hw, _, h2⟩ | ⟨hy, hlen, h2⟩ | h2
    · right
      rw [h2] at hv
      have := List.all_eq_true.mp arms_Y a ha
      simp only [Prod.mk.injEq] at hv
      obtain ⟨h3, h4⟩ := hv
      rw [h3] at this
      simp only [bne_self_eq_false, Bool.false_or, Bool.and_eq_true, beq_iff_eq] at this
      rw [this.1] at hw
      rw [this.2, Bool.or_true] at h4
      exact ⟨h4.symm, hw⟩
    · left
      rw [h2] at hv
      cases hv
      simp only [isY, Bool.and_eq_true, List.all_eq_true, beq_iff_eq, Bool.not_eq_true', List.isEmpty_eq_false_iff] at hy
      refine ⟨rfl, (tableText word.chars).length, ?_, ?_, ?_⟩
      · have := List.length_pos_iff.mpr hy.1; omega
      · have : ∀ l : List Char, l.length ≤ byteLen l := by
          intro l
          induction l with
          | nil => simp
          | cons c l ih =>
            rw [byteLen, List.length_cons]
            have : 0 < c.utf8Size := Char.utf8Size_pos c
            omega
        exact Nat.le_trans (this _) hlen
      · have h3 : ∀ c ∈ noCommas word.chars, c = 'y' := by
          intro c hc
          have := hy.2 (hToApostrophe c) (List.mem_map.mpr ⟨c, hc, rfl⟩)
          unfold hToApostrophe at this
          split at this
          · exact absurd this (by decide)
          · exact this
        have h4 : (tableText word.chars).length = (noCommas word.chars).length := by simp [tableText]
        rw [h4]
        exact List.eq_replicate_iff.mpr ⟨rfl, h3⟩
    · exfalso
      rw [h2] at hv
      have hg : generalPure word.chars = .Y := congrArg Prod.fst hv
      have := general_range word.chars
      rw [hg] at this
      exact absurd this (by decide)
  · rintro (⟨rfl, n, h1, h2, hw⟩ | ⟨rfl, hw⟩)
    · exact C18_hesitation word n h1 h2 hw
    · have he : (⟨[c!"ie'o", c!"ko'o'o'o'o"], .Y, true⟩ : Arm) ∈ armsBeforeY ++ armsAfterY := by decide +kernel
      have hl : byteLen ((word.chars.filter (fun c => c != ',')).map (fun c => if c = 'h' then '\'' else c)) ≤ 16 := by
        have : ∀ w ∈ [c!"ie'o", c!"ko'o'o'o'o"], byteLen w ≤ 16 := by decide
        exact this _ hw
      exact C17_table _ he _ hw hl word rfl

example : (c!"y,yy,").filter (fun c => c != ',') = List.replicate 3 'y' := by decide

end Sneturfahi.Props
