import Verif.Proof.Table
import Verif.Proof.Gismu
import Verif.Props.Decompose

/-!
# Properties of `Selmaho::classify` (C08 – C19)
-/

namespace Sneturfahi.Props

open Spec Derives

set_option linter.constructorNameAsVariable false

/-! ### C08 -/

/-- **C08.** `classify` returns for every string: it neither panics nor hangs, and its answer depends on
the characters of the word only. -/
theorem C08_classify_total (cs : List Char) :
    ∃ r : Selmaho × Bool, ∀ ptr : Nat, classify ⟨ptr, cs⟩ = .val r :=
  ⟨classifyPure cs, fun _ => classify_eq _⟩

/-- Neither the empty string nor multi-byte characters nor strings of commas are special. -/
example : classify ⟨0, []⟩ = .val (.AnyText, false) := by
  rw [classify_eq]; decide +kernel
example : classify ⟨0, c!",,é語😀"⟩ = .val (.AnyText, false) := by
  rw [classify_eq]; decide +kernel

theorem classify_val {word : Str} {s : Selmaho} {x : Bool} (h : classify word = .val (s, x)) :
    classifyPure word.chars = (s, x) := by
  rw [classify_eq] at h
  injection h

/-! ### What the parts of `classify` answer -/

/-- The selmaho comes from the table, from the hesitation arm, or from the rules. -/
theorem classify_cases (cs : List Char) :
    (∃ a ∈ allArms, tableText cs ∈ a.words ∧ byteLen (tableText cs) ≤ 16 ∧
      classifyBase cs = (a.selmaho, a.experimental)) ∨
    (isY (tableText cs) = true ∧ byteLen (tableText cs) ≤ 16 ∧ classifyBase cs = (.Y, false)) ∨
    classifyBase cs = (generalPure cs, false) := by
  unfold classifyBase
  cases hd : (directText cs).bind lookupDirect with
  | none => exact Or.inr (Or.inr rfl)
  | some r =>
    obtain ⟨w, hw, hr⟩ := Option.bind_eq_some_iff.mp hd
    unfold directText at hw
    split at hw
    · cases hw
    · rename_i hlen
      split at hw
      · rename_i hnil
        cases hw
        exfalso
        have : lookupDirect ['\x00'] = none := by decide +kernel
        rw [this] at hr
        cases hr
      · cases hw
        rcases lookupDirect_some hr with ⟨a, ha, h1, h2⟩ | ⟨h1, h2⟩
        · exact Or.inl ⟨a, ha, h1, by omega, h2⟩
        · exact Or.inr (Or.inl ⟨h1, by omega, h2⟩)

theorem general_range (cs : List Char) : generalPure cs ∈ ruleSelmaho := by
  unfold generalPure
  repeat' split
  all_goals decide

/-- Selmaho of words that are in no table come from the rules. -/
theorem classify_by_rule {cs : List Char} {s : Selmaho} {x : Bool} (h : classifyPure cs = (s, x))
    (hs : s ∈ ruleSelmaho) : generalPure cs = s ∧ x = s.isFundamentallyExperimental := by
  unfold classifyPure at h
  rcases classify_cases cs with ⟨a, ha, _, _, h2⟩ | ⟨_, _, h2⟩ | h2
  · rw [h2] at h
    cases h
    exact absurd hs (arms_selmaho a ha)
  · rw [h2] at h
    cases h
    exact absurd hs (by decide)
  · rw [h2] at h
    simp only [Bool.or_false, Prod.mk.injEq] at h
    obtain ⟨rfl, rfl⟩ := h
    exact ⟨rfl, rfl⟩

/-- The rule behind each answer of `classify_generally`. -/
theorem general_rule {cs : List Char} {s : Selmaho} (h : generalPure cs = s) (hs : s ≠ .AnyText) :
    ∃ rule, (s, rule) ∈ [(Selmaho.Cmevla, Rule.cmevla), (.UnknownCmavo, .cmavo_minimal), (.Gismu, .gismu),
      (.Fuhivla, .fuhivla), (.Lujvo, .lujvo_minimal)] ∧ parseRule rule cs = some (cs, []) := by
  have key : ∀ rule, matchesAll rule cs = true → parseRule rule cs = some (cs, []) := by
    intro rule h
    unfold matchesAll at h
    split at h
    · rename_i m r hp
      simp only [List.isEmpty_iff] at h
      subst h
      have := parseRule_append hp
      simp only [List.append_nil] at this
      rw [hp, this]
    · cases h
  unfold generalPure at h
  split at h
  · rename_i hm; subst h; exact ⟨_, by simp, key _ hm⟩
  · split at h
    · rename_i hm; subst h; exact ⟨_, by simp, key _ hm⟩
    · split at h
      · rename_i hm; subst h; exact ⟨_, by simp, key _ hm⟩
      · split at h
        · rename_i hm; subst h; exact ⟨_, by simp, key _ hm⟩
        · split at h
          · rename_i hm; subst h; exact ⟨_, by simp, key _ hm⟩
          · exact absurd h.symm hs

theorem classify_rule {word : Str} {s : Selmaho} {x : Bool} (h : classify word = .val (s, x))
    (hs : s ∈ ruleSelmaho) (hs' : s ≠ .AnyText) :
    ∃ rule, (s, rule) ∈ [(Selmaho.Cmevla, Rule.cmevla), (.UnknownCmavo, .cmavo_minimal), (.Gismu, .gismu),
      (.Fuhivla, .fuhivla), (.Lujvo, .lujvo_minimal)] ∧ parseRule rule word.chars = some (word.chars, []) :=
  general_rule (classify_by_rule (classify_val h) hs).1 hs'

/-! ### C09, C10 -/

/-- Five letters of the shape CVCCV or CCVCV, the latter beginning with a permissible initial pair.
`V` admits `y` here: see `C10_gismu_with_y`. -/
def GismuShape (letters : List Char) : Prop :=
  ∃ a b c d e, letters = [a, b, c, d, e] ∧
    ((IsConsonantLetter a ∧ IsVowelOrY b ∧ IsConsonantLetter c ∧ IsConsonantLetter d ∧ IsVowelOrY e) ∨
     (IsConsonantLetter a ∧ IsConsonantLetter b ∧ IsVowelOrY c ∧ IsConsonantLetter d ∧ IsVowelOrY e ∧
       [lower a, lower b] ∈ initialPairs))

theorem vowel_mem : ∀ c ∈ allVowels, IsVowelOrY c := by decide
theorem consonant_mem {c : Char} (h : c ∈ allConsonants) : IsConsonantLetter c := h

/-- **C09.** A word classified Gismu has, commas aside, exactly five letters, of shape CVCCV or CCVCV; in
the second case it begins with one of the 48 permissible initial pairs. -/
theorem C09_gismu_shape (word : Str) (x : Bool) (h : classify word = .val (.Gismu, x)) :
    GismuShape (word.chars.filter (fun c => c != ',')) := by
  obtain ⟨rule, hr, hp⟩ := classify_rule h (by decide) (by decide)
  simp at hr
  subst hr
  have hd := derives_iff.mpr hp
  obtain ⟨m1, r1, m2, h1, h2, hm⟩ := seq_inv (call_inv hd)
  have hrest : ∃ d ∈ allConsonants, ∃ e ∈ allVowels, noCommas m2 = [d, e] := by
    obtain ⟨s, hs, hf⟩ := shape_sound wordShape_ok h2 _ _ [[allConsonants, allVowels]] rfl (by decide +kernel)
    simp only [List.mem_singleton] at hs
    subst hs
    exact fits_two hf
  obtain ⟨d, hd1, e, he1, hm2⟩ := hrest
  have hl : noCommas word.chars = noCommas m1 ++ [d, e] := by rw [hm, noCommas_append, hm2]
  show GismuShape (noCommas word.chars)
  rw [hl]
  rcases alt_inv h1 with h1 | ⟨_, h1⟩
  · obtain ⟨ma, ra, mb, ha, hb, rfl⟩ := seq_inv h1
    obtain ⟨k, k', a, b, hk, hk', hca, hcb, rfl, _, hpair⟩ := initialPair_inv (derives_iff.mp ha)
    obtain ⟨kv, v, hkv, hv, hv', rfl, _⟩ := oneLetter (rule := .stressed_vowel) rfl (derives_iff.mp hb)
    have nc : ∀ {c}, IsConsonantLetter c → c ≠ ',' := by rintro c hc rfl; revert hc; decide
    refine ⟨a, b, v, d, e, ?_, Or.inr ⟨hca, hcb, vowel_mem v hv, hd1, vowel_mem e he1, hpair⟩⟩
    simp only [noCommas_append, noCommas_cons (nc hca), noCommas_cons (nc hcb), noCommas_cons hv', hk.noCommas,
      hk'.noCommas, hkv.noCommas, noCommas_nil]
    rfl
  · obtain ⟨s, hs, hf⟩ := shape_sound wordShape_ok h1 _ _ [[allConsonants, allVowels, allConsonants]] rfl (by decide +kernel)
    simp only [List.mem_singleton] at hs
    subst hs
    match hn : noCommas m1, hf with
    | [a, b, c], hf =>
      exact ⟨a, b, c, d, e, rfl, Or.inl ⟨hf.1, vowel_mem b hf.2.1, hf.2.2.1, hd1, vowel_mem e he1⟩⟩

example : classify ⟨0, c!"br,oda"⟩ = .val (.Gismu, false) := by
  rw [classify_eq]; decide +kernel
example : classify ⟨0, c!"gismu"⟩ = .val (.Gismu, false) := by
  rw [classify_eq]; decide +kernel

/-- **C10, `y` does occur.** The claim that gismu contain no `y` would be false of the code: the word `brydi` is
classified Gismu. -/
theorem C10_gismu_with_y : ∃ word : Str, classify word = .val (.Gismu, false) ∧ 'y' ∈ word.chars :=
  ⟨⟨0, c!"brydi"⟩, by rw [classify_eq]; decide +kernel, by decide⟩

/-- **C10, the last letter.** The last letter of a word classified Gismu is not `y`. -/
theorem C10_final_not_y (word : Str) (x : Bool) (h : classify word = .val (.Gismu, x)) :
    ∀ c ∈ (word.chars.filter (fun c => c != ',')).getLast?, IsPlainVowel c := by
  obtain ⟨rule, hr, hp⟩ := classify_rule h (by decide) (by decide)
  simp at hr
  subst hr
  obtain ⟨m1, r1, m2, h1, h2, hm⟩ := seq_inv (call_inv (derives_iff.mpr hp))
  obtain ⟨mp, rp, mb, h3, h4, rfl⟩ := seq_inv h2
  obtain ⟨rfl, rfl, ⟨mf, rf⟩, hfin⟩ := peek_inv h3
  obtain ⟨mc, rc, md, h5, h6, rfl⟩ := seq_inv h4
  obtain ⟨mv, rv, me, h7, h8, rfl⟩ := seq_inv h6
  obtain ⟨rfl, rfl, _⟩ := peek_inv h8
  obtain ⟨kc, c, hkc, hc, hc', rfl, hrp⟩ := oneLetter (rule := .consonant) rfl (derives_iff.mp h5)
  obtain ⟨kv, v, hkv, hv, hv', rfl, hrc⟩ := oneLetter (rule := .vowel) rfl (derives_iff.mp h7)
  subst hrc
  -- the onset of the final syllable consumes exactly the consonant
  obtain ⟨mo, ro, mq, h9, h10, _⟩ := seq_inv (call_inv hfin)
  obtain ⟨mn, rn, mq2, h11, h12, _⟩ := seq_inv h10
  obtain ⟨rfl, rfl, hny⟩ := not_inv h11
  obtain ⟨_, _, _, h13, h14, _⟩ := seq_inv h12
  obtain ⟨rfl, rfl, _⟩ := not_inv h13
  obtain ⟨mnu, rnu, _, hnuc, _, _⟩ := seq_inv h14
  intro z hz
  have hz' : z = v := by
    change z ∈ (noCommas word.chars).getLast? at hz
    rw [hm] at hz
    simp only [noCommas_append, noCommas_cons hv', hkv.noCommas, List.nil_append, noCommas_nil,
      List.append_nil] at hz
    rw [← List.append_assoc] at hz
    simpa using hz.symm
  subst hz'
  obtain ⟨v, t, hv2, hw⟩ := nucleus_first (derives_iff.mp hnuc)
  have happ := congrArg noCommas (append_eq' h9)
  rw [hrp, noCommas_append, hw, noCommas_append, hkc.noCommas, noCommas_cons hc', noCommas_append, hkv.noCommas,
    noCommas_cons hv', noCommas_nil] at happ
  have hvc : v ≠ c := by
    rintro rfl
    have : ∀ v ∈ allVowels, v ∉ allConsonants := by decide
    exact this v hv2 hc
  have hvz : v = z := by
    cases hmo : noCommas mo with
    | nil =>
      rw [hmo] at happ
      simp at happ
      exact absurd happ.1 hvc
    | cons a l =>
      rw [hmo] at happ
      cases l with
      | nil => simp at happ; exact happ.2.1
      | cons b l =>
        have := congrArg List.length happ
        simp at this
  subst hvz
  have hy : v ∉ c!"yY" := fun hy => oneOf_first (rule := .y) rfl hw hy (derives_iff.mp hny)
  have : ∀ v ∈ allVowels, v ∉ c!"yY" → IsPlainVowel v := by decide
  exact this v hv hy

/-! ### C11 -/

theorem grammar_alphabet (rule : Rule) :
    expAll (fun chs => chs.all (fun c => decide (IsLojbanChar c))) (grammar rule) = true := by
  cases rule <;> decide +kernel

theorem match_alphabet {rule : Rule} {cs m r : List Char} (h : parseRule rule cs = some (m, r)) :
    ∀ c ∈ m, IsLojbanChar c := by
  intro c hc
  have := matched_chars (A := IsLojbanChar)
    (by intro chs h c hc
        simp only [List.all_eq_true] at h
        simpa using h c hc) grammar_alphabet (derives_iff.mpr h) rfl m r rfl c hc
  rcases this with rfl | h
  · decide
  · exact h

/-- **C11.** A word classified Cmevla ends in a consonant letter and has only characters of the Lojban
alphabet. -/
theorem C11_cmevla_shape (word : Str) (x : Bool) (h : classify word = .val (.Cmevla, x)) :
    (∃ front c, word.chars = front ++ [c] ∧ IsConsonantLetter c) ∧ ∀ c ∈ word.chars, IsLojbanChar c := by
  obtain ⟨rule, hr, hp⟩ := classify_rule h (by decide) (by decide)
  simp at hr
  subst hr
  refine ⟨?_, match_alphabet hp⟩
  have hd := call_inv (derives_iff.mpr hp)
  cases hd with
  | guardGo _ hd =>
    obtain ⟨m1, r1, m2, h1, h2, hm⟩ := seq_inv hd
    obtain ⟨m3, r3, m4, h3, h4, rfl⟩ := seq_inv h2
    obtain ⟨k, c, _, hc, _, rfl, _⟩ := oneLetter (rule := .consonant) rfl (derives_iff.mp h3)
    cases h4
    exact ⟨m1 ++ k, c, by simpa using hm, hc⟩

example : classify ⟨0, c!"d,jan"⟩ = .val (.Cmevla, false) := by
  rw [classify_eq]; decide +kernel

/-! ### C12 -/

theorem table_lojban : ∀ c ∈ tableAlphabet, IsLojbanChar c := by decide

theorem hToApostrophe_lojban {c : Char} (h : IsLojbanChar (hToApostrophe c)) : IsLojbanChar c := by
  unfold hToApostrophe at h
  split at h
  · rename_i hc; subst hc; decide
  · exact h

theorem tableText_lojban {cs : List Char} (h : ∀ c ∈ tableText cs, IsLojbanChar c) : ∀ c ∈ cs, IsLojbanChar c := by
  intro c hc
  by_cases hcomma : c = ','
  · subst hcomma; decide
  · apply hToApostrophe_lojban
    apply h
    simp only [tableText, List.mem_map]
    exact ⟨c, by simp [noCommas, hc, hcomma], rfl⟩

/-- **C12.** A word classified anything but AnyText uses only characters of Lojban
words - unless it is (up to commas and `h`) the one table entry that begins with a space. -/
theorem C12_alphabet (word : Str) (s : Selmaho) (x : Bool) (h : classify word = .val (s, x))
    (hs : s ≠ .AnyText) :
    (∀ c ∈ word.chars, IsLojbanChar c) ∨
      (word.chars.filter (fun c => c != ',')).map (fun c => if c = 'h' then '\'' else c) = c!" vi'ei'e" := by
  by_cases hr : s ∈ ruleSelmaho
  · obtain ⟨rule, _, hp⟩ := classify_rule h hr hs
    exact Or.inl (match_alphabet hp)
  · have hv := classify_val h
    unfold classifyPure at hv
    rcases classify_cases word.chars with ⟨a, ha, hw, _, _⟩ | ⟨hy, _, _⟩ | h2
    · have := List.all_eq_true.mp tableWords_chars _ (List.mem_flatMap.mpr ⟨a, ha, hw⟩)
      simp only [Bool.or_eq_true, List.all_eq_true, beq_iff_eq, List.contains_eq_mem, decide_eq_true_eq] at this
      rcases this with h1 | h1
      · exact Or.inl (tableText_lojban (fun c hc => table_lojban c (h1 c hc)))
      · exact Or.inr h1
    · left
      apply tableText_lojban
      simp only [isY, Bool.and_eq_true, List.all_eq_true, beq_iff_eq] at hy
      intro c hc
      rw [hy.2 c hc]
      decide
    · rw [h2] at hv
      cases hv
      exact absurd (general_range _) hr

/-- **C12 for words of texts.** A word without separators - such as every word the decomposer yields
(`C23_word_characters`) - that is classified anything but AnyText uses only characters of Lojban words. -/
theorem C12_alphabet_words (word : Str) (s : Selmaho) (x : Bool) (h : classify word = .val (s, x))
    (hs : s ≠ .AnyText) (hsep : NoSeparator word.chars) : ∀ c ∈ word.chars, IsLojbanChar c := by
  rcases C12_alphabet word s x h hs with h | h
  · exact h
  · exfalso
    have : ' ' ∈ (word.chars.filter (fun c => c != ',')).map (fun c => if c = 'h' then '\'' else c) := by
      rw [h]; decide
    simp only [List.mem_map, List.mem_filter] at this
    obtain ⟨c, ⟨hc, _⟩, he⟩ := this
    split at he
    · exact absurd he (by decide)
    · subst he
      exact hsep _ hc (by decide)

/-- **C12, the exception.** `classify(" vi'ei'e")`, with a leading space, is not AnyText. -/
theorem C12_space : classify ⟨0, c!" vi'ei'e"⟩ = .val (.Pa, true) := by
  rw [classify_eq]; decide +kernel

/-! ### C13 -/

theorem noCommas_pair {w u v : List Char} {x : Char} (h : noCommas w = u ++ x :: v) :
    ∃ m1 m2, w = m1 ++ x :: m2 ∧ noCommas m1 = u ∧ noCommas m2 = v ∧ x ≠ ',' := by
  induction u generalizing w with
  | nil =>
    obtain ⟨k, r, rfl, hk, hx, hr⟩ := noCommas_eq_cons h
    exact ⟨k, r, rfl, hk.noCommas, hr, hx⟩
  | cons a u ih =>
    obtain ⟨k, r, rfl, hk, ha, hr⟩ := noCommas_eq_cons h
    obtain ⟨m1, m2, rfl, h1, h2, hx⟩ := ih hr
    refine ⟨k ++ a :: m1, m2, by simp, ?_, h2, hx⟩
    rw [noCommas_append, hk.noCommas, noCommas_cons ha, h1]
    rfl

/-- No two consonants in a row. -/
def noClusters : List Char → Bool
  | a :: b :: w => !(decide (IsConsonantLetter a) && decide (IsConsonantLetter b)) && noClusters (b :: w)
  | _ => true

theorem noClusters_pair {u v : List Char} {x y : Char} (h : noClusters (u ++ x :: y :: v) = true) :
    ¬ (IsConsonantLetter x ∧ IsConsonantLetter y) := by
  induction u with
  | nil =>
    simp only [List.nil_append, noClusters, Bool.and_eq_true, Bool.not_eq_true', Bool.and_eq_false_iff,
      decide_eq_false_iff_not] at h
    rintro ⟨h1, h2⟩
    rcases h.1 with h | h
    · exact h h1
    · exact h h2
  | cons a u ih =>
    apply ih
    cases u with
    | nil => simp [noClusters] at h ⊢; exact h.2
    | cons b u => simp only [List.cons_append, noClusters, Bool.and_eq_true] at h ⊢; exact h.2

theorem tableWords_noClusters : tableWords.all noClusters = true := by decide +kernel

theorem hToApostrophe_consonant {c : Char} (h : IsConsonantLetter c) : hToApostrophe c = c := by
  unfold hToApostrophe
  split
  · rename_i hc; subst hc; revert h; decide
  · rfl

/-- The word was recognised by a rule that matched all of it, or it has no consonant clusters at all. -/
theorem rule_or_noClusters {word : Str} {s : Selmaho} {x : Bool} (h : classify word = .val (s, x))
    (hs : s ≠ .AnyText) :
    (∃ rule, parseRule rule word.chars = some (word.chars, [])) ∨ noClusters (tableText word.chars) = true := by
  by_cases hr : s ∈ ruleSelmaho
  · obtain ⟨rule, _, hp⟩ := classify_rule h hr hs
    exact Or.inl ⟨rule, hp⟩
  · right
    have hv := classify_val h
    unfold classifyPure at hv
    rcases classify_cases word.chars with ⟨a, ha, hw, _, _⟩ | ⟨hy, _, _⟩ | h2
    · exact List.all_eq_true.mp tableWords_noClusters _ (List.mem_flatMap.mpr ⟨a, ha, hw⟩)
    · simp only [isY, Bool.and_eq_true, List.all_eq_true, beq_iff_eq] at hy
      have key : ∀ w : List Char, (∀ c ∈ w, c = 'y') → noClusters w = true := by
        intro w
        induction w with
        | nil => intro _; rfl
        | cons a w ih =>
          intro hw
          cases w with
          | nil => rfl
          | cons b w =>
            have ha : a = 'y' := hw a (by simp)
            subst ha
            simp only [noClusters, Bool.and_eq_true]
            exact ⟨by
              have : decide (IsConsonantLetter 'y') = false := by decide
              rw [this]; rfl, ih (fun c hc => hw c (by simp [hc]))⟩
      exact key _ hy.2
    · rw [h2] at hv
      cases hv
      exact absurd (general_range _) hr

/-- **C13.** In a word classified anything but AnyText, two consonants in a row (commas aside) form a
permissible pair, whatever their case. -/
theorem C13_permissible_pairs (word : Str) (s : Selmaho) (e : Bool) (h : classify word = .val (s, e))
    (hs : s ≠ .AnyText) (before after : List Char) (x y : Char)
    (hw : word.chars.filter (fun c => c != ',') = before ++ x :: y :: after)
    (hx : IsConsonantLetter x) (hy : IsConsonantLetter y) : PermissiblePair (lower x) (lower y) := by
  change noCommas word.chars = _ at hw
  rcases rule_or_noClusters h hs with ⟨rule, hp⟩ | hn
  · obtain ⟨m1, m2, hw1, _, h2, _⟩ := noCommas_pair hw
    obtain ⟨k, r, rfl, hk, _, _⟩ := noCommas_eq_cons h2
    exact match_pair hp hw1 hk hx hy
  · exfalso
    simp only [tableText, hw, List.map_append, List.map_cons, hToApostrophe_consonant hx,
      hToApostrophe_consonant hy] at hn
    exact noClusters_pair hn ⟨hx, hy⟩

/-- **C13, triples.** Nor do the triples ndj, ndz, ntc, nts occur in it. -/
theorem C13_no_forbidden_triple (word : Str) (s : Selmaho) (e : Bool) (h : classify word = .val (s, e))
    (hs : s ≠ .AnyText) (before after : List Char) (x y z : Char)
    (hw : word.chars.filter (fun c => c != ',') = before ++ x :: y :: z :: after)
    (hx : IsConsonantLetter x) (hy : IsConsonantLetter y) (hz : IsConsonantLetter z) :
    [lower x, lower y, lower z] ∉ forbiddenTriples := by
  change noCommas word.chars = _ at hw
  rcases rule_or_noClusters h hs with ⟨rule, hp⟩ | hn
  · obtain ⟨m1, m2, hw1, _, h2, _⟩ := noCommas_pair hw
    obtain ⟨k, r, rfl, hk, _, h3⟩ := noCommas_eq_cons h2
    obtain ⟨k', r', rfl, hk', _, _⟩ := noCommas_eq_cons h3
    exact match_triple hp hw1 hk hk' hx hy hz
  · exfalso
    simp only [tableText, hw, List.map_append, List.map_cons, hToApostrophe_consonant hx,
      hToApostrophe_consonant hy] at hn
    exact noClusters_pair hn ⟨hx, hy⟩

/-- A word with a permissible pair, and one refused because of its pair. -/
example : classify ⟨0, c!"gi,s,mu"⟩ = .val (.Gismu, false) ∧ classify ⟨0, c!"giszu"⟩ = .val (.AnyText, false) := by
  rw [classify_eq, classify_eq]; decide +kernel

/-! ### C14 -/

theorem matchesAll_comma (rule : Rule) {cs cs' : List Char} (h : CommaSim cs cs') :
    matchesAll rule cs = matchesAll rule cs' := by
  have := parseRule_comma rule h
  unfold matchesAll
  cases h1 : parseRule rule cs with
  | none => rw [h1] at this; rw [this.none_left]
  | some x =>
    rw [h1] at this
    obtain ⟨m', r', h2, h3⟩ := this.some_left
    obtain ⟨m, r⟩ := x
    rw [h2]
    have := (simOK_comma (g := grammar)).nil h3
    simp only at this ⊢
    by_cases hr : r = []
    · simp [hr, this.mp hr]
    · simp only [List.isEmpty_eq_false_iff.mpr hr]
      rw [List.isEmpty_eq_false_iff.mpr (fun h => hr (this.mpr h))]

/-- **C14.** Two words that are equal up to commas and of which both or neither end
in a comma are classified alike. -/
theorem C14_commas (ptr ptr' : Nat) (a b : List Char)
    (hab : a.filter (fun c => c != ',') = b.filter (fun c => c != ','))
    (hend : a.getLast? = some ',' ↔ b.getLast? = some ',') : classify ⟨ptr, a⟩ = classify ⟨ptr', b⟩ := by
  have hs : CommaSim a b := ⟨hab, by unfold NoTrail; rw [ne_eq, ne_eq, hend]⟩
  rw [classify_eq, classify_eq]
  have ht : tableText a = tableText b := by unfold tableText; rw [hs.1]
  have hg : generalPure a = generalPure b := by
    unfold generalPure
    simp only [matchesAll_comma _ hs]
  simp only [classifyPure, classifyBase, directText, ht, hg]

/-- **C14 for words of the table and hesitations.** For words found in the table even a final comma makes
no difference. -/
theorem C14_commas_cmavo (ptr ptr' : Nat) (a b : List Char) (s : Selmaho) (e : Bool)
    (hab : a.filter (fun c => c != ',') = b.filter (fun c => c != ','))
    (ha : classify ⟨ptr, a⟩ = .val (s, e)) (hs : s ∉ [Selmaho.Gismu, .Lujvo, .Fuhivla, .Cmevla, .UnknownCmavo, .AnyText]) :
    classify ⟨ptr', b⟩ = .val (s, e) := by
  have ht : tableText a = tableText b := by unfold tableText noCommas; rw [hab]
  rw [classify_eq] at ha ⊢
  have hd : (directText a).bind lookupDirect ≠ none := by
    intro hn
    apply hs
    injection ha with ha
    simp only [classifyPure, classifyBase, hn] at ha
    cases ha
    have : generalPure a ∈ [Selmaho.Gismu, .Lujvo, .Fuhivla, .Cmevla, .UnknownCmavo, .AnyText] := by
      unfold generalPure
      repeat' split
      all_goals decide
    exact this
  have hd' : directText b = directText a := by simp only [directText, ht]
  rw [← ha]
  simp only [classifyPure, classifyBase, hd']
  cases hx : (directText a).bind lookupDirect with
  | none => exact absurd hx hd
  | some r => rfl

/-- **C14, a case where it matters.** A comma at the end of a cmevla turns it into AnyText. -/
theorem C14_final_comma : classify ⟨0, c!"djan"⟩ = .val (.Cmevla, false) ∧
    classify ⟨0, c!"djan,"⟩ = .val (.AnyText, false) := by
  rw [classify_eq, classify_eq]; decide +kernel

example : classify ⟨0, c!"d,ja,,n"⟩ = classify ⟨0, c!"djan"⟩ :=
  C14_commas 0 0 _ _ (by decide) (by decide)

/-! ### C15 -/

theorem matchesAll_h (rule : Rule) {a b : List Char} (hab : Pointwise (OneOfPairs hPairs) a b) :
    matchesAll rule a = matchesAll rule b := by
  have := parseRule_pointwise (prs := hPairs) (by decide) hPairs_grammar rule hab
  unfold matchesAll
  cases h1 : parseRule rule a with
  | none => rw [h1] at this; rw [this.none_left]
  | some x =>
    rw [h1] at this
    obtain ⟨m', r', h2, h3⟩ := this.some_left
    obtain ⟨m, r⟩ := x
    rw [h2]
    have := h3.nil_iff
    simp only at this ⊢
    by_cases hr : r = []
    · simp [hr, this.mp hr]
    · simp only [List.isEmpty_eq_false_iff.mpr hr]
      rw [List.isEmpty_eq_false_iff.mpr (fun h => hr (this.mpr h))]

theorem tableText_h {a b : List Char} (hab : Letterwise HVariant a b) : tableText a = tableText b := by
  induction hab with
  | nil => rfl
  | @same c a b _ ih =>
    by_cases hc : c = ','
    · subst hc; simpa [tableText, noCommas_cons_comma] using ih
    · simp only [tableText, noCommas_cons hc, List.map_cons] at ih ⊢; rw [ih]
  | @variant c d a b hv _ ih =>
    have hc : c ≠ ',' := by rcases hv.1 with rfl | rfl <;> decide
    have hd : d ≠ ',' := by rcases hv.2 with rfl | rfl <;> decide
    have hcd : hToApostrophe c = hToApostrophe d := by
      obtain ⟨rfl | rfl, rfl | rfl⟩ := hv <;> decide
    simp only [tableText, noCommas_cons hc, noCommas_cons hd, List.map_cons, hcd] at ih ⊢
    rw [ih]

/-- **C15, classification.** `h` and the apostrophe are interchangeable in words to classify. -/
theorem C15_h_classify (ptr ptr' : Nat) (a b : List Char) (hab : Letterwise HVariant a b) :
    classify ⟨ptr, a⟩ = classify ⟨ptr', b⟩ := by
  have hp := letterwise_pointwise hVariant_pairs hab
  rw [classify_eq, classify_eq]
  have hg : generalPure a = generalPure b := by
    unfold generalPure
    simp only [matchesAll_h _ hp]
  simp only [classifyPure, classifyBase, directText, tableText_h hab, hg]

/-! ### C16 -/

theorem word_classes : ∀ s ∈ [Selmaho.Gismu, .Lujvo, .Fuhivla, .Cmevla, .AnyText],
    s ∈ ruleSelmaho ∧ s.isFundamentallyExperimental = false := by decide +kernel

/-- **C16.** The experimental flag is set for every word of a fundamentally experimental selmaho, in
particular for unknown cmavo; for the word classes that are no cmavo it never is. -/
theorem C16_experimental (word : Str) (s : Selmaho) (x : Bool) (h : classify word = .val (s, x)) :
    (s.isFundamentallyExperimental = true → x = true) ∧
    (s = .UnknownCmavo → x = true) ∧
    (s ∈ [Selmaho.Gismu, .Lujvo, .Fuhivla, .Cmevla, .AnyText] → x = false) := by
  have hv := classify_val h
  refine ⟨?_, ?_, ?_⟩
  · intro hf
    unfold classifyPure at hv
    cases hv
    simp [hf]
  · rintro rfl
    exact (classify_by_rule hv (by decide)).2
  · intro hs
    rw [(classify_by_rule hv (word_classes s hs).1).2]
    exact (word_classes s hs).2

/-- **C16.** Otherwise the flag says that the word is in an experimental entry of the table. -/
theorem C16_experimental_entry (word : Str) (s : Selmaho) (h : classify word = .val (s, true))
    (hs : s.isFundamentallyExperimental = false) :
    ∃ a ∈ allArms, a.experimental = true ∧ a.selmaho = s ∧
      (word.chars.filter (fun c => c != ',')).map (fun c => if c = 'h' then '\'' else c) ∈ a.words := by
  have hv := classify_val h
  unfold classifyPure at hv
  rcases classify_cases word.chars with ⟨a, ha, hw, _, h2⟩ | ⟨_, _, h2⟩ | h2
  · rw [h2] at hv
    simp only [Prod.mk.injEq] at hv
    obtain ⟨rfl, hx⟩ := hv
    rw [hs, Bool.false_or] at hx
    exact ⟨a, ha, hx, rfl, hw⟩
  · rw [h2] at hv; cases hv
  · rw [h2] at hv
    simp only [Prod.mk.injEq, Bool.or_false] at hv
    obtain ⟨rfl, hx⟩ := hv
    rw [hs] at hx
    cases hx

example : classify ⟨0, c!"xau"⟩ = .val (.Bai, true) ∧ classify ⟨0, c!"zi'o'a'o'a"⟩ = .val (.UnknownCmavo, true) := by
  rw [classify_eq, classify_eq]; decide +kernel

/-! ### C17 -/

/-- **C17.** Every word of the table of at most 16 bytes, also with commas inserted
and with `h` for apostrophe, is classified as its entry says. -/
theorem C17_table (entry : Arm) (he : entry ∈ armsBeforeY ++ armsAfterY) (w : List Char)
    (hw : w ∈ entry.words) (hlen : byteLen w ≤ 16) (word : Str)
    (hword : (word.chars.filter (fun c => c != ',')).map (fun c => if c = 'h' then '\'' else c) = w) :
    classify word = .val (entry.selmaho, entry.selmaho.isFundamentallyExperimental || entry.experimental) := by
  have ht : tableText word.chars = w := hword
  have hne : w ≠ [] := by
    have hm : w ∈ tableWords := List.mem_flatMap.mpr ⟨entry, he, hw⟩
    rw [tableWords, allArms, List.flatMap_append, List.mem_append] at hm
    rintro rfl
    rcases hm with h | h
    · have := List.all_eq_true.mp before_noY _ h
      simp at this
    · have := List.all_eq_true.mp after_noY _ h
      simp at this
  have hd : directText word.chars = some w := by
    simp only [directText, ht, if_neg hne, if_neg (show ¬ 16 < byteLen w by omega)]
  rw [classify_eq]
  simp only [classifyPure, classifyBase, hd, Option.bind_some, lookupDirect_arm he hw]

example : ∃ entry ∈ armsBeforeY ++ armsAfterY, c!"ba'i" ∈ entry.words ∧ entry.selmaho = .Bai := by
  decide +kernel

/-- **C17.** Two words of the table can never be found because the buffer holds 16 bytes only;
they are classified UnknownCmavo. -/
theorem C17_dead_entries :
    (∃ entry ∈ armsBeforeY ++ armsAfterY, c!"fa'u'u'u'u'u'u'u'u" ∈ entry.words ∧ entry.selmaho = .Faho) ∧
    classify ⟨0, c!"fa'u'u'u'u'u'u'u'u"⟩ = .val (.UnknownCmavo, true) := by
  refine ⟨by decide +kernel, ?_⟩
  rw [classify_eq]; decide +kernel

/-! ### C18 -/

/-- **C18.** One to sixteen letters `y`, with commas anywhere, are classified Y. -/
theorem C18_hesitation (word : Str) (n : Nat) (h1 : 1 ≤ n) (h2 : n ≤ 16)
    (hw : word.chars.filter (fun c => c != ',') = List.replicate n 'y') :
    classify word = .val (.Y, false) := by
  change noCommas word.chars = _ at hw
  have hm : (List.replicate n 'y').map hToApostrophe = List.replicate n 'y' := by
    rw [List.map_replicate]; rfl
  have ht : tableText word.chars = List.replicate n 'y' := by rw [tableText, hw, hm]
  have hb : ∀ n, byteLen (List.replicate n 'y') = n := by
    intro n
    induction n with
    | zero => rfl
    | succ n ih =>
      rw [List.replicate_succ, byteLen, ih]
      have : ('y' : Char).utf8Size = 1 := by decide
      omega
  have hd : directText word.chars = some (List.replicate n 'y') := by
    have hne : List.replicate n 'y' ≠ [] := by simp; omega
    simp only [directText, ht, hb, if_neg hne, if_neg (show ¬ 16 < n by omega)]
  have hy : isY (List.replicate n 'y') = true := by
    cases n with
    | zero => omega
    | succ n => simp [isY, List.replicate_succ]
  rw [classify_eq]
  simp only [classifyPure, classifyBase, hd, Option.bind_some, lookupDirect_y hy]
  rfl

theorem y_not_consonant {t : List Char} : parseRule .consonant ('y' :: t) = none := by
  cases h : parseRule .consonant ('y' :: t) with
  | none => rfl
  | some x =>
    obtain ⟨m, r⟩ := x
    obtain ⟨k, c, hk, hc, hc', _, hcs⟩ := oneLetter (rule := .consonant) rfl h
    obtain ⟨_, rfl, _⟩ := commas_split (k := []) (by simp [AllCommas]) (by decide : 'y' ≠ ',') hk hc' hcs
    exact absurd hc (by decide)

theorem rep_y : ∀ n, Derives grammar (.rep 0 (.call .y)) (List.replicate n 'y') (some (List.replicate n 'y', [])) := by
  intro n
  induction n with
  | zero =>
    refine .repStop (.call ?_)
    exact .oneOfEnd (by simp [AllCommas])
  | succ n ih =>
    have h1 : Derives grammar (.call .y) (List.replicate (n + 1) 'y') (some (['y'], List.replicate n 'y')) :=
      .call (.oneOfYes (k := []) (by simp [AllCommas]) (by decide) (by decide))
    exact .repStep (n := 0) h1 ih

theorem cmavo_y (n : Nat) : parseRule .cmavo_minimal (List.replicate (n + 1) 'y') = some (List.replicate (n + 1) 'y', []) := by
  have hd := call_inv (parseRule_derives .cmavo_minimal (List.replicate (n + 1) 'y'))
  generalize hres : parseRule .cmavo_minimal (List.replicate (n + 1) 'y') = res at hd
  have hno : ∀ {e : Exp Rule} {x}, ¬ Derives grammar (.seq (.call .consonant) e) ('y' :: List.replicate n 'y') (some x) := by
    rintro e ⟨m, r⟩ h
    obtain ⟨m1, r1, m2, h1, _⟩ := seq_inv h
    rw [derives_iff, y_not_consonant] at h1
    cases h1
  cases hd with
  | guardBlock h =>
    exfalso
    rcases alt_inv (call_inv h) with h | ⟨_, h⟩
    all_goals
      obtain ⟨m1, r1, m2, h1, _⟩ := seq_inv h
      exact hno (call_inv h1)
  | guardGo _ h =>
    cases call_inv h with
    | longest h1 h2 =>
      cases h2 with
      | @longest _ _ _ ra rb h3 h4 =>
        have hy : Derives grammar (.rep 1 (.call .y)) (List.replicate (n + 1) 'y')
            (some (List.replicate (n + 1) 'y', [])) := by
          have h5 : Derives grammar (.call .y) (List.replicate (n + 1) 'y') (some (['y'], List.replicate n 'y')) :=
            .call (.oneOfYes (k := []) (by simp [AllCommas]) (by decide) (by decide))
          exact .repStep (n := 1) h5 (rep_y n)
        obtain rfl := h3.det _ hy
        -- the longest match leaves nothing
        have hl : ∃ m, Res.longest (some (List.replicate (n + 1) 'y', [])) rb = some (m, []) := by
          cases rb with
          | none => exact ⟨_, rfl⟩
          | some x => exact ⟨List.replicate (n + 1) 'y', by simp [Res.longest]⟩
        obtain ⟨m, hm⟩ := hl
        rw [hm] at hres ⊢
        rename_i ra
        have : ∃ m, Res.longest ra (some (m, [])) = Res.longest ra (some (m, [])) := ⟨m, rfl⟩
        cases ra with
        | none =>
          simp only [Res.longest] at hres ⊢
          have := parseRule_append hres
          simp at this
          rw [this]
        | some x =>
          obtain ⟨ma, resta⟩ := x
          simp only [Res.longest] at hres ⊢
          split at hres
          · rename_i hle
            simp at hle
            subst hle
            have := parseRule_append hres
            simp at this
            simp [this]
          · rename_i hle
            rw [if_neg hle]
            have := parseRule_append hres
            simp at this
            rw [this]

/-- **C18, longer hesitations.** Seventeen or more letters `y` are an unknown, experimental cmavo instead. -/
theorem C18_long_hesitation (ptr n : Nat) (h : 17 ≤ n) :
    classify ⟨ptr, List.replicate n 'y'⟩ = .val (.UnknownCmavo, true) := by
  have hnc : noCommas (List.replicate n 'y') = List.replicate n 'y' := by
    unfold noCommas
    rw [List.filter_replicate]
    simp
  have ht : tableText (List.replicate n 'y') = List.replicate n 'y' := by
    rw [tableText, hnc, List.map_replicate]; rfl
  have hb : ∀ n, byteLen (List.replicate n 'y') = n := by
    intro n
    induction n with
    | zero => rfl
    | succ n ih =>
      rw [List.replicate_succ, byteLen, ih]
      have : ('y' : Char).utf8Size = 1 := by decide
      omega
  have hd : directText (List.replicate n 'y') = none := by
    simp only [directText, ht, hb, if_pos (show 16 < n by omega)]
  obtain ⟨k, rfl⟩ : ∃ k, n = k + 1 := ⟨n - 1, by omega⟩
  have hcm : matchesAll .cmevla (List.replicate (k + 1) 'y') = false := by
    cases hm : matchesAll .cmevla (List.replicate (k + 1) 'y') with
    | false => rfl
    | true =>
      exfalso
      unfold matchesAll at hm
      split at hm
      · rename_i m r hp
        have hd := call_inv (derives_iff.mpr hp)
        cases hd with
        | guardGo _ hd =>
          obtain ⟨m1, r1, m2, h1, h2, hmm⟩ := seq_inv hd
          obtain ⟨m3, r3, m4, h3, h4, rfl⟩ := seq_inv h2
          obtain ⟨k', c, _, hc, _, rfl, _⟩ := oneLetter (rule := .consonant) rfl (derives_iff.mp h3)
          have happ := parseRule_append hp
          have : c ∈ List.replicate (k + 1) 'y' := by rw [← happ, hmm]; simp
          rw [List.eq_of_mem_replicate this] at hc
          exact absurd hc (by decide)
      · cases hm
  rw [classify_eq]
  have hg : generalPure (List.replicate (k + 1) 'y') = .UnknownCmavo := by
    unfold generalPure
    rw [hcm]
    have : matchesAll .cmavo_minimal (List.replicate (k + 1) 'y') = true := by
      unfold matchesAll
      rw [cmavo_y]
      rfl
    rw [this]
    rfl
  simp only [classifyPure, classifyBase, hd, Option.bind_none, hg]
  rfl

/-! ### C19 -/

theorem all_complete (s : Selmaho) : s ∈ Selmaho.all := by
  cases s <;> decide +kernel

theorem reprs_distinct : distinct 200 0 (Selmaho.all.map (fun s => wordKey s.asRepr)) = true := by decide +kernel

/-- **C19.** Different selmaho are displayed differently. -/
theorem C19_repr_injective (s t : Selmaho) (h : s.asRepr = t.asRepr) : s = t := by
  have hn := distinct_nodup _ _ _ reprs_distinct
  have key : ∀ l : List Selmaho, (l.map (fun s => wordKey s.asRepr)).Nodup → ∀ s ∈ l, ∀ t ∈ l,
      s.asRepr = t.asRepr → s = t := by
    intro l
    induction l with
    | nil => simp
    | cons a l ih =>
      intro hn s hs t ht he
      simp only [List.map_cons, List.nodup_cons, List.mem_map, not_exists, not_and] at hn
      simp only [List.mem_cons] at hs ht
      rcases hs with rfl | hs <;> rcases ht with rfl | ht
      · rfl
      · exact absurd (by rw [he]) (hn.1 t ht)
      · exact absurd (by rw [he]) (hn.1 s hs)
      · exact ih hn.2 s hs t ht he
  exact key _ hn s (all_complete s) t (all_complete t) h

end Sneturfahi.Props
