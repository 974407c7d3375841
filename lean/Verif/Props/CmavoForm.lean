import Verif.Proof.CmavoForm2
import Verif.Props.ClassifyMore
import Verif.Props.Words

/-!
# Exactly the words of the form of a cmavo are cmavo (C71)
-/

namespace Sneturfahi.Props

open Spec Derives

set_option linter.constructorNameAsVariable false

namespace CForm

def groupB : List Char → Bool
  | [v] => (c!"aeiouyAEIOUY").contains v
  | [v, w] => ((c!"aA").contains v && (c!"iuIU").contains w) || ((c!"eoEO").contains v && (c!"iI").contains w)
  | _ => false

theorem groupB_sound {g : List Char} (h : groupB g = true) : VowelGroup g := by
  unfold groupB at h
  split at h
  · rename_i v
    exact .inl ⟨v, by simpa using h, rfl⟩
  · rename_i v w
    simp only [Bool.or_eq_true, Bool.and_eq_true, List.contains_iff_mem] at h
    rcases h with h | h
    · exact .inr (.inl ⟨v, h.1, w, h.2, rfl⟩)
    · exact .inr (.inr ⟨v, h.1, w, h.2, rfl⟩)
  · cases h

/-- A test for `CmavoVowels`. -/
def vowelsB : Nat → List Char → Bool
  | 0, _ => false
  | n + 1, w => [1, 2].any (fun k => groupB (w.take k) &&
      (match w.drop k with
        | [] => true
        | q :: t => (c!"'h").contains q && vowelsB n t))

theorem vowelsB_sound : ∀ (n : Nat) (w : List Char), vowelsB n w = true → CmavoVowels w := by
  intro n
  induction n with
  | zero => intro w h; cases h
  | succ n ih =>
    intro w h
    simp only [vowelsB, List.any_eq_true, Bool.and_eq_true] at h
    obtain ⟨k, _, hg, hr⟩ := h
    have e := List.take_append_drop k w
    split at hr
    · rename_i hd
      rw [hd, List.append_nil] at e
      rw [← e]
      exact .one (groupB_sound hg)
    · rename_i q t hd
      rw [hd] at e
      rw [← e]
      simp only [Bool.and_eq_true, List.contains_iff_mem] at hr
      exact .more (groupB_sound hg) hr.1 (ih t hr.2)

/-- A test for words of the table. -/
def formB (w : List Char) : Bool :=
  (match w with | [d] => (c!"0123456789").contains d | _ => false) || vowelsB w.length w ||
    (match w with
      | [] => false
      | c :: t => ((c!"bcdfgjklmnprstvxzBCDFGJKLMNPRSTVXZ").contains c || (c!"iuIU").contains c) && vowelsB t.length t)

theorem formB_sound {w : List Char} (h : formB w = true) : CmavoForm w := by
  simp only [formB, Bool.or_eq_true] at h
  rcases h with (h | h) | h
  · split at h
    · exact .inl ⟨_, by simpa using h, rfl⟩
    · cases h
  · exact .inr (.inr (.inl (vowelsB_sound _ _ h)))
  · split at h
    · cases h
    · rename_i c t
      simp only [Bool.and_eq_true, Bool.or_eq_true, List.contains_iff_mem] at h
      exact .inr (.inr (.inr ⟨c, t, rfl, h.1, vowelsB_sound _ _ h.2⟩))

theorem table_forms : allArms.all (fun a => a.words.all (fun w => w == c!" vi'ei'e" || formB w)) = true := by decide +kernel

theorem unquote_group {w : List Char} (h : VowelGroup (w.map hToApostrophe)) : VowelGroup w := by
  have key : ∀ c : Char, ∀ s ∈ [c!"aeiouyAEIOUY", c!"aA", c!"iuIU", c!"eoEO", c!"iI"], hToApostrophe c ∈ s → c ∈ s := by
    intro c s hs hc
    unfold hToApostrophe at hc
    split at hc
    · exfalso; revert s; decide
    · exact hc
  rcases h with ⟨v, hv, e⟩ | ⟨v, hv, w', hw, e⟩ | ⟨v, hv, w', hw, e⟩
  · match w, e with
    | [a], e => simp at e; subst e; exact .inl ⟨a, key a _ (by simp) hv, rfl⟩
  · match w, e with
    | [a, b], e => simp at e; obtain ⟨rfl, rfl⟩ := e; exact .inr (.inl ⟨a, key a _ (by simp) hv, b, key b _ (by simp) hw, rfl⟩)
  · match w, e with
    | [a, b], e => simp at e; obtain ⟨rfl, rfl⟩ := e; exact .inr (.inr ⟨a, key a _ (by simp) hv, b, key b _ (by simp) hw, rfl⟩)

theorem unquote_q {c : Char} (h : hToApostrophe c ∈ c!"'h") : c ∈ c!"'h" := by
  unfold hToApostrophe at h
  split at h
  · rename_i hc
    have : c = 'h' := by simpa using hc
    subst this; decide
  · exact h

theorem unquote_vowels {v : List Char} (h : CmavoVowels v) : ∀ w : List Char, w.map hToApostrophe = v → CmavoVowels w := by
  induction h with
  | one hg => rintro w rfl; exact .one (unquote_group hg)
  | @more g q t hg hq _ ih =>
    intro w e
    obtain ⟨w1, w2, rfl, e1, e2⟩ := List.map_eq_append_iff.mp e
    obtain ⟨a, w3, rfl, e3, e4⟩ := List.map_eq_cons_iff.mp e2
    refine .more (unquote_group (by rw [e1]; exact hg)) (unquote_q (by rw [e3]; exact hq)) (ih _ e4)

theorem unquote_form {w : List Char} (h : CmavoForm (w.map hToApostrophe)) : CmavoForm w := by
  have key : ∀ c : Char, ∀ s ∈ [c!"0123456789", c!"yY", c!"iuIU", allConsonants], hToApostrophe c ∈ s → c ∈ s := by
    intro c s hs hc
    unfold hToApostrophe at hc
    split at hc
    · exfalso; revert s; decide
    · exact hc
  rcases h with ⟨d, hd, e⟩ | ⟨hn, hy⟩ | h | ⟨c, t, e, hc, ht⟩
  · match w, e with
    | [a], e => simp at e; subst e; exact .inl ⟨a, key a _ (by simp) hd, rfl⟩
  · refine .inr (.inl ⟨by simpa using hn, fun c hc => key c _ (by simp) (hy _ (List.mem_map.mpr ⟨c, hc, rfl⟩))⟩)
  · exact .inr (.inr (.inl (unquote_vowels h _ rfl)))
  · obtain ⟨a, w3, rfl, e3, e4⟩ := List.map_eq_cons_iff.mp e
    subst e3
    refine .inr (.inr (.inr ⟨a, w3, rfl, ?_, unquote_vowels ht _ e4⟩))
    rcases hc with hc | hc
    · exact .inl (key a allConsonants (by simp) hc)
    · exact .inr (key a _ (by simp) hc)

/-- No text of the form of a cmavo is a cmevla: it does not end in a consonant. -/
theorem vowels_not_cmevla {w : List Char} (h : CmavoVowels w) : ∃ u v, w = u ++ [v] ∧ ¬ IsConsonantLetter v := by
  have k1 : ∀ v ∈ c!"aeiouyAEIOUY", ¬ IsConsonantLetter v := by decide
  have k2 : ∀ v ∈ c!"iuIU", ¬ IsConsonantLetter v := by decide
  have k3 : ∀ v ∈ c!"iI", ¬ IsConsonantLetter v := by decide
  induction h with
  | one hg =>
    rcases hg with ⟨v, hv, rfl⟩ | ⟨v, hv, w', hw, rfl⟩ | ⟨v, hv, w', hw, rfl⟩
    · exact ⟨[], v, rfl, k1 v hv⟩
    · exact ⟨[v], w', rfl, k2 _ hw⟩
    · exact ⟨[v], w', rfl, k3 _ hw⟩
  | @more g q t hg hq ht ih =>
    obtain ⟨u, v, rfl, hv⟩ := ih
    exact ⟨g ++ q :: u, v, by simp, hv⟩

theorem form_last {w : List Char} (h : CmavoForm w) : ∃ u v, w = u ++ [v] ∧ ¬ IsConsonantLetter v := by
  have k1 : ∀ v ∈ c!"0123456789", ¬ IsConsonantLetter v := by decide
  have k2 : ∀ v ∈ c!"yY", ¬ IsConsonantLetter v := by decide
  rcases h with ⟨d, hd, rfl⟩ | ⟨hn, hy⟩ | h | ⟨c, t, rfl, hc, ht⟩
  · exact ⟨[], d, rfl, k1 d hd⟩
  · refine ⟨w.dropLast, w.getLast hn, (List.dropLast_concat_getLast hn).symm, k2 _ (hy _ (List.getLast_mem hn))⟩
  · exact vowels_not_cmevla h
  · obtain ⟨u, v, rfl, hv⟩ := vowels_not_cmevla ht
    exact ⟨c :: u, v, rfl, hv⟩

theorem minimal_form {w r m : List Char} (h : parseRule .cmavo_minimal w = some (m, r)) : parseRule .cmavo_form w = some (m, r) := by
  have hd := call_inv (derives_iff.mpr h)
  cases hd with
  | guardGo _ h2 => exact derives_iff.mp h2

end CForm

/-! ### C71 -/

/-- **C71.** A word (without a space in it) that is classified as a cmavo has, commas aside, the form of a cmavo. -/
theorem C71_only_that_form (word : Str) (s : Selmaho) (x : Bool) (h : classify word = .val (s, x)) (hsp : ' ' ∉ word.chars)
    (hs : s ∉ [Selmaho.Gismu, .Lujvo, .Fuhivla, .Cmevla, .AnyText]) : CmavoForm (word.chars.filter (fun c => c != ',')) := by
  have hv := classify_val h
  unfold classifyPure at hv
  rcases classify_cases word.chars with ⟨a, ha, hw, _, h2⟩ | ⟨hy, hlen, h2⟩ | h2
  · have := List.all_eq_true.mp (List.all_eq_true.mp CForm.table_forms a ha) _ hw
    simp only [Bool.or_eq_true, beq_iff_eq] at this
    rcases this with this | this
    · exfalso
      have hm : ' ' ∈ tableText word.chars := by rw [this]; decide
      obtain ⟨c, hc, e⟩ := List.mem_map.mp hm
      unfold hToApostrophe at e
      split at e
      · revert e; decide
      · subst e; exact hsp (List.mem_filter.mp hc).1
    · exact CForm.unquote_form (CForm.formB_sound this)
  · refine CForm.unquote_form (.inr (.inl ?_))
    simp only [isY, Bool.and_eq_true, List.all_eq_true, beq_iff_eq, Bool.not_eq_true', List.isEmpty_eq_false_iff] at hy
    refine ⟨hy.1, fun c hc => ?_⟩
    rw [hy.2 c hc]; decide
  · rw [h2] at hv
    simp only [Bool.or_false, Prod.mk.injEq] at hv
    have hne : s ≠ .AnyText := fun e => hs (by simp [e])
    obtain ⟨rule, hr, hp⟩ := general_rule hv.1 hne
    simp only [List.mem_cons, Prod.mk.injEq, List.not_mem_nil, or_false] at hr hs
    rcases hr with ⟨rfl, rfl⟩ | ⟨rfl, rfl⟩ | ⟨rfl, rfl⟩ | ⟨rfl, rfl⟩ | ⟨rfl, rfl⟩ <;> first | (exfalso; simp at hs; done) | skip
    exact cmavo_form_sound (CForm.minimal_form hp)

/-- A word of the form of a cmavo, found in the table or not. -/
theorem general_of_form {cs : List Char} (ht : NoTrail cs) (hf : CmavoForm (noCommas cs)) : generalPure cs = .UnknownCmavo := by
  rw [generalPure_comma ht]
  obtain ⟨h1, h2⟩ := cmavo_form_complete hf
  have hne : generalPure (noCommas cs) ≠ .Cmevla := by
    intro e
    obtain ⟨rule, hr, hp⟩ := general_rule e (by decide)
    simp at hr
    subst hr
    have hd := call_inv (derives_iff.mpr hp)
    obtain ⟨u, v, e1, hv⟩ := CForm.form_last hf
    cases hd with
    | guardGo _ hd =>
    obtain ⟨m1, r1, m2, h1, h2, hm⟩ := seq_inv hd
    obtain ⟨m3, r3, m4, h3, h4, rfl⟩ := seq_inv h2
    obtain ⟨k, c, _, hc, _, rfl, _⟩ := oneLetter (rule := .consonant) rfl (derives_iff.mp h3)
    cases h4
    have e2 : noCommas cs = (m1 ++ k) ++ [c] := by simpa using hm
    have hv' : IsConsonantLetter c := hc
    rw [e1] at e2
    have := List.append_inj_right' e2 rfl
    simp at this
    subst this
    exact hv hv'
  have hm : matchesAll .cmavo_minimal (noCommas cs) = true := by simp [matchesAll, h1]
  revert hne
  unfold generalPure
  split
  · intro hne; exact absurd rfl hne
  · intro _; rfl

/-- **C71.** A word of the form of a cmavo, commas aside, that does not end in a comma, is classified as a cmavo. -/
theorem C71_all_of_that_form (word : Str) (s : Selmaho) (x : Bool) (h : classify word = .val (s, x)) (hc : word.chars.getLast? ≠ some ',')
    (hf : CmavoForm (word.chars.filter (fun c => c != ','))) : s ∉ [Selmaho.Gismu, .Lujvo, .Fuhivla, .Cmevla, .AnyText] := by
  have hsub : ∀ t ∈ [Selmaho.Gismu, .Lujvo, .Fuhivla, .Cmevla, .AnyText], t ∈ ruleSelmaho := by decide
  intro hs
  obtain ⟨h1, _⟩ := classify_by_rule (classify_val h) (hsub s hs)
  rw [general_of_form hc hf] at h1
  subst h1
  revert hs; decide

/-- **C71, which cmavo are unknown.** A word is classified UnknownCmavo if and only if it has the form of a cmavo, does not
end in a comma, is not in the table (entries of up to sixteen bytes), and is not made of one to sixteen letters `y`. -/
theorem C71_unknown (word : Str) (x : Bool) : classify word = .val (.UnknownCmavo, x) ↔
    x = true ∧ word.chars.getLast? ≠ some ',' ∧ CmavoForm (word.chars.filter (fun c => c != ',')) ∧
    (∀ entry ∈ armsBeforeY ++ armsAfterY, ∀ w ∈ entry.words, byteLen w ≤ 16 →
      (word.chars.filter (fun c => c != ',')).map (fun c => if c = 'h' then '\'' else c) ≠ w) ∧
    (∀ n, 1 ≤ n → n ≤ 16 → word.chars.filter (fun c => c != ',') ≠ List.replicate n 'y') := by
  constructor
  · intro h
    have hx := (C16_experimental word _ _ h).2.1 rfl
    obtain ⟨hg, _⟩ := classify_by_rule (classify_val h) (by decide)
    have ht : word.chars.getLast? ≠ some ',' := by
      intro e
      rw [general_trailing e] at hg
      cases hg
    refine ⟨hx, ht, ?_, ?_, ?_⟩
    · obtain ⟨rule, hr, hp⟩ := general_rule hg (by decide)
      simp at hr
      subst hr
      exact cmavo_form_sound (CForm.minimal_form hp)
    · intro entry he w hw hl e
      have := C17_table entry he w hw hl word e
      rw [h] at this
      injection this with this
      exact arms_selmaho entry he (by rw [← (Prod.mk.inj this).1]; decide)
    · intro n h1 h2 e
      have := (C18_exact word false).mpr (.inl ⟨rfl, n, h1, h2, e⟩)
      rw [h] at this
      injection this with this
      cases this
  · rintro ⟨rfl, ht, hf, htab, hy⟩
    rw [classify_eq]
    unfold classifyPure
    rcases classify_cases word.chars with ⟨a, ha, hw, hl, h2⟩ | ⟨hy', hlen, h2⟩ | h2
    · exact absurd rfl (htab a ha _ hw hl)
    · exfalso
      simp only [isY, Bool.and_eq_true, List.all_eq_true, beq_iff_eq, Bool.not_eq_true', List.isEmpty_eq_false_iff] at hy'
      have : classify word = .val (.Y, false) := by
        rw [classify_eq]; unfold classifyPure; rw [h2]; rfl
      rcases (C18_exact word false).mp this with ⟨_, n, h1, h3, e⟩ | ⟨h1, _⟩
      · exact hy n h1 h3 e
      · cases h1
    · rw [h2, general_of_form ht hf]; rfl

theorem table_capitals : allArms.all (fun a => a.words.all (fun w => w.all (fun c => !(('A' ≤ c) && (c ≤ 'Z'))))) = true := by decide +kernel

/-- **C71, capitals.** A cmavo written with a capital letter in it is not recognised: it is an UnknownCmavo, whatever the table says. -/
theorem C71_capitals (word : Str) (hc : word.chars.getLast? ≠ some ',') (hf : CmavoForm (word.chars.filter (fun c => c != ',')))
    (c : Char) (hm : c ∈ word.chars) (hA : 'A' ≤ c) (hZ : c ≤ 'Z') : classify word = .val (.UnknownCmavo, true) := by
  have hcomma : c ≠ ',' := by rintro rfl; revert hA; decide
  have hch : c ≠ 'h' := by rintro rfl; revert hZ; decide
  have hcy : c ≠ 'y' := by rintro rfl; revert hZ; decide
  have hin : c ∈ word.chars.filter (fun c => c != ',') := List.mem_filter.mpr ⟨hm, by simpa using hcomma⟩
  refine (C71_unknown word true).mpr ⟨rfl, hc, hf, ?_, ?_⟩
  · rintro entry he w hw _ rfl
    have := List.all_eq_true.mp (List.all_eq_true.mp (List.all_eq_true.mp table_capitals entry he) _ hw) c
      (List.mem_map.mpr ⟨c, hin, by simp [hch]⟩)
    simp [hA, hZ] at this
  · intro n _ _ e
    rw [e] at hin
    exact hcy (List.eq_of_mem_replicate hin)

/-- The form is met by known and unknown cmavo, with commas, diphthongs and `h`, and by `mi` in capitals. -/
example : CmavoForm c!"xai'au" ∧ classify ⟨0, c!"x,ai'au"⟩ = .val (.UnknownCmavo, true) := by
  have h : CmavoForm c!"xai'au" := CForm.formB_sound (by decide +kernel)
  refine ⟨h, ?_⟩
  rw [classify_eq]; decide +kernel
example : classify ⟨0, c!"MI"⟩ = .val (.UnknownCmavo, true) :=
  C71_capitals ⟨0, c!"MI"⟩ (by decide) (CForm.formB_sound (by decide +kernel)) 'M' (by decide) (by decide) (by decide)
example : ∃ s x, classify ⟨0, c!"mi"⟩ = .val (s, x) ∧ s ∉ [Selmaho.Gismu, .Lujvo, .Fuhivla, .Cmevla, .AnyText] :=
  ⟨.Koha, false, by rw [classify_eq]; decide +kernel, by decide⟩
/-- A final comma makes the difference for words that are not in the table. -/
example : classify ⟨0, c!"xai'au,"⟩ = .val (.AnyText, false) := by rw [classify_eq]; decide +kernel
/-- Two words of some other form: two vowels that are no diphthong, and two consonants. -/
example : ¬ CmavoForm c!"nae" ∧ ¬ CmavoForm c!"bra" := by
  constructor <;> intro h <;> have := (cmavo_form_complete h).1 <;> revert this <;> decide +kernel

end Sneturfahi.Props
