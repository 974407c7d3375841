import Verif.Props.CmavoForm
import Verif.Props.Compound

/-!
# Words stand on their own (C72)
-/

namespace Sneturfahi.Props

open Spec Derives

set_option linter.constructorNameAsVariable false

theorem falls_rest (cs : List Char) : fallOffPure (falls cs).2 = none := by
  induction h : cs.length using Nat.strongRecOn generalizing cs with
  | ind n ih =>
    cases hf : fallOffPure cs with
    | none => rw [falls_none hf]; exact hf
    | some x =>
      obtain ⟨m, r⟩ := x
      rw [falls_some hf]
      exact ih r.length (by rw [← h]; exact fallOffPure_lt hf) r rfl

theorem falls_mem (cs : List Char) : ∀ w ∈ (falls cs).1, ∃ pre r, pre ++ (w ++ r) = cs ∧ fallOffPure (w ++ r) = some (w, r) := by
  induction h : cs.length using Nat.strongRecOn generalizing cs with
  | ind n ih =>
    cases hf : fallOffPure cs with
    | none => rw [falls_none hf]; simp
    | some x =>
      obtain ⟨m, r⟩ := x
      rw [falls_some hf]
      have ha := fallOffPure_append hf
      intro w hw
      rcases List.mem_cons.mp hw with rfl | hw
      · exact ⟨[], r, ha, by rw [ha]; exact hf⟩
      · obtain ⟨pre, r', e, h2⟩ := ih r.length (by rw [← h]; exact fallOffPure_lt hf) r rfl w hw
        exact ⟨m ++ pre, r', by rw [List.append_assoc, e, ha], h2⟩

theorem falls_last (cs w : List Char) (hw : (falls cs).1.getLast? = some w) : fallOffPure (w ++ (falls cs).2) = some (w, (falls cs).2) := by
  induction h : cs.length using Nat.strongRecOn generalizing cs with
  | ind n ih =>
    cases hf : fallOffPure cs with
    | none => rw [falls_none hf] at hw; simp at hw
    | some x =>
      obtain ⟨m, r⟩ := x
      have ha := fallOffPure_append hf
      rw [falls_some hf] at hw ⊢
      cases hl : (falls r).1.getLast? with
      | none =>
        have : (falls r).1 = [] := by simpa using hl
        simp only [this, List.getLast?_singleton, Option.some.injEq] at hw
        subst hw
        have h2 := falls_append r
        rw [this] at h2
        simp only [List.flatten_nil, List.nil_append] at h2
        rw [h2, ha, hf]
      | some w' =>
        have : w = w' := by
          have h3 : ((m :: (falls r).1).getLast?) = some w' := by
            rw [List.getLast?_cons, hl]; rfl
          simp only at hw
          rw [h3] at hw
          exact (Option.some.inj hw).symm
        subst this
        exact ih r.length (by rw [← h]; exact fallOffPure_lt hf) r hl rfl

theorem trim_noTrail {cs : List Char} (h : NoTrail cs) : trimCommas cs = cs := by
  obtain ⟨k, hk, e⟩ := trimCommas_spec cs
  rcases List.eq_nil_or_concat k with rfl | ⟨k', c, rfl⟩
  · simpa using e.symm
  · exfalso
    apply h
    have hc : c = ',' := by simpa using hk c (by simp)
    rw [e, hc]
    simp [List.getLast?_append]

theorem lastWord_noTrail {cs : List Char} (h : NoTrail cs) : ∀ w ∈ lastWord cs, w = cs := by
  intro w hw
  unfold lastWord at hw
  rw [trim_noTrail h] at hw
  split at hw <;> simp at hw
  exact hw

/-- The end of a text decides how its last letter counts. -/
theorem endsInConsonant_append {a b : List Char} (hb : ∃ c ∈ b, c ≠ ',') : endsInConsonant (a ++ b) = endsInConsonant b := by
  unfold endsInConsonant
  rw [List.reverse_append, List.find?_append]
  cases h : b.reverse.find? (fun c => c != ',') with
  | some c => rfl
  | none =>
    exfalso
    obtain ⟨c, hc, hne⟩ := hb
    have := List.find?_eq_none.mp h c (by simpa using hc)
    simp [hne] at this

theorem noTrail_letter {cs : List Char} (h : NoTrail cs) (hn : cs ≠ []) : ∃ c ∈ cs, c ≠ ',' := by
  refine ⟨cs.getLast hn, List.getLast_mem hn, ?_⟩
  intro e
  exact h (by rw [List.getLast?_eq_some_getLast hn, e])

theorem noTrail_suffix {a b : List Char} (h : NoTrail (a ++ b)) : NoTrail b := by
  intro e
  apply h
  rw [List.getLast?_append, e]; rfl

/-- A cmavo alone is one word. -/
theorem alone_cmavo {w r : List Char} (h : parseRule .cmavo_minimal (w ++ r) = some (w, r)) : singleWords w = [w] := by
  have hn := parseRule_ne_nil (by decide) h
  have ht := parseRule_noTrail h
  have hf := cmavo_form_sound (CForm.minimal_form h)
  have h1 := (cmavo_form_complete hf).1
  have h2 : parseRule .cmavo_minimal w = some (w, []) := by
    have hm : matchesAll .cmavo_minimal w = true := by
      rw [matchesAll_comma _ (commaSim_noCommas ht)]
      simp only [matchesAll, h1, List.isEmpty_nil]
    unfold matchesAll at hm
    split at hm
    · rename_i m r' hp
      simp only [List.isEmpty_iff] at hm
      subst hm
      have := parseRule_append hp
      simp only [List.append_nil] at this
      rw [hp, this]
    · cases hm
  have h3 : fallOffPure w = some (w, []) := by unfold fallOffPure; rw [h2]
  have h4 : falls w = ([w], []) := by rw [falls_some h3, falls_none nothing_falls.1]
  have h5 : endsInConsonant w = false := by
    obtain ⟨u, v, e, hv⟩ := CForm.form_last hf
    cases hc : endsInConsonant w with
    | false => rfl
    | true =>
      obtain ⟨c, ⟨front, commas, e1, hne, hk⟩, hcons⟩ := (endsInConsonant_iff w).mp hc
      have hk' : noCommas commas = [] := by
        apply List.filter_eq_nil_iff.mpr
        intro x hx
        simp [hk x hx]
      have e2 : noCommas w = noCommas front ++ [c] := by
        rw [e1]
        simp only [noCommas, List.filter_append, List.filter_cons] at hk' ⊢
        simp [hne, hk']
      rw [e] at e2
      have := List.append_inj_right' e2 rfl
      simp at this
      subst this
      exact absurd hcons hv
  unfold singleWords
  rw [h5, h4]
  simp only [List.getLast?_singleton, nothing_falls.2, List.dropLast_singleton, List.append_nil, List.nil_append]
  simp [lastWord, trim_noTrail ht, hn]

/-- Every word of a chunk is one word by itself. -/
theorem alone_chunk {cs : List Char} (ht : NoTrail cs) (hc : ∀ c ∈ cs, capital c = false) : ∀ w ∈ singleWords cs, singleWords w = [w] := by
  intro w hw
  have hw0 := hw
  unfold singleWords at hw
  by_cases he : endsInConsonant cs = true
  · simp only [he, if_true, List.mem_singleton] at hw
    subst hw
    unfold singleWords
    rw [if_pos he]
  have he' : endsInConsonant cs = false := by simpa using he
  rw [if_neg he] at hw
  have happ := falls_append cs
  have hrest := falls_rest cs
  have hfall : ∀ w ∈ (falls cs).1, singleWords w = [w] := by
    intro w hw
    obtain ⟨pre, r, e, h1⟩ := falls_mem cs w hw
    have h2 : parseRule .explicitly_stressed_brivla_minimal (w ++ r) = none :=
      needCapital_none rfl (fun c hcm => hc c (by rw [← e]; exact List.mem_append_right _ hcm))
    unfold fallOffPure at h1
    rw [h2] at h1
    split at h1
    · rename_i x hx; cases h1; exact alone_cmavo hx
    · cases h1
  -- the last word of the chunk, if nothing falls off it
  have hlast : ∀ w ∈ lastWord (falls cs).2, singleWords w = [w] := by
    intro w hw
    by_cases hr : (falls cs).2 = []
    · rw [hr] at hw; simp [lastWord, trimCommas] at hw
    have hrt : NoTrail (falls cs).2 := noTrail_suffix (by rw [happ]; exact ht)
    have := lastWord_noTrail hrt w hw
    subst this
    unfold singleWords
    rw [← endsInConsonant_append (a := (falls cs).1.flatten) (noTrail_letter hrt hr), happ, he', falls_none hrest]
    simp [lastWord, trim_noTrail hrt, hr]
  cases hl : (falls cs).1.getLast? with
  | none => rw [hl] at hw; exact hlast w hw
  | some v =>
    rw [hl] at hw
    simp only at hw
    split at hw
    · rcases List.mem_append.mp hw with hw | hw
      · exact hfall w hw
      · exact hlast w hw
    · rename_i hpost
      rcases List.mem_append.mp hw with hw | hw
      · exact hfall w (List.dropLast_subset _ hw)
      · have hv := falls_last cs v hl
        have hsplit : (falls cs).1.dropLast.flatten ++ (v ++ (falls cs).2) = cs := by
          have hd : (falls cs).1 = (falls cs).1.dropLast ++ [v] := by
            have hne : (falls cs).1 ≠ [] := by intro e; rw [e] at hl; cases hl
            rw [List.getLast?_eq_some_getLast hne] at hl
            rw [← Option.some.inj hl]
            exact (List.dropLast_concat_getLast hne).symm
          conv => rhs; rw [← happ]
          conv => rhs; rw [hd]
          simp
        have hvn := fallOffPure_ne_nil hv
        have hne : v ++ (falls cs).2 ≠ [] := by simp [hvn]
        have hvt : NoTrail (v ++ (falls cs).2) := noTrail_suffix (by rw [hsplit]; exact ht)
        have := lastWord_noTrail hvt w hw
        subst this
        have hfalls : falls (v ++ (falls cs).2) = ([v], (falls cs).2) := by rw [falls_some hv, falls_none hrest]
        unfold singleWords
        rw [← endsInConsonant_append (a := (falls cs).1.dropLast.flatten) (noTrail_letter hvt hne), hsplit, he', hfalls]
        simp only [List.getLast?_singleton, hpost]
        simp [lastWord, trim_noTrail hvt, hvn]

/-- **C72.** Words stand on their own: of a text without capital vowels in which no comma stands at the end or before a
separator, each word, decomposed by itself, is exactly one word. -/
theorem C72_words_stand_alone (p : Profile) (input : Str) (h : input.len < 2 ^ 32) (words : List Span)
    (hw : decomposeAll p input = .val words) (hcap : ∀ c ∈ input.chars, c ∉ c!"AEIOU")
    (hcom : ∀ a b, input.chars = a ++ ',' :: b → ∃ c r, b = c :: r ∧ ¬ IsSeparator c) (s : Span) (hs : s ∈ words) (ptr : Nat) :
    ∃ t, s.slice input = some t ∧ decomposeAll p ⟨ptr, t.chars⟩ = .val [⟨0, t.len⟩] := by
  have hv := (C21_spans_valid p input h words hw).1 s hs
  have hch := C23_word_characters p input h words hw s hs
  rw [decomposeAll_eq p input h] at hw
  cases hw
  obtain ⟨t, h1, h2⟩ := textsOf_mem (decomposed_texts input) hs
  refine ⟨t, h1, ?_⟩
  obtain ⟨_, hle, t', ht', _, hlen⟩ := hv
  rw [h1] at ht'; cases ht'
  obtain ⟨t', ht', hns, _⟩ := hch
  rw [h1] at ht'; cases ht'
  rw [decomposeAll_eq p _ (by simp only [Str.len, u32Size] at *; omega)]
  simp only [wordTexts, List.mem_flatMap] at h2
  obtain ⟨c, hc, h2⟩ := h2
  obtain ⟨ds, rest, e⟩ := List.append_of_mem hc
  obtain ⟨pre, post, e1, _, _, e4⟩ := chunks_at e
  have hct : NoTrail c := by
    intro hl
    obtain ⟨c', rfl⟩ : ∃ c', c = c' ++ [','] := by
      rcases List.eq_nil_or_concat c with rfl | ⟨c', x, rfl⟩
      · cases hl
      · simp at hl; subst hl; exact ⟨c', by simp⟩
    obtain ⟨x, r, e5, hx⟩ := hcom (pre ++ c') post (by rw [e1]; simp)
    rcases e4 with ⟨_, rfl⟩ | ⟨sp, u, hsp, rfl, _⟩
    · cases e5
    · cases e5; exact hx hsp
  have hcc : ∀ x ∈ c, capital x = false := by
    intro x hx
    have := hcap x (by rw [e1]; simp [hx])
    simpa [capital] using this
  rw [chunks_noSep hns]
  simp only [spansAt, alone_chunk hct hcc _ h2, layout, List.append_nil]
  simp [Str.len]

/-- Both conditions hold of an ordinary text with words written together and with commas. -/
example : ∃ words, decomposeAll .debug ⟨0, c!"rodo mi,klama"⟩ = .val words ∧ words.length = 4 ∧
    (∀ c ∈ c!"rodo mi,klama", c ∉ c!"AEIOU") := by
  refine ⟨[⟨0, 2⟩, ⟨2, 4⟩, ⟨5, 7⟩, ⟨7, 13⟩], ?_, rfl, by decide⟩
  decide +kernel

/-- **C72, why the condition on commas.** Before a final comma words are not taken apart, but without it they are. -/
theorem C72_final_comma : decomposeAll .debug ⟨0, c!"miklama,"⟩ = .val [⟨0, 7⟩] ∧
    decomposeAll .debug ⟨0, c!"miklama"⟩ = .val [⟨0, 2⟩, ⟨2, 7⟩] := by decide +kernel

end Sneturfahi.Props
