import Verif.Spec.Division
import Verif.Props.WordForms
import Verif.Props.Compound

/-!
# How any chunk is divided into words (C93)
-/

namespace Sneturfahi.Props

open Spec Derives

namespace Div

attribute [local irreducible] parseRule
attribute [-simp] Names.text_cons Names.text_nil Names.text_append

open Lj (C)
open Names (text)
open Fu (Fi)

theorem fi_of_well {s : List Sound} (h : SoundsWell s) (hy : ∀ c ∈ text s, c ∉ c!"yYAEIOU") : Fi s := by
  obtain ⟨a, g, rfl⟩ := h.ending
  refine FForm.fi_of ((FForm.good_iff ⟨g, by simp⟩).mpr ⟨h.wellFormed, h.neighbours, h.triples⟩) (fun c hc => h.digits c ?_) hy
  simp [hc]

theorem wf_of : ∀ {s : List Sound}, Names.Good s → ∀ x ∈ s, x.WellFormed
  | [], _ => by simp
  | x :: s, h => by
    intro y hy
    rcases List.mem_cons.mp hy with rfl | hy
    · exact h.1
    · exact wf_of h.2.2.2 y hy

theorem no_cap {s : List Sound} (h : Fi s) : ∀ c ∈ text s, c ∉ c!"yYAEIOU" := by
  have k : ∀ c ∈ c!"yYAEIOU", Lj.isYLetter c = true ∨ capital c = true := by decide
  intro c hc hm
  obtain ⟨_, h1, h2⟩ := h.letters c hc
  rcases k c hm with k | k
  · rw [h1] at k; cases k
  · rw [h2] at k; cases k

theorem minimal_some {s p t : List Sound} (h : Fi s) (e : Fu.cm s = some t) (es : s = p ++ t) : fallOffPure (text s) = some (text p, text t) := by
  have h1 := Fu.t_minimal s h
  rw [e] at h1
  obtain ⟨m, hm⟩ := ans_some.mp h1
  have h2 := parseRule_append hm
  have h3 : m = text p := by
    rw [es, Names.text_append] at h2
    exact List.append_cancel_right h2
  rw [← h3]
  exact fallOff_of_minimal hm

theorem minimal_none {s : List Sound} (h : Fi s) (e : Fu.cm s = none) : fallOffPure (text s) = none := by
  have h1 := Fu.t_minimal s h
  rw [e] at h1
  have h2 := ans_none.mp h1
  unfold fallOffPure
  rw [h2]
  refine needCapital_none rfl ?_
  exact fun c hc => (h.letters c hc).2.2

/-- Particles, as long as there are any. -/
theorem particles_off : ∀ (n : Nat) {s : List Sound}, s.length ≤ n → Fi s → (∀ c u, s ≠ .apostrophe c :: u) →
    ∃ (ps : List (List Sound)) (t : List Sound), s = ps.flatten ++ t ∧ (∀ p ∈ ps, ParticleSounds p) ∧ (t = [] ∨ ∃ c d u, t = C c :: C d :: u) := by
  intro n
  induction n with
  | zero =>
    intro s hn h _
    cases s with
    | cons _ _ => simp at hn
    | nil => exact ⟨[], [], rfl, by simp, .inl rfl⟩
  | succ n ih =>
    intro s hn h hq
    by_cases hs : s = []
    · subst hs; exact ⟨[], [], rfl, by simp, .inl rfl⟩
    rcases FForm.starts h hs hq with ⟨c, d, t, rfl⟩ | ⟨t, ht⟩
    · exact ⟨[], _, rfl, by simp, .inr ⟨c, d, t, rfl⟩⟩
    · obtain ⟨p, e, hp, hft, hl, hqt, _⟩ := Fu.cm_inv h ht
      obtain ⟨ps, u, e2, h1, h2⟩ := ih (by omega) hft hqt
      refine ⟨p :: ps, u, by rw [e, e2]; simp, ?_, h2⟩
      intro x hx
      rcases List.mem_cons.mp hx with rfl | hx
      · exact hp
      · exact h1 x hx

theorem nucleus_CC {c d : Char} {u : List Sound} (h : Fi (C c :: C d :: u)) : parseRule .nucleus (text (C c :: C d :: u)) = none := by
  have := Fu.t_nucleus _ h
  exact ans_none.mp this

theorem post_content {c d : Char} {u : List Sound} (h : Fi (C c :: C d :: u)) : postWordPure (text (C c :: C d :: u)) = true ↔ Fu.IsContent (text (C c :: C d :: u)) := by
  rw [← Fu.brivla_iff h (by simp [Fu.cm])]
  have e1 : (ans (.call .brivla_minimal) (text (C c :: C d :: u))).isSome =
      ((ans (.call .gismu) (text (C c :: C d :: u))).isSome || (ans (.call .fuhivla) (text (C c :: C d :: u))).isSome || (ans (.call .lujvo_minimal) (text (C c :: C d :: u))).isSome) := by
    rw [ans_body]
    show (ans (.alt (.call .gismu) (.alt (.call .fuhivla) (.call .lujvo_minimal))) _).isSome = _
    rw [ans_alt, ans_alt]
    cases ans (.call .gismu) (text (C c :: C d :: u)) <;> cases ans (.call .fuhivla) (text (C c :: C d :: u)) <;> cases ans (.call .lujvo_minimal) (text (C c :: C d :: u)) <;> rfl
  have hm : parseRule .cmavo_minimal (text (C c :: C d :: u)) = none := ans_none.mp (Fu.t_minimal _ h)
  rw [e1]
  unfold postWordPure
  rw [nucleus_CC h, hm]
  simp only [ans_call, Option.isSome_map]
  simp

theorem text_last {s : List Sound} (h : Fi s) (hs : s ≠ []) : ∃ u c, text s = u ++ [c] ∧ c ∈ lowVowels := by
  rcases h.ends with rfl | ⟨a, g, rfl⟩
  · exact absurd rfl hs
  · have hg : g ∈ Fu.smallGroups := h.small (.vowels g) (by simp)
    have k : ∀ g ∈ Fu.smallGroups, g ≠ [] ∧ ∀ c ∈ g, c ∈ lowVowels := by decide
    obtain ⟨hne, hall⟩ := k g hg
    refine ⟨text a ++ g.dropLast, g.getLast hne, ?_, hall _ (List.getLast_mem hne)⟩
    rw [List.append_assoc, List.dropLast_concat_getLast, Names.text_append, Names.text_cons, Names.text_nil]
    simp [Sound.letters]

/-- The words of sounds, in terms of what falls off. -/
theorem words_particles {ps : List (List Sound)} (h : Fi ps.flatten) (hne : ps ≠ []) (h1 : ∀ p ∈ ps, ParticleSounds p)
    (h4 : falls (text ps.flatten) = (ps.map text, text [])) : singleWords (text ps.flatten) = ps.map text := by
  have wf : ∀ x ∈ ps.getLast hne, x.WellFormed := fun x hx =>
    wf_of h.good x (List.mem_flatten.mpr ⟨_, List.getLast_mem hne, hx⟩)
  have ht : text (ps.getLast hne) ≠ [] := by
    have := WForms.particle_ne (h1 _ (List.getLast_mem hne)) wf
    intro k
    have k : (ps.getLast hne).flatMap Sound.letters = [] := k
    rw [k] at this
    simp at this
  have e2 : ps.flatten = ps.dropLast.flatten ++ ps.getLast hne := by
    conv => lhs; rw [← List.dropLast_concat_getLast hne]
    simp
  have hs : ps.flatten ≠ [] := by
    intro k
    rw [e2] at k
    simp only [List.append_eq_nil_iff] at k
    rw [k.2] at ht
    exact ht rfl
  obtain ⟨u0, c0, el, hc0⟩ := text_last h hs
  have hec : endsInConsonant (text ps.flatten) = false := by rw [el]; exact (vowel_end hc0).1
  have hlw : lastWord (text (ps.getLast hne)) = [text (ps.getLast hne)] := by
    have e3 : text ps.flatten = (text ps.dropLast.flatten) ++ text (ps.getLast hne) := by rw [e2, Names.text_append]
    rw [← List.dropLast_concat_getLast ht] at e3
    rw [el, ← List.append_assoc] at e3
    have := List.append_inj_right' e3 rfl
    simp at this
    exact lastWord_vowel (List.dropLast_concat_getLast ht).symm (this ▸ hc0)
  unfold singleWords
  rw [hec, h4]
  have hl : (ps.map text).getLast? = some ((ps.map text).getLast (by simpa using hne)) := List.getLast?_eq_some_getLast _
  rw [hl]
  simp only [Names.text_nil, nothing_falls.2, Bool.false_eq_true, if_false]
  rw [List.append_nil, List.getLast_map, hlw, ← List.map_dropLast]
  conv => rhs; rw [← List.dropLast_concat_getLast hne]
  simp

theorem content_CC {c d : Char} {u : List Sound} (h : Fi (C c :: C d :: u)) : postWordPure (text (C c :: C d :: u)) = true ↔ ContentForm (text (C c :: C d :: u)) := by
  rw [post_content h, ← FForm.content_iff]
  refine WForms.content_iff _ ?_ (no_cap h)
  intro k
  exact ((h.letters ',' k).1) rfl

theorem last_CC {c d : Char} {u : List Sound} (h : Fi (C c :: C d :: u)) (p : List Char) : lastWord (p ++ text (C c :: C d :: u)) = [p ++ text (C c :: C d :: u)] := by
  obtain ⟨u, c, e, hc⟩ := text_last h (by simp)
  exact lastWord_vowel (u := p ++ u) (by rw [e]; simp) hc

theorem words_CC {ps : List (List Sound)} {c d : Char} {u : List Sound} (h : Fi (ps.flatten ++ C c :: C d :: u))
    (h4 : falls (text (ps.flatten ++ C c :: C d :: u)) = (ps.map text, text (C c :: C d :: u))) :
    (ps = [] ∨ ContentForm (text (C c :: C d :: u)) → singleWords (text (ps.flatten ++ C c :: C d :: u)) = ps.map text ++ [text (C c :: C d :: u)]) ∧
    (∀ qs p, ps = qs ++ [p] → ¬ ContentForm (text (C c :: C d :: u)) →
      singleWords (text (ps.flatten ++ C c :: C d :: u)) = qs.map text ++ [text p ++ text (C c :: C d :: u)]) := by
  have h3 : Fi (C c :: C d :: u) := h.suffix
  obtain ⟨u0, c0, el, hc0⟩ := text_last h (by simp)
  have hec : endsInConsonant (text (ps.flatten ++ C c :: C d :: u)) = false := by rw [el]; exact (vowel_end hc0).1
  have l0 := last_CC h3 []
  rw [List.nil_append] at l0
  unfold singleWords
  rw [hec, h4]
  simp only [Bool.false_eq_true, if_false]
  constructor
  · rintro (rfl | hc)
    · simp [l0]
    · rw [← content_CC h3] at hc
      cases hps : (ps.map text).getLast? with
      | none =>
        have : ps = [] := by simpa using hps
        subst this
        simp [l0]
      | some w => simp [hc, l0]
  · rintro qs p rfl hc
    rw [← content_CC h3] at hc
    simp [hc, last_CC h3]

/-- What falls off, from the division. -/
theorem falls_of : ∀ {ps : List (List Sound)} {t : List Sound}, Fi (ps.flatten ++ t) → (∀ p ∈ ps, ParticleSounds p) → (t = [] ∨ ∃ c d u, t = C c :: C d :: u) →
    falls (text (ps.flatten ++ t)) = (ps.map text, text t)
  | [], t, h, _, ht => by
    have h : Fi t := h
    refine falls_none (minimal_none h ?_)
    rcases ht with rfl | ⟨c, d, u, rfl⟩ <;> rfl
  | p :: ps, t, h, hp, ht => by
    have e0 : (p :: ps).flatten ++ t = p ++ (ps.flatten ++ t) := by simp
    rw [e0] at h ⊢
    have nq : ∀ c u, ps.flatten ++ t ≠ .apostrophe c :: u := by
      intro c u k
      cases ps with
      | nil => rcases ht with rfl | ⟨c, d, u, rfl⟩ <;> cases k
      | cons q ps =>
        have hq := hp q (by simp)
        have : ∀ v, q ++ v ≠ .apostrophe c :: u := by
          generalize q = q at hq
          induction hq with
          | vowels => intro v; simp
          | glide => intro v; simp
          | consonant => intro v; simp
          | more _ ih => intro v; rw [List.append_assoc]; exact ih _
        exact this (ps.flatten ++ t) (by rw [← k]; simp)
    have hcm := Fu.particle_qv (hp p (by simp)) nq
    rw [falls_some (minimal_some h hcm rfl), falls_of h.suffix (fun q hq => hp q (by simp [hq])) ht]
    rfl

/-- A division gives the words. -/
theorem words_of {s : List Sound} {ws : List (List Char)} (h : Fi s) (hs : s ≠ []) (hd : DividesSounds ContentForm s ws) : singleWords (text s) = ws := by
  cases hd with
  | @particles ps hp =>
    have := falls_of (t := []) (by simpa using h) hp (.inl rfl)
    rw [List.append_nil] at this
    exact words_particles h (by rintro rfl; exact hs rfl) hp this
  | @content ps c d u w hp e hc =>
    subst e
    exact (words_CC h (falls_of h hp (.inr ⟨c, d, u, rfl⟩))).1 (.inr hc)
  | @joined ps p c d u w hp hpp e hc =>
    subst e
    have e : ps.flatten ++ (p ++ C c :: C d :: u) = (ps ++ [p]).flatten ++ C c :: C d :: u := by simp
    have e' : ps.flatten ++ (p ++ Sound.consonant c :: Sound.consonant d :: u) = (ps ++ [p]).flatten ++ C c :: C d :: u := e
    rw [e'] at h ⊢
    have hp' : ∀ q ∈ ps ++ [p], ParticleSounds q := by
      intro q hq
      rcases List.mem_append.mp hq with hq | hq
      · exact hp q hq
      · simp at hq; exact hq ▸ hpp
    exact (words_CC h (falls_of h hp' (.inr ⟨c, d, u, rfl⟩))).2 ps p rfl hc
  | @alone c d u => exact (words_CC (ps := []) h (falls_of (ps := []) h (by simp) (.inr ⟨c, d, u, rfl⟩))).1 (.inl rfl)

/-- There is a division. -/
theorem divisible {s : List Sound} (h : Fi s) (hq : ∀ c u, s ≠ .apostrophe c :: u) (content : List Char → Prop) : ∃ ws, DividesSounds content s ws := by
  obtain ⟨ps, t, e, h1, h2⟩ := particles_off _ (Nat.le_refl _) h hq
  subst e
  rcases h2 with rfl | ⟨c, d, u, rfl⟩
  · rw [List.append_nil]; exact ⟨_, .particles h1⟩
  · by_cases hc : content (text (C c :: C d :: u))
    · exact ⟨_, .content h1 rfl hc⟩
    · by_cases hne : ps = []
      · subst hne; exact ⟨_, .alone⟩
      · have ef : ps.flatten ++ C c :: C d :: u = ps.dropLast.flatten ++ (ps.getLast hne ++ C c :: C d :: u) := by
          conv => lhs; rw [← List.dropLast_concat_getLast hne]
          simp
        rw [ef]
        exact ⟨_, .joined (fun p hp => h1 p (List.dropLast_subset _ hp)) (h1 _ (List.getLast_mem hne)) rfl hc⟩

theorem well_ne {s : List Sound} (h : SoundsWell s) : s ≠ [] := by
  obtain ⟨a, g, rfl⟩ := h.ending
  simp

theorem chunk_words {c : List Char} {ws : List (List Char)} (h : DividesChunk ContentForm c ws) : singleWords c = ws := by
  cases h with
  | empty => exact divides_words .empty
  | name h1 h2 => exact divides_words (.name h1 h2)
  | words h1 h2 h3 => exact words_of (fi_of_well h1 h2) (well_ne h1) h3

end Div

/-- **C93.** If every chunk of a text is empty, ends in a consonant, or consists of sounds that go together and end in a vowel, without
y and capital vowels, then the words of the text are those the division of the chunks into particles and words with content
yields. -/
theorem C93_division (p : Profile) (input : Str) (h : input.len < 2 ^ 32) (chunks words : List (List Char))
    (hs : SplitsInto input.chars chunks) (hd : DividesChunks ContentForm chunks words) :
    ∃ spans, decomposeAll p input = .val spans ∧ TextsOf input spans words := by
  refine ⟨_, decomposeAll_eq p input h, ?_⟩
  have key : ∀ {cs ws}, DividesChunks ContentForm cs ws → cs.flatMap singleWords = ws := by
    intro cs ws hd
    induction hd with
    | nil => rfl
    | cons h _ ih => rw [List.flatMap_cons, Div.chunk_words h, ih]
  have ht := decomposed_texts input
  unfold wordTexts at ht
  rw [splitsInto_iff] at hs
  rw [← hs, key hd] at ht
  rw [← hs]
  exact ht

/-- **C93, one division.** Every such chunk is divided in exactly one way. -/
theorem C93_one_division (s : List Sound) (h : SoundsWell s) (hy : ∀ c ∈ s.flatMap Sound.letters, c ∉ c!"yYAEIOU") :
    ∃ ws, DividesSounds ContentForm s ws ∧ ∀ vs, DividesSounds ContentForm s vs → vs = ws := by
  have hf := Div.fi_of_well h hy
  have hq : ∀ c u, s ≠ .apostrophe c :: u := by
    rintro c u rfl
    exact h.start c rfl
  obtain ⟨ws, hw⟩ := Div.divisible hf hq ContentForm
  refine ⟨ws, hw, fun vs hv => ?_⟩
  rw [← Div.words_of hf (Div.well_ne h) hw, ← Div.words_of hf (Div.well_ne h) hv]

/-- **C93, fu'ivla.** Cmavo and then a fu'ivla, if the sounds go together: the fu'ivla stays whole. -/
theorem C93_fuhivla (ps : List (List Sound)) (t : List Sound) (hs : SoundsWell (ps.flatten ++ t))
    (hy : ∀ c ∈ (ps.flatten ++ t).flatMap Sound.letters, c ∉ c!"yYAEIOU") (hp : ∀ p ∈ ps, ParticleSounds p)
    (hf : IsFuhivlaForm (t.flatMap Sound.letters)) :
    DividesSounds ContentForm (ps.flatten ++ t) (ps.map (·.flatMap Sound.letters) ++ [t.flatMap Sound.letters]) := by
  have hfi := Div.fi_of_well hs hy
  have ht : Fu.Fi t := hfi.suffix
  have hcon : ∀ {v : List Sound}, Fu.Fi v → (ContentForm (Names.text v) ↔ Fu.IsContent (Names.text v)) := by
    intro v hv
    rw [← FForm.content_iff]
    exact (WForms.content_iff _ (fun k => (hv.letters ',' k).1 rfl) (Div.no_cap hv)).symm
  obtain ⟨s, h1, e, _, _, h4⟩ := hf
  have e : Names.text t = Names.text s := e
  have hys : ∀ c ∈ Names.text s, c ∉ c!"yYAEIOU" := by rw [← e]; exact Div.no_cap ht
  have h1' := (FForm.sounds_iff hys).mp h1
  have : t = s := Names.unique ht.good h1'.1.good e
  subst this
  have hq : ∀ c u, t ≠ .apostrophe c :: u := by rintro c u rfl; exact h1.start c rfl
  have hsn : t ≠ [] := by rintro rfl; obtain ⟨a, g, b, k, e⟩ := h1.vowels; simp at e
  have hn : ¬ FallsApart Fu.IsContent t := fun k => h4 (by
    refine FForm.apart_congr (p := fun v => v.length < (Names.text t).length ∧ ContentForm v) (fun w k => ⟨k.1, k.2⟩) ?_
    have : ∀ {v : List Sound} {P : List Char → Prop}, v.length ≤ t.length → Fu.Fi v → (∀ x ∈ v, x.WellFormed) → (Names.text v).length ≤ (Names.text t).length →
        FallsApart Fu.IsContent v → FallsApart (fun v => v.length < (Names.text t).length ∧ ContentForm v) v := by
      intro v P _ hv hw hl k
      induction k with
      | one h => exact .one h
      | @word s u h1 h2 h3 =>
        refine .word h1 h2 ⟨?_, (hcon hv.suffix).mpr h3⟩
        have := WForms.particle_ne h1 (fun x hx => hw x (by simp [hx]))
        have e : (Names.text (s ++ u)).length = (s.flatMap Sound.letters).length + (u.flatMap Sound.letters).length := by
          rw [Names.text_append, List.length_append]; rfl
        omega
      | @more s u h1 _ ih =>
        refine .more h1 (ih ?_ hv.suffix (fun x hx => hw x (by simp [hx])) ?_)
        · simp at *; omega
        · rw [Names.text_append, List.length_append] at hl; omega
    exact this (P := fun _ => True) (Nat.le_refl _) ht h1.wellFormed (Nat.le_refl _) k)
  rcases FForm.starts ht hsn hq with ⟨c, d, u, rfl⟩ | ⟨u, hu⟩
  · refine .content hp rfl ((WForms.content_eq _).mpr (.inr (.inr ?_)))
    exact ⟨_, h1, rfl, by assumption, by assumption, h4⟩
  · obtain ⟨p, rfl, hpp, hfu, _, hqu, _⟩ := Fu.cm_inv ht hu
    obtain ⟨c, d, r, rfl⟩ := FForm.after_particle rfl hpp hfu hqu h1'.2.2.2.2 hn
    have hnc : ¬ ContentForm (Names.text (Lj.C c :: Lj.C d :: r)) := fun k => hn (.word hpp hqu ((hcon hfu).mp k))
    have := DividesSounds.joined (content := ContentForm) hp hpp rfl hnc
    rw [List.flatMap_append]
    exact this

/-! ### Examples -/

/-- `lespageti`. -/
example (p : Profile) : ∃ spans, decomposeAll p ⟨0, c!"lespageti"⟩ = .val spans ∧ TextsOf ⟨0, c!"lespageti"⟩ spans [c!"le", c!"spageti"] := by
  have hf : IsFuhivlaForm c!"spageti" := ((C92_fuhivla ⟨0, c!"spageti"⟩ false (by decide)).mp (by decide +kernel)).2.2
  refine C93_division p ⟨0, c!"lespageti"⟩ (by decide) [c!"lespageti"] _ (by rw [splitsInto_iff]; decide) (.cons (wss := []) (ws := [c!"le", c!"spageti"]) ?_ .nil)
  obtain ⟨s, hs, e, _⟩ := id hf
  have e : c!"spageti" = Names.text s := e
  have hy : ∀ c ∈ Names.text s, c ∉ c!"yYAEIOU" := by rw [← e]; decide
  have hfi := ((FForm.sounds_iff hy).mp hs).1
  have heads : ∃ u, s = .consonant 's' :: u := by
    obtain ⟨u, h1, _⟩ := Fu.first_consonant hfi.good hfi.noDigit (c := 's') (by decide) e.symm
    exact ⟨u, h1⟩
  obtain ⟨u, rfl⟩ := heads
  have hw : SoundsWell ([[.consonant 'l', .vowels ['e']]].flatten ++ .consonant 's' :: u) := by
    obtain ⟨a, g, eg⟩ : ∃ a g, Sound.consonant 's' :: u = a ++ [.vowels g] := by
      obtain ⟨a, g, b, h, e⟩ := hs.vowels
      exact ⟨a ++ .vowels g :: b, h, by rw [e]; simp⟩
    have good : Names.Good (.consonant 'l' :: .vowels ['e'] :: .consonant 's' :: u) :=
      ⟨show 'l' ∈ allConsonants by decide, trivial, trivial, .inl ⟨'e', by decide, rfl⟩, trivial, trivial, hfi.good⟩
    have := (FForm.good_iff (s := .consonant 'l' :: .vowels ['e'] :: .consonant 's' :: u) ⟨g, by rw [eg]; simp [List.getLast?_cons]⟩).mp good
    refine ⟨this.1, this.2.1, this.2.2, ?_, by simp, ⟨.consonant 'l' :: .vowels ['e'] :: a, g, by rw [eg]; rfl⟩⟩
    intro c hc
    simp only [List.flatten_cons, List.flatten_nil, List.append_nil, List.mem_append, List.mem_cons, List.not_mem_nil, or_false, reduceCtorEq, false_or] at hc
    exact hs.digits c (by simp [hc])
  have e2 : Names.text ([[.consonant 'l', .vowels ['e']]].flatten ++ Sound.consonant 's' :: u) = c!"lespageti" := by
    rw [Names.text_append, ← e]; decide
  have k : ∀ c ∈ c!"lespageti", c ∉ c!"yYAEIOU" := by decide
  have hyl : ∀ c ∈ Names.text ([[.consonant 'l', .vowels ['e']]].flatten ++ Sound.consonant 's' :: u), c ∉ c!"yYAEIOU" := by
    rw [e2]; exact k
  have := C93_fuhivla [[.consonant 'l', .vowels ['e']]] (.consonant 's' :: u) hw hyl ?_ (show IsFuhivlaForm (Names.text (.consonant 's' :: u)) from e ▸ hf)
  · have hd := DividesChunk.words (content := ContentForm) hw hyl this
    have e3 : ([[Sound.consonant 'l', .vowels ['e']]].map (·.flatMap Sound.letters) ++ [(Sound.consonant 's' :: u).flatMap Sound.letters]) = [c!"le", c!"spageti"] := by
      have : (Sound.consonant 's' :: u).flatMap Sound.letters = c!"spageti" := e.symm
      rw [this]; decide
    rw [e3] at hd
    exact e2 ▸ hd
  · intro p hp
    simp at hp; subst hp; exact .consonant

end Sneturfahi.Props
