import Verif.Props.Fuhivla
import Verif.Props.Words

/-!
# The class of every word without y (C92)
-/

namespace Sneturfahi.Props

open Spec Derives

/-- The form of a word with content: of a gismu, of a lujvo, or of a fu'ivla. What a fu'ivla must not fall apart into is defined
by the same forms, for shorter words. -/
def ContentForm (w : List Char) : Prop :=
  GismuExact w ∨ LujvoForm w ∨ FuhivlaForm (fun v => ∃ _ : v.length < w.length, ContentForm v) w
termination_by w.length

/-- The form of a fu'ivla, in terms of letters only. -/
def IsFuhivlaForm (w : List Char) : Prop := FuhivlaForm (fun v => ∃ _ : v.length < w.length, ContentForm v) w

namespace WForms

attribute [local irreducible] parseRule

theorem content_eq (w : List Char) : ContentForm w ↔ GismuExact w ∨ LujvoForm w ∨ IsFuhivlaForm w := by
  rw [ContentForm]; rfl

theorem particle_ne {s : List Sound} (h : ParticleSounds s) (hw : ∀ x ∈ s, x.WellFormed) : 0 < (s.flatMap Sound.letters).length := by
  have vg : ∀ {g}, VowelGroup g → 0 < g.length := by
    rintro g (⟨v, _, rfl⟩ | ⟨v, _, w, _, rfl⟩ | ⟨v, _, w, _, rfl⟩) <;> simp
  induction h with
  | vowels => simpa [Sound.letters] using vg (hw _ (List.mem_cons_self ..))
  | glide => simp [Sound.letters]
  | consonant => simp [Sound.letters]
  | more _ ih => simp [Sound.letters]; omega

/-- Only shorter words matter. -/
theorem apart_shorter {P Q : List Char → Prop} {s : List Sound} (hw : ∀ x ∈ s, x.WellFormed)
    (h : ∀ v : List Char, v.length < (s.flatMap Sound.letters).length → (∀ c ∈ v, c ∈ s.flatMap Sound.letters) → P v → Q v)
    (k : FallsApart P s) : FallsApart Q s := by
  induction k with
  | one h1 => exact .one h1
  | @word s t h1 h2 h3 =>
    refine .word h1 h2 (h _ ?_ ?_ h3)
    · have := particle_ne h1 (fun x hx => hw x (by simp [hx]))
      simp only [List.flatMap_append, List.length_append]; omega
    · intro c hc; simp only [List.flatMap_append, List.mem_append]; exact .inr hc
  | @more s t h1 _ ih =>
    refine .more h1 (ih (fun x hx => hw x (by simp [hx])) ?_)
    intro v hv hm
    refine h v ?_ ?_
    · simp only [List.flatMap_append, List.length_append]; omega
    · intro c hc; simp only [List.flatMap_append, List.mem_append]; exact .inr (hm c hc)

theorem form_shorter {P Q : List Char → Prop} {w : List Char}
    (h : ∀ v : List Char, v.length < w.length → (∀ c ∈ v, c ∈ w) → (P v ↔ Q v)) : FuhivlaForm P w ↔ FuhivlaForm Q w := by
  constructor
  · rintro ⟨s, hs, e, h1, h2, h3⟩
    subst e
    exact ⟨s, hs, rfl, h1, h2, fun k => h3 (apart_shorter hs.wellFormed (fun v a b => (h v a b).mpr) k)⟩
  · rintro ⟨s, hs, e, h1, h2, h3⟩
    subst e
    exact ⟨s, hs, rfl, h1, h2, fun k => h3 (apart_shorter hs.wellFormed (fun v a b => (h v a b).mp) k)⟩

/-- Words with content are those of their form. -/
theorem content_iff (w : List Char) (hc : ',' ∉ w) (hy : ∀ c ∈ w, c ∉ c!"yYAEIOU") : ContentWord w ↔ ContentForm w := by
  have e1 : w.filter (fun c => c != ',') = w := List.filter_eq_self.mpr (by
    intro c hm; simp; rintro rfl; exact hc hm)
  have e2 : w.getLast? ≠ some ',' := fun e => hc (List.mem_of_getLast? e)
  rw [content_eq]
  have hg := C60_gismu_iff ⟨0, w⟩ false
  have hl := C85_exactly ⟨0, w⟩ false hy
  have hf := C90_fuhivla ⟨0, w⟩ false hy
  have hs : FuhivlaForm ContentWord w ↔ IsFuhivlaForm w := form_shorter (fun v hv hm => by
    rw [content_iff v (fun k => hc (hm _ k)) (fun c k => hy c (hm c k))]
    exact ⟨fun k => ⟨hv, k⟩, fun ⟨_, k⟩ => k⟩)
  simp only [e1, e2, true_and, ne_eq, not_false_eq_true] at hg hl hf
  rw [← hg, ← hl, ← hs, ← hf]
  simp [ContentWord]
termination_by w.length

end WForms

/-- **C92, fu'ivla.** The form of fu'ivla in terms of letters only. -/
theorem C92_fuhivla (word : Str) (x : Bool) (hy : ∀ c ∈ word.chars, c ∉ c!"yYAEIOU") : classify word = .val (.Fuhivla, x) ↔
    x = false ∧ word.chars.getLast? ≠ some ',' ∧ IsFuhivlaForm (word.chars.filter (fun c => c != ',')) := by
  rw [C90_fuhivla word x hy]
  have : FuhivlaForm ContentWord (word.chars.filter (fun c => c != ',')) ↔ IsFuhivlaForm (word.chars.filter (fun c => c != ',')) :=
    WForms.form_shorter (fun v hv hm => by
      rw [WForms.content_iff v (fun k => by simpa using (List.mem_filter.mp (hm _ k)).2) (fun c k => hy c (List.mem_filter.mp (hm c k)).1)]
      exact ⟨fun k => ⟨hv, k⟩, fun ⟨_, k⟩ => k⟩)
  rw [this]

/-- **C92.** A word without y, capital vowels and spaces that does not end in a comma is unclassifiable if and only if, commas aside,
it has none of the forms of words. -/
theorem C92_any_text (word : Str) (hy : ∀ c ∈ word.chars, c ∉ c!"yYAEIOU ") (ht : word.chars.getLast? ≠ some ',') (w : List Char)
    (hw : w = word.chars.filter (fun c => c != ',')) : (∃ x, classify word = .val (.AnyText, x)) ↔
    ¬ CmavoForm w ∧ ¬ NameForm w ∧ ¬ GismuExact w ∧ ¬ LujvoForm w ∧ ¬ IsFuhivlaForm w := by
  subst hw
  have sub : ∀ c ∈ c!"yYAEIOU", c ∈ c!"yYAEIOU " := by decide
  have hyv : ∀ c ∈ word.chars, c ∉ c!"yYAEIOU" := fun c hc k => hy c hc (sub c k)
  have hsp : ' ' ∉ word.chars := fun k => hy _ k (by decide)
  have hn := C83_names word false
  have hg := C60_gismu_iff word false
  have hl := C85_exactly word false hyv
  have hf := C92_fuhivla word false hyv
  simp only [ht, true_and, ne_eq, not_false_eq_true] at hn hg hl hf
  rw [← hn, ← hg, ← hl, ← hf]
  constructor
  · rintro ⟨x, h⟩
    rw [h]
    refine ⟨fun k => ?_, by simp, by simp, by simp, by simp⟩
    exact absurd (C71_all_of_that_form word _ _ h ht k) (by decide)
  · rintro ⟨h1, h2, h3, h4, h5⟩
    obtain ⟨⟨s, x⟩, h⟩ : ∃ r, classify word = .val r := ⟨_, classify_eq word⟩
    by_cases hs : s ∉ [Selmaho.Gismu, .Lujvo, .Fuhivla, .Cmevla, .AnyText]
    · exact absurd (C71_only_that_form word s x h hsp hs) h1
    · have hs := Classical.not_not.mp hs
      have e : x = false ∨ s = .AnyText := by
        simp only [List.mem_cons, List.not_mem_nil, or_false] at hs
        rcases hs with rfl | rfl | rfl | rfl | rfl
        · exact .inl ((C60_gismu_iff word x).mp h).1
        · exact .inl ((C85_exactly word x hyv).mp h).1
        · exact .inl ((C92_fuhivla word x hyv).mp h).1
        · exact .inl ((C83_names word x).mp h).1
        · exact .inr rfl
      simp only [List.mem_cons, List.not_mem_nil, or_false] at hs
      rcases e with rfl | rfl
      · rcases hs with rfl | rfl | rfl | rfl | rfl
        · exact absurd h h3
        · exact absurd h h4
        · exact absurd h h5
        · exact absurd h h2
        · exact ⟨_, h⟩
      · exact ⟨_, h⟩

/-- **C92, no two forms.** Of the five forms, a text without y, capital vowels, spaces and commas has at most one. -/
theorem C92_one_form (w : List Char) (hy : ∀ c ∈ w, c ∉ c!"yYAEIOU ,") :
    [CmavoForm w, NameForm w, GismuExact w, LujvoForm w, IsFuhivlaForm w].Pairwise (fun p q => ¬ (p ∧ q)) := by
  have sub : ∀ c ∈ c!"yYAEIOU", c ∈ c!"yYAEIOU ," := by decide
  have hyv : ∀ c ∈ w, c ∉ c!"yYAEIOU" := fun c hc k => hy c hc (sub c k)
  have hc : ',' ∉ w := fun k => hy _ k (by decide)
  have e1 : w.filter (fun c => c != ',') = w := List.filter_eq_self.mpr (by
    intro c hm; simp; rintro rfl; exact hc hm)
  have e2 : w.getLast? ≠ some ',' := fun e => hc (List.mem_of_getLast? e)
  have hm : ∀ s x, classify ⟨0, w⟩ = .val (s, x) → CmavoForm w → s ∉ [Selmaho.Gismu, .Lujvo, .Fuhivla, .Cmevla, .AnyText] :=
    fun s x h k => C71_all_of_that_form ⟨0, w⟩ s x h e2 (e1.symm ▸ k)
  have hn := C83_names ⟨0, w⟩ false
  have hg := C60_gismu_iff ⟨0, w⟩ false
  have hl := C85_exactly ⟨0, w⟩ false hyv
  have hf := C92_fuhivla ⟨0, w⟩ false hyv
  simp only [e1, e2, true_and, ne_eq, not_false_eq_true] at hn hg hl hf
  rw [← hn, ← hg, ← hl, ← hf]
  simp only [List.pairwise_cons, List.mem_cons, List.not_mem_nil, or_false, forall_eq_or_imp, forall_eq, not_and, List.Pairwise.nil,
    and_true, false_implies, implies_true]
  refine ⟨⟨fun k h => absurd (hm _ _ h k) (by decide), fun k h => absurd (hm _ _ h k) (by decide),
    fun k h => absurd (hm _ _ h k) (by decide), fun k h => absurd (hm _ _ h k) (by decide)⟩, ⟨?_, ?_, ?_⟩, ⟨?_, ?_⟩, ?_⟩ <;>
  · intro h; rw [h]; simp

/-! Examples: a fu'ivla, and words of no form. -/

example : IsFuhivlaForm c!"spageti" :=
  ((C92_fuhivla ⟨0, c!"spageti"⟩ false (by decide)).mp (by decide +kernel)).2.2

example : ¬ CmavoForm c!"nae" ∧ ¬ NameForm c!"nae" ∧ ¬ GismuExact c!"nae" ∧ ¬ LujvoForm c!"nae" ∧ ¬ IsFuhivlaForm c!"nae" :=
  (C92_any_text ⟨0, c!"na,e"⟩ (by decide) (by decide) c!"nae" (by decide)).mp ⟨false, by decide +kernel⟩

end Sneturfahi.Props
