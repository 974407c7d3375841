import Verif.Proof.Never
import Verif.Props.WordForms

/-!
# No y in fu'ivla, no digits in brivla (C94)
-/

namespace Sneturfahi.Props

open Spec Derives

attribute [local irreducible] parseRule

theorem brivla_by_rule {word : Str} {s : Selmaho} {x : Bool} (h : classify word = .val (s, x)) (hs : s ∈ [Selmaho.Gismu, .Lujvo, .Fuhivla]) :
    ∃ rule ∈ [Rule.gismu, .lujvo_minimal, .fuhivla], (s = .Fuhivla → rule = .fuhivla) ∧ parseRule rule word.chars = some (word.chars, []) := by
  simp only [List.mem_cons, List.not_mem_nil, or_false] at hs
  rcases hs with rfl | rfl | rfl
  all_goals
    obtain ⟨rule, hr, hp⟩ := classify_rule h (by decide) (by decide)
    simp at hr
    subst hr
    exact ⟨_, by decide, by decide, hp⟩

/-- **C94.** A word classified as a fu'ivla contains no y. -/
theorem C94_no_y (word : Str) (x : Bool) (h : classify word = .val (.Fuhivla, x)) : ∀ c ∈ word.chars, c ∉ c!"yY" := by
  obtain ⟨rule, _, hr, hp⟩ := brivla_by_rule h (by decide)
  rw [hr rfl] at hp
  intro c hc hm
  have := neverY_sound rfl hp c hc
  simp only [yLetter, List.contains_eq_mem, decide_eq_false_iff_not] at this
  exact this hm

/-- **C94, digits.** A word classified as a gismu, lujvo or fu'ivla contains no digit. -/
theorem C94_no_digits (word : Str) (s : Selmaho) (x : Bool) (h : classify word = .val (s, x)) (hs : s ∈ [Selmaho.Gismu, .Lujvo, .Fuhivla]) :
    ∀ c ∈ word.chars, c ∉ c!"0123456789" := by
  obtain ⟨rule, hr, _, hp⟩ := brivla_by_rule h hs
  have hn : ∀ r ∈ [Rule.gismu, .lujvo_minimal, .fuhivla], neverD r = true := by decide
  intro c hc hm
  have := neverD_sound (hn rule hr) hp c hc
  simp only [digitLetter, List.contains_eq_mem, decide_eq_false_iff_not] at this
  exact this hm

/-- **C94, the form of fu'ivla.** So the form of C92 is the form of all fu'ivla without capital vowels, y or not. -/
theorem C94_fuhivla (word : Str) (x : Bool) (hcap : ∀ c ∈ word.chars, c ∉ c!"AEIOU") : classify word = .val (.Fuhivla, x) ↔
    x = false ∧ word.chars.getLast? ≠ some ',' ∧ (∀ c ∈ word.chars, c ∉ c!"yY") ∧ IsFuhivlaForm (word.chars.filter (fun c => c != ',')) := by
  have k : ∀ c ∈ c!"yYAEIOU", c ∈ c!"yY" ∨ c ∈ c!"AEIOU" := by decide
  have hy : (∀ c ∈ word.chars, c ∉ c!"yY") → ∀ c ∈ word.chars, c ∉ c!"yYAEIOU" := by
    intro h c hc hm
    rcases k c hm with hm | hm
    · exact h c hc hm
    · exact hcap c hc hm
  constructor
  · intro h
    have h1 := C94_no_y word x h
    obtain ⟨a, b, c⟩ := (C92_fuhivla word x (hy h1)).mp h
    exact ⟨a, b, h1, c⟩
  · rintro ⟨a, b, h1, c⟩
    exact (C92_fuhivla word x (hy h1)).mpr ⟨a, b, c⟩

example : ∀ c ∈ c!"spageti", c ∉ c!"yY" := C94_no_y ⟨0, c!"spageti"⟩ false (by decide +kernel)
-- y is a letter of gismu and lujvo
example : classify ⟨0, c!"brydi"⟩ = .val (.Gismu, false) ∧ classify ⟨0, c!"tobybau"⟩ = .val (.Lujvo, false) := by decide +kernel

end Sneturfahi.Props
