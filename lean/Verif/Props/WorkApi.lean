import Verif.Proof.Spends
import Verif.Props.Decompose
import Verif.Props.Lex
import Verif.Props.Classify

/-!
# C101 for the functions a user calls
-/

namespace Sneturfahi.Props

open Spec

theorem width_lt {m : TraceMsg} {n : Nat} (h : m.width < 2 * (0 + ruleDepth n)) : m.width < 256 * (n + 1) := by
  unfold ruleDepth at h
  omega

/-- **C101.** Splitting a text of `n` characters into words writes at most `16 ^ (132 (n + 1))` messages about calls of rule
functions, and they are indented by less than `256 (n + 1)`: by two for each call that is not finished, so that there are never more than
`128 (n + 1)` of those at a time. -/
theorem C101_words (p : Profile) (input : Str) (h : input.len < 2 ^ 32) :
    ∃ words msgs, decomposeAll p input = .val words ∧ decomposeAllT p input ⟨0, []⟩ = .val (words, ⟨0, msgs⟩) ∧
      msgs.length ≤ 16 ^ (132 * (input.chars.length + 1)) ∧ ∀ m ∈ msgs, m.width < 256 * (input.chars.length + 1) := by
  obtain ⟨words, hw⟩ := C20_terminates input h
  obtain ⟨msgs, h1, h2⟩ := spends_decomposeAll p input ⟨0, []⟩
  rw [(hw p).1] at h1 h2
  exact ⟨words, msgs, (hw p).1, by simpa [Exec.map] using h2, Nat.le_trans (h1 _ rfl).1 (wordsCost_le _), fun m hm => width_lt ((h1 _ rfl).2.1 m hm)⟩

/-- **C101.** And lexing it at most `16 ^ (133 (n + 1))`. -/
theorem C101_items (p : Profile) (input : Str) (h : input.len < 2 ^ 32) :
    ∃ items msgs, lexAll p input = .val items ∧ lexAllT p input ⟨0, []⟩ = .val (items, ⟨0, msgs⟩) ∧
      msgs.length ≤ 16 ^ (133 * (input.chars.length + 1)) ∧ ∀ m ∈ msgs, m.width < 256 * (input.chars.length + 1) := by
  obtain ⟨items, hi⟩ := C33_terminates input h
  obtain ⟨msgs, h1, h2⟩ := spends_lexAll p input ⟨0, []⟩
  rw [(hi p).1] at h1 h2
  exact ⟨items, msgs, (hi p).1, by simpa [Exec.map] using h2, Nat.le_trans (h1 _ rfl).1 (itemsCost_le _), fun m hm => width_lt ((h1 _ rfl).2.1 m hm)⟩

/-- **C101.** Classifying a word of `n` characters writes at most `10 * 16 ^ (129 (n + 1))`, as many as five rules may. -/
theorem C101_class (word : Str) :
    ∃ a msgs, classify word = .val a ∧ classifyT word ⟨0, []⟩ = .val (a, ⟨0, msgs⟩) ∧ msgs.length ≤ 10 * 16 ^ (129 * (word.chars.length + 1)) ∧
      ∀ m ∈ msgs, m.width < 256 * (word.chars.length + 1) := by
  obtain ⟨a, ha⟩ := C08_classify_total word.chars
  have ha : classify word = .val a := ha word.ptr
  obtain ⟨msgs, h1, h2⟩ := spends_classify (n := word.chars.length) (s := word) (Nat.le_refl _) ⟨0, []⟩
  refine ⟨a, msgs, ha, by rw [h2, ha]; simp [Exec.map], ?_, fun m hm => width_lt ((h1 a ha).2.1 m hm)⟩
  have := (h1 a ha).1
  unfold ruleCost at this
  omega

/-- Classifying `zasti` writes 266 messages; `mi` is in the table of cmavo: none. -/
theorem C101_class_example :
    (match classifyT ⟨0, c!"zasti"⟩ ⟨0, []⟩, classifyT ⟨0, c!"mi"⟩ ⟨0, []⟩ with
    | .val (_, u), .val (_, v) => (u.log.length, v.log.length)
    | _, _ => (0, 0)) = (266, 0) := by decide +kernel

end Sneturfahi.Props
