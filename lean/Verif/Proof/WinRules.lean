import Verif.Proof.WinTable
import Verif.Proof.Shape
import Verif.Proof.Classify
import Verif.Proof.RulesSim

/-!
# Patterns and the rules of `src/rules.rs`
-/

namespace Sneturfahi

open Derives

/-- The pattern of the texts with letters from these sets. -/
def winOf (sets : List (List Char)) : List Nat := sets.map maskOf

theorem winOf_has {sets : List (List Char)} {closed : Bool} {m r : List Char} (h : Fits sets m) (hr : closed = true → r = []) :
    InSets closed (winOf sets) (m ++ r) := by
  unfold winOf
  induction sets generalizing m with
  | nil =>
    cases m with
    | nil => exact hr
    | cons => cases h
  | cons s ss ih =>
    cases m with
    | nil => cases h
    | cons c m => exact ⟨by rw [testBit_maskOf]; simpa using h.1, ih h.2⟩

theorem fits_length {sets : List (List Char)} {m : List Char} (h : Fits sets m) : m.length = sets.length := by
  induction sets generalizing m with
  | nil => cases m with
    | nil => rfl
    | cons => cases h
  | cons s ss ih => cases m with
    | nil => cases h
    | cons c m => simp [ih h.2]

theorem win_says {closed : Bool} {rule : Rule} {ss : List Nat} {fuel : Nat} {o : WOut}
    (h : always o (winR closed grammarM fuel rule ss) = true) {cs : List Char} (hw : InSets closed ss cs) : o.Says cs (parseRule rule cs) :=
  win_all grammarM_ok h hw _ (derives_iff.mpr rfl)

/-- The rule fails on all texts of the pattern, and on what continues them. -/
theorem win_fail {rule : Rule} {sets : List (List Char)} {fuel : Nat}
    (h : always .fail (winR false grammarM fuel rule (winOf sets)) = true) {m : List Char} (r : List Char) (hm : Fits sets m) :
    parseRule rule (m ++ r) = none :=
  win_says h (winOf_has hm (fun h => by cases h))

/-- The rule fails on all texts of the pattern. -/
theorem win_fail_end {rule : Rule} {sets : List (List Char)} {fuel : Nat}
    (h : always .fail (winR true grammarM fuel rule (winOf sets)) = true) {m : List Char} (hm : Fits sets m) :
    parseRule rule m = none := by
  have := win_says h (winOf_has (r := []) hm (fun _ => rfl))
  rwa [List.append_nil] at this

/-- The rule takes `n` letters of all texts of the pattern, and of what continues them. -/
theorem win_ok {rule : Rule} {sets : List (List Char)} {fuel n : Nat}
    (h : always (.ok n) (winR false grammarM fuel rule (winOf sets)) = true) {m : List Char} (r : List Char) (hm : Fits sets m) :
    parseRule rule (m ++ r) = some ((m ++ r).take n, (m ++ r).drop n) :=
  win_says h (winOf_has hm (fun h => by cases h))

/-- The rule takes `n` letters of all texts of the pattern. -/
theorem win_ok_end {rule : Rule} {sets : List (List Char)} {fuel n : Nat}
    (h : always (.ok n) (winR true grammarM fuel rule (winOf sets)) = true) {m : List Char} (hm : Fits sets m) :
    parseRule rule m = some (m.take n, m.drop n) := by
  have := win_says h (winOf_has (r := []) hm (fun _ => rfl))
  rwa [List.append_nil] at this

theorem matchesAll_win {rule : Rule} {sets : List (List Char)} {fuel : Nat}
    (h : always (.ok sets.length) (winR true grammarM fuel rule (winOf sets)) = true) {m : List Char} (hm : Fits sets m) :
    matchesAll rule m = true := by
  unfold matchesAll
  rw [win_ok_end h hm, ← fits_length hm]
  simp

/-- The rule takes everything of no text of the pattern. -/
theorem matchesAll_win_not {rule : Rule} {sets : List (List Char)} {fuel : Nat}
    (h : never sets.length (winR true grammarM fuel rule (winOf sets)) = true) {m : List Char} (hm : Fits sets m) :
    matchesAll rule m = false := by
  have hh := winOf_has (r := []) hm (fun _ : true = true => rfl)
  rw [List.append_nil] at hh
  obtain ⟨x, hx, _, h2⟩ := winR_sound grammarM_ok fuel rule _ _ hh
  have h2 := h2 _ (derives_iff.mpr rfl)
  have hl := fits_length hm
  have key : ∀ k, k < sets.length → (m.drop k).isEmpty = false := by
    intro k hk
    rw [List.isEmpty_eq_false_iff]
    intro h0
    have := congrArg List.length h0
    simp at this
    omega
  unfold matchesAll
  rcases never_mem h hx with hx2 | ⟨k, hx2 | hx2, hk⟩
  · rw [hx2] at h2; rw [h2]
  · rw [hx2] at h2; rw [h2]; exact key k hk
  · rw [hx2] at h2
    rcases h2 with h2 | h2
    · rw [h2]
    · rw [h2]; exact key k hk

end Sneturfahi
