import Verif.Proof.Classify

/-!
# Facts about the cmavo table, checked by the kernel
-/

namespace Sneturfahi

/-- All arms. -/
def allArms : List Arm := armsBeforeY ++ armsAfterY

/-- Selmaho that only rules or the lexer produce. -/
def ruleSelmaho : List Selmaho := [.Gismu, .Fuhivla, .Lujvo, .Cmevla, .UnknownCmavo, .AnyText, .ZoiDelimiter]

theorem arms_selmaho : ∀ a ∈ allArms, a.selmaho ∉ ruleSelmaho := by decide +kernel

/-- The characters of table words. -/
def tableAlphabet : List Char := c!"abcdefgijklmnoprstuvxyz'0123456789"

/-! ### No word occurs twice -/

/-- A number that identifies the word. -/
def wordKey : List Char → Nat
  | [] => 1
  | c :: cs => wordKey cs * 256 + c.toNat

/-- Are the numbers pairwise different?  Split by bit `i`, then by the next one, and so on. -/
def distinct : Nat → Nat → List Nat → Bool
  | _, _, [] => true
  | _, _, [_] => true
  | 0, _, _ => false
  | fuel + 1, i, l =>
    distinct fuel (i + 1) (l.filter (fun n => n.testBit i)) &&
      distinct fuel (i + 1) (l.filter (fun n => !n.testBit i))

theorem distinct_nodup : ∀ (fuel i : Nat) (l : List Nat), distinct fuel i l = true → l.Nodup := by
  intro fuel
  induction fuel with
  | zero =>
    intro i l h
    match l, h with
    | [], _ => simp
    | [_], _ => simp
    | _ :: _ :: _, h => simp [distinct] at h
  | succ fuel ih =>
    intro i l h
    match l, h with
    | [], _ => simp
    | [_], _ => simp
    | x :: y :: l, h =>
      simp only [distinct, Bool.and_eq_true] at h
      have h1 := ih _ _ h.1
      have h2 := ih _ _ h.2
      generalize x :: y :: l = l at h1 h2
      clear h
      induction l with
      | nil => simp
      | cons a l ihl =>
        by_cases ha : a.testBit i
        · rw [List.filter_cons_of_pos (p := fun n : Nat => n.testBit i) ha] at h1
          rw [List.filter_cons_of_neg (by simp [ha])] at h2
          simp only [List.nodup_cons] at h1 ⊢
          refine ⟨fun hm => h1.1 ?_, ihl h1.2 h2⟩
          simp [hm, ha]
        · rw [List.filter_cons_of_neg (p := fun n : Nat => n.testBit i) ha] at h1
          rw [List.filter_cons_of_pos (by simp [ha])] at h2
          simp only [List.nodup_cons] at h2 ⊢
          refine ⟨fun hm => h2.1 ?_, ihl h1 h2.2⟩
          simp [hm, ha]

def tableWords : List (List Char) := allArms.flatMap Arm.words

theorem tableWords_distinct : distinct 200 0 (tableWords.map wordKey) = true := by decide +kernel

theorem tableWords_nodup : tableWords.Nodup := by
  have h := distinct_nodup _ _ _ tableWords_distinct
  rw [List.Nodup, List.pairwise_map] at h
  exact h.imp (fun h e => h (by rw [e]))

theorem lookup_none {arms : List Arm} {w : List Char} (h : w ∉ arms.flatMap Arm.words) : lookupArms arms w = none := by
  unfold lookupArms
  have : arms.find? (fun a => a.words.contains w) = none := by
    rw [List.find?_eq_none]
    intro a ha hc
    exact h (List.mem_flatMap.mpr ⟨a, ha, by simpa using hc⟩)
  rw [this]

theorem lookup_some {arms : List Arm} (hn : (arms.flatMap Arm.words).Nodup) {a : Arm} (ha : a ∈ arms)
    {w : List Char} (hw : w ∈ a.words) : lookupArms arms w = some (a.selmaho, a.experimental) := by
  induction arms with
  | nil => simp at ha
  | cons b arms ih =>
    rw [List.flatMap_cons, List.nodup_append] at hn
    by_cases hb : w ∈ b.words
    · have hab : a = b := by
        rcases List.mem_cons.mp ha with h | h
        · exact h
        · exact absurd rfl (hn.2.2 w hb w (List.mem_flatMap.mpr ⟨a, h, hw⟩))
      subst hab
      unfold lookupArms
      rw [List.find?_cons_of_pos (by simpa using hb)]
    · have h : a ∈ arms := by
        rcases List.mem_cons.mp ha with h | h
        · subst h; exact absurd hw hb
        · exact h
      have := ih hn.2.1 h
      unfold lookupArms at this ⊢
      rwa [List.find?_cons_of_neg (by simpa using hb)]

/-! ### The letters of table words -/

def isY (w : List Char) : Bool := !w.isEmpty && w.all (fun c => c == 'y')

theorem before_noY : (armsBeforeY.flatMap Arm.words).all (fun w => !w.isEmpty && !isY w) = true := by
  decide +kernel

theorem after_noY : (armsAfterY.flatMap Arm.words).all (fun w => !w.isEmpty && !isY w) = true := by
  decide +kernel

theorem tableWords_chars :
    tableWords.all (fun w => w.all (fun c => tableAlphabet.contains c) || w == c!" vi'ei'e") = true := by
  decide +kernel

/-- What a table lookup can answer. -/
theorem lookupDirect_some {w : List Char} {r : Selmaho × Bool} (h : lookupDirect w = some r) :
    (∃ a ∈ allArms, w ∈ a.words ∧ r = (a.selmaho, a.experimental)) ∨ (isY w = true ∧ r = (.Y, false)) := by
  have key : ∀ {arms : List Arm} {r}, lookupArms arms w = some r →
      ∃ a ∈ arms, w ∈ a.words ∧ r = (a.selmaho, a.experimental) := by
    intro arms r h
    unfold lookupArms at h
    split at h
    · rename_i a ha
      cases h
      exact ⟨a, List.mem_of_find?_eq_some ha, by simpa using List.find?_some ha, rfl⟩
    · cases h
  unfold lookupDirect at h
  split at h
  · rename_i r' hr
    cases h
    obtain ⟨a, h1, h2⟩ := key hr
    exact Or.inl ⟨a, by simp [allArms, h1], h2⟩
  · split at h
    · rename_i hy
      cases h
      exact Or.inr ⟨hy, rfl⟩
    · obtain ⟨a, h1, h2⟩ := key h
      exact Or.inl ⟨a, by simp [allArms, h1], h2⟩

theorem lookupDirect_arm {a : Arm} (ha : a ∈ allArms) {w : List Char} (hw : w ∈ a.words) :
    lookupDirect w = some (a.selmaho, a.experimental) := by
  have hn := tableWords_nodup
  rw [tableWords, allArms, List.flatMap_append, List.nodup_append] at hn
  rw [allArms, List.mem_append] at ha
  unfold lookupDirect
  rcases ha with ha | ha
  · rw [lookup_some hn.1 ha hw]
  · have hwm : w ∈ armsAfterY.flatMap Arm.words := List.mem_flatMap.mpr ⟨a, ha, hw⟩
    rw [lookup_none (fun hb => hn.2.2 w hb w hwm rfl)]
    have h1 := List.all_eq_true.mp after_noY w hwm
    simp only [Bool.and_eq_true, Bool.not_eq_true', isY] at h1
    simp only [h1.2]
    rw [lookup_some hn.2.1 ha hw]
    simp

theorem lookupDirect_y {w : List Char} (h : isY w = true) : lookupDirect w = some (.Y, false) := by
  unfold lookupDirect
  rw [lookup_none]
  · unfold isY at h
    simp [h]
  · intro hm
    have h1 := List.all_eq_true.mp before_noY w hm
    simp only [Bool.and_eq_true, Bool.not_eq_true', h] at h1
    exact absurd h1.2 (by simp)

end Sneturfahi
