import Verif.Proof.WordSim
import Verif.Spec.Text

/-!
# Where chunks and words are in the text
-/

namespace Sneturfahi

open Spec

theorem isSep_iff (c : Char) : isSep c = true ↔ IsSeparator c := by
  simp [isSep, IsSeparator]

theorem isSep_false_iff (c : Char) : isSep c = false ↔ ¬ IsSeparator c := by
  rw [← isSep_iff]; simp

theorem chunks_splitsInto (cs : List Char) : SplitsInto cs (chunks cs) := by
  induction cs with
  | nil => exact .last (by simp [NoSeparator])
  | cons c cs ih =>
    simp only [chunks]
    split
    · rename_i h
      exact SplitsInto.cons (w := []) (by simp [NoSeparator]) ((isSep_iff c).mp h) ih
    · rename_i h
      have h' : ¬ IsSeparator c := by rwa [isSep_iff] at h
      generalize chunks cs = ws at ih
      cases ih with
      | last hw =>
        exact .last (by intro x hx; simp at hx; rcases hx with rfl | hx; exact h'; exact hw x hx)
      | @cons w s rest ws hw hs hr =>
        exact SplitsInto.cons (w := c :: w)
          (by intro x hx; simp at hx; rcases hx with rfl | hx; exact h'; exact hw x hx) hs hr

theorem chunks_append_sep (a : List Char) {s : Char} (hs : IsSeparator s) (b : List Char) :
    chunks (a ++ s :: b) = chunks a ++ chunks b := by
  induction a with
  | nil => simp [chunks, (isSep_iff s).mpr hs]
  | cons c a ih =>
    simp only [List.cons_append, chunks]
    split
    · simp [ih]
    · rw [ih]
      cases h : chunks a with
      | nil => exact absurd h (chunks_ne_nil a)
      | cons w ws => rfl

theorem chunks_noSep {a : List Char} (h : NoSeparator a) : chunks a = [a] := by
  induction a with
  | nil => rfl
  | cons c a ih =>
    have hc : isSep c = false := (isSep_false_iff c).mpr (h c (by simp))
    simp only [chunks, hc]
    rw [ih (fun x hx => h x (by simp [hx]))]
    simp

theorem splitsInto_chunks {cs : List Char} {ws : List (List Char)} (h : SplitsInto cs ws) : ws = chunks cs := by
  induction h with
  | last h => rw [chunks_noSep h]
  | cons h1 h2 _ ih => rw [chunks_append_sep _ h2, chunks_noSep h1, ← ih]; rfl

theorem splitsInto_iff {cs : List Char} {ws : List (List Char)} : SplitsInto cs ws ↔ ws = chunks cs :=
  ⟨splitsInto_chunks, fun h => h ▸ chunks_splitsInto cs⟩

theorem chunks_cons {cs c : List Char} {rest : List (List Char)} (h : chunks cs = c :: rest) :
    NoSeparator c ∧ ((rest = [] ∧ cs = c) ∨
      ∃ s t, IsSeparator s ∧ cs = c ++ s :: t ∧ chunks t = rest) := by
  have h1 := chunks_splitsInto cs
  rw [h] at h1
  cases h1 with
  | last hw => exact ⟨hw, Or.inl ⟨rfl, rfl⟩⟩
  | @cons w s t ws h1 h2 h3 => exact ⟨h1, Or.inr ⟨s, t, h2, rfl, (splitsInto_chunks h3).symm⟩⟩

/-- The place of a chunk in the text. -/
theorem chunks_at {ds : List (List Char)} {cs c : List Char} {rest : List (List Char)}
    (h : chunks cs = ds ++ c :: rest) :
    ∃ pre post, cs = pre ++ c ++ post ∧ byteLen pre = offsetOf ds ∧ NoSeparator c ∧
      ((rest = [] ∧ post = []) ∨ ∃ s t, IsSeparator s ∧ post = s :: t ∧ chunks t = rest) := by
  induction ds generalizing cs with
  | nil =>
    obtain ⟨h1, ⟨h2, h3⟩ | ⟨s, t, h2, h3, h4⟩⟩ := chunks_cons (by simpa using h)
    · exact ⟨[], [], by simp [h3], rfl, h1, Or.inl ⟨h2, rfl⟩⟩
    · exact ⟨[], s :: t, by simp [h3], rfl, h1, Or.inr ⟨s, t, h2, rfl, h4⟩⟩
  | cons d ds ih =>
    obtain ⟨h1, ⟨h2, h3⟩ | ⟨s, t, h2, h3, h4⟩⟩ := chunks_cons (by simpa using h)
    · simp at h2
    · obtain ⟨pre, post, e1, e2, e3, e4⟩ := ih h4
      refine ⟨d ++ s :: pre, post, by simp [h3, e1], ?_, e3, e4⟩
      simp [offsetOf, e2, isSep_size ((isSep_iff s).mpr h2), Nat.add_assoc]

/-! ### Slices -/

theorem slice_mid (base : Nat) (pre mid post : List Char) :
    Span.slice ⟨byteLen pre, byteLen pre + byteLen mid⟩ ⟨base, pre ++ mid ++ post⟩ =
      some ⟨base + byteLen pre, mid⟩ := by
  simp only [Span.slice, Str.get]
  rw [if_pos (by omega), ← byteLen_append, splitBytes_append (pre ++ mid) post]
  simp only
  rw [splitBytes_append]

theorem slice_inv {base : Nat} {cs : List Char} {sp : Span} {t : Str} (h : sp.slice ⟨base, cs⟩ = some t) :
    ∃ pre post, cs = pre ++ t.chars ++ post ∧ t.ptr = base + byteLen pre ∧ sp.start = byteLen pre ∧
      sp.stop = byteLen pre + byteLen t.chars := by
  simp only [Span.slice, Str.get] at h
  split at h
  · cases h1 : splitBytes cs sp.stop with
    | none => simp [h1] at h
    | some x =>
      obtain ⟨a, b⟩ := x
      simp only [h1] at h
      cases h2 : splitBytes a sp.start with
      | none => simp [h2] at h
      | some y =>
        obtain ⟨c, d⟩ := y
        simp only [h2, Option.some.injEq] at h
        subst h
        obtain ⟨e1, e2⟩ := splitBytes_eq_some.mp h1
        obtain ⟨e3, e4⟩ := splitBytes_eq_some.mp h2
        refine ⟨c, b, ?_, ?_, e4.symm, ?_⟩
        · simp only [← e1, ← e3]
        · simp only [e4]
        · rw [← e2, ← e3]; simp
  · simp at h

theorem layout_texts (base : Nat) (pre : List Char) (ws : List (List Char)) (post : List Char) :
    TextsOf ⟨base, pre ++ ws.flatten ++ post⟩ (layout (byteLen pre) ws) ws := by
  induction ws generalizing pre with
  | nil => rfl
  | cons w ws ih =>
    have h1 := slice_mid base pre w (ws.flatten ++ post)
    have h2 := ih (pre ++ w)
    simp only [TextsOf, layout, List.map_cons, List.flatten_cons, byteLen_append] at h2 ⊢
    simp only [List.append_assoc] at h1 h2 ⊢
    rw [h1, h2]
    rfl

theorem textsOf_append {input : Str} {a b : List Span} {ta tb : List (List Char)} (ha : TextsOf input a ta)
    (hb : TextsOf input b tb) : TextsOf input (a ++ b) (ta ++ tb) := by
  unfold TextsOf at *
  rw [List.map_append, List.map_append, ha, hb]

/-- The words of a text, as texts. -/
def wordTexts (cs : List Char) : List (List Char) := (chunks cs).flatMap singleWords

/-- The words of the chunk `c` at its place in the text. -/
theorem chunkWords_texts (base : Nat) (pre c post : List Char) :
    TextsOf ⟨base, pre ++ c ++ post⟩ (layout (byteLen pre) (singleWords c)) (singleWords c) := by
  obtain ⟨k, _, h⟩ := singleWords_flatten c
  have := layout_texts base pre (singleWords c) (k ++ post)
  rw [← List.append_assoc, List.append_assoc pre, ← h] at this
  exact this

theorem spansAt_texts (base : Nat) (rest : List (List Char)) : ∀ pre cs, chunks cs = rest →
    TextsOf ⟨base, pre ++ cs⟩ (spansAt (byteLen pre) rest) (rest.flatMap singleWords) := by
  induction rest with
  | nil => intro pre cs h; exact absurd h (chunks_ne_nil cs)
  | cons c rest ih =>
    intro pre cs h
    simp only [spansAt, List.flatMap_cons]
    obtain ⟨_, ⟨h2, h3⟩ | ⟨s, t, h2, h3, h4⟩⟩ := chunks_cons h
    · subst h2 h3
      have := chunkWords_texts base pre cs []
      simpa [spansAt] using this
    · subst h3
      have h5 := chunkWords_texts base pre c (s :: t)
      have h6 := ih (pre ++ c ++ [s]) t h4
      rw [show byteLen (pre ++ c ++ [s]) = byteLen pre + byteLen c + 1 by
        simp [isSep_size ((isSep_iff s).mpr h2), Nat.add_assoc]] at h6
      rw [show pre ++ c ++ [s] ++ t = pre ++ (c ++ s :: t) by simp] at h6
      rw [show pre ++ c ++ s :: t = pre ++ (c ++ s :: t) by simp] at h5
      exact textsOf_append h5 h6

theorem decomposed_texts (input : Str) :
    TextsOf input (spansAt 0 (chunks input.chars)) (wordTexts input.chars) := by
  have := spansAt_texts input.ptr _ [] input.chars rfl
  exact this

/-! ### Order -/

/-- Every span lies in `[lo, hi]`, and they are in order. -/
def Ordered (lo hi : Nat) : List Span → Prop
  | [] => lo ≤ hi
  | s :: ss => lo ≤ s.start ∧ s.start ≤ s.stop ∧ Ordered s.stop hi ss

theorem Ordered.le {lo hi : Nat} {ss : List Span} (h : Ordered lo hi ss) : lo ≤ hi := by
  induction ss generalizing lo with
  | nil => exact h
  | cons s ss ih => have := ih h.2.2; have := h.1; have := h.2.1; omega

theorem Ordered.mono {lo lo' hi hi' : Nat} {ss : List Span} (h : Ordered lo hi ss) (h1 : lo' ≤ lo) (h2 : hi ≤ hi') :
    Ordered lo' hi' ss := by
  induction ss generalizing lo lo' with
  | nil => simp only [Ordered] at *; omega
  | cons s ss ih => exact ⟨by have := h.1; omega, h.2.1, ih h.2.2 (Nat.le_refl _)⟩

theorem Ordered.append {lo mid hi : Nat} {a b : List Span} (ha : Ordered lo mid a) (hb : Ordered mid hi b) :
    Ordered lo hi (a ++ b) := by
  induction a generalizing lo with
  | nil => exact hb.mono ha (Nat.le_refl _)
  | cons s a ih => exact ⟨ha.1, ha.2.1, ih ha.2.2⟩

theorem layout_ordered (off : Nat) (ws : List (List Char)) :
    Ordered off (off + byteLen ws.flatten) (layout off ws) := by
  induction ws generalizing off with
  | nil => simp [layout, Ordered]
  | cons w ws ih =>
    have := ih (off + byteLen w)
    refine ⟨Nat.le_refl _, by simp, ?_⟩
    rw [List.flatten_cons, byteLen_append, ← Nat.add_assoc]
    exact this

theorem spansAt_ordered (off : Nat) (rest : List (List Char)) :
    Ordered off (off + offsetOf rest) (spansAt off rest) := by
  induction rest generalizing off with
  | nil => simp [spansAt, Ordered, offsetOf]
  | cons c rest ih =>
    have h1 := layout_ordered off (singleWords c)
    have h2 := byteLen_singleWords_le c
    have h3 := ih (off + byteLen c + 1)
    simp only [spansAt, offsetOf]
    refine (h1.mono (Nat.le_refl _) (show _ ≤ off + byteLen c + 1 by omega)).append ?_
    rw [show off + (byteLen c + 1 + offsetOf rest) = off + byteLen c + 1 + offsetOf rest by omega]
    exact h3

theorem Ordered.pairwise {lo hi : Nat} {ss : List Span} (h : Ordered lo hi ss) :
    ss.Pairwise (fun a b => a.stop ≤ b.start) := by
  have key : ∀ {ss : List Span} {lo : Nat}, Ordered lo hi ss → ∀ s ∈ ss, lo ≤ s.start := by
    intro ss
    induction ss with
    | nil => simp
    | cons s ss ih =>
      intro lo h x hx
      simp at hx
      rcases hx with rfl | hx
      · exact h.1
      · have := ih h.2.2 x hx
        have := h.1
        have := h.2.1
        omega
  induction ss generalizing lo with
  | nil => exact .nil
  | cons s ss ih => exact .cons (fun x hx => key h.2.2 x hx) (ih h.2.2)

/-! ### Joining -/

theorem shift_layout (n off : Nat) (ws : List (List Char)) :
    (layout off ws).map (shift n) = layout (off + n) ws := by
  induction ws generalizing off with
  | nil => rfl
  | cons w ws ih => simp [layout, ih, shift, Nat.add_right_comm]

theorem shift_spansAt (n off : Nat) (rest : List (List Char)) :
    (spansAt off rest).map (shift n) = spansAt (off + n) rest := by
  induction rest generalizing off with
  | nil => rfl
  | cons c rest ih =>
    simp only [spansAt, List.map_append, shift_layout, ih]
    rw [show off + byteLen c + 1 + n = off + n + byteLen c + 1 by omega]

theorem spansAt_append (off : Nat) (a b : List (List Char)) :
    spansAt off (a ++ b) = spansAt off a ++ spansAt (off + offsetOf a) b := by
  induction a generalizing off with
  | nil => rfl
  | cons c a ih =>
    simp only [List.cons_append, spansAt, ih, List.append_assoc, offsetOf]
    rw [show off + byteLen c + 1 + offsetOf a = off + (byteLen c + 1 + offsetOf a) by omega]

theorem spansAt_sep (a : List Char) {s : Char} (hs : IsSeparator s) (b : List Char) :
    spansAt 0 (chunks (a ++ s :: b)) =
      spansAt 0 (chunks a) ++ (spansAt 0 (chunks b)).map (shift (byteLen a + 1)) := by
  rw [chunks_append_sep a hs b, spansAt_append, shift_spansAt, offsetOf_chunks]

theorem endsInConsonant_iff (cs : List Char) :
    endsInConsonant cs = true ↔ ∃ c, LastLetter cs c ∧ IsConsonantLetter c := by
  have hcons : ∀ c, isConsonant c = true ↔ IsConsonantLetter c := by
    intro c
    constructor
    · intro h
      by_cases hr : 'A' ≤ c ∧ c ≤ 'Z'
      · have hu : c.toNat ∈ List.range 128 := by
          have h2 : c.toNat ≤ 90 := hr.2
          simp; omega
        have : ∀ n ∈ List.range 128, isConsonant (Char.ofNat n) = true → IsConsonantLetter (Char.ofNat n) := by
          decide +kernel
        have := this c.toNat hu
        rw [Char.ofNat_toNat] at this
        exact this h
      · simp only [isConsonant, asciiLower, if_neg hr, List.contains_iff_mem] at h
        have : ∀ c ∈ c!"bcdfgjklmnprstvxz", IsConsonantLetter c := by decide +kernel
        exact this c h
    · intro h
      have : ∀ c ∈ c!"bcdfgjklmnprstvxzBCDFGJKLMNPRSTVXZ", isConsonant c = true := by decide +kernel
      exact this c h
  constructor
  · intro h
    unfold endsInConsonant at h
    split at h
    · rename_i c hc
      refine ⟨c, ?_, (hcons c).mp h⟩
      obtain ⟨h1, as, bs, h2, h3⟩ := List.find?_eq_some_iff_append.mp hc
      refine ⟨bs.reverse, as.reverse, ?_, by simpa using h1, ?_⟩
      · have := congrArg List.reverse h2
        simpa using this
      · intro x hx
        have := h3 x (by simpa using hx)
        simpa using this
    · simp at h
  · rintro ⟨c, ⟨front, commas, rfl, hc, hk⟩, h2⟩
    have : (front ++ c :: commas).reverse.find? (fun c => c != ',') = some c := by
      rw [List.find?_eq_some_iff_append]
      refine ⟨by simpa using hc, commas.reverse, front.reverse, by simp, ?_⟩
      intro x hx
      have := hk x (by simpa using hx)
      simpa using this
    unfold endsInConsonant
    rw [this]
    exact (hcons c).mpr h2

end Sneturfahi
