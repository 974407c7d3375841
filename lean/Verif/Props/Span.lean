import Verif.Proof.Words

/-!
# Properties of spans (C01-C05)
-/

namespace Sneturfahi.Props

open Spec

/-- A span that `Span::new` accepts and whose ends are `u32` values. -/
def Valid (s : Span) : Prop := s.start ≤ s.stop ∧ s.stop < 2 ^ 32

instance (s : Span) : Decidable (Valid s) := by unfold Valid; infer_instance

/-- **C01.** `Span::new` panics exactly when the end is before the start; otherwise length, membership
and emptiness are those of the half-open interval, in both build profiles. -/
theorem C01_new (a b : Nat) :
    (Span.new a b = .panic ↔ b < a) ∧
    (a ≤ b → ∃ s, Span.new a b = .val s ∧ s.start = a ∧ s.stop = b ∧
      (∀ p, s.len p = .val (b - a)) ∧ (∀ l, s.contains l = true ↔ a ≤ l ∧ l < b) ∧
      (s.isEmpty = true ↔ a = b)) := by
  constructor
  · unfold Span.new
    split <;> simp <;> omega
  · intro h
    refine ⟨⟨a, b⟩, by simp [Span.new, h], rfl, rfl, ?_, ?_, ?_⟩
    · intro p; simp [Span.len, subU32, h]
    · intro l; simp [Span.contains]
    · simp [Span.isEmpty]; omega

/-- **C01.** `Span::at`: the span of `n` locations from `a` on, if it fits; otherwise a debug build
panics. -/
theorem C01_at (p : Profile) (a n : Nat) :
    (a + n < 2 ^ 32 → Span.at p a n = .val ⟨a, a + n⟩) ∧
    (2 ^ 32 ≤ a + n → Span.at .debug a n = .panic) := by
  constructor
  · intro h
    simp [Span.at, addU32, u32Size, h]
  · intro h
    simp [Span.at, addU32, u32Size, show ¬ (a + n < 4294967296) by omega]

example : Span.new 3 8 = .val ⟨3, 8⟩ ∧ Span.new 8 3 = .panic ∧
    Span.at .debug 4294967295 1 = .panic := by decide

/-- What `overlaps_with` is documented to mean: a common location, or an empty span strictly inside
the other. -/
def Overlap (a b : Span) : Prop :=
  (∃ l, a.start ≤ l ∧ l < a.stop ∧ b.start ≤ l ∧ l < b.stop) ∨
  (a.start = a.stop ∧ b.start < a.start ∧ a.start < b.stop) ∨
  (b.start = b.stop ∧ a.start < b.start ∧ b.start < a.stop)

/-- The one situation a debug build cannot handle: an empty span at location 0 and a span that starts
later. -/
def EmptyAtZero (a b : Span) : Prop :=
  (a.start = 0 ∧ a.stop = 0 ∧ 0 < b.start) ∨ (b.start = 0 ∧ b.stop = 0 ∧ 0 < a.start)

/-- **C02.** `overlaps_with` does not depend on the order of its arguments, even as to panics, and
even for spans whose end is before their start. -/
theorem C02_overlaps_commutative (p : Profile) (a b : Span) :
    a.overlapsWith p b = b.overlapsWith p a := by
  obtain ⟨a1, a2⟩ := a
  obtain ⟨b1, b2⟩ := b
  unfold Span.overlapsWith
  rw [Bool.or_comm]
  split
  · rfl
  · rename_i hne
    have key : ∀ x y : Span, x.nonCommutativeHelper p y = .val true →
        ∃ r, y.nonCommutativeHelper p x = .val r := by
      rintro ⟨x1, x2⟩ ⟨y1, y2⟩ h
      simp only [Span.nonCommutativeHelper] at *
      split
      · exact ⟨_, rfl⟩
      · have hx : 1 ≤ x2 := by
          split at h
          · rename_i hc; simp [Span.contains] at hc; omega
          · unfold subU32 at h
            split at h
            · simp [Span.contains] at h; omega
            · cases p <;> simp [Span.contains] at h
              omega
        simp [subU32, hx]
    cases h1 : Span.nonCommutativeHelper p ⟨a1, a2⟩ ⟨b1, b2⟩ with
    | val r1 =>
      cases h2 : Span.nonCommutativeHelper p ⟨b1, b2⟩ ⟨a1, a2⟩ with
      | val r2 => cases r1 <;> cases r2 <;> rfl
      | panic =>
        cases r1 with
        | false => rfl
        | true => obtain ⟨r, hr⟩ := key _ _ h1; rw [h2] at hr; cases hr
      | diverge =>
        cases r1 with
        | false => rfl
        | true => obtain ⟨r, hr⟩ := key _ _ h1; rw [h2] at hr; cases hr
    | panic =>
      cases h2 : Span.nonCommutativeHelper p ⟨b1, b2⟩ ⟨a1, a2⟩ with
      | val r2 =>
        cases r2 with
        | false => rfl
        | true => obtain ⟨r, hr⟩ := key _ _ h2; rw [h1] at hr; cases hr
      | panic => rfl
      | diverge =>
        exfalso
        unfold Span.nonCommutativeHelper subU32 at h2
        split at h2
        · cases h2
        · split at h2
          · cases h2
          · cases p <;> cases h2
    | diverge =>
      exfalso
      unfold Span.nonCommutativeHelper subU32 at h1
      split at h1
      · cases h1
      · split at h1
        · cases h1
        · cases p <;> cases h1

theorem helper_eq (p : Profile) {a b : Span} (ha : Valid a) (hb : Valid b)
    (h : p = .release ∨ 0 < b.stop ∨ a.contains b.start = true) :
    a.nonCommutativeHelper p b = .val (a.contains b.start || (decide (0 < b.stop) && a.contains (b.stop - 1))) := by
  obtain ⟨a1, a2⟩ := a
  obtain ⟨b1, b2⟩ := b
  simp only [Valid] at ha hb
  unfold Span.nonCommutativeHelper
  split
  · rename_i hc; simp [hc]
  · rename_i hc
    by_cases h0 : 0 < b2
    · simp only [Bool.not_eq_true] at hc
      simp [subU32, show 1 ≤ b2 by omega, h0, hc]
    · have : b2 = 0 := by omega
      subst this
      have hp : p = .release := by rcases h with h | h | h; exact h; simp at h; exact absurd h hc
      subst hp
      have hl : Span.contains ⟨a1, a2⟩ 4294967295 = false := by
        simp [Span.contains]; omega
      simp only [Bool.not_eq_true] at hc
      simp [subU32, u32Size, hl, hc]

/-- **C02, meaning.** In a release build, and in a debug build outside the situation
`EmptyAtZero`, `overlaps_with` answers, and the answer is `Overlap`.  In that situation a debug build
panics, `C02_overlaps_panics`. -/
theorem C02_overlaps_meaning (p : Profile) (a b : Span) (ha : Valid a) (hb : Valid b)
    (h : p = .release ∨ ¬ EmptyAtZero a b) :
    ∃ r, a.overlapsWith p b = .val r ∧ (r = true ↔ Overlap a b) := by
  obtain ⟨a1, a2⟩ := a
  obtain ⟨b1, b2⟩ := b
  have ha' := ha
  have hb' := hb
  simp only [Valid] at ha' hb'
  unfold Span.overlapsWith
  split
  · rename_i hc
    refine ⟨false, rfl, ?_⟩
    simp only [Span.nonCommutativeEmptyCheck, Span.isEmpty, Bool.or_eq_true, Bool.and_eq_true,
      beq_iff_eq] at hc
    simp only [Bool.false_eq_true, false_iff]
    rintro (⟨l, h1⟩ | h1 | h1) <;> simp only at h1 <;> omega
  · rename_i hc
    simp only [Span.nonCommutativeEmptyCheck, Span.isEmpty, Bool.or_eq_true, Bool.and_eq_true,
      beq_iff_eq] at hc
    have e1 : p = .release ∨ 0 < b2 ∨ Span.contains ⟨a1, a2⟩ b1 = true := by
      rcases h with h | h
      · exact Or.inl h
      · right; left; simp only [EmptyAtZero] at h; omega
    have e2 : p = .release ∨ 0 < a2 ∨ Span.contains ⟨b1, b2⟩ a1 = true := by
      rcases h with h | h
      · exact Or.inl h
      · right; left; simp only [EmptyAtZero] at h; omega
    rw [helper_eq p ha hb e1, helper_eq p hb ha e2]
    simp only [Exec.val_bind, Exec.pure_eq]
    have goal : ((Span.contains ⟨a1, a2⟩ b1 || (decide (0 < b2) && Span.contains ⟨a1, a2⟩ (b2 - 1))) = true ∨
        (Span.contains ⟨b1, b2⟩ a1 || (decide (0 < a2) && Span.contains ⟨b1, b2⟩ (a2 - 1))) = true) ↔
        Overlap ⟨a1, a2⟩ ⟨b1, b2⟩ := by
      simp only [Span.contains, Overlap, Bool.or_eq_true, Bool.and_eq_true, decide_eq_true_eq]
      constructor
      · intro hh
        by_cases hea : a1 = a2
        · right; left; omega
        · by_cases heb : b1 = b2
          · right; right; omega
          · left; exact ⟨max a1 b1, by omega, by omega, by omega, by omega⟩
      · rintro (⟨l, h1⟩ | h1 | h1) <;> omega
    split
    · rename_i hx; exact ⟨true, rfl, by simpa using goal.mp (Or.inl hx)⟩
    · rename_i hx
      refine ⟨_, rfl, ?_⟩
      rw [← goal]
      simp only [hx, Bool.false_eq_true, false_or]

/-- **C02, panics.** A debug build panics exactly for an empty span at 0 against a span that
starts later; for example `Span::new(0, 0).overlaps_with(Span::new(5, 10))`. -/
theorem C02_overlaps_panics (a b : Span) (ha : Valid a) (hb : Valid b) :
    a.overlapsWith .debug b = .panic ↔ EmptyAtZero a b := by
  constructor
  · intro h
    apply Classical.byContradiction
    intro hn
    obtain ⟨r, hr, _⟩ := C02_overlaps_meaning .debug a b ha hb (Or.inr hn)
    rw [h] at hr; cases hr
  · have key : ∀ a b : Span, Valid a → Valid b → (a.start = 0 ∧ a.stop = 0 ∧ 0 < b.start) →
        a.overlapsWith .debug b = .panic := by
      rintro ⟨a1, a2⟩ ⟨b1, b2⟩ ha hb ⟨rfl, rfl, h0⟩
      simp only [Valid] at ha hb h0
      have h1 : (Span.nonCommutativeEmptyCheck ⟨0, 0⟩ ⟨b1, b2⟩ || Span.nonCommutativeEmptyCheck ⟨b1, b2⟩ ⟨0, 0⟩) = false := by
        simp [Span.nonCommutativeEmptyCheck, Span.isEmpty]
        omega
      unfold Span.overlapsWith
      rw [h1]
      simp [Span.nonCommutativeHelper, Span.contains, subU32, show 1 ≤ b2 by omega, show ¬ (b1 = 0) by omega]
    rintro (h | h)
    · exact key a b ha hb h
    · rw [C02_overlaps_commutative]; exact key b a hb ha h

example : Span.overlapsWith .debug ⟨0, 0⟩ ⟨5, 10⟩ = .panic ∧
    Span.overlapsWith .release ⟨0, 0⟩ ⟨5, 10⟩ = .val false ∧
    Span.overlapsWith .debug ⟨2, 6⟩ ⟨5, 10⟩ = .val true ∧
    Span.overlapsWith .debug ⟨7, 7⟩ ⟨5, 10⟩ = .val true ∧
    Valid ⟨2, 6⟩ ∧ Valid ⟨5, 10⟩ := by decide

/-- **C03.** `between` is the gap, exactly when there is a non-empty one.  (In a debug build the call
panics for an empty span at 0 and a span that starts later, `C03_between_panics`.) -/
theorem C03_between (p : Profile) (x y : Span) (hx : Valid x) (hy : Valid y)
    (h : p = .release ∨ ¬ EmptyAtZero x y) :
    Span.between p x y = .val (if x.stop < y.start then some ⟨x.stop, y.start⟩ else none) := by
  obtain ⟨r, hr, hov⟩ := C02_overlaps_meaning p x y hx hy h
  obtain ⟨x1, x2⟩ := x
  obtain ⟨y1, y2⟩ := y
  simp only [Valid] at hx hy
  unfold Span.between
  rw [hr]
  simp only [Exec.val_bind]
  cases r with
  | true =>
    have := hov.mp rfl
    have hn : ¬ (x2 < y1) := by
      intro hlt
      rcases this with ⟨l, h1⟩ | h1 | h1 <;> simp only at h1 <;> omega
    simp [hn]
  | false =>
    by_cases hlt : x2 < y1
    · simp [hlt]
    · simp [hlt]

/-- **C03, panics.** A debug build panics exactly for an empty span at 0 and a span that starts later. -/
theorem C03_between_panics (x y : Span) (hx : Valid x) (hy : Valid y) :
    Span.between .debug x y = .panic ↔ EmptyAtZero x y := by
  constructor
  · intro h
    apply Classical.byContradiction
    intro hn
    rw [C03_between .debug x y hx hy (Or.inr hn)] at h
    cases h
  · intro h
    unfold Span.between
    rw [(C02_overlaps_panics x y hx hy).mpr h]
    rfl

/-- **C03.** The gap is the text between the two slices, on every text. -/
theorem C03_gap_contiguous (p : Profile) (x y gap : Span) (hx : Valid x) (hy : Valid y) (text tx ty : Str)
    (hg : Span.between p x y = .val (some gap))
    (h1 : x.slice text = some tx) (h2 : y.slice text = some ty) :
    ∃ tg pre post, gap.slice text = some tg ∧ tg.chars ≠ [] ∧
      text.chars = pre ++ (tx.chars ++ tg.chars ++ ty.chars) ++ post ∧ byteLen pre = x.start := by
  have hgap : gap = ⟨x.stop, y.start⟩ ∧ x.stop < y.start := by
    by_cases hp : p = .release ∨ ¬ EmptyAtZero x y
    · rw [C03_between p x y hx hy hp] at hg
      split at hg
      · simp at hg; exact ⟨hg.symm, by assumption⟩
      · simp at hg
    · exfalso
      rw [not_or, Classical.not_not] at hp
      cases p with
      | release => exact hp.1 rfl
      | debug => rw [(C03_between_panics x y hx hy).mpr hp.2] at hg; cases hg
  obtain ⟨rfl, hlt⟩ := hgap
  obtain ⟨base, cs⟩ := text
  obtain ⟨pre, r1, e1, _, e3, e4⟩ := slice_inv h1
  obtain ⟨a, post, f1, _, f3, f4⟩ := slice_inv h2
  have hcat : (pre ++ tx.chars) ++ r1 = a ++ (ty.chars ++ post) := by
    rw [← e1, f1]; simp
  have hlen : byteLen (pre ++ tx.chars) < byteLen a := by simp; omega
  rcases List.append_eq_append_iff.mp hcat with ⟨d, g1, g2⟩ | ⟨d, g1, g2⟩
  · refine ⟨⟨base + byteLen (pre ++ tx.chars), d⟩, pre, post, ?_, ?_, ?_, e3.symm⟩
    · have := slice_mid base (pre ++ tx.chars) d (ty.chars ++ post)
      have hd := congrArg byteLen g1
      simp at hd
      rw [show (⟨x.stop, y.start⟩ : Span) =
        ⟨byteLen (pre ++ tx.chars), byteLen (pre ++ tx.chars) + byteLen d⟩ by simp; omega]
      rw [e1, g2]
      simpa using this
    · intro hd; simp at hd; subst hd; simp at g1; rw [g1] at hlen; simp at hlen
    · simp only; rw [e1, g2]; simp
  · exfalso
    have := congrArg byteLen g1
    rw [byteLen_append a d] at this
    omega

example : Span.between .debug ⟨0, 5⟩ ⟨6, 8⟩ = .val (some ⟨5, 6⟩) ∧
    Span.between .debug ⟨0, 5⟩ ⟨5, 8⟩ = .val none ∧ Span.between .debug ⟨0, 0⟩ ⟨6, 8⟩ = .panic ∧
    Span.slice ⟨0, 5⟩ ⟨0, c!"coi ro do"⟩ = some ⟨0, c!"coi r"⟩ ∧
    Span.slice ⟨6, 8⟩ ⟨0, c!"coi ro do"⟩ = some ⟨6, c!" d"⟩ := by decide

/-- `n` is a character boundary of the text. -/
def Boundary (cs : List Char) (n : Nat) : Prop := ∃ a b, cs = a ++ b ∧ byteLen a = n

/-- **C04.** `slice` answers exactly when start ≤ end and both are character boundaries. -/
theorem C04_slice_some_iff (s : Span) (text : Str) :
    (∃ t, s.slice text = some t) ↔ s.start ≤ s.stop ∧ Boundary text.chars s.start ∧ Boundary text.chars s.stop := by
  obtain ⟨base, cs⟩ := text
  obtain ⟨s1, s2⟩ := s
  constructor
  · rintro ⟨t, h⟩
    obtain ⟨pre, post, e1, _, e3, e4⟩ := slice_inv h
    simp only at e3 e4 ⊢
    exact ⟨by omega, ⟨pre, t.chars ++ post, by simp [e1], e3.symm⟩,
      ⟨pre ++ t.chars, post, by simp [e1], by simp [e4]⟩⟩
  · rintro ⟨h1, ⟨a, b, e1, e2⟩, ⟨c, d, e3, e4⟩⟩
    simp only at h1 e1 e2 e3 e4
    have hcat : a ++ b = c ++ d := by rw [← e1, ← e3]
    rcases List.append_eq_append_iff.mp hcat with ⟨x, g1, g2⟩ | ⟨x, g1, g2⟩
    · refine ⟨⟨base + byteLen a, x⟩, ?_⟩
      have := slice_mid base a x d
      rw [← byteLen_append, ← g1, e2, e4] at this
      rw [e3, e2]; exact this
    · have hx := congrArg byteLen g1
      simp at hx
      have hx0 : byteLen x = 0 := by omega
      have := byteLen_eq_zero.mp hx0
      subst this
      simp at g1
      subst g1
      refine ⟨⟨base + byteLen a, []⟩, ?_⟩
      have := slice_mid base a [] d
      simp only [byteLen_nil, Nat.add_zero, List.append_nil, e2] at this
      rw [e2] at e4
      rw [← e4, e3, e2]
      exact this

/-- **C04.** The three slices partition the text, and the slice has `len` bytes. -/
theorem C04_partition (p : Profile) (s : Span) (text t : Str) (h : s.slice text = some t) :
    ∃ before after, s.sliceBefore text = some before ∧ s.sliceAfter text = some after ∧
      before.chars ++ t.chars ++ after.chars = text.chars ∧
      before.ptr = text.ptr ∧ t.ptr = before.endPtr ∧ after.ptr = t.endPtr ∧
      s.len p = .val t.len := by
  obtain ⟨base, cs⟩ := text
  obtain ⟨s1, s2⟩ := s
  obtain ⟨pre, post, e1, e2, e3, e4⟩ := slice_inv h
  simp only at e3 e4 e1
  subst e1
  refine ⟨⟨base, pre⟩, ⟨base + s2, post⟩, ?_, ?_, by simp, rfl, ?_, ?_, ?_⟩
  · simp only [Span.sliceBefore, Str.getTo, e3, List.append_assoc]
    rw [splitBytes_append]
  · simp only [Span.sliceAfter, Str.getFrom, e4]
    rw [← byteLen_append, splitBytes_append]
  · simp [Str.endPtr, Str.len, e2]
  · simp [Str.endPtr, Str.len, e2, e4, Nat.add_assoc]
  · simp [Span.len, subU32, Str.len, e3, e4]

example : Span.slice ⟨2, 4⟩ ⟨100, c!"aéb"⟩ = none ∧
    Span.slice ⟨1, 3⟩ ⟨100, c!"aéb"⟩ = some ⟨101, c!"é"⟩ := by decide

/-- **C05.** A sub-slice of an input below 4 GiB round-trips through its span. -/
theorem C05_embedded (p : Profile) (input sub : Str) (pre post : List Char)
    (hsub : input.chars = pre ++ sub.chars ++ post) (hptr : sub.ptr = input.ptr + byteLen pre)
    (hlen : input.len < 2 ^ 32) :
    ∃ s, Span.fromEmbeddedSlice p input.ptr sub = .val s ∧ Valid s ∧ s.slice input = some sub := by
  obtain ⟨base, cs⟩ := input
  obtain ⟨q, w⟩ := sub
  simp only [Str.len] at *
  subst hsub hptr
  simp only [byteLen_append] at hlen
  refine ⟨_, fromEmbeddedSlice_eq p base (byteLen pre) w (by simp [u32Size]; omega), ?_, ?_⟩
  · simp only [Valid]; omega
  · exact slice_mid base pre w post

/-- **C05.** A slice of another string before the input makes `from_embedded_slice` panic rather than
answer nonsense. -/
theorem C05_foreign (p : Profile) (base : Nat) (sub : Str) (h : sub.ptr < base) :
    Span.fromEmbeddedSlice p base sub = .panic := by
  simp [Span.fromEmbeddedSlice, subPtr, show ¬ (base ≤ sub.ptr) by omega]

/-- **C05.** `entire_slice` is the whole input. -/
theorem C05_entire (input : Str) (hlen : input.len < 2 ^ 32) :
    ∃ s, Span.entireSlice input = .val s ∧ s.slice input = some input := by
  obtain ⟨base, cs⟩ := input
  refine ⟨⟨0, byteLen cs⟩, ?_, ?_⟩
  · have h : (⟨base, cs⟩ : Str).len < u32Size := hlen
    simp [Span.entireSlice, tryU32, h]
    rfl
  · have := slice_mid base [] cs []
    simpa using this

example : Span.fromEmbeddedSlice .debug 100 ⟨104, c!"ro"⟩ = .val ⟨4, 6⟩ ∧
    Span.slice ⟨4, 6⟩ ⟨100, c!"coi ro do"⟩ = some ⟨104, c!"ro"⟩ := by decide

end Sneturfahi.Props
