import Verif.Proof.Words

/-!
# Any mixture of `next` and `next_no_decomposition`
-/

namespace Sneturfahi

open Spec

/-- The abstract state makes sense for the text: the chunks looked at are `ds`, and what is queued are
the last words of the last of them. -/
def AOk (cs : List Char) (a : AState) : Prop :=
  ∃ ds, chunks cs = ds ++ a.rest ∧ a.off = offsetOf ds ∧
    (a.cur = [] ∨ ∃ ds' c done todo, ds = ds' ++ [c] ∧ singleWords c = done ++ todo ∧
      a.cur = layout (offsetOf ds' + byteLen done.flatten) todo)

theorem aok_new (cs : List Char) : AOk cs ⟨[], 0, chunks cs⟩ := ⟨[], rfl, rfl, Or.inl rfl⟩

/-- Position up to which everything has been yielded. -/
def AState.lo (a : AState) : Nat :=
  match a.cur with
  | w :: _ => w.start
  | [] => a.off

theorem aNextRest_ok {cs : List Char} (rest : List (List Char)) : ∀ (off : Nat), AOk cs ⟨[], off, rest⟩ →
    AOk cs (aNextRest off rest).2 ∧ off ≤ (aNextRest off rest).2.lo ∧
      ∀ s, (aNextRest off rest).1 = some s → off ≤ s.start ∧ s.start ≤ s.stop ∧
        s.stop ≤ (aNextRest off rest).2.lo ∧
        ∃ c ∈ chunks cs, ∃ w ∈ singleWords c, ∃ pre post, cs = pre ++ w ++ post ∧
          s = ⟨byteLen pre, byteLen pre + byteLen w⟩ := by
  induction rest with
  | nil => intro off h; exact ⟨h, Nat.le_refl _, by simp [aNextRest]⟩
  | cons c rest ih =>
    intro off h
    obtain ⟨ds, h1, h2, _⟩ := h
    simp only at h1 h2
    have hoff : off + byteLen c + 1 = offsetOf (ds ++ [c]) := by simp [offsetOf, h2]; omega
    cases hw : singleWords c with
    | nil =>
      simp only [aNextRest, hw, layout]
      have := ih (off + byteLen c + 1) ⟨ds ++ [c], by simp [h1], hoff, Or.inl rfl⟩
      refine ⟨this.1, by omega, ?_⟩
      intro s hs
      obtain ⟨e1, e2, e3, e4⟩ := this.2.2 s hs
      exact ⟨by omega, e2, e3, e4⟩
    | cons w ws =>
      simp only [aNextRest, hw, layout]
      have hle := byteLen_singleWords_le c
      rw [hw] at hle
      simp at hle
      refine ⟨⟨ds ++ [c], by simp [h1], hoff, Or.inr ⟨ds, c, [w], ws, rfl, hw, by simp [h2]⟩⟩, ?_, ?_⟩
      · cases ws with
        | nil => simp [AState.lo, layout]; omega
        | cons w2 ws => simp [AState.lo, layout]
      · intro s hs
        simp only [Option.some.injEq] at hs
        subst hs
        refine ⟨Nat.le_refl _, by simp, ?_, ?_⟩
        · cases ws with
          | nil => simp [AState.lo, layout]; omega
          | cons w2 ws => simp [AState.lo, layout]
        · obtain ⟨pre, post, e1, e2, _, _⟩ := chunks_at h1
          obtain ⟨k, _, hk⟩ := singleWords_flatten c
          rw [hw] at hk
          refine ⟨c, by simp [h1], w, by simp [hw], pre, ws.flatten ++ k ++ post, ?_, by rw [e2, h2]⟩
          rw [e1]
          conv => lhs; rw [hk]
          simp

theorem aNext_ok {cs : List Char} {a : AState} (h : AOk cs a) :
    AOk cs (aNext a).2 ∧ a.lo ≤ (aNext a).2.lo ∧
      ∀ s, (aNext a).1 = some s → a.lo ≤ s.start ∧ s.start ≤ s.stop ∧ s.stop ≤ (aNext a).2.lo ∧
        ∃ c ∈ chunks cs, ∃ w ∈ singleWords c, ∃ pre post, cs = pre ++ w ++ post ∧
          s = ⟨byteLen pre, byteLen pre + byteLen w⟩ := by
  obtain ⟨cur, off, rest⟩ := a
  cases cur with
  | nil => exact aNextRest_ok rest off h
  | cons s ss =>
    obtain ⟨ds, h1, h2, h3⟩ := h
    simp only at h1 h2 h3
    rcases h3 with h3 | ⟨ds', c, done, todo, h4, h5, h6⟩
    · simp at h3
    · cases todo with
      | nil => simp [layout] at h6
      | cons w todo =>
        simp only [layout, List.cons.injEq] at h6
        obtain ⟨rfl, rfl⟩ := h6
        have hle := byteLen_singleWords_le c
        rw [h5] at hle
        simp at hle
        have hoff : off = offsetOf ds' + byteLen c + 1 := by rw [h2, h4]; simp [offsetOf]; omega
        refine ⟨⟨ds, h1, h2, Or.inr ⟨ds', c, done ++ [w], todo, h4, by simp [h5], ?_⟩⟩, ?_, ?_⟩
        · simp [aNext, Nat.add_assoc]
        · cases todo with
          | nil => simp [aNext, AState.lo, layout]; omega
          | cons w2 ws => simp [aNext, AState.lo, layout]
        · intro s hs
          simp only [aNext, Option.some.injEq] at hs
          subst hs
          refine ⟨by simp [AState.lo], by simp, ?_, ?_⟩
          · cases todo with
            | nil => simp [aNext, AState.lo, layout]; omega
            | cons w2 ws => simp [aNext, AState.lo, layout]
          · rw [h4] at h1
            obtain ⟨pre, post, e1, e2, _, _⟩ := chunks_at (by simpa using h1 : chunks cs = ds' ++ c :: rest)
            obtain ⟨k, _, hk⟩ := singleWords_flatten c
            rw [h5] at hk
            refine ⟨c, by simp [h1], w, by simp [h5], pre ++ done.flatten, todo.flatten ++ k ++ post, ?_, ?_⟩
            · rw [e1]
              conv => lhs; rw [hk]
              simp
            · simp [e2]

/-- What `next_no_decomposition` yields: a whole chunk, or the rest of a chunk from the next word on. -/
theorem aNextND_ok {cs : List Char} {a : AState} (h : AOk cs a) :
    AOk cs (aNextND a).2 ∧ a.lo ≤ (aNextND a).2.lo ∧ (aNextND a).2.cur = [] ∧
      ∀ s, (aNextND a).1 = some s → s.start = a.lo ∧ s.start ≤ s.stop ∧ s.stop ≤ (aNextND a).2.lo ∧
        ∃ pre t post, cs = pre ++ t ++ post ∧ s = ⟨byteLen pre, byteLen pre + byteLen t⟩ ∧ NoSeparator t ∧
          (post = [] ∧ (aNextND a).2.rest = [] ∨
            ∃ sep post', IsSeparator sep ∧ post = sep :: post' ∧ (aNextND a).2.rest = chunks post' ∧
              (aNextND a).2.off = s.stop + 1) := by
  obtain ⟨cur, off, rest⟩ := a
  obtain ⟨ds, h1, h2, h3⟩ := h
  simp only at h1 h2 h3
  cases cur with
  | nil =>
    cases rest with
    | nil => exact ⟨⟨ds, h1, h2, Or.inl rfl⟩, Nat.le_refl _, rfl, by simp [aNextND]⟩
    | cons c rest =>
      refine ⟨⟨ds ++ [c], by simp [h1, aNextND], by simp [aNextND, offsetOf, h2]; omega, Or.inl rfl⟩,
        by simp [aNextND, AState.lo]; omega, rfl, ?_⟩
      intro s hs
      simp only [aNextND, Option.some.injEq] at hs
      subst hs
      refine ⟨rfl, by simp, by simp [aNextND, AState.lo], ?_⟩
      obtain ⟨pre, post, e1, e2, e3, e4⟩ := chunks_at h1
      refine ⟨pre, c, post, e1, by rw [e2, h2], e3, ?_⟩
      rcases e4 with ⟨e4, e5⟩ | ⟨sep, t, e4, e5, e6⟩
      · exact Or.inl ⟨e5, by simp [aNextND, e4]⟩
      · exact Or.inr ⟨sep, t, e4, e5, by simp [aNextND, e6], by simp [aNextND]⟩
  | cons w ws =>
    rcases h3 with h3 | ⟨ds', c, done, todo, h4, h5, h6⟩
    · simp at h3
    · cases todo with
      | nil => simp [layout] at h6
      | cons x todo =>
        simp only [layout, List.cons.injEq] at h6
        obtain ⟨rfl, rfl⟩ := h6
        have hle := byteLen_singleWords_le c
        rw [h5] at hle
        simp at hle
        have hoff : off = offsetOf ds' + byteLen c + 1 := by rw [h2, h4]; simp [offsetOf]; omega
        refine ⟨⟨ds, h1, h2, Or.inl rfl⟩, by simp [aNextND, AState.lo]; omega, rfl, ?_⟩
        intro s hs
        simp only [aNextND, Option.some.injEq] at hs
        subst hs
        refine ⟨rfl, by simp; omega, by simp [aNextND, AState.lo], ?_⟩
        rw [h4] at h1
        obtain ⟨pre, post, e1, e2, e3, e4⟩ := chunks_at (by simpa using h1 : chunks cs = ds' ++ c :: rest)
        obtain ⟨k, _, hk⟩ := singleWords_flatten c
        rw [h5] at hk
        have hcl := congrArg byteLen hk
        simp at hcl
        refine ⟨pre ++ done.flatten, x ++ (todo.flatten ++ k), post, ?_, ?_, ?_, ?_⟩
        · rw [e1]
          conv => lhs; rw [hk]
          simp
        · simp only [byteLen_append, e2, Span.mk.injEq, true_and]; omega
        · intro y hy; exact e3 y (by rw [hk]; simp at hy ⊢; exact Or.inr hy)
        · rcases e4 with ⟨e4, e5⟩ | ⟨sep, t, e4, e5, e6⟩
          · exact Or.inl ⟨e5, by simp [aNextND, e4]⟩
          · exact Or.inr ⟨sep, t, e4, e5, by simp [aNextND, e6], by simp [aNextND]; omega⟩

/-- A whole chunk is yielded unless some word of it is queued. -/
theorem aNextND_start {cs : List Char} {a : AState} (h : AOk cs a) {s : Span} (hs : (aNextND a).1 = some s) :
    (∃ w, (aNext a).1 = some w ∧ w.start = s.start) ∨
      ∃ pre post, cs = pre ++ post ∧ byteLen pre = s.start ∧ (pre = [] ∨ ∃ x sep, IsSeparator sep ∧ pre = x ++ [sep]) := by
  obtain ⟨cur, off, rest⟩ := a
  cases cur with
  | cons w ws =>
    simp only [aNextND, Option.some.injEq] at hs
    subst hs
    exact Or.inl ⟨w, rfl, rfl⟩
  | nil =>
    obtain ⟨ds, h1, h2, _⟩ := h
    simp only at h1 h2
    cases rest with
    | nil => simp [aNextND] at hs
    | cons c rest =>
      simp only [aNextND, Option.some.injEq] at hs
      subst hs
      right
      have key : ∀ (ds : List (List Char)) (cs : List Char), chunks cs = ds ++ c :: rest →
          ∃ pre post, cs = pre ++ post ∧ byteLen pre = offsetOf ds ∧
            (pre = [] ∨ ∃ x sep, IsSeparator sep ∧ pre = x ++ [sep]) := by
        intro ds
        induction ds with
        | nil => intro cs _; exact ⟨[], cs, rfl, rfl, Or.inl rfl⟩
        | cons d ds ih =>
          intro cs h
          obtain ⟨_, ⟨e1, e2⟩ | ⟨sep, t, e1, e2, e3⟩⟩ := chunks_cons (by simpa using h)
          · simp at e1
          · obtain ⟨pre, post, f1, f2, f3⟩ := ih t e3
            refine ⟨d ++ sep :: pre, post, by simp [e2, f1], ?_, Or.inr ?_⟩
            · simp [offsetOf, f2, isSep_size ((isSep_iff sep).mpr e1), Nat.add_assoc]
            · rcases f3 with rfl | ⟨x, s2, g1, rfl⟩
              · exact ⟨d, sep, e1, rfl⟩
              · exact ⟨d ++ sep :: x, s2, g1, by simp⟩
      obtain ⟨pre, post, f1, f2, f3⟩ := key ds cs h1
      exact ⟨pre, post, f1, by rw [f2, h2], f3⟩

/-- Nothing is left for either call. -/
def AState.Over (a : AState) : Prop := a.cur = [] ∧ a.rest = []

theorem aNextRest_none {off : Nat} {rest : List (List Char)} (h : (aNextRest off rest).1 = none) :
    (aNextRest off rest).2.Over := by
  induction rest generalizing off with
  | nil => exact ⟨rfl, rfl⟩
  | cons c rest ih =>
    simp only [aNextRest] at h ⊢
    cases hl : layout off (singleWords c) with
    | nil => rw [hl] at h; exact ih h
    | cons w ws => rw [hl] at h; simp at h

theorem aNext_none {a : AState} (h : (aNext a).1 = none) : (aNext a).2.Over := by
  obtain ⟨cur, off, rest⟩ := a
  cases cur with
  | cons w ws => simp [aNext] at h
  | nil => exact aNextRest_none h

theorem aNextND_none {a : AState} (h : (aNextND a).1 = none) : (aNextND a).2.Over := by
  obtain ⟨cur, off, rest⟩ := a
  cases cur with
  | cons w ws => simp [aNextND] at h
  | nil => cases rest with
    | nil => exact ⟨rfl, rfl⟩
    | cons c rest => simp [aNextND] at h

theorem Over.next {a : AState} (h : a.Over) : (aNext a).1 = none ∧ (aNext a).2.Over := by
  obtain ⟨cur, off, rest⟩ := a
  obtain ⟨rfl, rfl⟩ := h
  exact ⟨rfl, rfl, rfl⟩

theorem Over.nextND {a : AState} (h : a.Over) : (aNextND a).1 = none ∧ (aNextND a).2.Over := by
  obtain ⟨cur, off, rest⟩ := a
  obtain ⟨rfl, rfl⟩ := h
  exact ⟨rfl, rfl, rfl⟩

/-- The next call of `next_no_decomposition` starts no later than the next word. -/
theorem aNextND_le {cs : List Char} {a : AState} (h : AOk cs a) {w : Span} (hw : (aNext a).1 = some w) :
    ∃ s, (aNextND a).1 = some s ∧ s.start ≤ w.start := by
  cases hs : (aNextND a).1 with
  | none =>
    obtain ⟨cur, off, rest⟩ := a
    cases cur with
    | cons w ws => simp [aNextND] at hs
    | nil => cases rest with
      | nil => simp [aNext, aNextRest] at hw
      | cons c rest => simp [aNextND] at hs
  | some s =>
    refine ⟨s, rfl, ?_⟩
    rw [((aNextND_ok h).2.2.2 s hs).1]
    exact ((aNext_ok h).2.2 w hw).1

end Sneturfahi
