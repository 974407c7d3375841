import Verif.Props.Decompose

/-!
# Properties of the decomposer used with both of its methods (C29-C32)
-/

namespace Sneturfahi.Props

open Spec

/-- The spans of pieces separated by one byte each, the first one starting at `off`. -/
def pieceSpans (off : Nat) : List (List Char) → List Span
  | [] => []
  | w :: ws => ⟨off, off + byteLen w⟩ :: pieceSpans (off + byteLen w + 1) ws

/-- **C29.** Calling only `next_no_decomposition` yields the pieces of the text between separators,
all of them, at their places, and then `None` for ever. -/
theorem C29_plain_splitting (p : Profile) (input : Str) (h : input.len < 2 ^ 32) (pieces : List (List Char))
    (hp : SplitsInto input.chars pieces) :
    TextsOf input (pieceSpans 0 pieces) pieces ∧
    ∃ d, Yields (Decomposer.nextNoDecomposition p) (decompose input) (pieceSpans 0 pieces) d ∧
      Fused (Decomposer.nextNoDecomposition p) d := by
  rw [splitsInto_iff] at hp
  subst hp
  constructor
  · have key : ∀ ws pre cs, chunks cs = ws →
        TextsOf ⟨input.ptr, pre ++ cs⟩ (pieceSpans (byteLen pre) ws) ws := by
      intro ws
      induction ws with
      | nil => intro pre cs h; exact absurd h (chunks_ne_nil cs)
      | cons c ws ih =>
        intro pre cs h
        obtain ⟨_, ⟨e1, e2⟩ | ⟨s, t, e1, e2, e3⟩⟩ := chunks_cons h
        · subst e1 e2
          have := slice_mid input.ptr pre cs []
          simp only [List.append_nil] at this
          simp [TextsOf, pieceSpans, this]
        · subst e2
          have h1 := slice_mid input.ptr pre c (s :: t)
          have h2 := ih (pre ++ c ++ [s]) t e3
          rw [show byteLen (pre ++ c ++ [s]) = byteLen pre + byteLen c + 1 by
            simp [isSep_size ((isSep_iff s).mpr e1), Nat.add_assoc]] at h2
          simp only [List.append_assoc, List.cons_append, List.nil_append] at h1 h2
          simp only [TextsOf, pieceSpans, List.map_cons, h1]
          rw [show _ = _ from h2]
          rfl
    exact key _ [] _ rfl
  · have key : ∀ ws off (d : Decomposer), Rep input d ⟨[], off, ws⟩ →
        ∃ d', Yields (Decomposer.nextNoDecomposition p) d (pieceSpans off ws) d' ∧
          ∃ a, Rep input d' a ∧ a.Over := by
      intro ws
      induction ws with
      | nil =>
        intro off d hr
        obtain ⟨d', hd, hr'⟩ := hr.nextND p
        exact ⟨d', .done hd, _, hr', rfl, rfl⟩
      | cons c ws ih =>
        intro off d hr
        obtain ⟨d', hd, hr'⟩ := hr.nextND p
        obtain ⟨d'', h1, h2⟩ := ih _ d' hr'
        exact ⟨d'', .more hd h1, h2⟩
    obtain ⟨d, h1, a, h2, h3⟩ := key _ 0 _ (rep_new h)
    refine ⟨d, h1, fun d => ∃ a, Rep input d a ∧ a.Over, ⟨a, h2, h3⟩, ?_⟩
    rintro d ⟨a, hr, ho⟩
    obtain ⟨d', hd, hr'⟩ := hr.nextND p
    have := Over.nextND ho
    exact ⟨d', by rw [hd, this.1], _, hr', this.2⟩

example : SplitsInto c!"mi..do" [c!"mi", c!"", c!"do"] :=
  SplitsInto.cons (w := c!"mi") (by decide) (by decide)
    (SplitsInto.cons (w := []) (by decide) (by decide) (.last (by decide)))

/-- The two methods that advance a decomposer. -/
inductive Op where
  | next
  | nextNoDecomposition

/-- Call the method. -/
def Op.call (p : Profile) (d : Decomposer) : Op → Exec (Option Span × Decomposer)
  | .next => d.next p
  | .nextNoDecomposition => d.nextNoDecomposition p

/-- Call the methods one after the other and collect the answers. -/
def runOps (p : Profile) : Decomposer → List Op → Exec (List (Option Span) × Decomposer)
  | d, [] => pure ([], d)
  | d, op :: ops => do
    let (r, d') ← op.call p d
    let (rs, d'') ← runOps p d' ops
    pure (r :: rs, d'')

theorem op_spec {input : Str} (p : Profile) {d : Decomposer} {a : AState} (hr : Rep input d a)
    (hok : AOk input.chars a) (op : Op) :
    ∃ r d' a', op.call p d = .val (r, d') ∧ Rep input d' a' ∧ AOk input.chars a' ∧ a.lo ≤ a'.lo ∧
      (r = none → a'.Over) ∧ (a.Over → r = none ∧ a'.Over) ∧
      ∀ s, r = some s → a.lo ≤ s.start ∧ s.stop ≤ a'.lo ∧ s.start ≤ s.stop ∧ ∃ t, s.slice input = some t := by
  cases op with
  | next =>
    obtain ⟨d', hd, hr'⟩ := hr.next p
    obtain ⟨h1, h2, h3⟩ := aNext_ok hok
    refine ⟨_, d', _, hd, hr', h1, h2, aNext_none, Over.next, ?_⟩
    intro s hs
    obtain ⟨e1, e2, e3, c, _, w, _, pre, post, e4, e5⟩ := h3 s hs
    refine ⟨e1, e3, e2, ?_⟩
    subst e5
    have := slice_mid input.ptr pre w post
    rw [← e4] at this
    exact ⟨_, this⟩
  | nextNoDecomposition =>
    obtain ⟨d', hd, hr'⟩ := hr.nextND p
    obtain ⟨h1, h2, _, h3⟩ := aNextND_ok hok
    refine ⟨_, d', _, hd, hr', h1, h2, aNextND_none, Over.nextND, ?_⟩
    intro s hs
    obtain ⟨e1, e2, e3, pre, t, post, e4, e5, _⟩ := h3 s hs
    refine ⟨by omega, e3, e2, ?_⟩
    subst e5
    have := slice_mid input.ptr pre t post
    rw [← e4] at this
    exact ⟨_, this⟩

theorem runOps_over {input : Str} (p : Profile) (ops : List Op) : ∀ {d : Decomposer} {a : AState},
    Rep input d a → AOk input.chars a → a.Over →
    ∃ d', runOps p d ops = .val (List.replicate ops.length none, d') := by
  induction ops with
  | nil => intro d a _ _ _; exact ⟨d, rfl⟩
  | cons op ops ih =>
    intro d a hr hok ho
    obtain ⟨r, d', a', h1, h2, h3, _, _, h5, _⟩ := op_spec p hr hok op
    obtain ⟨rfl, h6⟩ := h5 ho
    obtain ⟨d'', h7⟩ := ih h2 h3 h6
    exact ⟨d'', by simp [runOps, h1, h7, List.replicate_succ]⟩

/-- **C30.** However the two methods are interleaved, no call panics; the answers are spans, in order
and without overlap, each a valid slice of the text, followed by nothing but `None`. -/
theorem C30_interleaving (p : Profile) (input : Str) (h : input.len < 2 ^ 32) (ops : List Op) :
    ∃ (spans : List Span) (n : Nat) (d : Decomposer), runOps p (decompose input) ops = .val (spans.map some ++ List.replicate n none, d) ∧
      (∀ s ∈ spans, s.start ≤ s.stop ∧ ∃ t, s.slice input = some t) ∧
      spans.Pairwise (fun a b => a.stop ≤ b.start) := by
  have key : ∀ (ops : List Op) {d : Decomposer} {a : AState}, Rep input d a → AOk input.chars a →
      ∃ (spans : List Span) (n : Nat) (d' : Decomposer), runOps p d ops = .val (spans.map some ++ List.replicate n none, d') ∧
        (∀ s ∈ spans, a.lo ≤ s.start ∧ s.start ≤ s.stop ∧ ∃ t, s.slice input = some t) ∧
        spans.Pairwise (fun a b => a.stop ≤ b.start) := by
    intro ops
    induction ops with
    | nil => intro d a _ _; exact ⟨[], 0, d, rfl, by simp, .nil⟩
    | cons op ops ih =>
      intro d a hr hok
      obtain ⟨r, d', a', h1, h2, h3, h4, h5, h6, h7⟩ := op_spec p hr hok op
      cases r with
      | none =>
        obtain ⟨d'', h8⟩ := runOps_over p ops h2 h3 (h5 rfl)
        exact ⟨[], ops.length + 1, d'', by simp [runOps, h1, h8, List.replicate_succ], by simp, .nil⟩
      | some s =>
        obtain ⟨spans, n, d'', e1, e2, e3⟩ := ih h2 h3
        obtain ⟨f1, f2, f3, f4⟩ := h7 s rfl
        refine ⟨s :: spans, n, d'', by simp [runOps, h1, e1], ?_, ?_⟩
        · intro x hx
          simp at hx
          rcases hx with rfl | hx
          · exact ⟨f1, f3, f4⟩
          · obtain ⟨g1, g2⟩ := e2 x hx
            exact ⟨by omega, g2⟩
        · exact .cons (fun x hx => Nat.le_trans f2 (e2 x hx).1) e3
  obtain ⟨spans, n, d, e1, e2, e3⟩ := key ops (rep_new h) (aok_new _)
  exact ⟨spans, n, d, e1, fun s hs => (e2 s hs).2, e3⟩

/-- The states a decomposer over `input` can get into. -/
inductive Reachable (p : Profile) (input : Str) : Decomposer → Prop
  | start : Reachable p input (decompose input)
  | step {d d' : Decomposer} {r : Option Span} (op : Op) : Reachable p input d → op.call p d = .val (r, d') →
      Reachable p input d'

theorem reachable_rep {p : Profile} {input : Str} (h : input.len < 2 ^ 32) {d : Decomposer}
    (hd : Reachable p input d) : ∃ a, Rep input d a ∧ AOk input.chars a := by
  induction hd with
  | start => exact ⟨_, rep_new h, aok_new _⟩
  | step op _ hc ih =>
    obtain ⟨a, h1, h2⟩ := ih
    obtain ⟨r, d', a', e1, e2, e3, _⟩ := op_spec p h1 h2 op
    rw [hc] at e1
    cases e1
    exact ⟨a', e2, e3⟩

/-- **C31.** What `next_no_decomposition` yields in any reachable state: the text `t` up to the next
separator or the end of the text, starting either at the beginning of a chunk or at the word which
`next` would have yielded, and never after that word; and from then on `next` yields exactly the words
of the text after that separator. -/
theorem C31_resuming (p : Profile) (input : Str) (h : input.len < 2 ^ 32) (d d' : Decomposer) (s : Span)
    (hd : Reachable p input d) (hs : d.nextNoDecomposition p = .val (some s, d')) :
    ∃ pre t post, input.chars = pre ++ t ++ post ∧ s = ⟨byteLen pre, byteLen pre + byteLen t⟩ ∧
      NoSeparator t ∧
      ((pre = [] ∨ ∃ x sep, IsSeparator sep ∧ pre = x ++ [sep]) ∨
        ∃ w d'', d.next p = .val (some w, d'') ∧ w.start = s.start) ∧
      (∀ w d'', d.next p = .val (some w, d'') → s.start ≤ w.start) ∧
      ((post = [] ∧ ∃ e, Yields (Decomposer.next p) d' [] e) ∨
        ∃ sep post' ws e, IsSeparator sep ∧ post = sep :: post' ∧ decomposeAll p ⟨input.ptr, post'⟩ = .val ws ∧
          Yields (Decomposer.next p) d' (ws.map (shift (s.stop + 1))) e) := by
  obtain ⟨a, hr, hok⟩ := reachable_rep h hd
  obtain ⟨d1, hd1, hr1⟩ := hr.nextND p
  rw [hs] at hd1
  have hsome : (aNextND a).1 = some s := by
    simp only [Exec.val.injEq, Prod.mk.injEq] at hd1; exact hd1.1.symm
  have hdd : d' = d1 := by simp only [Exec.val.injEq, Prod.mk.injEq] at hd1; exact hd1.2
  subst hdd
  obtain ⟨d2, hd2, hr2⟩ := hr.next p
  obtain ⟨h1, h2, h3, h4⟩ := aNextND_ok hok
  obtain ⟨e1, e2, e3, pre, t, post, e4, e5, e6, e7⟩ := h4 s hsome
  refine ⟨pre, t, post, e4, e5, e6, ?_, ?_, ?_⟩
  · rcases aNextND_start hok hsome with ⟨w, f1, f2⟩ | ⟨pre', post', f1, f2, f3⟩
    · right; exact ⟨w, d2, by rw [hd2, f1], f2⟩
    · left
      have : pre = pre' := by
        rw [e4, List.append_assoc] at f1
        rw [e5] at f2
        simp only at f2
        rcases List.append_eq_append_iff.mp f1 with ⟨x, g1, g2⟩ | ⟨x, g1, g2⟩
        · have := congrArg byteLen g1
          simp at this
          have : x = [] := byteLen_eq_zero.mp (by omega)
          subst this; simpa using g1.symm
        · have := congrArg byteLen g1
          simp at this
          have : x = [] := byteLen_eq_zero.mp (by omega)
          subst this; simpa using g1
      rw [this]; exact f3
  · intro w d'' hw
    rw [hd2] at hw
    have : (aNext a).1 = some w := by simp only [Exec.val.injEq, Prod.mk.injEq] at hw; exact hw.1
    obtain ⟨s', g1, g2⟩ := aNextND_le hok this
    rw [hsome] at g1; cases g1
    exact g2
  · obtain ⟨e, hy, _⟩ := yields_of_rep p _ hr1 rfl
    rcases e7 with ⟨g1, g2⟩ | ⟨sep, post', g1, g2, g3, g4⟩
    · refine Or.inl ⟨g1, e, ?_⟩
      have : (aNextND a).2.remaining = [] := by simp [AState.remaining, h3, g2, spansAt]
      rw [this] at hy; exact hy
    · refine Or.inr ⟨sep, post', _, e, g1, g2, decomposeAll_eq p ⟨input.ptr, post'⟩ ?_, ?_⟩
      · have := congrArg byteLen e4
        rw [g2] at this
        simp only [byteLen_append, byteLen_cons] at this
        simp only [Str.len, u32Size] at *; omega
      · have : (aNextND a).2.remaining = (spansAt 0 (chunks post')).map (shift (s.stop + 1)) := by
          rw [shift_spansAt]; simp [AState.remaining, h3, g3, g4]
        rw [this] at hy; exact hy

/-- **C31.** `next_no_decomposition` answers `None` only when `next` has nothing left either. -/
theorem C31_none (p : Profile) (input : Str) (h : input.len < 2 ^ 32) (d d' : Decomposer)
    (hd : Reachable p input d) (hs : d.nextNoDecomposition p = .val (none, d')) :
    ∃ d'', d.next p = .val (none, d'') := by
  obtain ⟨a, hr, hok⟩ := reachable_rep h hd
  obtain ⟨d1, hd1, hr1⟩ := hr.nextND p
  rw [hs] at hd1
  have hnone : (aNextND a).1 = none := by
    simp only [Exec.val.injEq, Prod.mk.injEq] at hd1; exact hd1.1.symm
  obtain ⟨d2, hd2, _⟩ := hr.next p
  cases hn : (aNext a).1 with
  | none => exact ⟨d2, by rw [hd2, hn]⟩
  | some w =>
    obtain ⟨s, g1, _⟩ := aNextND_le hok hn
    rw [hnone] at g1; cases g1

example : runOps .debug (decompose ⟨0, c!"mina do"⟩) [.next, .nextNoDecomposition, .next] =
    .val ([some ⟨0, 2⟩, some ⟨2, 4⟩, some ⟨5, 7⟩],
      { peeked := none, split := [], current := [], input := ⟨0, c!"mina do"⟩ }) := by decide +kernel

/-! ### C32 -/

/-- Only `next` has been called. -/
inductive ReachableByNext (p : Profile) (input : Str) : Decomposer → Prop
  | start : ReachableByNext p input (decompose input)
  | step {d d' : Decomposer} {r : Option Span} : ReachableByNext p input d → d.next p = .val (r, d') →
      ReachableByNext p input d'

theorem next_keeps_peeked {p : Profile} : ∀ {fuel : Nat} {d d' : Decomposer} {r : Option Span},
    d.peeked = none → Decomposer.nextLoop p fuel d = .val (r, d') → d'.peeked = none := by
  intro fuel
  induction fuel with
  | zero => intro d d' r _ h; simp [Decomposer.nextLoop] at h
  | succ fuel ih =>
    intro d d' r hp h
    unfold Decomposer.nextLoop at h
    split at h
    · simp at h; rw [← h.2]; exact hp
    · rw [chunksFind_eq d (by simp [hp])] at h
      cases hf : (findPending d.pending).1 with
      | none => rw [hf] at h; simp at h; rw [← h.2]
      | some c =>
        rw [hf] at h
        simp only at h
        cases h1 : subPtr c.ptr d.input.ptr with
        | val off =>
          rw [h1] at h
          simp only [Exec.val_bind] at h
          cases h2 : tryU32 off with
          | val o =>
            rw [h2] at h
            simp only [Exec.val_bind] at h
            cases h3 : decomposeSingle p c with
            | val ws =>
              rw [h3] at h
              simp only [Exec.val_bind] at h
              cases h4 : Decomposer.shiftAll p o ws with
              | val sh =>
                rw [h4] at h
                simp only [Exec.val_bind] at h
                exact ih rfl h
              | panic => rw [h4] at h; cases h
              | diverge => rw [h4] at h; cases h
            | panic => rw [h3] at h; cases h
            | diverge => rw [h3] at h; cases h
          | panic => rw [h2] at h; cases h
          | diverge => rw [h2] at h; cases h
        | panic => rw [h1] at h; cases h
        | diverge => rw [h1] at h; cases h

/-- **C32, plain iteration.** As long as only `next` is called, the lower
bound of `size_hint` does not exceed the number of words still to come.  For states after
`next_no_decomposition` see `C32_off_by_one` and `C32_size_hint_wrong`. -/
theorem C32_size_hint (p : Profile) (input : Str) (h : input.len < 2 ^ 32) (d e : Decomposer)
    (hd : ReachableByNext p input d) (ws : List Span) (hy : Yields (Decomposer.next p) d ws e) :
    d.sizeHintLower ≤ ws.length := by
  have hp : d.peeked = none := by
    clear hy
    induction hd with
    | start => rfl
    | step _ hn ih => exact next_keeps_peeked ih hn
  have hreach : Reachable p input d := by
    clear hy hp
    induction hd with
    | start => exact .start
    | step _ hn ih => exact .step .next ih hn
  obtain ⟨a, hr, _⟩ := reachable_rep h hreach
  obtain ⟨e', hy', _⟩ := yields_of_rep p _ hr rfl
  obtain ⟨rfl, _⟩ := yields_det hy hy'
  simp [Decomposer.sizeHintLower, hp, hr.cur_eq, AState.remaining]

/-- **C32, any history.** The lower bound is too high by at most one. -/
theorem C32_off_by_one (p : Profile) (input : Str) (h : input.len < 2 ^ 32) (d e : Decomposer)
    (hd : Reachable p input d) (ws : List Span) (hy : Yields (Decomposer.next p) d ws e) :
    d.sizeHintLower ≤ ws.length + 1 := by
  obtain ⟨a, hr, _⟩ := reachable_rep h hd
  obtain ⟨e', hy', _⟩ := yields_of_rep p _ hr rfl
  obtain ⟨rfl, _⟩ := yields_det hy hy'
  simp only [Decomposer.sizeHintLower, hr.cur_eq, AState.remaining, List.length_append]
  split <;> omega

/-- **C32, the excess occurs.** After `next` and `next_no_decomposition` on `mina ` (with a space at the
end), `size_hint` promises a word, but none comes. -/
theorem C32_size_hint_wrong :
    ∃ d d', Reachable .debug ⟨0, c!"mina "⟩ d ∧ d.sizeHintLower = 1 ∧ d.next .debug = .val (none, d') := by
  have h1 : ∃ x, (decompose ⟨0, c!"mina "⟩).next .debug = .val (some ⟨0, 2⟩, x) ∧
      x.nextNoDecomposition .debug = .val (some ⟨2, 4⟩,
        { peeked := some (some ⟨5, []⟩), split := [], current := [], input := ⟨0, c!"mina "⟩ }) := by
    refine ⟨{ peeked := none, split := [⟨5, []⟩], current := [⟨2, 4⟩], input := ⟨0, c!"mina "⟩ }, ?_, ?_⟩ <;>
      decide +kernel
  obtain ⟨x, h1, h2⟩ := h1
  refine ⟨_, { peeked := none, split := [], current := [], input := ⟨0, c!"mina "⟩ },
    .step .nextNoDecomposition (.step .next .start h1) h2, rfl, ?_⟩
  decide +kernel

end Sneturfahi.Props
