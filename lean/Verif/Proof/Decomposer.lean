import Verif.Proof.Single

/-!
# The decomposer without addresses

`AState` is a decomposer seen as: spans still queued, byte offset of the next chunk, texts of the
chunks still to come.  `next` and `nextNoDecomposition` are proved to compute `aNext` and `aNextND`.
-/

namespace Sneturfahi

theorem isSep_size {c : Char} (h : isSep c = true) : c.utf8Size = 1 := by
  have : ∀ c ∈ c!".\t\n\r?! ", c.utf8Size = 1 := by decide
  exact this c (by simpa [isSep] using h)

theorem isSep_comma : isSep ',' = false := by decide

/-- The texts of the pieces of `str::split`. -/
def chunks : List Char → List (List Char)
  | [] => [[]]
  | c :: cs =>
    if isSep c then [] :: chunks cs
    else
      match chunks cs with
      | w :: ws => (c :: w) :: ws
      | [] => [[c]]

/-- Consecutive texts with one byte between them, from address `ptr` on. -/
def place (ptr : Nat) : List (List Char) → List Str
  | [] => []
  | w :: ws => ⟨ptr, w⟩ :: place (ptr + byteLen w + 1) ws

theorem chunks_ne_nil (cs : List Char) : chunks cs ≠ [] := by
  cases cs with
  | nil => simp [chunks]
  | cons c cs => simp only [chunks]; split <;> (try split) <;> simp

theorem pieces_eq (ptr : Nat) (cs : List Char) : pieces ptr cs = place ptr (chunks cs) := by
  induction cs generalizing ptr with
  | nil => rfl
  | cons c cs ih =>
    simp only [pieces, chunks]
    split
    · rename_i h
      simp [place, ih, isSep_size h]
    · rw [ih]
      cases h : chunks cs with
      | nil => exact absurd h (chunks_ne_nil cs)
      | cons w ws => simp [place, Nat.add_assoc]

/-- The bytes taken by chunks and the separators after them. -/
def offsetOf : List (List Char) → Nat
  | [] => 0
  | w :: ws => byteLen w + 1 + offsetOf ws

@[simp] theorem offsetOf_append (a b : List (List Char)) : offsetOf (a ++ b) = offsetOf a + offsetOf b := by
  induction a with
  | nil => simp [offsetOf]
  | cons w a ih => simp [offsetOf, ih]; omega

theorem offsetOf_chunks (cs : List Char) : offsetOf (chunks cs) = byteLen cs + 1 := by
  induction cs with
  | nil => rfl
  | cons c cs ih =>
    simp only [chunks]
    split
    · rename_i h
      simp [offsetOf, ih, isSep_size h]; omega
    · cases h : chunks cs with
      | nil => exact absurd h (chunks_ne_nil cs)
      | cons w ws => rw [h] at ih; simp [offsetOf] at ih ⊢; omega

/-- Abstract state of a decomposer. -/
structure AState where
  cur : List Span
  off : Nat
  rest : List (List Char)
deriving DecidableEq

/-- `next` on abstract states. -/
def aNextRest (off : Nat) : List (List Char) → Option Span × AState
  | [] => (none, ⟨[], off, []⟩)
  | c :: rest =>
    match layout off (singleWords c) with
    | w :: ws => (some w, ⟨ws, off + byteLen c + 1, rest⟩)
    | [] => aNextRest (off + byteLen c + 1) rest

@[inherit_doc aNextRest]
def aNext : AState → Option Span × AState
  | ⟨w :: ws, off, rest⟩ => (some w, ⟨ws, off, rest⟩)
  | ⟨[], off, rest⟩ => aNextRest off rest

/-- `next_no_decomposition` on abstract states. -/
def aNextND : AState → Option Span × AState
  | ⟨w :: _, off, rest⟩ => (some ⟨w.start, off - 1⟩, ⟨[], off, rest⟩)
  | ⟨[], off, c :: rest⟩ => (some ⟨off, off + byteLen c⟩, ⟨[], off + byteLen c + 1, rest⟩)
  | ⟨[], off, []⟩ => (none, ⟨[], off, []⟩)

/-- The chunks a decomposer is still going to look at. -/
def Decomposer.pending (d : Decomposer) : List Str :=
  match d.peeked with
  | some (some s) => s :: d.split
  | some none => []
  | none => d.split

/-- The decomposer `d` over `input` is in abstract state `a`. -/
structure Rep (input : Str) (d : Decomposer) (a : AState) : Prop where
  input_eq : d.input = input
  small : input.len < u32Size
  cur_eq : d.current = a.cur
  pending_eq : d.pending = place (input.ptr + a.off) a.rest
  total : a.off + offsetOf a.rest = input.len + 1
  off_pos : a.cur ≠ [] → 1 ≤ a.off
  peeked_none : d.peeked = some none → d.split = []

theorem rep_new {input : Str} (h : input.len < u32Size) :
    Rep input (decompose input) ⟨[], 0, chunks input.chars⟩ where
  input_eq := rfl
  small := h
  cur_eq := rfl
  pending_eq := by simp [decompose, Decomposer.new, Decomposer.pending, pieces_eq]
  total := by simp [offsetOf_chunks, Str.len]
  off_pos := by simp
  peeked_none := by simp [decompose, Decomposer.new]

/-! ### A chunk of commas has no words -/

theorem falls_allCommas {cs : List Char} (h : AllCommas cs) : falls cs = ([], cs) := by
  apply falls_none
  cases hf : fallOffPure cs with
  | none => rfl
  | some x =>
    obtain ⟨m, r⟩ := x
    have h1 := fallOffPure_append hf
    have h2 := fallOffPure_ne_nil hf
    have h3 := fallOffPure_noTrail hf
    exact absurd (h3.allCommas (fun x hx => h x (by rw [← h1]; simp [hx]))) h2

theorem singleWords_allCommas {cs : List Char} (h : AllCommas cs) : singleWords cs = [] := by
  have h1 : noCommas cs = [] := h.noCommas
  have h2 : endsInConsonant cs = false := by
    cases he : endsInConsonant cs with
    | false => rfl
    | true => exact absurd h1 (endsInConsonant_hasLetter he)
  have h3 : trimCommas cs = [] := by
    have := noCommas_trim cs
    rw [h1] at this
    exact (trimCommas_noTrail cs).allCommas (noCommas_eq_nil.mp this)
  simp [singleWords, h2, falls_allCommas h, lastWord, h3]

theorem wantedChunk_iff (s : Str) : Decomposer.wantedChunk s = true ↔ ¬ AllCommas s.chars := by
  simp only [Decomposer.wantedChunk, Str.isEmpty, AllCommas, Bool.and_eq_true, Bool.not_eq_true',
    List.isEmpty_eq_false_iff, List.all_eq_false]
  constructor
  · rintro ⟨_, x, hx, h⟩ h2
    exact h (by simpa using h2 x hx)
  · intro h
    refine ⟨fun hn => h (by simp [hn]), ?_⟩
    apply Classical.byContradiction
    intro hcon
    apply h
    intro x hx
    apply Classical.byContradiction
    intro hx2
    exact hcon ⟨x, hx, by simpa using hx2⟩

theorem singleWords_eq_nil_iff (cs : List Char) : singleWords cs = [] ↔ AllCommas cs := by
  constructor
  · intro h
    apply Classical.byContradiction
    intro hc
    exact singleWords_ne_nil (fun hn => hc (noCommas_eq_nil.mp hn)) h
  · exact singleWords_allCommas

/-! ### `next` -/

theorem shiftAll_layout (p : Profile) (offset : Nat) (ws : List (List Char)) (off : Nat)
    (h : off + offset + byteLen ws.flatten < u32Size) :
    Decomposer.shiftAll p offset (layout off ws) = .val (layout (off + offset) ws) := by
  induction ws generalizing off with
  | nil => rfl
  | cons w ws ih =>
    simp at h
    simp only [layout, Decomposer.shiftAll]
    rw [ih _ (by omega)]
    rw [show off + byteLen w + offset = off + offset + byteLen w by omega]
    simp only [addU32, show off + byteLen w + offset = off + offset + byteLen w by omega,
      if_pos (show off + offset < u32Size by omega),
      if_pos (show off + offset + byteLen w < u32Size by omega), Exec.val_bind, Exec.pure_eq]

/-- Extending the text of the words of `layout` is bounded by the chunk. -/
theorem byteLen_singleWords_le (cs : List Char) : byteLen (singleWords cs).flatten ≤ byteLen cs := by
  obtain ⟨k, _, h⟩ := singleWords_flatten cs
  have := congrArg byteLen h
  simp at this
  omega

theorem place_cons_inv {ptr : Nat} {ws : List (List Char)} {s : Str} {ss : List Str}
    (h : s :: ss = place ptr ws) :
    ∃ w ws', ws = w :: ws' ∧ s = ⟨ptr, w⟩ ∧ ss = place (ptr + byteLen w + 1) ws' := by
  cases ws with
  | nil => simp [place] at h
  | cons w ws' => simp [place] at h; exact ⟨w, ws', rfl, h.1, h.2⟩

theorem place_eq_nil {ptr : Nat} {ws : List (List Char)} : place ptr ws = [] ↔ ws = [] := by
  cases ws <;> simp [place]

/-- What `find` does on the pending chunks. -/
def findPending : List Str → Option Str × List Str
  | [] => (none, [])
  | s :: ss => if Decomposer.wantedChunk s then (some s, ss) else findPending ss

theorem findSplit_eq (d : Decomposer) (ss : List Str) :
    Decomposer.findSplit d ss = ((findPending ss).1, { d with peeked := none, split := (findPending ss).2 }) := by
  induction ss with
  | nil => rfl
  | cons s ss ih =>
    simp only [Decomposer.findSplit, findPending]
    split <;> simp_all

theorem chunksFind_eq (d : Decomposer) (h : d.peeked = some none → d.split = []) :
    Decomposer.chunksFind d =
      ((findPending d.pending).1, { d with peeked := none, split := (findPending d.pending).2 }) := by
  unfold Decomposer.chunksFind
  split
  · rename_i hp
    simp [Decomposer.pending, hp, findPending, h hp]
  · rename_i s hp
    simp only [Decomposer.pending, hp, findPending]
    split
    · rfl
    · rw [findSplit_eq]
  · rename_i hp
    rw [findSplit_eq]
    simp [Decomposer.pending, hp]

theorem findPending_place (ptr off : Nat) (rest : List (List Char)) :
    (∃ pre c post, rest = pre ++ c :: post ∧ (∀ w ∈ pre, AllCommas w) ∧ ¬ AllCommas c ∧
      findPending (place (ptr + off) rest) =
        (some ⟨ptr + (off + offsetOf pre), c⟩, place (ptr + (off + offsetOf pre + byteLen c + 1)) post)) ∨
    ((∀ w ∈ rest, AllCommas w) ∧ findPending (place (ptr + off) rest) = (none, [])) := by
  induction rest generalizing off with
  | nil => exact Or.inr ⟨by simp, rfl⟩
  | cons c rest ih =>
    by_cases hc : AllCommas c
    · have hw : ¬ (Decomposer.wantedChunk ⟨ptr + off, c⟩ = true) := by rw [wantedChunk_iff]; simpa using hc
      have hcomm : ptr + off + byteLen c + 1 = ptr + (off + byteLen c + 1) := by omega
      rcases ih (off + byteLen c + 1) with ⟨pre, c', post, h1, h2, h3, h4⟩ | ⟨h1, h2⟩
      · refine Or.inl ⟨c :: pre, c', post, by simp [h1], ?_, h3, ?_⟩
        · intro w hw; simp at hw; rcases hw with rfl | hw
          · exact hc
          · exact h2 w hw
        · simp only [place, findPending, if_neg hw, hcomm, h4, offsetOf]
          rw [show off + byteLen c + 1 + offsetOf pre = off + (byteLen c + 1 + offsetOf pre) by omega]
      · refine Or.inr ⟨?_, ?_⟩
        · intro w hw; simp at hw; rcases hw with rfl | hw
          · exact hc
          · exact h1 w hw
        · simp only [place, findPending, if_neg hw, hcomm, h2]
    · refine Or.inl ⟨[], c, rest, rfl, by simp, hc, ?_⟩
      have hw : Decomposer.wantedChunk ⟨ptr + off, c⟩ = true := by rw [wantedChunk_iff]; simpa using hc
      simp [place, findPending, hw, offsetOf, Nat.add_assoc]

theorem aNextRest_skip {pre : List (List Char)} (h : ∀ w ∈ pre, AllCommas w) (off : Nat) (post : List (List Char)) :
    aNextRest off (pre ++ post) = aNextRest (off + offsetOf pre) post := by
  induction pre generalizing off with
  | nil => rfl
  | cons c pre ih =>
    have hc := singleWords_allCommas (h c (by simp))
    simp only [List.cons_append, aNextRest, hc, layout, offsetOf]
    rw [ih (fun w hw => h w (by simp [hw]))]
    simp [Nat.add_assoc]

theorem aNextRest_blank {rest : List (List Char)} (h : ∀ w ∈ rest, AllCommas w) (off : Nat) :
    aNextRest off rest = (none, ⟨[], off + offsetOf rest, []⟩) := by
  have := aNextRest_skip h off []
  rw [List.append_nil] at this
  rw [this]; rfl

theorem Rep.next {input : Str} {d : Decomposer} {a : AState} (h : Rep input d a) (p : Profile) :
    ∃ d', d.next p = .val ((aNext a).1, d') ∧ Rep input d' (aNext a).2 := by
  obtain ⟨cur, off, rest⟩ := a
  obtain ⟨h1, h2, h3, h4, h5, h6, h7⟩ := h
  simp only at h3 h4 h5 h6
  cases cur with
  | cons w ws =>
    refine ⟨{ d with current := ws }, ?_, ⟨h1, h2, rfl, h4, h5, fun _ => h6 (by simp), h7⟩⟩
    simp [Decomposer.next, Decomposer.nextLoop, h3, aNext]
  | nil =>
    simp only [Decomposer.next, Decomposer.nextLoop, h3]
    rw [chunksFind_eq d h7, h4]
    rcases findPending_place input.ptr off rest with ⟨pre, c, post, e1, e2, e3, e4⟩ | ⟨e1, e2⟩
    · rw [e4]
      simp only
      have htot : off + offsetOf pre + byteLen c + 1 + offsetOf post = input.len + 1 := by
        rw [e1] at h5; simp [offsetOf] at h5; omega
      have hle := byteLen_singleWords_le c
      have hs : subPtr (input.ptr + (off + offsetOf pre)) d.input.ptr = .val (off + offsetOf pre) := by
        simp [subPtr, h1]
      have ht : tryU32 (off + offsetOf pre) = .val (off + offsetOf pre) := by
        simp [tryU32, show off + offsetOf pre < u32Size by omega]
      rw [hs]
      simp only [Exec.val_bind]
      rw [ht]
      simp only [Exec.val_bind]
      rw [decomposeSingle_eq p _ (by simp [Str.len]; omega)]
      simp only [Exec.val_bind]
      rw [shiftAll_layout p _ _ _ (by omega)]
      simp only [Exec.val_bind, Nat.zero_add]
      have hskip : aNext ⟨[], off, rest⟩ = aNextRest (off + offsetOf pre) (c :: post) := by
        rw [e1]; exact aNextRest_skip e2 off (c :: post)
      rw [hskip]
      cases hw : singleWords c with
      | nil => exact absurd ((singleWords_eq_nil_iff c).mp hw) e3
      | cons w ws =>
        refine ⟨{ d with
            peeked := none
            split := place (input.ptr + (off + offsetOf pre + byteLen c + 1)) post
            current := layout (off + offsetOf pre + byteLen w) ws }, ?_, ?_⟩
        · simp [aNextRest, hw, layout]
        · simp only [aNextRest, hw, layout]
          exact ⟨h1, h2, rfl, rfl, htot, by simp, by simp⟩
    · rw [e2]
      refine ⟨{ d with peeked := none, split := [] }, ?_, ?_⟩
      · simp [aNext, aNextRest_blank e1]
      · simp only [aNext, aNextRest_blank e1]
        exact ⟨h1, h2, h3, rfl, by simp [offsetOf]; omega, by simp, by simp⟩

theorem Rep.nextND {input : Str} {d : Decomposer} {a : AState} (h : Rep input d a) (p : Profile) :
    ∃ d', d.nextNoDecomposition p = .val ((aNextND a).1, d') ∧ Rep input d' (aNextND a).2 := by
  obtain ⟨cur, off, rest⟩ := a
  obtain ⟨h1, h2, h3, h4, h5, h6, h7⟩ := h
  simp only at h3 h4 h5 h6
  have hslice : ∀ w : List Char, off + byteLen w ≤ input.len →
      Span.fromEmbeddedSlice p d.input.ptr ⟨input.ptr + off, w⟩ = .val ⟨off, off + byteLen w⟩ := by
    intro w hw
    rw [h1]
    exact fromEmbeddedSlice_eq p input.ptr off w (by omega)
  cases rest with
  | nil =>
    simp only [place] at h4
    simp only [offsetOf] at h5
    have hsplit : d.split = [] := by
      cases hp : d.peeked with
      | none => simpa [Decomposer.pending, hp] using h4
      | some o => cases o with
        | none => exact h7 hp
        | some s => simp [Decomposer.pending, hp] at h4
    have hpk : d.peeked = none ∨ d.peeked = some none := by
      cases hp : d.peeked with
      | none => exact Or.inl rfl
      | some o => cases o with
        | none => exact Or.inr rfl
        | some s => simp [Decomposer.pending, hp] at h4
    cases cur with
    | nil =>
      rcases hpk with hp | hp
      · exact ⟨d, by simp [Decomposer.nextNoDecomposition, Decomposer.chunksNext, h3, hp, hsplit, aNextND],
          ⟨h1, h2, h3, by simpa [aNextND, place] using h4, by simpa [aNextND, offsetOf] using h5,
            by simp [aNextND], h7⟩⟩
      · exact ⟨{ d with peeked := none },
          by simp [Decomposer.nextNoDecomposition, Decomposer.chunksNext, h3, hp, aNextND],
          ⟨h1, h2, h3, by simp [aNextND, place, Decomposer.pending, hsplit],
            by simpa [aNextND, offsetOf] using h5, by simp [aNextND], by simp⟩⟩
    | cons w ws =>
      refine ⟨{ d with peeked := some none, current := [] }, ?_, ?_⟩
      · have ht : tryU32 d.input.len = .val (off - 1) := by
          rw [h1, show input.len = off - 1 by omega]
          simp [tryU32, show off - 1 < u32Size by omega]
        rcases hpk with hp | hp
        · simp [Decomposer.nextNoDecomposition, Decomposer.chunksPeek, h3, hp, hsplit, aNextND, ht]
        · simp [Decomposer.nextNoDecomposition, Decomposer.chunksPeek, h3, hp, aNextND, ht]
      · exact ⟨h1, h2, rfl, by simp [aNextND, place, Decomposer.pending], by simpa [aNextND, offsetOf] using h5,
          by simp [aNextND], fun _ => hsplit⟩
  | cons c rest =>
    simp only [place] at h4
    simp only [offsetOf] at h5
    have hsl := hslice c (by omega)
    have hpk : (d.peeked = none ∧ d.split = ⟨input.ptr + off, c⟩ :: place (input.ptr + off + byteLen c + 1) rest) ∨
        (d.peeked = some (some ⟨input.ptr + off, c⟩) ∧ d.split = place (input.ptr + off + byteLen c + 1) rest) := by
      cases hp : d.peeked with
      | none => exact Or.inl ⟨rfl, by simpa [Decomposer.pending, hp] using h4⟩
      | some o => cases o with
        | none => simp [Decomposer.pending, hp] at h4
        | some s => simp [Decomposer.pending, hp] at h4; exact Or.inr ⟨by simp [h4.1], h4.2⟩
    cases cur with
    | nil =>
      refine ⟨{ d with peeked := none, split := place (input.ptr + off + byteLen c + 1) rest }, ?_, ?_⟩
      · rcases hpk with ⟨hp, hs⟩ | ⟨hp, hs⟩
        · simp [Decomposer.nextNoDecomposition, Decomposer.chunksNext, h3, hp, hs, aNextND, hsl]
        · simp [Decomposer.nextNoDecomposition, Decomposer.chunksNext, h3, hp, aNextND, hsl, hs]
      · exact ⟨h1, h2, h3, by simp [aNextND, Decomposer.pending, Nat.add_assoc], by simp only [aNextND]; omega,
          by simp [aNextND], by simp⟩
    | cons w ws =>
      have hpos : 1 ≤ off := h6 (by simp)
      refine ⟨{ d with
          peeked := some (some ⟨input.ptr + off, c⟩)
          split := place (input.ptr + off + byteLen c + 1) rest, current := [] }, ?_, ?_⟩
      · rcases hpk with ⟨hp, hs⟩ | ⟨hp, hs⟩
        · simp [Decomposer.nextNoDecomposition, Decomposer.chunksPeek, h3, hp, hs, aNextND, hsl, subU32, hpos]
        · simp [Decomposer.nextNoDecomposition, Decomposer.chunksPeek, h3, hp, aNextND, hsl, subU32, hpos]
          cases d; simp_all
      · exact ⟨h1, h2, rfl, by simp [aNextND, Decomposer.pending, place], by simp only [aNextND, offsetOf]; omega,
          by simp [aNextND], by simp⟩

/-! ### Whole texts -/

/-- The spans of all words of consecutive chunks. -/
def spansAt (off : Nat) : List (List Char) → List Span
  | [] => []
  | c :: cs => layout off (singleWords c) ++ spansAt (off + byteLen c + 1) cs

/-- What is still to come from `next`. -/
def AState.remaining (a : AState) : List Span := a.cur ++ spansAt a.off a.rest

theorem aNextRest_remaining (off : Nat) (rest : List (List Char)) :
    ((aNextRest off rest).1 = none ∧ spansAt off rest = [] ∧ (aNextRest off rest).2.remaining = []) ∨
    ∃ w, (aNextRest off rest).1 = some w ∧ spansAt off rest = w :: (aNextRest off rest).2.remaining := by
  induction rest generalizing off with
  | nil => exact Or.inl ⟨rfl, rfl, rfl⟩
  | cons c rest ih =>
    simp only [aNextRest, spansAt]
    cases hl : layout off (singleWords c) with
    | nil => simpa using ih _
    | cons w ws => exact Or.inr ⟨w, rfl, rfl⟩

theorem aNext_remaining (a : AState) :
    ((aNext a).1 = none ∧ a.remaining = [] ∧ (aNext a).2.remaining = []) ∨
    ∃ w, (aNext a).1 = some w ∧ a.remaining = w :: (aNext a).2.remaining := by
  obtain ⟨cur, off, rest⟩ := a
  cases cur with
  | cons w ws => exact Or.inr ⟨w, rfl, rfl⟩
  | nil => simpa [aNext, AState.remaining] using aNextRest_remaining off rest

theorem collectWords_eq {input : Str} (p : Profile) : ∀ (fuel : Nat) {d : Decomposer} {a : AState},
    Rep input d a → a.remaining.length < fuel → collectWords p fuel d = .val a.remaining := by
  intro fuel
  induction fuel with
  | zero => intro d a _ h; omega
  | succ fuel ih =>
    intro d a h hlen
    obtain ⟨d', hd, hr⟩ := h.next p
    simp only [collectWords, hd, Exec.val_bind]
    rcases aNext_remaining a with ⟨h1, h2, _⟩ | ⟨w, h1, h2⟩
    · simp [h1, h2]
    · rw [h1]
      simp only
      rw [ih hr (by rw [h2] at hlen; simp at hlen; omega), h2]
      rfl

theorem length_le_of_ne_nil : ∀ {ws : List (List Char)}, (∀ w ∈ ws, w ≠ []) → ws.length ≤ ws.flatten.length := by
  intro ws
  induction ws with
  | nil => simp
  | cons w ws ih =>
    intro h
    have h1 := List.length_pos_iff.mpr (h w (by simp))
    have h2 := ih (fun x hx => h x (by simp [hx]))
    rw [List.flatten_cons, List.length_append, List.length_cons]; omega

theorem singleWords_length_le (cs : List Char) : (singleWords cs).length ≤ cs.length := by
  have h1 : (singleWords cs).length ≤ (singleWords cs).flatten.length :=
    length_le_of_ne_nil (fun w hw hn => singleWords_hasLetter cs w hw (by simp [hn]))
  obtain ⟨k, _, h⟩ := singleWords_flatten cs
  have := congrArg List.length h
  rw [List.length_append] at this
  omega

theorem spansAt_length (off : Nat) (rest : List (List Char)) :
    (spansAt off rest).length ≤ (rest.map List.length).sum := by
  induction rest generalizing off with
  | nil => simp [spansAt]
  | cons c rest ih =>
    have := ih (off + byteLen c + 1)
    have := singleWords_length_le c
    simp [spansAt]; omega

theorem chunks_length_sum (cs : List Char) : ((chunks cs).map List.length).sum ≤ cs.length := by
  induction cs with
  | nil => simp [chunks]
  | cons c cs ih =>
    simp only [chunks]
    split
    · simp; omega
    · cases h : chunks cs with
      | nil => simp
      | cons w ws => rw [h] at ih; simp at ih ⊢; omega

theorem decomposeAll_eq (p : Profile) (input : Str) (h : input.len < u32Size) :
    decomposeAll p input = .val (spansAt 0 (chunks input.chars)) := by
  have h1 := spansAt_length 0 (chunks input.chars)
  have h2 := chunks_length_sum input.chars
  have := collectWords_eq p (input.chars.length + 1) (rep_new h)
    (by simp [AState.remaining]; omega)
  rw [decomposeAll, this]
  simp [AState.remaining]

end Sneturfahi
