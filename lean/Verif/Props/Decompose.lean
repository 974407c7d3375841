import Verif.Proof.Interleave

/-!
# Properties of decomposition (C20-C32)
-/

namespace Sneturfahi.Props

open Spec

/-! ### C20: termination, no panic -/

theorem yields_of_rep {input : Str} (p : Profile) : ∀ (n : Nat) {d : Decomposer} {a : AState}, Rep input d a →
    a.remaining.length = n → ∃ d', Yields (Decomposer.next p) d a.remaining d' ∧
      ∃ a', Rep input d' a' ∧ a'.Over := by
  intro n
  induction n with
  | zero =>
    intro d a h hn
    obtain ⟨d', hd, hr⟩ := h.next p
    rcases aNext_remaining a with ⟨h1, h2, _⟩ | ⟨w, h1, h2⟩
    · refine ⟨d', ?_, _, hr, aNext_none h1⟩
      rw [h2]; exact .done (by rw [hd, h1])
    · rw [h2] at hn; simp at hn
  | succ n ih =>
    intro d a h hn
    obtain ⟨d', hd, hr⟩ := h.next p
    rcases aNext_remaining a with ⟨h1, h2, _⟩ | ⟨w, h1, h2⟩
    · rw [h2] at hn; simp at hn
    · rw [h2] at hn
      simp at hn
      obtain ⟨d'', hy, hx⟩ := ih hr hn
      refine ⟨d'', ?_, hx⟩
      rw [h2]; exact .more (by rw [hd, h1]) hy

theorem yields_det {S α : Type} {f : S → Exec (Option α × S)} {s s1 s2 : S} {l1 l2 : List α}
    (h1 : Yields f s l1 s1) (h2 : Yields f s l2 s2) : l1 = l2 ∧ s1 = s2 := by
  induction h1 generalizing l2 s2 with
  | done h => cases h2 with
    | done h' => rw [h] at h'; cases h'; exact ⟨rfl, rfl⟩
    | more h' _ => rw [h] at h'; cases h'
  | more h _ ih => cases h2 with
    | done h' => rw [h] at h'; cases h'
    | more h' h2 => rw [h] at h'; cases h'; obtain ⟨rfl, rfl⟩ := ih h2; exact ⟨rfl, rfl⟩

/-- **C20.** For every text below 4 GiB, calling `next` on `decompose(text)` yields finitely many
words and then `None`, in both build profiles the same, without panic; from then on it answers
`None` for ever. -/
theorem C20_terminates (input : Str) (h : input.len < 2 ^ 32) :
    ∃ words, ∀ p, decomposeAll p input = .val words ∧
      ∃ d, Yields (Decomposer.next p) (decompose input) words d ∧ Fused (Decomposer.next p) d := by
  refine ⟨spansAt 0 (chunks input.chars), fun p => ⟨decomposeAll_eq p input h, ?_⟩⟩
  obtain ⟨d, hy, a, hr, ho⟩ := yields_of_rep p _ (rep_new (input := input) h) rfl
  refine ⟨d, by simpa [AState.remaining] using hy, fun d => ∃ a, Rep input d a ∧ a.Over, ⟨a, hr, ho⟩, ?_⟩
  rintro d ⟨a, hr, ho⟩
  obtain ⟨d', hd, hr'⟩ := hr.next p
  have := Over.next ho
  exact ⟨d', by rw [hd, this.1], _, hr', this.2⟩

/-- `decomposeAll`, used in the statements below, is the sequence of the answers of `next`. -/
theorem C20_decomposeAll_yields (p : Profile) (input : Str) (h : input.len < 2 ^ 32) (words : List Span) :
    decomposeAll p input = .val words ↔ ∃ d, Yields (Decomposer.next p) (decompose input) words d := by
  obtain ⟨ws, hws⟩ := C20_terminates input h
  obtain ⟨h1, d, h2, _⟩ := hws p
  constructor
  · intro h3; rw [h1] at h3; cases h3; exact ⟨d, h2⟩
  · rintro ⟨d', h3⟩; rw [h1, (yields_det h2 h3).1]

example : decomposeAll .debug ⟨100, c!"coi rodo"⟩ = .val [⟨0, 3⟩, ⟨4, 6⟩, ⟨6, 8⟩] := by decide +kernel

/-! ### C21-C23: what the words are -/

theorem textsOf_mem {input : Str} {spans : List Span} {texts : List (List Char)} (h : TextsOf input spans texts)
    {s : Span} (hs : s ∈ spans) : ∃ t, s.slice input = some t ∧ t.chars ∈ texts := by
  induction spans generalizing texts with
  | nil => simp at hs
  | cons x spans ih =>
    cases texts with
    | nil => simp [TextsOf] at h
    | cons w texts =>
      simp only [TextsOf, List.map_cons, List.cons.injEq] at h
      simp at hs
      rcases hs with rfl | hs
      · cases hx : s.slice input with
        | none => rw [hx] at h; simp at h
        | some t => rw [hx] at h; simp at h; exact ⟨t, rfl, by simp [h.1]⟩
      · obtain ⟨t, h1, h2⟩ := ih h.2 hs
        exact ⟨t, h1, by simp [h2]⟩

/-- **C21.** Every yielded span slices out of the text to a non-empty slice of its length; the spans
are in increasing order without overlap. -/
theorem C21_spans_valid (p : Profile) (input : Str) (h : input.len < 2 ^ 32) (words : List Span)
    (hw : decomposeAll p input = .val words) :
    (∀ s ∈ words, s.start < s.stop ∧ s.stop ≤ input.len ∧
      ∃ t, s.slice input = some t ∧ t.chars ≠ [] ∧ t.len = s.stop - s.start) ∧
    words.Pairwise (fun a b => a.stop ≤ b.start) := by
  rw [decomposeAll_eq p input h] at hw
  cases hw
  constructor
  · intro s hs
    obtain ⟨t, h1, h2⟩ := textsOf_mem (decomposed_texts input) hs
    simp only [wordTexts, List.mem_flatMap] at h2
    obtain ⟨c, _, h2⟩ := h2
    have hne : t.chars ≠ [] := fun hn => singleWords_hasLetter c _ h2 (by simp [hn])
    obtain ⟨pre, post, e1, e2, e3, e4⟩ := slice_inv (base := input.ptr) (cs := input.chars) h1
    have hpos : 0 < byteLen t.chars := by
      rcases Nat.eq_zero_or_pos (byteLen t.chars) with h0 | h0
      · exact absurd (byteLen_eq_zero.mp h0) hne
      · exact h0
    refine ⟨by omega, ?_, t, h1, hne, by simp only [Str.len]; omega⟩
    have := congrArg byteLen e1
    simp at this
    simp only [Str.len]; omega
  · exact (spansAt_ordered 0 (chunks input.chars)).pairwise

/-- **C22.** Nothing is lost, duplicated or reordered: the words without commas, one after the other,
are the text without commas and separators. -/
theorem C22_nothing_lost (p : Profile) (input : Str) (h : input.len < 2 ^ 32) (words : List Span)
    (hw : decomposeAll p input = .val words) :
    ∃ texts, TextsOf input words texts ∧
      texts.flatten.filter (fun c => c ≠ ',') = input.chars.filter (fun c => c ≠ ',' ∧ ¬ IsSeparator c) := by
  rw [decomposeAll_eq p input h] at hw
  cases hw
  refine ⟨_, decomposed_texts input, ?_⟩
  have key : ∀ (cs : List Char) ws, chunks cs = ws →
      (ws.flatMap singleWords).flatten.filter (fun c => c ≠ ',') =
        cs.filter (fun c => c ≠ ',' ∧ ¬ IsSeparator c) := by
    intro cs ws
    induction ws generalizing cs with
    | nil => intro h; exact absurd h (chunks_ne_nil cs)
    | cons c ws ih =>
      intro h
      have h1 : (singleWords c).flatten.filter (fun x => decide (x ≠ ',')) = c.filter (fun x => decide (x ≠ ',')) := by
        obtain ⟨k, hk, e⟩ := singleWords_flatten c
        have hk' : k.filter (fun x => decide (x ≠ ',')) = [] := by
          rw [List.filter_eq_nil_iff]
          intro x hx
          simp [hk x hx]
        conv => rhs; rw [e]
        rw [List.filter_append, hk', List.append_nil]
      have h2 : ∀ c : List Char, NoSeparator c →
          c.filter (fun x => decide (x ≠ ',')) = c.filter (fun x => decide (x ≠ ',' ∧ ¬ IsSeparator x)) := by
        intro c hc
        apply List.filter_congr
        intro x hx
        simp [hc x hx]
      simp only [List.flatMap_cons, List.flatten_append, List.filter_append]
      obtain ⟨hns, ⟨e1, e2⟩ | ⟨s, t, e1, e2, e3⟩⟩ := chunks_cons h
      · subst e1 e2
        rw [h1, h2 cs hns]
        simp
      · rw [ih t e3, h1, h2 c hns, e2]
        simp [List.filter_append, e1]
  exact key _ _ rfl

/-- **C23.** No word contains a separator, and every word contains something other than commas. -/
theorem C23_word_characters (p : Profile) (input : Str) (h : input.len < 2 ^ 32) (words : List Span)
    (hw : decomposeAll p input = .val words) (s : Span) (hs : s ∈ words) :
    ∃ t, s.slice input = some t ∧ NoSeparator t.chars ∧ ∃ c ∈ t.chars, c ≠ ',' := by
  rw [decomposeAll_eq p input h] at hw
  cases hw
  obtain ⟨t, h1, h2⟩ := textsOf_mem (decomposed_texts input) hs
  simp only [wordTexts, List.mem_flatMap] at h2
  obtain ⟨c, hc, h2⟩ := h2
  refine ⟨t, h1, ?_, ?_⟩
  · obtain ⟨ds, rest, e⟩ := List.append_of_mem hc
    obtain ⟨pre, post, _, _, hns, _⟩ := chunks_at e
    obtain ⟨k, _, hk⟩ := singleWords_flatten c
    intro x hx
    apply hns x
    rw [hk]
    simp only [List.mem_append, List.mem_flatten]
    exact Or.inl ⟨_, h2, hx⟩
  · have := singleWords_hasLetter c _ h2
    obtain ⟨x, hx⟩ := List.exists_mem_of_ne_nil _ this
    simp [noCommas] at hx
    exact ⟨x, hx.1, hx.2⟩

example : decomposeAll .debug ⟨0, c!"mi,.,,klama la .alis."⟩ =
    .val [⟨0, 2⟩, ⟨4, 11⟩, ⟨12, 14⟩, ⟨16, 20⟩] := by decide +kernel

/-! ### C24, C25: separators -/

/-- **C24.** Decomposition is local: a separator splits the work, and what comes after is only
moved. -/
theorem C24_local (p : Profile) (ptr ptra ptrb : Nat) (a b : List Char) (sep : Char) (hs : IsSeparator sep)
    (h : byteLen (a ++ sep :: b) < 2 ^ 32) :
    ∃ wa wb, decomposeAll p ⟨ptra, a⟩ = .val wa ∧ decomposeAll p ⟨ptrb, b⟩ = .val wb ∧
      decomposeAll p ⟨ptr, a ++ sep :: b⟩ = .val (wa ++ wb.map (shift (byteLen a + 1))) := by
  have hl : byteLen a < u32Size ∧ byteLen b < u32Size := by
    simp at h; simp only [u32Size]; omega
  refine ⟨_, _, decomposeAll_eq p ⟨ptra, a⟩ hl.1, decomposeAll_eq p ⟨ptrb, b⟩ hl.2, ?_⟩
  rw [decomposeAll_eq p ⟨ptr, a ++ sep :: b⟩ h]
  simp only [spansAt_sep a hs b]

/-- The texts are equal except that a separator may stand where another stands. -/
inductive SameUpToSeparators : List Char → List Char → Prop
  | nil : SameUpToSeparators [] []
  | same {c a b} : SameUpToSeparators a b → SameUpToSeparators (c :: a) (c :: b)
  | sep {c d a b} : IsSeparator c → IsSeparator d → SameUpToSeparators a b →
      SameUpToSeparators (c :: a) (d :: b)

theorem sameSep_chunks {a b : List Char} (h : SameUpToSeparators a b) : chunks a = chunks b := by
  induction h with
  | nil => rfl
  | same _ ih => simp only [chunks, ih]
  | sep h1 h2 _ ih => simp only [chunks, (isSep_iff _).mpr h1, (isSep_iff _).mpr h2, ih, if_true]

/-- **C25.** Which separator stands somewhere has no influence on the spans. -/
theorem C25_separators_interchangeable (p : Profile) (ptr ptr' : Nat) (a b : List Char)
    (h : byteLen a < 2 ^ 32) (hab : SameUpToSeparators a b) :
    ∃ ws, decomposeAll p ⟨ptr, a⟩ = .val ws ∧ decomposeAll p ⟨ptr', b⟩ = .val ws := by
  have hlen : byteLen b = byteLen a := by
    have h1 := offsetOf_chunks a
    rw [sameSep_chunks hab, offsetOf_chunks b] at h1
    omega
  refine ⟨_, decomposeAll_eq p ⟨ptr, a⟩ h, ?_⟩
  rw [decomposeAll_eq p ⟨ptr', b⟩ (by simp only [Str.len, u32Size]; omega)]
  simp only [sameSep_chunks hab]

/-- **C25.** An extra separator at the start moves everything by one byte, one at the end changes
nothing, one next to another separator moves what follows by one byte. -/
theorem C25_extra_separators (p : Profile) (ptr ptr' ptr'' : Nat) (a b : List Char) (s s' : Char)
    (hs : IsSeparator s) (hs' : IsSeparator s') (h : byteLen (a ++ s :: s' :: b) < 2 ^ 32) :
    ∃ wa wb, decomposeAll p ⟨ptr', a⟩ = .val wa ∧ decomposeAll p ⟨ptr'', b⟩ = .val wb ∧
      decomposeAll p ⟨ptr, s' :: b⟩ = .val (wb.map (shift 1)) ∧
      decomposeAll p ⟨ptr, a ++ [s]⟩ = .val wa ∧
      decomposeAll p ⟨ptr, a ++ s :: b⟩ = .val (wa ++ wb.map (shift (byteLen a + 1))) ∧
      decomposeAll p ⟨ptr, a ++ s :: s' :: b⟩ = .val (wa ++ (wb.map (shift (byteLen a + 1))).map (shift 1)) := by
  have e1 := isSep_size ((isSep_iff s).mpr hs)
  have e2 := isSep_size ((isSep_iff s').mpr hs')
  simp [e1, e2] at h
  have hb : byteLen b < u32Size := by simp only [u32Size]; omega
  have ha : byteLen a < u32Size := by simp only [u32Size]; omega
  have h1 : byteLen (s' :: b) < u32Size := by simp only [u32Size, byteLen_cons, e2]; omega
  have h2 : byteLen (a ++ [s]) < u32Size := by simp only [u32Size, byteLen_append, byteLen_cons, e1, byteLen_nil]; omega
  have h3 : byteLen (a ++ s :: b) < u32Size := by simp only [u32Size, byteLen_append, byteLen_cons, e1]; omega
  have h4 : byteLen (a ++ s :: s' :: b) < u32Size := by
    simp only [u32Size, byteLen_append, byteLen_cons, e1, e2]; omega
  have n1 : spansAt 0 (chunks ([] : List Char)) = [] := by
    simp [chunks, spansAt, singleWords_allCommas (cs := []) (by simp [AllCommas]), layout]
  have k1 := spansAt_sep [] hs' b
  have k2 := spansAt_sep a hs []
  have k3 := spansAt_sep a hs b
  have k4 := spansAt_sep a hs (s' :: b)
  simp only [List.nil_append, byteLen_nil, Nat.zero_add, n1] at k1
  rw [n1] at k2
  rw [k1] at k4
  refine ⟨_, _, decomposeAll_eq p ⟨ptr', a⟩ ha, decomposeAll_eq p ⟨ptr'', b⟩ hb, ?_, ?_, ?_, ?_⟩
  · rw [decomposeAll_eq p ⟨ptr, s' :: b⟩ h1]; simp only [k1]
  · rw [decomposeAll_eq p ⟨ptr, a ++ [s]⟩ h2]; simp only [k2, List.map_nil, List.append_nil]
  · rw [decomposeAll_eq p ⟨ptr, a ++ s :: b⟩ h3]; simp only [k3]
  · rw [decomposeAll_eq p ⟨ptr, a ++ s :: s' :: b⟩ h4]
    simp only [k4, List.map_map]
    congr 2
    apply List.map_congr_left
    intro x _
    simp [shift]; omega

example : IsSeparator ' ' ∧ IsSeparator '.' ∧ SameUpToSeparators c!"mi. do" c!"mi !do" := by
  refine ⟨by decide, by decide, ?_⟩
  exact .same (.same (.sep (by decide) (by decide) (.sep (by decide) (by decide) (.same (.same .nil)))))

/-! ### C26: consonant-final chunks -/

/-- The piece `c` of `a ++ c ++ b` is delimited by separators or the ends of the text. -/
def IsChunk (a c b : List Char) : Prop :=
  NoSeparator c ∧ (a = [] ∨ ∃ x s, IsSeparator s ∧ a = x ++ [s]) ∧
    (b = [] ∨ ∃ s y, IsSeparator s ∧ b = s :: y)

/-- The spans of one chunk are what the chunk alone decomposes to, moved to its place. -/
theorem isChunk_words {a c b : List Char} (h : IsChunk a c b) :
    ∃ before after, spansAt 0 (chunks (a ++ c ++ b)) =
      before ++ layout (byteLen a) (singleWords c) ++ after ∧
      (∀ s ∈ before, s.stop ≤ byteLen a) ∧ (∀ s ∈ after, byteLen a + byteLen c < s.start) := by
  obtain ⟨hc, ha, hb⟩ := h
  have key : ∃ ds rest, chunks (a ++ c ++ b) = ds ++ c :: rest ∧ offsetOf ds = byteLen a := by
    have hcb : ∃ rest, chunks (c ++ b) = c :: rest := by
      rcases hb with rfl | ⟨s, y, hs, rfl⟩
      · exact ⟨[], by rw [List.append_nil, chunks_noSep hc]⟩
      · exact ⟨chunks y, by rw [chunks_append_sep c hs y, chunks_noSep hc]; rfl⟩
    obtain ⟨rest, hcb⟩ := hcb
    rcases ha with rfl | ⟨x, s, hs, rfl⟩
    · exact ⟨[], rest, by simpa using hcb, rfl⟩
    · refine ⟨chunks x, rest, ?_, ?_⟩
      · rw [show x ++ [s] ++ c ++ b = x ++ s :: (c ++ b) by simp, chunks_append_sep x hs, hcb]
      · rw [offsetOf_chunks]; simp [isSep_size ((isSep_iff s).mpr hs)]
  obtain ⟨ds, rest, e1, e2⟩ := key
  refine ⟨spansAt 0 ds, spansAt (byteLen a + byteLen c + 1) rest, ?_, ?_, ?_⟩
  · rw [e1, spansAt_append]
    simp [spansAt, e2]
  · have h1 := spansAt_ordered 0 ds
    rw [e2, Nat.zero_add] at h1
    intro s hs
    have hle : ∀ {ss : List Span} {lo hi : Nat}, Ordered lo hi ss → ∀ s ∈ ss, s.stop ≤ hi := by
      intro ss
      induction ss with
      | nil => simp
      | cons x ss ih =>
        intro lo hi h y hy
        simp at hy
        rcases hy with rfl | hy
        · exact h.2.2.le
        · exact ih h.2.2 y hy
    exact hle h1 s hs
  · have h1 := spansAt_ordered (byteLen a + byteLen c + 1) rest
    intro s hs
    have hge : ∀ {ss : List Span} {lo hi : Nat}, Ordered lo hi ss → ∀ s ∈ ss, lo ≤ s.start := by
      intro ss
      induction ss with
      | nil => simp
      | cons x ss ih =>
        intro lo hi h y hy
        simp at hy
        rcases hy with rfl | hy
        · exact h.1
        · have := ih h.2.2 y hy; have := h.1; have := h.2.1; omega
    have := hge h1 s hs
    omega

/-- **C26.** A chunk whose last letter is a consonant is yielded whole, as one word: the words of the
text are words before it, the chunk itself, and words after it. -/
theorem C26_consonant_final (p : Profile) (ptr : Nat) (a c b : List Char) (l : Char)
    (h : byteLen (a ++ c ++ b) < 2 ^ 32) (hc : IsChunk a c b) (hl : LastLetter c l) (hk : IsConsonantLetter l) :
    ∃ before after, decomposeAll p ⟨ptr, a ++ c ++ b⟩ =
        .val (before ++ ⟨byteLen a, byteLen a + byteLen c⟩ :: after) ∧
      (∀ s ∈ before, s.stop ≤ byteLen a) ∧ (∀ s ∈ after, byteLen a + byteLen c < s.start) := by
  obtain ⟨before, after, e, h1, h2⟩ := isChunk_words hc
  refine ⟨before, after, ?_, h1, h2⟩
  have hend : endsInConsonant c = true := (endsInConsonant_iff c).mpr ⟨l, hl, hk⟩
  rw [decomposeAll_eq p ⟨ptr, a ++ c ++ b⟩ h, e]
  simp [singleWords, hend, layout]

example : IsChunk c!"la " c!"djan," c!" cu" := by
  refine ⟨by decide, Or.inr ⟨c!"la", ' ', by decide, rfl⟩, Or.inr ⟨' ', c!"cu", by decide, rfl⟩⟩
example : LastLetter c!"djan," 'n' ∧ IsConsonantLetter 'n' :=
  ⟨⟨c!"dja", [','], rfl, by decide, by simp⟩, by decide⟩

/-! ### C27, C28, C15: respellings -/

/-- No comma stands directly before a separator or at the end of the text. -/
def NoChunkFinalComma (cs : List Char) : Prop :=
  ∀ a b, cs = a ++ ',' :: b → b ≠ [] ∧ ∀ s y, b = s :: y → ¬ IsSeparator s

/-- Two texts have, chunk by chunk, the same characters apart from commas, and end their chunks with
commas in the same places. -/
inductive SameUpToCommas : List Char → List Char → Prop
  | last {a b} : NoSeparator a → NoSeparator b → a.filter (fun c => c ≠ ',') = b.filter (fun c => c ≠ ',') →
      (a.getLast? = some ',' ↔ b.getLast? = some ',') → SameUpToCommas a b
  | cons {a b s x y} : NoSeparator a → NoSeparator b →
      a.filter (fun c => c ≠ ',') = b.filter (fun c => c ≠ ',') →
      (a.getLast? = some ',' ↔ b.getLast? = some ',') → IsSeparator s → SameUpToCommas x y →
      SameUpToCommas (a ++ s :: x) (b ++ s :: y)

theorem filter_ne_comma (cs : List Char) : cs.filter (fun c => decide (c ≠ ',')) = noCommas cs := by
  unfold noCommas
  congr 1
  funext c
  by_cases h : c = ',' <;> simp [h]

theorem sameCommas_words {a b : List Char} (h : SameUpToCommas a b) :
    Both (fun w w' => noCommas w = noCommas w') (wordTexts a) (wordTexts b) := by
  have key : ∀ {a b : List Char}, a.filter (fun c => decide (c ≠ ',')) = b.filter (fun c => decide (c ≠ ',')) →
      (a.getLast? = some ',' ↔ b.getLast? = some ',') →
      Both (fun w w' => noCommas w = noCommas w') (singleWords a) (singleWords b) := by
    intro a b h1 h2
    rw [filter_ne_comma, filter_ne_comma] at h1
    exact wordSim_comma.singleWords ⟨h1, not_congr h2⟩
  unfold wordTexts
  induction h with
  | last h1 h2 h3 h4 => rw [chunks_noSep h1, chunks_noSep h2]; simpa using key h3 h4
  | cons h1 h2 h3 h4 h5 _ ih =>
    rw [chunks_append_sep _ h5, chunks_append_sep _ h5, chunks_noSep h1, chunks_noSep h2]
    simp only [List.flatMap_append, List.flatMap_cons, List.flatMap_nil, List.append_nil]
    exact (key h3 h4).append ih

theorem both_map_eq {ws ws' : List (List Char)} (h : Both (fun w w' => noCommas w = noCommas w') ws ws') :
    ws.map (fun w => w.filter (fun c => c ≠ ',')) = ws'.map (fun w => w.filter (fun c => c ≠ ',')) := by
  induction h with
  | nil => rfl
  | cons h1 _ ih =>
    simp only [List.map_cons, ih]
    rw [filter_ne_comma, filter_ne_comma, h1]

/-- **C27.** Inserting, deleting or moving commas changes no word (compared
without commas), as long as it does not turn a chunk that ends in a comma into one that does not, or
conversely (which can move a boundary: `C27_chunk_final_comma`). -/
theorem C27_commas (p : Profile) (ptr ptr' : Nat) (a b : List Char)
    (ha : byteLen a < 2 ^ 32) (hb : byteLen b < 2 ^ 32) (hab : SameUpToCommas a b) :
    ∃ sa sb ta tb, decomposeAll p ⟨ptr, a⟩ = .val sa ∧ decomposeAll p ⟨ptr', b⟩ = .val sb ∧
      TextsOf ⟨ptr, a⟩ sa ta ∧ TextsOf ⟨ptr', b⟩ sb tb ∧
      ta.map (fun w => w.filter (fun c => c ≠ ',')) = tb.map (fun w => w.filter (fun c => c ≠ ',')) := by
  refine ⟨_, _, _, _, decomposeAll_eq p ⟨ptr, a⟩ ha, decomposeAll_eq p ⟨ptr', b⟩ hb,
    decomposed_texts ⟨ptr, a⟩, decomposed_texts ⟨ptr', b⟩, both_map_eq (sameCommas_words hab)⟩

theorem sameCommas_remove {cs : List Char} (h : NoChunkFinalComma cs) :
    SameUpToCommas cs (cs.filter (fun c => c ≠ ',')) := by
  have key : ∀ ws cs, chunks cs = ws → NoChunkFinalComma cs →
      SameUpToCommas cs (cs.filter (fun c => decide (c ≠ ','))) := by
    intro ws
    induction ws with
    | nil => intro cs h; exact absurd h (chunks_ne_nil cs)
    | cons c ws ih =>
      intro cs h hn
      have hns : ∀ {c : List Char}, NoSeparator c → NoSeparator (c.filter (fun c => decide (c ≠ ','))) :=
        fun hc x hx => hc x (List.mem_filter.mp hx).1
      have hlast : ∀ c : List Char, (c.filter (fun c => decide (c ≠ ','))).getLast? ≠ some ',' := by
        intro c hc
        have := (List.mem_filter.mp (List.mem_of_getLast? hc)).2
        simp at this
      have hidem : ∀ c : List Char, (c.filter (fun c => decide (c ≠ ','))).filter (fun c => decide (c ≠ ',')) =
          c.filter (fun c => decide (c ≠ ',')) := by
        intro c; rw [List.filter_filter]; simp
      have hfin : ∀ (c t : List Char), cs = c ++ t → (t = [] ∨ ∃ s y, IsSeparator s ∧ t = s :: y) →
          c.getLast? ≠ some ',' := by
        intro c t he ht hl
        obtain ⟨init, e⟩ : ∃ init, c = init ++ [','] := by
          have hne : c ≠ [] := by rintro rfl; simp at hl
          refine ⟨c.dropLast, ?_⟩
          have := List.dropLast_concat_getLast hne
          rw [List.getLast?_eq_some_getLast hne] at hl
          simp at hl
          rw [hl] at this
          exact this.symm
        have := hn init t (by rw [he, e]; simp)
        rcases ht with rfl | ⟨s, y, hs, rfl⟩
        · exact this.1 rfl
        · exact this.2 s y rfl hs
      obtain ⟨h1, ⟨e1, e2⟩ | ⟨s, t, e1, e2, e3⟩⟩ := chunks_cons h
      · subst e2
        refine .last h1 (hns h1) (hidem _).symm ?_
        exact ⟨fun hh => absurd hh (hfin cs [] (by simp) (Or.inl rfl)), fun hh => absurd hh (hlast cs)⟩
      · have hs : s ≠ ',' := by rintro rfl; revert e1; decide
        have hfil : cs.filter (fun c => decide (c ≠ ',')) =
            c.filter (fun c => decide (c ≠ ',')) ++ s :: t.filter (fun c => decide (c ≠ ',')) := by
          rw [e2, List.filter_append, List.filter_cons, if_pos (by simpa using hs)]
        rw [hfil]
        have hl := hfin c (s :: t) e2 (Or.inr ⟨s, t, e1, rfl⟩)
        have hnt : NoChunkFinalComma t := by
          intro a b hab
          exact hn (c ++ s :: a) b (by rw [e2, hab]; simp)
        have := ih t e3 hnt
        conv => arg 1; rw [e2]
        exact .cons h1 (hns h1) (hidem _).symm
          ⟨fun hh => absurd hh hl, fun hh => absurd hh (hlast c)⟩ e1 this
  exact key _ cs rfl h

/-- **C27, removal of all commas.** If no comma stands directly before a
separator or at the end of the text, the words of the text without commas are the words of the text,
without their commas. -/
theorem C27_remove_commas (p : Profile) (ptr ptr' : Nat) (a : List Char)
    (ha : byteLen a < 2 ^ 32) (hn : NoChunkFinalComma a) :
    ∃ sa sb ta, decomposeAll p ⟨ptr, a⟩ = .val sa ∧ TextsOf ⟨ptr, a⟩ sa ta ∧
      decomposeAll p ⟨ptr', a.filter (fun c => c ≠ ',')⟩ = .val sb ∧
      TextsOf ⟨ptr', a.filter (fun c => c ≠ ',')⟩ sb (ta.map (fun w => w.filter (fun c => c ≠ ','))) := by
  have hle : ∀ l : List Char, byteLen (l.filter (fun c => decide (c ≠ ','))) ≤ byteLen l := by
    intro l
    induction l with
    | nil => simp
    | cons x l ih => rw [List.filter_cons]; split <;> simp only [byteLen_cons] <;> omega
  have hb : byteLen (a.filter (fun c => decide (c ≠ ','))) < 2 ^ 32 := Nat.lt_of_le_of_lt (hle a) ha
  obtain ⟨sa, sb, ta, tb, h1, h2, h3, h4, h5⟩ := C27_commas p ptr ptr' _ _ ha hb (sameCommas_remove hn)
  refine ⟨sa, sb, ta, h1, h3, h2, ?_⟩
  rw [h5]
  have hid : tb.map (fun w => w.filter (fun c => decide (c ≠ ','))) = tb := by
    have hmem : ∀ w ∈ tb, ∀ x ∈ w, x ∈ a.filter (fun c => decide (c ≠ ',')) := by
      intro w hw
      have : some w ∈ sb.map (fun s => (s.slice ⟨ptr', a.filter (fun c => decide (c ≠ ','))⟩).map Str.chars) := by
        rw [h4]; simp [hw]
      simp only [List.mem_map] at this
      obtain ⟨s, _, hs⟩ := this
      cases ht : s.slice ⟨ptr', a.filter (fun c => decide (c ≠ ','))⟩ with
      | none => rw [ht] at hs; simp at hs
      | some t =>
        rw [ht] at hs
        simp at hs
        obtain ⟨pre, post, e1, _⟩ := slice_inv ht
        intro x hx
        rw [e1, hs]
        simp [hx]
    have : tb.map (fun w => w.filter (fun c => decide (c ≠ ','))) = tb.map id := by
      apply List.map_congr_left
      intro w hw
      rw [id, List.filter_eq_self]
      intro x hx
      exact (List.mem_filter.mp (hmem w hw x hx)).2
    rw [this, List.map_id]
  rw [hid]
  exact h4

/-- **C27, chunk-final commas.** A chunk-final comma can move a word boundary: `minabroda` decomposes into
`mi na broda`, `minabroda,` into `mi nabroda`. -/
theorem C27_chunk_final_comma :
    decomposeAll .debug ⟨0, c!"minabroda"⟩ = .val [⟨0, 2⟩, ⟨2, 4⟩, ⟨4, 9⟩] ∧
    decomposeAll .debug ⟨0, c!"minabroda,"⟩ = .val [⟨0, 2⟩, ⟨2, 9⟩] := by
  decide +kernel

example : NoChunkFinalComma c!"mi,na,brod,a" := by
  intro a b h
  have : ∀ k ≤ 12, (c!"mi,na,brod,a").drop k ≠ [','] ∧
      ∀ s ∈ ((c!"mi,na,brod,a").drop (k + 1)).head?, (c!"mi,na,brod,a").drop k ≠ [] → ¬ IsSeparator s := by
    decide
  have hd : b = (c!"mi,na,brod,a").drop (a.length + 1) := by rw [h]; simp
  have hd2 : ',' :: b = (c!"mi,na,brod,a").drop a.length := by rw [h]; simp
  have hl : a.length ≤ 12 := by
    have := congrArg List.length h
    simp at this; omega
  refine ⟨fun hb => (this _ hl).1 (by rw [← hd2, hb]), fun s y hb => ?_⟩
  exact (this _ hl).2 s (by rw [← hd, hb]; rfl) (by rw [← hd2]; simp)

/-- The texts have the same length, and at every position the same character or a variant of it. -/
inductive Letterwise (Variant : Char → Char → Prop) : List Char → List Char → Prop
  | nil : Letterwise Variant [] []
  | same {c a b} : Letterwise Variant a b → Letterwise Variant (c :: a) (c :: b)
  | variant {c d a b} : Variant c d → Letterwise Variant a b → Letterwise Variant (c :: a) (d :: b)

theorem letterwise_pointwise {V : Char → Char → Prop} {prs : List (Char × Char)}
    (h : ∀ c d, V c d → c = d ∨ (c, d) ∈ prs) {a b : List Char} (hab : Letterwise V a b) :
    Pointwise (OneOfPairs prs) a b := by
  induction hab with
  | nil => trivial
  | same _ ih => exact ⟨Or.inl rfl, ih⟩
  | variant hv _ ih => exact ⟨h _ _ hv, ih⟩

/-- The same consonant or `y`, in upper or lower case. -/
def CaseVariant (c d : Char) : Prop :=
  ∃ l ∈ c!"bcdfgjklmnprstvxzy", (c = l ∨ c = l.toUpper) ∧ (d = l ∨ d = l.toUpper)

/-- `h` and the apostrophe. -/
def HVariant (c d : Char) : Prop := (c = 'h' ∨ c = '\'') ∧ (d = 'h' ∨ d = '\'')

theorem caseVariant_pairs (c d : Char) (h : CaseVariant c d) : c = d ∨ (c, d) ∈ casePairs := by
  obtain ⟨l, hl, hc, hd⟩ := h
  have : ∀ l ∈ c!"bcdfgjklmnprstvxzy", (l, l.toUpper) ∈ casePairs ∧ (l.toUpper, l) ∈ casePairs := by
    decide +kernel
  obtain ⟨h1, h2⟩ := this l hl
  rcases hc with rfl | rfl <;> rcases hd with rfl | rfl
  · exact Or.inl rfl
  · exact Or.inr h1
  · exact Or.inr h2
  · exact Or.inl rfl

theorem hVariant_pairs (c d : Char) (h : HVariant c d) : c = d ∨ (c, d) ∈ hPairs := by
  obtain ⟨rfl | rfl, rfl | rfl⟩ := h <;> simp [hPairs]

theorem pairs_decompose {prs : List (Char × Char)} (hc : ∀ p ∈ prs, p.1 ≠ ',' ∧ p.2 ≠ ',')
    (hg : ∀ rule, expAll (blindTo prs) (grammar rule) = true)
    (hcons : ∀ p ∈ prs, isConsonant p.1 = isConsonant p.2)
    (hs : ∀ p ∈ prs, p.1.utf8Size = p.2.utf8Size) (hsep : ∀ p ∈ prs, isSep p.1 = isSep p.2)
    (p : Profile) (ptr ptr' : Nat) (a b : List Char) (ha : byteLen a < 2 ^ 32)
    (hab : Pointwise (OneOfPairs prs) a b) :
    ∃ ws, decomposeAll p ⟨ptr, a⟩ = .val ws ∧ decomposeAll p ⟨ptr', b⟩ = .val ws := by
  have hb : byteLen b < u32Size := by rw [← hab.byteLen hs]; exact ha
  refine ⟨_, decomposeAll_eq p ⟨ptr, a⟩ ha, ?_⟩
  rw [decomposeAll_eq p ⟨ptr', b⟩ hb]
  simp only [spansAt_pointwise hc hg hcons hs (chunks_pointwise hsep hab) 0]

/-- **C28.** The case of consonants and of `y` has no influence on the word boundaries. -/
theorem C28_consonant_case (p : Profile) (ptr ptr' : Nat) (a b : List Char) (ha : byteLen a < 2 ^ 32)
    (hab : Letterwise CaseVariant a b) :
    ∃ ws, decomposeAll p ⟨ptr, a⟩ = .val ws ∧ decomposeAll p ⟨ptr', b⟩ = .val ws :=
  pairs_decompose (by decide +kernel) casePairs_grammar (by decide +kernel) (by decide +kernel)
    (by decide +kernel) p ptr ptr' a b ha (letterwise_pointwise caseVariant_pairs hab)

/-- **C15, decomposition.** `h` and the apostrophe are interchangeable in texts to decompose. -/
theorem C15_h_decompose (p : Profile) (ptr ptr' : Nat) (a b : List Char) (ha : byteLen a < 2 ^ 32)
    (hab : Letterwise HVariant a b) :
    ∃ ws, decomposeAll p ⟨ptr, a⟩ = .val ws ∧ decomposeAll p ⟨ptr', b⟩ = .val ws :=
  pairs_decompose (by decide +kernel) hPairs_grammar (by decide +kernel) (by decide +kernel)
    (by decide +kernel) p ptr ptr' a b ha (letterwise_pointwise hVariant_pairs hab)

example : Letterwise CaseVariant c!"miky" c!"MiKY" :=
  .variant ⟨'m', by decide, by decide⟩ (.same (.variant ⟨'k', by decide, by decide⟩
    (.variant ⟨'y', by decide, by decide⟩ .nil)))
example : Letterwise HVariant c!"coiho'e" c!"coi'ohe" :=
  .same (.same (.same (.variant (by unfold HVariant; decide) (.same (.variant (by unfold HVariant; decide)
    (.same .nil))))))

end Sneturfahi.Props
