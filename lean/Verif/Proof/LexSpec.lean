import Verif.Proof.Cursor
import Verif.Proof.Classify

/-!
# The lexer computes what `Spec.Lexing` says
-/

namespace Sneturfahi

open Spec

theorem classified_iff (ptr : Nat) (w : List Char) (s : Selmaho) (x : Bool) :
    Classified w s x ↔ classify ⟨ptr, w⟩ = .val (s, x) := by
  rw [Classified, classify_eq, classify_eq]

theorem classify_exists (ptr : Nat) (w : List Char) : ∃ s x, classify ⟨ptr, w⟩ = .val (s, x) ∧ Classified w s x := by
  refine ⟨(classifyPure w).1, (classifyPure w).2, by rw [classify_eq], ?_⟩
  rw [Classified, classify_eq]

theorem sliceUnwrap_at (input : Str) (before w after : List Char) (h : input.chars = before ++ w ++ after) :
    Span.sliceUnwrap (spanAt (byteLen before) w) input = .val ⟨input.ptr + byteLen before, w⟩ := by
  obtain ⟨ptr, cs⟩ := input
  simp only at h
  subst h
  simp only [Span.sliceUnwrap, spanAt, slice_mid]

/-! ### Pieces -/

theorem chunks_split {qs : List (List Char)} {e : List Char} {rest : List (List Char)} {body : List Char}
    (h : chunks body = qs ++ e :: rest) :
    ∃ after, EndsPiece after ∧ (chunks after).tail = rest ∧ NoSeparator e ∧
      ((qs = [] ∧ body = e ++ after) ∨
        ∃ T s, qs ≠ [] ∧ chunks T = qs ∧ IsSeparator s ∧ body = T ++ s :: (e ++ after) ∧ byteLen T + 1 = offsetOf qs) := by
  induction qs generalizing body with
  | nil =>
    obtain ⟨hno, ⟨rfl, rfl⟩ | ⟨s, t, hs, rfl, rfl⟩⟩ := chunks_cons (by simpa using h)
    · exact ⟨[], Or.inl rfl, rfl, hno, Or.inl ⟨rfl, by simp⟩⟩
    · exact ⟨s :: t, Or.inr ⟨s, t, hs, rfl⟩, by simp [chunks, (isSep_iff s).mpr hs], hno, Or.inl ⟨rfl, rfl⟩⟩
  | cons q qs ih =>
    obtain ⟨hno, ⟨h1, rfl⟩ | ⟨s, t, hs, rfl, ht⟩⟩ := chunks_cons (by simpa using h)
    · simp at h1
    · obtain ⟨after, h1, h2, h3, h4⟩ := ih ht
      refine ⟨after, h1, h2, h3, Or.inr ?_⟩
      rcases h4 with ⟨rfl, rfl⟩ | ⟨T, s2, _, h4, h5, rfl, h6⟩
      · exact ⟨q, s, by simp, chunks_noSep hno, hs, rfl, by simp [offsetOf]⟩
      · refine ⟨q ++ s :: T, s2, by simp, ?_, h5, by simp, ?_⟩
        · rw [chunks_append_sep _ hs, chunks_noSep hno, h4]; rfl
        · simp [offsetOf, isSep_size ((isSep_iff s).mpr hs)]; omega

/-! ### The loop over the pieces of a quote -/

/-- What the loop does with a piece that closes the quote. -/
def quoteFinish (q : QuoteState) (l : Lexer) (text : Option (Nat × Nat)) (wordSpan : Span) : Lexer.Step := do
  let startToken : Token :=
    { experimental := false, span := q.startingDelimiterSpan, selmaho := .ZoiDelimiter }
  let textToken : Option Token ←
    match text with
    | none => pure none
    | some (a, b) => do
      let sp ← Span.new a b
      pure (some { experimental := false, span := sp, selmaho := .AnyText })
  let endToken : Token := { experimental := false, span := wordSpan, selmaho := .ZoiDelimiter }
  let nextQuote := q.next wordSpan
  if q.isFirst then
    let state := match textToken with
      | none => LexState.oneMoreTokenThen endToken nextQuote
      | some t => LexState.twoMoreTokensThen t endToken nextQuote
    pure (some (.ok startToken), { l with state })
  else
    match textToken with
    | some t => pure (some (.ok t), { l with state := .oneMoreTokenThen endToken nextQuote })
    | none => pure (some (.ok endToken), { l with state := LexState.afterQuote nextQuote })

/-- One more piece of quoted text. -/
def growText (text : Option (Nat × Nat)) (off : Nat) (c : List Char) : Option (Nat × Nat) :=
  match text with
  | none => some (off, off + byteLen c)
  | some (a, _) => some (a, off + byteLen c)

/-- How the span of the quoted text grows. -/
def extendText (text : Option (Nat × Nat)) (off : Nat) : List (List Char) → Option (Nat × Nat)
  | [] => text
  | c :: cs =>
    extendText (growText text off c) (off + byteLen c + 1) cs

theorem extendText_some (a b off : Nat) (qs : List (List Char)) (h : qs ≠ []) :
    extendText (some (a, b)) off qs = some (a, off + offsetOf qs - 1) := by
  induction qs generalizing b off with
  | nil => simp at h
  | cons c qs ih =>
    simp only [extendText, growText, offsetOf]
    by_cases hq : qs = []
    · subst hq; simp [extendText, offsetOf, ← Nat.add_assoc]
    · rw [ih _ _ hq]
      simp only [Option.some.injEq, Prod.mk.injEq, true_and]
      omega

theorem extendText_none (off : Nat) (qs : List (List Char)) (h : qs ≠ []) :
    extendText none off qs = some (off, off + offsetOf qs - 1) := by
  cases qs with
  | nil => simp at h
  | cons c qs =>
    simp only [extendText, growText, offsetOf]
    by_cases hq : qs = []
    · subst hq; simp [extendText, offsetOf, ← Nat.add_assoc]
    · rw [extendText_some _ _ _ _ hq]
      simp only [Option.some.injEq, Prod.mk.injEq, true_and]
      omega

/-- The loop, on pieces `ps` from byte `off` of the text on. -/
theorem quoteLoop_spec {input : Str} (p : Profile) (q : QuoteState) (delim : List Char)
    (hq : ∃ ptr, q.startingDelimiterSpan.sliceUnwrap input = .val ⟨ptr, delim⟩) :
    ∀ (ps : List (List Char)) (cs : List Char) (before : List Char) (off fuel : Nat) (l : Lexer) (a : AState)
      (text : Option (Nat × Nat)),
      (ps = [] ∨ chunks cs = ps ∧ input.chars = before ++ cs ∧ byteLen before = off) → ps.length < fuel →
      l.input = input →
      Rep input l.words a → aNextND a = aNextND ⟨[], off, ps⟩ →
      ((∀ x ∈ ps, ¬ SameUpToCommas delim x) ∧ ∃ ws, Lexer.quoteLoop p q fuel l text =
        .val (some (.error (.delimitedQuoteUnclosed q.initiatorSpan q.startingDelimiterSpan)),
          { l with words := ws, state := .done })) ∨
      ∃ qs e rest ws, ps = qs ++ e :: rest ∧ (∀ x ∈ qs, ¬ SameUpToCommas delim x) ∧ SameUpToCommas delim e ∧
        Rep input ws ⟨[], off + offsetOf qs + byteLen e + 1, rest⟩ ∧
        Lexer.quoteLoop p q fuel l text =
          quoteFinish q { l with words := ws } (extendText text off qs) (spanAt (off + offsetOf qs) e) := by
  intro ps
  induction ps with
  | nil =>
    intro cs before off fuel l a text _ hfuel hinp hr ha
    obtain ⟨fuel, rfl⟩ : ∃ f, fuel = f + 1 := ⟨fuel - 1, by simp at hfuel; omega⟩
    left
    obtain ⟨ws, hws, _⟩ := hr.nextND p
    refine ⟨by simp, ws, ?_⟩
    rw [ha] at hws
    simp only [aNextND] at hws
    simp only [Lexer.quoteLoop, hws, Exec.val_bind, Exec.pure_eq]
  | cons c ps ih =>
    intro cs before off fuel l a text hcs hfuel hinp hr ha
    obtain ⟨fuel, rfl⟩ : ∃ f, fuel = f + 1 := ⟨fuel - 1, by simp at hfuel; omega⟩
    obtain ⟨hch, hbefore, hoff⟩ : chunks cs = c :: ps ∧ input.chars = before ++ cs ∧ byteLen before = off := by
      simpa using hcs
    obtain ⟨ws, hws, hrep⟩ := hr.nextND p
    rw [ha] at hws hrep
    simp only [aNextND] at hws hrep
    obtain ⟨hno, hsplit⟩ := chunks_cons hch
    have hcs' : ∃ tail, cs = c ++ tail := by
      rcases hsplit with ⟨_, rfl⟩ | ⟨s, t, _, rfl, _⟩
      · exact ⟨[], by simp⟩
      · exact ⟨s :: t, rfl⟩
    have hslice : Span.sliceUnwrap ⟨off, off + byteLen c⟩ input = .val ⟨input.ptr + byteLen before, c⟩ := by
      obtain ⟨tail, ht⟩ := hcs'
      have := sliceUnwrap_at input before c tail (by rw [hbefore, ht, List.append_assoc])
      rw [hoff] at this
      simpa [spanAt, hoff] using this
    obtain ⟨ptr, hq'⟩ := hq
    have hstep : Lexer.quoteLoop p q (fuel + 1) l text =
        if noCommas delim = noCommas c then quoteFinish q { l with words := ws } text (spanAt off c)
        else Lexer.quoteLoop p q fuel { l with words := ws }
          (growText text off c) := by
      simp only [Lexer.quoteLoop, hws, Exec.val_bind, hinp, hslice, hq']
      rfl
    by_cases hm : SameUpToCommas delim c
    · right
      refine ⟨[], c, ps, ws, rfl, by simp, hm, by simpa [offsetOf] using hrep, ?_⟩
      rw [hstep, if_pos (show noCommas delim = noCommas c from hm)]
      rfl
    · rw [hstep, if_neg (show ¬ noCommas delim = noCommas c from hm)]
      have hnext : ps = [] ∨ ∃ t s, IsSeparator s ∧ cs = c ++ s :: t ∧ chunks t = ps := by
        rcases hsplit with ⟨h, _⟩ | ⟨s, t, hs, h1, h2⟩
        · exact Or.inl h
        · exact Or.inr ⟨t, s, hs, h1, h2⟩
      have hcs2 : ∃ t s, (ps = [] ∨ chunks t = ps ∧ input.chars = (before ++ c ++ [s]) ++ t ∧
          byteLen (before ++ c ++ [s]) = off + byteLen c + 1) := by
        rcases hnext with rfl | ⟨t, s, hs, h1, h2⟩
        · exact ⟨[], 'a', Or.inl rfl⟩
        · refine ⟨t, s, Or.inr ⟨h2, by rw [hbefore, h1]; simp, ?_⟩⟩
          simp [isSep_size ((isSep_iff s).mpr hs), hoff]; omega
      obtain ⟨t, s, hcs2⟩ := hcs2
      have := ih t (before ++ c ++ [s]) (off + byteLen c + 1) fuel { l with words := ws } _
        (growText text off c) hcs2 (by simp at hfuel; omega) hinp hrep rfl
      rcases this with ⟨h1, ws', h2⟩ | ⟨qs, e, rest, ws', h1, h2, h3, h4, h5⟩
      · left
        exact ⟨by intro x hx; simp at hx; rcases hx with rfl | hx; exact hm; exact h1 x hx, ws', h2⟩
      · right
        have hoff2 : off + offsetOf (c :: qs) = off + byteLen c + 1 + offsetOf qs := by simp [offsetOf]; omega
        refine ⟨c :: qs, e, rest, ws', by simp [h1], ?_, h3, ?_, ?_⟩
        · intro x hx; simp at hx; rcases hx with rfl | hx; exact hm; exact h2 x hx
        · rw [hoff2]; exact h4
        · rw [hoff2, h5]; rfl

theorem Rep.pieces_lt {input : Str} {d : Decomposer} {a : AState} (h : Rep input d a) :
    a.rest.length < d.split.length + 2 := by
  have h1 := congrArg List.length h.pending_eq
  have hp : ∀ ptr ws, (place ptr ws).length = ws.length := by
    intro ptr ws
    induction ws generalizing ptr with
    | nil => rfl
    | cons w ws ih => simp [place, ih]
  rw [hp] at h1
  unfold Decomposer.pending at h1
  split at h1 <;> (try simp at h1) <;> omega

/-- What the lexer does next inside a delimited quote. -/
theorem quote_step {input : Str} (p : Profile) (q : QuoteState) {before d after : List Char} {l : Lexer} {dpos : Nat}
    (hd : q.startingDelimiterSpan = spanAt dpos d) (hinp : input.chars = before ++ d ++ after)
    (hb : byteLen before = dpos) (hl : l.input = input) (hs : l.state = .delimitedQuote q)
    (hr : Rep input l.words (cursor (dpos + byteLen d) after)) :
    ((OnlyCommas after ∨ ∃ g body, Resumes after g body ∧ NeverCloses d body) ∧
      ∃ ws, l.next p = .val (some (.error (.delimitedQuoteUnclosed q.initiatorSpan (spanAt dpos d))),
        { l with words := ws, state := .done })) ∨
    ∃ g body quoted close after' before' cpos ws, Resumes after g body ∧ Closes d body quoted close after' ∧
      cpos = dpos + byteLen d + byteLen g + quotedLen quoted ∧
      input.chars = before' ++ close ++ after' ∧ byteLen before' = cpos ∧ after'.length ≤ after.length ∧
      Rep input ws (cursor (cpos + byteLen close) after') ∧
      l.next p = quoteFinish q { l with words := ws }
        (quoted.map fun t => (dpos + byteLen d + byteLen g, dpos + byteLen d + byteLen g + byteLen t))
        (spanAt cpos close) := by
  have hnext : l.next p = Lexer.quoteLoop p q (l.words.split.length + 3) l none := by
    simp only [Lexer.next, hs, Lexer.nextDelimitedQuote]
  have hq : ∃ ptr, q.startingDelimiterSpan.sliceUnwrap input = .val ⟨ptr, d⟩ := by
    refine ⟨input.ptr + byteLen before, ?_⟩
    rw [hd, ← hb]
    exact sliceUnwrap_at input before d after hinp
  -- the pieces to look at
  have key : (OnlyCommas after ∧ aNextND (cursor (dpos + byteLen d) after) =
        aNextND ⟨[], dpos + byteLen d + byteLen after + 1, []⟩) ∨
      ∃ g body, Resumes after g body ∧ after = g ++ body ∧
        (chunks body).length < l.words.split.length + 3 ∧
        aNextND (cursor (dpos + byteLen d) after) = aNextND ⟨[], dpos + byteLen d + byteLen g, chunks body⟩ := by
    have hlen := hr.pieces_lt
    cases hch : chunks after with
    | nil => exact absurd hch (chunks_ne_nil after)
    | cons p0 ps =>
      rw [cursor_eq hch] at hlen ⊢
      simp only at hlen
      obtain ⟨hno, hsplit⟩ := chunks_cons hch
      cases hw : singleWords p0 with
      | nil =>
        have hc : AllCommas p0 := (singleWords_eq_nil_iff p0).mp hw
        rcases hsplit with ⟨rfl, rfl⟩ | ⟨s, t, hs, rfl, ht⟩
        · exact Or.inl ⟨hc, rfl⟩
        · right
          refine ⟨p0 ++ [s], t, .behind hc hs, by simp, by rw [ht]; omega, ?_⟩
          rw [ht]
          simp [layout, isSep_size ((isSep_iff s).mpr hs), ← Nat.add_assoc]
      | cons w ws =>
        right
        have hc : ¬ OnlyCommas p0 := fun hc => by
          rw [(singleWords_eq_nil_iff p0).mpr hc] at hw; simp at hw
        refine ⟨[], after, ?_, by simp, by rw [hch]; simp; omega, ?_⟩
        · rcases hsplit with ⟨rfl, rfl⟩ | ⟨s, t, hs, rfl, ht⟩
          · simpa using Resumes.here (tail := []) hno hc (Or.inl rfl)
          · exact .here hno hc (Or.inr ⟨s, t, hs, rfl⟩)
        · rw [hch]
          simp [aNextND, layout]
  rcases key with ⟨hc, ha⟩ | ⟨g, body, hres, rfl, hfuel, ha⟩
  · left
    refine ⟨Or.inl hc, ?_⟩
    have := quoteLoop_spec p q d hq [] [] [] _ (l.words.split.length + 3) l _ none (Or.inl rfl) (by simp) hl hr ha
    rcases this with ⟨_, ws, h⟩ | ⟨qs, e, rest, ws, h, _⟩
    · exact ⟨ws, by rw [hnext, h, hd]⟩
    · simp at h
  · have := quoteLoop_spec p q d hq (chunks body) body (before ++ d ++ g) (dpos + byteLen d + byteLen g)
      (l.words.split.length + 3) l _ none (Or.inr ⟨rfl, by simp [hinp], by simp [hb, Nat.add_assoc]⟩) hfuel hl hr ha
    rcases this with ⟨h1, ws, h⟩ | ⟨qs, e, rest, ws, h1, h2, h3, h4, h5⟩
    · left
      refine ⟨Or.inr ⟨g, body, hres, ?_⟩, ws, by rw [hnext, h, hd]⟩
      intro qs hqs x hx
      rw [splitsInto_chunks hqs] at hx
      exact h1 x hx
    · right
      obtain ⟨after', e1, e2, e3, e4⟩ := chunks_split h1
      have hcur : ∀ pos, cursor pos after' = ⟨[], pos + 1, rest⟩ := by
        intro pos; rw [cursor_endsPiece e1, e2]
      rcases e4 with ⟨rfl, rfl⟩ | ⟨T, s, hne, hT, hs, rfl, hlen⟩
      · refine ⟨g, e ++ after', none, e, after', before ++ d ++ g, _, ws, hres, .first ⟨rfl, e3, e1⟩ h3, rfl,
          by simp [hinp], by simp [hb, quotedLen, Nat.add_assoc], by simp; omega, ?_, ?_⟩
        · rw [hcur]; simpa [quotedLen, offsetOf] using h4
        · rw [hnext, h5]; simp [extendText, quotedLen, offsetOf]
      · refine ⟨g, T ++ s :: (e ++ after'), some T, e, after', before ++ d ++ g ++ T ++ [s], _, ws, hres,
          .later (hT ▸ chunks_splitsInto T) h2 hs ⟨rfl, e3, e1⟩ h3, rfl, by simp [hinp], ?_, ?_, ?_, ?_⟩
        · simp [hb, quotedLen, isSep_size ((isSep_iff s).mpr hs), Nat.add_assoc]
        · simp; omega
        · rw [hcur]; simpa [quotedLen, hlen, Nat.add_assoc] using h4
        · rw [hnext, h5, extendText_none _ _ hne, ← hlen]
          simp [quotedLen, ← Nat.add_assoc]

/-- The tokens of a closed quote come out one after the other. -/
theorem quoteFinish_yields {p : Profile} {q : QuoteState} {l l1 : Lexer} {dpos tpos cpos : Nat} {d close : List Char}
    {quoted : Option (List Char)}
    (hd : q.startingDelimiterSpan = spanAt dpos d)
    (hn : l.next p = quoteFinish q l1 (quoted.map fun t => (tpos, tpos + byteLen t)) (spanAt cpos close))
    {items : List LexItem} {l' : Lexer}
    (hy : Yields (Lexer.next p) { l1 with state := LexState.afterQuote (q.next (spanAt cpos close)) } items l') :
    Yields (Lexer.next p) l
      ((if q.isFirst then [delimiterToken dpos d] else []) ++ quotedTokens tpos quoted ++ delimiterToken cpos close :: items) l' := by
  have hnew : ∀ t : List Char, Span.new tpos (tpos + byteLen t) = .val (spanAt tpos t) := by
    intro t; simp [Span.new, spanAt]
  cases hf : q.isFirst with
  | true =>
    cases quoted with
    | none =>
      simp only [quoteFinish, hf, hd, Option.map_none, Exec.pure_eq, Exec.val_bind, if_true] at hn
      exact .more hn (.more (by simp [Lexer.next]; rfl) hy)
    | some t =>
      simp only [quoteFinish, hf, hd, Option.map_some, Exec.pure_eq, Exec.val_bind, if_true, hnew] at hn
      exact .more hn (.more (by simp [Lexer.next]; rfl) (.more (by simp [Lexer.next]; rfl) hy))
  | false =>
    cases quoted with
    | none =>
      simp only [quoteFinish, hf, Option.map_none, Exec.pure_eq, Exec.val_bind, Bool.false_eq_true, if_false] at hn
      exact .more hn hy
    | some t =>
      simp only [quoteFinish, hf, Option.map_some, Exec.pure_eq, Exec.val_bind, Bool.false_eq_true, if_false, hnew] at hn
      exact .more hn (.more (by simp [Lexer.next]; rfl) hy)

/-! ### The whole run -/

theorem fused_done {p : Profile} {l : Lexer} (h : l.state = .done) : Fused (Lexer.next p) l :=
  ⟨fun l => l.state = .done, h, fun x hx => ⟨x, by simp [Lexer.next, hx], hx⟩⟩

/-- `Runs`: the lexer yields `items` and then stays at the end. -/
def Runs (p : Profile) (l : Lexer) (items : List LexItem) : Prop :=
  ∃ l', Yields (Lexer.next p) l items l' ∧ Fused (Lexer.next p) l'

theorem runs_error {p : Profile} {l l1 : Lexer} {e : LexError} (h : l.next p = .val (some (.error e), l1))
    (h1 : l1.state = .done) : Runs p l [.error e] :=
  ⟨l1, .more h (.done (by simp [Lexer.next, h1])), fused_done h1⟩

theorem quote_runs {input : Str} (p : Profile) (ini : Span) (m : Nat)
    (ih : ∀ (pos : Nat) (before after : List Char) (l : Lexer) (a : AState), after.length ≤ m →
      input.chars = before ++ after → byteLen before = pos → l.input = input → l.state = .normal →
      Rep input l.words a → aNext a = aNext (cursor pos after) →
      ∃ items, Lexing pos after items ∧ Runs p l items) :
    ∀ (n : Nat) (isFirst : Bool) (dpos : Nat) (before d after : List Char) (l : Lexer), after.length ≤ m →
      input.chars = before ++ d ++ after → byteLen before = dpos → l.input = input →
      l.state = .delimitedQuote ⟨n + 1, ini, isFirst, spanAt dpos d⟩ →
      Rep input l.words (cursor (dpos + byteLen d) after) →
      ∃ items, LexingQuote ini isFirst (n + 1) dpos d after items ∧ Runs p l items := by
  intro n
  induction n with
  | zero =>
    intro isFirst dpos before d after l hm hinp hb hl hs hr
    rcases quote_step p _ rfl hinp hb hl hs hr with ⟨hu, ws, hn⟩ |
        ⟨g, body, quoted, close, after', before', cpos, ws, h1, h2, h3, h4, h5, h6, h7, h8⟩
    · refine ⟨_, ?_, runs_error hn rfl⟩
      rcases hu with hu | ⟨g, body, h1, h2⟩
      · exact .eof hu
      · exact .unclosed h1 h2
    · obtain ⟨items, hlex, l', hy, hf⟩ := ih (cpos + byteLen close) (before' ++ close) after'
        { l with words := ws, state := .normal } _ (by omega) h4 (by simp [h5]) hl rfl h7 rfl
      refine ⟨_, .last h1 h2 h3 hlex, l', ?_, hf⟩
      exact quoteFinish_yields (q := ⟨0 + 1, ini, isFirst, spanAt dpos d⟩) rfl h8 hy
  | succ n ihn =>
    intro isFirst dpos before d after l hm hinp hb hl hs hr
    rcases quote_step p _ rfl hinp hb hl hs hr with ⟨hu, ws, hn⟩ |
        ⟨g, body, quoted, close, after', before', cpos, ws, h1, h2, h3, h4, h5, h6, h7, h8⟩
    · refine ⟨_, ?_, runs_error hn rfl⟩
      rcases hu with hu | ⟨g, body, h1, h2⟩
      · exact .eof hu
      · exact .unclosed h1 h2
    · obtain ⟨items, hlex, l', hy, hf⟩ := ihn false cpos before' close after'
        { l with words := ws, state := .delimitedQuote ⟨n + 1, ini, false, spanAt cpos close⟩ }
        (by omega) h4 h5 hl rfl h7
      refine ⟨_, .more h1 h2 h3 hlex, l', ?_, hf⟩
      exact quoteFinish_yields (q := ⟨n + 1 + 1, ini, isFirst, spanAt dpos d⟩) rfl h8 hy

theorem firstWord_of {cs gap w after : List Char} {more : List Span} (hsz : byteLen cs < u32Size)
    (h : cs = gap ++ w ++ after)
    (h2 : spansAt 0 (chunks cs) = ⟨byteLen gap, byteLen gap + byteLen w⟩ :: more) : FirstWord cs gap w after :=
  ⟨h, more, by rw [decomposeAll_eq .release ⟨0, cs⟩ hsz, h2]⟩

theorem noWord_of {cs : List Char} (hsz : byteLen cs < u32Size) (h : spansAt 0 (chunks cs) = []) : NoWord cs := by
  rw [NoWord, decomposeAll_eq .release ⟨0, cs⟩ hsz, h]

theorem normal_runs {input : Str} (hsz : input.len < u32Size) (p : Profile) : ∀ (m : Nat) (pos : Nat)
    (before after : List Char) (l : Lexer) (a : AState), after.length ≤ m →
      input.chars = before ++ after → byteLen before = pos → l.input = input → l.state = .normal →
      Rep input l.words a → aNext a = aNext (cursor pos after) →
      ∃ items, Lexing pos after items ∧ Runs p l items := by
  intro m
  induction m with
  | zero =>
    intro pos before after l a hm hinp hb hl hs hr ha
    have hnil : after = [] := List.length_eq_zero_iff.mp (by omega)
    subst hnil
    have hsp : spansAt 0 (chunks []) = [] := by
      simp [chunks, spansAt, singleWords_allCommas (cs := []) (by simp [AllCommas]), layout]
    have hnone : (aNext (cursor pos [])).1 = none := by
      rcases aNext_cursor [] pos with ⟨_, h⟩ | ⟨gap, w, after, more, _, _, h, _⟩
      · exact h
      · rw [hsp] at h; simp at h
    obtain ⟨ws, hws, hrw⟩ := hr.next p
    rw [ha, hnone] at hws
    refine ⟨[], .stop (noWord_of (by decide) hsp), { l with words := ws }, .done ?_, ?_⟩
    · simp only [Lexer.next, hs, Lexer.nextNormal, hws, Exec.val_bind, Exec.pure_eq]
    · have hover := aNext_none (a := a) (by rw [ha, hnone])
      refine ⟨fun l => l.state = .normal ∧ ∃ a, Rep input l.words a ∧ a.Over, ⟨hs, _, hrw, hover⟩, ?_⟩
      rintro x ⟨hx, a, hra, hov⟩
      obtain ⟨ws, hws, hrw⟩ := hra.next p
      rw [(Over.next hov).1] at hws
      exact ⟨{ x with words := ws }, by simp only [Lexer.next, hx, Lexer.nextNormal, hws, Exec.val_bind, Exec.pure_eq],
        hx, _, hrw, (Over.next hov).2⟩
  | succ m ih =>
    intro pos before after l a hm hinp hb hl hs hr ha
    have hlen : byteLen after < u32Size := by
      have := congrArg byteLen hinp
      simp at this
      simp [Str.len] at hsz
      omega
    obtain ⟨ws, hws, hrw⟩ := hr.next p
    rcases aNext_cursor after pos with ⟨hsp, hnone⟩ | ⟨gap, w, after1, more, e1, e0, e2, e3, _⟩
    · rw [ha, hnone] at hws
      refine ⟨[], .stop (noWord_of hlen hsp), { l with words := ws }, .done ?_, ?_⟩
      · simp only [Lexer.next, hs, Lexer.nextNormal, hws, Exec.val_bind, Exec.pure_eq]
      · have hover := aNext_none (a := a) (by rw [ha, hnone])
        refine ⟨fun l => l.state = .normal ∧ ∃ a, Rep input l.words a ∧ a.Over, ⟨hs, _, hrw, hover⟩, ?_⟩
        rintro x ⟨hx, a, hra, hov⟩
        obtain ⟨ws, hws, hrw⟩ := hra.next p
        rw [(Over.next hov).1] at hws
        exact ⟨{ x with words := ws }, by simp only [Lexer.next, hx, Lexer.nextNormal, hws, Exec.val_bind, Exec.pure_eq],
          hx, _, hrw, (Over.next hov).2⟩
    · rw [ha, e3] at hws hrw
      simp only at hws hrw
      have hfw := firstWord_of hlen e1 e2
      have hwne : 1 ≤ w.length := by
        cases w with
        | nil => simp at e0
        | cons => simp
      have hlen1 : after1.length ≤ m := by rw [e1] at hm; simp at hm; omega
      have hinp1 : input.chars = (before ++ gap) ++ w ++ after1 := by rw [hinp, e1]; simp
      have hb1 : byteLen (before ++ gap) = pos + byteLen gap := by simp [hb]
      have hslice := sliceUnwrap_at input (before ++ gap) w after1 hinp1
      rw [hb1] at hslice
      obtain ⟨s, x, hcl, hcl'⟩ := classify_exists (input.ptr + (pos + byteLen gap)) w
      have hstep : l.next p = (do
          let token : Token := { experimental := x, selmaho := s, span := spanAt (pos + byteLen gap) w }
          if s = .Zoi ∨ s = .Muhoi ∨ s = .Sohehai then do
            let howMany := if s = .Sohehai then 2 else 1
            match ← ws.next p with
            | (some delim, ws) =>
              pure (some (.ok token),
                { l with
                  words := ws
                  state := .delimitedQuote
                    { howMany, initiatorSpan := spanAt (pos + byteLen gap) w, isFirst := true,
                      startingDelimiterSpan := delim } })
            | (none, ws) =>
              pure (some (.error (.delimitedQuoteMissingSeparator (spanAt (pos + byteLen gap) w))),
                { l with words := ws, state := .done })
          else if s = .Mehoi ∨ s = .Zohoi ∨ s = .Dohoi then
            pure (some (.ok token), { l with words := ws, state := .pauseDelimitedQuote (spanAt (pos + byteLen gap) w) })
          else if s = .Faho ∨ s = .Fahoho then
            pure (some (.ok token), { l with words := ws, state := .done })
          else pure (some (.ok token), { l with words := ws })) := by
        simp only [Lexer.next, hs, Lexer.nextNormal, hws, Exec.val_bind, hl, hslice, hcl]
        rfl
      by_cases hod : opensDelimited s
      · have hod' : s = .Zoi ∨ s = .Muhoi ∨ s = .Sohehai := hod
        simp only [if_pos hod'] at hstep
        obtain ⟨ws2, hws2, hrw2⟩ := hrw.next p
        have hlen2 : byteLen after1 < u32Size := by rw [e1] at hlen; simp at hlen; omega
        rcases aNext_cursor after1 (pos + byteLen gap + byteLen w) with ⟨hsp, hnone⟩ |
          ⟨gap2, d, after2, more2, f1, f0, f2, f3, _⟩
        · rw [hnone] at hws2
          rw [hws2] at hstep
          exact ⟨_, .missing hfw hcl' hod (noWord_of hlen2 hsp), runs_error hstep rfl⟩
        · rw [f3] at hws2 hrw2
          simp only at hws2 hrw2
          rw [hws2] at hstep
          simp only [Exec.val_bind, Exec.pure_eq] at hstep
          obtain ⟨k, hk⟩ : ∃ k, (if s = .Sohehai then 2 else 1) = k + 1 := by
            by_cases hso : s = .Sohehai
            · exact ⟨1, by simp [hso]⟩
            · exact ⟨0, by simp [hso]⟩
          rw [hk] at hstep
          obtain ⟨items, hlq, l', hy, hf⟩ := quote_runs p (spanAt (pos + byteLen gap) w) m ih k true
            (pos + byteLen gap + byteLen w + byteLen gap2) (before ++ gap ++ w ++ gap2) d after2
            { l with words := ws2, state := .delimitedQuote ⟨k + 1, spanAt (pos + byteLen gap) w, true,
              spanAt (pos + byteLen gap + byteLen w + byteLen gap2) d⟩ }
            (by rw [f1] at hlen1; simp at hlen1; omega) (by rw [hinp1, f1]; simp) (by simp [hb, Nat.add_assoc])
            hl rfl hrw2
          refine ⟨_, .quote hfw hcl' hod (firstWord_of hlen2 f1 f2) rfl (by rw [hk]; exact hlq), l', .more hstep hy, hf⟩
      · have hod' : ¬ (s = .Zoi ∨ s = .Muhoi ∨ s = .Sohehai) := hod
        simp only [if_neg hod'] at hstep
        by_cases hop : opensPause s
        · have hop' : s = .Mehoi ∨ s = .Zohoi ∨ s = .Dohoi := hop
          simp only [if_pos hop', Exec.pure_eq] at hstep
          obtain ⟨ws2, hws2, hrw2⟩ := hrw.nextND p
          rcases aNextND_cursor after1 (pos + byteLen gap + byteLen w) with ⟨hc, hnone⟩ |
            ⟨g, body, q, after2, f0, f1, f2, f3⟩
          · rw [hnone] at hws2
            obtain ⟨l', hy, hf⟩ := runs_error (p := p)
              (l := { l with words := ws, state := .pauseDelimitedQuote (spanAt (pos + byteLen gap) w) })
              (l1 := { l with words := ws2, state := .done })
              (e := .pauseDelimitedQuoteEof (spanAt (pos + byteLen gap) w))
              (by simp only [Lexer.next, Lexer.nextPauseDelimitedQuote, hws2, Exec.val_bind, Exec.pure_eq]) rfl
            exact ⟨_, .pauseEof hfw hcl' hop hc, l', .more hstep hy, hf⟩
          · rw [f3] at hws2 hrw2
            simp only at hws2 hrw2
            have hbody := f2.1
            obtain ⟨items, hlex, l', hy, hf⟩ := ih (pos + byteLen gap + byteLen w + byteLen g + byteLen q)
              (before ++ gap ++ w ++ g ++ q) after2 { l with words := ws2, state := .normal } _
              (by rw [f0, hbody] at hlen1; simp at hlen1; omega) (by rw [hinp1, f0, hbody]; simp)
              (by simp [hb, Nat.add_assoc]) hl rfl hrw2 rfl
            exact ⟨_, .pause hfw hcl' hop f1 f2 hlex, l', .more hstep (.more
              (by simp only [Lexer.next, Lexer.nextPauseDelimitedQuote, hws2, Exec.val_bind, Exec.pure_eq]) hy), hf⟩
        · have hop' : ¬ (s = .Mehoi ∨ s = .Zohoi ∨ s = .Dohoi) := hop
          simp only [if_neg hop'] at hstep
          by_cases hf : endsText s
          · have hf' : s = .Faho ∨ s = .Fahoho := hf
            simp only [if_pos hf', Exec.pure_eq] at hstep
            exact ⟨_, .faho hfw hcl' hf, { l with words := ws, state := .done }, .more hstep (.done (by simp [Lexer.next])),
              fused_done rfl⟩
          · have hf' : ¬ (s = .Faho ∨ s = .Fahoho) := hf
            simp only [if_neg hf', Exec.pure_eq] at hstep
            obtain ⟨items, hlex, l', hy, hfu⟩ := ih (pos + byteLen gap + byteLen w) (before ++ gap ++ w) after1
              { l with words := ws } _ hlen1 hinp1 (by simp [hb, Nat.add_assoc]) hl hs hrw rfl
            exact ⟨_, .word hfw hcl' hod hop hf hlex, l', .more hstep hy, hfu⟩

/-- The lexer does what `Lexing` says. -/
theorem lex_lexing (p : Profile) (input : Str) (hsz : input.len < u32Size) :
    ∃ items, Lexing 0 input.chars items ∧ Runs p (lex input) items :=
  normal_runs hsz p input.chars.length 0 [] input.chars (lex input) _ (Nat.le_refl _) rfl rfl rfl rfl
    (rep_new hsz) (aNext_start _)

end Sneturfahi
