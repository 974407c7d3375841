import Verif.Proof.LexOpaque

/-!
# Properties of lexing (C33-C43, C51)
-/

namespace Sneturfahi.Props

open Spec

/-! ### C33, C34, C51: what is yielded -/

theorem collectItems_of_yields {p : Profile} {l l' : Lexer} {items : List LexItem} (h : Yields (Lexer.next p) l items l') :
    ∀ fuel, items.length < fuel → collectItems p fuel l = .val items := by
  induction h with
  | done h =>
    intro fuel hf
    cases fuel with
    | zero => simp at hf
    | succ fuel => simp only [collectItems, h, Exec.val_bind, Exec.pure_eq]
  | more h _ ih =>
    intro fuel hf
    cases fuel with
    | zero => simp at hf
    | succ fuel =>
      simp only [collectItems, h, Exec.val_bind]
      rw [ih fuel (by simp at hf; omega)]
      rfl

theorem lex_all (input : Str) (h : input.len < u32Size) :
    ∃ items, Lexing 0 input.chars items ∧ ∀ p, lexAll p input = .val items ∧ Runs p (lex input) items := by
  obtain ⟨items, hl, _⟩ := lex_lexing .release input h
  refine ⟨items, hl, fun p => ?_⟩
  obtain ⟨items', hl', l, hy, hf⟩ := lex_lexing p input h
  obtain rfl := hl.det hl'
  have hn := lexing_length hl h
  exact ⟨collectItems_of_yields hy _ (by omega), l, hy, hf⟩

/-- **C33.** For every text below 4 GiB, calling `next` on `lex(text)` yields finitely many items and
then `None`, in both build profiles the same, without panic; from then on it answers `None` for
ever. -/
theorem C33_terminates (input : Str) (h : input.len < 2 ^ 32) :
    ∃ items, ∀ p, lexAll p input = .val items ∧
      ∃ l, Yields (Lexer.next p) (lex input) items l ∧ Fused (Lexer.next p) l := by
  obtain ⟨items, _, hi⟩ := lex_all input h
  exact ⟨items, hi⟩

/-- `lexAll`, used in the statements below, is the sequence of the answers of `next`. -/
theorem C33_lexAll_yields (p : Profile) (input : Str) (h : input.len < 2 ^ 32) (items : List LexItem) :
    lexAll p input = .val items ↔ ∃ l, Yields (Lexer.next p) (lex input) items l := by
  obtain ⟨is, his⟩ := C33_terminates input h
  obtain ⟨h1, l, h2, _⟩ := his p
  constructor
  · intro h3; rw [h1] at h3; cases h3; exact ⟨l, h2⟩
  · rintro ⟨l', h3⟩; rw [h1, (yields_det h2 h3).1]

/-- The number of items is bounded by the number of characters. -/
theorem C33_length (p : Profile) (input : Str) (h : input.len < 2 ^ 32) (items : List LexItem)
    (hi : lexAll p input = .val items) : items.length ≤ input.chars.length + 1 := by
  obtain ⟨is, hl, his⟩ := lex_all input h
  rw [(his p).1] at hi
  cases hi
  exact lexing_length hl h

theorem lexAll_iff (p : Profile) (input : Str) (h : input.len < u32Size) (items : List LexItem) :
    lexAll p input = .val items ↔ Lexing 0 input.chars items := by
  obtain ⟨is, hl, his⟩ := lex_all input h
  rw [(his p).1]
  constructor
  · intro hi; cases hi; exact hl
  · intro hi; rw [hl.det hi]

/-- **C51.** The items are exactly those that the reading rules `Spec.Lexing` describe. -/
theorem C51_lexing_rules (p : Profile) (input : Str) (h : input.len < 2 ^ 32) (items : List LexItem) :
    lexAll p input = .val items ↔ Lexing 0 input.chars items := lexAll_iff p input h items

example : lexAll .debug ⟨0, c!"zoi gy hello gy coi"⟩ = .val
    [.ok ⟨false, .Zoi, ⟨0, 3⟩⟩, .ok ⟨false, .ZoiDelimiter, ⟨4, 6⟩⟩, .ok ⟨false, .AnyText, ⟨7, 12⟩⟩,
      .ok ⟨false, .ZoiDelimiter, ⟨13, 15⟩⟩, .ok ⟨false, .Coi, ⟨16, 19⟩⟩] := by decide +kernel

/-- **C34.** An error is the last item: nothing comes after it (and by `C33_terminates` the lexer then
answers `None` for ever). -/
theorem C34_error_last (p : Profile) (input : Str) (h : input.len < 2 ^ 32) (items : List LexItem)
    (hi : lexAll p input = .val items) (pre : List LexItem) (e : LexError) (post : List LexItem)
    (hs : items = pre ++ .error e :: post) : post = [] ∧ ∀ e', .error e' ∉ pre := by
  have hl := (lexAll_iff p input h items).mp hi
  have hlast := lexing_error_last hl
  refine ⟨hlast pre e post hs, ?_⟩
  intro e' he
  obtain ⟨a, b, rfl⟩ := List.append_of_mem he
  have := hlast a e' (b ++ .error e :: post) (by rw [hs]; simp)
  simp at this

example : lexAll .debug ⟨0, c!"coi zoi gy hello g y"⟩ = .val
    [.ok ⟨false, .Coi, ⟨0, 3⟩⟩, .ok ⟨false, .Zoi, ⟨4, 7⟩⟩,
      .error (.delimitedQuoteUnclosed ⟨4, 7⟩ ⟨8, 10⟩)] := by decide +kernel

/-! ### C35: spans -/

theorem pairwise_split {α : Type} {R : α → α → Prop} {a b : α} {pre mid post : List α}
    (h : (pre ++ a :: (mid ++ b :: post)).Pairwise R) : R a b := by
  rw [List.pairwise_append] at h
  have := h.2.1
  rw [List.pairwise_cons] at this
  exact this.1 b (by simp)

/-- **C35.** The span of every token slices out of the text, and tokens come in order without overlap. -/
theorem C35_spans (p : Profile) (input : Str) (h : input.len < 2 ^ 32) (items : List LexItem)
    (hi : lexAll p input = .val items) :
    (∀ tok, .ok tok ∈ items → tok.span.start ≤ tok.span.stop ∧ tok.span.stop ≤ input.len ∧
      ∃ t, tok.span.slice input = some t ∧ t.len = tok.span.stop - tok.span.start) ∧
    (∀ pre a mid b post, items = pre ++ .ok a :: (mid ++ .ok b :: post) → a.span.stop ≤ b.span.start) := by
  have hl := (lexAll_iff p input h items).mp hi
  obtain ⟨h1, h2⟩ := lexing_spans hl
  constructor
  · intro tok ht
    obtain ⟨pre, w, post, e1, e2⟩ := h1 tok.span (List.mem_map.mpr ⟨tok, mem_itemTokens.mpr ht, rfl⟩)
    have := slice_mid input.ptr pre w post
    rw [← e1] at this
    simp only [Nat.zero_add] at e2
    have hb := congrArg byteLen e1
    simp at hb
    refine ⟨by rw [e2]; simp [spanAt], by rw [e2]; simp only [spanAt, Str.len]; omega, _, by rw [e2]; exact this, ?_⟩
    rw [e2]; simp [spanAt, Str.len]
  · intro pre a mid b post he
    have hp := h2.pairwise
    rw [he, itemTokens_append, itemTokens, itemTokens_append, itemTokens, List.map_append, List.map_cons, List.map_append, List.map_cons] at hp
    exact pairwise_split (R := fun a b : Span => a.stop ≤ b.start) hp

/-! ### C36: fa'o -/

/-- **C36.** Nothing comes after a `fa'o` token. -/
theorem C36_faho_last (p : Profile) (input : Str) (h : input.len < 2 ^ 32) (items : List LexItem)
    (hi : lexAll p input = .val items) (pre : List LexItem) (tok : Token) (post : List LexItem)
    (hs : items = pre ++ .ok tok :: post) (ht : tok.selmaho = .Faho ∨ tok.selmaho = .Fahoho) : post = [] := by
  have hl := (lexAll_iff p input h items).mp hi
  rcases lexing_locate hl pre tok post hs with ⟨before, t', _, hloc⟩ | ⟨_, hq⟩
  · generalize hi2 : (.ok tok :: post : List LexItem) = is at hloc
    cases hloc with
    | stop _ => simp at hi2
    | word f c h1 h2 h3 _ =>
      simp at hi2
      rw [hi2.1] at ht
      exact absurd ht h3
    | faho f c h1 => simp at hi2; exact hi2.2
    | pauseEof f c h1 h2 =>
      simp at hi2
      rw [hi2.1] at ht
      exact absurd ⟨h1, ht⟩ selmaho_excl.2.2
    | pause f c h1 r fp _ =>
      simp at hi2
      rw [hi2.1] at ht
      exact absurd ⟨h1, ht⟩ selmaho_excl.2.2
    | missing f c h1 h2 => simp at hi2
    | quote f c h1 _ _ _ =>
      simp at hi2
      rw [hi2.1] at ht
      exact absurd ⟨h1, ht⟩ selmaho_excl.2.1
  · rcases hq with hq | hq <;> rw [hq] at ht <;> simp at ht

/-- What stands behind `fa'o`, after a separator, has no influence. -/
theorem C36_rest_ignored (p : Profile) (ptr ptr' : Nat) (a b : List Char) (sep : Char) (hsep : IsSeparator sep)
    (h : byteLen (a ++ sep :: b) < 2 ^ 32) (items : List LexItem) (hi : lexAll p ⟨ptr, a⟩ = .val items) (tok : Token)
    (hm : .ok tok ∈ items) (ht : tok.selmaho = .Faho ∨ tok.selmaho = .Fahoho) :
    lexAll p ⟨ptr', a ++ sep :: b⟩ = .val items := by
  have hl := (lexAll_iff p ⟨ptr, a⟩ (size_parts h).1 items).mp hi
  rw [lexAll_iff p ⟨ptr', a ++ sep :: b⟩ h]
  refine ((local_both hsep b).1 hl h ?_).1 ⟨tok, hm, ht⟩
  intro e he
  obtain ⟨pre, post, rfl⟩ := List.append_of_mem hm
  have := C36_faho_last p ⟨ptr, a⟩ (size_parts h).1 _ hi pre tok post rfl ht
  subst this
  simp at he
  obtain ⟨x, y, rfl⟩ := List.append_of_mem he
  have h1 := (C34_error_last p ⟨ptr, a⟩ (size_parts h).1 _ hi x e (y ++ [.ok tok]) (by simp)).1
  simp at h1

example : lexAll .debug ⟨0, c!"coi fa'o zoi gy"⟩ = .val [.ok ⟨false, .Coi, ⟨0, 3⟩⟩, .ok ⟨false, .Faho, ⟨4, 8⟩⟩] := by
  decide +kernel

/-! ### C37: the shape of the token sequence -/

/-- At most one token, of selmaho `AnyText`. -/
def OptText (q : List LexItem) : Prop := q = [] ∨ ∃ t : Token, q = [.ok t] ∧ t.selmaho = .AnyText

/-- The documented shape of item sequences. -/
inductive Shaped : List LexItem → Prop
  | nil : Shaped []
  | ordinary {t : Token} {rest : List LexItem} : ¬ opensDelimited t.selmaho → ¬ opensPause t.selmaho →
      t.selmaho ≠ .ZoiDelimiter → Shaped rest → Shaped (.ok t :: rest)
  | pause {t q : Token} {rest : List LexItem} : opensPause t.selmaho → q.selmaho = .AnyText → Shaped rest →
      Shaped (.ok t :: .ok q :: rest)
  | pauseEof {t : Token} : opensPause t.selmaho → Shaped [.ok t, .error (.pauseDelimitedQuoteEof t.span)]
  | missing {sp : Span} : Shaped [.error (.delimitedQuoteMissingSeparator sp)]
  | unclosed {t : Token} {sp : Span} : opensDelimited t.selmaho →
      Shaped [.ok t, .error (.delimitedQuoteUnclosed t.span sp)]
  | unclosedSecond {t d c : Token} {q : List LexItem} : t.selmaho = .Sohehai → d.selmaho = .ZoiDelimiter → OptText q →
      c.selmaho = .ZoiDelimiter →
      Shaped (.ok t :: .ok d :: (q ++ [.ok c, .error (.delimitedQuoteUnclosed t.span c.span)]))
  | one {t d c : Token} {q rest : List LexItem} : t.selmaho = .Zoi ∨ t.selmaho = .Muhoi → d.selmaho = .ZoiDelimiter →
      OptText q → c.selmaho = .ZoiDelimiter → Shaped rest → Shaped (.ok t :: .ok d :: (q ++ .ok c :: rest))
  | two {t d c e : Token} {q r rest : List LexItem} : t.selmaho = .Sohehai → d.selmaho = .ZoiDelimiter → OptText q →
      c.selmaho = .ZoiDelimiter → OptText r → e.selmaho = .ZoiDelimiter → Shaped rest →
      Shaped (.ok t :: .ok d :: (q ++ .ok c :: (r ++ .ok e :: rest)))

theorem optText_quoted (pos : Nat) (q : Option (List Char)) : OptText (quotedTokens pos q) := by
  cases q with
  | none => exact Or.inl rfl
  | some T => exact Or.inr ⟨_, rfl, rfl⟩

/-- **C37.** The items of every text have the documented shape: a ZOI or MUhOI word is followed by
delimiter, optional text, delimiter; a SOhEhAI word by one more optional text and delimiter; otherwise
by the error; MEhOI, ZOhOI, DOhOI by text or the error; delimiters occur nowhere else. -/
theorem C37_shape (p : Profile) (input : Str) (h : input.len < 2 ^ 32) (items : List LexItem)
    (hi : lexAll p input = .val items) : Shaped items := by
  have hb := blocks_of h ((lexAll_iff p input h items).mp hi)
  clear hi h
  generalize 0 = pos at hb
  generalize input.chars = t at hb
  induction hb with
  | stop _ => exact .nil
  | word f c h1 h2 h3 _ ih => exact .ordinary h1 h2 (classified_not_delimiter c) ih
  | faho f c h1 =>
    exact .ordinary (fun h => selmaho_excl.2.1 ⟨h, h1⟩) (fun h => selmaho_excl.2.2 ⟨h, h1⟩) (classified_not_delimiter c) .nil
  | pauseEof f c h1 h2 => exact .pauseEof h1
  | pause f c h1 r fp _ ih => exact .pause h1 rfl ih
  | missing f c h1 h2 => exact .missing
  | open1 f c h1 fd h3 hu => exact .unclosed h1
  | open2 f c hs fd h3 hq hc hu =>
    rw [quoteItems, List.append_assoc]
    subst hc
    exact .unclosedSecond hs rfl (optText_quoted ..) rfl
  | one f c h1 hs fd h3 hq hc _ ih =>
    rw [quoteItems, List.append_assoc]
    exact .one (by rcases h1 with h1 | h1 | h1; exact Or.inl h1; exact Or.inr h1; exact absurd h1 hs) rfl (optText_quoted ..) rfl ih
  | two f c hs fd h3 hq hc hq2 he _ ih =>
    rw [quoteItems, List.append_assoc, quoteItems, List.append_assoc]
    exact .two hs rfl (optText_quoted ..) rfl (optText_quoted ..) rfl ih

example : lexAll .debug ⟨0, c!"so'e'ai gy a gy b gy"⟩ = .val
    [.ok ⟨true, .Sohehai, ⟨0, 7⟩⟩, .ok ⟨false, .ZoiDelimiter, ⟨8, 10⟩⟩, .ok ⟨false, .AnyText, ⟨11, 12⟩⟩,
      .ok ⟨false, .ZoiDelimiter, ⟨13, 15⟩⟩, .ok ⟨false, .AnyText, ⟨16, 17⟩⟩,
      .ok ⟨false, .ZoiDelimiter, ⟨18, 20⟩⟩] := by decide +kernel

/-! ### C38: where quotes close -/

/-- **C38.** A text token before a delimiter token is the text of a delimited quote: a starting delimiter
comes before it, the ending delimiter equals that one up to commas, no piece of the text does, and the
token covers the text verbatim. -/
theorem C38_quoted_text (p : Profile) (input : Str) (h : input.len < 2 ^ 32) (items : List LexItem)
    (hi : lexAll p input = .val items) (pre : List LexItem) (x x' : Bool) (tsp csp : Span) (post : List LexItem)
    (hs : items = pre ++ .ok ⟨x, .AnyText, tsp⟩ :: .ok ⟨x', .ZoiDelimiter, csp⟩ :: post) :
    ∃ pre' dsp, pre = pre' ++ [.ok ⟨false, .ZoiDelimiter, dsp⟩] ∧ TextQuote 0 input.chars dsp tsp csp := by
  have hb := blocks_of h ((lexAll_iff p input h items).mp hi)
  rcases (blocks_delimiters h hb).2 pre _ x' csp post hs with ⟨tok, h1, h2⟩ | ⟨dsp, h1, _⟩ | ⟨pre', dsp, tsp', h1, h2, h3⟩
  · cases h1; exact absurd h2 (by simp [opensDelimited])
  · simp at h1
  · simp at h2
    exact ⟨pre', dsp, h1, by rw [h2.2]; exact h3⟩

/-- Two delimiter tokens in a row are the delimiters of an empty quote. -/
theorem C38_empty_quote (p : Profile) (input : Str) (h : input.len < 2 ^ 32) (items : List LexItem)
    (hi : lexAll p input = .val items) (pre : List LexItem) (x x' : Bool) (dsp csp : Span) (post : List LexItem)
    (hs : items = pre ++ .ok ⟨x, .ZoiDelimiter, dsp⟩ :: .ok ⟨x', .ZoiDelimiter, csp⟩ :: post) :
    EmptyQuote 0 input.chars dsp csp := by
  have hb := blocks_of h ((lexAll_iff p input h items).mp hi)
  rcases (blocks_delimiters h hb).2 pre _ x' csp post hs with ⟨tok, h1, h2⟩ | ⟨dsp', h1, h3⟩ | ⟨pre', dsp, tsp', h1, h2, h3⟩
  · cases h1; exact absurd h2 (by simp [opensDelimited])
  · simp at h1
    rw [h1.2]
    exact h3
  · simp at h2

example : lexAll .debug ⟨0, c!"zoi gy gyx .gy,"⟩ = .val
    [.ok ⟨false, .Zoi, ⟨0, 3⟩⟩, .ok ⟨false, .ZoiDelimiter, ⟨4, 6⟩⟩, .ok ⟨false, .AnyText, ⟨7, 11⟩⟩,
      .ok ⟨false, .ZoiDelimiter, ⟨12, 15⟩⟩] := by decide +kernel

/-! ### C39: pause-delimited quotes -/

theorem located_pause {pos : Nat} {t : List Char} {tok : Token} {post : List LexItem} (h : Lexing pos t (.ok tok :: post))
    (ht : opensPause tok.selmaho) : ∃ gap w after, FirstWord t gap w after ∧ tok.span = spanAt (pos + byteLen gap) w ∧
      Classified w tok.selmaho tok.experimental ∧
      ((OnlyCommas after ∧ post = [.error (.pauseDelimitedQuoteEof tok.span)]) ∨
        ∃ g body q after' rest, Resumes after g body ∧ FirstPiece body q after' ∧
          post = .ok ⟨false, .AnyText, spanAt (pos + byteLen gap + byteLen w + byteLen g) q⟩ :: rest) := by
  generalize hi : (.ok tok :: post : List LexItem) = is at h
  cases h with
  | stop _ => simp at hi
  | word f c h1 h2 h3 _ => simp at hi; rw [hi.1] at ht; exact absurd ht h2
  | faho f c h1 => simp at hi; rw [hi.1] at ht; exact absurd ⟨ht, h1⟩ selmaho_excl.2.2
  | pauseEof f c h1 h2 =>
    simp at hi
    obtain ⟨rfl, rfl⟩ := hi
    exact ⟨_, _, _, f, rfl, c, Or.inl ⟨h2, rfl⟩⟩
  | pause f c h1 r fp _ =>
    simp at hi
    obtain ⟨rfl, rfl⟩ := hi
    exact ⟨_, _, _, f, rfl, c, Or.inr ⟨_, _, _, _, _, r, fp, rfl⟩⟩
  | missing f c h1 h2 => simp at hi
  | quote f c h1 _ _ _ => simp at hi; rw [hi.1] at ht; exact absurd ⟨h1, ht⟩ selmaho_excl.1

/-- **C39.** After a MEhOI, ZOhOI or DOhOI token comes, with one separator skipped if the word ends at
one, the text up to the next separator as one token, not decomposed; or, exactly if nothing but commas
is left of the text, the end-of-input error. -/
theorem C39_pause_quotes (p : Profile) (input : Str) (h : input.len < 2 ^ 32) (items : List LexItem)
    (hi : lexAll p input = .val items) (pre : List LexItem) (tok : Token) (post : List LexItem)
    (hs : items = pre ++ .ok tok :: post)
    (ht : tok.selmaho = .Mehoi ∨ tok.selmaho = .Zohoi ∨ tok.selmaho = .Dohoi) :
    ∃ before w after, input.chars = before ++ w ++ after ∧ tok.span = spanAt (byteLen before) w ∧
      (OnlyCommas after → post = [.error (.pauseDelimitedQuoteEof tok.span)]) ∧
      (¬ OnlyCommas after → ∃ gap q after' rest, after = gap ++ q ++ after' ∧ DelimiterGap gap ∧ NoSeparator q ∧
        EndsPiece after' ∧ (gap = [] → ¬ OnlyCommas q) ∧
        post = .ok ⟨false, .AnyText, spanAt (byteLen (before ++ w ++ gap)) q⟩ :: rest) := by
  have hl := (lexAll_iff p input h items).mp hi
  rcases lexing_locate hl pre tok post hs with ⟨before, t', e, hloc⟩ | ⟨_, hq⟩
  · obtain ⟨gap, w, after, f, hsp, _, hor⟩ := located_pause hloc ht
    refine ⟨before ++ gap, w, after, by rw [e, f.1]; simp, by rw [hsp]; simp, ?_, ?_⟩
    · intro hc
      rcases hor with ⟨_, h2⟩ | ⟨g, body, q, after', rest, r, _⟩
      · exact h2
      · exact (r.notOnlyCommas hc).elim
    · intro hc
      rcases hor with ⟨h2, _⟩ | ⟨g, body, q, after', rest, r, fp, hpost⟩
      · exact absurd h2 hc
      · refine ⟨g, q, after', rest, by rw [r.eq, fp.1]; simp, ?_, fp.2.1, fp.2.2, ?_, by rw [hpost]; simp [Nat.add_assoc]⟩
        · rcases r.inv with ⟨k, s, hk, hs, _, e2, _⟩ | ⟨_, _, _, _, _, _, h5, _⟩
          · exact Or.inr ⟨k, s, hk, hs, e2⟩
          · exact Or.inl h5
        · intro hg
          rcases r.inv with ⟨k, s, hk, hs, _, e2, _⟩ | ⟨p', tail, h1, h2, h3, h4, h5, h6, h7⟩
          · rw [hg] at e2; simp at e2
          · have := fp.pieces
            rw [h6, h7] at this
            simp at this
            rw [← this.1]
            exact h2
  · rcases hq with hq | hq <;> rw [hq] at ht <;> simp at ht

example : lexAll .debug ⟨0, c!"me'oi foo'x do"⟩ = .val
    [.ok ⟨true, .Mehoi, ⟨0, 5⟩⟩, .ok ⟨false, .AnyText, ⟨6, 11⟩⟩, .ok ⟨false, .Koha, ⟨12, 14⟩⟩] := by decide +kernel

/-- The quoted text may be empty: two separators in a row. -/
theorem C39_empty_text : lexAll .debug ⟨0, c!"me'oi  foo"⟩ = .val
    [.ok ⟨true, .Mehoi, ⟨0, 5⟩⟩, .ok ⟨false, .AnyText, ⟨6, 6⟩⟩, .ok ⟨false, .AnyText, ⟨7, 10⟩⟩] := by decide +kernel

/-! ### C40: errors -/

theorem unclosed_iff {d after : List Char} (hd : HasLetter d) : Unclosed d after ↔ NeverCloses d after := by
  have key : ∀ k, OnlyCommas k → ¬ Spec.SameUpToCommas d k := fun k hk hs => hd.same hs hk
  constructor
  · rintro (hc | ⟨g, body, r, hn⟩)
    · intro qs hqs q hq
      rw [splitsInto_chunks hqs, chunks_noSep (onlyCommas_noSep hc)] at hq
      simp at hq
      exact hq ▸ key _ hc
    · intro qs hqs q hq
      rw [splitsInto_chunks hqs] at hq
      rcases r.inv with ⟨k, s, hk, hs, _, _, e3⟩ | ⟨_, _, _, _, _, _, _, h6, _⟩
      · rw [e3] at hq
        simp at hq
        rcases hq with rfl | hq
        · exact key _ hk
        · exact hn _ (chunks_splitsInto body) q hq
      · subst h6
        exact hn _ (chunks_splitsInto body) q hq
  · intro hn
    by_cases hc : OnlyCommas after
    · exact Or.inl hc
    · right
      have hch := chunks_splitsInto after
      cases hcs : chunks after with
      | nil => exact absurd hcs (chunks_ne_nil after)
      | cons p ps =>
        obtain ⟨hns, ⟨e1, e2⟩ | ⟨s, t, e1, e2, e3⟩⟩ := chunks_cons hcs
        · have hr : Resumes (p ++ []) [] (p ++ []) := .here hns (by rw [e2] at hc; exact hc) (Or.inl rfl)
          simp only [List.append_nil] at hr
          rw [← e2] at hr
          exact ⟨[], after, hr, hn⟩
        · by_cases hp : OnlyCommas p
          · have hr := Resumes.behind (u := t) hp e1
            rw [← e2] at hr
            refine ⟨_, t, hr, ?_⟩
            intro qs hqs q hq
            rw [splitsInto_chunks hqs, e3] at hq
            exact hn _ hch q (by rw [hcs]; simp [hq])
          · have hr := Resumes.here hns hp (Or.inr ⟨s, t, e1, rfl⟩)
            rw [← e2] at hr
            exact ⟨[], after, hr, hn⟩

theorem Quoted.notNever {d after g : List Char} {q : Option (List Char)} {close after' : List Char} (hd : HasLetter d)
    (h : Quoted d after g q close after') : ¬ NeverCloses d after := by
  intro hn
  obtain ⟨body, r, c⟩ := h
  rcases (unclosed_iff hd).mpr hn with hc | ⟨g', body', r', hn'⟩
  · exact r.notOnlyCommas hc
  · obtain ⟨_, rfl⟩ := r.det r'
    exact c.notNever hn'

/-- What an error in `t`, which starts at byte `pos`, says. -/
def ErrorMeans (pos : Nat) (t : List Char) : LexError → Prop
  | .delimitedQuoteMissingSeparator ini => ∃ before w after s x, t = before ++ w ++ after ∧ ini = spanAt (pos + byteLen before) w ∧
      Classified w s x ∧ opensDelimited s ∧ NoWord after
  | .delimitedQuoteUnclosed ini dsp => ∃ before w mid d after s x, t = before ++ w ++ mid ++ d ++ after ∧
      ini = spanAt (pos + byteLen before) w ∧ Classified w s x ∧ opensDelimited s ∧
      dsp = spanAt (pos + byteLen (before ++ w ++ mid)) d ∧ NeverCloses d after
  | .pauseDelimitedQuoteEof ini => ∃ before w after s x, t = before ++ w ++ after ∧ ini = spanAt (pos + byteLen before) w ∧
      Classified w s x ∧ opensPause s ∧ OnlyCommas after

theorem ErrorMeans.suffix {pos : Nat} {u t : List Char} {e : LexError} (h : ErrorMeans (pos + byteLen u) t e) :
    ErrorMeans pos (u ++ t) e := by
  cases e with
  | delimitedQuoteMissingSeparator ini =>
    obtain ⟨before, w, after, s, x, h1, h2, h3⟩ := h
    exact ⟨u ++ before, w, after, s, x, by rw [h1]; simp, by rw [h2]; simp [Nat.add_assoc], h3⟩
  | delimitedQuoteUnclosed ini dsp =>
    obtain ⟨before, w, mid, d, after, s, x, h1, h2, h3, h4, h5, h6⟩ := h
    exact ⟨u ++ before, w, mid, d, after, s, x, by rw [h1]; simp, by rw [h2]; simp [Nat.add_assoc], h3, h4,
      by rw [h5]; simp [Nat.add_assoc], h6⟩
  | pauseDelimitedQuoteEof ini =>
    obtain ⟨before, w, after, s, x, h1, h2, h3⟩ := h
    exact ⟨u ++ before, w, after, s, x, by rw [h1]; simp, by rw [h2]; simp [Nat.add_assoc], h3⟩

theorem not_error_delimiter {e : LexError} {p : Nat} {d : List Char} : (.error e : LexItem) ≠ delimiterToken p d := by
  simp [delimiterToken]

theorem not_error_quoteItems {e : LexError} {p : Nat} {d g : List Char} {q : Option (List Char)} {c : List Char} :
    (.error e : LexItem) ∉ quoteItems p d g q c := by
  intro h
  cases q <;> simp [quoteItems, quotedTokens, delimiterToken] at h

theorem blocks_errors {pos : Nat} {t : List Char} {items : List LexItem} (hsz : byteLen t < u32Size) (h : Blocks pos t items) :
    ∀ e, .error e ∈ items → ErrorMeans pos t e := by
  induction h with
  | stop _ => intro e h; simp at h
  | word f c h1 h2 h3 _ ih =>
    obtain ⟨_, _, l3, _⟩ := firstWord_length hsz f
    intro e he
    simp at he
    rw [f.1]
    exact ErrorMeans.suffix (by simpa [Nat.add_assoc] using ih l3 e he)
  | faho f c h1 => intro e h; simp at h
  | pauseEof f c h1 h2 =>
    intro e he
    simp at he
    subst he
    exact ⟨_, _, _, _, _, f.1, rfl, c, h1, h2⟩
  | @pause pos text gap w after g body q after' s x items f c h1 r fp _ ih =>
    intro e he
    simp at he
    have et : text = (gap ++ w ++ g ++ q) ++ after' := by rw [f.1, r.eq, fp.1]; simp
    rw [et] at hsz ⊢
    exact ErrorMeans.suffix (by simpa [Nat.add_assoc] using ih (by simp at hsz; omega) e he)
  | missing f c h1 h2 =>
    intro e he
    simp at he
    subst he
    exact ⟨_, _, _, _, _, f.1, rfl, c, h1, h2⟩
  | @open1 pos dpos text gap w after g d after1 s x f c h1 fd h3 hu =>
    intro e he
    simp at he
    subst he h3
    obtain ⟨_, _, l3, _⟩ := firstWord_length hsz f
    exact ⟨gap, w, g, d, after1, s, x, by rw [f.1, fd.1]; simp, rfl, c, h1, by simp [Nat.add_assoc],
      (unclosed_iff (firstWord_hasLetter l3 fd)).mp hu⟩
  | @open2 pos dpos cpos text gap w after g d after1 g1 close after2 q1 s x f c hs fd h3 hq hc hu =>
    intro e he
    simp only [List.mem_cons, List.mem_append, List.not_mem_nil, or_false, not_error_delimiter, not_error_quoteItems, false_or] at he
    rcases he with he | he
    · cases he
    · cases he
      obtain ⟨_, _, l3, _⟩ := firstWord_length hsz f
      obtain ⟨_, _, _, hsame, hb, hform⟩ := Quoted.inv hq
      have : ∃ A, after1 = A ++ close ++ after2 := by
        rcases hform with ⟨_, e⟩ | ⟨T, s, _, _, e, _⟩
        · exact ⟨_, e⟩
        · exact ⟨g1 ++ T ++ [s], by rw [e]; simp⟩
      obtain ⟨A, rfl⟩ := this
      have hA : byteLen A = byteLen g1 + quotedLen q1 := by simp at hb; omega
      subst hc h3
      exact ⟨gap, w, g ++ d ++ A, close, after2, s, x, by rw [f.1, fd.1]; simp, rfl, c, Or.inr (Or.inr hs),
        by simp [Nat.add_assoc, hA], (unclosed_iff ((firstWord_hasLetter l3 fd).same hsame)).mp hu⟩
  | @one pos dpos cpos text gap w after g d after1 g1 close after2 q1 s x items f c h1 hs fd h3 hq hc _ ih =>
    obtain ⟨_, _, l3, _⟩ := firstWord_length hsz f
    obtain ⟨_, _, k3, _⟩ := firstWord_length l3 fd
    intro e he
    simp only [List.mem_cons, List.mem_append, not_error_delimiter, not_error_quoteItems, false_or] at he
    rcases he with he | he
    · cases he
    · obtain ⟨_, A, rfl, hA⟩ := hq.suffix
      subst h3 hc
      have et : text = (gap ++ w ++ g ++ d ++ A) ++ after2 := by rw [f.1, fd.1]; simp
      rw [et]
      exact ErrorMeans.suffix (by simpa [Nat.add_assoc, hA] using ih (by simp at k3; omega) e he)
  | @two pos dpos cpos epos text gap w after g d after1 g1 close after2 g2 close2 after3 q1 q2 s x items f c hs fd h3 hq hc hq2 he2 _ ih =>
    obtain ⟨_, _, l3, _⟩ := firstWord_length hsz f
    obtain ⟨_, _, k3, _⟩ := firstWord_length l3 fd
    intro e he
    simp only [List.mem_cons, List.mem_append, not_error_delimiter, not_error_quoteItems, false_or] at he
    rcases he with he | he
    · cases he
    · obtain ⟨_, A, rfl, hA⟩ := hq.suffix
      obtain ⟨_, B, rfl, hB⟩ := hq2.suffix
      subst h3 hc he2
      have et : text = (gap ++ w ++ g ++ d ++ A ++ B) ++ after3 := by rw [f.1, fd.1]; simp
      rw [et]
      exact ErrorMeans.suffix (by simpa [Nat.add_assoc, hA, hB] using ih (by simp at k3; omega) e he)

/-- **C40.** Every error says the truth: after the initiator of a missing-separator error there is no
word; no piece after the starting delimiter of an unclosed-quote error is that delimiter; nothing is left
after the initiator of an end-of-input error. -/
theorem C40_errors_mean (p : Profile) (input : Str) (h : input.len < 2 ^ 32) (items : List LexItem)
    (hi : lexAll p input = .val items) (e : LexError) (he : .error e ∈ items) : ErrorMeans 0 input.chars e :=
  blocks_errors h (blocks_of h ((lexAll_iff p input h items).mp hi)) e he

/-- Where there is a quote initiator token, there is a starting delimiter, the next word; the
unclosed-quote error follows at once exactly if no piece after that is the delimiter. -/
theorem C40_unclosed_iff (p : Profile) (input : Str) (h : input.len < 2 ^ 32) (items : List LexItem)
    (hi : lexAll p input = .val items) (pre : List LexItem) (tok : Token) (post : List LexItem)
    (hs : items = pre ++ .ok tok :: post)
    (ht : tok.selmaho = .Zoi ∨ tok.selmaho = .Muhoi ∨ tok.selmaho = .Sohehai) :
    ∃ before w g d after, input.chars = before ++ w ++ (g ++ d ++ after) ∧ tok.span = spanAt (byteLen before) w ∧
      FirstWord (g ++ d ++ after) g d after ∧
      (post = [.error (.delimitedQuoteUnclosed tok.span (spanAt (byteLen (before ++ w ++ g)) d))] ↔ NeverCloses d after) := by
  have hl := (lexAll_iff p input h items).mp hi
  rcases lexing_locate hl pre tok post hs with ⟨before, t', e, hloc⟩ | ⟨_, hq⟩
  · have hsz' : byteLen t' < u32Size := by
      have : byteLen input.chars < u32Size := h
      rw [e] at this
      simp at this
      omega
    have hb := blocks_of hsz' hloc
    generalize hi2 : (.ok tok :: post : List LexItem) = is at hb
    have no : ∀ {x : LexError} {p : Nat} {d : List Char} {L : List LexItem}, delimiterToken p d :: L ≠ [.error x] := by
      intro x p d L; simp [delimiterToken]
    cases hb with
    | stop _ => simp at hi2
    | word f c h1 h2 h3 _ => simp at hi2; rw [hi2.1] at ht; exact absurd ht h1
    | faho f c h1 => simp at hi2; rw [hi2.1] at ht; exact absurd ⟨ht, h1⟩ selmaho_excl.2.1
    | pauseEof f c h1 h2 => simp at hi2; rw [hi2.1] at ht; exact absurd ⟨ht, h1⟩ selmaho_excl.1
    | pause f c h1 r fp _ => simp at hi2; rw [hi2.1] at ht; exact absurd ⟨ht, h1⟩ selmaho_excl.1
    | missing f c h1 h2 => simp at hi2
    | @open1 _ dpos _ gap w after g d after1 s x f c h1 fd h3 hu =>
      simp at hi2
      obtain ⟨rfl, rfl⟩ := hi2
      obtain ⟨_, _, l3, _⟩ := firstWord_length hsz' f
      refine ⟨before ++ gap, w, g, d, after1, by rw [e, f.1, fd.1]; simp, by simp, by rw [← fd.1]; exact fd, ?_⟩
      subst h3
      simp only [← unclosed_iff (firstWord_hasLetter l3 fd), hu, iff_true]
      simp [Nat.add_assoc]
    | @open2 _ dpos cpos _ gap w after g d after1 g1 close after2 q1 s x f c hs fd h3 hq hc hu =>
      simp at hi2
      obtain ⟨rfl, rfl⟩ := hi2
      obtain ⟨_, _, l3, _⟩ := firstWord_length hsz' f
      refine ⟨before ++ gap, w, g, d, after1, by rw [e, f.1, fd.1]; simp, by simp, by rw [← fd.1]; exact fd, ?_⟩
      exact ⟨fun h => absurd h no, fun h => absurd h (Quoted.notNever (firstWord_hasLetter l3 fd) hq)⟩
    | @one _ dpos cpos _ gap w after g d after1 g1 close after2 q1 s x rest f c h1 hs fd h3 hq hc _ =>
      simp at hi2
      obtain ⟨rfl, rfl⟩ := hi2
      obtain ⟨_, _, l3, _⟩ := firstWord_length hsz' f
      refine ⟨before ++ gap, w, g, d, after1, by rw [e, f.1, fd.1]; simp, by simp, by rw [← fd.1]; exact fd, ?_⟩
      exact ⟨fun h => absurd h no, fun h => absurd h (Quoted.notNever (firstWord_hasLetter l3 fd) hq)⟩
    | @two _ dpos cpos epos _ gap w after g d after1 g1 close after2 g2 close2 after3 q1 q2 s x rest f c hs fd h3 hq hc hq2 he2 _ =>
      simp at hi2
      obtain ⟨rfl, rfl⟩ := hi2
      obtain ⟨_, _, l3, _⟩ := firstWord_length hsz' f
      refine ⟨before ++ gap, w, g, d, after1, by rw [e, f.1, fd.1]; simp, by simp, by rw [← fd.1]; exact fd, ?_⟩
      exact ⟨fun h => absurd h no, fun h => absurd h (Quoted.notNever (firstWord_hasLetter l3 fd) hq)⟩
  · rcases hq with hq | hq <;> rw [hq] at ht <;> simp at ht

/-! ### C42: locality -/

/-- **C42.** If the items of `a` contain no error and no `fa'o`, the items of `a`, a separator and `b` are
those of `a` and then those of `b`, moved. -/
theorem C42_local (p : Profile) (ptr ptra ptrb : Nat) (a b : List Char) (sep : Char) (hsep : IsSeparator sep)
    (h : byteLen (a ++ sep :: b) < 2 ^ 32) (ia ib : List LexItem) (ha : lexAll p ⟨ptra, a⟩ = .val ia)
    (hb : lexAll p ⟨ptrb, b⟩ = .val ib) (he : ∀ e, .error e ∉ ia)
    (hf : ∀ tok, .ok tok ∈ ia → ¬ (tok.selmaho = .Faho ∨ tok.selmaho = .Fahoho)) :
    lexAll p ⟨ptr, a ++ sep :: b⟩ = .val (ia ++ ib.map (shiftItem (byteLen a + 1))) := by
  have hla := (lexAll_iff p ⟨ptra, a⟩ (size_parts h).1 ia).mp ha
  have hlb := (lexAll_iff p ⟨ptrb, b⟩ (size_parts h).2 ib).mp hb
  rw [lexAll_iff p ⟨ptr, a ++ sep :: b⟩ h]
  refine ((local_both hsep b).1 hla h he).2 (fun ⟨t, h1, h2⟩ => hf t h1 h2) _ ?_
  have := hlb.shift (byteLen a + 1)
  simpa [Nat.add_assoc] using this

/-- **C40.** A missing-separator error is yielded if no word follows the initiator. -/
theorem C40_missing_if (p : Profile) (ptr ptra : Nat) (a : List Char) (sep : Char) (hsep : IsSeparator sep)
    (gap w after : List Char) (h : byteLen (a ++ sep :: (gap ++ w ++ after)) < 2 ^ 32) (ia : List LexItem)
    (ha : lexAll p ⟨ptra, a⟩ = .val ia) (he : ∀ e, .error e ∉ ia)
    (hf : ∀ tok, .ok tok ∈ ia → ¬ (tok.selmaho = .Faho ∨ tok.selmaho = .Fahoho)) (s : Selmaho) (x : Bool)
    (hw : FirstWord (gap ++ w ++ after) gap w after) (hc : Classified w s x) (hs : s = .Zoi ∨ s = .Muhoi ∨ s = .Sohehai)
    (hn : NoWord after) :
    lexAll p ⟨ptr, a ++ sep :: (gap ++ w ++ after)⟩ =
      .val (ia ++ [.error (.delimitedQuoteMissingSeparator (spanAt (byteLen a + 1 + byteLen gap) w))]) := by
  have hlb : Lexing 0 (gap ++ w ++ after) _ := .missing hw hc hs hn
  have := C42_local p ptr ptra 0 a _ sep hsep h ia _ ha ((lexAll_iff p ⟨0, _⟩ (size_parts h).2 _).mpr hlb) he hf
  rw [this]
  simp [shiftItem, shift_spanAt]
  congr 1
  omega

example : lexAll .debug ⟨0, c!"coi zoi"⟩ = .val
    [.ok ⟨false, .Coi, ⟨0, 3⟩⟩, .error (.delimitedQuoteMissingSeparator ⟨4, 7⟩)] := by decide +kernel

/-! ### C41: ordinary tokens -/

/-- **C41.** Every token is a quote delimiter or quoted text, or it is a word of the decomposition, and
its selmaho and flag are those `classify` gives for that word. -/
theorem C41_tokens_are_words (p : Profile) (input : Str) (h : input.len < 2 ^ 32) (items : List LexItem)
    (hi : lexAll p input = .val items) (words : List Span) (hw : decomposeAll p input = .val words) (tok : Token)
    (ht : .ok tok ∈ items) :
    (tok.experimental = false ∧ (tok.selmaho = .ZoiDelimiter ∨ tok.selmaho = .AnyText)) ∨
    (tok.span ∈ words ∧ ∃ t, tok.span.slice input = some t ∧ classify t = .val (tok.selmaho, tok.experimental)) := by
  rw [decomposeAll_eq p input h] at hw
  cases hw
  rcases blocks_words h (blocks_of h ((lexAll_iff p input h items).mp hi)) tok ht with hq | ⟨h1, before, w, after, e, h2, h3⟩
  · exact Or.inl hq
  · refine Or.inr ⟨h1, ⟨input.ptr + byteLen before, w⟩, ?_, ?_⟩
    · have := slice_mid input.ptr before w after
      rw [← e] at this
      rw [h2, Nat.zero_add]
      exact this
    · rw [Classified, classify_eq] at h3
      rw [classify_eq]
      exact h3

/-- On a text none of whose words starts a quote or ends the text, the tokens are exactly the words of
the decomposition, classified. -/
theorem C41_plain_text (p : Profile) (input : Str) (h : input.len < 2 ^ 32) (words : List Span)
    (hw : decomposeAll p input = .val words)
    (hs : ∀ sp ∈ words, ∀ t s x, sp.slice input = some t → classify t = .val (s, x) →
      s ∉ [Selmaho.Zoi, .Muhoi, .Sohehai, .Mehoi, .Zohoi, .Dohoi, .Faho, .Fahoho]) :
    ∃ toks : List Token, lexAll p input = .val (toks.map .ok) ∧ toks.map Token.span = words ∧
      ∀ tok ∈ toks, ∃ t, tok.span.slice input = some t ∧ classify t = .val (tok.selmaho, tok.experimental) := by
  rw [decomposeAll_eq p input h] at hw
  cases hw
  obtain ⟨items, hl, hi⟩ := lex_all input h
  obtain ⟨toks, e1, e2, e3⟩ := blocks_plain h (blocks_of h hl) (by
    intro before w after e hm s x hc
    rw [Nat.zero_add] at hm
    have hsl := slice_mid input.ptr before w after
    rw [← e] at hsl
    have := hs _ hm _ s x hsl (by rw [classify_eq]; rw [Classified, classify_eq] at hc; exact hc)
    simp at this
    simp [opensDelimited, opensPause, endsText, this])
  refine ⟨toks, by rw [(hi p).1, e1], e2, ?_⟩
  intro tok ht
  obtain ⟨_, before, w, after, e, h2, h3⟩ := e3 tok ht
  refine ⟨⟨input.ptr + byteLen before, w⟩, ?_, ?_⟩
  · have := slice_mid input.ptr before w after
    rw [← e] at this
    rw [h2, Nat.zero_add]
    exact this
  · rw [Classified, classify_eq] at h3
    rw [classify_eq]
    exact h3

example : lexAll .debug ⟨7, c!"mi klama le zarci"⟩ = .val
    [.ok ⟨false, .Koha, ⟨0, 2⟩⟩, .ok ⟨false, .Gismu, ⟨3, 8⟩⟩, .ok ⟨false, .Le, ⟨9, 11⟩⟩, .ok ⟨false, .Gismu, ⟨12, 17⟩⟩] := by
  decide +kernel

/-! ### C43: quoted text is opaque -/

/-- **C43**, for quoted text that comes right after a separator (for quoted text that follows
the starting delimiter directly the claim would be false, `C43_adjacent`).  Let the text `T` of a
delimited quote be replaced by a text `T'` none of whose pieces is the delimiter.  Then only the span of
that token changes its length; everything before stays, everything after is moved. -/
theorem C43_opaque (p : Profile) (ptr ptr' : Nat) (u T T' close after : List Char) (s s' : Char)
    (h : byteLen (u ++ s :: (T ++ s' :: (close ++ after))) < 2 ^ 32)
    (h' : byteLen (u ++ s :: (T' ++ s' :: (close ++ after))) < 2 ^ 32) (hs : IsSeparator s)
    (pre : List LexItem) (x x' : Bool) (post : List LexItem)
    (hi : lexAll p ⟨ptr, u ++ s :: (T ++ s' :: (close ++ after))⟩ = .val
      (pre ++ .ok ⟨x, .AnyText, spanAt (byteLen u + 1) T⟩ ::
        .ok ⟨x', .ZoiDelimiter, spanAt (byteLen u + 1 + byteLen T + 1) close⟩ :: post))
    (hT' : ∀ qs, SplitsInto T' qs → ∀ q ∈ qs, ¬ Spec.SameUpToCommas close q) :
    lexAll p ⟨ptr', u ++ s :: (T' ++ s' :: (close ++ after))⟩ = .val
      (pre ++ .ok ⟨x, .AnyText, spanAt (byteLen u + 1) T'⟩ ::
        .ok ⟨x', .ZoiDelimiter, spanAt (byteLen u + 1 + byteLen T' + 1) close⟩ ::
        post.map (moveItem fun q => if q ≤ byteLen u + 1 then q else q - byteLen T + byteLen T')) := by
  have hb := blocks_of h ((lexAll_iff p ⟨ptr, _⟩ h _).mp hi)
  have := blocks_replace hb ⟨u, s, T, s', close, after⟩ T' pre x x' post rfl h h' hs (by simp [SiteItems]) hT'
  rw [lexAll_iff p ⟨ptr', _⟩ h']
  have := this.lexing
  simp only [Nat.zero_add] at this
  exact this

/-- The claim fails for quoted text directly after the delimiter: in `zoi fuvi text fu` the delimiter is
`fu` and the quoted text `vi text`; replacing it by `'a`, no piece of which is `fu`, changes the
delimiter and leaves the quote open. -/
theorem C43_adjacent :
    lexAll .debug ⟨0, c!"zoi fuvi text fu"⟩ = .val
      [.ok ⟨false, .Zoi, ⟨0, 3⟩⟩, .ok ⟨false, .ZoiDelimiter, ⟨4, 6⟩⟩, .ok ⟨false, .AnyText, ⟨6, 13⟩⟩,
        .ok ⟨false, .ZoiDelimiter, ⟨14, 16⟩⟩] ∧
    lexAll .debug ⟨0, c!"zoi fu'a fu"⟩ = .val
      [.ok ⟨false, .Zoi, ⟨0, 3⟩⟩, .error (.delimitedQuoteUnclosed ⟨0, 3⟩ ⟨4, 8⟩)] := by
  constructor <;> decide +kernel

example : ∀ qs, SplitsInto c!"quite other words" qs → ∀ q ∈ qs, ¬ Spec.SameUpToCommas c!"gy" q := by
  intro qs h
  rw [splitsInto_chunks h]
  decide +kernel

end Sneturfahi.Props
