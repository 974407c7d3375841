import Verif.Proof.LexSpec

/-!
# `Spec.Lexing` determines the items
-/

namespace Sneturfahi.Spec

theorem byteLen_inj {a b x y : List Char} (h : a ++ x = b ++ y) (hl : byteLen a = byteLen b) : a = b ∧ x = y := by
  have h1 := splitBytes_append a x
  rw [h, hl, splitBytes_append] at h1
  simp at h1
  exact ⟨h1.1.symm, h1.2.symm⟩

theorem byteLen_inj_right {a b x y : List Char} (h : a ++ x = b ++ y) (hl : byteLen x = byteLen y) : a = b ∧ x = y := by
  refine byteLen_inj h ?_
  have := congrArg byteLen h
  simp at this
  omega

theorem FirstWord.det {t g w a g' w' a' : List Char} (h : FirstWord t g w a) (h' : FirstWord t g' w' a') :
    g = g' ∧ w = w' ∧ a = a' := by
  obtain ⟨h1, m, h2⟩ := h
  obtain ⟨h1', m', h2'⟩ := h'
  rw [h2] at h2'
  simp only [Exec.val.injEq, List.cons.injEq, Span.mk.injEq] at h2'
  obtain ⟨⟨hg, hw⟩, _⟩ := h2'
  rw [h1] at h1'
  simp only [List.append_assoc] at h1'
  obtain ⟨rfl, h3⟩ := byteLen_inj h1' hg
  obtain ⟨rfl, rfl⟩ := byteLen_inj h3 (by omega)
  exact ⟨rfl, rfl, rfl⟩

theorem FirstWord.notNoWord {t g w a : List Char} (h : FirstWord t g w a) (h' : NoWord t) : False := by
  obtain ⟨_, m, h2⟩ := h
  rw [NoWord, h2] at h'
  simp at h'

theorem Classified.det {w : List Char} {s s' : Selmaho} {x x' : Bool} (h : Classified w s x) (h' : Classified w s' x') :
    s = s' ∧ x = x' := by
  rw [Classified, h] at h'
  simpa using h'

theorem onlyCommas_noSep {k : List Char} (h : OnlyCommas k) : NoSeparator k := by
  intro x hx
  rw [h x hx]
  decide

theorem chunks_endsPiece {p tail : List Char} (hp : NoSeparator p) (ht : EndsPiece tail) :
    chunks (p ++ tail) = p :: (chunks tail).tail := by
  rcases ht with rfl | ⟨s, r, hs, rfl⟩
  · simp [chunks_noSep hp, chunks]
  · rw [chunks_append_sep _ hs, chunks_noSep hp]
    simp [chunks, (isSep_iff s).mpr hs]

theorem Resumes.inv {t g b : List Char} (h : Resumes t g b) :
    (∃ k s, OnlyCommas k ∧ IsSeparator s ∧ t = k ++ s :: b ∧ g = k ++ [s] ∧ chunks t = k :: chunks b) ∨
    (∃ p tail, NoSeparator p ∧ ¬ OnlyCommas p ∧ EndsPiece tail ∧ t = p ++ tail ∧ g = [] ∧ b = t ∧
      chunks t = p :: (chunks tail).tail) := by
  cases h with
  | behind hk hs =>
    exact Or.inl ⟨_, _, hk, hs, rfl, rfl, by
      rw [chunks_append_sep _ hs, chunks_noSep (onlyCommas_noSep hk)]; rfl⟩
  | here hp hc ht => exact Or.inr ⟨_, _, hp, hc, ht, rfl, rfl, rfl, chunks_endsPiece hp ht⟩

theorem Resumes.det {t g b g' b' : List Char} (h : Resumes t g b) (h' : Resumes t g' b') : g = g' ∧ b = b' := by
  rcases h.inv with ⟨k, s, hk, hs, e1, e2, e3⟩ | ⟨p, tail, h1, h2, h3, h4, h5, h6, h7⟩
  · rcases h'.inv with ⟨k', s', hk', hs', e1', e2', e3'⟩ | ⟨p', tail', h1', h2', h3', h4', h5', h6', h7'⟩
    · rw [e3] at e3'
      simp only [List.cons.injEq] at e3'
      obtain ⟨rfl, _⟩ := e3'
      rw [e1] at e1'
      simp at e1'
      rw [e2, e2']
      simp [e1']
    · rw [e3] at h7'
      simp only [List.cons.injEq] at h7'
      rw [h7'.1] at hk
      exact absurd hk h2'
  · rcases h'.inv with ⟨k', s', hk', hs', e1', e2', e3'⟩ | ⟨p', tail', h1', h2', h3', h4', h5', h6', h7'⟩
    · rw [e3'] at h7
      simp only [List.cons.injEq] at h7
      rw [h7.1] at hk'
      exact absurd hk' h2
    · rw [h5, h5', h6, h6']; exact ⟨rfl, rfl⟩

theorem not_isSeparator_comma : ¬ IsSeparator ',' := by decide

theorem Resumes.notOnlyCommas {t g b : List Char} (h : Resumes t g b) (h' : OnlyCommas t) : False := by
  rcases h.inv with ⟨k, s, hk, hs, e1, e2, e3⟩ | ⟨p, tail, h1, h2, h3, h4, h5, h6, h7⟩
  · have := h' s (by rw [e1]; simp)
    rw [this] at hs
    exact not_isSeparator_comma hs
  · exact h2 (fun x hx => h' x (by rw [h4]; simp [hx]))

theorem FirstPiece.pieces {b q a : List Char} (h : FirstPiece b q a) : chunks b = q :: (chunks a).tail := by
  obtain ⟨rfl, h1, h2⟩ := h
  exact chunks_endsPiece h1 h2

theorem FirstPiece.det {b q a q' a' : List Char} (h : FirstPiece b q a) (h' : FirstPiece b q' a') : q = q' ∧ a = a' := by
  have h1 := h.pieces
  rw [h'.pieces] at h1
  simp only [List.cons.injEq] at h1
  obtain ⟨rfl, _⟩ := h1
  have := h.1
  rw [h'.1] at this
  exact ⟨rfl, (List.append_cancel_left this).symm⟩

/-- The pieces of a text in which a quote closes. -/
theorem Closes.pieces {d b : List Char} {q : Option (List Char)} {c a : List Char} (h : Closes d b q c a) :
    ∃ qs, chunks b = qs ++ c :: (chunks a).tail ∧ (∀ x ∈ qs, ¬ SameUpToCommas d x) ∧ SameUpToCommas d c ∧
      ((qs = [] ∧ q = none ∧ b = c ++ a) ∨
        ∃ T s, qs ≠ [] ∧ q = some T ∧ chunks T = qs ∧ IsSeparator s ∧ b = T ++ s :: (c ++ a)) := by
  cases h with
  | first hf hs => exact ⟨[], by simpa using hf.pieces, by simp, hs, Or.inl ⟨rfl, rfl, rfl⟩⟩
  | @later quoted close after s qs h1 h2 h3 h4 h5 =>
    have hqs := splitsInto_chunks h1
    subst hqs
    refine ⟨_, ?_, h2, h5, Or.inr ⟨quoted, s, chunks_ne_nil _, rfl, rfl, h3, rfl⟩⟩
    rw [chunks_append_sep _ h3, h4.pieces]

theorem first_match {α : Type} {P : α → Prop} : ∀ {a a' : List α} {x x' : α} {b b' : List α},
    a ++ x :: b = a' ++ x' :: b' → (∀ y ∈ a, ¬ P y) → (∀ y ∈ a', ¬ P y) → P x → P x' → a = a' ∧ x = x' ∧ b = b' := by
  intro a
  induction a with
  | nil =>
    intro a' x x' b b' h h1 h2 h3 h4
    cases a' with
    | nil => simpa using h
    | cons y a' => simp at h; exact absurd (h.1 ▸ h3) (h2 y (by simp))
  | cons z a ih =>
    intro a' x x' b b' h h1 h2 h3 h4
    cases a' with
    | nil => simp at h; exact absurd (h.1 ▸ h4) (h1 z (by simp))
    | cons y a' =>
      simp at h
      obtain ⟨rfl, h⟩ := h
      obtain ⟨rfl, rfl, rfl⟩ := ih h (fun y hy => h1 y (by simp [hy])) (fun y hy => h2 y (by simp [hy])) h3 h4
      exact ⟨rfl, rfl, rfl⟩

theorem chunks_inj_sep {T T' a a' : List Char} {s s' : Char} (h : chunks T = chunks T')
    (he : T ++ s :: a = T' ++ s' :: a') : T = T' ∧ a = a' := by
  have h1 := offsetOf_chunks T
  have h2 := offsetOf_chunks T'
  rw [h] at h1
  obtain ⟨rfl, e⟩ := byteLen_inj he (by omega)
  simp at e
  exact ⟨rfl, e.2⟩

theorem Closes.det {d b : List Char} {q q' : Option (List Char)} {c a c' a' : List Char} (h : Closes d b q c a)
    (h' : Closes d b q' c' a') : q = q' ∧ c = c' ∧ a = a' := by
  obtain ⟨qs, h1, h2, h3, h4⟩ := h.pieces
  obtain ⟨qs', h1', h2', h3', h4'⟩ := h'.pieces
  rw [h1] at h1'
  obtain ⟨rfl, rfl, _⟩ := first_match h1' h2 h2' h3 h3'
  rcases h4 with ⟨rfl, rfl, rfl⟩ | ⟨T, s, hne, rfl, hT, hs, rfl⟩
  · rcases h4' with ⟨_, rfl, e⟩ | ⟨_, _, hne, _⟩
    · exact ⟨rfl, rfl, List.append_cancel_left e⟩
    · exact absurd rfl hne
  · rcases h4' with ⟨e, _⟩ | ⟨T', s', _, rfl, hT', _, e⟩
    · exact absurd e hne
    · obtain ⟨rfl, e2⟩ := chunks_inj_sep (hT.trans hT'.symm) e
      exact ⟨rfl, rfl, List.append_cancel_left e2⟩

theorem Closes.notNever {d b : List Char} {q : Option (List Char)} {c a : List Char} (h : Closes d b q c a)
    (h' : NeverCloses d b) : False := by
  obtain ⟨qs, h1, h2, h3, _⟩ := h.pieces
  exact h' _ (chunks_splitsInto b) c (by rw [h1]; simp) h3

theorem selmaho_excl {s : Selmaho} : ¬ (opensDelimited s ∧ opensPause s) ∧ ¬ (opensDelimited s ∧ endsText s) ∧
    ¬ (opensPause s ∧ endsText s) := by
  refine ⟨?_, ?_, ?_⟩
  all_goals
    rintro ⟨h1, h2⟩
    rcases h1 with rfl | rfl | rfl <;> exact absurd h2 (by decide)

theorem stop_det {pos : Nat} {text : List Char} (h1 : NoWord text) {items' : List LexItem} (h' : Lexing pos
    text items') : [] = items' := by
  cases h' with
  | stop => rfl
  | word f => exact absurd h1 f.notNoWord
  | faho f => exact absurd h1 f.notNoWord
  | pauseEof f => exact absurd h1 f.notNoWord
  | pause f => exact absurd h1 f.notNoWord
  | missing f => exact absurd h1 f.notNoWord
  | quote f => exact absurd h1 f.notNoWord

theorem word_det {pos : Nat} {text gap w after : List Char} {s : Selmaho} {x : Bool} {items : List LexItem} (f
    : FirstWord text gap w after) (c : Classified w s x) (n1 : ¬ opensDelimited s) (n2 : ¬ opensPause s) (n3 : ¬
    endsText s) (_ : Lexing (pos + byteLen gap + byteLen w) after items) (ih : ∀ {items'}, Lexing (pos + byteLen
    gap + byteLen w) after items' → items = items') {items' : List LexItem} (h' : Lexing pos text items') : .ok
    ⟨x, s, spanAt (pos + byteLen gap) w⟩ :: items = items' := by
  cases h' with
  | stop h1 => exact absurd h1 f.notNoWord
  | word f' c' _ _ _ hl' =>
    obtain ⟨rfl, rfl, rfl⟩ := f.det f'
    obtain ⟨rfl, rfl⟩ := c.det c'
    rw [ih hl']
  | faho f' c' s => obtain ⟨rfl, rfl, rfl⟩ := f.det f'; obtain ⟨rfl, rfl⟩ := c.det c'; exact absurd s n3
  | pauseEof f' c' s => obtain ⟨rfl, rfl, rfl⟩ := f.det f'; obtain ⟨rfl, rfl⟩ := c.det c'; exact absurd s n2
  | pause f' c' s => obtain ⟨rfl, rfl, rfl⟩ := f.det f'; obtain ⟨rfl, rfl⟩ := c.det c'; exact absurd s n2
  | missing f' c' s => obtain ⟨rfl, rfl, rfl⟩ := f.det f'; obtain ⟨rfl, rfl⟩ := c.det c'; exact absurd s n1
  | quote f' c' s => obtain ⟨rfl, rfl, rfl⟩ := f.det f'; obtain ⟨rfl, rfl⟩ := c.det c'; exact absurd s n1

theorem faho_det {pos : Nat} {text gap w after : List Char} {s : Selmaho} {x : Bool} (f : FirstWord text gap w
    after) (c : Classified w s x) (s1 : endsText s) {items' : List LexItem} (h' : Lexing pos text items') : [.ok
    ⟨x, s, spanAt (pos + byteLen gap) w⟩] = items' := by
  cases h' with
  | stop h1 => exact absurd h1 f.notNoWord
  | word f' c' _ _ n3 => obtain ⟨rfl, rfl, rfl⟩ := f.det f'; obtain ⟨rfl, rfl⟩ := c.det c'; exact absurd s1 n3
  | faho f' c' s => obtain ⟨rfl, rfl, rfl⟩ := f.det f'; obtain ⟨rfl, rfl⟩ := c.det c'; rfl
  | pauseEof f' c' s => obtain ⟨rfl, rfl, rfl⟩ := f.det f'; obtain ⟨rfl, rfl⟩ := c.det c'; exact absurd ⟨s, s1⟩ selmaho_excl.2.2
  | pause f' c' s => obtain ⟨rfl, rfl, rfl⟩ := f.det f'; obtain ⟨rfl, rfl⟩ := c.det c'; exact absurd ⟨s, s1⟩ selmaho_excl.2.2
  | missing f' c' s => obtain ⟨rfl, rfl, rfl⟩ := f.det f'; obtain ⟨rfl, rfl⟩ := c.det c'; exact absurd ⟨s, s1⟩ selmaho_excl.2.1
  | quote f' c' s => obtain ⟨rfl, rfl, rfl⟩ := f.det f'; obtain ⟨rfl, rfl⟩ := c.det c'; exact absurd ⟨s, s1⟩ selmaho_excl.2.1

theorem pauseEof_det {pos : Nat} {text gap w after : List Char} {s : Selmaho} {x : Bool} (f : FirstWord text
    gap w after) (c : Classified w s x) (s1 : opensPause s) (o : OnlyCommas after) {items' : List LexItem} (h' :
    Lexing pos text items') : [.ok ⟨x, s, spanAt (pos + byteLen gap) w⟩, .error (.pauseDelimitedQuoteEof (spanAt
    (pos + byteLen gap) w))] = items' := by
  cases h' with
  | stop h1 => exact absurd h1 f.notNoWord
  | word f' c' _ n2 n3 => obtain ⟨rfl, rfl, rfl⟩ := f.det f'; obtain ⟨rfl, rfl⟩ := c.det c'; exact absurd s1 n2
  | faho f' c' s => obtain ⟨rfl, rfl, rfl⟩ := f.det f'; obtain ⟨rfl, rfl⟩ := c.det c'; exact absurd ⟨s1, s⟩ selmaho_excl.2.2
  | pauseEof f' c' s => obtain ⟨rfl, rfl, rfl⟩ := f.det f'; obtain ⟨rfl, rfl⟩ := c.det c'; rfl
  | pause f' c' s r => obtain ⟨rfl, rfl, rfl⟩ := f.det f'; exact absurd o r.notOnlyCommas
  | missing f' c' s => obtain ⟨rfl, rfl, rfl⟩ := f.det f'; obtain ⟨rfl, rfl⟩ := c.det c'; exact absurd ⟨s, s1⟩ selmaho_excl.1
  | quote f' c' s => obtain ⟨rfl, rfl, rfl⟩ := f.det f'; obtain ⟨rfl, rfl⟩ := c.det c'; exact absurd ⟨s, s1⟩ selmaho_excl.1

theorem pause_det {pos : Nat} {text gap w after g body q after' : List Char} {s : Selmaho} {x : Bool} {items :
    List LexItem} (f : FirstWord text gap w after) (c : Classified w s x) (s1 : opensPause s) (r : Resumes after g
    body) (fp : FirstPiece body q after') (_ : Lexing (pos + byteLen gap + byteLen w + byteLen g + byteLen q)
    after' items) (ih : ∀ {items'}, Lexing (pos + byteLen gap + byteLen w + byteLen g + byteLen q) after' items' →
    items = items') {items' : List LexItem} (h' : Lexing pos text items') : (.ok ⟨x, s, spanAt (pos + byteLen gap)
    w⟩ :: .ok ⟨false, .AnyText, spanAt (pos + byteLen gap + byteLen w + byteLen g) q⟩ :: items) = items' := by
  cases h' with
  | stop h1 => exact absurd h1 f.notNoWord
  | word f' c' _ n2 n3 => obtain ⟨rfl, rfl, rfl⟩ := f.det f'; obtain ⟨rfl, rfl⟩ := c.det c'; exact absurd s1 n2
  | faho f' c' s => obtain ⟨rfl, rfl, rfl⟩ := f.det f'; obtain ⟨rfl, rfl⟩ := c.det c'; exact absurd ⟨s1, s⟩ selmaho_excl.2.2
  | pauseEof f' c' s o => obtain ⟨rfl, rfl, rfl⟩ := f.det f'; exact absurd o r.notOnlyCommas
  | pause f' c' s r' fp' hl' =>
    obtain ⟨rfl, rfl, rfl⟩ := f.det f'
    obtain ⟨rfl, rfl⟩ := c.det c'
    obtain ⟨rfl, rfl⟩ := r.det r'
    obtain ⟨rfl, rfl⟩ := fp.det fp'
    rw [ih hl']
  | missing f' c' s => obtain ⟨rfl, rfl, rfl⟩ := f.det f'; obtain ⟨rfl, rfl⟩ := c.det c'; exact absurd ⟨s, s1⟩ selmaho_excl.1
  | quote f' c' s => obtain ⟨rfl, rfl, rfl⟩ := f.det f'; obtain ⟨rfl, rfl⟩ := c.det c'; exact absurd ⟨s, s1⟩ selmaho_excl.1

theorem missing_det {pos : Nat} {text gap w after : List Char} {s : Selmaho} {x : Bool} (f : FirstWord text
    gap w after) (c : Classified w s x) (s1 : opensDelimited s) (nw : NoWord after) {items' : List LexItem} (h' :
    Lexing pos text items') : [.error (.delimitedQuoteMissingSeparator (spanAt (pos + byteLen gap) w))] = items'
    := by
  cases h' with
  | stop h1 => exact absurd h1 f.notNoWord
  | word f' c' n1 n2 n3 => obtain ⟨rfl, rfl, rfl⟩ := f.det f'; obtain ⟨rfl, rfl⟩ := c.det c'; exact absurd s1 n1
  | faho f' c' s => obtain ⟨rfl, rfl, rfl⟩ := f.det f'; obtain ⟨rfl, rfl⟩ := c.det c'; exact absurd ⟨s1, s⟩ selmaho_excl.2.1
  | pauseEof f' c' s o => obtain ⟨rfl, rfl, rfl⟩ := f.det f'; obtain ⟨rfl, rfl⟩ := c.det c'; exact absurd ⟨s1, s⟩ selmaho_excl.1
  | pause f' c' s => obtain ⟨rfl, rfl, rfl⟩ := f.det f'; obtain ⟨rfl, rfl⟩ := c.det c'; exact absurd ⟨s1, s⟩ selmaho_excl.1
  | missing f' c' s => obtain ⟨rfl, rfl, rfl⟩ := f.det f'; rfl
  | quote f' c' s fd => obtain ⟨rfl, rfl, rfl⟩ := f.det f'; exact absurd nw fd.notNoWord

theorem quote_det {pos dpos : Nat} {text gap w after g d after' : List Char} {s : Selmaho} {x : Bool} {items :
    List LexItem} (f : FirstWord text gap w after) (c : Classified w s x) (s1 : opensDelimited s) (fd : FirstWord
    after g d after') (e : dpos = pos + byteLen gap + byteLen w + byteLen g) (_ : LexingQuote (spanAt (pos +
    byteLen gap) w) true (if s = .Sohehai then 2 else 1) dpos d after' items) (ih : ∀ {items'}, LexingQuote
    (spanAt (pos + byteLen gap) w) true (if s = .Sohehai then 2 else 1) dpos d after' items' → items = items')
    {items' : List LexItem} (h' : Lexing pos text items') : .ok ⟨x, s, spanAt (pos + byteLen gap) w⟩ :: items =
    items' := by
  cases h' with
  | stop h1 => exact absurd h1 f.notNoWord
  | word f' c' n1 n2 n3 => obtain ⟨rfl, rfl, rfl⟩ := f.det f'; obtain ⟨rfl, rfl⟩ := c.det c'; exact absurd s1 n1
  | faho f' c' s => obtain ⟨rfl, rfl, rfl⟩ := f.det f'; obtain ⟨rfl, rfl⟩ := c.det c'; exact absurd ⟨s1, s⟩ selmaho_excl.2.1
  | pauseEof f' c' s o => obtain ⟨rfl, rfl, rfl⟩ := f.det f'; obtain ⟨rfl, rfl⟩ := c.det c'; exact absurd ⟨s1, s⟩ selmaho_excl.1
  | pause f' c' s => obtain ⟨rfl, rfl, rfl⟩ := f.det f'; obtain ⟨rfl, rfl⟩ := c.det c'; exact absurd ⟨s1, s⟩ selmaho_excl.1
  | missing f' c' s nw => obtain ⟨rfl, rfl, rfl⟩ := f.det f'; exact absurd nw fd.notNoWord
  | quote f' c' s fd' e' hq' =>
    obtain ⟨rfl, rfl, rfl⟩ := f.det f'
    obtain ⟨rfl, rfl⟩ := c.det c'
    obtain ⟨rfl, rfl, rfl⟩ := fd.det fd'
    subst e
    subst e'
    rw [ih hq']

theorem eof_det {ini : Span} {isFirst : Bool} {n dpos : Nat} {d after : List Char} (o : OnlyCommas after)
    {items' : List LexItem} (h' : LexingQuote ini isFirst n dpos d after items') : [.error
    (.delimitedQuoteUnclosed ini (spanAt dpos d))] = items' := by
  cases h' with
  | eof => rfl
  | unclosed => rfl
  | last r => exact absurd o r.notOnlyCommas
  | more r => exact absurd o r.notOnlyCommas

theorem unclosed_det {ini : Span} {isFirst : Bool} {n dpos : Nat} {d after g body : List Char} (r : Resumes
    after g body) (nc : NeverCloses d body) {items' : List LexItem} (h' : LexingQuote ini isFirst n dpos d after
    items') : [.error (.delimitedQuoteUnclosed ini (spanAt dpos d))] = items' := by
  cases h' with
  | eof => rfl
  | unclosed => rfl
  | last r' c => obtain ⟨rfl, rfl⟩ := r.det r'; exact absurd nc c.notNever
  | more r' c => obtain ⟨rfl, rfl⟩ := r.det r'; exact absurd nc c.notNever

theorem last_det {ini : Span} {isFirst : Bool} {dpos cpos : Nat} {d after g body close after' : List Char}
    {quoted : Option (List Char)} {items : List LexItem} (r : Resumes after g body) (c : Closes d body quoted
    close after') (e : cpos = dpos + byteLen d + byteLen g + quotedLen quoted) (_ : Lexing (cpos + byteLen close)
    after' items) (ih : ∀ {items'}, Lexing (cpos + byteLen close) after' items' → items = items') {items' : List
    LexItem} (h' : LexingQuote ini isFirst 1 dpos d after items') : ((if isFirst then [delimiterToken dpos d] else
    []) ++ quotedTokens (dpos + byteLen d + byteLen g) quoted ++ delimiterToken cpos close :: items) = items' :=
    by
  cases h' with
  | eof o => exact absurd o r.notOnlyCommas
  | unclosed r' nc => obtain ⟨rfl, rfl⟩ := r.det r'; exact absurd nc c.notNever
  | last r' c' e' hl' =>
    obtain ⟨rfl, rfl⟩ := r.det r'
    obtain ⟨rfl, rfl, rfl⟩ := c.det c'
    subst e
    subst e'
    rw [ih hl']

theorem more_det {ini : Span} {isFirst : Bool} {n dpos cpos : Nat} {d after g body close after' : List Char}
    {quoted : Option (List Char)} {items : List LexItem} (r : Resumes after g body) (c : Closes d body quoted
    close after') (e : cpos = dpos + byteLen d + byteLen g + quotedLen quoted) (_ : LexingQuote ini false (n + 1)
    cpos close after' items) (ih : ∀ {items'}, LexingQuote ini false (n + 1) cpos close after' items' → items =
    items') {items' : List LexItem} (h' : LexingQuote ini isFirst (n + 2) dpos d after items') : ((if isFirst then
    [delimiterToken dpos d] else []) ++ quotedTokens (dpos + byteLen d + byteLen g) quoted ++ delimiterToken cpos
    close :: items) = items' := by
  cases h' with
  | eof o => exact absurd o r.notOnlyCommas
  | unclosed r' nc => obtain ⟨rfl, rfl⟩ := r.det r'; exact absurd nc c.notNever
  | more r' c' e' hl' =>
    obtain ⟨rfl, rfl⟩ := r.det r'
    obtain ⟨rfl, rfl, rfl⟩ := c.det c'
    subst e
    subst e'
    rw [ih hl']

theorem Lexing.det_both :
    (∀ {pos : Nat} {t : List Char} {items : List LexItem}, Lexing pos t items →
      ∀ {items'}, Lexing pos t items' → items = items') ∧
    (∀ {ini : Span} {isFirst : Bool} {n dpos : Nat} {d t : List Char} {items : List LexItem},
      LexingQuote ini isFirst n dpos d t items →
      ∀ {items'}, LexingQuote ini isFirst n dpos d t items' → items = items') := by
  have h1 := @Lexing.rec
    (fun pos t items _ => ∀ {items'}, Lexing pos t items' → items = items')
    (fun ini isFirst n dpos d t items _ => ∀ {items'}, LexingQuote ini isFirst n dpos d t items' → items = items')
  have h2 := @LexingQuote.rec
    (fun pos t items _ => ∀ {items'}, Lexing pos t items' → items = items')
    (fun ini isFirst n dpos d t items _ => ∀ {items'}, LexingQuote ini isFirst n dpos d t items' → items = items')
  refine ⟨fun {pos t items} h => h1 stop_det word_det faho_det pauseEof_det pause_det missing_det quote_det
      eof_det unclosed_det last_det more_det h,
    fun {ini isFirst n dpos d t items} h => h2 stop_det word_det faho_det pauseEof_det pause_det missing_det quote_det
      eof_det unclosed_det last_det more_det h⟩

theorem Lexing.det {pos : Nat} {t : List Char} {items items' : List LexItem} (h : Lexing pos t items)
    (h' : Lexing pos t items') : items = items' := Lexing.det_both.1 h h'

theorem LexingQuote.det {ini : Span} {isFirst : Bool} {n dpos : Nat} {d t : List Char} {items items' : List LexItem}
    (h : LexingQuote ini isFirst n dpos d t items) (h' : LexingQuote ini isFirst n dpos d t items') : items = items' :=
  Lexing.det_both.2 h h'

end Sneturfahi.Spec
