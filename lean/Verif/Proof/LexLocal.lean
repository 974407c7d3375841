import Verif.Proof.LexFacts

/-!
# Lexing after a separator; moved texts
-/

namespace Sneturfahi.Spec

theorem firstWord_iff {t g w a : List Char} (hsz : byteLen t < u32Size) :
    FirstWord t g w a ↔ t = g ++ w ++ a ∧ ∃ more, spansAt 0 (chunks t) = ⟨byteLen g, byteLen g + byteLen w⟩ :: more := by
  constructor
  · rintro ⟨h1, m, h2⟩
    rw [decomposeAll_eq .release ⟨0, t⟩ hsz] at h2
    exact ⟨h1, m, by simpa using h2⟩
  · rintro ⟨h1, m, h2⟩
    exact firstWord_of hsz h1 h2

theorem noWord_iff {t : List Char} (hsz : byteLen t < u32Size) : NoWord t ↔ spansAt 0 (chunks t) = [] := by
  rw [NoWord, decomposeAll_eq .release ⟨0, t⟩ hsz]
  simp

theorem size_parts {a b : List Char} {s : Char} (hsz : byteLen (a ++ s :: b) < u32Size) :
    byteLen a < u32Size ∧ byteLen b < u32Size := by
  simp at hsz; omega

theorem FirstWord.extend {t g w a b : List Char} {s : Char} (h : FirstWord t g w a) (hs : IsSeparator s)
    (hsz : byteLen (t ++ s :: b) < u32Size) : FirstWord (t ++ s :: b) g w (a ++ s :: b) := by
  obtain ⟨h1, m, h2⟩ := (firstWord_iff (size_parts hsz).1).mp h
  refine (firstWord_iff hsz).mpr ⟨by rw [h1]; simp, ?_⟩
  rw [spansAt_sep t hs b, h2]
  exact ⟨_, rfl⟩

theorem NoWord.extend {t b : List Char} {s : Char} (h : NoWord t) (hs : IsSeparator s)
    (hsz : byteLen (t ++ s :: b) < u32Size) :
    (NoWord b → NoWord (t ++ s :: b)) ∧ ∀ {g w a}, FirstWord b g w a → FirstWord (t ++ s :: b) (t ++ s :: g) w a := by
  have h1 := (noWord_iff (size_parts hsz).1).mp h
  constructor
  · intro h2
    rw [noWord_iff hsz, spansAt_sep t hs b, h1, (noWord_iff (size_parts hsz).2).mp h2]
    rfl
  · intro g w a h2
    obtain ⟨h3, m, h4⟩ := (firstWord_iff (size_parts hsz).2).mp h2
    refine (firstWord_iff hsz).mpr ⟨by rw [h3]; simp, m.map (shift (byteLen t + 1)), ?_⟩
    rw [spansAt_sep t hs b, h1, h4]
    simp [shift, isSep_size ((isSep_iff s).mpr hs)]
    omega

/-- Blank text before a separator is skipped. -/
theorem lexing_prefix {pos : Nat} {t b : List Char} {s : Char} {items : List LexItem} (h : NoWord t) (hs : IsSeparator s)
    (hsz : byteLen (t ++ s :: b) < u32Size) (hl : Lexing (pos + byteLen t + 1) b items) :
    Lexing pos (t ++ s :: b) items := by
  have hN := (h.extend hs hsz).1
  have hF := @(h.extend hs hsz).2
  have e : ∀ g, pos + byteLen t + 1 + byteLen g = pos + byteLen (t ++ s :: g) := by
    intro g; simp [isSep_size ((isSep_iff s).mpr hs)]; omega
  cases hl with
  | stop h1 => exact .stop (hN h1)
  | word f c h1 h2 h3 hl =>
    rw [e] at hl ⊢
    exact .word (hF f) c h1 h2 h3 hl
  | faho f c h1 =>
    rw [e]
    exact .faho (hF f) c h1
  | pauseEof f c h1 h2 =>
    rw [e]
    exact .pauseEof (hF f) c h1 h2
  | pause f c h1 h2 h3 hl =>
    rw [e] at hl ⊢
    exact .pause (hF f) c h1 h2 h3 hl
  | missing f c h1 h2 =>
    rw [e]
    exact .missing (hF f) c h1 h2
  | quote f c h1 h2 h3 hl =>
    rw [e] at h3 hl ⊢
    exact .quote (hF f) c h1 h2 h3 hl

/-! ### Moved texts -/

/-- An item moved to the right. -/
def shiftItem (n : Nat) : LexItem → LexItem
  | .ok t => .ok { t with span := shift n t.span }
  | .error (.delimitedQuoteMissingSeparator a) => .error (.delimitedQuoteMissingSeparator (shift n a))
  | .error (.delimitedQuoteUnclosed a b) => .error (.delimitedQuoteUnclosed (shift n a) (shift n b))
  | .error (.pauseDelimitedQuoteEof a) => .error (.pauseDelimitedQuoteEof (shift n a))

theorem shift_spanAt (n pos : Nat) (w : List Char) : shift n (spanAt pos w) = spanAt (pos + n) w := by
  simp [shift, spanAt]; omega

theorem shift_delimiterToken (n pos : Nat) (w : List Char) :
    shiftItem n (delimiterToken pos w) = delimiterToken (pos + n) w := by
  simp [delimiterToken, shiftItem, shift_spanAt]

theorem shift_quotedTokens (n pos : Nat) (q : Option (List Char)) :
    (quotedTokens pos q).map (shiftItem n) = quotedTokens (pos + n) q := by
  cases q <;> simp [quotedTokens, shiftItem, shift_spanAt]

theorem shift_both (n : Nat) :
    (∀ {pos t items}, Lexing pos t items → Lexing (pos + n) t (items.map (shiftItem n))) ∧
    (∀ {ini isFirst m dpos d t items}, LexingQuote ini isFirst m dpos d t items →
      LexingQuote (shift n ini) isFirst m (dpos + n) d t (items.map (shiftItem n))) := by
  apply lexing_induction (P := fun pos t items => Lexing (pos + n) t (items.map (shiftItem n)))
    (Q := fun ini isFirst m dpos d t items => LexingQuote (shift n ini) isFirst m (dpos + n) d t (items.map (shiftItem n)))
  · intro pos t h; exact .stop h
  · intro pos text gap w after s x items f c h1 h2 h3 _ ih
    simp only [List.map_cons, shiftItem, shift_spanAt]
    rw [show pos + byteLen gap + n = pos + n + byteLen gap by omega]
    exact .word f c h1 h2 h3 (by
      rw [show pos + n + byteLen gap + byteLen w = pos + byteLen gap + byteLen w + n by omega]; exact ih)
  · intro pos text gap w after s x f c h1
    simp only [List.map_cons, List.map_nil, shiftItem, shift_spanAt]
    rw [show pos + byteLen gap + n = pos + n + byteLen gap by omega]
    exact .faho f c h1
  · intro pos text gap w after s x f c h1 h2
    simp only [List.map_cons, List.map_nil, shiftItem, shift_spanAt]
    rw [show pos + byteLen gap + n = pos + n + byteLen gap by omega]
    exact .pauseEof f c h1 h2
  · intro pos text gap w after g body q after' s x items f c h1 r fp _ ih
    simp only [List.map_cons, shiftItem, shift_spanAt]
    rw [show pos + byteLen gap + byteLen w + byteLen g + n = pos + n + byteLen gap + byteLen w + byteLen g by omega,
      show pos + byteLen gap + n = pos + n + byteLen gap by omega]
    exact .pause f c h1 r fp (by
      rw [show pos + n + byteLen gap + byteLen w + byteLen g + byteLen q =
        pos + byteLen gap + byteLen w + byteLen g + byteLen q + n by omega]; exact ih)
  · intro pos text gap w after s x f c h1 h2
    simp only [List.map_cons, List.map_nil, shiftItem, shift_spanAt]
    rw [show pos + byteLen gap + n = pos + n + byteLen gap by omega]
    exact .missing f c h1 h2
  · intro pos text gap w after g d after' s x items f c h1 h2 _ ih
    simp only [List.map_cons, shiftItem, shift_spanAt] at ih ⊢
    rw [show pos + byteLen gap + n = pos + n + byteLen gap by omega] at ih ⊢
    exact .quote f c h1 h2 (by omega) ih
  · intro ini isFirst m dpos d after h
    simp only [List.map_cons, List.map_nil, shiftItem, shift_spanAt]
    exact .eof h
  · intro ini isFirst m dpos d after g body r h
    simp only [List.map_cons, List.map_nil, shiftItem, shift_spanAt]
    exact .unclosed r h
  · intro ini isFirst dpos d after g body close after' quoted items r c _ ih
    rw [List.map_append, List.map_append, List.map_cons, shift_delimiterToken, shift_quotedTokens]
    rw [show dpos + byteLen d + byteLen g + n = dpos + n + byteLen d + byteLen g by omega]
    have := LexingQuote.last (ini := shift n ini) (isFirst := isFirst) (dpos := dpos + n)
      (cpos := dpos + byteLen d + byteLen g + quotedLen quoted + n) r c (by omega)
      (by rw [show dpos + byteLen d + byteLen g + quotedLen quoted + n + byteLen close =
            dpos + byteLen d + byteLen g + quotedLen quoted + byteLen close + n by omega]; exact ih)
    cases isFirst <;> simpa [shift_delimiterToken] using this
  · intro ini isFirst m dpos d after g body close after' quoted items r c _ ih
    rw [List.map_append, List.map_append, List.map_cons, shift_delimiterToken, shift_quotedTokens]
    rw [show dpos + byteLen d + byteLen g + n = dpos + n + byteLen d + byteLen g by omega]
    have := LexingQuote.more (ini := shift n ini) (isFirst := isFirst) (dpos := dpos + n)
      (cpos := dpos + byteLen d + byteLen g + quotedLen quoted + n) r c (by omega) ih
    cases isFirst <;> simpa [shift_delimiterToken] using this

theorem Lexing.shift {pos : Nat} {t : List Char} {items : List LexItem} (h : Lexing pos t items) (n : Nat) :
    Lexing (pos + n) t (items.map (shiftItem n)) := (shift_both n).1 h

/-! ### Text after a separator -/

theorem EndsPiece.extend {t b : List Char} {s : Char} (hs : IsSeparator s) (h : EndsPiece t) : EndsPiece (t ++ s :: b) := by
  rcases h with rfl | ⟨s', r, hs', rfl⟩
  · exact Or.inr ⟨s, b, hs, rfl⟩
  · exact Or.inr ⟨s', r ++ s :: b, hs', rfl⟩

theorem Resumes.extend {t g u b : List Char} {s : Char} (hs : IsSeparator s) (h : Resumes t g u) :
    Resumes (t ++ s :: b) g (u ++ s :: b) := by
  cases h with
  | behind hk hs' => simpa using Resumes.behind (u := u ++ s :: b) hk hs'
  | here hp hc ht => simpa using Resumes.here hp hc (ht.extend (b := b) hs)

theorem FirstPiece.extend {t q a b : List Char} {s : Char} (hs : IsSeparator s) (h : FirstPiece t q a) :
    FirstPiece (t ++ s :: b) q (a ++ s :: b) :=
  ⟨by rw [h.1]; simp, h.2.1, h.2.2.extend hs⟩

theorem Closes.extend {d t c a b : List Char} {q : Option (List Char)} {s : Char} (hs : IsSeparator s) (h : Closes d t q c a) :
    Closes d (t ++ s :: b) q c (a ++ s :: b) := by
  cases h with
  | first hf hd =>
    have := Closes.first (delim := d) (close := c) (after := a ++ s :: b) (by simpa using hf.extend (b := b) hs) hd
    simpa using this
  | @later T _ _ s' qs h1 h2 h3 h4 h5 =>
    have := Closes.later (delim := d) (close := c) (after := a ++ s :: b) h1 h2 h3 (by simpa using h4.extend (b := b) hs) h5
    simpa using this

/-- No error among the items. -/
def NoError (items : List LexItem) : Prop := ∀ e, .error e ∉ items

/-- Some item is a `fa'o` token. -/
def HasFaho (items : List LexItem) : Prop := ∃ t : Token, .ok t ∈ items ∧ endsText t.selmaho

theorem noError_append {a b : List LexItem} : NoError (a ++ b) ↔ NoError a ∧ NoError b := by
  simp only [NoError, List.mem_append, not_or]
  exact ⟨fun h => ⟨fun e => (h e).1, fun e => (h e).2⟩, fun h e => ⟨h.1 e, h.2 e⟩⟩

theorem hasFaho_append {a b : List LexItem} : HasFaho (a ++ b) ↔ HasFaho a ∨ HasFaho b := by
  simp only [HasFaho, List.mem_append]
  constructor
  · rintro ⟨t, h1 | h1, h2⟩
    · exact Or.inl ⟨t, h1, h2⟩
    · exact Or.inr ⟨t, h1, h2⟩
  · rintro (⟨t, h1, h2⟩ | ⟨t, h1, h2⟩)
    · exact ⟨t, Or.inl h1, h2⟩
    · exact ⟨t, Or.inr h1, h2⟩

theorem hasFaho_nil : ¬ HasFaho [] := by rintro ⟨t, h, _⟩; simp at h

theorem hasFaho_cons {t : Token} {b : List LexItem} : HasFaho (.ok t :: b) ↔ endsText t.selmaho ∨ HasFaho b := by
  constructor
  · rintro ⟨u, h1, h2⟩
    simp at h1
    rcases h1 with rfl | h1
    · exact Or.inl h2
    · exact Or.inr ⟨u, h1, h2⟩
  · rintro (h | ⟨u, h1, h2⟩)
    · exact ⟨t, by simp, h⟩
    · exact ⟨u, by simp [h1], h2⟩

theorem noError_cons {t : Token} {b : List LexItem} : NoError (.ok t :: b) ↔ NoError b := by
  simp [NoError]

theorem not_noError_single {e : LexError} : ¬ NoError [.error e] := fun h => h e (by simp)

theorem closedTokens_hasFaho {isFirst : Bool} {dpos : Nat} {d : List Char} {tpos : Nat} {quoted : Option (List Char)}
    {close : List Char} : ¬ HasFaho (closedTokens isFirst dpos d tpos quoted close) := by
  rintro ⟨t, h1, h2⟩
  obtain ⟨t', h3, _, h4⟩ := closedTokens_ok _ h1
  cases h3
  rcases h4 with h4 | h4 <;> rw [h4] at h2 <;> exact absurd h2 (by decide)

/-- The conclusion of `lexing_local`: `fa'o` ends everything, otherwise the items of the text behind the separator follow. -/
def Continues (s : Char) (b : List Char) (L : List Char → List LexItem → Prop) (here : Nat) (t : List Char) (items : List LexItem) : Prop :=
  byteLen (t ++ s :: b) < u32Size → NoError items →
    (HasFaho items → L (t ++ s :: b) items) ∧
    (¬ HasFaho items → ∀ items', Lexing (here + byteLen t + 1) b items' → L (t ++ s :: b) (items ++ items'))

theorem local_both {s : Char} (hs : IsSeparator s) (b : List Char) :
    (∀ {pos t items}, Lexing pos t items → Continues s b (Lexing pos) pos t items) ∧
    (∀ {ini isFirst m dpos d t items}, LexingQuote ini isFirst m dpos d t items →
      Continues s b (LexingQuote ini isFirst m dpos d) (dpos + byteLen d) t items) := by
  have size_after : ∀ {t g w a : List Char}, FirstWord t g w a → byteLen (t ++ s :: b) < u32Size →
      byteLen (a ++ s :: b) < u32Size := by
    intro t g w a f h; rw [f.1] at h; simp at h ⊢; omega
  apply lexing_induction (P := fun pos t items => Continues s b (Lexing pos) pos t items)
    (Q := fun ini isFirst m dpos d t items => Continues s b (LexingQuote ini isFirst m dpos d) (dpos + byteLen d) t items)
  · intro pos t h hsz _
    refine ⟨fun h => absurd h hasFaho_nil, fun _ items' hl => lexing_prefix h hs hsz hl⟩
  · intro pos text gap w after x se items f c h1 h2 h3 _ ih hsz hne
    rw [noError_cons] at hne
    rw [hasFaho_cons]
    obtain ⟨ih1, ih2⟩ := ih (size_after f hsz) hne
    refine ⟨fun h => ?_, fun h items' hl => ?_⟩
    · rcases h with h | h
      · exact absurd h h3
      · exact .word (f.extend hs hsz) c h1 h2 h3 (ih1 h)
    · refine .word (f.extend hs hsz) c h1 h2 h3 (ih2 (fun h' => h (Or.inr h')) items' ?_)
      rw [f.1] at hl
      simpa [Nat.add_assoc] using hl
  · intro pos text gap w after x se f c h1 hsz _
    refine ⟨fun _ => .faho (f.extend hs hsz) c h1, fun h => absurd (hasFaho_cons.mpr (Or.inl h1)) h⟩
  · intro pos text gap w after x se f c h1 h2 hsz hne
    rw [noError_cons] at hne
    exact absurd hne not_noError_single
  · intro pos text gap w after g body q after' x se items f c h1 r fp _ ih hsz hne
    rw [noError_cons, noError_cons] at hne
    rw [hasFaho_cons, hasFaho_cons]
    have he : text = gap ++ w ++ g ++ q ++ after' := by rw [f.1, r.eq, fp.1]; simp
    obtain ⟨ih1, ih2⟩ := ih (by rw [he] at hsz; simp at hsz ⊢; omega) hne
    refine ⟨fun h => ?_, fun h items' hl => ?_⟩
    · rcases h with h | h | h
      · exact absurd ⟨h1, h⟩ (selmaho_excl).2.2
      · exact absurd h (by show ¬ endsText .AnyText; decide)
      · exact .pause (f.extend hs hsz) c h1 (r.extend hs) (fp.extend hs) (ih1 h)
    · refine .pause (f.extend hs hsz) c h1 (r.extend hs) (fp.extend hs)
        (ih2 (fun h' => h (Or.inr (Or.inr h'))) items' ?_)
      rw [he] at hl
      simpa [Nat.add_assoc] using hl
  · intro pos text gap w after x se f c h1 h2 hsz hne
    exact absurd hne not_noError_single
  · intro pos text gap w after g d after' x se items f c h1 fd _ ih hsz hne
    rw [noError_cons] at hne
    rw [hasFaho_cons]
    have hsz1 := size_after f hsz
    obtain ⟨ih1, ih2⟩ := ih (size_after fd hsz1) hne
    refine ⟨fun h => ?_, fun h items' hl => ?_⟩
    · rcases h with h | h
      · exact absurd ⟨h1, h⟩ (selmaho_excl).2.1
      · exact .quote (f.extend hs hsz) c h1 (fd.extend hs hsz1) rfl (ih1 h)
    · refine .quote (f.extend hs hsz) c h1 (fd.extend hs hsz1) rfl (ih2 (fun h' => h (Or.inr h')) items' ?_)
      rw [f.1, fd.1] at hl
      simpa [Nat.add_assoc] using hl
  · intro ini isFirst m dpos d after h hsz hne
    exact absurd hne not_noError_single
  · intro ini isFirst m dpos d after g body r h hsz hne
    exact absurd hne not_noError_single
  · intro ini isFirst dpos d after g body close after' quoted items r c _ ih hsz hne
    rw [closedTokens_eq] at hne ⊢
    rw [noError_append] at hne
    rw [hasFaho_append]
    have hb : byteLen after = byteLen g + quotedLen quoted + byteLen close + byteLen after' := by
      rw [r.eq]; simp [c.byteLen]; omega
    obtain ⟨ih1, ih2⟩ := ih (by simp at hsz ⊢; omega) hne.2
    refine ⟨fun h => ?_, fun h items' hl => ?_⟩
    · rcases h with h | h
      · exact absurd h closedTokens_hasFaho
      · rw [← closedTokens_eq]
        exact .last (r.extend hs) (c.extend hs) rfl (ih1 h)
    · rw [List.append_assoc, ← closedTokens_eq]
      refine .last (r.extend hs) (c.extend hs) rfl (ih2 (fun h' => h (Or.inr h')) items' ?_)
      rw [hb] at hl
      simpa [Nat.add_assoc] using hl
  · intro ini isFirst m dpos d after g body close after' quoted items r c _ ih hsz hne
    rw [closedTokens_eq] at hne ⊢
    rw [noError_append] at hne
    rw [hasFaho_append]
    have hb : byteLen after = byteLen g + quotedLen quoted + byteLen close + byteLen after' := by
      rw [r.eq]; simp [c.byteLen]; omega
    obtain ⟨ih1, ih2⟩ := ih (by simp at hsz ⊢; omega) hne.2
    refine ⟨fun h => ?_, fun h items' hl => ?_⟩
    · rcases h with h | h
      · exact absurd h closedTokens_hasFaho
      · rw [← closedTokens_eq]
        exact .more (r.extend hs) (c.extend hs) rfl (ih1 h)
    · rw [List.append_assoc, ← closedTokens_eq]
      refine .more (r.extend hs) (c.extend hs) rfl (ih2 (fun h' => h (Or.inr h')) items' ?_)
      rw [hb] at hl
      simpa [Nat.add_assoc] using hl

end Sneturfahi.Spec
