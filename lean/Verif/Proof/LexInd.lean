import Verif.Proof.LexDet

/-!
# Induction over `Spec.Lexing`
-/

namespace Sneturfahi.Spec

/-- Simultaneous induction. -/
theorem lexing_induction {P : Nat → List Char → List LexItem → Prop}
    {Q : Span → Bool → Nat → Nat → List Char → List Char → List LexItem → Prop}
    (stop : ∀ {pos text}, NoWord text → P pos text [])
    (word : ∀ {pos text gap w after s x items}, FirstWord text gap w after → Classified w s x →
      ¬ opensDelimited s → ¬ opensPause s → ¬ endsText s →
      Lexing (pos + byteLen gap + byteLen w) after items → P (pos + byteLen gap + byteLen w) after items →
      P pos text (.ok ⟨x, s, spanAt (pos + byteLen gap) w⟩ :: items))
    (faho : ∀ {pos text gap w after s x}, FirstWord text gap w after → Classified w s x → endsText s →
      P pos text [.ok ⟨x, s, spanAt (pos + byteLen gap) w⟩])
    (pauseEof : ∀ {pos text gap w after s x}, FirstWord text gap w after → Classified w s x → opensPause s →
      OnlyCommas after → P pos text [.ok ⟨x, s, spanAt (pos + byteLen gap) w⟩,
        .error (.pauseDelimitedQuoteEof (spanAt (pos + byteLen gap) w))])
    (pause : ∀ {pos text gap w after g body q after' s x items}, FirstWord text gap w after → Classified w s x →
      opensPause s → Resumes after g body → FirstPiece body q after' →
      Lexing (pos + byteLen gap + byteLen w + byteLen g + byteLen q) after' items →
      P (pos + byteLen gap + byteLen w + byteLen g + byteLen q) after' items →
      P pos text (.ok ⟨x, s, spanAt (pos + byteLen gap) w⟩ ::
        .ok ⟨false, .AnyText, spanAt (pos + byteLen gap + byteLen w + byteLen g) q⟩ :: items))
    (missing : ∀ {pos text gap w after s x}, FirstWord text gap w after → Classified w s x → opensDelimited s →
      NoWord after → P pos text [.error (.delimitedQuoteMissingSeparator (spanAt (pos + byteLen gap) w))])
    (quote : ∀ {pos text gap w after g d after' s x items}, FirstWord text gap w after → Classified w s x →
      opensDelimited s → FirstWord after g d after' →
      LexingQuote (spanAt (pos + byteLen gap) w) true (if s = .Sohehai then 2 else 1)
        (pos + byteLen gap + byteLen w + byteLen g) d after' items →
      Q (spanAt (pos + byteLen gap) w) true (if s = .Sohehai then 2 else 1)
        (pos + byteLen gap + byteLen w + byteLen g) d after' items →
      P pos text (.ok ⟨x, s, spanAt (pos + byteLen gap) w⟩ :: items))
    (eof : ∀ {ini isFirst n dpos d after}, OnlyCommas after →
      Q ini isFirst n dpos d after [.error (.delimitedQuoteUnclosed ini (spanAt dpos d))])
    (unclosed : ∀ {ini isFirst n dpos d after g body}, Resumes after g body → NeverCloses d body →
      Q ini isFirst n dpos d after [.error (.delimitedQuoteUnclosed ini (spanAt dpos d))])
    (last : ∀ {ini : Span} {isFirst : Bool} {dpos d after g body close after' quoted items}, Resumes after g body → Closes d body quoted close after' →
      Lexing (dpos + byteLen d + byteLen g + quotedLen quoted + byteLen close) after' items →
      P (dpos + byteLen d + byteLen g + quotedLen quoted + byteLen close) after' items →
      Q ini isFirst 1 dpos d after
        ((if isFirst then [delimiterToken dpos d] else []) ++
          quotedTokens (dpos + byteLen d + byteLen g) quoted ++
          delimiterToken (dpos + byteLen d + byteLen g + quotedLen quoted) close :: items))
    (more : ∀ {ini : Span} {isFirst : Bool} {n dpos d after g body close after' quoted items}, Resumes after g body → Closes d body quoted close after' →
      LexingQuote ini false (n + 1) (dpos + byteLen d + byteLen g + quotedLen quoted) close after' items →
      Q ini false (n + 1) (dpos + byteLen d + byteLen g + quotedLen quoted) close after' items →
      Q ini isFirst (n + 2) dpos d after
        ((if isFirst then [delimiterToken dpos d] else []) ++
          quotedTokens (dpos + byteLen d + byteLen g) quoted ++
          delimiterToken (dpos + byteLen d + byteLen g + quotedLen quoted) close :: items)) :
    (∀ {pos t items}, Lexing pos t items → P pos t items) ∧
    (∀ {ini isFirst n dpos d t items}, LexingQuote ini isFirst n dpos d t items → Q ini isFirst n dpos d t items) := by
  constructor
  · intro pos t items h
    exact Lexing.rec (motive_1 := fun pos t items _ => P pos t items)
      (motive_2 := fun ini isFirst n dpos d t items _ => Q ini isFirst n dpos d t items)
      stop word faho pauseEof pause missing
      (by intros; subst_vars; exact quote ‹_› ‹_› ‹_› ‹_› ‹_› ‹_›) eof unclosed
      (by intros; subst_vars; exact last ‹_› ‹_› ‹_› ‹_›) (by intros; subst_vars; exact more ‹_› ‹_› ‹_› ‹_›) h
  · intro ini isFirst n dpos d t items h
    exact LexingQuote.rec (motive_1 := fun pos t items _ => P pos t items)
      (motive_2 := fun ini isFirst n dpos d t items _ => Q ini isFirst n dpos d t items)
      stop word faho pauseEof pause missing
      (by intros; subst_vars; exact quote ‹_› ‹_› ‹_› ‹_› ‹_› ‹_›) eof unclosed
      (by intros; subst_vars; exact last ‹_› ‹_› ‹_› ‹_›) (by intros; subst_vars; exact more ‹_› ‹_› ‹_› ‹_›) h

end Sneturfahi.Spec
