import Verif.Proof.LexLocal

/-!
# The items as a sequence of blocks

`Lexing` with the quotes unfolded, so that it is a plain (not mutual) inductive predicate.
-/

namespace Sneturfahi.Spec

/-- The quote with starting delimiter `d` is not closed in `after`. -/
def Unclosed (d after : List Char) : Prop := OnlyCommas after ∨ ∃ g body, Resumes after g body ∧ NeverCloses d body

/-- The quote with starting delimiter `d` is closed in `after`. -/
def Quoted (d after g : List Char) (q : Option (List Char)) (close after' : List Char) : Prop :=
  ∃ body, Resumes after g body ∧ Closes d body q close after'

/-- The items of a closed quote after its starting delimiter. -/
def quoteItems (dpos : Nat) (d g : List Char) (q : Option (List Char)) (close : List Char) : List LexItem :=
  quotedTokens (dpos + byteLen d + byteLen g) q ++ [delimiterToken (dpos + byteLen d + byteLen g + quotedLen q) close]

/-- `Lexing` in blocks. -/
inductive Blocks : Nat → List Char → List LexItem → Prop
  | stop {pos : Nat} {text : List Char} : NoWord text → Blocks pos text []
  | word {pos : Nat} {text gap w after : List Char} {s : Selmaho} {x : Bool} {items : List LexItem} :
      FirstWord text gap w after → Classified w s x → ¬ opensDelimited s → ¬ opensPause s → ¬ endsText s →
      Blocks (pos + byteLen gap + byteLen w) after items →
      Blocks pos text (.ok ⟨x, s, spanAt (pos + byteLen gap) w⟩ :: items)
  | faho {pos : Nat} {text gap w after : List Char} {s : Selmaho} {x : Bool} :
      FirstWord text gap w after → Classified w s x → endsText s →
      Blocks pos text [.ok ⟨x, s, spanAt (pos + byteLen gap) w⟩]
  | pauseEof {pos : Nat} {text gap w after : List Char} {s : Selmaho} {x : Bool} :
      FirstWord text gap w after → Classified w s x → opensPause s → OnlyCommas after →
      Blocks pos text [.ok ⟨x, s, spanAt (pos + byteLen gap) w⟩,
        .error (.pauseDelimitedQuoteEof (spanAt (pos + byteLen gap) w))]
  | pause {pos : Nat} {text gap w after g body q after' : List Char} {s : Selmaho} {x : Bool} {items : List LexItem} :
      FirstWord text gap w after → Classified w s x → opensPause s →
      Resumes after g body → FirstPiece body q after' →
      Blocks (pos + byteLen gap + byteLen w + byteLen g + byteLen q) after' items →
      Blocks pos text (.ok ⟨x, s, spanAt (pos + byteLen gap) w⟩ ::
        .ok ⟨false, .AnyText, spanAt (pos + byteLen gap + byteLen w + byteLen g) q⟩ :: items)
  | missing {pos : Nat} {text gap w after : List Char} {s : Selmaho} {x : Bool} :
      FirstWord text gap w after → Classified w s x → opensDelimited s → NoWord after →
      Blocks pos text [.error (.delimitedQuoteMissingSeparator (spanAt (pos + byteLen gap) w))]
  | open1 {pos dpos : Nat} {text gap w after g d after1 : List Char} {s : Selmaho} {x : Bool} :
      FirstWord text gap w after → Classified w s x → opensDelimited s → FirstWord after g d after1 →
      dpos = pos + byteLen gap + byteLen w + byteLen g → Unclosed d after1 →
      Blocks pos text [.ok ⟨x, s, spanAt (pos + byteLen gap) w⟩,
        .error (.delimitedQuoteUnclosed (spanAt (pos + byteLen gap) w) (spanAt dpos d))]
  | open2 {pos dpos cpos : Nat} {text gap w after g d after1 g1 close after2 : List Char} {q1 : Option (List Char)}
      {s : Selmaho} {x : Bool} :
      FirstWord text gap w after → Classified w s x → s = .Sohehai → FirstWord after g d after1 →
      dpos = pos + byteLen gap + byteLen w + byteLen g → Quoted d after1 g1 q1 close after2 →
      cpos = dpos + byteLen d + byteLen g1 + quotedLen q1 → Unclosed close after2 →
      Blocks pos text (.ok ⟨x, s, spanAt (pos + byteLen gap) w⟩ :: delimiterToken dpos d :: (quoteItems dpos d g1 q1 close ++
        [.error (.delimitedQuoteUnclosed (spanAt (pos + byteLen gap) w) (spanAt cpos close))]))
  | one {pos dpos cpos : Nat} {text gap w after g d after1 g1 close after2 : List Char} {q1 : Option (List Char)}
      {s : Selmaho} {x : Bool} {items : List LexItem} :
      FirstWord text gap w after → Classified w s x → opensDelimited s → s ≠ .Sohehai → FirstWord after g d after1 →
      dpos = pos + byteLen gap + byteLen w + byteLen g → Quoted d after1 g1 q1 close after2 →
      cpos = dpos + byteLen d + byteLen g1 + quotedLen q1 → Blocks (cpos + byteLen close) after2 items →
      Blocks pos text (.ok ⟨x, s, spanAt (pos + byteLen gap) w⟩ :: delimiterToken dpos d ::
        (quoteItems dpos d g1 q1 close ++ items))
  | two {pos dpos cpos epos : Nat} {text gap w after g d after1 g1 close after2 g2 close2 after3 : List Char}
      {q1 q2 : Option (List Char)} {s : Selmaho} {x : Bool} {items : List LexItem} :
      FirstWord text gap w after → Classified w s x → s = .Sohehai → FirstWord after g d after1 →
      dpos = pos + byteLen gap + byteLen w + byteLen g → Quoted d after1 g1 q1 close after2 →
      cpos = dpos + byteLen d + byteLen g1 + quotedLen q1 → Quoted close after2 g2 q2 close2 after3 →
      epos = cpos + byteLen close + byteLen g2 + quotedLen q2 → Blocks (epos + byteLen close2) after3 items →
      Blocks pos text (.ok ⟨x, s, spanAt (pos + byteLen gap) w⟩ :: delimiterToken dpos d ::
        (quoteItems dpos d g1 q1 close ++ (quoteItems cpos close g2 q2 close2 ++ items)))

/-- One quote to go. -/
theorem LexingQuote.inv_one {ini : Span} {isFirst : Bool} {dpos : Nat} {d after : List Char} {items : List LexItem}
    (h : LexingQuote ini isFirst 1 dpos d after items) :
    (Unclosed d after ∧ items = [.error (.delimitedQuoteUnclosed ini (spanAt dpos d))]) ∨
    ∃ g q close after' rest, Quoted d after g q close after' ∧
      Lexing (dpos + byteLen d + byteLen g + quotedLen q + byteLen close) after' rest ∧
      items = (if isFirst then [delimiterToken dpos d] else []) ++ (quoteItems dpos d g q close ++ rest) := by
  generalize hn : 1 = n at h
  cases h with
  | eof h => exact Or.inl ⟨Or.inl h, rfl⟩
  | unclosed r h => exact Or.inl ⟨Or.inr ⟨_, _, r, h⟩, rfl⟩
  | last r c hc hl => subst hc; exact Or.inr ⟨_, _, _, _, _, ⟨_, r, c⟩, hl, by simp [quoteItems]⟩
  | more r c hc hl => exact absurd hn (by omega)

/-- Two quotes to go. -/
theorem LexingQuote.inv_two {ini : Span} {isFirst : Bool} {dpos : Nat} {d after : List Char} {items : List LexItem}
    (h : LexingQuote ini isFirst 2 dpos d after items) :
    (Unclosed d after ∧ items = [.error (.delimitedQuoteUnclosed ini (spanAt dpos d))]) ∨
    ∃ g q close after' rest, Quoted d after g q close after' ∧
      LexingQuote ini false 1 (dpos + byteLen d + byteLen g + quotedLen q) close after' rest ∧
      items = (if isFirst then [delimiterToken dpos d] else []) ++ (quoteItems dpos d g q close ++ rest) := by
  generalize hn : 2 = n at h
  cases h with
  | eof h => exact Or.inl ⟨Or.inl h, rfl⟩
  | unclosed r h => exact Or.inl ⟨Or.inr ⟨_, _, r, h⟩, rfl⟩
  | last r c hc hl => exact absurd hn (by omega)
  | @more _ _ m _ _ _ _ _ _ _ _ _ _ r c hc hl =>
    obtain rfl : m = 0 := by omega
    subst hc
    exact Or.inr ⟨_, _, _, _, _, ⟨_, r, c⟩, hl, by simp [quoteItems]⟩

theorem blocks_of_aux : ∀ (m : Nat) {pos t items}, t.length ≤ m → byteLen t < u32Size → Lexing pos t items → Blocks pos t items := by
  intro m
  induction m with
  | zero =>
    intro pos t items hm hsz h
    have e : t = [] := List.length_eq_zero_iff.mp (by omega)
    subst e
    have hN : NoWord [] := (noWord_iff (by decide)).mpr (by decide +kernel)
    rw [h.det (.stop hN)]
    exact .stop hN
  | succ m ih =>
    intro pos t items hm hsz h
    have quoted_len : ∀ {d after g : List Char} {q : Option (List Char)} {close after' : List Char},
        Quoted d after g q close after' → byteLen after < u32Size →
        after'.length ≤ after.length ∧ byteLen after' < u32Size := by
      rintro d after g q close after' ⟨body, r, c⟩ hs
      have h1 := quote_length r c 0
      have h2 := c.byteLen
      have h3 := congrArg byteLen r.eq
      simp at h3
      omega
    cases h with
    | stop h => exact .stop h
    | word f c h1 h2 h3 hl =>
      obtain ⟨l1, l2, l3, _⟩ := firstWord_length hsz f
      exact .word f c h1 h2 h3 (ih (by omega) l3 hl)
    | faho f c h1 => exact .faho f c h1
    | pauseEof f c h1 h2 => exact .pauseEof f c h1 h2
    | pause f c h1 r fp hl =>
      obtain ⟨l1, l2, l3, _⟩ := firstWord_length hsz f
      have e1 := r.eq
      have e2 := fp.1
      subst e2
      subst e1
      refine .pause f c h1 r fp (ih ?_ ?_ hl)
      · simp at l2; omega
      · simp at l3; omega
    | missing f c h1 h2 => exact .missing f c h1 h2
    | @quote _ _ _ gap w _ g d _ s _ items f c h1 fd h3 hl =>
      obtain ⟨l1, l2, l3, _⟩ := firstWord_length hsz f
      obtain ⟨k1, k2, k3, _⟩ := firstWord_length l3 fd
      by_cases hs : s = .Sohehai
      · rw [if_pos hs] at hl
        rcases hl.inv_two with ⟨hu, rfl⟩ | ⟨g1, q, close, a2, rest, hq, hr, rfl⟩
        · exact .open1 f c h1 fd h3 hu
        · obtain ⟨j1, j2⟩ := quoted_len hq k3
          rcases hr.inv_one with ⟨hu, rfl⟩ | ⟨g2, q2, close2, a3, rest, hq2, hr2, rfl⟩
          · exact .open2 f c hs fd h3 hq rfl hu
          · obtain ⟨i1, i2⟩ := quoted_len hq2 j2
            exact .two f c hs fd h3 hq rfl hq2 rfl (ih (by omega) i2 hr2)
      · rw [if_neg hs] at hl
        rcases hl.inv_one with ⟨hu, rfl⟩ | ⟨g1, q, close, a2, rest, hq, hr, rfl⟩
        · exact .open1 f c h1 fd h3 hu
        · obtain ⟨j1, j2⟩ := quoted_len hq k3
          exact .one f c h1 hs fd h3 hq rfl (ih (by omega) j2 hr)

theorem blocks_of {pos : Nat} {t : List Char} {items : List LexItem} (hsz : byteLen t < u32Size) (h : Lexing pos t items) :
    Blocks pos t items := blocks_of_aux t.length (Nat.le_refl _) hsz h

theorem Unclosed.lexing {d after : List Char} (h : Unclosed d after) (ini : Span) (isFirst : Bool) (n dpos : Nat) :
    LexingQuote ini isFirst n dpos d after [.error (.delimitedQuoteUnclosed ini (spanAt dpos d))] := by
  rcases h with h | ⟨g, body, r, h⟩
  · exact .eof h
  · exact .unclosed r h

theorem Quoted.last {d after g : List Char} {q : Option (List Char)} {close after' : List Char} (h : Quoted d after g q close after')
    {ini : Span} {dpos : Nat} {items : List LexItem} (isFirst : Bool)
    (hl : Lexing (dpos + byteLen d + byteLen g + quotedLen q + byteLen close) after' items) :
    LexingQuote ini isFirst 1 dpos d after
      ((if isFirst then [delimiterToken dpos d] else []) ++ (quoteItems dpos d g q close ++ items)) := by
  obtain ⟨body, r, c⟩ := h
  have := LexingQuote.last (ini := ini) (isFirst := isFirst) (dpos := dpos) r c rfl hl
  simpa [quoteItems] using this

theorem Quoted.more {d after g : List Char} {q : Option (List Char)} {close after' : List Char} (h : Quoted d after g q close after')
    {ini : Span} {dpos : Nat} {items : List LexItem} (isFirst : Bool)
    (hl : LexingQuote ini false 1 (dpos + byteLen d + byteLen g + quotedLen q) close after' items) :
    LexingQuote ini isFirst 2 dpos d after
      ((if isFirst then [delimiterToken dpos d] else []) ++ (quoteItems dpos d g q close ++ items)) := by
  obtain ⟨body, r, c⟩ := h
  have := LexingQuote.more (ini := ini) (isFirst := isFirst) (dpos := dpos) (n := 0) r c rfl hl
  simpa [quoteItems] using this

theorem Blocks.lexing {pos : Nat} {t : List Char} {items : List LexItem} (h : Blocks pos t items) : Lexing pos t items := by
  induction h with
  | stop h => exact .stop h
  | word f c h1 h2 h3 _ ih => exact .word f c h1 h2 h3 ih
  | faho f c h1 => exact .faho f c h1
  | pauseEof f c h1 h2 => exact .pauseEof f c h1 h2
  | pause f c h1 r fp _ ih => exact .pause f c h1 r fp ih
  | missing f c h1 h2 => exact .missing f c h1 h2
  | open1 f c h1 fd h3 hu => exact .quote f c h1 fd h3 (hu.lexing ..)
  | open2 f c hs fd h3 hq hc hu =>
    refine .quote f c (Or.inr (Or.inr hs)) fd h3 ?_
    rw [if_pos hs]
    subst hc
    exact hq.more true (hu.lexing ..)
  | one f c h1 hs fd h3 hq hc _ ih =>
    refine .quote f c h1 fd h3 ?_
    rw [if_neg hs]
    subst hc
    exact hq.last true ih
  | two f c hs fd h3 hq hc hq2 he _ ih =>
    refine .quote f c (Or.inr (Or.inr hs)) fd h3 ?_
    rw [if_pos hs]
    subst hc he
    exact hq.more true (hq2.last false ih)

end Sneturfahi.Spec
