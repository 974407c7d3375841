import Verif.Proof.LexBlocks
import Verif.Props.Decompose
import Verif.Props.Classify

/-!
# Delimiters, quoted text, and the words behind the tokens
-/

namespace Sneturfahi.Spec

theorem classified_not_delimiter {w : List Char} {s : Selmaho} {x : Bool} (h : Classified w s x) : s ≠ .ZoiDelimiter := by
  rintro rfl
  rw [Classified, classify_eq] at h
  simp only [Exec.val.injEq] at h
  have := Props.classify_by_rule h (by decide)
  have hr := this.1
  unfold generalPure at hr
  repeat' split at hr
  all_goals cases hr

theorem firstWord_noSep {t g w a : List Char} (hsz : byteLen t < u32Size) (h : FirstWord t g w a) : NoSeparator w := by
  obtain ⟨h1, m, h2⟩ := h
  obtain ⟨t', h3, h4, _⟩ := Props.C23_word_characters .release ⟨0, t⟩ hsz _ h2 ⟨byteLen g, byteLen g + byteLen w⟩ (by simp)
  subst h1
  have := slice_mid 0 g w a
  rw [this] at h3
  cases h3
  exact h4

theorem sameUpToCommas_trans {a b c : List Char} (h1 : SameUpToCommas a b) (h2 : SameUpToCommas b c) : SameUpToCommas a c :=
  Eq.trans h1 h2

theorem sameUpToCommas_symm {a b : List Char} (h1 : SameUpToCommas a b) : SameUpToCommas b a := Eq.symm h1

/-- A delimiter has a letter in it. -/
def HasLetter (d : List Char) : Prop := ¬ OnlyCommas d

theorem HasLetter.ne_nil {d : List Char} (h : HasLetter d) : d ≠ [] := by
  rintro rfl; exact h (by simp [OnlyCommas])

theorem onlyCommas_iff {d : List Char} : OnlyCommas d ↔ d.filter (fun c => c != ',') = [] := by
  simp [OnlyCommas, List.filter_eq_nil_iff]

theorem HasLetter.same {d e : List Char} (h : HasLetter d) (hs : SameUpToCommas d e) : HasLetter e := by
  intro he
  apply h
  rw [onlyCommas_iff] at he ⊢
  rw [SameUpToCommas] at hs
  rw [hs, he]

theorem firstWord_hasLetter {t g w a : List Char} (hsz : byteLen t < u32Size) (h : FirstWord t g w a) : HasLetter w := by
  have := (firstWord_facts hsz h).1
  intro hc
  apply this
  rw [onlyCommas_iff] at hc
  simpa [noCommas, bne] using hc

/-- Facts about a closed quote in elementary terms. -/
theorem Quoted.inv {d after g : List Char} {q : Option (List Char)} {close after' : List Char} (h : Quoted d after g q close after') :
    DelimiterGap g ∧ NoSeparator close ∧ EndsPiece after' ∧ SameUpToCommas d close ∧
    byteLen after = byteLen g + quotedLen q + byteLen close + byteLen after' ∧
    ((q = none ∧ after = g ++ close ++ after') ∨
      ∃ T s, q = some T ∧ IsSeparator s ∧ after = g ++ T ++ s :: (close ++ after') ∧
        ∀ qs, SplitsInto T qs → ∀ q ∈ qs, ¬ SameUpToCommas d q) := by
  obtain ⟨body, r, c⟩ := h
  have hb : byteLen after = byteLen g + quotedLen q + byteLen close + byteLen after' := by
    have := congrArg byteLen r.eq
    have := c.byteLen
    simp at *; omega
  have hg : DelimiterGap g := by
    cases r with
    | behind hk hs => exact Or.inr ⟨_, _, hk, hs, rfl⟩
    | here => exact Or.inl rfl
  have e := r.eq
  cases c with
  | first f hd => exact ⟨hg, f.2.1, f.2.2, hd, hb, Or.inl ⟨rfl, by rw [e]; simp⟩⟩
  | @later T _ _ s qs h1 h2 h3 h4 h5 =>
    refine ⟨hg, h4.2.1, h4.2.2, h5, hb, Or.inr ⟨T, s, rfl, h3, by rw [e]; simp, ?_⟩⟩
    intro qs' hq
    rw [splitsInto_chunks hq, ← splitsInto_chunks h1]
    exact h2

/-! ### What comes before a delimiter token -/

/-- What may come before the delimiter token with span `b`. -/
def Preceded (pos : Nat) (t : List Char) (pre : List LexItem) (a : LexItem) (b : Span) : Prop :=
  (∃ tok, a = .ok tok ∧ opensDelimited tok.selmaho) ∨
  (∃ dsp, a = .ok ⟨false, .ZoiDelimiter, dsp⟩ ∧ EmptyQuote pos t dsp b) ∨
  (∃ pre' dsp tsp, pre = pre' ++ [.ok ⟨false, .ZoiDelimiter, dsp⟩] ∧ a = .ok ⟨false, .AnyText, tsp⟩ ∧ TextQuote pos t dsp tsp b)

theorem TextQuote.suffix {pos : Nat} {u t : List Char} {a b c : Span} (h : TextQuote (pos + byteLen u) t a b c) :
    TextQuote pos (u ++ t) a b c := by
  obtain ⟨before, d, gap, T, s, close, after, e, h1, h2, h3, h4⟩ := h
  exact ⟨u ++ before, d, gap, T, s, close, after, by rw [e]; simp, by rw [h1]; simp [Nat.add_assoc],
    by rw [h2]; simp [Nat.add_assoc], by rw [h3]; simp [Nat.add_assoc], h4⟩

theorem EmptyQuote.suffix {pos : Nat} {u t : List Char} {a b : Span} (h : EmptyQuote (pos + byteLen u) t a b) :
    EmptyQuote pos (u ++ t) a b := by
  obtain ⟨before, d, gap, close, after, e, h1, h2, h4⟩ := h
  exact ⟨u ++ before, d, gap, close, after, by rw [e]; simp, by rw [h1]; simp [Nat.add_assoc],
    by rw [h2]; simp [Nat.add_assoc], h4⟩

theorem Preceded.suffix {pos : Nat} {u t : List Char} {pre : List LexItem} {a : LexItem} {b : Span}
    (h : Preceded (pos + byteLen u) t pre a b) : Preceded pos (u ++ t) pre a b := by
  rcases h with h | ⟨dsp, h1, h2⟩ | ⟨pre', dsp, tsp, h1, h2, h3⟩
  · exact Or.inl h
  · exact Or.inr (Or.inl ⟨dsp, h1, h2.suffix⟩)
  · exact Or.inr (Or.inr ⟨pre', dsp, tsp, h1, h2, h3.suffix⟩)

theorem Preceded.cons {pos : Nat} {t : List Char} {pre : List LexItem} {a : LexItem} {b : Span} (y : LexItem)
    (h : Preceded pos t pre a b) : Preceded pos t (y :: pre) a b := by
  rcases h with h | h | ⟨pre', dsp, tsp, h1, h2, h3⟩
  · exact Or.inl h
  · exact Or.inr (Or.inl h)
  · exact Or.inr (Or.inr ⟨y :: pre', dsp, tsp, by rw [h1]; rfl, h2, h3⟩)

/-- Every delimiter token but a first one is preceded as it should be. -/
def AllPreceded (pos : Nat) (t : List Char) (items : List LexItem) : Prop :=
  ∀ pre a x b post, items = pre ++ a :: .ok ⟨x, .ZoiDelimiter, b⟩ :: post → Preceded pos t pre a b

/-- The first item is not a delimiter. -/
def NoDelimiterFirst (items : List LexItem) : Prop := ∀ x b post, items ≠ .ok ⟨x, .ZoiDelimiter, b⟩ :: post

theorem AllPreceded.suffix {pos : Nat} {u t : List Char} {items : List LexItem} (h : AllPreceded (pos + byteLen u) t items) :
    AllPreceded pos (u ++ t) items := fun pre a x b post he => (h pre a x b post he).suffix

theorem AllPreceded.cons {pos : Nat} {t : List Char} {items : List LexItem} {y : LexItem} (h : AllPreceded pos t items)
    (hy : ∀ x b post, items = .ok ⟨x, .ZoiDelimiter, b⟩ :: post → Preceded pos t [] y b) : AllPreceded pos t (y :: items) := by
  intro pre a x b post he
  cases pre with
  | nil =>
    simp at he
    obtain ⟨rfl, he⟩ := he
    exact hy x b post he
  | cons z pre =>
    simp at he
    obtain ⟨rfl, he⟩ := he
    exact (h pre a x b post he).cons y

theorem AllPreceded.cons' {pos : Nat} {t : List Char} {items : List LexItem} (y : LexItem) (h : AllPreceded pos t items)
    (hn : NoDelimiterFirst items) : AllPreceded pos t (y :: items) := h.cons fun x b post he => absurd he (hn x b post)

theorem allPreceded_nil (pos : Nat) (t : List Char) : AllPreceded pos t [] := by
  intro pre a x b post he; simp at he

/-- The items of one closed quote, before items that begin with its ending delimiter. -/
theorem AllPreceded.quote {pos : Nat} {before d after g close after' : List Char} {q : Option (List Char)} {rest : List LexItem}
    {dpos : Nat} (hd : HasLetter d) (hds : NoSeparator d) (hpos : dpos = pos + byteLen before) (hq : Quoted d after g q close after')
    (h : AllPreceded pos (before ++ d ++ after)
      (delimiterToken (dpos + byteLen d + byteLen g + quotedLen q) close :: rest)) :
    AllPreceded pos (before ++ d ++ after) (delimiterToken dpos d :: (quoteItems dpos d g q close ++ rest)) := by
  subst hpos
  obtain ⟨hg, hc, ha, hsame, hb, ⟨rfl, e⟩ | ⟨T, s, rfl, hs, e, hT⟩⟩ := hq.inv
  · simp only [quoteItems, quotedTokens, List.nil_append, List.cons_append]
    refine h.cons ?_
    intro x b post he
    simp only [delimiterToken, List.cons.injEq, Except.ok.injEq, Token.mk.injEq, quotedLen] at he
    obtain ⟨⟨_, _, rfl⟩, _⟩ := he
    exact Or.inr (Or.inl ⟨_, rfl, before, d, g, close, after', by rw [e]; simp, rfl, by simp [Nat.add_assoc], hd.ne_nil, hds, hg, hc, ha, hsame⟩)
  · simp only [quoteItems, quotedTokens, List.cons_append, List.nil_append]
    intro pre a x b post he
    cases pre with
    | nil => simp at he
    | cons y pre =>
      cases pre with
      | nil =>
        simp only [delimiterToken, List.cons.injEq, Except.ok.injEq, Token.mk.injEq, quotedLen, List.cons_append, List.nil_append] at he
        obtain ⟨rfl, rfl, ⟨_, _, rfl⟩, _⟩ := he
        exact Or.inr (Or.inr ⟨[], _, _, rfl, rfl, before, d, g, T, s, close, after', by rw [e]; simp, rfl,
          by simp [Nat.add_assoc], by simp [Nat.add_assoc], hd.ne_nil, hds, hg, hs, hc, ha, hsame, hT⟩)
      | cons z pre =>
        simp only [List.cons_append, List.cons.injEq] at he
        obtain ⟨rfl, rfl, he⟩ := he
        exact ((h pre a x b post he).cons _).cons _

theorem blocks_delimiters {pos : Nat} {t : List Char} {items : List LexItem} (hsz : byteLen t < u32Size) (h : Blocks pos t items) :
    NoDelimiterFirst items ∧ AllPreceded pos t items := by
  have first : ∀ {w s x sp rest}, Classified w s x → NoDelimiterFirst (.ok ⟨x, s, sp⟩ :: rest) := by
    intro w s x sp rest hc y b post he
    simp at he
    exact absurd he.1.2.1 (classified_not_delimiter hc)
  have opens : ∀ {pos t s x sp b}, opensDelimited s → Preceded pos t [] (.ok ⟨x, s, sp⟩) b :=
    fun h => Or.inl ⟨_, rfl, h⟩
  have single : ∀ (pos t) (x : LexItem), AllPreceded pos t [x] := by
    intro pos t x
    exact (allPreceded_nil pos t).cons' x (by intro x b post he; simp at he)
  have single2 : ∀ (pos t) (x : LexItem) (e : LexError), AllPreceded pos t [x, .error e] := by
    intro pos t x e
    exact (single pos t _).cons' x (by intro x b post he; simp at he)
  induction h with
  | stop _ => exact ⟨by intro x b post he; simp at he, allPreceded_nil _ _⟩
  | word f c h1 h2 h3 _ ih =>
    obtain ⟨_, _, l3, _⟩ := firstWord_length hsz f
    refine ⟨first c, ?_⟩
    obtain ⟨ih1, ih2⟩ := ih l3
    rw [f.1]
    exact AllPreceded.cons' _ (AllPreceded.suffix (by simpa [Nat.add_assoc] using ih2)) ih1
  | faho f c h1 => exact ⟨first c, single _ _ _⟩
  | pauseEof f c h1 h2 => exact ⟨first c, single2 _ _ _ _⟩
  | pause f c h1 r fp _ ih =>
    refine ⟨first c, ?_⟩
    rw [f.1, r.eq, fp.1, ← List.append_assoc, ← List.append_assoc] at hsz ⊢
    obtain ⟨ih1, ih2⟩ := ih (by simp at hsz ⊢; omega)
    exact AllPreceded.cons' _ (AllPreceded.cons' _ (AllPreceded.suffix (by simpa [Nat.add_assoc] using ih2)) ih1)
      (by intro x b post he; simp at he)
  | missing f c h1 h2 => exact ⟨by intro x b post he; simp at he, single _ _ _⟩
  | open1 f c h1 fd h3 hu => exact ⟨first c, single2 _ _ _ _⟩
  | @open2 pos dpos cpos text gap w after g d after1 g1 close after2 q1 s x f c hs fd h3 hq hc hu =>
    subst h3
    refine ⟨first c, ?_⟩
    obtain ⟨_, _, l3, _⟩ := firstWord_length hsz f
    have hd := firstWord_hasLetter l3 fd
    have hds := firstWord_noSep l3 fd
    have e : text = (gap ++ w ++ g) ++ d ++ after1 := by rw [f.1, fd.1]; simp
    rw [e]
    refine AllPreceded.cons ?_ (fun _ _ _ _ => opens (Or.inr (Or.inr hs)))
    exact AllPreceded.quote hd hds (by simp [Nat.add_assoc]) hq (single2 _ _ _ _)
  | @one pos dpos cpos text gap w after g d after1 g1 close after2 q1 s x items f c h1 hs fd h3 hq hc _ ih =>
    subst h3 hc
    refine ⟨first c, ?_⟩
    obtain ⟨_, _, l3, _⟩ := firstWord_length hsz f
    obtain ⟨_, _, k3, _⟩ := firstWord_length l3 fd
    have hd := firstWord_hasLetter l3 fd
    have hds := firstWord_noSep l3 fd
    have e : text = (gap ++ w ++ g) ++ d ++ after1 := by rw [f.1, fd.1]; simp
    rw [e]
    refine AllPreceded.cons ?_ (fun _ _ _ _ => opens h1)
    refine AllPreceded.quote hd hds (by simp [Nat.add_assoc]) hq ?_
    obtain ⟨_, _, _, _, hb, hform⟩ := hq.inv
    obtain ⟨ih1, ih2⟩ := ih (by omega)
    refine AllPreceded.cons' _ ?_ ih1
    have : ∃ A, after1 = A ++ after2 := by
      rcases hform with ⟨_, e⟩ | ⟨T, s, _, _, e, _⟩
      · exact ⟨_, e⟩
      · exact ⟨g1 ++ T ++ s :: close, by rw [e]; simp⟩
    obtain ⟨A, rfl⟩ := this
    rw [← List.append_assoc]
    apply AllPreceded.suffix
    have hA : byteLen A = byteLen g1 + quotedLen q1 + byteLen close := by simp at hb; omega
    simpa [Nat.add_assoc, hA] using ih2
  | @two pos dpos cpos epos text gap w after g d after1 g1 close after2 g2 close2 after3 q1 q2 s x items f c hs fd h3 hq hc hq2 he _ ih =>
    subst h3 hc he
    refine ⟨first c, ?_⟩
    obtain ⟨_, _, l3, _⟩ := firstWord_length hsz f
    obtain ⟨_, _, k3, _⟩ := firstWord_length l3 fd
    have hd := firstWord_hasLetter l3 fd
    have hds := firstWord_noSep l3 fd
    have e : text = (gap ++ w ++ g) ++ d ++ after1 := by rw [f.1, fd.1]; simp
    rw [e]
    refine AllPreceded.cons ?_ (fun _ _ _ _ => opens (Or.inr (Or.inr hs)))
    refine AllPreceded.quote hd hds (by simp [Nat.add_assoc]) hq ?_
    obtain ⟨_, hcs, _, hsame, hb, hform⟩ := hq.inv
    have : ∃ A, after1 = A ++ close ++ after2 := by
      rcases hform with ⟨_, e⟩ | ⟨T, s, _, _, e, _⟩
      · exact ⟨_, e⟩
      · exact ⟨g1 ++ T ++ [s], by rw [e]; simp⟩
    obtain ⟨A, rfl⟩ := this
    have hA : byteLen A = byteLen g1 + quotedLen q1 := by simp at hb; omega
    rw [show gap ++ w ++ g ++ d ++ (A ++ close ++ after2) = (gap ++ w ++ g ++ d ++ A) ++ close ++ after2 by simp]
    refine AllPreceded.quote (hd.same hsame) hcs (by simp [Nat.add_assoc, hA]) hq2 ?_
    obtain ⟨_, _, _, _, hb2, hform2⟩ := hq2.inv
    obtain ⟨ih1, ih2⟩ := ih (by simp at k3; omega)
    refine AllPreceded.cons' _ ?_ ih1
    have : ∃ B, after2 = B ++ after3 := by
      rcases hform2 with ⟨_, e⟩ | ⟨T, s, _, _, e, _⟩
      · exact ⟨_, e⟩
      · exact ⟨g2 ++ T ++ s :: close2, by rw [e]; simp⟩
    obtain ⟨B, rfl⟩ := this
    rw [← List.append_assoc]
    apply AllPreceded.suffix
    have hB : byteLen B = byteLen g2 + quotedLen q2 + byteLen close2 := by simp at hb2; omega
    simpa [Nat.add_assoc, hA, hB] using ih2

end Sneturfahi.Spec
