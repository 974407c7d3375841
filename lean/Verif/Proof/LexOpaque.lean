import Verif.Proof.LexWords

/-!
# Replacing quoted text
-/

namespace Sneturfahi.Spec

/-- `u ++ s :: z` with `z` replaced. -/
theorem FirstWord.replace {g w u z z' : List Char} {s : Char} (hs : IsSeparator s)
    (hsz : byteLen (g ++ w ++ (u ++ s :: z)) < u32Size) (hsz' : byteLen (g ++ w ++ (u ++ s :: z')) < u32Size)
    (h : FirstWord (g ++ w ++ (u ++ s :: z)) g w (u ++ s :: z)) :
    FirstWord (g ++ w ++ (u ++ s :: z')) g w (u ++ s :: z') := by
  have e : ∀ y, g ++ w ++ (u ++ s :: y) = (g ++ w ++ u) ++ s :: y := by intro y; simp
  rw [e] at hsz hsz'
  have h0 : FirstWord (g ++ w ++ u) g w u := by
    refine (firstWord_iff (size_parts hsz).1).mpr ⟨rfl, ?_⟩
    rw [e] at h
    obtain ⟨_, m, h2⟩ := (firstWord_iff hsz).mp h
    rw [spansAt_sep _ hs] at h2
    cases hf : spansAt 0 (chunks (g ++ w ++ u)) with
    | nil =>
      rw [hf, List.nil_append] at h2
      cases hm : spansAt 0 (chunks z) with
      | nil => rw [hm] at h2; simp at h2
      | cons y ys =>
        rw [hm] at h2
        simp only [List.map_cons, List.cons.injEq, shift, Span.mk.injEq] at h2
        have := h2.1.1
        simp at this
        omega
    | cons y ys =>
      rw [hf, List.cons_append] at h2
      simp only [List.cons.injEq] at h2
      exact ⟨ys, by rw [h2.1]⟩
  rw [e]
  exact h0.extend hs hsz'

theorem endsPiece_replace {u z z' : List Char} {s : Char} (hs : IsSeparator s) (h : EndsPiece (u ++ s :: z)) :
    EndsPiece (u ++ s :: z') := by
  cases u with
  | nil => exact Or.inr ⟨s, z', hs, rfl⟩
  | cons c u =>
    rcases h with h | ⟨s', r, hs', h⟩
    · simp at h
    · simp at h
      exact Or.inr ⟨c, u ++ s :: z', h.1 ▸ hs', rfl⟩

theorem Resumes.replace {t g m z : List Char} {s : Char} (hs : IsSeparator s) (h : Resumes t g (m ++ s :: z)) (z' : List Char) :
    Resumes (g ++ (m ++ s :: z')) g (m ++ s :: z') := by
  rcases h.inv with ⟨k, s', hk, hs', e1, e2, e3⟩ | ⟨p, tail, h1, h2, h3, h4, h5, h6, _⟩
  · subst e2
    have := Resumes.behind (u := m ++ s :: z') hk hs'
    simpa using this
  · subst h5
    rw [h4] at h6
    rcases List.append_eq_append_iff.mp h6 with ⟨a', e1, e2⟩ | ⟨c', e1, e2⟩
    · subst e1
      cases a' with
      | nil =>
        simp at e2
        have := Resumes.here (p := m) (tail := s :: z') (by simpa using h1) (by simpa using h2) (Or.inr ⟨s, z', hs, rfl⟩)
        simpa using this
      | cons c a' =>
        simp at e2
        exact absurd hs (h1 s (by simp [e2.1]))
    · subst e1
      subst e2
      have := Resumes.here h1 h2 (endsPiece_replace (z' := z') hs h3)
      simpa using this

theorem Quoted.replace {d after g : List Char} {q : Option (List Char)} {close u z : List Char} {s : Char}
    (hs : IsSeparator s) (h : Quoted d after g q close (u ++ s :: z)) :
    ∃ A, after = A ++ (u ++ s :: z) ∧ byteLen A = byteLen g + quotedLen q + byteLen close ∧
      ∀ z', Quoted d (A ++ (u ++ s :: z')) g q close (u ++ s :: z') := by
  obtain ⟨body, r, c⟩ := h
  have hb := c.byteLen
  have e := r.eq
  cases c with
  | first f hd =>
    refine ⟨g ++ close, by rw [e]; simp, by simp [quotedLen], fun z' => ⟨close ++ (u ++ s :: z'), ?_, ?_⟩⟩
    · rw [← List.append_assoc] at r
      have := r.replace hs z'
      simpa using this
    · exact .first ⟨rfl, f.2.1, endsPiece_replace hs f.2.2⟩ hd
  | @later T _ _ s' qs h1 h2 h3 h4 h5 =>
    refine ⟨g ++ T ++ s' :: close, by rw [e]; simp, by simp [quotedLen, isSep_size ((isSep_iff s').mpr h3)]; omega,
      fun z' => ⟨T ++ s' :: (close ++ (u ++ s :: z')), ?_, ?_⟩⟩
    · rw [show T ++ s' :: (close ++ (u ++ s :: z)) = (T ++ s' :: (close ++ u)) ++ s :: z by simp] at r
      have := r.replace hs z'
      simpa using this
    · exact .later h1 h2 h3 ⟨rfl, h4.2.1, endsPiece_replace hs h4.2.2⟩ h5

/-- The other place. -/
def moved (lo old new : Nat) (p : Nat) : Nat := if p ≤ lo then p else p - old + new

/-- A span with both ends moved. -/
def moveSpan (f : Nat → Nat) (s : Span) : Span := ⟨f s.start, f s.stop⟩

/-- An item with all its positions moved. -/
def moveItem (f : Nat → Nat) : LexItem → LexItem
  | .ok t => .ok { t with span := moveSpan f t.span }
  | .error (.delimitedQuoteMissingSeparator a) => .error (.delimitedQuoteMissingSeparator (moveSpan f a))
  | .error (.delimitedQuoteUnclosed a b) => .error (.delimitedQuoteUnclosed (moveSpan f a) (moveSpan f b))
  | .error (.pauseDelimitedQuoteEof a) => .error (.pauseDelimitedQuoteEof (moveSpan f a))

theorem moved_after {lo old new p : Nat} (h : lo < p) : moved lo old new p = p - old + new := if_neg (by omega)

theorem moved_before {lo old new p : Nat} (h : p ≤ lo) : moved lo old new p = p := if_pos h

theorem moveSpan_after {lo old new p : Nat} (w : List Char) (h : lo < p) (h2 : old ≤ p) :
    moveSpan (moved lo old new) (spanAt p w) = spanAt (p - old + new) w := by
  show Span.mk (moved lo old new p) (moved lo old new (p + byteLen w)) = _
  rw [moved_after (by omega), moved_after (by omega)]
  show _ = Span.mk (p - old + new) (p - old + new + byteLen w)
  rw [show p + byteLen w - old + new = p - old + new + byteLen w by omega]

theorem moveSpan_before {lo old new p : Nat} (w : List Char) (h : p + byteLen w ≤ lo) :
    moveSpan (moved lo old new) (spanAt p w) = spanAt p w := by
  show Span.mk (moved lo old new p) (moved lo old new (p + byteLen w)) = _
  rw [moved_before (by omega), moved_before (by omega)]
  rfl

theorem moveItem_delimiter {lo old new p : Nat} (w : List Char) (h : lo < p) (h2 : old ≤ p) :
    moveItem (moved lo old new) (delimiterToken p w) = delimiterToken (p - old + new) w := by
  simp [moveItem, delimiterToken, moveSpan_after w h h2]

theorem moveItem_quoted {lo old new p : Nat} (q : Option (List Char)) (h : lo < p) (h2 : old ≤ p) :
    (quotedTokens p q).map (moveItem (moved lo old new)) = quotedTokens (p - old + new) q := by
  cases q with
  | none => rfl
  | some T => simp [quotedTokens, moveItem, moveSpan_after T h h2]

theorem moveItem_quoteItems {lo old new p : Nat} (d g : List Char) (q : Option (List Char)) (close : List Char) (h : lo < p)
    (h2 : old ≤ p) :
    (quoteItems p d g q close).map (moveItem (moved lo old new)) = quoteItems (p - old + new) d g q close := by
  simp only [quoteItems, List.map_append, List.map_cons, List.map_nil]
  rw [moveItem_delimiter _ (by omega) (by omega), moveItem_quoted _ (by omega) (by omega)]
  rw [show p + byteLen d + byteLen g - old + new = p - old + new + byteLen d + byteLen g by omega,
    show p + byteLen d + byteLen g + quotedLen q - old + new = p - old + new + byteLen d + byteLen g + quotedLen q by omega]

theorem moveItem_shiftItem {lo old new n : Nat} (h : lo < n) (h2 : old ≤ n) (x : LexItem) :
    moveItem (moved lo old new) (shiftItem n x) = shiftItem (n - old + new) x := by
  have key : ∀ sp : Span, moveSpan (moved lo old new) (shift n sp) = shift (n - old + new) sp := by
    intro sp
    show Span.mk (moved lo old new (sp.start + n)) (moved lo old new (sp.stop + n)) = _
    rw [moved_after (by omega), moved_after (by omega)]
    simp only [shift, Span.mk.injEq]
    omega
  cases x with
  | ok t => simp [moveItem, shiftItem, key]
  | error e => cases e <;> simp [moveItem, shiftItem, key]

theorem lexing_exists {t : List Char} (hsz : byteLen t < u32Size) : ∃ items, Lexing 0 t items := by
  obtain ⟨items, h, _⟩ := lex_lexing .release ⟨0, t⟩ hsz
  exact ⟨items, h⟩

/-- Moving a whole text. -/
theorem Blocks.move {lo old new pos : Nat} {t : List Char} {items : List LexItem} (hsz : byteLen t < u32Size) (h : lo < pos)
    (h2 : old ≤ pos) (hb : Blocks pos t items) :
    Blocks (pos - old + new) t (items.map (moveItem (moved lo old new))) := by
  obtain ⟨items0, h0⟩ := lexing_exists hsz
  have e := hb.lexing.det (by simpa using h0.shift pos)
  rw [e, List.map_map]
  rw [show (moveItem (moved lo old new) ∘ shiftItem pos) = shiftItem (pos - old + new) from
    funext fun x => moveItem_shiftItem h h2 x]
  exact blocks_of hsz (by simpa using h0.shift (pos - old + new))

/-- A text cut in two ways. -/
theorem cut {a b u z : List Char} {s : Char} (h : a ++ b = u ++ s :: z) (hl : byteLen a ≤ byteLen u) :
    ∃ u', u = a ++ u' ∧ b = u' ++ s :: z := by
  rcases List.append_eq_append_iff.mp h with ⟨a', e1, e2⟩ | ⟨c', e1, e2⟩
  · exact ⟨a', e1, e2⟩
  · have : byteLen c' = 0 := by rw [e1] at hl; simp at hl; omega
    rw [byteLen_eq_zero] at this
    subst this
    exact ⟨[], by simpa using e1.symm, by simpa using e2.symm⟩

/-- The quoted text `T`, between `u ++ [s]` and `s' :: close ++ after`. -/
structure Site where
  u : List Char
  s : Char
  T : List Char
  s' : Char
  close : List Char
  after : List Char

/-- The text around `T`. -/
def Site.text (S : Site) (T : List Char) : List Char := S.u ++ S.s :: (T ++ S.s' :: (S.close ++ S.after))

/-- The conclusion: the items with `T` replaced by `T'`. -/
def Replaced (pos : Nat) (S : Site) (T' : List Char) (pre : List LexItem) (x x' : Bool) (post : List LexItem) : Prop :=
  Blocks pos (S.text T') (pre ++ .ok ⟨x, .AnyText, spanAt (pos + byteLen S.u + 1) T'⟩ ::
    .ok ⟨x', .ZoiDelimiter, spanAt (pos + byteLen S.u + 1 + byteLen T' + 1) S.close⟩ ::
    post.map (moveItem (moved (pos + byteLen S.u + 1) (byteLen S.T) (byteLen T'))))

/-- The hypothesis about the items. -/
def SiteItems (pos : Nat) (S : Site) (pre : List LexItem) (x x' : Bool) (post items : List LexItem) : Prop :=
  items = pre ++ .ok ⟨x, .AnyText, spanAt (pos + byteLen S.u + 1) S.T⟩ ::
    .ok ⟨x', .ZoiDelimiter, spanAt (pos + byteLen S.u + 1 + byteLen S.T + 1) S.close⟩ :: post

/-- Quoted text does not begin where the text begins. -/
theorem siteItems_pos {pos : Nat} {t : List Char} {items : List LexItem} (hsz : byteLen t < u32Size) (h : Blocks pos t items)
    {pre : List LexItem} {x x' : Bool} {sp b : Span} {post : List LexItem}
    (hi : items = pre ++ .ok ⟨x, .AnyText, sp⟩ :: .ok ⟨x', .ZoiDelimiter, b⟩ :: post) : pos < sp.start := by
  obtain ⟨_, hp⟩ := blocks_delimiters hsz h
  rcases hp pre _ x' b post hi with ⟨tok, h1, h2⟩ | ⟨dsp, h1, _⟩ | ⟨pre', dsp, tsp, h1, h2, h3⟩
  · cases h1
    exact absurd h2 (by simp [opensDelimited])
  · simp at h1
  · simp at h2
    obtain ⟨before, d, gap, T, s, close, after, e, e1, e2, e3, hd, _⟩ := h3
    rw [h2.2, e2]
    simp [spanAt]
    have : byteLen d ≠ 0 := fun h => hd (byteLen_eq_zero.mp h)
    omega

theorem split_quote {dpos : Nat} {d g : List Char} {q : Option (List Char)} {close : List Char} {rest pre post : List LexItem}
    {x x' : Bool} {sp b : Span}
    (h : quoteItems dpos d g q close ++ rest = pre ++ .ok ⟨x, .AnyText, sp⟩ :: .ok ⟨x', .ZoiDelimiter, b⟩ :: post) :
    (∃ T, q = some T ∧ pre = [] ∧ x = false ∧ x' = false ∧ sp = spanAt (dpos + byteLen d + byteLen g) T ∧
      b = spanAt (dpos + byteLen d + byteLen g + quotedLen q) close ∧ rest = post) ∨
    ∃ pre', pre = quoteItems dpos d g q close ++ pre' ∧
      rest = pre' ++ .ok ⟨x, .AnyText, sp⟩ :: .ok ⟨x', .ZoiDelimiter, b⟩ :: post := by
  cases q with
  | none =>
    simp only [quoteItems, quotedTokens, List.nil_append, List.cons_append] at h ⊢
    cases pre with
    | nil => simp [delimiterToken] at h
    | cons y pre =>
      simp only [List.cons_append, List.cons.injEq] at h
      exact Or.inr ⟨pre, by rw [h.1], h.2⟩
  | some T =>
    simp only [quoteItems, quotedTokens, List.nil_append, List.cons_append] at h ⊢
    cases pre with
    | nil =>
      simp only [delimiterToken, List.nil_append, List.cons.injEq, Except.ok.injEq, Token.mk.injEq, true_and] at h
      obtain ⟨⟨h1, h2⟩, ⟨h3, h4⟩, h5⟩ := h
      exact Or.inl ⟨T, rfl, rfl, h1.symm, h3.symm, h2.symm, h4.symm, h5⟩
    | cons y pre =>
      cases pre with
      | nil => simp [delimiterToken] at h
      | cons z pre =>
        simp only [List.cons_append, List.cons.injEq] at h
        exact Or.inr ⟨pre, by rw [h.1, h.2.1], h.2.2⟩

theorem split_two {tok : Token} {dpos : Nat} {d : List Char} {L pre post : List LexItem} {x x' : Bool} {sp b : Span}
    (ht : opensDelimited tok.selmaho)
    (h : .ok tok :: delimiterToken dpos d :: L = pre ++ .ok ⟨x, .AnyText, sp⟩ :: .ok ⟨x', .ZoiDelimiter, b⟩ :: post) :
    ∃ pre', pre = .ok tok :: delimiterToken dpos d :: pre' ∧
      L = pre' ++ .ok ⟨x, .AnyText, sp⟩ :: .ok ⟨x', .ZoiDelimiter, b⟩ :: post := by
  cases pre with
  | nil =>
    simp at h
    rw [h.1] at ht
    exact absurd ht (by simp [opensDelimited])
  | cons y pre =>
    cases pre with
    | nil => simp [delimiterToken] at h
    | cons z pre =>
      simp only [List.cons_append, List.cons.injEq] at h
      exact ⟨pre, by rw [h.1, h.2.1], h.2.2⟩

/-- The site is behind the part `a` of the text. -/
theorem site_step {pos : Nat} {a b : List Char} {rest : List LexItem} {S : Site} {pre : List LexItem} {x x' : Bool}
    {post : List LexItem} (hsz : byteLen b < u32Size) (hb : Blocks (pos + byteLen a) b rest) (ht : a ++ b = S.text S.T)
    (hi : SiteItems pos S pre x x' post rest) :
    ∃ u', S.u = a ++ u' ∧ b = u' ++ S.s :: (S.T ++ S.s' :: (S.close ++ S.after)) ∧
      SiteItems (pos + byteLen a) { S with u := u' } pre x x' post rest := by
  have h1 := siteItems_pos hsz hb hi
  simp only [spanAt] at h1
  obtain ⟨u', e1, e2⟩ := cut ht (by omega)
  refine ⟨u', e1, e2, ?_⟩
  unfold SiteItems at hi ⊢
  rw [hi, e1]
  simp [Nat.add_assoc]

theorem noSeparator_last {a d : List Char} {u : List Char} {s : Char} (hd : d ≠ []) (hns : NoSeparator d) (h : a ++ d = u ++ [s])
    (hs : IsSeparator s) : False := by
  have e : d = d.dropLast ++ [d.getLast hd] := (List.dropLast_concat_getLast hd).symm
  rw [e, ← List.append_assoc] at h
  have := (List.append_inj' h rfl).2
  simp at this
  exact hns s (this ▸ List.getLast_mem hd) hs

/-- The site is this quote. -/
theorem site_here {pos : Nat} {B d after1 g close after2 T1 : List Char} {S : Site} {dpos : Nat} (hd : HasLetter d)
    (hds : NoSeparator d) (hq : Quoted d after1 g (some T1) close after2) (hpos : dpos = pos + byteLen B)
    (ht : B ++ d ++ after1 = S.text S.T) (hs : IsSeparator S.s)
    (h1 : spanAt (pos + byteLen S.u + 1) S.T = spanAt (dpos + byteLen d + byteLen g) T1)
    (h2 : spanAt (pos + byteLen S.u + 1 + byteLen S.T + 1) S.close =
      spanAt (dpos + byteLen d + byteLen g + quotedLen (some T1)) close)
    {T' : List Char} (hT' : ∀ qs, SplitsInto T' qs → ∀ q ∈ qs, ¬ SameUpToCommas S.close q) :
    ∃ k, S.u = B ++ d ++ k ∧ g = k ++ [S.s] ∧ S.T = T1 ∧ S.close = close ∧ S.after = after2 ∧
      after1 = k ++ S.s :: (T1 ++ S.s' :: (close ++ after2)) ∧
      Quoted d (k ++ S.s :: (T' ++ S.s' :: (close ++ after2))) g (some T') close after2 := by
  subst hpos
  obtain ⟨hg, hc, ha, hsame, hb, ⟨e0, _⟩ | ⟨T, s1, e0, hs1, e, _⟩⟩ := hq.inv
  · simp at e0
  cases e0
  simp only [spanAt, Span.mk.injEq, quotedLen] at h1 h2
  rw [e] at ht
  have hss := isSep_size ((isSep_iff _).mpr hs)
  have hss1 := isSep_size ((isSep_iff _).mpr hs1)
  have e1 : (B ++ d ++ g) ++ (T1 ++ s1 :: (close ++ after2)) = (S.u ++ [S.s]) ++ (S.T ++ S.s' :: (S.close ++ S.after)) := by
    simpa [Site.text] using ht
  obtain ⟨e2, e3⟩ := byteLen_inj e1 (by simp [hss]; omega)
  obtain ⟨e4, e5⟩ := byteLen_inj e3 (by omega)
  simp only [List.cons.injEq] at e5
  obtain ⟨e6, e7⟩ := byteLen_inj e5.2 (by omega)
  rcases hg with rfl | ⟨k, s0, hk, hs0, rfl⟩
  · simp only [List.append_nil] at e2
    exact (noSeparator_last hd.ne_nil hds e2 hs).elim
  · have e8 := List.append_inj' (s₁ := B ++ d ++ k) (s₂ := S.u) (t₁ := [s0]) (t₂ := [S.s]) (by simpa using e2) rfl
    simp at e8
    obtain ⟨e8, rfl⟩ := e8
    refine ⟨k, by simpa using e8.symm, rfl, e4.symm, e6.symm, e7.symm, by rw [e, e5.1]; simp, T' ++ S.s' :: (close ++ after2), ?_, ?_⟩
    · exact .behind hk hs
    · refine .later (qs := chunks T') (chunks_splitsInto T') ?_ (e5.1 ▸ hs1) ⟨rfl, hc, ha⟩ hsame
      intro q hq hdq
      refine hT' _ (chunks_splitsInto T') q hq ?_
      rw [← e6]
      exact sameUpToCommas_trans (sameUpToCommas_symm hsame) hdq

/-- The two words before a quote, with the text behind them replaced. -/
theorem firstWord_two {text gap w after g d after1 k z z' : List Char} {s : Char} (hs : IsSeparator s)
    (f : FirstWord text gap w after) (fd : FirstWord after g d after1) (he : after1 = k ++ s :: z) (hsz : byteLen text < u32Size)
    (hsz' : byteLen (gap ++ w ++ (g ++ d ++ (k ++ s :: z'))) < u32Size) :
    FirstWord (gap ++ w ++ (g ++ d ++ (k ++ s :: z'))) gap w (g ++ d ++ (k ++ s :: z')) ∧
    FirstWord (g ++ d ++ (k ++ s :: z')) g d (k ++ s :: z') := by
  subst he
  have e1 := fd.1
  subst e1
  have e2 := f.1
  subst e2
  constructor
  · have := FirstWord.replace (g := gap) (w := w) (u := g ++ d ++ k) (z := z) (z' := z') hs (by simpa using hsz) (by simpa using hsz')
      (by simpa using f)
    simpa using this
  · exact FirstWord.replace hs (by simp at hsz ⊢; omega) (by simp at hsz' ⊢; omega) fd

theorem blocks_replace {pos : Nat} {t : List Char} {items : List LexItem} (h : Blocks pos t items) :
    ∀ (S : Site) (T' : List Char) (pre : List LexItem) (x x' : Bool) (post : List LexItem), t = S.text S.T →
      byteLen t < u32Size → byteLen (S.text T') < u32Size → IsSeparator S.s → SiteItems pos S pre x x' post items →
      (∀ qs, SplitsInto T' qs → ∀ q ∈ qs, ¬ SameUpToCommas S.close q) → Replaced pos S T' pre x x' post := by
  induction h with
  | stop _ =>
    intro S T' pre x x' post ht hsz hsz' hs hi hT'
    simp [SiteItems] at hi
  | @word pos text gap w after s y items f c h1 h2 h3 hb ih =>
    intro S T' pre x x' post ht hsz hsz' hs hi hT'
    obtain ⟨_, _, l3, _⟩ := firstWord_length hsz f
    have hnf := (blocks_delimiters l3 hb).1
    unfold SiteItems at hi
    cases pre with
    | nil => simp at hi; exact absurd hi.2 (hnf _ _ _)
    | cons z pre =>
      simp only [List.cons_append, List.cons.injEq] at hi
      obtain ⟨rfl, hi⟩ := hi
      rw [f.1] at ht
      obtain ⟨u', e1, e2, e3⟩ := site_step (a := gap ++ w) l3 (by simpa [Nat.add_assoc] using hb) ht hi
      have hih := ih { S with u := u' } T' pre x x' post e2 l3 (by
        simp only [Site.text, e1] at hsz' ⊢; simp at hsz' ⊢; omega) hs (by simpa [Nat.add_assoc] using e3) hT'
      subst e2
      have ft := f.1
      rw [ft] at f hsz
      have hf := f.replace (z' := T' ++ S.s' :: (S.close ++ S.after)) hs hsz (by
        simp only [Site.text, e1] at hsz'; simpa using hsz')
      have := Blocks.word hf c h1 h2 h3 hih
      simp only [Replaced, Site.text, e1]
      simpa [Nat.add_assoc] using this
  | faho f c h1 =>
    intro S T' pre x x' post ht hsz hsz' hs hi hT'
    have := congrArg List.length hi
    simp at this
    omega
  | @pauseEof pos text gap w after s y f c h1 h2 =>
    intro S T' pre x x' post ht hsz hsz' hs hi hT'
    unfold SiteItems at hi
    cases pre with
    | nil => simp at hi
    | cons z pre =>
      have := congrArg List.length hi
      simp at this
      omega
  | @pause pos text gap w after g body q after' s y items f c h1 r fp hb ih =>
    intro S T' pre x x' post ht hsz hsz' hs hi hT'
    have e : text = (gap ++ w ++ g ++ q) ++ after' := by rw [f.1, r.eq, fp.1]; simp
    have l3 : byteLen after' < u32Size := by rw [e] at hsz; simp at hsz; omega
    have hnf := (blocks_delimiters l3 hb).1
    unfold SiteItems at hi
    cases pre with
    | nil => simp at hi
    | cons z pre =>
      cases pre with
      | nil => simp at hi; exact absurd hi.2.2 (hnf _ _ _)
      | cons z' pre =>
        simp only [List.cons_append, List.cons.injEq] at hi
        obtain ⟨rfl, rfl, hi⟩ := hi
        rw [e] at ht
        obtain ⟨u', e1, e2, e3⟩ := site_step (a := gap ++ w ++ g ++ q) l3 (by simpa [Nat.add_assoc] using hb) ht hi
        have hih := ih { S with u := u' } T' pre x x' post e2 l3 (by
          simp only [Site.text, e1] at hsz' ⊢; simp at hsz' ⊢; omega) hs (by simpa [Nat.add_assoc] using e3) hT'
        subst e2
        have hbody := fp.1
        subst hbody
        have hafter := r.eq
        have e4 : after = (g ++ q ++ u') ++ S.s :: (S.T ++ S.s' :: (S.close ++ S.after)) := by rw [hafter]; simp
        rw [e4] at f
        have ft := f.1
        rw [ft] at f hsz
        have hf := f.replace (z' := T' ++ S.s' :: (S.close ++ S.after)) hs hsz (by
          simp only [Site.text, e1] at hsz'; simpa using hsz')
        have hr := Resumes.replace (m := q ++ u') hs (by simpa using r) (T' ++ S.s' :: (S.close ++ S.after))
        have := Blocks.pause hf c h1 (by simpa using hr) ⟨by simp, fp.2.1, endsPiece_replace hs fp.2.2⟩ hih
        simp only [Replaced, Site.text, e1]
        simpa [Nat.add_assoc] using this
  | missing f c h1 h2 =>
    intro S T' pre x x' post ht hsz hsz' hs hi hT'
    have := congrArg List.length hi
    simp at this
    omega
  | @open1 pos dpos text gap w after g d after1 s y f c h1 fd h3 hu =>
    intro S T' pre x x' post ht hsz hsz' hs hi hT'
    unfold SiteItems at hi
    cases pre with
    | nil => simp at hi
    | cons z pre =>
      have := congrArg List.length hi
      simp at this
      omega
  | @open2 pos dpos cpos text gap w after g d after1 g1 close after2 q1 s y f c hs1 fd h3 hq hc hu =>
    intro S T' pre x x' post ht hsz hsz' hs hi hT'
    obtain ⟨_, _, l3, _⟩ := firstWord_length hsz f
    obtain ⟨_, _, k3, _⟩ := firstWord_length l3 fd
    have hd := firstWord_hasLetter l3 fd
    have hds := firstWord_noSep l3 fd
    obtain ⟨pre, rfl, hi2⟩ := split_two (Or.inr (Or.inr hs1)) hi
    have et : text = (gap ++ w ++ g) ++ d ++ after1 := by rw [f.1, fd.1]; simp
    rw [et] at ht
    rcases split_quote hi2 with ⟨T1, rfl, rfl, rfl, rfl, hsp1, hsp2, hpost⟩ | ⟨pre, rfl, hi3⟩
    · obtain ⟨k, e1, e2, e3, e4, e5, e6, hq'⟩ := site_here hd hds hq (by rw [h3]; simp [Nat.add_assoc]) ht hs hsp1 hsp2 hT'
      have hsz2 : byteLen (gap ++ w ++ (g ++ d ++ (k ++ S.s :: (T' ++ S.s' :: (close ++ after2))))) < u32Size := by
        simp only [Site.text, e1, e4, e5] at hsz'; simpa using hsz'
      obtain ⟨hf, hfd⟩ := firstWord_two (z' := T' ++ S.s' :: (close ++ after2)) hs f fd e6 hsz hsz2
      have := Blocks.open2 (pos := pos) hf c hs1 hfd rfl hq' rfl hu
      subst hpost
      have hss := isSep_size ((isSep_iff _).mpr hs)
      have hu1 : pos + byteLen S.u + 1 = dpos + byteLen d + byteLen g1 := by rw [e1, e2, h3]; simp [hss]; omega
      have m1 : moveSpan (moved (pos + byteLen S.u + 1) (byteLen S.T) (byteLen T')) (spanAt (pos + byteLen gap) w) =
          spanAt (pos + byteLen gap) w := moveSpan_before _ (by rw [hu1, h3]; omega)
      have m2 : moveSpan (moved (pos + byteLen S.u + 1) (byteLen S.T) (byteLen T')) (spanAt cpos close) =
          spanAt (dpos + byteLen d + byteLen g1 + quotedLen (some T')) close := by
        rw [moveSpan_after _ (by rw [hu1, hc]; simp [quotedLen]) (by rw [hc, e3]; simp [quotedLen]; omega)]
        congr 1
        rw [hc, e3]
        simp [quotedLen]
        omega
      rw [hu1] at m1 m2
      simp only [Replaced, List.map_cons, List.map_nil, moveItem, hu1, m1, m2]
      simp only [Site.text, e1, e4, e5]
      rw [← h3] at this
      simpa [quoteItems, quotedTokens, delimiterToken, quotedLen, Nat.add_assoc] using this
    · cases pre with
      | nil => simp at hi3
      | cons z pre =>
        have := congrArg List.length hi3
        simp at this
  | @one pos dpos cpos text gap w after g d after1 g1 close after2 q1 s y items f c h1 hs1 fd h3 hq hc hb ih =>
    intro S T' pre x x' post ht hsz hsz' hs hi hT'
    obtain ⟨_, _, l3, _⟩ := firstWord_length hsz f
    obtain ⟨_, _, k3, _⟩ := firstWord_length l3 fd
    have hd := firstWord_hasLetter l3 fd
    have hds := firstWord_noSep l3 fd
    obtain ⟨pre, rfl, hi2⟩ := split_two h1 hi
    have et : text = (gap ++ w ++ g) ++ d ++ after1 := by rw [f.1, fd.1]; simp
    rw [et] at ht
    obtain ⟨he, A, eA, hA⟩ := hq.suffix
    rcases split_quote hi2 with ⟨T1, rfl, rfl, rfl, rfl, hsp1, hsp2, hpost⟩ | ⟨pre, rfl, hi3⟩
    · obtain ⟨k, e1, e2, e3, e4, e5, e6, hq'⟩ := site_here hd hds hq (by rw [h3]; simp [Nat.add_assoc]) ht hs hsp1 hsp2 hT'
      have hsz2 : byteLen (gap ++ w ++ (g ++ d ++ (k ++ S.s :: (T' ++ S.s' :: (close ++ after2))))) < u32Size := by
        simp only [Site.text, e1, e4, e5] at hsz'; simpa using hsz'
      obtain ⟨hf, hfd⟩ := firstWord_two (z' := T' ++ S.s' :: (close ++ after2)) hs f fd e6 hsz hsz2
      subst hpost
      have hss := isSep_size ((isSep_iff _).mpr hs)
      have hu1 : pos + byteLen S.u + 1 = dpos + byteLen d + byteLen g1 := by rw [e1, e2, h3]; simp [hss]; omega
      have hmv := Blocks.move (lo := pos + byteLen S.u + 1) (old := byteLen S.T) (new := byteLen T')
        (by rw [eA] at k3; simp at k3; omega) (by rw [hu1, hc]; simp [quotedLen]; omega)
        (by rw [hc, e3]; simp [quotedLen]; omega) hb
      have := Blocks.one (pos := pos) hf c h1 hs1 hfd rfl hq' rfl
        (items := items.map (moveItem (moved (pos + byteLen S.u + 1) (byteLen S.T) (byteLen T')))) (by
          rw [← h3]
          rw [show cpos + byteLen close - byteLen S.T + byteLen T' =
            dpos + byteLen d + byteLen g1 + quotedLen (some T') + byteLen close by
              rw [hc, e3]; simp [quotedLen]; omega] at hmv
          exact hmv)
      simp only [Replaced]
      rw [hu1] at this ⊢
      simp only [Site.text, e1, e4, e5]
      rw [← h3] at this
      simpa [quoteItems, quotedTokens, delimiterToken, quotedLen, Nat.add_assoc] using this
    · subst eA
      have l4 : byteLen after2 < u32Size := by simp at k3; omega
      have hbp : cpos + byteLen close = pos + byteLen (gap ++ w ++ g ++ d ++ A) := by
        simp [hA, hc, h3]; omega
      obtain ⟨u', e1, e2, e3⟩ := site_step (a := gap ++ w ++ g ++ d ++ A) l4 (hbp ▸ hb) (by simpa using ht) hi3
      rw [← hbp] at e3
      have hih := ih { S with u := u' } T' pre x x' post e2 l4 (by
        simp only [Site.text, e1] at hsz' ⊢; simp at hsz' ⊢; omega) hs e3 hT'
      subst e2
      obtain ⟨A', eA', hA', hq'⟩ := hq.replace hs
      have hAA : A = A' := List.append_cancel_right eA'
      subst hAA
      have hsz2 : byteLen (gap ++ w ++ (g ++ d ++ ((A ++ u') ++ S.s :: (T' ++ S.s' :: (S.close ++ S.after))))) < u32Size := by
        simp only [Site.text, e1] at hsz'; simpa using hsz'
      obtain ⟨hf, hfd⟩ := firstWord_two (k := A ++ u') (z := S.T ++ S.s' :: (S.close ++ S.after)) (z' := T' ++ S.s' :: (S.close ++ S.after)) hs f fd (by simp) hsz hsz2
      have := Blocks.one (pos := pos) hf c h1 hs1 hfd h3 (by simpa [Site.text] using hq' (T' ++ S.s' :: (S.close ++ S.after))) hc hih
      simp only [Replaced, Site.text]
      simp only [hbp] at this
      simp only [e1]
      simpa [Nat.add_assoc] using this
  | @two pos dpos cpos epos text gap w after g d after1 g1 close after2 g2 close2 after3 q1 q2 s y items f c hs1 fd h3 hq hc hq2 he2 hb ih =>
    intro S T' pre x x' post ht hsz hsz' hs hi hT'
    obtain ⟨_, _, l3, _⟩ := firstWord_length hsz f
    obtain ⟨_, _, k3, _⟩ := firstWord_length l3 fd
    have hd := firstWord_hasLetter l3 fd
    have hds := firstWord_noSep l3 fd
    obtain ⟨pre, rfl, hi2⟩ := split_two (Or.inr (Or.inr hs1)) hi
    have et : text = (gap ++ w ++ g) ++ d ++ after1 := by rw [f.1, fd.1]; simp
    rw [et] at ht
    obtain ⟨he, A, eA, hA⟩ := hq.suffix
    obtain ⟨he', B, eB, hB⟩ := hq2.suffix
    rcases split_quote hi2 with ⟨T1, rfl, rfl, rfl, rfl, hsp1, hsp2, hpost⟩ | ⟨pre, rfl, hi3⟩
    · obtain ⟨k, e1, e2, e3, e4, e5, e6, hq'⟩ := site_here hd hds hq (by rw [h3]; simp [Nat.add_assoc]) ht hs hsp1 hsp2 hT'
      have hsz2 : byteLen (gap ++ w ++ (g ++ d ++ (k ++ S.s :: (T' ++ S.s' :: (close ++ after2))))) < u32Size := by
        simp only [Site.text, e1, e4, e5] at hsz'; simpa using hsz'
      obtain ⟨hf, hfd⟩ := firstWord_two (z' := T' ++ S.s' :: (close ++ after2)) hs f fd e6 hsz hsz2
      subst hpost
      have hss := isSep_size ((isSep_iff _).mpr hs)
      have hu1 : pos + byteLen S.u + 1 = dpos + byteLen d + byteLen g1 := by rw [e1, e2, h3]; simp [hss]; omega
      have hcp : cpos - byteLen S.T + byteLen T' = dpos + byteLen d + byteLen g1 + quotedLen (some T') := by
        rw [hc, e3]; simp [quotedLen]; omega
      have hmv := Blocks.move (lo := pos + byteLen S.u + 1) (old := byteLen S.T) (new := byteLen T')
        (by rw [eA, eB] at k3; simp at k3; omega) (by rw [hu1, he2, hc]; simp [quotedLen]; omega)
        (by rw [he2, hc, e3]; simp [quotedLen]; omega) hb
      have m2 := moveItem_quoteItems (lo := pos + byteLen S.u + 1) (old := byteLen S.T) (new := byteLen T') close g2 q2 close2
        (p := cpos) (by rw [hu1, hc]; simp [quotedLen]) (by rw [hc, e3]; simp [quotedLen]; omega)
      rw [hcp] at m2
      have := Blocks.two (pos := pos) hf c hs1 hfd rfl hq' rfl hq2 rfl
        (items := items.map (moveItem (moved (pos + byteLen S.u + 1) (byteLen S.T) (byteLen T')))) (by
          rw [← h3]
          rw [show epos + byteLen close2 - byteLen S.T + byteLen T' =
            dpos + byteLen d + byteLen g1 + quotedLen (some T') + byteLen close + byteLen g2 + quotedLen q2 + byteLen close2 by
              rw [he2, hc, e3]; simp [quotedLen]; omega] at hmv
          exact hmv)
      simp only [Replaced, List.map_append, m2]
      rw [hu1] at this ⊢
      simp only [Site.text, e1, e4, e5]
      rw [← h3] at this
      simpa [quoteItems, quotedTokens, delimiterToken, quotedLen, Nat.add_assoc] using this
    · rcases split_quote hi3 with ⟨T1, rfl, rfl, rfl, rfl, hsp1, hsp2, hpost⟩ | ⟨pre, rfl, hi4⟩
      · obtain ⟨_, hcs, _, hsame, _, _⟩ := hq.inv
        have hsfx : ∃ A0, after1 = A0 ++ close ++ after2 ∧ byteLen A0 = byteLen g1 + quotedLen q1 := by
          obtain ⟨_, _, _, _, hb', hform⟩ := hq.inv
          have : ∃ A0, after1 = A0 ++ close ++ after2 := by
            rcases hform with ⟨_, e⟩ | ⟨T, s, _, _, e, _⟩
            · exact ⟨_, e⟩
            · exact ⟨g1 ++ T ++ [s], by rw [e]; simp⟩
          obtain ⟨A0, e0⟩ := this
          exact ⟨A0, e0, by rw [e0] at hb'; simp at hb'; omega⟩
        obtain ⟨A0, eA0, hA0⟩ := hsfx
        obtain ⟨k, e1, e2, e3, e4, e5, e6, hq'⟩ := site_here (B := gap ++ w ++ g ++ d ++ A0) (hd.same hsame) hcs hq2
          (by rw [hc, h3]; simp [hA0]; omega) (by rw [← ht, eA0]; simp) hs hsp1 hsp2 hT'
        subst e6
        obtain ⟨A', eA', hA', hq1'⟩ := hq.replace hs
        have hAA : A' = A0 ++ close := by
          rw [eA0] at eA'
          exact (List.append_cancel_right eA').symm
        subst hAA
        have hsz2 : byteLen (gap ++ w ++ (g ++ d ++ ((A0 ++ close ++ k) ++ S.s :: (T' ++ S.s' :: (close2 ++ after3))))) < u32Size := by
          simp only [Site.text, e1, e4, e5] at hsz'; simpa using hsz'
        obtain ⟨hf, hfd⟩ := firstWord_two (k := A0 ++ close ++ k) (z := T1 ++ S.s' :: (close2 ++ after3)) (z' := T' ++ S.s' :: (close2 ++ after3)) hs f fd
          (by rw [eA0]; simp) hsz hsz2
        subst hpost
        have hss := isSep_size ((isSep_iff _).mpr hs)
        have hu1 : pos + byteLen S.u + 1 = cpos + byteLen close + byteLen g2 := by
          rw [e1, e2, hc, h3]; simp [hss, hA0]; omega
        have hmv := Blocks.move (lo := pos + byteLen S.u + 1) (old := byteLen S.T) (new := byteLen T')
          (by rw [eA, eB] at k3; simp at k3; omega) (by rw [hu1, he2]; simp [quotedLen]; omega)
          (by rw [he2, e3]; simp [quotedLen]; omega) hb
        have := Blocks.two (pos := pos) hf c hs1 hfd h3 (by simpa using hq1' (T' ++ S.s' :: (close2 ++ after3))) hc hq' rfl
          (items := items.map (moveItem (moved (pos + byteLen S.u + 1) (byteLen S.T) (byteLen T')))) (by
            rw [show epos + byteLen close2 - byteLen S.T + byteLen T' =
              cpos + byteLen close + byteLen g2 + quotedLen (some T') + byteLen close2 by
                rw [he2, e3]; simp [quotedLen]; omega] at hmv
            exact hmv)
        simp only [Replaced]
        rw [hu1] at this ⊢
        simp only [Site.text, e1, e4, e5]
        rw [show quoteItems cpos close g2 (some T') close2 = [.ok ⟨false, .AnyText, spanAt (cpos + byteLen close + byteLen g2) T'⟩,
          .ok ⟨false, .ZoiDelimiter, spanAt (cpos + byteLen close + byteLen g2 + byteLen T' + 1) close2⟩] by
            simp [quoteItems, quotedTokens, delimiterToken, quotedLen, Nat.add_assoc]] at this
        simpa [Nat.add_assoc] using this
      · subst eA eB
        have l4 : byteLen after3 < u32Size := by simp at k3; omega
        have hbp : epos + byteLen close2 = pos + byteLen (gap ++ w ++ g ++ d ++ A ++ B) := by
          simp [hA, hB, he2, hc, h3]; omega
        obtain ⟨u', e1, e2, e3⟩ := site_step (a := gap ++ w ++ g ++ d ++ A ++ B) l4 (hbp ▸ hb) (by simpa using ht) hi4
        rw [← hbp] at e3
        have hih := ih { S with u := u' } T' pre x x' post e2 l4 (by
          simp only [Site.text, e1] at hsz' ⊢; simp at hsz' ⊢; omega) hs e3 hT'
        subst e2
        obtain ⟨B', eB', hB', hq2'⟩ := hq2.replace hs
        have hBB : B = B' := List.append_cancel_right eB'
        subst hBB
        obtain ⟨A', eA', hA', hq1'⟩ := Quoted.replace (u := B ++ u') (z := S.T ++ S.s' :: (S.close ++ S.after)) hs
          (by simpa using hq)
        have hAA : A = A' := by
          have e : B ++ (u' ++ S.s :: (S.T ++ S.s' :: (S.close ++ S.after))) = B ++ u' ++ S.s :: (S.T ++ S.s' :: (S.close ++ S.after)) := by simp
          rw [e] at eA'
          exact List.append_cancel_right eA'
        subst hAA
        have hsz2 : byteLen (gap ++ w ++ (g ++ d ++ ((A ++ B ++ u') ++ S.s :: (T' ++ S.s' :: (S.close ++ S.after))))) < u32Size := by
          simp only [Site.text, e1] at hsz'; simpa using hsz'
        obtain ⟨hf, hfd⟩ := firstWord_two (k := A ++ B ++ u') (z := S.T ++ S.s' :: (S.close ++ S.after)) (z' := T' ++ S.s' :: (S.close ++ S.after)) hs f fd (by simp) hsz hsz2
        have := Blocks.two (pos := pos) hf c hs1 hfd h3 (after2 := B ++ (u' ++ S.s :: (T' ++ S.s' :: (S.close ++ S.after))))
          (by simpa using hq1' (T' ++ S.s' :: (S.close ++ S.after))) hc
          (hq2' (T' ++ S.s' :: (S.close ++ S.after))) he2 hih
        simp only [Replaced, Site.text]
        simp only [hbp] at this
        simp only [e1]
        simpa [Nat.add_assoc] using this

end Sneturfahi.Spec
