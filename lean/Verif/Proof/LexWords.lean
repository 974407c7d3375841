import Verif.Proof.LexMore

/-!
# Tokens and the words of the decomposition
-/

namespace Sneturfahi.Spec

theorem firstWord_spans {t g w a : List Char} (hsz : byteLen t < u32Size) (h : FirstWord t g w a) (pos : Nat) :
    spansAt pos (chunks t) = spanAt (pos + byteLen g) w :: spansAt (pos + byteLen g + byteLen w) (chunks a) := by
  have h1 := (firstWord_facts hsz h).2
  have h2 := congrArg (List.map (shift pos)) h1
  rw [List.map_cons, shift_spansAt, shift_spansAt] at h2
  rw [Nat.zero_add] at h2
  rw [h2]
  simp only [shift, spanAt, List.cons.injEq]
  constructor
  · simp; omega
  · rw [show byteLen g + byteLen w + pos = pos + byteLen g + byteLen w by omega]

theorem spansAt_nil (pos : Nat) : spansAt pos (chunks []) = [] := by
  have h : spansAt 0 (chunks []) = [] := by decide +kernel
  have := congrArg (List.map (shift pos)) h
  rwa [shift_spansAt, Nat.zero_add] at this

theorem suffix_spans {a b : List Char} (h : EndsPiece b) (pos : Nat) :
    ∀ sp ∈ spansAt (pos + byteLen a) (chunks b), sp ∈ spansAt pos (chunks (a ++ b)) := by
  intro sp hsp
  rcases h with rfl | ⟨s, r, hs, rfl⟩
  · rw [spansAt_nil] at hsp; simp at hsp
  · have e := chunks_append_sep ([] : List Char) hs r
    rw [List.nil_append] at e
    rw [e, spansAt_append, spansAt_nil, List.nil_append, offsetOf_chunks] at hsp
    rw [chunks_append_sep a hs r, spansAt_append, offsetOf_chunks, List.mem_append]
    right
    simpa [Nat.add_assoc] using hsp

/-- A token that stands for a word of the text. -/
def WordToken (pos : Nat) (t : List Char) (tok : Token) : Prop :=
  tok.span ∈ spansAt pos (chunks t) ∧ ∃ before w after, t = before ++ w ++ after ∧
    tok.span = spanAt (pos + byteLen before) w ∧ Classified w tok.selmaho tok.experimental

theorem WordToken.after {pos : Nat} {t g w a : List Char} {tok : Token} (hsz : byteLen t < u32Size) (f : FirstWord t g w a)
    (h : WordToken (pos + byteLen g + byteLen w) a tok) : WordToken pos t tok := by
  obtain ⟨h1, before, w', after, e, h2, h3⟩ := h
  refine ⟨?_, g ++ w ++ before, w', after, by rw [f.1, e]; simp, by rw [h2]; simp [Nat.add_assoc], h3⟩
  rw [firstWord_spans hsz f pos]
  exact List.mem_cons_of_mem _ h1

theorem WordToken.suffix {pos : Nat} {u t : List Char} {tok : Token} (he : EndsPiece t) (h : WordToken (pos + byteLen u) t tok) :
    WordToken pos (u ++ t) tok := by
  obtain ⟨h1, before, w', after, e, h2, h3⟩ := h
  exact ⟨suffix_spans he pos _ h1, u ++ before, w', after, by rw [e]; simp, by rw [h2]; simp [Nat.add_assoc], h3⟩

theorem wordToken_first {pos : Nat} {t g w a : List Char} {s : Selmaho} {x : Bool} (hsz : byteLen t < u32Size)
    (f : FirstWord t g w a) (c : Classified w s x) : WordToken pos t ⟨x, s, spanAt (pos + byteLen g) w⟩ := by
  refine ⟨?_, g, w, a, f.1, rfl, c⟩
  rw [firstWord_spans hsz f pos]
  exact List.mem_cons_self

theorem Quoted.suffix {d after g : List Char} {q : Option (List Char)} {close after' : List Char} (h : Quoted d after g q close after') :
    EndsPiece after' ∧ ∃ A, after = A ++ after' ∧ byteLen A = byteLen g + quotedLen q + byteLen close := by
  obtain ⟨_, _, h3, _, hb, hform⟩ := h.inv
  refine ⟨h3, ?_⟩
  have : ∃ A, after = A ++ after' := by
    rcases hform with ⟨_, e⟩ | ⟨T, s, _, _, e, _⟩
    · exact ⟨_, e⟩
    · exact ⟨g ++ T ++ s :: close, by rw [e]; simp⟩
  obtain ⟨A, rfl⟩ := this
  exact ⟨A, rfl, by simp at hb; omega⟩

theorem quoteItems_mem {dpos : Nat} {d g : List Char} {q : Option (List Char)} {close : List Char} {tok : Token}
    (h : .ok tok ∈ quoteItems dpos d g q close) : QuoteToken tok := by
  have := closedTokens_ok (isFirst := false) (dpos := dpos) (d := d) (tpos := dpos + byteLen d + byteLen g) (quoted := q)
    (close := close) (.ok tok) (by simpa [closedTokens, quoteItems] using h)
  obtain ⟨t, h1, h2⟩ := this
  cases h1
  exact h2

theorem blocks_words {pos : Nat} {t : List Char} {items : List LexItem} (hsz : byteLen t < u32Size) (h : Blocks pos t items) :
    ∀ tok, .ok tok ∈ items → QuoteToken tok ∨ WordToken pos t tok := by
  have delim : ∀ {tok : Token} {p d}, .ok tok = delimiterToken p d → QuoteToken tok := by
    intro tok p d h
    cases h
    exact ⟨rfl, Or.inl rfl⟩
  induction h with
  | stop _ => intro tok h; simp at h
  | word f c h1 h2 h3 _ ih =>
    obtain ⟨_, _, l3, _⟩ := firstWord_length hsz f
    intro tok h
    simp at h
    rcases h with rfl | h
    · exact Or.inr (wordToken_first hsz f c)
    · exact (ih l3 tok h).imp_right (WordToken.after hsz f)
  | faho f c h1 =>
    intro tok h
    simp at h
    subst h
    exact Or.inr (wordToken_first hsz f c)
  | pauseEof f c h1 h2 =>
    intro tok h
    simp at h
    subst h
    exact Or.inr (wordToken_first hsz f c)
  | pause f c h1 r fp _ ih =>
    obtain ⟨_, _, l3, _⟩ := firstWord_length hsz f
    intro tok h
    simp at h
    rcases h with rfl | rfl | h
    · exact Or.inr (wordToken_first hsz f c)
    · exact Or.inl ⟨rfl, Or.inr rfl⟩
    · have e := r.eq
      rw [fp.1, ← List.append_assoc] at e
      refine (ih (by rw [e] at l3; simp at l3; omega) tok h).imp_right fun hw => WordToken.after hsz f ?_
      rw [e]
      exact WordToken.suffix fp.2.2 (by simpa [Nat.add_assoc] using hw)
  | missing f c h1 h2 => intro tok h; simp at h
  | open1 f c h1 fd h3 hu =>
    intro tok h
    simp at h
    subst h
    exact Or.inr (wordToken_first hsz f c)
  | open2 f c hs fd h3 hq hc hu =>
    intro tok h
    simp only [List.mem_cons, List.mem_append, List.not_mem_nil, or_false] at h
    rcases h with h | h | h | h
    · cases h; exact Or.inr (wordToken_first hsz f c)
    · exact Or.inl (delim h)
    · exact Or.inl (quoteItems_mem h)
    · cases h
  | one f c h1 hs fd h3 hq hc _ ih =>
    obtain ⟨_, _, l3, _⟩ := firstWord_length hsz f
    obtain ⟨_, _, k3, _⟩ := firstWord_length l3 fd
    intro tok h
    simp only [List.mem_cons, List.mem_append] at h
    rcases h with h | h | h | h
    · cases h; exact Or.inr (wordToken_first hsz f c)
    · exact Or.inl (delim h)
    · exact Or.inl (quoteItems_mem h)
    · obtain ⟨he, A, e, hA⟩ := hq.suffix
      subst e h3 hc
      refine (ih (by simp at k3; omega) tok h).imp_right fun hw => ?_
      exact WordToken.after hsz f (WordToken.after l3 fd (WordToken.suffix he (by rw [hA]; simpa [Nat.add_assoc] using hw)))
  | two f c hs fd h3 hq hc hq2 he2 _ ih =>
    obtain ⟨_, _, l3, _⟩ := firstWord_length hsz f
    obtain ⟨_, _, k3, _⟩ := firstWord_length l3 fd
    intro tok h
    simp only [List.mem_cons, List.mem_append] at h
    rcases h with h | h | h | h | h
    · cases h; exact Or.inr (wordToken_first hsz f c)
    · exact Or.inl (delim h)
    · exact Or.inl (quoteItems_mem h)
    · exact Or.inl (quoteItems_mem h)
    · obtain ⟨he, A, e, hA⟩ := hq.suffix
      obtain ⟨he', B, e', hB⟩ := hq2.suffix
      subst e e' h3 hc he2
      refine (ih (by simp at k3; omega) tok h).imp_right fun hw => ?_
      refine WordToken.after hsz f (WordToken.after l3 fd ?_)
      rw [← List.append_assoc]
      refine WordToken.suffix he' ?_
      have e3 : byteLen (A ++ B) = byteLen A + byteLen B := by simp
      rw [e3, hA, hB]
      simpa [Nat.add_assoc] using hw

/-- Texts without special words. -/
theorem blocks_plain {pos : Nat} {t : List Char} {items : List LexItem} (hsz : byteLen t < u32Size) (h : Blocks pos t items)
    (hw : ∀ before w after, t = before ++ w ++ after → spanAt (pos + byteLen before) w ∈ spansAt pos (chunks t) →
      ∀ s x, Classified w s x → ¬ opensDelimited s ∧ ¬ opensPause s ∧ ¬ endsText s) :
    ∃ toks : List Token, items = toks.map .ok ∧ toks.map Token.span = spansAt pos (chunks t) ∧
      ∀ tok ∈ toks, WordToken pos t tok := by
  have key : ∀ {pos t g w a s x}, byteLen t < u32Size → FirstWord t g w a → Classified w s x →
      (∀ before w after, t = before ++ w ++ after → spanAt (pos + byteLen before) w ∈ spansAt pos (chunks t) →
        ∀ s x, Classified w s x → ¬ opensDelimited s ∧ ¬ opensPause s ∧ ¬ endsText s) →
      ¬ opensDelimited s ∧ ¬ opensPause s ∧ ¬ endsText s := by
    intro pos t g w a s x hsz f c hw
    exact hw g w a f.1 (by rw [firstWord_spans hsz f pos]; exact List.mem_cons_self) s x c
  induction h with
  | @stop pos text hn =>
    refine ⟨[], rfl, ?_, by simp⟩
    rw [noWord_iff hsz] at hn
    have := congrArg (List.map (shift pos)) hn
    rw [shift_spansAt, Nat.zero_add] at this
    simpa using this.symm
  | @word pos text gap w after s x items f c h1 h2 h3 _ ih =>
    obtain ⟨_, _, l3, _⟩ := firstWord_length hsz f
    obtain ⟨toks, e1, e2, e3⟩ := ih l3 (by
      intro before w' after' e hm s x hc
      refine hw (gap ++ w ++ before) w' after' (by rw [f.1, e]; simp) ?_ s x hc
      rw [firstWord_spans hsz f pos]
      exact List.mem_cons_of_mem _ (by simpa [Nat.add_assoc] using hm))
    refine ⟨⟨x, s, spanAt (pos + byteLen gap) w⟩ :: toks, by rw [e1]; rfl, ?_, ?_⟩
    · rw [firstWord_spans hsz f pos, List.map_cons, e2]
    · intro tok ht
      simp at ht
      rcases ht with rfl | ht
      · exact wordToken_first hsz f c
      · exact (e3 tok ht).after hsz f
  | faho f c h1 => exact absurd h1 (key hsz f c hw).2.2
  | pauseEof f c h1 h2 => exact absurd h1 (key hsz f c hw).2.1
  | pause f c h1 r fp _ ih => exact absurd h1 (key hsz f c hw).2.1
  | missing f c h1 h2 => exact absurd h1 (key hsz f c hw).1
  | open1 f c h1 fd h3 hu => exact absurd h1 (key hsz f c hw).1
  | open2 f c hs fd h3 hq hc hu => exact absurd (Or.inr (Or.inr hs)) (key hsz f c hw).1
  | one f c h1 hs fd h3 hq hc _ ih => exact absurd h1 (key hsz f c hw).1
  | two f c hs fd h3 hq hc hq2 he2 _ ih => exact absurd (Or.inr (Or.inr hs)) (key hsz f c hw).1

end Sneturfahi.Spec
