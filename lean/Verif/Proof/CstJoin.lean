import Verif.Proof.CstNull
import Verif.Proof.CstEnd
import Verif.Proof.CstErr

/-!
# Texts joined by `ni'o`
-/

namespace Sneturfahi

open Spec

/-- Reading `e` at the start of `s` succeeds and leaves `r`. -/
def Gives (e : Gr) (s r : List Token) : Prop := ∃ vs, Peg cst e s (.ok r vs)

theorem Gives.unique {e : Gr} {s r r' : List Token} (h : Gives e s r) (h' : Gives e s r') : r = r' := by
  obtain ⟨vs, h⟩ := h
  obtain ⟨vs', h'⟩ := h'
  cases h.unique _ h'
  rfl

theorem Gives.not_error {e : Gr} {s r : List Token} (h : Gives e s r) (h' : Peg cst e s .error) : False := by
  obtain ⟨vs, h⟩ := h
  cases h.unique _ h'

theorem gives_call {r : CRule} {s q : List Token} : Gives (.call r) s q ↔ Gives (cst r) s q := by
  constructor
  · rintro ⟨vs, h⟩; cases h with | call h => exact ⟨vs, h⟩
  · rintro ⟨vs, h⟩; exact ⟨vs, .call h⟩

theorem gives_wrap {sh : CShape} {a : Gr} {s q : List Token} : Gives (.wrap sh a) s q ↔ Gives a s q := by
  constructor
  · rintro ⟨vs, h⟩; obtain ⟨us, h, _⟩ := peg_wrap_ok h; exact ⟨us, h⟩
  · rintro ⟨vs, h⟩; exact ⟨_, .wrap h⟩

theorem gives_seq {a b : Gr} {s q : List Token} : Gives (.seq a b) s q ↔ ∃ m, Gives a s m ∧ Gives b m q := by
  constructor
  · rintro ⟨vs, h⟩; obtain ⟨m, us, ws, h1, h2, _⟩ := peg_seq_ok h; exact ⟨m, ⟨us, h1⟩, ⟨ws, h2⟩⟩
  · rintro ⟨m, ⟨us, h1⟩, ⟨ws, h2⟩⟩; exact ⟨_, .seq h1 h2⟩

theorem gives_opt {a : Gr} {s q : List Token} : Gives (.opt a) s q ↔ Gives a s q ∨ (Peg cst a s .error ∧ q = s) := by
  constructor
  · rintro ⟨vs, h⟩
    cases h with
    | optPresent h => exact .inl ⟨_, h⟩
    | optAbsent h => exact .inr ⟨h, rfl⟩
  · rintro (⟨vs, h⟩ | ⟨h, rfl⟩)
    · exact ⟨_, .optPresent h⟩
    · exact ⟨_, .optAbsent h⟩

theorem peg_many0_ok {a : Gr} {s q : List Token} {vs : List Val} (h : Peg cst (.many0 a) s (.ok q vs)) : ∃ ws, vs = [.many ws] := by
  cases h with
  | many0End _ => exact ⟨_, rfl⟩
  | many0More _ _ _ => exact ⟨_, rfl⟩
  | many0Later _ _ _ hb => exact hb.elim

theorem gives_many0 {a : Gr} {s q : List Token} : Gives (.many0 a) s q ↔
    (Peg cst a s .error ∧ q = s) ∨ ∃ m, Gives a s m ∧ m.length ≠ s.length ∧ Gives (.many0 a) m q := by
  constructor
  · rintro ⟨vs, h⟩
    cases h with
    | many0End h => exact .inl ⟨h, rfl⟩
    | many0More h1 hl h2 => exact .inr ⟨_, ⟨_, h1⟩, hl, ⟨_, h2⟩⟩
    | many0Later _ _ _ hb => exact hb.elim
  · rintro (⟨h, rfl⟩ | ⟨m, ⟨us, h1⟩, hl, ⟨ws, h2⟩⟩)
    · exact ⟨_, .many0End h⟩
    · obtain ⟨ws, rfl⟩ := peg_many0_ok h2
      exact ⟨_, .many0More h1 hl h2⟩

theorem gives_many1 {a : Gr} {s q : List Token} : Gives (.many1 a) s q ↔ ∃ m, Gives a s m ∧ Gives (.many0 a) m q := by
  constructor
  · rintro ⟨vs, h⟩
    cases h with
    | many1 h1 h2 => exact ⟨_, ⟨_, h1⟩, ⟨_, h2⟩⟩
    | many1First _ hb => exact hb.elim
    | many1Later _ _ hb => exact hb.elim
  · rintro ⟨m, ⟨us, h1⟩, ⟨ws, h2⟩⟩
    obtain ⟨ws, rfl⟩ := peg_many0_ok h2
    exact ⟨_, .many1 h1 h2⟩

/-- Some productions always apply. -/
theorem peg_never {r : CRule} (hr : errTables.never r = true) {s : List Token} {o : Outcome} (h : Peg cst (.call r) s o) : o ≠ .error := by
  obtain ⟨res, he⟩ := runCst_ends r ⟨0, s⟩
  have h1 := runCst_means r ⟨0, s⟩
  have h2 := runCst_err r ⟨0, s⟩
  rw [he] at h1 h2
  rw [h.unique _ h1]
  cases res with
  | ok _ _ => simp [CRes.outcome]
  | failure _ => simp [CRes.outcome]
  | error x =>
    have := h2.1
    rw [neverG, hr] at this
    cases this

/-- What consumes, consumes. -/
theorem gives_shorter {r : CRule} (hr : cstConsumes r = true) {s q : List Token} (h : Gives (.call r) s q) : q.length < s.length := by
  obtain ⟨vs, h⟩ := h
  obtain ⟨res, he⟩ := runCst_ends r ⟨0, s⟩
  have h1 := runCst_means r ⟨0, s⟩
  have h2 := runCst_honest r ⟨0, s⟩
  rw [he] at h1 h2
  have h3 := h.unique _ h1
  cases res with
  | ok r' vs' =>
    cases h3
    exact h2.2.1 hr
  | failure _ => cases h3
  | error x => cases h3

theorem gives_suffix {e : Gr} {s q : List Token} (h : Gives e s q) : ∃ w, s = w ++ q := by
  obtain ⟨vs, h⟩ := h
  exact ⟨_, h.cuts _ _ rfl⟩

/-! ### Before and after `ni'o` -/

theorem gives_not {a : Gr} {s q : List Token} : Gives (.not a) s q ↔ Peg cst a s .error ∧ q = s := by
  constructor
  · rintro ⟨vs, h⟩; obtain ⟨h1, h2, _⟩ := peg_not_ok h; exact ⟨h1, h2⟩
  · rintro ⟨h, rfl⟩; exact ⟨_, .not h⟩

/-- A word: any `ba'e`, the word itself, indicators, and then neither `bu` nor `zei`. -/
theorem gives_single {x : Selmaho} (hx : wordKind x = .single) {s q : List Token} : Gives (.call (.word x)) s q ↔
    ∃ m t i, Gives (.many0 (.call (.word .Bahe))) s (t :: m) ∧ t.selmaho = x ∧ Gives (.opt (.call .Indicators)) m i ∧ Loose i ∧ q = i := by
  have he : cst (.word x) = wordBody x .single := by rw [← hx]; rfl
  rw [gives_call, he, wordBody, gives_wrap, gives_seq]
  constructor
  · rintro ⟨m0, h0, h⟩
    obtain ⟨m, ⟨vs, h1⟩, h'⟩ := gives_seq.mp h
    obtain ⟨t, rfl, ht, _⟩ := peg_raw_ok h1
    obtain ⟨i, hi, h''⟩ := gives_seq.mp h'
    obtain ⟨j, h2, h3⟩ := gives_seq.mp h''
    obtain ⟨h2, rfl⟩ := gives_not.mp h2
    obtain ⟨h3, rfl⟩ := gives_not.mp h3
    exact ⟨m, t, _, h0, ht, hi, ⟨h2, h3⟩, rfl⟩
  · rintro ⟨m, t, i, h0, ht, hi, ⟨h2, h3⟩, rfl⟩
    exact ⟨_, h0, gives_seq.mpr ⟨m, ⟨_, .raw ht⟩, gives_seq.mpr ⟨_, hi, gives_seq.mpr ⟨_, gives_not.mpr ⟨h2, rfl⟩, gives_not.mpr ⟨h3, rfl⟩⟩⟩⟩⟩

def indicatorWords : List Selmaho := [.Ui, .Cai, .Nai, .Daho, .Fuho, .Y]

theorem gives_alt {a b : Gr} {s q : List Token} : Gives (.alt a b) s q ↔ Gives a s q ∨ (Peg cst a s .error ∧ Gives b s q) := by
  constructor
  · rintro ⟨vs, h⟩
    cases h with
    | altFirst h _ => exact .inl ⟨_, h⟩
    | altSecond h1 h2 => exact .inr ⟨h1, ⟨_, h2⟩⟩
  · rintro (⟨vs, h⟩ | ⟨h, ⟨vs, h2⟩⟩)
    · exact ⟨_, .altFirst h (by simp)⟩
    · exact ⟨_, .altSecond h h2⟩

/-- An indicator is a word of certain selma'o, and no `bu` or `zei` follows. -/
theorem gives_indicator {s q : List Token} (h : Gives (.call .Indicator) s q) :
    (∃ x ∈ indicatorWords, Gives (.call (.word x)) s q) := by
  have he : cst .Indicator = .seq (.alt (.alt (.alt (.alt (.alt (.wrap (.node .Indicator_Ui) (.call (.word .Ui))) (.wrap (.node .Indicator_Cai) (.call (.word .Cai)))) (.wrap (.node .Indicator_Nai) (.call (.word .Nai)))) (.wrap (.node .Indicator_Daho) (.call (.word .Daho)))) (.wrap (.node .Indicator_Fuho) (.call (.word .Fuho)))) (.wrap (.node .Indicator_Y) (.call (.word .Y)))) (.not (.call (.word .Bu))) := rfl
  rw [gives_call, he, gives_seq] at h
  obtain ⟨m, h, h2⟩ := h
  obtain ⟨_, rfl⟩ := gives_not.mp h2
  simp only [gives_alt, gives_wrap] at h
  simp only [indicatorWords, List.mem_cons, List.not_mem_nil, or_false, exists_eq_or_imp, exists_eq_left]
  grind

theorem indicator_kind {x : Selmaho} (h : x ∈ indicatorWords) : wordKind x = .single := by
  revert h; cases x <;> decide

theorem indicator_loose {s q : List Token} (h : Gives (.call .Indicator) s q) : Loose q := by
  obtain ⟨x, hx, h⟩ := gives_indicator h
  obtain ⟨_, _, _, _, _, _, h, rfl⟩ := (gives_single (indicator_kind hx)).mp h
  exact h

theorem indicators_many0 (n : Nat) : ∀ s q : List Token, s.length ≤ n → Gives (.many0 (.call .Indicator)) s q → Loose s → Loose q := by
  induction n with
  | zero =>
    intro s q hn h hl
    rcases gives_many0.mp h with ⟨_, rfl⟩ | ⟨m, h1, _, _⟩
    · exact hl
    · have := gives_shorter (r := .Indicator) rfl h1
      omega
  | succ n ih =>
    intro s q hn h hl
    rcases gives_many0.mp h with ⟨_, rfl⟩ | ⟨m, h1, _, h2⟩
    · exact hl
    · have := gives_shorter (r := .Indicator) rfl h1
      exact ih m q (by omega) h2 (indicator_loose h1)

theorem cst_indicators : cst .Indicators = .wrap (.node .Indicators) (.seq (.opt (.call (.word .Fuhe))) (.many1 (.call .Indicator))) := rfl

/-- After indicators no `bu` or `zei` follows. -/
theorem indicators_loose {s q : List Token} (h : Gives (.call .Indicators) s q) : Loose q := by
  rw [gives_call, cst_indicators, gives_wrap, gives_seq] at h
  obtain ⟨m, _, h⟩ := h
  obtain ⟨m', h1, h2⟩ := gives_many1.mp h
  exact indicators_many0 _ m' q (Nat.le_refl _) h2 (indicator_loose h1)

/-- Indicators begin with one of their words. -/
theorem indicators_begin {s q : List Token} (h : Gives (.call .Indicators) s q) :
    ∃ bs t r, s = bs ++ t :: r ∧ (∀ b ∈ bs, b.selmaho = Selmaho.Bahe) ∧ t.selmaho ∈ .Fuhe :: indicatorWords := by
  rw [gives_call, cst_indicators, gives_wrap, gives_seq] at h
  obtain ⟨m, h0, h⟩ := h
  rcases gives_opt.mp h0 with ⟨vs, h0⟩ | ⟨_, rfl⟩
  · obtain ⟨bs, t, r, h1, h2, h3⟩ := word_ok (.inr rfl) h0
    exact ⟨bs, t, r, h1, h2, by simp [h3]⟩
  · obtain ⟨m', h1, _⟩ := gives_many1.mp h
    obtain ⟨x, hx, vs, h1⟩ := gives_indicator h1
    obtain ⟨bs, t, r, h1, h2, h3⟩ := word_ok (.inl (indicator_kind hx)) h1
    exact ⟨bs, t, r, h1, h2, by rw [h3]; simp [hx]⟩

/-- Where indicators begin, neither `bu` nor `zei` does. -/
theorem indicators_here {s q : List Token} (h : Gives (.call .Indicators) s q) : Loose s := by
  obtain ⟨bs, t, r, rfl, hb, ht⟩ := indicators_begin h
  have hn : t.selmaho ≠ .Bahe ∧ t.selmaho ≠ .Bu ∧ t.selmaho ≠ .Zei := by
    refine ⟨?_, ?_, ?_⟩ <;> intro h <;> rw [h] at ht <;> revert ht <;> decide
  constructor
  · refine bu_error ?_
    intro t' q' he hbu
    cases bs with
    | nil => simp only [List.nil_append, List.cons.injEq] at he; rw [he.1] at hn; exact hn.2.1 hbu
    | cons b bs =>
      simp only [List.cons_append, List.cons.injEq] at he
      have := hb b (by simp)
      rw [he.1, hbu] at this
      cases this
  · refine word_error (.inr rfl) ?_
    rintro ⟨bs', t', q', he, hb', ht'⟩
    obtain ⟨_, rfl, _⟩ := bahe_split he hb hb' hn.1 (by rw [ht']; decide)
    exact hn.2.2 ht'

/-- What follows a word that is read is loose. -/
theorem single_before {x : Selmaho} (hx : wordKind x = .single) {s q : List Token} (h : Gives (.call (.word x)) s q) : Before [x] s := by
  obtain ⟨m, t, i, ⟨vs, h0⟩, ht, hi, hl, rfl⟩ := (gives_single hx).mp h
  obtain ⟨bs, h1, h2⟩ := peg_bahes h0 rfl _ _ rfl
  refine .inr ⟨bs, t, m, h1, h2, by simp [ht], ?_⟩
  rcases gives_opt.mp hi with hi | ⟨_, rfl⟩
  · exact indicators_here hi
  · exact hl

/-- Indicators are there or not. -/
theorem indicators_total (s : List Token) : ∃ q, Gives (.opt (.call .Indicators)) s q := by
  obtain ⟨o, ho⟩ := peg_total .Indicators s
  cases o with
  | error => exact ⟨_, gives_opt.mpr (.inr ⟨ho, rfl⟩)⟩
  | failure => exact absurd rfl (peg_mild cst_mild ho rfl)
  | ok r vs => exact ⟨_, gives_opt.mpr (.inl ⟨_, ho⟩)⟩

/-- A separator takes the indicators after it. -/
theorem single_here {x : Selmaho} (hx : wordKind x = .single) (hb : x ≠ .Bahe) {t : Token} (ht : t.selmaho = x) {l i : List Token}
    (hl : Loose l) (hi : Gives (.opt (.call .Indicators)) l i) : Gives (.call (.word x)) (t :: l) i := by
  have hz : cst (.word .Bahe) = .seq (.raw .Bahe) (.seq (.not (.call (.word .Bu))) (.not (.call (.word .Zei)))) := rfl
  refine (gives_single hx).mpr ⟨l, t, i, ?_, ht, hi, ?_, rfl⟩
  · refine gives_many0.mpr (.inl ⟨.call ?_, rfl⟩)
    rw [hz]
    exact .seqFirst (.rawOther (by rw [ht]; exact hb)) trivial
  · rcases gives_opt.mp hi with hi | ⟨_, rfl⟩
    · exact indicators_loose hi
    · exact hl

/-! ### The rest of a text -/

/-- `(ParagraphSeparator, Paragraph)` -/
def nextParagraph : Gr := .wrap .tuple (.seq (.call .ParagraphSeparator) (.call .Paragraph))

theorem gives_paragraphs {s q : List Token} : Gives (.call .Paragraphs) s q ↔
    ∃ m, Gives (.call .Paragraph) s m ∧ Gives (.many0 nextParagraph) m q := by
  have he : cst .Paragraphs = .wrap (.node .Paragraphs) (.wrap .sep (.seq (.call .Paragraph) (.many0 nextParagraph))) := rfl
  rw [gives_call, he, gives_wrap, gives_wrap, gives_seq]

theorem gives_next {s q : List Token} : Gives nextParagraph s q ↔
    ∃ m, Gives (.call .ParagraphSeparator) s m ∧ Gives (.call .Paragraph) m q := by
  rw [nextParagraph, gives_wrap, gives_seq]

theorem gives_separator {s q : List Token} : Gives (.call .ParagraphSeparator) s q ↔
    ∃ m k, Gives (.call (.word .Niho)) s m ∧ Gives (.many0 (.call (.word .Niho))) m k ∧ Gives (.call .Frees) k q := by
  have he : cst .ParagraphSeparator = .wrap (.node .ParagraphSeparator) (.seq (.many1 (.call (.word .Niho))) (.call .Frees)) := rfl
  rw [gives_call, he, gives_wrap, gives_seq]
  constructor
  · rintro ⟨k, h1, h2⟩
    obtain ⟨m, h1, h3⟩ := gives_many1.mp h1
    exact ⟨m, k, h1, h3, h2⟩
  · rintro ⟨m, k, h1, h2, h3⟩
    exact ⟨k, gives_many1.mpr ⟨m, h1, h2⟩, h3⟩

theorem separator_error {s : List Token} (h : Peg cst (.call (.word .Niho)) s .error) : Peg cst (.call .ParagraphSeparator) s .error := by
  have he : cst .ParagraphSeparator = .wrap (.node .ParagraphSeparator) (.seq (.many1 (.call (.word .Niho))) (.call .Frees)) := rfl
  refine .call ?_
  rw [he]
  exact .wrapBad (.seqFirst (.many1First h trivial) trivial) trivial

/-- Words are there or not. -/
theorem word_total (x : Selmaho) (s : List Token) : Peg cst (.call (.word x)) s .error ∨ ∃ q, Gives (.call (.word x)) s q := by
  obtain ⟨o, ho⟩ := peg_total (.word x) s
  cases o with
  | error => exact .inl ho
  | failure => exact absurd rfl (word_mild ho)
  | ok r vs => exact .inr ⟨r, vs, ho⟩

theorem many0_word_total {x : Selmaho} (hx : cstConsumes (.word x) = true) (n : Nat) : ∀ s : List Token, s.length ≤ n →
    ∃ q, Gives (.many0 (.call (.word x))) s q := by
  induction n with
  | zero =>
    intro s hn
    rcases word_total x s with h | ⟨q, h⟩
    · exact ⟨s, gives_many0.mpr (.inl ⟨h, rfl⟩)⟩
    · have := gives_shorter hx h
      omega
  | succ n ih =>
    intro s hn
    rcases word_total x s with h | ⟨m, h⟩
    · exact ⟨s, gives_many0.mpr (.inl ⟨h, rfl⟩)⟩
    · have := gives_shorter hx h
      obtain ⟨q, hq⟩ := ih m (by omega)
      exact ⟨q, gives_many0.mpr (.inr ⟨m, h, by omega, hq⟩)⟩

/-- A separator that is not there is not an error of what follows `ni'o`. -/
theorem separator_cases (s : List Token) : Peg cst (.call (.word .Niho)) s .error ∨
    (∃ q, Gives (.call (.word .Niho)) s q) ∧ ¬ Peg cst (.call .ParagraphSeparator) s .error := by
  rcases word_total .Niho s with h | ⟨q, h⟩
  · exact .inl h
  · refine .inr ⟨⟨q, h⟩, ?_⟩
    have he : cst .ParagraphSeparator = .wrap (.node .ParagraphSeparator) (.seq (.many1 (.call (.word .Niho))) (.call .Frees)) := rfl
    intro h'
    obtain ⟨k, hk⟩ := many0_word_total (x := .Niho) rfl _ q (Nat.le_refl _)
    obtain ⟨vs, h1⟩ := gives_many1.mpr ⟨q, h, hk⟩
    cases h' with
    | call h' =>
      rw [he] at h'
      obtain ⟨o, ho⟩ := peg_total .Frees k
      cases o with
      | ok r us => cases Peg.unique h' _ (.wrap (.seq h1 ho))
      | error => exact peg_never rfl ho rfl
      | failure => cases Peg.unique h' _ (.wrapBad (.seqSecond h1 ho trivial) trivial)

/-- The end of a text: `fa'o` or nothing. -/
def Closes (s : List Token) : Prop := Gives (.opt (.call (.word .Faho))) s []

/-- The rest of a text after its first indicators. -/
def Rest (s : List Token) : Prop := ∃ a b c, Gives (.call .Frees) s a ∧ Gives (.opt (.call .ParagraphSeparator)) a b ∧
  Gives (.call .Paragraphs) b c ∧ Closes c

/-- The rest of a text after `ni'o`. -/
def After (s : List Token) : Prop := ∃ a b c, Gives (.many0 (.call (.word .Niho))) s a ∧ Gives (.call .Frees) a b ∧
  Gives (.call .Paragraphs) b c ∧ Closes c

/-- These are the same. -/
theorem after_iff_rest (s : List Token) : After s ↔ Rest s := by
  rcases separator_cases s with hn | ⟨⟨q, hq⟩, hne⟩
  · have hsame : ∀ a, Gives (.many0 (.call (.word .Niho))) s a ↔ a = s := by
      intro a
      rw [gives_many0]
      constructor
      · rintro (⟨_, h⟩ | ⟨m, h, _⟩)
        · exact h
        · exact (h.not_error hn).elim
      · rintro rfl; exact .inl ⟨hn, rfl⟩
    constructor
    · rintro ⟨a, b, c, h1, h2, h3, h4⟩
      rw [hsame] at h1
      subst h1
      rcases separator_cases b with hb | ⟨⟨q, hb⟩, hnb⟩
      · exact ⟨b, b, c, h2, gives_opt.mpr (.inr ⟨separator_error hb, rfl⟩), h3, h4⟩
      · obtain ⟨m, h5, h6⟩ := gives_paragraphs.mp h3
        have := h5.unique (paragraph_before_niho (single_before rfl hb))
        subst this
        rcases gives_many0.mp h6 with ⟨h6, _⟩ | ⟨k, h6, _, h7⟩
        · exfalso
          cases h6 with
          | wrapBad h6 _ =>
            cases h6 with
            | seqFirst h6 _ => exact hnb h6
            | seqSecond _ h6 _ => exact peg_never rfl h6 rfl
        · obtain ⟨d, h8, h9⟩ := gives_next.mp h6
          exact ⟨m, d, c, h2, gives_opt.mpr (.inl h8), gives_paragraphs.mpr ⟨k, h9, h7⟩, h4⟩
    · rintro ⟨a, b, c, h1, h2, h3, h4⟩
      rcases gives_opt.mp h2 with h2 | ⟨_, rfl⟩
      · have hs : Before [.Niho] a := by
          obtain ⟨m, _, h5, _⟩ := gives_separator.mp h2
          exact single_before rfl h5
        obtain ⟨m, h5, h6⟩ := gives_paragraphs.mp h3
        refine ⟨s, a, c, (hsame s).mpr rfl, h1, gives_paragraphs.mpr ⟨a, paragraph_before_niho hs, ?_⟩, h4⟩
        refine gives_many0.mpr (.inr ⟨m, gives_next.mpr ⟨b, h2, h5⟩, ?_, h6⟩)
        have h7 := gives_shorter (r := .ParagraphSeparator) rfl h2
        obtain ⟨w, rfl⟩ := gives_suffix h5
        rw [List.length_append] at h7
        omega
      · exact ⟨s, _, c, (hsame s).mpr rfl, h1, h3, h4⟩
  · have hs : Before [.Niho] s := single_before rfl hq
    obtain ⟨vs, hf⟩ := frees_before_niho hs
    have hf : Gives (.call .Frees) s s := ⟨vs, hf⟩
    constructor
    · rintro ⟨a, b, c, h1, h2, h3, h4⟩
      refine ⟨s, b, c, hf, gives_opt.mpr (.inl (gives_separator.mpr ?_)), h3, h4⟩
      rcases gives_many0.mp h1 with ⟨h1, _⟩ | ⟨m, h1, _, h5⟩
      · exact (hq.not_error h1).elim
      · exact ⟨m, a, h1, h5, h2⟩
    · rintro ⟨a, b, c, h1, h2, h3, h4⟩
      have := h1.unique hf
      subst this
      rcases gives_opt.mp h2 with h2 | ⟨h2, _⟩
      · obtain ⟨m, k, h5, h6, h7⟩ := gives_separator.mp h2
        have := gives_shorter (r := .word .Niho) rfl h5
        exact ⟨k, b, c, gives_many0.mpr (.inr ⟨m, h5, by omega, h6⟩), h7, h3, h4⟩
      · exact absurd h2 hne

/-! ### Up to `ni'o` -/

/-- The words that may contain paragraphs, or take words as they come. -/
def containers : List Selmaho := [.Zo, .Zoi, .Lohu, .Zei, .Bu, .To, .Lu, .Tuhe]

def nihoTab : EndTab where
  one := fun r => r == .BuInner
  dead := unusedTab.dead
  skip := unusedTab.skip
  fail := fun r => match r with
    | .word s => containers.contains s
    | .ZeiClause => true
    | .ZeiTail => true
    | .ZeiBuInner => true
    | .ZoSumti => true
    | .ZoiSumti => true
    | .LohuSumti => true
    | .LuSumti => true
    | _ => false
  sim := fun r => match r with
    | .word s => s != .Niho && !containers.contains s
    | .BuInner => false
    | .ZoiDelimiter => false
    | .ZoiText => false
    | .Text => false
    | .Paragraphs => false
    | .ParagraphSeparator => false
    | _ => true

theorem niho_one (r : CRule) : nihoTab.one r = true → oneE nihoTab (cst r) = true := by
  cases r with
  | word s => cases s <;> decide +kernel
  | _ => decide +kernel

theorem niho_dead (r : CRule) : nihoTab.dead r = true → (deadE nihoTab binders (cst r)).1 = true := by
  cases r with
  | word s => cases s <;> decide +kernel
  | _ => decide +kernel

theorem niho_skip (r : CRule) : nihoTab.skip r = true → (deadE nihoTab binders (cst r)).2 = true := by
  cases r with
  | word s => cases s <;> decide +kernel
  | _ => decide +kernel

theorem niho_fail (r : CRule) : nihoTab.fail r = true → (simE nihoTab containers binders (· == .Niho) (cst r)).2 = true := by
  cases r with
  | word s => cases s <;> decide +kernel
  | _ => decide +kernel

theorem niho_sim (r : CRule) : nihoTab.sim r = true → (simE nihoTab containers binders (· == .Niho) (cst r)).1 = true := by
  cases r with
  | word s => cases s <;> decide +kernel
  | _ => decide +kernel

/-- The ending that begins with `ni'o`. -/
def nihoEnding (stop : Token) (post : List Token) (hs : stop.selmaho = .Niho) (hp : HeadFree binders post) : Ending where
  ts := containers
  stops := (· == .Niho)
  stop := stop
  stop_stops := by simp [hs]
  post := post
  stop_free := by rw [hs]; decide
  hs := binders
  hs_sub := by decide
  post_free := hp

theorem nihoCert {stop : Token} {post : List Token} (hs : stop.selmaho = .Niho) (hp : HeadFree binders post) :
    EndCert cst (nihoEnding stop post hs hp) nihoTab :=
  ⟨niho_one, niho_dead, niho_skip, niho_fail, niho_sim⟩

/-- What simulation means for what is given. -/
theorem simu_gives {E : Ending} {r : CRule} (h : Simu E (runCst r)) {l : List Token} (hl : E.Free l) :
    (Peg cst (.call r) l .error ↔ Peg cst (.call r) (l ++ E.tail) .error) ∧
    (∀ q, Gives (.call r) l q → Gives (.call r) (l ++ E.tail) (q ++ E.tail)) ∧
    (∀ q, Gives (.call r) (l ++ E.tail) q → ∃ q', q = q' ++ E.tail ∧ Gives (.call r) l q') := by
  obtain ⟨a, ha⟩ := runCst_ends r ⟨0, l⟩
  obtain ⟨b, hb⟩ := runCst_ends r ⟨0, l ++ E.tail⟩
  have ht := h 0 l a b hl ha hb
  have ma := runCst_means r ⟨0, l⟩
  have mb := runCst_means r ⟨0, l ++ E.tail⟩
  rw [ha] at ma
  rw [hb] at mb
  simp only [Exec.All] at ma mb
  refine ⟨⟨fun h => ?_, fun h => ?_⟩, ?_, ?_⟩
  · have := ma.unique _ h
    cases a <;> cases b <;> simp only [Twin, CRes.outcome] at * <;> first | exact mb | cases this | exact ht.elim
  · have := mb.unique _ h
    cases a <;> cases b <;> simp only [Twin, CRes.outcome] at * <;> first | exact ma | cases this | exact ht.elim
  · rintro q ⟨vs, h⟩
    have := ma.unique _ h
    cases a <;> cases b <;> simp only [Twin, CRes.outcome] at * <;> first | cases this | exact ht.elim
    obtain ⟨_, rfl, _⟩ := ht
    exact ⟨_, mb⟩
  · rintro q ⟨vs, h⟩
    have := mb.unique _ h
    cases a <;> cases b <;> simp only [Twin, CRes.outcome] at * <;> first | cases this | exact ht.elim
    obtain ⟨_, rfl, _⟩ := ht
    exact ⟨_, rfl, _, ma⟩

theorem gives_text {l : List Token} : Gives (.call .Text) l [] ↔ ∃ i, Gives (.opt (.call .Indicators)) l i ∧ Rest i := by
  have he : cst .Text = .wrap (.node .Text) (.seq (.opt (.call .Indicators)) (.seq (.call .Frees) (.seq (.opt (.call .ParagraphSeparator))
    (.seq (.opt (.call .Paragraphs)) (.opt (.call (.word .Faho))))))) := rfl
  rw [gives_call, he, gives_wrap]
  constructor
  · intro h
    obtain ⟨i, h1, h⟩ := gives_seq.mp h
    obtain ⟨a, h2, h⟩ := gives_seq.mp h
    obtain ⟨b, h3, h⟩ := gives_seq.mp h
    obtain ⟨c, h4, h⟩ := gives_seq.mp h
    refine ⟨i, h1, a, b, c, h2, h3, ?_, h⟩
    rcases gives_opt.mp h4 with h4 | ⟨h4, _⟩
    · exact h4
    · exact absurd rfl (peg_never rfl h4)
  · rintro ⟨i, h1, a, b, c, h2, h3, h4, h5⟩
    exact gives_seq.mpr ⟨i, h1, gives_seq.mpr ⟨a, h2, gives_seq.mpr ⟨b, h3, gives_seq.mpr ⟨c, gives_opt.mpr (.inl h4), h5⟩⟩⟩⟩

theorem headFree_loose {l : List Token} (h : HeadFree binders l) : Loose l := by
  have key : ∀ bs t q, l = bs ++ t :: q → (∀ b ∈ bs, b.selmaho = Selmaho.Bahe) → t.selmaho ≠ .Bahe → t.selmaho ∉ binders := by
    rintro bs t q rfl hb ht
    refine h t ?_
    induction bs with
    | nil => simp [ht]
    | cons b bs ih =>
      have h1 := hb b (by simp)
      have h2 : Sneturfahi.HeadFree binders (bs ++ t :: q) := by
        intro t' ht'
        refine h t' ?_
        simpa [List.dropWhile_cons, h1] using ht'
      have := ih h2 (fun b hb' => hb b (by simp [hb']))
      simpa [List.dropWhile_cons, h1] using this
  constructor
  · refine bu_error ?_
    rintro t q rfl hbu
    exact key [] t q rfl nofun (by rw [hbu]; decide) (by rw [hbu]; decide)
  · refine word_error (.inr rfl) ?_
    rintro ⟨bs, t, q, h1, h2, h3⟩
    exact key bs t q h1 h2 (by rw [h3]; decide) (by rw [h3]; decide)

/-- `w` words of selma'o `x` do not begin something that has none, unless it ends with `ba'e`. -/
theorem no_word {x : Selmaho} (hk : wordKind x = .single) {l tail : List Token} (hne : l ≠ [])
    (hl : ∀ t ∈ l, t.selmaho ≠ x) (hlast : ∀ t, l.getLast? = some t → t.selmaho ≠ .Bahe) :
    Peg cst (.call (.word x)) (l ++ tail) .error := by
  refine word_error (.inl hk) ?_
  rintro ⟨bs, t, q, he, hb, ht⟩
  rcases List.append_eq_append_iff.mp he with ⟨as, h1, h2⟩ | ⟨as, h1, h2⟩
  · have : ∃ y, l.getLast? = some y := by
      cases h : l.getLast? with
      | none => exact absurd (List.getLast?_eq_none_iff.mp h) hne
      | some y => exact ⟨y, rfl⟩
    obtain ⟨y, hy⟩ := this
    exact hlast y hy (hb y (by rw [h1]; exact List.mem_append_left _ (List.mem_of_getLast? hy)))
  · cases as with
    | nil =>
      simp only [List.append_nil] at h1
      subst h1
      have : ∃ y, l.getLast? = some y := by
        cases h : l.getLast? with
        | none => exact absurd (List.getLast?_eq_none_iff.mp h) hne
        | some y => exact ⟨y, rfl⟩
      obtain ⟨y, hy⟩ := this
      exact hlast y hy (hb y (List.mem_of_getLast? hy))
    | cons a as =>
      simp only [List.cons_append, List.cons.injEq] at h2
      obtain ⟨rfl, _⟩ := h2
      exact hl t (by rw [h1]; simp) ht

/-- The end of a list that does not end with `ba'e`. -/
theorem last_suffix {w l : List Token} (h : ∀ t, (w ++ l).getLast? = some t → t.selmaho ≠ .Bahe) :
    ∀ t, l.getLast? = some t → t.selmaho ≠ .Bahe := by
  intro t ht
  refine h t ?_
  rw [List.getLast?_append, ht]
  rfl

/-- **The text `A ni'o B`.** -/
theorem join_niho {A B : List Token} {n : Token} (hn : n.selmaho = .Niho)
    (hA : ∀ t ∈ A, t.selmaho ∉ [Selmaho.Zo, .Zoi, .Lohu, .Zei, .Bu, .To, .Lu, .Tuhe, .Niho, .Faho])
    (hlast : ∀ t, A.getLast? = some t → t.selmaho ≠ .Bahe) (hB : HeadFree binders B) :
    Gives (.call .Text) (A ++ n :: B) [] ↔ Gives (.call .Text) A [] ∧ Gives (.call .Text) B [] := by
  let E := nihoEnding n B hn hB
  have hT : E.tail = n :: B := rfl
  have hsim : ∀ r, (simE nihoTab containers binders (· == .Niho) (.call r)).1 = true → Simu E (runCst r) := fun r hr =>
    runCst_simu (E := E) (nihoCert hn hB) (.call r) hr
  have hi := hsim .Indicators (by decide +kernel)
  have hf := hsim .Frees (by decide +kernel)
  have hp := hsim .Paragraph (by decide +kernel)
  have hfree : ∀ w l, A = w ++ l → E.Free l := by
    rintro w l rfl t ht hc
    refine hA t (by simp [ht]) ?_
    have : ∀ s ∈ containers, s ∈ [Selmaho.Zo, .Zoi, .Lohu, .Zei, .Bu, .To, .Lu, .Tuhe, .Niho, .Faho] := by decide
    exact this _ hc
  -- no `ni'o` and no `fa'o` in what is left of `A`
  have hno : ∀ w l tail, A = w ++ l → l ≠ [] → Peg cst (.call (.word .Niho)) (l ++ tail) .error ∧
      Peg cst (.call (.word .Faho)) (l ++ tail) .error := by
    rintro w l tail rfl hne
    exact ⟨no_word rfl hne (fun t ht hc => hA t (by simp [ht]) (by simp [hc])) (last_suffix hlast),
      no_word rfl hne (fun t ht hc => hA t (by simp [ht]) (by simp [hc])) (last_suffix hlast)⟩
  have hnil : Peg cst (.call (.word .Niho)) [] .error ∧ Peg cst (.call (.word .Faho)) [] .error := by
    constructor <;> exact word_error (.inl rfl) (by rintro ⟨bs, t, q, h, _⟩; simp at h)
  have hno' : ∀ w l, A = w ++ l → Peg cst (.call (.word .Niho)) l .error ∧ Peg cst (.call (.word .Faho)) l .error := by
    intro w l h
    by_cases hl : l = []
    · subst hl; exact hnil
    · have := hno w l [] h hl
      rwa [List.append_nil] at this
  have hnext : ∀ s, Peg cst (.call (.word .Niho)) s .error → Peg cst nextParagraph s .error := fun s hs =>
    .wrapBad (.seqFirst (separator_error hs) trivial) trivial
  have hparas : ∀ s m, Gives (.call .Paragraph) s m → Peg cst (.call (.word .Niho)) m .error → Gives (.call .Paragraphs) s m :=
    fun s m h1 h2 => gives_paragraphs.mpr ⟨m, h1, gives_many0.mpr (.inl ⟨hnext m h2, rfl⟩)⟩
  have hparas' : ∀ s m c, Gives (.call .Paragraph) s m → Peg cst (.call (.word .Niho)) m .error → Gives (.call .Paragraphs) s c → c = m :=
    fun s m c h1 h2 h3 => h3.unique (hparas s m h1 h2)
  -- the separator takes the indicators of `B`
  obtain ⟨b, hb⟩ := indicators_total B
  have hword : Gives (.call (.word .Niho)) (n :: B) b := single_here rfl (by decide) hn (headFree_loose hB) hb
  have hBtext : Gives (.call .Text) B [] ↔ After b := by
    rw [gives_text, after_iff_rest]
    constructor
    · rintro ⟨i, h1, h2⟩
      rwa [h1.unique hb] at h2
    · exact fun h => ⟨b, hb, h⟩
  -- what comes after the part of `A`
  have hsep : ∀ c, Gives (.call .ParagraphSeparator) (n :: B) c ↔
      ∃ a, Gives (.many0 (.call (.word .Niho))) b a ∧ Gives (.call .Frees) a c := by
    intro c
    rw [gives_separator]
    constructor
    · rintro ⟨m, k, h1, h2, h3⟩
      rw [h1.unique hword] at h2
      exact ⟨k, h2, h3⟩
    · rintro ⟨a, h1, h2⟩
      exact ⟨b, a, hword, h1, h2⟩
  have hnosep : ¬ Peg cst (.call .ParagraphSeparator) (n :: B) .error := by
    rcases separator_cases (n :: B) with h | ⟨_, h⟩
    · exact (hword.not_error h).elim
    · exact h
  have hafter : ∀ c, Gives (.many0 nextParagraph) (n :: B) c → Closes c → After b := by
    intro c h1 h2
    rcases gives_many0.mp h1 with ⟨h3, _⟩ | ⟨m, h3, _, h4⟩
    · exfalso
      cases h3 with
      | wrapBad h6 _ =>
        cases h6 with
        | seqFirst h6 _ => exact hnosep h6
        | seqSecond _ h6 _ => exact peg_never rfl h6 rfl
    · obtain ⟨d, h5, h6⟩ := gives_next.mp h3
      obtain ⟨a, h7, h8⟩ := (hsep d).mp h5
      exact ⟨a, d, c, h7, h8, gives_paragraphs.mpr ⟨m, h6, h4⟩, h2⟩
  have hafter' : After b → ∃ d c, Gives (.call .ParagraphSeparator) (n :: B) d ∧ Gives (.call .Paragraphs) d c ∧ Closes c := by
    rintro ⟨a, d, c, h1, h2, h3, h4⟩
    exact ⟨d, c, (hsep d).mpr ⟨a, h1, h2⟩, h3, h4⟩
  rw [hBtext]
  constructor
  · intro h
    obtain ⟨i, h1, a, s, c, h2, h3, h4, h5⟩ := gives_text.mp h
    -- the indicators
    have : ∃ i', i = i' ++ E.tail ∧ Gives (.opt (.call .Indicators)) A i' := by
      rw [← hT] at h1
      have hs := simu_gives hi (hfree [] A rfl)
      rcases gives_opt.mp h1 with h1' | ⟨h1', rfl⟩
      · obtain ⟨i', h6, h7⟩ := hs.2.2 _ h1'
        exact ⟨i', h6, gives_opt.mpr (.inl h7)⟩
      · exact ⟨A, rfl, gives_opt.mpr (.inr ⟨hs.1.mpr h1', rfl⟩)⟩
    obtain ⟨i', rfl, h1'⟩ := this
    obtain ⟨w1, hw1⟩ := gives_suffix h1'
    obtain ⟨a', rfl, h2'⟩ := (simu_gives hf (hfree w1 i' hw1)).2.2 _ h2
    obtain ⟨w2, hw2⟩ := gives_suffix h2'
    have hA2 : A = (w1 ++ w2) ++ a' := by rw [hw1, hw2, List.append_assoc]
    by_cases ha : a' = []
    · subst ha
      simp only [List.nil_append, hT] at h3
      have hpar : Gives (.call .Paragraph) [] [] := paragraph_before_niho (.inl rfl)
      refine ⟨gives_text.mpr ⟨i', h1', [], [], [], h2', ?_, hparas _ _ hpar hnil.1, ?_⟩, ?_⟩
      · exact gives_opt.mpr (.inr ⟨separator_error hnil.1, rfl⟩)
      · exact gives_opt.mpr (.inr ⟨hnil.2, rfl⟩)
      · rcases gives_opt.mp h3 with h3 | ⟨h3, _⟩
        · obtain ⟨k, h6, h7⟩ := (hsep s).mp h3
          exact ⟨k, s, c, h6, h7, h4, h5⟩
        · exact absurd h3 hnosep
    · have hn1 := hno _ a' E.tail hA2 ha
      have hs : s = a' ++ E.tail := by
        rcases gives_opt.mp h3 with h3 | ⟨_, h3⟩
        · exact (h3.not_error (separator_error hn1.1)).elim
        · exact h3
      subst hs
      obtain ⟨m, h6, h7⟩ := gives_paragraphs.mp h4
      obtain ⟨m', rfl, h6'⟩ := (simu_gives hp (hfree _ a' hA2)).2.2 _ h6
      obtain ⟨w3, hw3⟩ := gives_suffix h6'
      have hA3 : A = (w1 ++ w2 ++ w3) ++ m' := by rw [hA2, hw3]; simp
      by_cases hm : m' = []
      · subst hm
        refine ⟨gives_text.mpr ⟨i', h1', a', a', [], h2', ?_, hparas _ _ h6' hnil.1, ?_⟩, ?_⟩
        · exact gives_opt.mpr (.inr ⟨separator_error (hno' _ a' hA2).1, rfl⟩)
        · exact gives_opt.mpr (.inr ⟨hnil.2, rfl⟩)
        · exact hafter c h7 h5
      · exfalso
        have hn2 := hno _ m' E.tail hA3 hm
        have := hparas' _ _ _ h6 hn2.1 h4
        subst this
        rcases gives_opt.mp h5 with h5 | ⟨_, h5⟩
        · exact h5.not_error hn2.2
        · simp [hT] at h5
  · rintro ⟨h, hb'⟩
    obtain ⟨i, h1, a, s, c, h2, h3, h4, h5⟩ := gives_text.mp h
    obtain ⟨w1, hw1⟩ := gives_suffix h1
    obtain ⟨w2, hw2⟩ := gives_suffix h2
    have hA2 : A = (w1 ++ w2) ++ a := by rw [hw1, hw2, List.append_assoc]
    have hs : s = a := by
      rcases gives_opt.mp h3 with h3 | ⟨_, h3⟩
      · exact (h3.not_error (separator_error (hno' _ a hA2).1)).elim
      · exact h3
    subst hs
    obtain ⟨m, h6, h7⟩ := gives_paragraphs.mp h4
    obtain ⟨w3, hw3⟩ := gives_suffix h6
    have hA3 : A = (w1 ++ w2 ++ w3) ++ m := by rw [hA2, hw3]; simp
    have := hparas' _ _ _ h6 (hno' _ m hA3).1 h4
    subst this
    have hm : c = [] := by
      rcases gives_opt.mp h5 with h5 | ⟨_, h5⟩
      · exact (h5.not_error (hno' _ c hA3).2).elim
      · exact h5.symm
    subst hm
    obtain ⟨d, e, h8, h9, h10⟩ := hafter' hb'
    have h1' : Gives (.opt (.call .Indicators)) (A ++ n :: B) (i ++ n :: B) := by
      rw [← hT]
      have hs := simu_gives hi (hfree [] A rfl)
      rcases gives_opt.mp h1 with h1' | ⟨h1', rfl⟩
      · exact gives_opt.mpr (.inl (hs.2.1 _ h1'))
      · exact gives_opt.mpr (.inr ⟨hs.1.mp h1', rfl⟩)
    have h2' := (simu_gives hf (hfree w1 i hw1)).2.1 _ h2
    rw [hT] at h2'
    by_cases ha : s = []
    · subst ha
      simp only [List.nil_append] at h2'
      exact gives_text.mpr ⟨_, h1', _, d, e, h2', gives_opt.mpr (.inl h8), h9, h10⟩
    · have h6' := (simu_gives hp (hfree _ s hA2)).2.1 _ h6
      rw [hT, List.nil_append] at h6'
      have hn1 := hno _ s (n :: B) hA2 ha
      refine gives_text.mpr ⟨_, h1', _, _, e, h2', gives_opt.mpr (.inr ⟨separator_error hn1.1, rfl⟩), gives_paragraphs.mpr ⟨_, h6', ?_⟩, h10⟩
      obtain ⟨k, h11, h12⟩ := gives_paragraphs.mp h9
      refine gives_many0.mpr (.inr ⟨k, gives_next.mpr ⟨d, h8, h11⟩, ?_, h12⟩)
      have h13 := gives_shorter (r := .ParagraphSeparator) rfl h8
      obtain ⟨w, rfl⟩ := gives_suffix h11
      rw [List.length_append] at h13
      omega

end Sneturfahi
