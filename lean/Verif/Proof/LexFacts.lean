import Verif.Proof.LexInd

/-!
# Facts about `Spec.Lexing`
-/

namespace Sneturfahi.Spec

theorem firstWord_facts {t g w a : List Char} (hsz : byteLen t < u32Size) (h : FirstWord t g w a) :
    noCommas w ≠ [] ∧ spansAt 0 (chunks t) = ⟨byteLen g, byteLen g + byteLen w⟩ :: spansAt (byteLen g + byteLen w) (chunks a) := by
  obtain ⟨h1, m, h2⟩ := id h
  rw [decomposeAll_eq .release ⟨0, t⟩ hsz] at h2
  simp only [Exec.val.injEq] at h2
  rcases aNext_cursor t 0 with ⟨h3, _⟩ | ⟨gap, w', after, more, e1, e2, e3, _, e4⟩
  · rw [h3] at h2; simp at h2
  · obtain ⟨rfl, rfl, rfl⟩ := h.det (firstWord_of hsz e1 e3)
    exact ⟨e2, by rw [e3, e4]⟩

theorem firstWord_length {t g w a : List Char} (hsz : byteLen t < u32Size) (h : FirstWord t g w a) :
    1 ≤ w.length ∧ t.length = g.length + w.length + a.length ∧ byteLen a < u32Size ∧
      byteLen t = byteLen g + byteLen w + byteLen a := by
  have h1 := (firstWord_facts hsz h).1
  have h2 := h.1
  refine ⟨?_, by rw [h2]; simp; omega, by rw [h2] at hsz; simp at hsz; omega, by rw [h2]; simp; omega⟩
  cases w with
  | nil => simp at h1
  | cons => simp

theorem Resumes.eq {t g b : List Char} (h : Resumes t g b) : t = g ++ b := by
  cases h <;> simp

theorem Resumes.first {t g b q a : List Char} (h : Resumes t g b) (hf : FirstPiece b q a) : 1 ≤ g.length ∨ 1 ≤ q.length := by
  rcases h.inv with ⟨k, s, hk, hs, e1, e2, e3⟩ | ⟨p, tail, h1, h2, h3, h4, h5, h6, h7⟩
  · left; rw [e2]; simp
  · right
    have hp := hf.pieces
    rw [h6, h7] at hp
    simp only [List.cons.injEq] at hp
    rw [← hp.1]
    cases p with
    | nil => exact absurd (by simp [OnlyCommas]) h2
    | cons => simp

/-- A closed quote in the text. -/
theorem Closes.eq {d b : List Char} {q : Option (List Char)} {c a : List Char} (h : Closes d b q c a) :
    EndsPiece a ∧ ((q = none ∧ b = c ++ a ∧ FirstPiece b c a) ∨
      ∃ T s, IsSeparator s ∧ q = some T ∧ b = T ++ s :: (c ++ a) ∧ quotedLen q = byteLen (T ++ [s])) := by
  cases h with
  | first hf _ => exact ⟨hf.2.2, Or.inl ⟨rfl, rfl, hf⟩⟩
  | @later T close after s qs h1 h2 h3 h4 h5 =>
    refine ⟨h4.2.2, Or.inr ⟨T, s, h3, rfl, rfl, ?_⟩⟩
    simp [quotedLen, isSep_size ((isSep_iff s).mpr h3)]

theorem Closes.byteLen {d b : List Char} {q : Option (List Char)} {c a : List Char} (h : Closes d b q c a) :
    Sneturfahi.byteLen b = quotedLen q + Sneturfahi.byteLen c + Sneturfahi.byteLen a := by
  rcases h.eq.2 with ⟨rfl, rfl, _⟩ | ⟨T, s, _, rfl, rfl, hl⟩
  · simp [quotedLen]
  · rw [hl]; simp; omega

/-- The pieces after the first one. -/
theorem quote_length {t g b d : List Char} {q : Option (List Char)} {c a : List Char} (hr : Resumes t g b)
    (hc : Closes d b q c a) (pos : Nat) : (quotedTokens pos q).length + 1 + a.length ≤ t.length := by
  rw [hr.eq]
  rcases hc.eq.2 with ⟨rfl, rfl, hf⟩ | ⟨T, s, hs, rfl, rfl, _⟩
  · have := hr.first hf
    simp [quotedTokens]; omega
  · have hT : 1 ≤ g.length ∨ 1 ≤ T.length := by
      rcases hr.inv with ⟨k, s, hk, hs, e1, e2, e3⟩ | ⟨p, tail, h1, h2, h3, h4, h5, h6, h7⟩
      · left; rw [e2]; simp
      · right
        subst h5
        cases T with
        | cons => simp
        | nil =>
          rw [← h6] at h7
          rw [List.nil_append, chunks, if_pos ((isSep_iff s).mpr hs)] at h7
          simp only [List.cons.injEq] at h7
          exact absurd (by simp [OnlyCommas]) (h7.1 ▸ h2)
    simp [quotedTokens]; omega

theorem lexing_length : ∀ {pos t items}, Lexing pos t items → byteLen t < u32Size → items.length ≤ t.length + 1 := by
  have := lexing_induction (P := fun _ t items => byteLen t < u32Size → items.length ≤ t.length + 1)
    (Q := fun _ isFirst _ _ _ t items => byteLen t < u32Size → items.length ≤ t.length + 1 + isFirst.toNat)
    (by intros; simp)
    (by
      intro pos text gap w after s x items f _ _ _ _ _ ih hsz
      obtain ⟨h1, h2, h3, _⟩ := firstWord_length hsz f
      have := ih h3
      simp; omega)
    (by intro pos text gap w after s x f _ _ hsz; simp)
    (by
      intro pos text gap w after s x f _ _ _ hsz
      obtain ⟨h1, h2, h3, _⟩ := firstWord_length hsz f
      simp; omega)
    (by
      intro pos text gap w after g body q after' s x items f _ _ r fp _ ih hsz
      obtain ⟨h1, h2, h3, _⟩ := firstWord_length hsz f
      have e1 := r.eq
      have e2 := fp.1
      have e3 := r.first fp
      subst e1 e2
      have := ih (by simp at h3; omega)
      simp at h2 ⊢; omega)
    (by intro pos text gap w after s x f _ _ _ hsz; simp)
    (by
      intro pos text gap w after g d after' s x items f _ _ fd _ ih hsz
      obtain ⟨h1, h2, h3, _⟩ := firstWord_length hsz f
      obtain ⟨h4, h5, h6, _⟩ := firstWord_length h3 fd
      have := ih h6
      simp at this ⊢; omega)
    (by intros; simp; omega)
    (by intros; simp; omega)
    (by
      intro ini isFirst dpos d after g body close after' quoted items r c _ ih hsz
      have h1 := quote_length r c (dpos + byteLen d + byteLen g)
      have h2 := c.byteLen
      have h3 := congrArg byteLen r.eq
      simp at h3
      have := ih (by omega)
      cases isFirst <;> simp <;> omega)
    (by
      intro ini isFirst n dpos d after g body close after' quoted items r c _ ih hsz
      have h1 := quote_length r c (dpos + byteLen d + byteLen g)
      have h2 := c.byteLen
      have h3 := congrArg byteLen r.eq
      simp at h3
      have := ih (by omega)
      simp at this
      cases isFirst <;> simp <;> omega)
  intro pos t items h; exact this.1 h

/-- Nothing comes after an error. -/
def ErrorLast (items : List LexItem) : Prop := ∀ pre e post, items = pre ++ .error e :: post → post = []

theorem errorLast_append : ∀ (a : List LexItem) (items : List LexItem), (∀ x ∈ a, ∃ t, x = .ok t) →
    ErrorLast items → ErrorLast (a ++ items) := by
  intro a
  induction a with
  | nil => intro items _ h; simpa using h
  | cons x a ih =>
    intro items ha h pre e post he
    cases pre with
    | nil =>
      simp at he
      obtain ⟨t, rfl⟩ := ha x (by simp)
      exact absurd he.1 (by simp)
    | cons y pre =>
      simp at he
      exact ih items (fun z hz => ha z (by simp [hz])) h pre e post he.2

/-- The tokens of a closed quote. -/
def closedTokens (isFirst : Bool) (dpos : Nat) (d : List Char) (tpos : Nat) (quoted : Option (List Char)) (close : List Char) :
    List LexItem :=
  (if isFirst then [delimiterToken dpos d] else []) ++ quotedTokens tpos quoted ++
    [delimiterToken (tpos + quotedLen quoted) close]

theorem closedTokens_eq (isFirst : Bool) (dpos : Nat) (d : List Char) (tpos : Nat) (quoted : Option (List Char))
    (close : List Char) (items : List LexItem) :
    (if isFirst then [delimiterToken dpos d] else []) ++ quotedTokens tpos quoted ++
      delimiterToken (tpos + quotedLen quoted) close :: items =
    closedTokens isFirst dpos d tpos quoted close ++ items := by
  simp [closedTokens]

/-- A token inside a delimited or pause-delimited quote. -/
def QuoteToken (t : Token) : Prop := t.experimental = false ∧ (t.selmaho = .ZoiDelimiter ∨ t.selmaho = .AnyText)

theorem closedTokens_ok {isFirst : Bool} {dpos : Nat} {d : List Char} {tpos : Nat} {quoted : Option (List Char)}
    {close : List Char} : ∀ x ∈ closedTokens isFirst dpos d tpos quoted close, ∃ t, x = .ok t ∧ QuoteToken t := by
  intro x hx
  simp only [closedTokens, List.mem_append, List.mem_singleton] at hx
  rcases hx with (hx | hx) | rfl
  · cases isFirst <;> simp at hx
    exact ⟨_, hx, rfl, Or.inl rfl⟩
  · cases quoted with
    | none => simp [quotedTokens] at hx
    | some q => simp [quotedTokens] at hx; exact ⟨_, hx, rfl, Or.inr rfl⟩
  · exact ⟨_, rfl, rfl, Or.inl rfl⟩

theorem errorLast_nil : ErrorLast [] := by intro pre e post h; simp at h

theorem errorLast_single (x : LexError) : ErrorLast [.error x] := by
  intro pre e post h
  cases pre with
  | nil => simp at h; exact h.2
  | cons y pre => simp at h

theorem lexing_error_last : ∀ {pos t items}, Lexing pos t items → ErrorLast items := by
  have := lexing_induction (P := fun _ _ items => ErrorLast items) (Q := fun _ _ _ _ _ _ items => ErrorLast items)
    (by intros; exact errorLast_nil)
    (by intro pos text gap w after s x items _ _ _ _ _ _ ih; exact errorLast_append [_] items (by simp) ih)
    (by intro pos text gap w after s x _ _ _; exact errorLast_append [_] [] (by simp) errorLast_nil)
    (by intro pos text gap w after s x _ _ _ _; exact errorLast_append [_] [_] (by simp) (errorLast_single _))
    (by
      intro pos text gap w after g body q after' s x items _ _ _ _ _ _ ih
      exact errorLast_append [_, _] items (by simp) ih)
    (by intros; exact errorLast_single _)
    (by intro pos text gap w after g d after' s x items _ _ _ _ _ ih; exact errorLast_append [_] items (by simp) ih)
    (by intros; exact errorLast_single _)
    (by intros; exact errorLast_single _)
    (by
      intro ini isFirst dpos d after g body close after' quoted items _ _ _ ih
      rw [closedTokens_eq]
      exact errorLast_append _ _ (fun x hx => (closedTokens_ok x hx).imp fun _ h => h.1) ih)
    (by
      intro ini isFirst n dpos d after g body close after' quoted items _ _ _ ih
      rw [closedTokens_eq]
      exact errorLast_append _ _ (fun x hx => (closedTokens_ok x hx).imp fun _ h => h.1) ih)
  intro pos t items h; exact this.1 h

/-! ### Spans -/

/-- The tokens among the items. -/
def itemTokens : List LexItem → List Token
  | [] => []
  | .ok t :: items => t :: itemTokens items
  | .error _ :: items => itemTokens items

theorem itemTokens_append (a b : List LexItem) : itemTokens (a ++ b) = itemTokens a ++ itemTokens b := by
  induction a with
  | nil => rfl
  | cons x a ih => cases x <;> simp [itemTokens, ih]

theorem mem_itemTokens {t : Token} {items : List LexItem} : t ∈ itemTokens items ↔ .ok t ∈ items := by
  induction items with
  | nil => simp [itemTokens]
  | cons x items ih => cases x <;> simp [itemTokens, ih]

/-- The span covers part of `text`, which starts at byte `pos`. -/
def SpanIn (pos : Nat) (text : List Char) (sp : Span) : Prop :=
  ∃ pre w post, text = pre ++ w ++ post ∧ sp = spanAt (pos + byteLen pre) w

theorem SpanIn.suffix {pos : Nat} {a b : List Char} {sp : Span} (h : SpanIn (pos + byteLen a) b sp) : SpanIn pos (a ++ b) sp := by
  obtain ⟨pre, w, post, rfl, rfl⟩ := h
  exact ⟨a ++ pre, w, post, by simp, by simp [Nat.add_assoc]⟩

theorem SpanIn.mid (pos : Nat) (a b c : List Char) : SpanIn pos (a ++ b ++ c) (spanAt (pos + byteLen a) b) :=
  ⟨a, b, c, rfl, rfl⟩

/-- All spans are in the text and in order, from byte `pos` on. -/
def GoodSpans (pos : Nat) (text : List Char) (sps : List Span) : Prop :=
  (∀ sp ∈ sps, SpanIn pos text sp) ∧ Ordered pos (pos + byteLen text) sps

theorem goodSpans_nil (pos : Nat) (text : List Char) : GoodSpans pos text [] := ⟨by simp, by simp [Ordered]⟩

theorem GoodSpans.suffix {pos : Nat} {a b : List Char} {sps : List Span} (h : GoodSpans (pos + byteLen a) b sps) :
    GoodSpans pos (a ++ b) sps :=
  ⟨fun sp hsp => (h.1 sp hsp).suffix, h.2.mono (by omega) (by simp [Nat.add_assoc])⟩

theorem GoodSpans.cons {pos : Nat} {a w b : List Char} {sps : List Span}
    (h : GoodSpans (pos + byteLen a + byteLen w) b sps) : GoodSpans pos (a ++ w ++ b) (spanAt (pos + byteLen a) w :: sps) := by
  have h' : GoodSpans (pos + byteLen (a ++ w)) b sps := by simpa [Nat.add_assoc] using h
  have h2 := h'.suffix
  refine ⟨?_, by simp [spanAt], by simp [spanAt], ?_⟩
  · intro sp hsp
    simp at hsp
    rcases hsp with rfl | hsp
    · exact SpanIn.mid ..
    · exact h2.1 sp hsp
  · have := h.2
    simp only [spanAt]
    refine this.mono (Nat.le_refl _) (by simp; omega)

/-- The spans of the tokens of a closed quote. -/
theorem goodSpans_closed {after g body d close after' : List Char} {quoted : Option (List Char)} {dpos : Nat} {sps : List Span}
    (r : Resumes after g body) (c : Closes d body quoted close after')
    (h : GoodSpans (dpos + byteLen d + byteLen g + quotedLen quoted + byteLen close) after' sps) (isFirst : Bool) :
    GoodSpans (if isFirst then dpos else dpos + byteLen d) (if isFirst then d ++ after else after)
      ((itemTokens (closedTokens isFirst dpos d (dpos + byteLen d + byteLen g) quoted close)).map Token.span ++ sps) := by
  have key : GoodSpans (dpos + byteLen d) after
      ((itemTokens (quotedTokens (dpos + byteLen d + byteLen g) quoted ++
        [delimiterToken (dpos + byteLen d + byteLen g + quotedLen quoted) close])).map Token.span ++ sps) := by
    rw [r.eq]
    apply GoodSpans.suffix
    rcases c.eq.2 with ⟨rfl, rfl, _⟩ | ⟨T, s, hs, rfl, rfl, hl⟩
    · have := GoodSpans.cons (a := []) h
      simpa [quotedTokens, itemTokens, delimiterToken, quotedLen] using this
    · have h1 := GoodSpans.cons (pos := dpos + byteLen d + byteLen g + byteLen T) (a := [s]) (w := close) (b := after') (sps := sps)
        (by
          have hs1 : byteLen [s] = 1 := by simp [isSep_size ((isSep_iff s).mpr hs)]
          rw [hs1]
          simpa [quotedLen, ← Nat.add_assoc] using h)
      have h2 := GoodSpans.cons (pos := dpos + byteLen d + byteLen g) (a := []) (w := T)
        (by simpa using h1)
      rw [isSep_size ((isSep_iff s).mpr hs)] at h2
      simpa [quotedTokens, itemTokens, delimiterToken, quotedLen, ← Nat.add_assoc] using h2
  cases isFirst with
  | false => simpa [closedTokens] using key
  | true =>
    have := GoodSpans.cons (pos := dpos) (a := []) (w := d) (by simpa using key)
    simpa [closedTokens, itemTokens, delimiterToken, itemTokens_append] using this

theorem lexing_spans : ∀ {pos t items}, Lexing pos t items → GoodSpans pos t ((itemTokens items).map Token.span) := by
  have := lexing_induction (P := fun pos t items => GoodSpans pos t ((itemTokens items).map Token.span))
    (Q := fun _ isFirst _ dpos d after items =>
      GoodSpans (if isFirst then dpos else dpos + byteLen d) (if isFirst then d ++ after else after)
        ((itemTokens items).map Token.span))
    (by intro pos text _; exact goodSpans_nil ..)
    (by
      intro pos text gap w after s x items f _ _ _ _ _ ih
      rw [f.1]; exact ih.cons)
    (by
      intro pos text gap w after s x f _ _
      rw [f.1]; exact (goodSpans_nil ..).cons)
    (by
      intro pos text gap w after s x f _ _ _
      rw [f.1]; exact (goodSpans_nil ..).cons)
    (by
      intro pos text gap w after g body q after' s x items f _ _ r fp _ ih
      rw [f.1]
      apply GoodSpans.cons
      rw [r.eq, fp.1, ← List.append_assoc]
      exact ih.cons)
    (by intro pos text gap w after s x f _ _ _; exact goodSpans_nil ..)
    (by
      intro pos text gap w after g d after' s x items f _ _ fd _ ih
      rw [f.1]
      apply GoodSpans.cons
      rw [fd.1, List.append_assoc]
      apply GoodSpans.suffix
      simpa using ih)
    (by intros; exact goodSpans_nil ..)
    (by intros; exact goodSpans_nil ..)
    (by
      intro ini isFirst dpos d after g body close after' quoted items r c _ ih
      rw [closedTokens_eq, itemTokens_append, List.map_append]
      exact goodSpans_closed r c ih isFirst)
    (by
      intro ini isFirst n dpos d after g body close after' quoted items r c _ ih
      rw [closedTokens_eq, itemTokens_append, List.map_append]
      exact goodSpans_closed r c (by simpa using ih) isFirst)
  intro pos t items h; exact this.1 h

/-! ### Where a token comes from -/

theorem locate_append {a items pre post : List LexItem} {tok : Token} {R : Token → List LexItem → Prop}
    (ha : ∀ x ∈ a, ∃ t, x = .ok t ∧ QuoteToken t)
    (h : ∀ pre tok post, items = pre ++ .ok tok :: post → R tok post ∨ QuoteToken tok)
    (he : a ++ items = pre ++ .ok tok :: post) : R tok post ∨ QuoteToken tok := by
  induction a generalizing pre with
  | nil => exact h pre tok post he
  | cons x a ih =>
    cases pre with
    | nil =>
      simp at he
      obtain ⟨t, rfl, ht⟩ := ha x (by simp)
      simp at he
      rw [← he.1]
      exact Or.inr ht
    | cons y pre =>
      simp at he
      exact ih (fun z hz => ha z (by simp [hz])) he.2

/-- The item sequence from `tok` on belongs to the part `text'` of the text. -/
def Located (pos : Nat) (t : List Char) (tok : Token) (post : List LexItem) : Prop :=
  ∃ before t', t = before ++ t' ∧ Lexing (pos + byteLen before) t' (.ok tok :: post)

theorem Located.suffix {pos : Nat} {a b : List Char} {tok : Token} {post : List LexItem}
    (h : Located (pos + byteLen a) b tok post) : Located pos (a ++ b) tok post := by
  obtain ⟨before, t', rfl, h⟩ := h
  exact ⟨a ++ before, t', by simp, by simpa [Nat.add_assoc] using h⟩

/-- Every token that is not part of a quote is found where lexing starts anew. -/
theorem lexing_locate : ∀ {pos t items}, Lexing pos t items → ∀ pre tok post, items = pre ++ .ok tok :: post →
    Located pos t tok post ∨ QuoteToken tok := by
  have hclosed : ∀ {after g body d close after' : List Char} {quoted : Option (List Char)} {dpos : Nat} {isFirst : Bool}
      {items : List LexItem}, Resumes after g body → Closes d body quoted close after' →
      (∀ pre tok post, items = pre ++ .ok tok :: post →
        Located (dpos + byteLen d + byteLen g + quotedLen quoted + byteLen close) after' tok post ∨ QuoteToken tok) →
      ∀ pre tok post, closedTokens isFirst dpos d (dpos + byteLen d + byteLen g) quoted close ++ items = pre ++ .ok tok :: post →
        Located (dpos + byteLen d) after tok post ∨ QuoteToken tok := by
    intro after g body d close after' quoted dpos isFirst items r c ih pre tok post he
    refine locate_append closedTokens_ok ?_ he
    intro pre tok post he
    refine (ih pre tok post he).imp_left ?_
    intro hl
    rw [r.eq]
    apply Located.suffix
    rcases c.eq.2 with ⟨rfl, rfl, _⟩ | ⟨T, s, hs, rfl, rfl, hlen⟩
    · apply Located.suffix
      simpa [quotedLen, Nat.add_assoc] using hl
    · rw [show T ++ s :: (close ++ after') = (T ++ [s] ++ close) ++ after' by simp]
      apply Located.suffix
      rw [hlen] at hl
      simpa [Nat.add_assoc] using hl
  have := lexing_induction
    (P := fun pos t items => Lexing pos t items → ∀ pre tok post, items = pre ++ .ok tok :: post →
      Located pos t tok post ∨ QuoteToken tok)
    (Q := fun _ isFirst _ dpos d after items => ∀ pre tok post, items = pre ++ .ok tok :: post →
      Located (dpos + byteLen d) after tok post ∨ QuoteToken tok)
    (by intro pos text _ _ pre tok post h; simp at h)
    (by
      intro pos text gap w after s x items f _ _ _ _ hl ih hself pre tok post he
      cases pre with
      | nil => simp at he; obtain ⟨rfl, rfl⟩ := he; exact Or.inl ⟨[], text, rfl, hself⟩
      | cons y pre =>
        simp at he
        refine (ih hl pre tok post he.2).imp_left fun h => ?_
        rw [f.1]
        exact Located.suffix (by simpa [Nat.add_assoc] using h))
    (by
      intro pos text gap w after s x f _ _ hself pre tok post he
      cases pre with
      | nil => simp at he; obtain ⟨rfl, rfl⟩ := he; exact Or.inl ⟨[], text, rfl, hself⟩
      | cons y pre => simp at he)
    (by
      intro pos text gap w after s x f _ _ _ hself pre tok post he
      cases pre with
      | nil => simp at he; obtain ⟨rfl, rfl⟩ := he; exact Or.inl ⟨[], text, rfl, hself⟩
      | cons y pre => cases pre with
        | nil => simp at he
        | cons z pre => simp at he)
    (by
      intro pos text gap w after g body q after' s x items f _ _ r fp hl ih hself pre tok post he
      cases pre with
      | nil => simp at he; obtain ⟨rfl, rfl⟩ := he; exact Or.inl ⟨[], text, rfl, hself⟩
      | cons y pre =>
        cases pre with
        | nil => simp at he; obtain ⟨_, rfl, rfl⟩ := he; exact Or.inr ⟨rfl, Or.inr rfl⟩
        | cons z pre =>
          simp at he
          refine (ih hl pre tok post he.2.2).imp_left fun h => ?_
          rw [f.1, r.eq, fp.1, ← List.append_assoc, ← List.append_assoc]
          exact Located.suffix (by simpa [Nat.add_assoc] using h))
    (by
      intro pos text gap w after s x f _ _ _ _ pre tok post he
      cases pre with
      | nil => simp at he
      | cons y pre => simp at he)
    (by
      intro pos text gap w after g d after' s x items f _ _ fd _ ih hself pre tok post he
      cases pre with
      | nil => simp at he; obtain ⟨rfl, rfl⟩ := he; exact Or.inl ⟨[], text, rfl, hself⟩
      | cons y pre =>
        simp at he
        refine (ih pre tok post he.2).imp_left fun h => ?_
        rw [f.1, fd.1, ← List.append_assoc]
        exact Located.suffix (by simpa [Nat.add_assoc] using h))
    (by
      intro ini isFirst n dpos d after _ pre tok post he
      cases pre with
      | nil => simp at he
      | cons y pre => simp at he)
    (by
      intro ini isFirst n dpos d after g body _ _ pre tok post he
      cases pre with
      | nil => simp at he
      | cons y pre => simp at he)
    (by
      intro ini isFirst dpos d after g body close after' quoted items r c hl ih
      rw [closedTokens_eq]
      exact hclosed r c (ih hl))
    (by
      intro ini isFirst n dpos d after g body close after' quoted items r c hl ih
      rw [closedTokens_eq]
      exact hclosed r c ih)
  intro pos t items h; exact this.1 h h

end Sneturfahi.Spec
