import Verif.Proof.CstQuotes

/-!
# What the productions do in front of a separator

Before a word that has no place in a production, the production does not apply or succeeds without reading anything; which
of the two follows from its form.
-/

namespace Sneturfahi

open Spec

/-- What becomes of something: it does not apply; it succeeds reading nothing; one of the two; unknown. -/
inductive Halt where
  | dead
  | null
  | weak
  | unknown
deriving DecidableEq

/-- That is how reading `s` ended. -/
def Halt.Says (s : List Token) : Halt → Outcome → Prop
  | .dead, o => o = .error
  | .null, o => ∃ vs, o = .ok s vs
  | .weak, o => o = .error ∨ ∃ vs, o = .ok s vs
  | .unknown, _ => True

def haltG (tab : CRule → Halt) : Gr → Halt
  | .eps => .null
  | .raw _ => .unknown
  | .any _ => .unknown
  | .call r => tab r
  | .seq a b => match haltG tab a, haltG tab b with
    | .dead, _ => .dead
    | .null, h => h
    | .weak, .dead => .dead
    | .weak, .null => .weak
    | .weak, .weak => .weak
    | _, _ => .unknown
  | .alt a b => match haltG tab a, haltG tab b with
    | .dead, h => h
    | .null, _ => .null
    | .weak, .null => .null
    | .weak, .dead => .weak
    | .weak, .weak => .weak
    | _, _ => .unknown
  | .opt a => match haltG tab a with
    | .unknown => .unknown
    | _ => .null
  | .many0 a => match haltG tab a with
    | .dead => .null
    | .null => .dead
    | .weak => .weak
    | .unknown => .unknown
  | .many1 a => match haltG tab a with
    | .unknown => .unknown
    | _ => .dead
  | .manyTill _ _ => .unknown
  | .not a => match haltG tab a with
    | .dead => .null
    | .null => .dead
    | .weak => .weak
    | .unknown => .unknown
  | .cut a => match haltG tab a with
    | .null => .null
    | _ => .unknown
  | .mustConsume _ a => match haltG tab a with
    | .unknown => .unknown
    | _ => .dead
  | .postCond _ a => match haltG tab a with
    | .dead => .dead
    | .null => .weak
    | .weak => .weak
    | .unknown => .unknown
  | .wrap _ a => haltG tab a

theorem peg_many0_same {g : CRule → Gr} {a : Gr} {s : List Token} {vs : List Val} (h : Peg g a s (.ok s vs)) {o : Outcome}
    (h' : Peg g (.many0 a) s o) : o = .error := by
  cases h' with
  | many0End h1 => cases h.unique _ h1
  | many0More h1 hl _ => cases h.unique _ h1; exact absurd rfl hl
  | many0Failure h1 => cases h.unique _ h1
  | many0Stuck _ _ => rfl
  | many0Later h1 hl _ _ => cases h.unique _ h1; exact absurd rfl hl

/-- The tables are right: `base` are productions about which it is known otherwise. -/
theorem peg_halt {g : CRule → Gr} {D : List Token → Prop} {tab : CRule → Halt} {base : CRule → Bool}
    (hb : ∀ r s o, base r = true → D s → Peg g (g r) s o → (tab r).Says s o)
    (hg : ∀ r, base r = false → tab r = .unknown ∨ haltG tab (g r) = tab r)
    {e : Gr} {s : List Token} {o : Outcome} (h : Peg g e s o) : D s → (haltG tab e).Says s o := by
  induction h with
  | @call r s o hp ih =>
    intro hd
    cases hr : base r with
    | true => exact hb r s o hr hd hp
    | false =>
      rcases hg r hr with h | h
      · simp [haltG, h, Halt.Says]
      · simp only [haltG]
        rw [← h]
        exact ih hd
  | many0More h1 hl h2 ih1 ih2 =>
    intro hd
    have := ih1 hd
    simp only [haltG]
    revert this
    cases haltG tab _ <;> simp only [Halt.Says] <;> grind
  | many1 h1 h2 ih1 ih2 =>
    intro hd
    have := ih1 hd
    simp only [haltG]
    revert this
    cases haltG tab _ <;> simp only [Halt.Says] <;> intro hh
    · grind
    · obtain ⟨vs, hh⟩ := hh; cases hh; have := peg_many0_same h1 h2; cases this
    · rcases hh with hh | ⟨vs, hh⟩ <;> cases hh; have := peg_many0_same h1 h2; cases this
    · trivial
  | many1Later h1 h2 hbad ih1 ih2 =>
    intro hd
    have := ih1 hd
    simp only [haltG]
    revert this
    cases haltG tab _ <;> simp only [Halt.Says] <;> intro hh
    · grind
    · obtain ⟨vs, hh⟩ := hh; cases hh; exact peg_many0_same h1 h2
    · rcases hh with hh | ⟨vs, hh⟩ <;> cases hh; exact peg_many0_same h1 h2
    · trivial
  | @seq a b _ _ _ _ _ _ _ ih1 ih2 | @seqFirst a b _ _ _ _ ih1 | @seqSecond a b _ _ _ _ _ _ _ ih1 ih2 =>
    intro hd
    have h1 := ih1 hd
    cases ha : haltG tab a <;> cases hb : haltG tab b <;> simp only [haltG, ha, hb, Halt.Says] at * <;> grind [Outcome.Bad]
  | @altFirst a b _ _ _ _ ih1 | @altSecond a b _ _ _ _ ih1 ih2 =>
    intro hd
    have h1 := ih1 hd
    cases ha : haltG tab a <;> cases hb : haltG tab b <;> simp only [haltG, ha, hb, Halt.Says] at * <;> grind [Outcome.Bad]
  | eps => intro _; exact ⟨[], rfl⟩
  | raw | rawOther | rawEnd | any | anyEnd | tillEnd | tillMore | tillFailure | tillItem | tillStuck | tillLater => intro _; trivial
  | @wrap sh a _ _ _ _ ih | @wrapBad sh a _ _ _ _ ih =>
    intro hd
    have h1 := ih hd
    cases ha : haltG tab a <;> simp only [haltG, ha, Halt.Says] at * <;> grind [Outcome.Bad]
  | @optPresent a _ _ _ _ ih | @optAbsent a _ _ ih | @optFailure a _ _ ih | @many0End a _ _ ih | @many0Failure a _ _ ih
  | @many0Stuck a _ _ _ _ _ ih | @many0Later a _ _ _ _ _ _ _ _ ih _ | @many1First a _ _ _ _ ih | @not a _ _ ih
  | @notThere a _ _ _ _ ih | @notFailure a _ _ ih | @cut a _ _ _ _ ih | @cutError a _ _ ih | @must _ a _ _ _ _ _ ih
  | @mustEmpty _ a _ _ _ _ _ ih | @mustBad _ a _ _ _ _ ih | @post _ a _ _ _ _ _ ih | @postViolated _ a _ _ _ _ _ ih
  | @postBad _ a _ _ _ _ ih =>
    intro hd
    have h1 := ih hd
    cases ha : haltG tab a <;> simp only [haltG, ha, Halt.Says] at * <;> grind [Outcome.Bad]

/-! ### Before a word of certain selma'o -/

/-- Neither `bu` nor `zei` follows. -/
def Loose (l : List Token) : Prop := Peg cst (.call (.word .Bu)) l .error ∧ Peg cst (.call (.word .Zei)) l .error

/-- Nothing is left, or a word of one of the selma'o `xs` follows (with any `ba'e`) that no `bu` or `zei` takes. -/
def Before (xs : List Selmaho) (l : List Token) : Prop :=
  l = [] ∨ ∃ bs t q, l = bs ++ t :: q ∧ (∀ b ∈ bs, b.selmaho = Selmaho.Bahe) ∧ t.selmaho ∈ xs ∧ Loose q

/-- `xs` are words proper. -/
def Proper (xs : List Selmaho) : Prop := Selmaho.Bahe ∉ xs ∧ Selmaho.Bu ∉ xs ∧ Selmaho.Zei ∉ xs

/-- The first word after `ba'e`s is the same however one finds it. -/
theorem bahe_split {bs bs' q q' : List Token} {t t' : Token} (h : bs ++ t :: q = bs' ++ t' :: q')
    (hb : ∀ b ∈ bs, b.selmaho = Selmaho.Bahe) (hb' : ∀ b ∈ bs', b.selmaho = Selmaho.Bahe) (ht : t.selmaho ≠ .Bahe)
    (ht' : t'.selmaho ≠ .Bahe) : bs = bs' ∧ t = t' ∧ q = q' := by
  induction bs generalizing bs' with
  | nil =>
    cases bs' with
    | nil => simp_all
    | cons b bs' =>
      simp only [List.nil_append, List.cons_append, List.cons.injEq] at h
      obtain ⟨rfl, _⟩ := h
      exact absurd (hb' _ (by simp)) ht
  | cons b bs ih =>
    cases bs' with
    | nil =>
      simp only [List.nil_append, List.cons_append, List.cons.injEq] at h
      obtain ⟨rfl, _⟩ := h
      exact absurd (hb _ (by simp)) ht'
    | cons b' bs' =>
      simp only [List.cons_append, List.cons.injEq] at h
      obtain ⟨rfl, h⟩ := h
      obtain ⟨rfl, rfl, rfl⟩ := ih h (fun x hx => hb x (by simp [hx])) (fun x hx => hb' x (by simp [hx]))
      exact ⟨rfl, rfl, rfl⟩

theorem word_error_before {xs : List Selmaho} (hx : Proper xs) {s : Selmaho} (hs : wordKind s = .single ∨ wordKind s = .noIndicators)
    (hn : s ∉ xs) {l : List Token} (h : Before xs l) : Peg cst (.call (.word s)) l .error := by
  refine word_error hs ?_
  rintro ⟨bs, t, q, rfl, hb, ht⟩
  have hsb : s ≠ .Bahe := by rintro rfl; rcases hs with hs | hs <;> cases hs
  rcases h with h | ⟨bs', t', q', h, hb', ht', _⟩
  · simp at h
  · have := bahe_split h hb hb' (by rw [ht]; exact hsb) (by intro h; rw [h] at ht'; exact hx.1 ht')
    obtain ⟨_, rfl, _⟩ := this
    rw [ht] at ht'
    exact hn ht'

theorem Before.loose {xs : List Selmaho} (hx : Proper xs) {l : List Token} (h : Before xs l) : Loose l := by
  refine ⟨bu_error ?_, word_error_before hx (.inr rfl) hx.2.2 h⟩
  rintro t q rfl hb
  rcases h with h | ⟨bs, t', q', h, hbs, ht', _⟩
  · cases h
  · cases bs with
    | nil =>
      simp only [List.nil_append, List.cons.injEq] at h
      obtain ⟨rfl, _⟩ := h
      rw [hb] at ht'
      exact hx.2.1 ht'
    | cons b bs =>
      simp only [List.cons_append, List.cons.injEq] at h
      obtain ⟨rfl, _⟩ := h
      have := hbs t (by simp)
      rw [hb] at this
      cases this

/-- After one token. -/
theorem Before.tail {xs : List Selmaho} (hx : Proper xs) {t : Token} {l : List Token} (h : Before xs (t :: l)) : Loose l := by
  rcases h with h | ⟨bs, t', q', h, hbs, ht', hl⟩
  · cases h
  · cases bs with
    | nil =>
      simp only [List.nil_append, List.cons.injEq] at h
      obtain ⟨rfl, rfl⟩ := h
      exact hl
    | cons b bs =>
      simp only [List.cons_append, List.cons.injEq] at h
      obtain ⟨rfl, rfl⟩ := h
      exact Before.loose hx (.inr ⟨bs, t', q', rfl, fun b hb => hbs b (by simp [hb]), ht', hl⟩)

/-- After some `ba'e`. -/
theorem Before.drop {xs : List Selmaho} (hx : Proper xs) {bs l : List Token} (hb : ∀ b ∈ bs, b.selmaho = Selmaho.Bahe)
    (h : Before xs (bs ++ l)) : Before xs l := by
  induction bs with
  | nil => exact h
  | cons b bs ih =>
    refine ih (fun x hx => hb x (by simp [hx])) ?_
    rcases h with h | ⟨bs', t', q', h, hbs, ht', hl⟩
    · cases h
    · cases bs' with
      | nil =>
        simp only [List.nil_append, List.cons_append, List.cons.injEq] at h
        obtain ⟨rfl, _⟩ := h
        rw [hb b (by simp)] at ht'
        exact absurd ht' hx.1
      | cons b' bs' =>
        simp only [List.cons_append, List.cons.injEq] at h
        obtain ⟨rfl, h⟩ := h
        exact .inr ⟨bs', t', q', h, fun b hb => hbs b (by simp [hb]), ht', hl⟩

theorem peg_any_ok {k : LeafKind} {l r : List Token} {vs : List Val} (h : Peg cst (.any k) l (.ok r vs)) :
    ∃ t, l = t :: r ∧ vs = [.leaf k t] := by
  cases h with
  | any => exact ⟨_, rfl, rfl⟩

theorem buInner_out {m : List Token} {o : Outcome} (h : Peg cst (.call .BuInner) m o) :
    o = .error ∨ ∃ t r vs, m = t :: r ∧ o = .ok r vs := by
  have he : cst .BuInner = .postCond (.selmahoNotIn [.Bu, .Zei, .Si, .Su, .Sa, .Faho]) (.wrap (.node .BuInner) (.any .token)) := rfl
  cases h with
  | call ho =>
    rw [he] at ho
    cases m with
    | nil => exact .inl (Peg.unique ho _ (.postBad (.wrapBad .anyEnd trivial) trivial))
    | cons t r =>
      have h1 := Peg.wrap (g := cst) (sh := .node .BuInner) (.any (k := .token) (t := t) (s := r))
      by_cases hc : PostCond.holds (.selmahoNotIn [.Bu, .Zei, .Si, .Su, .Sa, .Faho]) [CShape.build (.node .BuInner) [.leaf .token t]] = true
      · exact .inr ⟨t, r, _, rfl, Peg.unique ho _ (.post h1 hc)⟩
      · exact .inl (Peg.unique ho _ (.postViolated h1 (by simpa using hc)))

/-- After `BuInner`. -/
theorem buInner_before {xs : List Selmaho} (hx : Proper xs) {m : List Token} (hm : Before xs m) {e : Gr}
    (he : ∀ r, Loose r → Peg cst e r .error) : Peg cst (.seq (.call .BuInner) e) m .error := by
  obtain ⟨o, ho⟩ := peg_total .BuInner m
  rcases buInner_out ho with rfl | ⟨t, r, vs, rfl, rfl⟩
  · exact .seqFirst ho trivial
  · exact .seqSecond ho (he r (hm.tail hx)) trivial

theorem bahe_word {l r : List Token} {vs : List Val} (h : Peg cst (.call (.word .Bahe)) l (.ok r vs)) :
    ∃ t : Token, l = t :: r ∧ t.selmaho = .Bahe := by
  cases h with
  | call h1 =>
    have hz : cst (.word .Bahe) = .seq (.raw .Bahe) (.seq (.not (.call (.word .Bu))) (.not (.call (.word .Zei)))) := rfl
    rw [hz] at h1
    obtain ⟨q, us, ws, h1, h4, _⟩ := peg_seq_ok h1
    obtain ⟨t, rfl, ht, _⟩ := peg_raw_ok h1
    obtain ⟨q', us', ws', h4, h5, _⟩ := peg_seq_ok h4
    obtain ⟨_, rfl, _⟩ := peg_not_ok h4
    obtain ⟨_, rfl, _⟩ := peg_not_ok h5
    exact ⟨t, rfl, ht⟩

/-- A letter made with `bu` does not begin here. -/
theorem lerfu_bu_before {xs : List Selmaho} (hx : Proper xs) {l : List Token} (h : Before xs l) (e : Gr) :
    Peg cst (.seq (.opt (.call (.word .Bahe))) (.seq (.call .BuInner) (.seq (.many1 (.call (.word .Bu))) e))) l .error := by
  have hmid : ∀ m, Before xs m → Peg cst (.seq (.call .BuInner) (.seq (.many1 (.call (.word .Bu))) e)) m .error :=
    fun m hm => buInner_before hx hm fun r hr => .seqFirst (.many1First hr.1 trivial) trivial
  obtain ⟨o, ho⟩ := peg_total (.word .Bahe) l
  cases o with
  | ok r vs =>
    obtain ⟨t, rfl, ht⟩ := bahe_word ho
    exact .seqSecond (.optPresent ho) (hmid _ (Before.drop hx (bs := [t]) (by simpa using ht) h)) trivial
  | error => exact .seqSecond (.optAbsent ho) (hmid _ h) trivial
  | failure => exact absurd rfl (word_mild ho)

/-- All the `ba'e` there are. -/
theorem bahes_total (l : List Token) : ∃ bs r vs, l = bs ++ r ∧ (∀ b ∈ bs, b.selmaho = Selmaho.Bahe) ∧
    Peg cst (.many0 (.call (.word .Bahe))) l (.ok r [.many vs]) := by
  induction l with
  | nil => exact ⟨[], [], [], rfl, nofun, .many0End (by
      obtain ⟨o, ho⟩ := peg_total (.word .Bahe) []
      cases o with
      | ok r vs => obtain ⟨t, h, _⟩ := bahe_word ho; cases h
      | error => exact ho
      | failure => exact absurd rfl (word_mild ho))⟩
  | cons x l ih =>
    obtain ⟨o, ho⟩ := peg_total (.word .Bahe) (x :: l)
    cases o with
    | ok r vs =>
      obtain ⟨t, h, ht⟩ := bahe_word ho
      cases h
      obtain ⟨bs, r', vs', h1, h2, h3⟩ := ih
      refine ⟨x :: bs, r', _, by rw [h1]; rfl, ?_, .many0More ho (by simp) h3⟩
      intro b hb
      rcases List.mem_cons.mp hb with rfl | hb
      · exact ht
      · exact h2 b hb
    | error => exact ⟨[], _, _, rfl, nofun, .many0End ho⟩
    | failure => exact absurd rfl (word_mild ho)

theorem zeiTail_loose {r : List Token} (h : Loose r) : Peg cst (.call .ZeiTail) r .error := by
  have hz : cst .ZeiTail = .wrap (.node .ZeiTail) (.many1 (.wrap .tuple (.seq (.call (.word .Zei)) (.any .token)))) := rfl
  refine .call ?_
  rw [hz]
  exact .wrapBad (.many1First (.wrapBad (.seqFirst h.2 trivial) trivial) trivial) trivial

/-- No compound with `zei` begins here. -/
theorem zei_before {xs : List Selmaho} (hx : Proper xs) {l : List Token} (h : Before xs l) : Peg cst (cst .ZeiClause) l .error := by
  have hz : cst .ZeiClause = .wrap (.node .ZeiClause) (.seq (.many0 (.call (.word .Bahe))) (.seq (.call .BuInner)
    (.seq (.many0 (.call .ZeiBuInner)) (.seq (.call .ZeiTail) (.seq (.not (.call (.word .Zei))) (.seq (.not (.call (.word .Bu)))
      (.opt (.call .Indicators)))))))) := rfl
  have hi : cst .ZeiBuInner = .wrap (.node .ZeiBuInner) (.seq (.opt (.call .ZeiTail)) (.many1 (.call (.word .Bu)))) := rfl
  rw [hz]
  obtain ⟨bs, r, vs, rfl, hb, h1⟩ := bahes_total l
  refine .wrapBad (.seqSecond h1 (buInner_before hx (h.drop hx hb) ?_) trivial) trivial
  intro m hm
  have h2 : Peg cst (.call .ZeiBuInner) m .error := by
    refine .call ?_
    rw [hi]
    exact .wrapBad (.seqSecond (.optAbsent (zeiTail_loose hm)) (.many1First hm.1 trivial) trivial) trivial
  exact .seqSecond (.many0End h2) (.seqFirst (zeiTail_loose hm) trivial) trivial

/-- What the productions do before a word of one of the selma'o `xs`. -/
def beforeTab (xs : List Selmaho) (unknown : List CRule) (r : CRule) : Halt :=
  if unknown.contains r then .unknown
  else match r with
  | .word s => if xs.contains s then .unknown else match wordKind s with
    | .single => .dead
    | .noIndicators => .dead
    | .bu => .dead
    | .raw => if s = .Bahe then .unknown else .dead
    | .absent => .unknown
  | .BuInner => .unknown
  | .ZoiDelimiter => .unknown
  | .ZoiText => .unknown
  | .Frees => .null
  | .Text => .null
  | .Paragraphs => .null
  | .Paragraph => .null
  | .ParagraphItem => .null
  | .Sentences1 => .null
  | .Sentences3 => .null
  | .Sentence => .null
  | .Args => .null
  | .TailArgs => .null
  | .GadriSumtiPre => .null
  | .VocativeValue => .null
  | .Time => .weak
  | .Space => .weak
  | .TimeSpaceCaha => .weak
  | _ => .dead

def beforeBase : CRule → Bool
  | .word _ => true
  | .ZeiClause => true
  | .Lerfu => true
  | _ => false

theorem raw_before {xs : List Selmaho} {l : List Token} (h : Before xs l) {s : Selmaho} (hb : s ≠ .Bahe) (hs : s ∉ xs) :
    Peg cst (.raw s) l .error := by
  rcases h with rfl | ⟨bs, t, q, rfl, hbs, ht, _⟩
  · exact .rawEnd
  · cases bs with
    | nil => exact .rawOther (by rintro rfl; exact hs ht)
    | cons b bs => exact .rawOther (by rw [hbs b (by simp)]; exact fun h => hb h.symm)

theorem before_base {xs : List Selmaho} {us : List CRule} (hx : Proper xs) (hy : Selmaho.By ∉ xs ∨ us.contains .Lerfu = true) (r : CRule) (s : List Token) (o : Outcome)
    (hb : beforeBase r = true) (hd : Before xs s) (hp : Peg cst (cst r) s o) : (beforeTab xs us r).Says s o := by
  unfold beforeTab
  split
  · trivial
  · rename_i hu
    cases r with
    | word w =>
      simp only
      split
      · trivial
      · rename_i hw
        have hw' : w ∉ xs := by simpa using hw
        cases hk : wordKind w with
        | single => exact Peg.unique (.call hp) _ (word_error_before hx (.inl hk) hw' hd)
        | noIndicators => exact Peg.unique (.call hp) _ (word_error_before hx (.inr hk) hw' hd)
        | bu =>
          have : w = .Bu := by revert hk; cases w <;> decide
          subst this
          exact Peg.unique (.call hp) _ (hd.loose hx).1
        | raw =>
          simp only
          split
          · trivial
          · rename_i hba
            have he : cst (.word w) = wordBody w .raw := by rw [← hk]; rfl
            rw [he] at hp
            exact Peg.unique hp _ (.seqFirst (raw_before hd hba hw') trivial)
        | absent => trivial
    | ZeiClause => exact Peg.unique hp _ (zei_before hx hd)
    | Lerfu =>
      have hz : cst .Lerfu = .alt (.wrap (.node .Lerfu_Bu) (.seq (.opt (.call (.word .Bahe))) (.seq (.call .BuInner)
        (.seq (.many1 (.call (.word .Bu))) (.many0 (.call .Indicators)))))) (.wrap (.node .Lerfu_By) (.call (.word .By))) := rfl
      rw [hz] at hp
      exact Peg.unique hp _ (.altSecond (.wrapBad (lerfu_bu_before hx hd _) trivial)
        (.wrapBad (word_error_before hx (.inl rfl) (hy.resolve_right hu) hd) trivial))
    | _ => simp [beforeBase] at hb

/-! ### Before `ni'o` -/

def nihoUnknown : List CRule := [.ParagraphSeparator, .Paragraphs, .Text]

theorem niho_halt (r : CRule) (h : beforeBase r = false) :
    beforeTab [.Niho] nihoUnknown r = .unknown ∨ haltG (beforeTab [.Niho] nihoUnknown) (cst r) = beforeTab [.Niho] nihoUnknown r := by
  revert h
  cases r with
  | word s => cases s <;> decide +kernel
  | _ => decide +kernel

/-- Before `ni'o`, or at the end. -/
theorem peg_before_niho {e : Gr} {s : List Token} {o : Outcome} (h : Peg cst e s o) (hs : Before [.Niho] s) :
    (haltG (beforeTab [.Niho] nihoUnknown) e).Says s o :=
  peg_halt (before_base ⟨by decide, by decide, by decide⟩ (.inl (by decide))) niho_halt h hs

theorem frees_before_niho {s : List Token} (hs : Before [.Niho] s) : ∃ vs, Peg cst (.call .Frees) s (.ok s vs) := by
  obtain ⟨o, ho⟩ := peg_total .Frees s
  obtain ⟨vs, rfl⟩ := (show haltG (beforeTab [.Niho] nihoUnknown) (.call .Frees) = Halt.null by decide +kernel) ▸ peg_before_niho ho hs
  exact ⟨vs, ho⟩

theorem paragraph_before_niho {s : List Token} (hs : Before [.Niho] s) : ∃ vs, Peg cst (.call .Paragraph) s (.ok s vs) := by
  obtain ⟨o, ho⟩ := peg_total .Paragraph s
  obtain ⟨vs, rfl⟩ := (show haltG (beforeTab [.Niho] nihoUnknown) (.call .Paragraph) = Halt.null by decide +kernel) ▸ peg_before_niho ho hs
  exact ⟨vs, ho⟩

end Sneturfahi
