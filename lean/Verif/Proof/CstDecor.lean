import Verif.Proof.PegRel
import Verif.Proof.CstNai
import Verif.Spec.Decor

/-!
# Adding `ba'e` and indicators
-/

namespace Sneturfahi

open Spec

/-- Any number of indicators, each with any `ba'e`. -/
inductive Run : List Token → Prop
  | nil : Run []
  | cons {bs us : List Token} {u : Token} : (∀ b ∈ bs, b.selmaho = Selmaho.Bahe) → u.selmaho ∈ indicating → Run us → Run (bs ++ u :: us)

/-- Neither added nor taking. -/
def Ordinary (t : Token) : Prop := t.selmaho ∉ decorating ∧ t.selmaho ∉ taking

/-- The second is the first with `ba'e` before and indicators after each word. -/
inductive Decorated : List Token → List Token → Prop
  | nil : Decorated [] []
  | cons {t : Token} {l l' bs us : List Token} : Ordinary t → (∀ b ∈ bs, b.selmaho = Selmaho.Bahe) → Run us → Decorated l l' →
      Decorated (t :: l) (bs ++ t :: (us ++ l'))

/-- Begins with an ordinary word, and has no `bu` and `zei`. -/
structure Clean (l : List Token) : Prop where
  first : l = [] ∨ ∃ bs t q, l = bs ++ t :: q ∧ (∀ b ∈ bs, b.selmaho = Selmaho.Bahe) ∧ Ordinary t
  free : ∀ t ∈ l, t.selmaho ≠ .Bu ∧ t.selmaho ≠ .Zei

theorem ordinary_free {t : Token} (h : Ordinary t) : t.selmaho ≠ .Bu ∧ t.selmaho ≠ .Zei := by
  refine ⟨fun h' => h.2 ?_, fun h' => h.2 ?_⟩ <;> rw [h'] <;> decide

theorem run_free {us : List Token} (h : Run us) : ∀ t ∈ us, t.selmaho ≠ .Bu ∧ t.selmaho ≠ .Zei := by
  induction h with
  | nil => nofun
  | cons hb hu _ ih =>
    intro t ht
    rcases List.mem_append.mp ht with ht | ht
    · rw [hb t ht]; decide
    · rcases List.mem_cons.mp ht with rfl | ht
      · generalize t.selmaho = x at hu
        revert hu; cases x <;> decide
      · exact ih t ht

theorem decorated_clean {l l' : List Token} (h : Decorated l l') : Clean l ∧ Clean l' := by
  induction h with
  | nil => exact ⟨⟨.inl rfl, nofun⟩, ⟨.inl rfl, nofun⟩⟩
  | @cons t l l' bs us ht hb hu hd ih =>
    refine ⟨⟨.inr ⟨[], t, l, rfl, nofun, ht⟩, ?_⟩, ⟨.inr ⟨bs, t, us ++ l', rfl, hb, ht⟩, ?_⟩⟩
    · intro x hx
      rcases List.mem_cons.mp hx with rfl | hx
      · exact ordinary_free ht
      · exact ih.1.free x hx
    · intro x hx
      rcases List.mem_append.mp hx with hx | hx
      · rw [hb x hx]; decide
      · rcases List.mem_cons.mp hx with rfl | hx
        · exact ordinary_free ht
        · rcases List.mem_append.mp hx with hx | hx
          · exact run_free hu x hx
          · exact ih.2.free x hx

theorem free_loose {l : List Token} (h : ∀ t ∈ l, t.selmaho ≠ .Bu ∧ t.selmaho ≠ .Zei) : Loose l := by
  refine ⟨bu_error (fun t q he => (h t (by simp [he])).1), word_error (.inr rfl) ?_⟩
  rintro ⟨bs, t, q, rfl, _, ht⟩
  exact (h t (by simp)).2 ht

/-- Before ordinary words, a word to be added or taking something does not apply. -/
theorem clean_dead {x : Selmaho} (hx : x ∈ indicating ∨ x ∈ taking) {l : List Token} (h : Clean l) : Peg cst (.call (.word x)) l .error := by
  have hne : ∀ t, Ordinary t → t.selmaho ≠ x := by
    rintro t ⟨h1, h2⟩ rfl
    rcases hx with hx | hx
    · exact h1 (List.mem_cons_of_mem _ hx)
    · exact h2 hx
  have hxb : x ≠ .Bahe := by revert hx; cases x <;> decide
  by_cases hk : wordKind x = .single ∨ wordKind x = .noIndicators
  · refine word_error hk ?_
    rintro ⟨bs, t, q, rfl, hb, ht⟩
    rcases h.first with h | ⟨bs', t', q', h, hb', ht'⟩
    · simp at h
    · have hd : t'.selmaho ≠ .Bahe := fun he => ht'.1 (by rw [he]; decide)
      obtain ⟨_, rfl, _⟩ := bahe_split h hb hb' (by rw [ht]; exact hxb) hd
      exact hne t ht' ht
  · have hraw : ∀ t q, l = t :: q → t.selmaho ≠ x := by
      intro t q hl
      rcases h.first with h | ⟨bs', t', q', h, hb', ht'⟩
      · rw [h] at hl; cases hl
      · rw [hl] at h
        cases bs' with
        | nil => cases h; exact hne t ht'
        | cons b bs =>
          cases h
          rw [hb' t (by simp)]
          exact fun he => hxb he.symm
    have hr : Peg cst (.raw x) l .error := by
      cases l with
      | nil => exact .rawEnd
      | cons t q => exact .rawOther (hraw t q rfl)
    refine .call ?_
    have he : cst (.word x) = wordBody x (wordKind x) := rfl
    rw [he]
    cases hw : wordKind x with
    | single => exact absurd (.inl hw) hk
    | noIndicators => exact absurd (.inr hw) hk
    | raw => exact .seqFirst hr trivial
    | bu => exact hr
    | absent => exact hr

theorem clean_indicator {l : List Token} (h : Clean l) : Peg cst (.call .Indicator) l .error := by
  refine call_error rfl (fun q hq => ?_)
  obtain ⟨x, hx, hq⟩ := indicator_word hq
  exact gives_absurd hq (clean_dead (.inl hx) h)

theorem clean_indicators {l : List Token} (h : Clean l) : Peg cst (.call .Indicators) l .error := by
  refine call_error rfl (fun q hq => ?_)
  obtain ⟨m, h1, h2⟩ := gives_indicators.mp hq
  rcases gives_opt.mp h1 with h1 | ⟨_, rfl⟩
  · exact gives_absurd h1 (clean_dead (.inr (by decide)) h)
  · obtain ⟨_, h3, _⟩ := gives_many1.mp h2
    exact gives_absurd h3 (clean_indicator h)

/-! ### Reading decorated words -/

theorem bahes_read {bs : List Token} {t : Token} {q : List Token} (hb : ∀ b ∈ bs, b.selmaho = Selmaho.Bahe) (ht : t.selmaho ≠ .Bahe)
    (hf : ∀ x ∈ t :: q, x.selmaho ≠ .Bu ∧ x.selmaho ≠ .Zei) :
    ∃ vs, Peg cst (.many0 (.call (.word .Bahe))) (bs ++ t :: q) (.ok (t :: q) [.many vs]) := by
  have he : cst (.word .Bahe) = .seq (.raw .Bahe) (.seq (.not (.call (.word .Bu))) (.not (.call (.word .Zei)))) := rfl
  induction bs with
  | nil =>
    refine ⟨[], .many0End (.call ?_)⟩
    rw [he]
    exact .seqFirst (.rawOther ht) trivial
  | cons b bs ih =>
    obtain ⟨vs, ih⟩ := ih (fun x hx => hb x (List.mem_cons_of_mem _ hx))
    have hl : Loose (bs ++ t :: q) := by
      refine free_loose (fun x hx => ?_)
      rcases List.mem_append.mp hx with hx | hx
      · rw [hb x (List.mem_cons_of_mem _ hx)]; decide
      · exact hf x hx
    have h1 : Peg cst (.call (.word .Bahe)) (b :: (bs ++ t :: q)) (.ok (bs ++ t :: q) ([.leaf .token b] ++ ([] ++ []))) := by
      refine .call ?_
      rw [he]
      exact .seq (.raw (hb b (by simp))) (.seq (.not hl.1) (.not hl.2))
    exact ⟨_, .many0More h1 (by simp) ih⟩

/-- Exactly the added indicators are read. -/
theorem run_read {us q : List Token} (hu : Run us) (hq : Clean q) :
    ∃ is, Peg cst (.opt (.call .Indicators)) (us ++ q) (.ok q [.many is]) := by
  suffices h : Gives (.opt (.call .Indicators)) (us ++ q) q by
    obtain ⟨vs, h⟩ := h
    generalize us ++ q = m at h
    cases h with
    | optPresent h => exact ⟨_, .optPresent h⟩
    | optAbsent h => exact ⟨_, .optAbsent h⟩
  induction hu with
  | nil => exact gives_opt.mpr (.inr ⟨clean_indicators hq, rfl⟩)
  | @cons bs us u hb hui hu ih =>
    have hf : ∀ x ∈ u :: (us ++ q), x.selmaho ≠ .Bu ∧ x.selmaho ≠ .Zei := by
      have := run_free (.cons (bs := []) nofun hui hu)
      intro x hx
      rw [← List.cons_append, List.mem_append] at hx
      rcases hx with hx | hx
      · exact this x hx
      · exact hq.free x hx
    have hub : u.selmaho ≠ .Bahe := by
      generalize u.selmaho = x at hui
      revert hui; cases x <;> decide
    have hk : wordKind u.selmaho = .single := by
      generalize u.selmaho = x at hui
      revert hui; cases x <;> decide
    obtain ⟨vs, h1⟩ := bahes_read hb hub hf
    have hw : Gives (.call (.word u.selmaho)) ((bs ++ u :: us) ++ q) q := by
      rw [List.append_assoc, List.cons_append]
      exact (gives_single hk).mpr ⟨us ++ q, u, q, ⟨_, h1⟩, rfl, ih, free_loose hq.free, rfl⟩
    obtain ⟨q', hi⟩ := indicators_of hui hw
    have hi2 := indicator_of hui hw (free_loose hq.free)
    refine gives_opt.mpr (.inl (gives_indicators.mpr ⟨_, gives_opt.mpr (.inr ⟨?_, rfl⟩), gives_many1.mpr ⟨q, hi2, gives_many0.mpr (.inl ⟨clean_indicator hq, rfl⟩)⟩⟩))
    refine word_error (.inr rfl) ?_
    rintro ⟨bs', t', q', h, hb', ht'⟩
    rw [List.append_assoc, List.cons_append] at h
    obtain ⟨_, rfl, _⟩ := bahe_split h hb hb' hub (by rw [ht']; decide)
    rw [ht'] at hui
    exact absurd hui (by decide)

/-! ### Trees without what was added -/

theorem bareL_eq (vs : List Val) : bareL vs = vs.map bare := by
  induction vs with
  | nil => rfl
  | cons v vs ih => simp [bareL, ih]

/-- Node names other than words. -/
def otherShapes : CShape → Bool
  | .node (.word _) => false
  | _ => true

def timeSpace (c : PostCond) (n : NodeName) : Bool := c == .anyFieldPresent && (n == .Time || n == .Space)

theorem bare_present (v : Val) : (bare v).present = v.present := by
  cases v with
  | node n fs => cases n <;> simp [bare, Val.present]
  | many vs => cases vs <;> simp [bare, bareL, Val.present]
  | _ => simp [bare, Val.present]

theorem bare_node {n : NodeName} (hn : ∀ s, n ≠ .word s) (ht : n ≠ .Text) (fs : List Val) : bare (.node n fs) = .node n (bareL fs) := by
  cases n <;> first | rfl | exact absurd rfl ht | exact absurd rfl (hn _)

theorem bare_build {sh : CShape} (hs : otherShapes sh = true) {a b : List Val} (h : bareL a = bareL b) :
    bare (sh.build a) = bare (sh.build b) := by
  cases sh with
  | node n =>
    by_cases ht : n = .Text
    · subst ht; simp [CShape.build, bare, h]
    · have hn : ∀ s, n ≠ .word s := by rintro s rfl; cases hs
      simp only [CShape.build]
      rw [bare_node hn ht, bare_node hn ht, h]
  | tuple => simp [CShape.build, bare, h]
  | sep =>
    have key : ∀ a : List Val, bare (CShape.sep.build a) = (match bareL a with
        | [first, .many rest] => .sep first rest
        | vs => .tuple vs) := by
      intro a
      match a with
      | [] => rfl
      | [x] => rfl
      | [x, .many rest] => simp [CShape.build, bare, bareL]
      | [x, .leaf _ _] => rfl
      | [x, .node n fs] =>
        have : ∃ m gs, bare (.node n fs) = .node m gs := by cases n <;> exact ⟨_, _, rfl⟩
        obtain ⟨m, gs, hm⟩ := this
        simp [CShape.build, bare, bareL, hm]
      | [x, .tuple _] => rfl
      | [x, .sep _ _] => rfl
      | x :: y :: z :: w => 
        simp only [CShape.build, bare, bareL]
        split
        · rename_i h; simp at h
        · rfl
    rw [key, key, h]

theorem bareRel : ValRel (fun a b => bareL a = bareL b) otherShapes timeSpace where
  nil := rfl
  append := by intro a b c d h1 h2; simp [bareL_eq] at *; rw [h1, h2]
  many := by intro a b h; simp [bareL, bare, h]
  more := by
    intro a b c d e f h1 h2
    simp only [bareL, bare, List.cons.injEq, Val.many.injEq] at h2 ⊢
    simp only [bareL_eq, List.map_append] at h1 h2 ⊢
    rw [h1, h2.1, h2.2]
    simp
  build := by intro sh a b hs h; simp only [bareL]; rw [bare_build hs h]
  post := by
    intro c n a b hp h
    simp only [timeSpace, Bool.and_eq_true, Bool.or_eq_true, beq_iff_eq] at hp
    obtain ⟨rfl, hn⟩ := hp
    have hn' : bareL a = bareL b := by rcases hn with rfl | rfl <;> simpa [bareL, bare] using h
    simp only [PostCond.holds]
    have : ∀ a : List Val, a.any Val.present = (bareL a).any Val.present := by
      intro a
      rw [bareL_eq, List.any_map]
      congr 1
      funext v
      exact (bare_present v).symm
    rw [this a, this b, hn']

/-! ### The tables -/

/-- Nothing is committed in these. -/
def wordish2 : CRule → Bool
  | .Lerfu => true
  | .BuInner => true
  | .ZeiClause => true
  | .ZeiBuInner => true
  | .ZeiTail => true
  | r => wordish r

theorem cst_mild2 (r : CRule) (h : wordish2 r = true) : mildG wordish2 (cst r) = true := by
  revert h
  cases r with
  | word s => cases s <;> decide +kernel
  | _ => decide +kernel

theorem mild2_error {e : Gr} (he : mildG wordish2 e = true) {l : List Token} {o : Outcome} (ho : Peg cst e l o) (h : ∀ q, ¬ Gives e l q) :
    o = .error := by
  cases o with
  | error => rfl
  | failure => exact absurd rfl (peg_mild cst_mild2 ho he)
  | ok q vs => exact absurd ⟨vs, ho⟩ (h q)

/-- Productions that do not apply before ordinary words. -/
def decorDead : CRule → Bool
  | .word x => indicating.contains x || taking.contains x
  | .Indicators => true
  | .Indicator => true
  | .LohuSumti => true
  | .LuSumti => true
  | .ZoSumti => true
  | .ZoiSumti => true
  | .ZeiClause => true
  | _ => false

/-- Productions considered by themselves. -/
def decorBase : CRule → Bool
  | .word _ => true
  | .Lerfu => true
  | _ => false

/-- Productions that read decorated words like the words alone. -/
def decorSim : CRule → Bool
  | .word x => !decorating.contains x && !taking.contains x && wordKind x == .single
  | .Indicators => false
  | .Indicator => false
  | .LohuSumti => false
  | .LuSumti => false
  | .ZoSumti => false
  | .ZoiSumti => false
  | .ZeiClause => false
  | .ZeiBuInner => false
  | .ZeiTail => false
  | .BuInner => false
  | .ZoiDelimiter => false
  | .ZoiText => false
  | _ => true

theorem cst_decor (r : CRule) (h : decorSim r = true) (hb : decorBase r = false) :
    relT (fun _ => false) false decorDead decorSim otherShapes timeSpace (cst r) = true := by
  revert h hb
  cases r with
  | word s => intro _ h; cases h
  | _ => decide +kernel

theorem gives_zei {l q : List Token} (h : Gives (.call .ZeiTail) l q) : ∃ t ∈ l, t.selmaho = .Zei := by
  have he : cst .ZeiTail = .wrap (.node .ZeiTail) (.many1 (.wrap .tuple (.seq (.call (.word .Zei)) (.any .token)))) := rfl
  rw [gives_call, he, gives_wrap] at h
  obtain ⟨m, h, _⟩ := gives_many1.mp h
  rw [gives_wrap] at h
  obtain ⟨m', ⟨vs, h⟩, _⟩ := gives_seq.mp h
  obtain ⟨bs, t, q, rfl, _, ht⟩ := word_ok (.inr rfl) h
  exact ⟨t, by simp, ht⟩

theorem gives_mem {e : Gr} {s q : List Token} (h : Gives e s q) {t : Token} (ht : t ∈ q) : t ∈ s := by
  obtain ⟨w, rfl⟩ := gives_suffix h
  simp [ht]

theorem clean_zei {l : List Token} (h : Clean l) : Peg cst (.call .ZeiClause) l .error := by
  obtain ⟨o, ho⟩ := peg_total .ZeiClause l
  have : o = .error := by
    refine mild2_error rfl ho (fun q hq => ?_)
    have he : cst .ZeiClause = .wrap (.node .ZeiClause) (.seq (.many0 (.call (.word .Bahe))) (.seq (.call .BuInner) (.seq (.many0 (.call .ZeiBuInner)) (.seq (.call .ZeiTail) (.seq (.not (.call (.word .Zei))) (.seq (.not (.call (.word .Bu))) (.opt (.call .Indicators)))))))) := rfl
    rw [gives_call, he, gives_wrap] at hq
    obtain ⟨m1, h1, hq⟩ := gives_seq.mp hq
    obtain ⟨m2, h2, hq⟩ := gives_seq.mp hq
    obtain ⟨m3, h3, hq⟩ := gives_seq.mp hq
    obtain ⟨m4, h4, hq⟩ := gives_seq.mp hq
    obtain ⟨t, ht, hz⟩ := gives_zei h4
    exact (h.free t (gives_mem h1 (gives_mem h2 (gives_mem h3 ht)))).2 hz
  rw [this] at ho
  exact ho

/-- A letter is then a word. -/
theorem clean_lerfu {l : List Token} (h : Clean l) : Peg cst (.wrap (.node .Lerfu_Bu) (.seq (.opt (.call (.word .Bahe))) (.seq (.call .BuInner)
    (.seq (.many1 (.call (.word .Bu))) (.many0 (.call .Indicators)))))) l .error := by
  obtain ⟨o, ho⟩ := peg_total .Lerfu l
  have he : cst .Lerfu = .alt (.wrap (.node .Lerfu_Bu) (.seq (.opt (.call (.word .Bahe))) (.seq (.call .BuInner) (.seq (.many1 (.call (.word .Bu))) (.many0 (.call .Indicators)))))) (.wrap (.node .Lerfu_By) (.call (.word .By))) := rfl
  cases ho with
  | call ho =>
    rw [he] at ho
    have hno : ∀ q, ¬ Gives (.wrap (.node .Lerfu_Bu) (.seq (.opt (.call (.word .Bahe))) (.seq (.call .BuInner)
        (.seq (.many1 (.call (.word .Bu))) (.many0 (.call .Indicators)))))) l q := by
      intro q hq
      rw [gives_wrap] at hq
      obtain ⟨m1, h1, hq⟩ := gives_seq.mp hq
      obtain ⟨m2, h2, hq⟩ := gives_seq.mp hq
      obtain ⟨m3, h3, hq⟩ := gives_seq.mp hq
      obtain ⟨m4, h4, _⟩ := gives_many1.mp h3
      have hb : cst (.word .Bu) = .raw .Bu := rfl
      rw [gives_call, hb] at h4
      obtain ⟨vs, h4⟩ := h4
      obtain ⟨t, rfl, ht, _⟩ := peg_raw_ok h4
      exact (h.free t (gives_mem h1 (gives_mem h2 (by simp)))).1 ht
    cases ho with
    | altFirst h1 hne => exact absurd (mild2_error rfl h1 hno) hne
    | altSecond h1 _ => exact h1

/-- A word and the word with what was added. -/
theorem decor_word {x : Selmaho} (hx : decorSim (.word x) = true) {l l' : List Token} (h : Decorated l l') {o : Outcome}
    (ho : Peg cst (.call (.word x)) l o) : ∃ o', Peg cst (.call (.word x)) l' o' ∧
      RelOut Decorated (fun a b => bareL a = bareL b) l l' o o' := by
  simp only [decorSim, Bool.and_eq_true, Bool.not_eq_true', beq_iff_eq, List.contains_eq_mem, decide_eq_false_iff_not] at hx
  obtain ⟨⟨hx1, hx2⟩, hk⟩ := hx
  have hxb : x ≠ .Bahe := fun he => hx1 (by rw [he]; decide)
  have herr : ∀ bs t q, (∀ b ∈ bs, b.selmaho = Selmaho.Bahe) → Ordinary t → t.selmaho ≠ x →
      Peg cst (.call (.word x)) (bs ++ t :: q) .error := by
    intro bs t q hb ht hne
    refine word_error (.inl hk) ?_
    rintro ⟨bs', t', q', he, hb', ht'⟩
    have hd : t.selmaho ≠ .Bahe := fun he => ht.1 (by rw [he]; decide)
    obtain ⟨_, rfl, _⟩ := bahe_split he hb hb' hd (by rw [ht']; exact hxb)
    exact hne ht'
  cases h with
  | nil =>
    have : Peg cst (.call (.word x)) [] .error := by
      refine word_error (.inl hk) ?_
      rintro ⟨bs, t, q, h, _⟩
      simp at h
    rw [ho.unique _ this]
    exact ⟨_, this, .error⟩
  | @cons t l l' bs us ht hb hu hd =>
    by_cases hne : t.selmaho = x
    · have hc := decorated_clean hd
      have he : cst (.word x) = wordBody x .single := by rw [← hk]; rfl
      have hd' : t.selmaho ≠ .Bahe := by rw [hne]; exact hxb
      have hok : ∀ bs us q, (∀ b ∈ bs, b.selmaho = Selmaho.Bahe) → Run us → Clean q →
          ∃ vs is, Peg cst (.call (.word x)) (bs ++ t :: (us ++ q)) (.ok q [.node (.word x) ([.many vs] ++ ([.leaf .token t] ++ ([.many is] ++ ([] ++ []))))]) := by
        intro bs us q hb hu hq
        have hf : ∀ y ∈ t :: (us ++ q), y.selmaho ≠ .Bu ∧ y.selmaho ≠ .Zei := by
          intro y hy
          rcases List.mem_cons.mp hy with rfl | hy
          · exact ordinary_free ht
          · rcases List.mem_append.mp hy with hy | hy
            · exact run_free hu y hy
            · exact hq.free y hy
        obtain ⟨vs, h1⟩ := bahes_read hb hd' hf
        obtain ⟨is, h2⟩ := run_read hu hq
        have hl := free_loose hq.free
        refine ⟨vs, is, .call ?_⟩
        rw [he]
        exact .wrap (.seq h1 (.seq (.raw hne) (.seq h2 (.seq (.not hl.1) (.not hl.2)))))
      obtain ⟨vs, is, h1⟩ := hok [] [] l nofun .nil hc.1
      obtain ⟨vs', is', h2⟩ := hok bs us l' hb hu hc.2
      rw [ho.unique _ h1]
      refine ⟨_, h2, .ok hd ?_ ?_⟩
      · simp
        omega
      · simp [bareL, bare, isLeaf, List.filter]
    · have h1 := herr [] t l nofun ht hne
      rw [ho.unique _ h1]
      exact ⟨_, herr bs t _ hb ht hne, .error⟩

theorem decorCert : RelCert cst Decorated (fun a b => bareL a = bareL b) (fun _ => false) false decorDead (fun r => decorBase r && decorSim r) decorSim otherShapes timeSpace where
  vals := bareRel
  isRaw := by intro _ _ _ _ h; cases h
  isAny := by intro _ _ _ _ h; cases h
  isDead := by
    have key : ∀ r l, decorDead r = true → Clean l → Peg cst (.call r) l .error := by
      intro r l hr hl
      have hword : ∀ x, x ∈ taking → Peg cst (.call (.word x)) l .error := fun x hx => clean_dead (.inr hx) hl
      unfold decorDead at hr
      split at hr
      · refine clean_dead ?_ hl
        simpa using hr
      · exact clean_indicators hl
      · exact clean_indicator hl
      · exact .call (.wrapBad (.seqFirst (hword .Lohu (by decide)) trivial) trivial)
      · exact .call (.wrapBad (.seqFirst (hword .Lu (by decide)) trivial) trivial)
      · exact .call (.wrapBad (.seqFirst (hword .Zo (by decide)) trivial) trivial)
      · exact .call (.wrapBad (.seqFirst (hword .Zoi (by decide)) trivial) trivial)
      · exact clean_zei hl
      · cases hr
    intro r l l' hr h
    have hc := decorated_clean h
    exact ⟨key r l hr hc.1, key r l' hr hc.2⟩
  isBase := by
    intro r l l' o hr h ho _
    have ho : Peg cst (.call r) l o := .call ho
    simp only [Bool.and_eq_true] at hr
    cases r with
    | word x => exact decor_word hr.2 h ho
    | Lerfu =>
      have hc := decorated_clean h
      have he : cst .Lerfu = .alt (.wrap (.node .Lerfu_Bu) (.seq (.opt (.call (.word .Bahe))) (.seq (.call .BuInner) (.seq (.many1 (.call (.word .Bu))) (.many0 (.call .Indicators)))))) (.wrap (.node .Lerfu_By) (.call (.word .By))) := rfl
      have key : ∀ {l o}, Clean l → Peg cst (.call (.word .By)) l o → Peg cst (.call .Lerfu) l (match o with
          | .ok r vs => .ok r [.node .Lerfu_By vs] | o => o) := by
        intro l o hl h
        refine .call ?_
        rw [he]
        refine .altSecond (clean_lerfu hl) ?_
        cases o with
        | ok r vs => exact .wrap h
        | error => exact .wrapBad h trivial
        | failure => exact .wrapBad h trivial
      obtain ⟨o1, h1⟩ := peg_total (.word .By) l
      obtain ⟨o2, h2, hr2⟩ := decor_word (x := .By) (by decide) h h1
      rw [ho.unique _ (key hc.1 h1)]
      refine ⟨_, key hc.2 h2, ?_⟩
      cases hr2 with
      | error => exact .error
      | failure => exact .failure
      | ok a b c => exact .ok a b (by simp only [bareL, bare] at c ⊢; rw [c])
    | _ => cases hr.1
  isSim := by
    intro r hr hb
    refine cst_decor r hr ?_
    simpa [hr] using hb

/-! ### Whole texts -/

/-- Every sequence without taking words, not ending in `ba'e`, is indicators followed by decorated words. -/
theorem decorated_of : ∀ (n : Nat) (l : List Token), l.length ≤ n → (∀ t ∈ l, t.selmaho ∉ taking) →
    (∀ t, l.getLast? = some t → t.selmaho ≠ .Bahe) →
    ∃ us l', l = us ++ l' ∧ Run us ∧ Decorated (undecorated l) l' := by
  intro n
  induction n with
  | zero =>
    intro l hl _ _
    cases l with
    | nil => exact ⟨[], [], rfl, .nil, .nil⟩
    | cons _ _ => simp at hl
  | succ n ih =>
    intro l hl ht hlast
    have key : ∀ l : List Token, (∀ t, l.getLast? = some t → t.selmaho ≠ .Bahe) → l = [] ∨
        ∃ bs t q, l = bs ++ t :: q ∧ (∀ b ∈ bs, b.selmaho = Selmaho.Bahe) ∧ t.selmaho ≠ .Bahe := by
      intro l
      induction l with
      | nil => intro _; exact .inl rfl
      | cons t l ih =>
        intro h
        by_cases hb : t.selmaho = .Bahe
        · cases l with
          | nil => exact absurd hb (h t rfl)
          | cons t' l =>
            rcases ih (fun x hx => h x (by simpa using hx)) with h' | ⟨bs, u, q, he, hbs, hu⟩
            · cases h'
            · refine .inr ⟨t :: bs, u, q, by rw [he]; rfl, ?_, hu⟩
              intro b hb'
              rcases List.mem_cons.mp hb' with rfl | hb'
              · exact hb
              · exact hbs b hb'
        · exact .inr ⟨[], t, l, rfl, nofun, hb⟩
    rcases key l hlast with rfl | ⟨bs, t, q, rfl, hbs, htb⟩
    · exact ⟨[], [], rfl, .nil, .nil⟩
    · obtain ⟨us, l', rfl, hu, hd⟩ := ih q (by simp at hl; omega) (fun x hx => ht x (by simp [hx])) (by
        intro x hx
        refine hlast x ?_
        cases q with
        | nil => simp at hx
        | cons y q => simp only [List.getLast?_append, List.getLast?_cons_cons, hx, Option.some_or])
      have hun : undecorated (bs ++ t :: (us ++ l')) = undecorated (t :: (us ++ l')) := by
        unfold undecorated
        rw [List.filter_append, List.filter_eq_nil_iff.mpr, List.nil_append]
        intro b hb
        rw [hbs b hb]
        decide
      rw [hun]
      by_cases hi : t.selmaho ∈ indicating
      · refine ⟨bs ++ t :: us, l', by simp, .cons hbs hi hu, ?_⟩
        have : undecorated (t :: (us ++ l')) = undecorated (us ++ l') := by
          unfold undecorated
          rw [List.filter_cons_of_neg]
          simp only [decorating, List.mem_cons, hi, or_true, not_true, decide_false, Bool.false_eq_true, not_false_eq_true]
        rw [this]
        exact hd
      · have hn : t.selmaho ∉ decorating := by
          simp only [decorating, List.mem_cons, not_or]
          exact ⟨htb, hi⟩
        refine ⟨[], _, rfl, .nil, ?_⟩
        have : undecorated (t :: (us ++ l')) = t :: undecorated (us ++ l') := by
          unfold undecorated
          rw [List.filter_cons_of_pos]
          simpa using hn
        rw [this]
        exact .cons ⟨hn, ht t (by simp)⟩ hbs hu hd

/-- What follows the indicators at the beginning of a text. -/
def textRest : Gr := .seq (.call .Frees) (.seq (.opt (.call .ParagraphSeparator)) (.seq (.opt (.call .Paragraphs)) (.opt (.call (.word .Faho)))))

theorem text_of {us l : List Token} (hu : Run us) (hl : Clean l) {o : Outcome} (ho : Peg cst textRest l o) :
    ∃ is, Peg cst (.call .Text) (us ++ l) (match o with | .ok r vs => .ok r [.node .Text (.many is :: vs)] | o => o) := by
  obtain ⟨is, h⟩ := run_read hu hl
  refine ⟨is, .call ?_⟩
  have he : cst .Text = .wrap (.node .Text) (.seq (.opt (.call .Indicators)) textRest) := rfl
  rw [he]
  cases o with
  | ok r vs => exact .wrap (.seq h ho)
  | error => exact .wrapBad (.seqSecond h ho trivial) trivial
  | failure => exact .wrapBad (.seqSecond h ho trivial) trivial

theorem text_rest {us l : List Token} (hu : Run us) (hl : Clean l) : ∃ o, Peg cst textRest l o := by
  obtain ⟨is, h⟩ := run_read hu hl
  obtain ⟨o, ho⟩ := peg_total .Text (us ++ l)
  have he : cst .Text = .wrap (.node .Text) (.seq (.opt (.call .Indicators)) textRest) := rfl
  cases ho with
  | call ho =>
    rw [he] at ho
    have key : ∀ {o}, Peg cst (.seq (.opt (.call .Indicators)) textRest) (us ++ l) o → ∃ o, Peg cst textRest l o := by
      intro o ho
      cases ho with
      | seq h1 h2 => cases h1.unique _ h; exact ⟨_, h2⟩
      | seqFirst h1 hb => rw [h1.unique _ h] at hb; exact hb.elim
      | seqSecond h1 h2 _ => cases h1.unique _ h; exact ⟨_, h2⟩
    cases ho with
    | wrap ho => exact key ho
    | wrapBad ho _ => exact key ho

/-- Reading the whole text, with and without what was added. -/
theorem decor_text {l : List Token} (ht : ∀ t ∈ l, t.selmaho ∉ taking) (hlast : ∀ t, l.getLast? = some t → t.selmaho ≠ .Bahe) :
    ∃ o o', Peg cst (.call .Text) (undecorated l) o ∧ Peg cst (.call .Text) l o' ∧
      ((o = .error ∧ o' = .error) ∨ (o = .failure ∧ o' = .failure) ∨
        ∃ r r' v v', o = .ok r [v] ∧ o' = .ok r' [v'] ∧ Decorated r r' ∧ bare v = bare v') := by
  obtain ⟨us, l', hl, hu, hd⟩ := decorated_of _ l (Nat.le_refl _) ht hlast
  generalize undecorated l = m at hd
  subst hl
  have hc := decorated_clean hd
  obtain ⟨o1, h1⟩ := text_rest .nil hc.1
  obtain ⟨o2, h2, hr⟩ := peg_rel decorCert h1 (by decide +kernel) l' hd
  obtain ⟨is1, t1⟩ := text_of .nil hc.1 h1
  obtain ⟨is2, t2⟩ := text_of hu hc.2 h2
  refine ⟨_, _, t1, t2, ?_⟩
  cases hr with
  | error => exact .inl ⟨rfl, rfl⟩
  | failure => exact .inr (.inl ⟨rfl, rfl⟩)
  | ok hr _ hv => exact .inr (.inr ⟨_, _, _, _, rfl, rfl, hr, by simp [bare, bareL, hv]⟩)

end Sneturfahi
