import Verif.Proof.PegTail
import Verif.Spec.Join

/-!
# Texts joined by `.i`
-/

namespace Sneturfahi

open Spec

/-! ### Before a word that has nothing to do with `.i` -/

def starters : List Selmaho := Selmaho.all.filter fun s => !linking.contains s

theorem selmaho_all (s : Selmaho) : s ∈ Selmaho.all := by cases s <;> decide +kernel

theorem mem_starters {s : Selmaho} : s ∈ starters ↔ s ∉ linking := by
  simp [starters, List.mem_filter, selmaho_all]

theorem starters_proper : Proper starters := by
  refine ⟨?_, ?_, ?_⟩ <;> rw [mem_starters] <;> decide

/-- The productions looked at. -/
def startKnown : List CRule := [.Indicator, .Indicators, .Subscript, .Lerfu, .LerfuWord, .NumberRest, .MiscNumbers, .VocativeWords,
  .Vocative, .Free, .Frees, .SpaceMotion, .SpaceIntervalProperty, .SpaceInterval, .SpaceOffset, .Space, .Number, .IntervalProperty,
  .TimeDuration, .TimeOffset, .Time, .TimeSpaceCaha, .TagWord, .Jek, .Interval, .Joik, .JoikJek]

def startTab (r : CRule) : Halt :=
  match r with
  | .word s => if linking.contains s then (match wordKind s with
    | .single => .dead
    | .noIndicators => .dead
    | .bu => .dead
    | .raw => if s = .Bahe then .unknown else .dead
    | .absent => .unknown) else .unknown
  | _ => if startKnown.contains r then beforeTab starters [] r else .unknown

theorem start_halt (r : CRule) (h : beforeBase r = false) : startTab r = .unknown ∨ haltG startTab (cst r) = startTab r := by
  revert h
  cases r with
  | word s => cases s <;> decide +kernel
  | _ => decide +kernel

theorem peg_start {e : Gr} {s : List Token} {o : Outcome} (h : Peg cst e s o) (hs : Before starters s) : (haltG startTab e).Says s o := by
  refine peg_halt (base := beforeBase) (fun r s o hb hd hp => ?_) start_halt h hs
  have := before_base (us := []) starters_proper (.inl (by rw [mem_starters]; decide)) r s o hb hd hp
  cases r with
  | word w =>
    simp only [startTab]
    split
    · rename_i h
      revert this
      simp only [beforeTab, List.contains_nil, Bool.false_eq_true, if_false, List.contains_iff_mem, mem_starters,
        List.contains_iff_mem.mp h, not_true_eq_false]
      cases wordKind w <;> exact id
    · trivial
  | _ =>
    simp only [startTab]
    split
    · exact this
    · trivial

theorem start_dead {r : CRule} (hr : startTab r = .dead) {s : List Token} (hs : Before starters s) : Peg cst (.call r) s .error := by
  obtain ⟨o, ho⟩ := peg_total r s
  have := peg_start ho hs
  rw [haltG, hr] at this
  cases this
  exact ho

theorem start_frees {s : List Token} (hs : Before starters s) : Gives (.call .Frees) s s := by
  obtain ⟨o, ho⟩ := peg_total .Frees s
  have := peg_start ho hs
  rw [haltG, (show startTab .Frees = .null by decide +kernel)] at this
  obtain ⟨vs, rfl⟩ := this
  exact ⟨vs, ho⟩

theorem start_tags {s : List Token} (hs : Before starters s) : Peg cst gTagWords s .error := by
  have he : gTagWords = .wrap .sep (.seq (.call .TagWord) (.many0 (.wrap .tuple (.seq (.call .JoikJek) (.call .TagWord))))) := rfl
  rw [he]
  exact .wrapBad (.seqFirst (start_dead (by decide +kernel) hs) trivial) trivial

/-! ### Indicators in a row -/

instance (xs : List Selmaho) : Decidable (Proper xs) := by unfold Proper; infer_instance

theorem indicating_proper : ∀ y ∈ indicating, Proper [y] ∧ wordKind y = .single ∧ y ≠ .Bahe ∧ .Fuhe ∉ [y] := by decide

theorem starters_loose {s : List Token} (hs : Before starters s) : Loose s := hs.loose starters_proper

theorem indicator_of {x : Selmaho} (hx : x ∈ indicating) {s q : List Token} (h : Gives (.call (.word x)) s q) (hq : Loose q) :
    Gives (.call .Indicator) s q := by
  have he : cst .Indicator = .seq (.alt (.alt (.alt (.alt (.alt (.wrap (.node .Indicator_Ui) (.call (.word .Ui))) (.wrap (.node .Indicator_Cai) (.call (.word .Cai)))) (.wrap (.node .Indicator_Nai) (.call (.word .Nai)))) (.wrap (.node .Indicator_Daho) (.call (.word .Daho)))) (.wrap (.node .Indicator_Fuho) (.call (.word .Fuho)))) (.wrap (.node .Indicator_Y) (.call (.word .Y)))) (.not (.call (.word .Bu))) := rfl
  have hk : ∀ y ∈ indicating, wordKind y = .single := by decide
  have hother : ∀ y ∈ indicating, y ≠ x → ∀ sh, Peg cst (.wrap sh (.call (.word y))) s .error := by
    intro y hy hne sh
    exact .wrapBad (word_error_before (xs := [x]) (indicating_proper x hx).1 (.inl (hk y hy)) (by simpa using hne)
      (single_before (hk x hx) h)) trivial
  rw [gives_call, he, gives_seq]
  refine ⟨q, ?_, gives_not.mpr ⟨hq.1, rfl⟩⟩
  simp only [gives_alt, gives_wrap]
  have e1 := fun h => hother .Ui (by decide) h (.node .Indicator_Ui)
  have e2 := fun h => hother .Cai (by decide) h (.node .Indicator_Cai)
  have e3 := fun h => hother .Nai (by decide) h (.node .Indicator_Nai)
  have e4 := fun h => hother .Daho (by decide) h (.node .Indicator_Daho)
  have e5 := fun h => hother .Fuho (by decide) h (.node .Indicator_Fuho)
  have herr : ∀ {a b : Gr}, Peg cst a s .error → Peg cst b s .error → Peg cst (.alt a b) s .error := fun h1 h2 => .altSecond h1 h2
  clear hother hk he
  simp only [indicating, List.mem_cons, List.not_mem_nil, or_false] at hx
  rcases hx with rfl | rfl | rfl | rfl | rfl | rfl
  · exact .inl (.inl (.inl (.inl (.inl h))))
  · exact .inl (.inl (.inl (.inl (.inr ⟨e1 (by decide), h⟩))))
  · exact .inl (.inl (.inl (.inr ⟨herr (e1 (by decide)) (e2 (by decide)), h⟩)))
  · exact .inl (.inl (.inr ⟨herr (herr (e1 (by decide)) (e2 (by decide))) (e3 (by decide)), h⟩))
  · exact .inl (.inr ⟨herr (herr (herr (e1 (by decide)) (e2 (by decide))) (e3 (by decide))) (e4 (by decide)), h⟩)
  · exact .inr ⟨herr (herr (herr (herr (e1 (by decide)) (e2 (by decide))) (e3 (by decide))) (e4 (by decide))) (e5 (by decide)), h⟩

theorem indicators_row {us b : List Token} (hu : ∀ u ∈ us, u.selmaho ∈ indicating) (hb : Before starters b) :
    Gives (.opt (.call .Indicators)) (us ++ b) b ∧ Loose (us ++ b) := by
  induction us with
  | nil =>
    exact ⟨gives_opt.mpr (.inr ⟨start_dead (by decide +kernel) hb, rfl⟩), starters_loose hb⟩
  | cons u us ih =>
    obtain ⟨h1, h2⟩ := ih (fun x hx => hu x (by simp [hx]))
    have hk : ∀ y ∈ indicating, wordKind y = .single := by decide
    have hx := hu u (by simp)
    have hw : Gives (.call (.word u.selmaho)) (u :: (us ++ b)) b :=
      single_here (hk _ hx) (indicating_proper _ hx).2.2.1 rfl h2 h1
    have hi := indicator_of hx hw (starters_loose hb)
    have hall : Gives (.call .Indicators) (u :: (us ++ b)) b := by
      rw [gives_call, cst_indicators, gives_wrap, gives_seq]
      refine ⟨_, gives_opt.mpr (.inr ⟨?_, rfl⟩), gives_many1.mpr ⟨b, hi, gives_many0.mpr (.inl ⟨start_dead (by decide +kernel) hb, rfl⟩)⟩⟩
      exact word_error_before (xs := [u.selmaho]) (indicating_proper _ hx).1 (.inr rfl) (indicating_proper _ hx).2.2.2
        (single_before (hk _ hx) hw)
    exact ⟨gives_opt.mpr (.inl hall), indicators_here hall⟩

/-! ### Up to `.i` -/

/-- What is before the `.i`. -/
def Plain (l : List Token) : Prop := ∀ t ∈ l, t.selmaho ∉ Selmaho.I :: containers

theorem Plain.suffix (w l : List Token) (h : Plain (w ++ l)) : Plain l := fun t ht => h t (by simp [ht])

/-- After the first word proper there is no `bu` or `zei`. -/
def Firm (s : List Token) : Prop := ∀ bs t r, s = bs ++ t :: r → (∀ b ∈ bs, b.selmaho = Selmaho.Bahe) → Loose r

theorem loose_of {l : List Token} (h : ∀ bs t r, l = bs ++ t :: r → (∀ b ∈ bs, b.selmaho = Selmaho.Bahe) → t.selmaho ≠ .Bu ∧ t.selmaho ≠ .Zei) :
    Loose l := by
  constructor
  · refine bu_error ?_
    rintro t q rfl hbu
    exact (h [] t q rfl nofun).1 hbu
  · refine word_error (.inr rfl) ?_
    rintro ⟨bs, t, q, h1, h2, h3⟩
    exact (h bs t q h1 h2).2 h3

theorem buInner_firm {m : List Token} (hm : ∀ t r, m = t :: r → Loose r) {e : Gr}
    (he : ∀ r, Loose r → Peg cst e r .error) : Peg cst (.seq (.call .BuInner) e) m .error := by
  obtain ⟨o, ho⟩ := peg_total .BuInner m
  rcases buInner_out ho with rfl | ⟨t, r, vs, rfl, rfl⟩
  · exact .seqFirst ho trivial
  · exact .seqSecond ho (he r (hm t r rfl)) trivial

theorem lerfu_bu_firm {l : List Token} (h : Firm l) (e : Gr) :
    Peg cst (.seq (.opt (.call (.word .Bahe))) (.seq (.call .BuInner) (.seq (.many1 (.call (.word .Bu))) e))) l .error := by
  have hmid : ∀ bs m, l = bs ++ m → (∀ b ∈ bs, b.selmaho = Selmaho.Bahe) →
      Peg cst (.seq (.call .BuInner) (.seq (.many1 (.call (.word .Bu))) e)) m .error :=
    fun bs m hl hb => buInner_firm (fun t r hm => h bs t r (by rw [hl, hm]) hb)
      fun r hr => .seqFirst (.many1First hr.1 trivial) trivial
  obtain ⟨o, ho⟩ := peg_total (.word .Bahe) l
  cases o with
  | ok r vs =>
    obtain ⟨t, rfl, ht⟩ := bahe_word ho
    exact .seqSecond (.optPresent ho) (hmid [t] _ rfl (by simpa using ht)) trivial
  | error => exact .seqSecond (.optAbsent ho) (hmid [] _ rfl nofun) trivial
  | failure => exact absurd rfl (word_mild ho)

theorem zei_firm {l : List Token} (h : Firm l) : Peg cst (.call .ZeiClause) l .error := by
  have hz : cst .ZeiClause = .wrap (.node .ZeiClause) (.seq (.many0 (.call (.word .Bahe))) (.seq (.call .BuInner)
    (.seq (.many0 (.call .ZeiBuInner)) (.seq (.call .ZeiTail) (.seq (.not (.call (.word .Zei))) (.seq (.not (.call (.word .Bu)))
      (.opt (.call .Indicators)))))))) := rfl
  have hi : cst .ZeiBuInner = .wrap (.node .ZeiBuInner) (.seq (.opt (.call .ZeiTail)) (.many1 (.call (.word .Bu)))) := rfl
  refine .call ?_
  rw [hz]
  obtain ⟨bs, r, vs, rfl, hb, h1⟩ := bahes_total l
  refine .wrapBad (.seqSecond h1 (buInner_firm (fun t q hr => h bs t q (by rw [hr]) hb) ?_) trivial) trivial
  intro m hm
  have h2 : Peg cst (.call .ZeiBuInner) m .error := by
    refine .call ?_
    rw [hi]
    exact .wrapBad (.seqSecond (.optAbsent (zeiTail_loose hm)) (.many1First hm.1 trivial) trivial) trivial
  exact .seqSecond (.many0End h2) (.seqFirst (zeiTail_loose hm) trivial) trivial

/-- The first word proper of `l ++ i :: B`. -/
theorem first_word {l B bs r : List Token} {i t : Token} (hi : i.selmaho ≠ .Bahe) (he : l ++ i :: B = bs ++ t :: r)
    (hb : ∀ b ∈ bs, b.selmaho = Selmaho.Bahe) : (∃ l', l = bs ++ t :: l' ∧ r = l' ++ i :: B) ∨ (bs = l ∧ t = i ∧ r = B) := by
  rcases List.append_eq_append_iff.mp he with ⟨as, h1, h2⟩ | ⟨as, h1, h2⟩
  · cases as with
    | nil => simp only [List.nil_append, List.cons.injEq] at h2; simp at h1; exact .inr ⟨h1, h2.1.symm, h2.2.symm⟩
    | cons a as =>
      simp only [List.cons_append, List.cons.injEq] at h2
      obtain ⟨rfl, _⟩ := h2
      exact absurd (hb i (by rw [h1]; simp)) hi
  · cases as with
    | nil => simp only [List.nil_append, List.cons.injEq] at h2; simp at h1; exact .inr ⟨h1.symm, h2.1, h2.2⟩
    | cons a as =>
      simp only [List.cons_append, List.cons.injEq] at h2
      obtain ⟨rfl, rfl⟩ := h2
      exact .inl ⟨as, h1, rfl⟩

theorem plain_loose {l : List Token} (h : Plain l) : Loose l := by
  refine loose_of fun bs t r he _ => ?_
  have := h t (by rw [he]; simp)
  constructor <;> intro hx <;> rw [hx] at this <;> revert this <;> decide

theorem plain_firm {l : List Token} (h : Plain l) : Firm l := by
  intro bs t r he _
  refine plain_loose (Plain.suffix (bs ++ [t]) r ?_)
  rw [he] at h
  simpa using h

/-- What is before the `.i` together with it. -/
theorem plain_tail_loose {l B : List Token} {i : Token} (h : Plain l) (hi : i.selmaho = .I) : Loose (l ++ i :: B) := by
  refine loose_of fun bs t r he hb => ?_
  rcases first_word (by rw [hi]; decide) he hb with ⟨l', h1, _⟩ | ⟨_, rfl, _⟩
  · have := h t (by rw [h1]; simp)
    constructor <;> intro hx <;> rw [hx] at this <;> revert this <;> decide
  · rw [hi]; decide

theorem plain_tail_firm {l B : List Token} {i : Token} (h : Plain l) (hi : i.selmaho = .I) (hB : Loose B) : Firm (l ++ i :: B) := by
  intro bs t r he hb
  rcases first_word (by rw [hi]; decide) he hb with ⟨l', h1, rfl⟩ | ⟨_, _, rfl⟩
  · refine plain_tail_loose (Plain.suffix (bs ++ [t]) l' ?_) hi
    rw [h1] at h
    simpa using h
  · exact hB

/-- The words that do not occur. -/
theorem plain_dead {s : Selmaho} (hs : s ∈ containers) (hs' : s ≠ .Bu) {l B : List Token} {i : Token} (h : Plain l) (hi : i.selmaho = .I) :
    Peg cst (.call (.word s)) l .error ∧ Peg cst (.call (.word s)) (l ++ i :: B) .error := by
  have key : ∀ l', (∀ bs t r, l' = bs ++ t :: r → (∀ b ∈ bs, b.selmaho = Selmaho.Bahe) → t.selmaho ≠ s) → Peg cst (.call (.word s)) l' .error := by
    intro l' hl'
    have hraw : wordKind s = .raw → Peg cst (.call (.word s)) l' .error := by
      intro hk
      have he : cst (.word s) = wordBody s .raw := by rw [← hk]; rfl
      refine .call ?_
      rw [he]
      refine .seqFirst ?_ trivial
      cases l' with
      | nil => exact .rawEnd
      | cons t r => exact .rawOther (hl' [] t r rfl nofun)
    have hk : ∀ s ∈ containers, s ≠ .Bu → wordKind s = .single ∨ wordKind s = .noIndicators ∨ wordKind s = .raw := by decide
    have hword : wordKind s = .single ∨ wordKind s = .noIndicators → Peg cst (.call (.word s)) l' .error := by
      intro hk
      refine word_error hk ?_
      rintro ⟨bs, t, r, h1, h2, h3⟩
      exact hl' bs t r h1 h2 h3
    rcases hk s hs hs' with h | h | h
    · exact hword (.inl h)
    · exact hword (.inr h)
    · exact hraw h
  have hne : ∀ t ∈ l, t.selmaho ≠ s := by
    rintro t ht rfl
    exact h t ht (by simp [hs])
  refine ⟨key _ fun bs t r he _ => hne t (by rw [he]; simp), key _ fun bs t r he hb => ?_⟩
  rcases first_word (by rw [hi]; decide) he hb with ⟨l', h1, _⟩ | ⟨_, rfl, _⟩
  · exact hne t (by rw [h1]; simp)
  · rw [hi]; revert hs; cases s <;> decide

theorem cst_connected : cst .ConnectedSentenceSeparator = .wrap (.node .ConnectedSentenceSeparator) (.seq (.call (.word .I))
  (.seq (.call .JoikJek) (.call .Frees))) := rfl

theorem cst_close : cst .CloseSentenceSeparator = .wrap (.node .CloseSentenceSeparator) (.seq (.call (.word .I))
  (.seq (.opt (.call .JoikJek)) (.seq (.opt gTagWords) (.seq (.call (.word .Bo)) (.call .Frees))))) := rfl

theorem cst_separator : cst .SentenceSeparator = .wrap (.node .SentenceSeparator) (.seq (.call (.word .I))
  (.seq (.not (.call (.word .Bu))) (.call .Frees))) := rfl

/-- What `.i` leaves. -/
theorem word_i {l B b q : List Token} {i : Token} (h : Plain l) (hi : i.selmaho = .I) (hb : Gives (.opt (.call .Indicators)) B b)
    (hq : Gives (.call (.word .I)) (l ++ i :: B) q) : q = b := by
  obtain ⟨m, t, j, ⟨vs, h0⟩, ht, hj, _, rfl⟩ := (gives_single rfl).mp hq
  obtain ⟨bs, h1, h2⟩ := peg_bahes h0 rfl _ _ rfl
  rcases first_word (by rw [hi]; decide) h1 h2 with ⟨l', h3, _⟩ | ⟨_, _, rfl⟩
  · exact absurd (h t (by rw [h3]; simp)) (by rw [ht]; decide)
  · exact hj.unique hb

theorem plain_no_i {l : List Token} (h : Plain l) : Peg cst (.call (.word .I)) l .error := by
  refine word_error (.inl rfl) ?_
  rintro ⟨bs, t, r, h1, _, h3⟩
  exact h t (by rw [h1]; simp) (by simp [h3])

theorem no_separators {l : List Token} (h : Peg cst (.call (.word .I)) l .error) :
    Peg cst (.call .ConnectedSentenceSeparator) l .error ∧ Peg cst (.call .CloseSentenceSeparator) l .error ∧
    Peg cst (.call .SentenceSeparator) l .error := by
  refine ⟨.call ?_, .call ?_, .call ?_⟩
  · rw [cst_connected]; exact .wrapBad (.seqFirst h trivial) trivial
  · rw [cst_close]; exact .wrapBad (.seqFirst h trivial) trivial
  · rw [cst_separator]; exact .wrapBad (.seqFirst h trivial) trivial

theorem unconnected {l B b : List Token} {i : Token} (h : Plain l) (hi : i.selmaho = .I) (hb : Gives (.opt (.call .Indicators)) B b)
    (hs : Before starters b) : Peg cst (.call .ConnectedSentenceSeparator) (l ++ i :: B) .error ∧
    Peg cst (.call .CloseSentenceSeparator) (l ++ i :: B) .error := by
  rcases word_total .I (l ++ i :: B) with hw | ⟨q, hw⟩
  · exact ⟨(no_separators hw).1, (no_separators hw).2.1⟩
  · have := word_i h hi hb hw
    subst this
    obtain ⟨vs, hw⟩ := hw
    constructor
    · refine .call ?_
      rw [cst_connected]
      exact .wrapBad (.seqSecond hw (.seqFirst (start_dead (by decide +kernel) hs) trivial) trivial) trivial
    · refine .call ?_
      rw [cst_close]
      exact .wrapBad (.seqSecond hw (.seqSecond (.optAbsent (start_dead (by decide +kernel) hs))
        (.seqSecond (.optAbsent (start_tags hs)) (.seqFirst (start_dead (by decide +kernel) hs) trivial) trivial) trivial) trivial) trivial

/-! Tables -/

def wordSim : CRule → Bool
  | .word s => s != .I
  | .Indicators => true
  | .Indicator => true
  | _ => false

theorem word_sim (r : CRule) : wordSim r = true → tailT (fun _ => false) wordSim .I (cst r) = true := by
  cases r with
  | word s => cases s <;> decide +kernel
  | _ => decide +kernel

def iDead : CRule → Bool
  | .word s => containers.contains s && s != .Bu
  | .ZeiClause => true
  | .ConnectedSentenceSeparator => true
  | .CloseSentenceSeparator => true
  | _ => false

def iSim : CRule → Bool
  | .word s => s != .I
  | .BuInner => false
  | .ZoiDelimiter => false
  | .ZoiText => false
  | .ZeiTail => false
  | .ZeiBuInner => false
  | .ZeiClause => false
  | .ConnectedSentenceSeparator => false
  | .CloseSentenceSeparator => false
  | .Text => false
  | .Paragraphs => false
  | .Paragraph => false
  | .SentenceSeparator => false
  | _ => true

theorem i_sim (r : CRule) : iSim r = true → (r == .Lerfu) = false → tailT iDead iSim .I (cst r) = true := by
  cases r with
  | word s => cases s <;> decide +kernel
  | _ => decide +kernel

theorem wordCert {i : Token} (hi : i.selmaho = .I) (B : List Token) :
    TailCert cst Plain i B (fun _ => false) (fun _ => false) wordSim where
  closed := Plain.suffix
  isDead := nofun
  isBase := nofun
  isSim r h _ := by rw [hi]; exact word_sim r h

theorem iCert {B b : List Token} {i : Token} (hi : i.selmaho = .I) (hB : Loose B) (hb : Gives (.opt (.call .Indicators)) B b)
    (hs : Before starters b) : TailCert cst Plain i B iDead (fun r => r == .Lerfu) iSim where
  closed := Plain.suffix
  isDead r l hr hl := by
    cases r with
    | word s =>
      simp only [iDead, List.contains_iff_mem, Bool.and_eq_true, bne_iff_ne, ne_eq] at hr
      exact plain_dead hr.1 hr.2 hl hi
    | ZeiClause => exact ⟨zei_firm (plain_firm hl), zei_firm (plain_tail_firm hl hi hB)⟩
    | ConnectedSentenceSeparator => exact ⟨(no_separators (plain_no_i hl)).1, (unconnected hl hi hb hs).1⟩
    | CloseSentenceSeparator => exact ⟨(no_separators (plain_no_i hl)).2.1, (unconnected hl hi hb hs).2⟩
    | _ => cases hr
  isBase r l o hr hl hp := by
    simp only [beq_iff_eq] at hr
    subst hr
    have hz : cst .Lerfu = .alt (.wrap (.node .Lerfu_Bu) (.seq (.opt (.call (.word .Bahe))) (.seq (.call .BuInner)
      (.seq (.many1 (.call (.word .Bu))) (.many0 (.call .Indicators)))))) (.wrap (.node .Lerfu_By) (.call (.word .By))) := rfl
    refine .call ?_
    rw [hz] at hp ⊢
    have hno : Peg cst (.wrap (.node .Lerfu_Bu) (.seq (.opt (.call (.word .Bahe))) (.seq (.call .BuInner)
      (.seq (.many1 (.call (.word .Bu))) (.many0 (.call .Indicators)))))) l .error := .wrapBad (lerfu_bu_firm (plain_firm hl) _) trivial
    refine .altSecond (.wrapBad (lerfu_bu_firm (plain_tail_firm hl hi hB) _) trivial) ?_
    cases hp with
    | altFirst h1 hne => exact absurd (h1.unique _ hno) hne
    | altSecond _ h2 => exact peg_tail (wordCert hi B) h2 (by rw [hi]; rfl) hl
  isSim r h1 h2 := by rw [hi]; exact i_sim r h1 h2

/-! ### The text -/

/-- `(SentenceSeparator, ParagraphItem)` -/
def nextItem : Gr := .wrap .tuple (.seq (.call .SentenceSeparator) (.call .ParagraphItem))

theorem gives_paragraph {s q : List Token} : Gives (.call .Paragraph) s q ↔
    ∃ a b, Gives (.opt (.call .SentenceSeparator)) s a ∧ Gives (.call .ParagraphItem) a b ∧ Gives (.many0 nextItem) b q := by
  have he : cst .Paragraph = .wrap (.node .Paragraph) (.seq (.opt (.call .SentenceSeparator))
    (.wrap .sep (.seq (.call .ParagraphItem) (.many0 nextItem)))) := rfl
  rw [gives_call, he, gives_wrap, gives_seq]
  constructor
  · rintro ⟨a, h1, h⟩
    obtain ⟨b, h2, h3⟩ := gives_seq.mp (gives_wrap.mp h)
    exact ⟨a, b, h1, h2, h3⟩
  · rintro ⟨a, b, h1, h2, h3⟩
    exact ⟨a, h1, gives_wrap.mpr (gives_seq.mpr ⟨b, h2, h3⟩)⟩

theorem gives_nextItem {s q : List Token} : Gives nextItem s q ↔
    ∃ m, Gives (.call .SentenceSeparator) s m ∧ Gives (.call .ParagraphItem) m q := by
  rw [nextItem, gives_wrap, gives_seq]

/-- **The text `A .i B`.** -/
theorem join_i {A B us b : List Token} {i : Token} (hi : i.selmaho = .I)
    (hA : ∀ t ∈ A, t.selmaho ∉ [Selmaho.Zo, .Zoi, .Lohu, .Zei, .Bu, .To, .Lu, .Tuhe, .Niho, .Faho, .I])
    (hlast : ∀ t, A.getLast? = some t → t.selmaho ≠ .Bahe)
    (hB : B = us ++ b) (hu : ∀ u ∈ us, u.selmaho ∈ indicating) (hb : Before starters b) :
    Gives (.call .Text) (A ++ i :: B) [] ↔ Gives (.call .Text) A [] ∧ Gives (.call .Text) B [] := by
  obtain ⟨hind, hloose⟩ := indicators_row hu hb
  rw [← hB] at hind hloose
  have c := iCert hi hloose hind hb
  have hplain : ∀ w l, A = w ++ l → Plain l := by
    rintro w l rfl t ht hc
    refine hA t (by simp [ht]) ?_
    have : ∀ s ∈ Selmaho.I :: containers, s ∈ [Selmaho.Zo, .Zoi, .Lohu, .Zei, .Bu, .To, .Lu, .Tuhe, .Niho, .Faho, .I] := by decide
    exact this _ hc
  have hsim : ∀ r, iSim r = true → ∀ w l, A = w ++ l → _ := fun r hr w l h => tail_gives c hr (hplain w l h)
  have hnil : ∀ x, wordKind x = .single → Peg cst (.call (.word x)) [] .error :=
    fun x hx => word_error (.inl hx) (by rintro ⟨bs, t, q, h, _⟩; simp at h)
  -- the words that are not in `A`
  have hno : ∀ x ∈ [Selmaho.Niho, .Faho, .I], ∀ w l tail, A = w ++ l → l ≠ [] → Peg cst (.call (.word x)) (l ++ tail) .error := by
    rintro x hx w l tail rfl hne
    refine no_word ?_ hne (fun t ht hc => hA t (by simp [ht]) ?_) (last_suffix hlast)
    · revert hx; cases x <;> decide
    · rw [hc]; revert hx; cases x <;> decide
  have hno' : ∀ x ∈ [Selmaho.Niho, .Faho, .I], ∀ w l, A = w ++ l → Peg cst (.call (.word x)) l .error := by
    intro x hx w l h
    by_cases hl : l = []
    · subst hl
      refine hnil x ?_
      revert hx; cases x <;> decide
    · have := hno x hx w l [] h hl
      rwa [List.append_nil] at this
  have hnext : ∀ s, Peg cst (.call (.word .Niho)) s .error → Peg cst nextParagraph s .error := fun s hs =>
    .wrapBad (.seqFirst (separator_error hs) trivial) trivial
  have hnexti : ∀ s, Peg cst (.call (.word .I)) s .error → Peg cst nextItem s .error := fun s hs =>
    .wrapBad (.seqFirst (no_separators hs).2.2 trivial) trivial
  -- `.i`
  have hT : Before [.I] (i :: B) := .inr ⟨[], i, B, rfl, nofun, by simp [hi], hloose⟩
  have hTn : Peg cst (.call (.word .Niho)) (i :: B) .error := word_error_before (by decide) (.inl rfl) (by decide) hT
  have hTf : Peg cst (.call (.word .Faho)) (i :: B) .error := word_error_before (by decide) (.inl rfl) (by decide) hT
  have hword : Gives (.call (.word .I)) (i :: B) b := single_here rfl (by decide) hi hloose hind
  have hsep : Gives (.call .SentenceSeparator) (i :: B) b := by
    rw [gives_call, cst_separator, gives_wrap, gives_seq]
    exact ⟨b, hword, gives_seq.mpr ⟨b, gives_not.mpr ⟨(starters_loose hb).1, rfl⟩, start_frees hb⟩⟩
  have hbi : Peg cst (.call (.word .I)) b .error := start_dead (by decide +kernel) hb
  have hbn : Peg cst (.call (.word .Niho)) b .error := start_dead (by decide +kernel) hb
  have hblen : b.length < (i :: B).length := by rw [hB]; simp; omega
  -- the text `B`
  have hBtext : Gives (.call .Text) B [] ↔ ∃ p m c, Gives (.call .ParagraphItem) b p ∧ Gives (.many0 nextItem) p m ∧
      Gives (.many0 nextParagraph) m c ∧ Closes c := by
    rw [gives_text]
    constructor
    · rintro ⟨j, h1, a, s, c, h2, h3, h4, h5⟩
      have := h1.unique hind
      subst this
      have := h2.unique (start_frees hb)
      subst this
      have hs : s = a := by
        rcases gives_opt.mp h3 with h3 | ⟨_, h3⟩
        · exact (h3.not_error (separator_error hbn)).elim
        · exact h3
      subst hs
      obtain ⟨m, h6, h7⟩ := gives_paragraphs.mp h4
      obtain ⟨x, p, h8, h9, h10⟩ := gives_paragraph.mp h6
      have hx : x = s := by
        rcases gives_opt.mp h8 with h8 | ⟨_, h8⟩
        · exact (h8.not_error (no_separators hbi).2.2).elim
        · exact h8
      subst hx
      exact ⟨p, m, c, h9, h10, h7, h5⟩
    · rintro ⟨p, m, c, h1, h2, h3, h4⟩
      exact ⟨b, hind, b, b, c, start_frees hb, gives_opt.mpr (.inr ⟨separator_error hbn, rfl⟩),
        gives_paragraphs.mpr ⟨m, gives_paragraph.mpr ⟨b, p, gives_opt.mpr (.inr ⟨(no_separators hbi).2.2, rfl⟩), h1, h2⟩, h3⟩, h4⟩
  -- from the `.i` on
  have hmore : ∀ m, Gives (.many0 nextItem) (i :: B) m ↔ ∃ p, Gives (.call .ParagraphItem) b p ∧ Gives (.many0 nextItem) p m := by
    intro m
    constructor
    · intro h
      rcases gives_many0.mp h with ⟨h1, _⟩ | ⟨k, h1, _, h2⟩
      · exfalso
        cases h1 with
        | wrapBad h1 _ =>
          cases h1 with
          | seqFirst h1 _ => exact hsep.not_error h1
          | seqSecond _ h1 _ => exact peg_never rfl h1 rfl
      · obtain ⟨d, h3, h4⟩ := gives_nextItem.mp h1
        have := h3.unique hsep
        subst this
        exact ⟨k, h4, h2⟩
    · rintro ⟨p, h1, h2⟩
      refine gives_many0.mpr (.inr ⟨p, gives_nextItem.mpr ⟨b, hsep, h1⟩, ?_, h2⟩)
      obtain ⟨w, hw⟩ := gives_suffix h1
      rw [hw, List.length_append] at hblen
      omega
  have hparas : ∀ s m, Gives (.call .Paragraph) s m → Peg cst (.call (.word .Niho)) m .error → Gives (.call .Paragraphs) s m :=
    fun s m h1 h2 => gives_paragraphs.mpr ⟨m, h1, gives_many0.mpr (.inl ⟨hnext m h2, rfl⟩)⟩
  have hpar : ∀ s m, Peg cst (.call (.word .I)) s .error → Gives (.call .ParagraphItem) s m → Peg cst (.call (.word .I)) m .error →
      Gives (.call .Paragraph) s m :=
    fun s m h1 h2 h3 => gives_paragraph.mpr ⟨s, m, gives_opt.mpr (.inr ⟨(no_separators h1).2.2, rfl⟩), h2,
      gives_many0.mpr (.inl ⟨hnexti m h3, rfl⟩)⟩
  have hend : Closes [] := gives_opt.mpr (.inr ⟨hnil .Faho rfl, rfl⟩)
  rw [hBtext]
  constructor
  · intro h
    obtain ⟨j, h1, a, s, c, h2, h3, h4, h5⟩ := gives_text.mp h
    have : ∃ j', j = j' ++ i :: B ∧ Gives (.opt (.call .Indicators)) A j' := by
      have hs := hsim .Indicators rfl [] A rfl
      rcases gives_opt.mp h1 with h1' | ⟨h1', rfl⟩
      · obtain ⟨i', h6, h7⟩ := hs.2.2 _ h1'
        exact ⟨i', h6, gives_opt.mpr (.inl h7)⟩
      · exact ⟨A, rfl, gives_opt.mpr (.inr ⟨hs.1.mpr h1', rfl⟩)⟩
    obtain ⟨j', rfl, h1'⟩ := this
    obtain ⟨w1, hw1⟩ := gives_suffix h1'
    obtain ⟨a', rfl, h2'⟩ := (hsim .Frees rfl w1 j' hw1).2.2 _ h2
    obtain ⟨w2, hw2⟩ := gives_suffix h2'
    have hA2 : A = (w1 ++ w2) ++ a' := by rw [hw1, hw2, List.append_assoc]
    have hs : s = a' ++ i :: B := by
      rcases gives_opt.mp h3 with h3 | ⟨_, h3⟩
      · exfalso
        by_cases ha : a' = []
        · subst ha; exact h3.not_error (separator_error hTn)
        · exact h3.not_error (separator_error (hno .Niho (by decide) _ a' _ hA2 ha))
      · exact h3
    subst hs
    obtain ⟨m, h6, h7⟩ := gives_paragraphs.mp h4
    obtain ⟨x, p, h8, h9, h10⟩ := gives_paragraph.mp h6
    by_cases ha : a' = []
    · subst ha
      have hx : x = b := by
        rcases gives_opt.mp h8 with h8 | ⟨h8, _⟩
        · exact h8.unique hsep
        · exact (hsep.not_error h8).elim
      subst hx
      refine ⟨gives_text.mpr ⟨j', h1', [], [], [], h2', ?_, hparas _ _ (paragraph_before_niho (.inl rfl)) (hnil _ rfl), hend⟩,
        p, m, c, h9, h10, h7, h5⟩
      exact gives_opt.mpr (.inr ⟨separator_error (hnil _ rfl), rfl⟩)
    · have hx : x = a' ++ i :: B := by
        rcases gives_opt.mp h8 with h8 | ⟨_, h8⟩
        · exact (h8.not_error (no_separators (hno .I (by decide) _ a' _ hA2 ha)).2.2).elim
        · exact h8
      subst hx
      obtain ⟨p', rfl, h9'⟩ := (hsim .ParagraphItem rfl _ a' hA2).2.2 _ h9
      obtain ⟨w3, hw3⟩ := gives_suffix h9'
      have hA3 : A = (w1 ++ w2 ++ w3) ++ p' := by rw [hA2, hw3]; simp
      by_cases hp : p' = []
      · subst hp
        obtain ⟨p, h11, h12⟩ := (hmore m).mp h10
        refine ⟨gives_text.mpr ⟨j', h1', a', a', [], h2', ?_, hparas _ _ (hpar _ _ (hno' .I (by decide) _ a' hA2) h9' (hnil _ rfl)) (hnil _ rfl), hend⟩,
          p, m, c, h11, h12, h7, h5⟩
        exact gives_opt.mpr (.inr ⟨separator_error (hno' .Niho (by decide) _ a' hA2), rfl⟩)
      · exfalso
        have hm : m = p' ++ i :: B := by
          rcases gives_many0.mp h10 with ⟨_, h⟩ | ⟨k, h, _⟩
          · exact h
          · exact (h.not_error (hnexti _ (hno .I (by decide) _ p' _ hA3 hp))).elim
        subst hm
        have hc : c = p' ++ i :: B := by
          rcases gives_many0.mp h7 with ⟨_, h⟩ | ⟨k, h, _⟩
          · exact h
          · exact (h.not_error (hnext _ (hno .Niho (by decide) _ p' _ hA3 hp))).elim
        subst hc
        rcases gives_opt.mp h5 with h5 | ⟨_, h5⟩
        · exact h5.not_error (hno .Faho (by decide) _ p' _ hA3 hp)
        · simp at h5
  · rintro ⟨h, p, m, c, hb1, hb2, hb3, hb4⟩
    obtain ⟨j, h1, a, s, e, h2, h3, h4, h5⟩ := gives_text.mp h
    obtain ⟨w1, hw1⟩ := gives_suffix h1
    obtain ⟨w2, hw2⟩ := gives_suffix h2
    have hA2 : A = (w1 ++ w2) ++ a := by rw [hw1, hw2, List.append_assoc]
    have hs : s = a := by
      rcases gives_opt.mp h3 with h3 | ⟨_, h3⟩
      · exact (h3.not_error (separator_error (hno' .Niho (by decide) _ a hA2))).elim
      · exact h3
    subst hs
    obtain ⟨m', h6, h7⟩ := gives_paragraphs.mp h4
    obtain ⟨x, p', h8, h9, h10⟩ := gives_paragraph.mp h6
    have hx : x = s := by
      rcases gives_opt.mp h8 with h8 | ⟨_, h8⟩
      · exact (h8.not_error (no_separators (hno' .I (by decide) _ s hA2)).2.2).elim
      · exact h8
    subst hx
    obtain ⟨w3, hw3⟩ := gives_suffix h9
    have hA3 : A = (w1 ++ w2 ++ w3) ++ p' := by rw [hA2, hw3]; simp
    have hm : m' = p' := by
      rcases gives_many0.mp h10 with ⟨_, h⟩ | ⟨k, h, _⟩
      · exact h
      · exact (h.not_error (hnexti _ (hno' .I (by decide) _ p' hA3))).elim
    subst hm
    have he : e = m' := by
      rcases gives_many0.mp h7 with ⟨_, h⟩ | ⟨k, h, _⟩
      · exact h
      · exact (h.not_error (hnext _ (hno' .Niho (by decide) _ m' hA3))).elim
    subst he
    have he : e = [] := by
      rcases gives_opt.mp h5 with h5 | ⟨_, h5⟩
      · exact (h5.not_error (hno' .Faho (by decide) _ e hA3)).elim
      · exact h5.symm
    subst he
    have h1' : Gives (.opt (.call .Indicators)) (A ++ i :: B) (j ++ i :: B) := by
      have hs := hsim .Indicators rfl [] A rfl
      rcases gives_opt.mp h1 with h1' | ⟨h1', rfl⟩
      · exact gives_opt.mpr (.inl (hs.2.1 _ h1'))
      · exact gives_opt.mpr (.inr ⟨hs.1.mp h1', rfl⟩)
    have h2' := (hsim .Frees rfl w1 j hw1).2.1 _ h2
    by_cases ha : x = []
    · subst ha
      simp only [List.nil_append] at h2'
      exact gives_text.mpr ⟨_, h1', _, _, c, h2', gives_opt.mpr (.inr ⟨separator_error hTn, rfl⟩), gives_paragraphs.mpr
        ⟨m, gives_paragraph.mpr ⟨b, p, gives_opt.mpr (.inl hsep), hb1, hb2⟩, hb3⟩, hb4⟩
    · have h9' := (hsim .ParagraphItem rfl _ x hA2).2.1 _ h9
      rw [List.nil_append] at h9'
      refine gives_text.mpr ⟨_, h1', _, _, c, h2', gives_opt.mpr (.inr ⟨separator_error (hno .Niho (by decide) _ x _ hA2 ha), rfl⟩),
        gives_paragraphs.mpr ⟨m, gives_paragraph.mpr ⟨_, _, gives_opt.mpr (.inr ⟨?_, rfl⟩), h9', (hmore m).mpr ⟨p, hb1, hb2⟩⟩, hb3⟩, hb4⟩
      exact (no_separators (hno .I (by decide) _ x _ hA2 ha)).2.2

end Sneturfahi
