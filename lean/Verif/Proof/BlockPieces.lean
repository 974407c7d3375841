import Verif.Proof.BlockTabs
import Verif.Proof.DupTabs

/-!
# A piece exchanged for another: each piece is read whole
-/

namespace Sneturfahi.Block

open Spec Dup

/-! ### Productions that do not apply before an opening word -/

/-- Selma'o of opening words, for which something is to be tried before. -/
def openers : List Selmaho := [.Lu, .Li, .Le, .To, .Soi, .Noi]

def opUnknown : Selmaho → List CRule
  | .Lu => [.Text, .Paragraphs, .Paragraph, .ParagraphItem, .Sentences1, .Sentences3, .Sentence, .Subsentence, .Args, .TailArgs, .Prenex, .Arg, .Arg3,
      .TagValue, .Sumti, .Sumti1, .Sumti3, .Sumti4, .SumtiComponent1, .LuSumti, .GadriSumtiPre, .VocativeValue]
  | .Li => [.Text, .Paragraphs, .Paragraph, .ParagraphItem, .Sentences1, .Sentences3, .Sentence, .Subsentence, .Args, .TailArgs, .Prenex, .Arg, .Arg3,
      .TagValue, .Sumti, .Sumti1, .Sumti3, .Sumti4, .SumtiComponent1, .GadriSumtiPre, .VocativeValue]
  | .Le => [.Text, .Paragraphs, .Paragraph, .ParagraphItem, .Sentences1, .Sentences3, .Sentence, .Subsentence, .Args, .TailArgs, .Prenex, .Arg, .Arg3,
      .TagValue, .Sumti, .Sumti1, .Sumti3, .Sumti4, .SumtiComponent1, .GadriSumtiPre, .VocativeValue, .GadriSumti, .Gadri]
  | .Noi => [.RelativeClauses, .RelativeClause, .NoiRelativeClause, .GadriSumtiPre]
  | _ => [.Frees, .Text, .Paragraphs, .Paragraph, .ParagraphItem, .Sentences1, .Sentences3, .Sentence, .SentenceTail, .SentenceTail1, .SentenceTail2,
      .SentenceTail3, .SentenceTail4, .Subsentence, .TailArgs, .Selbri, .Selbri1, .Selbri2, .Selbri3, .Selbri4, .Selbri5, .GadriSumtiContents, .Free,
      .SeiTail, .VocativeValue, .Expression, .Expression1, .ForethoughtExpression, .Operator, .Operator1]

def opHalt (w : Selmaho) (r : CRule) : Halt := if r = .word .Bahe then .dead else beforeTab [w] (opUnknown w) r

theorem op_all (r : CRule) (h : beforeBase r = false) :
    openers.all (fun w => opHalt w r == .unknown || haltG (opHalt w) (cst r) == opHalt w r) = true := by
  revert h
  cases r with
  | word s => intro h; cases h
  | _ => decide +kernel

theorem op_says {w : Selmaho} (hw : w ∈ openers) {b : Token} {B : List Token} (hb : b.selmaho = w) (hc : Clean (b :: B)) {e : Gr} {o : Outcome}
    (h : Peg cst e (b :: B) o) : (haltG (opHalt w) e).Says (b :: B) o := by
  refine peg_halt (D := fun s => s = b :: B) (base := beforeBase) ?_ (fun r h => by simpa using List.all_eq_true.mp (op_all r h) w hw) h rfl
  rintro r s o hr rfl hp
  have err : ∀ x, x ∈ outs → Peg cst (.call (.word x)) B .error := by
    intro x hx
    obtain ⟨o, ho⟩ := total (.call (.word x)) B
    have := off_error ho (hc.sub (by simp +contextual)) (by simpa [offG, offR] using hx)
    subst this; exact ho
  have hbahe : Selmaho.Bahe ≠ w := by rintro rfl; revert hw; decide
  have hbef : Before [w] (b :: B) := .inr ⟨[], b, B, rfl, nofun, by simp [hb], err .Bu (by decide), err .Zei (by decide)⟩
  simp only [opHalt]
  split
  · rename_i h; subst h
    have hz : cst (.word .Bahe) = .seq (.raw .Bahe) (.seq (.not (.call (.word .Bu))) (.not (.call (.word .Zei)))) := rfl
    rw [hz] at hp
    exact hp.unique _ (.seqFirst (.rawOther (by rw [hb]; exact hbahe.symm)) trivial)
  · refine before_base ?_ ?_ r _ o hr hbef hp
    · revert hw; generalize w = y; cases y <;> first | (intro h; exact absurd h (by decide)) | (intro _; exact ⟨by decide, by decide, by decide⟩)
    · revert hw; generalize w = y; cases y <;> first | (intro h; exact absurd h (by decide)) | (intro _; decide)

/-- Does not apply. -/
theorem op_error {w : Selmaho} (hw : w ∈ openers) {b : Token} {B : List Token} (hb : b.selmaho = w) (hc : Clean (b :: B)) (e : Gr)
    (he : haltG (opHalt w) e = .dead) : Peg cst e (b :: B) .error := by
  obtain ⟨o, ho⟩ := total e (b :: B)
  have := op_says hw hb hc ho
  rw [he] at this
  cases (show o = .error from this)
  exact ho

/-! ### Pieces -/

def mapV (g : List Val → List Val) : Outcome → Outcome
  | .ok r is => .ok r (g is)
  | .error => .error
  | .failure => .failure

/-- Whatever comes after it, `sp` reads all of the piece `A` and what `tl` reads after it, and makes `f` of that. -/
def Whole (sp : CRule) (tl : Gr) (A : List Token) (f : List Val → Val) : Prop :=
  ∀ Y, Clean Y → ∀ o, Peg cst tl Y o → Peg cst (.call sp) (A ++ Y) (mapV (fun is => [f is]) o)

/-- What may follow a closing word. -/
def gTail : Gr := .seq gInd (.call .Frees)

theorem ind_good {Y : List Token} {o : Outcome} (h : Peg cst gInd Y o) : ∃ r i, o = .ok r [.many i] := by
  obtain ⟨r, i, h'⟩ := ind_read Y
  exact ⟨r, i, h.unique _ h'⟩

theorem frees_never {Y : List Token} {o : Outcome} (hY : Clean Y) (h : Peg cst (.call .Frees) Y o) : o ≠ .error :=
  nev_never h hY (by decide +kernel)

def closed (c : Token) : List Val → List Val
  | ind :: more => .many [.node (.word c.selmaho) [.many [], .leaf .token c, ind]] :: more
  | [] => []

theorem closed_fields (inner : List Val) (c : Token) (is : List Val) : closedFields inner c is = inner ++ closed c is := by
  cases is <;> simp [closedFields, closed]

theorem close_read {c : Token} (hk : wordKind c.selmaho = .single) {Y : List Token} (hY : Clean Y) {o : Outcome} (h : Peg cst gInd Y o) :
    Peg cst (.opt (.call (.word c.selmaho))) (c :: Y) (mapV (closed c) o) := by
  obtain ⟨r, i, rfl⟩ := ind_good h
  exact .optPresent (word_read hk rfl hY h)

theorem close_tail {c : Token} (hk : wordKind c.selmaho = .single) {Y : List Token} (hY : Clean Y) {o : Outcome} (h : Peg cst gTail Y o) :
    Peg cst (.seq (.opt (.call (.word c.selmaho))) (.call .Frees)) (c :: Y) (mapV (closed c) o) := by
  cases h with
  | seq h1 h2 =>
    obtain ⟨i, rfl⟩ := ind_ok h1
    exact .seq (close_read hk hY h1) h2
  | seqFirst h1 hb => obtain ⟨_, _, rfl⟩ := ind_good h1; exact hb.elim
  | @seqSecond _ _ _ _ _ o h1 h2 hb =>
    have : mapV (closed c) o = o := by cases o <;> first | exact hb.elim | rfl
    rw [this]
    exact .seqSecond (close_read hk hY h1) h2 hb

theorem tail_never {Y : List Token} {o : Outcome} (hY : Clean Y) (h : Peg cst gTail Y o) : o ≠ .error := by
  cases h with
  | seq h1 h2 => nofun
  | seqFirst h1 hb => obtain ⟨_, _, rfl⟩ := ind_good h1; exact hb.elim
  | seqSecond h1 h2 hb => exact frees_never (hY.rest h1) h2

section
variable {ts : List Selmaho} {fails nosim : List CRule} {c : Token} {Y : List Token}

/-- Free of `ts`, and of quotes. -/
def FreeOf (ts : List Selmaho) (S : List Token) : Prop := (∀ t ∈ S, t.selmaho ∉ ts) ∧ Clean S

theorem FreeOf.rest {e : Gr} {S r : List Token} {vs : List Val} (h : FreeOf ts S) (hp : Peg cst e S (.ok r vs)) : FreeOf ts r := by
  refine ⟨fun t ht => h.1 t ?_, h.2.rest hp⟩
  rw [hp.cuts _ _ rfl]
  simp [ht]

/-- What begins with the opening word is read in the same way when it goes on. -/
def Begins (ts : List Selmaho) (c : Token) (Y : List Token) (o : Token) (e : Gr) : Prop :=
  ∀ S r vs, FreeOf ts S → Peg cst e (o :: S) (.ok r vs) → FreeOf ts r ∧ Peg cst e (o :: S ++ c :: Y) (.ok (r ++ c :: Y) vs)

theorem begins_word (hk : Closes ts c.selmaho fails nosim) (hY : Clean (c :: Y)) (hp : plainG (bTab ts c.selmaho fails nosim) gInd = true)
    {s : Selmaho} (hs : wordKind s = .single ∨ wordKind s = .raw) {o : Token} (ho : o.selmaho = s) : Begins ts c Y o (.call (.word s)) := by
  intro S r vs hS h
  rcases hs with hs | hs
  case inr =>
    cases h.unique _ (word_raw hs ho hS.2)
    exact ⟨hS, word_raw hs ho (clean_app hS.2 hY)⟩
  obtain ⟨r', i, h'⟩ := ind_read S
  cases h.unique _ (word_read hs ho hS.2 h')
  refine ⟨hS.rest h', ?_⟩
  exact word_read hs ho (clean_app hS.2 hY) (ext hk (hY.sub (by simp +contextual)) h' hS.1 hp)

theorem begins_free (hk : Closes ts c.selmaho fails nosim) (hY : Clean (c :: Y)) (hp : plainG (bTab ts c.selmaho fails nosim) (.call .Frees) = true)
    {e : Gr} {o : Token} (he : Begins ts c Y o e) : Begins ts c Y o (gWithFree e) := by
  intro S r vs hS h
  obtain ⟨us, hu, rfl⟩ := peg_wrap_ok h
  cases hu with
  | seqFirst _ hb => exact hb.elim
  | seqSecond _ _ hb => exact hb.elim
  | seq h1 h2 =>
    obtain ⟨h3, h4⟩ := he _ _ _ hS h1
    exact ⟨h3.rest h2, .wrap (.seq h4 (ext hk (hY.sub (by simp +contextual)) h2 h3.1 hp))⟩

theorem begins_alt {a b : Gr} {o : Token} (ha : Begins ts c Y o a) (hb : ∀ S, FreeOf ts S → Peg cst b (o :: S) .error) : Begins ts c Y o (.alt a b) := by
  intro S r vs hS h
  cases h with
  | altFirst h1 _ => exact ⟨(ha _ _ _ hS h1).1, .altFirst (ha _ _ _ hS h1).2 nofun⟩
  | altSecond h1 h2 => cases h2.unique _ (hb _ hS)

theorem begins_wrap {a : Gr} {o : Token} {sh : CShape} (ha : Begins ts c Y o a) : Begins ts c Y o (.wrap sh a) := by
  intro S r vs hS h
  obtain ⟨us, hu, rfl⟩ := peg_wrap_ok h
  exact ⟨(ha _ _ _ hS hu).1, .wrap (ha _ _ _ hS hu).2⟩

theorem begins_seq (hk : Closes ts c.selmaho fails nosim) (hY : Clean Y) {a b : Gr} {o : Token} (ha : Begins ts c Y o a)
    (hp : plainG (bTab ts c.selmaho fails nosim) b = true) : Begins ts c Y o (.seq a b) := by
  intro S r vs hS h
  cases h with
  | seqFirst _ hb => exact hb.elim
  | seqSecond _ _ hb => exact hb.elim
  | seq h1 h2 =>
    obtain ⟨h3, h4⟩ := ha _ _ _ hS h1
    exact ⟨h3.rest h2, .seq h4 (ext hk hY h2 h3.1 hp)⟩

end

theorem seq_tail {a t : Gr} {L M : List Token} {inner : List Val} {o : Outcome} {g : List Val → List Val} (h1 : Peg cst a L (.ok M inner))
    (h2 : Peg cst t M (mapV g o)) : Peg cst (.seq a t) L (mapV (fun is => inner ++ g is) o) := by
  cases o with
  | ok r is => exact .seq h1 h2
  | error => exact .seqSecond h1 h2 trivial
  | failure => exact .seqSecond h1 h2 trivial

theorem seq_assoc {a b t : Gr} {L : List Token} {o : Outcome} (h : Peg cst (.seq (.seq a b) t) L o) : Peg cst (.seq a (.seq b t)) L o := by
  cases h with
  | seq h1 h2 =>
    cases h1 with
    | seqFirst _ hb => exact hb.elim
    | seqSecond _ _ hb => exact hb.elim
    | seq h3 h4 => rw [List.append_assoc]; exact .seq h3 (.seq h4 h2)
  | seqFirst h1 hb =>
    cases h1 with
    | seq => exact hb.elim
    | seqFirst h3 _ => exact .seqFirst h3 hb
    | seqSecond h3 h4 _ => exact .seqSecond h3 (.seqFirst h4 hb) hb
  | seqSecond h1 h2 hb =>
    cases h1 with
    | seqFirst _ hb => exact hb.elim
    | seqSecond _ _ hb => exact hb.elim
    | seq h3 h4 => exact .seqSecond h3 (.seqSecond h4 h2 hb) hb

theorem wrap_tail {a : Gr} {L : List Token} {o : Outcome} {g : List Val → List Val} {n : NodeName} (h : Peg cst a L (mapV g o)) :
    Peg cst (.wrap (.node n) a) L (mapV (fun is => [.node n (g is)]) o) := by
  cases o with
  | ok r is => exact .wrap h
  | error => exact .wrapBad h trivial
  | failure => exact .wrapBad h trivial

theorem alt_tail {a b : Gr} {L : List Token} {o : Outcome} {g : List Val → List Val} (h : Peg cst a L (mapV g o)) (ho : o ≠ .error) :
    Peg cst (.alt a b) L (mapV g o) := .altFirst h (by cases o <;> simp_all [mapV])

/-! ### The brackets -/

def quoting : List Selmaho := [.Zo, .Zoi, .Lohu, .Zei, .Bu]

/-- Words that do not occur between the brackets. -/
def clTs (o : Selmaho) : List Selmaho := quoting ++ barred o

def clBase : List CRule := [.ZeiClause, .ZeiBuInner, .ZeiTail, .LohuSumti, .ZoSumti, .ZoiSumti]

def clFails : Selmaho → List CRule
  | .Lu => .LuSumti :: clBase
  | .Noi => .NoiRelativeClause :: clBase
  | .Goi => .GoiRelativeClause :: clBase
  | .Be => .BoundArguments :: clBase
  | .Le => [.BoundArguments, .ZeiClause, .ZeiBuInner, .ZeiTail, .VuhoRelative, .RelativeClauses, .RelativeClause, .GoiRelativeClause, .NoiRelativeClause,
      .Quantifier, .Number, .LohuSumti, .LuSumti, .GadriSumti, .Gadri, .LaSumti, .ZoSumti, .ZoiSumti]
  | _ => clBase

def clNosim : Selmaho → List CRule
  | .Le => [.Text, .Paragraphs, .Paragraph, .ParagraphItem, .Sentences1, .Sentences3, .Sentence, .SentenceTail, .SentenceTail1, .SentenceTail1After,
      .SentenceTail2, .SentenceTail2After, .SentenceTail3, .SentenceTail3After, .SentenceTail4, .GekSentence, .Subsentence, .Args, .TailArgs, .Prenex, .Arg,
      .Arg3, .Termset, .Tag, .TagValue]
  | _ => []

theorem cl_all (r : CRule) : brackets.all (fun x => bChecks (clTs x.1) x.2.1 (clFails x.1) (clNosim x.1) r) = true := by
  cases r with
  | word s => cases s <;> decide +kernel
  | _ => decide +kernel

theorem cl_closes {o c : Selmaho} {r : CRule} (h : (o, c, r) ∈ brackets) : Closes (clTs o) c (clFails o) (clNosim o) where
  out := by
    have : brackets.all (fun x => !(clTs x.1).contains x.2.1) = true := by decide +kernel
    simpa using List.all_eq_true.mp this _ h
  bind := by
    have : brackets.all (fun x => binders.all (fun s => (clTs x.1).contains s)) = true := by decide +kernel
    simpa using List.all_eq_true.mp this _ h
  checks := by
    intro q
    have := List.all_eq_true.mp (cl_all q) _ h
    exact this

theorem cl_kinds {o c : Selmaho} {r : CRule} (h : (o, c, r) ∈ brackets) : (wordKind o = .single ∨ wordKind o = .raw) ∧ wordKind c = .single ∧ c ∉ outs ∧ o ∉ outs := by
  have : brackets.all (fun x => (wordKind x.1 == .single || wordKind x.1 == .raw) && wordKind x.2.1 == .single && !outs.contains x.2.1 && !outs.contains x.1) = true := by decide +kernel
  have := List.all_eq_true.mp this _ h
  simp only [Bool.and_eq_true, Bool.or_eq_true, beq_iff_eq, Bool.not_eq_true'] at this
  obtain ⟨⟨⟨h1, h2⟩, h3⟩, h4⟩ := this
  exact ⟨h1, h2, by simpa using h3, by simpa using h4⟩

theorem cl_plain {o c : Selmaho} {r : CRule} (h : (o, c, r) ∈ brackets) : plainG (bTab (clTs o) c (clFails o) (clNosim o)) gInd = true ∧
    plainG (bTab (clTs o) c (clFails o) (clNosim o)) (.call .Frees) = true := by
  have : brackets.all (fun x => plainG (bTab (clTs x.1) x.2.1 (clFails x.1) (clNosim x.1)) gInd &&
    plainG (bTab (clTs x.1) x.2.1 (clFails x.1) (clNosim x.1)) (.call .Frees)) = true := by decide +kernel
  simpa using List.all_eq_true.mp this _ h

theorem cl_free {o : Selmaho} {S : List Token} (h1 : Open S) (h2 : ∀ t ∈ S, t.selmaho ∉ barred o) : FreeOf (clTs o) S := by
  refine ⟨fun t ht => ?_, fun t ht => ?_⟩
  · have a := h1 t ht
    have b := h2 t ht
    intro hc
    rcases List.mem_append.mp hc with h | h
    · exact a h
    · exact b h
  · intro hc
    refine h1 t ht ?_
    revert hc
    generalize t.selmaho = x
    cases x <;> decide

/-- Everything up to the closing word is read in the same way when it goes on. -/
theorem begins_opened {o c : Token} {r : CRule} (h : (o.selmaho, c.selmaho, r) ∈ brackets) {Y : List Token} (hY : Clean Y) :
    Begins (clTs o.selmaho) c Y o (opened o.selmaho) := by
  have hk := cl_closes h
  obtain ⟨k1, k2, k3, k4⟩ := cl_kinds h
  obtain ⟨p1, p2⟩ := cl_plain h
  have hcY : Clean (c :: Y) := by
    intro t ht
    rcases List.mem_cons.mp ht with rfl | ht
    · exact k3
    · exact hY t ht
  have hw := begins_word hk hcY p1 k1 rfl (o := o)
  have hf := begins_free hk hcY p2 hw
  have hh := h
  simp only [brackets, List.mem_cons, Prod.mk.injEq, List.not_mem_nil, or_false] at hh
  rcases hh with ⟨h1, h2, h3⟩ | ⟨h1, h2, h3⟩ | ⟨h1, h2, h3⟩ | ⟨h1, h2, h3⟩ | ⟨h1, h2, h3⟩ | ⟨h1, h2, h3⟩ | ⟨h1, h2, h3⟩ | ⟨h1, h2, h3⟩ <;>
    rw [h1] at hw hf p1 p2 ⊢ <;> rw [h1] at hk
  · exact begins_seq hk hY hw (by rw [h2]; decide +kernel)
  · exact begins_seq hk hY hf (by rw [h2]; decide +kernel)
  · have hg : Begins (clTs .Le) c Y o (.call .Gadri) := by
      have hz : cst .Gadri = .alt (.wrap (.node .Gadri_Le) (.call (.word .Le))) (.wrap (.node .Gadri_La) (.call (.word .La))) := rfl
      have := begins_alt (b := .wrap (.node .Gadri_La) (.call (.word .La))) (begins_wrap (sh := .node .Gadri_Le) hw) (by
        intro S hS
        exact .wrapBad (word_other (.inl rfl) (by rw [h1]; decide) (by rw [h1]; decide) S) trivial)
      intro S r vs hS hp
      cases hp with
      | call hp =>
        rw [hz] at hp
        exact ⟨(this _ _ _ hS hp).1, .call (by rw [hz]; exact (this _ _ _ hS hp).2)⟩
    exact begins_seq hk hY (begins_free hk hcY p2 hg) (by rw [h2]; decide +kernel)
  · exact begins_seq hk hY hw (by rw [h2]; decide +kernel)
  all_goals exact begins_seq hk hY hf (by rw [h2]; decide +kernel)

theorem alt_later {a b : Gr} {L : List Token} {o : Outcome} (h : Peg cst a L .error) (h2 : Peg cst b L o) : Peg cst (.alt a b) L o := .altSecond h h2

theorem alt_off {w : Selmaho} (hw : w ∈ openers) {b : Token} {B : List Token} (hb : b.selmaho = w) (hc : Clean (b :: B)) {e f : Gr} {o : Outcome}
    (he : haltG (opHalt w) e = .dead) (h : Peg cst f (b :: B) o) : Peg cst (.alt e f) (b :: B) o := .altSecond (op_error hw hb hc e he) h

theorem component_eq : cst .SumtiComponent1 = .alt (.alt (.alt (.alt (.alt (.alt (.alt (.alt (.alt (.wrap (.node .SumtiComponent1_Koha) (.call (.word .Koha))) (.wrap (.node .SumtiComponent1_Gadri) (.call .GadriSumti))) (.wrap (.node .SumtiComponent1_La) (.call .LaSumti))) (.wrap (.node .SumtiComponent1_Lohu) (.call .LohuSumti))) (.wrap (.node .SumtiComponent1_Lu) (.call .LuSumti))) (.wrap (.node .SumtiComponent1_Modified) (.call .ModifiedSumti))) (.wrap (.node .SumtiComponent1_LerfuString) (.seq (.call .LerfuString) (.seq (.not (.call (.word .Moi))) (.opt (.call (.word .Boi))))))) (.wrap (.node .SumtiComponent1_Zo) (.call .ZoSumti))) (.wrap (.node .SumtiComponent1_Zoi) (.call .ZoiSumti))) (.wrap (.node .SumtiComponent1_Li) (.seq (gWithFree (.call (.word .Li))) (.seq (.call .Expression) (.opt (.call (.word .Loho)))))) := rfl

theorem free_eq : cst .Free = .alt (.alt (.alt (.alt (.alt (.wrap (.node .Free_Sei) (.seq (gWithFree (.call (.word .Sei))) (.seq (.call .Args) (.seq (.opt (.call .SeiTail)) (.opt (gWithFree (.call (.word .Sehu)))))))) (.wrap (.node .Free_Soi) (.seq (gWithFree (.call (.word .Soi))) (.seq (.wrap .tuple (.seq (.call .Sumti) (.opt (.call .Sumti)))) (.opt (.call (.word .Sehu))))))) (.wrap (.node .Free_Vocative) (.call .Vocative))) (.wrap (.node .Free_Mai) (.seq (.call .MiscNumbers) (.call (.word .Mai))))) (.wrap (.node .Free_To) (.seq (.call (.word .To)) (.seq (.call .Text) (.opt (.call (.word .Toi))))))) (.wrap (.node .Free_Xi) (.call .Subscript)) := rfl

theorem relative_eq : cst .RelativeClause = .alt (.wrap (.node .RelativeClause_Goi) (.call .GoiRelativeClause)) (.wrap (.node .RelativeClause_Noi) (.call .NoiRelativeClause)) := rfl

theorem seq_assoc2 {a b d t : Gr} {L : List Token} {o : Outcome} (h : Peg cst (.seq (.seq a (.seq b d)) t) L o) : Peg cst (.seq a (.seq b (.seq d t))) L o := by
  have h' := seq_assoc h
  cases h' with
  | seq h1 h2 => exact .seq h1 (seq_assoc h2)
  | seqFirst h1 hb => exact .seqFirst h1 hb
  | seqSecond h1 h2 hb => exact .seqSecond h1 (seq_assoc h2) hb

/-- What follows a closed piece and belongs to it. -/
def tailOf : CRule → Gr
  | .SumtiComponent1 => gInd
  | .Free => gInd
  | _ => gTail

theorem ind_never {Y : List Token} {o : Outcome} (h : Peg cst gInd Y o) : o ≠ .error := by
  obtain ⟨_, _, rfl⟩ := ind_good h
  nofun

theorem whole_bracket {o c : Token} {s : List Token} {r : CRule} {inner : List Val} (h : (o.selmaho, c.selmaho, r) ∈ brackets) (h1 : Open s)
    (h2 : ∀ t ∈ s, t.selmaho ∉ barred o.selmaho) (hp : Peg cst (opened o.selmaho) (o :: s) (.ok [] inner)) :
    Whole r (tailOf r) (o :: s ++ [c]) (fun after => bracketNode o.selmaho (closedFields inner c after)) := by
  intro Y hY out hout
  have hk := cl_closes h
  obtain ⟨k1, k2, k3, k4⟩ := cl_kinds h
  have hF := cl_free h1 h2
  obtain ⟨-, hb⟩ := begins_opened h hY _ _ _ hF hp
  have hcl : Clean (o :: s ++ c :: Y) := by
    intro t ht
    simp only [List.cons_append, List.mem_cons, List.mem_append] at ht
    rcases ht with rfl | ht | rfl | ht
    · exact k4
    · exact hF.2 t ht
    · exact k3
    · exact hY t ht
  have e : o :: s ++ [c] ++ Y = o :: s ++ c :: Y := by simp
  rw [e]
  simp only [closed_fields]
  have hh := h
  simp only [brackets, List.mem_cons, Prod.mk.injEq, List.not_mem_nil, or_false] at hh
  rcases hh with ⟨h1, h2, h3⟩ | ⟨h1, h2, h3⟩ | ⟨h1, h2, h3⟩ | ⟨h1, h2, h3⟩ | ⟨h1, h2, h3⟩ | ⟨h1, h2, h3⟩ | ⟨h1, h2, h3⟩ | ⟨h1, h2, h3⟩ <;>
    subst h3 <;> rw [h1] at hb ⊢ <;> refine .call ?_
  · -- lu … li'u
    have hc := close_read k2 hY hout
    rw [h2] at hc
    have hz : cst .LuSumti = .wrap (.node .LuSumti) (.seq (.call (.word .Lu)) (.seq (.call .Text) (.opt (.call (.word .Lihu))))) := rfl
    have h5 : Peg cst (.call .LuSumti) (o :: s ++ c :: Y) _ := .call (hz ▸ wrap_tail (n := .LuSumti) (seq_assoc (seq_tail hb hc)))
    have h6 := wrap_tail (n := .SumtiComponent1_Lu) h5
    rw [component_eq]
    have hn := ind_never hout
    exact alt_tail (alt_tail (alt_tail (alt_tail (alt_tail (alt_off (w := .Lu) (by decide) h1 hcl (by decide +kernel) h6) hn) hn) hn) hn) hn
  · -- li … lo'o
    have hc := close_read k2 hY hout
    rw [h2] at hc
    have h5 := wrap_tail (n := .SumtiComponent1_Li) (seq_assoc (seq_tail hb hc))
    rw [component_eq]
    exact alt_off (w := .Li) (by decide) h1 hcl (by decide +kernel) h5
  · -- lo … ku
    have hc := close_read k2 hY hout
    rw [h2] at hc
    have hz : cst .GadriSumti = .wrap (.node .GadriSumti) (.seq (gWithFree (.call .Gadri)) (.seq (.call .GadriSumtiPre) (.seq (.call .GadriSumtiContents) (.opt (.call (.word .Ku)))))) := rfl
    have h5 : Peg cst (.call .GadriSumti) (o :: s ++ c :: Y) _ := .call (hz ▸ wrap_tail (n := .GadriSumti) (seq_assoc2 (seq_tail hb hc)))
    have h6 := wrap_tail (n := .SumtiComponent1_Gadri) h5
    rw [component_eq]
    have hn := ind_never hout
    exact alt_tail (alt_tail (alt_tail (alt_tail (alt_tail (alt_tail (alt_tail (alt_tail (alt_off (w := .Le) (by decide) h1 hcl (by decide +kernel) h6) hn) hn) hn) hn) hn) hn) hn) hn
  · -- to … toi
    have hc := close_read k2 hY hout
    rw [h2] at hc
    have h5 := wrap_tail (n := .Free_To) (seq_assoc (seq_tail hb hc))
    rw [free_eq]
    exact alt_tail (alt_off (w := .To) (by decide) h1 hcl (by decide +kernel) h5) (ind_never hout)
  · -- soi … se'u
    have hc := close_read k2 hY hout
    rw [h2] at hc
    have h5 := wrap_tail (n := .Free_Soi) (seq_assoc (seq_tail hb hc))
    rw [free_eq]
    have hn := ind_never hout
    exact alt_tail (alt_tail (alt_tail (alt_tail (alt_off (w := .Soi) (by decide) h1 hcl (by decide +kernel) h5) hn) hn) hn) hn
  · -- noi … ku'o
    have hc := close_tail k2 hY hout
    rw [h2] at hc
    have hz : cst .NoiRelativeClause = .wrap (.node .NoiRelativeClause) (.seq (gWithFree (.call (.word .Noi))) (.seq (.call .Subsentence) (.seq (.opt (.call (.word .Kuho))) (.call .Frees)))) := rfl
    have h5 : Peg cst (.call .NoiRelativeClause) (o :: s ++ c :: Y) _ := .call (hz ▸ wrap_tail (n := .NoiRelativeClause) (seq_assoc (seq_tail hb hc)))
    have h6 := wrap_tail (n := .RelativeClause_Noi) h5
    rw [relative_eq]
    exact alt_off (w := .Noi) (by decide) h1 hcl (by decide +kernel) h6
  · -- ne … ge'u
    have hc := close_tail k2 hY hout
    rw [h2] at hc
    have hz : cst .GoiRelativeClause = .wrap (.node .GoiRelativeClause) (.seq (gWithFree (.call (.word .Goi))) (.seq (.call .Arg) (.seq (.opt (.call (.word .Gehu))) (.call .Frees)))) := rfl
    have h5 : Peg cst (.call .GoiRelativeClause) (o :: s ++ c :: Y) _ := .call (hz ▸ wrap_tail (n := .GoiRelativeClause) (seq_assoc (seq_tail hb hc)))
    have h6 := wrap_tail (n := .RelativeClause_Goi) h5
    rw [relative_eq]
    exact alt_tail h6 (tail_never hY hout)
  · -- be … be'o
    have hc := close_tail k2 hY hout
    rw [h2] at hc
    have hz : cst .BoundArguments = .wrap (.node .BoundArguments) (.seq (gWithFree (.call (.word .Be))) (.seq (gSeparated (.call .Arg) (gWithFree (.call (.word .Bei)))) (.seq (.opt (.call (.word .Beho))) (.call .Frees)))) := rfl
    rw [hz]
    exact wrap_tail (n := .BoundArguments) (seq_assoc (seq_tail hb hc))

theorem whole_koha {k : Token} (h : k.selmaho = .Koha) :
    Whole .SumtiComponent1 gInd [k] (fun after => .node .SumtiComponent1_Koha [.node (.word .Koha) (.many [] :: .leaf .token k :: after)]) := by
  intro Y hY o ho
  obtain ⟨r, i, rfl⟩ := ind_good ho
  refine .call ?_
  rw [component_eq]
  have h1 := word_read (s := .Koha) rfl h hY ho
  have h2 : Peg cst (.wrap (.node .SumtiComponent1_Koha) (.call (.word .Koha))) ([k] ++ Y) _ := .wrap h1
  exact .altFirst (.altFirst (.altFirst (.altFirst (.altFirst (.altFirst (.altFirst (.altFirst (.altFirst h2 nofun) nofun) nofun) nofun) nofun) nofun) nofun) nofun) nofun

end Sneturfahi.Block
