import Verif.Proof.Dup

/-!
# A word twice: the tables
-/

namespace Sneturfahi.Dup

open Spec Elide

/-- About these nothing is claimed where such a word follows. -/
def unknowns : Selmaho → List CRule
  | .Gismu =>
    [.Text, .Paragraphs, .Paragraph, .ParagraphItem, .Sentences1, .Sentences3, .Sentence, .SentenceTail, .SentenceTail1,
      .SentenceTail2, .SentenceTail3, .SentenceTail4, .Subsentence, .Selbri, .Selbri1, .Selbri2, .Selbri3, .Selbri4,
      .Selbri5, .Selbri6, .TanruUnit, .TanruUnit1, .TanruUnit2, .GadriSumtiContents, .SeiTail, .VocativeValue]
  | .Goha =>
    [.Text, .Paragraphs, .Paragraph, .ParagraphItem, .Sentences1, .Sentences3, .Sentence, .SentenceTail, .SentenceTail1,
      .SentenceTail2, .SentenceTail3, .SentenceTail4, .Subsentence, .Selbri, .Selbri1, .Selbri2, .Selbri3, .Selbri4,
      .Selbri5, .Selbri6, .TanruUnit, .TanruUnit1, .TanruUnit2, .GadriSumtiContents, .SeiTail, .VocativeValue]
  | .Cmevla =>
    [.VocativeValue]
  | .Pa =>
    [.Frees, .Text, .Paragraphs, .Paragraph, .ParagraphItem, .Fragment, .Sentences1, .Sentences3, .Sentence,
      .SentenceTail, .SentenceTail1, .SentenceTail2, .SentenceTail3, .SentenceTail4, .GekSentence, .Subsentence, .Args,
      .TailArgs, .Prenex, .Arg, .Arg3, .Termset, .Selbri, .SelbriBefore, .Selbri1, .Selbri2, .Selbri3, .Selbri4,
      .Selbri5, .Selbri6, .TanruUnit, .TanruUnit1, .TanruUnit2, .Tag, .TagValue, .TagWord, .TimeSpaceCaha, .Time,
      .IntervalProperty, .Sumti, .Sumti1, .Sumti3, .Sumti3ConnectedPre, .Sumti4, .Quantifier, .Number, .NumberRest,
      .MiscNumbers, .GadriSumtiContents, .Free, .SeiTail, .VocativeValue, .SubscriptValue, .Gek, .Expression,
      .ReversePolish, .RPTail, .Expression1, .ForethoughtExpression, .Operand, .Operand1, .Operand2,
      .Operand2ConnectedPre, .Operand3, .Operator, .Operator1]
  | .By =>
    [.Frees, .Text, .Paragraphs, .Paragraph, .ParagraphItem, .Sentences1, .Sentences3, .Sentence, .SentenceTail,
      .SentenceTail1, .SentenceTail2, .SentenceTail3, .SentenceTail4, .Subsentence, .Args, .TailArgs, .Prenex, .Arg,
      .Arg3, .Selbri, .Selbri1, .Selbri2, .Selbri3, .Selbri4, .Selbri5, .Selbri6, .TanruUnit, .TanruUnit1, .TanruUnit2,
      .TagValue, .Sumti, .Sumti1, .Sumti3, .Sumti4, .NumberRest, .LerfuString, .MiscNumbers, .LerfuWord, .Lerfu,
      .SumtiComponent1, .GadriSumtiPre, .GadriSumtiContents, .Free, .SeiTail, .VocativeValue, .SubscriptValue,
      .Expression, .ReversePolish, .RPTail, .Expression1, .ForethoughtExpression, .Operand, .Operand1, .Operand2,
      .Operand3, .Operator, .Operator1]
  | .Jai =>
    [.Text, .Paragraphs, .Paragraph, .ParagraphItem, .Sentences1, .Sentences3, .Sentence, .SentenceTail, .SentenceTail1,
      .SentenceTail2, .SentenceTail3, .SentenceTail4, .Subsentence, .Selbri, .Selbri1, .Selbri2, .Selbri3, .Selbri4,
      .Selbri5, .Selbri6, .TanruUnit, .TanruUnit1, .BeforeTanruUnit, .GadriSumtiContents, .SeiTail, .VocativeValue]
  | .Coi =>
    [.Frees, .Text, .Paragraphs, .Paragraph, .ParagraphItem, .Sentences1, .Sentences3, .Sentence, .SentenceTail,
      .SentenceTail1, .SentenceTail2, .SentenceTail3, .SentenceTail4, .Subsentence, .TailArgs, .Selbri, .Selbri1,
      .Selbri2, .Selbri3, .Selbri4, .Selbri5, .GadriSumtiContents, .Free, .Vocative, .SeiTail, .VocativeWords,
      .VocativeValue, .Expression, .Expression1, .ForethoughtExpression, .Operator, .Operator1]
  | .Zohu =>
    [.Text, .Paragraphs, .Paragraph, .ParagraphItem, .Sentences1, .Subsentence, .Prenex]
  | .Niho =>
    [.Text, .Paragraphs, .ParagraphSeparator]
  | _ => []

/-- These may end after the first of two such words. -/
def splits : Selmaho → List CRule
  | .Gismu => [.Selbri3, .Selbri4, .Selbri5, .Selbri6, .TanruUnit, .TanruUnit1, .TanruUnit2]
  | .Goha => [.Selbri3, .Selbri4, .Selbri5, .Selbri6, .TanruUnit, .TanruUnit1, .TanruUnit2]
  | .Pa => [.NumberRest]
  | .By => [.NumberRest, .LerfuWord, .Lerfu]
  | .Jai => [.BeforeTanruUnit]
  | .Zohu => [.Prenex]
  | _ => []

def tabs (w : Selmaho) : Tabs where
  kind := w
  halt := fun r => if r = .word .Bahe then .dead else beforeTab [w] (unknowns w) r
  spl := fun r => r == .word w || (splits w).contains r

/-- The selma'o in question. -/
def kinds : List Selmaho := [.Gismu, .Goha, .Cmevla, .Pa, .By, .Jai, .Coi, .Zohu, .Niho]

theorem halts_all (r : CRule) (h : beforeBase r = false) :
    kinds.all (fun w => (tabs w).halt r == .unknown || haltG (tabs w).halt (cst r) == (tabs w).halt r) = true := by
  revert h
  cases r with
  | word s => intro h; cases h
  | _ => decide +kernel

theorem tabs_halt {w : Selmaho} (hw : w ∈ kinds) (r : CRule) (h : beforeBase r = false) :
    (tabs w).halt r = .unknown ∨ haltG (tabs w).halt (cst r) = (tabs w).halt r := by
  simpa using List.all_eq_true.mp (halts_all r h) w hw

theorem tabs_all (r : CRule) : kinds.all (fun w => checks (tabs w) r) = true := by
  cases r with
  | word s => cases s <;> decide +kernel
  | _ => decide +kernel

theorem tabs_ok {w : Selmaho} (hw : w ∈ kinds) (r : CRule) : checks (tabs w) r = true := List.all_eq_true.mp (tabs_all r) w hw

theorem tabs_says {w : Selmaho} (hw : w ∈ kinds) {b : Token} {B : List Token} (hb : b.selmaho = w) (hc : Clean (b :: B)) {e : Gr} {o : Outcome}
    (h : Peg cst e (b :: B) o) : (haltG (tabs w).halt e).Says (b :: B) o := by
  refine peg_halt (D := fun s => s = b :: B) (base := beforeBase) ?_ (tabs_halt hw) h rfl
  rintro r s o hr rfl hp
  have err : ∀ x, x ∈ outs → Peg cst (.call (.word x)) B .error := by
    intro x hx
    obtain ⟨o, ho⟩ := total (.call (.word x)) B
    have := off_error ho (hc.sub (by simp +contextual)) (by simpa [offG, offR] using hx)
    subst this; exact ho
  have hbahe : Selmaho.Bahe ≠ w := by rintro rfl; revert hw; decide
  have hbef : Before [w] (b :: B) := .inr ⟨[], b, B, rfl, nofun, by simp [hb], err .Bu (by decide), err .Zei (by decide)⟩
  simp only [tabs]
  split
  · rename_i h; subst h
    have hz : cst (.word .Bahe) = .seq (.raw .Bahe) (.seq (.not (.call (.word .Bu))) (.not (.call (.word .Zei)))) := rfl
    rw [hz] at hp
    exact hp.unique _ (.seqFirst (.rawOther (by rw [hb]; exact hbahe.symm)) trivial)
  · refine before_base ?_ ?_ r _ o hr hbef hp
    · revert hw; generalize w = y; cases y <;> first | (intro h; exact absurd h (by decide)) | (intro _; exact ⟨by decide, by decide, by decide⟩)
    · revert hw; generalize w = y; cases y <;> first | (intro h; exact absurd h (by decide)) | (intro _; decide)

theorem cert {w : Selmaho} (hw : w ∈ kinds) {x b : Token} {B : List Token} (hx : x.selmaho = w) (hb : b.selmaho = w) (hc : Clean (b :: B)) :
    Cert (tabs w) x b B where
  isX := hx
  isB := hb
  clean := hc
  isHalt := fun _ _ h => tabs_says hw hb hc h
  isOk := tabs_ok hw

/-- The text with and without the additional word. -/
theorem text_iff {w : Selmaho} (hw : w ∈ kinds) {x b : Token} {A B : List Token} (hx : x.selmaho = w) (hb : b.selmaho = w) (hA : Clean A) (hB : Clean B) :
    (∃ vs, Peg cst (.call .Text) (A ++ x :: b :: B) (.ok [] vs)) ↔ ∃ vs, Peg cst (.call .Text) (A ++ b :: B) (.ok [] vs) := by
  have hwo : w ∉ outs := by revert hw; generalize w = y; cases y <;> decide
  have hbB : Clean (b :: B) := by
    intro t ht
    rcases List.mem_cons.mp ht with rfl | ht
    · rw [hb]; exact hwo
    · exact hB t ht
  have hM : Clean (A ++ x :: b :: B) := by
    intro t ht
    rcases List.mem_append.mp ht with ht | ht
    · exact hA t ht
    · rcases List.mem_cons.mp ht with rfl | ht
      · rw [hx]; exact hwo
      · exact hbB t ht
  have hi : (info (tabs w) (.call .Text)).1 = false := by
    revert hw; generalize w = y; cases y <;> decide
  obtain ⟨o, ho⟩ := total (.call .Text) (A ++ b :: B)
  obtain ⟨o', ho'⟩ := total (.call .Text) (A ++ x :: b :: B)
  have hr := claims (cert hw hx hb hbB) ho A rfl hM (by rfl) o' ho'
  constructor
  · rintro ⟨vs, h⟩
    cases ho'.unique _ h
    generalize hg : Outcome.ok [] vs = oo at hr
    cases hr with
    | error => cases hg
    | failure => cases hg
    | before => simp at hg
    | past => cases hg; exact ⟨_, ho⟩
    | split h1 => rw [hi] at h1; cases h1
  · rintro ⟨vs, h⟩
    cases ho.unique _ h
    generalize hg : Outcome.ok [] vs = oo at hr
    cases hr with
    | error => cases hg
    | failure => cases hg
    | before => simp at hg
    | past => cases hg; exact ⟨_, ho'⟩
    | split h1 => rw [hi] at h1; cases h1

end Sneturfahi.Dup
