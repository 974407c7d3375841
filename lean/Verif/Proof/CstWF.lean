import Verif.Proof.CstTotal
import Verif.Model.Cst

/-!
# The productions of the concrete syntax tree are well-formed

The two tables are computed by `tools/gen_cst_cert.py` and checked here by the kernel.
-/

namespace Sneturfahi

/-- Productions that may succeed without consuming anything. -/
def cstConsumes : CRule → Bool
  | .Frees => false
  | .Text => false
  | .Paragraphs => false
  | .Paragraph => false
  | .ParagraphItem => false
  | .Sentences1 => false
  | .Sentences3 => false
  | .Sentence => false
  | .Args => false
  | .TailArgs => false
  | .GadriSumtiPre => false
  | .VocativeValue => false
  | _ => true

/-- Longest chain of calls at the same position. -/
def cstRank : CRule → Nat
  | .Frees => 7
  | .Text => 27
  | .Paragraphs => 26
  | .Paragraph => 25
  | .ParagraphItem => 24
  | .Fragment => 4
  | .Sentences1 => 23
  | .Sentences3 => 22
  | .ParagraphSeparator => 2
  | .SentenceSeparator => 2
  | .ConnectedSentenceSeparator => 2
  | .CloseSentenceSeparator => 2
  | .Sentence => 21
  | .SentenceTail => 20
  | .SentenceTail1 => 19
  | .SentenceTail1After => 3
  | .SentenceTail2 => 18
  | .SentenceTail2Connective => 3
  | .SentenceTail2After => 4
  | .SentenceTail3 => 17
  | .SentenceTail3After => 3
  | .SentenceTail4 => 16
  | .GekSentence => 8
  | .Subsentence => 21
  | .Args => 14
  | .TailArgs => 15
  | .Prenex => 15
  | .Arg => 13
  | .PeheConnective => 2
  | .Arg3 => 12
  | .Termset => 8
  | .Selbri => 15
  | .SelbriBefore => 7
  | .Selbri1 => 14
  | .Selbri2 => 13
  | .Selbri3 => 12
  | .Selbri4 => 11
  | .Selbri5 => 10
  | .Selbri6 => 9
  | .TanruUnit => 8
  | .TanruUnit1 => 7
  | .BeforeTanruUnit => 2
  | .BoundArguments => 2
  | .TanruUnit2 => 6
  | .ZeiClause => 1
  | .ZeiBuInner => 3
  | .ZeiTail => 2
  | .Tag => 7
  | .TagValue => 12
  | .TagWord => 6
  | .TimeSpaceCaha => 5
  | .Time => 4
  | .TimeOffset => 2
  | .TimeDuration => 2
  | .IntervalProperty => 3
  | .Space => 4
  | .SpaceOffset => 2
  | .SpaceInterval => 3
  | .SpaceIntervalProperty => 2
  | .SpaceMotion => 2
  | .Sumti => 11
  | .Sumti1 => 10
  | .VuhoRelative => 2
  | .RelativeClauses => 4
  | .RelativeClause => 3
  | .GoiRelativeClause => 2
  | .NoiRelativeClause => 2
  | .Sumti3 => 9
  | .Sumti3ConnectedPre => 8
  | .Sumti4 => 6
  | .Quantifier => 3
  | .Number => 2
  | .NumberRest => 4
  | .LerfuString => 4
  | .MiscNumbers => 5
  | .LerfuWord => 3
  | .Lerfu => 2
  | .BuInner => 0
  | .SumtiComponent1 => 5
  | .LohuSumti => 1
  | .LuSumti => 1
  | .ModifiedSumti => 3
  | .SumtiModifier => 2
  | .GadriSumti => 3
  | .Gadri => 2
  | .GadriSumtiPre => 12
  | .GadriSumtiContents => 16
  | .LaSumti => 2
  | .ZoSumti => 1
  | .ZoiSumti => 1
  | .ZoiDelimiter => 0
  | .ZoiText => 0
  | .Free => 6
  | .Vocative => 3
  | .SeiTail => 16
  | .VocativeWords => 2
  | .VocativeValue => 16
  | .Subscript => 2
  | .SubscriptValue => 6
  | .Indicators => 3
  | .Indicator => 2
  | .Ek => 2
  | .Jek => 2
  | .Gihek => 2
  | .Guhek => 2
  | .Interval => 2
  | .Joik => 3
  | .Gik => 2
  | .Gek => 7
  | .JoikJek => 4
  | .JoikEk => 4
  | .Expression => 13
  | .ReversePolish => 12
  | .RPTail => 13
  | .Expression1 => 12
  | .ForethoughtExpression => 10
  | .Operand => 11
  | .Operand1 => 10
  | .Operand2 => 9
  | .Operand2ConnectedPre => 8
  | .Operand3 => 6
  | .Operator => 9
  | .Operator1 => 8
  | .Operator2 => 5
  | .Operator3 => 4
  | .OperatorComponent => 3
  | .OperatorComponentPre => 2
  | .OperatorComponent1 => 2
  | .word .A => 1
  | .word .Bai => 1
  | .word .Be => 1
  | .word .Bei => 1
  | .word .Beho => 1
  | .word .Bihe => 1
  | .word .Bihi => 1
  | .word .Bo => 1
  | .word .Boi => 1
  | .word .By => 1
  | .word .Cai => 1
  | .word .Caha => 1
  | .word .Cei => 1
  | .word .Cehe => 1
  | .word .Co => 1
  | .word .Coi => 1
  | .word .Cu => 1
  | .word .Cuhe => 1
  | .word .Daho => 1
  | .word .Doi => 1
  | .word .Dohu => 1
  | .word .Fa => 1
  | .word .Faha => 1
  | .word .Faho => 1
  | .word .Fehe => 1
  | .word .Fehu => 1
  | .word .Fiho => 1
  | .word .Foi => 1
  | .word .Fuha => 1
  | .word .Fuhe => 1
  | .word .Fuho => 1
  | .word .Ga => 1
  | .word .Gaho => 1
  | .word .Gehu => 1
  | .word .Gi => 1
  | .word .Giha => 1
  | .word .Goi => 1
  | .word .Goha => 1
  | .word .Guha => 1
  | .word .I => 1
  | .word .Ja => 1
  | .word .Jai => 1
  | .word .Joi => 1
  | .word .Johi => 1
  | .word .Ke => 1
  | .word .Kei => 1
  | .word .Kehe => 1
  | .word .Ki => 1
  | .word .Koha => 1
  | .word .Ku => 1
  | .word .Kuhe => 1
  | .word .Kuho => 1
  | .word .La => 1
  | .word .Lau => 1
  | .word .Lahe => 1
  | .word .Le => 1
  | .word .Lehu => 1
  | .word .Li => 1
  | .word .Lihu => 1
  | .word .Loho => 1
  | .word .Luhu => 1
  | .word .Mai => 1
  | .word .Maho => 1
  | .word .Me => 1
  | .word .Mehu => 1
  | .word .Moi => 1
  | .word .Mohe => 1
  | .word .Mohi => 1
  | .word .Na => 1
  | .word .Nai => 1
  | .word .Nahe => 1
  | .word .Nahu => 1
  | .word .Nihe => 1
  | .word .Niho => 1
  | .word .Noi => 1
  | .word .Nu => 1
  | .word .Nuha => 1
  | .word .Nuhi => 1
  | .word .Nuhu => 1
  | .word .Pa => 1
  | .word .Pehe => 1
  | .word .Peho => 1
  | .word .Pu => 1
  | .word .Raho => 1
  | .word .Roi => 1
  | .word .Se => 1
  | .word .Sei => 1
  | .word .Sehu => 1
  | .word .Soi => 1
  | .word .Tahe => 1
  | .word .Tei => 1
  | .word .Tehu => 1
  | .word .To => 1
  | .word .Toi => 1
  | .word .Tuhe => 1
  | .word .Tuhu => 1
  | .word .Ui => 1
  | .word .Va => 1
  | .word .Vau => 1
  | .word .Vei => 1
  | .word .Veha => 1
  | .word .Veho => 1
  | .word .Viha => 1
  | .word .Vuho => 1
  | .word .Vuhu => 1
  | .word .Xi => 1
  | .word .Y => 1
  | .word .Zaho => 1
  | .word .Zei => 1
  | .word .Zeha => 1
  | .word .Zi => 1
  | .word .Zihe => 1
  | .word .Zohu => 1
  | .word .Gismu => 1
  | .word .Fuhivla => 1
  | .word .Lujvo => 1
  | .word .Cmevla => 1
  | .word _ => 0

/-- The certificate. -/
def cstWF : CstWF cst where
  cons := cstConsumes
  rank := cstRank
  bound := 32
  cons_ok := by
    intro r; cases r with
    | word s => cases s <;> decide +kernel
    | _ => decide +kernel
  rank_ok := by
    intro r; cases r with
    | word s => cases s <;> decide +kernel
    | _ => decide +kernel
  rep_ok := by
    intro r; cases r with
    | word s => cases s <;> decide +kernel
    | _ => decide +kernel
  rank_lt := by
    intro r; cases r with
    | word s => cases s <;> decide +kernel
    | _ => decide +kernel

end Sneturfahi
