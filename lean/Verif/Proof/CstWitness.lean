import Verif.Model.CstRules

/-!
# Where nodes are made
-/

namespace Sneturfahi

/-- The nodes of generic types, which several productions make. -/
def genericNodes : List NodeName := [.WithFree, .SelbriLikeConnectedPost_Normal, .SelbriLikeConnectedPost_Parenthesized, .NaheGuhekTGik, .SumtiLikeConnectedPost_Normal, .SumtiLikeConnectedPost_Grouped, .EitherOrBoth_Right, .EitherOrBoth_Both, .EitherOrBoth_Left, .NaSeTNai]

/-- The production that makes a node (arbitrary for generic types). -/
def home : NodeName → CRule
  | .Frees => .Frees
  | .Text => .Text
  | .Paragraphs => .Paragraphs
  | .Paragraph => .Paragraph
  | .ParagraphItem_Sentences => .ParagraphItem
  | .ParagraphItem_Fragment => .ParagraphItem
  | .ParagraphItem_Empty => .ParagraphItem
  | .Fragment_Ek => .Fragment
  | .Fragment_Jek => .Fragment
  | .Fragment_Joik => .Fragment
  | .Fragment_Gihek => .Fragment
  | .Fragment_Number => .Fragment
  | .Fragment_Na => .Fragment
  | .Sentences1 => .Sentences1
  | .Sentences3_Grouped => .Sentences3
  | .Sentences3_Single => .Sentences3
  | .ParagraphSeparator => .ParagraphSeparator
  | .SentenceSeparator => .SentenceSeparator
  | .ConnectedSentenceSeparator => .ConnectedSentenceSeparator
  | .CloseSentenceSeparator => .CloseSentenceSeparator
  | .Sentence => .Sentence
  | .SentenceTail => .SentenceTail
  | .SentenceTail1 => .SentenceTail1
  | .SentenceTail1After => .SentenceTail1After
  | .SentenceTail2 => .SentenceTail2
  | .SentenceTail2Connective => .SentenceTail2Connective
  | .SentenceTail2After => .SentenceTail2After
  | .SentenceTail3 => .SentenceTail3
  | .SentenceTail3After => .SentenceTail3After
  | .SentenceTail4_Single => .SentenceTail4
  | .SentenceTail4_Parenthesized => .SentenceTail4
  | .SentenceTail4_Connected => .SentenceTail4
  | .GekSentence => .GekSentence
  | .Subsentence => .Subsentence
  | .Args => .Args
  | .TailArgs => .TailArgs
  | .Prenex => .Prenex
  | .Arg => .Arg
  | .PeheConnective => .PeheConnective
  | .Arg3_Tag => .Arg3
  | .Arg3_Sumti => .Arg3
  | .Arg3_Naku => .Arg3
  | .Arg3_Termset => .Arg3
  | .Termset_Gek => .Termset
  | .Termset_NuhiGi => .Termset
  | .Termset_Nuhi => .Termset
  | .Selbri => .Selbri
  | .SelbriBefore_Na => .SelbriBefore
  | .SelbriBefore_Tag => .SelbriBefore
  | .Selbri1 => .Selbri1
  | .Selbri2 => .Selbri2
  | .Selbri3 => .Selbri3
  | .Selbri4 => .Selbri4
  | .Selbri5 => .Selbri5
  | .Selbri6 => .Selbri6
  | .TanruUnit => .TanruUnit
  | .TanruUnit1 => .TanruUnit1
  | .BeforeTanruUnit_Jai => .BeforeTanruUnit
  | .BeforeTanruUnit_Nahe => .BeforeTanruUnit
  | .BeforeTanruUnit_Se => .BeforeTanruUnit
  | .BoundArguments => .BoundArguments
  | .TanruUnit2_GroupedTanru => .TanruUnit2
  | .TanruUnit2_Gismu => .TanruUnit2
  | .TanruUnit2_Lujvo => .TanruUnit2
  | .TanruUnit2_Fuhivla => .TanruUnit2
  | .TanruUnit2_Zei => .TanruUnit2
  | .TanruUnit2_Goha => .TanruUnit2
  | .TanruUnit2_Moi => .TanruUnit2
  | .TanruUnit2_Me => .TanruUnit2
  | .TanruUnit2_Nu => .TanruUnit2
  | .TanruUnit2_Nuha => .TanruUnit2
  | .ZeiClause => .ZeiClause
  | .ZeiBuInner => .ZeiBuInner
  | .ZeiTail => .ZeiTail
  | .Tag => .Tag
  | .TagValue_Ku => .TagValue
  | .TagValue_Sumti => .TagValue
  | .TagWord_Bai => .TagWord
  | .TagWord_TimeSpaceCaha => .TagWord
  | .TagWord_Ki => .TagWord
  | .TagWord_Cuhe => .TagWord
  | .TagWord_Converted => .TagWord
  | .TimeSpaceCaha_Time => .TimeSpaceCaha
  | .TimeSpaceCaha_Space => .TimeSpaceCaha
  | .TimeSpaceCaha_Caha => .TimeSpaceCaha
  | .Time => .Time
  | .TimeOffset => .TimeOffset
  | .TimeDuration => .TimeDuration
  | .IntervalProperty_Roi => .IntervalProperty
  | .IntervalProperty_Tahe => .IntervalProperty
  | .IntervalProperty_Zaho => .IntervalProperty
  | .Space => .Space
  | .SpaceOffset => .SpaceOffset
  | .SpaceInterval_Interval => .SpaceInterval
  | .SpaceInterval_Properties => .SpaceInterval
  | .SpaceIntervalProperty => .SpaceIntervalProperty
  | .SpaceMotion => .SpaceMotion
  | .Sumti => .Sumti
  | .Sumti1 => .Sumti1
  | .VuhoRelative => .VuhoRelative
  | .RelativeClauses => .RelativeClauses
  | .RelativeClause_Goi => .RelativeClause
  | .RelativeClause_Noi => .RelativeClause
  | .GoiRelativeClause => .GoiRelativeClause
  | .NoiRelativeClause => .NoiRelativeClause
  | .Sumti3 => .Sumti3
  | .Sumti3ConnectedPre => .Sumti3ConnectedPre
  | .Sumti4_Normal => .Sumti4
  | .Sumti4_SelbriShorthand => .Sumti4
  | .Quantifier_Mekso => .Quantifier
  | .Quantifier_Number => .Quantifier
  | .Number => .Number
  | .NumberRest_Pa => .NumberRest
  | .NumberRest_Lerfu => .NumberRest
  | .LerfuString => .LerfuString
  | .MiscNumbers => .MiscNumbers
  | .LerfuWord_Lerfu => .LerfuWord
  | .LerfuWord_Lau => .LerfuWord
  | .LerfuWord_Tei => .LerfuWord
  | .Lerfu_Bu => .Lerfu
  | .Lerfu_By => .Lerfu
  | .BuInner => .BuInner
  | .SumtiComponent1_Koha => .SumtiComponent1
  | .SumtiComponent1_Gadri => .SumtiComponent1
  | .SumtiComponent1_La => .SumtiComponent1
  | .SumtiComponent1_Lohu => .SumtiComponent1
  | .SumtiComponent1_Lu => .SumtiComponent1
  | .SumtiComponent1_Modified => .SumtiComponent1
  | .SumtiComponent1_LerfuString => .SumtiComponent1
  | .SumtiComponent1_Zo => .SumtiComponent1
  | .SumtiComponent1_Zoi => .SumtiComponent1
  | .SumtiComponent1_Li => .SumtiComponent1
  | .LohuSumti => .LohuSumti
  | .LuSumti => .LuSumti
  | .ModifiedSumti => .ModifiedSumti
  | .SumtiModifier_Lahe => .SumtiModifier
  | .SumtiModifier_NaheBo => .SumtiModifier
  | .GadriSumti => .GadriSumti
  | .Gadri_Le => .Gadri
  | .Gadri_La => .Gadri
  | .GadriSumtiPre_Simple => .GadriSumtiPre
  | .GadriSumtiPre_Relative => .GadriSumtiPre
  | .GadriSumtiPre_FullPre => .GadriSumtiPre
  | .GadriSumtiContents_Selbri => .GadriSumtiContents
  | .GadriSumtiContents_Sumti => .GadriSumtiContents
  | .LaSumti => .LaSumti
  | .ZoSumti => .ZoSumti
  | .ZoiSumti => .ZoiSumti
  | .Free_Sei => .Free
  | .Free_Soi => .Free
  | .Free_Vocative => .Free
  | .Free_Mai => .Free
  | .Free_To => .Free
  | .Free_Xi => .Free
  | .Vocative => .Vocative
  | .SeiTail => .SeiTail
  | .VocativeWords_Coi => .VocativeWords
  | .VocativeWords_Doi => .VocativeWords
  | .VocativeValue_Selbri => .VocativeValue
  | .VocativeValue_Cmevla => .VocativeValue
  | .VocativeValue_Sumti => .VocativeValue
  | .Subscript => .Subscript
  | .SubscriptValue_Mekso => .SubscriptValue
  | .SubscriptValue_Number => .SubscriptValue
  | .Indicators => .Indicators
  | .Indicator_Ui => .Indicator
  | .Indicator_Cai => .Indicator
  | .Indicator_Nai => .Indicator
  | .Indicator_Daho => .Indicator
  | .Indicator_Fuho => .Indicator
  | .Indicator_Y => .Indicator
  | .Ek => .Ek
  | .Jek => .Jek
  | .Gihek => .Gihek
  | .Guhek => .Guhek
  | .Interval => .Interval
  | .Joik_SeJoiNai => .Joik
  | .Joik_Interval => .Joik
  | .Joik_Gaho => .Joik
  | .Gik => .Gik
  | .Gek_SeGaNai => .Gek
  | .Gek_JoikGi => .Gek
  | .Gek_TagGik => .Gek
  | .JoikJek_Joik => .JoikJek
  | .JoikJek_Jek => .JoikJek
  | .JoikEk_Joik => .JoikEk
  | .JoikEk_Ek => .JoikEk
  | .Expression_ReversePolish => .Expression
  | .Expression_Normal => .Expression
  | .ReversePolish => .ReversePolish
  | .RPTail => .RPTail
  | .Expression1_Operand => .Expression1
  | .Expression1_Forethought => .Expression1
  | .ForethoughtExpression => .ForethoughtExpression
  | .Operand => .Operand
  | .Operand1 => .Operand1
  | .Operand2 => .Operand2
  | .Operand2ConnectedPre => .Operand2ConnectedPre
  | .Operand3_Nihe => .Operand3
  | .Operand3_Mohe => .Operand3
  | .Operand3_Johi => .Operand3
  | .Operand3_Modified => .Operand3
  | .Operand3_Parenthesized => .Operand3
  | .Operand3_Number => .Operand3
  | .Operator => .Operator
  | .Operator1 => .Operator1
  | .Operator2 => .Operator2
  | .Operator3_Simple => .Operator3
  | .Operator3_Grouped => .Operator3
  | .OperatorComponent => .OperatorComponent
  | .OperatorComponentPre_Nahe => .OperatorComponentPre
  | .OperatorComponentPre_Se => .OperatorComponentPre
  | .OperatorComponent1_Maho => .OperatorComponent1
  | .OperatorComponent1_Nahu => .OperatorComponent1
  | .OperatorComponent1_Vuhu => .OperatorComponent1
  | .word s => .word s
  | _ => .Text

end Sneturfahi
