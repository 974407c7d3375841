import Verif.Model.CstNames

/-!
# The Rust identifiers of the names of the model

Generated by `tools/gen_idents.py`.
-/

namespace Sneturfahi

/-- The identifiers of the variants of `Selmaho`, `src/lex/selmaho/mod.rs`. -/
def Selmaho.ident : Selmaho → List Char
  | .A => c!"A"
  | .Bai => c!"Bai"
  | .Bahe => c!"Bahe"
  | .Be => c!"Be"
  | .Bei => c!"Bei"
  | .Beho => c!"Beho"
  | .Bihe => c!"Bihe"
  | .Bihi => c!"Bihi"
  | .Bo => c!"Bo"
  | .Boi => c!"Boi"
  | .Bu => c!"Bu"
  | .By => c!"By"
  | .Cai => c!"Cai"
  | .Caha => c!"Caha"
  | .Cei => c!"Cei"
  | .Cehe => c!"Cehe"
  | .Co => c!"Co"
  | .Coi => c!"Coi"
  | .Cu => c!"Cu"
  | .Cuhe => c!"Cuhe"
  | .Daho => c!"Daho"
  | .Doi => c!"Doi"
  | .Dohu => c!"Dohu"
  | .Fa => c!"Fa"
  | .Faha => c!"Faha"
  | .Faho => c!"Faho"
  | .Fehe => c!"Fehe"
  | .Fehu => c!"Fehu"
  | .Fiho => c!"Fiho"
  | .Foi => c!"Foi"
  | .Fuha => c!"Fuha"
  | .Fuhe => c!"Fuhe"
  | .Fuho => c!"Fuho"
  | .Ga => c!"Ga"
  | .Gaho => c!"Gaho"
  | .Gehu => c!"Gehu"
  | .Gi => c!"Gi"
  | .Giha => c!"Giha"
  | .Goi => c!"Goi"
  | .Goha => c!"Goha"
  | .Guha => c!"Guha"
  | .I => c!"I"
  | .Ja => c!"Ja"
  | .Jai => c!"Jai"
  | .Joi => c!"Joi"
  | .Johi => c!"Johi"
  | .Ke => c!"Ke"
  | .Kei => c!"Kei"
  | .Kehe => c!"Kehe"
  | .Ki => c!"Ki"
  | .Koha => c!"Koha"
  | .Ku => c!"Ku"
  | .Kuhe => c!"Kuhe"
  | .Kuho => c!"Kuho"
  | .La => c!"La"
  | .Lau => c!"Lau"
  | .Lahe => c!"Lahe"
  | .Le => c!"Le"
  | .Lehu => c!"Lehu"
  | .Li => c!"Li"
  | .Lihu => c!"Lihu"
  | .Loho => c!"Loho"
  | .Lohu => c!"Lohu"
  | .Lu => c!"Lu"
  | .Luhu => c!"Luhu"
  | .Mai => c!"Mai"
  | .Maho => c!"Maho"
  | .Me => c!"Me"
  | .Mehu => c!"Mehu"
  | .Moi => c!"Moi"
  | .Mohe => c!"Mohe"
  | .Mohi => c!"Mohi"
  | .Na => c!"Na"
  | .Nai => c!"Nai"
  | .Nahe => c!"Nahe"
  | .Nahu => c!"Nahu"
  | .Nihe => c!"Nihe"
  | .Niho => c!"Niho"
  | .Noi => c!"Noi"
  | .Nu => c!"Nu"
  | .Nuha => c!"Nuha"
  | .Nuhi => c!"Nuhi"
  | .Nuhu => c!"Nuhu"
  | .Pa => c!"Pa"
  | .Pehe => c!"Pehe"
  | .Peho => c!"Peho"
  | .Pu => c!"Pu"
  | .Raho => c!"Raho"
  | .Roi => c!"Roi"
  | .Sa => c!"Sa"
  | .Se => c!"Se"
  | .Sei => c!"Sei"
  | .Sehu => c!"Sehu"
  | .Si => c!"Si"
  | .Soi => c!"Soi"
  | .Su => c!"Su"
  | .Tahe => c!"Tahe"
  | .Tei => c!"Tei"
  | .Tehu => c!"Tehu"
  | .To => c!"To"
  | .Toi => c!"Toi"
  | .Tuhe => c!"Tuhe"
  | .Tuhu => c!"Tuhu"
  | .Ui => c!"Ui"
  | .Va => c!"Va"
  | .Vau => c!"Vau"
  | .Vei => c!"Vei"
  | .Veha => c!"Veha"
  | .Veho => c!"Veho"
  | .Viha => c!"Viha"
  | .Vuho => c!"Vuho"
  | .Vuhu => c!"Vuhu"
  | .Xi => c!"Xi"
  | .Y => c!"Y"
  | .Zaho => c!"Zaho"
  | .Zei => c!"Zei"
  | .Zeha => c!"Zeha"
  | .Zi => c!"Zi"
  | .Zihe => c!"Zihe"
  | .Zo => c!"Zo"
  | .Zoi => c!"Zoi"
  | .Zohu => c!"Zohu"
  | .Bahei => c!"Bahei"
  | .Beihe => c!"Beihe"
  | .Boihoi => c!"Boihoi"
  | .Boihohu => c!"Boihohu"
  | .Cahei => c!"Cahei"
  | .Ceheihoi => c!"Ceheihoi"
  | .Cohai => c!"Cohai"
  | .Cohehohe => c!"Cohehohe"
  | .Cohuho => c!"Cohuho"
  | .Cuhau => c!"Cuhau"
  | .Dauho => c!"Dauho"
  | .Dehai => c!"Dehai"
  | .Dehau => c!"Dehau"
  | .Dohoi => c!"Dohoi"
  | .Fauha => c!"Fauha"
  | .Fahoho => c!"Fahoho"
  | .Fihoi => c!"Fihoi"
  | .Foihe => c!"Foihe"
  | .Gahuhau => c!"Gahuhau"
  | .Gehuhi => c!"Gehuhi"
  | .Gihei => c!"Gihei"
  | .Gihoi => c!"Gihoi"
  | .Gohoi => c!"Gohoi"
  | .Ihau => c!"Ihau"
  | .Jaiha => c!"Jaiha"
  | .Jaihi => c!"Jaihi"
  | .Jauhu => c!"Jauhu"
  | .Jahoi => c!"Jahoi"
  | .Jihoi => c!"Jihoi"
  | .Joihi => c!"Joihi"
  | .Johe => c!"Johe"
  | .Juhau => c!"Juhau"
  | .Juhei => c!"Juhei"
  | .Juhuhi => c!"Juhuhi"
  | .Kauhai => c!"Kauhai"
  | .Kauhu => c!"Kauhu"
  | .Keihau => c!"Keihau"
  | .Keihi => c!"Keihi"
  | .Kehai => c!"Kehai"
  | .Kehei => c!"Kehei"
  | .Keheiha => c!"Keheiha"
  | .Kehehau => c!"Kehehau"
  | .Kehehu => c!"Kehehu"
  | .Kehuhi => c!"Kehuhi"
  | .Kuhau => c!"Kuhau"
  | .Kuhei => c!"Kuhei"
  | .Kuhoihu => c!"Kuhoihu"
  | .Kyhoi => c!"Kyhoi"
  | .Lehai => c!"Lehai"
  | .Lihau => c!"Lihau"
  | .Lihei => c!"Lihei"
  | .Lohai => c!"Lohai"
  | .Lohoi => c!"Lohoi"
  | .Luhei => c!"Luhei"
  | .Mauhau => c!"Mauhau"
  | .Mauhe => c!"Mauhe"
  | .Mauho => c!"Mauho"
  | .Meihe => c!"Meihe"
  | .Meiho => c!"Meiho"
  | .Mehoi => c!"Mehoi"
  | .Muhoi => c!"Muhoi"
  | .Muhohu => c!"Muhohu"
  | .Neihai => c!"Neihai"
  | .Noiha => c!"Noiha"
  | .Noihau => c!"Noihau"
  | .Noihahu => c!"Noihahu"
  | .Noihi => c!"Noihi"
  | .Nohoi => c!"Nohoi"
  | .Rauho => c!"Rauho"
  | .Rehaihe => c!"Rehaihe"
  | .Sauhu => c!"Sauhu"
  | .Sahau => c!"Sahau"
  | .Sahoi => c!"Sahoi"
  | .Seihau => c!"Seihau"
  | .Seiho => c!"Seiho"
  | .Sehehi => c!"Sehehi"
  | .Sehoihoi => c!"Sehoihoi"
  | .Sihihei => c!"Sihihei"
  | .Sihihoi => c!"Sihihoi"
  | .Sihoi => c!"Sihoi"
  | .Soihi => c!"Soihi"
  | .Sohehai => c!"Sohehai"
  | .Sohoi => c!"Sohoi"
  | .Taihu => c!"Taihu"
  | .Tauho => c!"Tauho"
  | .Tahoi => c!"Tahoi"
  | .Tahuhi => c!"Tahuhi"
  | .Teihu => c!"Teihu"
  | .Tehoihoi => c!"Tehoihoi"
  | .Toihe => c!"Toihe"
  | .Toiho => c!"Toiho"
  | .Vauhehoi => c!"Vauhehoi"
  | .Vauhohoi => c!"Vauhohoi"
  | .Vuhoi => c!"Vuhoi"
  | .Vyhy => c!"Vyhy"
  | .Xauhe => c!"Xauhe"
  | .Xauheho => c!"Xauheho"
  | .Xauho => c!"Xauho"
  | .Xauhoi => c!"Xauhoi"
  | .Xauhoho => c!"Xauhoho"
  | .Xahoihahoiha => c!"Xahoihahoiha"
  | .Xehau => c!"Xehau"
  | .Xoi => c!"Xoi"
  | .Xoha => c!"Xoha"
  | .Xohehohe => c!"Xohehohe"
  | .Xohi => c!"Xohi"
  | .Xuhau => c!"Xuhau"
  | .Yhi => c!"Yhi"
  | .Zaihai => c!"Zaihai"
  | .Zaihu => c!"Zaihu"
  | .Zauhehu => c!"Zauhehu"
  | .Zeihei => c!"Zeihei"
  | .Zeihoi => c!"Zeihoi"
  | .Ziheha => c!"Ziheha"
  | .Zihehau => c!"Zihehau"
  | .Zihoi => c!"Zihoi"
  | .Zoihai => c!"Zoihai"
  | .Zoihohe => c!"Zoihohe"
  | .Zohau => c!"Zohau"
  | .Zohehu => c!"Zohehu"
  | .Zohiho => c!"Zohiho"
  | .Zohoi => c!"Zohoi"
  | .Gismu => c!"Gismu"
  | .Fuhivla => c!"Fuhivla"
  | .Lujvo => c!"Lujvo"
  | .Cmevla => c!"Cmevla"
  | .UnknownCmavo => c!"UnknownCmavo"
  | .AnyText => c!"AnyText"
  | .ZoiDelimiter => c!"ZoiDelimiter"

/-- The types of `src/parse/cst/rules/*.rs` without type parameters, other than those of `token_types!` and `Bu`. -/
def CRule.types : List CRule :=
  [.Frees, .Text, .Paragraphs, .Paragraph, .ParagraphItem, .Fragment, .Sentences1, .Sentences3,
   .ParagraphSeparator, .SentenceSeparator, .ConnectedSentenceSeparator, .CloseSentenceSeparator, .Sentence,
   .SentenceTail, .SentenceTail1, .SentenceTail1After, .SentenceTail2, .SentenceTail2Connective,
   .SentenceTail2After, .SentenceTail3, .SentenceTail3After, .SentenceTail4, .GekSentence, .Subsentence,
   .Args, .TailArgs, .Prenex, .Arg, .PeheConnective, .Arg3, .Termset, .Selbri, .SelbriBefore, .Selbri1,
   .Selbri2, .Selbri3, .Selbri4, .Selbri5, .Selbri6, .TanruUnit, .TanruUnit1, .BeforeTanruUnit,
   .BoundArguments, .TanruUnit2, .ZeiClause, .ZeiBuInner, .ZeiTail, .Tag, .TagValue, .TagWord,
   .TimeSpaceCaha, .Time, .TimeOffset, .TimeDuration, .IntervalProperty, .Space, .SpaceOffset,
   .SpaceInterval, .SpaceIntervalProperty, .SpaceMotion, .Sumti, .Sumti1, .VuhoRelative, .RelativeClauses,
   .RelativeClause, .GoiRelativeClause, .NoiRelativeClause, .Sumti3, .Sumti3ConnectedPre, .Sumti4,
   .Quantifier, .Number, .NumberRest, .LerfuString, .MiscNumbers, .LerfuWord, .Lerfu, .BuInner,
   .SumtiComponent1, .LohuSumti, .LuSumti, .ModifiedSumti, .SumtiModifier, .GadriSumti, .Gadri,
   .GadriSumtiPre, .GadriSumtiContents, .LaSumti, .ZoSumti, .ZoiSumti, .ZoiDelimiter, .ZoiText, .Free,
   .Vocative, .SeiTail, .VocativeWords, .VocativeValue, .Subscript, .SubscriptValue, .Indicators, .Indicator,
   .Ek, .Jek, .Gihek, .Guhek, .Interval, .Joik, .Gik, .Gek, .JoikJek, .JoikEk, .Expression, .ReversePolish,
   .RPTail, .Expression1, .ForethoughtExpression, .Operand, .Operand1, .Operand2, .Operand2ConnectedPre,
   .Operand3, .Operator, .Operator1, .Operator2, .Operator3, .OperatorComponent, .OperatorComponentPre,
   .OperatorComponent1]

/-- Their identifiers, and those of `token_types!`.
The declarations are in `src/parse/cst/rules/*.rs`; each is cited in `Model/CstRules.lean`. -/
def CRule.ident : CRule → List Char
  | .Frees => c!"Frees"
  | .Text => c!"Text"
  | .Paragraphs => c!"Paragraphs"
  | .Paragraph => c!"Paragraph"
  | .ParagraphItem => c!"ParagraphItem"
  | .Fragment => c!"Fragment"
  | .Sentences1 => c!"Sentences1"
  | .Sentences3 => c!"Sentences3"
  | .ParagraphSeparator => c!"ParagraphSeparator"
  | .SentenceSeparator => c!"SentenceSeparator"
  | .ConnectedSentenceSeparator => c!"ConnectedSentenceSeparator"
  | .CloseSentenceSeparator => c!"CloseSentenceSeparator"
  | .Sentence => c!"Sentence"
  | .SentenceTail => c!"SentenceTail"
  | .SentenceTail1 => c!"SentenceTail1"
  | .SentenceTail1After => c!"SentenceTail1After"
  | .SentenceTail2 => c!"SentenceTail2"
  | .SentenceTail2Connective => c!"SentenceTail2Connective"
  | .SentenceTail2After => c!"SentenceTail2After"
  | .SentenceTail3 => c!"SentenceTail3"
  | .SentenceTail3After => c!"SentenceTail3After"
  | .SentenceTail4 => c!"SentenceTail4"
  | .GekSentence => c!"GekSentence"
  | .Subsentence => c!"Subsentence"
  | .Args => c!"Args"
  | .TailArgs => c!"TailArgs"
  | .Prenex => c!"Prenex"
  | .Arg => c!"Arg"
  | .PeheConnective => c!"PeheConnective"
  | .Arg3 => c!"Arg3"
  | .Termset => c!"Termset"
  | .Selbri => c!"Selbri"
  | .SelbriBefore => c!"SelbriBefore"
  | .Selbri1 => c!"Selbri1"
  | .Selbri2 => c!"Selbri2"
  | .Selbri3 => c!"Selbri3"
  | .Selbri4 => c!"Selbri4"
  | .Selbri5 => c!"Selbri5"
  | .Selbri6 => c!"Selbri6"
  | .TanruUnit => c!"TanruUnit"
  | .TanruUnit1 => c!"TanruUnit1"
  | .BeforeTanruUnit => c!"BeforeTanruUnit"
  | .BoundArguments => c!"BoundArguments"
  | .TanruUnit2 => c!"TanruUnit2"
  | .ZeiClause => c!"ZeiClause"
  | .ZeiBuInner => c!"ZeiBuInner"
  | .ZeiTail => c!"ZeiTail"
  | .Tag => c!"Tag"
  | .TagValue => c!"TagValue"
  | .TagWord => c!"TagWord"
  | .TimeSpaceCaha => c!"TimeSpaceCaha"
  | .Time => c!"Time"
  | .TimeOffset => c!"TimeOffset"
  | .TimeDuration => c!"TimeDuration"
  | .IntervalProperty => c!"IntervalProperty"
  | .Space => c!"Space"
  | .SpaceOffset => c!"SpaceOffset"
  | .SpaceInterval => c!"SpaceInterval"
  | .SpaceIntervalProperty => c!"SpaceIntervalProperty"
  | .SpaceMotion => c!"SpaceMotion"
  | .Sumti => c!"Sumti"
  | .Sumti1 => c!"Sumti1"
  | .VuhoRelative => c!"VuhoRelative"
  | .RelativeClauses => c!"RelativeClauses"
  | .RelativeClause => c!"RelativeClause"
  | .GoiRelativeClause => c!"GoiRelativeClause"
  | .NoiRelativeClause => c!"NoiRelativeClause"
  | .Sumti3 => c!"Sumti3"
  | .Sumti3ConnectedPre => c!"Sumti3ConnectedPre"
  | .Sumti4 => c!"Sumti4"
  | .Quantifier => c!"Quantifier"
  | .Number => c!"Number"
  | .NumberRest => c!"NumberRest"
  | .LerfuString => c!"LerfuString"
  | .MiscNumbers => c!"MiscNumbers"
  | .LerfuWord => c!"LerfuWord"
  | .Lerfu => c!"Lerfu"
  | .BuInner => c!"BuInner"
  | .SumtiComponent1 => c!"SumtiComponent1"
  | .LohuSumti => c!"LohuSumti"
  | .LuSumti => c!"LuSumti"
  | .ModifiedSumti => c!"ModifiedSumti"
  | .SumtiModifier => c!"SumtiModifier"
  | .GadriSumti => c!"GadriSumti"
  | .Gadri => c!"Gadri"
  | .GadriSumtiPre => c!"GadriSumtiPre"
  | .GadriSumtiContents => c!"GadriSumtiContents"
  | .LaSumti => c!"LaSumti"
  | .ZoSumti => c!"ZoSumti"
  | .ZoiSumti => c!"ZoiSumti"
  | .ZoiDelimiter => c!"ZoiDelimiter"
  | .ZoiText => c!"ZoiText"
  | .Free => c!"Free"
  | .Vocative => c!"Vocative"
  | .SeiTail => c!"SeiTail"
  | .VocativeWords => c!"VocativeWords"
  | .VocativeValue => c!"VocativeValue"
  | .Subscript => c!"Subscript"
  | .SubscriptValue => c!"SubscriptValue"
  | .Indicators => c!"Indicators"
  | .Indicator => c!"Indicator"
  | .Ek => c!"Ek"
  | .Jek => c!"Jek"
  | .Gihek => c!"Gihek"
  | .Guhek => c!"Guhek"
  | .Interval => c!"Interval"
  | .Joik => c!"Joik"
  | .Gik => c!"Gik"
  | .Gek => c!"Gek"
  | .JoikJek => c!"JoikJek"
  | .JoikEk => c!"JoikEk"
  | .Expression => c!"Expression"
  | .ReversePolish => c!"ReversePolish"
  | .RPTail => c!"RPTail"
  | .Expression1 => c!"Expression1"
  | .ForethoughtExpression => c!"ForethoughtExpression"
  | .Operand => c!"Operand"
  | .Operand1 => c!"Operand1"
  | .Operand2 => c!"Operand2"
  | .Operand2ConnectedPre => c!"Operand2ConnectedPre"
  | .Operand3 => c!"Operand3"
  | .Operator => c!"Operator"
  | .Operator1 => c!"Operator1"
  | .Operator2 => c!"Operator2"
  | .Operator3 => c!"Operator3"
  | .OperatorComponent => c!"OperatorComponent"
  | .OperatorComponentPre => c!"OperatorComponentPre"
  | .OperatorComponent1 => c!"OperatorComponent1"
  | .word s => s.ident

/-- The nodes, other than the words.
A list for proofs, no counterpart in `/repo`; the names are those of `macros/src/derive_tree_node.rs:227-248`. -/
def NodeName.types : List NodeName :=
  [.WithFree, .Frees, .Text, .Paragraphs, .Paragraph, .ParagraphItem_Sentences, .ParagraphItem_Fragment,
   .ParagraphItem_Empty, .Fragment_Ek, .Fragment_Jek, .Fragment_Joik, .Fragment_Gihek, .Fragment_Number,
   .Fragment_Na, .Sentences1, .Sentences3_Grouped, .Sentences3_Single, .ParagraphSeparator,
   .SentenceSeparator, .ConnectedSentenceSeparator, .CloseSentenceSeparator, .Sentence, .SentenceTail,
   .SentenceTail1, .SentenceTail1After, .SentenceTail2, .SentenceTail2Connective, .SentenceTail2After,
   .SentenceTail3, .SentenceTail3After, .SentenceTail4_Single, .SentenceTail4_Parenthesized,
   .SentenceTail4_Connected, .GekSentence, .Subsentence, .Args, .TailArgs, .Prenex, .Arg, .PeheConnective,
   .Arg3_Tag, .Arg3_Sumti, .Arg3_Naku, .Arg3_Termset, .Termset_Gek, .Termset_NuhiGi, .Termset_Nuhi, .Selbri,
   .SelbriBefore_Na, .SelbriBefore_Tag, .Selbri1, .Selbri2, .Selbri3, .SelbriLikeConnectedPost_Normal,
   .SelbriLikeConnectedPost_Parenthesized, .Selbri4, .Selbri5, .NaheGuhekTGik, .Selbri6, .TanruUnit,
   .TanruUnit1, .BeforeTanruUnit_Jai, .BeforeTanruUnit_Nahe, .BeforeTanruUnit_Se, .BoundArguments,
   .TanruUnit2_GroupedTanru, .TanruUnit2_Gismu, .TanruUnit2_Lujvo, .TanruUnit2_Fuhivla, .TanruUnit2_Zei,
   .TanruUnit2_Goha, .TanruUnit2_Moi, .TanruUnit2_Me, .TanruUnit2_Nu, .TanruUnit2_Nuha, .ZeiClause,
   .ZeiBuInner, .ZeiTail, .Tag, .TagValue_Ku, .TagValue_Sumti, .TagWord_Bai, .TagWord_TimeSpaceCaha,
   .TagWord_Ki, .TagWord_Cuhe, .TagWord_Converted, .TimeSpaceCaha_Time, .TimeSpaceCaha_Space,
   .TimeSpaceCaha_Caha, .Time, .TimeOffset, .TimeDuration, .IntervalProperty_Roi, .IntervalProperty_Tahe,
   .IntervalProperty_Zaho, .Space, .SpaceOffset, .SpaceInterval_Interval, .SpaceInterval_Properties,
   .SpaceIntervalProperty, .SpaceMotion, .Sumti, .Sumti1, .SumtiLikeConnectedPost_Normal,
   .SumtiLikeConnectedPost_Grouped, .VuhoRelative, .RelativeClauses, .RelativeClause_Goi,
   .RelativeClause_Noi, .GoiRelativeClause, .NoiRelativeClause, .Sumti3, .Sumti3ConnectedPre, .Sumti4_Normal,
   .Sumti4_SelbriShorthand, .Quantifier_Mekso, .Quantifier_Number, .Number, .NumberRest_Pa,
   .NumberRest_Lerfu, .LerfuString, .MiscNumbers, .LerfuWord_Lerfu, .LerfuWord_Lau, .LerfuWord_Tei,
   .Lerfu_Bu, .Lerfu_By, .BuInner, .SumtiComponent1_Koha, .SumtiComponent1_Gadri, .SumtiComponent1_La,
   .SumtiComponent1_Lohu, .SumtiComponent1_Lu, .SumtiComponent1_Modified, .SumtiComponent1_LerfuString,
   .SumtiComponent1_Zo, .SumtiComponent1_Zoi, .SumtiComponent1_Li, .LohuSumti, .LuSumti, .ModifiedSumti,
   .SumtiModifier_Lahe, .SumtiModifier_NaheBo, .GadriSumti, .Gadri_Le, .Gadri_La, .GadriSumtiPre_Simple,
   .GadriSumtiPre_Relative, .GadriSumtiPre_FullPre, .GadriSumtiContents_Selbri, .GadriSumtiContents_Sumti,
   .LaSumti, .ZoSumti, .ZoiSumti, .Free_Sei, .Free_Soi, .Free_Vocative, .Free_Mai, .Free_To, .Free_Xi,
   .Vocative, .SeiTail, .VocativeWords_Coi, .VocativeWords_Doi, .VocativeValue_Selbri, .VocativeValue_Cmevla,
   .VocativeValue_Sumti, .Subscript, .SubscriptValue_Mekso, .SubscriptValue_Number, .Indicators,
   .Indicator_Ui, .Indicator_Cai, .Indicator_Nai, .Indicator_Daho, .Indicator_Fuho, .Indicator_Y,
   .EitherOrBoth_Right, .EitherOrBoth_Both, .EitherOrBoth_Left, .NaSeTNai, .Ek, .Jek, .Gihek, .Guhek,
   .Interval, .Joik_SeJoiNai, .Joik_Interval, .Joik_Gaho, .Gik, .Gek_SeGaNai, .Gek_JoikGi, .Gek_TagGik,
   .JoikJek_Joik, .JoikJek_Jek, .JoikEk_Joik, .JoikEk_Ek, .Expression_ReversePolish, .Expression_Normal,
   .ReversePolish, .RPTail, .Expression1_Operand, .Expression1_Forethought, .ForethoughtExpression, .Operand,
   .Operand1, .Operand2, .Operand2ConnectedPre, .Operand3_Nihe, .Operand3_Mohe, .Operand3_Johi,
   .Operand3_Modified, .Operand3_Parenthesized, .Operand3_Number, .Operator, .Operator1, .Operator2,
   .Operator3_Simple, .Operator3_Grouped, .OperatorComponent, .OperatorComponentPre_Nahe,
   .OperatorComponentPre_Se, .OperatorComponent1_Maho, .OperatorComponent1_Nahu, .OperatorComponent1_Vuhu]

end Sneturfahi
