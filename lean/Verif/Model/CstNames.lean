import Verif.Model.Selmaho

/-!
# Names of the productions and nodes of the concrete syntax tree

Generated by `tools/gen_cst.py` from `src/parse/cst/rules/*.rs`.
-/

namespace Sneturfahi

/-- The names `TreeNode::name` gives (`macros/src/derive_tree_node.rs:227-248`): the name of a struct, or
the name of an enum with the variant.  `word` is the struct of a selmaho (`src/parse/cst/rules/selmaho.rs`). -/
inductive NodeName where
  | WithFree
  | Frees
  | Text
  | Paragraphs
  | Paragraph
  | ParagraphItem_Sentences
  | ParagraphItem_Fragment
  | ParagraphItem_Empty
  | Fragment_Ek
  | Fragment_Jek
  | Fragment_Joik
  | Fragment_Gihek
  | Fragment_Number
  | Fragment_Na
  | Sentences1
  | Sentences3_Grouped
  | Sentences3_Single
  | ParagraphSeparator
  | SentenceSeparator
  | ConnectedSentenceSeparator
  | CloseSentenceSeparator
  | Sentence
  | SentenceTail
  | SentenceTail1
  | SentenceTail1After
  | SentenceTail2
  | SentenceTail2Connective
  | SentenceTail2After
  | SentenceTail3
  | SentenceTail3After
  | SentenceTail4_Single
  | SentenceTail4_Parenthesized
  | SentenceTail4_Connected
  | GekSentence
  | Subsentence
  | Args
  | TailArgs
  | Prenex
  | Arg
  | PeheConnective
  | Arg3_Tag
  | Arg3_Sumti
  | Arg3_Naku
  | Arg3_Termset
  | Termset_Gek
  | Termset_NuhiGi
  | Termset_Nuhi
  | Selbri
  | SelbriBefore_Na
  | SelbriBefore_Tag
  | Selbri1
  | Selbri2
  | Selbri3
  | SelbriLikeConnectedPost_Normal
  | SelbriLikeConnectedPost_Parenthesized
  | Selbri4
  | Selbri5
  | NaheGuhekTGik
  | Selbri6
  | TanruUnit
  | TanruUnit1
  | BeforeTanruUnit_Jai
  | BeforeTanruUnit_Nahe
  | BeforeTanruUnit_Se
  | BoundArguments
  | TanruUnit2_GroupedTanru
  | TanruUnit2_Gismu
  | TanruUnit2_Lujvo
  | TanruUnit2_Fuhivla
  | TanruUnit2_Zei
  | TanruUnit2_Goha
  | TanruUnit2_Moi
  | TanruUnit2_Me
  | TanruUnit2_Nu
  | TanruUnit2_Nuha
  | ZeiClause
  | ZeiBuInner
  | ZeiTail
  | Tag
  | TagValue_Ku
  | TagValue_Sumti
  | TagWord_Bai
  | TagWord_TimeSpaceCaha
  | TagWord_Ki
  | TagWord_Cuhe
  | TagWord_Converted
  | TimeSpaceCaha_Time
  | TimeSpaceCaha_Space
  | TimeSpaceCaha_Caha
  | Time
  | TimeOffset
  | TimeDuration
  | IntervalProperty_Roi
  | IntervalProperty_Tahe
  | IntervalProperty_Zaho
  | Space
  | SpaceOffset
  | SpaceInterval_Interval
  | SpaceInterval_Properties
  | SpaceIntervalProperty
  | SpaceMotion
  | Sumti
  | Sumti1
  | SumtiLikeConnectedPost_Normal
  | SumtiLikeConnectedPost_Grouped
  | VuhoRelative
  | RelativeClauses
  | RelativeClause_Goi
  | RelativeClause_Noi
  | GoiRelativeClause
  | NoiRelativeClause
  | Sumti3
  | Sumti3ConnectedPre
  | Sumti4_Normal
  | Sumti4_SelbriShorthand
  | Quantifier_Mekso
  | Quantifier_Number
  | Number
  | NumberRest_Pa
  | NumberRest_Lerfu
  | LerfuString
  | MiscNumbers
  | LerfuWord_Lerfu
  | LerfuWord_Lau
  | LerfuWord_Tei
  | Lerfu_Bu
  | Lerfu_By
  | BuInner
  | SumtiComponent1_Koha
  | SumtiComponent1_Gadri
  | SumtiComponent1_La
  | SumtiComponent1_Lohu
  | SumtiComponent1_Lu
  | SumtiComponent1_Modified
  | SumtiComponent1_LerfuString
  | SumtiComponent1_Zo
  | SumtiComponent1_Zoi
  | SumtiComponent1_Li
  | LohuSumti
  | LuSumti
  | ModifiedSumti
  | SumtiModifier_Lahe
  | SumtiModifier_NaheBo
  | GadriSumti
  | Gadri_Le
  | Gadri_La
  | GadriSumtiPre_Simple
  | GadriSumtiPre_Relative
  | GadriSumtiPre_FullPre
  | GadriSumtiContents_Selbri
  | GadriSumtiContents_Sumti
  | LaSumti
  | ZoSumti
  | ZoiSumti
  | Free_Sei
  | Free_Soi
  | Free_Vocative
  | Free_Mai
  | Free_To
  | Free_Xi
  | Vocative
  | SeiTail
  | VocativeWords_Coi
  | VocativeWords_Doi
  | VocativeValue_Selbri
  | VocativeValue_Cmevla
  | VocativeValue_Sumti
  | Subscript
  | SubscriptValue_Mekso
  | SubscriptValue_Number
  | Indicators
  | Indicator_Ui
  | Indicator_Cai
  | Indicator_Nai
  | Indicator_Daho
  | Indicator_Fuho
  | Indicator_Y
  | EitherOrBoth_Right
  | EitherOrBoth_Both
  | EitherOrBoth_Left
  | NaSeTNai
  | Ek
  | Jek
  | Gihek
  | Guhek
  | Interval
  | Joik_SeJoiNai
  | Joik_Interval
  | Joik_Gaho
  | Gik
  | Gek_SeGaNai
  | Gek_JoikGi
  | Gek_TagGik
  | JoikJek_Joik
  | JoikJek_Jek
  | JoikEk_Joik
  | JoikEk_Ek
  | Expression_ReversePolish
  | Expression_Normal
  | ReversePolish
  | RPTail
  | Expression1_Operand
  | Expression1_Forethought
  | ForethoughtExpression
  | Operand
  | Operand1
  | Operand2
  | Operand2ConnectedPre
  | Operand3_Nihe
  | Operand3_Mohe
  | Operand3_Johi
  | Operand3_Modified
  | Operand3_Parenthesized
  | Operand3_Number
  | Operator
  | Operator1
  | Operator2
  | Operator3_Simple
  | Operator3_Grouped
  | OperatorComponent
  | OperatorComponentPre_Nahe
  | OperatorComponentPre_Se
  | OperatorComponent1_Maho
  | OperatorComponent1_Nahu
  | OperatorComponent1_Vuhu
  | word (s : Selmaho)
deriving DecidableEq, Repr

/-- Types with `#[tree_node(passthrough_child)]`, which have no node of their own.
`macros/src/derive_tree_node.rs:86-92, 166-225`. -/
def NodeName.passthrough : NodeName → Bool
  | .WithFree => true
  | .Frees => true
  | .Args => true
  | .TailArgs => true
  | .GadriSumtiPre_Simple => true
  | .GadriSumtiPre_Relative => true
  | .GadriSumtiPre_FullPre => true
  | .EitherOrBoth_Right => true
  | .EitherOrBoth_Both => true
  | .EitherOrBoth_Left => true
  | _ => false

/-- Non-generic types with a `Parse` implementation.
Each constructor cites its declaration, in `src/parse/cst/rules/mod.rs`, `connectives.rs`, `helpers.rs`, `mekso.rs` or `selmaho.rs`. -/
inductive CRule where
  /-- `src/parse/cst/rules/mod.rs:32-34` -/
  | Frees
  /-- `src/parse/cst/rules/mod.rs:38-45` -/
  | Text
  /-- `src/parse/cst/rules/mod.rs:47-48` -/
  | Paragraphs
  /-- `src/parse/cst/rules/mod.rs:50-54` -/
  | Paragraph
  /-- `src/parse/cst/rules/mod.rs:59-65` -/
  | ParagraphItem
  /-- `src/parse/cst/rules/mod.rs:67-82` -/
  | Fragment
  /-- `src/parse/cst/rules/mod.rs:84-88` -/
  | Sentences1
  /-- `src/parse/cst/rules/mod.rs:91-101` -/
  | Sentences3
  /-- `src/parse/cst/rules/mod.rs:103-107` -/
  | ParagraphSeparator
  /-- `src/parse/cst/rules/mod.rs:109-110` -/
  | SentenceSeparator
  /-- `src/parse/cst/rules/mod.rs:112-117` -/
  | ConnectedSentenceSeparator
  /-- `src/parse/cst/rules/mod.rs:119-126` -/
  | CloseSentenceSeparator
  /-- `src/parse/cst/rules/mod.rs:128-132` -/
  | Sentence
  /-- `src/parse/cst/rules/mod.rs:134-139` -/
  | SentenceTail
  /-- `src/parse/cst/rules/mod.rs:141-145` -/
  | SentenceTail1
  /-- `src/parse/cst/rules/mod.rs:147-157` -/
  | SentenceTail1After
  /-- `src/parse/cst/rules/mod.rs:159-163` -/
  | SentenceTail2
  /-- `src/parse/cst/rules/mod.rs:165-170` -/
  | SentenceTail2Connective
  /-- `src/parse/cst/rules/mod.rs:172-176` -/
  | SentenceTail2After
  /-- `src/parse/cst/rules/mod.rs:178-182` -/
  | SentenceTail3
  /-- `src/parse/cst/rules/mod.rs:191-195` -/
  | SentenceTail3After
  /-- `src/parse/cst/rules/mod.rs:197-209` -/
  | SentenceTail4
  /-- `src/parse/cst/rules/mod.rs:211-219` -/
  | GekSentence
  /-- `src/parse/cst/rules/mod.rs:221-226` -/
  | Subsentence
  /-- `src/parse/cst/rules/mod.rs:228-230` -/
  | Args
  /-- `src/parse/cst/rules/mod.rs:232-234` -/
  | TailArgs
  /-- `src/parse/cst/rules/mod.rs:236-241` -/
  | Prenex
  /-- `src/parse/cst/rules/mod.rs:243-247` -/
  | Arg
  /-- `src/parse/cst/rules/mod.rs:251-252` -/
  | PeheConnective
  /-- `src/parse/cst/rules/mod.rs:256-265` -/
  | Arg3
  /-- `src/parse/cst/rules/mod.rs:267-287` -/
  | Termset
  /-- `src/parse/cst/rules/mod.rs:289-295` -/
  | Selbri
  /-- `src/parse/cst/rules/mod.rs:297-301` -/
  | SelbriBefore
  /-- `src/parse/cst/rules/mod.rs:303-305` -/
  | Selbri1
  /-- `src/parse/cst/rules/mod.rs:307-309` -/
  | Selbri2
  /-- `src/parse/cst/rules/mod.rs:311-315` -/
  | Selbri3
  /-- `src/parse/cst/rules/mod.rs:333-346` -/
  | Selbri4
  /-- `src/parse/cst/rules/mod.rs:348-352` -/
  | Selbri5
  /-- `src/parse/cst/rules/mod.rs:363-364` -/
  | Selbri6
  /-- `src/parse/cst/rules/mod.rs:366-370` -/
  | TanruUnit
  /-- `src/parse/cst/rules/mod.rs:372-378` -/
  | TanruUnit1
  /-- `src/parse/cst/rules/mod.rs:380-388` -/
  | BeforeTanruUnit
  /-- `src/parse/cst/rules/mod.rs:390-396` -/
  | BoundArguments
  /-- `src/parse/cst/rules/mod.rs:398-433` -/
  | TanruUnit2
  /-- `src/parse/cst/rules/mod.rs:435-442` -/
  | ZeiClause
  /-- `src/parse/cst/rules/mod.rs:444-448` -/
  | ZeiBuInner
  /-- `src/parse/cst/rules/mod.rs:450-451` -/
  | ZeiTail
  /-- `src/parse/cst/rules/mod.rs:463-469` -/
  | Tag
  /-- `src/parse/cst/rules/mod.rs:471-475` -/
  | TagValue
  /-- `src/parse/cst/rules/mod.rs:479-504` -/
  | TagWord
  /-- `src/parse/cst/rules/mod.rs:506-511` -/
  | TimeSpaceCaha
  /-- `src/parse/cst/rules/mod.rs:513-522` -/
  | Time
  /-- `src/parse/cst/rules/mod.rs:524-529` -/
  | TimeOffset
  /-- `src/parse/cst/rules/mod.rs:531-536` -/
  | TimeDuration
  /-- `src/parse/cst/rules/mod.rs:538-543` -/
  | IntervalProperty
  /-- `src/parse/cst/rules/mod.rs:547-555` -/
  | Space
  /-- `src/parse/cst/rules/mod.rs:557-558` -/
  | SpaceOffset
  /-- `src/parse/cst/rules/mod.rs:560-569` -/
  | SpaceInterval
  /-- `src/parse/cst/rules/mod.rs:571-572` -/
  | SpaceIntervalProperty
  /-- `src/parse/cst/rules/mod.rs:574-578` -/
  | SpaceMotion
  /-- `src/parse/cst/rules/mod.rs:580-584` -/
  | Sumti
  /-- `src/parse/cst/rules/mod.rs:586-591` -/
  | Sumti1
  /-- `src/parse/cst/rules/mod.rs:617-621` -/
  | VuhoRelative
  /-- `src/parse/cst/rules/mod.rs:623-626` -/
  | RelativeClauses
  /-- `src/parse/cst/rules/mod.rs:628-632` -/
  | RelativeClause
  /-- `src/parse/cst/rules/mod.rs:634-641` -/
  | GoiRelativeClause
  /-- `src/parse/cst/rules/mod.rs:643-649` -/
  | NoiRelativeClause
  /-- `src/parse/cst/rules/mod.rs:651-655` -/
  | Sumti3
  /-- `src/parse/cst/rules/mod.rs:657-658` -/
  | Sumti3ConnectedPre
  /-- `src/parse/cst/rules/mod.rs:660-674` -/
  | Sumti4
  /-- `src/parse/cst/rules/mod.rs:676-689` -/
  | Quantifier
  /-- `src/parse/cst/rules/mod.rs:691-696` -/
  | Number
  /-- `src/parse/cst/rules/mod.rs:698-702` -/
  | NumberRest
  /-- `src/parse/cst/rules/mod.rs:704-709` -/
  | LerfuString
  /-- `src/parse/cst/rules/mod.rs:711-712` -/
  | MiscNumbers
  /-- `src/parse/cst/rules/mod.rs:714-727` -/
  | LerfuWord
  /-- `src/parse/cst/rules/mod.rs:729-738` -/
  | Lerfu
  /-- `src/parse/cst/rules/mod.rs:740-744` -/
  | BuInner
  /-- `src/parse/cst/rules/mod.rs:748-767` -/
  | SumtiComponent1
  /-- `src/parse/cst/rules/mod.rs:769-774` -/
  | LohuSumti
  /-- `src/parse/cst/rules/mod.rs:795-800` -/
  | LuSumti
  /-- `src/parse/cst/rules/mod.rs:802-808` -/
  | ModifiedSumti
  /-- `src/parse/cst/rules/mod.rs:810-814` -/
  | SumtiModifier
  /-- `src/parse/cst/rules/mod.rs:816-822` -/
  | GadriSumti
  /-- `src/parse/cst/rules/mod.rs:824-828` -/
  | Gadri
  /-- `src/parse/cst/rules/mod.rs:830-844` -/
  | GadriSumtiPre
  /-- `src/parse/cst/rules/mod.rs:846-854` -/
  | GadriSumtiContents
  /-- `src/parse/cst/rules/mod.rs:856-861` -/
  | LaSumti
  /-- `src/parse/cst/rules/mod.rs:863-867` -/
  | ZoSumti
  /-- `src/parse/cst/rules/mod.rs:869-875` -/
  | ZoiSumti
  /-- `src/parse/cst/rules/mod.rs:877-879` -/
  | ZoiDelimiter
  /-- `src/parse/cst/rules/mod.rs:901-902` -/
  | ZoiText
  /-- `src/parse/cst/rules/mod.rs:924-941` -/
  | Free
  /-- `src/parse/cst/rules/mod.rs:943-950` -/
  | Vocative
  /-- `src/parse/cst/rules/mod.rs:952-957` -/
  | SeiTail
  /-- `src/parse/cst/rules/mod.rs:959-966` -/
  | VocativeWords
  /-- `src/parse/cst/rules/mod.rs:968-973` -/
  | VocativeValue
  /-- `src/parse/cst/rules/mod.rs:975-979` -/
  | Subscript
  /-- `src/parse/cst/rules/mod.rs:981-994` -/
  | SubscriptValue
  /-- `src/parse/cst/rules/mod.rs:996-1000` -/
  | Indicators
  /-- `src/parse/cst/rules/mod.rs:1002-1011` -/
  | Indicator
  /-- `src/parse/cst/rules/connectives.rs:12-22` -/
  | Ek
  /-- `src/parse/cst/rules/connectives.rs:12-22` -/
  | Jek
  /-- `src/parse/cst/rules/connectives.rs:12-22` -/
  | Gihek
  /-- `src/parse/cst/rules/connectives.rs:25-31` -/
  | Guhek
  /-- `src/parse/cst/rules/connectives.rs:33-38` -/
  | Interval
  /-- `src/parse/cst/rules/connectives.rs:40-45` -/
  | Joik
  /-- `src/parse/cst/rules/connectives.rs:47-48` -/
  | Gik
  /-- `src/parse/cst/rules/connectives.rs:50-60` -/
  | Gek
  /-- `src/parse/cst/rules/connectives.rs:62-66` -/
  | JoikJek
  /-- `src/parse/cst/rules/connectives.rs:68-72` -/
  | JoikEk
  /-- `src/parse/cst/rules/mekso.rs:11-21` -/
  | Expression
  /-- `src/parse/cst/rules/mekso.rs:24-28` -/
  | ReversePolish
  /-- `src/parse/cst/rules/mekso.rs:30-31` -/
  | RPTail
  /-- `src/parse/cst/rules/mekso.rs:33-37` -/
  | Expression1
  /-- `src/parse/cst/rules/mekso.rs:39-47` -/
  | ForethoughtExpression
  /-- `src/parse/cst/rules/mekso.rs:49-53` -/
  | Operand
  /-- `src/parse/cst/rules/mekso.rs:58-69` -/
  | Operand1
  /-- `src/parse/cst/rules/mekso.rs:71-75` -/
  | Operand2
  /-- `src/parse/cst/rules/mekso.rs:77-78` -/
  | Operand2ConnectedPre
  /-- `src/parse/cst/rules/mekso.rs:80-116` -/
  | Operand3
  /-- `src/parse/cst/rules/mekso.rs:120-124` -/
  | Operator
  /-- `src/parse/cst/rules/mekso.rs:129-133` -/
  | Operator1
  /-- `src/parse/cst/rules/mekso.rs:135-146` -/
  | Operator2
  /-- `src/parse/cst/rules/mekso.rs:148-157` -/
  | Operator3
  /-- `src/parse/cst/rules/mekso.rs:159-163` -/
  | OperatorComponent
  /-- `src/parse/cst/rules/mekso.rs:165-169` -/
  | OperatorComponentPre
  /-- `src/parse/cst/rules/mekso.rs:171-186` -/
  | OperatorComponent1
  /-- the types made by `token_types!`, and `Bu`, `src/parse/cst/rules/selmaho.rs:30-437` -/
  | word (s : Selmaho)
deriving DecidableEq, Repr

/-- How a selmaho is declared in `token_types!`, `src/parse/cst/rules/selmaho.rs:219-241`. -/
inductive WordKind where
  | single | noIndicators | raw | bu | absent
deriving DecidableEq, Repr

/-- The list given to `token_types!`, `src/parse/cst/rules/selmaho.rs:243-372`, and `Bu`.
`absent`: there is no such type. -/
def wordKind : Selmaho → WordKind
  | .A => .single
  | .Bahe => .raw
  | .Bai => .single
  | .Be => .single
  | .Beho => .single
  | .Bei => .single
  | .Bihe => .single
  | .Bihi => .single
  | .Bo => .single
  | .Boi => .single
  | .By => .single
  | .Caha => .single
  | .Cai => .single
  | .Cehe => .single
  | .Cei => .single
  | .Cmevla => .single
  | .Co => .single
  | .Coi => .single
  | .Giha => .single
  | .Cu => .single
  | .Cuhe => .single
  | .Daho => .single
  | .Dohu => .single
  | .Doi => .single
  | .Tuhe => .single
  | .Tuhu => .single
  | .Fa => .single
  | .Faha => .single
  | .Faho => .single
  | .Fehe => .single
  | .Fehu => .single
  | .Fiho => .single
  | .Foi => .single
  | .Fuha => .single
  | .Fuhe => .noIndicators
  | .Fuhivla => .single
  | .Fuho => .single
  | .Ga => .single
  | .Gaho => .single
  | .Gehu => .single
  | .Gi => .single
  | .Gismu => .single
  | .Goha => .single
  | .Goi => .single
  | .Niho => .single
  | .Guha => .single
  | .I => .single
  | .Ja => .single
  | .Jai => .single
  | .Johi => .single
  | .Joi => .single
  | .Ke => .single
  | .Kehe => .single
  | .Kei => .single
  | .Ki => .single
  | .Koha => .single
  | .Ku => .single
  | .Kuhe => .single
  | .Kuho => .single
  | .La => .single
  | .Lahe => .single
  | .Lau => .single
  | .Le => .single
  | .Lehu => .single
  | .Li => .single
  | .Lihu => .single
  | .Loho => .single
  | .Lohu => .raw
  | .Lu => .raw
  | .Luhu => .single
  | .Lujvo => .single
  | .Maho => .single
  | .Mai => .single
  | .Me => .single
  | .Mehu => .single
  | .Mohe => .single
  | .Mohi => .single
  | .Moi => .single
  | .Na => .single
  | .Nahe => .single
  | .Nahu => .single
  | .Nai => .single
  | .Nihe => .single
  | .Noi => .single
  | .Nu => .single
  | .Nuha => .single
  | .Nuhi => .single
  | .Nuhu => .single
  | .Pa => .single
  | .Pehe => .single
  | .Peho => .single
  | .Pu => .single
  | .Raho => .single
  | .Roi => .single
  | .Se => .single
  | .Sehu => .single
  | .Sei => .single
  | .Soi => .single
  | .Tahe => .single
  | .Tehu => .single
  | .Tei => .single
  | .To => .single
  | .Toi => .single
  | .Ui => .single
  | .Va => .single
  | .Vau => .single
  | .Veha => .single
  | .Veho => .single
  | .Vei => .single
  | .Viha => .single
  | .Vuho => .single
  | .Vuhu => .single
  | .Xi => .single
  | .Y => .single
  | .Zaho => .single
  | .Zeha => .single
  | .Zei => .noIndicators
  | .Zi => .single
  | .Zihe => .single
  | .Zo => .raw
  | .Zohu => .single
  | .Zoi => .raw
  | .Bu => .bu
  | _ => .absent

/-- `TreeNode::name` of a node.  For the structs of `token_types!` the name of the struct is the name of the
`Selmaho` variant; only those with children beside the word itself use it.
`macros/src/derive_tree_node.rs:227-248`. -/
def NodeName.text (ident : Selmaho → List Char) : NodeName → List Char
  | .WithFree => c!"WithFree"
  | .Frees => c!"Frees"
  | .Text => c!"Text"
  | .Paragraphs => c!"Paragraphs"
  | .Paragraph => c!"Paragraph"
  | .ParagraphItem_Sentences => c!"ParagraphItem::Sentences"
  | .ParagraphItem_Fragment => c!"ParagraphItem::Fragment"
  | .ParagraphItem_Empty => c!"ParagraphItem::Empty"
  | .Fragment_Ek => c!"Fragment::Ek"
  | .Fragment_Jek => c!"Fragment::Jek"
  | .Fragment_Joik => c!"Fragment::Joik"
  | .Fragment_Gihek => c!"Fragment::Gihek"
  | .Fragment_Number => c!"Fragment::Number"
  | .Fragment_Na => c!"Fragment::Na"
  | .Sentences1 => c!"Sentences1"
  | .Sentences3_Grouped => c!"Sentences3::Grouped"
  | .Sentences3_Single => c!"Sentences3::Single"
  | .ParagraphSeparator => c!"ParagraphSeparator"
  | .SentenceSeparator => c!"SentenceSeparator"
  | .ConnectedSentenceSeparator => c!"ConnectedSentenceSeparator"
  | .CloseSentenceSeparator => c!"CloseSentenceSeparator"
  | .Sentence => c!"Sentence"
  | .SentenceTail => c!"SentenceTail"
  | .SentenceTail1 => c!"SentenceTail1"
  | .SentenceTail1After => c!"SentenceTail1After"
  | .SentenceTail2 => c!"SentenceTail2"
  | .SentenceTail2Connective => c!"SentenceTail2Connective"
  | .SentenceTail2After => c!"SentenceTail2After"
  | .SentenceTail3 => c!"SentenceTail3"
  | .SentenceTail3After => c!"SentenceTail3After"
  | .SentenceTail4_Single => c!"SentenceTail4::Single"
  | .SentenceTail4_Parenthesized => c!"SentenceTail4::Parenthesized"
  | .SentenceTail4_Connected => c!"SentenceTail4::Connected"
  | .GekSentence => c!"GekSentence"
  | .Subsentence => c!"Subsentence"
  | .Args => c!"Args"
  | .TailArgs => c!"TailArgs"
  | .Prenex => c!"Prenex"
  | .Arg => c!"Arg"
  | .PeheConnective => c!"PeheConnective"
  | .Arg3_Tag => c!"Arg3::Tag"
  | .Arg3_Sumti => c!"Arg3::Sumti"
  | .Arg3_Naku => c!"Arg3::Naku"
  | .Arg3_Termset => c!"Arg3::Termset"
  | .Termset_Gek => c!"Termset::Gek"
  | .Termset_NuhiGi => c!"Termset::NuhiGi"
  | .Termset_Nuhi => c!"Termset::Nuhi"
  | .Selbri => c!"Selbri"
  | .SelbriBefore_Na => c!"SelbriBefore::Na"
  | .SelbriBefore_Tag => c!"SelbriBefore::Tag"
  | .Selbri1 => c!"Selbri1"
  | .Selbri2 => c!"Selbri2"
  | .Selbri3 => c!"Selbri3"
  | .SelbriLikeConnectedPost_Normal => c!"SelbriLikeConnectedPost::Normal"
  | .SelbriLikeConnectedPost_Parenthesized => c!"SelbriLikeConnectedPost::Parenthesized"
  | .Selbri4 => c!"Selbri4"
  | .Selbri5 => c!"Selbri5"
  | .NaheGuhekTGik => c!"NaheGuhekTGik"
  | .Selbri6 => c!"Selbri6"
  | .TanruUnit => c!"TanruUnit"
  | .TanruUnit1 => c!"TanruUnit1"
  | .BeforeTanruUnit_Jai => c!"BeforeTanruUnit::Jai"
  | .BeforeTanruUnit_Nahe => c!"BeforeTanruUnit::Nahe"
  | .BeforeTanruUnit_Se => c!"BeforeTanruUnit::Se"
  | .BoundArguments => c!"BoundArguments"
  | .TanruUnit2_GroupedTanru => c!"TanruUnit2::GroupedTanru"
  | .TanruUnit2_Gismu => c!"TanruUnit2::Gismu"
  | .TanruUnit2_Lujvo => c!"TanruUnit2::Lujvo"
  | .TanruUnit2_Fuhivla => c!"TanruUnit2::Fuhivla"
  | .TanruUnit2_Zei => c!"TanruUnit2::Zei"
  | .TanruUnit2_Goha => c!"TanruUnit2::Goha"
  | .TanruUnit2_Moi => c!"TanruUnit2::Moi"
  | .TanruUnit2_Me => c!"TanruUnit2::Me"
  | .TanruUnit2_Nu => c!"TanruUnit2::Nu"
  | .TanruUnit2_Nuha => c!"TanruUnit2::Nuha"
  | .ZeiClause => c!"ZeiClause"
  | .ZeiBuInner => c!"ZeiBuInner"
  | .ZeiTail => c!"ZeiTail"
  | .Tag => c!"Tag"
  | .TagValue_Ku => c!"TagValue::Ku"
  | .TagValue_Sumti => c!"TagValue::Sumti"
  | .TagWord_Bai => c!"TagWord::Bai"
  | .TagWord_TimeSpaceCaha => c!"TagWord::TimeSpaceCaha"
  | .TagWord_Ki => c!"TagWord::Ki"
  | .TagWord_Cuhe => c!"TagWord::Cuhe"
  | .TagWord_Converted => c!"TagWord::Converted"
  | .TimeSpaceCaha_Time => c!"TimeSpaceCaha::Time"
  | .TimeSpaceCaha_Space => c!"TimeSpaceCaha::Space"
  | .TimeSpaceCaha_Caha => c!"TimeSpaceCaha::Caha"
  | .Time => c!"Time"
  | .TimeOffset => c!"TimeOffset"
  | .TimeDuration => c!"TimeDuration"
  | .IntervalProperty_Roi => c!"IntervalProperty::Roi"
  | .IntervalProperty_Tahe => c!"IntervalProperty::Tahe"
  | .IntervalProperty_Zaho => c!"IntervalProperty::Zaho"
  | .Space => c!"Space"
  | .SpaceOffset => c!"SpaceOffset"
  | .SpaceInterval_Interval => c!"SpaceInterval::Interval"
  | .SpaceInterval_Properties => c!"SpaceInterval::Properties"
  | .SpaceIntervalProperty => c!"SpaceIntervalProperty"
  | .SpaceMotion => c!"SpaceMotion"
  | .Sumti => c!"Sumti"
  | .Sumti1 => c!"Sumti1"
  | .SumtiLikeConnectedPost_Normal => c!"SumtiLikeConnectedPost::Normal"
  | .SumtiLikeConnectedPost_Grouped => c!"SumtiLikeConnectedPost::Grouped"
  | .VuhoRelative => c!"VuhoRelative"
  | .RelativeClauses => c!"RelativeClauses"
  | .RelativeClause_Goi => c!"RelativeClause::Goi"
  | .RelativeClause_Noi => c!"RelativeClause::Noi"
  | .GoiRelativeClause => c!"GoiRelativeClause"
  | .NoiRelativeClause => c!"NoiRelativeClause"
  | .Sumti3 => c!"Sumti3"
  | .Sumti3ConnectedPre => c!"Sumti3ConnectedPre"
  | .Sumti4_Normal => c!"Sumti4::Normal"
  | .Sumti4_SelbriShorthand => c!"Sumti4::SelbriShorthand"
  | .Quantifier_Mekso => c!"Quantifier::Mekso"
  | .Quantifier_Number => c!"Quantifier::Number"
  | .Number => c!"Number"
  | .NumberRest_Pa => c!"NumberRest::Pa"
  | .NumberRest_Lerfu => c!"NumberRest::Lerfu"
  | .LerfuString => c!"LerfuString"
  | .MiscNumbers => c!"MiscNumbers"
  | .LerfuWord_Lerfu => c!"LerfuWord::Lerfu"
  | .LerfuWord_Lau => c!"LerfuWord::Lau"
  | .LerfuWord_Tei => c!"LerfuWord::Tei"
  | .Lerfu_Bu => c!"Lerfu::Bu"
  | .Lerfu_By => c!"Lerfu::By"
  | .BuInner => c!"BuInner"
  | .SumtiComponent1_Koha => c!"SumtiComponent1::Koha"
  | .SumtiComponent1_Gadri => c!"SumtiComponent1::Gadri"
  | .SumtiComponent1_La => c!"SumtiComponent1::La"
  | .SumtiComponent1_Lohu => c!"SumtiComponent1::Lohu"
  | .SumtiComponent1_Lu => c!"SumtiComponent1::Lu"
  | .SumtiComponent1_Modified => c!"SumtiComponent1::Modified"
  | .SumtiComponent1_LerfuString => c!"SumtiComponent1::LerfuString"
  | .SumtiComponent1_Zo => c!"SumtiComponent1::Zo"
  | .SumtiComponent1_Zoi => c!"SumtiComponent1::Zoi"
  | .SumtiComponent1_Li => c!"SumtiComponent1::Li"
  | .LohuSumti => c!"LohuSumti"
  | .LuSumti => c!"LuSumti"
  | .ModifiedSumti => c!"ModifiedSumti"
  | .SumtiModifier_Lahe => c!"SumtiModifier::Lahe"
  | .SumtiModifier_NaheBo => c!"SumtiModifier::NaheBo"
  | .GadriSumti => c!"GadriSumti"
  | .Gadri_Le => c!"Gadri::Le"
  | .Gadri_La => c!"Gadri::La"
  | .GadriSumtiPre_Simple => c!"GadriSumtiPre::Simple"
  | .GadriSumtiPre_Relative => c!"GadriSumtiPre::Relative"
  | .GadriSumtiPre_FullPre => c!"GadriSumtiPre::FullPre"
  | .GadriSumtiContents_Selbri => c!"GadriSumtiContents::Selbri"
  | .GadriSumtiContents_Sumti => c!"GadriSumtiContents::Sumti"
  | .LaSumti => c!"LaSumti"
  | .ZoSumti => c!"ZoSumti"
  | .ZoiSumti => c!"ZoiSumti"
  | .Free_Sei => c!"Free::Sei"
  | .Free_Soi => c!"Free::Soi"
  | .Free_Vocative => c!"Free::Vocative"
  | .Free_Mai => c!"Free::Mai"
  | .Free_To => c!"Free::To"
  | .Free_Xi => c!"Free::Xi"
  | .Vocative => c!"Vocative"
  | .SeiTail => c!"SeiTail"
  | .VocativeWords_Coi => c!"VocativeWords::Coi"
  | .VocativeWords_Doi => c!"VocativeWords::Doi"
  | .VocativeValue_Selbri => c!"VocativeValue::Selbri"
  | .VocativeValue_Cmevla => c!"VocativeValue::Cmevla"
  | .VocativeValue_Sumti => c!"VocativeValue::Sumti"
  | .Subscript => c!"Subscript"
  | .SubscriptValue_Mekso => c!"SubscriptValue::Mekso"
  | .SubscriptValue_Number => c!"SubscriptValue::Number"
  | .Indicators => c!"Indicators"
  | .Indicator_Ui => c!"Indicator::Ui"
  | .Indicator_Cai => c!"Indicator::Cai"
  | .Indicator_Nai => c!"Indicator::Nai"
  | .Indicator_Daho => c!"Indicator::Daho"
  | .Indicator_Fuho => c!"Indicator::Fuho"
  | .Indicator_Y => c!"Indicator::Y"
  | .EitherOrBoth_Right => c!"EitherOrBoth::Right"
  | .EitherOrBoth_Both => c!"EitherOrBoth::Both"
  | .EitherOrBoth_Left => c!"EitherOrBoth::Left"
  | .NaSeTNai => c!"NaSeTNai"
  | .Ek => c!"Ek"
  | .Jek => c!"Jek"
  | .Gihek => c!"Gihek"
  | .Guhek => c!"Guhek"
  | .Interval => c!"Interval"
  | .Joik_SeJoiNai => c!"Joik::SeJoiNai"
  | .Joik_Interval => c!"Joik::Interval"
  | .Joik_Gaho => c!"Joik::Gaho"
  | .Gik => c!"Gik"
  | .Gek_SeGaNai => c!"Gek::SeGaNai"
  | .Gek_JoikGi => c!"Gek::JoikGi"
  | .Gek_TagGik => c!"Gek::TagGik"
  | .JoikJek_Joik => c!"JoikJek::Joik"
  | .JoikJek_Jek => c!"JoikJek::Jek"
  | .JoikEk_Joik => c!"JoikEk::Joik"
  | .JoikEk_Ek => c!"JoikEk::Ek"
  | .Expression_ReversePolish => c!"Expression::ReversePolish"
  | .Expression_Normal => c!"Expression::Normal"
  | .ReversePolish => c!"ReversePolish"
  | .RPTail => c!"RPTail"
  | .Expression1_Operand => c!"Expression1::Operand"
  | .Expression1_Forethought => c!"Expression1::Forethought"
  | .ForethoughtExpression => c!"ForethoughtExpression"
  | .Operand => c!"Operand"
  | .Operand1 => c!"Operand1"
  | .Operand2 => c!"Operand2"
  | .Operand2ConnectedPre => c!"Operand2ConnectedPre"
  | .Operand3_Nihe => c!"Operand3::Nihe"
  | .Operand3_Mohe => c!"Operand3::Mohe"
  | .Operand3_Johi => c!"Operand3::Johi"
  | .Operand3_Modified => c!"Operand3::Modified"
  | .Operand3_Parenthesized => c!"Operand3::Parenthesized"
  | .Operand3_Number => c!"Operand3::Number"
  | .Operator => c!"Operator"
  | .Operator1 => c!"Operator1"
  | .Operator2 => c!"Operator2"
  | .Operator3_Simple => c!"Operator3::Simple"
  | .Operator3_Grouped => c!"Operator3::Grouped"
  | .OperatorComponent => c!"OperatorComponent"
  | .OperatorComponentPre_Nahe => c!"OperatorComponentPre::Nahe"
  | .OperatorComponentPre_Se => c!"OperatorComponentPre::Se"
  | .OperatorComponent1_Maho => c!"OperatorComponent1::Maho"
  | .OperatorComponent1_Nahu => c!"OperatorComponent1::Nahu"
  | .OperatorComponent1_Vuhu => c!"OperatorComponent1::Vuhu"
  | .word s => ident s

end Sneturfahi
