import Verif.Model.CstPeg

/-!
# The productions of `src/parse/cst/rules/*.rs`

Generated by `tools/gen_cst.py`.  A struct is the sequence of its fields, an enum the ordered choice of
its variants (`macros/src/derive_parse.rs:117-365`); generic types are functions.
-/

namespace Sneturfahi

open Gr

/-- `WithFree`, `src/parse/cst/rules/mod.rs:25-30` -/
def gWithFree (inner : Gr) : Gr :=
  .wrap (.node .WithFree) (.seq inner (.call .Frees))

/-- `type Root`, `src/parse/cst/rules/mod.rs:36-36` -/
def gRoot : Gr :=
  (.call .Text)

/-- `Separated`, `src/parse/cst/rules/helpers.rs:42-47` -/
def gSeparated (item separator : Gr) : Gr :=
  .wrap .sep (.seq item (.many0 (.wrap .tuple (.seq separator item))))

/-- `type ParagraphItems`, `src/parse/cst/rules/mod.rs:56-57` -/
def gParagraphItems : Gr :=
  (gSeparated (.call .ParagraphItem) (.call .SentenceSeparator))

/-- `type Sentences2`, `src/parse/cst/rules/mod.rs:89-89` -/
def gSentences2 : Gr :=
  (gSeparated (.call .Sentences3) (.call .CloseSentenceSeparator))

/-- `type TagWords`, `src/parse/cst/rules/mod.rs:477-477` -/
def gTagWords : Gr :=
  (gSeparated (.call .TagWord) (.call .JoikJek))

/-- `type SentenceTail3Connective`, `src/parse/cst/rules/mod.rs:184-189` -/
def gSentenceTail3Connective : Gr :=
  (.wrap .tuple (.seq (.call .Gihek) (.seq (.opt gTagWords) (.seq (.call (.word .Bo)) (.call .Frees)))))

/-- `type Arg2`, `src/parse/cst/rules/mod.rs:254-254` -/
def gArg2 : Gr :=
  (gSeparated (.call .Arg3) (gWithFree (.call (.word .Cehe))))

/-- `type Arg1`, `src/parse/cst/rules/mod.rs:249-249` -/
def gArg1 : Gr :=
  (gSeparated gArg2 (.call .PeheConnective))

/-- `SelbriLikeConnectedPost`, `src/parse/cst/rules/mod.rs:320-331` -/
def gSelbriLikeConnectedPost (normal parenthesized : Gr) : Gr :=
  .alt (.wrap (.node .SelbriLikeConnectedPost_Normal) (.seq (.call .JoikJek) normal)) (.wrap (.node .SelbriLikeConnectedPost_Parenthesized) (.seq (.call .JoikJek) (.seq (.opt gTagWords) (.seq (gWithFree (.call (.word .Ke))) (.seq parenthesized (.seq (.opt (.call (.word .Kehe))) (.call .Frees)))))))

/-- `type Selbri3ConnectedPost`, `src/parse/cst/rules/mod.rs:317-318` -/
def gSelbri3ConnectedPost : Gr :=
  (gSelbriLikeConnectedPost (.call .Selbri4) (.call .Selbri2))

/-- `NaheGuhekTGik`, `src/parse/cst/rules/mod.rs:354-361` -/
def gNaheGuhekTGik (t : Gr) : Gr :=
  .wrap (.node .NaheGuhekTGik) (.seq (.opt (.call (.word .Nahe))) (.seq (.call .Frees) (.seq (.call .Guhek) (.seq t (.call .Gik)))))

/-- `type TimeIntervalProperty`, `src/parse/cst/rules/mod.rs:545-545` -/
def gTimeIntervalProperty : Gr :=
  (.call .IntervalProperty)

/-- `SumtiLikeConnectedPost`, `src/parse/cst/rules/mod.rs:593-604` -/
def gSumtiLikeConnectedPost (normal parenthesized : Gr) : Gr :=
  .alt (.wrap (.node .SumtiLikeConnectedPost_Normal) (.seq (.call .JoikEk) normal)) (.wrap (.node .SumtiLikeConnectedPost_Grouped) (.seq (.call .JoikEk) (.seq (.opt gTagWords) (.seq (gWithFree (.call (.word .Ke))) (.seq parenthesized (.seq (.opt (.call (.word .Kehe))) (.call .Frees)))))))

/-- `type Sumti2`, `src/parse/cst/rules/mod.rs:606-615` -/
def gSumti2 : Gr :=
  (gSeparated (.call .Sumti3) (.wrap .tuple (.seq (.call .JoikEk) (.seq (.opt gTagWords) (.seq (.call (.word .Bo)) (.call .Frees))))))

/-- `type SumtiComponent`, `src/parse/cst/rules/mod.rs:746-746` -/
def gSumtiComponent : Gr :=
  (gWithFree (.call .SumtiComponent1))

/-- `EitherOrBoth`, `src/parse/cst/rules/helpers.rs:106-112` -/
def gEitherOrBoth (l r : Gr) : Gr :=
  .alt (.alt (.wrap (.node .EitherOrBoth_Right) r) (.wrap (.node .EitherOrBoth_Both) (.seq l r))) (.wrap (.node .EitherOrBoth_Left) l)

/-- `NaSeTNai`, `src/parse/cst/rules/connectives.rs:5-11` -/
def gNaSeTNai (t : Gr) : Gr :=
  .wrap (.node .NaSeTNai) (.seq (.opt (.call (.word .Na))) (.seq (.opt (.call (.word .Se))) (.seq t (.opt (.call (.word .Nai))))))

/-- `type ConnectedOperand`, `src/parse/cst/rules/mekso.rs:55-56` -/
def gConnectedOperand : Gr :=
  (gSumtiLikeConnectedPost (.call .Operand1) (.call .Operand))

/-- `type OperandModifier`, `src/parse/cst/rules/mekso.rs:118-118` -/
def gOperandModifier : Gr :=
  (.call .SumtiModifier)

/-- `type ConnectedOperator`, `src/parse/cst/rules/mekso.rs:126-127` -/
def gConnectedOperator : Gr :=
  (gSelbriLikeConnectedPost (.call .Operator1) (.call .Operator))

/-- The structs made by `token_types!`, `src/parse/cst/rules/selmaho.rs:33-218` (`Parse` at 99-106, 154-164,
204-216), and `Bu`, 381-437.  The last case does not exist in the code. -/
def wordBody (s : Selmaho) : WordKind → Gr
  | .single => .wrap (.node (.word s)) (.seq (.many0 (.call (.word .Bahe))) (.seq (.raw s) (.seq (.opt (.call .Indicators))
      (.seq (.not (.call (.word .Bu))) (.not (.call (.word .Zei)))))))
  | .noIndicators => .wrap (.node (.word s)) (.seq (.many0 (.call (.word .Bahe))) (.seq (.raw s)
      (.seq (.not (.call (.word .Bu))) (.not (.call (.word .Zei))))))
  | .raw => .seq (.raw s) (.seq (.not (.call (.word .Bu))) (.not (.call (.word .Zei))))
  | .bu => .raw s
  | .absent => .raw s

/-- The body of each production.
`#[derive(Parse)]` (`macros/src/derive_parse.rs:117-365`) on the declarations of `src/parse/cst/rules/*.rs`, cited one by one at the definitions `g..` below or above. -/
def cst : CRule → Gr
  -- `src/parse/cst/rules/mod.rs:32-34`
  | .Frees =>
    .wrap (.node .Frees) (.many0 (.call .Free))
  -- `src/parse/cst/rules/mod.rs:38-45`
  | .Text =>
    .wrap (.node .Text) (.seq (.opt (.call .Indicators)) (.seq (.call .Frees) (.seq (.opt (.call .ParagraphSeparator)) (.seq (.opt (.call .Paragraphs)) (.opt (.call (.word .Faho)))))))
  -- `src/parse/cst/rules/mod.rs:47-48`
  | .Paragraphs =>
    .wrap (.node .Paragraphs) (gSeparated (.call .Paragraph) (.call .ParagraphSeparator))
  -- `src/parse/cst/rules/mod.rs:50-54`
  | .Paragraph =>
    .wrap (.node .Paragraph) (.seq (.opt (.call .SentenceSeparator)) gParagraphItems)
  -- `src/parse/cst/rules/mod.rs:59-65`
  | .ParagraphItem =>
    .alt (.alt (.mustConsume .ParagraphItem_Sentences (.wrap (.node .ParagraphItem_Sentences) (.call .Sentences1))) (.wrap (.node .ParagraphItem_Fragment) (.call .Fragment))) (.wrap (.node .ParagraphItem_Empty) .eps)
  -- `src/parse/cst/rules/mod.rs:67-82`
  | .Fragment =>
    .alt (.alt (.alt (.alt (.alt (.wrap (.node .Fragment_Ek) (gWithFree (.call .Ek))) (.wrap (.node .Fragment_Jek) (gWithFree (.call .Jek)))) (.wrap (.node .Fragment_Joik) (gWithFree (.call .Joik)))) (.wrap (.node .Fragment_Gihek) (gWithFree (.call .Gihek)))) (.wrap (.node .Fragment_Number) (.call .Quantifier))) (.wrap (.node .Fragment_Na) (.seq (.call (.word .Na)) (.seq (.not (.call (.word .Ja))) (.call .Frees))))
  -- `src/parse/cst/rules/mod.rs:84-88`
  | .Sentences1 =>
    .wrap (.node .Sentences1) (.seq (.many0 (.call .Prenex)) (gSeparated gSentences2 (.call .ConnectedSentenceSeparator)))
  -- `src/parse/cst/rules/mod.rs:91-101`
  | .Sentences3 =>
    .alt (.wrap (.node .Sentences3_Grouped) (.seq (.opt gTagWords) (.seq (gWithFree (.call (.word .Tuhe))) (.seq (.call .Paragraphs) (.seq (.opt (.call (.word .Tuhu))) (.call .Frees)))))) (.wrap (.node .Sentences3_Single) (.call .Sentence))
  -- `src/parse/cst/rules/mod.rs:103-107`
  | .ParagraphSeparator =>
    .wrap (.node .ParagraphSeparator) (.seq (.many1 (.call (.word .Niho))) (.call .Frees))
  -- `src/parse/cst/rules/mod.rs:109-110`
  | .SentenceSeparator =>
    .wrap (.node .SentenceSeparator) (.seq (.call (.word .I)) (.seq (.not (.call (.word .Bu))) (.call .Frees)))
  -- `src/parse/cst/rules/mod.rs:112-117`
  | .ConnectedSentenceSeparator =>
    .wrap (.node .ConnectedSentenceSeparator) (.seq (.call (.word .I)) (.seq (.call .JoikJek) (.call .Frees)))
  -- `src/parse/cst/rules/mod.rs:119-126`
  | .CloseSentenceSeparator =>
    .wrap (.node .CloseSentenceSeparator) (.seq (.call (.word .I)) (.seq (.opt (.call .JoikJek)) (.seq (.opt gTagWords) (.seq (.call (.word .Bo)) (.call .Frees)))))
  -- `src/parse/cst/rules/mod.rs:128-132`
  | .Sentence =>
    .wrap (.node .Sentence) (.seq (.call .Args) (.opt (.call .SentenceTail)))
  -- `src/parse/cst/rules/mod.rs:134-139`
  | .SentenceTail =>
    .wrap (.node .SentenceTail) (.seq (.opt (.call (.word .Cu))) (.seq (.call .Frees) (.call .SentenceTail1)))
  -- `src/parse/cst/rules/mod.rs:141-145`
  | .SentenceTail1 =>
    .wrap (.node .SentenceTail1) (.seq (.call .SentenceTail2) (.opt (.call .SentenceTail1After)))
  -- `src/parse/cst/rules/mod.rs:147-157`
  | .SentenceTail1After =>
    .wrap (.node .SentenceTail1After) (.seq (.call .Gihek) (.seq (.opt gTagWords) (.seq (.call (.word .Ke)) (.seq (.call .Frees) (.seq (.call .SentenceTail1) (.seq (.opt (.call (.word .Kehe))) (.seq (.call .Frees) (.call .TailArgs))))))))
  -- `src/parse/cst/rules/mod.rs:159-163`
  | .SentenceTail2 =>
    .wrap (.node .SentenceTail2) (.seq (.call .SentenceTail3) (.opt (.call .SentenceTail2After)))
  -- `src/parse/cst/rules/mod.rs:165-170`
  | .SentenceTail2Connective =>
    .wrap (.node .SentenceTail2Connective) (.seq (.call .Gihek) (.seq (.not (.wrap .tuple (.seq (.opt gTagWords) (.call (.word .Ke))))) (.call .Frees)))
  -- `src/parse/cst/rules/mod.rs:172-176`
  | .SentenceTail2After =>
    .wrap (.node .SentenceTail2After) (.seq (.many1 (.wrap .tuple (.seq (.call .SentenceTail2Connective) (.call .SentenceTail3)))) (.call .TailArgs))
  -- `src/parse/cst/rules/mod.rs:178-182`
  | .SentenceTail3 =>
    .wrap (.node .SentenceTail3) (.seq (.call .SentenceTail4) (.opt (.call .SentenceTail3After)))
  -- `src/parse/cst/rules/mod.rs:191-195`
  | .SentenceTail3After =>
    .wrap (.node .SentenceTail3After) (.seq (.many1 (.wrap .tuple (.seq gSentenceTail3Connective (.call .SentenceTail4)))) (.call .TailArgs))
  -- `src/parse/cst/rules/mod.rs:197-209`
  | .SentenceTail4 =>
    .alt (.alt (.wrap (.node .SentenceTail4_Single) (.seq (.call .Selbri) (.call .TailArgs))) (.wrap (.node .SentenceTail4_Parenthesized) (.seq (.many0 (gWithFree (.call (.word .Na)))) (.seq (.opt gTagWords) (.seq (gWithFree (.call (.word .Ke))) (.seq (.call .GekSentence) (.seq (.opt (.call (.word .Kehe))) (.call .Frees)))))))) (.wrap (.node .SentenceTail4_Connected) (.call .GekSentence))
  -- `src/parse/cst/rules/mod.rs:211-219`
  | .GekSentence =>
    .wrap (.node .GekSentence) (.seq (.many0 (gWithFree (.call (.word .Na)))) (.seq (.call .Gek) (.seq (.call .Subsentence) (.seq (.call .Gik) (.seq (.call .Subsentence) (.call .TailArgs))))))
  -- `src/parse/cst/rules/mod.rs:221-226`
  | .Subsentence =>
    .wrap (.node .Subsentence) (.seq (.many0 (.call .Prenex)) (.seq (.call .Args) (.call .SentenceTail)))
  -- `src/parse/cst/rules/mod.rs:228-230`
  | .Args =>
    .wrap (.node .Args) (.many0 (.call .Arg))
  -- `src/parse/cst/rules/mod.rs:232-234`
  | .TailArgs =>
    .wrap (.node .TailArgs) (.seq (.call .Args) (.seq (.opt (.call (.word .Vau))) (.call .Frees)))
  -- `src/parse/cst/rules/mod.rs:236-241`
  | .Prenex =>
    .wrap (.node .Prenex) (.seq (.call .Args) (.seq (.call (.word .Zohu)) (.call .Frees)))
  -- `src/parse/cst/rules/mod.rs:243-247`
  | .Arg =>
    .wrap (.node .Arg) (.seq gArg1 (.many0 (gSumtiLikeConnectedPost gArg1 (.call .Arg))))
  -- `src/parse/cst/rules/mod.rs:251-252`
  | .PeheConnective =>
    .wrap (.node .PeheConnective) (.seq (gWithFree (.call (.word .Pehe))) (.call .JoikJek))
  -- `src/parse/cst/rules/mod.rs:256-265`
  | .Arg3 =>
    .alt (.alt (.alt (.wrap (.node .Arg3_Tag) (.call .Tag)) (.wrap (.node .Arg3_Sumti) (.seq (.opt (gWithFree (.call (.word .Fa)))) (.call .Sumti)))) (.wrap (.node .Arg3_Naku) (.seq (.call (.word .Na)) (.seq (.call (.word .Ku)) (.call .Frees))))) (.wrap (.node .Arg3_Termset) (.call .Termset))
  -- `src/parse/cst/rules/mod.rs:267-287`
  | .Termset =>
    .alt (.alt (.wrap (.node .Termset_Gek) (.seq (.call .Gek) (.seq (.call .Args) (.seq (.call .Gik) (.call .Args))))) (.wrap (.node .Termset_NuhiGi) (.seq (gWithFree (.call (.word .Nuhi))) (.seq (.call .Gek) (.seq (.call .Args) (.seq (.opt (.call (.word .Nuhu))) (.seq (.call .Frees) (.seq (.call .Gik) (.seq (.call .Args) (.seq (.opt (.call (.word .Nuhu))) (.call .Frees))))))))))) (.wrap (.node .Termset_Nuhi) (.seq (gWithFree (.call (.word .Nuhi))) (.seq (.call .Args) (.seq (.opt (.call (.word .Nuhu))) (.call .Frees)))))
  -- `src/parse/cst/rules/mod.rs:289-295`
  | .Selbri =>
    .wrap (.node .Selbri) (.seq (.many0 (.call .SelbriBefore)) (.call .Selbri1))
  -- `src/parse/cst/rules/mod.rs:297-301`
  | .SelbriBefore =>
    .alt (.wrap (.node .SelbriBefore_Na) (gWithFree (.call (.word .Na)))) (.wrap (.node .SelbriBefore_Tag) gTagWords)
  -- `src/parse/cst/rules/mod.rs:303-305`
  | .Selbri1 =>
    .wrap (.node .Selbri1) (gSeparated (.call .Selbri2) (gWithFree (.call (.word .Co))))
  -- `src/parse/cst/rules/mod.rs:307-309`
  | .Selbri2 =>
    .wrap (.node .Selbri2) (.many1 (.call .Selbri3))
  -- `src/parse/cst/rules/mod.rs:311-315`
  | .Selbri3 =>
    .wrap (.node .Selbri3) (.seq (.call .Selbri4) (.many0 gSelbri3ConnectedPost))
  -- `src/parse/cst/rules/mod.rs:333-346`
  | .Selbri4 =>
    .wrap (.node .Selbri4) (gSeparated (.call .Selbri5) (.wrap .tuple (.seq (.call .JoikJek) (.seq (.opt gTagWords) (.seq (.call (.word .Bo)) (.call .Frees))))))
  -- `src/parse/cst/rules/mod.rs:348-352`
  | .Selbri5 =>
    .wrap (.node .Selbri5) (.seq (.many0 (gNaheGuhekTGik (.call .Selbri))) (.call .Selbri6))
  -- `src/parse/cst/rules/mod.rs:363-364`
  | .Selbri6 =>
    .wrap (.node .Selbri6) (gSeparated (.call .TanruUnit) (gWithFree (.call (.word .Bo))))
  -- `src/parse/cst/rules/mod.rs:366-370`
  | .TanruUnit =>
    .wrap (.node .TanruUnit) (gSeparated (.call .TanruUnit1) (gWithFree (.call (.word .Cei))))
  -- `src/parse/cst/rules/mod.rs:372-378`
  | .TanruUnit1 =>
    .wrap (.node .TanruUnit1) (.seq (.many0 (.call .BeforeTanruUnit)) (.seq (.call .TanruUnit2) (.opt (.call .BoundArguments))))
  -- `src/parse/cst/rules/mod.rs:380-388`
  | .BeforeTanruUnit =>
    .alt (.alt (.wrap (.node .BeforeTanruUnit_Jai) (.seq (gWithFree (.call (.word .Jai))) (.opt gTagWords))) (.wrap (.node .BeforeTanruUnit_Nahe) (gWithFree (.call (.word .Nahe))))) (.wrap (.node .BeforeTanruUnit_Se) (gWithFree (.call (.word .Se))))
  -- `src/parse/cst/rules/mod.rs:390-396`
  | .BoundArguments =>
    .wrap (.node .BoundArguments) (.seq (gWithFree (.call (.word .Be))) (.seq (gSeparated (.call .Arg) (gWithFree (.call (.word .Bei)))) (.seq (.opt (.call (.word .Beho))) (.call .Frees))))
  -- `src/parse/cst/rules/mod.rs:398-433`
  | .TanruUnit2 =>
    .alt (.alt (.alt (.alt (.alt (.alt (.alt (.alt (.alt (.wrap (.node .TanruUnit2_GroupedTanru) (.seq (gWithFree (.call (.word .Ke))) (.seq (.call .Selbri2) (.seq (.opt (.call (.word .Kehe))) (.call .Frees))))) (.wrap (.node .TanruUnit2_Gismu) (gWithFree (.call (.word .Gismu))))) (.wrap (.node .TanruUnit2_Lujvo) (gWithFree (.call (.word .Lujvo))))) (.wrap (.node .TanruUnit2_Fuhivla) (gWithFree (.call (.word .Fuhivla))))) (.wrap (.node .TanruUnit2_Zei) (gWithFree (.call .ZeiClause)))) (.wrap (.node .TanruUnit2_Goha) (.seq (.call (.word .Goha)) (.seq (.opt (.call (.word .Raho))) (.call .Frees))))) (.wrap (.node .TanruUnit2_Moi) (.seq (.call .MiscNumbers) (.seq (.call (.word .Moi)) (.call .Frees))))) (.wrap (.node .TanruUnit2_Me) (.seq (gWithFree (.call (.word .Me))) (.seq (.call .Sumti) (.seq (.opt (.call (.word .Mehu))) (.seq (.call .Frees) (.opt (gWithFree (.call (.word .Moi)))))))))) (.wrap (.node .TanruUnit2_Nu) (.seq (gSeparated (.wrap .tuple (.seq (.call (.word .Nu)) (.seq (.opt (.call (.word .Nai))) (.call .Frees)))) (.call .JoikJek)) (.seq (.call .Subsentence) (.seq (.opt (.call (.word .Kei))) (.call .Frees)))))) (.wrap (.node .TanruUnit2_Nuha) (.seq (gWithFree (.call (.word .Nuha))) (.call .Operator)))
  -- `src/parse/cst/rules/mod.rs:435-442`
  | .ZeiClause =>
    .wrap (.node .ZeiClause) (.seq (.many0 (.call (.word .Bahe))) (.seq (.call .BuInner) (.seq (.many0 (.call .ZeiBuInner)) (.seq (.call .ZeiTail) (.seq (.not (.call (.word .Zei))) (.seq (.not (.call (.word .Bu))) (.opt (.call .Indicators))))))))
  -- `src/parse/cst/rules/mod.rs:444-448`
  | .ZeiBuInner =>
    .wrap (.node .ZeiBuInner) (.seq (.opt (.call .ZeiTail)) (.many1 (.call (.word .Bu))))
  -- `src/parse/cst/rules/mod.rs:450-451`
  | .ZeiTail =>
    .wrap (.node .ZeiTail) (.many1 (.wrap .tuple (.seq (.call (.word .Zei)) (.any .token))))
  -- `src/parse/cst/rules/mod.rs:463-469`
  | .Tag =>
    .wrap (.node .Tag) (.seq gTagWords (.seq (.not (.call .Gik)) (.seq (.not (.call (.word .Ke))) (.opt (.call .TagValue)))))
  -- `src/parse/cst/rules/mod.rs:471-475`
  | .TagValue =>
    .alt (.wrap (.node .TagValue_Ku) (gWithFree (.call (.word .Ku)))) (.wrap (.node .TagValue_Sumti) (.call .Sumti))
  -- `src/parse/cst/rules/mod.rs:479-504`
  | .TagWord =>
    .alt (.alt (.alt (.alt (.wrap (.node .TagWord_Bai) (.seq (.opt (.call (.word .Nahe))) (.seq (.opt (.call (.word .Se))) (.seq (.call (.word .Bai)) (.seq (.opt (.call (.word .Nai))) (.seq (.opt (.call (.word .Ki))) (.call .Frees))))))) (.wrap (.node .TagWord_TimeSpaceCaha) (.seq (.opt (.call (.word .Nahe))) (.seq (.many1 (.call .TimeSpaceCaha)) (.seq (.opt (.call (.word .Ki))) (.call .Frees)))))) (.wrap (.node .TagWord_Ki) (.seq (.call (.word .Ki)) (.call .Frees)))) (.wrap (.node .TagWord_Cuhe) (.seq (.call (.word .Cuhe)) (.call .Frees)))) (.wrap (.node .TagWord_Converted) (.seq (gWithFree (.call (.word .Fiho))) (.seq (.call .Selbri) (.seq (.opt (.call (.word .Fehu))) (.call .Frees)))))
  -- `src/parse/cst/rules/mod.rs:506-511`
  | .TimeSpaceCaha =>
    .alt (.alt (.wrap (.node .TimeSpaceCaha_Time) (.call .Time)) (.wrap (.node .TimeSpaceCaha_Space) (.call .Space))) (.wrap (.node .TimeSpaceCaha_Caha) (.call (.word .Caha)))
  -- `src/parse/cst/rules/mod.rs:513-522`
  | .Time =>
    .postCond .anyFieldPresent (.wrap (.node .Time) (.seq (.opt (.call (.word .Zi))) (.seq (.many0 (.call .TimeOffset)) (.seq (.opt (.call .TimeDuration)) (.many0 gTimeIntervalProperty)))))
  -- `src/parse/cst/rules/mod.rs:524-529`
  | .TimeOffset =>
    .wrap (.node .TimeOffset) (.seq (.call (.word .Pu)) (.seq (.opt (.call (.word .Nai))) (.opt (.call (.word .Zi)))))
  -- `src/parse/cst/rules/mod.rs:531-536`
  | .TimeDuration =>
    .wrap (.node .TimeDuration) (.seq (.call (.word .Zeha)) (.opt (.wrap .tuple (.seq (.call (.word .Pu)) (.opt (.call (.word .Nai)))))))
  -- `src/parse/cst/rules/mod.rs:538-543`
  | .IntervalProperty =>
    .alt (.alt (.wrap (.node .IntervalProperty_Roi) (.seq (.call .Number) (.seq (.call (.word .Roi)) (.opt (.call (.word .Nai)))))) (.wrap (.node .IntervalProperty_Tahe) (.seq (.call (.word .Tahe)) (.opt (.call (.word .Nai)))))) (.wrap (.node .IntervalProperty_Zaho) (.seq (.call (.word .Zaho)) (.opt (.call (.word .Nai)))))
  -- `src/parse/cst/rules/mod.rs:547-555`
  | .Space =>
    .postCond .anyFieldPresent (.wrap (.node .Space) (.seq (.opt (.call (.word .Va))) (.seq (.many0 (.call .SpaceOffset)) (.seq (.opt (.call .SpaceInterval)) (.opt (.call .SpaceMotion))))))
  -- `src/parse/cst/rules/mod.rs:557-558`
  | .SpaceOffset =>
    .wrap (.node .SpaceOffset) (.seq (.call (.word .Faha)) (.seq (.opt (.call (.word .Nai))) (.opt (.call (.word .Va)))))
  -- `src/parse/cst/rules/mod.rs:560-569`
  | .SpaceInterval =>
    .alt (.wrap (.node .SpaceInterval_Interval) (.seq (gEitherOrBoth (.call (.word .Veha)) (.call (.word .Viha))) (.seq (.opt (.wrap .tuple (.seq (.call (.word .Faha)) (.opt (.call (.word .Nai)))))) (.many0 (.call .SpaceIntervalProperty))))) (.wrap (.node .SpaceInterval_Properties) (.many1 (.call .SpaceIntervalProperty)))
  -- `src/parse/cst/rules/mod.rs:571-572`
  | .SpaceIntervalProperty =>
    .wrap (.node .SpaceIntervalProperty) (.seq (.call (.word .Fehe)) (.call .IntervalProperty))
  -- `src/parse/cst/rules/mod.rs:574-578`
  | .SpaceMotion =>
    .wrap (.node .SpaceMotion) (.seq (.call (.word .Mohi)) (.call .SpaceOffset))
  -- `src/parse/cst/rules/mod.rs:580-584`
  | .Sumti =>
    .wrap (.node .Sumti) (.seq (.call .Sumti1) (.opt (.call .VuhoRelative)))
  -- `src/parse/cst/rules/mod.rs:586-591`
  | .Sumti1 =>
    .wrap (.node .Sumti1) (.seq gSumti2 (.many0 (gSumtiLikeConnectedPost gSumti2 (.call .Sumti))))
  -- `src/parse/cst/rules/mod.rs:617-621`
  | .VuhoRelative =>
    .wrap (.node .VuhoRelative) (.seq (gWithFree (.call (.word .Vuho))) (.call .RelativeClauses))
  -- `src/parse/cst/rules/mod.rs:623-626`
  | .RelativeClauses =>
    .wrap (.node .RelativeClauses) (gSeparated (.call .RelativeClause) (gWithFree (.call (.word .Zihe))))
  -- `src/parse/cst/rules/mod.rs:628-632`
  | .RelativeClause =>
    .alt (.wrap (.node .RelativeClause_Goi) (.call .GoiRelativeClause)) (.wrap (.node .RelativeClause_Noi) (.call .NoiRelativeClause))
  -- `src/parse/cst/rules/mod.rs:634-641`
  | .GoiRelativeClause =>
    .wrap (.node .GoiRelativeClause) (.seq (gWithFree (.call (.word .Goi))) (.seq (.call .Arg) (.seq (.opt (.call (.word .Gehu))) (.call .Frees))))
  -- `src/parse/cst/rules/mod.rs:643-649`
  | .NoiRelativeClause =>
    .wrap (.node .NoiRelativeClause) (.seq (gWithFree (.call (.word .Noi))) (.seq (.call .Subsentence) (.seq (.opt (.call (.word .Kuho))) (.call .Frees))))
  -- `src/parse/cst/rules/mod.rs:651-655`
  | .Sumti3 =>
    .wrap (.node .Sumti3) (.seq (.many0 (.call .Sumti3ConnectedPre)) (.call .Sumti4))
  -- `src/parse/cst/rules/mod.rs:657-658`
  | .Sumti3ConnectedPre =>
    .wrap (.node .Sumti3ConnectedPre) (.seq (.call .Gek) (.seq (.call .Sumti) (.call .Gik)))
  -- `src/parse/cst/rules/mod.rs:660-674`
  | .Sumti4 =>
    .alt (.wrap (.node .Sumti4_Normal) (.seq (.opt (.call .Quantifier)) (.seq gSumtiComponent (.opt (.call .RelativeClauses))))) (.wrap (.node .Sumti4_SelbriShorthand) (.seq (.call .Quantifier) (.seq (.call .Selbri) (.seq (.opt (.call (.word .Ku))) (.seq (.call .Frees) (.opt (.call .RelativeClauses)))))))
  -- `src/parse/cst/rules/mod.rs:676-689`
  | .Quantifier =>
    .alt (.wrap (.node .Quantifier_Mekso) (.seq (gWithFree (.call (.word .Vei))) (.seq (.call .Expression) (.seq (.opt (.call (.word .Veho))) (.call .Frees))))) (.wrap (.node .Quantifier_Number) (.seq (.call .Number) (.seq (.not (.call (.word .Moi))) (.seq (.opt (.call (.word .Boi))) (.call .Frees)))))
  -- `src/parse/cst/rules/mod.rs:691-696`
  | .Number =>
    .wrap (.node .Number) (.seq (.call (.word .Pa)) (.many0 (.call .NumberRest)))
  -- `src/parse/cst/rules/mod.rs:698-702`
  | .NumberRest =>
    .alt (.wrap (.node .NumberRest_Pa) (.call (.word .Pa))) (.wrap (.node .NumberRest_Lerfu) (.call .LerfuWord))
  -- `src/parse/cst/rules/mod.rs:704-709`
  | .LerfuString =>
    .wrap (.node .LerfuString) (.seq (.call .LerfuWord) (.many0 (.call .NumberRest)))
  -- `src/parse/cst/rules/mod.rs:711-712`
  | .MiscNumbers =>
    .wrap (.node .MiscNumbers) (.many1 (.call .NumberRest))
  -- `src/parse/cst/rules/mod.rs:714-727`
  | .LerfuWord =>
    .alt (.alt (.wrap (.node .LerfuWord_Lerfu) (.call .Lerfu)) (.wrap (.node .LerfuWord_Lau) (.seq (.call (.word .Lau)) (.call .Lerfu)))) (.wrap (.node .LerfuWord_Tei) (.seq (.call (.word .Tei)) (.seq (.call .LerfuString) (.cut (.call (.word .Foi))))))
  -- `src/parse/cst/rules/mod.rs:729-738`
  | .Lerfu =>
    .alt (.wrap (.node .Lerfu_Bu) (.seq (.opt (.call (.word .Bahe))) (.seq (.call .BuInner) (.seq (.many1 (.call (.word .Bu))) (.many0 (.call .Indicators)))))) (.wrap (.node .Lerfu_By) (.call (.word .By)))
  -- `src/parse/cst/rules/mod.rs:740-744`
  | .BuInner =>
    .postCond (.selmahoNotIn [.Bu, .Zei, .Si, .Su, .Sa, .Faho]) (.wrap (.node .BuInner) (.any .token))
  -- `src/parse/cst/rules/mod.rs:748-767`
  | .SumtiComponent1 =>
    .alt (.alt (.alt (.alt (.alt (.alt (.alt (.alt (.alt (.wrap (.node .SumtiComponent1_Koha) (.call (.word .Koha))) (.wrap (.node .SumtiComponent1_Gadri) (.call .GadriSumti))) (.wrap (.node .SumtiComponent1_La) (.call .LaSumti))) (.wrap (.node .SumtiComponent1_Lohu) (.call .LohuSumti))) (.wrap (.node .SumtiComponent1_Lu) (.call .LuSumti))) (.wrap (.node .SumtiComponent1_Modified) (.call .ModifiedSumti))) (.wrap (.node .SumtiComponent1_LerfuString) (.seq (.call .LerfuString) (.seq (.not (.call (.word .Moi))) (.opt (.call (.word .Boi))))))) (.wrap (.node .SumtiComponent1_Zo) (.call .ZoSumti))) (.wrap (.node .SumtiComponent1_Zoi) (.call .ZoiSumti))) (.wrap (.node .SumtiComponent1_Li) (.seq (gWithFree (.call (.word .Li))) (.seq (.call .Expression) (.opt (.call (.word .Loho))))))
  -- `src/parse/cst/rules/mod.rs:769-774`
  | .LohuSumti =>
    .wrap (.node .LohuSumti) (.seq (.call (.word .Lohu)) (.cut (.manyTill (.any .token) (.call (.word .Lehu)))))
  -- `src/parse/cst/rules/mod.rs:795-800`
  | .LuSumti =>
    .wrap (.node .LuSumti) (.seq (.call (.word .Lu)) (.seq (.call .Text) (.opt (.call (.word .Lihu)))))
  -- `src/parse/cst/rules/mod.rs:802-808`
  | .ModifiedSumti =>
    .wrap (.node .ModifiedSumti) (.seq (gWithFree (.call .SumtiModifier)) (.seq (.opt (.call .RelativeClauses)) (.seq (.call .Sumti) (.opt (.call (.word .Luhu))))))
  -- `src/parse/cst/rules/mod.rs:810-814`
  | .SumtiModifier =>
    .alt (.wrap (.node .SumtiModifier_Lahe) (.call (.word .Lahe))) (.wrap (.node .SumtiModifier_NaheBo) (.seq (.call (.word .Nahe)) (.call (.word .Bo))))
  -- `src/parse/cst/rules/mod.rs:816-822`
  | .GadriSumti =>
    .wrap (.node .GadriSumti) (.seq (gWithFree (.call .Gadri)) (.seq (.call .GadriSumtiPre) (.seq (.call .GadriSumtiContents) (.opt (.call (.word .Ku))))))
  -- `src/parse/cst/rules/mod.rs:824-828`
  | .Gadri =>
    .alt (.wrap (.node .Gadri_Le) (.call (.word .Le))) (.wrap (.node .Gadri_La) (.call (.word .La)))
  -- `src/parse/cst/rules/mod.rs:830-844`
  | .GadriSumtiPre =>
    .alt (.alt (.wrap (.node .GadriSumtiPre_Simple) (.seq (.opt gSumtiComponent) (.opt (.call .RelativeClauses)))) (.wrap (.node .GadriSumtiPre_Relative) (.call .RelativeClauses))) (.wrap (.node .GadriSumtiPre_FullPre) (.call .Sumti))
  -- `src/parse/cst/rules/mod.rs:846-854`
  | .GadriSumtiContents =>
    .alt (.wrap (.node .GadriSumtiContents_Selbri) (.seq (.opt (.call .Quantifier)) (.seq (.call .Selbri) (.opt (.call .RelativeClauses))))) (.wrap (.node .GadriSumtiContents_Sumti) (.seq (.call .Quantifier) (.call .Sumti)))
  -- `src/parse/cst/rules/mod.rs:856-861`
  | .LaSumti =>
    .wrap (.node .LaSumti) (.seq (.call (.word .La)) (.many1 (.call (.word .Cmevla))))
  -- `src/parse/cst/rules/mod.rs:863-867`
  | .ZoSumti =>
    .wrap (.node .ZoSumti) (.seq (.call (.word .Zo)) (.any .token))
  -- `src/parse/cst/rules/mod.rs:869-875`
  | .ZoiSumti =>
    .wrap (.node .ZoiSumti) (.seq (.call (.word .Zoi)) (.seq (.call .ZoiDelimiter) (.seq (.call .ZoiText) (.call .ZoiDelimiter))))
  -- `src/parse/cst/rules/mod.rs:877-879`
  | .ZoiDelimiter =>
    .any .zoiDelimiter
  -- `src/parse/cst/rules/mod.rs:901-902`
  | .ZoiText =>
    .any .zoiText
  -- `src/parse/cst/rules/mod.rs:924-941`
  | .Free =>
    .alt (.alt (.alt (.alt (.alt (.wrap (.node .Free_Sei) (.seq (gWithFree (.call (.word .Sei))) (.seq (.call .Args) (.seq (.opt (.call .SeiTail)) (.opt (gWithFree (.call (.word .Sehu)))))))) (.wrap (.node .Free_Soi) (.seq (gWithFree (.call (.word .Soi))) (.seq (.wrap .tuple (.seq (.call .Sumti) (.opt (.call .Sumti)))) (.opt (.call (.word .Sehu))))))) (.wrap (.node .Free_Vocative) (.call .Vocative))) (.wrap (.node .Free_Mai) (.seq (.call .MiscNumbers) (.call (.word .Mai))))) (.wrap (.node .Free_To) (.seq (.call (.word .To)) (.seq (.call .Text) (.opt (.call (.word .Toi))))))) (.wrap (.node .Free_Xi) (.call .Subscript))
  -- `src/parse/cst/rules/mod.rs:943-950`
  | .Vocative =>
    .wrap (.node .Vocative) (.seq (.call .VocativeWords) (.seq (.opt (.call .RelativeClauses)) (.seq (.call .VocativeValue) (.seq (.opt (.call .RelativeClauses)) (.opt (.call (.word .Dohu)))))))
  -- `src/parse/cst/rules/mod.rs:952-957`
  | .SeiTail =>
    .wrap (.node .SeiTail) (.seq (.opt (.call (.word .Cu))) (.seq (.call .Frees) (.call .Selbri)))
  -- `src/parse/cst/rules/mod.rs:959-966`
  | .VocativeWords =>
    .alt (.wrap (.node .VocativeWords_Coi) (.seq (.many1 (.wrap .tuple (.seq (.call (.word .Coi)) (.opt (.call (.word .Nai)))))) (.opt (.call (.word .Doi))))) (.wrap (.node .VocativeWords_Doi) (.call (.word .Doi)))
  -- `src/parse/cst/rules/mod.rs:968-973`
  | .VocativeValue =>
    .alt (.alt (.wrap (.node .VocativeValue_Selbri) (.call .Selbri)) (.wrap (.node .VocativeValue_Cmevla) (.many1 (.call (.word .Cmevla))))) (.wrap (.node .VocativeValue_Sumti) (.opt (.call .Sumti)))
  -- `src/parse/cst/rules/mod.rs:975-979`
  | .Subscript =>
    .wrap (.node .Subscript) (.seq (gWithFree (.call (.word .Xi))) (gWithFree (.call .SubscriptValue)))
  -- `src/parse/cst/rules/mod.rs:981-994`
  | .SubscriptValue =>
    .alt (.wrap (.node .SubscriptValue_Mekso) (.seq (gWithFree (.call (.word .Vei))) (.seq (.call .Expression) (.seq (.opt (.call (.word .Veho))) (.call .Frees))))) (.wrap (.node .SubscriptValue_Number) (.seq (.call .MiscNumbers) (.seq (.not (.call (.word .Moi))) (.seq (.opt (.call (.word .Boi))) (.call .Frees)))))
  -- `src/parse/cst/rules/mod.rs:996-1000`
  | .Indicators =>
    .wrap (.node .Indicators) (.seq (.opt (.call (.word .Fuhe))) (.many1 (.call .Indicator)))
  -- `src/parse/cst/rules/mod.rs:1002-1011`
  | .Indicator =>
    .seq (.alt (.alt (.alt (.alt (.alt (.wrap (.node .Indicator_Ui) (.call (.word .Ui))) (.wrap (.node .Indicator_Cai) (.call (.word .Cai)))) (.wrap (.node .Indicator_Nai) (.call (.word .Nai)))) (.wrap (.node .Indicator_Daho) (.call (.word .Daho)))) (.wrap (.node .Indicator_Fuho) (.call (.word .Fuho)))) (.wrap (.node .Indicator_Y) (.call (.word .Y)))) (.not (.call (.word .Bu)))
  -- `src/parse/cst/rules/connectives.rs:12-22`
  | .Ek =>
    .wrap (.node .Ek) (gNaSeTNai (.call (.word .A)))
  -- `src/parse/cst/rules/connectives.rs:12-22`
  | .Jek =>
    .wrap (.node .Jek) (gNaSeTNai (.call (.word .Ja)))
  -- `src/parse/cst/rules/connectives.rs:12-22`
  | .Gihek =>
    .wrap (.node .Gihek) (gNaSeTNai (.call (.word .Giha)))
  -- `src/parse/cst/rules/connectives.rs:25-31`
  | .Guhek =>
    .wrap (.node .Guhek) (.seq (.opt (.call (.word .Se))) (.seq (.call (.word .Guha)) (.seq (.opt (.call (.word .Nai))) (.call .Frees))))
  -- `src/parse/cst/rules/connectives.rs:33-38`
  | .Interval =>
    .wrap (.node .Interval) (.seq (.opt (.call (.word .Se))) (.seq (.call (.word .Bihi)) (.opt (.call (.word .Nai)))))
  -- `src/parse/cst/rules/connectives.rs:40-45`
  | .Joik =>
    .alt (.alt (.wrap (.node .Joik_SeJoiNai) (.seq (.opt (.call (.word .Se))) (.seq (.call (.word .Joi)) (.opt (.call (.word .Nai)))))) (.wrap (.node .Joik_Interval) (.call .Interval))) (.wrap (.node .Joik_Gaho) (.seq (.call (.word .Gaho)) (.seq (.call .Interval) (.cut (.call (.word .Gaho))))))
  -- `src/parse/cst/rules/connectives.rs:47-48`
  | .Gik =>
    .wrap (.node .Gik) (.seq (.call (.word .Gi)) (.seq (.opt (.call (.word .Nai))) (.call .Frees)))
  -- `src/parse/cst/rules/connectives.rs:50-60`
  | .Gek =>
    .alt (.alt (.wrap (.node .Gek_SeGaNai) (.seq (.opt (.call (.word .Se))) (.seq (.call (.word .Ga)) (.seq (.opt (.call (.word .Nai))) (.call .Frees))))) (.wrap (.node .Gek_JoikGi) (.seq (.call .Joik) (.seq (.call (.word .Gi)) (.call .Frees))))) (.wrap (.node .Gek_TagGik) (.seq gTagWords (.call .Gik)))
  -- `src/parse/cst/rules/connectives.rs:62-66`
  | .JoikJek =>
    .alt (.wrap (.node .JoikJek_Joik) (.call .Joik)) (.wrap (.node .JoikJek_Jek) (.call .Jek))
  -- `src/parse/cst/rules/connectives.rs:68-72`
  | .JoikEk =>
    .alt (.wrap (.node .JoikEk_Joik) (.seq (.call .Joik) (.call .Frees))) (.wrap (.node .JoikEk_Ek) (.seq (.call .Ek) (.call .Frees)))
  -- `src/parse/cst/rules/mekso.rs:11-21`
  | .Expression =>
    .alt (.wrap (.node .Expression_ReversePolish) (.seq (gWithFree (.call (.word .Fuha))) (.call .ReversePolish))) (.wrap (.node .Expression_Normal) (gSeparated (gSeparated (.call .Expression1) (.wrap .tuple (.seq (gWithFree (.call (.word .Bihe))) (.call .Operator)))) (.call .Operator)))
  -- `src/parse/cst/rules/mekso.rs:24-28`
  | .ReversePolish =>
    .wrap (.node .ReversePolish) (.seq (.call .Operand) (.many0 (.call .RPTail)))
  -- `src/parse/cst/rules/mekso.rs:30-31`
  | .RPTail =>
    .wrap (.node .RPTail) (.seq (.call .ReversePolish) (.call .Operator))
  -- `src/parse/cst/rules/mekso.rs:33-37`
  | .Expression1 =>
    .alt (.wrap (.node .Expression1_Operand) (.call .Operand)) (.wrap (.node .Expression1_Forethought) (.call .ForethoughtExpression))
  -- `src/parse/cst/rules/mekso.rs:39-47`
  | .ForethoughtExpression =>
    .wrap (.node .ForethoughtExpression) (.seq (.opt (gWithFree (.call (.word .Peho)))) (.seq (.call .Operator) (.seq (.many1 (.call .Expression1)) (.seq (.opt (.call (.word .Kuhe))) (.call .Frees)))))
  -- `src/parse/cst/rules/mekso.rs:49-53`
  | .Operand =>
    .wrap (.node .Operand) (.seq (.call .Operand1) (.many0 gConnectedOperand))
  -- `src/parse/cst/rules/mekso.rs:58-69`
  | .Operand1 =>
    .wrap (.node .Operand1) (gSeparated (.call .Operand2) (.wrap .tuple (.seq (.call .JoikEk) (.seq (.opt gTagWords) (gWithFree (.call (.word .Bo)))))))
  -- `src/parse/cst/rules/mekso.rs:71-75`
  | .Operand2 =>
    .wrap (.node .Operand2) (.seq (.many0 (.call .Operand2ConnectedPre)) (.call .Operand3))
  -- `src/parse/cst/rules/mekso.rs:77-78`
  | .Operand2ConnectedPre =>
    .wrap (.node .Operand2ConnectedPre) (.seq (.call .Gek) (.seq (.call .Operand) (.call .Gik)))
  -- `src/parse/cst/rules/mekso.rs:80-116`
  | .Operand3 =>
    .alt (.alt (.alt (.alt (.alt (.wrap (.node .Operand3_Nihe) (.seq (gWithFree (.call (.word .Nihe))) (.seq (.call .Selbri) (.seq (.opt (.call (.word .Tehu))) (.call .Frees))))) (.wrap (.node .Operand3_Mohe) (.seq (gWithFree (.call (.word .Mohe))) (.seq (.call .Sumti) (.seq (.opt (.call (.word .Tehu))) (.call .Frees)))))) (.wrap (.node .Operand3_Johi) (.seq (gWithFree (.call (.word .Johi))) (.seq (.many1 (.call .Expression1)) (.seq (.opt (.call (.word .Tehu))) (.call .Frees)))))) (.wrap (.node .Operand3_Modified) (.seq gOperandModifier (.seq (.call .Operand) (.opt (.call (.word .Luhu))))))) (.wrap (.node .Operand3_Parenthesized) (.seq (gWithFree (.call (.word .Vei))) (.seq (.call .Expression) (.seq (.opt (.call (.word .Veho))) (.call .Frees)))))) (.wrap (.node .Operand3_Number) (.seq (.call .MiscNumbers) (.seq (.not (.call (.word .Moi))) (.seq (.opt (.call (.word .Boi))) (.call .Frees)))))
  -- `src/parse/cst/rules/mekso.rs:120-124`
  | .Operator =>
    .wrap (.node .Operator) (.seq (.call .Operator1) (.many0 gConnectedOperator))
  -- `src/parse/cst/rules/mekso.rs:129-133`
  | .Operator1 =>
    .wrap (.node .Operator1) (.seq (.many0 (gNaheGuhekTGik (.call .Operator1))) (.call .Operator2))
  -- `src/parse/cst/rules/mekso.rs:135-146`
  | .Operator2 =>
    .wrap (.node .Operator2) (gSeparated (.call .Operator3) (.wrap .tuple (.seq (.call .JoikJek) (.seq (.opt gTagWords) (gWithFree (.call (.word .Bo)))))))
  -- `src/parse/cst/rules/mekso.rs:148-157`
  | .Operator3 =>
    .alt (.wrap (.node .Operator3_Simple) (.call .OperatorComponent)) (.wrap (.node .Operator3_Grouped) (.seq (gWithFree (.call (.word .Ke))) (.seq (.call .Operator) (.seq (.call (.word .Kehe)) (.call .Frees)))))
  -- `src/parse/cst/rules/mekso.rs:159-163`
  | .OperatorComponent =>
    .wrap (.node .OperatorComponent) (.seq (.many0 (.call .OperatorComponentPre)) (.call .OperatorComponent1))
  -- `src/parse/cst/rules/mekso.rs:165-169`
  | .OperatorComponentPre =>
    .alt (.wrap (.node .OperatorComponentPre_Nahe) (gWithFree (.call (.word .Nahe)))) (.wrap (.node .OperatorComponentPre_Se) (gWithFree (.call (.word .Se))))
  -- `src/parse/cst/rules/mekso.rs:171-186`
  | .OperatorComponent1 =>
    .alt (.alt (.wrap (.node .OperatorComponent1_Maho) (.seq (gWithFree (.call (.word .Maho))) (.seq (.call .Expression) (.seq (.opt (.call (.word .Tehu))) (.call .Frees))))) (.wrap (.node .OperatorComponent1_Nahu) (.seq (gWithFree (.call (.word .Nahu))) (.seq (.call .Selbri) (.seq (.opt (.call (.word .Tehu))) (.call .Frees)))))) (.wrap (.node .OperatorComponent1_Vuhu) (gWithFree (.call (.word .Vuhu))))
  | .word s => wordBody s (wordKind s)

end Sneturfahi
