import Verif.Model.Prim

/-!
# The text of `src/parse/cst/rules/*.rs`

Generated by `tools/gen_source.py`: the five files, unchanged, as lists of lines.  What they mean is the
business of `Model/Rust.lean` and `Model/Derive.lean`.
-/

namespace Sneturfahi.Source

/-- `src/parse/cst/rules/mod.rs:1-40` -/
def modRs0 : List (List Char) :=
  [c!"#![allow(missing_docs, missing_copy_implementations)]",
   c!"",
   c!"// https://raw.githubusercontent.com/lojban/camxes-py/master/camxes_py/parsers/camxes_ilmen.peg",
   c!"",
   c!"use bumpalo::Bump as Arena;",
   c!"use macros::{Parse, TreeNode};",
   c!"",
   c!"use crate::lex::{Selmaho, Token};",
   c!"use crate::span::Span;",
   c!"",
   c!"pub mod connectives;",
   c!"mod helpers;",
   c!"pub mod mekso;",
   c!"pub mod selmaho;",
   c!"",
   c!"use connectives::{Ek, Gek, Gihek, Gik, Guhek, Jek, Joik, JoikEk, JoikJek};",
   c!"use helpers::{many0, many1, EitherOrBoth, Separated};",
   c!"use mekso::{Expression as Mekso, Operator as MeksoOperator};",
   c!"#[allow(clippy::wildcard_imports)]",
   c!"use selmaho::*;",
   c!"",
   c!"use super::parse_trait::{Parse, Result as ParseResult};",
   c!"use crate::parse::tree_node::TreeNode;",
   c!"",
   c!"#[derive(Debug, Parse, TreeNode)]",
   c!"#[tree_node(passthrough_child)]",
   c!"pub struct WithFree<'arena, Inner> {",
   c!"\tpub inner: Inner,",
   c!"\tpub frees: Frees<'arena>,",
   c!"}",
   c!"",
   c!"#[derive(Debug, Parse, TreeNode)]",
   c!"#[tree_node(passthrough_child)]",
   c!"pub struct Frees<'arena>(#[parse(with = \"many0\")] pub &'arena [Free<'arena>]);",
   c!"",
   c!"pub type Root<'arena> = Text<'arena>;",
   c!"",
   c!"#[derive(Debug, Parse, TreeNode)]",
   c!"pub struct Text<'arena> {",
   c!"\tpub initial_indicators: Option<Indicators<'arena>>,"]

/-- `src/parse/cst/rules/mod.rs:41-80` -/
def modRs1 : List (List Char) :=
  [c!"\tpub initial_frees: Frees<'arena>,",
   c!"\tpub initial_paragraph_separator: Option<ParagraphSeparator<'arena>>,",
   c!"\tpub paragraphs: Option<Paragraphs<'arena>>,",
   c!"\tpub faho: Option<Faho<'arena>>,",
   c!"}",
   c!"",
   c!"#[derive(Debug, Parse, TreeNode)]",
   c!"pub struct Paragraphs<'arena>(Separated<'arena, Paragraph<'arena>, ParagraphSeparator<'arena>>);",
   c!"",
   c!"#[derive(Debug, Parse, TreeNode)]",
   c!"pub struct Paragraph<'arena> {",
   c!"\tpub initial_sentence_separator: Option<SentenceSeparator<'arena>>,",
   c!"\tpub sentences: ParagraphItems<'arena>,",
   c!"}",
   c!"",
   c!"pub type ParagraphItems<'arena> =",
   c!"\tSeparated<'arena, ParagraphItem<'arena>, SentenceSeparator<'arena>>;",
   c!"",
   c!"#[derive(Debug, Parse, TreeNode)]",
   c!"pub enum ParagraphItem<'arena> {",
   c!"\t#[parse(must_consume)]",
   c!"\tSentences(Sentences1<'arena>),",
   c!"\tFragment(&'arena Fragment<'arena>),",
   c!"\tEmpty(),",
   c!"}",
   c!"",
   c!"#[derive(Debug, Parse, TreeNode)]",
   c!"pub enum Fragment<'arena> {",
   c!"\t// answer to ek connective question",
   c!"\tEk(WithFree<'arena, Ek<'arena>>),",
   c!"\t// answer to jek connective question",
   c!"\tJek(WithFree<'arena, Jek<'arena>>),",
   c!"\t// answer to ek or jek connective question",
   c!"\tJoik(WithFree<'arena, Joik<'arena>>),",
   c!"\t// answer to gihek connective question",
   c!"\tGihek(WithFree<'arena, Gihek<'arena>>),",
   c!"\t// answer to number question",
   c!"\t// this is Quantifier rather than something that accepts MiscNumber because a lerfu string that starts with a letteral can be parsed as a sumti instead",
   c!"\tNumber(Quantifier<'arena>),",
   c!"\t// answer to negation question?"]

/-- `src/parse/cst/rules/mod.rs:81-120` -/
def modRs2 : List (List Char) :=
  [c!"\tNa(Na<'arena>, #[parse(not = \"Ja<'_>\")] Frees<'arena>),",
   c!"}",
   c!"",
   c!"#[derive(Debug, Parse, TreeNode)]",
   c!"pub struct Sentences1<'arena>(",
   c!"\t#[parse(with = \"many0\")] pub &'arena [Prenex<'arena>],",
   c!"\tpub Separated<'arena, Sentences2<'arena>, ConnectedSentenceSeparator<'arena>>,",
   c!");",
   c!"pub type Sentences2<'arena> = Separated<'arena, Sentences3<'arena>, CloseSentenceSeparator<'arena>>;",
   c!"",
   c!"#[derive(Debug, Parse, TreeNode)]",
   c!"pub enum Sentences3<'arena> {",
   c!"\tGrouped(",
   c!"\t\tOption<TagWords<'arena>>,",
   c!"\t\tWithFree<'arena, Tuhe<'arena>>,",
   c!"\t\tParagraphs<'arena>,",
   c!"\t\tOption<Tuhu<'arena>>,",
   c!"\t\tFrees<'arena>,",
   c!"\t),",
   c!"\tSingle(&'arena Sentence<'arena>),",
   c!"}",
   c!"",
   c!"#[derive(Debug, Parse, TreeNode)]",
   c!"pub struct ParagraphSeparator<'arena>(",
   c!"\t#[parse(with = \"many1\")] &'arena [Niho<'arena>],",
   c!"\tFrees<'arena>,",
   c!");",
   c!"",
   c!"#[derive(Debug, Parse, TreeNode)]",
   c!"pub struct SentenceSeparator<'arena>(pub I<'arena>, #[parse(not = \"Bu\")] pub Frees<'arena>);",
   c!"",
   c!"#[derive(Debug, Parse, TreeNode)]",
   c!"pub struct ConnectedSentenceSeparator<'arena>(",
   c!"\tpub I<'arena>,",
   c!"\tpub JoikJek<'arena>,",
   c!"\tpub Frees<'arena>,",
   c!");",
   c!"",
   c!"#[derive(Debug, Parse, TreeNode)]",
   c!"pub struct CloseSentenceSeparator<'arena>("]

/-- `src/parse/cst/rules/mod.rs:121-160` -/
def modRs3 : List (List Char) :=
  [c!"\tpub I<'arena>,",
   c!"\tpub Option<JoikJek<'arena>>,",
   c!"\tpub Option<TagWords<'arena>>,",
   c!"\tpub Bo<'arena>,",
   c!"\tpub Frees<'arena>,",
   c!");",
   c!"",
   c!"#[derive(Debug, Parse, TreeNode)]",
   c!"pub struct Sentence<'arena> {",
   c!"\tpub before_args: Args<'arena>,",
   c!"\tpub tail: Option<SentenceTail<'arena>>,",
   c!"}",
   c!"",
   c!"#[derive(Debug, Parse, TreeNode)]",
   c!"pub struct SentenceTail<'arena>(",
   c!"\tpub Option<Cu<'arena>>,",
   c!"\tpub Frees<'arena>,",
   c!"\tpub SentenceTail1<'arena>,",
   c!");",
   c!"",
   c!"#[derive(Debug, Parse, TreeNode)]",
   c!"pub struct SentenceTail1<'arena>(",
   c!"\tpub SentenceTail2<'arena>,",
   c!"\tpub Option<SentenceTail1After<'arena>>,",
   c!");",
   c!"",
   c!"#[derive(Debug, Parse, TreeNode)]",
   c!"pub struct SentenceTail1After<'arena>(",
   c!"\tGihek<'arena>,",
   c!"\tOption<TagWords<'arena>>,",
   c!"\tKe<'arena>,",
   c!"\tFrees<'arena>,",
   c!"\t&'arena SentenceTail1<'arena>,",
   c!"\tOption<Kehe<'arena>>,",
   c!"\tFrees<'arena>,",
   c!"\tTailArgs<'arena>,",
   c!");",
   c!"",
   c!"#[derive(Debug, Parse, TreeNode)]",
   c!"pub struct SentenceTail2<'arena>("]

/-- `src/parse/cst/rules/mod.rs:161-200` -/
def modRs4 : List (List Char) :=
  [c!"\tpub &'arena SentenceTail3<'arena>,",
   c!"\tpub Option<SentenceTail2After<'arena>>,",
   c!");",
   c!"",
   c!"#[derive(Debug, Parse, TreeNode)]",
   c!"pub struct SentenceTail2Connective<'arena>(",
   c!"\tpub Gihek<'arena>,",
   c!"\t// `gi'e ke ...` must be parsed as SentenceTail1After, not a parenthesized tanru",
   c!"\t#[parse(not = \"(Option<TagWords<'_>>, Ke<'_>)\")] pub Frees<'arena>,",
   c!");",
   c!"",
   c!"#[derive(Debug, Parse, TreeNode)]",
   c!"pub struct SentenceTail2After<'arena>(",
   c!"\t#[parse(with = \"many1\")] pub &'arena [(SentenceTail2Connective<'arena>, SentenceTail3<'arena>)],",
   c!"\tpub TailArgs<'arena>,",
   c!");",
   c!"",
   c!"#[derive(Debug, Parse, TreeNode)]",
   c!"pub struct SentenceTail3<'arena>(",
   c!"\tpub &'arena SentenceTail4<'arena>,",
   c!"\tpub Option<SentenceTail3After<'arena>>,",
   c!");",
   c!"",
   c!"pub type SentenceTail3Connective<'arena> = (",
   c!"\tGihek<'arena>,",
   c!"\tOption<TagWords<'arena>>,",
   c!"\tBo<'arena>,",
   c!"\tFrees<'arena>,",
   c!");",
   c!"",
   c!"#[derive(Debug, Parse, TreeNode)]",
   c!"pub struct SentenceTail3After<'arena>(",
   c!"\t#[parse(with = \"many1\")] &'arena [(SentenceTail3Connective<'arena>, SentenceTail4<'arena>)],",
   c!"\tTailArgs<'arena>,",
   c!");",
   c!"",
   c!"#[derive(Debug, Parse, TreeNode)]",
   c!"pub enum SentenceTail4<'arena> {",
   c!"\tSingle(Selbri<'arena>, TailArgs<'arena>),",
   c!"\tParenthesized("]

/-- `src/parse/cst/rules/mod.rs:201-240` -/
def modRs5 : List (List Char) :=
  [c!"\t\t#[parse(with = \"many0\")] &'arena [WithFree<'arena, Na<'arena>>],",
   c!"\t\tOption<TagWords<'arena>>,",
   c!"\t\tWithFree<'arena, Ke<'arena>>,",
   c!"\t\t&'arena GekSentence<'arena>,",
   c!"\t\tOption<Kehe<'arena>>,",
   c!"\t\tFrees<'arena>,",
   c!"\t),",
   c!"\tConnected(&'arena GekSentence<'arena>),",
   c!"}",
   c!"",
   c!"#[derive(Debug, Parse, TreeNode)]",
   c!"pub struct GekSentence<'arena>(",
   c!"\t#[parse(with = \"many0\")] pub &'arena [WithFree<'arena, Na<'arena>>],",
   c!"\tpub Gek<'arena>,",
   c!"\tpub Subsentence<'arena>,",
   c!"\tpub Gik<'arena>,",
   c!"\tpub Subsentence<'arena>,",
   c!"\tpub TailArgs<'arena>,",
   c!");",
   c!"",
   c!"#[derive(Debug, Parse, TreeNode)]",
   c!"pub struct Subsentence<'arena>(",
   c!"\t#[parse(with = \"many0\")] pub &'arena [Prenex<'arena>],",
   c!"\tArgs<'arena>,",
   c!"\tSentenceTail<'arena>,",
   c!");",
   c!"",
   c!"#[derive(Debug, Parse, TreeNode)]",
   c!"#[tree_node(passthrough_child)]",
   c!"pub struct Args<'arena>(#[parse(with = \"many0\")] pub &'arena [Arg<'arena>]);",
   c!"",
   c!"#[derive(Debug, Parse, TreeNode)]",
   c!"#[tree_node(passthrough_child)]",
   c!"pub struct TailArgs<'arena>(pub Args<'arena>, pub Option<Vau<'arena>>, pub Frees<'arena>);",
   c!"",
   c!"#[derive(Debug, Parse, TreeNode)]",
   c!"pub struct Prenex<'arena> {",
   c!"\tpub terms: Args<'arena>,",
   c!"\tpub zohu: Zohu<'arena>,",
   c!"\tpub frees: Frees<'arena>,"]

/-- `src/parse/cst/rules/mod.rs:241-280` -/
def modRs6 : List (List Char) :=
  [c!"}",
   c!"",
   c!"#[derive(Debug, Parse, TreeNode)]",
   c!"pub struct Arg<'arena>(",
   c!"\tArg1<'arena>,",
   c!"\t#[parse(with = \"many0\")] &'arena [SumtiLikeConnectedPost<'arena, Arg1<'arena>, Self>],",
   c!");",
   c!"",
   c!"pub type Arg1<'arena> = Separated<'arena, Arg2<'arena>, PeheConnective<'arena>>;",
   c!"",
   c!"#[derive(Debug, Parse, TreeNode)]",
   c!"pub struct PeheConnective<'arena>(WithFree<'arena, Pehe<'arena>>, JoikJek<'arena>);",
   c!"",
   c!"pub type Arg2<'arena> = Separated<'arena, Arg3<'arena>, WithFree<'arena, Cehe<'arena>>>;",
   c!"",
   c!"#[derive(Debug, Parse, TreeNode)]",
   c!"pub enum Arg3<'arena> {",
   c!"\tTag(Tag<'arena>),",
   c!"\tSumti {",
   c!"\t\tfa: Option<WithFree<'arena, Fa<'arena>>>,",
   c!"\t\tsumti: Sumti<'arena>,",
   c!"\t},",
   c!"\tNaku(Na<'arena>, Ku<'arena>, Frees<'arena>),",
   c!"\tTermset(&'arena Termset<'arena>),",
   c!"}",
   c!"",
   c!"#[derive(Debug, Parse, TreeNode)]",
   c!"pub enum Termset<'arena> {",
   c!"\tGek(Gek<'arena>, Args<'arena>, Gik<'arena>, Args<'arena>),",
   c!"\tNuhiGi(",
   c!"\t\tWithFree<'arena, Nuhi<'arena>>,",
   c!"\t\tGek<'arena>,",
   c!"\t\tArgs<'arena>,",
   c!"\t\tOption<Nuhu<'arena>>,",
   c!"\t\tFrees<'arena>,",
   c!"\t\tGik<'arena>,",
   c!"\t\tArgs<'arena>,",
   c!"\t\tOption<Nuhu<'arena>>,",
   c!"\t\tFrees<'arena>,",
   c!"\t),"]

/-- `src/parse/cst/rules/mod.rs:281-320` -/
def modRs7 : List (List Char) :=
  [c!"\tNuhi(",
   c!"\t\tWithFree<'arena, Nuhi<'arena>>,",
   c!"\t\tArgs<'arena>,",
   c!"\t\tOption<Nuhu<'arena>>,",
   c!"\t\tFrees<'arena>,",
   c!"\t),",
   c!"}",
   c!"",
   c!"#[derive(Debug, Parse, TreeNode)]",
   c!"pub struct Selbri<'arena> {",
   c!"\t#[parse(with = \"many0\")]",
   c!"\tpub before: &'arena [SelbriBefore<'arena>],",
   c!"\t// all other `Separated` will use `false` for `should_cut`",
   c!"\tpub components: Selbri1<'arena>,",
   c!"}",
   c!"",
   c!"#[derive(Debug, Parse, TreeNode)]",
   c!"pub enum SelbriBefore<'arena> {",
   c!"\tNa(WithFree<'arena, Na<'arena>>),",
   c!"\tTag(TagWords<'arena>),",
   c!"}",
   c!"",
   c!"#[derive(Debug, Parse, TreeNode)]",
   c!"#[repr(transparent)]",
   c!"pub struct Selbri1<'arena>(Separated<'arena, Selbri2<'arena>, WithFree<'arena, Co<'arena>>>);",
   c!"",
   c!"#[derive(Debug, Parse, TreeNode)]",
   c!"#[repr(transparent)]",
   c!"pub struct Selbri2<'arena>(#[parse(with = \"many1\")] &'arena [Selbri3<'arena>]);",
   c!"",
   c!"#[derive(Debug, Parse, TreeNode)]",
   c!"pub struct Selbri3<'arena>(",
   c!"\tpub Selbri4<'arena>,",
   c!"\t#[parse(with = \"many0\")] pub &'arena [Selbri3ConnectedPost<'arena>],",
   c!");",
   c!"",
   c!"pub type Selbri3ConnectedPost<'arena> =",
   c!"\tSelbriLikeConnectedPost<'arena, Selbri4<'arena>, Selbri2<'arena>>;",
   c!"",
   c!"#[derive(Debug, Parse, TreeNode)]"]

/-- `src/parse/cst/rules/mod.rs:321-360` -/
def modRs8 : List (List Char) :=
  [c!"pub enum SelbriLikeConnectedPost<'arena, Normal, Parenthesized> {",
   c!"\tNormal(JoikJek<'arena>, Normal),",
   c!"\tParenthesized(",
   c!"\t\tJoikJek<'arena>,",
   c!"\t\tOption<TagWords<'arena>>,",
   c!"\t\tWithFree<'arena, Ke<'arena>>,",
   c!"\t\tParenthesized,",
   c!"\t\tOption<Kehe<'arena>>,",
   c!"\t\tFrees<'arena>,",
   c!"\t),",
   c!"}",
   c!"",
   c!"#[derive(Debug, Parse, TreeNode)]",
   c!"#[repr(transparent)]",
   c!"pub struct Selbri4<'arena>(",
   c!"\tpub  Separated<",
   c!"\t\t'arena,",
   c!"\t\tSelbri5<'arena>,",
   c!"\t\t(",
   c!"\t\t\tJoikJek<'arena>,",
   c!"\t\t\tOption<TagWords<'arena>>,",
   c!"\t\t\tBo<'arena>,",
   c!"\t\t\tFrees<'arena>,",
   c!"\t\t),",
   c!"\t>,",
   c!");",
   c!"",
   c!"#[derive(Debug, Parse, TreeNode)]",
   c!"pub struct Selbri5<'arena>(",
   c!"\t#[parse(with = \"many0\")] pub &'arena [NaheGuhekTGik<'arena, Selbri<'arena>>],",
   c!"\tpub Selbri6<'arena>,",
   c!");",
   c!"",
   c!"#[derive(Debug, Parse, TreeNode)]",
   c!"pub struct NaheGuhekTGik<'arena, T>(",
   c!"\tpub Option<Nahe<'arena>>,",
   c!"\tpub Frees<'arena>,",
   c!"\tpub Guhek<'arena>,",
   c!"\tpub T,",
   c!"\tpub Gik<'arena>,"]

/-- `src/parse/cst/rules/mod.rs:361-400` -/
def modRs9 : List (List Char) :=
  [c!");",
   c!"",
   c!"#[derive(Debug, Parse, TreeNode)]",
   c!"pub struct Selbri6<'arena>(pub Separated<'arena, TanruUnit<'arena>, WithFree<'arena, Bo<'arena>>>);",
   c!"",
   c!"#[derive(Debug, Parse, TreeNode)]",
   c!"#[repr(transparent)]",
   c!"pub struct TanruUnit<'arena>(",
   c!"\tpub Separated<'arena, TanruUnit1<'arena>, WithFree<'arena, Cei<'arena>>>,",
   c!");",
   c!"",
   c!"#[derive(Debug, Parse, TreeNode)]",
   c!"pub struct TanruUnit1<'arena> {",
   c!"\t#[parse(with = \"many0\")]",
   c!"\tpub before: &'arena [BeforeTanruUnit<'arena>],",
   c!"\tpub inner: TanruUnit2<'arena>,",
   c!"\tpub bound_arguments: Option<BoundArguments<'arena>>,",
   c!"}",
   c!"",
   c!"#[derive(Debug, Parse, TreeNode)]",
   c!"pub enum BeforeTanruUnit<'arena> {",
   c!"\tJai {",
   c!"\t\tjai: WithFree<'arena, Jai<'arena>>,",
   c!"\t\ttag: Option<TagWords<'arena>>,",
   c!"\t},",
   c!"\tNahe(WithFree<'arena, Nahe<'arena>>),",
   c!"\tSe(WithFree<'arena, Se<'arena>>),",
   c!"}",
   c!"",
   c!"#[derive(Debug, Parse, TreeNode)]",
   c!"pub struct BoundArguments<'arena> {",
   c!"\tpub be: WithFree<'arena, Be<'arena>>,",
   c!"\tpub args: Separated<'arena, Arg<'arena>, WithFree<'arena, Bei<'arena>>>,",
   c!"\tpub beho: Option<Beho<'arena>>,",
   c!"\tpub frees: Frees<'arena>,",
   c!"}",
   c!"",
   c!"#[derive(Debug, Parse, TreeNode)]",
   c!"pub enum TanruUnit2<'arena> {",
   c!"\tGroupedTanru {"]

/-- `src/parse/cst/rules/mod.rs:401-440` -/
def modRs10 : List (List Char) :=
  [c!"\t\tke: WithFree<'arena, Ke<'arena>>,",
   c!"\t\tgroup: Selbri2<'arena>, /* not `Selbri` because ke-ke'e groupings can't encompass co (CLL 5.8) nor tense, modal, and negation cmavo (CLL 5.13). `Selbri2` is inside co groupings (`Selbri1`) and na/tags (`Selbri`). */",
   c!"\t\tkehe: Option<Kehe<'arena>>,",
   c!"\t\tfrees: Frees<'arena>,",
   c!"\t},",
   c!"\tGismu(WithFree<'arena, Gismu<'arena>>),",
   c!"\tLujvo(WithFree<'arena, Lujvo<'arena>>),",
   c!"\tFuhivla(WithFree<'arena, Fuhivla<'arena>>),",
   c!"\tZei(WithFree<'arena, ZeiClause<'arena>>),",
   c!"\tGoha {",
   c!"\t\tgoha: Goha<'arena>,",
   c!"\t\traho: Option<Raho<'arena>>,",
   c!"\t\tfrees: Frees<'arena>,",
   c!"\t},",
   c!"\tMoi(MiscNumbers<'arena>, Moi<'arena>, Frees<'arena>),",
   c!"\tMe {",
   c!"\t\tme: WithFree<'arena, Me<'arena>>,",
   c!"\t\tinner: Sumti<'arena>,",
   c!"\t\tmehu: Option<Mehu<'arena>>,",
   c!"\t\tfrees: Frees<'arena>,",
   c!"\t\tmoi: Option<WithFree<'arena, Moi<'arena>>>,",
   c!"\t},",
   c!"\tNu {",
   c!"\t\tnus: Separated<'arena, (Nu<'arena>, Option<Nai<'arena>>, Frees<'arena>), JoikJek<'arena>>,",
   c!"\t\tinner: &'arena Subsentence<'arena>,",
   c!"\t\tkei: Option<Kei<'arena>>,",
   c!"\t\tfrees: Frees<'arena>,",
   c!"\t},",
   c!"\tNuha {",
   c!"\t\tnuha: WithFree<'arena, Nuha<'arena>>,",
   c!"\t\toperator: MeksoOperator<'arena>,",
   c!"\t},",
   c!"}",
   c!"",
   c!"#[derive(Debug, Parse, TreeNode)]",
   c!"pub struct ZeiClause<'arena>(",
   c!"\t#[parse(with = \"many0\")] pub &'arena [Bahe],",
   c!"\tpub BuInner,",
   c!"\t#[parse(with = \"many0\")] pub &'arena [ZeiBuInner<'arena>],",
   c!"\tpub ZeiTail<'arena>,"]

/-- `src/parse/cst/rules/mod.rs:441-480` -/
def modRs11 : List (List Char) :=
  [c!"\t#[parse(not = \"Zei<'_>\", not = \"Bu\")] pub Option<&'arena Indicators<'arena>>,",
   c!");",
   c!"",
   c!"#[derive(Debug, Parse, TreeNode)]",
   c!"pub struct ZeiBuInner<'arena>(",
   c!"\tpub Option<ZeiTail<'arena>>,",
   c!"\t#[parse(with = \"many1\")] pub &'arena [Bu],",
   c!");",
   c!"",
   c!"#[derive(Debug, Parse, TreeNode)]",
   c!"pub struct ZeiTail<'arena>(#[parse(with = \"many1\")] pub &'arena [(Zei<'arena>, Token)]);",
   c!"",
   c!"#[test]",
   c!"fn test_zei_clause() {",
   c!"\tlet arena = Arena::new();",
   c!"\tlet tokens = crate::lex(\"ko'a zei ko'a\")",
   c!"\t\t.collect::<Result<Vec<_>, _>>()",
   c!"\t\t.unwrap();",
   c!"\tlet (rest, _) = ZeiClause::parse(&tokens, &arena).unwrap();",
   c!"\tassert_eq!(rest, &[]);",
   c!"}",
   c!"",
   c!"#[derive(Debug, Parse, TreeNode)]",
   c!"pub struct Tag<'arena> {",
   c!"\tpub words: TagWords<'arena>,",
   c!"\t// e.g., \"ri'agi broda gi brode\" or \"ri'agi ko'a gi ko'e\". this rule would consume `ri'a` with no argument and leave just a `gi`.",
   c!"\t#[parse(not = \"Gik<'_>\", not = \"Ke<'_>\")]",
   c!"\tpub value: Option<TagValue<'arena>>,",
   c!"}",
   c!"",
   c!"#[derive(Debug, Parse, TreeNode)]",
   c!"pub enum TagValue<'arena> {",
   c!"\tKu(WithFree<'arena, Ku<'arena>>),",
   c!"\tSumti(Sumti<'arena>),",
   c!"}",
   c!"",
   c!"pub type TagWords<'arena> = Separated<'arena, TagWord<'arena>, JoikJek<'arena>>;",
   c!"",
   c!"#[derive(Debug, Parse, TreeNode)]",
   c!"pub enum TagWord<'arena> {"]

/-- `src/parse/cst/rules/mod.rs:481-520` -/
def modRs12 : List (List Char) :=
  [c!"\tBai {",
   c!"\t\tnahe: Option<Nahe<'arena>>,",
   c!"\t\tse: Option<Se<'arena>>,",
   c!"\t\tbai: Bai<'arena>,",
   c!"\t\tnai: Option<Nai<'arena>>,",
   c!"\t\tki: Option<Ki<'arena>>,",
   c!"\t\tfrees: Frees<'arena>,",
   c!"\t},",
   c!"\tTimeSpaceCaha {",
   c!"\t\tnahe: Option<Nahe<'arena>>,",
   c!"\t\t#[parse(with = \"many1\")]",
   c!"\t\tinner: &'arena [TimeSpaceCaha<'arena>],",
   c!"\t\tki: Option<Ki<'arena>>,",
   c!"\t\tfrees: Frees<'arena>,",
   c!"\t},",
   c!"\tKi(Ki<'arena>, Frees<'arena>),",
   c!"\tCuhe(Cuhe<'arena>, Frees<'arena>),",
   c!"\tConverted(",
   c!"\t\tWithFree<'arena, Fiho<'arena>>,",
   c!"\t\tSelbri<'arena>,",
   c!"\t\tOption<Fehu<'arena>>,",
   c!"\t\tFrees<'arena>,",
   c!"\t),",
   c!"}",
   c!"",
   c!"#[derive(Debug, Parse, TreeNode)]",
   c!"pub enum TimeSpaceCaha<'arena> {",
   c!"\tTime(&'arena Time<'arena>),",
   c!"\tSpace(&'arena Space<'arena>),",
   c!"\tCaha(Caha<'arena>),",
   c!"}",
   c!"",
   c!"#[derive(Debug, Parse, TreeNode)]",
   c!"#[parse(postcond(\"|time| time.zi.is_some() || !time.offset.is_empty() || time.duration.is_some() || !time.properties.is_empty()\"))]",
   c!"pub struct Time<'arena> {",
   c!"\tpub zi: Option<Zi<'arena>>,",
   c!"\t#[parse(with = \"many0\")]",
   c!"\tpub offset: &'arena [TimeOffset<'arena>],",
   c!"\tpub duration: Option<TimeDuration<'arena>>,",
   c!"\t#[parse(with = \"many0\")]"]

/-- `src/parse/cst/rules/mod.rs:521-560` -/
def modRs13 : List (List Char) :=
  [c!"\tpub properties: &'arena [TimeIntervalProperty<'arena>],",
   c!"}",
   c!"",
   c!"#[derive(Debug, Parse, TreeNode)]",
   c!"pub struct TimeOffset<'arena> {",
   c!"\tpub pu: Pu<'arena>,",
   c!"\tpub nai: Option<Nai<'arena>>,",
   c!"\tpub zi: Option<Zi<'arena>>,",
   c!"}",
   c!"",
   c!"#[derive(Debug, Parse, TreeNode)]",
   c!"pub struct TimeDuration<'arena> {",
   c!"\tpub zeha: Zeha<'arena>,",
   c!"\t/// see CLL 10.5, specifically examples 10.26 through 10.29",
   c!"\tpub anchor: Option<(Pu<'arena>, Option<Nai<'arena>>)>,",
   c!"}",
   c!"",
   c!"#[derive(Debug, Parse, TreeNode)]",
   c!"pub enum IntervalProperty<'arena> {",
   c!"\tRoi(Number<'arena>, Roi<'arena>, Option<Nai<'arena>>),",
   c!"\tTahe(Tahe<'arena>, Option<Nai<'arena>>),",
   c!"\tZaho(Zaho<'arena>, Option<Nai<'arena>>),",
   c!"}",
   c!"",
   c!"pub type TimeIntervalProperty<'arena> = IntervalProperty<'arena>;",
   c!"",
   c!"#[derive(Debug, Parse, TreeNode)]",
   c!"#[parse(postcond(\"|space| space.va.is_some() || !space.offset.is_empty() || space.interval.is_some() || space.motion.is_some()\"))]",
   c!"pub struct Space<'arena> {",
   c!"\tpub va: Option<Va<'arena>>,",
   c!"\t#[parse(with = \"many0\")]",
   c!"\tpub offset: &'arena [SpaceOffset<'arena>],",
   c!"\tpub interval: Option<SpaceInterval<'arena>>,",
   c!"\tpub motion: Option<SpaceMotion<'arena>>,",
   c!"}",
   c!"",
   c!"#[derive(Debug, Parse, TreeNode)]",
   c!"pub struct SpaceOffset<'arena>(Faha<'arena>, Option<Nai<'arena>>, Option<Va<'arena>>);",
   c!"",
   c!"#[derive(Debug, Parse, TreeNode)]"]

/-- `src/parse/cst/rules/mod.rs:561-600` -/
def modRs14 : List (List Char) :=
  [c!"pub enum SpaceInterval<'arena> {",
   c!"\tInterval {",
   c!"\t\tinterval: EitherOrBoth<Veha<'arena>, Viha<'arena>>,",
   c!"\t\tdirection: Option<(Faha<'arena>, Option<Nai<'arena>>)>,",
   c!"\t\t#[parse(with = \"many0\")]",
   c!"\t\tproperties: &'arena [SpaceIntervalProperty<'arena>],",
   c!"\t},",
   c!"\tProperties(#[parse(with = \"many1\")] &'arena [SpaceIntervalProperty<'arena>]),",
   c!"}",
   c!"",
   c!"#[derive(Debug, Parse, TreeNode)]",
   c!"pub struct SpaceIntervalProperty<'arena>(Fehe<'arena>, IntervalProperty<'arena>);",
   c!"",
   c!"#[derive(Debug, Parse, TreeNode)]",
   c!"pub struct SpaceMotion<'arena> {",
   c!"\tpub mohi: Mohi<'arena>,",
   c!"\tpub offset: SpaceOffset<'arena>,",
   c!"}",
   c!"",
   c!"#[derive(Debug, Parse, TreeNode)]",
   c!"pub struct Sumti<'arena> {",
   c!"\tpub inner: Sumti1<'arena>,",
   c!"\tpub vuho_relative: Option<VuhoRelative<'arena>>,",
   c!"}",
   c!"",
   c!"#[derive(Debug, Parse, TreeNode)]",
   c!"pub struct Sumti1<'arena>(",
   c!"\tpub Sumti2<'arena>,",
   c!"\t#[parse(with = \"many0\")]",
   c!"\tpub  &'arena [SumtiLikeConnectedPost<'arena, Sumti2<'arena>, Sumti<'arena>>],",
   c!");",
   c!"",
   c!"#[derive(Debug, Parse, TreeNode)]",
   c!"pub enum SumtiLikeConnectedPost<'arena, Normal, Parenthesized> {",
   c!"\tNormal(JoikEk<'arena>, Normal),",
   c!"\tGrouped(",
   c!"\t\tJoikEk<'arena>,",
   c!"\t\tOption<TagWords<'arena>>,",
   c!"\t\tWithFree<'arena, Ke<'arena>>,",
   c!"\t\tParenthesized,"]

/-- `src/parse/cst/rules/mod.rs:601-640` -/
def modRs15 : List (List Char) :=
  [c!"\t\tOption<Kehe<'arena>>,",
   c!"\t\tFrees<'arena>,",
   c!"\t),",
   c!"}",
   c!"",
   c!"pub type Sumti2<'arena> = Separated<",
   c!"\t'arena,",
   c!"\tSumti3<'arena>,",
   c!"\t(",
   c!"\t\tJoikEk<'arena>,",
   c!"\t\tOption<TagWords<'arena>>,",
   c!"\t\tBo<'arena>,",
   c!"\t\tFrees<'arena>,",
   c!"\t),",
   c!">;",
   c!"",
   c!"#[derive(Debug, Parse, TreeNode)]",
   c!"pub struct VuhoRelative<'arena> {",
   c!"\tpub vuho: WithFree<'arena, Vuho<'arena>>,",
   c!"\tpub relative_clauses: RelativeClauses<'arena>,",
   c!"}",
   c!"",
   c!"#[derive(Debug, Parse, TreeNode)]",
   c!"pub struct RelativeClauses<'arena>(",
   c!"\tSeparated<'arena, RelativeClause<'arena>, WithFree<'arena, Zihe<'arena>>>,",
   c!");",
   c!"",
   c!"#[derive(Debug, Parse, TreeNode)]",
   c!"pub enum RelativeClause<'arena> {",
   c!"\tGoi(GoiRelativeClause<'arena>),",
   c!"\tNoi(NoiRelativeClause<'arena>),",
   c!"}",
   c!"",
   c!"#[derive(Debug, Parse, TreeNode)]",
   c!"pub struct GoiRelativeClause<'arena> {",
   c!"\tpub goi: WithFree<'arena, Goi<'arena>>,",
   c!"\t/// typical usage would match Arg::Sumti, but Arg::Tag is possible as well, such as in `la salis nesemau la betis cu se prami mi`",
   c!"\tpub inner: Arg<'arena>,",
   c!"\tpub gehu: Option<Gehu<'arena>>,",
   c!"\tpub frees: Frees<'arena>,"]

/-- `src/parse/cst/rules/mod.rs:641-680` -/
def modRs16 : List (List Char) :=
  [c!"}",
   c!"",
   c!"#[derive(Debug, Parse, TreeNode)]",
   c!"pub struct NoiRelativeClause<'arena> {",
   c!"\tpub noi: WithFree<'arena, Noi<'arena>>,",
   c!"\tpub inner: &'arena Subsentence<'arena>,",
   c!"\tpub kuho: Option<Kuho<'arena>>,",
   c!"\tpub frees: Frees<'arena>,",
   c!"}",
   c!"",
   c!"#[derive(Debug, Parse, TreeNode)]",
   c!"pub struct Sumti3<'arena>(",
   c!"\t#[parse(with = \"many0\")] pub &'arena [Sumti3ConnectedPre<'arena>],",
   c!"\tSumti4<'arena>,",
   c!");",
   c!"",
   c!"#[derive(Debug, Parse, TreeNode)]",
   c!"pub struct Sumti3ConnectedPre<'arena>(pub Gek<'arena>, pub Sumti<'arena>, pub Gik<'arena>);",
   c!"",
   c!"#[derive(Debug, Parse, TreeNode)]",
   c!"pub enum Sumti4<'arena> {",
   c!"\tNormal {",
   c!"\t\tquantifier: Option<Quantifier<'arena>>,",
   c!"\t\tinner: &'arena SumtiComponent<'arena>,",
   c!"\t\trelative_clauses: Option<RelativeClauses<'arena>>,",
   c!"\t},",
   c!"\tSelbriShorthand {",
   c!"\t\tquantifier: Quantifier<'arena>,",
   c!"\t\tinner: Selbri<'arena>,",
   c!"\t\tku: Option<Ku<'arena>>,",
   c!"\t\tfrees: Frees<'arena>,",
   c!"\t\trelative_clauses: Option<RelativeClauses<'arena>>,",
   c!"\t},",
   c!"}",
   c!"",
   c!"#[derive(Debug, Parse, TreeNode)] // similar to part of `mekso::Operand3`",
   c!"pub enum Quantifier<'arena> {",
   c!"\tMekso(",
   c!"\t\tWithFree<'arena, Vei<'arena>>,",
   c!"\t\tMekso<'arena>,"]

/-- `src/parse/cst/rules/mod.rs:681-720` -/
def modRs17 : List (List Char) :=
  [c!"\t\tOption<Veho<'arena>>,",
   c!"\t\tFrees<'arena>,",
   c!"\t),",
   c!"\tNumber(",
   c!"\t\tNumber<'arena>,",
   c!"\t\t#[parse(not = \"Moi<'_>\")] Option<Boi<'arena>>,",
   c!"\t\tFrees<'arena>,",
   c!"\t),",
   c!"}",
   c!"",
   c!"#[derive(Debug, Parse, TreeNode)]",
   c!"pub struct Number<'arena> {",
   c!"\tpub first: Pa<'arena>,",
   c!"\t#[parse(with = \"many0\")]",
   c!"\tpub rest: &'arena [NumberRest<'arena>],",
   c!"}",
   c!"",
   c!"#[derive(Debug, Parse, TreeNode)]",
   c!"pub enum NumberRest<'arena> {",
   c!"\tPa(Pa<'arena>),",
   c!"\tLerfu(LerfuWord<'arena>),",
   c!"}",
   c!"",
   c!"#[derive(Debug, Parse, TreeNode)]",
   c!"pub struct LerfuString<'arena> {",
   c!"\tpub first: LerfuWord<'arena>,",
   c!"\t#[parse(with = \"many0\")]",
   c!"\tpub rest: &'arena [NumberRest<'arena>],",
   c!"}",
   c!"",
   c!"#[derive(Debug, Parse, TreeNode)]",
   c!"pub struct MiscNumbers<'arena>(#[parse(with = \"many1\")] &'arena [NumberRest<'arena>]);",
   c!"",
   c!"#[derive(Debug, Parse, TreeNode)]",
   c!"pub enum LerfuWord<'arena> {",
   c!"\tLerfu(Lerfu<'arena>),",
   c!"\tLau {",
   c!"\t\tlau: Lau<'arena>,",
   c!"\t\tlerfu: Lerfu<'arena>,",
   c!"\t},"]

/-- `src/parse/cst/rules/mod.rs:721-760` -/
def modRs18 : List (List Char) :=
  [c!"\tTei {",
   c!"\t\ttei: Tei<'arena>,",
   c!"\t\tinner: &'arena LerfuString<'arena>, // recursion avoided here",
   c!"\t\t#[cut]",
   c!"\t\tfoi: Foi<'arena>,",
   c!"\t},",
   c!"}",
   c!"",
   c!"#[derive(Debug, Parse, TreeNode)]",
   c!"pub enum Lerfu<'arena> {",
   c!"\tBu(",
   c!"\t\tOption<Bahe>,",
   c!"\t\tBuInner,",
   c!"\t\t#[parse(with = \"many1\")] &'arena [Bu],",
   c!"\t\t#[parse(with = \"many0\")] &'arena [Indicators<'arena>],",
   c!"\t),",
   c!"\tBy(By<'arena>),",
   c!"}",
   c!"",
   c!"#[derive(Debug, Parse, TreeNode)]",
   c!"#[parse(",
   c!"\tpostcond = \"|Self(token)| !matches!(token.selmaho, Selmaho::Bu | Selmaho::Zei | Selmaho::Si | Selmaho::Su | Selmaho::Sa | Selmaho::Faho)\"",
   c!")]",
   c!"pub struct BuInner(Token);",
   c!"",
   c!"pub type SumtiComponent<'arena> = WithFree<'arena, SumtiComponent1<'arena>>;",
   c!"",
   c!"#[derive(Debug, Parse, TreeNode)]",
   c!"pub enum SumtiComponent1<'arena> {",
   c!"\tKoha(Koha<'arena>),",
   c!"\tGadri(&'arena GadriSumti<'arena>),",
   c!"\tLa(LaSumti<'arena>),",
   c!"\tLohu(LohuSumti<'arena>),",
   c!"\tLu(LuSumti<'arena>),",
   c!"\tModified(ModifiedSumti<'arena>),",
   c!"\tLerfuString(",
   c!"\t\tLerfuString<'arena>,",
   c!"\t\t#[parse(not = \"Moi<'_>\")] Option<Boi<'arena>>,",
   c!"\t),",
   c!"\tZo(ZoSumti),"]

/-- `src/parse/cst/rules/mod.rs:761-800` -/
def modRs19 : List (List Char) :=
  [c!"\tZoi(ZoiSumti),",
   c!"\tLi(",
   c!"\t\tWithFree<'arena, Li<'arena>>,",
   c!"\t\tMekso<'arena>,",
   c!"\t\tOption<Loho<'arena>>,",
   c!"\t),",
   c!"}",
   c!"",
   c!"#[derive(Debug, TreeNode)]",
   c!"pub struct LohuSumti<'arena> {",
   c!"\tpub lohu: Lohu,",
   c!"\tpub inner: &'arena [Token],",
   c!"\tpub lehu: Lehu<'arena>,",
   c!"}",
   c!"",
   c!"impl<'arena> Parse<'arena> for LohuSumti<'arena> {",
   c!"\tfn parse<'a: 'arena>(input: &'a [Token], arena: &'arena Arena) -> ParseResult<'a, Self> {",
   c!"\t\tnom::combinator::map(",
   c!"\t\t\tnom::sequence::tuple((",
   c!"\t\t\t\t|input| Parse::parse(input, arena),",
   c!"\t\t\t\tnom::combinator::cut(nom::multi::many_till(",
   c!"\t\t\t\t\t|input| Parse::parse(input, arena),",
   c!"\t\t\t\t\t|input| Parse::parse(input, arena),",
   c!"\t\t\t\t)),",
   c!"\t\t\t)),",
   c!"\t\t\t|(lohu, (inner, lehu))| Self {",
   c!"\t\t\t\tlohu,",
   c!"\t\t\t\tinner: arena.alloc_slice_fill_iter(inner.into_iter()),",
   c!"\t\t\t\tlehu,",
   c!"\t\t\t},",
   c!"\t\t)(input)",
   c!"\t}",
   c!"}",
   c!"",
   c!"#[derive(Debug, Parse, TreeNode)]",
   c!"pub struct LuSumti<'arena> {",
   c!"\tpub lu: Lu,",
   c!"\tpub text: Text<'arena>,",
   c!"\tpub lihu: Option<Lihu<'arena>>,",
   c!"}"]

/-- `src/parse/cst/rules/mod.rs:801-840` -/
def modRs20 : List (List Char) :=
  [c!"",
   c!"#[derive(Debug, Parse, TreeNode)]",
   c!"pub struct ModifiedSumti<'arena> {",
   c!"\tpub modifier: WithFree<'arena, SumtiModifier<'arena>>,",
   c!"\tpub relative_clauses: Option<RelativeClauses<'arena>>,",
   c!"\tpub sumti: Sumti<'arena>,",
   c!"\tpub luhu: Option<Luhu<'arena>>,",
   c!"}",
   c!"",
   c!"#[derive(Debug, Parse, TreeNode)]",
   c!"pub enum SumtiModifier<'arena> {",
   c!"\tLahe(Lahe<'arena>),",
   c!"\tNaheBo(Nahe<'arena>, Bo<'arena>),",
   c!"}",
   c!"",
   c!"#[derive(Debug, Parse, TreeNode)]",
   c!"pub struct GadriSumti<'arena> {",
   c!"\tpub gadri: WithFree<'arena, Gadri<'arena>>,",
   c!"\tpub pre: GadriSumtiPre<'arena>,",
   c!"\tpub contents: GadriSumtiContents<'arena>,",
   c!"\tpub ku: Option<Ku<'arena>>,",
   c!"}",
   c!"",
   c!"#[derive(Debug, Parse, TreeNode)]",
   c!"pub enum Gadri<'arena> {",
   c!"\tLe(Le<'arena>),",
   c!"\tLa(La<'arena>),",
   c!"}",
   c!"",
   c!"#[derive(Debug, Parse, TreeNode)]",
   c!"#[tree_node(passthrough_child)]",
   c!"pub enum GadriSumtiPre<'arena> {",
   c!"\t// order is important here",
   c!"\tSimple {",
   c!"\t\tpe_shorthand: Option<&'arena SumtiComponent<'arena>>, // recursion avoided here",
   c!"\t\trelative_clauses: Option<RelativeClauses<'arena>>,",
   c!"\t},",
   c!"\tRelative {",
   c!"\t\trelative_clauses: RelativeClauses<'arena>,",
   c!"\t},"]

/-- `src/parse/cst/rules/mod.rs:841-880` -/
def modRs21 : List (List Char) :=
  [c!"\tFullPre {",
   c!"\t\tpe_shorthand: &'arena Sumti<'arena>,",
   c!"\t},",
   c!"}",
   c!"",
   c!"#[derive(Debug, Parse, TreeNode)]",
   c!"pub enum GadriSumtiContents<'arena> {",
   c!"\tSelbri(",
   c!"\t\tOption<Quantifier<'arena>>,",
   c!"\t\tSelbri<'arena>,",
   c!"\t\tOption<RelativeClauses<'arena>>,",
   c!"\t),",
   c!"\tSumti(Quantifier<'arena>, Sumti<'arena>),",
   c!"}",
   c!"",
   c!"#[derive(Debug, Parse, TreeNode)]",
   c!"pub struct LaSumti<'arena> {",
   c!"\tpub la: La<'arena>,",
   c!"\t#[parse(with = \"many1\")]",
   c!"\tpub inner: &'arena [Cmevla<'arena>],",
   c!"}",
   c!"",
   c!"#[derive(Debug, Parse, TreeNode)]",
   c!"pub struct ZoSumti {",
   c!"\tpub zo: Zo,",
   c!"\tpub quoted: Token,",
   c!"}",
   c!"",
   c!"#[derive(Debug, Parse, TreeNode)]",
   c!"pub struct ZoiSumti {",
   c!"\tpub zoi: Zoi,",
   c!"\tpub starting_delimiter: ZoiDelimiter,",
   c!"\tpub text: ZoiText,",
   c!"\tpub ending_delimiter: ZoiDelimiter,",
   c!"}",
   c!"",
   c!"#[derive(Debug, Parse)]",
   c!"#[repr(transparent)]",
   c!"pub struct ZoiDelimiter(Span);",
   c!""]

/-- `src/parse/cst/rules/mod.rs:881-920` -/
def modRs22 : List (List Char) :=
  [c!"impl TreeNode for ZoiDelimiter {",
   c!"\tfn name(&self) -> &'static str {",
   c!"\t\t\"ZoiDelimiter\"",
   c!"\t}",
   c!"",
   c!"\tfn experimental(&self) -> bool {",
   c!"\t\tfalse",
   c!"\t}",
   c!"",
   c!"\tfn start_location(&self) -> Option<crate::span::Location> {",
   c!"\t\tSome(self.0.start)",
   c!"\t}",
   c!"",
   c!"\tfn end_location(&self) -> Option<crate::span::Location> {",
   c!"\t\tSome(self.0.end)",
   c!"\t}",
   c!"",
   c!"\tfn for_each_child<'a>(&'a self, _: &mut dyn FnMut(&'a dyn TreeNode)) {}",
   c!"}",
   c!"",
   c!"#[derive(Debug, Parse)]",
   c!"pub struct ZoiText(Span);",
   c!"",
   c!"impl TreeNode for ZoiText {",
   c!"\tfn name(&self) -> &'static str {",
   c!"\t\t\"ZoiText\"",
   c!"\t}",
   c!"",
   c!"\tfn experimental(&self) -> bool {",
   c!"\t\tfalse",
   c!"\t}",
   c!"",
   c!"\tfn start_location(&self) -> Option<crate::span::Location> {",
   c!"\t\tSome(self.0.start)",
   c!"\t}",
   c!"",
   c!"\tfn end_location(&self) -> Option<crate::span::Location> {",
   c!"\t\tSome(self.0.end)",
   c!"\t}",
   c!""]

/-- `src/parse/cst/rules/mod.rs:921-960` -/
def modRs23 : List (List Char) :=
  [c!"\tfn for_each_child<'a>(&'a self, _: &mut dyn FnMut(&'a dyn TreeNode)) {}",
   c!"}",
   c!"",
   c!"#[derive(Debug, Parse, TreeNode)]",
   c!"pub enum Free<'arena> {",
   c!"\tSei(",
   c!"\t\tWithFree<'arena, Sei<'arena>>,",
   c!"\t\tArgs<'arena>,",
   c!"\t\tOption<SeiTail<'arena>>,",
   c!"\t\tOption<WithFree<'arena, Sehu<'arena>>>,",
   c!"\t),",
   c!"\tSoi(",
   c!"\t\tWithFree<'arena, Soi<'arena>>,",
   c!"\t\t&'arena (Sumti<'arena>, Option<Sumti<'arena>>),",
   c!"\t\tOption<Sehu<'arena>>,",
   c!"\t),",
   c!"\tVocative(Vocative<'arena>),",
   c!"\tMai(MiscNumbers<'arena>, Mai<'arena>),",
   c!"\tTo(To<'arena>, Text<'arena>, Option<Toi<'arena>>),",
   c!"\tXi(Subscript<'arena>),",
   c!"}",
   c!"",
   c!"#[derive(Debug, Parse, TreeNode)]",
   c!"pub struct Vocative<'arena>(",
   c!"\tpub VocativeWords<'arena>,",
   c!"\tpub Option<RelativeClauses<'arena>>,",
   c!"\tpub VocativeValue<'arena>,",
   c!"\tpub Option<RelativeClauses<'arena>>,",
   c!"\tpub Option<Dohu<'arena>>,",
   c!");",
   c!"",
   c!"#[derive(Debug, Parse, TreeNode)]",
   c!"pub struct SeiTail<'arena>(",
   c!"\tpub Option<Cu<'arena>>,",
   c!"\tpub Frees<'arena>,",
   c!"\tpub Selbri<'arena>,",
   c!");",
   c!"",
   c!"#[derive(Debug, Parse, TreeNode)]",
   c!"pub enum VocativeWords<'arena> {"]

/-- `src/parse/cst/rules/mod.rs:961-1000` -/
def modRs24 : List (List Char) :=
  [c!"\tCoi(",
   c!"\t\t#[parse(with = \"many1\")] &'arena [(Coi<'arena>, Option<Nai<'arena>>)],",
   c!"\t\tOption<Doi<'arena>>,",
   c!"\t),",
   c!"\tDoi(Doi<'arena>),",
   c!"}",
   c!"",
   c!"#[derive(Debug, Parse, TreeNode)]",
   c!"pub enum VocativeValue<'arena> {",
   c!"\tSelbri(&'arena Selbri<'arena>),",
   c!"\tCmevla(#[parse(with = \"many1\")] &'arena [Cmevla<'arena>]),",
   c!"\tSumti(Option<&'arena Sumti<'arena>>),",
   c!"}",
   c!"",
   c!"#[derive(Debug, Parse, TreeNode)]",
   c!"pub struct Subscript<'arena>(",
   c!"\tpub WithFree<'arena, Xi<'arena>>,",
   c!"\tpub WithFree<'arena, SubscriptValue<'arena>>,",
   c!");",
   c!"",
   c!"#[derive(Debug, Parse, TreeNode)] // similar to part of `mekso::Operand3`",
   c!"pub enum SubscriptValue<'arena> {",
   c!"\tMekso(",
   c!"\t\tWithFree<'arena, Vei<'arena>>,",
   c!"\t\tMekso<'arena>,",
   c!"\t\tOption<Veho<'arena>>,",
   c!"\t\tFrees<'arena>,",
   c!"\t),",
   c!"\tNumber(",
   c!"\t\tMiscNumbers<'arena>,",
   c!"\t\t#[parse(not = \"Moi<'_>\")] Option<Boi<'arena>>,",
   c!"\t\tFrees<'arena>,",
   c!"\t),",
   c!"}",
   c!"",
   c!"#[derive(Debug, Parse, TreeNode)]",
   c!"pub struct Indicators<'arena>(",
   c!"\tpub Option<Fuhe<'arena>>,",
   c!"\t#[parse(with = \"many1\")] pub &'arena [Indicator<'arena>],",
   c!");"]

/-- `src/parse/cst/rules/mod.rs:1001-1011` -/
def modRs25 : List (List Char) :=
  [c!"",
   c!"#[derive(Debug, Parse, TreeNode)]",
   c!"#[parse(not_after = \"Bu\")]",
   c!"pub enum Indicator<'arena> {",
   c!"\tUi(Ui<'arena>),",
   c!"\tCai(Cai<'arena>),",
   c!"\tNai(Nai<'arena>),",
   c!"\tDaho(Daho<'arena>),",
   c!"\tFuho(Fuho<'arena>),",
   c!"\tY(Y<'arena>),",
   c!"}"]

/-- `src/parse/cst/rules/mod.rs` -/
def modRs : List (List (List Char)) :=
  [modRs0, modRs1, modRs2, modRs3, modRs4, modRs5, modRs6, modRs7, modRs8, modRs9, modRs10, modRs11, modRs12, modRs13, modRs14, modRs15, modRs16, modRs17, modRs18, modRs19, modRs20, modRs21, modRs22, modRs23, modRs24, modRs25]

/-- `src/parse/cst/rules/helpers.rs:1-40` -/
def helpersRs0 : List (List Char) :=
  [c!"use bumpalo::Bump as Arena;",
   c!"use macros::{Parse, TreeNode};",
   c!"",
   c!"use crate::lex::Token;",
   c!"use crate::parse::cst::error::WithLocation;",
   c!"use crate::parse::tree_node::{TreeNode, TreeNodeChild};",
   c!"",
   c!"pub(super) fn many0<'a, 'arena, T: 'arena>(",
   c!"\tparser: impl nom::Parser<&'a [Token], T, WithLocation<'a>>,",
   c!"\tarena: &'arena Arena,",
   c!") -> impl nom::Parser<&'a [Token], &'arena [T], WithLocation<'a>> {",
   c!"\tnom::combinator::map(nom::multi::many0(parser), |parsed| {",
   c!"\t\t&*arena.alloc_slice_fill_iter(parsed.into_iter())",
   c!"\t})",
   c!"}",
   c!"",
   c!"pub(super) fn many1<'a, 'arena, T: 'arena>(",
   c!"\tparser: impl nom::Parser<&'a [Token], T, WithLocation<'a>>,",
   c!"\tarena: &'arena Arena,",
   c!") -> impl nom::Parser<&'a [Token], &'arena [T], WithLocation<'a>> {",
   c!"\tnom::combinator::map(nom::multi::many1(parser), |parsed| {",
   c!"\t\t&*arena.alloc_slice_fill_iter(parsed.into_iter())",
   c!"\t})",
   c!"}",
   c!"",
   c!"pub(super) struct PassArena<'arena, T>(&'arena Arena, std::marker::PhantomData<fn() -> T>);",
   c!"",
   c!"impl<'arena, T> PassArena<'arena, T> {",
   c!"\tpub(super) fn new(arena: &'arena Arena) -> Self {",
   c!"\t\tSelf(arena, std::marker::PhantomData)",
   c!"\t}",
   c!"}",
   c!"",
   c!"impl<'a: 'arena, 'arena, T: super::super::parse_trait::Parse<'arena>>",
   c!"\tnom::Parser<&'a [Token], T, WithLocation<'a>> for PassArena<'arena, T>",
   c!"{",
   c!"\tfn parse(&mut self, input: &'a [Token]) -> super::ParseResult<'a, T> {",
   c!"\t\tT::parse(input, self.0)",
   c!"\t}",
   c!"}"]

/-- `src/parse/cst/rules/helpers.rs:41-80` -/
def helpersRs1 : List (List Char) :=
  [c!"",
   c!"#[derive(Parse)]",
   c!"pub struct Separated<'arena, Item, Separator> {",
   c!"\tpub first: &'arena Item,",
   c!"\t#[parse(with = \"many0\")]",
   c!"\tpub rest: &'arena [(Separator, Item)],",
   c!"}",
   c!"",
   c!"impl<Item: TreeNodeChild, Separator: TreeNodeChild> TreeNode for Separated<'_, Item, Separator> {",
   c!"\tfn name(&self) -> &'static str {",
   c!"\t\t\"Separated\"",
   c!"\t}",
   c!"",
   c!"\tfn experimental(&self) -> bool {",
   c!"\t\tself.first.experimental()",
   c!"\t\t\t|| self",
   c!"\t\t\t\t.rest",
   c!"\t\t\t\t.iter()",
   c!"\t\t\t\t.any(|(separator, item)| separator.experimental() || item.experimental())",
   c!"\t}",
   c!"",
   c!"\tfn start_location(&self) -> Option<crate::span::Location> {",
   c!"\t\tself.first.start_location().or_else(|| {",
   c!"\t\t\tself",
   c!"\t\t\t\t.rest",
   c!"\t\t\t\t.iter()",
   c!"\t\t\t\t.find_map(|(separator, item)| separator.start_location().or_else(|| item.start_location()))",
   c!"\t\t})",
   c!"\t}",
   c!"",
   c!"\tfn end_location(&self) -> Option<crate::span::Location> {",
   c!"\t\tself",
   c!"\t\t\t.rest",
   c!"\t\t\t.iter()",
   c!"\t\t\t.rev()",
   c!"\t\t\t.find_map(|(separator, item)| item.end_location().or_else(|| separator.end_location()))",
   c!"\t\t\t.or_else(|| self.first.end_location())",
   c!"\t}",
   c!"",
   c!"\tfn for_each_child<'a>(&'a self, f: &mut dyn FnMut(&'a dyn TreeNode)) {"]

/-- `src/parse/cst/rules/helpers.rs:81-112` -/
def helpersRs2 : List (List Char) :=
  [c!"\t\tself.first.invoke_with_self(f);",
   c!"\t\tfor (separator, item) in self.rest.iter() {",
   c!"\t\t\tseparator.invoke_with_self(f);",
   c!"\t\t\titem.invoke_with_self(f);",
   c!"\t\t}",
   c!"\t}",
   c!"}",
   c!"",
   c!"// print as a single list with the separators interleaved. obviously this would not be valid rust, but it cuts down indentation.",
   c!"impl<Item: std::fmt::Debug, Separator: std::fmt::Debug> std::fmt::Debug",
   c!"\tfor Separated<'_, Item, Separator>",
   c!"{",
   c!"\tfn fmt(&self, formatter: &mut std::fmt::Formatter<'_>) -> std::fmt::Result {",
   c!"\t\tformatter.write_str(\"Separated \")?;",
   c!"\t\tlet mut list = formatter.debug_list();",
   c!"\t\tlist.entry(&self.first);",
   c!"\t\tfor (separator, item) in self.rest.iter() {",
   c!"\t\t\tlist.entry(separator);",
   c!"\t\t\tlist.entry(item);",
   c!"\t\t}",
   c!"\t\tlist.finish()?;",
   c!"\t\tOk(())",
   c!"\t}",
   c!"}",
   c!"",
   c!"#[derive(Debug, Parse, TreeNode)]",
   c!"#[tree_node(passthrough_child)]",
   c!"pub enum EitherOrBoth<L, R> {",
   c!"\tRight(R),",
   c!"\tBoth(L, R),",
   c!"\tLeft(L),",
   c!"}"]

/-- `src/parse/cst/rules/helpers.rs` -/
def helpersRs : List (List (List Char)) :=
  [helpersRs0, helpersRs1, helpersRs2]

/-- `src/parse/cst/rules/connectives.rs:1-40` -/
def connectivesRs0 : List (List Char) :=
  [c!"use macros::TreeNode;",
   c!"",
   c!"use super::{Bihi, Frees, Ga, Gaho, Gi, Giha, Guha, Ja, Joi, Na, Nai, Parse, Se, TagWords, A};",
   c!"",
   c!"#[derive(Debug, Parse, TreeNode)]",
   c!"pub struct NaSeTNai<'arena, T>(",
   c!"\tpub Option<Na<'arena>>,",
   c!"\tpub Option<Se<'arena>>,",
   c!"\tpub T,",
   c!"\tpub Option<Nai<'arena>>,",
   c!");",
   c!"",
   c!"macro_rules! _ks {",
   c!"\t($($name:ident($inner:ident)),* $(,)?) => {",
   c!"\t\t$(",
   c!"\t\t\t#[derive(Debug, Parse, TreeNode)]",
   c!"\t\t\t#[repr(transparent)]",
   c!"\t\t\tpub struct $name<'arena>(NaSeTNai<'arena, $inner<'arena>>);",
   c!"\t\t)*",
   c!"\t}",
   c!"}",
   c!"",
   c!"_ks![Ek(A), Jek(Ja), Gihek(Giha)];",
   c!"",
   c!"#[derive(Debug, Parse, TreeNode)]",
   c!"pub struct Guhek<'arena>(",
   c!"\tpub Option<Se<'arena>>,",
   c!"\tpub Guha<'arena>,",
   c!"\tpub Option<Nai<'arena>>,",
   c!"\tpub Frees<'arena>,",
   c!");",
   c!"",
   c!"#[derive(Debug, Parse, TreeNode)]",
   c!"pub struct Interval<'arena>(",
   c!"\tpub Option<Se<'arena>>,",
   c!"\tpub Bihi<'arena>,",
   c!"\tpub Option<Nai<'arena>>,",
   c!");",
   c!"",
   c!"#[derive(Debug, Parse, TreeNode)]"]

/-- `src/parse/cst/rules/connectives.rs:41-72` -/
def connectivesRs1 : List (List Char) :=
  [c!"pub enum Joik<'arena> {",
   c!"\tSeJoiNai(Option<Se<'arena>>, Joi<'arena>, Option<Nai<'arena>>),",
   c!"\tInterval(Interval<'arena>),",
   c!"\tGaho(Gaho<'arena>, Interval<'arena>, #[cut] Gaho<'arena>),",
   c!"}",
   c!"",
   c!"#[derive(Debug, Parse, TreeNode)]",
   c!"pub struct Gik<'arena>(Gi<'arena>, Option<Nai<'arena>>, Frees<'arena>);",
   c!"",
   c!"#[derive(Debug, Parse, TreeNode)]",
   c!"pub enum Gek<'arena> {",
   c!"\tSeGaNai(",
   c!"\t\tOption<Se<'arena>>,",
   c!"\t\tGa<'arena>,",
   c!"\t\tOption<Nai<'arena>>,",
   c!"\t\tFrees<'arena>,",
   c!"\t),",
   c!"\tJoikGi(Joik<'arena>, Gi<'arena>, Frees<'arena>),",
   c!"\tTagGik(TagWords<'arena>, Gik<'arena>),",
   c!"}",
   c!"",
   c!"#[derive(Debug, Parse, TreeNode)]",
   c!"pub enum JoikJek<'arena> {",
   c!"\tJoik(Joik<'arena>),",
   c!"\tJek(Jek<'arena>),",
   c!"}",
   c!"",
   c!"#[derive(Debug, Parse, TreeNode)]",
   c!"pub enum JoikEk<'arena> {",
   c!"\tJoik(Joik<'arena>, Frees<'arena>),",
   c!"\tEk(Ek<'arena>, Frees<'arena>),",
   c!"}"]

/-- `src/parse/cst/rules/connectives.rs` -/
def connectivesRs : List (List (List Char)) :=
  [connectivesRs0, connectivesRs1]

/-- `src/parse/cst/rules/mekso.rs:1-40` -/
def meksoRs0 : List (List Char) :=
  [c!"use macros::TreeNode;",
   c!"",
   c!"use super::helpers::{many0, many1};",
   c!"use super::{",
   c!"\tBihe, Bo, Boi, Frees, Fuha, Gek, Gik, Johi, JoikEk, JoikJek, Ke, Kehe, Kuhe, Luhu, Maho,",
   c!"\tMiscNumbers, Mohe, Moi, Nahe, NaheGuhekTGik, Nahu, Nihe, Parse, Peho, Se, Selbri,",
   c!"\tSelbriLikeConnectedPost, Separated, Sumti, SumtiLikeConnectedPost, SumtiModifier, TagWords, Tehu,",
   c!"\tVeho, Vei, Vuhu, WithFree,",
   c!"};",
   c!"",
   c!"#[derive(Debug, Parse, TreeNode)]",
   c!"pub enum Expression<'arena> {",
   c!"\tReversePolish(WithFree<'arena, Fuha<'arena>>, ReversePolish<'arena>),",
   c!"\tNormal(",
   c!"\t\tSeparated<",
   c!"\t\t\t'arena,",
   c!"\t\t\tSeparated<'arena, Expression1<'arena>, (WithFree<'arena, Bihe<'arena>>, Operator<'arena>)>,",
   c!"\t\t\tOperator<'arena>,",
   c!"\t\t>,",
   c!"\t),",
   c!"}",
   c!"",
   c!"// this representation is quite clunky and does not match the semantic hierarchy of the RP expression, but that's a problem for the AST.",
   c!"#[derive(Debug, Parse, TreeNode)]",
   c!"pub struct ReversePolish<'arena>(",
   c!"\tpub Operand<'arena>,",
   c!"\t#[parse(with = \"many0\")] pub &'arena [RPTail<'arena>],",
   c!");",
   c!"",
   c!"#[derive(Debug, Parse, TreeNode)]",
   c!"pub struct RPTail<'arena>(pub ReversePolish<'arena>, pub Operator<'arena>);",
   c!"",
   c!"#[derive(Debug, Parse, TreeNode)]",
   c!"pub enum Expression1<'arena> {",
   c!"\tOperand(Operand<'arena>),",
   c!"\tForethought(ForethoughtExpression<'arena>),",
   c!"}",
   c!"",
   c!"#[derive(Debug, Parse, TreeNode)]",
   c!"pub struct ForethoughtExpression<'arena> {"]

/-- `src/parse/cst/rules/mekso.rs:41-80` -/
def meksoRs1 : List (List Char) :=
  [c!"\tpub peho: Option<WithFree<'arena, Peho<'arena>>>,",
   c!"\tpub operator: Operator<'arena>,",
   c!"\t#[parse(with = \"many1\")]",
   c!"\tpub operands: &'arena [Expression1<'arena>],",
   c!"\tpub kuhe: Option<Kuhe<'arena>>,",
   c!"\tpub frees: Frees<'arena>,",
   c!"}",
   c!"",
   c!"#[derive(Debug, Parse, TreeNode)]",
   c!"pub struct Operand<'arena>(",
   c!"\tpub Operand1<'arena>,",
   c!"\t#[parse(with = \"many0\")] pub &'arena [ConnectedOperand<'arena>],",
   c!");",
   c!"",
   c!"pub type ConnectedOperand<'arena> =",
   c!"\tSumtiLikeConnectedPost<'arena, Operand1<'arena>, Operand<'arena>>;",
   c!"",
   c!"#[derive(Debug, Parse, TreeNode)]",
   c!"pub struct Operand1<'arena>(",
   c!"\tpub  Separated<",
   c!"\t\t'arena,",
   c!"\t\tOperand2<'arena>,",
   c!"\t\t(",
   c!"\t\t\tJoikEk<'arena>,",
   c!"\t\t\tOption<TagWords<'arena>>,",
   c!"\t\t\tWithFree<'arena, Bo<'arena>>,",
   c!"\t\t),",
   c!"\t>,",
   c!");",
   c!"",
   c!"#[derive(Debug, Parse, TreeNode)]",
   c!"pub struct Operand2<'arena>(",
   c!"\t#[parse(with = \"many0\")] pub &'arena [Operand2ConnectedPre<'arena>],",
   c!"\tpub Operand3<'arena>,",
   c!");",
   c!"",
   c!"#[derive(Debug, Parse, TreeNode)]",
   c!"pub struct Operand2ConnectedPre<'arena>(pub Gek<'arena>, pub Operand<'arena>, pub Gik<'arena>);",
   c!"",
   c!"#[derive(Debug, Parse, TreeNode)]"]

/-- `src/parse/cst/rules/mekso.rs:81-120` -/
def meksoRs2 : List (List Char) :=
  [c!"pub enum Operand3<'arena> {",
   c!"\tNihe(",
   c!"\t\tWithFree<'arena, Nihe<'arena>>,",
   c!"\t\tSelbri<'arena>,",
   c!"\t\tOption<Tehu<'arena>>,",
   c!"\t\tFrees<'arena>,",
   c!"\t),",
   c!"\tMohe(",
   c!"\t\tWithFree<'arena, Mohe<'arena>>,",
   c!"\t\tSumti<'arena>,",
   c!"\t\tOption<Tehu<'arena>>,",
   c!"\t\tFrees<'arena>,",
   c!"\t),",
   c!"\tJohi(",
   c!"\t\tWithFree<'arena, Johi<'arena>>,",
   c!"\t\t#[parse(with = \"many1\")] &'arena [Expression1<'arena>],",
   c!"\t\tOption<Tehu<'arena>>,",
   c!"\t\tFrees<'arena>,",
   c!"\t),",
   c!"\tModified(",
   c!"\t\tOperandModifier<'arena>,",
   c!"\t\tOperand<'arena>,",
   c!"\t\tOption<Luhu<'arena>>,",
   c!"\t),",
   c!"\tParenthesized(",
   c!"\t\tWithFree<'arena, Vei<'arena>>,",
   c!"\t\tExpression<'arena>,",
   c!"\t\tOption<Veho<'arena>>,",
   c!"\t\tFrees<'arena>,",
   c!"\t),",
   c!"\tNumber(",
   c!"\t\tMiscNumbers<'arena>,",
   c!"\t\t#[parse(not = \"Moi<'_>\")] Option<Boi<'arena>>,",
   c!"\t\tFrees<'arena>,",
   c!"\t),",
   c!"}",
   c!"",
   c!"pub type OperandModifier<'arena> = SumtiModifier<'arena>;",
   c!"",
   c!"#[derive(Debug, Parse, TreeNode)]"]

/-- `src/parse/cst/rules/mekso.rs:121-160` -/
def meksoRs3 : List (List Char) :=
  [c!"pub struct Operator<'arena>(",
   c!"\tpub Operator1<'arena>,",
   c!"\t#[parse(with = \"many0\")] pub &'arena [ConnectedOperator<'arena>],",
   c!");",
   c!"",
   c!"pub type ConnectedOperator<'arena> =",
   c!"\tSelbriLikeConnectedPost<'arena, Operator1<'arena>, Operator<'arena>>;",
   c!"",
   c!"#[derive(Debug, Parse, TreeNode)]",
   c!"pub struct Operator1<'arena>(",
   c!"\t#[parse(with = \"many0\")] pub &'arena [NaheGuhekTGik<'arena, Self>],",
   c!"\tpub Operator2<'arena>,",
   c!");",
   c!"",
   c!"#[derive(Debug, Parse, TreeNode)]",
   c!"pub struct Operator2<'arena>(",
   c!"\tpub  Separated<",
   c!"\t\t'arena,",
   c!"\t\tOperator3<'arena>,",
   c!"\t\t(",
   c!"\t\t\tJoikJek<'arena>,",
   c!"\t\t\tOption<TagWords<'arena>>,",
   c!"\t\t\tWithFree<'arena, Bo<'arena>>,",
   c!"\t\t),",
   c!"\t>,",
   c!");",
   c!"",
   c!"#[derive(Debug, Parse, TreeNode)]",
   c!"pub enum Operator3<'arena> {",
   c!"\tSimple(OperatorComponent<'arena>),",
   c!"\tGrouped(",
   c!"\t\tWithFree<'arena, Ke<'arena>>,",
   c!"\t\tOperator<'arena>,",
   c!"\t\tKehe<'arena>,",
   c!"\t\tFrees<'arena>,",
   c!"\t),",
   c!"}",
   c!"",
   c!"#[derive(Debug, Parse, TreeNode)]",
   c!"pub struct OperatorComponent<'arena>("]

/-- `src/parse/cst/rules/mekso.rs:161-186` -/
def meksoRs4 : List (List Char) :=
  [c!"\t#[parse(with = \"many0\")] &'arena [OperatorComponentPre<'arena>],",
   c!"\tOperatorComponent1<'arena>,",
   c!");",
   c!"",
   c!"#[derive(Debug, Parse, TreeNode)]",
   c!"pub enum OperatorComponentPre<'arena> {",
   c!"\tNahe(WithFree<'arena, Nahe<'arena>>),",
   c!"\tSe(WithFree<'arena, Se<'arena>>),",
   c!"}",
   c!"",
   c!"#[derive(Debug, Parse, TreeNode)]",
   c!"pub enum OperatorComponent1<'arena> {",
   c!"\tMaho(",
   c!"\t\tWithFree<'arena, Maho<'arena>>,",
   c!"\t\tExpression<'arena>,",
   c!"\t\tOption<Tehu<'arena>>,",
   c!"\t\tFrees<'arena>,",
   c!"\t),",
   c!"\tNahu(",
   c!"\t\tWithFree<'arena, Nahu<'arena>>,",
   c!"\t\tSelbri<'arena>,",
   c!"\t\tOption<Tehu<'arena>>,",
   c!"\t\tFrees<'arena>,",
   c!"\t),",
   c!"\tVuhu(WithFree<'arena, Vuhu<'arena>>),",
   c!"}"]

/-- `src/parse/cst/rules/mekso.rs` -/
def meksoRs : List (List (List Char)) :=
  [meksoRs0, meksoRs1, meksoRs2, meksoRs3, meksoRs4]

/-- `src/parse/cst/rules/selmaho.rs:1-40` -/
def selmahoRs0 : List (List Char) :=
  [c!"use bumpalo::Bump as Arena;",
   c!"use macros::TreeNode;",
   c!"",
   c!"use super::helpers::{many0, PassArena};",
   c!"use super::Indicators;",
   c!"use crate::lex::{Selmaho, Token};",
   c!"use crate::parse::cst::error::{Error, WithLocation};",
   c!"use crate::parse::cst::parse_trait::{Parse, Result as ParseResult};",
   c!"use crate::parse::tree_node::TreeNode;",
   c!"use crate::span::{Location, Span};",
   c!"",
   c!"pub(in crate::parse::cst::rules) trait SelmahoTypeRaw:",
   c!"\tTryFrom<Token, Error = Error> + TryFrom<Option<Token>, Error = Error>",
   c!"{",
   c!"}",
   c!"",
   c!"pub(in crate::parse::cst::rules) fn selmaho_raw<T: SelmahoTypeRaw>(",
   c!"\tinput: &[Token],",
   c!") -> ParseResult<'_, T> {",
   c!"\tlet mut input = input.iter();",
   c!"\tT::try_from(input.next().copied())",
   c!"\t\t.map(|matched| (input.as_slice(), matched))",
   c!"\t\t.map_err(|error| {",
   c!"\t\t\tnom::Err::Error(WithLocation {",
   c!"\t\t\t\tlocation: input.as_slice(),",
   c!"\t\t\t\terror,",
   c!"\t\t\t})",
   c!"\t\t})",
   c!"}",
   c!"",
   c!"macro_rules! token_types {",
   c!"\t(@inner $name:ident) => {paste::paste!{",
   c!"\t\t#[derive(Debug)]",
   c!"\t\tpub struct [<$name Inner>] {",
   c!"\t\t\tpub experimental: bool,",
   c!"\t\t\tpub span: Span,",
   c!"\t\t}",
   c!"",
   c!"\t\timpl TreeNode for [<$name Inner>] {",
   c!"\t\t\tfn name(&self) -> &'static str {"]

/-- `src/parse/cst/rules/selmaho.rs:41-80` -/
def selmahoRs1 : List (List Char) :=
  [c!"\t\t\t\tSelmaho::$name.as_repr()",
   c!"\t\t\t}",
   c!"",
   c!"\t\t\tfn experimental(&self) -> bool {",
   c!"\t\t\t\tself.experimental",
   c!"\t\t\t}",
   c!"",
   c!"\t\t\tfn start_location(&self) -> Option<Location> {",
   c!"\t\t\t\tSome(self.span.start)",
   c!"\t\t\t}",
   c!"",
   c!"\t\t\tfn end_location(&self) -> Option<Location> {",
   c!"\t\t\t\tSome(self.span.end)",
   c!"\t\t\t}",
   c!"",
   c!"\t\t\tfn for_each_child<'a>(&'a self, _: &mut dyn FnMut(&'a dyn TreeNode)) {}",
   c!"\t\t}",
   c!"\t}};",
   c!"\t(@raw $name:ident) => {",
   c!"\t\t#[derive(Debug)]",
   c!"\t\tpub struct $name {",
   c!"\t\t\tpub experimental: bool,",
   c!"\t\t\tpub span: Span,",
   c!"\t\t}",
   c!"",
   c!"\t\timpl TryFrom<Token> for $name {",
   c!"\t\t\ttype Error = Error;",
   c!"",
   c!"\t\t\tfn try_from(token: Token) -> Result<Self, Error> {",
   c!"\t\t\t\tif token.selmaho == Selmaho::$name {",
   c!"\t\t\t\t\tOk(Self {",
   c!"\t\t\t\t\t\texperimental: token.experimental,",
   c!"\t\t\t\t\t\tspan: token.span,",
   c!"\t\t\t\t\t})",
   c!"\t\t\t\t} else {",
   c!"\t\t\t\t\tErr(Error::ExpectedGot {",
   c!"\t\t\t\t\t\texpected: (&[Selmaho::$name] as &[Selmaho]).into(),",
   c!"\t\t\t\t\t\tgot: Some(token),",
   c!"\t\t\t\t\t})",
   c!"\t\t\t\t}"]

/-- `src/parse/cst/rules/selmaho.rs:81-120` -/
def selmahoRs2 : List (List Char) :=
  [c!"\t\t\t}",
   c!"\t\t}",
   c!"",
   c!"\t\timpl TryFrom<Option<Token>> for $name {",
   c!"\t\t\ttype Error = Error;",
   c!"",
   c!"\t\t\tfn try_from(token: Option<Token>) -> Result<Self, Error> {",
   c!"\t\t\t\ttoken",
   c!"\t\t\t\t\t.ok_or(Error::ExpectedGot {",
   c!"\t\t\t\t\t\texpected: (&[Selmaho::$name] as &[Selmaho]).into(),",
   c!"\t\t\t\t\t\tgot: None,",
   c!"\t\t\t\t\t})",
   c!"\t\t\t\t\t.and_then(Self::try_from)",
   c!"\t\t\t}",
   c!"\t\t}",
   c!"",
   c!"\t\timpl SelmahoTypeRaw for $name {}",
   c!"",
   c!"\t\timpl<'arena> Parse<'arena> for $name {",
   c!"\t\t\tfn parse<'a: 'arena>(input: &'a [Token], arena: &Arena) -> ParseResult<'a, Self> {",
   c!"\t\t\t\tlet (input, value) = selmaho_raw::<$name>(input)?;",
   c!"\t\t\t\tlet (_, ()) = nom::combinator::not(|input| Bu::parse(input, arena))(input)?;",
   c!"\t\t\t\tlet (_, ()) = nom::combinator::not(|input| Zei::parse(input, arena))(input)?;",
   c!"\t\t\t\tOk((input, value))",
   c!"\t\t\t}",
   c!"\t\t}",
   c!"",
   c!"\t\timpl TreeNode for $name {",
   c!"\t\t\tfn name(&self) -> &'static str {",
   c!"\t\t\t\tSelmaho::$name.as_repr()",
   c!"\t\t\t}",
   c!"",
   c!"\t\t\tfn experimental(&self) -> bool {",
   c!"\t\t\t\tself.experimental",
   c!"\t\t\t}",
   c!"",
   c!"\t\t\tfn start_location(&self) -> Option<Location> {",
   c!"\t\t\t\tSome(self.span.start)",
   c!"\t\t\t}",
   c!""]

/-- `src/parse/cst/rules/selmaho.rs:121-160` -/
def selmahoRs3 : List (List Char) :=
  [c!"\t\t\tfn end_location(&self) -> Option<Location> {",
   c!"\t\t\t\tSome(self.span.end)",
   c!"\t\t\t}",
   c!"",
   c!"\t\t\tfn for_each_child<'a>(&'a self, _: &mut dyn FnMut(&'a dyn TreeNode)) {}",
   c!"\t\t}",
   c!"\t};",
   c!"\t(@no_indicators $name:ident) => {paste::paste!{",
   c!"\t\ttoken_types!(@inner $name);",
   c!"",
   c!"\t\t#[derive(Debug, TreeNode)]",
   c!"\t\tpub struct $name<'arena> {",
   c!"\t\t\tpub bahe: &'arena [Bahe],",
   c!"\t\t\tpub inner: [<$name Inner>],",
   c!"\t\t}",
   c!"",
   c!"\t\timpl TryFrom<Token> for $name<'_> {",
   c!"\t\t\ttype Error = Error;",
   c!"",
   c!"\t\t\tfn try_from(token: Token) -> Result<Self, Error> {",
   c!"\t\t\t\tif token.selmaho == Selmaho::$name {",
   c!"\t\t\t\t\tOk(Self {",
   c!"\t\t\t\t\t\tbahe: &[],",
   c!"\t\t\t\t\t\tinner: [<$name Inner>] {",
   c!"\t\t\t\t\t\t\texperimental: token.experimental,",
   c!"\t\t\t\t\t\t\tspan: token.span,",
   c!"\t\t\t\t\t\t},",
   c!"\t\t\t\t\t})",
   c!"\t\t\t\t} else {",
   c!"\t\t\t\t\tErr(Error::ExpectedGot {",
   c!"\t\t\t\t\t\texpected: (&[Selmaho::$name] as &[Selmaho]).into(),",
   c!"\t\t\t\t\t\tgot: Some(token),",
   c!"\t\t\t\t\t})",
   c!"\t\t\t\t}",
   c!"\t\t\t}",
   c!"\t\t}",
   c!"",
   c!"\t\timpl TryFrom<Option<Token>> for $name<'_> {",
   c!"\t\t\ttype Error = Error;",
   c!""]

/-- `src/parse/cst/rules/selmaho.rs:161-200` -/
def selmahoRs4 : List (List Char) :=
  [c!"\t\t\tfn try_from(token: Option<Token>) -> Result<Self, Error> {",
   c!"\t\t\t\ttoken.ok_or(Error::ExpectedGot { expected: (&[Selmaho::$name] as &[Selmaho]).into(), got: None }).and_then(Self::try_from)",
   c!"\t\t\t}",
   c!"\t\t}",
   c!"",
   c!"\t\timpl SelmahoTypeRaw for $name<'_> {}",
   c!"",
   c!"\t\timpl<'arena> Parse<'arena> for $name<'arena> {",
   c!"\t\t\tfn parse<'a: 'arena>(input: &'a [Token], arena: &'arena Arena) -> ParseResult<'a, Self> {",
   c!"\t\t\t\tlet (input, bahe) = nom::Parser::parse(&mut many0(PassArena::<Bahe>::new(arena), arena), input)?;",
   c!"\t\t\t\tlet (input, mut matched) = selmaho_raw::<Self>(input)?;",
   c!"\t\t\t\tlet (_, ()) = nom::combinator::not(|input| Bu::parse(input, arena))(input)?;",
   c!"\t\t\t\tlet (_, ()) = nom::combinator::not(|input| Zei::parse(input, arena))(input)?;",
   c!"\t\t\t\tmatched.bahe = bahe;",
   c!"\t\t\t\tOk((input, matched))",
   c!"\t\t\t}",
   c!"\t\t}",
   c!"\t}};",
   c!"\t(@single $name:ident) => {paste::paste!{",
   c!"\t\ttoken_types!(@inner $name);",
   c!"",
   c!"\t\t#[derive(Debug, TreeNode)]",
   c!"\t\tpub struct $name<'arena> {",
   c!"\t\t\tpub bahe: &'arena [Bahe],",
   c!"\t\t\tpub inner: [<$name Inner>],",
   c!"\t\t\tpub indicators: Option<&'arena Indicators<'arena>>,",
   c!"\t\t}",
   c!"",
   c!"\t\timpl TryFrom<Token> for $name<'_> {",
   c!"\t\t\ttype Error = Error;",
   c!"",
   c!"\t\t\tfn try_from(token: Token) -> Result<Self, Error> {",
   c!"\t\t\t\tif token.selmaho == Selmaho::$name {",
   c!"\t\t\t\t\tOk(Self {",
   c!"\t\t\t\t\t\tbahe: &[],",
   c!"\t\t\t\t\t\tinner: [<$name Inner>] {",
   c!"\t\t\t\t\t\t\texperimental: token.experimental,",
   c!"\t\t\t\t\t\t\tspan: token.span,",
   c!"\t\t\t\t\t\t},",
   c!"\t\t\t\t\t\tindicators: None,"]

/-- `src/parse/cst/rules/selmaho.rs:201-240` -/
def selmahoRs5 : List (List Char) :=
  [c!"\t\t\t\t\t})",
   c!"\t\t\t\t} else {",
   c!"\t\t\t\t\tErr(Error::ExpectedGot {",
   c!"\t\t\t\t\t\texpected: (&[Selmaho::$name] as &[Selmaho]).into(),",
   c!"\t\t\t\t\t\tgot: Some(token),",
   c!"\t\t\t\t\t})",
   c!"\t\t\t\t}",
   c!"\t\t\t}",
   c!"\t\t}",
   c!"",
   c!"\t\timpl TryFrom<Option<Token>> for $name<'_> {",
   c!"\t\t\ttype Error = Error;",
   c!"",
   c!"\t\t\tfn try_from(token: Option<Token>) -> Result<Self, Error> {",
   c!"\t\t\t\ttoken.ok_or(Error::ExpectedGot { expected: (&[Selmaho::$name] as &[Selmaho]).into(), got: None }).and_then(Self::try_from)",
   c!"\t\t\t}",
   c!"\t\t}",
   c!"",
   c!"\t\timpl SelmahoTypeRaw for $name<'_> {}",
   c!"",
   c!"\t\timpl<'arena> Parse<'arena> for $name<'arena> {",
   c!"\t\t\tfn parse<'a: 'arena>(input: &'a [Token], arena: &'arena Arena) -> ParseResult<'a, Self> {",
   c!"\t\t\t\tlet (input, bahe) = nom::Parser::parse(&mut many0(PassArena::<Bahe>::new(arena), arena), input)?;",
   c!"\t\t\t\tlet (input, mut matched) = selmaho_raw::<Self>(input)?;",
   c!"\t\t\t\tlet (input, indicators) = <Option<&'arena Indicators<'arena>>>::parse(input, arena)?;",
   c!"\t\t\t\tlet (_, ()) = nom::combinator::not(|input| Bu::parse(input, arena))(input)?;",
   c!"\t\t\t\tlet (_, ()) = nom::combinator::not(|input| Zei::parse(input, arena))(input)?;",
   c!"\t\t\t\tmatched.bahe = bahe;",
   c!"\t\t\t\tmatched.indicators = indicators;",
   c!"\t\t\t\tOk((input, matched))",
   c!"\t\t\t}",
   c!"\t\t}",
   c!"\t}};",
   c!"\t($(,)?) => {};",
   c!"\t($(,)? $name:ident $($rest:tt)*) => {",
   c!"\t\ttoken_types!(@single $name);",
   c!"\t\ttoken_types!($($rest)*);",
   c!"\t};",
   c!"\t($(,)? #[no_indicators] $name:ident $($rest:tt)*) => {",
   c!"\t\ttoken_types!(@no_indicators $name);"]

/-- `src/parse/cst/rules/selmaho.rs:241-280` -/
def selmahoRs6 : List (List Char) :=
  [c!"\t\ttoken_types!($($rest)*);",
   c!"\t};",
   c!"\t($(,)? #[raw] $name:ident $($rest:tt)*) => {",
   c!"\t\ttoken_types!(@raw $name);",
   c!"\t\ttoken_types!($($rest)*);",
   c!"\t};",
   c!"}",
   c!"",
   c!"token_types! {",
   c!"\tA,",
   c!"\t#[raw] Bahe,",
   c!"\tBai,",
   c!"\tBe,",
   c!"\tBeho,",
   c!"\tBei,",
   c!"\tBihe,",
   c!"\tBihi,",
   c!"\tBo,",
   c!"\tBoi,",
   c!"\tBy,",
   c!"\tCaha,",
   c!"\tCai,",
   c!"\tCehe,",
   c!"\tCei,",
   c!"\tCmevla,",
   c!"\tCo,",
   c!"\tCoi,",
   c!"\tGiha,",
   c!"\tCu,",
   c!"\tCuhe,",
   c!"\tDaho,",
   c!"\tDohu,",
   c!"\tDoi,",
   c!"\tTuhe,",
   c!"\tTuhu,",
   c!"\tFa,",
   c!"\tFaha,",
   c!"\tFaho,",
   c!"\tFehe,",
   c!"\tFehu,"]

/-- `src/parse/cst/rules/selmaho.rs:281-320` -/
def selmahoRs7 : List (List Char) :=
  [c!"\tFiho,",
   c!"\tFoi,",
   c!"\tFuha,",
   c!"\t#[no_indicators] Fuhe,",
   c!"\tFuhivla,",
   c!"\tFuho,",
   c!"\tGa,",
   c!"\tGaho,",
   c!"\tGehu,",
   c!"\tGi,",
   c!"\tGismu,",
   c!"\tGoha,",
   c!"\tGoi,",
   c!"\tNiho,",
   c!"\tGuha,",
   c!"\tI,",
   c!"\tJa,",
   c!"\tJai,",
   c!"\tJohi,",
   c!"\tJoi,",
   c!"\tKe,",
   c!"\tKehe,",
   c!"\tKei,",
   c!"\tKi,",
   c!"\tKoha,",
   c!"\tKu,",
   c!"\tKuhe,",
   c!"\tKuho,",
   c!"\tLa,",
   c!"\tLahe,",
   c!"\tLau,",
   c!"\tLe,",
   c!"\tLehu,",
   c!"\tLi,",
   c!"\tLihu,",
   c!"\tLoho,",
   c!"\t#[raw] Lohu,",
   c!"\t#[raw] Lu,",
   c!"\tLuhu,",
   c!"\tLujvo,"]

/-- `src/parse/cst/rules/selmaho.rs:321-360` -/
def selmahoRs8 : List (List Char) :=
  [c!"\tMaho,",
   c!"\tMai,",
   c!"\tMe,",
   c!"\tMehu,",
   c!"\tMohe,",
   c!"\tMohi,",
   c!"\tMoi,",
   c!"\tNa,",
   c!"\tNahe,",
   c!"\tNahu,",
   c!"\tNai,",
   c!"\tNihe,",
   c!"\tNoi,",
   c!"\tNu,",
   c!"\tNuha,",
   c!"\tNuhi,",
   c!"\tNuhu,",
   c!"\tPa,",
   c!"\tPehe,",
   c!"\tPeho,",
   c!"\tPu,",
   c!"\tRaho,",
   c!"\tRoi,",
   c!"\tSe,",
   c!"\tSehu,",
   c!"\tSei,",
   c!"\tSoi,",
   c!"\tTahe,",
   c!"\tTehu,",
   c!"\tTei,",
   c!"\tTo,",
   c!"\tToi,",
   c!"\tUi,",
   c!"\tVa,",
   c!"\tVau,",
   c!"\tVeha,",
   c!"\tVeho,",
   c!"\tVei,",
   c!"\tViha,",
   c!"\tVuho,"]

/-- `src/parse/cst/rules/selmaho.rs:361-400` -/
def selmahoRs9 : List (List Char) :=
  [c!"\tVuhu,",
   c!"\tXi,",
   c!"\tY,",
   c!"\tZaho,",
   c!"\tZeha,",
   c!"\t#[no_indicators] Zei,",
   c!"\tZi,",
   c!"\tZihe,",
   c!"\t#[raw] Zo,",
   c!"\tZohu,",
   c!"\t#[raw] Zoi,",
   c!"}",
   c!"",
   c!"#[derive(Debug)]",
   c!"pub struct Bu {",
   c!"\tpub experimental: bool,",
   c!"\tpub span: Span,",
   c!"}",
   c!"",
   c!"impl TryFrom<Token> for Bu {",
   c!"\ttype Error = Error;",
   c!"",
   c!"\tfn try_from(token: Token) -> Result<Self, Error> {",
   c!"\t\tif token.selmaho == Selmaho::Bu {",
   c!"\t\t\tOk(Self {",
   c!"\t\t\t\texperimental: token.experimental,",
   c!"\t\t\t\tspan: token.span,",
   c!"\t\t\t})",
   c!"\t\t} else {",
   c!"\t\t\tErr(Error::ExpectedGot {",
   c!"\t\t\t\texpected: (&[Selmaho::Bu] as &[Selmaho]).into(),",
   c!"\t\t\t\tgot: Some(token),",
   c!"\t\t\t})",
   c!"\t\t}",
   c!"\t}",
   c!"}",
   c!"",
   c!"impl TryFrom<Option<Token>> for Bu {",
   c!"\ttype Error = Error;",
   c!""]

/-- `src/parse/cst/rules/selmaho.rs:401-437` -/
def selmahoRs10 : List (List Char) :=
  [c!"\tfn try_from(token: Option<Token>) -> Result<Self, Error> {",
   c!"\t\ttoken",
   c!"\t\t\t.ok_or(Error::ExpectedGot {",
   c!"\t\t\t\texpected: (&[Selmaho::Bu] as &[Selmaho]).into(),",
   c!"\t\t\t\tgot: None,",
   c!"\t\t\t})",
   c!"\t\t\t.and_then(Self::try_from)",
   c!"\t}",
   c!"}",
   c!"",
   c!"impl SelmahoTypeRaw for Bu {}",
   c!"",
   c!"impl<'arena> Parse<'arena> for Bu {",
   c!"\tfn parse<'a: 'arena>(input: &'a [Token], _: &Arena) -> ParseResult<'a, Self> {",
   c!"\t\tselmaho_raw::<Bu>(input)",
   c!"\t}",
   c!"}",
   c!"",
   c!"impl TreeNode for Bu {",
   c!"\tfn name(&self) -> &'static str {",
   c!"\t\tSelmaho::Bu.as_repr()",
   c!"\t}",
   c!"",
   c!"\tfn experimental(&self) -> bool {",
   c!"\t\tself.experimental",
   c!"\t}",
   c!"",
   c!"\tfn start_location(&self) -> Option<Location> {",
   c!"\t\tSome(self.span.start)",
   c!"\t}",
   c!"",
   c!"\tfn end_location(&self) -> Option<Location> {",
   c!"\t\tSome(self.span.end)",
   c!"\t}",
   c!"",
   c!"\tfn for_each_child<'a>(&'a self, _: &mut dyn FnMut(&'a dyn TreeNode)) {}",
   c!"}"]

/-- `src/parse/cst/rules/selmaho.rs` -/
def selmahoRs : List (List (List Char)) :=
  [selmahoRs0, selmahoRs1, selmahoRs2, selmahoRs3, selmahoRs4, selmahoRs5, selmahoRs6, selmahoRs7, selmahoRs8, selmahoRs9, selmahoRs10]

end Sneturfahi.Source
