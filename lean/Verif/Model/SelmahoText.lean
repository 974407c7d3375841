import Verif.Model.Prim

/-!
# The text of `src/lex/selmaho/*.rs`

Generated by `tools/gen_source.py`: the three files, unchanged, as lists of lines.  What they mean is the
business of `Model/Rust.lean` and `Model/TableText.lean`.
-/

namespace Sneturfahi.Source

/-- `src/lex/selmaho/mod.rs:1-40` -/
def selmahoModRs0 : List (List Char) :=
  [c!"//! The [`Selmaho`] type",
   c!"//!",
   c!"//! This module centers around [`Selmaho`], and also provides various methods on it.",
   c!"",
   c!"mod classify;",
   c!"mod display;",
   c!"",
   c!"/// The classification of a word.",
   c!"///",
   c!"/// Most of the variants conform to the strict meaning of selmaho, which is the grammatical type of a cmavo.",
   c!"/// A few others represent other word types in Lojban: `Cmevla`, `Gismu`, `Fuhivla`, and `Lujvo`.",
   c!"/// Finally, there are some \"technical\" selmaho: `AnyText`, `UnknownCmavo`, and `ZoiDelimiter`.",
   c!"#[derive(Debug, Clone, Copy, PartialEq, Eq)]",
   c!"#[allow(missing_docs)]",
   c!"pub enum Selmaho {",
   c!"\t// regular cmavo",
   c!"\tA,",
   c!"\tBai,",
   c!"\tBahe,",
   c!"\tBe,",
   c!"\tBei,",
   c!"\tBeho,",
   c!"\tBihe,",
   c!"\tBihi,",
   c!"\tBo,",
   c!"\tBoi,",
   c!"\tBu,",
   c!"\tBy,",
   c!"\tCai,",
   c!"\tCaha,",
   c!"\tCei,",
   c!"\tCehe,",
   c!"\tCo,",
   c!"\tCoi,",
   c!"\tCu,",
   c!"\tCuhe,",
   c!"\tDaho,",
   c!"\tDoi,",
   c!"\tDohu,",
   c!"\tFa,"]

/-- `src/lex/selmaho/mod.rs:41-80` -/
def selmahoModRs1 : List (List Char) :=
  [c!"\tFaha,",
   c!"\tFaho,",
   c!"\tFehe,",
   c!"\tFehu,",
   c!"\tFiho,",
   c!"\tFoi,",
   c!"\tFuha,",
   c!"\tFuhe,",
   c!"\tFuho,",
   c!"\tGa,",
   c!"\tGaho,",
   c!"\tGehu,",
   c!"\tGi,",
   c!"\tGiha,",
   c!"\tGoi,",
   c!"\tGoha,",
   c!"\tGuha,",
   c!"\tI,",
   c!"\tJa,",
   c!"\tJai,",
   c!"\tJoi,",
   c!"\tJohi,",
   c!"\tKe,",
   c!"\tKei,",
   c!"\tKehe,",
   c!"\tKi,",
   c!"\tKoha,",
   c!"\tKu,",
   c!"\tKuhe,",
   c!"\tKuho,",
   c!"\tLa,",
   c!"\tLau,",
   c!"\tLahe,",
   c!"\tLe,",
   c!"\tLehu,",
   c!"\tLi,",
   c!"\tLihu,",
   c!"\tLoho,",
   c!"\tLohu,",
   c!"\tLu,"]

/-- `src/lex/selmaho/mod.rs:81-120` -/
def selmahoModRs2 : List (List Char) :=
  [c!"\tLuhu,",
   c!"\tMai,",
   c!"\tMaho,",
   c!"\tMe,",
   c!"\tMehu,",
   c!"\tMoi,",
   c!"\tMohe,",
   c!"\tMohi,",
   c!"\tNa,",
   c!"\tNai,",
   c!"\tNahe,",
   c!"\tNahu,",
   c!"\tNihe,",
   c!"\tNiho,",
   c!"\tNoi,",
   c!"\tNu,",
   c!"\tNuha,",
   c!"\tNuhi,",
   c!"\tNuhu,",
   c!"\tPa,",
   c!"\tPehe,",
   c!"\tPeho,",
   c!"\tPu,",
   c!"\tRaho,",
   c!"\tRoi,",
   c!"\tSa,",
   c!"\tSe,",
   c!"\tSei,",
   c!"\tSehu,",
   c!"\tSi,",
   c!"\tSoi,",
   c!"\tSu,",
   c!"\tTahe,",
   c!"\tTei,",
   c!"\tTehu,",
   c!"\tTo,",
   c!"\tToi,",
   c!"\tTuhe,",
   c!"\tTuhu,",
   c!"\tUi,"]

/-- `src/lex/selmaho/mod.rs:121-160` -/
def selmahoModRs3 : List (List Char) :=
  [c!"\tVa,",
   c!"\tVau,",
   c!"\tVei,",
   c!"\tVeha,",
   c!"\tVeho,",
   c!"\tViha,",
   c!"\tVuho,",
   c!"\tVuhu,",
   c!"\tXi,",
   c!"\tY,",
   c!"\tZaho,",
   c!"\tZei,",
   c!"\tZeha,",
   c!"\tZi,",
   c!"\tZihe,",
   c!"\tZo,",
   c!"\tZoi,",
   c!"\tZohu,",
   c!"",
   c!"\t// experimental selmaho (selmaho that contain only experimental cmavo)",
   c!"\tBahei,",
   c!"\tBeihe,",
   c!"\tBoihoi,",
   c!"\tBoihohu,",
   c!"\tCahei,",
   c!"\tCeheihoi,",
   c!"\tCohai,",
   c!"\tCohehohe,",
   c!"\tCohuho, // treated like CO",
   c!"\tCuhau,",
   c!"\tDauho, // treated like UI",
   c!"\tDehai,",
   c!"\tDehau, // treated like UI",
   c!"\tDohoi,",
   c!"\tFauha,  // treated like UI",
   c!"\tFahoho, // treated like FAhO",
   c!"\tFihoi,",
   c!"\tFoihe,",
   c!"\tGahuhau,",
   c!"\tGehuhi,"]

/-- `src/lex/selmaho/mod.rs:161-200` -/
def selmahoModRs4 : List (List Char) :=
  [c!"\tGihei,",
   c!"\tGihoi,",
   c!"\tGohoi,",
   c!"\tIhau,",
   c!"\tJaiha,",
   c!"\tJaihi,",
   c!"\tJauhu,",
   c!"\tJahoi,",
   c!"\tJihoi,",
   c!"\tJoihi,",
   c!"\tJohe,",
   c!"\tJuhau,",
   c!"\tJuhei,",
   c!"\tJuhuhi,",
   c!"\tKauhai,",
   c!"\tKauhu,",
   c!"\tKeihau,",
   c!"\tKeihi,",
   c!"\tKehai,",
   c!"\tKehei,",
   c!"\tKeheiha,",
   c!"\tKehehau,",
   c!"\tKehehu,",
   c!"\tKehuhi,",
   c!"\tKuhau,",
   c!"\tKuhei,",
   c!"\tKuhoihu,",
   c!"\tKyhoi,",
   c!"\tLehai,",
   c!"\tLihau,",
   c!"\tLihei,",
   c!"\tLohai,",
   c!"\tLohoi,",
   c!"\tLuhei,",
   c!"\tMauhau,",
   c!"\tMauhe,",
   c!"\tMauho,",
   c!"\tMeihe,",
   c!"\tMeiho,",
   c!"\tMehoi,"]

/-- `src/lex/selmaho/mod.rs:201-240` -/
def selmahoModRs5 : List (List Char) :=
  [c!"\tMuhoi,",
   c!"\tMuhohu,",
   c!"\tNeihai,",
   c!"\tNoiha,",
   c!"\tNoihau,",
   c!"\tNoihahu,",
   c!"\tNoihi,",
   c!"\tNohoi,",
   c!"\tRauho,",
   c!"\tRehaihe,",
   c!"\tSauhu,",
   c!"\tSahau,",
   c!"\tSahoi,",
   c!"\tSeihau,",
   c!"\tSeiho,",
   c!"\tSehehi,",
   c!"\tSehoihoi,",
   c!"\tSihihei,",
   c!"\tSihihoi,",
   c!"\tSihoi,",
   c!"\tSoihi,",
   c!"\tSohehai,",
   c!"\tSohoi,",
   c!"\tTaihu,",
   c!"\tTauho,",
   c!"\tTahoi,",
   c!"\tTahuhi,",
   c!"\tTeihu,",
   c!"\tTehoihoi,",
   c!"\tToihe,",
   c!"\tToiho,",
   c!"\tVauhehoi,",
   c!"\tVauhohoi,",
   c!"\tVuhoi,",
   c!"\tVyhy,",
   c!"\tXauhe,",
   c!"\tXauheho,",
   c!"\tXauho,",
   c!"\tXauhoi,",
   c!"\tXauhoho,"]

/-- `src/lex/selmaho/mod.rs:241-280` -/
def selmahoModRs6 : List (List Char) :=
  [c!"\tXahoihahoiha, // treated like an error",
   c!"\tXehau,",
   c!"\tXoi,",
   c!"\tXoha,",
   c!"\tXohehohe,",
   c!"\tXohi,",
   c!"\tXuhau,",
   c!"\tYhi,",
   c!"\tZaihai,",
   c!"\tZaihu,",
   c!"\tZauhehu,",
   c!"\tZeihei,",
   c!"\t// in jbovlaste as ZEI'OI (yes, that's a lowercase apostrophe in a selmaho)",
   c!"\tZeihoi,",
   c!"\tZiheha,",
   c!"\tZihehau,",
   c!"\tZihoi,",
   c!"\tZoihai,",
   c!"\tZoihohe,",
   c!"\tZohau,",
   c!"\tZohehu,",
   c!"\tZohiho,",
   c!"\tZohoi,",
   c!"",
   c!"\t// non-cmavo selmaho",
   c!"",
   c!"\t// the first three are are brivla and as such are treated the same by parsers, but the distinction may be helpful for other users of the lexer",
   c!"\tGismu,",
   c!"\tFuhivla,",
   c!"\tLujvo,",
   c!"\tCmevla,",
   c!"",
   c!"\t// technical selmaho",
   c!"\t/// For words that have cmavo form but aren't recognized as a specific selmaho",
   c!"\tUnknownCmavo,",
   c!"\t/// Whenever the text is not recognized. May occur in valid Lojban, between, for example, the delimiters of `zoi` constructs, but not necessarily.",
   c!"\tAnyText,",
   c!"\t/// Only emitted by the lexer so not technically a selmaho",
   c!"\tZoiDelimiter,",
   c!"}"]

/-- `src/lex/selmaho/mod.rs:281-320` -/
def selmahoModRs7 : List (List Char) :=
  [c!"",
   c!"impl Selmaho {",
   c!"\t/// If the selmaho itself is experimental, meaning that all the cmavo in it are experimental.",
   c!"\t/// False for all non-cmavo and technical cmavo, except `UnknownCmavo`.",
   c!"\t///",
   c!"\t/// # Examples",
   c!"\t///",
   c!"\t/// ```rust",
   c!"\t/// # use sneturfahi::lex::selmaho::Selmaho;",
   c!"\t/// assert!(!Selmaho::A.is_fundamentally_experimental());",
   c!"\t/// assert!(Selmaho::Xahoihahoiha.is_fundamentally_experimental());",
   c!"\t/// assert!(!Selmaho::Gismu.is_fundamentally_experimental());",
   c!"\t/// assert!(!Selmaho::ZoiDelimiter.is_fundamentally_experimental());",
   c!"\t/// ```",
   c!"\t#[must_use]",
   c!"\t#[allow(clippy::too_many_lines)]",
   c!"\tpub fn is_fundamentally_experimental(self) -> bool {",
   c!"\t\t// brevity is sacrificed on the altar of exhaustiveness",
   c!"\t\tmatch self {",
   c!"\t\t\tSelf::Bahei",
   c!"\t\t\t| Self::Beihe",
   c!"\t\t\t| Self::Boihoi",
   c!"\t\t\t| Self::Boihohu",
   c!"\t\t\t| Self::Cahei",
   c!"\t\t\t| Self::Ceheihoi",
   c!"\t\t\t| Self::Cohai",
   c!"\t\t\t| Self::Cohehohe",
   c!"\t\t\t| Self::Cohuho",
   c!"\t\t\t| Self::Cuhau",
   c!"\t\t\t| Self::Dauho",
   c!"\t\t\t| Self::Dehai",
   c!"\t\t\t| Self::Dehau",
   c!"\t\t\t| Self::Dohoi",
   c!"\t\t\t| Self::Fauha",
   c!"\t\t\t| Self::Fahoho",
   c!"\t\t\t| Self::Fihoi",
   c!"\t\t\t| Self::Foihe",
   c!"\t\t\t| Self::Gahuhau",
   c!"\t\t\t| Self::Gehuhi",
   c!"\t\t\t| Self::Gihei"]

/-- `src/lex/selmaho/mod.rs:321-360` -/
def selmahoModRs8 : List (List Char) :=
  [c!"\t\t\t| Self::Gihoi",
   c!"\t\t\t| Self::Gohoi",
   c!"\t\t\t| Self::Ihau",
   c!"\t\t\t| Self::Jaiha",
   c!"\t\t\t| Self::Jaihi",
   c!"\t\t\t| Self::Jauhu",
   c!"\t\t\t| Self::Jahoi",
   c!"\t\t\t| Self::Jihoi",
   c!"\t\t\t| Self::Joihi",
   c!"\t\t\t| Self::Johe",
   c!"\t\t\t| Self::Juhau",
   c!"\t\t\t| Self::Juhei",
   c!"\t\t\t| Self::Juhuhi",
   c!"\t\t\t| Self::Kauhai",
   c!"\t\t\t| Self::Kauhu",
   c!"\t\t\t| Self::Keihau",
   c!"\t\t\t| Self::Keihi",
   c!"\t\t\t| Self::Kehai",
   c!"\t\t\t| Self::Kehei",
   c!"\t\t\t| Self::Keheiha",
   c!"\t\t\t| Self::Kehehau",
   c!"\t\t\t| Self::Kehehu",
   c!"\t\t\t| Self::Kehuhi",
   c!"\t\t\t| Self::Kuhau",
   c!"\t\t\t| Self::Kuhei",
   c!"\t\t\t| Self::Kuhoihu",
   c!"\t\t\t| Self::Kyhoi",
   c!"\t\t\t| Self::Lehai",
   c!"\t\t\t| Self::Lihau",
   c!"\t\t\t| Self::Lihei",
   c!"\t\t\t| Self::Lohai",
   c!"\t\t\t| Self::Lohoi",
   c!"\t\t\t| Self::Luhei",
   c!"\t\t\t| Self::Mauhau",
   c!"\t\t\t| Self::Mauhe",
   c!"\t\t\t| Self::Mauho",
   c!"\t\t\t| Self::Meihe",
   c!"\t\t\t| Self::Meiho",
   c!"\t\t\t| Self::Mehoi",
   c!"\t\t\t| Self::Muhoi"]

/-- `src/lex/selmaho/mod.rs:361-400` -/
def selmahoModRs9 : List (List Char) :=
  [c!"\t\t\t| Self::Muhohu",
   c!"\t\t\t| Self::Neihai",
   c!"\t\t\t| Self::Noiha",
   c!"\t\t\t| Self::Noihau",
   c!"\t\t\t| Self::Noihahu",
   c!"\t\t\t| Self::Noihi",
   c!"\t\t\t| Self::Nohoi",
   c!"\t\t\t| Self::Rauho",
   c!"\t\t\t| Self::Rehaihe",
   c!"\t\t\t| Self::Sauhu",
   c!"\t\t\t| Self::Sahau",
   c!"\t\t\t| Self::Sahoi",
   c!"\t\t\t| Self::Seihau",
   c!"\t\t\t| Self::Seiho",
   c!"\t\t\t| Self::Sehehi",
   c!"\t\t\t| Self::Sehoihoi",
   c!"\t\t\t| Self::Sihihei",
   c!"\t\t\t| Self::Sihihoi",
   c!"\t\t\t| Self::Sihoi",
   c!"\t\t\t| Self::Soihi",
   c!"\t\t\t| Self::Sohehai",
   c!"\t\t\t| Self::Sohoi",
   c!"\t\t\t| Self::Taihu",
   c!"\t\t\t| Self::Tauho",
   c!"\t\t\t| Self::Tahoi",
   c!"\t\t\t| Self::Tahuhi",
   c!"\t\t\t| Self::Teihu",
   c!"\t\t\t| Self::Tehoihoi",
   c!"\t\t\t| Self::Toihe",
   c!"\t\t\t| Self::Toiho",
   c!"\t\t\t| Self::Vauhehoi",
   c!"\t\t\t| Self::Vauhohoi",
   c!"\t\t\t| Self::Vuhoi",
   c!"\t\t\t| Self::Vyhy",
   c!"\t\t\t| Self::Xauhe",
   c!"\t\t\t| Self::Xauheho",
   c!"\t\t\t| Self::Xauho",
   c!"\t\t\t| Self::Xauhoi",
   c!"\t\t\t| Self::Xauhoho",
   c!"\t\t\t| Self::Xahoihahoiha"]

/-- `src/lex/selmaho/mod.rs:401-440` -/
def selmahoModRs10 : List (List Char) :=
  [c!"\t\t\t| Self::Xehau",
   c!"\t\t\t| Self::Xoi",
   c!"\t\t\t| Self::Xoha",
   c!"\t\t\t| Self::Xohehohe",
   c!"\t\t\t| Self::Xohi",
   c!"\t\t\t| Self::Xuhau",
   c!"\t\t\t| Self::Yhi",
   c!"\t\t\t| Self::Zaihai",
   c!"\t\t\t| Self::Zaihu",
   c!"\t\t\t| Self::Zauhehu",
   c!"\t\t\t| Self::Zeihei",
   c!"\t\t\t| Self::Zeihoi",
   c!"\t\t\t| Self::Ziheha",
   c!"\t\t\t| Self::Zihehau",
   c!"\t\t\t| Self::Zihoi",
   c!"\t\t\t| Self::Zoihai",
   c!"\t\t\t| Self::Zoihohe",
   c!"\t\t\t| Self::Zohau",
   c!"\t\t\t| Self::Zohehu",
   c!"\t\t\t| Self::Zohiho",
   c!"\t\t\t| Self::Zohoi",
   c!"\t\t\t| Self::UnknownCmavo => true,",
   c!"\t\t\tSelf::A",
   c!"\t\t\t| Self::Bai",
   c!"\t\t\t| Self::Bahe",
   c!"\t\t\t| Self::Be",
   c!"\t\t\t| Self::Bei",
   c!"\t\t\t| Self::Beho",
   c!"\t\t\t| Self::Bihe",
   c!"\t\t\t| Self::Bihi",
   c!"\t\t\t| Self::Bo",
   c!"\t\t\t| Self::Boi",
   c!"\t\t\t| Self::Bu",
   c!"\t\t\t| Self::By",
   c!"\t\t\t| Self::Cai",
   c!"\t\t\t| Self::Caha",
   c!"\t\t\t| Self::Cei",
   c!"\t\t\t| Self::Cehe",
   c!"\t\t\t| Self::Co",
   c!"\t\t\t| Self::Coi"]

/-- `src/lex/selmaho/mod.rs:441-480` -/
def selmahoModRs11 : List (List Char) :=
  [c!"\t\t\t| Self::Cu",
   c!"\t\t\t| Self::Cuhe",
   c!"\t\t\t| Self::Daho",
   c!"\t\t\t| Self::Doi",
   c!"\t\t\t| Self::Dohu",
   c!"\t\t\t| Self::Fa",
   c!"\t\t\t| Self::Faha",
   c!"\t\t\t| Self::Faho",
   c!"\t\t\t| Self::Fehe",
   c!"\t\t\t| Self::Fehu",
   c!"\t\t\t| Self::Fiho",
   c!"\t\t\t| Self::Foi",
   c!"\t\t\t| Self::Fuha",
   c!"\t\t\t| Self::Fuhe",
   c!"\t\t\t| Self::Fuho",
   c!"\t\t\t| Self::Ga",
   c!"\t\t\t| Self::Gaho",
   c!"\t\t\t| Self::Gehu",
   c!"\t\t\t| Self::Gi",
   c!"\t\t\t| Self::Giha",
   c!"\t\t\t| Self::Goi",
   c!"\t\t\t| Self::Goha",
   c!"\t\t\t| Self::Guha",
   c!"\t\t\t| Self::I",
   c!"\t\t\t| Self::Ja",
   c!"\t\t\t| Self::Jai",
   c!"\t\t\t| Self::Joi",
   c!"\t\t\t| Self::Johi",
   c!"\t\t\t| Self::Ke",
   c!"\t\t\t| Self::Kei",
   c!"\t\t\t| Self::Kehe",
   c!"\t\t\t| Self::Ki",
   c!"\t\t\t| Self::Koha",
   c!"\t\t\t| Self::Ku",
   c!"\t\t\t| Self::Kuhe",
   c!"\t\t\t| Self::Kuho",
   c!"\t\t\t| Self::La",
   c!"\t\t\t| Self::Lau",
   c!"\t\t\t| Self::Lahe",
   c!"\t\t\t| Self::Le"]

/-- `src/lex/selmaho/mod.rs:481-520` -/
def selmahoModRs12 : List (List Char) :=
  [c!"\t\t\t| Self::Lehu",
   c!"\t\t\t| Self::Li",
   c!"\t\t\t| Self::Lihu",
   c!"\t\t\t| Self::Loho",
   c!"\t\t\t| Self::Lohu",
   c!"\t\t\t| Self::Lu",
   c!"\t\t\t| Self::Luhu",
   c!"\t\t\t| Self::Mai",
   c!"\t\t\t| Self::Maho",
   c!"\t\t\t| Self::Me",
   c!"\t\t\t| Self::Mehu",
   c!"\t\t\t| Self::Moi",
   c!"\t\t\t| Self::Mohe",
   c!"\t\t\t| Self::Mohi",
   c!"\t\t\t| Self::Na",
   c!"\t\t\t| Self::Nai",
   c!"\t\t\t| Self::Nahe",
   c!"\t\t\t| Self::Nahu",
   c!"\t\t\t| Self::Nihe",
   c!"\t\t\t| Self::Niho",
   c!"\t\t\t| Self::Noi",
   c!"\t\t\t| Self::Nu",
   c!"\t\t\t| Self::Nuha",
   c!"\t\t\t| Self::Nuhi",
   c!"\t\t\t| Self::Nuhu",
   c!"\t\t\t| Self::Pa",
   c!"\t\t\t| Self::Pehe",
   c!"\t\t\t| Self::Peho",
   c!"\t\t\t| Self::Pu",
   c!"\t\t\t| Self::Raho",
   c!"\t\t\t| Self::Roi",
   c!"\t\t\t| Self::Sa",
   c!"\t\t\t| Self::Se",
   c!"\t\t\t| Self::Sei",
   c!"\t\t\t| Self::Sehu",
   c!"\t\t\t| Self::Si",
   c!"\t\t\t| Self::Soi",
   c!"\t\t\t| Self::Su",
   c!"\t\t\t| Self::Tahe",
   c!"\t\t\t| Self::Tei"]

/-- `src/lex/selmaho/mod.rs:521-553` -/
def selmahoModRs13 : List (List Char) :=
  [c!"\t\t\t| Self::Tehu",
   c!"\t\t\t| Self::To",
   c!"\t\t\t| Self::Toi",
   c!"\t\t\t| Self::Tuhe",
   c!"\t\t\t| Self::Tuhu",
   c!"\t\t\t| Self::Ui",
   c!"\t\t\t| Self::Va",
   c!"\t\t\t| Self::Vau",
   c!"\t\t\t| Self::Vei",
   c!"\t\t\t| Self::Veha",
   c!"\t\t\t| Self::Veho",
   c!"\t\t\t| Self::Viha",
   c!"\t\t\t| Self::Vuho",
   c!"\t\t\t| Self::Vuhu",
   c!"\t\t\t| Self::Xi",
   c!"\t\t\t| Self::Y",
   c!"\t\t\t| Self::Zaho",
   c!"\t\t\t| Self::Zei",
   c!"\t\t\t| Self::Zeha",
   c!"\t\t\t| Self::Zi",
   c!"\t\t\t| Self::Zihe",
   c!"\t\t\t| Self::Zo",
   c!"\t\t\t| Self::Zoi",
   c!"\t\t\t| Self::Zohu",
   c!"\t\t\t| Self::Gismu",
   c!"\t\t\t| Self::Fuhivla",
   c!"\t\t\t| Self::Lujvo",
   c!"\t\t\t| Self::Cmevla",
   c!"\t\t\t| Self::AnyText",
   c!"\t\t\t| Self::ZoiDelimiter => false,",
   c!"\t\t}",
   c!"\t}",
   c!"}"]

/-- `src/lex/selmaho/mod.rs` -/
def selmahoModRs : List (List (List Char)) :=
  [selmahoModRs0, selmahoModRs1, selmahoModRs2, selmahoModRs3, selmahoModRs4, selmahoModRs5, selmahoModRs6, selmahoModRs7, selmahoModRs8, selmahoModRs9, selmahoModRs10, selmahoModRs11, selmahoModRs12, selmahoModRs13]

/-- `src/lex/selmaho/display.rs:1-40` -/
def displayRs0 : List (List Char) :=
  [c!"use std::fmt::{Display, Formatter, Result};",
   c!"",
   c!"impl Display for super::Selmaho {",
   c!"\tfn fmt(&self, f: &mut Formatter<'_>) -> Result {",
   c!"\t\tf.write_str(self.as_repr())",
   c!"\t}",
   c!"}",
   c!"",
   c!"impl super::Selmaho {",
   c!"\t/// Get the string representation of the selmaho.",
   c!"\t///",
   c!"\t/// For actual selmaho, this is the capital representation, which is the Lojban convention.",
   c!"\t///",
   c!"\t/// ```rust",
   c!"\t/// # use sneturfahi::lex::selmaho::Selmaho;",
   c!"\t/// assert_eq!(Selmaho::Beho.as_repr(), \"BEhO\");",
   c!"\t/// ```",
   c!"\t///",
   c!"\t/// For non-cmavo selmaho, this is the lowercase name of that construct.",
   c!"\t///",
   c!"\t/// ```rust",
   c!"\t/// # use sneturfahi::lex::selmaho::Selmaho;",
   c!"\t/// assert_eq!(Selmaho::Gismu.as_repr(), \"gismu\");",
   c!"\t/// ```",
   c!"\t///",
   c!"\t/// For technical selmaho, this is a description in parenthesis.",
   c!"\t///",
   c!"\t/// ```rust",
   c!"\t/// # use sneturfahi::lex::selmaho::Selmaho;",
   c!"\t/// assert_eq!(Selmaho::ZoiDelimiter.as_repr(), \"(zoi delimiter)\");",
   c!"\t/// ```",
   c!"\t#[allow(clippy::too_many_lines)] // giant match block",
   c!"\t#[must_use]",
   c!"\tpub fn as_repr(self) -> &'static str {",
   c!"\t\tmatch self {",
   c!"\t\t\t// regular cmavo",
   c!"\t\t\tSelf::A => \"A\",",
   c!"\t\t\tSelf::Bai => \"BAI\",",
   c!"\t\t\tSelf::Bahe => \"BAhE\",",
   c!"\t\t\tSelf::Be => \"BE\","]

/-- `src/lex/selmaho/display.rs:41-80` -/
def displayRs1 : List (List Char) :=
  [c!"\t\t\tSelf::Bei => \"BEI\",",
   c!"\t\t\tSelf::Beho => \"BEhO\",",
   c!"\t\t\tSelf::Bihe => \"BIhE\",",
   c!"\t\t\tSelf::Bihi => \"BIhI\",",
   c!"\t\t\tSelf::Bo => \"BO\",",
   c!"\t\t\tSelf::Boi => \"BOI\",",
   c!"\t\t\tSelf::Bu => \"BU\",",
   c!"\t\t\tSelf::By => \"BY\",",
   c!"\t\t\tSelf::Cai => \"CAI\",",
   c!"\t\t\tSelf::Caha => \"CAhA\",",
   c!"\t\t\tSelf::Cei => \"CEI\",",
   c!"\t\t\tSelf::Cehe => \"CEhE\",",
   c!"\t\t\tSelf::Co => \"CO\",",
   c!"\t\t\tSelf::Coi => \"COI\",",
   c!"\t\t\tSelf::Cu => \"CU\",",
   c!"\t\t\tSelf::Cuhe => \"CUhE\",",
   c!"\t\t\tSelf::Daho => \"DAhO\",",
   c!"\t\t\tSelf::Doi => \"DOI\",",
   c!"\t\t\tSelf::Dohu => \"DOhU\",",
   c!"\t\t\tSelf::Fa => \"FA\",",
   c!"\t\t\tSelf::Faha => \"FAhA\",",
   c!"\t\t\tSelf::Faho => \"FAhO\",",
   c!"\t\t\tSelf::Fehe => \"FEhE\",",
   c!"\t\t\tSelf::Fehu => \"FEhU\",",
   c!"\t\t\tSelf::Fiho => \"FIhO\",",
   c!"\t\t\tSelf::Foi => \"FOI\",",
   c!"\t\t\tSelf::Fuha => \"FUhA\",",
   c!"\t\t\tSelf::Fuhe => \"FUhE\",",
   c!"\t\t\tSelf::Fuho => \"FUhO\",",
   c!"\t\t\tSelf::Ga => \"GA\",",
   c!"\t\t\tSelf::Gaho => \"GAhO\",",
   c!"\t\t\tSelf::Gehu => \"GEhU\",",
   c!"\t\t\tSelf::Gi => \"GI\",",
   c!"\t\t\tSelf::Giha => \"GIhA\",",
   c!"\t\t\tSelf::Goi => \"GOI\",",
   c!"\t\t\tSelf::Goha => \"GOhA\",",
   c!"\t\t\tSelf::Guha => \"GUhA\",",
   c!"\t\t\tSelf::I => \"I\",",
   c!"\t\t\tSelf::Ja => \"JA\",",
   c!"\t\t\tSelf::Jai => \"JAI\","]

/-- `src/lex/selmaho/display.rs:81-120` -/
def displayRs2 : List (List Char) :=
  [c!"\t\t\tSelf::Joi => \"JOI\",",
   c!"\t\t\tSelf::Johi => \"JOhI\",",
   c!"\t\t\tSelf::Ke => \"KE\",",
   c!"\t\t\tSelf::Kei => \"KEI\",",
   c!"\t\t\tSelf::Kehe => \"KEhE\",",
   c!"\t\t\tSelf::Ki => \"KI\",",
   c!"\t\t\tSelf::Koha => \"KOhA\",",
   c!"\t\t\tSelf::Ku => \"KU\",",
   c!"\t\t\tSelf::Kuhe => \"KUhE\",",
   c!"\t\t\tSelf::Kuho => \"KUhO\",",
   c!"\t\t\tSelf::La => \"LA\",",
   c!"\t\t\tSelf::Lau => \"LAU\",",
   c!"\t\t\tSelf::Lahe => \"LAhE\",",
   c!"\t\t\tSelf::Le => \"LE\",",
   c!"\t\t\tSelf::Lehu => \"LEhU\",",
   c!"\t\t\tSelf::Li => \"LI\",",
   c!"\t\t\tSelf::Lihu => \"LIhU\",",
   c!"\t\t\tSelf::Loho => \"LOhO\",",
   c!"\t\t\tSelf::Lohu => \"LOhU\",",
   c!"\t\t\tSelf::Lu => \"LU\",",
   c!"\t\t\tSelf::Luhu => \"LUhU\",",
   c!"\t\t\tSelf::Mai => \"MAI\",",
   c!"\t\t\tSelf::Maho => \"MAhO\",",
   c!"\t\t\tSelf::Me => \"ME\",",
   c!"\t\t\tSelf::Mehu => \"MEhU\",",
   c!"\t\t\tSelf::Moi => \"MOI\",",
   c!"\t\t\tSelf::Mohe => \"MOhE\",",
   c!"\t\t\tSelf::Mohi => \"MOhI\",",
   c!"\t\t\tSelf::Na => \"NA\",",
   c!"\t\t\tSelf::Nai => \"NAI\",",
   c!"\t\t\tSelf::Nahe => \"NAhE\",",
   c!"\t\t\tSelf::Nahu => \"NAhU\",",
   c!"\t\t\tSelf::Nihe => \"NIhE\",",
   c!"\t\t\tSelf::Niho => \"NIhO\",",
   c!"\t\t\tSelf::Noi => \"NOI\",",
   c!"\t\t\tSelf::Nu => \"NU\",",
   c!"\t\t\tSelf::Nuha => \"NUhA\",",
   c!"\t\t\tSelf::Nuhi => \"NUhI\",",
   c!"\t\t\tSelf::Nuhu => \"NUhU\",",
   c!"\t\t\tSelf::Pa => \"PA\","]

/-- `src/lex/selmaho/display.rs:121-160` -/
def displayRs3 : List (List Char) :=
  [c!"\t\t\tSelf::Pehe => \"PEhE\",",
   c!"\t\t\tSelf::Peho => \"PEhO\",",
   c!"\t\t\tSelf::Pu => \"PU\",",
   c!"\t\t\tSelf::Raho => \"RAhO\",",
   c!"\t\t\tSelf::Roi => \"ROI\",",
   c!"\t\t\tSelf::Sa => \"SA\",",
   c!"\t\t\tSelf::Se => \"SE\",",
   c!"\t\t\tSelf::Sei => \"SEI\",",
   c!"\t\t\tSelf::Sehu => \"SEhU\",",
   c!"\t\t\tSelf::Si => \"SI\",",
   c!"\t\t\tSelf::Soi => \"SOI\",",
   c!"\t\t\tSelf::Su => \"SU\",",
   c!"\t\t\tSelf::Tahe => \"TAhE\",",
   c!"\t\t\tSelf::Tei => \"TEI\",",
   c!"\t\t\tSelf::Tehu => \"TEhU\",",
   c!"\t\t\tSelf::To => \"TO\",",
   c!"\t\t\tSelf::Toi => \"TOI\",",
   c!"\t\t\tSelf::Tuhe => \"TUhE\",",
   c!"\t\t\tSelf::Tuhu => \"TUhU\",",
   c!"\t\t\tSelf::Ui => \"UI\",",
   c!"\t\t\tSelf::Va => \"VA\",",
   c!"\t\t\tSelf::Vau => \"VAU\",",
   c!"\t\t\tSelf::Vei => \"VEI\",",
   c!"\t\t\tSelf::Veha => \"VEhA\",",
   c!"\t\t\tSelf::Veho => \"VEhO\",",
   c!"\t\t\tSelf::Viha => \"VIhA\",",
   c!"\t\t\tSelf::Vuho => \"VUhO\",",
   c!"\t\t\tSelf::Vuhu => \"VUhU\",",
   c!"\t\t\tSelf::Xi => \"XI\",",
   c!"\t\t\tSelf::Y => \"Y\",",
   c!"\t\t\tSelf::Zaho => \"ZAhO\",",
   c!"\t\t\tSelf::Zei => \"ZEI\",",
   c!"\t\t\tSelf::Zeha => \"ZEhA\",",
   c!"\t\t\tSelf::Zi => \"ZI\",",
   c!"\t\t\tSelf::Zihe => \"ZIhE\",",
   c!"\t\t\tSelf::Zo => \"ZO\",",
   c!"\t\t\tSelf::Zoi => \"ZOI\",",
   c!"\t\t\tSelf::Zohu => \"ZOhU\",",
   c!"",
   c!"\t\t\t// experimental selmaho"]

/-- `src/lex/selmaho/display.rs:161-200` -/
def displayRs4 : List (List Char) :=
  [c!"\t\t\tSelf::Bahei => \"BAhEI\",",
   c!"\t\t\tSelf::Beihe => \"BEIhE\",",
   c!"\t\t\tSelf::Boihoi => \"BOIhOI\",",
   c!"\t\t\tSelf::Boihohu => \"BOIhOhU\",",
   c!"\t\t\tSelf::Cahei => \"CAhEI\",",
   c!"\t\t\tSelf::Ceheihoi => \"CEhEIhOI\",",
   c!"\t\t\tSelf::Cohai => \"COhAI\",",
   c!"\t\t\tSelf::Cohehohe => \"COhEhOhE\",",
   c!"\t\t\tSelf::Cohuho => \"COhUhO\",",
   c!"\t\t\tSelf::Cuhau => \"CUhAU\",",
   c!"\t\t\tSelf::Dauho => \"DAUhO\",",
   c!"\t\t\tSelf::Dehai => \"DEhAI\",",
   c!"\t\t\tSelf::Dehau => \"DEhAU\",",
   c!"\t\t\tSelf::Dohoi => \"DOhOI\",",
   c!"\t\t\tSelf::Fauha => \"FAUhA\",",
   c!"\t\t\tSelf::Fahoho => \"FAhOhO\",",
   c!"\t\t\tSelf::Fihoi => \"FIhOI\",",
   c!"\t\t\tSelf::Foihe => \"FOIhE\",",
   c!"\t\t\tSelf::Gahuhau => \"GAhUhAU\",",
   c!"\t\t\tSelf::Gehuhi => \"GEhUhI\",",
   c!"\t\t\tSelf::Gihei => \"GIhEI\",",
   c!"\t\t\tSelf::Gihoi => \"GIhOI\",",
   c!"\t\t\tSelf::Gohoi => \"GOhOI\",",
   c!"\t\t\tSelf::Ihau => \"IhAU\",",
   c!"\t\t\tSelf::Jaiha => \"JAIhA\",",
   c!"\t\t\tSelf::Jaihi => \"JAIhI\",",
   c!"\t\t\tSelf::Jauhu => \"JAUhU\",",
   c!"\t\t\tSelf::Jahoi => \"JAhOI\",",
   c!"\t\t\tSelf::Jihoi => \"JIhOI\",",
   c!"\t\t\tSelf::Joihi => \"JOIhI\",",
   c!"\t\t\tSelf::Johe => \"JOhE\",",
   c!"\t\t\tSelf::Juhau => \"JUhAU\",",
   c!"\t\t\tSelf::Juhei => \"JUhEI\",",
   c!"\t\t\tSelf::Juhuhi => \"JUhUhI\",",
   c!"\t\t\tSelf::Kauhai => \"KAUhAI\",",
   c!"\t\t\tSelf::Kauhu => \"KAUhU\",",
   c!"\t\t\tSelf::Keihau => \"KEIhAU\",",
   c!"\t\t\tSelf::Keihi => \"KEIhI\",",
   c!"\t\t\tSelf::Kehai => \"KEhAI\",",
   c!"\t\t\tSelf::Kehei => \"KEhEI\","]

/-- `src/lex/selmaho/display.rs:201-240` -/
def displayRs5 : List (List Char) :=
  [c!"\t\t\tSelf::Keheiha => \"KEhEIhA\",",
   c!"\t\t\tSelf::Kehehau => \"KEhEhAU\",",
   c!"\t\t\tSelf::Kehehu => \"KEhEhU\",",
   c!"\t\t\tSelf::Kehuhi => \"KEhUhI\",",
   c!"\t\t\tSelf::Kuhau => \"KUhAU\",",
   c!"\t\t\tSelf::Kuhei => \"KUhEI\",",
   c!"\t\t\tSelf::Kuhoihu => \"KUhOIhU\",",
   c!"\t\t\tSelf::Kyhoi => \"KYhOI\",",
   c!"\t\t\tSelf::Lehai => \"LEhAI\",",
   c!"\t\t\tSelf::Lihau => \"LIhAU\",",
   c!"\t\t\tSelf::Lihei => \"LIhEI\",",
   c!"\t\t\tSelf::Lohai => \"LOhAI\",",
   c!"\t\t\tSelf::Lohoi => \"LOhOI\",",
   c!"\t\t\tSelf::Luhei => \"LUhEI\",",
   c!"\t\t\tSelf::Mauhau => \"MAUhAU\",",
   c!"\t\t\tSelf::Mauhe => \"MAUhE\",",
   c!"\t\t\tSelf::Mauho => \"MAUhO\",",
   c!"\t\t\tSelf::Meihe => \"MEIhE\",",
   c!"\t\t\tSelf::Meiho => \"MEIhO\",",
   c!"\t\t\tSelf::Mehoi => \"MEhOI\",",
   c!"\t\t\tSelf::Muhoi => \"MUhOI\",",
   c!"\t\t\tSelf::Muhohu => \"MUhOhU\",",
   c!"\t\t\tSelf::Neihai => \"NEIhAI\",",
   c!"\t\t\tSelf::Noiha => \"NOIhA\",",
   c!"\t\t\tSelf::Noihau => \"NOIhAU\",",
   c!"\t\t\tSelf::Noihahu => \"NOIhAhU\",",
   c!"\t\t\tSelf::Noihi => \"NOIhI\",",
   c!"\t\t\tSelf::Nohoi => \"NOhOI\",",
   c!"\t\t\tSelf::Rauho => \"RAUhO\",",
   c!"\t\t\tSelf::Rehaihe => \"REhAIhE\",",
   c!"\t\t\tSelf::Sauhu => \"SAUhU\",",
   c!"\t\t\tSelf::Sahau => \"SAhAU\",",
   c!"\t\t\tSelf::Sahoi => \"SAhOI\",",
   c!"\t\t\tSelf::Seihau => \"SEIhAU\",",
   c!"\t\t\tSelf::Seiho => \"SEIhO\",",
   c!"\t\t\tSelf::Sehehi => \"SEhEhI\",",
   c!"\t\t\tSelf::Sehoihoi => \"SEhOIhOI\",",
   c!"\t\t\tSelf::Sihihei => \"SIhIhEI\",",
   c!"\t\t\tSelf::Sihihoi => \"SIhIhOI\",",
   c!"\t\t\tSelf::Sihoi => \"SIhOI\","]

/-- `src/lex/selmaho/display.rs:241-280` -/
def displayRs6 : List (List Char) :=
  [c!"\t\t\tSelf::Soihi => \"SOIhI\",",
   c!"\t\t\tSelf::Sohehai => \"SOhEhAI\",",
   c!"\t\t\tSelf::Sohoi => \"SOhOI\",",
   c!"\t\t\tSelf::Taihu => \"TAIhU\",",
   c!"\t\t\tSelf::Tauho => \"TAUhO\",",
   c!"\t\t\tSelf::Tahoi => \"TAhOI\",",
   c!"\t\t\tSelf::Tahuhi => \"TAhUhI\",",
   c!"\t\t\tSelf::Teihu => \"TEIhU\",",
   c!"\t\t\tSelf::Tehoihoi => \"TEhOIhOI\",",
   c!"\t\t\tSelf::Toihe => \"TOIhE\",",
   c!"\t\t\tSelf::Toiho => \"TOIhO\",",
   c!"\t\t\tSelf::Vauhehoi => \"VAUhEhOI\",",
   c!"\t\t\tSelf::Vauhohoi => \"VAUhOhOI\",",
   c!"\t\t\tSelf::Vuhoi => \"VUhOI\",",
   c!"\t\t\tSelf::Vyhy => \"VYhY\",",
   c!"\t\t\tSelf::Xauhe => \"XAUhE\",",
   c!"\t\t\tSelf::Xauheho => \"XAUhEhO\",",
   c!"\t\t\tSelf::Xauho => \"XAUhO\",",
   c!"\t\t\tSelf::Xauhoi => \"XAUhOI\",",
   c!"\t\t\tSelf::Xauhoho => \"XAUhOhO\",",
   c!"\t\t\tSelf::Xahoihahoiha => \"XAhOIhAhOIhA\",",
   c!"\t\t\tSelf::Xehau => \"XEhAU\",",
   c!"\t\t\tSelf::Xoi => \"XOI\",",
   c!"\t\t\tSelf::Xoha => \"XOhA\",",
   c!"\t\t\tSelf::Xohehohe => \"XOhEhOhE\",",
   c!"\t\t\tSelf::Xohi => \"XOhI\",",
   c!"\t\t\tSelf::Xuhau => \"XUhAU\",",
   c!"\t\t\tSelf::Yhi => \"YhI\",",
   c!"\t\t\tSelf::Zaihai => \"ZAIhAI\",",
   c!"\t\t\tSelf::Zaihu => \"ZAIhU\",",
   c!"\t\t\tSelf::Zauhehu => \"ZAUhEhU\",",
   c!"\t\t\tSelf::Zeihei => \"ZEIhEI\",",
   c!"\t\t\tSelf::Zeihoi => \"ZEIhOI\",",
   c!"\t\t\tSelf::Ziheha => \"ZIhEhA\",",
   c!"\t\t\tSelf::Zihehau => \"ZIhEhAU\",",
   c!"\t\t\tSelf::Zihoi => \"ZIhOI\",",
   c!"\t\t\tSelf::Zoihai => \"ZOIhAI\",",
   c!"\t\t\tSelf::Zoihohe => \"ZOIhOhE\",",
   c!"\t\t\tSelf::Zohau => \"ZOhAU\",",
   c!"\t\t\tSelf::Zohehu => \"ZOhEhU\","]

/-- `src/lex/selmaho/display.rs:281-296` -/
def displayRs7 : List (List Char) :=
  [c!"\t\t\tSelf::Zohiho => \"ZOhIhO\",",
   c!"\t\t\tSelf::Zohoi => \"ZOhOI\",",
   c!"",
   c!"\t\t\t// non-cmavo selmaho",
   c!"\t\t\tSelf::Gismu => \"gismu\",",
   c!"\t\t\tSelf::Fuhivla => \"fuhivla\",",
   c!"\t\t\tSelf::Lujvo => \"lujvo\",",
   c!"\t\t\tSelf::Cmevla => \"cmevla\",",
   c!"",
   c!"\t\t\t// technical selmaho",
   c!"\t\t\tSelf::UnknownCmavo => \"(unknown cmavo)\",",
   c!"\t\t\tSelf::AnyText => \"(any text)\",",
   c!"\t\t\tSelf::ZoiDelimiter => \"(zoi delimiter)\",",
   c!"\t\t}",
   c!"\t}",
   c!"}"]

/-- `src/lex/selmaho/display.rs` -/
def displayRs : List (List (List Char)) :=
  [displayRs0, displayRs1, displayRs2, displayRs3, displayRs4, displayRs5, displayRs6, displayRs7]

/-- `src/lex/selmaho/classify.rs:1-40` -/
def classifyRs0 : List (List Char) :=
  [c!"use super::Selmaho;",
   c!"use crate::rules::ParseResultExt as _;",
   c!"",
   c!"fn transform_for_direct_cmavo_check<'a>(word: &str, buf: &'a mut [u8]) -> Option<&'a str> {",
   c!"\tlet mut reached_index = 0;",
   c!"",
   c!"\tfor (index, byte) in word",
   c!"\t\t.bytes()",
   c!"\t\t.filter(|&ch| ch != b',')",
   c!"\t\t.map(|ch| match ch {",
   c!"\t\t\tb'h' => b'\\'',",
   c!"\t\t\tother => other,",
   c!"\t\t})",
   c!"\t\t.enumerate()",
   c!"\t{",
   c!"\t\treached_index = index;",
   c!"\t\tmatch buf.get_mut(index) {",
   c!"\t\t\tSome(place) => *place = byte,",
   c!"\t\t\tNone => break,",
   c!"\t\t}",
   c!"\t}",
   c!"",
   c!"\tif reached_index >= buf.len() {",
   c!"\t\tNone",
   c!"\t} else {",
   c!"\t\tSome(std::str::from_utf8(&buf[..=reached_index]).unwrap())",
   c!"\t}",
   c!"}",
   c!"",
   c!"// this string poisons rustfmt, so put it here so the rest of the match block can be formatted properly",
   c!"const CUHUHU_ETC: &str = \"cu'u'u'u'u'u'u'u'u'u'u'u'u'u'u'u'u'u'u'u'u'u'u'u'u'u'u'u'u'u'u'u'u'u'u'u'u'u'u'u'u'u'u'u'u'u'u'u'u\";",
   c!"",
   c!"impl Selmaho {",
   c!"\tfn classify_generally(other: &str) -> Selmaho {",
   c!"\t\tmatch other {",
   c!"\t\t\t// the order here is important and matches that of `crate::rules::lojban_word` and `crate::rules::brivla_minimal`",
   c!"\t\t\tother if crate::rules::cmevla(other).succeeded_and_consumed_all() => Selmaho::Cmevla,",
   c!"\t\t\tother if crate::rules::cmavo_minimal(other).succeeded_and_consumed_all() => {",
   c!"\t\t\t\tSelmaho::UnknownCmavo",
   c!"\t\t\t}"]

/-- `src/lex/selmaho/classify.rs:41-80` -/
def classifyRs1 : List (List Char) :=
  [c!"\t\t\tother if crate::rules::gismu(other).succeeded_and_consumed_all() => Selmaho::Gismu,",
   c!"\t\t\tother if crate::rules::fuhivla(other).succeeded_and_consumed_all() => Selmaho::Fuhivla,",
   c!"\t\t\tother if crate::rules::lujvo_minimal(other).succeeded_and_consumed_all() => Selmaho::Lujvo,",
   c!"\t\t\t_ => Selmaho::AnyText,",
   c!"\t\t}",
   c!"\t}",
   c!"",
   c!"\t/// Determine the [`Selmaho`] of a word.",
   c!"\t/// This word should already be decomposed; if you need to decompose words, see the [`decompose`] module.",
   c!"\t/// However, if you're doing that, then you might as well use the included lexer directly; see the [`lex`] module.",
   c!"\t/// Also returns, for cmavo selmaho, if the cmavo was experimental.",
   c!"\t///",
   c!"\t/// [decompose]: mod@crate::decompose",
   c!"\t/// [lex]: mod@crate::lex",
   c!"\t#[must_use]",
   c!"\t#[allow(clippy::too_many_lines)] // giant match block",
   c!"\tpub fn classify(word: &str) -> (Self, bool) {",
   c!"\t\tlet mut direct_cmavo_check_buf = [0u8; 16];",
   c!"\t\tlet direct_cmavo_check = transform_for_direct_cmavo_check(word, &mut direct_cmavo_check_buf);",
   c!"",
   c!"\t\tlet mut is_experimental = false;",
   c!"",
   c!"\t\tmacro_rules! experimental {",
   c!"\t\t\t($val:expr) => {{",
   c!"\t\t\t\tis_experimental = true;",
   c!"\t\t\t\t$val",
   c!"\t\t\t}};",
   c!"\t\t}",
   c!"",
   c!"\t\tlet selmaho = if let Some(direct_cmavo_check) = direct_cmavo_check {",
   c!"\t\t\tmatch direct_cmavo_check {",
   c!"\t\t\t\t\"a\" | \"e\" | \"ji\" | \"o\" | \"u\" => Self::A,",
   c!"\t\t\t\t\"e'u'a\" | \"i'a'a\" => experimental!(Self::A),",
   c!"\t\t\t\t\"ba'i\" | \"bai\" | \"bau\" | \"be'i\" | \"ca'i\" | \"cau\" | \"ci'e\" | \"ci'o\" | \"ci'u\" | \"cu'u\"",
   c!"\t\t\t\t| \"de'i\" | \"di'o\" | \"do'e\" | \"du'i\" | \"du'o\" | \"fa'e\" | \"fi'e\" | \"ga'a\" | \"gau\"",
   c!"\t\t\t\t| \"ja'e\" | \"ji'e\" | \"ji'o\" | \"ji'u\" | \"ka'a\" | \"ka'i\" | \"kai\" | \"ki'i\" | \"ki'u\" | \"koi\"",
   c!"\t\t\t\t| \"ku'u\" | \"la'u\" | \"le'a\" | \"li'e\" | \"ma'e\" | \"ma'i\" | \"mau\" | \"me'a\" | \"me'e\"",
   c!"\t\t\t\t| \"mu'i\" | \"mu'u\" | \"ni'i\" | \"pa'a\" | \"pa'u\" | \"pi'o\" | \"pu'a\" | \"pu'e\" | \"ra'a\"",
   c!"\t\t\t\t| \"ra'i\" | \"rai\" | \"ri'a\" | \"ri'i\" | \"sau\" | \"si'u\" | \"ta'i\" | \"tai\" | \"ti'i\" | \"ti'u\"",
   c!"\t\t\t\t| \"tu'i\" | \"va'o\" | \"va'u\" | \"zau\" | \"zu'e\" => Self::Bai,"]

/-- `src/lex/selmaho/classify.rs:81-120` -/
def classifyRs2 : List (List Char) :=
  [c!"\t\t\t\t\"be'ei\" | \"da'ai'a\" | \"de'i'a\" | \"de'i'e\" | \"de'i'i\" | \"de'i'o\" | \"de'i'u\" | \"fi'ei\"",
   c!"\t\t\t\t| \"gai'i\" | \"ja'u\" | \"ka'ai\" | \"kai'ai\" | \"ki'oi\" | \"ko'au\" | \"ku'ai\" | \"li'i'e\"",
   c!"\t\t\t\t| \"mu'ai\" | \"mu'e'ei\" | \"nai'i\" | \"nu'ai\" | \"pau'u\" | \"po'a\" | \"pu'ai\" | \"te'a'a\"",
   c!"\t\t\t\t| \"te'i\" | \"ti'u'a\" | \"ti'u'e\" | \"ti'u'i\" | \"xau\" => experimental!(Self::Bai),",
   c!"\t\t\t\t\"ba'e\" | \"za'e\" | \"ci'a\" => Self::Bahe,",
   c!"\t\t\t\t\"pe'ei\" | \"zai'e\" | \"zei'e\" => experimental!(Self::Bahe),",
   c!"\t\t\t\t\"be\" => Self::Be,",
   c!"\t\t\t\t\"bei\" => Self::Bei,",
   c!"\t\t\t\t\"be'o\" => Self::Beho,",
   c!"\t\t\t\t\"bi'e\" => Self::Bihe,",
   c!"\t\t\t\t\"bi'i\" | \"bi'o\" | \"mi'i\" => Self::Bihi,",
   c!"\t\t\t\t\"bo\" => Self::Bo,",
   c!"\t\t\t\t\"boi\" => Self::Boi,",
   c!"\t\t\t\t\"boi'e'u\" => experimental!(Self::Boi),",
   c!"\t\t\t\t\"bu\" => Self::Bu,",
   c!"\t\t\t\t\"by\" | \"cy\" | \"dy\" | \"fy\" | \"ga'e\" | \"ge'o\" | \"gy\" | \"je'o\" | \"jo'o\" | \"jy\" | \"ky\"",
   c!"\t\t\t\t| \"lo'a\" | \"ly\" | \"my\" | \"na'a\" | \"ny\" | \"py\" | \"ru'o\" | \"ry\" | \"se'e\" | \"sy\" | \"to'a\"",
   c!"\t\t\t\t| \"ty\" | \"vy\" | \"xy\" | \"y'y\" | \"zy\" => Self::By,",
   c!"\t\t\t\t\"bu'o'e\" | \"e'y\" | \"i'y\" | \"iy\" | \"iy'y\" | \"o'y\" | \"u'y\" | \"uy\" | \"jo'au'o\" | \"ro'au'o\" => {",
   c!"\t\t\t\t\texperimental!(Self::By)",
   c!"\t\t\t\t}",
   c!"\t\t\t\t\"cai\" | \"cu'i\" | \"pei\" | \"ru'e\" | \"sai\" => Self::Cai,",
   c!"\t\t\t\t\"cau'i\" | \"dai'i\" | \"na'oi\" | \"ni'au\" | \"pei'a\" | \"dau'i\" | \"mau'i\" | \"me'ai\" => {",
   c!"\t\t\t\t\texperimental!(Self::Cai)",
   c!"\t\t\t\t}",
   c!"\t\t\t\t\"ca'a\" | \"ka'e\" | \"nu'o\" | \"pu'i\" => Self::Caha,",
   c!"\t\t\t\t\"bi'ai\" => experimental!(Self::Caha),",
   c!"\t\t\t\t\"cei\" => Self::Cei,",
   c!"\t\t\t\t\"ce'e\" => Self::Cehe,",
   c!"\t\t\t\t\"co\" => Self::Co,",
   c!"\t\t\t\t\"co'ai'e\" | \"co'au'e\" | \"co'o'e\" => experimental!(Self::Co),",
   c!"\t\t\t\t\"be'e\" | \"coi\" | \"co'o\" | \"fe'o\" | \"fi'i\" | \"je'e\" | \"ju'i\" | \"ke'o\" | \"ki'e\" | \"mi'e\"",
   c!"\t\t\t\t| \"mu'o\" | \"nu'e\" | \"pe'u\" | \"re'i\" | \"ta'a\" | \"vi'o\" => Self::Coi,",
   c!"\t\t\t\t\"a'oi\" | \"bu'oi\" | \"co'oi\" | \"de'a'ai\" | \"di'a'ai\" | \"di'ai\" | \"doi'oi\" | \"fau'u\"",
   c!"\t\t\t\t| \"fe'oi\" | \"fi'i'e\" | \"ke'o'a\" | \"ke'o'o\" | \"ke'o'u\" | \"ku'au'i\" | \"ku'o'e'a\" | \"o'ai\"",
   c!"\t\t\t\t| \"sau'ei\" | \"sau'e'u\" | \"sei'ai\" | \"sei'u\" | \"te'ei\" | \"ve'ei\" | \"xu'e\" | \"zau'e\"",
   c!"\t\t\t\t| \"ci'oi\" | \"go'au\" | \"goi'e\" | \"jo'au\" | \"ki'ai\" | \"sa'ei\" | \"tai'i\" => {",
   c!"\t\t\t\t\texperimental!(Self::Coi)",
   c!"\t\t\t\t}",
   c!"\t\t\t\t\"cu\" => Self::Cu,"]

/-- `src/lex/selmaho/classify.rs:121-160` -/
def classifyRs3 : List (List Char) :=
  [c!"\t\t\t\t\"cu'e\" | \"nau\" => Self::Cuhe,",
   c!"\t\t\t\t\"ba'au\" | \"pu'au\" => experimental!(Self::Cuhe),",
   c!"\t\t\t\t\"da'o\" => Self::Daho,",
   c!"\t\t\t\t\"dai'o\" | \"do'ai\" | \"xei'a\" | \"xei'i\" | \"xei'u\" => experimental!(Self::Daho),",
   c!"\t\t\t\t\"doi\" => Self::Doi,",
   c!"\t\t\t\t\"ve'ai\" | \"da'ei\" | \"da'oi\" => experimental!(Self::Doi),",
   c!"\t\t\t\t\"do'u\" => Self::Dohu,",
   c!"\t\t\t\t\"fa\" | \"fai\" | \"fe\" | \"fi\" | \"fi'a\" | \"fo\" | \"fu\" => Self::Fa,",
   c!"\t\t\t\t\"fai'i\" | \"fa'au'u\" | \"zoi'u\" => experimental!(Self::Fa),",
   c!"\t\t\t\t\"be'a\" | \"vu'a\" | \"du'a\" | \"ne'u\" | \"ru'u\" | \"ri'u\" | \"ti'a\" | \"ga'u\" | \"ca'u\" | \"ni'a\"",
   c!"\t\t\t\t| \"zu'a\" | \"re'o\" | \"te'e\" | \"bu'u\" | \"ne'a\" | \"ne'i\" | \"pa'o\" | \"to'o\" | \"fa'a\"",
   c!"\t\t\t\t| \"ze'o\" | \"zo'a\" | \"zo'i\" => Self::Faha,",
   c!"\t\t\t\t\"bau'u\" | \"gau'o\" | \"du'oi\" | \"zu'au\" => experimental!(Self::Faha),",
   c!"\t\t\t\t\"fa'o\" => Self::Faho,",
   c!"\t\t\t\t\"fa'u'u'u'u'u'u'u'u\" | \"to'au\" => experimental!(Self::Faho),",
   c!"\t\t\t\t\"fe'e\" => Self::Fehe,",
   c!"\t\t\t\t\"fe'u\" => Self::Fehu,",
   c!"\t\t\t\t\"fi'o\" => Self::Fiho,",
   c!"\t\t\t\t\"foi\" => Self::Foi,",
   c!"\t\t\t\t\"fu'a\" => Self::Fuha,",
   c!"\t\t\t\t\"fu'e\" => Self::Fuhe,",
   c!"\t\t\t\t\"fu'ei\" => experimental!(Self::Fuhe),",
   c!"\t\t\t\t\"fu'o\" => Self::Fuho,",
   c!"\t\t\t\t\"ga\" | \"ge\" | \"ge'i\" | \"go\" | \"gu\" => Self::Ga,",
   c!"\t\t\t\t\"ge'u'a\" | \"gi'a'a\" => experimental!(Self::Ga),",
   c!"\t\t\t\t\"ga'o\" | \"ke'i\" => Self::Gaho,",
   c!"\t\t\t\t\"xai'u'oi\" | \"xoi'u'oi\" | \"ma'a'u'oi\" | \"xau'u'oi\" | \"xei'u'oi\" => {",
   c!"\t\t\t\t\texperimental!(Self::Gaho)",
   c!"\t\t\t\t}",
   c!"\t\t\t\t\"ge'u\" => Self::Gehu,",
   c!"\t\t\t\t\"gi\" => Self::Gi,",
   c!"\t\t\t\t\"gi'a\" | \"gi'e\" | \"gi'i\" | \"gi'o\" | \"gi'u\" => Self::Giha,",
   c!"\t\t\t\t\"gi'e'u'a\" | \"gi'i'a'a\" => experimental!(Self::Giha),",
   c!"\t\t\t\t\"goi\" | \"po\" | \"po'e\" | \"po'u\" | \"ne\" | \"no'u\" | \"pe\" => Self::Goi,",
   c!"\t\t\t\t\"voi'e\" => experimental!(Self::Goi),",
   c!"\t\t\t\t\"go'a\" | \"go'e\" | \"go'i\" | \"go'o\" | \"go'u\" | \"bu'a\" | \"bu'e\" | \"bu'i\" | \"co'e\" | \"du\"",
   c!"\t\t\t\t| \"mo\" | \"nei\" | \"no'a\" => Self::Goha,",
   c!"\t\t\t\t\"gai'o\" | \"gi'o'i\" | \"go'ai\" | \"ku'ai'i\" | \"cei'i\" | \"xe'u\" => experimental!(Self::Goha),",
   c!"\t\t\t\t\"gu'a\" | \"gu'e\" | \"gu'i\" | \"gu'o\" | \"gu'u\" => Self::Guha,",
   c!"\t\t\t\t\"gu'e'u'a\" | \"gu'i'a'a\" => experimental!(Self::Guha),"]

/-- `src/lex/selmaho/classify.rs:161-200` -/
def classifyRs4 : List (List Char) :=
  [c!"\t\t\t\t\"i\" => Self::I,",
   c!"\t\t\t\t\"ja\" | \"je\" | \"je'i\" | \"jo\" | \"ju\" => Self::Ja,",
   c!"\t\t\t\t\"je'u'a\" | \"ji'a'a\" => experimental!(Self::Ja),",
   c!"\t\t\t\t\"jai\" => Self::Jai,",
   c!"\t\t\t\t\"ja'ei\" | \"jai'e\" | \"jo'ai\" => experimental!(Self::Jai),",
   c!"\t\t\t\t\"joi\" | \"fa'u\" | \"pi'u\" | \"jo'e\" | \"jo'u\" | \"ju'e\" | \"ku'a\" | \"ce\" | \"ce'o\" => Self::Joi,",
   c!"\t\t\t\t\"fa'u'ai\" | \"xoi'u\" | \"jo'ei\" | \"jo'ei'i\" | \"joi'au'a\" | \"jo'oi\" | \"bo'a'oi\" | \"ce'au\"",
   c!"\t\t\t\t| \"ce'oi\" => experimental!(Self::Joi),",
   c!"\t\t\t\t\"jo'i\" => Self::Johi,",
   c!"\t\t\t\t\"ke\" => Self::Ke,",
   c!"\t\t\t\t\"va'au\" | \"fei'u\" | \"ke'oi\" | \"pi'ai\" => experimental!(Self::Ke),",
   c!"\t\t\t\t\"ke'e\" => Self::Kehe,",
   c!"\t\t\t\t\"kei\" => Self::Kei,",
   c!"\t\t\t\t\"ki\" => Self::Ki,",
   c!"\t\t\t\t\"da\" | \"de\" | \"di\" | \"da'u\" | \"de'e\" | \"dei\" | \"de'u\" | \"di'e\" | \"da'e\" | \"di'u\"",
   c!"\t\t\t\t| \"do'i\" | \"ko\" | \"ma'a\" | \"mi\" | \"mi'a\" | \"do\" | \"do'o\" | \"mi'o\" | \"vo'a\" | \"vo'e\"",
   c!"\t\t\t\t| \"vo'i\" | \"vo'o\" | \"vo'u\" | \"fo'a\" | \"fo'e\" | \"fo'i\" | \"fo'o\" | \"fo'u\" | \"ko'a\"",
   c!"\t\t\t\t| \"ko'e\" | \"ko'i\" | \"ko'o\" | \"ko'u\" | \"ra\" | \"ru\" | \"ri\" | \"ti\" | \"tu\" | \"ta\" | \"ke'a\"",
   c!"\t\t\t\t| \"ma\" | \"zi'o\" | \"zo'e\" | \"zu'i\" | \"ce'u\" => Self::Koha,",
   c!"\t\t\t\t\"kau'a\" | \"kau'e\" | \"kau'i\" | \"da'au\" | \"lau'e\" | \"lau'u\" | \"dei'ei\" | \"ra'au\"",
   c!"\t\t\t\t| \"da'ai\" | \"do'o'o\" | \"mi'ai\" | \"mi'oi\" | \"vau'a\" | \"vau'e\" | \"vau'o\" | \"vau'u\"",
   c!"\t\t\t\t| \"ri'au\" | \"xai\" | \"zoi'i\" | \"tu'oi\" | \"tu'oi'u\" | \"ca'au\" | \"di'au\" | \"di'ei\"",
   c!"\t\t\t\t| \"di'oi\" | \"do'au\" | \"do'ei\" | \"mai'i\" | \"nau'o\" | \"nau'u\" | \"zai'o\" | \"sy'y\"",
   c!"\t\t\t\t| \"zu'ai\" | \"bo'i\" | \"bo'o\" | \"bo'u\" | \"bo'a\" | \"bo'e\" => experimental!(Self::Koha),",
   c!"\t\t\t\t\"ku\" => Self::Ku,",
   c!"\t\t\t\t\"ku'e\" => Self::Kuhe,",
   c!"\t\t\t\t\"ku'o\" => Self::Kuho,",
   c!"\t\t\t\t\"la\" | \"la'i\" | \"lai\" => Self::La,",
   c!"\t\t\t\t\"lai'u\" | \"la'ei\" => experimental!(Self::La),",
   c!"\t\t\t\t\"lau\" | \"tau\" | \"zai\" | \"ce'a\" => Self::Lau,",
   c!"\t\t\t\t\"la'e\" | \"tu'a\" | \"vu'i\" | \"lu'a\" | \"lu'e\" | \"lu'i\" | \"lu'o\" => Self::Lahe,",
   c!"\t\t\t\t\"tau'e\" | \"lai'e\" | \"la'e'au\" | \"lu'au\" | \"cei'u\" | \"du'au\" | \"moi'a\" | \"zo'ei\" => {",
   c!"\t\t\t\t\texperimental!(Self::Lahe)",
   c!"\t\t\t\t}",
   c!"\t\t\t\t\"le\" | \"le'e\" | \"le'i\" | \"lei\" | \"lo\" | \"lo'e\" | \"lo'i\" | \"loi\" => Self::Le,",
   c!"\t\t\t\t\"dau'u\" | \"ji'ai\" | \"kai'i\" | \"le'ei\" | \"lei'e\" | \"lei'i\" | \"lo'au\" | \"loi'a\" | \"loi'e\"",
   c!"\t\t\t\t| \"loi'i\" | \"lo'o'o\" | \"ly'ei\" | \"me'ei\" | \"moi'oi\" | \"mo'oi\" | \"nei'i\" | \"ri'oi\"",
   c!"\t\t\t\t| \"ti'oi\" | \"xai'i\" | \"zo'ai\" | \"zy'oi\" => experimental!(Self::Le),",
   c!"\t\t\t\t\"le'u\" => Self::Lehu,",
   c!"\t\t\t\t\"li\" | \"me'o\" => Self::Li,"]

/-- `src/lex/selmaho/classify.rs:201-240` -/
def classifyRs5 : List (List Char) :=
  [c!"\t\t\t\t\"li'ai\" | \"na'au\" => experimental!(Self::Li),",
   c!"\t\t\t\t\"li'u\" => Self::Lihu,",
   c!"\t\t\t\t\"lo'o\" => Self::Loho,",
   c!"\t\t\t\t\"lo'u\" => Self::Lohu,",
   c!"\t\t\t\t\"la'ai\" => experimental!(Self::Lohu),",
   c!"\t\t\t\t\"lu\" => Self::Lu,",
   c!"\t\t\t\t\"lu'u\" => Self::Luhu,",
   c!"\t\t\t\t\"la'au\" | \"tu'ai\" => experimental!(Self::Lu),",
   c!"\t\t\t\t\"mai\" | \"mo'o\" => Self::Mai,",
   c!"\t\t\t\t\"sai'ei\" | \"ju'ai\" | \"lai'a\" | \"ba'ai\" => experimental!(Self::Mai),",
   c!"\t\t\t\t\"ma'o\" => Self::Maho,",
   c!"\t\t\t\t\"me\" => Self::Me,",
   c!"\t\t\t\t\"du'ai\" | \"me'au\" | \"mei'u\" => experimental!(Self::Me),",
   c!"\t\t\t\t\"me'u\" => Self::Mehu,",
   c!"\t\t\t\t\"moi\" | \"si'e\" | \"va'e\" | \"mei\" | \"cu'o\" => Self::Moi,",
   c!"\t\t\t\t\"jei'o\" | \"ka'oi\" | \"lei'o\" | \"cei'a\" | \"cu'oi'e\" | \"coi'e\" | \"doi'e\" | \"mei'i\"",
   c!"\t\t\t\t| \"moi'e\" | \"moi'o\" | \"moi'u\" | \"nei'o\" | \"soi'e\" => experimental!(Self::Moi),",
   c!"\t\t\t\t\"mo'e\" => Self::Mohe,",
   c!"\t\t\t\t\"mo'i\" => Self::Mohi,",
   c!"\t\t\t\t\"na\" | \"ja'a\" => Self::Na,",
   c!"\t\t\t\t\"xa'au\" | \"xu'o'e\" | \"cau'a\" | \"mai'a\" | \"mai'e\" | \"na'ai\" => experimental!(Self::Na),",
   c!"\t\t\t\t\"nai\" => Self::Nai,",
   c!"\t\t\t\t\"ja'ai\" => experimental!(Self::Nai),",
   c!"\t\t\t\t\"na'e\" | \"to'e\" | \"je'a\" | \"no'e\" => Self::Nahe,",
   c!"\t\t\t\t\"rai'a\" | \"rei'e\" | \"sai'e\" | \"gu'y\" | \"je'ai\" | \"cai'e\" | \"cau'e\" | \"cau'o'e\"",
   c!"\t\t\t\t| \"na'ei\" | \"ni'u'u\" | \"noi'e\" | \"pai'e\" => experimental!(Self::Nahe),",
   c!"\t\t\t\t\"na'u\" => Self::Nahu,",
   c!"\t\t\t\t\"ni'e\" => Self::Nihe,",
   c!"\t\t\t\t\"ni'o\" | \"no'i\" => Self::Niho,",
   c!"\t\t\t\t\"noi\" | \"poi\" | \"voi\" => Self::Noi,",
   c!"\t\t\t\t\"voi'i\" => experimental!(Self::Noi),",
   c!"\t\t\t\t\"nu\" | \"si'o\" | \"jei\" | \"ka\" | \"li'i\" | \"du'u\" | \"ni\" | \"su'u\" | \"pu'u\" | \"za'i\"",
   c!"\t\t\t\t| \"mu'e\" | \"zu'o\" => Self::Nu,",
   c!"\t\t\t\t\"poi'i\" | \"te'oi\" | \"ga'ei\" | \"ka'ei\" | \"kai'ei\" | \"kai'u\" | \"ka'oi'i\" | \"bu'ai\"",
   c!"\t\t\t\t| \"ni'ai\" | \"xe'ei\" => experimental!(Self::Nu),",
   c!"\t\t\t\t\"nu'a\" => Self::Nuha,",
   c!"\t\t\t\t\"nu'i\" => Self::Nuhi,",
   c!"\t\t\t\t\"nu'u\" => Self::Nuhu,",
   c!"\t\t\t\t\"bi\" | \"ce'i\" | \"ci\" | \"ci'i\" | \"da'a\" | \"dau\" | \"du'e\" | \"fei\" | \"fi'u\" | \"gai\"",
   c!"\t\t\t\t| \"jau\" | \"ji'i\" | \"ka'o\" | \"ki'o\" | \"ma'u\" | \"me'i\" | \"mo'a\" | \"mu\" | \"ni'u\" | \"no\""]

/-- `src/lex/selmaho/classify.rs:241-280` -/
def classifyRs6 : List (List Char) :=
  [c!"\t\t\t\t| \"no'o\" | \"pa\" | \"pai\" | \"pi\" | \"pi'e\" | \"ra'e\" | \"rau\" | \"re\" | \"rei\" | \"ro\" | \"so\"",
   c!"\t\t\t\t| \"so'a\" | \"so'e\" | \"so'i\" | \"so'o\" | \"so'u\" | \"su'e\" | \"su'o\" | \"te'o\" | \"tu'o\"",
   c!"\t\t\t\t| \"vai\" | \"vo\" | \"xa\" | \"xo\" | \"za'u\" | \"ze\" | \"1\" | \"2\" | \"3\" | \"4\" | \"5\" | \"6\" | \"7\"",
   c!"\t\t\t\t| \"8\" | \"9\" | \"0\" => Self::Pa,",
   c!"\t\t\t\t\"bi'ei\" | \"by'ai\" | \"ci'i'e\" | \"ci'i'o\" | \"ci'i'oi\" | \"dau'e\" | \"dy'ei\" | \"fai'e'au\"",
   c!"\t\t\t\t| \"fai'u\" | \"fai'u'a\" | \"fu'a'ai\" | \"fu'a'au\" | \"fy'ai\" | \"ga'au\" | \"gau'i'o\"",
   c!"\t\t\t\t| \"go'o'i'a\" | \"ja'au\" | \"ka'ei'a\" | \"ka'o'ai\" | \"ka'o'ei\" | \"kai'o\" | \"kau'o\"",
   c!"\t\t\t\t| \"kei'ei\" | \"kei'o\" | \"koi'o\" | \"ku'i'a\" | \"lai'ai\" | \"mai'e'e\" | \"mei'a\" | \"mu'i'ai\"",
   c!"\t\t\t\t| \"mu'i'u\" | \"na'a'u\" | \"ni'e'ei\" | \"ni'e'oi\" | \"no'ai\" | \"no'e'u\" | \"ny'ei\"",
   c!"\t\t\t\t| \"pa'au'o\" | \"pei'i'a\" | \"pi'au\" | \"pu'e'u'o\" | \"py'ai\" | \"ro'oi\" | \"ru'oi\" | \"sai'i\"",
   c!"\t\t\t\t| \"se'i'i\" | \"sei'a\" | \"sei'u'e\" | \"si'ei\" | \"si'i'ai\" | \"so'au\" | \"soi'ai\" | \"soi'au\"",
   c!"\t\t\t\t| \"su'ai\" | \"su'au\" | \"su'o'o\" | \"su'oi\" | \"sy'au\" | \"tau'u\" | \"va'ei'a\" | \"vau'au'o\"",
   c!"\t\t\t\t| \"vo'ei'a\" | \"vu'ai\" | \"xe'a\" | \"xe'e\" | \"xei\" | \"xi'i'ei\" | \"xo'au\" | \"xo'e\"",
   c!"\t\t\t\t| \"xy'au\" | \"zau'u\" | \"ze'au\" | \"zy'ei\" | \" vi'ei'e\" => {",
   c!"\t\t\t\t\texperimental!(Self::Pa)",
   c!"\t\t\t\t}",
   c!"\t\t\t\t\"pe'e\" => Self::Pehe,",
   c!"\t\t\t\t\"pe'o\" => Self::Peho,",
   c!"\t\t\t\t\"kei'ai\" => experimental!(Self::Peho),",
   c!"\t\t\t\t\"pu\" | \"ba\" | \"ca\" => Self::Pu,",
   c!"\t\t\t\t\"xa'ei\" => experimental!(Self::Pu),",
   c!"\t\t\t\t\"ra'o\" => Self::Raho,",
   c!"\t\t\t\t\"roi\" | \"re'u\" => Self::Roi,",
   c!"\t\t\t\t\"va'ei\" | \"ba'oi\" | \"de'ei\" | \"mu'ei\" => experimental!(Self::Roi),",
   c!"\t\t\t\t\"sa\" => Self::Sa,",
   c!"\t\t\t\t\"se\" | \"te\" | \"ve\" | \"xe\" => Self::Se,",
   c!"\t\t\t\t\"re'au'e\" | \"se'ai'e\" | \"se'au'e\" | \"se'o'e\" | \"se'u'o\" | \"to'ai\" | \"tu'ei\" | \"vo'ai\"",
   c!"\t\t\t\t| \"xo'ai\" | \"ko'ei\" | \"lu'oi\" | \"ze'ai'e\" | \"ze'au'e\" | \"so'o'o'oi\" | \"su'ei\" => {",
   c!"\t\t\t\t\texperimental!(Self::Se)",
   c!"\t\t\t\t}",
   c!"\t\t\t\t\"sei\" | \"ti'o\" => Self::Sei,",
   c!"\t\t\t\t\"sei'e\" | \"le'au\" | \"cei'e\" => experimental!(Self::Sei),",
   c!"\t\t\t\t\"se'u\" => Self::Sehu,",
   c!"\t\t\t\t\"si\" => Self::Si,",
   c!"\t\t\t\t\"si'au'i\" | \"ze'ei\" => experimental!(Self::Si),",
   c!"\t\t\t\t\"soi\" => Self::Soi,",
   c!"\t\t\t\t\"su\" => Self::Su,",
   c!"\t\t\t\t\"ta'e\" | \"ru'i\" | \"di'i\" | \"na'o\" => Self::Tahe,",
   c!"\t\t\t\t\"dei'a\" | \"ze'ai\" | \"zei'a\" => experimental!(Self::Tahe),",
   c!"\t\t\t\t\"tei\" => Self::Tei,"]

/-- `src/lex/selmaho/classify.rs:281-320` -/
def classifyRs7 : List (List Char) :=
  [c!"\t\t\t\t\"te'u\" => Self::Tehu,",
   c!"\t\t\t\t\"to\" | \"to'i\" => Self::To,",
   c!"\t\t\t\t\"toi\" => Self::Toi,",
   c!"\t\t\t\t\"tu'e\" => Self::Tuhe,",
   c!"\t\t\t\t\"tu'u\" => Self::Tuhu,",
   c!"\t\t\t\t\"a'a\" | \"a'e\" | \"a'i\" | \"ai\" | \"a'o\" | \"a'u\" | \"au\" | \"ba'a\" | \"ba'u\" | \"be'u\" | \"bi'u\"",
   c!"\t\t\t\t| \"bu'o\" | \"ca'e\" | \"da'i\" | \"dai\" | \"do'a\" | \"e'a\" | \"e'e\" | \"e'i\" | \"ei\" | \"e'o\"",
   c!"\t\t\t\t| \"e'u\" | \"fu'i\" | \"ga'i\" | \"ge'e\" | \"i'a\" | \"ia\" | \"i'e\" | \"ie\" | \"i'i\" | \"ii\" | \"i'o\"",
   c!"\t\t\t\t| \"io\" | \"i'u\" | \"iu\" | \"ja'o\" | \"je'u\" | \"ji'a\" | \"jo'a\" | \"ju'a\" | \"ju'o\" | \"ka'u\"",
   c!"\t\t\t\t| \"kau\" | \"ke'u\" | \"ki'a\" | \"ku'i\" | \"la'a\" | \"le'o\" | \"li'a\" | \"li'o\" | \"mi'u\"",
   c!"\t\t\t\t| \"mu'a\" | \"na'i\" | \"o'a\" | \"o'e\" | \"o'i\" | \"oi\" | \"o'o\" | \"o'u\" | \"pa'e\" | \"pau\"",
   c!"\t\t\t\t| \"pe'a\" | \"pe'i\" | \"po'o\" | \"ra'u\" | \"re'e\" | \"ri'e\" | \"ro'a\" | \"ro'e\" | \"ro'i\"",
   c!"\t\t\t\t| \"ro'o\" | \"ro'u\" | \"ru'a\" | \"sa'a\" | \"sa'e\" | \"sa'u\" | \"se'a\" | \"se'i\" | \"se'o\"",
   c!"\t\t\t\t| \"si'a\" | \"su'a\" | \"ta'o\" | \"ta'u\" | \"ti'e\" | \"to'u\" | \"u'a\" | \"ua\" | \"u'e\" | \"ue\"",
   c!"\t\t\t\t| \"u'i\" | \"ui\" | \"u'o\" | \"uo\" | \"u'u\" | \"uu\" | \"va'i\" | \"vu'e\" | \"xu\" | \"za'a\" | \"zo'o\"",
   c!"\t\t\t\t| \"zu'u\" => Self::Ui,",
   c!"\t\t\t\t\"fai'a\" | \"rau'o\" | \"si'ai\" | \"tai'a\" | \"tei'i\" | \"tei'o\" | \"uau'o\" | \"ue'e\" | \"uei'e\"",
   c!"\t\t\t\t| \"ui'a\" | \"ui'o\" | \"va'u'au\" | \"fu'ei'a\" | \"fu'ei'e\" | \"fu'ei'i\" | \"fi'ei'o\"",
   c!"\t\t\t\t| \"fu'ei'u\" | \"ii'au\" | \"au'o\" | \"a'u'u\" | \"ca'e'ei\" | \"ci'ai\" | \"cu'ei\" | \"cu'ei'a\"",
   c!"\t\t\t\t| \"cu'ei'ai\" | \"cu'ei'e\" | \"cu'ei'ei\" | \"cu'ei'i\" | \"cu'ei'o\" | \"cu'ei'oi\" | \"cu'ei'u\"",
   c!"\t\t\t\t| \"coi'o'e\" | \"doi'au\" | \"e'au\" | \"ei'u\" | \"mu'au'oi\" | \"oi'a\" | \"pau'ai\" | \"pau'i\"",
   c!"\t\t\t\t| \"zei'i\" | \"su'a'a\" | \"zi'ei\" | \"u'ai\" | \"uai\" | \"uau\" | \"ue'i\" | \"ui'i\" | \"uo'o\"",
   c!"\t\t\t\t| \"uu'i\" | \"ia'u\" | \"ie'e\" | \"ie'i\" | \"a'au\" | \"ai'i\" | \"au'u\" | \"ci'au'u'au'i\"",
   c!"\t\t\t\t| \"e'ei\" | \"ei'au\" | \"ei'e\" | \"ei'i\" | \"mau'u\" | \"mi'au\" | \"ne'au\" | \"oi'o\" | \"oi'u\"",
   c!"\t\t\t\t| \"ri'ai\" | \"sei'i\" | \"si'au\" | \"jei'u\" | \"ju'oi\" | \"kai'a\" | \"kai'e\" | \"ki'au\"",
   c!"\t\t\t\t| \"lai'i\" | \"moi'i\" | \"pei'e\" | \"za'au\" | \"vo'oi\" | \"vei'i\" | \"ta'ei\" | \"te'i'o\"",
   c!"\t\t\t\t| \"xa'i\" | \"xu'a\" | \"fu'au\" | \"je'au\" | \"so'ei\" | \"sy'a\" | \"xe'o\" | \"roi'i\" | \"pei'o\"",
   c!"\t\t\t\t| \"ra'i'au\" | \"xo'o\" | \"jau'i\" | \"ji'ei\" | \"bo'oi\" | \"dai'a\" | \"noi'u\" | \"zai'a\"",
   c!"\t\t\t\t| \"ki'a'au'u'au'i\" | \"ko'oi\" | CUHUHU_ETC => experimental!(Self::Ui),",
   c!"\t\t\t\t\"va\" | \"vi\" | \"vu\" => Self::Va,",
   c!"\t\t\t\t\"xa'e\" => experimental!(Self::Va),",
   c!"\t\t\t\t\"vau\" => Self::Vau,",
   c!"\t\t\t\t\"vei\" => Self::Vei,",
   c!"\t\t\t\t\"ve'a\" | \"ve'e\" | \"ve'i\" | \"ve'u\" => Self::Veha,",
   c!"\t\t\t\t\"ve'o\" => Self::Veho,",
   c!"\t\t\t\t\"ve'oi\" => experimental!(Self::Veho),",
   c!"\t\t\t\t\"vi'a\" | \"vi'u\" | \"vi'e\" | \"vi'i\" => Self::Viha,",
   c!"\t\t\t\t\"vu'o\" => Self::Vuho,",
   c!"\t\t\t\t\"cu'a\" | \"de'o\" | \"fa'i\" | \"fe'a\" | \"fe'i\" | \"fu'u\" | \"ge'a\" | \"gei\" | \"ju'u\" | \"ne'o\"",
   c!"\t\t\t\t| \"pa'i\" | \"pi'a\" | \"pi'i\" | \"re'a\" | \"ri'o\" | \"sa'i\" | \"sa'o\" | \"si'i\" | \"su'i\""]

/-- `src/lex/selmaho/classify.rs:321-360` -/
def classifyRs8 : List (List Char) :=
  [c!"\t\t\t\t| \"te'a\" | \"va'a\" | \"vu'u\" => Self::Vuhu,",
   c!"\t\t\t\t\"bai'ei\" | \"bai'i\" | \"bai'i'i\" | \"be'ei'oi\" | \"bei'u'i\" | \"boi'ai\" | \"ca'ei'a\"",
   c!"\t\t\t\t| \"ca'o'e\" | \"ca'oi\" | \"ci'ai'u\" | \"ci'au'i\" | \"ci'o'au\" | \"cu'ai\" | \"cu'au'ei\"",
   c!"\t\t\t\t| \"da'a'au\" | \"de'au'u\" | \"dei'au'o\" | \"di'ei'o'au\" | \"du'a'e\" | \"du'a'o\" | \"du'ei\"",
   c!"\t\t\t\t| \"fa'ai\" | \"fa'ai'ai\" | \"fa'au\" | \"fau'i\" | \"fe'au'u\" | \"fe'ei\" | \"fei'i\" | \"ga'ai\"",
   c!"\t\t\t\t| \"gau'a\" | \"gu'ai\" | \"gu'au'i\" | \"jau'au\" | \"je'e'e\" | \"ji'e'ai\" | \"ji'i'u\"",
   c!"\t\t\t\t| \"ji'i'u'u\" | \"joi'i\" | \"ka'au\" | \"ku'au'a\" | \"lau'au\" | \"ma'au\" | \"mai'u\" | \"ma'o'e\"",
   c!"\t\t\t\t| \"me'ei'o\" | \"mu'ai'au\" | \"mu'au\" | \"nei'au\" | \"ne'oi\" | \"no'au'au\" | \"pau'a'u\"",
   c!"\t\t\t\t| \"pau'ei\" | \"pau'oi\" | \"pei'e'a\" | \"pi'au'e\" | \"pi'ei\" | \"pi'ei'au\" | \"pi'ei'oi\"",
   c!"\t\t\t\t| \"po'i'oi\" | \"ra'i'e\" | \"rai'i\" | \"ru'ei\" | \"sau'i\" | \"se'i'a'o\" | \"si'oi'e\"",
   c!"\t\t\t\t| \"su'i'e\" | \"su'i'o\" | \"tai'e'i\" | \"tai'i'e\" | \"te'au'u\" | \"te'i'ai\" | \"tei'au\"",
   c!"\t\t\t\t| \"te'o'a\" | \"te'oi'i\" | \"to'ei'au\" | \"vau'i\" | \"vei'u\" | \"vi'oi'au\" | \"vo'au'u\"",
   c!"\t\t\t\t| \"xa'ai\" | \"xo'ei\" | \"xo'e'o'ei\" | \"za'ei\" | \"zei'i'au\" | \"zi'a'o\" | \"zu'oi\" => {",
   c!"\t\t\t\t\texperimental!(Self::Vuhu)",
   c!"\t\t\t\t}",
   c!"\t\t\t\t\"xi\" => Self::Xi,",
   c!"\t\t\t\t\"fau'e\" | \"te'ai\" | \"xi'e\" | \"xi'i\" => experimental!(Self::Xi),",
   c!"\t\t\t\tword if !word.is_empty() && word.chars().all(|ch| ch == 'y') => Self::Y,",
   c!"\t\t\t\t\"ie'o\" | \"ko'o'o'o'o\" => experimental!(Self::Y),",
   c!"\t\t\t\t\"za'o\" | \"ba'o\" | \"pu'o\" | \"ca'o\" | \"co'a\" | \"co'i\" | \"co'u\" | \"de'a\" | \"di'a\" | \"mo'u\" => {",
   c!"\t\t\t\t\tSelf::Zaho",
   c!"\t\t\t\t}",
   c!"\t\t\t\t\"sau'a\" | \"xo'u\" | \"ca'o'a\" | \"co'a'a\" | \"co'au'a\" | \"co'u'a\" | \"xa'o\" => {",
   c!"\t\t\t\t\texperimental!(Self::Zaho)",
   c!"\t\t\t\t}",
   c!"\t\t\t\t\"zei\" => Self::Zei,",
   c!"\t\t\t\t\"ze'a\" | \"ze'e\" | \"ze'i\" | \"ze'u\" => Self::Zeha,",
   c!"\t\t\t\t\"zei'au\" => experimental!(Self::Zeha),",
   c!"\t\t\t\t\"zi\" | \"za\" | \"zu\" => Self::Zi,",
   c!"\t\t\t\t\"za'ai\" => experimental!(Self::Zi),",
   c!"\t\t\t\t\"zi'e\" => Self::Zihe,",
   c!"\t\t\t\t\"zo\" => Self::Zo,",
   c!"\t\t\t\t\"ra'ai\" | \"doi'u\" | \"ma'oi\" | \"ma'oi'e\" => experimental!(Self::Zo),",
   c!"\t\t\t\t\"zoi\" | \"la'o\" => Self::Zoi,",
   c!"\t\t\t\t\"zo'u\" => Self::Zohu,",
   c!"\t\t\t\t\"fi'ai\" | \"ge'ai\" | \"ke'au\" | \"ce'ai\" => experimental!(Self::Zohu),",
   c!"",
   c!"\t\t\t\t// experimental selmaho",
   c!"\t\t\t\t\"ba'ei\" => Self::Bahei,",
   c!"\t\t\t\t\"bei'e\" => Self::Beihe,"]

/-- `src/lex/selmaho/classify.rs:361-400` -/
def classifyRs9 : List (List Char) :=
  [c!"\t\t\t\t\"boi'oi\" => Self::Boihoi,",
   c!"\t\t\t\t\"ca'ei\" | \"pu'ei\" => Self::Cahei,",
   c!"\t\t\t\t\"ce'ei'oi\" => Self::Ceheihoi,",
   c!"\t\t\t\t\"co'ai\" => Self::Cohai,",
   c!"\t\t\t\t\"co'e'o'e\" => Self::Cohehohe,",
   c!"\t\t\t\t\"co'u'o\" => Self::Cohuho,",
   c!"\t\t\t\t\"cu'au\" => Self::Cuhau,",
   c!"\t\t\t\t\"dau'o\" => Self::Dauho,",
   c!"\t\t\t\t\"de'ai\" => Self::Dehai,",
   c!"\t\t\t\t\"dau'a\" | \"de'au\" | \"de'oi\" | \"doi'a\" => Self::Dehau,",
   c!"\t\t\t\t\"do'oi\" => Self::Dohoi,",
   c!"\t\t\t\t\"fau'a\" | \"fau'ai\" => Self::Fauha,",
   c!"\t\t\t\t\"fa'o'o\" => Self::Fahoho,",
   c!"\t\t\t\t\"fi'oi\" => Self::Fihoi,",
   c!"\t\t\t\t\"foi'e\" => Self::Foihe,",
   c!"\t\t\t\t\"ga'u'au\" | \"ni'a'a\" => Self::Gahuhau,",
   c!"\t\t\t\t\"ge'u'i\" => Self::Gehuhi,",
   c!"\t\t\t\t\"gi'ei\" => Self::Gihei,",
   c!"\t\t\t\t\"gi'oi\" => Self::Gihoi,",
   c!"\t\t\t\t\"bo'ei\" | \"go'oi\" | \"sau'e\" | \"ta'ai\" | \"ze'oi\" => Self::Gohoi,",
   c!"\t\t\t\t\"iau\" | \"i'au\" => Self::Ihau,",
   c!"\t\t\t\t\"jai'a\" => Self::Jaiha,",
   c!"\t\t\t\t\"jai'i\" => Self::Jaihi,",
   c!"\t\t\t\t\"jau'u\" => Self::Jauhu,",
   c!"\t\t\t\t\"fau'au\" | \"ja'oi\" => Self::Jahoi,",
   c!"\t\t\t\t\"ji'oi\" | \"ni'oi\" => Self::Jihoi,",
   c!"\t\t\t\t\"boi'au\" | \"fa'ei\" | \"gei'i'e\" => Self::Joihi,",
   c!"\t\t\t\t\"xa'ei'o\" | \"xa'ei'u\" => Self::Johe,",
   c!"\t\t\t\t\"ju'au\" => Self::Juhau,",
   c!"\t\t\t\t\"ju'ei\" => Self::Juhei,",
   c!"\t\t\t\t\"ju'u'i\" => Self::Juhuhi,",
   c!"\t\t\t\t\"kau'ai\" | \"kau'au\" => Self::Kauhai,",
   c!"\t\t\t\t\"kau'u\" => Self::Kauhu,",
   c!"\t\t\t\t\"kei'au\" => Self::Keihau,",
   c!"\t\t\t\t\"kei'i\" => Self::Keihi,",
   c!"\t\t\t\t\"ke'ei\" => Self::Kehei,",
   c!"\t\t\t\t\"ke'ei'a\" => Self::Keheiha,",
   c!"\t\t\t\t\"ke'e'au\" => Self::Kehehau,",
   c!"\t\t\t\t\"ke'e'u\" => Self::Kehehu,",
   c!"\t\t\t\t\"ke'u'i\" => Self::Kehuhi,"]

/-- `src/lex/selmaho/classify.rs:401-440` -/
def classifyRs10 : List (List Char) :=
  [c!"\t\t\t\t\"ku'au\" => Self::Kuhau,",
   c!"\t\t\t\t\"ku'ei\" => Self::Kuhei,",
   c!"\t\t\t\t\"ku'oi'u\" => Self::Kuhoihu,",
   c!"\t\t\t\t\"fy'oi\" | \"ky'oi\" => Self::Kyhoi,",
   c!"\t\t\t\t\"le'ai\" => Self::Lehai,",
   c!"\t\t\t\t\"li'au\" => Self::Lihau,",
   c!"\t\t\t\t\"li'ei\" => Self::Lihei,",
   c!"\t\t\t\t\"lo'ai\" | \"sa'ai\" => Self::Lohai,",
   c!"\t\t\t\t\"fo'ai\" | \"ko'ai\" | \"koi'i\" | \"lo'oi\" | \"mau'a\" | \"xau'a\" | \"xu'u\" => Self::Lohoi,",
   c!"\t\t\t\t\"lu'ei\" => Self::Luhei,",
   c!"\t\t\t\t\"mau'au\" => Self::Mauhau,",
   c!"\t\t\t\t\"mau'e\" => Self::Mauhe,",
   c!"\t\t\t\t\"mau'o\" => Self::Mauho,",
   c!"\t\t\t\t\"mei'e\" => Self::Meihe,",
   c!"\t\t\t\t\"mei'o\" => Self::Meiho,",
   c!"\t\t\t\t\"me'oi\" => Self::Mehoi,",
   c!"\t\t\t\t\"mu'oi\" => Self::Muhoi,",
   c!"\t\t\t\t\"mu'o'u\" => Self::Muhohu,",
   c!"\t\t\t\t\"nei'ai\" => Self::Neihai,",
   c!"\t\t\t\t\"noi'a\" | \"poi'a\" | \"poi'o'a\" | \"soi'a\" => Self::Noiha,",
   c!"\t\t\t\t\"noi'au\" | \"poi'au\" => Self::Noihau,",
   c!"\t\t\t\t\"noi'a'u\" | \"poi'a'u\" => Self::Noihahu,",
   c!"\t\t\t\t\"noi'i\" => Self::Noihi,",
   c!"\t\t\t\t\"no'oi\" | \"po'oi\" => Self::Nohoi,",
   c!"\t\t\t\t\"rau'oi\" => Self::Rauho,",
   c!"\t\t\t\t\"re'ai'e\" => Self::Rehaihe,",
   c!"\t\t\t\t\"sau'u\" => Self::Sauhu,",
   c!"\t\t\t\t\"sa'au\" => Self::Sahau,",
   c!"\t\t\t\t\"sa'oi\" => Self::Sahoi,",
   c!"\t\t\t\t\"sei'au\" => Self::Seihau,",
   c!"\t\t\t\t\"sei'o\" => Self::Seiho,",
   c!"\t\t\t\t\"se'e'i\" | \"te'e'a\" | \"te'e'i\" | \"ve'e'a\" | \"ve'e'i\" | \"ve'e'u\" | \"xe'e'i\" | \"xe'e'o\"",
   c!"\t\t\t\t| \"xe'e'u\" | \"ze'e'a\" | \"ze'e'au\" | \"ze'e'e\" | \"ze'e'i\" | \"ze'e'o\" | \"ze'e'u\" => Self::Sehehi,",
   c!"\t\t\t\t\"se'oi'oi\" => Self::Sehoihoi,",
   c!"\t\t\t\t\"si'i'ei\" => Self::Sihihei,",
   c!"\t\t\t\t\"si'i'oi\" => Self::Sihihoi,",
   c!"\t\t\t\t\"si'oi\" => Self::Sihoi,",
   c!"\t\t\t\t\"soi'i\" => Self::Soihi,",
   c!"\t\t\t\t\"so'e'ai\" => Self::Sohehai,",
   c!"\t\t\t\t\"so'oi\" => Self::Sohoi,"]

/-- `src/lex/selmaho/classify.rs:441-480` -/
def classifyRs11 : List (List Char) :=
  [c!"\t\t\t\t\"tai'u\" => Self::Taihu,",
   c!"\t\t\t\t\"tau'o\" => Self::Tauho,",
   c!"\t\t\t\t\"ta'oi\" => Self::Tahoi,",
   c!"\t\t\t\t\"ta'u'i\" | \"ta'u'u\" => Self::Tahuhi,",
   c!"\t\t\t\t\"tei'u\" => Self::Teihu,",
   c!"\t\t\t\t\"te'oi'oi\" => Self::Tehoihoi,",
   c!"\t\t\t\t\"toi'e\" => Self::Toihe,",
   c!"\t\t\t\t\"toi'o\" => Self::Toiho,",
   c!"\t\t\t\t\"vau'e'oi\" => Self::Vauhehoi,",
   c!"\t\t\t\t\"vau'o'oi\" => Self::Vauhohoi,",
   c!"\t\t\t\t\"vu'oi\" => Self::Vuhoi,",
   c!"\t\t\t\t\"vy'y\" => Self::Vyhy,",
   c!"\t\t\t\t\"xau'e'o\" => Self::Xauheho,",
   c!"\t\t\t\t\"xa'oi'a'oi'a\" => Self::Xahoihahoiha,",
   c!"\t\t\t\t\"xe'au\" => Self::Xehau,",
   c!"\t\t\t\t\"no'au\" | \"xoi\" => Self::Xoi,",
   c!"\t\t\t\t\"xo'a\" => Self::Xoha,",
   c!"\t\t\t\t\"xo'e'o'e\" => Self::Xohehohe,",
   c!"\t\t\t\t\"xo'i\" => Self::Xohi,",
   c!"\t\t\t\t\"xu'au\" => Self::Xuhau,",
   c!"\t\t\t\t\"ji'o'e\" | \"y'i\" => Self::Yhi,",
   c!"\t\t\t\t\"zai'ai\" => Self::Zaihai,",
   c!"\t\t\t\t\"rai'o\" | \"zai'u\" => Self::Zaihu,",
   c!"\t\t\t\t\"zau'e'u\" => Self::Zauhehu,",
   c!"\t\t\t\t\"zei'ei\" => Self::Zeihei,",
   c!"\t\t\t\t\"zei'oi\" => Self::Zeihoi,",
   c!"\t\t\t\t\"zi'e'a\" | \"zi'e'e\" | \"zi'e'i\" | \"zi'e'o\" | \"zi'e'u\" => Self::Ziheha,",
   c!"\t\t\t\t\"zi'e'au\" => Self::Zihehau,",
   c!"\t\t\t\t\"zei'o\" | \"zi'oi\" => Self::Zihoi,",
   c!"\t\t\t\t\"zoi'ai\" => Self::Zoihai,",
   c!"\t\t\t\t\"zoi'ai'e\" | \"zoi'o'e\" => Self::Zoihohe,",
   c!"\t\t\t\t\"zo'au\" => Self::Zohau,",
   c!"\t\t\t\t\"zo'e'u\" => Self::Zohehu,",
   c!"\t\t\t\t\"zo'i'o\" => Self::Zohiho,",
   c!"\t\t\t\t\"la'oi\" | \"ra'oi\" | \"zo'oi\" => Self::Zohoi,",
   c!"\t\t\t\t_ => Self::classify_generally(word),",
   c!"\t\t\t}",
   c!"\t\t} else {",
   c!"\t\t\tSelf::classify_generally(word)",
   c!"\t\t};"]

/-- `src/lex/selmaho/classify.rs:481-487` -/
def classifyRs12 : List (List Char) :=
  [c!"",
   c!"\t\t(",
   c!"\t\t\tselmaho,",
   c!"\t\t\tselmaho.is_fundamentally_experimental() || is_experimental,",
   c!"\t\t)",
   c!"\t}",
   c!"}"]

/-- `src/lex/selmaho/classify.rs` -/
def classifyRs : List (List (List Char)) :=
  [classifyRs0, classifyRs1, classifyRs2, classifyRs3, classifyRs4, classifyRs5, classifyRs6, classifyRs7, classifyRs8, classifyRs9, classifyRs10, classifyRs11, classifyRs12]

end Sneturfahi.Source
