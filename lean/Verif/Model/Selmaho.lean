import Verif.Model.Prim

/-!
# `src/lex/selmaho/mod.rs` and `src/lex/selmaho/display.rs`

Generated by `tools/gen_selmaho.py` from the text of those files.
-/

namespace Sneturfahi

/-- `Selmaho`, `src/lex/selmaho/mod.rs:15-280`. -/
inductive Selmaho where
  | A
  | Bai
  | Bahe
  | Be
  | Bei
  | Beho
  | Bihe
  | Bihi
  | Bo
  | Boi
  | Bu
  | By
  | Cai
  | Caha
  | Cei
  | Cehe
  | Co
  | Coi
  | Cu
  | Cuhe
  | Daho
  | Doi
  | Dohu
  | Fa
  | Faha
  | Faho
  | Fehe
  | Fehu
  | Fiho
  | Foi
  | Fuha
  | Fuhe
  | Fuho
  | Ga
  | Gaho
  | Gehu
  | Gi
  | Giha
  | Goi
  | Goha
  | Guha
  | I
  | Ja
  | Jai
  | Joi
  | Johi
  | Ke
  | Kei
  | Kehe
  | Ki
  | Koha
  | Ku
  | Kuhe
  | Kuho
  | La
  | Lau
  | Lahe
  | Le
  | Lehu
  | Li
  | Lihu
  | Loho
  | Lohu
  | Lu
  | Luhu
  | Mai
  | Maho
  | Me
  | Mehu
  | Moi
  | Mohe
  | Mohi
  | Na
  | Nai
  | Nahe
  | Nahu
  | Nihe
  | Niho
  | Noi
  | Nu
  | Nuha
  | Nuhi
  | Nuhu
  | Pa
  | Pehe
  | Peho
  | Pu
  | Raho
  | Roi
  | Sa
  | Se
  | Sei
  | Sehu
  | Si
  | Soi
  | Su
  | Tahe
  | Tei
  | Tehu
  | To
  | Toi
  | Tuhe
  | Tuhu
  | Ui
  | Va
  | Vau
  | Vei
  | Veha
  | Veho
  | Viha
  | Vuho
  | Vuhu
  | Xi
  | Y
  | Zaho
  | Zei
  | Zeha
  | Zi
  | Zihe
  | Zo
  | Zoi
  | Zohu
  | Bahei
  | Beihe
  | Boihoi
  | Boihohu
  | Cahei
  | Ceheihoi
  | Cohai
  | Cohehohe
  | Cohuho
  | Cuhau
  | Dauho
  | Dehai
  | Dehau
  | Dohoi
  | Fauha
  | Fahoho
  | Fihoi
  | Foihe
  | Gahuhau
  | Gehuhi
  | Gihei
  | Gihoi
  | Gohoi
  | Ihau
  | Jaiha
  | Jaihi
  | Jauhu
  | Jahoi
  | Jihoi
  | Joihi
  | Johe
  | Juhau
  | Juhei
  | Juhuhi
  | Kauhai
  | Kauhu
  | Keihau
  | Keihi
  | Kehai
  | Kehei
  | Keheiha
  | Kehehau
  | Kehehu
  | Kehuhi
  | Kuhau
  | Kuhei
  | Kuhoihu
  | Kyhoi
  | Lehai
  | Lihau
  | Lihei
  | Lohai
  | Lohoi
  | Luhei
  | Mauhau
  | Mauhe
  | Mauho
  | Meihe
  | Meiho
  | Mehoi
  | Muhoi
  | Muhohu
  | Neihai
  | Noiha
  | Noihau
  | Noihahu
  | Noihi
  | Nohoi
  | Rauho
  | Rehaihe
  | Sauhu
  | Sahau
  | Sahoi
  | Seihau
  | Seiho
  | Sehehi
  | Sehoihoi
  | Sihihei
  | Sihihoi
  | Sihoi
  | Soihi
  | Sohehai
  | Sohoi
  | Taihu
  | Tauho
  | Tahoi
  | Tahuhi
  | Teihu
  | Tehoihoi
  | Toihe
  | Toiho
  | Vauhehoi
  | Vauhohoi
  | Vuhoi
  | Vyhy
  | Xauhe
  | Xauheho
  | Xauho
  | Xauhoi
  | Xauhoho
  | Xahoihahoiha
  | Xehau
  | Xoi
  | Xoha
  | Xohehohe
  | Xohi
  | Xuhau
  | Yhi
  | Zaihai
  | Zaihu
  | Zauhehu
  | Zeihei
  | Zeihoi
  | Ziheha
  | Zihehau
  | Zihoi
  | Zoihai
  | Zoihohe
  | Zohau
  | Zohehu
  | Zohiho
  | Zohoi
  | Gismu
  | Fuhivla
  | Lujvo
  | Cmevla
  | UnknownCmavo
  | AnyText
  | ZoiDelimiter
deriving DecidableEq, Repr

/-- Every variant, in declaration order.  `src/lex/selmaho/mod.rs:15-280`. -/
def Selmaho.all : List Selmaho :=
  [.A, .Bai, .Bahe, .Be, .Bei, .Beho, .Bihe, .Bihi, .Bo, .Boi, .Bu, .By, .Cai, .Caha, .Cei, .Cehe,
    .Co, .Coi, .Cu, .Cuhe, .Daho, .Doi, .Dohu, .Fa, .Faha, .Faho, .Fehe, .Fehu, .Fiho, .Foi, .Fuha,
    .Fuhe, .Fuho, .Ga, .Gaho, .Gehu, .Gi, .Giha, .Goi, .Goha, .Guha, .I, .Ja, .Jai, .Joi, .Johi,
    .Ke, .Kei, .Kehe, .Ki, .Koha, .Ku, .Kuhe, .Kuho, .La, .Lau, .Lahe, .Le, .Lehu, .Li, .Lihu,
    .Loho, .Lohu, .Lu, .Luhu, .Mai, .Maho, .Me, .Mehu, .Moi, .Mohe, .Mohi, .Na, .Nai, .Nahe, .Nahu,
    .Nihe, .Niho, .Noi, .Nu, .Nuha, .Nuhi, .Nuhu, .Pa, .Pehe, .Peho, .Pu, .Raho, .Roi, .Sa, .Se,
    .Sei, .Sehu, .Si, .Soi, .Su, .Tahe, .Tei, .Tehu, .To, .Toi, .Tuhe, .Tuhu, .Ui, .Va, .Vau, .Vei,
    .Veha, .Veho, .Viha, .Vuho, .Vuhu, .Xi, .Y, .Zaho, .Zei, .Zeha, .Zi, .Zihe, .Zo, .Zoi, .Zohu,
    .Bahei, .Beihe, .Boihoi, .Boihohu, .Cahei, .Ceheihoi, .Cohai, .Cohehohe, .Cohuho, .Cuhau,
    .Dauho, .Dehai, .Dehau, .Dohoi, .Fauha, .Fahoho, .Fihoi, .Foihe, .Gahuhau, .Gehuhi, .Gihei,
    .Gihoi, .Gohoi, .Ihau, .Jaiha, .Jaihi, .Jauhu, .Jahoi, .Jihoi, .Joihi, .Johe, .Juhau, .Juhei,
    .Juhuhi, .Kauhai, .Kauhu, .Keihau, .Keihi, .Kehai, .Kehei, .Keheiha, .Kehehau, .Kehehu,
    .Kehuhi, .Kuhau, .Kuhei, .Kuhoihu, .Kyhoi, .Lehai, .Lihau, .Lihei, .Lohai, .Lohoi, .Luhei,
    .Mauhau, .Mauhe, .Mauho, .Meihe, .Meiho, .Mehoi, .Muhoi, .Muhohu, .Neihai, .Noiha, .Noihau,
    .Noihahu, .Noihi, .Nohoi, .Rauho, .Rehaihe, .Sauhu, .Sahau, .Sahoi, .Seihau, .Seiho, .Sehehi,
    .Sehoihoi, .Sihihei, .Sihihoi, .Sihoi, .Soihi, .Sohehai, .Sohoi, .Taihu, .Tauho, .Tahoi,
    .Tahuhi, .Teihu, .Tehoihoi, .Toihe, .Toiho, .Vauhehoi, .Vauhohoi, .Vuhoi, .Vyhy, .Xauhe,
    .Xauheho, .Xauho, .Xauhoi, .Xauhoho, .Xahoihahoiha, .Xehau, .Xoi, .Xoha, .Xohehohe, .Xohi,
    .Xuhau, .Yhi, .Zaihai, .Zaihu, .Zauhehu, .Zeihei, .Zeihoi, .Ziheha, .Zihehau, .Zihoi, .Zoihai,
    .Zoihohe, .Zohau, .Zohehu, .Zohiho, .Zohoi, .Gismu, .Fuhivla, .Lujvo, .Cmevla, .UnknownCmavo,
    .AnyText, .ZoiDelimiter]

/-- `Selmaho::is_fundamentally_experimental`,
    `src/lex/selmaho/mod.rs:297-552`: the arms answering `true`.
The other arm lists all the other variants. -/
def Selmaho.isFundamentallyExperimental : Selmaho → Bool
  | .Bahei => true
  | .Beihe => true
  | .Boihoi => true
  | .Boihohu => true
  | .Cahei => true
  | .Ceheihoi => true
  | .Cohai => true
  | .Cohehohe => true
  | .Cohuho => true
  | .Cuhau => true
  | .Dauho => true
  | .Dehai => true
  | .Dehau => true
  | .Dohoi => true
  | .Fauha => true
  | .Fahoho => true
  | .Fihoi => true
  | .Foihe => true
  | .Gahuhau => true
  | .Gehuhi => true
  | .Gihei => true
  | .Gihoi => true
  | .Gohoi => true
  | .Ihau => true
  | .Jaiha => true
  | .Jaihi => true
  | .Jauhu => true
  | .Jahoi => true
  | .Jihoi => true
  | .Joihi => true
  | .Johe => true
  | .Juhau => true
  | .Juhei => true
  | .Juhuhi => true
  | .Kauhai => true
  | .Kauhu => true
  | .Keihau => true
  | .Keihi => true
  | .Kehai => true
  | .Kehei => true
  | .Keheiha => true
  | .Kehehau => true
  | .Kehehu => true
  | .Kehuhi => true
  | .Kuhau => true
  | .Kuhei => true
  | .Kuhoihu => true
  | .Kyhoi => true
  | .Lehai => true
  | .Lihau => true
  | .Lihei => true
  | .Lohai => true
  | .Lohoi => true
  | .Luhei => true
  | .Mauhau => true
  | .Mauhe => true
  | .Mauho => true
  | .Meihe => true
  | .Meiho => true
  | .Mehoi => true
  | .Muhoi => true
  | .Muhohu => true
  | .Neihai => true
  | .Noiha => true
  | .Noihau => true
  | .Noihahu => true
  | .Noihi => true
  | .Nohoi => true
  | .Rauho => true
  | .Rehaihe => true
  | .Sauhu => true
  | .Sahau => true
  | .Sahoi => true
  | .Seihau => true
  | .Seiho => true
  | .Sehehi => true
  | .Sehoihoi => true
  | .Sihihei => true
  | .Sihihoi => true
  | .Sihoi => true
  | .Soihi => true
  | .Sohehai => true
  | .Sohoi => true
  | .Taihu => true
  | .Tauho => true
  | .Tahoi => true
  | .Tahuhi => true
  | .Teihu => true
  | .Tehoihoi => true
  | .Toihe => true
  | .Toiho => true
  | .Vauhehoi => true
  | .Vauhohoi => true
  | .Vuhoi => true
  | .Vyhy => true
  | .Xauhe => true
  | .Xauheho => true
  | .Xauho => true
  | .Xauhoi => true
  | .Xauhoho => true
  | .Xahoihahoiha => true
  | .Xehau => true
  | .Xoi => true
  | .Xoha => true
  | .Xohehohe => true
  | .Xohi => true
  | .Xuhau => true
  | .Yhi => true
  | .Zaihai => true
  | .Zaihu => true
  | .Zauhehu => true
  | .Zeihei => true
  | .Zeihoi => true
  | .Ziheha => true
  | .Zihehau => true
  | .Zihoi => true
  | .Zoihai => true
  | .Zoihohe => true
  | .Zohau => true
  | .Zohehu => true
  | .Zohiho => true
  | .Zohoi => true
  | .UnknownCmavo => true
  | _ => false

/-- `Selmaho::as_repr` (and `Display`), `src/lex/selmaho/display.rs:34-295`. -/
def Selmaho.asRepr : Selmaho → List Char
  | .A => c!"A"
  | .Bai => c!"BAI"
  | .Bahe => c!"BAhE"
  | .Be => c!"BE"
  | .Bei => c!"BEI"
  | .Beho => c!"BEhO"
  | .Bihe => c!"BIhE"
  | .Bihi => c!"BIhI"
  | .Bo => c!"BO"
  | .Boi => c!"BOI"
  | .Bu => c!"BU"
  | .By => c!"BY"
  | .Cai => c!"CAI"
  | .Caha => c!"CAhA"
  | .Cei => c!"CEI"
  | .Cehe => c!"CEhE"
  | .Co => c!"CO"
  | .Coi => c!"COI"
  | .Cu => c!"CU"
  | .Cuhe => c!"CUhE"
  | .Daho => c!"DAhO"
  | .Doi => c!"DOI"
  | .Dohu => c!"DOhU"
  | .Fa => c!"FA"
  | .Faha => c!"FAhA"
  | .Faho => c!"FAhO"
  | .Fehe => c!"FEhE"
  | .Fehu => c!"FEhU"
  | .Fiho => c!"FIhO"
  | .Foi => c!"FOI"
  | .Fuha => c!"FUhA"
  | .Fuhe => c!"FUhE"
  | .Fuho => c!"FUhO"
  | .Ga => c!"GA"
  | .Gaho => c!"GAhO"
  | .Gehu => c!"GEhU"
  | .Gi => c!"GI"
  | .Giha => c!"GIhA"
  | .Goi => c!"GOI"
  | .Goha => c!"GOhA"
  | .Guha => c!"GUhA"
  | .I => c!"I"
  | .Ja => c!"JA"
  | .Jai => c!"JAI"
  | .Joi => c!"JOI"
  | .Johi => c!"JOhI"
  | .Ke => c!"KE"
  | .Kei => c!"KEI"
  | .Kehe => c!"KEhE"
  | .Ki => c!"KI"
  | .Koha => c!"KOhA"
  | .Ku => c!"KU"
  | .Kuhe => c!"KUhE"
  | .Kuho => c!"KUhO"
  | .La => c!"LA"
  | .Lau => c!"LAU"
  | .Lahe => c!"LAhE"
  | .Le => c!"LE"
  | .Lehu => c!"LEhU"
  | .Li => c!"LI"
  | .Lihu => c!"LIhU"
  | .Loho => c!"LOhO"
  | .Lohu => c!"LOhU"
  | .Lu => c!"LU"
  | .Luhu => c!"LUhU"
  | .Mai => c!"MAI"
  | .Maho => c!"MAhO"
  | .Me => c!"ME"
  | .Mehu => c!"MEhU"
  | .Moi => c!"MOI"
  | .Mohe => c!"MOhE"
  | .Mohi => c!"MOhI"
  | .Na => c!"NA"
  | .Nai => c!"NAI"
  | .Nahe => c!"NAhE"
  | .Nahu => c!"NAhU"
  | .Nihe => c!"NIhE"
  | .Niho => c!"NIhO"
  | .Noi => c!"NOI"
  | .Nu => c!"NU"
  | .Nuha => c!"NUhA"
  | .Nuhi => c!"NUhI"
  | .Nuhu => c!"NUhU"
  | .Pa => c!"PA"
  | .Pehe => c!"PEhE"
  | .Peho => c!"PEhO"
  | .Pu => c!"PU"
  | .Raho => c!"RAhO"
  | .Roi => c!"ROI"
  | .Sa => c!"SA"
  | .Se => c!"SE"
  | .Sei => c!"SEI"
  | .Sehu => c!"SEhU"
  | .Si => c!"SI"
  | .Soi => c!"SOI"
  | .Su => c!"SU"
  | .Tahe => c!"TAhE"
  | .Tei => c!"TEI"
  | .Tehu => c!"TEhU"
  | .To => c!"TO"
  | .Toi => c!"TOI"
  | .Tuhe => c!"TUhE"
  | .Tuhu => c!"TUhU"
  | .Ui => c!"UI"
  | .Va => c!"VA"
  | .Vau => c!"VAU"
  | .Vei => c!"VEI"
  | .Veha => c!"VEhA"
  | .Veho => c!"VEhO"
  | .Viha => c!"VIhA"
  | .Vuho => c!"VUhO"
  | .Vuhu => c!"VUhU"
  | .Xi => c!"XI"
  | .Y => c!"Y"
  | .Zaho => c!"ZAhO"
  | .Zei => c!"ZEI"
  | .Zeha => c!"ZEhA"
  | .Zi => c!"ZI"
  | .Zihe => c!"ZIhE"
  | .Zo => c!"ZO"
  | .Zoi => c!"ZOI"
  | .Zohu => c!"ZOhU"
  | .Bahei => c!"BAhEI"
  | .Beihe => c!"BEIhE"
  | .Boihoi => c!"BOIhOI"
  | .Boihohu => c!"BOIhOhU"
  | .Cahei => c!"CAhEI"
  | .Ceheihoi => c!"CEhEIhOI"
  | .Cohai => c!"COhAI"
  | .Cohehohe => c!"COhEhOhE"
  | .Cohuho => c!"COhUhO"
  | .Cuhau => c!"CUhAU"
  | .Dauho => c!"DAUhO"
  | .Dehai => c!"DEhAI"
  | .Dehau => c!"DEhAU"
  | .Dohoi => c!"DOhOI"
  | .Fauha => c!"FAUhA"
  | .Fahoho => c!"FAhOhO"
  | .Fihoi => c!"FIhOI"
  | .Foihe => c!"FOIhE"
  | .Gahuhau => c!"GAhUhAU"
  | .Gehuhi => c!"GEhUhI"
  | .Gihei => c!"GIhEI"
  | .Gihoi => c!"GIhOI"
  | .Gohoi => c!"GOhOI"
  | .Ihau => c!"IhAU"
  | .Jaiha => c!"JAIhA"
  | .Jaihi => c!"JAIhI"
  | .Jauhu => c!"JAUhU"
  | .Jahoi => c!"JAhOI"
  | .Jihoi => c!"JIhOI"
  | .Joihi => c!"JOIhI"
  | .Johe => c!"JOhE"
  | .Juhau => c!"JUhAU"
  | .Juhei => c!"JUhEI"
  | .Juhuhi => c!"JUhUhI"
  | .Kauhai => c!"KAUhAI"
  | .Kauhu => c!"KAUhU"
  | .Keihau => c!"KEIhAU"
  | .Keihi => c!"KEIhI"
  | .Kehai => c!"KEhAI"
  | .Kehei => c!"KEhEI"
  | .Keheiha => c!"KEhEIhA"
  | .Kehehau => c!"KEhEhAU"
  | .Kehehu => c!"KEhEhU"
  | .Kehuhi => c!"KEhUhI"
  | .Kuhau => c!"KUhAU"
  | .Kuhei => c!"KUhEI"
  | .Kuhoihu => c!"KUhOIhU"
  | .Kyhoi => c!"KYhOI"
  | .Lehai => c!"LEhAI"
  | .Lihau => c!"LIhAU"
  | .Lihei => c!"LIhEI"
  | .Lohai => c!"LOhAI"
  | .Lohoi => c!"LOhOI"
  | .Luhei => c!"LUhEI"
  | .Mauhau => c!"MAUhAU"
  | .Mauhe => c!"MAUhE"
  | .Mauho => c!"MAUhO"
  | .Meihe => c!"MEIhE"
  | .Meiho => c!"MEIhO"
  | .Mehoi => c!"MEhOI"
  | .Muhoi => c!"MUhOI"
  | .Muhohu => c!"MUhOhU"
  | .Neihai => c!"NEIhAI"
  | .Noiha => c!"NOIhA"
  | .Noihau => c!"NOIhAU"
  | .Noihahu => c!"NOIhAhU"
  | .Noihi => c!"NOIhI"
  | .Nohoi => c!"NOhOI"
  | .Rauho => c!"RAUhO"
  | .Rehaihe => c!"REhAIhE"
  | .Sauhu => c!"SAUhU"
  | .Sahau => c!"SAhAU"
  | .Sahoi => c!"SAhOI"
  | .Seihau => c!"SEIhAU"
  | .Seiho => c!"SEIhO"
  | .Sehehi => c!"SEhEhI"
  | .Sehoihoi => c!"SEhOIhOI"
  | .Sihihei => c!"SIhIhEI"
  | .Sihihoi => c!"SIhIhOI"
  | .Sihoi => c!"SIhOI"
  | .Soihi => c!"SOIhI"
  | .Sohehai => c!"SOhEhAI"
  | .Sohoi => c!"SOhOI"
  | .Taihu => c!"TAIhU"
  | .Tauho => c!"TAUhO"
  | .Tahoi => c!"TAhOI"
  | .Tahuhi => c!"TAhUhI"
  | .Teihu => c!"TEIhU"
  | .Tehoihoi => c!"TEhOIhOI"
  | .Toihe => c!"TOIhE"
  | .Toiho => c!"TOIhO"
  | .Vauhehoi => c!"VAUhEhOI"
  | .Vauhohoi => c!"VAUhOhOI"
  | .Vuhoi => c!"VUhOI"
  | .Vyhy => c!"VYhY"
  | .Xauhe => c!"XAUhE"
  | .Xauheho => c!"XAUhEhO"
  | .Xauho => c!"XAUhO"
  | .Xauhoi => c!"XAUhOI"
  | .Xauhoho => c!"XAUhOhO"
  | .Xahoihahoiha => c!"XAhOIhAhOIhA"
  | .Xehau => c!"XEhAU"
  | .Xoi => c!"XOI"
  | .Xoha => c!"XOhA"
  | .Xohehohe => c!"XOhEhOhE"
  | .Xohi => c!"XOhI"
  | .Xuhau => c!"XUhAU"
  | .Yhi => c!"YhI"
  | .Zaihai => c!"ZAIhAI"
  | .Zaihu => c!"ZAIhU"
  | .Zauhehu => c!"ZAUhEhU"
  | .Zeihei => c!"ZEIhEI"
  | .Zeihoi => c!"ZEIhOI"
  | .Ziheha => c!"ZIhEhA"
  | .Zihehau => c!"ZIhEhAU"
  | .Zihoi => c!"ZIhOI"
  | .Zoihai => c!"ZOIhAI"
  | .Zoihohe => c!"ZOIhOhE"
  | .Zohau => c!"ZOhAU"
  | .Zohehu => c!"ZOhEhU"
  | .Zohiho => c!"ZOhIhO"
  | .Zohoi => c!"ZOhOI"
  | .Gismu => c!"gismu"
  | .Fuhivla => c!"fuhivla"
  | .Lujvo => c!"lujvo"
  | .Cmevla => c!"cmevla"
  | .UnknownCmavo => c!"(unknown cmavo)"
  | .AnyText => c!"(any text)"
  | .ZoiDelimiter => c!"(zoi delimiter)"

end Sneturfahi
