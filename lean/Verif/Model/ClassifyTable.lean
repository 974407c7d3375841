import Verif.Model.Selmaho

/-!
# The cmavo table of `src/lex/selmaho/classify.rs`

Generated by `tools/gen_selmaho.py` from the big `match` of `Selmaho::classify`
(`src/lex/selmaho/classify.rs:71-476`); one `Arm` per arm, in the order of the source.
-/

namespace Sneturfahi

/-- One arm `"w1" | "w2" | .. => Self::S` or `.. => experimental!(Self::S)`.
The arms of `src/lex/selmaho/classify.rs:71-476`. -/
structure Arm where
  words : List (List Char)
  selmaho : Selmaho
  experimental : Bool
deriving DecidableEq, Repr

/-- The arms before the guard arm `word if .. all y => Self::Y` (`src/lex/selmaho/classify.rs:338`). -/
def armsBeforeY : List Arm := [
  -- src/lex/selmaho/classify.rs:72
  ⟨[c!"a", c!"e", c!"ji", c!"o", c!"u"], .A, false⟩,
  -- src/lex/selmaho/classify.rs:73
  ⟨[c!"e'u'a", c!"i'a'a"], .A, true⟩,
  -- src/lex/selmaho/classify.rs:74
  ⟨[c!"ba'i", c!"bai", c!"bau", c!"be'i", c!"ca'i", c!"cau", c!"ci'e", c!"ci'o", c!"ci'u",
    c!"cu'u", c!"de'i", c!"di'o", c!"do'e", c!"du'i", c!"du'o", c!"fa'e", c!"fi'e", c!"ga'a",
    c!"gau", c!"ja'e", c!"ji'e", c!"ji'o", c!"ji'u", c!"ka'a", c!"ka'i", c!"kai", c!"ki'i",
    c!"ki'u", c!"koi", c!"ku'u", c!"la'u", c!"le'a", c!"li'e", c!"ma'e", c!"ma'i", c!"mau",
    c!"me'a", c!"me'e", c!"mu'i", c!"mu'u", c!"ni'i", c!"pa'a", c!"pa'u", c!"pi'o", c!"pu'a",
    c!"pu'e", c!"ra'a", c!"ra'i", c!"rai", c!"ri'a", c!"ri'i", c!"sau", c!"si'u", c!"ta'i",
    c!"tai", c!"ti'i", c!"ti'u", c!"tu'i", c!"va'o", c!"va'u", c!"zau", c!"zu'e"], .Bai, false⟩,
  -- src/lex/selmaho/classify.rs:81
  ⟨[c!"be'ei", c!"da'ai'a", c!"de'i'a", c!"de'i'e", c!"de'i'i", c!"de'i'o", c!"de'i'u", c!"fi'ei",
    c!"gai'i", c!"ja'u", c!"ka'ai", c!"kai'ai", c!"ki'oi", c!"ko'au", c!"ku'ai", c!"li'i'e",
    c!"mu'ai", c!"mu'e'ei", c!"nai'i", c!"nu'ai", c!"pau'u", c!"po'a", c!"pu'ai", c!"te'a'a",
    c!"te'i", c!"ti'u'a", c!"ti'u'e", c!"ti'u'i", c!"xau"], .Bai, true⟩,
  -- src/lex/selmaho/classify.rs:85
  ⟨[c!"ba'e", c!"za'e", c!"ci'a"], .Bahe, false⟩,
  -- src/lex/selmaho/classify.rs:86
  ⟨[c!"pe'ei", c!"zai'e", c!"zei'e"], .Bahe, true⟩,
  -- src/lex/selmaho/classify.rs:87
  ⟨[c!"be"], .Be, false⟩,
  -- src/lex/selmaho/classify.rs:88
  ⟨[c!"bei"], .Bei, false⟩,
  -- src/lex/selmaho/classify.rs:89
  ⟨[c!"be'o"], .Beho, false⟩,
  -- src/lex/selmaho/classify.rs:90
  ⟨[c!"bi'e"], .Bihe, false⟩,
  -- src/lex/selmaho/classify.rs:91
  ⟨[c!"bi'i", c!"bi'o", c!"mi'i"], .Bihi, false⟩,
  -- src/lex/selmaho/classify.rs:92
  ⟨[c!"bo"], .Bo, false⟩,
  -- src/lex/selmaho/classify.rs:93
  ⟨[c!"boi"], .Boi, false⟩,
  -- src/lex/selmaho/classify.rs:94
  ⟨[c!"boi'e'u"], .Boi, true⟩,
  -- src/lex/selmaho/classify.rs:95
  ⟨[c!"bu"], .Bu, false⟩,
  -- src/lex/selmaho/classify.rs:96
  ⟨[c!"by", c!"cy", c!"dy", c!"fy", c!"ga'e", c!"ge'o", c!"gy", c!"je'o", c!"jo'o", c!"jy", c!"ky",
    c!"lo'a", c!"ly", c!"my", c!"na'a", c!"ny", c!"py", c!"ru'o", c!"ry", c!"se'e", c!"sy",
    c!"to'a", c!"ty", c!"vy", c!"xy", c!"y'y", c!"zy"], .By, false⟩,
  -- src/lex/selmaho/classify.rs:99
  ⟨[c!"bu'o'e", c!"e'y", c!"i'y", c!"iy", c!"iy'y", c!"o'y", c!"u'y", c!"uy", c!"jo'au'o",
    c!"ro'au'o"], .By, true⟩,
  -- src/lex/selmaho/classify.rs:102
  ⟨[c!"cai", c!"cu'i", c!"pei", c!"ru'e", c!"sai"], .Cai, false⟩,
  -- src/lex/selmaho/classify.rs:103
  ⟨[c!"cau'i", c!"dai'i", c!"na'oi", c!"ni'au", c!"pei'a", c!"dau'i", c!"mau'i", c!"me'ai"], .Cai,
    true⟩,
  -- src/lex/selmaho/classify.rs:106
  ⟨[c!"ca'a", c!"ka'e", c!"nu'o", c!"pu'i"], .Caha, false⟩,
  -- src/lex/selmaho/classify.rs:107
  ⟨[c!"bi'ai"], .Caha, true⟩,
  -- src/lex/selmaho/classify.rs:108
  ⟨[c!"cei"], .Cei, false⟩,
  -- src/lex/selmaho/classify.rs:109
  ⟨[c!"ce'e"], .Cehe, false⟩,
  -- src/lex/selmaho/classify.rs:110
  ⟨[c!"co"], .Co, false⟩,
  -- src/lex/selmaho/classify.rs:111
  ⟨[c!"co'ai'e", c!"co'au'e", c!"co'o'e"], .Co, true⟩,
  -- src/lex/selmaho/classify.rs:112
  ⟨[c!"be'e", c!"coi", c!"co'o", c!"fe'o", c!"fi'i", c!"je'e", c!"ju'i", c!"ke'o", c!"ki'e",
    c!"mi'e", c!"mu'o", c!"nu'e", c!"pe'u", c!"re'i", c!"ta'a", c!"vi'o"], .Coi, false⟩,
  -- src/lex/selmaho/classify.rs:114
  ⟨[c!"a'oi", c!"bu'oi", c!"co'oi", c!"de'a'ai", c!"di'a'ai", c!"di'ai", c!"doi'oi", c!"fau'u",
    c!"fe'oi", c!"fi'i'e", c!"ke'o'a", c!"ke'o'o", c!"ke'o'u", c!"ku'au'i", c!"ku'o'e'a", c!"o'ai",
    c!"sau'ei", c!"sau'e'u", c!"sei'ai", c!"sei'u", c!"te'ei", c!"ve'ei", c!"xu'e", c!"zau'e",
    c!"ci'oi", c!"go'au", c!"goi'e", c!"jo'au", c!"ki'ai", c!"sa'ei", c!"tai'i"], .Coi, true⟩,
  -- src/lex/selmaho/classify.rs:120
  ⟨[c!"cu"], .Cu, false⟩,
  -- src/lex/selmaho/classify.rs:121
  ⟨[c!"cu'e", c!"nau"], .Cuhe, false⟩,
  -- src/lex/selmaho/classify.rs:122
  ⟨[c!"ba'au", c!"pu'au"], .Cuhe, true⟩,
  -- src/lex/selmaho/classify.rs:123
  ⟨[c!"da'o"], .Daho, false⟩,
  -- src/lex/selmaho/classify.rs:124
  ⟨[c!"dai'o", c!"do'ai", c!"xei'a", c!"xei'i", c!"xei'u"], .Daho, true⟩,
  -- src/lex/selmaho/classify.rs:125
  ⟨[c!"doi"], .Doi, false⟩,
  -- src/lex/selmaho/classify.rs:126
  ⟨[c!"ve'ai", c!"da'ei", c!"da'oi"], .Doi, true⟩,
  -- src/lex/selmaho/classify.rs:127
  ⟨[c!"do'u"], .Dohu, false⟩,
  -- src/lex/selmaho/classify.rs:128
  ⟨[c!"fa", c!"fai", c!"fe", c!"fi", c!"fi'a", c!"fo", c!"fu"], .Fa, false⟩,
  -- src/lex/selmaho/classify.rs:129
  ⟨[c!"fai'i", c!"fa'au'u", c!"zoi'u"], .Fa, true⟩,
  -- src/lex/selmaho/classify.rs:130
  ⟨[c!"be'a", c!"vu'a", c!"du'a", c!"ne'u", c!"ru'u", c!"ri'u", c!"ti'a", c!"ga'u", c!"ca'u",
    c!"ni'a", c!"zu'a", c!"re'o", c!"te'e", c!"bu'u", c!"ne'a", c!"ne'i", c!"pa'o", c!"to'o",
    c!"fa'a", c!"ze'o", c!"zo'a", c!"zo'i"], .Faha, false⟩,
  -- src/lex/selmaho/classify.rs:133
  ⟨[c!"bau'u", c!"gau'o", c!"du'oi", c!"zu'au"], .Faha, true⟩,
  -- src/lex/selmaho/classify.rs:134
  ⟨[c!"fa'o"], .Faho, false⟩,
  -- src/lex/selmaho/classify.rs:135
  ⟨[c!"fa'u'u'u'u'u'u'u'u", c!"to'au"], .Faho, true⟩,
  -- src/lex/selmaho/classify.rs:136
  ⟨[c!"fe'e"], .Fehe, false⟩,
  -- src/lex/selmaho/classify.rs:137
  ⟨[c!"fe'u"], .Fehu, false⟩,
  -- src/lex/selmaho/classify.rs:138
  ⟨[c!"fi'o"], .Fiho, false⟩,
  -- src/lex/selmaho/classify.rs:139
  ⟨[c!"foi"], .Foi, false⟩,
  -- src/lex/selmaho/classify.rs:140
  ⟨[c!"fu'a"], .Fuha, false⟩,
  -- src/lex/selmaho/classify.rs:141
  ⟨[c!"fu'e"], .Fuhe, false⟩,
  -- src/lex/selmaho/classify.rs:142
  ⟨[c!"fu'ei"], .Fuhe, true⟩,
  -- src/lex/selmaho/classify.rs:143
  ⟨[c!"fu'o"], .Fuho, false⟩,
  -- src/lex/selmaho/classify.rs:144
  ⟨[c!"ga", c!"ge", c!"ge'i", c!"go", c!"gu"], .Ga, false⟩,
  -- src/lex/selmaho/classify.rs:145
  ⟨[c!"ge'u'a", c!"gi'a'a"], .Ga, true⟩,
  -- src/lex/selmaho/classify.rs:146
  ⟨[c!"ga'o", c!"ke'i"], .Gaho, false⟩,
  -- src/lex/selmaho/classify.rs:147
  ⟨[c!"xai'u'oi", c!"xoi'u'oi", c!"ma'a'u'oi", c!"xau'u'oi", c!"xei'u'oi"], .Gaho, true⟩,
  -- src/lex/selmaho/classify.rs:150
  ⟨[c!"ge'u"], .Gehu, false⟩,
  -- src/lex/selmaho/classify.rs:151
  ⟨[c!"gi"], .Gi, false⟩,
  -- src/lex/selmaho/classify.rs:152
  ⟨[c!"gi'a", c!"gi'e", c!"gi'i", c!"gi'o", c!"gi'u"], .Giha, false⟩,
  -- src/lex/selmaho/classify.rs:153
  ⟨[c!"gi'e'u'a", c!"gi'i'a'a"], .Giha, true⟩,
  -- src/lex/selmaho/classify.rs:154
  ⟨[c!"goi", c!"po", c!"po'e", c!"po'u", c!"ne", c!"no'u", c!"pe"], .Goi, false⟩,
  -- src/lex/selmaho/classify.rs:155
  ⟨[c!"voi'e"], .Goi, true⟩,
  -- src/lex/selmaho/classify.rs:156
  ⟨[c!"go'a", c!"go'e", c!"go'i", c!"go'o", c!"go'u", c!"bu'a", c!"bu'e", c!"bu'i", c!"co'e",
    c!"du", c!"mo", c!"nei", c!"no'a"], .Goha, false⟩,
  -- src/lex/selmaho/classify.rs:158
  ⟨[c!"gai'o", c!"gi'o'i", c!"go'ai", c!"ku'ai'i", c!"cei'i", c!"xe'u"], .Goha, true⟩,
  -- src/lex/selmaho/classify.rs:159
  ⟨[c!"gu'a", c!"gu'e", c!"gu'i", c!"gu'o", c!"gu'u"], .Guha, false⟩,
  -- src/lex/selmaho/classify.rs:160
  ⟨[c!"gu'e'u'a", c!"gu'i'a'a"], .Guha, true⟩,
  -- src/lex/selmaho/classify.rs:161
  ⟨[c!"i"], .I, false⟩,
  -- src/lex/selmaho/classify.rs:162
  ⟨[c!"ja", c!"je", c!"je'i", c!"jo", c!"ju"], .Ja, false⟩,
  -- src/lex/selmaho/classify.rs:163
  ⟨[c!"je'u'a", c!"ji'a'a"], .Ja, true⟩,
  -- src/lex/selmaho/classify.rs:164
  ⟨[c!"jai"], .Jai, false⟩,
  -- src/lex/selmaho/classify.rs:165
  ⟨[c!"ja'ei", c!"jai'e", c!"jo'ai"], .Jai, true⟩,
  -- src/lex/selmaho/classify.rs:166
  ⟨[c!"joi", c!"fa'u", c!"pi'u", c!"jo'e", c!"jo'u", c!"ju'e", c!"ku'a", c!"ce", c!"ce'o"], .Joi,
    false⟩,
  -- src/lex/selmaho/classify.rs:167
  ⟨[c!"fa'u'ai", c!"xoi'u", c!"jo'ei", c!"jo'ei'i", c!"joi'au'a", c!"jo'oi", c!"bo'a'oi",
    c!"ce'au", c!"ce'oi"], .Joi, true⟩,
  -- src/lex/selmaho/classify.rs:169
  ⟨[c!"jo'i"], .Johi, false⟩,
  -- src/lex/selmaho/classify.rs:170
  ⟨[c!"ke"], .Ke, false⟩,
  -- src/lex/selmaho/classify.rs:171
  ⟨[c!"va'au", c!"fei'u", c!"ke'oi", c!"pi'ai"], .Ke, true⟩,
  -- src/lex/selmaho/classify.rs:172
  ⟨[c!"ke'e"], .Kehe, false⟩,
  -- src/lex/selmaho/classify.rs:173
  ⟨[c!"kei"], .Kei, false⟩,
  -- src/lex/selmaho/classify.rs:174
  ⟨[c!"ki"], .Ki, false⟩,
  -- src/lex/selmaho/classify.rs:175
  ⟨[c!"da", c!"de", c!"di", c!"da'u", c!"de'e", c!"dei", c!"de'u", c!"di'e", c!"da'e", c!"di'u",
    c!"do'i", c!"ko", c!"ma'a", c!"mi", c!"mi'a", c!"do", c!"do'o", c!"mi'o", c!"vo'a", c!"vo'e",
    c!"vo'i", c!"vo'o", c!"vo'u", c!"fo'a", c!"fo'e", c!"fo'i", c!"fo'o", c!"fo'u", c!"ko'a",
    c!"ko'e", c!"ko'i", c!"ko'o", c!"ko'u", c!"ra", c!"ru", c!"ri", c!"ti", c!"tu", c!"ta",
    c!"ke'a", c!"ma", c!"zi'o", c!"zo'e", c!"zu'i", c!"ce'u"], .Koha, false⟩,
  -- src/lex/selmaho/classify.rs:180
  ⟨[c!"kau'a", c!"kau'e", c!"kau'i", c!"da'au", c!"lau'e", c!"lau'u", c!"dei'ei", c!"ra'au",
    c!"da'ai", c!"do'o'o", c!"mi'ai", c!"mi'oi", c!"vau'a", c!"vau'e", c!"vau'o", c!"vau'u",
    c!"ri'au", c!"xai", c!"zoi'i", c!"tu'oi", c!"tu'oi'u", c!"ca'au", c!"di'au", c!"di'ei",
    c!"di'oi", c!"do'au", c!"do'ei", c!"mai'i", c!"nau'o", c!"nau'u", c!"zai'o", c!"sy'y",
    c!"zu'ai", c!"bo'i", c!"bo'o", c!"bo'u", c!"bo'a", c!"bo'e"], .Koha, true⟩,
  -- src/lex/selmaho/classify.rs:185
  ⟨[c!"ku"], .Ku, false⟩,
  -- src/lex/selmaho/classify.rs:186
  ⟨[c!"ku'e"], .Kuhe, false⟩,
  -- src/lex/selmaho/classify.rs:187
  ⟨[c!"ku'o"], .Kuho, false⟩,
  -- src/lex/selmaho/classify.rs:188
  ⟨[c!"la", c!"la'i", c!"lai"], .La, false⟩,
  -- src/lex/selmaho/classify.rs:189
  ⟨[c!"lai'u", c!"la'ei"], .La, true⟩,
  -- src/lex/selmaho/classify.rs:190
  ⟨[c!"lau", c!"tau", c!"zai", c!"ce'a"], .Lau, false⟩,
  -- src/lex/selmaho/classify.rs:191
  ⟨[c!"la'e", c!"tu'a", c!"vu'i", c!"lu'a", c!"lu'e", c!"lu'i", c!"lu'o"], .Lahe, false⟩,
  -- src/lex/selmaho/classify.rs:192
  ⟨[c!"tau'e", c!"lai'e", c!"la'e'au", c!"lu'au", c!"cei'u", c!"du'au", c!"moi'a", c!"zo'ei"],
    .Lahe, true⟩,
  -- src/lex/selmaho/classify.rs:195
  ⟨[c!"le", c!"le'e", c!"le'i", c!"lei", c!"lo", c!"lo'e", c!"lo'i", c!"loi"], .Le, false⟩,
  -- src/lex/selmaho/classify.rs:196
  ⟨[c!"dau'u", c!"ji'ai", c!"kai'i", c!"le'ei", c!"lei'e", c!"lei'i", c!"lo'au", c!"loi'a",
    c!"loi'e", c!"loi'i", c!"lo'o'o", c!"ly'ei", c!"me'ei", c!"moi'oi", c!"mo'oi", c!"nei'i",
    c!"ri'oi", c!"ti'oi", c!"xai'i", c!"zo'ai", c!"zy'oi"], .Le, true⟩,
  -- src/lex/selmaho/classify.rs:199
  ⟨[c!"le'u"], .Lehu, false⟩,
  -- src/lex/selmaho/classify.rs:200
  ⟨[c!"li", c!"me'o"], .Li, false⟩,
  -- src/lex/selmaho/classify.rs:201
  ⟨[c!"li'ai", c!"na'au"], .Li, true⟩,
  -- src/lex/selmaho/classify.rs:202
  ⟨[c!"li'u"], .Lihu, false⟩,
  -- src/lex/selmaho/classify.rs:203
  ⟨[c!"lo'o"], .Loho, false⟩,
  -- src/lex/selmaho/classify.rs:204
  ⟨[c!"lo'u"], .Lohu, false⟩,
  -- src/lex/selmaho/classify.rs:205
  ⟨[c!"la'ai"], .Lohu, true⟩,
  -- src/lex/selmaho/classify.rs:206
  ⟨[c!"lu"], .Lu, false⟩,
  -- src/lex/selmaho/classify.rs:207
  ⟨[c!"lu'u"], .Luhu, false⟩,
  -- src/lex/selmaho/classify.rs:208
  ⟨[c!"la'au", c!"tu'ai"], .Lu, true⟩,
  -- src/lex/selmaho/classify.rs:209
  ⟨[c!"mai", c!"mo'o"], .Mai, false⟩,
  -- src/lex/selmaho/classify.rs:210
  ⟨[c!"sai'ei", c!"ju'ai", c!"lai'a", c!"ba'ai"], .Mai, true⟩,
  -- src/lex/selmaho/classify.rs:211
  ⟨[c!"ma'o"], .Maho, false⟩,
  -- src/lex/selmaho/classify.rs:212
  ⟨[c!"me"], .Me, false⟩,
  -- src/lex/selmaho/classify.rs:213
  ⟨[c!"du'ai", c!"me'au", c!"mei'u"], .Me, true⟩,
  -- src/lex/selmaho/classify.rs:214
  ⟨[c!"me'u"], .Mehu, false⟩,
  -- src/lex/selmaho/classify.rs:215
  ⟨[c!"moi", c!"si'e", c!"va'e", c!"mei", c!"cu'o"], .Moi, false⟩,
  -- src/lex/selmaho/classify.rs:216
  ⟨[c!"jei'o", c!"ka'oi", c!"lei'o", c!"cei'a", c!"cu'oi'e", c!"coi'e", c!"doi'e", c!"mei'i",
    c!"moi'e", c!"moi'o", c!"moi'u", c!"nei'o", c!"soi'e"], .Moi, true⟩,
  -- src/lex/selmaho/classify.rs:218
  ⟨[c!"mo'e"], .Mohe, false⟩,
  -- src/lex/selmaho/classify.rs:219
  ⟨[c!"mo'i"], .Mohi, false⟩,
  -- src/lex/selmaho/classify.rs:220
  ⟨[c!"na", c!"ja'a"], .Na, false⟩,
  -- src/lex/selmaho/classify.rs:221
  ⟨[c!"xa'au", c!"xu'o'e", c!"cau'a", c!"mai'a", c!"mai'e", c!"na'ai"], .Na, true⟩,
  -- src/lex/selmaho/classify.rs:222
  ⟨[c!"nai"], .Nai, false⟩,
  -- src/lex/selmaho/classify.rs:223
  ⟨[c!"ja'ai"], .Nai, true⟩,
  -- src/lex/selmaho/classify.rs:224
  ⟨[c!"na'e", c!"to'e", c!"je'a", c!"no'e"], .Nahe, false⟩,
  -- src/lex/selmaho/classify.rs:225
  ⟨[c!"rai'a", c!"rei'e", c!"sai'e", c!"gu'y", c!"je'ai", c!"cai'e", c!"cau'e", c!"cau'o'e",
    c!"na'ei", c!"ni'u'u", c!"noi'e", c!"pai'e"], .Nahe, true⟩,
  -- src/lex/selmaho/classify.rs:227
  ⟨[c!"na'u"], .Nahu, false⟩,
  -- src/lex/selmaho/classify.rs:228
  ⟨[c!"ni'e"], .Nihe, false⟩,
  -- src/lex/selmaho/classify.rs:229
  ⟨[c!"ni'o", c!"no'i"], .Niho, false⟩,
  -- src/lex/selmaho/classify.rs:230
  ⟨[c!"noi", c!"poi", c!"voi"], .Noi, false⟩,
  -- src/lex/selmaho/classify.rs:231
  ⟨[c!"voi'i"], .Noi, true⟩,
  -- src/lex/selmaho/classify.rs:232
  ⟨[c!"nu", c!"si'o", c!"jei", c!"ka", c!"li'i", c!"du'u", c!"ni", c!"su'u", c!"pu'u", c!"za'i",
    c!"mu'e", c!"zu'o"], .Nu, false⟩,
  -- src/lex/selmaho/classify.rs:234
  ⟨[c!"poi'i", c!"te'oi", c!"ga'ei", c!"ka'ei", c!"kai'ei", c!"kai'u", c!"ka'oi'i", c!"bu'ai",
    c!"ni'ai", c!"xe'ei"], .Nu, true⟩,
  -- src/lex/selmaho/classify.rs:236
  ⟨[c!"nu'a"], .Nuha, false⟩,
  -- src/lex/selmaho/classify.rs:237
  ⟨[c!"nu'i"], .Nuhi, false⟩,
  -- src/lex/selmaho/classify.rs:238
  ⟨[c!"nu'u"], .Nuhu, false⟩,
  -- src/lex/selmaho/classify.rs:239
  ⟨[c!"bi", c!"ce'i", c!"ci", c!"ci'i", c!"da'a", c!"dau", c!"du'e", c!"fei", c!"fi'u", c!"gai",
    c!"jau", c!"ji'i", c!"ka'o", c!"ki'o", c!"ma'u", c!"me'i", c!"mo'a", c!"mu", c!"ni'u", c!"no",
    c!"no'o", c!"pa", c!"pai", c!"pi", c!"pi'e", c!"ra'e", c!"rau", c!"re", c!"rei", c!"ro",
    c!"so", c!"so'a", c!"so'e", c!"so'i", c!"so'o", c!"so'u", c!"su'e", c!"su'o", c!"te'o",
    c!"tu'o", c!"vai", c!"vo", c!"xa", c!"xo", c!"za'u", c!"ze", c!"1", c!"2", c!"3", c!"4", c!"5",
    c!"6", c!"7", c!"8", c!"9", c!"0"], .Pa, false⟩,
  -- src/lex/selmaho/classify.rs:245
  ⟨[c!"bi'ei", c!"by'ai", c!"ci'i'e", c!"ci'i'o", c!"ci'i'oi", c!"dau'e", c!"dy'ei", c!"fai'e'au",
    c!"fai'u", c!"fai'u'a", c!"fu'a'ai", c!"fu'a'au", c!"fy'ai", c!"ga'au", c!"gau'i'o",
    c!"go'o'i'a", c!"ja'au", c!"ka'ei'a", c!"ka'o'ai", c!"ka'o'ei", c!"kai'o", c!"kau'o",
    c!"kei'ei", c!"kei'o", c!"koi'o", c!"ku'i'a", c!"lai'ai", c!"mai'e'e", c!"mei'a", c!"mu'i'ai",
    c!"mu'i'u", c!"na'a'u", c!"ni'e'ei", c!"ni'e'oi", c!"no'ai", c!"no'e'u", c!"ny'ei",
    c!"pa'au'o", c!"pei'i'a", c!"pi'au", c!"pu'e'u'o", c!"py'ai", c!"ro'oi", c!"ru'oi", c!"sai'i",
    c!"se'i'i", c!"sei'a", c!"sei'u'e", c!"si'ei", c!"si'i'ai", c!"so'au", c!"soi'ai", c!"soi'au",
    c!"su'ai", c!"su'au", c!"su'o'o", c!"su'oi", c!"sy'au", c!"tau'u", c!"va'ei'a", c!"vau'au'o",
    c!"vo'ei'a", c!"vu'ai", c!"xe'a", c!"xe'e", c!"xei", c!"xi'i'ei", c!"xo'au", c!"xo'e",
    c!"xy'au", c!"zau'u", c!"ze'au", c!"zy'ei", c!" vi'ei'e"], .Pa, true⟩,
  -- src/lex/selmaho/classify.rs:257
  ⟨[c!"pe'e"], .Pehe, false⟩,
  -- src/lex/selmaho/classify.rs:258
  ⟨[c!"pe'o"], .Peho, false⟩,
  -- src/lex/selmaho/classify.rs:259
  ⟨[c!"kei'ai"], .Peho, true⟩,
  -- src/lex/selmaho/classify.rs:260
  ⟨[c!"pu", c!"ba", c!"ca"], .Pu, false⟩,
  -- src/lex/selmaho/classify.rs:261
  ⟨[c!"xa'ei"], .Pu, true⟩,
  -- src/lex/selmaho/classify.rs:262
  ⟨[c!"ra'o"], .Raho, false⟩,
  -- src/lex/selmaho/classify.rs:263
  ⟨[c!"roi", c!"re'u"], .Roi, false⟩,
  -- src/lex/selmaho/classify.rs:264
  ⟨[c!"va'ei", c!"ba'oi", c!"de'ei", c!"mu'ei"], .Roi, true⟩,
  -- src/lex/selmaho/classify.rs:265
  ⟨[c!"sa"], .Sa, false⟩,
  -- src/lex/selmaho/classify.rs:266
  ⟨[c!"se", c!"te", c!"ve", c!"xe"], .Se, false⟩,
  -- src/lex/selmaho/classify.rs:267
  ⟨[c!"re'au'e", c!"se'ai'e", c!"se'au'e", c!"se'o'e", c!"se'u'o", c!"to'ai", c!"tu'ei", c!"vo'ai",
    c!"xo'ai", c!"ko'ei", c!"lu'oi", c!"ze'ai'e", c!"ze'au'e", c!"so'o'o'oi", c!"su'ei"], .Se,
    true⟩,
  -- src/lex/selmaho/classify.rs:271
  ⟨[c!"sei", c!"ti'o"], .Sei, false⟩,
  -- src/lex/selmaho/classify.rs:272
  ⟨[c!"sei'e", c!"le'au", c!"cei'e"], .Sei, true⟩,
  -- src/lex/selmaho/classify.rs:273
  ⟨[c!"se'u"], .Sehu, false⟩,
  -- src/lex/selmaho/classify.rs:274
  ⟨[c!"si"], .Si, false⟩,
  -- src/lex/selmaho/classify.rs:275
  ⟨[c!"si'au'i", c!"ze'ei"], .Si, true⟩,
  -- src/lex/selmaho/classify.rs:276
  ⟨[c!"soi"], .Soi, false⟩,
  -- src/lex/selmaho/classify.rs:277
  ⟨[c!"su"], .Su, false⟩,
  -- src/lex/selmaho/classify.rs:278
  ⟨[c!"ta'e", c!"ru'i", c!"di'i", c!"na'o"], .Tahe, false⟩,
  -- src/lex/selmaho/classify.rs:279
  ⟨[c!"dei'a", c!"ze'ai", c!"zei'a"], .Tahe, true⟩,
  -- src/lex/selmaho/classify.rs:280
  ⟨[c!"tei"], .Tei, false⟩,
  -- src/lex/selmaho/classify.rs:281
  ⟨[c!"te'u"], .Tehu, false⟩,
  -- src/lex/selmaho/classify.rs:282
  ⟨[c!"to", c!"to'i"], .To, false⟩,
  -- src/lex/selmaho/classify.rs:283
  ⟨[c!"toi"], .Toi, false⟩,
  -- src/lex/selmaho/classify.rs:284
  ⟨[c!"tu'e"], .Tuhe, false⟩,
  -- src/lex/selmaho/classify.rs:285
  ⟨[c!"tu'u"], .Tuhu, false⟩,
  -- src/lex/selmaho/classify.rs:286
  ⟨[c!"a'a", c!"a'e", c!"a'i", c!"ai", c!"a'o", c!"a'u", c!"au", c!"ba'a", c!"ba'u", c!"be'u",
    c!"bi'u", c!"bu'o", c!"ca'e", c!"da'i", c!"dai", c!"do'a", c!"e'a", c!"e'e", c!"e'i", c!"ei",
    c!"e'o", c!"e'u", c!"fu'i", c!"ga'i", c!"ge'e", c!"i'a", c!"ia", c!"i'e", c!"ie", c!"i'i",
    c!"ii", c!"i'o", c!"io", c!"i'u", c!"iu", c!"ja'o", c!"je'u", c!"ji'a", c!"jo'a", c!"ju'a",
    c!"ju'o", c!"ka'u", c!"kau", c!"ke'u", c!"ki'a", c!"ku'i", c!"la'a", c!"le'o", c!"li'a",
    c!"li'o", c!"mi'u", c!"mu'a", c!"na'i", c!"o'a", c!"o'e", c!"o'i", c!"oi", c!"o'o", c!"o'u",
    c!"pa'e", c!"pau", c!"pe'a", c!"pe'i", c!"po'o", c!"ra'u", c!"re'e", c!"ri'e", c!"ro'a",
    c!"ro'e", c!"ro'i", c!"ro'o", c!"ro'u", c!"ru'a", c!"sa'a", c!"sa'e", c!"sa'u", c!"se'a",
    c!"se'i", c!"se'o", c!"si'a", c!"su'a", c!"ta'o", c!"ta'u", c!"ti'e", c!"to'u", c!"u'a",
    c!"ua", c!"u'e", c!"ue", c!"u'i", c!"ui", c!"u'o", c!"uo", c!"u'u", c!"uu", c!"va'i", c!"vu'e",
    c!"xu", c!"za'a", c!"zo'o", c!"zu'u"], .Ui, false⟩,
  -- src/lex/selmaho/classify.rs:297
  ⟨[c!"fai'a", c!"rau'o", c!"si'ai", c!"tai'a", c!"tei'i", c!"tei'o", c!"uau'o", c!"ue'e",
    c!"uei'e", c!"ui'a", c!"ui'o", c!"va'u'au", c!"fu'ei'a", c!"fu'ei'e", c!"fu'ei'i", c!"fi'ei'o",
    c!"fu'ei'u", c!"ii'au", c!"au'o", c!"a'u'u", c!"ca'e'ei", c!"ci'ai", c!"cu'ei", c!"cu'ei'a",
    c!"cu'ei'ai", c!"cu'ei'e", c!"cu'ei'ei", c!"cu'ei'i", c!"cu'ei'o", c!"cu'ei'oi", c!"cu'ei'u",
    c!"coi'o'e", c!"doi'au", c!"e'au", c!"ei'u", c!"mu'au'oi", c!"oi'a", c!"pau'ai", c!"pau'i",
    c!"zei'i", c!"su'a'a", c!"zi'ei", c!"u'ai", c!"uai", c!"uau", c!"ue'i", c!"ui'i", c!"uo'o",
    c!"uu'i", c!"ia'u", c!"ie'e", c!"ie'i", c!"a'au", c!"ai'i", c!"au'u", c!"ci'au'u'au'i",
    c!"e'ei", c!"ei'au", c!"ei'e", c!"ei'i", c!"mau'u", c!"mi'au", c!"ne'au", c!"oi'o", c!"oi'u",
    c!"ri'ai", c!"sei'i", c!"si'au", c!"jei'u", c!"ju'oi", c!"kai'a", c!"kai'e", c!"ki'au",
    c!"lai'i", c!"moi'i", c!"pei'e", c!"za'au", c!"vo'oi", c!"vei'i", c!"ta'ei", c!"te'i'o",
    c!"xa'i", c!"xu'a", c!"fu'au", c!"je'au", c!"so'ei", c!"sy'a", c!"xe'o", c!"roi'i", c!"pei'o",
    c!"ra'i'au", c!"xo'o", c!"jau'i", c!"ji'ei", c!"bo'oi", c!"dai'a", c!"noi'u", c!"zai'a",
    c!"ki'a'au'u'au'i", c!"ko'oi",
    c!"cu'u'u'u'u'u'u'u'u'u'u'u'u'u'u'u'u'u'u'u'u'u'u'u'u'u'u'u'u'u'u'u'u'u'u'u'u'u'u'u'u'u'u'u'u'u'u'u'u"], .Ui, true⟩,
  -- src/lex/selmaho/classify.rs:310
  ⟨[c!"va", c!"vi", c!"vu"], .Va, false⟩,
  -- src/lex/selmaho/classify.rs:311
  ⟨[c!"xa'e"], .Va, true⟩,
  -- src/lex/selmaho/classify.rs:312
  ⟨[c!"vau"], .Vau, false⟩,
  -- src/lex/selmaho/classify.rs:313
  ⟨[c!"vei"], .Vei, false⟩,
  -- src/lex/selmaho/classify.rs:314
  ⟨[c!"ve'a", c!"ve'e", c!"ve'i", c!"ve'u"], .Veha, false⟩,
  -- src/lex/selmaho/classify.rs:315
  ⟨[c!"ve'o"], .Veho, false⟩,
  -- src/lex/selmaho/classify.rs:316
  ⟨[c!"ve'oi"], .Veho, true⟩,
  -- src/lex/selmaho/classify.rs:317
  ⟨[c!"vi'a", c!"vi'u", c!"vi'e", c!"vi'i"], .Viha, false⟩,
  -- src/lex/selmaho/classify.rs:318
  ⟨[c!"vu'o"], .Vuho, false⟩,
  -- src/lex/selmaho/classify.rs:319
  ⟨[c!"cu'a", c!"de'o", c!"fa'i", c!"fe'a", c!"fe'i", c!"fu'u", c!"ge'a", c!"gei", c!"ju'u",
    c!"ne'o", c!"pa'i", c!"pi'a", c!"pi'i", c!"re'a", c!"ri'o", c!"sa'i", c!"sa'o", c!"si'i",
    c!"su'i", c!"te'a", c!"va'a", c!"vu'u"], .Vuhu, false⟩,
  -- src/lex/selmaho/classify.rs:322
  ⟨[c!"bai'ei", c!"bai'i", c!"bai'i'i", c!"be'ei'oi", c!"bei'u'i", c!"boi'ai", c!"ca'ei'a",
    c!"ca'o'e", c!"ca'oi", c!"ci'ai'u", c!"ci'au'i", c!"ci'o'au", c!"cu'ai", c!"cu'au'ei",
    c!"da'a'au", c!"de'au'u", c!"dei'au'o", c!"di'ei'o'au", c!"du'a'e", c!"du'a'o", c!"du'ei",
    c!"fa'ai", c!"fa'ai'ai", c!"fa'au", c!"fau'i", c!"fe'au'u", c!"fe'ei", c!"fei'i", c!"ga'ai",
    c!"gau'a", c!"gu'ai", c!"gu'au'i", c!"jau'au", c!"je'e'e", c!"ji'e'ai", c!"ji'i'u",
    c!"ji'i'u'u", c!"joi'i", c!"ka'au", c!"ku'au'a", c!"lau'au", c!"ma'au", c!"mai'u", c!"ma'o'e",
    c!"me'ei'o", c!"mu'ai'au", c!"mu'au", c!"nei'au", c!"ne'oi", c!"no'au'au", c!"pau'a'u",
    c!"pau'ei", c!"pau'oi", c!"pei'e'a", c!"pi'au'e", c!"pi'ei", c!"pi'ei'au", c!"pi'ei'oi",
    c!"po'i'oi", c!"ra'i'e", c!"rai'i", c!"ru'ei", c!"sau'i", c!"se'i'a'o", c!"si'oi'e",
    c!"su'i'e", c!"su'i'o", c!"tai'e'i", c!"tai'i'e", c!"te'au'u", c!"te'i'ai", c!"tei'au",
    c!"te'o'a", c!"te'oi'i", c!"to'ei'au", c!"vau'i", c!"vei'u", c!"vi'oi'au", c!"vo'au'u",
    c!"xa'ai", c!"xo'ei", c!"xo'e'o'ei", c!"za'ei", c!"zei'i'au", c!"zi'a'o", c!"zu'oi"], .Vuhu,
    true⟩,
  -- src/lex/selmaho/classify.rs:336
  ⟨[c!"xi"], .Xi, false⟩,
  -- src/lex/selmaho/classify.rs:337
  ⟨[c!"fau'e", c!"te'ai", c!"xi'e", c!"xi'i"], .Xi, true⟩
]

/-- The arms after it.  `src/lex/selmaho/classify.rs:339-475`. -/
def armsAfterY : List Arm := [
  -- src/lex/selmaho/classify.rs:339
  ⟨[c!"ie'o", c!"ko'o'o'o'o"], .Y, true⟩,
  -- src/lex/selmaho/classify.rs:340
  ⟨[c!"za'o", c!"ba'o", c!"pu'o", c!"ca'o", c!"co'a", c!"co'i", c!"co'u", c!"de'a", c!"di'a",
    c!"mo'u"], .Zaho, false⟩,
  -- src/lex/selmaho/classify.rs:343
  ⟨[c!"sau'a", c!"xo'u", c!"ca'o'a", c!"co'a'a", c!"co'au'a", c!"co'u'a", c!"xa'o"], .Zaho, true⟩,
  -- src/lex/selmaho/classify.rs:346
  ⟨[c!"zei"], .Zei, false⟩,
  -- src/lex/selmaho/classify.rs:347
  ⟨[c!"ze'a", c!"ze'e", c!"ze'i", c!"ze'u"], .Zeha, false⟩,
  -- src/lex/selmaho/classify.rs:348
  ⟨[c!"zei'au"], .Zeha, true⟩,
  -- src/lex/selmaho/classify.rs:349
  ⟨[c!"zi", c!"za", c!"zu"], .Zi, false⟩,
  -- src/lex/selmaho/classify.rs:350
  ⟨[c!"za'ai"], .Zi, true⟩,
  -- src/lex/selmaho/classify.rs:351
  ⟨[c!"zi'e"], .Zihe, false⟩,
  -- src/lex/selmaho/classify.rs:352
  ⟨[c!"zo"], .Zo, false⟩,
  -- src/lex/selmaho/classify.rs:353
  ⟨[c!"ra'ai", c!"doi'u", c!"ma'oi", c!"ma'oi'e"], .Zo, true⟩,
  -- src/lex/selmaho/classify.rs:354
  ⟨[c!"zoi", c!"la'o"], .Zoi, false⟩,
  -- src/lex/selmaho/classify.rs:355
  ⟨[c!"zo'u"], .Zohu, false⟩,
  -- src/lex/selmaho/classify.rs:356
  ⟨[c!"fi'ai", c!"ge'ai", c!"ke'au", c!"ce'ai"], .Zohu, true⟩,
  -- src/lex/selmaho/classify.rs:359
  ⟨[c!"ba'ei"], .Bahei, false⟩,
  -- src/lex/selmaho/classify.rs:360
  ⟨[c!"bei'e"], .Beihe, false⟩,
  -- src/lex/selmaho/classify.rs:361
  ⟨[c!"boi'oi"], .Boihoi, false⟩,
  -- src/lex/selmaho/classify.rs:362
  ⟨[c!"ca'ei", c!"pu'ei"], .Cahei, false⟩,
  -- src/lex/selmaho/classify.rs:363
  ⟨[c!"ce'ei'oi"], .Ceheihoi, false⟩,
  -- src/lex/selmaho/classify.rs:364
  ⟨[c!"co'ai"], .Cohai, false⟩,
  -- src/lex/selmaho/classify.rs:365
  ⟨[c!"co'e'o'e"], .Cohehohe, false⟩,
  -- src/lex/selmaho/classify.rs:366
  ⟨[c!"co'u'o"], .Cohuho, false⟩,
  -- src/lex/selmaho/classify.rs:367
  ⟨[c!"cu'au"], .Cuhau, false⟩,
  -- src/lex/selmaho/classify.rs:368
  ⟨[c!"dau'o"], .Dauho, false⟩,
  -- src/lex/selmaho/classify.rs:369
  ⟨[c!"de'ai"], .Dehai, false⟩,
  -- src/lex/selmaho/classify.rs:370
  ⟨[c!"dau'a", c!"de'au", c!"de'oi", c!"doi'a"], .Dehau, false⟩,
  -- src/lex/selmaho/classify.rs:371
  ⟨[c!"do'oi"], .Dohoi, false⟩,
  -- src/lex/selmaho/classify.rs:372
  ⟨[c!"fau'a", c!"fau'ai"], .Fauha, false⟩,
  -- src/lex/selmaho/classify.rs:373
  ⟨[c!"fa'o'o"], .Fahoho, false⟩,
  -- src/lex/selmaho/classify.rs:374
  ⟨[c!"fi'oi"], .Fihoi, false⟩,
  -- src/lex/selmaho/classify.rs:375
  ⟨[c!"foi'e"], .Foihe, false⟩,
  -- src/lex/selmaho/classify.rs:376
  ⟨[c!"ga'u'au", c!"ni'a'a"], .Gahuhau, false⟩,
  -- src/lex/selmaho/classify.rs:377
  ⟨[c!"ge'u'i"], .Gehuhi, false⟩,
  -- src/lex/selmaho/classify.rs:378
  ⟨[c!"gi'ei"], .Gihei, false⟩,
  -- src/lex/selmaho/classify.rs:379
  ⟨[c!"gi'oi"], .Gihoi, false⟩,
  -- src/lex/selmaho/classify.rs:380
  ⟨[c!"bo'ei", c!"go'oi", c!"sau'e", c!"ta'ai", c!"ze'oi"], .Gohoi, false⟩,
  -- src/lex/selmaho/classify.rs:381
  ⟨[c!"iau", c!"i'au"], .Ihau, false⟩,
  -- src/lex/selmaho/classify.rs:382
  ⟨[c!"jai'a"], .Jaiha, false⟩,
  -- src/lex/selmaho/classify.rs:383
  ⟨[c!"jai'i"], .Jaihi, false⟩,
  -- src/lex/selmaho/classify.rs:384
  ⟨[c!"jau'u"], .Jauhu, false⟩,
  -- src/lex/selmaho/classify.rs:385
  ⟨[c!"fau'au", c!"ja'oi"], .Jahoi, false⟩,
  -- src/lex/selmaho/classify.rs:386
  ⟨[c!"ji'oi", c!"ni'oi"], .Jihoi, false⟩,
  -- src/lex/selmaho/classify.rs:387
  ⟨[c!"boi'au", c!"fa'ei", c!"gei'i'e"], .Joihi, false⟩,
  -- src/lex/selmaho/classify.rs:388
  ⟨[c!"xa'ei'o", c!"xa'ei'u"], .Johe, false⟩,
  -- src/lex/selmaho/classify.rs:389
  ⟨[c!"ju'au"], .Juhau, false⟩,
  -- src/lex/selmaho/classify.rs:390
  ⟨[c!"ju'ei"], .Juhei, false⟩,
  -- src/lex/selmaho/classify.rs:391
  ⟨[c!"ju'u'i"], .Juhuhi, false⟩,
  -- src/lex/selmaho/classify.rs:392
  ⟨[c!"kau'ai", c!"kau'au"], .Kauhai, false⟩,
  -- src/lex/selmaho/classify.rs:393
  ⟨[c!"kau'u"], .Kauhu, false⟩,
  -- src/lex/selmaho/classify.rs:394
  ⟨[c!"kei'au"], .Keihau, false⟩,
  -- src/lex/selmaho/classify.rs:395
  ⟨[c!"kei'i"], .Keihi, false⟩,
  -- src/lex/selmaho/classify.rs:396
  ⟨[c!"ke'ei"], .Kehei, false⟩,
  -- src/lex/selmaho/classify.rs:397
  ⟨[c!"ke'ei'a"], .Keheiha, false⟩,
  -- src/lex/selmaho/classify.rs:398
  ⟨[c!"ke'e'au"], .Kehehau, false⟩,
  -- src/lex/selmaho/classify.rs:399
  ⟨[c!"ke'e'u"], .Kehehu, false⟩,
  -- src/lex/selmaho/classify.rs:400
  ⟨[c!"ke'u'i"], .Kehuhi, false⟩,
  -- src/lex/selmaho/classify.rs:401
  ⟨[c!"ku'au"], .Kuhau, false⟩,
  -- src/lex/selmaho/classify.rs:402
  ⟨[c!"ku'ei"], .Kuhei, false⟩,
  -- src/lex/selmaho/classify.rs:403
  ⟨[c!"ku'oi'u"], .Kuhoihu, false⟩,
  -- src/lex/selmaho/classify.rs:404
  ⟨[c!"fy'oi", c!"ky'oi"], .Kyhoi, false⟩,
  -- src/lex/selmaho/classify.rs:405
  ⟨[c!"le'ai"], .Lehai, false⟩,
  -- src/lex/selmaho/classify.rs:406
  ⟨[c!"li'au"], .Lihau, false⟩,
  -- src/lex/selmaho/classify.rs:407
  ⟨[c!"li'ei"], .Lihei, false⟩,
  -- src/lex/selmaho/classify.rs:408
  ⟨[c!"lo'ai", c!"sa'ai"], .Lohai, false⟩,
  -- src/lex/selmaho/classify.rs:409
  ⟨[c!"fo'ai", c!"ko'ai", c!"koi'i", c!"lo'oi", c!"mau'a", c!"xau'a", c!"xu'u"], .Lohoi, false⟩,
  -- src/lex/selmaho/classify.rs:410
  ⟨[c!"lu'ei"], .Luhei, false⟩,
  -- src/lex/selmaho/classify.rs:411
  ⟨[c!"mau'au"], .Mauhau, false⟩,
  -- src/lex/selmaho/classify.rs:412
  ⟨[c!"mau'e"], .Mauhe, false⟩,
  -- src/lex/selmaho/classify.rs:413
  ⟨[c!"mau'o"], .Mauho, false⟩,
  -- src/lex/selmaho/classify.rs:414
  ⟨[c!"mei'e"], .Meihe, false⟩,
  -- src/lex/selmaho/classify.rs:415
  ⟨[c!"mei'o"], .Meiho, false⟩,
  -- src/lex/selmaho/classify.rs:416
  ⟨[c!"me'oi"], .Mehoi, false⟩,
  -- src/lex/selmaho/classify.rs:417
  ⟨[c!"mu'oi"], .Muhoi, false⟩,
  -- src/lex/selmaho/classify.rs:418
  ⟨[c!"mu'o'u"], .Muhohu, false⟩,
  -- src/lex/selmaho/classify.rs:419
  ⟨[c!"nei'ai"], .Neihai, false⟩,
  -- src/lex/selmaho/classify.rs:420
  ⟨[c!"noi'a", c!"poi'a", c!"poi'o'a", c!"soi'a"], .Noiha, false⟩,
  -- src/lex/selmaho/classify.rs:421
  ⟨[c!"noi'au", c!"poi'au"], .Noihau, false⟩,
  -- src/lex/selmaho/classify.rs:422
  ⟨[c!"noi'a'u", c!"poi'a'u"], .Noihahu, false⟩,
  -- src/lex/selmaho/classify.rs:423
  ⟨[c!"noi'i"], .Noihi, false⟩,
  -- src/lex/selmaho/classify.rs:424
  ⟨[c!"no'oi", c!"po'oi"], .Nohoi, false⟩,
  -- src/lex/selmaho/classify.rs:425
  ⟨[c!"rau'oi"], .Rauho, false⟩,
  -- src/lex/selmaho/classify.rs:426
  ⟨[c!"re'ai'e"], .Rehaihe, false⟩,
  -- src/lex/selmaho/classify.rs:427
  ⟨[c!"sau'u"], .Sauhu, false⟩,
  -- src/lex/selmaho/classify.rs:428
  ⟨[c!"sa'au"], .Sahau, false⟩,
  -- src/lex/selmaho/classify.rs:429
  ⟨[c!"sa'oi"], .Sahoi, false⟩,
  -- src/lex/selmaho/classify.rs:430
  ⟨[c!"sei'au"], .Seihau, false⟩,
  -- src/lex/selmaho/classify.rs:431
  ⟨[c!"sei'o"], .Seiho, false⟩,
  -- src/lex/selmaho/classify.rs:432
  ⟨[c!"se'e'i", c!"te'e'a", c!"te'e'i", c!"ve'e'a", c!"ve'e'i", c!"ve'e'u", c!"xe'e'i", c!"xe'e'o",
    c!"xe'e'u", c!"ze'e'a", c!"ze'e'au", c!"ze'e'e", c!"ze'e'i", c!"ze'e'o", c!"ze'e'u"], .Sehehi,
    false⟩,
  -- src/lex/selmaho/classify.rs:434
  ⟨[c!"se'oi'oi"], .Sehoihoi, false⟩,
  -- src/lex/selmaho/classify.rs:435
  ⟨[c!"si'i'ei"], .Sihihei, false⟩,
  -- src/lex/selmaho/classify.rs:436
  ⟨[c!"si'i'oi"], .Sihihoi, false⟩,
  -- src/lex/selmaho/classify.rs:437
  ⟨[c!"si'oi"], .Sihoi, false⟩,
  -- src/lex/selmaho/classify.rs:438
  ⟨[c!"soi'i"], .Soihi, false⟩,
  -- src/lex/selmaho/classify.rs:439
  ⟨[c!"so'e'ai"], .Sohehai, false⟩,
  -- src/lex/selmaho/classify.rs:440
  ⟨[c!"so'oi"], .Sohoi, false⟩,
  -- src/lex/selmaho/classify.rs:441
  ⟨[c!"tai'u"], .Taihu, false⟩,
  -- src/lex/selmaho/classify.rs:442
  ⟨[c!"tau'o"], .Tauho, false⟩,
  -- src/lex/selmaho/classify.rs:443
  ⟨[c!"ta'oi"], .Tahoi, false⟩,
  -- src/lex/selmaho/classify.rs:444
  ⟨[c!"ta'u'i", c!"ta'u'u"], .Tahuhi, false⟩,
  -- src/lex/selmaho/classify.rs:445
  ⟨[c!"tei'u"], .Teihu, false⟩,
  -- src/lex/selmaho/classify.rs:446
  ⟨[c!"te'oi'oi"], .Tehoihoi, false⟩,
  -- src/lex/selmaho/classify.rs:447
  ⟨[c!"toi'e"], .Toihe, false⟩,
  -- src/lex/selmaho/classify.rs:448
  ⟨[c!"toi'o"], .Toiho, false⟩,
  -- src/lex/selmaho/classify.rs:449
  ⟨[c!"vau'e'oi"], .Vauhehoi, false⟩,
  -- src/lex/selmaho/classify.rs:450
  ⟨[c!"vau'o'oi"], .Vauhohoi, false⟩,
  -- src/lex/selmaho/classify.rs:451
  ⟨[c!"vu'oi"], .Vuhoi, false⟩,
  -- src/lex/selmaho/classify.rs:452
  ⟨[c!"vy'y"], .Vyhy, false⟩,
  -- src/lex/selmaho/classify.rs:453
  ⟨[c!"xau'e'o"], .Xauheho, false⟩,
  -- src/lex/selmaho/classify.rs:454
  ⟨[c!"xa'oi'a'oi'a"], .Xahoihahoiha, false⟩,
  -- src/lex/selmaho/classify.rs:455
  ⟨[c!"xe'au"], .Xehau, false⟩,
  -- src/lex/selmaho/classify.rs:456
  ⟨[c!"no'au", c!"xoi"], .Xoi, false⟩,
  -- src/lex/selmaho/classify.rs:457
  ⟨[c!"xo'a"], .Xoha, false⟩,
  -- src/lex/selmaho/classify.rs:458
  ⟨[c!"xo'e'o'e"], .Xohehohe, false⟩,
  -- src/lex/selmaho/classify.rs:459
  ⟨[c!"xo'i"], .Xohi, false⟩,
  -- src/lex/selmaho/classify.rs:460
  ⟨[c!"xu'au"], .Xuhau, false⟩,
  -- src/lex/selmaho/classify.rs:461
  ⟨[c!"ji'o'e", c!"y'i"], .Yhi, false⟩,
  -- src/lex/selmaho/classify.rs:462
  ⟨[c!"zai'ai"], .Zaihai, false⟩,
  -- src/lex/selmaho/classify.rs:463
  ⟨[c!"rai'o", c!"zai'u"], .Zaihu, false⟩,
  -- src/lex/selmaho/classify.rs:464
  ⟨[c!"zau'e'u"], .Zauhehu, false⟩,
  -- src/lex/selmaho/classify.rs:465
  ⟨[c!"zei'ei"], .Zeihei, false⟩,
  -- src/lex/selmaho/classify.rs:466
  ⟨[c!"zei'oi"], .Zeihoi, false⟩,
  -- src/lex/selmaho/classify.rs:467
  ⟨[c!"zi'e'a", c!"zi'e'e", c!"zi'e'i", c!"zi'e'o", c!"zi'e'u"], .Ziheha, false⟩,
  -- src/lex/selmaho/classify.rs:468
  ⟨[c!"zi'e'au"], .Zihehau, false⟩,
  -- src/lex/selmaho/classify.rs:469
  ⟨[c!"zei'o", c!"zi'oi"], .Zihoi, false⟩,
  -- src/lex/selmaho/classify.rs:470
  ⟨[c!"zoi'ai"], .Zoihai, false⟩,
  -- src/lex/selmaho/classify.rs:471
  ⟨[c!"zoi'ai'e", c!"zoi'o'e"], .Zoihohe, false⟩,
  -- src/lex/selmaho/classify.rs:472
  ⟨[c!"zo'au"], .Zohau, false⟩,
  -- src/lex/selmaho/classify.rs:473
  ⟨[c!"zo'e'u"], .Zohehu, false⟩,
  -- src/lex/selmaho/classify.rs:474
  ⟨[c!"zo'i'o"], .Zohiho, false⟩,
  -- src/lex/selmaho/classify.rs:475
  ⟨[c!"la'oi", c!"ra'oi", c!"zo'oi"], .Zohoi, false⟩
]

end Sneturfahi
