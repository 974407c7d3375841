import Verif.Model.Peg

/-!
# The rules of `src/rules.rs`

Generated by `tools/gen_rules.py` from the text of `src/rules.rs`; every rule function is translated
construct by construct (see `Verif.Model.Peg` for the meaning of the constructs).  The attribute
`#[debug_rule]` (`macros/src/lib.rs:79-102`) only adds logging around a body and is modelled in
`Verif.Model.Trace`, not here.
-/

namespace Sneturfahi

/-- The rule functions of `src/rules.rs`. -/
inductive Rule where
  /-- `src/rules.rs:209-211` -/
  | h
  /-- `src/rules.rs:221 (macro 213-219)` -/
  | b
  /-- `src/rules.rs:222 (macro 213-219)` -/
  | c
  /-- `src/rules.rs:223 (macro 213-219)` -/
  | d
  /-- `src/rules.rs:224 (macro 213-219)` -/
  | f
  /-- `src/rules.rs:225 (macro 213-219)` -/
  | g
  /-- `src/rules.rs:226 (macro 213-219)` -/
  | j
  /-- `src/rules.rs:227 (macro 213-219)` -/
  | k
  /-- `src/rules.rs:228 (macro 213-219)` -/
  | l
  /-- `src/rules.rs:229 (macro 213-219)` -/
  | m
  /-- `src/rules.rs:230 (macro 213-219)` -/
  | n
  /-- `src/rules.rs:231 (macro 213-219)` -/
  | p
  /-- `src/rules.rs:232 (macro 213-219)` -/
  | r
  /-- `src/rules.rs:233 (macro 213-219)` -/
  | s
  /-- `src/rules.rs:234 (macro 213-219)` -/
  | t
  /-- `src/rules.rs:235 (macro 213-219)` -/
  | v
  /-- `src/rules.rs:236 (macro 213-219)` -/
  | x
  /-- `src/rules.rs:237 (macro 213-219)` -/
  | z
  /-- `src/rules.rs:239 (macro 119-125)` -/
  | liquid
  /-- `src/rules.rs:240 (macro 119-125)` -/
  | syllabic
  /-- `src/rules.rs:241 (macro 119-125)` -/
  | voiced
  /-- `src/rules.rs:242 (macro 119-125)` -/
  | unvoiced
  /-- `src/rules.rs:244 (macro 119-125)` -/
  | consonant
  /-- `src/rules.rs:246-259` -/
  | other
  /-- `src/rules.rs:261-263` -/
  | sibilant
  /-- `src/rules.rs:265-267` -/
  | affricate
  /-- `src/rules.rs:277 (macro 269-275)` -/
  | a
  /-- `src/rules.rs:278 (macro 269-275)` -/
  | e
  /-- `src/rules.rs:279 (macro 269-275)` -/
  | i
  /-- `src/rules.rs:280 (macro 269-275)` -/
  | o
  /-- `src/rules.rs:281 (macro 269-275)` -/
  | u
  /-- `src/rules.rs:282 (macro 269-275)` -/
  | y
  /-- `src/rules.rs:285-287` -/
  | vowel
  /-- `src/rules.rs:295-297` -/
  | diphthong
  /-- `src/rules.rs:305-307` -/
  | nucleus
  /-- `src/rules.rs:309-311` -/
  | glide
  /-- `src/rules.rs:313-315` -/
  | digit
  /-- `src/rules.rs:318-334` -/
  | cmevla
  /-- `src/rules.rs:337-342` -/
  | cvcy_lujvo
  /-- `src/rules.rs:344-346` -/
  | cluster
  /-- `src/rules.rs:348-352` -/
  | initial
  /-- `src/rules.rs:354-356` -/
  | onset
  /-- `src/rules.rs:358-360` -/
  | stressed
  /-- `src/rules.rs:363-375` -/
  | cmavo_form
  /-- `src/rules.rs:382-384` -/
  | post_word
  /-- `src/rules.rs:386-388` -/
  | initial_pair
  /-- `src/rules.rs:390-392` -/
  | consonantal_syllable
  /-- `src/rules.rs:394-396` -/
  | any_syllable
  /-- `src/rules.rs:398-403` -/
  | coda
  /-- `src/rules.rs:405-407` -/
  | syllable
  /-- `src/rules.rs:409-411` -/
  | stress
  /-- `src/rules.rs:413-415` -/
  | explicitly_stressed_vowel
  /-- `src/rules.rs:417-419` -/
  | stressed_vowel
  /-- `src/rules.rs:421-430` -/
  | final_syllable
  /-- `src/rules.rs:433-444` -/
  | gismu
  /-- `src/rules.rs:446-448` -/
  | cvc_rafsi
  /-- `src/rules.rs:450-452` -/
  | ccv_rafsi
  /-- `src/rules.rs:454-456` -/
  | unstressed_vowel
  /-- `src/rules.rs:458-460` -/
  | unstressed_diphthong
  /-- `src/rules.rs:462-464` -/
  | r_hyphen
  /-- `src/rules.rs:466-475` -/
  | cvv_rafsi
  /-- `src/rules.rs:477-483` -/
  | y_less_rafsi
  /-- `src/rules.rs:485-494` -/
  | cvv_final_rafsi
  /-- `src/rules.rs:496-498` -/
  | stressed_cvc_rafsi
  /-- `src/rules.rs:500-502` -/
  | stressed_ccv_rafsi
  /-- `src/rules.rs:504-509` -/
  | stressed_diphthong
  /-- `src/rules.rs:511-520` -/
  | stressed_cvv_rafsi
  /-- `src/rules.rs:522-528` -/
  | stressed_y_less_rafsi
  /-- `src/rules.rs:530-535` -/
  | long_rafsi
  /-- `src/rules.rs:537-544` -/
  | hy_rafsi
  /-- `src/rules.rs:546-556` -/
  | stressed_hy_rafsi
  /-- `src/rules.rs:558-560` -/
  | y_rafsi
  /-- `src/rules.rs:562-567` -/
  | stressed_long_rafsi
  /-- `src/rules.rs:569-571` -/
  | stressed_y_rafsi
  /-- `src/rules.rs:573-579` -/
  | short_final_rafsi
  /-- `src/rules.rs:581-595` -/
  | rafsi_string
  /-- `src/rules.rs:597-599` -/
  | slinkuhi
  /-- `src/rules.rs:601-606` -/
  | unstressed_syllable
  /-- `src/rules.rs:608-616` -/
  | brivla_head
  /-- `src/rules.rs:618-621` -/
  | fuhivla_head
  /-- `src/rules.rs:623-625` -/
  | explicitly_stressed_syllable
  /-- `src/rules.rs:627-629` -/
  | stressed_syllable
  /-- `src/rules.rs:632-639` -/
  | fuhivla
  /-- `src/rules.rs:641-649` -/
  | brivla_rafsi
  /-- `src/rules.rs:651-660` -/
  | fuhivla_rafsi
  /-- `src/rules.rs:662-664` -/
  | extended_rafsi
  /-- `src/rules.rs:666-674` -/
  | stressed_brivla_rafsi
  /-- `src/rules.rs:676-678` -/
  | stressed_fuhivla_rafsi
  /-- `src/rules.rs:680-682` -/
  | stressed_extended_rafsi
  /-- `src/rules.rs:684-686` -/
  | any_extended_rafsi
  /-- `src/rules.rs:688-698` -/
  | initial_rafsi
  /-- `src/rules.rs:700-706` -/
  | stressed_initial_rafsi
  /-- `src/rules.rs:708-715` -/
  | brivla_core
  /-- `src/rules.rs:718-728` -/
  | explicitly_stressed_gismu_minimal
  /-- `src/rules.rs:730-732` -/
  | final_syllable_minimal
  /-- `src/rules.rs:735-742` -/
  | explicitly_stressed_fuhivla_minimal
  /-- `src/rules.rs:744-753` -/
  | explicitly_stressed_cvv_final_rafsi
  /-- `src/rules.rs:755-763` -/
  | explicitly_stressed_brivla_rafsi
  /-- `src/rules.rs:765-767` -/
  | explicitly_stressed_fuhivla_rafsi
  /-- `src/rules.rs:769-774` -/
  | explicitly_stressed_extended_rafsi
  /-- `src/rules.rs:776-781` -/
  | explicitly_stressed_long_rafsi
  /-- `src/rules.rs:783-785` -/
  | explicitly_stressed_cvc_rafsi
  /-- `src/rules.rs:787-795` -/
  | explicitly_stressed_y_rafsi
  /-- `src/rules.rs:797-799` -/
  | explicitly_stressed_ccv_rafsi
  /-- `src/rules.rs:801-803` -/
  | explicitly_stressed_diphthong
  /-- `src/rules.rs:805-814` -/
  | explicitly_stressed_cvv_rafsi
  /-- `src/rules.rs:816-822` -/
  | explicitly_stressed_y_less_rafsi
  /-- `src/rules.rs:824-830` -/
  | explicitly_stressed_initial_rafsi
  /-- `src/rules.rs:832-839` -/
  | explicitly_stressed_brivla_core
  /-- `src/rules.rs:841-843` -/
  | explicitly_stressed_brivla_minimal
  /-- `src/rules.rs:846-854` -/
  | lujvo
  /-- `src/rules.rs:858-860` -/
  | lujvo_minimal
  /-- `src/rules.rs:863-865` -/
  | brivla
  /-- `src/rules.rs:869-871` -/
  | brivla_minimal
  /-- `src/rules.rs:874-880` -/
  | lojban_word
  /-- `src/rules.rs:883-886` -/
  | cmavo
  /-- `src/rules.rs:890-893` -/
  | cmavo_minimal
  /-- `src/rules.rs:896-898` -/
  | cmavo_semi_minimal
deriving DecidableEq, Repr

/-- Call of a rule. -/
local prefix:max "§" => Exp.call
/-- `or![..]` -/
local infixr:55 " ∣ " => Exp.alt
/-- `seq![..]` -/
local infixr:60 " ⬝ " => Exp.seq

/-- The body of every rule function of `src/rules.rs` (line numbers at each rule). -/
def grammar : Rule → Exp Rule
  -- src/rules.rs:209-211
  | .h => (.andPeek (.oneOf c!"'h") §.nucleus)
  -- src/rules.rs:221 (macro 213-219)
  | .b => (.andNot (.oneOf c!"bB") (§.h ∣ §.glide ∣ §.b ∣ §.unvoiced))
  -- src/rules.rs:222 (macro 213-219)
  | .c => (.andNot (.oneOf c!"cC") (§.h ∣ §.glide ∣ §.c ∣ §.s ∣ §.x ∣ §.voiced))
  -- src/rules.rs:223 (macro 213-219)
  | .d => (.andNot (.oneOf c!"dD") (§.h ∣ §.glide ∣ §.d ∣ §.unvoiced))
  -- src/rules.rs:224 (macro 213-219)
  | .f => (.andNot (.oneOf c!"fF") (§.h ∣ §.glide ∣ §.f ∣ §.voiced))
  -- src/rules.rs:225 (macro 213-219)
  | .g => (.andNot (.oneOf c!"gG") (§.h ∣ §.glide ∣ §.g ∣ §.unvoiced))
  -- src/rules.rs:226 (macro 213-219)
  | .j => (.andNot (.oneOf c!"jJ") (§.h ∣ §.glide ∣ §.j ∣ §.z ∣ §.unvoiced))
  -- src/rules.rs:227 (macro 213-219)
  | .k => (.andNot (.oneOf c!"kK") (§.h ∣ §.glide ∣ §.k ∣ §.x ∣ §.voiced))
  -- src/rules.rs:228 (macro 213-219)
  | .l => (.andNot (.oneOf c!"lL") (§.h ∣ §.glide ∣ §.l))
  -- src/rules.rs:229 (macro 213-219)
  | .m => (.andNot (.oneOf c!"mM") (§.h ∣ §.glide ∣ §.m ∣ §.z))
  -- src/rules.rs:230 (macro 213-219)
  | .n => (.andNot (.oneOf c!"nN") (§.h ∣ §.glide ∣ §.n ∣ §.affricate))
  -- src/rules.rs:231 (macro 213-219)
  | .p => (.andNot (.oneOf c!"pP") (§.h ∣ §.glide ∣ §.p ∣ §.voiced))
  -- src/rules.rs:232 (macro 213-219)
  | .r => (.andNot (.oneOf c!"rR") (§.h ∣ §.glide ∣ §.r))
  -- src/rules.rs:233 (macro 213-219)
  | .s => (.andNot (.oneOf c!"sS") (§.h ∣ §.glide ∣ §.s ∣ §.c ∣ §.voiced))
  -- src/rules.rs:234 (macro 213-219)
  | .t => (.andNot (.oneOf c!"tT") (§.h ∣ §.glide ∣ §.t ∣ §.voiced))
  -- src/rules.rs:235 (macro 213-219)
  | .v => (.andNot (.oneOf c!"vV") (§.h ∣ §.glide ∣ §.v ∣ §.unvoiced))
  -- src/rules.rs:236 (macro 213-219)
  | .x => (.andNot (.oneOf c!"xX") (§.h ∣ §.glide ∣ §.x ∣ §.c ∣ §.k ∣ §.voiced))
  -- src/rules.rs:237 (macro 213-219)
  | .z => (.andNot (.oneOf c!"zZ") (§.h ∣ §.glide ∣ §.z ∣ §.j ∣ §.unvoiced))
  -- src/rules.rs:239 (macro 119-125)
  | .liquid => (§.l ∣ §.r)
  -- src/rules.rs:240 (macro 119-125)
  | .syllabic => (§.l ∣ §.m ∣ §.n ∣ §.r)
  -- src/rules.rs:241 (macro 119-125)
  | .voiced => (§.b ∣ §.d ∣ §.g ∣ §.j ∣ §.v ∣ §.z)
  -- src/rules.rs:242 (macro 119-125)
  | .unvoiced => (§.c ∣ §.f ∣ §.k ∣ §.p ∣ §.s ∣ §.t ∣ §.x)
  -- src/rules.rs:244 (macro 119-125)
  | .consonant => (§.voiced ∣ §.unvoiced ∣ §.syllabic)
  -- src/rules.rs:246-259
  | .other => (§.p ∣ §.k ∣ §.f ∣ §.x ∣ §.b ∣ §.g ∣ §.v ∣ §.m ∣ (§.n ⬝ (.not §.liquid)) ∣ ((§.t ∣ §.d) ⬝ (.not §.l)))
  -- src/rules.rs:261-263
  | .sibilant => (§.c ∣ (§.s ⬝ (.not §.x)) ∣ ((§.j ∣ §.z) ⬝ (.not §.n) ⬝ (.not §.liquid)))
  -- src/rules.rs:265-267
  | .affricate => ((§.t ⬝ (§.c ∣ §.s)) ∣ (§.d ⬝ (§.j ∣ §.z)))
  -- src/rules.rs:277 (macro 269-275)
  | .a => (.oneOf c!"aA")
  -- src/rules.rs:278 (macro 269-275)
  | .e => (.oneOf c!"eE")
  -- src/rules.rs:279 (macro 269-275)
  | .i => (.oneOf c!"iI")
  -- src/rules.rs:280 (macro 269-275)
  | .o => (.oneOf c!"oO")
  -- src/rules.rs:281 (macro 269-275)
  | .u => (.oneOf c!"uU")
  -- src/rules.rs:282 (macro 269-275)
  | .y => (.oneOf c!"yY")
  -- src/rules.rs:285-287
  | .vowel => (.andNot (.oneOf c!"aAeEiIoOuUyY") §.nucleus)
  -- src/rules.rs:295-297
  | .diphthong => (.andNot ((§.a ⬝ (§.i ∣ §.u)) ∣ ((§.e ∣ §.o) ⬝ §.i)) §.nucleus)
  -- src/rules.rs:305-307
  | .nucleus => (§.vowel ∣ §.diphthong ∣ (.andNot §.y §.nucleus))
  -- src/rules.rs:309-311
  | .glide => (.andPeek (.oneOf c!"iIuU") §.nucleus)
  -- src/rules.rs:313-315
  | .digit => (.andNot (.oneOf c!"0123456789") (§.h ∣ §.nucleus))
  -- src/rules.rs:318-334
  | .cmevla => (.guardNot §.h ((.rep 0 (§.nucleus ∣ §.glide ∣ §.h ∣ (.andNot §.consonant .eof) ∣ §.digit)) ⬝ §.consonant ⬝ .eof))
  -- src/rules.rs:337-342
  | .cvcy_lujvo => ((§.cvc_rafsi ⬝ §.y ⬝ (.opt §.h) ⬝ (.rep 0 §.initial_rafsi) ⬝ §.brivla_core) ∣ (§.stressed_cvc_rafsi ⬝ §.y ⬝ §.short_final_rafsi))
  -- src/rules.rs:344-346
  | .cluster => (.rep 2 §.consonant)
  -- src/rules.rs:348-352
  | .initial => (.andNot (.andNot (§.affricate ∣ ((.opt §.sibilant) ⬝ (.opt §.other) ⬝ (.opt §.liquid))) §.consonant) §.glide)
  -- src/rules.rs:354-356
  | .onset => (§.h ∣ §.glide ∣ §.initial)
  -- src/rules.rs:358-360
  | .stressed => (§.onset ⬝ (.oneOf c!"AEIOU"))
  -- src/rules.rs:363-375
  | .cmavo_form => (.longest §.digit (.longest (.rep 1 §.y) ((.not §.h) ⬝ (.not §.cluster) ⬝ §.onset ⬝ (.rep 0 (§.nucleus ⬝ §.h)) ⬝ (((.not §.stressed) ⬝ §.nucleus) ∣ (§.nucleus ⬝ (.not §.cluster))))))
  -- src/rules.rs:382-384
  | .post_word => (.eof ∣ ((.not §.nucleus) ⬝ §.lojban_word))
  -- src/rules.rs:386-388
  | .initial_pair => ((.peek §.initial) ⬝ §.consonant ⬝ §.consonant ⬝ (.not §.consonant))
  -- src/rules.rs:390-392
  | .consonantal_syllable => (§.consonant ⬝ (.peek §.syllabic) ⬝ §.coda)
  -- src/rules.rs:394-396
  | .any_syllable => ((§.onset ⬝ §.nucleus ⬝ (.opt §.coda)) ∣ §.consonantal_syllable)
  -- src/rules.rs:398-403
  | .coda => (((.not §.any_syllable) ⬝ §.consonant ⬝ (.peek §.any_syllable)) ∣ ((.opt §.syllabic) ⬝ (.opt §.consonant) ⬝ .eof))
  -- src/rules.rs:405-407
  | .syllable => (§.onset ⬝ (.not §.y) ⬝ §.nucleus ⬝ (.opt §.coda))
  -- src/rules.rs:409-411
  | .stress => ((.rep 0 §.consonant) ⬝ (.opt §.h) ⬝ (.opt §.y) ⬝ §.syllable ⬝ .eof)
  -- src/rules.rs:413-415
  | .explicitly_stressed_vowel => ((.peek §.stressed) ⬝ §.vowel)
  -- src/rules.rs:417-419
  | .stressed_vowel => (§.explicitly_stressed_vowel ∣ (§.vowel ⬝ (.peek §.stress)))
  -- src/rules.rs:421-430
  | .final_syllable => (§.onset ⬝ (.not §.y) ⬝ (.not §.stressed) ⬝ §.nucleus ⬝ (.not §.cmevla) ⬝ (.peek §.post_word))
  -- src/rules.rs:433-444
  | .gismu => (((§.initial_pair ⬝ §.stressed_vowel) ∣ (§.consonant ⬝ §.stressed_vowel ⬝ §.consonant)) ⬝ (.peek §.final_syllable) ⬝ §.consonant ⬝ §.vowel ⬝ (.peek §.post_word))
  -- src/rules.rs:446-448
  | .cvc_rafsi => (§.consonant ⬝ §.unstressed_vowel ⬝ §.consonant)
  -- src/rules.rs:450-452
  | .ccv_rafsi => (§.initial_pair ⬝ §.unstressed_vowel)
  -- src/rules.rs:454-456
  | .unstressed_vowel => ((.not §.stressed) ⬝ §.vowel ⬝ (.not §.stress))
  -- src/rules.rs:458-460
  | .unstressed_diphthong => ((.not §.stressed) ⬝ §.diphthong ⬝ (.not §.stress))
  -- src/rules.rs:462-464
  | .r_hyphen => ((§.r ⬝ (.peek §.consonant)) ∣ (§.n ⬝ (.peek §.r)))
  -- src/rules.rs:466-475
  | .cvv_rafsi => (§.consonant ⬝ ((§.unstressed_vowel ⬝ §.h ⬝ §.unstressed_vowel) ∣ §.unstressed_diphthong) ⬝ §.r_hyphen)
  -- src/rules.rs:477-483
  | .y_less_rafsi => (.guardNot §.y_rafsi (.guardNot §.stressed_y_rafsi (.guardNot §.hy_rafsi (.guardNot §.stressed_hy_rafsi (.andNot (§.cvc_rafsi ∣ §.ccv_rafsi ∣ §.cvv_rafsi) §.h)))))
  -- src/rules.rs:485-494
  | .cvv_final_rafsi => (§.consonant ⬝ §.stressed_vowel ⬝ §.h ⬝ (.peek §.final_syllable) ⬝ §.vowel ⬝ (.peek §.post_word))
  -- src/rules.rs:496-498
  | .stressed_cvc_rafsi => (§.consonant ⬝ §.stressed_vowel ⬝ §.consonant)
  -- src/rules.rs:500-502
  | .stressed_ccv_rafsi => (§.initial_pair ⬝ §.stressed_vowel)
  -- src/rules.rs:504-509
  | .stressed_diphthong => (((.peek §.stressed) ⬝ §.diphthong) ∣ (§.diphthong ⬝ (.peek §.stress)))
  -- src/rules.rs:511-520
  | .stressed_cvv_rafsi => (§.consonant ⬝ ((§.unstressed_vowel ⬝ §.h ⬝ §.stressed_vowel) ∣ §.stressed_diphthong) ⬝ (.opt §.r_hyphen))
  -- src/rules.rs:522-528
  | .stressed_y_less_rafsi => ((§.stressed_cvc_rafsi ⬝ (.not §.y)) ∣ §.stressed_ccv_rafsi ∣ §.stressed_cvv_rafsi)
  -- src/rules.rs:530-535
  | .long_rafsi => ((§.initial_pair ⬝ §.unstressed_vowel ⬝ §.consonant) ∣ (§.consonant ⬝ §.unstressed_vowel ⬝ §.consonant ⬝ §.consonant))
  -- src/rules.rs:537-544
  | .hy_rafsi => (((§.long_rafsi ⬝ §.vowel) ∣ §.ccv_rafsi ∣ §.cvv_rafsi) ⬝ §.h ⬝ §.y ⬝ (.opt §.h))
  -- src/rules.rs:546-556
  | .stressed_hy_rafsi => (((§.long_rafsi ⬝ §.stressed_vowel) ∣ §.stressed_ccv_rafsi ∣ §.stressed_cvv_rafsi) ⬝ §.h ⬝ §.y)
  -- src/rules.rs:558-560
  | .y_rafsi => ((§.long_rafsi ∣ §.cvc_rafsi) ⬝ §.y ⬝ (.opt §.h))
  -- src/rules.rs:562-567
  | .stressed_long_rafsi => ((§.initial_pair ⬝ §.stressed_vowel ⬝ §.consonant) ∣ (§.consonant ⬝ §.stressed_vowel ⬝ §.consonant ⬝ §.consonant))
  -- src/rules.rs:569-571
  | .stressed_y_rafsi => ((§.stressed_long_rafsi ∣ §.stressed_cvc_rafsi) ⬝ §.y)
  -- src/rules.rs:573-579
  | .short_final_rafsi => ((.peek §.final_syllable) ⬝ ((§.consonant ⬝ §.diphthong) ∣ (§.initial_pair ⬝ §.vowel)) ⬝ (.peek §.post_word))
  -- src/rules.rs:581-595
  | .rafsi_string => ((.rep 0 §.y_less_rafsi) ⬝ (§.gismu ∣ §.cvv_final_rafsi ∣ (§.stressed_y_less_rafsi ⬝ §.short_final_rafsi) ∣ §.y_rafsi ∣ §.stressed_y_rafsi ∣ ((.opt §.stressed_y_less_rafsi) ⬝ §.initial_pair ⬝ §.y) ∣ §.hy_rafsi ∣ §.stressed_hy_rafsi))
  -- src/rules.rs:597-599
  | .slinkuhi => ((.not §.rafsi_string) ⬝ §.consonant ⬝ §.rafsi_string)
  -- src/rules.rs:601-606
  | .unstressed_syllable => (((.not §.stressed) ⬝ §.syllable ⬝ (.not §.stress)) ∣ §.consonantal_syllable)
  -- src/rules.rs:608-616
  | .brivla_head => ((.not §.cmavo) ⬝ (.not §.slinkuhi) ⬝ (.not §.h) ⬝ (.peek §.onset) ⬝ (.rep 0 §.unstressed_syllable))
  -- src/rules.rs:618-621
  | .fuhivla_head => (.guardNot §.rafsi_string §.brivla_head)
  -- src/rules.rs:623-625
  | .explicitly_stressed_syllable => ((.peek §.stressed) ⬝ §.syllable)
  -- src/rules.rs:627-629
  | .stressed_syllable => (§.explicitly_stressed_syllable ∣ (§.syllable ⬝ (.peek §.stress)))
  -- src/rules.rs:632-639
  | .fuhivla => (§.fuhivla_head ⬝ §.stressed_syllable ⬝ (.rep 0 §.consonantal_syllable) ⬝ §.final_syllable)
  -- src/rules.rs:641-649
  | .brivla_rafsi => ((.peek (§.syllable ⬝ (.rep 0 §.consonantal_syllable) ⬝ §.syllable)) ⬝ §.brivla_head ⬝ §.h ⬝ §.y ⬝ (.opt §.h))
  -- src/rules.rs:651-660
  | .fuhivla_rafsi => ((.peek §.unstressed_syllable) ⬝ §.fuhivla_head ⬝ (.not §.h) ⬝ §.onset ⬝ §.y ⬝ (.opt §.h))
  -- src/rules.rs:662-664
  | .extended_rafsi => (§.brivla_rafsi ∣ §.fuhivla_rafsi)
  -- src/rules.rs:666-674
  | .stressed_brivla_rafsi => ((.peek §.unstressed_syllable) ⬝ §.brivla_head ⬝ §.stressed_syllable ⬝ §.h ⬝ §.y)
  -- src/rules.rs:676-678
  | .stressed_fuhivla_rafsi => (§.fuhivla_head ⬝ §.stressed_syllable ⬝ (.not §.h) ⬝ §.onset ⬝ §.y)
  -- src/rules.rs:680-682
  | .stressed_extended_rafsi => (§.stressed_brivla_rafsi ∣ §.stressed_fuhivla_rafsi)
  -- src/rules.rs:684-686
  | .any_extended_rafsi => (§.fuhivla ∣ §.extended_rafsi ∣ §.stressed_extended_rafsi)
  -- src/rules.rs:688-698
  | .initial_rafsi => (§.extended_rafsi ∣ §.y_rafsi ∣ ((.not §.any_extended_rafsi) ⬝ §.y_less_rafsi ⬝ (.not §.any_extended_rafsi)))
  -- src/rules.rs:700-706
  | .stressed_initial_rafsi => (§.stressed_extended_rafsi ∣ §.stressed_y_rafsi ∣ §.stressed_y_less_rafsi)
  -- src/rules.rs:708-715
  | .brivla_core => (§.fuhivla ∣ §.gismu ∣ §.cvv_final_rafsi ∣ (§.stressed_initial_rafsi ⬝ §.short_final_rafsi))
  -- src/rules.rs:718-728
  | .explicitly_stressed_gismu_minimal => (((§.initial_pair ⬝ §.explicitly_stressed_vowel) ∣ (§.consonant ⬝ §.explicitly_stressed_vowel ⬝ §.consonant)) ⬝ (.peek §.final_syllable) ⬝ §.consonant ⬝ §.vowel)
  -- src/rules.rs:730-732
  | .final_syllable_minimal => (§.onset ⬝ (.not §.y) ⬝ (.not §.stressed) ⬝ §.nucleus)
  -- src/rules.rs:735-742
  | .explicitly_stressed_fuhivla_minimal => (§.fuhivla_head ⬝ §.explicitly_stressed_syllable ⬝ (.rep 0 §.consonantal_syllable) ⬝ §.final_syllable_minimal)
  -- src/rules.rs:744-753
  | .explicitly_stressed_cvv_final_rafsi => (§.consonant ⬝ §.explicitly_stressed_vowel ⬝ §.h ⬝ (.peek §.final_syllable) ⬝ §.vowel ⬝ (.peek §.post_word))
  -- src/rules.rs:755-763
  | .explicitly_stressed_brivla_rafsi => ((.peek §.unstressed_syllable) ⬝ §.brivla_head ⬝ §.explicitly_stressed_syllable ⬝ §.h ⬝ §.y)
  -- src/rules.rs:765-767
  | .explicitly_stressed_fuhivla_rafsi => (§.fuhivla_head ⬝ §.explicitly_stressed_syllable ⬝ (.not §.h) ⬝ §.onset ⬝ §.y)
  -- src/rules.rs:769-774
  | .explicitly_stressed_extended_rafsi => (§.explicitly_stressed_brivla_rafsi ∣ §.explicitly_stressed_fuhivla_rafsi)
  -- src/rules.rs:776-781
  | .explicitly_stressed_long_rafsi => ((§.initial_pair ⬝ §.explicitly_stressed_vowel ⬝ §.consonant) ∣ (§.consonant ⬝ §.explicitly_stressed_vowel ⬝ §.consonant ⬝ §.consonant))
  -- src/rules.rs:783-785
  | .explicitly_stressed_cvc_rafsi => (§.consonant ⬝ §.explicitly_stressed_vowel ⬝ §.consonant)
  -- src/rules.rs:787-795
  | .explicitly_stressed_y_rafsi => ((§.explicitly_stressed_long_rafsi ∣ §.explicitly_stressed_cvc_rafsi) ⬝ §.y)
  -- src/rules.rs:797-799
  | .explicitly_stressed_ccv_rafsi => (§.initial_pair ⬝ §.explicitly_stressed_vowel)
  -- src/rules.rs:801-803
  | .explicitly_stressed_diphthong => ((.peek §.stressed) ⬝ §.diphthong)
  -- src/rules.rs:805-814
  | .explicitly_stressed_cvv_rafsi => (§.consonant ⬝ ((§.unstressed_vowel ⬝ §.h ⬝ §.explicitly_stressed_vowel) ∣ §.explicitly_stressed_diphthong) ⬝ (.opt §.r_hyphen))
  -- src/rules.rs:816-822
  | .explicitly_stressed_y_less_rafsi => ((§.explicitly_stressed_cvc_rafsi ⬝ (.not §.y)) ∣ §.explicitly_stressed_ccv_rafsi ∣ §.explicitly_stressed_cvv_rafsi)
  -- src/rules.rs:824-830
  | .explicitly_stressed_initial_rafsi => (§.explicitly_stressed_extended_rafsi ∣ §.explicitly_stressed_y_rafsi ∣ §.explicitly_stressed_y_less_rafsi)
  -- src/rules.rs:832-839
  | .explicitly_stressed_brivla_core => (§.explicitly_stressed_fuhivla_minimal ∣ §.explicitly_stressed_gismu_minimal ∣ §.explicitly_stressed_cvv_final_rafsi ∣ (§.explicitly_stressed_initial_rafsi ⬝ §.short_final_rafsi))
  -- src/rules.rs:841-843
  | .explicitly_stressed_brivla_minimal => ((.rep 0 §.initial_rafsi) ⬝ §.explicitly_stressed_brivla_core)
  -- src/rules.rs:846-854
  | .lujvo => ((.not §.gismu) ⬝ (.not §.fuhivla) ⬝ (.not §.cmavo) ⬝ (.rep 0 §.initial_rafsi) ⬝ §.brivla_core)
  -- src/rules.rs:858-860
  | .lujvo_minimal => ((.rep 0 §.initial_rafsi) ⬝ §.brivla_core)
  -- src/rules.rs:863-865
  | .brivla => (§.gismu ∣ §.fuhivla ∣ ((.not §.cmavo) ⬝ §.lujvo_minimal))
  -- src/rules.rs:869-871
  | .brivla_minimal => (§.gismu ∣ §.fuhivla ∣ §.lujvo_minimal)
  -- src/rules.rs:874-880
  | .lojban_word => (§.cmevla ∣ §.cmavo_semi_minimal ∣ §.brivla_minimal)
  -- src/rules.rs:883-886
  | .cmavo => (.guardNot §.cmevla §.cmavo_semi_minimal)
  -- src/rules.rs:890-893
  | .cmavo_minimal => (.guardNot §.cvcy_lujvo §.cmavo_form)
  -- src/rules.rs:896-898
  | .cmavo_semi_minimal => (.andPeek §.cmavo_minimal §.post_word)

/-- All rules.  `src/rules.rs:209-898`. -/
def Rule.all : List Rule := [
  .h, .b, .c, .d, .f, .g, .j, .k, .l, .m, .n, .p, .r, .s, .t, .v, .x, .z, .liquid, .syllabic, .voiced, .unvoiced, .consonant, .other, .sibilant, .affricate, .a, .e, .i, .o, .u, .y, .vowel, .diphthong, .nucleus, .glide, .digit, .cmevla, .cvcy_lujvo, .cluster, .initial, .onset, .stressed, .cmavo_form, .post_word, .initial_pair, .consonantal_syllable, .any_syllable, .coda, .syllable, .stress, .explicitly_stressed_vowel, .stressed_vowel, .final_syllable, .gismu, .cvc_rafsi, .ccv_rafsi, .unstressed_vowel, .unstressed_diphthong, .r_hyphen, .cvv_rafsi, .y_less_rafsi, .cvv_final_rafsi, .stressed_cvc_rafsi, .stressed_ccv_rafsi, .stressed_diphthong, .stressed_cvv_rafsi, .stressed_y_less_rafsi, .long_rafsi, .hy_rafsi, .stressed_hy_rafsi, .y_rafsi, .stressed_long_rafsi, .stressed_y_rafsi, .short_final_rafsi, .rafsi_string, .slinkuhi, .unstressed_syllable, .brivla_head, .fuhivla_head, .explicitly_stressed_syllable, .stressed_syllable, .fuhivla, .brivla_rafsi, .fuhivla_rafsi, .extended_rafsi, .stressed_brivla_rafsi, .stressed_fuhivla_rafsi, .stressed_extended_rafsi, .any_extended_rafsi, .initial_rafsi, .stressed_initial_rafsi, .brivla_core, .explicitly_stressed_gismu_minimal, .final_syllable_minimal, .explicitly_stressed_fuhivla_minimal, .explicitly_stressed_cvv_final_rafsi, .explicitly_stressed_brivla_rafsi, .explicitly_stressed_fuhivla_rafsi, .explicitly_stressed_extended_rafsi, .explicitly_stressed_long_rafsi, .explicitly_stressed_cvc_rafsi, .explicitly_stressed_y_rafsi, .explicitly_stressed_ccv_rafsi, .explicitly_stressed_diphthong, .explicitly_stressed_cvv_rafsi, .explicitly_stressed_y_less_rafsi, .explicitly_stressed_initial_rafsi, .explicitly_stressed_brivla_core, .explicitly_stressed_brivla_minimal, .lujvo, .lujvo_minimal, .brivla, .brivla_minimal, .lojban_word, .cmavo, .cmavo_minimal, .cmavo_semi_minimal]

end Sneturfahi
