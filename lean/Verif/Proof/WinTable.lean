import Verif.Proof.Window

/-!
# The rules with bit masks for their sets of letters

Generated by `tools/gen_masks.lean.txt` from `Verif.Model.Rules`; `grammarM_ok` is the check.
-/

namespace Sneturfahi

/-- `grammar`, with bit masks. -/
def grammarM : Rule → MExp Rule
  | .h => (.andPeek (.oneOf 20282409603651670424497007099904) (.call .nucleus))
  | .b => (.andNot (.oneOf 316912650130844326669014007808) (.alt (.call .h) (.alt (.call .glide) (.alt (.call .b) (.call .unvoiced)))))
  | .c => (.andNot (.oneOf 633825300261688653338028015616) (.alt (.call .h) (.alt (.call .glide) (.alt (.call .c) (.alt (.call .s) (.alt (.call .x) (.call .voiced)))))))
  | .d => (.andNot (.oneOf 1267650600523377306676056031232) (.alt (.call .h) (.alt (.call .glide) (.alt (.call .d) (.call .unvoiced)))))
  | .f => (.andNot (.oneOf 5070602402093509226704224124928) (.alt (.call .h) (.alt (.call .glide) (.alt (.call .f) (.call .voiced)))))
  | .g => (.andNot (.oneOf 10141204804187018453408448249856) (.alt (.call .h) (.alt (.call .glide) (.alt (.call .g) (.call .unvoiced)))))
  | .j => (.andNot (.oneOf 81129638433496147627267585998848) (.alt (.call .h) (.alt (.call .glide) (.alt (.call .j) (.alt (.call .z) (.call .unvoiced))))))
  | .k => (.andNot (.oneOf 162259276866992295254535171997696) (.alt (.call .h) (.alt (.call .glide) (.alt (.call .k) (.alt (.call .x) (.call .voiced))))))
  | .l => (.andNot (.oneOf 324518553733984590509070343995392) (.alt (.call .h) (.alt (.call .glide) (.call .l))))
  | .m => (.andNot (.oneOf 649037107467969181018140687990784) (.alt (.call .h) (.alt (.call .glide) (.alt (.call .m) (.call .z)))))
  | .n => (.andNot (.oneOf 1298074214935938362036281375981568) (.alt (.call .h) (.alt (.call .glide) (.alt (.call .n) (.call .affricate)))))
  | .p => (.andNot (.oneOf 5192296859743753448145125503926272) (.alt (.call .h) (.alt (.call .glide) (.alt (.call .p) (.call .voiced)))))
  | .r => (.andNot (.oneOf 20769187438975013792580502015705088) (.alt (.call .h) (.alt (.call .glide) (.call .r))))
  | .s => (.andNot (.oneOf 41538374877950027585161004031410176) (.alt (.call .h) (.alt (.call .glide) (.alt (.call .s) (.alt (.call .c) (.call .voiced))))))
  | .t => (.andNot (.oneOf 83076749755900055170322008062820352) (.alt (.call .h) (.alt (.call .glide) (.alt (.call .t) (.call .voiced)))))
  | .v => (.andNot (.oneOf 332306999023600220681288032251281408) (.alt (.call .h) (.alt (.call .glide) (.alt (.call .v) (.call .unvoiced)))))
  | .x => (.andNot (.oneOf 1329227996094400882725152129005125632) (.alt (.call .h) (.alt (.call .glide) (.alt (.call .x) (.alt (.call .c) (.alt (.call .k) (.call .voiced)))))))
  | .z => (.andNot (.oneOf 5316911984377603530900608516020502528) (.alt (.call .h) (.alt (.call .glide) (.alt (.call .z) (.alt (.call .j) (.call .unvoiced))))))
  | .liquid => (.alt (.call .l) (.call .r))
  | .syllabic => (.alt (.call .l) (.alt (.call .m) (.alt (.call .n) (.call .r))))
  | .voiced => (.alt (.call .b) (.alt (.call .d) (.alt (.call .g) (.alt (.call .j) (.alt (.call .v) (.call .z))))))
  | .unvoiced => (.alt (.call .c) (.alt (.call .f) (.alt (.call .k) (.alt (.call .p) (.alt (.call .s) (.alt (.call .t) (.call .x)))))))
  | .consonant => (.alt (.call .voiced) (.alt (.call .unvoiced) (.call .syllabic)))
  | .other => (.alt (.call .p) (.alt (.call .k) (.alt (.call .f) (.alt (.call .x) (.alt (.call .b) (.alt (.call .g) (.alt (.call .v) (.alt (.call .m) (.alt (.seq (.call .n) (.not (.call .liquid))) (.seq (.alt (.call .t) (.call .d)) (.not (.call .l))))))))))))
  | .sibilant => (.alt (.call .c) (.alt (.seq (.call .s) (.not (.call .x))) (.seq (.alt (.call .j) (.call .z)) (.seq (.not (.call .n)) (.not (.call .liquid))))))
  | .affricate => (.alt (.seq (.call .t) (.alt (.call .c) (.call .s))) (.seq (.call .d) (.alt (.call .j) (.call .z))))
  | .a => (.oneOf 158456325065422163334507003904)
  | .e => (.oneOf 2535301201046754613352112062464)
  | .i => (.oneOf 40564819216748073813633792999424)
  | .o => (.oneOf 2596148429871876724072562751963136)
  | .u => (.oneOf 166153499511800110340644016125640704)
  | .y => (.oneOf 2658455992188801765450304258010251264)
  | .vowel => (.andNot (.oneOf 2827248898707216612765611157299920896) (.call .nucleus))
  | .diphthong => (.andNot (.alt (.seq (.call .a) (.alt (.call .i) (.call .u))) (.seq (.alt (.call .e) (.call .o)) (.call .i))) (.call .nucleus))
  | .nucleus => (.alt (.call .vowel) (.alt (.call .diphthong) (.andNot (.call .y) (.call .nucleus))))
  | .glide => (.andPeek (.oneOf 166194064331016858414457649918640128) (.call .nucleus))
  | .digit => (.andNot (.oneOf 287948901175001088) (.alt (.call .h) (.call .nucleus)))
  | .cmevla => (.guardNot (.call .h) (.seq (.rep 0 (.alt (.call .nucleus) (.alt (.call .glide) (.alt (.call .h) (.alt (.andNot (.call .consonant) .eof) (.call .digit)))))) (.seq (.call .consonant) .eof)))
  | .cvcy_lujvo => (.alt (.seq (.call .cvc_rafsi) (.seq (.call .y) (.seq (.alt (.call .h) .null) (.seq (.rep 0 (.call .initial_rafsi)) (.call .brivla_core))))) (.seq (.call .stressed_cvc_rafsi) (.seq (.call .y) (.call .short_final_rafsi))))
  | .cluster => (.rep 2 (.call .consonant))
  | .initial => (.andNot (.andNot (.alt (.call .affricate) (.seq (.alt (.call .sibilant) .null) (.seq (.alt (.call .other) .null) (.alt (.call .liquid) .null)))) (.call .consonant)) (.call .glide))
  | .onset => (.alt (.call .h) (.alt (.call .glide) (.call .initial)))
  | .stressed => (.seq (.call .onset) (.oneOf 39300161059739693593133056))
  | .cmavo_form => (.longest (.call .digit) (.longest (.rep 1 (.call .y)) (.seq (.not (.call .h)) (.seq (.not (.call .cluster)) (.seq (.call .onset) (.seq (.rep 0 (.seq (.call .nucleus) (.call .h))) (.alt (.seq (.not (.call .stressed)) (.call .nucleus)) (.seq (.call .nucleus) (.not (.call .cluster))))))))))
  | .post_word => (.alt .eof (.seq (.not (.call .nucleus)) (.call .lojban_word)))
  | .initial_pair => (.seq (.peek (.call .initial)) (.seq (.call .consonant) (.seq (.call .consonant) (.not (.call .consonant)))))
  | .consonantal_syllable => (.seq (.call .consonant) (.seq (.peek (.call .syllabic)) (.call .coda)))
  | .any_syllable => (.alt (.seq (.call .onset) (.seq (.call .nucleus) (.alt (.call .coda) .null))) (.call .consonantal_syllable))
  | .coda => (.alt (.seq (.not (.call .any_syllable)) (.seq (.call .consonant) (.peek (.call .any_syllable)))) (.seq (.alt (.call .syllabic) .null) (.seq (.alt (.call .consonant) .null) .eof)))
  | .syllable => (.seq (.call .onset) (.seq (.not (.call .y)) (.seq (.call .nucleus) (.alt (.call .coda) .null))))
  | .stress => (.seq (.rep 0 (.call .consonant)) (.seq (.alt (.call .h) .null) (.seq (.alt (.call .y) .null) (.seq (.call .syllable) .eof))))
  | .explicitly_stressed_vowel => (.seq (.peek (.call .stressed)) (.call .vowel))
  | .stressed_vowel => (.alt (.call .explicitly_stressed_vowel) (.seq (.call .vowel) (.peek (.call .stress))))
  | .final_syllable => (.seq (.call .onset) (.seq (.not (.call .y)) (.seq (.not (.call .stressed)) (.seq (.call .nucleus) (.seq (.not (.call .cmevla)) (.peek (.call .post_word)))))))
  | .gismu => (.seq (.alt (.seq (.call .initial_pair) (.call .stressed_vowel)) (.seq (.call .consonant) (.seq (.call .stressed_vowel) (.call .consonant)))) (.seq (.peek (.call .final_syllable)) (.seq (.call .consonant) (.seq (.call .vowel) (.peek (.call .post_word))))))
  | .cvc_rafsi => (.seq (.call .consonant) (.seq (.call .unstressed_vowel) (.call .consonant)))
  | .ccv_rafsi => (.seq (.call .initial_pair) (.call .unstressed_vowel))
  | .unstressed_vowel => (.seq (.not (.call .stressed)) (.seq (.call .vowel) (.not (.call .stress))))
  | .unstressed_diphthong => (.seq (.not (.call .stressed)) (.seq (.call .diphthong) (.not (.call .stress))))
  | .r_hyphen => (.alt (.seq (.call .r) (.peek (.call .consonant))) (.seq (.call .n) (.peek (.call .r))))
  | .cvv_rafsi => (.seq (.call .consonant) (.seq (.alt (.seq (.call .unstressed_vowel) (.seq (.call .h) (.call .unstressed_vowel))) (.call .unstressed_diphthong)) (.call .r_hyphen)))
  | .y_less_rafsi => (.guardNot (.call .y_rafsi) (.guardNot (.call .stressed_y_rafsi) (.guardNot (.call .hy_rafsi) (.guardNot (.call .stressed_hy_rafsi) (.andNot (.alt (.call .cvc_rafsi) (.alt (.call .ccv_rafsi) (.call .cvv_rafsi))) (.call .h))))))
  | .cvv_final_rafsi => (.seq (.call .consonant) (.seq (.call .stressed_vowel) (.seq (.call .h) (.seq (.peek (.call .final_syllable)) (.seq (.call .vowel) (.peek (.call .post_word)))))))
  | .stressed_cvc_rafsi => (.seq (.call .consonant) (.seq (.call .stressed_vowel) (.call .consonant)))
  | .stressed_ccv_rafsi => (.seq (.call .initial_pair) (.call .stressed_vowel))
  | .stressed_diphthong => (.alt (.seq (.peek (.call .stressed)) (.call .diphthong)) (.seq (.call .diphthong) (.peek (.call .stress))))
  | .stressed_cvv_rafsi => (.seq (.call .consonant) (.seq (.alt (.seq (.call .unstressed_vowel) (.seq (.call .h) (.call .stressed_vowel))) (.call .stressed_diphthong)) (.alt (.call .r_hyphen) .null)))
  | .stressed_y_less_rafsi => (.alt (.seq (.call .stressed_cvc_rafsi) (.not (.call .y))) (.alt (.call .stressed_ccv_rafsi) (.call .stressed_cvv_rafsi)))
  | .long_rafsi => (.alt (.seq (.call .initial_pair) (.seq (.call .unstressed_vowel) (.call .consonant))) (.seq (.call .consonant) (.seq (.call .unstressed_vowel) (.seq (.call .consonant) (.call .consonant)))))
  | .hy_rafsi => (.seq (.alt (.seq (.call .long_rafsi) (.call .vowel)) (.alt (.call .ccv_rafsi) (.call .cvv_rafsi))) (.seq (.call .h) (.seq (.call .y) (.alt (.call .h) .null))))
  | .stressed_hy_rafsi => (.seq (.alt (.seq (.call .long_rafsi) (.call .stressed_vowel)) (.alt (.call .stressed_ccv_rafsi) (.call .stressed_cvv_rafsi))) (.seq (.call .h) (.call .y)))
  | .y_rafsi => (.seq (.alt (.call .long_rafsi) (.call .cvc_rafsi)) (.seq (.call .y) (.alt (.call .h) .null)))
  | .stressed_long_rafsi => (.alt (.seq (.call .initial_pair) (.seq (.call .stressed_vowel) (.call .consonant))) (.seq (.call .consonant) (.seq (.call .stressed_vowel) (.seq (.call .consonant) (.call .consonant)))))
  | .stressed_y_rafsi => (.seq (.alt (.call .stressed_long_rafsi) (.call .stressed_cvc_rafsi)) (.call .y))
  | .short_final_rafsi => (.seq (.peek (.call .final_syllable)) (.seq (.alt (.seq (.call .consonant) (.call .diphthong)) (.seq (.call .initial_pair) (.call .vowel))) (.peek (.call .post_word))))
  | .rafsi_string => (.seq (.rep 0 (.call .y_less_rafsi)) (.alt (.call .gismu) (.alt (.call .cvv_final_rafsi) (.alt (.seq (.call .stressed_y_less_rafsi) (.call .short_final_rafsi)) (.alt (.call .y_rafsi) (.alt (.call .stressed_y_rafsi) (.alt (.seq (.alt (.call .stressed_y_less_rafsi) .null) (.seq (.call .initial_pair) (.call .y))) (.alt (.call .hy_rafsi) (.call .stressed_hy_rafsi)))))))))
  | .slinkuhi => (.seq (.not (.call .rafsi_string)) (.seq (.call .consonant) (.call .rafsi_string)))
  | .unstressed_syllable => (.alt (.seq (.not (.call .stressed)) (.seq (.call .syllable) (.not (.call .stress)))) (.call .consonantal_syllable))
  | .brivla_head => (.seq (.not (.call .cmavo)) (.seq (.not (.call .slinkuhi)) (.seq (.not (.call .h)) (.seq (.peek (.call .onset)) (.rep 0 (.call .unstressed_syllable))))))
  | .fuhivla_head => (.guardNot (.call .rafsi_string) (.call .brivla_head))
  | .explicitly_stressed_syllable => (.seq (.peek (.call .stressed)) (.call .syllable))
  | .stressed_syllable => (.alt (.call .explicitly_stressed_syllable) (.seq (.call .syllable) (.peek (.call .stress))))
  | .fuhivla => (.seq (.call .fuhivla_head) (.seq (.call .stressed_syllable) (.seq (.rep 0 (.call .consonantal_syllable)) (.call .final_syllable))))
  | .brivla_rafsi => (.seq (.peek (.seq (.call .syllable) (.seq (.rep 0 (.call .consonantal_syllable)) (.call .syllable)))) (.seq (.call .brivla_head) (.seq (.call .h) (.seq (.call .y) (.alt (.call .h) .null)))))
  | .fuhivla_rafsi => (.seq (.peek (.call .unstressed_syllable)) (.seq (.call .fuhivla_head) (.seq (.not (.call .h)) (.seq (.call .onset) (.seq (.call .y) (.alt (.call .h) .null))))))
  | .extended_rafsi => (.alt (.call .brivla_rafsi) (.call .fuhivla_rafsi))
  | .stressed_brivla_rafsi => (.seq (.peek (.call .unstressed_syllable)) (.seq (.call .brivla_head) (.seq (.call .stressed_syllable) (.seq (.call .h) (.call .y)))))
  | .stressed_fuhivla_rafsi => (.seq (.call .fuhivla_head) (.seq (.call .stressed_syllable) (.seq (.not (.call .h)) (.seq (.call .onset) (.call .y)))))
  | .stressed_extended_rafsi => (.alt (.call .stressed_brivla_rafsi) (.call .stressed_fuhivla_rafsi))
  | .any_extended_rafsi => (.alt (.call .fuhivla) (.alt (.call .extended_rafsi) (.call .stressed_extended_rafsi)))
  | .initial_rafsi => (.alt (.call .extended_rafsi) (.alt (.call .y_rafsi) (.seq (.not (.call .any_extended_rafsi)) (.seq (.call .y_less_rafsi) (.not (.call .any_extended_rafsi))))))
  | .stressed_initial_rafsi => (.alt (.call .stressed_extended_rafsi) (.alt (.call .stressed_y_rafsi) (.call .stressed_y_less_rafsi)))
  | .brivla_core => (.alt (.call .fuhivla) (.alt (.call .gismu) (.alt (.call .cvv_final_rafsi) (.seq (.call .stressed_initial_rafsi) (.call .short_final_rafsi)))))
  | .explicitly_stressed_gismu_minimal => (.seq (.alt (.seq (.call .initial_pair) (.call .explicitly_stressed_vowel)) (.seq (.call .consonant) (.seq (.call .explicitly_stressed_vowel) (.call .consonant)))) (.seq (.peek (.call .final_syllable)) (.seq (.call .consonant) (.call .vowel))))
  | .final_syllable_minimal => (.seq (.call .onset) (.seq (.not (.call .y)) (.seq (.not (.call .stressed)) (.call .nucleus))))
  | .explicitly_stressed_fuhivla_minimal => (.seq (.call .fuhivla_head) (.seq (.call .explicitly_stressed_syllable) (.seq (.rep 0 (.call .consonantal_syllable)) (.call .final_syllable_minimal))))
  | .explicitly_stressed_cvv_final_rafsi => (.seq (.call .consonant) (.seq (.call .explicitly_stressed_vowel) (.seq (.call .h) (.seq (.peek (.call .final_syllable)) (.seq (.call .vowel) (.peek (.call .post_word)))))))
  | .explicitly_stressed_brivla_rafsi => (.seq (.peek (.call .unstressed_syllable)) (.seq (.call .brivla_head) (.seq (.call .explicitly_stressed_syllable) (.seq (.call .h) (.call .y)))))
  | .explicitly_stressed_fuhivla_rafsi => (.seq (.call .fuhivla_head) (.seq (.call .explicitly_stressed_syllable) (.seq (.not (.call .h)) (.seq (.call .onset) (.call .y)))))
  | .explicitly_stressed_extended_rafsi => (.alt (.call .explicitly_stressed_brivla_rafsi) (.call .explicitly_stressed_fuhivla_rafsi))
  | .explicitly_stressed_long_rafsi => (.alt (.seq (.call .initial_pair) (.seq (.call .explicitly_stressed_vowel) (.call .consonant))) (.seq (.call .consonant) (.seq (.call .explicitly_stressed_vowel) (.seq (.call .consonant) (.call .consonant)))))
  | .explicitly_stressed_cvc_rafsi => (.seq (.call .consonant) (.seq (.call .explicitly_stressed_vowel) (.call .consonant)))
  | .explicitly_stressed_y_rafsi => (.seq (.alt (.call .explicitly_stressed_long_rafsi) (.call .explicitly_stressed_cvc_rafsi)) (.call .y))
  | .explicitly_stressed_ccv_rafsi => (.seq (.call .initial_pair) (.call .explicitly_stressed_vowel))
  | .explicitly_stressed_diphthong => (.seq (.peek (.call .stressed)) (.call .diphthong))
  | .explicitly_stressed_cvv_rafsi => (.seq (.call .consonant) (.seq (.alt (.seq (.call .unstressed_vowel) (.seq (.call .h) (.call .explicitly_stressed_vowel))) (.call .explicitly_stressed_diphthong)) (.alt (.call .r_hyphen) .null)))
  | .explicitly_stressed_y_less_rafsi => (.alt (.seq (.call .explicitly_stressed_cvc_rafsi) (.not (.call .y))) (.alt (.call .explicitly_stressed_ccv_rafsi) (.call .explicitly_stressed_cvv_rafsi)))
  | .explicitly_stressed_initial_rafsi => (.alt (.call .explicitly_stressed_extended_rafsi) (.alt (.call .explicitly_stressed_y_rafsi) (.call .explicitly_stressed_y_less_rafsi)))
  | .explicitly_stressed_brivla_core => (.alt (.call .explicitly_stressed_fuhivla_minimal) (.alt (.call .explicitly_stressed_gismu_minimal) (.alt (.call .explicitly_stressed_cvv_final_rafsi) (.seq (.call .explicitly_stressed_initial_rafsi) (.call .short_final_rafsi)))))
  | .explicitly_stressed_brivla_minimal => (.seq (.rep 0 (.call .initial_rafsi)) (.call .explicitly_stressed_brivla_core))
  | .lujvo => (.seq (.not (.call .gismu)) (.seq (.not (.call .fuhivla)) (.seq (.not (.call .cmavo)) (.seq (.rep 0 (.call .initial_rafsi)) (.call .brivla_core)))))
  | .lujvo_minimal => (.seq (.rep 0 (.call .initial_rafsi)) (.call .brivla_core))
  | .brivla => (.alt (.call .gismu) (.alt (.call .fuhivla) (.seq (.not (.call .cmavo)) (.call .lujvo_minimal))))
  | .brivla_minimal => (.alt (.call .gismu) (.alt (.call .fuhivla) (.call .lujvo_minimal)))
  | .lojban_word => (.alt (.call .cmevla) (.alt (.call .cmavo_semi_minimal) (.call .brivla_minimal)))
  | .cmavo => (.guardNot (.call .cmevla) (.call .cmavo_semi_minimal))
  | .cmavo_minimal => (.guardNot (.call .cvcy_lujvo) (.call .cmavo_form))
  | .cmavo_semi_minimal => (.andPeek (.call .cmavo_minimal) (.call .post_word))

theorem grammarM_ok (r : Rule) : grammarM r = maskE (grammar r) := by
  cases r <;> decide +kernel

end Sneturfahi
