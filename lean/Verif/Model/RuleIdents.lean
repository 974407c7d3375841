import Verif.Model.Rules

/-!
# The Rust identifiers of the rules

Generated by `tools/gen_idents.py`.
-/

namespace Sneturfahi

/-- The names of the rule functions of `src/rules.rs`. -/
def Rule.ident : Rule → List Char
  | .h => c!"h"
  | .b => c!"b"
  | .c => c!"c"
  | .d => c!"d"
  | .f => c!"f"
  | .g => c!"g"
  | .j => c!"j"
  | .k => c!"k"
  | .l => c!"l"
  | .m => c!"m"
  | .n => c!"n"
  | .p => c!"p"
  | .r => c!"r"
  | .s => c!"s"
  | .t => c!"t"
  | .v => c!"v"
  | .x => c!"x"
  | .z => c!"z"
  | .liquid => c!"liquid"
  | .syllabic => c!"syllabic"
  | .voiced => c!"voiced"
  | .unvoiced => c!"unvoiced"
  | .consonant => c!"consonant"
  | .other => c!"other"
  | .sibilant => c!"sibilant"
  | .affricate => c!"affricate"
  | .a => c!"a"
  | .e => c!"e"
  | .i => c!"i"
  | .o => c!"o"
  | .u => c!"u"
  | .y => c!"y"
  | .vowel => c!"vowel"
  | .diphthong => c!"diphthong"
  | .nucleus => c!"nucleus"
  | .glide => c!"glide"
  | .digit => c!"digit"
  | .cmevla => c!"cmevla"
  | .cvcy_lujvo => c!"cvcy_lujvo"
  | .cluster => c!"cluster"
  | .initial => c!"initial"
  | .onset => c!"onset"
  | .stressed => c!"stressed"
  | .cmavo_form => c!"cmavo_form"
  | .post_word => c!"post_word"
  | .initial_pair => c!"initial_pair"
  | .consonantal_syllable => c!"consonantal_syllable"
  | .any_syllable => c!"any_syllable"
  | .coda => c!"coda"
  | .syllable => c!"syllable"
  | .stress => c!"stress"
  | .explicitly_stressed_vowel => c!"explicitly_stressed_vowel"
  | .stressed_vowel => c!"stressed_vowel"
  | .final_syllable => c!"final_syllable"
  | .gismu => c!"gismu"
  | .cvc_rafsi => c!"cvc_rafsi"
  | .ccv_rafsi => c!"ccv_rafsi"
  | .unstressed_vowel => c!"unstressed_vowel"
  | .unstressed_diphthong => c!"unstressed_diphthong"
  | .r_hyphen => c!"r_hyphen"
  | .cvv_rafsi => c!"cvv_rafsi"
  | .y_less_rafsi => c!"y_less_rafsi"
  | .cvv_final_rafsi => c!"cvv_final_rafsi"
  | .stressed_cvc_rafsi => c!"stressed_cvc_rafsi"
  | .stressed_ccv_rafsi => c!"stressed_ccv_rafsi"
  | .stressed_diphthong => c!"stressed_diphthong"
  | .stressed_cvv_rafsi => c!"stressed_cvv_rafsi"
  | .stressed_y_less_rafsi => c!"stressed_y_less_rafsi"
  | .long_rafsi => c!"long_rafsi"
  | .hy_rafsi => c!"hy_rafsi"
  | .stressed_hy_rafsi => c!"stressed_hy_rafsi"
  | .y_rafsi => c!"y_rafsi"
  | .stressed_long_rafsi => c!"stressed_long_rafsi"
  | .stressed_y_rafsi => c!"stressed_y_rafsi"
  | .short_final_rafsi => c!"short_final_rafsi"
  | .rafsi_string => c!"rafsi_string"
  | .slinkuhi => c!"slinkuhi"
  | .unstressed_syllable => c!"unstressed_syllable"
  | .brivla_head => c!"brivla_head"
  | .fuhivla_head => c!"fuhivla_head"
  | .explicitly_stressed_syllable => c!"explicitly_stressed_syllable"
  | .stressed_syllable => c!"stressed_syllable"
  | .fuhivla => c!"fuhivla"
  | .brivla_rafsi => c!"brivla_rafsi"
  | .fuhivla_rafsi => c!"fuhivla_rafsi"
  | .extended_rafsi => c!"extended_rafsi"
  | .stressed_brivla_rafsi => c!"stressed_brivla_rafsi"
  | .stressed_fuhivla_rafsi => c!"stressed_fuhivla_rafsi"
  | .stressed_extended_rafsi => c!"stressed_extended_rafsi"
  | .any_extended_rafsi => c!"any_extended_rafsi"
  | .initial_rafsi => c!"initial_rafsi"
  | .stressed_initial_rafsi => c!"stressed_initial_rafsi"
  | .brivla_core => c!"brivla_core"
  | .explicitly_stressed_gismu_minimal => c!"explicitly_stressed_gismu_minimal"
  | .final_syllable_minimal => c!"final_syllable_minimal"
  | .explicitly_stressed_fuhivla_minimal => c!"explicitly_stressed_fuhivla_minimal"
  | .explicitly_stressed_cvv_final_rafsi => c!"explicitly_stressed_cvv_final_rafsi"
  | .explicitly_stressed_brivla_rafsi => c!"explicitly_stressed_brivla_rafsi"
  | .explicitly_stressed_fuhivla_rafsi => c!"explicitly_stressed_fuhivla_rafsi"
  | .explicitly_stressed_extended_rafsi => c!"explicitly_stressed_extended_rafsi"
  | .explicitly_stressed_long_rafsi => c!"explicitly_stressed_long_rafsi"
  | .explicitly_stressed_cvc_rafsi => c!"explicitly_stressed_cvc_rafsi"
  | .explicitly_stressed_y_rafsi => c!"explicitly_stressed_y_rafsi"
  | .explicitly_stressed_ccv_rafsi => c!"explicitly_stressed_ccv_rafsi"
  | .explicitly_stressed_diphthong => c!"explicitly_stressed_diphthong"
  | .explicitly_stressed_cvv_rafsi => c!"explicitly_stressed_cvv_rafsi"
  | .explicitly_stressed_y_less_rafsi => c!"explicitly_stressed_y_less_rafsi"
  | .explicitly_stressed_initial_rafsi => c!"explicitly_stressed_initial_rafsi"
  | .explicitly_stressed_brivla_core => c!"explicitly_stressed_brivla_core"
  | .explicitly_stressed_brivla_minimal => c!"explicitly_stressed_brivla_minimal"
  | .lujvo => c!"lujvo"
  | .lujvo_minimal => c!"lujvo_minimal"
  | .brivla => c!"brivla"
  | .brivla_minimal => c!"brivla_minimal"
  | .lojban_word => c!"lojban_word"
  | .cmavo => c!"cmavo"
  | .cmavo_minimal => c!"cmavo_minimal"
  | .cmavo_semi_minimal => c!"cmavo_semi_minimal"

end Sneturfahi
