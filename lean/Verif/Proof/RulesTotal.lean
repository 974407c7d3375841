import Verif.Proof.PegTotal
import Verif.Model.Decompose

/-!
# The rules of `src/rules.rs` are well-formed

The two tables are computed by `tools/gen_cert.py` and checked here by the kernel.
-/

namespace Sneturfahi

/-- Rules that may succeed without consuming anything. -/
def nonConsuming : List Rule := [.initial, .onset, .post_word, .coda, .brivla_head, .fuhivla_head]

/-- Longest chain of calls at the same position. -/
def ruleRank : Rule → Nat
  | .h => 0
  | .b => 0
  | .c => 0
  | .d => 0
  | .f => 0
  | .g => 0
  | .j => 0
  | .k => 0
  | .l => 0
  | .m => 0
  | .n => 0
  | .p => 0
  | .r => 0
  | .s => 0
  | .t => 0
  | .v => 0
  | .x => 0
  | .z => 0
  | .liquid => 1
  | .syllabic => 1
  | .voiced => 1
  | .unvoiced => 1
  | .consonant => 2
  | .other => 1
  | .sibilant => 1
  | .affricate => 1
  | .a => 0
  | .e => 0
  | .i => 0
  | .o => 0
  | .u => 0
  | .y => 0
  | .vowel => 0
  | .diphthong => 1
  | .nucleus => 2
  | .glide => 0
  | .digit => 0
  | .cmevla => 3
  | .cvcy_lujvo => 4
  | .cluster => 3
  | .initial => 3
  | .onset => 4
  | .stressed => 5
  | .cmavo_form => 6
  | .post_word => 19
  | .initial_pair => 4
  | .consonantal_syllable => 3
  | .any_syllable => 5
  | .coda => 6
  | .syllable => 5
  | .stress => 6
  | .explicitly_stressed_vowel => 6
  | .stressed_vowel => 7
  | .final_syllable => 6
  | .gismu => 5
  | .cvc_rafsi => 3
  | .ccv_rafsi => 5
  | .unstressed_vowel => 6
  | .unstressed_diphthong => 6
  | .r_hyphen => 1
  | .cvv_rafsi => 3
  | .y_less_rafsi => 7
  | .cvv_final_rafsi => 3
  | .stressed_cvc_rafsi => 3
  | .stressed_ccv_rafsi => 5
  | .stressed_diphthong => 6
  | .stressed_cvv_rafsi => 3
  | .stressed_y_less_rafsi => 6
  | .long_rafsi => 5
  | .hy_rafsi => 6
  | .stressed_hy_rafsi => 6
  | .y_rafsi => 6
  | .stressed_long_rafsi => 5
  | .stressed_y_rafsi => 6
  | .short_final_rafsi => 7
  | .rafsi_string => 8
  | .slinkuhi => 9
  | .unstressed_syllable => 6
  | .brivla_head => 10
  | .fuhivla_head => 11
  | .explicitly_stressed_syllable => 6
  | .stressed_syllable => 7
  | .fuhivla => 12
  | .brivla_rafsi => 11
  | .fuhivla_rafsi => 12
  | .extended_rafsi => 13
  | .stressed_brivla_rafsi => 11
  | .stressed_fuhivla_rafsi => 12
  | .stressed_extended_rafsi => 13
  | .any_extended_rafsi => 14
  | .initial_rafsi => 15
  | .stressed_initial_rafsi => 14
  | .brivla_core => 15
  | .explicitly_stressed_gismu_minimal => 5
  | .final_syllable_minimal => 6
  | .explicitly_stressed_fuhivla_minimal => 12
  | .explicitly_stressed_cvv_final_rafsi => 3
  | .explicitly_stressed_brivla_rafsi => 11
  | .explicitly_stressed_fuhivla_rafsi => 12
  | .explicitly_stressed_extended_rafsi => 13
  | .explicitly_stressed_long_rafsi => 5
  | .explicitly_stressed_cvc_rafsi => 3
  | .explicitly_stressed_y_rafsi => 6
  | .explicitly_stressed_ccv_rafsi => 5
  | .explicitly_stressed_diphthong => 6
  | .explicitly_stressed_cvv_rafsi => 3
  | .explicitly_stressed_y_less_rafsi => 6
  | .explicitly_stressed_initial_rafsi => 14
  | .explicitly_stressed_brivla_core => 15
  | .explicitly_stressed_brivla_minimal => 16
  | .lujvo => 16
  | .lujvo_minimal => 16
  | .brivla => 17
  | .brivla_minimal => 17
  | .lojban_word => 18
  | .cmavo => 9
  | .cmavo_minimal => 7
  | .cmavo_semi_minimal => 8

def ruleCons (r' : Rule) : Bool := !nonConsuming.contains r'

/-- The certificate of the actual rules. -/
def grammarWF : WF grammar where
  cons := ruleCons
  rank := ruleRank
  bound := 128
  cons_ok := by intro r'; cases r' <;> decide +kernel
  rank_ok := by intro r'; cases r' <;> decide +kernel
  rep_ok := by intro r'; cases r' <;> decide +kernel
  rank_lt := by intro r'; cases r' <;> decide +kernel

/-- A rule as a pure function on texts: what `runRule` returns, without addresses. -/
def parseRule (rule : Rule) (cs : List Char) : Res :=
  match runRule rule ⟨0, cs⟩ with
  | .val (some (m, rest)) => some (m.chars, rest.chars)
  | _ => none

theorem runRule_good (rule : Rule) (s : Str) : Good grammar (runRule rule) (.call rule) s := by
  have hf : grammarWF.bound * s.chars.length + grammarWF.rank rule < ruleFuel s := by
    have h := grammarWF.rank_lt rule
    have hb : grammarWF.bound = 128 := rfl
    rw [hb] at h ⊢
    unfold ruleFuel
    omega
  obtain ⟨res, h1, h2⟩ := evalRule_good grammarWF (ruleFuel s) rule s hf
  refine ⟨res, ?_, h2⟩
  rw [runRule, h1]

/-- The pure result is derivable, and it is the only one that is. -/
theorem parseRule_derives (rule : Rule) (cs : List Char) :
    Derives grammar (.call rule) cs (parseRule rule cs) := by
  obtain ⟨res, h1, h2⟩ := runRule_good rule ⟨0, cs⟩
  have : parseRule rule cs = res := by
    simp only [parseRule, h1]
    cases res with
    | none => rfl
    | some x => rfl
  rw [this]; exact h2

theorem derives_iff {rule : Rule} {cs : List Char} {res : Res} :
    Derives grammar (.call rule) cs res ↔ parseRule rule cs = res :=
  ⟨fun h => (parseRule_derives rule cs).det _ h, fun h => h ▸ parseRule_derives rule cs⟩

/-- Running a rule anywhere in memory returns, without panic, the pure result at the right addresses. -/
theorem runRule_eq (rule : Rule) (s : Str) :
    runRule rule s = .val (Res.at s.ptr (parseRule rule s.chars)) := by
  obtain ⟨res, h1, h2⟩ := runRule_good rule s
  rw [h1, derives_iff.mp h2]

end Sneturfahi
