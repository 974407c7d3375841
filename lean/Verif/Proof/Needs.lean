import Verif.Proof.RulesTotal

/-!
# Letters a rule cannot do without

Two certificates for grammars: how many letters of a kind an expression consumes at least when it succeeds, and which
expressions fail on every text without any letter of a kind.
-/

namespace Sneturfahi

variable {R : Type}

/-- At least so many letters of the kind `p` are consumed. -/
def lowE (p : Char → Bool) (low : R → Nat) : Exp R → Nat
  | .oneOf chs => if chs.all p then 1 else 0
  | .call r => low r
  | .alt a b => min (lowE p low a) (lowE p low b)
  | .longest a b => min (lowE p low a) (lowE p low b)
  | .seq a b => lowE p low a + lowE p low b
  | .rep n e => n * lowE p low e
  | .andPeek e _ => lowE p low e
  | .andNot e _ => lowE p low e
  | .guardNot _ e => lowE p low e
  | _ => 0

theorem lowE_sound {p : Char → Bool} {low : R → Nat} {g : R → Exp R} (hg : ∀ r, low r ≤ lowE p low (g r)) {e : Exp R} {cs : List Char}
    {res : Res} (h : Derives g e cs res) : ∀ m r, res = some (m, r) → lowE p low e ≤ m.countP p := by
  induction h with
  | null => intro m r h; cases h; exact Nat.zero_le _
  | eofYes => intro m r h; cases h; exact Nat.zero_le _
  | eofNo => intro m r h; cases h
  | @oneOfYes chs k c cs hk hc hm =>
    intro m r h
    cases h
    unfold lowE
    split
    · rename_i hall
      have : p c = true := List.all_eq_true.mp hall c hm
      simp [List.countP_append, this]
    · exact Nat.zero_le _
  | oneOfNo => intro m r h; cases h
  | oneOfEnd => intro m r h; cases h
  | call _ ih => intro m r h; exact Nat.le_trans (hg _) (ih m r h)
  | notYes => intro m r h; cases h; exact Nat.zero_le _
  | notNo => intro m r h; cases h
  | peekYes => intro m r h; cases h; exact Nat.zero_le _
  | peekNo => intro m r h; cases h
  | altL _ ih => intro m r h; exact Nat.le_trans (Nat.min_le_left _ _) (ih m r h)
  | altR _ _ _ ih => intro m r h; exact Nat.le_trans (Nat.min_le_right _ _) (ih m r h)
  | @longest a b cs ra rb _ _ iha ihb =>
    intro m r h
    have hl := Nat.min_le_left (lowE p low a) (lowE p low b)
    have hr := Nat.min_le_right (lowE p low a) (lowE p low b)
    cases ra with
    | none => exact Nat.le_trans hr (ihb m r (by simpa [Res.longest] using h))
    | some x =>
      cases rb with
      | none => exact Nat.le_trans hl (iha m r (by simpa [Res.longest, Prod.ext_iff] using h))
      | some y =>
        simp only [Res.longest, Option.some.injEq] at h
        split at h
        · exact Nat.le_trans hl (iha m r (by rw [← h]))
        · exact Nat.le_trans hr (ihb m r (by rw [← h]))
  | seqFail => intro m r h; cases h
  | seqGo _ _ iha ihb =>
    intro m r h
    obtain ⟨m', h1, h2⟩ := Derives.Res.prepend_some h
    have e1 := iha _ _ rfl
    have e2 := ihb _ _ h1
    subst h2
    rw [List.countP_append]
    exact Nat.add_le_add e1 e2
  | repStop => intro m r h; cases h; simp [lowE]
  | repFail => intro m r h; cases h
  | @repStep n e cs m0 rest res _ _ iha ihb =>
    intro m r h
    obtain ⟨m', h1, h2⟩ := Derives.Res.prepend_some h
    have e1 := iha _ _ rfl
    have e2 := ihb _ _ h1
    subst h2
    rw [List.countP_append]
    simp only [lowE] at e2 ⊢
    refine Nat.le_trans ?_ (Nat.add_le_add e1 e2)
    cases n with
    | zero => simp
    | succ n => rw [Nat.succ_mul, Nat.add_comm]; exact Nat.le_refl _
  | andPeekFail => intro m r h; cases h
  | andPeekYes _ _ ih _ => intro m r h; exact ih m r h
  | andPeekNo => intro m r h; cases h
  | andNotFail => intro m r h; cases h
  | andNotYes _ _ ih _ => intro m r h; exact ih m r h
  | andNotNo => intro m r h; cases h
  | guardBlock => intro m r h; cases h
  | guardGo _ _ _ ih => intro m r h; exact ih m r h

/-- The expression fails on texts without a letter of the kind `p`. -/
def needE (p : Char → Bool) (need : R → Bool) : Exp R → Bool
  | .oneOf chs => chs.all p
  | .call r => need r
  | .peek e => needE p need e
  | .alt a b => needE p need a && needE p need b
  | .longest a b => needE p need a && needE p need b
  | .seq a b => needE p need a || needE p need b
  | .rep n e => decide (0 < n) && needE p need e
  | .andPeek e q => needE p need e || needE p need q
  | .andNot e _ => needE p need e
  | .guardNot _ e => needE p need e
  | _ => false

theorem needE_sound {p : Char → Bool} {need : R → Bool} {g : R → Exp R} (hg : ∀ r, need r = true → needE p need (g r) = true)
    {e : Exp R} {cs : List Char} {res : Res} (h : Derives g e cs res) : (∀ c ∈ cs, p c = false) → needE p need e = true → res = none := by
  induction h with
  | null => intro _ h; cases h
  | eofYes => intro _ h; cases h
  | @oneOfYes chs k c cs hk hc hm =>
    intro hn h
    have h1 : p c = true := List.all_eq_true.mp h c hm
    rw [hn c (by simp)] at h1
    cases h1
  | call _ ih => intro hn h; exact ih hn (hg _ h)
  | notYes => intro _ h; cases h
  | peekYes _ ih => intro hn h; cases ih hn h
  | altL _ ih => intro hn h; simp only [needE, Bool.and_eq_true] at h; exact ih hn h.1
  | altR _ _ _ ih => intro hn h; simp only [needE, Bool.and_eq_true] at h; exact ih hn h.2
  | longest _ _ iha ihb =>
    intro hn h
    simp only [needE, Bool.and_eq_true] at h
    rw [iha hn h.1, ihb hn h.2]
    rfl
  | seqGo ha _ iha ihb =>
    intro hn h
    simp only [needE, Bool.or_eq_true] at h
    have happ := ha.append_eq _ _ rfl
    rcases h with h | h
    · cases iha hn h
    · rw [ihb (fun c hc => hn c (by rw [← happ]; simp [hc])) h]
      rfl
  | repStop => intro _ h; simp [needE] at h
  | repStep ha _ iha _ => intro hn h; simp only [needE, Bool.and_eq_true] at h; cases iha hn h.2
  | andPeekYes ha _ iha ihb =>
    intro hn h
    simp only [needE, Bool.or_eq_true] at h
    have happ := ha.append_eq _ _ rfl
    rcases h with h | h
    · exact iha hn h
    · cases ihb (fun c hc => hn c (by rw [← happ]; simp [hc])) h
  | andNotYes _ _ ih _ => intro hn h; exact ih hn h
  | guardGo _ _ _ ih => intro hn h; exact ih hn h
  | _ => intro _ _; rfl

/-! ### The rules -/

/-- A vowel letter, y included. -/
def vowelLetter (c : Char) : Bool := c!"aeiouyAEIOUY".contains c

/-- How many vowel letters the rules consume at least. -/
def lowV : Rule → Nat
  | .a | .e | .i | .o | .u | .y | .vowel | .diphthong | .nucleus | .glide | .stressed | .syllable | .explicitly_stressed_vowel | .stressed_vowel |
    .final_syllable | .final_syllable_minimal | .cvc_rafsi | .ccv_rafsi | .unstressed_vowel | .unstressed_diphthong | .cvv_rafsi | .y_less_rafsi |
    .stressed_cvc_rafsi | .stressed_ccv_rafsi | .stressed_diphthong | .stressed_cvv_rafsi | .stressed_y_less_rafsi | .long_rafsi |
    .explicitly_stressed_syllable | .stressed_syllable | .explicitly_stressed_long_rafsi | .explicitly_stressed_cvc_rafsi |
    .explicitly_stressed_ccv_rafsi | .explicitly_stressed_diphthong | .explicitly_stressed_cvv_rafsi | .explicitly_stressed_y_less_rafsi |
    .stressed_long_rafsi | .short_final_rafsi | .fuhivla_rafsi | .brivla_rafsi | .extended_rafsi | .initial_rafsi |
    .stressed_initial_rafsi | .explicitly_stressed_initial_rafsi | .rafsi_string | .slinkuhi => 1
  | .gismu | .cvv_final_rafsi | .hy_rafsi | .stressed_hy_rafsi | .y_rafsi | .stressed_y_rafsi | .fuhivla | .stressed_brivla_rafsi |
    .stressed_fuhivla_rafsi | .stressed_extended_rafsi | .brivla_core | .explicitly_stressed_gismu_minimal |
    .explicitly_stressed_fuhivla_minimal | .explicitly_stressed_cvv_final_rafsi | .explicitly_stressed_brivla_rafsi |
    .explicitly_stressed_fuhivla_rafsi | .explicitly_stressed_extended_rafsi | .explicitly_stressed_y_rafsi |
    .explicitly_stressed_brivla_core | .explicitly_stressed_brivla_minimal | .lujvo | .lujvo_minimal | .brivla | .brivla_minimal => 2
  | .cvcy_lujvo => 3
  | _ => 0

theorem lowV_ok : ∀ r, lowV r ≤ lowE vowelLetter lowV (grammar r) := by
  intro r
  cases r <;> decide +kernel

/-- A rule that succeeds has consumed so many vowel letters. -/
theorem lowV_sound {rule : Rule} {cs m r : List Char} (h : parseRule rule cs = some (m, r)) : lowV rule ≤ m.countP vowelLetter :=
  lowE_sound lowV_ok (derives_iff.mpr h) m r rfl

theorem lowV_none {rule : Rule} {cs : List Char} (h : cs.countP vowelLetter < lowV rule) : parseRule rule cs = none := by
  cases hp : parseRule rule cs with
  | none => rfl
  | some x =>
    obtain ⟨m, r⟩ := x
    have h1 := lowV_sound hp
    have h2 := (derives_iff.mpr hp).append_eq _ _ rfl
    rw [← h2, List.countP_append] at h
    omega

/-- A capital vowel. -/
def capital (c : Char) : Bool := c!"AEIOU".contains c

/-- The rules for explicitly stressed words. -/
def needCapital : Rule → Bool
  | .stressed | .explicitly_stressed_vowel | .explicitly_stressed_syllable | .explicitly_stressed_gismu_minimal |
    .explicitly_stressed_fuhivla_minimal | .explicitly_stressed_cvv_final_rafsi | .explicitly_stressed_brivla_rafsi |
    .explicitly_stressed_fuhivla_rafsi | .explicitly_stressed_extended_rafsi | .explicitly_stressed_long_rafsi |
    .explicitly_stressed_cvc_rafsi | .explicitly_stressed_y_rafsi | .explicitly_stressed_ccv_rafsi | .explicitly_stressed_diphthong |
    .explicitly_stressed_y_less_rafsi | .explicitly_stressed_cvv_rafsi | .explicitly_stressed_initial_rafsi |
    .explicitly_stressed_brivla_core | .explicitly_stressed_brivla_minimal => true
  | _ => false

theorem needCapital_ok : ∀ r, needCapital r = true → needE capital needCapital (grammar r) = true := by
  intro r
  cases r <;> decide +kernel

/-- These rules fail on texts without capital vowels. -/
theorem needCapital_none {rule : Rule} (hr : needCapital rule = true) {cs : List Char} (h : ∀ c ∈ cs, capital c = false) :
    parseRule rule cs = none :=
  needE_sound needCapital_ok (derives_iff.mpr rfl) h (show needCapital rule = true from hr)

end Sneturfahi
