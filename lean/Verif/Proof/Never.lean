import Verif.Proof.Needs

/-!
# Letters a rule never takes

A certificate for the word rules: expressions that never consume a letter of a kind. After `not!(y)` a nucleus is no y.
-/

namespace Sneturfahi

open Derives

set_option linter.constructorNameAsVariable false

/-- Is it known after the expression that no y comes next? -/
def noYAfter (ny : Bool) : Exp Rule → Bool
  | .not (.call .y) => true
  | .not _ => ny
  | .peek _ => ny
  | _ => false

theorem noYAfter_sound {ny : Bool} {e : Exp Rule} {cs m rest : List Char} (h : Derives grammar e cs (some (m, rest)))
    (hy : ny = true → parseRule .y cs = none) (ha : noYAfter ny e = true) : parseRule .y rest = none := by
  unfold noYAfter at ha
  split at ha
  · cases h with | notYes h => exact derives_iff.mp h
  · cases h with | notYes h => exact hy ha
  · cases h with | peekYes h => exact hy ha
  · cases ha

/-- The expression consumes no letter of the kind `p`, given the rules that do not; `ny` says that no y comes next. -/
def neverE (p : Char → Bool) (never : Rule → Bool) : Bool → Exp Rule → Bool
  | _, .oneOf chs => !chs.any p
  | ny, .call r => never r || (ny && r == .nucleus)
  | ny, .alt a b => neverE p never ny a && neverE p never ny b
  | ny, .longest a b => neverE p never ny a && neverE p never ny b
  | ny, .seq a b => neverE p never ny a && neverE p never (noYAfter ny a) b
  | _, .rep _ e => neverE p never false e
  | ny, .andPeek e _ => neverE p never ny e
  | ny, .andNot e _ => neverE p never ny e
  | ny, .guardNot _ e => neverE p never ny e
  | _, _ => true

theorem neverE_sound {p : Char → Bool} {never : Rule → Bool} (hk : p ',' = false) (hg : ∀ r, never r = true → neverE p never false (grammar r) = true)
    (hn : never .nucleus = true ∨ ∀ cs m r, parseRule .y cs = none → parseRule .nucleus cs = some (m, r) → ∀ c ∈ m, p c = false)
    {e : Exp Rule} {cs : List Char} {res : Res} (h : Derives grammar e cs res) :
    ∀ ny, (ny = true → parseRule .y cs = none) → neverE p never ny e = true → ∀ m r, res = some (m, r) → ∀ c ∈ m, p c = false := by
  have commas : ∀ {k : List Char}, AllCommas k → ∀ c ∈ k, p c = false := by
    intro k hk' c hc
    have := hk' c hc
    subst this; exact hk
  induction h with
  | null => intro _ _ _ m r h; cases h; simp
  | eofYes => intro _ _ _ m r h; cases h; simp
  | @oneOfYes chs k c cs hkk hc hm =>
    intro ny _ h m r e
    cases e
    simp only [neverE, Bool.not_eq_true', List.any_eq_false] at h
    intro d hd
    rcases List.mem_append.mp hd with hd | hd
    · exact commas hkk d hd
    · simp at hd; subst hd; simpa using h _ hm
  | @call r cs res hd ih =>
    intro ny hy h m r' e
    simp only [neverE, Bool.or_eq_true, Bool.and_eq_true, beq_iff_eq] at h
    rcases h with h | ⟨h1, rfl⟩
    · exact ih false (by simp) (hg _ h) m r' e
    · rcases hn with h | hn
      · exact ih false (by simp) (hg _ h) m r' e
      · subst e
        exact hn cs m r' (hy h1) (derives_iff.mp (.call hd))
  | notYes => intro _ _ _ m r h; cases h; simp
  | peekYes => intro _ _ _ m r h; cases h; simp
  | altL _ ih => intro ny hy h; simp only [neverE, Bool.and_eq_true] at h; exact ih ny hy h.1
  | altR _ _ _ ih => intro ny hy h; simp only [neverE, Bool.and_eq_true] at h; exact ih ny hy h.2
  | @longest a b cs ra rb _ _ iha ihb =>
    intro ny hy h m r e
    simp only [neverE, Bool.and_eq_true] at h
    cases ra with
    | none => exact ihb ny hy h.2 m r (by simpa [Res.longest] using e)
    | some x =>
      cases rb with
      | none => exact iha ny hy h.1 m r (by simpa [Res.longest, Prod.ext_iff] using e)
      | some y =>
        simp only [Res.longest, Option.some.injEq] at e
        split at e
        · exact iha ny hy h.1 m r (by rw [← e])
        · exact ihb ny hy h.2 m r (by rw [← e])
  | @seqGo a b cs m0 rest res ha _ iha ihb =>
    intro ny hy h m r e
    obtain ⟨m', e1, rfl⟩ := Derives.Res.prepend_some e
    simp only [neverE, Bool.and_eq_true] at h
    intro c hc
    rcases List.mem_append.mp hc with hc | hc
    · exact iha ny hy h.1 _ _ rfl c hc
    · exact ihb _ (noYAfter_sound ha hy) h.2 _ _ e1 c hc
  | @repStep n e cs m0 rest res _ _ iha ihb =>
    intro ny hy h m r e'
    obtain ⟨m', e1, rfl⟩ := Derives.Res.prepend_some e'
    intro c hc
    rcases List.mem_append.mp hc with hc | hc
    · exact iha false (by simp) h _ _ rfl c hc
    · exact ihb false (by simp) h _ _ e1 c hc
  | repStop => intro _ _ _ m r h; cases h; simp
  | andPeekYes _ _ ih _ => intro ny hy h; exact ih ny hy h
  | andNotYes _ _ ih _ => intro ny hy h; exact ih ny hy h
  | guardGo _ _ _ ih => intro ny hy h; exact ih ny hy h
  | _ => intro _ _ _ m r h; cases h

/-! ### No y in fu'ivla -/

def yLetter (c : Char) : Bool := c!"yY".contains c

theorem y_next {cs m r : List Char} (h : Derives grammar (.oneOf chs) cs (some (m, r))) (hy : parseRule .y cs = none) : ∀ c ∈ m, yLetter c = false := by
  cases h with
  | @oneOfYes _ k c cs hk hc hm =>
    intro d hd
    rcases List.mem_append.mp hd with hd | hd
    · have := hk d hd; subst this; rfl
    · simp at hd; subst hd
      cases hb : yLetter d with
      | false => rfl
      | true =>
        exfalso
        have : Derives grammar (.call .y) (k ++ d :: r) (some (k ++ [d], r)) := .call (.oneOfYes hk hc (by simpa [yLetter] using hb))
        rw [derives_iff.mp this] at hy
        cases hy

theorem nucleus_no_y (cs m r : List Char) (hy : parseRule .y cs = none) (h : parseRule .nucleus cs = some (m, r)) : ∀ c ∈ m, yLetter c = false := by
  have ny : ∀ {e : Exp Rule}, ¬ Derives grammar (.andNot (.call .y) e) cs (some (m, r)) := by
    intro e h
    cases h with
    | andNotYes h _ => rw [derives_iff.mp h] at hy; cases hy
  have low : ∀ {rule : Rule}, rule ∈ [Rule.a, .e, .i, .o, .u] → ∀ {cs m r : List Char}, Derives grammar (.call rule) cs (some (m, r)) → ∀ c ∈ m, yLetter c = false := by
    intro rule hr cs m r h
    simp only [List.mem_cons, List.not_mem_nil, or_false] at hr
    rcases hr with rfl | rfl | rfl | rfl | rfl
    all_goals
      cases h with
      | call h =>
        cases h with
        | @oneOfYes _ k c _ hk hc hm =>
          intro d hd
          rcases List.mem_append.mp hd with hd | hd
          · have := hk d hd; subst this; rfl
          · simp at hd; subst hd
            simp at hm
            rcases hm with rfl | rfl <;> rfl
  have h := derives_iff.mpr h
  cases h with
  | call h =>
    have h : Derives grammar (.alt (.call .vowel) (.alt (.call .diphthong) (.andNot (.call .y) (.call .nucleus)))) cs (some (m, r)) := h
    cases h with
    | altL h =>
      cases h with
      | call h =>
        have h : Derives grammar (.andNot (.oneOf c!"aAeEiIoOuUyY") (.call .nucleus)) cs (some (m, r)) := h
        cases h with
        | andNotYes h _ => exact y_next h hy
    | altR _ h =>
      cases h with
      | altR _ h => exact absurd h ny
      | altL h =>
        cases h with
        | call h =>
          have h : Derives grammar (.andNot (.alt (.seq (.call .a) (.alt (.call .i) (.call .u))) (.seq (.alt (.call .e) (.call .o)) (.call .i))) (.call .nucleus)) cs (some (m, r)) := h
          have l1 : ∀ {a b : Rule}, a ∈ [Rule.a, .e, .i, .o, .u] → b ∈ [Rule.a, .e, .i, .o, .u] → ∀ {cs m r : List Char}, Derives grammar (.alt (.call a) (.call b)) cs (some (m, r)) → ∀ c ∈ m, yLetter c = false := by
            intro a b ha hb cs m r h
            cases h with
            | altL h => exact low ha h
            | altR _ h => exact low hb h
          have sq : ∀ {a b : Exp Rule} {cs m r : List Char}, Derives grammar (.seq a b) cs (some (m, r)) → ∃ m1 r1 m2, m = m1 ++ m2 ∧ Derives grammar a cs (some (m1, r1)) ∧ Derives grammar b r1 (some (m2, r)) := by
            intro a b cs m r h
            generalize e : some (m, r) = res at h
            cases h with
            | seqFail => cases e
            | seqGo h1 h2 =>
              obtain ⟨m', e1, e2⟩ := Derives.Res.prepend_some e.symm
              subst e1
              exact ⟨_, _, _, e2, h1, h2⟩
          cases h with
          | andNotYes h _ =>
            cases h with
            | altL h =>
              obtain ⟨m1, r1, m2, rfl, h1, h2⟩ := sq h
              intro c hc
              rcases List.mem_append.mp hc with hc | hc
              · exact low (by decide) h1 c hc
              · exact l1 (by decide) (by decide) h2 c hc
            | altR _ h =>
              obtain ⟨m1, r1, m2, rfl, h1, h2⟩ := sq h
              intro c hc
              rcases List.mem_append.mp hc with hc | hc
              · exact l1 (by decide) (by decide) h1 c hc
              · exact low (by decide) h2 c hc

/-- Rules that never take a y. -/
def neverY : Rule → Bool
  | .b | .c | .d | .f | .g | .j | .k | .l | .m | .n | .p | .r | .s | .t | .v | .x | .z | .h | .liquid | .syllabic | .voiced | .unvoiced |
    .consonant | .other | .sibilant | .affricate | .a | .e | .i | .o | .u | .diphthong | .glide | .initial | .onset | .cluster |
    .consonantal_syllable | .coda | .syllable | .final_syllable | .unstressed_syllable | .brivla_head | .fuhivla_head |
    .explicitly_stressed_syllable | .stressed_syllable | .fuhivla | .final_syllable_minimal | .explicitly_stressed_fuhivla_minimal => true
  | _ => false

theorem neverY_ok : ∀ r, neverY r = true → neverE yLetter neverY false (grammar r) = true := by
  intro r
  cases r <;> decide +kernel

theorem neverY_sound {rule : Rule} (hr : neverY rule = true) {cs m r : List Char} (h : parseRule rule cs = some (m, r)) : ∀ c ∈ m, yLetter c = false :=
  neverE_sound rfl neverY_ok (.inr nucleus_no_y) (derives_iff.mpr h) false (by simp) (by simp [neverE, hr]) m r rfl

/-! ### No digits in brivla -/

def digitLetter (c : Char) : Bool := c!"0123456789".contains c

/-- Rules that never take a digit. -/
def neverD : Rule → Bool
  | .digit | .cmevla | .cmavo_form | .cmavo | .cmavo_minimal | .cmavo_semi_minimal | .lojban_word | .post_word => false
  | _ => true

theorem neverD_ok : ∀ r, neverD r = true → neverE digitLetter neverD false (grammar r) = true := by
  intro r
  cases r <;> decide +kernel

theorem neverD_sound {rule : Rule} (hr : neverD rule = true) {cs m r : List Char} (h : parseRule rule cs = some (m, r)) : ∀ c ∈ m, digitLetter c = false :=
  neverE_sound rfl neverD_ok (.inl rfl) (derives_iff.mpr h) false (by simp) (by simp [neverE, hr]) m r rfl

end Sneturfahi
