import Verif.Proof.Ans
import Verif.Proof.Needs
import Verif.Proof.WinRules
import Verif.Props.Compound

/-!
# What the rules leave of a sequence of sounds

Words in small vowels, without glides and digits.
-/

namespace Sneturfahi.Lj

set_option linter.constructorNameAsVariable false

open Derives Spec Names Props

attribute [local irreducible] parseRule

/-! ### Letters a rule consumes -/

/-- Every letter consumed is of the kind `p`. -/
def onlyE (p : Char → Bool) (only : Rule → Bool) : Exp Rule → Bool
  | .oneOf chs => chs.all p
  | .call r => only r
  | .alt a b => onlyE p only a && onlyE p only b
  | .longest a b => onlyE p only a && onlyE p only b
  | .seq a b => onlyE p only a && onlyE p only b
  | .rep _ e => onlyE p only e
  | .andPeek e _ => onlyE p only e
  | .andNot e _ => onlyE p only e
  | .guardNot _ e => onlyE p only e
  | _ => true

theorem onlyE_sound {p : Char → Bool} {only : Rule → Bool} (hp : p ',' = true) (hg : ∀ r, only r = true → onlyE p only (grammar r) = true)
    {e : Exp Rule} {cs : List Char} {res : Res} (h : Derives grammar e cs res) :
    onlyE p only e = true → ∀ m r, res = some (m, r) → ∀ c ∈ m, p c = true := by
  induction h with
  | oneOfYes hk hc hm =>
    intro h m r e c hcm
    cases e
    simp only [List.mem_append, List.mem_singleton] at hcm
    rcases hcm with hcm | rfl
    · rw [hk c hcm]; exact hp
    · exact List.all_eq_true.mp h _ hm
  | call _ ih => intro h m r e; exact ih (hg _ h) m r e
  | altL _ ih => intro h m r e; simp only [onlyE, Bool.and_eq_true] at h; exact ih h.1 m r e
  | altR _ _ _ ih => intro h m r e; simp only [onlyE, Bool.and_eq_true] at h; exact ih h.2 m r e
  | @longest a b cs ra rb _ _ iha ihb =>
    intro h m r e
    simp only [onlyE, Bool.and_eq_true] at h
    cases ra with
    | none => exact ihb h.2 m r (by simpa [Res.longest] using e)
    | some x =>
      cases rb with
      | none => exact iha h.1 m r (by simpa [Res.longest, Prod.ext_iff] using e)
      | some y =>
        simp only [Res.longest, Option.some.injEq] at e
        split at e
        · exact iha h.1 m r (by rw [← e])
        · exact ihb h.2 m r (by rw [← e])
  | seqGo _ _ iha ihb =>
    intro h m r e
    simp only [onlyE, Bool.and_eq_true] at h
    obtain ⟨m', h1, h2⟩ := Res.prepend_some e
    subst h2
    intro c hc
    rcases List.mem_append.mp hc with hc | hc
    · exact iha h.1 _ _ rfl c hc
    · exact ihb h.2 _ _ h1 c hc
  | repStep _ _ iha ihb =>
    intro h m r e
    obtain ⟨m', h1, h2⟩ := Res.prepend_some e
    subst h2
    intro c hc
    rcases List.mem_append.mp hc with hc | hc
    · exact iha h _ _ rfl c hc
    · exact ihb h _ _ h1 c hc
  | andPeekYes _ _ ih _ => intro h m r e; exact ih h m r e
  | andNotYes _ _ ih _ => intro h m r e; exact ih h m r e
  | guardGo _ _ _ ih => intro h m r e; exact ih h m r e
  | null => intro _ m r e; cases e; simp
  | eofYes => intro _ m r e; cases e; simp
  | notYes => intro _ m r e; cases e; simp
  | peekYes => intro _ m r e; cases e; simp
  | repStop => intro _ m r e; cases e; simp
  | _ => intro _ m r e; cases e

/-- Not one of the five vowels. -/
def noVowel (c : Char) : Bool := !c!"aeiouAEIOU".contains c
/-- A vowel letter. -/
def aVowel (c : Char) : Bool := vowelSet.contains c || c == ','

def noV : Rule → Bool
  | .h | .b | .c | .d | .f | .g | .j | .k | .l | .m | .n | .p | .r | .s | .t | .v | .x | .z | .liquid | .syllabic | .voiced | .unvoiced |
    .consonant | .other | .sibilant | .affricate | .y | .initial | .coda => true
  | _ => false
def yesV : Rule → Bool
  | .a | .e | .i | .o | .u | .y | .vowel | .diphthong | .nucleus | .glide => true
  | _ => false

theorem noV_ok : ∀ r, noV r = true → onlyE noVowel noV (grammar r) = true := by intro r; cases r <;> decide +kernel
theorem yesV_ok : ∀ r, yesV r = true → onlyE aVowel yesV (grammar r) = true := by intro r; cases r <;> decide +kernel

theorem noV_sound {e : Exp Rule} (h : onlyE noVowel noV e = true) {cs m r : List Char} (hd : Derives grammar e cs (some (m, r))) :
    ∀ c ∈ m, noVowel c = true := onlyE_sound (by decide) noV_ok hd h m r rfl
theorem yesV_sound {e : Exp Rule} (h : onlyE aVowel yesV e = true) {cs m r : List Char} (hd : Derives grammar e cs (some (m, r))) :
    ∀ c ∈ m, aVowel c = true := onlyE_sound (by decide) yesV_ok hd h m r rfl

/-- Where `stress` holds, the vowels are in one place. -/
theorem stress_inv {cs m r : List Char} (h : parseRule .stress cs = some (m, r)) :
    ∃ p g q, cs = p ++ (g ++ q) ∧ (∀ c ∈ p, noVowel c = true) ∧ (∀ c ∈ g, aVowel c = true) ∧ (∀ c ∈ q, noVowel c = true) := by
  have e := (derives_iff.mpr h).append_eq _ _ rfl
  have hd := call_inv (derives_iff.mpr h)
  obtain ⟨m1, r1, n1, h1, hd1, rfl⟩ := seq_inv hd
  obtain ⟨m2, r2, n2, h2, hd2, rfl⟩ := seq_inv hd1
  obtain ⟨m3, r3, n3, h3, hd3, rfl⟩ := seq_inv hd2
  obtain ⟨m4, r4, n4, h4, h5, rfl⟩ := seq_inv hd3
  have h5' := h5.append_eq _ _ rfl
  cases h5 with
  | eofYes =>
    obtain ⟨m6, r6, n6, h6, hd4, rfl⟩ := seq_inv (call_inv h4)
    obtain ⟨m7, r7, n7, h7, hd5, rfl⟩ := seq_inv hd4
    obtain ⟨m8, r8, n8, h8, h9, rfl⟩ := seq_inv hd5
    obtain ⟨rfl, _, _⟩ := not_inv h7
    have k1 := noV_sound (by decide +kernel) h1
    have k2 := noV_sound (by decide +kernel) h2
    have k3 := noV_sound (by decide +kernel) h3
    have k8 := yesV_sound (by decide +kernel) h8
    have k9 := noV_sound (by decide +kernel) h9
    rcases alt_inv (call_inv h6) with h6 | ⟨_, h6⟩
    · have k6 := noV_sound (by decide +kernel) h6
      refine ⟨m1 ++ m2 ++ m3 ++ m6, m8, n8, by rw [← e]; simp, ?_, k8, k9⟩
      simp only [List.mem_append]
      rintro c (((hc | hc) | hc) | hc)
      · exact k1 c hc
      · exact k2 c hc
      · exact k3 c hc
      · exact k6 c hc
    rcases alt_inv h6 with h6 | ⟨_, h6⟩
    · have k6 := yesV_sound (by decide +kernel) h6
      refine ⟨m1 ++ m2 ++ m3, m6 ++ m8, n8, by rw [← e]; simp, ?_, ?_, k9⟩
      · simp only [List.mem_append]
        rintro c ((hc | hc) | hc)
        · exact k1 c hc
        · exact k2 c hc
        · exact k3 c hc
      · intro c hc
        rcases List.mem_append.mp hc with hc | hc
        · exact k6 c hc
        · exact k8 c hc
    · have k6 := noV_sound (by decide +kernel) h6
      refine ⟨m1 ++ m2 ++ m3 ++ m6, m8, n8, by rw [← e]; simp, ?_, k8, k9⟩
      simp only [List.mem_append]
      rintro c (((hc | hc) | hc) | hc)
      · exact k1 c hc
      · exact k2 c hc
      · exact k3 c hc
      · exact k6 c hc

/-- Between two vowels there is something else. -/
def Apart (cs : List Char) : Prop := ∃ a v b x c w d, cs = a ++ v :: (b ++ x :: (c ++ w :: d)) ∧ noVowel v = false ∧ aVowel x = false ∧ noVowel w = false

theorem not_together {p : List Char} : ∀ {g q : List Char}, (∀ c ∈ p, noVowel c = true) → (∀ c ∈ g, aVowel c = true) → (∀ c ∈ q, noVowel c = true) →
    ¬ Apart (p ++ (g ++ q)) := by
  induction p with
  | cons z p ih =>
    rintro g q hp hg hq ⟨a, v, b, x, c, w, d, e, hv, hx, hw⟩
    cases a with
    | nil =>
      simp only [List.cons_append, List.nil_append, List.cons.injEq] at e
      have := hp z (by simp)
      rw [e.1, hv] at this
      cases this
    | cons y a =>
      simp only [List.cons_append, List.cons.injEq] at e
      exact ih (fun c hc => hp c (by simp [hc])) hg hq ⟨a, v, b, x, c, w, d, e.2, hv, hx, hw⟩
  | nil =>
    intro g
    induction g with
    | nil =>
      rintro q _ _ hq ⟨a, v, b, x, c, w, d, e, hv, hx, hw⟩
      have := hq v (by rw [show q = _ from e]; simp)
      rw [hv] at this
      cases this
    | cons z g ih =>
      rintro q hp hg hq ⟨a, v, b, x, c, w, d, e, hv, hx, hw⟩
      cases a with
      | cons y a =>
        simp only [List.cons_append, List.nil_append, List.cons.injEq] at e
        exact ih hp (fun c hc => hg c (by simp [hc])) hq ⟨a, v, b, x, c, w, d, e.2, hv, hx, hw⟩
      | nil =>
        simp only [List.cons_append, List.nil_append, List.cons.injEq] at e
        obtain ⟨_, e⟩ := e
        have hg' : ∀ c ∈ g, aVowel c = true := fun c hc => hg c (List.mem_cons_of_mem _ hc)
        clear ih hg
        induction g generalizing b with
        | nil =>
          have := hq w (by rw [show q = _ from e]; simp)
          rw [hw] at this
          cases this
        | cons y g ih2 =>
          cases b with
          | nil =>
            simp only [List.cons_append, List.nil_append, List.cons.injEq] at e
            have := hg' y (by simp)
            rw [e.1, hx] at this
            cases this
          | cons u b =>
            simp only [List.cons_append, List.cons.injEq] at e
            exact ih2 _ e.2 (fun c hc => hg' c (List.mem_cons_of_mem _ hc))

theorem stress_none {cs : List Char} (h : Apart cs) : ans (.call .stress) cs = none := by
  rw [ans_none]
  cases hp : parseRule .stress cs with
  | none => rfl
  | some x =>
    obtain ⟨m, r⟩ := x
    obtain ⟨p, g, q, rfl, h1, h2, h3⟩ := stress_inv hp
    exact absurd h (not_together h1 h2 h3)

/-! ### No apostrophe before y -/

/-- An apostrophe and then y. -/
def HY (cs : List Char) : Prop := ∃ a q c b, cs = a ++ q :: c :: b ∧ q ∈ c!"'h" ∧ c ∈ c!"yY"

/-- At some point h and y are read, one after the other. -/
def hyE : Exp Rule → Bool
  | .seq a b => (match a, b with
    | .call .h, .call .y => true
    | .call .h, .seq (.call .y) _ => true
    | _, _ => false) || hyE b
  | _ => false

theorem h_inv {cs m r : List Char} (hc : ',' ∉ cs) (h : Derives grammar (.call .h) cs (some (m, r))) : ∃ q, q ∈ c!"'h" ∧ cs = q :: r := by
  have hd := call_inv h
  rw [h_body] at hd
  cases hd with
  | andPeekYes h1 _ =>
    cases h1 with
    | @oneOfYes _ k c t hk hcc hm =>
      cases k with
      | nil => exact ⟨c, hm, rfl⟩
      | cons a k => exact absurd (hk a (by simp)) (by rintro rfl; simp at hc)

theorem y_inv {cs m r : List Char} (hc : ',' ∉ cs) (h : Derives grammar (.call .y) cs (some (m, r))) : ∃ q, q ∈ c!"yY" ∧ cs = q :: r := by
  have hd : Derives grammar (.oneOf c!"yY") cs (some (m, r)) := call_inv h
  cases hd with
  | @oneOfYes _ k c t hk hcc hm =>
    cases k with
    | nil => exact ⟨c, hm, rfl⟩
    | cons a k => exact absurd (hk a (by simp)) (by rintro rfl; simp at hc)

theorem hyE_sound {e : Exp Rule} : hyE e = true → ∀ {cs m r : List Char}, ',' ∉ cs → Derives grammar e cs (some (m, r)) → HY cs := by
  induction e with
  | seq a b _ ihb =>
    intro h cs m r hc hd
    obtain ⟨m1, r1, m2, h1, h2, rfl⟩ := seq_inv hd
    have e1 := h1.append_eq _ _ rfl
    have hc1 : ',' ∉ r1 := by rw [← e1] at hc; intro h; exact hc (by simp [h])
    unfold hyE at h
    rw [Bool.or_eq_true] at h
    rcases h with h | h
    · split at h
      · obtain ⟨q, hq, rfl⟩ := h_inv hc h1
        obtain ⟨c, hcy, rfl⟩ := y_inv hc1 h2
        exact ⟨[], q, c, _, rfl, hq, hcy⟩
      · obtain ⟨q, hq, rfl⟩ := h_inv hc h1
        obtain ⟨_, _, _, h3, _, _⟩ := seq_inv h2
        obtain ⟨c, hcy, rfl⟩ := y_inv hc1 h3
        exact ⟨[], q, c, _, rfl, hq, hcy⟩
      · cases h
    · obtain ⟨a, q, c, b, rfl, hq, hcy⟩ := ihb h hc1 h2
      exact ⟨m1 ++ a, q, c, b, by rw [← e1]; simp, hq, hcy⟩
  | _ => intro h; cases h

theorem hy_none {rule : Rule} (hr : hyE (grammar rule) = true) {cs : List Char} (hc : ',' ∉ cs) (hy : ¬ HY cs) : ans (.call rule) cs = none := by
  rw [ans_none]
  cases hp : parseRule rule cs with
  | none => rfl
  | some x =>
    obtain ⟨m, r⟩ := x
    exact absurd (hyE_sound hr hc (call_inv (derives_iff.mpr hp))) hy

/-! ### Outcomes by windows -/

def ones : List (List Char) := [c!"aeiouy"]
def twos : List (List (List Char)) := [[c!"a", c!"iu"], [c!"eo", c!"i"]]
def bits : List (List (List Char)) := ones :: twos

theorem win_diph1 : bothEnds .fail .diphthong ones = true := by decide +kernel
theorem win_diph2 : twos.all (fun p => bothEnds (.ok 2) .diphthong p) = true := by decide +kernel
theorem win_diph0 : failsOpen .diphthong [stops] = true := by decide +kernel
theorem win_on0 : bits.all (fun p => bothEnds (.ok 0) .onset p) = true := by decide +kernel
theorem win_on1 : bits.all (fun p => bothEnds (.ok 1) .onset (allConsonants :: p)) = true := by decide +kernel
theorem win_on2 : bits.all (fun p => (c!"bcdfgjklmnprstvxz").all (fun c => bothEnds (.ok 2) .onset (bothCases c :: afterInitial c :: p))) = true := by decide +kernel
theorem win_ip2 : bits.all (fun p => (c!"bcdfgjklmnprstvxz").all (fun c => bothEnds (.ok 2) .initial_pair (bothCases c :: afterInitial c :: p))) = true := by decide +kernel
theorem win_cmevla_nil : parseRule .cmevla [] = none := by decide +kernel
theorem win_post_nil : parseRule .post_word [] = some ([], []) := by decide +kernel


end Sneturfahi.Lj
