import Verif.Spec.CmavoForm
import Verif.Proof.Gismu

/-!
# What `cmavo_form` matches
-/

namespace Sneturfahi

set_option linter.constructorNameAsVariable false

open Derives Spec

theorem longest_inv {e f : Exp Rule} {cs : List Char} {x : List Char × List Char} (h : Derives grammar (.longest e f) cs (some x)) :
    Derives grammar e cs (some x) ∨ Derives grammar f cs (some x) := by
  generalize hres : (some x : Res) = res at h
  cases h with
  | @longest _ _ _ ra rb h1 h2 =>
    cases ra with
    | none => simp only [Res.longest] at hres; subst hres; exact .inr h2
    | some a =>
      obtain ⟨ma, ra⟩ := a
      cases rb with
      | none => simp only [Res.longest] at hres; cases hres; exact .inl h1
      | some b =>
        obtain ⟨mb, rb⟩ := b
        clear hres
        simp only [Res.longest]
        split
        · exact .inl h1
        · exact .inr h2

theorem noCommas_letter {k : List Char} {c : Char} (hk : AllCommas k) (hc : c ≠ ',') : noCommas (k ++ [c]) = [c] := by
  rw [noCommas_append, noCommas_eq_nil.mpr hk]
  simp [noCommas, hc]

theorem oneLetter' {rule : Rule} {s cs m r : List Char} (hs : wordShape rule = some [[s]])
    (h : parseRule rule cs = some (m, r)) : ∃ c ∈ s, noCommas m = [c] := by
  obtain ⟨k, c, hk, hc, hc', rfl, _⟩ := oneLetter hs h
  exact ⟨c, hc, noCommas_letter hk hc'⟩

theorem vowels_cover : ∀ c ∈ allVowels, c ∈ c!"aeiouyAEIOUY" := by decide

theorem nucleus_inv {cs m r : List Char} (h : parseRule .nucleus cs = some (m, r)) : VowelGroup (noCommas m) := by
  have h := call_inv (derives_iff.mpr h)
  rcases alt_inv h with h | ⟨_, h⟩
  · obtain ⟨c, hc, e⟩ := oneLetter' (rule := .vowel) rfl (derives_iff.mp h)
    exact .inl ⟨c, vowels_cover c hc, e⟩
  · rcases alt_inv h with h | ⟨_, h⟩
    · obtain ⟨h, _⟩ := andNot_inv (call_inv h)
      rcases alt_inv h with h | ⟨_, h⟩
      · obtain ⟨m1, r1, m2, h1, h2, rfl⟩ := seq_inv h
        obtain ⟨c, hc, e⟩ := oneLetter' (rule := .a) rfl (derives_iff.mp h1)
        rw [noCommas_append, e]
        rcases alt_inv h2 with h2 | ⟨_, h2⟩
        · obtain ⟨d, hd, e2⟩ := oneLetter' (rule := .i) rfl (derives_iff.mp h2)
          rw [e2]
          have : ∀ d ∈ c!"iI", d ∈ c!"iuIU" := by decide
          exact .inr (.inl ⟨c, hc, d, this d hd, rfl⟩)
        · obtain ⟨d, hd, e2⟩ := oneLetter' (rule := .u) rfl (derives_iff.mp h2)
          rw [e2]
          have : ∀ d ∈ c!"uU", d ∈ c!"iuIU" := by decide
          exact .inr (.inl ⟨c, hc, d, this d hd, rfl⟩)
      · obtain ⟨m1, r1, m2, h1, h2, rfl⟩ := seq_inv h
        obtain ⟨d, hd, e2⟩ := oneLetter' (rule := .i) rfl (derives_iff.mp h2)
        rw [noCommas_append, e2]
        rcases alt_inv h1 with h1 | ⟨_, h1⟩
        · obtain ⟨c, hc, e⟩ := oneLetter' (rule := .e) rfl (derives_iff.mp h1)
          rw [e]
          have : ∀ d ∈ c!"eE", d ∈ c!"eoEO" := by decide
          exact .inr (.inr ⟨c, this c hc, d, hd, rfl⟩)
        · obtain ⟨c, hc, e⟩ := oneLetter' (rule := .o) rfl (derives_iff.mp h1)
          rw [e]
          have : ∀ d ∈ c!"oO", d ∈ c!"eoEO" := by decide
          exact .inr (.inr ⟨c, this c hc, d, hd, rfl⟩)
    · obtain ⟨h, _⟩ := andNot_inv h
      obtain ⟨c, hc, e⟩ := oneLetter' (rule := .y) rfl (derives_iff.mp h)
      have : ∀ d ∈ c!"yY", d ∈ c!"aeiouyAEIOUY" := by decide
      exact .inl ⟨c, this c hc, e⟩

theorem rep0_some {e : Exp Rule} {x : Exp Rule} {cs : List Char} {res : Res} (h : Derives grammar x cs res) : x = .rep 0 e → res ≠ none := by
  induction h with
  | repStop _ => intro _ h; cases h
  | @repStep n e' cs m rest res h1 h2 _ ih =>
    intro hx
    cases hx
    have := ih rfl
    cases res with
    | none => exact absurd rfl this
    | some x => simp [Res.prepend]
  | _ => intro hx; cases hx

theorem two_cluster {cs m1 r1 m2 r2 : List Char} (h1 : parseRule .consonant cs = some (m1, r1))
    (h2 : parseRule .consonant r1 = some (m2, r2)) : parseRule .cluster cs ≠ none := by
  intro hn
  have h := call_inv (derives_iff.mpr hn)
  have hg : grammar .cluster = .rep 2 (.call .consonant) := rfl
  rw [hg] at h
  generalize hres : (none : Res) = res at h
  cases h with
  | repFail h =>
    have := derives_iff.mp h
    rw [h1] at this
    cases this
  | repStep h h' =>
    have := derives_iff.mp h
    rw [h1] at this
    cases this
    rename_i res
    cases res with
    | some x => simp [Res.prepend] at hres
    | none =>
      generalize hres2 : (none : Res) = res2 at h'
      cases h' with
      | repFail h =>
        have := derives_iff.mp h
        rw [h2] at this
        cases this
      | repStep h h'' =>
        rename_i res
        cases res with
        | some x => simp [Res.prepend] at hres2
        | none => exact rep0_some h'' rfl rfl

/-- A consonant by its own rule is one by `consonant`. -/
theorem consonant_of_letter {L : Rule} (hL : L ∈ letterRules) {cs m r : List Char} (h : parseRule L cs = some (m, r)) :
    parseRule .consonant cs = some (m, r) := by
  have hne := letter_consonant hL (cs := cs) (by rw [h]; simp)
  cases hc : parseRule .consonant cs with
  | none => exact absurd hc hne
  | some x =>
    obtain ⟨m', r'⟩ := x
    obtain ⟨k, c, hk, _, hc', rfl, e⟩ := oneLetter (rule := .consonant) rfl hc
    subst e
    obtain ⟨rfl, rfl, _⟩ := letter_match hL hk hc' h
    rfl

theorem consonant_of_guarded {rule : Rule} (hg : guarded (grammar rule) = some (guardedOf rule)) (hl : ∀ p ∈ guardedOf rule, p.1 ∈ letterRules)
    {cs m r : List Char} (h : Derives grammar (.call rule) cs (some (m, r))) : parseRule .consonant cs = some (m, r) := by
  obtain ⟨p, hp, h1, _⟩ := rule_guarded hg (derives_iff.mp h)
  exact consonant_of_letter (hl p hp) h1

theorem initial_inv {cs m r : List Char} (hc : parseRule .cluster cs = none) (h : parseRule .initial cs = some (m, r)) :
    noCommas m = [] ∨ ∃ c, IsConsonantLetter c ∧ noCommas m = [c] := by
  obtain ⟨hi, _⟩ := andNot_inv (call_inv (derives_iff.mpr h))
  obtain ⟨hi, _⟩ := andNot_inv hi
  have one : ∀ {cs m r : List Char}, parseRule .consonant cs = some (m, r) → ∃ c, IsConsonantLetter c ∧ noCommas m = [c] := by
    intro cs m r h
    obtain ⟨c, hc, e⟩ := oneLetter' (rule := .consonant) rfl h
    exact ⟨c, hc, e⟩
  obtain ⟨ls, lo, ll, gs, go, gl⟩ := lojban_pairs
  rcases alt_inv hi with hi | ⟨_, hi⟩
  · exfalso
    rcases alt_inv (call_inv hi) with hi | ⟨_, hi⟩
    · obtain ⟨ma, ra, mb, ha, hb, _⟩ := seq_inv hi
      have h1 := consonant_of_letter (L := .t) (by decide) (derives_iff.mp ha)
      rcases alt_inv hb with hb | ⟨_, hb⟩
      · exact two_cluster h1 (consonant_of_letter (L := .c) (by decide) (derives_iff.mp hb)) hc
      · exact two_cluster h1 (consonant_of_letter (L := .s) (by decide) (derives_iff.mp hb)) hc
    · obtain ⟨ma, ra, mb, ha, hb, _⟩ := seq_inv hi
      have h1 := consonant_of_letter (L := .d) (by decide) (derives_iff.mp ha)
      rcases alt_inv hb with hb | ⟨_, hb⟩
      · exact two_cluster h1 (consonant_of_letter (L := .j) (by decide) (derives_iff.mp hb)) hc
      · exact two_cluster h1 (consonant_of_letter (L := .z) (by decide) (derives_iff.mp hb)) hc
  · obtain ⟨ma, ra, mr, ha, hr, rfl⟩ := seq_inv hi
    obtain ⟨mb, rb, mc, hb, hc', rfl⟩ := seq_inv hr
    rcases opt_inv ha with ha | ⟨rfl, rfl⟩
    · have ha := consonant_of_guarded gs ls ha
      rcases opt_inv hb with hb | ⟨rfl, rfl⟩
      · exact absurd hc (two_cluster ha (consonant_of_guarded go lo hb))
      · rcases opt_inv hc' with hc' | ⟨rfl, rfl⟩
        · exact absurd hc (two_cluster ha (consonant_of_guarded gl ll hc'))
        · right; simpa using one ha
    · rcases opt_inv hb with hb | ⟨rfl, rfl⟩
      · have hb := consonant_of_guarded go lo hb
        rcases opt_inv hc' with hc' | ⟨rfl, rfl⟩
        · exact absurd hc (two_cluster hb (consonant_of_guarded gl ll hc'))
        · right; simpa using one hb
      · rcases opt_inv hc' with hc' | ⟨rfl, rfl⟩
        · right; simpa using one (consonant_of_guarded gl ll hc')
        · left; rfl

/-- Vowels with an apostrophe after each of them. -/
inductive VowelsAnd : List Char → Prop
  | nil : VowelsAnd []
  | more {g q t} : VowelGroup g → q ∈ c!"'h" → VowelsAnd t → VowelsAnd (g ++ q :: t)

theorem VowelsAnd.last {t g : List Char} (h : VowelsAnd t) (hg : VowelGroup g) : CmavoVowels (t ++ g) := by
  induction h with
  | nil => exact .one hg
  | more h1 h2 _ ih =>
    have := CmavoVowels.more h1 h2 ih
    simpa using this

theorem reps_inv {x : Exp Rule} {cs : List Char} {res : Res} (h : Derives grammar x cs res) : x = .rep 0 (.seq (.call .nucleus) (.call .h)) →
    ∀ m r, res = some (m, r) → VowelsAnd (noCommas m) := by
  induction h with
  | repStop _ => intro _ m r h; cases h; exact .nil
  | @repStep n e' cs m rest res h1 h2 _ ih =>
    intro hx m' r' hres
    cases hx
    obtain ⟨m2, h3, rfl⟩ := Res.prepend_some hres
    subst h3
    obtain ⟨ma, ra, mb, ha, hb, rfl⟩ := seq_inv h1
    obtain ⟨q, hq, e⟩ := oneLetter' (rule := .h) rfl (derives_iff.mp hb)
    have := VowelsAnd.more (nucleus_inv (derives_iff.mp ha)) hq (ih rfl _ _ rfl)
    rw [noCommas_append, noCommas_append, e]
    simpa using this
  | _ => intro hx; cases hx

theorem ys_inv {x : Exp Rule} {cs : List Char} {res : Res} (h : Derives grammar x cs res) : ∀ n, x = .rep n (.call .y) →
    ∀ m r, res = some (m, r) → (0 < n → noCommas m ≠ []) ∧ ∀ c ∈ noCommas m, c ∈ c!"yY" := by
  induction h with
  | repStop _ => intro n hx m r h; cases h; cases hx; exact ⟨by omega, by simp⟩
  | @repStep n e' cs m rest res h1 h2 _ ih =>
    intro n' hx m' r' hres
    cases hx
    obtain ⟨m2, h3, rfl⟩ := Res.prepend_some hres
    subst h3
    obtain ⟨q, hq, e⟩ := oneLetter' (rule := .y) rfl (derives_iff.mp h1)
    rw [noCommas_append, e]
    refine ⟨by simp, ?_⟩
    intro c hc
    simp only [List.cons_append, List.nil_append, List.mem_cons] at hc
    rcases hc with rfl | hc
    · exact hq
    · exact (ih _ rfl _ _ rfl).2 c hc
  | repFail _ => intro n hx m r h; cases h
  | _ => intro n hx; cases hx

/-- What `cmavo_form` matches has the form of a cmavo. -/
theorem cmavo_form_sound {cs m r : List Char} (h : parseRule .cmavo_form cs = some (m, r)) : CmavoForm (noCommas m) := by
  have h := call_inv (derives_iff.mpr h)
  rcases longest_inv h with h | h
  · obtain ⟨c, hc, e⟩ := oneLetter' (rule := .digit) rfl (derives_iff.mp h)
    exact .inl ⟨c, hc, e⟩
  · rcases longest_inv h with h | h
    · obtain ⟨h1, h2⟩ := ys_inv h _ rfl _ _ rfl
      exact .inr (.inl ⟨h1 (by decide), h2⟩)
    · obtain ⟨m1, r1, m2, h1, h2, rfl⟩ := seq_inv h
      obtain ⟨rfl, rfl, hh⟩ := not_inv h1
      obtain ⟨m3, r3, m4, h3, h4, rfl⟩ := seq_inv h2
      obtain ⟨rfl, rfl, hc⟩ := not_inv h3
      obtain ⟨mo, ro, m5, ho, h5, rfl⟩ := seq_inv h4
      obtain ⟨mv, rv, ml, hv, hl, rfl⟩ := seq_inv h5
      have hv := reps_inv hv rfl _ _ rfl
      have hl : VowelGroup (noCommas ml) := by
        rcases alt_inv hl with hl | ⟨_, hl⟩
        · obtain ⟨_, _, _, k1, k2, e⟩ := seq_inv hl
          obtain ⟨rfl, rfl, _⟩ := not_inv k1
          rw [e]
          exact nucleus_inv (derives_iff.mp k2)
        · obtain ⟨_, _, _, k1, k2, e⟩ := seq_inv hl
          obtain ⟨rfl, _, _⟩ := not_inv k2
          rw [e, List.append_nil]
          exact nucleus_inv (derives_iff.mp k1)
      have hvl := hv.last hl
      rw [← noCommas_append] at hvl
      simp only [List.nil_append]
      rw [noCommas_append]
      rcases alt_inv (call_inv ho) with ho | ⟨_, ho⟩
      · have := derives_iff.mp ho
        rw [derives_iff.mp hh] at this
        cases this
      · rcases alt_inv ho with ho | ⟨_, ho⟩
        · obtain ⟨c, hc, e⟩ := oneLetter' (rule := .glide) rfl (derives_iff.mp ho)
          have hi : ∀ c ∈ c!"iIuU", c ∈ c!"iuIU" := by decide
          exact .inr (.inr (.inr ⟨c, _, by rw [e]; rfl, .inr (hi c hc), hvl⟩))
        · rcases initial_inv (derives_iff.mp hc) (derives_iff.mp ho) with e | ⟨c, hc, e⟩
          · rw [e]
            exact .inr (.inr (.inl hvl))
          · exact .inr (.inr (.inr ⟨c, _, by rw [e]; rfl, .inl hc, hvl⟩))

end Sneturfahi
