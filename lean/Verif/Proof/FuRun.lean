import Verif.Proof.FuApart

/-!
# Syllables by the rules and by the specification
-/

namespace Sneturfahi.Fu

set_option linter.constructorNameAsVariable false
set_option linter.unusedSimpArgs false

open Derives Spec Names Props
open Lj (C V D Y Q isL Bare0 isYLetter)

attribute [local irreducible] parseRule
attribute [-simp] text_cons text_nil text_append

theorem syl_iff : ∀ d ∈ allConsonants, (syl d = true ↔ lower d ∈ c!"lmnr") := by decide +kernel

/-- Between vowels. -/
def Inner (s : List Sound) : Prop := ∀ a g cs h b, s = a ++ .vowels g :: (cs.map C ++ .vowels h :: b) → MedialConsonants cs

theorem any_iff : ∀ (n : Nat) {cs g : List Char} {t : List Sound}, cs.length ≤ n → Fi (cs.map C ++ .vowels g :: t) →
    (anyOk cs = true ↔ BeginsSyllable cs) := by
  intro n
  induction n with
  | zero =>
    intro cs g t hn _
    cases cs with
    | nil => simp [anyOk, BeginsSyllable]
    | cons _ _ => simp at hn
  | succ n ih =>
    intro cs g t hn h
    match cs, h, hn with
    | [], _, _ => simp [anyOk, BeginsSyllable]
    | [_], _, _ => simp [anyOk, BeginsSyllable]
    | c :: d :: rest, h, hn =>
      have i1 := ih (cs := d :: rest) (by simp at hn ⊢; omega) h.tail
      have i2 := ih (cs := rest) (by simp at hn; omega) h.tail.tail
      have i3 := init_iff h
      have i4 := syl_iff d h.tail.good.1
      rw [anyOk, BeginsSyllable, ← i1, ← i2, ← i3, ← i4]
      simp [and_assoc]

theorem inner_cons {x : Sound} {s : List Sound} (hx : isVowels x = false) : Inner (x :: s) ↔ Inner s := by
  constructor
  · intro h a g cs k b e
    exact h (x :: a) g cs k b (by rw [e]; rfl)
  · intro h a g cs k b e
    cases a with
    | nil => simp at e; rw [e.1] at hx; cases hx
    | cons y a => simp at e; exact h a g cs k b (by rw [e.2])

theorem inner_vowels {g : List Char} {p : List Sound} : Inner (.vowels g :: p) ↔ (∀ cs h b, p = cs.map C ++ .vowels h :: b → MedialConsonants cs) ∧ Inner p := by
  constructor
  · intro h
    exact ⟨fun cs k b e => h [] g cs k b (by rw [e]; rfl), fun a g' cs k b e => h (.vowels g :: a) g' cs k b (by rw [e]; rfl)⟩
  · rintro ⟨h1, h2⟩ a g' cs k b e
    cases a with
    | nil => simp at e; exact h1 cs k b e.2
    | cons y a => simp at e; exact h2 a g' cs k b (by rw [e.2])

theorem inner_clust (cs g : List Char) (t : List Sound) : Inner (cs.map C ++ .vowels g :: t) ↔ Inner (.vowels g :: t) := by
  induction cs with
  | nil => rfl
  | cons c cs ih => rw [List.map_cons, List.cons_append, inner_cons rfl, ih]

theorem inner_past {s : List Sound} (h : Fi s) (hs : s ≠ []) : Inner s ↔ (∀ cs k b, past s = cs.map C ++ .vowels k :: b → MedialConsonants cs) ∧ Inner (past s) := by
  cases lead h with
  | nil => exact absurd rfl hs
  | cons cs g t => rw [inner_clust, past_clust, inner_vowels]
  | quote q g t => rw [inner_cons rfl, inner_vowels]; rfl
  | glide q g t => rw [inner_cons rfl, inner_vowels]; rfl

theorem inner_nil : Inner [] := by intro a g cs k b e; simp at e

theorem inner_skip (s : List Sound) : Inner (skip s) ↔ Inner s := by
  unfold skip
  split
  · rename_i h
    match s, h with
    | .consonant c :: t, _ => exact (inner_cons rfl).symm
    | .vowels _ :: _, h => simp [lc, anyOk] at h
    | .glide _ :: _, h => simp [lc, anyOk] at h
    | .apostrophe _ :: _, h => simp [lc, anyOk] at h
    | .digit _ :: _, h => simp [lc, anyOk] at h
    | [], h => simp [lc, anyOk] at h
  · rfl

theorem lc_tail (s : List Sound) : lc s ≠ [] → lc s.tail = (lc s).tail := by
  match s with
  | .consonant c :: t => intro _; rfl
  | .vowels _ :: _ => intro h; exact absurd rfl h
  | .glide _ :: _ => intro h; exact absurd rfl h
  | .apostrophe _ :: _ => intro h; exact absurd rfl h
  | .digit _ :: _ => intro h; exact absurd rfl h
  | [] => intro h; exact absurd rfl h

theorem any_skip (s : List Sound) : anyOk (lc (skip s)) = (anyOk (lc s) || anyOk (lc s).tail) := by
  unfold skip
  by_cases hl : lc s = []
  · simp [hl, anyOk]
  · cases h1 : anyOk (lc s) with
    | true => simp [h1]
    | false =>
      cases h2 : anyOk (lc s).tail with
      | true => simp [h1, h2, lc_tail s hl]
      | false => simp [h1, h2]

theorem medial_iff {s : List Sound} (h : Fi s) : (∀ cs k b, s = cs.map C ++ .vowels k :: b → MedialConsonants cs) ↔ (anyOk (lc s) || anyOk (lc s).tail) = true := by
  cases lead h with
  | nil => simp [lc, anyOk]
  | quote q g t =>
    simp only [lc, anyOk, Bool.true_or, iff_true]
    intro cs k b e
    cases cs <;> simp at e
  | glide q g t =>
    simp only [lc, anyOk, Bool.true_or, iff_true]
    intro cs k b e
    cases cs <;> simp at e
  | cons cs g t =>
    rw [lc_clust, Bool.or_eq_true, any_iff _ (Nat.le_refl _) h]
    have h2 : anyOk cs.tail = true ↔ BeginsSyllable cs.tail := by
      cases cs with
      | nil => simp [anyOk, BeginsSyllable]
      | cons c cs => exact any_iff _ (Nat.le_refl _) (g := g) (t := t) h.tail
    rw [h2]
    constructor
    · intro k; exact k cs g t rfl
    · intro k cs' k' b e
      have := congrArg lc e
      rw [lc_clust, lc_clust] at this
      rw [← this]; exact k

theorem run_iff : ∀ (n : Nat) {s : List Sound}, s.length ≤ n → Fi s → s ≠ [] → (Run s ↔ anyOk (lc s) = true ∧ Inner s) := by
  intro n
  induction n with
  | zero =>
    intro s hn _ hs
    cases s with
    | nil => exact absurd rfl hs
    | cons _ _ => simp at hn
  | succ n ih =>
    intro s hn h hs
    cases hc : consS s with
    | some t =>
      obtain ⟨e1, e2, e3⟩ := nv_cons_step h hc
      have ht := c_cons.fi h hc
      have htn : t ≠ [] := by
        rintro rfl
        have := (nv_nil_iff h).mp (by rw [← e1]; rfl)
        exact hs this
      have step : Run s ↔ Run t := by
        constructor
        · intro hr
          cases hr with
          | last h _ => rw [e3] at h; cases h
          | syl h _ _ => rw [e3] at h; cases h
          | cons h hr => rw [hc] at h; cases h; exact hr
        · exact .cons hc
      rw [step, ih (by omega) ht htn]
      cases lead h with
      | nil => cases hc
      | quote => cases hc
      | glide => cases hc
      | cons cs g u =>
        rw [cons_clust] at hc
        match cs, hc with
        | c :: d :: rest, hc =>
          simp only at hc
          split at hc <;> cases hc
          rename_i hk
          rw [lc_clust, lc_clust, inner_clust, inner_clust, anyOk]
          simp only [Bool.and_eq_true] at hk
          simp [hk.1.1, hk.1.2, hk.2]
    | none =>
      have hon : anyOk (lc s) = onOk s := by
        cases lead h with
        | nil => exact absurd rfl hs
        | quote => rfl
        | glide => rfl
        | cons cs g t =>
          rw [lc_clust, onOk_clust]
          rw [cons_clust] at hc
          match cs, hc, h with
          | [], _, _ => simp [anyOk, init_nil]
          | [c], _, h => simp [anyOk, init_one h.good.1]
          | c :: d :: rest, hc, _ =>
            simp only at hc
            split at hc
            · cases hc
            · rename_i hk
              rw [anyOk]
              simp only [Bool.not_eq_true] at hk
              rw [hk, Bool.or_false]
      rw [hon]
      have hp := nv_past h hs
      by_cases e1 : nv s = 1
      · have hpe : past s = [] := (nv_nil_iff (past_fi h)).mp (by omega)
        have hi : Inner s := by
          rw [inner_past h hs, hpe]
          refine ⟨?_, inner_nil⟩
          intro cs k b e; simp at e
        constructor
        · intro hr
          cases hr with
          | last h _ => exact ⟨h, hi⟩
          | syl _ h2 _ => omega
          | cons h _ => rw [hc] at h; cases h
        · rintro ⟨ho, _⟩; exact .last ho e1
      · have hpn : past s ≠ [] := by intro e; rw [e] at hp; exact e1 hp
        have hsn : skip (past s) ≠ [] := fun e => hpn ((skip_nil_iff (past_fi h)).mp e)
        have hlen : (skip (past s)).length < s.length := by
          have := past_len hs
          have := skip_len (past s)
          omega
        have hi := ih (s := skip (past s)) (by omega) (skip_fi (past_fi h)) hsn
        rw [inner_skip, any_skip, ← medial_iff (past_fi h)] at hi
        rw [inner_past h hs, ← hi]
        constructor
        · intro hr
          cases hr with
          | last _ h => exact absurd h e1
          | syl h _ h2 => exact ⟨h, h2⟩
          | cons h _ => rw [hc] at h; cases h
        · rintro ⟨ho, hr⟩; exact .syl ho (by omega) hr

end Sneturfahi.Fu
