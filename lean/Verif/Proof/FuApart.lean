import Verif.Proof.FuRafsi
import Verif.Props.Lujvo

/-!
# Particles at the beginning of words
-/

namespace Sneturfahi.Fu

set_option linter.constructorNameAsVariable false
set_option linter.unusedSimpArgs false

open Derives Spec Names Props
open Lj (C V D Y Q isL Bare0 isYLetter)

attribute [local irreducible] parseRule
attribute [-simp] text_cons text_nil text_append

/-- After apostrophes and vowels. -/
def qv : List Sound → List Sound
  | .apostrophe _ :: .vowels _ :: s => qv s
  | s => s

/-- After a particle. -/
def cm : List Sound → Option (List Sound)
  | .vowels _ :: s => some (qv s)
  | .consonant _ :: .vowels _ :: s => some (qv s)
  | .glide _ :: .vowels _ :: s => some (qv s)
  | _ => none

theorem some_of {rule : Rule} {s t : List Char} (h : ans (.call rule) s = some t) : ∃ m, Derives grammar (.call rule) s (some (m, t)) := by
  obtain ⟨m, hm⟩ := ans_some.mp h
  exact ⟨m, derives_iff.mpr hm⟩
theorem none_of {rule : Rule} {s : List Char} (h : ans (.call rule) s = none) : Derives grammar (.call rule) s none := derives_iff.mpr (ans_none.mp h)

theorem nuc_V {g : List Char} {s : List Sound} (h : Fi (.vowels g :: s)) : ans (.call .nucleus) (text (.vowels g :: s)) = some (text s) := by
  rw [t_nucleus _ h]; simp [takeS, isVowels]

theorem reps : ∀ (n : Nat) {g : List Char} {s : List Sound}, s.length ≤ n → Fi (.vowels g :: s) →
    ∃ m g', Derives grammar (.rep 0 (.seq (.call .nucleus) (.call .h))) (text (.vowels g :: s)) (some (m, text (.vowels g' :: qv s))) ∧ Fi (.vowels g' :: qv s) := by
  intro n
  induction n with
  | zero =>
    intro g s hn h
    cases s with
    | cons _ _ => simp at hn
    | nil =>
      obtain ⟨m1, k1⟩ := some_of (nuc_V h)
      exact ⟨[], g, .repStop (.seqGo (res := none) k1 (none_of (by rw [t_h _ h.tail]; rfl))), h⟩
  | succ n ih =>
    intro g s hn h
    obtain ⟨m1, k1⟩ := some_of (nuc_V h)
    have stop : ans (.call .h) (text s) = none → qv s = s → ∃ m g', Derives grammar (.rep 0 (.seq (.call .nucleus) (.call .h))) (text (.vowels g :: s)) (some (m, text (.vowels g' :: qv s))) ∧ Fi (.vowels g' :: qv s) := by
      intro hh e
      rw [e]
      exact ⟨[], g, .repStop (.seqGo (res := none) k1 (none_of hh)), h⟩
    have hq : ∀ x t, s = x :: t → isQuote x = false → ans (.call .h) (text s) = none := by
      rintro x t rfl hx
      rw [t_h _ h.tail]; simp [takeS, hx]
    match s, h, hn, stop, hq, k1 with
    | [], h, _, stop, _, _ => exact stop (by rw [t_h _ h.tail]; rfl) rfl
    | .apostrophe q :: .vowels g2 :: s, h, hn, _, _, k1 =>
      obtain ⟨m2, k2⟩ := some_of (show ans (.call .h) (text (.apostrophe q :: .vowels g2 :: s)) = some (text (.vowels g2 :: s)) by
        rw [t_h _ h.tail]; simp [takeS, isQuote])
      obtain ⟨m3, g', k3, hf⟩ := ih (g := g2) (s := s) (by simp at hn; omega) h.tail.tail
      rw [show qv (.apostrophe q :: .vowels g2 :: s) = qv s from rfl]
      exact ⟨_, g', Derives.repStep (n := 0) (.seqGo (res := some (m2, _)) k1 k2) k3, hf⟩
    | .vowels _ :: _, h, _, _, _, _ => exact h.good.2.1.elim
    | .glide _ :: _, _, _, stop, hq, _ => exact stop (hq _ _ rfl rfl) (by simp [qv])
    | .consonant _ :: _, _, _, stop, hq, _ => exact stop (hq _ _ rfl rfl) (by simp [qv])
    | .digit _ :: _, _, _, stop, hq, _ => exact stop (hq _ _ rfl rfl) (by simp [qv])
    | [.apostrophe _], h, _, _, _, _ => exact absurd h.tail.good.2.1.2 (by simp [isQuote])
    | .apostrophe _ :: .glide _ :: _, h, _, _, _, _ => exact h.tail.good.2.1.elim
    | .apostrophe _ :: .apostrophe _ :: _, h, _, _, _, _ => exact h.tail.good.2.1.elim
    | .apostrophe _ :: .consonant _ :: _, h, _, _, _, _ => exact h.tail.good.2.1.elim
    | .apostrophe _ :: .digit _ :: _, h, _, _, _, _ => exact h.tail.good.2.1.elim

theorem cons_C {c : Char} {s : List Sound} (h : Fi (C c :: s)) : ans (.call .consonant) (text (C c :: s)) = some (text s) := by
  rw [t_consonant _ h]; simp [takeS, isCons]
theorem cons_no {x : Sound} {s : List Sound} (h : Fi (x :: s)) (hx : isCons x = false) : ans (.call .consonant) (text (x :: s)) = none := by
  rw [t_consonant _ h]; simp [takeS, hx]

theorem cluster_two {c d : Char} {s : List Sound} (h : Fi (C c :: C d :: s)) : ∃ x, Derives grammar (.call .cluster) (text (C c :: C d :: s)) (some x) := by
  obtain ⟨m1, h1⟩ := ans_some.mp (cons_C h)
  obtain ⟨m2, h2⟩ := ans_some.mp (cons_C h.tail)
  cases hr : parseRule .cluster (text (C c :: C d :: s)) with
  | some x => exact ⟨x, derives_iff.mpr hr⟩
  | none =>
    exfalso
    have hd : Derives grammar (.call .cluster) (text (C c :: C d :: s)) none := derives_iff.mpr hr
    generalize hn : (none : Res) = n at hd
    cases hd with
    | call hd0 =>
      have hd : Derives grammar (.rep 2 (.call .consonant)) (text (C c :: C d :: s)) n := hd0
      generalize text (C c :: C d :: s) = cs at *
      cases hd with
      | repFail k0 => rw [derives_iff.mp k0] at h1; cases h1
      | repStep k1 k2 =>
        have := h1.symm.trans (derives_iff.mp k1)
        cases this
        generalize text (C d :: s) = cs at *
        cases k2 with
        | repFail k0 => rw [derives_iff.mp k0] at h2; cases h2
        | @repStep _ _ _ _ _ res k3 k4 =>
          have k5 := rep0_some k4 rfl
          cases res with
          | none => exact k5 rfl
          | some x => simp [Res.prepend] at hn

theorem cluster_no {x : Sound} {s : List Sound} (h : Fi (x :: s)) (hx : isCons x = false) : Derives grammar (.call .cluster) (text (x :: s)) none :=
  .call (.repFail (n := 1) (none_of (cons_no h hx)))
theorem cluster_one {c : Char} {x : Sound} {s : List Sound} (h : Fi (C c :: x :: s)) (hx : isCons x = false) : Derives grammar (.call .cluster) (text (C c :: x :: s)) none := by
  obtain ⟨m1, h1⟩ := some_of (cons_C h)
  exact .call (.repStep (n := 2) (res := none) h1 (.repFail (n := 0) (none_of (cons_no h.tail hx))))

theorem on_vow {g : List Char} {t : List Sound} : onsetS (.vowels g :: t) = some (.vowels g :: t) := by
  have := on_clust [] g t
  simpa [init_nil] using this
theorem on_CV {c : Char} {g : List Char} {t : List Sound} (hc : IsConsonantLetter c) : onsetS (C c :: .vowels g :: t) = some (.vowels g :: t) := by
  have := on_clust [c] g t
  simpa [init_one hc] using this

/-- The rule for particles. -/
theorem t_form : Takes (.call .cmavo_form) cm := by
  intro s h
  have hd := none_of ((t_digit s h).trans rfl)
  have hy := none_of ((t_y s h).trans rfl)
  have wrap : ∀ res, Derives grammar (.seq (.not (.call .h)) (.seq (.not (.call .cluster)) (.seq (.call .onset)
      (.seq (.rep 0 (.seq (.call .nucleus) (.call .h)))
        (.alt (.seq (.not (.call .stressed)) (.call .nucleus)) (.seq (.call .nucleus) (.not (.call .cluster)))))))) (text s) res →
      ans (.call .cmavo_form) (text s) = res.map Prod.snd := by
    intro res hr
    have h0 : Derives grammar (grammar .cmavo_form) (text s) res := Derives.longest (ra := none) hd (.longest (ra := none) (.repFail (n := 0) hy) hr)
    exact ans_sound (Derives.call h0)
  have go : ∀ (g : List Char) (t : List Sound), Fi (.vowels g :: t) → ans (.call .h) (text s) = none → Derives grammar (.call .cluster) (text s) none →
      ans (.call .onset) (text s) = some (text (.vowels g :: t)) → ans (.call .cmavo_form) (text s) = some (text (qv t)) := by
    intro g t hf h1 h2 h3
    obtain ⟨m1, k1⟩ := some_of h3
    obtain ⟨m2, g', k2, hf2⟩ := reps _ (Nat.le_refl _) hf
    obtain ⟨m3, k3⟩ := some_of (nuc_V hf2)
    refine wrap (some (_, _)) (.seqGo (res := some (_, _)) (.notYes (none_of h1)) (.seqGo (res := some (_, _)) (.notYes h2) (.seqGo (res := some (_, _)) k1 (.seqGo (res := some (_, _)) k2
      (.altL (.seqGo (res := some (_, _)) (.notYes (none_of ((t_stressed _ hf2).trans rfl))) k3))))))
  match s, h, wrap, go with
  | [], h, wrap, _ =>
    have c0 : Derives grammar (.call .cluster) (text []) none := .call (.repFail (n := 1) (none_of (by rw [t_consonant _ h]; rfl)))
    obtain ⟨m1, k1⟩ := some_of (show ans (.call .onset) (text []) = some (text []) by rw [t_onset _ h, on_nil]; rfl)
    have n0 := none_of (show ans (.call .nucleus) (text []) = none by rw [t_nucleus _ h]; rfl)
    refine wrap none (.seqGo (res := none) (.notYes (none_of (by rw [t_h _ h]; rfl))) (.seqGo (res := none) (.notYes c0) (.seqGo (res := none) k1 (.seqGo (m := []) (rest := text []) (res := none) (.repStop (.seqFail n0)) ?_))))
    exact .altR (.seqGo (res := none) (.notYes (none_of ((t_stressed _ h).trans rfl))) n0) (.seqFail n0)
  | .vowels g :: t, h, _, go =>
    exact go _ _ h (by rw [t_h _ h]; rfl) (cluster_no h rfl) (by rw [t_onset _ h, on_vow]; rfl)
  | .consonant c :: .vowels g :: t, h, _, go =>
    exact go _ _ h.tail (by rw [t_h _ h]; rfl) (cluster_one h rfl) (by rw [t_onset _ h, on_CV h.good.1]; rfl)
  | .glide c :: .vowels g :: t, h, _, go =>
    exact go _ _ h.tail (by rw [t_h _ h]; rfl) (cluster_no h rfl) (by rw [t_onset _ h, on_G]; rfl)
  | .apostrophe q :: t, h, wrap, _ =>
    obtain ⟨m1, k1⟩ := some_of (show ans (.call .h) (text (.apostrophe q :: t)) = some (text t) by rw [t_h _ h]; simp [takeS, isQuote])
    exact wrap none (.seqFail (.notNo k1))
  | .consonant c :: .consonant d :: t, h, wrap, _ =>
    obtain ⟨x, hx⟩ := cluster_two h
    exact wrap none (.seqGo (res := none) (.notYes (none_of (by rw [t_h _ h]; rfl))) (.seqFail (.notNo hx)))
  | .digit c :: t, h, _, _ => exact (h.small (.digit c) (by simp)).elim
  | [.glide c], h, _, _ => exact absurd h.good.2.1.1 (by simp [isGlide])
  | .glide _ :: .glide _ :: _, h, _, _ => exact h.good.2.1.elim
  | .glide _ :: .apostrophe _ :: _, h, _, _ => exact h.good.2.1.elim
  | .glide _ :: .consonant _ :: _, h, _, _ => exact h.good.2.1.elim
  | .glide _ :: .digit _ :: _, h, _, _ => exact h.good.2.1.elim
  | .consonant _ :: .glide _ :: _, h, _, _ => exact h.good.2.1.elim
  | .consonant _ :: .apostrophe _ :: _, h, _, _ => exact h.good.2.1.elim
  | .consonant _ :: .digit d :: _, h, _, _ => exact (h.small (.digit d) (by simp)).elim
  | [.consonant _], h, _, _ =>
    rcases h.ends with e | ⟨a, g, e⟩
    · cases e
    · cases a <;> simp at e

theorem qv_cut : ∀ s : List Sound, ∃ a, s = a ++ qv s
  | .apostrophe q :: .vowels g :: s => by
    obtain ⟨a, e⟩ := qv_cut s
    exact ⟨.apostrophe q :: .vowels g :: a, by rw [qv, List.cons_append, List.cons_append, ← e]⟩
  | [] => ⟨[], rfl⟩
  | .vowels _ :: _ => ⟨[], by simp [qv]⟩
  | .glide _ :: _ => ⟨[], by simp [qv]⟩
  | .consonant _ :: _ => ⟨[], by simp [qv]⟩
  | .digit _ :: _ => ⟨[], by simp [qv]⟩
  | [.apostrophe _] => ⟨[], by simp [qv]⟩
  | .apostrophe _ :: .glide _ :: _ => ⟨[], by simp [qv]⟩
  | .apostrophe _ :: .apostrophe _ :: _ => ⟨[], by simp [qv]⟩
  | .apostrophe _ :: .consonant _ :: _ => ⟨[], by simp [qv]⟩
  | .apostrophe _ :: .digit _ :: _ => ⟨[], by simp [qv]⟩

end Sneturfahi.Fu
