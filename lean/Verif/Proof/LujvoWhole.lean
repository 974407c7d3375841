import Verif.Proof.LujvoTail

/-!
# Words made of rafsi are matched whole
-/

namespace Sneturfahi.Lj

set_option linter.constructorNameAsVariable false
set_option linter.unusedSimpArgs false

open Derives Spec Names Props

attribute [local irreducible] parseRule
attribute [-simp] text_cons text_nil text_append

/-- A hyphen: r, or n before r. -/
def Hyp (h : Char) (T : List Sound) : Prop := h ∈ c!"rR" ∨ (h ∈ c!"nN" ∧ ∃ r t, T = C r :: t ∧ r ∈ c!"rR")

/-- A rafsi that is not the last. -/
inductive Aff : List Sound → List Sound → Prop
  | cvc {c v d T} : v ∈ c!"aeiou" → Aff [C c, V v, C d] T
  | ccv {c d v T} : [lower c, lower d] ∈ initialPairs → v ∈ c!"aeiou" → Aff [C c, C d, V v] T
  | cvv {c v w h T} : [v, w] ∈ diphs → Hyp h T → Aff [C c, D v w, C h] T
  | cvhv {c v q w h T} : v ∈ c!"aeiou" → w ∈ c!"aeiou" → Hyp h T → Aff [C c, V v, Q q, V w, C h] T
  | cvcy {c v d T} : v ∈ c!"aeiou" → Aff [C c, V v, C d, Y] T
  | cvccy {c v d e T} : v ∈ c!"aeiou" → Aff [C c, V v, C d, C e, Y] T
  | ccvcy {c d v e T} : [lower c, lower d] ∈ initialPairs → v ∈ c!"aeiou" → Aff [C c, C d, V v, C e, Y] T

/-- A rafsi in a vowel before a short one at the end. -/
inductive Bare : List Sound → Prop
  | cvv {c v w} : [v, w] ∈ diphs → Bare [C c, D v w]
  | cvhv {c v q w} : v ∈ c!"aeiou" → w ∈ c!"aeiou" → Bare [C c, V v, Q q, V w]

inductive Tail : List Sound → Prop
  | gis1 {c v d e w} : v ∈ c!"aeiou" → w ∈ c!"aeiou" → Tail [C c, V v, C d, C e, V w]
  | gis2 {c d v e w} : [lower c, lower d] ∈ initialPairs → v ∈ c!"aeiou" → w ∈ c!"aeiou" → Tail [C c, C d, V v, C e, V w]
  | cvhv {c v q w} : v ∈ c!"aeiou" → w ∈ c!"aeiou" → Tail [C c, V v, Q q, V w]
  | short {a S} : Aff a S → Short S → Tail (a ++ S)
  | bare {a S} : Bare a → Short S → Tail (a ++ S)

/-- Rafsi and an ending. -/
inductive Str : List Sound → Prop
  | tail {T} : Tail T → Str T
  | more {a T} : Aff a T → Str T → Str (a ++ T)

theorem vowel_five {v : Char} (h : v ∈ c!"aeiou") : noVowel v = false := by
  have : ∀ v ∈ c!"aeiou", noVowel v = false := by decide
  exact this v h
theorem vowel_diph {v w : Char} (h : [v, w] ∈ diphs) : noVowel v = false := by
  have : ∀ g ∈ diphs, ∀ v ∈ g.head?, noVowel v = false := by decide
  exact this _ h v rfl

theorem aff_hasV {a T : List Sound} (h : Aff a T) : HasV (text a) := by
  cases h with
  | @cvc c v d _ hv => exact ⟨v, by simp [text, Sound.letters], vowel_five hv⟩
  | @ccv c d v _ _ hv => exact ⟨v, by simp [text, Sound.letters], vowel_five hv⟩
  | @cvv c v w h _ hv => exact ⟨v, by simp [text, Sound.letters], vowel_diph hv⟩
  | @cvhv c v q w h _ hv => exact ⟨v, by simp [text, Sound.letters], vowel_five hv⟩
  | @cvcy c v d _ hv => exact ⟨v, by simp [text, Sound.letters], vowel_five hv⟩
  | @cvccy c v d e _ hv => exact ⟨v, by simp [text, Sound.letters], vowel_five hv⟩
  | @ccvcy c d v e _ _ hv => exact ⟨v, by simp [text, Sound.letters], vowel_five hv⟩

theorem bare_hasV {a : List Sound} (h : Bare a) : HasV (text a) := by
  cases h with
  | @cvv c v w hv => exact ⟨v, by simp [text, Sound.letters], vowel_diph hv⟩
  | @cvhv c v q w hv => exact ⟨v, by simp [text, Sound.letters], vowel_five hv⟩

/-- A consonant and then something with a vowel. -/
theorem short_split {S : List Sound} (h : Short S) (g : Ok S) : ∃ c t, text S = c :: t ∧ c ∈ stops ∧ HasV t := by
  cases h with
  | @cvv c v w hv => exact ⟨c, [v, w], rfl, List.mem_append_left _ g.good.1, v, by simp, vowel_diph hv⟩
  | @ccv c d v _ hv => exact ⟨c, [d, v], rfl, List.mem_append_left _ g.good.1, v, by simp, vowel_five hv⟩

theorem tail_apart {T : List Sound} (h : Tail T) (g : Ok T) : Apart (text T) := by
  cases h with
  | @gis1 c v d e w hv hw =>
    exact apart_of (a := [c, v]) (x := d) (b := [e, w]) ⟨v, by simp, vowel_five hv⟩ (List.mem_append_left _ g.tail.tail.good.1) ⟨w, by simp, vowel_five hw⟩
  | @gis2 c d v e w _ hv hw =>
    exact apart_of (a := [c, d, v]) (x := e) (b := [w]) ⟨v, by simp, vowel_five hv⟩ (List.mem_append_left _ g.tail.tail.tail.good.1) ⟨w, by simp, vowel_five hw⟩
  | @cvhv c v q w hv hw =>
    exact apart_of (a := [c, v]) (x := q) (b := [w]) ⟨v, by simp, vowel_five hv⟩ (List.mem_append_right _ g.tail.tail.good.1) ⟨w, by simp, vowel_five hw⟩
  | @short a S ha hS =>
    obtain ⟨c, t, e, hc, ht⟩ := short_split hS g.suffix
    rw [text_append, e]
    exact apart_of (aff_hasV ha) hc ht
  | @bare a S ha hS =>
    obtain ⟨c, t, e, hc, ht⟩ := short_split hS g.suffix
    rw [text_append, e]
    exact apart_of (bare_hasV ha) hc ht

theorem str_apart {T : List Sound} (h : Str T) (g : Ok T) : Apart (text T) := by
  induction h with
  | tail h => exact tail_apart h g
  | @more a T _ _ ih => rw [text_append]; exact (ih g.suffix).before _

/-- A consonant, and no y right after it. -/
def Begins (T : List Sound) : Prop := ∃ e x t, T = C e :: x :: t ∧ ans (.call .y) (text (x :: t)) = none

theorem aff_begins {a T : List Sound} (h : Aff a T) (g : Ok (a ++ T)) : Begins (a ++ T) := by
  cases h with
  | cvc hv => exact ⟨_, _, _, rfl, y_V hv⟩
  | ccv _ hv => exact ⟨_, _, _, rfl, y_C g.tail⟩
  | cvv hv => exact ⟨_, _, _, rfl, y_D hv⟩
  | cvhv hv => exact ⟨_, _, _, rfl, y_V hv⟩
  | cvcy hv => exact ⟨_, _, _, rfl, y_V hv⟩
  | cvccy hv => exact ⟨_, _, _, rfl, y_V hv⟩
  | ccvcy _ hv => exact ⟨_, _, _, rfl, y_C g.tail⟩

theorem tail_begins {T : List Sound} (h : Tail T) (g : Ok T) : Begins T := by
  cases h with
  | gis1 hv => exact ⟨_, _, _, rfl, y_V hv⟩
  | gis2 _ _ => exact ⟨_, _, _, rfl, y_C g.tail⟩
  | cvhv hv => exact ⟨_, _, _, rfl, y_V hv⟩
  | short ha hS => exact aff_begins ha g
  | bare ha hS =>
    cases ha with
    | cvv hv => exact ⟨_, _, _, rfl, y_D hv⟩
    | cvhv hv => exact ⟨_, _, _, rfl, y_V hv⟩

theorem str_begins {T : List Sound} (h : Str T) (g : Ok T) : Begins T := by
  cases h with
  | tail h => exact tail_begins h g
  | more ha _ => exact aff_begins ha g

theorem tail_facts {T : List Sound} (h : Tail T) (g : Ok T) : TailFacts T := by
  cases h with
  | gis1 _ hw => exact gis1_tail g hw
  | gis2 hp _ hw => exact gis2_tail g hp hw
  | cvhv _ hw => exact cvhv_tail g hw
  | @short a S ha hS =>
    cases ha with
    | cvc _ => exact cvc_tail hS g
    | ccv hp _ => exact ccv_tail hS g hp
    | cvv hv hh => exact cvvr_tail hS g hv hh
    | @cvhv c v q w h _ hv hw hh =>
      refine cvhvr_tail hS g ?_ hh
      obtain ⟨c, t, e, hc, ht⟩ := short_split hS (g.suffix (a := [C _, V _, Q _, V _, C _]))
      have : text (Q q :: V w :: C h :: S) = [q, w, h] ++ c :: t := by rw [← e]; rfl
      show ans _ (text (Q q :: V w :: C h :: S)) = none
      rw [this]
      exact stress_none (apart_of ⟨w, by simp, vowel_five hw⟩ hc ht)
    | cvcy _ => exact cvcy_tail hS g
    | cvccy _ => exact cvccy_tail hS g
    | ccvcy hp _ => exact ccvcy_tail hS g hp
  | @bare a S ha hS =>
    cases ha with
    | cvv hv => exact cvv_tail hS g hv
    | @cvhv c v q w hv hw =>
      refine cvhv_short_tail hS g ?_
      obtain ⟨c, t, e, hc, ht⟩ := short_split hS (g.suffix (a := [C _, V _, Q _, V _]))
      have : text (Q q :: V w :: S) = [q, w] ++ c :: t := by rw [← e]; rfl
      show ans _ (text (Q q :: V w :: S)) = none
      rw [this]
      exact stress_none (apart_of ⟨w, by simp, vowel_five hw⟩ hc ht)

/-- A rafsi before others is taken, by the rule for rafsi with y or by the one for those without. -/
theorem aff_go {a T : List Sound} (h : Aff a T) (g : Ok (a ++ T)) (hb : Begins T) (ha : Apart (text T)) :
    (ans (.call .y_less_rafsi) (text (a ++ T)) = some (text T) ∧ ans (.call .y_rafsi) (text (a ++ T)) = none) ∨
    ans (.call .y_rafsi) (text (a ++ T)) = some (text T) := by
  obtain ⟨e, x, t, rfl, hy⟩ := hb
  have hs : ∀ u, ans (.call .stress) (u ++ text (C e :: x :: t)) = none := fun u => stress_none (ha.before u)
  have hyp : ∀ {h : Char}, Hyp h (C e :: x :: t) → h ∈ c!"rR" ∨ (h ∈ c!"nN" ∧ e ∈ c!"rR") := by
    rintro h (h1 | ⟨h1, r, t', e', hr⟩)
    · exact .inl h1
    · cases e'; exact .inr ⟨h1, hr⟩
  cases h with
  | cvc _ => exact .inl (cvc_go g hy hs)
  | ccv hp _ => exact .inl (ccv_go g hp hy hs)
  | cvv hv hh => exact .inl (cvv_go g hv (hyp hh) hs)
  | cvhv _ _ hh => exact .inl (cvhv_go g (hyp hh) hs)
  | cvcy _ => exact .inr (cvcy_go g hs)
  | cvccy _ => exact .inr (cvccy_go g hs)
  | ccvcy hp _ => exact .inr (ccvcy_go g hp hs)

theorem rafsi_string_eq (cs : List Char) : ans (.call .rafsi_string) cs = (ans (.rep 0 (.call .y_less_rafsi)) cs).bind (ans RS) := by
  rw [ans_body]; simp only [grammar, ans_seq, RS]

theorem y_less_blocked {cs : List Char} (h : (ans (.call .y_rafsi) cs).isSome) : ans (.call .y_less_rafsi) cs = none := by
  rw [ans_body]; simp [grammar, ans_guardNot, h]

theorem str_rafsi {T : List Sound} (h : Str T) (g : Ok T) : (ans (.call .rafsi_string) (text T)).isSome := by
  induction h with
  | tail h =>
    have f := tail_facts h g
    rw [rafsi_string_eq, ans_rep_stop f.less]
    exact f.rs
  | @more a T ha hT ih =>
    have gT := g.suffix
    have ih := ih gT
    rcases aff_go ha g (str_begins hT gT) (str_apart hT gT) with ⟨h1, _⟩ | h1
    · rw [rafsi_string_eq] at ih ⊢
      cases hr : ans (.rep 0 (.call .y_less_rafsi)) (text T) with
      | none => rw [hr] at ih; cases ih
      | some u => rw [hr] at ih; rw [ans_rep_go h1 hr]; exact ih
    · rw [rafsi_string_eq, ans_rep_stop (y_less_blocked (by rw [h1]; rfl))]
      simp [RS, ans_alt, h1]

/-- No extended rafsi and no fu'ivla begins where rafsi do. -/
theorem no_extended {T : List Sound} (h : (ans (.call .rafsi_string) (text T)).isSome) (g : Ok T) : ans (.call .fuhivla) (text T) = none ∧
    ans (.call .extended_rafsi) (text T) = none ∧ ans (.call .stressed_extended_rafsi) (text T) = none ∧
    ans (.call .any_extended_rafsi) (text T) = none := by
  have h0 : ans (.call .fuhivla_head) (text T) = none := by rw [ans_body]; simp [grammar, ans_guardNot, h]
  have h1 : ans (.call .fuhivla) (text T) = none := by rw [ans_body]; simp [grammar, ans_seq, h0]
  have h2 : ans (.call .fuhivla_rafsi) (text T) = none := by
    rw [ans_body]
    simp only [grammar, ans_seq, ans_peek]
    split <;> simp [ans_seq, h0]
  have h3 : ans (.call .stressed_fuhivla_rafsi) (text T) = none := by rw [ans_body]; simp [grammar, ans_seq, h0]
  have h4 : ans (.call .extended_rafsi) (text T) = none := by rw [ans_body]; simp [grammar, ans_alt, h2, hy3 g]
  have h5 : ans (.call .stressed_extended_rafsi) (text T) = none := by rw [ans_body]; simp [grammar, ans_alt, h3, hy4 g]
  refine ⟨h1, h4, h5, ?_⟩
  rw [ans_body]; simp [grammar, ans_alt, h1, h4, h5]

theorem initial_go {a T : List Sound} (h : Aff a T) (hT : Str T) (g : Ok (a ++ T)) : ans (.call .initial_rafsi) (text (a ++ T)) = some (text T) := by
  have gT := g.suffix
  obtain ⟨e1, e2, e3, e4⟩ := no_extended (str_rafsi (.more h hT) g) g
  obtain ⟨f1, f2, f3, f4⟩ := no_extended (str_rafsi hT gT) gT
  rw [ans_body]
  rcases aff_go h g (str_begins hT gT) (str_apart hT gT) with ⟨h1, h2⟩ | h1
  · simp [grammar, ans_alt, ans_seq, ans_not, e2, h2, e4, h1, f4]
  · simp [grammar, ans_alt, e2, h1]

theorem initial_stop {T : List Sound} (h : Tail T) (g : Ok T) : ans (.call .initial_rafsi) (text T) = none := by
  obtain ⟨e1, e2, e3, e4⟩ := no_extended (str_rafsi (.tail h) g) g
  have f := tail_facts h g
  rw [ans_body]
  simp [grammar, ans_alt, ans_seq, ans_not, e2, f.yr, e4, f.less]

theorem core_go {T : List Sound} (h : Tail T) (g : Ok T) : ans (.call .brivla_core) (text T) = some (text []) := by
  obtain ⟨e1, e2, e3, e4⟩ := no_extended (str_rafsi (.tail h) g) g
  have f := (tail_facts h g).core
  have e5 : ans (.call .stressed_initial_rafsi) (text T) = ans (.alt (.call .stressed_y_rafsi) (.call .stressed_y_less_rafsi)) (text T) := by
    rw [ans_body]; simp [grammar, ans_alt, e3]
  rw [ans_body]
  simp only [grammar, ans_alt, ans_seq, e1, e5, Option.none_or]
  simpa only [Core, ans_alt, ans_seq] using f

theorem lujvo_go {T : List Sound} (h : Str T) (g : Ok T) : ans (.seq (.rep 0 (.call .initial_rafsi)) (.call .brivla_core)) (text T) = some [] := by
  rw [ans_seq]
  induction h with
  | tail h => rw [ans_rep_stop (initial_stop h g)]; exact core_go h g
  | @more a T ha hT ih =>
    have gT := g.suffix
    have ih := ih gT
    cases hr : ans (.rep 0 (.call .initial_rafsi)) (text T) with
    | none => rw [hr] at ih; cases ih
    | some u => rw [hr] at ih; rw [ans_rep_go (initial_go ha hT g) hr]; exact ih

/-- A word made of rafsi is matched whole. -/
theorem str_lujvo {T : List Sound} (h : Str T) (g : Ok T) : parseRule .lujvo_minimal (text T) = some (text T, []) ∧
    parseRule .fuhivla (text T) = none := by
  have hl := lujvo_go h g
  have hl : ans (.call .lujvo_minimal) (text T) = some [] := by rw [ans_body]; exact hl
  obtain ⟨m, hm⟩ := ans_some.mp hl
  have := parseRule_append hm
  rw [List.append_nil] at this
  subst this
  exact ⟨hm, ans_none.mp (no_extended (str_rafsi h g) g).1⟩

end Sneturfahi.Lj
