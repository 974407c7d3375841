import Verif.Proof.Rafsi

/-!
# Words made of rafsi
-/

namespace Sneturfahi.Lj

set_option linter.constructorNameAsVariable false
set_option linter.unusedSimpArgs false

open Derives Spec Names Props

attribute [local irreducible] parseRule
attribute [-simp] text_cons text_nil text_append

theorem st_none {s : List Sound} (h : Ok s) : ans (.call .stressed) (text s) = none := capx h rfl
theorem esv_none {s : List Sound} (h : Ok s) : ans (.call .explicitly_stressed_vowel) (text s) = none := capx h rfl
theorem hy1 {s : List Sound} (h : Ok s) : ans (.call .hy_rafsi) (text s) = none := hyx h rfl
theorem hy2 {s : List Sound} (h : Ok s) : ans (.call .stressed_hy_rafsi) (text s) = none := hyx h rfl
theorem hy3 {s : List Sound} (h : Ok s) : ans (.call .brivla_rafsi) (text s) = none := hyx h rfl
theorem hy4 {s : List Sound} (h : Ok s) : ans (.call .stressed_brivla_rafsi) (text s) = none := hyx h rfl

theorem Apart.before (u : List Char) {cs : List Char} (h : Apart cs) : Apart (u ++ cs) := by
  obtain ⟨a, v, b, x, c, w, d, rfl, h⟩ := h
  exact ⟨u ++ a, v, b, x, c, w, d, by simp, h⟩

/-- There is a vowel. -/
def HasV (cs : List Char) : Prop := ∃ c ∈ cs, noVowel c = false

theorem apart_of {a b : List Char} {x : Char} (ha : HasV a) (hx : x ∈ stops) (hb : HasV b) : Apart (a ++ x :: b) := by
  obtain ⟨v, hv, hv'⟩ := ha
  obtain ⟨w, hw, hw'⟩ := hb
  obtain ⟨a1, a2, rfl⟩ := List.append_of_mem hv
  obtain ⟨b1, b2, rfl⟩ := List.append_of_mem hw
  have : ∀ x ∈ stops, aVowel x = false := by decide
  exact ⟨a1, v, a2, x, b1, w, b2, by simp, hv', this x hx, hw'⟩

macro "ev" "[" hs:Lean.Parser.Tactic.simpLemma,* "]" : tactic => `(tactic| simp [ans_seq, ans_alt, ans_not, ans_peek, ans_null, ans_eof, ans_andNot, ans_andPeek, ans_guardNot,
  cons_C, cons_V, cons_Q, cons_nil, nuc_C, nuc_V, nuc_Q, nuc_nil, h_C, h_V, h_Q, h_nil, y_C, y_Q, y_nil, y_Y, y_V, y_D, vow_V, vow_D, vow_C, vow_Q, vow_nil,
  diph_V, diph_D, diph_C, diph_Q, diph_nil, on_V, on_CV, on_CCV, ip_CCV, ip_CV, ip_V, cmevla_nil, post_nil, st_none, esv_none, hy1, hy2,
  ans_body .cvc_rafsi, ans_body .ccv_rafsi, ans_body .unstressed_vowel, ans_body .unstressed_diphthong, ans_body .cvv_rafsi,
  ans_body .y_less_rafsi, ans_body .cvv_final_rafsi, ans_body .stressed_vowel, ans_body .final_syllable, ans_body .gismu,
  ans_body .stressed_cvc_rafsi, ans_body .stressed_ccv_rafsi, ans_body .stressed_diphthong, ans_body .stressed_cvv_rafsi, ans_body .stressed_y_less_rafsi,
  ans_body .long_rafsi, ans_body .y_rafsi, ans_body .stressed_long_rafsi, ans_body .stressed_y_rafsi, grammar, $hs,*])

/-! ### Hyphens -/

section
variable {s : List Sound} {c d e h v w q z : Char}

theorem letter_V {L : Rule} {g : List Char} (hL : L ∈ letterRules) (h : Ok (.vowels g :: s)) : ans (.call L) (text (.vowels g :: s)) = none := by
  rw [ans_out ((reads h.good).letter L hL)]; rfl

theorem hyph_yes (g0 : Ok (C h :: C e :: s)) (hh : h ∈ c!"rR" ∨ (h ∈ c!"nN" ∧ e ∈ c!"rR")) :
    ans (.call .r_hyphen) (text (C h :: C e :: s)) = some (text (C e :: s)) := by
  have g1 := g0.tail
  have hr : letterChars .r = c!"rR" := rfl
  have hn : letterChars .n = c!"nN" := rfl
  rw [ans_body]
  simp only [grammar, ans_alt, ans_seq, ans_peek, letter_C (L := .r) (by decide) g0, letter_C (L := .n) (by decide) g0, hr, hn]
  rcases hh with hh | ⟨hh, he⟩
  · rw [List.contains_iff_mem.mpr hh]
    simp [ans_peek, cons_C g1]
  · have h1 : c!"rR".contains h = false := by
      have : ∀ h ∈ c!"nN", c!"rR".contains h = false := by decide
      exact this h hh
    rw [h1, List.contains_iff_mem.mpr hh]
    have h2 := letter_C (L := .r) (by decide) g1
    rw [hr, List.contains_iff_mem.mpr he] at h2
    simp [ans_peek, h2]

theorem hyph_CV {g : List Char} (g0 : Ok (C h :: .vowels g :: s)) : ans (.call .r_hyphen) (text (C h :: .vowels g :: s)) = none := by
  have g1 := g0.tail
  rw [ans_body]
  simp only [grammar, ans_alt, ans_seq, ans_peek, letter_C (L := .r) (by decide) g0, letter_C (L := .n) (by decide) g0]
  split <;> split <;> simp [ans_peek, cons_V g1, letter_V (L := .r) (by decide) g1]

theorem hyph_CCV (g0 : Ok (C c :: C d :: s)) (hp : [lower c, lower d] ∈ initialPairs) : ans (.call .r_hyphen) (text (C c :: C d :: s)) = none := by
  have key : ∀ c ∈ allConsonants, ∀ d ∈ allConsonants, [lower c, lower d] ∈ initialPairs → (letterChars .r).contains c = false ∧ (letterChars .n).contains c = false := by
    decide +kernel
  obtain ⟨k1, k2⟩ := key c g0.good.1 d g0.tail.good.1 hp
  rw [ans_body]
  simp only [grammar, ans_alt, ans_seq, ans_peek, letter_C (L := .r) (by decide) g0, letter_C (L := .n) (by decide) g0, k1, k2]
  simp

/-! ### One rafsi, not the last but one -/

section
variable {x : Sound} {t : List Sound}

theorem cvc_go (g0 : Ok (C c :: V v :: C d :: C e :: x :: t)) (hy : ans (.call .y) (text (x :: t)) = none)
    (hs : ∀ u, ans (.call .stress) (u ++ text (C e :: x :: t)) = none) :
    ans (.call .y_less_rafsi) (text (C c :: V v :: C d :: C e :: x :: t)) = some (text (C e :: x :: t)) ∧
    ans (.call .y_rafsi) (text (C c :: V v :: C d :: C e :: x :: t)) = none := by
  have g1 := g0.tail
  have g2 := g1.tail
  have g3 := g2.tail
  have s1 : ans (.call .stress) (text (C d :: C e :: x :: t)) = none := hs [d]
  constructor <;> ev [g0, g1, g2, g3, s1, hy]

theorem ccv_go (g0 : Ok (C c :: C d :: V v :: C e :: x :: t)) (hp : [lower c, lower d] ∈ initialPairs) (hy : ans (.call .y) (text (x :: t)) = none)
    (hs : ∀ u, ans (.call .stress) (u ++ text (C e :: x :: t)) = none) :
    ans (.call .y_less_rafsi) (text (C c :: C d :: V v :: C e :: x :: t)) = some (text (C e :: x :: t)) ∧
    ans (.call .y_rafsi) (text (C c :: C d :: V v :: C e :: x :: t)) = none := by
  have g1 := g0.tail
  have g2 := g1.tail
  have g3 := g2.tail
  have s1 : ans (.call .stress) (text (C e :: x :: t)) = none := hs []
  constructor <;> ev [g0, g1, g2, g3, s1, hy, hp]

theorem cvv_go (g0 : Ok (C c :: D v w :: C h :: C e :: x :: t)) (hv : [v, w] ∈ [c!"ai", c!"au", c!"ei", c!"oi"])
    (hh : h ∈ c!"rR" ∨ (h ∈ c!"nN" ∧ e ∈ c!"rR"))
    (hs : ∀ u, ans (.call .stress) (u ++ text (C e :: x :: t)) = none) :
    ans (.call .y_less_rafsi) (text (C c :: D v w :: C h :: C e :: x :: t)) = some (text (C e :: x :: t)) ∧
    ans (.call .y_rafsi) (text (C c :: D v w :: C h :: C e :: x :: t)) = none := by
  have g1 := g0.tail
  have g2 := g1.tail
  have g3 := g2.tail
  have s1 : ans (.call .stress) (text (C h :: C e :: x :: t)) = none := hs [h]
  have k := hyph_yes g2 hh
  have dd := diph_D g1 hv
  constructor <;> ev [g0, g1, g2, g3, s1, k, dd]

theorem cvhv_go (g0 : Ok (C c :: V v :: Q q :: V w :: C h :: C e :: x :: t))
    (hh : h ∈ c!"rR" ∨ (h ∈ c!"nN" ∧ e ∈ c!"rR"))
    (hs : ∀ u, ans (.call .stress) (u ++ text (C e :: x :: t)) = none) :
    ans (.call .y_less_rafsi) (text (C c :: V v :: Q q :: V w :: C h :: C e :: x :: t)) = some (text (C e :: x :: t)) ∧
    ans (.call .y_rafsi) (text (C c :: V v :: Q q :: V w :: C h :: C e :: x :: t)) = none := by
  have g1 := g0.tail
  have g2 := g1.tail
  have g3 := g2.tail
  have g4 := g3.tail
  have g5 := g4.tail
  have s1 : ans (.call .stress) (text (C h :: C e :: x :: t)) = none := hs [h]
  have s2 : ans (.call .stress) (text (Q q :: V w :: C h :: C e :: x :: t)) = none := hs [q, w, h]
  have k := hyph_yes g4 hh
  constructor <;> ev [g0, g1, g2, g3, g4, g5, s1, s2, k]

theorem cvcy_go (g0 : Ok (C c :: V v :: C d :: Y :: C e :: x :: t))
    (hs : ∀ u, ans (.call .stress) (u ++ text (C e :: x :: t)) = none) :
    ans (.call .y_rafsi) (text (C c :: V v :: C d :: Y :: C e :: x :: t)) = some (text (C e :: x :: t)) := by
  have g1 := g0.tail
  have g2 := g1.tail
  have g3 := g2.tail
  have g4 := g3.tail
  have s1 : ans (.call .stress) (text (C d :: Y :: C e :: x :: t)) = none := hs [d, 'y']
  ev [g0, g1, g2, g3, g4, s1]

theorem cvccy_go (g0 : Ok (C c :: V v :: C d :: C z :: Y :: C e :: x :: t))
    (hs : ∀ u, ans (.call .stress) (u ++ text (C e :: x :: t)) = none) :
    ans (.call .y_rafsi) (text (C c :: V v :: C d :: C z :: Y :: C e :: x :: t)) = some (text (C e :: x :: t)) := by
  have g1 := g0.tail
  have g2 := g1.tail
  have g3 := g2.tail
  have g4 := g3.tail
  have g5 := g4.tail
  have s1 : ans (.call .stress) (text (C d :: C z :: Y :: C e :: x :: t)) = none := hs [d, z, 'y']
  ev [g0, g1, g2, g3, g4, g5, s1]

theorem ccvcy_go (g0 : Ok (C c :: C d :: V v :: C z :: Y :: C e :: x :: t)) (hp : [lower c, lower d] ∈ initialPairs)
    (hs : ∀ u, ans (.call .stress) (u ++ text (C e :: x :: t)) = none) :
    ans (.call .y_rafsi) (text (C c :: C d :: V v :: C z :: Y :: C e :: x :: t)) = some (text (C e :: x :: t)) := by
  have g1 := g0.tail
  have g2 := g1.tail
  have g3 := g2.tail
  have g4 := g3.tail
  have g5 := g4.tail
  have s1 : ans (.call .stress) (text (C z :: Y :: C e :: x :: t)) = none := hs [z, 'y']
  ev [g0, g1, g2, g3, g4, g5, s1, hp]
end

/-! ### The stress falls before the last syllable -/

theorem coda_nil : ans (.call .coda) (text []) = some (text []) := ans_some.mpr ⟨[], by decide +kernel⟩

theorem stress_eq (cs : List Char) : ans (.call .stress) cs = (ans (.rep 0 (.call .consonant)) cs).bind
    (ans (.seq (.opt (.call .h)) (.seq (.opt (.call .y)) (.seq (.call .syllable) .eof)))) := by
  rw [ans_body]; simp only [grammar, ans_seq]

theorem sC (g0 : Ok (C c :: s)) (hs : ans (.call .stress) (text s) = some []) : ans (.call .stress) (text (C c :: s)) = some [] := by
  rw [stress_eq] at hs ⊢
  cases hr : ans (.rep 0 (.call .consonant)) (text s) with
  | none => rw [hr] at hs; cases hs
  | some u => rw [rep_C g0 hr]; rw [hr] at hs; exact hs

theorem sV {g : List Char} (g0 : Ok [.vowels g]) (hy : ans (.call .y) (text [.vowels g]) = none) : ans (.call .stress) (text [.vowels g]) = some [] := by
  rw [stress_eq, rep_V g0]
  ev [g0, hy, ans_body .syllable, coda_nil]
  rfl

theorem sQ (g0 : Ok [Q q, V v]) (hy : v ∈ c!"aeiou") : ans (.call .stress) (text [Q q, V v]) = some [] := by
  have g1 := g0.tail
  have y1 := y_V (s := []) hy
  rw [stress_eq, rep_Q g0]
  ev [g0, g1, y1, ans_body .syllable, coda_nil]
  rfl

theorem sY {g : List Char} (g0 : Ok (Y :: s)) (hs : ans (.call .onset) (text s) = some (text [.vowels g])) (g1 : Ok [.vowels g])
    (hy : ans (.call .y) (text [.vowels g]) = none) : ans (.call .stress) (text (Y :: s)) = some [] := by
  rw [stress_eq, rep_V g0]
  ev [g0, hs, g1, hy, ans_body .syllable, coda_nil]
  rfl
end

end Sneturfahi.Lj
