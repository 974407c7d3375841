import Verif.Proof.Lujvo

/-!
# How words made of rafsi end
-/

namespace Sneturfahi.Lj

set_option linter.constructorNameAsVariable false
set_option linter.unusedSimpArgs false

open Derives Spec Names Props

attribute [local irreducible] parseRule
attribute [-simp] text_cons text_nil text_append

def diphs : List (List Char) := [c!"ai", c!"au", c!"ei", c!"oi"]

/-- The short rafsi a word may end with. -/
inductive Short : List Sound → Prop
  | cvv {c v w : Char} : [v, w] ∈ diphs → Short [C c, D v w]
  | ccv {c d v : Char} : [lower c, lower d] ∈ initialPairs → v ∈ c!"aeiou" → Short [C c, C d, V v]

/-- What is tried after rafsi without y. -/
def RS : Exp Rule := .alt (.call .gismu) (.alt (.call .cvv_final_rafsi) (.alt (.seq (.call .stressed_y_less_rafsi) (.call .short_final_rafsi))
  (.alt (.call .y_rafsi) (.alt (.call .stressed_y_rafsi) (.alt (.seq (.opt (.call .stressed_y_less_rafsi)) (.seq (.call .initial_pair) (.call .y)))
  (.alt (.call .hy_rafsi) (.call .stressed_hy_rafsi)))))))

/-- How a word may end, extended rafsi aside. -/
def Core : Exp Rule := .alt (.call .gismu) (.alt (.call .cvv_final_rafsi) (.seq (.alt (.call .stressed_y_rafsi) (.call .stressed_y_less_rafsi)) (.call .short_final_rafsi)))

structure TailFacts (T : List Sound) : Prop where
  less : ans (.call .y_less_rafsi) (text T) = none
  yr : ans (.call .y_rafsi) (text T) = none
  rs : (ans RS (text T)).isSome
  core : ans Core (text T) = some (text [])

section
variable {c d e f h v w q z : Char}

/-- What the rules say about a short rafsi at the end. -/
structure ShortFacts (S : List Sound) : Prop where
  begins : ∃ e x t, S = C e :: x :: t ∧ ans (.call .y) (text (x :: t)) = none ∧ ans (.call .vowel) (text (x :: t)) = none ∧
    ans (.call .r_hyphen) (text S) = none ∧ ans (.call .short_final_rafsi) (text S) = some (text []) ∧
    ans (.call .stress) (text S) = some []
  onset : ∃ g, ans (.call .onset) (text S) = some (text [.vowels g]) ∧ Ok [.vowels g] ∧ ans (.call .y) (text [.vowels g]) = none

theorem short_facts {S : List Sound} (hS : Short S) (g0 : Ok S) : ShortFacts S := by
  cases hS with
  | @cvv c v w hv =>
    have g1 := g0.tail
    have y1 := y_D (s := []) hv
    have dd := diph_D g1 hv
    have s1 := sC g0 (sV g1 y1)
    have k := hyph_CV g0
    exact ⟨⟨c, D v w, [], rfl, y1, vow_D g1, k, by ev [g0, g1, y1, dd, ans_body .short_final_rafsi], s1⟩, ⟨[v, w], on_CV g0, g1, y1⟩⟩
  | @ccv c d v hp hv =>
    have g1 := g0.tail
    have g2 := g1.tail
    have y1 := y_V (s := []) hv
    have s1 := sC g0 (sC g1 (sV g2 y1))
    have k := hyph_CCV g0 hp
    exact ⟨⟨c, C d, [V v], rfl, y_C g1, vow_C g1, k, by ev [g0, g1, g2, y1, hp, ans_body .short_final_rafsi], s1⟩, ⟨[v], on_CCV g0 hp, g2, y1⟩⟩

theorem gis1_tail (g0 : Ok [C c, V v, C d, C e, V w]) (hw : w ∈ c!"aeiou") : TailFacts [C c, V v, C d, C e, V w] := by
  have g1 := g0.tail
  have g2 := g1.tail
  have g3 := g2.tail
  have g4 := g3.tail
  have y1 := y_V (s := []) hw
  have s3 := sC g3 (sV g4 y1)
  have s2 := sC g2 s3
  constructor
  · ev [g0, g1, g2, g3, g4, y1, s2]
  · ev [g0, g1, g2, g3, g4, y1, s2]
  · unfold RS; ev [g0, g1, g2, g3, g4, y1, s2]
  · unfold Core; ev [g0, g1, g2, g3, g4, y1, s2]

theorem gis2_tail (g0 : Ok [C c, C d, V v, C e, V w]) (hp : [lower c, lower d] ∈ initialPairs) (hw : w ∈ c!"aeiou") :
    TailFacts [C c, C d, V v, C e, V w] := by
  have g1 := g0.tail
  have g2 := g1.tail
  have g3 := g2.tail
  have g4 := g3.tail
  have y1 := y_V (s := []) hw
  have s3 := sC g3 (sV g4 y1)
  constructor
  · ev [g0, g1, g2, g3, g4, y1, s3, hp]
  · ev [g0, g1, g2, g3, g4, y1, s3, hp]
  · unfold RS; ev [g0, g1, g2, g3, g4, y1, s3, hp]
  · unfold Core; ev [g0, g1, g2, g3, g4, y1, s3, hp]

theorem cvhv_tail (g0 : Ok [C c, V v, Q q, V w]) (hw : w ∈ c!"aeiou") : TailFacts [C c, V v, Q q, V w] := by
  have g1 := g0.tail
  have g2 := g1.tail
  have g3 := g2.tail
  have y1 := y_V (s := []) hw
  have s2 := sQ g2 hw
  constructor
  · ev [g0, g1, g2, g3, y1, s2]
  · ev [g0, g1, g2, g3, y1, s2]
  · unfold RS; ev [g0, g1, g2, g3, y1, s2]
  · unfold Core; ev [g0, g1, g2, g3, y1, s2]

theorem cvc_tail {S : List Sound} (hS : Short S) (g0 : Ok (C c :: V v :: C d :: S)) : TailFacts (C c :: V v :: C d :: S) := by
  have g1 := g0.tail
  have g2 := g1.tail
  have g3 := g2.tail
  obtain ⟨⟨f, x, t, rfl, yx, vx, rx, fx, sx⟩, g, ox, gx, yg⟩ := short_facts hS g3
  have g4 := g3.tail
  have s1 := sC g2 sx
  constructor
  · ev [g0, g1, g2, g3, g4, yx, vx, rx, fx, sx, ox, gx, yg, s1]
  · ev [g0, g1, g2, g3, g4, yx, vx, rx, fx, sx, ox, gx, yg, s1]
  · unfold RS; ev [g0, g1, g2, g3, g4, yx, vx, rx, fx, sx, ox, gx, yg, s1]
  · unfold Core; ev [g0, g1, g2, g3, g4, yx, vx, rx, fx, sx, ox, gx, yg, s1]

theorem ccv_tail {S : List Sound} (hS : Short S) (g0 : Ok (C c :: C d :: V v :: S)) (hp : [lower c, lower d] ∈ initialPairs) : TailFacts (C c :: C d :: V v :: S) := by
  have g1 := g0.tail
  have g2 := g1.tail
  have g3 := g2.tail
  obtain ⟨⟨f, x, t, rfl, yx, vx, rx, fx, sx⟩, g, ox, gx, yg⟩ := short_facts hS g3
  have g4 := g3.tail
  constructor
  · ev [g0, g1, g2, g3, g4, yx, vx, rx, fx, sx, ox, gx, yg, hp]
  · ev [g0, g1, g2, g3, g4, yx, vx, rx, fx, sx, ox, gx, yg, hp]
  · unfold RS; ev [g0, g1, g2, g3, g4, yx, vx, rx, fx, sx, ox, gx, yg, hp]
  · unfold Core; ev [g0, g1, g2, g3, g4, yx, vx, rx, fx, sx, ox, gx, yg, hp]

theorem cvvr_tail {S : List Sound} (hS : Short S) (g0 : Ok (C c :: D v w :: C h :: S)) (hv : [v, w] ∈ diphs) (hh : h ∈ c!"rR" ∨ (h ∈ c!"nN" ∧ ∃ r t, S = C r :: t ∧ r ∈ c!"rR")) : TailFacts (C c :: D v w :: C h :: S) := by
  have g1 := g0.tail
  have g2 := g1.tail
  have g3 := g2.tail
  obtain ⟨⟨f, x, t, rfl, yx, vx, rx, fx, sx⟩, g, ox, gx, yg⟩ := short_facts hS g3
  have g4 := g3.tail
  have hh' : h ∈ c!"rR" ∨ (h ∈ c!"nN" ∧ f ∈ c!"rR") := by
    rcases hh with hh | ⟨hh, r, t, e, hr⟩
    · exact .inl hh
    · cases e; exact .inr ⟨hh, hr⟩
  have s1 := sC g2 sx
  have k := hyph_yes g2 hh'
  have dd := diph_D g1 hv
  constructor
  · ev [g0, g1, g2, g3, g4, yx, vx, rx, fx, sx, ox, gx, yg, s1, k, dd]
  · ev [g0, g1, g2, g3, g4, yx, vx, rx, fx, sx, ox, gx, yg, s1, k, dd]
  · unfold RS; ev [g0, g1, g2, g3, g4, yx, vx, rx, fx, sx, ox, gx, yg, s1, k, dd]
  · unfold Core; ev [g0, g1, g2, g3, g4, yx, vx, rx, fx, sx, ox, gx, yg, s1, k, dd]

theorem cvv_tail {S : List Sound} (hS : Short S) (g0 : Ok (C c :: D v w :: S)) (hv : [v, w] ∈ diphs) : TailFacts (C c :: D v w :: S) := by
  have g1 := g0.tail
  have g2 := g1.tail
  obtain ⟨⟨f, x, t, rfl, yx, vx, rx, fx, sx⟩, g, ox, gx, yg⟩ := short_facts hS g2
  have g3 := g2.tail
  have dd := diph_D g1 hv
  constructor
  · ev [g0, g1, g2, g3, yx, vx, rx, fx, sx, ox, gx, yg, dd]
  · ev [g0, g1, g2, g3, yx, vx, rx, fx, sx, ox, gx, yg, dd]
  · unfold RS; ev [g0, g1, g2, g3, yx, vx, rx, fx, sx, ox, gx, yg, dd]
  · unfold Core; ev [g0, g1, g2, g3, yx, vx, rx, fx, sx, ox, gx, yg, dd]

theorem cvhvr_tail {S : List Sound} (hS : Short S) (g0 : Ok (C c :: V v :: Q q :: V w :: C h :: S)) (s2 : ans (.call .stress) (text (Q q :: V w :: C h :: S)) = none) (hh : h ∈ c!"rR" ∨ (h ∈ c!"nN" ∧ ∃ r t, S = C r :: t ∧ r ∈ c!"rR")) : TailFacts (C c :: V v :: Q q :: V w :: C h :: S) := by
  have g1 := g0.tail
  have g2 := g1.tail
  have g3 := g2.tail
  have g4 := g3.tail
  have g5 := g4.tail
  obtain ⟨⟨f, x, t, rfl, yx, vx, rx, fx, sx⟩, g, ox, gx, yg⟩ := short_facts hS g5
  have g6 := g5.tail
  have hh' : h ∈ c!"rR" ∨ (h ∈ c!"nN" ∧ f ∈ c!"rR") := by
    rcases hh with hh | ⟨hh, r, t, e, hr⟩
    · exact .inl hh
    · cases e; exact .inr ⟨hh, hr⟩
  have s1 := sC g4 sx
  have k := hyph_yes g4 hh'
  constructor
  · ev [g0, g1, g2, g3, g4, g5, g6, yx, vx, rx, fx, sx, ox, gx, yg, s1, k, s2]
  · ev [g0, g1, g2, g3, g4, g5, g6, yx, vx, rx, fx, sx, ox, gx, yg, s1, k, s2]
  · unfold RS; ev [g0, g1, g2, g3, g4, g5, g6, yx, vx, rx, fx, sx, ox, gx, yg, s1, k, s2]
  · unfold Core; ev [g0, g1, g2, g3, g4, g5, g6, yx, vx, rx, fx, sx, ox, gx, yg, s1, k, s2]

theorem cvhv_short_tail {S : List Sound} (hS : Short S) (g0 : Ok (C c :: V v :: Q q :: V w :: S)) (s2 : ans (.call .stress) (text (Q q :: V w :: S)) = none) : TailFacts (C c :: V v :: Q q :: V w :: S) := by
  have g1 := g0.tail
  have g2 := g1.tail
  have g3 := g2.tail
  have g4 := g3.tail
  obtain ⟨⟨f, x, t, rfl, yx, vx, rx, fx, sx⟩, g, ox, gx, yg⟩ := short_facts hS g4
  have g5 := g4.tail
  constructor
  · ev [g0, g1, g2, g3, g4, g5, yx, vx, rx, fx, sx, ox, gx, yg, s2]
  · ev [g0, g1, g2, g3, g4, g5, yx, vx, rx, fx, sx, ox, gx, yg, s2]
  · unfold RS; ev [g0, g1, g2, g3, g4, g5, yx, vx, rx, fx, sx, ox, gx, yg, s2]
  · unfold Core; ev [g0, g1, g2, g3, g4, g5, yx, vx, rx, fx, sx, ox, gx, yg, s2]

theorem cvcy_tail {S : List Sound} (hS : Short S) (g0 : Ok (C c :: V v :: C d :: Y :: S)) : TailFacts (C c :: V v :: C d :: Y :: S) := by
  have g1 := g0.tail
  have g2 := g1.tail
  have g3 := g2.tail
  have g4 := g3.tail
  obtain ⟨⟨f, x, t, rfl, yx, vx, rx, fx, sx⟩, g, ox, gx, yg⟩ := short_facts hS g4
  have g5 := g4.tail
  have s1 := sC g2 (sY g3 ox gx yg)
  constructor
  · ev [g0, g1, g2, g3, g4, g5, yx, vx, rx, fx, sx, ox, gx, yg, s1]
  · ev [g0, g1, g2, g3, g4, g5, yx, vx, rx, fx, sx, ox, gx, yg, s1]
  · unfold RS; ev [g0, g1, g2, g3, g4, g5, yx, vx, rx, fx, sx, ox, gx, yg, s1]
  · unfold Core; ev [g0, g1, g2, g3, g4, g5, yx, vx, rx, fx, sx, ox, gx, yg, s1]

theorem cvccy_tail {S : List Sound} (hS : Short S) (g0 : Ok (C c :: V v :: C d :: C e :: Y :: S)) : TailFacts (C c :: V v :: C d :: C e :: Y :: S) := by
  have g1 := g0.tail
  have g2 := g1.tail
  have g3 := g2.tail
  have g4 := g3.tail
  have g5 := g4.tail
  obtain ⟨⟨f, x, t, rfl, yx, vx, rx, fx, sx⟩, g, ox, gx, yg⟩ := short_facts hS g5
  have g6 := g5.tail
  have s1 := sC g2 (sC g3 (sY g4 ox gx yg))
  constructor
  · ev [g0, g1, g2, g3, g4, g5, g6, yx, vx, rx, fx, sx, ox, gx, yg, s1]
  · ev [g0, g1, g2, g3, g4, g5, g6, yx, vx, rx, fx, sx, ox, gx, yg, s1]
  · unfold RS; ev [g0, g1, g2, g3, g4, g5, g6, yx, vx, rx, fx, sx, ox, gx, yg, s1]
  · unfold Core; ev [g0, g1, g2, g3, g4, g5, g6, yx, vx, rx, fx, sx, ox, gx, yg, s1]

theorem ccvcy_tail {S : List Sound} (hS : Short S) (g0 : Ok (C c :: C d :: V v :: C e :: Y :: S)) (hp : [lower c, lower d] ∈ initialPairs) : TailFacts (C c :: C d :: V v :: C e :: Y :: S) := by
  have g1 := g0.tail
  have g2 := g1.tail
  have g3 := g2.tail
  have g4 := g3.tail
  have g5 := g4.tail
  obtain ⟨⟨f, x, t, rfl, yx, vx, rx, fx, sx⟩, g, ox, gx, yg⟩ := short_facts hS g5
  have g6 := g5.tail
  have s1 := sC g3 (sY g4 ox gx yg)
  constructor
  · ev [g0, g1, g2, g3, g4, g5, g6, yx, vx, rx, fx, sx, ox, gx, yg, s1, hp]
  · ev [g0, g1, g2, g3, g4, g5, g6, yx, vx, rx, fx, sx, ox, gx, yg, s1, hp]
  · unfold RS; ev [g0, g1, g2, g3, g4, g5, g6, yx, vx, rx, fx, sx, ox, gx, yg, s1, hp]
  · unfold Core; ev [g0, g1, g2, g3, g4, g5, g6, yx, vx, rx, fx, sx, ox, gx, yg, s1, hp]

end

end Sneturfahi.Lj
