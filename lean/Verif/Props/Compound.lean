import Verif.Spec.Compound
import Verif.Proof.Needs
import Verif.Props.Words
import Verif.Props.Decompose

/-!
# Words written together (C61, C62)
-/

namespace Sneturfahi.Props

open Spec Derives

/-! ### Facts about finitely many patterns, by the kernel -/

def lowVowels : List Char := c!"aeiou"

/-- The vowels and diphthongs as patterns. -/
def groupSets : List (List (List Char)) := [[lowVowels], [c!"a", c!"iu"], [c!"eo", c!"i"]]

def quotes : List Char := c!"'h"

/-- What may follow a vowel or diphthong. -/
def stops : List Char := allConsonants ++ quotes

/-- The outcome of the rule on texts of the pattern, whether the text ends there or goes on with one of `stops`. -/
noncomputable def bothEnds (o : WOut) (rule : Rule) (p : List (List Char)) : Bool :=
  always o (winR false grammarM 40 rule (winOf (p ++ [stops]))) && always o (winR true grammarM 40 rule (winOf p))

noncomputable def failsOpen (rule : Rule) (p : List (List Char)) : Bool := always .fail (winR false grammarM 40 rule (winOf p))

theorem win_nucleus : groupSets.all (fun p => bothEnds (.ok p.length) .nucleus p) = true := by decide +kernel
theorem win_stressed : groupSets.all (fun p => bothEnds .fail .stressed p) = true := by decide +kernel
theorem win_h : groupSets.all (fun p => bothEnds (.ok 1) .h (quotes :: p)) = true := by decide +kernel
theorem win_onset : groupSets.all (fun p => bothEnds (.ok 1) .onset (allConsonants :: p)) = true := by decide +kernel
theorem win_cluster : groupSets.all (fun p => bothEnds .fail .cluster (allConsonants :: p)) = true := by decide +kernel
theorem win_onset0 : groupSets.all (fun p => bothEnds (.ok 0) .onset p) = true := by decide +kernel
theorem win_onset1 : groupSets.all (fun p => bothEnds (.ok 1) .onset (c!"iu" :: p)) = true := by decide +kernel
theorem win_cluster0 : failsOpen .cluster [lowVowels] = true := by decide +kernel
theorem win_cvcy : groupSets.all (fun p => failsOpen .cvcy_lujvo (allConsonants :: (p ++ [allConsonants, lowVowels ++ allConsonants])) &&
  (failsOpen .cvcy_lujvo (allConsonants :: (p ++ [quotes])) && always .fail (winR true grammarM 40 .cvcy_lujvo (winOf (allConsonants :: p))))) = true := by
  decide +kernel
theorem win_cvcy0 : failsOpen .cvcy_lujvo [lowVowels] = true := by decide +kernel
theorem win_h0 : failsOpen .h [lowVowels ++ allConsonants] = true := by decide +kernel
theorem win_h_end : always .fail (winR true grammarM 40 .h (winOf [])) = true := by decide +kernel
theorem win_digit : failsOpen .digit [lowVowels ++ allConsonants] = true := by decide +kernel
theorem win_y : failsOpen .y [lowVowels ++ allConsonants] = true := by decide +kernel
theorem win_nucleus_end : always .fail (winR true grammarM 40 .nucleus (winOf [])) = true := by decide +kernel

theorem groups_fit : ∀ g ∈ vowelGroups, ∃ p ∈ groupSets, Fits p g := by
  intro g hg
  simp only [vowelGroups, List.mem_cons, List.not_mem_nil, or_false] at hg
  rcases hg with rfl | rfl | rfl | rfl | rfl | rfl | rfl | rfl | rfl
  · exact ⟨[lowVowels], by decide, by decide, trivial⟩
  · exact ⟨[lowVowels], by decide, by decide, trivial⟩
  · exact ⟨[lowVowels], by decide, by decide, trivial⟩
  · exact ⟨[lowVowels], by decide, by decide, trivial⟩
  · exact ⟨[lowVowels], by decide, by decide, trivial⟩
  · exact ⟨[c!"a", c!"iu"], by decide, by decide, by decide, trivial⟩
  · exact ⟨[c!"eo", c!"i"], by decide, by decide, by decide, trivial⟩
  · exact ⟨[c!"eo", c!"i"], by decide, by decide, by decide, trivial⟩
  · exact ⟨[c!"a", c!"iu"], by decide, by decide, by decide, trivial⟩

/-- The text ends or goes on with a consonant or an apostrophe. -/
def Stops (r : List Char) : Prop := r = [] ∨ ∃ c t, r = c :: t ∧ c ∈ stops

theorem bothEnds_says {o : WOut} {rule : Rule} {p : List (List Char)} (h : bothEnds o rule p = true) {m r : List Char}
    (hm : Fits p m) (hr : Stops r) : o.Says (m ++ r) (parseRule rule (m ++ r)) := by
  simp only [bothEnds, Bool.and_eq_true] at h
  rcases hr with rfl | ⟨c, t, rfl, hc⟩
  · exact win_says h.2 (winOf_has hm (fun _ => rfl))
  · have hf : Fits (p ++ [stops]) (m ++ [c]) := hm.append ⟨hc, trivial⟩
    have := win_says h.1 (winOf_has (closed := false) (r := t) hf (fun h => by cases h))
    simpa using this

theorem failsOpen_says {rule : Rule} {p : List (List Char)} (h : failsOpen rule p = true) {m : List Char} (r : List Char) (hm : Fits p m) :
    parseRule rule (m ++ r) = none := win_fail h r hm

theorem take_fit {p : List (List Char)} {m : List Char} (hm : Fits p m) (r : List Char) :
    some ((m ++ r).take p.length, (m ++ r).drop p.length) = some (m, r) := by
  rw [← fits_length hm]
  simp

theorem nucleus_group {g r : List Char} (hg : g ∈ vowelGroups) (hr : Stops r) : parseRule .nucleus (g ++ r) = some (g, r) := by
  obtain ⟨p, hp, hf⟩ := groups_fit g hg
  rw [← take_fit hf r]
  exact bothEnds_says (List.all_eq_true.mp win_nucleus p hp) hf hr

theorem stressed_group {g r : List Char} (hg : g ∈ vowelGroups) (hr : Stops r) : parseRule .stressed (g ++ r) = none := by
  obtain ⟨p, hp, hf⟩ := groups_fit g hg
  exact bothEnds_says (List.all_eq_true.mp win_stressed p hp) hf hr

theorem h_group {q : Char} {g r : List Char} (hq : q ∈ quotes) (hg : g ∈ vowelGroups) (hr : Stops r) :
    parseRule .h (q :: (g ++ r)) = some ([q], g ++ r) := by
  obtain ⟨p, hp, hf⟩ := groups_fit g hg
  exact bothEnds_says (List.all_eq_true.mp win_h p hp) (m := q :: g) ⟨hq, hf⟩ hr

theorem onset_group {c : Char} {g r : List Char} (hc : c ∈ allConsonants) (hg : g ∈ vowelGroups) (hr : Stops r) :
    parseRule .onset (c :: (g ++ r)) = some ([c], g ++ r) := by
  obtain ⟨p, hp, hf⟩ := groups_fit g hg
  exact bothEnds_says (List.all_eq_true.mp win_onset p hp) (m := c :: g) ⟨hc, hf⟩ hr

theorem cluster_group {c : Char} {g r : List Char} (hc : c ∈ allConsonants) (hg : g ∈ vowelGroups) (hr : Stops r) :
    parseRule .cluster (c :: (g ++ r)) = none := by
  obtain ⟨p, hp, hf⟩ := groups_fit g hg
  exact bothEnds_says (List.all_eq_true.mp win_cluster p hp) (m := c :: g) ⟨hc, hf⟩ hr

theorem onset0_group {g r : List Char} (hg : g ∈ vowelGroups) (hr : Stops r) : parseRule .onset (g ++ r) = some ([], g ++ r) := by
  obtain ⟨p, hp, hf⟩ := groups_fit g hg
  exact bothEnds_says (List.all_eq_true.mp win_onset0 p hp) hf hr

theorem onset1_group {c : Char} {g r : List Char} (hc : c ∈ c!"iu") (hg : g ∈ vowelGroups) (hr : Stops r) :
    parseRule .onset (c :: (g ++ r)) = some ([c], g ++ r) := by
  obtain ⟨p, hp, hf⟩ := groups_fit g hg
  exact bothEnds_says (List.all_eq_true.mp win_onset1 p hp) (m := c :: g) ⟨hc, hf⟩ hr

/-! ### One cmavo -/

/-- The text ends or goes on with a consonant, and then a vowel or consonant. -/
def Follows (r : List Char) : Prop := r = [] ∨ ∃ c v t, r = c :: v :: t ∧ c ∈ allConsonants ∧ v ∈ lowVowels ++ allConsonants

theorem Follows.stops {r : List Char} (h : Follows r) : Stops r := by
  rcases h with rfl | ⟨c, v, t, rfl, hc, _⟩
  · exact .inl rfl
  · exact .inr ⟨c, _, rfl, by simp [Props.stops, hc]⟩

theorem Follows.noH {r : List Char} (h : Follows r) : parseRule .h r = none := by
  rcases h with rfl | ⟨c, v, t, rfl, hc, _⟩
  · exact win_fail_end (sets := []) win_h_end trivial
  · exact failsOpen_says win_h0 (m := [c]) (v :: t) ⟨by simp [hc], trivial⟩

theorem groups_first {t : List Char} (h : Groups t) : ∃ g r, t = g ++ r ∧ g ∈ vowelGroups ∧
    (r = [] ∨ ∃ q t', r = q :: t' ∧ q ∈ quotes) := by
  cases h with
  | one hg => exact ⟨t, [], by simp, hg, .inl rfl⟩
  | @more g q t hg hq _ => exact ⟨g, q :: t, rfl, hg, .inr ⟨q, t, rfl, hq⟩⟩

/-- The first vowel or diphthong, and what follows it. -/
theorem groups_first' {t r : List Char} (h : Groups t) (hr : Stops r) : ∃ g s, t ++ r = g ++ s ∧ g ∈ vowelGroups ∧ Stops s := by
  obtain ⟨g, s, rfl, hg, hs⟩ := groups_first h
  refine ⟨g, s ++ r, by simp, hg, ?_⟩
  rcases hs with rfl | ⟨q, t', rfl, hq⟩
  · exact hr
  · exact .inr ⟨q, t' ++ r, rfl, by simp [stops, hq]⟩

/-- All vowels and diphthongs but the last are taken by the repetition. -/
theorem groups_rep {t r : List Char} (h : Groups t) (hr : Follows r) : ∃ pre g, t = pre ++ g ∧ g ∈ vowelGroups ∧
    Derives grammar (.rep 0 (.seq (.call .nucleus) (.call .h))) (t ++ r) (some (pre, g ++ r)) := by
  induction h with
  | @one g hg =>
    refine ⟨[], g, rfl, hg, .repStop ?_⟩
    exact .seqGo (res := none) (derives_iff.mpr (nucleus_group hg hr.stops)) (derives_iff.mpr hr.noH)
  | @more g q t hg hq ht ih =>
    obtain ⟨pre, g', e, hg', hd⟩ := ih
    refine ⟨g ++ q :: pre, g', by rw [e]; simp, hg', ?_⟩
    obtain ⟨g2, s, e2, hg2, hs⟩ := groups_first' ht hr.stops
    have h1 : Derives grammar (.seq (.call .nucleus) (.call .h)) (g ++ q :: (t ++ r)) (some (g ++ [q], t ++ r)) := by
      refine .seqGo (m := g) (rest := q :: (t ++ r)) (res := some ([q], t ++ r)) (derives_iff.mpr (nucleus_group hg ?_)) (derives_iff.mpr ?_)
      · exact .inr ⟨q, _, rfl, by simp [stops, show q ∈ quotes from hq]⟩
      · rw [e2]; exact h_group hq hg2 hs
    have := Derives.repStep (n := 0) h1 hd
    simpa [Res.prepend] using this

theorem notDigit {c : Char} (hc : c ∈ lowVowels ++ allConsonants) (t : List Char) : parseRule .digit (c :: t) = none :=
  failsOpen_says win_digit (m := [c]) t ⟨hc, trivial⟩
theorem notY {c : Char} (hc : c ∈ lowVowels ++ allConsonants) (t : List Char) : parseRule .y (c :: t) = none :=
  failsOpen_says win_y (m := [c]) t ⟨hc, trivial⟩
theorem notH {c : Char} (hc : c ∈ lowVowels ++ allConsonants) (t : List Char) : parseRule .h (c :: t) = none :=
  failsOpen_says win_h0 (m := [c]) t ⟨hc, trivial⟩

/-- An onset and vowels are a cmavo. -/
theorem cmavo_form_of {on t r : List Char} (ht : Groups t) (hr : Follows r)
    (hfirst : ∃ c u, on ++ (t ++ r) = c :: u ∧ c ∈ lowVowels ++ allConsonants)
    (hcl : parseRule .cluster (on ++ (t ++ r)) = none) (hon : parseRule .onset (on ++ (t ++ r)) = some (on, t ++ r)) :
    parseRule .cmavo_form (on ++ t ++ r) = some (on ++ t, r) := by
  obtain ⟨pre, g, e, hg, hd⟩ := groups_rep ht hr
  obtain ⟨c, u, hc, hm⟩ := hfirst
  rw [List.append_assoc]
  apply derives_iff.mp
  refine .call ?_
  have hlast : Derives grammar (.alt (.seq (.not (.call .stressed)) (.call .nucleus)) (.seq (.call .nucleus) (.not (.call .cluster)))) (g ++ r)
      (some (g, r)) :=
    .altL (.seqGo (m := []) (res := some (g, r)) (.notYes (derives_iff.mpr (stressed_group hg hr.stops))) (derives_iff.mpr (nucleus_group hg hr.stops)))
  have hbody : Derives grammar (.seq (.not (.call .h)) (.seq (.not (.call .cluster)) (.seq (.call .onset)
      (.seq (.rep 0 (.seq (.call .nucleus) (.call .h)))
        (.alt (.seq (.not (.call .stressed)) (.call .nucleus)) (.seq (.call .nucleus) (.not (.call .cluster))))))))
      (on ++ (t ++ r)) (some (on ++ t, r)) := by
    have h1 := Derives.seqGo (.notYes (derives_iff.mpr hcl)) (.seqGo (derives_iff.mpr hon) (.seqGo hd hlast))
    have h2 := Derives.seqGo (g := grammar) (a := .not (.call .h)) (cs := on ++ (t ++ r)) (m := [])
      (.notYes (derives_iff.mpr (by rw [hc]; exact notH hm u))) h1
    rw [e]
    rw [e] at h2
    simpa [Res.prepend] using h2
  exact .longest (ra := none) (derives_iff.mpr (by rw [hc]; exact notDigit hm u))
    (.longest (ra := none) (.repFail (derives_iff.mpr (by rw [hc]; exact notY hm u))) hbody)

theorem groups_head {t : List Char} (h : Groups t) : ∃ c u, t = c :: u ∧ c ∈ lowVowels := by
  obtain ⟨g, r, rfl, hg, _⟩ := groups_first h
  have : ∀ g ∈ vowelGroups, ∃ c u, g = c :: u ∧ c ∈ lowVowels := by
    intro g hg
    simp only [vowelGroups, List.mem_cons, List.not_mem_nil, or_false] at hg
    rcases hg with rfl | rfl | rfl | rfl | rfl | rfl | rfl | rfl | rfl <;> exact ⟨_, _, rfl, by decide⟩
  obtain ⟨c, u, rfl, hc⟩ := this g hg
  exact ⟨c, u ++ r, rfl, hc⟩

theorem vowel_no_cluster {c : Char} (hc : c ∈ lowVowels) (t : List Char) : parseRule .cluster (c :: t) = none :=
  failsOpen_says win_cluster0 (m := [c]) t ⟨hc, trivial⟩
theorem vowel_no_cvcy {c : Char} (hc : c ∈ lowVowels) (t : List Char) : parseRule .cvcy_lujvo (c :: t) = none :=
  failsOpen_says win_cvcy0 (m := [c]) t ⟨hc, trivial⟩

theorem cvcy_none {c : Char} {t r : List Char} (hc : c ∈ allConsonants) (ht : Groups t) (hr : Follows r) :
    parseRule .cvcy_lujvo (c :: t ++ r) = none := by
  obtain ⟨g, s, rfl, hg, hs⟩ := groups_first ht
  obtain ⟨p, hp, hf⟩ := groups_fit g hg
  have hw := List.all_eq_true.mp win_cvcy p hp
  simp only [Bool.and_eq_true] at hw
  obtain ⟨w1, w2, w3⟩ := hw
  rcases hs with rfl | ⟨q, t', rfl, hq⟩
  · rw [List.append_nil]
    rcases hr with rfl | ⟨d, v, t, rfl, hd, hv⟩
    · rw [List.append_nil]
      exact win_fail_end (sets := allConsonants :: p) w3 ⟨hc, hf⟩
    · have := failsOpen_says w1 (m := c :: (g ++ [d, v])) t ⟨hc, hf.append ⟨hd, hv, trivial⟩⟩
      simpa using this
  · have := failsOpen_says w2 (m := c :: (g ++ [q])) (t' ++ r) ⟨hc, hf.append ⟨hq, trivial⟩⟩
    simpa using this

theorem mem_vc_of_vowel {c : Char} (h : c ∈ lowVowels) : c ∈ lowVowels ++ allConsonants := List.mem_append_left _ h
theorem mem_vc_of_consonant {c : Char} (h : c ∈ allConsonants) : c ∈ lowVowels ++ allConsonants := List.mem_append_right _ h

theorem minimal_of_form {cs : List Char} {res : Res} (h1 : parseRule .cvcy_lujvo cs = none) (h2 : parseRule .cmavo_form cs = res) :
    parseRule .cmavo_minimal cs = res :=
  derives_iff.mp (.call (.guardGo (derives_iff.mpr h1) (derives_iff.mpr h2)))

theorem fallOff_of_minimal {cs : List Char} {x : List Char × List Char} (h : parseRule .cmavo_minimal cs = some x) : fallOffPure cs = some x := by
  unfold fallOffPure
  rw [h]

theorem minimal_simple {w r : List Char} (h : SimpleCmavo w) (hr : Follows r) : parseRule .cmavo_minimal (w ++ r) = some (w, r) := by
  obtain ⟨c, t, rfl, hc, ht⟩ := h
  have hc : c ∈ allConsonants := hc
  refine minimal_of_form (cvcy_none hc ht hr) ?_
  obtain ⟨g, s, e, hg, hs⟩ := groups_first' ht hr.stops
  refine cmavo_form_of (on := [c]) ht hr ⟨c, t ++ r, rfl, mem_vc_of_consonant hc⟩ ?_ ?_
  · rw [e]; exact cluster_group (g := g) hc hg hs
  · rw [e]; exact onset_group (g := g) hc hg hs

theorem minimal_initial {w r : List Char} (h : InitialCmavo w) (hr : Follows r) : parseRule .cmavo_minimal (w ++ r) = some (w, r) := by
  rcases h with h | h | ⟨c, t, rfl, hc, ht⟩
  · exact minimal_simple h hr
  · obtain ⟨c, u, e, hc⟩ := groups_head h
    obtain ⟨g, s, e', hg, hs⟩ := groups_first' h hr.stops
    refine minimal_of_form ?_ ?_
    · rw [e]; exact vowel_no_cvcy hc _
    · refine cmavo_form_of (on := []) h hr ⟨c, u ++ r, by rw [e]; rfl, mem_vc_of_vowel hc⟩ ?_ ?_
      · rw [e]; exact vowel_no_cluster hc _
      · rw [List.nil_append, e']; exact onset0_group hg hs
  · have hc' : c ∈ lowVowels := by
      have : ∀ c ∈ c!"iu", c ∈ lowVowels := by decide
      exact this c hc
    obtain ⟨g, s, e', hg, hs⟩ := groups_first' ht hr.stops
    refine minimal_of_form (vowel_no_cvcy hc' _) ?_
    refine cmavo_form_of (on := [c]) ht hr ⟨c, t ++ r, rfl, mem_vc_of_vowel hc'⟩ (vowel_no_cluster hc' _) ?_
    rw [e']; exact onset1_group (g := g) hc hg hs

/-! ### A consonant cluster -/

/-- The rule takes both consonants, and what begins with them is neither a vowel nor a `cvcy_lujvo`. -/
noncomputable def clusterCheck (closed : Bool) (p : List (List Char)) : Bool :=
  always (.ok 2) (winR closed grammarM 40 .cluster (winOf p)) && (always .fail (winR closed grammarM 40 .nucleus (winOf p)) &&
    always .fail (winR closed grammarM 40 .cvcy_lujvo (winOf p)))

theorem win_pair : (c!"bcdfgjklmnprstvxz").all (fun c => clusterCheck true [bothCases c, afterPair c, lowVowels]) = true := by decide +kernel
theorem win_initial : (c!"bcdfgjklmnprstvxz").all (fun c => clusterCheck false [bothCases c, afterInitial c, lowVowels, allConsonants]) = true := by
  decide +kernel

theorem cluster_minimal {closed : Bool} {p : List (List Char)} (h : clusterCheck closed p = true) {c : Char} {t : List Char} (r : List Char)
    (hr : closed = true → r = []) (hc : c ∈ allConsonants) (hf : Fits p (c :: t)) :
    parseRule .cmavo_minimal (c :: (t ++ r)) = none ∧ parseRule .nucleus (c :: (t ++ r)) = none := by
  simp only [clusterCheck, Bool.and_eq_true] at h
  have hw := winOf_has hf hr
  refine ⟨minimal_of_form (win_says h.2.2 hw) ?_, win_says h.2.1 hw⟩
  have hm := mem_vc_of_consonant hc
  have hcl : parseRule .cluster (c :: (t ++ r)) = some ((c :: (t ++ r)).take 2, (c :: (t ++ r)).drop 2) := win_says h.1 hw
  apply derives_iff.mp
  refine .call ?_
  refine .longest (ra := none) (rb := none) (derives_iff.mpr (notDigit hm _))
    (.longest (ra := none) (rb := none) (.repFail (derives_iff.mpr (notY hm _))) ?_)
  exact .seqGo (m := []) (res := none) (.notYes (derives_iff.mpr (notH hm _))) (.seqFail (.notNo (derives_iff.mpr hcl)))

theorem capital_vc : ∀ c ∈ lowVowels ++ allConsonants, capital c = false := by decide
theorem vowelLetter_consonant : ∀ c ∈ allConsonants, vowelLetter c = false := by decide

theorem fallOff_none {cs : List Char} (h : parseRule .cmavo_minimal cs = none) (hc : ∀ c ∈ cs, c ∈ lowVowels ++ allConsonants) :
    fallOffPure cs = none := by
  unfold fallOffPure
  rw [h]
  exact needCapital_none rfl (fun c hcs => capital_vc c (hc c hcs))

/-- Nothing falls off a gismu beginning with two consonants, and it is a word. -/
theorem gismu2 {a b c d e : Char} (ha : a ∈ allConsonants) (hb : b ∈ allConsonants) (hc : c ∈ lowVowels) (hd : d ∈ allConsonants)
    (he : e ∈ lowVowels) (hp : [lower a, lower b] ∈ initialPairs) :
    fallOffPure [a, b, c, d, e] = none ∧ postWordPure [a, b, c, d, e] = true := by
  have ha' := cases_of_consonant a ha
  have hab : b ∈ afterInitial (lower a) := by
    simp only [afterInitial, List.mem_filter, decide_eq_true_eq, lower_lower a ha]
    exact ⟨hb, hp⟩
  have hcm := cluster_minimal (t := [b, c, d]) (List.all_eq_true.mp win_initial _ ha'.1) [e] (fun h => by cases h) ha ⟨ha'.2, hab, hc, hd, trivial⟩
  simp only [List.cons_append, List.nil_append] at hcm
  constructor
  · refine fallOff_none hcm.1 fun x hx => ?_
    simp only [List.mem_cons, List.not_mem_nil, or_false] at hx
    rcases hx with rfl | rfl | rfl | rfl | rfl
    · exact mem_vc_of_consonant ha
    · exact mem_vc_of_consonant hb
    · exact mem_vc_of_vowel hc
    · exact mem_vc_of_consonant hd
    · exact mem_vc_of_vowel he
  · have hg := List.all_eq_true.mp gismu_win2 _ ha'.1
    simp only [gismuCheck, Bool.and_eq_true] at hg
    have hcv : c ∈ allVowels := by
      have : ∀ c ∈ lowVowels, c ∈ allVowels := by decide
      exact this c hc
    have := win_ok_end hg.1.1 (m := [a, b, c, d, e]) ⟨ha'.2, hab, hcv, hd, he, trivial⟩
    unfold postWordPure
    rw [hcm.2, this]
    rfl

/-- Nothing falls off the rest of a gismu, and it is not a word. -/
theorem gismu1 {c d e : Char} (hc : c ∈ allConsonants) (hd : d ∈ allConsonants) (he : e ∈ lowVowels) (hp : PermissiblePair (lower c) (lower d)) :
    fallOffPure [c, d, e] = none ∧ postWordPure [c, d, e] = false := by
  have hc' := cases_of_consonant c hc
  have hcd : d ∈ afterPair (lower c) := by
    simp only [afterPair, List.mem_filter, decide_eq_true_eq, lower_lower c hc]
    exact ⟨hd, hp⟩
  have hcm := cluster_minimal (t := [d, e]) (List.all_eq_true.mp win_pair _ hc'.1) [] (fun _ => rfl) hc ⟨hc'.2, hcd, he, trivial⟩
  simp only [List.cons_append, List.nil_append] at hcm
  constructor
  · refine fallOff_none hcm.1 fun x hx => ?_
    simp only [List.mem_cons, List.not_mem_nil, or_false] at hx
    rcases hx with rfl | rfl | rfl
    · exact mem_vc_of_consonant hc
    · exact mem_vc_of_consonant hd
    · exact mem_vc_of_vowel he
  · have hv : [c, d, e].countP vowelLetter < 2 := by
      simp only [List.countP_cons, List.countP_nil, vowelLetter_consonant c hc, vowelLetter_consonant d hd]
      cases vowelLetter e <;> decide
    unfold postWordPure
    rw [hcm.1, hcm.2, lowV_none (rule := .gismu) hv, lowV_none (rule := .fuhivla) hv, lowV_none (rule := .lujvo_minimal) hv]
    rfl

/-! ### The chunk -/

theorem plainGismu_follows {g : List Char} (h : PlainGismu g) : Follows g := by
  obtain ⟨a, b, c, d, e, rfl, he, ⟨ha, hb, hc, hd, hp⟩ | ⟨ha, hb, hc, hd, hp⟩⟩ := h
  · exact .inr ⟨a, b, _, rfl, ha, mem_vc_of_vowel hb⟩
  · exact .inr ⟨a, b, _, rfl, ha, mem_vc_of_consonant hb⟩

theorem simple_follows {ws : List (List Char)} {r : List Char} (h : ∀ w ∈ ws, SimpleCmavo w) (hr : Follows r) : Follows (ws.flatten ++ r) := by
  cases ws with
  | nil => exact hr
  | cons w ws =>
    obtain ⟨c, t, rfl, hc, ht⟩ := h w (by simp)
    obtain ⟨v, u, rfl, hv⟩ := groups_head ht
    exact .inr ⟨c, v, u ++ ws.flatten ++ r, by simp, hc, mem_vc_of_vowel hv⟩

theorem falls_simple {ws : List (List Char)} {r : List Char} (h : ∀ w ∈ ws, SimpleCmavo w) (hr : Follows r) :
    falls (ws.flatten ++ r) = (ws ++ (falls r).1, (falls r).2) := by
  induction ws with
  | nil => rfl
  | cons w ws ih =>
    have hws : ∀ w ∈ ws, SimpleCmavo w := fun w hw => h w (by simp [hw])
    have h1 := minimal_simple (h w (by simp)) (simple_follows hws hr)
    rw [List.flatten_cons, List.append_assoc, falls_some (fallOff_of_minimal h1), ih hws]
    rfl

theorem falls_cmavo {ws : List (List Char)} {r : List Char} (h1 : ∀ w, ws.head? = some w → InitialCmavo w)
    (h : ∀ w ∈ ws.tail, SimpleCmavo w) (hr : Follows r) : falls (ws.flatten ++ r) = (ws ++ (falls r).1, (falls r).2) := by
  cases ws with
  | nil => rfl
  | cons w ws =>
    have h : ∀ w ∈ ws, SimpleCmavo w := h
    have h2 := minimal_initial (h1 w rfl) (simple_follows h hr)
    rw [List.flatten_cons, List.append_assoc, falls_some (fallOff_of_minimal h2), falls_simple h hr]
    rfl

theorem initial_follows_vowel : ∀ g ∈ vowelGroups, ∃ u c, g = u ++ [c] ∧ c ∈ lowVowels := by
  intro g hg
  simp only [vowelGroups, List.mem_cons, List.not_mem_nil, or_false] at hg
  rcases hg with rfl | rfl | rfl | rfl | rfl | rfl | rfl | rfl | rfl
  · exact ⟨[], 'a', rfl, by decide⟩
  · exact ⟨[], 'e', rfl, by decide⟩
  · exact ⟨[], 'i', rfl, by decide⟩
  · exact ⟨[], 'o', rfl, by decide⟩
  · exact ⟨[], 'u', rfl, by decide⟩
  · exact ⟨['a'], 'i', rfl, by decide⟩
  · exact ⟨['e'], 'i', rfl, by decide⟩
  · exact ⟨['o'], 'i', rfl, by decide⟩
  · exact ⟨['a'], 'u', rfl, by decide⟩

theorem groups_last {t : List Char} (h : Groups t) : ∃ u c, t = u ++ [c] ∧ c ∈ lowVowels := by
  induction h with
  | one hg => exact initial_follows_vowel _ hg
  | @more g q t _ _ _ ih =>
    obtain ⟨u, c, rfl, hc⟩ := ih
    exact ⟨g ++ q :: u, c, by simp, hc⟩

theorem initial_last {w : List Char} (h : InitialCmavo w) : ∃ u c, w = u ++ [c] ∧ c ∈ lowVowels := by
  rcases h with ⟨c, t, rfl, _, ht⟩ | h | ⟨c, t, rfl, _, ht⟩
  · obtain ⟨u, v, rfl, hv⟩ := groups_last ht
    exact ⟨c :: u, v, rfl, hv⟩
  · exact groups_last h
  · obtain ⟨u, v, rfl, hv⟩ := groups_last ht
    exact ⟨c :: u, v, rfl, hv⟩

theorem vowel_end {u : List Char} {c : Char} (hc : c ∈ lowVowels) : endsInConsonant (u ++ [c]) = false ∧ trimCommas (u ++ [c]) = u ++ [c] := by
  have h1 : ∀ c ∈ lowVowels, (c != ',') = true ∧ isConsonant c = false ∧ (c == ',') = false := by decide
  obtain ⟨e1, e2, e3⟩ := h1 c hc
  constructor
  · unfold endsInConsonant
    simp only [List.reverse_append, List.reverse_cons, List.reverse_nil, List.nil_append, List.singleton_append, List.find?_cons, e1, e2]
  · unfold trimCommas
    simp only [List.reverse_append, List.reverse_cons, List.reverse_nil, List.nil_append, List.singleton_append, List.dropWhile_cons, e3]
    simp

theorem lastWord_vowel {w u : List Char} {c : Char} (hw : w = u ++ [c]) (hc : c ∈ lowVowels) : lastWord w = [w] := by
  subst hw
  unfold lastWord
  rw [(vowel_end hc).2, if_neg (by simp)]

theorem nothing_falls : fallOffPure [] = none ∧ postWordPure [] = false := by
  have hn : ∀ rule, 1 ≤ lowV rule → parseRule rule [] = none := fun rule h => lowV_none h
  have hm : parseRule .cmavo_minimal [] = none := by
    cases h : parseRule .cmavo_minimal [] with
    | none => rfl
    | some x =>
      obtain ⟨m, r⟩ := x
      have h1 := parseRule_append h
      have h2 := parseRule_ne_nil (by decide) h
      exact absurd (List.append_eq_nil_iff.mp h1).1 h2
  constructor
  · unfold fallOffPure
    rw [hm]
    exact hn _ (by decide)
  · unfold postWordPure
    rw [hm, hn .gismu (by decide), hn .fuhivla (by decide), hn .lujvo_minimal (by decide)]
    simp

theorem runTogether_words {ws : List (List Char)} (h : RunTogether ws) : singleWords ws.flatten = ws := by
  obtain ⟨cm, last, rfl, h1, h2, h3⟩ := h
  rcases h3 with rfl | ⟨g, rfl, hg⟩
  · rw [List.append_nil]
    have hf := falls_cmavo h1 h2 (r := []) (.inl rfl)
    rw [falls_none nothing_falls.1] at hf
    simp only [List.append_nil] at hf
    rcases List.eq_nil_or_concat cm with rfl | ⟨cm', w, rfl⟩
    · exact singleWords_allCommas (by simp [AllCommas])
    · rw [List.concat_eq_append] at *
      have hw : InitialCmavo w := by
        cases cm' with
        | nil => exact h1 w rfl
        | cons x cm' => exact .inl (h2 w (by simp))
      obtain ⟨u, c, e, hc⟩ := initial_last hw
      have he : endsInConsonant (cm' ++ [w]).flatten = false := by
        rw [e]
        have := (vowel_end (u := cm'.flatten ++ u) hc).1
        simpa using this
      unfold singleWords
      rw [he, hf]
      simp [nothing_falls.2, lastWord_vowel e hc]
  · have hfl := plainGismu_follows hg
    have hf := falls_cmavo h1 h2 hfl
    have hflat : (cm ++ [g]).flatten = cm.flatten ++ g := by simp
    rw [hflat]
    obtain ⟨a, b, c, d, e, rfl, he, ⟨ha, hb, hc, hd, hp⟩ | ⟨ha, hb, hc, hd, hp⟩⟩ := hg
    · obtain ⟨f1, f2⟩ := gismu1 hc hd he hp
      have hsc : SimpleCmavo [a, b] := ⟨a, [b], rfl, ha, .one (by
        have : ∀ b ∈ lowVowels, [b] ∈ vowelGroups := by decide
        exact this b hb)⟩
      have hm := minimal_simple hsc (r := [c, d, e]) (.inr ⟨c, d, [e], rfl, hc, mem_vc_of_consonant hd⟩)
      have hfg : falls [a, b, c, d, e] = ([[a, b]], [c, d, e]) := by
        rw [falls_some (fallOff_of_minimal (cs := [a, b, c, d, e]) hm), falls_none f1]
      rw [hfg] at hf
      have hec : endsInConsonant (cm.flatten ++ [a, b, c, d, e]) = false := by
        have := (vowel_end (u := cm.flatten ++ [a, b, c, d]) he).1
        simpa using this
      unfold singleWords
      rw [hec, hf]
      simp [f2, lastWord_vowel (w := [a, b, c, d, e]) (u := [a, b, c, d]) rfl he]
    · obtain ⟨f1, f2⟩ := gismu2 ha hb hc hd he hp
      rw [falls_none f1] at hf
      have hec : endsInConsonant (cm.flatten ++ [a, b, c, d, e]) = false := by
        have := (vowel_end (u := cm.flatten ++ [a, b, c, d]) he).1
        simpa using this
      unfold singleWords
      rw [hec, hf]
      simp only [List.append_nil]
      have hl := lastWord_vowel (w := [a, b, c, d, e]) (u := [a, b, c, d]) rfl he
      cases hcm : cm.getLast? with
      | none =>
        have : cm = [] := by simpa using hcm
        subst this
        simp [hl]
      | some w => simp [f2, hl]

theorem divides_words {c : List Char} {ws : List (List Char)} (h : Divides c ws) : singleWords c = ws := by
  cases h with
  | empty => exact singleWords_allCommas (by simp [AllCommas])
  | name hl hk =>
    unfold singleWords
    rw [(endsInConsonant_iff c).mpr ⟨_, hl, hk⟩]
    rfl
  | words h => exact runTogether_words h

/-- **C61.** If every chunk of a text is a row of ordinary cmavo, possibly followed by a gismu, or ends in a consonant, then the words
of the text are exactly these cmavo, gismu and names: nothing is split elsewhere and nothing is kept together. -/
theorem C61_words_written_together (p : Profile) (input : Str) (h : input.len < 2 ^ 32) (chunks words : List (List Char))
    (hs : SplitsInto input.chars chunks) (hd : DividesAll chunks words) :
    ∃ spans, decomposeAll p input = .val spans ∧ TextsOf input spans words := by
  refine ⟨_, decomposeAll_eq p input h, ?_⟩
  have key : ∀ {cs ws}, DividesAll cs ws → cs.flatMap singleWords = ws := by
    intro cs ws hd
    induction hd with
    | nil => rfl
    | cons h _ ih => rw [List.flatMap_cons, divides_words h, ih]
  have ht := decomposed_texts input
  unfold wordTexts at ht
  rw [splitsInto_iff] at hs
  rw [← hs, key hd] at ht
  rw [← hs]
  exact ht

example : Divides c!"lenubarda" [c!"le", c!"nu", c!"barda"] := by
  refine .words (ws := [c!"le", c!"nu", c!"barda"]) ⟨[c!"le", c!"nu"], [c!"barda"], rfl, ?_, ?_, .inr ⟨_, rfl, ?_⟩⟩
  · intro w h; cases h
    exact .inl ⟨'l', c!"e", rfl, by decide, .one (by decide)⟩
  · intro w h
    simp at h
    subst h
    exact ⟨'n', c!"u", rfl, by decide, .one (by decide)⟩
  · exact ⟨'b', 'a', 'r', 'd', 'a', rfl, by decide, .inl ⟨by decide, by decide, by decide, by decide, by decide⟩⟩

example : Divides c!"o'aiseko'aklama" [c!"o'ai", c!"se", c!"ko'a", c!"klama"] := by
  refine .words (ws := [c!"o'ai", c!"se", c!"ko'a", c!"klama"]) ⟨[c!"o'ai", c!"se", c!"ko'a"], [c!"klama"], rfl, ?_, ?_, .inr ⟨_, rfl, ?_⟩⟩
  · intro w h; cases h
    exact .inr (.inl (.more (g := c!"o") (by decide) (by decide) (.one (by decide))))
  · intro w h
    simp at h
    rcases h with rfl | rfl
    · exact ⟨'s', c!"e", rfl, by decide, .one (by decide)⟩
    · exact ⟨'k', c!"o'a", rfl, by decide, .more (g := c!"o") (t := c!"a") (by decide) (by decide) (.one (by decide))⟩
  · exact ⟨'k', 'l', 'a', 'm', 'a', rfl, by decide, .inr ⟨by decide, by decide, by decide, by decide, by decide⟩⟩

/-! ### C62: how many vowels a word has -/

/-- **C62.** A word classified Gismu, Lujvo or Fuhivla has at least two vowel letters (y included). -/
theorem C62_brivla_vowels (word : Str) (s : Selmaho) (x : Bool) (h : classify word = .val (s, x))
    (hs : s = .Gismu ∨ s = .Lujvo ∨ s = .Fuhivla) : 2 ≤ (word.chars.filter (fun c => decide (IsVowelOrY c))).length := by
  have key : ∀ rule, parseRule rule word.chars = some (word.chars, []) → lowV rule = 2 →
      2 ≤ (word.chars.filter (fun c => decide (IsVowelOrY c))).length := by
    intro rule hp hl
    have := lowV_sound hp
    rw [hl, List.countP_eq_length_filter] at this
    refine Nat.le_trans this ?_
    refine Nat.le_of_eq (congrArg _ (List.filter_congr fun c _ => ?_))
    rw [Bool.eq_iff_iff, decide_eq_true_iff]
    unfold vowelLetter IsVowelOrY IsPlainVowel
    simp only [List.contains_eq_mem, List.mem_cons, List.not_mem_nil, or_false, decide_eq_true_eq]
    constructor
    · rintro (h | h | h | h | h | h | h | h | h | h | h | h) <;> simp [h]
    · rintro ((h | h | h | h | h | h | h | h | h | h) | h | h) <;> simp [h]
  rcases hs with rfl | rfl | rfl
  all_goals
    obtain ⟨rule, hr, hp⟩ := classify_rule h (by decide) (by decide)
    simp at hr
    subst hr
    exact key _ hp rfl

example : classify ⟨0, c!"br,oda"⟩ = .val (.Gismu, false) :=
  (C60_gismu_iff _ _).mpr ⟨rfl, by decide, 'b', 'r', 'o', 'd', 'a', rfl, by decide,
    .inr ⟨by decide, by decide, by decide, by decide, by decide⟩⟩

end Sneturfahi.Props
