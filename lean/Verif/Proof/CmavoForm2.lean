import Verif.Proof.CmavoForm
import Verif.Proof.WinRules

/-!
# Everything of the form of a cmavo is matched
-/

namespace Sneturfahi

set_option linter.constructorNameAsVariable false

open Derives Spec

namespace CForm

def quotes : List Char := c!"'h"
def glides : List Char := c!"iuIU"
def groupSets : List (List (List Char)) := [[allVowels], [c!"aA", glides], [c!"eoEO", c!"iI"]]

/-- The outcome of the rule on texts of the pattern, whether the text ends there or goes on with an apostrophe. -/
noncomputable def bothEnds (o : WOut) (rule : Rule) (p : List (List Char)) : Bool :=
  always o (winR false grammarM 40 rule (winOf (p ++ [quotes]))) && always o (winR true grammarM 40 rule (winOf p))

noncomputable def failsOpen (rule : Rule) (p : List (List Char)) : Bool := always .fail (winR false grammarM 40 rule (winOf p))

theorem win_nucleus : groupSets.all (fun p => bothEnds (.ok p.length) .nucleus p) = true := by decide +kernel
theorem win_h : groupSets.all (fun p => bothEnds (.ok 1) .h (quotes :: p)) = true := by decide +kernel
theorem win_onset : groupSets.all (fun p => bothEnds (.ok 1) .onset (allConsonants :: p)) = true := by decide +kernel
theorem win_cluster : groupSets.all (fun p => bothEnds .fail .cluster (allConsonants :: p)) = true := by decide +kernel
theorem win_onset0 : groupSets.all (fun p => bothEnds (.ok 0) .onset p) = true := by decide +kernel
theorem win_onset1 : groupSets.all (fun p => bothEnds (.ok 1) .onset (glides :: p)) = true := by decide +kernel
theorem win_cluster0 : failsOpen .cluster [allVowels] = true := by decide +kernel
theorem win_cvcy : groupSets.all (fun p => bothEnds .fail .cvcy_lujvo (allConsonants :: p)) = true := by decide +kernel
theorem win_cvcy0 : failsOpen .cvcy_lujvo [allVowels] = true := by decide +kernel
theorem win_h0 : failsOpen .h [allVowels ++ allConsonants] = true := by decide +kernel
theorem win_h_end : always .fail (winR true grammarM 40 .h (winOf [])) = true := by decide +kernel
theorem win_cluster_end : always .fail (winR true grammarM 40 .cluster (winOf [])) = true := by decide +kernel
theorem win_digit : always (.ok 1) (winR true grammarM 40 .cmavo_minimal (winOf [c!"0123456789"])) = true := by decide +kernel
theorem win_digit_form : always (.ok 1) (winR true grammarM 40 .cmavo_form (winOf [c!"0123456789"])) = true := by decide +kernel

theorem groups_fit {g : List Char} (h : VowelGroup g) : ∃ p ∈ groupSets, Fits p g := by
  have h1 : ∀ v ∈ c!"aeiouyAEIOUY", v ∈ allVowels := by decide
  rcases h with ⟨v, hv, rfl⟩ | ⟨v, hv, w, hw, rfl⟩ | ⟨v, hv, w, hw, rfl⟩
  · exact ⟨[allVowels], by simp [groupSets], h1 v hv, trivial⟩
  · exact ⟨[c!"aA", glides], by simp [groupSets], hv, hw, trivial⟩
  · exact ⟨[c!"eoEO", c!"iI"], by simp [groupSets], hv, hw, trivial⟩

/-- The text ends or goes on with an apostrophe. -/
def Stops (r : List Char) : Prop := r = [] ∨ ∃ c t, r = c :: t ∧ c ∈ quotes

theorem bothEnds_says {o : WOut} {rule : Rule} {p : List (List Char)} (h : bothEnds o rule p = true) {m r : List Char}
    (hm : Fits p m) (hr : Stops r) : o.Says (m ++ r) (parseRule rule (m ++ r)) := by
  simp only [bothEnds, Bool.and_eq_true] at h
  rcases hr with rfl | ⟨c, t, rfl, hc⟩
  · exact win_says h.2 (winOf_has hm (fun _ => rfl))
  · have hf : Fits (p ++ [quotes]) (m ++ [c]) := hm.append ⟨hc, trivial⟩
    have := win_says h.1 (winOf_has (closed := false) (r := t) hf (fun h => by cases h))
    simpa using this

theorem take_fit {p : List (List Char)} {m : List Char} (hm : Fits p m) (r : List Char) :
    some ((m ++ r).take p.length, (m ++ r).drop p.length) = some (m, r) := by
  rw [← fits_length hm]
  simp

theorem nucleus_group {g r : List Char} (hg : VowelGroup g) (hr : Stops r) : parseRule .nucleus (g ++ r) = some (g, r) := by
  obtain ⟨p, hp, hf⟩ := groups_fit hg
  rw [← take_fit hf r]
  exact bothEnds_says (List.all_eq_true.mp win_nucleus p hp) hf hr

theorem h_group {q : Char} {g r : List Char} (hq : q ∈ quotes) (hg : VowelGroup g) (hr : Stops r) :
    parseRule .h (q :: (g ++ r)) = some ([q], g ++ r) := by
  obtain ⟨p, hp, hf⟩ := groups_fit hg
  exact bothEnds_says (List.all_eq_true.mp win_h p hp) (m := q :: g) ⟨hq, hf⟩ hr

theorem onset_group {c : Char} {g r : List Char} (hc : c ∈ allConsonants) (hg : VowelGroup g) (hr : Stops r) :
    parseRule .onset (c :: (g ++ r)) = some ([c], g ++ r) := by
  obtain ⟨p, hp, hf⟩ := groups_fit hg
  exact bothEnds_says (List.all_eq_true.mp win_onset p hp) (m := c :: g) ⟨hc, hf⟩ hr

theorem cluster_group {c : Char} {g r : List Char} (hc : c ∈ allConsonants) (hg : VowelGroup g) (hr : Stops r) :
    parseRule .cluster (c :: (g ++ r)) = none := by
  obtain ⟨p, hp, hf⟩ := groups_fit hg
  exact bothEnds_says (List.all_eq_true.mp win_cluster p hp) (m := c :: g) ⟨hc, hf⟩ hr

theorem cvcy_group {c : Char} {g r : List Char} (hc : c ∈ allConsonants) (hg : VowelGroup g) (hr : Stops r) :
    parseRule .cvcy_lujvo (c :: (g ++ r)) = none := by
  obtain ⟨p, hp, hf⟩ := groups_fit hg
  exact bothEnds_says (List.all_eq_true.mp win_cvcy p hp) (m := c :: g) ⟨hc, hf⟩ hr

theorem onset0_group {g r : List Char} (hg : VowelGroup g) (hr : Stops r) : parseRule .onset (g ++ r) = some ([], g ++ r) := by
  obtain ⟨p, hp, hf⟩ := groups_fit hg
  exact bothEnds_says (List.all_eq_true.mp win_onset0 p hp) hf hr

theorem onset1_group {c : Char} {g r : List Char} (hc : c ∈ glides) (hg : VowelGroup g) (hr : Stops r) :
    parseRule .onset (c :: (g ++ r)) = some ([c], g ++ r) := by
  obtain ⟨p, hp, hf⟩ := groups_fit hg
  exact bothEnds_says (List.all_eq_true.mp win_onset1 p hp) (m := c :: g) ⟨hc, hf⟩ hr

theorem vowel_none {rule : Rule} (h : failsOpen rule [allVowels] = true) {c : Char} (hc : c ∈ allVowels) (t : List Char) :
    parseRule rule (c :: t) = none := win_fail h t (m := [c]) ⟨hc, trivial⟩

theorem notH {c : Char} (hc : c ∈ allVowels ++ allConsonants) (t : List Char) : parseRule .h (c :: t) = none :=
  win_fail win_h0 t (m := [c]) ⟨hc, trivial⟩

/-- The first vowel or diphthong, and what follows it. -/
theorem vowels_first {t : List Char} (h : CmavoVowels t) : ∃ g s, t = g ++ s ∧ VowelGroup g ∧ Stops s := by
  cases h with
  | one hg => exact ⟨t, [], by simp, hg, .inl rfl⟩
  | @more g q t hg hq _ => exact ⟨g, q :: t, rfl, hg, .inr ⟨q, t, rfl, hq⟩⟩

theorem group_head {g : List Char} (h : VowelGroup g) : ∃ c u, g = c :: u ∧ c ∈ allVowels := by
  have h1 : ∀ v ∈ c!"aeiouyAEIOUY", v ∈ allVowels := by decide
  have h2 : ∀ v ∈ c!"aA", v ∈ allVowels := by decide
  have h3 : ∀ v ∈ c!"eoEO", v ∈ allVowels := by decide
  rcases h with ⟨v, hv, rfl⟩ | ⟨v, hv, w, hw, rfl⟩ | ⟨v, hv, w, hw, rfl⟩
  · exact ⟨_, _, rfl, h1 v hv⟩
  · exact ⟨_, _, rfl, h2 v hv⟩
  · exact ⟨_, _, rfl, h3 v hv⟩

theorem vowels_head {t : List Char} (h : CmavoVowels t) : ∃ c u, t = c :: u ∧ c ∈ allVowels := by
  obtain ⟨g, s, rfl, hg, _⟩ := vowels_first h
  obtain ⟨c, u, rfl, hc⟩ := group_head hg
  exact ⟨c, u ++ s, rfl, hc⟩

/-- All vowels and diphthongs but the last are taken by the repetition. -/
theorem vowels_rep {t : List Char} (h : CmavoVowels t) : ∃ pre g, t = pre ++ g ∧ VowelGroup g ∧
    Derives grammar (.rep 0 (.seq (.call .nucleus) (.call .h))) t (some (pre, g)) := by
  induction h with
  | @one g hg =>
    refine ⟨[], g, rfl, hg, .repStop ?_⟩
    have h1 := nucleus_group hg (r := []) (.inl rfl)
    rw [List.append_nil] at h1
    exact .seqGo (res := none) (derives_iff.mpr h1) (derives_iff.mpr (win_fail_end (sets := []) win_h_end trivial))
  | @more g q t hg hq ht ih =>
    obtain ⟨pre, g', e, hg', hd⟩ := ih
    refine ⟨g ++ q :: pre, g', by rw [e]; simp, hg', ?_⟩
    obtain ⟨g2, s, e2, hg2, hs⟩ := vowels_first ht
    have h1 : Derives grammar (.seq (.call .nucleus) (.call .h)) (g ++ q :: t) (some (g ++ [q], t)) := by
      refine .seqGo (m := g) (rest := q :: t) (res := some ([q], t)) (derives_iff.mpr (nucleus_group hg ?_)) (derives_iff.mpr ?_)
      · exact .inr ⟨q, _, rfl, hq⟩
      · rw [e2]; exact h_group hq hg2 hs
    have := Derives.repStep (n := 0) h1 hd
    simpa [Res.prepend] using this

/-- The third branch of `cmavo_form`. -/
theorem branch {on t : List Char} (ht : CmavoVowels t) (hh : parseRule .h (on ++ t) = none)
    (hcl : parseRule .cluster (on ++ t) = none) (hon : parseRule .onset (on ++ t) = some (on, t)) :
    Derives grammar (.seq (.not (.call .h)) (.seq (.not (.call .cluster)) (.seq (.call .onset)
      (.seq (.rep 0 (.seq (.call .nucleus) (.call .h)))
        (.alt (.seq (.not (.call .stressed)) (.call .nucleus)) (.seq (.call .nucleus) (.not (.call .cluster))))))))
      (on ++ t) (some (on ++ t, [])) := by
  obtain ⟨pre, g, e, hg, hd⟩ := vowels_rep ht
  have hn := nucleus_group hg (r := []) (.inl rfl)
  rw [List.append_nil] at hn
  have hce : parseRule .cluster [] = none := win_fail_end (sets := []) win_cluster_end trivial
  have hlast : Derives grammar (.alt (.seq (.not (.call .stressed)) (.call .nucleus)) (.seq (.call .nucleus) (.not (.call .cluster)))) g
      (some (g, [])) := by
    cases hs : parseRule .stressed g with
    | none => exact .altL (.seqGo (m := []) (res := some (g, [])) (.notYes (derives_iff.mpr hs)) (derives_iff.mpr hn))
    | some x =>
      refine .altR (.seqFail (.notNo (derives_iff.mpr hs))) ?_
      have := Derives.seqGo (res := some ([], [])) (derives_iff.mpr hn) (.notYes (derives_iff.mpr hce))
      simpa [Res.prepend] using this
  have h1 := Derives.seqGo (.notYes (derives_iff.mpr hcl)) (.seqGo (derives_iff.mpr hon) (.seqGo hd hlast))
  have h2 := Derives.seqGo (g := grammar) (a := .not (.call .h)) (cs := on ++ t) (m := []) (.notYes (derives_iff.mpr hh)) h1
  rw [e]
  rw [e] at h2
  simpa [Res.prepend] using h2

theorem longest_all {ra rb : Res} {cs : List Char} (ha : ∀ m r, ra = some (m, r) → m ++ r = cs) (hb : ∀ m r, rb = some (m, r) → m ++ r = cs)
    (h : ra = some (cs, []) ∨ rb = some (cs, [])) : Res.longest ra rb = some (cs, []) := by
  rcases h with rfl | rfl
  · cases rb with
    | none => rfl
    | some x => simp [Res.longest]
  · cases ra with
    | none => rfl
    | some x =>
      obtain ⟨m, r⟩ := x
      have := ha m r rfl
      simp only [Res.longest]
      split
      · rename_i hl
        simp at hl
        subst hl
        simp at this
        rw [this]
      · rfl

/-- If the second or third branch matches everything, so does `cmavo_form`. -/
theorem form_of {cs : List Char} (h : Derives grammar (.rep 1 (.call .y)) cs (some (cs, [])) ∨
    Derives grammar (.seq (.not (.call .h)) (.seq (.not (.call .cluster)) (.seq (.call .onset)
      (.seq (.rep 0 (.seq (.call .nucleus) (.call .h)))
        (.alt (.seq (.not (.call .stressed)) (.call .nucleus)) (.seq (.call .nucleus) (.not (.call .cluster)))))))) cs (some (cs, []))) :
    parseRule .cmavo_form cs = some (cs, []) := by
  have hd := call_inv (parseRule_derives .cmavo_form cs)
  generalize parseRule .cmavo_form cs = res at hd
  cases hd with
  | longest h1 h2 =>
    cases h2 with
    | longest h3 h4 =>
      refine longest_all (fun m r e => ?_) (fun m r e => ?_) (.inr (longest_all (fun m r e => ?_) (fun m r e => ?_) ?_))
      · subst e; exact h1.append_eq _ _ rfl
      · exact (Derives.longest h3 h4).append_eq _ _ e
      · subst e; exact h3.append_eq _ _ rfl
      · subst e; exact h4.append_eq _ _ rfl
      · rcases h with h | h
        · exact .inl (h3.det _ h)
        · exact .inr (h4.det _ h)

theorem ys {w : List Char} (h : ∀ c ∈ w, c ∈ c!"yY") : Derives grammar (.rep 0 (.call .y)) w (some (w, [])) := by
  have hc : ∀ c ∈ c!"yY", c ≠ ',' := by decide
  induction w with
  | nil => exact .repStop (.call (.oneOfEnd (by simp [AllCommas])))
  | cons c w ih =>
    have h1 : Derives grammar (.call .y) (c :: w) (some ([c], w)) :=
      .call (.oneOfYes (k := []) (by simp [AllCommas]) (hc c (h c (by simp))) (h c (by simp)))
    exact .repStep (n := 0) h1 (ih (fun x hx => h x (by simp [hx])))

theorem ys1 {w : List Char} (hn : w ≠ []) (h : ∀ c ∈ w, c ∈ c!"yY") : Derives grammar (.rep 1 (.call .y)) w (some (w, [])) := by
  have hc : ∀ c ∈ c!"yY", c ≠ ',' := by decide
  cases w with
  | nil => exact absurd rfl hn
  | cons c w =>
    have h1 : Derives grammar (.call .y) (c :: w) (some ([c], w)) :=
      .call (.oneOfYes (k := []) (by simp [AllCommas]) (hc c (h c (by simp))) (h c (by simp)))
    exact .repStep (n := 1) h1 (ys (fun x hx => h x (by simp [hx])))

end CForm

open CForm in
/-- A text of the form of a cmavo is one. -/
theorem cmavo_form_complete {w : List Char} (h : CmavoForm w) : parseRule .cmavo_minimal w = some (w, []) ∧
    parseRule .cmavo_form w = some (w, []) := by
  have key : parseRule .cmavo_form w = some (w, []) → parseRule .cvcy_lujvo w = none → parseRule .cmavo_minimal w = some (w, []) ∧
      parseRule .cmavo_form w = some (w, []) := fun h1 h2 =>
    ⟨derives_iff.mp (.call (.guardGo (derives_iff.mpr h2) (derives_iff.mpr h1))), h1⟩
  rcases h with ⟨d, hd, rfl⟩ | ⟨hn, hy⟩ | h | ⟨c, t, rfl, hc, ht⟩
  · exact ⟨win_ok_end win_digit ⟨hd, trivial⟩, win_ok_end win_digit_form ⟨hd, trivial⟩⟩
  · refine key (form_of (.inl (ys1 hn hy))) ?_
    have hyv : ∀ c ∈ c!"yY", c ∈ allVowels := by decide
    cases w with
    | nil => exact absurd rfl hn
    | cons c w => exact vowel_none win_cvcy0 (hyv c (hy c (by simp))) w
  · obtain ⟨c, u, rfl, hc⟩ := vowels_head h
    obtain ⟨g, s, e, hg, hs⟩ := vowels_first h
    refine key (form_of (.inr (branch (on := []) h ?_ ?_ ?_))) (vowel_none win_cvcy0 hc u)
    · exact notH (by simp [hc]) u
    · exact vowel_none win_cluster0 hc u
    · rw [List.nil_append, e]; exact onset0_group hg hs
  · obtain ⟨g, s, rfl, hg, hs⟩ := vowels_first ht
    rcases hc with hc | hc
    · have hc : c ∈ allConsonants := hc
      refine key (form_of (.inr (branch (on := [c]) ht ?_ ?_ ?_))) (cvcy_group (g := g) hc hg hs)
      · exact notH (by simp [hc]) _
      · exact cluster_group (g := g) hc hg hs
      · exact onset_group (g := g) hc hg hs
    · have hv : ∀ c ∈ c!"iuIU", c ∈ allVowels := by decide
      refine key (form_of (.inr (branch (on := [c]) ht ?_ ?_ ?_))) (vowel_none win_cvcy0 (hv c hc) _)
      · exact notH (by simp [hv c hc]) _
      · exact vowel_none win_cluster0 (hv c hc) _
      · exact onset1_group (g := g) hc hg hs

end Sneturfahi
