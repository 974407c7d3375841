import Verif.Proof.Pairs

/-!
# Shapes of gismu and initial pairs
-/

namespace Sneturfahi

set_option linter.constructorNameAsVariable false

open Derives Spec

def allConsonants : List Char := c!"bcdfgjklmnprstvxzBCDFGJKLMNPRSTVXZ"
def allVowels : List Char := c!"aAeEiIoOuUyY"

/-- Shapes of the rules gismu are made of. -/
def wordShape : Rule → Option Shape
  | .b => some [[c!"bB"]]
  | .c => some [[c!"cC"]]
  | .d => some [[c!"dD"]]
  | .f => some [[c!"fF"]]
  | .g => some [[c!"gG"]]
  | .j => some [[c!"jJ"]]
  | .k => some [[c!"kK"]]
  | .l => some [[c!"lL"]]
  | .m => some [[c!"mM"]]
  | .n => some [[c!"nN"]]
  | .p => some [[c!"pP"]]
  | .r => some [[c!"rR"]]
  | .s => some [[c!"sS"]]
  | .t => some [[c!"tT"]]
  | .v => some [[c!"vV"]]
  | .x => some [[c!"xX"]]
  | .z => some [[c!"zZ"]]
  | .voiced => some [[allConsonants]]
  | .unvoiced => some [[allConsonants]]
  | .syllabic => some [[allConsonants]]
  | .consonant => some [[allConsonants]]
  | .a => some [[c!"aA"]]
  | .e => some [[c!"eE"]]
  | .i => some [[c!"iI"]]
  | .o => some [[c!"oO"]]
  | .u => some [[c!"uU"]]
  | .y => some [[c!"yY"]]
  | .h => some [[c!"'h"]]
  | .digit => some [[c!"0123456789"]]
  | .glide => some [[c!"iIuU"]]
  | .vowel => some [[allVowels]]
  | .diphthong => some [[allVowels, allVowels]]
  | .nucleus => some [[allVowels], [allVowels, allVowels]]
  | .explicitly_stressed_vowel => some [[allVowels]]
  | .stressed_vowel => some [[allVowels]]
  | .initial_pair => some [[allConsonants, allConsonants]]
  | .gismu => some [[allConsonants, allConsonants, allVowels, allConsonants, allVowels],
      [allConsonants, allVowels, allConsonants, allConsonants, allVowels]]
  | _ => none

theorem wordShape_ok (rule : Rule) : shapeOK grammar wordShape rule = true := by
  cases rule <;> decide +kernel

/-- A one-letter match is commas followed by the letter. -/
theorem single_match {m : List Char} {c : Char} (hn : NoTrail m) (h : noCommas m = [c]) :
    ∃ k, m = k ++ [c] ∧ AllCommas k ∧ c ≠ ',' := by
  obtain ⟨k, r, rfl, h1, h2, h3⟩ := noCommas_eq_cons h
  have hr : AllCommas r := noCommas_eq_nil.mp h3
  have hn' : NoTrail r := NoTrail.suffix (a := k ++ [c]) (by simpa using hn)
  rw [hn'.allCommas hr]
  exact ⟨k, by simp, h1, h2⟩

theorem fits_one {s m : List Char} (h : Fits [s] m) : ∃ c ∈ s, m = [c] := by
  match m, h with
  | [c], h => exact ⟨c, h.1, rfl⟩

theorem fits_two {s t m : List Char} (h : Fits [s, t] m) : ∃ c ∈ s, ∃ d ∈ t, m = [c, d] := by
  match m, h with
  | [c, d], h => exact ⟨c, h.1, d, h.2.1, rfl⟩

/-- A successful one-letter rule: commas, then one of its letters. -/
theorem oneLetter {rule : Rule} {s cs m r : List Char} (hs : wordShape rule = some [[s]])
    (h : parseRule rule cs = some (m, r)) :
    ∃ k c, AllCommas k ∧ c ∈ s ∧ c ≠ ',' ∧ m = k ++ [c] ∧ cs = k ++ c :: r := by
  have hd := derives_iff.mpr h
  obtain ⟨t, ht, hf⟩ := shape_sound wordShape_ok hd m r _ rfl (by simpa [shapeE] using hs)
  simp only [List.mem_singleton] at ht
  subst ht
  obtain ⟨c, hc, hm⟩ := fits_one hf
  obtain ⟨k, rfl, hk, hc'⟩ := single_match (parseRule_noTrail h) hm
  exact ⟨k, c, hk, hc, hc', rfl, by simpa using (parseRule_append h).symm⟩

/-- `nucleus` starts with a vowel. -/
theorem nucleus_first {cs m r : List Char} (h : parseRule .nucleus cs = some (m, r)) :
    ∃ v t, v ∈ allVowels ∧ noCommas cs = v :: t := by
  obtain ⟨s, hs, hf⟩ := shape_sound wordShape_ok (derives_iff.mpr h) m r
    [[allVowels], [allVowels, allVowels]] rfl rfl
  rw [← parseRule_append h, noCommas_append]
  simp only [List.mem_cons, List.not_mem_nil, or_false] at hs
  rcases hs with rfl | rfl
  · obtain ⟨v, hv, hm⟩ := fits_one hf
    exact ⟨v, noCommas r, hv, by rw [hm]; rfl⟩
  · obtain ⟨v, hv, w, _, hm⟩ := fits_two hf
    exact ⟨v, w :: noCommas r, hv, by rw [hm]; rfl⟩

theorem oneOf_first {rule : Rule} {chs cs : List Char} {c : Char} {t : List Char}
    (hg : grammar rule = .oneOf chs) (h : noCommas cs = c :: t) (hc : c ∈ chs) : parseRule rule cs ≠ none := by
  obtain ⟨k, r, rfl, hk, hc', _⟩ := noCommas_eq_cons h
  have : parseRule rule (k ++ c :: r) = some (k ++ [c], r) :=
    derives_iff.mp (.call (by rw [hg]; exact .oneOfYes hk hc' hc))
  rw [this]
  simp

/-! ### Inversion helpers -/

theorem seq_inv {e f : Exp Rule} {cs m r : List Char} (h : Derives grammar (.seq e f) cs (some (m, r))) :
    ∃ m1 r1 m2, Derives grammar e cs (some (m1, r1)) ∧ Derives grammar f r1 (some (m2, r)) ∧ m = m1 ++ m2 := by
  generalize hres : (some (m, r) : Res) = res at h
  cases h with
  | seqFail h => cases hres
  | @seqGo _ _ _ m1 r1 res h1 h2 =>
    obtain ⟨m2, h3, h4⟩ := Res.prepend_some hres.symm
    subst h3
    exact ⟨m1, r1, m2, h1, h2, h4⟩

theorem alt_inv {e f : Exp Rule} {cs : List Char} {x} (h : Derives grammar (.alt e f) cs (some x)) :
    Derives grammar e cs (some x) ∨ (Derives grammar e cs none ∧ Derives grammar f cs (some x)) := by
  cases h with
  | altL h => exact Or.inl h
  | altR h1 h2 => exact Or.inr ⟨h1, h2⟩

theorem call_inv {rule : Rule} {cs : List Char} {x} (h : Derives grammar (.call rule) cs x) :
    Derives grammar (grammar rule) cs x := by cases h with | call h => exact h

theorem peek_inv {e : Exp Rule} {cs m r : List Char} (h : Derives grammar (.peek e) cs (some (m, r))) :
    m = [] ∧ r = cs ∧ ∃ x, Derives grammar e cs (some x) := by
  cases h with
  | peekYes h => exact ⟨rfl, rfl, _, h⟩

theorem not_inv {e : Exp Rule} {cs m r : List Char} (h : Derives grammar (.not e) cs (some (m, r))) :
    m = [] ∧ r = cs ∧ Derives grammar e cs none := by
  cases h with
  | notYes h => exact ⟨rfl, rfl, h⟩

theorem andNot_inv {e p : Exp Rule} {cs m r : List Char} (h : Derives grammar (.andNot e p) cs (some (m, r))) :
    Derives grammar e cs (some (m, r)) ∧ Derives grammar p r none := by
  cases h with
  | andNotYes h1 h2 => exact ⟨h1, h2⟩

theorem opt_inv {e : Exp Rule} {cs m r : List Char} (h : Derives grammar (.opt e) cs (some (m, r))) :
    Derives grammar e cs (some (m, r)) ∨ (m = [] ∧ r = cs) := by
  rcases alt_inv h with h | ⟨_, h⟩
  · exact Or.inl h
  · cases h; exact Or.inr ⟨rfl, rfl⟩

/-! ### One letter, followed by none of some others -/

/-- Sequences of negative lookaheads. -/
def negs : Exp Rule → Option (List Rule)
  | .not e => some (blockers e)
  | .seq a b => (negs a).bind fun x => (negs b).map fun y => x ++ y
  | _ => none

theorem negs_inv {e : Exp Rule} : ∀ {cs m r : List Char} {F : List Rule}, negs e = some F →
    Derives grammar e cs (some (m, r)) → m = [] ∧ r = cs ∧ ∀ f ∈ F, parseRule f cs = none := by
  induction e with
  | not e _ =>
    intro cs m r F hF h
    simp only [negs, Option.some.injEq] at hF
    subst hF
    obtain ⟨h1, h2, h3⟩ := not_inv h
    exact ⟨h1, h2, blockers_fail h3⟩
  | seq a b iha ihb =>
    intro cs m r F hF h
    simp only [negs, Option.bind_eq_some_iff, Option.map_eq_some_iff] at hF
    obtain ⟨x, hx, y, hy, rfl⟩ := hF
    obtain ⟨m1, r1, m2, h1, h2, rfl⟩ := seq_inv h
    obtain ⟨rfl, rfl, h3⟩ := iha hx h1
    obtain ⟨rfl, rfl, h4⟩ := ihb hy h2
    refine ⟨rfl, rfl, ?_⟩
    intro f hf
    simp at hf
    exact hf.elim (h3 f) (h4 f)
  | _ => intro cs m r F hF; simp [negs] at hF

/-- Alternatives "letter rule, then none of these". -/
def guarded : Exp Rule → Option (List (Rule × List Rule))
  | .call rule => some [(rule, [])]
  | .alt a b => (guarded a).bind fun x => (guarded b).map fun y => x ++ y
  | .seq a b => (guarded a).bind fun x => (negs b).map fun F => x.map fun p => (p.1, p.2 ++ F)
  | _ => none

theorem guarded_inv {e : Exp Rule} : ∀ {cs m r : List Char} {G : List (Rule × List Rule)}, guarded e = some G →
    Derives grammar e cs (some (m, r)) → ∃ p ∈ G, parseRule p.1 cs = some (m, r) ∧
      ∀ f ∈ p.2, parseRule f r = none := by
  induction e with
  | call rule =>
    intro cs m r G hG h
    simp only [guarded, Option.some.injEq] at hG
    subst hG
    exact ⟨(rule, []), by simp, derives_iff.mp h, by simp⟩
  | alt a b iha ihb =>
    intro cs m r G hG h
    simp only [guarded, Option.bind_eq_some_iff, Option.map_eq_some_iff] at hG
    obtain ⟨x, hx, y, hy, rfl⟩ := hG
    rcases alt_inv h with h | ⟨_, h⟩
    · obtain ⟨p, hp, h'⟩ := iha hx h
      exact ⟨p, by simp [hp], h'⟩
    · obtain ⟨p, hp, h'⟩ := ihb hy h
      exact ⟨p, by simp [hp], h'⟩
  | seq a b iha _ =>
    intro cs m r G hG h
    simp only [guarded, Option.bind_eq_some_iff, Option.map_eq_some_iff] at hG
    obtain ⟨x, hx, F, hF, rfl⟩ := hG
    obtain ⟨m1, r1, m2, h1, h2, rfl⟩ := seq_inv h
    obtain ⟨p, hp, h3, h4⟩ := iha hx h1
    obtain ⟨rfl, rfl, h5⟩ := negs_inv hF h2
    refine ⟨(p.1, p.2 ++ F), List.mem_map.mpr ⟨p, hp, rfl⟩, by simpa using h3, ?_⟩
    intro f hf
    simp at hf
    exact hf.elim (h4 f) (h5 f)
  | _ => intro cs m r G hG; simp [guarded] at hG

/-- The alternatives of a rule body. -/
def guardedOf (rule : Rule) : List (Rule × List Rule) := (guarded (grammar rule)).getD []

theorem rule_guarded {rule : Rule} {cs m r : List Char} (hg : guarded (grammar rule) = some (guardedOf rule))
    (h : parseRule rule cs = some (m, r)) : ∃ p ∈ guardedOf rule, parseRule p.1 cs = some (m, r) ∧
      ∀ f ∈ p.2, parseRule f r = none :=
  guarded_inv hg (call_inv (derives_iff.mpr h))

theorem letter_match {L : Rule} (hL : L ∈ letterRules) {k t m r : List Char} {c : Char} (hk : AllCommas k)
    (hc : c ≠ ',') (h : parseRule L (k ++ c :: t) = some (m, r)) :
    m = k ++ [c] ∧ r = t ∧ c ∈ letterChars L ∧ ∀ b ∈ blockers (letterBlock L), parseRule b r = none := by
  have h1 := call_inv (derives_iff.mpr h)
  rw [letter_body L hL] at h1
  obtain ⟨h2, h3⟩ := andNot_inv h1
  refine ⟨?_, ?_, ?_, blockers_fail h3⟩
  all_goals
    generalize hcs : k ++ c :: t = cs at h2
    cases h2 with
    | @oneOfYes _ k' c' cs' g1 g2 g3 =>
      obtain ⟨rfl, rfl, rfl⟩ := commas_split hk hc g1 g2 hcs
      first | rfl | exact g3

theorem consonant_classes : ∀ rule ∈ [Rule.voiced, .unvoiced, .syllabic],
    guarded (grammar rule) = some (guardedOf rule) ∧ ∀ p ∈ guardedOf rule, p.1 ∈ letterRules := by
  decide +kernel

theorem consonant_alts : ∀ p ∈ guardedOf .consonant, p.1 ∈ [Rule.voiced, .unvoiced, .syllabic] := by
  decide +kernel

theorem letter_class : ∀ L ∈ letterRules, ∃ rule ∈ [Rule.voiced, .unvoiced, .syllabic],
    L ∈ blockers (.call rule) := by
  decide +kernel

/-- The letter rules of a consonant text: a text on which `consonant` succeeds starts with a consonant
whose letter rule succeeds. -/
theorem consonant_letter {cs m r : List Char} (h : parseRule .consonant cs = some (m, r)) :
    ∃ L ∈ letterRules, parseRule L cs = some (m, r) := by
  have key : ∀ rule ∈ [Rule.voiced, .unvoiced, .syllabic], parseRule rule cs = some (m, r) →
      ∃ L ∈ letterRules, parseRule L cs = some (m, r) := by
    intro rule hr h
    have hg := consonant_classes rule hr
    obtain ⟨p, hp, h1, _⟩ := rule_guarded hg.1 h
    exact ⟨p.1, hg.2 p hp, h1⟩
  obtain ⟨p, hp, h1, _⟩ := rule_guarded (rule := .consonant) (by decide +kernel) h
  exact key p.1 (consonant_alts p hp) h1

theorem letter_consonant {L : Rule} (hL : L ∈ letterRules) {cs : List Char} (h : parseRule L cs ≠ none) :
    parseRule .consonant cs ≠ none := by
  intro hn
  have := blockers_fail (e := .call .consonant) (derives_iff.mpr hn)
  have h1 : ∀ rule ∈ [Rule.voiced, .unvoiced, .syllabic], parseRule rule cs = none := by
    intro rule hr
    apply this
    revert rule
    decide +kernel
  obtain ⟨rule, hr, hb⟩ := letter_class L hL
  exact h (blockers_fail (derives_iff.mpr (h1 rule hr)) L hb)

/-- Two guarded letters one after the other, both letter rules having succeeded. -/
theorem guarded_pair {r0 r1' : Rule} {cs ma ra mb rb : List Char}
    (g1 : guarded (grammar r0) = some (guardedOf r0))
    (g2 : guarded (grammar r1') = some (guardedOf r1'))
    (l1 : ∀ p ∈ guardedOf r0, p.1 ∈ letterRules) (l2 : ∀ p ∈ guardedOf r1', p.1 ∈ letterRules)
    (table : ∀ p ∈ guardedOf r0, ∀ q ∈ guardedOf r1', q.1 ∉ p.2 → q.1 ∉ blockers (letterBlock p.1) →
      ∀ x ∈ letterChars p.1, ∀ y ∈ letterChars q.1, [lower x, lower y] ∈ initialPairs)
    (h1 : parseRule r0 cs = some (ma, ra)) (h2 : parseRule r1' ra = some (mb, rb))
    {k k' t : List Char} {x y : Char} (hk : AllCommas k) (hk' : AllCommas k') (hx : x ≠ ',') (hy : y ≠ ',')
    (hcs : cs = k ++ x :: (k' ++ y :: t)) : [lower x, lower y] ∈ initialPairs ∧ rb = t := by
  obtain ⟨p, hp, h3, h4⟩ := rule_guarded g1 h1
  obtain ⟨q, hq, h5, _⟩ := rule_guarded g2 h2
  subst hcs
  obtain ⟨_, rfl, hxL, hb⟩ := letter_match (l1 p hp) hk hx h3
  obtain ⟨_, rfl, hyL, _⟩ := letter_match (l2 q hq) hk' hy h5
  refine ⟨table p hp q hq ?_ ?_ x hxL y hyL, rfl⟩
  · intro hf; rw [h4 _ hf] at h5; cases h5
  · intro hf; rw [hb _ hf] at h5; cases h5

theorem lojban_pairs : (∀ p ∈ guardedOf .sibilant, p.1 ∈ letterRules) ∧ (∀ p ∈ guardedOf .other, p.1 ∈ letterRules) ∧
    (∀ p ∈ guardedOf .liquid, p.1 ∈ letterRules) ∧
    guarded (grammar .sibilant) = some (guardedOf .sibilant) ∧ guarded (grammar .other) = some (guardedOf .other) ∧
    guarded (grammar .liquid) = some (guardedOf .liquid) := by
  decide +kernel

theorem table_so : ∀ p ∈ guardedOf .sibilant, ∀ q ∈ guardedOf .other, q.1 ∉ p.2 → q.1 ∉ blockers (letterBlock p.1) →
    ∀ x ∈ letterChars p.1, ∀ y ∈ letterChars q.1, [lower x, lower y] ∈ initialPairs := by decide +kernel
theorem table_sl : ∀ p ∈ guardedOf .sibilant, ∀ q ∈ guardedOf .liquid, q.1 ∉ p.2 → q.1 ∉ blockers (letterBlock p.1) →
    ∀ x ∈ letterChars p.1, ∀ y ∈ letterChars q.1, [lower x, lower y] ∈ initialPairs := by decide +kernel
theorem table_ol : ∀ p ∈ guardedOf .other, ∀ q ∈ guardedOf .liquid, q.1 ∉ p.2 → q.1 ∉ blockers (letterBlock p.1) →
    ∀ x ∈ letterChars p.1, ∀ y ∈ letterChars q.1, [lower x, lower y] ∈ initialPairs := by decide +kernel

theorem initialPair_inv {cs m r : List Char} (h : parseRule .initial_pair cs = some (m, r)) :
    ∃ k k' x y, AllCommas k ∧ AllCommas k' ∧ IsConsonantLetter x ∧ IsConsonantLetter y ∧
      m = k ++ x :: (k' ++ [y]) ∧ cs = k ++ x :: (k' ++ y :: r) ∧ [lower x, lower y] ∈ initialPairs := by
  have nc : ∀ {c}, IsConsonantLetter c → c ≠ ',' := by rintro c hc rfl; revert hc; decide
  obtain ⟨_, _, _, h0, h', rfl⟩ := seq_inv (call_inv (derives_iff.mpr h))
  obtain ⟨rfl, rfl, ⟨mi, ri⟩, hi⟩ := peek_inv h0
  obtain ⟨m1, r1, _, hc1, h'', rfl⟩ := seq_inv h'
  obtain ⟨m2, r2, _, hc2, h3, rfl⟩ := seq_inv h''
  obtain ⟨rfl, rfl, hc3⟩ := not_inv h3
  have hc1 := derives_iff.mp hc1
  have hc2 := derives_iff.mp hc2
  have hc3 := derives_iff.mp hc3
  obtain ⟨k, x, hk, hx, hx', rfl, hcs⟩ := oneLetter (rule := .consonant) rfl hc1
  obtain ⟨k', y, hk', hy, hy', rfl, rfl⟩ := oneLetter (rule := .consonant) rfl hc2
  subst hcs
  refine ⟨k, k', x, y, hk, hk', hx, hy, by simp, rfl, ?_⟩
  obtain ⟨hi, _⟩ := andNot_inv (call_inv hi)
  obtain ⟨hi, hic⟩ := andNot_inv hi
  have hic := derives_iff.mp hic
  have hlet : ∀ {L : Rule} {k t m r : List Char} {c : Char}, L ∈ letterRules → AllCommas k → c ≠ ',' →
      parseRule L (k ++ c :: t) = some (m, r) → r = t ∧ c ∈ letterChars L := by
    intro L k t m r c hL hk hc h
    obtain ⟨_, h1, h2, _⟩ := letter_match hL hk hc h
    exact ⟨h1, h2⟩
  obtain ⟨ls, lo, ll, gs, go, gl⟩ := lojban_pairs
  rcases alt_inv hi with hi | ⟨_, hi⟩
  · -- affricates
    rcases alt_inv (call_inv hi) with hi | ⟨_, hi⟩
    · obtain ⟨ma, ra, mb, ha, hb, _⟩ := seq_inv hi
      obtain ⟨rfl, hx2⟩ := hlet (by decide) hk hx' (derives_iff.mp ha)
      rcases alt_inv hb with hb | ⟨_, hb⟩
      · obtain ⟨_, hy2⟩ := hlet (by decide) hk' hy' (derives_iff.mp hb)
        have : ∀ x ∈ letterChars .t, ∀ y ∈ letterChars .c, [lower x, lower y] ∈ initialPairs := by decide +kernel
        exact this x hx2 y hy2
      · obtain ⟨_, hy2⟩ := hlet (by decide) hk' hy' (derives_iff.mp hb)
        have : ∀ x ∈ letterChars .t, ∀ y ∈ letterChars .s, [lower x, lower y] ∈ initialPairs := by decide +kernel
        exact this x hx2 y hy2
    · obtain ⟨ma, ra, mb, ha, hb, _⟩ := seq_inv hi
      obtain ⟨rfl, hx2⟩ := hlet (by decide) hk hx' (derives_iff.mp ha)
      rcases alt_inv hb with hb | ⟨_, hb⟩
      · obtain ⟨_, hy2⟩ := hlet (by decide) hk' hy' (derives_iff.mp hb)
        have : ∀ x ∈ letterChars .d, ∀ y ∈ letterChars .j, [lower x, lower y] ∈ initialPairs := by decide +kernel
        exact this x hx2 y hy2
      · obtain ⟨_, hy2⟩ := hlet (by decide) hk' hy' (derives_iff.mp hb)
        have : ∀ x ∈ letterChars .d, ∀ y ∈ letterChars .z, [lower x, lower y] ∈ initialPairs := by decide +kernel
        exact this x hx2 y hy2
  · -- sibilant? other? liquid?
    obtain ⟨ma, ra, mr, ha, hr, _⟩ := seq_inv hi
    obtain ⟨mb, rb, mc, hb, hc, _⟩ := seq_inv hr
    have hsingle : ∀ {rule : Rule} {k t m r : List Char} {c : Char}, AllCommas k → c ≠ ',' →
        guarded (grammar rule) = some (guardedOf rule) → (∀ p ∈ guardedOf rule, p.1 ∈ letterRules) →
        Derives grammar (.call rule) (k ++ c :: t) (some (m, r)) → r = t := by
      intro rule k t m r c hk hc hg hl h
      obtain ⟨p, hp, h1, _⟩ := rule_guarded hg (derives_iff.mp h)
      exact (hlet (hl p hp) hk hc h1).1
    rcases opt_inv ha with ha | ⟨_, rfl⟩
    · obtain rfl := hsingle hk hx' gs ls ha
      rcases opt_inv hb with hb | ⟨_, rfl⟩
      · exact (guarded_pair gs go ls lo table_so (derives_iff.mp ha) (derives_iff.mp hb) hk hk' hx' hy' rfl).1
      · rcases opt_inv hc with hc | ⟨_, rfl⟩
        · exact (guarded_pair gs gl ls ll table_sl (derives_iff.mp ha) (derives_iff.mp hc) hk hk' hx' hy' rfl).1
        · rw [hic] at hc2; cases hc2
    · rcases opt_inv hb with hb | ⟨_, rfl⟩
      · obtain rfl := hsingle hk hx' go lo hb
        rcases opt_inv hc with hc | ⟨_, rfl⟩
        · exact (guarded_pair go gl lo ll table_ol (derives_iff.mp hb) (derives_iff.mp hc) hk hk' hx' hy' rfl).1
        · rw [hic] at hc2; cases hc2
      · rcases opt_inv hc with hc | ⟨_, rfl⟩
        · obtain rfl := hsingle hk hx' gl ll hc
          rw [hic] at hc2; cases hc2
        · rw [hic] at hc1; cases hc1

end Sneturfahi
