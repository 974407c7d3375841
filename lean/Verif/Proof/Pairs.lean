import Verif.Proof.Shape
import Verif.Spec.Phonology

/-!
# Consonant pairs
-/

namespace Sneturfahi

set_option linter.constructorNameAsVariable false

open Derives Spec

/-- The rules of the consonant letters. -/
def letterRules : List Rule :=
  [.b, .c, .d, .f, .g, .j, .k, .l, .m, .n, .p, .r, .s, .t, .v, .x, .z]

def letterChars (rule : Rule) : List Char :=
  match grammar rule with
  | .andNot (.oneOf chs) _ => chs
  | _ => []

def letterBlock (rule : Rule) : Exp Rule :=
  match grammar rule with
  | .andNot (.oneOf _) p => p
  | _ => .null

theorem letter_body : ∀ rule ∈ letterRules,
    grammar rule = .andNot (.oneOf (letterChars rule)) (letterBlock rule) := by
  intro rule h
  simp only [letterRules, List.mem_cons, List.not_mem_nil, or_false] at h
  rcases h with rfl | rfl | rfl | rfl | rfl | rfl | rfl | rfl | rfl | rfl | rfl | rfl | rfl | rfl | rfl | rfl | rfl <;> rfl

def noConsonant (chs : List Char) : Bool := chs.all (fun c => !decide (IsConsonantLetter c))

theorem nonLetter_grammar (rule : Rule) (h : rule ∉ letterRules) : expAll noConsonant (grammar rule) = true := by
  revert h
  cases rule <;> decide +kernel

theorem consonant_consumed {rule : Rule} {cs m r m1 m2 : List Char} {c : Char}
    (h : parseRule rule cs = some (m, r)) (hm : m = m1 ++ c :: m2) (hc : IsConsonantLetter c) :
    ∃ L ∈ letterRules, ∃ k, AllCommas k ∧ parseRule L (k ++ c :: (m2 ++ r)) = some (k ++ [c], m2 ++ r) := by
  obtain ⟨L, k, h1, h2, h3⟩ := consumed_letter (letter := fun r => r ∈ letterRules) (A := IsConsonantLetter)
    (P := noConsonant)
    (by
      intro chs h c hc
      simp only [noConsonant, List.all_eq_true] at h
      simpa using h c hc)
    (by decide) (fun r hr => ⟨_, _, letter_body r hr⟩) nonLetter_grammar (derives_iff.mpr h) rfl m r rfl m1 c m2 hm hc
  exact ⟨L, h1, k, h2, derives_iff.mp h3⟩

/-- What a successful letter rule tells. -/
theorem letter_inv {L : Rule} (hL : L ∈ letterRules) {k r : List Char} {c : Char} (hk : AllCommas k)
    (hc : c ≠ ',') (h : parseRule L (k ++ c :: r) = some (k ++ [c], r)) :
    c ∈ letterChars L ∧ Derives grammar (letterBlock L) r none := by
  have := derives_iff.mpr h
  cases this with
  | call h =>
    rw [letter_body L hL] at h
    cases h with
    | andNotYes h1 h2 =>
      refine ⟨?_, h2⟩
      generalize hcs : k ++ c :: r = cs at h1
      generalize hm : k ++ [c] = m at h1
      cases h1 with
      | @oneOfYes _ k' c' cs' g1 g2 g3 =>
        obtain ⟨rfl, rfl, _⟩ := commas_split hk hc g1 g2 hcs
        exact g3

def altCalls : Exp Rule → List Rule
  | .call r => [r]
  | .alt a b => altCalls a ++ altCalls b
  | _ => []

theorem altCalls_fail {e : Exp Rule} {cs : List Char} (h : Derives grammar e cs none) :
    ∀ rule ∈ altCalls e, parseRule rule cs = none := by
  induction e with
  | call r => intro rule hr; simp [altCalls] at hr; subst hr; exact derives_iff.mp h
  | alt a b iha ihb =>
    intro rule hr
    simp [altCalls] at hr
    cases h with
    | altR h1 h2 => exact hr.elim (iha h1 rule) (ihb h2 rule)
  | _ => intro rule hr; simp [altCalls] at hr

/-- Rules that must fail for `e` to fail. -/
def blockers (e : Exp Rule) : List Rule := (altCalls e).flatMap (fun r => r :: altCalls (grammar r))

theorem blockers_fail {e : Exp Rule} {cs : List Char} (h : Derives grammar e cs none) :
    ∀ rule ∈ blockers e, parseRule rule cs = none := by
  intro rule hr
  simp only [blockers, List.mem_flatMap, List.mem_cons] at hr
  obtain ⟨r, h1, h2⟩ := hr
  have h3 := altCalls_fail h r h1
  rcases h2 with rfl | h2
  · exact h3
  · cases derives_iff.mpr h3 with
    | call h4 => exact altCalls_fail h4 rule h2

/-- Leading commas make no difference. -/
theorem parseRule_leading (rule : Rule) {k k' r : List Char} {c : Char} (hk : AllCommas k) (hk' : AllCommas k')
    (_hc : c ≠ ',') (h : parseRule rule (k ++ c :: r) ≠ none) : parseRule rule (k' ++ c :: r) ≠ none := by
  have hs : CommaSim (k ++ c :: r) (k' ++ c :: r) := by
    refine ⟨?_, ?_⟩
    · rw [noCommas_append, noCommas_append, hk.noCommas, hk'.noCommas]
    · have key : ∀ k : List Char, NoTrail (k ++ c :: r) ↔ NoTrail (c :: r) := by
        intro k
        unfold NoTrail
        rw [List.getLast?_append]
        simp [List.getLast?_cons]
      rw [key, key]
  have := parseRule_comma rule hs
  intro h'
  rw [h'] at this
  cases hp : parseRule rule (k ++ c :: r) with
  | none => exact h hp
  | some x => rw [hp] at this; simp [ResSim] at this

/-- Two consonants in a row in a match. -/
theorem pair_consumed {rule : Rule} {cs m r m1 k m2 : List Char} {x y : Char}
    (h : parseRule rule cs = some (m, r)) (hm : m = m1 ++ x :: (k ++ y :: m2)) (hk : AllCommas k)
    (hx : IsConsonantLetter x) (hy : IsConsonantLetter y) :
    ∃ X ∈ letterRules, ∃ Y ∈ letterRules, x ∈ letterChars X ∧ y ∈ letterChars Y ∧
      Derives grammar (letterBlock X) (k ++ y :: (m2 ++ r)) none ∧
      parseRule Y (k ++ y :: (m2 ++ r)) ≠ none := by
  have nc : ∀ {c}, IsConsonantLetter c → c ≠ ',' := by rintro c hc rfl; revert hc; decide
  obtain ⟨X, hX, k1, hk1, h1⟩ := consonant_consumed h hm hx
  obtain ⟨Y, hY, k2, hk2, h2⟩ := consonant_consumed h (m1 := m1 ++ x :: k) (m2 := m2) (c := y) (by simp [hm]) hy
  have i1 := letter_inv hX hk1 (nc hx) h1
  have i2 := letter_inv hY hk2 (nc hy) h2
  refine ⟨X, hX, Y, hY, i1.1, i2.1, by simpa using i1.2, ?_⟩
  exact parseRule_leading Y hk2 hk (nc hy) (by rw [h2]; simp)

theorem pair_table : ∀ X ∈ letterRules, ∀ Y ∈ letterRules, Y ∉ blockers (letterBlock X) →
    ∀ x ∈ letterChars X, ∀ y ∈ letterChars Y, PermissiblePair (lower x) (lower y) := by
  decide +kernel

theorem match_pair {rule : Rule} {cs m r m1 k m2 : List Char} {x y : Char}
    (h : parseRule rule cs = some (m, r)) (hm : m = m1 ++ x :: (k ++ y :: m2)) (hk : AllCommas k)
    (hx : IsConsonantLetter x) (hy : IsConsonantLetter y) : PermissiblePair (lower x) (lower y) := by
  obtain ⟨X, hX, Y, hY, h1, h2, h3, h4⟩ := pair_consumed h hm hk hx hy
  exact pair_table X hX Y hY (fun hb => h4 (blockers_fail h3 Y hb)) x h1 y h2

/-! ### Triples -/

theorem n_only : ∀ X ∈ letterRules, (∀ x ∈ letterChars X, lower x = 'n' → X = .n) ∧
    (∀ x ∈ letterChars X, lower x = 't' → X = .t) ∧ (∀ x ∈ letterChars X, lower x = 'd' → X = .d) ∧
    (∀ x ∈ letterChars X, lower x = 'c' → X = .c) ∧ (∀ x ∈ letterChars X, lower x = 's' → X = .s) ∧
    (∀ x ∈ letterChars X, lower x = 'j' → X = .j) ∧ (∀ x ∈ letterChars X, lower x = 'z' → X = .z) := by
  decide +kernel

/-- If `affricate` fails, no affricate follows. -/
theorem affricate_fail {cs m r : List Char} (h : parseRule .affricate cs = none) :
    (parseRule .t cs = some (m, r) → parseRule .c r = none ∧ parseRule .s r = none) ∧
    (parseRule .d cs = some (m, r) → parseRule .j r = none ∧ parseRule .z r = none) := by
  have key : ∀ {A B C : Rule} {cs m r : List Char},
      Derives grammar (.seq (.call A) (.alt (.call B) (.call C))) cs none → parseRule A cs = some (m, r) →
      parseRule B r = none ∧ parseRule C r = none := by
    intro A B C cs m r h hA
    generalize hres : (none : Res) = res at h
    cases h with
    | seqFail h => rw [derives_iff.mp h] at hA; cases hA
    | @seqGo _ _ _ m' rest res h1 h2 =>
      rw [derives_iff.mp h1] at hA
      cases hA
      cases res with
      | some x => simp [Res.prepend] at hres
      | none =>
        cases h2 with
        | altR h3 h4 => exact ⟨derives_iff.mp h3, derives_iff.mp h4⟩
  cases derives_iff.mpr h with
  | call h1 =>
    cases h1 with
    | altR h2 h3 => exact ⟨key h2, key h3⟩

theorem match_triple {rule : Rule} {cs m r m1 k k' m2 : List Char} {x y z : Char}
    (h : parseRule rule cs = some (m, r)) (hm : m = m1 ++ x :: (k ++ y :: (k' ++ z :: m2)))
    (hk : AllCommas k) (hk' : AllCommas k')
    (hx : IsConsonantLetter x) (hy : IsConsonantLetter y) (hz : IsConsonantLetter z) :
    [lower x, lower y, lower z] ∉ forbiddenTriples := by
  intro hbad
  have nc : ∀ {c}, IsConsonantLetter c → c ≠ ',' := by rintro c hc rfl; revert hc; decide
  obtain ⟨X, hX, _, _, hx1, _, h3, _⟩ := pair_consumed h hm hk hx hy
  obtain ⟨Y, hY, k2, hk2, hYp⟩ := consonant_consumed h (m1 := m1 ++ x :: k) (m2 := k' ++ z :: m2) (c := y)
    (by simp [hm]) hy
  obtain ⟨Z, hZ, k3, hk3, hZp⟩ := consonant_consumed h (m1 := m1 ++ x :: (k ++ y :: k')) (m2 := m2) (c := z)
    (by simp [hm]) hz
  have hy1 := (letter_inv hY hk2 (nc hy) hYp).1
  have hz1 := (letter_inv hZ hk3 (nc hz) hZp).1
  simp only [forbiddenTriples, List.mem_cons, List.cons.injEq, and_true, List.not_mem_nil, or_false] at hbad
  have hn : lower x = 'n' := by rcases hbad with h | h | h | h <;> exact h.1
  obtain rfl := (n_only X hX).1 x hx1 hn
  have haff : parseRule .affricate (k ++ y :: (k' ++ z :: m2 ++ r)) = none :=
    blockers_fail h3 .affricate (by decide +kernel)
  -- the letter rule of `y` on the text after `x` matches up to `y`
  have hYk : ∃ k4, parseRule Y (k ++ y :: (k' ++ z :: m2 ++ r)) = some (k4, k' ++ z :: m2 ++ r) := by
    have hne := parseRule_leading Y hk2 hk (nc hy) (by rw [hYp]; simp)
    cases hp : parseRule Y (k ++ y :: (k' ++ z :: m2 ++ r)) with
    | none => exact absurd hp hne
    | some w =>
      obtain ⟨m', r'⟩ := w
      refine ⟨m', ?_⟩
      have hd := derives_iff.mpr hp
      generalize hcs : k ++ y :: (k' ++ z :: m2 ++ r) = cs at hd
      cases hd with
      | call hd =>
        rw [letter_body Y hY] at hd
        cases hd with
        | andNotYes h1 h2 =>
          cases h1 with
          | @oneOfYes _ k' c' cs' g1 g2 g3 =>
            obtain ⟨_, _, h⟩ := commas_split hk (nc hy) g1 g2 hcs
            rw [h]
  obtain ⟨k4, hYk⟩ := hYk
  have hZne : parseRule Z (k' ++ z :: m2 ++ r) ≠ none := by
    rw [List.append_assoc, List.cons_append]
    exact parseRule_leading Z hk3 hk' (nc hz) (by rw [hZp]; simp)
  have haf := affricate_fail (m := k4) (r := k' ++ z :: m2 ++ r) haff
  obtain ⟨_, ft, fd, fc, fs, fj, fz⟩ := n_only Y hY
  obtain ⟨_, _, _, gc, gs, gj, gz⟩ := n_only Z hZ
  rcases hbad with ⟨_, h2, h3⟩ | ⟨_, h2, h3⟩ | ⟨_, h2, h3⟩ | ⟨_, h2, h3⟩
  · obtain rfl := fd y hy1 h2; obtain rfl := gj z hz1 h3; exact hZne (haf.2 hYk).1
  · obtain rfl := fd y hy1 h2; obtain rfl := gz z hz1 h3; exact hZne (haf.2 hYk).2
  · obtain rfl := ft y hy1 h2; obtain rfl := gc z hz1 h3; exact hZne (haf.1 hYk).1
  · obtain rfl := ft y hy1 h2; obtain rfl := gs z hz1 h3; exact hZne (haf.1 hYk).2

end Sneturfahi
