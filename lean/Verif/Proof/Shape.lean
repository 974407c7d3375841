import Verif.Proof.RulesSim

/-!
# The letters a rule can match

`shapeE` computes, for rules of bounded length, the sequences of letter sets their matches follow;
`consumed_letter` shows that a consonant of a match was consumed by the rule of its letter.
-/

namespace Sneturfahi

open Derives

/-- The word has one letter from each set, in order. -/
def Fits : List (List Char) → List Char → Prop
  | [], [] => True
  | s :: ss, c :: cs => c ∈ s ∧ Fits ss cs
  | _, _ => False

theorem Fits.append {a b : List (List Char)} {x y : List Char} (h : Fits a x) (h' : Fits b y) :
    Fits (a ++ b) (x ++ y) := by
  induction a generalizing x with
  | nil => cases x with
    | nil => exact h'
    | cons => simp [Fits] at h
  | cons s a ih => cases x with
    | nil => simp [Fits] at h
    | cons c x => exact ⟨h.1, ih h.2⟩

/-- Sequences of letter sets. -/
abbrev Shape := List (List (List Char))

def subSeq : List (List Char) → List (List Char) → Bool
  | [], [] => true
  | s :: ss, t :: ts => s.all (fun c => t.contains c) && subSeq ss ts
  | _, _ => false

theorem subSeq_fits {a b : List (List Char)} (h : subSeq a b = true) {x : List Char} (hx : Fits a x) :
    Fits b x := by
  induction a generalizing b x with
  | nil => cases b with
    | nil => exact hx
    | cons => simp [subSeq] at h
  | cons s a ih => cases b with
    | nil => simp [subSeq] at h
    | cons t b => cases x with
      | nil => simp [Fits] at hx
      | cons c x =>
        simp only [subSeq, Bool.and_eq_true, List.all_eq_true] at h
        exact ⟨by simpa using h.1 c hx.1, ih h.2 hx.2⟩

/-- Every sequence of the first is covered by one of the second. -/
def Shape.sub (a b : Shape) : Bool := a.all (fun s => b.any (fun t => subSeq s t))

variable {R : Type}

def shapeE (tbl : R → Option Shape) : Exp R → Option Shape
  | .null => some [[]]
  | .eof => some [[]]
  | .oneOf chs => some [[chs]]
  | .call r => tbl r
  | .not _ => some [[]]
  | .peek _ => some [[]]
  | .alt a b => (shapeE tbl a).bind fun x => (shapeE tbl b).map fun y => x ++ y
  | .longest a b => (shapeE tbl a).bind fun x => (shapeE tbl b).map fun y => x ++ y
  | .seq a b => (shapeE tbl a).bind fun x => (shapeE tbl b).map fun y => x.flatMap fun s => y.map fun t => s ++ t
  | .rep _ _ => none
  | .andPeek e _ => shapeE tbl e
  | .andNot e _ => shapeE tbl e
  | .guardNot _ e => shapeE tbl e

/-- The table agrees with the bodies. -/
def shapeOK (g : R → Exp R) (tbl : R → Option Shape) (r : R) : Bool :=
  match tbl r with
  | none => true
  | some s =>
    match shapeE tbl (g r) with
    | none => false
    | some s' => Shape.sub s' s

theorem shape_sound {g : R → Exp R} {tbl : R → Option Shape} (ok : ∀ r, shapeOK g tbl r = true)
    {e : Exp R} {cs : List Char} {res : Res} (h : Derives g e cs res) :
    ∀ m r S, res = some (m, r) → shapeE tbl e = some S → ∃ s ∈ S, Fits s (noCommas m) := by
  induction h with
  | null => intro m r S h hS; cases h; cases hS; exact ⟨[], by simp, trivial⟩
  | eofYes => intro m r S h hS; cases h; cases hS; exact ⟨[], by simp, trivial⟩
  | @oneOfYes chs k c cs h1 h2 h3 =>
    intro m r S h hS
    cases h; cases hS
    refine ⟨[chs], by simp, ?_⟩
    rw [noCommas_append, h1.noCommas, noCommas_cons h2]
    exact ⟨h3, trivial⟩
  | @call rule cs res _ ih =>
    intro m r S h hS
    have := ok rule
    simp only [shapeE] at hS
    simp only [shapeOK, hS] at this
    cases hb : shapeE tbl (g rule) with
    | none => simp [hb] at this
    | some S' =>
      simp only [hb] at this
      obtain ⟨s, hs, hf⟩ := ih m r S' h hb
      simp only [Shape.sub, List.all_eq_true, List.any_eq_true] at this
      obtain ⟨t, ht, hst⟩ := this s hs
      exact ⟨t, ht, subSeq_fits hst hf⟩
  | notYes => intro m r S h hS; cases h; cases hS; exact ⟨[], by simp, trivial⟩
  | peekYes => intro m r S h hS; cases h; cases hS; exact ⟨[], by simp, trivial⟩
  | altL _ ih =>
    intro m r S h hS
    simp only [shapeE, Option.bind_eq_some_iff, Option.map_eq_some_iff] at hS
    obtain ⟨x, hx, y, hy, rfl⟩ := hS
    obtain ⟨s, hs, hf⟩ := ih m r x h hx
    exact ⟨s, by simp [hs], hf⟩
  | altR _ _ _ ih =>
    intro m r S h hS
    simp only [shapeE, Option.bind_eq_some_iff, Option.map_eq_some_iff] at hS
    obtain ⟨x, hx, y, hy, rfl⟩ := hS
    obtain ⟨s, hs, hf⟩ := ih m r y h hy
    exact ⟨s, by simp [hs], hf⟩
  | @longest a b cs ra rb _ _ iha ihb =>
    intro m r S h hS
    simp only [shapeE, Option.bind_eq_some_iff, Option.map_eq_some_iff] at hS
    obtain ⟨x, hx, y, hy, rfl⟩ := hS
    have : ra = some (m, r) ∨ rb = some (m, r) := by
      cases ra with
      | none => exact Or.inr (by simpa [Res.longest] using h)
      | some u =>
        cases rb with
        | none => exact Or.inl (by simpa [Res.longest, Prod.ext_iff] using h)
        | some v =>
          simp only [Res.longest, Option.some.injEq] at h
          split at h
          · exact Or.inl (by rw [← h])
          · exact Or.inr (by rw [← h])
    rcases this with h | h
    · obtain ⟨s, hs, hf⟩ := iha m r x h hx
      exact ⟨s, by simp [hs], hf⟩
    · obtain ⟨s, hs, hf⟩ := ihb m r y h hy
      exact ⟨s, by simp [hs], hf⟩
  | seqGo _ _ iha ihb =>
    intro m r S h hS
    simp only [shapeE, Option.bind_eq_some_iff, Option.map_eq_some_iff] at hS
    obtain ⟨x, hx, y, hy, rfl⟩ := hS
    obtain ⟨m', h1, rfl⟩ := Res.prepend_some h
    obtain ⟨s, hs, hf⟩ := iha _ _ x rfl hx
    obtain ⟨t, ht, hg⟩ := ihb _ _ y h1 hy
    refine ⟨s ++ t, ?_, ?_⟩
    · simp only [List.mem_flatMap, List.mem_map]
      exact ⟨s, hs, t, ht, rfl⟩
    · rw [noCommas_append]; exact hf.append hg
  | repStop => intro m r S h hS; cases hS
  | repStep => intro m r S h hS; cases hS
  | andPeekYes _ _ iha _ => intro m r S h hS; cases h; exact iha _ _ S rfl hS
  | andNotYes _ _ iha _ => intro m r S h hS; cases h; exact iha _ _ S rfl hS
  | guardGo _ _ _ ih => intro m r S h hS; exact ih m r S h hS
  | _ => intro m r S h; cases h

/-! ### Who consumed a letter -/

theorem split_append {A : Type} {a b m1 m2 : List A} {c : A} (h : a ++ b = m1 ++ c :: m2)
    {P : Prop} (left : ∀ d, a = m1 ++ c :: d → m2 = d ++ b → P) (right : ∀ d, m1 = a ++ d → b = d ++ c :: m2 → P) :
    P := by
  rcases List.append_eq_append_iff.mp h with ⟨d, h1, h2⟩ | ⟨d, h1, h2⟩
  · exact right d h1 h2
  · cases d with
    | nil => simp at h1 h2; exact right [] (by simp [h1]) (by simp [h2])
    | cons x d =>
      simp at h2
      exact left d (by rw [h1, h2.1]) (by rw [h2.2])

theorem consumed_letter {g : R → Exp R} {letter : R → Prop} [DecidablePred letter] {A : Char → Prop}
    {P : List Char → Bool} (hP : ∀ chs, P chs = true → ∀ c ∈ chs, ¬ A c) (hA : ¬ A ',')
    (hL : ∀ r, letter r → ∃ chs p, g r = .andNot (.oneOf chs) p)
    (hN : ∀ r, ¬ letter r → expAll P (g r) = true)
    {e : Exp R} {cs : List Char} {res : Res} (h : Derives g e cs res) :
    expAll P e = true → ∀ m r, res = some (m, r) → ∀ m1 c m2, m = m1 ++ c :: m2 → A c →
      ∃ rule k, letter rule ∧ AllCommas k ∧
        Derives g (.call rule) (k ++ c :: (m2 ++ r)) (some (k ++ [c], m2 ++ r)) := by
  have nil_case : ∀ {Q : Prop} {m1 m2 : List Char} {c : Char}, [] = m1 ++ c :: m2 → Q := by
    intro Q m1 m2 c h; simp at h
  have one_case : ∀ {k m1 m2 : List Char} {c' c : Char}, AllCommas k → k ++ [c'] = m1 ++ c :: m2 → A c →
      m1 = k ∧ c = c' ∧ m2 = [] := by
    intro k m1 m2 c' c hk h hc
    refine split_append h ?_ ?_
    · intro d h1 _
      have : c = ',' := hk c (by rw [h1]; simp)
      subst this
      exact absurd hc hA
    · intro d h1 h2
      cases d with
      | nil => simp at h1 h2; exact ⟨h1, h2.1.symm, h2.2⟩
      | cons x d => simp at h2
  induction h with
  | null => intro _ m r h m1 c m2 hm; cases h; exact nil_case hm
  | eofYes => intro _ m r h m1 c m2 hm; cases h; exact nil_case hm
  | @oneOfYes chs k c' cs h1 h2 h3 =>
    intro hE m r h m1 c m2 hm hc
    cases h
    obtain ⟨_, rfl, _⟩ := one_case h1 hm hc
    exact absurd hc (hP chs hE _ h3)
  | @call rule cs res hd ih =>
    intro _ m r h m1 c m2 hm hc
    by_cases hl : letter rule
    · have hd' := hd
      obtain ⟨chs, p, hg⟩ := hL rule hl
      rw [hg] at hd
      subst h
      cases hd with
      | andNotYes h1 h2 =>
        cases h1 with
        | @oneOfYes _ k c' cs h1 h2 h3 =>
          obtain ⟨rfl, rfl, rfl⟩ := one_case h1 hm hc
          exact ⟨rule, m1, hl, h1, .call hd'⟩
    · exact ih (hN rule hl) m r h m1 c m2 hm hc
  | notYes => intro _ m r h m1 c m2 hm; cases h; exact nil_case hm
  | peekYes => intro _ m r h m1 c m2 hm; cases h; exact nil_case hm
  | altL _ ih => intro hE; simp [expAll] at hE; exact ih hE.1
  | altR _ _ _ ih => intro hE; simp [expAll] at hE; exact ih hE.2
  | @longest a b cs ra rb _ _ iha ihb =>
    intro hE m r h
    simp [expAll] at hE
    have : ra = some (m, r) ∨ rb = some (m, r) := by
      cases ra with
      | none => exact Or.inr (by simpa [Res.longest] using h)
      | some u =>
        cases rb with
        | none => exact Or.inl (by simpa [Res.longest, Prod.ext_iff] using h)
        | some v =>
          simp only [Res.longest, Option.some.injEq] at h
          split at h
          · exact Or.inl (by rw [← h])
          · exact Or.inr (by rw [← h])
    rcases this with h | h
    · exact iha hE.1 m r h
    · exact ihb hE.2 m r h
  | @seqGo a b cs ma rest res ha hb iha ihb =>
    intro hE m r h m1 c m2 hm hc
    simp [expAll] at hE
    obtain ⟨m', h1, rfl⟩ := Res.prepend_some h
    subst h1
    refine split_append hm ?_ ?_
    · intro d h1 h2
      obtain ⟨rule, k, h3, h4, h5⟩ := iha hE.1 _ _ rfl m1 c d h1 hc
      refine ⟨rule, k, h3, h4, ?_⟩
      rw [← append_eq' hb, ← List.append_assoc, ← h2] at h5
      exact h5
    · intro d h1 h2
      exact ihb hE.2 _ _ rfl d c m2 h2 hc
  | repStop => intro _ m r h m1 c m2 hm; cases h; exact nil_case hm
  | @repStep n e cs ma rest res ha hb iha ihb =>
    intro hE m r h m1 c m2 hm hc
    obtain ⟨m', h1, rfl⟩ := Res.prepend_some h
    subst h1
    refine split_append hm ?_ ?_
    · intro d h1 h2
      obtain ⟨rule, k, h3, h4, h5⟩ := iha hE _ _ rfl m1 c d h1 hc
      refine ⟨rule, k, h3, h4, ?_⟩
      rw [← append_eq' hb, ← List.append_assoc, ← h2] at h5
      exact h5
    · intro d h1 h2
      exact ihb hE _ _ rfl d c m2 h2 hc
  | andPeekYes _ _ iha _ =>
    intro hE m r h; simp [expAll] at hE; cases h; exact iha hE.1 _ _ rfl
  | andNotYes _ _ iha _ =>
    intro hE m r h; simp [expAll] at hE; cases h; exact iha hE.1 _ _ rfl
  | guardGo _ _ _ ih => intro hE; simp [expAll] at hE; exact ih hE.2
  | _ => intro _ m r h; cases h

end Sneturfahi
