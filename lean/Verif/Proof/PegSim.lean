import Verif.Proof.Peg

/-!
# Simulation between texts

If a relation between remaining texts is respected by `one_of` and `eof` (and by the choice of
`or![longest=> ..]`), then it is respected by every rule: related texts give related results.
-/

namespace Sneturfahi

open Derives

variable {R : Type} {g : R → Exp R}

/-- The text does not end in a comma. -/
def NoTrail (cs : List Char) : Prop := cs.getLast? ≠ some ','

/-- A non-empty match does not end in a comma. -/
theorem matched_last {e : Exp R} {cs : List Char} {res : Res}
    (h : Derives g e cs res) : ∀ m r, res = some (m, r) → NoTrail m := by
  unfold NoTrail
  induction h with
  | null => intro m r h; cases h; simp
  | eofYes => intro m r h; cases h; simp
  | oneOfYes h1 h2 h3 => intro m r h; cases h; simpa using h2
  | call _ ih => exact ih
  | notYes => intro m r h; cases h; simp
  | peekYes => intro m r h; cases h; simp
  | altL _ ih => exact ih
  | altR _ _ _ ih => exact ih
  | @longest a b cs ra rb _ _ iha ihb =>
    intro m r h
    cases ra with
    | none => exact ihb m r (by simpa [Res.longest] using h)
    | some x =>
      cases rb with
      | none => exact iha m r (by simpa [Res.longest, Prod.ext_iff] using h)
      | some y =>
        simp only [Res.longest, Option.some.injEq] at h
        split at h
        · exact iha m r (by rw [← h])
        · exact ihb m r (by rw [← h])
  | seqGo _ _ iha ihb =>
    intro m r h
    obtain ⟨m', h1, rfl⟩ := Res.prepend_some h
    have := ihb _ _ h1
    rw [List.getLast?_append]
    cases hm : m'.getLast? with
    | none => simpa [hm] using iha _ _ rfl
    | some z => rw [hm] at this; simpa using this
  | repStop => intro m r h; cases h; simp
  | repStep _ _ iha ihb =>
    intro m r h
    obtain ⟨m', h1, rfl⟩ := Res.prepend_some h
    have := ihb _ _ h1
    rw [List.getLast?_append]
    cases hm : m'.getLast? with
    | none => simpa [hm] using iha _ _ rfl
    | some z => rw [hm] at this; simpa using this
  | andPeekYes _ _ iha _ => intro m r h; cases h; exact iha _ _ rfl
  | andNotYes _ _ iha _ => intro m r h; cases h; exact iha _ _ rfl
  | guardGo _ _ _ ih => exact ih
  | _ => intro m r h; cases h

/-- Both fail, or both succeed with related remaining texts. -/
def ResSim (S : List Char → List Char → Prop) : Res → Res → Prop
  | none, none => True
  | some (_, r), some (_, r') => S r r'
  | _, _ => False

/-- All character sets of a body satisfy `P`. -/
def expAll (P : List Char → Bool) : Exp R → Bool
  | .null => true
  | .eof => true
  | .oneOf chs => P chs
  | .call _ => true
  | .not e => expAll P e
  | .peek e => expAll P e
  | .alt a b => expAll P a && expAll P b
  | .longest a b => expAll P a && expAll P b
  | .seq a b => expAll P a && expAll P b
  | .rep _ e => expAll P e
  | .andPeek e p => expAll P e && expAll P p
  | .andNot e p => expAll P e && expAll P p
  | .guardNot p e => expAll P p && expAll P e

structure SimOK (g : R → Exp R) (P : List Char → Bool) (S : List Char → List Char → Prop) : Prop where
  nil : ∀ {cs cs'}, S cs cs' → (cs = [] ↔ cs' = [])
  one : ∀ {chs cs cs' res}, P chs = true → S cs cs' → Derives g (.oneOf chs) cs res →
    ∃ res', Derives g (.oneOf chs) cs' res' ∧ ResSim S res res'
  long : ∀ {m1 r1 m2 r2 m1' r1' m2' r2' : List Char}, m1 ++ r1 = m2 ++ r2 → m1' ++ r1' = m2' ++ r2' →
    NoTrail m1 → NoTrail m2 → NoTrail m1' → NoTrail m2' → S r1 r1' → S r2 r2' →
    S (if r1.length ≤ r2.length then r1 else r2) (if r1'.length ≤ r2'.length then r1' else r2')

theorem ResSim.none_left {S : List Char → List Char → Prop} {res' : Res} (h : ResSim S none res') :
    res' = none := by
  cases res' with
  | none => rfl
  | some x => simp [ResSim] at h

theorem ResSim.some_left {S : List Char → List Char → Prop} {x : List Char × List Char} {res' : Res}
    (h : ResSim S (some x) res') : ∃ m' r', res' = some (m', r') ∧ S x.2 r' := by
  cases res' with
  | none => simp [ResSim] at h
  | some y => exact ⟨y.1, y.2, rfl, by simpa [ResSim] using h⟩

theorem ResSim.prepend {S : List Char → List Char → Prop} {res res' : Res} {k k' : List Char}
    (h : ResSim S res res') : ResSim S (res.prepend k) (res'.prepend k') := by
  cases res with
  | none => rw [h.none_left]; trivial
  | some x =>
    obtain ⟨m', r', rfl, h2⟩ := h.some_left
    exact h2

theorem sim {P : List Char → Bool} {S : List Char → List Char → Prop} (ok : SimOK g P S)
    (hg : ∀ r, expAll P (g r) = true) {e : Exp R} {cs : List Char} {res : Res}
    (h : Derives g e cs res) : expAll P e = true → ∀ cs', S cs cs' →
      ∃ res', Derives g e cs' res' ∧ ResSim S res res' := by
  induction h with
  | null => intro _ cs' hs; exact ⟨_, .null, hs⟩
  | eofYes =>
    intro _ cs' hs
    obtain rfl := (ok.nil hs).mp rfl
    exact ⟨_, .eofYes, hs⟩
  | eofNo =>
    intro _ cs' hs
    cases cs' with
    | nil => exact absurd ((ok.nil hs).mpr rfl) (by simp)
    | cons c' cs' => exact ⟨_, .eofNo, trivial⟩
  | oneOfYes h1 h2 h3 => intro hP cs' hs; exact ok.one hP hs (.oneOfYes h1 h2 h3)
  | oneOfNo h1 h2 h3 => intro hP cs' hs; exact ok.one hP hs (.oneOfNo h1 h2 h3)
  | oneOfEnd h1 => intro hP cs' hs; exact ok.one hP hs (.oneOfEnd h1)
  | call _ ih =>
    intro _ cs' hs
    obtain ⟨res', h1, h2⟩ := ih (hg _) cs' hs
    exact ⟨res', .call h1, h2⟩
  | notYes _ ih =>
    intro hP cs' hs
    obtain ⟨res', h1, h2⟩ := ih hP cs' hs
    obtain rfl := h2.none_left
    exact ⟨_, .notYes h1, hs⟩
  | notNo _ ih =>
    intro hP cs' hs
    obtain ⟨res', h1, h2⟩ := ih hP cs' hs
    obtain ⟨m', r', rfl, _⟩ := h2.some_left
    exact ⟨_, .notNo h1, trivial⟩
  | peekYes _ ih =>
    intro hP cs' hs
    obtain ⟨res', h1, h2⟩ := ih hP cs' hs
    obtain ⟨m', r', rfl, _⟩ := h2.some_left
    exact ⟨_, .peekYes h1, hs⟩
  | peekNo _ ih =>
    intro hP cs' hs
    obtain ⟨res', h1, h2⟩ := ih hP cs' hs
    obtain rfl := h2.none_left
    exact ⟨_, .peekNo h1, trivial⟩
  | altL _ ih =>
    intro hP cs' hs
    simp [expAll] at hP
    obtain ⟨res', h1, h2⟩ := ih hP.1 cs' hs
    obtain ⟨m', r', rfl, h3⟩ := h2.some_left
    exact ⟨_, .altL h1, h3⟩
  | altR _ _ iha ihb =>
    intro hP cs' hs
    simp [expAll] at hP
    obtain ⟨res', h1, h2⟩ := iha hP.1 cs' hs
    obtain rfl := h2.none_left
    obtain ⟨res', h3, h4⟩ := ihb hP.2 cs' hs
    exact ⟨_, .altR h1 h3, h4⟩
  | @longest a b cs ra rb ha hb iha ihb =>
    intro hP cs' hs
    simp [expAll] at hP
    obtain ⟨ra', h1, h2⟩ := iha hP.1 cs' hs
    obtain ⟨rb', h3, h4⟩ := ihb hP.2 cs' hs
    refine ⟨_, .longest h1 h3, ?_⟩
    cases ra with
    | none =>
      obtain rfl := h2.none_left
      exact h4
    | some x =>
      obtain ⟨m1', r1', rfl, h5⟩ := h2.some_left
      cases rb with
      | none =>
        obtain rfl := h4.none_left
        exact h5
      | some y =>
        obtain ⟨m2', r2', rfl, h6⟩ := h4.some_left
        obtain ⟨m1, r1⟩ := x
        obtain ⟨m2, r2⟩ := y
        have := ok.long ((append_eq' ha).trans (append_eq' hb).symm)
          ((append_eq' h1).trans (append_eq' h3).symm) (matched_last ha _ _ rfl) (matched_last hb _ _ rfl)
          (matched_last h1 _ _ rfl) (matched_last h3 _ _ rfl) h5 h6
        simp only [Res.longest]
        split <;> split <;> simp_all [ResSim]
  | seqFail _ ih =>
    intro hP cs' hs
    simp [expAll] at hP
    obtain ⟨res', h1, h2⟩ := ih hP.1 cs' hs
    obtain rfl := h2.none_left
    exact ⟨_, .seqFail h1, trivial⟩
  | seqGo _ _ iha ihb =>
    intro hP cs' hs
    simp [expAll] at hP
    obtain ⟨res', h1, h2⟩ := iha hP.1 cs' hs
    obtain ⟨m', r', rfl, h3⟩ := h2.some_left
    obtain ⟨res', h4, h5⟩ := ihb hP.2 r' h3
    exact ⟨_, .seqGo h1 h4, h5.prepend⟩
  | repStop _ ih =>
    intro hP cs' hs
    obtain ⟨res', h1, h2⟩ := ih hP cs' hs
    obtain rfl := h2.none_left
    exact ⟨_, .repStop h1, hs⟩
  | repFail _ ih =>
    intro hP cs' hs
    obtain ⟨res', h1, h2⟩ := ih hP cs' hs
    obtain rfl := h2.none_left
    exact ⟨_, .repFail h1, trivial⟩
  | repStep _ _ iha ihb =>
    intro hP cs' hs
    obtain ⟨res', h1, h2⟩ := iha hP cs' hs
    obtain ⟨m', r', rfl, h3⟩ := h2.some_left
    obtain ⟨res', h4, h5⟩ := ihb hP r' h3
    exact ⟨_, .repStep h1 h4, h5.prepend⟩
  | andPeekFail _ ih =>
    intro hP cs' hs
    simp [expAll] at hP
    obtain ⟨res', h1, h2⟩ := ih hP.1 cs' hs
    obtain rfl := h2.none_left
    exact ⟨_, .andPeekFail h1, trivial⟩
  | andPeekYes _ _ iha ihb =>
    intro hP cs' hs
    simp [expAll] at hP
    obtain ⟨res', h1, h2⟩ := iha hP.1 cs' hs
    obtain ⟨m', r', rfl, h3⟩ := h2.some_left
    obtain ⟨res', h4, h5⟩ := ihb hP.2 r' h3
    obtain ⟨m'', r'', rfl, _⟩ := h5.some_left
    exact ⟨_, .andPeekYes h1 h4, h3⟩
  | andPeekNo _ _ iha ihb =>
    intro hP cs' hs
    simp [expAll] at hP
    obtain ⟨res', h1, h2⟩ := iha hP.1 cs' hs
    obtain ⟨m', r', rfl, h3⟩ := h2.some_left
    obtain ⟨res', h4, h5⟩ := ihb hP.2 r' h3
    obtain rfl := h5.none_left
    exact ⟨_, .andPeekNo h1 h4, trivial⟩
  | andNotFail _ ih =>
    intro hP cs' hs
    simp [expAll] at hP
    obtain ⟨res', h1, h2⟩ := ih hP.1 cs' hs
    obtain rfl := h2.none_left
    exact ⟨_, .andNotFail h1, trivial⟩
  | andNotYes _ _ iha ihb =>
    intro hP cs' hs
    simp [expAll] at hP
    obtain ⟨res', h1, h2⟩ := iha hP.1 cs' hs
    obtain ⟨m', r', rfl, h3⟩ := h2.some_left
    obtain ⟨res', h4, h5⟩ := ihb hP.2 r' h3
    obtain rfl := h5.none_left
    exact ⟨_, .andNotYes h1 h4, h3⟩
  | andNotNo _ _ iha ihb =>
    intro hP cs' hs
    simp [expAll] at hP
    obtain ⟨res', h1, h2⟩ := iha hP.1 cs' hs
    obtain ⟨m', r', rfl, h3⟩ := h2.some_left
    obtain ⟨res', h4, h5⟩ := ihb hP.2 r' h3
    obtain ⟨m'', r'', rfl, _⟩ := h5.some_left
    exact ⟨_, .andNotNo h1 h4, trivial⟩
  | guardBlock _ ih =>
    intro hP cs' hs
    simp [expAll] at hP
    obtain ⟨res', h1, h2⟩ := ih hP.1 cs' hs
    obtain ⟨m', r', rfl, _⟩ := h2.some_left
    exact ⟨_, .guardBlock h1, trivial⟩
  | guardGo _ _ iha ihb =>
    intro hP cs' hs
    simp [expAll] at hP
    obtain ⟨res', h1, h2⟩ := iha hP.1 cs' hs
    obtain rfl := h2.none_left
    obtain ⟨res', h3, h4⟩ := ihb hP.2 cs' hs
    exact ⟨_, .guardGo h1 h3, h4⟩

/-! ### Characters of the matched text -/

/-- Every character of a match is a comma or a member of some `one_of`. -/
theorem matched_chars {P : List Char → Bool} {A : Char → Prop} (hA : ∀ chs, P chs = true → ∀ c ∈ chs, A c)
    (hg : ∀ r, expAll P (g r) = true) {e : Exp R} {cs : List Char} {res : Res}
    (h : Derives g e cs res) : expAll P e = true → ∀ m r, res = some (m, r) → ∀ c ∈ m, c = ',' ∨ A c := by
  induction h with
  | null => intro _ m r h; cases h; simp
  | eofYes => intro _ m r h; cases h; simp
  | oneOfYes h1 h2 h3 =>
    intro hP m r h c hc
    cases h
    simp at hc
    rcases hc with hc | rfl
    · exact Or.inl (h1 c hc)
    · exact Or.inr (hA _ hP _ h3)
  | call _ ih => intro _; exact ih (hg _)
  | notYes => intro _ m r h; cases h; simp
  | peekYes => intro _ m r h; cases h; simp
  | altL _ ih => intro hP; simp [expAll] at hP; exact ih hP.1
  | altR _ _ _ ih => intro hP; simp [expAll] at hP; exact ih hP.2
  | @longest a b cs ra rb _ _ iha ihb =>
    intro hP m r h
    simp [expAll] at hP
    cases ra with
    | none => exact ihb hP.2 m r (by simpa [Res.longest] using h)
    | some x =>
      cases rb with
      | none => exact iha hP.1 m r (by simpa [Res.longest, Prod.ext_iff] using h)
      | some y =>
        simp only [Res.longest, Option.some.injEq] at h
        split at h
        · exact iha hP.1 m r (by rw [← h])
        · exact ihb hP.2 m r (by rw [← h])
  | seqGo _ _ iha ihb =>
    intro hP m r h c hc
    simp [expAll] at hP
    obtain ⟨m', h1, rfl⟩ := Res.prepend_some h
    simp at hc
    rcases hc with hc | hc
    · exact iha hP.1 _ _ rfl c hc
    · exact ihb hP.2 _ _ h1 c hc
  | repStop => intro _ m r h; cases h; simp
  | repStep _ _ iha ihb =>
    intro hP m r h c hc
    obtain ⟨m', h1, rfl⟩ := Res.prepend_some h
    simp at hc
    rcases hc with hc | hc
    · exact iha hP _ _ rfl c hc
    · exact ihb hP _ _ h1 c hc
  | andPeekYes _ _ iha _ => intro hP m r h; simp [expAll] at hP; cases h; exact iha hP.1 _ _ rfl
  | andNotYes _ _ iha _ => intro hP m r h; simp [expAll] at hP; cases h; exact iha hP.1 _ _ rfl
  | guardGo _ _ _ ih => intro hP; simp [expAll] at hP; exact ih hP.2
  | _ => intro _ m r h; cases h

end Sneturfahi
