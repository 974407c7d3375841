import Verif.Model.Peg

/-!
# Big-step semantics of the rule language and its basic meta-theory

`Derives g e cs res` : run on the characters `cs`, the rule body `e` answers `res`
(`none` for failure, `some (matched, rest)` for success).  No addresses, no fuel, no panics: it is
proved in `Verif.Proof.PegTotal` that the executable model computes exactly this relation.
-/

namespace Sneturfahi

/-- A result of a rule on pure text. -/
abbrev Res := Option (List Char × List Char)

/-- Put `k` in front of the matched part. -/
def Res.prepend (k : List Char) : Res → Res
  | none => none
  | some (m, r) => some (k ++ m, r)

/-- The result of `or![longest=> ..]`. -/
def Res.longest : Res → Res → Res
  | some (ma, ra), some (mb, rb) => some (if ra.length ≤ rb.length then (ma, ra) else (mb, rb))
  | some x, none => some x
  | none, rb => rb

/-- A list of commas. -/
def AllCommas (k : List Char) : Prop := ∀ x ∈ k, x = ','

inductive Derives {R : Type} (g : R → Exp R) : Exp R → List Char → Res → Prop
  | null {cs} : Derives g .null cs (some ([], cs))
  | eofYes : Derives g .eof [] (some ([], []))
  | eofNo {c cs} : Derives g .eof (c :: cs) none
  | oneOfYes {chs k c cs} : AllCommas k → c ≠ ',' → c ∈ chs →
      Derives g (.oneOf chs) (k ++ c :: cs) (some (k ++ [c], cs))
  | oneOfNo {chs k c cs} : AllCommas k → c ≠ ',' → c ∉ chs → Derives g (.oneOf chs) (k ++ c :: cs) none
  | oneOfEnd {chs k} : AllCommas k → Derives g (.oneOf chs) k none
  | call {r cs res} : Derives g (g r) cs res → Derives g (.call r) cs res
  | notYes {e cs} : Derives g e cs none → Derives g (.not e) cs (some ([], cs))
  | notNo {e cs x} : Derives g e cs (some x) → Derives g (.not e) cs none
  | peekYes {e cs x} : Derives g e cs (some x) → Derives g (.peek e) cs (some ([], cs))
  | peekNo {e cs} : Derives g e cs none → Derives g (.peek e) cs none
  | altL {a b cs x} : Derives g a cs (some x) → Derives g (.alt a b) cs (some x)
  | altR {a b cs res} : Derives g a cs none → Derives g b cs res → Derives g (.alt a b) cs res
  | longest {a b cs ra rb} : Derives g a cs ra → Derives g b cs rb →
      Derives g (.longest a b) cs (Res.longest ra rb)
  | seqFail {a b cs} : Derives g a cs none → Derives g (.seq a b) cs none
  | seqGo {a b cs m rest res} : Derives g a cs (some (m, rest)) → Derives g b rest res →
      Derives g (.seq a b) cs (res.prepend m)
  | repStop {e cs} : Derives g e cs none → Derives g (.rep 0 e) cs (some ([], cs))
  | repFail {n e cs} : Derives g e cs none → Derives g (.rep (n + 1) e) cs none
  | repStep {n e cs m rest res} : Derives g e cs (some (m, rest)) → Derives g (.rep (n - 1) e) rest res →
      Derives g (.rep n e) cs (res.prepend m)
  | andPeekFail {e p cs} : Derives g e cs none → Derives g (.andPeek e p) cs none
  | andPeekYes {e p cs m rest x} : Derives g e cs (some (m, rest)) → Derives g p rest (some x) →
      Derives g (.andPeek e p) cs (some (m, rest))
  | andPeekNo {e p cs m rest} : Derives g e cs (some (m, rest)) → Derives g p rest none →
      Derives g (.andPeek e p) cs none
  | andNotFail {e p cs} : Derives g e cs none → Derives g (.andNot e p) cs none
  | andNotYes {e p cs m rest} : Derives g e cs (some (m, rest)) → Derives g p rest none →
      Derives g (.andNot e p) cs (some (m, rest))
  | andNotNo {e p cs m rest x} : Derives g e cs (some (m, rest)) → Derives g p rest (some x) →
      Derives g (.andNot e p) cs none
  | guardBlock {p e cs x} : Derives g p cs (some x) → Derives g (.guardNot p e) cs none
  | guardGo {p e cs res} : Derives g p cs none → Derives g e cs res → Derives g (.guardNot p e) cs res

namespace Derives

variable {R : Type} {g : R → Exp R}

theorem Res.prepend_some {k : List Char} {res : Res} {m r} (h : res.prepend k = some (m, r)) :
    ∃ m', res = some (m', r) ∧ m = k ++ m' := by
  cases res with
  | none => simp [Res.prepend] at h
  | some x => obtain ⟨a, b⟩ := x; simp [Res.prepend] at h; exact ⟨a, by simp [h.2], h.1.symm⟩

/-- What is consumed, followed by what remains, is the input. -/
theorem append_eq {e : Exp R} {cs : List Char} {res : Res} (h : Derives g e cs res) :
    ∀ m r, res = some (m, r) → m ++ r = cs := by
  induction h with
  | null => intro m r h; cases h; rfl
  | eofYes => intro m r h; cases h; rfl
  | oneOfYes => intro m r h; cases h; simp
  | call _ ih => exact ih
  | notYes => intro m r h; cases h; rfl
  | peekYes => intro m r h; cases h; rfl
  | altL _ ih => exact ih
  | altR _ _ _ ih => exact ih
  | @longest a b cs ra rb _ _ iha ihb =>
    intro m r h
    cases ra with
    | none => exact ihb m r (by simpa [Res.longest] using h)
    | some x =>
      cases rb with
      | none => exact iha m r (by simpa [Res.longest, Prod.ext_iff] using h)
      | some y =>
        simp only [Res.longest, Option.some.injEq] at h
        split at h
        · exact iha m r (by rw [← h])
        · exact ihb m r (by rw [← h])
  | seqGo _ _ iha ihb =>
    intro m r h
    obtain ⟨m', h1, h2⟩ := Res.prepend_some h
    rw [h2, List.append_assoc, ihb _ _ h1, iha _ _ rfl]
  | repStop => intro m r h; cases h; rfl
  | repStep _ _ iha ihb =>
    intro m r h
    obtain ⟨m', h1, h2⟩ := Res.prepend_some h
    rw [h2, List.append_assoc, ihb _ _ h1, iha _ _ rfl]
  | andPeekYes _ _ iha _ => intro m r h; cases h; exact iha _ _ rfl
  | andNotYes _ _ iha _ => intro m r h; cases h; exact iha _ _ rfl
  | guardGo _ _ _ ih => exact ih
  | _ => intro m r h; cases h

theorem append_eq' {e : Exp R} {cs m r : List Char} (h : Derives g e cs (some (m, r))) : m ++ r = cs :=
  append_eq h _ _ rfl

theorem AllCommas.cons_ne {k : List Char} {c : Char} {cs : List Char} (_hk : AllCommas k) (hc : c ≠ ',') :
    ¬ AllCommas (k ++ c :: cs) := fun h => hc (h c (by simp))

theorem commas_split {k k' : List Char} {c c' : Char} {cs cs' : List Char}
    (hk : AllCommas k) (hc : c ≠ ',') (hk' : AllCommas k') (hc' : c' ≠ ',')
    (h : k ++ c :: cs = k' ++ c' :: cs') : k = k' ∧ c = c' ∧ cs = cs' := by
  induction k generalizing k' with
  | nil =>
    cases k' with
    | nil => simpa using h
    | cons x k' =>
      simp at h
      exact absurd (h.1.trans (hk' x (by simp))) hc
  | cons x k ih =>
    cases k' with
    | nil => simp at h; exact absurd (h.1.symm.trans (hk x (by simp))) hc'
    | cons y k' =>
      simp at h
      have := ih (k' := k') (fun z hz => hk z (by simp [hz])) (fun z hz => hk' z (by simp [hz])) h.2
      simp [h.1, this]

/-- The relation is deterministic. -/
theorem det {e : Exp R} {cs : List Char} {res : Res} (h : Derives g e cs res) :
    ∀ res', Derives g e cs res' → res = res' := by
  induction h with
  | null => intro _ h; cases h; rfl
  | eofYes => intro _ h; cases h; rfl
  | eofNo => intro _ h; cases h; rfl
  | @oneOfYes chs k c cs hk hc hm =>
    intro res' h
    generalize hs : k ++ c :: cs = s at h
    cases h with
    | oneOfYes hk' hc' hm' => obtain ⟨rfl, rfl, rfl⟩ := commas_split hk hc hk' hc' hs; rfl
    | oneOfNo hk' hc' hm' => obtain ⟨rfl, rfl, rfl⟩ := commas_split hk hc hk' hc' hs; contradiction
    | oneOfEnd hk' => subst hs; exact absurd hk' (AllCommas.cons_ne hk hc)
  | @oneOfNo chs k c cs hk hc hm =>
    intro res' h
    generalize hs : k ++ c :: cs = s at h
    cases h with
    | oneOfYes hk' hc' hm' => obtain ⟨rfl, rfl, rfl⟩ := commas_split hk hc hk' hc' hs; contradiction
    | oneOfNo hk' hc' hm' => rfl
    | oneOfEnd hk' => rfl
  | @oneOfEnd chs k hk =>
    intro res' h
    cases h with
    | oneOfYes hk' hc' hm' => exact absurd hk (AllCommas.cons_ne hk' hc')
    | oneOfNo hk' hc' hm' => rfl
    | oneOfEnd hk' => rfl
  | call _ ih => intro _ h; cases h with | call h => exact ih _ h
  | notYes _ ih => intro _ h; cases h with
    | notYes h => rfl
    | notNo h => cases ih _ h
  | notNo _ ih => intro _ h; cases h with
    | notYes h => cases ih _ h
    | notNo h => rfl
  | peekYes _ ih => intro _ h; cases h with
    | peekYes h => rfl
    | peekNo h => cases ih _ h
  | peekNo _ ih => intro _ h; cases h with
    | peekYes h => cases ih _ h
    | peekNo h => rfl
  | altL _ ih => intro _ h; cases h with
    | altL h => exact ih _ h
    | altR h _ => cases ih _ h
  | altR _ _ iha ihb => intro _ h; cases h with
    | altL h => cases iha _ h
    | altR _ h => exact ihb _ h
  | longest _ _ iha ihb => intro _ h; cases h with
    | longest h1 h2 => rw [iha _ h1, ihb _ h2]
  | seqFail _ ih => intro _ h; cases h with
    | seqFail h => rfl
    | seqGo h _ => cases ih _ h
  | seqGo _ _ iha ihb => intro _ h; cases h with
    | seqFail h => cases iha _ h
    | seqGo h1 h2 => cases iha _ h1; rw [ihb _ h2]
  | repStop _ ih => intro _ h; cases h with
    | repStop h => rfl
    | repStep h _ => cases ih _ h
  | repFail _ ih => intro _ h; cases h with
    | repFail h => rfl
    | repStep h _ => cases ih _ h
  | repStep _ _ iha ihb => intro _ h; cases h with
    | repStop h => cases iha _ h
    | repFail h => cases iha _ h
    | repStep h1 h2 => cases iha _ h1; rw [ihb _ h2]
  | andPeekFail _ ih => intro _ h; cases h with
    | andPeekFail h => rfl
    | andPeekYes h _ => cases ih _ h
    | andPeekNo h _ => cases ih _ h
  | andPeekYes _ _ iha ihb => intro _ h; cases h with
    | andPeekFail h => cases iha _ h
    | andPeekYes h _ => exact iha _ h
    | andPeekNo h1 h2 => cases iha _ h1; cases ihb _ h2
  | andPeekNo _ _ iha ihb => intro _ h; cases h with
    | andPeekFail h => rfl
    | andPeekYes h1 h2 => cases iha _ h1; cases ihb _ h2
    | andPeekNo h _ => rfl
  | andNotFail _ ih => intro _ h; cases h with
    | andNotFail h => rfl
    | andNotYes h _ => cases ih _ h
    | andNotNo h _ => cases ih _ h
  | andNotYes _ _ iha ihb => intro _ h; cases h with
    | andNotFail h => cases iha _ h
    | andNotYes h _ => exact iha _ h
    | andNotNo h1 h2 => cases iha _ h1; cases ihb _ h2
  | andNotNo _ _ iha ihb => intro _ h; cases h with
    | andNotFail h => rfl
    | andNotYes h1 h2 => cases iha _ h1; cases ihb _ h2
    | andNotNo h _ => rfl
  | guardBlock _ ih => intro _ h; cases h with
    | guardBlock h => rfl
    | guardGo h _ => cases ih _ h
  | guardGo _ _ iha ihb => intro _ h; cases h with
    | guardBlock h => cases iha _ h
    | guardGo _ h => exact ihb _ h

/-- Does success of a body imply that something is consumed?  `cons` answers for the rules. -/
def consE (cons : R → Bool) : Exp R → Bool
  | .null => false
  | .eof => false
  | .oneOf _ => true
  | .call r => cons r
  | .not _ => false
  | .peek _ => false
  | .alt a b => consE cons a && consE cons b
  | .longest a b => consE cons a && consE cons b
  | .seq a b => consE cons a || consE cons b
  | .rep n e => decide (0 < n) && consE cons e
  | .andPeek e _ => consE cons e
  | .andNot e _ => consE cons e
  | .guardNot _ e => consE cons e

theorem consumes {cons : R → Bool} (hg : ∀ r, cons r = true → consE cons (g r) = true)
    {e : Exp R} {cs : List Char} {res : Res} (h : Derives g e cs res) :
    consE cons e = true → ∀ m r, res = some (m, r) → m ≠ [] := by
  induction h with
  | oneOfYes => intro _ m r h; cases h; simp
  | call _ ih => intro hc; exact ih (hg _ hc)
  | altL _ ih => intro hc; simp [consE] at hc; exact ih hc.1
  | altR _ _ _ ih => intro hc; simp [consE] at hc; exact ih hc.2
  | @longest a b cs ra rb _ _ iha ihb =>
    intro hc m r h
    simp [consE] at hc
    cases ra with
    | none => exact ihb hc.2 m r (by simpa [Res.longest] using h)
    | some x =>
      cases rb with
      | none => exact iha hc.1 m r (by simpa [Res.longest, Prod.ext_iff] using h)
      | some y =>
        simp only [Res.longest, Option.some.injEq] at h
        split at h
        · exact iha hc.1 m r (by rw [← h])
        · exact ihb hc.2 m r (by rw [← h])
  | seqGo _ _ iha ihb =>
    intro hc m r h
    obtain ⟨m', h1, h2⟩ := Res.prepend_some h
    simp [consE] at hc
    rcases hc with hc | hc
    · have := iha hc _ _ rfl; simp [h2, this]
    · have := ihb hc _ _ h1; simp [h2, this]
  | repStep _ _ iha ihb =>
    intro hc m r h
    obtain ⟨m', h1, h2⟩ := Res.prepend_some h
    simp [consE] at hc
    have := iha hc.2 _ _ rfl; simp [h2, this]
  | repStop => intro hc; simp [consE] at hc
  | andPeekYes _ _ iha _ => intro hc m r h; cases h; exact iha hc _ _ rfl
  | andNotYes _ _ iha _ => intro hc m r h; cases h; exact iha hc _ _ rfl
  | guardGo _ _ _ ih => intro hc; exact ih hc
  | null => intro hc; simp [consE] at hc
  | eofYes => intro hc; simp [consE] at hc
  | notYes => intro hc; simp [consE] at hc
  | peekYes => intro hc; simp [consE] at hc
  | _ => intro _ m r h; cases h

end Derives

end Sneturfahi
