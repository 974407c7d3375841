import Verif.Proof.Names

/-!
# What expressions leave of a text, by equations

`ans e cs` is what is left after `e` has succeeded on `cs`.  It is given by one equation per combinator, so that the
outcome of a rule on a text can be computed by rewriting.
-/

namespace Sneturfahi

set_option linter.constructorNameAsVariable false

open Derives

attribute [local irreducible] parseRule

/-- What is left of `cs` when `e` succeeds. -/
noncomputable def ans : Exp Rule → List Char → Option (List Char)
  | .null, cs => some cs
  | .eof, cs => if cs = [] then some [] else none
  | .call r, cs => (parseRule r cs).map Prod.snd
  | .not e, cs => if (ans e cs).isSome then none else some cs
  | .peek e, cs => if (ans e cs).isSome then some cs else none
  | .alt a b, cs => (ans a cs).or (ans b cs)
  | .seq a b, cs => (ans a cs).bind (ans b)
  | .andPeek e p, cs => (ans e cs).bind (fun r => if (ans p r).isSome then some r else none)
  | .andNot e p, cs => (ans e cs).bind (fun r => if (ans p r).isSome then none else some r)
  | .guardNot p e, cs => if (ans p cs).isSome then none else ans e cs
  | .oneOf chs, cs => by
    classical exact if h : ∃ m r, Derives grammar (.oneOf chs) cs (some (m, r)) then some (Classical.choose (Classical.choose_spec h)) else none
  | .longest a b, cs => by
    classical exact if h : ∃ m r, Derives grammar (.longest a b) cs (some (m, r)) then some (Classical.choose (Classical.choose_spec h)) else none
  | .rep n e, cs => by
    classical exact if h : ∃ m r, Derives grammar (.rep n e) cs (some (m, r)) then some (Classical.choose (Classical.choose_spec h)) else none

theorem ans_choice {e : Exp Rule} {cs : List Char} {res : Res} (hd : Derives grammar e cs res)
    (he : ans e cs = by classical exact if h : ∃ m r, Derives grammar e cs (some (m, r)) then some (Classical.choose (Classical.choose_spec h)) else none) :
    ans e cs = res.map Prod.snd := by
  rw [he]
  split
  · rename_i h
    have h1 := Classical.choose_spec (Classical.choose_spec h)
    have := h1.det _ hd
    rw [← this]
    rfl
  · rename_i h
    cases res with
    | none => rfl
    | some x => exact absurd ⟨x.1, x.2, hd⟩ h

/-- The equations are right. -/
theorem ans_sound {e : Exp Rule} {cs : List Char} {res : Res} (h : Derives grammar e cs res) : ans e cs = res.map Prod.snd := by
  induction h with
  | null => simp [ans]
  | eofYes => simp [ans]
  | eofNo => simp [ans]
  | oneOfYes h1 h2 h3 => exact ans_choice (.oneOfYes h1 h2 h3) (by simp only [ans])
  | oneOfNo h1 h2 h3 => exact ans_choice (.oneOfNo h1 h2 h3) (by simp only [ans])
  | oneOfEnd h1 => exact ans_choice (.oneOfEnd h1) (by simp only [ans])
  | call h _ => simp only [ans]; rw [derives_iff.mp (.call h)]
  | notYes _ ih => simp [ans, ih]
  | notNo _ ih => simp [ans, ih]
  | peekYes _ ih => simp [ans, ih]
  | peekNo _ ih => simp [ans, ih]
  | altL _ ih => simp [ans, ih]
  | altR _ _ ih1 ih2 => simp [ans, ih1, ih2]
  | longest h1 h2 => exact ans_choice (.longest h1 h2) (by simp only [ans])
  | seqFail _ ih => simp [ans, ih]
  | @seqGo a b cs m rest res _ _ ih1 ih2 =>
    simp only [ans, ih1, ih2, Option.map_some, Option.bind_some]
    cases res <;> simp [Res.prepend]
  | repStop h => exact ans_choice (.repStop h) (by simp only [ans])
  | repFail h => exact ans_choice (.repFail h) (by simp only [ans])
  | repStep h1 h2 => exact ans_choice (.repStep h1 h2) (by simp only [ans])
  | andPeekFail _ ih => simp [ans, ih]
  | andPeekYes _ _ ih1 ih2 => simp [ans, ih1, ih2]
  | andPeekNo _ _ ih1 ih2 => simp [ans, ih1, ih2]
  | andNotFail _ ih => simp [ans, ih]
  | andNotYes _ _ ih1 ih2 => simp [ans, ih1, ih2]
  | andNotNo _ _ ih1 ih2 => simp [ans, ih1, ih2]
  | guardBlock _ ih => simp [ans, ih]
  | guardGo _ _ ih1 ih2 => simp [ans, ih1, ih2]

/-- A rule leaves what its body leaves. -/
theorem ans_body (r : Rule) (cs : List Char) : ans (.call r) cs = ans (grammar r) cs := by
  have h := derives_iff.mpr (rfl : parseRule r cs = parseRule r cs)
  rw [ans_sound (call_inv h)]
  simp only [ans]

theorem ans_call (r : Rule) (cs : List Char) : ans (.call r) cs = (parseRule r cs).map Prod.snd := by simp only [ans]

theorem ans_none {r : Rule} {cs : List Char} : ans (.call r) cs = none ↔ parseRule r cs = none := by
  rw [ans_call]; simp

theorem ans_some {r : Rule} {cs t : List Char} : ans (.call r) cs = some t ↔ ∃ m, parseRule r cs = some (m, t) := by
  rw [ans_call]
  cases parseRule r cs with
  | none => simp
  | some x => obtain ⟨a, b⟩ := x; simp

section
variable (e p a b : Exp Rule) (cs : List Char)

theorem ans_null : ans .null cs = some cs := by simp only [ans]
theorem ans_eof : ans .eof cs = if cs = [] then some [] else none := by simp only [ans]
theorem ans_not : ans (.not e) cs = if (ans e cs).isSome then none else some cs := by simp only [ans]
theorem ans_peek : ans (.peek e) cs = if (ans e cs).isSome then some cs else none := by simp only [ans]
theorem ans_alt : ans (.alt a b) cs = (ans a cs).or (ans b cs) := by simp only [ans]
theorem ans_seq : ans (.seq a b) cs = (ans a cs).bind (ans b) := by simp only [ans]
theorem ans_andPeek : ans (.andPeek e p) cs = (ans e cs).bind (fun r => if (ans p r).isSome then some r else none) := by simp only [ans]
theorem ans_andNot : ans (.andNot e p) cs = (ans e cs).bind (fun r => if (ans p r).isSome then none else some r) := by simp only [ans]
theorem ans_guardNot : ans (.guardNot p e) cs = if (ans p cs).isSome then none else ans e cs := by simp only [ans]
end

/-! Repetitions of a rule. -/

theorem ans_rep_stop {r : Rule} {cs : List Char} (h : ans (.call r) cs = none) : ans (.rep 0 (.call r)) cs = some cs :=
  ans_sound (.repStop (derives_iff.mpr (ans_none.mp h)))

theorem ans_rep_go {r : Rule} {cs t u : List Char} (h : ans (.call r) cs = some t) (h2 : ans (.rep 0 (.call r)) t = some u) :
    ans (.rep 0 (.call r)) cs = some u := by
  obtain ⟨m, hm⟩ := ans_some.mp h
  have h3 : ∃ m2, Derives grammar (.rep 0 (.call r)) t (some (m2, u)) := by
    simp only [ans] at h2
    split at h2
    · rename_i hex
      have := Classical.choose_spec (Classical.choose_spec hex)
      simp only [Option.some.injEq] at h2
      rw [h2] at this
      exact ⟨_, this⟩
    · cases h2
  obtain ⟨m2, h3⟩ := h3
  have h4 : Derives grammar (.rep (0 - 1) (.call r)) t (some (m2, u)) := h3
  exact ans_sound (.repStep (derives_iff.mpr hm) h4)

end Sneturfahi
