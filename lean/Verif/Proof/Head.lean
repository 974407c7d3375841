import Verif.Proof.RulesTotal

/-!
# What a rule does with a text, as far as its first letter decides it
-/

namespace Sneturfahi

variable {R : Type}

/-- What running `e` on a text that begins with the letter `c` does: `some false` if it fails, `some true` if it succeeds
without consuming anything, `none` if that depends on the rest. -/
def headE (call : R → Option Bool) (c : Char) : Exp R → Option Bool
  | .null => some true
  | .eof => some false
  | .oneOf chs => if chs.contains c then none else some false
  | .call r => call r
  | .not e => (headE call c e).map (fun b => !b)
  | .peek e => headE call c e
  | .alt a b => match headE call c a with
    | some false => headE call c b
    | some true => some true
    | none => none
  | .longest a b => match headE call c a, headE call c b with
    | some false, x => x
    | some true, some _ => some true
    | _, _ => none
  | .seq a b => match headE call c a with
    | some false => some false
    | some true => headE call c b
    | none => none
  | .rep n e => match headE call c e with
    | some false => some (n == 0)
    | _ => none
  | .andPeek e p => match headE call c e with
    | some false => some false
    | some true => headE call c p
    | none => none
  | .andNot e p => match headE call c e with
    | some false => some false
    | some true => (headE call c p).map (fun b => !b)
    | none => none
  | .guardNot p e => match headE call c p with
    | some false => headE call c e
    | some true => some false
    | none => none

/-- The same for a rule, looking through at most `fuel` calls. -/
def headR (g : R → Exp R) (c : Char) : Nat → R → Option Bool
  | 0, _ => none
  | fuel + 1, r => headE (headR g c fuel) c (g r)

/-- The result that `headE` stands for. -/
def headRes (cs : List Char) : Bool → Res
  | false => none
  | true => some ([], cs)

theorem headE_sound {g : R → Exp R} {call : R → Option Bool} {c : Char} {t : List Char} (hc : c ≠ ',')
    (h : ∀ r b, call r = some b → Derives g (.call r) (c :: t) (headRes (c :: t) b)) :
    ∀ (e : Exp R) (b : Bool), headE call c e = some b → Derives g e (c :: t) (headRes (c :: t) b) := by
  intro e
  induction e with
  | null => intro b hb; cases hb; exact .null
  | eof => intro b hb; cases hb; exact .eofNo
  | oneOf chs =>
    intro b hb
    simp only [headE] at hb
    split at hb
    · cases hb
    · rename_i hn
      cases hb
      exact .oneOfNo (k := []) (by simp [AllCommas]) hc (by simpa using hn)
  | call r => intro b hb; exact h r b hb
  | not e ih =>
    intro b hb
    simp only [headE] at hb
    cases he : headE call c e with
    | none => rw [he] at hb; cases hb
    | some b' =>
      rw [he] at hb
      cases hb
      cases b' with
      | false => exact .notYes (ih _ he)
      | true => exact .notNo (ih _ he)
  | peek e ih =>
    intro b hb
    cases b with
    | false => exact .peekNo (ih _ hb)
    | true => exact .peekYes (ih _ hb)
  | alt a b iha ihb =>
    intro v hb
    simp only [headE] at hb
    cases he : headE call c a with
    | none => rw [he] at hb; cases hb
    | some b' =>
      rw [he] at hb
      cases b' with
      | false => exact .altR (iha _ he) (ihb _ hb)
      | true => cases hb; exact .altL (iha _ he)
  | longest a b iha ihb =>
    intro v hb
    simp only [headE] at hb
    cases he : headE call c a with
    | none => rw [he] at hb; cases hb
    | some b' =>
      cases hf : headE call c b with
      | none => rw [he, hf] at hb; cases b' <;> cases hb
      | some b'' =>
        rw [he, hf] at hb
        have := Derives.longest (iha _ he) (ihb _ hf)
        cases b' <;> cases b'' <;> cases hb <;> simpa [headRes, Res.longest] using this
  | seq a b iha ihb =>
    intro v hb
    simp only [headE] at hb
    cases he : headE call c a with
    | none => rw [he] at hb; cases hb
    | some b' =>
      rw [he] at hb
      cases b' with
      | false => cases hb; exact .seqFail (iha _ he)
      | true =>
        have := Derives.seqGo (iha _ he) (ihb _ hb)
        cases v <;> simpa [headRes, Res.prepend] using this
  | rep n e ih =>
    intro v hb
    simp only [headE] at hb
    cases he : headE call c e with
    | none => rw [he] at hb; cases hb
    | some b' =>
      rw [he] at hb
      cases b' with
      | true => cases hb
      | false =>
        cases hb
        cases n with
        | zero => exact .repStop (ih _ he)
        | succ n => exact .repFail (ih _ he)
  | andPeek e p ihe ihp =>
    intro v hb
    simp only [headE] at hb
    cases he : headE call c e with
    | none => rw [he] at hb; cases hb
    | some b' =>
      rw [he] at hb
      cases b' with
      | false => cases hb; exact .andPeekFail (ihe _ he)
      | true =>
        cases v with
        | false => exact .andPeekNo (ihe _ he) (ihp _ hb)
        | true => exact .andPeekYes (ihe _ he) (ihp _ hb)
  | andNot e p ihe ihp =>
    intro v hb
    simp only [headE] at hb
    cases he : headE call c e with
    | none => rw [he] at hb; cases hb
    | some b' =>
      rw [he] at hb
      cases b' with
      | false => cases hb; exact .andNotFail (ihe _ he)
      | true =>
        cases hf : headE call c p with
        | none => rw [hf] at hb; cases hb
        | some b'' =>
          rw [hf] at hb
          cases hb
          cases b'' with
          | false => exact .andNotYes (ihe _ he) (ihp _ hf)
          | true => exact .andNotNo (ihe _ he) (ihp _ hf)
  | guardNot p e ihp ihe =>
    intro v hb
    simp only [headE] at hb
    cases he : headE call c p with
    | none => rw [he] at hb; cases hb
    | some b' =>
      rw [he] at hb
      cases b' with
      | false => exact .guardGo (ihp _ he) (ihe _ hb)
      | true => cases hb; exact .guardBlock (ihp _ he)

theorem headR_sound {g : R → Exp R} {c : Char} {t : List Char} (hc : c ≠ ',') (fuel : Nat) :
    ∀ r b, headR g c fuel r = some b → Derives g (.call r) (c :: t) (headRes (c :: t) b) := by
  induction fuel with
  | zero => intro r b h; cases h
  | succ fuel ih => intro r b h; exact .call (headE_sound hc ih _ _ h)

/-- A rule whose outcome the first letter decides. -/
theorem parseRule_head {rule : Rule} {c : Char} {t : List Char} {b : Bool} (fuel : Nat) (hc : c ≠ ',')
    (h : headR grammar c fuel rule = some b) : parseRule rule (c :: t) = headRes (c :: t) b :=
  derives_iff.mp (headR_sound hc fuel rule b h)

end Sneturfahi
