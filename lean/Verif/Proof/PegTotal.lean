import Verif.Proof.Peg
import Verif.Proof.Str

/-!
# The executable rules are total and compute the big-step semantics

From a certificate (which rules consume, and a rank that decreases along calls at the same position)
it follows that running any rule on any text ends, never panics, and answers the unique derivable
result, with matched and remaining text at the right addresses.
-/

namespace Sneturfahi

open Derives

variable {R : Type} {g : R → Exp R}

/-- Every call reachable without consuming has rank `< n`. -/
def rankOK (cons : R → Bool) (rank : R → Nat) (n : Nat) : Exp R → Bool
  | .null => true
  | .eof => true
  | .oneOf _ => true
  | .call r => decide (rank r < n)
  | .not e => rankOK cons rank n e
  | .peek e => rankOK cons rank n e
  | .alt a b => rankOK cons rank n a && rankOK cons rank n b
  | .longest a b => rankOK cons rank n a && rankOK cons rank n b
  | .seq a b => rankOK cons rank n a && (consE cons a || rankOK cons rank n b)
  | .rep _ e => rankOK cons rank n e
  | .andPeek e p => rankOK cons rank n e && (consE cons e || rankOK cons rank n p)
  | .andNot e p => rankOK cons rank n e && (consE cons e || rankOK cons rank n p)
  | .guardNot p e => rankOK cons rank n p && rankOK cons rank n e

/-- Every body of a `repeat` consumes. -/
def repOK (cons : R → Bool) : Exp R → Bool
  | .null => true
  | .eof => true
  | .oneOf _ => true
  | .call _ => true
  | .not e => repOK cons e
  | .peek e => repOK cons e
  | .alt a b => repOK cons a && repOK cons b
  | .longest a b => repOK cons a && repOK cons b
  | .seq a b => repOK cons a && repOK cons b
  | .rep _ e => repOK cons e && consE cons e
  | .andPeek e p => repOK cons e && repOK cons p
  | .andNot e p => repOK cons e && repOK cons p
  | .guardNot p e => repOK cons p && repOK cons e

/-- A well-formedness certificate for a grammar. -/
structure WF (g : R → Exp R) where
  cons : R → Bool
  rank : R → Nat
  bound : Nat
  cons_ok : ∀ r, cons r = true → consE cons (g r) = true
  rank_ok : ∀ r, rankOK cons rank (rank r) (g r) = true
  rep_ok : ∀ r, repOK cons (g r) = true
  rank_lt : ∀ r, rank r < bound

theorem rankOK_bound {cons : R → Bool} {rank : R → Nat} {K : Nat} (h : ∀ r, rank r < K) (e : Exp R) :
    rankOK cons rank K e = true := by
  induction e <;> simp_all [rankOK]

/-- A result of the pure semantics as the value returned by the Rust function called at address `ptr`. -/
def Res.at (ptr : Nat) : Res → ParseRes
  | none => none
  | some (m, rest) => some (⟨ptr, m⟩, ⟨ptr + byteLen m, rest⟩)

/-- Running `p` on `s` returns the result derivable for `e`. -/
def Good (g : R → Exp R) (p : Parser) (e : Exp R) (s : Str) : Prop :=
  ∃ res : Res, p s = .val (res.at s.ptr) ∧ Derives g e s.chars res

theorem splitAt_zero (s : Str) : s.splitAt 0 = .val (⟨s.ptr, []⟩, ⟨s.ptr, s.chars⟩) := by
  simp [Str.splitAt, splitBytes]

theorem nullP_eq (s : Str) : nullP s = .val (Res.at s.ptr (some ([], s.chars))) := by
  simp [nullP, splitAt_zero, Res.at]

theorem splitAt_append (ptr : Nat) (a b : List Char) :
    Str.splitAt ⟨ptr, a ++ b⟩ (byteLen a) = .val (⟨ptr, a⟩, ⟨ptr + byteLen a, b⟩) := by
  simp [Str.splitAt, splitBytes_append]

theorem index_append (ptr : Nat) (a b : List Char) :
    Str.index ⟨ptr, a ++ b⟩ 0 (byteLen a) = .val ⟨ptr, a⟩ := by
  simp [Str.index, Str.get, splitBytes_append, splitBytes]

theorem subPtr_self_add (a b : Nat) : subPtr (a + b) a = .val b := by
  simp [subPtr]

theorem findNonComma_spec (ptr : Nat) (cs : List Char) :
    (findNonComma ptr cs = none ∧ AllCommas cs) ∨
    ∃ k c rest, cs = k ++ c :: rest ∧ AllCommas k ∧ c ≠ ',' ∧
      findNonComma ptr cs = some (c, ⟨ptr + byteLen (k ++ [c]), rest⟩) := by
  induction cs generalizing ptr with
  | nil => left; simp [findNonComma, AllCommas]
  | cons x cs ih =>
    by_cases hx : x = ','
    · rcases ih (ptr + x.utf8Size) with ⟨h1, h2⟩ | ⟨k, c, rest, h1, h2, h3, h4⟩
      · left
        refine ⟨by simp [findNonComma, hx] at h1 ⊢; exact h1, ?_⟩
        intro y hy
        simp at hy
        rcases hy with rfl | hy
        · exact hx
        · exact h2 y hy
      · right
        refine ⟨x :: k, c, rest, by simp [h1], ?_, h3, ?_⟩
        · intro y hy
          simp at hy
          rcases hy with rfl | hy
          · exact hx
          · exact h2 y hy
        · rw [findNonComma, if_pos hx, h4]
          simp
          omega
    · right
      exact ⟨[], x, cs, by simp, by simp [AllCommas], hx, by simp [findNonComma, hx]⟩

theorem oneOfP_good (chs : List Char) (s : Str) : Good g (oneOfP chs) (.oneOf chs) s := by
  obtain ⟨ptr, cs⟩ := s
  rcases findNonComma_spec ptr cs with ⟨h1, h2⟩ | ⟨k, c, rest, h1, h2, h3, h4⟩
  · exact ⟨none, by simp [oneOfP, h1, Res.at], .oneOfEnd h2⟩
  · by_cases hc : c ∈ chs
    · refine ⟨some (k ++ [c], rest), ?_, ?_⟩
      · have : cs = (k ++ [c]) ++ rest := by simp [h1]
        simp only [oneOfP, h4, subPtr_self_add, Exec.val_bind]
        rw [if_pos (by simpa using hc)]
        rw [this, splitAt_append]
        simp [Res.at]
      · rw [show (Str.mk ptr cs).chars = k ++ c :: rest from h1]; exact .oneOfYes h2 h3 hc
    · refine ⟨none, ?_, ?_⟩
      · simp only [oneOfP, h4, subPtr_self_add, Exec.val_bind]
        rw [if_neg (by simpa using hc)]; simp [Res.at]
      · rw [show (Str.mk ptr cs).chars = k ++ c :: rest from h1]; exact .oneOfNo h2 h3 hc

/-- `seq!` on results at their addresses. -/
theorem seqP_good {a b : Exp R} {pa pb : Parser} {s : Str} (ha : Good g pa a s)
    (hb : ∀ m rest, Derives g a s.chars (some (m, rest)) → Good g pb b ⟨s.ptr + byteLen m, rest⟩) :
    Good g (seqP pa pb) (.seq a b) s := by
  obtain ⟨ra, ha1, ha2⟩ := ha
  cases ra with
  | none => exact ⟨none, by simp [seqP, ha1, Res.at], .seqFail ha2⟩
  | some x =>
    obtain ⟨m, rest⟩ := x
    obtain ⟨rb, hb1, hb2⟩ := hb m rest ha2
    refine ⟨rb.prepend m, ?_, .seqGo ha2 hb2⟩
    cases rb with
    | none => simp [seqP, ha1, Res.at, hb1, Res.prepend]
    | some y =>
      obtain ⟨m2, rest2⟩ := y
      have e1 := append_eq' ha2
      have e2 := append_eq' hb2
      simp only at e2
      obtain ⟨ptr, cs⟩ := s
      simp only [seqP, ha1, Res.at, hb1, Exec.val_bind, Str.endPtr, Str.len, Res.prepend]
      rw [show ptr + byteLen m + byteLen m2 = ptr + byteLen (m ++ m2) by simp; omega]
      rw [subPtr_self_add, show subPtr ptr ptr = .val 0 by simp [subPtr]]
      simp only [Exec.val_bind]
      have : cs = (m ++ m2) ++ rest2 := by simp only at e1; rw [List.append_assoc, e2, e1]
      rw [this, index_append]
      simp

theorem repLoop_good {e : Exp R} {p : Parser}
    (hcons : ∀ cs m rest, Derives g e cs (some (m, rest)) → m ≠ []) :
    ∀ (k : Nat) (s : Str), s.chars.length < k →
      (∀ s' : Str, s'.chars.length ≤ s.chars.length → Good g p e s') →
      ∀ first last num, ∃ (count : Nat) (m rest : List Char),
        repLoop p k s first last num =
          .val (⟨s.ptr + byteLen m, rest⟩, if count = 0 then first else some (first.getD s.ptr),
            if count = 0 then last else s.ptr + byteLen m, num + count) ∧
        m ++ rest = s.chars ∧ (count = 0 → m = []) ∧
        ∀ n, Derives g (.rep n e) s.chars (if count < n then none else some (m, rest)) := by
  intro k
  induction k with
  | zero => intro s h; omega
  | succ k ih =>
    intro s hk hp first last num
    obtain ⟨res, h1, h2⟩ := hp s (Nat.le_refl _)
    cases res with
    | none =>
      refine ⟨0, [], s.chars, by simp [repLoop, h1, Res.at], rfl, fun _ => rfl, ?_⟩
      intro n
      cases n with
      | zero => simpa using Derives.repStop h2
      | succ n => simpa using Derives.repFail h2
    | some x =>
      obtain ⟨m, rest⟩ := x
      have hne := hcons _ _ _ h2
      have happ := append_eq' h2
      have hlen : rest.length < s.chars.length := by
        rw [← happ]; simp; exact List.length_pos_iff.mpr hne
      obtain ⟨count, m', rest', e1, e2, e3, e4⟩ :=
        ih ⟨s.ptr + byteLen m, rest⟩ (by simp only; omega)
          (fun s' hs' => hp s' (by simp only at hs'; omega))
          (some (first.getD s.ptr)) (s.ptr + byteLen m) (num + 1)
      refine ⟨count + 1, m ++ m', rest', ?_, ?_, by simp, ?_⟩
      · simp only [repLoop, h1, Res.at, Exec.val_bind, Str.endPtr, Str.len, e1]
        by_cases hc : count = 0
        · simp [hc, e3 hc]
        · simp [hc]; omega
      · simp only at e2; rw [List.append_assoc, e2, happ]
      · intro n
        have := Derives.repStep (n := n) h2 (e4 (n - 1))
        by_cases hn : count + 1 < n
        · simpa [hn, show count < n - 1 by omega, Res.prepend] using this
        · simpa [hn, show ¬ count < n - 1 by omega, Res.prepend] using this

theorem repP_good {e : Exp R} {p : Parser} {s : Str} (n : Nat)
    (hcons : ∀ cs m rest, Derives g e cs (some (m, rest)) → m ≠ [])
    (hp : ∀ s' : Str, s'.chars.length ≤ s.chars.length → Good g p e s') :
    Good g (repP n p) (.rep n e) s := by
  obtain ⟨count, m, rest, h1, h2, h3, h4⟩ :=
    repLoop_good hcons (s.chars.length + 1) s (by omega) hp none s.ptr 0
  refine ⟨_, ?_, h4 n⟩
  simp only [repP, h1, Exec.val_bind, Nat.zero_add]
  by_cases hn : count < n
  · simp [hn, Res.at]
  · obtain ⟨ptr, cs⟩ := s
    have hz : subPtr ptr ptr = .val 0 := by simp [subPtr]
    have hm : (if count = 0 then ptr else ptr + byteLen m) = ptr + byteLen m := by
      split
      · rename_i hc; simp [h3 hc]
      · rfl
    have hf : (if count = 0 then (none : Option Nat) else some ((none : Option Nat).getD ptr)).getD ptr = ptr := by
      split <;> simp
    simp only [hn, if_false, hm, hf, hz, subPtr_self_add, Exec.val_bind]
    rw [← show m ++ rest = cs from h2, index_append]
    simp [Res.at]

/-- One rule body, given good calls. -/
theorem evalExp_good (w : WF g) (call : R → Parser) (n : Nat) :
    ∀ (e : Exp R) (s : Str), repOK w.cons e = true → rankOK w.cons w.rank n e = true →
      (∀ r s', (s'.chars.length < s.chars.length ∨
        (s'.chars.length ≤ s.chars.length ∧ w.rank r < n)) → Good g (call r) (.call r) s') →
      Good g (evalExp call e) e s := by
  -- on strictly shorter texts the rank does not matter
  have key : ∀ N, (∀ e (s : Str), s.chars.length < N → repOK w.cons e = true →
      (∀ r s', s'.chars.length ≤ s.chars.length → Good g (call r) (.call r) s') →
      Good g (evalExp call e) e s) → ∀ (n : Nat) (e : Exp R) (s : Str), s.chars.length ≤ N →
      repOK w.cons e = true → rankOK w.cons w.rank n e = true →
      (∀ r s', (s'.chars.length < s.chars.length ∨
        (s'.chars.length ≤ s.chars.length ∧ w.rank r < n)) → Good g (call r) (.call r) s') →
      Good g (evalExp call e) e s := by
    intro N hshort n e
    induction e with
    | null => intro s _ _ _ _; exact ⟨some ([], s.chars), nullP_eq s, .null⟩
    | eof =>
      intro s _ _ _ _
      obtain ⟨ptr, cs⟩ := s
      cases cs with
      | nil => exact ⟨some ([], []), by simp [evalExp, eofP, Str.isEmpty, nullP_eq], .eofYes⟩
      | cons c cs => exact ⟨none, by simp [evalExp, eofP, Str.isEmpty, Res.at], .eofNo⟩
    | oneOf chs => intro s _ _ _ _; exact oneOfP_good chs s
    | call r =>
      intro s _ _ hr hc
      exact hc r s (Or.inr ⟨Nat.le_refl _, by simpa [rankOK] using hr⟩)
    | not e ih =>
      intro s hl h1 h2 hc
      obtain ⟨res, e1, e2⟩ := ih s hl h1 h2 hc
      cases res with
      | none => exact ⟨some ([], s.chars), by simp [evalExp, notP, e1, Res.at, nullP_eq], .notYes e2⟩
      | some x => exact ⟨none, by simp [evalExp, notP, e1, Res.at], .notNo e2⟩
    | peek e ih =>
      intro s hl h1 h2 hc
      obtain ⟨res, e1, e2⟩ := ih s hl h1 h2 hc
      cases res with
      | none => exact ⟨none, by simp [evalExp, peekP, e1, Res.at], .peekNo e2⟩
      | some x => exact ⟨some ([], s.chars), by simp [evalExp, peekP, e1, Res.at, nullP_eq], .peekYes e2⟩
    | alt a b iha ihb =>
      intro s hl h1 h2 hc
      simp [repOK] at h1
      simp [rankOK] at h2
      obtain ⟨ra, a1, a2⟩ := iha s hl h1.1 h2.1 hc
      cases ra with
      | some x => exact ⟨some x, by simp [evalExp, altP, a1, Res.at], .altL a2⟩
      | none =>
        obtain ⟨rb, b1, b2⟩ := ihb s hl h1.2 h2.2 hc
        exact ⟨rb, by simp [evalExp, altP, a1, Res.at, b1], .altR a2 b2⟩
    | longest a b iha ihb =>
      intro s hl h1 h2 hc
      simp [repOK] at h1
      simp [rankOK] at h2
      obtain ⟨ra, a1, a2⟩ := iha s hl h1.1 h2.1 hc
      obtain ⟨rb, b1, b2⟩ := ihb s hl h1.2 h2.2 hc
      refine ⟨Res.longest ra rb, ?_, .longest a2 b2⟩
      simp only [evalExp, longestP, a1, b1, Exec.val_bind]
      cases ra with
      | none => simp [Res.at, Res.longest]
      | some x =>
        cases rb with
        | none => simp [Res.at, Res.longest]
        | some y =>
          obtain ⟨ma, ra⟩ := x
          obtain ⟨mb, rb⟩ := y
          have := suffix_byteLen_le ((append_eq' a2).trans (append_eq' b2).symm)
          simp only [Res.at, Res.longest, Str.len, this]
          split <;> rfl
    | seq a b iha ihb =>
      intro s hl h1 h2 hc
      simp [repOK] at h1
      simp [rankOK] at h2
      refine seqP_good (iha s hl h1.1 h2.1 hc) ?_
      intro m rest hd
      have happ := append_eq' hd
      rcases h2.2 with h2 | h2
      · have hne := Derives.consumes w.cons_ok hd h2 _ _ rfl
        have hlen : rest.length < s.chars.length := by
          rw [← happ]; simp; exact List.length_pos_iff.mpr hne
        exact hshort b _ (by simp only; omega) h1.2 (fun r s' hs' => hc r s' (Or.inl (by simp only at hs'; omega)))
      · have hlen : rest.length ≤ s.chars.length := by rw [← happ]; simp
        refine ihb _ (by simp only; omega) h1.2 h2 ?_
        intro r s' hs'
        simp only at hs'
        rcases hs' with hs' | hs'
        · exact hc r s' (Or.inl (by omega))
        · exact hc r s' (Or.inr ⟨by omega, hs'.2⟩)
    | rep k e ih =>
      intro s hl h1 h2 hc
      simp [repOK] at h1
      simp [rankOK] at h2
      refine repP_good k (fun cs m rest hd => Derives.consumes w.cons_ok hd h1.2 _ _ rfl) ?_
      intro s' hs'
      by_cases hlt : s'.chars.length < s.chars.length
      · exact hshort e s' (by omega) h1.1 (fun r s'' hs'' => hc r s'' (Or.inl (by omega)))
      · refine ih s' (by omega) h1.1 h2 ?_
        intro r s'' hs''
        rcases hs'' with hs'' | hs''
        · exact hc r s'' (Or.inl (by omega))
        · exact hc r s'' (Or.inr ⟨by omega, hs''.2⟩)
    | andPeek e p ihe ihp =>
      intro s hl h1 h2 hc
      simp [repOK] at h1
      simp [rankOK] at h2
      obtain ⟨ra, a1, a2⟩ := ihe s hl h1.1 h2.1 hc
      cases ra with
      | none => exact ⟨none, by simp [evalExp, andPeekP, a1, Res.at], .andPeekFail a2⟩
      | some x =>
        obtain ⟨m, rest⟩ := x
        have happ := append_eq' a2
        have hp : Good g (evalExp call p) p ⟨s.ptr + byteLen m, rest⟩ := by
          rcases h2.2 with h2 | h2
          · have hne := Derives.consumes w.cons_ok a2 h2 _ _ rfl
            have hlen : rest.length < s.chars.length := by
              rw [← happ]; simp; exact List.length_pos_iff.mpr hne
            exact hshort p _ (by simp only; omega) h1.2
              (fun r s' hs' => hc r s' (Or.inl (by simp only at hs'; omega)))
          · have hlen : rest.length ≤ s.chars.length := by rw [← happ]; simp
            refine ihp _ (by simp only; omega) h1.2 h2 ?_
            intro r s' hs'
            simp only at hs'
            rcases hs' with hs' | hs'
            · exact hc r s' (Or.inl (by omega))
            · exact hc r s' (Or.inr ⟨by omega, hs'.2⟩)
        obtain ⟨rb, b1, b2⟩ := hp
        cases rb with
        | none => exact ⟨none, by simp [evalExp, andPeekP, a1, Res.at, b1], .andPeekNo a2 b2⟩
        | some y => exact ⟨some (m, rest), by simp [evalExp, andPeekP, a1, Res.at, b1], .andPeekYes a2 b2⟩
    | andNot e p ihe ihp =>
      intro s hl h1 h2 hc
      simp [repOK] at h1
      simp [rankOK] at h2
      obtain ⟨ra, a1, a2⟩ := ihe s hl h1.1 h2.1 hc
      cases ra with
      | none => exact ⟨none, by simp [evalExp, andNotP, a1, Res.at], .andNotFail a2⟩
      | some x =>
        obtain ⟨m, rest⟩ := x
        have happ := append_eq' a2
        have hp : Good g (evalExp call p) p ⟨s.ptr + byteLen m, rest⟩ := by
          rcases h2.2 with h2 | h2
          · have hne := Derives.consumes w.cons_ok a2 h2 _ _ rfl
            have hlen : rest.length < s.chars.length := by
              rw [← happ]; simp; exact List.length_pos_iff.mpr hne
            exact hshort p _ (by simp only; omega) h1.2
              (fun r s' hs' => hc r s' (Or.inl (by simp only at hs'; omega)))
          · have hlen : rest.length ≤ s.chars.length := by rw [← happ]; simp
            refine ihp _ (by simp only; omega) h1.2 h2 ?_
            intro r s' hs'
            simp only at hs'
            rcases hs' with hs' | hs'
            · exact hc r s' (Or.inl (by omega))
            · exact hc r s' (Or.inr ⟨by omega, hs'.2⟩)
        obtain ⟨rb, b1, b2⟩ := hp
        cases rb with
        | none => exact ⟨some (m, rest), by simp [evalExp, andNotP, a1, Res.at, b1], .andNotYes a2 b2⟩
        | some y => exact ⟨none, by simp [evalExp, andNotP, a1, Res.at, b1], .andNotNo a2 b2⟩
    | guardNot p e ihp ihe =>
      intro s hl h1 h2 hc
      simp [repOK] at h1
      simp [rankOK] at h2
      obtain ⟨ra, a1, a2⟩ := ihp s hl h1.1 h2.1 hc
      cases ra with
      | some x => exact ⟨none, by simp [evalExp, guardNotP, a1, Res.at], .guardBlock a2⟩
      | none =>
        obtain ⟨rb, b1, b2⟩ := ihe s hl h1.2 h2.2 hc
        exact ⟨rb, by simp [evalExp, guardNotP, a1, Res.at, b1], .guardGo a2 b2⟩
  have all : ∀ N e (s : Str), s.chars.length < N → repOK w.cons e = true →
      (∀ r s', s'.chars.length ≤ s.chars.length → Good g (call r) (.call r) s') →
      Good g (evalExp call e) e s := by
    intro N
    induction N with
    | zero => intro e s h; omega
    | succ N ih =>
      intro e s hs h1 hc
      refine key N ih w.bound e s (by omega) h1 (rankOK_bound w.rank_lt e) ?_
      intro r s' hs'
      exact hc r s' (by omega)
  intro e s h1 h2 hc
  exact key s.chars.length (fun e s' hs' => all _ e s' hs') n e s (Nat.le_refl _) h1 h2 hc

/-- Every rule is total: with fuel `bound * (length + 1)` it returns its derivable result. -/
theorem evalRule_good (w : WF g) : ∀ (fuel : Nat) (r : R) (s : Str),
    w.bound * s.chars.length + w.rank r < fuel → Good g (evalRule g fuel r) (.call r) s := by
  intro fuel
  induction fuel with
  | zero => intro r s h; omega
  | succ fuel ih =>
    intro r s hf
    have := evalExp_good w (evalRule g fuel) (w.rank r) (g r) s (w.rep_ok r) (w.rank_ok r) ?_
    · obtain ⟨res, h1, h2⟩ := this
      exact ⟨res, h1, .call h2⟩
    · intro r' s' hs'
      apply ih
      rcases hs' with hs' | ⟨hs', hr'⟩
      · have h1 := w.rank_lt r'
        have h2 : w.bound * s'.chars.length + w.bound ≤ w.bound * s.chars.length := by
          rw [← Nat.mul_succ]; exact Nat.mul_le_mul_left _ hs'
        omega
      · have h2 : w.bound * s'.chars.length ≤ w.bound * s.chars.length := Nat.mul_le_mul_left _ hs'
        omega

end Sneturfahi
