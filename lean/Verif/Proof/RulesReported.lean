import Verif.Proof.RulesMost
import Verif.Proof.Trace
import Verif.Proof.CstBahes

/-!
# The messages of the rules and the calls that are counted; more room changes nothing
-/

namespace Sneturfahi

/-- `t` does what `k` does, writes at most two messages for every call that `k` counts, and none of them deeper than `k`'s calls. -/
def Reported {α : Type} (t : Traced α) (k : Counted α) : Prop :=
  ∀ st : TraceState, ∃ msgs : List TraceMsg, t st = Exec.map (fun (p : α × Used) => (p.1, (⟨st.level, st.log ++ msgs⟩ : TraceState))) k ∧
    ∀ p, k = .val p → msgs.length ≤ 2 * p.2.calls ∧ ∀ m ∈ msgs, m.width < 2 * (st.level + p.2.depth)

namespace Reported

variable {α β : Type} {t : Traced α} {k : Counted α}

theorem pure (a : α) : Reported (Pure.pure a : Traced α) (Pure.pure a) := fun st => ⟨[], by show Exec.val _ = Exec.val _; simp, fun _ _ => ⟨Nat.zero_le _, nofun⟩⟩

theorem lift (x : Exec α) : Reported (.lift x) (.lift x) := fun st => ⟨[], by cases x <;> simp [Traced.lift, Counted.lift, Exec.map], fun _ _ => ⟨Nat.zero_le _, nofun⟩⟩

theorem diverge : Reported (α := α) .diverge .diverge := fun _ => ⟨[], rfl, nofun⟩

theorem bind {f : α → Traced β} {g : α → Counted β} (h : Reported t k) (hf : ∀ a, Reported (f a) (g a)) : Reported (t >>= f) (k >>= g) := by
  intro st
  obtain ⟨m1, h1, n1⟩ := h st
  cases k with
  | panic => exact ⟨[], by rw [traced_bind, h1]; rfl, nofun⟩
  | diverge => exact ⟨[], by rw [traced_bind, h1]; rfl, nofun⟩
  | val p =>
    obtain ⟨a, u⟩ := p
    obtain ⟨m2, h2, n2⟩ := hf a ⟨st.level, st.log ++ m1⟩
    refine ⟨m1 ++ m2, ?_, ?_⟩
    · rw [traced_bind, h1]
      show f a _ = Exec.map _ (Exec.map _ (g a))
      rw [h2]
      generalize g a = x
      rcases x with _ | _ | _ <;> simp [Exec.map]
    · intro p hp
      have hp' : Exec.map (fun p => (p.1, u.andThen p.2)) (g a) = .val p := hp
      cases hg : g a with
      | panic => rw [hg] at hp'; cases hp'
      | diverge => rw [hg] at hp'; cases hp'
      | val q =>
        rw [hg] at hp'
        cases hp'
        have h3 := n1 _ rfl
        have h4 := n2 _ hg
        simp only [Used.andThen, List.length_append, List.mem_append] at h3 h4 ⊢
        refine ⟨by omega, fun m hm => ?_⟩
        rcases hm with hm | hm
        · have := h3.2 m hm; omega
        · have := h4.2 m hm; omega

end Reported

/-- Rule functions of which that holds on every text. -/
def ReportedP (t : TParser) (k : KParser) : Prop := ∀ s, Reported (t s) (k s)

theorem reported_repLoop {t : TParser} {p : KParser} (h : ReportedP t p) (fuel : Nat) :
    ∀ rest first last num, Reported (repLoopT t fuel rest first last num) (repLoopK p fuel rest first last num) := by
  induction fuel with
  | zero => intros; exact .diverge
  | succ fuel ih =>
    intro rest first last num
    refine (h rest).bind fun a => ?_
    cases a with
    | none => exact .pure _
    | some a => exact ih _ _ _ _

theorem reported_exp {c : Rule → TParser} {c' : Rule → KParser} (h : ∀ r, ReportedP (c r) (c' r)) (e : Exp Rule) :
    ReportedP (evalExpT c e) (evalExpK c' e) := by
  induction e with
  | null => exact fun _ => .lift _
  | eof => exact fun _ => .lift _
  | oneOf chs => exact fun _ => .lift _
  | call rule => exact h rule
  | not e ih =>
    intro s
    refine (ih s).bind fun o => ?_
    cases o
    · exact .lift _
    · exact .pure _
  | peek e ih =>
    intro s
    refine (ih s).bind fun o => ?_
    cases o
    · exact .pure _
    · exact .lift _
  | alt a b iha ihb =>
    intro s
    refine (iha s).bind fun o => ?_
    cases o
    · exact ihb s
    · exact .pure _
  | longest a b iha ihb =>
    intro s
    refine (iha s).bind fun o => (ihb s).bind fun o' => ?_
    rcases o with _ | ⟨m, r⟩ <;> rcases o' with _ | ⟨m', r'⟩ <;> exact .pure _
  | seq a b iha ihb =>
    intro s
    refine (iha s).bind fun o => ?_
    rcases o with _ | ⟨m, r⟩
    · exact .pure _
    · refine (ihb r).bind fun o' => ?_
      rcases o' with _ | ⟨m', r'⟩
      · exact .pure _
      · exact .lift _
  | rep min e ih =>
    intro s
    refine (reported_repLoop ih _ _ _ _ _).bind fun a => ?_
    obtain ⟨rest, first, last, num⟩ := a
    simp only
    split
    · exact .pure _
    · exact .lift _
  | andPeek e p ihe ihp =>
    intro s
    refine (ihe s).bind fun o => ?_
    rcases o with _ | ⟨m, r⟩
    · exact .pure _
    · refine (ihp r).bind fun o' => ?_
      cases o' <;> exact .pure _
  | andNot e p ihe ihp =>
    intro s
    refine (ihe s).bind fun o => ?_
    rcases o with _ | ⟨m, r⟩
    · exact .pure _
    · refine (ihp r).bind fun o' => ?_
      cases o' <;> exact .pure _
  | guardNot p e ihp ihe =>
    intro s
    refine (ihp s).bind fun o => ?_
    cases o
    · exact ihe s
    · exact .pure _

theorem reported_debugRule (name : Rule) {t : TParser} {k : KParser} (h : ReportedP t k) : ReportedP (debugRule name t) (fun s => .inside (k s)) := by
  intro s st
  obtain ⟨m, h1, n⟩ := h s ⟨st.level + 1, st.log ++ [.entering (st.level * 2) name]⟩
  show ∃ msgs : List TraceMsg, _ = Exec.map _ (Counted.inside (k s)) ∧ ∀ p, Counted.inside (k s) = .val p → _
  generalize k s = x at h1 n
  cases x with
  | panic =>
    exact ⟨[], by unfold debugRule; rw [traced_bind]; simp only [debugRuleStart]; rw [traced_bind, h1]; rfl, nofun⟩
  | diverge =>
    exact ⟨[], by unfold debugRule; rw [traced_bind]; simp only [debugRuleStart]; rw [traced_bind, h1]; rfl, nofun⟩
  | val p =>
    have h2 := n p rfl
    refine ⟨.entering (st.level * 2) name :: (m ++ .exiting (st.level * 2) name p.1.isSome :: []), ?_, ?_⟩
    · unfold debugRule
      rw [traced_bind]
      simp only [debugRuleStart]
      rw [traced_bind, h1]
      simp only [Exec.map]
      rw [traced_bind]
      simp [debugRuleEnd, Pure.pure, Counted.inside, Exec.map]
    · intro q hq
      cases hq
      simp only [Used.inside, List.length_cons, List.length_append, List.length_nil, List.mem_cons, List.mem_append, List.not_mem_nil, or_false] at h2 ⊢
      refine ⟨by omega, fun x hx => ?_⟩
      rcases hx with rfl | hx | rfl
      · simp only [TraceMsg.width]; omega
      · have := h2.2 x hx; omega
      · simp only [TraceMsg.width]; omega

theorem reported_rule (fuel : Nat) : ∀ rule, ReportedP (evalRuleT fuel rule) (evalRuleK fuel rule) := by
  induction fuel with
  | zero => exact fun _ _ => .diverge
  | succ fuel ih =>
    intro rule
    have h := reported_exp ih (grammar rule)
    unfold evalRuleT evalRuleK
    split
    · exact reported_debugRule rule h
    · intro s st
      obtain ⟨msgs, h1, h2⟩ := h s st
      show ∃ msgs : List TraceMsg, _ = Exec.map _ (Counted.inside (evalExpK (evalRuleK fuel) (grammar rule) s)) ∧
        ∀ p, Counted.inside (evalExpK (evalRuleK fuel) (grammar rule) s) = .val p → _
      generalize evalExpK (evalRuleK fuel) (grammar rule) s = x at h1 h2
      refine ⟨msgs, ?_, ?_⟩
      · rw [h1]; cases x <;> rfl
      · intro p hp
        cases x with
        | panic => cases hp
        | diverge => cases hp
        | val q =>
          cases hp
          have := h2 q rfl
          simp only [Used.inside]
          refine ⟨by omega, fun m hm => ?_⟩
          have := this.2 m hm
          omega

/-! ### More room -/

theorem below_repLoop {t t' : KParser} (h : ∀ s, Below (t s) (t' s)) (fuel : Nat) :
    ∀ rest first last num, Below (repLoopK t fuel rest first last num) (repLoopK t' fuel rest first last num) := by
  induction fuel with
  | zero => intros; exact .refl _
  | succ fuel ih =>
    intro rest first last num
    refine (h rest).bind fun a => ?_
    cases a with
    | none => exact .refl _
    | some a => exact ih _ _ _ _

theorem below_exp {c c' : Rule → KParser} (h : ∀ r s, Below (c r s) (c' r s)) (e : Exp Rule) : ∀ s, Below (evalExpK c e s) (evalExpK c' e s) := by
  induction e with
  | null => exact fun _ => .refl _
  | eof => exact fun _ => .refl _
  | oneOf chs => exact fun _ => .refl _
  | call rule => exact h rule
  | not e ih => exact fun s => (ih s).bind fun _ => .refl _
  | peek e ih => exact fun s => (ih s).bind fun _ => .refl _
  | alt a b iha ihb =>
    intro s
    refine (iha s).bind fun o => ?_
    cases o
    · exact ihb s
    · exact .refl _
  | longest a b iha ihb => exact fun s => (iha s).bind fun _ => (ihb s).bind fun _ => .refl _
  | seq a b iha ihb =>
    intro s
    refine (iha s).bind fun o => ?_
    rcases o with _ | ⟨m, r⟩
    · exact .refl _
    · exact (ihb r).bind fun _ => .refl _
  | rep min e ih => exact fun s => (below_repLoop ih _ _ _ _ _).bind fun _ => .refl _
  | andPeek e p ihe ihp =>
    intro s
    refine (ihe s).bind fun o => ?_
    rcases o with _ | ⟨m, r⟩
    · exact .refl _
    · exact (ihp r).bind fun _ => .refl _
  | andNot e p ihe ihp =>
    intro s
    refine (ihe s).bind fun o => ?_
    rcases o with _ | ⟨m, r⟩
    · exact .refl _
    · exact (ihp r).bind fun _ => .refl _
  | guardNot p e ihp ihe =>
    intro s
    refine (ihp s).bind fun o => ?_
    cases o
    · exact ihe s
    · exact .refl _

theorem below_rule (fuel : Nat) : ∀ r s, Below (evalRuleK fuel r s) (evalRuleK (fuel + 1) r s) := by
  induction fuel with
  | zero => intro r s; exact .inl rfl
  | succ fuel ih => intro r s; exact (below_exp ih (grammar r) s).inside

theorem evalRuleK_val {fuel : Nat} {r : Rule} {s : Str} {x : ParseRes × Used} (h : evalRuleK fuel r s = .val x) (d : Nat) :
    evalRuleK (fuel + d) r s = .val x := by
  induction d with
  | zero => exact h
  | succ d ih =>
    rcases below_rule (fuel + d) r s with hb | hb
    · rw [ih] at hb; cases hb
    · rw [← Nat.add_assoc, ← hb, ih]

end Sneturfahi
