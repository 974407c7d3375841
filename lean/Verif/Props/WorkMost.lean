import Verif.Proof.CstMost
import Verif.Proof.RulesReported
import Verif.Props.Work
import Verif.Props.Trace

/-!
# C101: the work is at most exponential, and the nesting of the rules is linear
-/

namespace Sneturfahi.Props

open Spec

theorem cst_sites : ∀ r, sites (cst r) < 128 := by
  intro r
  cases r with
  | word s => cases s <;> decide +kernel
  | _ => decide +kernel

theorem most_text (s : Toks) : Most (128 ^ (33 * (s.list.length + 1))) (evalCstW cst (cstFuel s) .Text s) (evalCst cst (cstFuel s) .Text s) := by
  have hb : cstWF.bound = 32 := rfl
  have hr := cstWF.rank_lt .Text
  refine (most_evalCst cstWF (by decide) cst_sites (cstFuel s) .Text s ?_).mono (Nat.pow_le_pow_right (by decide) ?_)
  · rw [hb] at hr ⊢
    unfold cstFuel
    omega
  · rw [hb] at hr ⊢
    omega

theorem most_parse {k : Nat} (p : Profile) {s : Toks} (h : Most k (evalCstW cst (cstFuel s) .Text s) (evalCst cst (cstFuel s) .Text s)) :
    Most k (parseCstW p s) (parseCst p s) := by
  unfold parseCstW parseCst allConsumingW allConsumingC
  refine (h.bind0 (g := fun o => match o with
    | .ok rest vs => if rest.list.length = 0 then pure (.ok rest vs) else pure (.error (.ofKind rest .eof))
    | r => pure r) fun o => ?_).bind0 fun o => ?_
  · cases o with
    | ok r vs =>
      show Most 0 (if _ then _ else _) (if _ then _ else _)
      split <;> exact .pure _
    | _ => exact .pure _
  · cases o with
    | ok r vs =>
      show Most 0 (if _ then _ else _) (if _ then _ else _)
      split
      · exact ⟨⟨0, 0⟩, rfl, nofun⟩
      · rcases vs with _ | ⟨v, _ | ⟨w, ws⟩⟩
        · exact ⟨⟨0, 0⟩, rfl, nofun⟩
        · exact .pure _
        · exact ⟨⟨0, 0⟩, rfl, nofun⟩
    | _ => exact .pure _

/-- **C101.** However long the text, and whether it is one or not, parsing `n` tokens makes at most `128 ^ (33 (n + 1))` calls of
`Parse::parse`: the work is exponential, as `C88_exponential` says it can be, but not worse. -/
theorem C101_parser (p : Profile) (s : Toks) :
    ∃ out u, parseCst p s = .val out ∧ parseCstW p s = .val (out, u) ∧ u.calls ≤ 128 ^ (33 * (s.list.length + 1)) := by
  obtain ⟨out, ho⟩ := C45_total s
  obtain ⟨u, h1, h2⟩ := most_parse p (most_text s)
  rw [ho p] at h1 h2
  exact ⟨out, u, ho p, h1, h2 _ rfl⟩

/-- **C101.** Counting the calls of rule functions does not change what a rule does.  On `n` characters any rule makes at most
`16 ^ (129 (n + 1))` calls of rule functions, at most `128 (n + 1)` of them nested: the stack that a rule needs is linear in
the length of the text. -/
theorem C101_rules (rule : Rule) (s : Str) :
    ∃ res u, runRule rule s = .val res ∧ runRuleK rule s = .val (res, u) ∧
      u.calls ≤ 16 ^ (129 * (s.chars.length + 1)) ∧ u.depth ≤ 128 * (s.chars.length + 1) := by
  obtain ⟨res, hr⟩ := C06_runRule_total rule s
  have hb : grammarWF.bound = 128 := rfl
  have hl := grammarWF.rank_lt rule
  obtain ⟨u, h1, h2⟩ := within_evalRule grammarWF (by decide) grammar_places (ruleFuel s) rule s (by
    rw [hb] at hl ⊢
    unfold ruleFuel
    omega)
  have hr' : evalRule grammar (ruleFuel s) rule s = .val res := hr
  rw [hr'] at h1 h2
  refine ⟨res, u, hr, h1, Nat.le_trans (h2 _ rfl).1 (Nat.pow_le_pow_right (by decide) ?_), (h2 _ rfl).2⟩
  rw [hb] at hl ⊢
  omega

/-- The bound on the recursion in the definition of the counted rules is never reached: with any more room they do the same and
count the same. -/
theorem C101_room (rule : Rule) (s : Str) (d : Nat) (hd : 128 * (s.chars.length + 1) ≤ d) :
    evalRuleK d rule s = evalRuleK (128 * (s.chars.length + 1)) rule s := by
  obtain ⟨res, u, _, h, _⟩ := C101_rules rule s
  have h' : evalRuleK (128 * (s.chars.length + 1)) rule s = .val (res, u) := h
  have := evalRuleK_val h' (d - 128 * (s.chars.length + 1))
  rw [Nat.add_sub_cancel' hd] at this
  rw [this, h']

/-- **C101.** The messages that `#[debug_rule]` writes are at most two for each call that is counted, and none is further to the right
than those calls are nested; so they too are at most exponentially many. -/
theorem C101_messages (rule : Rule) (s : Str) (level : Nat) :
    ∃ res u msgs, runRuleK rule s = .val (res, u) ∧ runRuleT rule s ⟨level, []⟩ = .val (res, ⟨level, msgs⟩) ∧
      msgs.length ≤ 2 * u.calls ∧ (∀ m ∈ msgs, m.width < 2 * (level + u.depth)) ∧ msgs.length ≤ 2 * 16 ^ (129 * (s.chars.length + 1)) := by
  obtain ⟨res, u, _, h, hc, _⟩ := C101_rules rule s
  obtain ⟨msgs, h1, h2⟩ := reported_rule (ruleFuel s) rule s ⟨level, []⟩
  have h' : evalRuleK (ruleFuel s) rule s = .val (res, u) := h
  rw [h'] at h1
  have h3 := h2 _ h'
  exact ⟨res, u, msgs, h, by simpa [Exec.map, runRuleT] using h1, h3.1, h3.2, by have := h3.1; simp only at this; omega⟩

/-- On `klama` the rule for gismu makes 609 calls, nested 11 deep; on the empty text 90, nested 6 deep. -/
theorem C101_example :
    (match runRuleK .gismu ⟨0, c!"klama"⟩, runRuleK .gismu ⟨0, []⟩ with
    | .val (_, u), .val (_, v) => (u, v)
    | _, _ => (⟨0, 0⟩, ⟨0, 0⟩)) = (⟨609, 11⟩, ⟨90, 6⟩) := by decide +kernel

end Sneturfahi.Props
