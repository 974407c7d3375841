import Verif.Model.RuleText
import Verif.Model.RuleIdents
import Verif.Model.Trace

/-!
# C81: the word rules are what the source says
-/

namespace Sneturfahi

/-- A rule body with the names of the rules written out. -/
def Exp.spelled : Exp Rule → Exp (List Char)
  | .null => .null
  | .eof => .eof
  | .oneOf cs => .oneOf cs
  | .call x => .call x.ident
  | .not e => .not e.spelled
  | .peek e => .peek e.spelled
  | .alt a b => .alt a.spelled b.spelled
  | .longest a b => .longest a.spelled b.spelled
  | .seq a b => .seq a.spelled b.spelled
  | .rep n e => .rep n e.spelled
  | .andPeek a b => .andPeek a.spelled b.spelled
  | .andNot a b => .andNot a.spelled b.spelled
  | .guardNot a b => .guardNot a.spelled b.spelled

namespace Props

open Rust

set_option maxRecDepth 100000

/-- The rule functions declared in the text of `src/rules.rs`, by hand or by one of its macros, are in this order: `null`,
which is one of the combinators, and then the rules of the model, each one with the body and the `#[debug_rule]`
attribute the model gives it. -/
theorem C81_rules :
    fileRules Source.rulesRs =
      some (⟨c!"null", false, none⟩ :: Rule.all.map fun r => ⟨r.ident, r.traced, some (grammar r).spelled⟩) := by
  decide +kernel

theorem rule_all (x : Rule) : x ∈ Rule.all := by cases x <;> decide

theorem rule_ident_checked : (Rule.all.all fun x => Rule.all.find? (·.ident == x.ident) == some x) = true := by
  decide +kernel

theorem rule_ident_inj {x y : Rule} (h : x.ident = y.ident) : x = y := by
  have a := List.all_eq_true.mp rule_ident_checked x (rule_all x)
  have b := List.all_eq_true.mp rule_ident_checked y (rule_all y)
  simp only [beq_iff_eq] at a b
  rw [h, b] at a
  exact (Option.some.inj a).symm

theorem spelled_inj {a b : Exp Rule} (h : a.spelled = b.spelled) : a = b := by
  induction a generalizing b <;> cases b <;> simp only [Exp.spelled, reduceCtorEq] at h <;> try rfl
  all_goals simp only [Exp.oneOf.injEq, Exp.call.injEq, Exp.not.injEq, Exp.peek.injEq, Exp.alt.injEq, Exp.longest.injEq,
    Exp.seq.injEq, Exp.rep.injEq, Exp.andPeek.injEq, Exp.andNot.injEq, Exp.guardNot.injEq] at h ⊢
  all_goals grind [rule_ident_inj]

/-- No rule is left out, none is declared twice. -/
theorem C81_each (x : Rule) :
    ∃ fns, fileRules Source.rulesRs = some fns ∧
      fns.filter (·.name == x.ident) = [⟨x.ident, x.traced, some (grammar x).spelled⟩] := by
  refine ⟨_, C81_rules, ?_⟩
  have := List.all_eq_true.mp (show (Rule.all.all fun x =>
      (⟨c!"null", false, none⟩ :: Rule.all.map fun r => (⟨r.ident, r.traced, some (grammar r).spelled⟩ : RuleFn)).filter
        (·.name == x.ident) == [⟨x.ident, x.traced, some (grammar x).spelled⟩]) = true by decide +kernel) x (rule_all x)
  simpa using this

/-- The text determines the rules: with any other bodies the file would read differently. -/
theorem C81_determined (g : Rule → Exp Rule)
    (same : ∀ x : Rule, ∃ fns fn, fileRules Source.rulesRs = some fns ∧ fn ∈ fns ∧ fn.name = x.ident ∧
      fn.body = some (g x).spelled) : g = grammar := by
  funext x
  obtain ⟨fns, fn, h1, h2, h3, h4⟩ := same x
  obtain ⟨fns', h5, h6⟩ := C81_each x
  rw [h1] at h5
  cases h5
  have : fn ∈ fns.filter (·.name == x.ident) := by simp [h2, h3]
  rw [h6, List.mem_singleton] at this
  rw [this] at h4
  exact (spelled_inj (Option.some.inj h4)).symm

/-- Some of the rules as they read in the text: `consonant_rule!(c, "cC", s, x, voiced);`, and the function `glide`. -/
theorem C81_cases :
    let find (n : List Char) := ((fileRules Source.rulesRs).getD []).find? (·.name == n)
    find c!"c" = some ⟨c!"c", false, some (.andNot (.oneOf c!"cC") (.alt (.call c!"h") (.alt (.call c!"glide")
      (.alt (.call c!"c") (.alt (.call c!"s") (.alt (.call c!"x") (.call c!"voiced")))))))⟩ ∧
    find c!"glide" = some ⟨c!"glide", false, some (.andPeek (.oneOf c!"iIuU") (.call c!"nucleus"))⟩ := by
  decide +kernel

end Props
end Sneturfahi
