import Verif.Proof.Words

/-!
# Properties of the morphology rules (C06, C07)
-/

namespace Sneturfahi.Props

/-- **C06.** Every rule function, on every text at every address, returns: it neither panics nor
recurses or loops for ever.  The answer does not depend on the fuel of the model, so the bound on the
depth of calls is `128 * (length + 1)`. -/
theorem C06_rules_total (rule : Rule) (s : Str) :
    ∃ res, ∀ fuel, 128 * (s.chars.length + 1) ≤ fuel → evalRule grammar fuel rule s = .val res := by
  refine ⟨Res.at s.ptr (parseRule rule s.chars), fun fuel hf => ?_⟩
  have hb : grammarWF.bound = 128 := rfl
  have h := grammarWF.rank_lt rule
  obtain ⟨res, h1, h2⟩ := evalRule_good grammarWF fuel rule s (by rw [hb] at h ⊢; omega)
  rw [h1, derives_iff.mp h2]

/-- **C06.** In particular the call as the other modules make it returns. -/
theorem C06_runRule_total (rule : Rule) (s : Str) : ∃ res, runRule rule s = .val res :=
  ⟨_, runRule_eq rule s⟩

/-- **C07.** A successful rule matched a prefix: matched text and rest are adjacent slices of the
input that make it up completely. -/
theorem C07_prefix (rule : Rule) (s matched rest : Str) (h : runRule rule s = .val (some (matched, rest))) :
    matched.chars ++ rest.chars = s.chars ∧ matched.ptr = s.ptr ∧ rest.ptr = matched.endPtr := by
  rw [runRule_eq] at h
  cases hp : parseRule rule s.chars with
  | none => rw [hp] at h; simp [Res.at] at h
  | some x =>
    obtain ⟨m, r⟩ := x
    rw [hp] at h
    simp only [Res.at, Exec.val.injEq, Option.some.injEq, Prod.mk.injEq] at h
    obtain ⟨rfl, rfl⟩ := h
    exact ⟨parseRule_append hp, rfl, by simp [Str.endPtr, Str.len]⟩

/-- **C07.** What a rule matches does not depend on where in memory the text is. -/
theorem C07_address_independent (rule : Rule) (a b : Nat) (cs : List Char) :
    (∃ m r m' r' : Str, runRule rule ⟨a, cs⟩ = .val (some (m, r)) ∧ runRule rule ⟨b, cs⟩ = .val (some (m', r')) ∧
      m.chars = m'.chars ∧ r.chars = r'.chars) ∨
    (runRule rule ⟨a, cs⟩ = .val none ∧ runRule rule ⟨b, cs⟩ = .val none) := by
  rw [runRule_eq, runRule_eq]
  cases hp : parseRule rule cs with
  | none => exact Or.inr ⟨rfl, rfl⟩
  | some x => exact Or.inl ⟨_, _, _, _, rfl, rfl, rfl, rfl⟩

example : runRule .cmavo_minimal ⟨7, c!"mibroda"⟩ = .val (some (⟨7, c!"mi"⟩, ⟨9, c!"broda"⟩)) := by
  decide +kernel
example : runRule .gismu ⟨0, c!"bro,dami"⟩ = .val none := by decide +kernel

end Sneturfahi.Props
