import Verif.Proof.FuSounds

/-!
# Initial consonants, by the rules and by the specification
-/

namespace Sneturfahi.Fu

set_option linter.constructorNameAsVariable false

open Spec Props
open Lj (isL)

instance : DecidablePred InitialConsonants := fun cs => by
  unfold InitialConsonants
  split <;> infer_instance

theorem init1 : ∀ c ∈ allConsonants, initOk [c] = true := by decide +kernel
theorem init2 : ∀ c ∈ allConsonants, ∀ d ∈ allConsonants, PermissiblePair (lower c) (lower d) → (initOk [c, d] = true ↔ InitialConsonants [c, d]) := by decide +kernel
theorem init3 : ∀ c ∈ allConsonants, ∀ d ∈ allConsonants, PermissiblePair (lower c) (lower d) → ∀ e ∈ allConsonants, PermissiblePair (lower d) (lower e) →
    (initOk [c, d, e] = true ↔ InitialConsonants [c, d, e]) := by decide +kernel

/-- At most so many consonants are taken. -/
def AtMost (k : Nat) (f : List Char → Option (List Char)) : Prop := ∀ cs r, f cs = some r → cs.length ≤ r.length + k

section
variable {f g : List Char → Option (List Char)} {j k : Nat}
theorem m_take (p : Char → Bool) : AtMost 1 (takeS p) := by
  intro cs r h
  cases cs with
  | nil => cases h
  | cons c cs => simp only [takeS] at h; split at h <;> cases h; simp
theorem m_alt (h1 : AtMost k f) (h2 : AtMost k g) : AtMost k (altS f g) := by
  intro cs r h
  simp only [altS, Option.or_eq_some_iff] at h
  rcases h with h | ⟨_, h⟩
  · exact h1 _ _ h
  · exact h2 _ _ h
theorem m_seq (h1 : AtMost j f) (h2 : AtMost k g) : AtMost (j + k) (seqS f g) := by
  intro cs r h
  simp only [seqS, Option.bind_eq_some_iff] at h
  obtain ⟨u, e1, e2⟩ := h
  have := h1 _ _ e1
  have := h2 _ _ e2
  omega
theorem m_not : AtMost 0 (notS f) := by
  intro cs r h
  simp only [notS] at h
  split at h <;> cases h
  simp
theorem m_opt (h1 : AtMost k f) : AtMost k (optS f) := by
  intro cs r h
  simp only [optS, Option.or_eq_some_iff] at h
  rcases h with h | ⟨_, h⟩
  · exact h1 _ _ h
  · cases h; simp
theorem m_more (h1 : AtMost j f) (h : j ≤ k) : AtMost k f := fun cs r e => by have := h1 cs r e; omega
end

theorem m_liquid : AtMost 1 liquidC := m_alt (m_take _) (m_take _)
theorem m_affricate : AtMost 3 affricateC :=
  m_more (m_alt (m_seq (m_take _) (m_alt (m_take _) (m_take _))) (m_seq (m_take _) (m_alt (m_take _) (m_take _)))) (by omega)
theorem m_sibilant : AtMost 1 sibilantC :=
  m_alt (m_take _) (m_alt (m_seq (m_take _) m_not) (m_seq (m_alt (m_take _) (m_take _)) (m_seq m_not m_not)))
theorem m_other : AtMost 1 otherC :=
  m_alt (m_take _) (m_alt (m_take _) (m_alt (m_take _) (m_alt (m_take _) (m_alt (m_take _) (m_alt (m_take _) (m_alt (m_take _) (m_alt (m_take _)
    (m_alt (m_seq (m_take _) m_not) (m_seq (m_alt (m_take _) (m_take _)) m_not)))))))))
theorem m_initial3 : AtMost 3 initial3C :=
  m_alt m_affricate (m_seq (m_opt m_sibilant) (m_seq (m_opt m_other) (m_opt m_liquid)))

theorem initOk_len {cs : List Char} (h : initOk cs = true) : cs.length ≤ 3 := by
  unfold initOk at h
  obtain ⟨r, hr⟩ := Option.isSome_iff_exists.mp h
  have := initial_all hr
  subst this
  simp only [initialC, andNotS, Option.bind_eq_some_iff] at hr
  obtain ⟨u, ⟨v, h0, h1⟩, h2⟩ := hr
  have := m_initial3 _ _ h0
  cases v with
  | nil => simpa using this
  | cons c v => simp [takeS] at h1

theorem init0 : initOk [] = true := by decide +kernel

theorem init_iff {cs g : List Char} {t : List Sound} (h : Fi (cs.map Lj.C ++ .vowels g :: t)) : initOk cs = true ↔ InitialConsonants cs := by
  match cs, h with
  | [], _ => simp [init0, InitialConsonants]
  | [c], h => simp [init1 c h.good.1, InitialConsonants]
  | [c, d], h => exact init2 c h.good.1 d h.tail.good.1 h.good.2.1
  | [c, d, e], h => exact init3 c h.good.1 d h.tail.good.1 h.good.2.1 e h.tail.tail.good.1 h.tail.good.2.1
  | c :: d :: e :: f :: r, _ =>
    constructor
    · intro h; have := initOk_len h; simp at this
    · intro h; exact h.elim

end Sneturfahi.Fu
