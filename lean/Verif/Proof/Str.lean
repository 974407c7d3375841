import Verif.Model.Prim

/-! # Byte lengths and slicing of character lists -/

namespace Sneturfahi

@[simp] theorem byteLen_nil : byteLen [] = 0 := rfl
@[simp] theorem byteLen_cons (c : Char) (cs : List Char) : byteLen (c :: cs) = c.utf8Size + byteLen cs := rfl

@[simp] theorem byteLen_append (a b : List Char) : byteLen (a ++ b) = byteLen a + byteLen b := by
  induction a with
  | nil => simp
  | cons c a ih => simp [ih]; omega

theorem utf8Size_pos (c : Char) : 0 < c.utf8Size := Char.utf8Size_pos c

theorem length_le_byteLen (cs : List Char) : cs.length ≤ byteLen cs := by
  induction cs with
  | nil => simp
  | cons c cs ih => have := utf8Size_pos c; simp; omega

theorem byteLen_eq_zero {cs : List Char} : byteLen cs = 0 ↔ cs = [] := by
  cases cs with
  | nil => simp
  | cons c cs => have := utf8Size_pos c; simp; omega

theorem splitBytes_append (a b : List Char) : splitBytes (a ++ b) (byteLen a) = some (a, b) := by
  induction a with
  | nil => simp [splitBytes]
  | cons c a ih =>
    have h := utf8Size_pos c
    obtain ⟨n, hn⟩ : ∃ n, byteLen (c :: a) = n + 1 := ⟨byteLen (c :: a) - 1, by simp; omega⟩
    have h2 : n + 1 - c.utf8Size = byteLen a := by simp at hn; omega
    have h3 : c.utf8Size ≤ n + 1 := by simp at hn; omega
    rw [hn, List.cons_append, splitBytes, if_pos h3, h2, ih]

theorem splitBytes_eq_some {cs : List Char} {n : Nat} {a b : List Char} :
    splitBytes cs n = some (a, b) ↔ a ++ b = cs ∧ byteLen a = n := by
  constructor
  · intro h
    induction cs generalizing n a b with
    | nil =>
      cases n with
      | zero => simp [splitBytes] at h; obtain ⟨rfl, rfl⟩ := h; simp
      | succ n => simp [splitBytes] at h
    | cons c cs ih =>
      cases n with
      | zero => simp [splitBytes] at h; obtain ⟨rfl, rfl⟩ := h; simp
      | succ n =>
        rw [splitBytes] at h
        split at h
        · rename_i hle
          cases hs : splitBytes cs (n + 1 - c.utf8Size) with
          | none => simp [hs] at h
          | some x =>
            obtain ⟨x1, x2⟩ := x
            simp [hs] at h
            obtain ⟨rfl, rfl⟩ := h
            have := ih hs
            simp [this.1, this.2]; omega
        · simp at h
  · rintro ⟨rfl, rfl⟩; exact splitBytes_append a b

theorem suffix_byteLen_le {a b x y : List Char} (h : a ++ x = b ++ y) :
    byteLen x ≤ byteLen y ↔ x.length ≤ y.length := by
  rcases List.append_eq_append_iff.mp h with ⟨d, h1, h2⟩ | ⟨d, h1, h2⟩
  · subst h2
    cases d with
    | nil => simp
    | cons c d => have := utf8Size_pos c; simp; omega
  · subst h2; simp

end Sneturfahi
