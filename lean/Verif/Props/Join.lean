import Verif.Spec.Join
import Verif.Proof.CstJoin
import Verif.Props.CstEnd

/-!
# C73: paragraphs are independent
-/

namespace Sneturfahi.Props

open Spec

theorem isText_iff {toks : List Token} : IsText toks ↔ Gives (.call .Text) toks [] := by
  constructor
  · intro h
    obtain ⟨root, h⟩ := h .debug 0
    have h1 := parseCst_ok h
    have h2 := runCst_means .Text ⟨0, toks⟩
    rw [h1] at h2
    exact ⟨_, h2⟩
  · rintro ⟨vs, h⟩ p ptr
    obtain ⟨res, h1, h2⟩ := parseCst_eq p ⟨ptr, toks⟩
    have h3 := runCst_means .Text ⟨ptr, toks⟩
    have h4 := runCst_conforms .Text ⟨ptr, toks⟩
    rw [h1] at h3 h4
    have h5 := h.unique _ h3
    cases res with
    | ok r ws =>
      obtain ⟨q, l⟩ := r
      simp only [CRes.outcome, Outcome.ok.injEq] at h5
      obtain ⟨rfl, rfl⟩ := h5
      obtain ⟨v, rfl⟩ := derives_one (h4 _ _ rfl).1
      exact ⟨v, h2⟩
    | error e => cases h5
    | failure e => cases h5

/-- One profile and one place in memory are enough. -/
theorem isText_of {p : Profile} {ptr : Nat} {toks : List Token} {root : Val} (h : parseCst p ⟨ptr, toks⟩ = .val (.ok root)) :
    IsText toks := by
  have h1 := parseCst_ok h
  have h2 := runCst_means .Text ⟨ptr, toks⟩
  rw [h1] at h2
  exact isText_iff.mpr ⟨_, h2⟩

instance (toks : List Token) : Decidable (IsText toks) :=
  match h : parseCst .debug ⟨0, toks⟩ with
  | .val (.ok _) => .isTrue (isText_of h)
  | .val (.error _) => .isFalse fun hi => by obtain ⟨r, hr⟩ := hi .debug 0; rw [h] at hr; cases hr
  | .panic => .isFalse fun hi => by obtain ⟨r, hr⟩ := hi .debug 0; rw [h] at hr; cases hr
  | .diverge => .isFalse fun hi => by obtain ⟨r, hr⟩ := hi .debug 0; rw [h] at hr; cases hr

/-- Tokens, for examples. -/
def toks (l : List Selmaho) : List Token := (sample l).list

/-- **C73.** `A ni'o B` is a text exactly if `A` and `B` are: if `A` is a piece without wrapping words, `fa'o` and `ni'o` that
does not end with `ba'e`, and `B` does not begin with `bu` or `zei`. -/
theorem C73_paragraph (A B : List Token) (n : Token) (hA : Piece A) (hn : n.selmaho = .Niho) (hB : NotBound B) :
    IsText (A ++ n :: B) ↔ IsText A ∧ IsText B := by
  rw [isText_iff, isText_iff, isText_iff]
  refine join_niho hn (fun t ht hc => ?_) hA.last (headFree_notBound hB)
  have h1 := hA.plain t ht
  have h2 := hA.open_ t ht
  have h3 := hA.one t ht
  revert hc h1 h2 h3
  generalize t.selmaho = s
  cases s <;> decide

/-- The example: `mi klama ni'o ui do mo` and its parts; and a case where a part is none: `mi cu ni'o do mo`. -/
example : Piece (toks [.Koha, .Gismu]) ∧ NotBound (toks [.Ui, .Koha, .Goha]) ∧ IsText (toks [.Koha, .Gismu, .Niho, .Ui, .Koha, .Goha]) ∧
    IsText (toks [.Ui, .Koha, .Goha]) ∧ ¬ IsText (toks [.Koha, .Cu, .Niho, .Koha, .Goha]) ∧ ¬ IsText (toks [.Koha, .Cu]) := by
  refine ⟨⟨by decide, by decide, by decide, by decide⟩, ?_, by decide +kernel, by decide +kernel, by decide +kernel, by decide +kernel⟩
  intro bs t rest h hb
  cases bs with
  | nil => cases h; decide
  | cons b bs => exact absurd (hb b (by simp)) (by rw [← (List.cons.inj h).1]; decide)

theorem piece_notBound {A B : List Token} {n : Token} (hA : Piece A) (hn : n.selmaho = .Niho) : NotBound (A ++ n :: B) := by
  intro bs t rest h hb
  have : t ∈ A ∨ t = n ∨ n ∈ bs := by
    rcases List.append_eq_append_iff.mp h with ⟨as, h1, h2⟩ | ⟨as, h1, h2⟩
    · cases as with
      | nil => simp at h2; exact .inr (.inl h2.1.symm)
      | cons a as =>
        simp only [List.cons_append, List.cons.injEq] at h2
        obtain ⟨rfl, _⟩ := h2
        exact .inr (.inr (by rw [h1]; simp))
    · cases as with
      | nil => simp at h2; exact .inr (.inl h2.1)
      | cons a as =>
        simp only [List.cons_append, List.cons.injEq] at h2
        obtain ⟨rfl, _⟩ := h2
        exact .inl (by rw [h1]; simp)
  rcases this with h1 | rfl | h1
  · have := hA.plain t h1
    revert this
    generalize t.selmaho = s
    cases s <;> decide
  · rw [hn]; decide
  · have := hb n h1
    rw [hn] at this
    cases this

/-- **C73.** A text cut at its `ni'o`s: the whole is a text exactly if every piece is. -/
theorem C73_paragraphs (pieces : List (List Token × Token)) (last : List Token)
    (hp : ∀ x ∈ pieces, Piece x.1 ∧ x.2.selmaho = .Niho) (hl : NotBound last) :
    IsText (pieces.flatMap (fun x => x.1 ++ [x.2]) ++ last) ↔ (∀ x ∈ pieces, IsText x.1) ∧ IsText last := by
  induction pieces with
  | nil => simp
  | cons x pieces ih =>
    have hx := hp x (by simp)
    have hrest := fun y hy => hp y (List.mem_cons_of_mem x hy)
    have hb : NotBound (pieces.flatMap (fun x => x.1 ++ [x.2]) ++ last) := by
      cases pieces with
      | nil => simpa using hl
      | cons y pieces =>
        have hy := hp y (by simp)
        have := piece_notBound (B := pieces.flatMap (fun x => x.1 ++ [x.2]) ++ last) hy.1 hy.2
        simpa using this
    have he : (x :: pieces).flatMap (fun x => x.1 ++ [x.2]) ++ last = x.1 ++ x.2 :: (pieces.flatMap (fun x => x.1 ++ [x.2]) ++ last) := by
      simp
    rw [he, C73_paragraph _ _ _ hx.1 hx.2 hb, ih hrest]
    simp [and_assoc]

/-- The example: three pieces, the second of them empty. -/
example : IsText (toks [.Koha, .Gismu, .Niho, .Niho, .Koha]) := by decide +kernel

/-- **C73.** What the conditions are for: with `ba'e` before it, with `fa'o` before it, quoted by `zo`, within `lu` .. `li'u` or
`tu'e` .. `tu'u`, or made a letter by `bu`, the `ni'o` does not divide the text. -/
theorem C73_conditions :
    (IsText (toks [.Bahe, .Niho]) ∧ ¬ IsText (toks [.Bahe])) ∧
    (¬ IsText (toks [.Faho, .Niho]) ∧ IsText (toks [.Faho]) ∧ IsText []) ∧
    (IsText (toks [.Zo, .Niho]) ∧ ¬ IsText (toks [.Zo])) ∧
    (IsText (toks [.Lu, .Niho, .Lihu]) ∧ ¬ IsText (toks [.Lihu])) ∧
    (IsText (toks [.Tuhe, .Niho, .Tuhu]) ∧ ¬ IsText (toks [.Tuhu])) ∧
    (IsText (toks [.Niho, .Bu]) ∧ ¬ IsText (toks [.Bu])) := by
  refine ⟨⟨?_, ?_⟩, ⟨?_, ?_, ?_⟩, ⟨?_, ?_⟩, ⟨?_, ?_⟩, ⟨?_, ?_⟩, ⟨?_, ?_⟩⟩ <;> decide +kernel

end Sneturfahi.Props
