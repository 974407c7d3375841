import Verif.Spec.Repeat
import Verif.Proof.DupTabs
import Verif.Props.Brivla

/-!
# C95: words that can be repeated
-/

namespace Sneturfahi.Props

open Spec

theorem open_clean {l : List Token} (h : Open l) : Dup.Clean l := by
  intro t ht hc
  refine h t ht ?_
  revert hc
  generalize t.selmaho = x
  cases x <;> decide

/-- Words of the same selma'o. -/
theorem repeat_same {A B : List Token} {x b : Token} (hx : x.selmaho = b.selmaho) (hb : b.selmaho ∈ repeatable) (hA : Open A) (hB : Open B) :
    IsText (A ++ x :: b :: B) ↔ IsText (A ++ b :: B) := by
  rw [isText_iff, isText_iff]
  exact Dup.text_iff (w := b.selmaho) hb hx rfl (open_clean hA) (open_clean hB)

theorem class_idem (s : Selmaho) : wordClass (wordClass s) = wordClass s := by
  unfold wordClass
  split <;> simp_all [brivla]

theorem class_repeatable {s : Selmaho} (h : s ∈ repeatable) : wordClass s = s := by
  revert h
  cases s <;> decide

/-- **C95.** Before a brivla another brivla can be put, or left out, without making a text of what is none or nothing of what is one;
and so with names, digits, letters, `go'i`, `jai`, `coi`, `zo'u` and `ni'o`. -/
theorem C95_word (A B : List Token) (x b : Token) (h : Kindred x b) (hA : Open A) (hB : Open B) :
    IsText (A ++ x :: b :: B) ↔ IsText (A ++ b :: B) := by
  obtain ⟨h1, h2⟩ := h
  have hc : ∀ t : Token, wordClass (⟨t.experimental, wordClass t.selmaho, t.span⟩ : Token).selmaho = wordClass t.selmaho := fun t => class_idem _
  have e1 : IsText (A ++ x :: b :: B) ↔ IsText (A ++ ⟨x.experimental, wordClass x.selmaho, x.span⟩ :: ⟨b.experimental, wordClass b.selmaho, b.span⟩ :: B) :=
    C78_text _ _ (by simp [classes, class_idem])
  have e2 : IsText (A ++ b :: B) ↔ IsText (A ++ ⟨b.experimental, wordClass b.selmaho, b.span⟩ :: B) :=
    C78_text _ _ (by simp [classes, class_idem])
  rw [e1, e2]
  exact repeat_same h1 (h1 ▸ h2) hA hB

theorem Kindred.refl_right {x b : Token} (h : Kindred x b) : Kindred b b := ⟨rfl, h.1 ▸ h.2⟩

theorem open_class {x : Token} (h : wordClass x.selmaho ∈ repeatable) : x.selmaho ∉ [Selmaho.Zo, .Zoi, .Lohu, .Zei, .Bu] := by
  revert h
  generalize x.selmaho = s
  cases s <;> decide

theorem open_append {A B : List Token} : Open (A ++ B) ↔ Open A ∧ Open B := by
  simp only [Open, List.mem_append]
  grind

theorem open_of_alike {xs : List Token} {b : Token} (h : ∀ x ∈ xs, Kindred x b) : Open xs := fun x hx => open_class (h x hx).2

/-- **C95.** Any number of such words before one is as good as one. -/
theorem C95_before (A xs B : List Token) (b : Token) (h : ∀ x ∈ xs, Kindred x b) (hA : Open A) (hB : Open B) :
    IsText (A ++ xs ++ b :: B) ↔ IsText (A ++ b :: B) := by
  induction xs generalizing A with
  | nil => simp
  | cons x xs ih =>
    have hx := h x (by simp)
    have hxs : ∀ y ∈ xs, Kindred y b := fun y hy => h y (by simp [hy])
    have h1 := ih (A ++ [x]) hxs (open_append.mpr ⟨hA, open_of_alike (b := b) (by simpa using hx)⟩)
    have e1 : A ++ (x :: xs) ++ b :: B = A ++ [x] ++ xs ++ b :: B := by simp
    have e2 : A ++ [x] ++ b :: B = A ++ x :: b :: B := by simp
    rw [e1, h1, e2]
    exact C95_word A B x b hx hA hB

/-- **C95.** And any number after one. -/
theorem C95_after (A xs B : List Token) (b : Token) (h : ∀ x ∈ xs, Kindred x b) (hA : Open A) (hB : Open B) :
    IsText (A ++ b :: xs ++ B) ↔ IsText (A ++ b :: B) := by
  rcases List.eq_nil_or_concat xs with rfl | ⟨ys, y, rfl⟩
  · simp
  · rw [List.concat_eq_append] at h ⊢
    have hy := h y (by simp)
    have hb : ∀ x ∈ b :: ys, Kindred x y := by
      intro x hx
      rcases List.mem_cons.mp hx with rfl | hx
      · exact ⟨hy.1.symm, hy.1 ▸ hy.2⟩
      · have := h x (by simp [hx])
        exact ⟨this.1.trans hy.1.symm, this.2⟩
    have e : A ++ b :: (ys ++ [y]) ++ B = A ++ (b :: ys) ++ y :: B := by simp
    rw [e, C95_before A (b :: ys) B y hb hA hB]
    exact C78_text _ _ (by simp [classes, hy.1])

/-- **C95.** So whether tokens are a text does not depend on how often such words are repeated. -/
theorem C95_collapse (l : List Token) (h : Open l) : IsText l ↔ IsText (collapse l) := by
  suffices ∀ A, Open A → (IsText (A ++ l) ↔ IsText (A ++ collapse l)) by simpa using this [] nofun
  induction l with
  | nil => intro A _; exact Iff.rfl
  | cons t l ih =>
    intro A hA
    have hl : Open l := fun u hu => h u (by simp [hu])
    cases l with
    | nil => exact Iff.rfl
    | cons u l =>
      rw [collapse]
      split
      · rename_i ha
        rw [C95_word A l t u ha hA (fun v hv => hl v (by simp [hv]))]
        exact ih hl A hA
      · have e1 : A ++ t :: u :: l = A ++ [t] ++ u :: l := by simp
        have e2 : A ++ t :: collapse (u :: l) = A ++ [t] ++ collapse (u :: l) := by simp
        rw [e1, e2]
        exact ih hl _ (open_append.mpr ⟨hA, fun v hv => h v (by simp at hv; simp [hv])⟩)

theorem C95_same (l m : List Token) (hl : Open l) (hm : Open m) (h : classes (collapse l) = classes (collapse m)) : IsText l ↔ IsText m := by
  rw [C95_collapse l hl, C95_collapse m hm]
  exact C78_text _ _ h

/-- `lo mutce jbobau gerku cu spageti sutra bajra`, `lo gerku cu bajra`, `la .djan. .smit. cu klama`. -/
example : IsText (toks [.Le, .Gismu, .Lujvo, .Gismu, .Cu, .Fuhivla, .Gismu, .Gismu]) ∧ IsText (toks [.Le, .Gismu, .Cu, .Gismu]) ∧
    IsText (toks [.La, .Cmevla, .Cmevla, .Cu, .Gismu]) := by
  refine ⟨?_, ?_, ?_⟩ <;> decide +kernel

/-- The two sides of the theorem may also both be false: `lo cu barda`. -/
example : ¬ IsText (toks [.Le, .Cu, .Gismu]) ∧ ¬ IsText (toks [.Le, .Cu, .Gismu, .Gismu]) := by
  refine ⟨?_, ?_⟩ <;> decide +kernel

example : Open (toks [.Le, .Gismu, .Lujvo, .Gismu, .Cu, .Fuhivla]) ∧
    classes (collapse (toks [.Le, .Gismu, .Lujvo, .Gismu, .Cu, .Fuhivla])) = [.Le, .Gismu, .Cu, .Gismu] := by
  refine ⟨?_, ?_⟩
  · unfold Open; decide +kernel
  · decide +kernel

/-- Other words cannot be repeated: `lo lo mlatu`, `lo gerku ku ku`, `lo mlatu cu cu sutra`, `mi klama vau vau`, `pa moi moi`, `lau lau by`,
`barda je je klama` are no texts, but `lo mlatu` and so on are. -/
theorem C95_others :
    (IsText (toks [.Le, .Gismu]) ∧ ¬ IsText (toks [.Le, .Le, .Gismu])) ∧
    (IsText (toks [.Le, .Gismu, .Ku]) ∧ ¬ IsText (toks [.Le, .Gismu, .Ku, .Ku])) ∧
    (IsText (toks [.Le, .Gismu, .Cu, .Gismu]) ∧ ¬ IsText (toks [.Le, .Gismu, .Cu, .Cu, .Gismu])) ∧
    (IsText (toks [.Koha, .Gismu, .Vau]) ∧ ¬ IsText (toks [.Koha, .Gismu, .Vau, .Vau])) ∧
    (IsText (toks [.Pa, .Moi]) ∧ ¬ IsText (toks [.Pa, .Moi, .Moi])) ∧
    (IsText (toks [.Lau, .By]) ∧ ¬ IsText (toks [.Lau, .Lau, .By])) ∧
    (IsText (toks [.Gismu, .Ja, .Gismu]) ∧ ¬ IsText (toks [.Gismu, .Ja, .Ja, .Gismu])) := by
  refine ⟨⟨?_, ?_⟩, ⟨?_, ?_⟩, ⟨?_, ?_⟩, ⟨?_, ?_⟩, ⟨?_, ?_⟩, ⟨?_, ?_⟩, ⟨?_, ?_⟩⟩ <;> decide +kernel

/-- Nor can a word that is quoted, or made a letter: `zo barda barda vau` is a text and `zo barda vau` is not; `lo klama klama bu` is
one and `lo klama bu` is not. -/
theorem C95_quoted :
    (IsText (toks [.Zo, .Gismu, .Gismu, .Vau]) ∧ ¬ IsText (toks [.Zo, .Gismu, .Vau])) ∧
    (IsText (toks [.Le, .Gismu, .Gismu, .Bu]) ∧ ¬ IsText (toks [.Le, .Gismu, .Bu])) := by
  refine ⟨⟨?_, ?_⟩, ⟨?_, ?_⟩⟩ <;> decide +kernel

end Sneturfahi.Props
