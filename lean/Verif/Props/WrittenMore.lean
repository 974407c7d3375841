import Verif.Props.Written
import Verif.Props.Swap

/-!
# C99: exchanging and repeating what is written
-/

namespace Sneturfahi.Props

open Spec

/-- **C99.** Two strings that are read as closed pieces of the same kind can be exchanged in any text, as it is written: in `a v b` either both are
grammatical or none. What separators are used does not matter. -/
theorem C99_exchange (a v v' b : List Char) (s1 s2 s1' s2' : Char) (hs1 : IsSeparator s1) (hs2 : IsSeparator s2) (hs1' : IsSeparator s1')
    (hs2' : IsSeparator s2') (h : byteLen (a ++ s1 :: (v ++ s2 :: b)) < 2 ^ 32) (h' : byteLen (a ++ s1' :: (v' ++ s2' :: b)) < 2 ^ 32)
    (A X Y : List Token) (r : CRule) (f g : List Val → Val) (ha : ReadAs a A) (hv : ReadAs v X) (hv' : ReadAs v' Y) (hA : GoesOn A) (hX : GoesOn X)
    (hY : GoesOn Y) (pX : ClosedPiece r X f) (pY : ClosedPiece r Y g) (oA : Open A) (nA : NotEmphasised A) (hb : ∀ B, ReadAs b B → Open B) :
    Grammatical (a ++ s1 :: (v ++ s2 :: b)) ↔ Grammatical (a ++ s1' :: (v' ++ s2' :: b)) :=
  ⟨grammatical_swap hs1 hs2 hs1' hs2' h h' ha hv hv' hA hX hY fun B hB => (C98_exchange _ _ (.mk pX pY oA (hb B hB) nA)).mp,
    grammatical_swap hs1' hs2' hs1 hs2 h' h ha hv' hv hA hY hX fun B hB => (C98_exchange _ _ (.mk pY pX oA (hb B hB) nA)).mp⟩

theorem goes_append {A B : List Token} : GoesOn (A ++ B) ↔ GoesOn A ∧ GoesOn B := by
  simp only [GoesOn, List.mem_append]
  grind

theorem goes_kinds {A B : List Token} (h : kinds A = kinds B) (hA : GoesOn A) : GoesOn B := by
  intro t ht
  have : t.selmaho ∈ kinds A := h ▸ List.mem_map_of_mem ht
  obtain ⟨u, hu, he⟩ := List.mem_map.mp this
  rw [← he]
  exact hA u hu

theorem open_kinds {A B : List Token} (h : kinds A = kinds B) (hA : Open A) : Open B := by
  intro t ht
  have : t.selmaho ∈ kinds A := h ▸ List.mem_map_of_mem ht
  obtain ⟨u, hu, he⟩ := List.mem_map.mp this
  rw [← he]
  exact hA u hu

/-- `lu`, then `t`, then `li'u`. -/
def inQuotes (t : List Char) : List Char := c!"lu " ++ (t ++ c!" li'u")

theorem byteLen_inQuotes (t : List Char) : byteLen (inQuotes t) = byteLen t + 8 := by
  have e : byteLen c!"lu " = 3 ∧ byteLen c!" li'u" = 5 := by decide
  simp only [inQuotes, byteLen_append, e.1, e.2]
  omega

/-- How a quote is read. -/
theorem inQuotes_read {t : List Char} {T : List Token} (hl : byteLen (inQuotes t) < 2 ^ 32) (ht : ReadAs t T) (hT : GoesOn T) :
    ∃ (lu lihu : Token) (T' : List Token), ReadAs (inQuotes t) (lu :: T' ++ [lihu]) ∧ lu.selmaho = .Lu ∧ lihu.selmaho = .Lihu ∧ kinds T' = kinds T := by
  have r1 : ReadAs c!"lu" [⟨false, .Lu, ⟨0, 2⟩⟩] := readAs_of (by decide) (by decide +kernel)
  have r2 : ReadAs c!"li'u" [⟨false, .Lihu, ⟨0, 4⟩⟩] := readAs_of (by decide) (by decide +kernel)
  have e : inQuotes t = c!"lu" ++ ' ' :: (t ++ ' ' :: c!"li'u") := by simp [inQuotes]
  rw [e] at hl ⊢
  obtain ⟨B, h1, k1⟩ := (C89_read t c!"li'u" ' ' (by simp [IsSeparator]) (size_parts hl).2 T ht hT).1 _ r2
  obtain ⟨C, h2, k2⟩ := (C89_read c!"lu" _ ' ' (by simp [IsSeparator]) hl _ r1
    (by intro t ht; rw [List.mem_singleton.mp ht]; decide)).1 _ h1
  have k3 : kinds C = kinds T ++ [Selmaho.Lihu] := by
    rw [k2]
    simp only [kinds, List.map_append] at k1 ⊢
    rw [k1]
    rfl
  obtain ⟨T', q, rfl, h3, h4⟩ := List.map_eq_append_iff.mp k3
  obtain ⟨lihu, l, rfl, h5, h6⟩ := List.map_eq_cons_iff.mp h4
  cases List.map_eq_nil_iff.mp h6
  exact ⟨_, lihu, T', h2, rfl, h5, h3⟩

/-- **C99.** Any grammatical text `t` (without quotes, `fa'o` and `fa'o'o`) can be quoted where `mi` can stand: `a lu t li'u b` is grammatical exactly
if `a mi b` is. -/
theorem C99_quote (a t b : List Char) (h : byteLen (a ++ ' ' :: (c!"mi" ++ ' ' :: b)) < 2 ^ 32)
    (h' : byteLen (a ++ ' ' :: (inQuotes t ++ ' ' :: b)) < 2 ^ 32) (A T : List Token) (ha : ReadAs a A) (ht : ReadAs t T) (hg : Grammatical t)
    (hA : GoesOn A) (hT : GoesOn T) (oA : Open A) (nA : NotEmphasised A) (oT : Open T) (hlu : ∀ u ∈ T, u.selmaho ≠ .Lu) (hb : ∀ B, ReadAs b B → Open B) :
    Grammatical (a ++ ' ' :: (inQuotes t ++ ' ' :: b)) ↔ Grammatical (a ++ ' ' :: (c!"mi" ++ ' ' :: b)) := by
  have hmi : ReadAs c!"mi" [⟨false, .Koha, ⟨0, 2⟩⟩] := readAs_of (by decide) (by decide +kernel)
  obtain ⟨lu, lihu, T', hq, e1, e2, k⟩ := inQuotes_read (size_parts (size_parts h').2).1 ht hT
  have hT' : IsText T' := (isText_kinds k).mpr ((C89_grammatical t T ht).mp hg)
  have hlu' : ∀ u ∈ T', u.selmaho ≠ .Lu := by
    intro u hu he
    have : u.selmaho ∈ kinds T := k ▸ List.mem_map_of_mem hu
    obtain ⟨w, hw, hwe⟩ := List.mem_map.mp this
    exact hlu w hw (hwe.trans he)
  obtain ⟨f, hf⟩ := quote_piece e1 e2 hT' (open_kinds k.symm oT) hlu'
  refine C99_exchange a (inQuotes t) c!"mi" b ' ' ' ' ' ' ' ' (by simp [IsSeparator]) (by simp [IsSeparator]) (by simp [IsSeparator])
    (by simp [IsSeparator]) h' h A _ _ .SumtiComponent1 f _ ha hq hmi hA ?_ ?_ hf (.pronoun _ rfl) oA nA hb
  · refine goes_append.mpr ⟨?_, ?_⟩
    · intro u hu
      rcases List.mem_cons.mp hu with rfl | hu
      · rw [e1]; decide
      · exact goes_kinds k.symm hT u hu
    · intro u hu
      rw [List.mem_singleton.mp hu, e2]; decide
  · intro u hu
    rw [List.mem_singleton.mp hu]; decide

/-- **C99.** Before a word another one of its kind can be written (as C95 has it for tokens): a brivla before a brivla, a name before a name and so on. -/
theorem C99_repeat (a w w' b : List Char) (s1 s2 s3 : Char) (hs1 : IsSeparator s1) (hs2 : IsSeparator s2) (hs3 : IsSeparator s3)
    (h : byteLen (a ++ s1 :: (w' ++ s3 :: (w ++ s2 :: b))) < 2 ^ 32) (A : List Token) (x y : Token) (ha : ReadAs a A) (hw : ReadAs w [x])
    (hw' : ReadAs w' [y]) (hk : Kindred y x) (hA : GoesOn A) (oA : Open A) (hb : ∀ B, ReadAs b B → Open B) :
    Grammatical (a ++ s1 :: (w' ++ s3 :: (w ++ s2 :: b))) ↔ Grammatical (a ++ s1 :: (w ++ s2 :: b)) := by
  have goes : ∀ z : Token, wordClass z.selmaho ∈ repeatable → GoesOn [z] := by
    intro z hz t ht
    rw [List.mem_singleton.mp ht]
    generalize z.selmaho = s at hz
    revert hz; cases s <;> decide
  have gx := goes x (hk.1 ▸ hk.2)
  have gy := goes y hk.2
  have h0 : byteLen (w' ++ s3 :: w) < 2 ^ 32 ∧ byteLen (a ++ s1 :: ((w' ++ s3 :: w) ++ s2 :: b)) < 2 ^ 32 ∧ byteLen (a ++ s1 :: (w ++ s2 :: b)) < 2 ^ 32 := by
    simp only [byteLen_append, byteLen_cons] at h ⊢
    omega
  have e : a ++ s1 :: (w' ++ s3 :: (w ++ s2 :: b)) = a ++ s1 :: ((w' ++ s3 :: w) ++ s2 :: b) := by simp
  obtain ⟨X, hX, kX⟩ := (C89_read w' w s3 hs3 h0.1 [y] hw' gy).1 _ hw
  have kX' : kinds ([y] ++ X) = kinds [y, x] := by
    simp only [kinds, List.map_append] at kX ⊢
    rw [kX]; rfl
  have gX : GoesOn ([y] ++ X) := goes_kinds kX'.symm (goes_append.mpr ⟨gy, gx⟩ : GoesOn ([y] ++ [x]))
  have both : ∀ B, ReadAs b B → (IsText (A ++ ([y] ++ X) ++ B) ↔ IsText (A ++ [x] ++ B)) := by
    intro B hB
    have e1 : kinds (A ++ ([y] ++ X) ++ B) = kinds (A ++ y :: x :: B) := by
      simp only [kinds, List.map_append, List.map_cons, List.map_nil] at kX ⊢
      rw [kX]; simp
    have e2 : A ++ [x] ++ B = A ++ x :: B := by simp
    rw [isText_kinds e1, e2]
    exact C95_word A B y x hk oA (hb B hB)
  rw [e]
  exact ⟨grammatical_swap hs1 hs2 hs1 hs2 h0.2.1 h0.2.2 ha hX hw hA gX gx fun B hB => (both B hB).mp,
    grammatical_swap hs1 hs2 hs1 hs2 h0.2.2 h0.2.1 ha hw hX hA gx gX fun B hB => (both B hB).mpr⟩

/-! ### Instances -/

theorem do_viska : ReadAs c!"do viska" [⟨false, .Koha, ⟨0, 2⟩⟩, ⟨false, .Gismu, ⟨3, 8⟩⟩] := readAs_of (by decide) (by decide +kernel)

theorem emphasised_no {l : List Token} (h : ∀ t ∈ l, t.selmaho ≠ .Bahe) : NotEmphasised l := fun t ht => h t (List.mem_of_getLast? ht)

theorem ui_read : ReadAs c!"ui" [⟨false, .Ui, ⟨0, 2⟩⟩] := readAs_of (by decide) (by decide +kernel)

theorem readAs_unique {a : List Char} {A B : List Token} (h1 : ReadAs a A) (h2 : ReadAs a B) : A = B := by
  have h1 := h1 .debug 0
  rw [h2] at h1
  injection h1 with h1
  exact ((List.map_inj_right (fun _ _ he => by injection he)).mp h1).symm

/-- `do viska lu mi klama li'u ui` is grammatical because `do viska mi ui` is. -/
theorem C99_quote_case : Grammatical c!"do viska lu mi klama li'u ui" := by
  have hm : Grammatical c!"do viska mi ui" := grammatical_yes (A := [⟨false, .Koha, ⟨0, 2⟩⟩, ⟨false, .Gismu, ⟨3, 8⟩⟩, ⟨false, .Koha, ⟨9, 11⟩⟩,
    ⟨false, .Ui, ⟨12, 14⟩⟩]) (by decide) (by decide +kernel) (by decide +kernel)
  have hg : Grammatical c!"mi klama" := (C89_grammatical _ _ mi_klama).mpr (by decide +kernel)
  exact (C99_quote c!"do viska" c!"mi klama" c!"ui" (by decide) (by decide) _ _ do_viska mi_klama hg
    (by intro t ht; revert t; decide) (by intro t ht; revert t; decide) (by decide) (emphasised_no (by decide)) (by decide) (by decide)
    (fun B hB => readAs_unique hB ui_read ▸ by decide)).mpr hm

/-- What is quoted has to be grammatical: `cu` is not, and so `do viska lu cu li'u ui` is not, although `do viska mi ui` is. -/
theorem C99_conditions : ¬ Grammatical c!"cu" ∧ ¬ Grammatical c!"do viska lu cu li'u ui" := by
  refine ⟨grammatical_no (A := [⟨false, .Cu, ⟨0, 2⟩⟩]) (by decide) (by decide +kernel) (by decide +kernel), ?_⟩
  exact grammatical_no (A := [⟨false, .Koha, ⟨0, 2⟩⟩, ⟨false, .Gismu, ⟨3, 8⟩⟩, ⟨false, .Lu, ⟨9, 11⟩⟩, ⟨false, .Cu, ⟨12, 14⟩⟩, ⟨false, .Lihu, ⟨15, 19⟩⟩,
    ⟨false, .Ui, ⟨20, 22⟩⟩]) (by decide) (by decide +kernel) (by decide +kernel)

/-- `do sutra klama ui` is grammatical exactly if `do klama ui` is. -/
example : Grammatical c!"do sutra klama ui" ↔ Grammatical c!"do klama ui" := by
  refine C99_repeat c!"do" c!"klama" c!"sutra" c!"ui" ' ' ' ' ' ' (by simp [IsSeparator]) (by simp [IsSeparator]) (by simp [IsSeparator]) (by decide)
    [⟨false, .Koha, ⟨0, 2⟩⟩] ⟨false, .Gismu, ⟨0, 5⟩⟩ ⟨false, .Gismu, ⟨0, 5⟩⟩ (readAs_of (by decide) (by decide +kernel))
    (readAs_of (by decide) (by decide +kernel)) (readAs_of (by decide) (by decide +kernel)) (by decide) (by intro t ht; revert t; decide) (by decide)
    (fun B hB => readAs_unique hB ui_read ▸ by decide)

end Sneturfahi.Props
