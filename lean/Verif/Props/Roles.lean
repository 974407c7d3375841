import Verif.Spec.Roles
import Verif.Proof.CstRoles
import Verif.Props.Brivla
import Verif.Props.Quotes
import Verif.Props.Letters
import Verif.Props.WrittenMore

/-!
# C102: words that play the same part
-/

namespace Sneturfahi.Props

open Spec

theorem part_text {a b : List Token} (h : parts a = parts b) : Gives (.call .Text) a [] → Gives (.call .Text) b [] := by
  rintro ⟨vs, hv⟩
  obtain ⟨o', h1, h2⟩ := peg_rel (partCert (a.length + 1)) (peg_cstN.mpr hv) rfl b ⟨h, by omega⟩
  cases h2 with
  | @ok _ r' _ vs' hr _ _ =>
    cases r' with
    | nil => exact ⟨_, peg_cstN.mp h1⟩
    | cons _ _ => cases hr.1

theorem part_isText {a b : List Token} (h : parts a = parts b) : IsText a ↔ IsText b := by
  rw [isText_iff, isText_iff]
  exact ⟨part_text h, part_text h.symm⟩

theorem part_tree (p p' : Profile) (s s' : Toks) (root root' : Val) (h : parts s.list = parts s'.list)
    (h1 : parseCst p s = .val (.ok root)) (h2 : parseCst p' s' = .val (.ok root')) : dim root = dim root' := by
  obtain ⟨o', h3, h4⟩ := peg_rel (partCert (s.list.length + 1)) (peg_cstN.mpr ((C66_meaning p s root).mp h1)) rfl s'.list ⟨h, by omega⟩
  cases h3.unique _ (peg_cstN.mpr ((C66_meaning p' s' root').mp h2))
  cases h4 with
  | ok _ _ hv => simpa [dimL] using hv

/-- Every brivla a gismu. -/
def plain (toks : List Token) : List Token := toks.map (fun t => { t with selmaho := wordClass t.selmaho })

theorem class_class (s : Selmaho) : wordClass (wordClass s) = wordClass s := by cases s <;> rfl
theorem part_class (s : Selmaho) : part (wordClass s) = role s := by cases s <;> decide +kernel
theorem role_class (s : Selmaho) : role (wordClass s) = role s := by cases s <;> decide +kernel
theorem role_part (s : Selmaho) : role (part s) = role s := by cases s <;> decide +kernel

theorem classes_plain (l : List Token) : classes (plain l) = classes l := by
  simp [classes, plain, class_class]

theorem parts_plain (l : List Token) : parts (plain l) = roles l := by
  simp [parts, plain, roles, part_class]

theorem nameRole_class (n : NodeName) : nameRole (nameClass n) = nameRole n := by
  unfold nameClass
  split <;> simp [nameRole, role_class]

theorem nameRole_part (n : NodeName) : nameRole (namePart n) = nameRole n := by
  unfold namePart
  split <;> simp [nameRole, role_part]

mutual
theorem faceless_blind (v : Val) : faceless (blind v) = faceless v := by
  cases v with
  | leaf k t => simp [faceless, blind, role_class]
  | node n fs => simp [faceless, blind, nameRole_class, facelessL_blind fs]
  | tuple fs => simp [faceless, blind, facelessL_blind fs]
  | many fs => simp [faceless, blind, facelessL_blind fs]
  | sep f r => simp [faceless, blind, faceless_blind f, facelessL_blind r]
theorem facelessL_blind (vs : List Val) : facelessL (blindL vs) = facelessL vs := by
  cases vs with
  | nil => rfl
  | cons v vs => simp [facelessL, blindL, faceless_blind v, facelessL_blind vs]
end

mutual
theorem faceless_dim (v : Val) : faceless (dim v) = faceless v := by
  cases v with
  | leaf k t => simp [faceless, dim, role_part]
  | node n fs => simp [faceless, dim, nameRole_part, facelessL_dim fs]
  | tuple fs => simp [faceless, dim, facelessL_dim fs]
  | many fs => simp [faceless, dim, facelessL_dim fs]
  | sep f r => simp [faceless, dim, faceless_dim f, facelessL_dim r]
theorem facelessL_dim (vs : List Val) : facelessL (dimL vs) = facelessL vs := by
  cases vs with
  | nil => rfl
  | cons v vs => simp [facelessL, dimL, faceless_dim v, facelessL_dim vs]
end

/-- **C102.** Whether tokens are a text depends only on the parts the words play. -/
theorem C102_text (a b : List Token) (h : roles a = roles b) : IsText a ↔ IsText b := by
  rw [← C78_text (plain a) a (classes_plain a), ← C78_text (plain b) b (classes_plain b)]
  exact part_isText (by rw [parts_plain, parts_plain, h])

/-- And so does the tree, but for the names of the nodes of brivla and indicators (and the tokens themselves). -/
theorem C102_tree (p p' : Profile) (s s' : Toks) (root root' : Val) (h : roles s.list = roles s'.list)
    (h1 : parseCst p s = .val (.ok root)) (h2 : parseCst p' s' = .val (.ok root')) : faceless root = faceless root' := by
  have plainly : ∀ (p : Profile) (s : Toks) (root : Val), parseCst p s = .val (.ok root) →
      ∃ r, parseCst .debug ⟨0, plain s.list⟩ = .val (.ok r) ∧ faceless r = faceless root := by
    intro p s root h
    have ht : IsText s.list := isText_iff.mpr ⟨_, (C66_meaning p s root).mp h⟩
    obtain ⟨r, hr⟩ := (C78_text _ _ (classes_plain s.list)).mpr ht .debug 0
    refine ⟨r, hr, ?_⟩
    rw [← faceless_blind r, C78_tree .debug p ⟨0, plain s.list⟩ s r root (classes_plain _) hr h, faceless_blind]
  obtain ⟨r, h3, h4⟩ := plainly p s root h1
  obtain ⟨r', h5, h6⟩ := plainly p' s' root' h2
  rw [← h4, ← h6, ← faceless_dim r, ← faceless_dim r']
  rw [part_tree .debug .debug _ _ r r' (by rw [parts_plain, parts_plain, h]) h3 h5]

/-- So any word may be put in the place of one that plays the same part, wherever it stands. -/
theorem C102_replace (a b : List Token) (x y : Token) (h : role x.selmaho = role y.selmaho) : IsText (a ++ x :: b) ↔ IsText (a ++ y :: b) :=
  C102_text _ _ (by simp [roles, h])

/-- `mi .ui klama zo si`, `mi nai zbasu zo su`. -/
example : IsText (toks [.Koha, .Ui, .Gismu, .Zo, .Si]) ∧ IsText (toks [.Koha, .Nai, .Lujvo, .Zo, .Su]) :=
  have h : IsText (toks [.Koha, .Ui, .Gismu, .Zo, .Si]) := by decide +kernel
  ⟨h, (C102_text _ _ (by decide +kernel)).mp h⟩

theorem idle_letter (s : Selmaho) : Idle s → ¬ NoLetter s := by cases s <;> decide +kernel

/-- **C102.** The same for what is written: a string may be put in the place of another one if their words play the same parts, word for word. -/
theorem C102_written (a v v' b : List Char) (s1 s2 s1' s2' : Char) (hs1 : IsSeparator s1) (hs2 : IsSeparator s2) (hs1' : IsSeparator s1')
    (hs2' : IsSeparator s2') (h : byteLen (a ++ s1 :: (v ++ s2 :: b)) < 2 ^ 32) (h' : byteLen (a ++ s1' :: (v' ++ s2' :: b)) < 2 ^ 32)
    (A X Y : List Token) (ha : ReadAs a A) (hv : ReadAs v X) (hv' : ReadAs v' Y) (hA : GoesOn A) (hX : GoesOn X) (hY : GoesOn Y)
    (hr : roles X = roles Y) : Grammatical (a ++ s1 :: (v ++ s2 :: b)) ↔ Grammatical (a ++ s1' :: (v' ++ s2' :: b)) := by
  have key : ∀ B, IsText (A ++ X ++ B) ↔ IsText (A ++ Y ++ B) := fun B => C102_text _ _ (by
    simp only [roles, List.map_append] at hr ⊢
    rw [hr])
  exact ⟨grammatical_swap hs1 hs2 hs1' hs2' h h' ha hv hv' hA hX hY fun B _ => (key B).mp,
    grammatical_swap hs1' hs2' hs1 hs2 h' h ha hv' hv hA hY hX fun B _ => (key B).mpr⟩

/-- `do viska nai mi` is grammatical exactly if `do viska ui mi` is. -/
example : Grammatical c!"do viska nai mi" ↔ Grammatical c!"do viska ui mi" :=
  C102_written c!"do viska" c!"nai" c!"ui" c!"mi" ' ' ' ' ' ' ' ' (by simp [IsSeparator]) (by simp [IsSeparator]) (by simp [IsSeparator])
    (by simp [IsSeparator]) (by decide) (by decide) _ [⟨false, .Nai, ⟨0, 3⟩⟩] [⟨false, .Ui, ⟨0, 2⟩⟩] do_viska (readAs_of (by decide) (by decide +kernel))
    (readAs_of (by decide) (by decide +kernel)) (by intro t ht; revert t; decide) (by intro t ht; revert t; decide)
    (by intro t ht; revert t; decide) (by decide +kernel)

theorem role_feeling {s : Selmaho} (h : s ∈ feelings) : role s = .Ui := by revert h; cases s <;> decide +kernel
theorem role_eraser {s : Selmaho} (h : s ∈ erasers) : role s = .Si := by revert h; cases s <;> decide +kernel
theorem role_brivla {s : Selmaho} (h : s ∈ brivla) : role s = .Gismu := by revert h; cases s <;> decide +kernel
theorem role_idle {s : Selmaho} (h : Idle s) : role s = .AnyText := by revert h; cases s <;> decide +kernel

theorem pair_text {x y : Token} {r r' : Selmaho} (hx : role x.selmaho = r) (hy : role y.selmaho = r') (h : roles (toks [r, r']) = [r, r']) :
    IsText [x, y] ↔ IsText (toks [r, r']) :=
  C102_text _ _ (by rw [h]; simp [roles, hx, hy])

/-- The four parts are really different. Each of the others makes a letter with `bu`, an erasure word does not; a brivla makes a
description with `lo`, the others do not; an indicator may follow `mi`, a word without use may not. -/
theorem C102_apart (idle eraser feeling brivla : Token) (h1 : Idle idle.selmaho) (h2 : eraser.selmaho ∈ erasers)
    (h3 : feeling.selmaho ∈ feelings) (h4 : brivla.selmaho ∈ Spec.brivla) (b l m : Token) (hb : b.selmaho = .Bu) (hl : l.selmaho = .Le)
    (hm : m.selmaho = .Koha) :
    (IsText [idle, b] ∧ ¬ IsText [eraser, b] ∧ IsText [feeling, b] ∧ IsText [brivla, b]) ∧
    (¬ IsText [l, idle] ∧ ¬ IsText [l, eraser] ∧ ¬ IsText [l, feeling] ∧ IsText [l, brivla]) ∧
    (¬ IsText [m, idle] ∧ IsText [m, feeling]) := by
  have r1 := role_idle h1
  have r2 := role_eraser h2
  have r3 := role_feeling h3
  have r4 := role_brivla h4
  have rb : role b.selmaho = .Bu := by rw [hb]; decide +kernel
  have rl : role l.selmaho = .Le := by rw [hl]; decide +kernel
  have rm : role m.selmaho = .Koha := by rw [hm]; decide +kernel
  refine ⟨⟨?_, ?_, ?_, ?_⟩, ⟨?_, ?_, ?_, ?_⟩, ?_, ?_⟩
  · exact (pair_text r1 rb (by decide +kernel)).mpr (by decide +kernel)
  · exact mt (pair_text r2 rb (by decide +kernel)).mp (by decide +kernel)
  · exact (pair_text r3 rb (by decide +kernel)).mpr (by decide +kernel)
  · exact (pair_text r4 rb (by decide +kernel)).mpr (by decide +kernel)
  · exact mt (pair_text rl r1 (by decide +kernel)).mp (by decide +kernel)
  · exact mt (pair_text rl r2 (by decide +kernel)).mp (by decide +kernel)
  · exact mt (pair_text rl r3 (by decide +kernel)).mp (by decide +kernel)
  · exact (pair_text rl r4 (by decide +kernel)).mpr (by decide +kernel)
  · exact mt (pair_text rm r1 (by decide +kernel)).mp (by decide +kernel)
  · exact (pair_text rm r3 (by decide +kernel)).mpr (by decide +kernel)

end Sneturfahi.Props
