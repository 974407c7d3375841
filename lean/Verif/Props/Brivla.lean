import Verif.Spec.Brivla
import Verif.Proof.CstBrivla
import Verif.Props.Join
import Verif.Props.CstShape

/-!
# C78: brivla are interchangeable
-/

namespace Sneturfahi.Props

open Spec

theorem brivla_text {a b : List Token} (h : classes a = classes b) : Gives (.call .Text) a [] → Gives (.call .Text) b [] := by
  rintro ⟨vs, hv⟩
  obtain ⟨o', h1, h2⟩ := peg_rel brivlaCert hv rfl b h
  cases h2 with
  | @ok _ r' _ vs' hr _ _ =>
    cases r' with
    | nil => exact ⟨_, h1⟩
    | cons _ _ => cases hr

/-- **C78.** Whether tokens are a text depends only on the kinds of words, all brivla being of one kind. -/
theorem C78_text (a b : List Token) (h : classes a = classes b) : IsText a ↔ IsText b := by
  rw [isText_iff, isText_iff]
  exact ⟨brivla_text h, brivla_text h.symm⟩

/-- And so does the tree, but for the names of the nodes of brivla (and the tokens themselves). -/
theorem C78_tree (p p' : Profile) (s s' : Toks) (root root' : Val) (h : classes s.list = classes s'.list)
    (h1 : parseCst p s = .val (.ok root)) (h2 : parseCst p' s' = .val (.ok root')) : blind root = blind root' := by
  obtain ⟨o', h3, h4⟩ := peg_rel brivlaCert ((C66_meaning p s root).mp h1) rfl s'.list h
  cases h3.unique _ ((C66_meaning p' s' root').mp h2)
  cases h4 with
  | ok _ _ hv => simpa [blindL] using hv

/-- So one brivla may be put in the place of another. -/
theorem C78_replace (a b : List Token) (x y : Token) (hx : x.selmaho ∈ brivla) (hy : y.selmaho ∈ brivla) :
    IsText (a ++ x :: b) ↔ IsText (a ++ y :: b) := by
  refine C78_text _ _ ?_
  simp [classes, wordClass, hx, hy]

/-- `mi klama lo zarci`, `mi jdacevni lo spageti`. -/
example : IsText (toks [.Koha, .Gismu, .Le, .Gismu]) ∧ IsText (toks [.Koha, .Lujvo, .Le, .Fuhivla]) := by
  refine ⟨?_, ?_⟩ <;> decide +kernel

/-- The trees do differ: the kind of brivla is the name of its node. -/
theorem C78_names : (match tree? (sample [.Gismu]), tree? (sample [.Lujvo]) with
    | some v, some w => (findAt v).any (fun x => x.2.1 == .TanruUnit2_Gismu) && (findAt w).any (fun x => x.2.1 == .TanruUnit2_Lujvo) &&
        !(findAt w).any (fun x => x.2.1 == .TanruUnit2_Gismu)
    | _, _ => false) = true := by decide +kernel

/-- Names are no brivla: `lo klama` is a text, `lo .alis.` and `lo co'e .alis. klama` are not. -/
theorem C78_others : IsText (toks [.Le, .Gismu]) ∧ ¬ IsText (toks [.Le, .Cmevla]) ∧ ¬ IsText (toks [.Le, .Goha, .Cmevla, .Gismu]) := by
  refine ⟨?_, ?_, ?_⟩ <;> decide +kernel

end Sneturfahi.Props
