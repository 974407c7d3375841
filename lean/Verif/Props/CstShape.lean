import Verif.Proof.CstEmpty
import Verif.Proof.CstPlace
import Verif.Proof.CstCover
import Verif.Props.CstMore

/-!
# C65-C68: which nodes there are, where, and what they are made of
-/

namespace Sneturfahi.Props

open Spec

/-! ### C65: empty nodes -/

/-- **C65.** Only nodes of these eleven kinds can be without tokens; in particular a sentence that is an item of a paragraph
has tokens. -/
theorem C65_empty (p : Profile) (s : Toks) (root : Val) (h : parseCst p s = .val (.ok root)) (n : NodeName) (fs : List Val)
    (hn : PartOf (.node n fs) root) (he : tokensL fs = []) :
    n ∈ [NodeName.Frees, .Text, .Paragraphs, .Paragraph, .ParagraphItem_Empty, .Sentences3_Single, .Sentence, .Args, .TailArgs,
      .GadriSumtiPre_Simple, .VocativeValue_Sumti] :=
  formed_full cstWF cst_full (formed_root h) false (by simp) (by decide) (by decide) n fs (.head hn) he

/-- Hence all others have a location. -/
theorem C65_located (p : Profile) (s : Toks) (root : Val) (h : parseCst p s = .val (.ok root)) (n : NodeName) (fs : List Val)
    (hn : PartOf (.node n fs) root)
    (hne : n ∉ [NodeName.Frees, .Text, .Paragraphs, .Paragraph, .ParagraphItem_Empty, .Sentences3_Single, .Sentence, .Args, .TailArgs,
      .GadriSumtiPre_Simple, .VocativeValue_Sumti]) :
    (Val.node n fs).startLocation.isSome = true ∧ (Val.node n fs).endLocation.isSome = true := by
  have h1 := C48_locations (.node n fs)
  have h2 : (Val.node n fs).startLocation ≠ none := by
    intro h3
    exact hne (C65_empty p s root h n fs hn (h1.2.2.2.mp h3))
  have h3 : (Val.node n fs).startLocation.isSome = true := by
    cases hc : (Val.node n fs).startLocation with
    | none => exact absurd hc h2
    | some _ => rfl
  exact ⟨h3, by rw [← h1.2.2.1]; exact h3⟩

/-! ### Finding nodes, for examples -/

mutual
/-- The nodes of a value with what is before them. -/
def findAt : Val → List (List Token × NodeName × List Val)
  | .leaf _ _ => []
  | .node n fs => ([], n, fs) :: findAtL fs
  | .tuple fs => findAtL fs
  | .many vs => findAtL vs
  | .sep first rest => findAt first ++ (findAtL rest).map (fun x => (tokens first ++ x.1, x.2))
/-- The same for several values. -/
def findAtL : List Val → List (List Token × NodeName × List Val)
  | [] => []
  | v :: vs => findAt v ++ (findAtL vs).map (fun x => (tokens v ++ x.1, x.2))
end

mutual
theorem findAt_at : ∀ (v : Val) (pre : List Token) (n : NodeName) (fs : List Val), (pre, n, fs) ∈ findAt v → At pre (.node n fs) v
  | .leaf _ _, pre, n, fs, h => by simp [findAt] at h
  | .node m gs, pre, n, fs, h => by
    simp only [findAt, List.mem_cons, Prod.mk.injEq] at h
    rcases h with ⟨rfl, rfl, rfl⟩ | h
    · exact .self
    · exact .node (findAtL_at gs pre n fs h)
  | .tuple gs, pre, n, fs, h => .tuple (findAtL_at gs pre n fs (by simpa [findAt] using h))
  | .many gs, pre, n, fs, h => .many (findAtL_at gs pre n fs (by simpa [findAt] using h))
  | .sep first rest, pre, n, fs, h => by
    simp only [findAt, List.mem_append, List.mem_map, Prod.mk.injEq] at h
    rcases h with h | ⟨x, hx, rfl, h1⟩
    · exact .sepFirst (findAt_at first pre n fs h)
    · refine .sepRest (findAtL_at rest x.1 n fs ?_)
      rw [← h1]; exact hx
theorem findAtL_at : ∀ (vs : List Val) (pre : List Token) (n : NodeName) (fs : List Val), (pre, n, fs) ∈ findAtL vs →
    AtL pre (.node n fs) vs
  | [], pre, n, fs, h => by simp [findAtL] at h
  | v :: vs, pre, n, fs, h => by
    simp only [findAtL, List.mem_append, List.mem_map, Prod.mk.injEq] at h
    rcases h with h | ⟨x, hx, rfl, h1⟩
    · exact .head (findAt_at v pre n fs h)
    · refine .tail (findAtL_at vs x.1 n fs ?_)
      rw [← h1]; exact hx
end

/-- Does the tree of these selma'o have a node of this name without tokens? -/
def hasEmpty (l : List Selmaho) (n : NodeName) : Bool :=
  match tree? (sample l) with
  | some v => (findAt v).any (fun x => x.2.1 == n && (tokensL x.2.2).isEmpty)
  | none => false

/-- All eleven do occur without tokens. -/
theorem C65_all_occur : hasEmpty [] .Text = true ∧ hasEmpty [] .Frees = true ∧ hasEmpty [] .Paragraphs = true ∧
    hasEmpty [] .Paragraph = true ∧ hasEmpty [] .ParagraphItem_Empty = true ∧
    hasEmpty [.Koha, .I, .Ja] .Sentences3_Single = true ∧ hasEmpty [.Koha, .I, .Ja] .Sentence = true ∧
    hasEmpty [.Koha, .I, .Ja] .Args = true ∧ hasEmpty [.Gismu] .TailArgs = true ∧
    hasEmpty [.Le, .Gismu] .GadriSumtiPre_Simple = true ∧ hasEmpty [.Coi] .VocativeValue_Sumti = true := by
  refine ⟨?_, ?_, ?_, ?_, ?_, ?_, ?_, ?_, ?_, ?_, ?_⟩ <;> decide +kernel

/-! ### C66: the parser computes the meaning of the grammar -/

/-- **C66.** A token sequence parses with this tree exactly if reading the production `Text`, as the rules of inference of
`Spec.Peg` have it, yields this tree and leaves nothing. -/
theorem C66_meaning (p : Profile) (s : Toks) (root : Val) :
    parseCst p s = .val (.ok root) ↔ Peg cst (.call .Text) s.list (.ok [] [root]) := by
  obtain ⟨res, h1, h2⟩ := parseCst_eq p s
  have hm := runCst_means .Text s
  rw [h1] at hm
  constructor
  · intro h
    rw [parseCst_ok h] at h1
    cases h1
    exact hm
  · intro h
    have := hm.unique _ h
    rw [h2]
    cases res with
    | ok r vs =>
      obtain ⟨q, l⟩ := r
      simp only [CRes.outcome, Outcome.ok.injEq] at this
      obtain ⟨rfl, rfl⟩ := this
      rfl
    | error e => cases this
    | failure e => cases this

/-- These rules yield exactly one outcome for every token sequence. -/
theorem C66_outcome (s : List Token) : ∃ o, Peg cst (.call .Text) s o ∧ ∀ o', Peg cst (.call .Text) s o' → o' = o := by
  obtain ⟨res, h1, _⟩ := parseCst_eq .debug ⟨0, s⟩
  have hm := runCst_means .Text ⟨0, s⟩
  rw [h1] at hm
  exact ⟨_, hm, fun o' h => (hm.unique o' h).symm⟩

example : ∃ root, Peg cst (.call .Text) (sample [.Koha, .Gismu]).list (.ok [] [root]) := by
  obtain ⟨v, hv⟩ := tree?_isSome (s := sample [.Koha, .Gismu]) (by decide +kernel)
  exact ⟨v, (C66_meaning .debug _ v).mp hv⟩

/-! ### C67: the kinds of nodes that occur -/

/-- **C67.** Two variants of the type definitions never occur in a tree: `GadriSumtiPre::Relative` and
`GadriSumtiPre::FullPre`; the first variant always applies. -/
theorem C67_never (p : Profile) (s : Toks) (root : Val) (h : parseCst p s = .val (.ok root)) (n : NodeName) (fs : List Val)
    (hn : PartOf (.node n fs) root) : n ≠ .GadriSumtiPre_Relative ∧ n ≠ .GadriSumtiPre_FullPre := by
  obtain ⟨pre, hp⟩ := hn.at
  obtain ⟨a, here, post, hg, _, _⟩ := peg_placed cst_made ((C66_meaning p s root).mp h) _ _ rfl (by decide) pre n fs (.head hp)
  simp only [goodNode, Bool.and_eq_true, Bool.not_eq_true', deadNodes, List.contains_eq_mem, decide_eq_false_iff_not,
    List.mem_cons, List.not_mem_nil, or_false, not_or] at hg
  exact hg.1

/-- **C67.** Every other struct and variant occurs in the tree of some text. -/
theorem C67_all_others (n : NodeName) (h1 : n ≠ .GadriSumtiPre_Relative) (h2 : n ≠ .GadriSumtiPre_FullPre)
    (h3 : ∀ s, n = .word s → wordKind s = .single ∨ wordKind s = .noIndicators) :
    ∃ s root fs, parseCst .debug s = .val (.ok root) ∧ PartOf (.node n fs) root := by
  obtain ⟨root, fs, h4, h5⟩ := hasNodes_part (coverOf_ok n) n (coverOf_mem n h1 h2 h3)
  exact ⟨_, root, fs, h4, h5⟩

/-! ### C68: a constituent is determined by what follows its start -/

/-- **C68.** Two nodes of the same kind (not of a generic type) whose texts go on identically from their starts are the same,
whatever precedes them. -/
theorem C68_context_free (p p' : Profile) (s s' : Toks) (root root' : Val) (h : parseCst p s = .val (.ok root))
    (h' : parseCst p' s' = .val (.ok root')) (n : NodeName) (fs fs' : List Val) (pre pre' rest : List Token)
    (hn : At pre (.node n fs) root) (hn' : At pre' (.node n fs') root') (hs : s.list = pre ++ rest) (hs' : s'.list = pre' ++ rest)
    (hg : n ∉ [NodeName.WithFree, .SelbriLikeConnectedPost_Normal, .SelbriLikeConnectedPost_Parenthesized, .NaheGuhekTGik,
      .SumtiLikeConnectedPost_Normal, .SumtiLikeConnectedPost_Grouped, .EitherOrBoth_Right, .EitherOrBoth_Both, .EitherOrBoth_Left,
      .NaSeTNai]) : fs = fs' := by
  obtain ⟨a, here, post, h1, h2, h3⟩ := peg_placed cst_made ((C66_meaning p s root).mp h) _ _ rfl (by decide) pre n fs (.head hn)
  obtain ⟨a', here', post', h1', h2', h3'⟩ :=
    peg_placed cst_made ((C66_meaning p' s' root').mp h') _ _ rfl (by decide) pre' n fs' (.head hn')
  rw [hs] at h2
  rw [hs'] at h2'
  cases List.append_cancel_left h2
  cases List.append_cancel_left h2'
  have hng : genericNodes.contains n = false := by
    simp only [List.contains_eq_mem, decide_eq_false_iff_not]
    exact hg
  simp only [goodNode, hng, Bool.false_or, Bool.and_eq_true, decide_eq_true_eq] at h1 h1'
  have : a = a' := by
    have := h1.2.symm.trans h1'.2
    cases this
    rfl
  subst this
  have := h3.unique _ h3'
  cases this
  rfl

/-- The example: the sentence in `mi klama` and in `ni'o mi klama`. -/
example : ((tree? (sample [.Koha, .Gismu])).map fun v => (findAt v).any fun x => x.1 == [] && x.2.1 == .Sentence) = some true ∧
    ((tree? (sample [.Niho, .Koha, .Gismu])).map fun v => (findAt v).any fun x => x.1.length == 1 && x.2.1 == .Sentence) = some true := by
  decide +kernel

end Sneturfahi.Props
