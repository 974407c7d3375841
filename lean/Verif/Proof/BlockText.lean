import Verif.Proof.BlockPieces

/-!
# A piece exchanged for another: the text
-/

namespace Sneturfahi.Block

open Spec Dup

/-- The tables for pieces read by `sp`. -/
def pieceTabs (ks : List Selmaho) (sp : CRule) (no : List CRule) (names : List NodeName) : Tabs where
  kinds := ks
  sp := sp
  ok := fun r => !hidden r && !no.contains r && !(match r with | .word s => ks.contains s | _ => false)
  names := names

def tabsOf : CRule → Tabs
  | .SumtiComponent1 => pieceTabs [.Koha, .Lu, .Li, .Le] .SumtiComponent1 [.SumtiComponent1, .LuSumti, .Gadri, .GadriSumti]
      [.SumtiComponent1_Koha, .SumtiComponent1_Lu, .SumtiComponent1_Li, .SumtiComponent1_Gadri]
  | .Free => pieceTabs [.To, .Soi] .Free [.Free] [.Free_To, .Free_Soi]
  | .RelativeClause => pieceTabs [.Noi, .Goi] .RelativeClause [.RelativeClause, .NoiRelativeClause, .GoiRelativeClause]
      [.RelativeClause_Noi, .RelativeClause_Goi]
  | _ => pieceTabs [.Be] .BoundArguments [.BoundArguments] [.BoundArguments]

def pieceRules : List CRule := [.SumtiComponent1, .Free, .RelativeClause, .BoundArguments]

theorem piece_checks (r : CRule) : pieceRules.all (fun sp => checks (tabsOf sp) r) = true := by
  cases r with
  | word s => cases s <;> decide +kernel
  | _ => decide +kernel

theorem piece_hid {sp : CRule} (h : sp ∈ pieceRules) (r : CRule) (hr : hidden r = true) :
    (tabsOf sp).ok r = false ∧ offR r = false ∧ r ≠ (tabsOf sp).sp := by
  have hsp : (tabsOf sp).sp = sp ∧ (tabsOf sp).ok r = false := by
    simp only [pieceRules, List.mem_cons, List.not_mem_nil, or_false] at h
    rcases h with rfl | rfl | rfl | rfl <;> simp [tabsOf, pieceTabs, hr]
  refine ⟨hsp.2, ?_, ?_⟩
  · cases r <;> simp_all [hidden, offR]
  · rw [hsp.1]
    rintro rfl
    simp only [pieceRules, List.mem_cons, List.not_mem_nil, or_false] at h
    rcases h with rfl | rfl | rfl | rfl <;> cases hr

/-- What is used of a piece. -/
structure IsPiece (sp : CRule) (A : List Token) (f : List Val → Val) : Prop where
  rule : sp ∈ pieceRules
  whole : Whole sp (tailOf sp) A f
  head : ∃ a A', A = a :: A' ∧ a.selmaho ∈ (tabsOf sp).kinds
  clean : Clean A
  node : ∀ is, ∃ n fs, f is = .node n fs ∧ n ∈ (tabsOf sp).names

theorem isPiece {sp : CRule} {A : List Token} {f : List Val → Val} (h : ClosedPiece sp A f) : IsPiece sp A f := by
  cases h with
  | pronoun k hk =>
    refine ⟨by decide, whole_koha hk, ⟨k, [], rfl, by rw [hk]; decide⟩, ?_, fun is => ⟨_, _, rfl, by decide⟩⟩
    intro t ht
    simp only [List.mem_singleton] at ht
    subst ht
    rw [hk]
    decide
  | bracket o c s r inner h1 h2 h3 h4 =>
    obtain ⟨_, _, k3, k4⟩ := cl_kinds h1
    refine ⟨?_, whole_bracket h1 h2 h3 h4, ⟨o, s ++ [c], rfl, ?_⟩, ?_, ?_⟩
    · have : brackets.all (fun x => pieceRules.contains x.2.2) = true := by decide +kernel
      simpa using List.all_eq_true.mp this _ h1
    · have : brackets.all (fun x => (tabsOf x.2.2).kinds.contains x.1) = true := by decide +kernel
      simpa using List.all_eq_true.mp this _ h1
    · intro t ht
      simp only [List.cons_append, List.mem_cons, List.mem_append, List.not_mem_nil, or_false] at ht
      rcases ht with rfl | ht | rfl
      · exact k4
      · exact (cl_free h2 h3).2 t ht
      · exact k3
    · intro is
      simp only [brackets, List.mem_cons, Prod.mk.injEq, List.not_mem_nil, or_false] at h1
      rcases h1 with ⟨h1, -, rfl⟩ | ⟨h1, -, rfl⟩ | ⟨h1, -, rfl⟩ | ⟨h1, -, rfl⟩ | ⟨h1, -, rfl⟩ | ⟨h1, -, rfl⟩ | ⟨h1, -, rfl⟩ | ⟨h1, -, rfl⟩ <;>
        rw [h1] <;> exact ⟨_, _, rfl, by decide⟩

/-- One part made of the first piece, or of the second. -/
def Pair (f g : List Val → Val) (v w : Val) : Prop := ∃ is, v = f is ∧ w = g is

theorem piece_cert {sp : CRule} {A B Y : List Token} {f g : List Val → Val} (hA : IsPiece sp A f) (hB : IsPiece sp B g) (hY : Clean Y) :
    Cert (tabsOf sp) (Pair f g) (A ++ Y) (B ++ Y) where
  isP := by obtain ⟨a, A', rfl, h⟩ := hA.head; exact ⟨a, A' ++ Y, rfl, h⟩
  isQ := by obtain ⟨a, A', rfl, h⟩ := hB.head; exact ⟨a, A' ++ Y, rfl, h⟩
  cleanP := clean_app hA.clean hY
  cleanQ := clean_app hB.clean hY
  isSp := by
    have hsp : (tabsOf sp).sp = sp := by
      have := hA.rule
      simp only [pieceRules, List.mem_cons, List.not_mem_nil, or_false] at this
      rcases this with rfl | rfl | rfl | rfl <;> rfl
    rw [hsp]
    intro o ho
    obtain ⟨u, hu⟩ := total (tailOf sp) Y
    have h1 := hA.whole Y hY u hu
    have h2 := hB.whole Y hY u hu
    cases ho.unique _ h1
    refine ⟨_, h2, ?_⟩
    cases u with
    | error => exact .error
    | failure => exact .failure
    | ok r is =>
      have hl := shorter hu
      obtain ⟨a, A', rfl, -⟩ := hA.head
      obtain ⟨b, B', rfl, -⟩ := hB.head
      exact .past (by simp; omega) (by simp; omega) (.one (.here ⟨is, rfl, rfl⟩))
  isOk := fun r => List.all_eq_true.mp (piece_checks r) _ hA.rule
  hid := piece_hid hA.rule
  nodes := by
    rintro v w ⟨is, rfl, rfl⟩
    obtain ⟨n, fs, h1, h2⟩ := hA.node is
    obtain ⟨m, gs, h3, -⟩ := hB.node is
    exact ⟨n, m, fs, gs, h1, h3, h2⟩

theorem exchange {sp : CRule} {A B X Y : List Token} {f g : List Val → Val} (hA : ClosedPiece sp A f) (hB : ClosedPiece sp B g) (hX : Clean X) (hY : Clean Y)
    (hb : NoBahe X) {root : Val} (h : Peg cst (.call .Text) (X ++ A ++ Y) (.ok [] [root])) :
    ∃ root', Peg cst (.call .Text) (X ++ B ++ Y) (.ok [] [root']) ∧ Swap (Pair f g) root root' := by
  have pA := isPiece hA
  have pB := isPiece hB
  have hg : Good (tabsOf sp) X (.call .Text) := by
    have := pA.rule
    simp only [pieceRules, List.mem_cons, List.not_mem_nil, or_false] at this
    rcases this with rfl | rfl | rfl | rfl <;> exact ⟨fun _ => by decide, fun _ => by decide⟩
  obtain ⟨o', h1, h2⟩ := claims (piece_cert pA pB hY) h X (by simp) hX hb hg
  obtain ⟨a, A', rfl, -⟩ := pA.head
  obtain ⟨ws, rfl, h3⟩ : ∃ ws, o' = .ok [] ws ∧ SwapL (Pair f g) [root] ws := by
    generalize hout : Outcome.ok [] [root] = out at h2
    cases h2 with
    | error => cases hout
    | failure => cases hout
    | before hx =>
      exfalso
      have := congrArg (fun o => match o with | .ok r _ => r.length | _ => 0) hout
      simp at this
    | past _ _ h3 => cases hout; exact ⟨_, rfl, h3⟩
  obtain ⟨l, r, v, w, hs, h4, h5⟩ := h3
  cases l with
  | cons _ l => simp at h4
  | nil =>
    cases h4
    cases h5
    rw [List.append_assoc]
    exact ⟨w, h1, hs⟩

end Sneturfahi.Block
