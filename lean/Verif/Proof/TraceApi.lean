import Verif.Model.TraceApi
import Verif.Proof.Trace

/-!
# Tracing changes no result of decomposing, classifying and lexing

and the number of messages is a lower bound of the work done.
-/

namespace Sneturfahi

open Spec

/-- `t` does what `x` does, leaves the level as it was, and writes well-nested messages, at least `k` of them. -/
def Costs {α : Type} (k : Nat) (t : Traced α) (x : Exec α) : Prop :=
  ∀ st, ∃ msgs, Nested st.level msgs ∧ (∀ a, x = .val a → k ≤ msgs.length) ∧ t st = x.map (fun a => (a, ⟨st.level, st.log ++ msgs⟩))

variable {α β : Type} {t : Traced α} {x : Exec α}

theorem Erases.costs {d : Nat} (h : Erases d t x) : Costs 0 t x := by
  intro st
  obtain ⟨msgs, g, hm⟩ := h st
  exact ⟨msgs, g.1, fun _ _ => Nat.zero_le _, hm⟩

theorem Costs.mono {k k' : Nat} (h : Costs k t x) (hk : k' ≤ k) : Costs k' t x := by
  intro st
  obtain ⟨msgs, g, hl, hm⟩ := h st
  exact ⟨msgs, g, fun a ha => Nat.le_trans hk (hl a ha), hm⟩

theorem costs_pure (a : α) : Costs 0 (pure a : Traced α) (pure a) := (erases_pure (d := 0) a).costs
theorem costs_lift (x : Exec α) : Costs 0 (.lift x) x := (erases_lift (d := 0) x).costs
theorem costs_diverge : Costs (α := α) 0 .diverge .diverge := (erases_diverge (d := 0)).costs

theorem Costs.bind {k k' : Nat} {f : α → Traced β} {g : α → Exec β} (h : Costs k t x)
    (hf : ∀ a, x = .val a → Costs k' (f a) (g a)) : Costs (k + k') (t >>= f) (x >>= g) := by
  intro st
  obtain ⟨m1, n1, l1, h1⟩ := h st
  cases x with
  | panic => exact ⟨[], .nil, nofun, by rw [traced_bind, h1]; rfl⟩
  | diverge => exact ⟨[], .nil, nofun, by rw [traced_bind, h1]; rfl⟩
  | val a =>
    obtain ⟨m2, n2, l2, h2⟩ := hf a rfl ⟨st.level, st.log ++ m1⟩
    refine ⟨m1 ++ m2, n1.append n2, fun b hb => ?_, ?_⟩
    · have := l1 a rfl
      have := l2 b hb
      simp; omega
    · rw [traced_bind, h1]
      simpa [Exec.map] using h2

theorem Costs.bind0 {f : α → Traced β} {g : α → Exec β} (h : Costs 0 t x)
    (hf : ∀ a, x = .val a → Costs 0 (f a) (g a)) : Costs 0 (t >>= f) (x >>= g) := h.bind hf

theorem Costs.ite {k : Nat} {c : Prop} [Decidable c] {t u : Traced α} {x y : Exec α} (h : Costs k t x) (h' : Costs k u y) :
    Costs k (if c then t else u) (if c then x else y) := by
  split
  · exact h
  · exact h'

theorem costs_rule (rule : Rule) (s : Str) : Costs 0 (runRuleT rule s) (runRule rule s) := (erases_rule _ rule s).costs

theorem costs_postWord (s : Str) : Costs 0 (postWordT s) (postWord s) := by
  unfold postWordT postWord
  refine (costs_rule _ _).bind0 fun _ _ => .ite (costs_pure _) ?_
  refine (costs_rule _ _).bind0 fun _ _ => .ite (costs_pure _) ?_
  refine (costs_rule _ _).bind0 fun _ _ => .ite (costs_pure _) ?_
  refine (costs_rule _ _).bind0 fun _ _ => .ite (costs_pure _) ?_
  exact (costs_rule _ _).bind0 fun _ _ => costs_pure _

theorem costs_fallOff (s : Str) : Costs 0 (fallOffT s) (fallOff s) := by
  unfold fallOffT fallOff
  refine (costs_rule _ _).bind0 fun a _ => ?_
  cases a with
  | none => exact costs_rule _ _
  | some _ => exact costs_pure _

theorem costs_fallLoop (p : Profile) (base fuel : Nat) :
    ∀ rest saved chunks, Costs 0 (fallLoopT p base fuel rest saved chunks) (fallLoop p base fuel rest saved chunks) := by
  induction fuel with
  | zero => intros; exact costs_diverge
  | succ fuel ih =>
    intro rest saved chunks
    refine (costs_fallOff rest).bind0 fun a _ => ?_
    cases a with
    | none => exact costs_pure _
    | some a =>
      cases saved with
      | none => exact ih _ _ _
      | some _ => exact (costs_lift _).bind0 fun _ _ => ih _ _ _

/-- What `decompose_single` does after its loop. -/
theorem costs_afterLoop (p : Profile) (base : Nat) (a : Str × Option (Str × Str) × List Span) :
    Costs 0 (match a with
      | (rest, saved, chunks) => (match saved with
        | none => .lift (finishSingle p base rest chunks)
        | some (w, oldRest) => do
          if ← postWordT rest then do
            let sp ← .lift (Span.fromEmbeddedSlice p base w)
            .lift (finishSingle p base rest (sp :: chunks))
          else .lift (finishSingle p base oldRest chunks) : Traced (List Span)))
     (match a with
      | (rest, saved, chunks) => (match saved with
        | none => finishSingle p base rest chunks
        | some (w, oldRest) => do
          if ← postWord rest then do
            let sp ← Span.fromEmbeddedSlice p base w
            finishSingle p base rest (sp :: chunks)
          else finishSingle p base oldRest chunks)) := by
  obtain ⟨rest, saved, chunks⟩ := a
  cases saved with
  | none => exact costs_lift _
  | some s =>
    refine (costs_postWord _).bind0 fun b _ => ?_
    exact .ite ((costs_lift _).bind0 fun _ _ => costs_lift _) (costs_lift _)

theorem costs_decomposeSingle (p : Profile) (s : Str) : Costs 0 (decomposeSingleT p s) (decomposeSingle p s) := by
  unfold decomposeSingleT decomposeSingle
  refine .ite ((costs_lift _).bind0 fun _ _ => costs_pure _) ?_
  exact (costs_fallLoop _ _ _ _ _ _).bind0 fun a _ => costs_afterLoop p s.ptr a

theorem costs_nextLoop (p : Profile) (fuel : Nat) : ∀ d, Costs 0 (Decomposer.nextLoopT p fuel d) (Decomposer.nextLoop p fuel d) := by
  induction fuel with
  | zero => intro; exact costs_diverge
  | succ fuel ih =>
    intro d
    unfold Decomposer.nextLoopT Decomposer.nextLoop
    generalize d.current = c
    cases c with
    | cons => exact costs_pure _
    | nil =>
      generalize d.chunksFind = r
      obtain ⟨chunk, d'⟩ := r
      cases chunk with
      | none => exact costs_pure _
      | some chunk =>
        refine (costs_lift _).bind0 fun _ _ => (costs_lift _).bind0 fun _ _ => ?_
        exact (costs_decomposeSingle _ _).bind0 fun _ _ => (costs_lift _).bind0 fun _ _ => ih _

theorem costs_next (p : Profile) (d : Decomposer) : Costs 0 (d.nextT p) (d.next p) := costs_nextLoop _ _ _

theorem costs_collectWords (p : Profile) (fuel : Nat) : ∀ d, Costs 0 (collectWordsT p fuel d) (collectWords p fuel d) := by
  induction fuel with
  | zero => intro; exact costs_diverge
  | succ fuel ih =>
    intro d
    refine (costs_next p d).bind0 fun a _ => ?_
    obtain ⟨w, d'⟩ := a
    cases w with
    | none => exact costs_pure _
    | some w => exact (ih _).bind0 fun _ _ => costs_pure _

theorem costs_classifyGenerally (s : Str) : Costs 0 (classifyGenerallyT s) (classifyGenerally s) := by
  unfold classifyGenerallyT classifyGenerally
  refine (costs_rule _ _).bind0 fun _ _ => .ite (costs_pure _) ?_
  refine (costs_rule _ _).bind0 fun _ _ => .ite (costs_pure _) ?_
  refine (costs_rule _ _).bind0 fun _ _ => .ite (costs_pure _) ?_
  refine (costs_rule _ _).bind0 fun _ _ => .ite (costs_pure _) ?_
  exact (costs_rule _ _).bind0 fun _ _ => .ite (costs_pure _) (costs_pure _)

theorem costs_classify (s : Str) : Costs 0 (classifyT s) (classify s) := by
  unfold classifyT classify
  refine (costs_lift _).bind0 fun direct _ => ?_
  have tail : ∀ a : Selmaho × Bool, Costs 0
      (match a with | (selmaho, isExperimental) => (pure (selmaho, selmaho.isFundamentallyExperimental || isExperimental) : Traced _))
      (match a with | (selmaho, isExperimental) => pure (selmaho, selmaho.isFundamentallyExperimental || isExperimental)) :=
    fun a => costs_pure _
  cases direct with
  | none => exact (costs_classifyGenerally _).bind0 fun _ _ => (costs_pure _).bind0 fun a _ => tail a
  | some w =>
    simp only
    generalize lookupDirect w = o
    cases o with
    | none => exact (costs_classifyGenerally _).bind0 fun _ _ => (costs_pure _).bind0 fun a _ => tail a
    | some o => exact (costs_pure _).bind0 fun a _ => tail a

theorem costs_nextNormal (p : Profile) (l : Lexer) : Costs 0 (l.nextNormalT p) (l.nextNormal p) := by
  unfold Lexer.nextNormalT Lexer.nextNormal
  refine (costs_next _ _).bind0 fun a _ => ?_
  obtain ⟨w, ws⟩ := a
  cases w with
  | none => exact costs_pure _
  | some w =>
    refine (costs_lift _).bind0 fun _ _ => (costs_classify _).bind0 fun c _ => ?_
    obtain ⟨selmaho, experimental⟩ := c
    refine .ite ?_ (.ite (costs_pure _) (.ite (costs_pure _) (costs_pure _)))
    refine (costs_next _ _).bind0 fun b _ => ?_
    obtain ⟨v, vs⟩ := b
    cases v <;> exact costs_pure _

theorem costs_lexNext (p : Profile) (l : Lexer) : Costs 0 (l.nextT p) (l.next p) := by
  unfold Lexer.nextT
  split
  · rename_i h
    unfold Lexer.next
    rw [h]
    exact costs_nextNormal p l
  · exact costs_lift _

theorem costs_collectItems (p : Profile) (fuel : Nat) : ∀ l, Costs 0 (collectItemsT p fuel l) (collectItems p fuel l) := by
  induction fuel with
  | zero => intro; exact costs_diverge
  | succ fuel ih =>
    intro l
    refine (costs_lexNext p l).bind0 fun a _ => ?_
    obtain ⟨w, l'⟩ := a
    cases w with
    | none => exact costs_pure _
    | some w => exact (ih _).bind0 fun _ _ => costs_pure _

end Sneturfahi
