import Verif.Proof.Head
import Verif.Proof.TraceApi

/-!
# The number of rule calls made on a run of letters `y`
-/

namespace Sneturfahi

open Spec

/-- With enough fuel a rule returns its result. -/
theorem evalRule_val {fuel : Nat} {rule : Rule} {s : Str} (hf : 128 * s.chars.length + ruleRank rule < fuel) :
    evalRule grammar fuel rule s = .val (Res.at s.ptr (parseRule rule s.chars)) := by
  obtain ⟨res, h1, h2⟩ := evalRule_good grammarWF fuel rule s hf
  rw [h1, derives_iff.mp h2]

section combinators

variable {d k k' : Nat} {t u : TParser} {p q : Parser} {input : Str}

theorem costs_alt_left (h : Costs k (t input) (p input)) (h' : ErasesP d u q) : Costs k (altT t u input) (altP p q input) := by
  refine h.bind (k' := 0) fun a _ => ?_
  cases a with
  | none => exact (h' _).costs
  | some _ => exact costs_pure _

theorem costs_alt (h : Costs k (t input) (p input)) (hp : p input = .val none) (h' : Costs k' (u input) (q input)) :
    Costs (k + k') (altT t u input) (altP p q input) := by
  refine h.bind fun a ha => ?_
  rw [hp] at ha
  cases ha
  exact h'

theorem costs_seq_left (h : Costs k (t input) (p input)) (h' : ErasesP d u q) : Costs k (seqT t u input) (seqP p q input) := by
  refine h.bind (k' := 0) fun a _ => ?_
  cases a with
  | none => exact costs_pure _
  | some a =>
    refine (h' a.2).costs.bind0 fun b _ => ?_
    cases b with
    | none => exact costs_pure _
    | some _ => exact costs_lift _

theorem costs_seq_right {m rest : Str} (h : ErasesP d t p) (hp : p input = .val (some (m, rest))) (h' : Costs k (u rest) (q rest)) :
    Costs k (seqT t u input) (seqP p q input) := by
  refine ((h input).costs.bind (k' := k) fun a ha => ?_).mono (by omega)
  rw [hp] at ha
  cases ha
  refine h'.bind (k' := 0) fun b _ => ?_
  cases b with
  | none => exact costs_pure _
  | some _ => exact costs_lift _

theorem costs_andNot_right {m rest : Str} (h : ErasesP d t p) (hp : p input = .val (some (m, rest))) (h' : Costs k (u rest) (q rest)) :
    Costs k (andNotT t u input) (andNotP p q input) := by
  refine ((h input).costs.bind (k' := k) fun a ha => ?_).mono (by omega)
  rw [hp] at ha
  cases ha
  refine h'.bind (k' := 0) fun b _ => ?_
  cases b <;> exact costs_pure _

theorem costs_guardNot_right (h : ErasesP d t p) (hp : p input = .val none) (h' : Costs k (u input) (q input)) :
    Costs k (guardNotT t u input) (guardNotP p q input) := by
  refine ((h input).costs.bind (k' := k) fun a ha => ?_).mono (by omega)
  rw [hp] at ha
  cases ha
  exact h'

theorem costs_longest_right (h : ErasesP d t p) (h' : Costs k (u input) (q input)) :
    Costs k (longestT t u input) (longestP p q input) := by
  refine ((h input).costs.bind (k' := k) fun a _ => h'.bind (k' := 0) fun b _ => ?_).mono (by omega)
  cases a <;> cases b <;> exact costs_pure _

theorem costs_rep (min : Nat) (h' : ErasesP d t p) (h : Costs k (t input) (p input)) :
    Costs k (repT min t input) (repP min p input) := by
  have hl : Costs k (repLoopT t (input.chars.length + 1) input none input.ptr 0)
      (repLoop p (input.chars.length + 1) input none input.ptr 0) := by
    refine h.bind (k' := 0) fun a _ => ?_
    cases a with
    | none => exact costs_pure _
    | some a => exact (erases_repLoop h' _ _ _ _ _).costs
  refine hl.bind (k' := 0) fun a _ => ?_
  obtain ⟨rest, first, last, num⟩ := a
  simp only
  split
  · exact costs_pure _
  · exact costs_lift _

theorem costs_debugRule (name : Rule) (h : Costs k (t input) (p input)) : Costs (k + 2) (debugRule name t input) (p input) := by
  intro st
  obtain ⟨m, n, hl, h1⟩ := h ⟨st.level + 1, st.log ++ [.entering (st.level * 2) name]⟩
  cases hp : p input with
  | panic =>
    rw [hp] at h1
    exact ⟨[], .nil, nofun, by unfold debugRule; rw [traced_bind]; simp only [debugRuleStart]; rw [traced_bind, h1]; rfl⟩
  | diverge =>
    rw [hp] at h1
    exact ⟨[], .nil, nofun, by unfold debugRule; rw [traced_bind]; simp only [debugRuleStart]; rw [traced_bind, h1]; rfl⟩
  | val a =>
    rw [hp] at h1
    refine ⟨.entering (st.level * 2) name :: (m ++ .exiting (st.level * 2) name a.isSome :: []), n.block .nil, ?_, ?_⟩
    · intro _ _
      have := hl a hp
      simp; omega
    · unfold debugRule
      rw [traced_bind]
      simp only [debugRuleStart]
      rw [traced_bind, h1]
      simp only [Exec.map]
      rw [traced_bind]
      simp [debugRuleEnd, pure]

end combinators

/-- The cost of a rule is at least the cost of its body. -/
theorem costs_body {k fuel : Nat} {rule : Rule} {s : Str}
    (h : Costs k (evalExpT (evalRuleT fuel) (grammar rule) s) (evalExp (evalRule grammar fuel) (grammar rule) s)) :
    Costs k (evalRuleT (fuel + 1) rule s) (evalRule grammar (fuel + 1) rule s) := by
  unfold evalRuleT evalRule
  split
  · exact (costs_debugRule rule h).mono (by omega)
  · exact h

/-- `n` letters `y`. -/
abbrev ys (n : Nat) : List Char := List.replicate n 'y'

theorem oneOf_y (chs : List Char) (h : 'y' ∈ chs) (ptr n : Nat) :
    oneOfP chs ⟨ptr, ys (n + 1)⟩ = .val (some (⟨ptr, ['y']⟩, ⟨ptr + 1, ys n⟩)) := by
  obtain ⟨res, h1, h2⟩ := oneOfP_good (g := grammar) chs ⟨ptr, ys (n + 1)⟩
  have h3 : Derives grammar (.oneOf chs) (ys (n + 1)) (some (['y'], ys n)) :=
    .oneOfYes (k := []) (by simp [AllCommas]) (by decide) h
  rw [h1, h2.det _ h3]
  rfl

theorem y_rule (n : Nat) : Derives grammar (.call .y) (ys (n + 1)) (some (['y'], ys n)) :=
  .call (.oneOfYes (k := []) (by simp [AllCommas]) (by decide) (by decide))

/-- The rule `nucleus` accepts exactly the runs of odd length. -/
theorem nucleus_ys (n : Nat) : Derives grammar (.call .nucleus) (ys n) (if n % 2 = 1 then some (['y'], ys (n - 1)) else none) := by
  induction n with
  | zero => exact derives_iff.mpr (by decide +kernel)
  | succ n ih =>
    have hv : Derives grammar (.oneOf c!"aAeEiIoOuUyY") (ys (n + 1)) (some (['y'], ys n)) :=
      .oneOfYes (k := []) (by simp [AllCommas]) (by decide) (by decide)
    by_cases hn : n % 2 = 1
    · rw [if_pos hn] at ih
      rw [if_neg (by omega)]
      refine .call (.altR (.call (.andNotNo hv ih)) (.altR ?_ (.andNotNo (y_rule n) ih)))
      exact headR_sound (c := 'y') (by decide) 12 Rule.diphthong false (by decide +kernel)
    · rw [if_neg hn] at ih
      rw [if_pos (by omega)]
      exact .call (.altL (.call (.andNotYes hv ih)))

/-- A nucleus on `n` letters `y` takes exponentially many rule calls. -/
theorem costs_nucleus (n : Nat) : ∀ ptr fuel, 128 * n + 64 ≤ fuel →
    Costs (2 ^ (n / 2)) (evalRuleT fuel .nucleus ⟨ptr, ys n⟩) (evalRule grammar fuel .nucleus ⟨ptr, ys n⟩) := by
  induction n with
  | zero =>
    intro ptr fuel hf
    obtain ⟨f, rfl⟩ : ∃ f, fuel = f + 1 := ⟨fuel - 1, by omega⟩
    refine (costs_debugRule (k := 0) .nucleus ?_).mono (by decide)
    exact (erases_exp (erases_rule f) _ _).costs
  | succ n ih =>
    intro ptr fuel hf
    obtain ⟨f, rfl⟩ : ∃ f, fuel = f + 2 := ⟨fuel - 2, by omega⟩
    have hn : ∀ g, f ≤ g → Costs (2 ^ (n / 2)) (evalRuleT g .nucleus ⟨ptr + 1, ys n⟩) (evalRule grammar g .nucleus ⟨ptr + 1, ys n⟩) :=
      fun g hg => ih _ _ (by omega)
    have hv : Costs (2 ^ (n / 2)) (evalRuleT (f + 1) .vowel ⟨ptr, ys (n + 1)⟩) (evalRule grammar (f + 1) .vowel ⟨ptr, ys (n + 1)⟩) :=
      costs_body (costs_andNot_right (fun _ => erases_lift (d := 0) _) (oneOf_y _ (by decide) ptr n) (hn f (by omega)))
    refine costs_body ?_
    by_cases hp : n % 2 = 1
    · have hv0 : evalRule grammar (f + 1) .vowel ⟨ptr, ys (n + 1)⟩ = .val none := by
        rw [evalRule_val (by simp [ruleRank]; omega)]
        have : parseRule .vowel (ys (n + 1)) = none := by
          have hn := nucleus_ys n
          rw [if_pos hp] at hn
          refine derives_iff.mp (.call (.andNotNo (m := ['y']) (rest := ys n) ?_ hn))
          exact .oneOfYes (k := []) (by simp [AllCommas]) (by decide) (by decide)
        simp only [this]
        rfl
      have hd0 : evalRule grammar (f + 1) .diphthong ⟨ptr, ys (n + 1)⟩ = .val none := by
        rw [evalRule_val (by simp [ruleRank]; omega)]
        have : parseRule .diphthong (ys (n + 1)) = none := parseRule_head 12 (by decide) (b := false) (by decide +kernel)
        simp only [this]
        rfl
      have hy : evalRule grammar (f + 1) .y ⟨ptr, ys (n + 1)⟩ = .val (some (⟨ptr, ['y']⟩, ⟨ptr + 1, ys n⟩)) := by
        rw [evalRule_val (by simp [ruleRank]; omega)]
        have : parseRule .y (ys (n + 1)) = some (['y'], ys n) := derives_iff.mp (y_rule n)
        simp only [this]
        rfl
      have h2 : Costs (2 ^ (n / 2)) (andNotT (evalRuleT (f + 1) .y) (evalRuleT (f + 1) .nucleus) ⟨ptr, ys (n + 1)⟩)
          (andNotP (evalRule grammar (f + 1) .y) (evalRule grammar (f + 1) .nucleus) ⟨ptr, ys (n + 1)⟩) :=
        costs_andNot_right (erases_rule (f + 1) .y) hy (hn (f + 1) (by omega))
      refine (costs_alt hv hv0 (costs_alt (erases_rule (f + 1) .diphthong _).costs hd0 h2)).mono ?_
      have : (n + 1) / 2 = n / 2 + 1 := by omega
      rw [this, Nat.pow_succ]
      omega
    · have : (n + 1) / 2 = n / 2 := by omega
      rw [this]
      exact costs_alt_left hv (erases_exp (erases_rule (f + 1)) _)

/-- Hence trying to read a name. -/
theorem costs_cmevla (ptr n : Nat) :
    Costs (2 ^ ((n + 1) / 2)) (runRuleT .cmevla ⟨ptr, ys (n + 1)⟩) (runRule .cmevla ⟨ptr, ys (n + 1)⟩) := by
  unfold runRuleT runRule
  have hlen : ruleFuel ⟨ptr, ys (n + 1)⟩ = 128 * (n + 2) := by simp [ruleFuel]
  obtain ⟨f, hf⟩ : ∃ f, ruleFuel ⟨ptr, ys (n + 1)⟩ = f + 1 := ⟨128 * (n + 2) - 1, by omega⟩
  rw [hf]
  have hh : evalRule grammar f .h ⟨ptr, ys (n + 1)⟩ = .val none := by
    rw [evalRule_val (by simp [ruleRank]; omega)]
    have : parseRule .h (ys (n + 1)) = none := parseRule_head 12 (by decide) (b := false) (by decide +kernel)
    simp only [this]
    rfl
  refine costs_body (costs_guardNot_right (erases_rule f .h) hh ?_)
  refine costs_seq_left (costs_rep 0 (erases_exp (erases_rule f) _) ?_) (erases_exp (erases_rule f) _)
  exact costs_alt_left (costs_nucleus (n + 1) ptr f (by omega)) (erases_exp (erases_rule f) _)

/-- And trying to split a cmavo off. -/
theorem costs_cmavo (ptr n : Nat) :
    Costs (2 ^ ((n + 1) / 2)) (runRuleT .cmavo_minimal ⟨ptr, ys (n + 1)⟩) (runRule .cmavo_minimal ⟨ptr, ys (n + 1)⟩) := by
  unfold runRuleT runRule
  have hlen : ruleFuel ⟨ptr, ys (n + 1)⟩ = 128 * (n + 2) := by simp [ruleFuel]
  obtain ⟨f, hf⟩ : ∃ f, ruleFuel ⟨ptr, ys (n + 1)⟩ = f + 2 := ⟨128 * (n + 2) - 2, by omega⟩
  rw [hf]
  have hl : evalRule grammar (f + 1) .cvcy_lujvo ⟨ptr, ys (n + 1)⟩ = .val none := by
    rw [evalRule_val (by simp [ruleRank]; omega)]
    have : parseRule .cvcy_lujvo (ys (n + 1)) = none := parseRule_head 12 (by decide) (b := false) (by decide +kernel)
    simp only [this]
    rfl
  refine costs_body (costs_guardNot_right (erases_rule (f + 1) .cvcy_lujvo) hl ?_)
  refine costs_body (costs_longest_right (erases_exp (erases_rule f) _) ?_)
  refine costs_longest_right (erases_exp (erases_rule f) _) ?_
  have hnull : ∀ (rule : Rule), ruleRank rule < 8 → parseRule rule (ys (n + 1)) = none →
      notP (evalRule grammar f rule) ⟨ptr, ys (n + 1)⟩ = .val (some (⟨ptr, []⟩, ⟨ptr, ys (n + 1)⟩)) := by
    intro rule hr hn
    have : evalRule grammar f rule ⟨ptr, ys (n + 1)⟩ = .val none := by
      rw [evalRule_val (by simp; omega)]
      simp only [hn]
      rfl
    unfold notP
    rw [this, Exec.val_bind]
    exact nullP_eq _
  refine costs_seq_right (erases_exp (erases_rule f) _)
    (hnull .h (by decide) (parseRule_head 12 (by decide) (b := false) (by decide +kernel))) ?_
  refine costs_seq_right (erases_exp (erases_rule f) _)
    (hnull .cluster (by decide) (parseRule_head 12 (by decide) (b := false) (by decide +kernel))) ?_
  have ho : evalRule grammar f .onset ⟨ptr, ys (n + 1)⟩ = .val (some (⟨ptr, []⟩, ⟨ptr, ys (n + 1)⟩)) := by
    rw [evalRule_val (by simp [ruleRank]; omega)]
    have : parseRule .onset (ys (n + 1)) = some ([], ys (n + 1)) := parseRule_head 12 (by decide) (b := true) (by decide +kernel)
    simp only [this]
    rfl
  refine costs_seq_right (erases_rule f .onset) ho ?_
  refine costs_seq_left (costs_rep 0 (erases_exp (erases_rule f) _) ?_) (erases_exp (erases_rule f) _)
  exact costs_seq_left (costs_nucleus (n + 1) ptr f (by omega)) (erases_rule f .h)

theorem costs_general_ys (ptr n : Nat) :
    Costs (2 ^ ((n + 1) / 2)) (classifyGenerallyT ⟨ptr, ys (n + 1)⟩) (classifyGenerally ⟨ptr, ys (n + 1)⟩) := by
  unfold classifyGenerallyT classifyGenerally
  refine (costs_cmevla ptr n).bind (k' := 0) fun _ _ => .ite (costs_pure _) ?_
  refine (costs_rule _ _).bind0 fun _ _ => .ite (costs_pure _) ?_
  refine (costs_rule _ _).bind0 fun _ _ => .ite (costs_pure _) ?_
  refine (costs_rule _ _).bind0 fun _ _ => .ite (costs_pure _) ?_
  exact (costs_rule _ _).bind0 fun _ _ => .ite (costs_pure _) (costs_pure _)

theorem pieces_ys (ptr n : Nat) : pieces ptr (ys n) = [⟨ptr, ys n⟩] := by
  induction n generalizing ptr with
  | zero => rfl
  | succ n ih =>
    have : ys (n + 1) = 'y' :: ys n := rfl
    rw [this, pieces, if_neg (by decide), ih]

theorem costs_single_ys (p : Profile) (ptr n : Nat) :
    Costs (2 ^ ((n + 1) / 2)) (decomposeSingleT p ⟨ptr, ys (n + 1)⟩) (decomposeSingle p ⟨ptr, ys (n + 1)⟩) := by
  have hs : simpleCmevlaCheck ⟨ptr, ys (n + 1)⟩ = false := by
    unfold simpleCmevlaCheck
    have : (ys (n + 1)).reverse.find? (fun c => c != ',') = some 'y' := by
      rw [List.reverse_replicate, List.replicate_succ]
      exact List.find?_cons_of_pos (by decide)
    simp only [this]
    decide
  unfold decomposeSingleT decomposeSingle
  rw [hs]
  refine Costs.bind (k' := 0) ?_ fun a _ => costs_afterLoop p ptr a
  refine Costs.bind (k' := 0) ?_ fun a _ => ?_
  · refine (costs_cmavo ptr n).bind (k' := 0) fun a _ => ?_
    cases a with
    | none => exact costs_rule _ _
    | some _ => exact costs_pure _
  · cases a with
    | none => exact costs_pure _
    | some a => exact costs_fallLoop _ _ _ _ _ _

theorem costs_next_ys (p : Profile) (ptr n : Nat) :
    Costs (2 ^ ((n + 1) / 2)) ((decompose ⟨ptr, ys (n + 1)⟩).nextT p) ((decompose ⟨ptr, ys (n + 1)⟩).next p) := by
  unfold Decomposer.nextT Decomposer.next
  have h : decompose ⟨ptr, ys (n + 1)⟩ = ⟨none, [⟨ptr, ys (n + 1)⟩], [], ⟨ptr, ys (n + 1)⟩⟩ := by
    unfold decompose Decomposer.new
    rw [pieces_ys]
  have hc : (decompose ⟨ptr, ys (n + 1)⟩).chunksFind =
      (some ⟨ptr, ys (n + 1)⟩, ⟨none, [], [], ⟨ptr, ys (n + 1)⟩⟩) := by
    rw [h]
    have : Decomposer.wantedChunk ⟨ptr, ys (n + 1)⟩ = true := by
      simp [Decomposer.wantedChunk, Str.isEmpty, List.replicate_succ]
    simp [Decomposer.chunksFind, Decomposer.findSplit, this]
  unfold Decomposer.nextLoopT Decomposer.nextLoop
  rw [hc, h]
  refine ((costs_lift _).bind (k' := 2 ^ ((n + 1) / 2)) fun _ _ => ?_).mono (by omega)
  refine ((costs_lift _).bind (k' := 2 ^ ((n + 1) / 2)) fun _ _ => ?_).mono (by omega)
  exact ((costs_single_ys p ptr n).bind (k' := 0) fun _ _ => (costs_lift _).bind0 fun _ _ => costs_nextLoop _ _ _).mono (by omega)

theorem costs_decompose_ys (p : Profile) (ptr n : Nat) :
    Costs (2 ^ ((n + 1) / 2)) (decomposeAllT p ⟨ptr, ys (n + 1)⟩) (decomposeAll p ⟨ptr, ys (n + 1)⟩) := by
  unfold decomposeAllT decomposeAll
  refine (costs_next_ys p ptr n).bind (k' := 0) fun a _ => ?_
  obtain ⟨w, d'⟩ := a
  cases w with
  | none => exact costs_pure _
  | some w => exact (costs_collectWords p _ _).bind0 fun _ _ => costs_pure _

theorem costs_lex_ys (p : Profile) (ptr n : Nat) :
    Costs (2 ^ ((n + 1) / 2)) (lexAllT p ⟨ptr, ys (n + 1)⟩) (lexAll p ⟨ptr, ys (n + 1)⟩) := by
  unfold lexAllT lexAll
  refine Costs.bind (k' := 0) ?_ fun a _ => ?_
  · unfold Lexer.nextT Lexer.next
    refine Costs.bind (k' := 0) (costs_next_ys p ptr n) fun a _ => ?_
    obtain ⟨w, ws⟩ := a
    cases w with
    | none => exact costs_pure _
    | some w =>
      refine (costs_lift _).bind0 fun _ _ => (costs_classify _).bind0 fun c _ => ?_
      obtain ⟨selmaho, experimental⟩ := c
      refine .ite ?_ (.ite (costs_pure _) (.ite (costs_pure _) (costs_pure _)))
      refine (costs_next _ _).bind0 fun b _ => ?_
      obtain ⟨v, vs⟩ := b
      cases v <;> exact costs_pure _
  · obtain ⟨w, l'⟩ := a
    cases w with
    | none => exact costs_pure _
    | some w => exact (costs_collectItems p _ _).bind0 fun _ _ => costs_pure _

end Sneturfahi
