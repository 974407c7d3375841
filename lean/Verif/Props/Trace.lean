import Verif.Proof.Cost
import Verif.Props.Lex
import Verif.Props.Rules

/-!
# Properties of rule tracing (C44) and the work done by the rules (C55)
-/

namespace Sneturfahi.Props

open Spec

/-- **C44.** Call any rule function on any text, with the nesting level and the messages at anything: it returns (in
particular `checked_sub(1).unwrap()` does not panic) what it returns without tracing, the level is what it was before,
and the messages written are well nested.  While it runs the level rises by at most the bound on the depth of calls,
so it does not overflow. -/
theorem C44_balanced (rule : Rule) (s : Str) (level : Nat) (log : List TraceMsg) :
    ∃ res msgs, runRule rule s = .val res ∧ runRuleT rule s ⟨level, log⟩ = .val (res, ⟨level, log ++ msgs⟩) ∧
      Nested level msgs ∧ ∀ m ∈ msgs, m.width < 2 * (level + 128 * (s.chars.length + 1)) := by
  obtain ⟨res, hr⟩ := C06_runRule_total rule s
  obtain ⟨msgs, hg, hm⟩ := erases_rule (ruleFuel s) rule s ⟨level, log⟩
  have hr' : evalRule grammar (ruleFuel s) rule s = .val res := hr
  rw [hr'] at hm
  exact ⟨res, msgs, hr, hm, hg.1, hg.2⟩

/-- Run several rules one after another, as the decomposer and the classifier do. -/
def runAllT : List (Rule × Str) → Traced (List ParseRes)
  | [] => pure []
  | (rule, s) :: calls => do
    let res ← runRuleT rule s
    let rest ← runAllT calls
    pure (res :: rest)

/-- Hence any number of calls, one after another, starting at level zero, end at level zero without a panic. -/
theorem C44_sequence (calls : List (Rule × Str)) (level : Nat) (log : List TraceMsg) :
    ∃ results msgs, runAllT calls ⟨level, log⟩ = .val (results, ⟨level, log ++ msgs⟩) ∧ Nested level msgs ∧
      results.map Exec.val = calls.map (fun c => runRule c.1 c.2) := by
  induction calls generalizing log with
  | nil => exact ⟨[], [], by simp [runAllT, pure], .nil, rfl⟩
  | cons c calls ih =>
    obtain ⟨rule, s⟩ := c
    obtain ⟨res, m1, h1, h2, h3, _⟩ := C44_balanced rule s level log
    obtain ⟨results, m2, h4, h5, h6⟩ := ih (log ++ m1)
    refine ⟨res :: results, m1 ++ m2, ?_, h3.append h5, by simp [h1, h6]⟩
    unfold runAllT
    rw [traced_bind, h2]
    simp only
    rw [traced_bind, h4]
    simp [pure]

/-- The messages of a rule marked `#[debug_rule]` begin with its entry and end with its exit, which tells whether it
succeeded. -/
theorem C44_reported (rule : Rule) (hr : rule.traced = true) (s : Str) (level : Nat) :
    ∃ res inner, runRule rule s = .val res ∧
      runRuleT rule s ⟨level, []⟩ =
        .val (res, ⟨level, .entering (level * 2) rule :: (inner ++ [.exiting (level * 2) rule res.isSome])⟩) ∧
      Nested (level + 1) inner := by
  obtain ⟨res, hres⟩ := C06_runRule_total rule s
  obtain ⟨fuel, hf⟩ : ∃ fuel, ruleFuel s = fuel + 1 := ⟨128 * (s.chars.length + 1) - 1, by unfold ruleFuel; omega⟩
  have h1 : evalRule grammar (fuel + 1) rule s = .val res := by rw [← hf]; exact hres
  unfold evalRule at h1
  obtain ⟨msgs, hg, hm⟩ := erases_exp (erases_rule fuel) (grammar rule) s ⟨level + 1, [.entering (level * 2) rule]⟩
  rw [h1] at hm
  refine ⟨res, msgs, hres, ?_, hg.1⟩
  unfold runRuleT
  rw [hf]
  unfold evalRuleT
  rw [if_pos hr]
  unfold debugRule
  rw [traced_bind]
  simp only [debugRuleStart, List.nil_append]
  rw [traced_bind, hm]
  simp only [Exec.map]
  rw [traced_bind]
  simp [debugRuleEnd, pure]

example : runRuleT .nucleus ⟨0, c!"ai"⟩ ⟨3, []⟩ = .val (some (⟨0, c!"ai"⟩, ⟨2, []⟩), ⟨3, [
    .entering 6 .nucleus,
    .entering 8 .vowel, .entering 10 .nucleus, .entering 12 .vowel, .entering 14 .nucleus, .entering 16 .vowel,
    .exiting 16 .vowel false, .entering 16 .diphthong, .exiting 16 .diphthong false, .exiting 14 .nucleus false,
    .exiting 12 .vowel true, .exiting 10 .nucleus true, .exiting 8 .vowel false,
    .entering 8 .diphthong, .entering 10 .nucleus, .entering 12 .vowel, .exiting 12 .vowel false,
    .entering 12 .diphthong, .exiting 12 .diphthong false, .exiting 10 .nucleus false, .exiting 8 .diphthong true,
    .exiting 6 .nucleus true]⟩) := by decide +kernel

/-- `decompose`, with tracing: for every text below 4 GiB it yields the words it yields without tracing, leaves the
level as it was, and the messages are well nested. -/
theorem C44_decompose (p : Profile) (input : Str) (h : input.len < 2 ^ 32) (level : Nat) (log : List TraceMsg) :
    ∃ words msgs, decomposeAll p input = .val words ∧
      decomposeAllT p input ⟨level, log⟩ = .val (words, ⟨level, log ++ msgs⟩) ∧ Nested level msgs := by
  obtain ⟨words, hw⟩ := C20_terminates input h
  obtain ⟨msgs, hn, _, hm⟩ := costs_collectWords p (input.chars.length + 1) (decompose input) ⟨level, log⟩
  have h1 : collectWords p (input.chars.length + 1) (decompose input) = .val words := (hw p).1
  rw [h1] at hm
  exact ⟨words, msgs, (hw p).1, hm, hn⟩

/-- `Selmaho::classify`, with tracing. -/
theorem C44_classify (word : Str) (level : Nat) (log : List TraceMsg) :
    ∃ res msgs, classify word = .val res ∧ classifyT word ⟨level, log⟩ = .val (res, ⟨level, log ++ msgs⟩) ∧ Nested level msgs := by
  obtain ⟨res, hr⟩ : ∃ res, classify word = .val res := ⟨_, classify_eq word⟩
  obtain ⟨msgs, hn, _, hm⟩ := costs_classify word ⟨level, log⟩
  rw [hr] at hm
  exact ⟨res, msgs, hr, hm, hn⟩

/-- `lex`, with tracing. -/
theorem C44_lex (p : Profile) (input : Str) (h : input.len < 2 ^ 32) (level : Nat) (log : List TraceMsg) :
    ∃ items msgs, lexAll p input = .val items ∧
      lexAllT p input ⟨level, log⟩ = .val (items, ⟨level, log ++ msgs⟩) ∧ Nested level msgs := by
  obtain ⟨items, hi⟩ := C33_terminates input h
  obtain ⟨msgs, hn, _, hm⟩ := costs_collectItems p (2 * input.chars.length + 3) (lex input) ⟨level, log⟩
  have h1 : collectItems p (2 * input.chars.length + 3) (lex input) = .val items := (hi p).1
  rw [h1] at hm
  exact ⟨items, msgs, (hi p).1, hm, hn⟩

/-- How many messages are written, if it returns. -/
def messages {α : Type} (t : Traced α) : Option Nat :=
  match t ⟨0, []⟩ with
  | .val (_, st) => some st.log.length
  | _ => none

example : messages (decomposeAllT .debug ⟨0, c!"3"⟩) = some 588 := by decide +kernel

/-! ### C55: the work done by the rules

Every call of a rule marked `#[debug_rule]` writes two messages, so the number of messages is a lower bound of the number
of calls made. -/

theorem byteLen_ys (n : Nat) : byteLen (List.replicate n 'y') = n := by
  induction n with
  | zero => rfl
  | succ n ih => rw [List.replicate_succ, byteLen, ih, show ('y' : Char).utf8Size = 1 from by decide]; omega

/-- Splitting `n` letters `y` into words writes at least `2 ^ (n / 2)` messages, that is, makes half as many calls of rule
functions. -/
theorem C55_decompose_exponential (p : Profile) (ptr n : Nat) (h0 : 0 < n) (h : n < 2 ^ 32) :
    ∃ words msgs, decomposeAllT p ⟨ptr, List.replicate n 'y'⟩ ⟨0, []⟩ = .val (words, ⟨0, msgs⟩) ∧ 2 ^ (n / 2) ≤ msgs.length := by
  obtain ⟨n, rfl⟩ : ∃ k, n = k + 1 := ⟨n - 1, by omega⟩
  obtain ⟨words, hw⟩ := C20_terminates ⟨ptr, List.replicate (n + 1) 'y'⟩ (by simp only [Str.len, byteLen_ys]; exact h)
  obtain ⟨msgs, _, hl, hm⟩ := costs_decompose_ys p ptr n ⟨0, []⟩
  rw [(hw p).1] at hm
  exact ⟨words, msgs, by simpa [Exec.map] using hm, hl words (hw p).1⟩

/-- So does lexing them. -/
theorem C55_lex_exponential (p : Profile) (ptr n : Nat) (h0 : 0 < n) (h : n < 2 ^ 32) :
    ∃ items msgs, lexAllT p ⟨ptr, List.replicate n 'y'⟩ ⟨0, []⟩ = .val (items, ⟨0, msgs⟩) ∧ 2 ^ (n / 2) ≤ msgs.length := by
  obtain ⟨n, rfl⟩ : ∃ k, n = k + 1 := ⟨n - 1, by omega⟩
  obtain ⟨words, hw⟩ := C33_terminates ⟨ptr, List.replicate (n + 1) 'y'⟩ (by simp only [Str.len, byteLen_ys]; exact h)
  obtain ⟨msgs, _, hl, hm⟩ := costs_lex_ys p ptr n ⟨0, []⟩
  rw [(hw p).1] at hm
  exact ⟨words, msgs, by simpa [Exec.map] using hm, hl words (hw p).1⟩

/-- And classifying them as one word, if they are more than sixteen. -/
theorem C55_classify_exponential (ptr n : Nat) (h : 17 ≤ n) :
    ∃ res msgs, classifyT ⟨ptr, List.replicate n 'y'⟩ ⟨0, []⟩ = .val (res, ⟨0, msgs⟩) ∧ 2 ^ (n / 2) ≤ msgs.length := by
  obtain ⟨n, rfl⟩ : ∃ k, n = k + 1 := ⟨n - 1, by omega⟩
  have hc : Costs (2 ^ ((n + 1) / 2)) (classifyT ⟨ptr, ys (n + 1)⟩) (classify ⟨ptr, ys (n + 1)⟩) := by
    have hd : directText (ys (n + 1)) = none := by
      have ht : tableText (ys (n + 1)) = ys (n + 1) := by
        rw [tableText, noCommas, List.filter_replicate, if_pos (by decide), List.map_replicate]; rfl
      simp only [directText, ht, byteLen_ys, if_pos (show 16 < n + 1 by omega)]
    unfold classifyT classify
    refine ((costs_lift _).bind (k' := 2 ^ ((n + 1) / 2)) fun direct hdir => ?_).mono (by omega)
    rw [transform_eq] at hdir
    rw [hd] at hdir
    cases hdir
    exact ((costs_general_ys ptr n).bind (k' := 0) fun _ _ => (costs_pure _).bind0 fun a _ => costs_pure _)
  obtain ⟨msgs, _, hl, hm⟩ := hc ⟨0, []⟩
  rw [C18_long_hesitation ptr (n + 1) h] at hm hl
  exact ⟨_, msgs, by simpa [Exec.map] using hm, hl _ rfl⟩

theorem square_le_pow (j : Nat) (h : 4 ≤ j) : j * j ≤ 2 ^ j := by
  induction j with
  | zero => omega
  | succ j ih =>
    by_cases hj : j = 3
    · subst hj; decide
    · have := ih (by omega)
      have h1 : 2 ^ (j + 1) = 2 * 2 ^ j := by rw [Nat.pow_succ]; omega
      have h2 : (j + 1) * (j + 1) = j * j + 2 * j + 1 := by rw [Nat.add_mul, Nat.mul_add]; omega
      have h3 : 4 * j ≤ j * j := Nat.mul_le_mul_right j (by omega)
      omega

theorem exponential_beats (c k : Nat) : ∃ m, 9 ≤ m ∧ c * (2 * m + 1) ^ k < 2 ^ m := by
  let j := c + 2 * (k + 1) + 9
  have hj : 2 * ((k + 1) * j) + 1 ≤ 2 ^ j := by
    refine Nat.le_trans ?_ (square_le_pow j (by omega))
    have : (2 * (k + 1) + 1) * j ≤ j * j := Nat.mul_le_mul_right j (by omega)
    have h2 : (2 * (k + 1) + 1) * j = 2 * ((k + 1) * j) + j := by rw [Nat.add_mul, Nat.mul_assoc]; omega
    omega
  refine ⟨(k + 1) * j, ?_, ?_⟩
  · have : 1 * j ≤ (k + 1) * j := Nat.mul_le_mul_right j (by omega)
    omega
  · have h1 : (2 * ((k + 1) * j) + 1) ^ k ≤ (2 ^ j) ^ k := Nat.pow_le_pow_left hj k
    have h2 : c < 2 ^ j := Nat.lt_of_le_of_lt (by omega : c ≤ j) Nat.lt_two_pow_self
    calc c * (2 * ((k + 1) * j) + 1) ^ k ≤ c * (2 ^ j) ^ k := Nat.mul_le_mul_left c h1
      _ < 2 ^ j * (2 ^ j) ^ k := Nat.mul_lt_mul_of_pos_right h2 (Nat.pow_pos (Nat.two_pow_pos j))
      _ = 2 ^ ((k + 1) * j) := by rw [Nat.mul_comm, ← Nat.pow_succ, ← Nat.pow_mul, Nat.mul_comm]

/-- **C55.** No polynomial in the length of a word bounds the number of rule calls `Selmaho::classify` makes. -/
theorem C55_no_polynomial (c k : Nat) : ∃ word : Str, ∃ res msgs,
    classifyT word ⟨0, []⟩ = .val (res, ⟨0, msgs⟩) ∧ c * (word.chars.length + 1) ^ k < msgs.length := by
  obtain ⟨m, h9, hm⟩ := exponential_beats c k
  obtain ⟨res, msgs, h1, h2⟩ := C55_classify_exponential 0 (2 * m) (by omega)
  refine ⟨_, res, msgs, h1, Nat.lt_of_lt_of_le ?_ h2⟩
  simpa using hm

end Sneturfahi.Props
