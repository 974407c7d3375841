import Verif.Proof.Program

/-!
# C96: the command line program from standard input to standard output
-/

namespace Sneturfahi.Props

open Spec

theorem asks_iff (args : Args) : (!(args.decompose || args.lex || args.cst)) = false ↔ Args.Asks args := by
  unfold Args.Asks
  cases args.decompose <;> cases args.lex <;> cases args.cst <;> simp

theorem program_asks (p : Profile) (args : Args) (h : Args.Asks args) (s : Surroundings) (terminal : Bool) (stdin : List Char) :
    program p args s terminal stdin = repl p args s terminal stdin := by
  unfold program
  rw [(asks_iff args).mpr h]
  rfl

/-- **C96.** Without any of the three switches the program reads nothing and prints only a message on standard error. -/
theorem C96_no_switch (p : Profile) (args : Args) (h : ¬ Args.Asks args) (s : Surroundings) (terminal : Bool) (stdin : List Char) :
    program p args s terminal stdin = .val ⟨[], c!"At least one of `--decompose`, `--lex`, `--cst` is required.\n"⟩ := by
  have : (!(args.decompose || args.lex || args.cst)) = true := by
    cases hb : (!(args.decompose || args.lex || args.cst)) with
    | true => rfl
    | false => exact absurd ((asks_iff args).mp hb) h
  unfold program
  rw [this]
  rfl

/-- If standard input is not a terminal, it is one text: what is printed for it, and nothing on standard error. -/
theorem program_pipe (p : Profile) (args : Args) (ha : Args.Asks args) (s : Surroundings) (stdin t : List Char)
    (ht : Trimmed stdin t) (h : byteLen t < 2 ^ 32) :
    program p args s false stdin = ((fun out => Streams.mk out []) <$> handle .debug args s ⟨0, t⟩) := by
  rw [program_asks p args ha]
  unfold repl
  have h1 : Str.trim ⟨s.bufferAt stdin, stdin⟩ = ⟨(Str.trim ⟨s.bufferAt stdin, stdin⟩).ptr, t⟩ := by
    rw [← trim_of ht (s.bufferAt stdin)]
  simp only [Bool.false_eq_true, if_false]
  rw [h1, handle_addr p .debug args s s ⟨rfl, rfl, rfl, rfl⟩ _ 0 t h]
  cases handle .debug args s ⟨0, t⟩ <;> rfl

theorem replLoop_line (p : Profile) (args : Args) (s : Surroundings) (l rest : List Char) (hl : '\n' ∉ l)
    (h : byteLen l < 2 ^ 32) (fuel : Nat) (t : List Char) (ht : Trimmed l t) :
    replLoop p args s (fuel + 1) (l ++ '\n' :: rest) =
      (handle .debug args s ⟨0, t⟩ >>= fun out => replLoop p args s fuel rest >>= fun more =>
        pure ⟨out ++ more.stdout, c!"> " ++ more.stderr⟩) := by
  have ht' : Trimmed (l ++ ['\n']) t := by
    obtain ⟨a, b, h1, h2, h3, h4⟩ := ht
    refine ⟨a, b ++ ['\n'], by rw [h1]; simp, h2, ?_, h4⟩
    intro c hc
    rcases List.mem_append.mp hc with hc | hc
    · exact h3 c hc
    · obtain rfl := List.mem_singleton.mp hc
      decide
  have hb : byteLen t < 2 ^ 32 := Nat.lt_of_le_of_lt (byteLen_trimmed ht) h
  rw [replLoop]
  simp only [readLine_newline l rest hl]
  rw [if_neg (by simp)]
  have h1 : ∀ n, Str.trim ⟨n, l ++ ['\n']⟩ = ⟨(Str.trim ⟨n, l ++ ['\n']⟩).ptr, t⟩ := by
    intro n
    rw [← trim_of ht' n]
  rw [h1, handle_addr p .debug args s s ⟨rfl, rfl, rfl, rfl⟩ _ 0 t hb]

theorem replLoop_last (p : Profile) (args : Args) (s : Surroundings) (l : List Char) (hl : '\n' ∉ l) (hne : l ≠ [])
    (h : byteLen l < 2 ^ 32) (fuel : Nat) (t : List Char) (ht : Trimmed l t) :
    replLoop p args s (fuel + 2) l = ((fun out => Streams.mk out c!"> > ") <$> handle .debug args s ⟨0, t⟩) := by
  have hb : byteLen t < 2 ^ 32 := Nat.lt_of_le_of_lt (byteLen_trimmed ht) h
  rw [replLoop]
  simp only [readLine_last l hl]
  rw [if_neg (by simpa using hne)]
  have h1 : ∀ n, Str.trim ⟨n, l⟩ = ⟨(Str.trim ⟨n, l⟩).ptr, t⟩ := by
    intro n
    rw [← trim_of ht n]
  rw [h1, handle_addr p .debug args s s ⟨rfl, rfl, rfl, rfl⟩ _ 0 t hb]
  cases handle .debug args s ⟨0, t⟩ with
  | panic => rfl
  | diverge => rfl
  | val out =>
    simp only [Exec.val_bind, Exec.map_val]
    rw [replLoop]
    simp [readLine]

theorem replLoop_nil (p : Profile) (args : Args) (s : Surroundings) (fuel : Nat) :
    replLoop p args s (fuel + 1) [] = .val ⟨[], c!"> "⟩ := by
  rw [replLoop]
  simp [readLine]

/-- The program comes to an end without panic, at a terminal or not, whatever is typed, as long as no text has 4 GiB. -/
theorem C96_total (p : Profile) (args : Args) (s : Surroundings) (terminal : Bool) (stdin : List Char) (h : WithinLimit terminal stdin) :
    ∃ out, program p args s terminal stdin = .val out := by
  by_cases ha : Args.Asks args
  · cases terminal with
    | false =>
      have hb : byteLen stdin < 2 ^ 32 := h
      obtain ⟨out, ho⟩ := handle_ok .debug args s ⟨0, (Str.trim ⟨0, stdin⟩).chars⟩
        (Nat.lt_of_le_of_lt (byteLen_trimmed (trimmed_exists stdin)) hb)
      rw [program_pipe p args ha s stdin _ (trimmed_exists stdin) (Nat.lt_of_le_of_lt (byteLen_trimmed (trimmed_exists stdin)) hb), ho]
      exact ⟨_, rfl⟩
    | true =>
      rw [program_asks p args ha]
      have key : ∀ (n : Nat) (stdin : List Char), stdin.length ≤ n → WithinLimit true stdin →
          ∃ out, replLoop p args s (stdin.length + 1) stdin = .val out := by
        intro n
        induction n with
        | zero =>
          intro stdin hn _
          obtain rfl : stdin = [] := List.length_eq_zero_iff.mp (by omega)
          exact ⟨_, rfl⟩
        | succ n ih =>
          intro stdin hn hf
          by_cases hne : stdin = []
          · subst hne
            exact ⟨_, rfl⟩
          rcases line_cases stdin with hl | ⟨l, rest, rfl, hl⟩
          · have hb : byteLen stdin < 2 ^ 32 := hf [] stdin [] (by simp) hl
            obtain ⟨out, ho⟩ := handle_ok .debug args s ⟨0, (Str.trim ⟨0, stdin⟩).chars⟩
              (Nat.lt_of_le_of_lt (byteLen_trimmed (trimmed_exists stdin)) hb)
            have := List.length_pos_iff.mpr hne
            obtain ⟨k, hk⟩ : ∃ k, stdin.length + 1 = k + 2 := ⟨stdin.length - 1, by omega⟩
            rw [hk, replLoop_last p args s stdin hl hne hb k _ (trimmed_exists stdin), ho]
            exact ⟨_, rfl⟩
          · have hb : byteLen l < 2 ^ 32 := hf [] l ('\n' :: rest) (by simp) hl
            obtain ⟨out, ho⟩ := handle_ok .debug args s ⟨0, (Str.trim ⟨0, l⟩).chars⟩
              (Nat.lt_of_le_of_lt (byteLen_trimmed (trimmed_exists l)) hb)
            simp only [List.length_append, List.length_cons] at hn
            obtain ⟨more, hm⟩ := ih rest (by omega) (by
              intro a line b hr hnl
              exact hf (l ++ '\n' :: a) line b (by rw [hr]; simp) hnl)
            rw [replLoop_line p args s l rest hl hb _ _ (trimmed_exists l), ho, Exec.val_bind,
              replLoop_fuel p args s rest.length rest _ (rest.length + 1) (Nat.le_refl _) (by simp; omega) (by omega), hm]
            exact ⟨_, rfl⟩
      exact key stdin.length stdin (Nat.le_refl _) h
  · exact ⟨_, C96_no_switch p args ha s terminal stdin⟩

/-- What is printed when standard input is not a terminal is what `C56_prints` says about the text without the white
space around it, written out; ranges count from the first character that is not white space. -/
theorem C96_pipe (p : Profile) (args : Args) (ha : Args.Asks args) (s : Surroundings) (stdin t : List Char)
    (ht : Trimmed stdin t) (h : byteLen t < 2 ^ 32) :
    ∃ outs, Prints args ⟨0, t⟩ 0 outs ∧
      program p args s false stdin = .val ⟨outs.flatMap (Output.text s (s.arena t)), []⟩ := by
  obtain ⟨outs, h1, h2⟩ := C56_prints args 0 ⟨0, t⟩ h
  refine ⟨outs, h2, ?_⟩
  rw [program_pipe p args ha s stdin t ht h, handle_addr .debug .debug args s
    ⟨s.plain, s.reason, s.emptied, s.arena, fun _ => 0, fun _ => 0⟩ ⟨rfl, rfl, rfl, rfl⟩ 0 0 t h]
  unfold handle
  rw [h1]
  simp only [Exec.val_bind, Exec.pure_eq, Exec.map_val]
  congr 2

/-- White space around the text makes no difference. -/
theorem C96_white_space (p : Profile) (args : Args) (s : Surroundings) (a t b : List Char) (ha : ∀ c ∈ a, c ∈ whiteSpace)
    (hb : ∀ c ∈ b, c ∈ whiteSpace) (h : byteLen t < 2 ^ 32) :
    program p args s false (a ++ t ++ b) = program p args s false t := by
  by_cases hk : Args.Asks args
  · have ht := trimmed_exists t
    have ht' : Trimmed (a ++ t ++ b) (Str.trim ⟨0, t⟩).chars := by
      obtain ⟨x, y, h1, h2, h3, h4⟩ := ht
      refine ⟨a ++ x, y ++ b, ?_, ?_, ?_, h4⟩
      · rw (occs := [1]) [h1]
        simp only [List.append_assoc]
      · intro c hc
        rcases List.mem_append.mp hc with hc | hc
        · exact ha c hc
        · exact h2 c hc
      · intro c hc
        rcases List.mem_append.mp hc with hc | hc
        · exact h3 c hc
        · exact hb c hc
    have hlen := Nat.lt_of_le_of_lt (byteLen_trimmed ht) h
    rw [program_pipe p args hk s _ _ ht' hlen, program_pipe p args hk s _ _ ht hlen]
  · rw [C96_no_switch p args hk, C96_no_switch p args hk]

/-- At a terminal every line is a text of its own: a session prints what the program prints for its lines given one at a
time, in order, and a prompt before each line and at the end. -/
theorem C96_session (p : Profile) (args : Args) (ha : Args.Asks args) (s : Surroundings) :
    program p args s true [] = .val ⟨[], c!"> "⟩ ∧
    (∀ line, '\n' ∉ line → line ≠ [] → byteLen line < 2 ^ 32 → ∀ out, program p args s false line = .val ⟨out, []⟩ →
      program p args s true line = .val ⟨out, c!"> > "⟩) ∧
    (∀ line rest, '\n' ∉ line → byteLen line < 2 ^ 32 → ∀ out outs errs, program p args s false line = .val ⟨out, []⟩ →
      program p args s true rest = .val ⟨outs, errs⟩ →
      program p args s true (line ++ '\n' :: rest) = .val ⟨out ++ outs, c!"> " ++ errs⟩) := by
  refine ⟨?_, ?_, ?_⟩
  · rw [program_asks p args ha]
    rfl
  · intro line hl hne hb out ho
    have ht := trimmed_exists line
    rw [program_pipe p args ha s line _ ht (Nat.lt_of_le_of_lt (byteLen_trimmed ht) hb)] at ho
    rw [program_asks p args ha]
    have := List.length_pos_iff.mpr hne
    obtain ⟨k, hk⟩ : ∃ k, line.length + 1 = k + 2 := ⟨line.length - 1, by omega⟩
    unfold repl
    simp only [if_true]
    rw [hk, replLoop_last p args s line hl hne hb k _ ht]
    cases hh : handle .debug args s ⟨0, (Str.trim ⟨0, line⟩).chars⟩ with
    | panic => rw [hh] at ho; cases ho
    | diverge => rw [hh] at ho; cases ho
    | val o =>
      rw [hh] at ho
      cases ho
      rfl
  · intro line rest hl hb out outs errs ho hr
    have ht := trimmed_exists line
    rw [program_pipe p args ha s line _ ht (Nat.lt_of_le_of_lt (byteLen_trimmed ht) hb)] at ho
    rw [program_asks p args ha] at hr ⊢
    unfold repl at hr ⊢
    simp only [if_true] at hr ⊢
    rw [replLoop_line p args s line rest hl hb _ _ ht]
    cases hh : handle .debug args s ⟨0, (Str.trim ⟨0, line⟩).chars⟩ with
    | panic => rw [hh] at ho; cases ho
    | diverge => rw [hh] at ho; cases ho
    | val o =>
      rw [hh] at ho
      cases ho
      rw [Exec.val_bind, replLoop_fuel p args s rest.length rest _ (rest.length + 1) (Nat.le_refl _) (by simp; omega) (by omega), hr]
      rfl

/-- The streams do not depend on the build profile nor on where the program keeps things in memory. -/
theorem C96_addresses (p p' : Profile) (args : Args) (s s' : Surroundings) (hs : SameButAddresses s s') (terminal : Bool)
    (stdin : List Char) (h : WithinLimit terminal stdin) :
    program p args s terminal stdin = program p' args s' terminal stdin := by
  by_cases ha : Args.Asks args
  · have hp : ∀ p p' t, byteLen t < 2 ^ 32 → handle p args s ⟨0, t⟩ = handle p' args s' ⟨0, t⟩ :=
      fun p p' t ht => handle_addr p p' args s s' hs 0 0 t ht
    cases terminal with
    | false =>
      have ht := trimmed_exists stdin
      have hb := Nat.lt_of_le_of_lt (byteLen_trimmed ht) (h : byteLen stdin < 2 ^ 32)
      rw [program_pipe p args ha s stdin _ ht hb, program_pipe p' args ha s' stdin _ ht hb, hp .debug .debug _ hb]
    | true =>
      rw [program_asks p args ha, program_asks p' args ha]
      have key : ∀ (n : Nat) (stdin : List Char), stdin.length ≤ n → WithinLimit true stdin →
          replLoop p args s (stdin.length + 1) stdin = replLoop p' args s' (stdin.length + 1) stdin := by
        intro n
        induction n with
        | zero =>
          intro stdin hn _
          obtain rfl : stdin = [] := List.length_eq_zero_iff.mp (by omega)
          rw [replLoop_nil, replLoop_nil]
        | succ n ih =>
          intro stdin hn hf
          by_cases hne : stdin = []
          · subst hne
            rw [replLoop_nil, replLoop_nil]
          rcases line_cases stdin with hl | ⟨l, rest, rfl, hl⟩
          · have hb : byteLen stdin < 2 ^ 32 := hf [] stdin [] (by simp) hl
            have ht := trimmed_exists stdin
            have := List.length_pos_iff.mpr hne
            obtain ⟨k, hk⟩ : ∃ k, stdin.length + 1 = k + 2 := ⟨stdin.length - 1, by omega⟩
            rw [hk, replLoop_last p args s stdin hl hne hb k _ ht, replLoop_last p' args s' stdin hl hne hb k _ ht,
              hp .debug .debug _ (Nat.lt_of_le_of_lt (byteLen_trimmed ht) hb)]
          · have hb : byteLen l < 2 ^ 32 := hf [] l ('\n' :: rest) (by simp) hl
            have ht := trimmed_exists l
            simp only [List.length_append, List.length_cons] at hn
            have hm := ih rest (by omega) (by
              intro a line b hr hnl
              exact hf (l ++ '\n' :: a) line b (by rw [hr]; simp) hnl)
            rw [replLoop_line p args s l rest hl hb _ _ ht, replLoop_line p' args s' l rest hl hb _ _ ht,
              hp .debug .debug _ (Nat.lt_of_le_of_lt (byteLen_trimmed ht) hb),
              replLoop_fuel p args s rest.length rest _ (rest.length + 1) (Nat.le_refl _) (by simp; omega) (by omega),
              replLoop_fuel p' args s' rest.length rest _ (rest.length + 1) (Nat.le_refl _) (by simp; omega) (by omega), hm]
      exact key stdin.length stdin (Nat.le_refl _) h
  · rw [C96_no_switch p args ha, C96_no_switch p' args ha]

/-! Concrete cases. -/

/-- Surroundings for the examples. -/
def plainSurroundings : Surroundings := ⟨fun _ => true, [], fun _ => [], fun t => 100 * t.length, fun _ => 7, fun _ => 9⟩

example : Trimmed c!" \u2003coi munje\n" c!"coi munje" :=
  ⟨c!" \u2003", c!"\n", by decide, by decide, by decide, by decide, by decide⟩
example : Args.Asks ⟨true, false, false, false⟩ := .inl rfl
example : WithinLimit false c!"coi\nmunje" := by
  show byteLen c!"coi\nmunje" < 2 ^ 32
  decide
example : WithinLimit true c!"coi\nmunje" := by
  intro a line b h _
  have : byteLen c!"coi\nmunje" = byteLen a + byteLen line + byteLen b := by
    rw [h, byteLen_append, byteLen_append]
  have h9 : byteLen c!"coi\nmunje" = 9 := by decide
  omega
example : program .debug ⟨true, false, false, false⟩ plainSurroundings false c!" coi munje\n" =
    .val ⟨c!"Decomposed: [\"coi\" @ 0..3, \"munje\" @ 4..9]\n", []⟩ := by decide +kernel
example : program .debug ⟨true, true, false, false⟩ plainSurroundings true c!"coi\nzoi" =
    .val ⟨c!"Decomposed: [\"coi\" @ 0..3]\nLexed: [COI(\"coi\" @ 0..3)]\nDecomposed: [\"zoi\" @ 0..3]\nLexing error: DelimitedQuoteMissingSeparator { initiator_span: 0..3 }\n",
      c!"> > > "⟩ := by decide +kernel
example : program .release ⟨false, false, true, true⟩ plainSurroundings false c!"\tmi klama " =
    .val ⟨c!"Sentence @ 0..8 \"mi klama\"\n  KOhA @ 0..2 \"mi\"\n  gismu @ 3..8 \"klama\"\nsize of CST arena: 800\n", []⟩ := by decide +kernel
example : program .debug ⟨false, false, false, true⟩ plainSurroundings false c!"coi" =
    .val ⟨[], c!"At least one of `--decompose`, `--lex`, `--cst` is required.\n"⟩ :=
  C96_no_switch _ _ (by unfold Args.Asks; decide) _ _ _

end Sneturfahi.Props
