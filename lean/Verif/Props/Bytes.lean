import Verif.Proof.Bytes
import Verif.Props.Program

/-!
# C104: standard input as bytes
-/

namespace Sneturfahi.Props

open Spec Bytes

/-- **C104.** If the bytes of standard input are those of a text, the program does what C96 says about that text, and ends
without panic. -/
theorem C104_text (p : Profile) (args : Args) (s : Surroundings) (terminal : Bool) (t : List Char) (out : Streams)
    (h : program p args s terminal t = .val out) : programBytes p args s terminal (encode t) = .val ⟨out, false⟩ := by
  unfold programBytes
  unfold program at h
  split at h
  · rename_i hb
    rw [if_pos hb]
    cases h
    rfl
  · rename_i hb
    rw [if_neg hb]
    unfold repl at h
    unfold replBytes
    cases terminal with
    | false =>
      simp only [Bool.false_eq_true, if_false, from_encode] at h ⊢
      cases hh : handle p args s (Str.trim ⟨s.bufferAt t, t⟩) with
      | val o =>
        rw [hh] at h
        cases h
        rfl
      | panic => rw [hh] at h; cases h
      | diverge => rw [hh] at h; cases h
    | true =>
      simp only [if_true] at h ⊢
      have := loop p args s [] false (loop_nil p args s) (t.length + 1) t (by omega) ((encode t).length + 1) (by simp) (.inl rfl)
      rw [List.append_nil] at this
      rw [this, h]
      rfl

/-- **C104.** From a pipe: if the bytes are not those of a text, the program panics and nothing is printed. -/
theorem C104_pipe (p : Profile) (args : Args) (ha : Args.Asks args) (s : Surroundings) (stdin : List UInt8) (h : ¬ Utf8 stdin) :
    programBytes p args s false stdin = .val ⟨⟨[], []⟩, true⟩ := by
  unfold programBytes replBytes
  rw [(asks_iff args).mpr ha]
  simp only [Bool.false_eq_true, if_false, from_none h]
  rfl

/-- **C104.** At a terminal: the lines before the first one that is no text are handled as in C96, and at that line the
program panics, whatever comes after it. -/
theorem C104_session (p : Profile) (args : Args) (ha : Args.Asks args) (s : Surroundings) (t : List Char) (ht : Complete t)
    (bad rest : List UInt8) (h1 : OneLine bad) (h2 : ¬ Utf8 bad) (h3 : bad.getLast? = some 10 ∨ rest = []) (out : Streams)
    (h : program p args s true t = .val out) : programBytes p args s true (encode t ++ bad ++ rest) = .val ⟨out, true⟩ := by
  unfold programBytes replBytes
  rw [program_asks p args ha] at h
  unfold repl at h
  rw [(asks_iff args).mpr ha]
  simp only [Bool.false_eq_true, if_false, if_true] at h ⊢
  rw [List.append_assoc, loop p args s (bad ++ rest) true (loop_bad p args s bad rest h1 h2 h3) (t.length + 1) t (by omega) _
    (by omega) (.inr ht), h]
  rfl

/-- These are all cases: bytes are those of a text, or of complete lines of text followed by a line that is no text. -/
theorem C104_cases (stdin : List UInt8) : Utf8 stdin ∨
    ∃ t bad rest, stdin = encode t ++ bad ++ rest ∧ Complete t ∧ OneLine bad ∧ ¬ Utf8 bad ∧
      (bad.getLast? = some 10 ∨ rest = []) :=
  split _ stdin (Nat.le_refl _)

theorem encode_length : ∀ t : List Char, (encode t).length = byteLen t
  | [] => rfl
  | c :: t => by
    rw [encode_cons, List.length_append, encode_length t]
    simp [byteLen]

theorem no_newline {t : List Char} (h : '\n' ∉ t) : (10 : UInt8) ∉ encode t := by
  intro hm
  obtain ⟨c, hc, hb⟩ := List.mem_flatMap.mp hm
  exact h (newline_byte hb ▸ hc)

theorem limit_of_bytes {terminal : Bool} {t : List Char} {tail : List UInt8} (h : BytesWithinLimit terminal (encode t ++ tail)) :
    WithinLimit terminal t := by
  cases terminal with
  | false =>
    have h' : (encode t ++ tail).length < 2 ^ 32 := h
    rw [List.length_append, encode_length] at h'
    exact Nat.lt_of_le_of_lt (Nat.le_add_right _ _) h'
  | true =>
    have h' : ∀ a line b, encode t ++ tail = a ++ line ++ b → 10 ∉ line → line.length < 2 ^ 32 := h
    show ∀ a line b, t = a ++ line ++ b → '\n' ∉ line → byteLen line < 2 ^ 32
    intro a line b e hl
    have := h' (encode a) (encode line) (encode b ++ tail) (by rw [e]; simp [encode_append]) (no_newline hl)
    rwa [encode_length] at this

/-- **C104.** Whatever the bytes, the program comes to an end (no text having 4 GiB); and it panics exactly if it was asked
for something and the bytes of standard input are not those of a text. -/
theorem C104_panics (p : Profile) (args : Args) (s : Surroundings) (terminal : Bool) (stdin : List UInt8)
    (h : BytesWithinLimit terminal stdin) :
    ∃ ran, programBytes p args s terminal stdin = .val ran ∧ (ran.panicked = true ↔ Args.Asks args ∧ ¬ Utf8 stdin) := by
  by_cases ha : Args.Asks args
  · by_cases hu : Utf8 stdin
    · obtain ⟨t, rfl⟩ := hu
      obtain ⟨out, ho⟩ := C96_total p args s terminal t (limit_of_bytes (tail := []) (by rwa [List.append_nil]))
      exact ⟨_, C104_text p args s terminal t out ho, by simp, fun h => absurd ⟨t, rfl⟩ h.2⟩
    · cases terminal with
      | false => exact ⟨_, C104_pipe p args ha s stdin hu, by simp [ha, hu]⟩
      | true =>
        rcases C104_cases stdin with h1 | ⟨t, bad, rest, rfl, h1, h2, h3, h4⟩
        · exact absurd h1 hu
        · obtain ⟨out, ho⟩ := C96_total p args s true t (limit_of_bytes (by rwa [List.append_assoc] at h))
          exact ⟨_, C104_session p args ha s t h1 bad rest h2 h3 h4 out ho, fun _ => ⟨ha, hu⟩, fun _ => rfl⟩
  · refine ⟨⟨⟨[], c!"At least one of `--decompose`, `--lex`, `--cst` is required.\n"⟩, false⟩, ?_, by simp [ha]⟩
    unfold programBytes
    have : (!(args.decompose || args.lex || args.cst)) = true := by
      cases hb : (!(args.decompose || args.lex || args.cst)) with
      | true => rfl
      | false => exact absurd ((asks_iff args).mp hb) ha
    rw [if_pos this]
    rfl

/-! Concrete cases: a line of text, then a byte that occurs in no text. -/

example : Complete c!"mi\n" ∧ OneLine [0xff, 10] := ⟨.inr ⟨c!"mi", rfl⟩, [0xff], by decide, .inr rfl⟩

theorem C104_no_text : ¬ Utf8 [0xff, 10] := by
  rintro ⟨t, h⟩
  have h1 := from_encode t
  rw [← h] at h1
  have h2 : fromUtf8 [0xff, 10] = none := by decide +kernel
  rw [h2] at h1
  cases h1

/-- What the program prints for the first line is printed, then it panics. -/
theorem C104_example (s : Surroundings) (out : Streams)
    (h : program .debug ⟨true, false, false, false⟩ s true c!"mi\n" = .val out) :
    programBytes .debug ⟨true, false, false, false⟩ s true ([109, 105, 10] ++ [0xff, 10] ++ [99, 111, 105]) = .val ⟨out, true⟩ :=
  C104_session .debug _ (.inl rfl) s c!"mi\n" (.inr ⟨c!"mi", rfl⟩) [0xff, 10] [99, 111, 105] ⟨[0xff], by decide, .inr rfl⟩
    C104_no_text (.inl rfl) out h

end Sneturfahi.Props
