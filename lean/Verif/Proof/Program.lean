import Verif.Proof.Address
import Verif.Proof.Main
import Verif.Spec.Program
import Verif.Props.Main

/-!
# Lemmas about the command line program as a whole
-/

namespace Sneturfahi

open Spec Props

/-! ## Addresses -/

def Output.shift (d : Nat) : Output → Output
  | .parseError e => .parseError (e.shift d)
  | o => o

theorem Output.text_shift (s : Surroundings) (n d : Nat) (o : Output) : (o.shift d).text s n = o.text s n := by
  cases o <;> rfl

theorem sliceUnwrap_chars (sp : Span) (a b : Nat) (cs : List Char) {α : Type} (f : List Char → Exec α) :
    (sp.sliceUnwrap ⟨a, cs⟩ >>= fun t => f t.chars) = (sp.sliceUnwrap ⟨b, cs⟩ >>= fun t => f t.chars) := by
  unfold Span.sliceUnwrap Span.slice Str.get
  dsimp only
  by_cases h : sp.start ≤ sp.stop
  · simp only [if_pos h]
    cases splitBytes cs sp.stop with
    | none => rfl
    | some pr =>
      dsimp only
      cases splitBytes pr.1 sp.start with
      | none => rfl
      | some pr => rfl
  · simp only [if_neg h]

theorem showSpan_addr (a b : Nat) (cs : List Char) : showSpan ⟨a, cs⟩ = showSpan ⟨b, cs⟩ := by
  funext s
  exact sliceUnwrap_chars s a b cs (fun t => pure (t, s))

theorem showToken_addr (a b : Nat) (cs : List Char) : showToken ⟨a, cs⟩ = showToken ⟨b, cs⟩ := by
  funext t
  exact sliceUnwrap_chars t.span a b cs (fun s => pure (t, s))

theorem nodePlace_addr (a b : Nat) (cs : List Char) : nodePlace ⟨a, cs⟩ = nodePlace ⟨b, cs⟩ := by
  funext v
  unfold nodePlace
  cases v.startLocation with
  | none => rfl
  | some start =>
    cases v.endLocation with
    | none => rfl
    | some stop =>
      dsimp only
      cases Span.new start stop with
      | panic => rfl
      | diverge => rfl
      | val sp => exact sliceUnwrap_chars sp a b cs (fun s => pure (some (sp, s)))

theorem printNode_addr (a b : Nat) (cs : List Char) (collapse : Bool) : ∀ fuel v level,
    printNode ⟨a, cs⟩ collapse fuel v level = printNode ⟨b, cs⟩ collapse fuel v level := by
  intro fuel
  induction fuel with
  | zero => intros; rfl
  | succ fuel ih =>
    intro v level
    unfold printNode
    rw [nodePlace_addr a b]
    have : (fun child => printNode ⟨a, cs⟩ collapse fuel child (level + 2)) =
        fun child => printNode ⟨b, cs⟩ collapse fuel child (level + 2) := by
      funext child
      exact ih _ _
    rw [this]

theorem showCst_addr (p : Profile) (collapse : Bool) (a b : Nat) (cs : List Char) (ptr : Nat) (toks : List Token) :
    showCst p collapse ⟨a, cs⟩ ptr toks = showCst p collapse ⟨b, cs⟩ ptr toks := by
  unfold showCst
  cases parseCst p ⟨ptr, toks⟩ with
  | panic => rfl
  | diverge => rfl
  | val r =>
    cases r with
    | ok root =>
      simp only [Exec.val_bind]
      unfold printTree
      rw [printNode_addr a b]
    | error e =>
      simp only [Exec.val_bind]
      split
      · rename_i t _
        exact sliceUnwrap_chars t.span a b cs (fun s => pure (Output.notLexable t s))
      · rfl

theorem showCst_shift (p : Profile) (collapse : Bool) (input : Str) (ptr d : Nat) (toks : List Token) :
    showCst p collapse input (ptr + d) toks = (Output.shift d <$> showCst p collapse input ptr toks) := by
  unfold showCst
  have := parseCst_shift p d ⟨ptr, toks⟩
  unfold Toks.shift at this
  dsimp only at this
  rw [this]
  cases parseCst p ⟨ptr, toks⟩ with
  | panic => rfl
  | diverge => rfl
  | val r =>
    cases r with
    | ok root =>
      simp only [Exec.map_val, Except.mapError, Exec.val_bind]
      cases printTree input collapse root <;> rfl
    | error e =>
      simp only [Exec.map_val, Except.mapError, Exec.val_bind, Located.shift, Toks.shift]
      cases Option.filter (fun t => t.selmaho == .AnyText) e.location.list.head? with
      | none => rfl
      | some t =>
        dsimp only
        cases t.span.sliceUnwrap input <;> rfl

theorem mainCallback_shift (p : Profile) (args : Args) (input : Str) (ptr d : Nat) :
    mainCallback p args (ptr + d) input = (List.map (Output.shift d) <$> mainCallback p args ptr input) := by
  unfold mainCallback
  have hw : (List.map (Output.shift d) <$> showWords p args input) = showWords p args input := by
    unfold showWords
    split
    · cases decomposeAll p input with
      | panic => rfl
      | diverge => rfl
      | val ws =>
        simp only [Exec.val_bind]
        cases showAll (showSpan input) ws <;> rfl
    · rfl
  cases hs : showWords p args input with
  | panic => rfl
  | diverge => rfl
  | val ws =>
    have hws : ws.map (Output.shift d) = ws := by
      rw [hs] at hw
      exact Exec.val.inj hw
    simp only [Exec.val_bind]
    cases collectTokens p (2 * input.chars.length + 3) (lex input) with
    | panic => rfl
    | diverge => rfl
    | val r =>
      cases r with
      | error e =>
        simp only [Exec.val_bind, Exec.pure_eq, Exec.map_val, List.map_append, hws]
        rfl
      | ok toks =>
        simp only [Exec.val_bind]
        have hl : (List.map (Output.shift d) <$> showLexed args input toks) = showLexed args input toks := by
          unfold showLexed
          split
          · cases showAll (showToken input) toks <;> rfl
          · rfl
        cases hl' : showLexed args input toks with
        | panic => rfl
        | diverge => rfl
        | val ls =>
          have hls : ls.map (Output.shift d) = ls := by
            rw [hl'] at hl
            exact Exec.val.inj hl
          simp only [Exec.val_bind]
          unfold showTree
          split
          · rw [showCst_shift]
            cases showCst p args.collapseCst input ptr toks with
            | panic => rfl
            | diverge => rfl
            | val o => simp [hws, hls]
          · simp [hws, hls]

theorem mainCallback_addr (p : Profile) (args : Args) (ptr a b : Nat) (cs : List Char) (h : byteLen cs < 2 ^ 32) :
    mainCallback p args ptr ⟨a, cs⟩ = mainCallback p args ptr ⟨b, cs⟩ := by
  unfold mainCallback
  have hw : showWords p args ⟨a, cs⟩ = showWords p args ⟨b, cs⟩ := by
    unfold showWords
    rw [showSpan_addr a b, decomposeAll_eq p ⟨a, cs⟩ h, decomposeAll_eq p ⟨b, cs⟩ h]
  have hc : collectTokens p (2 * cs.length + 3) (lex ⟨a, cs⟩) = collectTokens p (2 * cs.length + 3) (lex ⟨b, cs⟩) := by
    obtain ⟨items, hi⟩ := C33_terminates ⟨a, cs⟩ h
    have h1 := (hi p).1
    have h2 : lexAll p ⟨b, cs⟩ = .val items :=
      (C51_lexing_rules p ⟨b, cs⟩ h items).mpr ((C51_lexing_rules p ⟨a, cs⟩ h items).mp h1)
    exact (collectTokens_eq p _ _ _ h1).trans (collectTokens_eq p _ _ _ h2).symm
  rw [hw]
  dsimp only
  rw [hc]
  congr 1
  funext ws
  congr 1
  funext r
  cases r with
  | error e => rfl
  | ok toks =>
    unfold showLexed showTree
    simp only [showToken_addr a b, showCst_addr p args.collapseCst a b]

/-- What is printed for one text depends neither on addresses nor on the profile. -/
theorem handle_addr (p p' : Profile) (args : Args) (s s' : Surroundings) (hs : SameButAddresses s s') (a b : Nat)
    (cs : List Char) (h : byteLen cs < 2 ^ 32) : handle p args s ⟨a, cs⟩ = handle p' args s' ⟨b, cs⟩ := by
  have key : ∀ p a, handle p args s ⟨a, cs⟩ = ((fun outs => outs.flatMap (Output.text s (s.arena cs))) <$> mainCallback .debug args 0 ⟨0, cs⟩) := by
    intro p a
    unfold handle
    obtain ⟨out, ho, _⟩ := C56_prints args 0 ⟨0, cs⟩ h
    dsimp only
    rw [mainCallback_addr p args _ a 0 cs h]
    have := mainCallback_shift p args ⟨0, cs⟩ 0 (s.tokensAt cs)
    rw [Nat.zero_add] at this
    rw [this, ho p, ho .debug]
    simp only [Exec.map_val, Exec.val_bind, Exec.pure_eq, List.flatMap_map, Output.text_shift]
  have key' : ∀ p a, handle p args s' ⟨a, cs⟩ = ((fun outs => outs.flatMap (Output.text s' (s'.arena cs))) <$> mainCallback .debug args 0 ⟨0, cs⟩) := by
    intro p a
    unfold handle
    obtain ⟨out, ho, _⟩ := C56_prints args 0 ⟨0, cs⟩ h
    dsimp only
    rw [mainCallback_addr p args _ a 0 cs h]
    have := mainCallback_shift p args ⟨0, cs⟩ 0 (s'.tokensAt cs)
    rw [Nat.zero_add] at this
    rw [this, ho p, ho .debug]
    simp only [Exec.map_val, Exec.val_bind, Exec.pure_eq, List.flatMap_map, Output.text_shift]
  rw [key, key']
  have ht : Output.text s (s.arena cs) = Output.text s' (s'.arena cs) := by
    obtain ⟨h1, h2, h3, h4⟩ := hs
    funext o
    cases o with
    | parseError e =>
      obtain ⟨l, x⟩ := e
      cases x <;> simp [Output.text, Located.debug, CstError.debug, h1, h2, h3, h4]
    | _ => simp [Output.text, h1, h4]
  rw [ht]

theorem handle_ok (p : Profile) (args : Args) (s : Surroundings) (input : Str) (h : input.len < 2 ^ 32) :
    ∃ out, handle p args s input = .val out := by
  obtain ⟨outs, ho⟩ := C56_never_panics p args (s.tokensAt input.chars) input h
  unfold handle
  rw [ho]
  exact ⟨_, rfl⟩

/-! ## Trimming -/

theorem isWhitespace_iff (c : Char) : isWhitespace c = true ↔ c ∈ whiteSpace := by
  have h : ∀ n : Nat, ((0x9 ≤ n && n ≤ 0xd) || n == 0x20 || n == 0x85 || n == 0xa0 || n == 0x1680 ||
    (0x2000 ≤ n && n ≤ 0x200a) || n == 0x2028 || n == 0x2029 || n == 0x202f || n == 0x205f || n == 0x3000) = true ↔
      n ∈ whiteSpace.map Char.toNat := by
    intro n
    simp only [whiteSpace, List.map_cons, List.map_nil, List.mem_cons, List.not_mem_nil, or_false]
    simp only [Bool.or_eq_true, Bool.and_eq_true, decide_eq_true_eq, beq_iff_eq, show '\t'.toNat = 9 from rfl,
      show '\n'.toNat = 10 from rfl, show '\x0b'.toNat = 11 from rfl, show '\x0c'.toNat = 12 from rfl,
      show '\r'.toNat = 13 from rfl, show ' '.toNat = 0x20 from rfl, show '\u0085'.toNat = 0x85 from rfl,
      show '\u00a0'.toNat = 0xa0 from rfl, show '\u1680'.toNat = 0x1680 from rfl,
      show '\u2000'.toNat = 0x2000 from rfl, show '\u2001'.toNat = 0x2001 from rfl, show '\u2002'.toNat = 0x2002 from rfl,
      show '\u2003'.toNat = 0x2003 from rfl, show '\u2004'.toNat = 0x2004 from rfl, show '\u2005'.toNat = 0x2005 from rfl,
      show '\u2006'.toNat = 0x2006 from rfl, show '\u2007'.toNat = 0x2007 from rfl, show '\u2008'.toNat = 0x2008 from rfl,
      show '\u2009'.toNat = 0x2009 from rfl, show '\u200a'.toNat = 0x200a from rfl, show '\u2028'.toNat = 0x2028 from rfl,
      show '\u2029'.toNat = 0x2029 from rfl, show '\u202f'.toNat = 0x202f from rfl, show '\u205f'.toNat = 0x205f from rfl,
      show '\u3000'.toNat = 0x3000 from rfl]
    omega
  unfold isWhitespace
  rw [h, List.mem_map]
  constructor
  · rintro ⟨d, hd, he⟩
    rw [← Char.toNat_inj.mp he]
    exact hd
  · intro hc
    exact ⟨c, hc, rfl⟩

theorem dropWhile_all {α : Type} {q : α → Bool} {a t : List α} (h : ∀ c ∈ a, q c = true) :
    (a ++ t).dropWhile q = t.dropWhile q := by
  induction a with
  | nil => rfl
  | cons x a ih =>
    rw [List.cons_append, List.dropWhile_cons_of_pos (h x (by simp)), ih (fun c hc => h c (by simp [hc]))]

theorem dropWhile_none {α : Type} {q : α → Bool} {t : List α} (h : ∀ c, t.head? = some c → q c = false) :
    t.dropWhile q = t := by
  cases t with
  | nil => rfl
  | cons x t => exact List.dropWhile_cons_of_neg (by simp [h x rfl])

theorem trim_of {text t : List Char} (h : Trimmed text t) (a : Nat) : (Str.trim ⟨a, text⟩).chars = t := by
  obtain ⟨x, y, rfl, hx, hy, h1, h2⟩ := h
  unfold Str.trim
  dsimp only
  rw [List.append_assoc, dropWhile_all (fun c hc => (isWhitespace_iff c).mpr (hx c hc))]
  by_cases ht : t = []
  · subst ht
    have : ([] ++ y).dropWhile isWhitespace = [] := by
      rw [List.nil_append, ← List.append_nil y, dropWhile_all (fun c hc => (isWhitespace_iff c).mpr (hy c hc))]
      rfl
    rw [this]
    rfl
  · rw [dropWhile_none (t := t ++ y)]
    · rw [List.reverse_append, dropWhile_all (fun c hc => (isWhitespace_iff c).mpr (hy c (List.mem_reverse.mp hc))), dropWhile_none,
        List.reverse_reverse]
      intro c hc
      rw [List.head?_reverse] at hc
      have := h2 c hc
      rw [← isWhitespace_iff] at this
      simpa using this
    · intro c hc
      have hc' : t.head? = some c := by
        cases t with
        | nil => exact absurd rfl ht
        | cons x t => exact hc
      have := h1 c hc'
      rw [← isWhitespace_iff] at this
      simpa using this

theorem trimmed_exists (text : List Char) : Trimmed text (Str.trim ⟨0, text⟩).chars := by
  refine ⟨text.takeWhile isWhitespace, (((text.dropWhile isWhitespace).reverse).takeWhile isWhitespace).reverse, ?_, ?_, ?_, ?_, ?_⟩
  · unfold Str.trim
    dsimp only
    rw [List.append_assoc, ← List.reverse_append, List.takeWhile_append_dropWhile, List.reverse_reverse,
      List.takeWhile_append_dropWhile]
  · intro c hc
    exact (isWhitespace_iff c).mp (List.all_eq_true.mp List.all_takeWhile c hc)
  · intro c hc
    exact (isWhitespace_iff c).mp (List.all_eq_true.mp List.all_takeWhile c (List.mem_reverse.mp hc))
  · intro c hc hw
    unfold Str.trim at hc
    dsimp only at hc
    have h0 : text.dropWhile isWhitespace ≠ [] := by
      intro h0
      rw [h0] at hc
      cases hc
    have hpre : ((text.dropWhile isWhitespace).reverse.dropWhile isWhitespace).reverse <+: text.dropWhile isWhitespace := by
      rw [← List.reverse_suffix, List.reverse_reverse]
      exact List.dropWhile_suffix _
    obtain ⟨z, hz⟩ := hpre
    have : (text.dropWhile isWhitespace).head? = some c := by
      rw [← hz, List.head?_append, hc]
      rfl
    have h1 := List.head?_dropWhile_not isWhitespace text
    rw [this] at h1
    simp only at h1
    rw [(isWhitespace_iff c).mpr hw] at h1
    simp at h1
  · intro c hc hw
    unfold Str.trim at hc
    dsimp only at hc
    rw [List.getLast?_reverse] at hc
    have h1 := List.head?_dropWhile_not isWhitespace (text.dropWhile isWhitespace).reverse
    rw [hc] at h1
    simp only at h1
    rw [(isWhitespace_iff c).mpr hw] at h1
    simp at h1

theorem trimmed_unique {text t t' : List Char} (h : Trimmed text t) (h' : Trimmed text t') : t = t' :=
  (trim_of h 0).symm.trans (trim_of h' 0)

theorem byteLen_trimmed {text t : List Char} (h : Trimmed text t) : byteLen t ≤ byteLen text := by
  obtain ⟨x, y, rfl, _⟩ := h
  simp only [byteLen_append]
  omega

/-! ## Lines -/

theorem readLine_newline (l rest : List Char) (h : '\n' ∉ l) : readLine (l ++ '\n' :: rest) = (l ++ ['\n'], rest) := by
  induction l with
  | nil => rfl
  | cons c l ih =>
    simp only [List.mem_cons, not_or] at h
    unfold readLine
    rw [List.cons_append]
    simp only [if_neg (Ne.symm h.1), ih h.2, List.cons_append]

theorem readLine_last (l : List Char) (h : '\n' ∉ l) : readLine l = (l, []) := by
  induction l with
  | nil => rfl
  | cons c l ih =>
    simp only [List.mem_cons, not_or] at h
    unfold readLine
    simp only [if_neg (Ne.symm h.1), ih h.2]

theorem line_cases (stdin : List Char) : ('\n' ∉ stdin) ∨ ∃ l rest, stdin = l ++ '\n' :: rest ∧ '\n' ∉ l := by
  induction stdin with
  | nil => simp
  | cons c cs ih =>
    by_cases hc : c = '\n'
    · subst hc
      exact .inr ⟨[], cs, rfl, by simp⟩
    · rcases ih with h | ⟨l, rest, h1, h2⟩
      · left
        simp only [List.mem_cons, not_or]
        exact ⟨Ne.symm hc, h⟩
      · right
        refine ⟨c :: l, rest, by rw [h1]; rfl, ?_⟩
        simp only [List.mem_cons, not_or]
        exact ⟨Ne.symm hc, h2⟩

theorem replLoop_fuel (p : Profile) (args : Args) (s : Surroundings) : ∀ (n : Nat) (stdin : List Char) (f f' : Nat),
    stdin.length ≤ n → stdin.length < f → stdin.length < f' → replLoop p args s f stdin = replLoop p args s f' stdin := by
  intro n
  induction n with
  | zero =>
    intro stdin f f' h1 h2 h3
    obtain rfl : stdin = [] := List.length_eq_zero_iff.mp (by omega)
    cases f with
    | zero => simp at h2
    | succ f =>
      cases f' with
      | zero => simp at h3
      | succ f' => rfl
  | succ n ih =>
    intro stdin f f' h1 h2 h3
    cases f with
    | zero => simp at h2
    | succ f =>
      cases f' with
      | zero => simp at h3
      | succ f' =>
        unfold replLoop
        rcases line_cases stdin with h | ⟨l, rest, rfl, hl⟩
        · rw [readLine_last _ h]
          dsimp only
          split
          · rfl
          · have : stdin ≠ [] := by
              rintro rfl
              simp at *
            rw [ih [] f f' (by simp) (by
              have := List.length_pos_iff.mpr this
              simp
              omega) (by
              have := List.length_pos_iff.mpr this
              simp
              omega)]
        · rw [readLine_newline _ _ hl]
          simp only [List.length_append, List.length_cons] at h1 h2 h3
          dsimp only
          rw [ih rest f f' (by omega) (by omega) (by omega)]

end Sneturfahi
