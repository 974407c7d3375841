import Verif.Proof.CstEnd
import Verif.Props.CstMore
import Verif.Props.Main

/-!
# C58, C63, C64: where parsing stops
-/

namespace Sneturfahi.Props

open Spec

theorem headFree_notBound {post : List Token} (h : NotBound post) : HeadFree binders post := by
  intro t ht
  have hd : ∃ rest, post.dropWhile (fun t => t.selmaho == .Bahe) = t :: rest := by
    cases hc : post.dropWhile (fun t => t.selmaho == .Bahe) with
    | nil => rw [hc] at ht; simp at ht
    | cons x xs => rw [hc] at ht; simp at ht; subst ht; exact ⟨xs, rfl⟩
  obtain ⟨rest, hd⟩ := hd
  have h1 := h (post.takeWhile fun t => t.selmaho == .Bahe) t rest
    (by rw [← hd]; exact (List.takeWhile_append_dropWhile ..).symm)
    (fun b hb => by
      have := List.all_takeWhile (l := post) (p := fun t => t.selmaho == .Bahe)
      rw [List.all_eq_true] at this
      simpa using this b hb)
  simp [binders, h1]

/-- **C63.** The grammar has no use for token `t` (an unclassifiable word, say), and nothing around it quotes it or makes
something else of it.  If the tokens before it are a text, parsing fails exactly at `t`. -/
theorem C63_stops_there (p : Profile) (ptr : Nat) (toks post : List Token) (t : Token) (root : Val)
    (hr : parseCst p ⟨ptr, toks⟩ = .val (.ok root))
    (hq : ∀ t' ∈ toks, t'.selmaho ∉ [Selmaho.Zo, .Zoi, .Lohu, .Zei, .Bu]) (ht : Unused t.selmaho) (hb : NotBound post) (p' : Profile) :
    parseCst p' ⟨ptr, toks ++ t :: post⟩ = .val (.error ⟨⟨ptr + toks.length, t :: post⟩, .nom .eof⟩) := by
  have h1 := parseCst_ok hr
  obtain ⟨res, h2, h3⟩ := parseCst_eq p' ⟨ptr, toks ++ t :: post⟩
  have := text_simu t post ((unusedB_iff _).mpr ht) (headFree_notBound hb) ptr toks _ res hq h1 h2
  rw [h3]
  cases res with
  | ok r vs =>
    obtain ⟨rfl, rfl, _⟩ := this
    rfl
  | error e => exact this.elim
  | failure e => exact this.elim

/-- The example: `mi klama zzz do`. -/
example : (tree? (sample [.Koha, .Gismu])).isSome = true ∧ Unused Selmaho.AnyText ∧
    error? (sample [.Koha, .Gismu, .AnyText, .Koha]) =
      some ⟨⟨2, [⟨false, .AnyText, ⟨4, 5⟩⟩, ⟨false, .Koha, ⟨6, 7⟩⟩]⟩, .nom .eof⟩ := by
  refine ⟨by decide +kernel, .inr (by decide), by decide +kernel⟩

/-- **C63.** If the tokens before it are not a text (and contain no `tei` or `ga'o`, after which the parser is committed),
parsing fails where it fails for the tokens before it. -/
theorem C63_stops_before (p : Profile) (ptr : Nat) (toks post : List Token) (t : Token) (e : Located)
    (hr : parseCst p ⟨ptr, toks⟩ = .val (.error e))
    (hq : ∀ t' ∈ toks, t'.selmaho ∉ [Selmaho.Zo, .Zoi, .Lohu, .Zei, .Bu, .Tei, .Gaho]) (ht : Unused t.selmaho) (hb : NotBound post)
    (p' : Profile) :
    e.error = .nom .eof ∧ e.location.list ≠ [] ∧
    parseCst p' ⟨ptr, toks ++ t :: post⟩ = .val (.error ⟨⟨e.location.ptr, e.location.list ++ t :: post⟩, .nom .eof⟩) := by
  have hpl := C52_plain p ⟨ptr, toks⟩ e hr (by
    intro t' ht' hx
    refine hq t' ht' ?_
    simp only [List.mem_cons, List.not_mem_nil, or_false] at hx ⊢
    rcases hx with h | h | h <;> simp [h])
  refine ⟨hpl.1, hpl.2, ?_⟩
  rcases parseCst_error hr with ⟨rest, v, h1, h2, rfl⟩ | h1
  · obtain ⟨res, h3, h4⟩ := parseCst_eq p' ⟨ptr, toks ++ t :: post⟩
    have := text_simu t post ((unusedB_iff _).mpr ht) (headFree_notBound hb) ptr toks _ res (by
      intro t' ht' hx
      refine hq t' ht' ?_
      simp only [unusedEnding, quoters, List.mem_cons, List.not_mem_nil, or_false] at hx ⊢
      rcases hx with h | h | h | h | h <;> simp [h]) h1 h3
    rw [h4]
    cases res with
    | ok r vs =>
      obtain ⟨rfl, rfl, _⟩ := this
      cases hl : rest.list with
      | nil => exact absurd hl h2
      | cons x xs => rfl
    | error e => exact this.elim
    | failure e => exact this.elim
  · have he := runCst_err .Text ⟨ptr, toks⟩
    rw [h1] at he
    obtain ⟨o, hc, ho⟩ := he [] rfl
    rcases ho with ho | ⟨t', ht', rfl⟩
    · cases ho
    · exfalso
      refine hq t' ht' ?_
      rcases hc with ⟨hx, _⟩ | ⟨c, hc, _⟩
      · simp [hx]
      · generalize t'.selmaho = o at hc
        revert hc
        cases o <;> simp [closer]

/-- The example: `mi lo zzz`. -/
example : (error? (sample [.Koha, .Le])).map (fun e => e.location.list.length) = some 1 ∧
    (error? (sample [.Koha, .Le, .AnyText])).map (fun e => e.location.list.length) = some 2 := by decide +kernel

/-! ### C58: what the program says -/

/-- **C58.** If the words before an unclassifiable word are a text, the program names it: it says that this word could not be
lexed. -/
theorem C58_named (p : Profile) (input : Str) (h : input.len < 2 ^ 32) (toks post : List Token) (t : Token)
    (hl : lexAll p input = .val ((toks ++ t :: post).map .ok)) (ht : t.selmaho = .AnyText)
    (hq : ∀ t' ∈ toks, t'.selmaho ∉ [Selmaho.Zo, .Zoi, .Lohu, .Zei, .Bu]) (hb : NotBound post) (ptr : Nat) (root : Val)
    (hr : parseCst p ⟨ptr, toks⟩ = .val (.ok root)) (collapse : Bool) :
    ∃ word, t.span.slice input = some word ∧
      ∀ p', mainCallback p' ⟨false, false, true, collapse⟩ ptr input = .val [.notLexable t word.chars] := by
  obtain ⟨out, ho, words, lexed, tree, rfl, h1, _, _, h4⟩ := C56_prints ⟨false, false, true, collapse⟩ ptr input h
  obtain ⟨h5, _, _, h6⟩ := h4 p _ hl
  have hpe := C63_stops_there p ptr toks post t root hr hq (.inr (by simp [ht])) hb p
  obtain ⟨s, hs, htree⟩ := ((h6 rfl).2 p _ hpe).1 t post rfl ht
  refine ⟨s, hs, fun p' => ?_⟩
  rw [ho p', h1 rfl, h5 rfl, htree]
  rfl

example : mainCallback .debug ⟨false, false, true, false⟩ 0 ⟨0, c!"mi klama zzz"⟩ =
    .val [.notLexable ⟨false, .AnyText, ⟨9, 12⟩⟩ c!"zzz"] := by decide +kernel

/-- **C58.** If they are not, and the word is the first unclassifiable one (and no `tei` or `ga'o` commits the parser), the
program prints a parse error instead, located before the word. -/
theorem C58_not_named (p : Profile) (input : Str) (h : input.len < 2 ^ 32) (toks post : List Token) (t : Token)
    (hl : lexAll p input = .val ((toks ++ t :: post).map .ok)) (ht : t.selmaho = .AnyText)
    (hq : ∀ t' ∈ toks, t'.selmaho ∉ [Selmaho.Zo, .Zoi, .Lohu, .Zei, .Bu, .Tei, .Gaho]) (hn : ∀ t' ∈ toks, t'.selmaho ≠ .AnyText)
    (hb : NotBound post) (ptr : Nat) (e : Located) (hr : parseCst p ⟨ptr, toks⟩ = .val (.error e)) (collapse : Bool) :
    ∃ before rest, toks = before ++ rest ∧ rest ≠ [] ∧
      ∀ p', mainCallback p' ⟨false, false, true, collapse⟩ ptr input =
        .val [.parseError ⟨⟨ptr + before.length, rest ++ t :: post⟩, .nom .eof⟩] := by
  obtain ⟨out, ho, words, lexed, tree, rfl, h1, _, _, h4⟩ := C56_prints ⟨false, false, true, collapse⟩ ptr input h
  obtain ⟨h5, _, _, h6⟩ := h4 p _ hl
  obtain ⟨_, hne, hpe⟩ := C63_stops_before p ptr toks post t e hr hq (.inr (by simp [ht])) hb p
  obtain ⟨read, hread, hptr, _⟩ := C49_errors p _ e hr
  simp only at hread hptr
  refine ⟨read, e.location.list, hread, hne, fun p' => ?_⟩
  have htree := ((h6 rfl).2 p _ hpe).2 (by
    intro t' rest' h7
    simp only at h7
    cases hc : e.location.list with
    | nil => exact absurd hc hne
    | cons x xs =>
      rw [hc] at h7
      simp only [List.cons_append, List.cons.injEq] at h7
      rw [← h7.1]
      exact hn x (by rw [hread, hc]; simp))
  rw [ho p', h1 rfl, h5 rfl, htree, ← hptr]
  rfl

/-! ### C64: a final `fa'o` -/

/-- **C64.** A final `fa'o` is accepted after every text (without quoting words and embedded texts), and the tree is the same
but for it. -/
theorem C64_faho (p : Profile) (ptr : Nat) (toks : List Token) (t : Token) (root : Val)
    (hr : parseCst p ⟨ptr, toks⟩ = .val (.ok root)) (ht : t.selmaho = .Faho)
    (hq : ∀ t' ∈ toks, t'.selmaho ∉ [Selmaho.Zo, .Zoi, .Lohu, .Zei, .Bu, .To, .Lu, .Faho]) :
    ∃ fields, root = .node .Text (fields ++ [.many []]) ∧ ∀ p', parseCst p' ⟨ptr, toks ++ [t]⟩ =
      .val (.ok (.node .Text (fields ++ [.many [.node (.word .Faho) [.many [], .leaf .token t, .many []]]]))) := by
  have h1 := parseCst_ok hr
  obtain ⟨res, h2, _⟩ := parseCst_eq p ⟨ptr, toks ++ [t]⟩
  rcases runCst_text_faho ht hq h1 h2 with ⟨r, r', fs, h3, h4, _, h5⟩ | ⟨r, vs, h3, h4, _⟩ | ⟨_, _, h3, _⟩ | ⟨_, _, h3, _⟩
  · cases h3
    refine ⟨fs, rfl, fun p' => ?_⟩
    obtain ⟨res', h6, h7⟩ := parseCst_eq p' ⟨ptr, toks ++ [t]⟩
    rw [h2, h4] at h6
    cases h6
    rw [h7]
    obtain ⟨q, l⟩ := r'
    simp only at h5
    subst h5
    rfl
  · cases h3
    exact absurd rfl h4
  · cases h3
  · cases h3

/-- **C64, conversely.** If the tokens before it (without `ba'e`) are not a text, adding `fa'o` does not make one. -/
theorem C64_faho_only (p : Profile) (ptr : Nat) (toks : List Token) (t : Token) (root : Val)
    (hr : parseCst p ⟨ptr, toks ++ [t]⟩ = .val (.ok root)) (ht : t.selmaho = .Faho)
    (hq : ∀ t' ∈ toks, t'.selmaho ∉ [Selmaho.Zo, .Zoi, .Lohu, .Zei, .Bu, .To, .Lu, .Faho, .Bahe]) :
    ∃ root', ∀ p', parseCst p' ⟨ptr, toks⟩ = .val (.ok root') := by
  have h1 := parseCst_ok hr
  obtain ⟨out, ho⟩ := C45_total ⟨ptr, toks⟩
  cases out with
  | ok root' => exact ⟨root', ho⟩
  | error e =>
    exfalso
    obtain ⟨res, h2, h3⟩ := parseCst_eq p ⟨ptr, toks⟩
    have hq' : ∀ t' ∈ toks, t'.selmaho ∉ texters := by
      intro t' ht' hx
      have : ∀ s ∈ texters, s ∈ [Selmaho.Zo, .Zoi, .Lohu, .Zei, .Bu, .To, .Lu, .Faho, .Bahe] := by decide
      exact hq t' ht' (this _ hx)
    rcases runCst_text_faho ht hq' h2 h1 with ⟨r, r', fs, h4, _, h5, _⟩ | ⟨r, vs, h4, h5, h6⟩ | ⟨_, _, _, h4⟩ | ⟨_, _, _, h4⟩
    · rw [ho p, h4] at h3
      obtain ⟨q, l⟩ := r
      simp only at h5
      subst h5
      simp [finish] at h3
    · rcases h6 with ⟨t', h6, h7⟩ | ⟨r', vs', h6, h7⟩
      · exact hq t' h6 (by simp [h7])
      · cases h6
        exact h7 rfl
    · cases h4
    · cases h4

/-- With `ba'e` it can: `ba'e` is no text, `ba'e fa'o` is. -/
theorem C64_bahe : (error? (sample [.Bahe])).isSome = true ∧ (tree? (sample [.Bahe, .Faho])).isSome = true := by
  decide +kernel

example : (tree? (sample [.Koha, .Gismu, .Faho])).isSome = true := by decide +kernel

end Sneturfahi.Props
