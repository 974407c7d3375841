import Verif.Proof.CstBahes
import Verif.Props.Trace
import Verif.Props.Decor
import Verif.Props.Brivla

/-!
# C88: the work and the nesting of the parser
-/

namespace Sneturfahi.Props

open Spec

theorem parse_uses (p : Profile) (s : Toks) {k m : Nat} (h : Least k m (.call .Text) s) :
    ∃ out u, parseCst p s = .val out ∧ parseCstW p s = .val (out, u) ∧ k ≤ u.calls ∧ m ≤ u.depth ∧ u.depth ≤ 32 * (s.list.length + 1) := by
  obtain ⟨out, ho⟩ := C45_total s
  obtain ⟨u, h1, h2⟩ := uses_parse p h
  rw [ho p] at h1 h2
  exact ⟨out, u, ho p, h1, h2 _ rfl⟩

/-- **C88.** Counting the calls of `Parse::parse` does not change what the parser does, and however long the text, the calls are
nested at most `32` deep for each token (and the end): the stack that parsing needs is linear in the length of the text. -/
theorem C88_depth (p : Profile) (s : Toks) :
    ∃ out u, parseCst p s = .val out ∧ parseCstW p s = .val (out, u) ∧ u.depth ≤ 32 * (s.list.length + 1) := by
  obtain ⟨out, u, h1, h2, _, _, h3⟩ := parse_uses p s (least_any _ _)
  exact ⟨out, u, h1, h2, h3⟩

/-- The bound on the recursion in the definition of the counted parser is never reached: with any more room it does the same and
counts the same. -/
theorem C88_room (r : CRule) (s : Toks) (d : Nat) (hd : 32 * (s.list.length + 1) ≤ d) :
    evalCstW cst d r s = evalCstW cst (32 * (s.list.length + 1)) r s :=
  evalCstW_enough r s d hd

/-- **C88.** On a text that begins with `n` words `ba'e` (and then anything but `bu` and `zei`) the parser makes at least `2 ^ n`
calls of `Parse::parse`, nested more than `2 n` deep. -/
theorem C88_exponential (p : Profile) (ptr : Nat) (bs rest : List Token) (hb : ∀ b ∈ bs, b.selmaho = .Bahe)
    (hr : ∀ t q, rest = t :: q → t.selmaho ∉ [Selmaho.Bahe, .Bu, .Zei]) :
    ∃ out u, parseCst p ⟨ptr, bs ++ rest⟩ = .val out ∧ parseCstW p ⟨ptr, bs ++ rest⟩ = .val (out, u) ∧
      2 ^ bs.length ≤ u.calls ∧ 2 * bs.length < u.depth := by
  obtain ⟨out, u, h1, h2, h3, h4, _⟩ := parse_uses p ⟨ptr, bs ++ rest⟩ (text_cost (n := bs.length) ⟨bs, rest, rfl, rfl, hb, hr⟩)
  exact ⟨out, u, h1, h2, h3, by omega⟩

/-- Such texts exist for every number of `ba'e`: `ba'e .. ba'e klama` is one. -/
theorem C88_texts (n : Nat) (b g : Token) (hb : b.selmaho = .Bahe) (hg : g.selmaho = .Gismu) : IsText (List.replicate n b ++ [g]) := by
  refine (C77_text _ ?_ ?_).mpr ?_
  · intro t ht
    rcases List.mem_append.mp ht with ht | ht
    · rw [(List.mem_replicate.mp ht).2, hb]; decide
    · rw [List.mem_singleton.mp ht, hg]; decide
  · intro t ht
    rw [List.getLast?_concat] at ht
    cases ht
    rw [hg]; decide
  · have : undecorated (List.replicate n b ++ [g]) = [g] := by
      unfold undecorated
      rw [List.filter_append, List.filter_eq_nil_iff.mpr]
      · simp [hg, show Selmaho.Gismu ∉ decorating from by decide]
      · intro t ht
        rw [(List.mem_replicate.mp ht).2, hb]; decide
    rw [this]
    refine (C78_text [g] (toks [.Gismu]) ?_).mpr (by decide +kernel)
    simp [classes, wordClass, hg]
    decide

/-- **C88.** No polynomial in the number of tokens bounds the number of calls that parsing a text makes. -/
theorem C88_no_polynomial (p : Profile) (c k : Nat) : ∃ l : List Token, IsText l ∧ ∃ out u, parseCstW p ⟨0, l⟩ = .val (out, u) ∧
    c * (l.length + 1) ^ k < u.calls := by
  obtain ⟨m, h9, hm⟩ := exponential_beats c k
  have hb : ((⟨false, .Bahe, ⟨0, 0⟩⟩ : Token)).selmaho = .Bahe := rfl
  have hg : ((⟨false, .Gismu, ⟨0, 0⟩⟩ : Token)).selmaho = .Gismu := rfl
  obtain ⟨out, u, _, h1, h2, _⟩ := C88_exponential p 0 (List.replicate m ⟨false, .Bahe, ⟨0, 0⟩⟩) [⟨false, .Gismu, ⟨0, 0⟩⟩]
    (fun b h => by rw [(List.mem_replicate.mp h).2]) (fun t q h => by cases h; decide)
  refine ⟨_, C88_texts m _ _ hb hg, out, u, h1, Nat.lt_of_le_of_lt ?_ (Nat.lt_of_lt_of_le hm ?_)⟩
  · refine Nat.mul_le_mul_left c (Nat.pow_le_pow_left ?_ k)
    simp; omega
  · simpa using h2

/-- Four `ba'e` before a word: 18485 calls, 34 deep; none: 1350 calls, 30 deep. -/
theorem C88_example :
    (match parseCstW .debug ⟨0, toks [.Bahe, .Bahe, .Bahe, .Bahe, .Gismu]⟩, parseCstW .debug ⟨0, toks [.Gismu]⟩ with
    | .val (_, u), .val (_, v) => (u, v)
    | _, _ => (⟨0, 0⟩, ⟨0, 0⟩)) = (⟨18485, 34⟩, ⟨1350, 30⟩) := by decide +kernel

end Sneturfahi.Props
