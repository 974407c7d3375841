import Verif.Proof.Interleave
import Verif.Spec.Lexing

/-!
# The decomposer as a cursor in the text

After any word the state of a decomposer is determined by the text still to come: decomposing what is
left of a chunk behind a word gives the other words of the chunk.
-/

namespace Sneturfahi

open Spec

theorem endsInConsonant_append {a b : List Char} (h : endsInConsonant (a ++ b) = false) :
    endsInConsonant b = false := by
  unfold endsInConsonant at h ⊢
  rw [List.reverse_append, List.find?_append] at h
  cases hb : b.reverse.find? (fun c => c != ',') with
  | none => rfl
  | some c => rw [hb] at h; simpa using h

theorem lastWord_tail {cs w : List Char} {ws : List (List Char)} (h : lastWord cs = w :: ws) :
    ∃ t, cs = w ++ t ∧ AllCommas t ∧ ws = [] := by
  unfold lastWord at h
  split at h
  · simp at h
  · simp only [List.cons.injEq] at h
    obtain ⟨rfl, rfl⟩ := h
    obtain ⟨k, hk, e⟩ := trimCommas_spec cs
    exact ⟨k, e, hk, rfl⟩

/-- What follows the first word of a chunk decomposes into the other words. -/
theorem singleWords_tail {c w : List Char} {ws : List (List Char)} (h : singleWords c = w :: ws) :
    ∃ t, c = w ++ t ∧ singleWords t = ws := by
  unfold singleWords at h
  split at h
  · simp only [List.cons.injEq] at h
    obtain ⟨rfl, rfl⟩ := h
    exact ⟨[], by simp, singleWords_allCommas (by simp [AllCommas])⟩
  · rename_i hc
    have hc : endsInConsonant c = false := by simpa using hc
    cases hf : fallOffPure c with
    | none =>
      rw [falls_none hf] at h
      simp only [List.getLast?_nil] at h
      obtain ⟨t, h1, h2, rfl⟩ := lastWord_tail h
      exact ⟨t, h1, singleWords_allCommas h2⟩
    | some x =>
      obtain ⟨m, r⟩ := x
      have happ := fallOffPure_append hf
      have hcr : endsInConsonant r = false := endsInConsonant_append (by rw [happ]; exact hc)
      rw [falls_some hf] at h
      simp only at h
      cases hr : (falls r).1 with
      | nil =>
        rw [hr] at h
        simp only [List.getLast?_singleton] at h
        split at h
        · simp only [List.singleton_append, List.cons.injEq] at h
          obtain ⟨rfl, rfl⟩ := h
          refine ⟨r, happ.symm, ?_⟩
          unfold singleWords
          rw [hcr, hr]
          simp
        · simp only [List.dropLast_singleton, List.nil_append] at h
          obtain ⟨t, h1, h2, rfl⟩ := lastWord_tail h
          have hfa := falls_append r
          rw [hr] at hfa
          simp only [List.flatten_nil, List.nil_append] at hfa
          refine ⟨t, ?_, singleWords_allCommas h2⟩
          rw [← h1, hfa, happ]
      | cons m2 ms =>
        rw [hr] at h
        rw [List.getLast?_cons_cons] at h
        cases hl : (m2 :: ms).getLast? with
        | none => simp at hl
        | some lw =>
          have hsw : singleWords r = if postWordPure (falls r).2 = true then (m2 :: ms) ++ lastWord (falls r).2
              else (m2 :: ms).dropLast ++ lastWord (lw ++ (falls r).2) := by
            unfold singleWords
            rw [hcr, hr]
            simp only [hl, Bool.false_eq_true, if_false]
          rw [hl] at h
          simp only at h
          split at h
          · rename_i hp
            simp only [List.cons_append, List.cons.injEq] at h
            obtain ⟨rfl, rfl⟩ := h
            exact ⟨r, happ.symm, by rw [hsw, if_pos hp]; rfl⟩
          · rename_i hp
            rw [List.dropLast_cons_of_ne_nil (by simp)] at h
            simp only [List.cons_append, List.cons.injEq] at h
            obtain ⟨rfl, rfl⟩ := h
            exact ⟨r, happ.symm, by rw [hsw, if_neg hp]⟩

/-- The abstract state of a decomposer that has read everything before `after`, which is at byte `pos`. -/
def cursor (pos : Nat) (after : List Char) : AState :=
  match chunks after with
  | [] => ⟨[], pos, []⟩
  | p :: ps => ⟨layout pos (singleWords p), pos + byteLen p + 1, ps⟩

theorem cursor_eq {pos : Nat} {after p : List Char} {ps : List (List Char)} (h : chunks after = p :: ps) :
    cursor pos after = ⟨layout pos (singleWords p), pos + byteLen p + 1, ps⟩ := by
  unfold cursor; rw [h]

/-- Changing the rest of the first chunk. -/
theorem chunks_prefix {w t p : List Char} {ps : List (List Char)} {cs : List Char} (h : chunks cs = (w ++ p) :: ps) :
    (cs = w ++ t ↔ t = cs.drop w.length) ∧ chunks (cs.drop w.length) = p :: ps := by
  obtain ⟨hno, h2⟩ := chunks_cons h
  have hnp : NoSeparator p := fun x hx => hno x (by simp [hx])
  rcases h2 with ⟨rfl, rfl⟩ | ⟨s, t', hs, rfl, rfl⟩
  · refine ⟨⟨?_, ?_⟩, by simp [chunks_noSep hnp]⟩
    · intro e; rw [e]; simp
    · rintro rfl; simp
  · refine ⟨⟨?_, ?_⟩, ?_⟩
    · intro e; rw [e]; simp
    · rintro rfl; simp
    · rw [List.append_assoc, List.drop_left, chunks_append_sep _ hs, chunks_noSep hnp]; rfl

theorem aNextRest_cursor (pos : Nat) (cs p : List Char) (ps : List (List Char)) (h : chunks cs = p :: ps) :
    aNext (cursor pos cs) = aNextRest pos (p :: ps) := by
  rw [cursor_eq h]
  simp only [aNextRest]
  cases singleWords p with
  | nil => rfl
  | cons w ws => rfl

theorem aNext_start (cs : List Char) : aNext ⟨[], 0, chunks cs⟩ = aNext (cursor 0 cs) := by
  cases h : chunks cs with
  | nil => exact absurd h (chunks_ne_nil cs)
  | cons p ps => rw [aNextRest_cursor 0 cs p ps h]; rfl

theorem offsetOf_le {cs : List Char} {ds ps : List (List Char)} (h : chunks cs = ds ++ ps) :
    offsetOf ds ≤ byteLen cs + 1 := by
  have := offsetOf_chunks cs
  rw [h] at this
  simp at this
  omega

/-- What `next` does to a cursor. -/
theorem aNext_cursor (cs : List Char) : ∀ pos,
    (spansAt 0 (chunks cs) = [] ∧ (aNext (cursor pos cs)).1 = none) ∨
    ∃ gap w after more, cs = gap ++ w ++ after ∧ noCommas w ≠ [] ∧
      spansAt 0 (chunks cs) = ⟨byteLen gap, byteLen gap + byteLen w⟩ :: more ∧
      aNext (cursor pos cs) =
        (some (spanAt (pos + byteLen gap) w), cursor (pos + byteLen gap + byteLen w) after) ∧
      spansAt (byteLen gap + byteLen w) (chunks after) = more := by
  suffices H : ∀ (ps : List (List Char)) (cs : List Char), chunks cs = ps → ∀ base pos,
      (spansAt base ps = [] ∧ (aNextRest pos ps).1 = none) ∨
      ∃ gap w after more, cs = gap ++ w ++ after ∧ noCommas w ≠ [] ∧
        spansAt base ps = ⟨base + byteLen gap, base + byteLen gap + byteLen w⟩ :: more ∧
        aNextRest pos ps =
          (some (spanAt (pos + byteLen gap) w), cursor (pos + byteLen gap + byteLen w) after) ∧
        spansAt (base + byteLen gap + byteLen w) (chunks after) = more by
    intro pos
    cases h : chunks cs with
    | nil => exact absurd h (chunks_ne_nil cs)
    | cons p ps =>
      rw [aNextRest_cursor pos cs p ps h]
      have := H (p :: ps) cs h 0 pos
      simpa only [Nat.zero_add] using this
  intro ps
  induction ps with
  | nil => intro cs h; exact absurd h (chunks_ne_nil cs)
  | cons p ps ih =>
    intro cs h base pos
    cases hw : singleWords p with
    | nil =>
      obtain ⟨hno, ⟨rfl, rfl⟩ | ⟨s, t, hs, rfl, ht⟩⟩ := chunks_cons h
      · left
        simp [spansAt, hw, layout, aNextRest]
      · simp only [spansAt, hw, layout, List.nil_append, aNextRest]
        rcases ih t ht (base + byteLen p + 1) (pos + byteLen p + 1) with ⟨h1, h2⟩ | ⟨gap, w, after, more, e1, e0, e2, e3, e4⟩
        · exact Or.inl ⟨h1, h2⟩
        · right
          have hlen : byteLen (p ++ s :: gap) = byteLen p + 1 + byteLen gap := by
            simp [isSep_size ((isSep_iff s).mpr hs)]; omega
          refine ⟨p ++ s :: gap, w, after, more, by simp [e1], e0, ?_, ?_, ?_⟩
          · rw [hlen, e2]; simp only [Nat.add_assoc]
          · rw [hlen, e3]; simp only [Nat.add_assoc]
          · rw [hlen, ← e4]; simp only [Nat.add_assoc]
    | cons w ws =>
      right
      obtain ⟨t, ht, htw⟩ := singleWords_tail hw
      subst ht
      obtain ⟨he, hch⟩ := chunks_prefix (t := cs.drop w.length) h
      refine ⟨[], w, cs.drop w.length, layout (base + byteLen w) ws ++ spansAt (base + byteLen (w ++ t) + 1) ps,
        by simpa using he.mpr rfl, ?_, ?_, ?_, ?_⟩
      · exact singleWords_hasLetter _ w (by rw [hw]; simp)
      · simp [spansAt, hw, layout]
      · simp only [aNextRest, hw, layout, cursor_eq hch, htw]
        simp [spanAt, Nat.add_assoc]
      · rw [hch]
        simp [spansAt, htw, Nat.add_assoc]

theorem cursor_endsPiece {after : List Char} (h : EndsPiece after) (pos : Nat) :
    cursor pos after = ⟨[], pos + 1, (chunks after).tail⟩ := by
  have h0 : singleWords [] = [] := singleWords_allCommas (by simp [AllCommas])
  have : ∃ ps, chunks after = [] :: ps := by
    rcases h with rfl | ⟨s, r, hs, rfl⟩
    · exact ⟨[], rfl⟩
    · exact ⟨chunks r, by simp [chunks, (isSep_iff s).mpr hs]⟩
  obtain ⟨ps, hps⟩ := this
  rw [cursor_eq hps, h0, hps]
  simp [layout]

/-- What `next_no_decomposition` does to a cursor. -/
theorem aNextND_cursor (cs : List Char) (pos : Nat) :
    (OnlyCommas cs ∧ (aNextND (cursor pos cs)).1 = none) ∨
    ∃ gap body q after, cs = gap ++ body ∧ Resumes cs gap body ∧ FirstPiece body q after ∧
      aNextND (cursor pos cs) =
        (some (spanAt (pos + byteLen gap) q), cursor (pos + byteLen gap + byteLen q) after) := by
  cases h : chunks cs with
  | nil => exact absurd h (chunks_ne_nil cs)
  | cons p ps =>
    rw [cursor_eq h]
    obtain ⟨hno, hsplit⟩ := chunks_cons h
    cases hw : singleWords p with
    | nil =>
      have hc : AllCommas p := (singleWords_eq_nil_iff p).mp hw
      rcases hsplit with ⟨rfl, rfl⟩ | ⟨s, t, hs, rfl, ht⟩
      · exact Or.inl ⟨hc, rfl⟩
      · right
        cases ps with
        | nil => exact absurd ht (chunks_ne_nil t)
        | cons q qs =>
          obtain ⟨hq, hq2⟩ := chunks_cons ht
          have hlen : byteLen (p ++ [s]) = byteLen p + 1 := by simp [isSep_size ((isSep_iff s).mpr hs)]
          have hfp : FirstPiece t q (t.drop q.length) ∧ (chunks (t.drop q.length)).tail = qs := by
            rcases hq2 with ⟨rfl, rfl⟩ | ⟨s2, t2, hs2, rfl, rfl⟩
            · exact ⟨⟨by simp, hq, Or.inl (by simp)⟩, by simp [chunks]⟩
            · exact ⟨⟨by simp, hq, Or.inr ⟨s2, t2, hs2, by simp⟩⟩, by simp [chunks, (isSep_iff s2).mpr hs2]⟩
          refine ⟨p ++ [s], t, q, t.drop q.length, by simp, .behind hc hs, hfp.1, ?_⟩
          rw [cursor_endsPiece hfp.1.2.2, hfp.2, hlen]
          simp [layout, aNextND, spanAt, Nat.add_assoc]
    | cons w ws =>
      right
      have hc : ¬ OnlyCommas p := fun hc => by
        rw [(singleWords_eq_nil_iff p).mpr hc] at hw; simp at hw
      rcases hsplit with ⟨rfl, rfl⟩ | ⟨s, t, hs, rfl, ht⟩
      · refine ⟨[], cs, cs, [], by simp, ?_, ⟨by simp, hno, Or.inl rfl⟩, ?_⟩
        · simpa using Resumes.here (tail := []) hno hc (Or.inl rfl)
        · rw [cursor_endsPiece (Or.inl rfl)]
          simp [aNextND, layout, spanAt, chunks]
      · refine ⟨[], p ++ s :: t, p, s :: t, by simp, .here hno hc (Or.inr ⟨s, t, hs, rfl⟩), ⟨rfl, hno, Or.inr ⟨s, t, hs, rfl⟩⟩, ?_⟩
        rw [cursor_endsPiece (Or.inr ⟨s, t, hs, rfl⟩)]
        simp [aNextND, layout, spanAt, chunks, (isSep_iff s).mpr hs, ht]

end Sneturfahi
