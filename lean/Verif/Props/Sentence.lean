import Verif.Props.Join
import Verif.Proof.CstSentence

/-!
# C74: sentences are independent
-/

namespace Sneturfahi.Props

open Spec

theorem loose_notBound {q : List Token} (h : NotBound q) : Loose q := loose_of h

/-- **C74.** `A .i B` is a text exactly if `A` and `B` are: if `A` is a piece without wrapping words, `fa'o`, `ni'o` and `.i` that
does not end with `ba'e`, and `B` begins with a word that has nothing to do with the `.i`. -/
theorem C74_sentence (A B : List Token) (i : Token) (hA : Piece A) (hAi : ∀ t ∈ A, t.selmaho ≠ .I) (hi : i.selmaho = .I) (hB : Starts B) :
    IsText (A ++ i :: B) ↔ IsText A ∧ IsText B := by
  obtain ⟨us, b, rfl, hu, hb⟩ := hB
  rw [isText_iff, isText_iff, isText_iff]
  refine join_i hi (fun t ht hc => ?_) hA.last rfl hu ?_
  · have h1 := hA.plain t ht
    have h2 := hA.open_ t ht
    have h3 := hA.one t ht
    have h4 := hAi t ht
    revert hc h1 h2 h3 h4
    generalize t.selmaho = s
    cases s <;> decide
  · rcases hb with rfl | ⟨t, q, rfl, ht, hq⟩
    · exact .inl rfl
    · exact .inr ⟨[], t, q, rfl, nofun, mem_starters.mpr ht, loose_notBound hq⟩

/-- The example: `mi klama .i ui do mo`; and `mi cu .i do mo`, where the first part is no text. -/
example : Piece (toks [.Koha, .Gismu]) ∧ Starts (toks [.Ui, .Koha, .Goha]) ∧ IsText (toks [.Koha, .Gismu, .I, .Ui, .Koha, .Goha]) ∧
    ¬ IsText (toks [.Koha, .Cu, .I, .Koha, .Goha]) := by
  refine ⟨⟨by decide, by decide, by decide, by decide⟩, ?_, by decide +kernel, by decide +kernel⟩
  refine ⟨(toks [.Ui, .Koha, .Goha]).take 1, (toks [.Ui, .Koha, .Goha]).drop 1, rfl, by decide, .inr ⟨_, _, rfl, by decide, ?_⟩⟩
  intro bs t rest h hb
  cases bs with
  | nil => cases h; decide
  | cons b bs => exact absurd (hb b (by simp)) (by rw [← (List.cons.inj h).1]; decide)

/-- What follows the words of a piece. -/
theorem notBound_append {q B : List Token} {i : Token} (hq : ∀ t ∈ q, t.selmaho ≠ .Bu ∧ t.selmaho ≠ .Zei) (hi : i.selmaho = .I) :
    NotBound (q ++ i :: B) := by
  intro bs t r he hb
  rcases first_word (by rw [hi]; decide) he hb with ⟨l', h1, _⟩ | ⟨_, rfl, _⟩
  · exact hq t (by rw [h1]; simp)
  · rw [hi]; decide

theorem starts_append {A B : List Token} {i : Token} (hA : Piece A) (hs : Starts A) (hp : ∃ t ∈ A, t.selmaho ∉ indicating)
    (hi : i.selmaho = .I) : Starts (A ++ i :: B) := by
  obtain ⟨us, b, rfl, hu, hb⟩ := hs
  rcases hb with rfl | ⟨t, q, rfl, ht, hq⟩
  · obtain ⟨t, ht, h⟩ := hp
    rw [List.append_nil] at ht
    exact absurd (hu t ht) h
  · refine ⟨us, t :: (q ++ i :: B), by simp, hu, .inr ⟨t, _, rfl, ht, notBound_append (fun x hx => ?_) hi⟩⟩
    have := hA.plain x (by simp [hx])
    constructor <;> intro h <;> rw [h] at this <;> revert this <;> decide

/-- **C74.** A text cut at its `.i`s: the whole is a text exactly if every piece is. -/
theorem C74_sentences (pieces : List (List Token × Token)) (last : List Token)
    (hp : ∀ x ∈ pieces, Piece x.1 ∧ (∀ t ∈ x.1, t.selmaho ≠ .I) ∧ x.2.selmaho = .I)
    (hs : ∀ x ∈ pieces.tail, Starts x.1 ∧ ∃ t ∈ x.1, t.selmaho ∉ indicating) (hl : Starts last) :
    IsText (pieces.flatMap (fun x => x.1 ++ [x.2]) ++ last) ↔ (∀ x ∈ pieces, IsText x.1) ∧ IsText last := by
  induction pieces with
  | nil => simp
  | cons x pieces ih =>
    have hx := hp x (by simp)
    have hrest := fun y hy => hp y (List.mem_cons_of_mem x hy)
    have hb : Starts (pieces.flatMap (fun x => x.1 ++ [x.2]) ++ last) := by
      cases pieces with
      | nil => simpa using hl
      | cons y pieces =>
        have hy := hp y (by simp)
        have hz := hs y (by simp)
        have := starts_append (B := pieces.flatMap (fun x => x.1 ++ [x.2]) ++ last) hy.1 hz.1 hz.2 hy.2.2
        simpa using this
    have he : (x :: pieces).flatMap (fun x => x.1 ++ [x.2]) ++ last = x.1 ++ x.2 :: (pieces.flatMap (fun x => x.1 ++ [x.2]) ++ last) := by
      simp
    rw [he, C74_sentence _ _ _ hx.1 hx.2.1 hx.2.2 hb, ih hrest (fun y hy => hs y (List.mem_of_mem_tail hy))]
    simp [and_assoc]

/-- The example: three sentences. -/
example : IsText (toks [.Koha, .Gismu, .I, .Le, .Gismu, .I, .Koha, .Gismu]) := by decide +kernel

/-- **C74.** What the conditions are for: with `je`, `bo`, a tag and `bo`, or after a free modifier `.i je`, the `.i` does not stand
between two texts, or what stands there does not make the text one. -/
theorem C74_conditions :
    (IsText (toks [.Koha, .I, .Ja, .Koha, .Gismu]) ∧ ¬ IsText (toks [.Ja, .Koha, .Gismu])) ∧
    (IsText (toks [.Koha, .Gismu, .I, .Bo, .Koha, .Gismu]) ∧ ¬ IsText (toks [.Bo, .Koha, .Gismu])) ∧
    (IsText (toks [.Koha, .Gismu, .I, .Pu, .Bo, .Koha, .Gismu]) ∧ ¬ IsText (toks [.Pu, .Bo, .Koha, .Gismu])) ∧
    (IsText (toks [.I, .I, .Ja, .Koha, .Gismu]) ∧ ¬ IsText (toks [.I, .Ja, .Koha, .Gismu])) ∧
    (IsText (toks [.I, .Bu]) ∧ ¬ IsText (toks [.Bu])) := by
  refine ⟨⟨?_, ?_⟩, ⟨?_, ?_⟩, ⟨?_, ?_⟩, ⟨?_, ?_⟩, ⟨?_, ?_⟩⟩ <;> decide +kernel

end Sneturfahi.Props
