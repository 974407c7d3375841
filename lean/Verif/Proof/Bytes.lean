import Verif.Model.Bytes
import Verif.Spec.Utf8
import Verif.Proof.Program

/-!
# Lines of bytes are lines of text
-/

namespace Sneturfahi.Bytes

open Sneturfahi Spec

theorem encode_cons (c : Char) (t : List Char) : encode (c :: t) = String.utf8EncodeChar c ++ encode t := by
  simp [encode]

theorem encode_append (t u : List Char) : encode (t ++ u) = encode t ++ encode u := by
  simp [encode]

theorem toByteArray_eq (b : List UInt8) : (⟨b.toArray⟩ : ByteArray) = b.toByteArray := by
  apply ByteArray.ext
  simp

theorem from_encode (t : List Char) : fromUtf8 (encode t) = some t := by
  unfold fromUtf8 encode
  rw [toByteArray_eq]
  have : (t.flatMap String.utf8EncodeChar).toByteArray = t.utf8Encode := rfl
  rw [this, List.utf8Decode?_utf8Encode]
  rfl

theorem toByteArray_inj {a b : List UInt8} (h : a.toByteArray = b.toByteArray) : a = b := by
  have := congrArg (fun x => x.data.toList) h
  simpa using this

theorem from_none {b : List UInt8} (h : ¬ Utf8 b) : fromUtf8 b = none := by
  unfold fromUtf8
  rw [toByteArray_eq]
  cases hd : b.toByteArray.utf8Decode? with
  | none => rfl
  | some l =>
    have := ByteArray.isSome_utf8Decode?_iff.mp (show b.toByteArray.utf8Decode?.isSome = true by rw [hd]; rfl)
    obtain ⟨m, hm⟩ := this
    exact absurd ⟨m, toByteArray_inj hm⟩ h

theorem newline_byte {c : Char} (h : (10 : UInt8) ∈ String.utf8EncodeChar c) : c = '\n' := by
  have key : ∀ n : Nat, (10 : UInt8) = UInt8.ofNat n → n % 256 = 10 := by
    intro n hn
    have := congrArg UInt8.toNat hn
    simpa using this.symm
  unfold String.utf8EncodeChar at h
  simp only at h
  split at h
  · have := key _ (List.mem_singleton.mp h)
    apply Char.ext
    apply UInt32.toNat_inj.mp
    show c.val.toNat = 10
    omega
  split at h
  · simp only [List.mem_cons, List.not_mem_nil, or_false] at h
    rcases h with h | h <;> have := key _ h <;> omega
  split at h
  · simp only [List.mem_cons, List.not_mem_nil, or_false] at h
    rcases h with h | h | h <;> have := key _ h <;> omega
  · simp only [List.mem_cons, List.not_mem_nil, or_false] at h
    rcases h with h | h | h | h <;> have := key _ h <;> omega

theorem encodeChar_ne (c : Char) : String.utf8EncodeChar c ≠ [] := by
  unfold String.utf8EncodeChar
  simp only
  split
  · simp
  split
  · simp
  split <;> simp

/-- Bytes without a newline are read on over. -/
theorem readLineBytes_skip : ∀ (l r : List UInt8), 10 ∉ l →
    readLineBytes (l ++ r) = (l ++ (readLineBytes r).1, (readLineBytes r).2)
  | [], r, _ => rfl
  | c :: l, r, h => by
    simp only [List.mem_cons, not_or] at h
    have hc : ¬ c = 10 := fun e => h.1 e.symm
    simp only [List.cons_append, readLineBytes, if_neg hc, readLineBytes_skip l r h.2]

/-- The first line of a text as bytes. -/
theorem readLineBytes_encode : ∀ (t : List Char) (tail : List UInt8), tail = [] ∨ (t ≠ [] ∧ Complete t) →
    readLineBytes (encode t ++ tail) = (encode (readLine t).1, encode (readLine t).2 ++ tail)
  | [], tail, h => by
    rcases h with rfl | ⟨h, _⟩
    · rfl
    · exact absurd rfl h
  | c :: t, tail, h => by
    by_cases hc : c = '\n'
    · subst hc
      have h10 : String.utf8EncodeChar '\n' = [10] := by decide
      rw [encode_cons, h10]
      simp only [readLine, if_true, List.cons_append, List.nil_append, readLineBytes, encode_cons, h10]
      rfl
    · have hn : (10 : UInt8) ∉ String.utf8EncodeChar c := fun h => hc (newline_byte h)
      have h' : tail = [] ∨ (t ≠ [] ∧ Complete t) := by
        rcases h with h | ⟨_, h | ⟨u, h⟩⟩
        · exact .inl h
        · cases h
        · cases u with
          | nil =>
            simp only [List.nil_append, List.cons.injEq] at h
            exact absurd h.1 hc
          | cons d u =>
            simp only [List.cons_append, List.cons.injEq] at h
            exact .inr ⟨by rw [h.2]; simp, .inr ⟨u, h.2⟩⟩
      have ih := readLineBytes_encode t tail h'
      rw [encode_cons, List.append_assoc, readLineBytes_skip _ _ hn, ih]
      simp only [readLine, if_neg hc, encode_cons]

theorem readLine_parts : ∀ t : List Char, t = (readLine t).1 ++ (readLine t).2
  | [] => rfl
  | c :: t => by
    unfold readLine
    split
    · rfl
    · simp only [List.cons_append]
      rw [← readLine_parts t]

theorem readLine_ne {t : List Char} (h : t ≠ []) : (readLine t).1 ≠ [] := by
  cases t with
  | nil => exact absurd rfl h
  | cons c t =>
    unfold readLine
    split <;> simp

theorem readLine_rest_complete {t : List Char} (h : Complete t) : Complete (readLine t).2 := by
  rcases h with rfl | ⟨u, hu⟩
  · exact .inl rfl
  · by_cases hr : (readLine t).2 = []
    · exact .inl hr
    · obtain ⟨v, c, hv⟩ : ∃ v c, (readLine t).2 = v ++ [c] :=
        ⟨_, _, (List.dropLast_concat_getLast hr).symm⟩
      have := readLine_parts t
      rw [hv, ← List.append_assoc] at this
      have h2 := List.append_inj' (this.symm.trans hu) rfl
      simp only [List.cons.injEq, and_true] at h2
      exact .inr ⟨v, by rw [hv, h2.2]⟩

theorem encode_ne {t : List Char} (h : t ≠ []) : encode t ≠ [] := by
  cases t with
  | nil => exact absurd rfl h
  | cons c t =>
    rw [encode_cons]
    intro he
    exact encodeChar_ne c (List.append_eq_nil_iff.mp he).1

/-- The loop on a text followed by bytes at which it stops. -/
theorem loop (p : Profile) (args : Args) (s : Surroundings) (tail : List UInt8) (flag : Bool)
    (htail : ∀ n, replLoopBytes p args s (n + 1) tail = .val ⟨⟨[], c!"> "⟩, flag⟩) :
    ∀ (m : Nat) (t : List Char), t.length < m → ∀ n, (encode t ++ tail).length < n → (tail = [] ∨ Complete t) →
      replLoopBytes p args s n (encode t ++ tail) = replLoop p args s m t >>= fun x => pure ⟨x, flag⟩ := by
  intro m
  induction m with
  | zero => intro t h; omega
  | succ m ih =>
    intro t hm n hn hc
    cases n with
    | zero => omega
    | succ n =>
      by_cases ht : t = []
      · subst ht
        have : encode [] ++ tail = tail := rfl
        rw [this, htail n]
        rfl
      · have hread := readLineBytes_encode t tail (hc.imp id fun h => ⟨ht, h⟩)
        have hparts := readLine_parts t
        have hne := readLine_ne ht
        unfold replLoopBytes replLoop
        rw [hread]
        simp only [from_encode]
        have hl : ¬ (encode (readLine t).1).length = 0 := by
          intro h
          exact encode_ne hne (List.eq_nil_of_length_eq_zero h)
        have hl' : ¬ (readLine t).1.length = 0 := by
          intro h
          exact hne (List.eq_nil_of_length_eq_zero h)
        rw [if_neg hl, if_neg hl']
        have hlen : (readLine t).2.length < m := by
          have := congrArg List.length hparts
          simp only [List.length_append] at this
          omega
        have hlen' : (encode (readLine t).2 ++ tail).length < n := by
          have h1 : encode t = encode (readLine t).1 ++ encode (readLine t).2 := by
            rw [← encode_append, ← hparts]
          rw [h1] at hn
          simp only [List.length_append] at hn ⊢
          omega
        rw [ih _ hlen n hlen' (hc.imp id readLine_rest_complete)]
        cases handle p args s (Str.trim ⟨s.bufferAt (readLine t).1, (readLine t).1⟩) with
        | val out =>
          simp only [Exec.val_bind]
          cases replLoop p args s m (readLine t).2 <;> rfl
        | panic => rfl
        | diverge => rfl

theorem loop_nil (p : Profile) (args : Args) (s : Surroundings) (n : Nat) :
    replLoopBytes p args s (n + 1) [] = .val ⟨⟨[], c!"> "⟩, false⟩ := by
  have h : fromUtf8 [] = some [] := from_encode []
  unfold replLoopBytes
  simp only [readLineBytes, h]
  rfl

/-- The loop stops at a line that is no text. -/
theorem loop_bad (p : Profile) (args : Args) (s : Surroundings) (bad rest : List UInt8) (h1 : OneLine bad) (h2 : ¬ Utf8 bad)
    (h3 : bad.getLast? = some 10 ∨ rest = []) (n : Nat) :
    replLoopBytes p args s (n + 1) (bad ++ rest) = .val ⟨⟨[], c!"> "⟩, true⟩ := by
  have hread : (readLineBytes (bad ++ rest)).1 = bad := by
    obtain ⟨l, hl, rfl | rfl⟩ := h1
    · rcases h3 with h3 | rfl
      · exact absurd (List.mem_of_getLast? h3) hl
      · rw [readLineBytes_skip _ _ hl]
        simp [readLineBytes]
    · rw [List.append_assoc, readLineBytes_skip _ _ hl]
      simp [readLineBytes]
  unfold replLoopBytes
  cases hr : readLineBytes (bad ++ rest) with
  | mk line r =>
    rw [hr] at hread
    simp only at hread
    subst hread
    simp only [from_none h2]
    rfl

/-- Bytes are those of a text, or of complete lines of text followed by a line that is no text. -/
theorem split : ∀ (n : Nat) (b : List UInt8), b.length ≤ n → Utf8 b ∨
    ∃ t bad rest, b = encode t ++ bad ++ rest ∧ Complete t ∧ OneLine bad ∧ ¬ Utf8 bad ∧ (bad.getLast? = some 10 ∨ rest = []) := by
  intro n
  induction n with
  | zero =>
    intro b h
    exact .inl ⟨[], List.eq_nil_of_length_eq_zero (by omega)⟩
  | succ n ih =>
    intro b hb
    have hline : ∀ b : List UInt8, 10 ∉ b ∨ ∃ l r, b = l ++ 10 :: r ∧ 10 ∉ l := by
      intro b
      by_cases h : (10 : UInt8) ∈ b
      · obtain ⟨l, r, h1, h2⟩ := List.append_of_mem h |> fun ⟨l, r, h⟩ => List.eq_append_cons_of_mem (by rw [h]; simp : (10 : UInt8) ∈ b)
        exact .inr ⟨l, r, h1, h2⟩
      · exact .inl h
    rcases hline b with h | ⟨l, r, rfl, hl⟩
    · by_cases hu : Utf8 b
      · exact .inl hu
      · exact .inr ⟨[], b, [], by simp [encode], .inl rfl, ⟨b, h, .inl rfl⟩, hu, .inr rfl⟩
    · by_cases hu : Utf8 (l ++ [10])
      · obtain ⟨u, hu⟩ := hu
        have hcu : Complete u := by
          by_cases hne : u = []
          · exact .inl hne
          · refine .inr ⟨u.dropLast, ?_⟩
            have h1 := List.dropLast_concat_getLast hne
            have h2 : encode u = encode u.dropLast ++ String.utf8EncodeChar (u.getLast hne) := by
              conv => lhs; rw [← h1, encode_append]
              simp [encode]
            rw [h2] at hu
            have h3 : (10 : UInt8) ∈ String.utf8EncodeChar (u.getLast hne) := by
              have h5 := encodeChar_ne (u.getLast hne)
              rw [← List.dropLast_concat_getLast h5, ← List.append_assoc] at hu
              have h4 := (List.append_inj' hu rfl).2
              simp only [List.cons.injEq, and_true] at h4
              rw [h4]
              exact List.getLast_mem h5
            rw [newline_byte h3] at h1
            exact h1.symm
        have hsplit : l ++ 10 :: r = encode u ++ r := by rw [← hu]; simp
        rcases ih r (by simp at hb; omega) with ⟨t, rfl⟩ | ⟨t, bad, rest, rfl, h1, h2⟩
        · exact .inl ⟨u ++ t, by rw [hsplit, encode_append]⟩
        · refine .inr ⟨u ++ t, bad, rest, by rw [hsplit, encode_append]; simp, ?_, h2⟩
          rcases h1 with rfl | ⟨v, rfl⟩
          · simpa using hcu
          · exact .inr ⟨u ++ v, by simp⟩
      · exact .inr ⟨[], l ++ [10], r, by simp [encode], .inl rfl, ⟨l, hl, .inr rfl⟩, hu, .inl (by simp)⟩

end Sneturfahi.Bytes
