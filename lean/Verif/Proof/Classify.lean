import Verif.Proof.Single
import Verif.Model.Classify

/-!
# `classify` without bytes and addresses

`classifyPure` computes the classification from the characters of the word alone; `classify_eq`
shows that the byte-level model never panics and returns it.
-/

namespace Sneturfahi

/-! ### Bytes of characters -/

theorem utf8Bytes_nil : utf8Bytes [] = [] := rfl
theorem utf8Bytes_cons (c : Char) (cs : List Char) :
    utf8Bytes (c :: cs) = String.utf8EncodeChar c ++ utf8Bytes cs := rfl

theorem utf8Bytes_length (cs : List Char) : (utf8Bytes cs).length = byteLen cs := by
  induction cs with
  | nil => rfl
  | cons c cs ih => rw [utf8Bytes_cons, List.length_append, ih, String.length_utf8EncodeChar, byteLen]

theorem fromUtf8_utf8Bytes (cs : List Char) : fromUtf8 (utf8Bytes cs) = some cs := by
  have h1 : (ByteArray.mk (utf8Bytes cs).toArray) = cs.utf8Encode := by
    rw [List.utf8Encode]
    apply ByteArray.ext
    simp [utf8Bytes]
  rw [fromUtf8, h1, List.utf8Decode?_utf8Encode]
  rfl

/-- `h` becomes an apostrophe. -/
def hToApostrophe (c : Char) : Char := if c = 'h' then '\'' else c

theorem encode_ascii {c : Char} (h : c.val.toNat ≤ 127) :
    String.utf8EncodeChar c = [UInt8.ofNat c.val.toNat] := by
  simp only [String.utf8EncodeChar, if_pos h]

theorem encode_big {c : Char} (h : ¬ c.val.toNat ≤ 127) : ∀ b ∈ String.utf8EncodeChar c, 128 ≤ b.toNat := by
  intro b hb
  simp only [String.utf8EncodeChar, if_neg h] at hb
  split at hb
  · simp only [List.mem_cons, List.not_mem_nil, or_false] at hb
    rcases hb with rfl | rfl <;> simp only [UInt8.toNat_ofNat'] <;> omega
  · split at hb
    · simp only [List.mem_cons, List.not_mem_nil, or_false] at hb
      rcases hb with rfl | rfl | rfl <;> simp only [UInt8.toNat_ofNat'] <;> omega
    · simp only [List.mem_cons, List.not_mem_nil, or_false] at hb
      rcases hb with rfl | rfl | rfl | rfl <;> simp only [UInt8.toNat_ofNat'] <;> omega

theorem char_eq_of_val {c d : Char} (h : c.val.toNat = d.val.toNat) : c = d :=
  Char.ext (UInt32.toNat_inj.mp h)

/-- What the byte loop makes of one character. -/
theorem transform_char (c : Char) :
    ((String.utf8EncodeChar c).filter (fun b => b != 44)).map (fun b => if b == 104 then 39 else b) =
      if c = ',' then [] else String.utf8EncodeChar (hToApostrophe c) := by
  by_cases hc : c = ','
  · subst hc; decide
  · rw [if_neg hc]
    by_cases hh : c = 'h'
    · subst hh; decide
    · rw [hToApostrophe, if_neg hh]
      have key : ∀ b ∈ String.utf8EncodeChar c, b ≠ 44 ∧ b ≠ 104 := by
        intro b hb
        by_cases ha : c.val.toNat ≤ 127
        · rw [encode_ascii ha] at hb
          simp only [List.mem_singleton] at hb
          subst hb
          constructor
          · intro h
            apply hc
            apply char_eq_of_val
            have := congrArg UInt8.toNat h
            simp only [UInt8.toNat_ofNat'] at this
            have e : (44 : UInt8).toNat = 44 := rfl
            have e' : (',' : Char).val.toNat = 44 := rfl
            omega
          · intro h
            apply hh
            apply char_eq_of_val
            have := congrArg UInt8.toNat h
            simp only [UInt8.toNat_ofNat'] at this
            have e : (104 : UInt8).toNat = 104 := rfl
            have e' : ('h' : Char).val.toNat = 104 := rfl
            omega
        · have := encode_big ha b hb
          constructor
          · rintro rfl
            have e : (44 : UInt8).toNat = 44 := rfl
            omega
          · rintro rfl
            have e : (104 : UInt8).toNat = 104 := rfl
            omega
      have h1 : (String.utf8EncodeChar c).filter (fun b => b != 44) = String.utf8EncodeChar c := by
        rw [List.filter_eq_self]
        intro b hb
        simpa using (key b hb).1
      rw [h1]
      conv => rhs; rw [← List.map_id (String.utf8EncodeChar c)]
      apply List.map_congr_left
      intro b hb
      have := (key b hb).2
      simp [this]

/-- The text looked up in the table: commas dropped, `h` replaced by an apostrophe. -/
def tableText (cs : List Char) : List Char := (noCommas cs).map hToApostrophe

theorem transformBytes_eq (cs : List Char) : transformBytes cs = utf8Bytes (tableText cs) := by
  induction cs with
  | nil => rfl
  | cons c cs ih =>
    have h : transformBytes (c :: cs) =
        ((String.utf8EncodeChar c).filter (fun b => b != 44)).map (fun b => if b == 104 then 39 else b) ++
          transformBytes cs := by
      simp [transformBytes, utf8Bytes_cons]
    rw [h, transform_char, ih]
    by_cases hc : c = ','
    · subst hc
      simp [tableText, noCommas_cons_comma]
    · rw [if_neg hc]
      simp [tableText, noCommas_cons hc, utf8Bytes_cons]

/-! ### The buffer loop -/

theorem fillLoop_fits (bs : List UInt8) (index r : Nat) (pre rest : List UInt8)
    (hi : pre.length = index) (hl : bs.length ≤ rest.length) (hb : bs ≠ []) :
    fillLoop bs index r (pre ++ rest) = (index + bs.length - 1, pre ++ bs ++ rest.drop bs.length) := by
  induction bs generalizing index r pre rest with
  | nil => exact absurd rfl hb
  | cons b bs ih =>
    cases rest with
    | nil => simp at hl
    | cons x rest =>
      rw [fillLoop, if_pos (by simp; omega)]
      have hset : (pre ++ x :: rest).set index b = (pre ++ [b]) ++ rest := by
        subst hi
        simp
      rw [hset]
      by_cases hbs : bs = []
      · subst hbs
        simp [fillLoop]
      · rw [ih (index + 1) index (pre ++ [b]) rest (by simp [hi]) (by simpa using hl) hbs]
        simp only [List.length_cons, List.append_assoc, List.singleton_append, List.drop_succ_cons]
        congr 1
        omega

theorem fillLoop_long (bs : List UInt8) (index r : Nat) (pre rest : List UInt8)
    (hi : pre.length = index) (hl : rest.length < bs.length) :
    ∃ buf, fillLoop bs index r (pre ++ rest) = (index + rest.length, buf) ∧
      buf.length = index + rest.length := by
  induction rest generalizing bs index r pre with
  | nil =>
    cases bs with
    | nil => simp at hl
    | cons b bs =>
      rw [fillLoop, if_neg (by simp; omega)]
      exact ⟨_, rfl, by simp [hi]⟩
  | cons x rest ih =>
    cases bs with
    | nil => simp at hl
    | cons b bs =>
      rw [fillLoop, if_pos (by simp; omega)]
      have hset : (pre ++ x :: rest).set index b = (pre ++ [b]) ++ rest := by
        subst hi
        simp
      rw [hset]
      obtain ⟨buf, h1, h2⟩ := ih bs (index + 1) index (pre ++ [b]) (by simp [hi]) (by simpa using hl)
      refine ⟨buf, ?_, ?_⟩
      · rw [h1]
        simp only [List.length_cons]
        congr 1
        omega
      · rw [h2]
        simp only [List.length_cons]
        omega

/-- The text the `match` of `classify` looks at, if any: only up to 16 bytes; the empty text turns into
the single character NUL. -/
def directText (cs : List Char) : Option (List Char) :=
  if 16 < byteLen (tableText cs) then none
  else if tableText cs = [] then some ['\x00']
  else some (tableText cs)

theorem transform_eq (cs : List Char) :
    transformForDirectCmavoCheck cs (List.replicate 16 0) = .val (directText cs) := by
  unfold transformForDirectCmavoCheck
  rw [transformBytes_eq]
  by_cases hl : 16 < byteLen (tableText cs)
  · obtain ⟨buf, h1, h2⟩ := fillLoop_long (utf8Bytes (tableText cs)) 0 0 [] (List.replicate 16 0) rfl
      (by rw [utf8Bytes_length]; simpa using hl)
    rw [List.nil_append] at h1
    rw [h1]
    simp [h2, directText, hl]
  · by_cases hn : tableText cs = []
    · rw [hn, utf8Bytes_nil, fillLoop]
      have : fromUtf8 (List.take (0 + 1) (List.replicate 16 0)) = some ['\x00'] := by
        have h := fromUtf8_utf8Bytes ['\x00']
        exact h
      simp only [List.length_replicate, Nat.reduceLeDiff, if_false, this]
      simp [directText, hn]
    · have hb : utf8Bytes (tableText cs) ≠ [] := by
        intro h
        have := congrArg List.length h
        rw [utf8Bytes_length] at this
        cases ht : tableText cs with
        | nil => exact hn ht
        | cons c t =>
          rw [ht, byteLen] at this
          have := Char.utf8Size_pos c
          simp at *
          omega
      have hf := fillLoop_fits (utf8Bytes (tableText cs)) 0 0 [] (List.replicate 16 0) rfl
        (by rw [utf8Bytes_length]; simp; omega) hb
      rw [List.nil_append, List.nil_append] at hf
      rw [hf]
      have hp : 0 < (utf8Bytes (tableText cs)).length := List.length_pos_iff.mpr hb
      have hlen := utf8Bytes_length (tableText cs)
      have hnot : ¬ ((utf8Bytes (tableText cs)) ++
          List.drop (utf8Bytes (tableText cs)).length (List.replicate 16 0)).length ≤
          0 + (utf8Bytes (tableText cs)).length - 1 := by
        simp only [List.length_append, List.length_drop, List.length_replicate]
        omega
      simp only [if_neg hnot]
      have htake : List.take (0 + (utf8Bytes (tableText cs)).length - 1 + 1)
          ((utf8Bytes (tableText cs)) ++
            List.drop (utf8Bytes (tableText cs)).length (List.replicate 16 0)) =
          utf8Bytes (tableText cs) := by
        have : 0 + (utf8Bytes (tableText cs)).length - 1 + 1 = (utf8Bytes (tableText cs)).length := by omega
        rw [this, List.take_left']
        rfl
      rw [htake, fromUtf8_utf8Bytes]
      simp [directText, hl, hn]

/-! ### The pure classification -/

/-- The rule matches the whole text. -/
def matchesAll (rule : Rule) (cs : List Char) : Bool :=
  match parseRule rule cs with
  | some (_, r) => r.isEmpty
  | none => false

theorem consumedAll_eq (rule : Rule) (s : Str) :
    succeededAndConsumedAll (Res.at s.ptr (parseRule rule s.chars)) = matchesAll rule s.chars := by
  unfold matchesAll
  cases parseRule rule s.chars with
  | none => rfl
  | some x => rfl

/-- `classify_generally` on pure text. -/
def generalPure (cs : List Char) : Selmaho :=
  if matchesAll .cmevla cs then .Cmevla
  else if matchesAll .cmavo_minimal cs then .UnknownCmavo
  else if matchesAll .gismu cs then .Gismu
  else if matchesAll .fuhivla cs then .Fuhivla
  else if matchesAll .lujvo_minimal cs then .Lujvo
  else .AnyText

theorem classifyGenerally_eq (s : Str) : classifyGenerally s = .val (generalPure s.chars) := by
  simp only [classifyGenerally, runRule_eq, Exec.val_bind, consumedAll_eq, generalPure, Exec.pure_eq]
  cases matchesAll .cmevla s.chars <;> cases matchesAll .cmavo_minimal s.chars <;>
    cases matchesAll .gismu s.chars <;> cases matchesAll .fuhivla s.chars <;>
    cases matchesAll .lujvo_minimal s.chars <;> rfl

/-- The selmaho and the flag of the table, before the fundamentally experimental selmaho are added. -/
def classifyBase (cs : List Char) : Selmaho × Bool :=
  match (directText cs).bind lookupDirect with
  | some r => r
  | none => (generalPure cs, false)

/-- `classify` on pure text. -/
def classifyPure (cs : List Char) : Selmaho × Bool :=
  ((classifyBase cs).1, (classifyBase cs).1.isFundamentallyExperimental || (classifyBase cs).2)

theorem classify_eq (s : Str) : classify s = .val (classifyPure s.chars) := by
  simp only [classify, transform_eq, Exec.val_bind, classifyPure, classifyBase]
  cases hd : directText s.chars with
  | none => simp only [classifyGenerally_eq, Exec.val_bind, Exec.pure_eq, Option.bind_none]
  | some w =>
    simp only [Option.bind_some]
    cases lookupDirect w with
    | none => simp only [classifyGenerally_eq, Exec.val_bind, Exec.pure_eq]
    | some r => rfl

end Sneturfahi
