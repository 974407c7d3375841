import Verif.Model.Decompose
import Verif.Model.ClassifyTable

/-!
# `src/lex/selmaho/classify.rs`
-/

namespace Sneturfahi

/-- The UTF-8 bytes of a text: `str::bytes`.  Used in `src/lex/selmaho/classify.rs:7-13`. -/
def utf8Bytes (cs : List Char) : List UInt8 := cs.flatMap String.utf8EncodeChar

/-- `std::str::from_utf8`.  Used in `src/lex/selmaho/classify.rs:26`. -/
def fromUtf8 (bs : List UInt8) : Option (List Char) :=
  (ByteArray.utf8Decode? ⟨bs.toArray⟩).map Array.toList

/-- The bytes the loop of `transform_for_direct_cmavo_check` runs over,
`src/lex/selmaho/classify.rs:7-13`: commas (byte 44) dropped, `h` (104) replaced by `'` (39). -/
def transformBytes (word : List Char) : List UInt8 :=
  ((utf8Bytes word).filter (fun b => b != 44)).map (fun b => if b == 104 then 39 else b)

/-- The loop itself, `src/lex/selmaho/classify.rs:7-21`, from byte number `index` on; it answers the
final `reached_index` and buffer. -/
def fillLoop : List UInt8 → Nat → Nat → List UInt8 → Nat × List UInt8
  | [], _, reached, buf => (reached, buf)
  | b :: bs, index, _, buf =>
    if index < buf.length then fillLoop bs (index + 1) index (buf.set index b)
    else (index, buf)

/-- `transform_for_direct_cmavo_check`, `src/lex/selmaho/classify.rs:4-28`. -/
def transformForDirectCmavoCheck (word : List Char) (buf : List UInt8) : Exec (Option (List Char)) :=
  let (reached, buf) := fillLoop (transformBytes word) 0 0 buf
  if buf.length ≤ reached then pure none
  else
    match fromUtf8 (buf.take (reached + 1)) with
    | some cs => pure (some cs)
    | none => .panic

/-- `ParseResult::succeeded_and_consumed_all`, `src/rules.rs:144-146`. -/
def succeededAndConsumedAll : ParseRes → Bool
  | some (_, rest) => rest.isEmpty
  | none => false

/-- `Selmaho::classify_generally`, `src/lex/selmaho/classify.rs:34-46`. -/
def classifyGenerally (other : Str) : Exec Selmaho := do
  if succeededAndConsumedAll (← runRule .cmevla other) then pure .Cmevla
  else if succeededAndConsumedAll (← runRule .cmavo_minimal other) then pure .UnknownCmavo
  else if succeededAndConsumedAll (← runRule .gismu other) then pure .Gismu
  else if succeededAndConsumedAll (← runRule .fuhivla other) then pure .Fuhivla
  else if succeededAndConsumedAll (← runRule .lujvo_minimal other) then pure .Lujvo
  else pure .AnyText

/-- The first arm one of whose literals is `w`.
How `match` goes through the literals of `src/lex/selmaho/classify.rs:71-476`. -/
def lookupArms (arms : List Arm) (w : List Char) : Option (Selmaho × Bool) :=
  match arms.find? (fun a => a.words.contains w) with
  | some a => some (a.selmaho, a.experimental)
  | none => none

/-- The `match direct_cmavo_check` without its last arm, `src/lex/selmaho/classify.rs:71-476`;
the guard arm for hesitations is at line 338. -/
def lookupDirect (w : List Char) : Option (Selmaho × Bool) :=
  match lookupArms armsBeforeY w with
  | some r => some r
  | none =>
    if !w.isEmpty && w.all (fun c => c == 'y') then some (.Y, false)
    else lookupArms armsAfterY w

/-- `Selmaho::classify`, `src/lex/selmaho/classify.rs:57-485`. -/
def classify (word : Str) : Exec (Selmaho × Bool) := do
  let direct ← transformForDirectCmavoCheck word.chars (List.replicate 16 0)
  let (selmaho, isExperimental) ←
    match direct with
    | some w =>
      match lookupDirect w with
      | some r => pure r
      | none => do pure (← classifyGenerally word, false)
    | none => do pure (← classifyGenerally word, false)
  pure (selmaho, selmaho.isFundamentallyExperimental || isExperimental)

end Sneturfahi
