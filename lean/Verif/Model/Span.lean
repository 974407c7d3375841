import Verif.Model.Prim

/-!
# `src/span.rs`

`Location = u32` (`src/span.rs:7`) is modelled by a natural number; every operation that could leave
the range of `u32` goes through `addU32`, `subU32` or `tryU32`, which panic or wrap as the build
profile says.
-/

namespace Sneturfahi

/-- `Span`, `src/span.rs:18-23`.  Both fields are public, so a value with `stop < start` exists. -/
structure Span where
  start : Nat
  stop : Nat
deriving DecidableEq, Repr

namespace Span

/-- `Span::new`, `src/span.rs:47-50`. -/
def new (start stop : Nat) : Exec Span :=
  if start ≤ stop then .val ⟨start, stop⟩ else .panic

/-- `Span::at`, `src/span.rs:64-69`. -/
def «at» (p : Profile) (start len : Nat) : Exec Span := do
  let stop ← addU32 p start len
  pure ⟨start, stop⟩

/-- `Span::len`, `src/span.rs:83-85`. -/
def len (p : Profile) (s : Span) : Exec Nat := subU32 p s.stop s.start

/-- `Span::is_empty`, `src/span.rs:99-101`. -/
def isEmpty (s : Span) : Bool := s.stop == s.start

/-- `Span::contains`, `src/span.rs:287-289`. -/
def contains (s : Span) (l : Nat) : Bool := decide (s.start ≤ l) && decide (l < s.stop)

/-- `non_commutative_empty_check`, `src/span.rs:311-313`. -/
def nonCommutativeEmptyCheck (left right : Span) : Bool :=
  left.isEmpty && (right.stop == left.start || right.start == left.start)

/-- `non_commutative_helper`, `src/span.rs:314-316`; `||` does not evaluate its right operand when the
left one is true. -/
def nonCommutativeHelper (p : Profile) (left right : Span) : Exec Bool :=
  if left.contains right.start then .val true
  else do
    let last ← subU32 p right.stop 1
    pure (left.contains last)

/-- `Span::overlaps_with`, `src/span.rs:310-322`. -/
def overlapsWith (p : Profile) (a b : Span) : Exec Bool :=
  if nonCommutativeEmptyCheck a b || nonCommutativeEmptyCheck b a then .val false
  else do
    if ← nonCommutativeHelper p a b then pure true
    else nonCommutativeHelper p b a

/-- `Span::between`, `src/span.rs:118-127`. -/
def between (p : Profile) (before after : Span) : Exec (Option Span) := do
  if ← before.overlapsWith p after then pure none
  else if after.start ≤ before.stop then pure none
  else pure (some ⟨before.stop, after.start⟩)

/-- `Span::entire_slice`, `src/span.rs:146-151`. -/
def entireSlice (input : Str) : Exec Span := do
  let stop ← tryU32 input.len
  pure ⟨0, stop⟩

/-- `Span::from_embedded_slice`, `src/span.rs:174-180`; the `assert!` is the panic of `subPtr`. -/
def fromEmbeddedSlice (p : Profile) (outerStartPtr : Nat) (embedded : Str) : Exec Span := do
  let offset ← subPtr embedded.ptr outerStartPtr
  let start ← tryU32 offset
  let n ← tryU32 embedded.len
  let stop ← addU32 p start n
  pure ⟨start, stop⟩

/-- `Span::slice`, `src/span.rs:212-214`. -/
def slice (s : Span) (text : Str) : Option Str := text.get s.start s.stop

/-- `Span::slice_after`, `src/span.rs:240-242`. -/
def sliceAfter (s : Span) (text : Str) : Option Str := text.getFrom s.stop

/-- `Span::slice_before`, `src/span.rs:268-270`. -/
def sliceBefore (s : Span) (text : Str) : Option Str := text.getTo s.start

/-- `span.slice(text).unwrap()`, the idiom used by the lexer and by callers.  `src/lex/mod.rs:172, 221-222`. -/
def sliceUnwrap (s : Span) (text : Str) : Exec Str :=
  match s.slice text with
  | some r => .val r
  | none => .panic

end Span

end Sneturfahi
