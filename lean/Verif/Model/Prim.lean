/-!
# Primitives shared by every model module

Rust constructs modelled here: panics and non-termination (`Exec`), `&str` slices with their
addresses (`Str`), and `u32` arithmetic in the two build profiles (`Profile`).
-/

namespace Sneturfahi

/-- The outcome of running a piece of Rust code: a value, a panic, or an endless loop / endless
recursion.  Every partial operation of the Rust source is modelled by an explicit `panic`; every loop
or recursion whose termination is not syntactically evident is modelled with a fuel that answers
`diverge` when it runs out.  (Stack exhaustion and allocation failure are not modelled.)
No counterpart in `/repo`: the semantics of Rust. -/
inductive Exec (α : Type) where
  | val (a : α)
  | panic
  | diverge
deriving DecidableEq, Repr

namespace Exec

/-- Sequencing of Rust statements: a panic or a divergence of the first stops everything.
No counterpart in `/repo`: the semantics of Rust. -/
def bind {α β : Type} (x : Exec α) (f : α → Exec β) : Exec β :=
  match x with
  | .val a => f a
  | .panic => .panic
  | .diverge => .diverge

/-- Apply a pure function to the value of a computation.  No counterpart in `/repo`: the semantics of Rust. -/
def map {α β : Type} (f : α → β) (x : Exec α) : Exec β :=
  match x with
  | .val a => .val (f a)
  | .panic => .panic
  | .diverge => .diverge

instance : Monad Exec where
  pure := .val
  bind := Exec.bind
  map := Exec.map

@[simp] theorem pure_eq {α : Type} (a : α) : (pure a : Exec α) = .val a := rfl
@[simp] theorem val_bind {α β : Type} (a : α) (f : α → Exec β) : (Exec.val a >>= f) = f a := rfl
@[simp] theorem panic_bind {α β : Type} (f : α → Exec β) : ((Exec.panic : Exec α) >>= f) = .panic := rfl
@[simp] theorem diverge_bind {α β : Type} (f : α → Exec β) :
    ((Exec.diverge : Exec α) >>= f) = .diverge := rfl
@[simp] theorem bind_def {α β : Type} (x : Exec α) (f : α → Exec β) : Exec.bind x f = (x >>= f) := rfl
@[simp] theorem map_val {α β : Type} (f : α → β) (a : α) : (f <$> (Exec.val a)) = .val (f a) := rfl
@[simp] theorem map_panic {α β : Type} (f : α → β) : (f <$> (Exec.panic : Exec α)) = .panic := rfl
@[simp] theorem map_diverge {α β : Type} (f : α → β) : (f <$> (Exec.diverge : Exec α)) = .diverge := rfl

end Exec

/-- A string literal as a list of characters, expanded at elaboration time. -/
macro:max "c!" s:str : term => do
  let cs := s.getString.toList
  let elems : Array (Lean.TSyntax `term) :=
    (cs.map fun c => (⟨Lean.Syntax.mkCharLit c⟩ : Lean.TSyntax `term)).toArray
  `([$elems,*])

/-- The number of bytes of a sequence of characters in UTF-8: `str::len`.
From `core`; used in `src/rules.rs:110`, `src/decompose/mod.rs:218`, `src/span.rs:146-180`. -/
def byteLen : List Char → Nat
  | [] => 0
  | c :: cs => c.utf8Size + byteLen cs

/-- `text.chars().filter(|&ch| ch != ',')`: a text without its commas.  `src/lex/mod.rs:224-226`. -/
def noCommas (cs : List Char) : List Char := cs.filter (fun c => c != ',')

/-- The number of values of a `usize`/pointer is not modelled (addresses are unbounded naturals);
`u32` locations are bounded by this modulus.  `src/span.rs:7`. -/
def u32Size : Nat := 4294967296

/-- The two cargo profiles differ in what unsigned overflow does: a panic (`debug`,
`overflow-checks = true`) or silent wrap-around (`release`).  Cargo's profiles; `Cargo.toml` changes neither. -/
inductive Profile where
  | debug
  | release
deriving DecidableEq, Repr

/-- `a + b` on `u32` (operands assumed `< 2^32`).  Used in `src/span.rs:64-69` and `src/decompose/mod.rs:133-136`. -/
def addU32 (p : Profile) (a b : Nat) : Exec Nat :=
  if a + b < u32Size then .val (a + b)
  else match p with
    | .debug => .panic
    | .release => .val ((a + b) % u32Size)

/-- `a - b` on `u32` (operands assumed `< 2^32`).  Used in `src/span.rs:83-85, 311-316`. -/
def subU32 (p : Profile) (a b : Nat) : Exec Nat :=
  if b ≤ a then .val (a - b)
  else match p with
    | .debug => .panic
    | .release => .val ((a + u32Size - b) % u32Size)

/-- `u32::try_from(x).unwrap()`.  Used in `src/decompose/mod.rs:130`, `src/span.rs:146-180`. -/
def tryU32 (x : Nat) : Exec Nat := if x < u32Size then .val x else .panic

/-- `a - b` on addresses (`usize`).  An underflow panics in debug builds; in release builds it yields
a huge offset with which every use in the crate (slicing, `u32::try_from`) panics as well, so a single
`panic` models both profiles.
Used in `src/decompose/mod.rs:130`, `src/span.rs:174-180`, `src/rules.rs:104-116, 162`. -/
def subPtr (a b : Nat) : Exec Nat := if b ≤ a then .val (a - b) else .panic

/-- A `&str`: the address of its first byte and its content.  Only relative addresses of slices of
one common string are ever used.
The inputs of `src/rules.rs:41-45`, `src/decompose/mod.rs:307` and `src/lex/mod.rs:433`. -/
structure Str where
  ptr : Nat
  chars : List Char
deriving DecidableEq, Repr

namespace Str

/-- `str::len`.  From `core`; used in `src/rules.rs:110`, `src/decompose/mod.rs:218`. -/
def len (s : Str) : Nat := byteLen s.chars

/-- `str::is_empty`.  From `core`; used in `src/rules.rs:149-156`, `src/decompose/mod.rs:128`. -/
def isEmpty (s : Str) : Bool := s.chars.isEmpty

/-- The address one past the last byte: `s.as_ptr() as usize + s.len()`.  As in `src/rules.rs:110`. -/
def endPtr (s : Str) : Nat := s.ptr + s.len

end Str

/-- Split a character list at byte index `n`; `none` when `n` is not on a character boundary or is
past the end.  For `str::split_at`, `src/rules.rs:56, 164`. -/
def splitBytes : List Char → Nat → Option (List Char × List Char)
  | cs, 0 => some ([], cs)
  | [], _ + 1 => none
  | c :: cs, n + 1 =>
    if c.utf8Size ≤ n + 1 then
      match splitBytes cs (n + 1 - c.utf8Size) with
      | some (a, b) => some (c :: a, b)
      | none => none
    else none

namespace Str

/-- `str::split_at(n)`, which panics off a character boundary.  Used in `src/rules.rs:56, 164`. -/
def splitAt (s : Str) (n : Nat) : Exec (Str × Str) :=
  match splitBytes s.chars n with
  | some (a, b) => .val (⟨s.ptr, a⟩, ⟨s.ptr + n, b⟩)
  | none => .panic

/-- `str::get(a..b)`: `None` when `a > b`, when out of bounds, or off a character boundary.
From `core`; used in `src/span.rs:212-214`. -/
def get (s : Str) (a b : Nat) : Option Str :=
  if a ≤ b then
    match splitBytes s.chars b with
    | some (pre, _) =>
      match splitBytes pre a with
      | some (_, mid) => some ⟨s.ptr + a, mid⟩
      | none => none
    | none => none
  else none

/-- `str::get(a..)`.  From `core`; used in `src/span.rs:240-242`. -/
def getFrom (s : Str) (a : Nat) : Option Str :=
  match splitBytes s.chars a with
  | some (_, b) => some ⟨s.ptr + a, b⟩
  | none => none

/-- `str::get(..b)`.  From `core`; used in `src/span.rs:268-270`. -/
def getTo (s : Str) (b : Nat) : Option Str :=
  match splitBytes s.chars b with
  | some (a, _) => some ⟨s.ptr, a⟩
  | none => none

/-- `&s[a..b]`, which panics where `get` answers `None`.  From `core`; used in `src/rules.rs:113-116, 171-200`. -/
def index (s : Str) (a b : Nat) : Exec Str :=
  match s.get a b with
  | some r => .val r
  | none => .panic

end Str

end Sneturfahi
