import Verif.Model.Trace

/-!
# What a well-nested trace is
-/

namespace Sneturfahi.Spec

/-- A list of trace messages is well nested at a level: it is made of blocks, each an "entering" message, a well-nested
list one level further in, and an "exiting" message of the same rule with the same indentation, twice the level. -/
inductive Nested : Nat → List TraceMsg → Prop where
  | nil {level : Nat} : Nested level []
  | block {level : Nat} {rule : Rule} {ok : Bool} {inner rest : List TraceMsg} :
      Nested (level + 1) inner → Nested level rest →
      Nested level (.entering (level * 2) rule :: (inner ++ .exiting (level * 2) rule ok :: rest))

theorem Nested.append {level : Nat} {a b : List TraceMsg} (ha : Nested level a) (hb : Nested level b) :
    Nested level (a ++ b) := by
  induction ha with
  | nil => exact hb
  | block h1 _ _ ih => simpa using Nested.block h1 (ih hb)

end Sneturfahi.Spec
