import Verif.Spec.Nesting
import Verif.Proof.RulesTotal

/-!
# Tracing changes no result, and leaves the level as it was
-/

namespace Sneturfahi

open Spec

variable {d : Nat}

/-- Well nested at a level, and at most `d` levels deep. -/
def GoodMsgs (level d : Nat) (msgs : List TraceMsg) : Prop := Nested level msgs ∧ ∀ m ∈ msgs, m.width < 2 * (level + d)

theorem GoodMsgs.nil {level d : Nat} : GoodMsgs level d [] := ⟨.nil, by simp⟩

theorem GoodMsgs.append {level d : Nat} {a b : List TraceMsg} (ha : GoodMsgs level d a) (hb : GoodMsgs level d b) :
    GoodMsgs level d (a ++ b) :=
  ⟨ha.1.append hb.1, fun m hm => (List.mem_append.mp hm).elim (ha.2 m) (hb.2 m)⟩

theorem GoodMsgs.block {level d : Nat} {rule : Rule} {ok : Bool} {inner : List TraceMsg} (h : GoodMsgs (level + 1) d inner) :
    GoodMsgs level (d + 1) (.entering (level * 2) rule :: (inner ++ [.exiting (level * 2) rule ok])) := by
  refine ⟨.block h.1 .nil, fun m hm => ?_⟩
  simp only [List.mem_cons, List.mem_append, List.not_mem_nil, or_false] at hm
  rcases hm with rfl | hm | rfl
  · simp only [TraceMsg.width]; omega
  · have := h.2 m hm; omega
  · simp only [TraceMsg.width]; omega

/-- `t` does what `x` does, and in addition writes a list of messages, well nested at the current level and at most `d`
levels deep. -/
def Erases {α : Type} (d : Nat) (t : Traced α) (x : Exec α) : Prop :=
  ∀ st, ∃ msgs, GoodMsgs st.level d msgs ∧ t st = x.map (fun a => (a, ⟨st.level, st.log ++ msgs⟩))

theorem traced_bind {α β : Type} (t : Traced α) (f : α → Traced β) (st : TraceState) :
    (t >>= f) st = match t st with
      | .val (a, st') => f a st'
      | .panic => .panic
      | .diverge => .diverge := rfl

theorem erases_pure {α : Type} (a : α) : Erases d (pure a : Traced α) (pure a) :=
  fun st => ⟨[], .nil, by simp [pure, Exec.map]⟩

theorem erases_lift {α : Type} (x : Exec α) : Erases d (.lift x) x :=
  fun st => ⟨[], .nil, by simp [Traced.lift]⟩

theorem erases_diverge {α : Type} : Erases (α := α) d .diverge .diverge := fun _ => ⟨[], .nil, rfl⟩

theorem Erases.bind {α β : Type} {t : Traced α} {x : Exec α} {f : α → Traced β} {g : α → Exec β} (h : Erases d t x)
    (hf : ∀ a, Erases d (f a) (g a)) : Erases d (t >>= f) (x >>= g) := by
  intro st
  obtain ⟨m1, n1, h1⟩ := h st
  cases x with
  | panic => exact ⟨[], .nil, by rw [traced_bind, h1]; rfl⟩
  | diverge => exact ⟨[], .nil, by rw [traced_bind, h1]; rfl⟩
  | val a =>
    obtain ⟨m2, n2, h2⟩ := hf a ⟨st.level, st.log ++ m1⟩
    refine ⟨m1 ++ m2, n1.append n2, ?_⟩
    rw [traced_bind, h1]
    simpa [Exec.map] using h2

/-- Parsers that do the same. -/
def ErasesP (d : Nat) (t : TParser) (p : Parser) : Prop := ∀ input, Erases d (t input) (p input)

theorem erases_not {t : TParser} {p : Parser} (h : ErasesP d t p) : ErasesP d (notT t) (notP p) := by
  intro input
  refine (h input).bind fun a => ?_
  cases a with
  | none => exact erases_lift _
  | some _ => exact erases_pure _

theorem erases_peek {t : TParser} {p : Parser} (h : ErasesP d t p) : ErasesP d (peekT t) (peekP p) := by
  intro input
  refine (h input).bind fun a => ?_
  cases a with
  | none => exact erases_pure _
  | some _ => exact erases_lift _

theorem erases_alt {t u : TParser} {p q : Parser} (h : ErasesP d t p) (h' : ErasesP d u q) : ErasesP d (altT t u) (altP p q) := by
  intro input
  refine (h input).bind fun a => ?_
  cases a with
  | none => exact h' _
  | some _ => exact erases_pure _

theorem erases_longest {t u : TParser} {p q : Parser} (h : ErasesP d t p) (h' : ErasesP d u q) :
    ErasesP d (longestT t u) (longestP p q) := by
  intro input
  refine (h input).bind fun a => (h' input).bind fun b => ?_
  cases a <;> cases b <;> exact erases_pure _

theorem erases_seq {t u : TParser} {p q : Parser} (h : ErasesP d t p) (h' : ErasesP d u q) : ErasesP d (seqT t u) (seqP p q) := by
  intro input
  refine (h input).bind fun a => ?_
  cases a with
  | none => exact erases_pure _
  | some a =>
    refine (h' a.2).bind fun b => ?_
    cases b with
    | none => exact erases_pure _
    | some _ => exact erases_lift _

theorem erases_andPeek {t u : TParser} {p q : Parser} (h : ErasesP d t p) (h' : ErasesP d u q) :
    ErasesP d (andPeekT t u) (andPeekP p q) := by
  intro input
  refine (h input).bind fun a => ?_
  cases a with
  | none => exact erases_pure _
  | some a =>
    refine (h' a.2).bind fun b => ?_
    cases b <;> exact erases_pure _

theorem erases_andNot {t u : TParser} {p q : Parser} (h : ErasesP d t p) (h' : ErasesP d u q) :
    ErasesP d (andNotT t u) (andNotP p q) := by
  intro input
  refine (h input).bind fun a => ?_
  cases a with
  | none => exact erases_pure _
  | some a =>
    refine (h' a.2).bind fun b => ?_
    cases b <;> exact erases_pure _

theorem erases_guardNot {t u : TParser} {p q : Parser} (h : ErasesP d t p) (h' : ErasesP d u q) :
    ErasesP d (guardNotT t u) (guardNotP p q) := by
  intro input
  refine (h input).bind fun a => ?_
  cases a with
  | none => exact h' _
  | some _ => exact erases_pure _

theorem erases_repLoop {t : TParser} {p : Parser} (h : ErasesP d t p) (fuel : Nat) :
    ∀ rest first last num, Erases d (repLoopT t fuel rest first last num) (repLoop p fuel rest first last num) := by
  induction fuel with
  | zero => intros; exact erases_diverge
  | succ fuel ih =>
    intro rest first last num
    refine (h rest).bind fun a => ?_
    cases a with
    | none => exact erases_pure _
    | some a => exact ih _ _ _ _

theorem erases_rep {t : TParser} {p : Parser} (min : Nat) (h : ErasesP d t p) : ErasesP d (repT min t) (repP min p) := by
  intro input
  refine (erases_repLoop h _ _ _ _ _).bind fun a => ?_
  obtain ⟨rest, first, last, num⟩ := a
  simp only
  split
  · exact erases_pure _
  · exact erases_lift _

theorem erases_exp {call : Rule → TParser} {call' : Rule → Parser} (h : ∀ rule, ErasesP d (call rule) (call' rule)) (e : Exp Rule) :
    ErasesP d (evalExpT call e) (evalExp call' e) := by
  induction e with
  | null => exact fun _ => erases_lift _
  | eof => exact fun _ => erases_lift _
  | oneOf chs => exact fun _ => erases_lift _
  | call rule => exact h rule
  | not e ih => exact erases_not ih
  | peek e ih => exact erases_peek ih
  | alt a b iha ihb => exact erases_alt iha ihb
  | longest a b iha ihb => exact erases_longest iha ihb
  | seq a b iha ihb => exact erases_seq iha ihb
  | rep min e ih => exact erases_rep min ih
  | andPeek e p ihe ihp => exact erases_andPeek ihe ihp
  | andNot e p ihe ihp => exact erases_andNot ihe ihp
  | guardNot p e ihp ihe => exact erases_guardNot ihp ihe

theorem erases_debugRule (name : Rule) {t : TParser} {p : Parser} (h : ErasesP d t p) : ErasesP (d + 1) (debugRule name t) p := by
  intro input st
  obtain ⟨m, n, h1⟩ := h input ⟨st.level + 1, st.log ++ [.entering (st.level * 2) name]⟩
  cases hp : p input with
  | panic =>
    rw [hp] at h1
    exact ⟨[], .nil, by unfold debugRule; rw [traced_bind]; simp only [debugRuleStart]; rw [traced_bind, h1]; rfl⟩
  | diverge =>
    rw [hp] at h1
    exact ⟨[], .nil, by unfold debugRule; rw [traced_bind]; simp only [debugRuleStart]; rw [traced_bind, h1]; rfl⟩
  | val a =>
    rw [hp] at h1
    refine ⟨.entering (st.level * 2) name :: (m ++ .exiting (st.level * 2) name a.isSome :: []), n.block, ?_⟩
    unfold debugRule
    rw [traced_bind]
    simp only [debugRuleStart]
    rw [traced_bind, h1]
    simp only [Exec.map]
    rw [traced_bind]
    simp [debugRuleEnd, pure]

theorem erases_rule (fuel : Nat) : ∀ rule, ErasesP fuel (evalRuleT fuel rule) (evalRule grammar fuel rule) := by
  induction fuel with
  | zero => exact fun _ _ => erases_diverge
  | succ fuel ih =>
    intro rule
    have h := erases_exp ih (grammar rule)
    unfold evalRuleT evalRule
    split
    · exact erases_debugRule rule h
    · intro input st
      obtain ⟨msgs, g, hm⟩ := h input st
      exact ⟨msgs, ⟨g.1, fun m hmem => by have := g.2 m hmem; omega⟩, hm⟩

end Sneturfahi
