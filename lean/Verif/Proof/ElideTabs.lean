import Verif.Proof.Elide

/-!
# Leaving out the last word: the tables
-/

namespace Sneturfahi.Elide

open Spec

/-! ### Tables -/

def nullR : CRule → Bool
  | .Args | .Frees | .GadriSumtiPre | .Paragraph | .ParagraphItem | .Paragraphs | .Sentence | .Sentences1 | .Sentences3 | .TailArgs
  | .Text | .VocativeValue => true
  | _ => false

/-- The outcome at the end of the text. -/
def endsErr (r : CRule) : Bool :=
  match runCst r ⟨0, []⟩ with
  | .val (.error _) => true
  | _ => false

def endsCalm (r : CRule) : Bool :=
  match runCst r ⟨0, []⟩ with
  | .val (.failure _) => false
  | .val _ => true
  | _ => false

theorem nullR_err (r : CRule) (h : nullR r = false) : endsErr r = true := by
  revert h
  cases r with
  | word x => intro _; cases x <;> decide +kernel
  | _ => decide +kernel

theorem all_calm (r : CRule) : endsCalm r = true := by
  cases r with
  | word x => cases x <;> decide +kernel
  | _ => decide +kernel

theorem nullR_peg (r : CRule) (h : nullR r = false) : Peg cst (.call r) [] .error := by
  have h1 := nullR_err r h
  have h2 := runCst_means r ⟨0, []⟩
  unfold endsErr at h1
  split at h1
  · rename_i e he
    rw [he] at h2
    exact h2
  · cases h1

theorem calm_peg (r : CRule) (o : Outcome) (h : Peg cst (.call r) [] o) : o ≠ .failure := by
  have h1 := all_calm r
  have h2 := runCst_means r ⟨0, []⟩
  unfold endsCalm at h1
  split at h1
  · cases h1
  · rename_i v hv he
    rw [he] at h2
    have := h.unique _ h2
    subst this
    cases v with
    | ok => nofun
    | error => nofun
    | failure e => exact absurd rfl (hv e)
  · cases h1

def deadR (out : Selmaho → Bool) (ops : Bool) : CRule → Bool
  | .word x => out x
  | .LohuSumti | .ZeiClause | .ZeiTail | .ZoSumti | .ZoiSumti => true
  | .ForethoughtExpression | .Operator | .Operator1 | .Operator2 | .Operator3 | .OperatorComponent | .OperatorComponent1 | .RPTail => ops
  | _ => false

def goneR (closer : Selmaho → Bool) : CRule → Bool
  | .word x => closer x
  | .BuInner | .ZoiDelimiter | .ZoiText | .TagValue => true
  | _ => false

def takeR (closer : Selmaho → Bool) : CRule → Bool
  | .word x => closer x
  | .BuInner | .ZoiDelimiter | .ZoiText | .TagValue | .TailArgs => true
  | _ => false

def dropR : CRule → Bool
  | .word _ => false
  | .BuInner | .Ek | .Gadri | .Gihek | .Indicator | .Indicators | .Interval | .IntervalProperty | .Jek | .Joik | .JoikJek | .LaSumti
  | .Lerfu | .LerfuString | .LerfuWord | .MiscNumbers | .Number | .NumberRest | .Space | .SpaceInterval | .SpaceIntervalProperty
  | .SpaceMotion | .SpaceOffset | .SumtiModifier | .Time | .TimeDuration | .TimeOffset | .TimeSpaceCaha | .VocativeWords | .ZeiBuInner
  | .ZeiClause | .ZeiTail | .ZoSumti | .ZoiDelimiter | .ZoiSumti | .ZoiText => false
  | _ => true

def tabs (closer out fin : List Selmaho) (ops : Bool) : Tabs where
  closer := closer.contains
  out := out.contains
  fin := fin.contains
  dead := deadR out.contains ops
  gone := goneR closer.contains
  drop := dropR
  null := nullR
  take := takeR closer.contains

/-- What is to be checked of each production. -/
def checks (k : Tabs) (r : CRule) : Bool :=
  (!k.dead r || deadG k (cst r)) && (!goneG k (cst r) || k.dead r || k.gone r) && (!dropG k (cst r) || k.drop r) &&
  (!takeG k (cst r) || k.take r) && okG k (cst r)

def tabs1 : Tabs := tabs closing [.Zo, .Zoi, .Lohu, .Zei] [] false
def tabs2 : Tabs := tabs [.Ku] [.Zo, .Zoi, .Lohu, .Zei] [.Na] false
def tabs3 : Tabs := tabs [.Kehe] [.Zo, .Zoi, .Lohu, .Zei, .Vuhu, .Nahu, .Maho] [] true

theorem checks1 (r : CRule) : checks tabs1 r = true := by
  cases r with
  | word x => cases x <;> decide +kernel
  | _ => decide +kernel

theorem checks2 (r : CRule) : checks tabs2 r = true := by
  cases r with
  | word x => cases x <;> decide +kernel
  | _ => decide +kernel

theorem checks3 (r : CRule) : checks tabs3 r = true := by
  cases r with
  | word x => cases x <;> decide +kernel
  | _ => decide +kernel

end Sneturfahi.Elide
