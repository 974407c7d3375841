import Verif.Model.TableText
import Verif.Model.Idents
import Verif.Model.RuleIdents
import Verif.Model.Classify

/-!
# C82: the tables of cmavo and selma'o are what the source says
-/

namespace Sneturfahi.Props

open Rust

set_option maxRecDepth 100000

/-- The tokens of a line of Rust. -/
def rust (line : List Char) : List RTok := (lexParts [[line]]).getD []

/-- The variants of `Selmaho`, in the order of the text. -/
theorem C82_variants :
    (lexParts Source.selmahoModRs).bind (enumVariants c!"Selmaho") = some (Selmaho.all.map Selmaho.ident) := by
  decide +kernel

/-- The arm for hesitations. -/
def hesitationArm : RArm :=
  ⟨rust c!"word if !word.is_empty() && word.chars().all(|ch| ch == 'y')", rust c!"Self::Y"⟩

/-- The last arm of the table. -/
def lastArm : RArm := ⟨rust c!"_", rust c!"Self::classify_generally(word)"⟩

/-- The table of cmavo in the text: the arms of the model in this order, the arm for hesitations where the model
has it, and the call of `classify_generally` at the end. -/
theorem C82_table :
    cmavoTable Source.classifyRs = some (
      armsBeforeY.map (fun a => .words a.words a.selmaho.ident a.experimental) ++
      .other hesitationArm ::
      armsAfterY.map (fun a => .words a.words a.selmaho.ident a.experimental) ++
      [.other lastArm]) := by
  decide +kernel

/-- What a table says about a word: the first arm that has the word among its literals decides; the arm for
hesitations applies to words that are one or more `y`. -/
def tableAnswer (w : List Char) : List TableArm → Option (List Char × Bool)
  | [] => none
  | .words ws s e :: arms => if w ∈ ws then some (s, e) else tableAnswer w arms
  | .other a :: arms =>
    if a = hesitationArm ∧ w ≠ [] ∧ ∀ c ∈ w, c = 'y' then some (c!"Y", false) else tableAnswer w arms

theorem answer_append (w : List Char) (a : List Arm) (l : List TableArm) :
    tableAnswer w (a.map (fun a => .words a.words a.selmaho.ident a.experimental) ++ l) =
      match lookupArms a w with
      | some (s, e) => some (s.ident, e)
      | none => tableAnswer w l := by
  induction a with
  | nil => rfl
  | cons a as ih =>
    simp only [List.map_cons, List.cons_append, tableAnswer]
    simp only [lookupArms, List.find?_cons]
    by_cases h : w ∈ a.words
    · rw [if_pos h, show a.words.contains w = true by simpa using h]
    · rw [if_neg h, show a.words.contains w = false by simpa using h]
      exact ih

/-- For every word, looking it up is what the first applicable arm in the text says. -/
theorem C82_direct (w : List Char) :
    ∃ table, cmavoTable Source.classifyRs = some table ∧
      (lookupDirect w).map (fun x => (x.1.ident, x.2)) = tableAnswer w table := by
  refine ⟨_, C82_table, ?_⟩
  rw [List.append_assoc, answer_append, lookupDirect]
  cases lookupArms armsBeforeY w with
  | some x => rfl
  | none =>
    simp only [List.cons_append, tableAnswer, true_and]
    by_cases h : w ≠ [] ∧ ∀ c ∈ w, c = 'y'
    · rw [if_pos (by simpa using h), if_pos h]; rfl
    · rw [if_neg (by simpa using h), if_neg h, answer_append]
      cases lookupArms armsAfterY w with
      | some x => rfl
      | none =>
        simp only [tableAnswer]
        rw [if_neg (by intro h; exact absurd h.1 (by decide +kernel))]
        rfl

/-- Words in the text of the table: one without and one with `experimental!`, and one that is not there. -/
theorem C82_direct_cases :
    let answer (w : List Char) := (cmavoTable Source.classifyRs).map (tableAnswer w)
    answer c!"zo'u" = some (some (c!"Zohu", false)) ∧ answer c!"ce'ai" = some (some (c!"Zohu", true)) ∧
    answer c!"yyy" = some (some (c!"Y", false)) ∧ answer c!"klama" = some none := by
  decide +kernel

/-- The rules tried one after the other. -/
def firstRule (other : Str) : List (Rule × Selmaho) → Exec Selmaho
  | [] => pure .AnyText
  | (rule, s) :: l => do
    if succeededAndConsumedAll (← runRule rule other) then pure s else firstRule other l

/-- The function for all other words tries the rules the text names, in that order. -/
theorem C82_generally : ∃ (rules : List (Rule × Selmaho)) (arms : List RArm),
    generalArms Source.classifyRs = some (arms ++ [⟨rust c!"_", rust c!"Selmaho::AnyText"⟩]) ∧
    arms.map ruleArm = rules.map (fun x => some (x.1.ident, x.2.ident)) ∧
    ∀ other, classifyGenerally other = firstRule other rules := by
  refine ⟨[(.cmevla, .Cmevla), (.cmavo_minimal, .UnknownCmavo), (.gismu, .Gismu), (.fuhivla, .Fuhivla),
    (.lujvo_minimal, .Lujvo)], ((generalArms Source.classifyRs).getD []).dropLast, by decide +kernel, by decide +kernel, ?_⟩
  intro other
  simp only [classifyGenerally, firstRule]

/-- The two arms of `is_fundamentally_experimental` in the text, together the variants once each. -/
theorem C82_experimental :
    ∃ yes no : List (List Char), selfArms c!"is_fundamentally_experimental" Source.selmahoModRs =
        some [(some yes, [.id c!"true"]), (some no, [.id c!"false"])] ∧
      (∀ s : Selmaho, s.isFundamentallyExperimental = true ↔ s.ident ∈ yes) ∧
      (∀ s : Selmaho, s.isFundamentallyExperimental = false ↔ s.ident ∈ no) := by
  refine ⟨(Selmaho.all.filter (·.isFundamentallyExperimental)).map (·.ident),
    (Selmaho.all.filter (!·.isFundamentallyExperimental)).map (·.ident), by decide +kernel, ?_, ?_⟩ <;>
  · intro s
    have := List.all_eq_true.mp (show (Selmaho.all.all fun s =>
      (s.isFundamentallyExperimental == ((Selmaho.all.filter (·.isFundamentallyExperimental)).map (·.ident)).contains s.ident)
      && ((!s.isFundamentallyExperimental) == ((Selmaho.all.filter (!·.isFundamentallyExperimental)).map (·.ident)).contains s.ident))
        = true by decide +kernel) s (by cases s <;> decide)
    simp only [Bool.and_eq_true, beq_iff_eq] at this
    first
    | rw [this.1, List.contains_iff_mem]
    | rw [← List.contains_iff_mem, ← this.2]; cases s.isFundamentallyExperimental <;> simp

/-- The arms of `as_repr` in the text: one for each variant. -/
theorem C82_repr :
    ∃ arms, selfArms c!"as_repr" Source.displayRs = some arms ∧
      ∀ s : Selmaho, arms.filter (fun a => (a.1.getD []).contains s.ident) = [(some [s.ident], [.str s.asRepr])] := by
  refine ⟨(selfArms c!"as_repr" Source.displayRs).getD [], by decide +kernel, ?_⟩
  intro s
  have := List.all_eq_true.mp (show (Selmaho.all.all fun s =>
    ((selfArms c!"as_repr" Source.displayRs).getD []).filter (fun a => (a.1.getD []).contains s.ident) ==
      [(some [s.ident], [.str s.asRepr])]) = true by decide +kernel) s (by cases s <;> decide)
  exact eq_of_beq this

end Sneturfahi.Props
