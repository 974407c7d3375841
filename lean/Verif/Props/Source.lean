import Verif.Model.CstRules
import Verif.Model.SourceNames

/-!
# C79: the grammar is what the declarations say
-/

namespace Sneturfahi.Props

open Rust Derive

set_option maxRecDepth 100000

theorem types_all (r : CRule) (h : ∀ s, r ≠ .word s) : r ∈ CRule.types := by
  cases r <;> first | exact absurd rfl (h _) | decide

theorem nodes_all (n : NodeName) (h : ∀ s, n ≠ .word s) : n ∈ NodeName.types := by
  cases n <;> first | exact absurd rfl (h _) | decide

theorem not_word (s : Selmaho) : CRule.word s ∉ CRule.types := by simp [CRule.types]

theorem idents_checked : (CRule.types.all fun r => ruleOf r.ident == some r) = true := by decide +kernel

theorem grammar_checked :
    (CRule.types.all fun r => r == .LohuSumti || derive Source.names r.ident == some (cst r)) = true := by
  decide +kernel

/-- Every production is the one `#[derive(Parse)]` makes of the text of the declaration. -/
theorem C79_grammar (r : CRule) (word : ∀ s, r ≠ .word s) (manual : r ≠ .LohuSumti) :
    derive Source.names r.ident = some (cst r) := by
  have h := List.all_eq_true.mp grammar_checked r (types_all r word)
  simpa [manual] using h

/-- The one type left out has no derived implementation. -/
theorem C79_manual : derive Source.names c!"LohuSumti" = none := by decide +kernel

theorem rules_checked :
    (Source.names.items.all fun i =>
      !(derives c!"Parse" i.attrs && i.params.isEmpty) || ((ruleOf i.name).isSome && i.name != c!"LohuSumti")) = true := by
  decide +kernel

/-- No declaration is left out: every type without parameters that derives `Parse` is a production. -/
theorem C79_all (item : RItem) (declared : item ∈ Source.names.items) (derived : derives c!"Parse" item.attrs = true)
    (plain : item.params = []) : ∃ r : CRule, r.ident = item.name ∧ derive Source.names item.name = some (cst r) := by
  have h := List.all_eq_true.mp rules_checked item declared
  rw [derived, plain] at h
  simp only [List.isEmpty_nil, Bool.and_true, Bool.not_true, Bool.false_or, Bool.and_eq_true, Option.isSome_iff_exists] at h
  obtain ⟨⟨r, hr⟩, hn⟩ := h
  have hm := List.mem_of_find?_eq_some hr
  have he : r.ident = item.name := by simpa using List.find?_some hr
  refine ⟨r, he, ?_⟩
  rw [← he]
  refine C79_grammar r (fun s e => ?_) (fun e => ?_)
  · subst e; exact absurd hm (not_word s)
  · subst e
    rw [← he] at hn
    exact absurd hn (by decide)

/-- The names are those of different declarations: no two types that derive `Parse` have the same one, nor is
any of them one of the names given to `token_types!`, which are all different. -/
theorem C79_distinct :
    (((Source.names.items.filter fun i => derives c!"Parse" i.attrs).map (·.name)) ++ Source.names.words).Nodup := by
  decide +kernel

theorem words_checked : (Selmaho.all.all fun s => kindOf Source.words s == some (wordKind s)) = true := by
  decide +kernel

theorem selmaho_all (s : Selmaho) : s ∈ Selmaho.all := by cases s <;> decide

/-- Each selma'o is declared in `token_types!` the way the model has it. -/
theorem C79_words (s : Selmaho) : kindOf Source.words s = some (wordKind s) := by
  simpa using List.all_eq_true.mp words_checked s (selmaho_all s)

/-- The nodes of the tree have the names of the structs and variants, in their order, and those that are not
shown are those declared so. -/
theorem C79_nodes :
    NodeName.types.map (fun n => (n.text Selmaho.ident, n.passthrough)) = Source.names.items.flatMap nodesOf := by
  decide +kernel

/-- The text with a line left out. -/
def withoutLine (line : List Char) (file : List (List (List Char))) : List (List (List Char)) :=
  file.map fun part => part.filter fun l => l != line

/-- The theorems are about the text: without the line `pub faho: Option<Faho<'arena>>,` the production of a text
is another one, and the same goes for the line `#[parse(must_consume)]`. -/
theorem C79_cases :
    ((fileItems (withoutLine c!"\tpub faho: Option<Faho<'arena>>," Source.modRs)).bind fun l =>
        derive ⟨l ++ Source.names.items, Source.names.words⟩ c!"Text").map (· == cst .Text) = some false ∧
    ((fileItems (withoutLine c!"\t#[parse(must_consume)]" Source.modRs)).bind fun l =>
        derive ⟨l ++ Source.names.items, Source.names.words⟩ c!"ParagraphItem").map (· == cst .ParagraphItem)
      = some false := by
  decide +kernel

end Sneturfahi.Props
