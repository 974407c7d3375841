import Verif.Proof.Decl
import Verif.Props.Source

/-!
# C80: a declaration is read as it is written
-/

namespace Sneturfahi.Props

open Spec Rust Derive

theorem codeReads_eq {G : CRule → Gr} {names : Names} {env : List (List Char × Gr)} {self : Option Gr} {t : RTy}
    {fuel : Nat} {g : Gr} (h : tyGr names fuel env self t = some g) : CodeReads G names env self t = Peg G g := by
  refine reader_ext fun s o => ⟨fun ⟨m, g', h1, h2⟩ => ?_, fun h1 => ⟨fuel, g, h, h1⟩⟩
  have a := tyGr_mono names (Nat.le_max_left fuel m) env self t g h
  have b := tyGr_mono names (Nat.le_max_right fuel m) env self t g' h1
  rw [a] at b; cases b; exact h2

theorem typeReads_code {G : CRule → Gr} {names : Names} {env : List (List Char × Gr)} {self : Option Gr} {t : RTy}
    {fuel : Nat} {g : Gr} (h : tyGr names fuel env self t = some g) :
    TypeReads G (tyGr names fuel env self) t = CodeReads G names env self t := by
  rw [codeReads_eq h, typeReads_eq G _ h]

/-- The code the macro makes of any declaration reads what the declaration says, whatever its types are: a struct its
fields in order, an enum its first variant that applies; with lookaheads, repetitions, `cut`, `must_consume` and
conditions where the attributes put them. -/
theorem C80_declaration (G : CRule → Gr) (ty : RTy → Option Gr) (item : RItem) (code : Gr)
    (compiles : implementParse ty item = some code) (plain : Plain item) (s : List Token) (o : Outcome) :
    Peg G code s o ↔ DeclReads (fun t s o => ∃ c, ty t = some c ∧ Peg G c s o) item s o := by
  have := decl_eq G ty plain compiles
  rw [this]; exact Iff.rfl

/-- Such a declaration, not one of the code: `enum ParagraphItem { Fragment(#[cut] Fragment), Empty() }`. -/
theorem C80_declaration_case :
    let item : RItem := ⟨[⟨c!"derive", [.punct '(', .id c!"Parse", .punct ')']⟩], c!"ParagraphItem", [],
      .enum [⟨[], c!"Fragment", [⟨[⟨c!"cut", []⟩], [], .name c!"Fragment" .nil⟩]⟩, ⟨[], c!"Empty", []⟩]⟩
    Plain item ∧ implementParse (tyGr ⟨[item, ⟨item.attrs, c!"Fragment", [], .struct []⟩], []⟩ 9 [] none) item =
      some (.alt (.wrap (.node .ParagraphItem_Fragment) (.cut (.call .Fragment)))
        (.wrap (.node .ParagraphItem_Empty) .eps)) := by
  refine ⟨⟨fun fs h => (nomatch h), fun vs h => ?_⟩, by decide +kernel⟩
  cases h
  decide

/-- An optional type. -/
theorem C80_option (G : CRule → Gr) (names : Names) (env : List (List Char × Gr)) (self : Option Gr) (t : RTy)
    (free : env.find? (·.1 == c!"Option") = none)
    (compiles : Compiles names env self (.name c!"Option" (.cons t .nil))) (s : List Token) (o : Outcome) :
    CodeReads G names env self (.name c!"Option" (.cons t .nil)) s o ↔ Optional (CodeReads G names env self t) s o := by
  obtain ⟨fuel, g, h⟩ := compiles
  rw [codeReads_eq h]
  cases fuel with
  | zero => cases h
  | succ fuel =>
    unfold tyGr at h
    simp only [free] at h
    rw [if_neg (by decide), if_pos (by decide), Option.map_eq_some_iff] at h
    obtain ⟨a, ha, rfl⟩ := h
    rw [codeReads_eq ha]
    constructor
    · intro h; cases h with
      | optPresent h => exact .present h
      | optAbsent h => exact .absent h
      | optFailure h => exact .failure h
    · intro h; cases h with
      | present h => exact .optPresent h
      | absent h => exact .optAbsent h
      | failure h => exact .optFailure h

theorem map_codeReads {G : CRule → Gr} {names : Names} {env : List (List Char × Gr)} {self : Option Gr} {fuel : Nat}
    {ts : List RTy} {gs : List Gr} (h : allSome (tyGr names fuel env self) ts = some gs) :
    ts.map (CodeReads G names env self) = gs.map (Peg G) := by
  induction ts generalizing gs with
  | nil => simp only [allSome] at h; cases h; rfl
  | cons t ts ih =>
    simp only [allSome] at h
    split at h <;> try cases h
    split at h <;> cases h
    rename_i h1 _ _ h2
    simp [ih h2, codeReads_eq h1]

/-- A tuple: its members in order. -/
theorem C80_tuple (G : CRule → Gr) (names : Names) (env : List (List Char × Gr)) (self : Option Gr) (l : RTy)
    (compiles : Compiles names env self (.tuple l)) (s : List Token) (o : Outcome) :
    CodeReads G names env self (.tuple l) s o ↔
      Making .tuple (InOrder ((argList l).map (CodeReads G names env self))) s o := by
  obtain ⟨fuel, g, h⟩ := compiles
  rw [codeReads_eq h]
  cases fuel with
  | zero => cases h
  | succ fuel =>
    simp only [tyGr, Option.map_eq_some_iff] at h
    obtain ⟨es, he, rfl⟩ := h
    rw [map_codeReads he, peg_wrap, peg_seqs]

/-- A type parameter is what it stands for, and `Self` is the type itself. -/
theorem C80_parameter (G : CRule → Gr) (names : Names) (env : List (List Char × Gr)) (self : Option Gr) (n : List Char)
    (args : RTy) (s : List Token) (o : Outcome) :
    (n = c!"Self" → ∀ g, self = some g → (CodeReads G names env self (.name n args) s o ↔ Peg G g s o)) ∧
    (n ≠ c!"Self" → ∀ m g, env.find? (·.1 == n) = some (m, g) →
      (CodeReads G names env self (.name n args) s o ↔ Peg G g s o)) := by
  constructor
  · intro e g hg
    have : tyGr names 1 env self (.name n args) = some g := by
      unfold tyGr; simp [e, hg]
    rw [codeReads_eq this]
  · intro e m g hg
    have : tyGr names 1 env self (.name n args) = some g := by
      unfold tyGr; simp [e, hg]
    rw [codeReads_eq this]

/-- A name declared with `type` is the type it is declared as. -/
theorem C80_alias (G : CRule → Gr) (names : Names) (env : List (List Char × Gr)) (self : Option Gr) (n : List Char)
    (args : RTy) (item : RItem) (t : RTy) (free : env.find? (·.1 == n) = none) (reserved : ¬ Reserved n)
    (noWord : n ∉ names.words) (declared : names.items.find? (·.name == n) = some item) (alias : item.data = .alias t)
    (s : List Token) (o : Outcome) :
    CodeReads G names env self (.name n args) s o ↔ CodeReads G names [] none t s o := by
  have hs : ¬ (n == c!"Self") = true := by intro e; exact reserved (.inl (by simpa using e))
  have ho : ¬ (n == c!"Option") = true := by intro e; exact reserved (.inr (.inl (by simpa using e)))
  have ht : ¬ (n == c!"Token") = true := by intro e; exact reserved (.inr (.inr (by simpa using e)))
  have hw : ¬ names.words.contains n = true := by simpa using noWord
  have key : ∀ fuel, tyGr names (fuel + 1) env self (.name n args) = tyGr names fuel [] none t := by
    intro fuel
    rw [show tyGr names (fuel + 1) env self (.name n args) = _ from by unfold tyGr; rfl]
    simp only [if_neg hs, free, if_neg ho, if_neg ht, if_neg hw, declared, alias]
  constructor
  · rintro ⟨fuel, g, h, hp⟩
    cases fuel with
    | zero => cases h
    | succ fuel => rw [key] at h; exact ⟨fuel, g, h, hp⟩
  · rintro ⟨fuel, g, h, hp⟩
    exact ⟨fuel + 1, g, by rw [key]; exact h, hp⟩

open Classical in
/-- All the parsers of types. -/
noncomputable def tyLimit (names : Names) (env : List (List Char × Gr)) (self : Option Gr) (t : RTy) : Option Gr :=
  if h : ∃ g, ∃ fuel, tyGr names fuel env self t = some g then some h.choose else none

theorem limit_extends (names : Names) (fuel : Nat) (env : List (List Char × Gr)) (self : Option Gr) :
    Extends (tyGr names fuel env self) (tyLimit names env self) := by
  intro t g h
  have ex : ∃ g, ∃ fuel, tyGr names fuel env self t = some g := ⟨g, fuel, h⟩
  unfold tyLimit
  rw [dif_pos ex]
  obtain ⟨m, h1⟩ := ex.choose_spec
  have a := tyGr_mono names (Nat.le_max_left fuel m) env self t g h
  have b := tyGr_mono names (Nat.le_max_right fuel m) env self t _ h1
  rw [a] at b; exact b.symm

theorem limit_reads (G : CRule → Gr) (names : Names) (env : List (List Char × Gr)) (self : Option Gr) :
    TypeReads G (tyLimit names env self) = CodeReads G names env self := by
  funext t
  by_cases ex : ∃ g, ∃ fuel, tyGr names fuel env self t = some g
  · obtain ⟨g, fuel, h⟩ := ex
    rw [codeReads_eq h, typeReads_eq G _ (limit_extends names fuel env self t g h)]
  · refine reader_ext fun s o => ⟨fun ⟨g, h, _⟩ => ?_, fun ⟨fuel, g, h, _⟩ => absurd ⟨g, fuel, h⟩ ex⟩
    unfold tyLimit at h
    rw [dif_neg ex] at h
    cases h

/-- A type with type arguments is its declaration, with the arguments for its parameters. -/
theorem C80_generic (G : CRule → Gr) (names : Names) (env : List (List Char × Gr)) (self : Option Gr) (n : List Char)
    (args : RTy) (item : RItem) (p : List Char) (ps : List (List Char)) (free : env.find? (·.1 == n) = none)
    (reserved : ¬ Reserved n) (noWord : n ∉ names.words) (declared : names.items.find? (·.name == n) = some item)
    (noAlias : ∀ t, item.data ≠ .alias t) (generic : item.params = p :: ps) (plain : Plain item)
    (compiles : Compiles names env self (.name n args)) :
    ∃ gs : List Gr, gs.length = (p :: ps).length ∧ (argList args).map (CodeReads G names env self) = gs.map (Peg G) ∧
      ∀ s o, CodeReads G names env self (.name n args) s o ↔
        DeclReads (CodeReads G names ((p :: ps).zip gs) none) item s o := by
  have hs : ¬ (n == c!"Self") = true := by intro e; exact reserved (.inl (by simpa using e))
  have ho : ¬ (n == c!"Option") = true := by intro e; exact reserved (.inr (.inl (by simpa using e)))
  have ht : ¬ (n == c!"Token") = true := by intro e; exact reserved (.inr (.inr (by simpa using e)))
  have hw : ¬ names.words.contains n = true := by simpa using noWord
  obtain ⟨fuel, g, h⟩ := compiles
  rw [codeReads_eq h]
  cases fuel with
  | zero => cases h
  | succ fuel =>
    unfold tyGr at h
    simp only [if_neg hs, free, if_neg ho, if_neg ht, if_neg hw, declared] at h
    have h : (match allSome (tyGr names fuel env self) (argList args) with
        | none => none
        | some gs =>
          if gs.length = (p :: ps).length && derives c!"Parse" item.attrs then
            implementParse (tyGr names fuel ((p :: ps).zip gs) none) item
          else none) = some g := by
      rw [← h]
      cases hd : item.data with
      | alias t => exact absurd hd (noAlias t)
      | _ => simp only [generic]; rfl
    split at h
    · cases h
    rename_i gs hgs
    split at h
    · rename_i hl
      simp only [Bool.and_eq_true, decide_eq_true_eq] at hl
      refine ⟨gs, hl.1, map_codeReads hgs, fun s o => ?_⟩
      rw [decl_eq G _ plain (parse_mono (limit_extends names fuel _ none) h), limit_reads]
    · cases h

/-- Such types: `Option<Bo>`, `(Bo, Mekso)`, where `Mekso` is `mekso::Expression`, and `WithFree<Bo>`. -/
theorem C80_types_case :
    let bo : RTy := .name c!"Bo" .nil
    (tyGr Source.names 9 [] none (.name c!"Option" (.cons bo .nil)) == some (.opt (.call (.word .Bo)))) = true ∧
    (tyGr Source.names 9 [] none (.tuple (.cons bo (.cons (.name c!"Mekso" .nil) .nil))) ==
      some (.wrap .tuple (.seq (.call (.word .Bo)) (.call .Expression)))) = true ∧
    (tyGr Source.names 9 [] none (.name c!"WithFree" (.cons bo .nil)) ==
      some (.wrap (.node .WithFree) (.seq (.call (.word .Bo)) (.call .Frees)))) = true ∧
    ((Source.names.items.find? (·.name == c!"WithFree")).map (·.params) == some [c!"Inner"]) = true := by
  decide +kernel

theorem plain_checked :
    (CRule.types.all fun r => r == .LohuSumti || r == .ZoiDelimiter || r == .ZoiText ||
      match Source.names.items.find? (·.name == r.ident) with
      | none => false
      | some item =>
        match item.data with
        | .struct fs => fs != [⟨[], [], .name c!"Span" .nil⟩]
        | .enum vs => vs.all fun v => v.fields != [⟨[], [], .name c!"Span" .nil⟩]
        | .alias _ => false) = true := by
  decide +kernel

/-- Each production is read as its declaration in `src/parse/cst/rules` says. -/
theorem C80_production (r : CRule) (word : ∀ s, r ≠ .word s) (manual : r ≠ .LohuSumti)
    (leaf : r ≠ .ZoiDelimiter ∧ r ≠ .ZoiText) :
    ∃ item ∈ Source.names.items, item.name = r.ident ∧ ∀ s o,
      Peg cst (.call r) s o ↔ DeclReads (CodeReads cst Source.names [] (some (.call r))) item s o := by
  have h := C79_grammar r word manual
  have hr : ruleOf r.ident = some r := by
    have := List.all_eq_true.mp idents_checked r (types_all r word)
    simpa using this
  unfold derive at h
  split at h
  · rename_i item hi
    refine ⟨item, List.mem_of_find?_eq_some hi, by simpa using List.find?_some hi, fun s o => ?_⟩
    have hp := List.all_eq_true.mp plain_checked r (types_all r word)
    rw [hi] at hp
    simp only [manual, leaf.1, leaf.2, beq_iff_eq, Bool.or_eq_true, or_false, false_or] at hp
    have plain : Plain item := by
      refine ⟨fun fs hd => ?_, fun vs hd v hv => ?_⟩
      · rw [hd] at hp; simpa [OneSpan] using hp
      · rw [hd] at hp
        have := List.all_eq_true.mp hp v hv
        simpa [OneSpan] using this
    split at h
    · rw [hr] at h
      have := decl_eq cst _ plain (parse_mono (limit_extends Source.names 99 [] _) h)
      rw [limit_reads] at this
      rw [Option.map_some] at this
      rw [← this]
      constructor
      · intro h; cases h with
        | call h => exact h
      · exact .call
    · cases h
  · cases h

end Sneturfahi.Props
