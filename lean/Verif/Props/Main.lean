import Verif.Proof.Main
import Verif.Props.Decompose
import Verif.Props.Lex
import Verif.Props.Cst

/-!
# C56, C57: the command line program
-/

namespace Sneturfahi.Props

open Spec

theorem showSpans_ok {input : Str} {xs : List Span} (h : ∀ s ∈ xs, ∃ t, s.slice input = some t) :
    ∃ shown, showAll (showSpan input) xs = .val shown ∧ Shown input xs shown := by
  induction xs with
  | nil => exact ⟨[], rfl, rfl, by simp⟩
  | cons x xs ih =>
    obtain ⟨t, ht⟩ := h x (by simp)
    obtain ⟨ys, h1, h2, h3⟩ := ih (fun s hs => h s (by simp [hs]))
    have hx : showSpan input x = .val (t.chars, x) := by
      unfold showSpan Span.sliceUnwrap
      rw [ht]
      rfl
    refine ⟨(t.chars, x) :: ys, ?_, by simp [h2], ?_⟩
    · unfold showAll
      rw [hx, Exec.val_bind, h1, Exec.val_bind]
      rfl
    · intro y hy
      rcases List.mem_cons.mp hy with rfl | hy
      · exact ⟨t, ht, rfl⟩
      · exact h3 y hy

theorem showTokens_ok {input : Str} {xs : List Token} (h : ∀ s ∈ xs, ∃ t, s.span.slice input = some t) :
    ∃ shown, showAll (showToken input) xs = .val shown ∧ ShownTokens input xs shown := by
  induction xs with
  | nil => exact ⟨[], rfl, rfl, by simp⟩
  | cons x xs ih =>
    obtain ⟨t, ht⟩ := h x (by simp)
    obtain ⟨ys, h1, h2, h3⟩ := ih (fun s hs => h s (by simp [hs]))
    have hx : showToken input x = .val (x, t.chars) := by
      unfold showToken Span.sliceUnwrap
      rw [ht]
      rfl
    refine ⟨(x, t.chars) :: ys, ?_, by simp [h2], ?_⟩
    · unfold showAll
      rw [hx, Exec.val_bind, h1, Exec.val_bind]
      rfl
    · intro y hy
      rcases List.mem_cons.mp hy with rfl | hy
      · exact ⟨t, ht, rfl⟩
      · exact h3 y hy

theorem mapM_ok (toks : List Token) : (toks.map (Except.ok (ε := LexError))).mapM id = .ok toks := by
  induction toks with
  | nil => rfl
  | cons t toks ih =>
    rw [List.map_cons, List.mapM_cons, ih]
    rfl

theorem mapM_error (toks : List Token) (e : LexError) : (toks.map (Except.ok (ε := LexError)) ++ [Except.error e]).mapM id = .error e := by
  induction toks with
  | nil => rfl
  | cons t toks ih =>
    rw [List.map_cons, List.cons_append, List.mapM_cons, ih]
    rfl

/-- The items are tokens, except that the last one may be an error. -/
theorem items_cases {p : Profile} {input : Str} (h : input.len < u32Size) {items : List LexItem} (hi : lexAll p input = .val items) :
    (∃ toks : List Token, items = toks.map .ok) ∨ ∃ (toks : List Token) (e : LexError), items = toks.map .ok ++ [.error e] := by
  have hlast := C34_error_last p input h items hi
  clear hi
  have aux : ∀ its : List LexItem, (∀ e, .error e ∉ its) → ∃ toks : List Token, its = toks.map .ok := by
    intro its
    induction its with
    | nil => exact fun _ => ⟨[], rfl⟩
    | cons it its ih =>
      intro hn
      obtain ⟨toks, rfl⟩ := ih (fun e he => hn e (by simp [he]))
      cases it with
      | error e => exact absurd (by simp) (hn e)
      | ok t => exact ⟨t :: toks, rfl⟩
  by_cases he : ∃ e, .error e ∈ items
  · obtain ⟨e, he⟩ := he
    obtain ⟨pre, post, hs⟩ := List.append_of_mem he
    obtain ⟨h1, h2⟩ := hlast pre e post hs
    obtain ⟨toks, rfl⟩ := aux pre h2
    exact .inr ⟨toks, e, by rw [hs, h1]⟩
  · exact .inl (aux items (fun e h => he ⟨e, h⟩))

theorem showCst_ok (collapse : Bool) {p' : Profile} {input : Str} (h : input.len < u32Size) (ptr : Nat) {toks : List Token}
    (hl : lexAll p' input = .val (toks.map .ok)) :
    ∃ o, (∀ p, showCst p collapse input ptr toks = .val o) ∧ PrintsTree collapse input ptr toks [o] := by
  obtain ⟨res, hres⟩ := C45_total ⟨ptr, toks⟩
  cases hr : res with
  | ok root =>
    subst hr
    obtain ⟨lines, nodes, h1, h2, h3⟩ := printTree_ok (input := input) collapse root (by
      intro w hw a b ha hb
      obtain ⟨h1, h2, _⟩ := C54_slices p' p' input h toks hl ptr root (hres p') w hw a b ha hb
      exact ⟨h1, h2⟩)
    refine ⟨.tree lines, fun p => ?_, ?_, ?_⟩
    · unfold showCst
      rw [hres p, Exec.val_bind]
      simp only
      rw [h1, Exec.val_bind]
      rfl
    · intro p root' hr'
      rw [hres p] at hr'
      cases hr'
      exact ⟨lines, nodes, rfl, h2, h3⟩
    · intro p e hr'
      rw [hres p] at hr'
      cases hr'
  | error e =>
    subst hr
    obtain ⟨read, he, _, _⟩ := C49_errors p' _ e (hres p')
    simp only at he
    have hsl : ∀ t rest, e.location.list = t :: rest → ∃ s, t.span.slice input = some s := by
      intro t rest ht
      obtain ⟨hspan, _⟩ := C35_spans p' input h _ hl
      obtain ⟨_, _, s, hs, _⟩ := hspan t (List.mem_map.mpr ⟨t, by rw [he, ht]; simp, rfl⟩)
      exact ⟨s, hs⟩
    by_cases hany : ∃ t rest, e.location.list = t :: rest ∧ t.selmaho = .AnyText
    · obtain ⟨t, rest, h1, h2⟩ := hany
      obtain ⟨s, hs⟩ := hsl t rest h1
      refine ⟨.notLexable t s.chars, fun p => ?_, ?_, ?_⟩
      · unfold showCst
        rw [hres p, Exec.val_bind]
        simp only [h1, List.head?_cons, Option.filter, h2, beq_self_eq_true, if_true]
        have : t.span.sliceUnwrap input = .val s := by
          unfold Span.sliceUnwrap
          rw [hs]
        rw [this, Exec.val_bind]
        rfl
      · intro p root' hr'
        rw [hres p] at hr'
        cases hr'
      · intro p e' hr'
        rw [hres p] at hr'
        cases hr'
        refine ⟨?_, fun hn => absurd h2 (hn t rest h1)⟩
        intro t' rest' h1' _
        rw [h1] at h1'
        cases h1'
        exact ⟨s, hs, rfl⟩
    · have hn : ∀ t rest, e.location.list = t :: rest → t.selmaho ≠ .AnyText :=
        fun t rest h1 h2 => hany ⟨t, rest, h1, h2⟩
      refine ⟨.parseError e, fun p => ?_, ?_, ?_⟩
      · unfold showCst
        rw [hres p, Exec.val_bind]
        cases hloc : e.location.list with
        | nil => simp only [hloc]; rfl
        | cons t rest =>
          have := hn t rest hloc
          simp only [hloc, List.head?_cons, Option.filter]
          rw [if_neg (by simpa using this)]
          rfl
      · intro p root' hr'
        rw [hres p] at hr'
        cases hr'
      · intro p e' hr'
        rw [hres p] at hr'
        cases hr'
        refine ⟨?_, fun _ => rfl⟩
        intro t' rest' h1' h2'
        exact absurd h2' (hn _ _ h1')

/-- **C56.** Whatever the switches, for every text below 4 GiB the program handles it without panic, the same in both
build profiles, and prints, in this order: the words if asked for; then, if the text cannot be lexed, the lexing error
and nothing else; otherwise the tokens if asked for, and, if asked for, the tree, or the lexable-error message for the
token at the location of the parse error, or the parse error. -/
theorem C56_prints (args : Args) (ptr : Nat) (input : Str) (h : input.len < 2 ^ 32) :
    ∃ out, (∀ p, mainCallback p args ptr input = .val out) ∧ Prints args input ptr out := by
  obtain ⟨spans, hspans⟩ := C20_terminates input h
  obtain ⟨items, hitems⟩ := C33_terminates input h
  have hitems' : ∀ p, lexAll p input = .val items := fun p => (hitems p).1
  have hspans' : ∀ p, decomposeAll p input = .val spans := fun p => (hspans p).1
  obtain ⟨shown, hs1, hs2⟩ := showSpans_ok (input := input) (xs := spans) (by
    intro s hs
    obtain ⟨_, _, t, ht, _⟩ := (C21_spans_valid .debug input h spans (hspans' _)).1 s hs
    exact ⟨t, ht⟩)
  -- the words
  obtain ⟨words, hwords, hw1, hw2⟩ : ∃ words, (∀ p, showWords p args input = Exec.val words) ∧ (args.decompose = false → words = []) ∧
    (args.decompose = true → ∃ spans shown, (∀ p, decomposeAll p input = .val spans) ∧
      words = [.decomposed shown] ∧ Shown input spans shown) := by
    unfold showWords
    cases args.decompose with
    | false => exact ⟨[], fun p => rfl, fun _ => rfl, nofun⟩
    | true =>
      refine ⟨[.decomposed shown], fun p => ?_, nofun, fun _ => ⟨spans, shown, hspans', rfl, hs2⟩⟩
      rw [if_pos rfl, hspans' p, Exec.val_bind, hs1, Exec.val_bind]
      rfl
  have hcol : ∀ p, collectTokens p (2 * input.chars.length + 3) (lex input) = .val (items.mapM id) := by
    intro p
    exact collectTokens_eq p _ _ _ (hitems' p)
  rcases items_cases h (hitems' .debug) with ⟨toks, rfl⟩ | ⟨toks, e, rfl⟩
  · obtain ⟨shown', ht1, ht2⟩ := showTokens_ok (input := input) (xs := toks) (by
      intro t ht
      obtain ⟨hspan, _⟩ := C35_spans .debug input h _ (hitems' _)
      obtain ⟨_, _, s, hs, _⟩ := hspan t (List.mem_map.mpr ⟨t, ht, rfl⟩)
      exact ⟨s, hs⟩)
    obtain ⟨o, ho1, ho2⟩ := showCst_ok args.collapseCst h ptr (hitems' .debug)
    obtain ⟨lexed, hlexed, hl1, hl2⟩ : ∃ lexed, showLexed args input toks = Exec.val lexed ∧ (args.lex = false → lexed = []) ∧
        (args.lex = true → ∃ shown, lexed = [.lexed shown] ∧ ShownTokens input toks shown) := by
      unfold showLexed
      cases args.lex with
      | false => exact ⟨[], rfl, fun _ => rfl, nofun⟩
      | true =>
        refine ⟨[.lexed shown'], ?_, nofun, fun _ => ⟨shown', rfl, ht2⟩⟩
        rw [if_pos rfl, ht1, Exec.val_bind]
        rfl
    obtain ⟨tree, htree, hc1, hc2⟩ : ∃ tree, (∀ p, showTree p args input ptr toks = Exec.val tree) ∧ (args.cst = false → tree = []) ∧
        (args.cst = true → PrintsTree args.collapseCst input ptr toks tree) := by
      unfold showTree
      cases args.cst with
      | false => exact ⟨[], fun _ => rfl, fun _ => rfl, nofun⟩
      | true =>
        refine ⟨[o], fun p => ?_, nofun, fun _ => ho2⟩
        rw [if_pos rfl, ho1 p, Exec.val_bind]
        rfl
    refine ⟨words ++ lexed ++ tree, fun p => ?_, words, lexed, tree, rfl, hw1, hw2, ?_, ?_⟩
    · unfold mainCallback
      rw [hwords p, Exec.val_bind, hcol p, mapM_ok, Exec.val_bind]
      simp only
      rw [hlexed, Exec.val_bind, htree p, Exec.val_bind]
      rfl
    · intro p pre e he
      rw [hitems' p] at he
      have : Except.error e ∈ toks.map (Except.ok (ε := LexError)) := by
        rw [Exec.val.inj he]
        simp
      simp at this
    · intro p toks' ht
      rw [hitems' p] at ht
      have h1 := mapM_ok toks
      rw [Exec.val.inj ht, mapM_ok toks'] at h1
      cases h1
      exact ⟨hl1, hl2, hc1, hc2⟩
  · refine ⟨words ++ [.lexingError e] ++ [], fun p => ?_, words, [.lexingError e], [], rfl, hw1, hw2, ?_, ?_⟩
    · unfold mainCallback
      rw [hwords p, Exec.val_bind, hcol p, mapM_error, Exec.val_bind]
      simp
    · intro p pre e' he
      rw [hitems' p] at he
      have := List.append_inj_right' (Exec.val.inj he) rfl
      cases this
      exact ⟨rfl, rfl⟩
    · intro p toks' ht
      rw [hitems' p] at ht
      have : Except.error e ∈ toks'.map (Except.ok (ε := LexError)) := by
        rw [← Exec.val.inj ht]
        simp
      simp at this

/-- In particular the program never panics and always comes to an end. -/
theorem C56_never_panics (p : Profile) (args : Args) (ptr : Nat) (input : Str) (h : input.len < 2 ^ 32) :
    ∃ out, mainCallback p args ptr input = .val out := by
  obtain ⟨out, ho, _⟩ := C56_prints args ptr input h
  exact ⟨out, ho p⟩

example : mainCallback .debug ⟨true, true, false, false⟩ 0 ⟨0, c!"coi do"⟩ = .val
    [.decomposed [(c!"coi", ⟨0, 3⟩), (c!"do", ⟨4, 6⟩)],
     .lexed [(⟨false, .Coi, ⟨0, 3⟩⟩, c!"coi"), (⟨false, .Koha, ⟨4, 6⟩⟩, c!"do")]] := by decide +kernel

example : mainCallback .debug ⟨false, true, true, false⟩ 0 ⟨0, c!"zoi gy hello"⟩ = .val
    [.lexingError (.delimitedQuoteUnclosed ⟨0, 3⟩ ⟨4, 6⟩)] := by decide +kernel

/-! ### C57: the printed tree -/

/-- **C57.** The printed tree of a text that parses: one line for each node of the outline of the tree, in order; the
outline's nodes are parts of the tree and its leaves are the tokens of the text from left to right; there is only one
outline; and the collapsed outline lists those nodes of the full one that do not have exactly one child, in the same
order. -/
theorem C57_tree (p p' : Profile) (input : Str) (h : input.len < 2 ^ 32) (toks : List Token)
    (hl : lexAll p input = .val (toks.map .ok)) (ptr : Nat) (root : Val) (hp : parseCst p' ⟨ptr, toks⟩ = .val (.ok root))
    (collapse : Bool) :
    ∃ lines nodes, mainCallback p ⟨false, false, true, collapse⟩ ptr input = .val [.tree lines] ∧
      Outline collapse 0 root nodes ∧ DescribeAll input lines nodes ∧
      (∀ nodes', Outline collapse 0 root nodes' → nodes' = nodes) ∧
      (∀ n ∈ nodes, PartOf n.2 root) ∧ leaves nodes = toks ∧
      ∃ full, Outline false 0 root full ∧
        (collapse = true → nodes.map Prod.snd = (full.map Prod.snd).filter (fun v => v.children.length != 1)) := by
  obtain ⟨out, ho, words, lexed, tree, rfl, h1, _, _, h2⟩ := C56_prints ⟨false, false, true, collapse⟩ ptr input h
  obtain ⟨h3, _, _, h4⟩ := h2 p toks hl
  obtain ⟨h5, _⟩ := h4 rfl
  obtain ⟨lines, nodes, rfl, h6, h7⟩ := h5 p' root hp
  rw [h1 rfl, h3 rfl] at ho
  obtain ⟨_, full, _, hf, _⟩ := printTree_ok (input := input) false root (by
      intro w hw a b ha hb
      obtain ⟨h1, h2, _⟩ := C54_slices p p' input h toks hl ptr root hp w hw a b ha hb
      exact ⟨h1, h2⟩)
  refine ⟨lines, nodes, ho p, h6, h7, fun _ h' => outline_det h' h6, outline_parts h6, ?_, full, hf, ?_⟩
  · rw [outline_leaves h6, C46_tokens p' _ root hp]
  · intro hc
    subst hc
    exact outline_collapse hf h6

/-- The printed tree of `mi klama`, collapsed. -/
example : mainCallback .debug ⟨false, false, true, true⟩ 0 ⟨0, c!"mi klama"⟩ = .val [.tree
    [⟨0, .node .Sentence, false, some (⟨0, 8⟩, c!"mi klama")⟩, ⟨2, .token .Koha, false, some (⟨0, 2⟩, c!"mi")⟩,
     ⟨2, .token .Gismu, false, some (⟨3, 8⟩, c!"klama")⟩]] := by decide +kernel

/-! ### C58: unclassifiable words -/

/-- **C58, not for every word.** In `lo zzz` the second word cannot be classified, nothing quotes it, and parsing fails (as it must,
`C59_no_use`), but the program prints a parse error instead of the message that `zzz` could not be lexed. -/
theorem C58_not_every_word :
    lexAll .debug ⟨0, c!"lo zzz"⟩ = .val [.ok ⟨false, .Le, ⟨0, 2⟩⟩, .ok ⟨false, .AnyText, ⟨3, 6⟩⟩] ∧
    ∀ p collapse, mainCallback p ⟨false, false, true, collapse⟩ 0 ⟨0, c!"lo zzz"⟩ = .val [.parseError
      ⟨⟨0, [⟨false, .Le, ⟨0, 2⟩⟩, ⟨false, .AnyText, ⟨3, 6⟩⟩]⟩, .nom .eof⟩] := by
  refine ⟨by decide +kernel, ?_⟩
  intro p collapse
  cases p <;> cases collapse <;> decide +kernel

end Sneturfahi.Props
