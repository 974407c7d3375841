import Verif.Proof.ReadBack
import Verif.Props.Program

/-!
# C97: what the program prints can be read back
-/

namespace Sneturfahi.Props

open Spec ReadBack

/-! ## Every line has a name -/

mutual
theorem selves_label : ∀ (v w : Val), w ∈ v.selves → w.label ≠ .other
  | .leaf k t, w, h => by
    rw [Val.selves, List.mem_singleton] at h
    subst h
    cases k <;> simp [Val.label]
  | .node n fs, w, h => by
    rw [Val.selves] at h
    split at h
    · exact allSelves_label fs w h
    · rw [List.mem_singleton] at h
      subst h
      simp [Val.label]
  | .tuple fs, w, h => by
    rw [Val.selves] at h
    exact allSelves_label fs w h
  | .many vs, w, h => by
    rw [Val.selves] at h
    exact allSelves_label vs w h
  | .sep f r, w, h => by
    rw [Val.selves, List.mem_singleton] at h
    subst h
    simp [Val.label]
theorem allSelves_label : ∀ (vs : List Val) (w : Val), w ∈ Val.allSelves vs → w.label ≠ .other
  | [], _, h => by
    rw [Val.allSelves] at h
    cases h
  | v :: vs, w, h => by
    rw [Val.allSelves] at h
    rcases List.mem_append.mp h with h | h
    · exact selves_label v w h
    · exact allSelves_label vs w h
end

theorem children_label (v w : Val) (h : w ∈ v.children) : w.label ≠ .other := by
  cases v with
  | leaf k t => simp [Val.children] at h
  | node n fs => exact allSelves_label fs w (by simpa [Val.children] using h)
  | tuple fs => exact allSelves_label fs w (by simpa [Val.children] using h)
  | many fs => exact allSelves_label fs w (by simpa [Val.children] using h)
  | sep f r =>
    rw [Val.children] at h
    rcases List.mem_append.mp h with h | h
    · exact selves_label f w h
    · exact allSelves_label r w h

mutual
theorem outline_label {collapse : Bool} : ∀ {level : Nat} {v : Val} {nodes : List (Nat × Val)}, Outline collapse level v nodes →
    v.label ≠ .other → ∀ x ∈ nodes, x.2.label ≠ .other
  | _, v, _, .skip (child := child) _ h1 h2, _, x, hx => outline_label h2 (children_label v child (by rw [h1]; simp)) x hx
  | _, v, _, .node (nodes := nodes) _ h1, hv, x, hx => by
    rcases List.mem_cons.mp hx with rfl | hx
    · exact hv
    · exact outlines_label h1 (fun w hw => children_label v w hw) x hx
theorem outlines_label {collapse : Bool} : ∀ {level : Nat} {vs : List Val} {nodes : List (Nat × Val)}, Outlines collapse level vs nodes →
    (∀ v ∈ vs, v.label ≠ .other) → ∀ x ∈ nodes, x.2.label ≠ .other
  | _, _, _, .nil, _, x, hx => by cases hx
  | _, _, _, .cons h1 h2, hv, x, hx => by
    rcases List.mem_append.mp hx with hx | hx
    · exact outline_label h1 (hv _ (by simp)) x hx
    · exact outlines_label h2 (fun w hw => hv w (by simp [hw])) x hx
end

theorem describeAll_label {input : Str} : ∀ {lines : List Line} {nodes : List (Nat × Val)}, DescribeAll input lines nodes →
    (∀ x ∈ nodes, x.2.label ≠ .other) → ∀ l ∈ lines, l.label ≠ .other
  | [], _, _, _, l, hl => by cases hl
  | line :: lines, [], h, _, _, _ => h.elim
  | line :: lines, (level, v) :: nodes, ⟨h1, h2⟩, hn, l, hl => by
    rcases List.mem_cons.mp hl with rfl | hl
    · rw [h1.2.1]
      exact hn (level, v) (by simp)
    · exact describeAll_label h2 (fun x hx => hn x (by simp [hx])) l hl

theorem root_label {p : Profile} {s : Toks} {root : Val} (h : parseCst p s = .val (.ok root)) : root.label ≠ .other := by
  have h1 := parseCst_ok h
  rw [C45_recursion] at h1
  have he : ∃ g, cst .Text = .wrap (.node .Text) g := ⟨_, rfl⟩
  obtain ⟨g, he⟩ := he
  rw [he] at h1
  unfold evalGr wrapC at h1
  cases hg : evalGr runCst g s with
  | panic => rw [hg] at h1; cases h1
  | diverge => rw [hg] at h1; cases h1
  | val r =>
    rw [hg] at h1
    cases r with
    | error e => cases h1
    | failure e => cases h1
    | ok rest vs =>
      cases h1
      simp [CShape.build, Val.label]

theorem prints_named {args : Args} {input : Str} (h : input.len < 2 ^ 32) {ptr : Nat} {outs : List Output}
    (hp : Prints args input ptr outs) : ∀ o ∈ outs, Named o := by
  obtain ⟨words, lexed, tree, rfl, hw1, hw2, he, ht⟩ := hp
  intro o ho
  obtain ⟨items, hi⟩ := C33_terminates input h
  have hi := (hi .debug).1
  have hword : o ∈ words → Named o := by
    intro ho
    cases hd : args.decompose with
    | false => rw [hw1 hd] at ho; cases ho
    | true =>
      obtain ⟨_, _, _, h1, _⟩ := hw2 hd
      rw [h1, List.mem_singleton] at ho
      subst ho
      trivial
  rcases items_cases h hi with ⟨toks, rfl⟩ | ⟨toks, e, rfl⟩
  · obtain ⟨h1, h2, h3, h4⟩ := ht .debug toks hi
    rcases List.mem_append.mp ho with ho | ho
    · rcases List.mem_append.mp ho with ho | ho
      · exact hword ho
      · cases hl : args.lex with
        | false => rw [h1 hl] at ho; cases ho
        | true =>
          obtain ⟨_, h5, _⟩ := h2 hl
          rw [h5, List.mem_singleton] at ho
          subst ho
          trivial
    · cases hc : args.cst with
      | false => rw [h3 hc] at ho; cases ho
      | true =>
        obtain ⟨h5, h6⟩ := h4 hc
        obtain ⟨res, hres⟩ := C45_total ⟨ptr, toks⟩
        cases res with
        | ok root =>
          obtain ⟨lines, nodes, h7, h8, h9⟩ := h5 .debug root (hres _)
          rw [h7, List.mem_singleton] at ho
          subst ho
          exact describeAll_label h9 (outline_label h8 (root_label (hres .debug)))
        | error e =>
          obtain ⟨h7, h8⟩ := h6 .debug e (hres _)
          by_cases hany : ∃ t rest, e.location.list = t :: rest ∧ t.selmaho = .AnyText
          · obtain ⟨t, rest, g1, g2⟩ := hany
            obtain ⟨s, _, g3⟩ := h7 t rest g1 g2
            rw [g3, List.mem_singleton] at ho
            subst ho
            trivial
          · rw [h8 (fun t rest g1 g2 => hany ⟨t, rest, g1, g2⟩), List.mem_singleton] at ho
            subst ho
            trivial
  · obtain ⟨h1, h2⟩ := he .debug _ e hi
    rw [h1, h2, List.append_nil] at ho
    rcases List.mem_append.mp ho with ho | ho
    · exact hword ho
    · rw [List.mem_singleton] at ho
      subst ho
      trivial

/-! ## The tree -/

/-- Two lists of nodes of the same length, described by lines that say the same. -/
inductive SameLines (i j : Str) : List (Nat × Val) → List (Nat × Val) → Prop
  | nil : SameLines i j [] []
  | cons {level : Nat} {v w : Val} {vs ws : List (Nat × Val)} (l l' : Line) : Describes i l level v → Describes j l' level w →
      lineSays l = lineSays l' → SameLines i j vs ws → SameLines i j ((level, v) :: vs) ((level, w) :: ws)

theorem sameLines_of {i j : Str} : ∀ {lines lines' : List Line} {nodes nodes' : List (Nat × Val)}, DescribeAll i lines nodes →
    DescribeAll j lines' nodes' → lines.map lineSays = lines'.map lineSays → SameLines i j nodes nodes'
  | [], [], [], [], _, _, _ => .nil
  | [], l' :: ls', _, _, _, _, h => by simp at h
  | l :: ls, [], _, _, _, _, h => by simp at h
  | [], [], _ :: _, _, h, _, _ => h.elim
  | [], [], [], _ :: _, _, h, _ => h.elim
  | l :: ls, l' :: ls', [], _, h, _, _ => h.elim
  | l :: ls, l' :: ls', _ :: _, [], _, h, _ => h.elim
  | l :: ls, l' :: ls', (a, v) :: nodes, (b, w) :: nodes', ⟨h1, h2⟩, ⟨h3, h4⟩, h => by
    simp only [List.map_cons, List.cons.injEq] at h
    have hlev : a = b := by
      rw [← h1.1, ← h3.1]
      exact congrArg Prod.fst h.1
    subst hlev
    exact .cons l l' h1 h3 h.1 (sameLines_of h2 h4 h.2)

/-- The first node of an outline, below a chain of nodes passed over. -/
theorem outline_right {collapse : Bool} {i j : Str} : ∀ {level : Nat} {w : Val} {nodes : List (Nat × Val)}, Outline collapse level w nodes →
    ∃ w' cs, nodes = (level, w') :: cs ∧ (collapse = true → w'.children.length ≠ 1) ∧ Outlines collapse (level + 2) w'.children cs ∧
      ∀ v, LookAlike collapse i j v w' → LookAlike collapse i j v w
  | _, _, _, .skip h1 h2 h3 => by
    obtain ⟨w', cs, g1, g2, g3, g4⟩ := outline_right (i := i) (j := j) h3
    exact ⟨w', cs, g1, g2, g3, fun v hv => .right h1 h2 (g4 v hv)⟩
  | _, w, _, .node h1 h2 => ⟨w, _, rfl, h1, h2, fun _ hv => hv⟩

/-- The first of these nodes, if there is one, is at most `n` columns in. -/
def Until (n : Nat) (nodes : List (Nat × Val)) : Prop := ∀ x, nodes.head? = some x → x.1 ≤ n

theorem outlines_until {collapse : Bool} {level : Nat} {vs : List Val} {nodes rest : List (Nat × Val)} (h : Outlines collapse level vs nodes)
    (hr : Until level rest) : Until level (nodes ++ rest) := by
  cases h with
  | nil => exact hr
  | cons h1 h2 =>
    obtain ⟨w', cs, g1, _⟩ := outline_right (i := ⟨0, []⟩) (j := ⟨0, []⟩) h1
    rw [g1]
    intro x hx
    simp only [List.cons_append, List.head?_cons, Option.some.injEq] at hx
    rw [← hx]
    exact Nat.le_refl _

mutual
theorem outline_alike {collapse : Bool} {i j : Str} : ∀ {level : Nat} {v : Val} {ns : List (Nat × Val)}, Outline collapse level v ns →
    ∀ {w : Val} {ns' rest rest' : List (Nat × Val)}, Outline collapse level w ns' → Until level rest → Until level rest' →
    SameLines i j (ns ++ rest) (ns' ++ rest') → LookAlike collapse i j v w ∧ SameLines i j rest rest'
  | _, _, _, .skip h1 h2 h3, w, ns', rest, rest', hw, hr, hr', hs => by
    obtain ⟨g1, g2⟩ := outline_alike h3 hw hr hr' hs
    exact ⟨.left h1 h2 g1, g2⟩
  | level, v, _, .node h1 h2, w, ns', rest, rest', hw, hr, hr', hs => by
    obtain ⟨w', cs, rfl, g2, g3, g4⟩ := outline_right (i := i) (j := j) hw
    cases hs with
    | cons l l' d1 d2 d3 d4 =>
      obtain ⟨k1, k2⟩ := outlines_alike h2 g3 (n := level) (by omega) hr hr' d4
      exact ⟨g4 _ (.node l l' level d1 d2 d3 (fun hc => ⟨h1 hc, g2 hc⟩) k1), k2⟩
theorem outlines_alike {collapse : Bool} {i j : Str} : ∀ {level : Nat} {vs : List Val} {ns : List (Nat × Val)}, Outlines collapse level vs ns →
    ∀ {ws : List Val} {ns' rest rest' : List (Nat × Val)}, Outlines collapse level ws ns' → ∀ {n : Nat}, n < level → Until n rest → Until n rest' →
    SameLines i j (ns ++ rest) (ns' ++ rest') → LookAlikes collapse i j vs ws ∧ SameLines i j rest rest'
  | level, _, _, .nil, ws, ns', rest, rest', hw, n, hn, hr, hr', hs => by
    cases hw with
    | nil => exact ⟨.nil, hs⟩
    | cons h1 h2 =>
      obtain ⟨w', cs, rfl, _⟩ := outline_right (i := i) (j := j) h1
      rw [List.nil_append] at hs
      cases hs with
      | cons l l' d1 d2 d3 d4 =>
        have := hr _ rfl
        simp only at this
        omega
  | level, _, _, .cons (a := a) (b := b) h1 h2, ws, ns', rest, rest', hw, n, hn, hr, hr', hs => by
    cases hw with
    | nil =>
      obtain ⟨w', cs, rfl, _⟩ := outline_right (i := i) (j := j) h1
      rw [List.nil_append] at hs
      cases hs with
      | cons l l' d1 d2 d3 d4 =>
        have := hr' _ rfl
        simp only at this
        omega
    | cons g1 g2 =>
      rw [List.append_assoc, List.append_assoc] at hs
      obtain ⟨k1, k2⟩ := outline_alike h1 g1 (outlines_until h2 (fun x hx => Nat.le_trans (hr x hx) (Nat.le_of_lt hn)))
        (outlines_until g2 (fun x hx => Nat.le_trans (hr' x hx) (Nat.le_of_lt hn))) hs
      obtain ⟨k3, k4⟩ := outlines_alike h2 g2 hn hr hr' k2
      exact ⟨.cons k1 k3, k4⟩
end

/-- Outlines that say the same are those of trees that look alike. -/
theorem trees_alike {collapse : Bool} {i j : Str} {v w : Val} {ns ns' : List (Nat × Val)} {lines lines' : List Line}
    (h1 : Outline collapse 0 v ns) (h2 : Outline collapse 0 w ns') (h3 : DescribeAll i lines ns) (h4 : DescribeAll j lines' ns')
    (h : lines.map lineSays = lines'.map lineSays) : LookAlike collapse i j v w := by
  have := sameLines_of h3 h4 h
  rw [← List.append_nil ns, ← List.append_nil ns'] at this
  exact (outline_alike h1 h2 (fun x hx => by cases hx) (fun x hx => by cases hx) this).1

/-! ## Reading back -/

/-- What the two texts are found to say when the program prints the same for both. -/
theorem same_says (p : Profile) (args : Args) (ha : Args.Asks args) (s : Surroundings) (a b t u : List Char) (out : Streams)
    (ht : Trimmed a t) (hu : Trimmed b u) (hlt : byteLen t < 2 ^ 32) (hlu : byteLen u < 2 ^ 32)
    (h1 : program p args s false a = .val out) (h2 : program p args s false b = .val out) :
    ∃ outs outs', Prints args ⟨0, t⟩ 0 outs ∧ Prints args ⟨0, u⟩ 0 outs' ∧ outs.map (says s) = outs'.map (says s) := by
  obtain ⟨outs, g1, g2⟩ := C96_pipe p args ha s a t ht hlt
  obtain ⟨outs', g3, g4⟩ := C96_pipe p args ha s b u hu hlu
  refine ⟨outs, outs', g1, g3, ?_⟩
  rw [g2] at h1
  rw [g4] at h2
  have h1 := Exec.val.inj h1
  have h2 := Exec.val.inj h2
  rw [← h2] at h1
  simp only [Streams.mk.injEq, and_true] at h1
  exact outputs_inj s (prints_named (input := ⟨0, t⟩) hlt g1) (prints_named (input := ⟨0, u⟩) hlu g3) h1

theorem asks_some {args : Args} (h : args.decompose = true ∨ args.lex = true ∨ args.cst = true) : Args.Asks args := h

/-- **C97.** What is printed can be read back.  If the program prints the same for two texts, then, whatever characters
they contain: if the words were asked for, both have the same words in the same places. -/
theorem C97_words (p : Profile) (args : Args) (hd : args.decompose = true) (s : Surroundings) (a b t u : List Char) (out : Streams)
    (ht : Trimmed a t) (hu : Trimmed b u) (hlt : byteLen t < 2 ^ 32) (hlu : byteLen u < 2 ^ 32)
    (h1 : program p args s false a = .val out) (h2 : program p args s false b = .val out) :
    ∃ spans shown, decomposeAll p ⟨0, t⟩ = .val spans ∧ decomposeAll p ⟨0, u⟩ = .val spans ∧
      Shown ⟨0, t⟩ spans shown ∧ Shown ⟨0, u⟩ spans shown := by
  obtain ⟨outs, outs', g1, g2, g3⟩ := same_says p args (.inl hd) s a b t u out ht hu hlt hlu h1 h2
  obtain ⟨words, lexed, tree, rfl, _, hw, _⟩ := g1
  obtain ⟨words', lexed', tree', rfl, _, hw', _⟩ := g2
  obtain ⟨spans, shown, k1, rfl, k2⟩ := hw hd
  obtain ⟨spans', shown', k3, rfl, k4⟩ := hw' hd
  simp only [List.cons_append, List.nil_append, List.map_cons, says, List.cons.injEq, Said.words.injEq] at g3
  obtain ⟨g3, _⟩ := g3
  subst g3
  have : spans = spans' := by
    rw [← k2.1, ← k4.1]
  subst this
  exact ⟨spans, shown, k1 p, k3 p, k2, k4⟩

/-- The heads of what is printed after the words. -/
theorem after_words (p : Profile) (args : Args) (ha : Args.Asks args) (s : Surroundings) (a b t u : List Char) (out : Streams)
    (ht : Trimmed a t) (hu : Trimmed b u) (hlt : byteLen t < 2 ^ 32) (hlu : byteLen u < 2 ^ 32)
    (h1 : program p args s false a = .val out) (h2 : program p args s false b = .val out) :
    ∃ lexed tree lexed' tree', (lexed ++ tree).map (says s) = (lexed' ++ tree').map (says s) ∧
      (∀ p pre e, lexAll p ⟨0, t⟩ = .val (pre ++ [.error e]) → lexed = [.lexingError e] ∧ tree = []) ∧
      (∀ p pre e, lexAll p ⟨0, u⟩ = .val (pre ++ [.error e]) → lexed' = [.lexingError e] ∧ tree' = []) ∧
      (∀ p toks, lexAll p ⟨0, t⟩ = .val (toks.map .ok) →
        (args.lex = false → lexed = []) ∧
        (args.lex = true → ∃ shown, lexed = [.lexed shown] ∧ ShownTokens ⟨0, t⟩ toks shown) ∧
        (args.cst = false → tree = []) ∧
        (args.cst = true → PrintsTree args.collapseCst ⟨0, t⟩ 0 toks tree)) ∧
      (∀ p toks, lexAll p ⟨0, u⟩ = .val (toks.map .ok) →
        (args.lex = false → lexed' = []) ∧
        (args.lex = true → ∃ shown, lexed' = [.lexed shown] ∧ ShownTokens ⟨0, u⟩ toks shown) ∧
        (args.cst = false → tree' = []) ∧
        (args.cst = true → PrintsTree args.collapseCst ⟨0, u⟩ 0 toks tree')) := by
  obtain ⟨outs, outs', g1, g2, g3⟩ := same_says p args ha s a b t u out ht hu hlt hlu h1 h2
  obtain ⟨words, lexed, tree, rfl, hw1, hw, he, hk⟩ := g1
  obtain ⟨words', lexed', tree', rfl, hw1', hw', he', hk'⟩ := g2
  refine ⟨lexed, tree, lexed', tree', ?_, he, he', hk, hk'⟩
  have hlen : (words.map (says s)).length = (words'.map (says s)).length := by
    cases hd : args.decompose with
    | false => rw [hw1 hd, hw1' hd]
    | true =>
      obtain ⟨_, _, _, h3, _⟩ := hw hd
      obtain ⟨_, _, _, h4, _⟩ := hw' hd
      rw [h3, h4]
      rfl
  rw [List.append_assoc, List.append_assoc, List.map_append, List.map_append (l₁ := words')] at g3
  exact (List.append_inj g3 hlen).2

theorem error_outputs (outs : List Output) (s : Surroundings) (e : LexError) (h : outs.map (says s) = [.lexingError e]) :
    outs = [.lexingError e] := by
  cases outs with
  | nil => cases h
  | cons o os =>
    cases os with
    | cons _ _ => simp at h
    | nil =>
      cases o <;> simp [says] at h
      rw [h]

/-- If one cannot be lexed, neither can the other, for the same reason at the same place. -/
theorem C97_lexing_error (p : Profile) (args : Args) (ha : Args.Asks args) (s : Surroundings) (a b t u : List Char) (out : Streams)
    (ht : Trimmed a t) (hu : Trimmed b u) (hlt : byteLen t < 2 ^ 32) (hlu : byteLen u < 2 ^ 32)
    (h1 : program p args s false a = .val out) (h2 : program p args s false b = .val out) (pre : List LexItem) (e : LexError)
    (he : lexAll p ⟨0, t⟩ = .val (pre ++ [.error e])) : ∃ pre', lexAll p ⟨0, u⟩ = .val (pre' ++ [.error e]) := by
  obtain ⟨lexed, tree, lexed', tree', g1, g2, g3, g4, g5⟩ := after_words p args ha s a b t u out ht hu hlt hlu h1 h2
  obtain ⟨rfl, rfl⟩ := g2 p pre e he
  have g1 := error_outputs _ s e g1.symm
  obtain ⟨items, hi⟩ := C33_terminates ⟨0, u⟩ hlu
  have hi := (hi p).1
  rcases items_cases (input := ⟨0, u⟩) hlu hi with ⟨toks, rfl⟩ | ⟨toks, e', rfl⟩
  · exfalso
    obtain ⟨k1, k2, k3, k4⟩ := g5 p toks hi
    have hne : ∀ o ∈ lexed' ++ tree', ∀ e, o ≠ .lexingError e := by
      intro o ho e
      rcases List.mem_append.mp ho with ho | ho
      · cases hl : args.lex with
        | false => rw [k1 hl] at ho; cases ho
        | true =>
          obtain ⟨_, h5, _⟩ := k2 hl
          rw [h5, List.mem_singleton] at ho
          subst ho
          simp
      · cases hc : args.cst with
        | false => rw [k3 hc] at ho; cases ho
        | true =>
          obtain ⟨h5, h6⟩ := k4 hc
          obtain ⟨res, hres⟩ := C45_total ⟨0, toks⟩
          cases res with
          | ok root =>
            obtain ⟨lines, nodes, h7, h8, h9⟩ := h5 .debug root (hres _)
            rw [h7, List.mem_singleton] at ho
            subst ho
            simp
          | error e =>
            obtain ⟨h7, h8⟩ := h6 .debug e (hres _)
            by_cases hany : ∃ t rest, e.location.list = t :: rest ∧ t.selmaho = .AnyText
            · obtain ⟨t, rest, q1, q2⟩ := hany
              obtain ⟨s, _, q3⟩ := h7 t rest q1 q2
              rw [q3, List.mem_singleton] at ho
              subst ho
              simp
            · rw [h8 (fun t rest q1 q2 => hany ⟨t, rest, q1, q2⟩), List.mem_singleton] at ho
              subst ho
              simp
    exact hne _ (by rw [g1]; simp) e rfl
  · obtain ⟨rfl, rfl⟩ := g3 p _ e' hi
    simp only [List.append_nil, List.cons.injEq, Output.lexingError.injEq, and_true] at g1
    subst g1
    exact ⟨_, hi⟩

/-- If one can be lexed, so can the other. -/
theorem both_lexed (p : Profile) (args : Args) (ha : Args.Asks args) (s : Surroundings) (a b t u : List Char) (out : Streams)
    (ht : Trimmed a t) (hu : Trimmed b u) (hlt : byteLen t < 2 ^ 32) (hlu : byteLen u < 2 ^ 32)
    (h1 : program p args s false a = .val out) (h2 : program p args s false b = .val out) (toks : List Token)
    (hl : lexAll p ⟨0, t⟩ = .val (toks.map .ok)) : ∃ toks' : List Token, lexAll p ⟨0, u⟩ = .val (toks'.map .ok) := by
  obtain ⟨items, hi⟩ := C33_terminates ⟨0, u⟩ hlu
  have hi := (hi p).1
  rcases items_cases (input := ⟨0, u⟩) hlu hi with ⟨toks', rfl⟩ | ⟨toks', e', rfl⟩
  · exact ⟨toks', hi⟩
  · obtain ⟨pre', hp⟩ := C97_lexing_error p args ha s b a u t out hu ht hlu hlt h2 h1 _ e' hi
    rw [hl] at hp
    have : Except.error e' ∈ toks.map (Except.ok (ε := LexError)) := by
      rw [Exec.val.inj hp]
      simp
    simp at this

/-- If the tokens were asked for, both have the same tokens in the same places: class, star, range and text. -/
theorem C97_tokens (p : Profile) (args : Args) (hk : args.lex = true) (s : Surroundings) (a b t u : List Char) (out : Streams)
    (ht : Trimmed a t) (hu : Trimmed b u) (hlt : byteLen t < 2 ^ 32) (hlu : byteLen u < 2 ^ 32)
    (h1 : program p args s false a = .val out) (h2 : program p args s false b = .val out) (toks : List Token)
    (hl : lexAll p ⟨0, t⟩ = .val (toks.map .ok)) :
    lexAll p ⟨0, u⟩ = .val (toks.map .ok) ∧ ∃ shown, ShownTokens ⟨0, t⟩ toks shown ∧ ShownTokens ⟨0, u⟩ toks shown := by
  obtain ⟨toks', hl'⟩ := both_lexed p args (.inr (.inl hk)) s a b t u out ht hu hlt hlu h1 h2 toks hl
  obtain ⟨lexed, tree, lexed', tree', g1, g2, g3, g4, g5⟩ := after_words p args (.inr (.inl hk)) s a b t u out ht hu hlt hlu h1 h2
  obtain ⟨shown, rfl, k1⟩ := (g4 p toks hl).2.1 hk
  obtain ⟨shown', rfl, k2⟩ := (g5 p toks' hl').2.1 hk
  simp only [List.cons_append, List.nil_append, List.map_cons, says, List.cons.injEq, Said.tokens.injEq] at g1
  obtain ⟨g1, _⟩ := g1
  subst g1
  have : toks = toks' := by
    rw [← k1.1, ← k2.1]
  subst this
  exact ⟨hl', shown, k1, k2⟩

/-- If the tree was asked for and one is a text, so is the other, and the trees look alike: the same names, stars, ranges
and texts, nested the same way; with `--collapse-cst`, up to nodes with exactly one child. -/
theorem C97_tree (p : Profile) (args : Args) (hk : args.cst = true) (s : Surroundings) (a b t u : List Char) (out : Streams)
    (ht : Trimmed a t) (hu : Trimmed b u) (hlt : byteLen t < 2 ^ 32) (hlu : byteLen u < 2 ^ 32)
    (h1 : program p args s false a = .val out) (h2 : program p args s false b = .val out) (toks : List Token)
    (hl : lexAll p ⟨0, t⟩ = .val (toks.map .ok)) (root : Val) (hr : parseCst p ⟨0, toks⟩ = .val (.ok root)) :
    ∃ toks' root', lexAll p ⟨0, u⟩ = .val (toks'.map .ok) ∧ parseCst p ⟨0, toks'⟩ = .val (.ok root') ∧
      LookAlike args.collapseCst ⟨0, t⟩ ⟨0, u⟩ root root' := by
  have ha : Args.Asks args := .inr (.inr hk)
  obtain ⟨toks', hl'⟩ := both_lexed p args ha s a b t u out ht hu hlt hlu h1 h2 toks hl
  obtain ⟨lexed, tree, lexed', tree', g1, g2, g3, g4, g5⟩ := after_words p args ha s a b t u out ht hu hlt hlu h1 h2
  obtain ⟨k1, k2, _, k4⟩ := g4 p toks hl
  obtain ⟨k1', k2', _, k4'⟩ := g5 p toks' hl'
  have hlen : (lexed.map (says s)).length = (lexed'.map (says s)).length := by
    cases hd : args.lex with
    | false => rw [k1 hd, k1' hd]
    | true =>
      obtain ⟨_, h3, _⟩ := k2 hd
      obtain ⟨_, h4, _⟩ := k2' hd
      rw [h3, h4]
      rfl
  rw [List.map_append, List.map_append] at g1
  have g1 := (List.append_inj g1 hlen).2
  obtain ⟨lines, nodes, rfl, h3, h4⟩ := (k4 hk).1 p root hr
  obtain ⟨h5, h6⟩ := k4' hk
  obtain ⟨res, hres⟩ := C45_total ⟨0, toks'⟩
  cases res with
  | ok root' =>
    obtain ⟨lines', nodes', rfl, h7, h8⟩ := h5 p root' (hres p)
    simp only [List.map_cons, List.map_nil, says, List.cons.injEq, Said.tree.injEq, and_true] at g1
    exact ⟨toks', root', hl', hres p, trees_alike h3 h7 h4 h8 g1⟩
  | error e =>
    exfalso
    obtain ⟨h7, h8⟩ := h6 p e (hres p)
    by_cases hany : ∃ t rest, e.location.list = t :: rest ∧ t.selmaho = .AnyText
    · obtain ⟨t, rest, q1, q2⟩ := hany
      obtain ⟨s, _, rfl⟩ := h7 t rest q1 q2
      simp [says] at g1
    · rw [h8 (fun t rest q1 q2 => hany ⟨t, rest, q1, q2⟩)] at g1
      simp [says] at g1

/-- If the tree was asked for and one is not a text, neither is the other, and the same is wrong with it: either the same
unknown word, or the same error with the same tokens left. -/
theorem C97_parse_error (p : Profile) (args : Args) (hk : args.cst = true) (s : Surroundings) (a b t u : List Char) (out : Streams)
    (ht : Trimmed a t) (hu : Trimmed b u) (hlt : byteLen t < 2 ^ 32) (hlu : byteLen u < 2 ^ 32)
    (h1 : program p args s false a = .val out) (h2 : program p args s false b = .val out) (toks : List Token)
    (hl : lexAll p ⟨0, t⟩ = .val (toks.map .ok)) (e : Located) (hr : parseCst p ⟨0, toks⟩ = .val (.error e)) :
    ∃ toks' e', lexAll p ⟨0, u⟩ = .val (toks'.map .ok) ∧ parseCst p ⟨0, toks'⟩ = .val (.error e') ∧
      ((∃ w rest rest', w.selmaho = .AnyText ∧ e.location.list = w :: rest ∧ e'.location.list = w :: rest') ∨
        (e.location.list = e'.location.list ∧ errorSays s e.error = errorSays s e'.error)) := by
  have ha : Args.Asks args := .inr (.inr hk)
  obtain ⟨toks', hl'⟩ := both_lexed p args ha s a b t u out ht hu hlt hlu h1 h2 toks hl
  obtain ⟨res, hres⟩ := C45_total ⟨0, toks'⟩
  cases res with
  | ok root =>
    obtain ⟨toks2, root2, q1, q2, _⟩ := C97_tree p args hk s b a u t out hu ht hlu hlt h2 h1 toks' hl' root (hres p)
    rw [hl] at q1
    have : toks = toks2 := by
      have h3 := mapM_ok toks
      rw [Exec.val.inj q1, mapM_ok toks2] at h3
      cases h3
      rfl
    subst this
    rw [hr] at q2
    cases q2
  | error e' =>
    refine ⟨toks', e', hl', hres p, ?_⟩
    obtain ⟨lexed, tree, lexed', tree', g1, g2, g3, g4, g5⟩ := after_words p args ha s a b t u out ht hu hlt hlu h1 h2
    obtain ⟨k1, k2, _, k4⟩ := g4 p toks hl
    obtain ⟨k1', k2', _, k4'⟩ := g5 p toks' hl'
    have hlen : (lexed.map (says s)).length = (lexed'.map (says s)).length := by
      cases hd : args.lex with
      | false => rw [k1 hd, k1' hd]
      | true =>
        obtain ⟨_, h3, _⟩ := k2 hd
        obtain ⟨_, h4, _⟩ := k2' hd
        rw [h3, h4]
        rfl
    rw [List.map_append, List.map_append] at g1
    have g1 := (List.append_inj g1 hlen).2
    obtain ⟨h3, h4⟩ := (k4 hk).2 p e hr
    obtain ⟨h5, h6⟩ := (k4' hk).2 p e' (hres p)
    by_cases hany : ∃ w rest, e.location.list = w :: rest ∧ w.selmaho = .AnyText <;>
    by_cases hany' : ∃ w rest, e'.location.list = w :: rest ∧ w.selmaho = .AnyText
    · obtain ⟨w, rest, q1, q2⟩ := hany
      obtain ⟨w', rest', q1', q2'⟩ := hany'
      obtain ⟨_, _, rfl⟩ := h3 w rest q1 q2
      obtain ⟨_, _, rfl⟩ := h5 w' rest' q1' q2'
      simp only [List.map_cons, List.map_nil, says, List.cons.injEq, Said.notLexable.injEq, and_true] at g1
      obtain ⟨rfl, _⟩ := g1
      exact .inl ⟨w, rest, rest', q2, q1, q1'⟩
    · obtain ⟨w, rest, q1, q2⟩ := hany
      obtain ⟨_, _, rfl⟩ := h3 w rest q1 q2
      rw [h6 (fun t rest q1 q2 => hany' ⟨t, rest, q1, q2⟩)] at g1
      simp [says] at g1
    · obtain ⟨w', rest', q1', q2'⟩ := hany'
      obtain ⟨_, _, rfl⟩ := h5 w' rest' q1' q2'
      rw [h4 (fun t rest q1 q2 => hany ⟨t, rest, q1, q2⟩)] at g1
      simp [says] at g1
    · rw [h6 (fun t rest q1 q2 => hany' ⟨t, rest, q1, q2⟩), h4 (fun t rest q1 q2 => hany ⟨t, rest, q1, q2⟩)] at g1
      simp only [List.map_cons, List.map_nil, says, List.cons.injEq, Said.parseError.injEq, and_true] at g1
      exact .inr g1

/-! ## Characters -/

/-- A character that may be sent to a terminal: a newline, or printable. -/
def Harmless (s : Surroundings) (c : Char) : Prop :=
  c = '\n' ∨ (0x20 ≤ c.toNat ∧ c.toNat < 0x7f) ∨ (0x80 ≤ c.toNat ∧ s.plain c = true)

/-- Printable ASCII. -/
def visible (c : Char) : Bool := decide (0x20 ≤ c.toNat) && decide (c.toNat < 0x7f)

theorem harmless_of_visible {s : Surroundings} {l : List Char} (h : l.all visible = true) : ∀ c ∈ l, Harmless s c := by
  intro c hc
  have := List.all_eq_true.mp h c hc
  simp only [visible, Bool.and_eq_true, decide_eq_true_eq] at this
  exact .inr (.inl this)

theorem harmless_append {s : Surroundings} {a b : List Char} (ha : ∀ c ∈ a, Harmless s c) (hb : ∀ c ∈ b, Harmless s c) :
    ∀ c ∈ a ++ b, Harmless s c := by
  intro c hc
  rcases List.mem_append.mp hc with hc | hc
  · exact ha c hc
  · exact hb c hc

theorem harmless_newline {s : Surroundings} : ∀ c ∈ c!"\n", Harmless s c := by
  intro c hc
  exact .inl (List.mem_singleton.mp hc)

theorem harmless_decimal (s : Surroundings) (n : Nat) : ∀ c ∈ decimal n, Harmless s c := by
  intro c hc
  have := decimal_digit n c hc
  refine .inr (.inl ?_)
  simp only [Char.isDigit, Bool.and_eq_true, decide_eq_true_eq] at this
  have h1 : 48 ≤ c.toNat := this.1
  have h2 : c.toNat ≤ 57 := this.2
  omega

theorem harmless_span (s : Surroundings) (x : Span) : ∀ c ∈ x.debug, Harmless s c :=
  harmless_append (harmless_append (harmless_decimal s _) (harmless_of_visible (by decide))) (harmless_decimal s _)

theorem harmless_unicode (s : Surroundings) (x : Char) : ∀ c ∈ unicodeEscape x, Harmless s c := by
  refine harmless_append (harmless_append (harmless_of_visible (by decide)) ?_) (harmless_of_visible (by decide))
  intro c hc
  have := hex_digits _ c hc
  exact harmless_of_visible (s := s) (l := c!"0123456789abcdef") (by decide) c this

theorem harmless_escape (s : Surroundings) (x : Char) : ∀ c ∈ escape s.plain x, Harmless s c := by
  unfold escape
  split
  · exact harmless_of_visible (by decide)
  split
  · exact harmless_of_visible (by decide)
  split
  · exact harmless_of_visible (by decide)
  split
  · exact harmless_of_visible (by decide)
  split
  · exact harmless_of_visible (by decide)
  split
  · exact harmless_of_visible (by decide)
  split
  · exact harmless_unicode s x
  split
  · intro c hc
    obtain rfl := List.mem_singleton.mp hc
    rename_i h1 h2
    by_cases h3 : c.toNat < 0x7f
    · exact .inr (.inl (by omega))
    · refine .inr (.inr ⟨by omega, ?_⟩)
      rcases h2 with h2 | h2
      · exact absurd h2 h3
      · exact h2
  · exact harmless_unicode s x

theorem harmless_quoted (s : Surroundings) (t : List Char) : ∀ c ∈ quoted s.plain t, Harmless s c := by
  refine harmless_append (harmless_append (harmless_of_visible (by decide)) ?_) (harmless_of_visible (by decide))
  intro c hc
  obtain ⟨x, _, hx⟩ := List.mem_flatMap.mp hc
  exact harmless_escape s x c hx

theorem harmless_commas (s : Surroundings) : ∀ (xs : List (List Char)), (∀ x ∈ xs, ∀ c ∈ x, Harmless s c) → ∀ c ∈ commas xs, Harmless s c
  | [], _ => by
    intro c hc
    cases hc
  | [x], h => h x (by simp)
  | x :: y :: ys, h =>
    harmless_append (harmless_append (h x (by simp)) (harmless_of_visible (by decide)))
      (harmless_commas s (y :: ys) (fun z hz => h z (by simp [List.mem_cons.mp hz])))

theorem harmless_list (s : Surroundings) (xs : List (List Char)) (h : ∀ x ∈ xs, ∀ c ∈ x, Harmless s c) :
    ∀ c ∈ debugList xs, Harmless s c :=
  harmless_append (harmless_append (harmless_of_visible (by decide)) (harmless_commas s xs h)) (harmless_of_visible (by decide))

theorem ident_visible (x : Selmaho) : x.ident.all visible = true := by
  have : (Selmaho.all.all (fun x => x.ident.all visible)) = true := by decide +kernel
  exact List.all_eq_true.mp this x (all_complete x)

theorem repr_visible (x : Selmaho) : x.asRepr.all visible = true := by
  have : (Selmaho.all.all (fun x => x.asRepr.all visible)) = true := by decide +kernel
  exact List.all_eq_true.mp this x (all_complete x)

theorem label_visible (l : Label) : l.text.all visible = true := by
  cases l with
  | node n =>
    cases n with
    | word s => exact ident_visible s
    | _ => decide +kernel
  | token s => exact repr_visible s
  | _ => decide +kernel

theorem harmless_bool (s : Surroundings) (x : Bool) : ∀ c ∈ debugBool x, Harmless s c := by
  cases x <;> exact harmless_of_visible (by decide)

theorem harmless_star (s : Surroundings) (x : Bool) : ∀ c ∈ star x, Harmless s c := by
  cases x <;> exact harmless_of_visible (by decide)

theorem harmless_token (s : Surroundings) (t : Token) : ∀ c ∈ t.debug, Harmless s c :=
  harmless_append (harmless_append (harmless_append (harmless_append (harmless_append (harmless_append
    (harmless_of_visible (by decide)) (harmless_bool s _)) (harmless_of_visible (by decide))) (harmless_of_visible (ident_visible _)))
    (harmless_of_visible (by decide))) (harmless_span s _)) (harmless_of_visible (by decide))

theorem harmless_lexError (s : Surroundings) (e : LexError) : ∀ c ∈ e.debug, Harmless s c := by
  cases e with
  | delimitedQuoteMissingSeparator i =>
    exact harmless_append (harmless_append (harmless_of_visible (by decide)) (harmless_span s _)) (harmless_of_visible (by decide))
  | delimitedQuoteUnclosed i d =>
    exact harmless_append (harmless_append (harmless_append (harmless_append (harmless_of_visible (by decide)) (harmless_span s _))
      (harmless_of_visible (by decide))) (harmless_span s _)) (harmless_of_visible (by decide))
  | pauseDelimitedQuoteEof i =>
    exact harmless_append (harmless_append (harmless_of_visible (by decide)) (harmless_span s _)) (harmless_of_visible (by decide))

theorem harmless_error (s : Surroundings) (e : CstError) : ∀ c ∈ e.debug s, Harmless s c := by
  cases e with
  | expectedGot es g =>
    refine harmless_append (harmless_append (harmless_append (harmless_append (harmless_of_visible (by decide)) ?_)
      (harmless_of_visible (by decide))) ?_) (harmless_of_visible (by decide))
    · apply harmless_list
      intro x hx
      obtain ⟨y, _, rfl⟩ := List.mem_map.mp hx
      exact harmless_of_visible (ident_visible y)
    · cases g with
      | none => exact harmless_of_visible (by decide)
      | some t =>
        exact harmless_append (harmless_append (harmless_of_visible (by decide)) (harmless_token s t)) (harmless_of_visible (by decide))
  | postConditionFailed =>
    exact harmless_append (harmless_append (harmless_of_visible (by decide)) (harmless_quoted s _)) (harmless_of_visible (by decide))
  | nom k =>
    refine harmless_append (harmless_append (harmless_of_visible (by decide)) ?_) (harmless_of_visible (by decide))
    cases k <;> exact harmless_of_visible (by decide)
  | empty n =>
    exact harmless_append (harmless_append (harmless_of_visible (by decide)) (harmless_quoted s _)) (harmless_of_visible (by decide))

theorem harmless_line (s : Surroundings) (l : Line) : ∀ c ∈ l.text s.plain, Harmless s c := by
  rw [line_text]
  refine harmless_append (harmless_append (harmless_append (harmless_append ?_ (harmless_of_visible (label_visible _)))
    (harmless_star s _)) ?_) harmless_newline
  · intro c hc
    rw [List.eq_of_mem_replicate hc]
    exact .inr (.inl (by decide))
  · cases l.place with
    | none =>
      intro c hc
      cases hc
    | some p =>
      exact harmless_append (harmless_append (harmless_append (harmless_of_visible (by decide)) (harmless_span s _))
        (harmless_of_visible (by decide))) (harmless_quoted s _)

theorem harmless_word (s : Surroundings) (w : List Char × Span) : ∀ c ∈ wordText s.plain w, Harmless s c :=
  harmless_append (harmless_append (harmless_quoted s _) (harmless_of_visible (by decide))) (harmless_span s _)

theorem harmless_tokenText (s : Surroundings) (t : Token × List Char) : ∀ c ∈ tokenText s.plain t, Harmless s c :=
  harmless_append (harmless_append (harmless_append (harmless_append (harmless_of_visible (repr_visible _)) (harmless_star s _))
    (harmless_of_visible (by decide))) (harmless_word s _)) (harmless_of_visible (by decide))

theorem harmless_output (s : Surroundings) (n : Nat) (o : Output) : ∀ c ∈ o.text s n, Harmless s c := by
  cases o with
  | decomposed ws =>
    refine harmless_append (harmless_append (harmless_of_visible (by decide)) ?_) harmless_newline
    apply harmless_list
    intro x hx
    obtain ⟨y, _, rfl⟩ := List.mem_map.mp hx
    exact harmless_word s y
  | lexingError e =>
    exact harmless_append (harmless_append (harmless_of_visible (by decide)) (harmless_lexError s e)) harmless_newline
  | lexed ts =>
    refine harmless_append (harmless_append (harmless_of_visible (by decide)) ?_) harmless_newline
    apply harmless_list
    intro x hx
    obtain ⟨y, _, rfl⟩ := List.mem_map.mp hx
    exact harmless_tokenText s y
  | tree ls =>
    refine harmless_append (harmless_append (harmless_append ?_ (harmless_of_visible (by decide))) (harmless_decimal s n)) harmless_newline
    intro c hc
    obtain ⟨l, _, hl⟩ := List.mem_flatMap.mp hc
    exact harmless_line s l c hl
  | notLexable t c =>
    exact harmless_append (harmless_append (harmless_append (harmless_append (harmless_append (harmless_append (harmless_append
      (harmless_of_visible (by decide)) (harmless_token s t)) (harmless_of_visible (by decide))) (harmless_quoted s c))
      (harmless_append (a := c!".") (harmless_of_visible (by decide)) harmless_newline)) (harmless_of_visible (by decide))) (harmless_decimal s n)) harmless_newline
  | parseError e =>
    refine harmless_append (harmless_append (harmless_append (harmless_append (harmless_append (harmless_of_visible (by decide)) ?_)
      harmless_newline) (harmless_of_visible (by decide))) (harmless_decimal s n)) harmless_newline
    refine harmless_append (harmless_append (harmless_append (harmless_append (harmless_of_visible (by decide)) ?_)
      (harmless_of_visible (by decide))) (harmless_error s _)) (harmless_of_visible (by decide))
    apply harmless_list
    intro x hx
    obtain ⟨y, _, rfl⟩ := List.mem_map.mp hx
    exact harmless_token s y

theorem handle_harmless (p : Profile) (args : Args) (s : Surroundings) (input : Str) (out : List Char)
    (h : handle p args s input = .val out) : ∀ c ∈ out, Harmless s c := by
  unfold handle at h
  cases hm : mainCallback p args (s.tokensAt input.chars) input with
  | panic => rw [hm] at h; cases h
  | diverge => rw [hm] at h; cases h
  | val outs =>
    rw [hm] at h
    cases h
    intro c hc
    obtain ⟨o, _, ho⟩ := List.mem_flatMap.mp hc
    exact harmless_output s _ o c ho

/-- Whatever the text contains, only newlines and printable characters are printed: no control character of ASCII, and of
the others only those `core` holds to be printable. -/
theorem C97_printable (p : Profile) (args : Args) (s : Surroundings) (terminal : Bool) (stdin : List Char) (out : Streams)
    (h : program p args s terminal stdin = .val out) (c : Char) (hc : c ∈ out.stdout ++ out.stderr) :
    c = '\n' ∨ (0x20 ≤ c.toNat ∧ c.toNat < 0x7f) ∨ (0x80 ≤ c.toNat ∧ s.plain c = true) := by
  revert c
  show ∀ c ∈ out.stdout ++ out.stderr, Harmless s c
  by_cases ha : Args.Asks args
  · rw [program_asks p args ha] at h
    unfold repl at h
    cases terminal with
    | false =>
      simp only [Bool.false_eq_true, if_false] at h
      cases hh : handle p args s (Str.trim ⟨s.bufferAt stdin, stdin⟩) with
      | panic => rw [hh] at h; cases h
      | diverge => rw [hh] at h; cases h
      | val o =>
        rw [hh] at h
        cases h
        exact harmless_append (handle_harmless p args s _ o hh) (fun c hc => by cases hc)
    | true =>
      simp only [if_true] at h
      revert h
      generalize stdin.length + 1 = fuel
      induction fuel generalizing stdin out with
      | zero => intro h; cases h
      | succ fuel ih =>
        intro h
        unfold replLoop at h
        dsimp only at h
        split at h
        · cases h
          exact harmless_of_visible (by decide)
        · cases hh : handle p args s (Str.trim ⟨s.bufferAt (readLine stdin).1, (readLine stdin).1⟩) with
          | panic => rw [hh] at h; cases h
          | diverge => rw [hh] at h; cases h
          | val o =>
            rw [hh, Exec.val_bind] at h
            cases hm : replLoop p args s fuel (readLine stdin).2 with
            | panic => rw [hm] at h; cases h
            | diverge => rw [hm] at h; cases h
            | val more =>
              rw [hm] at h
              cases h
              have := ih _ _ hm
              exact harmless_append (harmless_append (handle_harmless p args s _ o hh) (fun c hc => this c (by simp [hc])))
                (harmless_append (harmless_of_visible (by decide)) (fun c hc => this c (by simp [hc])))
  · rw [C96_no_switch p args ha] at h
    cases h
    exact harmless_append (fun c hc => by cases hc)
      (harmless_append (a := c!"At least one of `--decompose`, `--lex`, `--cst` is required.")
        (harmless_of_visible (by decide)) harmless_newline)

/-! ## Instances of the hypotheses -/

/-- Two texts for which the same is printed: they differ in the white space around them. -/
example : program .debug ⟨true, true, true, false⟩ plainSurroundings false c!"coi" =
    program .debug ⟨true, true, true, false⟩ plainSurroundings false c!" coi\n" := by decide +kernel
/-- And two different texts for which the same is printed: what comes after `fa'o` is not read. -/
example : program .debug ⟨false, true, true, true⟩ plainSurroundings false c!"coi fa'o zzz" =
    program .debug ⟨false, true, true, true⟩ plainSurroundings false c!"coi fa'o coi" := by decide +kernel
/-- A quoted text with a quotation mark, a newline, a backslash and a control character. -/
example : program .debug ⟨false, true, false, false⟩ plainSurroundings false c!"zoi gy a\"\n\\\x1b gy" =
    .val ⟨c!"Lexed: [ZOI(\"zoi\" @ 0..3), (zoi delimiter)(\"gy\" @ 4..6), (any text)(\"a\\\"\\n\\\\\\u{1b}\" @ 7..12), (zoi delimiter)(\"gy\" @ 13..15)]\n", []⟩ := by
  decide +kernel

end Sneturfahi.Props
