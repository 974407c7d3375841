import Verif.Spec.Outline
import Verif.Proof.CstTree

/-!
# Printing trees
-/

namespace Sneturfahi

open Spec

theorem sizes_append (a b : List Val) : Val.sizes (a ++ b) = Val.sizes a + Val.sizes b := by
  induction a with
  | nil => simp [Val.sizes]
  | cons v a ih => simp [Val.sizes, ih]; omega

theorem selves_size (v : Val) : Val.sizes v.selves ≤ v.size := by
  induction v using Val.rec (motive_2 := fun vs => Val.sizes (Val.allSelves vs) ≤ Val.sizes vs) with
  | leaf k t => simp [Val.selves, Val.sizes, Val.size]
  | node n fs ih =>
    unfold Val.selves
    split
    · simp only [Val.size]; omega
    · simp [Val.sizes, Val.size]
  | tuple fs ih => simp only [Val.selves, Val.size]; omega
  | many vs ih => simp only [Val.selves, Val.size]; omega
  | sep first rest ih ih' => simp [Val.selves, Val.sizes, Val.size]
  | nil => simp [Val.allSelves, Val.sizes]
  | cons v vs ih ih' => simp only [Val.allSelves, Val.sizes, sizes_append]; omega

theorem allSelves_size (vs : List Val) : Val.sizes (Val.allSelves vs) ≤ Val.sizes vs := by
  induction vs with
  | nil => simp [Val.allSelves, Val.sizes]
  | cons v vs ih =>
    have := selves_size v
    simp only [Val.allSelves, Val.sizes, sizes_append]; omega

theorem children_size (v : Val) : Val.sizes v.children < v.size := by
  cases v with
  | leaf k t => simp [Val.children, Val.sizes, Val.size]
  | node n fs => have := allSelves_size fs; simp only [Val.children, Val.size]; omega
  | tuple fs => have := allSelves_size fs; simp only [Val.children, Val.size]; omega
  | many fs => have := allSelves_size fs; simp only [Val.children, Val.size]; omega
  | sep first rest =>
    have := allSelves_size rest
    have := selves_size first
    simp only [Val.children, Val.size, sizes_append]; omega

theorem mem_size {v : Val} {vs : List Val} (h : v ∈ vs) : v.size ≤ Val.sizes vs := by
  induction vs with
  | nil => cases h
  | cons w vs ih =>
    simp only [Val.sizes]
    rcases List.mem_cons.mp h with rfl | h
    · omega
    · have := ih h; omega

/-- The range of a node and the text there can be had. -/
def Placed (input : Str) (v : Val) : Prop :=
  ∀ a b, v.startLocation = some a → v.endLocation = some b → a ≤ b ∧ ∃ t, (Span.mk a b).slice input = some t

theorem nodePlace_ok {input : Str} {v : Val} (h : Placed input v) :
    ∃ place, nodePlace input v = .val place ∧ Describes input ⟨0, v.label, v.experimental, place⟩ 0 v := by
  have h1 := firstStart_spec.1 v
  have h2 := lastEnd_spec v
  unfold nodePlace
  cases hs : v.startLocation with
  | none =>
    refine ⟨none, rfl, rfl, rfl, rfl, fun _ => rfl, ?_⟩
    intro first last hf _
    rw [hs, hf] at h1
    cases h1
  | some a =>
    cases he : v.endLocation with
    | none =>
      exfalso
      rw [hs] at h1
      rw [he] at h2
      cases ht : tokens v with
      | nil => rw [ht] at h1; cases h1
      | cons t ts => rw [ht] at h2; simp [List.getLast?_cons] at h2
    | some b =>
      obtain ⟨hab, t, ht⟩ := h a b hs he
      have hn : Span.new a b = .val ⟨a, b⟩ := by
        unfold Span.new
        simp [show ¬ b < a by omega]
      have hu : (Span.mk a b).sliceUnwrap input = .val t := by
        unfold Span.sliceUnwrap
        rw [ht]
      refine ⟨some (⟨a, b⟩, t.chars), ?_, rfl, rfl, rfl, ?_, ?_⟩
      · simp only [hn, hu, Exec.val_bind]
        rfl
      · intro h0
        rw [hs, h0] at h1
        cases h1
      · intro first last hf hl
        rw [hs, hf] at h1
        rw [he, hl] at h2
        cases h1
        cases h2
        exact ⟨t, ht, rfl⟩

theorem describeAll_append {input : Str} {la lb : List Line} {na nb : List (Nat × Val)} (ha : DescribeAll input la na)
    (hb : DescribeAll input lb nb) : DescribeAll input (la ++ lb) (na ++ nb) := by
  induction la generalizing na with
  | nil =>
    cases na with
    | nil => exact hb
    | cons => cases ha
  | cons l la ih =>
    cases na with
    | nil => cases ha
    | cons n na =>
      obtain ⟨level, v⟩ := n
      exact ⟨ha.1, ih ha.2⟩

theorem printEach_ok {input : Str} {collapse : Bool} {level : Nat} {f : Val → Exec (List Line)} :
    ∀ vs : List Val, (∀ v ∈ vs, ∃ lines nodes, f v = .val lines ∧ Outline collapse level v nodes ∧ DescribeAll input lines nodes) →
    ∃ lines nodes, printEach f vs = .val lines ∧ Outlines collapse level vs nodes ∧ DescribeAll input lines nodes := by
  intro vs
  induction vs with
  | nil => exact fun _ => ⟨[], [], rfl, .nil, trivial⟩
  | cons v vs ih =>
    intro h
    obtain ⟨la, na, h1, h2, h3⟩ := h v (by simp)
    obtain ⟨lb, nb, h4, h5, h6⟩ := ih (fun w hw => h w (by simp [hw]))
    refine ⟨la ++ lb, na ++ nb, ?_, .cons h2 h5, describeAll_append h3 h6⟩
    unfold printEach
    rw [h1, Exec.val_bind, h4, Exec.val_bind]
    rfl

theorem collapseNode_ok (fuel : Nat) : ∀ v : Val, v.size ≤ fuel →
    ∃ w, collapseNode fuel v = .val w ∧ PartOf w v ∧ w.size ≤ v.size ∧ w.children.length ≠ 1 ∧
      ∀ level nodes, Outline true level w nodes → Outline true level v nodes := by
  induction fuel with
  | zero =>
    intro v h
    have := children_size v
    omega
  | succ fuel ih =>
    intro v h
    unfold collapseNode
    split
    · rename_i child hc
      have h1 := children_size v
      have h2 := mem_size (v := child) (vs := v.children) (by rw [hc]; simp)
      obtain ⟨w, h3, h4, h5, h6, h7⟩ := ih child (by omega)
      refine ⟨w, h3, PartOf.trans h4 (children_part (by rw [hc]; simp)), by omega, h6, fun level nodes ho => ?_⟩
      exact .skip rfl hc (h7 level nodes ho)
    · rename_i hc
      refine ⟨v, rfl, .self, Nat.le_refl _, ?_, fun _ _ ho => ho⟩
      intro h1
      obtain ⟨c, h1⟩ := List.length_eq_one_iff.mp h1
      exact hc c h1

theorem printNode_ok {input : Str} {collapse : Bool} (fuel : Nat) : ∀ (v : Val) (level : Nat), v.size < fuel →
    (∀ w, PartOf w v → Placed input w) →
    ∃ lines nodes, printNode input collapse fuel v level = .val lines ∧ Outline collapse level v nodes ∧ DescribeAll input lines nodes := by
  induction fuel with
  | zero => intro v level h; omega
  | succ fuel ih =>
    intro v level hv hp
    have main : ∀ w, PartOf w v → w.size ≤ v.size → ∃ place rest nodes,
        nodePlace input w = .val place ∧
        printEach (fun child => printNode input collapse fuel child (level + 2)) w.children = .val rest ∧
        Outlines collapse (level + 2) w.children nodes ∧
        DescribeAll input (⟨level, w.label, w.experimental, place⟩ :: rest) ((level, w) :: nodes) := by
      intro w hw hs
      obtain ⟨place, h1, h2⟩ := nodePlace_ok (hp w hw)
      obtain ⟨rest, nodes, h3, h4, h5⟩ := printEach_ok (input := input) (collapse := collapse) (level := level + 2)
        (f := fun child => printNode input collapse fuel child (level + 2)) w.children (by
          intro c hc
          have := children_size w
          have := mem_size hc
          exact ih c (level + 2) (by omega) (fun x hx => hp x (PartOf.trans (PartOf.trans hx (children_part hc)) hw)))
      refine ⟨place, rest, nodes, h1, h3, h4, ⟨?_, h5⟩⟩
      obtain ⟨_, _, _, h6, h7⟩ := h2
      exact ⟨rfl, rfl, rfl, h6, h7⟩
    unfold printNode
    cases collapse with
    | false =>
      obtain ⟨place, rest, nodes, h1, h2, h3, h4⟩ := main v .self (Nat.le_refl _)
      refine ⟨_, _, ?_, .node nofun h3, h4⟩
      simp only [Bool.false_eq_true, if_false]
      show (nodePlace input v >>= _) = _
      rw [h1, Exec.val_bind, h2, Exec.val_bind]
      rfl
    | true =>
      obtain ⟨w, c1, c2, c3, c4, c5⟩ := collapseNode_ok (fuel + 1) v (by omega)
      obtain ⟨place, rest, nodes, h1, h2, h3, h4⟩ := main w c2 c3
      refine ⟨_, _, ?_, c5 _ _ (.node (fun _ => c4) h3), h4⟩
      simp only [if_true]
      rw [c1, Exec.val_bind, h1, Exec.val_bind, h2, Exec.val_bind]
      rfl

theorem printTree_ok {input : Str} (collapse : Bool) (root : Val) (hp : ∀ w, PartOf w root → Placed input w) :
    ∃ lines nodes, printTree input collapse root = .val lines ∧ Outline collapse 0 root nodes ∧ DescribeAll input lines nodes :=
  printNode_ok _ root 0 (by omega) hp

/-! ### Facts about outlines -/

theorem leaves_append (a b : List (Nat × Val)) : leaves (a ++ b) = leaves a ++ leaves b := by
  induction a with
  | nil => rfl
  | cons n a ih =>
    obtain ⟨level, v⟩ := n
    cases v <;> simp [leaves, ih]

theorem outline_leaves {collapse : Bool} {level : Nat} {v : Val} {nodes : List (Nat × Val)} (h : Outline collapse level v nodes) :
    leaves nodes = tokens v := by
  induction h using Outline.rec (motive_2 := fun _ vs nodes _ => leaves nodes = tokensL vs) with
  | skip _ hc _ ih =>
    rename_i v _ _ _ _
    rw [ih, ← children_tokens (v := v), hc]
    · simp [tokensL]
    · rintro k t rfl
      simp [Val.children] at hc
  | node _ _ ih =>
    rename_i v nodes _ _
    cases v with
    | leaf k t =>
      simp only [leaves, tokens]
      rw [ih]
      simp [Val.children, tokensL]
    | _ =>
      simp only [leaves]
      rw [ih, children_tokens]
      simp
  | nil => simp [leaves, tokensL]
  | cons _ _ ih ih' => simp [leaves_append, tokensL, ih, ih']

theorem outline_parts {collapse : Bool} {level : Nat} {v : Val} {nodes : List (Nat × Val)} (h : Outline collapse level v nodes) :
    ∀ n ∈ nodes, PartOf n.2 v := by
  induction h using Outline.rec (motive_2 := fun _ vs nodes _ => ∀ n ∈ nodes, ∃ c ∈ vs, PartOf n.2 c) with
  | skip _ hc _ ih =>
    intro n hn
    exact PartOf.trans (ih n hn) (children_part (by rw [hc]; simp))
  | node _ _ ih =>
    intro n hn
    rcases List.mem_cons.mp hn with rfl | hn
    · exact .self
    · obtain ⟨c, h1, h2⟩ := ih n hn
      exact PartOf.trans h2 (children_part h1)
  | nil => rename_i n hn; cases hn
  | cons _ _ ih ih' =>
    rename_i n hn
    rcases List.mem_append.mp hn with hn | hn
    · exact ⟨_, by simp, ih n hn⟩
    · obtain ⟨c, h1, h2⟩ := ih' n hn
      exact ⟨c, by simp [h1], h2⟩

/-- There is only one outline. -/
theorem outline_det {collapse : Bool} {level : Nat} {v : Val} {a b : List (Nat × Val)} (ha : Outline collapse level v a)
    (hb : Outline collapse level v b) : a = b := by
  induction ha using Outline.rec (motive_2 := fun level vs a _ => ∀ b, Outlines collapse level vs b → a = b) generalizing b with
  | skip hc he _ ih =>
    cases hb with
    | skip _ he' hb => rw [he] at he'; cases he'; exact ih hb
    | node hn _ => exact absurd (by rw [he]; rfl) (hn hc)
  | node hn _ ih =>
    cases hb with
    | skip hc he' hb => exact absurd (by rw [he']; rfl) (hn hc)
    | node _ hb => rw [ih _ hb]
  | nil => rename_i b hb; cases hb; rfl
  | cons _ _ ih ih' =>
    rename_i b hb
    cases hb with
    | cons h1 h2 => rw [ih h1, ih' _ h2]

/-- A collapsed outline is the full one without the nodes that have exactly one child. -/
theorem outline_collapse {level level' : Nat} {v : Val} {full collapsed : List (Nat × Val)} (hf : Outline false level v full)
    (hc : Outline true level' v collapsed) :
    collapsed.map Prod.snd = (full.map Prod.snd).filter (fun w => w.children.length != 1) := by
  induction hf using Outline.rec (motive_2 := fun _ vs full _ => ∀ level' collapsed, Outlines true level' vs collapsed →
      collapsed.map Prod.snd = (full.map Prod.snd).filter (fun w => w.children.length != 1)) generalizing level' collapsed with
  | skip h => cases h
  | node _ _ ih =>
    cases hc with
    | skip _ he hc =>
      rename_i v nodes _ _ child
      simp only [List.map_cons]
      rw [List.filter_cons_of_neg (by simp [he])]
      refine ih level' collapsed ?_
      rw [he]
      have := Outlines.cons hc .nil
      simpa using this
    | node hn hc =>
      simp only [List.map_cons]
      rw [List.filter_cons_of_pos (by simpa using hn rfl), ih _ _ hc]
  | nil => rename_i level' collapsed hc; cases hc; rfl
  | cons _ _ ih ih' =>
    rename_i level' collapsed hc
    cases hc with
    | cons h1 h2 => simp [ih h1, ih' _ _ h2]

/-! ### Collecting tokens -/

theorem collectTokens_eq (p : Profile) (fuel : Nat) : ∀ (l : Lexer) (items : List LexItem), collectItems p fuel l = .val items →
    collectTokens p fuel l = .val (items.mapM id) := by
  induction fuel with
  | zero => intro l items h; cases h
  | succ fuel ih =>
    intro l items h
    unfold collectItems at h
    unfold collectTokens
    cases hn : l.next p with
    | panic => rw [hn] at h; cases h
    | diverge => rw [hn] at h; cases h
    | val r =>
      obtain ⟨it, l'⟩ := r
      rw [hn, Exec.val_bind] at h
      rw [Exec.val_bind]
      cases it with
      | none => cases h; rfl
      | some it =>
        simp only at h
        cases hr : collectItems p fuel l' with
        | panic => rw [hr] at h; cases h
        | diverge => rw [hr] at h; cases h
        | val its =>
          rw [hr, Exec.val_bind] at h
          cases h
          cases it with
          | error e => rfl
          | ok t =>
            simp only
            rw [ih l' its hr, Exec.val_bind]
            rw [List.mapM_cons]
            cases its.mapM id <;> rfl

end Sneturfahi
