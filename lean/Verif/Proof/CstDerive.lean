import Verif.Proof.CstFuel

/-!
# Values conform to the type definitions
-/

namespace Sneturfahi

open Spec

/-- `p` yields only values that conform to `e`. -/
def Conforms (g : CRule → Gr) (e : Gr) (p : CParser) : Prop :=
  ∀ s, (p s).All (fun res => ∀ r vs, res = .ok r vs → Formed g e vs ∧ Cut s (tokensL vs) r)

theorem manyLoop_conforms {g : CRule → Gr} {a : Gr} {p : CParser} (hp : Conforms g a p) (k : NomKind) :
    ∀ (fuel : Nat) (s : Toks) (items : List (List Val)) (s0 : Toks), (∀ vs ∈ items, Formed g a vs) →
      Cut s0 (tokensL items.flatten) s →
      (manyLoop p k fuel s items.flatten).All (fun res => ∀ r vs, res = .ok r vs →
        ∃ more, vs = [.many (items ++ more).flatten] ∧ (∀ vs ∈ items ++ more, Formed g a vs) ∧ Cut s0 (tokensL vs) r) := by
  intro fuel
  induction fuel with
  | zero => intros; trivial
  | succ fuel ih =>
    intro s items s0 hi hc
    unfold manyLoop
    refine (hp s).bind ?_
    intro res hres
    cases res with
    | error e =>
      intro r vs h
      cases h
      exact ⟨[], by simp, by simpa using hi, by simpa [tokensL, tokens] using hc⟩
    | failure e => intro r vs h; cases h
    | ok rest vs =>
      obtain ⟨hd, hcut⟩ := hres rest vs rfl
      simp only
      split
      · intro r vs h; cases h
      · have := ih rest (items ++ [vs]) s0 (by
          intro ws hws
          rcases List.mem_append.mp hws with h | h
          · exact hi ws h
          · rw [List.mem_singleton.mp h]; exact hd) (by
          simp only [List.flatten_append, List.flatten_cons, List.flatten_nil, List.append_nil, tokensL_append]
          exact hc.trans hcut)
        simp only [List.flatten_append, List.flatten_cons, List.flatten_nil, List.append_nil] at this
        refine this.mono ?_
        intro res h r ws he
        obtain ⟨more, h1, h2, h3⟩ := h r ws he
        refine ⟨vs :: more, ?_, ?_, h3⟩
        · rw [h1]; simp
        · intro us hus; exact h2 us (by simp at hus ⊢; rcases hus with h | h | h <;> simp [h])

theorem tillLoop_conforms {g : CRule → Gr} {a b : Gr} {p q : CParser} (hp : Conforms g a p) (hq : Conforms g b q) :
    ∀ (fuel : Nat) (s : Toks) (items : List (List Val)) (s0 : Toks), (∀ vs ∈ items, Formed g a vs) →
      Cut s0 (tokensL items.flatten) s →
      (tillLoop p q fuel s items.flatten).All (fun res => ∀ r vs, res = .ok r vs →
        Formed g (.manyTill a b) vs ∧ Cut s0 (tokensL vs) r) := by
  intro fuel
  induction fuel with
  | zero => intros; trivial
  | succ fuel ih =>
    intro s items s0 hi hc
    unfold tillLoop
    refine (hq s).bind ?_
    intro res hres
    cases res with
    | ok rest ws =>
      intro r vs h
      cases h
      obtain ⟨hd, hcut⟩ := hres rest ws rfl
      exact ⟨.manyTill hi hd, by simpa [tokensL, tokens] using hc.trans hcut⟩
    | failure e => intro r vs h; cases h
    | error e =>
      refine (hp s).bind ?_
      intro res hres
      cases res with
      | error e => intro r vs h; cases h
      | failure e => intro r vs h; cases h
      | ok rest vs =>
        obtain ⟨hd, hcut⟩ := hres rest vs rfl
        simp only
        split
        · intro r vs h; cases h
        · have := ih rest (items ++ [vs]) s0 (by
            intro ws hws
            rcases List.mem_append.mp hws with h | h
            · exact hi ws h
            · rw [List.mem_singleton.mp h]; exact hd) (by
            simp only [List.flatten_append, List.flatten_cons, List.flatten_nil, List.append_nil, tokensL_append]
            exact hc.trans hcut)
          simpa only [List.flatten_append, List.flatten_cons, List.flatten_nil, List.append_nil] using this

theorem conforms_inv (g : CRule → Gr) : Inv (Conforms g) where
  eps := fun s r vs h => by cases h; exact ⟨.eps, Cut.refl s⟩
  raw := fun sel s => by
    unfold rawC
    split
    · intro r vs h; cases h
    · rename_i t ts hl
      split
      · rename_i ht
        intro r vs h; cases h
        exact ⟨.raw ht, by simpa [tokensL, tokens] using Cut.one hl⟩
      · intro r vs h; cases h
  any := fun k s => by
    unfold anyC
    split
    · intro r vs h; cases h
    · rename_i t ts hl
      intro r vs h; cases h
      exact ⟨.any, by simpa [tokensL, tokens] using Cut.one hl⟩
  seq := fun {a b p q} hp hq s => by
    refine (hp s).bind ?_
    intro res hres
    cases res with
    | ok rest vs =>
      obtain ⟨h1, h2⟩ := hres rest vs rfl
      refine (hq rest).bind ?_
      intro res' hres'
      cases res' with
      | ok rest' ws =>
        obtain ⟨h3, h4⟩ := hres' rest' ws rfl
        intro r us h; cases h
        exact ⟨.seq h1 h3, by rw [tokensL_append]; exact h2.trans h4⟩
      | error e => intro r vs h; cases h
      | failure e => intro r vs h; cases h
    | error e => intro r vs h; cases h
    | failure e => intro r vs h; cases h
  alt := fun {a b p q} hp hq s => by
    refine (hp s).bind ?_
    intro res hres
    cases res with
    | ok rest vs =>
      intro r us h; cases h
      obtain ⟨h1, h2⟩ := hres rest vs rfl
      exact ⟨.altLeft h1, h2⟩
    | failure e => intro r vs h; cases h
    | error e =>
      refine (hq s).bind ?_
      intro res' hres'
      cases res' with
      | error e' => intro r vs h; cases h
      | ok rest' ws =>
        intro r us h; cases h
        obtain ⟨h1, h2⟩ := hres' rest' ws rfl
        exact ⟨.altRight h1, h2⟩
      | failure e' => intro r vs h; cases h
  opt := fun {a p} hp s => by
    refine (hp s).bind ?_
    intro res hres
    cases res with
    | ok rest vs =>
      intro r us h; cases h
      obtain ⟨h1, h2⟩ := hres rest vs rfl
      exact ⟨.present h1, by simpa [tokensL, tokens] using h2⟩
    | failure e => intro r vs h; cases h
    | error e =>
      intro r us h; cases h
      exact ⟨.absent, by simpa [tokensL, tokens] using Cut.refl s⟩
  many0 := fun {a p} hp s => by
    have := manyLoop_conforms hp .many0 (s.list.length + 1) s [] s (by simp) (by simpa [tokensL] using Cut.refl s)
    refine this.mono ?_
    intro res h r vs he
    obtain ⟨more, h1, h2, h3⟩ := h r vs he
    refine ⟨?_, h3⟩
    rw [h1]
    exact .many0 h2
  many1 := fun {a p} hp s => by
    refine (hp s).bind ?_
    intro res hres
    cases res with
    | ok rest vs =>
      obtain ⟨h1, h2⟩ := hres rest vs rfl
      have := manyLoop_conforms hp .many1 (rest.list.length + 1) rest [vs] s (by simpa using h1) (by simpa using h2)
      simp only [List.flatten_cons, List.flatten_nil, List.append_nil] at this
      refine this.mono ?_
      intro res h r vs' he
      obtain ⟨more, h4, h5, h6⟩ := h r vs' he
      refine ⟨?_, h6⟩
      rw [h4]
      exact .many1 (by simp) h5
    | failure e => intro r vs h; cases h
    | error e => intro r vs h; cases h
  manyTill := fun {a b p q} hp hq s =>
    tillLoop_conforms hp hq (s.list.length + 1) s [] s (by simp) (by simpa [tokensL] using Cut.refl s)
  not := fun {a p} hp s => by
    refine (hp s).bind ?_
    intro res hres
    cases res with
    | ok rest vs => intro r vs h; cases h
    | failure e => intro r vs h; cases h
    | error e => intro r vs h; cases h; exact ⟨.not, Cut.refl s⟩
  cut := fun {a p} hp s => by
    refine (hp s).bind ?_
    intro res hres
    cases res with
    | ok rest vs =>
      intro r us h; cases h
      obtain ⟨h1, h2⟩ := hres rest vs rfl
      exact ⟨.cut h1, h2⟩
    | failure e => intro r vs h; cases h
    | error e => intro r vs h; cases h
  mustConsume := fun n {a p} hp s => by
    refine (hp s).bind ?_
    intro res hres
    cases res with
    | ok rest vs =>
      obtain ⟨h1, h2⟩ := hres rest vs rfl
      simp only
      split
      · intro r vs h; cases h
      · rename_i hne
        intro r us h; cases h
        refine ⟨.mustConsume h1 ?_, h2⟩
        intro he
        have := h2.length
        rw [he] at this
        simp at this
        omega
    | failure e => intro r vs h; cases h
    | error e => intro r vs h; cases h
  postCond := fun c {a p} hp s => by
    refine (hp s).bind ?_
    intro res hres
    cases res with
    | ok rest vs =>
      obtain ⟨h1, h2⟩ := hres rest vs rfl
      simp only
      split
      · rename_i hh
        intro r us h; cases h
        exact ⟨.postCond h1 hh, h2⟩
      · intro r vs h; cases h
    | failure e => intro r vs h; cases h
    | error e => intro r vs h; cases h
  wrap := fun sh {a p} hp s => by
    refine (hp s).bind ?_
    intro res hres
    cases res with
    | ok rest vs =>
      obtain ⟨h1, h2⟩ := hres rest vs rfl
      intro r us h; cases h
      exact ⟨.wrap h1, by simpa [tokensL, tokens_build] using h2⟩
    | failure e => intro r vs h; cases h
    | error e => intro r vs h; cases h

theorem evalCst_conforms (g : CRule → Gr) (fuel : Nat) (r : CRule) : Conforms g (.call r) (evalCst g fuel r) := by
  refine (conforms_inv g).evalCst (g := g) (fun _ _ => trivial) ?_ fuel r
  intro r p hp s
  refine (hp s).mono ?_
  intro res h r' vs he
  exact ⟨.call (h r' vs he).1, (h r' vs he).2⟩

theorem runCst_conforms (r : CRule) : Conforms cst (.call r) (runCst r) := by
  intro s
  rw [runCst_def]
  exact evalCst_conforms cst (cstFuel s) r s

/-! ### The number of values -/

/-- How many values a construct yields, `none` if that depends. -/
def widthG : Gr → Option Nat
  | .eps => some 0
  | .raw _ => some 1
  | .any _ => some 1
  | .call _ => some 1
  | .seq a b => match widthG a, widthG b with
    | some m, some n => some (m + n)
    | _, _ => none
  | .alt a b => match widthG a, widthG b with
    | some m, some n => if m = n then some m else none
    | _, _ => none
  | .opt _ => some 1
  | .many0 _ => some 1
  | .many1 _ => some 1
  | .manyTill _ b => match widthG b with
    | some n => some (n + 1)
    | none => none
  | .not _ => some 0
  | .cut a => widthG a
  | .mustConsume _ a => widthG a
  | .postCond _ a => widthG a
  | .wrap _ _ => some 1

theorem derives_width {g : CRule → Gr} (hg : ∀ r, widthG (g r) = some 1) {e : Gr} {vs : List Val} (h : Formed g e vs) :
    ∀ n, widthG e = some n → vs.length = n := by
  induction h with
  | eps => intro n h; simp [widthG] at h; simp [h]
  | raw _ => intro n h; simp [widthG] at h; simp [h]
  | any => intro n h; simp [widthG] at h; simp [h]
  | call _ ih => intro n h; simp [widthG] at h; rw [← h]; exact ih 1 (hg _)
  | seq _ _ iha ihb =>
    intro n h
    simp only [widthG] at h
    split at h
    · rename_i m n ha hb
      cases h
      simp [iha m ha, ihb n hb]
    · cases h
  | altLeft _ ih =>
    intro n h
    simp only [widthG] at h
    split at h
    · rename_i m k ha hb
      split at h
      · cases h; exact ih _ ha
      · cases h
    · cases h
  | altRight _ ih =>
    intro n h
    simp only [widthG] at h
    split at h
    · rename_i m n ha hb
      split at h
      · rename_i he; cases h; rw [he]; exact ih n hb
      · cases h
    · cases h
  | absent => intro n h; simp [widthG] at h; simp [h]
  | present _ _ => intro n h; simp [widthG] at h; simp [h]
  | many0 _ _ => intro n h; simp [widthG] at h; simp [h]
  | many1 _ _ _ => intro n h; simp [widthG] at h; simp [h]
  | manyTill _ _ _ ih =>
    intro n h
    simp only [widthG] at h
    split at h
    · rename_i m hb
      cases h
      simp [ih m hb]
    · cases h
  | not => intro n h; simp [widthG] at h; simp [h]
  | cut _ ih => exact ih
  | mustConsume _ _ ih => exact ih
  | postCond _ _ ih => exact ih
  | wrap _ _ => intro n h; simp [widthG] at h; simp [h]

theorem cst_width (r : CRule) : widthG (cst r) = some 1 := by
  cases r with
  | word s => cases s <;> decide +kernel
  | _ => decide +kernel

/-- Every production yields one value. -/
theorem derives_one {r : CRule} {vs : List Val} (h : Formed cst (.call r) vs) : ∃ v, vs = [v] := by
  have := derives_width cst_width h 1 rfl
  match vs, this with
  | [v], _ => exact ⟨v, rfl⟩

end Sneturfahi
