import Verif.Proof.CstDerive

/-!
# Only the selmaho of tokens matter

Replacing every token by one of the same selmaho, and moving the slice to another address, changes the outcome
accordingly and in no other way.
-/

namespace Sneturfahi

open Spec

/-- Replace the tokens of a slice and move it. -/
def Toks.move (f : Token → Token) (d : Nat) (s : Toks) : Toks := ⟨s.ptr + d, s.list.map f⟩

/-- The same for the token an error found. -/
def CstError.move (f : Token → Token) : CstError → CstError
  | .expectedGot ex got => .expectedGot ex (got.map f)
  | e => e

/-- The same for an error. -/
def Located.move (f : Token → Token) (d : Nat) (e : Located) : Located := ⟨e.location.move f d, e.error.move f⟩

/-- The same for an outcome. -/
def CRes.move (f : Token → Token) (d : Nat) : CRes → CRes
  | .ok r vs => .ok (r.move f d) (relabelL f vs)
  | .error e => .error (e.move f d)
  | .failure e => .failure (e.move f d)

theorem relabelL_append (f : Token → Token) (a b : List Val) : relabelL f (a ++ b) = relabelL f a ++ relabelL f b := by
  induction a with
  | nil => simp [relabelL]
  | cons v a ih => simp [relabelL, ih]

theorem relabelL_length (f : Token → Token) (a : List Val) : (relabelL f a).length = a.length := by
  induction a with
  | nil => simp [relabelL]
  | cons v a ih => simp [relabelL, ih]

theorem relabel_build (f : Token → Token) (sh : CShape) (vs : List Val) :
    relabel f (sh.build vs) = sh.build (relabelL f vs) := by
  match sh, vs with
  | .node n, vs => simp [CShape.build, relabel]
  | .tuple, vs => simp [CShape.build, relabel]
  | .sep, [] => simp [CShape.build, relabel, relabelL]
  | .sep, [v] => simp [CShape.build, relabel, relabelL]
  | .sep, [v, .many ws] => simp [CShape.build, relabel, relabelL]
  | .sep, [v, .leaf k t] => simp [CShape.build, relabel, relabelL]
  | .sep, [v, .node n fs] => simp [CShape.build, relabel, relabelL]
  | .sep, [v, .tuple fs] => simp [CShape.build, relabel, relabelL]
  | .sep, [v, .sep a b] => simp [CShape.build, relabel, relabelL]
  | .sep, a :: b :: c :: vs => simp [CShape.build, relabel, relabelL]

theorem relabel_present (f : Token → Token) (v : Val) : (relabel f v).present = v.present := by
  cases v with
  | many vs => cases vs <;> simp [relabel, relabelL, Val.present]
  | _ => simp [relabel, Val.present]

theorem relabelL_any_present (f : Token → Token) (vs : List Val) : (relabelL f vs).any Val.present = vs.any Val.present := by
  induction vs with
  | nil => simp [relabelL]
  | cons v vs ih => simp [relabelL, ih, relabel_present]

/-- Keeps the selmaho. -/
def Keeps (f : Token → Token) : Prop := ∀ t, (f t).selmaho = t.selmaho

theorem holds_relabel {f : Token → Token} (hf : Keeps f) (c : PostCond) (vs : List Val) :
    c.holds (relabelL f vs) = c.holds vs := by
  match c, vs with
  | c, [] => cases c <;> simp [relabelL, PostCond.holds]
  | c, a :: b :: vs => cases c <;> simp [relabelL, PostCond.holds]
  | c, [.leaf k t] => cases c <;> simp [relabelL, relabel, PostCond.holds]
  | c, [.tuple fs] => cases c <;> simp [relabelL, relabel, PostCond.holds]
  | c, [.many fs] => cases c <;> simp [relabelL, relabel, PostCond.holds]
  | c, [.sep a b] => cases c <;> simp [relabelL, relabel, PostCond.holds]
  | .anyFieldPresent, [.node n fs] => simp [relabelL, relabel, PostCond.holds, relabelL_any_present]
  | .selmahoNotIn l, [.node n []] => simp [relabelL, relabel, PostCond.holds]
  | .selmahoNotIn l, [.node n (a :: b :: fs)] => simp [relabelL, relabel, PostCond.holds]
  | .selmahoNotIn l, [.node n [.leaf k t]] => simp [relabelL, relabel, PostCond.holds, hf t]
  | .selmahoNotIn l, [.node n [.node m fs]] => simp [relabelL, relabel, PostCond.holds]
  | .selmahoNotIn l, [.node n [.tuple fs]] => simp [relabelL, relabel, PostCond.holds]
  | .selmahoNotIn l, [.node n [.many fs]] => simp [relabelL, relabel, PostCond.holds]
  | .selmahoNotIn l, [.node n [.sep a b]] => simp [relabelL, relabel, PostCond.holds]

theorem move_length (f : Token → Token) (d : Nat) (s : Toks) : (s.move f d).list.length = s.list.length := by
  simp [Toks.move]

/-- What two errors at the same place found is the same if it is both times a token or both times the end. -/
theorem got_eq {w rest rest' ex ex'} {g g' : Option Token} (h : GotOK w rest (.expectedGot ex g))
    (h' : GotOK w rest' (.expectedGot ex' g')) (hs : g.isSome = g'.isSome) : g = g' := by
  cases g <;> cases g' <;> simp at hs
  · rfl
  · rename_i t t'
    obtain ⟨_, ⟨u, hu⟩, _⟩ := h
    obtain ⟨_, ⟨u', hu'⟩, _⟩ := h'
    rw [hu] at hu'
    have := List.append_inj' hu' rfl
    simp at this
    rw [this.2]

theorem or_lt {e e' : Located} (h : e.location.ptr < e'.location.ptr) : e.or e' = e' := by
  unfold Located.or
  rw [if_pos (by omega), if_pos (by omega)]

theorem or_gt {e e' : Located} (h : e'.location.ptr < e.location.ptr) : e.or e' = e := by
  unfold Located.or
  rw [if_pos (by omega), if_neg (by omega)]

/-- What `or` makes of two errors at the same address. -/
def joinErr (l : Toks) (e e' : CstError) (other : Located) : Located :=
  match e, e' with
  | .expectedGot e g, .expectedGot e' g' => if g = g' then ⟨l, .expectedGot (e ++ e') g⟩ else other
  | _, _ => other

theorem or_same {e e' : Located} (h : e.location.ptr = e'.location.ptr) :
    e.or e' = joinErr e.location e.error e'.error e' := by
  unfold Located.or
  rw [if_neg (by omega)]
  rfl

theorem or_move (f : Token → Token) (d : Nat) {s : Toks} {e e' : Located} (h : ErrOK s e) (h' : ErrOK s e') :
    (e.move f d).or (e'.move f d) = (e.or e').move f d := by
  have hp : ∀ e : Located, (e.move f d).location.ptr = e.location.ptr + d := fun _ => rfl
  rcases Nat.lt_trichotomy e.location.ptr e'.location.ptr with hlt | heq | hgt
  · rw [or_lt hlt, or_lt (by rw [hp, hp]; omega)]
  · rw [or_same heq, or_same (by rw [hp, hp]; omega)]
    obtain ⟨w, h1, h2⟩ := h
    obtain ⟨w', h3, h4⟩ := h'
    obtain ⟨rfl, hl⟩ := h1.same h3 heq
    obtain ⟨l, err⟩ := e
    obtain ⟨l', err'⟩ := e'
    simp only [Located.move]
    cases err with
    | expectedGot ex g =>
      cases err' with
      | expectedGot ex' g' =>
        simp only [joinErr, CstError.move]
        by_cases hg : g = g'
        · subst hg; simp
        · rw [if_neg hg, if_neg]
          intro hm
          exact hg (got_eq h2 h4 (by simpa using congrArg Option.isSome hm))
      | _ => rfl
    | _ => cases err' <;> rfl
  · rw [or_gt hgt, or_gt (by rw [hp, hp]; omega)]

/-- `q` is `p` on moved input. -/
def Moves (f : Token → Token) (d : Nat) (p q : CParser) : Prop :=
  Sound p ∧ ∀ s, q (s.move f d) = (p s).map (CRes.move f d)

theorem Exec.map_bind' {α β γ : Type} (g : β → γ) (x : Exec α) (f : α → Exec β) :
    (x >>= f).map g = x >>= (fun a => (f a).map g) := by cases x <;> rfl

theorem Exec.bind_map' {α β γ : Type} (g : α → β) (x : Exec α) (f : β → Exec γ) :
    (x.map g >>= f) = x >>= (fun a => f (g a)) := by cases x <;> rfl

theorem Exec.bind_congr_all {α β : Type} {P : α → Prop} {x : Exec α} (h : x.All P) {f g : α → Exec β}
    (hfg : ∀ a, P a → f a = g a) : (x >>= f) = (x >>= g) := by
  cases x with
  | val a => exact hfg a h
  | panic => rfl
  | diverge => rfl

theorem manyLoop_moves {f : Token → Token} {d : Nat} {p q : CParser} (h : Moves f d p q) (k : NomKind) :
    ∀ (fuel : Nat) (s : Toks) (acc : List Val),
      manyLoop q k fuel (s.move f d) (relabelL f acc) = (manyLoop p k fuel s acc).map (CRes.move f d) := by
  intro fuel
  induction fuel with
  | zero => intros; rfl
  | succ fuel ih =>
    intro s acc
    unfold manyLoop
    rw [h.2 s, Exec.bind_map', Exec.map_bind']
    congr 1
    funext res
    cases res with
    | error e => simp [CRes.move, Exec.map, relabelL, relabel]
    | failure e => simp [CRes.move, Exec.map]
    | ok rest vs =>
      simp only [CRes.move, move_length]
      split
      · simp [CRes.move, Exec.map, Located.ofKind, Located.move, CstError.move]
      · rw [← relabelL_append, ih]

theorem tillLoop_moves {f : Token → Token} {d : Nat} {p q p' q' : CParser} (h : Moves f d p p') (h' : Moves f d q q') :
    ∀ (fuel : Nat) (s : Toks) (acc : List Val),
      tillLoop p' q' fuel (s.move f d) (relabelL f acc) = (tillLoop p q fuel s acc).map (CRes.move f d) := by
  intro fuel
  induction fuel with
  | zero => intros; rfl
  | succ fuel ih =>
    intro s acc
    unfold tillLoop
    rw [h'.2 s, Exec.bind_map', Exec.map_bind']
    congr 1
    funext res
    cases res with
    | ok rest vs => simp [CRes.move, Exec.map, relabelL, relabel]
    | failure e => simp [CRes.move, Exec.map]
    | error e =>
      simp only [CRes.move]
      rw [h.2 s, Exec.bind_map', Exec.map_bind']
      congr 1
      funext res
      cases res with
      | error e => simp [CRes.move, Exec.map]
      | failure e => simp [CRes.move, Exec.map]
      | ok rest vs =>
        simp only [CRes.move, move_length]
        split
        · simp [CRes.move, Exec.map, Located.ofKind, Located.move, CstError.move]
        · rw [← relabelL_append, ih]

theorem moves_inv {f : Token → Token} (hf : Keeps f) (d : Nat) : Inv2 (Moves f d) where
  eps := ⟨sound_inv.eps, fun s => by simp [Exec.map, CRes.move, relabelL]⟩
  raw := fun sel => ⟨sound_inv.raw sel, fun s => by
    obtain ⟨p, l⟩ := s
    cases l with
    | nil => simp [rawC, Toks.move, Exec.map, CRes.move, Located.move, CstError.move]
    | cons t ts =>
      simp only [rawC, Toks.move, List.map_cons, hf t]
      split
      · simp [Exec.map, CRes.move, relabelL, relabel, Toks.move]; omega
      · simp [Exec.map, CRes.move, Located.move, CstError.move, Toks.move]; omega⟩
  any := fun k => ⟨sound_inv.any k, fun s => by
    obtain ⟨p, l⟩ := s
    cases l with
    | nil => simp [anyC, Toks.move, Exec.map, CRes.move, Located.move, CstError.move]
    | cons t ts =>
      simp [anyC, Toks.move, Exec.map, CRes.move, relabelL, relabel]; omega⟩
  seq := fun {p q p' q'} h h' => ⟨sound_inv.seq (a := .eps) (b := .eps) h.1 h'.1, fun s => by
    unfold seqC
    rw [h.2 s, Exec.bind_map', Exec.map_bind']
    congr 1
    funext res
    cases res with
    | ok rest vs =>
      simp only [CRes.move]
      rw [h'.2 rest, Exec.bind_map', Exec.map_bind']
      congr 1
      funext res
      cases res <;> simp [CRes.move, Exec.map, relabelL_append]
    | error e => simp [CRes.move, Exec.map]
    | failure e => simp [CRes.move, Exec.map]⟩
  alt := fun {p q p' q'} h h' => ⟨sound_inv.alt (a := .eps) (b := .eps) h.1 h'.1, fun s => by
    unfold altC
    rw [h.2 s, Exec.bind_map', Exec.map_bind']
    refine Exec.bind_congr_all (h.1 s) ?_
    intro res hres
    cases res with
    | error e =>
      simp only [CRes.move]
      rw [h'.2 s, Exec.bind_map', Exec.map_bind']
      refine Exec.bind_congr_all (h'.1 s) ?_
      intro res' hres'
      cases res' with
      | error e' => simp [CRes.move, Exec.map, or_move f d hres hres']
      | ok rest vs => simp [CRes.move, Exec.map]
      | failure e => simp [CRes.move, Exec.map]
    | ok rest vs => simp [CRes.move, Exec.map]
    | failure e => simp [CRes.move, Exec.map]⟩
  opt := fun {p p'} h => ⟨sound_inv.opt (a := .eps) h.1, fun s => by
    unfold optC
    rw [h.2 s, Exec.bind_map', Exec.map_bind']
    congr 1
    funext res
    cases res <;> simp [CRes.move, Exec.map, relabelL, relabel]⟩
  many0 := fun {p p'} h => ⟨sound_inv.many0 (a := .eps) h.1, fun s => by
    unfold many0C
    have := manyLoop_moves h .many0 (s.list.length + 1) s []
    rw [move_length]
    exact this⟩
  many1 := fun {p p'} h => ⟨sound_inv.many1 (a := .eps) h.1, fun s => by
    unfold many1C
    rw [h.2 s, Exec.bind_map', Exec.map_bind']
    congr 1
    funext res
    cases res with
    | ok rest vs =>
      simp only [CRes.move, move_length]
      exact manyLoop_moves h .many1 _ rest vs
    | error e => simp [CRes.move, Exec.map]
    | failure e => simp [CRes.move, Exec.map]⟩
  manyTill := fun {p q p' q'} h h' => ⟨sound_inv.manyTill (a := .eps) (b := .eps) h.1 h'.1, fun s => by
    unfold manyTillC
    have := tillLoop_moves h h' (s.list.length + 1) s []
    rw [move_length]
    exact this⟩
  not := fun {p p'} h => ⟨sound_inv.not (a := .eps) h.1, fun s => by
    unfold notC
    rw [h.2 s, Exec.bind_map', Exec.map_bind']
    congr 1
    funext res
    cases res <;> simp [CRes.move, Exec.map, relabelL, Located.ofKind, Located.move, CstError.move]⟩
  cut := fun {p p'} h => ⟨sound_inv.cut (a := .eps) h.1, fun s => by
    unfold cutC
    rw [h.2 s, Exec.bind_map', Exec.map_bind']
    congr 1
    funext res
    cases res <;> simp [CRes.move, Exec.map]⟩
  mustConsume := fun n {p p'} h => ⟨sound_inv.mustConsume n (a := .eps) h.1, fun s => by
    unfold mustConsumeC
    rw [h.2 s, Exec.bind_map', Exec.map_bind']
    congr 1
    funext res
    cases res with
    | ok rest vs =>
      simp only [CRes.move, move_length]
      split <;> simp [CRes.move, Exec.map, Located.move, CstError.move]
    | error e => simp [CRes.move, Exec.map]
    | failure e => simp [CRes.move, Exec.map]⟩
  postCond := fun c {p p'} h => ⟨sound_inv.postCond c (a := .eps) h.1, fun s => by
    unfold postCondC
    rw [h.2 s, Exec.bind_map', Exec.map_bind']
    congr 1
    funext res
    cases res with
    | ok rest vs =>
      simp only [CRes.move, holds_relabel hf]
      split <;> simp [CRes.move, Exec.map, Located.move, CstError.move]
    | error e => simp [CRes.move, Exec.map]
    | failure e => simp [CRes.move, Exec.map]⟩
  wrap := fun sh {p p'} h => ⟨sound_inv.wrap sh (a := .eps) h.1, fun s => by
    unfold wrapC
    rw [h.2 s, Exec.bind_map', Exec.map_bind']
    congr 1
    funext res
    cases res <;> simp [CRes.move, Exec.map, relabelL, relabel_build]⟩

theorem runCst_move {f : Token → Token} (hf : Keeps f) (d : Nat) (r : CRule) (s : Toks) :
    runCst r (s.move f d) = (runCst r s).map (CRes.move f d) := by
  rw [runCst_def, runCst_def]
  have hl : cstFuel (s.move f d) = cstFuel s := by unfold cstFuel; rw [move_length]
  rw [hl]
  refine ((moves_inv hf d).evalCst ⟨fun _ => trivial, fun _ => rfl⟩ cst (cstFuel s) r).2 s

end Sneturfahi
