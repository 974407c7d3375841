import Verif.Proof.CstMap
import Verif.Proof.CstErr

/-!
# Trees: locations, parts, traversal; the outcome of `parseCst`
-/

namespace Sneturfahi

open Spec

/-! ### Locations -/

theorem firstStart_spec : (∀ v : Val, v.startLocation = (tokens v).head?.map (fun t => t.span.start)) ∧
    (∀ vs : List Val, Val.firstStart vs = (tokensL vs).head?.map (fun t => t.span.start)) := by
  have key : ∀ (a b : List Token) (x y : Option Nat), x = a.head?.map (fun t => t.span.start) →
      y = b.head?.map (fun t => t.span.start) →
      (match x with | some l => some l | none => y) = (a ++ b).head?.map (fun t => t.span.start) := by
    intro a b x y hx hy
    cases a with
    | nil => simp at hx; subst hx; simpa using hy
    | cons t a => simp at hx; subst hx; simp
  constructor
  · intro v
    induction v using Val.rec (motive_2 := fun vs => Val.firstStart vs = (tokensL vs).head?.map (fun t => t.span.start)) with
    | leaf k t => simp [Val.startLocation, tokens]
    | node n fs ih => simpa [Val.startLocation, tokens] using ih
    | tuple fs ih => simpa [Val.startLocation, tokens] using ih
    | many vs ih => simpa [Val.startLocation, tokens] using ih
    | sep first rest ih ih' =>
      unfold Val.startLocation tokens
      exact key _ _ _ _ ih ih'
    | nil => simp [Val.firstStart, tokensL]
    | cons v vs ih ih' =>
      unfold Val.firstStart tokensL
      exact key _ _ _ _ ih ih'
  · intro vs
    induction vs using Val.rec_1 (motive_1 := fun v => v.startLocation = (tokens v).head?.map (fun t => t.span.start)) with
    | leaf k t => simp [Val.startLocation, tokens]
    | node n fs ih => simpa [Val.startLocation, tokens] using ih
    | tuple fs ih => simpa [Val.startLocation, tokens] using ih
    | many vs ih => simpa [Val.startLocation, tokens] using ih
    | sep first rest ih ih' =>
      unfold Val.startLocation tokens
      exact key _ _ _ _ ih ih'
    | nil => simp [Val.firstStart, tokensL]
    | cons v vs ih ih' =>
      unfold Val.firstStart tokensL
      exact key _ _ _ _ ih ih'

theorem lastEnd_spec (v : Val) : v.endLocation = (tokens v).getLast?.map (fun t => t.span.stop) := by
  have key : ∀ (a b : List Token) (x y : Option Nat), x = a.getLast?.map (fun t => t.span.stop) →
      y = b.getLast?.map (fun t => t.span.stop) →
      (match y with | some l => some l | none => x) = (a ++ b).getLast?.map (fun t => t.span.stop) := by
    intro a b x y hx hy
    rw [List.getLast?_append]
    cases hb : b.getLast? with
    | none => rw [hb] at hy; subst hy; simpa using hx
    | some t => rw [hb] at hy; subst hy; simp
  induction v using Val.rec (motive_2 := fun vs => Val.lastEnd vs = (tokensL vs).getLast?.map (fun t => t.span.stop)) with
  | leaf k t => simp [Val.endLocation, tokens]
  | node n fs ih => simpa [Val.endLocation, tokens] using ih
  | tuple fs ih => simpa [Val.endLocation, tokens] using ih
  | many vs ih => simpa [Val.endLocation, tokens] using ih
  | sep first rest ih ih' =>
    unfold Val.endLocation tokens
    exact key _ _ _ _ ih ih'
  | nil => simp [Val.lastEnd, tokensL]
  | cons v vs ih ih' =>
    unfold Val.lastEnd tokensL
    exact key _ _ _ _ ih ih'

/-! ### Experimental words -/

mutual
/-- The tokens at leaves that keep the flag. -/
def flagged : Val → List Token
  | .leaf .token t => [t]
  | .leaf _ _ => []
  | .node _ fs => flaggedL fs
  | .tuple fs => flaggedL fs
  | .many vs => flaggedL vs
  | .sep first rest => flagged first ++ flaggedL rest
/-- The same for several values. -/
def flaggedL : List Val → List Token
  | [] => []
  | v :: vs => flagged v ++ flaggedL vs
end

theorem experimental_spec (v : Val) : v.experimental = (flagged v).any (fun t => t.experimental) := by
  induction v using Val.rec (motive_2 := fun vs => Val.anyExperimental vs = (flaggedL vs).any (fun t => t.experimental)) with
  | leaf k t => cases k <;> simp [Val.experimental, leafExperimental, flagged]
  | node n fs ih => simpa [Val.experimental, flagged] using ih
  | tuple fs ih => simpa [Val.experimental, flagged] using ih
  | many vs ih => simpa [Val.experimental, flagged] using ih
  | sep first rest ih ih' => simp [Val.experimental, flagged, ih, ih']
  | nil => simp [Val.anyExperimental, flaggedL]
  | cons v vs ih ih' => simp [Val.anyExperimental, flaggedL, ih, ih']

theorem flagged_sub (v : Val) : (flagged v).Sublist (tokens v) := by
  induction v using Val.rec (motive_2 := fun vs => (flaggedL vs).Sublist (tokensL vs)) with
  | leaf k t => cases k <;> simp [flagged, tokens]
  | node n fs ih => simpa [tokens, flagged] using ih
  | tuple fs ih => simpa [tokens, flagged] using ih
  | many vs ih => simpa [tokens, flagged] using ih
  | sep first rest ih ih' => simpa [tokens, flagged] using ih.append ih'
  | nil => simp [flaggedL]
  | cons v vs ih ih' => simpa [tokensL, flaggedL] using ih.append ih'

/-! ### Children -/

theorem selves_tokens (v : Val) : tokensL v.selves = tokens v := by
  induction v using Val.rec (motive_2 := fun vs => tokensL (Val.allSelves vs) = tokensL vs) with
  | leaf k t => simp [Val.selves, tokens, tokensL]
  | node n fs ih =>
    unfold Val.selves
    split
    · simpa [tokens] using ih
    · simp [tokens, tokensL]
  | tuple fs ih => simpa [Val.selves, tokens] using ih
  | many vs ih => simpa [Val.selves, tokens] using ih
  | sep first rest ih ih' => simp [Val.selves, tokens, tokensL]
  | nil => simp [Val.allSelves, tokensL]
  | cons v vs ih ih' => simp [Val.allSelves, tokensL, tokensL_append, ih, ih']

theorem allSelves_tokens (vs : List Val) : tokensL (Val.allSelves vs) = tokensL vs := by
  induction vs with
  | nil => simp [Val.allSelves, tokensL]
  | cons v vs ih => simp [Val.allSelves, tokensL, tokensL_append, ih, selves_tokens]

theorem children_tokens {v : Val} (h : ∀ k t, v ≠ .leaf k t) : tokensL v.children = tokens v := by
  cases v with
  | leaf k t => exact absurd rfl (h k t)
  | node n fs => simpa [Val.children, tokens] using allSelves_tokens fs
  | tuple fs => simpa [Val.children, tokens] using allSelves_tokens fs
  | many fs => simpa [Val.children, tokens] using allSelves_tokens fs
  | sep first rest => simp [Val.children, tokens, tokensL_append, allSelves_tokens, selves_tokens]

/-! ### Parts -/

theorem infix_append_left {α : Type} {a b : List α} (c : List α) (h : a <:+: b) : a <:+: c ++ b := by
  obtain ⟨u, v, h⟩ := h
  exact ⟨c ++ u, v, by rw [← h]; simp⟩

theorem infix_append_right {α : Type} {a b : List α} (c : List α) (h : a <:+: b) : a <:+: b ++ c := by
  obtain ⟨u, v, h⟩ := h
  exact ⟨u, v ++ c, by rw [← h]; simp⟩

theorem partOf_tokens {v w : Val} (h : PartOf v w) : tokens v <:+: tokens w := by
  induction h using PartOf.rec (motive_2 := fun ws _ => tokens v <:+: tokensL ws) with
  | self => exact List.infix_rfl
  | node _ ih => simpa [tokens] using ih
  | tuple _ ih => simpa [tokens] using ih
  | many _ ih => simpa [tokens] using ih
  | sepFirst _ ih => simpa [tokens] using infix_append_right _ ih
  | sepRest _ ih => simpa [tokens] using infix_append_left _ ih
  | head _ ih => simpa [tokensL] using infix_append_right _ ih
  | tail _ ih => simpa [tokensL] using infix_append_left _ ih

theorem selves_part (v : Val) : ∀ c ∈ v.selves, PartOf c v := by
  induction v using Val.rec (motive_2 := fun vs => ∀ c ∈ Val.allSelves vs, PartOfL c vs) with
  | leaf k t => intro c hc; simp [Val.selves] at hc; subst hc; exact .self
  | node n fs ih =>
    intro c hc
    unfold Val.selves at hc
    split at hc
    · exact .node (ih c hc)
    · simp at hc; subst hc; exact .self
  | tuple fs ih => intro c hc; exact .tuple (ih c (by simpa [Val.selves] using hc))
  | many fs ih => intro c hc; exact .many (ih c (by simpa [Val.selves] using hc))
  | sep first rest ih ih' => intro c hc; simp [Val.selves] at hc; subst hc; exact .self
  | nil => rename_i c hc; simp [Val.allSelves] at hc
  | cons v vs ih ih' =>
    rename_i c hc
    simp only [Val.allSelves, List.mem_append] at hc
    rcases hc with h | h
    · exact .head (ih c h)
    · exact .tail (ih' c h)

theorem allSelves_part {vs : List Val} : ∀ c ∈ Val.allSelves vs, PartOfL c vs := by
  induction vs with
  | nil => intro c hc; simp [Val.allSelves] at hc
  | cons v vs ih =>
    intro c hc
    simp only [Val.allSelves, List.mem_append] at hc
    rcases hc with h | h
    · exact .head (selves_part v c h)
    · exact .tail (ih c h)

theorem children_part {v c : Val} (h : c ∈ v.children) : PartOf c v := by
  cases v with
  | leaf k t => simp [Val.children] at h
  | node n fs => exact .node (allSelves_part c h)
  | tuple fs => exact .tuple (allSelves_part c h)
  | many fs => exact .many (allSelves_part c h)
  | sep first rest =>
    simp only [Val.children, List.mem_append] at h
    rcases h with h | h
    · exact .sepFirst (selves_part first c h)
    · exact .sepRest (allSelves_part c h)

theorem PartOf.trans {a b c : Val} (h : PartOf a b) (h' : PartOf b c) : PartOf a c := by
  induction h' using PartOf.rec (motive_2 := fun ws _ => PartOfL a ws) with
  | self => exact h
  | node _ ih => exact .node ih
  | tuple _ ih => exact .tuple ih
  | many _ ih => exact .many ih
  | sepFirst _ ih => exact .sepFirst ih
  | sepRest _ ih => exact .sepRest ih
  | head _ ih => exact .head ih
  | tail _ ih => exact .tail ih

/-! ### The outcome of `parseCst` -/

/-- What `parseCst` makes of the outcome of the root. -/
def finish : CRes → Except Located Val
  | .ok ⟨_, []⟩ [root] => .ok root
  | .ok rest _ => .error ⟨rest, .nom .eof⟩
  | .error e => .error e
  | .failure e => .error e

theorem parseCst_eq (p : Profile) (s : Toks) : ∃ res, runCst .Text s = .val res ∧ parseCst p s = .val (finish res) := by
  obtain ⟨res, h⟩ := runCst_ends .Text s
  refine ⟨res, h, ?_⟩
  unfold parseCst allConsumingC
  rw [h]
  cases res with
  | error e => rfl
  | failure e => rfl
  | ok rest vs =>
    have hc := runCst_conforms .Text s
    rw [h] at hc
    obtain ⟨v, rfl⟩ := derives_one (hc rest vs rfl).1
    obtain ⟨ptr, l⟩ := rest
    cases l with
    | nil => simp [finish]
    | cons t ts => simp [finish, Located.ofKind]

theorem parseCst_ok {p : Profile} {s : Toks} {v : Val} (h : parseCst p s = .val (.ok v)) :
    runCst .Text s = .val (.ok ⟨s.ptr + s.list.length, []⟩ [v]) := by
  obtain ⟨res, h1, h2⟩ := parseCst_eq p s
  rw [h2] at h
  have hs := runCst_sound .Text s
  rw [h1] at hs
  cases res with
  | error e => simp [finish] at h
  | failure e => simp [finish] at h
  | ok rest vs =>
    obtain ⟨ptr, l⟩ := rest
    match l, vs with
    | [], [root] =>
      simp [finish] at h
      subst h
      rw [h1]
      have hp := hs.2
      have hl := hs.1
      simp only [List.append_nil] at hl
      simp only at hp
      rw [hl, hp]
    | [], [] => simp [finish] at h
    | [], _ :: _ :: _ => simp [finish] at h
    | _ :: _, _ => simp [finish] at h

theorem parseCst_error {p : Profile} {s : Toks} {e : Located} (h : parseCst p s = .val (.error e)) :
    (∃ rest v, runCst .Text s = .val (.ok rest [v]) ∧ rest.list ≠ [] ∧ e = ⟨rest, .nom .eof⟩) ∨
      runCst .Text s = .val (.failure e) := by
  obtain ⟨res, h1, h2⟩ := parseCst_eq p s
  rw [h2] at h
  cases res with
  | error e' =>
    have := runCst_err .Text s
    rw [h1] at this
    have hn := this.1
    simp [neverG, errTables] at hn
  | failure e' => simp [finish] at h; subst h; exact Or.inr h1
  | ok rest vs =>
    have hc := runCst_conforms .Text s
    rw [h1] at hc
    obtain ⟨v, rfl⟩ := derives_one (hc rest vs rfl).1
    obtain ⟨ptr, l⟩ := rest
    cases l with
    | nil => simp [finish] at h
    | cons t ts =>
      simp [finish] at h
      exact Or.inl ⟨_, v, h1, by simp, h.symm⟩

/-- Move an outcome. -/
def moveOut (f : Token → Token) (d : Nat) : Except Located Val → Except Located Val
  | .ok v => .ok (relabel f v)
  | .error e => .error (e.move f d)

theorem parseCst_move {f : Token → Token} (hf : Keeps f) (d : Nat) (p : Profile) {s : Toks} {out : Except Located Val}
    (h : parseCst p s = .val out) (p' : Profile) : parseCst p' (s.move f d) = .val (moveOut f d out) := by
  obtain ⟨res, h1, h2⟩ := parseCst_eq p s
  obtain ⟨res', h3, h4⟩ := parseCst_eq p' (s.move f d)
  rw [runCst_move hf, h1] at h3
  cases h3
  rw [h2] at h
  cases h
  rw [h4]
  congr 1
  have hc := runCst_conforms .Text s
  rw [h1] at hc
  cases res with
  | error e => rfl
  | failure e => rfl
  | ok rest vs =>
    obtain ⟨v, rfl⟩ := derives_one (hc rest vs rfl).1
    obtain ⟨ptr, l⟩ := rest
    cases l with
    | nil => simp [CRes.move, finish, moveOut, Toks.move, relabelL]
    | cons t ts => simp [CRes.move, finish, moveOut, Toks.move, Located.move, CstError.move]

end Sneturfahi
