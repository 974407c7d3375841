import Verif.Proof.CstQuote
import Verif.Proof.CstMap

/-!
# A word that ends what can be parsed

Where the grammar has no place for a token, parsing goes on as if the text ended before it: the parser behaves on
`l ++ tail` as on `l`.
-/

namespace Sneturfahi

open Spec

/-- The first word that is not `ba'e`, if any, is not one of `ts`. -/
def HeadFree (ts : List Selmaho) (l : List Token) : Prop :=
  ∀ t, (l.dropWhile fun t => t.selmaho == .Bahe).head? = some t → t.selmaho ∉ ts

/-- What stands after the tokens parsed: a token `stop` and others; `ts` are selma'o that do not occur before. -/
structure Ending where
  ts : List Selmaho
  stops : Selmaho → Bool
  stop : Token
  stop_stops : stops stop.selmaho = true
  post : List Token
  stop_free : stop.selmaho ∉ ts
  /-- those of `ts` that say something about the word before them -/
  hs : List Selmaho
  hs_sub : ∀ s ∈ hs, s ∈ ts
  post_free : HeadFree hs post

def Ending.tail (E : Ending) : List Token := E.stop :: E.post

/-- No token of one of the selma'o `ts`. -/
def Ending.Free (E : Ending) (l : List Token) : Prop := ∀ t ∈ l, t.selmaho ∉ E.ts

def Ending.HeadFree (E : Ending) (l : List Token) : Prop := Sneturfahi.HeadFree E.hs l

theorem Ending.Free.head_append {E : Ending} {l r : List Token} (h : E.Free l) (hr : E.HeadFree r) : E.HeadFree (l ++ r) := by
  induction l with
  | nil => exact hr
  | cons x xs ih =>
    intro t ht
    rw [List.cons_append, List.dropWhile_cons] at ht
    split at ht
    · exact ih (fun t ht => h t (by simp [ht])) t ht
    · simp at ht; subst ht; exact fun hx => h _ (by simp) (E.hs_sub _ hx)

theorem Ending.Free.head {E : Ending} {l : List Token} (h : E.Free l) : E.HeadFree l := by
  have := h.head_append (r := []) (fun t ht => by simp at ht)
  rwa [List.append_nil] at this

theorem Ending.Free.head_tail {E : Ending} {l : List Token} (h : E.Free l) : E.HeadFree (l ++ E.tail) := by
  refine h.head_append ?_
  intro t ht
  rw [Ending.tail, List.dropWhile_cons] at ht
  split at ht
  · exact E.post_free t ht
  · simp at ht; subst ht; exact fun hx => E.stop_free (E.hs_sub _ hx)

theorem Ending.Free.of_append {E : Ending} {w l : List Token} (h : E.Free (w ++ l)) : E.Free l :=
  fun t ht => h t (by simp [ht])

/-- The second token is not one of `ts` either. -/
theorem Ending.Free.second_tail {E : Ending} {l rest : List Token} {t : Token} (h : E.Free l) (he : l ++ E.tail = t :: rest) :
    E.HeadFree rest := by
  cases l with
  | nil =>
    simp only [Ending.tail, List.nil_append, List.cons.injEq] at he
    rw [← he.2]
    exact E.post_free
  | cons x xs =>
    simp only [List.cons_append, List.cons.injEq] at he
    rw [← he.2]
    exact Ending.Free.head_tail (fun t ht => h t (by simp [ht]))

theorem Ending.Free.second {E : Ending} {l rest : List Token} {t : Token} (h : E.Free l) (he : l = t :: rest) :
    E.HeadFree rest := by
  subst he
  exact Ending.Free.head (fun t' ht => h t' (by simp [ht]))

/-- The same outcome, but for what follows. -/
def Twin (tail l : List Token) : CRes → CRes → Prop
  | .ok r vs, .ok r' vs' => vs' = vs ∧ r' = ⟨r.ptr, r.list ++ tail⟩ ∧ ∃ w, l = w ++ r.list
  | .error _, .error _ => True
  | .failure _, .failure _ => True
  | _, _ => False

/-- Both outcomes are errors of the same kind. -/
def Fail2 : CRes → CRes → Prop
  | .error _, .error _ => True
  | .failure _, .failure _ => True
  | _, _ => False

def Simu (E : Ending) (p : CParser) : Prop := ∀ ptr l a b, E.Free l → p ⟨ptr, l⟩ = .val a → p ⟨ptr, l ++ E.tail⟩ = .val b →
  Twin E.tail l a b

def Fails (E : Ending) (p : CParser) : Prop := ∀ ptr l a b, E.Free l → p ⟨ptr, l⟩ = .val a → p ⟨ptr, l ++ E.tail⟩ = .val b →
  Fail2 a b

/-- Gives an error on everything that does not begin with one of `ts`. -/
def Dead (E : Ending) (p : CParser) : Prop := ∀ s a, E.HeadFree s.list → p s = .val a → ∃ e, a = .error e

/-- On everything that does not begin with one of `ts`, after any `ba'e`: an error, or success with a rest of that kind. -/
def Skip (E : Ending) (p : CParser) : Prop := ∀ s a, E.HeadFree s.list → p s = .val a →
  (∃ e, a = .error e) ∨ ∃ r vs, a = .ok r vs ∧ E.HeadFree r.list

theorem Dead.skip {E : Ending} {p : CParser} (h : Dead E p) : Skip E p := fun s a hf ha => .inl (h s a hf ha)

/-- Gives an error or consumes one token. -/
def One (p : CParser) : Prop := ∀ s a, p s = .val a →
  (∃ e, a = .error e) ∨ (∃ t ts vs, s.list = t :: ts ∧ a = .ok ⟨s.ptr + 1, ts⟩ vs)

theorem Fails.sim {E : Ending} {p : CParser} (h : Fails E p) : Simu E p := by
  intro ptr l a b hf ha hb
  have := h ptr l a b hf ha hb
  cases a <;> cases b <;> simp_all [Fail2, Twin]

theorem Dead.fails {E : Ending} {p : CParser} (h : Dead E p) : Fails E p := by
  intro ptr l a b hf ha hb
  obtain ⟨e, rfl⟩ := h _ _ hf.head ha
  obtain ⟨e', rfl⟩ := h _ _ hf.head_tail hb
  trivial

/-! ### Constructs -/

theorem seq_val {p q : CParser} {s : Toks} {a : CRes} (h : seqC p q s = .val a) : ∃ x, p s = .val x ∧
    match x with
    | .ok r vs => ∃ y, q r = .val y ∧ (match y with | .ok r' ws => a = .ok r' (vs ++ ws) | .error e => a = .error e | .failure e => a = .failure e)
    | .error e => a = .error e
    | .failure e => a = .failure e := by
  unfold seqC at h
  obtain ⟨x, hx, h⟩ := Exec.bind_eq_val.mp h
  refine ⟨x, hx, ?_⟩
  cases x with
  | ok r vs =>
    obtain ⟨y, hy, h⟩ := Exec.bind_eq_val.mp h
    refine ⟨y, hy, ?_⟩
    cases y <;> cases h <;> rfl
  | error e => cases h; rfl
  | failure e => cases h; rfl

theorem alt_val {p q : CParser} {s : Toks} {a : CRes} (h : altC p q s = .val a) : ∃ x, p s = .val x ∧
    match x with
    | .ok r vs => a = .ok r vs
    | .error _ => ∃ y, q s = .val y ∧ (match y with | .ok r' ws => a = .ok r' ws | .error _ => ∃ e', a = .error e' | .failure e => a = .failure e)
    | .failure e => a = .failure e := by
  unfold altC at h
  obtain ⟨x, hx, h⟩ := Exec.bind_eq_val.mp h
  refine ⟨x, hx, ?_⟩
  cases x with
  | ok r vs => cases h; rfl
  | error e =>
    obtain ⟨y, hy, h⟩ := Exec.bind_eq_val.mp h
    refine ⟨y, hy, ?_⟩
    cases y <;> cases h
    · rfl
    · exact ⟨_, rfl⟩
    · rfl
  | failure e => cases h; rfl

theorem opt_val {p : CParser} {s : Toks} {a : CRes} (h : optC p s = .val a) : ∃ x, p s = .val x ∧
    match x with
    | .ok r vs => a = .ok r [.many vs]
    | .error _ => a = .ok s [.many []]
    | .failure e => a = .failure e := by
  unfold optC at h
  obtain ⟨x, hx, h⟩ := Exec.bind_eq_val.mp h
  exact ⟨x, hx, by cases x <;> cases h <;> rfl⟩

theorem not_val {p : CParser} {s : Toks} {a : CRes} (h : notC p s = .val a) : ∃ x, p s = .val x ∧
    match x with
    | .ok _ _ => ∃ e, a = .error e
    | .error _ => a = .ok s []
    | .failure e => a = .failure e := by
  unfold notC at h
  obtain ⟨x, hx, h⟩ := Exec.bind_eq_val.mp h
  exact ⟨x, hx, by cases x <;> cases h <;> first | rfl | exact ⟨_, rfl⟩⟩

theorem cut_val {p : CParser} {s : Toks} {a : CRes} (h : cutC p s = .val a) : ∃ x, p s = .val x ∧
    match x with
    | .ok r vs => a = .ok r vs
    | .error e => a = .failure e
    | .failure e => a = .failure e := by
  unfold cutC at h
  obtain ⟨x, hx, h⟩ := Exec.bind_eq_val.mp h
  exact ⟨x, hx, by cases x <;> cases h <;> rfl⟩

theorem must_val {n : NodeName} {p : CParser} {s : Toks} {a : CRes} (h : mustConsumeC n p s = .val a) : ∃ x, p s = .val x ∧
    match x with
    | .ok r vs => if r.list.length = s.list.length then ∃ e, a = .error e else a = .ok r vs
    | .error e => a = .error e
    | .failure e => a = .failure e := by
  unfold mustConsumeC at h
  obtain ⟨x, hx, h⟩ := Exec.bind_eq_val.mp h
  refine ⟨x, hx, ?_⟩
  cases x with
  | ok r vs =>
    simp only at h ⊢
    split at h
    · rename_i he; rw [if_pos he]; cases h; exact ⟨_, rfl⟩
    · rename_i he; rw [if_neg he]; cases h; rfl
  | error e => cases h; rfl
  | failure e => cases h; rfl

theorem post_val {c : PostCond} {p : CParser} {s : Toks} {a : CRes} (h : postCondC c p s = .val a) : ∃ x, p s = .val x ∧
    match x with
    | .ok r vs => if c.holds vs = true then a = .ok r vs else ∃ e, a = .error e
    | .error e => a = .error e
    | .failure e => a = .failure e := by
  unfold postCondC at h
  obtain ⟨x, hx, h⟩ := Exec.bind_eq_val.mp h
  refine ⟨x, hx, ?_⟩
  cases x with
  | ok r vs =>
    simp only at h ⊢
    split at h
    · rename_i he; rw [if_pos he]; cases h; rfl
    · rename_i he; rw [if_neg he]; cases h; exact ⟨_, rfl⟩
  | error e => cases h; rfl
  | failure e => cases h; rfl

theorem wrap_val {sh : CShape} {p : CParser} {s : Toks} {a : CRes} (h : wrapC sh p s = .val a) : ∃ x, p s = .val x ∧
    match x with
    | .ok r vs => a = .ok r [sh.build vs]
    | .error e => a = .error e
    | .failure e => a = .failure e := by
  unfold wrapC at h
  obtain ⟨x, hx, h⟩ := Exec.bind_eq_val.mp h
  exact ⟨x, hx, by cases x <;> cases h <;> rfl⟩

theorem loop_val {p : CParser} {k : NomKind} {fuel : Nat} {s : Toks} {acc : List Val} {a : CRes}
    (h : manyLoop p k (fuel + 1) s acc = .val a) : ∃ x, p s = .val x ∧
    match x with
    | .ok r vs => if r.list.length = s.list.length then ∃ e, a = .error e else manyLoop p k fuel r (acc ++ vs) = .val a
    | .error _ => a = .ok s [.many acc]
    | .failure e => a = .failure e := by
  unfold manyLoop at h
  obtain ⟨x, hx, h⟩ := Exec.bind_eq_val.mp h
  refine ⟨x, hx, ?_⟩
  cases x with
  | ok r vs =>
    simp only at h ⊢
    split at h
    · rename_i he; rw [if_pos he]; cases h; exact ⟨_, rfl⟩
    · rename_i he; rw [if_neg he]; exact h
  | error e => cases h; rfl
  | failure e => cases h; rfl

theorem many1_val {p : CParser} {s : Toks} {a : CRes} (h : many1C p s = .val a) : ∃ x, p s = .val x ∧
    match x with
    | .ok r vs => manyLoop p .many1 (r.list.length + 1) r vs = .val a
    | .error e => a = .error e
    | .failure e => a = .failure e := by
  unfold many1C at h
  obtain ⟨x, hx, h⟩ := Exec.bind_eq_val.mp h
  refine ⟨x, hx, ?_⟩
  cases x with
  | ok r vs => exact h
  | error e => cases h; rfl
  | failure e => cases h; rfl

/-! ### Certificates -/

/-- Tables per production. -/
structure EndTab where
  one : CRule → Bool
  dead : CRule → Bool
  skip : CRule → Bool
  fail : CRule → Bool
  sim : CRule → Bool

def oneE (T : EndTab) : Gr → Bool
  | .any _ => true
  | .call r => T.one r
  | .postCond _ a => oneE T a
  | .wrap _ a => oneE T a
  | _ => false

/-- `(dead, skip)` -/
def deadE (T : EndTab) (ts : List Selmaho) : Gr → Bool × Bool
  | .eps => (false, true)
  | .raw s => (ts.contains s && s != .Bahe, ts.contains s || s == .Bahe)
  | .call r => (T.dead r, T.dead r || T.skip r)
  | .seq a b => ((deadE T ts a).1 || ((deadE T ts a).2 && (deadE T ts b).1), (deadE T ts a).2 && (deadE T ts b).2)
  | .alt a b => ((deadE T ts a).1 && (deadE T ts b).1, false)
  | .opt a => (false, (deadE T ts a).2)
  | .many0 a => (false, (deadE T ts a).2)
  | .many1 a => ((deadE T ts a).1, false)
  | .not a => (false, (deadE T ts a).2)
  | .mustConsume _ a => ((deadE T ts a).1, false)
  | .postCond _ a => ((deadE T ts a).1, false)
  | .wrap _ a => ((deadE T ts a).1, (deadE T ts a).2)
  | _ => (false, false)

/-- `(sim, fail)` -/
def simE (T : EndTab) (ts hs : List Selmaho) (stop : Selmaho → Bool) : Gr → Bool × Bool
  | .eps => (true, false)
  | .raw s => (!stop s, ts.contains s)
  | .any _ => (false, false)
  | .call r => (T.sim r || T.fail r, T.fail r)
  | .seq a b =>
    let fail := (simE T ts hs stop a).2 || ((simE T ts hs stop a).1 && (simE T ts hs stop b).2) || (oneE T a && (deadE T hs b).1)
    (((simE T ts hs stop a).1 && (simE T ts hs stop b).1) || fail, fail)
  | .alt a b => ((simE T ts hs stop a).1 && (simE T ts hs stop b).1, (simE T ts hs stop a).2 && (simE T ts hs stop b).2)
  | .opt a => ((simE T ts hs stop a).1, false)
  | .many0 a => ((simE T ts hs stop a).1, false)
  | .many1 a => ((simE T ts hs stop a).1, (simE T ts hs stop a).2)
  | .manyTill _ _ => (false, false)
  | .not a => ((simE T ts hs stop a).1, false)
  | .cut a => ((simE T ts hs stop a).1, (simE T ts hs stop a).2)
  | .mustConsume _ a => ((simE T ts hs stop a).1, (simE T ts hs stop a).2)
  | .postCond _ a => ((simE T ts hs stop a).1, (simE T ts hs stop a).2)
  | .wrap _ a => ((simE T ts hs stop a).1, (simE T ts hs stop a).2)

/-- What the certificates mean. -/
structure Meant (E : Ending) (T : EndTab) (e : Gr) (p : CParser) : Prop where
  one : oneE T e = true → One p
  dead : (deadE T E.hs e).1 = true → Dead E p
  skip : (deadE T E.hs e).2 = true → Skip E p
  fail : (simE T E.ts E.hs E.stops e).2 = true → Fails E p
  sim : (simE T E.ts E.hs E.stops e).1 = true → Simu E p

/-! ### Soundness -/

theorem simu_seq {E : Ending} {p q : CParser} (hp : Simu E p) (hq : Simu E q) : Simu E (seqC p q) := by
  intro ptr l a b hf ha hb
  obtain ⟨x, hx, ha⟩ := seq_val ha
  obtain ⟨y, hy, hb⟩ := seq_val hb
  have ht := hp _ _ _ _ hf hx hy
  cases x <;> cases y <;> simp only [Twin] at ht <;> try exact ht.elim
  · rename_i r vs r' vs'
    obtain ⟨rfl, rfl, w, hw⟩ := ht
    obtain ⟨x, hx, ha⟩ := ha
    obtain ⟨y, hy, hb⟩ := hb
    have hf' : E.Free r.list := by rw [hw] at hf; exact hf.of_append
    have ht := hq r.ptr r.list x y hf' (by cases r; exact hx) hy
    cases x <;> cases y <;> simp only [Twin] at ht <;> try exact ht.elim
    · obtain ⟨rfl, rfl, w', hw'⟩ := ht
      simp only at ha hb
      subst ha; subst hb
      exact ⟨rfl, rfl, w ++ w', by rw [hw, hw', List.append_assoc]⟩
    · simp only at ha hb; subst ha; subst hb; trivial
    · simp only at ha hb; subst ha; subst hb; trivial
  · simp only at ha hb; subst ha; subst hb; trivial
  · simp only at ha hb; subst ha; subst hb; trivial

theorem fails_seq {E : Ending} {p q : CParser} (hp : Simu E p) (hq : Fails E q) : Fails E (seqC p q) := by
  intro ptr l a b hf ha hb
  obtain ⟨x, hx, ha⟩ := seq_val ha
  obtain ⟨y, hy, hb⟩ := seq_val hb
  have ht := hp _ _ _ _ hf hx hy
  cases x <;> cases y <;> simp only [Twin] at ht <;> try exact ht.elim
  · rename_i r vs r' vs'
    obtain ⟨rfl, rfl, w, hw⟩ := ht
    obtain ⟨x, hx, ha⟩ := ha
    obtain ⟨y, hy, hb⟩ := hb
    have hf' : E.Free r.list := by rw [hw] at hf; exact hf.of_append
    have ht := hq r.ptr r.list x y hf' (by cases r; exact hx) hy
    cases x <;> cases y <;> simp only [Fail2] at ht <;> try exact ht.elim
    · simp only at ha hb; subst ha; subst hb; trivial
    · simp only at ha hb; subst ha; subst hb; trivial
  · simp only at ha hb; subst ha; subst hb; trivial
  · simp only at ha hb; subst ha; subst hb; trivial

theorem fails_seq_left {E : Ending} {p q : CParser} (hp : Fails E p) : Fails E (seqC p q) := by
  intro ptr l a b hf ha hb
  obtain ⟨x, hx, ha⟩ := seq_val ha
  obtain ⟨y, hy, hb⟩ := seq_val hb
  have ht := hp _ _ _ _ hf hx hy
  cases x <;> cases y <;> simp only [Fail2] at ht <;> try exact ht.elim
  · simp only at ha hb; subst ha; subst hb; trivial
  · simp only at ha hb; subst ha; subst hb; trivial

theorem one_dead {E : Ending} {p q : CParser} (hp : One p) (hq : Dead E q) {s : Toks} {a : CRes}
    (hs : ∀ t ts, s.list = t :: ts → E.HeadFree ts) (h : seqC p q s = .val a) : ∃ e, a = .error e := by
  obtain ⟨x, hx, h⟩ := seq_val h
  rcases hp _ _ hx with ⟨e, rfl⟩ | ⟨t, ts, vs, h1, rfl⟩
  · exact ⟨e, h⟩
  · obtain ⟨y, hy, h⟩ := h
    obtain ⟨e, rfl⟩ := hq _ _ (hs t ts h1) hy
    exact ⟨e, h⟩

theorem fails_one {E : Ending} {p q : CParser} (hp : One p) (hq : Dead E q) : Fails E (seqC p q) := by
  intro ptr l a b hf ha hb
  obtain ⟨e, rfl⟩ := one_dead hp hq (fun t ts h => hf.second h) ha
  obtain ⟨e', rfl⟩ := one_dead hp hq (fun t ts h => hf.second_tail h) hb
  trivial

theorem simu_loop {E : Ending} {p : CParser} (hp : Simu E p) (k : NomKind) : ∀ (fuel fuel' ptr : Nat) (l : List Token) (acc : List Val)
    (a b : CRes), E.Free l → manyLoop p k fuel ⟨ptr, l⟩ acc = .val a → manyLoop p k fuel' ⟨ptr, l ++ E.tail⟩ acc = .val b →
    Twin E.tail l a b := by
  intro fuel
  induction fuel with
  | zero => intro fuel' ptr l acc a b _ ha; simp [manyLoop] at ha
  | succ fuel ih =>
    intro fuel' ptr l acc a b hf ha hb
    cases fuel' with
    | zero => simp [manyLoop] at hb
    | succ fuel' =>
      obtain ⟨x, hx, ha⟩ := loop_val ha
      obtain ⟨y, hy, hb⟩ := loop_val hb
      have ht := hp _ _ _ _ hf hx hy
      cases x <;> cases y <;> simp only [Twin] at ht <;> try exact ht.elim
      · rename_i r vs r' vs'
        obtain ⟨rfl, rfl, w, hw⟩ := ht
        simp only [List.length_append, Nat.add_right_cancel_iff] at ha hb
        by_cases hl : r.list.length = l.length
        · rw [if_pos hl] at ha hb
          obtain ⟨e, rfl⟩ := ha
          obtain ⟨e', rfl⟩ := hb
          trivial
        · rw [if_neg hl] at ha hb
          have hf' : E.Free r.list := by rw [hw] at hf; exact hf.of_append
          have ht := ih fuel' r.ptr r.list _ a b hf' (by cases r; exact ha) hb
          cases a <;> cases b <;> simp only [Twin] at ht ⊢ <;> try exact ht.elim
          obtain ⟨h1, h2, w', h3⟩ := ht
          exact ⟨h1, h2, w ++ w', by rw [hw, h3, List.append_assoc]⟩
      · simp only at ha hb; subst ha; subst hb; exact ⟨rfl, rfl, [], rfl⟩
      · simp only at ha hb; subst ha; subst hb; trivial

theorem dead_raw {E : Ending} {s : Selmaho} (h : s ∈ E.hs) (hb : s ≠ .Bahe) : Dead E (rawC s) := by
  intro i a hf ha
  unfold rawC at ha
  split at ha
  · cases ha; exact ⟨_, rfl⟩
  · rename_i t ts hl
    have hn : t.selmaho ≠ s := by
      intro he
      refine hf t ?_ (he ▸ h)
      rw [hl, List.dropWhile_cons, if_neg (by simpa [he] using hb)]
      rfl
    rw [if_neg hn] at ha
    cases ha; exact ⟨_, rfl⟩

theorem fails_raw {E : Ending} {s : Selmaho} (h : s ∈ E.ts) : Fails E (rawC s) := by
  intro ptr l a b hf ha hb
  unfold rawC at ha hb
  cases l with
  | nil =>
    cases ha
    simp only [List.nil_append, Ending.tail] at hb
    rw [if_neg (show ¬ E.stop.selmaho = s from fun he => E.stop_free (he ▸ h))] at hb
    cases hb; trivial
  | cons t ts =>
    simp only [List.cons_append] at ha hb
    have he : ¬ t.selmaho = s := fun he => hf t (by simp) (he ▸ h)
    rw [if_neg he] at ha hb
    cases ha; cases hb
    trivial

theorem skip_bahe {E : Ending} : Skip E (rawC .Bahe) := by
  intro i a hf ha
  unfold rawC at ha
  split at ha
  · cases ha; exact .inl ⟨_, rfl⟩
  · rename_i t ts hl
    by_cases he : t.selmaho = .Bahe
    · rw [if_pos he] at ha
      cases ha
      refine .inr ⟨_, _, rfl, ?_⟩
      intro t' ht'
      refine hf t' ?_
      rw [hl, List.dropWhile_cons, if_pos (by simp [he])]
      exact ht'
    · rw [if_neg he] at ha
      cases ha; exact .inl ⟨_, rfl⟩

theorem skip_loop {E : Ending} {p : CParser} (hp : Skip E p) (k : NomKind) : ∀ (fuel : Nat) (s : Toks) (acc : List Val)
    (a : CRes), E.HeadFree s.list → manyLoop p k fuel s acc = .val a →
    (∃ e, a = .error e) ∨ ∃ r vs, a = .ok r vs ∧ E.HeadFree r.list := by
  intro fuel
  induction fuel with
  | zero => intro s acc a _ ha; simp [manyLoop] at ha
  | succ fuel ih =>
    intro s acc a hf ha
    obtain ⟨x, hx, ha⟩ := loop_val ha
    rcases hp _ _ hf hx with ⟨e, rfl⟩ | ⟨r, vs, rfl, hr⟩
    · exact .inr ⟨_, _, ha, hf⟩
    · simp only at ha
      split at ha
      · exact .inl ha
      · exact ih _ _ _ hr ha

theorem simu_raw {E : Ending} {s : Selmaho} (h : E.stops s = false) : Simu E (rawC s) := by
  intro ptr l a b hf ha hb
  unfold rawC at ha hb
  cases l with
  | nil =>
    cases ha
    simp only [List.nil_append, Ending.tail] at hb
    rw [if_neg (fun he => by rw [← he, E.stop_stops] at h; cases h)] at hb
    cases hb; trivial
  | cons t ts =>
    simp only [List.cons_append] at ha hb
    by_cases he : t.selmaho = s
    · rw [if_pos he] at ha hb
      cases ha; cases hb
      exact ⟨rfl, rfl, [t], rfl⟩
    · rw [if_neg he] at ha hb
      cases ha; cases hb
      trivial

theorem one_any (k : LeafKind) : One (anyC k) := by
  intro s a h
  unfold anyC at h
  split at h
  · cases h; exact .inl ⟨_, rfl⟩
  · rename_i t ts hl
    cases h; exact .inr ⟨t, ts, _, hl, rfl⟩

theorem dead_seq_left {E : Ending} {p q : CParser} (hp : Dead E p) : Dead E (seqC p q) := by
  intro s a hf h
  obtain ⟨x, hx, h⟩ := seq_val h
  obtain ⟨e, rfl⟩ := hp _ _ hf hx
  exact ⟨e, h⟩

theorem dead_seq_right {E : Ending} {p q : CParser} (hp : Skip E p) (hq : Dead E q) : Dead E (seqC p q) := by
  intro s a hf h
  obtain ⟨x, hx, h⟩ := seq_val h
  rcases hp _ _ hf hx with ⟨e, rfl⟩ | ⟨r, vs, rfl, hr⟩
  · exact ⟨e, h⟩
  · obtain ⟨y, hy, h⟩ := h
    obtain ⟨e, rfl⟩ := hq _ _ hr hy
    exact ⟨e, h⟩

theorem skip_seq {E : Ending} {p q : CParser} (hp : Skip E p) (hq : Skip E q) : Skip E (seqC p q) := by
  intro s a hf h
  obtain ⟨x, hx, h⟩ := seq_val h
  rcases hp _ _ hf hx with ⟨e, rfl⟩ | ⟨r, vs, rfl, hr⟩
  · exact .inl ⟨e, h⟩
  · obtain ⟨y, hy, h⟩ := h
    rcases hq _ _ hr hy with ⟨e, rfl⟩ | ⟨r', vs', rfl, hr'⟩
    · exact .inl ⟨e, h⟩
    · exact .inr ⟨_, _, h, hr'⟩

theorem meant {E : Ending} {T : EndTab} : Inv (Meant E T) where
  eps := ⟨nofun, nofun, fun _ s a hf h => by cases h; exact .inr ⟨_, _, rfl, hf⟩, nofun, fun _ ptr l a b _ ha hb => by
    cases ha; cases hb; exact ⟨rfl, rfl, [], rfl⟩⟩
  raw s := by
    refine ⟨nofun, ?_, ?_, ?_, ?_⟩
    · intro h
      simp only [deadE, List.contains_iff_mem, Bool.and_eq_true, bne_iff_ne, ne_eq] at h
      exact dead_raw h.1 h.2
    · intro h
      simp only [deadE, List.contains_iff_mem, Bool.or_eq_true, beq_iff_eq] at h
      by_cases hb : s = .Bahe
      · subst hb; exact skip_bahe
      · exact (dead_raw (h.resolve_right hb) hb).skip
    · intro h ptr l a b hf ha hb
      simp only [simE, List.contains_iff_mem] at h
      exact fails_raw h ptr l a b hf ha hb
    · intro h
      simp only [simE, Bool.not_eq_true'] at h
      exact simu_raw h
  any k := ⟨fun _ => one_any k, nofun, nofun, nofun, nofun⟩
  seq {a b p q} ha hb := by
    have hfail : (simE T E.ts E.hs E.stops (.seq a b)).2 = true → Fails E (seqC p q) := by
      intro h
      simp only [simE, Bool.or_eq_true, Bool.and_eq_true] at h
      rcases h with (h | h) | h
      · exact fails_seq_left (ha.fail h)
      · exact fails_seq (ha.sim h.1) (hb.fail h.2)
      · exact fails_one (ha.one h.1) (hb.dead h.2)
    refine ⟨nofun, ?_, ?_, hfail, ?_⟩
    · intro h
      simp only [deadE, Bool.or_eq_true, Bool.and_eq_true] at h
      rcases h with h | h
      · exact dead_seq_left (ha.dead h)
      · exact dead_seq_right (ha.skip h.1) (hb.dead h.2)
    · intro h
      simp only [deadE, Bool.and_eq_true] at h
      exact skip_seq (ha.skip h.1) (hb.skip h.2)
    · intro h
      rw [simE] at h
      simp only [Bool.or_eq_true (_ && _), Bool.and_eq_true] at h
      rcases h with h | h
      · exact simu_seq (ha.sim h.1) (hb.sim h.2)
      · exact (hfail h).sim
  alt {a b p q} ha hb := by
    refine ⟨nofun, ?_, nofun, ?_, ?_⟩
    · intro h s r hf hr
      simp only [deadE, Bool.and_eq_true] at h
      obtain ⟨x, hx, hr⟩ := alt_val hr
      obtain ⟨e, rfl⟩ := ha.dead h.1 _ _ hf hx
      obtain ⟨y, hy, hr⟩ := hr
      obtain ⟨e', rfl⟩ := hb.dead h.2 _ _ hf hy
      exact hr
    · intro h ptr l r r' hf hr hr'
      simp only [simE, Bool.and_eq_true] at h
      obtain ⟨x, hx, hr⟩ := alt_val hr
      obtain ⟨y, hy, hr'⟩ := alt_val hr'
      have ht := ha.fail h.1 _ _ _ _ hf hx hy
      cases x <;> cases y <;> simp only [Fail2] at ht <;> try exact ht.elim
      · obtain ⟨x, hx, hr⟩ := hr
        obtain ⟨y, hy, hr'⟩ := hr'
        have ht := hb.fail h.2 _ _ _ _ hf hx hy
        cases x <;> cases y <;> simp only [Fail2] at ht <;> try exact ht.elim
        · obtain ⟨_, rfl⟩ := hr; obtain ⟨_, rfl⟩ := hr'; trivial
        · simp only at hr hr'; subst hr; subst hr'; trivial
      · simp only at hr hr'; subst hr; subst hr'; trivial
    · intro h ptr l r r' hf hr hr'
      simp only [simE, Bool.and_eq_true] at h
      obtain ⟨x, hx, hr⟩ := alt_val hr
      obtain ⟨y, hy, hr'⟩ := alt_val hr'
      have ht := ha.sim h.1 _ _ _ _ hf hx hy
      cases x <;> cases y <;> simp only [Twin] at ht <;> try exact ht.elim
      · simp only at hr hr'; subst hr; subst hr'; exact ht
      · obtain ⟨x, hx, hr⟩ := hr
        obtain ⟨y, hy, hr'⟩ := hr'
        have ht := hb.sim h.2 _ _ _ _ hf hx hy
        cases x <;> cases y <;> simp only [Twin] at ht <;> try exact ht.elim
        · simp only at hr hr'; subst hr; subst hr'; exact ht
        · obtain ⟨_, rfl⟩ := hr; obtain ⟨_, rfl⟩ := hr'; trivial
        · simp only at hr hr'; subst hr; subst hr'; trivial
      · simp only at hr hr'; subst hr; subst hr'; trivial
  opt {a p} ha := by
    refine ⟨nofun, nofun, ?_, nofun, ?_⟩
    · intro h s r hf hr
      obtain ⟨x, hx, hr⟩ := opt_val hr
      rcases ha.skip h _ _ hf hx with ⟨e, rfl⟩ | ⟨c, vs, rfl, hc⟩
      · exact .inr ⟨_, _, hr, hf⟩
      · exact .inr ⟨_, _, hr, hc⟩
    · intro h ptr l r r' hf hr hr'
      obtain ⟨x, hx, hr⟩ := opt_val hr
      obtain ⟨y, hy, hr'⟩ := opt_val hr'
      have ht := ha.sim h _ _ _ _ hf hx hy
      cases x <;> cases y <;> simp only [Twin] at ht <;> try exact ht.elim
      · simp only at hr hr'; subst hr; subst hr'; obtain ⟨rfl, h2⟩ := ht; exact ⟨rfl, h2⟩
      · simp only at hr hr'; subst hr; subst hr'; exact ⟨rfl, rfl, [], rfl⟩
      · simp only at hr hr'; subst hr; subst hr'; trivial
  many0 {a p} ha := by
    refine ⟨nofun, nofun, ?_, nofun, ?_⟩
    · intro h s r hf hr
      exact skip_loop (ha.skip h) .many0 _ s [] r hf hr
    · intro h ptr l r r' hf hr hr'
      exact simu_loop (ha.sim h) .many0 _ _ _ _ _ _ _ hf hr hr'
  many1 {a p} ha := by
    refine ⟨nofun, ?_, nofun, ?_, ?_⟩
    · intro h s r hf hr
      obtain ⟨x, hx, hr⟩ := many1_val hr
      obtain ⟨e, rfl⟩ := ha.dead h _ _ hf hx
      exact ⟨_, hr⟩
    · intro h ptr l r r' hf hr hr'
      obtain ⟨x, hx, hr⟩ := many1_val hr
      obtain ⟨y, hy, hr'⟩ := many1_val hr'
      have ht := ha.fail h _ _ _ _ hf hx hy
      cases x <;> cases y <;> simp only [Fail2] at ht <;> try exact ht.elim
      · simp only at hr hr'; subst hr; subst hr'; trivial
      · simp only at hr hr'; subst hr; subst hr'; trivial
    · intro h ptr l r r' hf hr hr'
      obtain ⟨x, hx, hr⟩ := many1_val hr
      obtain ⟨y, hy, hr'⟩ := many1_val hr'
      have ht := ha.sim h _ _ _ _ hf hx hy
      cases x <;> cases y <;> simp only [Twin] at ht <;> try exact ht.elim
      · rename_i c vs c' vs'
        obtain ⟨rfl, rfl, w, hw⟩ := ht
        have hf' : E.Free c.list := by rw [hw] at hf; exact hf.of_append
        have ht := simu_loop (ha.sim h) .many1 (c.list.length + 1) _ c.ptr c.list _ r _ hf' (by cases c; exact hr) hr'
        cases r <;> cases r' <;> simp only [Twin] at ht ⊢ <;> try exact ht.elim
        obtain ⟨h1, h2, w', h3⟩ := ht
        exact ⟨h1, h2, w ++ w', by rw [hw, h3, List.append_assoc]⟩
      · simp only at hr hr'; subst hr; subst hr'; trivial
      · simp only at hr hr'; subst hr; subst hr'; trivial
  manyTill _ _ := ⟨nofun, nofun, nofun, nofun, nofun⟩
  not {a p} ha := by
    refine ⟨nofun, nofun, ?_, nofun, ?_⟩
    · intro h s r hf hr
      obtain ⟨x, hx, hr⟩ := not_val hr
      rcases ha.skip h _ _ hf hx with ⟨e, rfl⟩ | ⟨c, vs, rfl, hc⟩
      · exact .inr ⟨_, _, hr, hf⟩
      · exact .inl hr
    · intro h ptr l r r' hf hr hr'
      obtain ⟨x, hx, hr⟩ := not_val hr
      obtain ⟨y, hy, hr'⟩ := not_val hr'
      have ht := ha.sim h _ _ _ _ hf hx hy
      cases x <;> cases y <;> simp only [Twin] at ht <;> try exact ht.elim
      · obtain ⟨_, rfl⟩ := hr; obtain ⟨_, rfl⟩ := hr'; trivial
      · simp only at hr hr'; subst hr; subst hr'; exact ⟨rfl, rfl, [], rfl⟩
      · simp only at hr hr'; subst hr; subst hr'; trivial
  cut {a p} ha := by
    refine ⟨nofun, nofun, nofun, ?_, ?_⟩
    · intro h ptr l r r' hf hr hr'
      obtain ⟨x, hx, hr⟩ := cut_val hr
      obtain ⟨y, hy, hr'⟩ := cut_val hr'
      have ht := ha.fail h _ _ _ _ hf hx hy
      cases x <;> cases y <;> simp only [Fail2] at ht <;> try exact ht.elim
      · simp only at hr hr'; subst hr; subst hr'; trivial
      · simp only at hr hr'; subst hr; subst hr'; trivial
    · intro h ptr l r r' hf hr hr'
      obtain ⟨x, hx, hr⟩ := cut_val hr
      obtain ⟨y, hy, hr'⟩ := cut_val hr'
      have ht := ha.sim h _ _ _ _ hf hx hy
      cases x <;> cases y <;> simp only [Twin] at ht <;> try exact ht.elim
      · simp only at hr hr'; subst hr; subst hr'; exact ht
      · simp only at hr hr'; subst hr; subst hr'; trivial
      · simp only at hr hr'; subst hr; subst hr'; trivial
  mustConsume n {a p} ha := by
    refine ⟨nofun, ?_, nofun, ?_, ?_⟩
    · intro h s r hf hr
      obtain ⟨x, hx, hr⟩ := must_val hr
      obtain ⟨e, rfl⟩ := ha.dead h _ _ hf hx
      exact ⟨_, hr⟩
    · intro h ptr l r r' hf hr hr'
      obtain ⟨x, hx, hr⟩ := must_val hr
      obtain ⟨y, hy, hr'⟩ := must_val hr'
      have ht := ha.fail h _ _ _ _ hf hx hy
      cases x <;> cases y <;> simp only [Fail2] at ht <;> try exact ht.elim
      · simp only at hr hr'; subst hr; subst hr'; trivial
      · simp only at hr hr'; subst hr; subst hr'; trivial
    · intro h ptr l r r' hf hr hr'
      obtain ⟨x, hx, hr⟩ := must_val hr
      obtain ⟨y, hy, hr'⟩ := must_val hr'
      have ht := ha.sim h _ _ _ _ hf hx hy
      cases x <;> cases y <;> simp only [Twin] at ht <;> try exact ht.elim
      · rename_i c vs c' vs'
        obtain ⟨rfl, rfl, w, hw⟩ := ht
        simp only [List.length_append, Nat.add_right_cancel_iff] at hr hr'
        by_cases hl : c.list.length = l.length
        · rw [if_pos hl] at hr hr'
          obtain ⟨_, rfl⟩ := hr; obtain ⟨_, rfl⟩ := hr'; trivial
        · rw [if_neg hl] at hr hr'
          subst hr; subst hr'; exact ⟨rfl, rfl, w, hw⟩
      · simp only at hr hr'; subst hr; subst hr'; trivial
      · simp only at hr hr'; subst hr; subst hr'; trivial
  postCond c {a p} ha := by
    refine ⟨?_, ?_, nofun, ?_, ?_⟩
    · intro h s r hr
      obtain ⟨x, hx, hr⟩ := post_val hr
      rcases ha.one h _ _ hx with ⟨e, rfl⟩ | ⟨t, ts, vs, h1, rfl⟩
      · exact .inl ⟨_, hr⟩
      · simp only at hr
        split at hr
        · exact .inr ⟨t, ts, vs, h1, hr⟩
        · exact .inl hr
    · intro h s r hf hr
      obtain ⟨x, hx, hr⟩ := post_val hr
      obtain ⟨e, rfl⟩ := ha.dead h _ _ hf hx
      exact ⟨_, hr⟩
    · intro h ptr l r r' hf hr hr'
      obtain ⟨x, hx, hr⟩ := post_val hr
      obtain ⟨y, hy, hr'⟩ := post_val hr'
      have ht := ha.fail h _ _ _ _ hf hx hy
      cases x <;> cases y <;> simp only [Fail2] at ht <;> try exact ht.elim
      · simp only at hr hr'; subst hr; subst hr'; trivial
      · simp only at hr hr'; subst hr; subst hr'; trivial
    · intro h ptr l r r' hf hr hr'
      obtain ⟨x, hx, hr⟩ := post_val hr
      obtain ⟨y, hy, hr'⟩ := post_val hr'
      have ht := ha.sim h _ _ _ _ hf hx hy
      cases x <;> cases y <;> simp only [Twin] at ht <;> try exact ht.elim
      · rename_i x vs x' vs'
        obtain ⟨rfl, rfl, w, hw⟩ := ht
        simp only at hr hr'
        by_cases hl : c.holds vs' = true
        · rw [if_pos hl] at hr hr'
          subst hr; subst hr'; exact ⟨rfl, rfl, w, hw⟩
        · rw [if_neg hl] at hr hr'
          obtain ⟨_, rfl⟩ := hr; obtain ⟨_, rfl⟩ := hr'; trivial
      · simp only at hr hr'; subst hr; subst hr'; trivial
      · simp only at hr hr'; subst hr; subst hr'; trivial
  wrap sh {a p} ha := by
    refine ⟨?_, ?_, ?_, ?_, ?_⟩
    · intro h s r hr
      obtain ⟨x, hx, hr⟩ := wrap_val hr
      rcases ha.one h _ _ hx with ⟨e, rfl⟩ | ⟨t, ts, vs, h1, rfl⟩
      · exact .inl ⟨_, hr⟩
      · exact .inr ⟨t, ts, _, h1, hr⟩
    · intro h s r hf hr
      obtain ⟨x, hx, hr⟩ := wrap_val hr
      obtain ⟨e, rfl⟩ := ha.dead h _ _ hf hx
      exact ⟨_, hr⟩
    · intro h s r hf hr
      obtain ⟨x, hx, hr⟩ := wrap_val hr
      rcases ha.skip h _ _ hf hx with ⟨e, rfl⟩ | ⟨c, vs, rfl, hc⟩
      · exact .inl ⟨_, hr⟩
      · exact .inr ⟨_, _, hr, hc⟩
    · intro h ptr l r r' hf hr hr'
      obtain ⟨x, hx, hr⟩ := wrap_val hr
      obtain ⟨y, hy, hr'⟩ := wrap_val hr'
      have ht := ha.fail h _ _ _ _ hf hx hy
      cases x <;> cases y <;> simp only [Fail2] at ht <;> try exact ht.elim
      · simp only at hr hr'; subst hr; subst hr'; trivial
      · simp only at hr hr'; subst hr; subst hr'; trivial
    · intro h ptr l r r' hf hr hr'
      obtain ⟨x, hx, hr⟩ := wrap_val hr
      obtain ⟨y, hy, hr'⟩ := wrap_val hr'
      have ht := ha.sim h _ _ _ _ hf hx hy
      cases x <;> cases y <;> simp only [Twin] at ht <;> try exact ht.elim
      · simp only at hr hr'; subst hr; subst hr'; obtain ⟨rfl, h2⟩ := ht; exact ⟨rfl, h2⟩
      · simp only at hr hr'; subst hr; subst hr'; trivial
      · simp only at hr hr'; subst hr; subst hr'; trivial

/-- The tables are right about a grammar. -/
structure EndCert (g : CRule → Gr) (E : Ending) (T : EndTab) : Prop where
  one : ∀ r, T.one r = true → oneE T (g r) = true
  dead : ∀ r, T.dead r = true → (deadE T E.hs (g r)).1 = true
  skip : ∀ r, T.skip r = true → (deadE T E.hs (g r)).2 = true
  fail : ∀ r, T.fail r = true → (simE T E.ts E.hs E.stops (g r)).2 = true
  sim : ∀ r, T.sim r = true → (simE T E.ts E.hs E.stops (g r)).1 = true

theorem evalCst_meant {g : CRule → Gr} {E : Ending} {T : EndTab} (h : EndCert g E T) (fuel : Nat) (r : CRule) :
    Meant E T (.call r) (evalCst g fuel r) := by
  refine meant.evalCst (fun r => ⟨?_, ?_, ?_, ?_, ?_⟩) (fun r p hm => ⟨?_, ?_, ?_, ?_, ?_⟩) fuel r
  · intro _ s a h; cases h
  · intro _ s a _ h; cases h
  · intro _ s a _ h; cases h
  · intro _ _ _ _ _ _ h; cases h
  · intro _ _ _ _ _ _ h; cases h
  · intro h'; exact hm.one (h.one r h')
  · intro h'; exact hm.dead (h.dead r h')
  · intro h'
    simp only [deadE, Bool.or_eq_true] at h'
    rcases h' with h' | h'
    · exact (hm.dead (h.dead r h')).skip
    · exact hm.skip (h.skip r h')
  · intro h'; exact hm.fail (h.fail r h')
  · intro h'
    simp only [simE, Bool.or_eq_true] at h'
    rcases h' with h' | h'
    · exact hm.sim (h.sim r h')
    · exact (hm.fail (h.fail r h')).sim

/-! ### Tables for the grammar -/

/-- Words after which, or before which, a word is taken as it comes. -/
def quoters : List Selmaho := [.Zo, .Zoi, .Lohu, .Zei, .Bu]

/-- Those that have to do with the word before them. -/
def binders : List Selmaho := [.Zei, .Bu]

def unusedTab : EndTab where
  one := fun r => r == .BuInner
  dead := fun r => match r with
    | .word s => s == .Bu || s == .Zei
    | .ZeiTail => true
    | .ZeiBuInner => true
    | _ => false
  skip := fun r => r == .word .Bahe
  fail := fun r => match r with
    | .word s => quoters.contains s
    | .ZeiClause => true
    | .ZeiTail => true
    | .ZeiBuInner => true
    | .ZoSumti => true
    | .ZoiSumti => true
    | .LohuSumti => true
    | _ => false
  sim := fun r => match r with
    | .word s => !unusedB s && !quoters.contains s
    | .BuInner => false
    | .ZoiDelimiter => false
    | .ZoiText => false
    | _ => true

theorem unused_one (r : CRule) : unusedTab.one r = true → oneE unusedTab (cst r) = true := by
  cases r with
  | word s => cases s <;> decide +kernel
  | _ => decide +kernel

theorem unused_dead (r : CRule) : unusedTab.dead r = true → (deadE unusedTab binders (cst r)).1 = true := by
  cases r with
  | word s => cases s <;> decide +kernel
  | _ => decide +kernel

theorem unused_skip (r : CRule) : unusedTab.skip r = true → (deadE unusedTab binders (cst r)).2 = true := by
  cases r with
  | word s => cases s <;> decide +kernel
  | _ => decide +kernel

theorem unused_fail (r : CRule) : unusedTab.fail r = true → (simE unusedTab quoters binders unusedB (cst r)).2 = true := by
  cases r with
  | word s => cases s <;> decide +kernel
  | _ => decide +kernel

theorem unused_sim (r : CRule) : unusedTab.sim r = true → (simE unusedTab quoters binders unusedB (cst r)).1 = true := by
  cases r with
  | word s => cases s <;> decide +kernel
  | _ => decide +kernel

theorem runCst_meant {E : Ending} {T : EndTab} (h : EndCert cst E T) (r : CRule) : Meant E T (.call r) (runCst r) := by
  have both : ∀ {P : CRes → CRes → Prop} {ptr l a b}, (∀ fuel, evalCst cst fuel r ⟨ptr, l⟩ = .val a →
      evalCst cst fuel r ⟨ptr, l ++ E.tail⟩ = .val b → P a b) →
      runCst r ⟨ptr, l⟩ = .val a → runCst r ⟨ptr, l ++ E.tail⟩ = .val b → P a b := by
    intro P ptr l a b hP ha hb
    rw [runCst_def] at ha hb
    rcases Nat.le_total (cstFuel ⟨ptr, l⟩) (cstFuel ⟨ptr, l ++ E.tail⟩) with hl | hl
    · exact hP _ (evalCst_extends cst hl r _ _ ha) hb
    · exact hP _ ha (evalCst_extends cst hl r _ _ hb)
  refine ⟨?_, ?_, ?_, ?_, ?_⟩
  · intro h' s a ha
    rw [runCst_def] at ha
    exact (evalCst_meant h _ r).one h' s a ha
  · intro h' s a hf ha
    rw [runCst_def] at ha
    exact (evalCst_meant h _ r).dead h' s a hf ha
  · intro h' s a hf ha
    rw [runCst_def] at ha
    exact (evalCst_meant h _ r).skip h' s a hf ha
  · intro h' ptr l a b hf ha hb
    exact both (P := Fail2) (fun fuel h1 h2 => (evalCst_meant h fuel r).fail h' ptr l a b hf h1 h2) ha hb
  · intro h' ptr l a b hf ha hb
    exact both (P := Twin E.tail l) (fun fuel h1 h2 => (evalCst_meant h fuel r).sim h' ptr l a b hf h1 h2) ha hb

/-- On `l ++ tail` the parser does what it does on `l`. -/
theorem runCst_simu {E : Ending} {T : EndTab} (h : EndCert cst E T) (e : Gr) (hr : (simE T E.ts E.hs E.stops e).1 = true) :
    Simu E (evalGr runCst e) := (meant.evalGr (runCst_meant h) e).sim hr

/-- The ending that begins with a word the grammar has no use for. -/
def unusedEnding (stop : Token) (post : List Token) (hs : unusedB stop.selmaho = true) (hp : HeadFree binders post) : Ending where
  ts := quoters
  stops := unusedB
  stop := stop
  stop_stops := hs
  post := post
  stop_free := by
    intro h
    have : ∀ s ∈ quoters, unusedB s = false := by decide
    rw [this _ h] at hs
    cases hs
  hs := binders
  hs_sub := by decide
  post_free := hp

theorem text_simu (stop : Token) (post : List Token) (hs : unusedB stop.selmaho = true) (hp : HeadFree binders post) :
    Simu (unusedEnding stop post hs hp) (runCst .Text) :=
  runCst_simu (E := unusedEnding stop post hs hp) ⟨unused_one, unused_dead, unused_skip, unused_fail, unused_sim⟩ (.call .Text)
    (show (simE unusedTab quoters binders unusedB (.call .Text)).1 = true by decide +kernel)

/-! ### A final `fa'o` -/

/-- The words that may contain a text, and `fa'o`. -/
def texters : List Selmaho := [.Zo, .Zoi, .Lohu, .Zei, .Bu, .To, .Lu, .Faho]

def fahoTab : EndTab where
  one := fun r => r == .BuInner
  dead := unusedTab.dead
  skip := unusedTab.skip
  fail := fun r => match r with
    | .word s => s != .Faho && texters.contains s
    | .ZeiClause => true
    | .ZeiTail => true
    | .ZeiBuInner => true
    | .ZoSumti => true
    | .ZoiSumti => true
    | .LohuSumti => true
    | .LuSumti => true
    | _ => false
  sim := fun r => match r with
    | .word s => s != .Faho && !texters.contains s
    | .BuInner => false
    | .ZoiDelimiter => false
    | .ZoiText => false
    | .Text => false
    | _ => true

/-- Those of `texters` that are not `fa'o` itself. -/
def texters' : List Selmaho := [.Zo, .Zoi, .Lohu, .Zei, .Bu, .To, .Lu]

theorem faho_one (r : CRule) : fahoTab.one r = true → oneE fahoTab (cst r) = true := by
  cases r with
  | word s => cases s <;> decide +kernel
  | _ => decide +kernel

theorem faho_dead (r : CRule) : fahoTab.dead r = true → (deadE fahoTab binders (cst r)).1 = true := by
  cases r with
  | word s => cases s <;> decide +kernel
  | _ => decide +kernel

theorem faho_skip (r : CRule) : fahoTab.skip r = true → (deadE fahoTab binders (cst r)).2 = true := by
  cases r with
  | word s => cases s <;> decide +kernel
  | _ => decide +kernel

theorem faho_fail (r : CRule) : fahoTab.fail r = true → (simE fahoTab texters' binders (· == .Faho) (cst r)).2 = true := by
  cases r with
  | word s => cases s <;> decide +kernel
  | _ => decide +kernel

theorem faho_sim (r : CRule) : fahoTab.sim r = true → (simE fahoTab texters' binders (· == .Faho) (cst r)).1 = true := by
  cases r with
  | word s => cases s <;> decide +kernel
  | _ => decide +kernel


/-- The ending that consists of `fa'o`. -/
def fahoEnding (stop : Token) (hs : stop.selmaho = .Faho) : Ending where
  ts := texters'
  stops := (· == .Faho)
  stop := stop
  stop_stops := by simp [hs]
  post := []
  stop_free := by rw [hs]; decide
  hs := binders
  hs_sub := by decide
  post_free := fun t ht => by simp at ht

/-- The node of a lone `fa'o`. -/
def fahoVal (t : Token) : Val := .node (.word .Faho) [.many [], .leaf .token t, .many []]

/-- The outcomes without and with the final `fa'o`. -/
def FahoTwin (stop : Token) (l : List Token) : CRes → CRes → Prop
  | .ok r vs, b => (r.list = [] ∧ ∃ r' pre, vs = pre ++ [.many []] ∧ b = .ok r' (pre ++ [.many [fahoVal stop]]) ∧ r'.list = []) ∨
      (r.list ≠ [] ∧ ((∃ t ∈ l, t.selmaho = .Bahe) ∨ ∃ r' vs', b = .ok r' vs' ∧ r'.list ≠ []))
  | .error _, .error _ => True
  | .failure _, .failure _ => True
  | _, _ => False

theorem runCst_faho (ptr : Nat) (t : Token) (h : t.selmaho = .Faho) :
    runCst (.word .Faho) ⟨ptr, [t]⟩ = .val (.ok ⟨ptr + 1, []⟩ [fahoVal t]) := by
  have h0 : runCst (.word .Faho) ⟨0, [⟨false, .Faho, ⟨0, 0⟩⟩]⟩ = .val (.ok ⟨1, []⟩ [fahoVal ⟨false, .Faho, ⟨0, 0⟩⟩]) := by
    rw [runCst_eq]
    rfl
  obtain ⟨x, s, sp⟩ := t
  simp only at h
  subst h
  have := runCst_move (f := fun t => ⟨x, t.selmaho, sp⟩) (fun t => rfl) ptr (.word .Faho) ⟨0, [⟨false, .Faho, ⟨0, 0⟩⟩]⟩
  rw [h0] at this
  simp only [Toks.move, List.map, Nat.zero_add, Exec.map, CRes.move, relabelL, relabel, fahoVal] at this
  rw [this, fahoVal, Nat.add_comm]

/-- Tables for: no `fa'o` is found where there is none. -/
def noFahoTab : EndTab where
  one := fun _ => false
  dead := fun r => match r with
    | .word s => s == .Bu || s == .Zei || s == .Faho
    | _ => false
  skip := fun r => r == .word .Bahe
  fail := fun _ => false
  sim := fun _ => false

/-- The words before `fa'o`. -/
def noFahoEnding : Ending where
  ts := [.Zei, .Bu, .Faho]
  stops := fun s => s == .Si
  stop := ⟨false, .Si, ⟨0, 0⟩⟩
  stop_stops := by decide
  post := []
  stop_free := by decide
  hs := [.Zei, .Bu, .Faho]
  hs_sub := by decide
  post_free := fun t ht => by simp at ht

theorem noFaho_dead (r : CRule) : noFahoTab.dead r = true → (deadE noFahoTab [.Zei, .Bu, .Faho] (cst r)).1 = true := by
  cases r with
  | word s => cases s <;> decide +kernel
  | _ => decide +kernel

theorem noFaho_skip (r : CRule) : noFahoTab.skip r = true → (deadE noFahoTab [.Zei, .Bu, .Faho] (cst r)).2 = true := by
  cases r with
  | word s => cases s <;> decide +kernel
  | _ => decide +kernel

theorem runCst_no_faho {s : Toks} {a : CRes} (h : HeadFree [.Zei, .Bu, .Faho] s.list) (ha : runCst (.word .Faho) s = .val a) :
    ∃ e, a = .error e :=
  (runCst_meant (E := noFahoEnding) (T := noFahoTab) ⟨nofun, noFaho_dead, noFaho_skip, nofun, nofun⟩ (.word .Faho)).dead
    (by decide) s a h ha

theorem headFree_of {ts : List Selmaho} {l : List Token} (h : ∀ t ∈ l, t.selmaho ∉ ts) : HeadFree ts l := by
  intro t ht
  exact h t ((List.dropWhile_sublist _).subset (List.mem_of_mem_head? ht))

def Simu' (stop : Token) (p : CParser) : Prop := ∀ ptr l a b, (∀ t ∈ l, t.selmaho ∉ texters) → p ⟨ptr, l⟩ = .val a →
  p ⟨ptr, l ++ [stop]⟩ = .val b → FahoTwin stop l a b

theorem simu'_faho {stop : Token} (hs : stop.selmaho = .Faho) : Simu' stop (optC (runCst (.word .Faho))) := by
  intro ptr l a b hf ha hb
  obtain ⟨x, hx, ha⟩ := opt_val ha
  obtain ⟨y, hy, hb⟩ := opt_val hb
  have hsub : ∀ s ∈ [Selmaho.Zei, .Bu, .Faho], s ∈ texters := by decide
  obtain ⟨e, rfl⟩ := runCst_no_faho (headFree_of (fun t ht hx => hf t ht (hsub _ hx))) hx
  simp only at ha
  subst ha
  cases l with
  | nil =>
    rw [List.nil_append, runCst_faho ptr stop hs] at hy
    cases hy
    exact .inl ⟨rfl, _, [], rfl, hb, rfl⟩
  | cons t l =>
    refine .inr ⟨by simp, ?_⟩
    by_cases hba : t.selmaho = .Bahe
    · exact .inl ⟨t, by simp, hba⟩
    · right
      obtain ⟨e', rfl⟩ := runCst_no_faho (s := ⟨ptr, t :: l ++ [stop]⟩) (by
        intro t' ht'
        simp only [List.cons_append, List.dropWhile_cons] at ht'
        rw [if_neg (by simpa using hba)] at ht'
        cases ht'
        exact fun hx => hf t (by simp) (hsub _ hx)) hy
      exact ⟨_, _, hb, by simp⟩

theorem simu'_seq {stop : Token} (hs : stop.selmaho = .Faho) {p q : CParser} (hp : Simu (fahoEnding stop hs) p) (hq : Simu' stop q) :
    Simu' stop (seqC p q) := by
  intro ptr l a b hf ha hb
  obtain ⟨x, hx, ha⟩ := seq_val ha
  obtain ⟨y, hy, hb⟩ := seq_val hb
  have hsub : ∀ s ∈ texters', s ∈ texters := by decide
  have ht := hp ptr l x y (fun t ht hx => hf t ht (hsub _ hx)) hx hy
  cases x <;> cases y <;> simp only [Twin] at ht <;> try exact ht.elim
  · rename_i r vs r' vs'
    obtain ⟨rfl, rfl, w, hw⟩ := ht
    obtain ⟨x, hx, ha⟩ := ha
    obtain ⟨y, hy, hb⟩ := hb
    have ht := hq r.ptr r.list x y (fun t ht => hf t (by rw [hw]; simp [ht])) (by cases r; exact hx) hy
    cases x with
    | ok r1 vs1 =>
      simp only at ha
      subst ha
      rcases ht with ⟨h1, r', pre, rfl, rfl, h2⟩ | ⟨h1, h2⟩
      · exact .inl ⟨h1, r', vs' ++ pre, by simp, by simpa using hb, h2⟩
      · refine .inr ⟨h1, ?_⟩
        rcases h2 with ⟨t, h2, h3⟩ | ⟨r', vs2, rfl, h3⟩
        · exact .inl ⟨t, by rw [hw]; simp [h2], h3⟩
        · exact .inr ⟨_, _, hb, h3⟩
    | error e =>
      cases y <;> simp only [FahoTwin] at ht
      simp only at ha hb; subst ha; subst hb; trivial
    | failure e =>
      cases y <;> simp only [FahoTwin] at ht
      simp only at ha hb; subst ha; subst hb; trivial
  · simp only at ha hb; subst ha; subst hb; trivial
  · simp only at ha hb; subst ha; subst hb; trivial

theorem fahoCert {stop : Token} (hs : stop.selmaho = .Faho) : EndCert cst (fahoEnding stop hs) fahoTab :=
  ⟨faho_one, faho_dead, faho_skip, faho_fail, faho_sim⟩

/-- The fields of `Text` before the last one. -/
def textStart : List Gr := [.opt (.call .Indicators), .call .Frees, .opt (.call .ParagraphSeparator), .opt (.call .Paragraphs)]

theorem cst_text : cst .Text = .wrap (.node .Text) (textStart.foldr .seq (.opt (.call (.word .Faho)))) := rfl

theorem simu'_fields {stop : Token} (hs : stop.selmaho = .Faho) (l : List Gr)
    (hl : ∀ e ∈ l, (simE fahoTab texters' binders (· == .Faho) e).1 = true) :
    Simu' stop (evalGr runCst (l.foldr .seq (.opt (.call (.word .Faho))))) := by
  induction l with
  | nil => exact simu'_faho hs
  | cons e l ih =>
    exact simu'_seq hs (runCst_simu (fahoCert hs) e (hl e (by simp))) (ih (fun e he => hl e (by simp [he])))

/-- Parsing a text without and with a final `fa'o`. -/
theorem runCst_text_faho {stop : Token} (hs : stop.selmaho = .Faho) {ptr : Nat} {l : List Token} {a b : CRes}
    (hf : ∀ t ∈ l, t.selmaho ∉ texters) (ha : runCst .Text ⟨ptr, l⟩ = .val a) (hb : runCst .Text ⟨ptr, l ++ [stop]⟩ = .val b) :
    (∃ r r' fs, a = .ok r [.node .Text (fs ++ [.many []])] ∧ b = .ok r' [.node .Text (fs ++ [.many [fahoVal stop]])] ∧
      r.list = [] ∧ r'.list = []) ∨
    (∃ r vs, a = .ok r vs ∧ r.list ≠ [] ∧ ((∃ t ∈ l, t.selmaho = .Bahe) ∨ ∃ r' vs', b = .ok r' vs' ∧ r'.list ≠ [])) ∨
    (∃ e e', a = .error e ∧ b = .error e') ∨ (∃ e e', a = .failure e ∧ b = .failure e') := by
  rw [runCst_eq, cst_text] at ha hb
  obtain ⟨x, hx, ha⟩ := wrap_val ha
  obtain ⟨y, hy, hb⟩ := wrap_val hb
  have ht := simu'_fields hs textStart (by decide +kernel) ptr l x y hf hx hy
  cases x with
  | ok r vs =>
    simp only at ha
    subst ha
    rcases ht with ⟨h1, r', pre, rfl, rfl, h2⟩ | ⟨h1, h2⟩
    · exact .inl ⟨r, r', pre, rfl, hb, h1, h2⟩
    · refine .inr (.inl ⟨_, _, rfl, h1, ?_⟩)
      rcases h2 with h2 | ⟨r', vs', rfl, h3⟩
      · exact .inl h2
      · exact .inr ⟨_, _, hb, h3⟩
  | error e =>
    cases y <;> simp only [FahoTwin] at ht
    exact .inr (.inr (.inl ⟨_, _, ha, hb⟩))
  | failure e =>
    cases y <;> simp only [FahoTwin] at ht
    exact .inr (.inr (.inr ⟨_, _, ha, hb⟩))

end Sneturfahi
