import Verif.Proof.CstWork
import Verif.Proof.CstQuotes

/-!
# The number of calls the parser makes on a row of `ba'e`
-/


namespace Sneturfahi

open Spec

attribute [local irreducible] cst

theorem evalCst_peg {fuel : Nat} {r : CRule} {s : Toks} {res : CRes} (h : evalCst cst fuel r s = .val res) :
    Peg cst (.call r) s.list res.outcome := by
  have := runCst_means r s
  rwa [runCst_of_evalCst h] at this

/-- Running `e` begins with running `e'` on the same input. -/
inductive Begins : Gr → Gr → Prop
  | refl {e} : Begins e e
  | call {r e'} : Begins (cst r) e' → Begins (.call r) e'
  | seq {a b e'} : Begins a e' → Begins (.seq a b) e'
  | opt {a e'} : Begins a e' → Begins (.opt a) e'
  | wrap {sh a e'} : Begins a e' → Begins (.wrap sh a) e'

/-- Running `e` on `s` costs at least `k` calls, nested at least `m` deep. -/
def Least (k m : Nat) (e : Gr) (s : Toks) : Prop :=
  ∀ fuel, Uses k m fuel (evalGrW (evalCstW cst fuel) e s) (evalGr (evalCst cst fuel) e s)

section
variable {k m k' m' : Nat} {e a b : Gr} {s : Toks} {r : CRule}

theorem uses_any (e : Gr) (s : Toks) (fuel : Nat) : Uses 0 0 fuel (evalGrW (evalCstW cst fuel) e s) (evalGr (evalCst cst fuel) e s) :=
  uses_evalGr (uses_evalCst cst fuel) e s

theorem least_any (e : Gr) (s : Toks) : Least 0 0 e s := fun fuel => uses_any e s fuel

theorem Least.mono (h : Least k m e s) (hk : k' ≤ k) (hm : m' ≤ m) : Least k' m' e s := fun fuel => (h fuel).mono hk hm (Nat.le_refl _)

theorem Least.call (h : Least k m (cst r) s) : Least (k + 1) (m + 1) (.call r) s := by
  intro fuel
  cases fuel with
  | zero => exact uses_diverge
  | succ fuel => exact (h fuel).inside

theorem Least.seq (h : Least k m a s) : Least k m (.seq a b) s := by
  intro fuel
  refine ((h fuel).bind (k' := 0) (m' := 0) fun o _ => ?_).mono (Nat.le_refl _) (Nat.le_max_left _ _) (Nat.le_refl _)
  cases o with
  | ok r vs =>
    refine (uses_any b r fuel).then fun o => ?_
    cases o <;> exact uses_pure _
  | _ => exact uses_pure _

/-- Both are run if the first one succeeds. -/
theorem Least.both {q : List Token} {vs : List Val} (h : Least k m a s) (hp : Peg cst a s.list (.ok q vs))
    (h' : ∀ s' : Toks, s'.list = q → Least k' m' b s') : Least (k + k') (max m m') (.seq a b) s := by
  intro fuel
  refine (h fuel).bind fun o ho => ?_
  have hm := (means_inv cst).evalGr (call := evalCst cst fuel) (fun r =>
    (means_inv cst).evalCst (g := cst) (fun _ _ => trivial) (fun r p hp s => (hp s).mono fun _ h => .call h) fuel r) a s
  rw [ho] at hm
  have := hp.unique _ hm
  cases o with
  | ok r ws =>
    have hr : r.list = q := by
      simp only [CRes.outcome, Outcome.ok.injEq] at this
      exact this.1.symm
    refine ((h' r hr fuel).bind (k' := 0) (m' := 0) fun o _ => ?_).mono (Nat.le_refl _) (Nat.le_max_left _ _) (Nat.le_refl _)
    cases o <;> exact uses_pure _
  | error e => cases this
  | failure e => cases this

theorem Least.one (f : CRes → Counted CRes) (g : CRes → Exec CRes) (ef : ∀ c s, evalGrW c e s = (evalGrW c a s >>= f))
    (eg : ∀ c s, evalGr c e s = (evalGr c a s >>= g)) (hfg : ∀ M o, Uses 0 0 M (f o) (g o)) (h : Least k m a s) : Least k m e s := by
  intro fuel
  rw [ef, eg]
  exact ((h fuel).bind (k' := 0) (m' := 0) fun o _ => hfg _ o).mono (Nat.le_refl _) (Nat.le_max_left _ _) (Nat.le_refl _)

theorem Least.opt (h : Least k m a s) : Least k m (.opt a) s := by
  intro fuel
  refine ((h fuel).bind (k' := 0) (m' := 0) fun o _ => ?_).mono (Nat.le_refl _) (Nat.le_max_left _ _) (Nat.le_refl _)
  cases o <;> exact uses_pure _

theorem Least.not (h : Least k m a s) : Least k m (.not a) s := by
  intro fuel
  refine ((h fuel).bind (k' := 0) (m' := 0) fun o _ => ?_).mono (Nat.le_refl _) (Nat.le_max_left _ _) (Nat.le_refl _)
  cases o <;> exact uses_pure _

theorem Least.wrap {sh : CShape} (h : Least k m a s) : Least k m (.wrap sh a) s := by
  intro fuel
  refine ((h fuel).bind (k' := 0) (m' := 0) fun o _ => ?_).mono (Nat.le_refl _) (Nat.le_max_left _ _) (Nat.le_refl _)
  cases o <;> exact uses_pure _

theorem Least.begins {e' : Gr} (hb : Begins e e') (h : Least k m e' s) : Least k m e s := by
  induction hb with
  | refl => exact h
  | call _ ih => exact (ih h).call.mono (Nat.le_succ _) (Nat.le_succ _)
  | seq _ ih => exact (ih h).seq
  | opt _ ih => exact (ih h).opt
  | wrap _ ih => exact (ih h).wrap

end

/-- `n` words `ba'e` before something else. -/
structure Bahes (n : Nat) (l : List Token) : Prop where
  run : ∃ bs rest, l = bs ++ rest ∧ bs.length = n ∧ (∀ b ∈ bs, b.selmaho = .Bahe) ∧ ∀ t q, rest = t :: q → t.selmaho ∉ [Selmaho.Bahe, .Bu, .Zei]

theorem bahe_body : cst (.word .Bahe) = .seq (.raw .Bahe) (.seq (.not (.call (.word .Bu))) (.not (.call (.word .Zei)))) := by
  unfold cst; rfl

theorem zei_body : cst (.word .Zei) = .wrap (.node (.word .Zei)) (.seq (.many0 (.call (.word .Bahe))) (.seq (.raw .Zei)
    (.seq (.not (.call (.word .Bu))) (.not (.call (.word .Zei)))))) := by
  unfold cst; rfl

theorem Bahes.zei {n : Nat} {l : List Token} (h : Bahes n l) : Peg cst (.call (.word .Zei)) l .error := by
  obtain ⟨bs, rest, rfl, _, hb, hr⟩ := h
  refine word_error (.inr rfl) ?_
  rintro ⟨cs, t, q, he, hc, ht⟩
  rcases List.append_eq_append_iff.mp he with ⟨as, h1, h2⟩ | ⟨as, h1, h2⟩
  · cases as with
    | nil => exact hr t q (by simpa using h2) (by rw [ht]; decide)
    | cons a as =>
      have : a ∈ cs := by rw [h1]; simp
      exact hr a _ h2 (by rw [hc a this]; decide)
  · cases as with
    | nil => exact hr t q (by simpa using h2.symm) (by rw [ht]; decide)
    | cons a as =>
      have : t = a := by simpa using congrArg List.head? h2
      have : t ∈ bs := by rw [h1, this]; simp
      rw [hb t this] at ht; cases ht

theorem Bahes.bu {n : Nat} {l : List Token} (h : Bahes n l) : Peg cst (.call (.word .Bu)) l .error := by
  obtain ⟨bs, rest, rfl, _, hb, hr⟩ := h
  refine bu_error ?_
  intro t q he ht
  cases bs with
  | nil => exact hr t q he (by rw [ht]; decide)
  | cons b bs =>
    have : b = t := by simpa using congrArg List.head? he
    have := hb b (by simp)
    subst_vars
    rw [this] at ht; cases ht

theorem Bahes.cons {n : Nat} {l : List Token} (h : Bahes (n + 1) l) : ∃ b l', l = b :: l' ∧ b.selmaho = .Bahe ∧ Bahes n l' := by
  obtain ⟨bs, rest, rfl, hn, hb, hr⟩ := h
  cases bs with
  | nil => cases hn
  | cons b bs => exact ⟨b, bs ++ rest, rfl, hb b (by simp), ⟨bs, rest, rfl, by simpa using hn, fun c hc => hb c (by simp [hc]), hr⟩⟩

theorem Bahes.peg {n : Nat} {b : Token} {l : List Token} (hb : b.selmaho = .Bahe) (h : Bahes n l) :
    Peg cst (.call (.word .Bahe)) (b :: l) (.ok l [.leaf .token b]) := by
  refine .call ?_
  rw [bahe_body]
  exact .seq (.raw hb) (.seq (.not h.bu) (.not h.zei))

theorem bahes_cost (n : Nat) : ∀ s : Toks, Bahes n s.list → Least (2 ^ n) (2 * n + 1) (.many0 (.call (.word .Bahe))) s := by
  suffices H : ∀ (s : Toks), Bahes n s.list → ∀ fuel kd lf acc, Uses (2 ^ n) (2 * n + 1) fuel
      (manyLoopW (evalCstW cst fuel (.word .Bahe)) kd lf s acc) (manyLoop (evalCst cst fuel (.word .Bahe)) kd lf s acc) from
    fun s hs fuel => H s hs fuel _ _ _
  induction n with
  | zero =>
    intro s hs fuel kd lf acc
    cases lf with
    | zero => exact uses_diverge
    | succ lf =>
      refine ((((least_any (cst (.word .Bahe)) s).call) fuel).bind (k' := 0) (m' := 0) fun o _ => ?_).mono (Nat.le_refl _) (by omega) (Nat.le_refl _)
      cases o with
      | error e => exact uses_pure _
      | failure e => exact uses_pure _
      | ok r vs =>
        show Uses 0 0 fuel (if _ then _ else _) (if _ then _ else _)
        split
        · exact uses_pure _
        · exact uses_manyLoop (uses_evalCst cst fuel _) _ _ _ _
  | succ n ih =>
    intro s hs fuel kd lf acc
    cases lf with
    | zero => exact uses_diverge
    | succ lf =>
      obtain ⟨b, l', hl, hb, hs'⟩ := hs.cons
      have hz : ∀ s' : Toks, s'.list = l' → Least (2 ^ n + 1) (2 * n + 2) (.call (.word .Zei)) s' := by
        intro s' hs''
        refine Least.call ?_
        rw [zei_body]
        exact Least.wrap (Least.seq fun fuel => ih s' (hs'' ▸ hs') fuel _ _ _)
      have hc : Least (2 ^ n + 1 + 1) (2 * n + 2 + 1) (.call (.word .Bahe)) s := by
        refine Least.call ?_
        rw [bahe_body]
        refine (Least.both (k := 0) (m := 0) (least_any _ _) (q := l') (by rw [hl]; exact .raw hb) ?_).mono (Nat.le_of_eq (Nat.zero_add _).symm) (Nat.le_max_right _ _)
        intro s1 h1
        refine (Least.both (k := 0) (m := 0) (least_any _ _) (q := l') (by rw [h1]; exact .not hs'.bu) ?_).mono (Nat.le_of_eq (Nat.zero_add _).symm) (Nat.le_max_right _ _)
        intro s2 h2
        exact (hz s2 h2).not
      have hp : Peg cst (.call (.word .Bahe)) s.list (.ok l' [.leaf .token b]) := by rw [hl]; exact Bahes.peg hb hs'
      refine ((hc fuel).bind (k' := 2 ^ n) (m' := 0) fun o ho => ?_).mono (by rw [Nat.pow_succ]; omega) (by omega) (Nat.le_refl _)
      have hm := hp.unique _ (evalCst_peg ho)
      cases o with
      | error e => cases hm
      | failure e => cases hm
      | ok r vs =>
        have hr : r.list = l' := by
          simp only [CRes.outcome, Outcome.ok.injEq] at hm
          exact hm.1.symm
        show Uses (2 ^ n) 0 fuel (if _ then _ else _) (if _ then _ else _)
        rw [if_neg (by rw [hr, hl]; simp), if_neg (by rw [hr, hl]; simp)]
        exact (ih r (hr ▸ hs') fuel kd lf _).mono (Nat.le_refl _) (Nat.zero_le _) (Nat.le_refl _)

theorem text_begins : Begins (.call .Text) (.many0 (.call (.word .Bahe))) := by
  refine .call ?_
  unfold cst
  refine .wrap (.seq (.opt (.call ?_)))
  unfold cst
  refine .wrap (.seq (.opt (.call ?_)))
  unfold cst
  exact .wrap (.seq .refl)

theorem text_cost {n : Nat} {s : Toks} (h : Bahes n s.list) : Least (2 ^ n) (2 * n + 1) (.call .Text) s := (bahes_cost n s h).begins text_begins

theorem Least.eval {k m : Nat} {r : CRule} {s : Toks} (h : Least k m (.call r) s) (fuel : Nat) :
    Uses k m fuel (evalCstW cst fuel r s) (evalCst cst fuel r s) := h fuel

theorem uses_parse {k m : Nat} (p : Profile) {s : Toks} (h : Least k m (.call .Text) s) :
    Uses k m (cstFuel s) (parseCstW p s) (parseCst p s) := by
  unfold parseCstW parseCst allConsumingW allConsumingC
  refine (((h.eval (cstFuel s)).bind (k' := 0) (m' := 0) (g := fun o => match o with
    | .ok rest vs => if rest.list.length = 0 then pure (.ok rest vs) else pure (.error (.ofKind rest .eof))
    | r => pure r) fun o _ => ?_).bind (k' := 0) (m' := 0) fun o _ => ?_).mono (Nat.le_refl _) (Nat.le_trans (Nat.le_max_left m 0) (Nat.le_max_left _ 0)) (Nat.le_refl _)
  · cases o with
    | ok r vs =>
      show Uses 0 0 _ (if _ then _ else _) (if _ then _ else _)
      split <;> exact uses_pure _
    | _ => exact uses_pure _
  · cases o with
    | ok r vs =>
      show Uses 0 0 _ (if _ then _ else _) (if _ then _ else _)
      split
      · exact uses_panic
      · rcases vs with _ | ⟨v, _ | ⟨w, ws⟩⟩
        · exact uses_panic
        · exact uses_pure _
        · exact uses_panic
    | _ => exact uses_pure _

end Sneturfahi

namespace Sneturfahi

/-- With less room the same, or no result. -/
def Below {α : Type} (t t' : Counted α) : Prop := t = .diverge ∨ t = t'

theorem Below.bind {α β : Type} {t t' : Counted α} {f f' : α → Counted β} (h : Below t t') (hf : ∀ a, Below (f a) (f' a)) :
    Below (t >>= f) (t' >>= f') := by
  rcases h with rfl | rfl
  · exact .inl rfl
  · cases t with
    | panic => exact .inr rfl
    | diverge => exact .inl rfl
    | val p =>
      rcases hf p.1 with h | h
      · refine .inl ?_
        show Exec.map _ (f p.1) = _
        rw [h]; rfl
      · refine .inr ?_
        show Exec.map _ (f p.1) = Exec.map _ (f' p.1)
        rw [h]

theorem Below.refl {α : Type} (t : Counted α) : Below t t := .inr rfl

theorem Below.inside {α : Type} {t t' : Counted α} (h : Below t t') : Below (.inside t) (.inside t') := by
  rcases h with rfl | rfl
  · exact .inl rfl
  · exact .inr rfl

theorem Below.ite {α : Type} {c : Prop} [Decidable c] {t t' u u' : Counted α} (h : Below t t') (h' : Below u u') :
    Below (if c then t else u) (if c then t' else u') := by
  split
  · exact h
  · exact h'

def BelowP (t t' : WParser) : Prop := ∀ s, Below (t s) (t' s)

theorem below_manyLoop {t t' : WParser} (h : BelowP t t') (kd : NomKind) (fuel : Nat) :
    ∀ s acc, Below (manyLoopW t kd fuel s acc) (manyLoopW t' kd fuel s acc) := by
  induction fuel with
  | zero => intros; exact .refl _
  | succ fuel ih =>
    intro s acc
    refine (h s).bind fun a => ?_
    cases a with
    | ok r vs => exact .ite (.refl _) (ih _ _)
    | error e => exact .refl _
    | failure e => exact .refl _

theorem below_tillLoop {t t' u u' : WParser} (h : BelowP t t') (h' : BelowP u u') (fuel : Nat) :
    ∀ s acc, Below (tillLoopW t u fuel s acc) (tillLoopW t' u' fuel s acc) := by
  induction fuel with
  | zero => intros; exact .refl _
  | succ fuel ih =>
    intro s acc
    refine (h' s).bind fun a => ?_
    cases a with
    | ok r vs => exact .refl _
    | failure e => exact .refl _
    | error e =>
      refine (h s).bind fun a => ?_
      cases a with
      | ok r vs => exact .ite (.refl _) (ih _ _)
      | error e => exact .refl _
      | failure e => exact .refl _

theorem below_evalGr {c c' : CRule → WParser} (h : ∀ r, BelowP (c r) (c' r)) (e : Gr) : BelowP (evalGrW c e) (evalGrW c' e) := by
  induction e with
  | eps => intro s; exact .refl _
  | raw x => intro s; exact .refl _
  | any k => intro s; exact .refl _
  | call r => exact h r
  | seq a b ha hb =>
    intro s
    refine (ha s).bind fun o => ?_
    cases o with
    | ok r vs => exact (hb r).bind fun o => .refl _
    | _ => exact .refl _
  | alt a b ha hb =>
    intro s
    refine (ha s).bind fun o => ?_
    cases o with
    | error e => exact (hb s).bind fun o => .refl _
    | _ => exact .refl _
  | many0 a ha => intro s; exact below_manyLoop ha _ _ _ _
  | many1 a ha =>
    intro s
    refine (ha s).bind fun o => ?_
    cases o with
    | ok r vs => exact below_manyLoop ha _ _ _ _
    | _ => exact .refl _
  | manyTill a b ha hb => intro s; exact below_tillLoop ha hb _ _ _
  | mustConsume n a ha => intro s; exact (ha s).bind fun o => .refl _
  | postCond c a ha => intro s; exact (ha s).bind fun o => .refl _
  | opt a ha => intro s; exact (ha s).bind fun o => .refl _
  | not a ha => intro s; exact (ha s).bind fun o => .refl _
  | cut a ha => intro s; exact (ha s).bind fun o => .refl _
  | wrap sh a ha => intro s; exact (ha s).bind fun o => .refl _

theorem below_evalCst (g : CRule → Gr) (fuel : Nat) : ∀ r, BelowP (evalCstW g fuel r) (evalCstW g (fuel + 1) r) := by
  induction fuel with
  | zero => intro r s; exact .inl rfl
  | succ fuel ih => intro r s; exact (below_evalGr ih (g r) s).inside

theorem evalCstW_val {g : CRule → Gr} {fuel : Nat} {r : CRule} {s : Toks} {x : CRes × Used} (h : evalCstW g fuel r s = .val x) (d : Nat) :
    evalCstW g (fuel + d) r s = .val x := by
  induction d with
  | zero => exact h
  | succ d ih =>
    rcases below_evalCst g (fuel + d) r s with hb | hb
    · rw [ih] at hb; cases hb
    · rw [← Nat.add_assoc, ← hb, ih]

/-- More room than `cstFuel` changes nothing. -/
theorem evalCstW_enough (r : CRule) (s : Toks) (d : Nat) (hd : cstFuel s ≤ d) : evalCstW cst d r s = evalCstW cst (cstFuel s) r s := by
  obtain ⟨res, h⟩ := runCst_ends r s
  rw [runCst_def] at h
  obtain ⟨u, hu, _⟩ := uses_evalCst cst (cstFuel s) r s
  rw [h] at hu
  have := evalCstW_val hu (d - cstFuel s)
  rw [Nat.add_sub_cancel' hd] at this
  rw [this, hu]
  rfl

end Sneturfahi
