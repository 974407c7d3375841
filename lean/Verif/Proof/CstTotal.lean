import Verif.Proof.CstInv

/-!
# Parsing ends

From a certificate (which productions consume a token, and a rank that decreases along calls at the same
position) it follows that every production ends on every input, and that no repetition is ever applied to
something that consumes nothing.
-/

namespace Sneturfahi

open Spec

/-- Not a present field, and if a struct, one without present fields. -/
def calm : Val → Bool
  | .many (_ :: _) => false
  | .node _ fs => !fs.any Val.present
  | _ => true

theorem calm.absent {v : Val} (h : calm v = true) : v.present = false := by
  cases v with
  | many l => cases l <;> simp_all [calm, Val.present]
  | _ => rfl

mutual
/-- Success implies that a token was consumed. -/
def consG (cons : CRule → Bool) : Gr → Bool
  | .eps => false
  | .raw _ => true
  | .any _ => true
  | .call r => cons r
  | .seq a b => consG cons a || consG cons b
  | .alt a b => consG cons a && consG cons b
  | .opt _ => false
  | .many0 _ => false
  | .many1 a => consG cons a
  | .manyTill _ b => consG cons b
  | .not _ => false
  | .cut a => consG cons a
  | .mustConsume _ _ => true
  | .postCond c a => consG cons a || (c == .anyFieldPresent && quietG cons a)
  | .wrap _ a => consG cons a
/-- Success without consuming yields only absent fields. -/
def quietG (cons : CRule → Bool) : Gr → Bool
  | .eps => true
  | .raw _ => true
  | .any _ => true
  | .call r => cons r
  | .seq a b => quietG cons a && quietG cons b
  | .alt a b => quietG cons a && quietG cons b
  | .opt a => consG cons a
  | .many0 _ => true
  | .many1 a => consG cons a
  | .manyTill _ b => consG cons b
  | .not _ => true
  | .cut a => quietG cons a
  | .mustConsume _ _ => true
  | .postCond _ a => quietG cons a
  | .wrap (.node _) a => quietG cons a
  | .wrap _ a => consG cons a
end

/-- Every call reachable without consuming has rank `< n`. -/
def rankG (cons : CRule → Bool) (rank : CRule → Nat) (n : Nat) : Gr → Bool
  | .eps => true
  | .raw _ => true
  | .any _ => true
  | .call r => decide (rank r < n)
  | .seq a b => rankG cons rank n a && (consG cons a || rankG cons rank n b)
  | .alt a b => rankG cons rank n a && rankG cons rank n b
  | .opt a => rankG cons rank n a
  | .many0 a => rankG cons rank n a
  | .many1 a => rankG cons rank n a
  | .manyTill a b => rankG cons rank n a && rankG cons rank n b
  | .not a => rankG cons rank n a
  | .cut a => rankG cons rank n a
  | .mustConsume _ a => rankG cons rank n a
  | .postCond _ a => rankG cons rank n a
  | .wrap _ a => rankG cons rank n a

/-- Everything that is repeated consumes. -/
def repG (cons : CRule → Bool) : Gr → Bool
  | .eps => true
  | .raw _ => true
  | .any _ => true
  | .call _ => true
  | .seq a b => repG cons a && repG cons b
  | .alt a b => repG cons a && repG cons b
  | .opt a => repG cons a
  | .many0 a => repG cons a && consG cons a
  | .many1 a => repG cons a && consG cons a
  | .manyTill a b => repG cons a && repG cons b && consG cons a
  | .not a => repG cons a
  | .cut a => repG cons a
  | .mustConsume _ a => repG cons a
  | .postCond _ a => repG cons a
  | .wrap _ a => repG cons a

/-- A well-formedness certificate. -/
structure CstWF (g : CRule → Gr) where
  cons : CRule → Bool
  rank : CRule → Nat
  bound : Nat
  cons_ok : ∀ r, cons r = true → consG cons (g r) = true
  rank_ok : ∀ r, rankG cons rank (rank r) (g r) = true
  rep_ok : ∀ r, repG cons (g r) = true
  rank_lt : ∀ r, rank r < bound

/-- Error kinds nom gives when something repeated consumes nothing. -/
def endless : CstError → Bool
  | .nom .many0 => true
  | .nom .many1 => true
  | .nom .manyTill => true
  | _ => false

theorem endless_or {e e' : Located} (h : endless e.error = false) (h' : endless e'.error = false) :
    endless (e.or e').error = false := by
  unfold Located.or
  split
  · split <;> assumption
  · split
    · split
      · rfl
      · assumption
    · assumption

/-- How an outcome on `s` of something with the given flags looks. -/
def Steps (cons quiet rep : Bool) (s : Toks) : CRes → Prop
  | .ok r vs => r.list.length ≤ s.list.length ∧ (cons = true → r.list.length < s.list.length) ∧
      (quiet = true → r.list.length = s.list.length → ∀ v ∈ vs, calm v = true)
  | .error e => rep = true → endless e.error = false
  | .failure e => rep = true → endless e.error = false

/-- The flags of `e` are right for `p`. -/
def Honest (cons : CRule → Bool) (e : Gr) (p : CParser) : Prop :=
  ∀ s, (p s).All (Steps (consG cons e) (quietG cons e) (repG cons e) s)

theorem manyLoop_honest {cons : CRule → Bool} {a : Gr} {p : CParser} (hp : Honest cons a p) (k : NomKind) :
    ∀ (fuel : Nat) (s : Toks) (acc : List Val), (manyLoop p k fuel s acc).All (fun
      | .ok r vs => r.list.length ≤ s.list.length ∧ (r.list.length = s.list.length → vs = [.many acc])
      | .error e => (repG cons a && consG cons a) = true → endless e.error = false
      | .failure e => (repG cons a && consG cons a) = true → endless e.error = false) := by
  intro fuel
  induction fuel with
  | zero => intros; trivial
  | succ fuel ih =>
    intro s acc
    unfold manyLoop
    refine (hp s).bind ?_
    intro res hres
    cases res with
    | error e => exact ⟨Nat.le_refl _, fun _ => rfl⟩
    | failure e => exact fun h => hres (by simp at h; exact h.1)
    | ok rest vs =>
      obtain ⟨h1, h2, h3⟩ := hres
      simp only
      split
      · rename_i he
        intro h
        simp at h
        exact absurd he (Nat.ne_of_lt (h2 h.2))
      · rename_i hne
        refine (ih rest (acc ++ vs)).mono ?_
        intro res' hres'
        cases res' with
        | ok r' vs' => exact ⟨by have := hres'.1; omega, fun h => absurd h (by have := hres'.1; omega)⟩
        | error e => exact hres'
        | failure e => exact hres'

theorem tillLoop_honest {cons : CRule → Bool} {a b : Gr} {p q : CParser} (hp : Honest cons a p) (hq : Honest cons b q) :
    ∀ (fuel : Nat) (s : Toks) (acc : List Val), (tillLoop p q fuel s acc).All (fun
      | .ok r _ => r.list.length ≤ s.list.length ∧ (consG cons b = true → r.list.length < s.list.length)
      | .error e => (repG cons a && repG cons b && consG cons a) = true → endless e.error = false
      | .failure e => (repG cons a && repG cons b && consG cons a) = true → endless e.error = false) := by
  intro fuel
  induction fuel with
  | zero => intros; trivial
  | succ fuel ih =>
    intro s acc
    unfold tillLoop
    refine (hq s).bind ?_
    intro res hres
    cases res with
    | ok r vs => exact ⟨hres.1, hres.2.1⟩
    | failure e => exact fun h => hres (by simp at h; exact h.1.2)
    | error e =>
      refine (hp s).bind ?_
      intro res hres
      cases res with
      | error e => exact fun h => hres (by simp at h; exact h.1.1)
      | failure e => exact fun h => hres (by simp at h; exact h.1.1)
      | ok rest vs =>
        obtain ⟨h1, h2, h3⟩ := hres
        simp only
        split
        · rename_i he
          intro h
          simp at h
          exact absurd he (Nat.ne_of_lt (h2 h.2))
        · rename_i hne
          refine (ih rest (acc ++ vs)).mono ?_
          intro res' hres'
          cases res' with
          | ok r' vs' => exact ⟨by have := hres'.1; omega, fun h => by have := hres'.1; omega⟩
          | error e => exact hres'
          | failure e => exact hres'

theorem honest_inv (cons : CRule → Bool) : Inv (Honest cons) where
  eps := fun s => ⟨Nat.le_refl _, by simp [consG], by simp⟩
  raw := fun sel s => by
    unfold rawC
    split
    · exact fun _ => rfl
    · rename_i t ts h
      split
      · refine ⟨by simp [h], by simp [h], ?_⟩
        simp [h]
      · exact fun _ => rfl
  any := fun k s => by
    unfold anyC
    split
    · exact fun _ => rfl
    · rename_i t ts h
      exact ⟨by simp [h], by simp [h], by simp [h]⟩
  seq := fun {a b p q} hp hq s => by
    refine (hp s).bind ?_
    intro res hres
    cases res with
    | ok rest vs =>
      refine (hq rest).bind ?_
      intro res' hres'
      cases res' with
      | ok rest' ws =>
        obtain ⟨h1, h2, h3⟩ := hres
        obtain ⟨h4, h5, h6⟩ := hres'
        refine ⟨by omega, ?_, ?_⟩
        · simp only [consG, Bool.or_eq_true]
          rintro (h | h)
          · have := h2 h; omega
          · have := h5 h; omega
        · simp only [quietG, Bool.and_eq_true, List.mem_append]
          rintro ⟨ha, hb⟩ he v (hv | hv)
          · exact h3 ha (by omega) v hv
          · exact h6 hb (by omega) v hv
      | error e => exact fun h => hres' (by simp [repG] at h; exact h.2)
      | failure e => exact fun h => hres' (by simp [repG] at h; exact h.2)
    | error e => exact fun h => hres (by simp [repG] at h; exact h.1)
    | failure e => exact fun h => hres (by simp [repG] at h; exact h.1)
  alt := fun {a b p q} hp hq s => by
    refine (hp s).bind ?_
    intro res hres
    cases res with
    | ok rest vs =>
      obtain ⟨h1, h2, h3⟩ := hres
      refine ⟨h1, ?_, ?_⟩
      · simp only [consG, Bool.and_eq_true]; exact fun h => h2 h.1
      · simp only [quietG, Bool.and_eq_true]; exact fun h => h3 h.1
    | failure e => exact fun h => hres (by simp [repG] at h; exact h.1)
    | error e =>
      refine (hq s).bind ?_
      intro res' hres'
      cases res' with
      | error e' =>
        intro h
        simp only [repG, Bool.and_eq_true] at h
        exact endless_or (hres h.1) (hres' h.2)
      | ok rest' ws =>
        obtain ⟨h1, h2, h3⟩ := hres'
        refine ⟨h1, ?_, ?_⟩
        · simp only [consG, Bool.and_eq_true]; exact fun h => h2 h.2
        · simp only [quietG, Bool.and_eq_true]; exact fun h => h3 h.2
      | failure e' => exact fun h => hres' (by simp [repG] at h; exact h.2)
  opt := fun {a p} hp s => by
    refine (hp s).bind ?_
    intro res hres
    cases res with
    | ok rest vs =>
      obtain ⟨h1, h2, h3⟩ := hres
      refine ⟨h1, by simp [consG], ?_⟩
      intro h he
      have := h2 h
      omega
    | failure e => exact hres
    | error e => exact ⟨Nat.le_refl _, by simp [consG], by simp [calm]⟩
  many0 := fun {a p} hp s => by
    refine (manyLoop_honest hp _ _ s []).mono ?_
    intro res hres
    cases res with
    | ok r vs =>
      refine ⟨hres.1, by simp [consG], ?_⟩
      intro _ he v hv
      rw [hres.2 he] at hv
      simp at hv
      subst hv
      rfl
    | error e => exact hres
    | failure e => exact hres
  many1 := fun {a p} hp s => by
    refine (hp s).bind ?_
    intro res hres
    cases res with
    | ok rest vs =>
      obtain ⟨h1, h2, h3⟩ := hres
      refine (manyLoop_honest hp _ _ rest vs).mono ?_
      intro res' hres'
      cases res' with
      | ok r vs' =>
        refine ⟨by have := hres'.1; omega, ?_, ?_⟩
        · intro h
          have := h2 h
          have := hres'.1
          omega
        · intro h he
          have := h2 h
          have := hres'.1
          omega
      | error e => exact hres'
      | failure e => exact hres'
    | failure e => exact fun h => hres (by simp [repG] at h; exact h.1)
    | error e => exact fun h => hres (by simp [repG] at h; exact h.1)
  manyTill := fun {a b p q} hp hq s => by
    refine (tillLoop_honest hp hq _ s []).mono ?_
    intro res hres
    cases res with
    | ok r vs =>
      refine ⟨hres.1, hres.2, ?_⟩
      intro h he
      have := hres.2 h
      omega
    | error e => exact hres
    | failure e => exact hres
  not := fun {a p} hp s => by
    refine (hp s).bind ?_
    intro res hres
    cases res with
    | ok rest vs => exact fun _ => rfl
    | failure e => exact hres
    | error e => exact ⟨Nat.le_refl _, by simp [consG], by simp⟩
  cut := fun {a p} hp s => by
    refine (hp s).bind ?_
    intro res hres
    cases res <;> exact hres
  mustConsume := fun n {a p} hp s => by
    refine (hp s).bind ?_
    intro res hres
    cases res with
    | ok rest vs =>
      obtain ⟨h1, h2, h3⟩ := hres
      simp only
      split
      · exact fun _ => rfl
      · exact ⟨h1, fun _ => by omega, fun _ _ => by omega⟩
    | failure e => exact hres
    | error e => exact hres
  postCond := fun c {a p} hp s => by
    refine (hp s).bind ?_
    intro res hres
    cases res with
    | ok rest vs =>
      obtain ⟨h1, h2, h3⟩ := hres
      simp only
      split
      · rename_i hc
        refine ⟨h1, ?_, h3⟩
        simp only [consG, Bool.or_eq_true, Bool.and_eq_true]
        rintro (h | ⟨hcc, h⟩)
        · exact h2 h
        · by_cases he : rest.list.length = s.list.length
          · have hcalm := h3 h he
            have hcc : c = .anyFieldPresent := by simpa using hcc
            subst hcc
            unfold PostCond.holds at hc
            split at hc
            · rename_i n fs _
              have := hcalm (.node n fs) (by simp)
              simp only [calm] at this
              rw [hc] at this
              simp at this
            · rename_i heq; simp at heq
            · simp at hc
          · omega
      · exact fun _ => rfl
    | failure e => exact hres
    | error e => exact hres
  wrap := fun sh {a p} hp s => by
    refine (hp s).bind ?_
    intro res hres
    cases res with
    | ok rest vs =>
      obtain ⟨h1, h2, h3⟩ := hres
      refine ⟨h1, h2, ?_⟩
      intro hq he v hv
      cases sh with
      | node n =>
        have hcalm := h3 hq he
        simp only [CShape.build, List.mem_singleton] at hv
        subst hv
        simp only [calm, Bool.not_eq_true', List.any_eq_false, Bool.not_eq_true]
        exact fun v hv => calm.absent (hcalm v hv)
      | tuple =>
        have := h2 hq
        omega
      | sep =>
        have := h2 hq
        omega
    | failure e => exact hres
    | error e => exact hres

theorem evalCst_honest {g : CRule → Gr} (w : CstWF g) (fuel : Nat) (r : CRule) :
    Honest w.cons (.call r) (evalCst g fuel r) := by
  refine (honest_inv w.cons).evalCst (g := g) (fun _ _ => trivial) ?_ fuel r
  intro r p hp s
  refine (hp s).mono ?_
  intro res hres
  cases res with
  | ok rest vs =>
    obtain ⟨h1, h2, h3⟩ := hres
    refine ⟨h1, fun h => h2 (w.cons_ok r h), ?_⟩
    intro h he
    have := h2 (w.cons_ok r h)
    omega
  | error e => exact fun _ => hres (w.rep_ok r)
  | failure e => exact fun _ => hres (w.rep_ok r)

/-! ### Termination -/

/-- Running `p` on `s` ends. -/
def Ends (p : CParser) (s : Toks) : Prop := ∃ res, p s = .val res

theorem manyLoop_ends {p : CParser} (k : NomKind) (hlen : ∀ s r vs, p s = .val (.ok r vs) → r.list.length ≤ s.list.length) :
    ∀ (fuel : Nat) (s : Toks) (acc : List Val), s.list.length < fuel →
      (∀ s' : Toks, s'.list.length ≤ s.list.length → Ends p s') → ∃ res, manyLoop p k fuel s acc = .val res := by
  intro fuel
  induction fuel with
  | zero => intro s _ h; omega
  | succ fuel ih =>
    intro s acc hf hp
    obtain ⟨res, hres⟩ := hp s (Nat.le_refl _)
    unfold manyLoop
    rw [hres]
    cases res with
    | error e => exact ⟨_, rfl⟩
    | failure e => exact ⟨_, rfl⟩
    | ok rest vs =>
      have hl := hlen s rest vs hres
      simp only [Exec.val_bind]
      split
      · exact ⟨_, rfl⟩
      · rename_i hne
        exact ih rest _ (by omega) (fun s' hs' => hp s' (by omega))

theorem tillLoop_ends {p q : CParser} (hlen : ∀ s r vs, p s = .val (.ok r vs) → r.list.length ≤ s.list.length) :
    ∀ (fuel : Nat) (s : Toks) (acc : List Val), s.list.length < fuel →
      (∀ s' : Toks, s'.list.length ≤ s.list.length → Ends p s' ∧ Ends q s') → ∃ res, tillLoop p q fuel s acc = .val res := by
  intro fuel
  induction fuel with
  | zero => intro s _ h; omega
  | succ fuel ih =>
    intro s acc hf hp
    obtain ⟨⟨res, hres⟩, ⟨res', hres'⟩⟩ := hp s (Nat.le_refl _)
    unfold tillLoop
    rw [hres']
    cases res' with
    | ok rest vs => exact ⟨_, rfl⟩
    | failure e => exact ⟨_, rfl⟩
    | error e =>
      simp only [Exec.val_bind]
      rw [hres]
      cases res with
      | error e => exact ⟨_, rfl⟩
      | failure e => exact ⟨_, rfl⟩
      | ok rest vs =>
        have hl := hlen s rest vs hres
        simp only [Exec.val_bind]
        split
        · exact ⟨_, rfl⟩
        · rename_i hne
          exact ih rest _ (by omega) (fun s' hs' => hp s' (by omega))

theorem Honest.le {cons : CRule → Bool} {e : Gr} {p : CParser} (h : Honest cons e p) {s r : Toks} {vs : List Val}
    (hp : p s = .val (.ok r vs)) : r.list.length ≤ s.list.length := by
  have := h s
  rw [hp] at this
  exact this.1

theorem Honest.lt {cons : CRule → Bool} {e : Gr} {p : CParser} (h : Honest cons e p) {s r : Toks} {vs : List Val}
    (hp : p s = .val (.ok r vs)) (hc : consG cons e = true) : r.list.length < s.list.length := by
  have := h s
  rw [hp] at this
  exact this.2.1 hc

theorem rankG_bound {cons : CRule → Bool} {rank : CRule → Nat} {K : Nat} (h : ∀ r, rank r < K) (e : Gr) :
    rankG cons rank K e = true := by
  induction e <;> simp_all [rankG]

/-- One body ends, given that the calls it can make end. -/
theorem evalGr_ends {g : CRule → Gr} (w : CstWF g) (call : CRule → CParser)
    (hcall : ∀ r, Honest w.cons (.call r) (call r)) (n : Nat) :
    ∀ (e : Gr) (s : Toks), rankG w.cons w.rank n e = true →
      (∀ r s', (s'.list.length < s.list.length ∨ (s'.list.length ≤ s.list.length ∧ w.rank r < n)) → Ends (call r) s') →
      Ends (evalGr call e) s := by
  have hon : ∀ e, Honest w.cons e (evalGr call e) := (honest_inv w.cons).evalGr hcall
  have key : ∀ N, (∀ e (s : Toks), s.list.length < N →
      (∀ r s', s'.list.length ≤ s.list.length → Ends (call r) s') → Ends (evalGr call e) s) →
      ∀ (n : Nat) (e : Gr) (s : Toks), s.list.length ≤ N → rankG w.cons w.rank n e = true →
      (∀ r s', (s'.list.length < s.list.length ∨ (s'.list.length ≤ s.list.length ∧ w.rank r < n)) → Ends (call r) s') →
      Ends (evalGr call e) s := by
    intro N hshort n e
    -- running `e` on anything no longer than `s`
    have below : ∀ (e : Gr) (s : Toks), s.list.length ≤ N →
        (∀ s', s'.list.length ≤ N → rankG w.cons w.rank n e = true →
          (∀ r s'', (s''.list.length < s'.list.length ∨ (s''.list.length ≤ s'.list.length ∧ w.rank r < n)) → Ends (call r) s'') →
          Ends (evalGr call e) s') → rankG w.cons w.rank n e = true →
        (∀ r s', (s'.list.length < s.list.length ∨ (s'.list.length ≤ s.list.length ∧ w.rank r < n)) → Ends (call r) s') →
        ∀ s' : Toks, s'.list.length ≤ s.list.length → Ends (evalGr call e) s' := by
      intro e s hl ih hr hc s' hs'
      by_cases hlt : s'.list.length < s.list.length
      · exact hshort e s' (by omega) (fun r s'' hs'' => hc r s'' (Or.inl (by omega)))
      · refine ih s' (by omega) hr ?_
        intro r s'' hs''
        rcases hs'' with hs'' | hs''
        · exact hc r s'' (Or.inl (by omega))
        · exact hc r s'' (Or.inr ⟨by omega, hs''.2⟩)
    induction e with
    | eps => intro s _ _ _; exact ⟨_, rfl⟩
    | raw sel =>
      intro s _ _ _
      simp only [evalGr, rawC, Ends]
      split
      · exact ⟨_, rfl⟩
      · split <;> exact ⟨_, rfl⟩
    | any k =>
      intro s _ _ _
      simp only [evalGr, anyC, Ends]
      split <;> exact ⟨_, rfl⟩
    | call r =>
      intro s _ hr hc
      exact hc r s (Or.inr ⟨Nat.le_refl _, by simpa [rankG] using hr⟩)
    | seq a b iha ihb =>
      intro s hl hr hc
      simp only [rankG, Bool.and_eq_true, Bool.or_eq_true] at hr
      obtain ⟨res, hres⟩ := iha s hl hr.1 hc
      unfold Ends
      simp only [evalGr, seqC, hres, Exec.val_bind]
      cases res with
      | error e => exact ⟨_, rfl⟩
      | failure e => exact ⟨_, rfl⟩
      | ok rest vs =>
        have hle := (hon a).le hres
        have hb : Ends (evalGr call b) rest := by
          rcases hr.2 with h | h
          · have hlt := (hon a).lt hres h
            exact hshort b rest (by omega) (fun r s' hs' => hc r s' (Or.inl (by omega)))
          · exact below b s hl (fun s' h1 h2 h3 => ihb s' h1 h2 h3) h hc rest hle
        obtain ⟨res', hres'⟩ := hb
        simp only [hres', Exec.val_bind]
        cases res' <;> exact ⟨_, rfl⟩
    | alt a b iha ihb =>
      intro s hl hr hc
      simp only [rankG, Bool.and_eq_true] at hr
      obtain ⟨res, hres⟩ := iha s hl hr.1 hc
      obtain ⟨res', hres'⟩ := ihb s hl hr.2 hc
      unfold Ends
      simp only [evalGr, altC, hres, Exec.val_bind]
      cases res with
      | ok rest vs => exact ⟨_, rfl⟩
      | failure e => exact ⟨_, rfl⟩
      | error e =>
        simp only [hres', Exec.val_bind]
        cases res' <;> exact ⟨_, rfl⟩
    | opt a ih =>
      intro s hl hr hc
      obtain ⟨res, hres⟩ := ih s hl hr hc
      unfold Ends
      simp only [evalGr, optC, hres, Exec.val_bind]
      cases res <;> exact ⟨_, rfl⟩
    | many0 a ih =>
      intro s hl hr hc
      exact manyLoop_ends _ (fun s r vs h => (hon a).le h) _ s [] (by omega)
        (below a s hl (fun s' h1 h2 h3 => ih s' h1 h2 h3) hr hc)
    | many1 a ih =>
      intro s hl hr hc
      have hb := below a s hl (fun s' h1 h2 h3 => ih s' h1 h2 h3) hr hc
      obtain ⟨res, hres⟩ := hb s (Nat.le_refl _)
      unfold Ends
      simp only [evalGr, many1C, hres, Exec.val_bind]
      cases res with
      | error e => exact ⟨_, rfl⟩
      | failure e => exact ⟨_, rfl⟩
      | ok rest vs =>
        have hle := (hon a).le hres
        exact manyLoop_ends _ (fun s r vs h => (hon a).le h) _ rest vs (by omega) (fun s' hs' => hb s' (by omega))
    | manyTill a b iha ihb =>
      intro s hl hr hc
      simp only [rankG, Bool.and_eq_true] at hr
      exact tillLoop_ends (fun s r vs h => (hon a).le h) _ s [] (by omega) (fun s' hs' =>
        ⟨below a s hl (fun s' h1 h2 h3 => iha s' h1 h2 h3) hr.1 hc s' hs',
          below b s hl (fun s' h1 h2 h3 => ihb s' h1 h2 h3) hr.2 hc s' hs'⟩)
    | not a ih =>
      intro s hl hr hc
      obtain ⟨res, hres⟩ := ih s hl hr hc
      unfold Ends
      simp only [evalGr, notC, hres, Exec.val_bind]
      cases res <;> exact ⟨_, rfl⟩
    | cut a ih =>
      intro s hl hr hc
      obtain ⟨res, hres⟩ := ih s hl hr hc
      unfold Ends
      simp only [evalGr, cutC, hres, Exec.val_bind]
      cases res <;> exact ⟨_, rfl⟩
    | mustConsume m a ih =>
      intro s hl hr hc
      obtain ⟨res, hres⟩ := ih s hl hr hc
      unfold Ends
      simp only [evalGr, mustConsumeC, hres, Exec.val_bind]
      cases res with
      | ok rest vs => simp only; split <;> exact ⟨_, rfl⟩
      | _ => exact ⟨_, rfl⟩
    | postCond c a ih =>
      intro s hl hr hc
      obtain ⟨res, hres⟩ := ih s hl hr hc
      unfold Ends
      simp only [evalGr, postCondC, hres, Exec.val_bind]
      cases res with
      | ok rest vs => simp only; split <;> exact ⟨_, rfl⟩
      | _ => exact ⟨_, rfl⟩
    | wrap sh a ih =>
      intro s hl hr hc
      obtain ⟨res, hres⟩ := ih s hl hr hc
      unfold Ends
      simp only [evalGr, wrapC, hres, Exec.val_bind]
      cases res <;> exact ⟨_, rfl⟩
  have all : ∀ N e (s : Toks), s.list.length < N →
      (∀ r s', s'.list.length ≤ s.list.length → Ends (call r) s') → Ends (evalGr call e) s := by
    intro N
    induction N with
    | zero => intro e s h; omega
    | succ N ih =>
      intro e s hs hc
      refine key N ih w.bound e s (by omega) (rankG_bound w.rank_lt e) ?_
      intro r s' hs'
      exact hc r s' (by omega)
  intro e s hr hc
  exact key s.list.length (fun e s' hs' => all _ e s' hs') n e s (Nat.le_refl _) hr hc

/-- Every production ends, with fuel `bound * length + rank + 1`. -/
theorem evalCst_ends {g : CRule → Gr} (w : CstWF g) : ∀ (fuel : Nat) (r : CRule) (s : Toks),
    w.bound * s.list.length + w.rank r < fuel → Ends (evalCst g fuel r) s := by
  intro fuel
  induction fuel with
  | zero => intro r s h; omega
  | succ fuel ih =>
    intro r s hf
    refine evalGr_ends w (evalCst g fuel) (evalCst_honest w fuel) (w.rank r) (g r) s (w.rank_ok r) ?_
    intro r' s' hs'
    apply ih
    have hr := w.rank_lt r'
    rcases hs' with h | ⟨h, h'⟩
    · have : w.bound * (s'.list.length + 1) ≤ w.bound * s.list.length := Nat.mul_le_mul_left _ h
      rw [Nat.mul_add] at this
      omega
    · have : w.bound * s'.list.length ≤ w.bound * s.list.length := Nat.mul_le_mul_left _ h
      omega

end Sneturfahi
