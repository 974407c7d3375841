import Verif.Proof.CstDerive

/-!
# Which errors parsing can end with
-/

namespace Sneturfahi

open Spec

/-- The word that must come after the one that commits the parser (`#[cut]`), for the openers `tei` and `ga'o`. -/
def closer : Selmaho → Option Selmaho
  | .Tei => some .Foi
  | .Gaho => some .Gaho
  | _ => none

/-- The words after which the parser is committed. -/
def openers : List Selmaho := [.Lohu, .Tei, .Gaho]

/-- An error the parser can give once committed by opener `o`. -/
def Committed (o : Selmaho) (e : Located) : Prop :=
  (o = .Lohu ∧ e = ⟨e.location, .nom .eof⟩ ∧ e.location.list = []) ∨
  (∃ c, closer o = some c ∧ (e.error = .nom .not ∨ ∃ ex got, e.error = .expectedGot ex got ∧ ∀ x ∈ ex, x = c))

theorem Committed.or {o : Selmaho} {e e' : Located} (h : Committed o e) (h' : Committed o e') : Committed o (e.or e') := by
  unfold Located.or
  split
  · split
    · exact h'
    · exact h
  · split
    · rename_i ex g ex' g' he he'
      split
      · rcases h with ⟨_, h, _⟩ | ⟨c, hc, h⟩
        · rw [h] at he; cases he
        rcases h' with ⟨_, h', _⟩ | ⟨c', hc', h'⟩
        · rw [h'] at he'; cases he'
        rw [hc] at hc'
        cases hc'
        refine Or.inr ⟨c, hc, Or.inr ⟨_, _, rfl, ?_⟩⟩
        rcases h with h | ⟨_, _, h, hx⟩
        · rw [h] at he; cases he
        rcases h' with h' | ⟨_, _, h', hx'⟩
        · rw [h'] at he'; cases he'
        rw [h] at he; cases he
        rw [h'] at he'; cases he'
        intro x hxm
        rcases List.mem_append.mp hxm with hm | hm
        · exact hx x hm
        · exact hx' x hm
      · exact h'
    · exact h'

/-- Every success contains a token of selmaho `o`. -/
def holdsG (t : CRule → Bool) (o : Selmaho) : Gr → Bool
  | .raw s => s == o
  | .call r => t r
  | .seq a b => holdsG t o a || holdsG t o b
  | .alt a b => holdsG t o a && holdsG t o b
  | .many1 a => holdsG t o a
  | .manyTill _ b => holdsG t o b
  | .cut a => holdsG t o a
  | .mustConsume _ a => holdsG t o a
  | .postCond _ a => holdsG t o a
  | .wrap _ a => holdsG t o a
  | _ => false

theorem tokensL_flatten {t : Token} {vs : List Val} {items : List (List Val)} (h : vs ∈ items) (ht : t ∈ tokensL vs) :
    t ∈ tokensL items.flatten := by
  induction items with
  | nil => simp at h
  | cons w items ih =>
    rw [List.flatten_cons, tokensL_append, List.mem_append]
    rcases List.mem_cons.mp h with rfl | h
    · exact Or.inl ht
    · exact Or.inr (ih h)

theorem derives_holds {g : CRule → Gr} {tab : CRule → Bool} {o : Selmaho} (hg : ∀ r, tab r = true → holdsG tab o (g r) = true)
    {e : Gr} {vs : List Val} (h : Formed g e vs) : holdsG tab o e = true → ∃ t ∈ tokensL vs, t.selmaho = o := by
  induction h with
  | raw ht => intro h; simp [holdsG] at h; subst h; exact ⟨_, by simp [tokensL, tokens], ht⟩
  | call _ ih => intro h; exact ih (hg _ h)
  | seq _ _ iha ihb =>
    intro h
    simp only [holdsG, Bool.or_eq_true] at h
    rcases h with h | h
    · obtain ⟨t, ht, hs⟩ := iha h
      exact ⟨t, by rw [tokensL_append]; exact List.mem_append_left _ ht, hs⟩
    · obtain ⟨t, ht, hs⟩ := ihb h
      exact ⟨t, by rw [tokensL_append]; exact List.mem_append_right _ ht, hs⟩
  | altLeft _ ih => intro h; simp only [holdsG, Bool.and_eq_true] at h; exact ih h.1
  | altRight _ ih => intro h; simp only [holdsG, Bool.and_eq_true] at h; exact ih h.2
  | @many1 _ items hne _ ih =>
    intro h
    cases items with
    | nil => exact absurd rfl hne
    | cons w items =>
      obtain ⟨t, ht, hs⟩ := ih w (by simp) h
      exact ⟨t, by simpa [tokensL, tokens] using tokensL_flatten (items := w :: items) (by simp) ht, hs⟩
  | manyTill _ _ _ ih =>
    intro h
    obtain ⟨t, ht, hs⟩ := ih h
    exact ⟨t, by simp [tokensL, ht], hs⟩
  | cut _ ih => exact ih
  | mustConsume _ _ ih => exact ih
  | postCond _ _ ih => exact ih
  | wrap _ ih =>
    intro h
    obtain ⟨t, ht, hs⟩ := ih h
    exact ⟨t, by simpa [tokensL, tokens_build] using ht, hs⟩
  | _ => intro h; simp [holdsG] at h

/-- Never an `Err::Error`. -/
def neverG (tab cons : CRule → Bool) : Gr → Bool
  | .eps => true
  | .call r => tab r
  | .seq a b => neverG tab cons a && neverG tab cons b
  | .alt a b => neverG tab cons a || neverG tab cons b
  | .opt _ => true
  | .many0 a => consG cons a
  | .cut _ => true
  | .wrap _ a => neverG tab cons a
  | _ => false

/-- Every `Err::Error` is one that opener `o` can lead to. -/
def errG (tab cons : CRule → Bool) (o : Selmaho) : Gr → Bool
  | .eps => true
  | .raw s => closer o == some s
  | .any _ => o == .Lohu
  | .call r => tab r
  | .seq a b => errG tab cons o a && errG tab cons o b
  | .alt a b => errG tab cons o a && errG tab cons o b
  | .opt _ => true
  | .many0 a => consG cons a
  | .many1 a => errG tab cons o a && consG cons a
  | .manyTill a _ => errG tab cons o a && consG cons a
  | .not _ => (closer o).isSome
  | .cut _ => true
  | .wrap _ a => errG tab cons o a
  | _ => false

/-- The tables. -/
structure ErrTables where
  holds : Selmaho → CRule → Bool
  never : CRule → Bool
  errs : Selmaho → CRule → Bool

/-- Every `Err::Failure` is one that an opener in `al`, or one among the tokens, leads to. -/
def failG (T : ErrTables) (cons : CRule → Bool) (al : List Selmaho) : Gr → Bool
  | .eps => true
  | .raw _ => true
  | .any _ => true
  | .call _ => true
  | .seq a b => failG T cons al a && failG T cons (al ++ openers.filter (fun o => holdsG (T.holds o) o a)) b
  | .alt a b => failG T cons al a && failG T cons al b
  | .opt a => failG T cons al a
  | .many0 a => failG T cons al a
  | .many1 a => failG T cons al a
  | .manyTill a b => failG T cons al a && failG T cons al b
  | .not a => failG T cons al a
  | .cut a => failG T cons al a && (neverG T.never cons a || al.any (fun o => errG (T.errs o) cons o a))
  | .mustConsume _ a => failG T cons al a
  | .postCond _ a => failG T cons al a
  | .wrap _ a => failG T cons al a

/-- The tables are right for the grammar. -/
structure ErrCert (g : CRule → Gr) (w : CstWF g) (T : ErrTables) : Prop where
  holds_ok : ∀ o r, T.holds o r = true → holdsG (T.holds o) o (g r) = true
  never_ok : ∀ r, T.never r = true → neverG T.never w.cons (g r) = true
  errs_ok : ∀ o r, T.errs o r = true → errG (T.errs o) w.cons o (g r) = true
  fail_ok : ∀ r, failG T w.cons [] (g r) = true

/-- An error an opener in `al`, or one among the tokens of `s`, leads to. -/
def Blamed (al : List Selmaho) (s : Toks) (e : Located) : Prop :=
  ∃ o, Committed o e ∧ (o ∈ al ∨ ∃ t ∈ s.list, t.selmaho = o)

theorem Blamed.lift {al : List Selmaho} {s r : Toks} {w : List Token} {e : Located} (hc : Cut s w r) (h : Blamed al r e) :
    Blamed al s e := by
  obtain ⟨o, h1, h2⟩ := h
  refine ⟨o, h1, ?_⟩
  rcases h2 with h2 | ⟨t, ht, hs⟩
  · exact Or.inl h2
  · exact Or.inr ⟨t, by rw [hc.1]; exact List.mem_append_right _ ht, hs⟩

/-- How the errors of a run on `s` look. -/
def ErrShape (T : ErrTables) (cons : CRule → Bool) (e : Gr) (s : Toks) : CRes → Prop
  | .ok _ _ => True
  | .error x => neverG T.never cons e = false ∧ ∀ o, errG (T.errs o) cons o e = true → Committed o x
  | .failure x => ∀ al, failG T cons al e = true → Blamed al s x

/-- The tables are right for `p`. -/
def ErrInv (g : CRule → Gr) (T : ErrTables) (cons : CRule → Bool) (e : Gr) (p : CParser) : Prop :=
  Honest cons e p ∧ Conforms g e p ∧ ∀ s, (p s).All (ErrShape T cons e s)

theorem manyLoop_err {g : CRule → Gr} {T : ErrTables} {cons : CRule → Bool} {a : Gr} {p : CParser}
    (h : ErrInv g T cons a p) (k : NomKind) : ∀ (fuel : Nat) (s : Toks) (acc : List Val),
      (manyLoop p k fuel s acc).All (fun
        | .ok _ _ => True
        | .error _ => consG cons a = false
        | .failure x => ∀ al, failG T cons al a = true → Blamed al s x) := by
  intro fuel
  induction fuel with
  | zero => intros; trivial
  | succ fuel ih =>
    intro s acc
    unfold manyLoop
    have h1 := h.1 s
    have h2 := h.2.1 s
    have h3 := h.2.2 s
    cases hp : p s with
    | panic => rw [hp] at h1; exact h1
    | diverge => trivial
    | val res =>
      rw [hp] at h1 h2 h3
      simp only [Exec.val_bind]
      cases res with
      | error e => trivial
      | failure e => exact h3
      | ok rest vs =>
        simp only
        split
        · rename_i he
          simp only [Exec.pure_eq, Exec.All_val]
          cases hc : consG cons a with
          | false => rfl
          | true => exact absurd he (Nat.ne_of_lt (h1.2.1 hc))
        · refine (ih rest _).mono ?_
          intro res hres
          cases res with
          | ok _ _ => trivial
          | error _ => exact hres
          | failure x => exact fun al hal => (hres al hal).lift (h2 rest vs rfl).2

theorem tillLoop_err {g : CRule → Gr} {T : ErrTables} {cons : CRule → Bool} {a b : Gr} {p q : CParser}
    (h : ErrInv g T cons a p) (h' : ErrInv g T cons b q) : ∀ (fuel : Nat) (s : Toks) (acc : List Val),
      (tillLoop p q fuel s acc).All (fun
        | .ok _ _ => True
        | .error x => ∀ o, (errG (T.errs o) cons o a && consG cons a) = true → Committed o x
        | .failure x => ∀ al, (failG T cons al a && failG T cons al b) = true → Blamed al s x) := by
  intro fuel
  induction fuel with
  | zero => intros; trivial
  | succ fuel ih =>
    intro s acc
    unfold tillLoop
    have h1 := h.1 s
    have h2 := h.2.1 s
    have h3 := h.2.2 s
    have h4 := h'.2.2 s
    cases hq : q s with
    | panic => rw [hq] at h4; exact h4
    | diverge => trivial
    | val res =>
      rw [hq] at h4
      simp only [Exec.val_bind]
      cases res with
      | ok _ _ => trivial
      | failure e =>
        intro al hal
        simp only [Bool.and_eq_true] at hal
        exact h4 al hal.2
      | error e =>
        cases hp : p s with
        | panic => rw [hp] at h1; exact h1
        | diverge => trivial
        | val res =>
          rw [hp] at h1 h2 h3
          simp only [Exec.val_bind]
          cases res with
          | error e =>
            intro o ho
            simp only [Bool.and_eq_true] at ho
            exact h3.2 o ho.1
          | failure e =>
            intro al hal
            simp only [Bool.and_eq_true] at hal
            exact h3 al hal.1
          | ok rest vs =>
            simp only
            split
            · rename_i he
              intro o ho
              simp only [Bool.and_eq_true] at ho
              exact absurd he (Nat.ne_of_lt (h1.2.1 ho.2))
            · refine (ih rest _).mono ?_
              intro res hres
              cases res with
              | ok _ _ => trivial
              | error _ => exact hres
              | failure x => exact fun al hal => (hres al hal).lift (h2 rest vs rfl).2

theorem err_inv {g : CRule → Gr} (w : CstWF g) {T : ErrTables} (hT : ErrCert g w T) : Inv (ErrInv g T w.cons) where
  eps := ⟨(honest_inv _).eps, (conforms_inv g).eps, fun _ => trivial⟩
  raw := fun sel => ⟨(honest_inv _).raw sel, (conforms_inv g).raw sel, fun s => by
    unfold rawC
    split
    · refine ⟨rfl, ?_⟩
      intro o ho
      simp only [errG, beq_iff_eq] at ho
      exact Or.inr ⟨sel, ho, Or.inr ⟨_, _, rfl, by simp⟩⟩
    · split
      · trivial
      · refine ⟨rfl, ?_⟩
        intro o ho
        simp only [errG, beq_iff_eq] at ho
        exact Or.inr ⟨sel, ho, Or.inr ⟨_, _, rfl, by simp⟩⟩⟩
  any := fun k => ⟨(honest_inv _).any k, (conforms_inv g).any k, fun s => by
    unfold anyC
    split
    · rename_i hl
      refine ⟨rfl, ?_⟩
      intro o ho
      simp only [errG, beq_iff_eq] at ho
      exact Or.inl ⟨ho, rfl, hl⟩
    · trivial⟩
  seq := fun {a b p q} h h' => ⟨(honest_inv _).seq h.1 h'.1, (conforms_inv g).seq h.2.1 h'.2.1, fun s => by
    unfold seqC
    have h2 := h.2.1 s
    have h3 := h.2.2 s
    cases hp : p s with
    | panic => rw [hp] at h3; exact h3
    | diverge => trivial
    | val res =>
      rw [hp] at h2 h3
      simp only [Exec.val_bind]
      cases res with
      | error e =>
        refine ⟨by simp [neverG, h3.1], ?_⟩
        intro o ho
        simp only [errG, Bool.and_eq_true] at ho
        exact h3.2 o ho.1
      | failure e =>
        intro al hal
        simp only [failG, Bool.and_eq_true] at hal
        exact h3 al hal.1
      | ok rest vs =>
        obtain ⟨hd, hcut⟩ := h2 rest vs rfl
        refine (h'.2.2 rest).bind ?_
        intro res' hres'
        cases res' with
        | ok _ _ => trivial
        | error e =>
          refine ⟨by simp [neverG, hres'.1], ?_⟩
          intro o ho
          simp only [errG, Bool.and_eq_true] at ho
          exact hres'.2 o ho.2
        | failure e =>
          intro al hal
          simp only [failG, Bool.and_eq_true] at hal
          obtain ⟨o, ho, hm⟩ := hres' _ hal.2
          refine ⟨o, ho, ?_⟩
          rcases hm with hm | ⟨t, ht, hs⟩
          · rcases List.mem_append.mp hm with hm | hm
            · exact Or.inl hm
            · have := (List.mem_filter.mp hm).2
              obtain ⟨t, ht, hs⟩ := derives_holds (hT.holds_ok o) hd this
              exact Or.inr ⟨t, by rw [hcut.1]; exact List.mem_append_left _ ht, hs⟩
          · exact Or.inr ⟨t, by rw [hcut.1]; exact List.mem_append_right _ ht, hs⟩⟩
  alt := fun {a b p q} h h' => ⟨(honest_inv _).alt h.1 h'.1, (conforms_inv g).alt h.2.1 h'.2.1, fun s => by
    refine (h.2.2 s).bind ?_
    intro res hres
    cases res with
    | ok _ _ => trivial
    | failure e =>
      intro al hal
      simp only [failG, Bool.and_eq_true] at hal
      exact hres al hal.1
    | error e =>
      refine (h'.2.2 s).bind ?_
      intro res' hres'
      cases res' with
      | ok _ _ => trivial
      | failure e =>
        intro al hal
        simp only [failG, Bool.and_eq_true] at hal
        exact hres' al hal.2
      | error e' =>
        refine ⟨by simp [neverG, hres.1, hres'.1], ?_⟩
        intro o ho
        simp only [errG, Bool.and_eq_true] at ho
        exact (hres.2 o ho.1).or (hres'.2 o ho.2)⟩
  opt := fun {a p} h => ⟨(honest_inv _).opt h.1, (conforms_inv g).opt h.2.1, fun s => by
    refine (h.2.2 s).bind ?_
    intro res hres
    cases res with
    | ok _ _ => trivial
    | failure e => exact hres
    | error e => trivial⟩
  many0 := fun {a p} h => ⟨(honest_inv _).many0 h.1, (conforms_inv g).many0 h.2.1, fun s => by
    refine (manyLoop_err h .many0 _ s []).mono ?_
    intro res hres
    cases res with
    | ok _ _ => trivial
    | failure e => exact hres
    | error e => exact ⟨hres, fun o ho => by simp only [errG] at ho; rw [hres] at ho; cases ho⟩⟩
  many1 := fun {a p} h => ⟨(honest_inv _).many1 h.1, (conforms_inv g).many1 h.2.1, fun s => by
    unfold many1C
    have h2 := h.2.1 s
    have h3 := h.2.2 s
    cases hp : p s with
    | panic => rw [hp] at h3; exact h3
    | diverge => trivial
    | val res =>
      rw [hp] at h2 h3
      simp only [Exec.val_bind]
      cases res with
      | error e =>
        refine ⟨rfl, ?_⟩
        intro o ho
        simp only [errG, Bool.and_eq_true] at ho
        exact h3.2 o ho.1
      | failure e => exact h3
      | ok rest vs =>
        refine (manyLoop_err h .many1 _ rest vs).mono ?_
        intro res hres
        cases res with
        | ok _ _ => trivial
        | failure e => exact fun al hal => (hres al hal).lift (h2 rest vs rfl).2
        | error e => exact ⟨rfl, fun o ho => by simp [errG, hres] at ho⟩⟩
  manyTill := fun {a b p q} h h' => ⟨(honest_inv _).manyTill h.1 h'.1, (conforms_inv g).manyTill h.2.1 h'.2.1, fun s => by
    refine (tillLoop_err h h' _ s []).mono ?_
    intro res hres
    cases res with
    | ok _ _ => trivial
    | failure e => exact hres
    | error e => exact ⟨rfl, hres⟩⟩
  not := fun {a p} h => ⟨(honest_inv _).not h.1, (conforms_inv g).not h.2.1, fun s => by
    refine (h.2.2 s).bind ?_
    intro res hres
    cases res with
    | ok _ _ =>
      refine ⟨rfl, ?_⟩
      intro o ho
      simp only [errG, Option.isSome_iff_exists] at ho
      obtain ⟨c, hc⟩ := ho
      exact Or.inr ⟨c, hc, Or.inl rfl⟩
    | failure e => exact hres
    | error e => trivial⟩
  cut := fun {a p} h => ⟨(honest_inv _).cut h.1, (conforms_inv g).cut h.2.1, fun s => by
    refine (h.2.2 s).bind ?_
    intro res hres
    cases res with
    | ok _ _ => trivial
    | failure e =>
      intro al hal
      simp only [failG, Bool.and_eq_true] at hal
      exact hres al hal.1
    | error e =>
      intro al hal
      simp only [failG, Bool.and_eq_true, Bool.or_eq_true, List.any_eq_true] at hal
      rcases hal.2 with hn | ⟨o, ho, he⟩
      · rw [hres.1] at hn; cases hn
      · exact ⟨o, hres.2 o he, Or.inl ho⟩⟩
  mustConsume := fun n {a p} h => ⟨(honest_inv _).mustConsume n h.1, (conforms_inv g).mustConsume n h.2.1, fun s => by
    refine (h.2.2 s).bind ?_
    intro res hres
    cases res with
    | ok _ _ =>
      simp only
      split
      · exact ⟨rfl, fun o ho => by simp [errG] at ho⟩
      · trivial
    | failure e => exact hres
    | error e => exact ⟨rfl, fun o ho => by simp [errG] at ho⟩⟩
  postCond := fun c {a p} h => ⟨(honest_inv _).postCond c h.1, (conforms_inv g).postCond c h.2.1, fun s => by
    refine (h.2.2 s).bind ?_
    intro res hres
    cases res with
    | ok _ _ =>
      simp only
      split
      · trivial
      · exact ⟨rfl, fun o ho => by simp [errG] at ho⟩
    | failure e => exact hres
    | error e => exact ⟨rfl, fun o ho => by simp [errG] at ho⟩⟩
  wrap := fun sh {a p} h => ⟨(honest_inv _).wrap sh h.1, (conforms_inv g).wrap sh h.2.1, fun s => by
    refine (h.2.2 s).bind ?_
    intro res hres
    cases res with
    | ok _ _ => trivial
    | failure e => exact hres
    | error e => exact hres⟩

theorem evalCst_err {g : CRule → Gr} (w : CstWF g) {T : ErrTables} (hT : ErrCert g w T) (fuel : Nat) (r : CRule) :
    ∀ s, (evalCst g fuel r s).All (ErrShape T w.cons (.call r) s) := by
  suffices h : ErrInv g T w.cons (.call r) (evalCst g fuel r) from h.2.2
  induction fuel generalizing r with
  | zero => exact ⟨fun _ => trivial, fun _ => trivial, fun _ => trivial⟩
  | succ fuel ih =>
    have h := (err_inv w hT).evalGr ih (g r)
    refine ⟨evalCst_honest w (fuel + 1) r, evalCst_conforms g (fuel + 1) r, ?_⟩
    intro s
    rw [evalCst]
    refine (h.2.2 s).mono ?_
    intro res hres
    cases res with
    | ok _ _ => trivial
    | error e =>
      refine ⟨?_, fun o ho => hres.2 o (hT.errs_ok o r ho)⟩
      cases hn : T.never r with
      | false => exact hn
      | true =>
        have := hres.1
        rw [hT.never_ok r hn] at this
        cases this
    | failure e =>
      intro al _
      obtain ⟨o, h1, h2⟩ := hres [] (hT.fail_ok r)
      rcases h2 with h2 | h2
      · cases h2
      · exact ⟨o, h1, Or.inr h2⟩

/-- The tables of the grammar. -/
def errTables : ErrTables where
  holds := fun o r => match o, r with
    | .Lohu, .word .Lohu => true
    | .Tei, .word .Tei => true
    | .Gaho, .word .Gaho => true
    | _, _ => false
  never := fun r => match r with
    | .Frees => true
    | .Text => true
    | .Paragraphs => true
    | .Paragraph => true
    | .ParagraphItem => true
    | _ => false
  errs := fun o r => match o, r with
    | .Tei, .word .Foi => true
    | .Gaho, .word .Gaho => true
    | _, _ => false

theorem errCert : ErrCert cst cstWF errTables where
  holds_ok := by
    intro o r h
    simp only [errTables] at h
    split at h
    · decide +kernel
    · decide +kernel
    · decide +kernel
    · cases h
  never_ok := by
    intro r h
    simp only [errTables] at h
    split at h <;> first | decide +kernel | cases h
  errs_ok := by
    intro o r h
    simp only [errTables] at h
    split at h <;> first | decide +kernel | cases h
  fail_ok := by
    intro r
    cases r with
    | word s => cases s <;> decide +kernel
    | _ => decide +kernel

theorem runCst_err (r : CRule) (s : Toks) : (runCst r s).All (ErrShape errTables cstWF.cons (.call r) s) := by
  rw [runCst_def]
  exact evalCst_err cstWF errCert (cstFuel s) r s

end Sneturfahi
