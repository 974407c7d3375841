import Verif.Proof.RulesTotal

/-!
# What a rule does with all the texts of a pattern

A pattern gives, for the first few letters of a text, the set of letters allowed at each place; the text ends after them, or
not (`closed`).  `winR` splits a pattern into finitely many, on each of which the rule's outcome is the same.  Sets of letters
are bit masks, for the sake of the kernel.
-/

namespace Sneturfahi

variable {R : Type}

/-- The texts of a pattern. -/
def InSets (closed : Bool) : List Nat → List Char → Prop
  | [], cs => closed = true → cs = []
  | _ :: _, [] => False
  | s :: ss, c :: cs => s.testBit c.toNat = true ∧ InSets closed ss cs

/-- The outcome of a rule: not known, failure, success consuming so many letters, or one of the latter two. -/
inductive WOut where
  | unknown
  | fail
  | ok (n : Nat)
  | maybe (n : Nat)
deriving DecidableEq, Repr

/-- The result is as the outcome says. -/
def WOut.Says (cs : List Char) : WOut → Res → Prop
  | .unknown, _ => True
  | .fail, res => res = none
  | .ok n, res => res = some (cs.take n, cs.drop n)
  | .maybe n, res => res = none ∨ res = some (cs.take n, cs.drop n)

/-- The outcome `o` is the right one. -/
def WOut.Right (g : R → Exp R) (e : Exp R) (cs : List Char) (o : WOut) : Prop := ∀ res, Derives g e cs res → o.Says cs res

/-- `n` more letters. -/
def WOut.plus (n : Nat) : WOut → WOut
  | .ok m => .ok (Nat.add n m)
  | .maybe m => .maybe (Nat.add n m)
  | .fail => .fail
  | .unknown => .unknown

/-- The same, or failure. -/
def WOut.weak : WOut → WOut
  | .ok m => .maybe m
  | .maybe m => .maybe m
  | .fail => .fail
  | .unknown => .unknown

/-- `n` letters, or else the other outcome. -/
def WOut.orElse (n : Nat) : WOut → WOut
  | .fail => .maybe n
  | .unknown => .unknown
  | .ok m => match Nat.beq n m with
    | true => .ok m
    | false => .unknown
  | .maybe m => match Nat.beq n m with
    | true => .maybe m
    | false => .unknown

/-- `e.and_peek(p)` after `n` letters. -/
def WOut.keep (n : Nat) : WOut → WOut
  | .ok _ => .ok n
  | .fail => .fail
  | .maybe _ => .maybe n
  | .unknown => .maybe n

/-- `e.and_not(p)` after `n` letters. -/
def WOut.keepNot (n : Nat) : WOut → WOut
  | .ok _ => .fail
  | .fail => .ok n
  | .maybe _ => .maybe n
  | .unknown => .maybe n

/-- A pattern split into cases. -/
abbrev Cases := List (List Nat × WOut)

/-- The bit mask of a set of letters. -/
def maskOf : List Char → Nat
  | [] => 0
  | c :: cs => (1 <<< c.toNat) ||| maskOf cs

/-- Put a case unless its set is empty. -/
def putCase (s : Nat) (ss : List Nat) (o : WOut) (l : Cases) : Cases := match Nat.beq s 0 with
  | true => l
  | false => (s :: ss, o) :: l

/-- `one_of`.  A place that may hold a comma is not looked into. -/
def winOneOf (closed : Bool) (m : Nat) : List Nat → Cases
  | [] => match closed with
    | true => [([], .fail)]
    | false => [([], .unknown)]
  | s :: ss => match Nat.testBit s 44 with
    | true => [(s :: ss, .unknown)]
    | false => putCase (Nat.land s m) ss (.ok 1) (putCase (Nat.xor s (Nat.land s m)) ss .fail [])

/-- All the cases. -/
noncomputable def appendC (k l : Cases) : Cases := List.rec (motive := fun _ => Cases) l (fun x _ ih => x :: ih) k

/-- Go on with each case. -/
noncomputable def bindC (f : List Nat → WOut → Cases) (l : Cases) : Cases :=
  List.rec (motive := fun _ => Cases) [] (fun x _ ih => appendC (f x.1 x.2) ih) l

/-- The first `n` places of one pattern, then another. -/
noncomputable def attach (n : Nat) (ss ss' : List Nat) : List Nat :=
  Nat.rec (motive := fun _ => List Nat → List Nat) (fun _ => ss')
    (fun _ ih ss => List.rec (motive := fun _ => List Nat) [] (fun s ss _ => s :: ih ss) ss) n ss

/-- The cases for the text after the first `n` letters, as cases for the text. -/
noncomputable def after (n : Nat) (ss : List Nat) (f : WOut → WOut) (l : Cases) : Cases :=
  List.rec (motive := fun _ => Cases) [] (fun x _ ih => (attach n ss x.1, f x.2) :: ih) l

/-- The pattern of what remains after `n` letters. -/
noncomputable def dropSets (n : Nat) (ss : List Nat) : List Nat :=
  Nat.rec (motive := fun _ => List Nat → List Nat) (fun ss => ss)
    (fun _ ih ss => List.rec (motive := fun _ => List Nat) [] (fun _ ss _ => ih ss) ss) n ss

/-- `repeat`, at most `fuel` rounds. -/
noncomputable def winRep (e : List Nat → Cases) (fuel : Nat) : Nat → List Nat → Cases :=
  Nat.rec (motive := fun _ => Nat → List Nat → Cases) (fun _ ss => [(ss, .unknown)])
    (fun _ ih n ss => bindC (fun ss' o => match o with
      | .unknown => [(ss', .unknown)]
      | .fail => [(ss', match n with
        | 0 => .ok 0
        | _ + 1 => .fail)]
      | .maybe _ => [(ss', .unknown)]
      | .ok k => match k with
        | 0 => [(ss', .unknown)]
        | k + 1 => after (k + 1) ss' (WOut.plus (k + 1)) (ih (n - 1) (dropSets (k + 1) ss'))) (e ss)) fuel

/-- The longer of two outcomes. -/
def WOut.longest (a b : WOut) : WOut := match a with
  | .unknown => .unknown
  | .fail => b
  | .ok n => match b with
    | .unknown => .unknown
    | .fail => .ok n
    | .ok m => match Nat.ble m n with
      | true => .ok n
      | false => .ok m
    | .maybe _ => .unknown
  | .maybe n => match b with
    | .fail => .maybe n
    | _ => .unknown

/-- An expression with bit masks for its sets of letters. -/
inductive MExp (R : Type) where
  | null | eof
  | oneOf (m : Nat)
  | call (r : R)
  | not (e : MExp R)
  | peek (e : MExp R)
  | alt (a b : MExp R)
  | longest (a b : MExp R)
  | seq (a b : MExp R)
  | rep (n : Nat) (e : MExp R)
  | andPeek (e p : MExp R)
  | andNot (e p : MExp R)
  | guardNot (p e : MExp R)
deriving DecidableEq, Repr

/-- The bit masks of an expression. -/
def maskE : Exp R → MExp R
  | .null => .null
  | .eof => .eof
  | .oneOf chs => .oneOf (maskOf chs)
  | .call r => .call r
  | .not e => .not (maskE e)
  | .peek e => .peek (maskE e)
  | .alt a b => .alt (maskE a) (maskE b)
  | .longest a b => .longest (maskE a) (maskE b)
  | .seq a b => .seq (maskE a) (maskE b)
  | .rep n e => .rep n (maskE e)
  | .andPeek e p => .andPeek (maskE e) (maskE p)
  | .andNot e p => .andNot (maskE e) (maskE p)
  | .guardNot p e => .guardNot (maskE p) (maskE e)

/-- `!e` -/
def WOut.neg : WOut → WOut
  | .unknown => .maybe 0
  | .fail => .ok 0
  | .ok _ => .fail
  | .maybe _ => .maybe 0

/-- `&e` -/
def WOut.look : WOut → WOut
  | .unknown => .maybe 0
  | .fail => .fail
  | .ok _ => .ok 0
  | .maybe _ => .maybe 0

/-- What an expression does with the texts of a pattern. -/
noncomputable def winE (closed : Bool) (call : R → List Nat → Cases) (e : MExp R) : List Nat → Cases :=
  MExp.rec (motive := fun _ => List Nat → Cases)
    (fun ss => [(ss, .ok 0)])
    (fun ss => match ss with
      | [] => match closed with
        | true => [([], .ok 0)]
        | false => [([], .unknown)]
      | s :: ss => [(s :: ss, .fail)])
    (fun m ss => winOneOf closed m ss)
    (fun r ss => call r ss)
    (fun _ e ss => after 0 [] WOut.neg (e ss))
    (fun _ e ss => after 0 [] WOut.look (e ss))
    (fun _ _ a b ss => bindC (fun ss' o => match o with
      | .fail => b ss'
      | .unknown => [(ss', .unknown)]
      | .ok n => [(ss', .ok n)]
      | .maybe n => after 0 [] (WOut.orElse n) (b ss')) (a ss))
    (fun _ _ a b ss => bindC (fun ss' o => after 0 [] o.longest (b ss')) (a ss))
    (fun _ _ a b ss => bindC (fun ss' o => match o with
      | .ok n => after n ss' (WOut.plus n) (b (dropSets n ss'))
      | .maybe n => after n ss' (fun x => (x.plus n).weak) (b (dropSets n ss'))
      | .unknown => [(ss', .unknown)]
      | .fail => [(ss', .fail)]) (a ss))
    (fun n _ e ss => winRep e (ss.length + 2) n ss)
    (fun _ _ a b ss => bindC (fun ss' o => match o with
      | .ok n => after n ss' (WOut.keep n) (b (dropSets n ss'))
      | .maybe n => after n ss' (fun x => (x.keep n).weak) (b (dropSets n ss'))
      | .unknown => [(ss', .unknown)]
      | .fail => [(ss', .fail)]) (a ss))
    (fun _ _ a b ss => bindC (fun ss' o => match o with
      | .ok n => after n ss' (WOut.keepNot n) (b (dropSets n ss'))
      | .maybe n => after n ss' (fun x => (x.keepNot n).weak) (b (dropSets n ss'))
      | .unknown => [(ss', .unknown)]
      | .fail => [(ss', .fail)]) (a ss))
    (fun _ _ a b ss => bindC (fun ss' o => match o with
      | .fail => b ss'
      | .ok _ => [(ss', .fail)]
      | .unknown => after 0 [] WOut.weak (b ss')
      | .maybe _ => after 0 [] WOut.weak (b ss')) (a ss)) e

/-- Equality of outcomes. -/
def WOut.same : WOut → WOut → Bool
  | .unknown, .unknown => true
  | .fail, .fail => true
  | .ok n, .ok m => Nat.beq n m
  | .maybe n, .maybe m => Nat.beq n m
  | _, _ => false

theorem WOut.same_eq {a b : WOut} (h : a.same b = true) : a = b := by
  cases a <;> cases b <;> simp_all [WOut.same]

/-- Equality of sequences of sets. -/
noncomputable def sameSets (as : List Nat) : List Nat → Bool :=
  List.rec (motive := fun _ => List Nat → Bool) (fun bs => match bs with
    | [] => true
    | _ :: _ => false)
  (fun a _ ih bs => match bs with
    | [] => false
    | b :: bs => match Nat.beq a b with
      | true => ih bs
      | false => false) as

/-- If two sequences of sets differ in at most one place, their union there. -/
noncomputable def joinSets (as : List Nat) : List Nat → Option (List Nat) :=
  List.rec (motive := fun _ => List Nat → Option (List Nat)) (fun bs => match bs with
    | [] => some []
    | _ :: _ => none)
  (fun a as ih bs => match bs with
    | [] => none
    | b :: bs => match Nat.beq a b with
      | true => match ih bs with
        | some cs => some (a :: cs)
        | none => none
      | false => match sameSets as bs with
        | true => some (Nat.lor a b :: as)
        | false => none) as

/-- Add a case, joining it with one that is already there if possible. -/
noncomputable def addCase (ss : List Nat) (o : WOut) (l : Cases) : Cases :=
  List.rec (motive := fun _ => Cases) [(ss, o)]
    (fun y ys ih => match o.same y.2 with
      | true => match joinSets ss y.1 with
        | some ss' => (ss', o) :: ys
        | none => y :: ih
      | false => y :: ih) l

/-- Join cases. -/
noncomputable def joinCases (l : Cases) : Cases → Cases :=
  List.rec (motive := fun _ => Cases → Cases) (fun acc => acc) (fun x _ ih acc => ih (addCase x.1 x.2 acc)) l

/-- The same for a rule, looking through at most `fuel` calls. -/
noncomputable def winR (closed : Bool) (g : R → MExp R) (fuel : Nat) : R → List Nat → Cases :=
  Nat.rec (motive := fun _ => R → List Nat → Cases) (fun _ ss => [(ss, .unknown)])
    (fun _ ih r ss => joinCases (winE closed ih (g r) ss) []) fuel

/-! ### Soundness -/

/-- The text is in one of the cases, and the outcome there is the right one. -/
def Covered (closed : Bool) (g : R → Exp R) (e : Exp R) (cs : List Char) (l : Cases) : Prop :=
  ∃ x ∈ l, InSets closed x.1 cs ∧ x.2.Right g e cs

theorem testBit_maskOf (chs : List Char) (c : Char) : (maskOf chs).testBit c.toNat = chs.contains c := by
  induction chs with
  | nil => simp [maskOf]
  | cons d chs ih =>
    simp only [maskOf, Nat.testBit_or, ih, List.contains_cons]
    congr 1
    rw [Nat.one_shiftLeft, Nat.testBit_two_pow]
    by_cases h : d = c
    · subst h; simp
    · have h' : ¬ d.toNat = c.toNat := fun h' => h (by
        apply Char.ext
        apply UInt32.toNat_inj.mp
        exact h')
      simp [h', Ne.symm h]

section

variable {closed : Bool} {g : R → Exp R} {cs : List Char}

theorem Covered.one {e : Exp R} {ss : List Nat} {o : WOut} (hw : InSets closed ss cs) (ho : o.Right g e cs) :
    Covered closed g e cs [(ss, o)] := ⟨(ss, o), List.mem_singleton.mpr rfl, hw, ho⟩

theorem Covered.unknown {e : Exp R} {ss : List Nat} (hw : InSets closed ss cs) : Covered closed g e cs [(ss, .unknown)] :=
  .one hw (fun _ _ => trivial)

theorem Covered.cons {e : Exp R} {x : List Nat × WOut} {l : Cases} (h : Covered closed g e cs l) : Covered closed g e cs (x :: l) := by
  obtain ⟨y, hy, h⟩ := h
  exact ⟨y, List.mem_cons_of_mem _ hy, h⟩

theorem putCase_mem {s : Nat} {ss : List Nat} {o : WOut} {l : Cases} (hs : s ≠ 0) : (s :: ss, o) ∈ putCase s ss o l := by
  unfold putCase
  split
  · rename_i h; exact absurd (Nat.eq_of_beq_eq_true h) hs
  · exact List.mem_cons_self

theorem putCase_sub {s : Nat} {ss : List Nat} {o : WOut} {l : Cases} {x : List Nat × WOut} (hx : x ∈ l) : x ∈ putCase s ss o l := by
  unfold putCase
  split
  · exact hx
  · exact List.mem_cons_of_mem _ hx

theorem split_comma {k : List Char} {c d : Char} {cs ds : List Char} (hk : AllCommas k) (hd : d ≠ ',') (h : k ++ c :: cs = d :: ds) :
    k = [] ∧ c = d ∧ cs = ds := by
  cases k with
  | nil => simpa using h
  | cons a k =>
    exfalso
    have ha : a = ',' := hk a (by simp)
    simp at h
    exact hd (h.1 ▸ ha)

theorem oneOf_cons {chs : List Char} {d : Char} {ds : List Char} (hd : d ≠ ',') {res : Res}
    (h : Derives g (.oneOf chs) (d :: ds) res) : (d ∈ chs ∧ res = some ([d], ds)) ∨ (d ∉ chs ∧ res = none) := by
  generalize he : d :: ds = t at h
  cases h with
  | oneOfYes hk hc hm =>
    obtain ⟨rfl, rfl, rfl⟩ := split_comma hk hd he.symm
    exact .inl ⟨hm, rfl⟩
  | oneOfNo hk hc hm =>
    obtain ⟨rfl, rfl, rfl⟩ := split_comma hk hd he.symm
    exact .inr ⟨hm, rfl⟩
  | oneOfEnd hk =>
    subst he
    exact absurd (hk d (by simp)) hd

theorem winOneOf_sound (chs : List Char) (ss : List Nat) (h : InSets closed ss cs) :
    Covered closed g (.oneOf chs) cs (winOneOf closed (maskOf chs) ss) := by
  cases ss with
  | nil =>
    cases closed with
    | true =>
      refine .one h ?_
      have := h rfl
      subst this
      intro res hr
      generalize he : [] = t at hr
      cases hr with
      | oneOfYes => simp at he
      | oneOfNo => rfl
      | oneOfEnd => rfl
    | false => exact .unknown h
  | cons s ss =>
    cases cs with
    | nil => cases h
    | cons c cs =>
      obtain ⟨hb, h2⟩ := h
      unfold winOneOf
      simp only
      split
      · exact .unknown ⟨hb, h2⟩
      · rename_i h44
        have hne : c ≠ ',' := by
          rintro rfl
          have : Nat.testBit s 44 = true := hb
          rw [h44] at this
          cases this
        by_cases hm : c ∈ chs
        · have hy : (s &&& maskOf chs).testBit c.toNat = true := by
            rw [Nat.testBit_and, hb, testBit_maskOf]; simpa using hm
          have hy0 : Nat.land s (maskOf chs) ≠ 0 := by
            intro h0
            change s &&& maskOf chs = 0 at h0
            rw [h0] at hy; simp at hy
          refine ⟨_, putCase_mem hy0, ⟨hy, h2⟩, fun res hr => ?_⟩
          rcases oneOf_cons hne hr with h | h
          · exact h.2
          · exact absurd hm h.1
        · have hy : (s &&& maskOf chs).testBit c.toNat = false := by
            rw [Nat.testBit_and, testBit_maskOf]; simpa using fun _ => hm
          have hn : (s ^^^ (s &&& maskOf chs)).testBit c.toNat = true := by
            rw [Nat.testBit_xor, hb, hy]; rfl
          have hn0 : Nat.xor s (Nat.land s (maskOf chs)) ≠ 0 := by
            intro h0
            change s ^^^ (s &&& maskOf chs) = 0 at h0
            rw [h0] at hn; simp at hn
          refine ⟨_, putCase_sub (putCase_mem hn0), ⟨hn, h2⟩, fun res hr => ?_⟩
          rcases oneOf_cons hne hr with h | h
          · exact absurd h.1 hm
          · exact h.2

theorem appendC_mem {k l : Cases} {x : List Nat × WOut} : x ∈ appendC k l ↔ x ∈ k ∨ x ∈ l := by
  induction k with
  | nil => simp [appendC]
  | cons y k ih =>
    show x ∈ y :: appendC k l ↔ _
    simp [ih, or_assoc]

theorem bindC_mem {f : List Nat → WOut → Cases} {l : Cases} {x y : List Nat × WOut} (hx : x ∈ l) (hy : y ∈ f x.1 x.2) : y ∈ bindC f l := by
  induction l with
  | nil => cases hx
  | cons z l ih =>
    show y ∈ appendC (f z.1 z.2) (bindC f l)
    rw [appendC_mem]
    rcases List.mem_cons.mp hx with rfl | hx
    · exact .inl hy
    · exact .inr (ih hx)

theorem Covered.bind {a e : Exp R} {l : Cases} {f : List Nat → WOut → Cases} (h : Covered closed g a cs l)
    (hf : ∀ ss o, InSets closed ss cs → o.Right g a cs → Covered closed g e cs (f ss o)) : Covered closed g e cs (bindC f l) := by
  obtain ⟨x, hx, hw, ho⟩ := h
  obtain ⟨y, hy, h1⟩ := hf x.1 x.2 hw ho
  exact ⟨y, bindC_mem hx hy, h1⟩

theorem attach_succ_nil (n : Nat) (ss' : List Nat) : attach (n + 1) [] ss' = [] := rfl
theorem attach_succ_cons (n s : Nat) (ss ss' : List Nat) : attach (n + 1) (s :: ss) ss' = s :: attach n ss ss' := rfl

theorem attach_sound : ∀ {n : Nat} {ss ss' : List Nat} {cs : List Char}, InSets closed ss cs → InSets closed ss' (cs.drop n) →
    InSets closed (attach n ss ss') cs
  | 0, _, _, _, _, h' => h'
  | n + 1, [], ss', cs, h, _ => by rw [attach_succ_nil]; exact h
  | n + 1, s :: ss, ss', [], h, _ => by cases h
  | n + 1, s :: ss, ss', c :: cs, h, h' => by
    rw [attach_succ_cons]
    exact ⟨h.1, attach_sound h.2 (by simpa using h')⟩

theorem dropSets_succ_nil (n : Nat) : dropSets (n + 1) [] = [] := rfl
theorem dropSets_succ_cons (n s : Nat) (ss : List Nat) : dropSets (n + 1) (s :: ss) = dropSets n ss := rfl

theorem dropSets_sound : ∀ {n : Nat} {ss : List Nat} {cs : List Char}, InSets closed ss cs → InSets closed (dropSets n ss) (cs.drop n)
  | 0, _, _, h => h
  | n + 1, [], cs, h => by
    rw [dropSets_succ_nil]
    intro hc
    rw [h hc]
    rfl
  | n + 1, s :: ss, [], h => by cases h
  | n + 1, s :: ss, c :: cs, h => by
    rw [dropSets_succ_cons]
    exact dropSets_sound h.2

theorem after_mem {n : Nat} {ss : List Nat} {f : WOut → WOut} {l : Cases} {x : List Nat × WOut} (hx : x ∈ l) :
    (attach n ss x.1, f x.2) ∈ after n ss f l := by
  induction l with
  | nil => cases hx
  | cons z l ih =>
    show _ ∈ (attach n ss z.1, f z.2) :: after n ss f l
    rcases List.mem_cons.mp hx with rfl | hx
    · exact List.mem_cons_self
    · exact List.mem_cons_of_mem _ (ih hx)

theorem Covered.later {b e : Exp R} {n : Nat} {ss : List Nat} {f : WOut → WOut} {l : Cases} (hw : InSets closed ss cs)
    (h : Covered closed g b (cs.drop n) l) (hf : ∀ o, o.Right g b (cs.drop n) → (f o).Right g e cs) :
    Covered closed g e cs (after n ss f l) := by
  obtain ⟨x, hx, h1, h2⟩ := h
  exact ⟨_, after_mem hx, attach_sound hw h1, hf _ h2⟩

theorem Covered.sameText {b e : Exp R} {f : WOut → WOut} {l : Cases} (h : Covered closed g b cs l)
    (hf : ∀ o, o.Right g b cs → (f o).Right g e cs) : Covered closed g e cs (after 0 [] f l) := by
  obtain ⟨x, hx, h1, h2⟩ := h
  exact ⟨_, after_mem hx, h1, hf _ h2⟩

theorem says_plus {n : Nat} {o : WOut} {res : Res} (h : o.Says (cs.drop n) res) : (o.plus n).Says cs (res.prepend (cs.take n)) := by
  cases o with
  | unknown => trivial
  | fail => cases h; rfl
  | ok m =>
    cases h
    show _ = some (cs.take (n + m), cs.drop (n + m))
    simp [Res.prepend, List.take_add, List.drop_drop]
  | maybe m =>
    rcases h with h | h
    · cases h; exact .inl rfl
    · cases h
      refine .inr ?_
      show _ = some (cs.take (n + m), cs.drop (n + m))
      simp [Res.prepend, List.take_add, List.drop_drop]

theorem says_weak {o : WOut} {res : Res} (h : o.Says cs res) : o.weak.Says cs res := by
  cases o with
  | ok m => exact .inr h
  | _ => exact h

theorem says_weak_none {o : WOut} : o.weak.Says cs none ∨ o = .unknown := by
  cases o with
  | unknown => exact .inr rfl
  | fail => exact .inl rfl
  | ok m => exact .inl (.inl rfl)
  | maybe m => exact .inl (.inl rfl)

theorem weak_none {o : WOut} : o.weak.Says cs none := by
  cases o with
  | unknown => trivial
  | fail => exact rfl
  | ok m => exact .inl rfl
  | maybe m => exact .inl rfl

/-- The outcome of looking at something after `n` letters. -/
theorem says_keep {o : WOut} {ds : List Char} {n : Nat} {res : Res} (h : o.Says ds res) :
    (o.keep n).Says cs (match res with | some _ => some (cs.take n, cs.drop n) | none => none) := by
  cases o with
  | unknown => cases res with
    | none => exact .inl rfl
    | some => exact .inr rfl
  | fail => cases h; rfl
  | ok m => cases h; rfl
  | maybe m => rcases h with h | h
               · cases h; exact .inl rfl
               · cases h; exact .inr rfl

theorem says_keepNot {o : WOut} {ds : List Char} {n : Nat} {res : Res} (h : o.Says ds res) :
    (o.keepNot n).Says cs (match res with | some _ => none | none => some (cs.take n, cs.drop n)) := by
  cases o with
  | unknown => cases res with
    | none => exact .inr rfl
    | some => exact .inl rfl
  | fail => cases h; rfl
  | ok m => cases h; rfl
  | maybe m => rcases h with h | h
               · cases h; exact .inr rfl
               · cases h; exact .inl rfl

theorem says_orElse {n : Nat} {o : WOut} {res : Res} (h : o.Says cs res) : (o.orElse n).Says cs res := by
  cases o with
  | unknown => trivial
  | fail => exact .inl h
  | ok m =>
    show WOut.Says cs (match Nat.beq n m with | true => WOut.ok m | false => WOut.unknown) res
    cases Nat.beq n m with
    | true => exact h
    | false => trivial
  | maybe m =>
    show WOut.Says cs (match Nat.beq n m with | true => WOut.maybe m | false => WOut.unknown) res
    cases Nat.beq n m with
    | true => exact h
    | false => trivial

theorem orElse_some {n : Nat} {o : WOut} : (o.orElse n).Says cs (some (cs.take n, cs.drop n)) := by
  cases o with
  | unknown => trivial
  | fail => exact .inr rfl
  | ok m =>
    show WOut.Says cs (match Nat.beq n m with | true => WOut.ok m | false => WOut.unknown) _
    cases hb : Nat.beq n m with
    | true => rw [Nat.eq_of_beq_eq_true hb]; exact rfl
    | false => trivial
  | maybe m =>
    show WOut.Says cs (match Nat.beq n m with | true => WOut.maybe m | false => WOut.unknown) _
    cases hb : Nat.beq n m with
    | true => rw [Nat.eq_of_beq_eq_true hb]; exact .inr rfl
    | false => trivial

theorem winRep_succ (e : List Nat → Cases) (fuel n : Nat) (ss : List Nat) : winRep e (fuel + 1) n ss = bindC (fun ss' o => match o with
      | .unknown => [(ss', .unknown)]
      | .fail => [(ss', match n with
        | 0 => .ok 0
        | _ + 1 => .fail)]
      | .maybe _ => [(ss', .unknown)]
      | .ok k => match k with
        | 0 => [(ss', .unknown)]
        | k + 1 => after (k + 1) ss' (WOut.plus (k + 1)) (winRep e fuel (n - 1) (dropSets (k + 1) ss'))) (e ss) := rfl

section

variable (closed : Bool) (call : R → List Nat → Cases) (a b : MExp R) (ss : List Nat)

theorem winE_alt : winE closed call (.alt a b) ss = bindC (fun ss' o => match o with
      | .fail => winE closed call b ss'
      | .unknown => [(ss', .unknown)]
      | .ok n => [(ss', .ok n)]
      | .maybe n => after 0 [] (WOut.orElse n) (winE closed call b ss')) (winE closed call a ss) := rfl

theorem winE_longest : winE closed call (.longest a b) ss = bindC (fun ss' o => after 0 [] o.longest (winE closed call b ss')) (winE closed call a ss) := rfl

theorem winE_seq : winE closed call (.seq a b) ss = bindC (fun ss' o => match o with
      | .ok n => after n ss' (WOut.plus n) (winE closed call b (dropSets n ss'))
      | .maybe n => after n ss' (fun x => (x.plus n).weak) (winE closed call b (dropSets n ss'))
      | .unknown => [(ss', .unknown)]
      | .fail => [(ss', .fail)]) (winE closed call a ss) := rfl

theorem winE_rep (n : Nat) : winE closed call (.rep n a) ss = winRep (winE closed call a) (ss.length + 2) n ss := rfl

theorem winE_andPeek : winE closed call (.andPeek a b) ss = bindC (fun ss' o => match o with
      | .ok n => after n ss' (WOut.keep n) (winE closed call b (dropSets n ss'))
      | .maybe n => after n ss' (fun x => (x.keep n).weak) (winE closed call b (dropSets n ss'))
      | .unknown => [(ss', .unknown)]
      | .fail => [(ss', .fail)]) (winE closed call a ss) := rfl

theorem winE_andNot : winE closed call (.andNot a b) ss = bindC (fun ss' o => match o with
      | .ok n => after n ss' (WOut.keepNot n) (winE closed call b (dropSets n ss'))
      | .maybe n => after n ss' (fun x => (x.keepNot n).weak) (winE closed call b (dropSets n ss'))
      | .unknown => [(ss', .unknown)]
      | .fail => [(ss', .fail)]) (winE closed call a ss) := rfl

theorem winE_guardNot : winE closed call (.guardNot a b) ss = bindC (fun ss' o => match o with
      | .fail => winE closed call b ss'
      | .ok _ => [(ss', .fail)]
      | .unknown => after 0 [] WOut.weak (winE closed call b ss')
      | .maybe _ => after 0 [] WOut.weak (winE closed call b ss')) (winE closed call a ss) := rfl

end

theorem winRep_sound {e : Exp R} {f : List Nat → Cases} (hf : ∀ ss cs, InSets closed ss cs → Covered closed g e cs (f ss)) (fuel : Nat) :
    ∀ (n : Nat) (ss : List Nat) (cs : List Char), InSets closed ss cs → Covered closed g (.rep n e) cs (winRep f fuel n ss) := by
  induction fuel with
  | zero => intro n ss cs h; exact .unknown h
  | succ fuel ih =>
    intro n ss cs h
    rw [winRep_succ]
    refine Covered.bind (a := e) (l := f ss) (hf ss cs h) fun ss' o hw ho => ?_
    match o with
    | .unknown => exact .unknown hw
    | .maybe _ => exact .unknown hw
    | .fail =>
      cases n with
      | zero =>
        refine .one hw fun res hr => ?_
        cases hr with
        | repStop h => exact rfl
        | repStep h _ => cases ho _ h
      | succ n =>
        refine .one hw fun res hr => ?_
        cases hr with
        | repFail h => exact rfl
        | repStep h _ => cases ho _ h
    | .ok 0 => exact .unknown hw
    | .ok (k + 1) =>
      refine Covered.later hw (ih (n - 1) _ _ (dropSets_sound hw)) fun o' ho' res hr => ?_
      cases hr with
      | repStop h => cases ho _ h
      | repFail h => cases ho _ h
      | repStep h h' =>
        cases ho _ h
        exact says_plus (ho' _ h')

theorem longest_right {a b : Exp R} {o o' : WOut} (ho : o.Right g a cs) (ho' : o'.Right g b cs) :
    (o.longest o').Right g (.longest a b) cs := by
  intro res hr
  cases hr with
  | longest h h' =>
    have ho := ho _ h
    have ho' := ho' _ h'
    cases o with
    | unknown => trivial
    | fail =>
      cases ho
      exact ho'
    | ok n =>
      cases ho
      cases o' with
      | unknown => trivial
      | maybe => trivial
      | fail => cases ho'; exact rfl
      | ok m =>
        cases ho'
        simp only [Res.longest, List.length_drop]
        show WOut.Says _ (match Nat.ble m n with | true => .ok n | false => .ok m) _
        cases hnm : Nat.ble m n with
        | true =>
          have hnm := Nat.le_of_ble_eq_true hnm
          rw [if_pos (by omega)]
          exact rfl
        | false =>
          have hnm : ¬ m ≤ n := fun h => by rw [Nat.ble_eq_true_of_le h] at hnm; cases hnm
          by_cases hc : cs.length - n ≤ cs.length - m
          · rw [if_pos hc]
            have e1 : cs.take m = cs.take n := by rw [List.take_of_length_le (by omega), List.take_of_length_le (by omega)]
            have e2 : cs.drop m = cs.drop n := by rw [List.drop_eq_nil_of_le (by omega), List.drop_eq_nil_of_le (by omega)]
            show _ = some (cs.take m, cs.drop m)
            rw [e1, e2]
          · rw [if_neg hc]
            exact rfl
    | maybe n =>
      cases o' with
      | unknown => trivial
      | maybe => trivial
      | ok => trivial
      | fail =>
        cases ho'
        rcases ho with ho | ho
        · cases ho; exact .inl rfl
        · cases ho; exact .inr rfl

end

theorem winE_sound {closed : Bool} {g : R → Exp R} {call : R → List Nat → Cases}
    (hc : ∀ r ss cs, InSets closed ss cs → Covered closed g (.call r) cs (call r ss)) (e : Exp R) :
    ∀ (ss : List Nat) (cs : List Char), InSets closed ss cs → Covered closed g e cs (winE closed call (maskE e) ss) := by
  induction e with
  | null =>
    intro ss cs h
    refine .one (o := .ok 0) h fun res hr => ?_
    cases hr
    exact rfl
  | eof =>
    intro ss cs h
    cases ss with
    | nil =>
      cases closed with
      | true =>
        refine .one (o := .ok 0) h fun res hr => ?_
        have := h rfl
        subst this
        cases hr
        exact rfl
      | false => exact .unknown h
    | cons s ss =>
      cases cs with
      | nil => cases h
      | cons c cs =>
        refine .one (o := .fail) h fun res hr => ?_
        cases hr
        exact rfl
  | oneOf chs => intro ss cs h; exact winOneOf_sound chs ss h
  | call r => exact hc r
  | not e ih =>
    intro ss cs h
    refine Covered.sameText (f := WOut.neg) (ih ss cs h) fun o ho res hr => ?_
    cases hr with
    | notYes h =>
      have ho := ho _ h
      cases o with
      | unknown => exact .inr rfl
      | fail => exact rfl
      | ok n => cases ho
      | maybe n => exact .inr rfl
    | notNo h =>
      have ho := ho _ h
      cases o with
      | unknown => exact .inl rfl
      | fail => cases ho
      | ok n => exact rfl
      | maybe n => exact .inl rfl
  | peek e ih =>
    intro ss cs h
    refine Covered.sameText (f := WOut.look) (ih ss cs h) fun o ho res hr => ?_
    cases hr with
    | peekYes h =>
      have ho := ho _ h
      cases o with
      | unknown => exact .inr rfl
      | fail => cases ho
      | ok n => exact rfl
      | maybe n => exact .inr rfl
    | peekNo h =>
      have ho := ho _ h
      cases o with
      | unknown => exact .inl rfl
      | fail => exact rfl
      | ok n => cases ho
      | maybe n => exact .inl rfl
  | alt a b iha ihb =>
    intro ss cs h
    rw [maskE, winE_alt]
    refine Covered.bind (iha ss cs h) fun ss' o hw ho => ?_
    cases o with
    | unknown => exact .unknown hw
    | fail =>
      obtain ⟨x, hx, h1, h2⟩ := ihb ss' cs hw
      refine ⟨x, hx, h1, fun res hr => ?_⟩
      cases hr with
      | altL h => cases ho _ h
      | altR _ h => exact h2 _ h
    | ok n =>
      refine .one hw fun res hr => ?_
      cases hr with
      | altL h => exact ho _ h
      | altR h _ => cases ho _ h
    | maybe n =>
      refine Covered.sameText (f := WOut.orElse n) (ihb ss' cs hw) fun o' ho' res hr => ?_
      cases hr with
      | altL h =>
        rcases ho _ h with h | h
        · cases h
        · rw [h]; exact orElse_some
      | altR _ h => exact says_orElse (ho' _ h)
  | longest a b iha ihb =>
    intro ss cs h
    rw [maskE, winE_longest]
    refine Covered.bind (iha ss cs h) fun ss' o hw ho => ?_
    exact Covered.sameText (f := o.longest) (ihb ss' cs hw) fun o' ho' => longest_right ho ho'
  | seq a b iha ihb =>
    intro ss cs h
    rw [maskE, winE_seq]
    refine Covered.bind (iha ss cs h) fun ss' o hw ho => ?_
    cases o with
    | unknown => exact .unknown hw
    | fail =>
      refine .one hw fun res hr => ?_
      cases hr with
      | seqFail => exact rfl
      | seqGo h _ => cases ho _ h
    | ok n =>
      refine Covered.later hw (ihb _ _ (dropSets_sound hw)) fun o' ho' res hr => ?_
      cases hr with
      | seqFail h => cases ho _ h
      | seqGo h h' =>
        cases ho _ h
        exact says_plus (ho' _ h')
    | maybe n =>
      refine Covered.later (f := fun x => (x.plus n).weak) hw (ihb _ _ (dropSets_sound hw)) fun o' ho' res hr => ?_
      cases hr with
      | seqFail h => exact weak_none
      | seqGo h h' =>
        rcases ho _ h with h | h
        · cases h
        · cases h
          exact says_weak (says_plus (ho' _ h'))
  | rep n e ih => intro ss cs h; rw [maskE, winE_rep]; exact winRep_sound ih _ n ss cs h
  | andPeek e p ihe ihp =>
    intro ss cs h
    rw [maskE, winE_andPeek]
    refine Covered.bind (ihe ss cs h) fun ss' o hw ho => ?_
    cases o with
    | unknown => exact .unknown hw
    | fail =>
      refine .one hw fun res hr => ?_
      cases hr with
      | andPeekFail => exact rfl
      | andPeekYes h _ => cases ho _ h
      | andPeekNo h _ => exact rfl
    | ok n =>
      refine Covered.later hw (ihp _ _ (dropSets_sound hw)) fun o' ho' res hr => ?_
      cases hr with
      | andPeekFail h => cases ho _ h
      | andPeekYes h h' =>
        cases ho _ h
        exact says_keep (ho' _ h')
      | andPeekNo h h' =>
        cases ho _ h
        exact says_keep (ho' _ h')
    | maybe n =>
      refine Covered.later (f := fun x => (x.keep n).weak) hw (ihp _ _ (dropSets_sound hw)) fun o' ho' res hr => ?_
      cases hr with
      | andPeekFail h => exact weak_none
      | andPeekNo h h' => exact weak_none
      | andPeekYes h h' =>
        rcases ho _ h with h | h
        · cases h
        · cases h
          exact says_weak (says_keep (ho' _ h'))
  | andNot e p ihe ihp =>
    intro ss cs h
    rw [maskE, winE_andNot]
    refine Covered.bind (ihe ss cs h) fun ss' o hw ho => ?_
    cases o with
    | unknown => exact .unknown hw
    | fail =>
      refine .one hw fun res hr => ?_
      cases hr with
      | andNotFail => exact rfl
      | andNotYes h _ => cases ho _ h
      | andNotNo h _ => exact rfl
    | ok n =>
      refine Covered.later hw (ihp _ _ (dropSets_sound hw)) fun o' ho' res hr => ?_
      cases hr with
      | andNotFail h => cases ho _ h
      | andNotYes h h' =>
        cases ho _ h
        exact says_keepNot (ho' _ h')
      | andNotNo h h' =>
        cases ho _ h
        exact says_keepNot (ho' _ h')
    | maybe n =>
      refine Covered.later (f := fun x => (x.keepNot n).weak) hw (ihp _ _ (dropSets_sound hw)) fun o' ho' res hr => ?_
      cases hr with
      | andNotFail h => exact weak_none
      | andNotNo h h' => exact weak_none
      | andNotYes h h' =>
        rcases ho _ h with h | h
        · cases h
        · cases h
          exact says_weak (says_keepNot (ho' _ h'))
  | guardNot p e ihp ihe =>
    intro ss cs h
    rw [maskE, winE_guardNot]
    refine Covered.bind (ihp ss cs h) fun ss' o hw ho => ?_
    cases o with
    | unknown =>
      refine Covered.sameText (f := WOut.weak) (ihe ss' cs hw) fun o' ho' res hr => ?_
      cases hr with
      | guardBlock h => exact weak_none
      | guardGo _ h => exact says_weak (ho' _ h)
    | maybe n =>
      refine Covered.sameText (f := WOut.weak) (ihe ss' cs hw) fun o' ho' res hr => ?_
      cases hr with
      | guardBlock h => exact weak_none
      | guardGo _ h => exact says_weak (ho' _ h)
    | fail =>
      obtain ⟨x, hx, h1, h2⟩ := ihe ss' cs hw
      refine ⟨x, hx, h1, fun res hr => ?_⟩
      cases hr with
      | guardBlock h => cases ho _ h
      | guardGo _ h => exact h2 _ h
    | ok n =>
      refine .one hw fun res hr => ?_
      cases hr with
      | guardBlock h => exact rfl
      | guardGo h _ => cases ho _ h

/-! ### Joining -/

theorem sameSets_cons (a b : Nat) (as bs : List Nat) : sameSets (a :: as) (b :: bs) = match Nat.beq a b with
    | true => sameSets as bs
    | false => false := rfl

theorem sameSets_eq : ∀ {as bs : List Nat}, sameSets as bs = true → as = bs
  | [], [], _ => rfl
  | a :: as, b :: bs, h => by
    rw [sameSets_cons] at h
    split at h
    · rename_i hab
      rw [Nat.eq_of_beq_eq_true hab, sameSets_eq h]
    · cases h
  | [], _ :: _, h => by cases h
  | _ :: _, [], h => by cases h

theorem joinSets_cons (a b : Nat) (as bs : List Nat) : joinSets (a :: as) (b :: bs) = match Nat.beq a b with
    | true => match joinSets as bs with
      | some cs => some (a :: cs)
      | none => none
    | false => match sameSets as bs with
      | true => some (Nat.lor a b :: as)
      | false => none := rfl

theorem joinSets_sound {closed : Bool} : ∀ {as bs ss : List Nat} {cs : List Char}, joinSets as bs = some ss →
    InSets closed as cs ∨ InSets closed bs cs → InSets closed ss cs
  | [], [], ss, cs, h, h1 => by cases h; exact h1.elim id id
  | [], _ :: _, _, _, h, _ => by cases h
  | _ :: _, [], _, _, h, _ => by cases h
  | a :: as, b :: bs, ss, [], _, h1 => by exact h1.elim (fun h => by cases h) (fun h => by cases h)
  | a :: as, b :: bs, ss, c :: cs, h, h1 => by
    rw [joinSets_cons] at h
    split at h
    · rename_i hab
      have hab := Nat.eq_of_beq_eq_true hab
      subst hab
      split at h
      · rename_i ss' hss
        cases h
        exact ⟨h1.elim (·.1) (·.1), joinSets_sound hss (h1.imp (·.2) (·.2))⟩
      · cases h
    · split at h
      · rename_i h2
        have h2 := sameSets_eq h2
        subst h2
        cases h
        rcases h1 with h1 | h1
        · exact ⟨by show (a ||| b).testBit _ = true; simp [Nat.testBit_or, h1.1], h1.2⟩
        · exact ⟨by show (a ||| b).testBit _ = true; simp [Nat.testBit_or, h1.1], h1.2⟩
      · cases h

theorem addCase_cons (ss : List Nat) (o : WOut) (y : List Nat × WOut) (ys : Cases) : addCase ss o (y :: ys) = match o.same y.2 with
      | true => match joinSets ss y.1 with
        | some ss' => (ss', o) :: ys
        | none => y :: addCase ss o ys
      | false => y :: addCase ss o ys := rfl

theorem addCase_sound {closed : Bool} {g : R → Exp R} {e : Exp R} {cs : List Char} (ss : List Nat) (o : WOut) : ∀ (l : Cases),
    Covered closed g e cs ((ss, o) :: l) → Covered closed g e cs (addCase ss o l)
  | [], h => h
  | y :: ys, h => by
    have hrest : Covered closed g e cs (y :: addCase ss o ys) := by
      obtain ⟨z, hz, h1⟩ := h
      rcases List.mem_cons.mp hz with rfl | hz
      · exact (addCase_sound ss o ys ⟨(ss, o), List.mem_cons_self, h1⟩).cons
      · rcases List.mem_cons.mp hz with rfl | hz
        · exact ⟨z, List.mem_cons_self, h1⟩
        · exact (addCase_sound ss o ys ⟨z, List.mem_cons_of_mem _ hz, h1⟩).cons
    rw [addCase_cons]
    split
    · rename_i hxy
      have hxy := WOut.same_eq hxy
      split
      · rename_i ss' hss
        obtain ⟨z, hz, h1, h2⟩ := h
        rcases List.mem_cons.mp hz with rfl | hz
        · exact ⟨(ss', o), List.mem_cons_self, joinSets_sound hss (.inl h1), h2⟩
        · rcases List.mem_cons.mp hz with rfl | hz
          · exact ⟨(ss', o), List.mem_cons_self, joinSets_sound hss (.inr h1), hxy ▸ h2⟩
          · exact ⟨z, List.mem_cons_of_mem _ hz, h1, h2⟩
      · exact hrest
    · exact hrest

theorem joinCases_cons (x : List Nat × WOut) (l acc : Cases) : joinCases (x :: l) acc = joinCases l (addCase x.1 x.2 acc) := rfl

theorem joinCases_sound {closed : Bool} {g : R → Exp R} {e : Exp R} {cs : List Char} : ∀ (l acc : Cases),
    Covered closed g e cs l ∨ Covered closed g e cs acc → Covered closed g e cs (joinCases l acc)
  | [], acc, h => by
    rcases h with ⟨_, h, _⟩ | h
    · cases h
    · exact h
  | x :: l, acc, h => by
    rw [joinCases_cons]
    refine joinCases_sound l _ ?_
    rcases h with ⟨z, hz, h1⟩ | h
    · rcases List.mem_cons.mp hz with rfl | hz
      · exact .inr (addCase_sound _ _ acc ⟨z, List.mem_cons_self, h1⟩)
      · exact .inl ⟨z, hz, h1⟩
    · exact .inr (addCase_sound _ _ acc h.cons)

theorem winR_sound {closed : Bool} {g : R → Exp R} {gm : R → MExp R} (hg : ∀ r, gm r = maskE (g r)) (fuel : Nat) :
    ∀ (r : R) (ss : List Nat) (cs : List Char), InSets closed ss cs → Covered closed g (.call r) cs (winR closed gm fuel r ss) := by
  induction fuel with
  | zero => intro r ss cs h; exact .unknown h
  | succ fuel ih =>
    intro r ss cs h
    show Covered closed g _ cs (joinCases (winE closed (winR closed gm fuel) (gm r) ss) [])
    refine joinCases_sound _ _ (.inl ?_)
    rw [hg]
    obtain ⟨x, hx, h1, h2⟩ := winE_sound ih (g r) ss cs h
    refine ⟨x, hx, h1, fun res hr => ?_⟩
    cases hr with
    | call h => exact h2 _ h

/-- Every case has outcome `o`. -/
noncomputable def always (o : WOut) (l : Cases) : Bool :=
  List.rec (motive := fun _ => Bool) true (fun x _ ih => match x.2.same o with
    | true => ih
    | false => false) l

theorem always_mem {o : WOut} {l : Cases} (h : always o l = true) {x : List Nat × WOut} (hx : x ∈ l) : x.2 = o := by
  induction l with
  | nil => cases hx
  | cons y l ih =>
    have h : (match y.2.same o with
      | true => always o l
      | false => false) = true := h
    split at h
    · rename_i hy
      rcases List.mem_cons.mp hx with rfl | hx
      · exact WOut.same_eq hy
      · exact ih h hx
    · cases h

/-- No case takes `n` letters or more. -/
noncomputable def never (n : Nat) (l : Cases) : Bool :=
  List.rec (motive := fun _ => Bool) true (fun x _ ih => match x.2 with
    | .unknown => false
    | .fail => ih
    | .ok k => match Nat.ble n k with
      | true => false
      | false => ih
    | .maybe k => match Nat.ble n k with
      | true => false
      | false => ih) l

theorem never_mem {n : Nat} {l : Cases} (h : never n l = true) {x : List Nat × WOut} (hx : x ∈ l) :
    x.2 = .fail ∨ ∃ k, (x.2 = .ok k ∨ x.2 = .maybe k) ∧ k < n := by
  have hlt : ∀ {k}, Nat.ble n k = false → k < n := fun hk => Nat.lt_of_not_le fun hle => by
    rw [Nat.ble_eq_true_of_le hle] at hk
    cases hk
  induction l with
  | nil => cases hx
  | cons y l ih =>
    have h : (match y.2 with
      | .unknown => false
      | .fail => never n l
      | .ok k => match Nat.ble n k with
        | true => false
        | false => never n l
      | .maybe k => match Nat.ble n k with
        | true => false
        | false => never n l) = true := h
    split at h
    · cases h
    · rename_i hy
      rcases List.mem_cons.mp hx with rfl | hx
      · exact .inl hy
      · exact ih h hx
    · rename_i k hy
      split at h
      · cases h
      · rename_i hk
        rcases List.mem_cons.mp hx with rfl | hx
        · exact .inr ⟨k, .inl hy, hlt hk⟩
        · exact ih h hx
    · rename_i k hy
      split at h
      · cases h
      · rename_i hk
        rcases List.mem_cons.mp hx with rfl | hx
        · exact .inr ⟨k, .inr hy, hlt hk⟩
        · exact ih h hx

/-- If all the cases have the same outcome, that is the outcome. -/
theorem win_all {closed : Bool} {g : R → Exp R} {gm : R → MExp R} (hg : ∀ r, gm r = maskE (g r)) {fuel : Nat} {r : R} {ss : List Nat} {o : WOut}
    (h : always o (winR closed gm fuel r ss) = true) {cs : List Char} (hw : InSets closed ss cs) : o.Right g (.call r) cs := by
  obtain ⟨x, hx, _, h2⟩ := winR_sound hg fuel r ss cs hw
  simpa [always_mem h hx] using h2

end Sneturfahi
