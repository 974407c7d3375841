import Verif.Spec.Written
import Verif.Props.Elide
import Verif.Props.Work
import Verif.Props.Lex

/-!
# C89: texts as they are written can be put together and taken apart
-/

namespace Sneturfahi.Props

open Spec

/-- The selma'o of some tokens. -/
def kinds (l : List Token) : List Selmaho := l.map Token.selmaho

theorem isText_kinds {a b : List Token} (h : kinds a = kinds b) : IsText a ↔ IsText b := by
  refine C78_text a b ?_
  have : ∀ l : List Token, classes l = (kinds l).map wordClass := fun l => by simp [classes, kinds]
  rw [this, this, h]

/-- A text that is read as `toks` is grammatical exactly if `toks` are a text. -/
theorem C89_grammatical (a : List Char) (A : List Token) (h : ReadAs a A) : Grammatical a ↔ IsText A := by
  constructor
  · intro hg p ptr
    obtain ⟨toks, root, h1, h2⟩ := hg p 0 ptr
    rw [h p 0] at h1
    have : toks = A := by
      have h1 : A.map Except.ok = toks.map (Except.ok (ε := LexError)) := by injection h1
      exact (List.map_inj_right (fun _ _ he => by injection he)).mp h1.symm
    exact ⟨root, this ▸ h2⟩
  · intro ht p ptr ptr'
    obtain ⟨root, hr⟩ := ht p ptr'
    exact ⟨A, root, h p ptr, hr⟩

theorem items_of (a : List Char) (h : byteLen a < 2 ^ 32) : ∃ items, ∀ p ptr, lexAll p ⟨ptr, a⟩ = .val items := by
  obtain ⟨items, hl, _⟩ := lex_all ⟨0, a⟩ h
  exact ⟨items, fun p ptr => (lexAll_iff p ⟨ptr, a⟩ h items).mpr hl⟩

theorem readAs_iff {a : List Char} {items : List LexItem} (h : ∀ p ptr, lexAll p ⟨ptr, a⟩ = .val items) (A : List Token) :
    ReadAs a A ↔ items = A.map .ok := by
  constructor
  · intro ha
    have := ha .debug 0
    rw [h] at this
    injection this
  · rintro rfl
    exact h

theorem oks_of_noError {items : List LexItem} (h : ∀ e, .error e ∉ items) : ∃ A : List Token, items = A.map .ok := by
  induction items with
  | nil => exact ⟨[], rfl⟩
  | cons x l ih =>
    obtain ⟨A, rfl⟩ := ih (fun e he => h e (by simp [he]))
    cases x with
    | ok t => exact ⟨t :: A, rfl⟩
    | error e => exact absurd (List.mem_cons_self ..) (h e)

theorem shift_ok {n : Nat} {items : List LexItem} {B : List Token} (h : items.map (shiftItem n) = B.map .ok) :
    ∃ B' : List Token, items = B'.map .ok ∧ kinds B' = kinds B := by
  induction items generalizing B with
  | nil =>
    cases B with
    | nil => exact ⟨[], rfl, rfl⟩
    | cons => cases h
  | cons x l ih =>
    cases B with
    | nil => cases h
    | cons b B =>
      rw [List.map_cons, List.map_cons] at h
      injection h with h1 h2
      obtain ⟨B', rfl, hk⟩ := ih h2
      cases x with
      | error e => cases e <;> cases h1
      | ok t =>
        refine ⟨t :: B', rfl, ?_⟩
        injection h1 with h1
        simp only [kinds, List.map_cons] at hk ⊢
        rw [hk, ← h1]

theorem shift_oks (n : Nat) (B : List Token) : ∃ B' : List Token, (B.map Except.ok).map (shiftItem n) = B'.map .ok ∧ kinds B' = kinds B := by
  refine ⟨B.map (fun t => { t with span := shift n t.span }), ?_, ?_⟩
  · simp [shiftItem, Function.comp_def]
  · simp [kinds, Function.comp_def]

/-- Reading two texts one after the other, on strings. -/
theorem read_both {a b : List Char} {sep : Char} (hsep : IsSeparator sep) (h : byteLen (a ++ sep :: b) < 2 ^ 32) {A : List Token}
    (ha : ReadAs a A) (hA : GoesOn A) {ib : List LexItem} (hb : ∀ p ptr, lexAll p ⟨ptr, b⟩ = .val ib) :
    ∀ p ptr, lexAll p ⟨ptr, a ++ sep :: b⟩ = .val (A.map .ok ++ ib.map (shiftItem (byteLen a + 1))) := by
  intro p ptr
  refine C42_local p ptr 0 0 a b sep hsep h _ _ (ha p 0) (hb p 0) (fun e he => ?_) (fun t ht => ?_)
  · obtain ⟨t, _, h⟩ := List.mem_map.mp he
    cases h
  · obtain ⟨t', h1, h⟩ := List.mem_map.mp ht
    cases h
    have := hA _ h1
    exact fun h => h.elim this.1 this.2

/-- **C89.** If `a` is read as the words `A` (without `fa'o`) then `a`, a separator and `b` are read, without errors, exactly if `b` is:
as the words `A` and then those of `b`. -/
theorem C89_read (a b : List Char) (sep : Char) (hsep : IsSeparator sep) (h : byteLen (a ++ sep :: b) < 2 ^ 32) (A : List Token)
    (ha : ReadAs a A) (hA : GoesOn A) :
    (∀ B, ReadAs b B → ∃ B', ReadAs (a ++ sep :: b) (A ++ B') ∧ kinds B' = kinds B) ∧
    (∀ W, ReadAs (a ++ sep :: b) W → ∃ B, ReadAs b B ∧ kinds W = kinds (A ++ B)) := by
  obtain ⟨ib, hb⟩ := items_of b (size_parts h).2
  have hj := read_both hsep h ha hA hb
  constructor
  · intro B hB
    rw [readAs_iff hb] at hB
    subst hB
    obtain ⟨B', h1, h2⟩ := shift_oks (byteLen a + 1) B
    exact ⟨B', (readAs_iff hj _).mpr (by rw [h1, List.map_append]), h2⟩
  · intro W hW
    rw [readAs_iff hj] at hW
    obtain ⟨l1, l2, rfl, h1, h2⟩ := List.map_eq_append_iff.mp hW.symm
    obtain ⟨B, h3, h4⟩ := shift_ok h2.symm
    have : l1 = A := (List.map_inj_right (fun _ _ he => by injection he)).mp h1
    exact ⟨B, (readAs_iff hb B).mpr h3, by simp only [kinds, List.map_append] at h4 ⊢; rw [h4, this]⟩

theorem grammatical_read {a : List Char} (h : Grammatical a) (hl : byteLen a < 2 ^ 32) : ∃ A, ReadAs a A := by
  obtain ⟨ia, hi⟩ := items_of a hl
  obtain ⟨A, _, h1, _⟩ := h .debug 0 0
  rw [hi] at h1
  exact ⟨A, (readAs_iff hi A).mpr (by injection h1)⟩

/-- The general form: if what the words have to be is known, so is what the strings have to be. -/
theorem grammatical_join {a w b : List Char} {s1 s2 : Char} (hs1 : IsSeparator s1) (hs2 : IsSeparator s2)
    (h : byteLen (a ++ s1 :: (w ++ s2 :: b)) < 2 ^ 32) {A : List Token} {x : Token} (ha : ReadAs a A) (hw : ReadAs w [x]) (hA : GoesOn A)
    (hx : GoesOn [x]) (hjoin : ∀ B, ReadAs b B → (IsText (A ++ x :: B) ↔ IsText A ∧ IsText B)) :
    Grammatical (a ++ s1 :: (w ++ s2 :: b)) ↔ Grammatical a ∧ Grammatical b := by
  have h' := (size_parts h).2
  have r1 := C89_read a (w ++ s2 :: b) s1 hs1 h A ha hA
  have r2 := C89_read w b s2 hs2 h' [x] hw hx
  constructor
  · intro hg
    obtain ⟨W, hW⟩ := grammatical_read hg h
    obtain ⟨V, hV, k1⟩ := r1.2 W hW
    obtain ⟨B, hB, k2⟩ := r2.2 V hV
    have ht := (C89_grammatical _ W hW).mp hg
    have : kinds W = kinds (A ++ x :: B) := by
      simp only [kinds, List.map_append, List.map_cons, List.map_nil] at k1 k2 ⊢
      rw [k1, k2]; rfl
    rw [isText_kinds this, hjoin B hB] at ht
    exact ⟨(C89_grammatical a A ha).mpr ht.1, (C89_grammatical b B hB).mpr ht.2⟩
  · rintro ⟨g1, g2⟩
    obtain ⟨B, hB⟩ := grammatical_read g2 (size_parts h').2
    obtain ⟨B', h1, k1⟩ := r2.1 B hB
    obtain ⟨B'', h2, k2⟩ := r1.1 _ h1
    refine (C89_grammatical _ _ h2).mpr ((isText_kinds (b := A ++ x :: B) ?_).mpr ((hjoin B hB).mpr
      ⟨(C89_grammatical a A ha).mp g1, (C89_grammatical b B hB).mp g2⟩))
    simp only [kinds, List.map_append, List.map_cons, List.map_nil] at k1 k2 ⊢
    rw [k2, k1]; rfl

/-- **C89.** Writing `.i` between them: `a .i b` is grammatical exactly if `a` and `b` are, if `a` is read as a piece without wrapping
words, `fa'o`, `fa'o'o`, `ni'o` and `.i` that does not end with `ba'e`, and the words of `b` do not begin with one that has to do with
the `.i`. -/
theorem C89_sentence (a i b : List Char) (s1 s2 : Char) (hs1 : IsSeparator s1) (hs2 : IsSeparator s2)
    (h : byteLen (a ++ s1 :: (i ++ s2 :: b)) < 2 ^ 32) (A : List Token) (ti : Token) (ha : ReadAs a A) (hi : ReadAs i [ti]) (hti : ti.selmaho = .I)
    (hA : Piece A) (hA' : GoesOn A) (hAi : ∀ t ∈ A, t.selmaho ≠ .I) (hb : ∀ B, ReadAs b B → Starts B) :
    Grammatical (a ++ s1 :: (i ++ s2 :: b)) ↔ Grammatical a ∧ Grammatical b :=
  grammatical_join hs1 hs2 h ha hi hA' (by intro t ht; rw [List.mem_singleton.mp ht, hti]; decide)
    (fun B hB => C74_sentence A B ti hA hAi hti (hb B hB))

/-- **C89.** The same with `ni'o`. -/
theorem C89_paragraph (a n b : List Char) (s1 s2 : Char) (hs1 : IsSeparator s1) (hs2 : IsSeparator s2)
    (h : byteLen (a ++ s1 :: (n ++ s2 :: b)) < 2 ^ 32) (A : List Token) (tn : Token) (ha : ReadAs a A) (hn : ReadAs n [tn]) (htn : tn.selmaho = .Niho)
    (hA : Piece A) (hA' : GoesOn A) (hb : ∀ B, ReadAs b B → NotBound B) :
    Grammatical (a ++ s1 :: (n ++ s2 :: b)) ↔ Grammatical a ∧ Grammatical b :=
  grammatical_join hs1 hs2 h ha hn hA' (by intro t ht; rw [List.mem_singleton.mp ht, htn]; decide)
    (fun B hB => C73_paragraph A B tn hA htn (hb B hB))

/-- What two texts read alike have in common: if the words before and after are the same and it does not matter which of `X` and `Y`
stands between them, it does not matter which of two strings does. -/
theorem grammatical_swap {a v v' b : List Char} {s1 s2 s1' s2' : Char} (hs1 : IsSeparator s1) (hs2 : IsSeparator s2)
    (hs1' : IsSeparator s1') (hs2' : IsSeparator s2')
    (h : byteLen (a ++ s1 :: (v ++ s2 :: b)) < 2 ^ 32) (h' : byteLen (a ++ s1' :: (v' ++ s2' :: b)) < 2 ^ 32) {A X Y : List Token}
    (ha : ReadAs a A) (hv : ReadAs v X) (hv' : ReadAs v' Y) (hA : GoesOn A) (hX : GoesOn X) (hY : GoesOn Y)
    (hjoin : ∀ B, ReadAs b B → (IsText (A ++ X ++ B) → IsText (A ++ Y ++ B)))
    (hg : Grammatical (a ++ s1 :: (v ++ s2 :: b))) : Grammatical (a ++ s1' :: (v' ++ s2' :: b)) := by
  have r1 := C89_read a (v ++ s2 :: b) s1 hs1 h A ha hA
  have r2 := C89_read v b s2 hs2 (size_parts h).2 X hv hX
  have r1' := C89_read a (v' ++ s2' :: b) s1' hs1' h' A ha hA
  have r2' := C89_read v' b s2' hs2' (size_parts h').2 Y hv' hY
  obtain ⟨W, hW⟩ := grammatical_read hg h
  obtain ⟨V, hV, k1⟩ := r1.2 W hW
  obtain ⟨B, hB, k2⟩ := r2.2 V hV
  have ht := (C89_grammatical _ W hW).mp hg
  have : kinds W = kinds (A ++ X ++ B) := by
    simp only [kinds, List.map_append] at k1 k2 ⊢
    rw [k1, k2, List.append_assoc]
  rw [isText_kinds this] at ht
  obtain ⟨B', h1, k1⟩ := r2'.1 B hB
  obtain ⟨B'', h2, k2⟩ := r1'.1 _ h1
  refine (C89_grammatical _ _ h2).mpr ((isText_kinds (b := A ++ Y ++ B) ?_).mpr (hjoin B hB ht))
  simp only [kinds, List.map_append] at k1 k2 ⊢
  rw [k2, k1, List.append_assoc]

/-- **C89.** A brivla in a text, as it is written, may be replaced by any other. -/
theorem C89_brivla (a w w' b : List Char) (s1 s2 : Char) (hs1 : IsSeparator s1) (hs2 : IsSeparator s2)
    (h : byteLen (a ++ s1 :: (w ++ s2 :: b)) < 2 ^ 32) (h' : byteLen (a ++ s1 :: (w' ++ s2 :: b)) < 2 ^ 32) (A : List Token) (x y : Token)
    (ha : ReadAs a A) (hA : GoesOn A) (hw : ReadAs w [x]) (hw' : ReadAs w' [y]) (hx : x.selmaho ∈ brivla) (hy : y.selmaho ∈ brivla) :
    Grammatical (a ++ s1 :: (w ++ s2 :: b)) ↔ Grammatical (a ++ s1 :: (w' ++ s2 :: b)) := by
  have goes : ∀ z : Token, z.selmaho ∈ brivla → GoesOn [z] := by
    intro z hz t ht
    rw [List.mem_singleton.mp ht]
    generalize z.selmaho = s at hz
    revert hz; cases s <;> decide
  have both : ∀ {x y : Token}, x.selmaho ∈ brivla → y.selmaho ∈ brivla → ∀ B, IsText (A ++ [x] ++ B) → IsText (A ++ [y] ++ B) := by
    intro x y hx hy B
    rw [List.append_assoc, List.append_assoc]
    exact (C78_replace A B x y hx hy).mp
  exact ⟨grammatical_swap hs1 hs2 hs1 hs2 h h' ha hw hw' hA (goes x hx) (goes y hy) (fun B _ => both hx hy B),
    grammatical_swap hs1 hs2 hs1 hs2 h' h ha hw' hw hA (goes y hy) (goes x hx) (fun B _ => both hy hx B)⟩

/-- **C89.** It does not matter which separator stands between two words. -/
theorem C89_separator (a b : List Char) (s s' : Char) (hs : IsSeparator s) (hs' : IsSeparator s') (h : byteLen (a ++ s :: b) < 2 ^ 32)
    (h' : byteLen (a ++ s' :: b) < 2 ^ 32) (A : List Token) (ha : ReadAs a A) (hA : GoesOn A) :
    Grammatical (a ++ s :: b) ↔ Grammatical (a ++ s' :: b) := by
  have r := C89_read a b s hs h A ha hA
  have r' := C89_read a b s' hs' h' A ha hA
  have one : ∀ {s s' : Char} (h : byteLen (a ++ s :: b) < 2 ^ 32) (r : ∀ W, ReadAs (a ++ s :: b) W → ∃ B, ReadAs b B ∧ kinds W = kinds (A ++ B))
      (r' : ∀ B, ReadAs b B → ∃ B', ReadAs (a ++ s' :: b) (A ++ B') ∧ kinds B' = kinds B),
      Grammatical (a ++ s :: b) → Grammatical (a ++ s' :: b) := by
    intro s s' h r r' hg
    obtain ⟨W, hW⟩ := grammatical_read hg h
    obtain ⟨B, hB, k⟩ := r W hW
    obtain ⟨B', hB', k'⟩ := r' B hB
    refine (C89_grammatical _ _ hB').mpr ((isText_kinds (b := W) ?_).mpr ((C89_grammatical _ W hW).mp hg))
    simp only [kinds, List.map_append] at k k' ⊢
    rw [k', k]
  exact ⟨one h r.2 r'.1, one h' r'.2 r.1⟩

/-- **C89.** An indicator, or `ba'e` before some word, may be written or left out anywhere, if no word of the text takes what is next to
it as it is. -/
theorem C89_indicator (a u b : List Char) (s1 s2 s : Char) (hs1 : IsSeparator s1) (hs2 : IsSeparator s2) (hs : IsSeparator s)
    (h : byteLen (a ++ s1 :: (u ++ s2 :: b)) < 2 ^ 32) (h' : byteLen (a ++ s :: b) < 2 ^ 32) (A : List Token) (x : Token)
    (ha : ReadAs a A) (hA : GoesOn A) (hu : ReadAs u [x]) (hx : x.selmaho ∈ decorating)
    (ht : ∀ B, ReadAs b B → (∀ t ∈ A ++ B, t.selmaho ∉ taking) ∧ (∀ t, (A ++ B).getLast? = some t → t.selmaho ≠ .Bahe) ∧ (x.selmaho = .Bahe → B ≠ [])) :
    Grammatical (a ++ s1 :: (u ++ s2 :: b)) ↔ Grammatical (a ++ s :: b) := by
  have hX : GoesOn [x] := by
    intro t ht
    rw [List.mem_singleton.mp ht]
    generalize x.selmaho = s at hx
    revert hx; cases s <;> decide
  have r1 := C89_read a (u ++ s2 :: b) s1 hs1 h A ha hA
  have r2 := C89_read u b s2 hs2 (size_parts h).2 [x] hu hX
  have r := C89_read a b s hs h' A ha hA
  have add : ∀ B, ReadAs b B → (IsText (A ++ x :: B) ↔ IsText (A ++ B)) := fun B hB =>
    C77_add A B x hx (ht B hB).1 (ht B hB).2.1 (ht B hB).2.2
  constructor
  · intro hg
    obtain ⟨W, hW⟩ := grammatical_read hg h
    obtain ⟨V, hV, k1⟩ := r1.2 W hW
    obtain ⟨B, hB, k2⟩ := r2.2 V hV
    obtain ⟨B', hB', k⟩ := r.1 B hB
    refine (C89_grammatical _ _ hB').mpr ((isText_kinds (b := A ++ B) ?_).mpr ((add B hB).mp ((isText_kinds (a := W) ?_).mp
      ((C89_grammatical _ W hW).mp hg))))
    · simp only [kinds, List.map_append] at k ⊢; rw [k]
    · simp only [kinds, List.map_append, List.map_cons, List.map_nil] at k1 k2 ⊢; rw [k1, k2]; rfl
  · intro hg
    obtain ⟨W, hW⟩ := grammatical_read hg h'
    obtain ⟨B, hB, k⟩ := r.2 W hW
    obtain ⟨B1, h1, k1⟩ := r2.1 B hB
    obtain ⟨B2, h2, k2⟩ := r1.1 _ h1
    refine (C89_grammatical _ _ h2).mpr ((isText_kinds (b := A ++ x :: B) ?_).mpr ((add B hB).mpr ((isText_kinds (a := W) k).mp
      ((C89_grammatical _ W hW).mp hg))))
    simp only [kinds, List.map_append, List.map_cons, List.map_nil] at k1 k2 ⊢; rw [k2, k1]; rfl

/-- **C89.** Closing words at the end of a text, as it is written, may be left out. -/
theorem C89_closers (a c : List Char) (s : Char) (hs : IsSeparator s) (h : byteLen (a ++ s :: c) < 2 ^ 32) (A C : List Token)
    (ha : ReadAs a A) (hA : GoesOn A) (hc : ReadAs c C) (hq : Unquoted A) (ht : ∀ t ∈ C, t.selmaho ∈ Selmaho.Ku :: Selmaho.Kehe :: closing)
    (hku : ∀ t ∈ C, t.selmaho = .Ku → ¬ EndsWithNa A)
    (hkehe : ∀ t ∈ C, t.selmaho = .Kehe → ∀ u ∈ A, u.selmaho ∉ [Selmaho.Vuhu, .Nahu, .Maho])
    (hg : Grammatical (a ++ s :: c)) : Grammatical a := by
  obtain ⟨C', hC', k⟩ := (C89_read a c s hs h A ha hA).1 C hc
  refine (C89_grammatical a A ha).mpr (C87_closers A C hq ht hku hkehe ((isText_kinds (a := A ++ C') ?_).mp ((C89_grammatical _ _ hC').mp hg)))
  simp only [kinds, List.map_append] at k ⊢
  rw [k]

theorem readAs_of {a : List Char} {A : List Token} (hl : byteLen a < 2 ^ 32) (h : lexAll .debug ⟨0, a⟩ = .val (A.map .ok)) : ReadAs a A := by
  obtain ⟨ia, hi⟩ := items_of a hl
  rw [hi] at h
  exact (readAs_iff hi A).mpr (by injection h)

/-- `n` times `ba'e `, and `klama`. -/
def shouted (n : Nat) : List Char := (List.replicate n c!"ba'e ").flatten ++ c!"klama"

theorem byteLen_shouted (n : Nat) : byteLen (shouted n) = 5 * (n + 1) := by
  induction n with
  | zero => decide
  | succ n ih =>
    have e : shouted (n + 1) = c!"ba'e " ++ shouted n := by simp [shouted, List.replicate_succ]
    have e2 : byteLen c!"ba'e " = 5 := by decide
    rw [e, byteLen_append, ih, e2]
    omega

theorem shouted_read (n : Nat) (h : 5 * (n + 1) < 2 ^ 32) :
    ∃ W, ReadAs (shouted n) W ∧ kinds W = List.replicate n .Bahe ++ [.Gismu] := by
  induction n with
  | zero => exact ⟨[⟨false, .Gismu, ⟨0, 5⟩⟩], readAs_of (by decide) (by decide +kernel), rfl⟩
  | succ n ih =>
    obtain ⟨W, hW, hk⟩ := ih (by omega)
    have hb : ReadAs c!"ba'e" [⟨false, .Bahe, ⟨0, 4⟩⟩] := readAs_of (by decide) (by decide +kernel)
    have e : shouted (n + 1) = c!"ba'e" ++ ' ' :: shouted n := by simp [shouted, List.replicate_succ]
    have hl := byteLen_shouted (n + 1)
    rw [e] at hl ⊢
    obtain ⟨W', h1, h2⟩ := (C89_read _ (shouted n) ' ' (by simp [IsSeparator]) (by rw [hl]; exact h) _ hb
      (by intro t ht; rw [List.mem_singleton.mp ht]; decide)).1 W hW
    refine ⟨_, h1, ?_⟩
    simp only [kinds, List.map_append, List.map_cons, List.map_nil] at h2 hk ⊢
    rw [h2, hk]; rfl

/-- **C89.** The example of slow parsing, as it is written: `ba'e .. ba'e klama` is grammatical, and with `n` words `ba'e` parsing it
makes at least `2 ^ n` calls. -/
theorem C89_exponential (p : Profile) (n : Nat) (h : 5 * (n + 1) < 2 ^ 32) (ptr ptr' : Nat) : Grammatical (shouted n) ∧
    ∃ toks out u, lexAll p ⟨ptr, shouted n⟩ = .val (toks.map .ok) ∧ parseCst p ⟨ptr', toks⟩ = .val out ∧
      parseCstW p ⟨ptr', toks⟩ = .val (out, u) ∧ 2 ^ n ≤ u.calls := by
  obtain ⟨W, hW, hk⟩ := shouted_read n h
  obtain ⟨bs, r, rfl, h1, h2⟩ := List.map_eq_append_iff.mp hk
  obtain ⟨g, rfl, hg⟩ : ∃ g, r = [g] ∧ g.selmaho = .Gismu := by
    obtain ⟨g, l, rfl, hg, hl⟩ := List.map_eq_cons_iff.mp h2
    cases List.map_eq_nil_iff.mp hl
    exact ⟨g, rfl, hg⟩
  have hb : ∀ b ∈ bs, b.selmaho = .Bahe := fun b hb => (List.mem_replicate.mp (h1 ▸ List.mem_map_of_mem hb)).2
  have hn : bs.length = n := by
    have := congrArg List.length h1
    simpa using this
  constructor
  · refine (C89_grammatical _ _ hW).mpr ((isText_kinds ?_).mp (C88_texts n ⟨false, .Bahe, ⟨0, 4⟩⟩ g rfl hg))
    rw [hk]
    simp [kinds, hg]
  · obtain ⟨out, u, q1, q2, q3, _⟩ := C88_exponential p ptr' bs [g] hb (fun t q h => by cases h; rw [hg]; decide)
    exact ⟨bs ++ [g], out, u, hW p ptr, q1, q2, hn ▸ q3⟩

/-! Cases: the words read, and the conditions of the theorems met. -/

example : ReadAs c!".i" [⟨false, .I, ⟨1, 2⟩⟩] ∧ ReadAs c!"ni'o" [⟨false, .Niho, ⟨0, 4⟩⟩] ∧ ReadAs c!"ui" [⟨false, .Ui, ⟨0, 2⟩⟩] ∧
    ReadAs c!"vau" [⟨false, .Vau, ⟨0, 3⟩⟩] ∧ ReadAs c!"klama" [⟨false, .Gismu, ⟨0, 5⟩⟩] ∧ ReadAs c!"brivla" [⟨false, .Lujvo, ⟨0, 6⟩⟩] :=
  ⟨readAs_of (by decide) (by decide +kernel), readAs_of (by decide) (by decide +kernel), readAs_of (by decide) (by decide +kernel),
    readAs_of (by decide) (by decide +kernel), readAs_of (by decide) (by decide +kernel), readAs_of (by decide) (by decide +kernel)⟩

theorem mi_klama : ReadAs c!"mi klama" [⟨false, .Koha, ⟨0, 2⟩⟩, ⟨false, .Gismu, ⟨3, 8⟩⟩] := readAs_of (by decide) (by decide +kernel)

/-- `mi klama` and any grammatical text that begins with one of the words that have nothing to do with `.i`: with `.i` between them they
are grammatical. -/
example (b : List Char) (hl : byteLen b < 2 ^ 31) (hb : ∀ B, ReadAs b B → Starts B) :
    Grammatical (c!"mi klama .i " ++ b) ↔ Grammatical b := by
  have hg : Grammatical c!"mi klama" := (C89_grammatical _ _ mi_klama).mpr (by decide +kernel)
  have := C89_sentence c!"mi klama" c!".i" b ' ' ' ' (by simp [IsSeparator]) (by simp [IsSeparator])
    (by
      have e : byteLen c!"mi klama" = 8 ∧ byteLen c!".i" = 2 ∧ Char.utf8Size ' ' = 1 := by decide
      simp only [byteLen_append, byteLen_cons, e.1, e.2.1, e.2.2]; omega)
    _ ⟨false, .I, ⟨1, 2⟩⟩ mi_klama (readAs_of (by decide) (by decide +kernel)) rfl ⟨by decide, by decide, by decide, by decide⟩
    (by intro t ht; revert t; decide) (by decide) hb
  simpa [hg] using this

theorem grammatical_yes {a : List Char} {A : List Token} (h1 : byteLen a < 2 ^ 32) (h2 : lexAll .debug ⟨0, a⟩ = .val (A.map .ok))
    (h3 : IsText A) : Grammatical a :=
  (C89_grammatical _ _ (readAs_of h1 h2)).mpr h3

theorem grammatical_no {a : List Char} {A : List Token} (h1 : byteLen a < 2 ^ 32) (h2 : lexAll .debug ⟨0, a⟩ = .val (A.map .ok))
    (h3 : ¬ IsText A) : ¬ Grammatical a :=
  fun h => h3 ((C89_grammatical _ _ (readAs_of h1 h2)).mp h)

/-- What the conditions are for: `zo .i` quotes the `.i`, and nothing after `fa'o` is read. -/
theorem C89_conditions : (Grammatical c!"zo .i " ∧ ¬ Grammatical c!"zo") ∧ (Grammatical c!"fa'o .i cu" ∧ ¬ Grammatical c!"cu") := by
  refine ⟨⟨?_, ?_⟩, ?_, ?_⟩
  · exact grammatical_yes (A := [⟨false, .Zo, ⟨0, 2⟩⟩, ⟨false, .I, ⟨4, 5⟩⟩]) (by decide) (by decide +kernel) (by decide +kernel)
  · exact grammatical_no (A := [⟨false, .Zo, ⟨0, 2⟩⟩]) (by decide) (by decide +kernel) (by decide +kernel)
  · exact grammatical_yes (A := [⟨false, .Faho, ⟨0, 4⟩⟩]) (by decide) (by decide +kernel) (by decide +kernel)
  · exact grammatical_no (A := [⟨false, .Cu, ⟨0, 2⟩⟩]) (by decide) (by decide +kernel) (by decide +kernel)

/-- A part that is not grammatical. -/
theorem C89_case : Grammatical c!"mi mo .i do mo" ∧ ¬ Grammatical c!"mi mo cu .i do mo" := by
  refine ⟨?_, ?_⟩
  · exact grammatical_yes (A := [⟨false, .Koha, ⟨0, 2⟩⟩, ⟨false, .Goha, ⟨3, 5⟩⟩, ⟨false, .I, ⟨7, 8⟩⟩, ⟨false, .Koha, ⟨9, 11⟩⟩,
      ⟨false, .Goha, ⟨12, 14⟩⟩]) (by decide) (by decide +kernel) (by decide +kernel)
  · exact grammatical_no (A := [⟨false, .Koha, ⟨0, 2⟩⟩, ⟨false, .Goha, ⟨3, 5⟩⟩, ⟨false, .Cu, ⟨6, 8⟩⟩, ⟨false, .I, ⟨10, 11⟩⟩, ⟨false, .Koha, ⟨12, 14⟩⟩,
      ⟨false, .Goha, ⟨15, 17⟩⟩]) (by decide) (by decide +kernel) (by decide +kernel)

end Sneturfahi.Props
