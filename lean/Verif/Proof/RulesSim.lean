import Verif.Proof.PegSim
import Verif.Proof.RulesTotal

/-!
# Respellings that no rule can see

Two instances of the simulation theorem: replacing characters that no `one_of` distinguishes, and
inserting or deleting commas.
-/

namespace Sneturfahi

open Derives

/-! ### Pointwise replacement -/

/-- The two texts have the same length and related characters at every position. -/
def Pointwise (E : Char → Char → Prop) : List Char → List Char → Prop
  | [], [] => True
  | a :: as, b :: bs => E a b ∧ Pointwise E as bs
  | _, _ => False

namespace Pointwise

variable {E : Char → Char → Prop}

theorem length_eq {a b : List Char} (h : Pointwise E a b) : a.length = b.length := by
  induction a generalizing b with
  | nil => cases b with
    | nil => rfl
    | cons => simp [Pointwise] at h
  | cons x a ih => cases b with
    | nil => simp [Pointwise] at h
    | cons y b => simp [ih h.2]

theorem nil_iff {a b : List Char} (h : Pointwise E a b) : a = [] ↔ b = [] := by
  have := h.length_eq
  rw [← List.length_eq_zero_iff, this, List.length_eq_zero_iff]

theorem append {a b a' b' : List Char} (h : Pointwise E a b) (h' : Pointwise E a' b') :
    Pointwise E (a ++ a') (b ++ b') := by
  induction a generalizing b with
  | nil => cases b with
    | nil => exact h'
    | cons => simp [Pointwise] at h
  | cons x a ih => cases b with
    | nil => simp [Pointwise] at h
    | cons y b => exact ⟨h.1, ih h.2⟩

theorem split {m r cs' : List Char} (h : Pointwise E (m ++ r) cs') :
    ∃ m' r', cs' = m' ++ r' ∧ Pointwise E m m' ∧ Pointwise E r r' := by
  induction m generalizing cs' with
  | nil => exact ⟨[], cs', rfl, trivial, h⟩
  | cons x m ih =>
    cases cs' with
    | nil => simp [Pointwise] at h
    | cons y cs' =>
      obtain ⟨m', r', rfl, h1, h2⟩ := ih h.2
      exact ⟨y :: m', r', rfl, ⟨h.1, h1⟩, h2⟩

theorem split' {m r m' r' : List Char} (h : Pointwise E (m ++ r) (m' ++ r')) (hr : r.length = r'.length) :
    Pointwise E m m' ∧ Pointwise E r r' := by
  obtain ⟨m'', r'', h1, h2, h3⟩ := h.split
  have : r'.length = r''.length := by rw [← hr, h3.length_eq]
  obtain ⟨rfl, rfl⟩ := List.append_inj' h1 this
  exact ⟨h2, h3⟩

theorem refl (hE : ∀ c, E c c) (a : List Char) : Pointwise E a a := by
  induction a with
  | nil => trivial
  | cons x a ih => exact ⟨hE x, ih⟩

end Pointwise

/-- Equal, or one of the listed pairs. -/
def OneOfPairs (prs : List (Char × Char)) (a b : Char) : Prop := a = b ∨ (a, b) ∈ prs

/-- The character set does not distinguish the listed pairs. -/
def blindTo (prs : List (Char × Char)) (chs : List Char) : Bool :=
  prs.all (fun p => chs.contains p.1 == chs.contains p.2)

theorem blindTo_mem {prs : List (Char × Char)} {chs : List Char} (h : blindTo prs chs = true)
    {a b : Char} (hab : OneOfPairs prs a b) : a ∈ chs ↔ b ∈ chs := by
  rcases hab with rfl | hab
  · exact Iff.rfl
  · simp only [blindTo, List.all_eq_true] at h
    have := h _ hab
    simp only [List.contains_eq_mem, beq_iff_eq] at this
    exact ⟨fun h => by simpa [h] using this, fun h => by simpa [h] using this⟩

theorem OneOfPairs.comma {prs : List (Char × Char)} (hc : ∀ p ∈ prs, p.1 ≠ ',' ∧ p.2 ≠ ',')
    {a b : Char} (hab : OneOfPairs prs a b) : a = ',' ↔ b = ',' := by
  rcases hab with rfl | hab
  · exact Iff.rfl
  · have := hc _ hab
    exact ⟨fun h => absurd h this.1, fun h => absurd h this.2⟩

theorem Pointwise.allCommas {prs : List (Char × Char)} (hc : ∀ p ∈ prs, p.1 ≠ ',' ∧ p.2 ≠ ',')
    {k k' : List Char} (h : Pointwise (OneOfPairs prs) k k') (hk : AllCommas k) : AllCommas k' := by
  induction k generalizing k' with
  | nil => cases k' with
    | nil => exact hk
    | cons => simp [Pointwise] at h
  | cons x k ih => cases k' with
    | nil => simp [Pointwise] at h
    | cons y k' =>
      intro z hz
      simp at hz
      rcases hz with rfl | hz
      · exact (h.1.comma hc).mp (hk x (by simp))
      · exact ih h.2 (fun w hw => hk w (by simp [hw])) z hz

theorem simOK_pointwise {R : Type} {g : R → Exp R} {prs : List (Char × Char)}
    (hc : ∀ p ∈ prs, p.1 ≠ ',' ∧ p.2 ≠ ',') :
    SimOK g (blindTo prs) (Pointwise (OneOfPairs prs)) where
  nil := fun h => h.nil_iff
  one := by
    intro chs cs cs' res hP hs hd
    cases hd with
    | @oneOfYes _ k c cs h1 h2 h3 =>
      obtain ⟨k', r', rfl, h4, h5⟩ := hs.split
      cases r' with
      | nil => simp [Pointwise] at h5
      | cons c' r' =>
        refine ⟨_, .oneOfYes (h4.allCommas hc h1) (fun h => h2 ((h5.1.comma hc).mpr h))
          ((blindTo_mem hP h5.1).mp h3), h5.2⟩
    | @oneOfNo _ k c cs h1 h2 h3 =>
      obtain ⟨k', r', rfl, h4, h5⟩ := hs.split
      cases r' with
      | nil => simp [Pointwise] at h5
      | cons c' r' =>
        exact ⟨_, .oneOfNo (h4.allCommas hc h1) (fun h => h2 ((h5.1.comma hc).mpr h))
          (fun h => h3 ((blindTo_mem hP h5.1).mpr h)), trivial⟩
    | oneOfEnd h1 => exact ⟨_, .oneOfEnd (hs.allCommas hc h1), trivial⟩
  long := by
    intro m1 r1 m2 r2 m1' r1' m2' r2' _ _ _ _ _ _ h1 h2
    rw [h1.length_eq, h2.length_eq]
    split <;> assumption

/-! ### Commas -/

@[simp] theorem noCommas_nil : noCommas [] = [] := rfl
@[simp] theorem noCommas_append (a b : List Char) : noCommas (a ++ b) = noCommas a ++ noCommas b := by
  simp [noCommas]
theorem noCommas_cons_comma (a : List Char) : noCommas (',' :: a) = noCommas a := by simp [noCommas]
theorem noCommas_cons {c : Char} (h : c ≠ ',') (a : List Char) : noCommas (c :: a) = c :: noCommas a := by
  simp [noCommas, h]
theorem AllCommas.noCommas {k : List Char} (h : AllCommas k) : noCommas k = [] := by
  simp only [Sneturfahi.noCommas, List.filter_eq_nil_iff]
  intro a ha
  simp [h a ha]
theorem noCommas_eq_nil {k : List Char} : noCommas k = [] ↔ AllCommas k := by
  refine ⟨fun h => ?_, fun h => h.noCommas⟩
  simp only [Sneturfahi.noCommas, List.filter_eq_nil_iff] at h
  intro x hx
  have := h x hx
  simpa using this

theorem noCommas_eq_cons {cs : List Char} {c : Char} {t : List Char} (h : noCommas cs = c :: t) :
    ∃ k r, cs = k ++ c :: r ∧ AllCommas k ∧ c ≠ ',' ∧ noCommas r = t := by
  induction cs with
  | nil => simp at h
  | cons x cs ih =>
    by_cases hx : x = ','
    · subst hx
      rw [noCommas_cons_comma] at h
      obtain ⟨k, r, rfl, h1, h2, h3⟩ := ih h
      exact ⟨',' :: k, r, rfl, by intro y hy; simp at hy; rcases hy with rfl | hy; rfl; exact h1 y hy, h2, h3⟩
    · rw [noCommas_cons hx] at h
      injection h with h1 h2
      subst h1
      exact ⟨[], cs, rfl, by simp [AllCommas], hx, h2⟩

theorem NoTrail.suffix {a b : List Char} (h : NoTrail (a ++ b)) : NoTrail b := by
  unfold NoTrail at *
  rw [List.getLast?_append] at h
  cases hb : b.getLast? with
  | none => simp
  | some z => rw [hb] at h; simpa using h

theorem NoTrail.allCommas {k : List Char} (h : NoTrail k) (hk : AllCommas k) : k = [] := by
  cases hl : k.getLast? with
  | none => simpa using hl
  | some z =>
    have := hk z (List.mem_of_getLast? hl)
    subst this
    exact absurd hl h

theorem NoTrail.append {a b : List Char} (ha : NoTrail a) (hb : NoTrail b) : NoTrail (a ++ b) := by
  unfold NoTrail at *
  rw [List.getLast?_append]
  cases h : b.getLast? with
  | none => simpa using ha
  | some z => rw [h] at hb; simpa using hb

/-- Same text up to commas, except that one may not end in a comma when the other does not. -/
def CommaSim (cs cs' : List Char) : Prop := noCommas cs = noCommas cs' ∧ (NoTrail cs ↔ NoTrail cs')

/-- Two suffixes of the same text that differ by commas only, with comma-free ends before them. -/
theorem noCommas_suffix {a b x y : List Char} (h : a ++ x = b ++ y) (hl : x.length ≤ y.length) :
    noCommas x <:+ noCommas y := by
  rcases List.append_eq_append_iff.mp h with ⟨d, h1, h2⟩ | ⟨d, h1, h2⟩
  · subst h2
    have hd : d = [] := by
      simp only [List.length_append] at hl
      exact List.length_eq_zero_iff.mp (by omega)
    subst hd
    simp
  · subst h2
    simp

/-- Two matches of the same text whose rests differ by commas only are equal. -/
theorem same_match {a b x y : List Char} (h : a ++ x = b ++ y) (ha : NoTrail a) (hb : NoTrail b)
    (hn : noCommas x = noCommas y) : x = y := by
  have key : ∀ {a b x y : List Char}, NoTrail b → noCommas x = noCommas y →
      ∀ d, b = a ++ d → x = d ++ y → x = y := by
    intro a b x y hb hn d h1 h2
    subst h1 h2
    have hd : noCommas d = [] := by
      have := congrArg List.length hn
      simp at this
      exact this
    have := (NoTrail.suffix hb).allCommas (noCommas_eq_nil.mp hd)
    simp [this]
  rcases List.append_eq_append_iff.mp h with ⟨d, h1, h2⟩ | ⟨d, h1, h2⟩
  · exact key hb hn d h1 h2
  · exact (key ha hn.symm d h1 h2).symm

theorem CommaSim.tail {k k' : List Char} {c : Char} {r r' : List Char} (hc : c ≠ ',')
    (hr : noCommas r = noCommas r') (h : NoTrail (k ++ c :: r) ↔ NoTrail (k' ++ c :: r')) : CommaSim r r' := by
  refine ⟨hr, ?_⟩
  have key : ∀ k r, (NoTrail (k ++ c :: r) ↔ NoTrail r) := by
    intro k r
    constructor
    · intro h
      exact NoTrail.suffix (a := k ++ [c]) (by simpa using h)
    · intro h
      have := NoTrail.append (a := k ++ [c]) (by simpa [NoTrail] using hc) h
      simpa using this
  rw [key, key] at h
  exact h

theorem simOK_comma {R : Type} {g : R → Exp R} : SimOK g (fun _ => true) CommaSim where
  nil := by
    intro cs cs' h
    constructor
    · rintro rfl
      exact (h.2.mp (by simp [NoTrail])).allCommas (noCommas_eq_nil.mp (by rw [← h.1]; rfl))
    · rintro rfl
      exact (h.2.mpr (by simp [NoTrail])).allCommas (noCommas_eq_nil.mp (by rw [h.1]; rfl))
  one := by
    intro chs cs cs' res _ hs hd
    obtain ⟨h1, h2⟩ := hs
    cases hd with
    | @oneOfYes _ k c cs hk hc hm =>
      rw [noCommas_append, hk.noCommas, noCommas_cons hc] at h1
      obtain ⟨k', r', rfl, hk', _, hr'⟩ := noCommas_eq_cons h1.symm
      exact ⟨_, .oneOfYes hk' hc hm, CommaSim.tail hc hr'.symm h2⟩
    | @oneOfNo _ k c cs hk hc hm =>
      rw [noCommas_append, hk.noCommas, noCommas_cons hc] at h1
      obtain ⟨k', r', rfl, hk', _, hr'⟩ := noCommas_eq_cons h1.symm
      exact ⟨_, .oneOfNo hk' hc hm, trivial⟩
    | oneOfEnd hk =>
      rw [hk.noCommas] at h1
      exact ⟨_, .oneOfEnd (noCommas_eq_nil.mp h1.symm), trivial⟩
  long := by
    intro m1 r1 m2 r2 m1' r1' m2' r2' e1 e2 t1 t2 t1' t2' h1 h2
    by_cases ha : r1.length ≤ r2.length <;> by_cases hb : r1'.length ≤ r2'.length
    · simpa [ha, hb] using h1
    · have s1 := noCommas_suffix e1 ha
      have s2 := noCommas_suffix e2.symm (by omega : r2'.length ≤ r1'.length)
      rw [h1.1, h2.1] at s1
      have := same_match e2 t1' t2' (s1.eq_of_length (Nat.le_antisymm s1.length_le s2.length_le))
      subst this
      exact absurd (Nat.le_refl _) hb
    · have s1 := noCommas_suffix e1.symm (by omega : r2.length ≤ r1.length)
      have s2 := noCommas_suffix e2 hb
      rw [h1.1, h2.1] at s1
      have := same_match e2 t1' t2' (s2.eq_of_length (Nat.le_antisymm s2.length_le s1.length_le))
      subst this
      simpa [ha] using h2
    · simpa [ha, hb] using h2

/-! ### For the actual rules -/

theorem expAll_true {R : Type} (e : Exp R) : expAll (fun _ => true) e = true := by
  induction e <;> simp_all [expAll]

/-- Rules do not see commas, except whether the text ends in one. -/
theorem parseRule_comma (rule : Rule) {cs cs' : List Char} (h : CommaSim cs cs') :
    ResSim CommaSim (parseRule rule cs) (parseRule rule cs') := by
  obtain ⟨res', h1, h2⟩ := sim simOK_comma (fun _ => expAll_true _) (parseRule_derives rule cs)
    (expAll_true _) cs' h
  rwa [derives_iff.mp h1]

theorem parseRule_pointwise {prs : List (Char × Char)} (hc : ∀ p ∈ prs, p.1 ≠ ',' ∧ p.2 ≠ ',')
    (hg : ∀ rule, expAll (blindTo prs) (grammar rule) = true) (rule : Rule) {cs cs' : List Char}
    (h : Pointwise (OneOfPairs prs) cs cs') :
    ResSim (Pointwise (OneOfPairs prs)) (parseRule rule cs) (parseRule rule cs') := by
  obtain ⟨res', h1, h2⟩ := sim (simOK_pointwise hc) hg (parseRule_derives rule cs) rfl cs' h
  rwa [derives_iff.mp h1]

/-- `h` for apostrophe and back. -/
def hPairs : List (Char × Char) := [('h', '\''), ('\'', 'h')]

theorem hPairs_grammar (rule : Rule) : expAll (blindTo hPairs) (grammar rule) = true := by
  cases rule <;> decide +kernel

/-- Upper and lower case of the consonants and of `y`. -/
def casePairs : List (Char × Char) :=
  (c!"bcdfgjklmnprstvxzy").flatMap (fun c => [(c, c.toUpper), (c.toUpper, c)])

theorem casePairs_grammar (rule : Rule) : expAll (blindTo casePairs) (grammar rule) = true := by
  cases rule <;> decide +kernel

theorem parseRule_append {rule : Rule} {cs m r : List Char} (h : parseRule rule cs = some (m, r)) :
    m ++ r = cs := append_eq' (derives_iff.mpr h)

theorem parseRule_ne_nil {rule : Rule} (hr : rule ∉ nonConsuming) {cs m r : List Char}
    (h : parseRule rule cs = some (m, r)) : m ≠ [] :=
  Derives.consumes grammarWF.cons_ok (derives_iff.mpr h)
    (by show ruleCons rule = true; simpa [ruleCons] using hr) _ _ rfl

theorem parseRule_noTrail {rule : Rule} {cs m r : List Char} (h : parseRule rule cs = some (m, r)) :
    NoTrail m := matched_last (derives_iff.mpr h) _ _ rfl

end Sneturfahi
