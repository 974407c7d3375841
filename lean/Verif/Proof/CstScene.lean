import Verif.Proof.CstPegSpec

/-!
# Reading patterns of tokens

A scene is a finite set of situations (each a set of token sequences) with what reading one word can lead to.  `scan` computes
what reading a construct can lead to, for all sequences of a situation at once; `scan_sound` says that it is right.
-/

namespace Sneturfahi

open Spec

/-- How reading may end: in situation `j` (and whether the sought node has been made), or not, or in no known way. -/
inductive Way where
  | ok (j : Nat) (has : Bool)
  | error
  | failure
  | lost
deriving DecidableEq, Repr

/-- What reading one word leads to in each situation. -/
structure Reading where
  raw : Selmaho → Nat → List Way
  any : Nat → List Way
  /-- productions for which the result is known otherwise -/
  over : CRule → Nat → Option (List Way)

/-- Situations, and what reading one word leads to. -/
structure Scene where
  steps : Reading
  sat : Nat → List Token → Prop
  /-- the sought node -/
  name : NodeName
  fields : List Val

def Way.also (x : Bool) : Way → Way
  | .ok j y => .ok j (x || y)
  | w => w

/-- A way after another one. -/
def Way.andThen (f : Nat → List Way) : Way → List Way
  | .ok j x => (f j).map (Way.also x)
  | w => [w]

def scanMany (f : Nat → List Way) : Nat → Nat → List Way
  | 0, _ => [.lost]
  | fuel + 1, i => (f i).flatMap fun
    | .error => [.ok i false]
    | .ok j x => if j = i then [.error] else (scanMany f fuel j).map (Way.also x)
    | .failure => [.failure]
    | .lost => [.lost]

def scanTill (f g : Nat → List Way) : Nat → Nat → List Way
  | 0, _ => [.lost]
  | fuel + 1, i => (g i).flatMap fun
    | .error => (f i).flatMap fun
      | .ok j x => if j = i then [.error] else (scanTill f g fuel j).map (Way.also x)
      | w => [w]
    | w => [w]

mutual
/-- Is this construct surely read as nothing but absent options? -/
def idle (S : Reading) (call : CRule → Nat → List Way) : Gr → Nat → Bool
  | .opt a, i => scanG S call a i == [.error]
  | .many0 a, i => scanG S call a i == [.error]
  | .seq a b, i => idle S call a i && idle S call b i
  | _, _ => false
/-- A node with such fields. -/
def idleNode (S : Reading) (call : CRule → Nat → List Way) : Gr → Nat → Bool
  | .wrap (.node _) a, i => idle S call a i
  | _, _ => false
/-- What reading a construct in situation `i` can lead to. -/
def scanG (S : Reading) (call : CRule → Nat → List Way) : Gr → Nat → List Way
  | .eps, i => [.ok i false]
  | .raw s, i => S.raw s i
  | .any _, i => S.any i
  | .call r, i => call r i
  | .seq a b, i => ((scanG S call a i).flatMap (Way.andThen (scanG S call b))).eraseDups
  | .alt a b, i => ((scanG S call a i).flatMap fun
    | .error => scanG S call b i
    | w => [w]).eraseDups
  | .opt a, i => (scanG S call a i).map fun
    | .error => .ok i false
    | w => w
  | .many0 a, i => scanMany (scanG S call a) 8 i
  | .many1 a, i => (scanG S call a i).flatMap (Way.andThen (scanMany (scanG S call a) 8))
  | .manyTill a b, i => scanTill (scanG S call a) (scanG S call b) 8 i
  | .not a, i => (scanG S call a i).map fun
    | .ok _ _ => .error
    | .error => .ok i false
    | w => w
  | .cut a, i => (scanG S call a i).map fun
    | .error => .failure
    | w => w
  | .mustConsume _ a, i => (scanG S call a i).map fun
    | .ok j x => if j = i then .error else .ok j x
    | w => w
  | .postCond c a, i => if c = .anyFieldPresent ∧ idleNode S call a i = true then [.error] else (scanG S call a i).flatMap fun
    | .ok j x => [.ok j x, .error]
    | w => [w]
  | .wrap _ a, i => scanG S call a i
end

/-- The same for productions, with a bound on the number of nested ones. -/
def scan (S : Reading) : Nat → CRule → Nat → List Way
  | 0, _, _ => [.lost]
  | fuel + 1, r, i => match S.over r i with
    | some ws => ws
    | none => scanG S (scan S fuel) (cst r) i

/-- This outcome goes this way. -/
def Goes (S : Scene) (i : Nat) (s : List Token) : Way → Outcome → Prop
  | .ok j x, .ok r vs => S.sat j r ∧ i ≤ j ∧ (i = j → r = s) ∧ (i < j → r.length < s.length) ∧
      (x = true → PartOfL (.node S.name S.fields) vs)
  | .error, .error => True
  | .failure, .failure => True
  | .lost, _ => True
  | _, _ => False

/-- One of the ways. -/
def GoesBy (S : Scene) (i : Nat) (s : List Token) (ws : List Way) (o : Outcome) : Prop := ∃ w ∈ ws, Goes S i s w o

/-- What is said about single words and known productions is right. -/
structure Scene.Right (S : Scene) : Prop where
  raw : ∀ x i s o, S.sat i s → Peg cst (.raw x) s o → GoesBy S i s (S.steps.raw x i) o
  any : ∀ k i s o, S.sat i s → Peg cst (.any k) s o → GoesBy S i s (S.steps.any i) o
  over : ∀ r i s o ws, S.steps.over r i = some ws → S.sat i s → Peg cst (.call r) s o → GoesBy S i s ws o

theorem partOfL_append_left {v : Val} {vs ws : List Val} (h : PartOfL v vs) : PartOfL v (vs ++ ws) := by
  induction vs with
  | nil => cases h
  | cons a vs ih =>
    cases h with
    | head h => exact .head h
    | tail h => exact .tail (ih h)

theorem partOfL_append_right {v : Val} {vs ws : List Val} (h : PartOfL v ws) : PartOfL v (vs ++ ws) := by
  induction vs with
  | nil => exact h
  | cons a vs ih => exact .tail ih

theorem partOf_build {n : NodeName} {fs : List Val} {sh : CShape} {vs : List Val} (h : PartOfL (.node n fs) vs) :
    PartOf (.node n fs) (sh.build vs) := by
  unfold CShape.build
  split
  · exact .node h
  · exact .tuple h
  · cases h with
    | head h => exact .sepFirst h
    | tail h =>
      cases h with
      | head h =>
        cases h with
        | many h => exact .sepRest h
      | tail h => cases h
  · exact .tuple h

/-! ### Soundness -/

theorem goes_ok {S : Scene} {i : Nat} {s r : List Token} {vs : List Val} {w : Way} (h : Goes S i s w (.ok r vs)) :
    w = .lost ∨ ∃ j x, w = .ok j x ∧ S.sat j r ∧ i ≤ j ∧ (i = j → r = s) ∧ (i < j → r.length < s.length) ∧
      (x = true → PartOfL (.node S.name S.fields) vs) := by
  cases w with
  | ok j x => exact .inr ⟨j, x, rfl, h⟩
  | lost => exact .inl rfl
  | error => exact h.elim
  | failure => exact h.elim

theorem goes_error {S : Scene} {i : Nat} {s : List Token} {w : Way} (h : Goes S i s w .error) : w = .lost ∨ w = .error := by
  cases w with
  | lost => exact .inl rfl
  | error => exact .inr rfl
  | ok _ _ => exact h.elim
  | failure => exact h.elim

theorem goes_failure {S : Scene} {i : Nat} {s : List Token} {w : Way} (h : Goes S i s w .failure) :
    w = .lost ∨ w = .failure := by
  cases w with
  | lost => exact .inl rfl
  | failure => exact .inr rfl
  | ok _ _ => exact h.elim
  | error => exact h.elim

theorem goes_lost {S : Scene} {i : Nat} {s : List Token} {o : Outcome} : Goes S i s .lost o := by
  cases o <;> trivial

theorem inItems_left {v : Val} {vs ws : List Val} (h : PartOfL v vs) : PartOfL v [.many (vs ++ ws)] :=
  .head (.many (partOfL_append_left h))

theorem inItems_right {n : NodeName} {fs : List Val} {vs ws : List Val} (h : PartOfL (.node n fs) [.many ws]) :
    PartOfL (.node n fs) [.many (vs ++ ws)] := by
  cases h with
  | head h => cases h with | many h => exact .head (.many (partOfL_append_right h))
  | tail h => cases h

/-- The second of two readings, seen from where the first began. -/
theorem goes_after {S : Scene} {i j : Nat} {x : Bool} {s r : List Token} {vs : List Val} {w : Way} {o : Outcome}
    (h : Goes S i s (.ok j x) (.ok r vs)) (h2 : Goes S j r w o) :
    (∀ q ws us, o = .ok q ws → (PartOfL (.node S.name S.fields) vs → PartOfL (.node S.name S.fields) us) →
      (PartOfL (.node S.name S.fields) ws → PartOfL (.node S.name S.fields) us) → Goes S i s (w.also x) (.ok q us)) ∧ (o.Bad → Goes S i s (w.also x) o) := by
  obtain ⟨h3, h4, h5, h6, h7⟩ := h
  constructor
  · rintro q ws us rfl hvs hws
    rcases goes_ok h2 with rfl | ⟨k, y, rfl, k1, k2, k3, k4, k5⟩
    · trivial
    · refine ⟨k1, by omega, ?_, ?_, ?_⟩
      · intro e
        rw [k3 (by omega), h5 (by omega)]
      · intro e
        by_cases hij : i = j
        · have := h5 hij
          subst this
          exact k4 (by omega)
        · have h8 := h6 (by omega)
          by_cases hjk : j = k
          · rw [k3 hjk]; exact h8
          · have := k4 (by omega); omega
      · intro e
        simp only [Bool.or_eq_true] at e
        rcases e with e | e
        · exact hvs (h7 e)
        · exact hws (k5 e)
  · intro hb
    cases o with
    | ok _ _ => exact hb.elim
    | error => rcases goes_error h2 with rfl | rfl <;> trivial
    | failure => rcases goes_failure h2 with rfl | rfl <;> trivial

/-- What is claimed of a construct, and of repetitions for every bound. -/
def Scanned (S : Scene) (call : CRule → Nat → List Way) (e : Gr) (s : List Token) (o : Outcome) : Prop :=
  ∀ i, S.sat i s → GoesBy S i s (scanG S.steps call e i) o ∧
    (∀ a, e = .many0 a → ∀ fuel, GoesBy S i s (scanMany (scanG S.steps call a) fuel i) o) ∧
    (∀ a b, e = .manyTill a b → ∀ fuel, GoesBy S i s (scanTill (scanG S.steps call a) (scanG S.steps call b) fuel i) o) ∧
    (idle S.steps call e i = true → ∃ vs, o = .ok s vs ∧ vs.any Val.present = false) ∧
    (idleNode S.steps call e i = true → ∃ n vs, o = .ok s [.node n vs] ∧ vs.any Val.present = false)

theorem scanG_sound (S : Scene) (hS : S.Right) (call : CRule → Nat → List Way)
    (hc : ∀ r i s o, S.sat i s → Peg cst (.call r) s o → GoesBy S i s (call r i) o)
    {e : Gr} {s : List Token} {o : Outcome} (h : Peg cst e s o) : Scanned S call e s o := by
  have simple : ∀ {e : Gr} {s : List Token} {o : Outcome}, (∀ a, e ≠ .many0 a) → (∀ a b, e ≠ .manyTill a b) →
      (∀ i, idle S.steps call e i = false) → (∀ i, idleNode S.steps call e i = false) →
      (∀ i, S.sat i s → GoesBy S i s (scanG S.steps call e i) o) → Scanned S call e s o := by
    intro e s o h1 h2 h4 h5 h3 i hi
    exact ⟨h3 i hi, fun a ha => absurd ha (h1 a), fun a b hab => absurd hab (h2 a b), (fun h => absurd h (by simp [h4 i])),
      (fun h => absurd h (by simp [h5 i]))⟩
  have simple' : ∀ {e : Gr} {s : List Token} {o : Outcome}, (∀ a, e ≠ .many0 a) → (∀ a b, e ≠ .manyTill a b) →
      (∀ i, idleNode S.steps call e i = false) →
      (∀ i, S.sat i s → idle S.steps call e i = true → ∃ vs, o = .ok s vs ∧ vs.any Val.present = false) →
      (∀ i, S.sat i s → GoesBy S i s (scanG S.steps call e i) o) → Scanned S call e s o := by
    intro e s o h1 h2 h4 h5 h3 i hi
    exact ⟨h3 i hi, fun a ha => absurd ha (h1 a), fun a b hab => absurd hab (h2 a b), h5 i hi, (fun h => absurd h (by simp [h4 i]))⟩
  have sure : ∀ {a : Gr} {s : List Token} {o : Outcome} {i : Nat}, Scanned S call a s o → S.sat i s →
      scanG S.steps call a i = [.error] → o = .error := by
    intro a s o i h hi he
    obtain ⟨w, hw, hg⟩ := (h i hi).1
    rw [he] at hw
    simp only [List.mem_singleton] at hw
    subst hw
    cases o with
    | error => rfl
    | _ => exact hg.elim
  have many : ∀ {a : Gr} {s : List Token} {o : Outcome},
      (∀ i, S.sat i s → scanG S.steps call a i = [.error] → ∃ vs, o = .ok s vs ∧ vs.any Val.present = false) →
      (∀ fuel i, S.sat i s → GoesBy S i s (scanMany (scanG S.steps call a) fuel i) o) → Scanned S call (.many0 a) s o := by
    intro a s o h4 h3 i hi
    refine ⟨by rw [scanG]; exact h3 8 i hi, ?_, (fun a b hab => by cases hab), ?_, (fun h => by simp [idleNode] at h)⟩
    rotate_left
    · intro h
      simp only [idle, beq_iff_eq] at h
      exact h4 i hi h
    intro a' ha fuel
    cases ha
    exact h3 fuel i hi
  have till : ∀ {a b : Gr} {s : List Token} {o : Outcome},
      (∀ fuel i, S.sat i s → GoesBy S i s (scanTill (scanG S.steps call a) (scanG S.steps call b) fuel i) o) →
      Scanned S call (.manyTill a b) s o := by
    intro a b s o h3 i hi
    refine ⟨by rw [scanG]; exact h3 8 i hi, (fun _ ha => by cases ha), ?_, (fun h => by simp [idle] at h), (fun h => by simp [idleNode] at h)⟩
    intro a' b' hab fuel
    cases hab
    exact h3 fuel i hi
  induction h with
  | eps => exact simple nofun nofun (fun _ => by simp [idle]) (fun _ => by simp [idleNode]) (fun i hi => ⟨.ok i false, by simp [scanG], hi, Nat.le_refl _, fun _ => rfl, fun h => by omega, nofun⟩)
  | raw h => exact simple nofun nofun (fun _ => by simp [idle]) (fun _ => by simp [idleNode]) (fun i hi => hS.raw _ _ _ _ hi (.raw h))
  | rawOther h => exact simple nofun nofun (fun _ => by simp [idle]) (fun _ => by simp [idleNode]) (fun i hi => hS.raw _ _ _ _ hi (.rawOther h))
  | rawEnd => exact simple nofun nofun (fun _ => by simp [idle]) (fun _ => by simp [idleNode]) (fun i hi => hS.raw _ _ _ _ hi .rawEnd)
  | any => exact simple nofun nofun (fun _ => by simp [idle]) (fun _ => by simp [idleNode]) (fun i hi => hS.any _ _ _ _ hi .any)
  | @anyEnd k => exact simple nofun nofun (fun _ => by simp [idle]) (fun _ => by simp [idleNode]) (fun i hi => hS.any k _ _ _ hi .anyEnd)
  | call h _ => exact simple nofun nofun (fun _ => by simp [idle]) (fun _ => by simp [idleNode]) (fun i hi => hc _ _ _ _ hi (.call h))
  | @seq a b s r q vs ws _ _ iha ihb =>
    refine simple' nofun nofun (fun _ => by simp [idleNode]) (fun i hi h => by
      simp only [idle, Bool.and_eq_true] at h
      obtain ⟨us, h1, h2⟩ := (iha i hi).2.2.2.1 h.1
      cases h1
      obtain ⟨us', h3, h4⟩ := (ihb i hi).2.2.2.1 h.2
      cases h3
      exact ⟨_, rfl, by simp [h2, h4]⟩) (fun i hi => ?_)
    obtain ⟨w, hw, hg⟩ := (iha i hi).1
    rcases goes_ok hg with rfl | ⟨j, x, rfl, h1⟩
    · exact ⟨.lost, by simp only [scanG, List.mem_eraseDups, List.mem_flatMap]; exact ⟨_, hw, by simp [Way.andThen]⟩, trivial⟩
    · obtain ⟨w', hw', hg'⟩ := (ihb j h1.1).1
      exact ⟨w'.also x, by simp only [scanG, List.mem_eraseDups, List.mem_flatMap]; exact ⟨_, hw, by simp only [Way.andThen, List.mem_map]; exact ⟨_, hw', rfl⟩⟩,
        (goes_after hg hg').1 _ _ _ rfl partOfL_append_left partOfL_append_right⟩
  | seqFirst _ hb iha =>
    refine simple' nofun nofun (fun _ => by simp [idleNode]) (fun i hi h => by
      simp only [idle, Bool.and_eq_true] at h
      obtain ⟨us, h1, h2⟩ := (iha i hi).2.2.2.1 h.1
      subst h1
      exact hb.elim) (fun i hi => ?_)
    obtain ⟨w, hw, hg⟩ := (iha i hi).1
    refine ⟨w, ?_, hg⟩
    simp only [scanG, List.mem_eraseDups, List.mem_flatMap]
    refine ⟨w, hw, ?_⟩
    cases w with
    | ok j x =>
      rename_i o _
      cases o with
      | ok _ _ => exact hb.elim
      | _ => exact hg.elim
    | _ => simp [Way.andThen]
  | seqSecond _ _ hb iha ihb =>
    refine simple' nofun nofun (fun _ => by simp [idleNode]) (fun i hi h => by
      simp only [idle, Bool.and_eq_true] at h
      obtain ⟨us, h1, h2⟩ := (iha i hi).2.2.2.1 h.1
      cases h1
      obtain ⟨us', h3, h4⟩ := (ihb i hi).2.2.2.1 h.2
      subst h3
      exact hb.elim) (fun i hi => ?_)
    obtain ⟨w, hw, hg⟩ := (iha i hi).1
    rcases goes_ok hg with rfl | ⟨j, x, rfl, h1⟩
    · exact ⟨.lost, by simp only [scanG, List.mem_eraseDups, List.mem_flatMap]; exact ⟨_, hw, by simp [Way.andThen]⟩, trivial⟩
    · obtain ⟨w', hw', hg'⟩ := (ihb j h1.1).1
      exact ⟨w'.also x, by simp only [scanG, List.mem_eraseDups, List.mem_flatMap]; exact ⟨_, hw, by simp only [Way.andThen, List.mem_map]; exact ⟨_, hw', rfl⟩⟩,
        (goes_after hg hg').2 hb⟩
  | @altFirst a b s o _ hne iha =>
    refine simple nofun nofun (fun _ => by simp [idle]) (fun _ => by simp [idleNode]) (fun i hi => ?_)
    obtain ⟨w, hw, hg⟩ := (iha i hi).1
    refine ⟨w, ?_, hg⟩
    simp only [scanG, List.mem_eraseDups, List.mem_flatMap]
    refine ⟨w, hw, ?_⟩
    cases w with
    | error =>
      cases o with
      | error => exact absurd rfl hne
      | _ => exact hg.elim
    | _ => simp
  | @altSecond a b s o _ _ iha ihb =>
    refine simple nofun nofun (fun _ => by simp [idle]) (fun _ => by simp [idleNode]) (fun i hi => ?_)
    obtain ⟨w, hw, hg⟩ := (iha i hi).1
    rcases goes_error hg with rfl | rfl
    · exact ⟨.lost, by simp only [scanG, List.mem_eraseDups, List.mem_flatMap]; exact ⟨_, hw, by simp⟩, by cases o <;> trivial⟩
    · obtain ⟨w', hw', hg'⟩ := (ihb i hi).1
      exact ⟨w', by simp only [scanG, List.mem_eraseDups, List.mem_flatMap]; exact ⟨_, hw, by simpa using hw'⟩, hg'⟩
  | optPresent _ iha =>
    refine simple' nofun nofun (fun _ => by simp [idleNode]) (fun i hi h => by simp only [idle, beq_iff_eq] at h; exact absurd (sure iha hi h) nofun) (fun i hi => ?_)
    obtain ⟨w, hw, hg⟩ := (iha i hi).1
    rcases goes_ok hg with rfl | ⟨j, x, rfl, h1, h2, h3, h4, h5⟩
    · exact ⟨.lost, by simp only [scanG, List.mem_map]; exact ⟨_, hw, rfl⟩, trivial⟩
    · exact ⟨.ok j x, by simp only [scanG, List.mem_map]; exact ⟨_, hw, rfl⟩, h1, h2, h3, h4, fun e => .head (.many (h5 e))⟩
  | optAbsent _ iha =>
    refine simple' nofun nofun (fun _ => by simp [idleNode]) (fun i hi _ => ⟨_, rfl, by simp [Val.present]⟩) (fun i hi => ?_)
    obtain ⟨w, hw, hg⟩ := (iha i hi).1
    rcases goes_error hg with rfl | rfl
    · exact ⟨.lost, by simp only [scanG, List.mem_map]; exact ⟨_, hw, rfl⟩, trivial⟩
    · exact ⟨.ok i false, by simp only [scanG, List.mem_map]; exact ⟨_, hw, rfl⟩, hi, Nat.le_refl _, fun _ => rfl, fun h => by omega, nofun⟩
  | optFailure _ iha =>
    refine simple' nofun nofun (fun _ => by simp [idleNode]) (fun i hi h => by simp only [idle, beq_iff_eq] at h; exact absurd (sure iha hi h) nofun) (fun i hi => ?_)
    obtain ⟨w, hw, hg⟩ := (iha i hi).1
    rcases goes_failure hg with rfl | rfl
    · exact ⟨.lost, by simp only [scanG, List.mem_map]; exact ⟨_, hw, rfl⟩, trivial⟩
    · exact ⟨.failure, by simp only [scanG, List.mem_map]; exact ⟨_, hw, rfl⟩, trivial⟩
  | many0End _ iha =>
    refine many (fun i hi _ => ⟨_, rfl, by simp [Val.present]⟩) (fun fuel i hi => ?_)
    cases fuel with
    | zero => exact ⟨.lost, by simp [scanMany], trivial⟩
    | succ fuel =>
      obtain ⟨w, hw, hg⟩ := (iha i hi).1
      rcases goes_error hg with rfl | rfl
      · exact ⟨.lost, by simp only [scanMany, List.mem_flatMap]; exact ⟨_, hw, by simp⟩, trivial⟩
      · exact ⟨.ok i false, by simp only [scanMany, List.mem_flatMap]; exact ⟨_, hw, by simp⟩, hi, Nat.le_refl _, fun _ => rfl, fun h => by omega, nofun⟩
  | many0More _ hl _ iha ihb =>
    refine many (fun i hi h => absurd (sure iha hi h) nofun) (fun fuel i hi => ?_)
    cases fuel with
    | zero => exact ⟨.lost, by simp [scanMany], trivial⟩
    | succ fuel =>
      obtain ⟨w, hw, hg⟩ := (iha i hi).1
      rcases goes_ok hg with rfl | ⟨j, x, rfl, h1⟩
      · exact ⟨.lost, by simp only [scanMany, List.mem_flatMap]; exact ⟨_, hw, by simp⟩, trivial⟩
      · have hij : ¬ j = i := by
          rintro rfl
          exact hl (by rw [h1.2.2.1 rfl])
        obtain ⟨w', hw', hg'⟩ := (ihb j h1.1).2.1 _ rfl fuel
        exact ⟨w'.also x, by simp only [scanMany, List.mem_flatMap]; exact ⟨_, hw, by simp only [hij, if_false, List.mem_map]; exact ⟨_, hw', rfl⟩⟩,
          (goes_after hg hg').1 _ _ _ rfl inItems_left inItems_right⟩
  | many0Failure _ iha =>
    refine many (fun i hi h => absurd (sure iha hi h) nofun) (fun fuel i hi => ?_)
    cases fuel with
    | zero => exact ⟨.lost, by simp [scanMany], trivial⟩
    | succ fuel =>
      obtain ⟨w, hw, hg⟩ := (iha i hi).1
      rcases goes_failure hg with rfl | rfl
      · exact ⟨.lost, by simp only [scanMany, List.mem_flatMap]; exact ⟨_, hw, by simp⟩, trivial⟩
      · exact ⟨.failure, by simp only [scanMany, List.mem_flatMap]; exact ⟨_, hw, by simp⟩, trivial⟩
  | many0Stuck _ hl iha =>
    refine many (fun i hi h => absurd (sure iha hi h) nofun) (fun fuel i hi => ?_)
    cases fuel with
    | zero => exact ⟨.lost, by simp [scanMany], trivial⟩
    | succ fuel =>
      obtain ⟨w, hw, hg⟩ := (iha i hi).1
      rcases goes_ok hg with rfl | ⟨j, x, rfl, h1⟩
      · exact ⟨.lost, by simp only [scanMany, List.mem_flatMap]; exact ⟨_, hw, by simp⟩, trivial⟩
      · have hij : j = i := by
          have := h1.2.1
          by_cases h : i = j
          · exact h.symm
          · have := h1.2.2.2.1 (by omega); omega
        exact ⟨.error, by simp only [scanMany, List.mem_flatMap]; exact ⟨_, hw, by simp [hij]⟩, trivial⟩
  | many0Later _ hl _ hb iha ihb =>
    refine many (fun i hi h => absurd (sure iha hi h) nofun) (fun fuel i hi => ?_)
    cases fuel with
    | zero => exact ⟨.lost, by simp [scanMany], goes_lost⟩
    | succ fuel =>
      obtain ⟨w, hw, hg⟩ := (iha i hi).1
      rcases goes_ok hg with rfl | ⟨j, x, rfl, h1⟩
      · exact ⟨.lost, by simp only [scanMany, List.mem_flatMap]; exact ⟨_, hw, by simp⟩, goes_lost⟩
      · have hij : ¬ j = i := by
          rintro rfl
          exact hl (by rw [h1.2.2.1 rfl])
        obtain ⟨w', hw', hg'⟩ := (ihb j h1.1).2.1 _ rfl fuel
        exact ⟨w'.also x, by simp only [scanMany, List.mem_flatMap]; exact ⟨_, hw, by simp only [hij, if_false, List.mem_map]; exact ⟨_, hw', rfl⟩⟩,
          (goes_after hg hg').2 hb⟩
  | many1 _ _ iha ihb =>
    refine simple nofun nofun (fun _ => by simp [idle]) (fun _ => by simp [idleNode]) (fun i hi => ?_)
    obtain ⟨w, hw, hg⟩ := (iha i hi).1
    rcases goes_ok hg with rfl | ⟨j, x, rfl, h1⟩
    · exact ⟨.lost, by simp only [scanG, List.mem_flatMap]; exact ⟨_, hw, by simp [Way.andThen]⟩, trivial⟩
    · obtain ⟨w', hw', hg'⟩ := (ihb j h1.1).2.1 _ rfl 8
      exact ⟨w'.also x, by simp only [scanG, List.mem_flatMap]; exact ⟨_, hw, by simp only [Way.andThen, List.mem_map]; exact ⟨_, hw', rfl⟩⟩,
        (goes_after hg hg').1 _ _ _ rfl inItems_left inItems_right⟩
  | many1First _ hb iha =>
    refine simple nofun nofun (fun _ => by simp [idle]) (fun _ => by simp [idleNode]) (fun i hi => ?_)
    obtain ⟨w, hw, hg⟩ := (iha i hi).1
    refine ⟨w, ?_, hg⟩
    simp only [scanG, List.mem_flatMap]
    refine ⟨w, hw, ?_⟩
    cases w with
    | ok j x =>
      rename_i o _
      cases o with
      | ok _ _ => exact hb.elim
      | _ => exact hg.elim
    | _ => simp [Way.andThen]
  | many1Later _ _ hb iha ihb =>
    refine simple nofun nofun (fun _ => by simp [idle]) (fun _ => by simp [idleNode]) (fun i hi => ?_)
    obtain ⟨w, hw, hg⟩ := (iha i hi).1
    rcases goes_ok hg with rfl | ⟨j, x, rfl, h1⟩
    · exact ⟨.lost, by simp only [scanG, List.mem_flatMap]; exact ⟨_, hw, by simp [Way.andThen]⟩, goes_lost⟩
    · obtain ⟨w', hw', hg'⟩ := (ihb j h1.1).2.1 _ rfl 8
      exact ⟨w'.also x, by simp only [scanG, List.mem_flatMap]; exact ⟨_, hw, by simp only [Way.andThen, List.mem_map]; exact ⟨_, hw', rfl⟩⟩,
        (goes_after hg hg').2 hb⟩
  | tillEnd _ ihb =>
    refine till (fun fuel i hi => ?_)
    cases fuel with
    | zero => exact ⟨.lost, by simp [scanTill], goes_lost⟩
    | succ fuel =>
      obtain ⟨w, hw, hg⟩ := (ihb i hi).1
      rcases goes_ok hg with rfl | ⟨j, x, rfl, h1, h2, h3, h4, h5⟩
      · exact ⟨.lost, by simp only [scanTill, List.mem_flatMap]; exact ⟨_, hw, by simp⟩, goes_lost⟩
      · exact ⟨.ok j x, by simp only [scanTill, List.mem_flatMap]; exact ⟨_, hw, by simp⟩, h1, h2, h3, h4, fun e => .tail (h5 e)⟩
  | tillMore _ _ hl _ ihb iha ihc =>
    refine till (fun fuel i hi => ?_)
    cases fuel with
    | zero => exact ⟨.lost, by simp [scanTill], goes_lost⟩
    | succ fuel =>
      obtain ⟨w0, hw0, hg0⟩ := (ihb i hi).1
      rcases goes_error hg0 with rfl | rfl
      · exact ⟨.lost, by simp only [scanTill, List.mem_flatMap]; exact ⟨_, hw0, by simp⟩, goes_lost⟩
      · obtain ⟨w, hw, hg⟩ := (iha i hi).1
        rcases goes_ok hg with rfl | ⟨j, x, rfl, h1⟩
        · exact ⟨.lost, by simp only [scanTill, List.mem_flatMap]; exact ⟨_, hw0, by simp only [List.mem_flatMap]; exact ⟨_, hw, by simp⟩⟩, goes_lost⟩
        · have hij : ¬ j = i := by
            rintro rfl
            exact hl (by rw [h1.2.2.1 rfl])
          obtain ⟨w', hw', hg'⟩ := (ihc j h1.1).2.2.1 _ _ rfl fuel
          exact ⟨w'.also x, by simp only [scanTill, List.mem_flatMap]; exact ⟨_, hw0, by simp only [List.mem_flatMap]; exact ⟨_, hw, by simp only [hij, if_false, List.mem_map]; exact ⟨_, hw', rfl⟩⟩⟩,
            (goes_after hg hg').1 _ _ _ rfl (fun h => .head (.many (partOfL_append_left h))) (fun h => by
              cases h with
              | head h => cases h with | many h => exact .head (.many (partOfL_append_right h))
              | tail h => exact .tail h)⟩
  | tillFailure _ ihb =>
    refine till (fun fuel i hi => ?_)
    cases fuel with
    | zero => exact ⟨.lost, by simp [scanTill], goes_lost⟩
    | succ fuel =>
      obtain ⟨w, hw, hg⟩ := (ihb i hi).1
      rcases goes_failure hg with rfl | rfl
      · exact ⟨.lost, by simp only [scanTill, List.mem_flatMap]; exact ⟨_, hw, by simp⟩, goes_lost⟩
      · exact ⟨.failure, by simp only [scanTill, List.mem_flatMap]; exact ⟨_, hw, by simp⟩, trivial⟩
  | tillItem _ _ hb ihb iha =>
    refine till (fun fuel i hi => ?_)
    cases fuel with
    | zero => exact ⟨.lost, by simp [scanTill], goes_lost⟩
    | succ fuel =>
      obtain ⟨w0, hw0, hg0⟩ := (ihb i hi).1
      rcases goes_error hg0 with rfl | rfl
      · exact ⟨.lost, by simp only [scanTill, List.mem_flatMap]; exact ⟨_, hw0, by simp⟩, goes_lost⟩
      · obtain ⟨w, hw, hg⟩ := (iha i hi).1
        refine ⟨w, ?_, hg⟩
        simp only [scanTill, List.mem_flatMap]
        refine ⟨_, hw0, ?_⟩
        simp only [List.mem_flatMap]
        refine ⟨w, hw, ?_⟩
        cases w with
        | ok j x =>
          rename_i o _ _
          cases o with
          | ok _ _ => exact hb.elim
          | _ => exact hg.elim
        | _ => simp
  | tillStuck _ _ hl ihb iha =>
    refine till (fun fuel i hi => ?_)
    cases fuel with
    | zero => exact ⟨.lost, by simp [scanTill], goes_lost⟩
    | succ fuel =>
      obtain ⟨w0, hw0, hg0⟩ := (ihb i hi).1
      rcases goes_error hg0 with rfl | rfl
      · exact ⟨.lost, by simp only [scanTill, List.mem_flatMap]; exact ⟨_, hw0, by simp⟩, goes_lost⟩
      · obtain ⟨w, hw, hg⟩ := (iha i hi).1
        rcases goes_ok hg with rfl | ⟨j, x, rfl, h1⟩
        · exact ⟨.lost, by simp only [scanTill, List.mem_flatMap]; exact ⟨_, hw0, by simp only [List.mem_flatMap]; exact ⟨_, hw, by simp⟩⟩, goes_lost⟩
        · have hij : j = i := by
            have := h1.2.1
            by_cases h : i = j
            · exact h.symm
            · have := h1.2.2.2.1 (by omega); omega
          exact ⟨.error, by simp only [scanTill, List.mem_flatMap]; exact ⟨_, hw0, by simp only [List.mem_flatMap]; exact ⟨_, hw, by simp [hij]⟩⟩, trivial⟩
  | tillLater _ _ hl _ hb ihb iha ihc =>
    refine till (fun fuel i hi => ?_)
    cases fuel with
    | zero => exact ⟨.lost, by simp [scanTill], goes_lost⟩
    | succ fuel =>
      obtain ⟨w0, hw0, hg0⟩ := (ihb i hi).1
      rcases goes_error hg0 with rfl | rfl
      · exact ⟨.lost, by simp only [scanTill, List.mem_flatMap]; exact ⟨_, hw0, by simp⟩, goes_lost⟩
      · obtain ⟨w, hw, hg⟩ := (iha i hi).1
        rcases goes_ok hg with rfl | ⟨j, x, rfl, h1⟩
        · exact ⟨.lost, by simp only [scanTill, List.mem_flatMap]; exact ⟨_, hw0, by simp only [List.mem_flatMap]; exact ⟨_, hw, by simp⟩⟩, goes_lost⟩
        · have hij : ¬ j = i := by
            rintro rfl
            exact hl (by rw [h1.2.2.1 rfl])
          obtain ⟨w', hw', hg'⟩ := (ihc j h1.1).2.2.1 _ _ rfl fuel
          exact ⟨w'.also x, by simp only [scanTill, List.mem_flatMap]; exact ⟨_, hw0, by simp only [List.mem_flatMap]; exact ⟨_, hw, by simp only [hij, if_false, List.mem_map]; exact ⟨_, hw', rfl⟩⟩⟩,
            (goes_after hg hg').2 hb⟩
  | not _ iha =>
    refine simple nofun nofun (fun _ => by simp [idle]) (fun _ => by simp [idleNode]) (fun i hi => ?_)
    obtain ⟨w, hw, hg⟩ := (iha i hi).1
    rcases goes_error hg with rfl | rfl
    · exact ⟨.lost, by simp only [scanG, List.mem_map]; exact ⟨_, hw, rfl⟩, trivial⟩
    · exact ⟨.ok i false, by simp only [scanG, List.mem_map]; exact ⟨_, hw, rfl⟩, hi, Nat.le_refl _, fun _ => rfl, fun h => by omega, nofun⟩
  | notThere _ iha =>
    refine simple nofun nofun (fun _ => by simp [idle]) (fun _ => by simp [idleNode]) (fun i hi => ?_)
    obtain ⟨w, hw, hg⟩ := (iha i hi).1
    rcases goes_ok hg with rfl | ⟨j, x, rfl, h1⟩
    · exact ⟨.lost, by simp only [scanG, List.mem_map]; exact ⟨_, hw, rfl⟩, trivial⟩
    · exact ⟨.error, by simp only [scanG, List.mem_map]; exact ⟨_, hw, rfl⟩, trivial⟩
  | notFailure _ iha =>
    refine simple nofun nofun (fun _ => by simp [idle]) (fun _ => by simp [idleNode]) (fun i hi => ?_)
    obtain ⟨w, hw, hg⟩ := (iha i hi).1
    rcases goes_failure hg with rfl | rfl
    · exact ⟨.lost, by simp only [scanG, List.mem_map]; exact ⟨_, hw, rfl⟩, trivial⟩
    · exact ⟨.failure, by simp only [scanG, List.mem_map]; exact ⟨_, hw, rfl⟩, trivial⟩
  | @cut a s o _ hne iha =>
    refine simple nofun nofun (fun _ => by simp [idle]) (fun _ => by simp [idleNode]) (fun i hi => ?_)
    obtain ⟨w, hw, hg⟩ := (iha i hi).1
    refine ⟨w, ?_, hg⟩
    simp only [scanG, List.mem_map]
    refine ⟨w, hw, ?_⟩
    cases w with
    | error =>
      cases o with
      | error => exact absurd rfl hne
      | _ => exact hg.elim
    | _ => rfl
  | cutError _ iha =>
    refine simple nofun nofun (fun _ => by simp [idle]) (fun _ => by simp [idleNode]) (fun i hi => ?_)
    obtain ⟨w, hw, hg⟩ := (iha i hi).1
    rcases goes_error hg with rfl | rfl
    · exact ⟨.lost, by simp only [scanG, List.mem_map]; exact ⟨_, hw, rfl⟩, trivial⟩
    · exact ⟨.failure, by simp only [scanG, List.mem_map]; exact ⟨_, hw, rfl⟩, trivial⟩
  | must _ hl iha =>
    refine simple nofun nofun (fun _ => by simp [idle]) (fun _ => by simp [idleNode]) (fun i hi => ?_)
    obtain ⟨w, hw, hg⟩ := (iha i hi).1
    rcases goes_ok hg with rfl | ⟨j, x, rfl, h1⟩
    · exact ⟨.lost, by simp only [scanG, List.mem_map]; exact ⟨_, hw, rfl⟩, trivial⟩
    · have hij : ¬ j = i := by
        rintro rfl
        exact hl (by rw [h1.2.2.1 rfl])
      exact ⟨.ok j x, by simp only [scanG, List.mem_map]; exact ⟨_, hw, by simp [hij]⟩, hg⟩
  | mustEmpty _ hl iha =>
    refine simple nofun nofun (fun _ => by simp [idle]) (fun _ => by simp [idleNode]) (fun i hi => ?_)
    obtain ⟨w, hw, hg⟩ := (iha i hi).1
    rcases goes_ok hg with rfl | ⟨j, x, rfl, h1⟩
    · exact ⟨.lost, by simp only [scanG, List.mem_map]; exact ⟨_, hw, rfl⟩, trivial⟩
    · have hij : j = i := by
        have := h1.2.1
        by_cases h : i = j
        · exact h.symm
        · have := h1.2.2.2.1 (by omega); omega
      exact ⟨.error, by simp only [scanG, List.mem_map]; exact ⟨_, hw, by simp [hij]⟩, trivial⟩
  | mustBad _ hb iha =>
    refine simple nofun nofun (fun _ => by simp [idle]) (fun _ => by simp [idleNode]) (fun i hi => ?_)
    obtain ⟨w, hw, hg⟩ := (iha i hi).1
    refine ⟨w, ?_, hg⟩
    simp only [scanG, List.mem_map]
    refine ⟨w, hw, ?_⟩
    cases w with
    | ok j x =>
      rename_i o _
      cases o with
      | ok _ _ => exact hb.elim
      | _ => exact hg.elim
    | _ => rfl
  | @post c a s r vs _ hc' iha =>
    refine simple nofun nofun (fun _ => by simp [idle]) (fun _ => by simp [idleNode]) (fun i hi => ?_)
    obtain ⟨w, hw, hg⟩ := (iha i hi).1
    have hn : ¬ (c = .anyFieldPresent ∧ idleNode S.steps call a i = true) := by
      rintro ⟨rfl, hn⟩
      obtain ⟨n, us, h1, h2⟩ := (iha i hi).2.2.2.2 hn
      cases h1
      simp only [PostCond.holds] at hc'
      rw [h2] at hc'
      cases hc'
    rw [scanG, if_neg hn]
    rcases goes_ok hg with rfl | ⟨j, x, rfl, h1⟩
    · exact ⟨.lost, by simp only [List.mem_flatMap]; exact ⟨_, hw, by simp⟩, trivial⟩
    · exact ⟨.ok j x, by simp only [List.mem_flatMap]; exact ⟨_, hw, by simp⟩, hg⟩
  | postViolated _ _ iha =>
    refine simple nofun nofun (fun _ => by simp [idle]) (fun _ => by simp [idleNode]) (fun i hi => ?_)
    obtain ⟨w, hw, hg⟩ := (iha i hi).1
    rw [scanG]
    split
    · exact ⟨.error, by simp, trivial⟩
    · rcases goes_ok hg with rfl | ⟨j, x, rfl, h1⟩
      · exact ⟨.lost, by simp only [List.mem_flatMap]; exact ⟨_, hw, by simp⟩, trivial⟩
      · exact ⟨.error, by simp only [List.mem_flatMap]; exact ⟨_, hw, by simp⟩, trivial⟩
  | @postBad c a s o _ hb iha =>
    refine simple nofun nofun (fun _ => by simp [idle]) (fun _ => by simp [idleNode]) (fun i hi => ?_)
    obtain ⟨w, hw, hg⟩ := (iha i hi).1
    have hn : ¬ (c = .anyFieldPresent ∧ idleNode S.steps call a i = true) := by
      rintro ⟨rfl, hn⟩
      obtain ⟨n, us, h1, h2⟩ := (iha i hi).2.2.2.2 hn
      subst h1
      exact hb.elim
    rw [scanG, if_neg hn]
    refine ⟨w, ?_, hg⟩
    simp only [List.mem_flatMap]
    refine ⟨w, hw, ?_⟩
    cases w with
    | ok j x =>
      cases o with
      | ok _ _ => exact hb.elim
      | _ => exact hg.elim
    | _ => simp
  | @wrap sh a s r vs _ iha =>
    intro i hi
    refine ⟨?_, nofun, nofun, (fun h => by simp [idle] at h), ?_⟩
    · obtain ⟨w, hw, hg⟩ := (iha i hi).1
      rw [scanG]
      refine ⟨w, hw, ?_⟩
      rcases goes_ok hg with rfl | ⟨j, x, rfl, h1, h2, h3, h4, h5⟩
      · trivial
      · exact ⟨h1, h2, h3, h4, fun e => .head (partOf_build (h5 e))⟩
    · intro h
      cases sh with
      | node n =>
        simp only [idleNode] at h
        obtain ⟨us, h1, h2⟩ := (iha i hi).2.2.2.1 h
        cases h1
        exact ⟨n, _, rfl, h2⟩
      | _ => simp [idleNode] at h
  | @wrapBad sh a s o _ hb iha =>
    intro i hi
    refine ⟨by rw [scanG]; exact (iha i hi).1, nofun, nofun, (fun h => by simp [idle] at h), ?_⟩
    intro h
    cases sh with
    | node n =>
      simp only [idleNode] at h
      obtain ⟨us, h1, h2⟩ := (iha i hi).2.2.2.1 h
      subst h1
      exact hb.elim
    | _ => simp [idleNode] at h

/-- What `scan` says is right. -/
theorem scan_sound (S : Scene) (hS : S.Right) (fuel : Nat) (r : CRule) (i : Nat) (s : List Token) (o : Outcome)
    (hi : S.sat i s) (h : Peg cst (.call r) s o) : GoesBy S i s (scan S.steps fuel r i) o := by
  induction fuel generalizing r i s o with
  | zero => exact ⟨.lost, by simp [scan], goes_lost⟩
  | succ fuel ih =>
    rw [scan]
    cases ho : S.steps.over r i with
    | some ws => exact hS.over r i s o ws ho hi h
    | none =>
      cases h with
      | call h => exact (scanG_sound S hS (scan S.steps fuel) (fun r i s o => ih r i s o) h i hi).1

/-! ### Patterns -/

/-- A set of selma'o. -/
inductive Cls where
  | only (l : List Selmaho)
  | except (l : List Selmaho)

def Cls.has : Cls → Selmaho → Prop
  | .only l, s => s ∈ l
  | .except l, s => s ∉ l

/-- Can a word of this set be (`fst`), and not be (`snd`), of selma'o `x`? -/
def Cls.ways (c : Cls) (x : Selmaho) (j : Nat) : List Way :=
  match c with
  | .only l => (if l.contains x then [.ok j false] else []) ++ (if l.all (· == x) then [] else [.error])
  | .except l => if l.contains x then [.error] else [.ok j false, .error]

/-- One token of each of these sets, then nothing, or any number of tokens of other selma'o than those given. -/
def FitsPattern : List Cls → Option (List Selmaho) → List Token → Prop
  | [], none, s => s = []
  | [], some l, s => ∀ t ∈ s, t.selmaho ∉ l
  | c :: w, tail, s => ∃ t r, s = t :: r ∧ c.has t.selmaho ∧ FitsPattern w tail r

/-- What reading one word leads to. -/
def patternSteps (w : List Cls) (tail : Option (List Selmaho)) (over : CRule → Nat → Option (List Way)) : Reading where
  raw x i := if i = w.length + 1 then [.error] else
    match w.drop i, tail with
    | [], none => [.error]
    | [], some l => if l.contains x then [.error] else [.lost]
    | c :: _, _ => c.ways x (i + 1)
  any i := if i = w.length + 1 then [.error] else
    match w.drop i, tail with
    | [], none => [.error]
    | [], some _ => [.lost]
    | _ :: _, _ => [.ok (i + 1) false]
  over := over

/-- Situation `i` is to be after `i` tokens of the pattern, the last situation to be at the end. -/
def patternScene (whole : List Token) (w : List Cls) (tail : Option (List Selmaho)) (over : CRule → Nat → Option (List Way))
    (name : NodeName) (fields : List Val) : Scene where
  steps := patternSteps w tail over
  sat i s := (i ≤ w.length ∧ s = whole.drop i ∧ FitsPattern (w.drop i) tail s) ∨ (i = w.length + 1 ∧ s = [])
  name := name
  fields := fields

theorem patternScene_right (whole : List Token) (w : List Cls) (tail : Option (List Selmaho))
    (over : CRule → Nat → Option (List Way)) (name : NodeName) (fields : List Val)
    (ho : ∀ r i s o ws, over r i = some ws → (patternScene whole w tail over name fields).sat i s → Peg cst (.call r) s o →
      GoesBy (patternScene whole w tail over name fields) i s ws o) : (patternScene whole w tail over name fields).Right where
  over := ho
  raw := by
    intro x i s o hi h
    rcases hi with ⟨hi, hwh, hf⟩ | ⟨rfl, rfl⟩
    · have hne : i ≠ w.length + 1 := by omega
      show GoesBy _ i s (if i = w.length + 1 then [.error] else _) o
      rw [if_neg hne]
      cases hd : w.drop i with
      | nil =>
        rw [hd] at hf
        cases tail with
        | none =>
          simp only [FitsPattern] at hf
          subst hf
          cases h
          exact ⟨.error, by simp, trivial⟩
        | some l =>
          simp only
          split
          · rename_i hx
            cases h with
            | raw h1 => subst h1; exact absurd (List.contains_iff_mem.mp hx) (hf _ (by simp))
            | rawOther _ => exact ⟨.error, by simp, trivial⟩
            | rawEnd => exact ⟨.error, by simp, trivial⟩
          · exact ⟨.lost, by simp, goes_lost⟩
      | cons c w' =>
        rw [hd] at hf
        obtain ⟨t, r, rfl, h1, h2⟩ := hf
        have hr : r = whole.drop (i + 1) := by rw [← List.drop_drop, ← hwh]; rfl
        have hlen : i < w.length := by
          have := congrArg List.length hd
          simp at this
          omega
        have hw' : w' = w.drop (i + 1) := by
          rw [← List.drop_drop, hd]; rfl
        have hok : ∀ vs, Goes (patternScene whole w tail over name fields) i (t :: r) (.ok (i + 1) false) (.ok r vs) := by
          intro vs
          exact ⟨.inl ⟨by omega, hr, hw' ▸ h2⟩, by omega, fun h => by omega, fun _ => by simp, nofun⟩
        cases h with
        | raw h3 =>
          subst h3
          refine ⟨.ok (i + 1) false, ?_, hok _⟩
          cases c with
          | only l => simp only [Cls.has] at h1; simp [Cls.ways, h1]
          | except l => simp only [Cls.has] at h1; simp [Cls.ways, h1]
        | rawOther h3 =>
          refine ⟨.error, ?_, trivial⟩
          cases c with
          | only l =>
            simp only [Cls.has] at h1
            have : l.all (· == x) = false := by
              cases hb : l.all (· == x) with
              | false => rfl
              | true => rw [List.all_eq_true] at hb; exact absurd (beq_iff_eq.mp (hb _ h1)) h3
            simp [Cls.ways, this]
          | except l => simp only [Cls.ways]; split <;> simp
    · cases h
      exact ⟨.error, by simp [patternScene, patternSteps], trivial⟩
  any := by
    intro k i s o hi h
    rcases hi with ⟨hi, hwh, hf⟩ | ⟨rfl, rfl⟩
    · have hne : i ≠ w.length + 1 := by omega
      show GoesBy _ i s (if i = w.length + 1 then [.error] else _) o
      rw [if_neg hne]
      cases hd : w.drop i with
      | nil =>
        rw [hd] at hf
        cases tail with
        | none =>
          simp only [FitsPattern] at hf
          subst hf
          cases h
          exact ⟨.error, by simp, trivial⟩
        | some l => exact ⟨.lost, by simp, goes_lost⟩
      | cons c w' =>
        rw [hd] at hf
        obtain ⟨t, r, rfl, h1, h2⟩ := hf
        have hr : r = whole.drop (i + 1) := by rw [← List.drop_drop, ← hwh]; rfl
        have hlen : i < w.length := by
          have := congrArg List.length hd
          simp at this
          omega
        have hw' : w' = w.drop (i + 1) := by
          rw [← List.drop_drop, hd]; rfl
        cases h with
        | any => exact ⟨.ok (i + 1) false, by simp, .inl ⟨by omega, hr, hw' ▸ h2⟩, by omega, fun h => by omega, fun _ => by simp, nofun⟩
    · cases h
      exact ⟨.error, by simp [patternScene, patternSteps], trivial⟩

end Sneturfahi
