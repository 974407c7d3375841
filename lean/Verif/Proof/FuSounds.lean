import Verif.Proof.Whole
import Verif.Spec.Fuhivla

/-!
# The rules for syllables on sequences of sounds
-/

namespace Sneturfahi.Fu

set_option linter.constructorNameAsVariable false
set_option linter.unusedSimpArgs false

open Derives Spec Names Props
open Lj (C V D Y Q isL liquidOne)

attribute [local irreducible] parseRule
attribute [-simp] text_cons text_nil text_append

abbrev G (c : Char) : Sound := .glide c

/-- The vowels and diphthongs, small and without y. -/
def smallGroups : List (List Char) := [c!"a", c!"e", c!"i", c!"o", c!"u", c!"ai", c!"au", c!"ei", c!"oi"]

/-- Small vowels, no y and no digits. -/
def Small : Sound → Prop
  | .vowels g => g ∈ smallGroups
  | .glide c => c ∈ c!"iu"
  | .apostrophe _ => True
  | .consonant _ => True
  | .digit _ => False

/-- Sounds up to a vowel at the end. -/
structure Fi (s : List Sound) : Prop where
  good : Names.Good s
  small : ∀ x ∈ s, Small x
  ends : s = [] ∨ ∃ a g, s = a ++ [.vowels g]

theorem Fi.tail {x : Sound} {s : List Sound} (h : Fi (x :: s)) : Fi s := by
  refine ⟨h.good.2.2.2, fun y hy => h.small y (by simp [hy]), ?_⟩
  rcases h.ends with e | ⟨a, g, e⟩
  · cases e
  · cases a with
    | nil => simp at e; exact .inl e.2
    | cons y a => simp at e; exact .inr ⟨a, g, e.2⟩

theorem Fi.suffix : ∀ {a b : List Sound}, Fi (a ++ b) → Fi b
  | [], _, h => h
  | _ :: _, _, h => Fi.suffix h.tail

theorem Fi.nil : Fi [] := ⟨trivial, by simp, .inl rfl⟩

/-- How many vowels and diphthongs. -/
def nv (s : List Sound) : Nat := s.countP isVowels

theorem nv_nil_iff {s : List Sound} (h : Fi s) : nv s = 0 ↔ s = [] := by
  constructor
  · intro e
    rcases h.ends with rfl | ⟨a, g, rfl⟩
    · rfl
    · simp [nv, isVowels] at e
  · rintro rfl; rfl

/-- The shape of the sounds: no vowel, or an onset before a vowel. -/
inductive Lead : List Sound → Prop
  | nil : Lead []
  | cons (cs : List Char) (g : List Char) (t : List Sound) : Lead (cs.map C ++ .vowels g :: t)
  | quote (q : Char) (g : List Char) (t : List Sound) : Lead (Q q :: .vowels g :: t)
  | glide (c : Char) (g : List Char) (t : List Sound) : Lead (G c :: .vowels g :: t)

theorem lead : ∀ {s : List Sound}, Fi s → Lead s
  | [], _ => .nil
  | .vowels g :: t, _ => .cons [] g t
  | .consonant c :: s, h => by
    have hn := h.good.2.1
    cases lead h.tail with
    | nil =>
      rcases h.ends with e | ⟨a, g, e⟩
      · cases e
      · cases a <;> simp at e
    | cons cs g t => exact .cons (c :: cs) g t
    | quote => exact hn.elim
    | glide => exact hn.elim
  | .apostrophe q :: s, h => by
    have hn := h.good.2.1
    match s, hn with
    | [], hn => exact absurd hn.2 (by simp [isQuote])
    | .vowels g :: t, _ => exact .quote q g t
    | .glide _ :: _, hn => exact hn.elim
    | .apostrophe _ :: _, hn => exact hn.elim
    | .consonant _ :: _, hn => exact hn.elim
    | .digit _ :: _, hn => exact hn.elim
  | .glide q :: s, h => by
    have hn := h.good.2.1
    match s, hn with
    | [], hn => exact absurd hn.1 (by simp [isGlide])
    | .vowels g :: t, _ => exact .glide q g t
    | .glide _ :: _, hn => exact hn.elim
    | .apostrophe _ :: _, hn => exact hn.elim
    | .consonant _ :: _, hn => exact hn.elim
    | .digit _ :: _, hn => exact hn.elim
  | .digit d :: _, h => (h.small (.digit d) (by simp)).elim

/-! ### Evaluation on sounds -/

/-- The first sound, if it is of the kind. -/
def takeS {α : Type} (k : α → Bool) : List α → Option (List α)
  | [] => none
  | x :: s => if k x then some s else none

/-- The rule takes this from sounds. -/
def Takes (r : Exp Rule) (f : List Sound → Option (List Sound)) : Prop :=
  ∀ s, Fi s → ans r (text s) = (f s).map text

def Cuts (f : List Sound → Option (List Sound)) : Prop := ∀ s t, f s = some t → ∃ a, s = a ++ t

theorem Cuts.fi {f : List Sound → Option (List Sound)} (h : Cuts f) {s t : List Sound} (hs : Fi s) (e : f s = some t) : Fi t := by
  obtain ⟨a, rfl⟩ := h s t e
  exact hs.suffix

theorem takeS_cuts (k : Sound → Bool) : Cuts (takeS k) := by
  intro s t e
  cases s with
  | nil => cases e
  | cons x s => simp only [takeS] at e; split at e <;> cases e; exact ⟨[x], rfl⟩

theorem takes_out {rule : Rule} {k : Sound → Bool} (h : ∀ s, Names.Good s → parseRule rule (text s) = out k s) : Takes (.call rule) (takeS k) := by
  intro s hs
  rw [ans_call, h s hs.good]
  cases s with
  | nil => rfl
  | cons x t => simp only [out, takeS]; split <;> rfl

theorem t_nucleus : Takes (.call .nucleus) (takeS isVowels) := takes_out fun _ h => (reads h).nucleus
theorem t_glide : Takes (.call .glide) (takeS isGlide) := takes_out fun _ h => (reads h).glide
theorem t_h : Takes (.call .h) (takeS isQuote) := takes_out fun _ h => (reads h).h
theorem t_letter {L : Rule} (hL : L ∈ letterRules) : Takes (.call L) (takeS (isLetter L)) := takes_out fun _ h => (reads h).letter L hL

def isCons : Sound → Bool
  | .consonant _ => true
  | _ => false

theorem t_consonant : Takes (.call .consonant) (takeS isCons) := by
  intro s hs
  rw [takes_out (fun _ h => consonant_reads (reads h)) s hs]
  cases s with
  | nil => rfl
  | cons x s =>
    cases x with
    | consonant c =>
      have : c ∈ allConsonants := hs.good.1
      simp [takeS, Names.isConsonant, isCons, this]
    | _ => rfl

section
variable {a b : Exp Rule} {f g : List Sound → Option (List Sound)}

def seqS {α : Type} (f g : List α → Option (List α)) : List α → Option (List α) := fun s => (f s).bind g
def altS {α : Type} (f g : List α → Option (List α)) : List α → Option (List α) := fun s => (f s).or (g s)
def optS {α : Type} (f : List α → Option (List α)) : List α → Option (List α) := fun s => (f s).or (some s)
def notS {α : Type} (f : List α → Option (List α)) : List α → Option (List α) := fun s => if (f s).isSome then none else some s
def peekS {α : Type} (f : List α → Option (List α)) : List α → Option (List α) := fun s => if (f s).isSome then some s else none
def andNotS {α : Type} (f g : List α → Option (List α)) : List α → Option (List α) :=
  fun s => (f s).bind fun t => if (g t).isSome then none else some t

theorem cut_seq (hf : Cuts f) (hg : Cuts g) : Cuts (seqS f g) := by
  intro s t e
  simp only [seqS, Option.bind_eq_some_iff] at e
  obtain ⟨u, h1, h2⟩ := e
  obtain ⟨x, rfl⟩ := hf _ _ h1
  obtain ⟨y, rfl⟩ := hg _ _ h2
  exact ⟨x ++ y, by simp⟩
theorem cut_alt (hf : Cuts f) (hg : Cuts g) : Cuts (altS f g) := by
  intro s t e
  simp only [altS, Option.or_eq_some_iff] at e
  rcases e with e | ⟨_, e⟩
  · exact hf _ _ e
  · exact hg _ _ e
theorem cut_opt (hf : Cuts f) : Cuts (optS f) := by
  intro s t e
  simp only [optS, Option.or_eq_some_iff] at e
  rcases e with e | ⟨_, e⟩
  · exact hf _ _ e
  · cases e; exact ⟨[], rfl⟩
theorem cut_not : Cuts (notS f) := by
  intro s t e
  simp only [notS] at e
  split at e <;> cases e
  exact ⟨[], rfl⟩
theorem cut_peek : Cuts (peekS f) := by
  intro s t e
  simp only [peekS] at e
  split at e <;> cases e
  exact ⟨[], rfl⟩
theorem cut_andNot (hf : Cuts f) : Cuts (andNotS f g) := by
  intro s t e
  simp only [andNotS, Option.bind_eq_some_iff] at e
  obtain ⟨u, h1, h2⟩ := e
  split at h2 <;> cases h2
  exact hf _ _ h1

theorem t_seq (hf : Takes a f) (cf : Cuts f) (hg : Takes b g) : Takes (.seq a b) (seqS f g) := by
  intro s hs
  rw [ans_seq, hf s hs]
  simp only [seqS]
  cases e : f s with
  | none => rfl
  | some t => simp [hg t (cf.fi hs e)]
theorem t_alt (hf : Takes a f) (hg : Takes b g) : Takes (.alt a b) (altS f g) := by
  intro s hs
  rw [ans_alt, hf s hs, hg s hs]
  simp only [altS]
  cases f s <;> simp
theorem t_opt (hf : Takes a f) : Takes (.opt a) (optS f) := by
  intro s hs
  show ans (.alt a .null) _ = _
  rw [ans_alt, hf s hs, ans_null]
  simp only [optS]
  cases f s <;> simp
theorem t_not (hf : Takes a f) : Takes (.not a) (notS f) := by
  intro s hs
  rw [ans_not, hf s hs]
  simp only [notS]
  cases f s <;> simp
theorem t_peek (hf : Takes a f) : Takes (.peek a) (peekS f) := by
  intro s hs
  rw [ans_peek, hf s hs]
  simp only [peekS]
  cases f s <;> simp
theorem t_andNot (hf : Takes a f) (cf : Cuts f) (hg : Takes b g) : Takes (.andNot a b) (andNotS f g) := by
  intro s hs
  rw [ans_andNot, hf s hs]
  simp only [andNotS]
  cases e : f s with
  | none => rfl
  | some t =>
    simp [hg t (cf.fi hs e)]
    cases g t <;> simp
theorem t_body {r : Rule} (h : Takes (grammar r) f) : Takes (.call r) f := fun s hs => by rw [ans_body]; exact h s hs
end

/-! ### Consonants before a vowel -/

def letS (L : Rule) : List Sound → Option (List Sound) := takeS (isLetter L)
theorem c_let (L : Rule) : Cuts (letS L) := takeS_cuts _

def liquidS := altS (letS .l) (letS .r)
theorem c_liquid : Cuts liquidS := cut_alt (c_let _) (c_let _)
theorem t_liquid : Takes (.call .liquid) liquidS := t_body (t_alt (t_letter (by decide)) (t_letter (by decide)))

def syllabicS := altS (letS .l) (altS (letS .m) (altS (letS .n) (letS .r)))
theorem c_syllabic : Cuts syllabicS := cut_alt (c_let _) (cut_alt (c_let _) (cut_alt (c_let _) (c_let _)))
theorem t_syllabic : Takes (.call .syllabic) syllabicS :=
  t_body (t_alt (t_letter (by decide)) (t_alt (t_letter (by decide)) (t_alt (t_letter (by decide)) (t_letter (by decide)))))

def affricateS := altS (seqS (letS .t) (altS (letS .c) (letS .s))) (seqS (letS .d) (altS (letS .j) (letS .z)))
theorem c_affricate : Cuts affricateS := cut_alt (cut_seq (c_let _) (cut_alt (c_let _) (c_let _))) (cut_seq (c_let _) (cut_alt (c_let _) (c_let _)))
theorem t_affricate : Takes (.call .affricate) affricateS :=
  t_body (t_alt (t_seq (t_letter (by decide)) (c_let _) (t_alt (t_letter (by decide)) (t_letter (by decide))))
    (t_seq (t_letter (by decide)) (c_let _) (t_alt (t_letter (by decide)) (t_letter (by decide)))))

def sibilantS := altS (letS .c) (altS (seqS (letS .s) (notS (letS .x))) (seqS (altS (letS .j) (letS .z)) (seqS (notS (letS .n)) (notS liquidS))))
theorem c_sibilant : Cuts sibilantS :=
  cut_alt (c_let _) (cut_alt (cut_seq (c_let _) cut_not) (cut_seq (cut_alt (c_let _) (c_let _)) (cut_seq cut_not cut_not)))
theorem t_sibilant : Takes (.call .sibilant) sibilantS :=
  t_body (t_alt (t_letter (by decide)) (t_alt (t_seq (t_letter (by decide)) (c_let _) (t_not (t_letter (by decide))))
    (t_seq (t_alt (t_letter (by decide)) (t_letter (by decide))) (cut_alt (c_let _) (c_let _)) (t_seq (t_not (t_letter (by decide))) cut_not (t_not t_liquid)))))

def otherS := altS (letS .p) (altS (letS .k) (altS (letS .f) (altS (letS .x) (altS (letS .b) (altS (letS .g) (altS (letS .v) (altS (letS .m)
  (altS (seqS (letS .n) (notS liquidS)) (seqS (altS (letS .t) (letS .d)) (notS (letS .l)))))))))))
theorem c_other : Cuts otherS :=
  cut_alt (c_let _) (cut_alt (c_let _) (cut_alt (c_let _) (cut_alt (c_let _) (cut_alt (c_let _) (cut_alt (c_let _) (cut_alt (c_let _) (cut_alt (c_let _)
    (cut_alt (cut_seq (c_let _) cut_not) (cut_seq (cut_alt (c_let _) (c_let _)) cut_not)))))))))
theorem t_other : Takes (.call .other) otherS :=
  t_body (t_alt (t_letter (by decide)) (t_alt (t_letter (by decide)) (t_alt (t_letter (by decide)) (t_alt (t_letter (by decide))
    (t_alt (t_letter (by decide)) (t_alt (t_letter (by decide)) (t_alt (t_letter (by decide)) (t_alt (t_letter (by decide))
    (t_alt (t_seq (t_letter (by decide)) (c_let _) (t_not t_liquid))
      (t_seq (t_alt (t_letter (by decide)) (t_letter (by decide))) (cut_alt (c_let _) (c_let _)) (t_not (t_letter (by decide)))))))))))))

def initial3S := altS affricateS (seqS (optS sibilantS) (seqS (optS otherS) (optS liquidS)))
theorem c_initial3 : Cuts initial3S := cut_alt c_affricate (cut_seq (cut_opt c_sibilant) (cut_seq (cut_opt c_other) (cut_opt c_liquid)))
def initialS := andNotS (andNotS initial3S (takeS isCons)) (takeS isGlide)
theorem c_initial : Cuts initialS := cut_andNot (cut_andNot c_initial3)
theorem t_initial : Takes (.call .initial) initialS :=
  t_body (t_andNot (t_andNot (t_alt t_affricate (t_seq (t_opt t_sibilant) (cut_opt c_sibilant) (t_seq (t_opt t_other) (cut_opt c_other) (t_opt t_liquid))))
    c_initial3 t_consonant) (cut_andNot c_initial3) t_glide)

def onsetS := altS (takeS isQuote) (altS (takeS isGlide) initialS)
theorem c_onset : Cuts onsetS := cut_alt (takeS_cuts _) (cut_alt (takeS_cuts _) c_initial)
theorem t_onset : Takes (.call .onset) onsetS := t_body (t_alt t_h (t_alt t_glide t_initial))


/-! ### The letters of the consonants decide -/

/-- Neither a consonant nor a glide comes first. -/
def Stop (R : List Sound) : Prop := ∀ c t, R ≠ C c :: t ∧ R ≠ G c :: t

theorem stop_V {g : List Char} {t : List Sound} : Stop (.vowels g :: t) := fun _ _ => ⟨by simp, by simp⟩

/-- What a function takes from the consonants is decided by their letters. -/
def By (f : List Sound → Option (List Sound)) (fc : List Char → Option (List Char)) : Prop :=
  ∀ cs R, Stop R → f (cs.map C ++ R) = (fc cs).map (fun r => r.map C ++ R)

section
variable {f g : List Sound → Option (List Sound)} {fc gc : List Char → Option (List Char)}

theorem by_let (L : Rule) : By (letS L) (takeS (isL L)) := by
  intro cs R hR
  cases cs with
  | cons c cs =>
    show (if isL L c then some (cs.map C ++ R) else none) = Option.map _ (if isL L c then some cs else none)
    cases isL L c <;> rfl
  | nil =>
    cases R with
    | nil => rfl
    | cons x R =>
      cases x with
      | consonant c => exact absurd rfl (hR c R).1
      | _ => rfl
theorem by_consonant : By (takeS isCons) (takeS (fun _ => true)) := by
  intro cs R hR
  cases cs with
  | cons c cs => rfl
  | nil =>
    cases R with
    | nil => rfl
    | cons x R =>
      cases x with
      | consonant c => exact absurd rfl (hR c R).1
      | _ => rfl
theorem by_glide : By (takeS isGlide) (fun _ => none) := by
  intro cs R hR
  cases cs with
  | cons c cs => rfl
  | nil =>
    cases R with
    | nil => rfl
    | cons x R =>
      cases x with
      | glide c => exact absurd rfl (hR c R).2
      | _ => rfl
theorem by_alt (h1 : By f fc) (h2 : By g gc) : By (altS f g) (altS fc gc) := by
  intro cs R hR
  simp only [altS, h1 cs R hR, h2 cs R hR]
  cases fc cs <;> simp
theorem by_seq (h1 : By f fc) (h2 : By g gc) : By (seqS f g) (seqS fc gc) := by
  intro cs R hR
  simp only [seqS, h1 cs R hR]
  cases fc cs with
  | none => rfl
  | some r => simp [h2 r R hR]
theorem by_opt (h1 : By f fc) : By (optS f) (optS fc) := by
  intro cs R hR
  simp only [optS, h1 cs R hR]
  cases fc cs <;> simp
theorem by_not (h1 : By f fc) : By (notS f) (notS fc) := by
  intro cs R hR
  simp only [notS, h1 cs R hR]
  cases fc cs <;> simp
theorem by_andNot (h1 : By f fc) (h2 : By g gc) : By (andNotS f g) (andNotS fc gc) := by
  intro cs R hR
  simp only [andNotS, h1 cs R hR]
  cases fc cs with
  | none => rfl
  | some r =>
    simp only [Option.map_some, Option.bind_some, h2 r R hR]
    cases gc r <;> simp
end

def letC (L : Rule) : List Char → Option (List Char) := takeS (isL L)
def liquidC := altS (letC .l) (letC .r)
def syllabicC := altS (letC .l) (altS (letC .m) (altS (letC .n) (letC .r)))
def affricateC := altS (seqS (letC .t) (altS (letC .c) (letC .s))) (seqS (letC .d) (altS (letC .j) (letC .z)))
def sibilantC := altS (letC .c) (altS (seqS (letC .s) (notS (letC .x))) (seqS (altS (letC .j) (letC .z)) (seqS (notS (letC .n)) (notS liquidC))))
def otherC := altS (letC .p) (altS (letC .k) (altS (letC .f) (altS (letC .x) (altS (letC .b) (altS (letC .g) (altS (letC .v) (altS (letC .m)
  (altS (seqS (letC .n) (notS liquidC)) (seqS (altS (letC .t) (letC .d)) (notS (letC .l)))))))))))
def initial3C := altS affricateC (seqS (optS sibilantC) (seqS (optS otherC) (optS liquidC)))
def initialC := andNotS (andNotS initial3C (takeS (fun _ => true))) (fun _ => none)

theorem by_liquid : By liquidS liquidC := by_alt (by_let _) (by_let _)
theorem by_syllabic : By syllabicS syllabicC := by_alt (by_let _) (by_alt (by_let _) (by_alt (by_let _) (by_let _)))
theorem by_affricate : By affricateS affricateC := by_alt (by_seq (by_let _) (by_alt (by_let _) (by_let _))) (by_seq (by_let _) (by_alt (by_let _) (by_let _)))
theorem by_sibilant : By sibilantS sibilantC :=
  by_alt (by_let _) (by_alt (by_seq (by_let _) (by_not (by_let _))) (by_seq (by_alt (by_let _) (by_let _)) (by_seq (by_not (by_let _)) (by_not by_liquid))))
theorem by_other : By otherS otherC :=
  by_alt (by_let _) (by_alt (by_let _) (by_alt (by_let _) (by_alt (by_let _) (by_alt (by_let _) (by_alt (by_let _) (by_alt (by_let _) (by_alt (by_let _)
    (by_alt (by_seq (by_let _) (by_not by_liquid)) (by_seq (by_alt (by_let _) (by_let _)) (by_not (by_let _)))))))))))
theorem by_initial : By initialS initialC :=
  by_andNot (by_andNot (by_alt by_affricate (by_seq (by_opt by_sibilant) (by_seq (by_opt by_other) (by_opt by_liquid)))) by_consonant) by_glide

/-- Are these initial consonants? -/
def initOk (cs : List Char) : Bool := (initialC cs).isSome

theorem initial_all {cs r : List Char} (h : initialC cs = some r) : r = [] := by
  simp only [initialC, andNotS, Option.bind_eq_some_iff] at h
  obtain ⟨u, ⟨v, -, h1⟩, h2⟩ := h
  cases v with
  | nil => simp [takeS] at h1; subst h1; simpa using h2.symm
  | cons c v => simp [takeS] at h1

theorem initial_clust (cs g : List Char) (t : List Sound) :
    initialS (cs.map C ++ .vowels g :: t) = if initOk cs then some (.vowels g :: t) else none := by
  rw [by_initial cs _ stop_V]
  unfold initOk
  cases h : initialC cs with
  | none => rfl
  | some r => simp [initial_all h]

end Sneturfahi.Fu
