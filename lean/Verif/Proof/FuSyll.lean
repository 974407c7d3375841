import Verif.Proof.FuInit

/-!
# Syllables
-/

namespace Sneturfahi.Fu

set_option linter.constructorNameAsVariable false
set_option linter.unusedSimpArgs false

open Derives Spec Names Props
open Lj (C V D Y Q isL liquidOne Bare0 isYLetter)

attribute [local irreducible] parseRule
attribute [-simp] text_cons text_nil text_append

/-! ### Letters of small sounds -/

theorem small_letters {x : Sound} (h : Small x) (hw : x.WellFormed) : ∀ c ∈ x.letters, c ≠ ',' ∧ isYLetter c = false ∧ capital c = false := by
  have k1 : ∀ g ∈ smallGroups, ∀ c ∈ g, c ≠ ',' ∧ isYLetter c = false ∧ capital c = false := by decide
  have k2 : ∀ c ∈ allConsonants, c ≠ ',' ∧ isYLetter c = false ∧ capital c = false := by decide
  have k3 : ∀ c ∈ c!"'h", c ≠ ',' ∧ isYLetter c = false ∧ capital c = false := by decide
  have k4 : ∀ c ∈ c!"iu", c ≠ ',' ∧ isYLetter c = false ∧ capital c = false := by decide
  cases x with
  | vowels g => exact k1 g h
  | apostrophe q => intro c hc; simp [Sound.letters] at hc; subst hc; exact k3 c hw
  | consonant q => intro c hc; simp [Sound.letters] at hc; subst hc; exact k2 c hw
  | glide q => intro c hc; simp [Sound.letters] at hc; subst hc; exact k4 c h
  | digit _ => exact h.elim

theorem Fi.letters : ∀ {s : List Sound}, Fi s → ∀ c ∈ text s, c ≠ ',' ∧ isYLetter c = false ∧ capital c = false
  | [], _ => by simp [text_nil]
  | x :: s, h => by
    intro c hc
    rw [text_cons] at hc
    rcases List.mem_append.mp hc with hc | hc
    · exact small_letters (h.small x (by simp)) h.good.1 c hc
    · exact Fi.letters h.tail c hc

theorem Fi.bare {s : List Sound} (h : Fi s) : Bare0 (text s) := fun c hc => ⟨(h.letters c hc).1, (h.letters c hc).2.1⟩
theorem Fi.comma {s : List Sound} (h : Fi s) : ',' ∉ text s := fun hc => (h.letters _ hc).1 rfl

theorem y_no {rule : Rule} (hr : Lj.needY rule = true) {s : List Sound} (h : Fi s) : ans (.call rule) (text s) = none := Lj.no_y hr h.bare
theorem cap_no {rule : Rule} (hr : needCapital rule = true) {s : List Sound} (h : Fi s) : ans (.call rule) (text s) = none :=
  ans_none.mpr (needCapital_none hr (fun c hc => (h.letters c hc).2.2))

theorem t_none {rule : Rule} (h : ∀ s, Fi s → ans (.call rule) (text s) = none) : Takes (.call rule) (fun _ => none) := fun s hs => by rw [h s hs]; rfl
theorem t_y : Takes (.call .y) (fun _ => none) := t_none fun _ h => y_no rfl h
theorem t_stressed : Takes (.call .stressed) (fun _ => none) := t_none fun _ h => cap_no rfl h

theorem letters_ne {x : Sound} (hw : x.WellFormed) : x.letters ≠ [] := by
  cases x with
  | vowels g => exact Lj.group_ne_nil hw
  | _ => simp [Sound.letters]

theorem text_ne {s : List Sound} (h : Fi s) (hs : s ≠ []) : text s ≠ [] := by
  cases s with
  | nil => exact absurd rfl hs
  | cons x s => rw [text_cons]; simp [letters_ne h.good.1]

theorem t_eof : Takes .eof (fun s => if s = [] then some [] else none) := by
  intro s hs
  rw [ans_eof]
  by_cases h : s = []
  · subst h; rfl
  · rw [if_neg (text_ne hs h)]; simp [h]

/-! ### Syllables -/

def syl (d : Char) : Bool := isL .l d || isL .m d || isL .n d || isL .r d

/-- Do new syllables begin with these consonants? -/
def anyOk : List Char → Bool
  | [] => true
  | [_] => true
  | c :: d :: rest => initOk (c :: d :: rest) || (syl d && !anyOk (d :: rest) && anyOk rest)

/-- The consonants at the beginning. -/
def lc : List Sound → List Char
  | .consonant c :: s => c :: lc s
  | _ => []

theorem lc_clust (cs g : List Char) (t : List Sound) : lc (cs.map C ++ .vowels g :: t) = cs := by
  induction cs with
  | nil => rfl
  | cons c cs ih => simp [lc, ih]

/-- A consonant that closes the syllable before is left out. -/
def skip (s : List Sound) : List Sound := if !anyOk (lc s) && anyOk (lc s).tail then s.tail else s

def consS (s : List Sound) : Option (List Sound) :=
  match lc s with
  | _ :: d :: rest => if syl d && !anyOk (d :: rest) && anyOk rest then some (s.drop 2) else none
  | _ => none

def codaS (s : List Sound) : Option (List Sound) :=
  if s = [] then some [] else if !anyOk (lc s) && anyOk (lc s).tail then some s.tail else none

def bodyS : List Sound → Option (List Sound) := seqS onsetS (seqS (takeS isVowels) (fun s => some (skip s)))
def anyS : List Sound → Option (List Sound) := altS bodyS consS

theorem init_nil : initOk [] = true := by decide +kernel

theorem on_clust (cs g : List Char) (t : List Sound) :
    onsetS (cs.map C ++ .vowels g :: t) = if initOk cs then some (.vowels g :: t) else none := by
  simp only [onsetS, altS, initial_clust]
  cases cs <;> simp [takeS, isQuote, isGlide]
theorem on_Q (q : Char) (s : List Sound) : onsetS (Q q :: s) = some s := by simp [onsetS, altS, takeS, isQuote]
theorem on_G (q : Char) (s : List Sound) : onsetS (G q :: s) = some s := by simp [onsetS, altS, takeS, isQuote, isGlide]
theorem on_nil : onsetS [] = some [] := rfl

theorem body_nil : bodyS [] = none := by simp [bodyS, seqS, on_nil, takeS]
theorem body_clust (cs g : List Char) (t : List Sound) : bodyS (cs.map C ++ .vowels g :: t) = if initOk cs then some (skip t) else none := by
  simp only [bodyS, seqS, on_clust]
  cases initOk cs <;> simp [seqS, takeS, isVowels]
theorem body_Q (q : Char) (g : List Char) (t : List Sound) : bodyS (Q q :: .vowels g :: t) = some (skip t) := by
  simp [bodyS, seqS, on_Q, takeS, isVowels]
theorem body_G (q : Char) (g : List Char) (t : List Sound) : bodyS (G q :: .vowels g :: t) = some (skip t) := by
  simp [bodyS, seqS, on_G, takeS, isVowels]

theorem init_one {c : Char} (hc : IsConsonantLetter c) : initOk [c] = true := init1 c hc

theorem anyOk_eq (c d : Char) (rest : List Char) : anyOk (c :: d :: rest) = (initOk (c :: d :: rest) || (syl d && !anyOk (d :: rest) && anyOk rest)) := by
  rw [anyOk]

theorem cons_clust (cs g : List Char) (t : List Sound) : consS (cs.map C ++ .vowels g :: t) =
    match cs with
    | _ :: d :: rest => if syl d && !anyOk (d :: rest) && anyOk rest then some (rest.map C ++ .vowels g :: t) else none
    | _ => none := by
  unfold consS
  rw [lc_clust]
  match cs with
  | [] => rfl
  | [_] => rfl
  | c :: d :: rest => simp

/-- New syllables begin here. -/
theorem any_isSome {s : List Sound} (h : Fi s) : (anyS s).isSome = (anyOk (lc s) && !s.isEmpty) := by
  cases lead h with
  | nil => simp [anyS, altS, body_nil, consS, lc]
  | quote q g t => simp [anyS, altS, body_Q, lc, anyOk]
  | glide q g t => simp [anyS, altS, body_G, lc, anyOk]
  | cons cs g t =>
    simp only [anyS, altS, body_clust, cons_clust, lc_clust]
    match cs, h with
    | [], _ => simp [init_nil, anyOk]
    | [c], h => simp [init_one h.good.1, anyOk]
    | c :: d :: rest, _ =>
      rw [anyOk]
      cases h1 : initOk (c :: d :: rest) <;> cases h2 : syl d <;> cases h3 : anyOk (d :: rest) <;> cases h4 : anyOk rest <;> simp [h2, h3, h4]

theorem syllabic_cons {d : Char} {s : List Sound} : (syllabicS (C d :: s)).isSome = syl d := by
  have k : ∀ L, letS L (C d :: s) = if isL L d then some s else none := fun _ => rfl
  simp only [syllabicS, altS, k, syl]
  cases isL .l d <;> cases isL .m d <;> cases isL .n d <;> cases isL .r d <;> rfl
theorem syllabic_V {g : List Char} {s : List Sound} : syllabicS (.vowels g :: s) = none := by simp [syllabicS, altS, letS, takeS, isLetter]

/-- The end is reached after at most two consonants only if it is there already. -/
theorem tail_no {s : List Sound} (h : Fi s) (hs : s ≠ []) :
    seqS (optS syllabicS) (seqS (optS (takeS isCons)) (fun s => if s = [] then some [] else none)) s = none := by
  have key : ∀ (cs : List Char) (R : List Sound), Stop R → R ≠ [] → seqS (optS syllabicS) (seqS (optS (takeS isCons)) (fun s => if s = [] then some [] else none)) (cs.map C ++ R) = none := by
    intro cs R hR hne
    simp only [seqS, by_opt by_syllabic cs R hR]
    cases optS syllabicC cs with
    | none => rfl
    | some r =>
      simp only [Option.map_some, Option.bind_some, seqS, by_opt by_consonant r R hR]
      cases optS (takeS fun _ => true) r with
      | none => rfl
      | some u => simp [hne]
  cases lead h with
  | nil => exact absurd rfl hs
  | cons cs g t => exact key cs _ stop_V (by simp)
  | quote q g t => exact key [] _ (fun _ _ => by simp) (by simp)
  | glide q g t => simp [seqS, optS, syllabicS, altS, letS, takeS, isLetter, isCons]

theorem syll_all : ∀ (n : Nat) {s : List Sound}, s.length ≤ n → Fi s →
    ans (.call .any_syllable) (text s) = (anyS s).map text ∧ ans (.call .coda) (text s) = (codaS s).map text ∧
    ans (.call .consonantal_syllable) (text s) = (consS s).map text := by
  intro n
  induction n with
  | zero =>
    intro s hn _
    cases s with
    | cons _ _ => simp at hn
    | nil =>
      exact ⟨by rw [text_nil, show (anyS []).map text = none from by simp [anyS, altS, body_nil, consS, lc]]; exact ans_none.mpr (by decide +kernel),
        Lj.coda_nil, by rw [text_nil, show (consS []).map text = none from rfl]; exact Lj.cs_end⟩
  | succ n ih =>
    intro s hn h
    by_cases hs : s = []
    · subst hs; exact ih (by simp) h
    have hlt : ∀ t : List Sound, t.length < s.length → t.length ≤ n := fun t ht => by omega
    have c1 : ans (.call .consonantal_syllable) (text s) = (consS s).map text := by
      rw [ans_body]
      show ans (.seq (.call .consonant) (.seq (.peek (.call .syllabic)) (.call .coda))) (text s) = _
      rw [ans_seq, t_consonant s h]
      cases lead h with
      | nil => rfl
      | quote => rfl
      | glide => rfl
      | cons cs g t =>
        rw [cons_clust]
        match cs, h, hlt with
        | [], h, _ => rfl
        | [c], h, _ =>
          simp only [List.map_cons, List.map_nil, List.cons_append, List.nil_append, takeS, isCons, if_true, Option.map_some, Option.bind_some]
          rw [ans_seq, (t_peek t_syllabic) (.vowels g :: t) h.tail]
          simp [peekS, syllabic_V]
        | c :: d :: rest, h, hlt =>
          simp only [List.map_cons, List.cons_append, takeS, isCons, if_true, Option.map_some, Option.bind_some]
          rw [ans_seq, (t_peek t_syllabic) (C d :: (rest.map C ++ .vowels g :: t)) h.tail]
          simp only [peekS, syllabic_cons]
          have hc := (ih (s := C d :: (rest.map C ++ .vowels g :: t)) (hlt _ (by simp)) h.tail).2.1
          have hl : lc (C d :: (rest.map C ++ .vowels g :: t)) = d :: rest := lc_clust (d :: rest) g t
          cases hd : syl d with
          | false => simp
          | true =>
            simp only [if_true, Option.map_some, Option.bind_some, hc, codaS, hl]
            cases h1 : anyOk (d :: rest) <;> cases h2 : anyOk rest <;> simp [h1, h2, hd]
    have c2 : ans (.call .any_syllable) (text s) = (anyS s).map text := by
      rw [ans_body]
      show ans (.alt (.seq (.call .onset) (.seq (.call .nucleus) (.opt (.call .coda)))) (.call .consonantal_syllable)) (text s) = _
      rw [ans_alt, c1]
      have : ans (.seq (.call .onset) (.seq (.call .nucleus) (.opt (.call .coda)))) (text s) = (bodyS s).map text := by
        rw [ans_seq, t_onset s h]
        simp only [bodyS, seqS]
        cases ho : onsetS s with
        | none => rfl
        | some u =>
          obtain ⟨a, rfl⟩ := c_onset _ _ ho
          simp only [Option.map_some, Option.bind_some]
          rw [ans_seq, t_nucleus u h.suffix]
          cases hu : takeS isVowels u with
          | none => simp [seqS, hu]
          | some v =>
            have hv : ∃ x, u = x :: v := by
              cases u with
              | nil => simp [takeS] at hu
              | cons x u => simp only [takeS] at hu; split at hu <;> cases hu; exact ⟨x, rfl⟩
            obtain ⟨x, rfl⟩ := hv
            have hf : Fi v := h.suffix.tail
            have hcd := (ih (hlt v (by simp; omega)) hf).2.1
            simp only [Option.map_some, Option.bind_some]
            show ans (.alt (.call .coda) .null) (text v) = _
            rw [ans_alt, hcd, ans_null]
            simp only [seqS, hu, codaS, skip]
            by_cases hv : v = []
            · subst hv; simp [lc, anyOk]
            · cases h1 : anyOk (lc v) <;> cases h2 : anyOk (lc v).tail <;> simp [hv, h1, h2]
      rw [this]
      simp only [anyS, altS]
      cases bodyS s <;> simp
    refine ⟨c2, ?_, c1⟩
    have e2 : ans (.seq (.opt (.call .syllabic)) (.seq (.opt (.call .consonant)) .eof)) (text s) = none := by
      rw [t_seq (t_opt t_syllabic) (cut_opt c_syllabic) (t_seq (t_opt t_consonant) (cut_opt (takeS_cuts _)) t_eof) s h, tail_no h hs]
      rfl
    rw [ans_body]
    show ans (.alt (.seq (.not (.call .any_syllable)) (.seq (.call .consonant) (.peek (.call .any_syllable)))) _) (text s) = _
    rw [ans_alt, e2, Option.or_none, ans_seq, ans_not, c2]
    have hany := any_isSome h
    simp only [Option.isSome_map, hany]
    have hse : s.isEmpty = false := by simpa using hs
    simp only [hse, codaS, hs, if_false, Bool.not_false, Bool.and_true]
    cases hok : anyOk (lc s) with
    | true => simp
    | false =>
      match s, h, hok, hlt with
      | .consonant c :: t, h, _, hlt =>
        simp only [Bool.false_eq_true, if_false, Option.bind_some, lc, List.tail_cons, Bool.not_false, Bool.true_and]
        rw [ans_seq, t_consonant _ h]
        simp only [takeS, isCons, if_true, Option.map_some, Option.bind_some]
        rw [ans_peek, (ih (hlt t (by simp)) h.tail).1]
        have ht : t.isEmpty = false := by
          cases t with
          | nil =>
            rcases h.ends with e | ⟨a, g, e⟩
            · cases e
            · cases a <;> simp at e
          | cons _ _ => rfl
        simp only [Option.isSome_map, any_isSome h.tail, ht, Bool.not_false, Bool.and_true]
        cases anyOk (lc t) <;> simp
      | .vowels _ :: _, _, hok, _ => simp [lc, anyOk] at hok
      | .glide _ :: _, _, hok, _ => simp [lc, anyOk] at hok
      | .apostrophe _ :: _, _, hok, _ => simp [lc, anyOk] at hok
      | .digit _ :: _, _, hok, _ => simp [lc, anyOk] at hok
      | [], _, hok, _ => simp [lc, anyOk] at hok

theorem t_any : Takes (.call .any_syllable) anyS := fun s h => (syll_all s.length (Nat.le_refl _) h).1
theorem t_coda : Takes (.call .coda) codaS := fun s h => (syll_all s.length (Nat.le_refl _) h).2.1
theorem t_cons : Takes (.call .consonantal_syllable) consS := fun s h => (syll_all s.length (Nat.le_refl _) h).2.2

theorem t_optcoda : Takes (.opt (.call .coda)) (fun s => some (skip s)) := by
  intro s h
  rw [t_opt t_coda s h]
  simp only [optS, codaS, skip]
  by_cases hv : s = []
  · subst hv; simp [lc, anyOk]
  · simp only [hv, if_false]
    split <;> simp

theorem skip_cut (s : List Sound) : ∃ a, s = a ++ skip s := by
  unfold skip
  split
  · cases s with
    | nil => exact ⟨[], rfl⟩
    | cons x s => exact ⟨[x], rfl⟩
  · exact ⟨[], rfl⟩

theorem c_skip : Cuts (fun s => some (skip s)) := by
  intro s t e
  cases e
  exact skip_cut s

theorem c_body : Cuts bodyS := cut_seq c_onset (cut_seq (takeS_cuts _) c_skip)

theorem c_cons : Cuts consS := by
  intro s t e
  unfold consS at e
  split at e
  · split at e <;> cases e
    exact ⟨s.take 2, by simp⟩
  · cases e

theorem t_syllable : Takes (.call .syllable) bodyS := by
  refine t_body ?_
  intro s h
  show ans (.seq (.call .onset) (.seq (.not (.call .y)) (.seq (.call .nucleus) (.opt (.call .coda))))) (text s) = _
  rw [t_seq t_onset c_onset (t_seq (t_not t_y) cut_not (t_seq t_nucleus (takeS_cuts _) t_optcoda)) s h]
  simp only [bodyS, seqS]
  cases onsetS s <;> simp [notS, seqS]

end Sneturfahi.Fu
