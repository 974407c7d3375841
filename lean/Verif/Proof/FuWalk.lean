import Verif.Proof.FuSyll

/-!
# From syllable to syllable
-/

namespace Sneturfahi.Fu

set_option linter.constructorNameAsVariable false
set_option linter.unusedSimpArgs false

open Derives Spec Names Props
open Lj (C V D Y Q isL liquidOne Bare0 isYLetter)

attribute [local irreducible] parseRule
attribute [-simp] text_cons text_nil text_append

theorem nv_cons (x : Sound) (s : List Sound) : nv (x :: s) = (if isVowels x then 1 else 0) + nv s := by
  unfold nv
  rw [List.countP_cons]
  omega
theorem nv_append (a b : List Sound) : nv (a ++ b) = nv a + nv b := by simp [nv]
theorem nv_map (cs : List Char) : nv (cs.map C) = 0 := by
  induction cs with
  | nil => rfl
  | cons c cs ih => rw [List.map_cons, nv_cons, ih]; rfl

theorem nv_skip {s : List Sound} : nv (skip s) = nv s := by
  unfold skip
  split
  · rename_i h
    match s, h with
    | .consonant c :: t, _ => simp [nv_cons, isVowels]
    | .vowels _ :: _, h => simp [lc, anyOk] at h
    | .glide _ :: _, h => simp [lc, anyOk] at h
    | .apostrophe _ :: _, h => simp [lc, anyOk] at h
    | .digit _ :: _, h => simp [lc, anyOk] at h
    | [], h => simp [lc, anyOk] at h
  · rfl

theorem skip_fi {s : List Sound} (h : Fi s) : Fi (skip s) := by
  obtain ⟨a, e⟩ := skip_cut s
  rw [e] at h
  exact h.suffix

/-! ### Stress -/

theorem consonants_rep : ∀ {cs g : List Char} {t : List Sound}, Fi (cs.map C ++ .vowels g :: t) →
    ans (.rep 0 (.call .consonant)) (text (cs.map C ++ .vowels g :: t)) = some (text (.vowels g :: t))
  | [], g, t, h => ans_rep_stop (by rw [t_consonant _ h]; rfl)
  | c :: cs, g, t, h => ans_rep_go (t := text (cs.map C ++ .vowels g :: t)) (by rw [t_consonant _ h]; rfl) (consonants_rep (Fi.tail h))

theorem on_V (g : List Char) (t : List Sound) : onsetS (.vowels g :: t) = some (.vowels g :: t) := by
  have := on_clust [] g t
  simpa [init_nil] using this

theorem body_V (g : List Char) (t : List Sound) : bodyS (.vowels g :: t) = some (skip t) := by
  have := body_clust [] g t
  simpa [init_nil] using this

theorem skip_nil_iff {t : List Sound} (h : Fi t) : skip t = [] ↔ t = [] := by
  rw [← nv_nil_iff h, ← nv_skip, nv_nil_iff (skip_fi h)]

theorem nv_vowel (g : List Char) (t : List Sound) : nv (.vowels g :: t) = 1 + nv t := by rw [nv_cons]; rfl

/-- The stress is on the vowel before if one vowel follows. -/
theorem stress_iff {s : List Sound} (h : Fi s) : ans (.call .stress) (text s) = if nv s = 1 then some [] else none := by
  have last : ∀ {u v t : List Sound}, Fi u → Fi t → optS (takeS isQuote) u = some v → bodyS v = some (skip t) →
      ans (.seq (.opt (.call .h)) (.seq (.opt (.call .y)) (.seq (.call .syllable) .eof))) (text u) = if nv t = 0 then some [] else none := by
    intro u v t hu ht hv hb
    rw [t_seq (t_opt t_h) (cut_opt (takeS_cuts _)) (t_seq (t_opt t_y) (cut_opt (fun _ _ e => by cases e)) (t_seq t_syllable c_body t_eof)) u hu]
    have : seqS (optS (takeS isQuote)) (seqS (optS fun _ => none) (seqS bodyS fun s => if s = [] then some [] else none)) u =
        if skip t = [] then some [] else none := by
      rw [seqS, hv, Option.bind_some]
      simp only [seqS, optS, Option.none_or, Option.bind_some, hb]
    rw [this]
    have e : (skip t = []) = (nv t = 0) := by rw [skip_nil_iff ht, nv_nil_iff ht]
    simp only [e]
    split <;> rfl
  have one : ∀ n : Nat, (1 + n = 1) = (n = 0) := fun n => by simp
  rw [Lj.stress_eq]
  cases lead h with
  | nil =>
    rw [ans_rep_stop (by rw [t_consonant _ h]; rfl), Option.bind_some]
    rw [t_seq (t_opt t_h) (cut_opt (takeS_cuts _)) (t_seq (t_opt t_y) (cut_opt (fun _ _ e => by cases e)) (t_seq t_syllable c_body t_eof)) [] h]
    rfl
  | cons cs g t =>
    rw [consonants_rep h, Option.bind_some, last h.suffix h.suffix.tail (v := .vowels g :: t) rfl (body_V g t), nv_append, nv_map, nv_vowel, Nat.zero_add]
    simp only [one]
  | quote q g t =>
    rw [ans_rep_stop (by rw [t_consonant _ h]; rfl), Option.bind_some, last h h.tail.tail (v := .vowels g :: t) rfl (body_V g t), nv_cons, nv_vowel]
    simp [isVowels]
  | glide q g t =>
    rw [ans_rep_stop (by rw [t_consonant _ h]; rfl), Option.bind_some, last h h.tail.tail (v := G q :: .vowels g :: t) rfl (body_G q g t), nv_cons, nv_vowel]
    simp [isVowels]

theorem t_stress : Takes (.call .stress) (fun s => if nv s = 1 then some [] else none) := by
  intro s h
  rw [stress_iff h]
  by_cases e : nv s = 1 <;> simp [e, text_nil]

/-! ### The rules for syllables -/

/-- An onset before a vowel. -/
def onOk : List Sound → Bool
  | .apostrophe _ :: .vowels _ :: _ => true
  | .glide _ :: .vowels _ :: _ => true
  | s => initOk (lc s)

/-- After the first vowel. -/
def past : List Sound → List Sound
  | [] => []
  | x :: s => if isVowels x then s else past s

theorem past_clust (cs g : List Char) (t : List Sound) : past (cs.map C ++ .vowels g :: t) = t := by
  induction cs with
  | nil => rfl
  | cons c cs ih => exact ih

theorem onOk_clust (cs g : List Char) (t : List Sound) : onOk (cs.map C ++ .vowels g :: t) = initOk cs := by
  cases cs with
  | nil => simp [onOk, lc]
  | cons c cs =>
    have := lc_clust (c :: cs) g t
    simp only [List.map_cons, List.cons_append] at this ⊢
    rw [onOk, this] <;> simp

theorem body_eq {s : List Sound} (h : Fi s) (hs : s ≠ []) : bodyS s = if onOk s then some (skip (past s)) else none := by
  cases lead h with
  | nil => exact absurd rfl hs
  | cons cs g t => rw [body_clust, onOk_clust, past_clust]
  | quote q g t => simp [body_Q, onOk, past, isVowels]
  | glide q g t => simp [body_G, onOk, past, isVowels]

theorem past_fi {s : List Sound} (h : Fi s) : Fi (past s) := by
  have : ∃ a, s = a ++ past s := by
    clear h
    induction s with
    | nil => exact ⟨[], rfl⟩
    | cons x s ih =>
      rw [past]
      split
      · exact ⟨[x], rfl⟩
      · obtain ⟨a, e⟩ := ih
        exact ⟨x :: a, by rw [List.cons_append, ← e]⟩
  obtain ⟨a, e⟩ := this
  rw [e] at h
  exact h.suffix

theorem nv_past {s : List Sound} (h : Fi s) (hs : s ≠ []) : nv s = 1 + nv (past s) := by
  cases lead h with
  | nil => exact absurd rfl hs
  | cons cs g t => rw [past_clust, nv_append, nv_map, nv_vowel]; omega
  | quote q g t => rw [nv_cons, nv_vowel]; simp [past, isVowels]
  | glide q g t => rw [nv_cons, nv_vowel]; simp [past, isVowels]

/-- A short list of consonants that begins words does so without its first one. -/
theorem initOk_tail {c d : Char} {rest g : List Char} {t : List Sound} (h : Fi ((c :: d :: rest).map C ++ .vowels g :: t)) (hi : initOk (c :: d :: rest) = true) :
    initOk (d :: rest) = true := by
  have h1 := (init_iff h).mp hi
  refine (init_iff (cs := d :: rest) h.tail).mpr ?_
  match rest, h1 with
  | [], _ => trivial
  | [_], h1 => exact h1.2.2.1

theorem anyOk_init {cs : List Char} (h : initOk cs = true) : anyOk cs = true := by
  match cs with
  | [] => rfl
  | [_] => rfl
  | c :: d :: rest => rw [anyOk, h]; rfl

/-- Where a syllable with a vowel begins, no consonantal one does. -/
theorem exclusive {s : List Sound} (h : Fi s) (hs : s ≠ []) (ho : onOk s = true) : consS s = none := by
  cases lead h with
  | nil => exact absurd rfl hs
  | quote q g t => rfl
  | glide q g t => rfl
  | cons cs g t =>
    rw [cons_clust]
    rw [onOk_clust] at ho
    match cs, ho, h with
    | [], _, _ => rfl
    | [_], _, _ => rfl
    | c :: d :: rest, ho, h => simp [anyOk_init (initOk_tail h ho)]

def stressS (s : List Sound) : Option (List Sound) := if nv s = 1 then some [] else none

def unS : List Sound → Option (List Sound) := altS (seqS bodyS (notS stressS)) consS
def stS : List Sound → Option (List Sound) := seqS bodyS (peekS stressS)

theorem t_un : Takes (.call .unstressed_syllable) unS := by
  refine t_body ?_
  intro s h
  show ans (.alt (.seq (.not (.call .stressed)) (.seq (.call .syllable) (.not (.call .stress)))) (.call .consonantal_syllable)) (text s) = _
  rw [t_alt (t_seq (t_not t_stressed) cut_not (t_seq t_syllable c_body (t_not t_stress))) t_cons s h]
  rfl

theorem t_st : Takes (.call .stressed_syllable) stS := by
  refine t_body ?_
  intro s h
  show ans (.alt (.call .explicitly_stressed_syllable) (.seq (.call .syllable) (.peek (.call .stress)))) (text s) = _
  rw [t_alt (t_none fun _ h => cap_no rfl h) (t_seq t_syllable c_body (t_peek t_stress)) s h]
  simp [altS]
  rfl

theorem un_eq {s : List Sound} (h : Fi s) (hs : s ≠ []) : unS s =
    if onOk s then (if nv s = 2 then none else some (skip (past s))) else consS s := by
  have h1 := nv_past h hs
  have h2 : nv (skip (past s)) = nv (past s) := nv_skip
  simp only [unS, altS, seqS, body_eq h hs, notS, stressS]
  cases ho : onOk s with
  | false => simp
  | true =>
    simp only [if_true, Option.bind_some, h2, exclusive h hs ho, Option.or_none]
    by_cases e : nv s = 2
    · simp [e, notS, peekS, stressS, h2, show nv (past s) = 1 by omega]
    · simp [e, notS, peekS, stressS, h2, show nv (past s) ≠ 1 by omega]

theorem st_eq {s : List Sound} (h : Fi s) (hs : s ≠ []) : stS s = if onOk s && decide (nv s = 2) then some (skip (past s)) else none := by
  have h1 := nv_past h hs
  have h2 : nv (skip (past s)) = nv (past s) := nv_skip
  simp only [stS, seqS, body_eq h hs, peekS, stressS]
  cases ho : onOk s with
  | false => simp
  | true =>
    simp only [if_true, Option.bind_some, h2]
    by_cases e : nv s = 2
    · simp [e, notS, peekS, stressS, h2, show nv (past s) = 1 by omega]
    · simp [e, notS, peekS, stressS, h2, show nv (past s) ≠ 1 by omega]

theorem un_nil : unS [] = none := by simp [unS, altS, seqS, body_nil, consS, lc]
theorem st_nil : stS [] = none := by simp [stS, seqS, body_nil]

theorem final_no {s : List Sound} (h : Fi s) (ho : onOk s = false) : ans (.call .final_syllable) (text s) = none := by
  rw [ans_body]
  show ans (.seq (.call .onset) _) (text s) = none
  rw [ans_seq, t_onset s h]
  have : onsetS s = none := by
    cases lead h with
    | nil => simp [onOk, lc, init_nil] at ho
    | quote q g t => simp [onOk] at ho
    | glide q g t => simp [onOk] at ho
    | cons cs g t => rw [onOk_clust] at ho; rw [on_clust, ho]; rfl
  rw [this]
  rfl

theorem final_yes {s : List Sound} (h : Fi s) (ho : onOk s = true) (h1 : nv s = 1) : ans (.call .final_syllable) (text s) = some [] := by
  have hs : s ≠ [] := by rintro rfl; cases h1
  have hp : past s = [] := by
    have := nv_past h hs
    exact (nv_nil_iff (past_fi h)).mp (by omega)
  have e1 : ∃ g, onsetS s = some [.vowels g] := by
    cases lead h with
    | nil => exact absurd rfl hs
    | quote q g t => simp [past, isVowels] at hp; subst hp; exact ⟨g, on_Q q _⟩
    | glide q g t => simp [past, isVowels] at hp; subst hp; exact ⟨g, on_G q _⟩
    | cons cs g t => rw [past_clust] at hp; subst hp; rw [onOk_clust] at ho; exact ⟨g, by rw [on_clust, ho]; rfl⟩
  obtain ⟨g, e1⟩ := e1
  have hf : Fi [Sound.vowels g] := c_onset.fi h e1
  rw [ans_body]
  show ans (.seq (.call .onset) (.seq (.not (.call .y)) (.seq (.not (.call .stressed)) (.seq (.call .nucleus) (.seq (.not (.call .cmevla)) (.peek (.call .post_word))))))) (text s) = _
  rw [ans_seq, t_onset s h, e1]
  simp only [Option.map_some, Option.bind_some]
  rw [ans_seq, ans_not, y_no rfl hf]
  simp only [Option.isSome_none, Bool.false_eq_true, if_false, Option.bind_some]
  rw [ans_seq, ans_not, cap_no rfl hf]
  simp only [Option.isSome_none, Bool.false_eq_true, if_false, Option.bind_some]
  rw [ans_seq, t_nucleus _ hf]
  simp only [takeS, isVowels, if_true, Option.map_some, Option.bind_some]
  rw [ans_seq, ans_not, Lj.cmevla_nil]
  simp only [Option.isSome_none, Bool.false_eq_true, if_false, Option.bind_some]
  rw [ans_peek, Lj.post_nil]
  rfl

/-- The syllables follow each other. -/
inductive Run : List Sound → Prop
  | last {s} : onOk s = true → nv s = 1 → Run s
  | syl {s} : onOk s = true → 2 ≤ nv s → Run (skip (past s)) → Run s
  | cons {s t} : consS s = some t → Run t → Run s

theorem nv_cons_step {s t : List Sound} (h : Fi s) (e : consS s = some t) : nv t = nv s ∧ t.length < s.length ∧ onOk s = false := by
  have ho : onOk s = false := by
    cases ho : onOk s with
    | false => rfl
    | true =>
      by_cases hs : s = []
      · subst hs; cases e
      · rw [exclusive h hs ho] at e; cases e
  refine ⟨?_, ?_, ho⟩
  all_goals
    cases lead h with
    | nil => cases e
    | quote => cases e
    | glide => cases e
    | cons cs g t =>
      rw [cons_clust] at e
      match cs, e with
      | c :: d :: rest, e =>
        simp only at e
        split at e <;> cases e
        simp [nv_cons, nv_append, isVowels] <;> omega

theorem past_len {s : List Sound} (hs : s ≠ []) : (past s).length < s.length := by
  induction s with
  | nil => exact absurd rfl hs
  | cons x s ih =>
    rw [past]
    split
    · simp
    · by_cases e : s = []
      · subst e; simp [past]
      · have := ih e; simp; omega

theorem skip_len (s : List Sound) : (skip s).length ≤ s.length := by
  obtain ⟨a, e⟩ := skip_cut s
  have := congrArg List.length e
  simp at this
  omega

theorem rep_some {rule : Rule} {f : List Sound → Option (List Sound)} (ht : Takes (.call rule) f) (hc : Cuts f)
    (hl : ∀ s t, Fi s → f s = some t → t.length < s.length) :
    ∀ (n : Nat) {s : List Sound}, s.length ≤ n → Fi s → ∃ u, ans (.rep 0 (.call rule)) (text s) = some u := by
  intro n
  induction n with
  | zero =>
    intro s hn h
    cases hf : f s with
    | none => exact ⟨_, ans_rep_stop (by rw [ht s h, hf]; rfl)⟩
    | some t => have := hl s t h hf; omega
  | succ n ih =>
    intro s hn h
    cases hf : f s with
    | none => exact ⟨_, ans_rep_stop (by rw [ht s h, hf]; rfl)⟩
    | some t =>
      have := hl s t h hf
      obtain ⟨u, hu⟩ := ih (by omega) (hc.fi h hf)
      exact ⟨u, ans_rep_go (by rw [ht s h, hf]; rfl) hu⟩

theorem un_len {s t : List Sound} (h : Fi s) (e : unS s = some t) : t.length < s.length := by
  by_cases hs : s = []
  · subst hs; rw [un_nil] at e; cases e
  rw [un_eq h hs] at e
  split at e
  · split at e <;> cases e
    have := past_len hs
    have := skip_len (past s)
    omega
  · exact (nv_cons_step h e).2.1

theorem c_un : Cuts unS := cut_alt (cut_seq c_body cut_not) c_cons

/-- The last syllable, after consonantal ones. -/
theorem last_iff : ∀ (n : Nat) {s : List Sound}, s.length ≤ n → Fi s → nv s = 1 → ∀ r,
    ans (.seq (.rep 0 (.call .consonantal_syllable)) (.call .final_syllable)) (text s) = some r ↔ r = [] ∧ Run s := by
  intro n
  induction n with
  | zero =>
    intro s hn _ h1
    cases s with
    | nil => cases h1
    | cons _ _ => simp at hn
  | succ n ih =>
    intro s hn h h1 r
    rw [ans_seq]
    have hs : s ≠ [] := by rintro rfl; cases h1
    cases hc : consS s with
    | none =>
      rw [ans_rep_stop (by rw [t_cons s h, hc]; rfl), Option.bind_some]
      cases ho : onOk s with
      | true =>
        rw [final_yes h ho h1]
        constructor
        · intro e; cases e; exact ⟨rfl, .last ho h1⟩
        · rintro ⟨rfl, _⟩; rfl
      | false =>
        rw [final_no h ho]
        constructor
        · intro e; cases e
        · rintro ⟨_, hr⟩
          exfalso
          cases hr with
          | last h _ => rw [ho] at h; cases h
          | syl h _ _ => rw [ho] at h; cases h
          | cons h _ => rw [hc] at h; cases h
    | some t =>
      obtain ⟨e1, e2, e3⟩ := nv_cons_step h hc
      have ht := c_cons.fi h hc
      have := ih (s := t) (by omega) ht (by omega) r
      rw [ans_seq] at this
      have step : ans (.rep 0 (.call .consonantal_syllable)) (text s) = ans (.rep 0 (.call .consonantal_syllable)) (text t) := by
        obtain ⟨u, hu⟩ := rep_some t_cons c_cons (fun _ _ h e => (nv_cons_step h e).2.1) _ (Nat.le_refl _) ht
        rw [hu]
        exact ans_rep_go (by rw [t_cons s h, hc]; rfl) hu
      rw [step, this]
      constructor
      · rintro ⟨rfl, hr⟩; exact ⟨rfl, .cons hc hr⟩
      · rintro ⟨rfl, hr⟩
        refine ⟨rfl, ?_⟩
        cases hr with
        | last h _ => rw [e3] at h; cases h
        | syl h _ _ => rw [e3] at h; cases h
        | cons h hr => rw [hc] at h; cases h; exact hr

/-- The rest of a fu'ivla after the checks at its beginning. -/
def main : Exp Rule := .seq (.rep 0 (.call .unstressed_syllable)) (.seq (.call .stressed_syllable) (.seq (.rep 0 (.call .consonantal_syllable)) (.call .final_syllable)))

theorem main_iff : ∀ (n : Nat) {s : List Sound}, s.length ≤ n → Fi s → ∀ r, ans main (text s) = some r ↔ r = [] ∧ 2 ≤ nv s ∧ Run s := by
  intro n
  induction n with
  | zero =>
    intro s hn h r
    cases s with
    | cons _ _ => simp at hn
    | nil =>
      have : ans main (text []) = none := by
        rw [main, ans_seq, ans_rep_stop (by rw [t_un _ h, un_nil]; rfl), Option.bind_some, ans_seq, t_st _ h, st_nil]
        rfl
      rw [this]
      simp [nv]
  | succ n ih =>
    intro s hn h r
    by_cases hs : s = []
    · subst hs; exact ih (by simp) h r
    have hlen : (skip (past s)).length < s.length := by
      have := past_len hs
      have := skip_len (past s)
      omega
    have step : ∀ t, unS s = some t → ans main (text s) = ans main (text t) := by
      intro t e
      obtain ⟨u, hu⟩ := rep_some t_un c_un (fun _ _ h e => un_len h e) _ (Nat.le_refl _) (c_un.fi h e)
      rw [main, ans_seq, ans_seq, hu, ans_rep_go (by rw [t_un s h, e]; rfl) hu]
    have stop : unS s = none → ans main (text s) = (ans (.call .stressed_syllable) (text s)).bind
        (ans (.seq (.rep 0 (.call .consonantal_syllable)) (.call .final_syllable))) := by
      intro e
      rw [main, ans_seq, ans_rep_stop (by rw [t_un s h, e]; rfl), Option.bind_some, ans_seq]
    have hun := un_eq h hs
    have hst := st_eq h hs
    have hp := nv_past h hs
    have hfs := skip_fi (past_fi h)
    cases ho : onOk s with
    | true =>
      simp only [ho, if_true, Bool.true_and] at hun hst
      by_cases e2 : nv s = 2
      · simp only [e2, if_true, decide_true] at hun hst
        rw [stop hun, t_st s h, hst]
        simp only [Option.map_some, Option.bind_some]
        rw [last_iff _ (Nat.le_refl _) hfs (by rw [nv_skip]; omega)]
        constructor
        · rintro ⟨rfl, hr⟩; exact ⟨rfl, by omega, .syl ho (by omega) hr⟩
        · rintro ⟨rfl, _, hr⟩
          refine ⟨rfl, ?_⟩
          cases hr with
          | last _ h1 => omega
          | syl _ _ hr => exact hr
          | cons hc _ => rw [exclusive h hs ho] at hc; cases hc
      · simp only [e2, if_false] at hun
        rw [step _ hun, ih (by omega) hfs, nv_skip]
        constructor
        · rintro ⟨rfl, h1, hr⟩; exact ⟨rfl, by omega, .syl ho (by omega) hr⟩
        · rintro ⟨rfl, h2, hr⟩
          refine ⟨rfl, by omega, ?_⟩
          cases hr with
          | last _ h1 => omega
          | syl _ _ hr => exact hr
          | cons hc _ => rw [exclusive h hs ho] at hc; cases hc
    | false =>
      simp only [ho, Bool.false_eq_true, if_false, Bool.false_and] at hun hst
      cases hc : consS s with
      | none =>
        rw [hc] at hun
        rw [stop hun, t_st s h, hst]
        constructor
        · intro e; cases e
        · rintro ⟨_, _, hr⟩
          exfalso
          cases hr with
          | last h _ => rw [ho] at h; cases h
          | syl h _ _ => rw [ho] at h; cases h
          | cons h _ => rw [hc] at h; cases h
      | some t =>
        rw [hc] at hun
        obtain ⟨e1, e2, _⟩ := nv_cons_step h hc
        rw [step _ hun, ih (by omega) (c_cons.fi h hc), e1]
        constructor
        · rintro ⟨rfl, h1, hr⟩; exact ⟨rfl, h1, .cons hc hr⟩
        · rintro ⟨rfl, h2, hr⟩
          refine ⟨rfl, h2, ?_⟩
          cases hr with
          | last h _ => rw [ho] at h; cases h
          | syl h _ _ => rw [ho] at h; cases h
          | cons h hr => rw [hc] at h; cases h; exact hr

end Sneturfahi.Fu
