import Verif.Proof.Sounds

/-!
# The rules for rafsi on sequences of sounds
-/

namespace Sneturfahi.Lj

set_option linter.constructorNameAsVariable false

open Derives Spec Names Props

attribute [local irreducible] parseRule
attribute [-simp] text_cons text_nil text_append

abbrev C (c : Char) : Sound := .consonant c
abbrev V (v : Char) : Sound := .vowels [v]
abbrev D (v w : Char) : Sound := .vowels [v, w]
abbrev Y : Sound := .vowels ['y']
abbrev Q (q : Char) : Sound := .apostrophe q

/-- Small vowels, no glides and no digits. -/
def Plain : Sound → Prop
  | .vowels g => (∃ v ∈ c!"aeiou", g = [v]) ∨ g = ['y'] ∨ g ∈ [c!"ai", c!"au", c!"ei", c!"oi"]
  | .apostrophe _ => True
  | .consonant _ => True
  | _ => False

structure Ok (s : List Sound) : Prop where
  good : Names.Good s
  plain : ∀ x ∈ s, Plain x
  hy : ∀ a q t, s ≠ a ++ Q q :: Y :: t

theorem Ok.tail {x : Sound} {s : List Sound} (h : Ok (x :: s)) : Ok s :=
  ⟨h.good.2.2.2, fun y hy => h.plain y (by simp [hy]), fun a q t e => h.hy (x :: a) q t (by simp [e])⟩

theorem Ok.suffix : ∀ {a b : List Sound}, Ok (a ++ b) → Ok b
  | [], _, h => h
  | _ :: _, _, h => Ok.suffix h.tail

theorem plain_letters {x : Sound} (h : Plain x) (hw : x.WellFormed) : ∀ c ∈ x.letters, c ≠ ',' ∧ capital c = false := by
  have k1 : ∀ c ∈ c!"aeiou", c ≠ ',' ∧ capital c = false := by decide
  have k2 : ∀ c ∈ allConsonants, c ≠ ',' ∧ capital c = false := by decide
  have k3 : ∀ c ∈ c!"'h", c ≠ ',' ∧ capital c = false := by decide
  have k4 : ∀ g ∈ [c!"ai", c!"au", c!"ei", c!"oi"], ∀ c ∈ g, c ≠ ',' ∧ capital c = false := by decide
  cases x with
  | vowels g =>
    rcases h with ⟨v, hv, rfl⟩ | rfl | h
    · intro c hc; simp [Sound.letters] at hc; subst hc; exact k1 c hv
    · decide
    · exact k4 g h
  | apostrophe q => intro c hc; simp [Sound.letters] at hc; subst hc; exact k3 c hw
  | consonant q => intro c hc; simp [Sound.letters] at hc; subst hc; exact k2 c hw
  | glide _ => cases h
  | digit _ => cases h

theorem Ok.letters : ∀ {s : List Sound}, Ok s → ∀ c ∈ text s, c ≠ ',' ∧ capital c = false
  | [], _ => by simp [text_nil]
  | x :: s, h => by
    intro c hc
    rw [text_cons] at hc
    rcases List.mem_append.mp hc with hc | hc
    · exact plain_letters (h.plain x (by simp)) h.good.1 c hc
    · exact Ok.letters h.tail c hc

theorem Ok.comma {s : List Sound} (h : Ok s) : ',' ∉ text s := fun hc => (h.letters _ hc).1 rfl

theorem group_ne_nil {g : List Char} (h : VowelGroup g) : g ≠ [] := by
  rcases group_cases h with ⟨v, _, rfl⟩ | ⟨v, w, _, rfl⟩ <;> simp

theorem Ok.noHY : ∀ {s : List Sound}, Ok s → ¬ HY (text s)
  | [], _ => by rintro ⟨a, q, c, b, e, _⟩; simp [text_nil] at e
  | x :: s, h => by
    rintro ⟨a, q, c, b, e, hq, hc⟩
    have ih := Ok.noHY h.tail
    obtain ⟨k1, k2, k3, k4, _⟩ := kinds
    have split : ∀ (u : List Char), (∀ z ∈ u, z ∉ c!"'h") → u ++ text s = a ++ q :: c :: b → False := by
      intro u hu e
      rcases List.append_eq_append_iff.mp e with ⟨p, rfl, e2⟩ | ⟨p, rfl, e2⟩
      · exact ih ⟨p, q, c, b, e2, hq, hc⟩
      · cases p with
        | nil => exact ih ⟨[], q, c, b, by simpa using e2.symm, hq, hc⟩
        | cons z p =>
          simp only [List.cons_append, List.cons.injEq] at e2
          exact hu z (by simp) (e2.1 ▸ hq)
    rw [text_cons] at e
    cases x with
    | vowels g => exact split g (fun z hz => (k1 z (group_mem h.good.1 z hz)).2.1) e
    | consonant d => exact split [d] (fun z hz => by simp at hz; subst hz; exact (k4 z h.good.1).2.2.2.1) e
    | glide d => exact h.plain (.glide d) (by simp)
    | digit d => exact h.plain (.digit d) (by simp)
    | apostrophe d =>
      cases a with
      | cons z a =>
        simp only [Sound.letters, List.cons_append, List.nil_append, List.cons.injEq] at e
        exact ih ⟨a, q, c, b, e.2, hq, hc⟩
      | nil =>
        simp only [Sound.letters, List.cons_append, List.nil_append, List.cons.injEq] at e
        have hn := h.good.2.1
        cases s with
        | nil => simp [text_nil] at e
        | cons y t =>
          cases y with
          | vowels g =>
            have hp := h.plain (.vowels g) (by simp)
            have hh := h.hy [] d t
            have he := e.2
            rw [text_cons] at he
            rcases hp with ⟨v, hv, rfl⟩ | rfl | hp
            · simp only [Sound.letters, List.cons_append, List.nil_append, List.cons.injEq] at he
              have : ∀ v ∈ c!"aeiou", v ∉ c!"yY" := by decide
              exact this v hv (he.1 ▸ hc)
            · exact hh rfl
            · have : ∀ g ∈ [c!"ai", c!"au", c!"ei", c!"oi"], ∀ c ∈ g.take 1, c ∉ c!"yY" := by decide
              refine this g hp c ?_ hc
              cases g with
              | nil => exact absurd rfl (group_ne_nil h.tail.good.1)
              | cons z g =>
                simp only [Sound.letters, List.cons_append, List.cons.injEq] at he
                simp [he.1]
          | _ => exact hn

theorem hyx {rule : Rule} {s : List Sound} (h : Ok s) (hr : hyE (grammar rule) = true) : ans (.call rule) (text s) = none := hy_none hr h.comma h.noHY
theorem capx {rule : Rule} {s : List Sound} (h : Ok s) (hr : needCapital rule = true) : ans (.call rule) (text s) = none :=
  ans_none.mpr (needCapital_none hr (fun c hc => (h.letters c hc).2))

/-! ### Single sounds -/

theorem ans_out {rule : Rule} {k : Sound → Bool} {s : List Sound} (h : parseRule rule (text s) = out k s) :
    ans (.call rule) (text s) = (match s with | [] => none | x :: t => if k x then some (text t) else none) := by
  rw [ans_call, h]
  cases s with
  | nil => rfl
  | cons x t => simp only [out]; split <;> rfl

section
variable {s : List Sound} {c v w q : Char}

theorem cons_C (h : Ok (C c :: s)) : ans (.call .consonant) (text (C c :: s)) = some (text s) := by
  rw [ans_out (consonant_reads (reads h.good))]
  have : allConsonants.contains c = true := List.contains_iff_mem.mpr h.good.1
  simp only [Names.isConsonant, this, if_true]
theorem cons_V {g : List Char} (h : Ok (.vowels g :: s)) : ans (.call .consonant) (text (.vowels g :: s)) = none := by
  rw [ans_out (consonant_reads (reads h.good))]; rfl
theorem cons_Q (h : Ok (Q q :: s)) : ans (.call .consonant) (text (Q q :: s)) = none := by
  rw [ans_out (consonant_reads (reads h.good))]; rfl
theorem cons_nil : ans (.call .consonant) (text []) = none := by rw [ans_out (consonant_reads reads_nil)]

theorem nuc_C (h : Ok (C c :: s)) : ans (.call .nucleus) (text (C c :: s)) = none := by rw [ans_out (reads h.good).nucleus]; rfl
theorem nuc_V {g : List Char} (h : Ok (.vowels g :: s)) : ans (.call .nucleus) (text (.vowels g :: s)) = some (text s) := by
  rw [ans_out (reads h.good).nucleus]; rfl
theorem nuc_Q (h : Ok (Q q :: s)) : ans (.call .nucleus) (text (Q q :: s)) = none := by rw [ans_out (reads h.good).nucleus]; rfl
theorem nuc_nil : ans (.call .nucleus) (text []) = none := by rw [ans_out reads_nil.nucleus]

theorem h_C (h : Ok (C c :: s)) : ans (.call .h) (text (C c :: s)) = none := by rw [ans_out (reads h.good).h]; rfl
theorem h_V {g : List Char} (h : Ok (.vowels g :: s)) : ans (.call .h) (text (.vowels g :: s)) = none := by rw [ans_out (reads h.good).h]; rfl
theorem h_Q (h : Ok (Q q :: s)) : ans (.call .h) (text (Q q :: s)) = some (text s) := by rw [ans_out (reads h.good).h]; rfl
theorem h_nil : ans (.call .h) (text []) = none := by rw [ans_out reads_nil.h]

theorem letter_C {L : Rule} (hL : L ∈ letterRules) (h : Ok (C c :: s)) : ans (.call L) (text (C c :: s)) = if (letterChars L).contains c then some (text s) else none := by
  rw [ans_out ((reads h.good).letter L hL)]; rfl

theorem ans_one_cons {chs t : List Char} (hc : c ≠ ',') : ans (.oneOf chs) (c :: t) = if c ∈ chs then some t else none := by
  split
  · rename_i hm; exact ans_sound (one_cons hc hm)
  · rename_i hm; exact ans_sound (one_none hc hm)
theorem ans_one_nil {chs : List Char} : ans (.oneOf chs) [] = none := ans_sound one_nil

theorem y_eq (cs : List Char) : ans (.call .y) cs = ans (.oneOf c!"yY") cs := ans_body .y cs

theorem y_C (h : Ok (C c :: s)) : ans (.call .y) (text (C c :: s)) = none := by
  have hc : c ∈ allConsonants := h.good.1
  have : ∀ c ∈ allConsonants, c ≠ ',' ∧ c ∉ c!"yY" := by decide
  rw [y_eq]
  show ans _ (c :: text s) = none
  rw [ans_one_cons (this c hc).1, if_neg (this c hc).2]
theorem y_Q (h : Ok (Q q :: s)) : ans (.call .y) (text (Q q :: s)) = none := by
  have hc : q ∈ c!"'h" := h.good.1
  have : ∀ c ∈ c!"'h", c ≠ ',' ∧ c ∉ c!"yY" := by decide
  rw [y_eq]
  show ans _ (q :: text s) = none
  rw [ans_one_cons (this q hc).1, if_neg (this q hc).2]
theorem y_nil : ans (.call .y) (text []) = none := by rw [y_eq]; exact ans_one_nil
theorem y_Y : ans (.call .y) (text (Y :: s)) = some (text s) := by
  rw [y_eq]
  show ans _ ('y' :: text s) = _
  rw [ans_one_cons (by decide), if_pos (by decide)]
theorem y_V (hv : v ∈ c!"aeiou") : ans (.call .y) (text (V v :: s)) = none := by
  have : ∀ c ∈ c!"aeiou", c ≠ ',' ∧ c ∉ c!"yY" := by decide
  rw [y_eq]
  show ans _ (v :: text s) = _
  rw [ans_one_cons (this v hv).1, if_neg (this v hv).2]
theorem y_D (hv : [v, w] ∈ [c!"ai", c!"au", c!"ei", c!"oi"]) : ans (.call .y) (text (D v w :: s)) = none := by
  have : ∀ g ∈ [c!"ai", c!"au", c!"ei", c!"oi"], ∀ c ∈ g.head?, c ≠ ',' ∧ c ∉ c!"yY" := by decide
  have this := this _ hv v rfl
  rw [y_eq]
  show ans _ (v :: w :: text s) = _
  rw [ans_one_cons this.1, if_neg this.2]

theorem vow_eq (cs : List Char) : ans (.call .vowel) cs = ans (.andNot (.oneOf vowelSet) (.call .nucleus)) cs := ans_body .vowel cs

theorem ok_nucleus_after {g : List Char} (h : Ok (.vowels g :: s)) : ans (.call .nucleus) (text s) = none := by
  match s, h with
  | [], _ => exact nuc_nil
  | .consonant _ :: _, h => exact nuc_C h.tail
  | .apostrophe _ :: _, h => exact nuc_Q h.tail
  | .vowels _ :: _, h => exact h.good.2.1.elim
  | .glide d :: _, h => exact (h.tail.plain (.glide d) (by simp)).elim
  | .digit d :: _, h => exact (h.tail.plain (.digit d) (by simp)).elim

theorem vow_V (h : Ok (V v :: s)) : ans (.call .vowel) (text (V v :: s)) = some (text s) := by
  have hv : v ∈ vowelSet := group_mem h.good.1 v (by simp)
  have hc := (kinds.1 v hv).1
  have hn := ok_nucleus_after h
  rw [vow_eq]
  show ans _ (v :: text s) = _
  simp [ans_andNot, ans_one_cons hc, hv, hn]
theorem vow_D (h : Ok (D v w :: s)) : ans (.call .vowel) (text (D v w :: s)) = none := by
  have hv : v ∈ vowelSet := group_mem h.good.1 v (by simp)
  have hw : w ∈ vowelSet := group_mem h.good.1 w (by simp)
  have hc := (kinds.1 v hv).1
  have hn := nucleus_one hw (ans_none.mp (ok_nucleus_after h))
  rw [vow_eq]
  show ans _ (v :: w :: text s) = _
  simp [ans_andNot, ans_one_cons hc, hv, ans_call, hn]
theorem vow_other {x : Char} {t : List Char} (h1 : x ≠ ',') (h2 : x ∉ vowelSet) : ans (.call .vowel) (x :: t) = none := by
  rw [vow_eq]
  simp [ans_andNot, ans_one_cons h1, h2]
theorem vow_C (h : Ok (C c :: s)) : ans (.call .vowel) (text (C c :: s)) = none :=
  vow_other (kinds.2.2.2.1 c h.good.1).1 (kinds.2.2.2.1 c h.good.1).2.1
theorem vow_Q (h : Ok (Q q :: s)) : ans (.call .vowel) (text (Q q :: s)) = none :=
  vow_other (kinds.2.1 q h.good.1).1 (kinds.2.1 q h.good.1).2.1
theorem vow_nil : ans (.call .vowel) (text []) = none := by
  rw [vow_eq]; simp [ans_andNot, ans_one_nil, text_nil]

theorem diph_nil : ans (.call .diphthong) (text []) = none := ans_none.mpr (by decide +kernel)

/-! With windows: the rest of the text matters by its first letter only. -/

theorem Ok.stops {g : List Char} (h : Ok (.vowels g :: s)) : Stops (text s) := by
  match s, h with
  | [], _ => exact .inl rfl
  | .consonant c :: _, h => exact .inr ⟨c, _, rfl, List.mem_append_left _ h.tail.good.1⟩
  | .apostrophe c :: _, h => exact .inr ⟨c, _, rfl, List.mem_append_right _ h.tail.good.1⟩
  | .vowels _ :: _, h => exact h.good.2.1.elim
  | .glide d :: _, h => exact (h.tail.plain (.glide d) (by simp)).elim
  | .digit d :: _, h => exact (h.tail.plain (.digit d) (by simp)).elim

theorem fit_D (hv : [v, w] ∈ [c!"ai", c!"au", c!"ei", c!"oi"]) : ∃ p ∈ twos, Fits p [v, w] := by
  simp only [List.mem_cons, List.not_mem_nil, or_false, List.cons.injEq, and_true] at hv
  rcases hv with ⟨rfl, rfl⟩ | ⟨rfl, rfl⟩ | ⟨rfl, rfl⟩ | ⟨rfl, rfl⟩
  · exact ⟨[c!"a", c!"iu"], by decide, by decide, by decide, trivial⟩
  · exact ⟨[c!"a", c!"iu"], by decide, by decide, by decide, trivial⟩
  · exact ⟨[c!"eo", c!"i"], by decide, by decide, by decide, trivial⟩
  · exact ⟨[c!"eo", c!"i"], by decide, by decide, by decide, trivial⟩

theorem fit_one {g : List Char} (h : Plain (.vowels g)) : ∃ p ∈ bits, Fits p g := by
  have : ∀ v ∈ c!"aeiou", v ∈ c!"aeiouy" := by decide
  rcases h with ⟨v, hv, rfl⟩ | rfl | h
  · exact ⟨ones, by simp [bits], this v hv, trivial⟩
  · exact ⟨ones, by simp [bits], by decide, trivial⟩
  · simp only [List.mem_cons, List.not_mem_nil, or_false] at h
    have key : ∀ v w, [v, w] ∈ [c!"ai", c!"au", c!"ei", c!"oi"] → ∃ p ∈ bits, Fits p [v, w] := by
      intro v w h
      obtain ⟨p, hp, hf⟩ := fit_D h
      exact ⟨p, by simp [bits, hp], hf⟩
    rcases h with rfl | rfl | rfl | rfl
    · exact key 'a' 'i' (by decide)
    · exact key 'a' 'u' (by decide)
    · exact key 'e' 'i' (by decide)
    · exact key 'o' 'i' (by decide)

theorem ans_says {rule : Rule} {cs : List Char} {n : Nat} (h : (WOut.ok n).Says cs (parseRule rule cs)) : ans (.call rule) cs = some (cs.drop n) := by
  rw [ans_call, show parseRule rule cs = _ from h]; rfl

theorem diph_V (h : Ok (V v :: s)) : ans (.call .diphthong) (text (V v :: s)) = none := by
  have : ∀ v ∈ c!"aeiou", v ∈ c!"aeiouy" := by decide
  have hv : v ∈ c!"aeiouy" := by
    rcases h.plain (V v) (by simp) with ⟨u, hu, e⟩ | e | e
    · cases e; exact this v hu
    · cases e; decide
    · simp at e
  exact ans_none.mpr (bothEnds_says win_diph1 (m := [v]) ⟨hv, trivial⟩ h.stops)
theorem diph_D (h : Ok (D v w :: s)) (hv : [v, w] ∈ [c!"ai", c!"au", c!"ei", c!"oi"]) : ans (.call .diphthong) (text (D v w :: s)) = some (text s) := by
  obtain ⟨p, hp, hf⟩ := fit_D hv
  exact ans_says (bothEnds_says (List.all_eq_true.mp win_diph2 p hp) hf h.stops)
theorem diph_C (h : Ok (C c :: s)) : ans (.call .diphthong) (text (C c :: s)) = none :=
  ans_none.mpr (failsOpen_says win_diph0 (m := [c]) (text s) ⟨List.mem_append_left _ h.good.1, trivial⟩)
theorem diph_Q (h : Ok (Q q :: s)) : ans (.call .diphthong) (text (Q q :: s)) = none :=
  ans_none.mpr (failsOpen_says win_diph0 (m := [q]) (text s) ⟨List.mem_append_right _ h.good.1, trivial⟩)

theorem drop_fit {p : List (List Char)} {n : Nat} {m r : List Char} (hm : Fits p m) (hn : p.length = n) : (m ++ r).drop n = r := by
  rw [← hn, ← fits_length hm]; simp

theorem on_V {g : List Char} (h : Ok (.vowels g :: s)) : ans (.call .onset) (text (.vowels g :: s)) = some (text (.vowels g :: s)) := by
  obtain ⟨p, hp, hf⟩ := fit_one (h.plain (.vowels g) (by simp))
  exact ans_says (bothEnds_says (List.all_eq_true.mp win_on0 p hp) hf h.stops)
theorem on_CV {g : List Char} (h : Ok (C c :: .vowels g :: s)) : ans (.call .onset) (text (C c :: .vowels g :: s)) = some (text (.vowels g :: s)) := by
  obtain ⟨p, hp, hf⟩ := fit_one (h.plain (.vowels g) (by simp))
  exact ans_says (bothEnds_says (List.all_eq_true.mp win_on1 p hp) (m := c :: g) ⟨h.good.1, hf⟩ h.tail.stops)

theorem initial_fit {d : Char} {p : List (List Char)} {g : List Char} (hc : c ∈ allConsonants) (hd : d ∈ allConsonants)
    (hp : [lower c, lower d] ∈ initialPairs) (hf : Fits p g) : Fits (bothCases (lower c) :: afterInitial (lower c) :: p) (c :: d :: g) := by
  refine ⟨(cases_of_consonant c hc).2, ?_, hf⟩
  simp only [afterInitial, List.mem_filter, decide_eq_true_eq, lower_lower c hc]
  exact ⟨hd, hp⟩

theorem on_CCV {d : Char} {g : List Char} (h : Ok (C c :: C d :: .vowels g :: s)) (hp : [lower c, lower d] ∈ initialPairs) :
    ans (.call .onset) (text (C c :: C d :: .vowels g :: s)) = some (text (.vowels g :: s)) := by
  obtain ⟨p, hp', hf⟩ := fit_one (h.plain (.vowels g) (by simp))
  exact ans_says (bothEnds_says (List.all_eq_true.mp (List.all_eq_true.mp win_on2 p hp') _ (cases_of_consonant c h.good.1).1) (m := c :: d :: g)
    (initial_fit h.good.1 h.tail.good.1 hp hf) h.tail.tail.stops)

theorem ip_CCV {d : Char} {g : List Char} (h : Ok (C c :: C d :: .vowels g :: s)) (hp : [lower c, lower d] ∈ initialPairs) :
    ans (.call .initial_pair) (text (C c :: C d :: .vowels g :: s)) = some (text (.vowels g :: s)) := by
  obtain ⟨p, hp', hf⟩ := fit_one (h.plain (.vowels g) (by simp))
  exact ans_says (bothEnds_says (List.all_eq_true.mp (List.all_eq_true.mp win_ip2 p hp') _ (cases_of_consonant c h.good.1).1) (m := c :: d :: g)
    (initial_fit h.good.1 h.tail.good.1 hp hf) h.tail.tail.stops)

theorem ip_CV {g : List Char} (h : Ok (C c :: .vowels g :: s)) : ans (.call .initial_pair) (text (C c :: .vowels g :: s)) = none := by
  rw [ans_body]
  simp only [grammar, ans_seq, ans_peek]
  split <;> simp [ans_seq, cons_C h, cons_V h.tail]
theorem ip_V {g : List Char} (h : Ok (.vowels g :: s)) : ans (.call .initial_pair) (text (.vowels g :: s)) = none := by
  rw [ans_body]
  simp only [grammar, ans_seq, ans_peek]
  split <;> simp [ans_seq, cons_V h]

theorem cmevla_nil : ans (.call .cmevla) (text []) = none := ans_none.mpr win_cmevla_nil
theorem post_nil : ans (.call .post_word) (text []) = some (text []) := ans_some.mpr ⟨_, win_post_nil⟩

theorem rep_C (h : Ok (C c :: s)) {u : List Char} (h2 : ans (.rep 0 (.call .consonant)) (text s) = some u) :
    ans (.rep 0 (.call .consonant)) (text (C c :: s)) = some u := ans_rep_go (cons_C h) h2
theorem rep_V {g : List Char} (h : Ok (.vowels g :: s)) : ans (.rep 0 (.call .consonant)) (text (.vowels g :: s)) = some (text (.vowels g :: s)) :=
  ans_rep_stop (cons_V h)
theorem rep_Q (h : Ok (Q q :: s)) : ans (.rep 0 (.call .consonant)) (text (Q q :: s)) = some (text (Q q :: s)) :=
  ans_rep_stop (cons_Q h)
end

end Sneturfahi.Lj
