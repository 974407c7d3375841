import Verif.Proof.FuRun

/-!
# Words that fall apart, and the rule for fu'ivla
-/

namespace Sneturfahi.Fu

set_option linter.constructorNameAsVariable false
set_option linter.unusedSimpArgs false

open Derives Spec Names Props
open Lj (C V D Y Q isL Bare0 isYLetter)

attribute [local irreducible] parseRule
attribute [-simp] text_cons text_nil text_append

/-! ### No name, no lujvo with y -/

theorem fi_last {s : List Sound} (h : Fi s) (hs : s ≠ []) : ∃ u v, text s = u ++ [v] ∧ ¬ IsConsonantLetter v := by
  rcases h.ends with e | ⟨a, g, rfl⟩
  · exact absurd e hs
  · have hg : g ∈ smallGroups := h.small (.vowels g) (by simp)
    have k : ∀ g ∈ smallGroups, ∃ u v, g = u ++ [v] ∧ ¬ IsConsonantLetter v := by
      intro g hg
      rcases small_one hg with ⟨v, hv, rfl⟩ | ⟨v, w, hw, rfl⟩
      · exact ⟨[], v, rfl, (by decide : ∀ v ∈ c!"aeiou", ¬ IsConsonantLetter v) v hv⟩
      · refine ⟨[v], w, rfl, ?_⟩
        simp only [List.mem_cons, List.not_mem_nil, or_false, List.cons.injEq, and_true] at hw
        rcases hw with ⟨_, rfl⟩ | ⟨_, rfl⟩ | ⟨_, rfl⟩ | ⟨_, rfl⟩ <;> decide
    obtain ⟨u, v, rfl, hv⟩ := k g hg
    exact ⟨text a ++ u, v, by rw [text_append]; simp [text_cons, text_nil, Sound.letters], hv⟩

theorem cmevla_no {s : List Sound} (h : Fi s) : ans (.call .cmevla) (text s) = none := by
  by_cases hs : s = []
  · subst hs; exact Lj.cmevla_nil
  cases e : ans (.call .cmevla) (text s) with
  | none => rfl
  | some r =>
    exfalso
    have hr : r = [] := by
      have h1 := Lj.v_call e
      rw [cmevla_body] at h1
      obtain ⟨t, _, h2⟩ := Lj.v_seq (Lj.v_guard h1)
      obtain ⟨u, _, h3⟩ := Lj.v_seq h2
      rw [ans_eof] at h3
      split at h3 <;> cases h3
      rfl
    subst hr
    obtain ⟨m, hm⟩ := ans_some.mp e
    have := parseRule_append hm
    rw [List.append_nil] at this
    subst this
    obtain ⟨u, c, e1, hc⟩ := name_last ((name_iff h.comma).mp hm)
    obtain ⟨u', v, e2, hv⟩ := fi_last h hs
    have := List.append_inj_right' (e1.symm.trans e2) rfl
    simp at this
    exact hv (this ▸ hc)

theorem cvcy_no {s : List Sound} (h : Fi s) : ans (.call .cvcy_lujvo) (text s) = none := by
  cases e : ans (.call .cvcy_lujvo) (text s) with
  | none => rfl
  | some r =>
    exfalso
    rcases Lj.v_alt (Lj.v_call e) with e | e
    · obtain ⟨u, h1, h2⟩ := Lj.v_seq e
      obtain ⟨t, ht, rfl, _⟩ := at_sound rfl h h1
      obtain ⟨u, h1, h2⟩ := Lj.v_seq h2
      rw [y_no rfl ht] at h1; cases h1
    · obtain ⟨u, h1, h2⟩ := Lj.v_seq e
      obtain ⟨t, ht, rfl, _⟩ := at_sound rfl h h1
      obtain ⟨u, h1, h2⟩ := Lj.v_seq h2
      rw [y_no rfl ht] at h1; cases h1

theorem t_minimal : Takes (.call .cmavo_minimal) cm := by
  intro s h
  rw [ans_body]
  show ans (.guardNot (.call .cvcy_lujvo) (.call .cmavo_form)) (text s) = _
  rw [ans_guardNot, cvcy_no h, t_form s h]
  rfl

/-! ### The particle at the beginning -/

theorem particle_qv {p : List Sound} (hp : ParticleSounds p) : ∀ {t : List Sound}, (∀ c u, t ≠ .apostrophe c :: u) → cm (p ++ t) = some t := by
  have stop : ∀ {t : List Sound}, (∀ c u, t ≠ .apostrophe c :: u) → qv t = t := by
    intro t ht
    cases t with
    | nil => rfl
    | cons x t =>
      cases x with
      | apostrophe c => exact absurd rfl (ht c t)
      | _ => simp [qv]
  have key : ∀ t, cm (p ++ t) = some (qv t) := by
    induction hp with
    | vowels => intro t; rfl
    | glide => intro t; rfl
    | consonant => intro t; rfl
    | @more s q g _ ih => intro t; rw [List.append_assoc, ih]; rfl
  intro t ht
  rw [key, stop ht]

theorem qv_particle : ∀ (n : Nat) {p s : List Sound}, s.length ≤ n → ParticleSounds p → ∃ a, s = a ++ qv s ∧ ParticleSounds (p ++ a) := by
  intro n
  induction n with
  | zero =>
    intro p s hn hp
    cases s with
    | cons _ _ => simp at hn
    | nil => exact ⟨[], rfl, by simpa using hp⟩
  | succ n ih =>
    intro p s hn hp
    have stop : qv s = s → ∃ a, s = a ++ qv s ∧ ParticleSounds (p ++ a) := fun e => ⟨[], by rw [e]; rfl, by simpa using hp⟩
    match s, stop, hn with
    | .apostrophe q :: .vowels g :: s, _, hn =>
      obtain ⟨a, e, hp2⟩ := ih (s := s) (by simp at hn; omega) (hp.more (q := q) (g := g))
      exact ⟨.apostrophe q :: .vowels g :: a, by rw [qv, List.cons_append, List.cons_append, ← e], by simpa using hp2⟩
    | [], stop, _ => exact stop rfl
    | .vowels _ :: _, stop, _ => exact stop (by simp [qv])
    | .glide _ :: _, stop, _ => exact stop (by simp [qv])
    | .consonant _ :: _, stop, _ => exact stop (by simp [qv])
    | .digit _ :: _, stop, _ => exact stop (by simp [qv])
    | [.apostrophe _], stop, _ => exact stop (by simp [qv])
    | .apostrophe _ :: .glide _ :: _, stop, _ => exact stop (by simp [qv])
    | .apostrophe _ :: .apostrophe _ :: _, stop, _ => exact stop (by simp [qv])
    | .apostrophe _ :: .consonant _ :: _, stop, _ => exact stop (by simp [qv])
    | .apostrophe _ :: .digit _ :: _, stop, _ => exact stop (by simp [qv])

theorem qv_no_quote : ∀ (n : Nat) {s : List Sound}, s.length ≤ n → Fi s → ∀ c u, qv s ≠ .apostrophe c :: u := by
  intro n
  induction n with
  | zero =>
    intro s hn h c u e
    cases s with
    | cons _ _ => simp at hn
    | nil => cases e
  | succ n ih =>
    intro s hn h c u e
    match s, h, hn, e with
    | .apostrophe q :: .vowels g :: s, h, hn, e => exact ih (s := s) (by simp at hn; omega) h.tail.tail c u e
    | [], _, _, e => cases e
    | .vowels _ :: _, _, _, e => simp [qv] at e
    | .glide _ :: _, _, _, e => simp [qv] at e
    | .consonant _ :: _, _, _, e => simp [qv] at e
    | .digit _ :: _, _, _, e => simp [qv] at e
    | [.apostrophe _], h, _, _ => exact absurd h.good.2.1.2 (by simp [isQuote])
    | .apostrophe _ :: .glide _ :: _, h, _, _ => exact h.good.2.1.elim
    | .apostrophe _ :: .apostrophe _ :: _, h, _, _ => exact h.good.2.1.elim
    | .apostrophe _ :: .consonant _ :: _, h, _, _ => exact h.good.2.1.elim
    | .apostrophe _ :: .digit _ :: _, h, _, _ => exact h.good.2.1.elim

/-- What the particle at the beginning is. -/
theorem cm_inv {s t : List Sound} (h : Fi s) (e : cm s = some t) : ∃ p, s = p ++ t ∧ ParticleSounds p ∧ Fi t ∧ t.length < s.length ∧
    (∀ c u, t ≠ .apostrophe c :: u) ∧ takeS isVowels t = none := by
  have fin : ∀ (p r : List Sound), ParticleSounds p → s = p ++ r → p ≠ [] → qv r = t → (∀ g u, r ≠ .vowels g :: u) →
      ∃ p, s = p ++ t ∧ ParticleSounds p ∧ Fi t ∧ t.length < s.length ∧ (∀ c u, t ≠ .apostrophe c :: u) ∧ takeS isVowels t = none := by
    intro p r hp e0 hpn e1 hv
    obtain ⟨a, e2, hp2⟩ := qv_particle _ (Nat.le_refl _) (s := r) hp
    rw [e1] at e2
    have hr : Fi r := by rw [e0] at h; exact h.suffix
    have ht : Fi t := by rw [e2] at hr; exact hr.suffix
    refine ⟨p ++ a, by rw [e0, e2, List.append_assoc], hp2, ht, ?_, by rw [← e1]; exact qv_no_quote _ (Nat.le_refl _) hr, ?_⟩
    · rw [e0, e2]
      have : 0 < p.length := List.length_pos_iff.mpr hpn
      simp; omega
    · -- a vowel does not follow
      have hlast : ∃ b g, p ++ a = b ++ [.vowels g] := by
        generalize p ++ a = w at hp2
        cases hp2 with
        | vowels => exact ⟨[], _, rfl⟩
        | glide => exact ⟨[_], _, rfl⟩
        | consonant => exact ⟨[_], _, rfl⟩
        | @more s q g _ => exact ⟨s ++ [.apostrophe q], g, by simp⟩
      obtain ⟨b, g, hb⟩ := hlast
      have hs : Fi (.vowels g :: t) := by
        have : s = b ++ (.vowels g :: t) := by rw [e0, e2, ← List.append_assoc, hb]; simp
        rw [this] at h
        exact h.suffix
      have hn := hs.good.2.1
      match t, hn with
      | [], _ => rfl
      | .vowels _ :: _, hn => exact hn.elim
      | .glide _ :: _, _ => rfl
      | .consonant _ :: _, _ => rfl
      | .apostrophe _ :: _, _ => rfl
      | .digit _ :: _, _ => rfl
  match s, h, e, fin with
  | .vowels g :: r, h, e, fin =>
    simp only [cm, Option.some.injEq] at e
    refine fin [.vowels g] r .vowels rfl (by simp) e ?_
    rintro g u rfl
    exact h.good.2.1.elim
  | .consonant c :: .vowels g :: r, h, e, fin =>
    simp only [cm, Option.some.injEq] at e
    refine fin [.consonant c, .vowels g] r .consonant rfl (by simp) e ?_
    rintro g u rfl
    exact h.tail.good.2.1.elim
  | .glide c :: .vowels g :: r, h, e, fin =>
    simp only [cm, Option.some.injEq] at e
    refine fin [.glide c, .vowels g] r .glide rfl (by simp) e ?_
    rintro g u rfl
    exact h.tail.good.2.1.elim

/-! ### The words with content -/

theorem fuhivla_eq (cs : List Char) : ans (.call .fuhivla) cs =
    if (ans (.call .rafsi_string) cs).isSome || (ans (.call .cmavo) cs).isSome || (ans (.call .slinkuhi) cs).isSome || (ans (.call .h) cs).isSome ||
      (ans (.call .onset) cs).isNone then none else ans main cs := by
  rw [ans_body]
  show ans (.seq (.call .fuhivla_head) (.seq (.call .stressed_syllable) (.seq (.rep 0 (.call .consonantal_syllable)) (.call .final_syllable)))) cs = _
  rw [ans_seq, ans_body .fuhivla_head]
  show (ans (.guardNot (.call .rafsi_string) (.call .brivla_head)) cs).bind _ = _
  rw [ans_guardNot, ans_body .brivla_head]
  show (if _ then none else ans (.seq (.not (.call .cmavo)) (.seq (.not (.call .slinkuhi)) (.seq (.not (.call .h)) (.seq (.peek (.call .onset))
    (.rep 0 (.call .unstressed_syllable)))))) cs).bind _ = _
  rw [ans_seq, ans_not]
  cases ans (.call .rafsi_string) cs with
  | some _ => rfl
  | none =>
    cases ans (.call .cmavo) cs with
    | some _ => rfl
    | none =>
      simp only [Option.isSome_none, Bool.false_eq_true, if_false, Option.bind_some]
      rw [ans_seq, ans_not]
      cases ans (.call .slinkuhi) cs with
      | some _ => rfl
      | none =>
        simp only [Option.isSome_none, Bool.false_eq_true, if_false, Option.bind_some]
        rw [ans_seq, ans_not]
        cases ans (.call .h) cs with
        | some _ => rfl
        | none =>
          simp only [Option.isSome_none, Bool.false_eq_true, if_false, Option.bind_some]
          rw [ans_seq, ans_peek]
          cases ans (.call .onset) cs with
          | none => rfl
          | some _ =>
            simp only [Option.isSome_some, if_true, Option.bind_some, Option.isNone_some, Bool.or_self, Bool.false_eq_true, if_false]
            rw [main, ans_seq]

theorem fuhivla_end {s : List Sound} (h : Fi s) {r : List Char} (ha : ans (.call .fuhivla) (text s) = some r) : r = [] := by
  rw [fuhivla_eq] at ha
  split at ha
  · cases ha
  · exact ((main_iff _ (Nat.le_refl _) h r).mp ha).1

theorem core_end {s : List Sound} (h : Fi s) {r : List Char} (ha : ans (.call .brivla_core) (text s) = some r) : r = [] := by
  rcases Lj.v_alt (Lj.v_call ha) with h1 | h1
  · exact fuhivla_end h h1
  rcases Lj.v_alt h1 with h1 | h1
  · exact gismu_end h h1
  rcases Lj.v_alt h1 with h1 | h1
  · exact final_end h h1
  obtain ⟨u, h1, h2⟩ := Lj.v_seq h1
  have : ans (.call .stressed_y_less_rafsi) (text s) = some u := by
    rcases Lj.v_alt (Lj.v_call h1) with h3 | h3
    · rw [y_no rfl h] at h3; cases h3
    rcases Lj.v_alt h3 with h3 | h3
    · rw [y_no rfl h] at h3; cases h3
    · exact h3
  obtain ⟨t, ht, rfl, h3⟩ := syless_nv h this
  exact short_end ht h3 h2

theorem rep_sound {rule : Rule} (hr : okE (.rep 0 (.call rule)) = true) {s : List Sound} (h : Fi s) {u : List Char}
    (ha : ans (.rep 0 (.call rule)) (text s) = some u) : ∃ t, Fi t ∧ u = text t := by
  have h3 : ∃ m, Derives grammar (.rep 0 (.call rule)) (text s) (some (m, u)) := by
    simp only [ans] at ha
    split at ha
    · rename_i hx
      cases ha
      exact ⟨_, Classical.choose_spec (Classical.choose_spec hx)⟩
    · cases ha
  obtain ⟨m, hm⟩ := h3
  obtain ⟨a, t, rfl, e⟩ := align hm hr s h rfl _ _ rfl
  exact ⟨t, h.suffix, e⟩

theorem lujvo_end {s : List Sound} (h : Fi s) {r : List Char} (ha : ans (.call .lujvo_minimal) (text s) = some r) : r = [] := by
  obtain ⟨u, h1, h2⟩ := Lj.v_seq (Lj.v_call ha)
  obtain ⟨t, ht, rfl⟩ := rep_sound rfl h h1
  exact core_end ht h2

/-- Words with content, by the rules. -/
def IsContent (w : List Char) : Prop := generalPure w ∈ [Selmaho.Gismu, .Lujvo, .Fuhivla]

theorem matches_iff {rule : Rule} {cs : List Char} : matchesAll rule cs = true ↔ ans (.call rule) cs = some [] := by
  unfold matchesAll
  rw [ans_call]
  cases parseRule rule cs with
  | none => simp
  | some x => obtain ⟨m, r⟩ := x; cases r <;> simp

theorem minimal_iff {s : List Sound} (h : Fi s) : matchesAll .cmavo_minimal (text s) = true ↔ cm s = some [] := by
  rw [matches_iff, t_minimal s h]
  cases e : cm s with
  | none => simp
  | some t =>
    obtain ⟨_, _, _, ht, _⟩ := cm_inv h e
    constructor
    · intro h1
      simp only [Option.map_some, Option.some.injEq] at h1
      by_cases hn : t = []
      · rw [hn]
      · exact absurd h1 (text_ne ht hn)
    · intro h1; cases h1; rfl

/-- The rule for words with content. -/
theorem brivla_iff {s : List Sound} (h : Fi s) (hc : cm s ≠ some []) : (ans (.call .brivla_minimal) (text s)).isSome = true ↔ IsContent (text s) := by
  have m1 : matchesAll .cmevla (text s) = false := by
    have : ¬ matchesAll .cmevla (text s) = true := by rw [matches_iff, cmevla_no h]; simp
    simpa using this
  have m2 : matchesAll .cmavo_minimal (text s) = false := by
    have : ¬ matchesAll .cmavo_minimal (text s) = true := by rw [minimal_iff h]; exact hc
    simpa using this
  have some_iff : ∀ {rule : Rule}, (∀ r, ans (.call rule) (text s) = some r → r = []) → ((ans (.call rule) (text s)).isSome = true ↔ matchesAll rule (text s) = true) := by
    intro rule hr
    rw [matches_iff, Option.isSome_iff_exists]
    constructor
    · rintro ⟨r, e⟩; rw [e, hr r e]
    · intro e; exact ⟨_, e⟩
  have i1 := some_iff (rule := .gismu) fun r e => gismu_end h e
  have i2 := some_iff (rule := .fuhivla) fun r e => fuhivla_end h e
  have i3 := some_iff (rule := .lujvo_minimal) fun r e => lujvo_end h e
  have e1 : (ans (.call .brivla_minimal) (text s)).isSome = ((ans (.call .gismu) (text s)).isSome || (ans (.call .fuhivla) (text s)).isSome || (ans (.call .lujvo_minimal) (text s)).isSome) := by
    rw [ans_body]
    show (ans (.alt (.call .gismu) (.alt (.call .fuhivla) (.call .lujvo_minimal))) (text s)).isSome = _
    rw [ans_alt, ans_alt]
    cases ans (.call .gismu) (text s) <;> cases ans (.call .fuhivla) (text s) <;> cases ans (.call .lujvo_minimal) (text s) <;> rfl
  rw [e1, Bool.or_eq_true, Bool.or_eq_true, i1, i2, i3]
  unfold IsContent generalPure
  rw [m1, m2]
  cases matchesAll .gismu (text s) <;> cases matchesAll .fuhivla (text s) <;> cases matchesAll .lujvo_minimal (text s) <;> simp

/-! ### Falling apart -/

theorem semi_eq {s : List Sound} (h : Fi s) : (ans (.call .cmavo_semi_minimal) (text s)).isSome = true ↔
    ∃ t, cm s = some t ∧ (ans (.call .post_word) (text t)).isSome = true := by
  rw [ans_body]
  show (ans (.andPeek (.call .cmavo_minimal) (.call .post_word)) (text s)).isSome = true ↔ _
  rw [ans_andPeek, t_minimal s h]
  cases cm s with
  | none => simp
  | some t =>
    simp only [Option.map_some, Option.bind_some, Option.some.injEq, exists_eq_left']
    cases (ans (.call .post_word) (text t)).isSome <;> simp

theorem post_iff {t : List Sound} (h : Fi t) (hv : takeS isVowels t = none) : (ans (.call .post_word) (text t)).isSome = true ↔
    t = [] ∨ (ans (.call .cmavo_semi_minimal) (text t)).isSome = true ∨ (ans (.call .brivla_minimal) (text t)).isSome = true := by
  by_cases ht : t = []
  · subst ht
    rw [Lj.post_nil]
    simp
  rw [ans_body]
  show (ans (.alt .eof (.seq (.not (.call .nucleus)) (.call .lojban_word))) (text t)).isSome = true ↔ _
  rw [ans_alt, t_eof t h, ans_seq, ans_not, t_nucleus t h, hv]
  simp only [ht, if_false, Option.map_none, Option.none_or, Option.isSome_none, Bool.false_eq_true, Option.bind_some, false_or]
  rw [ans_body .lojban_word]
  show (ans (.alt (.call .cmevla) (.alt (.call .cmavo_semi_minimal) (.call .brivla_minimal))) (text t)).isSome = true ↔ _
  rw [ans_alt, cmevla_no h, ans_alt, Option.none_or]
  cases ans (.call .cmavo_semi_minimal) (text t) <;> cases ans (.call .brivla_minimal) (text t) <;> simp

theorem apart_iff : ∀ (n : Nat) {s : List Sound}, s.length ≤ n → Fi s →
    ((ans (.call .cmavo_semi_minimal) (text s)).isSome = true ↔ FallsApart IsContent s) := by
  intro n
  induction n with
  | zero =>
    intro s hn h
    cases s with
    | cons _ _ => simp at hn
    | nil =>
      rw [semi_eq h]
      constructor
      · rintro ⟨t, e, _⟩; cases e
      · intro hf
        exfalso
        generalize he : ([] : List Sound) = w at hf
        have ne : ∀ {p}, ParticleSounds p → p ≠ [] := by
          intro p hp
          cases hp <;> simp
        cases hf with
        | one h => exact ne h he.symm
        | word h _ _ => simp at he; exact ne h he.1
        | more h _ => simp at he; exact ne h he.1
  | succ n ih =>
    intro s hn h
    rw [semi_eq h]
    constructor
    · rintro ⟨t, e, hp⟩
      obtain ⟨p, rfl, hps, ht, hl, hq, hv⟩ := cm_inv h e
      rcases (post_iff ht hv).mp hp with rfl | h1 | h1
      · rw [List.append_nil]; exact .one hps
      · exact .more hps ((ih (by omega) ht).mp h1)
      · by_cases hc : cm t = some []
        · obtain ⟨p2, e2, hp2, _⟩ := cm_inv ht hc
          rw [List.append_nil] at e2
          subst e2
          exact .more hps (.one hp2)
        · exact .word hps hq ((brivla_iff ht hc).mp h1)
    · intro hf
      have part : ∀ {p t : List Sound}, ParticleSounds p → s = p ++ t → (∀ c u, t ≠ .apostrophe c :: u) →
          (t = [] ∨ FallsApart IsContent t ∨ IsContent (text t)) → ∃ t, cm s = some t ∧ (ans (.call .post_word) (text t)).isSome = true := by
        intro p t hp e hq hr
        have e1 : cm s = some t := by rw [e]; exact particle_qv hp hq
        obtain ⟨p', _, _, ht, hl, _, hv⟩ := cm_inv h e1
        refine ⟨t, e1, (post_iff ht hv).mpr ?_⟩
        rcases hr with hr | hr | hr
        · exact .inl hr
        · exact .inr (.inl ((ih (by omega) ht).mpr hr))
        · by_cases hc : cm t = some []
          · right; left
            rw [semi_eq ht]
            exact ⟨[], hc, by rw [Lj.post_nil]; rfl⟩
          · exact .inr (.inr ((brivla_iff ht hc).mpr hr))
      cases hf with
      | one hp => exact part hp (t := []) (by simp) (by simp) (.inl rfl)
      | word hp hq hc => exact part hp rfl hq (.inr (.inr hc))
      | @more p t hp ht =>
        refine part hp rfl ?_ (.inr (.inl ht))
        rintro c u rfl
        have nq : ∀ {p v : List Sound}, ParticleSounds p → p ++ v ≠ .apostrophe c :: u := by
          intro p v hp
          have : ∀ v, p ++ v ≠ .apostrophe c :: u := by
            induction hp with
            | vowels => intro v; simp
            | glide => intro v; simp
            | consonant => intro v; simp
            | @more s q g _ ih => intro v; rw [List.append_assoc]; exact ih _
          exact this v
        generalize he : (Sound.apostrophe c :: u) = w at ht
        cases ht with
        | one hp => exact nq (v := []) hp (by rw [List.append_nil]; exact he.symm)
        | word hp _ _ => exact nq hp he.symm
        | more hp _ => exact nq hp he.symm

theorem cmavo_iff {s : List Sound} (h : Fi s) : (ans (.call .cmavo) (text s)).isSome = true ↔ FallsApart IsContent s := by
  rw [ans_body]
  show (ans (.guardNot (.call .cmevla) (.call .cmavo_semi_minimal)) (text s)).isSome = true ↔ _
  rw [ans_guardNot, cmevla_no h]
  exact apart_iff _ (Nat.le_refl _) h

/-! ### Fu'ivla -/

theorem onset_iff {s : List Sound} (h : Fi s) (hs : s ≠ []) : (ans (.call .onset) (text s)).isSome = onOk s := by
  rw [t_onset s h, Option.isSome_map]
  cases lead h with
  | nil => exact absurd rfl hs
  | cons cs g t => rw [on_clust, onOk_clust]; split <;> simp_all
  | quote q g t => simp [on_Q, onOk]
  | glide q g t => simp [on_G, onOk]

theorem onOk_any {s : List Sound} (h : Fi s) (ho : onOk s = true) : anyOk (lc s) = true := by
  cases lead h with
  | nil => rfl
  | cons cs g t => rw [onOk_clust] at ho; rw [lc_clust]; exact anyOk_init ho
  | quote q g t => rfl
  | glide q g t => rfl

/-- The rule for fu'ivla. -/
theorem fuhivla_iff {s : List Sound} (h : Fi s) (r : List Char) : ans (.call .fuhivla) (text s) = some r ↔
    r = [] ∧ ¬ Rafsis (text s) ∧ ¬ FallsApart IsContent s ∧ (∀ c t, text s = c :: t → IsConsonantLetter c → ¬ Rafsis t) ∧
    (∀ c, s.head? ≠ some (.apostrophe c)) ∧ onOk s = true ∧ 2 ≤ nv s ∧ Inner s := by
  by_cases hs : s = []
  · subst hs
    constructor
    · intro e
      rw [fuhivla_eq] at e
      split at e
      · cases e
      · have := (main_iff _ (Nat.le_refl _) h r).mp e
        exact absurd this.2.1 (by decide)
    · rintro ⟨_, _, _, _, _, _, h2, _⟩
      exact absurd h2 (by decide)
  have hh : (ans (.call .h) (text s)).isSome = true ↔ ∃ c, s.head? = some (.apostrophe c) := by
    rw [t_h s h, Option.isSome_map]
    cases s with
    | nil => exact absurd rfl hs
    | cons x t => cases x <;> simp [takeS, isQuote]
  rw [fuhivla_eq]
  by_cases h1 : Rafsis (text s)
  · have : (ans (.call .rafsi_string) (text s)).isSome = true := (rafsi_iff h).mpr h1
    simp [this, h1]
  have e1 : (ans (.call .rafsi_string) (text s)).isSome = false := by
    have := fun k => h1 ((rafsi_iff h).mp k)
    simpa using this
  by_cases h2 : FallsApart IsContent s
  · have : (ans (.call .cmavo) (text s)).isSome = true := (cmavo_iff h).mpr h2
    simp [this, h2]
  have e2 : (ans (.call .cmavo) (text s)).isSome = false := by
    have := fun k => h2 ((cmavo_iff h).mp k)
    simpa using this
  have h3 : (ans (.call .slinkuhi) (text s)).isSome = false ↔ ∀ c t, text s = c :: t → IsConsonantLetter c → ¬ Rafsis t := by
    rw [← Bool.not_eq_true, slinkuhi_iff h h1]
    constructor
    · intro k c t e hc hr; exact k ⟨c, t, e, hc, hr⟩
    · rintro k ⟨c, t, e, hc, hr⟩; exact k c t e hc hr
  have h4 : (ans (.call .h) (text s)).isSome = false ↔ ∀ c, s.head? ≠ some (.apostrophe c) := by
    rw [← Bool.not_eq_true, hh]; simp
  rw [← h3, ← h4, e1, e2, ← onset_iff h hs]
  cases e3 : (ans (.call .slinkuhi) (text s)).isSome with
  | true => simp
  | false =>
    cases e4 : (ans (.call .h) (text s)).isSome with
    | true => simp
    | false =>
      cases e5 : ans (.call .onset) (text s) with
      | none => simp
      | some x =>
        simp only [Bool.or_self, Option.isNone_some, Bool.false_eq_true, if_false, h1, h2, not_false_iff, true_and, Option.isSome_some]
        have ho : onOk s = true := by rw [← onset_iff h hs, e5]; rfl
        rw [main_iff _ (Nat.le_refl _) h, run_iff _ (Nat.le_refl _) h hs]
        simp [onOk_any h ho]

end Sneturfahi.Fu
