import Verif.Proof.FuWalk

/-!
# The rules stop between sounds, and what they read are sounds
-/

namespace Sneturfahi.Fu

set_option linter.constructorNameAsVariable false
set_option linter.unusedSimpArgs false

open Derives Spec Names Props
open Lj (C V D Y Q isL Bare0 isYLetter)

attribute [local irreducible] parseRule
attribute [-simp] text_cons text_nil text_append

/-! ### One vowel, two vowels -/

def isOne : Sound → Bool
  | .vowels [_] => true
  | _ => false
def isTwo : Sound → Bool
  | .vowels [_, _] => true
  | _ => false

theorem small_one {g : List Char} (h : g ∈ smallGroups) : (∃ v ∈ c!"aeiou", g = [v]) ∨ ∃ v w, [v, w] ∈ [c!"ai", c!"au", c!"ei", c!"oi"] ∧ g = [v, w] := by
  simp only [smallGroups, List.mem_cons, List.not_mem_nil, or_false] at h
  rcases h with rfl | rfl | rfl | rfl | rfl | rfl | rfl | rfl | rfl
  · exact .inl ⟨_, by decide, rfl⟩
  · exact .inl ⟨_, by decide, rfl⟩
  · exact .inl ⟨_, by decide, rfl⟩
  · exact .inl ⟨_, by decide, rfl⟩
  · exact .inl ⟨_, by decide, rfl⟩
  · exact .inr ⟨_, _, by decide, rfl⟩
  · exact .inr ⟨_, _, by decide, rfl⟩
  · exact .inr ⟨_, _, by decide, rfl⟩
  · exact .inr ⟨_, _, by decide, rfl⟩

theorem nuc_after {g : List Char} {s : List Sound} (h : Fi (.vowels g :: s)) : ans (.call .nucleus) (text s) = none := by
  rw [t_nucleus s h.tail]
  have hn := h.good.2.1
  cases s with
  | nil => rfl
  | cons x s =>
    cases x with
    | vowels g => exact hn.elim
    | _ => rfl

theorem vowel_eq (cs : List Char) : ans (.call .vowel) cs = ans (.andNot (.oneOf vowelSet) (.call .nucleus)) cs := ans_body .vowel cs

theorem vowel_no {x : Char} {t : List Char} (h1 : x ≠ ',') (h2 : x ∉ vowelSet ∨ (ans (.call .nucleus) t).isSome) : ans (.call .vowel) (x :: t) = none := by
  rw [vowel_eq, ans_andNot, Lj.ans_one_cons h1]
  rcases h2 with h2 | h2
  · simp [h2]
  · by_cases h3 : x ∈ vowelSet
    · simp [h3, h2]
    · simp [h3]

theorem t_vowel : Takes (.call .vowel) (takeS isOne) := by
  intro s h
  match s, h with
  | [], _ => exact Lj.vow_nil
  | .consonant c :: s, h =>
    rw [text_cons]
    exact vowel_no (by rintro rfl; exact letters_ok h.good.1 (by simp [Sound.letters])) (.inl fun hc => (kinds.1 c hc).2.2.2 h.good.1)
  | .apostrophe c :: s, h =>
    rw [text_cons]
    exact vowel_no (by rintro rfl; exact letters_ok h.good.1 (by simp [Sound.letters])) (.inl fun hc => (kinds.1 c hc).2.1 h.good.1)
  | .digit c :: s, h => exact (h.small (.digit c) (by simp)).elim
  | .glide c :: s, h =>
    rw [text_cons]
    refine vowel_no (by rintro rfl; exact letters_ok h.good.1 (by simp [Sound.letters])) (.inr ?_)
    show (ans (.call .nucleus) (text s)).isSome = true
    rw [t_nucleus s h.tail]
    have hn := h.good.2.1
    match s, hn with
    | [], hn => exact absurd hn.1 (by simp [isGlide])
    | .vowels g :: t, _ => simp [takeS, isVowels]
    | .glide _ :: _, hn => exact hn.elim
    | .apostrophe _ :: _, hn => exact hn.elim
    | .consonant _ :: _, hn => exact hn.elim
    | .digit _ :: _, hn => exact hn.elim
  | .vowels g :: s, h =>
    have hnu := nuc_after h
    rcases small_one (h.small (.vowels g) (by simp)) with ⟨v, hv, rfl⟩ | ⟨v, w, hv, rfl⟩
    · have k : ∀ v ∈ c!"aeiou", v ≠ ',' ∧ v ∈ vowelSet := by decide
      obtain ⟨k1, k2⟩ := k v hv
      rw [text_cons]
      show ans (.call .vowel) (v :: text s) = _
      rw [vowel_eq, ans_andNot, Lj.ans_one_cons k1]
      simp [k2, hnu, takeS, isOne]
    · have k : ∀ g ∈ [c!"ai", c!"au", c!"ei", c!"oi"], ∀ v w, g = [v, w] → v ≠ ',' ∧ w ∈ vowelSet := by
        intro g hg
        simp only [List.mem_cons, List.not_mem_nil, or_false] at hg
        rcases hg with rfl | rfl | rfl | rfl <;> (intro v w e; simp at e; obtain ⟨rfl, rfl⟩ := e; decide)
      obtain ⟨k1, k2⟩ := k _ hv v w rfl
      rw [text_cons]
      show ans (.call .vowel) (v :: w :: text s) = _
      rw [vowel_no k1 (.inr ?_)]
      · rfl
      · have := nucleus_one (c := w) (t := text s) k2 (ans_none.mp hnu)
        rw [ans_some.mpr ⟨_, this⟩]
        rfl

theorem t_diphthong : Takes (.call .diphthong) (takeS isTwo) := by
  intro s h
  have other : ∀ {x : Char} {t : List Char}, x ≠ ',' → x ∉ c!"aAeEoO" → ans (.call .diphthong) (x :: t) = none := by
    intro x t h1 h2
    have k1 : x ∉ c!"aA" := fun h => h2 ((by decide : ∀ x ∈ c!"aA", x ∈ c!"aAeEoO") x h)
    have k2 : x ∉ c!"eE" := fun h => h2 ((by decide : ∀ x ∈ c!"eE", x ∈ c!"aAeEoO") x h)
    have k3 : x ∉ c!"oO" := fun h => h2 ((by decide : ∀ x ∈ c!"oO", x ∈ c!"aAeEoO") x h)
    have e1 : ans (.call .a) (x :: t) = none := by rw [ans_body]; show ans (.oneOf c!"aA") _ = _; rw [Lj.ans_one_cons h1]; simp [k1]
    have e2 : ans (.call .e) (x :: t) = none := by rw [ans_body]; show ans (.oneOf c!"eE") _ = _; rw [Lj.ans_one_cons h1]; simp [k2]
    have e3 : ans (.call .o) (x :: t) = none := by rw [ans_body]; show ans (.oneOf c!"oO") _ = _; rw [Lj.ans_one_cons h1]; simp [k3]
    rw [ans_body]
    show ans (.andNot (.alt (.seq (.call .a) _) (.seq (.alt (.call .e) (.call .o)) _)) _) _ = _
    rw [ans_andNot, ans_alt, ans_seq, ans_seq, ans_alt, e1, e2, e3]
    rfl
  match s, h with
  | [], _ => exact Lj.diph_nil
  | .consonant c :: s, h =>
    rw [text_cons]
    exact other (by rintro rfl; exact letters_ok h.good.1 (by simp [Sound.letters])) (fun hc => (kinds.1 c ((by decide : ∀ x ∈ c!"aAeEoO", x ∈ vowelSet) c hc)).2.2.2 h.good.1)
  | .apostrophe c :: s, h =>
    rw [text_cons]
    exact other (by rintro rfl; exact letters_ok h.good.1 (by simp [Sound.letters])) (fun hc => (kinds.1 c ((by decide : ∀ x ∈ c!"aAeEoO", x ∈ vowelSet) c hc)).2.1 h.good.1)
  | .digit c :: s, h => exact (h.small (.digit c) (by simp)).elim
  | .glide c :: s, h =>
    rw [text_cons]
    have := (by decide : ∀ c ∈ c!"iuIU", c ≠ ',' ∧ c ∉ c!"aAeEoO") c h.good.1
    exact other this.1 this.2
  | .vowels g :: s, h =>
    have hnu := nuc_after h
    rcases small_one (h.small (.vowels g) (by simp)) with ⟨v, hv, rfl⟩ | ⟨v, w, hv, rfl⟩
    · have hst : ∃ c t, text s = c :: t ∧ (c = 'i' → (ans (.call .nucleus) t).isSome) ∧ (c = 'u' → (ans (.call .nucleus) t).isSome) ∧ c ≠ ',' ∧ c ∉ c!"IU" ∨ text s = [] := by
        match s, h with
        | [], _ => exact ⟨'a', [], .inr rfl⟩
        | .consonant c :: s, h => 
          have k : ∀ c ∈ allConsonants, c ≠ 'i' ∧ c ≠ 'u' ∧ c ≠ ',' ∧ c ∉ c!"IU" := by decide
          obtain ⟨k1, k2, k3, k4⟩ := k c h.tail.good.1
          exact ⟨c, text s, .inl ⟨text_cons _ _, fun h => absurd h k1, fun h => absurd h k2, k3, k4⟩⟩
        | .apostrophe c :: s, h =>
          have k : ∀ c ∈ c!"'h", c ≠ 'i' ∧ c ≠ 'u' ∧ c ≠ ',' ∧ c ∉ c!"IU" := by decide
          obtain ⟨k1, k2, k3, k4⟩ := k c h.tail.good.1
          exact ⟨c, text s, .inl ⟨text_cons _ _, fun h => absurd h k1, fun h => absurd h k2, k3, k4⟩⟩
        | .digit c :: s, h => exact (h.small (.digit c) (by simp)).elim
        | .vowels _ :: s, h => exact h.good.2.1.elim
        | .glide c :: s, h =>
          have hn := h.tail.good.2.1
          have hc : c ∈ c!"iu" := h.small (.glide c) (by simp)
          have k : ∀ c ∈ c!"iu", c ≠ ',' ∧ c ∉ c!"IU" := by decide
          have : (ans (.call .nucleus) (text s)).isSome := by
            rw [t_nucleus s h.tail.tail]
            match s, hn with
            | [], hn => exact absurd hn.1 (by simp [isGlide])
            | .vowels g :: t, _ => simp [takeS, isVowels]
            | .glide _ :: _, hn => exact hn.elim
            | .apostrophe _ :: _, hn => exact hn.elim
            | .consonant _ :: _, hn => exact hn.elim
            | .digit _ :: _, hn => exact hn.elim
          exact ⟨c, text s, .inl ⟨text_cons _ _, fun _ => this, fun _ => this, (k c hc).1, (k c hc).2⟩⟩
      have hi : ∀ rule, rule ∈ [Rule.i, .u] → ∀ r, ans (.call rule) (text s) = some r → (ans (.call .nucleus) r).isSome := by
        intro rule hr r e
        obtain ⟨c, t, ⟨hc, h1, h2, h3, h4⟩ | hc⟩ := hst
        · rw [hc] at e
          simp only [List.mem_cons, List.not_mem_nil, or_false] at hr
          rcases hr with rfl | rfl
          · rw [ans_body] at e
            have e : ans (.oneOf c!"iI") (c :: t) = some r := e
            rw [Lj.ans_one_cons h3] at e
            split at e
            · cases e
              rename_i hm
              simp only [List.mem_cons, List.not_mem_nil, or_false] at hm
              rcases hm with rfl | rfl
              · exact h1 rfl
              · exact absurd h4 (by decide)
            · cases e
          · rw [ans_body] at e
            have e : ans (.oneOf c!"uU") (c :: t) = some r := e
            rw [Lj.ans_one_cons h3] at e
            split at e
            · cases e
              rename_i hm
              simp only [List.mem_cons, List.not_mem_nil, or_false] at hm
              rcases hm with rfl | rfl
              · exact h2 rfl
              · exact absurd h4 (by decide)
            · cases e
        · rw [hc] at e
          simp only [List.mem_cons, List.not_mem_nil, or_false] at hr
          rcases hr with rfl | rfl
          · rw [ans_body] at e
            have e : ans (.oneOf c!"iI") [] = some r := e
            rw [Lj.ans_one_nil] at e; cases e
          · rw [ans_body] at e
            have e : ans (.oneOf c!"uU") [] = some r := e
            rw [Lj.ans_one_nil] at e; cases e
      rw [text_cons]
      show ans (.call .diphthong) (v :: text s) = none
      have k : ∀ v ∈ c!"aeiou", v ≠ ',' := by decide
      cases e : ans (.call .diphthong) (v :: text s) with
      | none => rfl
      | some r =>
        exfalso
        rw [ans_body] at e
        have e : ans (.andNot (.alt (.seq (.call .a) (.alt (.call .i) (.call .u))) (.seq (.alt (.call .e) (.call .o)) (.call .i))) (.call .nucleus)) (v :: text s) = some r := e
        have hn : ans (.call .nucleus) r = none := by
          rw [ans_andNot] at e
          obtain ⟨t, h1, h2⟩ := Option.bind_eq_some_iff.mp e
          cases hx : ans (.call .nucleus) t with
          | none => simp [hx] at h2; subst h2; exact hx
          | some _ => simp [hx] at h2
        have ltr : ∀ rule ∈ [Rule.a, .e, .o], ∀ t, ans (.call rule) (v :: text s) = some t → t = text s := by
          intro rule hr t e
          simp only [List.mem_cons, List.not_mem_nil, or_false] at hr
          have go : ∀ chs, ans (.oneOf chs) (v :: text s) = some t → t = text s := by
            intro chs e
            rw [Lj.ans_one_cons (k v hv)] at e
            split at e <;> cases e
            rfl
          rcases hr with rfl | rfl | rfl <;> rw [ans_body] at e
          · exact go c!"aA" e
          · exact go c!"eE" e
          · exact go c!"oO" e
        have fin : ∀ rule ∈ [Rule.i, .u], ans (.call rule) (text s) = some r → False := by
          intro rule hr e
          have := hi rule hr r e
          rw [hn] at this; cases this
        rcases Lj.v_alt (Lj.v_andNot e) with h | h
        · obtain ⟨t, h1, h2⟩ := Lj.v_seq h
          obtain rfl := ltr .a (by simp) t h1
          rcases Lj.v_alt h2 with h | h
          · exact fin _ (by simp) h
          · exact fin _ (by simp) h
        · obtain ⟨t, h1, h2⟩ := Lj.v_seq h
          have : t = text s := by
            rcases Lj.v_alt h1 with h | h
            · exact ltr .e (by simp) t h
            · exact ltr .o (by simp) t h
          subst this
          exact fin _ (by simp) h2
    · rw [text_cons]
      show ans (.call .diphthong) (v :: w :: text s) = some (text s)
      rw [ans_body]
      show ans (.andNot (.alt (.seq (.call .a) (.alt (.call .i) (.call .u))) (.seq (.alt (.call .e) (.call .o)) (.call .i))) (.call .nucleus)) _ = _
      have go : ∀ (rule : Rule) chs, grammar rule = .oneOf chs → ∀ x t, x ≠ ',' → ans (.call rule) (x :: t) = if x ∈ chs then some t else none := by
        intro rule chs hg x t hx
        rw [ans_body, hg, Lj.ans_one_cons hx]
      simp only [List.mem_cons, List.cons.injEq, and_true, List.not_mem_nil, or_false] at hv
      rw [ans_andNot, ans_alt, ans_seq, ans_seq, ans_alt]
      rcases hv with ⟨rfl, rfl⟩ | ⟨rfl, rfl⟩ | ⟨rfl, rfl⟩ | ⟨rfl, rfl⟩ <;>
        simp [go .a c!"aA" rfl, go .e c!"eE" rfl, go .o c!"oO" rfl, go .i c!"iI" rfl, go .u c!"uU" rfl, ans_alt, hnu]

theorem t_digit : Takes (.call .digit) (fun _ => none) := by
  intro s h
  rw [takes_out (fun _ h => (reads h).digit) s h]
  cases s with
  | nil => rfl
  | cons x s =>
    cases x with
    | digit c => exact (h.small (.digit c) (by simp)).elim
    | _ => rfl

/-! ### The rules stop between sounds -/

def leafRule : Rule → Bool
  | .nucleus | .glide | .h | .vowel | .diphthong | .y | .stressed | .digit => true
  | r => letterRules.contains r

def letterVowel : Rule → Bool
  | .a | .e | .i | .o | .u => true
  | _ => false

/-- What is taken is taken by rules for sounds. -/
def okE : Exp Rule → Bool
  | .null => true
  | .eof => true
  | .oneOf _ => false
  | .call r => !letterVowel r
  | .not _ => true
  | .peek _ => true
  | .alt a b => okE a && okE b
  | .longest a b => okE a && okE b
  | .seq a b => okE a && okE b
  | .rep _ e => okE e
  | .andPeek e _ => okE e
  | .andNot e _ => okE e
  | .guardNot _ e => okE e

theorem ok_body : ∀ r : Rule, letterVowel r = false → leafRule r = false → okE (grammar r) = true := by
  intro r
  cases r <;> first | (intro h; cases h; done) | (intro _ h; cases h; done) | (intro _ _; rfl)

theorem leaf_takes {r : Rule} (h : leafRule r = true) : ∃ f, Takes (.call r) f ∧ Cuts f := by
  have none_cut : Cuts (fun _ => none) := by intro s t e; cases e
  have letter : ∀ r, letterRules.contains r = true → ∃ f, Takes (.call r) f ∧ Cuts f :=
    fun r h => ⟨_, t_letter (List.contains_iff_mem.mp h), takeS_cuts _⟩
  cases r <;> first
    | exact letter _ h
    | exact ⟨_, t_nucleus, takeS_cuts _⟩
    | exact ⟨_, t_glide, takeS_cuts _⟩
    | exact ⟨_, t_h, takeS_cuts _⟩
    | exact ⟨_, t_vowel, takeS_cuts _⟩
    | exact ⟨_, t_diphthong, takeS_cuts _⟩
    | exact ⟨_, t_y, none_cut⟩
    | exact ⟨_, t_stressed, none_cut⟩
    | exact ⟨_, t_digit, none_cut⟩

theorem align {e : Exp Rule} {cs : List Char} {res : Res} (h : Derives grammar e cs res) : okE e = true → ∀ s, Fi s → cs = text s →
    ∀ m r, res = some (m, r) → ∃ a t, s = a ++ t ∧ r = text t := by
  induction h with
  | null => intro _ s _ e m r h; cases h; exact ⟨[], s, rfl, e⟩
  | eofYes => intro _ s _ e m r h; cases h; exact ⟨[], s, rfl, e⟩
  | oneOfYes => intro h; cases h
  | @call r cs res hd ih =>
    intro hok s hs e m t hres
    cases hl : leafRule r with
    | true =>
      obtain ⟨f, hf, cf⟩ := leaf_takes hl
      have h1 := ans_sound (Derives.call hd)
      rw [e, hf s hs, hres] at h1
      simp only [Option.map_eq_some_iff, Option.map_some] at h1
      obtain ⟨u, hx, e4⟩ := h1
      obtain ⟨a, ea⟩ := cf _ _ hx
      exact ⟨a, u, ea, e4.symm⟩
    | false => exact ih (ok_body r (by simpa [okE] using hok) hl) s hs e m t hres
  | notYes => intro _ s _ e m r h; cases h; exact ⟨[], s, rfl, e⟩
  | peekYes => intro _ s _ e m r h; cases h; exact ⟨[], s, rfl, e⟩
  | altL _ ih => intro hok; exact ih (Bool.and_eq_true _ _ ▸ hok).1
  | altR _ _ _ ih => intro hok; exact ih (Bool.and_eq_true _ _ ▸ hok).2
  | @longest a b cs ra rb _ _ iha ihb =>
    intro hok s hs e m r h
    have iha := iha (Bool.and_eq_true _ _ ▸ hok).1 s hs e
    have ihb := ihb (Bool.and_eq_true _ _ ▸ hok).2 s hs e
    cases ra with
    | none => exact ihb m r (by simpa [Res.longest] using h)
    | some x =>
      cases rb with
      | none => exact iha m r (by simpa [Res.longest, Prod.ext_iff] using h)
      | some y =>
        simp only [Res.longest, Option.some.injEq] at h
        split at h
        · exact iha m r (by rw [← h])
        · exact ihb m r (by rw [← h])
  | seqGo _ _ iha ihb =>
    intro hok s hs e m r h
    obtain ⟨x, h1, h2⟩ := Res.prepend_some h
    obtain ⟨a, t, rfl, e2⟩ := iha (Bool.and_eq_true _ _ ▸ hok).1 s hs e _ _ rfl
    obtain ⟨b, u, rfl, e3⟩ := ihb (Bool.and_eq_true _ _ ▸ hok).2 t hs.suffix e2 _ _ h1
    exact ⟨a ++ b, u, by simp, e3⟩
  | repStop => intro _ s _ e m r h; cases h; exact ⟨[], s, rfl, e⟩
  | repStep _ _ iha ihb =>
    intro hok s hs e m r h
    obtain ⟨x, h1, h2⟩ := Res.prepend_some h
    obtain ⟨a, t, rfl, e2⟩ := iha hok s hs e _ _ rfl
    obtain ⟨b, u, rfl, e3⟩ := ihb hok t hs.suffix e2 _ _ h1
    exact ⟨a ++ b, u, by simp, e3⟩
  | andPeekYes _ _ ih => intro hok s hs e m r h; cases h; exact ih hok s hs e _ _ rfl
  | andNotYes _ _ ih => intro hok s hs e m r h; cases h; exact ih hok s hs e _ _ rfl
  | guardGo _ _ _ ih => intro hok; exact ih hok
  | _ => intro _ _ _ _ m r h; cases h

/-- A rule stops between sounds. -/
theorem at_sound {rule : Rule} (hok : letterVowel rule = false) {s : List Sound} (h : Fi s) {r : List Char} (ha : ans (.call rule) (text s) = some r) :
    ∃ t, Fi t ∧ r = text t ∧ ∃ a, s = a ++ t := by
  obtain ⟨m, hm⟩ := ans_some.mp ha
  obtain ⟨a, t, rfl, e⟩ := align (derives_iff.mpr hm) (by simp [okE, hok]) s h rfl _ _ rfl
  exact ⟨t, h.suffix, e, a, rfl⟩

/-- Where a rule for one sound stops. -/
theorem take_inv {rule : Rule} {k : Sound → Bool} (ht : Takes (.call rule) (takeS k)) {s : List Sound} (h : Fi s) {r : List Char}
    (ha : ans (.call rule) (text s) = some r) : ∃ x t, k x = true ∧ s = x :: t ∧ Fi t ∧ r = text t := by
  rw [ht s h] at ha
  cases s with
  | nil => cases ha
  | cons x t =>
    simp only [takeS] at ha
    split at ha
    · rename_i hk
      simp at ha
      exact ⟨x, t, hk, rfl, h.tail, ha.symm⟩
    · cases ha

/-! ### Words and parts of words -/

theorem stress_one {s : List Sound} (h : Fi s) {r : List Char} (ha : ans (.call .stress) (text s) = some r) : nv s = 1 := by
  rw [stress_iff h] at ha
  split at ha
  · assumption
  · cases ha

theorem stressed_vowel_inv {s : List Sound} (h : Fi s) {r : List Char} (ha : ans (.call .stressed_vowel) (text s) = some r) :
    ∃ t, Fi t ∧ r = text t ∧ nv t = 1 := by
  rcases Lj.v_alt (Lj.v_call ha) with h1 | h1
  · rw [cap_no rfl h] at h1; cases h1
  · obtain ⟨u, h1, h2⟩ := Lj.v_seq h1
    obtain ⟨rfl, u', h3⟩ := Lj.v_peek h2
    obtain ⟨x, t, _, rfl, ht, rfl⟩ := take_inv t_vowel h h1
    exact ⟨t, ht, rfl, stress_one ht h3⟩

theorem stressed_diph_inv {s : List Sound} (h : Fi s) {r : List Char} (ha : ans (.call .stressed_diphthong) (text s) = some r) :
    ∃ t, Fi t ∧ r = text t ∧ nv t = 1 := by
  rcases Lj.v_alt (Lj.v_call ha) with h1 | h1
  · obtain ⟨u, h1, h2⟩ := Lj.v_seq h1
    obtain ⟨rfl, u', h3⟩ := Lj.v_peek h1
    rw [cap_no rfl h] at h3; cases h3
  · obtain ⟨u, h1, h2⟩ := Lj.v_seq h1
    obtain ⟨rfl, u', h3⟩ := Lj.v_peek h2
    obtain ⟨x, t, _, rfl, ht, rfl⟩ := take_inv t_diphthong h h1
    exact ⟨t, ht, rfl, stress_one ht h3⟩

theorem nv_x {x : Sound} {s : List Sound} (h : isVowels x = false) : nv (x :: s) = nv s := by rw [nv_cons, h]; simp

theorem cons_inv {s : List Sound} (h : Fi s) {r : List Char} (ha : ans (.call .consonant) (text s) = some r) :
    ∃ c t, s = C c :: t ∧ Fi t ∧ r = text t ∧ nv t = nv s := by
  obtain ⟨x, t, hk, rfl, ht, rfl⟩ := take_inv t_consonant h ha
  cases x with
  | consonant c => exact ⟨c, t, rfl, ht, rfl, (nv_x rfl).symm⟩
  | _ => cases hk

theorem last_vowel {rule : Rule} {k : Sound → Bool} (ht : Takes (.call rule) (takeS k)) (hk : ∀ x, k x = true → isVowels x = true)
    {s : List Sound} (h : Fi s) {r : List Char} (ha : ans (.call rule) (text s) = some r) (h1 : nv s = 1) : r = [] := by
  obtain ⟨x, t, hx, rfl, ht, rfl⟩ := take_inv ht h ha
  rw [nv_cons, hk x hx] at h1
  rw [(nv_nil_iff ht).mp (by simpa using h1)]
  rfl

theorem one_vowel : ∀ x, isOne x = true → isVowels x = true := by intro x h; cases x <;> first | rfl | cases h
theorem two_vowel : ∀ x, isTwo x = true → isVowels x = true := by intro x h; cases x <;> first | rfl | cases h

/-- The rule for gismu takes everything. -/
theorem gismu_end {s : List Sound} (h : Fi s) {r : List Char} (ha : ans (.call .gismu) (text s) = some r) : r = [] := by
  obtain ⟨u, h1, h2⟩ := Lj.v_seq (Lj.v_call ha)
  have : ∃ t, Fi t ∧ u = text t ∧ nv t = 1 := by
    rcases Lj.v_alt h1 with h1 | h1
    · obtain ⟨u1, h1, h3⟩ := Lj.v_seq h1
      obtain ⟨t, ht, rfl, _⟩ := at_sound rfl h h1
      exact stressed_vowel_inv ht h3
    · obtain ⟨u1, h1, h3⟩ := Lj.v_seq h1
      obtain ⟨u2, h3, h4⟩ := Lj.v_seq h3
      obtain ⟨t, ht, rfl, _⟩ := at_sound rfl h h1
      obtain ⟨t2, ht2, rfl, hn⟩ := stressed_vowel_inv ht h3
      obtain ⟨c, t3, _, ht3, rfl, e⟩ := cons_inv ht2 h4
      exact ⟨t3, ht3, rfl, by omega⟩
  obtain ⟨t, ht, rfl, hn⟩ := this
  obtain ⟨u, h2, h3⟩ := Lj.v_seq h2
  obtain ⟨rfl, _⟩ := Lj.v_peek h2
  obtain ⟨u, h2, h3⟩ := Lj.v_seq h3
  obtain ⟨c, t3, _, ht3, rfl, e⟩ := cons_inv ht h2
  obtain ⟨u, h2, h3⟩ := Lj.v_seq h3
  obtain ⟨rfl, _⟩ := Lj.v_peek h3
  exact last_vowel t_vowel one_vowel ht3 h2 (by omega)

theorem h_nv {s : List Sound} (h : Fi s) {r : List Char} (ha : ans (.call .h) (text s) = some r) : ∃ t, Fi t ∧ r = text t ∧ nv t = nv s := by
  obtain ⟨x, t, hx, rfl, ht, rfl⟩ := take_inv t_h h ha
  refine ⟨t, ht, rfl, (nv_x ?_).symm⟩
  cases x <;> first | rfl | cases hx

theorem final_end {s : List Sound} (h : Fi s) {r : List Char} (ha : ans (.call .cvv_final_rafsi) (text s) = some r) : r = [] := by
  obtain ⟨u, h1, h2⟩ := Lj.v_seq (Lj.v_call ha)
  obtain ⟨c, t, _, ht, rfl, e⟩ := cons_inv h h1
  obtain ⟨u, h1, h2⟩ := Lj.v_seq h2
  obtain ⟨t2, ht2, rfl, hn⟩ := stressed_vowel_inv ht h1
  obtain ⟨u, h1, h2⟩ := Lj.v_seq h2
  obtain ⟨t3, ht3, rfl, e3⟩ := h_nv ht2 h1
  obtain ⟨u, h1, h2⟩ := Lj.v_seq h2
  obtain ⟨rfl, _⟩ := Lj.v_peek h1
  obtain ⟨u, h1, h2⟩ := Lj.v_seq h2
  obtain ⟨rfl, _⟩ := Lj.v_peek h2
  exact last_vowel t_vowel one_vowel ht3 h1 (by omega)

theorem pair_nv {s : List Sound} (h : Fi s) {r : List Char} (ha : ans (.call .initial_pair) (text s) = some r) : ∃ t, Fi t ∧ r = text t ∧ nv t = nv s := by
  obtain ⟨u, h1, h2⟩ := Lj.v_seq (Lj.v_call ha)
  obtain ⟨rfl, _⟩ := Lj.v_peek h1
  obtain ⟨u, h1, h2⟩ := Lj.v_seq h2
  obtain ⟨c, t, _, ht, rfl, e⟩ := cons_inv h h1
  obtain ⟨u, h1, h2⟩ := Lj.v_seq h2
  obtain ⟨c, t2, _, ht2, rfl, e2⟩ := cons_inv ht h1
  obtain ⟨rfl, _⟩ := Lj.v_not h2
  exact ⟨t2, ht2, rfl, by omega⟩

theorem letter_nv {L : Rule} (hL : L ∈ letterRules) {s : List Sound} (h : Fi s) {r : List Char} (ha : ans (.call L) (text s) = some r) : ∃ t, Fi t ∧ r = text t ∧ nv t = nv s := by
  obtain ⟨x, t, hx, rfl, ht, rfl⟩ := take_inv (t_letter hL) h ha
  refine ⟨t, ht, rfl, (nv_x ?_).symm⟩
  cases x <;> first | rfl | cases hx

theorem hyphen_nv {s : List Sound} (h : Fi s) {r : List Char} (ha : ans (.call .r_hyphen) (text s) = some r) : ∃ t, Fi t ∧ r = text t ∧ nv t = nv s := by
  rcases Lj.v_alt (Lj.v_call ha) with h1 | h1
  all_goals
    obtain ⟨u, h1, h2⟩ := Lj.v_seq h1
    obtain ⟨rfl, _⟩ := Lj.v_peek h2
    exact letter_nv (by decide) h h1

theorem syless_nv {s : List Sound} (h : Fi s) {r : List Char} (ha : ans (.call .stressed_y_less_rafsi) (text s) = some r) :
    ∃ t, Fi t ∧ r = text t ∧ nv t = 1 := by
  rcases Lj.v_alt (Lj.v_call ha) with h1 | h1
  · obtain ⟨u, h1, h2⟩ := Lj.v_seq h1
    obtain ⟨rfl, _⟩ := Lj.v_not h2
    obtain ⟨u, h1, h2⟩ := Lj.v_seq (Lj.v_call h1)
    obtain ⟨c, t, _, ht, rfl, e⟩ := cons_inv h h1
    obtain ⟨u, h1, h2⟩ := Lj.v_seq h2
    obtain ⟨t2, ht2, rfl, hn⟩ := stressed_vowel_inv ht h1
    obtain ⟨c, t3, _, ht3, rfl, e⟩ := cons_inv ht2 h2
    exact ⟨t3, ht3, rfl, by omega⟩
  rcases Lj.v_alt h1 with h1 | h1
  · obtain ⟨u, h1, h2⟩ := Lj.v_seq (Lj.v_call h1)
    obtain ⟨t, ht, rfl, _⟩ := at_sound rfl h h1
    exact stressed_vowel_inv ht h2
  · obtain ⟨u, h1, h2⟩ := Lj.v_seq (Lj.v_call h1)
    obtain ⟨c, t, _, ht, rfl, e⟩ := cons_inv h h1
    obtain ⟨u, h1, h2⟩ := Lj.v_seq h2
    have : ∃ t, Fi t ∧ u = text t ∧ nv t = 1 := by
      rcases Lj.v_alt h1 with h1 | h1
      · obtain ⟨u1, h1, h3⟩ := Lj.v_seq h1
        obtain ⟨u2, h3, h4⟩ := Lj.v_seq h3
        obtain ⟨t, ht, rfl, _⟩ := at_sound rfl ht h1
        obtain ⟨t, ht, rfl, _⟩ := at_sound rfl ht h3
        exact stressed_vowel_inv ht h4
      · exact stressed_diph_inv ht h1
    obtain ⟨t2, ht2, rfl, hn⟩ := this
    rcases Lj.v_opt h2 with h2 | rfl
    · obtain ⟨t3, ht3, rfl, e3⟩ := hyphen_nv ht2 h2
      exact ⟨t3, ht3, rfl, by omega⟩
    · exact ⟨t2, ht2, rfl, hn⟩

theorem short_end {s : List Sound} (h : Fi s) (h1 : nv s = 1) {r : List Char} (ha : ans (.call .short_final_rafsi) (text s) = some r) : r = [] := by
  obtain ⟨u, h2, h3⟩ := Lj.v_seq (Lj.v_call ha)
  obtain ⟨rfl, _⟩ := Lj.v_peek h2
  obtain ⟨u, h2, h3⟩ := Lj.v_seq h3
  obtain ⟨rfl, _⟩ := Lj.v_peek h3
  rcases Lj.v_alt h2 with h2 | h2
  · obtain ⟨u, h2, h3⟩ := Lj.v_seq h2
    obtain ⟨c, t, _, ht, rfl, e⟩ := cons_inv h h2
    exact last_vowel t_diphthong two_vowel ht h3 (by omega)
  · obtain ⟨u, h2, h3⟩ := Lj.v_seq h2
    obtain ⟨t, ht, rfl, e⟩ := pair_nv h h2
    exact last_vowel t_vowel one_vowel ht h3 (by omega)

end Sneturfahi.Fu
