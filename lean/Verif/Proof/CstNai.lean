import Verif.Proof.CstSentence
import Verif.Proof.CstPlace

/-!
# After a word and its indicators there is no indicator

Hence a `nai` is always read as an indicator of the word before it.
-/

namespace Sneturfahi

open Spec

theorem many0_call_gives {r : CRule} (hc : cstConsumes r = true) (hm : wordish r = true) (s : List Token) :
    ∃ q, Gives (.many0 (.call r)) s q := by
  generalize hn : s.length = n
  induction n using Nat.strongRecOn generalizing s with
  | ind n ih =>
    obtain ⟨o, ho⟩ := peg_total r s
    cases o with
    | error => exact ⟨s, gives_many0.mpr (.inl ⟨ho, rfl⟩)⟩
    | failure => exact absurd rfl (peg_mild cst_mild ho hm)
    | ok q vs =>
      have hl := gives_shorter hc ⟨vs, ho⟩
      obtain ⟨q', hq⟩ := ih q.length (by omega) q rfl
      exact ⟨q', gives_many0.mpr (.inr ⟨q, ⟨vs, ho⟩, by omega, hq⟩)⟩

theorem many0_last {a : Gr} (n : Nat) : ∀ s q : List Token, s.length ≤ n → Gives (.many0 a) s q → q = s ∨ ∃ m, Gives a m q ∧ m.length ≤ s.length := by
  induction n with
  | zero =>
    intro s q hn h
    rcases gives_many0.mp h with ⟨_, h⟩ | ⟨m, h1, h2, h3⟩
    · exact .inl h
    · obtain ⟨w, rfl⟩ := gives_suffix h1
      simp only [List.length_append] at hn h2
      omega
  | succ n ih =>
    intro s q hn h
    rcases gives_many0.mp h with ⟨_, h⟩ | ⟨m, h1, h2, h3⟩
    · exact .inl h
    · obtain ⟨w, hw⟩ := gives_suffix h1
      have hl : m.length < s.length := by
        have : s.length = w.length + m.length := by rw [hw]; simp
        omega
      rcases ih m q (by omega) h3 with rfl | ⟨m', h4, h5⟩
      · exact .inr ⟨s, h1, Nat.le_refl _⟩
      · exact .inr ⟨m', h4, by omega⟩

theorem gives_indicators {s q : List Token} : Gives (.call .Indicators) s q ↔
    ∃ m, Gives (.opt (.call (.word .Fuhe))) s m ∧ Gives (.many1 (.call .Indicator)) m q := by
  have he : cst .Indicators = .wrap (.node .Indicators) (.seq (.opt (.call (.word .Fuhe))) (.many1 (.call .Indicator))) := rfl
  rw [gives_call, he, gives_wrap, gives_seq]

theorem gives_absurd {e : Gr} {s q : List Token} (h : Gives e s q) (h' : Peg cst e s .error) : False := by
  obtain ⟨vs, h⟩ := h
  cases h.unique _ h'

theorem call_error {r : CRule} (hm : wordish r = true) {s : List Token} (h : ∀ q, ¬ Gives (.call r) s q) : Peg cst (.call r) s .error := by
  obtain ⟨o, ho⟩ := peg_total r s
  cases o with
  | error => exact ho
  | failure => exact absurd rfl (peg_mild cst_mild ho hm)
  | ok q vs => exact absurd ⟨vs, ho⟩ (h q)

/-- The word of an indicator makes indicators. -/
theorem indicators_of {x : Selmaho} (hx : x ∈ indicating) {s q : List Token} (h : Gives (.call (.word x)) s q) :
    ∃ q', Gives (.call .Indicators) s q' := by
  have hk : ∀ y ∈ indicating, wordKind y = .single := by decide
  obtain ⟨_, _, _, _, _, _, hl, rfl⟩ := (gives_single (hk x hx)).mp h
  obtain ⟨q', hq⟩ := many0_call_gives (r := .Indicator) (by decide +kernel) rfl q
  refine ⟨q', gives_indicators.mpr ⟨s, gives_opt.mpr (.inr ⟨?_, rfl⟩), gives_many1.mpr ⟨q, indicator_of hx h hl, hq⟩⟩⟩
  refine word_error (.inr (by decide)) ?_
  rintro ⟨bs, t, p, rfl, hb, ht⟩
  obtain ⟨vs, h⟩ := h
  obtain ⟨bs', t', p', h1, hb', ht'⟩ := word_ok (.inl (hk x hx)) h
  have hne : ∀ y ∈ indicating, y ≠ .Bahe ∧ y ≠ .Fuhe := by decide
  obtain ⟨_, rfl, _⟩ := bahe_split h1 hb hb' (by rw [ht]; decide) (by rw [ht']; exact (hne x hx).1)
  exact (hne x hx).2 (ht'.symm.trans ht)

theorem indicator_word {s q : List Token} (h : Gives (.call .Indicator) s q) : ∃ x ∈ indicating, Gives (.call (.word x)) s q := by
  obtain ⟨x, hx, h⟩ := gives_indicator h
  exact ⟨x, by revert hx; cases x <;> decide, h⟩

/-- After a word and its indicators there are no indicators. -/
theorem no_indicators_after {x : Selmaho} (hx : wordKind x = .single) {s q : List Token} (h : Gives (.call (.word x)) s q) :
    Peg cst (.call .Indicators) q .error := by
  generalize hn : s.length = n
  induction n using Nat.strongRecOn generalizing s x with
  | ind n ih =>
    obtain ⟨m, t, i, h1, _, h2, _, rfl⟩ := (gives_single hx).mp h
    rcases gives_opt.mp h2 with h2 | ⟨h2, rfl⟩
    · obtain ⟨a, ha, hi⟩ := gives_indicators.mp h2
      obtain ⟨b, hb, hc⟩ := gives_many1.mp hi
      have hl : ∃ m', Gives (.call .Indicator) m' q ∧ m'.length ≤ a.length := by
        rcases many0_last _ _ _ (Nat.le_refl _) hc with rfl | ⟨m', h3, h4⟩
        · exact ⟨a, hb, Nat.le_refl _⟩
        · obtain ⟨w, hw⟩ := gives_suffix hb
          have : a.length = w.length + b.length := by rw [hw]; simp
          exact ⟨m', h3, by omega⟩
      obtain ⟨m', h3, h4⟩ := hl
      obtain ⟨y, hy, h3⟩ := indicator_word h3
      have hk : ∀ y ∈ indicating, wordKind y = .single := by decide
      obtain ⟨w, hw⟩ := gives_suffix ha
      obtain ⟨w', hw'⟩ := gives_suffix h1
      have e1 : m.length = w.length + a.length := by rw [hw]; simp
      have e2 : s.length = w'.length + (m.length + 1) := by rw [hw']; simp
      exact ih m'.length (by omega) (hk y hy) h3 rfl
    · exact h2

/-- After a word and its indicators there is no indicator. -/
theorem no_indicator_after {x : Selmaho} (hx : wordKind x = .single) {s q : List Token} (h : Gives (.call (.word x)) s q)
    {y : Selmaho} (hy : y ∈ indicating) : Peg cst (.call (.word y)) q .error := by
  refine call_error rfl (fun q' h' => ?_)
  obtain ⟨_, h2⟩ := indicators_of hy h'
  exact gives_absurd h2 (no_indicators_after hx h)

theorem no_indicator_after' {x : Selmaho} (hx : wordKind x = .single) {s q : List Token} (h : Gives (.call (.word x)) s q) :
    Peg cst (.call .Indicator) q .error := by
  refine call_error rfl (fun q' h' => ?_)
  obtain ⟨y, hy, h'⟩ := indicator_word h'
  exact gives_absurd h' (no_indicator_after hx h hy)

theorem no_indicators_after_indicators {s q : List Token} (h : Gives (.call .Indicators) s q) :
    Peg cst (.call .Indicators) q .error := by
  obtain ⟨a, _, hi⟩ := gives_indicators.mp h
  obtain ⟨b, hb, hc⟩ := gives_many1.mp hi
  have hk : ∀ y ∈ indicating, wordKind y = .single := by decide
  rcases many0_last _ _ _ (Nat.le_refl _) hc with rfl | ⟨m', h3, _⟩
  · obtain ⟨y, hy, h3⟩ := indicator_word hb
    exact no_indicators_after (hk y hy) h3
  · obtain ⟨y, hy, h3⟩ := indicator_word h3
    exact no_indicators_after (hk y hy) h3

/-! ### `nai` in trees -/

/-- Is it the node of a word `nai`? -/
def isNai : Val → Bool
  | .node n _ => n == .word .Nai
  | _ => false

mutual
/-- A `nai` is only in an indicator. -/
def naiOk : Val → Bool
  | .leaf _ _ => true
  | .node n fs => naiOkL fs && (n == .Indicator_Nai || !fs.any isNai)
  | .tuple fs => naiOkL fs && !fs.any isNai
  | .many fs => naiOkL fs && !fs.any isNai
  | .sep first rest => naiOk first && naiOkL rest && !isNai first && !rest.any isNai
def naiOkL : List Val → Bool
  | [] => true
  | v :: vs => naiOk v && naiOkL vs
end

theorem naiOkL_append (vs ws : List Val) : naiOkL (vs ++ ws) = (naiOkL vs && naiOkL ws) := by
  induction vs with
  | nil => rfl
  | cons v vs ih => simp [naiOkL, ih, Bool.and_assoc]

/-- Is it a word that takes the indicators after it? -/
def takesAll : Gr → Bool
  | .call (.word x) => wordKind x == .single
  | _ => false

/-- Makes no `nai` but in an indicator; with `free`, makes none at all. `k`: directly after a word. -/
def naiT (free k : Bool) : Gr → Bool
  | .eps => true
  | .raw _ => true
  | .any _ => true
  | .call r => !free || r != .word .Nai
  | .seq a b => naiT free k a && naiT free (takesAll a) b
  | .alt a b => naiT free k a && naiT free k b
  | .opt a => (k && a == .call (.word .Nai)) || naiT true false a
  | .many0 a => naiT true false a
  | .many1 a => naiT true false a
  | .manyTill a b => naiT true false a && naiT free false b
  | .not _ => true
  | .cut a => naiT free false a
  | .mustConsume _ a => naiT free false a
  | .postCond _ a => naiT free false a
  | .wrap (.node n) a => (!free || n != .word .Nai) && naiT (n != .Indicator_Nai) false a
  | .wrap _ a => naiT true false a

theorem naiOk_build {sh : CShape} {vs : List Val} (h : naiOkL vs = true) (h' : vs.any isNai = false) : naiOk (sh.build vs) = true := by
  unfold CShape.build
  split <;> simp_all [naiOk, naiOkL, isNai]

theorem isNai_build {sh : CShape} {vs : List Val} (h : isNai (sh.build vs) = true) : sh = .node (.word .Nai) := by
  unfold CShape.build at h
  split at h <;> simp_all [isNai]

theorem cst_nai (r : CRule) : naiT (r != .word .Nai) false (cst r) = true := by
  cases r with
  | word s => cases s <;> decide +kernel
  | _ => decide +kernel

theorem peg_nai {e : Gr} {l : List Token} {o : Outcome} (h : Peg cst e l o) : ∀ r vs, o = .ok r vs → ∀ free k, naiT free k e = true →
    (k = true → Peg cst (.call (.word .Nai)) l .error) → naiOkL vs = true ∧ (free = true → vs.any isNai = false) := by
  induction h with
  | eps => intro r vs h; cases h; intros; simp [naiOkL]
  | raw _ => intro r vs h; cases h; intros; simp [naiOkL, naiOk, isNai]
  | any => intro r vs h; cases h; intros; simp [naiOkL, naiOk, isNai]
  | call hp ih =>
    intro r' vs h free k he _
    have h1 := ih r' vs h _ false (cst_nai _) nofun
    refine ⟨h1.1, fun hf => h1.2 ?_⟩
    simp only [naiT, Bool.or_eq_true, Bool.not_eq_true'] at he
    exact he.resolve_left (by simp [hf])
  | @seq a b s r q vs ws ha hb iha ihb =>
    intro r' vs' h free k he hk
    cases h
    simp only [naiT, Bool.and_eq_true] at he
    have h1 := iha _ _ rfl free k he.1 hk
    have h2 := ihb _ _ rfl free _ he.2 (by
      intro ht
      unfold takesAll at ht
      split at ht
      · exact no_indicator_after (by simpa using ht) ⟨_, ha⟩ (by decide)
      · cases ht)
    rw [naiOkL_append, List.any_append]
    exact ⟨by simp [h1.1, h2.1], fun hf => by simp [h1.2 hf, h2.2 hf]⟩
  | altFirst _ _ ih =>
    intro r' vs' h free k he hk
    simp only [naiT, Bool.and_eq_true] at he
    exact ih _ _ h free k he.1 hk
  | altSecond _ _ _ ih =>
    intro r' vs' h free k he hk
    simp only [naiT, Bool.and_eq_true] at he
    exact ih _ _ h free k he.2 hk
  | @optPresent a s r vs hp ih =>
    intro r' vs' h free k he hk
    cases h
    simp only [naiT, Bool.or_eq_true, Bool.and_eq_true, beq_iff_eq] at he
    rcases he with ⟨rfl, rfl⟩ | he
    · cases hp.unique _ (hk rfl)
    · have := ih _ _ rfl true false he nofun
      simp [naiOkL, naiOk, isNai, this.1, this.2 rfl]
  | optAbsent _ => intro r vs h; cases h; intros; simp [naiOkL, naiOk, isNai]
  | many0End _ => intro r vs h; cases h; intros; simp [naiOkL, naiOk, isNai]
  | many0More _ _ _ ih1 ih2 =>
    intro r' vs' h free k he hk
    cases h
    have h1 := ih1 _ _ rfl true false he nofun
    have h2 := ih2 _ _ rfl true false he nofun
    simp_all [naiOkL, naiOk, isNai, naiOkL_append]
  | many1 _ _ ih1 ih2 =>
    intro r' vs' h free k he hk
    cases h
    have h1 := ih1 _ _ rfl true false he nofun
    have h2 := ih2 _ _ rfl true false he nofun
    simp_all [naiOkL, naiOk, isNai, naiOkL_append]
  | tillEnd _ ih =>
    intro r' vs' h free k he hk
    cases h
    simp only [naiT, Bool.and_eq_true] at he
    have h1 := ih _ _ rfl free false he.2 nofun
    refine ⟨by simp [naiOkL, naiOk, h1.1], fun hf => by simp [isNai, h1.2 hf]⟩
  | tillMore _ _ _ _ _ ih1 ih2 =>
    intro r' vs' h free k he hk
    cases h
    have h2 := ih2 _ _ rfl free false he nofun
    simp only [naiT, Bool.and_eq_true] at he
    have h1 := ih1 _ _ rfl true false he.1 nofun
    simp_all [naiOkL, naiOk, isNai, naiOkL_append]
  | not _ => intro r vs h; cases h; intros; simp [naiOkL]
  | cut _ _ ih =>
    intro r' vs' h free k he hk
    exact ih _ _ h free false he nofun
  | must _ _ ih =>
    intro r' vs' h free k he hk
    cases h
    exact ih _ _ rfl free false he nofun
  | post _ _ ih =>
    intro r' vs' h free k he hk
    cases h
    exact ih _ _ rfl free false he nofun
  | @wrap sh a s r vs ha ih =>
    intro r' vs' h free k he hk
    cases h
    cases sh with
    | node n =>
      simp only [naiT, Bool.and_eq_true, Bool.or_eq_true, Bool.not_eq_true', bne_iff_ne, ne_eq] at he
      have h1 := ih _ _ rfl _ false he.2 nofun
      have : naiOk (.node n vs) = true := by
        simp only [naiOk, h1.1, Bool.true_and, Bool.or_eq_true, beq_iff_eq, Bool.not_eq_true']
        by_cases hn : n = .Indicator_Nai
        · exact .inl hn
        · exact .inr (h1.2 (by simpa using hn))
      refine ⟨by simpa [naiOkL, CShape.build] using this, fun hf => ?_⟩
      have := he.1.resolve_left (by simp [hf])
      simp [CShape.build, isNai, this]
    | tuple =>
      have h1 := ih _ _ rfl true false he nofun
      simp [CShape.build, naiOkL, naiOk, isNai, h1.1, h1.2 rfl]
    | sep =>
      have h1 := ih _ _ rfl true false he nofun
      have h2 := naiOk_build (sh := .sep) h1.1 (h1.2 rfl)
      refine ⟨by simp [naiOkL, h2], fun _ => ?_⟩
      cases hb : isNai (CShape.sep.build vs) with
      | false => simp [hb]
      | true => cases isNai_build hb
  | _ => intro r vs h; first | (cases h; done) | (cases h; rename_i hb _; cases hb) | (cases h; rename_i hb; cases hb)

end Sneturfahi
