import Verif.Proof.CstWF
import Verif.Proof.CstQuote

/-!
# Which nodes can be without tokens
-/

namespace Sneturfahi

open Spec

namespace Spec

theorem PartOfL.append {v : Val} {vs ws : List Val} (h : PartOfL v (vs ++ ws)) : PartOfL v vs ∨ PartOfL v ws := by
  induction vs with
  | nil => exact .inr h
  | cons w vs ih =>
    cases h with
    | head h => exact .inl (.head h)
    | tail h => exact (ih h).imp .tail id

theorem PartOfL.flatten {v : Val} {items : List (List Val)} (h : PartOfL v items.flatten) : ∃ vs ∈ items, PartOfL v vs := by
  induction items with
  | nil => cases h
  | cons vs items ih =>
    rcases PartOfL.append (by simpa using h) with h | h
    · exact ⟨vs, by simp, h⟩
    · obtain ⟨ws, hw, h⟩ := ih h
      exact ⟨ws, by simp [hw], h⟩

theorem PartOf.build {n : NodeName} {fs : List Val} {sh : CShape} {vs : List Val} (h : PartOf (.node n fs) (sh.build vs)) :
    (sh = .node n ∧ fs = vs) ∨ PartOfL (.node n fs) vs := by
  unfold CShape.build at h
  split at h
  · cases h with
    | self => exact .inl ⟨rfl, rfl⟩
    | node h => exact .inr h
  · cases h with | tuple h => exact .inr h
  · cases h with
    | sepFirst h => exact .inr (.head h)
    | sepRest h => exact .inr (.tail (.head (.many h)))
  · cases h with | tuple h => exact .inr h

end Spec

theorem tokensL_flatten_nil {items : List (List Val)} (h : tokensL items.flatten = []) {vs : List Val} (hv : vs ∈ items) :
    tokensL vs = [] := by
  induction items with
  | nil => cases hv
  | cons ws items ih =>
    rw [List.flatten_cons, tokensL_append, List.append_eq_nil_iff] at h
    rcases List.mem_cons.mp hv with rfl | hv
    · exact h.1
    · exact ih h.2 hv

/-- A success of a consuming expression has tokens; without tokens there are only absent fields in what is quiet. -/
theorem formed_cons {g : CRule → Gr} (w : CstWF g) {e : Gr} {vs : List Val} (h : Formed g e vs) : repG w.cons e = true →
    (consG w.cons e = true → tokensL vs ≠ []) ∧ (quietG w.cons e = true → tokensL vs = [] → ∀ v ∈ vs, calm v = true) := by
  induction h with
  | eps => intro _; simp [consG]
  | raw ht => intro _; simp [tokensL, tokens]
  | any => intro _; simp [tokensL, tokens]
  | call _ ih =>
    intro _
    have := ih (w.rep_ok _)
    refine ⟨fun h => this.1 (w.cons_ok _ h), fun h hn => ?_⟩
    exact absurd hn (this.1 (w.cons_ok _ h))
  | seq _ _ iha ihb =>
    intro h
    simp only [repG, Bool.and_eq_true] at h
    have ha := iha h.1
    have hb := ihb h.2
    rw [tokensL_append]
    constructor
    · intro hc hn
      simp only [consG, Bool.or_eq_true, List.append_eq_nil_iff] at hc hn
      rcases hc with hc | hc
      · exact ha.1 hc hn.1
      · exact hb.1 hc hn.2
    · intro hq hn v hv
      simp only [quietG, Bool.and_eq_true, List.append_eq_nil_iff] at hq hn
      rcases List.mem_append.mp hv with hv | hv
      · exact ha.2 hq.1 hn.1 v hv
      · exact hb.2 hq.2 hn.2 v hv
  | altLeft _ ih =>
    intro h
    simp only [repG, Bool.and_eq_true] at h
    simp only [consG, quietG, Bool.and_eq_true]
    exact ⟨fun hc => (ih h.1).1 hc.1, fun hc => (ih h.1).2 hc.1⟩
  | altRight _ ih =>
    intro h
    simp only [repG, Bool.and_eq_true] at h
    simp only [consG, quietG, Bool.and_eq_true]
    exact ⟨fun hc => (ih h.2).1 hc.2, fun hc => (ih h.2).2 hc.2⟩
  | absent => intro _; simp [consG, calm]
  | present _ ih =>
    intro h
    refine ⟨fun hc => by simp [consG] at hc, fun hq hn => ?_⟩
    have := (ih h).1 hq
    simp [tokensL, tokens] at hn
    exact absurd hn this
  | @many0 a items _ ih =>
    intro h
    simp only [repG, Bool.and_eq_true] at h
    refine ⟨fun hc => by simp [consG] at hc, fun hq hn => ?_⟩
    simp only [tokensL, tokens, List.append_nil] at hn
    cases items with
    | nil => simp [calm]
    | cons x xs => exact absurd (tokensL_flatten_nil hn (by simp)) ((ih x (by simp) h.1).1 h.2)
  | @many1 a items hne _ ih =>
    intro h
    simp only [repG, Bool.and_eq_true] at h
    have : tokensL [Val.many items.flatten] ≠ [] := by
      intro hn
      simp only [tokensL, tokens, List.append_nil] at hn
      cases items with
      | nil => exact hne rfl
      | cons x xs => exact absurd (tokensL_flatten_nil hn (by simp)) ((ih x (by simp) h.1).1 h.2)
    exact ⟨fun _ => this, fun _ hn => absurd hn this⟩
  | manyTill _ _ ih ih' =>
    intro h
    simp only [repG, Bool.and_eq_true] at h
    have h2 := ih' h.1.2
    simp only [tokensL, ne_eq, List.append_eq_nil_iff, consG, quietG]
    exact ⟨fun hc hn => h2.1 hc hn.2, fun hc hn => absurd hn.2 (h2.1 hc)⟩
  | not => intro _; simp [consG]
  | cut _ ih => exact ih
  | mustConsume _ hne ih => intro _; exact ⟨fun _ => hne, fun _ hn => absurd hn hne⟩
  | @postCond c a vs _ hc ih =>
    intro h
    have hi := ih h
    refine ⟨fun hp => ?_, fun hq => hi.2 hq⟩
    simp only [consG, Bool.or_eq_true, Bool.and_eq_true, beq_iff_eq] at hp
    rcases hp with hp | ⟨rfl, hp⟩
    · exact hi.1 hp
    · intro hn
      have hcalm := hi.2 hp hn
      unfold PostCond.holds at hc
      split at hc
      · have := hcalm _ (List.mem_singleton.mpr rfl)
        simp only [calm, hc] at this
        cases this
      · rename_i h1 _; cases h1
      · cases hc
  | @wrap sh a vs _ ih =>
    intro h
    have hi := ih h
    have ht : tokensL [sh.build vs] = tokensL vs := by simp [tokensL, tokens_build]
    rw [ht]
    refine ⟨fun hc => hi.1 hc, fun hq hn => ?_⟩
    cases sh with
    | node n =>
      simp only [quietG] at hq
      have := hi.2 hq hn
      simp only [List.mem_singleton, forall_eq, CShape.build, calm, Bool.not_eq_true', List.any_eq_false]
      intro v hv
      simp [calm.absent (this v hv)]
    | tuple => exact absurd hn (hi.1 hq)
    | sep => exact absurd hn (hi.1 hq)

/-- Nodes made here that are not in the list `ok` have tokens.  `pos`: it is known that there are tokens.  `need`: the
production is only ever called where that is known. -/
def fullG (cons : CRule → Bool) (need : CRule → Bool) (ok : List NodeName) : Bool → Gr → Bool
  | pos, .call r => pos || !need r
  | _, .seq a b => fullG cons need ok (consG cons a) a && fullG cons need ok (consG cons b) b
  | pos, .alt a b => fullG cons need ok pos a && fullG cons need ok pos b
  | _, .opt a => fullG cons need ok (consG cons a) a
  | _, .many0 a => fullG cons need ok (consG cons a) a
  | _, .many1 a => fullG cons need ok (consG cons a) a
  | _, .manyTill a b => fullG cons need ok (consG cons a) a && fullG cons need ok (consG cons b) b
  | pos, .cut a => fullG cons need ok pos a
  | _, .mustConsume _ a => fullG cons need ok true a
  | pos, .postCond c a => fullG cons need ok (pos || consG cons (.postCond c a)) a
  | pos, .wrap (.node n) a => (pos || ok.contains n || consG cons a) && fullG cons need ok (pos || consG cons a) a
  | pos, .wrap _ a => fullG cons need ok (pos || consG cons a) a
  | _, .eps => true
  | _, .raw _ => true
  | _, .any _ => true
  | _, .not _ => true

theorem formed_full {g : CRule → Gr} (w : CstWF g) {need : CRule → Bool} {ok : List NodeName}
    (hg : ∀ r, fullG w.cons need ok (need r) (g r) = true) {e : Gr} {vs : List Val} (h : Formed g e vs) :
    ∀ pos, (pos = true → tokensL vs ≠ []) → repG w.cons e = true → fullG w.cons need ok pos e = true →
      ∀ n fs, PartOfL (.node n fs) vs → tokensL fs = [] → n ∈ ok := by
  induction h with
  | eps => intro _ _ _ _ _ _ h; cases h
  | raw ht => intro _ _ _ _ _ _ h; cases h with | head h => cases h | tail h => cases h
  | any => intro _ _ _ _ _ _ h; cases h with | head h => cases h | tail h => cases h
  | @call r vs _ ih =>
    intro pos hp _ h
    simp only [fullG, Bool.or_eq_true, Bool.not_eq_true'] at h
    refine ih (need r) (fun hn => ?_) (w.rep_ok r) (hg r)
    rcases h with h | h
    · exact hp h
    · rw [h] at hn; cases hn
  | seq ha hb iha ihb =>
    intro pos hp hr h n fs hn
    simp only [repG, fullG, Bool.and_eq_true] at hr h
    rcases hn.append with hn | hn
    · exact iha _ (fun hc => (formed_cons w ha hr.1).1 hc) hr.1 h.1 n fs hn
    · exact ihb _ (fun hc => (formed_cons w hb hr.2).1 hc) hr.2 h.2 n fs hn
  | altLeft _ ih =>
    intro pos hp hr h
    simp only [repG, fullG, Bool.and_eq_true] at hr h
    exact ih pos hp hr.1 h.1
  | altRight _ ih =>
    intro pos hp hr h
    simp only [repG, fullG, Bool.and_eq_true] at hr h
    exact ih pos hp hr.2 h.2
  | absent =>
    intro _ _ _ _ _ _ h
    cases h with
    | head h => cases h with | many h => cases h
    | tail h => cases h
  | present ha ih =>
    intro pos hp hr h n fs hn
    cases hn with
    | head hn =>
      cases hn with
      | many hn => exact ih _ (fun hc => (formed_cons w ha hr).1 hc) hr h n fs hn
    | tail hn => cases hn
  | many0 ha ih =>
    intro pos hp hr h n fs hn
    simp only [repG, Bool.and_eq_true] at hr
    cases hn with
    | head hn =>
      cases hn with
      | many hn =>
        obtain ⟨x, hx, hn⟩ := hn.flatten
        exact ih x hx _ (fun hc => (formed_cons w (ha x hx) hr.1).1 hc) hr.1 h n fs hn
    | tail hn => cases hn
  | many1 _ ha ih =>
    intro pos hp hr h n fs hn
    simp only [repG, Bool.and_eq_true] at hr
    cases hn with
    | head hn =>
      cases hn with
      | many hn =>
        obtain ⟨x, hx, hn⟩ := hn.flatten
        exact ih x hx _ (fun hc => (formed_cons w (ha x hx) hr.1).1 hc) hr.1 h n fs hn
    | tail hn => cases hn
  | manyTill ha hb ih ih' =>
    intro pos hp hr h n fs hn
    simp only [repG, fullG, Bool.and_eq_true] at hr h
    cases hn with
    | head hn =>
      cases hn with
      | many hn =>
        obtain ⟨x, hx, hn⟩ := hn.flatten
        exact ih x hx _ (fun hc => (formed_cons w (ha x hx) hr.1.1).1 hc) hr.1.1 h.1 n fs hn
    | tail hn => exact ih' _ (fun hc => (formed_cons w hb hr.1.2).1 hc) hr.1.2 h.2 n fs hn
  | not => intro _ _ _ _ _ _ h; cases h
  | cut _ ih => exact ih
  | mustConsume _ hne ih => intro pos hp hr h; exact ih true (fun _ => hne) hr h
  | postCond ha hc ih =>
    intro pos hp hr h
    refine ih _ (fun hc' => ?_) hr h
    rcases Bool.or_eq_true _ _ ▸ hc' with h1 | h1
    · exact hp h1
    · exact (formed_cons w (.postCond ha hc) hr).1 h1
  | @wrap sh a vs ha ih =>
    intro pos hp hr h n fs hn
    have ht : tokensL [sh.build vs] = tokensL vs := by simp [tokensL, tokens_build]
    rw [ht] at hp
    have hpos : ∀ (hc : (pos || consG w.cons a) = true), tokensL vs ≠ [] := by
      intro hc
      rcases Bool.or_eq_true _ _ ▸ hc with h1 | h1
      · exact hp h1
      · exact (formed_cons w ha hr).1 h1
    have h2 : fullG w.cons need ok (pos || consG w.cons a) a = true := by
      cases sh with
      | node m => simp only [fullG, Bool.and_eq_true] at h; exact h.2
      | tuple => exact h
      | sep => exact h
    cases hn with
    | tail hn => cases hn
    | head hn =>
      rcases PartOf.build hn with ⟨rfl, rfl⟩ | hn
      · intro he
        simp only [fullG, Bool.and_eq_true, Bool.or_eq_true, List.contains_iff_mem] at h
        rcases h.1 with (h1 | h1) | h1
        · exact absurd he (hp h1)
        · exact h1
        · exact absurd he (hpos (by simp [h1]))
      · exact ih _ hpos hr h2 n fs hn

/-- The nodes that can be without tokens. -/
def emptiable : List NodeName := [.Frees, .Text, .Paragraphs, .Paragraph, .ParagraphItem_Empty, .Sentences3_Single, .Sentence,
  .Args, .TailArgs, .GadriSumtiPre_Simple, .VocativeValue_Sumti]

/-- The production that is only tried where a token is asked for. -/
def needed : CRule → Bool
  | .Sentences1 => true
  | _ => false

theorem cst_full (r : CRule) : fullG cstConsumes needed emptiable (needed r) (cst r) = true := by
  cases r with
  | word s => cases s <;> decide +kernel
  | _ => decide +kernel

end Sneturfahi
