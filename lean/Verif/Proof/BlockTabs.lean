import Verif.Proof.Block
import Verif.Proof.CstEnd

/-!
# A piece exchanged for another: words between brackets
-/

namespace Sneturfahi.Block

open Spec Dup

/-! ### Words -/

/-- The words that may follow a word and belong to it. -/
def gInd : Gr := .opt (.call .Indicators)

theorem ind_read (S : List Token) : ∃ r i, Peg cst gInd S (.ok r [.many i]) := by
  obtain ⟨o, ho⟩ := total (.call .Indicators) S
  cases o with
  | error => exact ⟨_, _, .optAbsent ho⟩
  | ok r vs => exact ⟨_, _, .optPresent ho⟩
  | failure => exact absurd rfl (peg_mild cst_mild ho rfl)

theorem ind_ok {S r : List Token} {is : List Val} (h : Peg cst gInd S (.ok r is)) : ∃ i, is = [.many i] := by
  cases h with
  | optPresent h => exact ⟨_, rfl⟩
  | optAbsent h => exact ⟨_, rfl⟩

/-- The node of a word with what belongs to it. -/
def wordVal (s : Selmaho) (t : Token) (i : List Val) : Val := .node (.word s) [.many [], .leaf .token t, .many i]

theorem notOut {x : Selmaho} (hx : x ∈ outs) {S : List Token} (hS : Clean S) : Peg cst (.not (.call (.word x))) S (.ok S []) := by
  obtain ⟨o, ho⟩ := total (.call (.word x)) S
  have := off_error ho hS (by simpa [offG, offR] using hx)
  subst this
  exact .not ho

theorem bahe_not {t : Token} (ht : t.selmaho ≠ .Bahe) (S : List Token) : Peg cst (.call (.word .Bahe)) (t :: S) .error := by
  have hz : cst (.word .Bahe) = .seq (.raw .Bahe) (.seq (.not (.call (.word .Bu))) (.not (.call (.word .Zei)))) := rfl
  refine .call ?_
  rw [hz]
  exact .seqFirst (.rawOther ht) trivial

theorem word_read {s : Selmaho} (hk : wordKind s = .single) {t : Token} (ht : t.selmaho = s) {S r : List Token} {i : List Val} (hS : Clean S)
    (h : Peg cst gInd S (.ok r [.many i])) : Peg cst (.call (.word s)) (t :: S) (.ok r [wordVal s t i]) := by
  have hz : cst (.word s) = wordBody s (wordKind s) := rfl
  refine .call ?_
  rw [hz, hk]
  have hb : t.selmaho ≠ .Bahe := by rw [ht]; rintro rfl; cases hk
  have hr : Clean r := hS.rest h
  exact .wrap (vs := [.many []] ++ ([.leaf .token t] ++ ([.many i] ++ ([] ++ []))))
    (.seq (.many0End (bahe_not hb S)) (.seq (.raw ht) (.seq h (.seq (notOut (x := .Bu) (by decide) hr) (notOut (x := .Zei) (by decide) hr)))))

theorem word_raw {s : Selmaho} (hk : wordKind s = .raw) {t : Token} (ht : t.selmaho = s) {S : List Token} (hS : Clean S) :
    Peg cst (.call (.word s)) (t :: S) (.ok S [.leaf .token t]) := by
  have hz : cst (.word s) = wordBody s (wordKind s) := rfl
  refine .call ?_
  rw [hz, hk]
  exact .seq (vs := [.leaf .token t]) (ws := [] ++ []) (.raw ht) (.seq (notOut (x := .Bu) (by decide) hS) (notOut (x := .Zei) (by decide) hS))

theorem word_other {s : Selmaho} {t : Token} (hk : wordKind s = .single ∨ wordKind s = .raw) (hb : t.selmaho ≠ .Bahe) (ht : t.selmaho ≠ s) (S : List Token) :
    Peg cst (.call (.word s)) (t :: S) .error := by
  have hz : cst (.word s) = wordBody s (wordKind s) := rfl
  refine .call ?_
  rcases hk with hk | hk
  · rw [hz, hk]
    exact .wrapBad (.seqSecond (.many0End (bahe_not hb S)) (.seqFirst (.rawOther ht) trivial) trivial) trivial
  · rw [hz, hk]
    exact .seqFirst (.rawOther ht) trivial

/-! ### What is between the brackets is read in the same way when it goes on after them -/

/-- Tables for words between brackets; `ts` do not occur between them, `c` closes them. -/
def bTab (ts : List Selmaho) (c : Selmaho) (fails nosim : List CRule) : EndTab where
  one := fun r => r == .BuInner
  dead := unusedTab.dead
  skip := unusedTab.skip
  fail := fun r => match r with
    | .word s => ts.contains s
    | r => fails.contains r
  sim := fun r => match r with
    | .word s => s != c && !ts.contains s
    | r => !hidden r && !nosim.contains r

def bChecks (ts : List Selmaho) (c : Selmaho) (fails nosim : List CRule) (r : CRule) : Bool :=
  let T := bTab ts c fails nosim
  (!T.one r || oneE T (cst r)) && (!T.dead r || (deadE T binders (cst r)).1) && (!T.skip r || (deadE T binders (cst r)).2) &&
  (!T.fail r || (simE T ts binders (· == c) (cst r)).2) && (!T.sim r || (simE T ts binders (· == c) (cst r)).1)

def bEnding (ts : List Selmaho) (c : Token) (Y : List Token) (hc : c.selmaho ∉ ts) (hb : ∀ s ∈ binders, s ∈ ts) (hY : Clean Y) : Ending where
  ts := ts
  stops := (· == c.selmaho)
  stop := c
  stop_stops := by simp
  post := Y
  stop_free := hc
  hs := binders
  hs_sub := hb
  post_free := by
    refine headFree_of (fun t ht hx => hY t ht ?_)
    revert hx
    generalize t.selmaho = s
    cases s <;> decide

/-- How reading ends where `tail` follows. -/
def extO (tail : List Token) : Outcome → Outcome
  | .ok r vs => .ok (r ++ tail) vs
  | .error => .error
  | .failure => .failure

/-- What is required of the tables. -/
structure Closes (ts : List Selmaho) (c : Selmaho) (fails nosim : List CRule) : Prop where
  out : c ∉ ts
  bind : ∀ s ∈ binders, s ∈ ts
  checks : ∀ r, bChecks ts c fails nosim r = true

theorem ext_call {ts : List Selmaho} {fails nosim : List CRule} {c : Token} {Y : List Token} (hk : Closes ts c.selmaho fails nosim) (hY : Clean Y)
    {q : CRule} (he : (simE (bTab ts c.selmaho fails nosim) ts binders (· == c.selmaho) (.call q)).1 = true)
    {S : List Token} {o : Outcome} (hS : ∀ t ∈ S, t.selmaho ∉ ts) (h : Peg cst (.call q) S o) : Peg cst (.call q) (S ++ c :: Y) (extO (c :: Y) o) := by
  have cert : EndCert cst (bEnding ts c Y hk.out hk.bind hY) (bTab ts c.selmaho fails nosim) := by
    have h1 := hk.checks
    simp only [bChecks, Bool.and_eq_true, Bool.or_eq_true, Bool.not_eq_true'] at h1
    refine ⟨fun r h => ?_, fun r h => ?_, fun r h => ?_, fun r h => ?_, fun r h => ?_⟩
    · exact (h1 r).1.1.1.1.resolve_left (by simp [h])
    · exact (h1 r).1.1.1.2.resolve_left (by simp [h])
    · exact (h1 r).1.1.2.resolve_left (by simp [h])
    · exact (h1 r).1.2.resolve_left (by simp [h])
    · exact (h1 r).2.resolve_left (by simp [h])
  have hs := (runCst_meant cert q).sim he
  obtain ⟨a, ha⟩ := runCst_ends q ⟨0, S⟩
  obtain ⟨b, hb⟩ := runCst_ends q ⟨0, S ++ c :: Y⟩
  have ma := runCst_means q ⟨0, S⟩
  have mb := runCst_means q ⟨0, S ++ c :: Y⟩
  rw [ha] at ma
  rw [hb] at mb
  have hw := hs 0 S a b hS ha hb
  cases ma.unique _ h
  change Peg cst (.call q) (S ++ c :: Y) _ at mb
  cases a with
  | ok r vs =>
    cases b with
    | ok r' vs' =>
      obtain ⟨rfl, rfl, _⟩ := hw
      exact mb
    | error => exact hw.elim
    | failure => exact hw.elim
  | error => cases b <;> first | exact hw.elim | exact mb
  | failure => cases b <;> first | exact hw.elim | exact mb

/-- Made of productions about which something is claimed. -/
def plainG (T : EndTab) : Gr → Bool
  | .eps => true
  | .call r => T.sim r || T.fail r
  | .seq a b => plainG T a && plainG T b
  | .alt a b => plainG T a && plainG T b
  | .opt a => plainG T a
  | .many0 a => plainG T a
  | .many1 a => plainG T a
  | .wrap _ a => plainG T a
  | _ => false

theorem extO_bad {tail : List Token} {o : Outcome} (h : o.Bad) : extO tail o = o := by
  cases o with
  | ok => exact h.elim
  | error => rfl
  | failure => rfl

theorem ext {ts : List Selmaho} {fails nosim : List CRule} {c : Token} {Y : List Token} (hk : Closes ts c.selmaho fails nosim) (hY : Clean Y)
    {e : Gr} {S : List Token} {o : Outcome} (h : Peg cst e S o) (hS : ∀ t ∈ S, t.selmaho ∉ ts) (he : plainG (bTab ts c.selmaho fails nosim) e = true) :
    Peg cst e (S ++ c :: Y) (extO (c :: Y) o) := by
  have sub : ∀ {e S r vs}, Peg cst e S (.ok r vs) → (∀ t ∈ S, t.selmaho ∉ ts) → ∀ t ∈ r, t.selmaho ∉ ts := by
    intro e S r vs h hS t ht
    exact hS t (by rw [h.cuts _ _ rfl]; simp [ht])
  induction h with
  | eps => exact .eps
  | call h => exact ext_call hk hY he hS (.call h)
  | seq h1 h2 i1 i2 =>
    simp only [plainG, Bool.and_eq_true] at he
    exact .seq (i1 hS he.1) (i2 (sub h1 hS) he.2)
  | seqFirst h1 hb i1 =>
    simp only [plainG, Bool.and_eq_true] at he
    have := i1 hS he.1
    rw [extO_bad hb] at this ⊢
    exact .seqFirst this hb
  | seqSecond h1 h2 hb i1 i2 =>
    simp only [plainG, Bool.and_eq_true] at he
    have := i2 (sub h1 hS) he.2
    rw [extO_bad hb] at this ⊢
    exact .seqSecond (i1 hS he.1) this hb
  | @altFirst a b s o h1 hne i1 =>
    simp only [plainG, Bool.and_eq_true] at he
    exact .altFirst (i1 hS he.1) (by cases o <;> simp_all [extO])
  | altSecond h1 h2 i1 i2 =>
    simp only [plainG, Bool.and_eq_true] at he
    exact .altSecond (i1 hS he.1) (i2 hS he.2)
  | optPresent h1 i1 => exact .optPresent (i1 hS he)
  | optAbsent h1 i1 => exact .optAbsent (i1 hS he)
  | optFailure h1 i1 => exact .optFailure (i1 hS he)
  | many0End h1 i1 => exact .many0End (i1 hS he)
  | many0Failure h1 i1 => exact .many0Failure (i1 hS he)
  | many0Stuck h1 hl i1 => exact .many0Stuck (i1 hS he) (by simp [hl])
  | many0More h1 hl h2 i1 i2 => exact .many0More (i1 hS he) (by simp [hl]) (i2 (sub h1 hS) he)
  | many0Later h1 hl h2 hb i1 i2 =>
    have := i2 (sub h1 hS) he
    rw [extO_bad hb] at this ⊢
    exact .many0Later (i1 hS he) (by simp [hl]) this hb
  | many1 h1 h2 i1 i2 => exact .many1 (i1 hS he) (i2 (sub h1 hS) he)
  | many1First h1 hb i1 =>
    have := i1 hS he
    rw [extO_bad hb] at this ⊢
    exact .many1First this hb
  | many1Later h1 h2 hb i1 i2 =>
    have := i2 (sub h1 hS) he
    rw [extO_bad hb] at this ⊢
    exact .many1Later (i1 hS he) this hb
  | wrap h1 i1 => exact .wrap (i1 hS he)
  | wrapBad h1 hb i1 =>
    have := i1 hS he
    rw [extO_bad hb] at this ⊢
    exact .wrapBad this hb
  | _ => cases he

end Sneturfahi.Block
