import Verif.Proof.CstPegSpec
import Verif.Proof.CstWitness

/-!
# Where nodes stand and what made them
-/

namespace Sneturfahi

open Spec

namespace Spec

theorem AtL.append {pre : List Token} {v : Val} {vs ws : List Val} (h : AtL pre v (vs ++ ws)) :
    AtL pre v vs ∨ ∃ pre', pre = tokensL vs ++ pre' ∧ AtL pre' v ws := by
  induction vs generalizing pre with
  | nil => exact .inr ⟨pre, by simp [tokensL], h⟩
  | cons w vs ih =>
    cases h with
    | head h => exact .inl (.head h)
    | tail h =>
      rcases ih h with h1 | ⟨pre', rfl, h1⟩
      · exact .inl (.tail h1)
      · exact .inr ⟨pre', by simp [tokensL], h1⟩

theorem At.build {pre : List Token} {n : NodeName} {fs : List Val} {sh : CShape} {vs : List Val}
    (h : At pre (.node n fs) (sh.build vs)) : (sh = .node n ∧ fs = vs ∧ pre = []) ∨ AtL pre (.node n fs) vs := by
  unfold CShape.build at h
  split at h
  · cases h with
    | self => exact .inl ⟨rfl, rfl, rfl⟩
    | node h => exact .inr h
  · cases h with | tuple h => exact .inr h
  · cases h with
    | sepFirst h => exact .inr (.head h)
    | sepRest h => exact .inr (.tail (.head (.many h)))
  · cases h with | tuple h => exact .inr h

/-- A part of a value stands somewhere in it. -/
theorem PartOf.at {v w : Val} (h : PartOf v w) : ∃ pre, At pre v w := by
  refine PartOf.rec (motive_1 := fun w _ => ∃ pre, At pre v w) (motive_2 := fun ws _ => ∃ pre, AtL pre v ws)
    ?_ ?_ ?_ ?_ ?_ ?_ ?_ ?_ h
  · exact ⟨[], .self⟩
  · rintro _ _ _ ⟨pre, h⟩; exact ⟨pre, .node h⟩
  · rintro _ _ ⟨pre, h⟩; exact ⟨pre, .tuple h⟩
  · rintro _ _ ⟨pre, h⟩; exact ⟨pre, .many h⟩
  · rintro _ _ _ ⟨pre, h⟩; exact ⟨pre, .sepFirst h⟩
  · rintro _ _ _ ⟨pre, h⟩; exact ⟨_, .sepRest h⟩
  · rintro _ _ _ ⟨pre, h⟩; exact ⟨pre, .head h⟩
  · rintro _ _ _ ⟨pre, h⟩; exact ⟨_, .tail h⟩

/-- What was read and what is left is what was there. -/
theorem Peg.cuts {g : CRule → Gr} {e : Gr} {s : List Token} {o : Outcome} (h : Peg g e s o) :
    ∀ r vs, o = .ok r vs → s = tokensL vs ++ r := by
  induction h with
  | _ => grind [Outcome.Bad, tokensL, tokens, tokensL_append, tokens_build]

end Spec

/-- Always succeeds, or fails for good. -/
def sureG : Gr → Bool
  | .eps => true
  | .opt _ => true
  | .cut _ => true
  | .seq a b => sureG a && sureG b
  | .wrap _ a => sureG a
  | .alt a b => sureG a || sureG b
  | _ => false

theorem peg_sure {g : CRule → Gr} {e : Gr} {s : List Token} {o : Outcome} (h : Peg g e s o) (hs : sureG e = true) : o ≠ .error := by
  induction h with
  | _ => grind [sureG, Outcome.Bad]

/-- Every node made here is `good`; alternatives after a sure one do not count. -/
def madeG (good : NodeName → Gr → Bool) : Gr → Bool
  | .eps => true
  | .raw _ => true
  | .any _ => true
  | .call _ => true
  | .seq a b => madeG good a && madeG good b
  | .alt a b => madeG good a && (sureG a || madeG good b)
  | .opt a => madeG good a
  | .many0 a => madeG good a
  | .many1 a => madeG good a
  | .manyTill a b => madeG good a && madeG good b
  | .not _ => true
  | .cut a => madeG good a
  | .mustConsume _ a => madeG good a
  | .postCond _ a => madeG good a
  | .wrap (.node n) a => good n a && madeG good a
  | .wrap _ a => madeG good a

/-- `node n fs` is what a good expression makes of the tokens at its place. -/
def MadeHere (g : CRule → Gr) (good : NodeName → Gr → Bool) (s pre : List Token) (n : NodeName) (fs : List Val) : Prop :=
  ∃ a here post, good n a = true ∧ s = pre ++ here ∧ Peg g (.wrap (.node n) a) here (.ok post [.node n fs])

theorem MadeHere.shift {g : CRule → Gr} {good : NodeName → Gr → Bool} {s pre : List Token} {n : NodeName} {fs : List Val}
    (w : List Token) (h : MadeHere g good s pre n fs) : MadeHere g good (w ++ s) (w ++ pre) n fs := by
  obtain ⟨a, here, post, h1, rfl, h2⟩ := h
  exact ⟨a, here, post, h1, by simp, h2⟩

theorem atL_nil {pre : List Token} {v : Val} : ¬ AtL pre v [] := by intro h; cases h
theorem atL_leaf {pre : List Token} {n : NodeName} {fs : List Val} {k : LeafKind} {t : Token} : ¬ AtL pre (.node n fs) [.leaf k t] := by
  intro h
  cases h with
  | head h => cases h
  | tail h => cases h
theorem atL_many {pre : List Token} {n : NodeName} {fs vs : List Val} : AtL pre (.node n fs) [.many vs] ↔ AtL pre (.node n fs) vs := by
  constructor
  · intro h
    cases h with
    | head h => cases h with | many h => exact h
    | tail h => cases h
  · exact fun h => .head (.many h)

theorem peg_placed {g : CRule → Gr} {good : NodeName → Gr → Bool} (hg : ∀ r, madeG good (g r) = true) {e : Gr} {s : List Token}
    {o : Outcome} (h : Peg g e s o) : ∀ r vs, o = .ok r vs → madeG good e = true →
      ∀ pre n fs, AtL pre (.node n fs) vs → MadeHere g good s pre n fs := by
  induction h with
  | eps => intro r vs h _ pre n fs hn; cases h; exact absurd hn atL_nil
  | raw _ => intro r vs h _ pre n fs hn; cases h; exact absurd hn atL_leaf
  | any => intro r vs h _ pre n fs hn; cases h; exact absurd hn atL_leaf
  | call _ ih => intro r vs h _; exact ih r vs h (hg _)
  | seq ha _ iha ihb =>
    intro r vs h hm pre n fs hn
    cases h
    simp only [madeG, Bool.and_eq_true] at hm
    rcases hn.append with hn' | ⟨pre', rfl, hn'⟩
    · exact iha _ _ rfl hm.1 pre n fs hn'
    · rw [ha.cuts _ _ rfl]
      exact (ihb _ _ rfl hm.2 pre' n fs hn').shift _
  | altFirst _ _ ih =>
    intro r vs h hm
    simp only [madeG, Bool.and_eq_true] at hm
    exact ih r vs h hm.1
  | altSecond ha _ _ ih =>
    intro r vs h hm
    simp only [madeG, Bool.and_eq_true, Bool.or_eq_true] at hm
    exact ih r vs h (hm.2.resolve_left (fun hs => peg_sure ha hs rfl))
  | optPresent _ ih =>
    intro r vs h hm pre n fs hn
    cases h
    exact ih _ _ rfl hm pre n fs (atL_many.mp hn)
  | optAbsent _ => intro r vs h _ pre n fs hn; cases h; exact absurd (atL_many.mp hn) atL_nil
  | many0End _ => intro r vs h _ pre n fs hn; cases h; exact absurd (atL_many.mp hn) atL_nil
  | many0More ha _ _ ih ih' =>
    intro r vs h hm pre n fs hn
    cases h
    rcases (atL_many.mp hn).append with hn' | ⟨pre', rfl, hn'⟩
    · exact ih _ _ rfl hm pre n fs hn'
    · rw [ha.cuts _ _ rfl]
      exact (ih' _ _ rfl hm pre' n fs (atL_many.mpr hn')).shift _
  | many1 ha _ ih ih' =>
    intro r vs h hm pre n fs hn
    cases h
    rcases (atL_many.mp hn).append with hn' | ⟨pre', rfl, hn'⟩
    · exact ih _ _ rfl hm pre n fs hn'
    · rw [ha.cuts _ _ rfl]
      exact (ih' _ _ rfl hm pre' n fs (atL_many.mpr hn')).shift _
  | tillEnd _ ih =>
    intro r vs h hm pre n fs hn
    cases h
    simp only [madeG, Bool.and_eq_true] at hm
    cases hn with
    | head hn => cases hn with | many hn => exact absurd hn atL_nil
    | tail hn => simpa [tokens, tokensL] using ih _ _ rfl hm.2 _ n fs hn
  | @tillMore a b s r q vs us ws _ ha _ _ _ ih ih' =>
    intro r' vs' h hm pre n fs hn
    cases h
    have hm' := hm
    simp only [madeG, Bool.and_eq_true] at hm
    have hs := ha.cuts _ _ rfl
    rcases hn with hn | hn
    · cases hn with
      | many hn =>
        rcases hn.append with hn' | ⟨pre', rfl, hn'⟩
        · exact ih _ _ rfl hm.1 pre n fs hn'
        · rw [hs]
          exact (ih' _ _ rfl hm' pre' n fs (.head (.many hn'))).shift _
    · rename_i pre hn
      have := (ih' _ _ rfl hm' _ n fs (.tail hn)).shift (tokensL vs)
      rw [← hs] at this
      simpa [tokens, tokensL_append] using this
  | not _ => intro r vs h _ pre n fs hn; cases h; exact absurd hn atL_nil
  | cut _ _ ih => exact ih
  | must _ _ ih =>
    intro r vs h hm
    cases h
    exact ih _ _ rfl hm
  | post _ _ ih =>
    intro r vs h hm
    cases h
    exact ih _ _ rfl hm
  | @wrap sh a s r vs ha ih =>
    intro r' vs' h hm pre n fs hn
    cases h
    have hm2 : madeG good a = true := by
      cases sh with
      | node m => simp only [madeG, Bool.and_eq_true] at hm; exact hm.2
      | tuple => exact hm
      | sep => exact hm
    cases hn with
    | tail hn => cases hn
    | head hn =>
      rcases At.build hn with ⟨rfl, rfl, rfl⟩ | hn
      · simp only [madeG, Bool.and_eq_true] at hm
        exact ⟨a, s, r, hm.1, rfl, .wrap ha⟩
      · exact ih _ _ rfl hm2 pre n fs hn
  | _ => intro r vs h; first | (cases h; done) | (cases h; rename_i hb _; cases hb) | (cases h; rename_i hb; cases hb)

/-- What is made into a node of this name. -/
def bodyIn (n : NodeName) : Gr → Option Gr
  | .wrap (.node m) a => if m = n then some a else bodyIn n a
  | .wrap _ a => bodyIn n a
  | .seq a b => (bodyIn n a).or (bodyIn n b)
  | .alt a b => (bodyIn n a).or (bodyIn n b)
  | .opt a => bodyIn n a
  | .many0 a => bodyIn n a
  | .many1 a => bodyIn n a
  | .manyTill a b => (bodyIn n a).or (bodyIn n b)
  | .cut a => bodyIn n a
  | .mustConsume _ a => bodyIn n a
  | .postCond _ a => bodyIn n a
  | _ => none

/-- The variants that never occur. -/
def deadNodes : List NodeName := [.GadriSumtiPre_Relative, .GadriSumtiPre_FullPre]

/-- Not a dead variant; unless generic, made by its production alone. -/
def goodNode (n : NodeName) (a : Gr) : Bool :=
  !deadNodes.contains n && (genericNodes.contains n || decide (bodyIn n (cst (home n)) = some a))

theorem cst_made (r : CRule) : madeG goodNode (cst r) = true := by
  cases r with
  | word s => cases s <;> decide +kernel
  | _ => decide +kernel

end Sneturfahi
