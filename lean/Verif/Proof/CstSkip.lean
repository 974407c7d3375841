import Verif.Proof.CstNai

/-!
# The grammar without the optional `nai` that is never there
-/

namespace Sneturfahi

open Spec

/-- Leave out an optional `nai` directly after a word (`k`: the expression itself stands there). -/
def skipNai (k : Bool) : Gr → Gr
  | .seq a b => .seq (skipNai k a) (skipNai (takesAll a) b)
  | .alt a b => .alt (skipNai k a) (skipNai k b)
  | .opt a => .opt (if k && a == .call (.word .Nai) then .not .eps else skipNai false a)
  | .many0 a => .many0 (skipNai false a)
  | .many1 a => .many1 (skipNai false a)
  | .manyTill a b => .manyTill (skipNai false a) (skipNai false b)
  | .not a => .not (skipNai false a)
  | .cut a => .cut (skipNai false a)
  | .mustConsume n a => .mustConsume n (skipNai false a)
  | .postCond c a => .postCond c (skipNai false a)
  | .wrap sh a => .wrap sh (skipNai false a)
  | e => e

def cstN (r : CRule) : Gr := skipNai false (cst r)

theorem peg_skip {e : Gr} {l : List Token} {o : Outcome} (h : Peg cst e l o) : ∀ k, (k = true → Peg cst (.call (.word .Nai)) l .error) →
    Peg cstN (skipNai k e) l o := by
  have hopt : ∀ {a : Gr} {l : List Token} {o : Outcome} {k : Bool}, Peg cst (.opt a) l o → (k = true → Peg cst (.call (.word .Nai)) l .error) →
      (Peg cstN (.opt (skipNai false a)) l o) → Peg cstN (skipNai k (.opt a)) l o := by
    intro a l o k h hk ha
    unfold skipNai
    split
    · rename_i hc
      simp only [Bool.and_eq_true, beq_iff_eq] at hc
      obtain ⟨rfl, rfl⟩ := hc
      cases h.unique _ (.optAbsent (hk rfl))
      exact .optAbsent (.notThere .eps)
    · exact ha
  induction h with
  | eps => intro k hk; exact .eps
  | raw h => intro k hk; exact .raw h
  | rawOther h => intro k hk; exact .rawOther h
  | rawEnd => intro k hk; exact .rawEnd
  | any => intro k hk; exact .any
  | anyEnd => intro k hk; exact .anyEnd
  | call _ ih => intro k hk; exact .call (ih false nofun)
  | @seq a b s r q vs ws ha hb iha ihb =>
    intro k hk
    refine .seq (iha k hk) (ihb _ ?_)
    intro ht
    unfold takesAll at ht
    split at ht
    · exact no_indicator_after (by simpa using ht) ⟨_, ha⟩ (by decide)
    · cases ht
  | seqFirst _ h ih => intro k hk; exact .seqFirst (ih k hk) h
  | @seqSecond a b s r vs o ha hb h iha ihb =>
    intro k hk
    refine .seqSecond (iha k hk) (ihb _ ?_) h
    intro ht
    unfold takesAll at ht
    split at ht
    · exact no_indicator_after (by simpa using ht) ⟨_, ha⟩ (by decide)
    · cases ht
  | altFirst _ h ih => intro k hk; exact .altFirst (ih k hk) h
  | altSecond _ _ iha ihb => intro k hk; exact .altSecond (iha k hk) (ihb k hk)
  | optPresent h ih => intro k hk; exact hopt (.optPresent h) hk (.optPresent (ih false nofun))
  | optAbsent h ih => intro k hk; exact hopt (.optAbsent h) hk (.optAbsent (ih false nofun))
  | optFailure h ih => intro k hk; exact hopt (.optFailure h) hk (.optFailure (ih false nofun))
  | many0End _ ih => intro k hk; exact .many0End (ih false nofun)
  | many0More _ h _ iha ihb => intro k hk; exact .many0More (iha false nofun) h (ihb false nofun)
  | many0Failure _ ih => intro k hk; exact .many0Failure (ih false nofun)
  | many0Stuck _ h ih => intro k hk; exact .many0Stuck (ih false nofun) h
  | many0Later _ h _ hb iha ihb => intro k hk; exact .many0Later (iha false nofun) h (ihb false nofun) hb
  | many1 _ _ iha ihb => intro k hk; exact .many1 (iha false nofun) (ihb false nofun)
  | many1First _ h ih => intro k hk; exact .many1First (ih false nofun) h
  | many1Later _ _ h iha ihb => intro k hk; exact .many1Later (iha false nofun) (ihb false nofun) h
  | tillEnd _ ih => intro k hk; exact .tillEnd (ih false nofun)
  | tillMore _ _ h _ ihb iha ihc => intro k hk; exact .tillMore (ihb false nofun) (iha false nofun) h (ihc false nofun)
  | tillFailure _ ih => intro k hk; exact .tillFailure (ih false nofun)
  | tillItem _ _ h ihb iha => intro k hk; exact .tillItem (ihb false nofun) (iha false nofun) h
  | tillStuck _ _ h ihb iha => intro k hk; exact .tillStuck (ihb false nofun) (iha false nofun) h
  | tillLater _ _ h _ hb ihb iha ihc => intro k hk; exact .tillLater (ihb false nofun) (iha false nofun) h (ihc false nofun) hb
  | not _ ih => intro k hk; exact .not (ih false nofun)
  | notThere _ ih => intro k hk; exact .notThere (ih false nofun)
  | notFailure _ ih => intro k hk; exact .notFailure (ih false nofun)
  | cut _ h ih => intro k hk; exact .cut (ih false nofun) h
  | cutError _ ih => intro k hk; exact .cutError (ih false nofun)
  | must _ h ih => intro k hk; exact .must (ih false nofun) h
  | mustEmpty _ h ih => intro k hk; exact .mustEmpty (ih false nofun) h
  | mustBad _ h ih => intro k hk; exact .mustBad (ih false nofun) h
  | post _ h ih => intro k hk; exact .post (ih false nofun) h
  | postViolated _ h ih => intro k hk; exact .postViolated (ih false nofun) h
  | postBad _ h ih => intro k hk; exact .postBad (ih false nofun) h
  | wrap _ ih => intro k hk; exact .wrap (ih false nofun)
  | wrapBad _ h ih => intro k hk; exact .wrapBad (ih false nofun) h

/-- Both grammars read the same. -/
theorem peg_cstN {r : CRule} {l : List Token} {o : Outcome} : Peg cstN (.call r) l o ↔ Peg cst (.call r) l o := by
  constructor
  · intro h
    obtain ⟨o', ho⟩ := peg_total r l
    rw [h.unique _ (peg_skip ho false nofun)]
    exact ho
  · exact fun h => peg_skip h false nofun

end Sneturfahi
