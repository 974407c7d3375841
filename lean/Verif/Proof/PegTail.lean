import Verif.Proof.CstJoin

/-!
# Readings with something added

The same relation between `l` and `l ++ tail` as in `CstEnd`, for readings, with productions about which it is known
otherwise.
-/

namespace Sneturfahi

open Spec

/-- The outcome with `tail` added to what is left. -/
def Spec.Outcome.then (tail : List Token) : Outcome → Outcome
  | .ok r vs => .ok (r ++ tail) vs
  | .error => .error
  | .failure => .failure

theorem bad_then {o : Outcome} (tail : List Token) : (o.then tail).Bad ↔ o.Bad := by
  cases o <;> simp [Outcome.then, Outcome.Bad]

/-- What never applies, by the table of productions. -/
def deadT (dead : CRule → Bool) : Gr → Bool
  | .call r => dead r
  | .seq a _ => deadT dead a
  | .many1 a => deadT dead a
  | .wrap _ a => deadT dead a
  | _ => false

/-- What reads the same with the addition, by the tables of productions; `stop` is the first word added. -/
def tailT (dead sim : CRule → Bool) (stop : Selmaho) : Gr → Bool
  | .eps => true
  | .raw s => s != stop
  | .any _ => false
  | .call r => dead r || sim r
  | .seq a b => deadT dead a || (tailT dead sim stop a && tailT dead sim stop b)
  | .alt a b => tailT dead sim stop a && tailT dead sim stop b
  | .opt a => tailT dead sim stop a
  | .many0 a => tailT dead sim stop a
  | .many1 a => tailT dead sim stop a
  | .manyTill a b => tailT dead sim stop a && tailT dead sim stop b
  | .not a => tailT dead sim stop a
  | .cut a => tailT dead sim stop a
  | .mustConsume _ a => tailT dead sim stop a
  | .postCond _ a => tailT dead sim stop a
  | .wrap _ a => tailT dead sim stop a

theorem peg_deadT {g : CRule → Gr} {dead : CRule → Bool} {l : List Token} (h : ∀ r, dead r = true → Peg g (.call r) l .error) :
    ∀ e, deadT dead e = true → Peg g e l .error
  | .call r, he => h r he
  | .seq a _, he => .seqFirst (peg_deadT h a he) trivial
  | .many1 a, he => .many1First (peg_deadT h a he) trivial
  | .wrap _ a, he => .wrapBad (peg_deadT h a he) trivial

/-- `F` are the token sequences before the addition. -/
structure TailCert (g : CRule → Gr) (F : List Token → Prop) (stop : Token) (post : List Token) (dead base sim : CRule → Bool) : Prop where
  closed : ∀ w l, F (w ++ l) → F l
  isDead : ∀ r l, dead r = true → F l → Peg g (.call r) l .error ∧ Peg g (.call r) (l ++ stop :: post) .error
  isBase : ∀ r l o, base r = true → F l → Peg g (g r) l o → Peg g (.call r) (l ++ stop :: post) (o.then (stop :: post))
  isSim : ∀ r, sim r = true → base r = false → tailT dead sim stop.selmaho (g r) = true

theorem peg_tail {g : CRule → Gr} {F : List Token → Prop} {stop : Token} {post : List Token} {dead base sim : CRule → Bool}
    (c : TailCert g F stop post dead base sim) {e : Gr} {l : List Token} {o : Outcome} (h : Peg g e l o) :
    tailT dead sim stop.selmaho e = true → F l → Peg g e (l ++ stop :: post) (o.then (stop :: post)) := by
  have hsuf : ∀ {e : Gr} {s r : List Token} {vs : List Val}, Peg g e s (.ok r vs) → F s → F r := by
    intro e s r vs h hs
    rw [h.cuts _ _ rfl] at hs
    exact c.closed _ _ hs
  induction h with
  | @call r s o hp ih =>
    intro he hl
    simp only [tailT, Bool.or_eq_true] at he
    by_cases hd : dead r = true
    · have := c.isDead r s hd hl
      rw [Peg.unique (.call hp) _ this.1]
      exact this.2
    · cases hb : base r with
      | true => exact c.isBase r s o hb hl hp
      | false => exact .call (ih (c.isSim r (he.resolve_left hd) hb) hl)
  | eps => intro _ _; exact .eps
  | raw hx => intro _ _; exact .raw hx
  | rawOther hx => intro _ _; exact .rawOther hx
  | rawEnd =>
    intro he _
    simp only [tailT, bne_iff_ne, ne_eq] at he
    exact .rawOther (fun hx => he hx.symm)
  | any => intro he; cases he
  | anyEnd => intro he; cases he
  | @seq a b s r q vs ws h1 h2 ih1 ih2 =>
    intro he hl
    simp only [tailT, Bool.or_eq_true, Bool.and_eq_true] at he
    rcases he with he | he
    · cases h1.unique _ (peg_deadT (fun r hr => (c.isDead r s hr hl).1) a he)
    · exact .seq (ih1 he.1 hl) (ih2 he.2 (hsuf h1 hl))
  | @seqFirst a b s o h1 hb ih1 =>
    intro he hl
    simp only [tailT, Bool.or_eq_true, Bool.and_eq_true] at he
    rcases he with he | he
    · rw [h1.unique _ (peg_deadT (fun r hr => (c.isDead r s hr hl).1) a he)]
      exact .seqFirst (peg_deadT (fun r hr => (c.isDead r s hr hl).2) a he) trivial
    · exact .seqFirst (ih1 he.1 hl) ((bad_then _).mpr hb)
  | @seqSecond a b s r vs o h1 h2 hb ih1 ih2 =>
    intro he hl
    simp only [tailT, Bool.or_eq_true, Bool.and_eq_true] at he
    rcases he with he | he
    · cases h1.unique _ (peg_deadT (fun r hr => (c.isDead r s hr hl).1) a he)
    · exact .seqSecond (ih1 he.1 hl) (ih2 he.2 (hsuf h1 hl)) ((bad_then _).mpr hb)
  | @altFirst a b s o h1 hne ih1 =>
    intro he hl
    simp only [tailT, Bool.and_eq_true] at he
    exact .altFirst (ih1 he.1 hl) (by cases o <;> simp_all [Outcome.then])
  | altSecond h1 h2 ih1 ih2 =>
    intro he hl
    simp only [tailT, Bool.and_eq_true] at he
    exact .altSecond (ih1 he.1 hl) (ih2 he.2 hl)
  | optPresent h1 ih => intro he hl; exact .optPresent (ih he hl)
  | optAbsent h1 ih => intro he hl; exact .optAbsent (ih he hl)
  | optFailure h1 ih => intro he hl; exact .optFailure (ih he hl)
  | many0End h1 ih => intro he hl; exact .many0End (ih he hl)
  | many0More h1 hn h2 ih1 ih2 =>
    intro he hl
    exact .many0More (ih1 he hl) (by simpa using hn) (ih2 he (hsuf h1 hl))
  | many0Failure h1 ih => intro he hl; exact .many0Failure (ih he hl)
  | many0Stuck h1 hn ih => intro he hl; exact .many0Stuck (ih he hl) (by simpa using hn)
  | many0Later h1 hn h2 hb ih1 ih2 =>
    intro he hl
    exact .many0Later (ih1 he hl) (by simpa using hn) (ih2 he (hsuf h1 hl)) ((bad_then _).mpr hb)
  | many1 h1 h2 ih1 ih2 => intro he hl; exact .many1 (ih1 he hl) (ih2 he (hsuf h1 hl))
  | many1First h1 hb ih => intro he hl; exact .many1First (ih he hl) ((bad_then _).mpr hb)
  | many1Later h1 h2 hb ih1 ih2 => intro he hl; exact .many1Later (ih1 he hl) (ih2 he (hsuf h1 hl)) ((bad_then _).mpr hb)
  | tillEnd h1 ih =>
    intro he hl
    have he' := he
    simp only [tailT, Bool.and_eq_true] at he'
    exact .tillEnd (ih he'.2 hl)
  | tillMore h1 h2 hn h3 ih1 ih2 ih3 =>
    intro he hl
    have he' := he
    simp only [tailT, Bool.and_eq_true] at he'
    exact .tillMore (ih1 he'.2 hl) (ih2 he'.1 hl) (by simpa using hn) (ih3 he (hsuf h2 hl))
  | tillFailure h1 ih =>
    intro he hl
    simp only [tailT, Bool.and_eq_true] at he
    exact .tillFailure (ih he.2 hl)
  | tillItem h1 h2 hb ih1 ih2 =>
    intro he hl
    simp only [tailT, Bool.and_eq_true] at he
    exact .tillItem (ih1 he.2 hl) (ih2 he.1 hl) ((bad_then _).mpr hb)
  | tillStuck h1 h2 hn ih1 ih2 =>
    intro he hl
    simp only [tailT, Bool.and_eq_true] at he
    exact .tillStuck (ih1 he.2 hl) (ih2 he.1 hl) (by simpa using hn)
  | tillLater h1 h2 hn h3 hb ih1 ih2 ih3 =>
    intro he hl
    have he' := he
    simp only [tailT, Bool.and_eq_true] at he'
    exact .tillLater (ih1 he'.2 hl) (ih2 he'.1 hl) (by simpa using hn) (ih3 he (hsuf h2 hl)) ((bad_then _).mpr hb)
  | not h1 ih => intro he hl; exact .not (ih he hl)
  | notThere h1 ih => intro he hl; exact .notThere (ih he hl)
  | notFailure h1 ih => intro he hl; exact .notFailure (ih he hl)
  | @cut a s o h1 hne ih => intro he hl; exact .cut (ih he hl) (by cases o <;> simp_all [Outcome.then])
  | cutError h1 ih => intro he hl; exact .cutError (ih he hl)
  | must h1 hn ih => intro he hl; exact .must (ih he hl) (by simpa using hn)
  | mustEmpty h1 hn ih => intro he hl; exact .mustEmpty (ih he hl) (by simpa using hn)
  | mustBad h1 hb ih => intro he hl; exact .mustBad (ih he hl) ((bad_then _).mpr hb)
  | post h1 hc ih => intro he hl; exact .post (ih he hl) hc
  | postViolated h1 hc ih => intro he hl; exact .postViolated (ih he hl) hc
  | postBad h1 hb ih => intro he hl; exact .postBad (ih he hl) ((bad_then _).mpr hb)
  | wrap h1 ih => intro he hl; exact .wrap (ih he hl)
  | wrapBad h1 hb ih => intro he hl; exact .wrapBad (ih he hl) ((bad_then _).mpr hb)

/-- Both directions, for a production. -/
theorem tail_gives {F : List Token → Prop} {stop : Token} {post : List Token} {dead base sim : CRule → Bool}
    (c : TailCert cst F stop post dead base sim) {r : CRule} (hr : sim r = true) {l : List Token} (hl : F l) :
    (Peg cst (.call r) l .error ↔ Peg cst (.call r) (l ++ stop :: post) .error) ∧
    (∀ q, Gives (.call r) l q → Gives (.call r) (l ++ stop :: post) (q ++ stop :: post)) ∧
    (∀ q, Gives (.call r) (l ++ stop :: post) q → ∃ q', q = q' ++ stop :: post ∧ Gives (.call r) l q') := by
  have he : tailT dead sim stop.selmaho (.call r) = true := by simp [tailT, hr]
  obtain ⟨o, ho⟩ := peg_total r l
  have ho' := peg_tail c ho he hl
  refine ⟨⟨fun h => peg_tail c h he hl, fun h => ?_⟩, ?_, ?_⟩
  · have := h.unique _ ho'
    cases o <;> simp only [Outcome.then] at this <;> first | exact ho | cases this
  · rintro q ⟨vs, h⟩
    exact ⟨vs, peg_tail c h he hl⟩
  · rintro q ⟨vs, h⟩
    have := h.unique _ ho'
    cases o <;> simp only [Outcome.then] at this <;> cases this
    exact ⟨_, rfl, _, ho⟩

end Sneturfahi
