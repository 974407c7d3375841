import Verif.Proof.PegTail

/-!
# Readings of related token sequences

If two token sequences are related, and certain productions are known to read related sequences alike, then so do all
productions built from them.
-/

namespace Sneturfahi

open Spec

/-- What reads alike, by tables of productions. -/
def relT (raws : Selmaho → Bool) (anys : Bool) (dead sim : CRule → Bool) (shapes : CShape → Bool) (posts : PostCond → NodeName → Bool) : Gr → Bool
  | .eps => true
  | .raw x => raws x
  | .any _ => anys
  | .call r => dead r || sim r
  | .seq a b => deadT dead a || (relT raws anys dead sim shapes posts a && relT raws anys dead sim shapes posts b)
  | .alt a b => relT raws anys dead sim shapes posts a && relT raws anys dead sim shapes posts b
  | .opt a => relT raws anys dead sim shapes posts a
  | .many0 a => relT raws anys dead sim shapes posts a
  | .many1 a => relT raws anys dead sim shapes posts a
  | .manyTill a b => relT raws anys dead sim shapes posts a && relT raws anys dead sim shapes posts b
  | .not a => relT raws anys dead sim shapes posts a
  | .cut a => relT raws anys dead sim shapes posts a
  | .mustConsume _ a => relT raws anys dead sim shapes posts a
  | .postCond c (.wrap (.node n) a) => posts c n && shapes (.node n) && relT raws anys dead sim shapes posts a
  | .postCond _ _ => false
  | .wrap sh a => shapes sh && relT raws anys dead sim shapes posts a

/-- Outcomes that correspond: what is left is related, the values are related, and tokens were read in both or in neither. -/
inductive RelOut (R : List Token → List Token → Prop) (V : List Val → List Val → Prop) (l l' : List Token) : Outcome → Outcome → Prop
  | error : RelOut R V l l' .error .error
  | failure : RelOut R V l l' .failure .failure
  | ok {r r' : List Token} {vs vs' : List Val} : R r r' → (r.length = l.length ↔ r'.length = l'.length) → V vs vs' →
      RelOut R V l l' (.ok r vs) (.ok r' vs')

/-- Values are related through what they are made of. -/
structure ValRel (V : List Val → List Val → Prop) (shapes : CShape → Bool) (posts : PostCond → NodeName → Bool) : Prop where
  nil : V [] []
  append : ∀ {a b c d}, V a b → V c d → V (a ++ c) (b ++ d)
  many : ∀ {a b}, V a b → V [.many a] [.many b]
  more : ∀ {a b c d e f}, V a b → V (.many c :: e) (.many d :: f) → V (.many (a ++ c) :: e) (.many (b ++ d) :: f)
  build : ∀ {sh a b}, shapes sh = true → V a b → V [sh.build a] [sh.build b]
  post : ∀ {c n a b}, posts c n = true → V [.node n a] [.node n b] → c.holds [.node n a] = c.holds [.node n b]

/-- A property of a reading and of those it consists of (through sequences, alternatives and nodes, down to calls). -/
def Deep (g : CRule → Gr) (S : Gr → List Token → Outcome → Prop) : Gr → List Token → Outcome → Prop
  | .alt a b, l, o => S (.alt a b) l o ∧ ∃ oa, Peg g a l oa ∧ Deep g S a l oa ∧ (oa = .error → Peg g b l o ∧ Deep g S b l o)
  | .seq a b, l, o => S (.seq a b) l o ∧ ∃ oa, Peg g a l oa ∧ Deep g S a l oa ∧ (∀ r vs, oa = .ok r vs → ∃ ob, Peg g b r ob ∧ Deep g S b r ob)
  | .wrap sh a, l, o => S (.wrap sh a) l o ∧ ∃ oa, Peg g a l oa ∧ Deep g S a l oa
  | e, l, o => S e l o

theorem Deep.s {g : CRule → Gr} {S : Gr → List Token → Outcome → Prop} {e : Gr} {l : List Token} {o : Outcome} (h : Deep g S e l o) : S e l o := by
  cases e with
  | alt a b => exact h.1
  | seq a b => exact h.1
  | wrap sh a => exact h.1
  | _ => exact h

/-- What is to be shown of a reading. -/
def RelS (g : CRule → Gr) (R : List Token → List Token → Prop) (V : List Val → List Val → Prop) (raws : Selmaho → Bool) (anys : Bool)
    (dead sim : CRule → Bool) (shapes : CShape → Bool) (posts : PostCond → NodeName → Bool) (e : Gr) (l : List Token) (o : Outcome) : Prop :=
  relT raws anys dead sim shapes posts e = true → ∀ l', R l l' → ∃ o', Peg g e l' o' ∧ RelOut R V l l' o o'

structure RelCert (g : CRule → Gr) (R : List Token → List Token → Prop) (V : List Val → List Val → Prop) (raws : Selmaho → Bool) (anys : Bool)
    (dead base sim : CRule → Bool) (shapes : CShape → Bool) (posts : PostCond → NodeName → Bool) : Prop where
  vals : ValRel V shapes posts
  isRaw : ∀ x l l' o, raws x = true → R l l' → Peg g (.raw x) l o → ∃ o', Peg g (.raw x) l' o' ∧ RelOut R V l l' o o'
  isAny : ∀ k l l' o, anys = true → R l l' → Peg g (.any k) l o → ∃ o', Peg g (.any k) l' o' ∧ RelOut R V l l' o o'
  isDead : ∀ r l l', dead r = true → R l l' → Peg g (.call r) l .error ∧ Peg g (.call r) l' .error
  isBase : ∀ r l l' o, base r = true → R l l' → Peg g (g r) l o → Deep g (RelS g R V raws anys dead sim shapes posts) (g r) l o →
    ∃ o', Peg g (.call r) l' o' ∧ RelOut R V l l' o o'
  isSim : ∀ r, sim r = true → base r = false → relT raws anys dead sim shapes posts (g r) = true

theorem Peg.shorter {g : CRule → Gr} {e : Gr} {s r : List Token} {vs : List Val} (h : Peg g e s (.ok r vs)) : r.length ≤ s.length := by
  rw [h.cuts _ _ rfl]
  simp

theorem peg_many0_shape {g : CRule → Gr} {a : Gr} {s r : List Token} {vs : List Val} (h : Peg g (.many0 a) s (.ok r vs)) :
    ∃ ws, vs = [.many ws] := by
  cases h with
  | many0End _ => exact ⟨_, rfl⟩
  | many0More _ _ _ => exact ⟨_, rfl⟩
  | many0Later _ _ _ hb => exact hb.elim

theorem peg_till_shape {g : CRule → Gr} {a b : Gr} {s r : List Token} {vs : List Val} (h : Peg g (.manyTill a b) s (.ok r vs)) :
    ∃ us ws, vs = .many us :: ws := by
  cases h with
  | tillEnd _ => exact ⟨_, _, rfl⟩
  | tillMore _ _ _ _ => exact ⟨_, _, rfl⟩
  | tillItem _ _ hb => exact hb.elim
  | tillLater _ _ _ _ hb => exact hb.elim

theorem peg_node_shape {g : CRule → Gr} {n : NodeName} {a : Gr} {s r : List Token} {vs : List Val}
    (h : Peg g (.wrap (.node n) a) s (.ok r vs)) : ∃ us, vs = [.node n us] := by
  cases h with
  | wrap _ => exact ⟨_, rfl⟩
  | wrapBad _ hb => exact hb.elim

theorem relT_post {raws : Selmaho → Bool} {anys : Bool} {dead sim : CRule → Bool} {shapes : CShape → Bool} {posts : PostCond → NodeName → Bool} {c : PostCond} {a : Gr}
    (h : relT raws anys dead sim shapes posts (.postCond c a) = true) :
    ∃ n b, a = .wrap (.node n) b ∧ posts c n = true ∧ relT raws anys dead sim shapes posts a = true := by
  unfold relT at h
  split at h <;> simp_all [relT]

theorem peg_rel_deep {g : CRule → Gr} {R : List Token → List Token → Prop} {V : List Val → List Val → Prop} {raws : Selmaho → Bool} {anys : Bool}
    {dead base sim : CRule → Bool} {shapes : CShape → Bool} {posts : PostCond → NodeName → Bool}
    (c : RelCert g R V raws anys dead base sim shapes posts) {e : Gr} {l : List Token} {o : Outcome} (h : Peg g e l o) :
    Deep g (RelS g R V raws anys dead sim shapes posts) e l o := by
  induction h with
  | eps =>
    change RelS g R V raws anys dead sim shapes posts _ _ _
    intro _ l' hl; exact ⟨_, .eps, .ok hl (by simp) c.vals.nil⟩
  | @call r s o hp ihD =>
    change RelS g R V raws anys dead sim shapes posts _ _ _
    intro he l' hl
    simp only [relT, Bool.or_eq_true] at he
    by_cases hd : dead r = true
    · have := c.isDead r s l' hd hl
      rw [Peg.unique (.call hp) _ this.1]
      exact ⟨_, this.2, .error⟩
    · cases hb : base r with
      | true => exact c.isBase r s l' o hb hl hp ihD
      | false =>
        obtain ⟨o', h1, h2⟩ := ihD.s (c.isSim r (he.resolve_left hd) hb) l' hl
        exact ⟨o', .call h1, h2⟩
  | @seq a b s r q vs ws h1 h2 ih1D ih2D =>
    have ih1 := ih1D.s
    have ih2 := ih2D.s
    refine ⟨?_, _, h1, ih1D, fun r' vs' he => by cases he; exact ⟨_, h2, ih2D⟩⟩
    intro he l' hl
    simp only [relT, Bool.or_eq_true, Bool.and_eq_true] at he
    rcases he with he | he
    · cases h1.unique _ (peg_deadT (fun r hr => (c.isDead r s l' hr hl).1) a he)
    · obtain ⟨_, p1, o1⟩ := ih1 he.1 l' hl
      cases o1 with
      | ok hr hi hv =>
        obtain ⟨_, p2, o2⟩ := ih2 he.2 _ hr
        cases o2 with
        | ok hr2 hi2 hv2 =>
          refine ⟨_, .seq p1 p2, .ok hr2 ?_ (c.vals.append hv hv2)⟩
          have := Peg.shorter h1
          have := Peg.shorter h2
          have := Peg.shorter p1
          have := Peg.shorter p2
          omega
  | @seqFirst a b s o h1 hb ih1D =>
    have ih1 := ih1D.s
    refine ⟨?_, _, h1, ih1D, fun r' vs' he => by subst he; exact hb.elim⟩
    intro he l' hl
    simp only [relT, Bool.or_eq_true, Bool.and_eq_true] at he
    rcases he with he | he
    · rw [h1.unique _ (peg_deadT (fun r hr => (c.isDead r s l' hr hl).1) a he)]
      exact ⟨_, .seqFirst (peg_deadT (fun r hr => (c.isDead r s l' hr hl).2) a he) trivial, .error⟩
    · obtain ⟨_, p1, o1⟩ := ih1 he.1 l' hl
      cases o1 with
      | ok _ _ _ => exact hb.elim
      | error => exact ⟨_, .seqFirst p1 trivial, .error⟩
      | failure => exact ⟨_, .seqFirst p1 trivial, .failure⟩
  | @seqSecond a b s r vs o h1 h2 hb ih1D ih2D =>
    have ih1 := ih1D.s
    have ih2 := ih2D.s
    refine ⟨?_, _, h1, ih1D, fun r' vs' he => by cases he; exact ⟨_, h2, ih2D⟩⟩
    intro he l' hl
    simp only [relT, Bool.or_eq_true, Bool.and_eq_true] at he
    rcases he with he | he
    · cases h1.unique _ (peg_deadT (fun r hr => (c.isDead r s l' hr hl).1) a he)
    · obtain ⟨_, p1, o1⟩ := ih1 he.1 l' hl
      cases o1 with
      | ok hr hi hv =>
        obtain ⟨_, p2, o2⟩ := ih2 he.2 _ hr
        cases o2 with
        | ok _ _ _ => exact hb.elim
        | error => exact ⟨_, .seqSecond p1 p2 trivial, .error⟩
        | failure => exact ⟨_, .seqSecond p1 p2 trivial, .failure⟩
  | altFirst h1 hne ih1D =>
    have ih1 := ih1D.s
    refine ⟨?_, _, h1, ih1D, fun he => absurd he hne⟩
    intro he l' hl
    simp only [relT, Bool.and_eq_true] at he
    obtain ⟨_, p1, o1⟩ := ih1 he.1 l' hl
    exact ⟨_, .altFirst p1 (by cases o1 <;> simp_all), o1⟩
  | altSecond h1 h2 ih1D ih2D =>
    have ih1 := ih1D.s
    have ih2 := ih2D.s
    refine ⟨?_, _, h1, ih1D, fun _ => ⟨h2, ih2D⟩⟩
    intro he l' hl
    simp only [relT, Bool.and_eq_true] at he
    obtain ⟨_, p1, o1⟩ := ih1 he.1 l' hl
    obtain ⟨_, p2, o2⟩ := ih2 he.2 l' hl
    cases o1 with
    | error => exact ⟨_, .altSecond p1 p2, o2⟩
  | optPresent h1 ih =>
    change RelS g R V raws anys dead sim shapes posts _ _ _
    have ih := ih.s
    intro he l' hl
    obtain ⟨_, p1, o1⟩ := ih he l' hl
    cases o1 with
    | ok hr hi hv => exact ⟨_, .optPresent p1, .ok hr hi (c.vals.many hv)⟩
  | optAbsent h1 ih =>
    change RelS g R V raws anys dead sim shapes posts _ _ _
    have ih := ih.s
    intro he l' hl
    obtain ⟨_, p1, o1⟩ := ih he l' hl
    cases o1 with
    | error => exact ⟨_, .optAbsent p1, .ok hl (by simp) (c.vals.many c.vals.nil)⟩
  | optFailure h1 ih =>
    change RelS g R V raws anys dead sim shapes posts _ _ _
    have ih := ih.s
    intro he l' hl
    obtain ⟨_, p1, o1⟩ := ih he l' hl
    cases o1 with
    | failure => exact ⟨_, .optFailure p1, .failure⟩
  | many0End h1 ih =>
    change RelS g R V raws anys dead sim shapes posts _ _ _
    have ih := ih.s
    intro he l' hl
    obtain ⟨_, p1, o1⟩ := ih he l' hl
    cases o1 with
    | error => exact ⟨_, .many0End p1, .ok hl (by simp) (c.vals.many c.vals.nil)⟩
  | many0More h1 hn h2 ih1 ih2 =>
    change RelS g R V raws anys dead sim shapes posts _ _ _
    have ih1 := ih1.s
    have ih2 := ih2.s
    intro he l' hl
    obtain ⟨_, p1, o1⟩ := ih1 he l' hl
    cases o1 with
    | ok hr hi hv =>
      obtain ⟨_, p2, o2⟩ := ih2 he _ hr
      cases o2 with
      | ok hr2 hi2 hv2 =>
        have hs : ∃ ws', _ = [Val.many ws'] := peg_many0_shape p2
        obtain ⟨ws', rfl⟩ := hs
        refine ⟨_, .many0More p1 (by omega) p2, .ok hr2 ?_ (c.vals.more hv hv2)⟩
        have := Peg.shorter h1
        have := Peg.shorter h2
        have := Peg.shorter p1
        have := Peg.shorter p2
        omega
  | many0Failure h1 ih =>
    change RelS g R V raws anys dead sim shapes posts _ _ _
    have ih := ih.s
    intro he l' hl
    obtain ⟨_, p1, o1⟩ := ih he l' hl
    cases o1 with
    | failure => exact ⟨_, .many0Failure p1, .failure⟩
  | many0Stuck h1 hn ih =>
    change RelS g R V raws anys dead sim shapes posts _ _ _
    have ih := ih.s
    intro he l' hl
    obtain ⟨_, p1, o1⟩ := ih he l' hl
    cases o1 with
    | ok hr hi hv => exact ⟨_, .many0Stuck p1 (hi.mp hn), .error⟩
  | many0Later h1 hn h2 hb ih1 ih2 =>
    change RelS g R V raws anys dead sim shapes posts _ _ _
    have ih1 := ih1.s
    have ih2 := ih2.s
    intro he l' hl
    obtain ⟨_, p1, o1⟩ := ih1 he l' hl
    cases o1 with
    | ok hr hi hv =>
      obtain ⟨_, p2, o2⟩ := ih2 he _ hr
      cases o2 with
      | ok _ _ _ => exact hb.elim
      | error => exact ⟨_, .many0Later p1 (by omega) p2 trivial, .error⟩
      | failure => exact ⟨_, .many0Later p1 (by omega) p2 trivial, .failure⟩
  | many1 h1 h2 ih1 ih2 =>
    change RelS g R V raws anys dead sim shapes posts _ _ _
    have ih1 := ih1.s
    have ih2 := ih2.s
    intro he l' hl
    obtain ⟨_, p1, o1⟩ := ih1 he l' hl
    cases o1 with
    | ok hr hi hv =>
      obtain ⟨_, p2, o2⟩ := ih2 he _ hr
      cases o2 with
      | ok hr2 hi2 hv2 =>
        have hs : ∃ ws', _ = [Val.many ws'] := peg_many0_shape p2
        obtain ⟨ws', rfl⟩ := hs
        refine ⟨_, .many1 p1 p2, .ok hr2 ?_ (c.vals.more hv hv2)⟩
        have := Peg.shorter h1
        have := Peg.shorter h2
        have := Peg.shorter p1
        have := Peg.shorter p2
        omega
  | many1First h1 hb ih =>
    change RelS g R V raws anys dead sim shapes posts _ _ _
    have ih := ih.s
    intro he l' hl
    obtain ⟨_, p1, o1⟩ := ih he l' hl
    cases o1 with
    | ok _ _ _ => exact hb.elim
    | error => exact ⟨_, .many1First p1 trivial, .error⟩
    | failure => exact ⟨_, .many1First p1 trivial, .failure⟩
  | many1Later h1 h2 hb ih1 ih2 =>
    change RelS g R V raws anys dead sim shapes posts _ _ _
    have ih1 := ih1.s
    have ih2 := ih2.s
    intro he l' hl
    obtain ⟨_, p1, o1⟩ := ih1 he l' hl
    cases o1 with
    | ok hr hi hv =>
      obtain ⟨_, p2, o2⟩ := ih2 he _ hr
      cases o2 with
      | ok _ _ _ => exact hb.elim
      | error => exact ⟨_, .many1Later p1 p2 trivial, .error⟩
      | failure => exact ⟨_, .many1Later p1 p2 trivial, .failure⟩
  | not h1 ih =>
    change RelS g R V raws anys dead sim shapes posts _ _ _
    have ih := ih.s
    intro he l' hl
    obtain ⟨_, p1, o1⟩ := ih he l' hl
    cases o1 with
    | error => exact ⟨_, .not p1, .ok hl (by simp) c.vals.nil⟩
  | notThere h1 ih =>
    change RelS g R V raws anys dead sim shapes posts _ _ _
    have ih := ih.s
    intro he l' hl
    obtain ⟨_, p1, o1⟩ := ih he l' hl
    cases o1 with
    | ok _ _ _ => exact ⟨_, .notThere p1, .error⟩
  | notFailure h1 ih =>
    change RelS g R V raws anys dead sim shapes posts _ _ _
    have ih := ih.s
    intro he l' hl
    obtain ⟨_, p1, o1⟩ := ih he l' hl
    cases o1 with
    | failure => exact ⟨_, .notFailure p1, .failure⟩
  | cut h1 hne ih =>
    change RelS g R V raws anys dead sim shapes posts _ _ _
    have ih := ih.s
    intro he l' hl
    obtain ⟨_, p1, o1⟩ := ih he l' hl
    exact ⟨_, .cut p1 (by cases o1 <;> simp_all), o1⟩
  | cutError h1 ih =>
    change RelS g R V raws anys dead sim shapes posts _ _ _
    have ih := ih.s
    intro he l' hl
    obtain ⟨_, p1, o1⟩ := ih he l' hl
    cases o1 with
    | error => exact ⟨_, .cutError p1, .failure⟩
  | must h1 hn ih =>
    change RelS g R V raws anys dead sim shapes posts _ _ _
    have ih := ih.s
    intro he l' hl
    obtain ⟨_, p1, o1⟩ := ih he l' hl
    cases o1 with
    | ok hr hi hv => exact ⟨_, .must p1 (by omega), .ok hr hi hv⟩
  | mustEmpty h1 hn ih =>
    change RelS g R V raws anys dead sim shapes posts _ _ _
    have ih := ih.s
    intro he l' hl
    obtain ⟨_, p1, o1⟩ := ih he l' hl
    cases o1 with
    | ok hr hi hv => exact ⟨_, .mustEmpty p1 (hi.mp hn), .error⟩
  | mustBad h1 hb ih =>
    change RelS g R V raws anys dead sim shapes posts _ _ _
    have ih := ih.s
    intro he l' hl
    obtain ⟨_, p1, o1⟩ := ih he l' hl
    cases o1 with
    | ok _ _ _ => exact hb.elim
    | error => exact ⟨_, .mustBad p1 trivial, .error⟩
    | failure => exact ⟨_, .mustBad p1 trivial, .failure⟩
  | @post pc a s r vs h1 hc ih =>
    change RelS g R V raws anys dead sim shapes posts _ _ _
    have ih := ih.s
    intro he l' hl
    obtain ⟨n, b, rfl, hp, hb⟩ := relT_post he
    obtain ⟨_, p1, o1⟩ := ih hb l' hl
    cases o1 with
    | ok hr hi hv =>
      obtain ⟨us, rfl⟩ := peg_node_shape h1
      obtain ⟨us', rfl⟩ := peg_node_shape p1
      exact ⟨_, .post p1 (by rw [← c.vals.post hp hv]; exact hc), .ok hr hi hv⟩
  | @postViolated pc a s r vs h1 hc ih =>
    change RelS g R V raws anys dead sim shapes posts _ _ _
    have ih := ih.s
    intro he l' hl
    obtain ⟨n, b, rfl, hp, hb⟩ := relT_post he
    obtain ⟨_, p1, o1⟩ := ih hb l' hl
    cases o1 with
    | ok hr hi hv =>
      obtain ⟨us, rfl⟩ := peg_node_shape h1
      obtain ⟨us', rfl⟩ := peg_node_shape p1
      exact ⟨_, .postViolated p1 (by rw [← c.vals.post hp hv]; exact hc), .error⟩
  | @postBad pc a s o h1 hb ih =>
    change RelS g R V raws anys dead sim shapes posts _ _ _
    have ih := ih.s
    intro he l' hl
    obtain ⟨n, b, rfl, hp, hb'⟩ := relT_post he
    obtain ⟨_, p1, o1⟩ := ih hb' l' hl
    cases o1 with
    | ok _ _ _ => exact hb.elim
    | error => exact ⟨_, .postBad p1 trivial, .error⟩
    | failure => exact ⟨_, .postBad p1 trivial, .failure⟩
  | wrap h1 ihD =>
    have ih := ihD.s
    refine ⟨?_, _, h1, ihD⟩
    intro he l' hl
    simp only [relT, Bool.and_eq_true] at he
    obtain ⟨_, p1, o1⟩ := ih he.2 l' hl
    cases o1 with
    | ok hr hi hv => exact ⟨_, .wrap p1, .ok hr hi (c.vals.build he.1 hv)⟩
  | wrapBad h1 hb ihD =>
    have ih := ihD.s
    refine ⟨?_, _, h1, ihD⟩
    intro he l' hl
    simp only [relT, Bool.and_eq_true] at he
    obtain ⟨_, p1, o1⟩ := ih he.2 l' hl
    cases o1 with
    | ok _ _ _ => exact hb.elim
    | error => exact ⟨_, .wrapBad p1 trivial, .error⟩
    | failure => exact ⟨_, .wrapBad p1 trivial, .failure⟩
  | @raw x t s hx =>
    change RelS g R V raws anys dead sim shapes posts _ _ _
    intro he l' hl
    exact c.isRaw _ _ _ _ he hl (.raw hx)
  | @rawOther x t s hx =>
    change RelS g R V raws anys dead sim shapes posts _ _ _
    intro he l' hl
    exact c.isRaw _ _ _ _ he hl (.rawOther hx)
  | rawEnd =>
    change RelS g R V raws anys dead sim shapes posts _ _ _
    intro he l' hl
    exact c.isRaw _ _ _ _ he hl .rawEnd
  | any =>
    change RelS g R V raws anys dead sim shapes posts _ _ _
    intro he l' hl
    exact c.isAny _ _ _ _ he hl .any
  | anyEnd =>
    change RelS g R V raws anys dead sim shapes posts _ _ _
    intro he l' hl
    exact c.isAny _ _ _ _ he hl .anyEnd
  | tillEnd h1 ih =>
    change RelS g R V raws anys dead sim shapes posts _ _ _
    have ih := ih.s
    intro he l' hl
    simp only [relT, Bool.and_eq_true] at he
    obtain ⟨_, p1, o1⟩ := ih he.2 l' hl
    cases o1 with
    | ok hr hi hv => exact ⟨_, .tillEnd p1, .ok hr hi (c.vals.append (c.vals.many c.vals.nil) hv)⟩
  | tillMore h0 h1 hn h2 ih0 ih1 ih2 =>
    change RelS g R V raws anys dead sim shapes posts _ _ _
    have ih0 := ih0.s
    have ih1 := ih1.s
    have ih2 := ih2.s
    intro he l' hl
    have he' := he
    simp only [relT, Bool.and_eq_true] at he
    obtain ⟨_, p0, o0⟩ := ih0 he.2 l' hl
    obtain ⟨_, p1, o1⟩ := ih1 he.1 l' hl
    cases o0 with
    | error =>
    cases o1 with
    | ok hr hi hv =>
      obtain ⟨_, p2, o2⟩ := ih2 he' _ hr
      cases o2 with
      | ok hr2 hi2 hv2 =>
        have hs : ∃ us' ws', _ = Val.many us' :: ws' := peg_till_shape p2
        obtain ⟨us', ws', rfl⟩ := hs
        refine ⟨_, .tillMore p0 p1 (by omega) p2, .ok hr2 ?_ (c.vals.more hv hv2)⟩
        have := Peg.shorter h1
        have := Peg.shorter h2
        have := Peg.shorter p1
        have := Peg.shorter p2
        omega
  | tillFailure h1 ih =>
    change RelS g R V raws anys dead sim shapes posts _ _ _
    have ih := ih.s
    intro he l' hl
    simp only [relT, Bool.and_eq_true] at he
    obtain ⟨_, p1, o1⟩ := ih he.2 l' hl
    cases o1 with
    | failure => exact ⟨_, .tillFailure p1, .failure⟩
  | tillItem h0 h1 hb ih0 ih1 =>
    change RelS g R V raws anys dead sim shapes posts _ _ _
    have ih0 := ih0.s
    have ih1 := ih1.s
    intro he l' hl
    simp only [relT, Bool.and_eq_true] at he
    obtain ⟨_, p0, o0⟩ := ih0 he.2 l' hl
    obtain ⟨_, p1, o1⟩ := ih1 he.1 l' hl
    cases o0 with
    | error =>
    cases o1 with
    | ok _ _ _ => exact hb.elim
    | error => exact ⟨_, .tillItem p0 p1 trivial, .error⟩
    | failure => exact ⟨_, .tillItem p0 p1 trivial, .failure⟩
  | tillStuck h0 h1 hn ih0 ih1 =>
    change RelS g R V raws anys dead sim shapes posts _ _ _
    have ih0 := ih0.s
    have ih1 := ih1.s
    intro he l' hl
    simp only [relT, Bool.and_eq_true] at he
    obtain ⟨_, p0, o0⟩ := ih0 he.2 l' hl
    obtain ⟨_, p1, o1⟩ := ih1 he.1 l' hl
    cases o0 with
    | error =>
    cases o1 with
    | ok hr hi hv => exact ⟨_, .tillStuck p0 p1 (hi.mp hn), .error⟩
  | tillLater h0 h1 hn h2 hb ih0 ih1 ih2 =>
    change RelS g R V raws anys dead sim shapes posts _ _ _
    have ih0 := ih0.s
    have ih1 := ih1.s
    have ih2 := ih2.s
    intro he l' hl
    have he' := he
    simp only [relT, Bool.and_eq_true] at he
    obtain ⟨_, p0, o0⟩ := ih0 he.2 l' hl
    obtain ⟨_, p1, o1⟩ := ih1 he.1 l' hl
    cases o0 with
    | error =>
    cases o1 with
    | ok hr hi hv =>
      obtain ⟨_, p2, o2⟩ := ih2 he' _ hr
      cases o2 with
      | ok _ _ _ => exact hb.elim
      | error => exact ⟨_, .tillLater p0 p1 (by omega) p2 trivial, .error⟩
      | failure => exact ⟨_, .tillLater p0 p1 (by omega) p2 trivial, .failure⟩

theorem peg_rel {g : CRule → Gr} {R : List Token → List Token → Prop} {V : List Val → List Val → Prop} {raws : Selmaho → Bool} {anys : Bool}
    {dead base sim : CRule → Bool} {shapes : CShape → Bool} {posts : PostCond → NodeName → Bool}
    (c : RelCert g R V raws anys dead base sim shapes posts) {e : Gr} {l : List Token} {o : Outcome} (h : Peg g e l o) :
    relT raws anys dead sim shapes posts e = true → ∀ l', R l l' → ∃ o', Peg g e l' o' ∧ RelOut R V l l' o o' :=
  (peg_rel_deep c h).s

end Sneturfahi
