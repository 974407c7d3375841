import Verif.Spec.Swap
import Verif.Proof.Dup

/-!
# A piece exchanged for another: the argument

Two texts are the same but for a piece that begins with a word of certain selma'o. If one production reads the piece, in both, and
no other production reads anything of it, then the texts are read in the same way.
-/

namespace Sneturfahi.Block

open Spec Dup

/-- What is claimed about productions. -/
structure Tabs where
  /-- selma'o of the first words of the pieces -/
  kinds : List Selmaho
  /-- the production that reads the piece -/
  sp : CRule
  /-- nothing but `sp` begins to read the piece -/
  ok : CRule → Bool
  /-- the nodes made of a piece -/
  names : List NodeName

variable (k : Tabs)

/-- Nothing but `sp` begins to read the piece. -/
def okG : Gr → Bool
  | .eps => true
  | .raw x => !k.kinds.contains x
  | .any _ => false
  | .call r => offR r || r == k.sp || k.ok r
  | .seq a b => offG (.seq a b) || (okG a && okG b)
  | .alt a b => okG a && okG b
  | .opt a => okG a
  | .many0 a => okG a
  | .many1 a => okG a
  | .manyTill _ _ => false
  | .not a => okG a
  | .cut a => okG a
  | .mustConsume _ a => okG a
  | .postCond .anyFieldPresent (.wrap (.node n) a) => !k.names.contains n && okG a
  | .postCond _ _ => false
  | .wrap _ a => okG a

/-- Does not get just to the end of something that does not end with `ba'e`. -/
def stopG : Gr → Bool
  | .many0 (.call (.word .Bahe)) => true
  | _ => false

/-- The same where something comes before the piece. -/
def wkG : Gr → Bool
  | .eps => true
  | .raw _ => true
  | .any _ => false
  | .call r => !hidden r
  | .seq a b => offG (.seq a b) || (wkG a && wkG b && (okG k b || stopG a))
  | .alt a b => wkG a && wkG b
  | .opt a => wkG a
  | .many0 a => wkG a && okG k a
  | .many1 a => wkG a && okG k a
  | .manyTill _ _ => false
  | .not a => wkG a
  | .cut a => wkG a
  | .mustConsume _ a => wkG a
  | .postCond .anyFieldPresent (.wrap (.node n) a) => !k.names.contains n && wkG a
  | .postCond _ _ => false
  | .wrap _ a => wkG a

/-- What is to be checked of each production. -/
def checks (r : CRule) : Bool := offR r || hidden r || (wkG k (cst r) && (!k.ok r || okG k (cst r)))

/-- One of several values is exchanged. -/
def SwapL (R : Val → Val → Prop) (vs ws : List Val) : Prop :=
  ∃ l r v w, Swap R v w ∧ vs = l ++ v :: r ∧ ws = l ++ w :: r

variable (R : Val → Val → Prop) (P Q : List Token)

inductive Rel (x : List Token) : Outcome → Outcome → Prop
  | error : Rel x .error .error
  | failure : Rel x .failure .failure
  | before {w r : List Token} {vs : List Val} : x = w ++ r → Rel x (.ok (r ++ P) vs) (.ok (r ++ Q) vs)
  | past {y : List Token} {vs ws : List Val} : y.length < P.length → y.length < Q.length → SwapL R vs ws → Rel x (.ok y vs) (.ok y ws)

/-- Does not end with `ba'e`. -/
def NoBahe (x : List Token) : Prop := ∀ l t, x = l ++ [t] → t.selmaho ≠ .Bahe

def Good (x : List Token) (e : Gr) : Prop := (x = [] → okG k e = true) ∧ (x ≠ [] → wkG k e = true)

structure Cert : Prop where
  isP : ∃ a A, P = a :: A ∧ a.selmaho ∈ k.kinds
  isQ : ∃ a A, Q = a :: A ∧ a.selmaho ∈ k.kinds
  cleanP : Clean P
  cleanQ : Clean Q
  isSp : ∀ o, Peg cst (.call k.sp) P o → ∃ o', Peg cst (.call k.sp) Q o' ∧ Rel R P Q [] o o'
  isOk : ∀ r, checks k r = true
  hid : ∀ r, hidden r = true → k.ok r = false ∧ offR r = false ∧ r ≠ k.sp
  nodes : ∀ v w, R v w → ∃ n m fs gs, v = .node n fs ∧ w = .node m gs ∧ n ∈ k.names

variable {k R P Q}

theorem NoBahe.drop {w r : List Token} (h : NoBahe (w ++ r)) : NoBahe r := by
  intro l t hr
  exact h (w ++ l) t (by simp [hr])

theorem SwapL.left {vs ws us : List Val} (h : SwapL R vs ws) : SwapL R (vs ++ us) (ws ++ us) := by
  obtain ⟨l, r, v, w, hs, rfl, rfl⟩ := h
  exact ⟨l, r ++ us, v, w, hs, by simp, by simp⟩

theorem SwapL.right {vs ws us : List Val} (h : SwapL R vs ws) : SwapL R (us ++ vs) (us ++ ws) := by
  obtain ⟨l, r, v, w, hs, rfl, rfl⟩ := h
  exact ⟨us ++ l, r, v, w, hs, by simp, by simp⟩

theorem SwapL.one {v w : Val} (h : Swap R v w) : SwapL R [v] [w] := ⟨[], [], v, w, h, rfl, rfl⟩

theorem SwapL.many {vs ws : List Val} (h : SwapL R vs ws) : Swap R (.many vs) (.many ws) := by
  obtain ⟨l, r, v, w, hs, rfl, rfl⟩ := h
  exact .many hs

/-- What an exchange does not change. -/
theorem Swap.kind (hn : ∀ v w, R v w → ∃ n m fs gs, v = .node n fs ∧ w = .node m gs) {v w : Val} (h : Swap R v w) :
    v.present = w.present ∧ (∀ us, v = .many us → ∃ us', w = .many us' ∧ SwapL R us us') ∧ (∀ us, w = .many us → ∃ us', v = .many us') := by
  cases h with
  | here h =>
    obtain ⟨n, m, fs, gs, rfl, rfl⟩ := hn _ _ h
    exact ⟨rfl, nofun, nofun⟩
  | node h => exact ⟨rfl, nofun, nofun⟩
  | tuple h => exact ⟨rfl, nofun, nofun⟩
  | sepFirst h => exact ⟨rfl, nofun, nofun⟩
  | sepRest h => exact ⟨rfl, nofun, nofun⟩
  | @many b a v w h =>
    refine ⟨?_, ?_, ?_⟩
    · cases b <;> rfl
    · rintro us ⟨⟩; exact ⟨_, rfl, _, _, _, _, h, rfl, rfl⟩
    · rintro us ⟨⟩; exact ⟨_, rfl⟩

theorem swap_build (hn : ∀ v w, R v w → ∃ n m fs gs, v = .node n fs ∧ w = .node m gs) (sh : CShape) {vs ws : List Val} (h : SwapL R vs ws) :
    Swap R (sh.build vs) (sh.build ws) := by
  obtain ⟨l, r, v, w, hs, rfl, rfl⟩ := h
  cases sh with
  | node n => exact .node hs
  | tuple => exact .tuple hs
  | sep =>
    obtain ⟨h1, h2, h3⟩ := Swap.kind hn hs
    match l, r with
    | [], [] => exact .tuple (before := []) (after := []) hs
    | [], [.many us] => exact .sepFirst hs
    | [f], [] =>
      cases v with
      | many us =>
        obtain ⟨us', rfl, l, r, v, w, hs', rfl, rfl⟩ := h2 _ rfl
        exact .sepRest hs'
      | _ =>
        cases w with
        | many us => obtain ⟨_, h⟩ := h3 _ rfl; cases h
        | _ => exact .tuple (before := [f]) (after := []) hs
    | [], [.leaf _ _] => exact .tuple (before := []) (after := [_]) hs
    | [], [.node _ _] => exact .tuple (before := []) (after := [_]) hs
    | [], [.tuple _] => exact .tuple (before := []) (after := [_]) hs
    | [], [.sep _ _] => exact .tuple (before := []) (after := [_]) hs
    | [], f :: g :: r =>
      have : ∀ u, CShape.build .sep ([] ++ u :: f :: g :: r) = .tuple ([] ++ u :: f :: g :: r) := by
        intro u
        cases f <;> rfl
      rw [this, this]
      exact .tuple hs
    | [f], g :: r =>
      have : ∀ u, CShape.build .sep ([f] ++ u :: g :: r) = .tuple ([f] ++ u :: g :: r) := fun u => by cases u <;> rfl
      rw [this, this]
      exact .tuple hs
    | f :: g :: l, r =>
      have : ∀ u, CShape.build .sep (f :: g :: l ++ u :: r) = .tuple (f :: g :: l ++ u :: r) := by
        intro u
        cases g <;> cases l <;> rfl
      rw [this, this]
      exact .tuple hs

theorem Good.of {x : List Token} {e f : Gr} (h : Good k x e) (h1 : okG k e = true → okG k f = true) (h2 : wkG k e = true → wkG k f = true) : Good k x f :=
  ⟨fun hx => h1 (h.1 hx), fun hx => h2 (h.2 hx)⟩

/-- The second part of a sequence, after the first. -/
theorem Good.second {x w r : List Token} {a b : Gr} {vs : List Val} (h : Good k x (.seq a b)) (ho : offG (.seq a b) = false) (hx : x = w ++ r) (hB : NoBahe x)
    (ha : Peg cst a (x ++ P) (.ok (r ++ P) vs)) : Good k r b := by
  refine ⟨?_, ?_⟩
  · rintro rfl
    by_cases hx0 : x = []
    · have := h.1 hx0
      simp only [okG, ho, Bool.false_or, Bool.and_eq_true] at this
      exact this.2
    · have := h.2 hx0
      simp only [wkG, ho, Bool.false_or, Bool.and_eq_true, Bool.or_eq_true] at this
      rcases this.2 with h | h
      · exact h
      · exfalso
        have he : a = .many0 (.call (.word .Bahe)) := by
          unfold stopG at h
          split at h
          · rfl
          · cases h
        obtain ⟨bs, h1, h2⟩ := peg_bahes ha he _ _ rfl
        have hxb : x = bs := by simpa using h1
        subst hxb
        obtain ⟨l, t, rfl⟩ : ∃ l t, x = l ++ [t] := by
          rcases List.eq_nil_or_concat x with h | ⟨l, t, h⟩
          · exact absurd h hx0
          · exact ⟨l, t, by simpa using h⟩
        exact hB l t rfl (h2 t (by simp))
  · intro hr
    have := h.2 (by rintro rfl; simp at hx; exact hr hx.2)
    simp only [wkG, ho, Bool.false_or, Bool.and_eq_true] at this
    exact this.1.2

theorem Good.seq1 {x : List Token} {a b : Gr} (h : Good k x (.seq a b)) (ho : offG (.seq a b) = false) : Good k x a := by
  refine h.of ?_ ?_
  · intro h; simp only [okG, ho, Bool.false_or, Bool.and_eq_true] at h; exact h.1
  · intro h; simp only [wkG, ho, Bool.false_or, Bool.and_eq_true] at h; exact h.1.1

theorem Rel.bad {x : List Token} {o : Outcome} (h : o.Bad) : Rel R P Q x o o := by
  cases o with
  | ok => exact h.elim
  | error => exact .error
  | failure => exact .failure

theorem Rel.isBad {x : List Token} {o o' : Outcome} (h : Rel R P Q x o o') (hb : o.Bad) : o' = o := by
  cases h with
  | error => rfl
  | failure => rfl
  | before => exact hb.elim
  | past => exact hb.elim

theorem Rel.up {x w : List Token} {o o' : Outcome} (h : Rel R P Q x o o') : Rel R P Q (w ++ x) o o' := by
  cases h with
  | error => exact .error
  | failure => exact .failure
  | before hx => subst hx; exact .before (by rw [← List.append_assoc])
  | past h1 h2 h3 => exact .past h1 h2 h3

theorem fields_holds {c : PostCond} {n : NodeName} {fs gs : List Val} (hn : ∀ v w, R v w → ∃ n m fs gs, v = .node n fs ∧ w = .node m gs)
    (hc : c = .anyFieldPresent) (h : SwapL R fs gs) : c.holds [.node n fs] = c.holds [.node n gs] := by
  obtain ⟨l, r, v, w, hs, rfl, rfl⟩ := h
  subst hc
  simp only [PostCond.holds, List.any_append, List.any_cons, (Swap.kind hn hs).1]

theorem swap_fields (hk : Cert k R P Q) {n : NodeName} (hn : n ∉ k.names) {fs gs : List Val} (h : SwapL R [.node n fs] [.node n gs]) : SwapL R fs gs := by
  obtain ⟨l, r, v, w, hs, h1, h2⟩ := h
  cases l with
  | cons _ l => simp at h1
  | nil =>
    cases h1; cases h2
    cases hs with
    | here h =>
      obtain ⟨_, _, _, _, h, _, hm⟩ := hk.nodes _ _ h
      cases h
      exact absurd hm hn
    | node h => exact ⟨_, _, _, _, h, rfl, rfl⟩

theorem shorter {e : Gr} {s r : List Token} {vs : List Val} (h : Peg cst e s (.ok r vs)) : r.length ≤ s.length := by
  have := congrArg List.length (h.cuts _ _ rfl)
  simp at this; omega

theorem Cert.kinds2 (hk : Cert k R P Q) : ∀ v w, R v w → ∃ n m fs gs, v = Val.node n fs ∧ w = Val.node m gs := by
  intro v w h
  obtain ⟨n, m, fs, gs, h1, h2, _⟩ := hk.nodes v w h
  exact ⟨n, m, fs, gs, h1, h2⟩

/-- What holds of reading `e`. -/
def Claim (k : Tabs) (R : Val → Val → Prop) (P Q : List Token) (e : Gr) (l : List Token) (o : Outcome) : Prop :=
  ∀ x, l = x ++ P → Clean x → NoBahe x → Good k x e → ∃ o', Peg cst e (x ++ Q) o' ∧ Rel R P Q x o o'

theorem Cert.lt (hk : Cert k R P Q) : 0 < P.length ∧ 0 < Q.length := by
  obtain ⟨a, A, rfl, _⟩ := hk.isP
  obtain ⟨b, B, rfl, _⟩ := hk.isQ
  simp

theorem clean_app {x y : List Token} (hx : Clean x) (hy : Clean y) : Clean (x ++ y) := by
  intro t ht
  rcases List.mem_append.mp ht with h | h
  · exact hx t h
  · exact hy t h

theorem claim_off (hk : Cert k R P Q) {e : Gr} {l : List Token} {o : Outcome} (h : Peg cst e l o) (he : offG e = true) : Claim k R P Q e l o := by
  rintro x rfl hx _ _
  have e1 := off_error h (clean_app hx hk.cleanP) he
  obtain ⟨o', ho'⟩ := total e (x ++ Q)
  have e2 := off_error ho' (clean_app hx hk.cleanQ) he
  subst e1 e2
  exact ⟨_, ho', .error⟩

theorem clean_drop {x y : List Token} (h : Clean (x ++ y)) : Clean y := h.sub (by simp +contextual)

theorem Good.many {x w r : List Token} {a : Gr} (h : Good k x (.many0 a)) (hx : x = w ++ r) : Good k r (.many0 a) := by
  refine ⟨?_, ?_⟩
  · rintro rfl
    by_cases h0 : x = []
    · exact h.1 h0
    · have := h.2 h0
      simp only [wkG, Bool.and_eq_true] at this
      exact this.2
  · intro hr
    exact h.2 (by rintro rfl; simp at hx; exact hr hx.2)

theorem good_post {x : List Token} {c : PostCond} {a : Gr} (h : Good k x (.postCond c a)) :
    ∃ n b, c = .anyFieldPresent ∧ a = .wrap (.node n) b ∧ n ∉ k.names ∧ Good k x a := by
  have key : ∃ n b, c = .anyFieldPresent ∧ a = .wrap (.node n) b := by
    by_cases h0 : x = []
    · have := h.1 h0
      unfold okG at this
      grind
    · have := h.2 h0
      unfold wkG at this
      grind
  obtain ⟨n, b, rfl, rfl⟩ := key
  by_cases h0 : x = []
  · have := h.1 h0
    simp only [okG, Bool.and_eq_true, Bool.not_eq_true', List.contains_eq_mem, decide_eq_false_iff_not] at this
    exact ⟨_, _, rfl, rfl, this.1, fun _ => this.2, fun hx => absurd h0 hx⟩
  · have := h.2 h0
    simp only [wkG, Bool.and_eq_true, Bool.not_eq_true', List.contains_eq_mem, decide_eq_false_iff_not] at this
    exact ⟨_, _, rfl, rfl, this.1, fun hx => absurd hx h0, fun _ => this.2⟩

theorem claims (hk : Cert k R P Q) {e : Gr} {l : List Token} {o : Outcome} (h : Peg cst e l o) : Claim k R P Q e l o := by
  have hlt := hk.lt
  induction h with
  | eps => rintro x rfl hx hB hg; exact ⟨_, .eps, .before (w := []) rfl⟩
  | @raw y t q hy =>
    rintro x hx hC hB hg
    cases x with
    | nil =>
      obtain ⟨a, A, rfl, ha⟩ := hk.isP
      cases hx
      have := hg.1 rfl
      simp only [okG, Bool.not_eq_true'] at this
      rw [hy] at ha
      rw [List.contains_iff_mem.mpr ha] at this
      cases this
    | cons u x => cases hx; exact ⟨_, .raw hy, .before (w := [_]) rfl⟩
  | @rawOther y t q hy =>
    rintro x hx hC hB hg
    cases x with
    | nil =>
      obtain ⟨b, B, rfl, hb⟩ := hk.isQ
      refine ⟨_, .rawOther ?_, .error⟩
      rintro rfl
      have := hg.1 rfl
      simp only [okG, Bool.not_eq_true'] at this
      rw [List.contains_iff_mem.mpr hb] at this
      cases this
    | cons u x => cases hx; exact ⟨_, .rawOther hy, .error⟩
  | rawEnd =>
    rintro x hx
    have := congrArg List.length hx
    simp at this; omega
  | any => rintro x hx hC hB hg; by_cases h : x = []; exact (nomatch hg.1 h); exact (nomatch hg.2 h)
  | anyEnd => rintro x hx hC hB hg; by_cases h : x = []; exact (nomatch hg.1 h); exact (nomatch hg.2 h)
  | @call r l o h ih =>
    rintro x rfl hC hB hg
    have hc := hk.isOk r
    simp only [checks, Bool.or_eq_true, Bool.and_eq_true, Bool.not_eq_true'] at hc
    rcases hc with (h1 | h1) | ⟨h1, h2⟩
    · exact claim_off hk (.call h) (show offG (.call r) = true from h1) x rfl hC hB hg
    · exfalso
      obtain ⟨h2, h3, h4⟩ := hk.hid r h1
      by_cases h0 : x = []
      · have := hg.1 h0
        simp [okG, h2, h3, h4] at this
      · have := hg.2 h0
        simp [wkG, h1] at this
    · by_cases hsp : x = [] ∧ r = k.sp
      · obtain ⟨rfl, rfl⟩ := hsp
        exact hk.isSp _ (.call h)
      by_cases hoff : offR r = true
      · exact claim_off hk (.call h) (show offG (.call r) = true from hoff) x rfl hC hB hg
      have hg' : Good k x (cst r) := by
        refine ⟨fun h0 => ?_, fun _ => h1⟩
        have := hg.1 h0
        simp only [okG, Bool.or_eq_true, beq_iff_eq] at this
        rcases this with (h | h) | h
        · exact absurd h hoff
        · exact absurd ⟨h0, h⟩ hsp
        · rcases h2 with h2 | h2
          · rw [h] at h2; cases h2
          · exact h2
      obtain ⟨o', ho', hr⟩ := ih x rfl hC hB hg'
      exact ⟨_, .call ho', hr⟩
  | @seq a b l r q vs ws h1 h2 i1 i2 =>
    rintro x rfl hC hB hg
    cases hoff : offG (.seq a b) with
    | true => exact claim_off hk (.seq h1 h2) hoff x rfl hC hB hg
    | false =>
      obtain ⟨o', ho', hr⟩ := i1 x rfl hC hB (hg.seq1 hoff)
      cases hr with
      | @before w r vs hx =>
        have hg2 := hg.second hoff hx hB h1
        subst hx
        obtain ⟨o2, ho2, hr2⟩ := i2 r rfl (clean_drop hC) hB.drop hg2
        cases hr2 with
        | before hx => subst hx; exact ⟨_, .seq ho' ho2, .before (by rw [← List.append_assoc])⟩
        | past h3 h4 h5 => exact ⟨_, .seq ho' ho2, .past h3 h4 h5.right⟩
      | past h3 h4 h5 =>
        have := shorter h2
        exact ⟨_, .seq ho' h2, .past (by omega) (by omega) h5.left⟩
  | @seqFirst a b l o h1 hb i1 =>
    rintro x rfl hC hB hg
    cases hoff : offG (.seq a b) with
    | true => exact claim_off hk (.seqFirst h1 hb) hoff x rfl hC hB hg
    | false =>
      obtain ⟨o', ho', hr⟩ := i1 x rfl hC hB (hg.seq1 hoff)
      cases hr.isBad hb
      exact ⟨_, .seqFirst ho' hb, Rel.bad hb⟩
  | @seqSecond a b l r vs o h1 h2 hb i1 i2 =>
    rintro x rfl hC hB hg
    cases hoff : offG (.seq a b) with
    | true => exact claim_off hk (.seqSecond h1 h2 hb) hoff x rfl hC hB hg
    | false =>
      obtain ⟨o', ho', hr⟩ := i1 x rfl hC hB (hg.seq1 hoff)
      cases hr with
      | @before w r vs hx =>
        have hg2 := hg.second hoff hx hB h1
        subst hx
        obtain ⟨o2, ho2, hr2⟩ := i2 r rfl (clean_drop hC) hB.drop hg2
        cases hr2.isBad hb
        exact ⟨_, .seqSecond ho' ho2 hb, Rel.bad hb⟩
      | past h3 h4 h5 => exact ⟨_, .seqSecond ho' h2 hb, Rel.bad hb⟩
  | @altFirst a b l o h1 hne i1 =>
    rintro x rfl hC hB hg
    obtain ⟨o', ho', hr⟩ := i1 x rfl hC hB (hg.of (by simp +contextual [okG]) (by simp +contextual [wkG]))
    refine ⟨_, .altFirst ho' ?_, hr⟩
    rintro rfl
    cases hr
    exact hne rfl
  | @altSecond a b l o h1 h2 i1 i2 =>
    rintro x rfl hC hB hg
    obtain ⟨o', ho', hr⟩ := i1 x rfl hC hB (hg.of (by simp +contextual [okG]) (by simp +contextual [wkG]))
    cases hr
    obtain ⟨o2, ho2, hr2⟩ := i2 x rfl hC hB (hg.of (by simp +contextual [okG]) (by simp +contextual [wkG]))
    exact ⟨_, .altSecond ho' ho2, hr2⟩
  | optPresent h1 i1 =>
    rintro x rfl hC hB hg
    obtain ⟨o', ho', hr⟩ := i1 x rfl hC hB (hg.of id id)
    cases hr with
    | before hx => exact ⟨_, .optPresent ho', .before hx⟩
    | past h3 h4 h5 => exact ⟨_, .optPresent ho', .past h3 h4 (.one h5.many)⟩
  | optAbsent h1 i1 =>
    rintro x rfl hC hB hg
    obtain ⟨o', ho', hr⟩ := i1 x rfl hC hB (hg.of id id)
    cases hr
    exact ⟨_, .optAbsent ho', .before (w := []) rfl⟩
  | optFailure h1 i1 =>
    rintro x rfl hC hB hg
    obtain ⟨o', ho', hr⟩ := i1 x rfl hC hB (hg.of id id)
    cases hr
    exact ⟨_, .optFailure ho', .failure⟩
  | many0End h1 i1 =>
    rintro x rfl hC hB hg
    obtain ⟨o', ho', hr⟩ := i1 x rfl hC hB (hg.of (by simp [okG]) (by simp +contextual [wkG]))
    cases hr
    exact ⟨_, .many0End ho', .before (w := []) rfl⟩
  | many0Failure h1 i1 =>
    rintro x rfl hC hB hg
    obtain ⟨o', ho', hr⟩ := i1 x rfl hC hB (hg.of (by simp [okG]) (by simp +contextual [wkG]))
    cases hr
    exact ⟨_, .many0Failure ho', .failure⟩
  | @many0Stuck a l r vs h1 hl i1 =>
    rintro x rfl hC hB hg
    obtain ⟨o', ho', hr⟩ := i1 x rfl hC hB (hg.of (by simp [okG]) (by simp +contextual [wkG]))
    cases hr with
    | before hx => exact ⟨_, .many0Stuck ho' (by simp at hl ⊢; omega), .error⟩
    | past h3 h4 h5 => simp at hl; omega
  | @many0More a l r q vs ws h1 hl h2 i1 i2 =>
    rintro x rfl hC hB hg
    obtain ⟨o', ho', hr⟩ := i1 x rfl hC hB (hg.of (by simp [okG]) (by simp +contextual [wkG]))
    cases hr with
    | @before w r vs hx =>
      have hg2 := hg.many hx
      subst hx
      obtain ⟨o2, ho2, hr2⟩ := i2 r rfl (clean_drop hC) hB.drop hg2
      cases hr2 with
      | before hx => subst hx; exact ⟨_, .many0More ho' (by simp at hl ⊢; omega) ho2, .before (by rw [← List.append_assoc])⟩
      | past h3 h4 h5 =>
        obtain ⟨us, rfl⟩ := peg_many0_ok ho2
        refine ⟨_, .many0More ho' (by simp at hl ⊢; omega) ho2, .past h3 h4 (.one (SwapL.many (SwapL.right ?_)))⟩
        obtain ⟨l, r, v, w, hs, e1, e2⟩ := h5
        cases l with
        | cons _ l => simp at e1
        | nil =>
          cases e1; cases e2
          obtain ⟨_, ⟨⟩, h⟩ := (Swap.kind hk.kinds2 hs).2.1 _ rfl
          exact h
    | past h3 h4 h5 =>
      have := shorter h2
      exact ⟨_, .many0More ho' (by simp; omega) h2, .past (by omega) (by omega) (.one (SwapL.many h5.left))⟩
  | @many0Later a l r vs o h1 hl h2 hb i1 i2 =>
    rintro x rfl hC hB hg
    obtain ⟨o', ho', hr⟩ := i1 x rfl hC hB (hg.of (by simp [okG]) (by simp +contextual [wkG]))
    cases hr with
    | @before w r vs hx =>
      have hg2 := hg.many hx
      subst hx
      obtain ⟨o2, ho2, hr2⟩ := i2 r rfl (clean_drop hC) hB.drop hg2
      cases hr2.isBad hb
      exact ⟨_, .many0Later ho' (by simp at hl ⊢; omega) ho2 hb, Rel.bad hb⟩
    | past h3 h4 h5 => exact ⟨_, .many0Later ho' (by simp; omega) h2 hb, Rel.bad hb⟩
  | @many1 a l r q vs ws h1 h2 i1 i2 =>
    rintro x rfl hC hB hg
    have hg0 : Good k x (.many0 a) := hg.of id id
    obtain ⟨o', ho', hr⟩ := i1 x rfl hC hB (hg0.of (by simp [okG]) (by simp +contextual [wkG]))
    cases hr with
    | @before w r vs hx =>
      have hg2 := hg0.many hx
      subst hx
      obtain ⟨o2, ho2, hr2⟩ := i2 r rfl (clean_drop hC) hB.drop hg2
      cases hr2 with
      | before hx => subst hx; exact ⟨_, .many1 ho' ho2, .before (by rw [← List.append_assoc])⟩
      | past h3 h4 h5 =>
        obtain ⟨us, rfl⟩ := peg_many0_ok ho2
        refine ⟨_, .many1 ho' ho2, .past h3 h4 (.one (SwapL.many (SwapL.right ?_)))⟩
        obtain ⟨l, r, v, w, hs, e1, e2⟩ := h5
        cases l with
        | cons _ l => simp at e1
        | nil =>
          cases e1; cases e2
          obtain ⟨_, ⟨⟩, h⟩ := (Swap.kind hk.kinds2 hs).2.1 _ rfl
          exact h
    | past h3 h4 h5 =>
      have := shorter h2
      exact ⟨_, .many1 ho' h2, .past (by omega) (by omega) (.one (SwapL.many h5.left))⟩
  | @many1First a l o h1 hb i1 =>
    rintro x rfl hC hB hg
    obtain ⟨o', ho', hr⟩ := i1 x rfl hC hB (hg.of (by simp [okG]) (by simp +contextual [wkG]))
    cases hr.isBad hb
    exact ⟨_, .many1First ho' hb, Rel.bad hb⟩
  | @many1Later a l r vs o h1 h2 hb i1 i2 =>
    rintro x rfl hC hB hg
    have hg0 : Good k x (.many0 a) := hg.of id id
    obtain ⟨o', ho', hr⟩ := i1 x rfl hC hB (hg0.of (by simp [okG]) (by simp +contextual [wkG]))
    cases hr with
    | @before w r vs hx =>
      have hg2 := hg0.many hx
      subst hx
      obtain ⟨o2, ho2, hr2⟩ := i2 r rfl (clean_drop hC) hB.drop hg2
      cases hr2.isBad hb
      exact ⟨_, .many1Later ho' ho2 hb, Rel.bad hb⟩
    | past h3 h4 h5 => exact ⟨_, .many1Later ho' h2 hb, Rel.bad hb⟩
  | tillEnd => rintro x hx hC hB hg; by_cases h : x = []; exact (nomatch hg.1 h); exact (nomatch hg.2 h)
  | tillMore => rintro x hx hC hB hg; by_cases h : x = []; exact (nomatch hg.1 h); exact (nomatch hg.2 h)
  | tillFailure => rintro x hx hC hB hg; by_cases h : x = []; exact (nomatch hg.1 h); exact (nomatch hg.2 h)
  | tillItem => rintro x hx hC hB hg; by_cases h : x = []; exact (nomatch hg.1 h); exact (nomatch hg.2 h)
  | tillStuck => rintro x hx hC hB hg; by_cases h : x = []; exact (nomatch hg.1 h); exact (nomatch hg.2 h)
  | tillLater => rintro x hx hC hB hg; by_cases h : x = []; exact (nomatch hg.1 h); exact (nomatch hg.2 h)
  | not h1 i1 =>
    rintro x rfl hC hB hg
    obtain ⟨o', ho', hr⟩ := i1 x rfl hC hB (hg.of id id)
    cases hr
    exact ⟨_, .not ho', .before (w := []) rfl⟩
  | notThere h1 i1 =>
    rintro x rfl hC hB hg
    obtain ⟨o', ho', hr⟩ := i1 x rfl hC hB (hg.of id id)
    cases hr <;> exact ⟨_, .notThere ho', .error⟩
  | notFailure h1 i1 =>
    rintro x rfl hC hB hg
    obtain ⟨o', ho', hr⟩ := i1 x rfl hC hB (hg.of id id)
    cases hr
    exact ⟨_, .notFailure ho', .failure⟩
  | @cut a l o h1 hne i1 =>
    rintro x rfl hC hB hg
    obtain ⟨o', ho', hr⟩ := i1 x rfl hC hB (hg.of id id)
    refine ⟨_, .cut ho' ?_, hr⟩
    rintro rfl
    cases hr
    exact hne rfl
  | cutError h1 i1 =>
    rintro x rfl hC hB hg
    obtain ⟨o', ho', hr⟩ := i1 x rfl hC hB (hg.of id id)
    cases hr
    exact ⟨_, .cutError ho', .failure⟩
  | must h1 hl i1 =>
    rintro x rfl hC hB hg
    obtain ⟨o', ho', hr⟩ := i1 x rfl hC hB (hg.of id id)
    cases hr with
    | before hx => exact ⟨_, .must ho' (by simp at hl ⊢; omega), .before hx⟩
    | past h3 h4 h5 => exact ⟨_, .must ho' (by simp; omega), .past h3 h4 h5⟩
  | mustEmpty h1 hl i1 =>
    rintro x rfl hC hB hg
    obtain ⟨o', ho', hr⟩ := i1 x rfl hC hB (hg.of id id)
    cases hr with
    | before hx => exact ⟨_, .mustEmpty ho' (by simp at hl ⊢; omega), .error⟩
    | past h3 h4 h5 => simp at hl; omega
  | mustBad h1 hb i1 =>
    rintro x rfl hC hB hg
    obtain ⟨o', ho', hr⟩ := i1 x rfl hC hB (hg.of id id)
    cases hr.isBad hb
    exact ⟨_, .mustBad ho' hb, Rel.bad hb⟩
  | @post c a l r vs h1 hc i1 =>
    rintro x rfl hC hB hg
    obtain ⟨n, a, rfl, rfl, hn, hg'⟩ := good_post hg
    obtain ⟨o', ho', hr⟩ := i1 x rfl hC hB hg'
    cases hr with
    | before hx => exact ⟨_, .post ho' hc, .before hx⟩
    | past h3 h4 h5 =>
      obtain ⟨us, hu, rfl⟩ := peg_wrap_ok h1
      obtain ⟨us', hu', rfl⟩ := peg_wrap_ok ho'
      exact ⟨_, .post ho' (by rw [← hc]; exact (fields_holds hk.kinds2 rfl (swap_fields hk hn h5)).symm), .past h3 h4 h5⟩
  | @postViolated c a l r vs h1 hc i1 =>
    rintro x rfl hC hB hg
    obtain ⟨n, a, rfl, rfl, hn, hg'⟩ := good_post hg
    obtain ⟨o', ho', hr⟩ := i1 x rfl hC hB hg'
    cases hr with
    | before hx => exact ⟨_, .postViolated ho' hc, .error⟩
    | past h3 h4 h5 =>
      obtain ⟨us, hu, rfl⟩ := peg_wrap_ok h1
      obtain ⟨us', hu', rfl⟩ := peg_wrap_ok ho'
      exact ⟨_, .postViolated ho' (by rw [← hc]; exact (fields_holds hk.kinds2 rfl (swap_fields hk hn h5)).symm), .error⟩
  | @postBad c a l o h1 hb i1 =>
    rintro x rfl hC hB hg
    obtain ⟨n, a, rfl, rfl, hn, hg'⟩ := good_post hg
    obtain ⟨o', ho', hr⟩ := i1 x rfl hC hB hg'
    cases hr.isBad hb
    exact ⟨_, .postBad ho' hb, Rel.bad hb⟩
  | wrap h1 i1 =>
    rintro x rfl hC hB hg
    obtain ⟨o', ho', hr⟩ := i1 x rfl hC hB (hg.of id id)
    cases hr with
    | before hx => exact ⟨_, .wrap ho', .before hx⟩
    | past h3 h4 h5 => exact ⟨_, .wrap ho', .past h3 h4 (.one (swap_build hk.kinds2 _ h5))⟩
  | wrapBad h1 hb i1 =>
    rintro x rfl hC hB hg
    obtain ⟨o', ho', hr⟩ := i1 x rfl hC hB (hg.of id id)
    cases hr.isBad hb
    exact ⟨_, .wrapBad ho' hb, Rel.bad hb⟩

end Sneturfahi.Block
