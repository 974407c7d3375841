import Verif.Proof.CstNai
import Verif.Proof.CstPlace
import Verif.Spec.Elide

/-!
# Leaving out the last word: the argument

A certificate on the productions (tables of which productions may succeed on the last word alone, may take it in an optional part,
...) is shown to be enough, by induction over how the text is read.
-/

namespace Sneturfahi.Elide

open Spec

theorem droppedL_append {t : Token} {a a' : List Val} (h : DroppedL t a a') (b : List Val) : DroppedL t (a ++ b) (a' ++ b) := by
  refine DroppedL.rec (motive_1 := fun _ _ _ => True) (motive_2 := fun a a' _ => DroppedL t (a ++ b) (a' ++ b))
    ?_ ?_ ?_ ?_ ?_ ?_ ?_ ?_ h <;> intros <;> try trivial
  · exact .head ‹_›
  · exact .tail ‹_›

theorem droppedL_prepend {t : Token} {a a' : List Val} (h : DroppedL t a a') (b : List Val) : DroppedL t (b ++ a) (b ++ a') := by
  induction b with
  | nil => exact h
  | cons x b ih => exact .tail ih

theorem dropped_build {t : Token} {a a' : List Val} (h : DroppedL t a a') (sh : CShape) : Dropped t (sh.build a) (sh.build a') := by
  cases sh with
  | node n => exact .node h
  | tuple => exact .tuple h
  | sep =>
    cases h with
    | @head v v' vs h =>
      rcases vs with _ | ⟨w, _ | ⟨w', ws⟩⟩
      · exact .tuple (.head h)
      · cases w <;> first | exact .sepFirst h | exact .tuple (.head h)
      · cases w <;> exact .tuple (.head h)
    | @tail v vs vs' h =>
      cases h with
      | @head w w' vs h =>
        cases vs with
        | nil =>
          cases h with
          | part h => exact .sepRest (.part h)
          | many h => exact .sepRest (.many h)
          | node h => exact .tuple (.tail (.head (.node h)))
          | tuple h => exact .tuple (.tail (.head (.tuple h)))
          | sepFirst h => exact .tuple (.tail (.head (.sepFirst h)))
          | sepRest h => exact .tuple (.tail (.head (.sepRest h)))
        | cons u vs => cases h <;> exact .tuple (.tail (.head (by constructor; assumption)))
      | @tail w vs vs' h =>
        cases h with
        | head h => cases w <;> exact .tuple (.tail (.tail (.head h)))
        | tail h => cases w <;> exact .tuple (.tail (.tail (.tail h)))

/-- What is claimed about productions, as tables. -/
structure Tabs where
  /-- the words left out -/
  closer : Selmaho → Bool
  /-- words that do not occur -/
  out : Selmaho → Bool
  /-- words that do not come last -/
  fin : Selmaho → Bool
  /-- never succeeds -/
  dead : CRule → Bool
  /-- may succeed on the last word alone and not without it -/
  gone : CRule → Bool
  /-- may take the last word in an optional part -/
  drop : CRule → Bool
  /-- may succeed at the end -/
  null : CRule → Bool
  /-- may take the last word if it is alone -/
  take : CRule → Bool

variable (k : Tabs)

def deadG : Gr → Bool
  | .call r => k.dead r
  | .raw x => k.out x
  | .seq a b => deadG a || deadG b
  | .alt a b => deadG a && deadG b
  | .many1 a => deadG a
  | .mustConsume _ a => deadG a
  | .cut a => deadG a
  | .postCond _ a => deadG a
  | .wrap _ a => deadG a
  | _ => false

def nullG : Gr → Bool
  | .raw _ => false
  | .any _ => false
  | .call r => k.null r
  | .seq a b => nullG a && nullG b
  | .alt a b => nullG a || nullG b
  | .many1 a => nullG a
  | .mustConsume _ _ => false
  | .postCond _ a => nullG a
  | .wrap _ a => nullG a
  | _ => true

/-- Does not fail for good at the end. -/
def calmG : Gr → Bool
  | .seq a b => calmG a && (calmG b || !nullG k a)
  | .alt a b => calmG a && calmG b
  | .opt a => calmG a
  | .many0 a => calmG a
  | .many1 a => calmG a
  | .manyTill _ _ => false
  | .not a => calmG a
  | .cut _ => false
  | .mustConsume _ a => calmG a
  | .postCond _ a => calmG a
  | .wrap _ a => calmG a
  | _ => true

def takeG : Gr → Bool
  | .eps => false
  | .not _ => false
  | .raw x => k.closer x
  | .call r => k.take r
  | .seq a b => (takeG a && nullG k b) || (nullG k a && takeG b)
  | .alt a b => takeG a || takeG b
  | .opt a => takeG a
  | .many0 a => takeG a
  | .many1 a => takeG a
  | .mustConsume _ a => takeG a
  | .cut a => takeG a
  | .postCond _ a => takeG a
  | .wrap _ a => takeG a
  | _ => true

def goneG : Gr → Bool
  | .eps => false
  | .not _ => false
  | .opt _ => false
  | .many0 _ => false
  | .cut _ => false
  | .raw x => k.closer x
  | .call r => k.gone r && !k.dead r
  | .seq a b => (!(deadG k a || deadG k b)) && ((goneG a && nullG k b) || (nullG k a && goneG b))
  | .alt a b => goneG a || goneG b
  | .many1 a => goneG a
  | .mustConsume _ a => goneG a || takeG k a
  | .postCond _ a => goneG a
  | .wrap _ a => goneG a
  | _ => true

def dropG : Gr → Bool
  | .eps => false
  | .not _ => false
  | .raw _ => false
  | .any _ => false
  | .call r => k.drop r
  | .seq a b => dropG a || dropG b
  | .alt a b => dropG a || dropG b
  | .opt a => dropG a || goneG k a
  | .many0 a => dropG a
  | .many1 a => dropG a
  | .mustConsume _ a => dropG a
  | .cut a => dropG a
  | .postCond _ a => dropG a
  | .wrap _ a => dropG a
  | _ => true

/-- Does not apply, whatever comes. -/
def offG : Gr → Bool
  | .call (.word x) => k.out x
  | .wrap _ a => offG a
  | .seq a _ => offG a
  | .alt a b => offG a && offG b
  | _ => false

/-- Takes all that is left only if nothing is left. -/
def stopG : Gr → Bool
  | .not _ => true
  | .many0 (.call (.word .Bahe)) => true
  | .opt (.call (.word .Bahe)) => true
  | .call (.word x) => k.fin x
  | _ => false

def okG : Gr → Bool
  | .seq a b => offG k a || ((!goneG k b || stopG k a || deadG k a) && (!goneG k a || calmG k b) && okG a && okG b)
  | .alt a b => (!goneG k a || (!nullG k b && calmG k b)) && okG a && okG b
  | .opt a => okG a
  | .many0 a => !goneG k a && !nullG k a && calmG k a && okG a
  | .many1 a => !goneG k a && !nullG k a && calmG k a && okG a
  | .manyTill _ _ => false
  | .not a => !goneG k a && okG a
  | .cut a => !goneG k a && okG a
  | .mustConsume _ a => okG a
  | .postCond _ a => !dropG k a && okG a
  | .wrap _ a => okG a
  | _ => true

/-- The tables are right. -/
structure Cert (t : Token) (P : List Token → Prop) : Prop where
  isCloser : ∀ x, k.closer x = false → t.selmaho ≠ x
  notOut : ∀ x, k.out x = true → t.selmaho ≠ x
  tail : ∀ w r, P (w ++ r) → P r
  isOut : ∀ s x u, P s → k.out x = true → u ∈ s → u.selmaho ≠ x
  last : ∀ s u, P s → s.getLast? = some u → u.selmaho ≠ .Bahe
  isFin : ∀ s x vs, P s → k.fin x = true → ¬ Peg cst (.call (.word x)) s (.ok [] vs)
  outDead : ∀ x, k.out x = true → k.dead (.word x) = true
  isDead : ∀ r, k.dead r = true → deadG k (cst r) = true
  isGone : ∀ r, goneG k (cst r) = true → deadG k (.call r) = false → k.gone r = true
  isDrop : ∀ r, dropG k (cst r) = true → k.drop r = true
  isNull : ∀ r, k.null r = false → Peg cst (.call r) [] .error
  noFail : ∀ r o, Peg cst (.call r) [] o → o ≠ .failure
  isTake : ∀ r, takeG k (cst r) = true → k.take r = true
  isOk : ∀ r, okG k (cst r) = true

variable {k} {t : Token} {P : List Token → Prop}

theorem never (hk : Cert k t P) {e : Gr} {s : List Token} {o : Outcome} (h : Peg cst e s o) :
    (∀ u ∈ s, ∀ x, k.out x = true → u.selmaho ≠ x) → deadG k e = true → o.Bad := by
  have suff : ∀ {e s r vs}, Peg cst e s (.ok r vs) → ∀ u ∈ r, u ∈ s := by
    intro e s r vs h u hu
    rw [h.cuts _ _ rfl]; simp [hu]
  induction h with
  | raw hx => intro hs hd; exact absurd hx (hs _ (by simp) _ hd)
  | call _ ih => intro hs hd; exact ih hs (hk.isDead _ hd)
  | seq h1 _ ih1 ih2 =>
    intro hs hd
    simp only [deadG, Bool.or_eq_true] at hd
    rcases hd with hd | hd
    · exact (ih1 hs hd).elim
    · exact (ih2 (fun u hu => hs u (suff h1 u hu)) hd).elim
  | _ => grind [deadG, Outcome.Bad]

theorem nil_of {e : Gr} {r : List Token} {vs : List Val} (h : Peg cst e [] (.ok r vs)) : r = [] :=
  (List.append_eq_nil_iff.mp (h.cuts _ _ rfl).symm).2

theorem atEnd (hk : Cert k t P) {e : Gr} {s : List Token} {o : Outcome} (h : Peg cst e s o) : s = [] → nullG k e = false → o.Bad := by
  induction h with
  | call h _ => 
    rintro rfl hn
    rw [(Peg.call h).unique _ (hk.isNull _ hn)]; trivial
  | seq h1 h2 ih1 ih2 =>
    rintro rfl hn
    have hr := nil_of h1
    subst hr
    simp only [nullG, Bool.and_eq_false_iff] at hn
    rcases hn with hn | hn
    · cases ih1 rfl hn
    · cases ih2 rfl hn
  | must h1 h2 ih =>
    rintro rfl hn
    have hr := nil_of h1
    subst hr
    exact absurd rfl h2
  | _ => grind [nullG, Outcome.Bad]

theorem calmEnd (hk : Cert k t P) {e : Gr} {s : List Token} {o : Outcome} (h : Peg cst e s o) : s = [] → calmG k e = true → o ≠ .failure := by
  have nl : ∀ {s r : List Token}, ¬ r.length = s.length → s = [] → ∀ {e vs}, Peg cst e s (.ok r vs) → False := by
    rintro _ r h rfl e vs h1
    rw [nil_of h1] at h
    exact h rfl
  induction h with
  | call h _ => 
    rintro rfl hn
    exact hk.noFail _ _ (.call h)
  | seqSecond h1 h2 hb ih1 ih2 =>
    rintro rfl hn
    have hr := nil_of h1
    subst hr
    simp only [calmG, Bool.and_eq_true, Bool.or_eq_true, Bool.not_eq_true'] at hn
    rcases hn.2 with hn | hn
    · exact ih2 rfl hn
    · exact (atEnd hk h1 rfl hn).elim
  | many0Later h1 hl h2 hb ih1 ih2 => intro hs; exact (nl hl hs h1).elim
  | many1Later h1 h2 hb ih1 ih2 => 
    rintro rfl hn
    have hr := nil_of h1
    subst hr
    exact ih2 rfl hn
  | _ => grind [calmG, Outcome.Bad]

theorem errEnd (hk : Cert k t P) {e : Gr} {o : Outcome} (h : Peg cst e [] o) (hn : nullG k e = false) (hc : calmG k e = true) : o = .error := by
  have h1 := atEnd hk h rfl hn
  have h2 := calmEnd hk h rfl hc
  cases o with
  | ok => exact h1.elim
  | error => rfl
  | failure => exact absurd rfl h2

/-- A repetition. -/
def isMany : Gr → Bool
  | .many0 _ => true
  | _ => false

/-- How the outcomes with and without the last word correspond. -/
inductive Rel (t : Token) (m gone drop take : Bool) (s : List Token) : Outcome → Outcome → Prop
  | error : Rel t m gone drop take s .error .error
  | failure : Rel t m gone drop take s .failure .failure
  | same {r vs} : Rel t m gone drop take s (.ok (r ++ [t]) vs) (.ok r vs)
  | drop {vs vs'} : drop = true → (s = [] → take = true) → DroppedL t vs vs' → (m = true → ∃ fs fs', vs = [.many fs] ∧ vs' = [.many fs'] ∧ DroppedL t fs fs') → Rel t m gone drop take s (.ok [] vs) (.ok [] vs')
  | gone {vs} : gone = true → take = true → s = [] → Rel t m gone drop take s (.ok [] vs) .error

theorem stops (hk : Cert k t P) {e : Gr} {s : List Token} {vs : List Val} (hP : P s) (hs : stopG k e = true) (h : Peg cst e s (.ok [] vs)) : s = [] := by
  have hb : cst (.word .Bahe) = .seq (.raw .Bahe) (.seq (.not (.call (.word .Bu))) (.not (.call (.word .Zei)))) := rfl
  have one : ∀ {s r vs}, Peg cst (.call (.word .Bahe)) s (.ok r vs) → ∃ u, s = u :: r ∧ u.selmaho = .Bahe := by
    intro s r vs h
    cases h with
    | call h =>
      rw [hb] at h
      cases h with
      | seqFirst _ hb => exact hb.elim
      | seqSecond _ _ hb => exact hb.elim
      | seq h1 h2 =>
        cases h2 with
        | seqFirst _ hb => exact hb.elim
        | seqSecond _ _ hb => exact hb.elim
        | seq h2 h3 => cases h1; cases h2; cases h3; exact ⟨_, rfl, ‹_›⟩
  unfold stopG at hs
  split at hs
  · cases h; rfl
  · clear hs
    generalize ho : Outcome.ok [] vs = o at h
    generalize he : Gr.many0 (.call (.word .Bahe)) = e at h
    induction h generalizing vs with
    | many0End h _ => cases ho; rfl
    | many0More h1 h2 h3 _ ih =>
      cases he; cases ho
      obtain ⟨u, rfl, hu⟩ := one h1
      have := ih (hk.tail [u] _ hP) rfl rfl
      subst this
      exact absurd hu (hk.last _ _ hP rfl)
    | many0Later _ _ _ hb => cases ho; exact hb.elim
    | many0Failure => cases ho
    | many0Stuck => cases ho
    | _ => cases he
  · cases h with
    | optAbsent _ => rfl
    | optPresent h =>
      obtain ⟨u, rfl, hu⟩ := one h
      exact absurd hu (hk.last _ _ hP rfl)
  · exact absurd h (hk.isFin _ _ _ hP hs)
  · cases hs

theorem offs (hk : Cert k t P) {e : Gr} (ho : offG k e = true) {s : List Token} (hs : ∀ x u, k.out x = true → u ∈ s → u.selmaho ≠ x) {o : Outcome}
    (h : Peg cst e s o) : o = .error := by
  induction h with
  | @call r s o h ih =>
    cases r <;> simp only [offG, Bool.false_eq_true] at ho
    case word x =>
      have h1 := never hk (.call h) (fun u hu y hy => hs y u hy hu) (hk.outDead _ ho)
      cases o with
      | ok => exact h1.elim
      | error => rfl
      | failure => exact absurd rfl (word_mild (.call h))
  | _ => grind [offG, Outcome.Bad]

theorem pegSeq {a b : Gr} {s : List Token} {o : Outcome} (h : Peg cst (.seq a b) s o) :
    ∃ oa, Peg cst a s oa ∧ ((oa.Bad ∧ o = oa) ∨ ∃ r vs, oa = .ok r vs ∧ ∃ ob, Peg cst b r ob ∧ ((ob.Bad ∧ o = ob) ∨ ∃ q ws, ob = .ok q ws ∧ o = .ok q (vs ++ ws))) := by
  cases h with
  | seq h1 h2 => exact ⟨_, h1, .inr ⟨_, _, rfl, _, h2, .inr ⟨_, _, rfl, rfl⟩⟩⟩
  | seqFirst h1 hb => exact ⟨_, h1, .inl ⟨hb, rfl⟩⟩
  | seqSecond h1 h2 hb => exact ⟨_, h1, .inr ⟨_, _, rfl, _, h2, .inl ⟨hb, rfl⟩⟩⟩

/-- The claim about one construct. -/
def Claim (k : Tabs) (t : Token) (P : List Token → Prop) (e : Gr) (l : List Token) (o : Outcome) : Prop :=
  ∀ s, l = s ++ [t] → P s → okG k e = true → ∀ o', Peg cst e s o' → Rel t (isMany e) (goneG k e) (dropG k e) (takeG k e) s o o'

theorem alive (hk : Cert k t P) {e : Gr} {s r : List Token} {vs : List Val} (hP : P s) (h : Peg cst e (s ++ [t]) (.ok r vs)) : deadG k e = false := by
  cases hd : deadG k e with
  | false => rfl
  | true =>
    refine (never hk h ?_ hd).elim
    intro u hu x hx
    rcases List.mem_append.mp hu with hu | hu
    · exact hk.isOut s x u hP hx hu
    · have : u = t := by simpa using hu
      subst this; exact hk.notOut x hx

theorem alive_nil (hk : Cert k t P) {e : Gr} {r : List Token} {vs : List Val} (h : Peg cst e [] (.ok r vs)) : deadG k e = false := by
  cases hd : deadG k e with
  | false => rfl
  | true => exact (never hk h nofun hd).elim

theorem claim_seq (hk : Cert k t P) {a b : Gr} {l : List Token} {oa o : Outcome} (ha : Peg cst a l oa) (ia : Claim k t P a l oa)
    (hab : (oa.Bad ∧ o = oa) ∨ ∃ r vs, oa = .ok r vs ∧ ∃ ob, Peg cst b r ob ∧ Claim k t P b r ob ∧
      ((ob.Bad ∧ o = ob) ∨ ∃ q ws, ob = .ok q ws ∧ o = .ok q (vs ++ ws))) : Claim k t P (.seq a b) l o := by
  rintro s rfl hP hok o' ho'
  simp only [okG, Bool.or_eq_true, Bool.and_eq_true, Bool.not_eq_true'] at hok
  obtain ⟨oa', ha', hab'⟩ := pegSeq ho'
  rcases hok with hoff | ⟨⟨⟨hst, hcalm⟩, hoka⟩, hokb⟩
  · have hout : ∀ x u, k.out x = true → u ∈ s → u.selmaho ≠ x := fun x u hx hu => hk.isOut s x u hP hx hu
    have hout2 : ∀ x u, k.out x = true → u ∈ s ++ [t] → u.selmaho ≠ x := by
      intro x u hx hu
      rcases List.mem_append.mp hu with hu | hu
      · exact hout x u hx hu
      · have : u = t := by simpa using hu
        subst this; exact hk.notOut x hx
    have e1 := offs hk hoff hout2 ha
    have e2 := offs hk hoff hout ha'
    subst e1 e2
    have : o = .error := by
      rcases hab with ⟨_, h⟩ | ⟨_, _, h, _⟩
      · exact h
      · cases h
    have : o' = .error := by
      rcases hab' with ⟨_, h⟩ | ⟨_, _, h, _⟩
      · exact h
      · cases h
    subst_vars
    exact .error
  · have ra := ia s rfl hP hoka oa' ha'
    cases ra with
    | error =>
      rcases hab with ⟨_, rfl⟩ | ⟨_, _, h, _⟩
      · rcases hab' with ⟨_, rfl⟩ | ⟨_, _, h, _⟩
        · exact .error
        · cases h
      · cases h
    | failure =>
      rcases hab with ⟨_, rfl⟩ | ⟨_, _, h, _⟩
      · rcases hab' with ⟨_, rfl⟩ | ⟨_, _, h, _⟩
        · exact .failure
        · cases h
      · cases h
    | @same r vs =>
      rcases hab with ⟨hb, _⟩ | ⟨_, _, h, ob, hb, ib, hc⟩
      · exact hb.elim
      cases h
      rcases hab' with ⟨hb, _⟩ | ⟨_, _, h, ob', hb', hc'⟩
      · exact hb.elim
      cases h
      have hPr : P r := hk.tail (tokensL vs) r (by rw [← ha'.cuts _ _ rfl]; exact hP)
      have rb := ib r rfl hPr hokb ob' hb'
      cases rb with
      | error =>
        rcases hc with ⟨_, rfl⟩ | ⟨_, _, h, _⟩
        · rcases hc' with ⟨_, rfl⟩ | ⟨_, _, h, _⟩
          · exact .error
          · cases h
        · cases h
      | failure =>
        rcases hc with ⟨_, rfl⟩ | ⟨_, _, h, _⟩
        · rcases hc' with ⟨_, rfl⟩ | ⟨_, _, h, _⟩
          · exact .failure
          · cases h
        · cases h
      | same =>
        rcases hc with ⟨hb, _⟩ | ⟨_, _, h, rfl⟩
        · exact hb.elim
        cases h
        rcases hc' with ⟨hb, _⟩ | ⟨_, _, h, rfl⟩
        · exact hb.elim
        cases h
        exact .same
      | drop hd ht hv hm =>
        rcases hc with ⟨hb, _⟩ | ⟨_, _, h, rfl⟩
        · exact hb.elim
        cases h
        rcases hc' with ⟨hb, _⟩ | ⟨_, _, h, rfl⟩
        · exact hb.elim
        cases h
        refine .drop (by simp [dropG, hd]) ?_ (droppedL_prepend hv vs) nofun
        rintro rfl
        have hr := nil_of ha'
        have hna : nullG k a = true := by
          cases hn : nullG k a with
          | true => rfl
          | false => exact (atEnd hk ha' rfl hn).elim
        simp [takeG, hna, ht hr]
      | gone hg htk hr =>
        subst hr
        rcases hc with ⟨hb, _⟩ | ⟨_, _, h, rfl⟩
        · exact hb.elim
        cases h
        have : o' = .error := by
          rcases hc' with ⟨_, rfl⟩ | ⟨_, _, h, _⟩
          · rfl
          · cases h
        subst this
        have hda := alive hk hP ha
        have hs : s = [] := by
          rcases hst with (h | h) | h
          · rw [h] at hg; cases hg
          · exact stops hk hP h ha'
          · rw [h] at hda; cases hda
        subst hs
        have hdb := alive (e := b) hk (s := []) hPr hb
        have hna : nullG k a = true := by
          cases hn : nullG k a with
          | true => rfl
          | false => exact (atEnd hk ha' rfl hn).elim
        exact .gone (by simp [goneG, hda, hdb, hg, hna]) (by simp [takeG, hna, htk]) rfl
    | drop hd ht hv hm =>
      rcases hab with ⟨hb, _⟩ | ⟨_, _, h, ob, hb, ib, hc⟩
      · exact hb.elim
      cases h
      rcases hab' with ⟨hb, _⟩ | ⟨_, _, h, ob', hb', hc'⟩
      · exact hb.elim
      cases h
      have hu := hb.unique _ hb'
      subst hu
      rcases hc with ⟨hbad, rfl⟩ | ⟨q, ws, rfl, rfl⟩
      · rcases hc' with ⟨_, rfl⟩ | ⟨_, _, rfl, _⟩
        · cases o' with
          | ok => exact hbad.elim
          | error => exact .error
          | failure => exact .failure
        · exact hbad.elim
      · rcases hc' with ⟨hbad, _⟩ | ⟨_, _, h, rfl⟩
        · exact hbad.elim
        cases h
        have hq := nil_of hb
        subst hq
        refine .drop (by simp [dropG, hd]) (fun hs => ?_) (droppedL_append hv ws) nofun
        have hnb : nullG k b = true := by
          cases hn : nullG k b with
          | true => rfl
          | false => exact (atEnd hk hb rfl hn).elim
        simp [takeG, hnb, ht hs]
    | gone hg htk hs =>
      subst hs
      rcases hab with ⟨hb, _⟩ | ⟨_, _, h, ob, hb, ib, hc⟩
      · exact hb.elim
      cases h
      have : o' = .error := by
        rcases hab' with ⟨_, rfl⟩ | ⟨_, _, h, _⟩
        · rfl
        · cases h
      subst this
      rcases hc with ⟨hbad, rfl⟩ | ⟨q, ws, rfl, rfl⟩
      · have hc : calmG k b = true := by
          rcases hcalm with h | h
          · rw [h] at hg; cases hg
          · exact h
        have := calmEnd hk hb rfl hc
        cases o with
        | ok => exact hbad.elim
        | error => exact .error
        | failure => exact absurd rfl this
      · have hq := nil_of hb
        subst hq
        have hnb : nullG k b = true := by
          cases hn : nullG k b with
          | true => rfl
          | false => exact (atEnd hk hb rfl hn).elim
        have hda := alive hk (s := []) hP ha
        have hdb := alive_nil hk hb
        exact .gone (by simp [goneG, hnb, hg, hda, hdb]) (by simp [takeG, hnb, htk]) rfl

theorem claims (hk : Cert k t P) {e : Gr} {l : List Token} {o : Outcome} (h : Peg cst e l o) : Claim k t P e l o := by
  induction h with
  | eps =>
    rintro s rfl hP hok o' ho'
    cases ho'; exact .same
  | @raw x u q hx =>
    rintro s hs hP hok o' ho'
    cases s with
    | nil =>
      cases ho'
      cases hs
      have : k.closer x = true := by
        cases hc : k.closer x with
        | true => rfl
        | false => exact absurd hx (hk.isCloser x hc)
      exact .gone this this rfl
    | cons v s =>
      cases hs
      cases ho' with
      | raw _ => exact .same
      | rawOther h => exact absurd hx h
  | @rawOther x u q hx =>
    rintro s hs hP hok o' ho'
    cases s with
    | nil => cases ho'; exact .error
    | cons v s =>
      cases hs
      cases ho' with
      | raw h => exact absurd h hx
      | rawOther h => exact .error
  | rawEnd => rintro s hs; simp at hs
  | @any kk u q =>
    rintro s hs hP hok o' ho'
    cases s with
    | nil => cases ho'; cases hs; exact .gone rfl rfl rfl
    | cons v s => cases hs; cases ho'; exact .same
  | anyEnd => rintro s hs; simp at hs
  | @call r l o h ih =>
    rintro s rfl hP hok o' ho'
    cases ho' with
    | call ho' =>
      have := ih s rfl hP (hk.isOk r) o' ho'
      cases this with
      | error => exact .error
      | failure => exact .failure
      | same => exact .same
      | drop hd ht hv hm => exact .drop (hk.isDrop r hd) (fun hs => hk.isTake r (ht hs)) hv nofun
      | gone hg htk hs =>
        have hd := alive hk hP (.call h)
        refine .gone ?_ (hk.isTake r htk) hs
        simp only [deadG] at hd
        simp [goneG, hk.isGone r hg hd, hd]
  | seq h1 h2 i1 i2 => exact claim_seq hk h1 i1 (.inr ⟨_, _, rfl, _, h2, i2, .inr ⟨_, _, rfl, rfl⟩⟩)
  | seqFirst h1 hb i1 => exact claim_seq hk h1 i1 (.inl ⟨hb, rfl⟩)
  | seqSecond h1 h2 hb i1 i2 => exact claim_seq hk h1 i1 (.inr ⟨_, _, rfl, _, h2, i2, .inl ⟨hb, rfl⟩⟩)
  | @altFirst a b l o h1 hne i1 =>
    rintro s rfl hP hok o' ho'
    simp only [okG, Bool.and_eq_true, Bool.or_eq_true, Bool.not_eq_true'] at hok
    obtain ⟨⟨hc, ha⟩, hb⟩ := hok
    have key : ∀ oa', Peg cst a s oa' → (oa' ≠ .error → o' = oa') → (oa' = .error → Peg cst b s o') →
        Rel t (isMany (.alt a b)) (goneG k (.alt a b)) (dropG k (.alt a b)) (takeG k (.alt a b)) s o o' := by
      intro oa' ha' hx hy
      cases i1 s rfl hP ha oa' ha' with
      | error => exact absurd rfl hne
      | failure => rw [hx nofun]; exact .failure
      | same => rw [hx nofun]; exact .same
      | drop hd ht hv hm => rw [hx nofun]; exact .drop (by simp [dropG, hd]) (fun hs => by simp [takeG, ht hs]) hv nofun
      | gone hg htk hs =>
        subst hs
        have : nullG k b = false ∧ calmG k b = true := by
          rcases hc with h | h
          · rw [h] at hg; cases hg
          · exact h
        rw [errEnd hk (hy rfl) this.1 this.2]
        exact .gone (by simp [goneG, hg]) (by simp [takeG, htk]) rfl
    cases ho' with
    | altFirst h hne' => exact key _ h (fun _ => rfl) (fun h => absurd h hne')
    | altSecond h hb => exact key _ h (fun h => absurd rfl h) (fun _ => hb)
  | @altSecond a b l o h1 h2 i1 i2 =>
    rintro s rfl hP hok o' ho'
    simp only [okG, Bool.and_eq_true, Bool.or_eq_true, Bool.not_eq_true'] at hok
    obtain ⟨⟨hc, ha⟩, hb⟩ := hok
    cases ho' with
    | altFirst h hne' =>
      cases i1 s rfl hP ha _ h with
      | error => exact absurd rfl hne'
    | altSecond h hb' =>
      cases i2 s rfl hP hb _ hb' with
      | error => exact .error
      | failure => exact .failure
      | same => exact .same
      | drop hd ht hv hm => exact .drop (by simp [dropG, hd]) (fun hs => by simp [takeG, ht hs]) hv nofun
      | gone hg htk hs => exact .gone (by simp [goneG, hg]) (by simp [takeG, htk]) hs
  | @optPresent a l r vs h1 i1 =>
    rintro s rfl hP hok o' ho'
    have key : ∀ oa', Peg cst a s oa' → Rel t (isMany a) (goneG k a) (dropG k a) (takeG k a) s (.ok r vs) oa' := fun oa' h => i1 s rfl hP hok oa' h
    cases ho' with
    | optPresent h =>
      cases key _ h with
      | same => exact .same
      | drop hd ht hv hm => exact .drop (by simp [dropG, hd]) ht (.head (.many hv)) nofun
    | optAbsent h =>
      cases key _ h with
      | gone hg htk hs =>
        subst hs
        refine .drop (by simp [dropG, hg]) (fun _ => ?_) (.head (.part ?_)) nofun
        · exact htk
        · have := h1.cuts _ _ rfl
          simpa using this.symm
    | optFailure h => cases key _ h
  | @optAbsent a l h1 i1 =>
    rintro s rfl hP hok o' ho'
    have key : ∀ oa', Peg cst a s oa' → Rel t (isMany a) (goneG k a) (dropG k a) (takeG k a) s .error oa' := fun oa' h => i1 s rfl hP hok oa' h
    cases ho' with
    | optPresent h => cases key _ h
    | optAbsent h => exact .same
    | optFailure h => cases key _ h
  | @optFailure a l h1 i1 =>
    rintro s rfl hP hok o' ho'
    have key : ∀ oa', Peg cst a s oa' → Rel t (isMany a) (goneG k a) (dropG k a) (takeG k a) s .failure oa' := fun oa' h => i1 s rfl hP hok oa' h
    cases ho' with
    | optPresent h => cases key _ h
    | optAbsent h => cases key _ h
    | optFailure h => exact .failure
  | @many0End a l h1 i1 =>
    rintro s rfl hP hok o' ho'
    simp only [okG, Bool.and_eq_true, Bool.not_eq_true'] at hok
    obtain ⟨⟨⟨hg, hn⟩, hc⟩, ha⟩ := hok
    have key : ∀ oa', Peg cst a s oa' → oa' = .error := by
      intro oa' h; cases i1 s rfl hP ha oa' h; rfl
    cases ho' with
    | many0End h => exact .same
    | many0More h => cases key _ h
    | many0Failure h => cases key _ h
    | many0Stuck h => cases key _ h
    | many0Later h => cases key _ h
  | @many0More a l r q vs ws h1 hl h2 i1 i2 =>
    rintro s rfl hP hok o' ho'
    have hok2 := hok
    simp only [okG, Bool.and_eq_true, Bool.not_eq_true'] at hok
    obtain ⟨⟨⟨hg, hn⟩, hc⟩, ha⟩ := hok
    have key : ∀ r' vs', Peg cst a s (.ok r' vs') → r'.length ≠ s.length → ∀ o1, Peg cst (.many0 a) r' o1 →
        (o1.Bad ∧ o' = o1) ∨ (∃ q us, o1 = .ok q [.many us] ∧ o' = .ok q [.many (vs' ++ us)]) →
        Rel t (isMany (.many0 a)) (goneG k (.many0 a)) (dropG k (.many0 a)) (takeG k (.many0 a)) s (.ok q [.many (vs ++ ws)]) o' := by
      intro r' vs' h hl' o1 h3 hx
      cases i1 s rfl hP ha _ h with
      | same =>
        have hPr : P r' := hk.tail (tokensL vs) r' (by rw [← h.cuts _ _ rfl]; exact hP)
        have := i2 r' rfl hPr hok2 _ h3
        generalize hoo : Outcome.ok q [Val.many ws] = oo at this
        have hs : s ≠ [] := by
          rintro rfl
          exact (atEnd hk h rfl hn).elim
        cases this with
        | error => cases hoo
        | failure => cases hoo
        | same =>
          cases hoo
          rcases hx with ⟨hb, _⟩ | ⟨q', us, he, rfl⟩
          · exact hb.elim
          cases he
          exact .same
        | drop hd ht hv hm =>
          cases hoo
          rcases hx with ⟨hb, _⟩ | ⟨q', us, he, rfl⟩
          · exact hb.elim
          cases he
          obtain ⟨fs, fs', e1, e2, hf⟩ := hm rfl
          cases e1; cases e2
          exact .drop hd (fun h => absurd h hs) (.head (.many (droppedL_prepend hf _))) (fun _ => ⟨_, _, rfl, rfl, droppedL_prepend hf _⟩)
        | gone hg' => cases hg'
      | drop hd ht hv hm =>
        have hs : s ≠ [] := by
          rintro rfl
          exact (atEnd hk h rfl hn).elim
        have hu := h2.unique _ h3
        subst hu
        rcases hx with ⟨hb, _⟩ | ⟨q', us, he, rfl⟩
        · exact hb.elim
        cases he
        have hq := nil_of h2
        subst hq
        exact .drop hd (fun h => absurd h hs) (.head (.many (droppedL_append hv _))) (fun _ => ⟨_, _, rfl, rfl, droppedL_append hv _⟩)
    have key2 : ∀ oa', Peg cst a s oa' → ∃ r' vs', oa' = .ok r' vs' ∧ r'.length ≠ s.length := by
      intro oa' h
      have hr := i1 s rfl hP ha oa' h
      generalize hoo : Outcome.ok r vs = oo at hr
      cases hr with
      | error => cases hoo
      | failure => cases hoo
      | same =>
        cases hoo
        refine ⟨_, _, rfl, ?_⟩
        simpa using hl
      | drop hd ht hv hm =>
        refine ⟨_, _, rfl, ?_⟩
        have hs : s ≠ [] := by
          rintro rfl
          exact (atEnd hk h rfl hn).elim
        cases s with
        | nil => exact absurd rfl hs
        | cons => simp
      | gone hg' => rw [hg] at hg'; cases hg'
    cases ho' with
    | many0End h => obtain ⟨_, _, he, _⟩ := key2 _ h; cases he
    | many0More h hl' h3 => exact key _ _ h hl' _ h3 (.inr ⟨_, _, rfl, rfl⟩)
    | many0Failure h => obtain ⟨_, _, he, _⟩ := key2 _ h; cases he
    | many0Stuck h hl' => obtain ⟨_, _, he, hl2⟩ := key2 _ h; cases he; exact absurd hl' hl2
    | many0Later h hl' h3 hb => exact key _ _ h hl' _ h3 (.inl ⟨hb, rfl⟩)
  | @many0Failure a l h1 i1 =>
    rintro s rfl hP hok o' ho'
    simp only [okG, Bool.and_eq_true, Bool.not_eq_true'] at hok
    have key : ∀ oa', Peg cst a s oa' → oa' = .failure := by
      intro oa' h; cases i1 s rfl hP hok.2 oa' h; rfl
    cases ho' with
    | many0End h => cases key _ h
    | many0More h => cases key _ h
    | many0Failure h => exact .failure
    | many0Stuck h => cases key _ h
    | many0Later h => cases key _ h
  | @many0Stuck a l r vs h1 hl i1 =>
    rintro s rfl hP hok o' ho'
    simp only [okG, Bool.and_eq_true, Bool.not_eq_true'] at hok
    have key : ∀ oa', Peg cst a s oa' → ∃ r', oa' = .ok r' vs ∧ r'.length = s.length := by
      intro oa' h
      have hr := i1 s rfl hP hok.2 oa' h
      generalize hoo : Outcome.ok r vs = oo at hr
      cases hr with
      | error => cases hoo
      | failure => cases hoo
      | same => cases hoo; exact ⟨_, rfl, by simpa using hl⟩
      | drop => cases hoo; simp at hl
      | gone => cases hoo; simp at hl
    cases ho' with
    | many0End h => obtain ⟨_, he, _⟩ := key _ h; cases he
    | many0More h hl' => obtain ⟨_, he, hl2⟩ := key _ h; cases he; exact absurd hl2 hl'
    | many0Failure h => obtain ⟨_, he, _⟩ := key _ h; cases he
    | many0Stuck h => exact .error
    | many0Later h hl' => obtain ⟨_, he, hl2⟩ := key _ h; cases he; exact absurd hl2 hl'
  | @many0Later a l r vs o h1 hl h2 hb i1 i2 =>
    rintro s rfl hP hok o' ho'
    have hok2 := hok
    simp only [okG, Bool.and_eq_true, Bool.not_eq_true'] at hok
    obtain ⟨⟨⟨hg, hn⟩, hc⟩, ha⟩ := hok
    have nz : ∀ {r' vs'}, Peg cst a s (.ok r' vs') → s ≠ [] := by
      rintro r' vs' h rfl
      exact (atEnd hk h rfl hn).elim
    have end_ : ∀ {o}, Peg cst (.many0 a) [] o → ¬ o.Bad := by
      intro o h hb
      have he : ∀ {oa}, Peg cst a [] oa → oa = .error := fun h => errEnd hk h hn hc
      cases h with
      | many0End => exact hb
      | many0More => exact hb
      | many0Failure h => cases he h
      | many0Stuck h => cases he h
      | many0Later h => cases he h
    have key : ∀ r' vs', Peg cst a s (.ok r' vs') → r'.length ≠ s.length ∧ ∀ o1, Peg cst (.many0 a) r' o1 → o1 = o := by
      intro r' vs' h
      have hr := i1 s rfl hP ha _ h
      generalize hoo : Outcome.ok r vs = oo at hr
      cases hr with
      | same =>
        cases hoo
        refine ⟨by simpa using hl, fun o1 h3 => ?_⟩
        have hPr : P r' := hk.tail (tokensL vs) r' (by rw [← h.cuts _ _ rfl]; exact hP)
        cases i2 r' rfl hPr hok2 _ h3 with
        | error => rfl
        | failure => rfl
        | same => exact hb.elim
        | drop => exact hb.elim
        | gone => exact hb.elim
      | drop =>
        cases hoo
        exact absurd hb (end_ h2)
    have key2 : ∀ oa', Peg cst a s oa' → ∃ r' vs', oa' = .ok r' vs' := by
      intro oa' h
      have hr := i1 s rfl hP ha oa' h
      generalize hoo : Outcome.ok r vs = oo at hr
      cases hr with
      | error => cases hoo
      | failure => cases hoo
      | same => exact ⟨_, _, rfl⟩
      | drop => exact ⟨_, _, rfl⟩
      | gone hg' => rw [hg] at hg'; cases hg'
    have fin : ∀ {o' : Outcome}, o' = o → Rel t (isMany (.many0 a)) (goneG k (.many0 a)) (dropG k (.many0 a)) (takeG k (.many0 a)) s o o' := by
      rintro o' rfl
      cases o' with
      | ok => exact hb.elim
      | error => exact .error
      | failure => exact .failure
    cases ho' with
    | many0End h => obtain ⟨_, _, he⟩ := key2 _ h; cases he
    | many0More h hl' h3 => have := (key _ _ h).2 _ h3; subst this; exact hb.elim
    | many0Failure h => obtain ⟨_, _, he⟩ := key2 _ h; cases he
    | many0Stuck h hl' => exact absurd hl' (key _ _ h).1
    | many0Later h hl' h3 hb => exact fin ((key _ _ h).2 _ h3)
  | @many1 a l r q vs ws h1 h2 i1 i2 =>
    rintro s rfl hP hok o' ho'
    have hok2 : okG k (.many0 a) = true := hok
    simp only [okG, Bool.and_eq_true, Bool.not_eq_true'] at hok
    obtain ⟨⟨⟨hg, hn⟩, hc⟩, ha⟩ := hok
    have key : ∀ r' vs', Peg cst a s (.ok r' vs') → ∀ o1, Peg cst (.many0 a) r' o1 →
        (o1.Bad ∧ o' = o1) ∨ (∃ q us, o1 = .ok q [.many us] ∧ o' = .ok q [.many (vs' ++ us)]) →
        Rel t (isMany (.many1 a)) (goneG k (.many1 a)) (dropG k (.many1 a)) (takeG k (.many1 a)) s (.ok q [.many (vs ++ ws)]) o' := by
      intro r' vs' h o1 h3 hx
      have hs : s ≠ [] := by
        rintro rfl
        exact (atEnd hk h rfl hn).elim
      cases i1 s rfl hP ha _ h with
      | same =>
        have hPr : P r' := hk.tail (tokensL vs) r' (by rw [← h.cuts _ _ rfl]; exact hP)
        have := i2 r' rfl hPr hok2 _ h3
        generalize hoo : Outcome.ok q [Val.many ws] = oo at this
        cases this with
        | error => cases hoo
        | failure => cases hoo
        | same =>
          cases hoo
          rcases hx with ⟨hb, _⟩ | ⟨q', us, he, rfl⟩
          · exact hb.elim
          cases he
          exact .same
        | drop hd ht hv hm =>
          cases hoo
          rcases hx with ⟨hb, _⟩ | ⟨q', us, he, rfl⟩
          · exact hb.elim
          cases he
          obtain ⟨fs, fs', e1, e2, hf⟩ := hm rfl
          cases e1; cases e2
          exact .drop hd (fun h => absurd h hs) (.head (.many (droppedL_prepend hf _))) nofun
        | gone hg' => cases hg'
      | drop hd ht hv hm =>
        have hu := h2.unique _ h3
        subst hu
        rcases hx with ⟨hb, _⟩ | ⟨q', us, he, rfl⟩
        · exact hb.elim
        cases he
        have hq := nil_of h2
        subst hq
        exact .drop hd (fun h => absurd h hs) (.head (.many (droppedL_append hv _))) nofun
    cases ho' with
    | many1 h h3 => exact key _ _ h _ h3 (.inr ⟨_, _, rfl, rfl⟩)
    | many1First h hb =>
      cases i1 s rfl hP ha _ h with
      | same => exact hb.elim
      | drop => exact hb.elim
      | gone hg' => rw [hg] at hg'; cases hg'
    | many1Later h h3 hb => exact key _ _ h _ h3 (.inl ⟨hb, rfl⟩)
  | @many1First a l o h1 hb i1 =>
    rintro s rfl hP hok o' ho'
    simp only [okG, Bool.and_eq_true, Bool.not_eq_true'] at hok
    have key : ∀ oa', Peg cst a s oa' → oa' = o := by
      intro oa' h
      cases i1 s rfl hP hok.2 oa' h with
      | error => rfl
      | failure => rfl
      | same => exact hb.elim
      | drop => exact hb.elim
      | gone => exact hb.elim
    cases ho' with
    | many1 h => have := key _ h; subst this; exact hb.elim
    | many1First h hb' =>
      rw [key _ h]
      cases o with
      | ok => exact hb.elim
      | error => exact .error
      | failure => exact .failure
    | many1Later h => have := key _ h; subst this; exact hb.elim
  | @many1Later a l r vs o h1 h2 hb i1 i2 =>
    rintro s rfl hP hok o' ho'
    have hok2 : okG k (.many0 a) = true := hok
    simp only [okG, Bool.and_eq_true, Bool.not_eq_true'] at hok
    obtain ⟨⟨⟨hg, hn⟩, hc⟩, ha⟩ := hok
    have end_ : ∀ {o}, Peg cst (.many0 a) [] o → ¬ o.Bad := by
      intro o h hb
      have he : ∀ {oa}, Peg cst a [] oa → oa = .error := fun h => errEnd hk h hn hc
      cases h with
      | many0End => exact hb
      | many0More => exact hb
      | many0Failure h => cases he h
      | many0Stuck h => cases he h
      | many0Later h => cases he h
    have key : ∀ r' vs', Peg cst a s (.ok r' vs') → ∀ o1, Peg cst (.many0 a) r' o1 → o1 = o := by
      intro r' vs' h
      have hr := i1 s rfl hP ha _ h
      generalize hoo : Outcome.ok r vs = oo at hr
      cases hr with
      | same =>
        cases hoo
        intro o1 h3
        have hPr : P r' := hk.tail (tokensL vs) r' (by rw [← h.cuts _ _ rfl]; exact hP)
        cases i2 r' rfl hPr hok2 _ h3 with
        | error => rfl
        | failure => rfl
        | same => exact hb.elim
        | drop => exact hb.elim
        | gone => exact hb.elim
      | drop =>
        cases hoo
        exact absurd hb (end_ h2)
    cases ho' with
    | many1 h h3 => have := key _ _ h _ h3; subst this; exact hb.elim
    | many1First h hb' =>
      cases i1 s rfl hP ha _ h with
      | same => exact hb'.elim
      | drop => exact hb'.elim
      | gone hg' => rw [hg] at hg'; cases hg'
    | many1Later h h3 hb' =>
      have := key _ _ h _ h3
      subst this
      cases o' with
      | ok => exact hb.elim
      | error => exact .error
      | failure => exact .failure
  | tillEnd => rintro s rfl hP hok; cases hok
  | tillMore => rintro s rfl hP hok; cases hok
  | tillFailure => rintro s rfl hP hok; cases hok
  | tillItem => rintro s rfl hP hok; cases hok
  | tillStuck => rintro s rfl hP hok; cases hok
  | tillLater => rintro s rfl hP hok; cases hok
  | @not a l h1 i1 =>
    rintro s rfl hP hok o' ho'
    simp only [okG, Bool.and_eq_true, Bool.not_eq_true'] at hok
    have key : ∀ oa', Peg cst a s oa' → oa' = .error := by
      intro oa' h; cases i1 s rfl hP hok.2 oa' h; rfl
    cases ho' with
    | not h => exact .same
    | notThere h => cases key _ h
    | notFailure h => cases key _ h
  | @notThere a l r vs h1 i1 =>
    rintro s rfl hP hok o' ho'
    simp only [okG, Bool.and_eq_true, Bool.not_eq_true'] at hok
    cases ho' with
    | not h =>
      cases i1 s rfl hP hok.2 _ h with
      | gone hg => rw [hok.1] at hg; cases hg
    | notThere h => exact .error
    | notFailure h => cases i1 s rfl hP hok.2 _ h
  | @notFailure a l h1 i1 =>
    rintro s rfl hP hok o' ho'
    simp only [okG, Bool.and_eq_true, Bool.not_eq_true'] at hok
    cases ho' with
    | not h => cases i1 s rfl hP hok.2 _ h
    | notThere h => cases i1 s rfl hP hok.2 _ h
    | notFailure h => exact .failure
  | @cut a l o h1 hne i1 =>
    rintro s rfl hP hok o' ho'
    simp only [okG, Bool.and_eq_true, Bool.not_eq_true'] at hok
    cases ho' with
    | cut h hne' =>
      cases i1 s rfl hP hok.2 _ h with
      | error => exact absurd rfl hne
      | failure => exact .failure
      | same => exact .same
      | drop hd ht hv hm => exact .drop hd ht hv nofun
      | gone => exact absurd rfl hne'
    | cutError h =>
      cases i1 s rfl hP hok.2 _ h with
      | error => exact absurd rfl hne
      | gone hg => rw [hok.1] at hg; cases hg
  | @cutError a l h1 i1 =>
    rintro s rfl hP hok o' ho'
    simp only [okG, Bool.and_eq_true, Bool.not_eq_true'] at hok
    cases ho' with
    | cut h hne' =>
      cases i1 s rfl hP hok.2 _ h with
      | error => exact absurd rfl hne'
    | cutError h => exact .failure
  | @must n a l r vs h1 hl i1 =>
    rintro s rfl hP hok o' ho'
    simp only [okG] at hok
    cases ho' with
    | must h hl' =>
      cases i1 s rfl hP hok _ h with
      | same => exact .same
      | drop hd ht hv hm => exact .drop hd ht hv nofun
    | mustEmpty h hl' =>
      have hr := i1 s rfl hP hok _ h
      generalize hoo : Outcome.ok r vs = oo at hr
      cases hr with
      | same => cases hoo; simp at hl; exact absurd hl' hl
      | drop hd ht hv hm =>
        cases hoo
        have hs : s = [] := by cases s <;> simp_all
        exact .gone (by simp [goneG, ht hs]) (ht hs) hs
    | mustBad h hb =>
      cases i1 s rfl hP hok _ h with
      | same => exact hb.elim
      | drop hd ht hv hm => exact hb.elim
      | gone hg ht hs => exact .gone (by simp [goneG, hg]) ht hs
  | @mustEmpty n a l r vs h1 hl i1 =>
    rintro s rfl hP hok o' ho'
    simp only [okG] at hok
    have key : ∀ oa', Peg cst a s oa' → ∃ r', oa' = .ok r' vs ∧ r'.length = s.length := by
      intro oa' h
      have hr := i1 s rfl hP hok oa' h
      generalize hoo : Outcome.ok r vs = oo at hr
      cases hr with
      | error => cases hoo
      | failure => cases hoo
      | same => cases hoo; exact ⟨_, rfl, by simpa using hl⟩
      | drop => cases hoo; simp at hl
      | gone => cases hoo; simp at hl
    cases ho' with
    | must h hl' => obtain ⟨_, he, hl2⟩ := key _ h; cases he; exact absurd hl2 hl'
    | mustEmpty h hl' => exact .error
    | mustBad h hb => obtain ⟨_, rfl, hl2⟩ := key _ h; exact hb.elim
  | @mustBad n a l o h1 hb i1 =>
    rintro s rfl hP hok o' ho'
    simp only [okG] at hok
    cases ho' with
    | must h hl' => cases i1 s rfl hP hok _ h <;> exact hb.elim
    | mustEmpty h hl' => cases i1 s rfl hP hok _ h <;> exact hb.elim
    | mustBad h hb' =>
      cases i1 s rfl hP hok _ h with
      | error => exact .error
      | failure => exact .failure
      | same => exact hb.elim
      | drop hd ht hv hm => exact hb.elim
      | gone hg ht hs => exact hb.elim
  | @post c a l r vs h1 hc i1 =>
    rintro s rfl hP hok o' ho'
    simp only [okG, Bool.and_eq_true, Bool.not_eq_true'] at hok
    cases ho' with
    | post h hc' =>
      cases i1 s rfl hP hok.2 _ h with
      | same => exact .same
      | drop hd ht hv hm => rw [hok.1] at hd; cases hd
    | postViolated h hc' =>
      cases i1 s rfl hP hok.2 _ h with
      | same => rw [hc] at hc'; cases hc'
      | drop hd ht hv hm => rw [hok.1] at hd; cases hd
    | postBad h hb =>
      cases i1 s rfl hP hok.2 _ h with
      | same => exact hb.elim
      | drop hd ht hv hm => exact hb.elim
      | gone hg ht hs => exact .gone hg ht hs
  | @postViolated c a l r vs h1 hc i1 =>
    rintro s rfl hP hok o' ho'
    simp only [okG, Bool.and_eq_true, Bool.not_eq_true'] at hok
    cases ho' with
    | post h hc' =>
      cases i1 s rfl hP hok.2 _ h with
      | same => rw [hc] at hc'; cases hc'
      | drop hd ht hv hm => rw [hok.1] at hd; cases hd
    | postViolated h hc' => exact .error
    | postBad h hb =>
      cases i1 s rfl hP hok.2 _ h with
      | same => exact hb.elim
      | drop hd ht hv hm => exact hb.elim
      | gone hg ht hs => exact .error
  | @postBad c a l o h1 hb i1 =>
    rintro s rfl hP hok o' ho'
    simp only [okG, Bool.and_eq_true, Bool.not_eq_true'] at hok
    cases ho' with
    | post h hc' => cases i1 s rfl hP hok.2 _ h <;> exact hb.elim
    | postViolated h hc' => cases i1 s rfl hP hok.2 _ h <;> exact hb.elim
    | postBad h hb' =>
      cases i1 s rfl hP hok.2 _ h with
      | error => exact .error
      | failure => exact .failure
      | same => exact hb.elim
      | drop hd ht hv hm => exact hb.elim
      | gone hg ht hs => exact hb.elim
  | @wrap sh a l r vs h1 i1 =>
    rintro s rfl hP hok o' ho'
    simp only [okG] at hok
    cases ho' with
    | wrap h =>
      cases i1 s rfl hP hok _ h with
      | same => exact .same
      | drop hd ht hv hm => exact .drop hd ht (.head (dropped_build hv sh)) nofun
    | wrapBad h hb =>
      cases i1 s rfl hP hok _ h with
      | same => exact hb.elim
      | drop hd ht hv hm => exact hb.elim
      | gone hg ht hs => exact .gone hg ht hs
  | @wrapBad sh a l o h1 hb i1 =>
    rintro s rfl hP hok o' ho'
    simp only [okG] at hok
    cases ho' with
    | wrap h => cases i1 s rfl hP hok _ h <;> exact hb.elim
    | wrapBad h hb' =>
      cases i1 s rfl hP hok _ h with
      | error => exact .error
      | failure => exact .failure
      | same => exact hb.elim
      | drop hd ht hv hm => exact hb.elim
      | gone hg ht hs => exact hb.elim

end Sneturfahi.Elide
