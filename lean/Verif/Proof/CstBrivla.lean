import Verif.Proof.PegRel
import Verif.Proof.CstNull
import Verif.Spec.Brivla

/-!
# Brivla are interchangeable
-/

namespace Sneturfahi

open Spec

/-- The same kinds of words. -/
def Alike (l l' : List Token) : Prop := classes l = classes l'

theorem blindL_eq (vs : List Val) : blindL vs = vs.map blind := by
  induction vs with
  | nil => rfl
  | cons v vs ih => simp [blindL, ih]

theorem blind_present (v : Val) : (blind v).present = v.present := by
  cases v with
  | many vs => cases vs <;> simp [blind, blindL, Val.present]
  | _ => simp [blind, Val.present]

theorem blind_build {sh : CShape} {a b : List Val} (h : blindL a = blindL b) : blind (sh.build a) = blind (sh.build b) := by
  cases sh with
  | node n => simp [CShape.build, blind, h]
  | tuple => simp [CShape.build, blind, h]
  | sep =>
    have key : ∀ a : List Val, blind (CShape.sep.build a) = (match blindL a with
        | [first, .many rest] => .sep first rest
        | vs => .tuple vs) := by
      intro a
      match a with
      | [] => rfl
      | [x] => rfl
      | [x, .many rest] => simp [CShape.build, blind, blindL]
      | [x, .leaf _ _] => rfl
      | [x, .node n fs] => rfl
      | [x, .tuple _] => rfl
      | [x, .sep _ _] => rfl
      | x :: y :: z :: w =>
        simp only [CShape.build, blind, blindL]
        split
        · rename_i h; simp at h
        · rfl
    rw [key, key, h]

def notBrivla (x : Selmaho) : Bool := !brivla.contains x

def brivlaPosts : PostCond → NodeName → Bool
  | .anyFieldPresent, n => n == .Time || n == .Space
  | .selmahoNotIn l, n => n == .BuInner && l.all notBrivla

theorem wordClass_eq {x y : Selmaho} (hx : notBrivla x = true) : wordClass y = x ↔ y = x := by
  simp only [notBrivla, Bool.not_eq_true', List.contains_eq_mem, decide_eq_false_iff_not] at hx
  unfold wordClass
  split
  · rename_i h
    constructor
    · rintro rfl; exact absurd (by decide) hx
    · rintro rfl; exact absurd h hx
  · rfl

theorem class_contains {l : List Selmaho} (hl : l.all notBrivla = true) {x y : Selmaho} (h : wordClass x = wordClass y) :
    l.contains x = l.contains y := by
  have key : ∀ z : Selmaho, z ∈ l ↔ wordClass z ∈ l := by
    intro z
    simp only [List.all_eq_true] at hl
    constructor
    · intro hz; rw [(wordClass_eq (hl z hz)).mpr rfl]; exact hz
    · intro hz; rw [(wordClass_eq (hl _ hz)).mp rfl]; exact hz
  have := (key x).trans (h ▸ (key y).symm)
  simp [List.contains_eq_mem, this]

theorem blindRel : ValRel (fun a b => blindL a = blindL b) (fun _ => true) brivlaPosts where
  nil := rfl
  append := by intro a b c d h1 h2; simp [blindL_eq] at *; rw [h1, h2]
  many := by intro a b h; simp [blindL, blind, h]
  more := by
    intro a b c d e f h1 h2
    simp only [blindL, blind, List.cons.injEq, Val.many.injEq] at h2 ⊢
    simp only [blindL_eq, List.map_append] at h1 h2 ⊢
    rw [h1, h2.1, h2.2]
    simp
  build := by intro sh a b hs h; simp only [blindL]; rw [blind_build h]
  post := by
    intro c n a b hp h
    have hn' : blindL a = blindL b := by simpa [blindL, blind] using h
    cases c with
    | anyFieldPresent =>
      simp only [PostCond.holds]
      have : ∀ a : List Val, a.any Val.present = (blindL a).any Val.present := by
        intro a
        rw [blindL_eq, List.any_map]
        congr 1
        funext v
        exact (blind_present v).symm
      rw [this a, this b, hn']
    | selmahoNotIn l =>
      simp only [brivlaPosts, Bool.and_eq_true] at hp
      match a, b with
      | [], [] => rfl
      | [], _ :: _ => simp [blindL] at hn'
      | _ :: _, [] => simp [blindL] at hn'
      | [x], y :: z :: w => simp [blindL] at hn'
      | x :: x' :: w, [y] => simp [blindL] at hn'
      | x :: x' :: w, y :: z :: w' => simp [PostCond.holds]
      | [x], [y] =>
        simp only [blindL, List.cons.injEq, and_true] at hn'
        cases x <;> cases y <;> simp [blind, PostCond.holds] at hn' ⊢
        have := class_contains hp.2 hn'.2
        simpa [List.contains_eq_mem] using this

/-- Productions in which no brivla is read. -/
def brivlaSim0 : CRule → Bool
  | .word x => notBrivla x
  | .Indicators => true
  | .Indicator => true
  | _ => false

/-- All productions but single brivla. -/
def brivlaSim : CRule → Bool
  | .word x => notBrivla x
  | _ => true

def isTanruUnit2 : CRule → Bool
  | .TanruUnit2 => true
  | _ => false

abbrev relB (sim : CRule → Bool) : Gr → Bool := relT notBrivla true (fun _ => false) sim (fun _ => true) brivlaPosts

theorem cst_brivla0 (r : CRule) (h : brivlaSim0 r = true) : relB brivlaSim0 (cst r) = true := by
  revert h
  cases r with
  | word s => cases s <;> decide +kernel
  | _ => decide +kernel

theorem cst_brivla (r : CRule) (h : brivlaSim r = true) (hb : isTanruUnit2 r = false) : relB brivlaSim (cst r) = true := by
  revert h hb
  cases r with
  | word s => cases s <;> decide +kernel
  | _ => decide +kernel

theorem alike_raw {x : Selmaho} (hx : notBrivla x = true) {l l' : List Token} {o : Outcome} (h : Alike l l') (ho : Peg cst (.raw x) l o) :
    ∃ o', Peg cst (.raw x) l' o' ∧ RelOut Alike (fun a b => blindL a = blindL b) l l' o o' := by
  cases l with
  | nil =>
    cases l' with
    | nil => cases ho; exact ⟨_, .rawEnd, .error⟩
    | cons _ _ => cases h
  | cons t q =>
    cases l' with
    | nil => cases h
    | cons t' q' =>
      simp only [Alike, classes, List.map_cons, List.cons.injEq] at h
      cases ho with
      | raw ht =>
        have ht' : t'.selmaho = x := by
          rw [← wordClass_eq hx, ← h.1, wordClass_eq hx]; exact ht
        exact ⟨_, .raw ht', .ok h.2 (by simp) (by simp [blindL, blind, ht, ht'])⟩
      | rawOther ht =>
        refine ⟨_, .rawOther (fun ht' => ht ?_), .error⟩
        rw [← wordClass_eq hx, h.1, wordClass_eq hx]; exact ht'

theorem alike_any {k : LeafKind} {l l' : List Token} {o : Outcome} (h : Alike l l') (ho : Peg cst (.any k) l o) :
    ∃ o', Peg cst (.any k) l' o' ∧ RelOut Alike (fun a b => blindL a = blindL b) l l' o o' := by
  cases l with
  | nil =>
    cases l' with
    | nil => cases ho; exact ⟨_, .anyEnd, .error⟩
    | cons _ _ => cases h
  | cons t q =>
    cases l' with
    | nil => cases h
    | cons t' q' =>
      simp only [Alike, classes, List.map_cons, List.cons.injEq] at h
      cases ho
      exact ⟨_, .any, .ok h.2 (by simp) (by simp [blindL, blind, h.1])⟩

theorem brivlaCert0 : RelCert cst Alike (fun a b => blindL a = blindL b) notBrivla true (fun _ => false) (fun _ => false) brivlaSim0
    (fun _ => true) brivlaPosts where
  vals := blindRel
  isRaw := fun _ _ _ _ hx h ho => alike_raw hx h ho
  isAny := fun _ _ _ _ _ h ho => alike_any h ho
  isDead := by intro r l l' h; cases h
  isBase := by intro r l l' o h; cases h
  isSim := fun r h _ => cst_brivla0 r h

theorem peg_second {g : CRule → Gr} {a b : Gr} {l r : List Token} {vs : List Val} {o : Outcome} (h : Peg g (.seq a b) l o)
    (h1 : Peg g a l (.ok r vs)) : ∃ ob, Peg g b r ob := by
  cases h with
  | seq h2 h3 => cases h2.unique _ h1; exact ⟨_, h3⟩
  | seqFirst h2 hb => rw [h2.unique _ h1] at hb; exact hb.elim
  | seqSecond h2 h3 _ => cases h2.unique _ h1; exact ⟨_, h3⟩

theorem peg_inner {g : CRule → Gr} {sh : CShape} {a : Gr} {l : List Token} {o : Outcome} (h : Peg g (.wrap sh a) l o) : ∃ oa, Peg g a l oa := by
  cases h with
  | wrap h => exact ⟨_, h⟩
  | wrapBad h _ => exact ⟨_, h⟩

/-- What a brivla and one of another kind in its place are read as. -/
theorem brivla_word {l l' : List Token} (h : Alike l l') :
    (∀ x ∈ brivla, Peg cst (.call (.word x)) l .error ∧ Peg cst (.call (.word x)) l' .error) ∨
    ∃ k ∈ brivla, ∃ k' ∈ brivla, (∀ x ∈ brivla, x ≠ k → Peg cst (.call (.word x)) l .error) ∧
      (∀ x ∈ brivla, x ≠ k' → Peg cst (.call (.word x)) l' .error) ∧
      ∃ o o', Peg cst (.call (.word k)) l o ∧ Peg cst (.call (.word k')) l' o' ∧ RelOut Alike (fun a b => blindL a = blindL b) l l' o o' := by
  have he : ∀ x ∈ brivla, cst (.word x) = .wrap (.node (.word x)) (.seq (.many0 (.call (.word .Bahe))) (.seq (.raw x)
      (.seq (.opt (.call .Indicators)) (.seq (.not (.call (.word .Bu))) (.not (.call (.word .Zei))))))) := by
    intro x hx
    revert hx
    cases x <;> first | (intro _; rfl) | (intro hx; exact absurd hx (by decide))
  obtain ⟨_, l1, vs, _, _, hb⟩ := bahes_total l
  obtain ⟨_, hb', hr⟩ := peg_rel brivlaCert0 hb (by decide +kernel) l' h
  cases hr with
  | @ok _ l1' _ vs' hR hi hv =>
    have herr : ∀ x ∈ brivla, ∀ {l l1 vs}, Peg cst (.many0 (.call (.word .Bahe))) l (.ok l1 vs) →
        (∀ t q, l1 = t :: q → t.selmaho ≠ x) → Peg cst (.call (.word x)) l .error := by
      intro x hx l l1 vs hb hne
      refine .call ?_
      rw [he x hx]
      refine .wrapBad (.seqSecond hb (.seqFirst ?_ trivial) trivial) trivial
      cases l1 with
      | nil => exact .rawEnd
      | cons t q => exact .rawOther (hne t q rfl)
    have hmk : ∀ x ∈ brivla, ∀ {l t q vs oR}, Peg cst (.many0 (.call (.word .Bahe))) l (.ok (t :: q) vs) → t.selmaho = x →
        Peg cst (.seq (.opt (.call .Indicators)) (.seq (.not (.call (.word .Bu))) (.not (.call (.word .Zei))))) q oR →
        Peg cst (.call (.word x)) l (match oR with | .ok r ws => .ok r [.node (.word x) (vs ++ ([.leaf .token t] ++ ws))] | o => o) := by
      intro x hx l t q vs oR hb ht hR
      refine .call ?_
      rw [he x hx]
      cases oR with
      | ok r ws => exact .wrap (.seq hb (.seq (.raw ht) hR))
      | error => exact .wrapBad (.seqSecond hb (.seqSecond (.raw ht) hR trivial) trivial) trivial
      | failure => exact .wrapBad (.seqSecond hb (.seqSecond (.raw ht) hR trivial) trivial) trivial
    cases l1 with
    | nil =>
      cases l1' with
      | cons _ _ => cases hR
      | nil => exact .inl fun x hx => ⟨herr x hx hb nofun, herr x hx hb' nofun⟩
    | cons t q =>
      cases l1' with
      | nil => cases hR
      | cons t' q' =>
        have hR0 := hR
        simp only [Alike, classes, List.map_cons, List.cons.injEq] at hR
        obtain ⟨ht, hq⟩ := hR
        by_cases hk : t.selmaho ∈ brivla
        · have hk' : t'.selmaho ∈ brivla := by
            by_cases hk' : t'.selmaho ∈ brivla
            · exact hk'
            · have e1 : wordClass t.selmaho = .Gismu := by simp [wordClass, hk]
              have e2 : wordClass t'.selmaho = t'.selmaho := by simp [wordClass, hk']
              rw [e1, e2] at ht
              rw [← ht]
              decide
          refine .inr ⟨_, hk, _, hk', fun x hx hne => herr x hx hb (by rintro t0 q0 he; cases he; exact fun h => hne h.symm),
            fun x hx hne => herr x hx hb' (by rintro t0 q0 he; cases he; exact fun h => hne h.symm), ?_⟩
          obtain ⟨o, ho⟩ := peg_total (.word t.selmaho) l
          cases ho with
          | call ho =>
            rw [he _ hk] at ho
            obtain ⟨_, ho⟩ := peg_inner ho
            obtain ⟨_, ho⟩ := peg_second ho hb
            obtain ⟨oR, ho⟩ := peg_second ho (.raw rfl)
            obtain ⟨oR', ho', hrel⟩ := peg_rel brivlaCert0 ho (by decide +kernel) q' hq
            refine ⟨_, _, hmk _ hk hb rfl ho, hmk _ hk' hb' rfl ho', ?_⟩
            have hl1 := Peg.shorter hb
            have hl2 := Peg.shorter hb'
            simp only [List.length_cons] at hl1 hl2
            cases hrel with
            | error => exact .error
            | failure => exact .failure
            | ok hr hi2 hv2 =>
              have hl3 := Peg.shorter ho
              have hl4 := Peg.shorter ho'
              refine .ok hr (by omega) ?_
              have e1 : ∀ {x}, x ∈ brivla → wordClass x = .Gismu := by intro x hx; simp [wordClass, hx]
              simp only [blindL_eq, List.map_append, List.map_cons, List.map_nil, blind, nameClass, e1 hk, e1 hk'] at hv hv2 ⊢
              rw [hv, hv2]
        · have hk' : t'.selmaho ∉ brivla := by
            intro hk'
            have e1 : wordClass t'.selmaho = .Gismu := by simp [wordClass, hk']
            have e2 : wordClass t.selmaho = t.selmaho := by simp [wordClass, hk]
            rw [e1, e2] at ht
            exact hk (by rw [ht]; decide)
          refine .inl fun x hx => ⟨herr x hx hb ?_, herr x hx hb' ?_⟩
          · rintro t0 q0 he rfl; cases he; exact hk hx
          · rintro t0 q0 he rfl; cases he; exact hk' hx

/-- The variants for brivla. -/
def brivlaNode : Selmaho → NodeName
  | .Gismu => .TanruUnit2_Gismu
  | .Lujvo => .TanruUnit2_Lujvo
  | _ => .TanruUnit2_Fuhivla

/-- The alternative for a kind of brivla. -/
def brivlaAlt (x : Selmaho) : Gr := .wrap (.node (brivlaNode x)) (gWithFree (.call (.word x)))

/-- Reading it alike, by way of its parts. -/
def Same (e : Gr) (l : List Token) (o : Outcome) : Prop :=
  ∀ l', Alike l l' → ∃ o', Peg cst e l' o' ∧ RelOut Alike (fun a b => blindL a = blindL b) l l' o o'

theorem same_alt {a b : Gr} {l : List Token} {oa o : Outcome} (h : Peg cst a l oa) (ha : Same a l oa) (hb : oa = .error → Same b l o)
    (ho : Peg cst (.alt a b) l o) : Same (.alt a b) l o := by
  intro l' hl
  obtain ⟨oa', h1, h2⟩ := ha l' hl
  cases h2 with
  | error =>
    obtain ⟨o', h3, h4⟩ := hb rfl l' hl
    exact ⟨_, .altSecond h1 h3, h4⟩
  | failure =>
    rw [ho.unique _ (.altFirst h nofun)]
    exact ⟨_, .altFirst h1 nofun, .failure⟩
  | ok a b c =>
    rw [ho.unique _ (.altFirst h nofun)]
    exact ⟨_, .altFirst h1 nofun, .ok a b c⟩

abbrev DeepB := Deep cst (RelS cst Alike (fun a b => blindL a = blindL b) notBrivla true (fun _ => false) brivlaSim (fun _ => true) brivlaPosts)

theorem brivla_alt {k k' : Selmaho} (hk : k ∈ brivla) (hk' : k' ∈ brivla) {l l' : List Token} {o o' : Outcome} (h1 : Peg cst (.call (.word k)) l o)
    (h2 : Peg cst (.call (.word k')) l' o') (hr : RelOut Alike (fun a b => blindL a = blindL b) l l' o o') {oE : Outcome} (hd : DeepB (brivlaAlt k) l oE) :
    ∃ oE oE', Peg cst (brivlaAlt k) l oE ∧ Peg cst (brivlaAlt k') l' oE' ∧ RelOut Alike (fun a b => blindL a = blindL b) l l' oE oE' := by
  obtain ⟨_, oa, ha, hd⟩ := hd
  obtain ⟨_, ob, hb, hd⟩ := hd
  obtain ⟨_, ow, hw, _, hd⟩ := hd
  cases hw.unique _ h1
  cases hr with
  | error => exact ⟨_, _, .wrapBad (.wrapBad (.seqFirst h1 trivial) trivial) trivial, .wrapBad (.wrapBad (.seqFirst h2 trivial) trivial) trivial, .error⟩
  | failure => exact ⟨_, _, .wrapBad (.wrapBad (.seqFirst h1 trivial) trivial) trivial, .wrapBad (.wrapBad (.seqFirst h2 trivial) trivial) trivial, .failure⟩
  | ok hR hi hv =>
    obtain ⟨of, hf, hS⟩ := hd _ _ rfl
    obtain ⟨of', hf', hrel⟩ := hS rfl _ hR
    cases hrel with
    | error => exact ⟨_, _, .wrapBad (.wrapBad (.seqSecond h1 hf trivial) trivial) trivial, .wrapBad (.wrapBad (.seqSecond h2 hf' trivial) trivial) trivial, .error⟩
    | failure => exact ⟨_, _, .wrapBad (.wrapBad (.seqSecond h1 hf trivial) trivial) trivial, .wrapBad (.wrapBad (.seqSecond h2 hf' trivial) trivial) trivial, .failure⟩
    | ok hR2 hi2 hv2 =>
      refine ⟨_, _, .wrap (.wrap (.seq h1 hf)), .wrap (.wrap (.seq h2 hf')), .ok hR2 ?_ ?_⟩
      · have := Peg.shorter h1
        have := Peg.shorter h2
        have := Peg.shorter hf
        have := Peg.shorter hf'
        omega
      · have e1 : ∀ {x}, x ∈ brivla → nameClass (brivlaNode x) = .TanruUnit2_Gismu := by
          intro x hx
          revert hx
          cases x <;> first | (intro _; rfl) | (intro hx; exact absurd hx (by decide))
        simp only [CShape.build, blindL_eq, List.map_append, List.map_cons, List.map_nil, blind, e1 hk, e1 hk'] at hv hv2 ⊢
        rw [hv, hv2]

/-- The three alternatives for brivla, after another one. -/
def three (x : Gr) : Gr := .alt (.alt (.alt x (brivlaAlt .Gismu)) (brivlaAlt .Lujvo)) (brivlaAlt .Fuhivla)

theorem three_of {x : Gr} {l : List Token} (hx : Peg cst x l .error) {k : Selmaho} (hk : k ∈ brivla) {o : Outcome}
    (ho : Peg cst (brivlaAlt k) l o) (hne : ∀ y ∈ brivla, y ≠ k → Peg cst (brivlaAlt y) l .error) : Peg cst (three x) l o := by
  have hg : k ≠ .Gismu → Peg cst (brivlaAlt .Gismu) l .error := fun h => hne _ (by decide) h.symm
  have hlu : k ≠ .Lujvo → Peg cst (brivlaAlt .Lujvo) l .error := fun h => hne _ (by decide) h.symm
  have hfu : k ≠ .Fuhivla → Peg cst (brivlaAlt .Fuhivla) l .error := fun h => hne _ (by decide) h.symm
  simp only [brivla, List.mem_cons, List.not_mem_nil, or_false] at hk
  have hor : o = .error ∨ o ≠ .error := by cases o <;> simp
  rcases hk with rfl | rfl | rfl
  · rcases hor with rfl | hor
    · exact .altSecond (.altSecond (.altSecond hx ho) (hlu (by decide))) (hfu (by decide))
    · exact .altFirst (.altFirst (.altSecond hx ho) hor) hor
  · rcases hor with rfl | hor
    · exact .altSecond (.altSecond (.altSecond hx (hg (by decide))) ho) (hfu (by decide))
    · exact .altFirst (.altSecond (.altSecond hx (hg (by decide))) ho) hor
  · exact .altSecond (.altSecond (.altSecond hx (hg (by decide))) (hlu (by decide))) ho

theorem same_three {x : Gr} (hx : relB brivlaSim x = true) {l : List Token} {o : Outcome} (ho : Peg cst (three x) l o) (hd : DeepB (three x) l o) :
    Same (three x) l o := by
  intro l' hl
  obtain ⟨_, o2, h2, ⟨_, o1, h1, ⟨_, o0, h0, d0, k0⟩, k1⟩, k2⟩ := hd
  obtain ⟨o0', h0', r0⟩ := d0.s hx l' hl
  have hout : o0 ≠ .error → o = o0 := fun hne => ho.unique _ (.altFirst (.altFirst (.altFirst h0 hne) hne) hne)
  have hout' : o0' ≠ .error → Peg cst (three x) l' o0' := fun hne => .altFirst (.altFirst (.altFirst h0' hne) hne) hne
  cases r0 with
  | ok a b c => exact ⟨_, hout' nofun, by rw [hout nofun]; exact .ok a b c⟩
  | failure => exact ⟨_, hout' nofun, by rw [hout nofun]; exact .failure⟩
  | error =>
    have halt : ∀ {y l}, Peg cst (.call (.word y)) l .error → Peg cst (brivlaAlt y) l .error :=
      fun h => .wrapBad (.wrapBad (.seqFirst h trivial) trivial) trivial
    rcases brivla_word hl with hw | ⟨k, hk, k', hk', e1, e2, ow, ow', hw, hw', hr⟩
    · have t1 := three_of h0 (k := .Gismu) (by decide) (halt (hw _ (by decide)).1) (fun y hy _ => halt (hw y hy).1)
      have t2 := three_of h0' (k := .Gismu) (by decide) (halt (hw _ (by decide)).2) (fun y hy _ => halt (hw y hy).2)
      rw [ho.unique _ t1]
      exact ⟨_, t2, .error⟩
    · have hdk : ∃ oE, DeepB (brivlaAlt k) l oE := by
        have hk0 := hk
        simp only [brivla, List.mem_cons, List.not_mem_nil, or_false] at hk0
        obtain ⟨hg, dg⟩ := k0 rfl
        rcases hk0 with rfl | rfl | rfl
        · exact ⟨_, dg⟩
        · have := hg.unique _ (halt (e1 .Gismu (by decide) (by decide)))
          obtain ⟨_, dl⟩ := k1 this
          exact ⟨_, dl⟩
        · have := hg.unique _ (halt (e1 .Gismu (by decide) (by decide)))
          obtain ⟨hlu, _⟩ := k1 this
          have := hlu.unique _ (halt (e1 .Lujvo (by decide) (by decide)))
          obtain ⟨_, df⟩ := k2 this
          exact ⟨_, df⟩
      obtain ⟨_, hdk⟩ := hdk
      obtain ⟨oE, oE', hE, hE', hrel⟩ := brivla_alt hk hk' hw hw' hr hdk
      rw [ho.unique _ (three_of h0 hk hE (fun y hy hne => halt (e1 y hy hne)))]
      exact ⟨_, three_of h0' hk' hE' (fun y hy hne => halt (e2 y hy hne)), hrel⟩

/-- An alternative after one that is read alike. -/
theorem same_next {a b : Gr} (hb : relB brivlaSim b = true) {l : List Token} {o : Outcome} (ho : Peg cst (.alt a b) l o) (hd : DeepB (.alt a b) l o)
    (ha : ∀ oa, Peg cst a l oa → DeepB a l oa → Same a l oa) : Same (.alt a b) l o := by
  obtain ⟨_, oa, h1, d1, k1⟩ := hd
  exact same_alt h1 (ha oa h1 d1) (fun he => (k1 he).2.s hb) ho

theorem brivlaCert : RelCert cst Alike (fun a b => blindL a = blindL b) notBrivla true (fun _ => false) isTanruUnit2 brivlaSim
    (fun _ => true) brivlaPosts where
  vals := blindRel
  isRaw := fun _ _ _ _ hx h ho => alike_raw hx h ho
  isAny := fun _ _ _ _ _ h ho => alike_any h ho
  isDead := by intro r l l' h; cases h
  isBase := by
    intro r l l' o hr h ho hd
    cases r <;> first | cases hr | skip
    suffices hs : Same (cst .TanruUnit2) l o by
      obtain ⟨o', h1, h2⟩ := hs l' h
      exact ⟨o', .call h1, h2⟩
    refine same_next (by decide +kernel) ho hd fun _ ho hd => ?_
    refine same_next (by decide +kernel) ho hd fun _ ho hd => ?_
    refine same_next (by decide +kernel) ho hd fun _ ho hd => ?_
    refine same_next (by decide +kernel) ho hd fun _ ho hd => ?_
    refine same_next (by decide +kernel) ho hd fun _ ho hd => ?_
    refine same_next (by decide +kernel) ho hd fun _ ho hd => ?_
    exact same_three (by decide +kernel) ho hd
  isSim := fun r h hb => cst_brivla r h hb

end Sneturfahi
