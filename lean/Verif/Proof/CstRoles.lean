import Verif.Spec.Roles
import Verif.Proof.CstBrivla
import Verif.Proof.CstSkip

/-!
# Words that play the same part (brivla apart)
-/

namespace Sneturfahi

open Spec

/-- The part a word plays, brivla told apart. -/
def part (s : Selmaho) : Selmaho :=
  if s ∈ feelings then .Ui
  else if s ∈ erasers then .Si
  else if Idle s then .AnyText
  else s

def parts (toks : List Token) : List Selmaho := toks.map (fun t => part t.selmaho)

/-- Nodes of indicators get one name. -/
def namePart : NodeName → NodeName
  | .Indicator_Cai => .Indicator_Ui
  | .Indicator_Nai => .Indicator_Ui
  | .Indicator_Daho => .Indicator_Ui
  | .Indicator_Fuho => .Indicator_Ui
  | .Indicator_Y => .Indicator_Ui
  | .word s => .word (part s)
  | n => n

mutual
/-- A tree in which of a token only its part is left. -/
def dim : Val → Val
  | .leaf k t => .leaf k ⟨false, part t.selmaho, ⟨0, 0⟩⟩
  | .node n fs => .node (namePart n) (dimL fs)
  | .tuple fs => .tuple (dimL fs)
  | .many vs => .many (dimL vs)
  | .sep first rest => .sep (dim first) (dimL rest)
def dimL : List Val → List Val
  | [] => []
  | v :: vs => dim v :: dimL vs
end

theorem dimL_eq (vs : List Val) : dimL vs = vs.map dim := by
  induction vs with
  | nil => rfl
  | cons v vs ih => simp [dimL, ih]

theorem dim_present (v : Val) : (dim v).present = v.present := by
  cases v with
  | many vs => cases vs <;> simp [dim, dimL, Val.present]
  | _ => simp [dim, Val.present]

theorem dim_build {sh : CShape} {a b : List Val} (h : dimL a = dimL b) : dim (sh.build a) = dim (sh.build b) := by
  cases sh with
  | node n => simp [CShape.build, dim, h]
  | tuple => simp [CShape.build, dim, h]
  | sep =>
    have key : ∀ a : List Val, dim (CShape.sep.build a) = (match dimL a with
        | [first, .many rest] => .sep first rest
        | vs => .tuple vs) := by
      intro a
      match a with
      | [] => rfl
      | [x] => rfl
      | [x, .many rest] => simp [CShape.build, dim, dimL]
      | [x, .leaf _ _] => rfl
      | [x, .node n fs] => rfl
      | [x, .tuple _] => rfl
      | [x, .sep _ _] => rfl
      | x :: y :: z :: w =>
        simp only [CShape.build, dim, dimL]
        split
        · rename_i h; simp at h
        · rfl
    rw [key, key, h]

/-- Words that have a part of their own. -/
def ownPart (x : Selmaho) : Bool := !(feelings.contains x || erasers.contains x || decide (Idle x))

theorem part_own {x : Selmaho} (hx : ownPart x = true) : ∀ y, part y = x ↔ y = x := by
  simp only [ownPart, Bool.not_eq_true', Bool.or_eq_false_iff, List.contains_eq_mem, decide_eq_false_iff_not] at hx
  obtain ⟨⟨h1, h2⟩, h3⟩ := hx
  intro y
  unfold part
  split
  · rename_i h
    exact ⟨fun e => absurd (e ▸ (by decide : Selmaho.Ui ∈ feelings)) h1, fun e => absurd (e ▸ h) h1⟩
  · split
    · rename_i h
      exact ⟨fun e => absurd (e ▸ (by decide : Selmaho.Si ∈ erasers)) h2, fun e => absurd (e ▸ h) h2⟩
    · split
      · rename_i h
        exact ⟨fun e => absurd (e ▸ (by decide : Idle Selmaho.AnyText)) h3, fun e => absurd (e ▸ h) h3⟩
      · rfl

/-- Words of which none becomes a letter. -/
def noLetters : List Selmaho := [.Bu, .Zei, .Si, .Su, .Sa, .Faho]

theorem part_letters (x : Selmaho) : noLetters.contains (part x) = noLetters.contains x := by
  cases x <;> decide +kernel

def partPosts : PostCond → NodeName → Bool
  | .anyFieldPresent, n => n == .Time || n == .Space
  | .selmahoNotIn l, n => n == .BuInner && l == noLetters

theorem dimRel : ValRel (fun a b => dimL a = dimL b) (fun _ => true) partPosts where
  nil := rfl
  append := by intro a b c d h1 h2; simp [dimL_eq] at *; rw [h1, h2]
  many := by intro a b h; simp [dimL, dim, h]
  more := by
    intro a b c d e f h1 h2
    simp only [dimL, dim, List.cons.injEq, Val.many.injEq] at h2 ⊢
    simp only [dimL_eq, List.map_append] at h1 h2 ⊢
    rw [h1, h2.1, h2.2]
    simp
  build := by intro sh a b hs h; simp only [dimL]; rw [dim_build h]
  post := by
    intro c n a b hp h
    have hn' : dimL a = dimL b := by simpa [dimL, dim] using h
    cases c with
    | anyFieldPresent =>
      simp only [PostCond.holds]
      have : ∀ a : List Val, a.any Val.present = (dimL a).any Val.present := by
        intro a
        rw [dimL_eq, List.any_map]
        congr 1
        funext v
        exact (dim_present v).symm
      rw [this a, this b, hn']
    | selmahoNotIn l =>
      simp only [partPosts, Bool.and_eq_true, beq_iff_eq] at hp
      obtain ⟨_, rfl⟩ := hp
      match a, b with
      | [], [] => rfl
      | [], _ :: _ => simp [dimL] at hn'
      | _ :: _, [] => simp [dimL] at hn'
      | [x], y :: z :: w => simp [dimL] at hn'
      | x :: x' :: w, [y] => simp [dimL] at hn'
      | x :: x' :: w, y :: z :: w' => simp [PostCond.holds]
      | [x], [y] =>
        simp only [dimL, List.cons.injEq, and_true] at hn'
        cases x <;> cases y <;> simp [dim, PostCond.holds] at hn' ⊢
        rename_i t _ t'
        have := part_letters t.selmaho
        rw [hn'.2, part_letters] at this
        simpa [List.contains_eq_mem] using this.symm

/-- All productions but single indicators and words that are nowhere asked for. -/
def partSim : CRule → Bool
  | .word x => ownPart x
  | _ => true

def isIndicator : CRule → Bool
  | .Indicator => true
  | _ => false

abbrev relP : Gr → Bool := relT ownPart true (fun _ => false) partSim (fun _ => true) partPosts

theorem cst_part (r : CRule) (h : partSim r = true) (hb : isIndicator r = false) : relP (cstN r) = true := by
  revert h hb
  cases r with
  | word s => cases s <;> decide +kernel
  | _ => decide +kernel

/-- The same parts, fewer than `n` of them. -/
def Akin (n : Nat) (l l' : List Token) : Prop := parts l = parts l' ∧ l.length < n

theorem akin_raw {n : Nat} {x : Selmaho} (hx : ownPart x = true) {l l' : List Token} {o : Outcome} (h : Akin n l l') (ho : Peg cstN (.raw x) l o) :
    ∃ o', Peg cstN (.raw x) l' o' ∧ RelOut (Akin n) (fun a b => dimL a = dimL b) l l' o o' := by
  obtain ⟨h, hn⟩ := h
  cases l with
  | nil =>
    cases l' with
    | nil => cases ho; exact ⟨_, .rawEnd, .error⟩
    | cons _ _ => cases h
  | cons t q =>
    cases l' with
    | nil => cases h
    | cons t' q' =>
      simp only [parts, List.map_cons, List.cons.injEq, List.length_cons] at h hn
      cases ho with
      | raw ht =>
        have ht' : t'.selmaho = x := by
          rw [← part_own hx, ← h.1, part_own hx]; exact ht
        exact ⟨_, .raw ht', .ok ⟨h.2, by omega⟩ (by simp) (by simp [dimL, dim, ht, ht'])⟩
      | rawOther ht =>
        refine ⟨_, .rawOther (fun ht' => ht ?_), .error⟩
        rw [← part_own hx, h.1, part_own hx]; exact ht'

theorem akin_any {n : Nat} {k : LeafKind} {l l' : List Token} {o : Outcome} (h : Akin n l l') (ho : Peg cstN (.any k) l o) :
    ∃ o', Peg cstN (.any k) l' o' ∧ RelOut (Akin n) (fun a b => dimL a = dimL b) l l' o o' := by
  obtain ⟨h, hn⟩ := h
  cases l with
  | nil =>
    cases l' with
    | nil => cases ho; exact ⟨_, .anyEnd, .error⟩
    | cons _ _ => cases h
  | cons t q =>
    cases l' with
    | nil => cases h
    | cons t' q' =>
      simp only [parts, List.map_cons, List.cons.injEq, List.length_cons] at h hn
      cases ho
      exact ⟨_, .any, .ok ⟨h.2, by omega⟩ (by simp) (by simp [dimL, dim, h.1])⟩

/-- `ba'e`, `bu` and `zei`. -/
def partSim0 : CRule → Bool
  | .word .Bahe => true
  | .word .Bu => true
  | .word .Zei => true
  | _ => false

abbrev relP0 : Gr → Bool := relT ownPart true (fun _ => false) partSim0 (fun _ => true) partPosts

theorem cst_part0 (r : CRule) (h : partSim0 r = true) : relP0 (cstN r) = true := by
  revert h
  cases r with
  | word s => cases s <;> decide +kernel
  | _ => decide +kernel

theorem partCert0 (n : Nat) : RelCert cstN (Akin n) (fun a b => dimL a = dimL b) ownPart true (fun _ => false) (fun _ => false) partSim0
    (fun _ => true) partPosts where
  vals := dimRel
  isRaw := fun _ _ _ _ hx h ho => akin_raw hx h ho
  isAny := fun _ _ _ _ _ h ho => akin_any h ho
  isDead := by intro r l l' h; cases h
  isBase := by intro r l l' o h; cases h
  isSim := fun r h _ => cst_part0 r h

/-- The variants for indicators. -/
def indicatorNode : Selmaho → NodeName
  | .Ui => .Indicator_Ui
  | .Cai => .Indicator_Cai
  | .Nai => .Indicator_Nai
  | .Daho => .Indicator_Daho
  | .Fuho => .Indicator_Fuho
  | _ => .Indicator_Y

def indicatorAlt (x : Selmaho) : Gr := .wrap (.node (indicatorNode x)) (.call (.word x))

def six : Gr := .alt (.alt (.alt (.alt (.alt (indicatorAlt .Ui) (indicatorAlt .Cai)) (indicatorAlt .Nai)) (indicatorAlt .Daho)) (indicatorAlt .Fuho)) (indicatorAlt .Y)

theorem cst_six : cstN .Indicator = .seq six (.not (.call (.word .Bu))) := rfl

theorem six_of {l : List Token} {k : Selmaho} (hk : k ∈ indicating) {o : Outcome} (ho : Peg cstN (indicatorAlt k) l o)
    (hne : ∀ y ∈ indicating, y ≠ k → Peg cstN (indicatorAlt y) l .error) : Peg cstN six l o := by
  have hor : o = .error ∨ o ≠ .error := by cases o <;> simp
  have all : ∀ y ∈ indicating, o = .error → Peg cstN (indicatorAlt y) l .error := by
    intro y hy he
    by_cases e : y = k
    · subst e; subst he; exact ho
    · exact hne y hy e
  rcases hor with rfl | hor
  · have h := fun y hy => all y hy rfl
    exact .altSecond (.altSecond (.altSecond (.altSecond (.altSecond (h .Ui (by decide)) (h .Cai (by decide))) (h .Nai (by decide))) (h .Daho (by decide)))
      (h .Fuho (by decide))) (h .Y (by decide))
  · simp only [indicating, List.mem_cons, List.not_mem_nil, or_false] at hk
    rcases hk with rfl | rfl | rfl | rfl | rfl | rfl
    · exact .altFirst (.altFirst (.altFirst (.altFirst (.altFirst ho hor) hor) hor) hor) hor
    · exact .altFirst (.altFirst (.altFirst (.altFirst (.altSecond (hne _ (by decide) (by decide)) ho) hor) hor) hor) hor
    · exact .altFirst (.altFirst (.altFirst (.altSecond (.altSecond (hne _ (by decide) (by decide)) (hne _ (by decide) (by decide))) ho) hor) hor) hor
    · exact .altFirst (.altFirst (.altSecond (.altSecond (.altSecond (hne _ (by decide) (by decide)) (hne _ (by decide) (by decide)))
        (hne _ (by decide) (by decide))) ho) hor) hor
    · exact .altFirst (.altSecond (.altSecond (.altSecond (.altSecond (hne _ (by decide) (by decide)) (hne _ (by decide) (by decide)))
        (hne _ (by decide) (by decide))) (hne _ (by decide) (by decide))) ho) hor
    · exact .altSecond (.altSecond (.altSecond (.altSecond (.altSecond (hne _ (by decide) (by decide)) (hne _ (by decide) (by decide)))
        (hne _ (by decide) (by decide))) (hne _ (by decide) (by decide))) (hne _ (by decide) (by decide))) ho

theorem part_indicating {x y : Selmaho} (h : part x = part y) (hx : x ∈ indicating) : y ∈ indicating := by
  have hx' : x ∈ feelings := hx
  have e : part y = .Ui := by rw [← h]; simp [part, hx']
  unfold part at e
  split at e
  · assumption
  · split at e
    · cases e
    · split at e
      · cases e
      · rw [e]; decide

theorem RelOut.mono {R R' : List Token → List Token → Prop} {V : List Val → List Val → Prop} {l l' : List Token} {o o' : Outcome}
    (hR : ∀ a b, R a b → R' a b) (h : RelOut R V l l' o o') : RelOut R' V l l' o o' := by
  cases h with
  | error => exact .error
  | failure => exact .failure
  | ok a b c => exact .ok (hR _ _ a) b c

abbrev wordTail : Gr := .seq (.opt (.call .Indicators)) (.seq (.not (.call (.word .Bu))) (.not (.call (.word .Zei))))

theorem indicator_body {x : Selmaho} (hx : x ∈ indicating) :
    cstN (.word x) = .wrap (.node (.word x)) (.seq (.many0 (.call (.word .Bahe))) (.seq (.raw x) wordTail)) := by
  revert hx
  cases x <;> first | (intro _; rfl) | (intro hx; exact absurd hx (by decide))

theorem indicator_miss {x : Selmaho} (hx : x ∈ indicating) {l l1 : List Token} {vs : List Val} (hb : Peg cstN (.many0 (.call (.word .Bahe))) l (.ok l1 vs))
    (hne : ∀ t q, l1 = t :: q → t.selmaho ≠ x) : Peg cstN (indicatorAlt x) l .error := by
  refine .wrapBad (.call ?_) trivial
  rw [indicator_body hx]
  refine .wrapBad (.seqSecond hb (.seqFirst ?_ trivial) trivial) trivial
  cases l1 with
  | nil => exact .rawEnd
  | cons t q => exact .rawOther (hne t q rfl)

theorem indicator_hit {x : Selmaho} (hx : x ∈ indicating) {l q : List Token} {t : Token} {vs : List Val} {oR : Outcome}
    (hb : Peg cstN (.many0 (.call (.word .Bahe))) l (.ok (t :: q) vs)) (ht : t.selmaho = x) (hR : Peg cstN wordTail q oR) :
    Peg cstN (indicatorAlt x) l (match oR with
      | .ok r ws => .ok r [.node (indicatorNode x) [.node (.word x) (vs ++ ([.leaf .token t] ++ ws))]]
      | o => o) := by
  have hc : Peg cstN (.call (.word x)) l (match oR with | .ok r ws => .ok r [.node (.word x) (vs ++ ([.leaf .token t] ++ ws))] | o => o) := by
    refine .call ?_
    rw [indicator_body hx]
    cases oR with
    | ok r ws => exact .wrap (.seq hb (.seq (.raw ht) hR))
    | error => exact .wrapBad (.seqSecond hb (.seqSecond (.raw ht) hR trivial) trivial) trivial
    | failure => exact .wrapBad (.seqSecond hb (.seqSecond (.raw ht) hR trivial) trivial) trivial
  cases oR with
  | ok r ws => exact .wrap hc
  | error => exact .wrapBad hc trivial
  | failure => exact .wrapBad hc trivial

theorem partCert (n : Nat) : RelCert cstN (Akin n) (fun a b => dimL a = dimL b) ownPart true (fun _ => false) isIndicator partSim
    (fun _ => true) partPosts := by
  induction n using Nat.strongRecOn with
  | ind n ih =>
    refine ⟨dimRel, fun _ _ _ _ hx h ho => akin_raw hx h ho, fun _ _ _ _ _ h ho => akin_any h ho, (by intro r l l' h; cases h), ?_,
      fun r h hb => cst_part r h hb⟩
    intro r l l' o hr h ho _
    cases r <;> first | cases hr | skip
    suffices hs : ∃ o', Peg cstN (cstN .Indicator) l' o' ∧ RelOut (Akin n) (fun a b => dimL a = dimL b) l l' o o' by
      obtain ⟨o', h1, h2⟩ := hs
      exact ⟨o', .call h1, h2⟩
    rw [cst_six] at ho ⊢
    obtain ⟨_, l1, vs, _, _, hb⟩ := bahes_total l
    replace hb := peg_skip hb false nofun
    simp only [skipNai] at hb
    obtain ⟨_, hb', hr⟩ := peg_rel (partCert0 n) hb (by decide +kernel) l' h
    -- the six alternatives
    have hsix : ∃ oa oa', Peg cstN six l oa ∧ Peg cstN six l' oa' ∧ RelOut (Akin n) (fun a b => dimL a = dimL b) l l' oa oa' := by
      cases hr with
      | @ok _ l1' _ vs' hR hi hv =>
        have miss : (∀ t q, l1 = t :: q → t.selmaho ∉ indicating) → (∀ t q, l1' = t :: q → t.selmaho ∉ indicating) →
            ∃ oa oa', Peg cstN six l oa ∧ Peg cstN six l' oa' ∧ RelOut (Akin n) (fun a b => dimL a = dimL b) l l' oa oa' := by
          intro h1 h2
          have e1 : ∀ y ∈ indicating, Peg cstN (indicatorAlt y) l .error := fun y hy => indicator_miss hy hb (fun t q e he => h1 t q e (he ▸ hy))
          have e2 : ∀ y ∈ indicating, Peg cstN (indicatorAlt y) l' .error := fun y hy => indicator_miss hy hb' (fun t q e he => h2 t q e (he ▸ hy))
          exact ⟨_, _, six_of (k := .Ui) (by decide) (e1 _ (by decide)) (fun y hy _ => e1 y hy),
            six_of (k := .Ui) (by decide) (e2 _ (by decide)) (fun y hy _ => e2 y hy), .error⟩
        cases l1 with
        | nil =>
          cases l1' with
          | cons _ _ => cases hR.1
          | nil => exact miss nofun nofun
        | cons t q =>
          cases l1' with
          | nil => cases hR.1
          | cons t' q' =>
            obtain ⟨hR, hlen⟩ := hR
            simp only [parts, List.map_cons, List.cons.injEq, List.length_cons] at hR hlen
            obtain ⟨ht, hq⟩ := hR
            by_cases hk : t.selmaho ∈ indicating
            · have hk' := part_indicating ht hk
              obtain ⟨oT, hT⟩ : ∃ oT, Peg cstN wordTail q oT := by
                obtain ⟨o, ho⟩ := peg_total (.word t.selmaho) l
                rw [← peg_cstN] at ho
                cases ho with
                | call ho =>
                  rw [indicator_body hk] at ho
                  obtain ⟨_, ho⟩ := peg_inner ho
                  obtain ⟨_, ho⟩ := peg_second ho hb
                  exact peg_second ho (.raw rfl)
              obtain ⟨oT', hT', hrel⟩ := peg_rel (ih (q.length + 1) (by omega)) hT (by decide +kernel) q' ⟨hq, by omega⟩
              refine ⟨_, _, six_of hk (indicator_hit hk hb rfl hT) (fun y hy hne => indicator_miss hy hb (by rintro t0 q0 e; cases e; exact fun h => hne h.symm)),
                six_of hk' (indicator_hit hk' hb' rfl hT') (fun y hy hne => indicator_miss hy hb' (by rintro t0 q0 e; cases e; exact fun h => hne h.symm)), ?_⟩
              have hl1 := Peg.shorter hb
              have hl2 := Peg.shorter hb'
              simp only [List.length_cons] at hl1 hl2
              cases hrel with
              | error => exact .error
              | failure => exact .failure
              | ok hr hi2 hv2 =>
                have hl3 := Peg.shorter hT
                have hl4 := Peg.shorter hT'
                refine .ok ⟨hr.1, by omega⟩ (by omega) ?_
                have e1 : ∀ {x y}, x ∈ indicating → y ∈ indicating → part x = part y → namePart (indicatorNode x) = namePart (indicatorNode y) := by
                  intro x y hx hy
                  revert hx hy
                  cases x <;> first | (intro hx; exact absurd hx (by decide)) | (cases y <;> first | (intro _ hy; exact absurd hy (by decide)) | (intros; first | rfl | (rename_i h; revert h; decide)))
                simp only [dimL_eq, List.map_append, List.map_cons, List.map_nil, dim, (show ∀ s, namePart (.word s) = .word (part s) from fun _ => rfl), ht, e1 hk hk' ht] at hv hv2 ⊢
                rw [hv, hv2]
            · refine miss ?_ ?_
              · rintro _ _ e; cases e; exact hk
              · rintro _ _ e; cases e; exact fun h => hk (part_indicating ht.symm h)
    obtain ⟨oa, oa', ha, ha', hrel⟩ := hsix
    cases hrel with
    | error => rw [ho.unique _ (.seqFirst ha trivial)]; exact ⟨_, .seqFirst ha' trivial, .error⟩
    | failure => rw [ho.unique _ (.seqFirst ha trivial)]; exact ⟨_, .seqFirst ha' trivial, .failure⟩
    | ok hR hi hv =>
      obtain ⟨ob, hob⟩ := peg_second ho ha
      obtain ⟨ob', hob', hrel'⟩ := peg_rel (partCert0 n) hob (by decide +kernel) _ hR
      have s1 := Peg.shorter ha
      have s2 := Peg.shorter ha'
      cases hrel' with
      | error => rw [ho.unique _ (.seqSecond ha hob trivial)]; exact ⟨_, .seqSecond ha' hob' trivial, .error⟩
      | failure => rw [ho.unique _ (.seqSecond ha hob trivial)]; exact ⟨_, .seqSecond ha' hob' trivial, .failure⟩
      | ok hR2 hi2 hv2 =>
        rw [ho.unique _ (.seq ha hob)]
        have s3 := Peg.shorter hob
        have s4 := Peg.shorter hob'
        refine ⟨_, .seq ha' hob', .ok hR2 (by omega) ?_⟩
        simp only [dimL_eq, List.map_append] at hv hv2 ⊢
        rw [hv, hv2]

end Sneturfahi
