import Verif.Props.Quotes
import Verif.Proof.CstNull

/-!
# C70: letters with several `bu`
-/

namespace Sneturfahi.Props

open Spec

/-- The node of a letter made of a word and `bu`s. -/
def letterFields (x : Token) (bs : List Token) : List Val :=
  [.many [], .node .BuInner [.leaf .token x], .many (bs.map (.leaf .token)), .many []]

/-- A word and `bu`s. -/
def letterScene (x : Token) (bs : List Token) : Scene where
  steps :=
    { raw := fun s i => if i = 0 then [.ok 1 false, .error] else if i = 1 then (if s = .Bu then [.ok 2 false] else [.error])
        else if i = 2 then [.lost] else [.error]
      any := fun i => if i = 0 then [.ok 1 false] else if i = 1 then [.ok 2 false] else if i = 2 then [.lost] else [.error]
      over := fun r i => if i = 0 then (if r = .Lerfu then some [.ok 3 true] else if r = .ZeiClause then some [.error] else none) else none }
  sat := fun i s => if i = 0 then s = x :: bs else if i = 1 then s = bs else if i = 2 then (∃ b, s = bs.drop 1 ∧ bs.head? = some b) else s = []
  name := .Lerfu_Bu
  fields := letterFields x bs

theorem bu_raw : cst (.word .Bu) = .raw .Bu := rfl

theorem bus_many {bs : List Token} (hb : ∀ b ∈ bs, b.selmaho = .Bu) :
    Peg cst (.many0 (.call (.word .Bu))) bs (.ok [] [.many (bs.map (.leaf .token))]) := by
  induction bs with
  | nil => exact .many0End (.call (by rw [bu_raw]; exact .rawEnd))
  | cons b bs ih =>
    have h1 : Peg cst (.call (.word .Bu)) (b :: bs) (.ok bs [.leaf .token b]) := .call (by rw [bu_raw]; exact .raw (hb b (by simp)))
    exact .many0More h1 (by simp) (ih (fun x hx => hb x (by simp [hx])))

theorem bus_many1 {bs : List Token} (hb : ∀ b ∈ bs, b.selmaho = .Bu) (hne : bs ≠ []) :
    Peg cst (.many1 (.call (.word .Bu))) bs (.ok [] [.many (bs.map (.leaf .token))]) := by
  cases bs with
  | nil => exact absurd rfl hne
  | cons b bs =>
    have h1 : Peg cst (.call (.word .Bu)) (b :: bs) (.ok bs [.leaf .token b]) := .call (by rw [bu_raw]; exact .raw (hb b (by simp)))
    exact .many1 h1 (bus_many (fun x hx => hb x (by simp [hx])))

theorem bahe_before_bu {x : Token} {bs : List Token} (hb : ∀ b ∈ bs, b.selmaho = .Bu) (hne : bs ≠ []) :
    Peg cst (.call (.word .Bahe)) (x :: bs) .error := by
  have hz : cst (.word .Bahe) = .seq (.raw .Bahe) (.seq (.not (.call (.word .Bu))) (.not (.call (.word .Zei)))) := rfl
  refine .call ?_
  rw [hz]
  by_cases hx : x.selmaho = .Bahe
  · cases bs with
    | nil => exact absurd rfl hne
    | cons b bs =>
      refine .seqSecond (.raw hx) (.seqFirst (.notThere (r := bs) (vs := [.leaf .token b]) (.call ?_)) trivial) trivial
      rw [bu_raw]
      exact .raw (hb b (by simp))
  · exact .seqFirst (.rawOther hx) trivial

theorem indicators_end : Peg cst (.call .Indicators) [] .error := by
  obtain ⟨o, ho⟩ := peg_total .Indicators []
  have := peg_before_niho ho (.inl rfl)
  rw [haltG, (show beforeTab [.Niho] nihoUnknown .Indicators = .dead by decide +kernel)] at this
  cases this
  exact ho

theorem inner_here {x : Token} {bs : List Token} (hx : ¬ NoLetter x.selmaho) :
    Peg cst (.call .BuInner) (x :: bs) (.ok bs [.node .BuInner [.leaf .token x]]) := by
  have he : cst .BuInner = .postCond (.selmahoNotIn [.Bu, .Zei, .Si, .Su, .Sa, .Faho]) (.wrap (.node .BuInner) (.any .token)) := rfl
  refine .call ?_
  rw [he]
  refine .post (.wrap .any) ?_
  simpa [PostCond.holds, CShape.build, NoLetter] using hx

theorem lerfu_bus {x : Token} {bs : List Token} (hx : ¬ NoLetter x.selmaho) (hb : ∀ b ∈ bs, b.selmaho = .Bu) (hne : bs ≠ []) :
    Peg cst (.call .Lerfu) (x :: bs) (.ok [] [.node .Lerfu_Bu (letterFields x bs)]) := by
  have hz : cst .Lerfu = .alt (.wrap (.node .Lerfu_Bu) (.seq (.opt (.call (.word .Bahe))) (.seq (.call .BuInner)
    (.seq (.many1 (.call (.word .Bu))) (.many0 (.call .Indicators)))))) (.wrap (.node .Lerfu_By) (.call (.word .By))) := rfl
  refine .call ?_
  rw [hz]
  exact .altFirst (.wrap (.seq (.optAbsent (bahe_before_bu hb hne)) (.seq (inner_here hx) (.seq (bus_many1 hb hne)
    (.many0End indicators_end))))) nofun

theorem zei_bus {x : Token} {bs : List Token} (hx : ¬ NoLetter x.selmaho) (hb : ∀ b ∈ bs, b.selmaho = .Bu) (hne : bs ≠ []) :
    Peg cst (.call .ZeiClause) (x :: bs) .error := by
  have hz : cst .ZeiClause = .wrap (.node .ZeiClause) (.seq (.many0 (.call (.word .Bahe))) (.seq (.call .BuInner)
    (.seq (.many0 (.call .ZeiBuInner)) (.seq (.call .ZeiTail) (.seq (.not (.call (.word .Zei))) (.seq (.not (.call (.word .Bu)))
      (.opt (.call .Indicators)))))))) := rfl
  have hi : cst .ZeiBuInner = .wrap (.node .ZeiBuInner) (.seq (.opt (.call .ZeiTail)) (.many1 (.call (.word .Bu)))) := rfl
  have ht : cst .ZeiTail = .wrap (.node .ZeiTail) (.many1 (.wrap .tuple (.seq (.call (.word .Zei)) (.any .token)))) := rfl
  have hzei : ∀ l : List Token, (∀ b ∈ l, b.selmaho = .Bu) → Peg cst (.call .ZeiTail) l .error := by
    intro l hl
    have : Peg cst (.call (.word .Zei)) l .error := by
      refine word_error (.inr rfl) ?_
      rintro ⟨bs, t, q, h1, _, h3⟩
      have := hl t (by rw [h1]; simp)
      rw [h3] at this
      cases this
    refine .call ?_
    rw [ht]
    exact .wrapBad (.many1First (.wrapBad (.seqFirst this trivial) trivial) trivial) trivial
  have hinner : Peg cst (.call .ZeiBuInner) bs (.ok [] [.node .ZeiBuInner [.many [], .many (bs.map (.leaf .token))]]) := by
    refine .call ?_
    rw [hi]
    exact .wrap (.seq (.optAbsent (hzei bs hb)) (bus_many1 hb hne))
  have hend : Peg cst (.call .ZeiBuInner) [] .error := by
    refine .call ?_
    rw [hi]
    exact .wrapBad (.seqSecond (.optAbsent (hzei [] nofun)) (.many1First (bu_error nofun) trivial) trivial) trivial
  refine .call ?_
  rw [hz]
  refine .wrapBad (.seqSecond (.many0End (bahe_before_bu hb hne)) (.seqSecond (inner_here hx) (.seqSecond
    (.many0More hinner ?_ (.many0End hend)) (.seqFirst (hzei [] nofun) trivial) trivial) trivial) trivial) trivial
  cases bs with
  | nil => exact absurd rfl hne
  | cons _ _ => simp

theorem letterScene_right {x : Token} {bs : List Token} (hx : ¬ NoLetter x.selmaho) (hb : ∀ b ∈ bs, b.selmaho = .Bu) (hne : bs ≠ []) :
    (letterScene x bs).Right where
  raw s i l o hi h := by
    match i with
    | 0 =>
      simp only [letterScene, if_true] at hi
      subst hi
      by_cases hs : x.selmaho = s
      · have := h.unique _ (.raw hs)
        subst this
        exact ⟨.ok 1 false, by simp [letterScene], by simp [letterScene], by simp, by simp, by simp, nofun⟩
      · have := h.unique _ (.rawOther hs)
        subst this
        exact ⟨.error, by simp [letterScene], trivial⟩
    | 1 =>
      simp only [letterScene, Nat.one_ne_zero, if_false, if_true] at hi
      subst hi
      cases l with
      | nil => exact absurd rfl hne
      | cons b bs =>
        by_cases hs : s = .Bu
        · subst hs
          have := h.unique _ (.raw (hb b (by simp)))
          subst this
          exact ⟨.ok 2 false, by simp [letterScene], by simp [letterScene], by simp, by simp, by simp, nofun⟩
        · have := h.unique _ (.rawOther (by rw [hb b (by simp)]; exact fun h => hs h.symm))
          subst this
          exact ⟨.error, by simp [letterScene, hs], trivial⟩
    | 2 => exact ⟨.lost, by simp [letterScene], goes_lost⟩
    | n + 3 =>
      simp [letterScene] at hi
      subst hi
      have := h.unique _ .rawEnd
      subst this
      exact ⟨.error, by simp [letterScene], trivial⟩
  any k i l o hi h := by
    match i with
    | 0 =>
      simp only [letterScene, if_true] at hi
      subst hi
      have := h.unique _ .any
      subst this
      exact ⟨.ok 1 false, by simp [letterScene], by simp [letterScene], by simp, by simp, by simp, nofun⟩
    | 1 =>
      simp only [letterScene, Nat.one_ne_zero, if_false, if_true] at hi
      subst hi
      cases l with
      | nil => exact absurd rfl hne
      | cons b bs =>
        have := h.unique _ .any
        subst this
        exact ⟨.ok 2 false, by simp [letterScene], by simp [letterScene], by simp, by simp, by simp, nofun⟩
    | 2 => exact ⟨.lost, by simp [letterScene], goes_lost⟩
    | n + 3 =>
      simp [letterScene] at hi
      subst hi
      have := h.unique _ .anyEnd
      subst this
      exact ⟨.error, by simp [letterScene], trivial⟩
  over r i l o ws hr hi h := by
    match i with
    | 0 =>
      simp only [letterScene, if_true] at hi hr
      subst hi
      split at hr
      · rename_i he
        subst he
        cases hr
        have := h.unique _ (lerfu_bus hx hb hne)
        subst this
        exact ⟨.ok 3 true, by simp, by simp [letterScene], by simp, by simp, by simp, fun _ => .head .self⟩
      · split at hr
        · rename_i he
          subst he
          cases hr
          have := h.unique _ (zei_bus hx hb hne)
          subst this
          exact ⟨.error, by simp, trivial⟩
        · cases hr
    | n + 1 => simp [letterScene] at hr

/-- **C70.** Any other word with one or more `bu` is a text, in which the word and all the `bu` make one letter. -/
theorem C70_letters (p : Profile) (ptr : Nat) (x : Token) (bs : List Token) (hx : ¬ NoLetter x.selmaho) (hb : ∀ b ∈ bs, b.selmaho = .Bu)
    (hne : bs ≠ []) : ∃ root, parseCst p ⟨ptr, x :: bs⟩ = .val (.ok root) ∧
      PartOf (.node .Lerfu_Bu [.many [], .node .BuInner [.leaf .token x], .many (bs.map (.leaf .token)), .many []]) root := by
  refine scan_parses (letterScene x bs) (letterScene_right hx hb hne) 100 3 p ptr _ (by simp [letterScene]) ?_ (by simp [letterScene])
  exact show scan (letterScene ⟨false, .Koha, ⟨0, 0⟩⟩ []).steps 100 .Text 0 = _ by decide +kernel

/-- The example: `ko'a bu bu`. -/
example : ∃ (x : Token) (bs : List Token), ¬ NoLetter x.selmaho ∧ (∀ b ∈ bs, b.selmaho = .Bu) ∧ bs.length = 2 :=
  ⟨⟨false, .Koha, ⟨0, 1⟩⟩, [⟨false, .Bu, ⟨2, 3⟩⟩, ⟨false, .Bu, ⟨4, 5⟩⟩], by simp [NoLetter], by simp, rfl⟩

end Sneturfahi.Props
