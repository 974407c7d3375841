import Verif.Proof.CstNai
import Verif.Props.CstShape
import Verif.Proof.CstFill

/-!
# C75, C76: where `nai` and other indicators go
-/

namespace Sneturfahi.Props

open Spec

theorem naiOk_children {v : Val} (h : naiOk v = true) : (∀ w ∈ children v, naiOk w = true) ∧
    (∀ w ∈ children v, isNai w = true → ∃ gs, v = .node .Indicator_Nai gs) := by
  have hl : ∀ vs : List Val, naiOkL vs = true → ∀ w ∈ vs, naiOk w = true := by
    intro vs
    induction vs with
    | nil => intro _ w hw; cases hw
    | cons v vs ih =>
      intro h w hw
      simp only [naiOkL, Bool.and_eq_true] at h
      rcases List.mem_cons.mp hw with rfl | hw
      · exact h.1
      · exact ih h.2 w hw
  cases v with
  | leaf _ _ => exact ⟨nofun, nofun⟩
  | node n fs =>
    simp only [naiOk, Bool.and_eq_true, Bool.or_eq_true, beq_iff_eq, Bool.not_eq_true', List.any_eq_false] at h
    refine ⟨hl _ h.1, fun w hw hn => ?_⟩
    rcases h.2 with rfl | h2
    · exact ⟨fs, rfl⟩
    · exact absurd hn (by simpa using h2 w hw)
  | tuple fs =>
    simp only [naiOk, Bool.and_eq_true, Bool.not_eq_true', List.any_eq_false] at h
    exact ⟨hl _ h.1, fun w hw hn => absurd hn (by simpa using h.2 w hw)⟩
  | many fs =>
    simp only [naiOk, Bool.and_eq_true, Bool.not_eq_true', List.any_eq_false] at h
    exact ⟨hl _ h.1, fun w hw hn => absurd hn (by simpa using h.2 w hw)⟩
  | sep first rest =>
    simp only [naiOk, Bool.and_eq_true, Bool.not_eq_true', List.any_eq_false] at h
    obtain ⟨⟨⟨h1, h2⟩, h3⟩, h4⟩ := h
    refine ⟨fun w hw => ?_, fun w hw hn => ?_⟩
    · rcases List.mem_cons.mp hw with rfl | hw
      · exact h1
      · exact hl _ h2 w hw
    · rcases List.mem_cons.mp hw with rfl | hw
      · rw [h3] at hn; cases hn
      · exact absurd hn (by simpa using h4 w hw)

theorem naiOk_part {v w : Val} (h : PartOf v w) : naiOk w = true → naiOk v = true := by
  refine PartOf.rec (motive_1 := fun w _ => naiOk w = true → naiOk v = true)
    (motive_2 := fun ws _ => naiOkL ws = true → naiOk v = true) ?_ ?_ ?_ ?_ ?_ ?_ ?_ ?_ h
  all_goals (try simp only [naiOk, naiOkL, Bool.and_eq_true])
  · exact id
  · intro _ _ _ ih h; exact ih h.1
  · intro _ _ ih h; exact ih h.1
  · intro _ _ ih h; exact ih h.1
  · intro _ _ _ ih h; exact ih h.1.1.1
  · intro _ _ _ ih h; exact ih h.1.1.2
  · intro _ _ _ ih h; exact ih h.1
  · intro _ _ _ ih h; exact ih h.2

/-- **C75.** Every `nai` in a tree, other than one quoted, is an indicator (of the word before it or of the text): no
construct of the grammar gets hold of it. -/
theorem C75_nai (p : Profile) (s : Toks) (root : Val) (h : parseCst p s = .val (.ok root)) (v : Val) (fs : List Val)
    (hv : PartOf v root) (hc : .node (.word .Nai) fs ∈ children v) : ∃ gs, v = .node .Indicator_Nai gs := by
  have h1 := peg_nai ((C66_meaning p s root).mp h) _ _ rfl true false (by decide) nofun
  simp only [naiOkL, Bool.and_true] at h1
  exact (naiOk_children (naiOk_part hv h1.1)).2 _ hc (by simp [isNai])

/-- Hence every optional `nai` of the type definitions - of connectives, tenses, modals, vocatives, abstractors - is absent. -/
theorem C75_absent (p : Profile) (s : Toks) (root : Val) (h : parseCst p s = .val (.ok root)) (fs : List Val) :
    ¬ PartOf (.many [.node (.word .Nai) fs]) root := by
  intro hv
  obtain ⟨gs, hg⟩ := C75_nai p s root h _ fs hv (by simp [children])
  cases hg

/-- The fields of the structs and variants of a production that may be empty are filled in some listed text. -/
def fillsAll (e : Gr) : Bool :=
  (nodesIn e).all (fun x => (match x.1 with | .word _ => true | _ => false) ||
    (fieldsOf x.2).zipIdx.all (fun f => !mayBeEmpty f.1 || fillTexts.any (fun t => t.2.contains (x.1, f.2))))

theorem cst_fillsAll (r : CRule) : fillsAll (cst r) = true := by
  cases r with
  | word s => cases s <;> decide +kernel
  | _ => decide +kernel

/-- Every other optional or repeated field of a struct or variant (words apart) is filled in the tree of some text. -/
theorem C75_others (r : CRule) (n : NodeName) (a e : Gr) (k : Nat) (hn : (n, a) ∈ nodesIn (cst r)) (hw : ∀ x, n ≠ .word x)
    (hk : (fieldsOf a)[k]? = some e) (he : mayBeEmpty e = true) :
    ∃ s root fs v vs, parseCst .debug s = .val (.ok root) ∧ PartOf (.node n fs) root ∧ fs[k]? = some (.many (v :: vs)) := by
  have h := cst_fillsAll r
  simp only [fillsAll, List.all_eq_true] at h
  have h := h _ hn
  have hnw : (match n with | .word _ => true | _ => false) = false := by
    cases n with
    | word x => exact absurd rfl (hw x)
    | _ => rfl
  simp only [Bool.false_or, List.all_eq_true] at h
  have hm : (e, k) ∈ (fieldsOf a).zipIdx := by
    rw [List.mem_zipIdx_iff_getElem?]
    exact hk
  have h := h _ hm
  simp only [he, Bool.not_true, Bool.false_or, List.any_eq_true, List.contains_eq_mem, decide_eq_true_eq] at h
  obtain ⟨t, ht, hc⟩ := h
  have hok := fillTexts_ok
  simp only [List.all_eq_true] at hok
  obtain ⟨root, h1, fs, v, vs, h2, h3⟩ := hasFills_part (hok t ht) n k hc
  exact ⟨_, root, fs, v, vs, h1, h2, h3⟩

/-- The texts do parse: `mi pu nai klama`, `mi .e nai do klama`, `coi nai do`, `mi nu nai klama`. -/
theorem C75_examples : ([[.Koha, .Pu, .Nai, .Gismu], [.Koha, .A, .Nai, .Koha, .Gismu], [.Coi, .Nai, .Koha],
    [.Koha, .Nu, .Nai, .Gismu]] : List (List Selmaho)).all (fun l => match tree? (sample l) with
      | some v => (findAt v).any (fun x => x.2.1 == .Indicator_Nai)
      | none => false) = true := by decide +kernel

theorem alt_ok {a b : Gr} {l r : List Token} {vs : List Val} (h : Peg cst (.alt a b) l (.ok r vs)) :
    Peg cst a l (.ok r vs) ∨ Peg cst b l (.ok r vs) := by
  cases h with
  | altFirst h _ => exact .inl h
  | altSecond _ h => exact .inr h

theorem wrap_single {sh : CShape} {a : Gr} {l r : List Token} {vs : List Val} (h : Peg cst (.wrap sh a) l (.ok r vs)) : ∃ i, vs = [i] := by
  obtain ⟨_, _, rfl⟩ := peg_wrap_ok h
  exact ⟨_, rfl⟩

theorem indicator_single {l r : List Token} (vs : List Val) (h : Peg cst (.call .Indicator) l (.ok r vs)) : ∃ i, vs = [i] := by
  have he : cst .Indicator = .seq (.alt (.alt (.alt (.alt (.alt (.wrap (.node .Indicator_Ui) (.call (.word .Ui))) (.wrap (.node .Indicator_Cai) (.call (.word .Cai)))) (.wrap (.node .Indicator_Nai) (.call (.word .Nai)))) (.wrap (.node .Indicator_Daho) (.call (.word .Daho)))) (.wrap (.node .Indicator_Fuho) (.call (.word .Fuho)))) (.wrap (.node .Indicator_Y) (.call (.word .Y)))) (.not (.call (.word .Bu))) := rfl
  cases h with
  | call h =>
    rw [he] at h
    obtain ⟨q, us, ws, h1, h2, rfl⟩ := peg_seq_ok h
    obtain ⟨_, _, rfl⟩ := peg_not_ok h2
    rw [List.append_nil]
    rcases alt_ok h1 with h1 | h1
    · rcases alt_ok h1 with h1 | h1
      · rcases alt_ok h1 with h1 | h1
        · rcases alt_ok h1 with h1 | h1
          · rcases alt_ok h1 with h1 | h1
            · exact wrap_single h1
            · exact wrap_single h1
          · exact wrap_single h1
        · exact wrap_single h1
      · exact wrap_single h1
    · exact wrap_single h1

theorem indicators_single {l r : List Token} (vs : List Val) (h : Peg cst (.call .Indicators) l (.ok r vs)) : ∃ i, vs = [i] := by
  have hi : cst .Indicators = .wrap (.node .Indicators) (.seq (.opt (.call (.word .Fuhe))) (.many1 (.call .Indicator))) := rfl
  cases h with
  | call h =>
    rw [hi] at h
    exact wrap_single h

/-- **C76.** An `Indicators` node has exactly one indicator: the ones that follow are indicators of its word. -/
theorem C76_one (p : Profile) (s : Toks) (root : Val) (h : parseCst p s = .val (.ok root)) (fs : List Val)
    (hn : PartOf (.node .Indicators fs) root) : ∃ fuhe i, fs = [.many fuhe, .many [i]] := by
  obtain ⟨pre, hp⟩ := hn.at
  obtain ⟨a, here, post, hg, _, hpeg⟩ :=
    peg_placed cst_made ((C66_meaning p s root).mp h) _ _ rfl (by decide) pre .Indicators fs (.head hp)
  have ha : a = .seq (.opt (.call (.word .Fuhe))) (.many1 (.call .Indicator)) := by
    simp only [goodNode, Bool.and_eq_true, Bool.or_eq_true, decide_eq_true_eq] at hg
    have := hg.2.resolve_left (by decide)
    have hb : bodyIn .Indicators (cst (home .Indicators)) =
      some (.seq (.opt (.call (.word .Fuhe))) (.many1 (.call .Indicator))) := by decide
    rw [hb] at this
    cases this
    rfl
  subst ha
  obtain ⟨us, hpeg, he⟩ := peg_wrap_ok hpeg
  cases he
  obtain ⟨q, us, ws, h1, h2, rfl⟩ := peg_seq_ok hpeg
  have hf : ∃ fuhe, us = [.many fuhe] := by
    cases h1 with
    | optPresent _ => exact ⟨_, rfl⟩
    | optAbsent _ => exact ⟨[], rfl⟩
  obtain ⟨fuhe, rfl⟩ := hf
  refine ⟨fuhe, ?_⟩
  cases h2 with
  | many1First _ hb => exact hb.elim
  | many1Later _ _ hb => exact hb.elim
  | many1 h2 h3 =>
    obtain ⟨x, hx, h4⟩ := indicator_word ⟨_, h2⟩
    have hk : ∀ y ∈ indicating, wordKind y = .single := by decide
    have h5 := no_indicator_after' (hk x hx) h4
    cases h3 with
    | many0More h6 _ _ => cases h6.unique _ h5
    | many0Later _ _ _ hb => exact hb.elim
    | many0End _ =>
      obtain ⟨i, hi⟩ := indicator_single _ h2
      exact ⟨i, by rw [hi]; rfl⟩

/-- **C76.** A letter made with `bu` has at most one `Indicators` node. -/
theorem C76_letter (p : Profile) (s : Toks) (root : Val) (h : parseCst p s = .val (.ok root)) (fs : List Val)
    (hn : PartOf (.node .Lerfu_Bu fs) root) : ∃ bahe inner bus is, fs = [bahe, inner, bus, .many is] ∧ is.length ≤ 1 := by
  obtain ⟨pre, hp⟩ := hn.at
  obtain ⟨a, here, post, hg, _, hpeg⟩ :=
    peg_placed cst_made ((C66_meaning p s root).mp h) _ _ rfl (by decide) pre .Lerfu_Bu fs (.head hp)
  have hb : bodyIn .Lerfu_Bu (cst (home .Lerfu_Bu)) = some (.seq (.opt (.call (.word .Bahe))) (.seq (.call .BuInner)
      (.seq (.many1 (.call (.word .Bu))) (.many0 (.call .Indicators))))) := by decide
  simp only [goodNode, Bool.and_eq_true, Bool.or_eq_true, decide_eq_true_eq] at hg
  have ha := hg.2.resolve_left (by decide)
  rw [hb] at ha
  cases ha
  obtain ⟨us, hpeg, he⟩ := peg_wrap_ok hpeg
  cases he
  obtain ⟨q, us, ws, h1, h2, rfl⟩ := peg_seq_ok hpeg
  obtain ⟨q', us', ws', h3, h4, rfl⟩ := peg_seq_ok h2
  obtain ⟨q'', us'', ws'', h5, h6, rfl⟩ := peg_seq_ok h4
  have e1 : ∃ b, us = [b] := by
    cases h1 with
    | optPresent _ => exact ⟨_, rfl⟩
    | optAbsent _ => exact ⟨_, rfl⟩
  have e2 : ∃ b, us' = [b] := by
    cases h3 with
    | call h3 =>
      have hbi : cst .BuInner = .postCond (.selmahoNotIn [.Bu, .Zei, .Si, .Su, .Sa, .Faho]) (.wrap (.node .BuInner) (.any .token)) := rfl
      rw [hbi] at h3
      cases h3 with
      | post h3 _ => exact wrap_single h3
      | postBad _ hb => exact hb.elim
  have e3 : ∃ b, us'' = [b] := by
    cases h5 with
    | many1 _ _ => exact ⟨_, rfl⟩
    | many1First _ hb => exact hb.elim
    | many1Later _ _ hb => exact hb.elim
  have e4 : ∃ is, ws'' = [.many is] ∧ is.length ≤ 1 := by
    cases h6 with
    | many0End _ => exact ⟨[], rfl, by simp⟩
    | many0Later _ _ _ hb => exact hb.elim
    | many0More h7 _ h8 =>
      have h9 := no_indicators_after_indicators ⟨_, h7⟩
      cases h8 with
      | many0More h6 _ _ => cases h6.unique _ h9
      | many0Later _ _ _ hb => exact hb.elim
      | many0End _ =>
        obtain ⟨i, hi⟩ := indicators_single _ h7
        refine ⟨_, rfl, ?_⟩
        rw [hi]
        simp
  obtain ⟨b1, rfl⟩ := e1
  obtain ⟨b2, rfl⟩ := e2
  obtain ⟨b3, rfl⟩ := e3
  obtain ⟨is, rfl, hl⟩ := e4
  exact ⟨b1, b2, b3, is, rfl, hl⟩

/-- In `.ui nai cai mi` the three are nested. -/
theorem C76_example : ((tree? (sample [.Ui, .Nai, .Cai, .Koha])).map fun v =>
    ((findAt v).filter (fun x => x.2.1 == .Indicators)).map (fun x => (x.1.length, (tokensL x.2.2).length))) =
      some [(0, 3), (1, 2), (2, 1)] := by decide +kernel

end Sneturfahi.Props
