import Verif.Proof.CstCover
import Verif.Spec.Child

/-!
# Texts in which optional and repeated fields are filled

The texts were found by a search (`#eval`); that they parse, and with which trees, is computed by the kernel.
-/

namespace Sneturfahi.Props

open Spec

mutual
/-- Is there a node of this name whose field at this index is not empty? -/
def findFill (n : NodeName) (k : Nat) : Val → Bool
  | .leaf _ _ => false
  | .node m fs => (m == n && (match fs[k]? with | some (.many (_ :: _)) => true | _ => false)) || findFillL n k fs
  | .tuple fs => findFillL n k fs
  | .many vs => findFillL n k vs
  | .sep first rest => findFill n k first || findFillL n k rest
/-- The same for several values. -/
def findFillL (n : NodeName) (k : Nat) : List Val → Bool
  | [] => false
  | v :: vs => findFill n k v || findFillL n k vs
end

/-- A node of this name with something in this field is part of the value. -/
def Filled (n : NodeName) (k : Nat) (v : Val) : Prop := ∃ fs w ws, PartOf (.node n fs) v ∧ fs[k]? = some (.many (w :: ws))

mutual
theorem findFill_part : ∀ (n : NodeName) (k : Nat) (v : Val), findFill n k v = true → Filled n k v
  | n, k, .leaf _ _, h => by simp [findFill] at h
  | n, k, .node m gs, h => by
    simp only [findFill, Bool.or_eq_true, Bool.and_eq_true, beq_iff_eq] at h
    rcases h with ⟨rfl, h⟩ | h
    · split at h
      · rename_i w ws hw
        exact ⟨gs, w, ws, .self, hw⟩
      · cases h
    · obtain ⟨fs, w, ws, h, h2⟩ := findFillL_part n k gs h
      exact ⟨fs, w, ws, .node h, h2⟩
  | n, k, .tuple gs, h => by
    obtain ⟨fs, w, ws, h, h2⟩ := findFillL_part n k gs (by simpa [findFill] using h)
    exact ⟨fs, w, ws, .tuple h, h2⟩
  | n, k, .many gs, h => by
    obtain ⟨fs, w, ws, h, h2⟩ := findFillL_part n k gs (by simpa [findFill] using h)
    exact ⟨fs, w, ws, .many h, h2⟩
  | n, k, .sep first rest, h => by
    simp only [findFill, Bool.or_eq_true] at h
    rcases h with h | h
    · obtain ⟨fs, w, ws, h, h2⟩ := findFill_part n k first h
      exact ⟨fs, w, ws, .sepFirst h, h2⟩
    · obtain ⟨fs, w, ws, h, h2⟩ := findFillL_part n k rest h
      exact ⟨fs, w, ws, .sepRest h, h2⟩
theorem findFillL_part : ∀ (n : NodeName) (k : Nat) (vs : List Val), findFillL n k vs = true →
    ∃ fs w ws, PartOfL (.node n fs) vs ∧ fs[k]? = some (.many (w :: ws))
  | n, k, [], h => by simp [findFillL] at h
  | n, k, v :: vs, h => by
    simp only [findFillL, Bool.or_eq_true] at h
    rcases h with h | h
    · obtain ⟨fs, w, ws, h, h2⟩ := findFill_part n k v h
      exact ⟨fs, w, ws, .head h, h2⟩
    · obtain ⟨fs, w, ws, h, h2⟩ := findFillL_part n k vs h
      exact ⟨fs, w, ws, .tail h, h2⟩
end

/-- Does the tree of these selma'o have all these fields filled? -/
def hasFills (x : List Selmaho × List (NodeName × Nat)) : Bool :=
  match tree? (sample x.1) with
  | some v => x.2.all (fun y => findFill y.1 y.2 v)
  | none => false

theorem hasFills_part {x : List Selmaho × List (NodeName × Nat)} (h : hasFills x = true) (n : NodeName) (k : Nat) (hn : (n, k) ∈ x.2) :
    ∃ root, parseCst .debug (sample x.1) = .val (.ok root) ∧ Filled n k root := by
  unfold hasFills at h
  split at h
  · rename_i v hv
    refine ⟨v, tree?_some hv, findFill_part n k v ?_⟩
    simp only [List.all_eq_true] at h
    exact h _ hn
  · cases h

/-- Texts and the fields filled in them. -/
def fill0 : List (List Selmaho × List (NodeName × Nat)) := [
  ([.Niho, .I, .Pu, .Ki, .Tuhe], [(.Text, 2), (.Text, 3), (.Paragraph, 0), (.Sentences3_Grouped, 0), (.TagWord_TimeSpaceCaha, 2), (.Time, 1)]),
  ([.Sei, .Cu, .Zi, .Koha, .Zei, .Koha], [(.Frees, 0), (.Free_Sei, 2), (.SeiTail, 0), (.Selbri, 0), (.Time, 0)]),
  ([.Jai, .Bai, .Gismu], [(.Sentence, 1), (.TanruUnit1, 0), (.BeforeTanruUnit_Jai, 1)]),
  ([.Cuhe, .Zohu, .Faha, .Joi, .Nahe, .Mohi, .Faha, .Tuhe], [(.Sentences1, 0), (.Args, 0), (.Space, 1), (.TagWord_TimeSpaceCaha, 0), (.Space, 3)]),
  ([.Fuhe, .Ui], [(.Text, 0), (.Indicators, 0)]),
  ([.Coi, .Noi, .Cu, .Lujvo, .Kuho], [(.Vocative, 1), (.NoiRelativeClause, 2), (.SentenceTail, 0)]),
  ([.Gismu, .Ja, .Bai, .Ke, .Gismu, .Kehe], [(.Selbri3, 1), (.SelbriLikeConnectedPost_Parenthesized, 1), (.SelbriLikeConnectedPost_Parenthesized, 4)]),
  ([.Me, .Koha, .Mehu, .Moi], [(.TanruUnit2_Me, 2), (.TanruUnit2_Me, 4)]),
  ([.Pa, .Koha, .Bu, .Y], [(.Number, 1), (.Lerfu_Bu, 3)]),
  ([.Gismu, .Giha, .Ke, .Gismu, .Kehe], [(.SentenceTail1, 1), (.SentenceTail1After, 5)])]

theorem fill0_ok : fill0.all hasFills = true := by decide +kernel

/-- Texts and the fields filled in them. -/
def fill1 : List (List Selmaho × List (NodeName × Nat)) := [
  ([.Koha, .Noi, .Koha, .Zohu, .Gismu], [(.Sumti4_Normal, 2), (.Subsentence, 0)]),
  ([.Bahe, .Gismu, .Zei, .Gismu, .Ui], [(.ZeiClause, 0), (.ZeiClause, 4)]),
  ([.Le, .Pa, .Gismu, .Noi, .Gismu], [(.GadriSumtiContents_Selbri, 0), (.GadriSumtiContents_Selbri, 2)]),
  ([.Faho], [(.Text, 4)]),
  ([.Zeha, .Tuhe, .Tuhu, .I, .Bo], [(.Sentences3_Grouped, 3), (.Time, 2)]),
  ([.Niho, .I, .I, .Tahe, .Bo], [(.CloseSentenceSeparator, 2), (.Time, 3)]),
  ([.I, .Niho, .Viha, .Faha, .Tuhe], [(.Space, 2), (.SpaceInterval_Interval, 1)]),
  ([.Gismu, .Zei, .Gismu, .Bu, .Zei, .Gismu], [(.ZeiClause, 2), (.ZeiBuInner, 0)]),
  ([.Coi, .Koha, .Joi, .Bo, .Lu, .Lihu], [(.VocativeValue_Sumti, 0), (.LuSumti, 2)]),
  ([.Bai, .Ke, .Ga, .Gismu, .Gi, .Gismu, .Kehe], [(.SentenceTail4_Parenthesized, 1), (.SentenceTail4_Parenthesized, 4)])]

theorem fill1_ok : fill1.all hasFills = true := by decide +kernel

/-- Texts and the fields filled in them. -/
def fill2 : List (List Selmaho × List (NodeName × Nat)) := [
  ([.Gismu, .Vau], [(.TailArgs, 1)]),
  ([.Goha, .Raho], [(.TanruUnit2_Goha, 1)]),
  ([.By, .Boi], [(.SumtiComponent1_LerfuString, 1)]),
  ([.Li, .Fuha, .Pa, .Boi, .Pa, .Boi, .Vuhu], [(.ReversePolish, 1), (.Operand3_Number, 1)]),
  ([.Sei, .Na, .Ku, .Joi, .Bai, .Ke, .Pu], [(.Arg, 1), (.SumtiLikeConnectedPost_Grouped, 1)]),
  ([.Sei, .Sehu], [(.Free_Sei, 3)]),
  ([.To, .Toi], [(.Free_To, 2)]),
  ([.Coi, .Dohu], [(.Vocative, 4)]),
  ([.Coi, .Doi], [(.VocativeWords_Coi, 1)]),
  ([.Na, .A], [(.NaSeTNai, 0)])]

theorem fill2_ok : fill2.all hasFills = true := by decide +kernel

/-- Texts and the fields filled in them. -/
def fill3 : List (List Selmaho × List (NodeName × Nat)) := [
  ([.Se, .Bihi], [(.Interval, 0)]),
  ([.Niho, .To, .Sei, .Nuhi, .Ga, .Nuhu, .Gi, .Nuhu], [(.Termset_NuhiGi, 3), (.Termset_NuhiGi, 7)]),
  ([.Coi, .Nai, .Gismu, .Cei, .Goha, .Be, .Bai, .Beho], [(.TanruUnit1, 2), (.BoundArguments, 2)]),
  ([.Gismu, .Giha, .Gismu], [(.SentenceTail2, 1)]),
  ([.Ke, .Gismu, .Kehe], [(.TanruUnit2_GroupedTanru, 2)]),
  ([.Nu, .Gismu, .Kei], [(.TanruUnit2_Nu, 2)]),
  ([.Le, .Gismu, .Ku], [(.GadriSumti, 3)]),
  ([.Le, .Koha, .Gismu], [(.GadriSumtiPre_Simple, 0)]),
  ([.Soi, .Pa, .Koha], [(.Sumti4_Normal, 0)]),
  ([.Soi, .By, .Sehu], [(.Free_Soi, 2)])]

theorem fill3_ok : fill3.all hasFills = true := by decide +kernel

/-- Texts and the fields filled in them. -/
def fill4 : List (List Selmaho × List (NodeName × Nat)) := [
  ([.Xi, .Pa, .Boi], [(.SubscriptValue_Number, 1)]),
  ([.I, .Se, .Ja], [(.NaSeTNai, 1)]),
  ([.Na, .Sei, .Cu, .Se, .Guha, .Gismu, .Gi, .By, .Moi], [(.Selbri5, 0), (.Guhek, 0)]),
  ([.Sei, .Sei, .Nuhi, .Nuhu], [(.Termset_Nuhi, 2)]),
  ([.Xi, .Vei, .Pa, .Nahe, .Guha, .Nai, .Vuhu, .Gi, .Vuhu, .Sei, .Pa], [(.Operator1, 0), (.NaheGuhekTGik, 0)]),
  ([.Pa, .Soi, .Coi, .Se, .Bai, .Joi, .Zeha, .Pu, .Nai, .Goha, .Koha], [(.TagWord_Bai, 1), (.TimeDuration, 1)]),
  ([.Mohi, .Faha, .Va, .Tuhe], [(.SpaceOffset, 2)]),
  ([.Coi, .Goi, .Bai, .Gehu], [(.GoiRelativeClause, 2)]),
  ([.I, .Vei, .Pa, .Veho], [(.Quantifier_Mekso, 2)]),
  ([.Niho, .I, .Pa, .Boi], [(.Quantifier_Number, 1)])]

theorem fill4_ok : fill4.all hasFills = true := by decide +kernel

/-- Texts and the fields filled in them. -/
def fill5 : List (List Selmaho × List (NodeName × Nat)) := [
  ([.Bahe, .Koha, .Bu, .Mai], [(.Lerfu_Bu, 0)]),
  ([.Xi, .Vei, .By, .Veho], [(.SubscriptValue_Mekso, 2)]),
  ([.Niho, .Sei, .Xi, .Vei, .Pa, .Vuhu, .Vuhu, .Johi, .Pa, .Tehu, .A, .Pa], [(.Operand, 1), (.Operand3_Johi, 2)]),
  ([.Na, .Ga, .Gismu, .Gi, .Gismu], [(.GekSentence, 0)]),
  ([.Lahe, .Noi, .Gismu, .Kuho, .Koha], [(.ModifiedSumti, 1)]),
  ([.Le, .Noi, .Gismu, .Kuho, .Gismu], [(.GadriSumtiPre_Simple, 1)]),
  ([.Daho, .Va, .Tuhe, .Niho, .Sei], [(.Space, 0)]),
  ([.Sei, .Soi, .Pa, .Gismu, .Ku], [(.Sumti4_SelbriShorthand, 2)]),
  ([.Xi, .Tei, .By, .Pa, .Foi], [(.LerfuString, 1)]),
  ([.Soi, .Lohu, .Koha, .Lehu, .Niho], [(.LohuSumti, 1)])]

theorem fill5_ok : fill5.all hasFills = true := by decide +kernel

/-- Texts and the fields filled in them. -/
def fill6 : List (List Selmaho × List (NodeName × Nat)) := [
  ([.Soi, .Joi, .Gi, .Nahe, .Bo, .Koha, .Luhu, .Gi, .Nai, .Zoi, .ZoiDelimiter, .AnyText, .ZoiDelimiter], [(.Sumti3, 0), (.ModifiedSumti, 3)]),
  ([.Ui, .Niho, .I, .Se, .Joi], [(.Joik_SeJoiNai, 0)]),
  ([.Na, .Ke, .Ga, .Gismu, .Gi, .Gismu], [(.SentenceTail4_Parenthesized, 0)]),
  ([.Li, .Pa, .Maho, .Pa, .Tehu, .Pa], [(.OperatorComponent1_Maho, 2)]),
  ([.Li, .Pa, .Nahu, .Gismu, .Tehu, .Pa], [(.OperatorComponent1_Nahu, 2)]),
  ([.Niho, .To, .I, .I, .Joi, .Bo], [(.CloseSentenceSeparator, 1)]),
  ([.I, .Sei, .Nahe, .Bai, .Pa, .Moi], [(.TagWord_Bai, 0)]),
  ([.Soi, .Koha, .Vuho, .Goi, .Bai, .Niho], [(.Sumti, 1)]),
  ([.Xi, .Vei, .Peho, .Vuhu, .Pa, .Sei], [(.ForethoughtExpression, 0)]),
  ([.To, .Cuhe, .Joi, .Fa, .Li, .Pa, .Zohu], [(.Arg3_Sumti, 0)])]

theorem fill6_ok : fill6.all hasFills = true := by decide +kernel

/-- Texts and the fields filled in them. -/
def fill7 : List (List Selmaho × List (NodeName × Nat)) := [
  ([.Sei, .Bai, .Pehe, .Joi, .Bai, .Ki, .Faho], [(.TagWord_Bai, 4)]),
  ([.Xi, .Coi, .Fiho, .Lujvo, .Fehu, .Fuhivla, .Pa], [(.TagWord_Converted, 2)]),
  ([.Nai, .Niho, .Viha, .Fehe, .Pa, .Roi, .Tuhe], [(.SpaceInterval_Interval, 2)]),
  ([.Niho, .Soi, .Koha, .Koha, .Bihi, .Zo, .Koha], [(.Sumti1, 1)]),
  ([.To, .Soi, .Pa, .Gismu, .Goi, .Zo, .Koha], [(.Sumti4_SelbriShorthand, 4)]),
  ([.Xi, .Pa, .Xi, .Vei, .Vuhu, .Pa, .Kuhe], [(.ForethoughtExpression, 3)]),
  ([.I, .Gismu, .Giha, .Ki, .Ke, .Lujvo, .Bai, .Sei], [(.SentenceTail1After, 1)]),
  ([.Sei, .Bai, .Gaho, .Bihi, .Gaho, .Ke, .Ki, .Kehe], [(.SumtiLikeConnectedPost_Grouped, 4)]),
  ([.Niho, .Coi, .Gismu, .Goi, .Na, .Ku, .Cehe, .Bai], [(.Vocative, 3)]),
  ([.To, .Niho, .Vei, .Vuhu, .Vuhu, .Ja, .Vuhu, .Pa], [(.Operator, 1)])]

theorem fill7_ok : fill7.all hasFills = true := by decide +kernel

/-- Texts and the fields filled in them. -/
def fill8 : List (List Selmaho × List (NodeName × Nat)) := [
  ([.Xi, .Pa, .Xi, .Soi, .Li, .Fuha, .Pa, .Loho, .Pa], [(.SumtiComponent1_Li, 2)]),
  ([.Niho, .To, .To, .Sei, .Ga, .Se, .Ga, .Gi, .Gi], [(.Gek_SeGaNai, 0)]),
  ([.I, .Zohu, .Sei, .Xi, .Vei, .Lahe, .Pa, .Xi, .Pa, .Luhu], [(.Operand3_Modified, 2)]),
  ([.Xi, .Coi, .Goi, .Pu, .Ku, .Soi, .Zoi, .ZoiDelimiter, .AnyText, .ZoiDelimiter, .Pa], [(.Tag, 1)]),
  ([.I, .To, .I, .Xi, .Coi, .Pu, .Zi, .Nuha, .Vuhu, .Pa, .I], [(.TimeOffset, 2)]),
  ([.Vei, .Pa, .Gaho, .Bihi, .Gaho, .Bo, .Nihe, .Gismu, .Tehu, .Sei, .Niho], [(.Operand3_Nihe, 2)]),
  ([.Niho, .Xi, .Vei, .Vuhu, .By, .Bihe, .Se, .Vuhu, .Pa, .Boi, .Faho], [(.OperatorComponent, 0)]),
  ([.Xi, .Pa, .Xi, .Vei, .Xi, .Vei, .Fuha, .Mohe, .Koha, .Bu, .Tehu, .By], [(.Operand3_Mohe, 2)]),
  ([.Niho, .Joi, .Xi, .Pa, .Coi, .Noi, .Koha, .Zei, .Koha, .Giha, .Nai, .Bo, .Gismu], [(.SentenceTail3, 1)]),
  ([.Niho, .I, .Vei, .Ke, .Vuhu, .Kehe, .Pa, .Bihe, .Vuhu, .Ga, .Pa, .Gi, .Pa], [(.Operand2, 0)])]

theorem fill8_ok : fill8.all hasFills = true := by decide +kernel

/-- Texts and the fields filled in them. -/
def fill9 : List (List Selmaho × List (NodeName × Nat)) := [
  ([.Sei, .Xi, .Sei, .Pa, .Xi, .Vei, .Vei, .Fuha, .Pa, .Joi, .Bo, .Pa, .Veho], [(.Operand3_Parenthesized, 2)])]

theorem fill9_ok : fill9.all hasFills = true := by decide +kernel

/-- All of them. -/
def fillTexts : List (List Selmaho × List (NodeName × Nat)) :=
  fill0 ++ fill1 ++ fill2 ++ fill3 ++ fill4 ++ fill5 ++ fill6 ++ fill7 ++ fill8 ++ fill9

theorem fillTexts_ok : fillTexts.all hasFills = true := by
  simp only [fillTexts, List.all_append, Bool.and_eq_true]
  exact ⟨⟨⟨⟨⟨⟨⟨⟨⟨fill0_ok, fill1_ok⟩, fill2_ok⟩, fill3_ok⟩, fill4_ok⟩, fill5_ok⟩, fill6_ok⟩, fill7_ok⟩, fill8_ok⟩, fill9_ok⟩

end Sneturfahi.Props
