import Verif.Props.CstMore
import Verif.Spec.Peg

/-!
# Texts in which each kind of node occurs
-/

namespace Sneturfahi.Props

open Spec

mutual
/-- Is there a node of this name? -/
def findName (n : NodeName) : Val → Bool
  | .leaf _ _ => false
  | .node m fs => m == n || findNameL n fs
  | .tuple fs => findNameL n fs
  | .many vs => findNameL n vs
  | .sep first rest => findName n first || findNameL n rest
/-- The same for several values. -/
def findNameL (n : NodeName) : List Val → Bool
  | [] => false
  | v :: vs => findName n v || findNameL n vs
end

mutual
theorem findName_part : ∀ (n : NodeName) (v : Val), findName n v = true → ∃ fs, PartOf (.node n fs) v
  | n, .leaf _ _, h => by simp [findName] at h
  | n, .node m gs, h => by
    simp only [findName, Bool.or_eq_true, beq_iff_eq] at h
    rcases h with rfl | h
    · exact ⟨gs, .self⟩
    · obtain ⟨fs, h⟩ := findNameL_part n gs h
      exact ⟨fs, .node h⟩
  | n, .tuple gs, h => by
    obtain ⟨fs, h⟩ := findNameL_part n gs (by simpa [findName] using h)
    exact ⟨fs, .tuple h⟩
  | n, .many gs, h => by
    obtain ⟨fs, h⟩ := findNameL_part n gs (by simpa [findName] using h)
    exact ⟨fs, .many h⟩
  | n, .sep first rest, h => by
    simp only [findName, Bool.or_eq_true] at h
    rcases h with h | h
    · obtain ⟨fs, h⟩ := findName_part n first h
      exact ⟨fs, .sepFirst h⟩
    · obtain ⟨fs, h⟩ := findNameL_part n rest h
      exact ⟨fs, .sepRest h⟩
theorem findNameL_part : ∀ (n : NodeName) (vs : List Val), findNameL n vs = true → ∃ fs, PartOfL (.node n fs) vs
  | n, [], h => by simp [findNameL] at h
  | n, v :: vs, h => by
    simp only [findNameL, Bool.or_eq_true] at h
    rcases h with h | h
    · obtain ⟨fs, h⟩ := findName_part n v h
      exact ⟨fs, .head h⟩
    · obtain ⟨fs, h⟩ := findNameL_part n vs h
      exact ⟨fs, .tail h⟩
end

/-- Does the tree of these selma'o have nodes of all these names? -/
def hasNodes (x : List Selmaho × List NodeName) : Bool :=
  match tree? (sample x.1) with
  | some v => x.2.all (fun n => findName n v)
  | none => false

theorem hasNodes_part {x : List Selmaho × List NodeName} (h : hasNodes x = true) (n : NodeName) (hn : n ∈ x.2) :
    ∃ root fs, parseCst .debug (sample x.1) = .val (.ok root) ∧ PartOf (.node n fs) root := by
  unfold hasNodes at h
  split at h
  · rename_i v hv
    rw [List.all_eq_true] at h
    obtain ⟨fs, hf⟩ := findName_part n v (h n hn)
    exact ⟨v, fs, tree?_some hv, hf⟩
  · cases h

/-- Text 0. -/
def text0 : List Selmaho × List NodeName :=
  ([.Gismu],
    [.Args, .Frees, .Paragraph, .ParagraphItem_Sentences, .Paragraphs, .Selbri, .Selbri1, .Selbri2, .Selbri3, .Selbri4, .Selbri5, .Selbri6, .Sentence, .SentenceTail, .SentenceTail1, .SentenceTail2, .SentenceTail3, .SentenceTail4_Single, .Sentences1, .Sentences3_Single, .TailArgs, .TanruUnit, .TanruUnit1, .TanruUnit2_Gismu, .Text, .WithFree, .word .Gismu])

theorem text0_ok : hasNodes text0 = true := by decide +kernel

/-- Text 1. -/
def text1 : List Selmaho × List NodeName :=
  ([.Xi, .Vei, .Vuhu, .Pa],
    [.Expression1_Forethought, .Expression1_Operand, .Expression_Normal, .ForethoughtExpression, .Free_Xi, .MiscNumbers, .NumberRest_Pa, .Operand, .Operand1, .Operand2, .Operand3_Number, .Operator, .Operator1, .Operator2, .Operator3_Simple, .OperatorComponent, .OperatorComponent1_Vuhu, .ParagraphItem_Empty, .Subscript, .SubscriptValue_Mekso, .word .Pa, .word .Vei, .word .Vuhu, .word .Xi])

theorem text1_ok : hasNodes text1 = true := by decide +kernel

/-- Text 2. -/
def text2 : List Selmaho × List NodeName :=
  ([.Coi, .Le, .Goi, .Bai, .Gismu],
    [.Arg, .Arg3_Tag, .Free_Vocative, .GadriSumti, .GadriSumtiContents_Selbri, .GadriSumtiPre_Simple, .Gadri_Le, .GoiRelativeClause, .RelativeClause_Goi, .RelativeClauses, .Sumti, .Sumti1, .Sumti3, .Sumti4_Normal, .SumtiComponent1_Gadri, .Tag, .TagWord_Bai, .Vocative, .VocativeValue_Sumti, .VocativeWords_Coi, .word .Bai, .word .Coi, .word .Goi, .word .Le])

theorem text2_ok : hasNodes text2 = true := by decide +kernel

/-- Text 3. -/
def text3 : List Selmaho × List NodeName :=
  ([.Giha, .By, .Mai],
    [.Fragment_Gihek, .Free_Mai, .Gihek, .LerfuWord_Lerfu, .Lerfu_By, .NaSeTNai, .NumberRest_Lerfu, .ParagraphItem_Fragment, .word .By, .word .Giha, .word .Mai])

theorem text3_ok : hasNodes text3 = true := by decide +kernel

/-- Text 4. -/
def text4 : List Selmaho × List NodeName :=
  ([.Sei, .Bai, .Joi, .Viha, .Fehe, .Tahe],
    [.EitherOrBoth_Right, .Free_Sei, .IntervalProperty_Tahe, .JoikJek_Joik, .Joik_SeJoiNai, .Space, .SpaceIntervalProperty, .SpaceInterval_Interval, .TagWord_TimeSpaceCaha, .TimeSpaceCaha_Space, .word .Fehe, .word .Joi, .word .Sei, .word .Tahe, .word .Viha])

theorem text4_ok : hasNodes text4 = true := by decide +kernel

/-- Text 5. -/
def text5 : List Selmaho × List NodeName :=
  ([.Ui, .To, .I, .Bihi],
    [.Fragment_Joik, .Free_To, .Indicator_Ui, .Indicators, .Interval, .Joik_Interval, .SentenceSeparator, .word .Bihi, .word .I, .word .To, .word .Ui])

theorem text5_ok : hasNodes text5 = true := by decide +kernel

/-- Text 6. -/
def text6 : List Selmaho × List NodeName :=
  ([.Soi, .Pa, .Lahe, .Koha],
    [.Free_Soi, .ModifiedSumti, .Number, .Quantifier_Number, .SumtiComponent1_Koha, .SumtiComponent1_Modified, .SumtiModifier_Lahe, .word .Koha, .word .Lahe, .word .Soi])

theorem text6_ok : hasNodes text6 = true := by decide +kernel

/-- Text 7. -/
def text7 : List Selmaho × List NodeName :=
  ([.A, .Doi, .Noi, .Zohu, .Gismu],
    [.Ek, .Fragment_Ek, .NoiRelativeClause, .Prenex, .RelativeClause_Noi, .Subsentence, .VocativeWords_Doi, .word .A, .word .Doi, .word .Noi, .word .Zohu])

theorem text7_ok : hasNodes text7 = true := by decide +kernel

/-- Text 8. -/
def text8 : List Selmaho × List NodeName :=
  ([.Tuhe, .Ja, .Nai],
    [.Fragment_Jek, .Indicator_Nai, .Jek, .Sentences3_Grouped, .word .Ja, .word .Nai, .word .Tuhe])

theorem text8_ok : hasNodes text8 = true := by decide +kernel

/-- Text 9. -/
def text9 : List Selmaho × List NodeName :=
  ([.Sei, .Ga, .Nuhi, .Gi],
    [.Arg3_Termset, .Gek_SeGaNai, .Gik, .Termset_Gek, .Termset_Nuhi, .word .Ga, .word .Gi, .word .Nuhi])

theorem text9_ok : hasNodes text9 = true := by decide +kernel

/-- Text 10. -/
def text10 : List Selmaho × List NodeName :=
  ([.Cai, .Daho, .Fuhe, .Y],
    [.Indicator_Cai, .Indicator_Daho, .Indicator_Y, .word .Cai, .word .Daho, .word .Fuhe, .word .Y])

theorem text10_ok : hasNodes text10 = true := by decide +kernel

/-- Text 11. -/
def text11 : List Selmaho × List NodeName :=
  ([.Sei, .Nahe, .Gismu, .Zei, .Gismu],
    [.BeforeTanruUnit_Nahe, .BuInner, .SeiTail, .TanruUnit2_Zei, .ZeiClause, .ZeiTail, .word .Nahe, .word .Zei])

theorem text11_ok : hasNodes text11 = true := by decide +kernel

/-- Text 12. -/
def text12 : List Selmaho × List NodeName :=
  ([.Sei, .Bai, .A, .Pu, .Zeha, .Zaho, .Ke, .Bai],
    [.IntervalProperty_Zaho, .JoikEk_Ek, .SumtiLikeConnectedPost_Grouped, .Time, .TimeDuration, .TimeOffset, .TimeSpaceCaha_Time, .word .Ke, .word .Pu, .word .Zaho, .word .Zeha])

theorem text12_ok : hasNodes text12 = true := by decide +kernel

/-- Text 13. -/
def text13 : List Selmaho × List NodeName :=
  ([.Niho, .Na, .Faho],
    [.Fragment_Na, .ParagraphSeparator, .word .Faho, .word .Na, .word .Niho])

theorem text13_ok : hasNodes text13 = true := by decide +kernel

/-- Text 14. -/
def text14 : List Selmaho × List NodeName :=
  ([.Soi, .Vei, .Fuha, .Nahe, .Bo, .Pa, .Gismu, .Sehu],
    [.Expression_ReversePolish, .Operand3_Modified, .Quantifier_Mekso, .ReversePolish, .Sumti4_SelbriShorthand, .SumtiModifier_NaheBo, .word .Bo, .word .Fuha, .word .Sehu])

theorem text14_ok : hasNodes text14 = true := by decide +kernel

/-- Text 15. -/
def text15 : List Selmaho × List NodeName :=
  ([.Tei, .Lau, .By, .Foi, .Mai],
    [.LerfuString, .LerfuWord_Lau, .LerfuWord_Tei, .word .Foi, .word .Lau, .word .Tei])

theorem text15_ok : hasNodes text15 = true := by decide +kernel

/-- Text 16. -/
def text16 : List Selmaho × List NodeName :=
  ([.Soi, .Lu, .Soi, .La, .Cmevla],
    [.LaSumti, .LuSumti, .SumtiComponent1_La, .SumtiComponent1_Lu, .word .Cmevla, .word .La])

theorem text16_ok : hasNodes text16 = true := by decide +kernel

/-- Text 17. -/
def text17 : List Selmaho × List NodeName :=
  ([.Sei, .Jai, .Fuhivla, .Be, .Bai],
    [.BeforeTanruUnit_Jai, .BoundArguments, .TanruUnit2_Fuhivla, .word .Be, .word .Fuhivla, .word .Jai])

theorem text17_ok : hasNodes text17 = true := by decide +kernel

/-- Text 18. -/
def text18 : List Selmaho × List NodeName :=
  ([.Coi, .Veha, .Gismu, .Dohu],
    [.EitherOrBoth_Left, .SelbriBefore_Tag, .VocativeValue_Selbri, .word .Dohu, .word .Veha])

theorem text18_ok : hasNodes text18 = true := by decide +kernel

/-- Text 19. -/
def text19 : List Selmaho × List NodeName :=
  ([.Sei, .Se, .Goha],
    [.BeforeTanruUnit_Se, .TanruUnit2_Goha, .word .Goha, .word .Se])

theorem text19_ok : hasNodes text19 = true := by decide +kernel

/-- Text 20. -/
def text20 : List Selmaho × List NodeName :=
  ([.Sei, .Cu, .Na, .Lujvo],
    [.SelbriBefore_Na, .TanruUnit2_Lujvo, .word .Cu, .word .Lujvo])

theorem text20_ok : hasNodes text20 = true := by decide +kernel

/-- Text 21. -/
def text21 : List Selmaho × List NodeName :=
  ([.Sei, .Nuha, .Vuhu, .Joi, .Fiho, .Me, .Koha, .Ke, .Vuhu],
    [.SelbriLikeConnectedPost_Parenthesized, .TagWord_Converted, .TanruUnit2_Me, .TanruUnit2_Nuha, .word .Fiho, .word .Me, .word .Nuha])

theorem text21_ok : hasNodes text21 = true := by decide +kernel

/-- Text 22. -/
def text22 : List Selmaho × List NodeName :=
  ([.Fuho],
    [.Indicator_Fuho, .word .Fuho])

theorem text22_ok : hasNodes text22 = true := by decide +kernel

/-- Text 23. -/
def text23 : List Selmaho × List NodeName :=
  ([.Sei, .Bai, .Joi, .Mohi, .Faha],
    [.SpaceMotion, .SpaceOffset, .word .Faha, .word .Mohi])

theorem text23_ok : hasNodes text23 = true := by decide +kernel

/-- Text 24. -/
def text24 : List Selmaho × List NodeName :=
  ([.Sei, .Na, .Ku, .Sei, .Ki, .Gi, .Gi],
    [.Arg3_Naku, .Gek_TagGik, .TagWord_Ki, .word .Ki, .word .Ku])

theorem text24_ok : hasNodes text24 = true := by decide +kernel

/-- Text 25. -/
def text25 : List Selmaho × List NodeName :=
  ([.Xi, .Soi, .Lohu, .Gismu, .Lehu, .Pa],
    [.LohuSumti, .SubscriptValue_Number, .SumtiComponent1_Lohu, .word .Lehu])

theorem text25_ok : hasNodes text25 = true := by decide +kernel

/-- Text 26. -/
def text26 : List Selmaho × List NodeName :=
  ([.Soi, .Li, .Soi, .Zo, .Gismu, .Pa],
    [.SumtiComponent1_Li, .SumtiComponent1_Zo, .ZoSumti, .word .Li])

theorem text26_ok : hasNodes text26 = true := by decide +kernel

/-- Text 27. -/
def text27 : List Selmaho × List NodeName :=
  ([.Xi, .Vei, .Fuha, .Johi, .Mohe, .Koha],
    [.Operand3_Johi, .Operand3_Mohe, .word .Johi, .word .Mohe])

theorem text27_ok : hasNodes text27 = true := by decide +kernel

/-- Text 28. -/
def text28 : List Selmaho × List NodeName :=
  ([.Gismu, .Giha, .Gismu, .Vau],
    [.SentenceTail2After, .SentenceTail2Connective, .word .Vau])

theorem text28_ok : hasNodes text28 = true := by decide +kernel

/-- Text 29. -/
def text29 : List Selmaho × List NodeName :=
  ([.Sei, .Nu, .Gismu, .Kei],
    [.TanruUnit2_Nu, .word .Kei, .word .Nu])

theorem text29_ok : hasNodes text29 = true := by decide +kernel

/-- Text 30. -/
def text30 : List Selmaho × List NodeName :=
  ([.Pa, .Boi],
    [.Fragment_Number, .word .Boi])

theorem text30_ok : hasNodes text30 = true := by decide +kernel

/-- Text 31. -/
def text31 : List Selmaho × List NodeName :=
  ([.Sei, .Cuhe],
    [.TagWord_Cuhe, .word .Cuhe])

theorem text31_ok : hasNodes text31 = true := by decide +kernel

/-- Text 32. -/
def text32 : List Selmaho × List NodeName :=
  ([.Coi, .Goi, .Bai, .Pehe, .Gaho, .Bihi, .Gaho, .Bai, .Gehu],
    [.Joik_Gaho, .PeheConnective, .word .Gaho, .word .Gehu, .word .Pehe])

theorem text32_ok : hasNodes text32 = true := by decide +kernel

/-- Text 33. -/
def text33 : List Selmaho × List NodeName :=
  ([.Xi, .Vei, .Pa, .Bihe, .Nahe, .Maho, .Pa, .Tehu, .Pa],
    [.OperatorComponent1_Maho, .OperatorComponentPre_Nahe, .word .Bihe, .word .Maho, .word .Tehu])

theorem text33_ok : hasNodes text33 = true := by decide +kernel

/-- Text 34. -/
def text34 : List Selmaho × List NodeName :=
  ([.Sei, .Fa, .To, .Toi, .Koha],
    [.Arg3_Sumti, .word .Fa, .word .Toi])

theorem text34_ok : hasNodes text34 = true := by decide +kernel

/-- Text 35. -/
def text35 : List Selmaho × List NodeName :=
  ([.Sei, .Pa, .Moi],
    [.TanruUnit2_Moi, .word .Moi])

theorem text35_ok : hasNodes text35 = true := by decide +kernel

/-- Text 36. -/
def text36 : List Selmaho × List NodeName :=
  ([.Coi, .Caha, .Gismu],
    [.TimeSpaceCaha_Caha, .word .Caha])

theorem text36_ok : hasNodes text36 = true := by decide +kernel

/-- Text 37. -/
def text37 : List Selmaho × List NodeName :=
  ([.Pa, .Roi, .Tuhe],
    [.IntervalProperty_Roi, .word .Roi])

theorem text37_ok : hasNodes text37 = true := by decide +kernel

/-- Text 38. -/
def text38 : List Selmaho × List NodeName :=
  ([.Ke, .Joi, .Gi, .Gismu, .Gi, .Gismu],
    [.GekSentence, .Gek_JoikGi, .SentenceTail4_Parenthesized])

theorem text38_ok : hasNodes text38 = true := by decide +kernel

/-- Text 39. -/
def text39 : List Selmaho × List NodeName :=
  ([.Xi, .Vei, .Fuha, .Nihe, .Gismu, .Veho],
    [.Operand3_Nihe, .word .Nihe, .word .Veho])

theorem text39_ok : hasNodes text39 = true := by decide +kernel

/-- Text 40. -/
def text40 : List Selmaho × List NodeName :=
  ([.Xi, .Vei, .Pa, .Bihe, .Ke, .Nahu, .Gismu, .Kehe, .Pa],
    [.Operator3_Grouped, .OperatorComponent1_Nahu, .word .Kehe, .word .Nahu])

theorem text40_ok : hasNodes text40 = true := by decide +kernel

/-- Text 41. -/
def text41 : List Selmaho × List NodeName :=
  ([.Soi, .Koha, .Joi, .Koha],
    [.JoikEk_Joik, .SumtiLikeConnectedPost_Normal])

theorem text41_ok : hasNodes text41 = true := by decide +kernel

/-- Text 42. -/
def text42 : List Selmaho × List NodeName :=
  ([.Soi, .Koha, .Vuho, .Noi, .Gismu],
    [.VuhoRelative, .word .Vuho])

theorem text42_ok : hasNodes text42 = true := by decide +kernel

/-- Text 43. -/
def text43 : List Selmaho × List NodeName :=
  ([.Ui, .Sei, .Gismu, .Ja, .Gismu],
    [.JoikJek_Jek, .SelbriLikeConnectedPost_Normal])

theorem text43_ok : hasNodes text43 = true := by decide +kernel

/-- Text 44. -/
def text44 : List Selmaho × List NodeName :=
  ([.Soi, .Zoi, .Gismu, .Gismu, .Gismu],
    [.SumtiComponent1_Zoi, .ZoiSumti])

theorem text44_ok : hasNodes text44 = true := by decide +kernel

/-- Text 45. -/
def text45 : List Selmaho × List NodeName :=
  ([.Doi, .Noi, .Gismu, .Kuho, .Cmevla],
    [.VocativeValue_Cmevla, .word .Kuho])

theorem text45_ok : hasNodes text45 = true := by decide +kernel

/-- Text 46. -/
def text46 : List Selmaho × List NodeName :=
  ([.Sei, .Nuhi, .Ga, .Nuhu, .Gi],
    [.Termset_NuhiGi, .word .Nuhu])

theorem text46_ok : hasNodes text46 = true := by decide +kernel

/-- Text 47. -/
def text47 : List Selmaho × List NodeName :=
  ([.Xi, .Vei, .Pa, .Bihe, .Guha, .Vuhu, .Gi, .Vuhu, .Pa],
    [.Guhek, .NaheGuhekTGik, .word .Guha])

theorem text47_ok : hasNodes text47 = true := by decide +kernel

/-- Text 48. -/
def text48 : List Selmaho × List NodeName :=
  ([.Sei, .Bai, .Ku, .Sei, .Bai, .Koha],
    [.TagValue_Ku, .TagValue_Sumti])

theorem text48_ok : hasNodes text48 = true := by decide +kernel

/-- Text 49. -/
def text49 : List Selmaho × List NodeName :=
  ([.Xi, .Vei, .Peho, .Vuhu, .Pa, .Kuhe],
    [.word .Kuhe, .word .Peho])

theorem text49_ok : hasNodes text49 = true := by decide +kernel

/-- Text 50. -/
def text50 : List Selmaho × List NodeName :=
  ([.Soi, .By],
    [.SumtiComponent1_LerfuString])

theorem text50_ok : hasNodes text50 = true := by decide +kernel

/-- Text 51. -/
def text51 : List Selmaho × List NodeName :=
  ([.Tuhe, .Tuhu],
    [.word .Tuhu])

theorem text51_ok : hasNodes text51 = true := by decide +kernel

/-- Text 52. -/
def text52 : List Selmaho × List NodeName :=
  ([.Sei, .Soi, .Lahe, .Li, .Pa, .Loho, .Luhu, .Sehu],
    [.word .Loho, .word .Luhu])

theorem text52_ok : hasNodes text52 = true := by decide +kernel

/-- Text 53. -/
def text53 : List Selmaho × List NodeName :=
  ([.Sei, .Ke, .Gismu],
    [.TanruUnit2_GroupedTanru])

theorem text53_ok : hasNodes text53 = true := by decide +kernel

/-- Text 54. -/
def text54 : List Selmaho × List NodeName :=
  ([.Sei, .Goha, .Raho],
    [.word .Raho])

theorem text54_ok : hasNodes text54 = true := by decide +kernel

/-- Text 55. -/
def text55 : List Selmaho × List NodeName :=
  ([.Gismu, .Bu, .Mai],
    [.Lerfu_Bu])

theorem text55_ok : hasNodes text55 = true := by decide +kernel

/-- Text 56. -/
def text56 : List Selmaho × List NodeName :=
  ([.Soi, .La, .Gismu],
    [.Gadri_La])

theorem text56_ok : hasNodes text56 = true := by decide +kernel

/-- Text 57. -/
def text57 : List Selmaho × List NodeName :=
  ([.Soi, .Lu, .Lihu],
    [.word .Lihu])

theorem text57_ok : hasNodes text57 = true := by decide +kernel

/-- Text 58. -/
def text58 : List Selmaho × List NodeName :=
  ([.Gismu, .Giha, .Ke, .Gismu],
    [.SentenceTail1After])

theorem text58_ok : hasNodes text58 = true := by decide +kernel

/-- Text 59. -/
def text59 : List Selmaho × List NodeName :=
  ([.Gismu, .Giha, .Bo, .Gismu],
    [.SentenceTail3After])

theorem text59_ok : hasNodes text59 = true := by decide +kernel

/-- Text 60. -/
def text60 : List Selmaho × List NodeName :=
  ([.Ga, .Gismu, .Gi, .Gismu],
    [.SentenceTail4_Connected])

theorem text60_ok : hasNodes text60 = true := by decide +kernel

/-- Text 61. -/
def text61 : List Selmaho × List NodeName :=
  ([.Sei, .Gismu, .Co, .Gismu],
    [.word .Co])

theorem text61_ok : hasNodes text61 = true := by decide +kernel

/-- Text 62. -/
def text62 : List Selmaho × List NodeName :=
  ([.Sei, .Me, .Koha, .Mehu],
    [.word .Mehu])

theorem text62_ok : hasNodes text62 = true := by decide +kernel

/-- Text 63. -/
def text63 : List Selmaho × List NodeName :=
  ([.Coi, .Veha, .Viha, .Gismu],
    [.EitherOrBoth_Both])

theorem text63_ok : hasNodes text63 = true := by decide +kernel

/-- Text 64. -/
def text64 : List Selmaho × List NodeName :=
  ([.Coi, .Fehe, .Tahe, .Gismu],
    [.SpaceInterval_Properties])

theorem text64_ok : hasNodes text64 = true := by decide +kernel

/-- Text 65. -/
def text65 : List Selmaho × List NodeName :=
  ([.Soi, .Le, .Pa, .Koha],
    [.GadriSumtiContents_Sumti])

theorem text65_ok : hasNodes text65 = true := by decide +kernel

/-- Text 66. -/
def text66 : List Selmaho × List NodeName :=
  ([.Xi, .Vei, .Vei, .Pa],
    [.Operand3_Parenthesized])

theorem text66_ok : hasNodes text66 = true := by decide +kernel

/-- Text 67. -/
def text67 : List Selmaho × List NodeName :=
  ([.Sei, .Gismu, .Cei, .Gismu],
    [.word .Cei])

theorem text67_ok : hasNodes text67 = true := by decide +kernel

/-- Text 68. -/
def text68 : List Selmaho × List NodeName :=
  ([.Sei, .Bai, .Cehe, .Bai],
    [.word .Cehe])

theorem text68_ok : hasNodes text68 = true := by decide +kernel

/-- Text 69. -/
def text69 : List Selmaho × List NodeName :=
  ([.Sei, .Bai, .Joi, .Va],
    [.word .Va])

theorem text69_ok : hasNodes text69 = true := by decide +kernel

/-- Text 70. -/
def text70 : List Selmaho × List NodeName :=
  ([.Zohu, .I, .Bo, .I],
    [.CloseSentenceSeparator])

theorem text70_ok : hasNodes text70 = true := by decide +kernel

/-- Text 71. -/
def text71 : List Selmaho × List NodeName :=
  ([.Sei, .Gismu, .Be, .Bai, .Beho],
    [.word .Beho])

theorem text71_ok : hasNodes text71 = true := by decide +kernel

/-- Text 72. -/
def text72 : List Selmaho × List NodeName :=
  ([.Coi, .Gismu, .Bu, .Zei, .Gismu],
    [.ZeiBuInner])

theorem text72_ok : hasNodes text72 = true := by decide +kernel

/-- Text 73. -/
def text73 : List Selmaho × List NodeName :=
  ([.Soi, .Ga, .Koha, .Gi, .Koha],
    [.Sumti3ConnectedPre])

theorem text73_ok : hasNodes text73 = true := by decide +kernel

/-- Text 74. -/
def text74 : List Selmaho × List NodeName :=
  ([.Ui, .Sei, .Bai, .A, .Zi],
    [.word .Zi])

theorem text74_ok : hasNodes text74 = true := by decide +kernel

/-- Text 75. -/
def text75 : List Selmaho × List NodeName :=
  ([.Coi, .Goi, .Bai, .Zihe, .Xi, .Vei, .Pa, .Bihe, .Se, .Vuhu, .Pa, .Goi, .Bai],
    [.OperatorComponentPre_Se, .word .Zihe])

theorem text75_ok : hasNodes text75 = true := by decide +kernel

/-- Text 76. -/
def text76 : List Selmaho × List NodeName :=
  ([.Sei, .Bai, .Joi, .Fiho, .Gismu, .Fehu],
    [.word .Fehu])

theorem text76_ok : hasNodes text76 = true := by decide +kernel

/-- Text 77. -/
def text77 : List Selmaho × List NodeName :=
  ([.Xi, .Vei, .Ga, .Pa, .Gi, .Pa],
    [.Operand2ConnectedPre])

theorem text77_ok : hasNodes text77 = true := by decide +kernel

/-- Text 78. -/
def text78 : List Selmaho × List NodeName :=
  ([.Sei, .Gismu, .Be, .Bai, .Bei, .Bai],
    [.word .Bei])

theorem text78_ok : hasNodes text78 = true := by decide +kernel

/-- Text 79. -/
def text79 : List Selmaho × List NodeName :=
  ([.Li, .Fuha, .Pa, .Boi, .Pa, .Boi, .Vuhu],
    [.RPTail])

theorem text79_ok : hasNodes text79 = true := by decide +kernel

/-- Text 80. -/
def text80 : List Selmaho × List NodeName :=
  ([.I, .I, .Se, .Ja, .Pa, .Mai, .I, .Na, .Faho],
    [.ConnectedSentenceSeparator])

theorem text80_ok : hasNodes text80 = true := by decide +kernel

/-- All of them. -/
def texts : List (List Selmaho × List NodeName) :=
  [text0, text1, text2, text3, text4, text5, text6, text7, text8, text9, text10, text11, text12, text13, text14, text15, text16, text17, text18, text19, text20, text21, text22, text23, text24, text25, text26, text27, text28, text29, text30, text31, text32, text33, text34, text35, text36, text37, text38, text39, text40, text41, text42, text43, text44, text45, text46, text47, text48, text49, text50, text51, text52, text53, text54, text55, text56, text57, text58, text59, text60, text61, text62, text63, text64, text65, text66, text67, text68, text69, text70, text71, text72, text73, text74, text75, text76, text77, text78, text79, text80]

theorem texts_ok : ∀ x ∈ texts, hasNodes x = true :=
  List.forall_mem_cons.mpr ⟨text0_ok,
  List.forall_mem_cons.mpr ⟨text1_ok,
  List.forall_mem_cons.mpr ⟨text2_ok,
  List.forall_mem_cons.mpr ⟨text3_ok,
  List.forall_mem_cons.mpr ⟨text4_ok,
  List.forall_mem_cons.mpr ⟨text5_ok,
  List.forall_mem_cons.mpr ⟨text6_ok,
  List.forall_mem_cons.mpr ⟨text7_ok,
  List.forall_mem_cons.mpr ⟨text8_ok,
  List.forall_mem_cons.mpr ⟨text9_ok,
  List.forall_mem_cons.mpr ⟨text10_ok,
  List.forall_mem_cons.mpr ⟨text11_ok,
  List.forall_mem_cons.mpr ⟨text12_ok,
  List.forall_mem_cons.mpr ⟨text13_ok,
  List.forall_mem_cons.mpr ⟨text14_ok,
  List.forall_mem_cons.mpr ⟨text15_ok,
  List.forall_mem_cons.mpr ⟨text16_ok,
  List.forall_mem_cons.mpr ⟨text17_ok,
  List.forall_mem_cons.mpr ⟨text18_ok,
  List.forall_mem_cons.mpr ⟨text19_ok,
  List.forall_mem_cons.mpr ⟨text20_ok,
  List.forall_mem_cons.mpr ⟨text21_ok,
  List.forall_mem_cons.mpr ⟨text22_ok,
  List.forall_mem_cons.mpr ⟨text23_ok,
  List.forall_mem_cons.mpr ⟨text24_ok,
  List.forall_mem_cons.mpr ⟨text25_ok,
  List.forall_mem_cons.mpr ⟨text26_ok,
  List.forall_mem_cons.mpr ⟨text27_ok,
  List.forall_mem_cons.mpr ⟨text28_ok,
  List.forall_mem_cons.mpr ⟨text29_ok,
  List.forall_mem_cons.mpr ⟨text30_ok,
  List.forall_mem_cons.mpr ⟨text31_ok,
  List.forall_mem_cons.mpr ⟨text32_ok,
  List.forall_mem_cons.mpr ⟨text33_ok,
  List.forall_mem_cons.mpr ⟨text34_ok,
  List.forall_mem_cons.mpr ⟨text35_ok,
  List.forall_mem_cons.mpr ⟨text36_ok,
  List.forall_mem_cons.mpr ⟨text37_ok,
  List.forall_mem_cons.mpr ⟨text38_ok,
  List.forall_mem_cons.mpr ⟨text39_ok,
  List.forall_mem_cons.mpr ⟨text40_ok,
  List.forall_mem_cons.mpr ⟨text41_ok,
  List.forall_mem_cons.mpr ⟨text42_ok,
  List.forall_mem_cons.mpr ⟨text43_ok,
  List.forall_mem_cons.mpr ⟨text44_ok,
  List.forall_mem_cons.mpr ⟨text45_ok,
  List.forall_mem_cons.mpr ⟨text46_ok,
  List.forall_mem_cons.mpr ⟨text47_ok,
  List.forall_mem_cons.mpr ⟨text48_ok,
  List.forall_mem_cons.mpr ⟨text49_ok,
  List.forall_mem_cons.mpr ⟨text50_ok,
  List.forall_mem_cons.mpr ⟨text51_ok,
  List.forall_mem_cons.mpr ⟨text52_ok,
  List.forall_mem_cons.mpr ⟨text53_ok,
  List.forall_mem_cons.mpr ⟨text54_ok,
  List.forall_mem_cons.mpr ⟨text55_ok,
  List.forall_mem_cons.mpr ⟨text56_ok,
  List.forall_mem_cons.mpr ⟨text57_ok,
  List.forall_mem_cons.mpr ⟨text58_ok,
  List.forall_mem_cons.mpr ⟨text59_ok,
  List.forall_mem_cons.mpr ⟨text60_ok,
  List.forall_mem_cons.mpr ⟨text61_ok,
  List.forall_mem_cons.mpr ⟨text62_ok,
  List.forall_mem_cons.mpr ⟨text63_ok,
  List.forall_mem_cons.mpr ⟨text64_ok,
  List.forall_mem_cons.mpr ⟨text65_ok,
  List.forall_mem_cons.mpr ⟨text66_ok,
  List.forall_mem_cons.mpr ⟨text67_ok,
  List.forall_mem_cons.mpr ⟨text68_ok,
  List.forall_mem_cons.mpr ⟨text69_ok,
  List.forall_mem_cons.mpr ⟨text70_ok,
  List.forall_mem_cons.mpr ⟨text71_ok,
  List.forall_mem_cons.mpr ⟨text72_ok,
  List.forall_mem_cons.mpr ⟨text73_ok,
  List.forall_mem_cons.mpr ⟨text74_ok,
  List.forall_mem_cons.mpr ⟨text75_ok,
  List.forall_mem_cons.mpr ⟨text76_ok,
  List.forall_mem_cons.mpr ⟨text77_ok,
  List.forall_mem_cons.mpr ⟨text78_ok,
  List.forall_mem_cons.mpr ⟨text79_ok,
  List.forall_mem_cons.mpr ⟨text80_ok,
  List.forall_mem_nil _⟩⟩⟩⟩⟩⟩⟩⟩⟩⟩⟩⟩⟩⟩⟩⟩⟩⟩⟩⟩⟩⟩⟩⟩⟩⟩⟩⟩⟩⟩⟩⟩⟩⟩⟩⟩⟩⟩⟩⟩⟩⟩⟩⟩⟩⟩⟩⟩⟩⟩⟩⟩⟩⟩⟩⟩⟩⟩⟩⟩⟩⟩⟩⟩⟩⟩⟩⟩⟩⟩⟩⟩⟩⟩⟩⟩⟩⟩⟩⟩⟩

/-- The number of the text in which a node occurs. -/
def coverIndex : NodeName → Nat
  | .Arg => 2
  | .Arg3_Naku => 24
  | .Arg3_Sumti => 34
  | .Arg3_Tag => 2
  | .Arg3_Termset => 9
  | .Args => 0
  | .BeforeTanruUnit_Jai => 17
  | .BeforeTanruUnit_Nahe => 11
  | .BeforeTanruUnit_Se => 19
  | .BoundArguments => 17
  | .BuInner => 11
  | .CloseSentenceSeparator => 70
  | .ConnectedSentenceSeparator => 80
  | .EitherOrBoth_Both => 63
  | .EitherOrBoth_Left => 18
  | .EitherOrBoth_Right => 4
  | .Ek => 7
  | .Expression1_Forethought => 1
  | .Expression1_Operand => 1
  | .Expression_Normal => 1
  | .Expression_ReversePolish => 14
  | .ForethoughtExpression => 1
  | .Fragment_Ek => 7
  | .Fragment_Gihek => 3
  | .Fragment_Jek => 8
  | .Fragment_Joik => 5
  | .Fragment_Na => 13
  | .Fragment_Number => 30
  | .Free_Mai => 3
  | .Free_Sei => 4
  | .Free_Soi => 6
  | .Free_To => 5
  | .Free_Vocative => 2
  | .Free_Xi => 1
  | .Frees => 0
  | .GadriSumti => 2
  | .GadriSumtiContents_Selbri => 2
  | .GadriSumtiContents_Sumti => 65
  | .GadriSumtiPre_Simple => 2
  | .Gadri_La => 56
  | .Gadri_Le => 2
  | .GekSentence => 38
  | .Gek_JoikGi => 38
  | .Gek_SeGaNai => 9
  | .Gek_TagGik => 24
  | .Gihek => 3
  | .Gik => 9
  | .GoiRelativeClause => 2
  | .Guhek => 47
  | .Indicator_Cai => 10
  | .Indicator_Daho => 10
  | .Indicator_Fuho => 22
  | .Indicator_Nai => 8
  | .Indicator_Ui => 5
  | .Indicator_Y => 10
  | .Indicators => 5
  | .Interval => 5
  | .IntervalProperty_Roi => 37
  | .IntervalProperty_Tahe => 4
  | .IntervalProperty_Zaho => 12
  | .Jek => 8
  | .JoikEk_Ek => 12
  | .JoikEk_Joik => 41
  | .JoikJek_Jek => 43
  | .JoikJek_Joik => 4
  | .Joik_Gaho => 32
  | .Joik_Interval => 5
  | .Joik_SeJoiNai => 4
  | .LaSumti => 16
  | .LerfuString => 15
  | .LerfuWord_Lau => 15
  | .LerfuWord_Lerfu => 3
  | .LerfuWord_Tei => 15
  | .Lerfu_Bu => 55
  | .Lerfu_By => 3
  | .LohuSumti => 25
  | .LuSumti => 16
  | .MiscNumbers => 1
  | .ModifiedSumti => 6
  | .NaSeTNai => 3
  | .NaheGuhekTGik => 47
  | .NoiRelativeClause => 7
  | .Number => 6
  | .NumberRest_Lerfu => 3
  | .NumberRest_Pa => 1
  | .Operand => 1
  | .Operand1 => 1
  | .Operand2 => 1
  | .Operand2ConnectedPre => 77
  | .Operand3_Johi => 27
  | .Operand3_Modified => 14
  | .Operand3_Mohe => 27
  | .Operand3_Nihe => 39
  | .Operand3_Number => 1
  | .Operand3_Parenthesized => 66
  | .Operator => 1
  | .Operator1 => 1
  | .Operator2 => 1
  | .Operator3_Grouped => 40
  | .Operator3_Simple => 1
  | .OperatorComponent => 1
  | .OperatorComponent1_Maho => 33
  | .OperatorComponent1_Nahu => 40
  | .OperatorComponent1_Vuhu => 1
  | .OperatorComponentPre_Nahe => 33
  | .OperatorComponentPre_Se => 75
  | .Paragraph => 0
  | .ParagraphItem_Empty => 1
  | .ParagraphItem_Fragment => 3
  | .ParagraphItem_Sentences => 0
  | .ParagraphSeparator => 13
  | .Paragraphs => 0
  | .PeheConnective => 32
  | .Prenex => 7
  | .Quantifier_Mekso => 14
  | .Quantifier_Number => 6
  | .RPTail => 79
  | .RelativeClause_Goi => 2
  | .RelativeClause_Noi => 7
  | .RelativeClauses => 2
  | .ReversePolish => 14
  | .SeiTail => 11
  | .Selbri => 0
  | .Selbri1 => 0
  | .Selbri2 => 0
  | .Selbri3 => 0
  | .Selbri4 => 0
  | .Selbri5 => 0
  | .Selbri6 => 0
  | .SelbriBefore_Na => 20
  | .SelbriBefore_Tag => 18
  | .SelbriLikeConnectedPost_Normal => 43
  | .SelbriLikeConnectedPost_Parenthesized => 21
  | .Sentence => 0
  | .SentenceSeparator => 5
  | .SentenceTail => 0
  | .SentenceTail1 => 0
  | .SentenceTail1After => 58
  | .SentenceTail2 => 0
  | .SentenceTail2After => 28
  | .SentenceTail2Connective => 28
  | .SentenceTail3 => 0
  | .SentenceTail3After => 59
  | .SentenceTail4_Connected => 60
  | .SentenceTail4_Parenthesized => 38
  | .SentenceTail4_Single => 0
  | .Sentences1 => 0
  | .Sentences3_Grouped => 8
  | .Sentences3_Single => 0
  | .Space => 4
  | .SpaceIntervalProperty => 4
  | .SpaceInterval_Interval => 4
  | .SpaceInterval_Properties => 64
  | .SpaceMotion => 23
  | .SpaceOffset => 23
  | .Subscript => 1
  | .SubscriptValue_Mekso => 1
  | .SubscriptValue_Number => 25
  | .Subsentence => 7
  | .Sumti => 2
  | .Sumti1 => 2
  | .Sumti3 => 2
  | .Sumti3ConnectedPre => 73
  | .Sumti4_Normal => 2
  | .Sumti4_SelbriShorthand => 14
  | .SumtiComponent1_Gadri => 2
  | .SumtiComponent1_Koha => 6
  | .SumtiComponent1_La => 16
  | .SumtiComponent1_LerfuString => 50
  | .SumtiComponent1_Li => 26
  | .SumtiComponent1_Lohu => 25
  | .SumtiComponent1_Lu => 16
  | .SumtiComponent1_Modified => 6
  | .SumtiComponent1_Zo => 26
  | .SumtiComponent1_Zoi => 44
  | .SumtiLikeConnectedPost_Grouped => 12
  | .SumtiLikeConnectedPost_Normal => 41
  | .SumtiModifier_Lahe => 6
  | .SumtiModifier_NaheBo => 14
  | .Tag => 2
  | .TagValue_Ku => 48
  | .TagValue_Sumti => 48
  | .TagWord_Bai => 2
  | .TagWord_Converted => 21
  | .TagWord_Cuhe => 31
  | .TagWord_Ki => 24
  | .TagWord_TimeSpaceCaha => 4
  | .TailArgs => 0
  | .TanruUnit => 0
  | .TanruUnit1 => 0
  | .TanruUnit2_Fuhivla => 17
  | .TanruUnit2_Gismu => 0
  | .TanruUnit2_Goha => 19
  | .TanruUnit2_GroupedTanru => 53
  | .TanruUnit2_Lujvo => 20
  | .TanruUnit2_Me => 21
  | .TanruUnit2_Moi => 35
  | .TanruUnit2_Nu => 29
  | .TanruUnit2_Nuha => 21
  | .TanruUnit2_Zei => 11
  | .Termset_Gek => 9
  | .Termset_Nuhi => 9
  | .Termset_NuhiGi => 46
  | .Text => 0
  | .Time => 12
  | .TimeDuration => 12
  | .TimeOffset => 12
  | .TimeSpaceCaha_Caha => 36
  | .TimeSpaceCaha_Space => 4
  | .TimeSpaceCaha_Time => 12
  | .Vocative => 2
  | .VocativeValue_Cmevla => 45
  | .VocativeValue_Selbri => 18
  | .VocativeValue_Sumti => 2
  | .VocativeWords_Coi => 2
  | .VocativeWords_Doi => 7
  | .VuhoRelative => 42
  | .WithFree => 0
  | .ZeiBuInner => 72
  | .ZeiClause => 11
  | .ZeiTail => 11
  | .ZoSumti => 26
  | .ZoiSumti => 44
  | .word .A => 7
  | .word .Bai => 2
  | .word .Be => 17
  | .word .Beho => 71
  | .word .Bei => 78
  | .word .Bihe => 33
  | .word .Bihi => 5
  | .word .Bo => 14
  | .word .Boi => 30
  | .word .By => 3
  | .word .Caha => 36
  | .word .Cai => 10
  | .word .Cehe => 68
  | .word .Cei => 67
  | .word .Cmevla => 16
  | .word .Co => 61
  | .word .Coi => 2
  | .word .Cu => 20
  | .word .Cuhe => 31
  | .word .Daho => 10
  | .word .Dohu => 18
  | .word .Doi => 7
  | .word .Fa => 34
  | .word .Faha => 23
  | .word .Faho => 13
  | .word .Fehe => 4
  | .word .Fehu => 76
  | .word .Fiho => 21
  | .word .Foi => 15
  | .word .Fuha => 14
  | .word .Fuhe => 10
  | .word .Fuhivla => 17
  | .word .Fuho => 22
  | .word .Ga => 9
  | .word .Gaho => 32
  | .word .Gehu => 32
  | .word .Gi => 9
  | .word .Giha => 3
  | .word .Gismu => 0
  | .word .Goha => 19
  | .word .Goi => 2
  | .word .Guha => 47
  | .word .I => 5
  | .word .Ja => 8
  | .word .Jai => 17
  | .word .Johi => 27
  | .word .Joi => 4
  | .word .Ke => 12
  | .word .Kehe => 40
  | .word .Kei => 29
  | .word .Ki => 24
  | .word .Koha => 6
  | .word .Ku => 24
  | .word .Kuhe => 49
  | .word .Kuho => 45
  | .word .La => 16
  | .word .Lahe => 6
  | .word .Lau => 15
  | .word .Le => 2
  | .word .Lehu => 25
  | .word .Li => 26
  | .word .Lihu => 57
  | .word .Loho => 52
  | .word .Luhu => 52
  | .word .Lujvo => 20
  | .word .Maho => 33
  | .word .Mai => 3
  | .word .Me => 21
  | .word .Mehu => 62
  | .word .Mohe => 27
  | .word .Mohi => 23
  | .word .Moi => 35
  | .word .Na => 13
  | .word .Nahe => 11
  | .word .Nahu => 40
  | .word .Nai => 8
  | .word .Nihe => 39
  | .word .Niho => 13
  | .word .Noi => 7
  | .word .Nu => 29
  | .word .Nuha => 21
  | .word .Nuhi => 9
  | .word .Nuhu => 46
  | .word .Pa => 1
  | .word .Pehe => 32
  | .word .Peho => 49
  | .word .Pu => 12
  | .word .Raho => 54
  | .word .Roi => 37
  | .word .Se => 19
  | .word .Sehu => 14
  | .word .Sei => 4
  | .word .Soi => 6
  | .word .Tahe => 4
  | .word .Tehu => 33
  | .word .Tei => 15
  | .word .To => 5
  | .word .Toi => 34
  | .word .Tuhe => 8
  | .word .Tuhu => 51
  | .word .Ui => 5
  | .word .Va => 69
  | .word .Vau => 28
  | .word .Veha => 18
  | .word .Veho => 39
  | .word .Vei => 1
  | .word .Viha => 4
  | .word .Vuho => 42
  | .word .Vuhu => 1
  | .word .Xi => 1
  | .word .Y => 10
  | .word .Zaho => 12
  | .word .Zeha => 12
  | .word .Zei => 11
  | .word .Zi => 74
  | .word .Zihe => 75
  | .word .Zohu => 7
  | _ => 0

/-- The text in which a node occurs. -/
def coverOf (n : NodeName) : List Selmaho × List NodeName := (texts[coverIndex n]?).getD text0

theorem coverOf_ok (n : NodeName) : hasNodes (coverOf n) = true := by
  unfold coverOf
  cases h : texts[coverIndex n]? with
  | none => exact text0_ok
  | some x => exact texts_ok x (List.mem_of_getElem? h)

theorem coverOf_mem (n : NodeName) (h1 : n ≠ .GadriSumtiPre_Relative) (h2 : n ≠ .GadriSumtiPre_FullPre)
    (h3 : ∀ s, n = .word s → wordKind s = .single ∨ wordKind s = .noIndicators) : n ∈ (coverOf n).2 := by
  cases n with
  | word s =>
    have := h3 s rfl
    clear h1 h2 h3
    revert this
    cases s <;> decide
  | GadriSumtiPre_Relative => exact absurd rfl h1
  | GadriSumtiPre_FullPre => exact absurd rfl h2
  | _ => decide

end Sneturfahi.Props
