[[[".Gismu"], [".Args", ".Frees", ".Paragraph", ".ParagraphItem_Sentences", ".Paragraphs", ".Selbri", ".Selbri1", ".Selbri2", ".Selbri3", ".Selbri4", ".Selbri5", ".Selbri6", ".Sentence", ".SentenceTail", ".SentenceTail1", ".SentenceTail2", ".SentenceTail3", ".SentenceTail4_Single", ".Sentences1", ".Sentences3_Single", ".TailArgs", ".TanruUnit", ".TanruUnit1", ".TanruUnit2_Gismu", ".Text", ".WithFree", ".word .Gismu"]], [[".Xi", ".Vei", ".Vuhu", ".Pa"], [".Expression1_Forethought", ".Expression1_Operand", ".Expression_Normal", ".ForethoughtExpression", ".Free_Xi", ".MiscNumbers", ".NumberRest_Pa", ".Operand", ".Operand1", ".Operand2", ".Operand3_Number", ".Operator", ".Operator1", ".Operator2", ".Operator3_Simple", ".OperatorComponent", ".OperatorComponent1_Vuhu", ".ParagraphItem_Empty", ".Subscript", ".SubscriptValue_Mekso", ".word .Pa", ".word .Vei", ".word .Vuhu", ".word .Xi"]], [[".Coi", ".Le", ".Goi", ".Bai", ".Gismu"], [".Arg", ".Arg3_Tag", ".Free_Vocative", ".GadriSumti", ".GadriSumtiContents_Selbri", ".GadriSumtiPre_Simple", ".Gadri_Le", ".GoiRelativeClause", ".RelativeClause_Goi", ".RelativeClauses", ".Sumti", ".Sumti1", ".Sumti3", ".Sumti4_Normal", ".SumtiComponent1_Gadri", ".Tag", ".TagWord_Bai", ".Vocative", ".VocativeValue_Sumti", ".VocativeWords_Coi", ".word .Bai", ".word .Coi", ".word .Goi", ".word .Le"]], [[".Giha", ".By", ".Mai"], [".Fragment_Gihek", ".Free_Mai", ".Gihek", ".LerfuWord_Lerfu", ".Lerfu_By", ".NaSeTNai", ".NumberRest_Lerfu", ".ParagraphItem_Fragment", ".word .By", ".word .Giha", ".word .Mai"]], [[".Sei", ".Bai", ".Joi", ".Viha", ".Fehe", ".Tahe"], [".EitherOrBoth_Right", ".Free_Sei", ".IntervalProperty_Tahe", ".JoikJek_Joik", ".Joik_SeJoiNai", ".Space", ".SpaceIntervalProperty", ".SpaceInterval_Interval", ".TagWord_TimeSpaceCaha", ".TimeSpaceCaha_Space", ".word .Fehe", ".word .Joi", ".word .Sei", ".word .Tahe", ".word .Viha"]], [[".Ui", ".To", ".I", ".Bihi"], [".Fragment_Joik", ".Free_To", ".Indicator_Ui", ".Indicators", ".Interval", ".Joik_Interval", ".SentenceSeparator", ".word .Bihi", ".word .I", ".word .To", ".word .Ui"]], [[".Soi", ".Pa", ".Lahe", ".Koha"], [".Free_Soi", ".ModifiedSumti", ".Number", ".Quantifier_Number", ".SumtiComponent1_Koha", ".SumtiComponent1_Modified", ".SumtiModifier_Lahe", ".word .Koha", ".word .Lahe", ".word .Soi"]], [[".A", ".Doi", ".Noi", ".Zohu", ".Gismu"], [".Ek", ".Fragment_Ek", ".NoiRelativeClause", ".Prenex", ".RelativeClause_Noi", ".Subsentence", ".VocativeWords_Doi", ".word .A", ".word .Doi", ".word .Noi", ".word .Zohu"]], [[".Tuhe", ".Ja", ".Nai"], [".Fragment_Jek", ".Indicator_Nai", ".Jek", ".Sentences3_Grouped", ".word .Ja", ".word .Nai", ".word .Tuhe"]], [[".Sei", ".Ga", ".Nuhi", ".Gi"], [".Arg3_Termset", ".Gek_SeGaNai", ".Gik", ".Termset_Gek", ".Termset_Nuhi", ".word .Ga", ".word .Gi", ".word .Nuhi"]], [[".Cai", ".Daho", ".Fuhe", ".Y"], [".Indicator_Cai", ".Indicator_Daho", ".Indicator_Y", ".word .Cai", ".word .Daho", ".word .Fuhe", ".word .Y"]], [[".Sei", ".Nahe", ".Gismu", ".Zei", ".Gismu"], [".BeforeTanruUnit_Nahe", ".BuInner", ".SeiTail", ".TanruUnit2_Zei", ".ZeiClause", ".ZeiTail", ".word .Nahe", ".word .Zei"]], [[".Sei", ".Bai", ".A", ".Pu", ".Zeha", ".Zaho", ".Ke", ".Bai"], [".IntervalProperty_Zaho", ".JoikEk_Ek", ".SumtiLikeConnectedPost_Grouped", ".Time", ".TimeDuration", ".TimeOffset", ".TimeSpaceCaha_Time", ".word .Ke", ".word .Pu", ".word .Zaho", ".word .Zeha"]], [[".Niho", ".Na", ".Faho"], [".Fragment_Na", ".ParagraphSeparator", ".word .Faho", ".word .Na", ".word .Niho"]], [[".Soi", ".Vei", ".Fuha", ".Nahe", ".Bo", ".Pa", ".Gismu", ".Sehu"], [".Expression_ReversePolish", ".Operand3_Modified", ".Quantifier_Mekso", ".ReversePolish", ".Sumti4_SelbriShorthand", ".SumtiModifier_NaheBo", ".word .Bo", ".word .Fuha", ".word .Sehu"]], [[".Tei", ".Lau", ".By", ".Foi", ".Mai"], [".LerfuString", ".LerfuWord_Lau", ".LerfuWord_Tei", ".word .Foi", ".word .Lau", ".word .Tei"]], [[".Soi", ".Lu", ".Soi", ".La", ".Cmevla"], [".LaSumti", ".LuSumti", ".SumtiComponent1_La", ".SumtiComponent1_Lu", ".word .Cmevla", ".word .La"]], [[".Sei", ".Jai", ".Fuhivla", ".Be", ".Bai"], [".BeforeTanruUnit_Jai", ".BoundArguments", ".TanruUnit2_Fuhivla", ".word .Be", ".word .Fuhivla", ".word .Jai"]], [[".Coi", ".Veha", ".Gismu", ".Dohu"], [".EitherOrBoth_Left", ".SelbriBefore_Tag", ".VocativeValue_Selbri", ".word .Dohu", ".word .Veha"]], [[".Sei", ".Se", ".Goha"], [".BeforeTanruUnit_Se", ".TanruUnit2_Goha", ".word .Goha", ".word .Se"]], [[".Sei", ".Cu", ".Na", ".Lujvo"], [".SelbriBefore_Na", ".TanruUnit2_Lujvo", ".word .Cu", ".word .Lujvo"]], [[".Sei", ".Nuha", ".Vuhu", ".Joi", ".Fiho", ".Me", ".Koha", ".Ke", ".Vuhu"], [".SelbriLikeConnectedPost_Parenthesized", ".TagWord_Converted", ".TanruUnit2_Me", ".TanruUnit2_Nuha", ".word .Fiho", ".word .Me", ".word .Nuha"]], [[".Fuho"], [".Indicator_Fuho", ".word .Fuho"]], [[".Sei", ".Bai", ".Joi", ".Mohi", ".Faha"], [".SpaceMotion", ".SpaceOffset", ".word .Faha", ".word .Mohi"]], [[".Sei", ".Na", ".Ku", ".Sei", ".Ki", ".Gi", ".Gi"], [".Arg3_Naku", ".Gek_TagGik", ".TagWord_Ki", ".word .Ki", ".word .Ku"]], [[".Xi", ".Soi", ".Lohu", ".Gismu", ".Lehu", ".Pa"], [".LohuSumti", ".SubscriptValue_Number", ".SumtiComponent1_Lohu", ".word .Lehu"]], [[".Soi", ".Li", ".Soi", ".Zo", ".Gismu", ".Pa"], [".SumtiComponent1_Li", ".SumtiComponent1_Zo", ".ZoSumti", ".word .Li"]], [[".Xi", ".Vei", ".Fuha", ".Johi", ".Mohe", ".Koha"], [".Operand3_Johi", ".Operand3_Mohe", ".word .Johi", ".word .Mohe"]], [[".Gismu", ".Giha", ".Gismu", ".Vau"], [".SentenceTail2After", ".SentenceTail2Connective", ".word .Vau"]], [[".Sei", ".Nu", ".Gismu", ".Kei"], [".TanruUnit2_Nu", ".word .Kei", ".word .Nu"]], [[".Pa", ".Boi"], [".Fragment_Number", ".word .Boi"]], [[".Sei", ".Cuhe"], [".TagWord_Cuhe", ".word .Cuhe"]], [[".Coi", ".Goi", ".Bai", ".Pehe", ".Gaho", ".Bihi", ".Gaho", ".Bai", ".Gehu"], [".Joik_Gaho", ".PeheConnective", ".word .Gaho", ".word .Gehu", ".word .Pehe"]], [[".Xi", ".Vei", ".Pa", ".Bihe", ".Nahe", ".Maho", ".Pa", ".Tehu", ".Pa"], [".OperatorComponent1_Maho", ".OperatorComponentPre_Nahe", ".word .Bihe", ".word .Maho", ".word .Tehu"]], [[".Sei", ".Fa", ".To", ".Toi", ".Koha"], [".Arg3_Sumti", ".word .Fa", ".word .Toi"]], [[".Sei", ".Pa", ".Moi"], [".TanruUnit2_Moi", ".word .Moi"]], [[".Coi", ".Caha", ".Gismu"], [".TimeSpaceCaha_Caha", ".word .Caha"]], [[".Pa", ".Roi", ".Tuhe"], [".IntervalProperty_Roi", ".word .Roi"]], [[".Ke", ".Joi", ".Gi", ".Gismu", ".Gi", ".Gismu"], [".GekSentence", ".Gek_JoikGi", ".SentenceTail4_Parenthesized"]], [[".Xi", ".Vei", ".Fuha", ".Nihe", ".Gismu", ".Veho"], [".Operand3_Nihe", ".word .Nihe", ".word .Veho"]], [[".Xi", ".Vei", ".Pa", ".Bihe", ".Ke", ".Nahu", ".Gismu", ".Kehe", ".Pa"], [".Operator3_Grouped", ".OperatorComponent1_Nahu", ".word .Kehe", ".word .Nahu"]], [[".Soi", ".Koha", ".Joi", ".Koha"], [".JoikEk_Joik", ".SumtiLikeConnectedPost_Normal"]], [[".Soi", ".Koha", ".Vuho", ".Noi", ".Gismu"], [".VuhoRelative", ".word .Vuho"]], [[".Ui", ".Sei", ".Gismu", ".Ja", ".Gismu"], [".JoikJek_Jek", ".SelbriLikeConnectedPost_Normal"]], [[".Soi", ".Zoi", ".Gismu", ".Gismu", ".Gismu"], [".SumtiComponent1_Zoi", ".ZoiSumti"]], [[".Doi", ".Noi", ".Gismu", ".Kuho", ".Cmevla"], [".VocativeValue_Cmevla", ".word .Kuho"]], [[".Sei", ".Nuhi", ".Ga", ".Nuhu", ".Gi"], [".Termset_NuhiGi", ".word .Nuhu"]], [[".Xi", ".Vei", ".Pa", ".Bihe", ".Guha", ".Vuhu", ".Gi", ".Vuhu", ".Pa"], [".Guhek", ".NaheGuhekTGik", ".word .Guha"]], [[".Sei", ".Bai", ".Ku", ".Sei", ".Bai", ".Koha"], [".TagValue_Ku", ".TagValue_Sumti"]], [[".Xi", ".Vei", ".Peho", ".Vuhu", ".Pa", ".Kuhe"], [".word .Kuhe", ".word .Peho"]], [[".Soi", ".By"], [".SumtiComponent1_LerfuString"]], [[".Tuhe", ".Tuhu"], [".word .Tuhu"]], [[".Sei", ".Soi", ".Lahe", ".Li", ".Pa", ".Loho", ".Luhu", ".Sehu"], [".word .Loho", ".word .Luhu"]], [[".Sei", ".Ke", ".Gismu"], [".TanruUnit2_GroupedTanru"]], [[".Sei", ".Goha", ".Raho"], [".word .Raho"]], [[".Gismu", ".Bu", ".Mai"], [".Lerfu_Bu"]], [[".Soi", ".La", ".Gismu"], [".Gadri_La"]], [[".Soi", ".Lu", ".Lihu"], [".word .Lihu"]], [[".Gismu", ".Giha", ".Ke", ".Gismu"], [".SentenceTail1After"]], [[".Gismu", ".Giha", ".Bo", ".Gismu"], [".SentenceTail3After"]], [[".Ga", ".Gismu", ".Gi", ".Gismu"], [".SentenceTail4_Connected"]], [[".Sei", ".Gismu", ".Co", ".Gismu"], [".word .Co"]], [[".Sei", ".Me", ".Koha", ".Mehu"], [".word .Mehu"]], [[".Coi", ".Veha", ".Viha", ".Gismu"], [".EitherOrBoth_Both"]], [[".Coi", ".Fehe", ".Tahe", ".Gismu"], [".SpaceInterval_Properties"]], [[".Soi", ".Le", ".Pa", ".Koha"], [".GadriSumtiContents_Sumti"]], [[".Xi", ".Vei", ".Vei", ".Pa"], [".Operand3_Parenthesized"]], [[".Sei", ".Gismu", ".Cei", ".Gismu"], [".word .Cei"]], [[".Sei", ".Bai", ".Cehe", ".Bai"], [".word .Cehe"]], [[".Sei", ".Bai", ".Joi", ".Va"], [".word .Va"]], [[".Zohu", ".I", ".Bo", ".I"], [".CloseSentenceSeparator"]], [[".Sei", ".Gismu", ".Be", ".Bai", ".Beho"], [".word .Beho"]], [[".Coi", ".Gismu", ".Bu", ".Zei", ".Gismu"], [".ZeiBuInner"]], [[".Soi", ".Ga", ".Koha", ".Gi", ".Koha"], [".Sumti3ConnectedPre"]], [[".Ui", ".Sei", ".Bai", ".A", ".Zi"], [".word .Zi"]], [[".Coi", ".Goi", ".Bai", ".Zihe", ".Xi", ".Vei", ".Pa", ".Bihe", ".Se", ".Vuhu", ".Pa", ".Goi", ".Bai"], [".OperatorComponentPre_Se", ".word .Zihe"]], [[".Sei", ".Bai", ".Joi", ".Fiho", ".Gismu", ".Fehu"], [".word .Fehu"]], [[".Xi", ".Vei", ".Ga", ".Pa", ".Gi", ".Pa"], [".Operand2ConnectedPre"]], [[".Sei", ".Gismu", ".Be", ".Bai", ".Bei", ".Bai"], [".word .Bei"]], [[".Li", ".Fuha", ".Pa", ".Boi", ".Pa", ".Boi", ".Vuhu"], [".RPTail"]], [[".I", ".I", ".Se", ".Ja", ".Pa", ".Mai", ".I", ".Na", ".Faho"], [".ConnectedSentenceSeparator"]]]