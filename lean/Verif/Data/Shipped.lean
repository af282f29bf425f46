import Verif.Data.Main1
import Verif.Data.Main2
import Verif.Data.Main3
import Verif.Data.Main4
import Verif.Model.Container
/-!
# The shipped metadata container

Generated.  The container is written out explicitly (this keeps kernel computation cheap) and proved equal to what
`NewContainer` builds from the shipped collection and the shipped country code map.
-/
namespace Verif.Data

-- /repo/metadata/data/countrycode_to_region.xml.gz
shipped_cc ccMap r"1	US AG AI AS BB BM BS CA DM DO GD GU JM KN KY LC MP MS PR SX TC TT VC VG VI
7	RU KZ
20	EG
27	ZA
30	GR
31	NL
32	BE
33	FR
34	ES
36	HU
39	IT VA
40	RO
41	CH
43	AT
44	GB GG IM JE
45	DK
46	SE
47	NO SJ
48	PL
49	DE
51	PE
52	MX
53	CU
54	AR
55	BR
56	CL
57	CO
58	VE
60	MY
61	AU CC CX
62	ID
63	PH
64	NZ
65	SG
66	TH
81	JP
82	KR
84	VN
86	CN
90	TR
91	IN
92	PK
93	AF
94	LK
95	MM
98	IR
211	SS
212	MA EH
213	DZ
216	TN
218	LY
220	GM
221	SN
222	MR
223	ML
224	GN
225	CI
226	BF
227	NE
228	TG
229	BJ
230	MU
231	LR
232	SL
233	GH
234	NG
235	TD
236	CF
237	CM
238	CV
239	ST
240	GQ
241	GA
242	CG
243	CD
244	AO
245	GW
246	IO
247	AC
248	SC
249	SD
250	RW
251	ET
252	SO
253	DJ
254	KE
255	TZ
256	UG
257	BI
258	MZ
260	ZM
261	MG
262	RE YT
263	ZW
264	NA
265	MW
266	LS
267	BW
268	SZ
269	KM
290	SH TA
291	ER
297	AW
298	FO
299	GL
350	GI
351	PT
352	LU
353	IE
354	IS
355	AL
356	MT
357	CY
358	FI AX
359	BG
370	LT
371	LV
372	EE
373	MD
374	AM
375	BY
376	AD
377	MC
378	SM
380	UA
381	RS
382	ME
383	XK
385	HR
386	SI
387	BA
389	MK
420	CZ
421	SK
423	LI
500	FK
501	BZ
502	GT
503	SV
504	HN
505	NI
506	CR
507	PA
508	PM
509	HT
590	GP BL MF
591	BO
592	GY
593	EC
594	GF
595	PY
596	MQ
597	SR
598	UY
599	CW BQ
670	TL
672	NF
673	BN
674	NR
675	PG
676	TO
677	SB
678	VU
679	FJ
680	PW
681	WF
682	CK
683	NU
685	WS
686	KI
687	NC
688	TV
689	PF
690	TK
691	FM
692	MH
800	001
808	001
850	KP
852	HK
853	MO
855	KH
856	LA
870	001
878	001
880	BD
881	001
882	001
883	001
886	TW
888	001
960	MV
961	LB
962	JO
963	SY
964	IQ
965	KW
966	SA
967	YE
968	OM
970	PS
971	AE
972	IL
973	BH
974	QA
975	BT
976	MN
977	NP
979	001
992	TJ
993	TM
994	AZ
995	GE
996	KG
998	UZ"

/-- The shipped metadata collection. -/
noncomputable def collection : List Metadata := main1 ++ main2 ++ main3 ++ main4

/-- The container the library uses. -/
noncomputable def container : Container where
  regionMeta := [
    (str!"ZW", main4.ZW_263), (str!"ZM", main4.ZM_260), (str!"ZA", main4.ZA_27), (str!"YT", main4.YT_262),
    (str!"YE", main4.YE_967), (str!"XK", main4.XK_383), (str!"WS", main4.WS_685), (str!"WF", main4.WF_681),
    (str!"VU", main4.VU_678), (str!"VN", main4.VN_84), (str!"VI", main4.VI_1), (str!"VG", main4.VG_1),
    (str!"VE", main4.VE_58), (str!"VC", main4.VC_1), (str!"VA", main4.VA_39), (str!"UZ", main4.UZ_998),
    (str!"UY", main4.UY_598), (str!"US", main4.US_1), (str!"UG", main4.UG_256), (str!"UA", main4.UA_380),
    (str!"TZ", main4.TZ_255), (str!"TW", main4.TW_886), (str!"TV", main4.TV_688), (str!"TT", main4.TT_1),
    (str!"TR", main4.TR_90), (str!"TO", main4.TO_676), (str!"TN", main4.TN_216), (str!"TM", main4.TM_993),
    (str!"TL", main4.TL_670), (str!"TK", main4.TK_690), (str!"TJ", main4.TJ_992), (str!"TH", main4.TH_66),
    (str!"TG", main4.TG_228), (str!"TD", main4.TD_235), (str!"TC", main4.TC_1), (str!"TA", main4.TA_290),
    (str!"SZ", main4.SZ_268), (str!"SY", main4.SY_963), (str!"SX", main4.SX_1), (str!"SV", main4.SV_503),
    (str!"ST", main4.ST_239), (str!"SS", main4.SS_211), (str!"SR", main4.SR_597), (str!"SO", main4.SO_252),
    (str!"SN", main4.SN_221), (str!"SM", main4.SM_378), (str!"SL", main4.SL_232), (str!"SK", main4.SK_421),
    (str!"SJ", main4.SJ_47), (str!"SI", main4.SI_386), (str!"SH", main4.SH_290), (str!"SG", main4.SG_65),
    (str!"SE", main4.SE_46), (str!"SD", main4.SD_249), (str!"SC", main4.SC_248), (str!"SB", main3.SB_677),
    (str!"SA", main3.SA_966), (str!"RW", main3.RW_250), (str!"RU", main3.RU_7), (str!"RS", main3.RS_381),
    (str!"RO", main3.RO_40), (str!"RE", main3.RE_262), (str!"QA", main3.QA_974), (str!"PY", main3.PY_595),
    (str!"PW", main3.PW_680), (str!"PT", main3.PT_351), (str!"PS", main3.PS_970), (str!"PR", main3.PR_1),
    (str!"PM", main3.PM_508), (str!"PL", main3.PL_48), (str!"PK", main3.PK_92), (str!"PH", main3.PH_63),
    (str!"PG", main3.PG_675), (str!"PF", main3.PF_689), (str!"PE", main3.PE_51), (str!"PA", main3.PA_507),
    (str!"OM", main3.OM_968), (str!"NZ", main3.NZ_64), (str!"NU", main3.NU_683), (str!"NR", main3.NR_674),
    (str!"NP", main3.NP_977), (str!"NO", main3.NO_47), (str!"NL", main3.NL_31), (str!"NI", main3.NI_505),
    (str!"NG", main3.NG_234), (str!"NF", main3.NF_672), (str!"NE", main3.NE_227), (str!"NC", main3.NC_687),
    (str!"NA", main3.NA_264), (str!"MZ", main3.MZ_258), (str!"MY", main3.MY_60), (str!"MX", main3.MX_52),
    (str!"MW", main3.MW_265), (str!"MV", main3.MV_960), (str!"MU", main3.MU_230), (str!"MT", main3.MT_356),
    (str!"MS", main3.MS_1), (str!"MR", main3.MR_222), (str!"MQ", main3.MQ_596), (str!"MP", main3.MP_1),
    (str!"MO", main3.MO_853), (str!"MN", main3.MN_976), (str!"MM", main3.MM_95), (str!"ML", main3.ML_223),
    (str!"MK", main3.MK_389), (str!"MH", main3.MH_692), (str!"MG", main3.MG_261), (str!"MF", main3.MF_590),
    (str!"ME", main3.ME_382), (str!"MD", main3.MD_373), (str!"MC", main3.MC_377), (str!"MA", main3.MA_212),
    (str!"LY", main3.LY_218), (str!"LV", main3.LV_371), (str!"LU", main3.LU_352), (str!"LT", main3.LT_370),
    (str!"LS", main3.LS_266), (str!"LR", main3.LR_231), (str!"LK", main2.LK_94), (str!"LI", main2.LI_423),
    (str!"LC", main2.LC_1), (str!"LB", main2.LB_961), (str!"LA", main2.LA_856), (str!"KZ", main2.KZ_7),
    (str!"KY", main2.KY_1), (str!"KW", main2.KW_965), (str!"KR", main2.KR_82), (str!"KP", main2.KP_850),
    (str!"KN", main2.KN_1), (str!"KM", main2.KM_269), (str!"KI", main2.KI_686), (str!"KH", main2.KH_855),
    (str!"KG", main2.KG_996), (str!"KE", main2.KE_254), (str!"JP", main2.JP_81), (str!"JO", main2.JO_962),
    (str!"JM", main2.JM_1), (str!"JE", main2.JE_44), (str!"IT", main2.IT_39), (str!"IS", main2.IS_354),
    (str!"IR", main2.IR_98), (str!"IQ", main2.IQ_964), (str!"IO", main2.IO_246), (str!"IN", main2.IN_91),
    (str!"IM", main2.IM_44), (str!"IL", main2.IL_972), (str!"IE", main2.IE_353), (str!"ID", main2.ID_62),
    (str!"HU", main2.HU_36), (str!"HT", main2.HT_509), (str!"HR", main2.HR_385), (str!"HN", main2.HN_504),
    (str!"HK", main2.HK_852), (str!"GY", main2.GY_592), (str!"GW", main2.GW_245), (str!"GU", main2.GU_1),
    (str!"GT", main2.GT_502), (str!"GR", main2.GR_30), (str!"GQ", main2.GQ_240), (str!"GP", main2.GP_590),
    (str!"GN", main2.GN_224), (str!"GM", main2.GM_220), (str!"GL", main2.GL_299), (str!"GI", main2.GI_350),
    (str!"GH", main2.GH_233), (str!"GG", main2.GG_44), (str!"GF", main2.GF_594), (str!"GE", main2.GE_995),
    (str!"GD", main2.GD_1), (str!"GB", main2.GB_44), (str!"GA", main2.GA_241), (str!"FR", main2.FR_33),
    (str!"FO", main2.FO_298), (str!"FM", main2.FM_691), (str!"FK", main2.FK_500), (str!"FJ", main2.FJ_679),
    (str!"FI", main2.FI_358), (str!"ET", main2.ET_251), (str!"ES", main2.ES_34), (str!"ER", main2.ER_291),
    (str!"EH", main2.EH_212), (str!"EG", main2.EG_20), (str!"EE", main1.EE_372), (str!"EC", main1.EC_593),
    (str!"DZ", main1.DZ_213), (str!"DO", main1.DO_1), (str!"DM", main1.DM_1), (str!"DK", main1.DK_45),
    (str!"DJ", main1.DJ_253), (str!"DE", main1.DE_49), (str!"CZ", main1.CZ_420), (str!"CY", main1.CY_357),
    (str!"CX", main1.CX_61), (str!"CW", main1.CW_599), (str!"CV", main1.CV_238), (str!"CU", main1.CU_53),
    (str!"CR", main1.CR_506), (str!"CO", main1.CO_57), (str!"CN", main1.CN_86), (str!"CM", main1.CM_237),
    (str!"CL", main1.CL_56), (str!"CK", main1.CK_682), (str!"CI", main1.CI_225), (str!"CH", main1.CH_41),
    (str!"CG", main1.CG_242), (str!"CF", main1.CF_236), (str!"CD", main1.CD_243), (str!"CC", main1.CC_61),
    (str!"CA", main1.CA_1), (str!"BZ", main1.BZ_501), (str!"BY", main1.BY_375), (str!"BW", main1.BW_267),
    (str!"BT", main1.BT_975), (str!"BS", main1.BS_1), (str!"BR", main1.BR_55), (str!"BQ", main1.BQ_599),
    (str!"BO", main1.BO_591), (str!"BN", main1.BN_673), (str!"BM", main1.BM_1), (str!"BL", main1.BL_590),
    (str!"BJ", main1.BJ_229), (str!"BI", main1.BI_257), (str!"BH", main1.BH_973), (str!"BG", main1.BG_359),
    (str!"BF", main1.BF_226), (str!"BE", main1.BE_32), (str!"BD", main1.BD_880), (str!"BB", main1.BB_1),
    (str!"BA", main1.BA_387), (str!"AZ", main1.AZ_994), (str!"AX", main1.AX_358), (str!"AW", main1.AW_297),
    (str!"AU", main1.AU_61), (str!"AT", main1.AT_43), (str!"AS", main1.AS_1), (str!"AR", main1.AR_54),
    (str!"AO", main1.AO_244), (str!"AM", main1.AM_374), (str!"AL", main1.AL_355), (str!"AI", main1.AI_1),
    (str!"AG", main1.AG_1), (str!"AF", main1.AF_93), (str!"AE", main1.AE_971), (str!"AD", main1.AD_376),
    (str!"AC", main1.AC_247)]
  nonGeoMeta := [
    (979, main4.«001_979»), (888, main4.«001_888»), (883, main4.«001_883»), (882, main4.«001_882»),
    (881, main4.«001_881»), (878, main4.«001_878»), (870, main4.«001_870»), (808, main4.«001_808»),
    (800, main4.«001_800»)]
  ccToRegion := ccMap
  nanpaRegions := [
    str!"US", str!"AG", str!"AI", str!"AS", str!"BB", str!"BM", str!"BS", str!"CA", str!"DM", str!"DO", str!"GD",
    str!"GU", str!"JM", str!"KN", str!"KY", str!"LC", str!"MP", str!"MS", str!"PR", str!"SX", str!"TC", str!"TT",
    str!"VC", str!"VG", str!"VI"]
  supportedRegions := [
    str!"US", str!"AG", str!"AI", str!"AS", str!"BB", str!"BM", str!"BS", str!"CA", str!"DM", str!"DO", str!"GD",
    str!"GU", str!"JM", str!"KN", str!"KY", str!"LC", str!"MP", str!"MS", str!"PR", str!"SX", str!"TC", str!"TT",
    str!"VC", str!"VG", str!"VI", str!"RU", str!"KZ", str!"EG", str!"ZA", str!"GR", str!"NL", str!"BE", str!"FR",
    str!"ES", str!"HU", str!"IT", str!"VA", str!"RO", str!"CH", str!"AT", str!"GB", str!"GG", str!"IM", str!"JE",
    str!"DK", str!"SE", str!"NO", str!"SJ", str!"PL", str!"DE", str!"PE", str!"MX", str!"CU", str!"AR", str!"BR",
    str!"CL", str!"CO", str!"VE", str!"MY", str!"AU", str!"CC", str!"CX", str!"ID", str!"PH", str!"NZ", str!"SG",
    str!"TH", str!"JP", str!"KR", str!"VN", str!"CN", str!"TR", str!"IN", str!"PK", str!"AF", str!"LK", str!"MM",
    str!"IR", str!"SS", str!"MA", str!"EH", str!"DZ", str!"TN", str!"LY", str!"GM", str!"SN", str!"MR", str!"ML",
    str!"GN", str!"CI", str!"BF", str!"NE", str!"TG", str!"BJ", str!"MU", str!"LR", str!"SL", str!"GH", str!"NG",
    str!"TD", str!"CF", str!"CM", str!"CV", str!"ST", str!"GQ", str!"GA", str!"CG", str!"CD", str!"AO", str!"GW",
    str!"IO", str!"AC", str!"SC", str!"SD", str!"RW", str!"ET", str!"SO", str!"DJ", str!"KE", str!"TZ", str!"UG",
    str!"BI", str!"MZ", str!"ZM", str!"MG", str!"RE", str!"YT", str!"ZW", str!"NA", str!"MW", str!"LS", str!"BW",
    str!"SZ", str!"KM", str!"SH", str!"TA", str!"ER", str!"AW", str!"FO", str!"GL", str!"GI", str!"PT", str!"LU",
    str!"IE", str!"IS", str!"AL", str!"MT", str!"CY", str!"FI", str!"AX", str!"BG", str!"LT", str!"LV", str!"EE",
    str!"MD", str!"AM", str!"BY", str!"AD", str!"MC", str!"SM", str!"UA", str!"RS", str!"ME", str!"XK", str!"HR",
    str!"SI", str!"BA", str!"MK", str!"CZ", str!"SK", str!"LI", str!"FK", str!"BZ", str!"GT", str!"SV", str!"HN",
    str!"NI", str!"CR", str!"PA", str!"PM", str!"HT", str!"GP", str!"BL", str!"MF", str!"BO", str!"GY", str!"EC",
    str!"GF", str!"PY", str!"MQ", str!"SR", str!"UY", str!"CW", str!"BQ", str!"TL", str!"NF", str!"BN", str!"NR",
    str!"PG", str!"TO", str!"SB", str!"VU", str!"FJ", str!"PW", str!"WF", str!"CK", str!"NU", str!"WS", str!"KI",
    str!"NC", str!"TV", str!"PF", str!"TK", str!"FM", str!"MH", str!"KP", str!"HK", str!"MO", str!"KH", str!"LA",
    str!"BD", str!"TW", str!"MV", str!"LB", str!"JO", str!"SY", str!"IQ", str!"KW", str!"SA", str!"YE", str!"OM",
    str!"PS", str!"AE", str!"IL", str!"BH", str!"QA", str!"BT", str!"MN", str!"NP", str!"TJ", str!"TM", str!"AZ",
    str!"GE", str!"KG", str!"UZ"]
  supportedCodes := [
    1, 7, 20, 27, 30, 31, 32, 33, 34, 36, 39, 40, 41, 43, 44, 45, 46, 47, 48, 49, 51, 52, 53, 54, 55, 56, 57, 58,
    60, 61, 62, 63, 64, 65, 66, 81, 82, 84, 86, 90, 91, 92, 93, 94, 95, 98, 211, 212, 213, 216, 218, 220, 221, 222,
    223, 224, 225, 226, 227, 228, 229, 230, 231, 232, 233, 234, 235, 236, 237, 238, 239, 240, 241, 242, 243, 244,
    245, 246, 247, 248, 249, 250, 251, 252, 253, 254, 255, 256, 257, 258, 260, 261, 262, 263, 264, 265, 266, 267,
    268, 269, 290, 291, 297, 298, 299, 350, 351, 352, 353, 354, 355, 356, 357, 358, 359, 370, 371, 372, 373, 374,
    375, 376, 377, 378, 380, 381, 382, 383, 385, 386, 387, 389, 420, 421, 423, 500, 501, 502, 503, 504, 505, 506,
    507, 508, 509, 590, 591, 592, 593, 594, 595, 596, 597, 598, 599, 670, 672, 673, 674, 675, 676, 677, 678, 679,
    680, 681, 682, 683, 685, 686, 687, 688, 689, 690, 691, 692, 800, 808, 850, 852, 853, 855, 856, 870, 878, 880,
    881, 882, 883, 886, 888, 960, 961, 962, 963, 964, 965, 966, 967, 968, 970, 971, 972, 973, 974, 975, 976, 977,
    979, 992, 993, 994, 995, 996, 998]
  nonGeoCodes := [
    800, 808, 870, 878, 881, 882, 883, 888, 979]

/-- The explicit container is the one `NewContainer` builds. -/
theorem newContainer_eq : newContainer collection ccMap = some container := by
  unfold newContainer
  rw [foldl_addMetadata]
  kernel_rfl

end Verif.Data
