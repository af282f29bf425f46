import Verif.Data.Decode
/-! Generated from `/repo/data/shortnumber_metadata.xml.gz` (metadata v9.0.37); part 1 of 2.  See `Verif/Data/Decode.lean` for the line format. -/
namespace Verif.Data
shipped short1 r"R	AC	0							0	0		0
D	general	1	9\d\d	3		
D	toll	1	9(?:11|99)			911
D	premium	0		-1		
D	emergency	1	9(?:11|99)			911
D	short	1	9(?:11|99)			911
D	standard	0		-1		
D	carrier	0		-1		
D	sms	0		-1		
R	AD	0							0	0		0
D	general	1	1\d\d	3		
D	toll	1	11[0268]			110
D	premium	0		-1		
D	emergency	1	11[0268]			110
D	short	1	11[0268]			110
D	standard	0		-1		
D	carrier	0		-1		
D	sms	0		-1		
R	AE	0							0	0		0
D	general	1	[149]\d{2,3}	3,4		
D	toll	1	112|99[7-9]	3		112
D	premium	0		-1		
D	emergency	1	112|99[7-9]	3		112
D	short	1	112|445[16]|99[7-9]			112
D	standard	0		-1		
D	carrier	0		-1		
D	sms	1	445\d	4		4450
R	AF	0							0	0		0
D	general	1	[14]\d\d(?:\d{2})?	3,5		
D	toll	1	1(?:0[02]|19)	3		100
D	premium	0		-1		
D	emergency	1	1(?:0[02]|19)	3		100
D	short	1	1(?:0[02]|19)|40404			100
D	standard	0		-1		
D	carrier	1	404\d\d	5		40400
D	sms	1	404\d\d	5		40400
R	AG	0							0	0		0
D	general	1	[19]\d\d	3		
D	toll	1	9(?:11|88|99)			911
D	premium	0		-1		
D	emergency	1	9(?:11|99)			911
D	short	1	176|9(?:11|88|99)			176
D	standard	0		-1		
D	carrier	1	176			176
D	sms	1	176			176
R	AI	0							0	0		0
D	general	1	[19]\d\d	3		
D	toll	1	9(?:11|88)			911
D	premium	0		-1		
D	emergency	1	911			911
D	short	1	176|9(?:11|88)			176
D	standard	0		-1		
D	carrier	1	176			176
D	sms	1	176			176
R	AL	0							0	0		0
D	general	1	[15]\d{2,5}	3,4,5,6		
D	toll	1	1(?:1(?:2|6[01]\d\d)|2[7-9]|3[15]|41)	3,6		112
D	premium	1	5\d{4}	5		50000
D	emergency	1	1(?:12|2[7-9])	3		112
D	short	1	1(?:1(?:6(?:000|1(?:06|11|23))|8\d\d)|65\d|89[12])|5\d{4}|1(?:[1349]\d|2[2-9])			110
D	standard	0		-1		
D	carrier	1	123	3		123
D	sms	1	131|5\d{4}	3,5		131
R	AM	0							0	0		0
D	general	1	[148]\d{2,4}	3,4,5		
D	toll	1	10[1-3]	3		101
D	premium	0		-1		
D	emergency	1	10[1-3]	3		101
D	short	1	(?:1|8[1-7])\d\d|40404			100
D	standard	0		-1		
D	carrier	1	404\d\d	5		40400
D	sms	1	404\d\d	5		40400
R	AO	0							0	0		0
D	general	1	1\d\d	3		
D	toll	1	11[235]			112
D	premium	0		-1		
D	emergency	1	11[235]			112
D	short	1	11[235]			112
D	standard	0		-1		
D	carrier	0		-1		
D	sms	0		-1		
R	AR	0							0	0		0
D	general	1	[01389]\d{1,4}	2,3,4,5		
D	toll	1	000|1(?:0[0-35-7]|1[0245]|2[015]|3[47]|4[478]|9)|911	2,3		19
D	premium	0		-1		
D	emergency	1	10[017]|911	3		100
D	short	1	000|1(?:0[0-35-7]|1[02-5]|2[015]|3[47]|4[478]|9)|3372|89338|911			19
D	standard	0		-1		
D	carrier	1	893\d\d	5		89300
D	sms	1	(?:337|893\d)\d	4,5		3370
R	AS	0							0	0		0
D	general	1	[49]\d\d(?:\d{2})?	3,5		
D	toll	1	9(?:11|88)	3		911
D	premium	0		-1		
D	emergency	1	911	3		911
D	short	1	40404|9(?:11|88)			911
D	standard	0		-1		
D	carrier	0		-1		
D	sms	1	404\d\d	5		40400
R	AT	0							0	0		0
D	general	1	[1268]\d{2,5}	3,4,5,6		
D	toll	1	1(?:12|2[0238]|3[03]|4[0-247])|1(?:16\d\d|4[58])\d	3,4,6		112
D	premium	0		-1		
D	emergency	1	1(?:[12]2|33|44)	3		112
D	short	1	1(?:1(?:2|6(?:00[06]|1(?:17|23)))|2[0238]|3[03]|4(?:[0-247]|5[05]|84))|(?:2(?:066|20)|61|8108[1-3])0			112
D	standard	0		-1		
D	carrier	1	220\d|610|(?:206|810\d)\d\d			610
D	sms	1	206\d\d	5		20600
R	AU	0							0	0		0
D	general	1	[0-27]\d{2,7}	3,4,5,6,7,8		
D	toll	1	000|1(?:06|12|258885|55\d)|733	3,4,7		000
D	premium	1	1(?:2(?:34|456)|9\d{4,6})	4,5,6,7,8		1234
D	emergency	1	000|1(?:06|12)	3		000
D	short	1	000|1(?:06|1(?:00|2|9[46])|2(?:014[1-3]|[23]\d|(?:4|5\d)\d{2,3}|68[689]|72(?:20|3\d\d)|8(?:[013-9]\d|2))|555|9\d{4,6})|225|7(?:33|67)			000
D	standard	1	1(?:1[09]\d|24733)|225|767	3,4,6		225
D	carrier	1	1(?:258885|55\d)	4,7		1550
D	sms	1	19\d{4,6}	6,7,8		190000
R	AW	0							0	0		0
D	general	1	[19]\d\d	3		
D	toll	1	100|911			100
D	premium	0		-1		
D	emergency	1	100|911			100
D	short	1	1(?:00|18|76)|91[13]			100
D	standard	0		-1		
D	carrier	1	176			176
D	sms	1	176			176
R	AX	0							0	0		0
D	general	1	[17]\d\d(?:\d{2})?	3,5		
D	toll	1	112	3		112
D	premium	0		-1		
D	emergency	1	112	3		112
D	short	1	112|75[12]\d\d			112
D	standard	0		-1		
D	carrier	0		-1		
D	sms	0		-1		
R	AZ	0							0	0		0
D	general	1	[148]\d{2,3}	3,4		
D	toll	1	1(?:0[1-3]|12)	3		101
D	premium	0		-1		
D	emergency	1	1(?:0[1-3]|12)	3		101
D	short	1	1(?:0[1-3]|12)|(?:404|880)0			101
D	standard	0		-1		
D	carrier	1	(?:404|880)\d	4		4040
D	sms	1	(?:404|880)\d	4		4040
R	BA	0							0	0		0
D	general	1	1\d{2,5}	3,4,5,6		
D	toll	1	1(?:16\d{3}|2[2-4])	3,6		122
D	premium	0		-1		
D	emergency	1	12[2-4]	3		122
D	short	1	1(?:16(?:00[06]|1(?:1[17]|23))|2(?:0[0-7]|[2-5]|6[0-26])|(?:[3-5]|7\d)\d\d)|1(?:18|2[78])\d\d?			122
D	standard	0		-1		
D	carrier	0		-1		
D	sms	0		-1		
R	BB	0							0	0		0
D	general	1	[2-689]\d\d	3		
D	toll	1	988|[2359]11			211
D	premium	0		-1		
D	emergency	1	[2359]11			211
D	short	1	988|[2-689]11			211
D	standard	0		-1		
D	carrier	1	[468]11			411
D	sms	0		-1		
R	BD	0							0	0		0
D	general	1	[1579]\d{2,4}	3,4,5		
D	toll	1	10[0-26]|[19]99	3		100
D	premium	0		-1		
D	emergency	1	10[0-2]|[19]99	3		100
D	short	1	1(?:0(?:[0-369]|5[1-4]|7[0-4]|8[0-29])|1[16-9]|2(?:[134]|2[0-5])|3(?:1\d?|6[3-6])|5[2-9])|5012|786|9594|[19]99|1(?:0(?:50|6\d)|33|4(?:0|1\d))\d			100
D	standard	0		-1		
D	carrier	1	1(?:11|2[13])|(?:501|959)\d|786	3,4		111
D	sms	1	959\d	4		9590
R	BE	0							0	0		0
D	general	1	[1-9]\d\d(?:\d(?:\d{2})?)?	3,4,6		
D	toll	1	1(?:0[0-35-8]|1[0269]|7(?:12|77)|813)|(?:116|8)\d{3}			100
D	premium	1	1(?:2[03]|40)4|(?:1(?:[24]1|3[01])|[2-79]\d\d)\d	4		1204
D	emergency	1	1(?:0[01]|12)	3		100
D	short	1	1(?:0[0-8]|16117|2(?:12|3[0-24])|313|414|5(?:1[05]|5[15]|66|95)|6(?:1[167]|36|6[16])|7(?:[07][017]|1[27-9]|22|33|65)|81[39])|[2-9]\d{3}|11[02679]|1(?:1600|45)0|1(?:[2-4]9|78)9|1[2-4]0[47]			100
D	standard	0		-1		
D	carrier	0		-1		
D	sms	1	[2-9]\d{3}	4		2000
R	BF	0							0	0		0
D	general	1	1\d	2		
D	toll	1	1[78]			17
D	premium	0		-1		
D	emergency	1	1[78]			17
D	short	1	1[78]			17
D	standard	0		-1		
D	carrier	0		-1		
D	sms	0		-1		
R	BG	0							0	0		0
D	general	1	1\d\d(?:\d{3})?	3,6		
D	toll	1	1(?:1(?:2|6\d{3})|50|6[06])			112
D	premium	0		-1		
D	emergency	1	1(?:12|50|6[06])	3		112
D	short	1	1(?:1(?:2|6(?:000|111))|50|6[06])			112
D	standard	0		-1		
D	carrier	0		-1		
D	sms	0		-1		
R	BH	0							0	0		0
D	general	1	[0189]\d\d(?:\d{2})?	3,5		
D	toll	1	(?:0[167]|81)\d{3}|[19]99			199
D	premium	1	9[148]\d{3}	5		91000
D	emergency	1	[19]99	3		199
D	short	1	1(?:[02]\d|12|4[01]|51|8[18]|9[169])|99[02489]|(?:0[167]|8[158]|9[148])\d{3}			100
D	standard	0		-1		
D	carrier	1	0[67]\d{3}|88000|98555	5		06000
D	sms	1	88000|98555	5		88000
R	BI	0							0	0		0
D	general	1	[16-9]\d{2,3}	3,4		
D	toll	1	11[237]|611	3		112
D	premium	0		-1		
D	emergency	1	11[237]	3		112
D	short	1	1(?:1\d|5[2-9]|6[0-256])|611|7(?:10|77|979)|8[28]8|900			110
D	standard	0		-1		
D	carrier	1	611|7(?:10|77)|888|900	3		611
D	sms	1	(?:71|90)0	3		710
R	BJ	0							0	0		0
D	general	1	[17]\d{2,3}	3,4		
D	toll	1	1(?:1[246-8]|3[68]|6[06])|7[3-5]\d\d			112
D	premium	0		-1		
D	emergency	1	11[246-8]	3		112
D	short	1	1(?:05|1[24-8]|2[02-5]|3[126-8]|5[05]|6[06]|89)|7[0-5]\d\d			105
D	standard	0		-1		
D	carrier	1	12[02-5]	3		120
D	sms	0		-1		
R	BL	0							0	0		0
D	general	1	[13]\d(?:\d\d(?:\d{2})?)?	2,4,6		
D	toll	1	18|3(?:00|1[0-689])\d	2,4		18
D	premium	1	3[2469]\d\d	4		3200
D	emergency	1	18	2		18
D	short	1	18|3(?:00[0-79]|1[0-689]\d)|(?:118[02-9]|3[2469])\d\d			18
D	standard	0		-1		
D	carrier	0		-1		
D	sms	0		-1		
R	BM	0							0	0		0
D	general	1	[19]\d\d	3		
D	toll	1	9(?:11|88)			911
D	premium	0		-1		
D	emergency	1	911			911
D	short	1	176|9(?:11|88)			176
D	standard	0		-1		
D	carrier	1	176			176
D	sms	1	176			176
R	BN	0							0	0		0
D	general	1	9\d\d	3		
D	toll	1	99[135]			991
D	premium	0		-1		
D	emergency	1	99[135]			991
D	short	1	99[135]			991
D	standard	0		-1		
D	carrier	0		-1		
D	sms	0		-1		
R	BO	0							0	0		0
D	general	1	[14]\d\d(?:\d{2})?	3,5		
D	toll	1	11[089]	3		110
D	premium	0		-1		
D	emergency	1	11[089]	3		110
D	short	1	11[089]|40404			110
D	standard	0		-1		
D	carrier	0		-1		
D	sms	1	404\d\d	5		40400
R	BQ	0							0	0		0
D	general	1	[19]\d\d	3		
D	toll	1	112|911			112
D	premium	0		-1		
D	emergency	1	112|911			112
D	short	1	1(?:12|76)|911			112
D	standard	0		-1		
D	carrier	1	176			176
D	sms	1	176			176
R	BR	0							0	0		0
D	general	1	[1-69]\d{2,5}	3,4,5,6		
D	toll	1	1(?:00|12|28|8[015]|9[0-47-9])|4(?:57|82\d)|911	3,4		100
D	premium	0		-1		
D	emergency	1	1(?:12|28|9[023])|911	3		112
D	short	1	1(?:0(?:[02]|3(?:1[2-579]|2[13-9]|3[124-9]|4[1-3578]|5[1-468]|6[139]|8[149]|9[168])|5[0-35-9]|6(?:0|1[0-35-8]?|2[0145]|3[0137]?|4[37-9]?|5[0-35]|6[016]?|7[137]?|8[5-8]|9[1359]))|1[25-8]|2[357-9]|3[024-68]|4[12568]|5\d|6[0-8]|8[015]|9[0-47-9])|2(?:7(?:330|878)|85959?)|(?:32|91)1|4(?:0404?|57|828)|55555|6(?:0\d{4}|10000)|(?:133|411)[12]			100
D	standard	1	102|273\d\d|321	3,5		102
D	carrier	1	151|(?:278|555)\d\d|4(?:04\d\d?|11\d|57)	3,4,5		151
D	sms	1	285\d{2,3}|321|40404|(?:27[38]\d|482)\d|6(?:0\d|10)\d{3}			321
R	BS	0							0	0		0
D	general	1	9\d\d	3		
D	toll	1	9(?:1[19]|88)			911
D	premium	0		-1		
D	emergency	1	91[19]			911
D	short	1	9(?:1[19]|88)			911
D	standard	0		-1		
D	carrier	0		-1		
D	sms	0		-1		
R	BT	0							0	0		0
D	general	1	[14]\d\d(?:\d{2})?	3,5		
D	toll	1	11[023]	3		110
D	premium	0		-1		
D	emergency	1	11[023]	3		110
D	short	1	11[0-6]|40404			110
D	standard	0		-1		
D	carrier	0		-1		
D	sms	1	404\d\d	5		40400
R	BW	0							0	0		0
D	general	1	[19]\d\d(?:\d{2})?	3,5		
D	toll	1	9(?:11|9[7-9])	3		911
D	premium	0		-1		
D	emergency	1	9(?:11|9[7-9])	3		911
D	short	1	1(?:1[26]|3123)|9(?:1[14]|9[1-57-9])			112
D	standard	0		-1		
D	carrier	1	131\d\d	5		13100
D	sms	1	131\d\d	5		13100
R	BY	0							0	0		0
D	general	1	1\d\d	3		
D	toll	1	1(?:0[1-3]|12)			101
D	premium	0		-1		
D	emergency	1	1(?:0[1-3]|12)			101
D	short	1	1(?:0[1-79]|1[246]|35|5[1-35]|6[89]|7[5-7]|8[58]|9[1-7])			101
D	standard	0		-1		
D	carrier	0		-1		
D	sms	0		-1		
R	BZ	0							0	0		0
D	general	1	9\d\d?	2,3		
D	toll	1	9(?:0|11|22|66|77|9[09])			90
D	premium	0		-1		
D	emergency	1	9(?:0|11|90)			90
D	short	1	9(?:0|11|22|66|77|9[09])			90
D	standard	0		-1		
D	carrier	0		-1		
D	sms	0		-1		
R	CA	0							0	0		0
D	general	1	[1-9]\d\d(?:\d{2,3})?	3,5,6		
D	toll	1	112|988|[29]11	3		112
D	premium	0		-1		
D	emergency	1	112|911	3		112
D	short	1	[1-35-9]\d{4,5}|112|[2-8]11|9(?:11|88)			112
D	standard	0		-1		
D	carrier	1	[235-7]11	3		211
D	sms	1	[1-35-9]\d{4,5}	5,6		10000
R	CC	0							0	0		0
D	general	1	[01]\d\d	3		
D	toll	1	000|112			000
D	premium	0		-1		
D	emergency	1	000|112			000
D	short	1	000|112			000
D	standard	0		-1		
D	carrier	0		-1		
D	sms	0		-1		
R	CD	0							0	0		0
D	general	1	[14]\d\d(?:\d{2})?	3,5		
D	toll	1	1(?:1[348]|77|88)	3		113
D	premium	0		-1		
D	emergency	1	1(?:1[348]|77|88)	3		113
D	short	1	1(?:1[348]|23|77|88)|40404			113
D	standard	0		-1		
D	carrier	1	404\d\d	5		40400
D	sms	1	404\d\d	5		40400
R	CF	0							0	0		0
D	general	1	1\d{2,3}	3,4		
D	toll	1	1(?:1[78]|22\d)			117
D	premium	0		-1		
D	emergency	1	1(?:1[78]|220)			117
D	short	1	1(?:1[478]|220)			114
D	standard	0		-1		
D	carrier	0		-1		
D	sms	0		-1		
R	CG	0							0	0		0
D	general	1	1\d\d	3		
D	toll	1	11[178]			111
D	premium	0		-1		
D	emergency	1	11[78]			117
D	short	1	11[126-8]			111
D	standard	0		-1		
D	carrier	0		-1		
D	sms	0		-1		
R	CH	0							0	0		0
D	general	1	[1-9]\d{2,5}	3,4,5,6		
D	toll	1	1(?:1(?:[278]|6\d{3})|4[247])|5200	3,4,6		112
D	premium	1	1(?:14|8[0-2589])\d|543|83111	3,4,5		543
D	emergency	1	1(?:1[278]|44)	3		112
D	short	1	1(?:0[78]\d\d|1(?:[278]|45|6(?:000|111))|4(?:[02-57]|1[0145])|6(?:00|[1-46])|8(?:02|1[189]|[25]0|7|8[08]|99))|[2-9]\d{2,4}			112
D	standard	1	1(?:4[035]|6[1-46])|1(?:41|60)\d	3,4		140
D	carrier	1	5(?:200|35)	3,4		535
D	sms	1	[2-9]\d{2,4}	3,4,5		200
R	CI	0							0	0		0
D	general	1	[14]\d{2,3}	3,4		
D	toll	1	1(?:1[01]|[78]0)	3		110
D	premium	0		-1		
D	emergency	1	1(?:1[01]|[78]0)	3		110
D	short	1	1(?:1[01]|[78]0)|4443			110
D	standard	0		-1		
D	carrier	1	444\d	4		4440
D	sms	1	444\d	4		4440
R	CK	0							0	0		0
D	general	1	9\d\d	3		
D	toll	1	99[689]			996
D	premium	0		-1		
D	emergency	1	99[689]			996
D	short	1	99[689]			996
D	standard	0		-1		
D	carrier	0		-1		
D	sms	0		-1		
R	CL	0							0	0		0
D	general	1	[1-9]\d{2,4}	3,4,5		
D	toll	1	1(?:213|3[1-3])|434\d|911	3,4		131
D	premium	1	1(?:211|3(?:13|[348]0|5[01]))|(?:1(?:[05]6|[48]1|9[18])|2(?:01\d|[23]2|77|88)|3(?:0[59]|13|3[279]|66)|4(?:[12]4|36\d|4[017]|55)|5(?:00|41\d|5[67]|99)|6(?:07\d|13|22|3[06]|50|69)|787|8(?:[01]1|[48]8)|9(?:01|[12]0|33))\d	4,5		1060
D	emergency	1	13[1-3]|911	3		131
D	short	1	1(?:00|21[13]|3(?:13|[348]0|5[01])|4(?:0[02-6]|17|[379])|818|919)|2(?:0(?:01|122)|22[47]|323|777|882)|3(?:0(?:51|99)|132|3(?:29|[37]7)|665)|43656|5(?:(?:00|415)4|5(?:66|77)|995)|6(?:131|222|366|699)|7878|8(?:011|11[28]|482|889)|9(?:01|1)1|13\d|4(?:[13]42|243|4(?:02|15|77)|554)|(?:1(?:[05]6|98)|339|6(?:07|[35])0|9(?:[12]0|33))0			100
D	standard	1	(?:200|333)\d	4		2000
D	carrier	0		-1		
D	sms	1	13(?:13|[348]0|5[01])|(?:1(?:[05]6|[28]1|4[01]|9[18])|2(?:0(?:0|1\d)|[23]2|77|88)|3(?:0[59]|13|3[2379]|66)|436\d|5(?:00|41\d|5[67]|99)|6(?:07\d|13|22|3[06]|50|69)|787|8(?:[01]1|[48]8)|9(?:01|[12]0|33))\d|4(?:[1-3]4|4[017]|55)\d	4,5		1060
R	CM	0							0	0		0
D	general	1	[18]\d{1,3}	2,3,4		
D	toll	1	1(?:1[37]|[37])	2,3		13
D	premium	0		-1		
D	emergency	1	1(?:1[37]|[37])	2,3		13
D	short	1	1(?:1[37]|[37])|8711			13
D	standard	0		-1		
D	carrier	1	871\d	4		8710
D	sms	1	871\d	4		8710
R	CN	0							0	0		0
D	general	1	[19]\d{2,5}	3,4,5,6		
D	toll	1	1(?:1[09]|2(?:[02]|1\d\d|395))	3,5		110
D	premium	0		-1		
D	emergency	1	1(?:1[09]|20)	3		110
D	short	1	1(?:00|1[0249]|2395|6[08])|9[56]\d{3,4}|12[023]|1(?:0(?:[0-26]\d|8)|21\d)\d			100
D	standard	1	1(?:0(?:[0-26]\d|8)\d|1[24]|23|6[08])|9[56]\d{3,4}|100			100
D	carrier	0		-1		
D	sms	1	12110	5		12110
R	CO	0							0	0		0
D	general	1	[1-589]\d\d(?:\d{2,3})?	3,5,6		
D	toll	1	1(?:1[29]|23|32|56)	3		112
D	premium	0		-1		
D	emergency	1	1(?:1[29]|23|32|56)	3		112
D	short	1	1(?:06|1[2-9]|2[35-7]|3[27]|4[467]|5[36]|6[4-7]|95)|(?:29002|39003)9|40404|5930\d\d|85432|(?:[2359][57]|8(?:7|9\d))\d{3}			106
D	standard	0		-1		
D	carrier	1	(?:40|85)4\d\d	5		40400
D	sms	1	(?:40|85)4\d\d	5		40400
R	CR	0							0	0		0
D	general	1	[1359]\d{2,3}	3,4		
D	toll	1	112|911	3		112
D	premium	0		-1		
D	emergency	1	112|911	3		112
D	short	1	1(?:0(?:00|15|2[2-4679])|1(?:1[0-35-9]|2|37|[46]6|7[57]|8[79]|9[0-379])|2(?:00|[12]2|34|55)|3(?:21|33)|4(?:0[06]|1[4-6])|5(?:15|5[15])|693|7(?:00|1[7-9]|2[02]|[67]7)|975)|3855|5(?:0(?:30|49)|510)|911			112
D	standard	0		-1		
D	carrier	0		-1		
D	sms	1	(?:385|5(?:0[34]|51))\d	4		3850
R	CU	0							0	0		0
D	general	1	[12]\d\d(?:\d{3,4})?	3,6,7		
D	toll	1	10[4-7]|(?:116|204\d)\d{3}			104
D	premium	0		-1		
D	emergency	1	10[4-6]	3		104
D	short	1	1(?:0[4-7]|1(?:6111|8)|40)|2045252			104
D	standard	0		-1		
D	carrier	0		-1		
D	sms	0		-1		
R	CV	0							0	0		0
D	general	1	1\d\d	3		
D	toll	1	13[0-2]			130
D	premium	0		-1		
D	emergency	1	13[0-2]			130
D	short	1	13[0-2]			130
D	standard	0		-1		
D	carrier	0		-1		
D	sms	0		-1		
R	CW	0							0	0		0
D	general	1	[19]\d\d	3		
D	toll	1	112|911			112
D	premium	0		-1		
D	emergency	1	112|911			112
D	short	1	1(?:12|76)|911			112
D	standard	0		-1		
D	carrier	1	176			176
D	sms	1	176			176
R	CX	0							0	0		0
D	general	1	[01]\d\d	3		
D	toll	1	000|112			000
D	premium	0		-1		
D	emergency	1	000|112			000
D	short	1	000|112			000
D	standard	0		-1		
D	carrier	0		-1		
D	sms	0		-1		
R	CY	0							0	0		0
D	general	1	1\d\d(?:\d{3})?	3,6		
D	toll	1	1(?:1(?:2|6\d{3})|99)			112
D	premium	0		-1		
D	emergency	1	1(?:12|99)	3		112
D	short	1	1(?:1(?:2|6(?:000|111))|99)			112
D	standard	0		-1		
D	carrier	0		-1		
D	sms	0		-1		
R	CZ	0							0	0		0
D	general	1	1\d{2,5}	3,4,5,6		
D	toll	1	1(?:1(?:2|6(?:00[06]|1(?:11|23)))|5\d)	3,6		112
D	premium	0		-1		
D	emergency	1	1(?:12|5\d)	3		112
D	short	1	1(?:1(?:2|8\d)|(?:2|3\d)\d{2,3}|5\d|99)|1(?:16|4)\d{3}			112
D	standard	0		-1		
D	carrier	0		-1		
D	sms	0		-1		
R	DE	0							0	0		0
D	general	1	[1-46-8]\d{2,5}	3,4,5,6		
D	toll	1	11(?:[02]|6\d{3})	3,6		110
D	premium	0		-1		
D	emergency	1	11[02]	3		110
D	short	1	11(?:[025]|6(?:00[06]|1(?:1[167]|23))|800\d)|22(?:044|5(?:43|80)|7700|922)|33(?:11|3[34])|44844|600\d\d|7(?:0\d{3}|464)|80808|118\d\d			110
D	standard	0		-1		
D	carrier	1	(?:33[13]|746)\d|(?:22(?:[059]|7\d)|(?:44|80)8|600|70\d)\d\d	4,5,6		3310
D	sms	1	(?:333|746)\d|(?:22(?:[059]|7\d)|(?:44|80)8|600|70\d)\d\d	4,5,6		3330
R	DJ	0							0	0		0
D	general	1	1\d	2		
D	toll	1	1[78]			17
D	premium	0		-1		
D	emergency	1	1[78]			17
D	short	1	1[78]			17
D	standard	0		-1		
D	carrier	0		-1		
D	sms	0		-1		
R	DK	0							0	0		0
D	general	1	1\d{2,5}	3,4,5,6		
D	toll	1	11(?:[24]|6\d{3})	3,6		112
D	premium	0		-1		
D	emergency	1	11[24]	3		112
D	short	1	1(?:1(?:[248]|6(?:00[06]|111))|619[0-2]|8(?:01|1[0238]|28|30|5[13]|8[18]))			112
D	standard	0		-1		
D	carrier	0		-1		
D	sms	0		-1		
R	DM	0							0	0		0
D	general	1	[39]\d\d	3		
D	toll	1	333|9(?:11|88|99)			333
D	premium	0		-1		
D	emergency	1	333|9(?:11|99)			333
D	short	1	333|9(?:11|88|99)			333
D	standard	0		-1		
D	carrier	0		-1		
D	sms	0		-1		
R	DO	0							0	0		0
D	general	1	[19]\d\d	3		
D	toll	1	112|9(?:11|88)			112
D	premium	0		-1		
D	emergency	1	112|911			112
D	short	1	112|9(?:11|88)			112
D	standard	0		-1		
D	carrier	0		-1		
D	sms	0		-1		
R	DZ	0							0	0		0
D	general	1	[17]\d{1,3}	2,3,4		
D	toll	1	1(?:12|[47]|54\d)			14
D	premium	0		-1		
D	emergency	1	1(?:12|[47])	2,3		14
D	short	1	1(?:055|12|[47]|548)|730			14
D	standard	0		-1		
D	carrier	1	730	3		730
D	sms	1	730	3		730
R	EC	0							0	0		0
D	general	1	[19]\d\d	3		
D	toll	1	1(?:0[12]|12)|911			101
D	premium	0		-1		
D	emergency	1	1(?:0[12]|12)|911			101
D	short	1	1(?:0[12]|12)|911			101
D	standard	0		-1		
D	carrier	0		-1		
D	sms	0		-1		
R	EE	0							0	0		0
D	general	1	1\d{2,5}	3,4,5,6		
D	toll	1	1(?:1(?:[02]|6\d{3})|2(?:05|28)|3(?:014|3(?:21|5\d?)|660)|492|5(?:1[03]|410|501)|6(?:112|333|644)|7(?:012|127|89)|8(?:10|8[57])|9(?:0[134]|14))			110
D	premium	1	1(?:18(?:00|[12458]\d?)|2(?:0(?:[02-46-8]\d?|1[0-36])|1(?:[0-4]\d?|6[06])|2(?:[0-4]\d?|5[25])|[367]|4(?:0[04]|[12]\d?|4[24]|54)|55[12457])|3(?:0(?:[02]\d?|1[13578]|3[356])|1[1347]|2[02-5]|3(?:[01347]\d?|2[023]|88)|4(?:[35]\d?|4[34])|5(?:3[134]|5[035])|666)|4(?:2(?:00|4\d?)|4(?:0[01358]|1[024]|50|7\d?)|900)|5(?:0[0-35]|1(?:[1267]\d?|5[0-7]|82)|2(?:[014-6]\d?|22)|330|4(?:[35]\d?|44)|5(?:00|[1-69]\d?)|9(?:[159]\d?|[38]0|77))|6(?:1(?:00|1[19]|[35-9]\d?)|2(?:2[26]|[68]\d?)|3(?:22|36|6[36])|5|6(?:[0-359]\d?|6[0-26])|7(?:00|55|7\d?|8[89])|9(?:00|1\d?|69))|7(?:0(?:[023]\d?|1[0578])|1(?:00|2[034]|[4-9]\d?)|2(?:[07]\d?|20|44)|7(?:[0-57]\d?|9[79])|8(?:0[08]|2\d?|8[0178])|9(?:00|97))|8(?:1[127]|8[1268]|9[269])|9(?:0(?:[02]\d?|69|9[0269])|1[1-3689]|21))	3,4,5		123
D	emergency	1	11[02]	3		110
D	short	1	1(?:1(?:[02-579]|6(?:000|111)|8(?:[09]\d|[1-8]))|2[36-9]|3[7-9]|4[05-7]|5[6-8]|6[05]|7[3-6]|8[02-7]|9[3-9])|1(?:2[0-245]|3[0-6]|4[1-489]|5[0-59]|6[1-46-9]|7[0-27-9]|8[189]|9[0-2])\d\d?			110
D	standard	0		-1		
D	carrier	0		-1		
D	sms	1	1(?:18[1258]|2(?:0(?:1[036]|[46]\d?)|166|21|4(?:0[04]|1\d?|5[47])|[67])|3(?:0(?:1[13-578]|2\d?|3[56])|1[15]|2[045]|3(?:[13]\d?|2[13])|43|5(?:00|3[34]|53))|44(?:0[0135]|14|50|7\d?)|5(?:05|1(?:[12]\d?|5[1246]|8[12])|2(?:[01]\d?|22)|3(?:00|3[03])|4(?:15|5\d?)|500|9(?:5\d?|77|80))|6(?:1[35-8]|226|3(?:22|3[36]|66)|644|7(?:00|7\d?|89)|9(?:00|69))|7(?:01[258]|1(?:00|[15]\d?)|2(?:44|7\d?)|8(?:00|87|9\d?))|8(?:1[128]|8[56]|9(?:[26]\d?|77))|90(?:2\d?|69|92))	3,4,5		126
R	EG	0							0	0		0
D	general	1	[13]\d\d(?:\d{2})?	3,5		
D	toll	1	1(?:2[23]|80)	3		122
D	premium	0		-1		
D	emergency	1	1(?:2[23]|80)	3		122
D	short	1	1(?:2[23]|[679]\d{3}|80)|34400			122
D	standard	0		-1		
D	carrier	1	344\d\d	5		34400
D	sms	1	344\d\d	5		34400
R	EH	0							0	0		0
D	general	1	1\d\d?	2,3		
D	toll	1	1(?:[59]|77)			15
D	premium	0		-1		
D	emergency	1	1(?:[59]|77)			15
D	short	1	1(?:[59]|77)			15
D	standard	0		-1		
D	carrier	0		-1		
D	sms	0		-1		
R	ER	0							0	0		0
D	general	1	[12]\d\d(?:\d{3})?	3,6		
D	toll	1	11[2-46]|(?:12[47]|20[12])\d{3}			112
D	premium	0		-1		
D	emergency	1	1(?:1[2-46]|24422)|20(?:1(?:606|917)|2914)|(?:1277|2020)99			112
D	short	1	1(?:1[2-6]|24422)|20(?:1(?:606|917)|2914)|(?:1277|2020)99			112
D	standard	0		-1		
D	carrier	0		-1		
D	sms	0		-1		
R	ES	0							0	0		0
D	general	1	[0-379]\d{2,5}	3,4,5,6		
D	toll	1	0(?:16|20|6[57]|8[58])|1(?:006|12|[3-7]\d\d)|2373|(?:116|20\d)\d{3}	3,4,6		016
D	premium	1	[12]2\d{1,4}|90(?:5\d|7)|(?:118|2(?:[357]\d|80)|3[357]\d)\d\d|[79]9[57]\d{3}			120
D	emergency	1	08[58]|112	3		085
D	short	1	0(?:1[0-267]|2[0148]|6[0-257]|8[058]|9[12])|1(?:0[03-57]\d{1,3}|1(?:2|6(?:000|111)|8\d\d)|2\d{1,4}|[3-9]\d\d)|(?:2[0-2]\d|3[357]|[79]9[57])\d{3}|1(?:3[34]|77)|2(?:[2357]\d|80)\d\d|90(?:5[124578]|7)|2(?:2\d\d?|373)			010
D	standard	1	0(?:1[0-27]|2[148]|6[0-2]|80|9[12])|21\d{4}	3,6		010
D	carrier	1	1(?:3[34]|77)|[12]2\d{1,4}			120
D	sms	1	(?:2[0-2]\d|3[357]|[79]9[57])\d{3}|2(?:[2357]\d|80)\d\d	5,6		22000
R	ET	0							0	0		0
D	general	1	9\d\d?	2,3		
D	toll	1	9(?:07|11?|2|39?|9[17])			91
D	premium	0		-1		
D	emergency	1	9(?:11?|2|39?|9[17])			91
D	short	1	9(?:07|11?|2|39?|45|9[17])			91
D	standard	0		-1		
D	carrier	0		-1		
D	sms	0		-1		
R	FI	0							0	0		0
D	general	1	[17]\d\d(?:\d{2,3})?	3,5,6		
D	toll	1	11(?:2|6\d{3})	3,6		112
D	premium	0		-1		
D	emergency	1	112	3		112
D	short	1	11(?:2|6(?:00[06]|1(?:1[17]|23)))|(?:1[2-8]\d|75[12])\d\d			112
D	standard	1	1[2-8]\d{3}	5		12000
D	carrier	0		-1		
D	sms	0		-1		
R	FJ	0							0	0		0
D	general	1	[0-579]\d(?:\d(?:\d{2})?)?	2,3,5		
D	toll	1	91[17]	3		911
D	premium	0		-1		
D	emergency	1	91[17]	3		911
D	short	1	0(?:1[34]|8[1-4])|1(?:0[1-3]|[25]9)|2[289]|30|40404|91[137]|[45]4|75			22
D	standard	0		-1		
D	carrier	0		-1		
D	sms	1	404\d\d	5		40400
R	FK	0							0	0		0
D	general	1	[19]\d\d	3		
D	toll	1	999			999
D	premium	0		-1		
D	emergency	1	999			999
D	short	1	1\d\d|999			100
D	standard	0		-1		
D	carrier	0		-1		
D	sms	0		-1		
R	FM	0							0	0		0
D	general	1	[39]\d\d(?:\d{3})?	3,6		
D	toll	1	320\d{3}|911			911
D	premium	0		-1		
D	emergency	1	(?:32022|91)1			911
D	short	1	(?:32022|91)1			911
D	standard	0		-1		
D	carrier	0		-1		
D	sms	0		-1		
R	FO	0							0	0		0
D	general	1	1\d{2,3}	3,4		
D	toll	1	1(?:1[24]|81\d)			112
D	premium	0		-1		
D	emergency	1	11[24]	3		112
D	short	1	11[248]|1(?:4[124]|71|8[17-9]|9\d)\d			112
D	standard	0		-1		
D	carrier	0		-1		
D	sms	1	19\d\d	4		1900
R	FR	0							0	0		0
D	general	1	[1-8]\d{1,5}	2,3,4,5,6		
D	toll	1	1(?:1[02459]|[578]|9[167])|224|(?:3370|74)0|(?:116\d|3[01])\d\d			15
D	premium	1	(?:1(?:0|18\d)|366|[4-8]\d\d)\d\d|3[2-9]\d\d	4,5,6		1000
D	emergency	1	1(?:12|[578])	2,3		15
D	short	1	1(?:0\d\d|1(?:[02459]|6(?:00[06]|11[17])|8\d{3})|[578]|9[167])|2(?:0(?:00|2)0|24)|[3-8]\d{4}|3\d{3}|6(?:1[14]|34)|7(?:0[06]|22|40)			15
D	standard	1	202\d|6(?:1[14]|34)|70[06]	3,4		611
D	carrier	1	118777|224|6(?:1[14]|34)|7(?:0[06]|22|40)|20(?:0\d|2)\d	3,4,5,6		224
D	sms	1	114|[3-8]\d{4}	3,5		114
R	GA	0							0	0		0
D	general	1	1\d(?:\d{2})?	2,4		
D	toll	1	18|1(?:3\d|73)\d			18
D	premium	0		-1		
D	emergency	1	1(?:3\d\d|730|8)			18
D	short	1	1(?:3\d\d|730|8)			18
D	standard	0		-1		
D	carrier	0		-1		
D	sms	0		-1		
R	GB	0							0	0		0
D	general	1	[1-46-9]\d{2,5}	3,4,5,6		
D	toll	1	1(?:05|1(?:[29]|6\d{3})|7[56]\d|8000)|2(?:20\d|48)|4444|999			105
D	premium	0		-1		
D	emergency	1	112|999	3		112
D	short	1	1(?:0[015]|1(?:[129]|6(?:000|1(?:11|23))|8\d{3})|2(?:[1-3]|50)|33|4(?:1|7\d)|571|7(?:0\d|[56]0)|800\d|9[15])|2(?:0202|1300|2(?:02|11)|3(?:02|336|45)|4(?:25|8))|3[13]3|4(?:0[02]|35[01]|44[45]|5\d)|(?:[68]\d|7[089])\d{3}|15\d|2[02]2|650|789|9(?:01|99)			100
D	standard	0		-1		
D	carrier	1	1(?:(?:25|7[56])\d|571)|2(?:02(?:\d{2})?|[13]3\d\d|48)|4444|901	3,4,5		202
D	sms	1	(?:125|2(?:020|13\d)|(?:7[089]|8[01])\d\d)\d	4,5		1250
R	GD	0							0	0		0
D	general	1	[19]\d\d	3		
D	toll	1	9(?:11|88)			911
D	premium	0		-1		
D	emergency	1	911			911
D	short	1	176|9(?:11|88)			176
D	standard	0		-1		
D	carrier	1	176			176
D	sms	1	176			176
R	GE	0							0	0		0
D	general	1	[014]\d\d(?:\d{2})?	3,5		
D	toll	1	0(?:11|33)|11[1-3]|[01]22	3		011
D	premium	0		-1		
D	emergency	1	0(?:11|33)|11[1-3]|[01]22	3		011
D	short	1	0(?:11|33)|11[1-3]|40404|[01]22			011
D	standard	0		-1		
D	carrier	1	404\d\d	5		40400
D	sms	1	404\d\d	5		40400
R	GF	0							0	0		0
D	general	1	[13]\d(?:\d\d(?:\d{2})?)?	2,4,6		
D	toll	1	1[578]|3(?:0\d|1[0-689])\d	2,4		15
D	premium	1	3[2469]\d\d	4		3200
D	emergency	1	1[578]	2		15
D	short	1	1[578]|300[0-79]|(?:118[02-9]\d|3(?:0[1-9]|1[0-689]|[2469]\d))\d			15
D	standard	0		-1		
D	carrier	0		-1		
D	sms	0		-1		
R	GG	0							0	0		0
D	general	1	[19]\d{2,5}	3,4,5,6		
D	toll	1	112|999	3		112
D	premium	0		-1		
D	emergency	1	112|999	3		112
D	short	1	1(?:0[01]|1[12]|23|41|55|9[05])|999|1(?:1[68]\d\d|47|800)\d			100
D	standard	0		-1		
D	carrier	0		-1		
D	sms	0		-1		
R	GH	0							0	0		0
D	general	1	[14589]\d{2,4}	3,4,5		
D	toll	1	19[1-3]|999	3		191
D	premium	0		-1		
D	emergency	1	19[1-3]|999	3		191
D	short	1	19[1-3]|40404|(?:54|83)00|999			191
D	standard	0		-1		
D	carrier	1	404\d\d|(?:54|83)0\d	4,5		5400
D	sms	1	404\d\d|(?:54|83)0\d	4,5		5400
R	GI	0							0	0		0
D	general	1	[158]\d{2,5}	3,4,5,6		
D	toll	1	1(?:00|1[25]|23|4(?:1|7\d)|5[15]|9[02-49])|555|(?:116\d|80)\d\d	3,4,6		100
D	premium	1	8[1-69]\d\d	4		8100
D	emergency	1	1(?:12|9[09])	3		112
D	short	1	1(?:00|1(?:[25]|6(?:00[06]|1(?:1[17]|23))|8\d\d)|23|4(?:1|7[014])|5[015]|9[02-49])|555|8[0-79]\d\d|8(?:00|4[0-2]|8[0-589])			100
D	standard	1	150|87\d\d	3,4		150
D	carrier	1	1(?:00|1(?:5|8\d\d)|23|51|9[2-4])|555|8(?:00|4[0-2]|8[0-589])	3,5		100
D	sms	0		-1		
R	GL	0							0	0		0
D	general	1	1\d\d	3		
D	toll	1	112			112
D	premium	0		-1		
D	emergency	1	112			112
D	short	1	1[1-8]\d			110
D	standard	0		-1		
D	carrier	0		-1		
D	sms	0		-1		
R	GM	0							0	0		0
D	general	1	1\d\d?	2,3		
D	toll	1	1(?:1[6-8]|[6-8])			16
D	premium	0		-1		
D	emergency	1	1(?:1[6-8]|[6-8])			16
D	short	1	1(?:1[6-8]|[6-8])			16
D	standard	0		-1		
D	carrier	0		-1		
D	sms	0		-1		
R	GN	0							0	0		0
D	general	1	[14]\d\d(?:\d{2})?	3,5		
D	toll	0		-1		
D	premium	0		-1		
D	emergency	0		-1		
D	short	1	12\d|40404			120
D	standard	0		-1		
D	carrier	1	404\d\d	5		40400
D	sms	1	404\d\d	5		40400
R	GP	0							0	0		0
D	general	1	[13]\d(?:\d\d(?:\d{2})?)?	2,4,6		
D	toll	1	1[578]|3(?:00|1[0-689])\d	2,4		15
D	premium	1	3[2469]\d\d	4		3200
D	emergency	1	1[578]	2		15
D	short	1	1[578]|3(?:00[0-79]|1[0-689]\d)|(?:118[02-9]|3[2469])\d\d			15
D	standard	0		-1		
D	carrier	0		-1		
D	sms	0		-1		
R	GR	0							0	0		0
D	general	1	1\d\d(?:\d{2,3})?	3,5,6		
D	toll	1	1(?:0[089]|1(?:2|6\d{3})|66|99)	3,6		100
D	premium	0		-1		
D	emergency	1	1(?:00|12|66|99)	3		100
D	short	1	1(?:0[089]|1(?:2|320|6(?:000|1(?:1[17]|23)))|(?:389|9)9|66)			100
D	standard	1	113\d\d	5		11300
D	carrier	0		-1		
D	sms	0		-1		
R	GT	0							0	0		0
D	general	1	[14]\d{2,4}	3,4,5		
D	toll	1	1(?:10|2[03])	3		110
D	premium	0		-1		
D	emergency	1	1(?:10|2[03])	3		110
D	short	1	110|40404|1(?:2|[57]\d)\d			110
D	standard	0		-1		
D	carrier	1	404\d\d	5		40400
D	sms	1	404\d\d	5		40400
R	GU	0							0	0		0
D	general	1	9\d\d	3		
D	toll	1	9(?:11|88)			911
D	premium	0		-1		
D	emergency	1	911			911
D	short	1	9(?:11|88)			911
D	standard	0		-1		
D	carrier	0		-1		
D	sms	0		-1		
R	GW	0							0	0		0
D	general	1	1\d\d	3		
D	toll	1	11[378]			113
D	premium	0		-1		
D	emergency	1	11[378]			113
D	short	1	11[378]			113
D	standard	0		-1		
D	carrier	0		-1		
D	sms	0		-1		
R	GY	0							0	0		0
D	general	1	[019]\d{2,3}	3,4		
D	toll	1	91[1-4]	3		911
D	premium	0		-1		
D	emergency	1	91[1-3]	3		911
D	short	1	0(?:02|(?:17|80)1|444|7(?:[67]7|9)|9(?:0[78]|[2-47]))|1(?:443|5[568])|91[1-4]			002
D	standard	0		-1		
D	carrier	1	144\d	4		1440
D	sms	1	144\d	4		1440
R	HK	0							0	0		0
D	general	1	[19]\d{2,6}	3,4,5,6,7		
D	toll	1	112|99[29]	3		112
D	premium	0		-1		
D	emergency	1	112|99[29]	3		112
D	short	1	1(?:0(?:(?:[0136]\d|2[14])\d{0,3}|8[138])|12|2(?:[0-3]\d{0,4}|(?:58|8[13])\d{0,3})|7(?:[135-9]\d{0,4}|219\d{0,2})|8(?:0(?:(?:[13]|60\d)\d|8)|1(?:0\d|[2-8])|2(?:0[5-9]|(?:18|2)2|3|8[128])|(?:(?:3[0-689]\d|7(?:2[1-389]|8[0235-9]|93))\d|8)\d|50[138]|6(?:1(?:11|86)|8)))|99[29]|10[0139]			100
D	standard	0		-1		
D	carrier	1	109|1(?:08|85\d)\d	3,4,5		109
D	sms	1	992	3		992
R	HN	0							0	0		0
D	general	1	[14]\d\d(?:\d{2})?	3,5		
D	toll	1	199	3		199
D	premium	0		-1		
D	emergency	1	199	3		199
D	short	1	199|40404			199
D	standard	0		-1		
D	carrier	1	404\d\d	5		40400
D	sms	1	404\d\d	5		40400
R	HR	0							0	0		0
D	general	1	[016-9]\d{1,5}	2,3,4,5,6		
D	toll	1	1(?:12|9[2-4])|9[34]|1(?:16\d|39)\d\d	2,3,5,6		93
D	premium	1	06\d|(?:118|[6-8]\d{3})\d\d	3,5,6		060
D	emergency	1	1(?:12|9[2-4])|9[34]	2,3		93
D	short	1	(?:06|[6-8]\d{4})\d|1(?:1(?:2|6(?:00[06]|1(?:1[17]|23))|8\d\d)|3977|9(?:[2-5]|87))|9[34]			93
D	standard	0		-1		
D	carrier	1	139\d\d	5		13900
D	sms	1	139\d\d	5		13900
R	HT	0							0	0		0
D	general	1	[14]\d\d(?:\d{2})?	3,5		
D	toll	1	11[48]	3		114
D	premium	0		-1		
D	emergency	1	11[48]	3		114
D	short	1	11[48]|40404			114
D	standard	0		-1		
D	carrier	1	404\d\d	5		40400
D	sms	1	404\d\d	5		40400
R	HU	0							0	0		0
D	general	1	1\d{2,5}	3,4,5,6		
D	toll	1	1(?:0[457]|12|4[0-4]\d)|1(?:16\d|37|45)\d\d			104
D	premium	0		-1		
D	emergency	1	1(?:0[457]|12)	3		104
D	short	1	1(?:0[457]|1(?:2|6(?:000|1(?:11|23))|800)|2(?:0[0-4]|1[013489]|2[0-5]|3[0-46]|4[0-24-68]|5[0-2568]|6[06]|7[0-25-7]|8[028]|9[08])|37(?:00|37|7[07])|4(?:0[0-5]|1[013-8]|2[034]|3[23]|4[02-9]|5(?:00|41|67))|777|8(?:1[27-9]|2[04]|40|[589]))			104
D	standard	0		-1		
D	carrier	1	1(?:4[0-4]|77)\d|1(?:18|2|45)\d\d	4,5		1200
D	sms	1	184\d	4		1840
R	ID	0							0	0		0
D	general	1	[178]\d\d(?:\d{2,3})?	3,5,6		
D	toll	1	11[02389]	3		110
D	premium	0		-1		
D	emergency	1	11[02389]	3		110
D	short	1	1(?:1[02389]|40\d\d|50264)|71400|89887			110
D	standard	0		-1		
D	carrier	1	(?:714|898)\d\d	5		71400
D	sms	1	714\d\d	5		71400
R	IE	0							0	0		0
D	general	1	[159]\d{2,5}	3,4,5,6		
D	toll	1	11(?:2|6\d{3})|999	3,6		112
D	premium	1	5[37]\d{3}	5		53000
D	emergency	1	112|999	3		112
D	short	1	11(?:2|6(?:00[06]|1(?:1[17]|23)))|999|(?:1(?:18|9)|5[0137]\d)\d\d			112
D	standard	1	51\d{3}	5		51000
D	carrier	1	51210	5		51210
D	sms	1	51210|(?:118|5[037]\d)\d\d	5		11800
R	IL	0							0	0		0
D	general	1	[12]\d{2,4}	3,4,5		
D	toll	1	1(?:0[0-2]|12)	3		100
D	premium	0		-1		
D	emergency	1	1(?:0[0-2]|12)	3		100
D	short	1	1(?:0[0-2]|1(?:[013-9]\d|2)|[2-9]\d\d)|2407|(?:104|27)00			100
D	standard	0		-1		
D	carrier	1	104\d\d	5		10400
D	sms	1	104\d\d	5		10400
R	IM	0							0	0		0
D	general	1	[189]\d\d(?:\d{2,3})?	3,5,6		
D	toll	1	999	3		999
D	premium	0		-1		
D	emergency	1	999	3		999
D	short	1	1\d\d(?:\d{3})?|8(?:6444|9887)|999			100
D	standard	0		-1		
D	carrier	0		-1		
D	sms	1	8(?:64|98)\d\d	5		86400
R	IN	0							0	0		0
D	general	1	[12578]\d{2,8}	3,4,5,6,7,8,9		
D	toll	1	1(?:0[0-248]|1[289]|21|[39][89]|4[01]|6(?:1|6\d?)|8[12])|777|800|1[05]5\d|1(?:07|51|94)\d\d?|(?:1(?:[05]5\d|70)\d|261)\d|1(?:0[369]|10|29|3[126]|9[0-256])\d	3,4,5,6		100
D	premium	1	11[67]\d{4}|56161561	7,8		1160000
D	emergency	1	1(?:0[0-28]|12|298)|2611	3,4		100
D	short	1	1(?:0(?:[0-248]|3[39]|5(?:010|6)|6[3468]|7(?:[01357]|[28]0?|4[01])|9[0135-9])|1(?:00|[289])|2(?:1|98)|3(?:11|2[0-2]|63|[89])|4[01]|5(?:1(?:0[0-36]|[127])|54)|6(?:1|6[01]?)|7000|8[12]|9(?:0[013-59]|12|25|4[4-9]\d?|50|6[1347]|[89]))|2611|5(?:0(?:0(?:0\d|1|20?)|325|5[2-79]\d{3,5})|1(?:234|555|717|818|96[49])|2(?:0(?:0[01]|[14]0)|151|555|666|888|9(?:06|99\d?))|3(?:0[01]0|131|553|(?:66|77)6)|(?:464|55[05])\d{1,3}|6(?:070|3[68]|43)|717\d)|777|800|5(?:05(?:0|1\d)|221|3(?:03|3[23]))\d{1,4}|5(?:(?:04|88)0|2(?:2[0267]|3[16])|4(?:1[04]|20|3[02])|5(?:3[16]|67)|6(?:06|[67]\d)|787|9(?:64|90))\d\d?|(?:1(?:05[79]|(?:1[67][0-2]|802)\d|55[23])\d|5(?:(?:00(?:0\d|1)|(?:304|616)\d\d)\d|1(?:0[12]|4[2-4])|2(?:2[3589]|3(?:1\d{3}|2)|4[04]|7[78])|4(?:[02]4|32\d{4}|4[04]|99)|5(?:1[25]|[36]5|4[45]|93)|7(?:(?:17\d|57)\d\d|[27]7|88)|8(?:3[4-69]|4[01]|5[58]|88(?:8\d\d|9)|99)|9(?:0(?:0|2\d{3})|55|6[67]|77|88)))\d			100
D	standard	1	5(?:14(?:2[5-9]|[34]\d)|757555)	5,7		51425
D	carrier	1	1(?:(?:1[67]\d\d|70)\d\d|55330|909)|5(?:300\d|6161(?:17[89]|561))|1(?:[19][89]|21|4[01])	3,4,5,6,7,8		118
D	sms	1	1(?:39|90[019])|5(?:14(?:2[5-9]|[34]\d)|6161(?:17[89]|561)|757555)	3,4,5,7,8		139
R	IQ	0							0	0		0
D	general	1	[1479]\d{2,4}	3,4,5		
D	toll	1	1(?:0[04]|15|22)	3		100
D	premium	0		-1		
D	emergency	1	1(?:0[04]|15|22)	3		100
D	short	1	1(?:0[04]|15|22)|4432|71117|9988			100
D	standard	0		-1		
D	carrier	1	(?:443|711\d|998)\d	4,5		4430
D	sms	1	(?:443|711\d|998)\d	4,5		4430
R	IR	0							0	0		0
D	general	1	[129]\d{2,5}	3,4,5,6		
D	toll	1	1(?:1[0-68]|2[0-59]|9[0-579])|911	3		110
D	premium	0		-1		
D	emergency	1	1(?:1[025]|25)|911	3		110
D	short	1	1(?:1[0-68]|2[0-59]|3[346-8]|4(?:[0147]|[289]0)|5(?:0[14]|1[02479]|2[0-3]|39|[49]0|65)|6(?:[16]6|[27]|90)|8(?:03|1[18]|22|3[37]|4[28]|88|99)|9[0-579])|20(?:[09]0|1(?:[038]|1[079]|26|9[69])|2[01])|9(?:11|9(?:0009|90))			110
D	standard	1	1(?:5[0-469]|8[0-489])\d	4		1500
D	carrier	1	(?:1(?:5[0-469]|8[0-489])|99(?:0\d\d|9))\d	4,6		1500
D	sms	1	990\d{3}	6		990000
R	IS	0							0	0		0
D	general	1	1\d\d(?:\d(?:\d{2})?)?	3,4,6		
D	toll	1	1(?:12|71\d)	3,4		112
D	premium	0		-1		
D	emergency	1	112	3		112
D	short	1	1(?:1(?:[28]|61(?:16|23))|4(?:00|1[145]|4[0146])|55|7(?:00|17|7[07-9])|8(?:[02]0|1[16-9]|88)|900)			112
D	standard	0		-1		
D	carrier	1	14(?:0\d|41)	4		1400
D	sms	1	1(?:415|90\d)	4		1415
R	IT	0							0	0		0
D	general	1	[14]\d{2,6}	3,4,5,6,7		
D	toll	1	1(?:1(?:[2358]|6\d{3})|46|87)	3,6		112
D	premium	1	(?:12|4(?:[478](?:[0-4]|[5-9]\d\d)|55))\d\d	4,5,7		1200
D	emergency	1	11[2358]	3		112
D	short	1	1(?:0\d{2,3}|1(?:[2-57-9]|6(?:000|111))|3[39]|4(?:82|9\d{1,3})|5(?:00|1[58]|2[25]|3[03]|44|[59])|60|8[67]|9(?:[01]|2[2-9]|4\d|696))|4(?:2323|5045)|14\d|(?:1(?:2|92[01])|4(?:3(?:[01]|[45]\d\d)|[478](?:[0-4]|[5-9]\d\d)|55))\d\d			112
D	standard	0		-1		
D	carrier	0		-1		
D	sms	1	4(?:3(?:[01]|[45]\d\d)|[478](?:[0-4]|[5-9]\d\d)|5[05])\d\d	5,7		43000
R	JE	0							0	0		0
D	general	1	[129]\d\d(?:\d(?:\d{2})?)?	3,4,6		
D	toll	1	112|999	3		112
D	premium	0		-1		
D	emergency	1	112|999	3		112
D	short	1	1(?:00|1(?:2|8\d{3})|23|4(?:[14]|28|7\d)|5\d|7(?:0[12]|[128]|35?)|808|9[0135])|23[2-4]|999			100
D	standard	0		-1		
D	carrier	0		-1		
D	sms	0		-1		
R	JM	0							0	0		0
D	general	1	[19]\d\d	3		
D	toll	1	11[029]|9(?:11|88)			110
D	premium	0		-1		
D	emergency	1	11[029]|911			110
D	short	1	1(?:1[029]|76)|9(?:11|88)			110
D	standard	0		-1		
D	carrier	1	176			176
D	sms	1	176			176
R	JO	0							0	0		0
D	general	1	[19]\d\d(?:\d{2})?	3,5		
D	toll	1	1(?:0[235]|1[2-6]|9[127])|911	3		102
D	premium	1	9[0-4689]\d{3}	5		90000
D	emergency	1	1(?:12|9[127])|911	3		112
D	short	1	1(?:0[2359]|1[0-68]|9[0-24-79])|9[0-4689]\d{3}|911			102
D	standard	0		-1		
D	carrier	1	9[0-4689]\d{3}	5		90000
D	sms	1	9[0-4689]\d{3}	5		90000
R	JP	0							0	0		0
D	general	1	[01]\d\d(?:\d{5,7})?	3,8,9,10		
D	toll	1	11[089]	3		110
D	premium	0		-1		
D	emergency	1	11[09]	3		110
D	short	1	000[2569]\d{4,6}|1(?:0[24]|1[089]|44|89)			102
D	standard	0		-1		
D	carrier	0		-1		
D	sms	1	000[2569]\d{4,6}	8,9,10		00020000
R	KE	0							0	0		0
D	general	1	[1-9]\d{2,4}	3,4,5		
D	toll	1	1(?:1(?:[246]|9\d)|5(?:01|2[127]|6[26]\d))|999			112
D	premium	1	909\d\d	5		90900
D	emergency	1	11[24]|999	3		112
D	short	1	1(?:0(?:[07-9]|1[0-25]|400)|1(?:[024-6]|9[0-579])|2[1-3]|3[01]|4[14]|5(?:[01][01]|2[0-24-79]|33|4[05]|5[59]|6(?:00|29|6[67]))|(?:6[035]\d|[78])\d|9(?:[02-9]\d\d|19))|(?:(?:2[0-79]|[37][0-29]|4[0-4]|6[2357]|8\d)\d|5(?:[0-7]\d|99))\d\d|9(?:09\d\d|99)|8988			100
D	standard	0		-1		
D	carrier	1	1(?:(?:04|6[35])\d\d|3[01]|4[14]|5(?:1\d|2[25]))|(?:(?:2[0-79]|[37][0-29]|4[0-4]|6[2357]|8\d)\d|5(?:[0-7]\d|99)|909)\d\d|898\d			130
D	sms	1	1(?:(?:04|6[035])\d\d|4[14]|5(?:01|55|6[26]\d))|40404|8988|909\d\d			141
R	KG	0							0	0		0
D	general	1	[14]\d{2,3}	3,4		
D	toll	1	10[1-3]	3		101
D	premium	0		-1		
D	emergency	1	10[1-3]	3		101
D	short	1	10[1-3]|4040			101
D	standard	0		-1		
D	carrier	1	404\d	4		4040
D	sms	1	404\d	4		4040
R	KH	0							0	0		0
D	general	1	[146]\d\d(?:\d{2})?	3,5		
D	toll	1	11[7-9]|666	3		117
D	premium	0		-1		
D	emergency	1	11[7-9]|666	3		117
D	short	1	11[7-9]|40404|666			117
D	standard	0		-1		
D	carrier	1	404\d\d	5		40400
D	sms	1	404\d\d	5		40400
R	KI	0							0	0		0
D	general	1	[179]\d{2,3}	3,4		
D	toll	1	19[2-5]|99[2-4]	3		192
D	premium	0		-1		
D	emergency	1	19[2-5]|99[2-4]	3		192
D	short	1	1(?:05[0-259]|88|9[2-5])|777|99[2-4]|10[0-8]			100
D	standard	1	103	3		103
D	carrier	0		-1		
D	sms	0		-1		
R	KM	0							0	0		0
D	general	1	1\d	2		
D	toll	1	1[78]			17
D	premium	0		-1		
D	emergency	1	1[78]			17
D	short	1	1[78]			17
D	standard	0		-1		
D	carrier	0		-1		
D	sms	0		-1		
R	KN	0							0	0		0
D	general	1	[39]\d\d	3		
D	toll	1	333|9(?:11|88|99)			333
D	premium	0		-1		
D	emergency	1	333|9(?:11|99)			333
D	short	1	333|9(?:11|88|99)			333
D	standard	0		-1		
D	carrier	0		-1		
D	sms	0		-1		
R	KP	0							0	0		0
D	general	1	[18]\d\d	3		
D	toll	1	11[29]|819			112
D	premium	0		-1		
D	emergency	1	11[29]|819			112
D	short	1	11[29]|819			112
D	standard	0		-1		
D	carrier	0		-1		
D	sms	0		-1		
R	KR	0							0	0		0
D	general	1	1\d\d(?:\d(?:\d(?:\d{3})?)?)?	3,4,5,8		
D	toll	1	1(?:1[27-9]|28|330|82)	3,4		112
D	premium	0		-1		
D	emergency	1	11[29]	3		112
D	short	1	1(?:[01679]114|3(?:0[01]|2|3[0-35-9]|45?|5[057]|6[569]|7[79]|8[2589]|9[0189])|55[15]\d{4}|8(?:(?:11|44|66)\d{4}|[28]))|1(?:0[015]|1\d|2[01357-9]|41|8114)			100
D	standard	0		-1		
D	carrier	1	1(?:0[01]|1[4-6]|41|8114)|1(?:[0679]1\d|111)\d	3,5		100
D	sms	1	1(?:55|8[146])\d{5}	8		15500000
R	KW	0							0	0		0
D	general	1	[18]\d\d(?:\d{2})?	3,5		
D	toll	1	112	3		112
D	premium	0		-1		
D	emergency	1	112	3		112
D	short	1	1[0-7]\d|89887			100
D	standard	0		-1		
D	carrier	1	898\d\d	5		89800
D	sms	0		-1		
R	KY	0							0	0		0
D	general	1	9\d\d	3		
D	toll	1	9(?:11|88)			911
D	premium	0		-1		
D	emergency	1	911			911
D	short	1	9(?:11|88)			911
D	standard	0		-1		
D	carrier	0		-1		
D	sms	0		-1		
R	KZ	0							0	0		0
D	general	1	[1-4]\d{2,4}	3,4,5		
D	toll	1	1(?:0[1-3]|12)|212\d	3,4		101
D	premium	0		-1		
D	emergency	1	1(?:0[1-3]|12)	3		101
D	short	1	1(?:0[1-4]|12)|2121|(?:3040|404)0			101
D	standard	0		-1		
D	carrier	1	(?:304\d|404)\d	4,5		4040
D	sms	1	(?:304\d|404)\d	4,5		4040"
end Verif.Data
