import Verif.Data.Decode
/-! Generated from `/repo/data/shortnumber_metadata.xml.gz` (metadata v9.0.37); part 2 of 2.  See `Verif/Data/Decode.lean` for the line format. -/
namespace Verif.Data
shipped short2 r"R	LA	0							0	0		0
D	general	1	1\d\d	3		
D	toll	1	19[015]			190
D	premium	0		-1		
D	emergency	1	19[015]			190
D	short	1	19[015]			190
D	standard	0		-1		
D	carrier	0		-1		
D	sms	0		-1		
R	LB	0							0	0		0
D	general	1	[19]\d\d	3		
D	toll	1	1(?:12|40|75)|999			112
D	premium	0		-1		
D	emergency	1	1(?:12|40|75)|999			112
D	short	1	1(?:12|40|75)|999			112
D	standard	0		-1		
D	carrier	0		-1		
D	sms	0		-1		
R	LC	0							0	0		0
D	general	1	9\d\d	3		
D	toll	1	9(?:11|88|99)			911
D	premium	0		-1		
D	emergency	1	9(?:11|99)			911
D	short	1	9(?:11|88|99)			911
D	standard	0		-1		
D	carrier	0		-1		
D	sms	0		-1		
R	LI	0							0	0		0
D	general	1	1\d{2,3}	3,4		
D	toll	1	1(?:1[278]|44)	3		112
D	premium	0		-1		
D	emergency	1	1(?:1[278]|44)	3		112
D	short	1	1(?:1(?:[278]|45)|4[3-57]|50|75|81[18])			112
D	standard	0		-1		
D	carrier	0		-1		
D	sms	0		-1		
R	LK	0							0	0		0
D	general	1	1\d{2,3}	3,4		
D	toll	1	11[02689]	3		110
D	premium	0		-1		
D	emergency	1	11[02689]	3		110
D	short	1	1(?:1[024-9]|3(?:00|1[2-49]|2[23]|3[1-3]|44|5[07]|[67]9|88|9[039])|9(?:0[0-2589]|1[0-357-9]|2[0-25689]|3[0389]|4[0489]|5[014-69]|6[0-2689]|7[03579]|8[02457-9]|9[0-2569]))			110
D	standard	0		-1		
D	carrier	0		-1		
D	sms	0		-1		
R	LR	0							0	0		0
D	general	1	[3489]\d{2,3}	3,4		
D	toll	1	355|911	3		355
D	premium	0		-1		
D	emergency	1	355|911	3		355
D	short	1	355|4040|8(?:400|933)|911			355
D	standard	0		-1		
D	carrier	1	(?:404|8(?:40|93))\d	4		4040
D	sms	1	(?:404|8(?:40|93))\d	4		4040
R	LS	0							0	0		0
D	general	1	1\d\d	3		
D	toll	1	11[257]			112
D	premium	0		-1		
D	emergency	1	11[257]			112
D	short	1	11[257]			112
D	standard	0		-1		
D	carrier	0		-1		
D	sms	0		-1		
R	LT	0							0	0		0
D	general	1	[01]\d(?:\d(?:\d{3})?)?	2,3,6		
D	toll	1	0(?:11?|22?|33?)|1(?:0[1-3]|1(?:2|6111))|116(?:0\d|12)\d			01
D	premium	0		-1		
D	emergency	1	0(?:11?|22?|33?)|1(?:0[1-3]|12)	2,3		01
D	short	1	0(?:11?|22?|33?)|1(?:0[1-3]|1(?:[27-9]|6(?:000|1(?:1[17]|23))))			01
D	standard	0		-1		
D	carrier	0		-1		
D	sms	0		-1		
R	LU	0							0	0		0
D	general	1	1\d{2,5}	3,4,5,6		
D	toll	1	11(?:[23]|6\d{3})	3,6		112
D	premium	0		-1		
D	emergency	1	11[23]	3		112
D	short	1	11(?:[23]|6(?:000|111))|1(?:18|[25]\d|3)\d\d			112
D	standard	0		-1		
D	carrier	0		-1		
D	sms	0		-1		
R	LV	0							0	0		0
D	general	1	[018]\d{1,5}	2,3,4,5,6		
D	toll	1	0[1-3]|11(?:[023]|6\d{3})	2,3,6		01
D	premium	1	1180|821\d\d	4,5		1180
D	emergency	1	0[1-3]|11[023]	2,3		01
D	short	1	0[1-4]|1(?:1(?:[02-4]|6(?:000|111)|8[0189])|(?:5|65)5|77)|821[57]4			01
D	standard	1	1181	4		1181
D	carrier	1	165\d	4		1650
D	sms	0		-1		
R	LY	0							0	0		0
D	general	1	1\d\d	3		
D	toll	1	19[013]			190
D	premium	0		-1		
D	emergency	1	19[013]			190
D	short	1	19[013]			190
D	standard	0		-1		
D	carrier	0		-1		
D	sms	0		-1		
R	MA	0							0	0		0
D	general	1	1\d\d?	2,3		
D	toll	1	1(?:[59]|77)			15
D	premium	0		-1		
D	emergency	1	1(?:[59]|77)			15
D	short	1	1(?:[59]|77)			15
D	standard	0		-1		
D	carrier	0		-1		
D	sms	0		-1		
R	MC	0							0	0		0
D	general	1	1\d\d?	2,3		
D	toll	1	1(?:12|[578])			15
D	premium	0		-1		
D	emergency	1	1(?:12|[578])			15
D	short	1	1(?:12|41|[578])			15
D	standard	0		-1		
D	carrier	0		-1		
D	sms	0		-1		
R	MD	0							0	0		0
D	general	1	[19]\d{2,5}	3,4,5,6		
D	toll	1	11(?:2|6(?:000|1(?:11|2\d)))|90[1-3]	3,6		112
D	premium	0		-1		
D	emergency	1	112|90[1-3]	3		112
D	short	1	1(?:1(?:2|6(?:00[06]|1(?:1[17]|23))|8\d\d?|99)|90[04-9])|90[1-3]|1(?:4\d\d|6[0-389]|9[1-4])\d			112
D	standard	0		-1		
D	carrier	0		-1		
D	sms	0		-1		
R	ME	0							0	0		0
D	general	1	1\d{2,5}	3,4,5,6		
D	toll	1	1(?:12|2[2-4])	3		112
D	premium	0		-1		
D	emergency	1	1(?:12|2[2-4])	3		112
D	short	1	1(?:1(?:(?:[013-57-9]|6\d\d)\d|2)|[249]\d{3}|5999|8(?:0[089]|1[0-8]|888))|1(?:[02-5]\d\d|60[06]|700)|12\d			112
D	standard	0		-1		
D	carrier	0		-1		
D	sms	0		-1		
R	MF	0							0	0		0
D	general	1	[13]\d(?:\d\d(?:\d{2})?)?	2,4,6		
D	toll	1	1[578]|3(?:00|1[0-689])\d	2,4		15
D	premium	1	3[2469]\d\d	4		3200
D	emergency	1	1[578]	2		15
D	short	1	1[578]|3(?:00[0-79]|1[0-689]\d)|(?:118[02-9]|3[2469])\d\d			15
D	standard	0		-1		
D	carrier	0		-1		
D	sms	0		-1		
R	MG	0							0	0		0
D	general	1	1\d\d?	2,3		
D	toll	1	1(?:1[78]|[78])			17
D	premium	0		-1		
D	emergency	1	1(?:1[78]|[78])			17
D	short	1	1(?:1[78]|[78])			17
D	standard	0		-1		
D	carrier	0		-1		
D	sms	0		-1		
R	MH	0							0	0		0
D	general	1	9\d\d	3		
D	toll	1	911			911
D	premium	0		-1		
D	emergency	1	911			911
D	short	1	911			911
D	standard	0		-1		
D	carrier	0		-1		
D	sms	0		-1		
R	MK	0							0	0		0
D	general	1	1\d\d(?:\d(?:\d{2})?)?	3,4,6		
D	toll	1	1(?:1(?:2|6\d{3})|9[2-4])	3,6		112
D	premium	0		-1		
D	emergency	1	1(?:12|9[2-4])	3		112
D	short	1	1(?:1(?:2|8\d)|3\d|9[2-4])|1(?:16|2\d)\d{3}			112
D	standard	0		-1		
D	carrier	0		-1		
D	sms	0		-1		
R	ML	0							0	0		0
D	general	1	[136-8]\d{1,4}	2,3,4,5		
D	toll	1	1[578]|(?:352|67)00|7402|(?:677|744|8000)\d	2,4,5		15
D	premium	1	(?:12|800)2\d|3(?:52(?:11|2[02]|3[04-6]|99)|7574)	4,5		1220
D	emergency	1	1[578]	2		15
D	short	1	1(?:1(?:[013-9]\d|2)|2(?:1[02-469]|2[13])|[578])|350(?:35|57)|67(?:0[09]|[59]9|77|8[89])|74(?:0[02]|44|55)|800[0-2][12]|3(?:52|[67]\d)\d\d			15
D	standard	1	37(?:433|575)|7400|8001\d	4,5		7400
D	carrier	1	3503\d|(?:3[67]\d|800)\d\d	5		35030
D	sms	1	374(?:0[24-9]|[1-9]\d)|7400|3(?:6\d|75)\d\d	4,5		7400
R	MM	0							0	0		0
D	general	1	1\d\d	3		
D	toll	1	199			199
D	premium	0		-1		
D	emergency	1	199			199
D	short	1	199			199
D	standard	0		-1		
D	carrier	0		-1		
D	sms	0		-1		
R	MN	0							0	0		0
D	general	1	1\d\d	3		
D	toll	1	10[0-35]			100
D	premium	0		-1		
D	emergency	1	10[0-35]			100
D	short	1	10[0-35]			100
D	standard	0		-1		
D	carrier	0		-1		
D	sms	0		-1		
R	MO	0							0	0		0
D	general	1	9\d\d	3		
D	toll	1	999			999
D	premium	0		-1		
D	emergency	1	999			999
D	short	1	999			999
D	standard	0		-1		
D	carrier	0		-1		
D	sms	0		-1		
R	MP	0							0	0		0
D	general	1	9\d\d	3		
D	toll	1	9(?:11|88)			911
D	premium	0		-1		
D	emergency	1	911			911
D	short	1	9(?:11|88)			911
D	standard	0		-1		
D	carrier	0		-1		
D	sms	0		-1		
R	MQ	0							0	0		0
D	general	1	[13]\d(?:\d(?:\d(?:\d{2})?)?)?	2,3,4,6		
D	toll	1	1(?:12|[578])|3[01]\d\d	2,3,4		15
D	premium	1	3[2469]\d\d	4		3200
D	emergency	1	1(?:12|[578])	2,3		15
D	short	1	1(?:12|[578])|(?:118[02-9]|3[0-2469])\d\d			15
D	standard	1	118\d{3}	6		118000
D	carrier	0		-1		
D	sms	0		-1		
R	MR	0							0	0		0
D	general	1	1\d	2		
D	toll	1	1[78]			17
D	premium	0		-1		
D	emergency	1	1[78]			17
D	short	1	1[78]			17
D	standard	0		-1		
D	carrier	0		-1		
D	sms	0		-1		
R	MS	0							0	0		0
D	general	1	[29]\d\d	3		
D	toll	1	9(?:11|88|99)			911
D	premium	0		-1		
D	emergency	1	9(?:11|99)			911
D	short	1	211|9(?:11|88|99)			211
D	standard	0		-1		
D	carrier	0		-1		
D	sms	0		-1		
R	MT	0							0	0		0
D	general	1	1\d\d(?:\d{3})?	3,6		
D	toll	1	11(?:2|6\d{3})			112
D	premium	0		-1		
D	emergency	1	112	3		112
D	short	1	11(?:2|6(?:000|1(?:11|23)))			112
D	standard	0		-1		
D	carrier	0		-1		
D	sms	0		-1		
R	MU	0							0	0		0
D	general	1	[189]\d{2,4}	3,4,5		
D	toll	1	11[45]|99[59]	3		114
D	premium	0		-1		
D	emergency	1	11[45]|99[59]	3		114
D	short	1	1\d{2,4}|(?:8\d\d|99)\d			100
D	standard	0		-1		
D	carrier	0		-1		
D	sms	0		-1		
R	MV	0							0	0		0
D	general	1	[14]\d{2,3}	3,4		
D	toll	1	1(?:02|1[89])	3		102
D	premium	0		-1		
D	emergency	1	1(?:02|1[89])	3		102
D	short	1	1(?:[0-37-9]|[4-6]\d)\d|4040|1[45]1			100
D	standard	0		-1		
D	carrier	1	1[45]1	3		141
D	sms	0		-1		
R	MW	0							0	0		0
D	general	1	[189]\d\d(?:\d{2})?	3,5		
D	toll	1	199|99[7-9]	3		199
D	premium	0		-1		
D	emergency	1	199|99[7-9]	3		199
D	short	1	199|80400|99[7-9]			199
D	standard	0		-1		
D	carrier	1	804\d\d	5		80400
D	sms	1	804\d\d	5		80400
R	MX	0							0	0		0
D	general	1	[0579]\d{2,4}	3,4,5		
D	toll	1	0(?:6[0568]|80)|911	3		060
D	premium	1	(?:530\d|776)\d	4,5		7760
D	emergency	1	0(?:6[0568]|80)|911	3		060
D	short	1	0[1-9]\d|53053|7766|911			010
D	standard	0		-1		
D	carrier	1	0(?:[249]0|[35][01])	3		020
D	sms	0		-1		
R	MY	0							0	0		0
D	general	1	[1369]\d{2,4}	3,4,5		
D	toll	1	112|999	3		112
D	premium	0		-1		
D	emergency	1	112|999	3		112
D	short	1	1(?:0[01348]|1(?:[02]|1[128]|311)|2(?:0[125]|[13-6]|2\d{0,2})|(?:3[1-35-79]|7[45])\d\d?|5(?:454|5\d\d?|77|888|999?)|8(?:18?|2|8[18])|9(?:[124]\d?|68|71|9[0679]))|66628|99[1-469]|13[5-7]|(?:1(?:0[569]|309|5[12]|7[136-9]|9[03])|3[23679]\d\d)\d			100
D	standard	1	666\d\d	5		66600
D	carrier	0		-1		
D	sms	1	(?:3[23679]\d|666)\d\d	5		32000
R	MZ	0							0	0		0
D	general	1	1\d{2,3}	3,4		
D	toll	1	1(?:1[79]|9[78])	3		117
D	premium	0		-1		
D	emergency	1	1(?:1[79]|9[78])	3		117
D	short	1	1(?:[02-5]\d\d|1[79]|9[78])			117
D	standard	0		-1		
D	carrier	0		-1		
D	sms	0		-1		
R	NA	0							0	0		0
D	general	1	[19]\d{2,4}	3,4,5		
D	toll	1	10111	5		10111
D	premium	0		-1		
D	emergency	1	10111	5		10111
D	short	1	(?:10|93)111|(?:1\d|9)\d\d			900
D	standard	0		-1		
D	carrier	0		-1		
D	sms	0		-1		
R	NC	0							0	0		0
D	general	1	[135]\d{1,3}	2,3,4		
D	toll	1	1(?:0(?:00|1[23]|3[0-2]|8\d)|[5-8])|363\d|577			15
D	premium	0		-1		
D	emergency	1	1[5-8]	2		15
D	short	1	1(?:0(?:0[06]|1[02-46]|20|3[0-25]|42|5[058]|77|88)|[5-8])|3631|5[6-8]\d			15
D	standard	1	5(?:67|88)	3		567
D	carrier	0		-1		
D	sms	0		-1		
R	NE	0							0	0		0
D	general	1	[1-3578]\d(?:\d(?:\d{3})?)?	2,3,6		
D	toll	1	1(?:18|[578])|723\d{3}			15
D	premium	0		-1		
D	emergency	1	1(?:18|[578])|723141			15
D	short	1	1(?:0[01]|1[128]|2[034]|3[013]|[46]0|55?|[78])|222|333|555|723141|888			15
D	standard	0		-1		
D	carrier	1	1(?:0[01]|1[12]|2[034]|3[013]|[46]0|55)|222|333|555|888	3		100
D	sms	0		-1		
R	NF	0							0	0		0
D	general	1	9\d\d	3		
D	toll	1	9(?:11|55|77)			911
D	premium	0		-1		
D	emergency	1	9(?:11|55|77)			911
D	short	1	9(?:11|55|77)			911
D	standard	0		-1		
D	carrier	0		-1		
D	sms	0		-1		
R	NG	0							0	0		0
D	general	1	[14]\d\d(?:\d{2})?	3,5		
D	toll	1	199	3		199
D	premium	0		-1		
D	emergency	1	199	3		199
D	short	1	199|40700			199
D	standard	0		-1		
D	carrier	1	407\d\d	5		40700
D	sms	1	407\d\d	5		40700
R	NI	0							0	0		0
D	general	1	[12467]\d{2,3}	3,4		
D	toll	1	1(?:1[58]|2[08])|737\d			115
D	premium	0		-1		
D	emergency	1	1(?:1[58]|2[08])	3		115
D	short	1	1(?:1[58]|200)|4878|7(?:010|373)|12[0158]|(?:19|[267]1)00			115
D	standard	0		-1		
D	carrier	0		-1		
D	sms	0		-1		
R	NL	0							0	0		0
D	general	1	[1349]\d\d(?:\d(?:\d{2})?)?	3,4,6		
D	toll	1	11(?:2|6\d{3})|911	3,6		112
D	premium	0		-1		
D	emergency	1	112|911	3		112
D	short	1	1(?:1(?:2|6(?:00[06]|1(?:11|23)))|2(?:0[0-4]|3[34]|44)|3[03-9]\d|400|8(?:[02-9]\d|1[0-79]))|[34]000|911			112
D	standard	0		-1		
D	carrier	1	120\d	4		1200
D	sms	1	[34]00\d	4		3000
R	NO	0							0	0		0
D	general	1	[01]\d{2,5}	3,4,5,6		
D	toll	1	11(?:[023]|6\d{3})	3,6		110
D	premium	0		-1		
D	emergency	1	11[023]	3		110
D	short	1	04\d{3}|1(?:1(?:[0239]|61(?:1[17]|23))|2[048]|4(?:12|[59])|7[57]|8\d\d|90)			110
D	standard	0		-1		
D	carrier	0		-1		
D	sms	1	04\d{3}	5		04000
R	NP	0							0	0		0
D	general	1	1\d{2,3}	3,4		
D	toll	1	1(?:0[0-36]|12)|1(?:09|11)\d			100
D	premium	0		-1		
D	emergency	1	1(?:0[0-3]|12)	3		100
D	short	1	1(?:0(?:[0-36]|98)|1(?:1[1-4]|2))			100
D	standard	0		-1		
D	carrier	0		-1		
D	sms	0		-1		
R	NR	0							0	0		0
D	general	1	1\d\d	3		
D	toll	1	11[0-2]			110
D	premium	0		-1		
D	emergency	1	11[0-2]			110
D	short	1	1(?:1[0-2]|23|92)			110
D	standard	0		-1		
D	carrier	0		-1		
D	sms	0		-1		
R	NU	0							0	0		0
D	general	1	[019]\d\d	3		
D	toll	1	999			999
D	premium	0		-1		
D	emergency	1	999			999
D	short	1	01[05]|101|999			010
D	standard	0		-1		
D	carrier	1	010			010
D	sms	0		-1		
R	NZ	0							0	0		0
D	general	1	\d{3,4}	3,4		
D	toll	1	111	3		111
D	premium	1	018	3		018
D	emergency	1	111	3		111
D	short	1	018|1(?:(?:1|37)1|(?:23|94)4|7[03]7)|[2-57-9]\d{2,3}|6(?:161|26[0-3]|742)			018
D	standard	0		-1		
D	carrier	0		-1		
D	sms	1	018|(?:1(?:23|37|7[03]|94)|6(?:[12]6|74))\d|[2-57-9]\d{2,3}			018
R	OM	0							0	0		0
D	general	1	[19]\d{3}	4		
D	toll	1	1444|999\d			1444
D	premium	0		-1		
D	emergency	1	1444|9999			1444
D	short	1	1(?:111|222|4(?:4[0-5]|50|66|7[7-9])|51[0-8])|9999|1(?:2[3-5]|3[0-2]|50)\d			1111
D	standard	0		-1		
D	carrier	0		-1		
D	sms	0		-1		
R	PA	0							0	0		0
D	general	1	[19]\d\d	3		
D	toll	1	911			911
D	premium	0		-1		
D	emergency	1	911			911
D	short	1	10[2-4]|911			102
D	standard	0		-1		
D	carrier	0		-1		
D	sms	0		-1		
R	PE	0							0	0		0
D	general	1	1\d\d	3		
D	toll	1	1(?:05|1[67])			105
D	premium	0		-1		
D	emergency	1	1(?:05|1[67])			105
D	short	1	1(?:05|1[67])			105
D	standard	0		-1		
D	carrier	0		-1		
D	sms	0		-1		
R	PF	0							0	0		0
D	general	1	1\d	2		
D	toll	1	1[578]			15
D	premium	0		-1		
D	emergency	1	1[578]			15
D	short	1	1[578]			15
D	standard	0		-1		
D	carrier	0		-1		
D	sms	0		-1		
R	PG	0							0	0		0
D	general	1	[01]\d{2,6}	3,4,5,6,7		
D	toll	1	000|11[01]	3		000
D	premium	0		-1		
D	emergency	1	000|11[01]	3		000
D	short	1	000|1(?:1[01]|5\d\d|6\d{2,5})			000
D	standard	0		-1		
D	carrier	0		-1		
D	sms	1	16\d{2,5}	4,5,6,7		1600
R	PH	0							0	0		0
D	general	1	[19]\d\d	3		
D	toll	1	11[27]|911			112
D	premium	0		-1		
D	emergency	1	11[27]|911			112
D	short	1	11[27]|911			112
D	standard	0		-1		
D	carrier	0		-1		
D	sms	0		-1		
R	PK	0							0	0		0
D	general	1	1\d{1,3}	2,3,4		
D	toll	1	1(?:1(?:2\d?|5)|[56])			15
D	premium	0		-1		
D	emergency	1	1(?:1(?:22?|5)|[56])			15
D	short	1	1(?:122|3[014]|[56])|11[2457-9]			15
D	standard	0		-1		
D	carrier	0		-1		
D	sms	0		-1		
R	PL	0							0	0		0
D	general	1	[19]\d\d(?:\d{2,3})?	3,5,6		
D	toll	1	11(?:2|6\d{3})|99[7-9]	3,6		112
D	premium	0		-1		
D	emergency	1	112|99[7-9]	3		112
D	short	1	1(?:1(?:2|61(?:11|23)|891[23])|9\d{3})|9(?:8[4-7]|9[1-9])|11[68]000			112
D	standard	0		-1		
D	carrier	0		-1		
D	sms	0		-1		
R	PM	0							0	0		0
D	general	1	[13]\d(?:\d\d(?:\d{2})?)?	2,4,6		
D	toll	1	1[578]|310[0-245]|3(?:0\d|1[1-689])\d	2,4		15
D	premium	1	3[2469]\d\d	4		3200
D	emergency	1	1[578]	2		15
D	short	1	1[578]|31(?:0[0-5]|[1-689]\d)|(?:118[02-9]|3[02469])\d\d			15
D	standard	1	118\d{3}	6		118000
D	carrier	1	3103	4		3103
D	sms	0		-1		
R	PR	0							0	0		0
D	general	1	9\d\d	3		
D	toll	1	9(?:11|88)			911
D	premium	0		-1		
D	emergency	1	911			911
D	short	1	9(?:11|88)			911
D	standard	0		-1		
D	carrier	0		-1		
D	sms	0		-1		
R	PS	0							0	0		0
D	general	1	1\d{2,3}	3,4		
D	toll	1	1(?:0[0-2]|66)	3		100
D	premium	0		-1		
D	emergency	1	10[0-2]	3		100
D	short	1	1(?:0[0-2]|122|44|66|99)			100
D	standard	0		-1		
D	carrier	1	112\d	4		1120
D	sms	0		-1		
R	PT	0							0	0		0
D	general	1	1\d\d(?:\d(?:\d{2})?)?	3,4,6		
D	toll	1	11[257]|1(?:16\d\d|5[1589]|8[279])\d			112
D	premium	0		-1		
D	emergency	1	11[25]	3		112
D	short	1	1(?:0(?:45|5[01])|1(?:[2578]|600[06])|4(?:1[45]|4)|583|6(?:1[0236]|3[02]|9[169]))|1(?:1611|59)1|1[068]78|1[08]9[16]|1(?:0[1-38]|40|5[15]|6[258]|82)0			112
D	standard	0		-1		
D	carrier	0		-1		
D	sms	0		-1		
R	PW	0							0	0		0
D	general	1	9\d\d	3		
D	toll	1	911			911
D	premium	0		-1		
D	emergency	1	911			911
D	short	1	911			911
D	standard	0		-1		
D	carrier	0		-1		
D	sms	0		-1		
R	PY	0							0	0		0
D	general	1	[12459]\d\d(?:\d{3,4})?	3,6,7		
D	toll	1	128|911	3		128
D	premium	0		-1		
D	emergency	1	128|911	3		128
D	short	1	[1245][01]\d{5}|(?:1[1-9]|[245]0\d{3})\d|911			110
D	standard	0		-1		
D	carrier	1	[1245][01]\d{5}|[245]0\d{4}	6,7		200000
D	sms	1	[1245][01]\d{5}|[245]0\d{4}	6,7		200000
R	QA	0							0	0		0
D	general	1	[129]\d{2,4}	3,4,5		
D	toll	1	99\d	3		990
D	premium	1	900	3		900
D	emergency	1	999	3		999
D	short	1	9(?:00|[19]\d)|(?:1|20|9[27]\d)\d\d			100
D	standard	0		-1		
D	carrier	0		-1		
D	sms	0		-1		
R	RE	0							0	0		0
D	general	1	1\d\d?	2,3		
D	toll	1	1(?:12|[578])			15
D	premium	0		-1		
D	emergency	1	1(?:12|[578])			15
D	short	1	1(?:12|[578])			15
D	standard	0		-1		
D	carrier	0		-1		
D	sms	0		-1		
R	RO	0							0	0		0
D	general	1	[18]\d{2,5}	3,4,5,6		
D	toll	1	11(?:[23]|6\d{3})	3,6		112
D	premium	1	(?:1(?:18[39]|[24])|8[48])\d\d	4,6		1200
D	emergency	1	112	3		112
D	short	1	1(?:1(?:[23]|6(?:000|1(?:11|23))|8(?:(?:01|8[18])1|119|[23]00|932))|[24]\d\d|9(?:0(?:00|19)|1[19]|21|3[02]|5[178]))|8[48]\d\d			112
D	standard	0		-1		
D	carrier	0		-1		
D	sms	1	113|(?:1[24]|8[48])\d\d	3,4		113
R	RS	0							0	0		0
D	general	1	[19]\d{1,5}	2,3,4,5,6		
D	toll	1	112|9[2-4]	2,3		92
D	premium	0		-1		
D	emergency	1	112|9[2-4]	2,3		92
D	short	1	1[189]\d{1,4}|9[2-4]			92
D	standard	0		-1		
D	carrier	0		-1		
D	sms	0		-1		
R	RU	0							0	0		0
D	general	1	[01]\d\d?	2,3		
D	toll	1	112|(?:0|10)[1-3]			01
D	premium	0		-1		
D	emergency	1	112|(?:0|10)[1-3]			01
D	short	1	112|(?:0|10)[1-4]			01
D	standard	0		-1		
D	carrier	0		-1		
D	sms	0		-1		
R	RW	0							0	0		0
D	general	1	[14]\d\d	3		
D	toll	1	11[1245]			111
D	premium	0		-1		
D	emergency	1	11[12]			111
D	short	1	1(?:0[0-2]|1[0-24-6]|2[13]|70|99)|456			100
D	standard	0		-1		
D	carrier	0		-1		
D	sms	0		-1		
R	SA	0							0	0		0
D	general	1	[19]\d{2,5}	3,4,5,6		
D	toll	1	11(?:2|6\d{3})|9(?:11|37|9[7-9])	3,6		112
D	premium	0		-1		
D	emergency	1	112|9(?:11|9[79])	3		112
D	short	1	1(?:1(?:00|2|6111)|410|9(?:00|1[89]|9(?:099|22|9[0-3])))|9(?:0[24-79]|11|3[379]|40|66|8[5-9]|9[02-9])			112
D	standard	1	141\d	4		1410
D	carrier	1	1(?:10|41)\d|90[24679]	3,4		902
D	sms	0		-1		
R	SB	0							0	0		0
D	general	1	[127-9]\d\d	3		
D	toll	1	999			999
D	premium	0		-1		
D	emergency	1	999			999
D	short	1	1(?:[02]\d|1[12]|[35][01]|[49][1-9]|6[2-9]|7[7-9]|8[0-8])|269|777|835|9(?:[01]1|22|33|55|77|88|99)			100
D	standard	0		-1		
D	carrier	0		-1		
D	sms	0		-1		
R	SC	0							0	0		0
D	general	1	[19]\d{2,3}	3,4		
D	toll	1	1(?:1[1468]|60)|999	3		111
D	premium	0		-1		
D	emergency	1	999	3		999
D	short	1	1(?:[06]\d|1[0-246-8]|2[0-8]|3[13]|4[0-2]|5[15]|7[124-6]|8[158]|9[015])|9(?:6\d\d|99)			100
D	standard	0		-1		
D	carrier	0		-1		
D	sms	0		-1		
R	SD	0							0	0		0
D	general	1	9\d\d	3		
D	toll	1	999			999
D	premium	0		-1		
D	emergency	1	999			999
D	short	1	999			999
D	standard	0		-1		
D	carrier	0		-1		
D	sms	0		-1		
R	SE	0							0	0		0
D	general	1	[1-37-9]\d{2,5}	3,4,5,6		
D	toll	1	11(?:2|(?:3|6\d)\d\d|414|77)|900\d\d			112
D	premium	1	11811[89]|72\d{3}	5,6		72000
D	emergency	1	112|90000	3,5		112
D	short	1	11(?:[25]|313|6(?:00[06]|1(?:1[17]|23))|7[0-8])|2(?:2[02358]|33|4[01]|50|6[1-4])|32[13]|8(?:22|88)|9(?:0(?:00|51)0|12)|(?:11(?:4|8[02-46-9])|7\d\d|90[2-4])\d\d|(?:118|90)1(?:[02-9]\d|1[013-9])			112
D	standard	0		-1		
D	carrier	1	2(?:2[02358]|33|4[01]|50|6[1-4])|32[13]|8(?:22|88)|912	3		220
D	sms	1	7\d{4}	5		70000
R	SG	0							0	0		0
D	general	1	[179]\d{2,4}	3,4,5		
D	toll	1	99[359]	3		993
D	premium	0		-1		
D	emergency	1	99[359]	3		993
D	short	1	1(?:(?:[01368]\d|44)\d|[57]\d{2,3}|9(?:0[1-9]|[1-9]\d))|77222|99[02-9]|100			100
D	standard	0		-1		
D	carrier	0		-1		
D	sms	1	772\d\d	5		77200
R	SH	0							0	0		0
D	general	1	[129]\d{2,4}	3,4,5		
D	toll	1	9(?:11|99)	3		911
D	premium	0		-1		
D	emergency	1	9(?:11|99)	3		911
D	short	1	1\d{2,3}|26[01]\d\d|9(?:11|99)			100
D	standard	0		-1		
D	carrier	0		-1		
D	sms	0		-1		
R	SI	0							0	0		0
D	general	1	1\d{2,5}	3,4,5,6		
D	toll	1	11(?:(?:0|6\d)\d\d|[23]|8\d\d?)			112
D	premium	0		-1		
D	emergency	1	11[23]	3		112
D	short	1	1(?:1(?:00[146]|[23]|6(?:000|1(?:11|23))|8(?:[08]|99))|9(?:059|1(?:0[12]|16)|5|70|87|9(?:00|[149])))|19(?:08|81)[09]			112
D	standard	0		-1		
D	carrier	0		-1		
D	sms	0		-1		
R	SJ	0							0	0		0
D	general	1	[01]\d\d(?:\d{2})?	3,5		
D	toll	1	11[023]	3		110
D	premium	0		-1		
D	emergency	1	11[023]	3		110
D	short	1	04\d{3}|11[023]			110
D	standard	0		-1		
D	carrier	0		-1		
D	sms	1	04\d{3}	5		04000
R	SK	0							0	0		0
D	general	1	1\d{2,5}	3,4,5,6		
D	toll	1	1(?:1(?:2|6\d{3})|5[058])	3,6		112
D	premium	0		-1		
D	emergency	1	1(?:12|5[058])	3		112
D	short	1	1(?:1(?:2|6(?:000|111)|8[0-8])|[248]\d{3}|5[0589])			112
D	standard	0		-1		
D	carrier	0		-1		
D	sms	0		-1		
R	SL	0							0	0		0
D	general	1	[069]\d\d(?:\d{2})?	3,5		
D	toll	1	(?:01|99)9	3		019
D	premium	0		-1		
D	emergency	1	(?:01|99)9	3		019
D	short	1	(?:01|99)9|60400			019
D	standard	0		-1		
D	carrier	1	604\d\d	5		60400
D	sms	1	604\d\d	5		60400
R	SM	0							0	0		0
D	general	1	1\d\d	3		
D	toll	1	11[358]			113
D	premium	0		-1		
D	emergency	1	11[358]			113
D	short	1	11[358]			113
D	standard	0		-1		
D	carrier	0		-1		
D	sms	0		-1		
R	SN	0							0	0		0
D	general	1	[12]\d{1,5}	2,3,4,5,6		
D	toll	1	1(?:515|[78])|2(?:00|1)\d{3}	2,4,5,6		17
D	premium	1	2(?:0[246]|[468])\d{3}	5,6		24000
D	emergency	1	1[78]	2		17
D	short	1	1(?:1[69]|(?:[246]\d|51)\d)|2(?:0[0-246]|[12468])\d{3}|1[278]			12
D	standard	1	2(?:01|2)\d{3}	5,6		22000
D	carrier	1	1[46]\d\d	4		1400
D	sms	1	2[468]\d{3}	5		24000
R	SO	0							0	0		0
D	general	1	[57-9]\d\d	3		
D	toll	1	555|888|999			555
D	premium	0		-1		
D	emergency	1	555|888|999			555
D	short	1	555|777|888|999			555
D	standard	0		-1		
D	carrier	0		-1		
D	sms	0		-1		
R	SR	0							0	0		0
D	general	1	1\d{2,3}	3,4		
D	toll	1	115	3		115
D	premium	0		-1		
D	emergency	1	115	3		115
D	short	1	1\d{2,3}			100
D	standard	0		-1		
D	carrier	0		-1		
D	sms	0		-1		
R	SS	0							0	0		0
D	general	1	9\d\d	3		
D	toll	1	999			999
D	premium	0		-1		
D	emergency	1	999			999
D	short	1	999			999
D	standard	0		-1		
D	carrier	0		-1		
D	sms	0		-1		
R	ST	0							0	0		0
D	general	1	1\d\d	3		
D	toll	1	112			112
D	premium	0		-1		
D	emergency	1	112			112
D	short	1	112			112
D	standard	0		-1		
D	carrier	0		-1		
D	sms	0		-1		
R	SV	0							0	0		0
D	general	1	[149]\d\d(?:\d{2,3})?	3,5,6		
D	toll	1	116\d{3}|911	3,6		911
D	premium	0		-1		
D	emergency	1	91[13]	3		911
D	short	1	1(?:1(?:2|6111)|2[136-8]|3[0-6]|9[05])|40404|9(?:1\d|29)			112
D	standard	0		-1		
D	carrier	1	404\d\d	5		40400
D	sms	1	404\d\d	5		40400
R	SX	0							0	0		0
D	general	1	9\d\d	3		
D	toll	1	9(?:19|88)			919
D	premium	0		-1		
D	emergency	1	919			919
D	short	1	9(?:19|88)			919
D	standard	0		-1		
D	carrier	0		-1		
D	sms	0		-1		
R	SY	0							0	0		0
D	general	1	1\d\d	3		
D	toll	1	11[023]			110
D	premium	0		-1		
D	emergency	1	11[023]			110
D	short	1	11[023]			110
D	standard	0		-1		
D	carrier	0		-1		
D	sms	0		-1		
R	SZ	0							0	0		0
D	general	1	9\d\d	3		
D	toll	1	999			999
D	premium	0		-1		
D	emergency	1	999			999
D	short	1	999			999
D	standard	0		-1		
D	carrier	0		-1		
D	sms	0		-1		
R	TC	0							0	0		0
D	general	1	9\d\d	3		
D	toll	1	9(?:11|88|99)			911
D	premium	0		-1		
D	emergency	1	9(?:11|99)			911
D	short	1	9(?:11|88|99)			911
D	standard	0		-1		
D	carrier	0		-1		
D	sms	0		-1		
R	TD	0							0	0		0
D	general	1	1\d	2		
D	toll	1	1[78]			17
D	premium	0		-1		
D	emergency	1	1[78]			17
D	short	1	1[78]			17
D	standard	0		-1		
D	carrier	0		-1		
D	sms	0		-1		
R	TG	0							0	0		0
D	general	1	1\d{2,3}	3,4		
D	toll	1	1(?:1[78]|7[127])	3		117
D	premium	0		-1		
D	emergency	1	1(?:1[78]|7[127])	3		117
D	short	1	1(?:011|1[078]|7[127])			110
D	standard	0		-1		
D	carrier	0		-1		
D	sms	0		-1		
R	TH	0							0	0		0
D	general	1	1\d{2,3}	3,4		
D	toll	1	1(?:1(?:00|2[03]|3[3479]|7[67]|9[0246])|578|6(?:44|6[79]|88|9[16])|88\d|9[19])|1[15]55			191
D	premium	1	1(?:113|2[23]\d|5(?:09|56))	4		1113
D	emergency	1	1(?:669|9[19])			191
D	short	1	1(?:0[0-2]|1(?:0[03]|1[1-35]|2[0358]|3[03-79]|4[02-489]|5[04-9]|6[04-79]|7[03-9]|8[027-9]|9[02-9])|2(?:22|3[89]|66)|3(?:18|2[23]|3[013]|5[56]|6[45]|73)|477|5(?:0\d|4[0-37-9]|5[1-8]|6[01679]|7[12568]|8[0-24589]|9[013589])|6(?:0[0-29]|2[03]|4[3-6]|6[1-9]|7[0257-9]|8[0158]|9[014-9])|7(?:[14]9|7[27]|90)|888|9[19])			100
D	standard	1	1(?:1(?:03|1[15]|2[58]|3[056]|4[02-49]|5[046-9]|7[03-589]|9[57-9])|5(?:0[0-8]|4[0-378]|5[1-478]|7[156])|6(?:20|4[356]|6[1-68]|7[057-9]|8[015]|9[0457-9]))|1(?:1[68]|26|3[1-35]|5[689]|60|7[17])\d	4		1103
D	carrier	1	114[89]	4		1148
D	sms	0		-1		
R	TJ	0							0	0		0
D	general	1	1\d\d	3		
D	toll	1	1(?:0[1-3]|12)			101
D	premium	0		-1		
D	emergency	1	1(?:0[1-3]|12)			101
D	short	1	1(?:0[1-3]|12)			101
D	standard	0		-1		
D	carrier	0		-1		
D	sms	0		-1		
R	TL	0							0	0		0
D	general	1	1\d\d	3		
D	toll	1	11[25]			112
D	premium	0		-1		
D	emergency	1	11[25]			112
D	short	1	1(?:0[02]|1[25]|2[0138]|72|9[07])			100
D	standard	0		-1		
D	carrier	0		-1		
D	sms	0		-1		
R	TM	0							0	0		0
D	general	1	0\d	2		
D	toll	1	0[1-49]			01
D	premium	0		-1		
D	emergency	1	0[1-3]			01
D	short	1	0[1-49]			01
D	standard	0		-1		
D	carrier	0		-1		
D	sms	0		-1		
R	TN	0							0	0		0
D	general	1	1\d\d	3		
D	toll	1	19[078]			190
D	premium	0		-1		
D	emergency	1	19[078]			190
D	short	1	19[078]			190
D	standard	0		-1		
D	carrier	0		-1		
D	sms	0		-1		
R	TO	0							0	0		0
D	general	1	9\d\d	3		
D	toll	1	9(?:11|22|33|99)			911
D	premium	0		-1		
D	emergency	1	9(?:11|22|33|99)			911
D	short	1	9(?:11|22|33|99)			911
D	standard	0		-1		
D	carrier	0		-1		
D	sms	0		-1		
R	TR	0							0	0		0
D	general	1	[1-9]\d{2,4}	3,4,5		
D	toll	1	1(?:1[02]|22|3[126]|4[04]|5[15-9]|6[18]|77|83)	3		110
D	premium	0		-1		
D	emergency	1	1(?:1[02]|55)	3		110
D	short	1	1(?:1(?:[02-79]|8(?:1[018]|2[0245]|3[2-4]|42|5[058]|6[06]|7[07]|8[01389]|9[089]))|3(?:37|[58]6|65)|471|5(?:07|78)|6(?:[02]6|99)|8(?:63|95))|2(?:077|268|4(?:17|23)|5(?:7[26]|82)|6[14]4|8\d\d|9(?:30|89))|3(?:0(?:05|72)|353|4(?:06|30|64)|502|674|747|851|9(?:1[29]|60))|4(?:0(?:25|3[12]|[47]2)|3(?:3[13]|[89]1)|439|5(?:43|55)|717|832)|5(?:145|290|[4-6]\d\d|772|833|9(?:[06]1|92))|6(?:236|6(?:12|39|8[59])|769)|7890|8(?:688|7(?:28|65)|85[06])|9(?:159|290)|1[2-9]\d			110
D	standard	1	(?:285|542)0	4		2850
D	carrier	0		-1		
D	sms	1	1(?:3(?:37|[58]6|65)|4(?:4|71)|5(?:07|78)|6(?:[02]6|99)|8(?:3|63|95))|(?:2(?:07|26|4[12]|5[78]|6[14]|8\d|9[38])|3(?:0[07]|[38]5|4[036]|50|67|74|9[16])|4(?:0[2-47]|3[389]|[48]3|5[45]|71)|5(?:14|29|[4-6]\d|77|83|9[069])|6(?:23|6[138]|76)|789|8(?:68|7[26]|85)|9(?:15|29))\d	3,4		144
R	TT	0							0	0		0
D	general	1	9\d\d	3		
D	toll	1	9(?:88|9[09])			988
D	premium	0		-1		
D	emergency	1	99[09]			990
D	short	1	9(?:88|9[09])			988
D	standard	0		-1		
D	carrier	0		-1		
D	sms	0		-1		
R	TV	0							0	0		0
D	general	1	[19]\d\d	3		
D	toll	1	911			911
D	premium	0		-1		
D	emergency	1	911			911
D	short	1	1\d\d|911			100
D	standard	0		-1		
D	carrier	0		-1		
D	sms	0		-1		
R	TW	0							0	0		0
D	general	1	1\d{2,3}	3,4		
D	toll	1	11[0289]|1(?:81|92)\d			110
D	premium	1	10[56]	3		105
D	emergency	1	11[029]	3		110
D	short	1	1(?:0[04-6]|1[0237-9]|3[389]|6[05-8]|7[07]|8(?:0|11)|9(?:19|22|5[057]|68|8[05]|9[15689]))			100
D	standard	1	1(?:65|9(?:1\d|50|85|98))			165
D	carrier	0		-1		
D	sms	0		-1		
R	TZ	0							0	0		0
D	general	1	[149]\d\d(?:\d{2})?	3,5		
D	toll	1	1(?:1[0-79]|9[09])|999	3		110
D	premium	0		-1		
D	emergency	1	11[0-245]|999	3		110
D	short	1	1(?:1\d|9[09])|46400|999			110
D	standard	0		-1		
D	carrier	1	464\d\d	5		46400
D	sms	1	464\d\d	5		46400
R	UA	0							0	0		0
D	general	1	[189]\d{2,5}	3,4,5,6		
D	toll	1	1(?:0[1-3]|1(?:2|6\d{3}))	3,6		101
D	premium	0		-1		
D	emergency	1	1(?:0[1-3]|12)	3		101
D	short	1	1(?:0[1-49]|1(?:2|6(?:000|1(?:11|23))|8\d\d?)|(?:[278]|5\d)\d)|[89]00\d\d?|151|1(?:06|4\d|6)\d\d			101
D	standard	0		-1		
D	carrier	1	(?:118|[89]00)\d\d?	4,5		1180
D	sms	0		-1		
R	UG	0							0	0		0
D	general	1	9\d\d	3		
D	toll	1	999			999
D	premium	0		-1		
D	emergency	1	999			999
D	short	1	999			999
D	standard	0		-1		
D	carrier	0		-1		
D	sms	0		-1		
R	US	0							0	0		0
D	general	1	[1-9]\d{2,5}	3,4,5,6		
D	toll	1	112|611|9(?:11|33|88)	3		112
D	premium	1	24280|(?:381|968)35|4(?:3355|7553|8221)|5(?:(?:489|934)2|5928)|72078|(?:323|960)40|(?:276|414)63|(?:2(?:520|744)|7390|9968)9|(?:693|732|976)88|(?:3(?:556|825)|5294|8623|9729)4|(?:3378|4136|7642|8961|9979)6|(?:4(?:6(?:15|32)|827)|(?:591|720)8|9529)7	5		24280
D	emergency	1	112|911	3		112
D	short	1	11(?:2|5[1-47]|[68]\d|7[0-57]|98)|[2-9]\d{3,5}|[2-8]11|9(?:11|33|88)			112
D	standard	1	2(?:3333|(?:4224|7562|900)2|56447|6688)|3(?:1010|2665|7404)|40404|560560|6(?:0060|22639|5246|7622)|7(?:0701|3822|4666)|8(?:(?:3825|7226)5|4816)|99099	5,6		23333
D	carrier	1	336\d\d|[2-9]\d{3}|[2356]11	3,4,5		211
D	sms	1	[2-9]\d{4,5}	5,6		20000
R	UY	0							0	0		0
D	general	1	[19]\d{2,4}	3,4,5		
D	toll	1	128|911	3		128
D	premium	0		-1		
D	emergency	1	128|911	3		128
D	short	1	1(?:0[4-9]|1[2368]|2[0-3568]|787|997\d?)|911			104
D	standard	1	178\d	4		1780
D	carrier	0		-1		
D	sms	0		-1		
R	UZ	0							0	0		0
D	general	1	[04]\d(?:\d(?:\d{2})?)?	2,3,5		
D	toll	1	0(?:0[1-3]|[1-3]|50)	2,3		01
D	premium	0		-1		
D	emergency	1	0(?:0[1-3]|[1-3]|50)	2,3		01
D	short	1	0(?:0[1-3]|[1-3]|50)|45400			01
D	standard	0		-1		
D	carrier	1	454\d\d	5		45400
D	sms	1	454\d\d	5		45400
R	VA	0							0	0		0
D	general	1	1\d\d	3		
D	toll	1	11[2358]			112
D	premium	0		-1		
D	emergency	1	11[2358]			112
D	short	1	11[2358]			112
D	standard	0		-1		
D	carrier	0		-1		
D	sms	0		-1		
R	VC	0							0	0		0
D	general	1	9\d\d	3		
D	toll	1	9(?:11|88|99)			911
D	premium	0		-1		
D	emergency	1	9(?:11|99)			911
D	short	1	9(?:11|88|99)			911
D	standard	0		-1		
D	carrier	0		-1		
D	sms	0		-1		
R	VE	0							0	0		0
D	general	1	[19]\d\d	3		
D	toll	1	1(?:12|71)|911			112
D	premium	0		-1		
D	emergency	1	1(?:12|71)|911			112
D	short	1	1(?:12|71)|911			112
D	standard	0		-1		
D	carrier	0		-1		
D	sms	0		-1		
R	VG	0							0	0		0
D	general	1	9\d\d	3		
D	toll	1	9(?:11|88|99)			911
D	premium	0		-1		
D	emergency	1	9(?:11|99)			911
D	short	1	9(?:11|88|99)			911
D	standard	0		-1		
D	carrier	0		-1		
D	sms	0		-1		
R	VI	0							0	0		0
D	general	1	9\d\d	3		
D	toll	1	9(?:11|88)			911
D	premium	0		-1		
D	emergency	1	911			911
D	short	1	9(?:11|88)			911
D	standard	0		-1		
D	carrier	0		-1		
D	sms	0		-1		
R	VN	0							0	0		0
D	general	1	1\d\d	3		
D	toll	1	11[3-5]			113
D	premium	0		-1		
D	emergency	1	11[3-5]			113
D	short	1	11[3-5]			113
D	standard	0		-1		
D	carrier	0		-1		
D	sms	0		-1		
R	VU	0							0	0		0
D	general	1	1\d\d	3		
D	toll	1	112			112
D	premium	0		-1		
D	emergency	1	112			112
D	short	1	112			112
D	standard	0		-1		
D	carrier	0		-1		
D	sms	0		-1		
R	WF	0							0	0		0
D	general	1	1\d	2		
D	toll	1	1[578]			15
D	premium	0		-1		
D	emergency	1	1[578]			15
D	short	1	1[578]			15
D	standard	0		-1		
D	carrier	0		-1		
D	sms	0		-1		
R	WS	0							0	0		0
D	general	1	[19]\d\d	3		
D	toll	1	9(?:11|9[4-69])			911
D	premium	0		-1		
D	emergency	1	9(?:11|9[4-69])			911
D	short	1	1(?:1[12]|2[0-6]|[39]0)|9(?:11|9[4-79])			111
D	standard	0		-1		
D	carrier	1	12[0-6]			120
D	sms	0		-1		
R	XK	0							0	0		0
D	general	1	1\d\d	3		
D	toll	1	1(?:12|9[2-4])			112
D	premium	0		-1		
D	emergency	1	1(?:12|9[2-4])			112
D	short	1	1(?:12|9[2-4])			112
D	standard	0		-1		
D	carrier	0		-1		
D	sms	0		-1		
R	YE	0							0	0		0
D	general	1	1\d\d	3		
D	toll	1	19[1459]			191
D	premium	0		-1		
D	emergency	1	19[1459]			191
D	short	1	19[1459]			191
D	standard	0		-1		
D	carrier	0		-1		
D	sms	0		-1		
R	YT	0							0	0		0
D	general	1	1\d\d?	2,3		
D	toll	1	1(?:12|5)			15
D	premium	0		-1		
D	emergency	1	1(?:12|5)			15
D	short	1	1(?:12|5)			15
D	standard	0		-1		
D	carrier	0		-1		
D	sms	0		-1		
R	ZA	0							0	0		0
D	general	1	[134]\d{2,4}	3,4,5		
D	toll	1	1(?:01\d\d|12)	3,5		112
D	premium	1	41(?:348|851)	5		41348
D	emergency	1	1(?:01(?:11|77)|12)	3,5		112
D	short	1	1(?:0(?:1(?:11|77)|20|7)|1[12]|77(?:3[237]|[45]7|6[279]|9[26]))|[34]\d{4}			107
D	standard	1	3(?:078[23]|7(?:064|567)|8126)|4(?:394[16]|7751|8837)|4[23]699	5		30782
D	carrier	1	111	3		111
D	sms	1	[34]\d{4}	5		30000
R	ZM	0							0	0		0
D	general	1	[19]\d\d	3		
D	toll	1	112|99[139]			112
D	premium	0		-1		
D	emergency	1	112|99[139]			112
D	short	1	112|99[139]			112
D	standard	0		-1		
D	carrier	0		-1		
D	sms	0		-1		
R	ZW	0							0	0		0
D	general	1	[139]\d\d(?:\d{2})?	3,5		
D	toll	1	112|9(?:5[023]|61|9[3-59])	3		112
D	premium	1	3[013-57-9]\d{3}	5		30000
D	emergency	1	112|99[3-59]	3		112
D	short	1	11[2469]|3[013-57-9]\d{3}|9(?:5[023]|6[0-25]|9[3-59])			112
D	standard	0		-1		
D	carrier	1	114|9(?:5[023]|6[0-25])	3		114
D	sms	0		-1		"
end Verif.Data
