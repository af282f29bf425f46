import Verif.Data.Decode
/-! Generated from `/repo/metadata/data/metadata.xml.gz` (metadata v9.0.37); part 3 of 4.  See `Verif/Data/Decode.lean` for the line format. -/
namespace Verif.Data
shipped main3 r"R	LR	231	00		0		0		0	0		0
D	general	1	(?:[2457]\d|33|88)\d{7}|(?:2\d|[4-6])\d{6}	7,8,9		
D	fixed	1	2\d{7}	8		21234567
D	mobile	1	(?:(?:(?:22|33)0|555|7(?:6[01]|7\d)|88\d)\d|4(?:240|[67]))\d{5}|[56]\d{6}	7,9		770123456
D	toll	0		-1		
D	premium	1	332(?:02|[34]\d)\d{4}	9		332021234
D	shared	0		-1		
D	personal	0		-1		
D	voip	0		-1		
D	pager	0		-1		
D	uan	0		-1		
D	voicemail	0		-1		
D	nointl	0		-1		
F	(\d)(\d{3})(\d{3})	$1 $2 $3	0$1	0		4[67]|[56]
F	(\d{2})(\d{3})(\d{3})	$1 $2 $3	0$1	0		2
F	(\d{2})(\d{3})(\d{4})	$1 $2 $3	0$1	0		[2-578]
R	LS	266	00						0	0		0
D	general	1	(?:[256]\d\d|800)\d{5}	8		
D	fixed	1	2\d{7}			22123456
D	mobile	1	[56]\d{7}			50123456
D	toll	1	800[1256]\d{4}			80021234
D	premium	0		-1		
D	shared	0		-1		
D	personal	0		-1		
D	voip	0		-1		
D	pager	0		-1		
D	uan	0		-1		
D	voicemail	0		-1		
D	nointl	0		-1		
F	(\d{4})(\d{4})	$1 $2		0		[2568]
R	LT	370	00		0		[08]		0	0		1
D	general	1	(?:[3469]\d|52|[78]0)\d{6}	8		
D	fixed	1	(?:3[1478]|4[124-6]|52)\d{6}			31234567
D	mobile	1	6\d{7}			61234567
D	toll	1	80[02]\d{5}			80012345
D	premium	1	9(?:0[0239]|10)\d{5}			90012345
D	shared	1	808\d{5}			80812345
D	personal	1	70[05]\d{5}			70012345
D	voip	1	[89]01\d{5}			80123456
D	pager	0		-1		
D	uan	1	70[67]\d{5}			70712345
D	voicemail	0		-1		
D	nointl	0		-1		
F	(\d)(\d{3})(\d{4})	$1 $2 $3	(0-$1)	1		52[0-7]
F	(\d{3})(\d{2})(\d{3})	$1 $2 $3	0 $1	1		[7-9]
F	(\d{2})(\d{6})	$1 $2	(0-$1)	1		37|4(?:[15]|6[1-8])
F	(\d{3})(\d{5})	$1 $2	(0-$1)	1		[3-6]
R	LU	352	00				(15(?:0[06]|1[12]|[35]5|4[04]|6[26]|77|88|99)\d)		0	0		1
D	general	1	35[013-9]\d{4,8}|6\d{8}|35\d{2,4}|(?:[2457-9]\d|3[0-46-9])\d{2,9}	4,5,6,7,8,9,10,11		
D	fixed	1	(?:35[013-9]|80[2-9]|90[89])\d{1,8}|(?:2[2-9]|3[0-46-9]|[457]\d|8[13-9]|9[2-579])\d{2,9}			27123456
D	mobile	1	6(?:[26][18]|5[1568]|7[189]|81|9[128])\d{6}	9		628123456
D	toll	1	800\d{5}	8		80012345
D	premium	1	90[015]\d{5}	8		90012345
D	shared	1	801\d{5}	8		80112345
D	personal	0		-1		
D	voip	1	20(?:1\d{5}|[2-689]\d{1,7})	4,5,6,7,8,9,10		20201234
D	pager	0		-1		
D	uan	0		-1		
D	voicemail	0		-1		
D	nointl	0		-1		
F	(\d{2})(\d{3})	$1 $2		0	$CC $1	2(?:0[2-689]|[2-9])|[3-57]|8(?:0[2-9]|[13-9])|9(?:0[89]|[2-579])
F	(\d{2})(\d{2})(\d{2})	$1 $2 $3		0	$CC $1	2(?:0[2-689]|[2-9])|[3-57]|8(?:0[2-9]|[13-9])|9(?:0[89]|[2-579])
F	(\d{2})(\d{2})(\d{3})	$1 $2 $3		0	$CC $1	20[2-689]
F	(\d{2})(\d{2})(\d{2})(\d{1,2})	$1 $2 $3 $4		0	$CC $1	20
F	(\d{2})(\d{2})(\d{2})(\d{1,5})	$1 $2 $3 $4		0	$CC $1	[3-57]|8[13-9]|9(?:0[89]|[2-579])|(?:2|80)[2-9]
F	(\d{3})(\d{2})(\d{3})	$1 $2 $3		0	$CC $1	80[01]|90[015]
F	(\d{2})(\d{2})(\d{2})(\d{3})	$1 $2 $3 $4		0	$CC $1	20
F	(\d{3})(\d{3})(\d{3})	$1 $2 $3		0	$CC $1	6
F	(\d{2})(\d{2})(\d{2})(\d{2})(\d{1,2})	$1 $2 $3 $4 $5		0	$CC $1	20
R	LV	371	00						0	0		1
D	general	1	(?:[268]\d|78|90)\d{6}	8		
D	fixed	1	6\d{7}			63123456
D	mobile	1	2333[0-8]\d{3}|2(?:[0-24-9]\d\d|3(?:0[07]|[14-9]\d|2[02-9]|3[0-24-9]))\d{4}			21234567
D	toll	1	80\d{6}			80123456
D	premium	1	90\d{6}			90123456
D	shared	1	81\d{6}			81123456
D	personal	0		-1		
D	voip	0		-1		
D	pager	0		-1		
D	uan	0		-1		
D	voicemail	0		-1		
D	nointl	0		-1		
F	(\d{2})(\d{3})(\d{3})	$1 $2 $3		0		[2679]|8[01]
R	LY	218	00		0		0		0	0		0
D	general	1	[2-9]\d{8}	9	7	
D	fixed	1	(?:2(?:0[56]|[1-6]\d|7[124579]|8[124])|3(?:1\d|2[2356])|4(?:[17]\d|2[1-357]|5[2-4]|8[124])|5(?:[1347]\d|2[1-469]|5[13-5]|8[1-4])|6(?:[1-479]\d|5[2-57]|8[1-5])|7(?:[13]\d|2[13-79])|8(?:[124]\d|5[124]|84))\d{6}		7	212345678
D	mobile	1	9[1-6]\d{7}			912345678
D	toll	0		-1		
D	premium	0		-1		
D	shared	0		-1		
D	personal	0		-1		
D	voip	0		-1		
D	pager	0		-1		
D	uan	0		-1		
D	voicemail	0		-1		
D	nointl	0		-1		
F	(\d{2})(\d{7})	$1-$2	0$1	0		[2-9]
R	MA	212	00		0		0		0	1	[5-8]	1
D	general	1	[5-8]\d{8}	9		
D	fixed	1	5(?:(?:18|4[0679]|5[03])\d|2(?:[0-25-79]\d|3[1-578]|4[02-46-8]|8[0235-9])|3(?:[0-47]\d|5[02-9]|6[02-8]|8[014-9]|9[3-9]))\d{5}			520123456
D	mobile	1	(?:6(?:[0-79]\d|8[0-247-9])|7(?:[016-8]\d|2[0-8]|3[01]|5[0-5]))\d{6}			650123456
D	toll	1	80[0-7]\d{6}			801234567
D	premium	1	89\d{7}			891234567
D	shared	0		-1		
D	personal	0		-1		
D	voip	1	(?:592(?:4[0-2]|93)|80[89]\d\d)\d{4}			592401234
D	pager	0		-1		
D	uan	0		-1		
D	voicemail	0		-1		
D	nointl	0		-1		
F	(\d{4})(\d{5})	$1-$2	0$1	0		892
F	(\d{2})(\d{7})	$1-$2	0$1	0		8(?:0[0-7]|9)
F	(\d)(\d{2})(\d{2})(\d{2})(\d{2})	$1 $2 $3 $4 $5	0$1	0		[5-8]
R	MC	377	00		0		0		0	0		0
D	general	1	(?:[3489]|[67]\d)\d{7}	8,9		
D	fixed	1	(?:870|9[2-47-9]\d)\d{5}	8		99123456
D	mobile	1	4(?:[46]\d|5[1-9])\d{5}|(?:3|[67]\d)\d{7}			612345678
D	toll	1	(?:800|90\d)\d{5}	8		90123456
D	premium	0		-1		
D	shared	0		-1		
D	personal	0		-1		
D	voip	0		-1		
D	pager	0		-1		
D	uan	0		-1		
D	voicemail	0		-1		
D	nointl	1	8[07]0\d{5}	8		
F	(\d{3})(\d{3})(\d{2})	$1 $2 $3		0		87
F	(\d{2})(\d{3})(\d{3})	$1 $2 $3	0$1	0		4
F	(\d{2})(\d{2})(\d{2})(\d{2})	$1 $2 $3 $4		0		[389]
F	(\d)(\d{2})(\d{2})(\d{2})(\d{2})	$1 $2 $3 $4 $5	0$1	0		[67]
I	(\d{2})(\d{3})(\d{3})	$1 $2 $3	0$1	0		4
I	(\d{2})(\d{2})(\d{2})(\d{2})	$1 $2 $3 $4		0		[389]
I	(\d)(\d{2})(\d{2})(\d{2})(\d{2})	$1 $2 $3 $4 $5	0$1	0		[67]
R	MD	373	00		0		0		0	0		1
D	general	1	(?:[235-7]\d|[89]0)\d{6}	8		
D	fixed	1	(?:(?:2[1-9]|3[1-79])\d|5(?:33|5[257]))\d{5}			22212345
D	mobile	1	562\d{5}|(?:6\d|7[16-9])\d{6}			62112345
D	toll	1	800\d{5}			80012345
D	premium	1	90[056]\d{5}			90012345
D	shared	1	808\d{5}			80812345
D	personal	0		-1		
D	voip	1	3[08]\d{6}			30123456
D	pager	0		-1		
D	uan	1	803\d{5}			80312345
D	voicemail	0		-1		
D	nointl	0		-1		
F	(\d{3})(\d{5})	$1 $2	0$1	0		[89]
F	(\d{2})(\d{3})(\d{3})	$1 $2 $3	0$1	0		22|3
F	(\d{3})(\d{2})(\d{3})	$1 $2 $3	0$1	0		[25-7]
R	ME	382	00		0		0		0	0		0
D	general	1	(?:20|[3-79]\d)\d{6}|80\d{6,7}	8,9	6	
D	fixed	1	(?:20[2-8]|3(?:[0-2][2-7]|3[24-7])|4(?:0[2-467]|1[2467])|5(?:0[2467]|1[24-7]|2[2-467]))\d{5}	8	6	30234567
D	mobile	1	6(?:[07-9]\d|3[024]|6[0-25])\d{5}	8		60123456
D	toll	1	80(?:[0-2578]|9\d)\d{5}			80080002
D	premium	1	9(?:4[1568]|5[178])\d{5}	8		94515151
D	shared	0		-1		
D	personal	0		-1		
D	voip	1	78[1-49]\d{5}	8		78108780
D	pager	0		-1		
D	uan	1	77[1-9]\d{5}	8		77273012
D	voicemail	0		-1		
D	nointl	0		-1		
F	(\d{2})(\d{3})(\d{3,4})	$1 $2 $3	0$1	0		[2-9]
R	MF	590	00		0		0		0	0		1
D	general	1	7090\d{5}|(?:[56]9|[89]\d)\d{7}	9		
D	fixed	1	(?:59(?:0(?:0[079]|[14]3|[27][79]|3[03-7]|5[0-268]|87)|87\d)|80[6-9]\d\d)\d{4}			590271234
D	mobile	1	(?:69(?:0\d\d|1(?:2[2-9]|3[0-5]))|7090[0-4])\d{4}			690001234
D	toll	1	80[0-5]\d{6}			800012345
D	premium	1	8[129]\d{7}			810123456
D	shared	0		-1		
D	personal	0		-1		
D	voip	1	9(?:(?:39[5-7]|76[018])\d|475[0-6])\d{4}			976012345
D	pager	0		-1		
D	uan	0		-1		
D	voicemail	0		-1		
D	nointl	0		-1		
R	MG	261	00		0		([24-9]\d{6})$|0	20$1	0	0		0
D	general	1	[23]\d{8}	9	7	
D	fixed	1	2072[29]\d{4}|20(?:2\d|4[47]|5[3467]|6[279]|7[356]|8[268]|9[2457])\d{5}		7	202123456
D	mobile	1	3[2-9]\d{7}			321234567
D	toll	0		-1		
D	premium	0		-1		
D	shared	0		-1		
D	personal	0		-1		
D	voip	1	22\d{7}			221234567
D	pager	0		-1		
D	uan	0		-1		
D	voicemail	0		-1		
D	nointl	0		-1		
F	(\d{2})(\d{2})(\d{3})(\d{2})	$1 $2 $3 $4	0$1	0		[23]
R	MH	692	011		1		1		0	0		0
D	general	1	329\d{4}|(?:[256]\d|45)\d{5}	7		
D	fixed	1	(?:247|528|625)\d{4}			2471234
D	mobile	1	(?:(?:23|54)5|329|45[35-8])\d{4}			2351234
D	toll	0		-1		
D	premium	0		-1		
D	shared	0		-1		
D	personal	0		-1		
D	voip	1	635\d{4}			6351234
D	pager	0		-1		
D	uan	0		-1		
D	voicemail	0		-1		
D	nointl	0		-1		
F	(\d{3})(\d{4})	$1-$2		0		[2-6]
R	MK	389	00		0		0		0	0		1
D	general	1	[2-578]\d{7}	8	6,7	
D	fixed	1	(?:(?:2(?:62|77)0|3444)\d|4[56]440)\d{3}|(?:34|4[357])700\d{3}|(?:2(?:[0-3]\d|5[0-578]|6[01]|82)|3(?:1[3-68]|[23][2-68]|4[23568])|4(?:[23][2-68]|4[3-68]|5[2568]|6[25-8]|7[24-68]|8[4-68]))\d{5}		6,7	22012345
D	mobile	1	7(?:3555|(?:474|9[019]7)7)\d{3}|7(?:[0-25-8]\d\d|3(?:[1-478]\d|6[01])|4(?:2\d|60|7[01578])|9(?:[2-4]\d|5[01]|7[015]))\d{4}			72345678
D	toll	1	800\d{5}			80012345
D	premium	1	5\d{7}			50012345
D	shared	1	8(?:0[1-9]|[1-9]\d)\d{5}			80123456
D	personal	0		-1		
D	voip	0		-1		
D	pager	0		-1		
D	uan	0		-1		
D	voicemail	0		-1		
D	nointl	0		-1		
F	(\d)(\d{3})(\d{4})	$1 $2 $3	0$1	0		2|34[47]|4(?:[37]7|5[47]|64)
F	(\d{2})(\d{3})(\d{3})	$1 $2 $3	0$1	0		[347]
F	(\d{3})(\d)(\d{2})(\d{2})	$1 $2 $3 $4	0$1	0		[58]
R	ML	223	00						0	0		0
D	general	1	[24-9]\d{7}	8		
D	fixed	1	2(?:07[0-8]|12[67])\d{4}|(?:2(?:02|1[4-689])|4(?:0[0-4]|4[1-69]))\d{5}			20212345
D	mobile	1	2(?:0(?:01|79)|17\d)\d{4}|(?:5[0-3]|[679]\d|8[2-59])\d{6}			65012345
D	toll	1	80\d{6}			80012345
D	premium	0		-1		
D	shared	0		-1		
D	personal	0		-1		
D	voip	0		-1		
D	pager	0		-1		
D	uan	0		-1		
D	voicemail	0		-1		
D	nointl	1	80\d{6}			
F	(\d{4})	$1		0		67[057-9]|74[045]	67(?:0[09]|[59]9|77|8[89])|74(?:0[02]|44|55)
F	(\d{2})(\d{2})(\d{2})(\d{2})	$1 $2 $3 $4		0		[24-9]
I	(\d{2})(\d{2})(\d{2})(\d{2})	$1 $2 $3 $4		0		[24-9]
R	MM	95	00		0		0		0	0		0
D	general	1	1\d{5,7}|95\d{6}|(?:[4-7]|9[0-46-9])\d{6,8}|(?:2|8\d)\d{5,8}	6,7,8,9,10	5	
D	fixed	1	(?:1(?:(?:12|[28]\d|3[56]|7[3-6]|9[0-6])\d|4(?:2[29]|7[0-2]|83)|6)|2(?:2(?:00|8[34])|4(?:0\d|22|7[0-2]|83)|51\d\d)|4(?:2(?:2\d\d|48[013])|3(?:20\d|4(?:70|83)|56)|420\d|5(?:2\d|470))|6(?:0(?:[23]|88\d)|(?:124|[56]2\d)\d|2472|3(?:20\d|470)|4(?:2[04]\d|472)|7(?:3\d\d|4[67]0|8(?:[01459]\d|8))))\d{4}|5(?:2(?:2\d{5,6}|47[02]\d{4})|(?:3472|4(?:2(?:1|86)|470)|522\d|6(?:20\d|483)|7(?:20\d|48[01])|8(?:20\d|47[02])|9(?:20\d|470))\d{4})|7(?:(?:0470|4(?:25\d|470)|5(?:202|470|96\d))\d{4}|1(?:20\d{4,5}|4(?:70|83)\d{4}))|8(?:1(?:2\d{5,6}|4(?:10|7[01]\d)\d{3})|2(?:2\d{5,6}|(?:320|490\d)\d{3})|(?:3(?:2\d\d|470)|4[24-7]|5(?:(?:2\d|51)\d|4(?:[1-35-9]\d|4[0-57-9]))|6[23])\d{4})|(?:1[2-6]\d|4(?:2[24-8]|3[2-7]|[46][2-6]|5[3-5])|5(?:[27][2-8]|3[2-68]|4[24-8]|5[23]|6[2-4]|8[24-7]|9[2-7])|6(?:[19]20|42[03-6]|(?:52|7[45])\d)|7(?:[04][24-8]|[15][2-7]|22|3[2-4])|8(?:1[2-689]|2[2-8]|(?:[35]2|64)\d))\d{4}|25\d{5,6}|(?:2[2-9]|6(?:1[2356]|[24][2-6]|3[24-6]|5[2-4]|6[2-8]|7[235-7]|8[245]|9[24])|8(?:3[24]|5[245]))\d{4}	6,7,8,9	5	1234567
D	mobile	1	(?:17[01]|9(?:2(?:[0-4]|[56]\d\d)|(?:3(?:[0-36]|4\d)|(?:6\d|8[89]|9[4-8])\d|7(?:3|40|[5-9]\d))\d|4(?:(?:[0245]\d|[1379])\d|88)|5[0-6])\d)\d{4}|9[69]1\d{6}|9(?:[68]\d|9[089])\d{5}	7,8,9,10		92123456
D	toll	1	80080(?:0[1-9]|2\d)\d{3}	10		8008001234
D	premium	0		-1		
D	shared	0		-1		
D	personal	0		-1		
D	voip	1	1333\d{4}	8		13331234
D	pager	0		-1		
D	uan	0		-1		
D	voicemail	0		-1		
D	nointl	0		-1		
F	(\d)(\d{2})(\d{3})	$1 $2 $3	0$1	0		16|2
F	(\d{2})(\d{2})(\d{3})	$1 $2 $3	0$1	0		4(?:[2-46]|5[3-5])|5|6(?:[1-689]|7[235-7])|7(?:[0-4]|5[2-7])|8[1-5]|(?:60|86)[23]
F	(\d)(\d{3})(\d{3,4})	$1 $2 $3	0$1	0		[12]|452|678|86	[12]|452|6788|86
F	(\d{2})(\d{3})(\d{3,4})	$1 $2 $3	0$1	0		[4-7]|8[1-35]
F	(\d)(\d{3})(\d{4,6})	$1 $2 $3	0$1	0		9(?:2[0-4]|[35-9]|4[137-9])
F	(\d)(\d{4})(\d{4})	$1 $2 $3	0$1	0		2
F	(\d{3})(\d{3})(\d{4})	$1 $2 $3	0$1	0		8
F	(\d)(\d{3})(\d{3})(\d{3})	$1 $2 $3 $4	0$1	0		92
F	(\d)(\d{5})(\d{4})	$1 $2 $3	0$1	0		9
R	MN	976	001		0		0		0	0		0
D	general	1	[12]\d{7,9}|[5-9]\d{7}	8,9,10	4,5,6	
D	fixed	1	[12](?:2[1-3]|(?:3[2-8]|4[2-68]|5[1-4689])\d)\d{5,6}|7(?:0(?:[0-5]\d|7[078]|80)|128)\d{4}|[12]27\d{6}|(?:11|2[16]|5[368])\d{6}		4,5,6	53123456
D	mobile	1	(?:87[01]|92[0139])\d{5}|(?:5[05]|6[069]|7[28]|8[0135689]|9[013-9])\d{6}	8		88123456
D	toll	0		-1		
D	premium	0		-1		
D	shared	0		-1		
D	personal	0		-1		
D	voip	1	712[0-79]\d{4}|7(?:1[013-9]|[5-79]\d)\d{5}	8		75123456
D	pager	0		-1		
D	uan	0		-1		
D	voicemail	0		-1		
D	nointl	0		-1		
F	(\d{2})(\d{2})(\d{4})	$1 $2 $3	0$1	0		11|2[16]
F	(\d{4})(\d{4})	$1 $2		0		[5-9]
F	(\d{3})(\d{5,6})	$1 $2	0$1	0		[12]2[1-3]
F	(\d{4})(\d{5,6})	$1 $2	0$1	0		[12](?:27|3[2-8]|4[2-68]|5[1-4689])	[12](?:27|3[2-8]|4[2-68]|5[1-4689])[0-3]
F	(\d{5})(\d{4,5})	$1 $2	0$1	0		[12]
R	MO	853	00						0	0		0
D	general	1	0800\d{3}|(?:28|[68]\d)\d{6}	7,8		
D	fixed	1	(?:28[2-9]|8(?:11|[2-57-9]\d))\d{5}	8		28212345
D	mobile	1	6800[0-79]\d{3}|6(?:[235]\d\d|6(?:0[0-5]|[1-9]\d)|8(?:0[1-9]|[14-8]\d|2[5-9]|[39][0-4]))\d{4}	8		66123456
D	toll	1	0800\d{3}	7		0800501
D	premium	0		-1		
D	shared	0		-1		
D	personal	0		-1		
D	voip	0		-1		
D	pager	0		-1		
D	uan	0		-1		
D	voicemail	0		-1		
D	nointl	0		-1		
F	(\d{4})(\d{3})	$1 $2		0		0
F	(\d{4})(\d{4})	$1 $2		0		[268]
R	MP	1	011		1		([2-9]\d{6})$|1	670$1	1	0	670	0
D	general	1	[58]\d{9}|(?:67|90)0\d{7}	10	7	
D	fixed	1	670(?:2(?:3[3-7]|56|8[4-8])|32[1-38]|4(?:33|8[348])|5(?:32|55|88)|6(?:64|70|82)|78[3589]|8[3-9]8|989)\d{4}		7	6702345678
D	mobile	1	670(?:2(?:3[3-7]|56|8[4-8])|32[1-38]|4(?:33|8[348])|5(?:32|55|88)|6(?:64|70|82)|78[3589]|8[3-9]8|989)\d{4}		7	6702345678
D	toll	1	8(?:00|33|44|55|66|77|88)[2-9]\d{6}			8002123456
D	premium	1	900[2-9]\d{6}			9002123456
D	shared	0		-1		
D	personal	1	52(?:3(?:[2-46-9][02-9]\d|5(?:[02-46-9]\d|5[0-46-9]))|4(?:[2-478][02-9]\d|5(?:[034]\d|2[024-9]|5[0-46-9])|6(?:0[1-9]|[2-9]\d)|9(?:[05-9]\d|2[0-5]|49)))\d{4}|52[34][2-9]1[02-9]\d{4}|5(?:00|2[125-9]|3[23]|44|66|77|88)[2-9]\d{6}			5002345678
D	voip	0		-1		
D	pager	0		-1		
D	uan	0		-1		
D	voicemail	0		-1		
D	nointl	0		-1		
R	MQ	596	00		0		0		0	0		1
D	general	1	7091\d{5}|(?:[56]9|[89]\d)\d{7}	9		
D	fixed	1	(?:59(?:6(?:[03-7]\d|1[05]|2[7-9]|8[0-39]|9[04-9])|89\d)|80[6-9]\d\d|9(?:477[6-9]|767[4589]))\d{4}			596301234
D	mobile	1	(?:69[67]\d\d|7091[0-3])\d{4}			696201234
D	toll	1	80[0-5]\d{6}			800012345
D	premium	1	8[129]\d{7}			810123456
D	shared	0		-1		
D	personal	0		-1		
D	voip	1	9(?:397[0-3]|477[0-5]|76(?:6\d|7[0-367]))\d{4}			976612345
D	pager	0		-1		
D	uan	0		-1		
D	voicemail	0		-1		
D	nointl	0		-1		
F	(\d{3})(\d{2})(\d{2})(\d{2})	$1 $2 $3 $4	0$1	0		[5-79]|8(?:0[6-9]|[36])
F	(\d{3})(\d{2})(\d{2})(\d{2})	$1 $2 $3 $4	0$1	0		8
R	MR	222	00						0	0		0
D	general	1	(?:[2-4]\d\d|800)\d{5}	8		
D	fixed	1	(?:25[08]|35\d|45[1-7])\d{5}			35123456
D	mobile	1	[2-4][0-46-9]\d{6}			22123456
D	toll	1	800\d{5}			80012345
D	premium	0		-1		
D	shared	0		-1		
D	personal	0		-1		
D	voip	0		-1		
D	pager	0		-1		
D	uan	0		-1		
D	voicemail	0		-1		
D	nointl	0		-1		
F	(\d{2})(\d{2})(\d{2})(\d{2})	$1 $2 $3 $4		0		[2-48]
R	MS	1	011		1		([34]\d{6})$|1	664$1	0	0	664	1
D	general	1	(?:[58]\d\d|664|900)\d{7}	10	7	
D	fixed	1	6644(?:1[0-3]|91)\d{4}		7	6644912345
D	mobile	1	664(?:3(?:49|9[1-6])|49[2-6])\d{4}		7	6644923456
D	toll	1	8(?:00|33|44|55|66|77|88)[2-9]\d{6}			8002123456
D	premium	1	900[2-9]\d{6}			9002123456
D	shared	0		-1		
D	personal	1	52(?:3(?:[2-46-9][02-9]\d|5(?:[02-46-9]\d|5[0-46-9]))|4(?:[2-478][02-9]\d|5(?:[034]\d|2[024-9]|5[0-46-9])|6(?:0[1-9]|[2-9]\d)|9(?:[05-9]\d|2[0-5]|49)))\d{4}|52[34][2-9]1[02-9]\d{4}|5(?:00|2[125-9]|3[23]|44|66|77|88)[2-9]\d{6}			5002345678
D	voip	0		-1		
D	pager	0		-1		
D	uan	0		-1		
D	voicemail	0		-1		
D	nointl	0		-1		
R	MT	356	00						0	0		1
D	general	1	3550\d{4}|(?:[2579]\d\d|800)\d{5}	8		
D	fixed	1	20(?:3[1-4]|6[059])\d{4}|2(?:0[19]|[1-357]\d|60)\d{5}			21001234
D	mobile	1	(?:7(?:210|[79]\d\d)|9(?:[29]\d\d|69[67]|8(?:1[1-3]|89|97)))\d{4}			96961234
D	toll	1	800(?:02|[3467]\d)\d{3}			80071234
D	premium	1	5(?:0(?:0(?:37|43)|(?:6\d|70|9[0168])\d)|[12]\d0[1-5])\d{3}			50037123
D	shared	0		-1		
D	personal	0		-1		
D	voip	1	3550\d{4}			35501234
D	pager	1	7117\d{4}			71171234
D	uan	1	501\d{5}			50112345
D	voicemail	0		-1		
D	nointl	0		-1		
F	(\d{4})(\d{4})	$1 $2		0		[2357-9]
R	MU	230	0(?:0|[24-7]0|3[03])	020					0	0		0
D	general	1	(?:[57]|8\d\d)\d{7}|[2-468]\d{6}	7,8,10		
D	fixed	1	(?:2(?:[0346-8]\d|1[0-8])|4(?:[013568]\d|2[0-24-8]|71|90)|54(?:[3-5]\d|71)|6\d\d|8(?:14|3[129]))\d{4}	7,8		54480123
D	mobile	1	5(?:4(?:2[1-389]|7[1-9])|87[15-8])\d{4}|(?:5(?:2[5-9]|4[3-689]|[57]\d|8[0-689]|9[0-8])|7(?:0[0-7]|3[013]))\d{5}	8		52512345
D	toll	1	802\d{7}|80[0-2]\d{4}	7,10		8001234
D	premium	1	30\d{5}	7		3012345
D	shared	0		-1		
D	personal	0		-1		
D	voip	1	3(?:20|9\d)\d{4}	7		3201234
D	pager	1	219\d{4}	7		2190123
D	uan	0		-1		
D	voicemail	0		-1		
D	nointl	0		-1		
F	(\d{3})(\d{4})	$1 $2		0		[2-46]|8[013]
F	(\d{4})(\d{4})	$1 $2		0		[57]
F	(\d{5})(\d{5})	$1 $2		0		8
R	MV	960	0(?:0|19)	00					0	0		0
D	general	1	(?:800|9[0-57-9]\d)\d{7}|[34679]\d{6}	7,10		
D	fixed	1	(?:3(?:0[0-4]|3[0-59])|6(?:[58][024689]|6[024-68]|7[02468]))\d{4}	7		6701234
D	mobile	1	(?:46[46]|[79]\d\d)\d{4}	7		7712345
D	toll	1	800\d{7}	10		8001234567
D	premium	1	900\d{7}	10		9001234567
D	shared	0		-1		
D	personal	0		-1		
D	voip	0		-1		
D	pager	0		-1		
D	uan	1	4(?:0[01]|50)\d{4}	7		4001234
D	voicemail	0		-1		
D	nointl	0		-1		
F	(\d{3})(\d{4})	$1-$2		0		[34679]
F	(\d{3})(\d{3})(\d{4})	$1 $2 $3		0		[89]
R	MW	265	00		0		0		0	0		0
D	general	1	(?:[1289]\d|31|77)\d{7}|1\d{6}	7,9		
D	fixed	1	1[2-9]\d{5}	7		1234567
D	mobile	1	111\d{6}|(?:2[12]|31|77|[89][89])\d{7}	9		991234567
D	toll	0		-1		
D	premium	0		-1		
D	shared	0		-1		
D	personal	0		-1		
D	voip	0		-1		
D	pager	0		-1		
D	uan	0		-1		
D	voicemail	0		-1		
D	nointl	0		-1		
F	(\d)(\d{3})(\d{3})	$1 $2 $3	0$1	0		1[2-9]
F	(\d{3})(\d{2})(\d{2})(\d{2})	$1 $2 $3 $4	0$1	0		[1-37-9]
R	MX	52	0[09]	00					0	0		1
D	general	1	[2-9]\d{9}	10	7,8	
D	fixed	1	(?:2(?:0[01]|2\d|3[1-35-8]|4[13-9]|7[1-689]|8[1-578]|9[467])|3(?:1[1-79]|[2458][1-9]|3\d|7[1-8]|9[1-5])|4(?:1[1-57-9]|[267][1-9]|3[1-8]|[45]\d|8[1-35-9]|9[2-689])|5(?:[56]\d|88|9[1-79])|6(?:1[2-68]|[2-4][1-9]|5[1-36-9]|6[0-57-9]|7[1-7]|8[67]|9[4-8])|7(?:[1346][1-9]|[27]\d|5[13-9]|8[1-69]|9[17])|8(?:1\d|2[13-689]|3[1-6]|4[124-6]|6[1246-9]|7[0-378]|9[12479])|9(?:1[346-9]|2[1-4]|3[2-46-8]|5[1348]|[69]\d|7[12]|8[1-8]))\d{7}		7,8	2001234567
D	mobile	1	(?:2(?:2\d|3[1-35-8]|4[13-9]|7[1-689]|8[1-578]|9[467])|3(?:1[1-79]|[2458][1-9]|3\d|7[1-8]|9[1-5])|4(?:1[1-57-9]|[267][1-9]|3[1-8]|[45]\d|8[1-35-9]|9[2-689])|5(?:[56]\d|88|9[1-79])|6(?:1[2-68]|[2-4][1-9]|5[1-36-9]|6[0-57-9]|7[1-7]|8[67]|9[4-8])|7(?:[1346][1-9]|[27]\d|5[13-9]|8[1-69]|9[17])|8(?:1\d|2[13-689]|3[1-6]|4[124-6]|6[1246-9]|7[0-378]|9[12479])|9(?:1[346-9]|2[1-4]|3[2-46-8]|5[1348]|[69]\d|7[12]|8[1-8]))\d{7}		7,8	2221234567
D	toll	1	8(?:00|88)\d{7}			8001234567
D	premium	1	900\d{7}			9001234567
D	shared	1	300\d{7}			3001234567
D	personal	1	500\d{7}			5001234567
D	voip	0		-1		
D	pager	0		-1		
D	uan	0		-1		
D	voicemail	0		-1		
D	nointl	0		-1		
F	(\d{5})	$1		0		53
F	(\d{2})(\d{4})(\d{4})	$1 $2 $3		0		33|5[56]|81
F	(\d{3})(\d{3})(\d{4})	$1 $2 $3		0		[2-9]
I	(\d{2})(\d{4})(\d{4})	$1 $2 $3		0		33|5[56]|81
I	(\d{3})(\d{3})(\d{4})	$1 $2 $3		0		[2-9]
R	MY	60	00		0		0		0	0		1
D	general	1	1\d{8,9}|(?:3\d|[4-9])\d{7}	8,9,10	6,7	
D	fixed	1	427[01]\d{4}|(?:3(?:2[0-36-9]|3[0-368]|4[0-278]|5[0-24-8]|6[0-467]|7[1246-9]|8\d|9[0-57])\d|4(?:2[0-689]|[3-79]\d|8[1-35689])|5(?:2[0-589]|[3468]\d|5[0-489]|7[1-9]|9[23])|6(?:2[2-9]|3[1357-9]|[46]\d|5[0-6]|7[0-35-9]|85|9[015-8])|7(?:[2579]\d|3[03-68]|4[0-8]|6[5-9]|8[0-35-9])|8(?:[24][2-8]|3[2-5]|5[2-7]|6[2-589]|7[2-578]|[89][2-9])|9(?:0[57]|13|[25-7]\d|[3489][0-8]))\d{5}	8,9	6,7	323856789
D	mobile	1	1(?:(?:1888[689]|4400|8(?:47|8[27])[0-4])\d{4}|9\d{7,8})|1(?:0(?:[23568]\d|4[0-6]|7[016-9]|9[0-8])|1(?:[1-5]\d\d|6(?:0[5-9]|[1-9]\d)|7(?:[0-4]\d|5[0-79]|6[02-4]|8[02-5]))|(?:[26]\d|[37][1-9]|4[235-9])\d|5(?:31|9\d\d)|8(?:1[23]|[236]\d|4[06]|5(?:46|[7-9])|7[016-9]|8[01]|9[0-8]))\d{5}	9,10		123456789
D	toll	1	1[378]00\d{6}	10		1300123456
D	premium	1	1600\d{6}	10		1600123456
D	shared	0		-1		
D	personal	0		-1		
D	voip	1	15(?:4(?:6[0-4]\d|8(?:0[125]|[17]\d|21|3[01]|4[01589]|5[014]|6[02]))|6(?:32[0-6]|78\d))\d{4}	10		1546012345
D	pager	0		-1		
D	uan	0		-1		
D	voicemail	0		-1		
D	nointl	0		-1		
F	(\d)(\d{3})(\d{4})	$1-$2 $3	0$1	0		[4-79]
F	(\d{2})(\d{3})(\d{3,4})	$1-$2 $3	0$1	0		1(?:[02469]|[378][1-9]|53)|8	1(?:[02469]|[37][1-9]|53|8(?:[1-46-9]|5[7-9]))|8
F	(\d)(\d{4})(\d{4})	$1-$2 $3	0$1	0		3
F	(\d)(\d{3})(\d{2})(\d{4})	$1-$2-$3-$4		0		1(?:[367]|80)
F	(\d{3})(\d{3})(\d{4})	$1-$2 $3	0$1	0		15
F	(\d{2})(\d{4})(\d{4})	$1-$2 $3	0$1	0		1
R	MZ	258	00						0	0		0
D	general	1	(?:2|8\d)\d{7}	8,9		
D	fixed	1	2(?:[1346]\d|5[0-2]|[78][12]|93)\d{5}	8		21123456
D	mobile	1	8[2-9]\d{7}	9		821234567
D	toll	1	800\d{6}	9		800123456
D	premium	0		-1		
D	shared	0		-1		
D	personal	0		-1		
D	voip	0		-1		
D	pager	0		-1		
D	uan	0		-1		
D	voicemail	0		-1		
D	nointl	0		-1		
F	(\d{2})(\d{3})(\d{3,4})	$1 $2 $3		0		2|8[2-9]
F	(\d{3})(\d{3})(\d{3})	$1 $2 $3		0		8
R	NA	264	00		0		0		0	0		0
D	general	1	[68]\d{7,8}	8,9		
D	fixed	1	64426\d{3}|6(?:1(?:2[2-7]|3[01378]|4[0-4])|254|32[0237]|4(?:27|41|5[25])|52[236-8]|626|7(?:2[2-4]|30))\d{4,5}|6(?:1(?:(?:0\d|2[0189]|3[24-69]|4[5-9])\d|17|69|7[014])|2(?:17|5[0-36-8]|69|70)|3(?:17|2[14-689]|34|6[289]|7[01]|81)|4(?:17|2[0-2]|4[06]|5[0137]|69|7[01])|5(?:17|2[0459]|69|7[01])|6(?:17|25|38|42|69|7[01])|7(?:17|2[569]|3[13]|6[89]|7[01]))\d{4}			61221234
D	mobile	1	(?:60|8[1245])\d{7}	9		811234567
D	toll	1	80\d{7}	9		800123456
D	premium	1	8701\d{5}	9		870123456
D	shared	0		-1		
D	personal	0		-1		
D	voip	1	8(?:3\d\d|86)\d{5}			88612345
D	pager	0		-1		
D	uan	0		-1		
D	voicemail	0		-1		
D	nointl	0		-1		
F	(\d{2})(\d{3})(\d{3})	$1 $2 $3	0$1	0		88
F	(\d{2})(\d{3})(\d{3,4})	$1 $2 $3	0$1	0		6
F	(\d{3})(\d{3})(\d{3})	$1 $2 $3	0$1	0		87
F	(\d{2})(\d{3})(\d{4})	$1 $2 $3	0$1	0		8
R	NC	687	00						0	0		0
D	general	1	(?:050|[2-57-9]\d\d)\d{3}	6		
D	fixed	1	(?:2[03-9]|3[0-5]|4[1-7]|88)\d{4}			201234
D	mobile	1	(?:[579]\d|8[0-79])\d{4}			751234
D	toll	1	050\d{3}			050012
D	premium	1	36\d{4}			366711
D	shared	0		-1		
D	personal	0		-1		
D	voip	0		-1		
D	pager	0		-1		
D	uan	0		-1		
D	voicemail	0		-1		
D	nointl	0		-1		
F	(\d{3})	$1		0		5[6-8]
F	(\d{2})(\d{2})(\d{2})	$1.$2.$3		0		[02-57-9]
I	(\d{2})(\d{2})(\d{2})	$1.$2.$3		0		[02-57-9]
R	NE	227	00						0	0		0
D	general	1	[027-9]\d{7}	8		
D	fixed	1	2(?:0(?:20|3[1-8]|4[13-5]|5[14]|6[14578]|7[1-578])|1(?:4[145]|5[14]|6[14-68]|7[169]|88))\d{4}			20201234
D	mobile	1	(?:23|7[0467]|[89]\d)\d{6}			93123456
D	toll	1	08\d{6}			08123456
D	premium	1	09\d{6}			09123456
D	shared	0		-1		
D	personal	0		-1		
D	voip	0		-1		
D	pager	0		-1		
D	uan	0		-1		
D	voicemail	0		-1		
D	nointl	0		-1		
F	(\d{2})(\d{3})(\d{3})	$1 $2 $3		0		08
F	(\d{2})(\d{2})(\d{2})(\d{2})	$1 $2 $3 $4		0		[089]|2[013]|7[0467]
R	NF	672	00				([0-258]\d{4})$	3$1	0	0		0
D	general	1	[13]\d{5}	6	5	
D	fixed	1	(?:1(?:06|17|28|39)|3[0-2]\d)\d{3}		5	106609
D	mobile	1	(?:14|3[58])\d{4}		5	381234
D	toll	0		-1		
D	premium	0		-1		
D	shared	0		-1		
D	personal	0		-1		
D	voip	0		-1		
D	pager	0		-1		
D	uan	0		-1		
D	voicemail	0		-1		
D	nointl	0		-1		
F	(\d{2})(\d{4})	$1 $2		0		1[0-3]
F	(\d)(\d{5})	$1 $2		0		[13]
R	NG	234	009		0		0		0	0		1
D	general	1	(?:20|9\d)\d{8}|[78]\d{9,13}	10,11,12,13,14	6,7	
D	fixed	1	20(?:[1259]\d|3[013-9]|4[1-8]|6[024-689]|7[1-79]|8[2-9])\d{6}	10	6,7	2033123456
D	mobile	1	(?:702[0-24-9]|819[01])\d{6}|(?:7(?:0[13-9]|[12]\d)|8(?:0[1-9]|1[0-8])|9(?:0[1-9]|1[1-6]))\d{7}	10		8021234567
D	toll	1	800\d{7,11}			80017591759
D	premium	0		-1		
D	shared	0		-1		
D	personal	0		-1		
D	voip	0		-1		
D	pager	0		-1		
D	uan	1	700\d{7,11}			7001234567
D	voicemail	0		-1		
D	nointl	0		-1		
F	(\d{3})(\d{3})(\d{3,4})	$1 $2 $3	0$1	0		[7-9]
F	(\d{3})(\d{3})(\d{4})	$1 $2 $3	0$1	0		20[129]
F	(\d{4})(\d{2})(\d{4})	$1 $2 $3	0$1	0		2
F	(\d{3})(\d{4})(\d{4,5})	$1 $2 $3	0$1	0		[78]
F	(\d{3})(\d{5})(\d{5,6})	$1 $2 $3	0$1	0		[78]
R	NI	505	00						0	0		0
D	general	1	(?:1800|[25-8]\d{3})\d{4}	8		
D	fixed	1	2\d{7}			21234567
D	mobile	1	(?:5(?:5[0-7]|[78]\d)|6(?:20|3[035]|4[045]|5[05]|77|8[1-9]|9[059])|(?:7[5-8]|8\d)\d)\d{5}			81234567
D	toll	1	1800\d{4}			18001234
D	premium	0		-1		
D	shared	0		-1		
D	personal	0		-1		
D	voip	0		-1		
D	pager	0		-1		
D	uan	0		-1		
D	voicemail	0		-1		
D	nointl	0		-1		
F	(\d{4})(\d{4})	$1 $2		0		[125-8]
R	NL	31	00		0		0		0	0		1
D	general	1	(?:[124-7]\d\d|3(?:[02-9]\d|1[0-8]))\d{6}|8\d{6,9}|9\d{6,10}|1\d{4,5}	5,6,7,8,9,10,11		
D	fixed	1	(?:1(?:[035]\d|1[13-578]|6[124-8]|7[24]|8[0-467])|2(?:[0346]\d|2[2-46-9]|5[125]|9[479])|3(?:[03568]\d|1[3-8]|2[01]|4[1-8])|4(?:[0356]\d|1[1-368]|7[58]|8[15-8]|9[23579])|5(?:[0358]\d|[19][1-9]|2[1-57-9]|4[13-8]|6[126]|7[0-3578])|7\d\d)\d{6}	9		101234567
D	mobile	1	(?:6[1-58]|970\d)\d{7}	9,11		612345678
D	toll	1	800\d{4,7}	7,8,9,10		8001234
D	premium	1	90[069]\d{4,7}	7,8,9,10		9061234
D	shared	0		-1		
D	personal	0		-1		
D	voip	1	(?:85|91)\d{7}	9		851234567
D	pager	1	66\d{7}	9		662345678
D	uan	1	140(?:1[035]|2[0346]|3[03568]|4[0356]|5[0358]|8[458])|(?:140(?:1[16-8]|2[259]|3[124]|4[17-9]|5[124679]|7)|8[478]\d{6})\d	5,6,9		14020
D	voicemail	0		-1		
D	nointl	1	140(?:1[035]|2[0346]|3[03568]|4[0356]|5[0358]|8[458])|140(?:1[16-8]|2[259]|3[124]|4[17-9]|5[124679]|7)\d	5,6		
F	(\d{4})	$1		0		1[238]|[34]
F	(\d{2})(\d{3,4})	$1 $2		0		14
F	(\d{6})	$1		0		1
F	(\d{3})(\d{4,7})	$1 $2	0$1	0		[89]0
F	(\d{2})(\d{7})	$1 $2	0$1	0		66
F	(\d)(\d{8})	$1 $2	0$1	0		6
F	(\d{3})(\d{3})(\d{3})	$1 $2 $3	0$1	0		1[16-8]|2[259]|3[124]|4[17-9]|5[124679]
F	(\d{2})(\d{3})(\d{4})	$1 $2 $3	0$1	0		[1-578]|91
F	(\d{3})(\d{3})(\d{5})	$1 $2 $3	0$1	0		9
I	(\d{3})(\d{4,7})	$1 $2	0$1	0		[89]0
I	(\d{2})(\d{7})	$1 $2	0$1	0		66
I	(\d)(\d{8})	$1 $2	0$1	0		6
I	(\d{3})(\d{3})(\d{3})	$1 $2 $3	0$1	0		1[16-8]|2[259]|3[124]|4[17-9]|5[124679]
I	(\d{2})(\d{3})(\d{4})	$1 $2 $3	0$1	0		[1-578]|91
I	(\d{3})(\d{3})(\d{5})	$1 $2 $3	0$1	0		9
R	NO	47	00						0	1	[02-689]|7[0-8]	1
D	general	1	(?:0|[2-9]\d{3})\d{4}	5,8		
D	fixed	1	(?:2[1-4]|3[1-3578]|5[1-35-7]|6[1-46-9]|7[0-8])\d{6}	8		21234567
D	mobile	1	45(?:[0-24-9]\d|3[0-57-9])\d{4}|(?:4[016-8]|9\d)\d{6}	8		40612345
D	toll	1	80[01]\d{5}	8		80012345
D	premium	1	82[09]\d{5}	8		82012345
D	shared	1	810(?:0[0-6]|[2-8]\d)\d{3}	8		81021234
D	personal	1	880\d{5}	8		88012345
D	voip	1	85[0-5]\d{5}	8		85012345
D	pager	0		-1		
D	uan	1	(?:0[235-9]|81(?:0(?:0[7-9]|1\d)|5\d\d))\d{3}			02000
D	voicemail	1	81[23]\d{5}	8		81212345
D	nointl	0		-1		
F	(\d{3})(\d{2})(\d{3})	$1 $2 $3		0		8
F	(\d{2})(\d{2})(\d{2})(\d{2})	$1 $2 $3 $4		0		[2-79]
R	NP	977	00		0		0		0	0		0
D	general	1	(?:1\d|9)\d{9}|[1-9]\d{7}	8,10,11	6,7	
D	fixed	1	(?:1[0-6]\d|99[02-6])\d{5}|(?:2[13-79]|3[135-8]|4[146-9]|5[135-7]|6[13-9]|7[15-9]|8[1-46-9]|9[1-7])[2-6]\d{5}	8	6,7	14567890
D	mobile	1	9(?:00|6[0-3]|7[0-24-6]|8[0-24-68])\d{7}	10		9841234567
D	toll	1	1(?:66001|800\d\d)\d{5}	11		16600101234
D	premium	0		-1		
D	shared	0		-1		
D	personal	0		-1		
D	voip	0		-1		
D	pager	0		-1		
D	uan	0		-1		
D	voicemail	0		-1		
D	nointl	0		-1		
F	(\d)(\d{7})	$1-$2	0$1	0		1[2-6]
F	(\d{2})(\d{6})	$1-$2	0$1	0		1[01]|[2-8]|9(?:[1-59]|[67][2-6])
F	(\d{3})(\d{7})	$1-$2		0		9
F	(\d{4})(\d{2})(\d{5})	$1-$2-$3		0		1
I	(\d)(\d{7})	$1-$2	0$1	0		1[2-6]
I	(\d{2})(\d{6})	$1-$2	0$1	0		1[01]|[2-8]|9(?:[1-59]|[67][2-6])
I	(\d{3})(\d{7})	$1-$2		0		9
R	NR	674	00						0	0		0
D	general	1	(?:222|444|(?:55|8\d)\d|666|777|999)\d{4}	7		
D	fixed	1	444\d{4}			4441234
D	mobile	1	(?:222|55[3-9]|666|777|8\d\d|999)\d{4}			5551234
D	toll	0		-1		
D	premium	0		-1		
D	shared	0		-1		
D	personal	0		-1		
D	voip	0		-1		
D	pager	0		-1		
D	uan	0		-1		
D	voicemail	0		-1		
D	nointl	0		-1		
F	(\d{3})(\d{4})	$1 $2		0		[24-9]
R	NU	683	00						0	0		0
D	general	1	(?:[4-7]|888\d)\d{3}	4,7		
D	fixed	1	[47]\d{3}	4		7012
D	mobile	1	(?:[56]|888[1-9])\d{3}			8884012
D	toll	0		-1		
D	premium	0		-1		
D	shared	0		-1		
D	personal	0		-1		
D	voip	0		-1		
D	pager	0		-1		
D	uan	0		-1		
D	voicemail	0		-1		
D	nointl	0		-1		
F	(\d{3})(\d{4})	$1 $2		0		8
R	NZ	64	0(?:0|161)	00	0		0		0	0		1
D	general	1	[1289]\d{9}|50\d{5}(?:\d{2,3})?|[27-9]\d{7,8}|(?:[34]\d|6[0-35-9])\d{6}|8\d{4,6}	5,6,7,8,9,10		
D	fixed	1	240\d{5}|(?:3[2-79]|[49][2-9]|6[235-9]|7[2-57-9])\d{6}	8	7	32345678
D	mobile	1	2(?:[0-27-9]\d|6)\d{6,7}|2(?:1\d|75)\d{5}	8,9,10		211234567
D	toll	1	508\d{6,7}|80\d{6,8}	8,9,10		800123456
D	premium	1	(?:1[13-57-9]\d{5}|50(?:0[08]|30|66|77|88))\d{3}|90\d{6,8}	7,8,9,10		900123456
D	shared	0		-1		
D	personal	1	70\d{7}	9		701234567
D	voip	0		-1		
D	pager	0		-1		
D	uan	1	8(?:1[16-9]|22|3\d|4[045]|5[459]|6[235-9]|7[0-3579]|90)\d{2,7}			83012378
D	voicemail	0		-1		
D	nointl	0		-1		
F	(\d{2})(\d{3,8})	$1 $2	0$1	0		8[1-79]
F	(\d{3})(\d{2})(\d{2,3})	$1 $2 $3	0$1	0		50[036-8]|8|90	50(?:[0367]|88)|8|90
F	(\d)(\d{3})(\d{4})	$1 $2 $3	0$1	0		24|[346]|7[2-57-9]|9[2-9]
F	(\d{3})(\d{3})(\d{3,4})	$1 $2 $3	0$1	0		2(?:10|74)|[589]
F	(\d{2})(\d{3,4})(\d{4})	$1 $2 $3	0$1	0		1|2[028]
F	(\d{2})(\d{3})(\d{3,5})	$1 $2 $3	0$1	0		2(?:[169]|7[0-35-9])|7
R	OM	968	00						0	0		1
D	general	1	(?:1505|[279]\d{3}|500)\d{4}|800\d{5,6}	7,8,9		
D	fixed	1	2[1-6]\d{6}	8		23123456
D	mobile	1	(?:1505|90[1-9]\d)\d{4}|(?:7[124-9]|9[1-9])\d{6}	8		92123456
D	toll	1	8007\d{4,5}|(?:500|800[05])\d{4}			80071234
D	premium	1	900\d{5}	8		90012345
D	shared	0		-1		
D	personal	0		-1		
D	voip	0		-1		
D	pager	0		-1		
D	uan	0		-1		
D	voicemail	0		-1		
D	nointl	0		-1		
F	(\d{3})(\d{4,6})	$1 $2		0		[58]
F	(\d{2})(\d{6})	$1 $2		0		2
F	(\d{4})(\d{4})	$1 $2		0		[179]
R	PA	507	00						0	0		1
D	general	1	(?:00800|8\d{3})\d{6}|[68]\d{7}|[1-57-9]\d{6}	7,8,10,11		
D	fixed	1	(?:1(?:0\d|1[0479]|2[37]|3[0137]|4[147]|5[05]|6[058]|7[0167]|8[2358]|9[1389])|2(?:[0235-79]\d|1[0-7]|4[013-9]|8[02-9])|3(?:[0147-9]\d|[25][0-5]|33|6[068])|4(?:00|3[0-579]|4\d|7[0-57-9])|5(?:[01]\d|2[0-7]|[56]0|79)|7(?:0[09]|2[0-26-8]|3[03]|4[04]|5[05-9]|6[0156]|7[0-24-9]|8[4-9]|90)|8(?:09|2[89]|3\d|4[0-24-689]|5[014]|8[02])|9(?:0[5-9]|1[0135-8]|2[036-9]|3[35-79]|40|5[0457-9]|6[05-9]|7[04-9]|8[35-8]|9\d))\d{4}	7		2001234
D	mobile	1	(?:1[16]1|21[89]|6\d{3}|8(?:1[01]|7[23]))\d{4}	7,8		61234567
D	toll	1	800\d{4,5}|(?:00800|800\d)\d{6}			8001234
D	premium	1	(?:8(?:22|55|60|7[78]|86)|9(?:00|81))\d{4}	7		8601234
D	shared	0		-1		
D	personal	0		-1		
D	voip	0		-1		
D	pager	0		-1		
D	uan	0		-1		
D	voicemail	0		-1		
D	nointl	0		-1		
F	(\d{3})(\d{4})	$1-$2		0		[1-57-9]
F	(\d{4})(\d{4})	$1-$2		0		[68]
F	(\d{3})(\d{3})(\d{4})	$1 $2 $3		0		8
R	PE	51	00|19(?:1[124]|77|90)00	00	0	 Anexo 	0		0	0		1
D	general	1	(?:[14-8]|9\d)\d{7}	8,9	6,7	
D	fixed	1	(?:(?:19[02-68]|(?:4[34]|5[14])[0-8]|687)\d|7(?:173|(?:3[0-8]|55)\d)|8(?:10[05689]|6(?:0[06-9]|1[6-9]|29)|7(?:0[0569]|[56]0)))\d{4}|(?:1[0-8]|4[12]|5[236]|6[1-7]|7[246]|8[2-4])\d{6}	8	6,7	11234567
D	mobile	1	9\d{8}	9		912345678
D	toll	1	800\d{5}	8		80012345
D	premium	1	805\d{5}	8		80512345
D	shared	1	801\d{5}	8		80112345
D	personal	1	80[24]\d{5}	8		80212345
D	voip	0		-1		
D	pager	0		-1		
D	uan	0		-1		
D	voicemail	0		-1		
D	nointl	0		-1		
F	(\d{3})(\d{5})	$1 $2	(0$1)	0		80
F	(\d)(\d{7})	$1 $2	(0$1)	0		1
F	(\d{2})(\d{6})	$1 $2	(0$1)	0		[4-8]
F	(\d{3})(\d{3})(\d{3})	$1 $2 $3		0		9
R	PF	689	00						0	0		0
D	general	1	4\d{5}(?:\d{2})?|8\d{7,8}	6,8,9		
D	fixed	1	4(?:0[4-689]|9[4-68])\d{5}	8		40412345
D	mobile	1	8[7-9]\d{6}	8		87123456
D	toll	1	80[0-5]\d{6}	9		800012345
D	premium	0		-1		
D	shared	0		-1		
D	personal	0		-1		
D	voip	1	499\d{5}	8		49901234
D	pager	0		-1		
D	uan	1	44\d{4}	6		440123
D	voicemail	0		-1		
D	nointl	1	44\d{4}	6		
F	(\d{2})(\d{2})(\d{2})	$1 $2 $3		0		44
F	(\d{2})(\d{2})(\d{2})(\d{2})	$1 $2 $3 $4		0		4|8[7-9]
F	(\d{3})(\d{2})(\d{2})(\d{2})	$1 $2 $3 $4		0		8
R	PG	675	00|140[1-3]	00					0	0		0
D	general	1	(?:180|[78]\d{3})\d{4}|(?:[2-589]\d|64)\d{5}	7,8		
D	fixed	1	(?:(?:3[0-2]|4[257]|5[34]|9[78])\d|64[1-9]|85[02-46-9])\d{4}	7		3123456
D	mobile	1	(?:7\d|8[1-48])\d{6}	8		70123456
D	toll	1	180\d{4}	7		1801234
D	premium	0		-1		
D	shared	0		-1		
D	personal	0		-1		
D	voip	1	2(?:0[0-57]|7[568])\d{4}	7		2751234
D	pager	1	27[01]\d{4}	7		2700123
D	uan	0		-1		
D	voicemail	0		-1		
D	nointl	0		-1		
F	(\d{3})(\d{4})	$1 $2		0		18|[2-69]|85
F	(\d{4})(\d{4})	$1 $2		0		[78]
R	PH	63	00		0		0		0	0		0
D	general	1	(?:[2-7]|9\d)\d{8}|2\d{5}|(?:1800|8)\d{7,9}	6,8,9,10,11,12,13	4,5,7	
D	fixed	1	(?:(?:2[3-8]|3[2-68]|4[2-9]|5[2-6]|6[2-58]|7[24578])\d{3}|88(?:22\d\d|42))\d{4}|(?:2|8[2-8]\d\d)\d{5}	6,8,9,10	4,5,7	232345678
D	mobile	1	(?:8(?:1[37]|9[5-8])|9(?:0[5-9]|1[0-24-9]|[235-7]\d|4[2-9]|8[135-9]|9[1-9]))\d{7}	10		9051234567
D	toll	1	1800\d{7,9}	11,12,13		180012345678
D	premium	0		-1		
D	shared	0		-1		
D	personal	0		-1		
D	voip	0		-1		
D	pager	0		-1		
D	uan	0		-1		
D	voicemail	0		-1		
D	nointl	0		-1		
F	(\d)(\d{5})	$1 $2	(0$1)	0		2
F	(\d{4})(\d{4,6})	$1 $2	(0$1)	0		3(?:23|39|46)|4(?:2[3-6]|[35]9|4[26]|76)|544|88[245]|(?:52|64|86)2	3(?:230|397|461)|4(?:2(?:35|[46]4|51)|396|4(?:22|63)|59[347]|76[15])|5(?:221|446)|642[23]|8(?:622|8(?:[24]2|5[13]))
F	(\d{5})(\d{4})	$1 $2	(0$1)	0		346|4(?:27|9[35])|883	3469|4(?:279|9(?:30|56))|8834
F	(\d)(\d{4})(\d{4})	$1 $2 $3	(0$1)	0		2
F	(\d{2})(\d{3})(\d{4})	$1 $2 $3	(0$1)	0		[3-7]|8[2-8]
F	(\d{3})(\d{3})(\d{4})	$1 $2 $3	0$1	0		[89]
F	(\d{4})(\d{3})(\d{4})	$1 $2 $3		0		1
F	(\d{4})(\d{1,2})(\d{3})(\d{4})	$1 $2 $3 $4		0		1
R	PK	92	00		0		0		0	0		1
D	general	1	122\d{6}|[24-8]\d{10,11}|9(?:[013-9]\d{8,10}|2(?:[01]\d\d|2(?:[06-8]\d|1[01]))\d{7})|(?:[2-8]\d{3}|92(?:[0-7]\d|8[1-9]))\d{6}|[24-9]\d{8}|[89]\d{7}	8,9,10,11,12	5,6,7	
D	fixed	1	(?:(?:21|42)[2-9]|58[126])\d{7}|(?:2[25]|4[0146-9]|5[1-35-7]|6[1-8]|7[14]|8[16]|91)[2-9]\d{6,7}|(?:2(?:3[2358]|4[2-4]|9[2-8])|45[3479]|54[2-467]|60[468]|72[236]|8(?:2[2-689]|3[23578]|4[3478]|5[2356])|9(?:2[2-8]|3[27-9]|4[2-6]|6[3569]|9[25-8]))[2-9]\d{5,6}	9,10	5,6,7,8	2123456789
D	mobile	1	3(?:[0-247]\d|3[0-79]|55|64)\d{7}	10		3012345678
D	toll	1	800\d{5}(?:\d{3})?	8,11		80012345
D	premium	1	900\d{5}	8		90012345
D	shared	0		-1		
D	personal	1	122\d{6}	9		122044444
D	voip	0		-1		
D	pager	0		-1		
D	uan	1	(?:2(?:[125]|3[2358]|4[2-4]|9[2-8])|4(?:[0-246-9]|5[3479])|5(?:[1-35-7]|4[2-467])|6(?:0[468]|[1-8])|7(?:[14]|2[236])|8(?:[16]|2[2-689]|3[23578]|4[3478]|5[2356])|9(?:1|22|3[27-9]|4[2-6]|6[3569]|9[2-7]))111\d{6}	11,12		21111825888
D	voicemail	0		-1		
D	nointl	0		-1		
F	(\d{3})(\d{3})(\d{2,7})	$1 $2 $3	0$1	0		[89]0
F	(\d{4})(\d{5})	$1 $2		0		1
F	(\d{3})(\d{6,7})	$1 $2	(0$1)	0		2(?:3[2358]|4[2-4]|9[2-8])|45[3479]|54[2-467]|60[468]|72[236]|8(?:2[2-689]|3[23578]|4[3478]|5[2356])|9(?:2[2-8]|3[27-9]|4[2-6]|6[3569]|9[25-8])	9(?:2[3-8]|98)|(?:2(?:3[2358]|4[2-4]|9[2-8])|45[3479]|54[2-467]|60[468]|72[236]|8(?:2[2-689]|3[23578]|4[3478]|5[2356])|9(?:22|3[27-9]|4[2-6]|6[3569]|9[25-7]))[2-9]
F	(\d{2})(\d{7,8})	$1 $2	(0$1)	0		(?:2[125]|4[0-246-9]|5[1-35-7]|6[1-8]|7[14]|8[16]|91)[2-9]
F	(\d{5})(\d{5})	$1 $2	(0$1)	0		58
F	(\d{3})(\d{7})	$1 $2	0$1	0		3
F	(\d{2})(\d{3})(\d{3})(\d{3})	$1 $2 $3 $4	(0$1)	0		2[125]|4[0-246-9]|5[1-35-7]|6[1-8]|7[14]|8[16]|91
F	(\d{3})(\d{3})(\d{3})(\d{3})	$1 $2 $3 $4	(0$1)	0		[24-9]
R	PL	48	00						0	0		1
D	general	1	(?:6|8\d\d)\d{7}|[1-9]\d{6}(?:\d{2})?|[26]\d{5}	6,7,8,9,10		
D	fixed	1	(?:30|47\d\d)\d{5}|(?:1[2-8]|2[2-69]|3[2-4]|4[1-468]|5[24-689]|6[1-3578]|7[14-7]|8[1-79]|9[145])(?:[02-9]\d{6}|1(?:[0-8]\d{5}|9\d{3}(?:\d{2})?))	7,9		123456789
D	mobile	1	21(?:1[013-5]|2\d|3[1-9])\d{5}|(?:45|5[0137]|6[069]|7[2389]|88)\d{7}	9		512345678
D	toll	1	800\d{6,7}	9,10		800123456
D	premium	1	70[01346-8]\d{6}	9		701234567
D	shared	1	801\d{6}	9		801234567
D	personal	0		-1		
D	voip	1	39\d{7}	9		391234567
D	pager	1	64\d{4,7}	6,7,8,9		641234567
D	uan	1	804\d{6}	9		804123456
D	voicemail	0		-1		
D	nointl	0		-1		
F	(\d{5})	$1		0		19
F	(\d{3})(\d{3})	$1 $2		0		11|20|64
F	(\d{2})(\d{2})(\d{3})	$1 $2 $3		0		30|(?:1[2-8]|2[2-69]|3[2-4]|4[1-468]|5[24-689]|6[1-3578]|7[14-7]|8[1-79]|9[145])1	30|(?:1[2-8]|2[2-69]|3[2-4]|4[1-468]|5[24-689]|6[1-3578]|7[14-7]|8[1-79]|9[145])19
F	(\d{3})(\d{2})(\d{2,3})	$1 $2 $3		0		64
F	(\d{3})(\d{3})(\d{3})	$1 $2 $3		0		21|39|45|5[0137]|6[0469]|7[02389]|8(?:0[14]|8)
F	(\d{2})(\d{3})(\d{2})(\d{2})	$1 $2 $3 $4		0		1[2-8]|[2-7]|8[1-79]|9[145]
F	(\d{3})(\d{3})(\d{3,4})	$1 $2 $3		0		8
R	PM	508	00		0		0		0	0		0
D	general	1	[78]\d{8}|[2-9]\d{5}	6,9		
D	fixed	1	80[6-9]\d{6}|(?:[236-9]\d|4[1-35-9]|5[0-47-9])\d{4}			430123
D	mobile	1	708(?:4[0-5]|5[0-6])\d{4}|(?:[236-9]\d|4[02-489]|5[02-9])\d{4}			551234
D	toll	1	80[0-5]\d{6}	9		800012345
D	premium	1	8[129]\d{7}	9		810123456
D	shared	0		-1		
D	personal	0		-1		
D	voip	0		-1		
D	pager	0		-1		
D	uan	0		-1		
D	voicemail	0		-1		
D	nointl	0		-1		
F	(\d{2})(\d{2})(\d{2})	$1 $2 $3	0$1	0		[2-9]
F	(\d{3})(\d{3})(\d{3})	$1 $2 $3		0		7
F	(\d{3})(\d{2})(\d{2})(\d{2})	$1 $2 $3 $4	0$1	0		8
R	PR	1	011		1		1		1	0	787|939	1
D	general	1	(?:[589]\d\d|787)\d{7}	10	7	
D	fixed	1	(?:787|939)[2-9]\d{6}		7	7872345678
D	mobile	1	(?:787|939)[2-9]\d{6}		7	7872345678
D	toll	1	8(?:00|33|44|55|66|77|88)[2-9]\d{6}			8002345678
D	premium	1	900[2-9]\d{6}			9002345678
D	shared	0		-1		
D	personal	1	52(?:3(?:[2-46-9][02-9]\d|5(?:[02-46-9]\d|5[0-46-9]))|4(?:[2-478][02-9]\d|5(?:[034]\d|2[024-9]|5[0-46-9])|6(?:0[1-9]|[2-9]\d)|9(?:[05-9]\d|2[0-5]|49)))\d{4}|52[34][2-9]1[02-9]\d{4}|5(?:00|2[125-9]|3[23]|44|66|77|88)[2-9]\d{6}			5002345678
D	voip	0		-1		
D	pager	0		-1		
D	uan	0		-1		
D	voicemail	0		-1		
D	nointl	0		-1		
R	PS	970	00		0		0		0	0		0
D	general	1	[2489]2\d{6}|(?:1\d|5)\d{8}	8,9,10	7	
D	fixed	1	(?:22[2-47-9]|42[45]|82[014-68]|92[3569])\d{5}	8	7	22234567
D	mobile	1	5[69]\d{7}	9		599123456
D	toll	1	1800\d{6}	10		1800123456
D	premium	0		-1		
D	shared	1	1700\d{6}	10		1700123456
D	personal	0		-1		
D	voip	0		-1		
D	pager	0		-1		
D	uan	0		-1		
D	voicemail	0		-1		
D	nointl	0		-1		
F	(\d)(\d{3})(\d{4})	$1 $2 $3	0$1	0		[2489]
F	(\d{3})(\d{3})(\d{3})	$1 $2 $3	0$1	0		5
F	(\d{4})(\d{3})(\d{3})	$1 $2 $3		0		1
R	PT	351	00						0	0		1
D	general	1	1693\d{5}|(?:[26-9]\d|30)\d{7}	9		
D	fixed	1	2(?:[12]\d|3[1-689]|4[1-59]|[57][1-9]|6[1-35689]|8[1-69]|9[1256])\d{6}			212345678
D	mobile	1	6(?:[06]92(?:30|9\d)|[35]92(?:[049]\d|3[034]))\d{3}|(?:(?:16|6[0356])93|9(?:[1-36]\d\d|480))\d{5}			912345678
D	toll	1	80[02]\d{6}			800123456
D	premium	1	(?:6(?:0[178]|4[68])\d|76(?:0[1-57]|1[2-47]|2[237]))\d{5}			760123456
D	shared	1	80(?:8\d|9[1579])\d{5}			808123456
D	personal	1	884[0-4689]\d{5}			884123456
D	voip	1	30\d{7}			301234567
D	pager	1	6(?:222\d|89(?:00|88|99))\d{4}			622212345
D	uan	1	70(?:38[01]|596|(?:7\d|8[17])\d)\d{4}			707123456
D	voicemail	1	600\d{6}|6[06]92(?:0\d|3[349]|49)\d{3}			600110000
D	nointl	0		-1		
F	(\d{2})(\d{3})(\d{4})	$1 $2 $3		0		2[12]
F	(\d{3})(\d{3})(\d{3})	$1 $2 $3		0		16|[236-9]
R	PW	680	01[12]						0	0		0
D	general	1	(?:[24-8]\d\d|345|900)\d{4}	7		
D	fixed	1	(?:2(?:55|77)|345|488|5(?:35|44|87)|6(?:22|54|79)|7(?:33|47)|8(?:24|55|76)|900)\d{4}			2771234
D	mobile	1	(?:(?:46|83)[0-5]|(?:6[2-4689]|78)0)\d{4}|(?:45|77|88)\d{5}			6201234
D	toll	0		-1		
D	premium	0		-1		
D	shared	0		-1		
D	personal	0		-1		
D	voip	0		-1		
D	pager	0		-1		
D	uan	0		-1		
D	voicemail	0		-1		
D	nointl	0		-1		
F	(\d{3})(\d{4})	$1 $2		0		[2-9]
R	PY	595	00		0		0		0	0		1
D	general	1	[36-8]\d{5,8}|4\d{6,8}|59\d{6}|9\d{5,10}|(?:2\d|5[0-8])\d{6,7}	6,7,8,9,10,11	5	
D	fixed	1	(?:3[289]|4[246-8]|61|7[1-3]|8[1-36])\d{5,7}|(?:2(?:[14-68]\d|2[4-68]|7[15]|9[1-5])|3(?:18|3[167]|4[2357]|51|[67]\d)|4(?:1\d|3[12]|5[13]|9[1-47])|5(?:[1-4]\d|5[02-4])|6(?:3[1-3]|44|7[1-8])|7(?:4[0-4]|5\d|6[1-578]|75|8[0-8])|858)\d{5,6}	7,8,9	5,6	212345678
D	mobile	1	9(?:51|6[129]|7[1-6]|8[1-7]|9[1-5])\d{6}	9		961456789
D	toll	1	9800\d{5,7}	9,10,11		98000123456
D	premium	0		-1		
D	shared	0		-1		
D	personal	0		-1		
D	voip	1	8700[0-4]\d{4}	9		870012345
D	pager	0		-1		
D	uan	1	[245]0\d{6,7}|[36-9]0\d{4,7}	6,7,8,9		201234567
D	voicemail	0		-1		
D	nointl	0		-1		
F	(\d{6,7})	$1		0		[125]|4[01]
F	(\d{3})(\d{3,6})	$1 $2	0$1	0		[2-9]0
F	(\d{2})(\d{5})	$1 $2	(0$1)	0		3[289]|4[246-8]|61|7[1-3]|8[1-36]
F	(\d{3})(\d{4,5})	$1 $2	(0$1)	0		2[279]|3[13-5]|4[359]|5|6(?:[34]|7[1-46-8])|7[46-8]|85
F	(\d{2})(\d{3})(\d{3,4})	$1 $2 $3	(0$1)	0		2[14-68]|3[26-9]|4[1246-8]|6(?:1|75)|7[1-35]|8[1-36]
F	(\d{2})(\d{3})(\d{4})	$1 $2 $3		0		87
F	(\d{3})(\d{6})	$1 $2	0$1	0		9(?:[5-79]|8[1-7])
F	(\d{3})(\d{3})(\d{3})	$1 $2 $3	0$1	0		[2-8]
F	(\d{4})(\d{3})(\d{4})	$1 $2 $3		0		9
I	(\d{3})(\d{3,6})	$1 $2	0$1	0		[2-9]0
I	(\d{2})(\d{5})	$1 $2	(0$1)	0		3[289]|4[246-8]|61|7[1-3]|8[1-36]
I	(\d{3})(\d{4,5})	$1 $2	(0$1)	0		2[279]|3[13-5]|4[359]|5|6(?:[34]|7[1-46-8])|7[46-8]|85
I	(\d{2})(\d{3})(\d{3,4})	$1 $2 $3	(0$1)	0		2[14-68]|3[26-9]|4[1246-8]|6(?:1|75)|7[1-35]|8[1-36]
I	(\d{2})(\d{3})(\d{4})	$1 $2 $3		0		87
I	(\d{3})(\d{6})	$1 $2	0$1	0		9(?:[5-79]|8[1-7])
I	(\d{3})(\d{3})(\d{3})	$1 $2 $3	0$1	0		[2-8]
I	(\d{4})(\d{3})(\d{4})	$1 $2 $3		0		9
R	QA	974	00						0	0		1
D	general	1	800\d{4}|(?:2|800)\d{6}|(?:0080|[3-7])\d{7}	7,8,9,11		
D	fixed	1	4(?:(?:[014]\d\d|999)\d|2022)\d{3}	8		44123456
D	mobile	1	[35-7]\d{7}	8		33123456
D	toll	1	800\d{4}|(?:0080[01]|800)\d{6}	7,9,11		8001234
D	premium	0		-1		
D	shared	0		-1		
D	personal	0		-1		
D	voip	0		-1		
D	pager	1	2[136]\d{5}	7		2123456
D	uan	0		-1		
D	voicemail	0		-1		
D	nointl	0		-1		
F	(\d{3})(\d{4})	$1 $2		0		2[136]|8
F	(\d{4})(\d{4})	$1 $2		0		[3-7]
R	RE	262	00		0		0		0	1		0
D	general	1	709\d{6}|(?:26|[689]\d)\d{7}	9		
D	fixed	1	2631[0-6]\d{4}|26(?:2\d|30|88)\d{5}			262161234
D	mobile	1	(?:69(?:2\d\d|3(?:[06][0-6]|1[0-3]|2[0-2]|3[0-39]|4\d|5[0-5]|7[0-37]|8[0-8]|9[0-479]))|7092[0-3])\d{4}			692123456
D	toll	1	80\d{7}			801234567
D	premium	1	89[1-37-9]\d{6}			891123456
D	shared	1	8(?:1[019]|2[0156]|84|90)\d{6}			810123456
D	personal	0		-1		
D	voip	1	9(?:399[0-3]|479[0-6]|76(?:2[278]|3[0-37]))\d{4}			939901234
D	pager	0		-1		
D	uan	0		-1		
D	voicemail	0		-1		
D	nointl	0		-1		
F	(\d{3})(\d{2})(\d{2})(\d{2})	$1 $2 $3 $4	0$1	0		[26-9]
R	RO	40	00		0	 int 	0		0	0		1
D	general	1	(?:[236-8]\d|90)\d{7}|[23]\d{5}	6,9		
D	fixed	1	[23][13-6]\d{7}|(?:2(?:19\d|[3-6]\d9)|31\d\d)\d\d			211234567
D	mobile	1	(?:630|702)0\d{5}|(?:6(?:00|2\d)|7(?:0[013-9]|1[0-3]|[2-7]\d|8[03-8]|9[0-39]))\d{6}	9		712034567
D	toll	1	800\d{6}	9		800123456
D	premium	1	90[0136]\d{6}	9		900123456
D	shared	1	801\d{6}	9		801123456
D	personal	0		-1		
D	voip	0		-1		
D	pager	0		-1		
D	uan	1	(?:37\d|80[578])\d{6}	9		372123456
D	voicemail	0		-1		
D	nointl	0		-1		
F	(\d{3})(\d{3})	$1 $2	0$1	0		2[3-6]	2[3-6]\d9
F	(\d{2})(\d{4})	$1 $2	0$1	0		219|31
F	(\d{2})(\d{3})(\d{4})	$1 $2 $3	0$1	0		[23]1
F	(\d{3})(\d{3})(\d{3})	$1 $2 $3	0$1	0		[236-9]
R	RS	381	00		0		0		0	0		1
D	general	1	38[02-9]\d{6,9}|6\d{7,9}|90\d{4,8}|38\d{5,6}|(?:7\d\d|800)\d{3,9}|(?:[12]\d|3[0-79])\d{5,10}	6,7,8,9,10,11,12	4,5	
D	fixed	1	(?:11[1-9]\d|(?:2[389]|39)(?:0[2-9]|[2-9]\d))\d{3,8}|(?:1[02-9]|2[0-24-7]|3[0-8])[2-9]\d{4,9}	7,8,9,10,11,12	4,5,6	10234567
D	mobile	1	6(?:[0-689]|7\d)\d{6,7}	8,9,10		601234567
D	toll	1	800\d{3,9}			80012345
D	premium	1	(?:78\d|90[0169])\d{3,7}	6,7,8,9,10		90012345
D	shared	0		-1		
D	personal	0		-1		
D	voip	0		-1		
D	pager	0		-1		
D	uan	1	7[06]\d{4,10}			700123456
D	voicemail	0		-1		
D	nointl	0		-1		
F	(\d{3})(\d{3,9})	$1 $2	0$1	0		(?:2[389]|39)0|[7-9]
F	(\d{2})(\d{5,10})	$1 $2	0$1	0		[1-36]
R	RU	7	810	8~10	8		8		0	1	[3489]	1
D	general	1	8\d{13}|[347-9]\d{9}	10,14	7	
D	fixed	1	(?:3(?:0[12]|36|4[1-35-79]|5[1-3]|65|8[1-58]|9[0145])|4(?:01|1[1356]|2[13467]|7[1-5]|8[1-7]|9[1-689])|8(?:1[1-8]|2[01]|3[13-6]|4[0-8]|5[15-7]|6[0-35-79]|7[1-37-9]))\d{7}	10	7	3011234567
D	mobile	1	9\d{9}	10		9123456789
D	toll	1	8(?:0[04]|108\d{3})\d{7}			8001234567
D	premium	1	80[39]\d{7}	10		8091234567
D	shared	0		-1		
D	personal	1	808\d{7}	10		8081234567
D	voip	0		-1		
D	pager	0		-1		
D	uan	0		-1		
D	voicemail	0		-1		
D	nointl	0		-1		
F	(\d{3})(\d{2})(\d{2})	$1-$2-$3		0		[0-79]
F	(\d{4})(\d{2})(\d{2})(\d{2})	$1 $2 $3 $4	8 ($1)	1		7(?:1[0-8]|2[1-9])	7(?:1(?:[0-356]2|4[29]|7|8[27])|2(?:1[23]|[2-9]2))	7(?:1(?:[0-356]2|4[29]|7|8[27])|2(?:13[03-69]|62[013-9]))|72[1-57-9]2
F	(\d{5})(\d)(\d{2})(\d{2})	$1 $2 $3 $4	8 ($1)	1		7(?:1[0-68]|2[1-9])	7(?:1(?:[06][3-6]|[18]|2[35]|[3-5][3-5])|2(?:[13][3-5]|[24-689]|7[457]))	7(?:1(?:0(?:[356]|4[023])|[18]|2(?:3[013-9]|5)|3[45]|43[013-79]|5(?:3[1-8]|4[1-7]|5)|6(?:3[0-35-9]|[4-6]))|2(?:1(?:3[178]|[45])|[24-689]|3[35]|7[457]))|7(?:14|23)4[0-8]|71(?:33|45)[1-79]
F	(\d{3})(\d{3})(\d{4})	$1 $2 $3	8 ($1)	1		7
F	(\d{3})(\d{3})(\d{2})(\d{2})	$1 $2-$3-$4	8 ($1)	1		[349]|8(?:[02-7]|1[1-8])
F	(\d{4})(\d{4})(\d{3})(\d{3})	$1 $2 $3 $4	8 ($1)	0		8
I	(\d{4})(\d{2})(\d{2})(\d{2})	$1 $2 $3 $4	8 ($1)	1		7(?:1[0-8]|2[1-9])	7(?:1(?:[0-356]2|4[29]|7|8[27])|2(?:1[23]|[2-9]2))	7(?:1(?:[0-356]2|4[29]|7|8[27])|2(?:13[03-69]|62[013-9]))|72[1-57-9]2
I	(\d{5})(\d)(\d{2})(\d{2})	$1 $2 $3 $4	8 ($1)	1		7(?:1[0-68]|2[1-9])	7(?:1(?:[06][3-6]|[18]|2[35]|[3-5][3-5])|2(?:[13][3-5]|[24-689]|7[457]))	7(?:1(?:0(?:[356]|4[023])|[18]|2(?:3[013-9]|5)|3[45]|43[013-79]|5(?:3[1-8]|4[1-7]|5)|6(?:3[0-35-9]|[4-6]))|2(?:1(?:3[178]|[45])|[24-689]|3[35]|7[457]))|7(?:14|23)4[0-8]|71(?:33|45)[1-79]
I	(\d{3})(\d{3})(\d{4})	$1 $2 $3	8 ($1)	1		7
I	(\d{3})(\d{3})(\d{2})(\d{2})	$1 $2-$3-$4	8 ($1)	1		[349]|8(?:[02-7]|1[1-8])
I	(\d{4})(\d{4})(\d{3})(\d{3})	$1 $2 $3 $4	8 ($1)	0		8
R	RW	250	00		0		0		0	0		0
D	general	1	(?:06|[27]\d\d|[89]00)\d{6}	8,9		
D	fixed	1	(?:06|2[23568]\d)\d{6}			250123456
D	mobile	1	7[237-9]\d{7}	9		720123456
D	toll	1	800\d{6}	9		800123456
D	premium	1	900\d{6}	9		900123456
D	shared	0		-1		
D	personal	0		-1		
D	voip	0		-1		
D	pager	0		-1		
D	uan	0		-1		
D	voicemail	0		-1		
D	nointl	0		-1		
F	(\d{2})(\d{2})(\d{2})(\d{2})	$1 $2 $3 $4		0		0
F	(\d{3})(\d{3})(\d{3})	$1 $2 $3		0		2
F	(\d{3})(\d{3})(\d{3})	$1 $2 $3	0$1	0		[7-9]
R	SA	966	00		0		0		0	0		1
D	general	1	(?:[15]\d|800|92)\d{7}	9,10	7	
D	fixed	1	1(?:1\d|2[24-8]|3[35-8]|4[3-68]|6[2-5]|7[235-7])\d{6}	9	7	112345678
D	mobile	1	579[0-8]\d{5}|5(?:[013-689]\d|7[0-8])\d{6}	9		512345678
D	toll	1	800\d{7}	10		8001234567
D	premium	1	925\d{6}	9		925012345
D	shared	1	920\d{6}	9		920012345
D	personal	0		-1		
D	voip	0		-1		
D	pager	0		-1		
D	uan	0		-1		
D	voicemail	0		-1		
D	nointl	0		-1		
F	(\d{4})(\d{5})	$1 $2		0		9
F	(\d{2})(\d{3})(\d{4})	$1 $2 $3	0$1	0		1
F	(\d{2})(\d{3})(\d{4})	$1 $2 $3	0$1	0		5
F	(\d{3})(\d{3})(\d{4})	$1 $2 $3		0		8
R	SB	677	0[01]						0	0		0
D	general	1	[6-9]\d{6}|[1-6]\d{4}	5,7		
D	fixed	1	(?:1[4-79]|[23]\d|4[0-2]|5[03]|6[0-37])\d{3}	5		40123
D	mobile	1	48\d{3}|(?:(?:6[89]|7[1-9]|8[4-9])\d|9(?:1[2-9]|2[013-9]|3[0-2]|[46]\d|5[0-46-9]|7[0-689]|8[0-79]|9[0-8]))\d{4}			7421234
D	toll	1	1[38]\d{3}	5		18123
D	premium	0		-1		
D	shared	0		-1		
D	personal	0		-1		
D	voip	1	5[12]\d{3}	5		51123
D	pager	0		-1		
D	uan	0		-1		
D	voicemail	0		-1		
D	nointl	0		-1		
F	(\d{2})(\d{5})	$1 $2		0		6[89]|7|8[4-9]|9(?:[1-8]|9[0-8])"
end Verif.Data
