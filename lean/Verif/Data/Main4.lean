import Verif.Data.Decode
/-! Generated from `/repo/metadata/data/metadata.xml.gz` (metadata v9.0.37); part 4 of 4.  See `Verif/Data/Decode.lean` for the line format. -/
namespace Verif.Data
shipped main4 r"R	SC	248	010|0[0-2]	00					0	0		0
D	general	1	(?:[2489]\d|64)\d{5}	7		
D	fixed	1	4[2-46]\d{5}			4217123
D	mobile	1	2[125-8]\d{5}			2510123
D	toll	1	800[08]\d{3}			8000000
D	premium	1	85\d{5}			8512345
D	shared	0		-1		
D	personal	0		-1		
D	voip	1	971\d{4}|(?:64|95)\d{5}			6412345
D	pager	0		-1		
D	uan	0		-1		
D	voicemail	0		-1		
D	nointl	0		-1		
F	(\d)(\d{3})(\d{3})	$1 $2 $3		0		[246]|9[57]
R	SD	249	00		0		0		0	0		0
D	general	1	[19]\d{8}	9		
D	fixed	1	1(?:5\d|8[35-7])\d{6}			153123456
D	mobile	1	(?:1[0-2]|9[0-3569])\d{7}			911231234
D	toll	0		-1		
D	premium	0		-1		
D	shared	0		-1		
D	personal	0		-1		
D	voip	0		-1		
D	pager	0		-1		
D	uan	0		-1		
D	voicemail	0		-1		
D	nointl	0		-1		
F	(\d{2})(\d{3})(\d{4})	$1 $2 $3	0$1	0		[19]
R	SE	46	00		0		0		0	0		1
D	general	1	(?:[26]\d\d|9)\d{9}|[1-9]\d{8}|[1-689]\d{7}|[1-4689]\d{6}|2\d{5}	6,7,8,9,10,12		
D	fixed	1	(?:(?:[12][136]|3[356]|4[0246]|6[03]|8\d)\d|90[1-9])\d{4,6}|(?:1(?:2[0-35]|4[0-4]|5[0-25-9]|7[13-6]|[89]\d)|2(?:2[0-7]|4[0136-8]|5[0138]|7[018]|8[01]|9[0-57])|3(?:0[0-4]|1\d|2[0-25]|4[056]|7[0-2]|8[0-3]|9[023])|4(?:1[013-8]|3[0135]|5[14-79]|7[0-246-9]|8[0156]|9[0-689])|5(?:0[0-6]|[15][0-5]|2[0-68]|3[0-4]|4\d|6[03-5]|7[013]|8[0-79]|9[01])|6(?:1[1-3]|2[0-4]|4[02-57]|5[0-37]|6[0-3]|7[0-2]|8[0247]|9[0-356])|9(?:1[0-68]|2\d|3[02-5]|4[0-3]|5[0-4]|[68][01]|7[0135-8]))\d{5,6}	7,8,9		8123456
D	mobile	1	7[023689]\d{7}	9		701234567
D	toll	1	20\d{4,7}	6,7,8,9		20123456
D	premium	1	649\d{6}|99[1-59]\d{4}(?:\d{3})?|9(?:00|39|44)[1-8]\d{3,6}	7,8,9,10		9001234567
D	shared	1	77[0-7]\d{6}	9		771234567
D	personal	1	75[1-8]\d{6}	9		751234567
D	voip	0		-1		
D	pager	1	74[02-9]\d{6}	9		740123456
D	uan	1	10[1-8]\d{6}	9		102345678
D	voicemail	1	(?:25[245]|67[3-68])\d{9}	12		254123456789
D	nointl	0		-1		
F	(\d{2})(\d{2,3})(\d{2})	$1-$2 $3	0$1	0		20
F	(\d{3})(\d{4})	$1-$2	0$1	0		9(?:00|39|44|9)
F	(\d{2})(\d{3})(\d{2})	$1-$2 $3	0$1	0		[12][136]|3[356]|4[0246]|6[03]|90[1-9]
F	(\d)(\d{2,3})(\d{2})(\d{2})	$1-$2 $3 $4	0$1	0		8
F	(\d{3})(\d{2,3})(\d{2})	$1-$2 $3	0$1	0		1[2457]|2(?:[247-9]|5[0138])|3[0247-9]|4[1357-9]|5[0-35-9]|6(?:[125689]|4[02-57]|7[0-2])|9(?:[125-8]|3[02-5]|4[0-3])
F	(\d{3})(\d{2,3})(\d{3})	$1-$2 $3	0$1	0		9(?:00|39|44)
F	(\d{2})(\d{2,3})(\d{2})(\d{2})	$1-$2 $3 $4	0$1	0		1[13689]|2[0136]|3[1356]|4[0246]|54|6[03]|90[1-9]
F	(\d{2})(\d{3})(\d{2})(\d{2})	$1-$2 $3 $4	0$1	0		10|7
F	(\d)(\d{3})(\d{3})(\d{2})	$1-$2 $3 $4	0$1	0		8
F	(\d{3})(\d{2})(\d{2})(\d{2})	$1-$2 $3 $4	0$1	0		[13-5]|2(?:[247-9]|5[0138])|6(?:[124-689]|7[0-2])|9(?:[125-8]|3[02-5]|4[0-3])
F	(\d{3})(\d{2})(\d{2})(\d{3})	$1-$2 $3 $4	0$1	0		9
F	(\d{3})(\d{2})(\d{3})(\d{2})(\d{2})	$1-$2 $3 $4 $5	0$1	0		[26]
I	(\d{2})(\d{2,3})(\d{2})	$1 $2 $3		0		20
I	(\d{3})(\d{4})	$1 $2		0		9(?:00|39|44|9)
I	(\d{2})(\d{3})(\d{2})	$1 $2 $3		0		[12][136]|3[356]|4[0246]|6[03]|90[1-9]
I	(\d)(\d{2,3})(\d{2})(\d{2})	$1 $2 $3 $4		0		8
I	(\d{3})(\d{2,3})(\d{2})	$1 $2 $3		0		1[2457]|2(?:[247-9]|5[0138])|3[0247-9]|4[1357-9]|5[0-35-9]|6(?:[125689]|4[02-57]|7[0-2])|9(?:[125-8]|3[02-5]|4[0-3])
I	(\d{3})(\d{2,3})(\d{3})	$1 $2 $3		0		9(?:00|39|44)
I	(\d{2})(\d{2,3})(\d{2})(\d{2})	$1 $2 $3 $4		0		1[13689]|2[0136]|3[1356]|4[0246]|54|6[03]|90[1-9]
I	(\d{2})(\d{3})(\d{2})(\d{2})	$1 $2 $3 $4		0		10|7
I	(\d)(\d{3})(\d{3})(\d{2})	$1 $2 $3 $4		0		8
I	(\d{3})(\d{2})(\d{2})(\d{2})	$1 $2 $3 $4		0		[13-5]|2(?:[247-9]|5[0138])|6(?:[124-689]|7[0-2])|9(?:[125-8]|3[02-5]|4[0-3])
I	(\d{3})(\d{2})(\d{2})(\d{3})	$1 $2 $3 $4		0		9
I	(\d{3})(\d{2})(\d{3})(\d{2})(\d{2})	$1 $2 $3 $4 $5		0		[26]
R	SG	65	0[0-3]\d						0	0		1
D	general	1	(?:(?:1\d|8)\d\d|7000)\d{7}|[3689]\d{7}	8,10,11		
D	fixed	1	662[0-24-9]\d{4}|6(?:[0-578]\d|6[013-57-9]|9[0-35-9])\d{5}	8		61234567
D	mobile	1	80[1-9]\d{5}|(?:8[1-9]|9[0-8])\d{6}	8		81234567
D	toll	1	(?:18|8)00\d{7}	10,11		18001234567
D	premium	1	1900\d{7}	11		19001234567
D	shared	0		-1		
D	personal	0		-1		
D	voip	1	(?:3[12]\d|666)\d{5}	8		31234567
D	pager	0		-1		
D	uan	1	7000\d{7}	11		70001234567
D	voicemail	0		-1		
D	nointl	0		-1		
F	(\d{4,5})	$1		0		1[013-9]|77	1(?:[013-8]|9(?:0[1-9]|[1-9]))|77
F	(\d{4})(\d{4})	$1 $2		0		[369]|8(?:0[1-9]|[1-9])
F	(\d{3})(\d{3})(\d{4})	$1 $2 $3		0		8
F	(\d{4})(\d{4})(\d{3})	$1 $2 $3		0		7
F	(\d{4})(\d{3})(\d{4})	$1 $2 $3		0		1
I	(\d{4})(\d{4})	$1 $2		0		[369]|8(?:0[1-9]|[1-9])
I	(\d{3})(\d{3})(\d{4})	$1 $2 $3		0		8
I	(\d{4})(\d{4})(\d{3})	$1 $2 $3		0		7
I	(\d{4})(\d{3})(\d{4})	$1 $2 $3		0		1
R	SH	290	00						0	1	[256]	0
D	general	1	(?:[256]\d|8)\d{3}	4,5		
D	fixed	1	2(?:[0-57-9]\d|6[4-9])\d\d			22158
D	mobile	1	[56]\d{4}	5		51234
D	toll	0		-1		
D	premium	0		-1		
D	shared	0		-1		
D	personal	0		-1		
D	voip	1	262\d\d	5		26212
D	pager	0		-1		
D	uan	0		-1		
D	voicemail	0		-1		
D	nointl	0		-1		
R	SI	386	00|10(?:22|66|88|99)	00	0		0		0	0		1
D	general	1	[1-7]\d{7}|8\d{4,7}|90\d{4,6}	5,6,7,8		
D	fixed	1	(?:[1-357][2-8]|4[24-8])\d{6}	8	7	12345678
D	mobile	1	65(?:[178]\d|5[56]|6[01])\d{4}|(?:[37][01]|4[013]|51|6[489])\d{6}	8		31234567
D	toll	1	80\d{4,6}	6,7,8		80123456
D	premium	1	89[1-3]\d{2,5}|90\d{4,6}			90123456
D	shared	0		-1		
D	personal	0		-1		
D	voip	1	(?:59\d\d|8(?:1(?:[67]\d|8[0-589])|2(?:0\d|2[0-37-9]|8[0-2489])|3[389]\d))\d{4}	8		59012345
D	pager	0		-1		
D	uan	0		-1		
D	voicemail	0		-1		
D	nointl	0		-1		
F	(\d{2})(\d{3,6})	$1 $2	0$1	0		8[09]|9
F	(\d{3})(\d{5})	$1 $2	0$1	0		59|8
F	(\d{2})(\d{3})(\d{3})	$1 $2 $3	0$1	0		[37][01]|4[013]|51|6
F	(\d)(\d{3})(\d{2})(\d{2})	$1 $2 $3 $4	(0$1)	0		[1-57]
R	SJ	47	00						0	0	79	0
D	general	1	0\d{4}|(?:[489]\d|79)\d{6}	5,8		
D	fixed	1	79\d{6}	8		79123456
D	mobile	1	45(?:[0-24-9]\d|3[0-57-9])\d{4}|(?:4[016-8]|9\d)\d{6}	8		41234567
D	toll	1	80[01]\d{5}	8		80012345
D	premium	1	82[09]\d{5}	8		82012345
D	shared	1	810(?:0[0-6]|[2-8]\d)\d{3}	8		81021234
D	personal	1	880\d{5}	8		88012345
D	voip	1	85[0-5]\d{5}	8		85012345
D	pager	0		-1		
D	uan	1	(?:0[235-9]|81(?:0(?:0[7-9]|1\d)|5\d\d))\d{3}			02000
D	voicemail	1	81[23]\d{5}	8		81212345
D	nointl	0		-1		
R	SK	421	00		0		0		0	0		1
D	general	1	[2-689]\d{8}|[2-59]\d{6}|[2-5]\d{5}	6,7,9		
D	fixed	1	(?:2(?:16|[2-9]\d{3})|(?:(?:[3-5][1-8]\d|819)\d|601[1-5])\d)\d{4}|(?:2|[3-5][1-8])1[67]\d{3}|[3-5][1-8]16\d\d			221234567
D	mobile	1	909[1-9]\d{5}|9(?:0[1-8]|1[0-24-9]|4[03-57-9]|5\d)\d{6}	9		912123456
D	toll	1	800\d{6}	9		800123456
D	premium	1	9(?:00|[78]\d)\d{6}	9		900123456
D	shared	1	8[5-9]\d{7}	9		850123456
D	personal	0		-1		
D	voip	1	6(?:02|5[0-4]|9[0-6])\d{6}	9		690123456
D	pager	1	9090\d{3}	7		9090123
D	uan	1	96\d{7}	9		961234567
D	voicemail	0		-1		
D	nointl	1	9090\d{3}|(?:602|8(?:00|[5-9]\d)|9(?:00|[78]\d))\d{6}	7,9		
F	(\d)(\d{2})(\d{3,4})	$1 $2 $3	0$1	0		21
F	(\d{2})(\d{2})(\d{2,3})	$1 $2 $3	0$1	0		[3-5][1-8]1	[3-5][1-8]1[67]
F	(\d{4})(\d{3})	$1 $2	0$1	0		909	9090
F	(\d)(\d{3})(\d{3})(\d{2})	$1 $2 $3 $4	0$1	0		2
F	(\d{3})(\d{3})(\d{3})	$1 $2 $3	0$1	0		[689]
F	(\d{2})(\d{3})(\d{2})(\d{2})	$1 $2 $3 $4	0$1	0		[3-5]
I	(\d)(\d{2})(\d{3,4})	$1 $2 $3	0$1	0		21
I	(\d{2})(\d{2})(\d{2,3})	$1 $2 $3	0$1	0		[3-5][1-8]1	[3-5][1-8]1[67]
I	(\d)(\d{3})(\d{3})(\d{2})	$1 $2 $3 $4	0$1	0		2
I	(\d{3})(\d{3})(\d{3})	$1 $2 $3	0$1	0		[689]
I	(\d{2})(\d{3})(\d{2})(\d{2})	$1 $2 $3 $4	0$1	0		[3-5]
R	SL	232	00		0		0		0	0		0
D	general	1	(?:[237-9]\d|66)\d{6}	8	6	
D	fixed	1	22[2-4][2-9]\d{4}		6	22221234
D	mobile	1	(?:25|3[0-5]|66|7\d|8[08]|9[09])\d{6}			25123456
D	toll	0		-1		
D	premium	0		-1		
D	shared	0		-1		
D	personal	0		-1		
D	voip	0		-1		
D	pager	0		-1		
D	uan	0		-1		
D	voicemail	0		-1		
D	nointl	0		-1		
F	(\d{2})(\d{6})	$1 $2	(0$1)	0		[236-9]
R	SM	378	00				([89]\d{5})$	0549$1	0	0		0
D	general	1	(?:0549|[5-7]\d)\d{6}	8,10	6	
D	fixed	1	0549(?:8[0157-9]|9\d)\d{4}	10	6	0549886377
D	mobile	1	6[16]\d{6}	8		66661212
D	toll	0		-1		
D	premium	1	7[178]\d{6}	8		71123456
D	shared	0		-1		
D	personal	0		-1		
D	voip	1	5[158]\d{6}	8		58001110
D	pager	0		-1		
D	uan	0		-1		
D	voicemail	0		-1		
D	nointl	0		-1		
F	(\d{6})	$1		0		[89]
F	(\d{2})(\d{2})(\d{2})(\d{2})	$1 $2 $3 $4		0		[5-7]
F	(\d{4})(\d{6})	$1 $2		0		0
I	(\d{2})(\d{2})(\d{2})(\d{2})	$1 $2 $3 $4		0		[5-7]
I	(\d{4})(\d{6})	$1 $2		0		0
R	SN	221	00						0	0		0
D	general	1	(?:[378]\d|93)\d{7}	9		
D	fixed	1	3(?:0(?:1[0-2]|80)|282|3(?:8[1-9]|9[3-9])|611)\d{5}			301012345
D	mobile	1	7(?:[015-8]\d|21|90)\d{6}			701234567
D	toll	1	800\d{6}			800123456
D	premium	1	88[4689]\d{6}			884123456
D	shared	1	81[02468]\d{6}			810123456
D	personal	0		-1		
D	voip	1	(?:3(?:392|9[01]\d)\d|93(?:3[13]0|929))\d{4}			933301234
D	pager	0		-1		
D	uan	0		-1		
D	voicemail	0		-1		
D	nointl	0		-1		
F	(\d{3})(\d{2})(\d{2})(\d{2})	$1 $2 $3 $4		0		8
F	(\d{2})(\d{3})(\d{2})(\d{2})	$1 $2 $3 $4		0		[379]
R	SO	252	00		0		0		0	0		0
D	general	1	[346-9]\d{8}|[12679]\d{7}|[1-5]\d{6}|[1348]\d{5}	6,7,8,9		
D	fixed	1	(?:1\d|2[0-79]|3[0-46-8]|4[0-7]|5[57-9])\d{5}|(?:[134]\d|8[125])\d{4}	6,7		4012345
D	mobile	1	(?:(?:15|(?:3[59]|4[89]|6\d|7[0-35-9]|8[08])\d|9(?:0\d|[2-9]))\d|2(?:4\d|8))\d{5}|(?:[67]\d\d|904)\d{5}	7,8,9		71123456
D	toll	0		-1		
D	premium	0		-1		
D	shared	0		-1		
D	personal	0		-1		
D	voip	0		-1		
D	pager	0		-1		
D	uan	0		-1		
D	voicemail	0		-1		
D	nointl	0		-1		
F	(\d{2})(\d{4})	$1 $2		0		8[125]
F	(\d{6})	$1		0		[134]
F	(\d)(\d{6})	$1 $2		0		[15]|2[0-79]|3[0-46-8]|4[0-7]
F	(\d{2})(\d{5,7})	$1 $2		0		1|28|9[2-9]
F	(\d)(\d{7})	$1 $2		0		[267]|904
F	(\d{2})(\d{3})(\d{4})	$1 $2 $3		0		[346-9]
R	SR	597	00						0	0		0
D	general	1	(?:[2-5]|[6-9]\d)\d{5}	6,7		
D	fixed	1	(?:2[1-3]|3[0-7]|4\d|5[2-578])\d{4}	6		211234
D	mobile	1	(?:6[08]|7[1-7]|8[1-9])\d{5}	7		7412345
D	toll	1	80\d{5}	7		8012345
D	premium	1	90\d{5}	7		9012345
D	shared	0		-1		
D	personal	0		-1		
D	voip	1	(?:56|91\d)\d{4}			561234
D	pager	0		-1		
D	uan	0		-1		
D	voicemail	0		-1		
D	nointl	0		-1		
F	(\d{2})(\d{2})(\d{2})	$1-$2-$3		0		56
F	(\d{3})(\d{3})	$1-$2		0		[2-5]
F	(\d{3})(\d{4})	$1-$2		0		[6-9]
R	SS	211	00		0		0		0	0		0
D	general	1	[19]\d{8}	9		
D	fixed	1	1[89]\d{7}			181234567
D	mobile	1	(?:12|9[1257-9])\d{7}			977123456
D	toll	0		-1		
D	premium	0		-1		
D	shared	0		-1		
D	personal	0		-1		
D	voip	0		-1		
D	pager	0		-1		
D	uan	0		-1		
D	voicemail	0		-1		
D	nointl	0		-1		
F	(\d{3})(\d{3})(\d{3})	$1 $2 $3	0$1	0		[19]
R	ST	239	00						0	0		0
D	general	1	(?:22|9\d)\d{5}	7		
D	fixed	1	22\d{5}			2221234
D	mobile	1	900[5-9]\d{3}|9(?:0[1-9]|[89]\d)\d{4}			9812345
D	toll	0		-1		
D	premium	0		-1		
D	shared	0		-1		
D	personal	0		-1		
D	voip	0		-1		
D	pager	0		-1		
D	uan	0		-1		
D	voicemail	0		-1		
D	nointl	0		-1		
F	(\d{3})(\d{4})	$1 $2		0		[29]
R	SV	503	00						0	0		0
D	general	1	[25-7]\d{7}|(?:80\d|900)\d{4}(?:\d{4})?	7,8,11		
D	fixed	1	2(?:79(?:0[0347-9]|[1-9]\d)|89(?:0[024589]|[1-9]\d))\d{3}|2(?:[1-69]\d|[78][0-8])\d{5}	8		21234567
D	mobile	1	[5-7]\d{7}	8		70123456
D	toll	1	800\d{8}|80[01]\d{4}	7,11		8001234
D	premium	1	900\d{4}(?:\d{4})?	7,11		9001234
D	shared	0		-1		
D	personal	0		-1		
D	voip	0		-1		
D	pager	0		-1		
D	uan	0		-1		
D	voicemail	0		-1		
D	nointl	0		-1		
F	(\d{3})(\d{4})	$1 $2		0		[89]
F	(\d{4})(\d{4})	$1 $2		0		[25-7]
F	(\d{3})(\d{4})(\d{4})	$1 $2 $3		0		[89]
R	SX	1	011		1		(5\d{6})$|1	721$1	0	0	721	1
D	general	1	7215\d{6}|(?:[58]\d\d|900)\d{7}	10	7	
D	fixed	1	7215(?:4[2-8]|8[39]|9[056])\d{4}		7	7215425678
D	mobile	1	7215(?:1[02]|2\d|5[034679]|8[0-24-8])\d{4}		7	7215205678
D	toll	1	8(?:00|33|44|55|66|77|88)[2-9]\d{6}			8002123456
D	premium	1	900[2-9]\d{6}			9002123456
D	shared	0		-1		
D	personal	1	52(?:3(?:[2-46-9][02-9]\d|5(?:[02-46-9]\d|5[0-46-9]))|4(?:[2-478][02-9]\d|5(?:[034]\d|2[024-9]|5[0-46-9])|6(?:0[1-9]|[2-9]\d)|9(?:[05-9]\d|2[0-5]|49)))\d{4}|52[34][2-9]1[02-9]\d{4}|5(?:00|2[125-9]|3[23]|44|66|77|88)[2-9]\d{6}			5002345678
D	voip	0		-1		
D	pager	0		-1		
D	uan	0		-1		
D	voicemail	0		-1		
D	nointl	0		-1		
R	SY	963	00		0		0		0	0		0
D	general	1	[1-359]\d{8}|[1-5]\d{7}	8,9	6,7	
D	fixed	1	(?:1(?:[1478]\d|[2356])|21\d|3(?:[13]\d|4)|4[134]|5[1-3])\d{6}|2[1-5]\d{6}		6,7	112345678
D	mobile	1	(?:50|9[03-689])\d{7}	9		944567890
D	toll	0		-1		
D	premium	0		-1		
D	shared	0		-1		
D	personal	0		-1		
D	voip	0		-1		
D	pager	0		-1		
D	uan	0		-1		
D	voicemail	0		-1		
D	nointl	0		-1		
F	(\d{2})(\d{3})(\d{3,4})	$1 $2 $3	0$1	1		[1-4]|5[1-3]
F	(\d{3})(\d{3})(\d{3})	$1 $2 $3	0$1	1		[59]
R	SZ	268	00						0	0		0
D	general	1	0800\d{4}|(?:[237]\d|900)\d{6}	8,9		
D	fixed	1	[23][2-5]\d{6}	8		22171234
D	mobile	1	7[5-9]\d{6}	8		76123456
D	toll	1	0800\d{4}	8		08001234
D	premium	1	900\d{6}	9		900012345
D	shared	0		-1		
D	personal	0		-1		
D	voip	1	70\d{6}	8		70012345
D	pager	0		-1		
D	uan	0		-1		
D	voicemail	0		-1		
D	nointl	1	0800\d{4}	8		
F	(\d{4})(\d{4})	$1 $2		0		[0237]
F	(\d{5})(\d{4})	$1 $2		0		9
R	TA	290	00						0	0	8	0
D	general	1	8\d{3}	4		
D	fixed	1	8\d{3}			8999
D	mobile	0		-1		
D	toll	0		-1		
D	premium	0		-1		
D	shared	0		-1		
D	personal	0		-1		
D	voip	0		-1		
D	pager	0		-1		
D	uan	0		-1		
D	voicemail	0		-1		
D	nointl	0		-1		
R	TC	1	011		1		([2-479]\d{6})$|1	649$1	0	0	649	1
D	general	1	(?:[58]\d\d|649|900)\d{7}	10	7	
D	fixed	1	649(?:266|712|9(?:4\d|50))\d{4}		7	6497121234
D	mobile	1	649(?:2(?:3[129]|4[1-79])|3\d\d|4[34][1-3])\d{4}		7	6492311234
D	toll	1	8(?:00|33|44|55|66|77|88)[2-9]\d{6}			8002345678
D	premium	1	900[2-9]\d{6}			9002345678
D	shared	0		-1		
D	personal	1	52(?:3(?:[2-46-9][02-9]\d|5(?:[02-46-9]\d|5[0-46-9]))|4(?:[2-478][02-9]\d|5(?:[034]\d|2[024-9]|5[0-46-9])|6(?:0[1-9]|[2-9]\d)|9(?:[05-9]\d|2[0-5]|49)))\d{4}|52[34][2-9]1[02-9]\d{4}|5(?:00|2[125-9]|3[23]|44|66|77|88)[2-9]\d{6}			5002345678
D	voip	1	649(?:71[01]|966)\d{4}		7	6497101234
D	pager	0		-1		
D	uan	0		-1		
D	voicemail	0		-1		
D	nointl	0		-1		
R	TD	235	00|16	00					0	0		0
D	general	1	(?:22|[3689]\d|77)\d{6}	8		
D	fixed	1	22(?:[37-9]0|5[0-5]|6[89])\d{4}			22501234
D	mobile	1	(?:3[01]|[69]\d|77|8[5-7])\d{6}			63012345
D	toll	0		-1		
D	premium	0		-1		
D	shared	0		-1		
D	personal	0		-1		
D	voip	0		-1		
D	pager	0		-1		
D	uan	0		-1		
D	voicemail	0		-1		
D	nointl	0		-1		
F	(\d{2})(\d{2})(\d{2})(\d{2})	$1 $2 $3 $4		0		[236-9]
R	TG	228	00						0	0		0
D	general	1	[279]\d{7}	8		
D	fixed	1	2(?:2[2-7]|3[23]|4[45]|55|6[67]|77)\d{5}			22212345
D	mobile	1	(?:7[0-389]|9[0-36-9])\d{6}			90112345
D	toll	0		-1		
D	premium	0		-1		
D	shared	0		-1		
D	personal	0		-1		
D	voip	0		-1		
D	pager	0		-1		
D	uan	0		-1		
D	voicemail	0		-1		
D	nointl	0		-1		
F	(\d{2})(\d{2})(\d{2})(\d{2})	$1 $2 $3 $4		0		[279]
R	TH	66	00[1-9]		0		0		0	0		1
D	general	1	(?:001800|[2-57]|[689]\d)\d{7}|1\d{7,9}	8,9,10,13		
D	fixed	1	(?:1[0689]|2\d|3[2-9]|4[2-5]|5[2-6]|7[3-7])\d{6}	8		21234567
D	mobile	1	(?:(?:14|[89]\d)\d\d|6(?:[1-6]\d\d|7(?:1[0-8]|2[4-7]|3[1-6])))\d{5}	9		812345678
D	toll	1	(?:001800\d|1800)\d{6}	10,13		1800123456
D	premium	1	1900\d{6}	10		1900123456
D	shared	0		-1		
D	personal	0		-1		
D	voip	1	6[08]\d{7}	9		601234567
D	pager	0		-1		
D	uan	0		-1		
D	voicemail	0		-1		
D	nointl	0		-1		
F	(\d)(\d{3})(\d{4})	$1 $2 $3	0$1	0		2
F	(\d{2})(\d{3})(\d{3,4})	$1 $2 $3	0$1	0		[13-9]
F	(\d{4})(\d{3})(\d{3})	$1 $2 $3		0		1
R	TJ	992	810	8~10					0	0		0
D	general	1	(?:[0-57-9]\d|66)\d{7}	9	3,5,6,7	
D	fixed	1	(?:3(?:1[3-5]|2[245]|3[12]|4[24-7]|5[25]|72)|4(?:46|74|87))\d{6}		3,5,6,7	372123456
D	mobile	1	(?:33[03-9]|4(?:1[18]|4[02-479])|81[1-9])\d{6}|(?:[09]\d|1[0-27-9]|2[0-27]|3[08]|40|5[05]|66|7[0157-9]|8[07-9])\d{7}			917123456
D	toll	0		-1		
D	premium	0		-1		
D	shared	0		-1		
D	personal	0		-1		
D	voip	0		-1		
D	pager	0		-1		
D	uan	0		-1		
D	voicemail	0		-1		
D	nointl	0		-1		
F	(\d{6})(\d)(\d{2})	$1 $2 $3		0		331	3317
F	(\d{3})(\d{2})(\d{4})	$1 $2 $3		0		44[02-479]|[34]7
F	(\d{4})(\d)(\d{4})	$1 $2 $3		0		3(?:[1245]|3[12])
F	(\d{2})(\d{3})(\d{4})	$1 $2 $3		0		\d
R	TK	690	00						0	0		0
D	general	1	[2-47]\d{3,6}	4,5,6,7		
D	fixed	1	(?:2[2-4]|[34]\d)\d{2,5}			3101
D	mobile	1	7[2-4]\d{2,5}			7290
D	toll	0		-1		
D	premium	0		-1		
D	shared	0		-1		
D	personal	0		-1		
D	voip	0		-1		
D	pager	0		-1		
D	uan	0		-1		
D	voicemail	0		-1		
D	nointl	0		-1		
R	TL	670	00						0	0		0
D	general	1	7\d{7}|(?:[2-47]\d|[89]0)\d{5}	7,8		
D	fixed	1	(?:2[1-5]|3[1-9]|4[1-4])\d{5}	7		2112345
D	mobile	1	7[2-8]\d{6}	8		77212345
D	toll	1	80\d{5}	7		8012345
D	premium	1	90\d{5}	7		9012345
D	shared	0		-1		
D	personal	1	70\d{5}	7		7012345
D	voip	0		-1		
D	pager	0		-1		
D	uan	0		-1		
D	voicemail	0		-1		
D	nointl	0		-1		
F	(\d{3})(\d{4})	$1 $2		0		[2-489]|70
F	(\d{4})(\d{4})	$1 $2		0		7
R	TM	993	810	8~10	8		8		0	0		0
D	general	1	[1-7]\d{7}	8		
D	fixed	1	(?:1(?:2\d|3[1-9])|2(?:22|4[0-35-8])|3(?:22|4[03-9])|4(?:22|3[128]|4\d|6[15])|5(?:22|5[7-9]|6[014-689]))\d{5}			12345678
D	mobile	1	(?:6\d|7[12])\d{6}			66123456
D	toll	0		-1		
D	premium	0		-1		
D	shared	0		-1		
D	personal	0		-1		
D	voip	0		-1		
D	pager	0		-1		
D	uan	0		-1		
D	voicemail	0		-1		
D	nointl	0		-1		
F	(\d{2})(\d{2})(\d{2})(\d{2})	$1 $2-$3-$4	(8 $1)	0		12
F	(\d{3})(\d)(\d{2})(\d{2})	$1 $2-$3-$4	(8 $1)	0		[1-5]
F	(\d{2})(\d{6})	$1 $2	8 $1	0		[67]
R	TN	216	00						0	0		0
D	general	1	[2-57-9]\d{7}	8		
D	fixed	1	81200\d{3}|(?:3[0-2]|7\d)\d{6}			30010123
D	mobile	1	3(?:001|[12]40)\d{4}|(?:(?:[259]\d|4[0-8])\d|3(?:1[1-35]|6[0-4]|91))\d{5}			20123456
D	toll	1	8010\d{4}			80101234
D	premium	1	88\d{6}			88123456
D	shared	1	8[12]10\d{4}			81101234
D	personal	0		-1		
D	voip	0		-1		
D	pager	0		-1		
D	uan	0		-1		
D	voicemail	0		-1		
D	nointl	0		-1		
F	(\d{2})(\d{3})(\d{3})	$1 $2 $3		0		[2-57-9]
R	TO	676	00						0	0		0
D	general	1	(?:0800|(?:[5-8]\d\d|999)\d)\d{3}|[2-8]\d{4}	5,7		
D	fixed	1	(?:2\d|3[0-8]|4[0-4]|50|6[09]|7[0-24-69]|8[05])\d{3}	5		20123
D	mobile	1	(?:5(?:4[0-5]|5[4-6])|6(?:[09]\d|3[02]|8[15-9])|(?:7\d|8[46-9])\d|999)\d{4}	7		7715123
D	toll	1	0800\d{3}	7		0800222
D	premium	0		-1		
D	shared	0		-1		
D	personal	0		-1		
D	voip	1	55[0-37-9]\d{4}	7		5510123
D	pager	0		-1		
D	uan	0		-1		
D	voicemail	0		-1		
D	nointl	0		-1		
F	(\d{2})(\d{3})	$1-$2		0		[2-4]|50|6[09]|7[0-24-69]|8[05]
F	(\d{4})(\d{3})	$1 $2		0		0
F	(\d{3})(\d{4})	$1 $2		0		[5-9]
R	TR	90	00		0		0		0	0		1
D	general	1	4\d{6}|8\d{11,12}|(?:[2-58]\d\d|900)\d{7}	7,10,12,13		
D	fixed	1	(?:2(?:1[26]|[28][2468]|[3-5][268]|[67][246])|3(?:[13][28]|[24-6][2468]|[78][02468]|92)|4(?:[16][246]|[23578][2468]|4[26]))\d{7}	10		2123456789
D	mobile	1	5(?:61(?:011|61\d)|82[2-4]\d\d)\d{4}|5(?:[03-5]\d|1[06]|24|6[24]|7[245]|9[46])\d{7}	10		5012345678
D	toll	1	8(?:00\d{7}(?:\d{2,3})?|11\d{7})	10,12,13		8001234567
D	premium	1	(?:8[89]8|900)\d{7}	10		9001234567
D	shared	0		-1		
D	personal	1	592(?:21[12]|461)\d{4}	10		5922121234
D	voip	1	850\d{7}	10		8500123456
D	pager	1	512\d{7}	10		5123456789
D	uan	1	444\d{4}	7		4441444
D	voicemail	0		-1		
D	nointl	1	(?:444|811\d{3})\d{4}	7,10		
F	(\d{3})(\d)(\d{3})	$1 $2 $3		1		444
F	(\d{3})(\d{3})(\d{4})	$1 $2 $3	0$1	1		512|8[01589]|90
F	(\d{3})(\d{3})(\d{2})(\d{2})	$1 $2 $3 $4	0$1	1		5
F	(\d{3})(\d{3})(\d{2})(\d{2})	$1 $2 $3 $4	(0$1)	1		[24][1-8]|3[1-9]
F	(\d{3})(\d{3})(\d{6,7})	$1 $2 $3	0$1	1		80
I	(\d{3})(\d{3})(\d{4})	$1 $2 $3	0$1	1		512|8[01589]|90
I	(\d{3})(\d{3})(\d{2})(\d{2})	$1 $2 $3 $4	0$1	1		5
I	(\d{3})(\d{3})(\d{2})(\d{2})	$1 $2 $3 $4	(0$1)	1		[24][1-8]|3[1-9]
I	(\d{3})(\d{3})(\d{6,7})	$1 $2 $3	0$1	1		80
R	TT	1	011		1		([2-46-8]\d{6})$|1	868$1	0	0	868	1
D	general	1	(?:[58]\d\d|900)\d{7}	10	7	
D	fixed	1	868(?:2(?:01|1[5-9]|[23]\d|4[0-2])|6(?:0[7-9]|1[02-8]|2[1-9]|[3-69]\d|7[0-79])|82[124])\d{4}		7	8682211234
D	mobile	1	868(?:(?:2[5-9]|3\d)\d|4(?:3[0-6]|[6-9]\d)|6(?:20|78|8\d)|7(?:0[1-9]|1[02-9]|[2-9]\d))\d{4}		7	8682911234
D	toll	1	868800\d{4}|8(?:00|33|44|55|66|77|88)[2-9]\d{6}			8002345678
D	premium	1	900[2-9]\d{6}			9002345678
D	shared	0		-1		
D	personal	1	52(?:3(?:[2-46-9][02-9]\d|5(?:[02-46-9]\d|5[0-46-9]))|4(?:[2-478][02-9]\d|5(?:[034]\d|2[024-9]|5[0-46-9])|6(?:0[1-9]|[2-9]\d)|9(?:[05-9]\d|2[0-5]|49)))\d{4}|52[34][2-9]1[02-9]\d{4}|5(?:00|2[125-9]|3[23]|44|66|77|88)[2-9]\d{6}			5002345678
D	voip	0		-1		
D	pager	0		-1		
D	uan	0		-1		
D	voicemail	1	868619\d{4}		7	8686191234
D	nointl	0		-1		
R	TV	688	00						0	0		0
D	general	1	(?:2|7\d\d|90)\d{4}	5,6,7		
D	fixed	1	2[02-9]\d{3}	5		20123
D	mobile	1	(?:7[01]\d|90)\d{4}	6,7		901234
D	toll	0		-1		
D	premium	0		-1		
D	shared	0		-1		
D	personal	0		-1		
D	voip	0		-1		
D	pager	0		-1		
D	uan	0		-1		
D	voicemail	0		-1		
D	nointl	0		-1		
F	(\d{2})(\d{3})	$1 $2		0		2
F	(\d{2})(\d{4})	$1 $2		0		90
F	(\d{2})(\d{5})	$1 $2		0		7
R	TW	886	0(?:0[25-79]|19)		0	#	0		0	0		1
D	general	1	[2-689]\d{8}|7\d{9,10}|[2-8]\d{7}|2\d{6}	7,8,9,10,11		
D	fixed	1	(?:2[2-8]\d|370|55[01]|7[1-9])\d{6}|4(?:(?:0(?:0[1-9]|[2-48]\d)|1[023]\d)\d{4,5}|(?:[239]\d\d|4(?:0[56]|12|49))\d{5})|6(?:[01]\d{7}|4(?:0[56]|12|24|4[09])\d{4,5})|8(?:(?:2(?:3\d|4[0-269]|[578]0|66)|36[24-9]|90\d\d)\d{4}|4(?:0[56]|12|24|4[09])\d{4,5})|(?:2(?:2(?:0\d\d|4(?:0[68]|[249]0|3[0-467]|5[0-25-9]|6[0235689]))|(?:3(?:[09]\d|1[0-4])|(?:4\d|5[0-49]|6[0-29]|7[0-5])\d)\d)|(?:(?:3[2-9]|5[2-8]|6[0-35-79]|8[7-9])\d\d|4(?:2(?:[089]\d|7[1-9])|(?:3[0-4]|[78]\d|9[01])\d))\d)\d{3}	8,9		221234567
D	mobile	1	(?:40001[0-2]|9[0-8]\d{4})\d{3}	9		912345678
D	toll	1	80[0-79]\d{6}|800\d{5}	8,9		800123456
D	premium	1	20(?:[013-9]\d\d|2)\d{4}	7,9		203123456
D	shared	0		-1		
D	personal	1	99\d{7}	9		990123456
D	voip	1	7010(?:[0-2679]\d|3[0-7]|8[0-5])\d{5}|70\d{8}	10,11		7012345678
D	pager	0		-1		
D	uan	1	50[0-46-9]\d{6}	9		500123456
D	voicemail	0		-1		
D	nointl	0		-1		
F	(\d{2})(\d)(\d{4})	$1 $2 $3	0$1	0		202
F	(\d{3})(\d{5})	$1 $2	0$1	0		826
F	(\d{3})(\d{2})(\d{3})	$1 $2 $3	0$1	0		83
F	(\d{2})(\d{2})(\d{4})	$1 $2 $3	0$1	0		82
F	(\d{2})(\d{3})(\d{3,4})	$1 $2 $3	0$1	0		[25]0|37|49|8[09]
F	(\d)(\d{3,4})(\d{4})	$1 $2 $3	0$1	0		[23568]|4(?:0[02-48]|[1-478])|7[1-9]	[23568]|4(?:0[2-48]|[1-478])|(?:400|7)[1-9]
F	(\d{3})(\d{3})(\d{3})	$1 $2 $3	0$1	0		[49]
F	(\d{2})(\d{4})(\d{4,5})	$1 $2 $3	0$1	0		7
R	TZ	255	00[056]		0		0		0	0		0
D	general	1	(?:[25-8]\d|41|90)\d{7}	9		
D	fixed	1	2[2-8]\d{7}			222345678
D	mobile	1	(?:6[1-35-9]|7\d)\d{7}			621234567
D	toll	1	80[08]\d{6}			800123456
D	premium	1	90\d{7}			900123456
D	shared	1	8(?:40|6[01])\d{6}			840123456
D	personal	0		-1		
D	voip	1	41\d{7}			412345678
D	pager	0		-1		
D	uan	0		-1		
D	voicemail	0		-1		
D	nointl	1	(?:8(?:[04]0|6[01])|90\d)\d{6}			
F	(\d{3})(\d{2})(\d{4})	$1 $2 $3	0$1	0		[89]
F	(\d{2})(\d{3})(\d{4})	$1 $2 $3	0$1	0		[24]
F	(\d{2})(\d{7})	$1 $2		0		5
F	(\d{3})(\d{3})(\d{3})	$1 $2 $3	0$1	0		[67]
R	UA	380	00	0~0	0		0		0	0		0
D	general	1	[89]\d{9}|[3-9]\d{8}	9,10	5,6,7	
D	fixed	1	(?:3[1-8]|4[13-8]|5[1-7]|6[12459])\d{7}	9	5,6,7	311234567
D	mobile	1	790\d{6}|(?:39|50|6[36-8]|7[1-357]|9[1-9])\d{7}	9		501234567
D	toll	1	800[1-8]\d{5,6}			800123456
D	premium	1	900[239]\d{5,6}			900212345
D	shared	0		-1		
D	personal	0		-1		
D	voip	1	89[1-579]\d{6}	9		891234567
D	pager	0		-1		
D	uan	0		-1		
D	voicemail	0		-1		
D	nointl	0		-1		
F	(\d{3})(\d{3})(\d{3})	$1 $2 $3	0$1	0		6[12][29]|(?:3[1-8]|4[136-8]|5[12457]|6[49])2|(?:56|65)[24]	6[12][29]|(?:35|4[1378]|5[12457]|6[49])2|(?:56|65)[24]|(?:3[1-46-8]|46)2[013-9]
F	(\d{4})(\d{5})	$1 $2	0$1	0		3[1-8]|4(?:[1367]|[45][6-9]|8[4-6])|5(?:[1-5]|6[0135689]|7[4-6])|6(?:[12][3-7]|[459])	3[1-8]|4(?:[1367]|[45][6-9]|8[4-6])|5(?:[1-5]|6(?:[015689]|3[02389])|7[4-6])|6(?:[12][3-7]|[459])
F	(\d{2})(\d{3})(\d{4})	$1 $2 $3	0$1	0		[3-7]|89|9[1-9]
F	(\d{3})(\d{3})(\d{3,4})	$1 $2 $3	0$1	0		[89]
R	UG	256	00[057]		0		0		0	0		0
D	general	1	800\d{6}|(?:[29]0|[347]\d)\d{7}	9	5,6,7	
D	fixed	1	20(?:(?:24[09]|30[67])\d|6(?:00[0-2]|30[0-4]))\d{3}|(?:20(?:[017]\d|2[5-9]|3[1-4]|5[0-4]|6[15-9])|[34]\d{3})\d{5}		5,6,7	312345678
D	mobile	1	7(?:28|34)0\d{5}|7(?:[014-8]\d|2[01467]|3[0167]|9[0-589])\d{6}			712345678
D	toll	1	800[1-3]\d{5}			800123456
D	premium	1	90[1-3]\d{6}			901123456
D	shared	0		-1		
D	personal	0		-1		
D	voip	0		-1		
D	pager	0		-1		
D	uan	0		-1		
D	voicemail	0		-1		
D	nointl	0		-1		
F	(\d{4})(\d{5})	$1 $2	0$1	0		202	2024	20240
F	(\d{3})(\d{6})	$1 $2	0$1	0		20[0-35-7]|4(?:6[45]|[7-9])|[7-9]	20(?:[0135-7]|2[5-9])|4(?:6[45]|[7-9])|[7-9]
F	(\d{2})(\d{7})	$1 $2	0$1	0		[2-4]
R	US	1	011		1		1		1	1		1
D	general	1	[2-9]\d{9}|3\d{6}	10	7	
D	fixed	1	(?:472[2-47-9]|983[2-57-9])\d{6}|(?:2(?:0[1-35-9]|1[02-9]|2[03-57-9]|3[1459]|4[08]|5[1-46]|6[0279]|7[02469]|8[13])|3(?:0[1-57-9]|1[02-9]|2[013-79]|3[0-24679]|4[167]|5[0-3]|6[01349]|8[056])|4(?:0[124-9]|1[02-579]|2[3-5]|3[0245]|4[023578]|58|6[349]|7[0589]|8[04])|5(?:0[1-57-9]|1[0235-8]|20|3[0149]|4[01]|5[179]|6[1-47]|7[0-5]|8[0256])|6(?:0[1-35-9]|1[024-9]|2[03689]|3[016]|4[0156]|5[01679]|6[0-279]|78|8[0-269])|7(?:0[1-46-8]|1[2-9]|2[04-8]|3[0-2478]|4[0378]|5[47]|6[02359]|7[0-59]|8[156])|8(?:0[1-68]|1[02-8]|2[0168]|3[0-2589]|4[03578]|5[046-9]|6[02-5]|7[028])|9(?:0[1346-9]|1[02-9]|2[0589]|3[0146-8]|4[01357-9]|5[12469]|7[0-3589]|8[04-69]))[2-9]\d{6}		7	2015550123
D	mobile	1	(?:472[2-47-9]|983[2-57-9])\d{6}|(?:2(?:0[1-35-9]|1[02-9]|2[03-57-9]|3[1459]|4[08]|5[1-46]|6[0279]|7[02469]|8[13])|3(?:0[1-57-9]|1[02-9]|2[013-79]|3[0-24679]|4[167]|5[0-3]|6[01349]|8[056])|4(?:0[124-9]|1[02-579]|2[3-5]|3[0245]|4[023578]|58|6[349]|7[0589]|8[04])|5(?:0[1-57-9]|1[0235-8]|20|3[0149]|4[01]|5[179]|6[1-47]|7[0-5]|8[0256])|6(?:0[1-35-9]|1[024-9]|2[03689]|3[016]|4[0156]|5[01679]|6[0-279]|78|8[0-269])|7(?:0[1-46-8]|1[2-9]|2[04-8]|3[0-2478]|4[0378]|5[47]|6[02359]|7[0-59]|8[156])|8(?:0[1-68]|1[02-8]|2[0168]|3[0-2589]|4[03578]|5[046-9]|6[02-5]|7[028])|9(?:0[1346-9]|1[02-9]|2[0589]|3[0146-8]|4[01357-9]|5[12469]|7[0-3589]|8[04-69]))[2-9]\d{6}		7	2015550123
D	toll	1	8(?:00|33|44|55|66|77|88)[2-9]\d{6}			8002345678
D	premium	1	900[2-9]\d{6}			9002345678
D	shared	0		-1		
D	personal	1	52(?:3(?:[2-46-9][02-9]\d|5(?:[02-46-9]\d|5[0-46-9]))|4(?:[2-478][02-9]\d|5(?:[034]\d|2[024-9]|5[0-46-9])|6(?:0[1-9]|[2-9]\d)|9(?:[05-9]\d|2[0-5]|49)))\d{4}|52[34][2-9]1[02-9]\d{4}|5(?:00|2[125-9]|3[23]|44|66|77|88)[2-9]\d{6}			5002345678
D	voip	0		-1		
D	pager	0		-1		
D	uan	0		-1		
D	voicemail	0		-1		
D	nointl	0		-1		
F	(\d{3})(\d{4})	$1-$2		1		310
F	(\d{3})(\d{4})	$1-$2		0		[24-9]|3(?:[02-9]|1[1-9])
F	(\d{3})(\d{3})(\d{4})	($1) $2-$3		1		[2-9]
I	(\d{3})(\d{4})	$1-$2		1		310
I	(\d{3})(\d{3})(\d{4})	$1-$2-$3		0		[2-9]
R	UY	598	0(?:0|1[3-9]\d)	00	0	 int. 	0		0	0		0
D	general	1	0004\d{2,9}|[1249]\d{7}|2\d{3,4}|(?:[49]\d|80)\d{5}	4,5,6,7,8,9,10,11,12,13		
D	fixed	1	(?:1(?:770|9(?:20|[89]7))|(?:2\d|4[2-7])\d\d)\d{4}	8	7	21231234
D	mobile	1	9[1-9]\d{6}	8		94231234
D	toll	1	0004\d{2,9}|(?:405|80[05])\d{4}	6,7,8,9,10,11,12,13		8001234
D	premium	1	90[0-8]\d{4}	7		9001234
D	shared	0		-1		
D	personal	0		-1		
D	voip	0		-1		
D	pager	0		-1		
D	uan	1	21\d{2,3}	4,5		21123
D	voicemail	0		-1		
D	nointl	0		-1		
F	(\d{4,5})	$1		0		21
F	(\d{3})(\d{3,4})	$1 $2		0		0
F	(\d{3})(\d{4})	$1 $2	0$1	0		[49]0|8
F	(\d{2})(\d{3})(\d{3})	$1 $2 $3	0$1	0		9
F	(\d{4})(\d{4})	$1 $2		0		[124]
F	(\d{3})(\d{3})(\d{2,4})	$1 $2 $3		0		0
F	(\d{3})(\d{3})(\d{3})(\d{2,4})	$1 $2 $3 $4		0		0
R	UZ	998	00						0	0		0
D	general	1	(?:20|33|[5-9]\d)\d{7}	9		
D	fixed	1	(?:55\d\d|6(?:1(?:22|3[124]|4[1-4]|5[1-3578]|64)|2(?:22|3[0-57-9]|41)|5(?:22|3[3-7]|5[024-8])|[69]\d\d|7(?:[23]\d|7[69]))|7(?:[168]\d\d|2(?:22|3[13-57-9]|4[1-3579]|5[14])|3(?:2\d|3[1578]|4[1-35-7]|5[1-57]|61)|4(?:2\d|3[1-579]|7[1-79])|5(?:22|5[1-9]|6[1457])|9(?:22|5[1-9])))\d{5}			669050123
D	mobile	1	(?:(?:[25]0|33|8[078]|9[0-57-9])\d{3}|6(?:1(?:2(?:2[01]|98)|35[0-4]|50\d|61[23]|7(?:[01][017]|4\d|55|9[5-9]))|2(?:(?:11|7\d)\d|2(?:[12]1|9[01379])|5(?:[126]\d|3[0-4]))|5(?:19[01]|2(?:27|9[26])|(?:30|59|7\d)\d)|6(?:2(?:1[5-9]|2[0367]|38|41|52|60)|(?:3[79]|9[0-3])\d|4(?:56|83)|7(?:[07]\d|1[017]|3[07]|4[047]|5[057]|67|8[0178]|9[79]))|7(?:2(?:24|3[237]|4[5-9]|7[15-8])|5(?:7[12]|8[0589])|7(?:0\d|[39][07])|9(?:0\d|7[079])))|7(?:[07]\d{3}|2(?:2(?:2[79]|95)|3(?:2[5-9]|6[0-6])|57\d|7(?:0\d|1[17]|2[27]|3[37]|44|5[057]|66|88))|3(?:2(?:1[0-6]|21|3[469]|7[159])|(?:33|9[4-6])\d|5(?:0[0-4]|5[579]|9\d)|7(?:[0-3579]\d|4[0467]|6[67]|8[078]))|4(?:2(?:29|5[0257]|6[0-7]|7[1-57])|5(?:1[0-4]|8\d|9[5-9])|7(?:0\d|1[024589]|2[0-27]|3[0137]|[46][07]|5[01]|7[5-9]|9[079])|9(?:7[015-9]|[89]\d))|5(?:112|2(?:0\d|2[29]|[49]4)|3[1568]\d|52[6-9]|7(?:0[01578]|1[017]|[23]7|4[047]|[5-7]\d|8[78]|9[079]))|9(?:22[128]|3(?:2[0-4]|7\d)|57[02569]|7(?:2[05-9]|3[37]|4\d|60|7[2579]|87|9[07]))))\d{4}			912345678
D	toll	0		-1		
D	premium	0		-1		
D	shared	0		-1		
D	personal	0		-1		
D	voip	0		-1		
D	pager	0		-1		
D	uan	0		-1		
D	voicemail	0		-1		
D	nointl	0		-1		
F	(\d{2})(\d{3})(\d{2})(\d{2})	$1 $2 $3 $4		0		[235-9]
R	VA	39	00						0	0	06698	1
D	general	1	0\d{5,10}|3[0-8]\d{7,10}|55\d{8}|8\d{5}(?:\d{2,4})?|(?:1\d|39)\d{7,8}	6,7,8,9,10,11,12		
D	fixed	1	06698\d{1,6}	6,7,8,9,10,11		0669812345
D	mobile	1	3[1-9]\d{8}|3[2-9]\d{7}	9,10		3123456789
D	toll	1	80(?:0\d{3}|3)\d{3}	6,9		800123456
D	premium	1	(?:0878\d{3}|89(?:2\d|3[04]|4(?:[0-4]|[5-9]\d\d)|5[0-4]))\d\d|(?:1(?:44|6[346])|89(?:38|5[5-9]|9))\d{6}	6,8,9,10		899123456
D	shared	1	84(?:[08]\d{3}|[17])\d{3}	6,9		848123456
D	personal	1	1(?:78\d|99)\d{6}	9,10		1781234567
D	voip	1	55\d{8}	10		5512345678
D	pager	0		-1		
D	uan	0		-1		
D	voicemail	1	3[2-8]\d{9,10}	11,12		33101234501
D	nointl	0		-1		
R	VC	1	011		1		([2-7]\d{6})$|1	784$1	0	0	784	1
D	general	1	(?:[58]\d\d|784|900)\d{7}	10	7	
D	fixed	1	784(?:266|3(?:6[6-9]|7\d|8[0-6])|4(?:38|5[0-36-8]|8[0-8])|5(?:55|7[0-2]|93)|638|784)\d{4}		7	7842661234
D	mobile	1	784(?:4(?:3[0-5]|5[45]|89|9[0-8])|5(?:2[6-9]|3[0-4])|720)\d{4}		7	7844301234
D	toll	1	8(?:00|33|44|55|66|77|88)[2-9]\d{6}			8002345678
D	premium	1	900[2-9]\d{6}			9002345678
D	shared	0		-1		
D	personal	1	52(?:3(?:[2-46-9][02-9]\d|5(?:[02-46-9]\d|5[0-46-9]))|4(?:[2-478][02-9]\d|5(?:[034]\d|2[024-9]|5[0-46-9])|6(?:0[1-9]|[2-9]\d)|9(?:[05-9]\d|2[0-5]|49)))\d{4}|52[34][2-9]1[02-9]\d{4}|5(?:00|2[125-9]|3[23]|44|66|77|88)[2-9]\d{6}			5002345678
D	voip	1	78451[0-2]\d{4}		7	7845101234
D	pager	0		-1		
D	uan	0		-1		
D	voicemail	0		-1		
D	nointl	0		-1		
R	VE	58	00		0		0		0	0		0
D	general	1	[68]00\d{7}|(?:[24]\d|[59]0)\d{8}	10	7	
D	fixed	1	(?:2(?:12|3[457-9]|[467]\d|[58][1-9]|9[1-6])|[4-6]00)\d{7}		7	2121234567
D	mobile	1	4(?:1[24-8]|2[246])\d{7}			4121234567
D	toll	1	800\d{7}			8001234567
D	premium	1	90[01]\d{7}			9001234567
D	shared	0		-1		
D	personal	0		-1		
D	voip	0		-1		
D	pager	0		-1		
D	uan	1	501\d{7}		7	5010123456
D	voicemail	0		-1		
D	nointl	0		-1		
F	(\d{3})(\d{7})	$1-$2	0$1	0	$CC $1	[24-689]
R	VG	1	011		1		([2-578]\d{6})$|1	284$1	0	0	284	1
D	general	1	(?:284|[58]\d\d|900)\d{7}	10	7	
D	fixed	1	284(?:229|4(?:22|9[45])|774|8(?:52|6[459]))\d{4}		7	2842291234
D	mobile	1	284(?:245|3(?:0[0-3]|4[0-7]|68|9[34])|4(?:4[0-6]|68|9[69])|5(?:4[0-7]|68|9[69]))\d{4}		7	2843001234
D	toll	1	8(?:00|33|44|55|66|77|88)[2-9]\d{6}			8002345678
D	premium	1	900[2-9]\d{6}			9002345678
D	shared	0		-1		
D	personal	1	52(?:3(?:[2-46-9][02-9]\d|5(?:[02-46-9]\d|5[0-46-9]))|4(?:[2-478][02-9]\d|5(?:[034]\d|2[024-9]|5[0-46-9])|6(?:0[1-9]|[2-9]\d)|9(?:[05-9]\d|2[0-5]|49)))\d{4}|52[34][2-9]1[02-9]\d{4}|5(?:00|2[125-9]|3[23]|44|66|77|88)[2-9]\d{6}			5002345678
D	voip	0		-1		
D	pager	0		-1		
D	uan	0		-1		
D	voicemail	0		-1		
D	nointl	0		-1		
R	VI	1	011		1		([2-9]\d{6})$|1	340$1	1	0	340	0
D	general	1	[58]\d{9}|(?:34|90)0\d{7}	10	7	
D	fixed	1	340(?:2(?:0\d|10|2[06-8]|4[49]|77)|3(?:32|44)|4(?:2[23]|44|7[34]|89)|5(?:1[34]|55)|6(?:2[56]|4[23]|77|9[023])|7(?:1[2-57-9]|2[57]|7\d)|884|998)\d{4}		7	3406421234
D	mobile	1	340(?:2(?:0\d|10|2[06-8]|4[49]|77)|3(?:32|44)|4(?:2[23]|44|7[34]|89)|5(?:1[34]|55)|6(?:2[56]|4[23]|77|9[023])|7(?:1[2-57-9]|2[57]|7\d)|884|998)\d{4}		7	3406421234
D	toll	1	8(?:00|33|44|55|66|77|88)[2-9]\d{6}			8002345678
D	premium	1	900[2-9]\d{6}			9002345678
D	shared	0		-1		
D	personal	1	52(?:3(?:[2-46-9][02-9]\d|5(?:[02-46-9]\d|5[0-46-9]))|4(?:[2-478][02-9]\d|5(?:[034]\d|2[024-9]|5[0-46-9])|6(?:0[1-9]|[2-9]\d)|9(?:[05-9]\d|2[0-5]|49)))\d{4}|52[34][2-9]1[02-9]\d{4}|5(?:00|2[125-9]|3[23]|44|66|77|88)[2-9]\d{6}			5002345678
D	voip	0		-1		
D	pager	0		-1		
D	uan	0		-1		
D	voicemail	0		-1		
D	nointl	0		-1		
R	VN	84	00		0		0		0	0		0
D	general	1	[12]\d{9}|[135-9]\d{8}|[16]\d{6,7}|7\d{6}	7,8,9,10		
D	fixed	1	2(?:0[3-9]|1[0-689]|2[0-25-9]|[38][2-9]|4[2-8]|5[124-9]|6[0-39]|7[0-7]|9[0-4679])\d{7}	10		2101234567
D	mobile	1	121[0-3]\d{5}|(?:160|(?:3\d|7[06-9])\d|5(?:[1689]\d|2[238]|59)|8(?:[1-8]\d|9[6-9])|9(?:[0-8]\d|9[013-9]))\d{6}	9		912345678
D	toll	1	1800\d{4,6}|12(?:0[13]|28)\d{4}	8,9,10		1800123456
D	premium	1	1900\d{4,6}	8,9,10		1900123456
D	shared	0		-1		
D	personal	0		-1		
D	voip	1	672\d{6}	9		672012345
D	pager	0		-1		
D	uan	1	[17]99\d{4}|69\d{5,6}	7,8		1992000
D	voicemail	0		-1		
D	nointl	1	[17]99\d{4}|69\d{5,6}	7,8		
F	(\d{3})(\d{4})	$1 $2	0$1	1		[17]99
F	(\d{3})(\d{4,5})	$1 $2	0$1	1		69
F	(\d{4})(\d{4,6})	$1 $2		1		1(?:2[02]|[89])
F	(\d{2})(\d{3})(\d{2})(\d{2})	$1 $2 $3 $4	0$1	1		1[26]|6
F	(\d{3})(\d{3})(\d{3})	$1 $2 $3	0$1	1		[357-9]
F	(\d{2})(\d{4})(\d{4})	$1 $2 $3	0$1	1		2[48]
F	(\d{3})(\d{4})(\d{3})	$1 $2 $3	0$1	1		2
I	(\d{4})(\d{4,6})	$1 $2		1		1(?:2[02]|[89])
I	(\d{2})(\d{3})(\d{2})(\d{2})	$1 $2 $3 $4	0$1	1		1[26]|6
I	(\d{3})(\d{3})(\d{3})	$1 $2 $3	0$1	1		[357-9]
I	(\d{2})(\d{4})(\d{4})	$1 $2 $3	0$1	1		2[48]
I	(\d{3})(\d{4})(\d{3})	$1 $2 $3	0$1	1		2
R	VU	678	00						0	0		0
D	general	1	[57-9]\d{6}|(?:[238]\d|48)\d{3}	5,7		
D	fixed	1	(?:38[0-8]|48[4-9])\d\d|(?:2[02-9]|3[4-7]|88)\d{3}	5		22123
D	mobile	1	(?:[58]\d|7[0-7])\d{5}	7		5912345
D	toll	1	81[18]\d\d	5		81123
D	premium	0		-1		
D	shared	0		-1		
D	personal	0		-1		
D	voip	1	9(?:0[1-9]|1[01])\d{4}	7		9010123
D	pager	0		-1		
D	uan	1	(?:3[03]|900\d)\d{3}			30123
D	voicemail	0		-1		
D	nointl	0		-1		
F	(\d{3})(\d{4})	$1 $2		0		[57-9]
R	WF	681	00						0	0		0
D	general	1	(?:40|72|8\d{4})\d{4}|[89]\d{5}	6,9		
D	fixed	1	72\d{4}	6		721234
D	mobile	1	(?:72|8[23])\d{4}	6		821234
D	toll	1	80[0-5]\d{6}	9		800012345
D	premium	0		-1		
D	shared	0		-1		
D	personal	0		-1		
D	voip	1	9[23]\d{4}	6		921234
D	pager	0		-1		
D	uan	0		-1		
D	voicemail	1	[48]0\d{4}	6		401234
D	nointl	0		-1		
F	(\d{2})(\d{2})(\d{2})	$1 $2 $3		0		[47-9]
F	(\d{3})(\d{2})(\d{2})(\d{2})	$1 $2 $3 $4		0		8
R	WS	685	0						0	0		0
D	general	1	(?:[2-6]|8\d{5})\d{4}|[78]\d{6}|[68]\d{5}	5,6,7,10		
D	fixed	1	6[1-9]\d{3}|(?:[2-5]|60)\d{4}	5,6		22123
D	mobile	1	(?:7[1-35-8]|8(?:[3-7]|9\d{3}))\d{5}	7,10		7212345
D	toll	1	800\d{3}	6		800123
D	premium	0		-1		
D	shared	0		-1		
D	personal	0		-1		
D	voip	0		-1		
D	pager	0		-1		
D	uan	0		-1		
D	voicemail	0		-1		
D	nointl	0		-1		
F	(\d{5})	$1		0		[2-5]|6[1-9]
F	(\d{3})(\d{3,7})	$1 $2		0		[68]
F	(\d{2})(\d{5})	$1 $2		0		7
R	XK	383	00		0		0		0	0		0
D	general	1	2\d{7,8}|3\d{7,11}|(?:4\d\d|[89]00)\d{5}	8,9,10,11,12		
D	fixed	1	38\d{6,10}|(?:2[89]|39)(?:0\d{5,6}|[1-9]\d{5})			28012345
D	mobile	1	4[3-9]\d{6}	8		43201234
D	toll	1	800\d{5}	8		80001234
D	premium	1	900\d{5}	8		90001234
D	shared	0		-1		
D	personal	0		-1		
D	voip	0		-1		
D	pager	0		-1		
D	uan	0		-1		
D	voicemail	0		-1		
D	nointl	0		-1		
F	(\d{3})(\d{5})	$1 $2	0$1	0		[89]
F	(\d{2})(\d{3})(\d{3})	$1 $2 $3	0$1	0		[2-4]
F	(\d{3})(\d{3})(\d{3})	$1 $2 $3	0$1	0		2|39
F	(\d{2})(\d{7,10})	$1 $2	0$1	0		3
R	YE	967	00		0		0		0	0		0
D	general	1	(?:1|7\d)\d{7}|[1-7]\d{6}	7,8,9	6	
D	fixed	1	78[0-7]\d{4}|17\d{6}|(?:[12][2-68]|3[2358]|4[2-58]|5[2-6]|6[3-58]|7[24-6])\d{5}	7,8	6	1234567
D	mobile	1	7[01378]\d{7}	9		712345678
D	toll	0		-1		
D	premium	0		-1		
D	shared	0		-1		
D	personal	0		-1		
D	voip	0		-1		
D	pager	0		-1		
D	uan	0		-1		
D	voicemail	0		-1		
D	nointl	0		-1		
F	(\d)(\d{3})(\d{3,4})	$1 $2 $3	0$1	0		[1-6]|7(?:[24-6]|8[0-7])
F	(\d{3})(\d{3})(\d{3})	$1 $2 $3	0$1	0		7
R	YT	262	00		0		0		0	0		0
D	general	1	(?:639\d|7093)\d{5}|(?:26|80|9\d)\d{7}	9		
D	fixed	1	26(?:89\d|9(?:0[0-467]|15|5[0-4]|6\d|[78]0))\d{4}			269601234
D	mobile	1	(?:639(?:0[0-79]|1[019]|[267]\d|3[09]|40|5[05-9]|9[04-79])|7093[5-7])\d{4}			639012345
D	toll	1	80\d{7}			801234567
D	premium	0		-1		
D	shared	0		-1		
D	personal	0		-1		
D	voip	1	9(?:(?:39|47)8[01]|769\d)\d{4}			939801234
D	pager	0		-1		
D	uan	0		-1		
D	voicemail	0		-1		
D	nointl	0		-1		
R	ZA	27	00		0		0		0	0		1
D	general	1	[1-79]\d{8}|8\d{4,9}	5,6,7,8,9,10		
D	fixed	1	(?:2(?:0330|4302)|52087)0\d{3}|(?:1[0-8]|2[1-378]|3[1-69]|4\d|5[1346-8])\d{7}	9		101234567
D	mobile	1	(?:1(?:3492[0-25]|4495[0235]|549(?:20|5[01]))|4[34]492[01])\d{3}|8[1-4]\d{3,7}|(?:2[27]|47|54)4950\d{3}|(?:1(?:049[2-4]|9[12]\d\d)|(?:50[0-2]|[67]\d\d)\d\d|8(?:5\d{3}|7(?:08[67]|158|28[5-9]|310)))\d{4}|(?:1[6-8]|28|3[2-69]|4[025689]|5[36-8])4920\d{3}|(?:12|[2-5]1)492\d{4}	5,6,7,8,9		711234567
D	toll	1	80\d{7}	9		801234567
D	premium	1	(?:86[2-9]|9[0-2]\d)\d{6}	9		862345678
D	shared	1	860\d{6}	9		860123456
D	personal	0		-1		
D	voip	1	87(?:08[0-589]|15[0-79]|28[0-4]|31[1-9])\d{4}|87(?:[02][0-79]|1[0-46-9]|3[02-9]|[4-9]\d)\d{5}	9		871234567
D	pager	0		-1		
D	uan	1	861\d{6,7}	9,10		861123456
D	voicemail	0		-1		
D	nointl	0		-1		
F	(\d{2})(\d{3,4})	$1 $2	0$1	0		8[1-4]
F	(\d{2})(\d{3})(\d{2,3})	$1 $2 $3	0$1	0		8[1-4]
F	(\d{3})(\d{3})(\d{3})	$1 $2 $3	0$1	0		860
F	(\d{2})(\d{3})(\d{4})	$1 $2 $3	0$1	0		[1-9]
F	(\d{3})(\d{3})(\d{4})	$1 $2 $3	0$1	0		8
R	ZM	260	00		0		0		0	0		0
D	general	1	800\d{6}|(?:21|[579]\d|63)\d{7}	9	6	
D	fixed	1	21[1-8]\d{6}		6	211234567
D	mobile	1	(?:[59][5-8]|7[5-9])\d{7}			955123456
D	toll	1	800\d{6}			800123456
D	premium	0		-1		
D	shared	0		-1		
D	personal	0		-1		
D	voip	1	63\d{7}			630123456
D	pager	0		-1		
D	uan	0		-1		
D	voicemail	0		-1		
D	nointl	0		-1		
F	(\d{3})(\d{3})	$1 $2		0		[1-9]
F	(\d{3})(\d{3})(\d{3})	$1 $2 $3	0$1	0		[28]
F	(\d{2})(\d{7})	$1 $2	0$1	0		[579]
I	(\d{3})(\d{3})(\d{3})	$1 $2 $3	0$1	0		[28]
I	(\d{2})(\d{7})	$1 $2	0$1	0		[579]
R	ZW	263	00		0		0		0	0		0
D	general	1	2(?:[0-57-9]\d{6,8}|6[0-24-9]\d{6,7})|[38]\d{9}|[35-8]\d{8}|[3-6]\d{7}|[1-689]\d{6}|[1-3569]\d{5}|[1356]\d{4}	5,6,7,8,9,10	3,4	
D	fixed	1	(?:1(?:(?:3\d|9)\d|[4-8])|2(?:(?:(?:0(?:2[014]|5)|(?:2[0157]|31|84|9)\d\d|[56](?:[14]\d\d|20)|7(?:[089]|2[03]|[35]\d\d))\d|4(?:2\d\d|8))\d|1(?:2|[39]\d{4}))|3(?:(?:123|(?:29\d|92)\d)\d\d|7(?:[19]|[56]\d))|5(?:0|1[2-478]|26|[37]2|4(?:2\d{3}|83)|5(?:25\d\d|[78])|[689]\d)|6(?:(?:[16-8]21|28|52[013])\d\d|[39])|8(?:[1349]28|523)\d\d)\d{3}|(?:4\d\d|9[2-9])\d{4,5}|(?:(?:2(?:(?:(?:0|8[146])\d|7[1-7])\d|2(?:[278]\d|92)|58(?:2\d|3))|3(?:[26]|9\d{3})|5(?:4\d|5)\d\d)\d|6(?:(?:(?:[0-246]|[78]\d)\d|37)\d|5[2-8]))\d\d|(?:2(?:[569]\d|8[2-57-9])|3(?:[013-59]\d|8[37])|6[89]8)\d{3}		3,4	1312345
D	mobile	1	7(?:[1278]\d|3[1-9]|9[01])\d{6}	9		712345678
D	toll	1	80(?:[01]\d|20|8[0-8])\d{3}	7		8001234
D	premium	0		-1		
D	shared	0		-1		
D	personal	0		-1		
D	voip	1	86(?:1[12]|22|30|44|55|77|8[368])\d{6}	10		8686123456
D	pager	0		-1		
D	uan	0		-1		
D	voicemail	0		-1		
D	nointl	0		-1		
F	(\d{3})(\d{3,5})	$1 $2	0$1	0		2(?:0[45]|2[278]|[49]8)|3(?:[09]8|17)|6(?:[29]8|37|75)|[23][78]|(?:33|5[15]|6[68])[78]
F	(\d)(\d{3})(\d{2,4})	$1 $2 $3	0$1	0		[49]
F	(\d{3})(\d{4})	$1 $2	0$1	0		80
F	(\d{2})(\d{7})	$1 $2	(0$1)	0		24|8[13-59]|(?:2[05-79]|39|5[45]|6[15-8])2	2(?:02[014]|4|[56]20|[79]2)|392|5(?:42|525)|6(?:[16-8]21|52[013])|8[13-59]
F	(\d{2})(\d{3})(\d{4})	$1 $2 $3	0$1	0		7
F	(\d{3})(\d{3})(\d{3,4})	$1 $2 $3	0$1	0		2(?:1[39]|2[0157]|[378]|[56][14])|3(?:12|29)	2(?:1[39]|2[0157]|[378]|[56][14])|3(?:123|29)
F	(\d{4})(\d{6})	$1 $2	0$1	0		8
F	(\d{2})(\d{3,5})	$1 $2	0$1	0		1|2(?:0[0-36-9]|12|29|[56])|3(?:1[0-689]|[24-6])|5(?:[0236-9]|1[2-4])|6(?:[013-59]|7[0-46-9])|(?:33|55|6[68])[0-69]|(?:29|3[09]|62)[0-79]
F	(\d{2})(\d{3})(\d{3,4})	$1 $2 $3	0$1	0		29[013-9]|39|54
F	(\d{4})(\d{3,5})	$1 $2	0$1	0		(?:25|54)8	258|5483
R	001	800							1	0		0
D	general	1	(?:00|[1-9]\d)\d{6}	8		
D	fixed	0		-1		
D	mobile	0		-1		
D	toll	1	(?:00|[1-9]\d)\d{6}			12345678
D	premium	0		-1		
D	shared	0		-1		
D	personal	0		-1		
D	voip	0		-1		
D	pager	0		-1		
D	uan	0		-1		
D	voicemail	0		-1		
D	nointl	0		-1		
F	(\d{4})(\d{4})	$1 $2		0		\d
R	001	808							1	0		0
D	general	1	[1-9]\d{7}	8		
D	fixed	0		-1		
D	mobile	0		-1		
D	toll	0		-1		
D	premium	0		-1		
D	shared	1	[1-9]\d{7}			12345678
D	personal	0		-1		
D	voip	0		-1		
D	pager	0		-1		
D	uan	0		-1		
D	voicemail	0		-1		
D	nointl	0		-1		
F	(\d{4})(\d{4})	$1 $2		0		[1-9]
R	001	870							0	0		0
D	general	1	7\d{11}|[235-7]\d{8}	9,12		
D	fixed	0		-1		
D	mobile	1	(?:[356]|774[45])\d{8}|7[6-8]\d{7}			301234567
D	toll	0		-1		
D	premium	0		-1		
D	shared	0		-1		
D	personal	0		-1		
D	voip	1	2\d{8}	9		201234567
D	pager	0		-1		
D	uan	0		-1		
D	voicemail	0		-1		
D	nointl	0		-1		
F	(\d{3})(\d{3})(\d{3})	$1 $2 $3		0		[235-7]
R	001	878							1	0		0
D	general	1	10\d{10}	12		
D	fixed	0		-1		
D	mobile	0		-1		
D	toll	0		-1		
D	premium	0		-1		
D	shared	0		-1		
D	personal	0		-1		
D	voip	1	10\d{10}			101234567890
D	pager	0		-1		
D	uan	0		-1		
D	voicemail	0		-1		
D	nointl	0		-1		
F	(\d{2})(\d{5})(\d{5})	$1 $2 $3		0		1
R	001	881							0	0		0
D	general	1	6\d{9}|[0-36-9]\d{8}	9,10		
D	fixed	0		-1		
D	mobile	1	6\d{9}|[0-36-9]\d{8}			612345678
D	toll	0		-1		
D	premium	0		-1		
D	shared	0		-1		
D	personal	0		-1		
D	voip	0		-1		
D	pager	0		-1		
D	uan	0		-1		
D	voicemail	0		-1		
D	nointl	0		-1		
F	(\d)(\d{3})(\d{5})	$1 $2 $3		0		[0-37-9]
F	(\d)(\d{3})(\d{5,6})	$1 $2 $3		0		6
R	001	882							0	0		0
D	general	1	[13]\d{6}(?:\d{2,5})?|[19]\d{7}|(?:[25]\d\d|4)\d{7}(?:\d{2})?	7,8,9,10,11,12		
D	fixed	0		-1		
D	mobile	1	342\d{4}|(?:337|49)\d{6}|(?:3(?:2|47|7\d{3})|5(?:0\d{3}|2[0-2]))\d{7}	7,8,9,10,12		3421234
D	toll	0		-1		
D	premium	0		-1		
D	shared	0		-1		
D	personal	0		-1		
D	voip	1	1(?:3(?:0[0347]|[13][0139]|2[035]|4[013568]|6[0459]|7[06]|8[15-8]|9[0689])\d{4}|6\d{5,10})|(?:345\d|9[89])\d{6}|(?:10|2(?:3|85\d)|3(?:[15]|[69]\d\d)|4[15-8]|51)\d{8}			390123456789
D	pager	0		-1		
D	uan	0		-1		
D	voicemail	1	348[57]\d{7}	11		34851234567
D	nointl	0		-1		
F	(\d{2})(\d{5})	$1 $2		0		16|342
F	(\d{2})(\d{6})	$1 $2		0		49
F	(\d{2})(\d{2})(\d{4})	$1 $2 $3		0		1[36]|9
F	(\d{2})(\d{4})(\d{3})	$1 $2 $3		0		3[23]
F	(\d{2})(\d{3,4})(\d{4})	$1 $2 $3		0		16
F	(\d{2})(\d{4})(\d{4})	$1 $2 $3		0		10|23|3(?:[15]|4[57])|4|5[12]
F	(\d{3})(\d{4})(\d{4})	$1 $2 $3		0		34
F	(\d{2})(\d{4,5})(\d{5})	$1 $2 $3		0		[1-35]
R	001	883							1	0		0
D	general	1	(?:[1-4]\d|51)\d{6,10}	8,9,10,11,12		
D	fixed	0		-1		
D	mobile	0		-1		
D	toll	0		-1		
D	premium	0		-1		
D	shared	0		-1		
D	personal	0		-1		
D	voip	1	(?:2(?:00\d\d|10)|(?:370[1-9]|51\d0)\d)\d{7}|51(?:00\d{5}|[24-9]0\d{4,7})|(?:1[0-79]|2[24-689]|3[02-689]|4[0-4])0\d{5,9}			510012345
D	pager	0		-1		
D	uan	0		-1		
D	voicemail	0		-1		
D	nointl	0		-1		
F	(\d{3})(\d{3})(\d{2,8})	$1 $2 $3		0		[14]|2[24-689]|3[02-689]|51[24-9]
F	(\d{3})(\d{3})(\d{3})	$1 $2 $3		0		510
F	(\d{3})(\d{3})(\d{4})	$1 $2 $3		0		21
F	(\d{4})(\d{4})(\d{4})	$1 $2 $3		0		51[13]
F	(\d{3})(\d{3})(\d{3})(\d{3})	$1 $2 $3 $4		0		[235]
R	001	888							1	0		0
D	general	1	\d{11}	11		
D	fixed	0		-1		
D	mobile	0		-1		
D	toll	0		-1		
D	premium	0		-1		
D	shared	0		-1		
D	personal	0		-1		
D	voip	0		-1		
D	pager	0		-1		
D	uan	1	\d{11}			12345678901
D	voicemail	0		-1		
D	nointl	0		-1		
F	(\d{3})(\d{3})(\d{5})	$1 $2 $3		0	
R	001	979							1	0		0
D	general	1	[1359]\d{8}	9	8	
D	fixed	0		-1		
D	mobile	0		-1		
D	toll	0		-1		
D	premium	1	[1359]\d{8}		8	123456789
D	shared	0		-1		
D	personal	0		-1		
D	voip	0		-1		
D	pager	0		-1		
D	uan	0		-1		
D	voicemail	0		-1		
D	nointl	0		-1		
F	(\d)(\d{4})(\d{4})	$1 $2 $3		0		[1359]"
end Verif.Data
