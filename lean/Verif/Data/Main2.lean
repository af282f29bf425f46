import Verif.Data.Decode
/-! Generated from `/repo/metadata/data/metadata.xml.gz` (metadata v9.0.37); part 2 of 4.  See `Verif/Data/Decode.lean` for the line format. -/
namespace Verif.Data
shipped main2 r"R	EG	20	00		0		0		0	0		1
D	general	1	[189]\d{8,9}|[24-6]\d{8}|[135]\d{7}	8,9,10	6,7	
D	fixed	1	13[23]\d{6}|(?:15|57)\d{6,7}|(?:2\d|3|4[05-8]|5[05]|6[24-689]|8[2468]|9[235-7])\d{7}	8,9	6,7	234567890
D	mobile	1	1[0-25]\d{8}	10		1001234567
D	toll	1	800\d{7}	10		8001234567
D	premium	1	900\d{7}	10		9001234567
D	shared	0		-1		
D	personal	0		-1		
D	voip	0		-1		
D	pager	0		-1		
D	uan	0		-1		
D	voicemail	0		-1		
D	nointl	0		-1		
F	(\d)(\d{7,8})	$1 $2	0$1	0		[23]
F	(\d{2})(\d{6,7})	$1 $2	0$1	0		1[35]|[4-6]|8[2468]|9[235-7]
F	(\d{3})(\d{3})(\d{4})	$1 $2 $3	0$1	0		[89]
F	(\d{2})(\d{8})	$1 $2	0$1	0		1
R	EH	212	00		0		0		0	0		0
D	general	1	[5-8]\d{8}	9		
D	fixed	1	528[89]\d{5}			528812345
D	mobile	1	(?:6(?:[0-79]\d|8[0-247-9])|7(?:[016-8]\d|2[0-8]|3[01]|5[0-5]))\d{6}			650123456
D	toll	1	80[0-7]\d{6}			801234567
D	premium	1	89\d{7}			891234567
D	shared	0		-1		
D	personal	0		-1		
D	voip	1	(?:592(?:4[0-2]|93)|80[89]\d\d)\d{4}			592401234
D	pager	0		-1		
D	uan	0		-1		
D	voicemail	0		-1		
D	nointl	0		-1		
R	ER	291	00		0		0		0	0		0
D	general	1	[178]\d{6}	7	6	
D	fixed	1	(?:1(?:1[12568]|[24]0|55|6[146])|8\d\d)\d{4}		6	8370362
D	mobile	1	(?:17[1-3]|7\d\d)\d{4}			7123456
D	toll	0		-1		
D	premium	0		-1		
D	shared	0		-1		
D	personal	0		-1		
D	voip	0		-1		
D	pager	0		-1		
D	uan	0		-1		
D	voicemail	0		-1		
D	nointl	0		-1		
F	(\d)(\d{3})(\d{3})	$1 $2 $3	0$1	0		[178]
R	ES	34	00						0	0		1
D	general	1	(?:400|[5-9]\d\d)\d{6}	9		
D	fixed	1	96906(?:0[0-8]|1[1-9]|[2-9]\d)\d\d|9(?:69(?:0[0-57-9]|[1-9]\d)|73(?:[0-8]\d|9[1-9]))\d{4}|(?:400|8(?:[1356]\d|[28][0-8]|[47][1-9])|9(?:[135]\d|[268][0-8]|4[1-9]|7[124-9]))\d{6}			810123456
D	mobile	1	96906(?:09|10)\d\d|(?:590(?:10[0-2]|600)|97390\d)\d{3}|(?:6\d|7[1-48])\d{7}			612345678
D	toll	1	[89]00\d{6}			800123456
D	premium	1	80[367]\d{6}			803123456
D	shared	1	90[12]\d{6}			901123456
D	personal	1	70\d{7}			701234567
D	voip	0		-1		
D	pager	0		-1		
D	uan	1	51\d{7}			511234567
D	voicemail	0		-1		
D	nointl	0		-1		
F	(\d{4})	$1		0		905	905[124578]
F	(\d{6})	$1		0		[79]9
F	(\d{3})(\d{3})(\d{3})	$1 $2 $3		0		[89]00
F	(\d{3})(\d{2})(\d{2})(\d{2})	$1 $2 $3 $4		0		[4-9]
I	(\d{3})(\d{3})(\d{3})	$1 $2 $3		0		[89]00
I	(\d{3})(\d{2})(\d{2})(\d{2})	$1 $2 $3 $4		0		[4-9]
R	ET	251	00		0		0		0	0		0
D	general	1	(?:11|[2-57-9]\d)\d{7}	9	7	
D	fixed	1	(?:11(?:[124]\d\d|3(?:[0-79]\d|8[0-7])|5(?:[02-9]\d|1[0-57-9])|6(?:[02-79]\d|1[0-57-9]|8[0-8]))|2(?:2(?:11[1-9]|22[0-7]|33\d|44[1467]|66[1-68])|5(?:11[124-6]|33[2-8]|44[1467]|55[14]|66[1-3679]|77[124-79]|880))|3(?:3(?:11[0-46-8]|(?:22|55)[0-6]|33[0134689]|44[04]|66[01467])|4(?:44[0-8]|55[0-69]|66[0-3]|77[1-5]))|4(?:6(?:119|22[0-24-7]|33[1-5]|44[13-69]|55[14-689]|660|88[1-4])|7(?:(?:11|22)[1-9]|33[13-7]|44[13-6]|55[1-689]))|5(?:7(?:227|55[05]|(?:66|77)[14-8])|8(?:11[149]|22[013-79]|33[0-68]|44[013-8]|550|66[1-5]|77\d)))\d{4}		7	111112345
D	mobile	1	700[1-9]\d{5}|(?:7(?:0[1-9]|1[0-8]|2[1-35-79]|3\d|77|86|99)|(?:8[01]|9\d)\d)\d{6}			911234567
D	toll	0		-1		
D	premium	0		-1		
D	shared	0		-1		
D	personal	0		-1		
D	voip	0		-1		
D	pager	0		-1		
D	uan	0		-1		
D	voicemail	0		-1		
D	nointl	0		-1		
F	(\d{2})(\d{3})(\d{4})	$1 $2 $3	0$1	0		[1-57-9]
R	FI	358	00|99(?:[01469]|5(?:[14]1|3[23]|5[59]|77|88|9[09]))	00	0		0		0	1	1[03-79]|[2-9]	1
D	general	1	[1-35689]\d{4}|7\d{10,11}|(?:[124-7]\d|3[0-46-9])\d{8}|[1-9]\d{5,8}	5,6,7,8,9,10,11,12		
D	fixed	1	1[3-7][1-8]\d{3,6}|(?:19[1-8]|[23568][1-8]\d|9(?:00|[1-8]\d))\d{2,6}	5,6,7,8,9		131234567
D	mobile	1	4946\d{2,6}|(?:4[0-8]|50)\d{4,8}	6,7,8,9,10		412345678
D	toll	1	800\d{4,6}	7,8,9		800123456
D	premium	1	[67]00\d{5,6}	8,9		600123456
D	shared	0		-1		
D	personal	0		-1		
D	voip	0		-1		
D	pager	0		-1		
D	uan	1	20\d{4,8}|60[12]\d{5,6}|7(?:099\d{4,5}|5[03-9]\d{3,7})|20[2-59]\d\d|(?:606|7(?:0[78]|1|3\d))\d{7}|(?:10|29|3[09]|70[1-5]\d)\d{4,8}			10112345
D	voicemail	0		-1		
D	nointl	1	20(?:2[023]|9[89])\d{1,6}|(?:60[12]\d|7099)\d{4,5}|(?:606|7(?:0[78]|1|3\d))\d{7}|(?:[1-3]00|7(?:0[1-5]\d\d|5[03-9]))\d{3,7}			
F	(\d{5})	$1	0$1	0		75[12]
F	(\d{5})	$1	0$1	0		20[2-59]
F	(\d{6})	$1		0		11
F	(\d{3})(\d{3,7})	$1 $2	0$1	0		(?:[1-3]0|[68])0|70[07-9]
F	(\d{2})(\d{4,8})	$1 $2	0$1	0		[14]|2[09]|50|7[135]
F	(\d{2})(\d{6,10})	$1 $2	0$1	0		7
F	(\d)(\d{4,9})	$1 $2	0$1	0		(?:19|[2568])[1-8]|3(?:0[1-9]|[1-9])|9
I	(\d{5})	$1	0$1	0		20[2-59]
I	(\d{3})(\d{3,7})	$1 $2	0$1	0		(?:[1-3]0|[68])0|70[07-9]
I	(\d{2})(\d{4,8})	$1 $2	0$1	0		[14]|2[09]|50|7[135]
I	(\d{2})(\d{6,10})	$1 $2	0$1	0		7
I	(\d)(\d{4,9})	$1 $2	0$1	0		(?:19|[2568])[1-8]|3(?:0[1-9]|[1-9])|9
R	FJ	679	0(?:0|52)	00					0	0		0
D	general	1	45\d{5}|(?:0800\d|[235-9])\d{6}	7,11		
D	fixed	1	603\d{4}|(?:3[0-6]|6[25-7]|8[58])\d{5}	7		3212345
D	mobile	1	(?:[279]\d|45|5[01568]|8[034679])\d{5}	7		7012345
D	toll	1	0800\d{7}	11		08001234567
D	premium	0		-1		
D	shared	0		-1		
D	personal	0		-1		
D	voip	0		-1		
D	pager	0		-1		
D	uan	0		-1		
D	voicemail	0		-1		
D	nointl	0		-1		
F	(\d{3})(\d{4})	$1 $2		0		[235-9]|45
F	(\d{4})(\d{3})(\d{4})	$1 $2 $3		0		0
R	FK	500	00						0	0		0
D	general	1	[2-7]\d{4}	5		
D	fixed	1	[2-47]\d{4}			31234
D	mobile	1	[56]\d{4}			51234
D	toll	0		-1		
D	premium	0		-1		
D	shared	0		-1		
D	personal	0		-1		
D	voip	0		-1		
D	pager	0		-1		
D	uan	0		-1		
D	voicemail	0		-1		
D	nointl	0		-1		
R	FM	691	00						0	0		0
D	general	1	(?:[39]\d\d|820)\d{4}	7		
D	fixed	1	31(?:00[67]|208|309)\d\d|(?:3(?:[2357]0[1-9]|602|804|905)|(?:820|9[2-6]\d)\d)\d{3}			3201234
D	mobile	1	31(?:00[67]|208|309)\d\d|(?:3(?:[2357]0[1-9]|602|804|905)|(?:820|9[2-7]\d)\d)\d{3}			3501234
D	toll	0		-1		
D	premium	0		-1		
D	shared	0		-1		
D	personal	0		-1		
D	voip	0		-1		
D	pager	0		-1		
D	uan	0		-1		
D	voicemail	0		-1		
D	nointl	0		-1		
F	(\d{3})(\d{4})	$1 $2		0		[389]
R	FO	298	00				(10(?:01|[12]0|88))		0	0		0
D	general	1	[2-9]\d{5}	6		
D	fixed	1	(?:20|[34]\d|8[19])\d{4}			201234
D	mobile	1	(?:[27][1-9]|5\d|9[16])\d{4}			211234
D	toll	1	80[257-9]\d{3}			802123
D	premium	1	90(?:[13-5][15-7]|2[125-7]|9\d)\d\d			901123
D	shared	0		-1		
D	personal	0		-1		
D	voip	1	6[0-36]\d{4}			601234
D	pager	0		-1		
D	uan	0		-1		
D	voicemail	0		-1		
D	nointl	0		-1		
F	(\d{2})(\d{2})(\d{2})	$1 $2 $3		0	$CC $1	[2-9]
R	FR	33	00		0		0		0	0		1
D	general	1	[1-9]\d{8}	9		
D	fixed	1	(?:26[013-9]|59[1-35-9])\d{6}|(?:[13]\d|2[0-57-9]|4[1-9]|5[0-8])\d{7}			123456789
D	mobile	1	(?:6(?:[0-24-8]\d|3[0-8]|9[589])|7[3-9]\d)\d{6}			612345678
D	toll	1	80[0-5]\d{6}			801234567
D	premium	1	836(?:0[0-36-9]|[1-9]\d)\d{4}|8(?:1[2-9]|2[2-47-9]|3[0-57-9]|[569]\d|8[0-35-9])\d{6}			891123456
D	shared	1	8(?:1[01]|2[0156]|4[024]|84)\d{6}			884012345
D	personal	0		-1		
D	voip	1	9\d{8}			912345678
D	pager	0		-1		
D	uan	1	80[6-9]\d{6}			806123456
D	voicemail	0		-1		
D	nointl	0		-1		
F	(\d{4})	$1		0		10
F	(\d{3})(\d{3})	$1 $2		0		1
F	(\d{3})(\d{2})(\d{2})(\d{2})	$1 $2 $3 $4	0 $1	0		8
F	(\d)(\d{2})(\d{2})(\d{2})(\d{2})	$1 $2 $3 $4 $5	0$1	0		[1-79]
I	(\d{3})(\d{2})(\d{2})(\d{2})	$1 $2 $3 $4	0 $1	0		8
I	(\d)(\d{2})(\d{2})(\d{2})(\d{2})	$1 $2 $3 $4 $5	0$1	0		[1-79]
R	GA	241	00				0(11\d{6}|60\d{6}|61\d{6}|6[256]\d{6}|7[467]\d{6})	$1	0	0		0
D	general	1	(?:[067]\d|11)\d{6}|[2-7]\d{6}	7,8		
D	fixed	1	[01]1\d{6}	8		01441234
D	mobile	1	(?:(?:0[2-7]|7[467])\d|6(?:0[0-4]|10|[256]\d))\d{5}|[2-7]\d{6}			06031234
D	toll	0		-1		
D	premium	0		-1		
D	shared	0		-1		
D	personal	0		-1		
D	voip	0		-1		
D	pager	0		-1		
D	uan	0		-1		
D	voicemail	0		-1		
D	nointl	0		-1		
F	(\d)(\d{2})(\d{2})(\d{2})	$1 $2 $3 $4	0$1	0		[2-7]
F	(\d{2})(\d{2})(\d{2})(\d{2})	$1 $2 $3 $4		0		0
F	(\d{2})(\d{2})(\d{2})(\d{2})	$1 $2 $3 $4	0$1	0		11|[67]
R	GB	44	00		0	 x	0|180020		0	1		1
D	general	1	[1-357-9]\d{9}|[18]\d{8}|8\d{6}	7,9,10	4,5,6,8	
D	fixed	1	(?:1(?:1(?:3(?:[0-58]\d\d|73[0-5])|4(?:(?:[0-5]\d|70)\d|69[7-9])|(?:(?:5[0-26-9]|[78][0-49])\d|6(?:[0-4]\d|5[01]))\d)|(?:2(?:(?:0[024-9]|2[3-9]|3[3-79]|4[1-689]|[58][02-9]|6[0-47-9]|7[013-9]|9\d)\d|1(?:[0-7]\d|8[0-3]))|(?:3(?:0\d|1[0-8]|[25][02-9]|3[02-579]|[468][0-46-9]|7[1-35-79]|9[2-578])|4(?:0[03-9]|[137]\d|[28][02-57-9]|4[02-69]|5[0-8]|[69][0-79])|5(?:0[1-35-9]|[16]\d|2[024-9]|3[015689]|4[02-9]|5[03-9]|7[0-35-9]|8[0-468]|9[0-57-9])|6(?:0[034689]|1\d|2[0-35689]|[38][013-9]|4[1-467]|5[0-69]|6[13-9]|7[0-8]|9[0-24578])|7(?:0[0246-9]|2\d|3[0236-8]|4[03-9]|5[0-46-9]|6[013-9]|7[0-35-9]|8[024-9]|9[02-9])|8(?:0[35-9]|2[1-57-9]|3[02-578]|4[0-578]|5[124-9]|6[2-69]|7\d|8[02-9]|9[02569])|9(?:0[02-589]|[18]\d|2[02-689]|3[1-57-9]|4[2-9]|5[0-579]|6[2-47-9]|7[0-24578]|9[2-57]))\d)\d)|2(?:0[013478]|3[0189]|4[017]|8[0-46-9]|9[0-2])\d{3})\d{4}|1(?:2(?:0(?:46[1-4]|87[2-9])|545[1-79]|76(?:2\d|3[1-8]|6[1-6])|9(?:7(?:2[0-4]|3[2-5])|8(?:2[2-8]|7[0-47-9]|8[3-5])))|3(?:6(?:38[2-5]|47[23])|8(?:47[04-9]|64[0157-9]))|4(?:044[1-7]|20(?:2[23]|8\d)|6(?:0(?:30|5[2-57]|6[1-8]|7[2-8])|140)|8(?:052|87[1-3]))|5(?:2(?:4(?:3[2-79]|6\d)|76\d)|6(?:26[06-9]|686))|6(?:06(?:4\d|7[4-79])|295[5-7]|35[34]\d|47(?:24|61)|59(?:5[08]|6[67]|74)|9(?:55[0-4]|77[23]))|7(?:26(?:6[13-9]|7[0-7])|(?:442|688)\d|50(?:2[0-3]|[3-68]2|76))|8(?:27[56]\d|37(?:5[2-5]|8[239])|843[2-58])|9(?:0(?:0(?:6[1-8]|85)|52\d)|3583|4(?:66[1-8]|9(?:2[01]|81))|63(?:23|3[1-4])|9561))\d{3}	9,10	4,5,6,7,8	1212345678
D	mobile	1	7(?:457[0-57-9]|700[01]|911[028])\d{5}|7(?:[1-3]\d\d|4(?:[0-46-9]\d|5[0-689])|5(?:0[0-8]|[13-9]\d|2[0-35-9])|7(?:0[1-9]|[1-7]\d|8[02-9]|9[0-689])|8(?:[014-9]\d|[23][0-8])|9(?:[024-9]\d|1[02-9]|3[0-689]))\d{6}	10		7400123456
D	toll	1	80[08]\d{7}|800\d{6}|8001111			8001234567
D	premium	1	(?:8(?:4[2-5]|7[0-3])|9(?:[01]\d|8[2-49]))\d{7}|845464\d	7,10		9012345678
D	shared	0		-1		
D	personal	1	70\d{8}	10		7012345678
D	voip	1	56\d{8}	10		5612345678
D	pager	1	76(?:464|652)\d{5}|76(?:0[0-28]|2[356]|34|4[01347]|5[49]|6[0-369]|77|8[14]|9[139])\d{6}	10		7640123456
D	uan	1	(?:3[0347]|55)\d{8}	10		5512345678
D	voicemail	0		-1		
D	nointl	0		-1		
F	(\d{3})(\d{4})	$1 $2	0$1	0		800	8001	80011	800111	8001111
F	(\d{3})(\d{2})(\d{2})	$1 $2 $3	0$1	0		845	8454	84546	845464
F	(\d{3})(\d{6})	$1 $2	0$1	0		800
F	(\d{5})(\d{4,5})	$1 $2	0$1	0		1(?:38|5[23]|69|76|94)	1(?:(?:38|69)7|5(?:24|39)|768|946)	1(?:3873|5(?:242|39[4-6])|(?:697|768)[347]|9467)
F	(\d{4})(\d{5,6})	$1 $2	0$1	0		1(?:[2-69][02-9]|[78])
F	(\d{2})(\d{4})(\d{4})	$1 $2 $3	0$1	0		[25]|7(?:0|6[02-9])	[25]|7(?:0|6(?:[03-9]|2[356]))
F	(\d{4})(\d{6})	$1 $2	0$1	0		7
F	(\d{3})(\d{3})(\d{4})	$1 $2 $3	0$1	0		[1389]
R	GD	1	011		1		([2-9]\d{6})$|1	473$1	0	0	473	1
D	general	1	(?:473|[58]\d\d|900)\d{7}	10	7	
D	fixed	1	473(?:2(?:3[0-2]|69)|3(?:2[89]|86)|4(?:[06]8|3[5-9]|4[0-4]|5[59]|73|90)|63[68]|7(?:58|84)|800|938)\d{4}		7	4732691234
D	mobile	1	473(?:4(?:0[2-79]|1[04-9]|2[0-5]|49|5[6-8])|5(?:2[01]|3[3-8])|901)\d{4}		7	4734031234
D	toll	1	8(?:00|33|44|55|66|77|88)[2-9]\d{6}			8002123456
D	premium	1	900[2-9]\d{6}			9002123456
D	shared	0		-1		
D	personal	1	52(?:3(?:[2-46-9][02-9]\d|5(?:[02-46-9]\d|5[0-46-9]))|4(?:[2-478][02-9]\d|5(?:[034]\d|2[024-9]|5[0-46-9])|6(?:0[1-9]|[2-9]\d)|9(?:[05-9]\d|2[0-5]|49)))\d{4}|52[34][2-9]1[02-9]\d{4}|5(?:00|2[125-9]|3[23]|44|66|77|88)[2-9]\d{6}			5002345678
D	voip	0		-1		
D	pager	0		-1		
D	uan	0		-1		
D	voicemail	0		-1		
D	nointl	0		-1		
R	GE	995	00		0		0		0	0		1
D	general	1	(?:[3-57]\d\d|800)\d{6}	9	6,7	
D	fixed	1	(?:3(?:[256]\d|4[124-9]|7[0-4])|4(?:1\d|2[2-7]|3[1-79]|4[2-8]|7[239]|9[1-7]))\d{6}		6,7	322123456
D	mobile	1	5(?:(?:(?:0555|1(?:[17]77|555))[5-9]|757(?:7[7-9]|8[01]))\d|22252[0-4])\d\d|5(?:0(?:0(?:1[09]|70)|505)|1(?:0[01]0|1(?:07|33|51))|2(?:0[02]0|2[25]2)|3(?:0[03]0|3[35]3)|4(?:0[04]0|411)|5222|9000)[0-4]\d{3}|(?:5(?:0(?:0(?:0\d|1[12]|2[02]|3[0-6]|4[04]|5[05]|77|88|9[09])|(?:[14]\d|77)\d|22[02])|1(?:1(?:[03][01]|[124]\d|5[02-6]|7[0-6])|4\d\d)|2(?:228|555)|3555|4(?:4(?:[02-9]\d|14)|555)|5(?:[0157-9]\d\d|200|333|4(?:44|55))|6[89]\d\d|7(?:(?:[0147-9]\d|22)\d|5(?:00|[57]5))|8(?:0(?:[018]\d|2[0-4])|5(?:55|8[89])|8(?:55|88))|9(?:090|[1-35-9]\d\d))|790\d\d)\d{4}			555123456
D	toll	1	800\d{6}			800123456
D	premium	0		-1		
D	shared	0		-1		
D	personal	0		-1		
D	voip	1	70[67]\d{6}			706123456
D	pager	0		-1		
D	uan	0		-1		
D	voicemail	0		-1		
D	nointl	1	70[67]\d{6}			
F	(\d{3})(\d{3})(\d{3})	$1 $2 $3	0$1	0		70
F	(\d{2})(\d{3})(\d{2})(\d{2})	$1 $2 $3 $4	0$1	0		32
F	(\d{3})(\d{2})(\d{2})(\d{2})	$1 $2 $3 $4		0		[57]
F	(\d{3})(\d{2})(\d{2})(\d{2})	$1 $2 $3 $4	0$1	0		[348]
R	GF	594	00		0		0		0	0		1
D	general	1	(?:694\d|7093)\d{5}|(?:59|[89]\d)\d{7}	9		
D	fixed	1	(?:59(?:4(?:[02-49]\d|1[0-5]|5[6-9]|6[0-3]|80)|88\d)|80[6-9]\d\d)\d{4}			594101234
D	mobile	1	(?:694(?:[0-249]\d|3[0-8])|7093[0-3])\d{4}			694201234
D	toll	1	80[0-5]\d{6}			800012345
D	premium	1	8[129]\d{7}			890123456
D	shared	0		-1		
D	personal	0		-1		
D	voip	1	9(?:(?:396|76\d)\d|476[0-6])\d{4}			976012345
D	pager	0		-1		
D	uan	0		-1		
D	voicemail	0		-1		
D	nointl	0		-1		
F	(\d{3})(\d{2})(\d{2})(\d{2})	$1 $2 $3 $4	0$1	0		[5-7]|80[6-9]|9[47]
F	(\d{3})(\d{2})(\d{2})(\d{2})	$1 $2 $3 $4	0$1	0		[89]
R	GG	44	00		0		([25-9]\d{5})$|0|180020	1481$1	0	0		0
D	general	1	(?:1481|[357-9]\d{3})\d{6}|8\d{6}(?:\d{2})?	7,9,10	6	
D	fixed	1	1481[25-9]\d{5}	10	6	1481256789
D	mobile	1	7(?:(?:781|839)\d|911[17])\d{5}	10		7781123456
D	toll	1	80[08]\d{7}|800\d{6}|8001111			8001234567
D	premium	1	(?:8(?:4[2-5]|7[0-3])|9(?:[01]\d|8[0-3]))\d{7}|845464\d	7,10		9012345678
D	shared	0		-1		
D	personal	1	70\d{8}	10		7012345678
D	voip	1	56\d{8}	10		5612345678
D	pager	1	76(?:464|652)\d{5}|76(?:0[0-28]|2[356]|34|4[01347]|5[49]|6[0-369]|77|8[14]|9[139])\d{6}	10		7640123456
D	uan	1	(?:3[0347]|55)\d{8}	10		5512345678
D	voicemail	0		-1		
D	nointl	0		-1		
R	GH	233	00		0		0		0	0		1
D	general	1	[235]\d{8}|800\d{5,6}	8,9	7	
D	fixed	1	3082[0-5]\d{4}|3(?:0(?:[237]\d|8[01])|[167](?:2[0-6]|7\d|80)|2(?:2[0-5]|7\d|80)|3(?:2[0-3]|7\d|80)|4(?:2[013-9]|3[01]|7\d|80)|5(?:2[0-7]|7\d|80)|8(?:2[0-2]|7\d|80)|9(?:[28]0|7\d))\d{5}	9	7	302345678
D	mobile	1	(?:2(?:[0346-9]\d|5[67])|5(?:[03-7]\d|9[1-9]))\d{6}	9		231234567
D	toll	1	800\d{5,6}			80012345
D	premium	0		-1		
D	shared	0		-1		
D	personal	0		-1		
D	voip	0		-1		
D	pager	0		-1		
D	uan	0		-1		
D	voicemail	0		-1		
D	nointl	1	800\d{5,6}			
F	(\d{3})(\d{4})	$1 $2		0		[237]|8[0-2]
F	(\d{3})(\d{5})	$1 $2	0$1	0		8
F	(\d{2})(\d{3})(\d{4})	$1 $2 $3	0$1	0		[2358]
I	(\d{3})(\d{5})	$1 $2	0$1	0		8
I	(\d{2})(\d{3})(\d{4})	$1 $2 $3	0$1	0		[2358]
R	GI	350	00						0	0		1
D	general	1	(?:[25]\d|60)\d{6}	8		
D	fixed	1	2190[0-2]\d{3}|2(?:0(?:[02]\d|3[01])|16[24-9]|2[2-5]\d)\d{4}			20012345
D	mobile	1	5251[0-4]\d{3}|(?:5(?:[146-8]\d\d|250)|60(?:1[01]|6\d))\d{4}			57123456
D	toll	0		-1		
D	premium	0		-1		
D	shared	0		-1		
D	personal	0		-1		
D	voip	0		-1		
D	pager	0		-1		
D	uan	0		-1		
D	voicemail	0		-1		
D	nointl	0		-1		
F	(\d{3})(\d{5})	$1 $2		0		2
R	GL	299	00						0	0		0
D	general	1	(?:19|[2-689]\d|70)\d{4}	6		
D	fixed	1	(?:19|3[1-7]|[68][1-9]|70|9\d)\d{4}			321000
D	mobile	1	[245]\d{5}			221234
D	toll	1	80\d{4}			801234
D	premium	0		-1		
D	shared	0		-1		
D	personal	0		-1		
D	voip	1	3[89]\d{4}			381234
D	pager	0		-1		
D	uan	0		-1		
D	voicemail	0		-1		
D	nointl	0		-1		
F	(\d{2})(\d{2})(\d{2})	$1 $2 $3		0		19|[2-9]
R	GM	220	00						0	0		0
D	general	1	[48]\d{8}|[2-9]\d{6}	7,9		
D	fixed	1	44(?:44[6-9]|8[0-389]\d)\d{4}|44[6-9]\d{4}|(?:4(?:[23]|44[23])|8[0-389])\d{5}|44(?:1|441)[024679]\d{3}|(?:445|5)(?:5(?:3\d|4[0-7])|6[67]\d|7(?:1[04]|2[035]|3[58]|48))\d{3}			5661234
D	mobile	1	(?:(?:[23679]\d|4[015]|8(?:(?:3[35]|6[68]|99)\d|7(?:[27]\d|4[015])))\d|5(?:[0-489]\d|56))\d{4}|8[4-7]\d{5}			3012345
D	toll	0		-1		
D	premium	0		-1		
D	shared	0		-1		
D	personal	0		-1		
D	voip	0		-1		
D	pager	0		-1		
D	uan	0		-1		
D	voicemail	0		-1		
D	nointl	0		-1		
F	(\d{3})(\d{4})	$1 $2		0		[235-9]|4(?:[0-35]|4[16-9])
F	(\d{2})(\d{3})(\d{4})	$1 $2 $3		0		[48]
R	GN	224	00						0	0		0
D	general	1	722\d{6}|(?:3|6\d)\d{7}	8,9		
D	fixed	1	3(?:0(?:24|3[12]|4[1-35-7]|5[13]|6[189]|[78]1|9[1478])|1\d\d)\d{4}	8		30241234
D	mobile	1	6[0-356]\d{7}	9		601123456
D	toll	0		-1		
D	premium	0		-1		
D	shared	0		-1		
D	personal	0		-1		
D	voip	1	722\d{6}	9		722123456
D	pager	0		-1		
D	uan	0		-1		
D	voicemail	0		-1		
D	nointl	0		-1		
F	(\d{2})(\d{2})(\d{2})(\d{2})	$1 $2 $3 $4		0		3
F	(\d{3})(\d{2})(\d{2})(\d{2})	$1 $2 $3 $4		0		[67]
R	GP	590	00		0		0		0	1		1
D	general	1	7090\d{5}|(?:[56]9|[89]\d)\d{7}	9		
D	fixed	1	(?:59(?:0(?:0[1-68]|[14][0-24-9]|2[0-68]|3[1-9]|5[3-579]|[68][0-689]|7[08]|9\d)|87\d)|80[6-9]\d\d)\d{4}			590201234
D	mobile	1	(?:69(?:0\d\d|1(?:2[2-9]|3[0-5]))|7090[0-4])\d{4}			690001234
D	toll	1	80[0-5]\d{6}			800012345
D	premium	1	8[129]\d{7}			810123456
D	shared	0		-1		
D	personal	0		-1		
D	voip	1	9(?:(?:39[5-7]|76[018])\d|475[0-6])\d{4}			976012345
D	pager	0		-1		
D	uan	0		-1		
D	voicemail	0		-1		
D	nointl	0		-1		
F	(\d{3})(\d{2})(\d{2})(\d{2})	$1 $2 $3 $4	0$1	0		[5-79]|80[6-9]
F	(\d{3})(\d{2})(\d{2})(\d{2})	$1 $2 $3 $4	0$1	0		8
R	GQ	240	00						0	0		0
D	general	1	222\d{6}|(?:3\d|55|[89]0)\d{7}	9		
D	fixed	1	33[0-24-9]\d[46]\d{4}|3(?:33|5\d)\d[7-9]\d{4}			333091234
D	mobile	1	(?:222|55\d)\d{6}			222123456
D	toll	1	80\d[1-9]\d{5}			800123456
D	premium	1	90\d[1-9]\d{5}			900123456
D	shared	0		-1		
D	personal	0		-1		
D	voip	0		-1		
D	pager	0		-1		
D	uan	0		-1		
D	voicemail	0		-1		
D	nointl	0		-1		
F	(\d{3})(\d{3})(\d{3})	$1 $2 $3		0		[235]
F	(\d{3})(\d{6})	$1 $2		0		[89]
R	GR	30	00						0	0		1
D	general	1	5005000\d{3}|8\d{9,11}|(?:[269]\d|70)\d{8}	10,11,12		
D	fixed	1	2(?:1\d\d|2(?:2[1-46-9]|[36][1-8]|4[1-7]|5[1-4]|7[1-5]|[89][1-9])|3(?:1\d|2[1-57]|[35][1-3]|4[13]|7[1-7]|8[124-6]|9[1-79])|4(?:1\d|2[1-8]|3[1-4]|4[13-5]|6[1-578]|9[1-5])|5(?:1\d|[29][1-4]|3[1-5]|4[124]|5[1-6])|6(?:1\d|[269][1-6]|3[1245]|4[1-7]|5[13-9]|7[14]|8[1-5])|7(?:1\d|2[1-5]|3[1-6]|4[1-7]|5[1-57]|6[135]|9[125-7])|8(?:1\d|2[1-5]|[34][1-4]|9[1-57]))\d{6}	10		2123456789
D	mobile	1	68[57-9]\d{7}|(?:69|94)\d{8}	10		6912345678
D	toll	1	800\d{7,9}			8001234567
D	premium	1	90[19]\d{7}	10		9091234567
D	shared	1	8(?:0[16]|12|[27]5|50)\d{7}	10		8011234567
D	personal	1	70\d{8}	10		7012345678
D	voip	0		-1		
D	pager	0		-1		
D	uan	1	5005000\d{3}	10		5005000123
D	voicemail	0		-1		
D	nointl	0		-1		
F	(\d{2})(\d{4})(\d{4})	$1 $2 $3		0		21|7
F	(\d{4})(\d{6})	$1 $2		0		2(?:2|3[2-57-9]|4[2-469]|5[2-59]|6[2-9]|7[2-69]|8[2-49])|5
F	(\d{3})(\d{3})(\d{4})	$1 $2 $3		0		[2689]
F	(\d{3})(\d{3,4})(\d{5})	$1 $2 $3		0		8
R	GT	502	00						0	0		0
D	general	1	80\d{6}|(?:1\d{3}|[2-7])\d{7}	8,11		
D	fixed	1	[267][2-9]\d{6}	8		22456789
D	mobile	1	(?:[3-5]\d\d|80[0-4])\d{5}	8		51234567
D	toll	1	18[01]\d{8}	11		18001112222
D	premium	1	19\d{9}	11		19001112222
D	shared	0		-1		
D	personal	0		-1		
D	voip	0		-1		
D	pager	0		-1		
D	uan	0		-1		
D	voicemail	0		-1		
D	nointl	0		-1		
F	(\d{4})(\d{4})	$1 $2		0		[2-8]
F	(\d{4})(\d{3})(\d{4})	$1 $2 $3		0		1
R	GU	1	011		1		([2-9]\d{6})$|1	671$1	1	0	671	0
D	general	1	(?:[58]\d\d|671|900)\d{7}	10	7	
D	fixed	1	671(?:2\d\d|3(?:00|3[39]|4[349]|55|6[26])|4(?:00|56|7[1-9]|8[02-9])|5(?:55|6[2-5]|88)|6(?:3[2-578]|4[24-9]|5[34]|78|8[235-9])|7(?:[0479]7|2[0167]|3[45]|8[7-9])|8(?:[2-57-9]8|6[478])|9(?:2[29]|6[79]|7[1279]|8[7-9]|9[16-9]))\d{4}		7	6713001234
D	mobile	1	671(?:2\d\d|3(?:00|3[39]|4[349]|55|6[26])|4(?:00|56|7[1-9]|8[02-9])|5(?:55|6[2-5]|88)|6(?:3[2-578]|4[24-9]|5[34]|78|8[235-9])|7(?:[0479]7|2[0167]|3[45]|8[7-9])|8(?:[2-57-9]8|6[478])|9(?:2[29]|6[79]|7[1279]|8[7-9]|9[16-9]))\d{4}		7	6713001234
D	toll	1	8(?:00|33|44|55|66|77|88)[2-9]\d{6}			8002123456
D	premium	1	900[2-9]\d{6}			9002123456
D	shared	0		-1		
D	personal	1	52(?:3(?:[2-46-9][02-9]\d|5(?:[02-46-9]\d|5[0-46-9]))|4(?:[2-478][02-9]\d|5(?:[034]\d|2[024-9]|5[0-46-9])|6(?:0[1-9]|[2-9]\d)|9(?:[05-9]\d|2[0-5]|49)))\d{4}|52[34][2-9]1[02-9]\d{4}|5(?:00|2[125-9]|3[23]|44|66|77|88)[2-9]\d{6}			5002345678
D	voip	0		-1		
D	pager	0		-1		
D	uan	0		-1		
D	voicemail	0		-1		
D	nointl	0		-1		
R	GW	245	00						0	0		0
D	general	1	[49]\d{8}|4\d{6}	7,9		
D	fixed	1	443\d{6}	9		443201234
D	mobile	1	9(?:5\d|6[569]|77)\d{6}	9		955012345
D	toll	0		-1		
D	premium	0		-1		
D	shared	0		-1		
D	personal	0		-1		
D	voip	1	40\d{5}	7		4012345
D	pager	0		-1		
D	uan	0		-1		
D	voicemail	0		-1		
D	nointl	0		-1		
F	(\d{3})(\d{4})	$1 $2		0		40
F	(\d{3})(\d{3})(\d{3})	$1 $2 $3		0		[49]
R	GY	592	001						0	0		0
D	general	1	(?:[2-8]\d{3}|9008)\d{3}	7		
D	fixed	1	(?:2(?:1[6-9]|2[0-35-9]|3[1-4]|5[3-9]|6\d|7[0-79])|3(?:2[25-9]|3\d)|4(?:4[0-24]|5[56])|50[0-6]|77[1-57])\d{4}			2201234
D	mobile	1	(?:51[01]|6\d\d|7(?:[0-5]\d|6[0-79]|70|8[067]))\d{4}			6091234
D	toll	1	(?:289|8(?:00|6[28]|88|99))\d{4}			2891234
D	premium	1	9008\d{3}			9008123
D	shared	0		-1		
D	personal	0		-1		
D	voip	1	515\d{4}			5151234
D	pager	0		-1		
D	uan	0		-1		
D	voicemail	0		-1		
D	nointl	0		-1		
F	(\d{3})(\d{4})	$1 $2		0		[2-9]
R	HK	852	00(?:30|5[09]|[126-9]?)	00					0	0		1
D	general	1	8[0-46-9]\d{6,7}|9\d{4,7}|(?:[2-7]|9\d{3})\d{7}	5,6,7,8,9,11		
D	fixed	1	(?:2(?:[13-9]\d|2[013-9])\d|3(?:(?:[1569][0-24-9]|4[0-246-9]|7[0-24-69])\d|8(?:4[0-8]|[579]\d|6[0-5]))|58(?:0[1-9]|1[2-9]))\d{4}	8		21234567
D	mobile	1	(?:4(?:(?:09|24)[3-6]|44[0-35-9]|6(?:4[0-57-9]|6[0-6])|7(?:4[0-48]|6[0-5]))|5(?:25[3-7]|35[4-8]|73[0-6]|95[0-8])|6(?:26[013-8]|(?:66|78)[0-5])|70(?:7[1-8]|8[0-8])|84(?:4[0-2]|8[0-35-9])|9(?:29[013-9]|39[014-9]|59[0-467]|899))\d{4}|(?:4(?:4[0-35-9]|6[0-357-9]|7[0-35])|5(?:[1-59][0-46-9]|6[0-4689]|7[0-246-9])|6(?:0[1-9]|[13-59]\d|[268][0-57-9]|7[0-79])|70[1-59]|84[0-39]|9(?:0[1-9]|1[02-9]|[2358][0-8]|[467]\d))\d{5}	8		51234567
D	toll	1	800\d{6}	9		800123456
D	premium	1	900(?:[0-24-9]\d{7}|3\d{1,4})	5,6,7,8,11		90012345678
D	shared	0		-1		
D	personal	1	8(?:1[0-4679]\d|2(?:[0-36]\d|7[0-4])|3(?:[034]\d|2[09]|70))\d{4}	8		81123456
D	voip	0		-1		
D	pager	1	7(?:1(?:0[0-38]|1[0-3679]|3[013]|69|9[0136])|2(?:[02389]\d|1[18]|7[27-9])|3(?:[0-38]\d|7[0-369]|9[2357-9])|47\d|5(?:[178]\d|5[0-5])|6(?:0[0-7]|2[236-9]|[35]\d)|7(?:[27]\d|8[7-9])|8(?:[23689]\d|7[1-9])|9(?:[025]\d|6[0-246-8]|7[0-36-9]|8[238]))\d{4}	8		71123456
D	uan	1	30(?:0[1-9]|[15-7]\d|2[047]|89)\d{4}	8		30161234
D	voicemail	0		-1		
D	nointl	0		-1		
F	(\d{3})(\d{2,5})	$1 $2		0		900	9003
F	(\d{4})(\d{4})	$1 $2		0		[2-7]|8[1-4]|9(?:0[1-9]|[1-8])
F	(\d{3})(\d{3})(\d{3})	$1 $2 $3		0		8
F	(\d{3})(\d{2})(\d{3})(\d{3})	$1 $2 $3 $4		0		9
R	HN	504	00						0	0		0
D	general	1	8\d{10}|[237-9]\d{7}	8,11		
D	fixed	1	2(?:2(?:0[0-59]|1[1-9]|[23]\d|4[02-8]|5[57]|6[2458]|7[0135689]|8[01346-9]|9[0-2])|4(?:0[578]|2[3-59]|3[13-9]|4[0-68]|5[1-3589]|80)|5(?:0[2357-9]|1[1-6]|4[03-58]|5\d|6[014-69]|7[04]|80)|6(?:[056]\d|17|2[067]|3[047]|4[0-378]|[78][0-8]|9[01])|7(?:0[5-79]|2[01]|6[46-9]|7[02-9]|8[034]|91)|8(?:79|8[0-357-9]|9[1-57-9]))\d{4}	8		22123456
D	mobile	1	[37-9]\d{7}	8		91234567
D	toll	1	8002\d{7}	11		80021234567
D	premium	0		-1		
D	shared	0		-1		
D	personal	0		-1		
D	voip	0		-1		
D	pager	0		-1		
D	uan	0		-1		
D	voicemail	0		-1		
D	nointl	1	8002\d{7}	11		
F	(\d{4})(\d{4})	$1-$2		0		[237-9]
F	(\d{3})(\d{4})(\d{4})	$1 $2 $3		0		8
I	(\d{4})(\d{4})	$1-$2		0		[237-9]
R	HR	385	00		0		0		0	0		1
D	general	1	[2-69]\d{8}|80\d{5,7}|[1-79]\d{7}|6\d{6}	7,8,9	6	
D	fixed	1	1\d{7}|(?:2[0-3]|3[1-5]|4[02-47-9]|5[1-3])\d{6,7}	8,9	6,7	12345678
D	mobile	1	9(?:(?:0[1-9]|[12589]\d)\d\d|7(?:[0679]\d\d|5(?:[01]\d|44|55|77|9[5-79])))\d{4}|98\d{6}	8,9		921234567
D	toll	1	80\d{5,7}			800123456
D	premium	1	6[01459]\d{6}|6[01]\d{5}	7,8		6001234
D	shared	0		-1		
D	personal	1	7[45]\d{6}	8		74123456
D	voip	0		-1		
D	pager	0		-1		
D	uan	1	62\d{6,7}|72\d{6}	8,9		62123456
D	voicemail	0		-1		
D	nointl	0		-1		
F	(\d{2})(\d{2})(\d{3})	$1 $2 $3	0$1	0		6[01]
F	(\d{3})(\d{2})(\d{2,3})	$1 $2 $3	0$1	0		8
F	(\d)(\d{4})(\d{3})	$1 $2 $3	0$1	0		1
F	(\d{2})(\d{3})(\d{3,4})	$1 $2 $3	0$1	0		6|7[245]
F	(\d{2})(\d{3})(\d{3,4})	$1 $2 $3	0$1	0		9
F	(\d{2})(\d{3})(\d{3,4})	$1 $2 $3	0$1	0		[2-57]
F	(\d{3})(\d{3})(\d{3})	$1 $2 $3	0$1	0		8
R	HT	509	00						0	0		0
D	general	1	[2-589]\d{7}	8		
D	fixed	1	2(?:2\d|5[1-5]|81|9[149])\d{5}			22453300
D	mobile	1	(?:[34]\d|5[568])\d{6}			34101234
D	toll	1	8\d{7}			80012345
D	premium	0		-1		
D	shared	0		-1		
D	personal	0		-1		
D	voip	1	9(?:[67][0-4]|8[0-3589]|9\d)\d{5}			98901234
D	pager	0		-1		
D	uan	0		-1		
D	voicemail	0		-1		
D	nointl	0		-1		
F	(\d{2})(\d{2})(\d{4})	$1 $2 $3		0		[2-589]
R	HU	36	00		06		06		0	0		1
D	general	1	[235-7]\d{8}|[1-9]\d{7}	8,9	6,7	
D	fixed	1	(?:1\d|[27][2-9]|3[2-7]|4[24-9]|5[2-79]|6[23689]|8[2-57-9]|9[2-69])\d{6}	8	6,7	12345678
D	mobile	1	(?:[257]0|3[01])\d{7}	9		201234567
D	toll	1	(?:[48]0\d|680[29])\d{5}			80123456
D	premium	1	9[01]\d{6}	8		90123456
D	shared	0		-1		
D	personal	0		-1		
D	voip	1	21\d{7}	9		211234567
D	pager	0		-1		
D	uan	1	38\d{7}	9		381234567
D	voicemail	0		-1		
D	nointl	1	(?:[48]0\d|680[29])\d{5}			
F	(\d)(\d{3})(\d{4})	$1 $2 $3	(06 $1)	0		1
F	(\d{2})(\d{3})(\d{3})	$1 $2 $3	(06 $1)	0		[27][2-9]|3[2-7]|4[24-9]|5[2-79]|6|8[2-57-9]|9[2-69]
F	(\d{2})(\d{3})(\d{3,4})	$1 $2 $3	06 $1	0		[2-9]
R	ID	62	00[89]		0		0		0	0		0
D	general	1	00[1-9]\d{9,14}|(?:[1-36]|8\d{5})\d{6}|00\d{9}|[1-9]\d{8,10}|[2-9]\d{7}	7,8,9,10,11,12,13,14,15,16,17	5,6	
D	fixed	1	2[124]\d{7,8}|619\d{8}|2(?:1(?:14|500)|2\d{3})\d{3}|61\d{5,8}|(?:2(?:[35][1-4]|6[0-8]|7[1-6]|8\d|9[1-8])|3(?:1|[25][1-8]|3[1-68]|4[1-3]|6[1-3568]|7[0-469]|8\d)|4(?:0[1-589]|1[01347-9]|2[0-36-8]|3[0-24-68]|43|5[1-378]|6[1-5]|7[134]|8[1245])|5(?:1[1-35-9]|2[25-8]|3[124-9]|4[1-3589]|5[1-46]|6[1-8])|6(?:[25]\d|3[1-69]|4[1-6])|7(?:02|[125][1-9]|[36]\d|4[1-8]|7[0-36-9])|9(?:0[12]|1[013-8]|2[0-479]|5[125-8]|6[23679]|7[159]|8[01346]))\d{5,8}	7,8,9,10,11	5,6	218350123
D	mobile	1	8[1-35-9]\d{7,10}	9,10,11,12		812345678
D	toll	1	00(?:1803\d{5,11}|7803\d{7})|(?:177\d|800)\d{5,7}	8,9,10,11,12,13,14,15,16,17		8001234567
D	premium	1	809\d{7}	10		8091234567
D	shared	1	804\d{7}	10		8041234567
D	personal	0		-1		
D	voip	0		-1		
D	pager	0		-1		
D	uan	1	(?:1500|8071\d{3})\d{3}	7,10		8071123456
D	voicemail	0		-1		
D	nointl	1	001803\d{5,11}|(?:007803\d|8071)\d{6}	10,11,12,13,14,15,16,17		
F	(\d)(\d{3})(\d{3})	$1 $2 $3		0		15
F	(\d{2})(\d{5,9})	$1 $2	(0$1)	0		2[124]|[36]1
F	(\d{3})(\d{5,7})	$1 $2	0$1	0		800
F	(\d{3})(\d{5,8})	$1 $2	(0$1)	0		[2-79]
F	(\d{3})(\d{3,4})(\d{3})	$1-$2-$3	0$1	0		8[1-35-9]
F	(\d{3})(\d{6,8})	$1 $2	0$1	0		1
F	(\d{3})(\d{3})(\d{4})	$1 $2 $3	0$1	0		804
F	(\d{3})(\d)(\d{3})(\d{3})	$1 $2 $3 $4	0$1	0		80
F	(\d{3})(\d{4})(\d{4,5})	$1-$2-$3	0$1	0		8
F	(\d{3})(\d{3})(\d{3})(\d{2,8})	$1 $2 $3 $4		0		001
F	(\d{2})(\d{4})(\d{3})(\d{4})	$1 $2 $3 $4		0		0
I	(\d)(\d{3})(\d{3})	$1 $2 $3		0		15
I	(\d{2})(\d{5,9})	$1 $2	(0$1)	0		2[124]|[36]1
I	(\d{3})(\d{5,7})	$1 $2	0$1	0		800
I	(\d{3})(\d{5,8})	$1 $2	(0$1)	0		[2-79]
I	(\d{3})(\d{3,4})(\d{3})	$1-$2-$3	0$1	0		8[1-35-9]
I	(\d{3})(\d{6,8})	$1 $2	0$1	0		1
I	(\d{3})(\d{3})(\d{4})	$1 $2 $3	0$1	0		804
I	(\d{3})(\d)(\d{3})(\d{3})	$1 $2 $3 $4	0$1	0		80
I	(\d{3})(\d{4})(\d{4,5})	$1-$2-$3	0$1	0		8
R	IE	353	00		0		0		0	0		1
D	general	1	(?:1\d|[2569])\d{6,8}|4\d{6,9}|7\d{8}|8\d{8,9}	7,8,9,10	5,6	
D	fixed	1	(?:1\d|21)\d{6,7}|(?:2[24-9]|4(?:0[24]|5\d|7)|5(?:0[45]|1\d|8)|6(?:1\d|[237-9])|9(?:1\d|[35-9]))\d{5}|(?:23|4(?:[1-469]|8\d)|5[23679]|6[4-6]|7[14]|9[04])\d{7}		5,6	2212345
D	mobile	1	8(?:22|[35-9]\d)\d{6}	9		850123456
D	toll	1	1800\d{6}	10		1800123456
D	premium	1	15(?:1[2-8]|[2-8]0|9[089])\d{6}	10		1520123456
D	shared	1	18[59]0\d{6}	10		1850123456
D	personal	1	700\d{6}	9		700123456
D	voip	1	76\d{7}	9		761234567
D	pager	0		-1		
D	uan	1	818\d{6}	9		818123456
D	voicemail	1	88210[1-9]\d{4}|8(?:[35-79]5\d\d|8(?:[013-9]\d\d|2(?:[01][1-9]|[2-9]\d)))\d{5}	10		8551234567
D	nointl	1	18[59]0\d{6}	10		
F	(\d{2})(\d{5})	$1 $2	(0$1)	0		2[24-9]|47|58|6[237-9]|9[35-9]
F	(\d{3})(\d{5})	$1 $2	(0$1)	0		[45]0
F	(\d)(\d{3,4})(\d{4})	$1 $2 $3	(0$1)	0		1
F	(\d{2})(\d{3})(\d{3,4})	$1 $2 $3	(0$1)	0		[2569]|4[1-69]|7[14]
F	(\d{3})(\d{3})(\d{3})	$1 $2 $3	0$1	0		70
F	(\d{3})(\d{3})(\d{3})	$1 $2 $3	(0$1)	0		81
F	(\d{2})(\d{3})(\d{4})	$1 $2 $3	0$1	0		[78]
F	(\d{4})(\d{3})(\d{3})	$1 $2 $3		0		1
F	(\d{2})(\d{4})(\d{4})	$1 $2 $3	(0$1)	0		4
F	(\d{2})(\d)(\d{3})(\d{4})	$1 $2 $3 $4	0$1	0		8
R	IL	972	0(?:0|1(?:05|[2-9]))		0		0		0	0		1
D	general	1	1\d{6}(?:\d{3,5})?|[57]\d{8}|[1-489]\d{7}	7,8,9,10,11,12		
D	fixed	1	153\d{8,9}|29[1-9]\d{5}|(?:2[0-8]|[3489]\d)\d{6}	8,11,12	7	21234567
D	mobile	1	55(?:4(?:0[0-3]|10|6[015-9])|57[0-289]|8[06][0-2])\d{4}|5(?:(?:[0-2][02-9]|[36]\d|[49][2-9]|8[3-7])\d|5(?:01|2\d|3[0-3]|4[3-5]|5[0-25689]|6[6-8]|7[0-267]|8[7-9]|9[1-9]))\d{5}	9		502345678
D	toll	1	1(?:255|80[019]\d{3})\d{3}	7,10		1800123456
D	premium	1	1212\d{4}|1(?:200|9(?:0[0-2]|19|9\d))\d{6}	8,10		1919123456
D	shared	1	1700\d{6}	10		1700123456
D	personal	0		-1		
D	voip	1	7(?:280[01]|38(?:[05]\d|8[01358])|8(?:33|55|77|81)\d)\d{4}|7(?:18|2[23]|3[237]|47|6[258]|7\d|82|9[2-9])\d{6}	9		771234567
D	pager	0		-1		
D	uan	1	1599\d{6}	10		1599123456
D	voicemail	1	151\d{8,9}	11,12		15112340000
D	nointl	1	1700\d{6}	10		
F	(\d{4})(\d{3})	$1-$2		0		125
F	(\d{4})(\d{2})(\d{2})	$1-$2-$3		0		121
F	(\d)(\d{3})(\d{4})	$1-$2-$3	0$1	0		[2-489]
F	(\d{2})(\d{3})(\d{4})	$1-$2-$3	0$1	0		[57]
F	(\d{4})(\d{3})(\d{3})	$1-$2-$3		0		12
F	(\d{4})(\d{6})	$1-$2		0		159
F	(\d)(\d{3})(\d{3})(\d{3})	$1-$2-$3-$4		0		1[7-9]
F	(\d{3})(\d{1,2})(\d{3})(\d{4})	$1-$2 $3-$4		0		15
R	IM	44	00		0		([25-8]\d{5})$|0|180020	1624$1	0	0	74576|(?:16|7[56])24	0
D	general	1	1624\d{6}|(?:[3578]\d|90)\d{8}	10	6	
D	fixed	1	1624(?:230|[5-8]\d\d)\d{3}		6	1624756789
D	mobile	1	76245[06]\d{4}|7(?:4576|[59]24\d|624[0-4689])\d{5}			7924123456
D	toll	1	808162\d{4}			8081624567
D	premium	1	8(?:440[49]06|72299\d)\d{3}|(?:8(?:45|70)|90[0167])624\d{4}			9016247890
D	shared	0		-1		
D	personal	1	70\d{8}			7012345678
D	voip	1	56\d{8}			5612345678
D	pager	0		-1		
D	uan	1	3440[49]06\d{3}|(?:3(?:08162|3\d{4}|45624|7(?:0624|2299))|55\d{4})\d{4}			5512345678
D	voicemail	0		-1		
D	nointl	0		-1		
R	IN	91	00		0		0		0	0		1
D	general	1	(?:000800|[2-9]\d\d)\d{7}|1\d{7,12}	8,9,10,11,12,13	6,7	
D	fixed	1	(?:2717(?:[2-7]\d|95)|6828[235-7]\d)\d{4}|(?:170[24]|280[13468]|4(?:20[24]|72[2-8])|552[1-7])\d{6}|(?:271[0-689]|682[0-79]|782[0-6])[2-7]\d{5}|(?:2(?:[02][2-79]|90)|3(?:23|80)|683|79[1-7])\d{7}|(?:11|33|4[04]|80)[2-7]\d{7}|(?:342|674|788)(?:[0189][2-7]|[2-7]\d)\d{5}|(?:1(?:2[0-249]|3[0-25]|4[145]|[59][14]|6[014]|7[1257]|8[01346])|2(?:1[257]|3[013]|4[01]|5[0137]|6[0158]|78|8[1568]|9[14])|3(?:26|4[13]|5[34]|6[01489]|7[02-46]|8[159])|4(?:1[36]|2[1-47]|3[15]|5[12]|6[0-26-9]|7[014-9]|8[013-57]|9[014-7])|5(?:1[025]|22|[36][25]|4[28]|[578]1|9[15])|6(?:12|[2-47]1|5[17]|6[13]|80)|7(?:12|2[14]|3[134]|4[47]|5[15]|[67]1)|8(?:16|2[014]|3[126]|6[136]|7[078]|8[34]|91))[2-7]\d{6}|(?:1(?:2[35-8]|3[346-9]|4[236-9]|[59][0235-9]|6[235-9]|7[34689]|8[257-9])|2(?:1[134689]|3[24-8]|4[2-8]|5[25689]|6[2-4679]|7[3-79]|8[2-479]|9[235-9])|3(?:01|1[79]|2[1245]|4[5-8]|5[125689]|6[235-7]|7[157-9]|8[2-46-8])|4(?:1[14578]|2[5689]|3[2-467]|5[4-7]|6[35]|73|8[2689]|9[2389])|5(?:[16][146-9]|2[14-8]|3[1346]|4[14-69]|5[46]|7[2-4]|8[2-8]|9[246])|6(?:1[1358]|2[2457]|3[2-4]|4[235-7]|5[2-689]|6[24578]|7[235689]|8[14-6])|7(?:1[013-9]|2[0235-9]|3[2679]|4[1-35689]|5[2-46-9]|[67][02-9]|8[013-7]|9[089])|8(?:1[1357-9]|2[235-8]|3[03-57-9]|4[0-24-9]|5\d|6[2457-9]|7[1-6]|8[1256]|9[2-4]))\d[2-7]\d{5}	10	6,7,8	7410410123
D	mobile	1	(?:6(?:1279|828[01489])|7(?:887[02-9]|9(?:313|79[07-9]))|8(?:079[04-9]|(?:84|91)7[02-8]))\d{5}|(?:160[01]|6(?:(?:12|[2-4]1|5[17]|6[13]|80)[0189]|7(?:1[0189]|86))|7(?:1(?:2[0189]|9[0-5])|3(?:2[5-8]|[34][017-9]|9[016-9])|5(?:[15][017-9]|2[04-9]|9[7-9])|6(?:0[0-47]|1[0-257-9]|2[0-4]|3[19]|5[4589])|70[0289]|88[089]|97[02-8])|8(?:0(?:6[67]|7[02-8])|70[017-9]|84[01489]|91[0-289]))\d{6}|(?:731|8(?:16|2[014]|3[126]|6[136]|7[78]|83))(?:[0189]\d|7[02-8])\d{5}|(?:6(?:(?:1[1358]|2[2457]|3[2-4]|4[235-7]|5[2-689]|6[24578])\d|7(?:[23569]\d|4[0189]|8[0-57-9])|8(?:[14-6]\d|2[0-79]))|7(?:1(?:[013-8]\d|9[6-9])|3(?:2[0-49]|9[2-5])|5(?:2[1-3]|9[0-6])|6(?:0[5689]|2[5-9]|3[02-8]|4\d|5[0-367])|70[13-7]|881))[0189]\d{5}|(?:6(?:[09]\d|1[04679]|2[03689]|3[05-9]|4[0489]|50|6[069]|7[07]|8[7-9])|7(?:[024]\d|3[05-8]|5[0346-8]|6[6-9]|7[1-9]|8[0-79]|9[089])|8(?:0[01589]|1[0-57-9]|2[235-9]|3[03-57-9]|[45]\d|6[02457-9]|7[1-69]|8[0-25-9]|9[02-9])|9\d\d)\d{7}	10		8123456789
D	toll	1	000800\d{7}|180(?:0\d{4,9}|3\d{9})			1800123456
D	premium	1	186[12]\d{9}	13		1861123456789
D	shared	1	1860\d{7}	11		18603451234
D	personal	0		-1		
D	voip	0		-1		
D	pager	0		-1		
D	uan	1	140\d{7}	10		1409305260
D	voicemail	0		-1		
D	nointl	1	1800\d{4,9}|(?:000800|18(?:03\d\d|6(?:0|[12]\d\d)))\d{7}			
F	(\d{7})	$1		0		575
F	(\d{8})	$1		1		5(?:0|2[23]|3[03]|[67]1|88)	5(?:0|2(?:21|3)|3(?:0|3[23])|616|717|888)	5(?:0|2(?:21|3)|3(?:0|3[23])|616|717|8888)
F	(\d{4})(\d{4,5})	$1 $2		1		180	1800
F	(\d{3})(\d{3})(\d{4})	$1 $2 $3		1		140
F	(\d{2})(\d{4})(\d{4})	$1 $2 $3	0$1	1		11|2[02]|33|4[04]|79[1-7]|80[2-46]	11|2[02]|33|4[04]|79(?:[1-6]|7[19])|80(?:[2-4]|6[0-589])	11|2[02]|33|4[04]|79(?:[124-6]|3(?:[02-9]|1[0-24-9])|7(?:1|9[1-6]))|80(?:[2-4]|6[0-589])
F	(\d{3})(\d{3})(\d{4})	$1 $2 $3	0$1	1		1(?:2[0-249]|3[0-25]|4[145]|[68]|7[1257])|2(?:1[257]|3[013]|4[01]|5[0137]|6[0158]|78|8[1568])|3(?:26|4[1-3]|5[34]|6[01489]|7[02-46]|8[159])|4(?:1[36]|2[1-47]|5[12]|6[0-26-9]|7[0-24-9]|8[013-57]|9[014-7])|5(?:1[025]|22|[36][25]|4[28]|5[12]|[78]1)|6(?:12|[2-4]1|5[17]|6[13]|80)|7(?:12|3[134]|61|88)|8(?:16|2[014]|3[126]|6[136]|7[078]|8[34]|91)|(?:43|59|75)[15]|(?:1[59]|29|67)[14]	1(?:2[0-24]|3[0-25]|4[145]|[59][14]|6[1-9]|7[1257]|8[1-57-9])|2(?:1[257]|3[013]|4[01]|5[0137]|6[058]|78|8[1568]|9[14])|3(?:26|4[1-3]|5[34]|6[01489]|7[02-46]|8[159])|4(?:1[36]|2[1-47]|3[15]|5[12]|6[0-26-9]|7[0-24-9]|8[013-57]|9[014-7])|5(?:1[025]|22|[36][25]|4[28]|[578]1|9[15])|674|7(?:(?:3[34]|5[15])[2-6]|61[346]|88[0-8])|8(?:70[2-6]|84[235-7]|91[3-7])|(?:1(?:29|60|8[06])|261|552|6(?:12|[2-47]1|5[17]|6[13]|80)|7(?:12|31)|8(?:16|2[014]|3[126]|6[136]|7[78]|83))[2-7]	1(?:2[0-24]|3[0-25]|4[145]|[59][14]|6[1-9]|7[1257]|8[1-57-9])|2(?:1[257]|3[013]|4[01]|5[0137]|6[058]|78|8[1568]|9[14])|3(?:26|4[1-3]|5[34]|6[01489]|7[02-46]|8[159])|4(?:1[36]|2[1-47]|3[15]|5[12]|6[0-26-9]|7[0-24-9]|8[013-57]|9[014-7])|5(?:1[025]|22|[36][25]|4[28]|[578]1|9[15])|6(?:12(?:[2-6]|7[0-8])|74[2-7])|7(?:3171|5[15][2-6]|61[346]|88(?:[2-7]|82))|8(?:70[2-6]|84(?:[2356]|7[19])|91(?:[3-6]|7[19]))|73[134][2-6]|8(?:16|2[014]|3[126]|6[136]|7[78]|83)(?:[2-6]|7[19])|(?:1(?:29|60|8[06])|261|552|6(?:[2-4]1|5[17]|6[13]|7(?:1|4[0189])|80)|7(?:12|88[01]))[2-7]
F	(\d{4})(\d{3})(\d{3})	$1 $2 $3	0$1	1		1(?:[2-479]|5[0235-9])|[2-5]|6(?:1[1358]|2[2457-9]|3[2-5]|4[235-7]|5[2-689]|6[24578]|7[235689]|8[1-6])|7(?:1[013-9]|3[129]|5[29]|6[02-5]|70)|807	1(?:[2-479]|5[0235-9])|[2-5]|6(?:1[1358]|2(?:[2457]|84|95)|3(?:[2-4]|55)|4[235-7]|5[2-689]|6[24578]|7(?:[23569]|8[0-57-9])|8[1-6])|7(?:1(?:[013-8]|9[6-9])|3(?:17|2[0-49]|9[2-57])|5(?:2[1-3]|9[0-6])|6(?:0[5689]|2[5-9]|3[02-8]|4|5[0-367])|70[13-7])|807[19]	1(?:[2-479]|5(?:[0236-9]|5[013-9]))|[2-5]|6(?:2(?:84|95)|355|8(?:28[235-7]|3))|73179|807(?:1|9[1-3])|(?:1552|6(?:(?:1[1358]|2[2457]|3[2-4]|4[235-7]|5[2-689]|6[24578])\d|7(?:[23569]\d|8[0-57-9])|8(?:[14-6]\d|2[0-79]))|7(?:1(?:[013-8]\d|9[6-9])|3(?:2[0-49]|9[2-57])|5(?:2[1-3]|9[0-6])|6(?:0[5689]|2[5-9]|3[02-8]|4\d|5[0-367])|70[13-7]))[2-7]
F	(\d{5})(\d{5})	$1 $2	0$1	1		16|[6-9]
F	(\d{4})(\d{2,4})(\d{4})	$1 $2 $3		1		18[06]	18[06]0
F	(\d{3})(\d{3})(\d{3})(\d{4})	$1 $2 $3 $4		0		0
F	(\d{4})(\d{3})(\d{3})(\d{3})	$1 $2 $3 $4		1		18
I	(\d{8})	$1		1		5(?:0|2[23]|3[03]|[67]1|88)	5(?:0|2(?:21|3)|3(?:0|3[23])|616|717|888)	5(?:0|2(?:21|3)|3(?:0|3[23])|616|717|8888)
I	(\d{4})(\d{4,5})	$1 $2		1		180	1800
I	(\d{3})(\d{3})(\d{4})	$1 $2 $3		1		140
I	(\d{2})(\d{4})(\d{4})	$1 $2 $3	0$1	1		11|2[02]|33|4[04]|79[1-7]|80[2-46]	11|2[02]|33|4[04]|79(?:[1-6]|7[19])|80(?:[2-4]|6[0-589])	11|2[02]|33|4[04]|79(?:[124-6]|3(?:[02-9]|1[0-24-9])|7(?:1|9[1-6]))|80(?:[2-4]|6[0-589])
I	(\d{3})(\d{3})(\d{4})	$1 $2 $3	0$1	1		1(?:2[0-249]|3[0-25]|4[145]|[68]|7[1257])|2(?:1[257]|3[013]|4[01]|5[0137]|6[0158]|78|8[1568])|3(?:26|4[1-3]|5[34]|6[01489]|7[02-46]|8[159])|4(?:1[36]|2[1-47]|5[12]|6[0-26-9]|7[0-24-9]|8[013-57]|9[014-7])|5(?:1[025]|22|[36][25]|4[28]|5[12]|[78]1)|6(?:12|[2-4]1|5[17]|6[13]|80)|7(?:12|3[134]|61|88)|8(?:16|2[014]|3[126]|6[136]|7[078]|8[34]|91)|(?:43|59|75)[15]|(?:1[59]|29|67)[14]	1(?:2[0-24]|3[0-25]|4[145]|[59][14]|6[1-9]|7[1257]|8[1-57-9])|2(?:1[257]|3[013]|4[01]|5[0137]|6[058]|78|8[1568]|9[14])|3(?:26|4[1-3]|5[34]|6[01489]|7[02-46]|8[159])|4(?:1[36]|2[1-47]|3[15]|5[12]|6[0-26-9]|7[0-24-9]|8[013-57]|9[014-7])|5(?:1[025]|22|[36][25]|4[28]|[578]1|9[15])|674|7(?:(?:3[34]|5[15])[2-6]|61[346]|88[0-8])|8(?:70[2-6]|84[235-7]|91[3-7])|(?:1(?:29|60|8[06])|261|552|6(?:12|[2-47]1|5[17]|6[13]|80)|7(?:12|31)|8(?:16|2[014]|3[126]|6[136]|7[78]|83))[2-7]	1(?:2[0-24]|3[0-25]|4[145]|[59][14]|6[1-9]|7[1257]|8[1-57-9])|2(?:1[257]|3[013]|4[01]|5[0137]|6[058]|78|8[1568]|9[14])|3(?:26|4[1-3]|5[34]|6[01489]|7[02-46]|8[159])|4(?:1[36]|2[1-47]|3[15]|5[12]|6[0-26-9]|7[0-24-9]|8[013-57]|9[014-7])|5(?:1[025]|22|[36][25]|4[28]|[578]1|9[15])|6(?:12(?:[2-6]|7[0-8])|74[2-7])|7(?:3171|5[15][2-6]|61[346]|88(?:[2-7]|82))|8(?:70[2-6]|84(?:[2356]|7[19])|91(?:[3-6]|7[19]))|73[134][2-6]|8(?:16|2[014]|3[126]|6[136]|7[78]|83)(?:[2-6]|7[19])|(?:1(?:29|60|8[06])|261|552|6(?:[2-4]1|5[17]|6[13]|7(?:1|4[0189])|80)|7(?:12|88[01]))[2-7]
I	(\d{4})(\d{3})(\d{3})	$1 $2 $3	0$1	1		1(?:[2-479]|5[0235-9])|[2-5]|6(?:1[1358]|2[2457-9]|3[2-5]|4[235-7]|5[2-689]|6[24578]|7[235689]|8[1-6])|7(?:1[013-9]|3[129]|5[29]|6[02-5]|70)|807	1(?:[2-479]|5[0235-9])|[2-5]|6(?:1[1358]|2(?:[2457]|84|95)|3(?:[2-4]|55)|4[235-7]|5[2-689]|6[24578]|7(?:[23569]|8[0-57-9])|8[1-6])|7(?:1(?:[013-8]|9[6-9])|3(?:17|2[0-49]|9[2-57])|5(?:2[1-3]|9[0-6])|6(?:0[5689]|2[5-9]|3[02-8]|4|5[0-367])|70[13-7])|807[19]	1(?:[2-479]|5(?:[0236-9]|5[013-9]))|[2-5]|6(?:2(?:84|95)|355|8(?:28[235-7]|3))|73179|807(?:1|9[1-3])|(?:1552|6(?:(?:1[1358]|2[2457]|3[2-4]|4[235-7]|5[2-689]|6[24578])\d|7(?:[23569]\d|8[0-57-9])|8(?:[14-6]\d|2[0-79]))|7(?:1(?:[013-8]\d|9[6-9])|3(?:2[0-49]|9[2-57])|5(?:2[1-3]|9[0-6])|6(?:0[5689]|2[5-9]|3[02-8]|4\d|5[0-367])|70[13-7]))[2-7]
I	(\d{5})(\d{5})	$1 $2	0$1	1		16|[6-9]
I	(\d{4})(\d{2,4})(\d{4})	$1 $2 $3		1		18[06]	18[06]0
I	(\d{4})(\d{3})(\d{3})(\d{3})	$1 $2 $3 $4		1		18
R	IO	246	00						0	0		0
D	general	1	3\d{6}	7		
D	fixed	1	37\d{5}			3709100
D	mobile	1	38\d{5}			3801234
D	toll	0		-1		
D	premium	0		-1		
D	shared	0		-1		
D	personal	0		-1		
D	voip	0		-1		
D	pager	0		-1		
D	uan	0		-1		
D	voicemail	0		-1		
D	nointl	0		-1		
F	(\d{3})(\d{4})	$1 $2		0		3
R	IQ	964	00		0		0		0	0		0
D	general	1	(?:1|7\d\d)\d{7}|[2-6]\d{7,8}	8,9,10	6,7	
D	fixed	1	1\d{7}|(?:2[13-5]|3[02367]|4[023]|5[03]|6[026])\d{6,7}	8,9	6,7	12345678
D	mobile	1	7[3-9]\d{8}	10		7912345678
D	toll	0		-1		
D	premium	0		-1		
D	shared	0		-1		
D	personal	0		-1		
D	voip	0		-1		
D	pager	0		-1		
D	uan	0		-1		
D	voicemail	0		-1		
D	nointl	0		-1		
F	(\d)(\d{3})(\d{4})	$1 $2 $3	0$1	0		1
F	(\d{2})(\d{3})(\d{3,4})	$1 $2 $3	0$1	0		[2-6]
F	(\d{3})(\d{3})(\d{4})	$1 $2 $3	0$1	0		7
R	IR	98	00		0		0		0	0		1
D	general	1	[1-9]\d{9}|(?:[1-8]\d\d|9)\d{3,4}	4,5,6,7,10	8	
D	fixed	1	(?:1[137]|2[13-68]|3[1458]|4[145]|5[1468]|6[16]|7[1467]|8[13467])(?:[03-57]\d{7}|[16]\d{3}(?:\d{4})?|[289]\d{3}(?:\d(?:\d{3})?)?)|94(?:000[09]|(?:12\d|30[0-2])\d|2(?:[02689]0\d|121)|4(?:111|40\d))\d{4}	6,7,10	4,5,8	2123456789
D	mobile	1	9(?:(?:0[0-5]|[13]\d|2[0-3])\d\d|9(?:[0-46]\d\d|5(?:10|5\d)|8(?:[12]\d|3[0-2]|88)|9(?:[01359]\d|21|69|77|8[7-9])))\d{5}	10		9123456789
D	toll	0		-1		
D	premium	0		-1		
D	shared	0		-1		
D	personal	0		-1		
D	voip	0		-1		
D	pager	0		-1		
D	uan	1	96(?:0[12]|2[16-8]|3(?:08|[14]5|[23]|66)|4(?:0|80)|5[01]|6[89]|86|9[19])	4,5		9601
D	voicemail	0		-1		
D	nointl	1	9(?:4440\d{5}|6(?:0[12]|2[16-8]|3(?:08|[14]5|[23]|66)|4(?:0|80)|5[01]|6[89]|86|9[19]))	4,5,10		
F	(\d{4,5})	$1	0$1	0		96
F	(\d{2})(\d{4,5})	$1 $2	0$1	0		(?:1[137]|2[13-68]|3[1458]|4[145]|5[1468]|6[16]|7[1467]|8[13467])[12689]
F	(\d{3})(\d{3})(\d{3,4})	$1 $2 $3	0$1	0		9
F	(\d{2})(\d{4})(\d{4})	$1 $2 $3	0$1	0		[1-8]
R	IS	354	00|1(?:0(?:01|[12]0)|100)	00					0	0		1
D	general	1	(?:38\d|[4-9])\d{6}	7,9		
D	fixed	1	(?:4(?:1[0-24-69]|2[0-7]|[37][0-8]|4[0-24589]|5[0-68]|6\d|8[0-36-8])|5(?:05|[156]\d|2[02578]|3[0-579]|4[03-7]|7[0-2578]|8[0-35-9]|9[013-689])|872)\d{4}	7		4101234
D	mobile	1	(?:38[589]\d\d|6(?:1[1-8]|2[0-6]|3[026-9]|4[014679]|5[0159]|6[0-69]|70|8[06-8]|9\d)|7(?:5[057]|[6-9]\d)|8(?:2[0-59]|[3-69]\d|8[238]))\d{4}			6111234
D	toll	1	80[0-8]\d{4}	7		8001234
D	premium	1	90(?:0\d|1[5-79]|2[015-79]|3[135-79]|4[125-7]|5[25-79]|7[1-37]|8[0-35-7])\d{3}	7		9001234
D	shared	0		-1		
D	personal	0		-1		
D	voip	1	49[0-24-79]\d{4}	7		4921234
D	pager	0		-1		
D	uan	1	809\d{4}	7		8091234
D	voicemail	1	(?:689|8(?:7[18]|80)|95[48])\d{4}	7		6891234
D	nointl	0		-1		
F	(\d{3})(\d{4})	$1 $2		0		[4-9]
F	(\d{3})(\d{3})(\d{3})	$1 $2 $3		0		3
R	IT	39	00						0	1		1
D	general	1	0\d{5,11}|1\d{8,10}|3(?:[0-8]\d{7,10}|9\d{7,8})|(?:43|55|70)\d{8}|8\d{5}(?:\d{2,4})?	6,7,8,9,10,11,12		
D	fixed	1	0(?:669[0-79]\d{1,6}|831\d{2,8})|0(?:1(?:[0159]\d|[27][1-5]|31|4[1-4]|6[1356]|8[2-57])|2\d\d|3(?:[0159]\d|2[1-4]|3[12]|[48][1-6]|6[2-59]|7[1-7])|4(?:[0159]\d|[23][1-9]|4[245]|6[1-5]|7[1-4]|81)|5(?:[0159]\d|2[1-5]|3[2-6]|4[1-79]|6[4-6]|7[1-578]|8[3-8])|6(?:[0-57-9]\d|6[0-8])|7(?:[0159]\d|2[12]|3[1-7]|4[2-46]|6[13569]|7[13-6]|8[1-59])|8(?:[0159]\d|2[3-578]|3[2356]|[6-8][1-5])|9(?:[0159]\d|[238][1-5]|4[12]|6[1-8]|7[1-6]))\d{2,7}			0212345678
D	mobile	1	3[2-9]\d{7,8}|(?:31|43)\d{8}	9,10		3123456789
D	toll	1	80(?:0\d{3}|3)\d{3}	6,9		800123456
D	premium	1	(?:0878\d{3}|89(?:2\d|3[04]|4(?:[0-4]|[5-9]\d\d)|5[0-4]))\d\d|(?:1(?:44|6[346])|89(?:38|5[5-9]|9))\d{6}	6,8,9,10		899123456
D	shared	1	84(?:[08]\d{3}|[17])\d{3}	6,9		848123456
D	personal	1	1(?:78\d|99)\d{6}	9,10		1781234567
D	voip	1	55\d{8}	10		5512345678
D	pager	0		-1		
D	uan	0		-1		
D	voicemail	1	3[2-8]\d{9,10}	11,12		33101234501
D	nointl	1	848\d{6}	9		
F	(\d{4,5})	$1		0		1(?:0|9[246])	1(?:0|9(?:2[2-9]|[46]))
F	(\d{6})	$1		0		1(?:1|92)
F	(\d{2})(\d{4,6})	$1 $2		0		0[26]
F	(\d{3})(\d{3,6})	$1 $2		0		0[13-57-9][0159]|8(?:03|4[17]|9[2-5])	0[13-57-9][0159]|8(?:03|4[17]|9(?:2|3[04]|[45][0-4]))
F	(\d{4})(\d{2,6})	$1 $2		0		0(?:[13-579][2-46-8]|8[236-8])
F	(\d{4})(\d{4})	$1 $2		0		894
F	(\d{2})(\d{3,4})(\d{4})	$1 $2 $3		0		0[26]|5
F	(\d{3})(\d{3})(\d{3,4})	$1 $2 $3		0		1(?:44|[679])|[378]|43
F	(\d{3})(\d{3,4})(\d{4})	$1 $2 $3		0		0[13-57-9][0159]|14
F	(\d{2})(\d{4})(\d{5})	$1 $2 $3		0		0[26]
F	(\d{4})(\d{3})(\d{4})	$1 $2 $3		0		0
F	(\d{3})(\d{4})(\d{4,5})	$1 $2 $3		0		[03]
I	(\d{2})(\d{4,6})	$1 $2		0		0[26]
I	(\d{3})(\d{3,6})	$1 $2		0		0[13-57-9][0159]|8(?:03|4[17]|9[2-5])	0[13-57-9][0159]|8(?:03|4[17]|9(?:2|3[04]|[45][0-4]))
I	(\d{4})(\d{2,6})	$1 $2		0		0(?:[13-579][2-46-8]|8[236-8])
I	(\d{4})(\d{4})	$1 $2		0		894
I	(\d{2})(\d{3,4})(\d{4})	$1 $2 $3		0		0[26]|5
I	(\d{3})(\d{3})(\d{3,4})	$1 $2 $3		0		1(?:44|[679])|[378]|43
I	(\d{3})(\d{3,4})(\d{4})	$1 $2 $3		0		0[13-57-9][0159]|14
I	(\d{2})(\d{4})(\d{5})	$1 $2 $3		0		0[26]
I	(\d{4})(\d{3})(\d{4})	$1 $2 $3		0		0
I	(\d{3})(\d{4})(\d{4,5})	$1 $2 $3		0		[03]
R	JE	44	00		0		([0-24-8]\d{5})$|0|180020	1534$1	0	0		0
D	general	1	1534\d{6}|(?:[3578]\d|90)\d{8}	10	6	
D	fixed	1	1534[0-24-8]\d{5}		6	1534456789
D	mobile	1	7(?:(?:(?:50|82)9|937)\d|7(?:00[378]|97\d))\d{5}			7797712345
D	toll	1	80(?:07(?:35|81)|8901)\d{4}			8007354567
D	premium	1	(?:8(?:4(?:4(?:4(?:05|42|69)|703)|5(?:041|800))|7(?:0002|1206))|90(?:066[59]|1810|71(?:07|55)))\d{4}			9018105678
D	shared	0		-1		
D	personal	1	701511\d{4}			7015115678
D	voip	1	56\d{8}			5612345678
D	pager	1	76(?:464|652)\d{5}|76(?:0[0-28]|2[356]|34|4[01347]|5[49]|6[0-369]|77|8[14]|9[139])\d{6}			7640123456
D	uan	1	(?:3(?:0(?:07(?:35|81)|8901)|3\d{4}|4(?:4(?:4(?:05|42|69)|703)|5(?:041|800))|7(?:0002|1206))|55\d{4})\d{4}			5512345678
D	voicemail	0		-1		
D	nointl	0		-1		
R	JM	1	011		1		1		0	0	658|876	1
D	general	1	(?:[58]\d\d|658|900)\d{7}	10	7	
D	fixed	1	8766060\d{3}|(?:658(?:2(?:[5-8]\d|9[0-46-9])|[3-9]\d\d)|876(?:52[35]|6(?:0[1-3579]|1[0235-9]|[23]\d|40|5[06]|6[2-589]|7[0-25-9]|8[04]|9[4-9])|7(?:0[2-689]|[1-6]\d|8[056]|9[45])|9(?:0[1-8]|1[02378]|[2-8]\d|9[2-468])))\d{4}		7	8765230123
D	mobile	1	(?:6582(?:[0-4]\d|95)|876(?:2(?:0[1-9]|[13-9]\d|2[013-9])|[348]\d\d|5(?:0[1-9]|[1-9]\d)|6(?:4[89]|6[67])|7(?:0[07]|7\d|8[1-47-9]|9[0-36-9])|9(?:[01]9|9[0579])))\d{4}		7	8762101234
D	toll	1	8(?:00|33|44|55|66|77|88)[2-9]\d{6}			8002123456
D	premium	1	900[2-9]\d{6}			9002123456
D	shared	0		-1		
D	personal	1	52(?:3(?:[2-46-9][02-9]\d|5(?:[02-46-9]\d|5[0-46-9]))|4(?:[2-478][02-9]\d|5(?:[034]\d|2[024-9]|5[0-46-9])|6(?:0[1-9]|[2-9]\d)|9(?:[05-9]\d|2[0-5]|49)))\d{4}|52[34][2-9]1[02-9]\d{4}|5(?:00|2[125-9]|3[23]|44|66|77|88)[2-9]\d{6}			5002345678
D	voip	0		-1		
D	pager	0		-1		
D	uan	0		-1		
D	voicemail	0		-1		
D	nointl	0		-1		
R	JO	962	00		0		0		0	0		1
D	general	1	(?:(?:[2689]|7\d)\d|32|427|53)\d{6}	8,9		
D	fixed	1	87(?:000|90[01])\d{3}|(?:2(?:6(?:2[0-35-9]|3[0-578]|4[24-7]|5[0-24-8]|[6-8][023]|9[0-3])|7(?:0[1-79]|10|2[014-7]|3[0-689]|4[019]|5[0-3578]))|32(?:0[1-69]|1[1-35-7]|2[024-7]|3\d|4[0-3]|[5-7][023])|53(?:0[0-3]|[13][023]|2[0-59]|49|5[0-35-9]|6[15]|7[45]|8[1-6]|9[0-36-9])|6(?:2(?:[05]0|22)|3(?:00|33)|4(?:0[0-25]|1[2-7]|2[0569]|[38][07-9]|4[025689]|6[0-589]|7\d|9[0-2])|5(?:[01][056]|2[034]|3[0-57-9]|4[178]|5[0-69]|6[0-35-9]|7[1-379]|8[0-68]|9[0239]))|87(?:20|7[078]|99))\d{4}	8		62001234
D	mobile	1	(?:427|7(?:[78][0-25-9]|9\d))\d{6}	9		790123456
D	toll	1	80\d{6}	8		80012345
D	premium	1	9\d{7}	8		90012345
D	shared	1	85\d{6}	8		85012345
D	personal	1	70\d{7}	9		700123456
D	voip	0		-1		
D	pager	1	74(?:66|77)\d{5}	9		746612345
D	uan	1	8(?:10|8\d)\d{5}	8		88101234
D	voicemail	0		-1		
D	nointl	0		-1		
F	(\d)(\d{3})(\d{4})	$1 $2 $3	(0$1)	0		[2356]|87
F	(\d{3})(\d{5,6})	$1 $2	0$1	0		[89]
F	(\d{2})(\d{7})	$1 $2	0$1	0		70
F	(\d)(\d{4})(\d{4})	$1 $2 $3	0$1	0		[47]
R	JP	81	010		0		(000[2569]\d{4,6})$|(?:(?:003768)0?)|0	$1	0	0		1
D	general	1	00[1-9]\d{6,14}|[25-9]\d{9}|(?:00|[1-9]\d\d)\d{6}	8,9,10,11,12,13,14,15,16,17		
D	fixed	1	(?:1(?:1[235-8]|2[3-6]|3[3-9]|4[2-6]|[58][2-8]|6[2-7]|7[2-9]|9[1-9])|(?:2[2-9]|[36][1-9])\d|4(?:[2-578]\d|6[02-8]|9[2-59])|5(?:[2-589]\d|6[1-9]|7[2-8])|7(?:[25-9]\d|3[4-9]|4[02-9])|8(?:[2679]\d|3[2-9]|4[5-9]|5[1-9]|8[03-9])|9(?:[2-58]\d|[679][1-9]))\d{6}	9		312345678
D	mobile	1	[6-9]0[1-9]\d{7}	10		9012345678
D	toll	1	00777(?:[01]|5\d)\d\d|(?:00(?:7778|882[1245])|(?:120|800\d)\d\d)\d{4}|00(?:37|66|78)\d{6,13}			120123456
D	premium	1	990\d{6}	9		990123456
D	shared	0		-1		
D	personal	1	60\d{7}	9		601234567
D	voip	1	50[1-9]\d{7}	10		5012345678
D	pager	1	20\d{8}	10		2012345678
D	uan	1	570\d{6}	9		570123456
D	voicemail	0		-1		
D	nointl	1	00(?:777(?:[01]|(?:5|8\d)\d)|882[1245]\d\d)\d\d|00(?:37|66|78)\d{6,13}			
F	(\d{4})(\d{4})	$1-$2		0		007	0077	00777	00777[01]
F	(\d{8,10})	$1		0		000
F	(\d{3})(\d{3})(\d{3})	$1-$2-$3	0$1	0		(?:12|57|99)0
F	(\d{4})(\d)(\d{4})	$1-$2-$3	0$1	0		1(?:26|3[79]|4[56]|5[4-68]|6[3-5])|499|5(?:76|97)|746|8(?:3[89]|47|51)|9(?:80|9[16])	1(?:267|3(?:7[247]|9[278])|466|5(?:47|58|64)|6(?:3[245]|48|5[4-68]))|499[2468]|5(?:76|97)9|7468|8(?:3(?:8[7-9]|96)|477|51[2-9])|9(?:802|9(?:1[23]|69))|1(?:45|58)[67]	1(?:267|3(?:7[247]|9[278])|466|5(?:47|58|64)|6(?:3[245]|48|5[4-68]))|499[2468]|5(?:769|979[2-69])|7468|8(?:3(?:8[7-9]|96[2457-9])|477|51[2-9])|9(?:802|9(?:1[23]|69))|1(?:45|58)[67]
F	(\d{2})(\d{3})(\d{4})	$1-$2-$3	0$1	0		60
F	(\d)(\d{4})(\d{4})	$1-$2-$3	0$1	0		3|4(?:2[09]|7[01])|6[1-9]	3|4(?:2(?:0|9[02-69])|7(?:0[019]|1))|6[1-9]
F	(\d{2})(\d{3})(\d{4})	$1-$2-$3	0$1	0		1(?:1|5[45]|77|88|9[69])|2(?:2[1-37]|3[0-269]|4[59]|5|6[24]|7[1-358]|8[1369]|9[0-38])|4(?:[28][1-9]|3[0-57]|[45]|6[248]|7[2-579]|9[29])|5(?:2|3[0459]|4[0-369]|5[29]|8[02389]|9[0-389])|7(?:2[02-46-9]|34|[58]|6[0249]|7[57]|9[2-6])|8(?:2[124589]|3[26-9]|49|51|6|7[0-468]|8[68]|9[019])|9(?:[23][1-9]|4[15]|5[138]|6[1-3]|7[156]|8[189]|9[1-489])	1(?:1|5(?:4[018]|5[017])|77|88|9[69])|2(?:2(?:[127]|3[014-9])|3[0-269]|4[59]|5(?:[1-3]|5[0-69]|9[19])|62|7(?:[1-35]|8[0189])|8(?:[16]|3[0134]|9[0-5])|9(?:[028]|17))|4(?:2(?:[13-79]|8[014-6])|3[0-57]|[45]|6[248]|7[2-47]|8[1-9]|9[29])|5(?:2|3(?:[045]|9[0-8])|4[0-369]|5[29]|8[02389]|9[0-3])|7(?:2[02-46-9]|34|[58]|6[0249]|7[57]|9(?:[23]|4[0-59]|5[01569]|6[0167]))|8(?:2(?:[1258]|4[0-39]|9[0-2469])|3(?:[29]|60)|49|51|6(?:[0-24]|36|5[0-3589]|7[23]|9[01459])|7[0-468]|8[68])|9(?:[23][1-9]|4[15]|5[138]|6[1-3]|7[156]|8[189]|9(?:[1289]|3[34]|4[0178]))|(?:264|837)[016-9]|2(?:57|93)[015-9]|(?:25[0468]|422|838)[01]|(?:47[59]|59[89]|8(?:6[68]|9))[019]	1(?:1|5(?:4[018]|5[017])|77|88|9[69])|2(?:2[127]|3[0-269]|4[59]|5(?:[1-3]|5[0-69]|9(?:17|99))|6(?:2|4[016-9])|7(?:[1-35]|8[0189])|8(?:[16]|3[0134]|9[0-5])|9(?:[028]|17))|4(?:2(?:[13-79]|8[014-6])|3[0-57]|[45]|6[248]|7[2-47]|9[29])|5(?:2|3(?:[045]|9(?:[0-58]|6[4-9]|7[0-35689]))|4[0-369]|5[29]|8[02389]|9[0-3])|7(?:2[02-46-9]|34|[58]|6[0249]|7[57]|9(?:[23]|4[0-59]|5[01569]|6[0167]))|8(?:2(?:[1258]|4[0-39]|9[0169])|3(?:[29]|60|7(?:[017-9]|6[6-8]))|49|51|6(?:[0-24]|36[2-57-9]|5(?:[0-389]|5[23])|6(?:[01]|9[178])|7(?:2[2-468]|3[78])|9[0145])|7[0-468]|8[68])|9(?:4[15]|5[138]|7[156]|8[189]|9(?:[1289]|3(?:31|4[357])|4[0178]))|(?:8294|96)[1-3]|2(?:57|93)[015-9]|(?:223|8699)[014-9]|(?:25[0468]|422|838)[01]|(?:48|8292|9[23])[1-9]|(?:47[59]|59[89]|8(?:68|9))[019]
F	(\d{3})(\d{2})(\d{4})	$1-$2-$3	0$1	0		[14]|[289][2-9]|5[3-9]|7[2-4679]
F	(\d{4})(\d{2})(\d{3,4})	$1-$2-$3		0		007	0077
F	(\d{4})(\d{2})(\d{4})	$1-$2-$3		0		008
F	(\d{3})(\d{3})(\d{4})	$1-$2-$3	0$1	0		800
F	(\d{2})(\d{4})(\d{4})	$1-$2-$3	0$1	0		[25-9]
F	(\d{4})(\d{3})(\d{3,4})	$1-$2-$3		0		0
F	(\d{4})(\d{4})(\d{4,5})	$1-$2-$3		0		0
F	(\d{4})(\d{5})(\d{5,6})	$1-$2-$3		0		0
F	(\d{4})(\d{6})(\d{6,7})	$1-$2-$3		0		0
I	(\d{3})(\d{3})(\d{3})	$1-$2-$3	0$1	0		(?:12|57|99)0
I	(\d{4})(\d)(\d{4})	$1-$2-$3	0$1	0		1(?:26|3[79]|4[56]|5[4-68]|6[3-5])|499|5(?:76|97)|746|8(?:3[89]|47|51)|9(?:80|9[16])	1(?:267|3(?:7[247]|9[278])|466|5(?:47|58|64)|6(?:3[245]|48|5[4-68]))|499[2468]|5(?:76|97)9|7468|8(?:3(?:8[7-9]|96)|477|51[2-9])|9(?:802|9(?:1[23]|69))|1(?:45|58)[67]	1(?:267|3(?:7[247]|9[278])|466|5(?:47|58|64)|6(?:3[245]|48|5[4-68]))|499[2468]|5(?:769|979[2-69])|7468|8(?:3(?:8[7-9]|96[2457-9])|477|51[2-9])|9(?:802|9(?:1[23]|69))|1(?:45|58)[67]
I	(\d{2})(\d{3})(\d{4})	$1-$2-$3	0$1	0		60
I	(\d)(\d{4})(\d{4})	$1-$2-$3	0$1	0		3|4(?:2[09]|7[01])|6[1-9]	3|4(?:2(?:0|9[02-69])|7(?:0[019]|1))|6[1-9]
I	(\d{2})(\d{3})(\d{4})	$1-$2-$3	0$1	0		1(?:1|5[45]|77|88|9[69])|2(?:2[1-37]|3[0-269]|4[59]|5|6[24]|7[1-358]|8[1369]|9[0-38])|4(?:[28][1-9]|3[0-57]|[45]|6[248]|7[2-579]|9[29])|5(?:2|3[0459]|4[0-369]|5[29]|8[02389]|9[0-389])|7(?:2[02-46-9]|34|[58]|6[0249]|7[57]|9[2-6])|8(?:2[124589]|3[26-9]|49|51|6|7[0-468]|8[68]|9[019])|9(?:[23][1-9]|4[15]|5[138]|6[1-3]|7[156]|8[189]|9[1-489])	1(?:1|5(?:4[018]|5[017])|77|88|9[69])|2(?:2(?:[127]|3[014-9])|3[0-269]|4[59]|5(?:[1-3]|5[0-69]|9[19])|62|7(?:[1-35]|8[0189])|8(?:[16]|3[0134]|9[0-5])|9(?:[028]|17))|4(?:2(?:[13-79]|8[014-6])|3[0-57]|[45]|6[248]|7[2-47]|8[1-9]|9[29])|5(?:2|3(?:[045]|9[0-8])|4[0-369]|5[29]|8[02389]|9[0-3])|7(?:2[02-46-9]|34|[58]|6[0249]|7[57]|9(?:[23]|4[0-59]|5[01569]|6[0167]))|8(?:2(?:[1258]|4[0-39]|9[0-2469])|3(?:[29]|60)|49|51|6(?:[0-24]|36|5[0-3589]|7[23]|9[01459])|7[0-468]|8[68])|9(?:[23][1-9]|4[15]|5[138]|6[1-3]|7[156]|8[189]|9(?:[1289]|3[34]|4[0178]))|(?:264|837)[016-9]|2(?:57|93)[015-9]|(?:25[0468]|422|838)[01]|(?:47[59]|59[89]|8(?:6[68]|9))[019]	1(?:1|5(?:4[018]|5[017])|77|88|9[69])|2(?:2[127]|3[0-269]|4[59]|5(?:[1-3]|5[0-69]|9(?:17|99))|6(?:2|4[016-9])|7(?:[1-35]|8[0189])|8(?:[16]|3[0134]|9[0-5])|9(?:[028]|17))|4(?:2(?:[13-79]|8[014-6])|3[0-57]|[45]|6[248]|7[2-47]|9[29])|5(?:2|3(?:[045]|9(?:[0-58]|6[4-9]|7[0-35689]))|4[0-369]|5[29]|8[02389]|9[0-3])|7(?:2[02-46-9]|34|[58]|6[0249]|7[57]|9(?:[23]|4[0-59]|5[01569]|6[0167]))|8(?:2(?:[1258]|4[0-39]|9[0169])|3(?:[29]|60|7(?:[017-9]|6[6-8]))|49|51|6(?:[0-24]|36[2-57-9]|5(?:[0-389]|5[23])|6(?:[01]|9[178])|7(?:2[2-468]|3[78])|9[0145])|7[0-468]|8[68])|9(?:4[15]|5[138]|7[156]|8[189]|9(?:[1289]|3(?:31|4[357])|4[0178]))|(?:8294|96)[1-3]|2(?:57|93)[015-9]|(?:223|8699)[014-9]|(?:25[0468]|422|838)[01]|(?:48|8292|9[23])[1-9]|(?:47[59]|59[89]|8(?:68|9))[019]
I	(\d{3})(\d{2})(\d{4})	$1-$2-$3	0$1	0		[14]|[289][2-9]|5[3-9]|7[2-4679]
I	(\d{3})(\d{3})(\d{4})	$1-$2-$3	0$1	0		800
I	(\d{2})(\d{4})(\d{4})	$1-$2-$3	0$1	0		[25-9]
R	KE	254	000		0		0		0	0		1
D	general	1	(?:[17]\d\d|900)\d{6}|(?:2|80)0\d{6,7}|[4-6]\d{6,8}	7,8,9,10		
D	fixed	1	(?:4[245]|5[1-79]|6[01457-9])\d{5,7}|(?:4[136]|5[08]|62)\d{7}|(?:[24]0|66)\d{6,7}	7,8,9		202012345
D	mobile	1	(?:1(?:0[0-8]|[18]\d|2[014]|30|4[0-5])|7\d\d)\d{6}	9		712123456
D	toll	1	800[02-8]\d{5,6}	9,10		800223456
D	premium	1	900[02-9]\d{5}	9		900223456
D	shared	0		-1		
D	personal	0		-1		
D	voip	0		-1		
D	pager	0		-1		
D	uan	0		-1		
D	voicemail	0		-1		
D	nointl	0		-1		
F	(\d{2})(\d{5,7})	$1 $2	0$1	0		[24-6]
F	(\d{3})(\d{6})	$1 $2	0$1	0		[17]
F	(\d{3})(\d{3})(\d{3,4})	$1 $2 $3	0$1	0		[89]
R	KG	996	00		0		0		0	0		0
D	general	1	8\d{9}|[235-9]\d{8}	9,10	5,6	
D	fixed	1	312(?:5[0-79]\d|9(?:[0-689]\d|7[0-24-9]))\d{3}|(?:3(?:1(?:2[0-46-8]|3[1-9]|47|[56]\d)|2(?:22|3[0-479]|6[0-7])|4(?:22|5[6-9]|6\d)|5(?:22|3[4-7]|59|6\d)|6(?:22|5[35-7]|6\d)|7(?:22|3[468]|4[1-9]|59|[67]\d)|9(?:22|4[1-8]|6\d))|6(?:09|12|2[2-4])\d)\d{5}	9	5,6	312123456
D	mobile	1	312(?:58\d|973)\d{3}|(?:2(?:0[0-35]|2\d)|5[0-24-7]\d|600|7(?:[07]\d|55)|88[08]|9(?:12|9[05-9]))\d{6}	9		700123456
D	toll	1	800\d{6,7}			800123456
D	premium	0		-1		
D	shared	0		-1		
D	personal	0		-1		
D	voip	0		-1		
D	pager	0		-1		
D	uan	0		-1		
D	voicemail	0		-1		
D	nointl	0		-1		
F	(\d{4})(\d{5})	$1 $2	0$1	0		3(?:1[346]|[24-79])
F	(\d{3})(\d{3})(\d{3})	$1 $2 $3	0$1	0		[235-79]|88
F	(\d{3})(\d{3})(\d)(\d{2,3})	$1 $2 $3 $4	0$1	0		8
R	KH	855	00[14-9]		0		0		0	0		0
D	general	1	1\d{9}|[1-9]\d{7,8}	8,9,10	6,7	
D	fixed	1	23(?:4(?:[2-4]|[56]\d)|[568]\d\d)\d{4}|23[236-9]\d{5}|(?:2[4-6]|3[2-6]|4[2-4]|[5-7][2-5])(?:(?:[237-9]|4[56]|5\d)\d{5}|6\d{5,6})	8,9	6,7	23756789
D	mobile	1	(?:(?:1[28]|3[18]|9[67])\d|6[016-9]|7(?:[07-9]|[16]\d)|8(?:[013-79]|8\d))\d{6}|(?:1\d|9[0-57-9])\d{6}|(?:2[3-6]|3[2-6]|4[2-4]|[5-7][2-5])48\d{5}	8,9		91234567
D	toll	1	1800(?:1\d|2[019])\d{4}	10		1800123456
D	premium	1	1900(?:1\d|2[09])\d{4}	10		1900123456
D	shared	0		-1		
D	personal	0		-1		
D	voip	0		-1		
D	pager	0		-1		
D	uan	0		-1		
D	voicemail	0		-1		
D	nointl	0		-1		
F	(\d{2})(\d{3})(\d{3,4})	$1 $2 $3	0$1	0		[1-9]
F	(\d{4})(\d{3})(\d{3})	$1 $2 $3		0		1
R	KI	686	00		0		0		0	0		0
D	general	1	(?:[37]\d|6[0-79])\d{6}|(?:[2-48]\d|50)\d{3}	5,8		
D	fixed	1	(?:[24]\d|3[1-9]|50|65(?:02[12]|12[56]|22[89]|[3-5]00)|7(?:27\d\d|3100|5(?:02[12]|12[56]|22[89]|[34](?:00|81)|500))|8[0-5])\d{3}			31234
D	mobile	1	(?:6200[01]|7(?:310[1-9]|5(?:02[03-9]|12[0-47-9]|22[0-7]|[34](?:0[1-9]|8[02-9])|50[1-9])))\d{3}|(?:63\d\d|7(?:(?:[0146-9]\d|2[0-689])\d|3(?:[02-9]\d|1[1-9])|5(?:[0-2][013-9]|[34][1-79]|5[1-9]|[6-9]\d)))\d{4}	8		72001234
D	toll	0		-1		
D	premium	0		-1		
D	shared	0		-1		
D	personal	0		-1		
D	voip	1	30(?:0[01]\d\d|12(?:11|20))\d\d	8		30010000
D	pager	0		-1		
D	uan	0		-1		
D	voicemail	0		-1		
D	nointl	0		-1		
R	KM	269	00						0	0		0
D	general	1	[3478]\d{6}	7	4	
D	fixed	1	7[4-7]\d{5}		4	7712345
D	mobile	1	[34]\d{6}			3212345
D	toll	0		-1		
D	premium	1	8\d{6}			8001234
D	shared	0		-1		
D	personal	0		-1		
D	voip	0		-1		
D	pager	0		-1		
D	uan	0		-1		
D	voicemail	0		-1		
D	nointl	0		-1		
F	(\d{3})(\d{2})(\d{2})	$1 $2 $3		0		[3478]
R	KN	1	011		1		([2-7]\d{6})$|1	869$1	0	0	869	1
D	general	1	(?:[58]\d\d|900)\d{7}	10	7	
D	fixed	1	869(?:2(?:29|36)|302|4(?:6[015-9]|70)|56[5-7])\d{4}		7	8692361234
D	mobile	1	869(?:48[89]|55[6-8]|66\d|76[02-7])\d{4}		7	8697652917
D	toll	1	8(?:00|33|44|55|66|77|88)[2-9]\d{6}			8002123456
D	premium	1	900[2-9]\d{6}			9002123456
D	shared	0		-1		
D	personal	1	52(?:3(?:[2-46-9][02-9]\d|5(?:[02-46-9]\d|5[0-46-9]))|4(?:[2-478][02-9]\d|5(?:[034]\d|2[024-9]|5[0-46-9])|6(?:0[1-9]|[2-9]\d)|9(?:[05-9]\d|2[0-5]|49)))\d{4}|52[34][2-9]1[02-9]\d{4}|5(?:00|2[125-9]|3[23]|44|66|77|88)[2-9]\d{6}			5002345678
D	voip	0		-1		
D	pager	0		-1		
D	uan	0		-1		
D	voicemail	0		-1		
D	nointl	0		-1		
R	KP	850	00|99		0		0		0	0		0
D	general	1	85\d{6}|(?:19\d|[2-7])\d{7}	8,10	6,7	
D	fixed	1	(?:(?:195|2)\d|3[19]|4[159]|5[37]|6[17]|7[39]|85)\d{6}		6,7	21234567
D	mobile	1	19[1-3]\d{7}	10		1921234567
D	toll	0		-1		
D	premium	0		-1		
D	shared	0		-1		
D	personal	0		-1		
D	voip	0		-1		
D	pager	0		-1		
D	uan	0		-1		
D	voicemail	0		-1		
D	nointl	1	238[02-9]\d{4}|2(?:[0-24-9]\d|3[0-79])\d{5}	8		
F	(\d{2})(\d{3})(\d{3})	$1 $2 $3	0$1	0		8
F	(\d)(\d{3})(\d{4})	$1 $2 $3	0$1	0		[2-7]
F	(\d{3})(\d{3})(\d{4})	$1 $2 $3	0$1	0		1
R	KR	82	00(?:[125689]|3(?:[46]5|91)|7(?:00|27|3|55|6[126]))		0		0(8(?:[1-46-8]|5\d\d))?		0	0		1
D	general	1	00[1-9]\d{8,11}|(?:[12]|5\d{3})\d{7}|[13-6]\d{9}|(?:[1-6]\d|80)\d{7}|[3-6]\d{4,5}|(?:00|7)0\d{8}	5,6,8,9,10,11,12,13,14	3,4,7	
D	fixed	1	(?:2|3[1-3]|[46][1-4]|5[1-5])[1-9]\d{6,7}|(?:3[1-3]|[46][1-4]|5[1-5])1\d{2,3}	5,6,8,9,10	3,4,7	22123456
D	mobile	1	1(?:05(?:[0-8]\d|9[0-6])|22[13]\d)\d{4,5}|1(?:0[0-46-9]|[16-9]\d|2[013-9])\d{6,7}	9,10		1020000000
D	toll	1	00(?:308\d{6,7}|798\d{7,9})|(?:00368|[38]0)\d{7}	9,11,12,13,14		801234567
D	premium	1	60[2-9]\d{6}	9		602345678
D	shared	0		-1		
D	personal	1	50\d{8,9}	10,11		5012345678
D	voip	1	70\d{8}	10		7012345678
D	pager	1	15\d{7,8}	9,10		1523456789
D	uan	1	1(?:5(?:22|33|44|66|77|88|99)|6(?:[07]0|44|6[0168]|88)|8(?:00|33|55|77|99))\d{4}	8		15441234
D	voicemail	0		-1		
D	nointl	1	00(?:3(?:08\d{6,7}|68\d{7})|798\d{7,9})	11,12,13,14		
F	(\d{5})	$1	0$1	0		1[016-9]1	1[016-9]11	1[016-9]114
F	(\d{2})(\d{3,4})	$1-$2	0$1	0	0$CC-$1	(?:3[1-3]|[46][1-4]|5[1-5])1
F	(\d{4})(\d{4})	$1-$2		0		1
F	(\d)(\d{3,4})(\d{4})	$1-$2-$3	0$1	0	0$CC-$1	2
F	(\d{2})(\d{3})(\d{4})	$1-$2-$3	0$1	0	0$CC-$1	[36]0|8
F	(\d{2})(\d{3,4})(\d{4})	$1-$2-$3	0$1	0	0$CC-$1	[1346]|5[1-5]
F	(\d{2})(\d{4})(\d{4})	$1-$2-$3	0$1	0	0$CC-$1	[57]
F	(\d{5})(\d{3})(\d{3})	$1 $2 $3		0		003	0030
F	(\d{2})(\d{5})(\d{4})	$1-$2-$3	0$1	0	0$CC-$1	5
F	(\d{5})(\d{3,4})(\d{4})	$1 $2 $3		0		0
F	(\d{5})(\d{2})(\d{3})(\d{4})	$1 $2 $3 $4		0		0
I	(\d{2})(\d{3,4})	$1-$2	0$1	0	0$CC-$1	(?:3[1-3]|[46][1-4]|5[1-5])1
I	(\d{4})(\d{4})	$1-$2		0		1
I	(\d)(\d{3,4})(\d{4})	$1-$2-$3	0$1	0	0$CC-$1	2
I	(\d{2})(\d{3})(\d{4})	$1-$2-$3	0$1	0	0$CC-$1	[36]0|8
I	(\d{2})(\d{3,4})(\d{4})	$1-$2-$3	0$1	0	0$CC-$1	[1346]|5[1-5]
I	(\d{2})(\d{4})(\d{4})	$1-$2-$3	0$1	0	0$CC-$1	[57]
I	(\d{2})(\d{5})(\d{4})	$1-$2-$3	0$1	0	0$CC-$1	5
R	KW	965	00						0	0		1
D	general	1	18\d{5}|(?:[2569]\d|41)\d{6}	7,8		
D	fixed	1	2(?:[23]\d\d|4(?:[1-35-9]\d|44)|5(?:0[034]|[2-46]\d|5[1-3]|7[1-7]))\d{4}	8		22345678
D	mobile	1	(?:41\d\d|5(?:(?:[05]\d|1[0-7]|6[56])\d|2(?:22|5[25])|7(?:55|77)|88[58])|6(?:(?:0[034679]|5[015-9]|6\d)\d|1(?:00|11|6[16])|2[26]2|3[36]3|4[46]4|7(?:0[013-9]|[67]\d)|8[68]8|9(?:[069]\d|3[039]))|9(?:(?:[04679]\d|8[057-9])\d|1(?:00|1[01]|99)|2(?:00|2\d)|3(?:00|3[03])|5(?:00|5\d)))\d{4}	8		50012345
D	toll	1	18\d{5}	7		1801234
D	premium	0		-1		
D	shared	0		-1		
D	personal	0		-1		
D	voip	0		-1		
D	pager	0		-1		
D	uan	0		-1		
D	voicemail	0		-1		
D	nointl	0		-1		
F	(\d{4})(\d{3,4})	$1 $2		0		[169]|2(?:[235]|4[1-35-9])|52
F	(\d{3})(\d{5})	$1 $2		0		[245]
R	KY	1	011		1		([2-9]\d{6})$|1	345$1	0	0	345	1
D	general	1	(?:345|[58]\d\d|900)\d{7}	10	7	
D	fixed	1	345(?:2(?:22|3[23]|44|66)|333|444|6(?:23|38|40)|7(?:30|4[35-79]|6[6-9]|77)|8(?:00|1[45]|4[89]|88)|9(?:14|4[035-9]))\d{4}		7	3452221234
D	mobile	1	345(?:32[1-9]|4(?:1[2-6]|2[0-4])|5(?:1[67]|2[5-79]|4[6-9]|50|76)|649|82[56]|9(?:1[679]|2[2-9]|3[06-9]|90))\d{4}		7	3453231234
D	toll	1	8(?:00|33|44|55|66|77|88)[2-9]\d{6}			8002345678
D	premium	1	(?:345976|900[2-9]\d\d)\d{4}			9002345678
D	shared	0		-1		
D	personal	1	52(?:3(?:[2-46-9][02-9]\d|5(?:[02-46-9]\d|5[0-46-9]))|4(?:[2-478][02-9]\d|5(?:[034]\d|2[024-9]|5[0-46-9])|6(?:0[1-9]|[2-9]\d)|9(?:[05-9]\d|2[0-5]|49)))\d{4}|52[34][2-9]1[02-9]\d{4}|5(?:00|2[125-9]|3[23]|44|66|77|88)[2-9]\d{6}			5002345678
D	voip	0		-1		
D	pager	0		-1		
D	uan	0		-1		
D	voicemail	0		-1		
D	nointl	0		-1		
R	KZ	7	810	8~10	8		8		0	0	7	1
D	general	1	8\d{13}|[78]\d{9}	10,14	5,6,7	
D	fixed	1	7(?:1(?:0(?:[23]\d|4[0-3]|59|63)|1(?:[23]\d|4[0-79]|59)|2(?:[23]\d|59)|3(?:2\d|3[0-79]|4[0-35-9]|59)|4(?:[24]\d|3[013-9]|5[1-9]|97)|5(?:2\d|3[1-9]|4[0-7]|59)|6(?:[2-4]\d|5[19]|61)|72\d|8(?:[27]\d|3[1-46-9]|4[0-5]|59))|2(?:1(?:[23]\d|4[46-9]|5[3469])|2(?:2\d|3[0679]|46|5[12679])|3(?:[2-4]\d|5[139])|4(?:2\d|3[1-35-9]|59)|5(?:[23]\d|4[0-8]|59|61)|6(?:2\d|3[1-9]|4[0-4]|59)|7(?:[2379]\d|40|5[279])|8(?:[23]\d|4[0-3]|59)|9(?:2\d|3[124578]|59)))\d{5}	10	5,6,7	7123456789
D	mobile	1	7(?:0[0-25-8]|47|6[0-4]|7[15-8]|85)\d{7}	10		7710009998
D	toll	1	8(?:00|108\d{3})\d{7}			8001234567
D	premium	1	809\d{7}	10		8091234567
D	shared	0		-1		
D	personal	1	808\d{7}	10		8081234567
D	voip	1	751\d{7}	10		7511234567
D	pager	0		-1		
D	uan	0		-1		
D	voicemail	0		-1		
D	nointl	1	751\d{7}	10		
R	LA	856	00		0		0		0	0		0
D	general	1	[23]\d{9}|3\d{8}|(?:[235-8]\d|41)\d{6}	8,9,10	6	
D	fixed	1	(?:2[13]|[35-7][14]|41|8[1468])\d{6}	8	6	21212862
D	mobile	1	(?:20(?:[23579]\d|8[78])|30[24]\d)\d{6}|30\d{7}	9,10		2023123456
D	toll	0		-1		
D	premium	0		-1		
D	shared	0		-1		
D	personal	0		-1		
D	voip	0		-1		
D	pager	0		-1		
D	uan	0		-1		
D	voicemail	0		-1		
D	nointl	0		-1		
F	(\d{2})(\d{3})(\d{3})	$1 $2 $3	0$1	0		2[13]|3[14]|[4-8]
F	(\d{2})(\d{2})(\d{2})(\d{3})	$1 $2 $3 $4	0$1	0		3
F	(\d{2})(\d{2})(\d{3})(\d{3})	$1 $2 $3 $4	0$1	0		[23]
R	LB	961	00		0		0		0	0		0
D	general	1	[27-9]\d{7}|[13-9]\d{6}	7,8		
D	fixed	1	7(?:62|8[0-6]|9[04-9])\d{4}|(?:[14-69]\d|2(?:[14-69]\d|[78][1-9])|7[2-57]|8[02-9])\d{5}			1123456
D	mobile	1	(?:(?:3|81)\d|7(?:[01]\d|6[013-9]|8[7-9]|9[0-4]))\d{5}			71123456
D	toll	0		-1		
D	premium	1	9[01]\d{6}	8		90123456
D	shared	1	80\d{6}	8		80123456
D	personal	0		-1		
D	voip	0		-1		
D	pager	0		-1		
D	uan	0		-1		
D	voicemail	0		-1		
D	nointl	0		-1		
F	(\d)(\d{3})(\d{3})	$1 $2 $3	0$1	0		[13-69]|7(?:[2-57]|62|8[0-6]|9[04-9])|8[02-9]
F	(\d{2})(\d{3})(\d{3})	$1 $2 $3		0		[27-9]
R	LC	1	011		1		([2-8]\d{6})$|1	758$1	0	0	758	1
D	general	1	(?:[58]\d\d|758|900)\d{7}	10	7	
D	fixed	1	758(?:234|4(?:30|5\d|6[2-9]|8[0-2])|57[0-2]|(?:63|75)8)\d{4}		7	7584305678
D	mobile	1	758(?:28[4-7]|384|4(?:6[01]|8[4-9])|5(?:1[89]|20|84)|7(?:1[2-9]|2\d|3[0-3])|812)\d{4}		7	7582845678
D	toll	1	8(?:00|33|44|55|66|77|88)[2-9]\d{6}			8002123456
D	premium	1	900[2-9]\d{6}			9002123456
D	shared	0		-1		
D	personal	1	52(?:3(?:[2-46-9][02-9]\d|5(?:[02-46-9]\d|5[0-46-9]))|4(?:[2-478][02-9]\d|5(?:[034]\d|2[024-9]|5[0-46-9])|6(?:0[1-9]|[2-9]\d)|9(?:[05-9]\d|2[0-5]|49)))\d{4}|52[34][2-9]1[02-9]\d{4}|5(?:00|2[125-9]|3[23]|44|66|77|88)[2-9]\d{6}			5002345678
D	voip	0		-1		
D	pager	0		-1		
D	uan	0		-1		
D	voicemail	0		-1		
D	nointl	0		-1		
R	LI	423	00		0		(1001)|0		0	0		0
D	general	1	[68]\d{8}|(?:[2378]\d|90)\d{5}	7,9		
D	fixed	1	(?:2(?:01|1[27]|2[024]|3\d|6[02-578]|96)|3(?:[24]0|33|7[0135-7]|8[048]|9[0269]))\d{4}	7		2345678
D	mobile	1	(?:6(?:(?:4[5-9]|5\d)\d|6(?:[024-68]\d|1[01]|3[7-9]|7[02]))\d|7(?:[37-9]\d|42|56))\d{4}			660234567
D	toll	1	8002[28]\d\d|80(?:05\d|9)\d{4}			8002222
D	premium	1	90(?:02[258]|1(?:23|3[14])|66[136])\d\d	7		9002222
D	shared	0		-1		
D	personal	0		-1		
D	voip	0		-1		
D	pager	0		-1		
D	uan	1	870(?:28|87)\d\d	7		8702812
D	voicemail	1	697(?:42|56|[78]\d)\d{4}	9		697861234
D	nointl	0		-1		
F	(\d{3})(\d{2})(\d{2})	$1 $2 $3		0	$CC $1	[2379]|8(?:0[09]|7)	[2379]|8(?:0(?:02|9)|7)
F	(\d{3})(\d{3})(\d{3})	$1 $2 $3		0		8
F	(\d{2})(\d{3})(\d{4})	$1 $2 $3		0	$CC $1	69
F	(\d{3})(\d{3})(\d{3})	$1 $2 $3		0	$CC $1	6
R	LK	94	00		0		0		0	0		0
D	general	1	[1-9]\d{8}	9	7	
D	fixed	1	(?:12[2-9]|602|8[12]\d|9(?:1\d|22|9[245]))\d{6}|(?:11|2[13-7]|3[1-8]|4[157]|5[12457]|6[35-7])[2-57]\d{6}		7	112345678
D	mobile	1	7(?:[0-25-8]\d|4[0-4])\d{6}			712345678
D	toll	0		-1		
D	premium	0		-1		
D	shared	0		-1		
D	personal	0		-1		
D	voip	0		-1		
D	pager	0		-1		
D	uan	1	1973\d{5}			197312345
D	voicemail	0		-1		
D	nointl	0		-1		
F	(\d{2})(\d{3})(\d{4})	$1 $2 $3	0$1	0		7
F	(\d{3})(\d{3})(\d{3})	$1 $2 $3	0$1	0		[1-689]"
end Verif.Data
