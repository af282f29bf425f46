import Verif.Data.Decode
/-! Generated from `/repo/metadata/data/metadata.xml.gz` (metadata v9.0.37); part 1 of 4.  See `Verif/Data/Decode.lean` for the line format. -/
namespace Verif.Data
shipped main1 r"R	AC	247	00						0	0		0
D	general	1	(?:[01589]\d|[2-467])\d{4}	5,6		
D	fixed	1	6\d{4}	5		62889
D	mobile	1	[2-47]\d{4}	5		40123
D	toll	0		-1		
D	premium	0		-1		
D	shared	0		-1		
D	personal	0		-1		
D	voip	0		-1		
D	pager	0		-1		
D	uan	1	(?:0[1-9]|[1589]\d)\d{4}	6		542011
D	voicemail	0		-1		
D	nointl	0		-1		
R	AD	376	00						0	0		0
D	general	1	(?:1|6\d)\d{7}|[135-9]\d{5}	6,8,9		
D	fixed	1	[78]\d{5}	6		712345
D	mobile	1	690\d{6}|[356]\d{5}	6,9		312345
D	toll	1	180[02]\d{4}	8		18001234
D	premium	1	[19]\d{5}	6		912345
D	shared	0		-1		
D	personal	0		-1		
D	voip	0		-1		
D	pager	0		-1		
D	uan	0		-1		
D	voicemail	0		-1		
D	nointl	1	1800\d{4}	8		
F	(\d{3})(\d{3})	$1 $2		0		[135-9]
F	(\d{4})(\d{4})	$1 $2		0		1
F	(\d{3})(\d{3})(\d{3})	$1 $2 $3		0		6
R	AE	971	00		0		0		0	0		0
D	general	1	(?:[4-7]\d|9[0-689])\d{7}|800\d{2,9}|[2-4679]\d{7}	5,6,7,8,9,10,11,12		
D	fixed	1	[2-4679][2-8]\d{6}	8	7	22345678
D	mobile	1	5[02-68]\d{7}	9		501234567
D	toll	1	400\d{6}|800\d{2,9}			800123456
D	premium	1	900[02]\d{5}	9		900234567
D	shared	1	700[05]\d{5}	9		700012345
D	personal	0		-1		
D	voip	0		-1		
D	pager	0		-1		
D	uan	1	600[25]\d{5}	9		600212345
D	voicemail	0		-1		
D	nointl	0		-1		
F	(\d{3})(\d{2,9})	$1 $2		0		60|8
F	(\d)(\d{3})(\d{4})	$1 $2 $3	0$1	0		[236]|[479][2-8]
F	(\d{3})(\d)(\d{5})	$1 $2 $3		0		[479]
F	(\d{2})(\d{3})(\d{4})	$1 $2 $3	0$1	0		5
R	AF	93	00		0		0		0	0		0
D	general	1	[2-7]\d{8}	9	7	
D	fixed	1	(?:[25][0-8]|[34][0-4]|6[0-5])[2-9]\d{6}		7	234567890
D	mobile	1	7\d{8}		7	701234567
D	toll	0		-1		
D	premium	0		-1		
D	shared	0		-1		
D	personal	0		-1		
D	voip	0		-1		
D	pager	0		-1		
D	uan	0		-1		
D	voicemail	0		-1		
D	nointl	0		-1		
F	(\d{3})(\d{4})	$1 $2		0		[1-9]
F	(\d{2})(\d{3})(\d{4})	$1 $2 $3	0$1	0		[2-7]
I	(\d{2})(\d{3})(\d{4})	$1 $2 $3	0$1	0		[2-7]
R	AG	1	011		1		([457]\d{6})$|1	268$1	0	0	268	1
D	general	1	(?:268|[58]\d\d|900)\d{7}	10	7	
D	fixed	1	268(?:4(?:6[0-38]|84)|56[0-2])\d{4}		7	2684601234
D	mobile	1	268(?:464|7(?:1[3-9]|[28]\d|3[0246]|64|7[0-689]))\d{4}		7	2684641234
D	toll	1	8(?:00|33|44|55|66|77|88)[2-9]\d{6}			8002123456
D	premium	1	900[2-9]\d{6}			9002123456
D	shared	0		-1		
D	personal	1	52(?:3(?:[2-46-9][02-9]\d|5(?:[02-46-9]\d|5[0-46-9]))|4(?:[2-478][02-9]\d|5(?:[034]\d|2[024-9]|5[0-46-9])|6(?:0[1-9]|[2-9]\d)|9(?:[05-9]\d|2[0-5]|49)))\d{4}|52[34][2-9]1[02-9]\d{4}|5(?:00|2[125-9]|3[23]|44|66|77|88)[2-9]\d{6}			5002345678
D	voip	1	26848[01]\d{4}		7	2684801234
D	pager	1	26840[69]\d{4}		7	2684061234
D	uan	0		-1		
D	voicemail	0		-1		
D	nointl	0		-1		
R	AI	1	011		1		([2457]\d{6})$|1	264$1	0	0	264	1
D	general	1	(?:264|[58]\d\d|900)\d{7}	10	7	
D	fixed	1	264(?:292|4(?:6[12]|9[78]))\d{4}		7	2644612345
D	mobile	1	264(?:235|4(?:69|7[67])|5(?:3[6-9]|8[1-4])|7(?:29|72))\d{4}		7	2642351234
D	toll	1	8(?:00|33|44|55|66|77|88)[2-9]\d{6}			8002123456
D	premium	1	900[2-9]\d{6}			9002123456
D	shared	0		-1		
D	personal	1	52(?:3(?:[2-46-9][02-9]\d|5(?:[02-46-9]\d|5[0-46-9]))|4(?:[2-478][02-9]\d|5(?:[034]\d|2[024-9]|5[0-46-9])|6(?:0[1-9]|[2-9]\d)|9(?:[05-9]\d|2[0-5]|49)))\d{4}|52[34][2-9]1[02-9]\d{4}|5(?:00|2[125-9]|3[23]|44|66|77|88)[2-9]\d{6}			5002345678
D	voip	0		-1		
D	pager	1	264724\d{4}		7	2647241234
D	uan	0		-1		
D	voicemail	0		-1		
D	nointl	0		-1		
R	AL	355	00		0		0		0	0		1
D	general	1	(?:700\d\d|900)\d{3}|8\d{5,7}|(?:[2-5]|6\d)\d{7}	6,7,8,9	5	
D	fixed	1	4505[0-2]\d{3}|(?:[2358][16-9]\d[2-9]|4410)\d{4}|(?:[2358][2-5][2-9]|4(?:[2-57-9][2-9]|6\d))\d{5}	8	5,6,7	22345678
D	mobile	1	6(?:[78][2-9]|9\d)\d{6}	9		672123456
D	toll	1	800\d{4}	7		8001234
D	premium	1	900[1-9]\d\d	6		900123
D	shared	1	808[1-9]\d\d	6		808123
D	personal	1	700[2-9]\d{4}	8		70021234
D	voip	0		-1		
D	pager	0		-1		
D	uan	0		-1		
D	voicemail	0		-1		
D	nointl	0		-1		
F	(\d{3})(\d{3,4})	$1 $2	0$1	0		80|9
F	(\d)(\d{3})(\d{4})	$1 $2 $3	0$1	0		4[2-6]
F	(\d{2})(\d{3})(\d{3})	$1 $2 $3	0$1	0		[2358][2-5]|4
F	(\d{3})(\d{5})	$1 $2	0$1	0		[23578]
F	(\d{2})(\d{3})(\d{4})	$1 $2 $3	0$1	0		6
R	AM	374	00		0		0		0	0		1
D	general	1	(?:[1-489]\d|55|60|77)\d{6}	8	5,6	
D	fixed	1	(?:(?:1[0-25]|47)\d|2(?:2[2-46]|3[1-8]|4[2-69]|5[2-7]|6[1-9]|8[1-7])|3[12]2)\d{5}		5,6	10123456
D	mobile	1	(?:33|4[1349]|55|77|88|9[13-9])\d{6}			77123456
D	toll	1	800\d{5}			80012345
D	premium	1	90[016]\d{5}			90012345
D	shared	1	80[1-4]\d{5}			80112345
D	personal	0		-1		
D	voip	1	60(?:2[78]|3[5-9]|4[02-9]|5[0-46-9]|[6-8]\d|9[0-2])\d{4}			60271234
D	pager	0		-1		
D	uan	0		-1		
D	voicemail	0		-1		
D	nointl	0		-1		
F	(\d{3})(\d{2})(\d{3})	$1 $2 $3	0 $1	0		[89]0
F	(\d{3})(\d{5})	$1 $2	(0$1)	0		2|3[12]
F	(\d{2})(\d{6})	$1 $2	(0$1)	0		1|47
F	(\d{2})(\d{6})	$1 $2	0$1	0		[3-9]
R	AO	244	00						0	0		0
D	general	1	[29]\d{8}	9		
D	fixed	1	2\d(?:[0134][25-9]|[25-9]\d)\d{5}			222123456
D	mobile	1	9[1-79]\d{7}			923123456
D	toll	0		-1		
D	premium	0		-1		
D	shared	0		-1		
D	personal	0		-1		
D	voip	0		-1		
D	pager	0		-1		
D	uan	0		-1		
D	voicemail	0		-1		
D	nointl	0		-1		
F	(\d{3})(\d{3})(\d{3})	$1 $2 $3		0		[29]
R	AR	54	00		0		0?(?:(11|2(?:2(?:02?|[13]|2[13-79]|4[1-6]|5[2457]|6[124-8]|7[1-4]|8[13-6]|9[1267])|3(?:02?|1[467]|2[03-6]|3[13-8]|[49][2-6]|5[2-8]|[67])|4(?:7[3-578]|9)|6(?:[0136]|2[24-6]|4[6-8]?|5[15-8])|80|9(?:0[1-3]|[19]|2\d|3[1-6]|4[02568]?|5[2-4]|6[2-46]|72?|8[23]?))|3(?:3(?:2[79]|6|8[2578])|4(?:0[0-24-9]|[12]|3[5-8]?|4[24-7]|5[4-68]?|6[02-9]|7[126]|8[2379]?|9[1-36-8])|5(?:1|2[1245]|3[237]?|4[1-46-9]|6[2-4]|7[1-6]|8[2-5]?)|6[24]|7(?:[069]|1[1568]|2[15]|3[145]|4[13]|5[14-8]|7[2-57]|8[126])|8(?:[01]|2[15-7]|3[2578]?|4[13-6]|5[4-8]?|6[1-357-9]|7[36-8]?|8[5-8]?|9[124])))15)?	9$1	0	0		1
D	general	1	(?:11|[89]\d\d)\d{8}|[2368]\d{9}	10,11	6,7,8	
D	fixed	1	3(?:7(?:1[15]|81)|8(?:21|4[16]|69|9[12]))[46]\d{5}|(?:2(?:2(?:2[59]|44|52)|3(?:26|44)|47[35]|9(?:[07]2|2[26]|34|46))|3327)[45]\d{5}|(?:2(?:657|9(?:54|66))|3(?:48[27]|7(?:55|77)|8(?:65|78)))[2-8]\d{5}|(?:2(?:284|3(?:02|23)|477|622|920)|3(?:4(?:46|89|92)|541))[2-7]\d{5}|(?:(?:11[0-8]|670)\d|2(?:2(?:0[45]|1[2-6]|3[3-6])|3(?:[06]4|7[45])|494|6(?:04|1[2-8]|[36][45]|4[3-6])|80[45]|9(?:[17][4-6]|[48][45]|9[3-6]))|3(?:364|4(?:1[2-8]|[25][4-6]|3[3-6]|84)|5(?:1[2-9]|[38][4-6])|6(?:2[45]|44)|7[069][45]|8(?:0[45]|1[2-7]|3[4-6]|5[3-6]|7[2-6]|8[3-68])))\d{6}|(?:2(?:2(?:62|81)|320|9(?:42|83))|3(?:329|4(?:62|7[16])|5(?:43|64)|7(?:18|5[17])))[2-6]\d{5}|2(?:2(?:21|4[23]|6[145]|7[1-4]|8[356]|9[267])|3(?:16|3[13-8]|43|5[346-8]|9[3-5])|6(?:2[46]|4[78]|5[1568])|9(?:03|2[1457-9]|3[1356]|4[08]|[56][23]|82))4\d{5}|(?:2(?:257|3(?:24|46|92)|9(?:01|23|64))|3(?:4(?:42|64)|5(?:25|37|4[47]|71)|7(?:35|72)|825))[3-6]\d{5}|(?:2(?:2(?:02|2[3467]|4[156]|5[45]|6[6-8]|91)|3(?:1[47]|25|[45][25]|96)|47[48]|625|932)|3(?:38[2578]|4(?:0[0-24-9]|3[78]|4[457]|58|6[035-9]|72|83|9[136-8])|5(?:2[124]|[368][23]|4[2689]|7[2-6])|7(?:16|2[15]|3[14]|4[13]|5[468]|7[3-5]|8[26])|8(?:2[67]|3[278]|4[3-5]|5[78]|6[1-378]|[78]7|94)))[4-6]\d{5}	10	6,7,8	1123456789
D	mobile	1	93(?:7(?:1[15]|81)|8(?:21|4[16]|69|9[12]))[46]\d{5}|9(?:2(?:2(?:2[59]|44|52)|3(?:26|44)|47[35]|9(?:[07]2|2[26]|34|46))|3327)[45]\d{5}|9(?:2(?:657|9(?:54|66))|3(?:48[27]|7(?:55|77)|8(?:65|78)))[2-8]\d{5}|9(?:2(?:284|3(?:02|23)|477|622|920)|3(?:4(?:46|89|92)|541))[2-7]\d{5}|(?:675\d|9(?:11[0-8]\d|2(?:2(?:0[45]|1[2-6]|3[3-6])|3(?:[06]4|7[45])|494|6(?:04|1[2-8]|[36][45]|4[3-6])|80[45]|9(?:[17][4-6]|[48][45]|9[3-6]))|3(?:364|4(?:1[2-8]|[25][4-6]|3[3-6]|84)|5(?:1[2-9]|[38][4-6])|6(?:2[45]|44)|7[069][45]|8(?:0[45]|1[2-7]|3[4-6]|5[3-6]|7[2-6]|8[3-68]))))\d{6}|9(?:2(?:2(?:62|81)|320|9(?:42|83))|3(?:329|4(?:62|7[16])|5(?:43|64)|7(?:18|5[17])))[2-6]\d{5}|92(?:2(?:21|4[23]|6[145]|7[1-4]|8[356]|9[267])|3(?:16|3[13-8]|43|5[346-8]|9[3-5])|6(?:2[46]|4[78]|5[1568])|9(?:03|2[1457-9]|3[1356]|4[08]|[56][23]|82))4\d{5}|9(?:2(?:257|3(?:24|46|92)|9(?:01|23|64))|3(?:4(?:42|64)|5(?:25|37|4[47]|71)|7(?:35|72)|825))[3-6]\d{5}|9(?:2(?:2(?:02|2[3467]|4[156]|5[45]|6[6-8]|91)|3(?:1[47]|25|[45][25]|96)|47[48]|625|932)|3(?:38[2578]|4(?:0[0-24-9]|3[78]|4[457]|58|6[035-9]|72|83|9[136-8])|5(?:2[124]|[368][23]|4[2689]|7[2-6])|7(?:16|2[15]|3[14]|4[13]|5[468]|7[3-5]|8[26])|8(?:2[67]|3[278]|4[3-5]|5[78]|6[1-378]|[78]7|94)))[4-6]\d{5}		6,7,8	91123456789
D	toll	1	800\d{7,8}			8001234567
D	premium	1	60[04579]\d{7}	10		6001234567
D	shared	0		-1		
D	personal	0		-1		
D	voip	0		-1		
D	pager	0		-1		
D	uan	1	810\d{7}	10		8101234567
D	voicemail	0		-1		
D	nointl	1	810\d{7}	10		
F	(\d{3})	$1		0		0|1(?:0[0-35-7]|1[02-5]|2[015]|3[47]|4[478])|911
F	(\d{2})(\d{4})	$1-$2		0		[1-9]
F	(\d{3})(\d{4})	$1-$2		0		[2-9]
F	(\d{4})(\d{4})	$1-$2		0		[1-8]
F	(\d{4})(\d{2})(\d{4})	$1 $2-$3	0$1	1		2(?:2[024-9]|3[0-59]|47|6[245]|9[02-8])|3(?:3[28]|4[03-9]|5[2-46-8]|7[1-578]|8[2-9])	2(?:[23]02|6(?:[25]|4[6-8])|9(?:[02356]|4[02568]|72|8[23]))|3(?:3[28]|4(?:[04679]|3[5-8]|5[4-68]|8[2379])|5(?:[2467]|3[237]|8[2-5])|7[1-578]|8(?:[2469]|3[2578]|5[4-8]|7[36-8]|8[5-8]))|2(?:2[24-9]|3[1-59]|47)	2(?:[23]02|6(?:[25]|4(?:64|[78]))|9(?:[02356]|4(?:[0268]|5[2-6])|72|8[23]))|3(?:3[28]|4(?:[04679]|3[78]|5(?:4[46]|8)|8[2379])|5(?:[2467]|3[237]|8[23])|7[1-578]|8(?:[2469]|3[278]|5[56][46]|86[3-6]))|2(?:2[24-9]|3[1-59]|47)|38(?:[58][78]|7[378])|3(?:4[35][56]|58[45]|8(?:[38]5|54|76))[4-6]	2(?:[23]02|6(?:[25]|4(?:64|[78]))|9(?:[02356]|4(?:[0268]|5[2-6])|72|8[23]))|3(?:3[28]|4(?:[04679]|3(?:5(?:4[0-25689]|[56])|[78])|58|8[2379])|5(?:[2467]|3[237]|8(?:[23]|4(?:[45]|60)|5(?:4[0-39]|5|64)))|7[1-578]|8(?:[2469]|3[278]|54(?:4|5[13-7]|6[89])|86[3-6]))|2(?:2[24-9]|3[1-59]|47)|38(?:[58][78]|7[378])|3(?:454|85[56])[46]|3(?:4(?:36|5[56])|8(?:[38]5|76))[4-6]
F	(\d{2})(\d{4})(\d{4})	$1 $2-$3	0$1	1		1
F	(\d{3})(\d{3})(\d{4})	$1-$2-$3	0$1	0		[68]
F	(\d{3})(\d{3})(\d{4})	$1 $2-$3	0$1	1		[23]
F	(\d)(\d{4})(\d{2})(\d{4})	$2 15-$3-$4	0$1	0		9(?:2[2-469]|3[3-578])	9(?:2(?:2[024-9]|3[0-59]|47|6[245]|9[02-8])|3(?:3[28]|4[03-9]|5[2-46-8]|7[1-578]|8[2-9]))	9(?:2(?:[23]02|6(?:[25]|4[6-8])|9(?:[02356]|4[02568]|72|8[23]))|3(?:3[28]|4(?:[04679]|3[5-8]|5[4-68]|8[2379])|5(?:[2467]|3[237]|8[2-5])|7[1-578]|8(?:[2469]|3[2578]|5[4-8]|7[36-8]|8[5-8])))|92(?:2[24-9]|3[1-59]|47)	9(?:2(?:[23]02|6(?:[25]|4(?:64|[78]))|9(?:[02356]|4(?:[0268]|5[2-6])|72|8[23]))|3(?:3[28]|4(?:[04679]|3[78]|5(?:4[46]|8)|8[2379])|5(?:[2467]|3[237]|8[23])|7[1-578]|8(?:[2469]|3[278]|5(?:[56][46]|[78])|7[378]|8(?:6[3-6]|[78]))))|92(?:2[24-9]|3[1-59]|47)|93(?:4[35][56]|58[45]|8(?:[38]5|54|76))[4-6]	9(?:2(?:[23]02|6(?:[25]|4(?:64|[78]))|9(?:[02356]|4(?:[0268]|5[2-6])|72|8[23]))|3(?:3[28]|4(?:[04679]|3(?:5(?:4[0-25689]|[56])|[78])|5(?:4[46]|8)|8[2379])|5(?:[2467]|3[237]|8(?:[23]|4(?:[45]|60)|5(?:4[0-39]|5|64)))|7[1-578]|8(?:[2469]|3[278]|5(?:4(?:4|5[13-7]|6[89])|[56][46]|[78])|7[378]|8(?:6[3-6]|[78]))))|92(?:2[24-9]|3[1-59]|47)|93(?:4(?:36|5[56])|8(?:[38]5|76))[4-6]
F	(\d)(\d{2})(\d{4})(\d{4})	$2 15-$3-$4	0$1	0		91
F	(\d{3})(\d{3})(\d{5})	$1-$2-$3	0$1	0		8
F	(\d)(\d{3})(\d{3})(\d{4})	$2 15-$3-$4	0$1	0		9
I	(\d{4})(\d{2})(\d{4})	$1 $2-$3	0$1	1		2(?:2[024-9]|3[0-59]|47|6[245]|9[02-8])|3(?:3[28]|4[03-9]|5[2-46-8]|7[1-578]|8[2-9])	2(?:[23]02|6(?:[25]|4[6-8])|9(?:[02356]|4[02568]|72|8[23]))|3(?:3[28]|4(?:[04679]|3[5-8]|5[4-68]|8[2379])|5(?:[2467]|3[237]|8[2-5])|7[1-578]|8(?:[2469]|3[2578]|5[4-8]|7[36-8]|8[5-8]))|2(?:2[24-9]|3[1-59]|47)	2(?:[23]02|6(?:[25]|4(?:64|[78]))|9(?:[02356]|4(?:[0268]|5[2-6])|72|8[23]))|3(?:3[28]|4(?:[04679]|3[78]|5(?:4[46]|8)|8[2379])|5(?:[2467]|3[237]|8[23])|7[1-578]|8(?:[2469]|3[278]|5[56][46]|86[3-6]))|2(?:2[24-9]|3[1-59]|47)|38(?:[58][78]|7[378])|3(?:4[35][56]|58[45]|8(?:[38]5|54|76))[4-6]	2(?:[23]02|6(?:[25]|4(?:64|[78]))|9(?:[02356]|4(?:[0268]|5[2-6])|72|8[23]))|3(?:3[28]|4(?:[04679]|3(?:5(?:4[0-25689]|[56])|[78])|58|8[2379])|5(?:[2467]|3[237]|8(?:[23]|4(?:[45]|60)|5(?:4[0-39]|5|64)))|7[1-578]|8(?:[2469]|3[278]|54(?:4|5[13-7]|6[89])|86[3-6]))|2(?:2[24-9]|3[1-59]|47)|38(?:[58][78]|7[378])|3(?:454|85[56])[46]|3(?:4(?:36|5[56])|8(?:[38]5|76))[4-6]
I	(\d{2})(\d{4})(\d{4})	$1 $2-$3	0$1	1		1
I	(\d{3})(\d{3})(\d{4})	$1-$2-$3	0$1	0		[68]
I	(\d{3})(\d{3})(\d{4})	$1 $2-$3	0$1	1		[23]
I	(\d)(\d{4})(\d{2})(\d{4})	$1 $2 $3-$4		0		9(?:2[2-469]|3[3-578])	9(?:2(?:2[024-9]|3[0-59]|47|6[245]|9[02-8])|3(?:3[28]|4[03-9]|5[2-46-8]|7[1-578]|8[2-9]))	9(?:2(?:[23]02|6(?:[25]|4[6-8])|9(?:[02356]|4[02568]|72|8[23]))|3(?:3[28]|4(?:[04679]|3[5-8]|5[4-68]|8[2379])|5(?:[2467]|3[237]|8[2-5])|7[1-578]|8(?:[2469]|3[2578]|5[4-8]|7[36-8]|8[5-8])))|92(?:2[24-9]|3[1-59]|47)	9(?:2(?:[23]02|6(?:[25]|4(?:64|[78]))|9(?:[02356]|4(?:[0268]|5[2-6])|72|8[23]))|3(?:3[28]|4(?:[04679]|3[78]|5(?:4[46]|8)|8[2379])|5(?:[2467]|3[237]|8[23])|7[1-578]|8(?:[2469]|3[278]|5(?:[56][46]|[78])|7[378]|8(?:6[3-6]|[78]))))|92(?:2[24-9]|3[1-59]|47)|93(?:4[35][56]|58[45]|8(?:[38]5|54|76))[4-6]	9(?:2(?:[23]02|6(?:[25]|4(?:64|[78]))|9(?:[02356]|4(?:[0268]|5[2-6])|72|8[23]))|3(?:3[28]|4(?:[04679]|3(?:5(?:4[0-25689]|[56])|[78])|5(?:4[46]|8)|8[2379])|5(?:[2467]|3[237]|8(?:[23]|4(?:[45]|60)|5(?:4[0-39]|5|64)))|7[1-578]|8(?:[2469]|3[278]|5(?:4(?:4|5[13-7]|6[89])|[56][46]|[78])|7[378]|8(?:6[3-6]|[78]))))|92(?:2[24-9]|3[1-59]|47)|93(?:4(?:36|5[56])|8(?:[38]5|76))[4-6]
I	(\d)(\d{2})(\d{4})(\d{4})	$1 $2 $3-$4		0		91
I	(\d{3})(\d{3})(\d{5})	$1-$2-$3	0$1	0		8
I	(\d)(\d{3})(\d{3})(\d{4})	$1 $2 $3-$4		0		9
R	AS	1	011		1		([267]\d{6})$|1	684$1	0	0	684	0
D	general	1	(?:[58]\d\d|684|900)\d{7}	10	7	
D	fixed	1	684(?:274|6(?:22|33|44|55|77|88|9[19]))\d{4}		7	6846221234
D	mobile	1	684(?:2(?:48|5[2468]|7[246])|7(?:3[13]|70|82))\d{4}		7	6847331234
D	toll	1	8(?:00|33|44|55|66|77|88)[2-9]\d{6}			8002123456
D	premium	1	900[2-9]\d{6}			9002123456
D	shared	0		-1		
D	personal	1	52(?:3(?:[2-46-9][02-9]\d|5(?:[02-46-9]\d|5[0-46-9]))|4(?:[2-478][02-9]\d|5(?:[034]\d|2[024-9]|5[0-46-9])|6(?:0[1-9]|[2-9]\d)|9(?:[05-9]\d|2[0-5]|49)))\d{4}|52[34][2-9]1[02-9]\d{4}|5(?:00|2[125-9]|3[23]|44|66|77|88)[2-9]\d{6}			5002345678
D	voip	0		-1		
D	pager	0		-1		
D	uan	0		-1		
D	voicemail	0		-1		
D	nointl	0		-1		
R	AT	43	00		0		0		0	0		1
D	general	1	1\d{3,12}|2\d{6,12}|43(?:(?:0\d|5[02-9])\d{3,9}|2\d{4,5}|[3467]\d{4}|8\d{4,6}|9\d{4,7})|5\d{4,12}|8\d{7,12}|9\d{8,12}|(?:[367]\d|4[0-24-9])\d{4,11}	4,5,6,7,8,9,10,11,12,13	3	
D	fixed	1	1(?:11\d|[2-9]\d{3,11})|(?:316|463)\d{3,10}|648[34]\d{3,9}|(?:51|66|73)2\d{3,10}|(?:2(?:1[467]|2[13-8]|5[2357]|6[1-46-8]|7[1-8]|8[124-7]|9[1458])|3(?:1[1-578]|3[23568]|4[5-7]|5[1378]|6[1-38]|8[3-68])|4(?:2[1-8]|35|7[1368]|8[2457])|5(?:2[1-8]|3[357]|4[147]|5[12578]|6[37])|6(?:13|2[1-47]|4[135-7]|5[468])|7(?:2[1-8]|35|4[13478]|5[68]|6[16-8]|7[1-6]|9[45]))\d{4,10}		3	1234567890
D	mobile	1	6(?:485|(?:5[0-3579]|6[013-9]|[7-9]\d)\d)\d{3,9}	7,8,9,10,11,12,13		664123456
D	toll	1	800\d{6,10}	9,10,11,12,13		800123456
D	premium	1	(?:8[69][2-68]|9(?:0[01]|3[019]))\d{6,10}	9,10,11,12,13		900123456
D	shared	1	8(?:10|2[018])\d{6,10}|828\d{5}	8,9,10,11,12,13		810123456
D	personal	0		-1		
D	voip	1	5(?:0[1-9]|17|[79]\d)\d{2,10}|7[28]0\d{6,10}	5,6,7,8,9,10,11,12,13		780123456
D	pager	0		-1		
D	uan	0		-1		
D	voicemail	0		-1		
D	nointl	0		-1		
F	(\d{4})	$1		0		14
F	(\d)(\d{3,12})	$1 $2	0$1	0		1(?:11|[2-9])
F	(\d{3})(\d{2})	$1 $2	0$1	0		517
F	(\d{2})(\d{3,5})	$1 $2	0$1	0		5[079]
F	(\d{6})	$1		0		[18]
F	(\d{3})(\d{3,10})	$1 $2	0$1	0		(?:31|4)6|51|6(?:48|5[0-3579]|[6-9])|7(?:20|32|8)|[89]	(?:31|4)6|51|6(?:485|5[0-3579]|[6-9])|7(?:20|32|8)|[89]
F	(\d{4})(\d{3,9})	$1 $2	0$1	0		[2-467]|5[2-6]
F	(\d{2})(\d{3})(\d{3,4})	$1 $2 $3	0$1	0		5
F	(\d{2})(\d{4})(\d{4,7})	$1 $2 $3	0$1	0		5
I	(\d)(\d{3,12})	$1 $2	0$1	0		1(?:11|[2-9])
I	(\d{3})(\d{2})	$1 $2	0$1	0		517
I	(\d{2})(\d{3,5})	$1 $2	0$1	0		5[079]
I	(\d{3})(\d{3,10})	$1 $2	0$1	0		(?:31|4)6|51|6(?:48|5[0-3579]|[6-9])|7(?:20|32|8)|[89]	(?:31|4)6|51|6(?:485|5[0-3579]|[6-9])|7(?:20|32|8)|[89]
I	(\d{4})(\d{3,9})	$1 $2	0$1	0		[2-467]|5[2-6]
I	(\d{2})(\d{3})(\d{3,4})	$1 $2 $3	0$1	0		5
I	(\d{2})(\d{4})(\d{4,7})	$1 $2 $3	0$1	0		5
R	AU	61	001[14-689]|14(?:1[14]|34|4[17]|[56]6|7[47]|88)0011	0011	0		(183[12])|0		0	1		1
D	general	1	1(?:[0-79]\d{7}(?:\d(?:\d{2})?)?|8[0-24-9]\d{7})|[2-478]\d{8}|1\d{4,7}	5,6,7,8,9,10,12		
D	fixed	1	(?:(?:241|349)0\d\d|8(?:51(?:0(?:0[03-9]|[12479]\d|3[2-9]|5[0-8]|6[1-9]|8[0-7])|1(?:[0235689]\d|1[0-69]|4[0-589]|7[0-47-9])|2(?:0[0-79]|[18][13579]|2[14-9]|3[0-46-9]|[4-6]\d|7[89]|9[0-4])|[34]\d\d)|91(?:(?:[0-58]\d|6[0135-9])\d|7(?:0[0-24-9]|[1-9]\d)|9(?:[0-46-9]\d|5[0-79]))))\d{3}|(?:2(?:[0-26-9]\d|3[0-8]|4[02-9]|5[0135-9])|3(?:[0-3589]\d|4[0-578]|6[1-9]|7[0-35-9])|7(?:[013-57-9]\d|2[0-8])|8(?:55|6[0-8]|[78]\d|9[02-9]))\d{6}	9	8	212345678
D	mobile	1	4(?:79[01]|83[0-36-9]|95[0-3])\d{5}|4(?:[0-36]\d|4[047-9]|[58][0-24-9]|7[02-8]|9[0-47-9])\d{6}	9		412345678
D	toll	1	180(?:0\d{3}|2)\d{3}	7,10		1800123456
D	premium	1	190[0-26]\d{6}	10		1900123456
D	shared	1	13(?:00\d{6}(?:\d{2})?|45[0-4]\d{3})|13\d{4}	6,8,10,12		1300123456
D	personal	0		-1		
D	voip	1	14(?:5(?:1[0458]|[23][458])|71\d)\d{4}	9		147101234
D	pager	1	163\d{2,6}	5,6,7,8,9		1631234
D	uan	0		-1		
D	voicemail	0		-1		
D	nointl	1	1(?:3(?:00\d{5}|45[0-4])|802)\d{3}|1[38]00\d{6}|13\d{4}	6,7,8,10,12		
F	(\d{2})(\d{3,4})	$1 $2	0$1	0		16
F	(\d{2})(\d{2})(\d{2})	$1 $2 $3		0		13
F	(\d{3})(\d{3})	$1 $2		0		19
F	(\d{3})(\d{4})	$1 $2		0		180	1802
F	(\d{4})(\d{3,4})	$1 $2		0		19
F	(\d{2})(\d{3})(\d{2,4})	$1 $2 $3	0$1	0		16
F	(\d{3})(\d{3})(\d{3})	$1 $2 $3	0$1	0		14|4
F	(\d)(\d{4})(\d{4})	$1 $2 $3	(0$1)	0	$CC ($1)	[2378]
F	(\d{4})(\d{3})(\d{3})	$1 $2 $3		0		1(?:30|[89])
F	(\d{4})(\d{4})(\d{4})	$1 $2 $3		0		130
I	(\d{2})(\d{3,4})	$1 $2	0$1	0		16
I	(\d{2})(\d{3})(\d{2,4})	$1 $2 $3	0$1	0		16
I	(\d{3})(\d{3})(\d{3})	$1 $2 $3	0$1	0		14|4
I	(\d)(\d{4})(\d{4})	$1 $2 $3	(0$1)	0	$CC ($1)	[2378]
I	(\d{4})(\d{3})(\d{3})	$1 $2 $3		0		1(?:30|[89])
R	AW	297	00						0	0		0
D	general	1	(?:[25-79]\d\d|800)\d{4}	7		
D	fixed	1	5(?:2\d|8[1-9])\d{4}			5212345
D	mobile	1	(?:290|5[69]\d|6(?:[03]0|22|4[0-2]|[69]\d)|7(?:[34]\d|7[07])|9(?:6[45]|9[4-8]))\d{4}			5601234
D	toll	1	800\d{4}			8001234
D	premium	1	900\d{4}			9001234
D	shared	0		-1		
D	personal	0		-1		
D	voip	1	(?:28\d|501)\d{4}			5011234
D	pager	0		-1		
D	uan	0		-1		
D	voicemail	0		-1		
D	nointl	0		-1		
F	(\d{3})(\d{4})	$1 $2		0		[25-9]
R	AX	358	00|99(?:[01469]|5(?:[14]1|3[23]|5[59]|77|88|9[09]))	00	0		0		0	0	18	0
D	general	1	2\d{4,9}|35\d{4,5}|(?:60\d\d|800)\d{4,6}|7\d{5,11}|(?:[14]\d|3[0-46-9]|50)\d{4,8}	5,6,7,8,9,10,11,12		
D	fixed	1	18[1-8]\d{3,6}	6,7,8,9		181234567
D	mobile	1	4946\d{2,6}|(?:4[0-8]|50)\d{4,8}	6,7,8,9,10		412345678
D	toll	1	800\d{4,6}	7,8,9		800123456
D	premium	1	[67]00\d{5,6}	8,9		600123456
D	shared	0		-1		
D	personal	0		-1		
D	voip	0		-1		
D	pager	0		-1		
D	uan	1	20\d{4,8}|60[12]\d{5,6}|7(?:099\d{4,5}|5[03-9]\d{3,7})|20[2-59]\d\d|(?:606|7(?:0[78]|1|3\d))\d{7}|(?:10|29|3[09]|70[1-5]\d)\d{4,8}			10112345
D	voicemail	0		-1		
D	nointl	0		-1		
R	AZ	994	00		0		0		0	0		1
D	general	1	365\d{6}|(?:[124579]\d|60|88)\d{7}	9	7	
D	fixed	1	(?:2[12]428|3655[02])\d{4}|(?:2(?:22[0-79]|63[0-28])|3654)\d{5}|(?:(?:1[28]|46)\d|2(?:[014-6]2|[23]3))\d{6}		7	123123456
D	mobile	1	36554\d{4}|(?:[16]0|4[04]|5[015]|7[07]|99)\d{7}			401234567
D	toll	1	88\d{7}			881234567
D	premium	1	900200\d{3}			900200123
D	shared	0		-1		
D	personal	0		-1		
D	voip	0		-1		
D	pager	0		-1		
D	uan	0		-1		
D	voicemail	0		-1		
D	nointl	0		-1		
F	(\d{3})(\d{2})(\d{2})	$1 $2 $3		0		[1-9]
F	(\d{3})(\d{2})(\d{2})(\d{2})	$1 $2 $3 $4	0$1	0		90
F	(\d{2})(\d{3})(\d{2})(\d{2})	$1 $2 $3 $4	(0$1)	0		1[28]|2|365|46	1[28]|2|365[45]|46	1[28]|2|365(?:4|5[02])|46
F	(\d{2})(\d{3})(\d{2})(\d{2})	$1 $2 $3 $4	0$1	0		[13-9]
I	(\d{3})(\d{2})(\d{2})(\d{2})	$1 $2 $3 $4	0$1	0		90
I	(\d{2})(\d{3})(\d{2})(\d{2})	$1 $2 $3 $4	(0$1)	0		1[28]|2|365|46	1[28]|2|365[45]|46	1[28]|2|365(?:4|5[02])|46
I	(\d{2})(\d{3})(\d{2})(\d{2})	$1 $2 $3 $4	0$1	0		[13-9]
R	BA	387	00		0		0		0	0		1
D	general	1	6\d{8}|(?:[35689]\d|49|70)\d{6}	8,9	6	
D	fixed	1	(?:3(?:[05-79][2-9]|1[4579]|[23][24-9]|4[2-4689]|8[2457-9])|49[2-579]|5(?:0[2-49]|[13][2-9]|[268][2-4679]|4[4689]|5[2-79]|7[2-69]|9[2-4689]))\d{5}	8	6	30212345
D	mobile	1	6040\d{5}|6(?:03|[1-356]|44|7\d)\d{6}			61123456
D	toll	1	8[08]\d{6}	8		80123456
D	premium	1	9[0246]\d{6}	8		90123456
D	shared	1	8[12]\d{6}	8		82123456
D	personal	0		-1		
D	voip	0		-1		
D	pager	0		-1		
D	uan	1	703[235]0\d{3}|70(?:2[0-5]|3[0146]|[56]0)\d{4}	8		70341234
D	voicemail	0		-1		
D	nointl	0		-1		
F	(\d{3})(\d{3})	$1-$2		0		[2-9]
F	(\d{2})(\d{3})(\d{3})	$1 $2 $3	0$1	0		6[1-3]|[7-9]
F	(\d{2})(\d{3})(\d{3})	$1 $2-$3	0$1	0		[3-5]|6[56]
F	(\d{2})(\d{2})(\d{2})(\d{3})	$1 $2 $3 $4	0$1	0		6
I	(\d{2})(\d{3})(\d{3})	$1 $2 $3	0$1	0		6[1-3]|[7-9]
I	(\d{2})(\d{3})(\d{3})	$1 $2-$3	0$1	0		[3-5]|6[56]
I	(\d{2})(\d{2})(\d{2})(\d{3})	$1 $2 $3 $4	0$1	0		6
R	BB	1	011		1		([2-9]\d{6})$|1	246$1	0	0	246	1
D	general	1	(?:246|[58]\d\d|900)\d{7}	10	7	
D	fixed	1	246521[0369]\d{3}|246(?:2(?:2[78]|7[0-4])|4(?:1[024-6]|2\d|3[2-9])|5(?:20|[34]\d|54|7[1-3])|6(?:2\d|38)|7[35]7|9(?:1[89]|63))\d{4}		7	2464123456
D	mobile	1	246(?:(?:2(?:[3568]\d|4[0-57-9])|3(?:5[2-9]|6[0-6])|4(?:46|5\d)|69[5-7]|8(?:[2-5]\d|83))\d|52(?:1[147]|20))\d{3}		7	2462501234
D	toll	1	8(?:00|33|44|55|66|77|88)[2-9]\d{6}			8002123456
D	premium	1	(?:246976|900[2-9]\d\d)\d{4}		7	9002123456
D	shared	0		-1		
D	personal	1	52(?:3(?:[2-46-9][02-9]\d|5(?:[02-46-9]\d|5[0-46-9]))|4(?:[2-478][02-9]\d|5(?:[034]\d|2[024-9]|5[0-46-9])|6(?:0[1-9]|[2-9]\d)|9(?:[05-9]\d|2[0-5]|49)))\d{4}|52[34][2-9]1[02-9]\d{4}|5(?:00|2[125-9]|3[23]|44|66|77|88)[2-9]\d{6}			5002345678
D	voip	1	24631\d{5}		7	2463101234
D	pager	0		-1		
D	uan	1	246(?:292|367|4(?:1[7-9]|3[01]|4[47-9]|67)|7(?:1[2-9]|2\d|3[016]|53))\d{4}		7	2464301234
D	voicemail	0		-1		
D	nointl	0		-1		
R	BD	880	00		0		0		0	0		0
D	general	1	[1-469]\d{9}|8[0-79]\d{7,8}|[2-79]\d{8}|[2-9]\d{7}|[3-9]\d{6}|[57-9]\d{5}	6,7,8,9,10		
D	fixed	1	(?:4(?:31\d\d|423)|5222)\d{3}(?:\d{2})?|8332[6-9]\d\d|(?:3(?:03[56]|224)|4(?:22[25]|653))\d{3,4}|(?:3(?:42[47]|529|823)|4(?:027|525|65(?:28|8))|562|6257|7(?:1(?:5[3-5]|6[12]|7[156]|89)|22[589]56|32|42675|52(?:[25689](?:56|8)|[347]8)|71(?:6[1267]|75|89)|92374)|82(?:2[59]|32)56|9(?:03[23]56|23(?:256|373)|31|5(?:1|2[4589]56)))\d{3}|(?:3(?:02[348]|22[35]|324|422)|4(?:22[67]|32[236-9]|6(?:2[46]|5[57])|953)|5526|6(?:024|6655)|81)\d{4,5}|(?:2(?:7(?:1[0-267]|2[0-289]|3[0-29]|4[01]|5[1-3]|6[013]|7[0178]|91)|8(?:0[125]|1[1-6]|2[0157-9]|3[1-69]|41|6[1-35]|7[1-5]|8[1-8]|9[0-6])|9(?:0[0-2]|1[0-4]|2[568]|3[3-6]|5[5-7]|6[0136-9]|7[0-7]|8[014-9]))|3(?:0(?:2[025-79]|3[2-4])|181|22[12]|32[2356]|824)|4(?:02[09]|22[348]|32[045]|523|6(?:27|54))|666(?:22|53)|7(?:22[57-9]|42[56]|82[35])8|8(?:0[124-9]|2(?:181|2[02-4679]8)|4[12]|[5-7]2)|9(?:[04]2|2(?:2|328)|81))\d{4}|(?:2(?:[23]\d|[45])\d\d|3(?:1(?:2[5-7]|[5-7])|425|822)|4(?:033|1\d|[257]1|332|4(?:2[246]|5[25])|6(?:2[35]|56|62)|8(?:23|54)|92[2-5])|5(?:02[03489]|22[457]|32[35-79]|42[46]|6(?:[18]|53)|724|826)|6(?:023|2(?:2[2-5]|5[3-5]|8)|32[3478]|42[34]|52[47]|6(?:[18]|6(?:2[34]|5[24]))|[78]2[2-5]|92[2-6])|7(?:02|21\d|[3-589]1|6[12]|72[24])|8(?:217|3[12]|[5-7]1)|9[24]1)\d{5}|(?:(?:3[2-8]|5[2-57-9]|6[03-589])1|4[4689][18])\d{5}|[59]1\d{5}			27111234
D	mobile	1	(?:1[13-9]\d|644)\d{7}|(?:3[78]|44|66)[02-9]\d{7}	10		1812345678
D	toll	1	80[03]\d{7}	10		8001234567
D	premium	0		-1		
D	shared	0		-1		
D	personal	0		-1		
D	voip	1	96(?:0[1-69]|1[0-479]|2[278]|3[13-9]|4[0134]|54|6[69]|7[78]|88)\d{6}	10		9604123456
D	pager	0		-1		
D	uan	0		-1		
D	voicemail	0		-1		
D	nointl	0		-1		
F	(\d{2})(\d{4,6})	$1-$2	0$1	0		31[5-8]|[459]1
F	(\d{3})(\d{3,7})	$1-$2	0$1	0		3(?:[67]|8[013-9])|4(?:6[168]|7|[89][18])|5(?:6[128]|9)|6(?:[15]|28|4[14])|7[2-589]|8(?:0[014-9]|[12])|9[358]|(?:3[2-5]|4[235]|5[2-578]|6[0389]|76|8[3-7]|9[24])1|(?:44|66)[01346-9]
F	(\d{4})(\d{3,6})	$1-$2	0$1	0		[13-9]|2[23]
F	(\d)(\d{7,8})	$1-$2	0$1	0		2
R	BE	32	00		0		0		0	0		1
D	general	1	4\d{8}|[1-9]\d{7}	8,9		
D	fixed	1	80[2-8]\d{5}|(?:1[0-69]|[23][2-8]|4[23]|5\d|6[013-57-9]|71|8[1-79]|9[2-4])\d{6}	8		12345678
D	mobile	1	4[5-9]\d{7}	9		450001234
D	toll	1	800[1-9]\d{4}	8		80012345
D	premium	1	(?:70(?:2[0-57]|3[04-7]|44|6[04-69]|7[0579])|90\d\d)\d{4}	8		90012345
D	shared	1	7879\d{4}	8		78791234
D	personal	0		-1		
D	voip	0		-1		
D	pager	0		-1		
D	uan	1	78(?:0[578]|1[014-8]|2[25]|3[15-8]|48|5[05]|60|7[06-8]|9\d)\d{4}	8		78102345
D	voicemail	0		-1		
D	nointl	0		-1		
F	(\d{3})(\d{2})(\d{3})	$1 $2 $3	0$1	0		(?:80|9)0
F	(\d)(\d{3})(\d{2})(\d{2})	$1 $2 $3 $4	0$1	0		[239]|4[23]
F	(\d{2})(\d{2})(\d{2})(\d{2})	$1 $2 $3 $4	0$1	0		[15-8]
F	(\d{3})(\d{2})(\d{2})(\d{2})	$1 $2 $3 $4	0$1	0		4
R	BF	226	00						0	0		0
D	general	1	[024-7]\d{7}	8		
D	fixed	1	2(?:0(?:49|5[23]|6[5-7]|9[016-9])|4(?:4[569]|5[4-6]|6[5-7]|7[0179])|5(?:[34]\d|50|6[5-8]))\d{4}			20491234
D	mobile	1	(?:0[1-7]|4[4-6]|5[0-8]|[67]\d)\d{6}			70123456
D	toll	0		-1		
D	premium	0		-1		
D	shared	0		-1		
D	personal	0		-1		
D	voip	0		-1		
D	pager	0		-1		
D	uan	0		-1		
D	voicemail	0		-1		
D	nointl	0		-1		
F	(\d{2})(\d{2})(\d{2})(\d{2})	$1 $2 $3 $4		0		[024-7]
R	BG	359	00		0		0		0	0		1
D	general	1	00800\d{7}|[2-7]\d{6,7}|[89]\d{6,8}|2\d{5}	6,7,8,9,12	4,5	
D	fixed	1	2\d{5,7}|(?:43[1-6]|70[1-9])\d{4,5}|(?:[36]\d|4[124-7]|[57][1-9]|8[1-6]|9[1-7])\d{5,6}	6,7,8	4,5	2123456
D	mobile	1	(?:43[07-9]|99[69]\d)\d{5}|(?:8[7-9]|98)\d{7}	8,9		43012345
D	toll	1	(?:00800\d\d|800)\d{5}	8,12		80012345
D	premium	1	90\d{6}	8		90123456
D	shared	1	700\d{5}	8		70012345
D	personal	0		-1		
D	voip	0		-1		
D	pager	0		-1		
D	uan	0		-1		
D	voicemail	0		-1		
D	nointl	0		-1		
F	(\d{6})	$1		0		1
F	(\d)(\d)(\d{2})(\d{2})	$1 $2 $3 $4	0$1	0		2
F	(\d{3})(\d{4})	$1 $2	0$1	0		43[1-6]|70[1-9]
F	(\d)(\d{3})(\d{3,4})	$1 $2 $3	0$1	0		2
F	(\d{2})(\d{3})(\d{2,3})	$1 $2 $3	0$1	0		[356]|4[124-7]|7[1-9]|8[1-6]|9[1-7]
F	(\d{3})(\d{2})(\d{3})	$1 $2 $3	0$1	0		(?:70|8)0
F	(\d{3})(\d{3})(\d{2})	$1 $2 $3	0$1	0		43[1-7]|7
F	(\d{2})(\d{3})(\d{3,4})	$1 $2 $3	0$1	0		[48]|9[08]
F	(\d{3})(\d{3})(\d{3})	$1 $2 $3	0$1	0		9
I	(\d)(\d)(\d{2})(\d{2})	$1 $2 $3 $4	0$1	0		2
I	(\d{3})(\d{4})	$1 $2	0$1	0		43[1-6]|70[1-9]
I	(\d)(\d{3})(\d{3,4})	$1 $2 $3	0$1	0		2
I	(\d{2})(\d{3})(\d{2,3})	$1 $2 $3	0$1	0		[356]|4[124-7]|7[1-9]|8[1-6]|9[1-7]
I	(\d{3})(\d{2})(\d{3})	$1 $2 $3	0$1	0		(?:70|8)0
I	(\d{3})(\d{3})(\d{2})	$1 $2 $3	0$1	0		43[1-7]|7
I	(\d{2})(\d{3})(\d{3,4})	$1 $2 $3	0$1	0		[48]|9[08]
I	(\d{3})(\d{3})(\d{3})	$1 $2 $3	0$1	0		9
R	BH	973	00						0	0		1
D	general	1	[136-9]\d{7}	8		
D	fixed	1	(?:1(?:3[1356]|6[0156]|7\d)\d|6(?:1[16]\d|500|6(?:0\d|3[12]|44|55|7[7-9]|88)|9[69][69])|7(?:[07]\d\d|1(?:11|78)))\d{4}			17001234
D	mobile	1	(?:3(?:[0-79]\d|8[0-57-9])\d|6(?:3(?:00|33|6[16])|441|6(?:3[03-9]|[69]\d|7[0-689])))\d{4}			36001234
D	toll	1	8[02369]\d{6}			80123456
D	premium	1	(?:87|9[0-8])\d{6}			90123456
D	shared	1	84\d{6}			84123456
D	personal	0		-1		
D	voip	0		-1		
D	pager	0		-1		
D	uan	0		-1		
D	voicemail	0		-1		
D	nointl	0		-1		
F	(\d{4})(\d{4})	$1 $2		0		[13679]|8[02-4679]
R	BI	257	00						0	0		0
D	general	1	(?:[267]\d|31)\d{6}	8		
D	fixed	1	(?:22|31)\d{6}			22201234
D	mobile	1	(?:29|6[1-9]|7[125-9])\d{6}			79561234
D	toll	0		-1		
D	premium	0		-1		
D	shared	0		-1		
D	personal	0		-1		
D	voip	0		-1		
D	pager	0		-1		
D	uan	0		-1		
D	voicemail	0		-1		
D	nointl	0		-1		
F	(\d{2})(\d{2})(\d{2})(\d{2})	$1 $2 $3 $4		0		[2367]
R	BJ	229	00						0	0		1
D	general	1	(?:01\d|8)\d{7}	8,10		
D	fixed	1	012\d{7}	10		0120211234
D	mobile	1	01(?:2[5-9]|[4-69]\d)\d{6}	10		0195123456
D	toll	0		-1		
D	premium	0		-1		
D	shared	0		-1		
D	personal	0		-1		
D	voip	1	857[58]\d{4}	8		85751234
D	pager	0		-1		
D	uan	1	81\d{6}	8		81123456
D	voicemail	0		-1		
D	nointl	0		-1		
F	(\d{2})(\d{2})(\d{2})(\d{2})	$1 $2 $3 $4		0		8
F	(\d{2})(\d{2})(\d{2})(\d{2})(\d{2})	$1 $2 $3 $4 $5		0		0
R	BL	590	00		0		0		0	0		1
D	general	1	7090\d{5}|(?:[56]9|[89]\d)\d{7}	9		
D	fixed	1	(?:59(?:0(?:2[7-9]|3[3-7]|5[12]|87)|87\d)|80[6-9]\d\d)\d{4}			590271234
D	mobile	1	(?:69(?:0\d\d|1(?:2[2-9]|3[0-5]))|7090[0-4])\d{4}			690001234
D	toll	1	80[0-5]\d{6}			800012345
D	premium	1	8[129]\d{7}			810123456
D	shared	0		-1		
D	personal	0		-1		
D	voip	1	9(?:(?:39[5-7]|76[018])\d|475[0-6])\d{4}			976012345
D	pager	0		-1		
D	uan	0		-1		
D	voicemail	0		-1		
D	nointl	0		-1		
R	BM	1	011		1		([2-9]\d{6})$|1	441$1	0	0	441	1
D	general	1	(?:441|[58]\d\d|900)\d{7}	10	7	
D	fixed	1	441(?:[46]\d\d|5(?:4\d|60|89))\d{4}		7	4414123456
D	mobile	1	441(?:[2378]\d|5[0-39]|9[02])\d{5}		7	4413701234
D	toll	1	8(?:00|33|44|55|66|77|88)[2-9]\d{6}			8002123456
D	premium	1	900[2-9]\d{6}			9002123456
D	shared	0		-1		
D	personal	1	52(?:3(?:[2-46-9][02-9]\d|5(?:[02-46-9]\d|5[0-46-9]))|4(?:[2-478][02-9]\d|5(?:[034]\d|2[024-9]|5[0-46-9])|6(?:0[1-9]|[2-9]\d)|9(?:[05-9]\d|2[0-5]|49)))\d{4}|52[34][2-9]1[02-9]\d{4}|5(?:00|2[125-9]|3[23]|44|66|77|88)[2-9]\d{6}			5002345678
D	voip	0		-1		
D	pager	0		-1		
D	uan	0		-1		
D	voicemail	0		-1		
D	nointl	0		-1		
R	BN	673	00						0	0		0
D	general	1	[2-578]\d{6}	7		
D	fixed	1	22[0-7]\d{4}|(?:2[013-9]|[34]\d|5[0-25-9])\d{5}			2345678
D	mobile	1	(?:22[89]|[78]\d\d)\d{4}			7123456
D	toll	0		-1		
D	premium	0		-1		
D	shared	0		-1		
D	personal	0		-1		
D	voip	1	5[34]\d{5}			5345678
D	pager	0		-1		
D	uan	0		-1		
D	voicemail	0		-1		
D	nointl	0		-1		
F	(\d{3})(\d{4})	$1 $2		0		[2-578]
R	BO	591	00(?:1\d)?		0		0(1\d)?		0	0		0
D	general	1	(?:[2-7]\d\d|8001)\d{5}	8,9	7	
D	fixed	1	(?:2(?:2\d\d|5(?:11|[258]\d|9[67])|6(?:12|2\d|9[34])|8(?:2[34]|39|62))|3(?:3\d\d|4(?:6\d|8[24])|8(?:25|42|5[257]|86|9[25])|9(?:[27]\d|3[2-4]|4[248]|5[24]|6[2-6]))|4(?:4\d\d|6(?:11|[24689]\d|72)))\d{4}	8	7	22123456
D	mobile	1	(?:57|[67]\d)\d{6}	8		71234567
D	toll	1	8001[07]\d{4}	9		800171234
D	premium	0		-1		
D	shared	0		-1		
D	personal	0		-1		
D	voip	1	50\d{6}	8	7	50123456
D	pager	0		-1		
D	uan	0		-1		
D	voicemail	0		-1		
D	nointl	1	8001[07]\d{4}	9		
F	(\d)(\d{7})	$1 $2		0	0$CC $1	[23]|4[46]|50
F	(\d{8})	$1		0	0$CC $1	[5-7]
F	(\d{3})(\d{2})(\d{4})	$1 $2 $3		0	0$CC $1	8
R	BQ	599	00						0	0	[347]	0
D	general	1	(?:[34]1|7\d)\d{5}	7		
D	fixed	1	(?:318[023]|41(?:6[023]|70)|7(?:1[578]|2[05]|50)\d)\d{3}			7151234
D	mobile	1	(?:31(?:8[14-8]|9[14578])|416[14-9]|7(?:0[01]|7[07]|8\d|9[056])\d)\d{3}			3181234
D	toll	0		-1		
D	premium	0		-1		
D	shared	0		-1		
D	personal	0		-1		
D	voip	0		-1		
D	pager	0		-1		
D	uan	0		-1		
D	voicemail	0		-1		
D	nointl	0		-1		
R	BR	55	00(?:1[245]|2[1-35]|31|4[13]|[56]5|99)		0		(?:0|90)(?:(1[245]|2[1-35]|31|4[13]|[56]5|99)(\d{10,11}))?	$2	0	0		1
D	general	1	[1-467]\d{9,10}|55[0-46-9]\d{8}|[34]\d{7}|55\d{7,8}|(?:5[0-46-9]|[89]\d)\d{7,9}	8,9,10,11		
D	fixed	1	(?:[14689][1-9]|2[12478]|3[1-578]|5[13-5]|7[13-579])[2-5]\d{7}	10	8	1123456789
D	mobile	1	(?:[14689][1-9]|2[12478]|3[1-578]|5[13-5]|7[13-579])(?:7|9\d)\d{7}	10,11	8,9	11961234567
D	toll	1	800\d{6,7}	9,10		800123456
D	premium	1	[59]00\d{6,7}	9,10		500123456
D	shared	1	(?:30[03]\d{3}|4(?:0(?:0\d|20)|370|864))\d{4}|300\d{5}	8,10		40041234
D	personal	0		-1		
D	voip	0		-1		
D	pager	0		-1		
D	uan	0		-1		
D	voicemail	0		-1		
D	nointl	1	(?:30[03]\d{3}|4(?:0(?:0\d|20)|864))\d{4}|800\d{6,7}|300\d{5}	8,9,10		
F	(\d{3,6})	$1		0		1(?:1[25-8]|2[357-9]|3[02-68]|4[12568]|5|6[0-8]|8[015]|9[0-47-9])|321|610
F	(\d{4})(\d{4})	$1-$2		0		300|4(?:0[02]|37|86)	300|4(?:0(?:0|20)|370|864)
F	(\d{4})(\d{4})	$1-$2		0		[2-57]	[2357]|4(?:[0-24-9]|3(?:[0-689]|7[1-9]))
F	(\d{3})(\d{2,3})(\d{4})	$1 $2 $3	0$1	0		(?:[358]|90)0
F	(\d{5})(\d{4})	$1-$2		0		9
F	(\d{2})(\d{4})(\d{4})	$1 $2-$3	($1)	0	0 $CC ($1)	(?:[14689][1-9]|2[12478]|3[1-578]|5[13-5]|7[13-579])[2-57]
F	(\d{2})(\d{5})(\d{4})	$1 $2-$3	($1)	0	0 $CC ($1)	[16][1-9]|[2-57-9]
I	(\d{4})(\d{4})	$1-$2		0		300|4(?:0[02]|37|86)	300|4(?:0(?:0|20)|370|864)
I	(\d{3})(\d{2,3})(\d{4})	$1 $2 $3	0$1	0		(?:[358]|90)0
I	(\d{2})(\d{4})(\d{4})	$1 $2-$3	($1)	0	0 $CC ($1)	(?:[14689][1-9]|2[12478]|3[1-578]|5[13-5]|7[13-579])[2-57]
I	(\d{2})(\d{5})(\d{4})	$1 $2-$3	($1)	0	0 $CC ($1)	[16][1-9]|[2-57-9]
R	BS	1	011		1		([3-8]\d{6})$|1	242$1	0	0	242	1
D	general	1	(?:242|[58]\d\d|900)\d{7}	10	7	
D	fixed	1	242(?:3(?:02|[236][1-9]|4[0-24-9]|5[0-68]|7[347]|8[0-4]|9[2-467])|461|502|6(?:0[1-5]|12|2[013]|[45]0|7[67]|8[78]|9[89])|7(?:02|88))\d{4}		7	2423456789
D	mobile	1	242(?:3(?:5[79]|7[56]|95)|4(?:[23][1-9]|4[1-35-9]|5[1-8]|6[2-8]|7\d|81)|5(?:2[45]|3[35]|44|5[1-46-9]|65|77)|6[34]6|7(?:27|38)|8(?:0[1-9]|1[02-9]|2\d|3[0-4]|[89]9))\d{4}		7	2423591234
D	toll	1	242300\d{4}|8(?:00|33|44|55|66|77|88)[2-9]\d{6}		7	8002123456
D	premium	1	900[2-9]\d{6}			9002123456
D	shared	0		-1		
D	personal	1	52(?:3(?:[2-46-9][02-9]\d|5(?:[02-46-9]\d|5[0-46-9]))|4(?:[2-478][02-9]\d|5(?:[034]\d|2[024-9]|5[0-46-9])|6(?:0[1-9]|[2-9]\d)|9(?:[05-9]\d|2[0-5]|49)))\d{4}|52[34][2-9]1[02-9]\d{4}|5(?:00|2[125-9]|3[23]|44|66|77|88)[2-9]\d{6}			5002345678
D	voip	0		-1		
D	pager	0		-1		
D	uan	1	242225\d{4}			2422250123
D	voicemail	0		-1		
D	nointl	0		-1		
R	BT	975	00						0	0		0
D	general	1	[178]\d{7}|[2-8]\d{6}	7,8	6	
D	fixed	1	(?:2[3-6]|[34][5-7]|5[236]|6[2-46]|7[246]|8[2-4])\d{5}	7	6	2345678
D	mobile	1	(?:1[67]|[78]7)\d{6}	8		17123456
D	toll	0		-1		
D	premium	0		-1		
D	shared	0		-1		
D	personal	0		-1		
D	voip	0		-1		
D	pager	0		-1		
D	uan	0		-1		
D	voicemail	0		-1		
D	nointl	0		-1		
F	(\d{3})(\d{3})	$1 $2		0		[2-7]
F	(\d)(\d{3})(\d{3})	$1 $2 $3		0		[2-6]|7[246]|8[2-4]
F	(\d{2})(\d{2})(\d{2})(\d{2})	$1 $2 $3 $4		0		1[67]|[78]
I	(\d)(\d{3})(\d{3})	$1 $2 $3		0		[2-6]|7[246]|8[2-4]
I	(\d{2})(\d{2})(\d{2})(\d{2})	$1 $2 $3 $4		0		1[67]|[78]
R	BW	267	00						0	0		0
D	general	1	(?:0800|(?:[37]|800)\d)\d{6}|(?:[2-6]\d|90)\d{5}	7,8,10		
D	fixed	1	(?:2(?:4[0-48]|6[0-24]|9[0578])|3(?:1[0-35-9]|55|[69]\d|7[013]|81)|4(?:6[03]|7[1267]|9[0-5])|5(?:3[03489]|4[0489]|7[1-47]|88|9[0-49])|6(?:2[1-35]|5[149]|8[013467]))\d{4}	7		2401234
D	mobile	1	(?:321|7(?:[1-8]\d|9[03]))\d{5}	8		71123456
D	toll	1	(?:0800|800\d)\d{6}	10		0800012345
D	premium	1	90\d{5}	7		9012345
D	shared	0		-1		
D	personal	0		-1		
D	voip	1	79(?:1(?:[0-2]\d|3[0-8])|2[0-7]\d)\d{3}	8		79101234
D	pager	0		-1		
D	uan	0		-1		
D	voicemail	0		-1		
D	nointl	0		-1		
F	(\d{2})(\d{5})	$1 $2		0		90
F	(\d{3})(\d{4})	$1 $2		0		[24-6]|3[15-9]
F	(\d{2})(\d{3})(\d{3})	$1 $2 $3		0		[37]
F	(\d{4})(\d{3})(\d{3})	$1 $2 $3		0		0
F	(\d{3})(\d{4})(\d{3})	$1 $2 $3		0		8
R	BY	375	810	8~10	8		0|80?		0	0		1
D	general	1	(?:[12]\d|33|44|902)\d{7}|8(?:0[0-79]\d{5,7}|[1-7]\d{9})|8(?:1[0-489]|[5-79]\d)\d{7}|8[1-79]\d{6,7}|8[0-79]\d{5}|8\d{5}	6,7,8,9,10,11	5	
D	fixed	1	(?:1(?:5(?:1[1-5]|[24]\d|6[2-4]|9[1-7])|6(?:[235]\d|4[1-7])|7\d\d)|2(?:1(?:[246]\d|3[0-35-9]|5[1-9])|2(?:[235]\d|4[0-8])|3(?:[26]\d|3[02-79]|4[024-7]|5[03-7])))\d{5}	9	5,6,7	152450911
D	mobile	1	(?:2(?:5[5-79]|9[1-9])|(?:33|44)\d)\d{6}	9		294911911
D	toll	1	800\d{3,7}|8(?:0[13]|20\d)\d{7}			8011234567
D	premium	1	(?:810|902)\d{7}	10		9021234567
D	shared	0		-1		
D	personal	0		-1		
D	voip	1	249\d{6}	9		249123456
D	pager	0		-1		
D	uan	0		-1		
D	voicemail	0		-1		
D	nointl	1	800\d{3,7}|(?:8(?:0[13]|10|20\d)|902)\d{7}			
F	(\d{3})(\d{3})	$1 $2	8 $1	0		800
F	(\d{3})(\d{2})(\d{2,4})	$1 $2 $3	8 $1	0		800
F	(\d{4})(\d{2})(\d{3})	$1 $2-$3	8 0$1	0		1(?:5[169]|6[3-5]|7[179])|2(?:1[35]|2[34]|3[3-5])	1(?:5[169]|6(?:3[1-3]|4|5[125])|7(?:1[3-9]|7[0-24-6]|9[2-7]))|2(?:1[35]|2[34]|3[3-5])
F	(\d{3})(\d{2})(\d{2})(\d{2})	$1 $2-$3-$4	8 0$1	0		1(?:[56]|7[467])|2[1-3]
F	(\d{2})(\d{3})(\d{2})(\d{2})	$1 $2-$3-$4	8 0$1	0		[1-4]
F	(\d{3})(\d{3,4})(\d{4})	$1 $2 $3	8 $1	0		[89]
R	BZ	501	00						0	0		0
D	general	1	(?:0800\d|[2-8])\d{6}	7,11		
D	fixed	1	(?:2(?:[02]\d|36|[68]0)|[3-58](?:[02]\d|[68]0)|7(?:[02]\d|32|[68]0))\d{4}	7		2221234
D	mobile	1	6[0-35-7]\d{5}	7		6221234
D	toll	1	0800\d{7}	11		08001234123
D	premium	0		-1		
D	shared	0		-1		
D	personal	0		-1		
D	voip	0		-1		
D	pager	0		-1		
D	uan	0		-1		
D	voicemail	0		-1		
D	nointl	0		-1		
F	(\d{3})(\d{4})	$1-$2		0		[2-8]
F	(\d)(\d{3})(\d{4})(\d{3})	$1-$2-$3-$4		0		0
R	CA	1	011		1		1		1	0		1
D	general	1	[2-9]\d{9}|3\d{6}	7,10		
D	fixed	1	(?:2(?:04|[23]6|[48]9|5[07]|63)|3(?:06|43|54|6[578]|82)|4(?:03|1[68]|[26]8|3[178]|50|74)|5(?:06|1[49]|48|79|8[147])|6(?:04|[18]3|39|47|72)|7(?:0[59]|42|53|78|8[02])|8(?:[06]7|19|25|7[39])|9(?:0[25]|42))[2-9]\d{6}	10	7	5062345678
D	mobile	1	(?:2(?:04|[23]6|[48]9|5[07]|63)|3(?:06|43|54|6[578]|82)|4(?:03|1[68]|[26]8|3[178]|50|74)|5(?:06|1[49]|48|79|8[147])|6(?:04|[18]3|39|47|72)|7(?:0[59]|42|53|78|8[02])|8(?:[06]7|19|25|7[39])|9(?:0[25]|42))[2-9]\d{6}	10	7	5062345678
D	toll	1	8(?:00|33|44|55|66|77|88)[2-9]\d{6}	10		8002123456
D	premium	1	900[2-9]\d{6}	10		9002123456
D	shared	0		-1		
D	personal	1	52(?:3(?:[2-46-9][02-9]\d|5(?:[02-46-9]\d|5[0-46-9]))|4(?:[2-478][02-9]\d|5(?:[034]\d|2[024-9]|5[0-46-9])|6(?:0[1-9]|[2-9]\d)|9(?:[05-9]\d|2[0-5]|49)))\d{4}|52[34][2-9]1[02-9]\d{4}|(?:5(?:2[125-9]|3[23]|44|66|77|88)|6(?:22|33))[2-9]\d{6}	10		5219023456
D	voip	1	600[2-9]\d{6}	10		6002012345
D	pager	0		-1		
D	uan	1	310\d{4}	7		3101234
D	voicemail	0		-1		
D	nointl	0		-1		
R	CC	61	001[14-689]|14(?:1[14]|34|4[17]|[56]6|7[47]|88)0011	0011	0		([59]\d{7})$|0	8$1	0	0		0
D	general	1	1(?:[0-79]\d{8}(?:\d{2})?|8[0-24-9]\d{7})|[148]\d{8}|1\d{5,7}	6,7,8,9,10,12		
D	fixed	1	8(?:51(?:0(?:02|31|60|89)|1(?:18|76)|223)|91(?:0(?:1[0-2]|29)|1(?:[28]2|50|79)|2(?:10|64)|3(?:[06]8|22)|4[29]8|62\d|70[23]|959))\d{3}	9	8	891621234
D	mobile	1	4(?:79[01]|83[0-36-9]|95[0-3])\d{5}|4(?:[0-36]\d|4[047-9]|[58][0-24-9]|7[02-8]|9[0-47-9])\d{6}	9		412345678
D	toll	1	180(?:0\d{3}|2)\d{3}	7,10		1800123456
D	premium	1	190[0-26]\d{6}	10		1900123456
D	shared	1	13(?:00\d{6}(?:\d{2})?|45[0-4]\d{3})|13\d{4}	6,8,10,12		1300123456
D	personal	0		-1		
D	voip	1	14(?:5(?:1[0458]|[23][458])|71\d)\d{4}	9		147101234
D	pager	0		-1		
D	uan	0		-1		
D	voicemail	0		-1		
D	nointl	0		-1		
R	CD	243	00		0		0		0	0		0
D	general	1	(?:(?:[189]|5\d)\d|2)\d{7}|[1-68]\d{6}	7,8,9,10		
D	fixed	1	(?:(?:12|573)\d\d|276)\d{5}|[1-6]\d{6}			1234567
D	mobile	1	88\d{5}|(?:8[0-69]|9[016-9])\d{7}	7,9		991234567
D	toll	0		-1		
D	premium	0		-1		
D	shared	0		-1		
D	personal	0		-1		
D	voip	0		-1		
D	pager	0		-1		
D	uan	0		-1		
D	voicemail	0		-1		
D	nointl	0		-1		
F	(\d{2})(\d{2})(\d{3})	$1 $2 $3	0$1	0		88
F	(\d{2})(\d{5})	$1 $2	0$1	0		[1-6]
F	(\d{2})(\d{2})(\d{4})	$1 $2 $3	0$1	0		2
F	(\d{2})(\d{3})(\d{4})	$1 $2 $3	0$1	0		1
F	(\d{3})(\d{3})(\d{3})	$1 $2 $3	0$1	0		[89]
F	(\d{2})(\d{2})(\d{3})(\d{3})	$1 $2 $3 $4	0$1	0		5
R	CF	236	00						0	0		0
D	general	1	8776\d{4}|(?:[27]\d|61)\d{6}	8		
D	fixed	1	(?:2[12]|61)\d{6}			21612345
D	mobile	1	7[02-7]\d{6}			70012345
D	toll	0		-1		
D	premium	1	8776\d{4}			87761234
D	shared	0		-1		
D	personal	0		-1		
D	voip	0		-1		
D	pager	0		-1		
D	uan	0		-1		
D	voicemail	0		-1		
D	nointl	0		-1		
F	(\d{2})(\d{2})(\d{2})(\d{2})	$1 $2 $3 $4		0		[26-8]
R	CG	242	00						0	0		0
D	general	1	222\d{6}|(?:0\d|80)\d{7}	9		
D	fixed	1	222[1-589]\d{5}			222123456
D	mobile	1	026(?:1[0-5]|6[6-9])\d{4}|0(?:[14-6]\d\d|2(?:40|5[5-8]|6[07-9]))\d{5}			061234567
D	toll	0		-1		
D	premium	1	80[0-2]\d{6}			800123456
D	shared	0		-1		
D	personal	0		-1		
D	voip	0		-1		
D	pager	0		-1		
D	uan	0		-1		
D	voicemail	0		-1		
D	nointl	0		-1		
F	(\d)(\d{4})(\d{4})	$1 $2 $3		0		8
F	(\d{2})(\d{3})(\d{4})	$1 $2 $3		0		[02]
R	CH	41	00		0		0		0	0		1
D	general	1	8\d{11}|[2-9]\d{8}	9,12		
D	fixed	1	(?:2[12467]|3[1-4]|4[134]|5[256]|6[12]|[7-9]1)\d{7}	9		212345678
D	mobile	1	(?:6[89]|7[235-9])\d{7}	9		781234567
D	toll	1	800\d{6}	9		800123456
D	premium	1	90[016]\d{6}	9		900123456
D	shared	1	84[0248]\d{6}	9		840123456
D	personal	1	878\d{6}	9		878123456
D	voip	0		-1		
D	pager	1	74[0248]\d{6}	9		740123456
D	uan	1	5[18]\d{7}	9		581234567
D	voicemail	1	860\d{9}	12		860123456789
D	nointl	0		-1		
F	(\d{3})(\d{3})(\d{3})	$1 $2 $3	0$1	0		8[047]|90
F	(\d{2})(\d{3})(\d{2})(\d{2})	$1 $2 $3 $4	0$1	0		[2-79]|81
F	(\d{3})(\d{2})(\d{3})(\d{2})(\d{2})	$1 $2 $3 $4 $5	0$1	0		8
R	CI	225	00						0	0		0
D	general	1	[02]\d{9}	10		
D	fixed	1	2(?:[15]\d{3}|7(?:2(?:0[23]|1[2357]|2[245]|3[45]|4[3-5])|3(?:06|1[69]|[2-6]7)))\d{5}			2123456789
D	mobile	1	0[157]\d{8}			0123456789
D	toll	0		-1		
D	premium	0		-1		
D	shared	0		-1		
D	personal	0		-1		
D	voip	0		-1		
D	pager	0		-1		
D	uan	0		-1		
D	voicemail	0		-1		
D	nointl	0		-1		
F	(\d{2})(\d{2})(\d)(\d{5})	$1 $2 $3 $4		0		2
F	(\d{2})(\d{2})(\d{2})(\d{4})	$1 $2 $3 $4		0		0
R	CK	682	00						0	0		0
D	general	1	[2-578]\d{4}	5		
D	fixed	1	(?:2\d|3[13-7]|4[1-5])\d{3}			21234
D	mobile	1	[578]\d{4}			71234
D	toll	0		-1		
D	premium	0		-1		
D	shared	0		-1		
D	personal	0		-1		
D	voip	0		-1		
D	pager	0		-1		
D	uan	0		-1		
D	voicemail	0		-1		
D	nointl	0		-1		
F	(\d{2})(\d{3})	$1 $2		0		[2-578]
R	CL	56	(?:0|1(?:1[0-69]|2[02-5]|5[13-58]|69|7[0167]|8[018]))0						0	0		1
D	general	1	12300\d{6}|6\d{9,10}|[2-9]\d{8}	9,10,11		
D	fixed	1	2(?:1982[0-6]|3314[05-9])\d{3}|(?:2(?:1(?:160|962)|3(?:(?:[24]\d|50)\d|3(?:[0346-9]\d|1[0-35-9]|2[1-9]|5[0-24-9])|600)|646[59])|(?:600|80[1-9])\d\d|9(?:(?:10[0-2]|7[1-9]\d)\d|3(?:[0-57-9]\d\d|6(?:0[02-9]|[1-9]\d))|6(?:[0-8]\d\d|9(?:[02-79]\d|1[05-9]))|9(?:[03-9]\d\d|1(?:[0235-9]\d|4[0-24-9])|2(?:[0-79]\d|8[0-46-9]))))\d{4}|(?:22|3[2-5]|[47][1-35]|5[1-3578]|6[13-57]|8[1-9]|9[2458])\d{7}	9		600123456
D	mobile	1	2(?:1982[0-6]|3314[05-9])\d{3}|(?:2(?:1(?:160|962)|3(?:(?:[24]\d|50)\d|3(?:[0346-9]\d|1[0-35-9]|2[1-9]|5[0-24-9])|600)|646[59])|80[1-8]\d\d|9(?:(?:10[0-2]|7[1-9]\d)\d|3(?:[0-57-9]\d\d|6(?:0[02-9]|[1-9]\d))|6(?:[0-8]\d\d|9(?:[02-79]\d|1[05-9]))|9(?:[03-9]\d\d|1(?:[0235-9]\d|4[0-24-9])|2(?:[0-79]\d|8[0-46-9]))))\d{4}|(?:22|3[2-5]|[47][1-35]|5[1-3578]|6[13-57]|8[1-9]|9[2458])\d{7}	9		221234567
D	toll	1	(?:123|8)00\d{6}	9,11		800123456
D	premium	0		-1		
D	shared	1	600\d{7,8}	10,11		6001234567
D	personal	0		-1		
D	voip	1	44\d{7}	9		441234567
D	pager	0		-1		
D	uan	0		-1		
D	voicemail	0		-1		
D	nointl	1	600\d{7,8}	10,11		
F	(\d{4})	$1		0		1(?:[03-589]|21)|[29]0|78
F	(\d{5})(\d{4})	$1 $2	($1)	0		219	2196
F	(\d{3})(\d{3})(\d{3})	$1 $2 $3		0		60|809
F	(\d{2})(\d{3})(\d{4})	$1 $2 $3		0		44
F	(\d)(\d{4})(\d{4})	$1 $2 $3	($1)	0		2[1-36]
F	(\d)(\d{4})(\d{4})	$1 $2 $3		0		9(?:10|[2-9])
F	(\d{2})(\d{3})(\d{4})	$1 $2 $3	($1)	0		3[2-5]|[47]|5[1-3578]|6[13-57]|8(?:0[1-8]|[1-9])
F	(\d{3})(\d{3})(\d{3,4})	$1 $2 $3		0		60|8
F	(\d{4})(\d{3})(\d{4})	$1 $2 $3		0		1
F	(\d{3})(\d{3})(\d{2})(\d{3})	$1 $2 $3 $4		0		60
I	(\d{5})(\d{4})	$1 $2	($1)	0		219	2196
I	(\d{3})(\d{3})(\d{3})	$1 $2 $3		0		60|809
I	(\d{2})(\d{3})(\d{4})	$1 $2 $3		0		44
I	(\d)(\d{4})(\d{4})	$1 $2 $3	($1)	0		2[1-36]
I	(\d)(\d{4})(\d{4})	$1 $2 $3		0		9(?:10|[2-9])
I	(\d{2})(\d{3})(\d{4})	$1 $2 $3	($1)	0		3[2-5]|[47]|5[1-3578]|6[13-57]|8(?:0[1-8]|[1-9])
I	(\d{3})(\d{3})(\d{3,4})	$1 $2 $3		0		60|8
I	(\d{4})(\d{3})(\d{4})	$1 $2 $3		0		1
I	(\d{3})(\d{3})(\d{2})(\d{3})	$1 $2 $3 $4		0		60
R	CM	237	00						0	0		1
D	general	1	[26]\d{8}|88\d{6,7}	8,9		
D	fixed	1	2(?:22|33)\d{6}	9		222123456
D	mobile	1	(?:24[23]|6(?:[25-9]\d|4[0-2]))\d{6}	9		671234567
D	toll	1	88\d{6,7}			88012345
D	premium	0		-1		
D	shared	0		-1		
D	personal	0		-1		
D	voip	0		-1		
D	pager	0		-1		
D	uan	0		-1		
D	voicemail	0		-1		
D	nointl	0		-1		
F	(\d{2})(\d{2})(\d{2})(\d{2})	$1 $2 $3 $4		0		88
F	(\d)(\d{2})(\d{2})(\d{2})(\d{2})	$1 $2 $3 $4 $5		0		[26]|88
R	CN	86	00|1(?:[12]\d|79)\d\d00	00	0		(1(?:[12]\d|79)\d\d)|0		0	0		0
D	general	1	(?:(?:1[03-689]|2\d)\d\d|6)\d{8}|1\d{10}|[126]\d{6}(?:\d(?:\d{2})?)?|86\d{5,6}|(?:[3-579]\d|8[0-57-9])\d{5,9}	7,8,9,10,11,12	5,6	
D	fixed	1	(?:10(?:[02-79]\d\d|[18](?:0[1-9]|[1-9]\d))|2(?:[02-57-9]\d{3}|1(?:[18](?:0[1-9]|[1-9]\d)|[2-79]\d\d))|(?:41[03]|8078|9(?:78|94))\d\d)\d{5}|(?:10|2[0-57-9])(?:1(?:00|23)\d\d|95\d{3,4})|(?:41[03]|9(?:78|94))(?:100\d\d|95\d{3,4})|8078123|(?:43[35]|754|851)\d{7,8}|(?:43[35]|754|851)(?:1(?:00\d|23)\d|95\d{3,4})|(?:3(?:11|7[179])|4(?:[15]1|3[12])|5(?:1\d|2[37]|3[12]|51|7[13-79]|9[15])|7(?:[39]1|5[57]|6[09])|8(?:71|98))(?:[02-8]\d{7}|1(?:0(?:0\d\d(?:\d{3})?|[1-9]\d{5})|[13-9]\d{6}|2(?:[0-24-9]\d{5}|3\d(?:\d{4})?))|9(?:[0-46-9]\d{6}|5\d{3}(?:\d(?:\d{2})?)?))|(?:3(?:1[02-9]|35|49|5\d|7[02-68]|9[1-68])|4(?:1[24-9]|2[179]|3[46-9]|5[2-9]|6[47-9]|7\d|8[23])|5(?:3[03-9]|4[36]|5[02-9]|6[1-46]|7[028]|80|9[2-46-9])|6(?:3[1-5]|6[0238]|9[12])|7(?:01|[17]\d|2[248]|3[04-9]|4[3-6]|5[0-3689]|6[2368]|9[02-9])|8(?:1[236-8]|2[5-7]|3\d|5[2-9]|7[02-9]|8[36-8]|9[1-7])|9(?:0[1-3689]|1[1-79]|3\d|4[13]|5[1-5]|7[0-79]|9[0-35-9]))(?:[02-8]\d{6}|1(?:0(?:0\d\d(?:\d{2})?|[1-9]\d{4})|[13-9]\d{5}|2(?:[0-24-9]\d{4}|3\d(?:\d{3})?))|9(?:[0-46-9]\d{5}|5\d{3,5}))	7,8,9,10,11	5,6	1012345678
D	mobile	1	1(?:610\d|740[0-5])\d{6}|1(?:[38]\d|4[57]|[59][0-35-9]|6[25-7]|7[0-35-8])\d{8}	11		13123456789
D	toll	1	(?:(?:10|21)8|8)00\d{7}	10,12		8001234567
D	premium	1	16[08]\d{5}	8		16812345
D	shared	1	10(?:10\d{4}|96\d{3,4})|400\d{7}|950\d{7,8}|(?:2[0-57-9]|3(?:[157]\d|35|49|9[1-68])|4(?:[17]\d|2[179]|[35][1-9]|6[47-9]|8[23])|5(?:[1357]\d|2[37]|4[36]|6[1-46]|80|9[1-9])|6(?:3[1-5]|6[0238]|9[12])|7(?:01|[1579]\d|2[248]|3[014-9]|4[3-6]|6[023689])|8(?:1[236-8]|2[5-7]|[37]\d|5[14-9]|8[36-8]|9[1-8])|9(?:0[1-3689]|1[1-79]|[379]\d|4[13]|5[1-5]))96\d{3,4}	7,8,9,10,11	5,6	4001234567
D	personal	0		-1		
D	voip	0		-1		
D	pager	0		-1		
D	uan	0		-1		
D	voicemail	0		-1		
D	nointl	1	(?:(?:10|21)8|[48])00\d{7}|950\d{7,8}	10,11,12		
F	(\d{5,6})	$1		0		1(?:00|2[13])|9[56]	1(?:00|2(?:1|39))|9[56]	1(?:00|2(?:1|395))|9[56]
F	(\d{5,6})	$1		0		1(?:0|23)|781|[1-9]12	1(?:0|23)|7812|[1-9]123	1(?:0|23(?:[0-8]|9[0-46-9]))|78123|[1-9]123
F	(\d{2})(\d{5,6})	$1 $2	0$1	0	$CC $1	(?:10|2[0-57-9])[19]|3(?:[157]|35|49|9[1-68])|4(?:1[124-9]|2[179]|6[47-9]|7|8[23])|5(?:[1357]|2[37]|4[36]|6[1-46]|80)|6(?:3[1-5]|6[0238]|9[12])|7(?:01|[1579]|2[248]|3[014-9]|4[3-6]|6[023689])|8(?:07|1[236-8]|2[5-7]|[37]|8[36-8]|9[1-8])|9(?:0[1-3689]|1[1-79]|3|4[13]|5[1-5]|7[0-79]|9[0-35-9])|(?:4[35]|59|85)[1-9]	(?:10|2[0-57-9])(?:1[02]|9[56])|8078|(?:3(?:[157]\d|35|49|9[1-68])|4(?:1[124-9]|2[179]|[35][1-9]|6[47-9]|7\d|8[23])|5(?:[1357]\d|2[37]|4[36]|6[1-46]|80|9[1-9])|6(?:3[1-5]|6[0238]|9[12])|7(?:01|[1579]\d|2[248]|3[014-9]|4[3-6]|6[023689])|8(?:1[236-8]|2[5-7]|[37]\d|5[1-9]|8[36-8]|9[1-8])|9(?:0[1-3689]|1[1-79]|3\d|4[13]|5[1-5]|7[0-79]|9[0-35-9]))1	10(?:1(?:0|23)|9[56])|2[0-57-9](?:1(?:00|23)|9[56])|80781|(?:3(?:[157]\d|35|49|9[1-68])|4(?:1[124-9]|2[179]|[35][1-9]|6[47-9]|7\d|8[23])|5(?:[1357]\d|2[37]|4[36]|6[1-46]|80|9[1-9])|6(?:3[1-5]|6[0238]|9[12])|7(?:01|[1579]\d|2[248]|3[014-9]|4[3-6]|6[023689])|8(?:1[236-8]|2[5-7]|[37]\d|5[1-9]|8[36-8]|9[1-8])|9(?:0[1-3689]|1[1-79]|3\d|4[13]|5[1-5]|7[0-79]|9[0-35-9]))12	10(?:1(?:0|23)|9[56])|2[0-57-9](?:1(?:00|23)|9[56])|807812|(?:3(?:[157]\d|35|49|9[1-68])|4(?:1[124-9]|2[179]|[35][1-9]|6[47-9]|7\d|8[23])|5(?:[1357]\d|2[37]|4[36]|6[1-46]|80|9[1-9])|6(?:3[1-5]|6[0238]|9[12])|7(?:01|[1579]\d|2[248]|3[014-9]|4[3-6]|6[023689])|8(?:1[236-8]|2[5-7]|[37]\d|5[1-9]|8[36-8]|9[1-8])|9(?:0[1-3689]|1[1-79]|3\d|4[13]|5[1-5]|7[0-79]|9[0-35-9]))123	10(?:1(?:0|23)|9[56])|2[0-57-9](?:1(?:00|23)|9[56])|(?:3(?:[157]\d|35|49|9[1-68])|4(?:1[124-9]|2[179]|[35][1-9]|6[47-9]|7\d|8[23])|5(?:[1357]\d|2[37]|4[36]|6[1-46]|80|9[1-9])|6(?:3[1-5]|6[0238]|9[12])|7(?:01|[1579]\d|2[248]|3[014-9]|4[3-6]|6[023689])|8(?:078|1[236-8]|2[5-7]|[37]\d|5[1-9]|8[36-8]|9[1-8])|9(?:0[1-3689]|1[1-79]|3\d|4[13]|5[1-5]|7[0-79]|9[0-35-9]))123
F	(\d{3})(\d{4})	$1 $2		0		[1-9]	1[1-9]|26|[3-9]|(?:10|2[0-57-9])(?:[0-8]|9[0-47-9])	1(?:0(?:[02-8]|1(?:[013-9]|2[0-24-9])|9[0-47-9])|[1-9])|2(?:[0-57-9](?:[02-8]|1(?:0[1-9]|[13-9]|2[0-24-9])|9[0-47-9])|6)|[3-9]	1(?:0(?:[02-8]|1(?:[013-9]|2[0-24-9])|9[0-47-9])|[1-9])|2(?:[0-57-9](?:[02-8]|1(?:0[1-9]|[13-9]|2[0-24-9])|9[0-47-9])|6)|3(?:[0268]|3[0-46-9]|4[0-8]|9[079])|4(?:[049]|1[03]|2[02-68]|[35]0|6[0-356]|8[014-9])|5(?:0|2[0-24-689]|4[0-2457-9]|6[057-9]|8[1-9]|90)|6(?:[0-24578]|3[06-9]|6[14-79]|9[03-9])|7(?:0[02-9]|2[0135-79]|3[23]|4[0-27-9]|6[1457]|8)|8(?:[046]|1[01459]|2[0-489]|50|8[0-2459]|9[09])|9(?:0[0457]|1[08]|[268]|4[024-9]|5[06-9]|78|94)|(?:3(?:[157]\d|35|49|9[1-68])|4(?:1[124-9]|2[179]|[35][1-9]|6[47-9]|7\d|8[23])|5(?:[1357]\d|2[37]|4[36]|6[1-46]|80|9[1-9])|6(?:3[1-5]|6[0238]|9[12])|7(?:01|[1579]\d|2[248]|3[014-9]|4[3-6]|6[023689])|8(?:1[236-8]|2[5-7]|[37]\d|5[1-9]|8[36-8]|9[1-8])|9(?:0[1-3689]|1[1-79]|3\d|4[13]|5[1-5]|7[0-79]|9[0-35-9]))(?:[02-9]|1(?:[013-9]|2[0-24-9]))	1(?:0(?:[02-8]|1(?:[013-9]|2[0-24-9])|9[0-47-9])|[1-9])|2(?:[0-57-9](?:[02-8]|1(?:0[1-9]|[13-9]|2[0-24-9])|9[0-47-9])|6)|3(?:[0268]|3[0-46-9]|4[0-8]|9[079])|4(?:[049]|1[03]|2[02-68]|[35]0|6[0-356]|8[014-9])|5(?:0|2[0-24-689]|4[0-2457-9]|6[057-9]|8[1-9]|90)|6(?:[0-24578]|3[06-9]|6[14-79]|9[03-9])|7(?:0[02-9]|2[0135-79]|3[23]|4[0-27-9]|6[1457]|8)|8(?:0(?:[0-689]|7[0-79])|1[01459]|2[0-489]|[46]|50|8[0-2459]|9[09])|9(?:0[0457]|1[08]|[268]|4[024-9]|5[06-9]|78|94)|(?:3(?:[157]\d|35|49|9[1-68])|4(?:1[124-9]|2[179]|[35][1-9]|6[47-9]|7\d|8[23])|5(?:[1357]\d|2[37]|4[36]|6[1-46]|80|9[1-9])|6(?:3[1-5]|6[0238]|9[12])|7(?:01|[1579]\d|2[248]|3[014-9]|4[3-6]|6[023689])|8(?:078|1[236-8]|2[5-7]|[37]\d|5[1-9]|8[36-8]|9[1-8])|9(?:0[1-3689]|1[1-79]|3\d|4[13]|5[1-5]|7[0-79]|9[0-35-9]))(?:[02-9]|1(?:[013-9]|2[0-24-9]))
F	(\d{4})(\d{4})	$1 $2		0		16[08]
F	(\d{3})(\d{5,6})	$1 $2	0$1	0	$CC $1	3(?:[157]|35|49|9[1-68])|4(?:[17]|2[179]|6[47-9]|8[23])|5(?:[1357]|2[37]|4[36]|6[1-46]|80)|6(?:3[1-5]|6[0238]|9[12])|7(?:01|[1579]|2[248]|3[014-9]|4[3-6]|6[023689])|8(?:1[236-8]|2[5-7]|[37]|8[36-8]|9[1-8])|9(?:0[1-3689]|1[1-79]|[379]|4[13]|5[1-5])|(?:4[35]|59|85)[1-9]	(?:3(?:[157]\d|35|49|9[1-68])|4(?:[17]\d|2[179]|[35][1-9]|6[47-9]|8[23])|5(?:[1357]\d|2[37]|4[36]|6[1-46]|80|9[1-9])|6(?:3[1-5]|6[0238]|9[12])|7(?:01|[1579]\d|2[248]|3[014-9]|4[3-6]|6[023689])|8(?:1[236-8]|2[5-7]|[37]\d|5[1-9]|8[36-8]|9[1-8])|9(?:0[1-3689]|1[1-79]|[379]\d|4[13]|5[1-5]))[19]	85[23](?:10|95)|(?:3(?:[157]\d|35|49|9[1-68])|4(?:[17]\d|2[179]|[35][1-9]|6[47-9]|8[23])|5(?:[1357]\d|2[37]|4[36]|6[1-46]|80|9[1-9])|6(?:3[1-5]|6[0238]|9[12])|7(?:01|[1579]\d|2[248]|3[014-9]|4[3-6]|6[023689])|8(?:1[236-8]|2[5-7]|[37]\d|5[14-9]|8[36-8]|9[1-8])|9(?:0[1-3689]|1[1-79]|[379]\d|4[13]|5[1-5]))(?:10|9[56])	85[23](?:100|95)|(?:3(?:[157]\d|35|49|9[1-68])|4(?:[17]\d|2[179]|[35][1-9]|6[47-9]|8[23])|5(?:[1357]\d|2[37]|4[36]|6[1-46]|80|9[1-9])|6(?:3[1-5]|6[0238]|9[12])|7(?:01|[1579]\d|2[248]|3[014-9]|4[3-6]|6[023689])|8(?:1[236-8]|2[5-7]|[37]\d|5[14-9]|8[36-8]|9[1-8])|9(?:0[1-3689]|1[1-79]|[379]\d|4[13]|5[1-5]))(?:100|9[56])
F	(\d{4})(\d{4})	$1 $2		0		[1-9]	1(?:0(?:[02-8]|1[1-9]|9[0-47-9])|[1-9])|2(?:[0-57-9](?:[0-8]|9[0-47-9])|6)|[3-9]	1(?:0(?:[02-8]|1[1-9]|9[0-47-9])|[1-9])|26|3(?:[0268]|4[0-8]|9[079])|4(?:[049]|2[02-68]|[35]0|6[0-356]|8[014-9])|5(?:0|2[0-24-689]|4[0-2457-9]|6[057-9]|8[1-9]|90)|6(?:[0-24578]|3[06-9]|6[14-79]|9[03-9])|7(?:0[02-9]|2[0135-79]|3[23]|4[0-27-9]|6[1457]|8)|8(?:[046]|1[01459]|2[0-489]|5(?:0|[23][0-8])|8[0-2459]|9[09])|9(?:0[0457]|1[08]|[268]|4[024-9]|5[06-9])|(?:33|85[23]9)[0-46-9]|(?:2[0-57-9]|3(?:[157]\d|35|49|9[1-68])|4(?:[17]\d|2[179]|[35][1-9]|6[47-9]|8[23])|5(?:[1357]\d|2[37]|4[36]|6[1-46]|80|9[1-9])|6(?:3[1-5]|6[0238]|9[12])|7(?:01|[1579]\d|2[248]|3[014-9]|4[3-6]|6[023689])|8(?:1[236-8]|2[5-7]|[37]\d|5[14-9]|8[36-8]|9[1-8])|9(?:0[1-3689]|1[1-79]|[379]\d|4[13]|5[1-5]))(?:[0-8]|9[0-47-9])	1(?:0[02-8]|[1-9])|2(?:[0-57-9][0-8]|6)|3(?:[0268]|3[0-46-9]|4[0-8]|9[079])|4(?:[049]|2[02-68]|[35]0|6[0-356]|8[014-9])|5(?:0|2[0-24-689]|4[0-2457-9]|6[057-9]|90)|6(?:[0-24578]|3[06-9]|6[14-79]|9[03-9])|7(?:0[02-9]|2[0135-79]|3[23]|4[0-27-9]|6[1457]|8)|8(?:[046]|1[01459]|2[0-489]|5(?:0|[23](?:[02-8]|1[1-9]|9[0-46-9]))|8[0-2459]|9[09])|9(?:0[0457]|1[08]|[268]|4[024-9]|5[06-9])|(?:10|2[0-57-9])9[0-47-9]|(?:101|58|85[23]10)[1-9]|(?:3(?:[157]\d|35|49|9[1-68])|4(?:[17]\d|2[179]|[35][1-9]|6[47-9]|8[23])|5(?:[1357]\d|2[37]|4[36]|6[1-46]|80|9[1-9])|6(?:3[1-5]|6[0238]|9[12])|7(?:01|[1579]\d|2[248]|3[014-9]|4[3-6]|6[023689])|8(?:1[236-8]|2[5-7]|[37]\d|5[14-9]|8[36-8]|9[1-8])|9(?:0[1-3689]|1[1-79]|[379]\d|4[13]|5[1-5]))(?:[02-8]|1(?:0[1-9]|[1-9])|9[0-47-9])
F	(\d{3})(\d{3})(\d{4})	$1 $2 $3		0		(?:4|80)0
F	(\d{2})(\d{4})(\d{4})	$1 $2 $3	0$1	1	$CC $1	10|2(?:[02-57-9]|1[1-9])	10|2(?:[02-57-9]|1[1-9])	10[0-79]|2(?:[02-57-9]|1[1-79])|(?:10|21)8(?:0[1-9]|[1-9])
F	(\d{3})(\d{3})(\d{4})	$1 $2 $3	0$1	1	$CC $1	3(?:[3-59]|7[02-68])|4(?:[26-8]|3[3-9]|5[2-9])|5(?:3[03-9]|[468]|7[028]|9[2-46-9])|6|7(?:[0-247]|3[04-9]|5[0-4689]|6[2368])|8(?:[1-358]|9[1-7])|9(?:[013479]|5[1-5])|(?:[34]1|55|79|87)[02-9]
F	(\d{3})(\d{7,8})	$1 $2		0		9
F	(\d{4})(\d{3})(\d{4})	$1 $2 $3	0$1	1	$CC $1	80
F	(\d{3})(\d{4})(\d{4})	$1 $2 $3	0$1	1	$CC $1	[3-578]
F	(\d{3})(\d{4})(\d{4})	$1 $2 $3		0	$CC $1	1[3-9]
F	(\d{2})(\d{3})(\d{3})(\d{4})	$1 $2 $3 $4	0$1	1		[12]
I	(\d{2})(\d{5,6})	$1 $2	0$1	0	$CC $1	(?:10|2[0-57-9])[19]|3(?:[157]|35|49|9[1-68])|4(?:1[124-9]|2[179]|6[47-9]|7|8[23])|5(?:[1357]|2[37]|4[36]|6[1-46]|80)|6(?:3[1-5]|6[0238]|9[12])|7(?:01|[1579]|2[248]|3[014-9]|4[3-6]|6[023689])|8(?:07|1[236-8]|2[5-7]|[37]|8[36-8]|9[1-8])|9(?:0[1-3689]|1[1-79]|3|4[13]|5[1-5]|7[0-79]|9[0-35-9])|(?:4[35]|59|85)[1-9]	(?:10|2[0-57-9])(?:1[02]|9[56])|8078|(?:3(?:[157]\d|35|49|9[1-68])|4(?:1[124-9]|2[179]|[35][1-9]|6[47-9]|7\d|8[23])|5(?:[1357]\d|2[37]|4[36]|6[1-46]|80|9[1-9])|6(?:3[1-5]|6[0238]|9[12])|7(?:01|[1579]\d|2[248]|3[014-9]|4[3-6]|6[023689])|8(?:1[236-8]|2[5-7]|[37]\d|5[1-9]|8[36-8]|9[1-8])|9(?:0[1-3689]|1[1-79]|3\d|4[13]|5[1-5]|7[0-79]|9[0-35-9]))1	10(?:1(?:0|23)|9[56])|2[0-57-9](?:1(?:00|23)|9[56])|80781|(?:3(?:[157]\d|35|49|9[1-68])|4(?:1[124-9]|2[179]|[35][1-9]|6[47-9]|7\d|8[23])|5(?:[1357]\d|2[37]|4[36]|6[1-46]|80|9[1-9])|6(?:3[1-5]|6[0238]|9[12])|7(?:01|[1579]\d|2[248]|3[014-9]|4[3-6]|6[023689])|8(?:1[236-8]|2[5-7]|[37]\d|5[1-9]|8[36-8]|9[1-8])|9(?:0[1-3689]|1[1-79]|3\d|4[13]|5[1-5]|7[0-79]|9[0-35-9]))12	10(?:1(?:0|23)|9[56])|2[0-57-9](?:1(?:00|23)|9[56])|807812|(?:3(?:[157]\d|35|49|9[1-68])|4(?:1[124-9]|2[179]|[35][1-9]|6[47-9]|7\d|8[23])|5(?:[1357]\d|2[37]|4[36]|6[1-46]|80|9[1-9])|6(?:3[1-5]|6[0238]|9[12])|7(?:01|[1579]\d|2[248]|3[014-9]|4[3-6]|6[023689])|8(?:1[236-8]|2[5-7]|[37]\d|5[1-9]|8[36-8]|9[1-8])|9(?:0[1-3689]|1[1-79]|3\d|4[13]|5[1-5]|7[0-79]|9[0-35-9]))123	10(?:1(?:0|23)|9[56])|2[0-57-9](?:1(?:00|23)|9[56])|(?:3(?:[157]\d|35|49|9[1-68])|4(?:1[124-9]|2[179]|[35][1-9]|6[47-9]|7\d|8[23])|5(?:[1357]\d|2[37]|4[36]|6[1-46]|80|9[1-9])|6(?:3[1-5]|6[0238]|9[12])|7(?:01|[1579]\d|2[248]|3[014-9]|4[3-6]|6[023689])|8(?:078|1[236-8]|2[5-7]|[37]\d|5[1-9]|8[36-8]|9[1-8])|9(?:0[1-3689]|1[1-79]|3\d|4[13]|5[1-5]|7[0-79]|9[0-35-9]))123
I	(\d{3})(\d{5,6})	$1 $2	0$1	0	$CC $1	3(?:[157]|35|49|9[1-68])|4(?:[17]|2[179]|6[47-9]|8[23])|5(?:[1357]|2[37]|4[36]|6[1-46]|80)|6(?:3[1-5]|6[0238]|9[12])|7(?:01|[1579]|2[248]|3[014-9]|4[3-6]|6[023689])|8(?:1[236-8]|2[5-7]|[37]|8[36-8]|9[1-8])|9(?:0[1-3689]|1[1-79]|[379]|4[13]|5[1-5])|(?:4[35]|59|85)[1-9]	(?:3(?:[157]\d|35|49|9[1-68])|4(?:[17]\d|2[179]|[35][1-9]|6[47-9]|8[23])|5(?:[1357]\d|2[37]|4[36]|6[1-46]|80|9[1-9])|6(?:3[1-5]|6[0238]|9[12])|7(?:01|[1579]\d|2[248]|3[014-9]|4[3-6]|6[023689])|8(?:1[236-8]|2[5-7]|[37]\d|5[1-9]|8[36-8]|9[1-8])|9(?:0[1-3689]|1[1-79]|[379]\d|4[13]|5[1-5]))[19]	85[23](?:10|95)|(?:3(?:[157]\d|35|49|9[1-68])|4(?:[17]\d|2[179]|[35][1-9]|6[47-9]|8[23])|5(?:[1357]\d|2[37]|4[36]|6[1-46]|80|9[1-9])|6(?:3[1-5]|6[0238]|9[12])|7(?:01|[1579]\d|2[248]|3[014-9]|4[3-6]|6[023689])|8(?:1[236-8]|2[5-7]|[37]\d|5[14-9]|8[36-8]|9[1-8])|9(?:0[1-3689]|1[1-79]|[379]\d|4[13]|5[1-5]))(?:10|9[56])	85[23](?:100|95)|(?:3(?:[157]\d|35|49|9[1-68])|4(?:[17]\d|2[179]|[35][1-9]|6[47-9]|8[23])|5(?:[1357]\d|2[37]|4[36]|6[1-46]|80|9[1-9])|6(?:3[1-5]|6[0238]|9[12])|7(?:01|[1579]\d|2[248]|3[014-9]|4[3-6]|6[023689])|8(?:1[236-8]|2[5-7]|[37]\d|5[14-9]|8[36-8]|9[1-8])|9(?:0[1-3689]|1[1-79]|[379]\d|4[13]|5[1-5]))(?:100|9[56])
I	(\d{3})(\d{3})(\d{4})	$1 $2 $3		0		(?:4|80)0
I	(\d{2})(\d{4})(\d{4})	$1 $2 $3	0$1	1	$CC $1	10|2(?:[02-57-9]|1[1-9])	10|2(?:[02-57-9]|1[1-9])	10[0-79]|2(?:[02-57-9]|1[1-79])|(?:10|21)8(?:0[1-9]|[1-9])
I	(\d{3})(\d{3})(\d{4})	$1 $2 $3	0$1	1	$CC $1	3(?:[3-59]|7[02-68])|4(?:[26-8]|3[3-9]|5[2-9])|5(?:3[03-9]|[468]|7[028]|9[2-46-9])|6|7(?:[0-247]|3[04-9]|5[0-4689]|6[2368])|8(?:[1-358]|9[1-7])|9(?:[013479]|5[1-5])|(?:[34]1|55|79|87)[02-9]
I	(\d{3})(\d{7,8})	$1 $2		0		9
I	(\d{4})(\d{3})(\d{4})	$1 $2 $3	0$1	1	$CC $1	80
I	(\d{3})(\d{4})(\d{4})	$1 $2 $3	0$1	1	$CC $1	[3-578]
I	(\d{3})(\d{4})(\d{4})	$1 $2 $3		0	$CC $1	1[3-9]
I	(\d{2})(\d{3})(\d{3})(\d{4})	$1 $2 $3 $4	0$1	1		[12]
R	CO	57	00(?:4(?:[14]4|56)|[579])		0		0([3579]|4(?:[14]4|56))?		0	0		1
D	general	1	(?:46|60\d\d)\d{6}|(?:1\d|[39])\d{9}	8,10,11	4,7	
D	fixed	1	601055(?:[0-4]\d|50)\d\d|6010(?:[0-4]\d|5[0-4])\d{4}|(?:46|60(?:[18][1-9]|[24-7][2-9]))\d{6}	8,10	4,7	6012345678
D	mobile	1	333301[0-5]\d{3}|3333(?:00|2[5-9]|[3-9]\d)\d{4}|(?:3(?:(?:0[0-5]|1\d|5[01]|70)\d|2(?:[0-3]\d|4[1-9])|3(?:00|3[0-24-9]))|9(?:101|408))\d{6}	10		3211234567
D	toll	1	1800\d{7}	11		18001234567
D	premium	1	(?:19(?:0[01]|4[78])|901)\d{7}	10,11		19001234567
D	shared	0		-1		
D	personal	0		-1		
D	voip	0		-1		
D	pager	0		-1		
D	uan	0		-1		
D	voicemail	0		-1		
D	nointl	0		-1		
F	(\d{4})(\d{4})	$1 $2		0		46
F	(\d{3})(\d{7})	$1 $2	($1)	0	0$CC $1	6|90
F	(\d{3})(\d{7})	$1 $2		0	0$CC $1	3[0-357]|9[14]
F	(\d)(\d{3})(\d{7})	$1-$2-$3	0$1	0		1
I	(\d{4})(\d{4})	$1 $2		0		46
I	(\d{3})(\d{7})	$1 $2	($1)	0	0$CC $1	6|90
I	(\d{3})(\d{7})	$1 $2		0	0$CC $1	3[0-357]|9[14]
I	(\d)(\d{3})(\d{7})	$1 $2 $3		0		1
R	CR	506	00				(19(?:0[0-2468]|1[09]|20|66|77|99))		0	0		0
D	general	1	(?:8\d|90)\d{8}|(?:[24-8]\d{3}|3005)\d{4}	8,10		
D	fixed	1	210[7-9]\d{4}|2(?:[024-7]\d|1[1-9])\d{5}	8		22123456
D	mobile	1	(?:3005\d|6500[01])\d{3}|(?:5[07]|6[0-4]|7[0-3]|8[3-9])\d{6}	8		83123456
D	toll	1	800\d{7}	10		8001234567
D	premium	1	90[059]\d{7}	10		9001234567
D	shared	0		-1		
D	personal	0		-1		
D	voip	1	(?:210[0-6]|4\d{3}|5100)\d{4}	8		40001234
D	pager	0		-1		
D	uan	0		-1		
D	voicemail	0		-1		
D	nointl	0		-1		
F	(\d{4})(\d{4})	$1 $2		0	$CC $1	[2-7]|8[3-9]
F	(\d{3})(\d{3})(\d{4})	$1-$2-$3		0	$CC $1	[89]
R	CU	53	119		0		0		0	0		0
D	general	1	(?:[2-7]|8\d\d)\d{7}|[2-47]\d{6}|[34]\d{5}	6,7,8,10	4,5	
D	fixed	1	(?:3[23]|4[89])\d{4,6}|(?:31|4[36]|8(?:0[25]|78)\d)\d{6}|(?:2[1-4]|4[1257]|7\d)\d{5,6}		4,5	71234567
D	mobile	1	(?:5\d|6[2-4])\d{6}	8		51234567
D	toll	1	800\d{7}	10		8001234567
D	premium	0		-1		
D	shared	1	807\d{7}	10		8071234567
D	personal	0		-1		
D	voip	0		-1		
D	pager	0		-1		
D	uan	0		-1		
D	voicemail	0		-1		
D	nointl	0		-1		
F	(\d{2})(\d{4,6})	$1 $2	(0$1)	0		2[1-4]|[34]
F	(\d)(\d{6,7})	$1 $2	(0$1)	0		7
F	(\d)(\d{7})	$1 $2	0$1	0		[56]
F	(\d{3})(\d{7})	$1 $2	0$1	0		8
R	CV	238	0						0	0		0
D	general	1	(?:[2-59]\d\d|800)\d{4}	7		
D	fixed	1	2(?:2[1-7]|3[0-8]|4[12]|5[1256]|6\d|7[1-3]|8[1-5])\d{4}			2211234
D	mobile	1	(?:36|5[1-389]|9\d)\d{5}			9911234
D	toll	1	800\d{4}			8001234
D	premium	0		-1		
D	shared	0		-1		
D	personal	0		-1		
D	voip	1	(?:3[3-5]|4[356])\d{5}			3401234
D	pager	0		-1		
D	uan	0		-1		
D	voicemail	0		-1		
D	nointl	0		-1		
F	(\d{3})(\d{2})(\d{2})	$1 $2 $3		0		[2-589]
R	CW	599	00						0	1	[69]	0
D	general	1	(?:[34]1|60|(?:7|9\d)\d)\d{5}	7,8		
D	fixed	1	9(?:4(?:3[0-5]|4[14]|6\d)|50\d|7(?:2[014]|3[02-9]|4[4-9]|6[357]|77|8[7-9])|8(?:3[39]|[46]\d|7[01]|8[57-9]))\d{4}			94351234
D	mobile	1	953[01]\d{4}|9(?:5[12467]|6[5-9])\d{5}			95181234
D	toll	0		-1		
D	premium	0		-1		
D	shared	1	60[0-2]\d{4}	7		6001234
D	personal	0		-1		
D	voip	0		-1		
D	pager	1	955\d{5}	8		95581234
D	uan	0		-1		
D	voicemail	0		-1		
D	nointl	0		-1		
F	(\d{3})(\d{4})	$1 $2		0		[3467]
F	(\d)(\d{3})(\d{4})	$1 $2 $3		0		9[4-8]
R	CX	61	001[14-689]|14(?:1[14]|34|4[17]|[56]6|7[47]|88)0011	0011	0		([59]\d{7})$|0	8$1	0	0		0
D	general	1	1(?:[0-79]\d{8}(?:\d{2})?|8[0-24-9]\d{7})|[148]\d{8}|1\d{5,7}	6,7,8,9,10,12		
D	fixed	1	8(?:51(?:0(?:01|30|59|88)|1(?:17|46|75)|2(?:22|35))|91(?:00[6-9]|1(?:[28]1|49|78)|2(?:09|63)|3(?:12|26|75)|4(?:56|97)|64\d|7(?:0[01]|1[0-2])|958))\d{3}	9	8	891641234
D	mobile	1	4(?:79[01]|83[0-36-9]|95[0-3])\d{5}|4(?:[0-36]\d|4[047-9]|[58][0-24-9]|7[02-8]|9[0-47-9])\d{6}	9		412345678
D	toll	1	180(?:0\d{3}|2)\d{3}	7,10		1800123456
D	premium	1	190[0-26]\d{6}	10		1900123456
D	shared	1	13(?:00\d{6}(?:\d{2})?|45[0-4]\d{3})|13\d{4}	6,8,10,12		1300123456
D	personal	0		-1		
D	voip	1	14(?:5(?:1[0458]|[23][458])|71\d)\d{4}	9		147101234
D	pager	0		-1		
D	uan	0		-1		
D	voicemail	0		-1		
D	nointl	0		-1		
R	CY	357	00						0	0		1
D	general	1	(?:[279]\d|[58]0)\d{6}	8		
D	fixed	1	2[2-6]\d{6}			22345678
D	mobile	1	9(?:10|[4-79]\d)\d{5}			96123456
D	toll	1	800\d{5}			80001234
D	premium	1	90[09]\d{5}			90012345
D	shared	1	80[1-9]\d{5}			80112345
D	personal	1	700\d{5}			70012345
D	voip	0		-1		
D	pager	0		-1		
D	uan	1	(?:50|77)\d{6}			77123456
D	voicemail	0		-1		
D	nointl	0		-1		
F	(\d{2})(\d{6})	$1 $2		0		[257-9]
R	CZ	420	00						0	0		1
D	general	1	(?:[2-578]\d|60)\d{7}|9\d{8,11}	9,10,11,12		
D	fixed	1	(?:2\d|3[1257-9]|4[16-9]|5[13-9])\d{7}	9		212345678
D	mobile	1	7060\d{5}|(?:60[1-8]|7(?:0[2-5]|19|[2379]\d))\d{6}	9		601123456
D	toll	1	800\d{6}	9		800123456
D	premium	1	9(?:0[05689]|76)\d{6}	9		900123456
D	shared	1	8[134]\d{7}	9		811234567
D	personal	1	70[01]\d{6}	9		700123456
D	voip	1	9[17]0\d{6}	9		910123456
D	pager	0		-1		
D	uan	1	9(?:5\d|7[2-4])\d{6}	9		972123456
D	voicemail	1	9(?:3\d{9}|6\d{7,10})			93123456789
D	nointl	0		-1		
F	(\d{3})(\d{3})(\d{3})	$1 $2 $3		0		[2-8]|9[015-7]
F	(\d{2})(\d{3})(\d{3})(\d{2})	$1 $2 $3 $4		0		96
F	(\d{2})(\d{3})(\d{3})(\d{3})	$1 $2 $3 $4		0		9
F	(\d{3})(\d{3})(\d{3})(\d{3})	$1 $2 $3 $4		0		9
R	DE	49	00		0		0		0	0		1
D	general	1	[2579]\d{5,14}|49(?:[34]0|69|8\d)\d\d?|49(?:37|49|60|7[089]|9\d)\d{1,3}|49(?:2[024-9]|3[2-689]|7[1-7])\d{1,8}|(?:1|[368]\d|4[0-8])\d{3,13}|49(?:[015]\d|2[13]|31|[46][1-8])\d{1,9}	4,5,6,7,8,9,10,11,12,13,14,15	2,3	
D	fixed	1	32\d{9,11}|49[1-6]\d{10}|322\d{6}|49[0-7]\d{3,9}|(?:[34]0|[68]9)\d{3,13}|(?:2(?:0[1-689]|[1-3569]\d|4[0-8]|7[1-7]|8[0-7])|3(?:[3569]\d|4[0-79]|7[1-7]|8[1-8])|4(?:1[02-9]|[2-48]\d|5[0-6]|6[0-8]|7[0-79])|5(?:0[2-8]|[124-6]\d|[38][0-8]|[79][0-7])|6(?:0[02-9]|[1-358]\d|[47][0-8]|6[1-9])|7(?:0[2-8]|1[1-9]|[27][0-7]|3\d|[4-6][0-8]|8[0-5]|9[013-7])|8(?:0[2-9]|1[0-79]|2\d|3[0-46-9]|4[0-6]|5[013-9]|6[1-8]|7[0-8]|8[0-24-6])|9(?:0[6-9]|[1-4]\d|[589][0-7]|6[0-8]|7[0-467]))\d{3,12}	5,6,7,8,9,10,11,12,13,14,15	2,3,4	30123456
D	mobile	1	1(?:6[023]|7\d)\d{7,8}|15(?:[0-25-9]\d\d|3(?:10|33))\d{6}	10,11		15123456789
D	toll	1	800\d{7,12}	10,11,12,13,14,15		8001234567890
D	premium	1	(?:137[7-9]|900(?:[135]|9\d))\d{6}	10,11		9001234567
D	shared	1	180\d{5,11}|13(?:7[1-6]\d\d|8)\d{4}	7,8,9,10,11,12,13,14		18012345
D	personal	1	700\d{8}	11		70012345678
D	voip	0		-1		
D	pager	1	16(?:4\d{1,10}|[89]\d{1,11})	4,5,6,7,8,9,10,11,12,13,14		16412345
D	uan	1	18(?:1\d{5,11}|[2-9]\d{8})	8,9,10,11,12,13,14		18500123456
D	voicemail	1	1(?:6(?:013|255|399)|7(?:(?:[015]1|[69]3)3|[2-4]55|[78]99))\d{7,8}|15(?:(?:[03-68]00|113)\d|2\d55|7\d99|9\d33)\d{7}	12,13		177991234567
D	nointl	0		-1		
F	(\d{2})(\d{3,13})	$1 $2	0$1	0		3[02]|40|[68]9
F	(\d{6})	$1		0		227	2277
F	(\d{3})(\d{3,12})	$1 $2	0$1	0		2(?:0[1-389]|1[124]|2[18]|3[14])|3(?:[35-9][15]|4[015])|906|(?:2[4-9]|4[2-9]|[579][1-9]|[68][1-8])1	2(?:0[1-389]|12[0-8])|3(?:[35-9][15]|4[015])|906|2(?:[13][14]|2[18])|(?:2[4-9]|4[2-9]|[579][1-9]|[68][1-8])1
F	(\d{4})(\d{2,11})	$1 $2	0$1	0		[24-6]|3(?:[3569][02-46-9]|4[2-4679]|7[2-467]|8[2-46-8])|70[2-8]|8(?:0[2-9]|[1-8])|90[7-9]|[79][1-9]	[24-6]|3(?:3(?:0[1-467]|2[127-9]|3[124578]|7[1257-9]|8[1256]|9[145])|4(?:2[135]|4[13578]|9[1346])|5(?:0[14]|2[1-3589]|6[1-4]|7[13468]|8[13568])|6(?:2[1-489]|3[124-6]|6[13]|7[12579]|8[1-356]|9[135])|7(?:2[1-7]|4[145]|6[1-5]|7[1-4])|8(?:21|3[1468]|6|7[1467]|8[136])|9(?:0[12479]|2[1358]|4[134679]|6[1-9]|7[136]|8[147]|9[1468]))|70[2-8]|8(?:0[2-9]|[1-8])|90[7-9]|[79][1-9]|3[68]4[1347]|3(?:47|60)[1356]|3(?:3[46]|46|5[49])[1246]|3[4579]3[1357]
F	(\d{3})(\d{4})	$1 $2	0$1	0		138
F	(\d{5})(\d{2,10})	$1 $2	0$1	0		3
F	(\d{3})(\d{5,11})	$1 $2	0$1	0		181
F	(\d{3})(\d)(\d{4,10})	$1 $2 $3	0$1	0		1(?:3|80)|9
F	(\d{3})(\d{7,8})	$1 $2	0$1	0		1[67]
F	(\d{3})(\d{7,12})	$1 $2	0$1	0		8
F	(\d{5})(\d{6})	$1 $2	0$1	0		185	1850	18500
F	(\d{3})(\d{4})(\d{4})	$1 $2 $3	0$1	0		7
F	(\d{4})(\d{7})	$1 $2	0$1	0		18[68]
F	(\d{4})(\d{7})	$1 $2	0$1	0		15[1279]
F	(\d{5})(\d{6})	$1 $2	0$1	0		15[03568]	15(?:[0568]|3[13])
F	(\d{3})(\d{8})	$1 $2	0$1	0		18
F	(\d{3})(\d{2})(\d{7,8})	$1 $2 $3	0$1	0		1(?:6[023]|7)
F	(\d{4})(\d{2})(\d{7})	$1 $2 $3	0$1	0		15[279]
F	(\d{3})(\d{2})(\d{8})	$1 $2 $3	0$1	0		15
I	(\d{2})(\d{3,13})	$1 $2	0$1	0		3[02]|40|[68]9
I	(\d{3})(\d{3,12})	$1 $2	0$1	0		2(?:0[1-389]|1[124]|2[18]|3[14])|3(?:[35-9][15]|4[015])|906|(?:2[4-9]|4[2-9]|[579][1-9]|[68][1-8])1	2(?:0[1-389]|12[0-8])|3(?:[35-9][15]|4[015])|906|2(?:[13][14]|2[18])|(?:2[4-9]|4[2-9]|[579][1-9]|[68][1-8])1
I	(\d{4})(\d{2,11})	$1 $2	0$1	0		[24-6]|3(?:[3569][02-46-9]|4[2-4679]|7[2-467]|8[2-46-8])|70[2-8]|8(?:0[2-9]|[1-8])|90[7-9]|[79][1-9]	[24-6]|3(?:3(?:0[1-467]|2[127-9]|3[124578]|7[1257-9]|8[1256]|9[145])|4(?:2[135]|4[13578]|9[1346])|5(?:0[14]|2[1-3589]|6[1-4]|7[13468]|8[13568])|6(?:2[1-489]|3[124-6]|6[13]|7[12579]|8[1-356]|9[135])|7(?:2[1-7]|4[145]|6[1-5]|7[1-4])|8(?:21|3[1468]|6|7[1467]|8[136])|9(?:0[12479]|2[1358]|4[134679]|6[1-9]|7[136]|8[147]|9[1468]))|70[2-8]|8(?:0[2-9]|[1-8])|90[7-9]|[79][1-9]|3[68]4[1347]|3(?:47|60)[1356]|3(?:3[46]|46|5[49])[1246]|3[4579]3[1357]
I	(\d{3})(\d{4})	$1 $2	0$1	0		138
I	(\d{5})(\d{2,10})	$1 $2	0$1	0		3
I	(\d{3})(\d{5,11})	$1 $2	0$1	0		181
I	(\d{3})(\d)(\d{4,10})	$1 $2 $3	0$1	0		1(?:3|80)|9
I	(\d{3})(\d{7,8})	$1 $2	0$1	0		1[67]
I	(\d{3})(\d{7,12})	$1 $2	0$1	0		8
I	(\d{5})(\d{6})	$1 $2	0$1	0		185	1850	18500
I	(\d{3})(\d{4})(\d{4})	$1 $2 $3	0$1	0		7
I	(\d{4})(\d{7})	$1 $2	0$1	0		18[68]
I	(\d{4})(\d{7})	$1 $2	0$1	0		15[1279]
I	(\d{5})(\d{6})	$1 $2	0$1	0		15[03568]	15(?:[0568]|3[13])
I	(\d{3})(\d{8})	$1 $2	0$1	0		18
I	(\d{3})(\d{2})(\d{7,8})	$1 $2 $3	0$1	0		1(?:6[023]|7)
I	(\d{4})(\d{2})(\d{7})	$1 $2 $3	0$1	0		15[279]
I	(\d{3})(\d{2})(\d{8})	$1 $2 $3	0$1	0		15
R	DJ	253	00						0	0		0
D	general	1	(?:2\d|77)\d{6}	8		
D	fixed	1	2(?:1[2-5]|7[45])\d{5}			21360003
D	mobile	1	77\d{6}			77831001
D	toll	0		-1		
D	premium	0		-1		
D	shared	0		-1		
D	personal	0		-1		
D	voip	0		-1		
D	pager	0		-1		
D	uan	0		-1		
D	voicemail	0		-1		
D	nointl	0		-1		
F	(\d{2})(\d{2})(\d{2})(\d{2})	$1 $2 $3 $4		0		[27]
R	DK	45	00						0	0		1
D	general	1	[2-9]\d{7}	8		
D	fixed	1	(?:2(?:[0-59][1-9]|[6-8]\d)|3(?:[0-3][1-9]|4[13]|5[1-58]|6[1347-9]|7\d|8[1-8]|9[1-79])|4(?:[0-25][1-9]|[34][2-9]|6[13-579]|7[13579]|8[1-47]|9[127])|5(?:[0-36][1-9]|4[146-9]|5[3-57-9]|7[568]|8[1-358]|9[1-69])|6(?:[0135][1-9]|2[1-68]|4[2-8]|6[1689]|[78]\d|9[15689])|7(?:[0-69][1-9]|7[3-9]|8[147])|8(?:[16-9][1-9]|2[1-58])|9(?:[1-47-9][1-9]|6\d))\d{5}			32123456
D	mobile	1	(?:2[6-8]|37|6[78]|96)\d{6}|(?:2[0-59]|3[0-689]|[457]\d|6[0-69]|8[126-9]|9[1-47-9])[1-9]\d{5}			34412345
D	toll	1	80\d{6}			80123456
D	premium	1	90\d{6}			90123456
D	shared	0		-1		
D	personal	0		-1		
D	voip	0		-1		
D	pager	0		-1		
D	uan	0		-1		
D	voicemail	0		-1		
D	nointl	0		-1		
F	(\d{2})(\d{2})(\d{2})(\d{2})	$1 $2 $3 $4		0		[2-9]
R	DM	1	011		1		([2-7]\d{6})$|1	767$1	0	0	767	1
D	general	1	(?:[58]\d\d|767|900)\d{7}	10	7	
D	fixed	1	767(?:2(?:55|66)|4(?:2[01]|4[0-25-9])|50[0-4])\d{4}		7	7674201234
D	mobile	1	767(?:2(?:[2-4689]5|7[5-7])|31[5-7]|61[1-8]|70[1-6])\d{4}		7	7672251234
D	toll	1	8(?:00|33|44|55|66|77|88)[2-9]\d{6}			8002123456
D	premium	1	900[2-9]\d{6}			9002123456
D	shared	0		-1		
D	personal	1	52(?:3(?:[2-46-9][02-9]\d|5(?:[02-46-9]\d|5[0-46-9]))|4(?:[2-478][02-9]\d|5(?:[034]\d|2[024-9]|5[0-46-9])|6(?:0[1-9]|[2-9]\d)|9(?:[05-9]\d|2[0-5]|49)))\d{4}|52[34][2-9]1[02-9]\d{4}|5(?:00|2[125-9]|3[23]|44|66|77|88)[2-9]\d{6}			5002345678
D	voip	0		-1		
D	pager	0		-1		
D	uan	0		-1		
D	voicemail	0		-1		
D	nointl	0		-1		
R	DO	1	011		1		1		0	0	8001|8[024]9	1
D	general	1	(?:[58]\d\d|900)\d{7}	10	7	
D	fixed	1	8(?:[04]9[2-9]\d\d|29(?:2(?:[0-59]\d|6[04-9]|7[0-27]|8[0237-9])|3(?:[0-35-9]\d|4[7-9])|[45]\d\d|6(?:[0-27-9]\d|[3-5][1-9]|6[0135-8])|7(?:0[013-9]|[1-37]\d|4[1-35689]|5[1-4689]|6[1-57-9]|8[1-79]|9[1-8])|8(?:0[146-9]|1[0-48]|[248]\d|3[1-79]|5[01589]|6[013-68]|7[124-8]|9[0-8])|9(?:[0-24]\d|3[02-46-9]|5[0-79]|60|7[0169]|8[57-9]|9[02-9])))\d{4}		7	8092345678
D	mobile	1	8[024]9[2-9]\d{6}		7	8092345678
D	toll	1	800(?:14|[2-9]\d)\d{5}|8[024]9[01]\d{6}|8(?:33|44|55|66|77|88)[2-9]\d{6}			8002123456
D	premium	1	900[2-9]\d{6}			9002123456
D	shared	0		-1		
D	personal	1	52(?:3(?:[2-46-9][02-9]\d|5(?:[02-46-9]\d|5[0-46-9]))|4(?:[2-478][02-9]\d|5(?:[034]\d|2[024-9]|5[0-46-9])|6(?:0[1-9]|[2-9]\d)|9(?:[05-9]\d|2[0-5]|49)))\d{4}|52[34][2-9]1[02-9]\d{4}|5(?:00|2[125-9]|3[23]|44|66|77|88)[2-9]\d{6}			5002345678
D	voip	0		-1		
D	pager	0		-1		
D	uan	0		-1		
D	voicemail	0		-1		
D	nointl	0		-1		
R	DZ	213	00		0		0		0	0		0
D	general	1	(?:[1-4]|[5-79]\d|80)\d{7}	8,9		
D	fixed	1	9619\d{5}|(?:[1-3]\d|4[013-689])\d{6}			12345678
D	mobile	1	5(?:4[0-29]|6[0-4])\d{6}|(?:55|6\d|7[7-9])\d{7}	9		551234567
D	toll	1	800\d{6}	9		800123456
D	premium	1	80[3-689]1\d{5}	9		808123456
D	shared	1	80[12]1\d{5}	9		801123456
D	personal	0		-1		
D	voip	1	98[23]\d{6}	9		983123456
D	pager	0		-1		
D	uan	0		-1		
D	voicemail	0		-1		
D	nointl	0		-1		
F	(\d{2})(\d{2})(\d{2})(\d{2})	$1 $2 $3 $4	0$1	0		[1-4]
F	(\d{2})(\d{3})(\d{2})(\d{2})	$1 $2 $3 $4	0$1	0		9
F	(\d{3})(\d{2})(\d{2})(\d{2})	$1 $2 $3 $4	0$1	0		[5-8]
R	EC	593	00		0		0		0	0		1
D	general	1	1\d{9,10}|(?:[2-7]|9\d)\d{7}	8,9,10,11	7	
D	fixed	1	[2-7][2-7]\d{6}	8	7	22123456
D	mobile	1	964[0-2]\d{5}|9(?:39|[57][89]|6[0-36-9]|[89]\d)\d{6}	9		991234567
D	toll	1	1800\d{7}|1[78]00\d{6}	10,11		18001234567
D	premium	0		-1		
D	shared	0		-1		
D	personal	0		-1		
D	voip	1	[2-7]890\d{4}	8		28901234
D	pager	0		-1		
D	uan	0		-1		
D	voicemail	0		-1		
D	nointl	0		-1		
F	(\d{3})(\d{4})	$1-$2		0		[2-7]
F	(\d)(\d{3})(\d{4})	$1 $2-$3	(0$1)	0		[2-7]
F	(\d{2})(\d{3})(\d{4})	$1 $2 $3	0$1	0		9
F	(\d{4})(\d{3})(\d{3,4})	$1 $2 $3		0		1
I	(\d)(\d{3})(\d{4})	$1-$2-$3		0		[2-7]
I	(\d{2})(\d{3})(\d{4})	$1 $2 $3	0$1	0		9
I	(\d{4})(\d{3})(\d{3,4})	$1 $2 $3		0		1
R	EE	372	00						0	0		1
D	general	1	8\d{9}|[4578]\d{7}|(?:[3-8]\d|90)\d{5}	7,8,10		
D	fixed	1	(?:3[23589]|4[3-8]|6\d|7[1-9]|88)\d{5}	7		3212345
D	mobile	1	(?:5\d{5}|8(?:1(?:0(?:0(?:00|[178]\d)|[3-9]\d\d)|(?:1(?:0[2-6]|1\d)|[2-79]\d\d)\d)|2(?:0(?:0(?:00|4\d)|(?:19|[2-7]\d)\d)|(?:(?:[124-69]\d|3[5-9])\d|7(?:[0-79]\d|8[013-9])|8(?:[2-6]\d|7[01]))\d)|[349]\d{4}))\d\d|5(?:(?:[02]\d|5[0-478])\d|1(?:[0-8]\d|95)|6(?:4[0-4]|5[1-589]))\d{3}	7,8		51234567
D	toll	1	800(?:(?:0\d\d|1)\d|[2-9])\d{3}			80012345
D	premium	1	(?:40\d\d|900)\d{4}	7,8		9001234
D	shared	0		-1		
D	personal	1	70[0-2]\d{5}	8		70012345
D	voip	0		-1		
D	pager	0		-1		
D	uan	0		-1		
D	voicemail	0		-1		
D	nointl	1	800[2-9]\d{3}	7		
F	(\d{3})(\d{4})	$1 $2		0		[369]|4[3-8]|5(?:[0-2]|5[0-478]|6[45])|7[1-9]|88	[369]|4[3-8]|5(?:[02]|1(?:[0-8]|95)|5[0-478]|6(?:4[0-4]|5[1-589]))|7[1-9]|88
F	(\d{4})(\d{3,4})	$1 $2		0		[45]|8(?:00|[1-49])	[45]|8(?:00[1-9]|[1-49])
F	(\d{2})(\d{2})(\d{4})	$1 $2 $3		0		7
F	(\d{4})(\d{3})(\d{3})	$1 $2 $3		0		8"
end Verif.Data
