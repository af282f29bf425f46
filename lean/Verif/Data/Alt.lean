import Verif.Data.Decode
/-! Generated from `/repo/data/alternateformats_metadata.xml.gz` (metadata v9.0.37); part 1 of 1.  See `Verif/Data/Decode.lean` for the line format. -/
namespace Verif.Data
shipped alt r"R		971							0	0		0
F	(\d{2})(\d{4})(\d{3})	$1 $2 $3		0		5
R		54							0	0		0
F	(\d{4})(\d{3})(\d{3})	$1 $2 $3		0		2(?:[23]02|6(?:[25]|4[6-8])|9(?:[02356]|4[02568]|72|8[23]))|3(?:3[28]|4(?:[04-79]|3[5-8]|8[2379])|5(?:[2467]|3[237]|8[2-5])|7[1-578]|8(?:[2469]|3[2578]|5[4-8]|7[36-8]|8[5-8]))|2(?:2[24-9]|3[1-59]|47)
F	(\d)(\d{4})(\d{3})(\d{3})	$1 $2 $3 $4		0		9(?:2(?:2[024-9]|3[0-59]|47|6[245]|9[02-8])|3(?:3[28]|4[03-9]|5[2-46-8]|7[1-578]|8[2-9]))
R		43							0	0		0
F	(\d)(\d{3})(\d{2})(\d{2,3})	$1 $2 $3 $4		0		1
F	(\d)(\d{4,6})	$1 $2		0		5[079]
F	(\d)(\d{7,8})	$1 $2		0		5[079]
F	(\d{2})(\d{2})(\d{2})(\d{2,3})	$1 $2 $3 $4		0		5[079]
F	(\d{2})(\d{6,7})	$1 $2		0		5[079]
F	(\d)(\d{9,12})	$1 $2		0		5[079]
F	(\d{2})(\d{2})(\d{2})(\d{4})	$1 $2 $3 $4		0		5[079]
F	(\d{2})(\d{2})(\d{2})(\d{2})(\d{2,4})	$1 $2 $3 $4 $5		0		5[079]
F	(\d{2})(\d{5})(\d{4,6})	$1 $2 $3		0		5[079]
F	(\d{3})(\d{3})(\d{3})(\d{3,4})	$1 $2 $3 $4		0		(?:31|4)6|51|6(?:485|5[0-3579]|[6-9])|7(?:20|32|8)|[89]
F	(\d{3})(\d{3})(\d{2})(\d{2,3})	$1 $2 $3 $4		0		(?:31|4)6|51|6(?:485|5[0-3579]|[6-9])|7(?:20|32|8)|[89]
F	(\d{3})(\d{2})(\d{2})(\d{2,3})	$1 $2 $3 $4		0		(?:31|4)6|51|6(?:485|5[0-3579]|[6-9])|7(?:20|32|8)|[89]
F	(\d{4})(\d{3})(\d{3,4})	$1 $2 $3		0		2|3(?:1[1-578]|[3-68])|4[2378]|5[2-6]|6(?:[12]|4(?:[135-7]|8[34])|5[468])|7(?:2[1-8]|35|[4-79])
R		61							0	0		0
F	(\d{4})(\d{2})(\d{2})(\d{2})	$1 $2 $3 $4		0	
F	(\d{4})(\d{6})	$1 $2		0	
F	(\d)(\d{3})(\d{3})(\d{3})	$1 $2 $3 $4		0	
F	(\d)(\d{8})	$1 $2		0		[2378]
R		359							0	0		0
F	(\d)(\d{3})(\d{2})(\d{2})	$1 $2 $3 $4		0		2
F	(\d{3})(\d{3})(\d{3})	$1 $2 $3		0		8|98
F	(\d{3})(\d{2})(\d{2})(\d{2})	$1 $2 $3 $4		0		8|98
R		55							0	0		0
F	(\d{2})(\d{8})	$1 $2		0		[12467]|3[1-578]|5[13-5]|[89][1-9]
R		506							0	0		0
F	(\d{4})(\d{2})(\d{2})	$1 $2 $3		0	
R		49							0	0		0
F	(\d{2})(\d{3})(\d{3,4})	$1 $2 $3		0		3[02]|40|[68]9
F	(\d{2})(\d{2})(\d{2})(\d{2})(\d{2})	$1 $2 $3 $4 $5		0		2(?:0[4-6]|1(?:[035-9]|29)|3[0235-9]|7[2-7])|3(?:0|3(?:0[1-467]|2[127-9]|3[124578]|7[1257-9]|8[1256]|9[145])|4(?:2[135]|4[13578]|9[1346])|5(?:0[14]|2[1-3589]|6[1-4]|7[13468]|8[13568])|6(?:2[1-489]|3[124-6]|6[13]|7[12579]|8[1-356]|9[135])|7(?:2[1-7]|4[145]|6[1-5]|7[1-4])|8(?:21|6|7[1467]|8[136])|9(?:0[12479]|2[1358]|4[134679]|6[1-9]|7[136]|8[147]))|4[01]|50|6[09]|7(?:0|8[02-5]|9[03-7])|8(?:3[02-46-9]|5[03-9]|6[2-8]|8[024-6]|9)|9(?:0[7-9]|7[02-467])|(?:45|84)[02-6]|3(?:83|99)[1468]|3[68]4[1347]|3(?:47|60)[1356]|(?:66|71|80)[2-9]|3(?:3[46]|46|5[49])[1246]|(?:22|47|81)[02-79]|3[4579]3[1357]|(?:28|49|5[79]|7[27]|9[589])[02-7]|(?:2[569]|4[2-48]|5[124-6]|6[1-358]|73|82|9[1-4])[02-9]|(?:24|[49]6|5[38]|6[47]|7[4-6]|87)[02-8]
F	(\d{2})(\d{4})(\d{3,4})	$1 $2 $3		0		3[02]|40|[68]9
F	(\d{2})(\d{3})(\d{2})(\d{1,2})	$1 $2 $3 $4		0		3[02]|40|[68]9
F	(\d{2})(\d{3})(\d{3})(\d{2,3})	$1 $2 $3 $4		0		3[02]|40|[68]9
F	(\d{2})(\d{2})(\d{2})(\d)(\d{2})(\d{2})	$1 $2 $3 $4 $5 $6		0		3[02]|40|[68]9
F	(\d{3})(\d{3})(\d{2,4})	$1 $2 $3		0		2(?:0[1-389]|12[0-8])|3(?:[35-9][15]|4[015])|906|2(?:[13][14]|2[18])|(?:2[4-9]|4[2-9]|[579][1-9]|[68][1-8])1
F	(\d{3})(\d{4})(\d{3,4})	$1 $2 $3		0		2(?:0[1-389]|12[0-8])|3(?:[35-9][15]|4[015])|906|2(?:[13][14]|2[18])|(?:2[4-9]|4[2-9]|[579][1-9]|[68][1-8])1
F	(\d{3})(\d{2})(\d{2})(\d{1,2})	$1 $2 $3 $4		0		2(?:0[1-389]|12[0-8])|3(?:[35-9][15]|4[015])|906|2(?:[13][14]|2[18])|(?:2[4-9]|4[2-9]|[579][1-9]|[68][1-8])1
F	(\d{3})(\d{2})(\d{2})(\d{2})(\d{2})	$1 $2 $3 $4 $5		0		2(?:0[1-389]|12[0-8])|3(?:[35-9][15]|4[015])|906|2(?:[13][14]|2[18])|(?:2[4-9]|4[2-9]|[579][1-9]|[68][1-8])1
F	(\d{3})(\d{3})(\d{2})(\d{2})	$1 $2 $3 $4		0		2(?:0[1-389]|12[0-8])|3(?:[35-9][15]|4[015])|906|2(?:[13][14]|2[18])|(?:2[4-9]|4[2-9]|[579][1-9]|[68][1-8])1
F	(\d{3})(\d{3})(\d{2})(\d{2})(\d)	$1 $2 $3 $4 $5		0		2(?:0[1-389]|12[0-8])|3(?:[35-9][15]|4[015])|906|2(?:[13][14]|2[18])|(?:2[4-9]|4[2-9]|[579][1-9]|[68][1-8])1
F	(\d{3})(\d{3})(\d{3})(\d{2,3})	$1 $2 $3 $4		0		2(?:0[1-389]|12[0-8])|3(?:[35-9][15]|4[015])|906|2(?:[13][14]|2[18])|(?:2[4-9]|4[2-9]|[579][1-9]|[68][1-8])1
F	(\d{4})(\d{3})(\d{1,4})	$1 $2 $3		0		2(?:0[4-6]|1(?:[035-9]|29)|3[0235-9]|7[2-7])|3(?:3(?:0[1-467]|2[127-9]|3[124578]|7[1257-9]|8[1256]|9[145])|4(?:2[135]|4[13578]|9[1346])|5(?:0[14]|2[1-3589]|6[1-4]|7[13468]|8[13568])|6(?:2[1-489]|3[124-6]|6[13]|7[12579]|8[1-356]|9[135])|7(?:2[1-7]|4[145]|6[1-5]|7[1-4])|8(?:21|6|7[1467]|8[136])|9(?:0[12479]|2[1358]|4[134679]|6[1-9]|7[136]|8[147]))|41|[56]0|7(?:0[2-8]|8[02-5]|9[03-7])|8(?:3[02-46-9]|5[03-9]|6[2-8]|8[024-6])|9(?:0[7-9]|7[02-467])|(?:45|84)[02-6]|3(?:83|99)[1468]|3[68]4[1347]|3(?:47|60)[1356]|(?:66|71|80)[2-9]|3(?:3[46]|46|5[49])[1246]|(?:22|47|81)[02-79]|3[4579]3[1357]|(?:28|49|5[79]|7[27]|9[589])[02-7]|(?:2[569]|4[2-48]|5[124-6]|6[1-358]|73|82|9[1-4])[02-9]|(?:24|[49]6|5[38]|6[47]|7[4-6]|87)[02-8]
F	(\d{2})(\d{2})(\d{2})(\d{2})	$1 $2 $3 $4		0		2(?:0[4-6]|1(?:[035-9]|29)|3[0235-9]|7[2-7])|3(?:3(?:0[1-467]|2[127-9]|3[124578]|7[1257-9]|8[1256]|9[145])|4(?:2[135]|4[13578]|9[1346])|5(?:0[14]|2[1-3589]|6[1-4]|7[13468]|8[13568])|6(?:2[1-489]|3[124-6]|6[13]|7[12579]|8[1-356]|9[135])|7(?:2[1-7]|4[145]|6[1-5]|7[1-4])|8(?:21|6|7[1467]|8[136])|9(?:0[12479]|2[1358]|4[134679]|6[1-9]|7[136]|8[147]))|41|66[2-9]|7(?:1[2-9]|8[02-5]|9[03-7])|8(?:3[02-46-9]|5[03-9]|6[2-8]|8[024-6])|9(?:0[7-9]|7[02-467])|[5-8]0|(?:45|84)[02-6]|3(?:83|99)[1468]|3[68]4[1347]|3(?:47|60)[1356]|3(?:3[46]|46|5[49])[1246]|(?:22|47|81)[02-79]|3[4579]3[1357]|(?:28|49|5[79]|7[27]|9[589])[02-7]|(?:2[569]|4[2-48]|5[124-6]|6[1-358]|73|82|9[1-4])[02-9]|(?:24|[49]6|5[38]|6[47]|7[4-6]|87)[02-8]
F	(\d{2})(\d{2})(\d)(\d{2})(\d{2})	$1 $2 $3 $4 $5		0		2(?:0[4-6]|1(?:[035-9]|29)|3[0235-9]|7[2-7])|3(?:3(?:0[1-467]|2[127-9]|3[124578]|7[1257-9]|8[1256]|9[145])|4(?:2[135]|4[13578]|9[1346])|5(?:0[14]|2[1-3589]|6[1-4]|7[13468]|8[13568])|6(?:2[1-489]|3[124-6]|6[13]|7[12579]|8[1-356]|9[135])|7(?:2[1-7]|4[145]|6[1-5]|7[1-4])|8(?:21|6|7[1467]|8[136])|9(?:0[12479]|2[1358]|4[134679]|6[1-9]|7[136]|8[147]))|41|66[2-9]|7(?:1[2-9]|8[02-5]|9[03-7])|8(?:3[02-46-9]|5[03-9]|6[2-8]|8[024-6])|9(?:0[7-9]|7[02-467])|[5-8]0|(?:45|84)[02-6]|3(?:83|99)[1468]|3[68]4[1347]|3(?:47|60)[1356]|3(?:3[46]|46|5[49])[1246]|(?:22|47|81)[02-79]|3[4579]3[1357]|(?:28|49|5[79]|7[27]|9[589])[02-7]|(?:2[569]|4[2-48]|5[124-6]|6[1-358]|73|82|9[1-4])[02-9]|(?:24|[49]6|5[38]|6[47]|7[4-6]|87)[02-8]
F	(\d{2})(\d{2})(\d)(\d{2})(\d{2})(\d{2})	$1 $2 $3 $4 $5 $6		0		2(?:0[4-6]|1(?:[035-9]|29)|3[0235-9]|7[2-7])|3(?:3(?:0[1-467]|2[127-9]|3[124578]|7[1257-9]|8[1256]|9[145])|4(?:2[135]|4[13578]|9[1346])|5(?:0[14]|2[1-3589]|6[1-4]|7[13468]|8[13568])|6(?:2[1-489]|3[124-6]|6[13]|7[12579]|8[1-356]|9[135])|7(?:2[1-7]|4[145]|6[1-5]|7[1-4])|8(?:21|6|7[1467]|8[136])|9(?:0[12479]|2[1358]|4[134679]|6[1-9]|7[136]|8[147]))|41|[56]0|7(?:0[2-8]|8[02-5]|9[03-7])|8(?:3[02-46-9]|5[03-9]|6[2-8]|8[024-6])|9(?:0[7-9]|7[02-467])|(?:45|84)[02-6]|3(?:83|99)[1468]|3[68]4[1347]|3(?:47|60)[1356]|(?:66|71|80)[2-9]|3(?:3[46]|46|5[49])[1246]|(?:22|47|81)[02-79]|3[4579]3[1357]|(?:28|49|5[79]|7[27]|9[589])[02-7]|(?:2[569]|4[2-48]|5[124-6]|6[1-358]|73|82|9[1-4])[02-9]|(?:24|[49]6|5[38]|6[47]|7[4-6]|87)[02-8]
F	(\d{2})(\d{2})(\d{2})(\d{2})(\d{2})(\d{2})	$1 $2 $3 $4 $5 $6		0		2(?:0[4-6]|1(?:[035-9]|29)|3[0235-9]|7[2-7])|3(?:3(?:0[1-467]|2[127-9]|3[124578]|7[1257-9]|8[1256]|9[145])|4(?:2[135]|4[13578]|9[1346])|5(?:0[14]|2[1-3589]|6[1-4]|7[13468]|8[13568])|6(?:2[1-489]|3[124-6]|6[13]|7[12579]|8[1-356]|9[135])|7(?:2[1-7]|4[145]|6[1-5]|7[1-4])|8(?:21|6|7[1467]|8[136])|9(?:0[12479]|2[1358]|4[134679]|6[1-9]|7[136]|8[147]))|41|7(?:8[02-5]|9[03-7])|8(?:3[02-46-9]|5[03-9]|6[2-8]|8[024-6])|9(?:0[7-9]|7[02-467])|[5-7]0|(?:45|84)[02-6]|3(?:83|99)[1468]|3[68]4[1347]|3(?:47|60)[1356]|(?:66|71|80)[2-9]|3(?:3[46]|46|5[49])[1246]|(?:22|47|81)[02-79]|3[4579]3[1357]|(?:28|49|5[79]|7[27]|9[589])[02-7]|(?:2[569]|4[2-48]|5[124-6]|6[1-358]|73|82|9[1-4])[02-9]|(?:24|[49]6|5[38]|6[47]|7[4-6]|87)[02-8]
F	(\d{4})(\d{4})(\d{1,4})	$1 $2 $3		0		2(?:0[4-6]|1(?:[035-9]|29)|3[0235-9]|7[2-7])|3(?:3(?:0[1-467]|2[127-9]|3[124578]|7[1257-9]|8[1256]|9[145])|4(?:2[135]|4[13578]|9[1346])|5(?:0[14]|2[1-3589]|6[1-4]|7[13468]|8[13568])|6(?:2[1-489]|3[124-6]|6[13]|7[12579]|8[1-356]|9[135])|7(?:2[1-7]|4[145]|6[1-5]|7[1-4])|8(?:21|6|7[1467]|8[136])|9(?:0[12479]|2[1358]|4[134679]|6[1-9]|7[136]|8[147]))|41|[56]0|7(?:0[2-8]|8[02-5]|9[03-7])|8(?:3[02-46-9]|5[03-9]|6[2-8]|8[024-6])|9(?:0[7-9]|7[02-467])|(?:45|84)[02-6]|3(?:83|99)[1468]|3[68]4[1347]|3(?:47|60)[1356]|(?:66|71|80)[2-9]|3(?:3[46]|46|5[49])[1246]|(?:22|47|81)[02-79]|3[4579]3[1357]|(?:28|49|5[79]|7[27]|9[589])[02-7]|(?:2[569]|4[2-48]|5[124-6]|6[1-358]|73|82|9[1-4])[02-9]|(?:24|[49]6|5[38]|6[47]|7[4-6]|87)[02-8]
F	(\d{4})(\d{3})(\d{3})(\d{3})	$1 $2 $3 $4		0		2(?:0[4-6]|1(?:[035-9]|29)|3[0235-9]|7[2-7])|3(?:3(?:0[1-467]|2[127-9]|3[124578]|7[1257-9]|8[1256]|9[145])|4(?:2[135]|4[13578]|9[1346])|5(?:0[14]|2[1-3589]|6[1-4]|7[13468]|8[13568])|6(?:2[1-489]|3[124-6]|6[13]|7[12579]|8[1-356]|9[135])|7(?:2[1-7]|4[145]|6[1-5]|7[1-4])|8(?:21|3[1468]|6|7[1467]|8[136])|9(?:0[12479]|2[1358]|4[134679]|6[1-9]|7[136]|8[147]|9[1468]))|4(?:1|5[02-6]|9[2-6])|7(?:8[02-5]|9[03-7])|8(?:3[02-46-9]|4[02-6]|5[03-9]|6[2-8]|8[024-6])|9(?:0[7-9]|7[02-467])|[5-7]0|3[68]4[1347]|3(?:47|60)[1356]|(?:66|71|80)[2-9]|3(?:3[46]|46|5[49])[1246]|(?:22|47|81)[02-79]|3[4579]3[1357]|(?:28|5[79]|7[27]|9[589])[02-7]|(?:2[569]|4[2-48]|5[124-6]|6[1-358]|73|82|9[1-4])[02-9]|(?:24|[49]6|5[38]|6[47]|7[4-6]|87)[02-8]
F	(\d{4})(\d{2})(\d{3})(\d{2})	$1 $2 $3 $4		0		15[1279]|2(?:0[4-6]|1(?:[035-9]|29)|3[0235-9]|7[2-7])|3(?:3(?:0[1-467]|2[127-9]|3[124578]|7[1257-9]|8[1256]|9[145])|4(?:2[135]|4[13578]|9[1346])|5(?:0[14]|2[1-3589]|6[1-4]|7[13468]|8[13568])|6(?:2[1-489]|3[124-6]|6[13]|7[12579]|8[1-356]|9[135])|7(?:2[1-7]|4[145]|6[1-5]|7[1-4])|8(?:21|6|7[1467]|8[136])|9(?:0[12479]|2[1358]|4[134679]|6[1-9]|7[136]|8[147]))|41|[56]0|7(?:0[2-8]|8[02-5]|9[03-7])|8(?:3[02-46-9]|5[03-9]|6[2-8]|8[024-6])|9(?:0[7-9]|7[02-467])|(?:45|84)[02-6]|3(?:83|99)[1468]|3[68]4[1347]|3(?:47|60)[1356]|(?:66|71|80)[2-9]|3(?:3[46]|46|5[49])[1246]|(?:22|47|81)[02-79]|3[4579]3[1357]|(?:28|49|5[79]|7[27]|9[589])[02-7]|(?:2[569]|4[2-48]|5[124-6]|6[1-358]|73|82|9[1-4])[02-9]|(?:24|[49]6|5[38]|6[47]|7[4-6]|87)[02-8]
F	(\d{4})(\d{3})(\d{2})(\d{2})	$1 $2 $3 $4		0		2(?:0[4-6]|1(?:[035-9]|29)|3[0235-9]|7[2-7])|3(?:3(?:0[1-467]|2[127-9]|3[124578]|7[1257-9]|8[1256]|9[145])|4(?:2[135]|4[13578]|9[1346])|5(?:0[14]|2[1-3589]|6[1-4]|7[13468]|8[13568])|6(?:2[1-489]|3[124-6]|6[13]|7[12579]|8[1-356]|9[135])|7(?:2[1-7]|4[145]|6[1-5]|7[1-4])|8(?:21|6|7[1467]|8[136])|9(?:0[12479]|2[1358]|4[134679]|6[1-9]|7[136]|8[147]))|41|[56]0|7(?:0[2-8]|8[02-5]|9[03-7])|8(?:3[02-46-9]|5[03-9]|6[2-8]|8[024-6])|9(?:0[7-9]|7[02-467])|(?:45|84)[02-6]|3(?:83|99)[1468]|3[68]4[1347]|3(?:47|60)[1356]|(?:66|71|80)[2-9]|3(?:3[46]|46|5[49])[1246]|(?:22|47|81)[02-79]|3[4579]3[1357]|(?:28|49|5[79]|7[27]|9[589])[02-7]|(?:2[569]|4[2-48]|5[124-6]|6[1-358]|73|82|9[1-4])[02-9]|(?:24|[49]6|5[38]|6[47]|7[4-6]|87)[02-8]
F	(\d{4})(\d{2})(\d{2})(\d{2,3})	$1 $2 $3 $4		0		2(?:0[4-6]|1(?:[035-9]|29)|3[0235-9]|7[2-7])|3(?:3(?:0[1-467]|2[127-9]|3[124578]|7[1257-9]|8[1256]|9[145])|4(?:2[135]|4[13578]|9[1346])|5(?:0[14]|2[1-3589]|6[1-4]|7[13468]|8[13568])|6(?:2[1-489]|3[124-6]|6[13]|7[12579]|8[1-356]|9[135])|7(?:2[1-7]|4[145]|6[1-5]|7[1-4])|8(?:21|6|7[1467]|8[136])|9(?:0[12479]|2[1358]|4[134679]|6[1-9]|7[136]|8[147]))|41|[56]0|7(?:0[2-8]|8[02-5]|9[03-7])|8(?:3[02-46-9]|5[03-9]|6[2-8]|8[024-6])|9(?:0[7-9]|7[02-467])|(?:45|84)[02-6]|3(?:83|99)[1468]|3[68]4[1347]|3(?:47|60)[1356]|(?:66|71|80)[2-9]|3(?:3[46]|46|5[49])[1246]|(?:22|47|81)[02-79]|3[4579]3[1357]|(?:28|49|5[79]|7[27]|9[589])[02-7]|(?:2[569]|4[2-48]|5[124-6]|6[1-358]|73|82|9[1-4])[02-9]|(?:24|[49]6|5[38]|6[47]|7[4-6]|87)[02-8]
F	(\d{5})(\d{3})(\d{3,4})	$1 $2 $3		0		3(?:3(?:0[589]|2[03]|3[369]|4[357]|6[0357]|7[0346]|8[347]|9[236-8])|4(?:4[2469]|6[03579]|9[0257])|5(?:0[235]|2[046]|[49][357]|6[09]|7[2579]|8[2479])|6(?:2[05]|3[37]|6[02459]|7[03468]|8[47]|9[246])|7(?:2[09]|4[236]|60|75)|8(?:2[0239]|3[023579]|7[23589]|8[2457])|9(?:0[03568]|3[24689]|4[0258]|60|7[2457]|8[23568]|9[23579]))|3[68]4[2568]|3(?:47|60)[2478]|3[49]2[02469]|3[457]3[2468]
F	(\d{5})(\d{4})(\d{3,4})	$1 $2 $3		0		3(?:3(?:0[589]|2[03]|3[369]|4[357]|6[0357]|7[0346]|8[347]|9[236-8])|4(?:4[2469]|6[03579]|9[0257])|5(?:0[235]|2[046]|[49][357]|6[09]|7[2579]|8[2479])|6(?:2[05]|3[37]|6[02459]|7[03468]|8[47]|9[246])|7(?:2[09]|4[236]|60|75)|8(?:2[0239]|3[023579]|7[23589]|8[2457])|9(?:0[03568]|3[24689]|4[0258]|60|7[2457]|8[23568]|9[23579]))|3[68]4[2568]|3(?:47|60)[2478]|3[49]2[02469]|3[457]3[2468]
F	(\d{5})(\d{3})(\d{3})(\d{3})	$1 $2 $3 $4		0		3(?:3(?:0[589]|2[03]|3[369]|4[357]|6[0357]|7[0346]|8[347]|9[236-8])|4(?:4[2469]|6[03579]|9[0257])|5(?:0[235]|2[046]|[49][357]|6[09]|7[2579]|8[2479])|6(?:2[05]|3[37]|6[02459]|7[03468]|8[47]|9[246])|7(?:2[09]|4[236]|60|75)|8(?:2[0239]|3[023579]|7[23589]|8[2457])|9(?:0[03568]|3[24689]|4[0258]|60|7[2457]|8[23568]|9[23579]))|3[68]4[2568]|3(?:47|60)[2478]|3[49]2[02469]|3[457]3[2468]
F	(\d{4})(\d{3})(\d{4})	$1 $2 $3		0		15[1279]
F	(\d{4})(\d{4})(\d{3})	$1 $2 $3		0		15[1279]
F	(\d{3})(\d{8})	$1 $2		0		15[1279]
F	(\d{3})(\d{3})(\d{3})(\d{2})	$1 $2 $3 $4		0		15[1279]
F	(\d{3})(\d{3})(\d{3})(\d)	$1 $2 $3 $4		0		1[67]|800
F	(\d{3})(\d{2,3})(\d{3})(\d{2})	$1 $2 $3 $4		0		1[67]|800
F	(\d{3})(\d{4})(\d{3})	$1 $2 $3		0		800
F	(\d{3})(\d{3})(\d{2})(\d{2,3})	$1 $2 $3 $4		0		800
F	(\d{3})(\d{6})(\d{2})(\d{1,4})	$1 $2 $3 $4		0		800
F	(\d{3})(\d)(\d{3})(\d{3,4})	$1 $2 $3 $4		0		900
F	(\d{3})(\d)(\d{4})(\d{3,4})	$1 $2 $3 $4		0		900
F	(\d{3})(\d)(\d{3})(\d{3})	$1 $2 $3 $4		0		180
F	(\d{4})(\d{4,6})	$1 $2		0		180
F	(\d{4})(\d{2})(\d{2})(\d{2})	$1 $2 $3 $4		0		180
F	(\d{4})(\d{4,10})	$1 $2		0		900
R		372							0	0		0
F	(\d)(\d{3})(\d{3})	$1 $2 $3		0		6
F	(\d{2})(\d{2})(\d{3})	$1 $2 $3		0		[4-79]
F	(\d{2})(\d{3})(\d{2})	$1 $2 $3		0		[4-79]
R		34							0	0		0
F	(\d{3})(\d{3})(\d{3})	$1 $2 $3		0		[4-7]|80[367]|90[12589]|[89][1-8]
F	(\d{2})(\d{3})(\d{2})(\d{2})	$1 $2 $3 $4		0		9(?:0[12589]|[1-8])
R		358							0	0		0
F	(\d)(\d{3})(\d{3,4})	$1 $2 $3		0		[2568][1-8]|3(?:0[1-9]|[1-9])|9
F	(\d{2})(\d{3})(\d{3,4})	$1 $2 $3		0		[12]0[1-9]|4|1[3-9]|29|50|7[15]
F	(\d)(\d{4})(\d{3})	$1 $2 $3		0		[2568][1-8]|3(?:0[1-9]|[1-9])|9
R		679							0	0		0
F	(\d{2})(\d{3})(\d{2})	$1 $2 $3		0		7
R		44							0	0		0
F	(\d{3})(\d{3})(\d{4})	$1 $2 $3		0		20
F	(\d{3})(\d{4})(\d{3})	$1 $2 $3		0		1(?:1|[2-69]1)|20|[389]|7(?:[1-57-9]|624)
F	(\d{2})(\d{4})(\d{2})(\d{2})	$1 $2 $3 $4		0		20
F	(\d{4})(\d{3})(\d{3})	$1 $2 $3		0		1(?:[2-69][02-9]|[78])|3|7(?:[1-57-9]|624)
F	(\d{3})(\d{3})(\d{3})	$1 $2 $3		0		8
R		995							0	0		0
F	(\d{3})(\d{2})(\d{2})(\d{2})	$1 $2 $3 $4		0		32
F	(\d{2})(\d)(\d{2})(\d{2})(\d{2})	$1 $2 $3 $4 $5		0		32
F	(\d{3})(\d{6})	$1 $2		0		[348]
F	(\d{3})(\d{3})(\d{3})	$1 $2 $3		0		[348]
F	(\d{2})(\d{2})(\d{3})(\d{2})	$1 $2 $3 $4		0		32
F	(\d{5})(\d{2})(\d{2})	$1 $2 $3		0		32
R		350							0	0		0
F	(\d{4})(\d{4})	$1 $2		0		2
R		30							0	0		0
F	(\d{3})(\d{3})(\d{4})	$1 $2 $3		0		21
R		385							0	0		0
F	(\d)(\d{3})(\d{4})	$1 $2 $3		0		1
F	(\d)(\d{3})(\d{2})(\d{2})	$1 $2 $3 $4		0		1
F	(\d{2})(\d{2})(\d{4})	$1 $2 $3		0		[2-69]|7[67]
F	(\d{2})(\d{3})(\d{4})	$1 $2 $3		0		6
R		36							0	0		0
F	(\d)(\d{4})(\d{3})	$1 $2 $3		0		1
F	(\d{2})(\d{4})(\d{3})	$1 $2 $3		0	
R		62							0	0		0
F	(\d{2})(\d{3,4})(\d{4})	$1 $2 $3		0		2[124]|[36]1
F	(\d{2})(\d{3})(\d{5})	$1 $2 $3		0		2[124]|[36]1
F	(\d{2})(\d{2})(\d{3})(\d{3})	$1 $2 $3 $4		0		2[124]|[36]1
F	(\d{3})(\d{3})(\d{4})	$1 $2 $3		0		8[1-35-9]
F	(\d{3})(\d{3})(\d{5,6})	$1 $2 $3		0		8
F	(\d{3})(\d{3})(\d{2})(\d{3})	$1 $2 $3 $4		0		8
R		972							0	0		0
F	(\d)(\d{3})(\d{2})(\d{2})	$1 $2 $3 $4		0		[2-489]
R		91							0	0		0
F	(\d{2})(\d{2})(\d{6})	$1 $2 $3		0		160[01]|6(?:[09]|2(?:[02-7]|8[0-35-9])|5[02-689]|6[024-9]|7[0235-9]|8[124-9])|7(?:[0247]|3[025-9]|6(?:[02-9]|1[0-257-9])|8[0-79]|9(?:[089]|31))|8(?:0(?:[01589]|6[67])|1[0-57-9]|2[235-9]|3[03-57-9]|[45]|6[02457-9]|7[1-69]|8(?:[0-25-9]|4[0147-9])|9(?:[02-9]|1[0-27-9]))|9|[67]1[013-9]|(?:63|75)[02-46-9]|6(?:29|35)[0-46-9]|(?:64|(?:79|80)7)[02-9]|(?:6(?:[2-4]1|5[17]|6[13]|7[14]|80)|7(?:12|88))[0189]|(?:612|7(?:3[134]|5[15])|8(?:16|2[014]|3[126]|6[136]|7[078]|83))[017-9]
F	(\d{2})(\d{2})(\d{2})(\d{2})(\d{2})	$1 $2 $3 $4 $5		0		160[01]|6(?:[09]|2(?:[02-7]|8[0-35-9])|5[02-689]|6[024-9]|7[0235-9]|8[124-9])|7(?:[0247]|3[025-9]|6(?:[02-9]|1[0-257-9])|8[0-79]|9(?:[089]|31))|8(?:0(?:[01589]|6[67])|1[0-57-9]|2[235-9]|3[03-57-9]|[45]|6[02457-9]|7[1-69]|8(?:[0-25-9]|4[0147-9])|9(?:[02-9]|1[0-27-9]))|9|[67]1[013-9]|(?:63|75)[02-46-9]|6(?:29|35)[0-46-9]|(?:64|(?:79|80)7)[02-9]|(?:6(?:[2-4]1|5[17]|6[13]|7[14]|80)|7(?:12|88))[0189]|(?:612|7(?:3[134]|5[15])|8(?:16|2[014]|3[126]|6[136]|7[078]|83))[017-9]
F	(\d{2})(\d{4})(\d{4})	$1 $2 $3		0		79(?:[089]|31|7[02-9])|80(?:[01589]|6[67]|7[02-9])
F	(\d{3})(\d{3})(\d{4})	$1 $2 $3		0		7(?:1[013-9]|[247]|3[025-9]|5[02-46-9]|6(?:[02-9]|1[0-257-9])|8[0-79])|8(?:1[0-57-9]|2[235-9]|3[03-57-9]|[45]|6[02457-9]|7[1-69]|8(?:[0-25-9]|4[0147-9])|9(?:[02-9]|1[0-27-9]))|7(?:12|88)[0189]|(?:7(?:3[134]|5[15])|8(?:16|2[014]|3[126]|6[136]|7[078]|83))[017-9]
F	(\d{4})(\d{3})(\d{3})	$1 $2 $3		0		7(?:1(?:[013-9]|2[0189])|[247]|3[025-9]|5[02-46-9]|6(?:[02-9]|1[0-257-9]))|80(?:[01589]|6[67]|7[02-9])|7(?:3[134]|5[15])[017-9]
R		39							0	0		0
F	(\d{4})(\d{2})(\d{2})(\d{2})	$1 $2 $3 $4		0		0(?:[13-579][2-46-8]|8[236-8])
F	(\d{4})(\d{2})(\d{3})	$1 $2 $3		0		0(?:[13-579][2-46-8]|8[236-8])
R		81							0	0		0
F	(\d{3})(\d{2})(\d{4})	$1 $2 $3		0		(?:12|57|99)0
F	(\d{3})(\d{2})(\d{2})(\d{2})	$1 $2 $3 $4		0		(?:12|57|99)0
F	(\d{3})(\d{4})(\d{2})	$1 $2 $3		0		(?:12|57|99)0
R		855							0	0		0
F	(\d{2})(\d{2})(\d{2})(\d{2,3})	$1 $2 $3 $4		0	
R		856							0	0		0
F	(\d{3})(\d{3})(\d{4})	$1 $2 $3		0	
F	(\d{2})(\d{4})(\d{4})	$1 $2 $3		0	
F	(\d{2})(\d{8})	$1 $2		0	
R		94							0	0		0
F	(\d{2})(\d)(\d{6})	$1 $2 $3		0		[1-689]
F	(\d{3})(\d{6})	$1 $2		0		[1-689]
F	(\d{3})(\d{3})(\d{3})	$1 $2 $3		0		7
R		352							0	0		0
F	(\d{2})(\d{3})(\d{3})	$1 $2 $3		0		20
R		373							0	0		0
F	(\d{2})(\d{2})(\d{2})(\d{2})	$1 $2 $3 $4		0		22|[367]
F	(\d{2})(\d{3})(\d{3})	$1 $2 $3		0		[67]
R		95							0	0		0
F	(\d)(\d{4})(\d{5})	$1 $2 $3		0		92
R		52							0	0		0
F	(\d{2})(\d{2})(\d{2})(\d{2})(\d{2})	$1 $2 $3 $4 $5		0		33|5[56]|81
F	(\d{3})(\d{3})(\d{2})(\d{2})	$1 $2 $3 $4		0		[24679]|3[0-2457-9]|5[089]|8[02-46-9]
R		505							0	0		0
F	(\d)(\d{3})(\d{4})	$1 $2 $3		0		2
R		31							0	0		0
F	(\d{2})(\d{4})(\d{3})	$1 $2 $3		0		1[035]|2[0346]|3[03568]|4[0356]|5[0358]|7|8[4578]|91
F	(\d{3})(\d{2})(\d{2})(\d{2})	$1 $2 $3 $4		0		1[16-8]|2[259]|3[124]|4[17-9]|5[124679]
R		64							0	0		0
F	(\d)(\d{4})(\d{3})	$1 $2 $3		0		[3467]|9[2-9]
F	(\d{3})(\d{3})(\d{2})	$1 $2 $3		0		[89]0
R		675							0	0		0
F	(\d{3})(\d{2})(\d{3})	$1 $2 $3		0		7
R		351							0	0		0
F	(\d{3})(\d{3})(\d{3})	$1 $2 $3		0		2[12]
F	(\d{2})(\d{3})(\d{2})(\d{2})	$1 $2 $3 $4		0		2[12]|9
F	(\d{2})(\d{3})(\d{4})	$1 $2 $3		0		9
R		595							0	0		0
F	(\d{2})(\d{2})(\d{3})	$1 $2 $3		0		3[289]|4|61|7[1-3]|8[1-36]
F	(\d{2})(\d{6,7})	$1 $2		0		2[14-68]|3[26-9]|4[1246-8]|6(?:1|75)|7[1-35]|8[1-36]
F	(\d{3})(\d{6})	$1 $2		0		2[279]|3[13-5]|4[359]|5[1-5]|6(?:[34]|7[1-46-8])|7[46-8]|85
R		381							0	0		0
F	(\d{2})(\d{3})(\d{3})	$1 $2 $3		0		[16]|2[0-24-7]|3[0-8]|(?:2[389]|39)[2-9]
F	(\d{2})(\d{2})(\d{2})(\d{3})	$1 $2 $3 $4		0		1|2[0-24-7]|3[0-8]|(?:2[389]|39)[2-9]
F	(\d{2})(\d{3})(\d{2})(\d{2})	$1 $2 $3 $4		0		6
R		7							0	0		0
F	(\d{4})(\d{3})(\d{3})	$1 $2 $3		0		[3489]|7(?:1(?:[0-356]2|4[29]|7|8[27])|2(?:1[23]|[2-9]2))
F	(\d{5})(\d{5})	$1 $2		0		[3489]|72(?:6|7[457])|7(?:12|2[49])[35]|7(?:1[13-58]|2[1-38])[3-5]|7(?:1[06]|25)[3-6]
F	(\d{3})(\d{3})(\d{2})(\d{2})	$1 $2 $3 $4		0		7(?:1|2(?:[1-689]|7[2457]))
F	(\d{3})(\d{2})(\d{2})(\d{3})	$1 $2 $3 $4		0		[3489]|7(?:[04-9]|1(?:04|[236]3|4[3-5]|5[34])|2(?:13|34|7[39]))
F	(\d{3})(\d)(\d{2})(\d{2})(\d{2})	$1 $2 $3 $4 $5		0		[3489]|7(?:[04-9]|1(?:04|[236]3|4[3-5]|5[34])|2(?:13|34|7[39]))
F	(\d{4})(\d{2})(\d{2})(\d{2})	$1 $2 $3 $4		0		[3489]
R		66							0	0		0
F	(\d{4})(\d{4})	$1 $2		0		2
R		676							0	0		0
F	(\d{2})(\d{5})	$1 $2		0		[5-9]
R		90							0	0		0
F	(\d{3})(\d{3})(\d{4})	$1 $2 $3		0		[2-4]|5(?:[02-9]|1[06])
F	(\d{3})(\d{3})(\d{2})(\d{2})	$1 $2 $3 $4		0		512|[89]
R		255							0	0		0
F	(\d{2})(\d{3})(\d{4})	$1 $2 $3		0		[67]
F	(\d{2})(\d{4})(\d{3})	$1 $2 $3		0		[67]
R		380							0	0		0
F	(\d{2})(\d{3})(\d{2})(\d{2})	$1 $2 $3 $4		0		[38]9|4[45][0-5]|5(?:0|6(?:3[14-7]|7))|6(?:[12][018]|[36-8])|7|9[1-9]|(?:48|57)[0137-9]
F	(\d{2})(\d{2})(\d{3})(\d{2})	$1 $2 $3 $4		0		[38]9|4[45][0-5]|5(?:0|6(?:3[14-7]|7))|6(?:[12][018]|[36-8])|7|9[1-9]|(?:48|57)[0137-9]
R		58							0	0		0
F	(\d{3})(\d{3})(\d{4})	$1 $2 $3		0	
R		84							0	0		0
F	(\d{3})(\d{3})(\d{3})	$1 $2 $3		0		1[26]|6
F	(\d{2})(\d{2})(\d{3})(\d{3})	$1 $2 $3 $4		0		2[48]
F	(\d{4})(\d{3})(\d{3})	$1 $2 $3		0		1
R		27							0	0		0
F	(\d{3})(\d{3})(\d{3})	$1 $2 $3		0		86[1-9]"
end Verif.Data
