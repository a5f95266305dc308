import Verif.Model.TableRules

/-!
# `jaskowiec_sukumar_tet_data.py`, in units of `10^-25`

Generated by tools/gen_tables.py.
-/

namespace Modepy.Table
noncomputable section

/-- `tet_data[0]` (jaskowiec_sukumar_tet_data.py 32-36). -/
def jsTet_0 : TableRule :=
  ⟨1,
   [
    [2500000000000000000000000],
    [2500000000000000000000000],
    [2500000000000000000000000]],
   [10000000000000000000000000]⟩

/-- `tet_data[1]` (jaskowiec_sukumar_tet_data.py 37-60). -/
def jsTet_1 : TableRule :=
  ⟨2,
   [
    [1381966011250105000000000, 5854101966249684000000000, 1381966011250105000000000, 1381966011250105000000000],
    [1381966011250105000000000, 1381966011250105000000000, 5854101966249684000000000, 1381966011250105000000000],
    [1381966011250105000000000, 1381966011250105000000000, 1381966011250105000000000, 5854101966249684000000000]],
   [2500000000000000000000000, 2500000000000000000000000, 2500000000000000000000000, 2500000000000000000000000]⟩

/-- `tet_data[2]` (jaskowiec_sukumar_tet_data.py 61-105). -/
def jsTet_2 : TableRule :=
  ⟨3,
   [
    [3286811466653490000000000, 139565600039530000000000, 3286811466653490000000000, 3286811466653490000000000,
     1119207275092916000000000, 6642378174721254000000000, 1119207275092916000000000, 1119207275092916000000000],
    [3286811466653490000000000, 3286811466653490000000000, 139565600039530000000000, 3286811466653490000000000,
     1119207275092916000000000, 1119207275092916000000000, 6642378174721254000000000, 1119207275092916000000000],
    [3286811466653490000000000, 3286811466653490000000000, 3286811466653490000000000, 139565600039530000000000,
     1119207275092916000000000, 1119207275092916000000000, 1119207275092916000000000, 6642378174721254000000000]],
   [1274913115575064000000000, 1274913115575064000000000, 1274913115575064000000000, 1274913115575064000000000,
    1225086884424936000000000, 1225086884424936000000000, 1225086884424936000000000, 1225086884424936000000000]⟩

/-- `tet_data[3]` (jaskowiec_sukumar_tet_data.py 106-174). -/
def jsTet_3 : TableRule :=
  ⟨4,
   [
    [3095821653179519000000000, 712535040461443000000000, 3095821653179519000000000, 3095821653179519000000000,
     834427723039776000000000, 7496716830880673000000000, 834427723039776000000000, 834427723039776000000000,
     772209540700587000000000, 4227790459299413000000000, 772209540700587000000000, 4227790459299413000000000,
     772209540700587000000000, 4227790459299413000000000],
    [3095821653179519000000000, 3095821653179519000000000, 712535040461443000000000, 3095821653179519000000000,
     834427723039776000000000, 834427723039776000000000, 7496716830880673000000000, 834427723039776000000000,
     4227790459299413000000000, 772209540700587000000000, 772209540700587000000000, 4227790459299413000000000,
     4227790459299413000000000, 772209540700587000000000],
    [3095821653179519000000000, 3095821653179519000000000, 3095821653179519000000000, 712535040461443000000000,
     834427723039776000000000, 834427723039776000000000, 834427723039776000000000, 7496716830880673000000000,
     4227790459299413000000000, 4227790459299413000000000, 4227790459299413000000000, 772209540700587000000000,
     772209540700587000000000, 772209540700587000000000]],
   [654091636344522000000000, 654091636344522000000000, 654091636344522000000000, 654091636344522000000000,
    593552642310048000000000, 593552642310048000000000, 593552642310048000000000, 593552642310048000000000,
    834903814230287000000000, 834903814230287000000000, 834903814230287000000000, 834903814230287000000000,
    834903814230287000000000, 834903814230287000000000]⟩

/-- `tet_data[4]` (jaskowiec_sukumar_tet_data.py 175-243). -/
def jsTet_4 : TableRule :=
  ⟨5,
   [
    [3108859192633006000000000, 673422422100982000000000, 3108859192633006000000000, 3108859192633006000000000,
     927352503108912000000000, 7217942490673264000000000, 927352503108912000000000, 927352503108912000000000,
     455037041256496000000000, 4544962958743504000000000, 455037041256496000000000, 4544962958743504000000000,
     455037041256496000000000, 4544962958743504000000000],
    [3108859192633006000000000, 3108859192633006000000000, 673422422100982000000000, 3108859192633006000000000,
     927352503108912000000000, 927352503108912000000000, 7217942490673264000000000, 927352503108912000000000,
     4544962958743504000000000, 455037041256496000000000, 455037041256496000000000, 4544962958743504000000000,
     4544962958743504000000000, 455037041256496000000000],
    [3108859192633006000000000, 3108859192633006000000000, 3108859192633006000000000, 673422422100982000000000,
     927352503108912000000000, 927352503108912000000000, 927352503108912000000000, 7217942490673264000000000,
     4544962958743504000000000, 4544962958743504000000000, 4544962958743504000000000, 455037041256496000000000,
     455037041256496000000000, 455037041256496000000000]],
   [1126879257180158000000000, 1126879257180158000000000, 1126879257180158000000000, 1126879257180158000000000,
    734930431163620000000000, 734930431163620000000000, 734930431163620000000000, 734930431163620000000000,
    425460207770815000000000, 425460207770815000000000, 425460207770815000000000, 425460207770815000000000,
    425460207770815000000000, 425460207770815000000000]⟩

/-- `tet_data[5]` (jaskowiec_sukumar_tet_data.py 244-352). -/
def jsTet_5 : TableRule :=
  ⟨6,
   [
    [406739585346114000000000, 8779781243961660000000000, 406739585346114000000000, 406739585346114000000000,
     3223378901422755000000000, 329863295731735000000000, 3223378901422755000000000, 3223378901422755000000000,
     2146028712591520000000000, 3561913862225439000000000, 2146028712591520000000000, 2146028712591520000000000,
     6030056647916492000000000, 636610018750175000000000, 636610018750175000000000, 2696723314583158000000000,
     2696723314583158000000000, 2696723314583158000000000, 636610018750175000000000, 6030056647916492000000000,
     636610018750175000000000, 636610018750175000000000, 6030056647916492000000000, 636610018750175000000000],
    [406739585346114000000000, 406739585346114000000000, 8779781243961660000000000, 406739585346114000000000,
     3223378901422755000000000, 3223378901422755000000000, 329863295731735000000000, 3223378901422755000000000,
     2146028712591520000000000, 2146028712591520000000000, 3561913862225439000000000, 2146028712591520000000000,
     636610018750175000000000, 6030056647916492000000000, 636610018750175000000000, 636610018750175000000000,
     6030056647916492000000000, 636610018750175000000000, 2696723314583158000000000, 2696723314583158000000000,
     2696723314583158000000000, 636610018750175000000000, 636610018750175000000000, 6030056647916492000000000],
    [406739585346114000000000, 406739585346114000000000, 406739585346114000000000, 8779781243961660000000000,
     3223378901422755000000000, 3223378901422755000000000, 3223378901422755000000000, 329863295731735000000000,
     2146028712591520000000000, 2146028712591520000000000, 2146028712591520000000000, 3561913862225439000000000,
     636610018750175000000000, 636610018750175000000000, 6030056647916492000000000, 636610018750175000000000,
     636610018750175000000000, 6030056647916492000000000, 636610018750175000000000, 636610018750175000000000,
     6030056647916492000000000, 2696723314583158000000000, 2696723314583158000000000, 2696723314583158000000000]],
   [100772110553206000000000, 100772110553206000000000, 100772110553206000000000, 100772110553206000000000,
    553571815436547000000000, 553571815436547000000000, 553571815436547000000000, 553571815436547000000000,
    399227502581675000000000, 399227502581675000000000, 399227502581675000000000, 399227502581675000000000,
    482142857142857000000000, 482142857142857000000000, 482142857142857000000000, 482142857142857000000000,
    482142857142857000000000, 482142857142857000000000, 482142857142857000000000, 482142857142857000000000,
    482142857142857000000000, 482142857142857000000000, 482142857142857000000000, 482142857142857000000000]⟩

/-- `tet_data[6]` (jaskowiec_sukumar_tet_data.py 353-505). -/
def jsTet_6 : TableRule :=
  ⟨7,
   [
    [2500000000000000000000000, 3157011497782028000000000, 528965506653916000000000, 3157011497782028000000000,
     3157011497782028000000000, 504898225983964000000000, 4495101774016036000000000, 504898225983964000000000,
     4495101774016036000000000, 504898225983964000000000, 4495101774016036000000000, 8108302410985485000000000,
     212654725414832000000000, 212654725414832000000000, 1466388138184850000000000, 1466388138184850000000000,
     1466388138184850000000000, 212654725414832000000000, 8108302410985485000000000, 212654725414832000000000,
     212654725414832000000000, 8108302410985485000000000, 212654725414832000000000, 5751716375870001000000000,
     1888338310260010000000000, 1888338310260010000000000, 471607003609979000000000, 471607003609979000000000,
     471607003609979000000000, 1888338310260010000000000, 5751716375870001000000000, 1888338310260010000000000,
     1888338310260010000000000, 5751716375870001000000000, 1888338310260010000000000],
    [2500000000000000000000000, 3157011497782028000000000, 3157011497782028000000000, 528965506653916000000000,
     3157011497782028000000000, 4495101774016036000000000, 504898225983964000000000, 504898225983964000000000,
     4495101774016036000000000, 4495101774016036000000000, 504898225983964000000000, 212654725414832000000000,
     8108302410985485000000000, 212654725414832000000000, 212654725414832000000000, 8108302410985485000000000,
     212654725414832000000000, 1466388138184850000000000, 1466388138184850000000000, 1466388138184850000000000,
     212654725414832000000000, 212654725414832000000000, 8108302410985485000000000, 1888338310260010000000000,
     5751716375870001000000000, 1888338310260010000000000, 1888338310260010000000000, 5751716375870001000000000,
     1888338310260010000000000, 471607003609979000000000, 471607003609979000000000, 471607003609979000000000,
     1888338310260010000000000, 1888338310260010000000000, 5751716375870001000000000],
    [2500000000000000000000000, 3157011497782028000000000, 3157011497782028000000000, 3157011497782028000000000,
     528965506653916000000000, 4495101774016036000000000, 4495101774016036000000000, 4495101774016036000000000,
     504898225983964000000000, 504898225983964000000000, 504898225983964000000000, 212654725414832000000000,
     212654725414832000000000, 8108302410985485000000000, 212654725414832000000000, 212654725414832000000000,
     8108302410985485000000000, 212654725414832000000000, 212654725414832000000000, 8108302410985485000000000,
     1466388138184850000000000, 1466388138184850000000000, 1466388138184850000000000, 1888338310260010000000000,
     1888338310260010000000000, 5751716375870001000000000, 1888338310260010000000000, 1888338310260010000000000,
     5751716375870001000000000, 1888338310260010000000000, 1888338310260010000000000, 5751716375870001000000000,
     471607003609979000000000, 471607003609979000000000, 471607003609979000000000]],
   [954852894641308000000000, 423295812099670000000000, 423295812099670000000000, 423295812099670000000000,
    423295812099670000000000, 318969278328576000000000, 318969278328576000000000, 318969278328576000000000,
    318969278328576000000000, 318969278328576000000000, 318969278328576000000000, 81107708299033000000000,
    81107708299033000000000, 81107708299033000000000, 81107708299033000000000, 81107708299033000000000,
    81107708299033000000000, 81107708299033000000000, 81107708299033000000000, 81107708299033000000000,
    81107708299033000000000, 81107708299033000000000, 81107708299033000000000, 372071307283346000000000,
    372071307283346000000000, 372071307283346000000000, 372071307283346000000000, 372071307283346000000000,
    372071307283346000000000, 372071307283346000000000, 372071307283346000000000, 372071307283346000000000,
    372071307283346000000000, 372071307283346000000000, 372071307283346000000000]⟩

/-- `tet_data[7]` (jaskowiec_sukumar_tet_data.py 506-702). -/
def jsTet_7 : TableRule :=
  ⟨8,
   [
    [1868127582707210000000000, 4395617251878371000000000, 1868127582707210000000000, 1868127582707210000000000,
     1144624067612305000000000, 6566127797163085000000000, 1144624067612305000000000, 1144624067612305000000000,
     3138065922724016000000000, 585802231827951000000000, 3138065922724016000000000, 3138065922724016000000000,
     445773794488462000000000, 8662678616534613000000000, 445773794488462000000000, 445773794488462000000000,
     4345165094561576000000000, 654834905438424000000000, 4345165094561576000000000, 654834905438424000000000,
     4345165094561576000000000, 654834905438424000000000, 50733207504216000000000, 2038931746621103000000000,
     2038931746621103000000000, 5871403299253578000000000, 5871403299253578000000000, 5871403299253578000000000,
     2038931746621103000000000, 50733207504216000000000, 2038931746621103000000000, 2038931746621103000000000,
     50733207504216000000000, 2038931746621103000000000, 7146769263933049000000000, 212477796695717000000000,
     212477796695717000000000, 2428275142675518000000000, 2428275142675518000000000, 2428275142675518000000000,
     212477796695717000000000, 7146769263933049000000000, 212477796695717000000000, 212477796695717000000000,
     7146769263933049000000000, 212477796695717000000000],
    [1868127582707210000000000, 1868127582707210000000000, 4395617251878371000000000, 1868127582707210000000000,
     1144624067612305000000000, 1144624067612305000000000, 6566127797163085000000000, 1144624067612305000000000,
     3138065922724016000000000, 3138065922724016000000000, 585802231827951000000000, 3138065922724016000000000,
     445773794488462000000000, 445773794488462000000000, 8662678616534613000000000, 445773794488462000000000,
     654834905438424000000000, 4345165094561576000000000, 4345165094561576000000000, 654834905438424000000000,
     654834905438424000000000, 4345165094561576000000000, 2038931746621103000000000, 50733207504216000000000,
     2038931746621103000000000, 2038931746621103000000000, 50733207504216000000000, 2038931746621103000000000,
     5871403299253578000000000, 5871403299253578000000000, 5871403299253578000000000, 2038931746621103000000000,
     2038931746621103000000000, 50733207504216000000000, 212477796695717000000000, 7146769263933049000000000,
     212477796695717000000000, 212477796695717000000000, 7146769263933049000000000, 212477796695717000000000,
     2428275142675518000000000, 2428275142675518000000000, 2428275142675518000000000, 212477796695717000000000,
     212477796695717000000000, 7146769263933049000000000],
    [1868127582707210000000000, 1868127582707210000000000, 1868127582707210000000000, 4395617251878371000000000,
     1144624067612305000000000, 1144624067612305000000000, 1144624067612305000000000, 6566127797163085000000000,
     3138065922724016000000000, 3138065922724016000000000, 3138065922724016000000000, 585802231827951000000000,
     445773794488462000000000, 445773794488462000000000, 445773794488462000000000, 8662678616534613000000000,
     654834905438424000000000, 654834905438424000000000, 654834905438424000000000, 4345165094561576000000000,
     4345165094561576000000000, 4345165094561576000000000, 2038931746621103000000000, 2038931746621103000000000,
     50733207504216000000000, 2038931746621103000000000, 2038931746621103000000000, 50733207504216000000000,
     2038931746621103000000000, 2038931746621103000000000, 50733207504216000000000, 5871403299253578000000000,
     5871403299253578000000000, 5871403299253578000000000, 212477796695717000000000, 212477796695717000000000,
     7146769263933049000000000, 212477796695717000000000, 212477796695717000000000, 7146769263933049000000000,
     212477796695717000000000, 212477796695717000000000, 7146769263933049000000000, 2428275142675518000000000,
     2428275142675518000000000, 2428275142675518000000000]],
   [478129880343067000000000, 478129880343067000000000, 478129880343067000000000, 478129880343067000000000,
    297278540867942000000000, 297278540867942000000000, 297278540867942000000000, 297278540867942000000000,
    435273242189753000000000, 435273242189753000000000, 435273242189753000000000, 435273242189753000000000,
    86327360208150000000000, 86327360208150000000000, 86327360208150000000000, 86327360208150000000000,
    368905412698664000000000, 368905412698664000000000, 368905412698664000000000, 368905412698664000000000,
    368905412698664000000000, 368905412698664000000000, 144970267108595000000000, 144970267108595000000000,
    144970267108595000000000, 144970267108595000000000, 144970267108595000000000, 144970267108595000000000,
    144970267108595000000000, 144970267108595000000000, 144970267108595000000000, 144970267108595000000000,
    144970267108595000000000, 144970267108595000000000, 71574018672436000000000, 71574018672436000000000,
    71574018672436000000000, 71574018672436000000000, 71574018672436000000000, 71574018672436000000000,
    71574018672436000000000, 71574018672436000000000, 71574018672436000000000, 71574018672436000000000,
    71574018672436000000000, 71574018672436000000000]⟩

/-- `tet_data[8]` (jaskowiec_sukumar_tet_data.py 703-951). -/
def jsTet_8 : TableRule :=
  ⟨9,
   [
    [2500000000000000000000000, 1679066052367427800000000, 4962801842897716100000000, 1679066052367427800000000,
     1679066052367427800000000, 914362705140762540000000, 7256911884577712500000000, 914362705140762540000000,
     914362705140762540000000, 3218556648176532600000000, 344330055470402010000000, 3218556648176532600000000,
     3218556648176532600000000, 418376959003656030000000, 8744869122989031900000000, 418376959003656030000000,
     418376959003656030000000, 3932705614251536500000000, 1067294385748463600000000, 3932705614251536500000000,
     1067294385748463600000000, 3932705614251536500000000, 1067294385748463600000000, 7183930939814243700000000,
     339571681830888870000000, 339571681830888870000000, 2136925696523978300000000, 2136925696523978300000000,
     2136925696523978300000000, 339571681830888870000000, 7183930939814243700000000, 339571681830888870000000,
     339571681830888870000000, 7183930939814243700000000, 339571681830888870000000, 786836344766879280000000,
     4606581810547776300000000, 4606581810547776300000000, 34137568036933633, 34137568036933633, 34137568036933633,
     4606581810547776300000000, 786836344766879280000000, 4606581810547776300000000, 4606581810547776300000000,
     786836344766879280000000, 4606581810547776300000000, 5972107227618499400000000, 1843879435000151900000000,
     1843879435000151900000000, 340133902381196600000000, 340133902381196600000000, 340133902381196600000000,
     1843879435000151900000000, 5972107227618499400000000, 1843879435000151900000000, 1843879435000151900000000,
     5972107227618499400000000, 1843879435000151900000000],
    [2500000000000000000000000, 1679066052367427800000000, 1679066052367427800000000, 4962801842897716100000000,
     1679066052367427800000000, 914362705140762540000000, 914362705140762540000000, 7256911884577712500000000,
     914362705140762540000000, 3218556648176532600000000, 3218556648176532600000000, 344330055470402010000000,
     3218556648176532600000000, 418376959003656030000000, 418376959003656030000000, 8744869122989031900000000,
     418376959003656030000000, 1067294385748463600000000, 3932705614251536500000000, 3932705614251536500000000,
     1067294385748463600000000, 1067294385748463600000000, 3932705614251536500000000, 339571681830888870000000,
     7183930939814243700000000, 339571681830888870000000, 339571681830888870000000, 7183930939814243700000000,
     339571681830888870000000, 2136925696523978300000000, 2136925696523978300000000, 2136925696523978300000000,
     339571681830888870000000, 339571681830888870000000, 7183930939814243700000000, 4606581810547776300000000,
     786836344766879280000000, 4606581810547776300000000, 4606581810547776300000000, 786836344766879280000000,
     4606581810547776300000000, 34137568036933633, 34137568036933633, 34137568036933633, 4606581810547776300000000,
     4606581810547776300000000, 786836344766879280000000, 1843879435000151900000000, 5972107227618499400000000,
     1843879435000151900000000, 1843879435000151900000000, 5972107227618499400000000, 1843879435000151900000000,
     340133902381196600000000, 340133902381196600000000, 340133902381196600000000, 1843879435000151900000000,
     1843879435000151900000000, 5972107227618499400000000],
    [2500000000000000000000000, 1679066052367427800000000, 1679066052367427800000000, 1679066052367427800000000,
     4962801842897716100000000, 914362705140762540000000, 914362705140762540000000, 914362705140762540000000,
     7256911884577712500000000, 3218556648176532600000000, 3218556648176532600000000, 3218556648176532600000000,
     344330055470402010000000, 418376959003656030000000, 418376959003656030000000, 418376959003656030000000,
     8744869122989031900000000, 1067294385748463600000000, 1067294385748463600000000, 1067294385748463600000000,
     3932705614251536500000000, 3932705614251536500000000, 3932705614251536500000000, 339571681830888870000000,
     339571681830888870000000, 7183930939814243700000000, 339571681830888870000000, 339571681830888870000000,
     7183930939814243700000000, 339571681830888870000000, 339571681830888870000000, 7183930939814243700000000,
     2136925696523978300000000, 2136925696523978300000000, 2136925696523978300000000, 4606581810547776300000000,
     4606581810547776300000000, 786836344766879280000000, 4606581810547776300000000, 4606581810547776300000000,
     786836344766879280000000, 4606581810547776300000000, 4606581810547776300000000, 786836344766879280000000,
     34137568036933633, 34137568036933633, 34137568036933633, 1843879435000151900000000, 1843879435000151900000000,
     5972107227618499400000000, 1843879435000151900000000, 1843879435000151900000000, 5972107227618499400000000,
     1843879435000151900000000, 1843879435000151900000000, 5972107227618499400000000, 340133902381196600000000,
     340133902381196600000000, 340133902381196600000000]],
   [568666242535517000000000, 256942766895232000000000, 256942766895232000000000, 256942766895232000000000,
    256942766895232000000000, 22989233530284000000000, 22989233530284000000000, 22989233530284000000000,
    22989233530284000000000, 304560386675910000000000, 304560386675910000000000, 304560386675910000000000,
    304560386675910000000000, 71237223402389000000000, 71237223402389000000000, 71237223402389000000000,
    71237223402389000000000, 368436554809439000000000, 368436554809439000000000, 368436554809439000000000,
    368436554809439000000000, 368436554809439000000000, 368436554809439000000000, 103220567822098000000000,
    103220567822098000000000, 103220567822098000000000, 103220567822098000000000, 103220567822098000000000,
    103220567822098000000000, 103220567822098000000000, 103220567822098000000000, 103220567822098000000000,
    103220567822098000000000, 103220567822098000000000, 103220567822098000000000, 76348871539809000000000,
    76348871539809000000000, 76348871539809000000000, 76348871539809000000000, 76348871539809000000000,
    76348871539809000000000, 76348871539809000000000, 76348871539809000000000, 76348871539809000000000,
    76348871539809000000000, 76348871539809000000000, 76348871539809000000000, 203580226187476000000000,
    203580226187476000000000, 203580226187476000000000, 203580226187476000000000, 203580226187476000000000,
    203580226187476000000000, 203580226187476000000000, 203580226187476000000000, 203580226187476000000000,
    203580226187476000000000, 203580226187476000000000, 203580226187476000000000]⟩

/-- `tet_data[9]` (jaskowiec_sukumar_tet_data.py 952-1288). -/
def jsTet_9 : TableRule :=
  ⟨10,
   [
    [2500000000000000000000000, 725517574174378010000000, 7823447277476866000000000, 725517574174378010000000,
     725517574174378010000000, 3078959478669228700000000, 763121563992313210000000, 3078959478669228700000000,
     3078959478669228700000000, 4762808603927790600000000, 237191396072209300000000, 4762808603927790600000000,
     237191396072209300000000, 4762808603927790600000000, 237191396072209300000000, 965797730691072550000000,
     4034202269308927400000000, 965797730691072550000000, 4034202269308927400000000, 965797730691072550000000,
     4034202269308927400000000, 738541810184862040000000, 2017386068476798900000000, 2017386068476798900000000,
     5226686052861540000000000, 5226686052861540000000000, 5226686052861540000000000, 2017386068476798900000000,
     738541810184862040000000, 2017386068476798900000000, 2017386068476798900000000, 738541810184862040000000,
     2017386068476798900000000, 6875048558830395600000000, 1548397007438618000000000, 1548397007438618000000000,
     28157426292368397000000, 28157426292368397000000, 28157426292368397000000, 1548397007438618000000000,
     6875048558830395600000000, 1548397007438618000000000, 1548397007438618000000000, 6875048558830395600000000,
     1548397007438618000000000, 1741437164939321200000000, 4125991504993639100000000, 4125991504993639100000000,
     6579825073400680600000, 6579825073400680600000, 6579825073400680600000, 4125991504993639100000000,
     1741437164939321200000000, 4125991504993639100000000, 4125991504993639100000000, 1741437164939321200000000,
     4125991504993639100000000, 2657575065627199000000000, 388907275578065090000000, 388907275578065090000000,
     6564610383216671300000000, 6564610383216671300000000, 6564610383216671300000000, 388907275578065090000000,
     2657575065627199000000000, 388907275578065090000000, 388907275578065090000000, 2657575065627199000000000,
     388907275578065090000000, 932413490352584080000000, 56048479510213377000000, 56048479510213377000000,
     8955489550626989400000000, 8955489550626989400000000, 8955489550626989400000000, 56048479510213377000000,
     932413490352584080000000, 56048479510213377000000, 56048479510213377000000, 932413490352584080000000,
     56048479510213377000000],
    [2500000000000000000000000, 725517574174378010000000, 725517574174378010000000, 7823447277476866000000000,
     725517574174378010000000, 3078959478669228700000000, 3078959478669228700000000, 763121563992313210000000,
     3078959478669228700000000, 237191396072209300000000, 4762808603927790600000000, 4762808603927790600000000,
     237191396072209300000000, 237191396072209300000000, 4762808603927790600000000, 4034202269308927400000000,
     965797730691072550000000, 965797730691072550000000, 4034202269308927400000000, 4034202269308927400000000,
     965797730691072550000000, 2017386068476798900000000, 738541810184862040000000, 2017386068476798900000000,
     2017386068476798900000000, 738541810184862040000000, 2017386068476798900000000, 5226686052861540000000000,
     5226686052861540000000000, 5226686052861540000000000, 2017386068476798900000000, 2017386068476798900000000,
     738541810184862040000000, 1548397007438618000000000, 6875048558830395600000000, 1548397007438618000000000,
     1548397007438618000000000, 6875048558830395600000000, 1548397007438618000000000, 28157426292368397000000,
     28157426292368397000000, 28157426292368397000000, 1548397007438618000000000, 1548397007438618000000000,
     6875048558830395600000000, 4125991504993639100000000, 1741437164939321200000000, 4125991504993639100000000,
     4125991504993639100000000, 1741437164939321200000000, 4125991504993639100000000, 6579825073400680600000,
     6579825073400680600000, 6579825073400680600000, 4125991504993639100000000, 4125991504993639100000000,
     1741437164939321200000000, 388907275578065090000000, 2657575065627199000000000, 388907275578065090000000,
     388907275578065090000000, 2657575065627199000000000, 388907275578065090000000, 6564610383216671300000000,
     6564610383216671300000000, 6564610383216671300000000, 388907275578065090000000, 388907275578065090000000,
     2657575065627199000000000, 56048479510213377000000, 932413490352584080000000, 56048479510213377000000,
     56048479510213377000000, 932413490352584080000000, 56048479510213377000000, 8955489550626989400000000,
     8955489550626989400000000, 8955489550626989400000000, 56048479510213377000000, 56048479510213377000000,
     932413490352584080000000],
    [2500000000000000000000000, 725517574174378010000000, 725517574174378010000000, 725517574174378010000000,
     7823447277476866000000000, 3078959478669228700000000, 3078959478669228700000000, 3078959478669228700000000,
     763121563992313210000000, 237191396072209300000000, 237191396072209300000000, 237191396072209300000000,
     4762808603927790600000000, 4762808603927790600000000, 4762808603927790600000000, 4034202269308927400000000,
     4034202269308927400000000, 4034202269308927400000000, 965797730691072550000000, 965797730691072550000000,
     965797730691072550000000, 2017386068476798900000000, 2017386068476798900000000, 738541810184862040000000,
     2017386068476798900000000, 2017386068476798900000000, 738541810184862040000000, 2017386068476798900000000,
     2017386068476798900000000, 738541810184862040000000, 5226686052861540000000000, 5226686052861540000000000,
     5226686052861540000000000, 1548397007438618000000000, 1548397007438618000000000, 6875048558830395600000000,
     1548397007438618000000000, 1548397007438618000000000, 6875048558830395600000000, 1548397007438618000000000,
     1548397007438618000000000, 6875048558830395600000000, 28157426292368397000000, 28157426292368397000000,
     28157426292368397000000, 4125991504993639100000000, 4125991504993639100000000, 1741437164939321200000000,
     4125991504993639100000000, 4125991504993639100000000, 1741437164939321200000000, 4125991504993639100000000,
     4125991504993639100000000, 1741437164939321200000000, 6579825073400680600000, 6579825073400680600000,
     6579825073400680600000, 388907275578065090000000, 388907275578065090000000, 2657575065627199000000000,
     388907275578065090000000, 388907275578065090000000, 2657575065627199000000000, 388907275578065090000000,
     388907275578065090000000, 2657575065627199000000000, 6564610383216671300000000, 6564610383216671300000000,
     6564610383216671300000000, 56048479510213377000000, 56048479510213377000000, 932413490352584080000000,
     56048479510213377000000, 56048479510213377000000, 932413490352584080000000, 56048479510213377000000,
     56048479510213377000000, 932413490352584080000000, 8955489550626989400000000, 8955489550626989400000000,
     8955489550626989400000000]],
   [516508922560975000000000, 134679726716603000000000, 134679726716603000000000, 134679726716603000000000,
    134679726716603000000000, 264669192496895000000000, 264669192496895000000000, 264669192496895000000000,
    264669192496895000000000, 51070478281435000000000, 51070478281435000000000, 51070478281435000000000,
    51070478281435000000000, 51070478281435000000000, 51070478281435000000000, 236499961582456000000000,
    236499961582456000000000, 236499961582456000000000, 236499961582456000000000, 236499961582456000000000,
    236499961582456000000000, 253173666509682000000000, 253173666509682000000000, 253173666509682000000000,
    253173666509682000000000, 253173666509682000000000, 253173666509682000000000, 253173666509682000000000,
    253173666509682000000000, 253173666509682000000000, 253173666509682000000000, 253173666509682000000000,
    253173666509682000000000, 54162634074479000000000, 54162634074479000000000, 54162634074479000000000,
    54162634074479000000000, 54162634074479000000000, 54162634074479000000000, 54162634074479000000000,
    54162634074479000000000, 54162634074479000000000, 54162634074479000000000, 54162634074479000000000,
    54162634074479000000000, 81536590120542000000000, 81536590120542000000000, 81536590120542000000000,
    81536590120542000000000, 81536590120542000000000, 81536590120542000000000, 81536590120542000000000,
    81536590120542000000000, 81536590120542000000000, 81536590120542000000000, 81536590120542000000000,
    81536590120542000000000, 111259717596128000000000, 111259717596128000000000, 111259717596128000000000,
    111259717596128000000000, 111259717596128000000000, 111259717596128000000000, 111259717596128000000000,
    111259717596128000000000, 111259717596128000000000, 111259717596128000000000, 111259717596128000000000,
    111259717596128000000000, 13256788482642000000000, 13256788482642000000000, 13256788482642000000000,
    13256788482642000000000, 13256788482642000000000, 13256788482642000000000, 13256788482642000000000,
    13256788482642000000000, 13256788482642000000000, 13256788482642000000000, 13256788482642000000000,
    13256788482642000000000]⟩

/-- `tet_data[10]` (jaskowiec_sukumar_tet_data.py 1289-1741). -/
def jsTet_10 : TableRule :=
  ⟨11,
   [
    [2993130923993425000000000, 1020607228019725000000000, 2993130923993425000000000, 2993130923993425000000000,
     326328439651818000000000, 9021014681044546000000000, 326328439651818000000000, 326328439651818000000000,
     3257955845153108000000000, 1742044154846892000000000, 3257955845153108000000000, 1742044154846892000000000,
     3257955845153108000000000, 1742044154846892000000000, 987846241416251000000000, 4012153758583749000000000,
     987846241416251000000000, 4012153758583749000000000, 987846241416251000000000, 4012153758583749000000000,
     57019051227004000000000, 4942980948772996000000000, 57019051227004000000000, 4942980948772996000000000,
     57019051227004000000000, 4942980948772996000000000, 7273303463463835000000000, 1231206549747224000000000,
     1231206549747224000000000, 264283437041718000000000, 264283437041718000000000, 264283437041718000000000,
     1231206549747224000000000, 7273303463463835000000000, 1231206549747224000000000, 1231206549747224000000000,
     7273303463463835000000000, 1231206549747224000000000, 1702280734892642000000000, 130038704855902000000000,
     130038704855902000000000, 8037641855395553000000000, 8037641855395553000000000, 8037641855395553000000000,
     130038704855902000000000, 1702280734892642000000000, 130038704855902000000000, 130038704855902000000000,
     1702280734892642000000000, 130038704855902000000000, 6182598097891158000000000, 429354011719257000000000,
     429354011719257000000000, 2958693878670327000000000, 2958693878670327000000000, 2958693878670327000000000,
     429354011719257000000000, 6182598097891158000000000, 429354011719257000000000, 429354011719257000000000,
     6182598097891158000000000, 429354011719257000000000, 5399001168557016000000000, 1844240320470778000000000,
     1844240320470778000000000, 912518190501429000000000, 912518190501429000000000, 912518190501429000000000,
     1844240320470778000000000, 5399001168557016000000000, 1844240320470778000000000, 1844240320470778000000000,
     5399001168557016000000000, 1844240320470778000000000, 4554353196219595000000000, 2591694074642826000000000,
     2591694074642826000000000, 262258654494752000000000, 262258654494752000000000, 262258654494752000000000,
     2591694074642826000000000, 4554353196219595000000000, 2591694074642826000000000, 2591694074642826000000000,
     4554353196219595000000000, 2591694074642826000000000, 109775723659603000000000, 109775723659603000000000,
     5351420009314595000000000, 1124285605067612000000000, 5351420009314595000000000, 1124285605067612000000000,
     3414518661958190000000000, 3414518661958190000000000, 3414518661958190000000000, 3414518661958190000000000,
     3414518661958190000000000, 3414518661958190000000000, 5351420009314595000000000, 1124285605067612000000000,
     109775723659603000000000, 109775723659603000000000, 1124285605067612000000000, 5351420009314595000000000,
     5351420009314595000000000, 1124285605067612000000000, 109775723659603000000000, 109775723659603000000000,
     1124285605067612000000000, 5351420009314595000000000],
    [2993130923993425000000000, 2993130923993425000000000, 1020607228019725000000000, 2993130923993425000000000,
     326328439651818000000000, 326328439651818000000000, 9021014681044546000000000, 326328439651818000000000,
     1742044154846892000000000, 3257955845153108000000000, 3257955845153108000000000, 1742044154846892000000000,
     1742044154846892000000000, 3257955845153108000000000, 4012153758583749000000000, 987846241416251000000000,
     987846241416251000000000, 4012153758583749000000000, 4012153758583749000000000, 987846241416251000000000,
     4942980948772996000000000, 57019051227004000000000, 57019051227004000000000, 4942980948772996000000000,
     4942980948772996000000000, 57019051227004000000000, 1231206549747224000000000, 7273303463463835000000000,
     1231206549747224000000000, 1231206549747224000000000, 7273303463463835000000000, 1231206549747224000000000,
     264283437041718000000000, 264283437041718000000000, 264283437041718000000000, 1231206549747224000000000,
     1231206549747224000000000, 7273303463463835000000000, 130038704855902000000000, 1702280734892642000000000,
     130038704855902000000000, 130038704855902000000000, 1702280734892642000000000, 130038704855902000000000,
     8037641855395553000000000, 8037641855395553000000000, 8037641855395553000000000, 130038704855902000000000,
     130038704855902000000000, 1702280734892642000000000, 429354011719257000000000, 6182598097891158000000000,
     429354011719257000000000, 429354011719257000000000, 6182598097891158000000000, 429354011719257000000000,
     2958693878670327000000000, 2958693878670327000000000, 2958693878670327000000000, 429354011719257000000000,
     429354011719257000000000, 6182598097891158000000000, 1844240320470778000000000, 5399001168557016000000000,
     1844240320470778000000000, 1844240320470778000000000, 5399001168557016000000000, 1844240320470778000000000,
     912518190501429000000000, 912518190501429000000000, 912518190501429000000000, 1844240320470778000000000,
     1844240320470778000000000, 5399001168557016000000000, 2591694074642826000000000, 4554353196219595000000000,
     2591694074642826000000000, 2591694074642826000000000, 4554353196219595000000000, 2591694074642826000000000,
     262258654494752000000000, 262258654494752000000000, 262258654494752000000000, 2591694074642826000000000,
     2591694074642826000000000, 4554353196219595000000000, 5351420009314595000000000, 1124285605067612000000000,
     109775723659603000000000, 109775723659603000000000, 1124285605067612000000000, 5351420009314595000000000,
     5351420009314595000000000, 1124285605067612000000000, 109775723659603000000000, 109775723659603000000000,
     1124285605067612000000000, 5351420009314595000000000, 3414518661958190000000000, 3414518661958190000000000,
     3414518661958190000000000, 3414518661958190000000000, 3414518661958190000000000, 3414518661958190000000000,
     1124285605067612000000000, 5351420009314595000000000, 1124285605067612000000000, 5351420009314595000000000,
     109775723659603000000000, 109775723659603000000000],
    [2993130923993425000000000, 2993130923993425000000000, 2993130923993425000000000, 1020607228019725000000000,
     326328439651818000000000, 326328439651818000000000, 326328439651818000000000, 9021014681044546000000000,
     1742044154846892000000000, 1742044154846892000000000, 1742044154846892000000000, 3257955845153108000000000,
     3257955845153108000000000, 3257955845153108000000000, 4012153758583749000000000, 4012153758583749000000000,
     4012153758583749000000000, 987846241416251000000000, 987846241416251000000000, 987846241416251000000000,
     4942980948772996000000000, 4942980948772996000000000, 4942980948772996000000000, 57019051227004000000000,
     57019051227004000000000, 57019051227004000000000, 1231206549747224000000000, 1231206549747224000000000,
     7273303463463835000000000, 1231206549747224000000000, 1231206549747224000000000, 7273303463463835000000000,
     1231206549747224000000000, 1231206549747224000000000, 7273303463463835000000000, 264283437041718000000000,
     264283437041718000000000, 264283437041718000000000, 130038704855902000000000, 130038704855902000000000,
     1702280734892642000000000, 130038704855902000000000, 130038704855902000000000, 1702280734892642000000000,
     130038704855902000000000, 130038704855902000000000, 1702280734892642000000000, 8037641855395553000000000,
     8037641855395553000000000, 8037641855395553000000000, 429354011719257000000000, 429354011719257000000000,
     6182598097891158000000000, 429354011719257000000000, 429354011719257000000000, 6182598097891158000000000,
     429354011719257000000000, 429354011719257000000000, 6182598097891158000000000, 2958693878670327000000000,
     2958693878670327000000000, 2958693878670327000000000, 1844240320470778000000000, 1844240320470778000000000,
     5399001168557016000000000, 1844240320470778000000000, 1844240320470778000000000, 5399001168557016000000000,
     1844240320470778000000000, 1844240320470778000000000, 5399001168557016000000000, 912518190501429000000000,
     912518190501429000000000, 912518190501429000000000, 2591694074642826000000000, 2591694074642826000000000,
     4554353196219595000000000, 2591694074642826000000000, 2591694074642826000000000, 4554353196219595000000000,
     2591694074642826000000000, 2591694074642826000000000, 4554353196219595000000000, 262258654494752000000000,
     262258654494752000000000, 262258654494752000000000, 1124285605067612000000000, 5351420009314595000000000,
     1124285605067612000000000, 5351420009314595000000000, 109775723659603000000000, 109775723659603000000000,
     1124285605067612000000000, 5351420009314595000000000, 1124285605067612000000000, 5351420009314595000000000,
     109775723659603000000000, 109775723659603000000000, 1124285605067612000000000, 5351420009314595000000000,
     1124285605067612000000000, 5351420009314595000000000, 109775723659603000000000, 109775723659603000000000,
     3414518661958190000000000, 3414518661958190000000000, 3414518661958190000000000, 3414518661958190000000000,
     3414518661958190000000000, 3414518661958190000000000]],
   [146893435861307000000000, 146893435861307000000000, 146893435861307000000000, 146893435861307000000000,
    33808695306217000000000, 33808695306217000000000, 33808695306217000000000, 33808695306217000000000,
    167667686772256000000000, 167667686772256000000000, 167667686772256000000000, 167667686772256000000000,
    167667686772256000000000, 167667686772256000000000, 193236403477585000000000, 193236403477585000000000,
    193236403477585000000000, 193236403477585000000000, 193236403477585000000000, 193236403477585000000000,
    16532536103758000000000, 16532536103758000000000, 16532536103758000000000, 16532536103758000000000,
    16532536103758000000000, 16532536103758000000000, 97999712470329000000000, 97999712470329000000000,
    97999712470329000000000, 97999712470329000000000, 97999712470329000000000, 97999712470329000000000,
    97999712470329000000000, 97999712470329000000000, 97999712470329000000000, 97999712470329000000000,
    97999712470329000000000, 97999712470329000000000, 20362784913048000000000, 20362784913048000000000,
    20362784913048000000000, 20362784913048000000000, 20362784913048000000000, 20362784913048000000000,
    20362784913048000000000, 20362784913048000000000, 20362784913048000000000, 20362784913048000000000,
    20362784913048000000000, 20362784913048000000000, 82076137529167000000000, 82076137529167000000000,
    82076137529167000000000, 82076137529167000000000, 82076137529167000000000, 82076137529167000000000,
    82076137529167000000000, 82076137529167000000000, 82076137529167000000000, 82076137529167000000000,
    82076137529167000000000, 82076137529167000000000, 151049873666635000000000, 151049873666635000000000,
    151049873666635000000000, 151049873666635000000000, 151049873666635000000000, 151049873666635000000000,
    151049873666635000000000, 151049873666635000000000, 151049873666635000000000, 151049873666635000000000,
    151049873666635000000000, 151049873666635000000000, 127423926661064000000000, 127423926661064000000000,
    127423926661064000000000, 127423926661064000000000, 127423926661064000000000, 127423926661064000000000,
    127423926661064000000000, 127423926661064000000000, 127423926661064000000000, 127423926661064000000000,
    127423926661064000000000, 127423926661064000000000, 52734270596891000000000, 52734270596891000000000,
    52734270596891000000000, 52734270596891000000000, 52734270596891000000000, 52734270596891000000000,
    52734270596891000000000, 52734270596891000000000, 52734270596891000000000, 52734270596891000000000,
    52734270596891000000000, 52734270596891000000000, 52734270596891000000000, 52734270596891000000000,
    52734270596891000000000, 52734270596891000000000, 52734270596891000000000, 52734270596891000000000,
    52734270596891000000000, 52734270596891000000000, 52734270596891000000000, 52734270596891000000000,
    52734270596891000000000, 52734270596891000000000]⟩

/-- `tet_data[11]` (jaskowiec_sukumar_tet_data.py 1742-2426). -/
def jsTet_11 : TableRule :=
  ⟨12,
   [
    [2135679944533018000000000, 3592960166400945800000000, 2135679944533018000000000, 2135679944533018000000000,
     808046995114734270000000, 7575859014655796900000000, 808046995114734270000000, 808046995114734270000000,
     1460894685275485300000000, 5617315944173544300000000, 1460894685275485300000000, 1460894685275485300000000,
     640653770377988960000000, 4359346229622010900000000, 640653770377988960000000, 4359346229622010900000000,
     640653770377988960000000, 4359346229622010900000000, 1276183049246016900000000, 3723816950753983100000000,
     1276183049246016900000000, 3723816950753983100000000, 1276183049246016900000000, 3723816950753983100000000,
     6940351772721453600000000, 148147260674486490000000, 148147260674486490000000, 2763353705929573200000000,
     2763353705929573200000000, 2763353705929573200000000, 148147260674486490000000, 6940351772721453600000000,
     148147260674486490000000, 148147260674486490000000, 6940351772721453600000000, 148147260674486490000000,
     5787943875724941600000, 440679196756297990000000, 440679196756297990000000, 9112853662611679600000000,
     9112853662611679600000000, 9112853662611679600000000, 440679196756297990000000, 5787943875724941600000,
     440679196756297990000000, 440679196756297990000000, 5787943875724941600000, 440679196756297990000000,
     7927838364729655800000000, 290048145551581940000000, 290048145551581940000000, 1492065344167180500000000,
     1492065344167180500000000, 1492065344167180500000000, 290048145551581940000000, 7927838364729655800000000,
     290048145551581940000000, 290048145551581940000000, 7927838364729655800000000, 290048145551581940000000,
     7217318354185757700000000, 1384125788015035900000000, 1384125788015035900000000, 14430069784170444000000,
     14430069784170444000000, 14430069784170444000000, 1384125788015035900000000, 7217318354185757700000000,
     1384125788015035900000000, 1384125788015035900000000, 7217318354185757700000000, 1384125788015035900000000,
     2002685156661767100000000, 2002685156661767100000000, 115518352710014210000000, 3422240474937236500000000,
     115518352710014210000000, 3422240474937236500000000, 4459556015690981900000000, 4459556015690981900000000,
     4459556015690981900000000, 4459556015690981900000000, 4459556015690981900000000, 4459556015690981900000000,
     115518352710014210000000, 3422240474937236500000000, 2002685156661767100000000, 2002685156661767100000000,
     3422240474937236500000000, 115518352710014210000000, 115518352710014210000000, 3422240474937236500000000,
     2002685156661767100000000, 2002685156661767100000000, 3422240474937236500000000, 115518352710014210000000,
     2545920450251540300000000, 2545920450251540300000000, 729586319508262610000000, 2495160363595660700000000,
     729586319508262610000000, 2495160363595660700000000, 4229332866644536200000000, 4229332866644536200000000,
     4229332866644536200000000, 4229332866644536200000000, 4229332866644536200000000, 4229332866644536200000000,
     729586319508262610000000, 2495160363595660700000000, 2545920450251540300000000, 2545920450251540300000000,
     2495160363595660700000000, 729586319508262610000000, 729586319508262610000000, 2495160363595660700000000,
     2545920450251540300000000, 2545920450251540300000000, 2495160363595660700000000, 729586319508262610000000,
     3937338659984053200000000, 3937338659984053200000000, 500181076151871020000000, 23982547005395663000000,
     500181076151871020000000, 23982547005395663000000, 5538497716858680200000000, 5538497716858680200000000,
     5538497716858680200000000, 5538497716858680200000000, 5538497716858680200000000, 5538497716858680200000000,
     500181076151871020000000, 23982547005395663000000, 3937338659984053200000000, 3937338659984053200000000,
     23982547005395663000000, 500181076151871020000000, 500181076151871020000000, 23982547005395663000000,
     3937338659984053200000000, 3937338659984053200000000, 23982547005395663000000, 500181076151871020000000,
     360873566665786400000000, 360873566665786400000000, 2518367824271116100000000, 1135272318519076900000000,
     2518367824271116100000000, 1135272318519076900000000, 5985486290544020900000000, 5985486290544020900000000,
     5985486290544020900000000, 5985486290544020900000000, 5985486290544020900000000, 5985486290544020900000000,
     2518367824271116100000000, 1135272318519076900000000, 360873566665786400000000, 360873566665786400000000,
     1135272318519076900000000, 2518367824271116100000000, 2518367824271116100000000, 1135272318519076900000000,
     360873566665786400000000, 360873566665786400000000, 1135272318519076900000000, 2518367824271116100000000],
    [2135679944533018000000000, 2135679944533018000000000, 3592960166400945800000000, 2135679944533018000000000,
     808046995114734270000000, 808046995114734270000000, 7575859014655796900000000, 808046995114734270000000,
     1460894685275485300000000, 1460894685275485300000000, 5617315944173544300000000, 1460894685275485300000000,
     4359346229622010900000000, 640653770377988960000000, 640653770377988960000000, 4359346229622010900000000,
     4359346229622010900000000, 640653770377988960000000, 3723816950753983100000000, 1276183049246016900000000,
     1276183049246016900000000, 3723816950753983100000000, 3723816950753983100000000, 1276183049246016900000000,
     148147260674486490000000, 6940351772721453600000000, 148147260674486490000000, 148147260674486490000000,
     6940351772721453600000000, 148147260674486490000000, 2763353705929573200000000, 2763353705929573200000000,
     2763353705929573200000000, 148147260674486490000000, 148147260674486490000000, 6940351772721453600000000,
     440679196756297990000000, 5787943875724941600000, 440679196756297990000000, 440679196756297990000000,
     5787943875724941600000, 440679196756297990000000, 9112853662611679600000000, 9112853662611679600000000,
     9112853662611679600000000, 440679196756297990000000, 440679196756297990000000, 5787943875724941600000,
     290048145551581940000000, 7927838364729655800000000, 290048145551581940000000, 290048145551581940000000,
     7927838364729655800000000, 290048145551581940000000, 1492065344167180500000000, 1492065344167180500000000,
     1492065344167180500000000, 290048145551581940000000, 290048145551581940000000, 7927838364729655800000000,
     1384125788015035900000000, 7217318354185757700000000, 1384125788015035900000000, 1384125788015035900000000,
     7217318354185757700000000, 1384125788015035900000000, 14430069784170444000000, 14430069784170444000000,
     14430069784170444000000, 1384125788015035900000000, 1384125788015035900000000, 7217318354185757700000000,
     115518352710014210000000, 3422240474937236500000000, 2002685156661767100000000, 2002685156661767100000000,
     3422240474937236500000000, 115518352710014210000000, 115518352710014210000000, 3422240474937236500000000,
     2002685156661767100000000, 2002685156661767100000000, 3422240474937236500000000, 115518352710014210000000,
     4459556015690981900000000, 4459556015690981900000000, 4459556015690981900000000, 4459556015690981900000000,
     4459556015690981900000000, 4459556015690981900000000, 3422240474937236500000000, 115518352710014210000000,
     3422240474937236500000000, 115518352710014210000000, 2002685156661767100000000, 2002685156661767100000000,
     729586319508262610000000, 2495160363595660700000000, 2545920450251540300000000, 2545920450251540300000000,
     2495160363595660700000000, 729586319508262610000000, 729586319508262610000000, 2495160363595660700000000,
     2545920450251540300000000, 2545920450251540300000000, 2495160363595660700000000, 729586319508262610000000,
     4229332866644536200000000, 4229332866644536200000000, 4229332866644536200000000, 4229332866644536200000000,
     4229332866644536200000000, 4229332866644536200000000, 2495160363595660700000000, 729586319508262610000000,
     2495160363595660700000000, 729586319508262610000000, 2545920450251540300000000, 2545920450251540300000000,
     500181076151871020000000, 23982547005395663000000, 3937338659984053200000000, 3937338659984053200000000,
     23982547005395663000000, 500181076151871020000000, 500181076151871020000000, 23982547005395663000000,
     3937338659984053200000000, 3937338659984053200000000, 23982547005395663000000, 500181076151871020000000,
     5538497716858680200000000, 5538497716858680200000000, 5538497716858680200000000, 5538497716858680200000000,
     5538497716858680200000000, 5538497716858680200000000, 23982547005395663000000, 500181076151871020000000,
     23982547005395663000000, 500181076151871020000000, 3937338659984053200000000, 3937338659984053200000000,
     2518367824271116100000000, 1135272318519076900000000, 360873566665786400000000, 360873566665786400000000,
     1135272318519076900000000, 2518367824271116100000000, 2518367824271116100000000, 1135272318519076900000000,
     360873566665786400000000, 360873566665786400000000, 1135272318519076900000000, 2518367824271116100000000,
     5985486290544020900000000, 5985486290544020900000000, 5985486290544020900000000, 5985486290544020900000000,
     5985486290544020900000000, 5985486290544020900000000, 1135272318519076900000000, 2518367824271116100000000,
     1135272318519076900000000, 2518367824271116100000000, 360873566665786400000000, 360873566665786400000000],
    [2135679944533018000000000, 2135679944533018000000000, 2135679944533018000000000, 3592960166400945800000000,
     808046995114734270000000, 808046995114734270000000, 808046995114734270000000, 7575859014655796900000000,
     1460894685275485300000000, 1460894685275485300000000, 1460894685275485300000000, 5617315944173544300000000,
     4359346229622010900000000, 4359346229622010900000000, 4359346229622010900000000, 640653770377988960000000,
     640653770377988960000000, 640653770377988960000000, 3723816950753983100000000, 3723816950753983100000000,
     3723816950753983100000000, 1276183049246016900000000, 1276183049246016900000000, 1276183049246016900000000,
     148147260674486490000000, 148147260674486490000000, 6940351772721453600000000, 148147260674486490000000,
     148147260674486490000000, 6940351772721453600000000, 148147260674486490000000, 148147260674486490000000,
     6940351772721453600000000, 2763353705929573200000000, 2763353705929573200000000, 2763353705929573200000000,
     440679196756297990000000, 440679196756297990000000, 5787943875724941600000, 440679196756297990000000,
     440679196756297990000000, 5787943875724941600000, 440679196756297990000000, 440679196756297990000000,
     5787943875724941600000, 9112853662611679600000000, 9112853662611679600000000, 9112853662611679600000000,
     290048145551581940000000, 290048145551581940000000, 7927838364729655800000000, 290048145551581940000000,
     290048145551581940000000, 7927838364729655800000000, 290048145551581940000000, 290048145551581940000000,
     7927838364729655800000000, 1492065344167180500000000, 1492065344167180500000000, 1492065344167180500000000,
     1384125788015035900000000, 1384125788015035900000000, 7217318354185757700000000, 1384125788015035900000000,
     1384125788015035900000000, 7217318354185757700000000, 1384125788015035900000000, 1384125788015035900000000,
     7217318354185757700000000, 14430069784170444000000, 14430069784170444000000, 14430069784170444000000,
     3422240474937236500000000, 115518352710014210000000, 3422240474937236500000000, 115518352710014210000000,
     2002685156661767100000000, 2002685156661767100000000, 3422240474937236500000000, 115518352710014210000000,
     3422240474937236500000000, 115518352710014210000000, 2002685156661767100000000, 2002685156661767100000000,
     3422240474937236500000000, 115518352710014210000000, 3422240474937236500000000, 115518352710014210000000,
     2002685156661767100000000, 2002685156661767100000000, 4459556015690981900000000, 4459556015690981900000000,
     4459556015690981900000000, 4459556015690981900000000, 4459556015690981900000000, 4459556015690981900000000,
     2495160363595660700000000, 729586319508262610000000, 2495160363595660700000000, 729586319508262610000000,
     2545920450251540300000000, 2545920450251540300000000, 2495160363595660700000000, 729586319508262610000000,
     2495160363595660700000000, 729586319508262610000000, 2545920450251540300000000, 2545920450251540300000000,
     2495160363595660700000000, 729586319508262610000000, 2495160363595660700000000, 729586319508262610000000,
     2545920450251540300000000, 2545920450251540300000000, 4229332866644536200000000, 4229332866644536200000000,
     4229332866644536200000000, 4229332866644536200000000, 4229332866644536200000000, 4229332866644536200000000,
     23982547005395663000000, 500181076151871020000000, 23982547005395663000000, 500181076151871020000000,
     3937338659984053200000000, 3937338659984053200000000, 23982547005395663000000, 500181076151871020000000,
     23982547005395663000000, 500181076151871020000000, 3937338659984053200000000, 3937338659984053200000000,
     23982547005395663000000, 500181076151871020000000, 23982547005395663000000, 500181076151871020000000,
     3937338659984053200000000, 3937338659984053200000000, 5538497716858680200000000, 5538497716858680200000000,
     5538497716858680200000000, 5538497716858680200000000, 5538497716858680200000000, 5538497716858680200000000,
     1135272318519076900000000, 2518367824271116100000000, 1135272318519076900000000, 2518367824271116100000000,
     360873566665786400000000, 360873566665786400000000, 1135272318519076900000000, 2518367824271116100000000,
     1135272318519076900000000, 2518367824271116100000000, 360873566665786400000000, 360873566665786400000000,
     1135272318519076900000000, 2518367824271116100000000, 1135272318519076900000000, 2518367824271116100000000,
     360873566665786400000000, 360873566665786400000000, 5985486290544020900000000, 5985486290544020900000000,
     5985486290544020900000000, 5985486290544020900000000, 5985486290544020900000000, 5985486290544020900000000]],
   [176149155350326000000000, 176149155350326000000000, 176149155350326000000000, 176149155350326000000000,
    83512359334327000000000, 83512359334327000000000, 83512359334327000000000, 83512359334327000000000,
    177757192066944000000000, 177757192066944000000000, 177757192066944000000000, 177757192066944000000000,
    101680243975721000000000, 101680243975721000000000, 101680243975721000000000, 101680243975721000000000,
    101680243975721000000000, 101680243975721000000000, 157404000239538000000000, 157404000239538000000000,
    157404000239538000000000, 157404000239538000000000, 157404000239538000000000, 157404000239538000000000,
    15112811458643000000000, 15112811458643000000000, 15112811458643000000000, 15112811458643000000000,
    15112811458643000000000, 15112811458643000000000, 15112811458643000000000, 15112811458643000000000,
    15112811458643000000000, 15112811458643000000000, 15112811458643000000000, 15112811458643000000000,
    8726569887486000000000, 8726569887486000000000, 8726569887486000000000, 8726569887486000000000,
    8726569887486000000000, 8726569887486000000000, 8726569887486000000000, 8726569887486000000000,
    8726569887486000000000, 8726569887486000000000, 8726569887486000000000, 8726569887486000000000,
    37128826614575000000000, 37128826614575000000000, 37128826614575000000000, 37128826614575000000000,
    37128826614575000000000, 37128826614575000000000, 37128826614575000000000, 37128826614575000000000,
    37128826614575000000000, 37128826614575000000000, 37128826614575000000000, 37128826614575000000000,
    23583142557274000000000, 23583142557274000000000, 23583142557274000000000, 23583142557274000000000,
    23583142557274000000000, 23583142557274000000000, 23583142557274000000000, 23583142557274000000000,
    23583142557274000000000, 23583142557274000000000, 23583142557274000000000, 23583142557274000000000,
    44908470362717000000000, 44908470362717000000000, 44908470362717000000000, 44908470362717000000000,
    44908470362717000000000, 44908470362717000000000, 44908470362717000000000, 44908470362717000000000,
    44908470362717000000000, 44908470362717000000000, 44908470362717000000000, 44908470362717000000000,
    44908470362717000000000, 44908470362717000000000, 44908470362717000000000, 44908470362717000000000,
    44908470362717000000000, 44908470362717000000000, 44908470362717000000000, 44908470362717000000000,
    44908470362717000000000, 44908470362717000000000, 44908470362717000000000, 44908470362717000000000,
    75496160488995000000000, 75496160488995000000000, 75496160488995000000000, 75496160488995000000000,
    75496160488995000000000, 75496160488995000000000, 75496160488995000000000, 75496160488995000000000,
    75496160488995000000000, 75496160488995000000000, 75496160488995000000000, 75496160488995000000000,
    75496160488995000000000, 75496160488995000000000, 75496160488995000000000, 75496160488995000000000,
    75496160488995000000000, 75496160488995000000000, 75496160488995000000000, 75496160488995000000000,
    75496160488995000000000, 75496160488995000000000, 75496160488995000000000, 75496160488995000000000,
    18505145890677000000000, 18505145890677000000000, 18505145890677000000000, 18505145890677000000000,
    18505145890677000000000, 18505145890677000000000, 18505145890677000000000, 18505145890677000000000,
    18505145890677000000000, 18505145890677000000000, 18505145890677000000000, 18505145890677000000000,
    18505145890677000000000, 18505145890677000000000, 18505145890677000000000, 18505145890677000000000,
    18505145890677000000000, 18505145890677000000000, 18505145890677000000000, 18505145890677000000000,
    18505145890677000000000, 18505145890677000000000, 18505145890677000000000, 18505145890677000000000,
    97807035819541000000000, 97807035819541000000000, 97807035819541000000000, 97807035819541000000000,
    97807035819541000000000, 97807035819541000000000, 97807035819541000000000, 97807035819541000000000,
    97807035819541000000000, 97807035819541000000000, 97807035819541000000000, 97807035819541000000000,
    97807035819541000000000, 97807035819541000000000, 97807035819541000000000, 97807035819541000000000,
    97807035819541000000000, 97807035819541000000000, 97807035819541000000000, 97807035819541000000000,
    97807035819541000000000, 97807035819541000000000, 97807035819541000000000, 97807035819541000000000]⟩

/-- `tet_data[12]` (jaskowiec_sukumar_tet_data.py 2427-3127). -/
def jsTet_12 : TableRule :=
  ⟨13,
   [
    [202381678618097430000000, 9392854964145708200000000, 202381678618097430000000, 202381678618097430000000,
     2890147352435263300000000, 1329557942694209200000000, 2890147352435263300000000, 2890147352435263300000000,
     940287000821270760000000, 7179138997536187400000000, 940287000821270760000000, 940287000821270760000000,
     1976498544437255100000000, 4070504366688234000000000, 1976498544437255100000000, 1976498544437255100000000,
     4595381032398163600000000, 404618967601836350000000, 4595381032398163600000000, 404618967601836350000000,
     4595381032398163600000000, 404618967601836350000000, 1951480306442735300, 4999998048519693800000000,
     1951480306442735300, 4999998048519693800000000, 1951480306442735300, 4999998048519693800000000,
     6118971302042934800000000, 675292649528024260000000, 675292649528024260000000, 2530443398901017200000000,
     2530443398901017200000000, 2530443398901017200000000, 675292649528024260000000, 6118971302042934800000000,
     675292649528024260000000, 675292649528024260000000, 6118971302042934800000000, 675292649528024260000000,
     4868308338798159100000000, 1360105145132029200000000, 1360105145132029200000000, 2411481370937782200000000,
     2411481370937782200000000, 2411481370937782200000000, 1360105145132029200000000, 4868308338798159100000000,
     1360105145132029200000000, 1360105145132029200000000, 4868308338798159100000000, 1360105145132029200000000,
     4273786080349000200000000, 2780783459563701500000000, 2780783459563701500000000, 164647000523597200000000,
     164647000523597200000000, 164647000523597200000000, 2780783459563701500000000, 4273786080349000200000000,
     2780783459563701500000000, 2780783459563701500000000, 4273786080349000200000000, 2780783459563701500000000,
     5667528680967984800000000, 1967550197192860800000000, 1967550197192860800000000, 397370924646293510000000,
     397370924646293510000000, 397370924646293510000000, 1967550197192860800000000, 5667528680967984800000000,
     1967550197192860800000000, 1967550197192860800000000, 5667528680967984800000000, 1967550197192860800000000,
     620197072419754260000000, 3862498629203496800000000, 3862498629203496800000000, 1654805669173252100000000,
     1654805669173252100000000, 1654805669173252100000000, 3862498629203496800000000, 620197072419754260000000,
     3862498629203496800000000, 3862498629203496800000000, 620197072419754260000000, 3862498629203496800000000,
     1086607820833198800000000, 235355190546527730000000, 235355190546527730000000, 8442681798073745600000000,
     8442681798073745600000000, 8442681798073745600000000, 235355190546527730000000, 1086607820833198800000000,
     235355190546527730000000, 235355190546527730000000, 1086607820833198800000000, 235355190546527730000000,
     5446964977019161900000000, 5446964977019161900000000, 3362108930747719200000000, 35000598698798190000000,
     3362108930747719200000000, 35000598698798190000000, 1155925493534320500000000, 1155925493534320500000000,
     1155925493534320500000000, 1155925493534320500000000, 1155925493534320500000000, 1155925493534320500000000,
     3362108930747719200000000, 35000598698798190000000, 5446964977019161900000000, 5446964977019161900000000,
     35000598698798190000000, 3362108930747719200000000, 3362108930747719200000000, 35000598698798190000000,
     5446964977019161900000000, 5446964977019161900000000, 35000598698798190000000, 3362108930747719200000000,
     288616049407555040000000, 288616049407555040000000, 6859816301235152100000000, 105734346867289010000000,
     6859816301235152100000000, 105734346867289010000000, 2745833302490003900000000, 2745833302490003900000000,
     2745833302490003900000000, 2745833302490003900000000, 2745833302490003900000000, 2745833302490003900000000,
     6859816301235152100000000, 105734346867289010000000, 288616049407555040000000, 288616049407555040000000,
     105734346867289010000000, 6859816301235152100000000, 6859816301235152100000000, 105734346867289010000000,
     288616049407555040000000, 288616049407555040000000, 105734346867289010000000, 6859816301235152100000000,
     1545866468273804400000000, 1545866468273804400000000, 7356772467818597500000000, 987023928216723410000000,
     7356772467818597500000000, 987023928216723410000000, 110337135690874320000000, 110337135690874320000000,
     110337135690874320000000, 110337135690874320000000, 110337135690874320000000, 110337135690874320000000,
     7356772467818597500000000, 987023928216723410000000, 1545866468273804400000000, 1545866468273804400000000,
     987023928216723410000000, 7356772467818597500000000, 7356772467818597500000000, 987023928216723410000000,
     1545866468273804400000000, 1545866468273804400000000, 987023928216723410000000, 7356772467818597500000000],
    [202381678618097430000000, 202381678618097430000000, 9392854964145708200000000, 202381678618097430000000,
     2890147352435263300000000, 2890147352435263300000000, 1329557942694209200000000, 2890147352435263300000000,
     940287000821270760000000, 940287000821270760000000, 7179138997536187400000000, 940287000821270760000000,
     1976498544437255100000000, 1976498544437255100000000, 4070504366688234000000000, 1976498544437255100000000,
     404618967601836350000000, 4595381032398163600000000, 4595381032398163600000000, 404618967601836350000000,
     404618967601836350000000, 4595381032398163600000000, 4999998048519693800000000, 1951480306442735300,
     1951480306442735300, 4999998048519693800000000, 4999998048519693800000000, 1951480306442735300,
     675292649528024260000000, 6118971302042934800000000, 675292649528024260000000, 675292649528024260000000,
     6118971302042934800000000, 675292649528024260000000, 2530443398901017200000000, 2530443398901017200000000,
     2530443398901017200000000, 675292649528024260000000, 675292649528024260000000, 6118971302042934800000000,
     1360105145132029200000000, 4868308338798159100000000, 1360105145132029200000000, 1360105145132029200000000,
     4868308338798159100000000, 1360105145132029200000000, 2411481370937782200000000, 2411481370937782200000000,
     2411481370937782200000000, 1360105145132029200000000, 1360105145132029200000000, 4868308338798159100000000,
     2780783459563701500000000, 4273786080349000200000000, 2780783459563701500000000, 2780783459563701500000000,
     4273786080349000200000000, 2780783459563701500000000, 164647000523597200000000, 164647000523597200000000,
     164647000523597200000000, 2780783459563701500000000, 2780783459563701500000000, 4273786080349000200000000,
     1967550197192860800000000, 5667528680967984800000000, 1967550197192860800000000, 1967550197192860800000000,
     5667528680967984800000000, 1967550197192860800000000, 397370924646293510000000, 397370924646293510000000,
     397370924646293510000000, 1967550197192860800000000, 1967550197192860800000000, 5667528680967984800000000,
     3862498629203496800000000, 620197072419754260000000, 3862498629203496800000000, 3862498629203496800000000,
     620197072419754260000000, 3862498629203496800000000, 1654805669173252100000000, 1654805669173252100000000,
     1654805669173252100000000, 3862498629203496800000000, 3862498629203496800000000, 620197072419754260000000,
     235355190546527730000000, 1086607820833198800000000, 235355190546527730000000, 235355190546527730000000,
     1086607820833198800000000, 235355190546527730000000, 8442681798073745600000000, 8442681798073745600000000,
     8442681798073745600000000, 235355190546527730000000, 235355190546527730000000, 1086607820833198800000000,
     3362108930747719200000000, 35000598698798190000000, 5446964977019161900000000, 5446964977019161900000000,
     35000598698798190000000, 3362108930747719200000000, 3362108930747719200000000, 35000598698798190000000,
     5446964977019161900000000, 5446964977019161900000000, 35000598698798190000000, 3362108930747719200000000,
     1155925493534320500000000, 1155925493534320500000000, 1155925493534320500000000, 1155925493534320500000000,
     1155925493534320500000000, 1155925493534320500000000, 35000598698798190000000, 3362108930747719200000000,
     35000598698798190000000, 3362108930747719200000000, 5446964977019161900000000, 5446964977019161900000000,
     6859816301235152100000000, 105734346867289010000000, 288616049407555040000000, 288616049407555040000000,
     105734346867289010000000, 6859816301235152100000000, 6859816301235152100000000, 105734346867289010000000,
     288616049407555040000000, 288616049407555040000000, 105734346867289010000000, 6859816301235152100000000,
     2745833302490003900000000, 2745833302490003900000000, 2745833302490003900000000, 2745833302490003900000000,
     2745833302490003900000000, 2745833302490003900000000, 105734346867289010000000, 6859816301235152100000000,
     105734346867289010000000, 6859816301235152100000000, 288616049407555040000000, 288616049407555040000000,
     7356772467818597500000000, 987023928216723410000000, 1545866468273804400000000, 1545866468273804400000000,
     987023928216723410000000, 7356772467818597500000000, 7356772467818597500000000, 987023928216723410000000,
     1545866468273804400000000, 1545866468273804400000000, 987023928216723410000000, 7356772467818597500000000,
     110337135690874320000000, 110337135690874320000000, 110337135690874320000000, 110337135690874320000000,
     110337135690874320000000, 110337135690874320000000, 987023928216723410000000, 7356772467818597500000000,
     987023928216723410000000, 7356772467818597500000000, 1545866468273804400000000, 1545866468273804400000000],
    [202381678618097430000000, 202381678618097430000000, 202381678618097430000000, 9392854964145708200000000,
     2890147352435263300000000, 2890147352435263300000000, 2890147352435263300000000, 1329557942694209200000000,
     940287000821270760000000, 940287000821270760000000, 940287000821270760000000, 7179138997536187400000000,
     1976498544437255100000000, 1976498544437255100000000, 1976498544437255100000000, 4070504366688234000000000,
     404618967601836350000000, 404618967601836350000000, 404618967601836350000000, 4595381032398163600000000,
     4595381032398163600000000, 4595381032398163600000000, 4999998048519693800000000, 4999998048519693800000000,
     4999998048519693800000000, 1951480306442735300, 1951480306442735300, 1951480306442735300,
     675292649528024260000000, 675292649528024260000000, 6118971302042934800000000, 675292649528024260000000,
     675292649528024260000000, 6118971302042934800000000, 675292649528024260000000, 675292649528024260000000,
     6118971302042934800000000, 2530443398901017200000000, 2530443398901017200000000, 2530443398901017200000000,
     1360105145132029200000000, 1360105145132029200000000, 4868308338798159100000000, 1360105145132029200000000,
     1360105145132029200000000, 4868308338798159100000000, 1360105145132029200000000, 1360105145132029200000000,
     4868308338798159100000000, 2411481370937782200000000, 2411481370937782200000000, 2411481370937782200000000,
     2780783459563701500000000, 2780783459563701500000000, 4273786080349000200000000, 2780783459563701500000000,
     2780783459563701500000000, 4273786080349000200000000, 2780783459563701500000000, 2780783459563701500000000,
     4273786080349000200000000, 164647000523597200000000, 164647000523597200000000, 164647000523597200000000,
     1967550197192860800000000, 1967550197192860800000000, 5667528680967984800000000, 1967550197192860800000000,
     1967550197192860800000000, 5667528680967984800000000, 1967550197192860800000000, 1967550197192860800000000,
     5667528680967984800000000, 397370924646293510000000, 397370924646293510000000, 397370924646293510000000,
     3862498629203496800000000, 3862498629203496800000000, 620197072419754260000000, 3862498629203496800000000,
     3862498629203496800000000, 620197072419754260000000, 3862498629203496800000000, 3862498629203496800000000,
     620197072419754260000000, 1654805669173252100000000, 1654805669173252100000000, 1654805669173252100000000,
     235355190546527730000000, 235355190546527730000000, 1086607820833198800000000, 235355190546527730000000,
     235355190546527730000000, 1086607820833198800000000, 235355190546527730000000, 235355190546527730000000,
     1086607820833198800000000, 8442681798073745600000000, 8442681798073745600000000, 8442681798073745600000000,
     35000598698798190000000, 3362108930747719200000000, 35000598698798190000000, 3362108930747719200000000,
     5446964977019161900000000, 5446964977019161900000000, 35000598698798190000000, 3362108930747719200000000,
     35000598698798190000000, 3362108930747719200000000, 5446964977019161900000000, 5446964977019161900000000,
     35000598698798190000000, 3362108930747719200000000, 35000598698798190000000, 3362108930747719200000000,
     5446964977019161900000000, 5446964977019161900000000, 1155925493534320500000000, 1155925493534320500000000,
     1155925493534320500000000, 1155925493534320500000000, 1155925493534320500000000, 1155925493534320500000000,
     105734346867289010000000, 6859816301235152100000000, 105734346867289010000000, 6859816301235152100000000,
     288616049407555040000000, 288616049407555040000000, 105734346867289010000000, 6859816301235152100000000,
     105734346867289010000000, 6859816301235152100000000, 288616049407555040000000, 288616049407555040000000,
     105734346867289010000000, 6859816301235152100000000, 105734346867289010000000, 6859816301235152100000000,
     288616049407555040000000, 288616049407555040000000, 2745833302490003900000000, 2745833302490003900000000,
     2745833302490003900000000, 2745833302490003900000000, 2745833302490003900000000, 2745833302490003900000000,
     987023928216723410000000, 7356772467818597500000000, 987023928216723410000000, 7356772467818597500000000,
     1545866468273804400000000, 1545866468273804400000000, 987023928216723410000000, 7356772467818597500000000,
     987023928216723410000000, 7356772467818597500000000, 1545866468273804400000000, 1545866468273804400000000,
     987023928216723410000000, 7356772467818597500000000, 987023928216723410000000, 7356772467818597500000000,
     1545866468273804400000000, 1545866468273804400000000, 110337135690874320000000, 110337135690874320000000,
     110337135690874320000000, 110337135690874320000000, 110337135690874320000000, 110337135690874320000000]],
   [8606417789141000000000, 8606417789141000000000, 8606417789141000000000, 8606417789141000000000,
    226073268177392000000000, 226073268177392000000000, 226073268177392000000000, 226073268177392000000000,
    96800373268389000000000, 96800373268389000000000, 96800373268389000000000, 96800373268389000000000,
    71709403255727000000000, 71709403255727000000000, 71709403255727000000000, 71709403255727000000000,
    77848709792804000000000, 77848709792804000000000, 77848709792804000000000, 77848709792804000000000,
    77848709792804000000000, 77848709792804000000000, 5120271481716000000000, 5120271481716000000000,
    5120271481716000000000, 5120271481716000000000, 5120271481716000000000, 5120271481716000000000,
    88802721714230000000000, 88802721714230000000000, 88802721714230000000000, 88802721714230000000000,
    88802721714230000000000, 88802721714230000000000, 88802721714230000000000, 88802721714230000000000,
    88802721714230000000000, 88802721714230000000000, 88802721714230000000000, 88802721714230000000000,
    106214477904937000000000, 106214477904937000000000, 106214477904937000000000, 106214477904937000000000,
    106214477904937000000000, 106214477904937000000000, 106214477904937000000000, 106214477904937000000000,
    106214477904937000000000, 106214477904937000000000, 106214477904937000000000, 106214477904937000000000,
    58730893319959000000000, 58730893319959000000000, 58730893319959000000000, 58730893319959000000000,
    58730893319959000000000, 58730893319959000000000, 58730893319959000000000, 58730893319959000000000,
    58730893319959000000000, 58730893319959000000000, 58730893319959000000000, 58730893319959000000000,
    92355353975560000000000, 92355353975560000000000, 92355353975560000000000, 92355353975560000000000,
    92355353975560000000000, 92355353975560000000000, 92355353975560000000000, 92355353975560000000000,
    92355353975560000000000, 92355353975560000000000, 92355353975560000000000, 92355353975560000000000,
    145673220791652000000000, 145673220791652000000000, 145673220791652000000000, 145673220791652000000000,
    145673220791652000000000, 145673220791652000000000, 145673220791652000000000, 145673220791652000000000,
    145673220791652000000000, 145673220791652000000000, 145673220791652000000000, 145673220791652000000000,
    26587398621734000000000, 26587398621734000000000, 26587398621734000000000, 26587398621734000000000,
    26587398621734000000000, 26587398621734000000000, 26587398621734000000000, 26587398621734000000000,
    26587398621734000000000, 26587398621734000000000, 26587398621734000000000, 26587398621734000000000,
    32218527750018000000000, 32218527750018000000000, 32218527750018000000000, 32218527750018000000000,
    32218527750018000000000, 32218527750018000000000, 32218527750018000000000, 32218527750018000000000,
    32218527750018000000000, 32218527750018000000000, 32218527750018000000000, 32218527750018000000000,
    32218527750018000000000, 32218527750018000000000, 32218527750018000000000, 32218527750018000000000,
    32218527750018000000000, 32218527750018000000000, 32218527750018000000000, 32218527750018000000000,
    32218527750018000000000, 32218527750018000000000, 32218527750018000000000, 32218527750018000000000,
    14642067411040000000000, 14642067411040000000000, 14642067411040000000000, 14642067411040000000000,
    14642067411040000000000, 14642067411040000000000, 14642067411040000000000, 14642067411040000000000,
    14642067411040000000000, 14642067411040000000000, 14642067411040000000000, 14642067411040000000000,
    14642067411040000000000, 14642067411040000000000, 14642067411040000000000, 14642067411040000000000,
    14642067411040000000000, 14642067411040000000000, 14642067411040000000000, 14642067411040000000000,
    14642067411040000000000, 14642067411040000000000, 14642067411040000000000, 14642067411040000000000,
    22683549274501000000000, 22683549274501000000000, 22683549274501000000000, 22683549274501000000000,
    22683549274501000000000, 22683549274501000000000, 22683549274501000000000, 22683549274501000000000,
    22683549274501000000000, 22683549274501000000000, 22683549274501000000000, 22683549274501000000000,
    22683549274501000000000, 22683549274501000000000, 22683549274501000000000, 22683549274501000000000,
    22683549274501000000000, 22683549274501000000000, 22683549274501000000000, 22683549274501000000000,
    22683549274501000000000, 22683549274501000000000, 22683549274501000000000, 22683549274501000000000]⟩

/-- `tet_data[13]` (jaskowiec_sukumar_tet_data.py 3128-3956). -/
def jsTet_13 : TableRule :=
  ⟨14,
   [
    [3298151517846193000000000, 105545446461421000000000, 3298151517846193000000000, 3298151517846193000000000,
     575382826897592000000000, 8273851519307224000000000, 575382826897592000000000, 575382826897592000000000,
     58561686137835000000000, 9824314941586495000000000, 58561686137835000000000, 58561686137835000000000,
     1605554758479567000000000, 5183335724561301000000000, 1605554758479567000000000, 1605554758479567000000000,
     987396460740491000000000, 7037810617778527000000000, 987396460740491000000000, 987396460740491000000000,
     2080531961597265000000000, 3758404115208205000000000, 2080531961597265000000000, 2080531961597265000000000,
     97520288122235000000000, 4902479711877765000000000, 97520288122235000000000, 4902479711877765000000000,
     97520288122235000000000, 4902479711877765000000000, 3970605998844674000000000, 1029394001155326000000000,
     3970605998844674000000000, 1029394001155326000000000, 3970605998844674000000000, 1029394001155326000000000,
     4620865365387848000000000, 379134634612151000000000, 4620865365387848000000000, 379134634612151000000000,
     4620865365387848000000000, 379134634612151000000000, 1814264238161396000000000, 3185735761838604000000000,
     1814264238161396000000000, 3185735761838604000000000, 1814264238161396000000000, 3185735761838604000000000,
     4189387788376669000000000, 2499092188634998000000000, 2499092188634998000000000, 812427834353334000000000,
     812427834353334000000000, 812427834353334000000000, 2499092188634998000000000, 4189387788376669000000000,
     2499092188634998000000000, 2499092188634998000000000, 4189387788376669000000000, 2499092188634998000000000,
     5628766802497838000000000, 2132633780618757000000000, 2132633780618757000000000, 105965636264648000000000,
     105965636264648000000000, 105965636264648000000000, 2132633780618757000000000, 5628766802497838000000000,
     2132633780618757000000000, 2132633780618757000000000, 5628766802497838000000000, 2132633780618757000000000,
     8954689727140162000000000, 491812849401591000000000, 491812849401591000000000, 61684574056657000000000,
     61684574056657000000000, 61684574056657000000000, 491812849401591000000000, 8954689727140162000000000,
     491812849401591000000000, 491812849401591000000000, 8954689727140162000000000, 491812849401591000000000,
     206635789296735000000000, 3928626179700601000000000, 3928626179700601000000000, 1936111851302063000000000,
     1936111851302063000000000, 1936111851302063000000000, 3928626179700601000000000, 206635789296735000000000,
     3928626179700601000000000, 3928626179700601000000000, 206635789296735000000000, 3928626179700601000000000,
     1269022024074958000000000, 126176055325707000000000, 126176055325707000000000, 8478625865273628000000000,
     8478625865273628000000000, 8478625865273628000000000, 126176055325707000000000, 1269022024074958000000000,
     126176055325707000000000, 126176055325707000000000, 1269022024074958000000000, 126176055325707000000000,
     621400031176215000000000, 621400031176215000000000, 1216187843486990000000000, 5767406174550948000000000,
     1216187843486990000000000, 5767406174550948000000000, 2395005950785847000000000, 2395005950785847000000000,
     2395005950785847000000000, 2395005950785847000000000, 2395005950785847000000000, 2395005950785847000000000,
     1216187843486990000000000, 5767406174550948000000000, 621400031176215000000000, 621400031176215000000000,
     5767406174550948000000000, 1216187843486990000000000, 1216187843486990000000000, 5767406174550948000000000,
     621400031176215000000000, 621400031176215000000000, 5767406174550948000000000, 1216187843486990000000000,
     5517941321184247000000000, 5517941321184247000000000, 3489022960470246000000000, 155221192232079000000000,
     3489022960470246000000000, 155221192232079000000000, 837814526113429000000000, 837814526113429000000000,
     837814526113429000000000, 837814526113429000000000, 837814526113429000000000, 837814526113429000000000,
     3489022960470246000000000, 155221192232079000000000, 5517941321184247000000000, 5517941321184247000000000,
     155221192232079000000000, 3489022960470246000000000, 3489022960470246000000000, 155221192232079000000000,
     5517941321184247000000000, 5517941321184247000000000, 155221192232079000000000, 3489022960470246000000000,
     178416406476546000000000, 178416406476546000000000, 6822383201682893000000000, 154792973131725000000000,
     6822383201682893000000000, 154792973131725000000000, 2844407418708836000000000, 2844407418708836000000000,
     2844407418708836000000000, 2844407418708836000000000, 2844407418708836000000000, 2844407418708836000000000,
     6822383201682893000000000, 154792973131725000000000, 178416406476546000000000, 178416406476546000000000,
     154792973131725000000000, 6822383201682893000000000, 6822383201682893000000000, 154792973131725000000000,
     178416406476546000000000, 178416406476546000000000, 154792973131725000000000, 6822383201682893000000000,
     1695395507001622000000000, 1695395507001622000000000, 7339982986585810000000000, 177766027701428000000000,
     7339982986585810000000000, 177766027701428000000000, 786855478711139000000000, 786855478711139000000000,
     786855478711139000000000, 786855478711139000000000, 786855478711139000000000, 786855478711139000000000,
     7339982986585810000000000, 177766027701428000000000, 1695395507001622000000000, 1695395507001622000000000,
     177766027701428000000000, 7339982986585810000000000, 7339982986585810000000000, 177766027701428000000000,
     1695395507001622000000000, 1695395507001622000000000, 177766027701428000000000, 7339982986585810000000000],
    [3298151517846193000000000, 3298151517846193000000000, 105545446461421000000000, 3298151517846193000000000,
     575382826897592000000000, 575382826897592000000000, 8273851519307224000000000, 575382826897592000000000,
     58561686137835000000000, 58561686137835000000000, 9824314941586495000000000, 58561686137835000000000,
     1605554758479567000000000, 1605554758479567000000000, 5183335724561301000000000, 1605554758479567000000000,
     987396460740491000000000, 987396460740491000000000, 7037810617778527000000000, 987396460740491000000000,
     2080531961597265000000000, 2080531961597265000000000, 3758404115208205000000000, 2080531961597265000000000,
     4902479711877765000000000, 97520288122235000000000, 97520288122235000000000, 4902479711877765000000000,
     4902479711877765000000000, 97520288122235000000000, 1029394001155326000000000, 3970605998844674000000000,
     3970605998844674000000000, 1029394001155326000000000, 1029394001155326000000000, 3970605998844674000000000,
     379134634612151000000000, 4620865365387848000000000, 4620865365387848000000000, 379134634612151000000000,
     379134634612151000000000, 4620865365387848000000000, 3185735761838604000000000, 1814264238161396000000000,
     1814264238161396000000000, 3185735761838604000000000, 3185735761838604000000000, 1814264238161396000000000,
     2499092188634998000000000, 4189387788376669000000000, 2499092188634998000000000, 2499092188634998000000000,
     4189387788376669000000000, 2499092188634998000000000, 812427834353334000000000, 812427834353334000000000,
     812427834353334000000000, 2499092188634998000000000, 2499092188634998000000000, 4189387788376669000000000,
     2132633780618757000000000, 5628766802497838000000000, 2132633780618757000000000, 2132633780618757000000000,
     5628766802497838000000000, 2132633780618757000000000, 105965636264648000000000, 105965636264648000000000,
     105965636264648000000000, 2132633780618757000000000, 2132633780618757000000000, 5628766802497838000000000,
     491812849401591000000000, 8954689727140162000000000, 491812849401591000000000, 491812849401591000000000,
     8954689727140162000000000, 491812849401591000000000, 61684574056657000000000, 61684574056657000000000,
     61684574056657000000000, 491812849401591000000000, 491812849401591000000000, 8954689727140162000000000,
     3928626179700601000000000, 206635789296735000000000, 3928626179700601000000000, 3928626179700601000000000,
     206635789296735000000000, 3928626179700601000000000, 1936111851302063000000000, 1936111851302063000000000,
     1936111851302063000000000, 3928626179700601000000000, 3928626179700601000000000, 206635789296735000000000,
     126176055325707000000000, 1269022024074958000000000, 126176055325707000000000, 126176055325707000000000,
     1269022024074958000000000, 126176055325707000000000, 8478625865273628000000000, 8478625865273628000000000,
     8478625865273628000000000, 126176055325707000000000, 126176055325707000000000, 1269022024074958000000000,
     1216187843486990000000000, 5767406174550948000000000, 621400031176215000000000, 621400031176215000000000,
     5767406174550948000000000, 1216187843486990000000000, 1216187843486990000000000, 5767406174550948000000000,
     621400031176215000000000, 621400031176215000000000, 5767406174550948000000000, 1216187843486990000000000,
     2395005950785847000000000, 2395005950785847000000000, 2395005950785847000000000, 2395005950785847000000000,
     2395005950785847000000000, 2395005950785847000000000, 5767406174550948000000000, 1216187843486990000000000,
     5767406174550948000000000, 1216187843486990000000000, 621400031176215000000000, 621400031176215000000000,
     3489022960470246000000000, 155221192232079000000000, 5517941321184247000000000, 5517941321184247000000000,
     155221192232079000000000, 3489022960470246000000000, 3489022960470246000000000, 155221192232079000000000,
     5517941321184247000000000, 5517941321184247000000000, 155221192232079000000000, 3489022960470246000000000,
     837814526113429000000000, 837814526113429000000000, 837814526113429000000000, 837814526113429000000000,
     837814526113429000000000, 837814526113429000000000, 155221192232079000000000, 3489022960470246000000000,
     155221192232079000000000, 3489022960470246000000000, 5517941321184247000000000, 5517941321184247000000000,
     6822383201682893000000000, 154792973131725000000000, 178416406476546000000000, 178416406476546000000000,
     154792973131725000000000, 6822383201682893000000000, 6822383201682893000000000, 154792973131725000000000,
     178416406476546000000000, 178416406476546000000000, 154792973131725000000000, 6822383201682893000000000,
     2844407418708836000000000, 2844407418708836000000000, 2844407418708836000000000, 2844407418708836000000000,
     2844407418708836000000000, 2844407418708836000000000, 154792973131725000000000, 6822383201682893000000000,
     154792973131725000000000, 6822383201682893000000000, 178416406476546000000000, 178416406476546000000000,
     7339982986585810000000000, 177766027701428000000000, 1695395507001622000000000, 1695395507001622000000000,
     177766027701428000000000, 7339982986585810000000000, 7339982986585810000000000, 177766027701428000000000,
     1695395507001622000000000, 1695395507001622000000000, 177766027701428000000000, 7339982986585810000000000,
     786855478711139000000000, 786855478711139000000000, 786855478711139000000000, 786855478711139000000000,
     786855478711139000000000, 786855478711139000000000, 177766027701428000000000, 7339982986585810000000000,
     177766027701428000000000, 7339982986585810000000000, 1695395507001622000000000, 1695395507001622000000000],
    [3298151517846193000000000, 3298151517846193000000000, 3298151517846193000000000, 105545446461421000000000,
     575382826897592000000000, 575382826897592000000000, 575382826897592000000000, 8273851519307224000000000,
     58561686137835000000000, 58561686137835000000000, 58561686137835000000000, 9824314941586495000000000,
     1605554758479567000000000, 1605554758479567000000000, 1605554758479567000000000, 5183335724561301000000000,
     987396460740491000000000, 987396460740491000000000, 987396460740491000000000, 7037810617778527000000000,
     2080531961597265000000000, 2080531961597265000000000, 2080531961597265000000000, 3758404115208205000000000,
     4902479711877765000000000, 4902479711877765000000000, 4902479711877765000000000, 97520288122235000000000,
     97520288122235000000000, 97520288122235000000000, 1029394001155326000000000, 1029394001155326000000000,
     1029394001155326000000000, 3970605998844674000000000, 3970605998844674000000000, 3970605998844674000000000,
     379134634612151000000000, 379134634612151000000000, 379134634612151000000000, 4620865365387848000000000,
     4620865365387848000000000, 4620865365387848000000000, 3185735761838604000000000, 3185735761838604000000000,
     3185735761838604000000000, 1814264238161396000000000, 1814264238161396000000000, 1814264238161396000000000,
     2499092188634998000000000, 2499092188634998000000000, 4189387788376669000000000, 2499092188634998000000000,
     2499092188634998000000000, 4189387788376669000000000, 2499092188634998000000000, 2499092188634998000000000,
     4189387788376669000000000, 812427834353334000000000, 812427834353334000000000, 812427834353334000000000,
     2132633780618757000000000, 2132633780618757000000000, 5628766802497838000000000, 2132633780618757000000000,
     2132633780618757000000000, 5628766802497838000000000, 2132633780618757000000000, 2132633780618757000000000,
     5628766802497838000000000, 105965636264648000000000, 105965636264648000000000, 105965636264648000000000,
     491812849401591000000000, 491812849401591000000000, 8954689727140162000000000, 491812849401591000000000,
     491812849401591000000000, 8954689727140162000000000, 491812849401591000000000, 491812849401591000000000,
     8954689727140162000000000, 61684574056657000000000, 61684574056657000000000, 61684574056657000000000,
     3928626179700601000000000, 3928626179700601000000000, 206635789296735000000000, 3928626179700601000000000,
     3928626179700601000000000, 206635789296735000000000, 3928626179700601000000000, 3928626179700601000000000,
     206635789296735000000000, 1936111851302063000000000, 1936111851302063000000000, 1936111851302063000000000,
     126176055325707000000000, 126176055325707000000000, 1269022024074958000000000, 126176055325707000000000,
     126176055325707000000000, 1269022024074958000000000, 126176055325707000000000, 126176055325707000000000,
     1269022024074958000000000, 8478625865273628000000000, 8478625865273628000000000, 8478625865273628000000000,
     5767406174550948000000000, 1216187843486990000000000, 5767406174550948000000000, 1216187843486990000000000,
     621400031176215000000000, 621400031176215000000000, 5767406174550948000000000, 1216187843486990000000000,
     5767406174550948000000000, 1216187843486990000000000, 621400031176215000000000, 621400031176215000000000,
     5767406174550948000000000, 1216187843486990000000000, 5767406174550948000000000, 1216187843486990000000000,
     621400031176215000000000, 621400031176215000000000, 2395005950785847000000000, 2395005950785847000000000,
     2395005950785847000000000, 2395005950785847000000000, 2395005950785847000000000, 2395005950785847000000000,
     155221192232079000000000, 3489022960470246000000000, 155221192232079000000000, 3489022960470246000000000,
     5517941321184247000000000, 5517941321184247000000000, 155221192232079000000000, 3489022960470246000000000,
     155221192232079000000000, 3489022960470246000000000, 5517941321184247000000000, 5517941321184247000000000,
     155221192232079000000000, 3489022960470246000000000, 155221192232079000000000, 3489022960470246000000000,
     5517941321184247000000000, 5517941321184247000000000, 837814526113429000000000, 837814526113429000000000,
     837814526113429000000000, 837814526113429000000000, 837814526113429000000000, 837814526113429000000000,
     154792973131725000000000, 6822383201682893000000000, 154792973131725000000000, 6822383201682893000000000,
     178416406476546000000000, 178416406476546000000000, 154792973131725000000000, 6822383201682893000000000,
     154792973131725000000000, 6822383201682893000000000, 178416406476546000000000, 178416406476546000000000,
     154792973131725000000000, 6822383201682893000000000, 154792973131725000000000, 6822383201682893000000000,
     178416406476546000000000, 178416406476546000000000, 2844407418708836000000000, 2844407418708836000000000,
     2844407418708836000000000, 2844407418708836000000000, 2844407418708836000000000, 2844407418708836000000000,
     177766027701428000000000, 7339982986585810000000000, 177766027701428000000000, 7339982986585810000000000,
     1695395507001622000000000, 1695395507001622000000000, 177766027701428000000000, 7339982986585810000000000,
     177766027701428000000000, 7339982986585810000000000, 1695395507001622000000000, 1695395507001622000000000,
     177766027701428000000000, 7339982986585810000000000, 177766027701428000000000, 7339982986585810000000000,
     1695395507001622000000000, 1695395507001622000000000, 786855478711139000000000, 786855478711139000000000,
     786855478711139000000000, 786855478711139000000000, 786855478711139000000000, 786855478711139000000000]],
   [34454330503234000000000, 34454330503234000000000, 34454330503234000000000, 34454330503234000000000,
    26212552718705000000000, 26212552718705000000000, 26212552718705000000000, 26212552718705000000000,
    1107383241894000000000, 1107383241894000000000, 1107383241894000000000, 1107383241894000000000,
    100285853724738000000000, 100285853724738000000000, 100285853724738000000000, 100285853724738000000000,
    67904084578094000000000, 67904084578094000000000, 67904084578094000000000, 67904084578094000000000,
    71181483418993000000000, 71181483418993000000000, 71181483418993000000000, 71181483418993000000000,
    10600522945641000000000, 10600522945641000000000, 10600522945641000000000, 10600522945641000000000,
    10600522945641000000000, 10600522945641000000000, 136698309949809000000000, 136698309949809000000000,
    136698309949809000000000, 136698309949809000000000, 136698309949809000000000, 136698309949809000000000,
    26907410946762000000000, 26907410946762000000000, 26907410946762000000000, 26907410946762000000000,
    26907410946762000000000, 26907410946762000000000, 101646012258427000000000, 101646012258427000000000,
    101646012258427000000000, 101646012258427000000000, 101646012258427000000000, 101646012258427000000000,
    135443996377274000000000, 135443996377274000000000, 135443996377274000000000, 135443996377274000000000,
    135443996377274000000000, 135443996377274000000000, 135443996377274000000000, 135443996377274000000000,
    135443996377274000000000, 135443996377274000000000, 135443996377274000000000, 135443996377274000000000,
    46233400476698000000000, 46233400476698000000000, 46233400476698000000000, 46233400476698000000000,
    46233400476698000000000, 46233400476698000000000, 46233400476698000000000, 46233400476698000000000,
    46233400476698000000000, 46233400476698000000000, 46233400476698000000000, 46233400476698000000000,
    8331498452473000000000, 8331498452473000000000, 8331498452473000000000, 8331498452473000000000,
    8331498452473000000000, 8331498452473000000000, 8331498452473000000000, 8331498452473000000000,
    8331498452473000000000, 8331498452473000000000, 8331498452473000000000, 8331498452473000000000,
    72402967608572000000000, 72402967608572000000000, 72402967608572000000000, 72402967608572000000000,
    72402967608572000000000, 72402967608572000000000, 72402967608572000000000, 72402967608572000000000,
    72402967608572000000000, 72402967608572000000000, 72402967608572000000000, 72402967608572000000000,
    8751807809978000000000, 8751807809978000000000, 8751807809978000000000, 8751807809978000000000,
    8751807809978000000000, 8751807809978000000000, 8751807809978000000000, 8751807809978000000000,
    8751807809978000000000, 8751807809978000000000, 8751807809978000000000, 8751807809978000000000,
    71725365180984000000000, 71725365180984000000000, 71725365180984000000000, 71725365180984000000000,
    71725365180984000000000, 71725365180984000000000, 71725365180984000000000, 71725365180984000000000,
    71725365180984000000000, 71725365180984000000000, 71725365180984000000000, 71725365180984000000000,
    71725365180984000000000, 71725365180984000000000, 71725365180984000000000, 71725365180984000000000,
    71725365180984000000000, 71725365180984000000000, 71725365180984000000000, 71725365180984000000000,
    71725365180984000000000, 71725365180984000000000, 71725365180984000000000, 71725365180984000000000,
    42868563427908000000000, 42868563427908000000000, 42868563427908000000000, 42868563427908000000000,
    42868563427908000000000, 42868563427908000000000, 42868563427908000000000, 42868563427908000000000,
    42868563427908000000000, 42868563427908000000000, 42868563427908000000000, 42868563427908000000000,
    42868563427908000000000, 42868563427908000000000, 42868563427908000000000, 42868563427908000000000,
    42868563427908000000000, 42868563427908000000000, 42868563427908000000000, 42868563427908000000000,
    42868563427908000000000, 42868563427908000000000, 42868563427908000000000, 42868563427908000000000,
    9757527641507000000000, 9757527641507000000000, 9757527641507000000000, 9757527641507000000000,
    9757527641507000000000, 9757527641507000000000, 9757527641507000000000, 9757527641507000000000,
    9757527641507000000000, 9757527641507000000000, 9757527641507000000000, 9757527641507000000000,
    9757527641507000000000, 9757527641507000000000, 9757527641507000000000, 9757527641507000000000,
    9757527641507000000000, 9757527641507000000000, 9757527641507000000000, 9757527641507000000000,
    9757527641507000000000, 9757527641507000000000, 9757527641507000000000, 9757527641507000000000,
    37579362997667000000000, 37579362997667000000000, 37579362997667000000000, 37579362997667000000000,
    37579362997667000000000, 37579362997667000000000, 37579362997667000000000, 37579362997667000000000,
    37579362997667000000000, 37579362997667000000000, 37579362997667000000000, 37579362997667000000000,
    37579362997667000000000, 37579362997667000000000, 37579362997667000000000, 37579362997667000000000,
    37579362997667000000000, 37579362997667000000000, 37579362997667000000000, 37579362997667000000000,
    37579362997667000000000, 37579362997667000000000, 37579362997667000000000, 37579362997667000000000]⟩

/-- `tet_data[14]` (jaskowiec_sukumar_tet_data.py 3957-5025). -/
def jsTet_14 : TableRule :=
  ⟨15,
   [
    [169264215854722000000000, 9492207352435834000000000, 169264215854722000000000, 169264215854722000000000,
     2836779254595722000000000, 1489662236212833000000000, 2836779254595722000000000, 2836779254595722000000000,
     1821984139975859000000000, 4534047580072424000000000, 1821984139975859000000000, 1821984139975859000000000,
     4854919948478154000000000, 145080051521846000000000, 4854919948478154000000000, 145080051521846000000000,
     4854919948478154000000000, 145080051521846000000000, 3572558562341436000000000, 1427441437658564000000000,
     3572558562341436000000000, 1427441437658564000000000, 3572558562341436000000000, 1427441437658564000000000,
     7766357493733004000000000, 732172725619535000000000, 732172725619535000000000, 769297055027926000000000,
     769297055027926000000000, 769297055027926000000000, 732172725619535000000000, 7766357493733004000000000,
     732172725619535000000000, 732172725619535000000000, 7766357493733004000000000, 732172725619535000000000,
     2225606554924344000000000, 105655841048970000000000, 105655841048970000000000, 7563081762977716000000000,
     7563081762977716000000000, 7563081762977716000000000, 105655841048970000000000, 2225606554924344000000000,
     105655841048970000000000, 105655841048970000000000, 2225606554924344000000000, 105655841048970000000000,
     557502224056597000000000, 2637972626688146000000000, 2637972626688146000000000, 4166552522567110000000000,
     4166552522567110000000000, 4166552522567110000000000, 2637972626688146000000000, 557502224056597000000000,
     2637972626688146000000000, 2637972626688146000000000, 557502224056597000000000, 2637972626688146000000000,
     1112909267055329000000000, 4354902702993817000000000, 4354902702993817000000000, 177285326957037000000000,
     177285326957037000000000, 177285326957037000000000, 4354902702993817000000000, 1112909267055329000000000,
     4354902702993817000000000, 4354902702993817000000000, 1112909267055329000000000, 4354902702993817000000000,
     5448865322975603000000000, 534725936418519000000000, 534725936418519000000000, 3481682804187358000000000,
     3481682804187358000000000, 3481682804187358000000000, 534725936418519000000000, 5448865322975603000000000,
     534725936418519000000000, 534725936418519000000000, 5448865322975603000000000, 534725936418519000000000,
     7694703779405406000000000, 1105308939580100000000000, 1105308939580100000000000, 94678341434394000000000,
     94678341434394000000000, 94678341434394000000000, 1105308939580100000000000, 7694703779405406000000000,
     1105308939580100000000000, 1105308939580100000000000, 7694703779405406000000000, 1105308939580100000000000,
     6030936440770986000000000, 6030936440770986000000000, 410467051499108000000000, 3535307263575092000000000,
     410467051499108000000000, 3535307263575092000000000, 23289244154814000000000, 23289244154814000000000,
     23289244154814000000000, 23289244154814000000000, 23289244154814000000000, 23289244154814000000000,
     410467051499108000000000, 3535307263575092000000000, 6030936440770986000000000, 6030936440770986000000000,
     3535307263575092000000000, 410467051499108000000000, 410467051499108000000000, 3535307263575092000000000,
     6030936440770986000000000, 6030936440770986000000000, 3535307263575092000000000, 410467051499108000000000,
     293931933291708000000000, 293931933291708000000000, 920166732769526000000000, 113255282696951000000000,
     920166732769526000000000, 113255282696951000000000, 8672646051241815000000000, 8672646051241815000000000,
     8672646051241815000000000, 8672646051241815000000000, 8672646051241815000000000, 8672646051241815000000000,
     920166732769526000000000, 113255282696951000000000, 293931933291708000000000, 293931933291708000000000,
     113255282696951000000000, 920166732769526000000000, 920166732769526000000000, 113255282696951000000000,
     293931933291708000000000, 293931933291708000000000, 113255282696951000000000, 920166732769526000000000,
     7077814873155971000000000, 7077814873155971000000000, 682262786800005000000000, 2019857964457858000000000,
     682262786800005000000000, 2019857964457858000000000, 220064375586166000000000, 220064375586166000000000,
     220064375586166000000000, 220064375586166000000000, 220064375586166000000000, 220064375586166000000000,
     682262786800005000000000, 2019857964457858000000000, 7077814873155971000000000, 7077814873155971000000000,
     2019857964457858000000000, 682262786800005000000000, 682262786800005000000000, 2019857964457858000000000,
     7077814873155971000000000, 7077814873155971000000000, 2019857964457858000000000, 682262786800005000000000,
     1295809597674534000000000, 1295809597674534000000000, 1890015556386176000000000, 6133421548059226000000000,
     1890015556386176000000000, 6133421548059226000000000, 680753297880064000000000, 680753297880064000000000,
     680753297880064000000000, 680753297880064000000000, 680753297880064000000000, 680753297880064000000000,
     1890015556386176000000000, 6133421548059226000000000, 1295809597674534000000000, 1295809597674534000000000,
     6133421548059226000000000, 1890015556386176000000000, 1890015556386176000000000, 6133421548059226000000000,
     1295809597674534000000000, 1295809597674534000000000, 6133421548059226000000000, 1890015556386176000000000,
     4695333003662676000000000, 4695333003662676000000000, 3054799663906012000000000, 1524718900094398000000000,
     3054799663906012000000000, 1524718900094398000000000, 725148432336915000000000, 725148432336915000000000,
     725148432336915000000000, 725148432336915000000000, 725148432336915000000000, 725148432336915000000000,
     3054799663906012000000000, 1524718900094398000000000, 4695333003662676000000000, 4695333003662676000000000,
     1524718900094398000000000, 3054799663906012000000000, 3054799663906012000000000, 1524718900094398000000000,
     4695333003662676000000000, 4695333003662676000000000, 1524718900094398000000000, 3054799663906012000000000,
     5778346261482753000000000, 5778346261482753000000000, 1509145500825105000000000, 2601230834564079000000000,
     1509145500825105000000000, 2601230834564079000000000, 111277403128063000000000, 111277403128063000000000,
     111277403128063000000000, 111277403128063000000000, 111277403128063000000000, 111277403128063000000000,
     1509145500825105000000000, 2601230834564079000000000, 5778346261482753000000000, 5778346261482753000000000,
     2601230834564079000000000, 1509145500825105000000000, 1509145500825105000000000, 2601230834564079000000000,
     5778346261482753000000000, 5778346261482753000000000, 2601230834564079000000000, 1509145500825105000000000,
     108219475368229000000000, 108219475368229000000000, 3368450658547645000000000, 2347260337441091000000000,
     3368450658547645000000000, 2347260337441091000000000, 4176069528643034000000000, 4176069528643034000000000,
     4176069528643034000000000, 4176069528643034000000000, 4176069528643034000000000, 4176069528643034000000000,
     3368450658547645000000000, 2347260337441091000000000, 108219475368229000000000, 108219475368229000000000,
     2347260337441091000000000, 3368450658547645000000000, 3368450658547645000000000, 2347260337441091000000000,
     108219475368229000000000, 108219475368229000000000, 2347260337441091000000000, 3368450658547645000000000],
    [169264215854722000000000, 169264215854722000000000, 9492207352435834000000000, 169264215854722000000000,
     2836779254595722000000000, 2836779254595722000000000, 1489662236212833000000000, 2836779254595722000000000,
     1821984139975859000000000, 1821984139975859000000000, 4534047580072424000000000, 1821984139975859000000000,
     145080051521846000000000, 4854919948478154000000000, 4854919948478154000000000, 145080051521846000000000,
     145080051521846000000000, 4854919948478154000000000, 1427441437658564000000000, 3572558562341436000000000,
     3572558562341436000000000, 1427441437658564000000000, 1427441437658564000000000, 3572558562341436000000000,
     732172725619535000000000, 7766357493733004000000000, 732172725619535000000000, 732172725619535000000000,
     7766357493733004000000000, 732172725619535000000000, 769297055027926000000000, 769297055027926000000000,
     769297055027926000000000, 732172725619535000000000, 732172725619535000000000, 7766357493733004000000000,
     105655841048970000000000, 2225606554924344000000000, 105655841048970000000000, 105655841048970000000000,
     2225606554924344000000000, 105655841048970000000000, 7563081762977716000000000, 7563081762977716000000000,
     7563081762977716000000000, 105655841048970000000000, 105655841048970000000000, 2225606554924344000000000,
     2637972626688146000000000, 557502224056597000000000, 2637972626688146000000000, 2637972626688146000000000,
     557502224056597000000000, 2637972626688146000000000, 4166552522567110000000000, 4166552522567110000000000,
     4166552522567110000000000, 2637972626688146000000000, 2637972626688146000000000, 557502224056597000000000,
     4354902702993817000000000, 1112909267055329000000000, 4354902702993817000000000, 4354902702993817000000000,
     1112909267055329000000000, 4354902702993817000000000, 177285326957037000000000, 177285326957037000000000,
     177285326957037000000000, 4354902702993817000000000, 4354902702993817000000000, 1112909267055329000000000,
     534725936418519000000000, 5448865322975603000000000, 534725936418519000000000, 534725936418519000000000,
     5448865322975603000000000, 534725936418519000000000, 3481682804187358000000000, 3481682804187358000000000,
     3481682804187358000000000, 534725936418519000000000, 534725936418519000000000, 5448865322975603000000000,
     1105308939580100000000000, 7694703779405406000000000, 1105308939580100000000000, 1105308939580100000000000,
     7694703779405406000000000, 1105308939580100000000000, 94678341434394000000000, 94678341434394000000000,
     94678341434394000000000, 1105308939580100000000000, 1105308939580100000000000, 7694703779405406000000000,
     410467051499108000000000, 3535307263575092000000000, 6030936440770986000000000, 6030936440770986000000000,
     3535307263575092000000000, 410467051499108000000000, 410467051499108000000000, 3535307263575092000000000,
     6030936440770986000000000, 6030936440770986000000000, 3535307263575092000000000, 410467051499108000000000,
     23289244154814000000000, 23289244154814000000000, 23289244154814000000000, 23289244154814000000000,
     23289244154814000000000, 23289244154814000000000, 3535307263575092000000000, 410467051499108000000000,
     3535307263575092000000000, 410467051499108000000000, 6030936440770986000000000, 6030936440770986000000000,
     920166732769526000000000, 113255282696951000000000, 293931933291708000000000, 293931933291708000000000,
     113255282696951000000000, 920166732769526000000000, 920166732769526000000000, 113255282696951000000000,
     293931933291708000000000, 293931933291708000000000, 113255282696951000000000, 920166732769526000000000,
     8672646051241815000000000, 8672646051241815000000000, 8672646051241815000000000, 8672646051241815000000000,
     8672646051241815000000000, 8672646051241815000000000, 113255282696951000000000, 920166732769526000000000,
     113255282696951000000000, 920166732769526000000000, 293931933291708000000000, 293931933291708000000000,
     682262786800005000000000, 2019857964457858000000000, 7077814873155971000000000, 7077814873155971000000000,
     2019857964457858000000000, 682262786800005000000000, 682262786800005000000000, 2019857964457858000000000,
     7077814873155971000000000, 7077814873155971000000000, 2019857964457858000000000, 682262786800005000000000,
     220064375586166000000000, 220064375586166000000000, 220064375586166000000000, 220064375586166000000000,
     220064375586166000000000, 220064375586166000000000, 2019857964457858000000000, 682262786800005000000000,
     2019857964457858000000000, 682262786800005000000000, 7077814873155971000000000, 7077814873155971000000000,
     1890015556386176000000000, 6133421548059226000000000, 1295809597674534000000000, 1295809597674534000000000,
     6133421548059226000000000, 1890015556386176000000000, 1890015556386176000000000, 6133421548059226000000000,
     1295809597674534000000000, 1295809597674534000000000, 6133421548059226000000000, 1890015556386176000000000,
     680753297880064000000000, 680753297880064000000000, 680753297880064000000000, 680753297880064000000000,
     680753297880064000000000, 680753297880064000000000, 6133421548059226000000000, 1890015556386176000000000,
     6133421548059226000000000, 1890015556386176000000000, 1295809597674534000000000, 1295809597674534000000000,
     3054799663906012000000000, 1524718900094398000000000, 4695333003662676000000000, 4695333003662676000000000,
     1524718900094398000000000, 3054799663906012000000000, 3054799663906012000000000, 1524718900094398000000000,
     4695333003662676000000000, 4695333003662676000000000, 1524718900094398000000000, 3054799663906012000000000,
     725148432336915000000000, 725148432336915000000000, 725148432336915000000000, 725148432336915000000000,
     725148432336915000000000, 725148432336915000000000, 1524718900094398000000000, 3054799663906012000000000,
     1524718900094398000000000, 3054799663906012000000000, 4695333003662676000000000, 4695333003662676000000000,
     1509145500825105000000000, 2601230834564079000000000, 5778346261482753000000000, 5778346261482753000000000,
     2601230834564079000000000, 1509145500825105000000000, 1509145500825105000000000, 2601230834564079000000000,
     5778346261482753000000000, 5778346261482753000000000, 2601230834564079000000000, 1509145500825105000000000,
     111277403128063000000000, 111277403128063000000000, 111277403128063000000000, 111277403128063000000000,
     111277403128063000000000, 111277403128063000000000, 2601230834564079000000000, 1509145500825105000000000,
     2601230834564079000000000, 1509145500825105000000000, 5778346261482753000000000, 5778346261482753000000000,
     3368450658547645000000000, 2347260337441091000000000, 108219475368229000000000, 108219475368229000000000,
     2347260337441091000000000, 3368450658547645000000000, 3368450658547645000000000, 2347260337441091000000000,
     108219475368229000000000, 108219475368229000000000, 2347260337441091000000000, 3368450658547645000000000,
     4176069528643034000000000, 4176069528643034000000000, 4176069528643034000000000, 4176069528643034000000000,
     4176069528643034000000000, 4176069528643034000000000, 2347260337441091000000000, 3368450658547645000000000,
     2347260337441091000000000, 3368450658547645000000000, 108219475368229000000000, 108219475368229000000000],
    [169264215854722000000000, 169264215854722000000000, 169264215854722000000000, 9492207352435834000000000,
     2836779254595722000000000, 2836779254595722000000000, 2836779254595722000000000, 1489662236212833000000000,
     1821984139975859000000000, 1821984139975859000000000, 1821984139975859000000000, 4534047580072424000000000,
     145080051521846000000000, 145080051521846000000000, 145080051521846000000000, 4854919948478154000000000,
     4854919948478154000000000, 4854919948478154000000000, 1427441437658564000000000, 1427441437658564000000000,
     1427441437658564000000000, 3572558562341436000000000, 3572558562341436000000000, 3572558562341436000000000,
     732172725619535000000000, 732172725619535000000000, 7766357493733004000000000, 732172725619535000000000,
     732172725619535000000000, 7766357493733004000000000, 732172725619535000000000, 732172725619535000000000,
     7766357493733004000000000, 769297055027926000000000, 769297055027926000000000, 769297055027926000000000,
     105655841048970000000000, 105655841048970000000000, 2225606554924344000000000, 105655841048970000000000,
     105655841048970000000000, 2225606554924344000000000, 105655841048970000000000, 105655841048970000000000,
     2225606554924344000000000, 7563081762977716000000000, 7563081762977716000000000, 7563081762977716000000000,
     2637972626688146000000000, 2637972626688146000000000, 557502224056597000000000, 2637972626688146000000000,
     2637972626688146000000000, 557502224056597000000000, 2637972626688146000000000, 2637972626688146000000000,
     557502224056597000000000, 4166552522567110000000000, 4166552522567110000000000, 4166552522567110000000000,
     4354902702993817000000000, 4354902702993817000000000, 1112909267055329000000000, 4354902702993817000000000,
     4354902702993817000000000, 1112909267055329000000000, 4354902702993817000000000, 4354902702993817000000000,
     1112909267055329000000000, 177285326957037000000000, 177285326957037000000000, 177285326957037000000000,
     534725936418519000000000, 534725936418519000000000, 5448865322975603000000000, 534725936418519000000000,
     534725936418519000000000, 5448865322975603000000000, 534725936418519000000000, 534725936418519000000000,
     5448865322975603000000000, 3481682804187358000000000, 3481682804187358000000000, 3481682804187358000000000,
     1105308939580100000000000, 1105308939580100000000000, 7694703779405406000000000, 1105308939580100000000000,
     1105308939580100000000000, 7694703779405406000000000, 1105308939580100000000000, 1105308939580100000000000,
     7694703779405406000000000, 94678341434394000000000, 94678341434394000000000, 94678341434394000000000,
     3535307263575092000000000, 410467051499108000000000, 3535307263575092000000000, 410467051499108000000000,
     6030936440770986000000000, 6030936440770986000000000, 3535307263575092000000000, 410467051499108000000000,
     3535307263575092000000000, 410467051499108000000000, 6030936440770986000000000, 6030936440770986000000000,
     3535307263575092000000000, 410467051499108000000000, 3535307263575092000000000, 410467051499108000000000,
     6030936440770986000000000, 6030936440770986000000000, 23289244154814000000000, 23289244154814000000000,
     23289244154814000000000, 23289244154814000000000, 23289244154814000000000, 23289244154814000000000,
     113255282696951000000000, 920166732769526000000000, 113255282696951000000000, 920166732769526000000000,
     293931933291708000000000, 293931933291708000000000, 113255282696951000000000, 920166732769526000000000,
     113255282696951000000000, 920166732769526000000000, 293931933291708000000000, 293931933291708000000000,
     113255282696951000000000, 920166732769526000000000, 113255282696951000000000, 920166732769526000000000,
     293931933291708000000000, 293931933291708000000000, 8672646051241815000000000, 8672646051241815000000000,
     8672646051241815000000000, 8672646051241815000000000, 8672646051241815000000000, 8672646051241815000000000,
     2019857964457858000000000, 682262786800005000000000, 2019857964457858000000000, 682262786800005000000000,
     7077814873155971000000000, 7077814873155971000000000, 2019857964457858000000000, 682262786800005000000000,
     2019857964457858000000000, 682262786800005000000000, 7077814873155971000000000, 7077814873155971000000000,
     2019857964457858000000000, 682262786800005000000000, 2019857964457858000000000, 682262786800005000000000,
     7077814873155971000000000, 7077814873155971000000000, 220064375586166000000000, 220064375586166000000000,
     220064375586166000000000, 220064375586166000000000, 220064375586166000000000, 220064375586166000000000,
     6133421548059226000000000, 1890015556386176000000000, 6133421548059226000000000, 1890015556386176000000000,
     1295809597674534000000000, 1295809597674534000000000, 6133421548059226000000000, 1890015556386176000000000,
     6133421548059226000000000, 1890015556386176000000000, 1295809597674534000000000, 1295809597674534000000000,
     6133421548059226000000000, 1890015556386176000000000, 6133421548059226000000000, 1890015556386176000000000,
     1295809597674534000000000, 1295809597674534000000000, 680753297880064000000000, 680753297880064000000000,
     680753297880064000000000, 680753297880064000000000, 680753297880064000000000, 680753297880064000000000,
     1524718900094398000000000, 3054799663906012000000000, 1524718900094398000000000, 3054799663906012000000000,
     4695333003662676000000000, 4695333003662676000000000, 1524718900094398000000000, 3054799663906012000000000,
     1524718900094398000000000, 3054799663906012000000000, 4695333003662676000000000, 4695333003662676000000000,
     1524718900094398000000000, 3054799663906012000000000, 1524718900094398000000000, 3054799663906012000000000,
     4695333003662676000000000, 4695333003662676000000000, 725148432336915000000000, 725148432336915000000000,
     725148432336915000000000, 725148432336915000000000, 725148432336915000000000, 725148432336915000000000,
     2601230834564079000000000, 1509145500825105000000000, 2601230834564079000000000, 1509145500825105000000000,
     5778346261482753000000000, 5778346261482753000000000, 2601230834564079000000000, 1509145500825105000000000,
     2601230834564079000000000, 1509145500825105000000000, 5778346261482753000000000, 5778346261482753000000000,
     2601230834564079000000000, 1509145500825105000000000, 2601230834564079000000000, 1509145500825105000000000,
     5778346261482753000000000, 5778346261482753000000000, 111277403128063000000000, 111277403128063000000000,
     111277403128063000000000, 111277403128063000000000, 111277403128063000000000, 111277403128063000000000,
     2347260337441091000000000, 3368450658547645000000000, 2347260337441091000000000, 3368450658547645000000000,
     108219475368229000000000, 108219475368229000000000, 2347260337441091000000000, 3368450658547645000000000,
     2347260337441091000000000, 3368450658547645000000000, 108219475368229000000000, 108219475368229000000000,
     2347260337441091000000000, 3368450658547645000000000, 2347260337441091000000000, 3368450658547645000000000,
     108219475368229000000000, 108219475368229000000000, 4176069528643034000000000, 4176069528643034000000000,
     4176069528643034000000000, 4176069528643034000000000, 4176069528643034000000000, 4176069528643034000000000]],
   [5112029771455000000000, 5112029771455000000000, 5112029771455000000000, 5112029771455000000000,
    162074059202266000000000, 162074059202266000000000, 162074059202266000000000, 162074059202266000000000,
    155257860204131000000000, 155257860204131000000000, 155257860204131000000000, 155257860204131000000000,
    12190102599754000000000, 12190102599754000000000, 12190102599754000000000, 12190102599754000000000,
    12190102599754000000000, 12190102599754000000000, 84728628531259000000000, 84728628531259000000000,
    84728628531259000000000, 84728628531259000000000, 84728628531259000000000, 84728628531259000000000,
    17975343054057000000000, 17975343054057000000000, 17975343054057000000000, 17975343054057000000000,
    17975343054057000000000, 17975343054057000000000, 17975343054057000000000, 17975343054057000000000,
    17975343054057000000000, 17975343054057000000000, 17975343054057000000000, 17975343054057000000000,
    8198015220760000000000, 8198015220760000000000, 8198015220760000000000, 8198015220760000000000,
    8198015220760000000000, 8198015220760000000000, 8198015220760000000000, 8198015220760000000000,
    8198015220760000000000, 8198015220760000000000, 8198015220760000000000, 8198015220760000000000,
    76817752724730000000000, 76817752724730000000000, 76817752724730000000000, 76817752724730000000000,
    76817752724730000000000, 76817752724730000000000, 76817752724730000000000, 76817752724730000000000,
    76817752724730000000000, 76817752724730000000000, 76817752724730000000000, 76817752724730000000000,
    44798503857748000000000, 44798503857748000000000, 44798503857748000000000, 44798503857748000000000,
    44798503857748000000000, 44798503857748000000000, 44798503857748000000000, 44798503857748000000000,
    44798503857748000000000, 44798503857748000000000, 44798503857748000000000, 44798503857748000000000,
    56152986083844000000000, 56152986083844000000000, 56152986083844000000000, 56152986083844000000000,
    56152986083844000000000, 56152986083844000000000, 56152986083844000000000, 56152986083844000000000,
    56152986083844000000000, 56152986083844000000000, 56152986083844000000000, 56152986083844000000000,
    17697036857973000000000, 17697036857973000000000, 17697036857973000000000, 17697036857973000000000,
    17697036857973000000000, 17697036857973000000000, 17697036857973000000000, 17697036857973000000000,
    17697036857973000000000, 17697036857973000000000, 17697036857973000000000, 17697036857973000000000,
    11311383291870000000000, 11311383291870000000000, 11311383291870000000000, 11311383291870000000000,
    11311383291870000000000, 11311383291870000000000, 11311383291870000000000, 11311383291870000000000,
    11311383291870000000000, 11311383291870000000000, 11311383291870000000000, 11311383291870000000000,
    11311383291870000000000, 11311383291870000000000, 11311383291870000000000, 11311383291870000000000,
    11311383291870000000000, 11311383291870000000000, 11311383291870000000000, 11311383291870000000000,
    11311383291870000000000, 11311383291870000000000, 11311383291870000000000, 11311383291870000000000,
    8404993407577000000000, 8404993407577000000000, 8404993407577000000000, 8404993407577000000000,
    8404993407577000000000, 8404993407577000000000, 8404993407577000000000, 8404993407577000000000,
    8404993407577000000000, 8404993407577000000000, 8404993407577000000000, 8404993407577000000000,
    8404993407577000000000, 8404993407577000000000, 8404993407577000000000, 8404993407577000000000,
    8404993407577000000000, 8404993407577000000000, 8404993407577000000000, 8404993407577000000000,
    8404993407577000000000, 8404993407577000000000, 8404993407577000000000, 8404993407577000000000,
    30119686074027000000000, 30119686074027000000000, 30119686074027000000000, 30119686074027000000000,
    30119686074027000000000, 30119686074027000000000, 30119686074027000000000, 30119686074027000000000,
    30119686074027000000000, 30119686074027000000000, 30119686074027000000000, 30119686074027000000000,
    30119686074027000000000, 30119686074027000000000, 30119686074027000000000, 30119686074027000000000,
    30119686074027000000000, 30119686074027000000000, 30119686074027000000000, 30119686074027000000000,
    30119686074027000000000, 30119686074027000000000, 30119686074027000000000, 30119686074027000000000,
    50844293275227000000000, 50844293275227000000000, 50844293275227000000000, 50844293275227000000000,
    50844293275227000000000, 50844293275227000000000, 50844293275227000000000, 50844293275227000000000,
    50844293275227000000000, 50844293275227000000000, 50844293275227000000000, 50844293275227000000000,
    50844293275227000000000, 50844293275227000000000, 50844293275227000000000, 50844293275227000000000,
    50844293275227000000000, 50844293275227000000000, 50844293275227000000000, 50844293275227000000000,
    50844293275227000000000, 50844293275227000000000, 50844293275227000000000, 50844293275227000000000,
    71393837280040000000000, 71393837280040000000000, 71393837280040000000000, 71393837280040000000000,
    71393837280040000000000, 71393837280040000000000, 71393837280040000000000, 71393837280040000000000,
    71393837280040000000000, 71393837280040000000000, 71393837280040000000000, 71393837280040000000000,
    71393837280040000000000, 71393837280040000000000, 71393837280040000000000, 71393837280040000000000,
    71393837280040000000000, 71393837280040000000000, 71393837280040000000000, 71393837280040000000000,
    71393837280040000000000, 71393837280040000000000, 71393837280040000000000, 71393837280040000000000,
    33785505682293000000000, 33785505682293000000000, 33785505682293000000000, 33785505682293000000000,
    33785505682293000000000, 33785505682293000000000, 33785505682293000000000, 33785505682293000000000,
    33785505682293000000000, 33785505682293000000000, 33785505682293000000000, 33785505682293000000000,
    33785505682293000000000, 33785505682293000000000, 33785505682293000000000, 33785505682293000000000,
    33785505682293000000000, 33785505682293000000000, 33785505682293000000000, 33785505682293000000000,
    33785505682293000000000, 33785505682293000000000, 33785505682293000000000, 33785505682293000000000,
    22016807777015000000000, 22016807777015000000000, 22016807777015000000000, 22016807777015000000000,
    22016807777015000000000, 22016807777015000000000, 22016807777015000000000, 22016807777015000000000,
    22016807777015000000000, 22016807777015000000000, 22016807777015000000000, 22016807777015000000000,
    22016807777015000000000, 22016807777015000000000, 22016807777015000000000, 22016807777015000000000,
    22016807777015000000000, 22016807777015000000000, 22016807777015000000000, 22016807777015000000000,
    22016807777015000000000, 22016807777015000000000, 22016807777015000000000, 22016807777015000000000]⟩

/-- `tet_data[15]` (jaskowiec_sukumar_tet_data.py 5026-6254). -/
def jsTet_15 : TableRule :=
  ⟨16,
   [
    [3296714738440606000000000, 109855784678181000000000, 3296714738440606000000000, 3296714738440606000000000,
     1120421044173788000000000, 6638736867478636000000000, 1120421044173788000000000, 1120421044173788000000000,
     2804460259110929000000000, 1586619222667212000000000, 2804460259110929000000000, 2804460259110929000000000,
     394216444407617000000000, 8817350666777151000000000, 394216444407617000000000, 394216444407617000000000,
     4250825814352324000000000, 749174185647676000000000, 4250825814352324000000000, 749174185647676000000000,
     4250825814352324000000000, 749174185647676000000000, 1643068970443654000000000, 3356931029556346000000000,
     1643068970443654000000000, 3356931029556346000000000, 1643068970443654000000000, 3356931029556346000000000,
     7646870675801803000000000, 490489875955668000000000, 490489875955668000000000, 1372149572286861000000000,
     1372149572286861000000000, 1372149572286861000000000, 490489875955668000000000, 7646870675801803000000000,
     490489875955668000000000, 490489875955668000000000, 7646870675801803000000000, 490489875955668000000000,
     2328268045894251000000000, 141260956830925000000000, 141260956830925000000000, 7389210040443899000000000,
     7389210040443899000000000, 7389210040443899000000000, 141260956830925000000000, 2328268045894251000000000,
     141260956830925000000000, 141260956830925000000000, 2328268045894251000000000, 141260956830925000000000,
     2832417683077947000000000, 623965205815433000000000, 623965205815433000000000, 5919651905291188000000000,
     5919651905291188000000000, 5919651905291188000000000, 623965205815433000000000, 2832417683077947000000000,
     623965205815433000000000, 623965205815433000000000, 2832417683077947000000000, 623965205815433000000000,
     128318740561182000000000, 1890959275696560000000000, 1890959275696560000000000, 6089762708045698000000000,
     6089762708045698000000000, 6089762708045698000000000, 1890959275696560000000000, 128318740561182000000000,
     1890959275696560000000000, 1890959275696560000000000, 128318740561182000000000, 1890959275696560000000000,
     3872709603194903000000000, 2750176001295444000000000, 2750176001295444000000000, 626938394214209000000000,
     626938394214209000000000, 626938394214209000000000, 2750176001295444000000000, 3872709603194903000000000,
     2750176001295444000000000, 2750176001295444000000000, 3872709603194903000000000, 2750176001295444000000000,
     372380593552354000000000, 59448982525699000000000, 59448982525699000000000, 9508721441396247000000000,
     9508721441396247000000000, 9508721441396247000000000, 59448982525699000000000, 372380593552354000000000,
     59448982525699000000000, 59448982525699000000000, 372380593552354000000000, 59448982525699000000000,
     7482941078308859000000000, 1183058071099944000000000, 1183058071099944000000000, 150942779491252000000000,
     150942779491252000000000, 150942779491252000000000, 1183058071099944000000000, 7482941078308859000000000,
     1183058071099944000000000, 1183058071099944000000000, 7482941078308859000000000, 1183058071099944000000000,
     5146357887888395000000000, 5146357887888395000000000, 801184612787250000000000, 144436385136434000000000,
     801184612787250000000000, 144436385136434000000000, 3908021114187921000000000, 3908021114187921000000000,
     3908021114187921000000000, 3908021114187921000000000, 3908021114187921000000000, 3908021114187921000000000,
     801184612787250000000000, 144436385136434000000000, 5146357887888395000000000, 5146357887888395000000000,
     144436385136434000000000, 801184612787250000000000, 801184612787250000000000, 144436385136434000000000,
     5146357887888395000000000, 5146357887888395000000000, 144436385136434000000000, 801184612787250000000000,
     1645739468379099000000000, 1645739468379099000000000, 3102585498627273000000000, 4552165700697292000000000,
     3102585498627273000000000, 4552165700697292000000000, 699509332296337000000000, 699509332296337000000000,
     699509332296337000000000, 699509332296337000000000, 699509332296337000000000, 699509332296337000000000,
     3102585498627273000000000, 4552165700697292000000000, 1645739468379099000000000, 1645739468379099000000000,
     4552165700697292000000000, 3102585498627273000000000, 3102585498627273000000000, 4552165700697292000000000,
     1645739468379099000000000, 1645739468379099000000000, 4552165700697292000000000, 3102585498627273000000000,
     343586795014570000000000, 343586795014570000000000, 1085240801928985000000000, 14015410850694000000000,
     1085240801928985000000000, 14015410850694000000000, 8557156992205752000000000, 8557156992205752000000000,
     8557156992205752000000000, 8557156992205752000000000, 8557156992205752000000000, 8557156992205752000000000,
     1085240801928985000000000, 14015410850694000000000, 343586795014570000000000, 343586795014570000000000,
     14015410850694000000000, 1085240801928985000000000, 1085240801928985000000000, 14015410850694000000000,
     343586795014570000000000, 343586795014570000000000, 14015410850694000000000, 1085240801928985000000000,
     6625317544850510000000000, 6625317544850510000000000, 2483824987814955000000000, 781025122458046000000000,
     2483824987814955000000000, 781025122458046000000000, 109832344876490000000000, 109832344876490000000000,
     109832344876490000000000, 109832344876490000000000, 109832344876490000000000, 109832344876490000000000,
     2483824987814955000000000, 781025122458046000000000, 6625317544850510000000000, 6625317544850510000000000,
     781025122458046000000000, 2483824987814955000000000, 2483824987814955000000000, 781025122458046000000000,
     6625317544850510000000000, 6625317544850510000000000, 781025122458046000000000, 2483824987814955000000000,
     122689867800652000000000, 122689867800652000000000, 3960091211067035000000000, 5729400176172562000000000,
     3960091211067035000000000, 5729400176172562000000000, 187818744959751000000000, 187818744959751000000000,
     187818744959751000000000, 187818744959751000000000, 187818744959751000000000, 187818744959751000000000,
     3960091211067035000000000, 5729400176172562000000000, 122689867800652000000000, 122689867800652000000000,
     5729400176172562000000000, 3960091211067035000000000, 3960091211067035000000000, 5729400176172562000000000,
     122689867800652000000000, 122689867800652000000000, 5729400176172562000000000, 3960091211067035000000000,
     2054604991324105000000000, 2054604991324105000000000, 636751619713731000000000, 5946193880076269000000000,
     636751619713731000000000, 5946193880076269000000000, 1362449508885895000000000, 1362449508885895000000000,
     1362449508885895000000000, 1362449508885895000000000, 1362449508885895000000000, 1362449508885895000000000,
     636751619713731000000000, 5946193880076269000000000, 2054604991324105000000000, 2054604991324105000000000,
     5946193880076269000000000, 636751619713731000000000, 636751619713731000000000, 5946193880076269000000000,
     2054604991324105000000000, 2054604991324105000000000, 5946193880076269000000000, 636751619713731000000000,
     4610678860796995000000000, 4610678860796995000000000, 1757650466139104000000000, 2244134963451648000000000,
     1757650466139104000000000, 2244134963451648000000000, 1387535709612253000000000, 1387535709612253000000000,
     1387535709612253000000000, 1387535709612253000000000, 1387535709612253000000000, 1387535709612253000000000,
     1757650466139104000000000, 2244134963451648000000000, 4610678860796995000000000, 4610678860796995000000000,
     2244134963451648000000000, 1757650466139104000000000, 1757650466139104000000000, 2244134963451648000000000,
     4610678860796995000000000, 4610678860796995000000000, 2244134963451648000000000, 1757650466139104000000000,
     134478861029963000000000, 134478861029963000000000, 4779942532006705000000000, 1864180300424337000000000,
     4779942532006705000000000, 1864180300424337000000000, 3221398306538996000000000, 3221398306538996000000000,
     3221398306538996000000000, 3221398306538996000000000, 3221398306538996000000000, 3221398306538996000000000,
     4779942532006705000000000, 1864180300424337000000000, 134478861029963000000000, 134478861029963000000000,
     1864180300424337000000000, 4779942532006705000000000, 4779942532006705000000000, 1864180300424337000000000,
     134478861029963000000000, 134478861029963000000000, 1864180300424337000000000, 4779942532006705000000000],
    [3296714738440606000000000, 3296714738440606000000000, 109855784678181000000000, 3296714738440606000000000,
     1120421044173788000000000, 1120421044173788000000000, 6638736867478636000000000, 1120421044173788000000000,
     2804460259110929000000000, 2804460259110929000000000, 1586619222667212000000000, 2804460259110929000000000,
     394216444407617000000000, 394216444407617000000000, 8817350666777151000000000, 394216444407617000000000,
     749174185647676000000000, 4250825814352324000000000, 4250825814352324000000000, 749174185647676000000000,
     749174185647676000000000, 4250825814352324000000000, 3356931029556346000000000, 1643068970443654000000000,
     1643068970443654000000000, 3356931029556346000000000, 3356931029556346000000000, 1643068970443654000000000,
     490489875955668000000000, 7646870675801803000000000, 490489875955668000000000, 490489875955668000000000,
     7646870675801803000000000, 490489875955668000000000, 1372149572286861000000000, 1372149572286861000000000,
     1372149572286861000000000, 490489875955668000000000, 490489875955668000000000, 7646870675801803000000000,
     141260956830925000000000, 2328268045894251000000000, 141260956830925000000000, 141260956830925000000000,
     2328268045894251000000000, 141260956830925000000000, 7389210040443899000000000, 7389210040443899000000000,
     7389210040443899000000000, 141260956830925000000000, 141260956830925000000000, 2328268045894251000000000,
     623965205815433000000000, 2832417683077947000000000, 623965205815433000000000, 623965205815433000000000,
     2832417683077947000000000, 623965205815433000000000, 5919651905291188000000000, 5919651905291188000000000,
     5919651905291188000000000, 623965205815433000000000, 623965205815433000000000, 2832417683077947000000000,
     1890959275696560000000000, 128318740561182000000000, 1890959275696560000000000, 1890959275696560000000000,
     128318740561182000000000, 1890959275696560000000000, 6089762708045698000000000, 6089762708045698000000000,
     6089762708045698000000000, 1890959275696560000000000, 1890959275696560000000000, 128318740561182000000000,
     2750176001295444000000000, 3872709603194903000000000, 2750176001295444000000000, 2750176001295444000000000,
     3872709603194903000000000, 2750176001295444000000000, 626938394214209000000000, 626938394214209000000000,
     626938394214209000000000, 2750176001295444000000000, 2750176001295444000000000, 3872709603194903000000000,
     59448982525699000000000, 372380593552354000000000, 59448982525699000000000, 59448982525699000000000,
     372380593552354000000000, 59448982525699000000000, 9508721441396247000000000, 9508721441396247000000000,
     9508721441396247000000000, 59448982525699000000000, 59448982525699000000000, 372380593552354000000000,
     1183058071099944000000000, 7482941078308859000000000, 1183058071099944000000000, 1183058071099944000000000,
     7482941078308859000000000, 1183058071099944000000000, 150942779491252000000000, 150942779491252000000000,
     150942779491252000000000, 1183058071099944000000000, 1183058071099944000000000, 7482941078308859000000000,
     801184612787250000000000, 144436385136434000000000, 5146357887888395000000000, 5146357887888395000000000,
     144436385136434000000000, 801184612787250000000000, 801184612787250000000000, 144436385136434000000000,
     5146357887888395000000000, 5146357887888395000000000, 144436385136434000000000, 801184612787250000000000,
     3908021114187921000000000, 3908021114187921000000000, 3908021114187921000000000, 3908021114187921000000000,
     3908021114187921000000000, 3908021114187921000000000, 144436385136434000000000, 801184612787250000000000,
     144436385136434000000000, 801184612787250000000000, 5146357887888395000000000, 5146357887888395000000000,
     3102585498627273000000000, 4552165700697292000000000, 1645739468379099000000000, 1645739468379099000000000,
     4552165700697292000000000, 3102585498627273000000000, 3102585498627273000000000, 4552165700697292000000000,
     1645739468379099000000000, 1645739468379099000000000, 4552165700697292000000000, 3102585498627273000000000,
     699509332296337000000000, 699509332296337000000000, 699509332296337000000000, 699509332296337000000000,
     699509332296337000000000, 699509332296337000000000, 4552165700697292000000000, 3102585498627273000000000,
     4552165700697292000000000, 3102585498627273000000000, 1645739468379099000000000, 1645739468379099000000000,
     1085240801928985000000000, 14015410850694000000000, 343586795014570000000000, 343586795014570000000000,
     14015410850694000000000, 1085240801928985000000000, 1085240801928985000000000, 14015410850694000000000,
     343586795014570000000000, 343586795014570000000000, 14015410850694000000000, 1085240801928985000000000,
     8557156992205752000000000, 8557156992205752000000000, 8557156992205752000000000, 8557156992205752000000000,
     8557156992205752000000000, 8557156992205752000000000, 14015410850694000000000, 1085240801928985000000000,
     14015410850694000000000, 1085240801928985000000000, 343586795014570000000000, 343586795014570000000000,
     2483824987814955000000000, 781025122458046000000000, 6625317544850510000000000, 6625317544850510000000000,
     781025122458046000000000, 2483824987814955000000000, 2483824987814955000000000, 781025122458046000000000,
     6625317544850510000000000, 6625317544850510000000000, 781025122458046000000000, 2483824987814955000000000,
     109832344876490000000000, 109832344876490000000000, 109832344876490000000000, 109832344876490000000000,
     109832344876490000000000, 109832344876490000000000, 781025122458046000000000, 2483824987814955000000000,
     781025122458046000000000, 2483824987814955000000000, 6625317544850510000000000, 6625317544850510000000000,
     3960091211067035000000000, 5729400176172562000000000, 122689867800652000000000, 122689867800652000000000,
     5729400176172562000000000, 3960091211067035000000000, 3960091211067035000000000, 5729400176172562000000000,
     122689867800652000000000, 122689867800652000000000, 5729400176172562000000000, 3960091211067035000000000,
     187818744959751000000000, 187818744959751000000000, 187818744959751000000000, 187818744959751000000000,
     187818744959751000000000, 187818744959751000000000, 5729400176172562000000000, 3960091211067035000000000,
     5729400176172562000000000, 3960091211067035000000000, 122689867800652000000000, 122689867800652000000000,
     636751619713731000000000, 5946193880076269000000000, 2054604991324105000000000, 2054604991324105000000000,
     5946193880076269000000000, 636751619713731000000000, 636751619713731000000000, 5946193880076269000000000,
     2054604991324105000000000, 2054604991324105000000000, 5946193880076269000000000, 636751619713731000000000,
     1362449508885895000000000, 1362449508885895000000000, 1362449508885895000000000, 1362449508885895000000000,
     1362449508885895000000000, 1362449508885895000000000, 5946193880076269000000000, 636751619713731000000000,
     5946193880076269000000000, 636751619713731000000000, 2054604991324105000000000, 2054604991324105000000000,
     1757650466139104000000000, 2244134963451648000000000, 4610678860796995000000000, 4610678860796995000000000,
     2244134963451648000000000, 1757650466139104000000000, 1757650466139104000000000, 2244134963451648000000000,
     4610678860796995000000000, 4610678860796995000000000, 2244134963451648000000000, 1757650466139104000000000,
     1387535709612253000000000, 1387535709612253000000000, 1387535709612253000000000, 1387535709612253000000000,
     1387535709612253000000000, 1387535709612253000000000, 2244134963451648000000000, 1757650466139104000000000,
     2244134963451648000000000, 1757650466139104000000000, 4610678860796995000000000, 4610678860796995000000000,
     4779942532006705000000000, 1864180300424337000000000, 134478861029963000000000, 134478861029963000000000,
     1864180300424337000000000, 4779942532006705000000000, 4779942532006705000000000, 1864180300424337000000000,
     134478861029963000000000, 134478861029963000000000, 1864180300424337000000000, 4779942532006705000000000,
     3221398306538996000000000, 3221398306538996000000000, 3221398306538996000000000, 3221398306538996000000000,
     3221398306538996000000000, 3221398306538996000000000, 1864180300424337000000000, 4779942532006705000000000,
     1864180300424337000000000, 4779942532006705000000000, 134478861029963000000000, 134478861029963000000000],
    [3296714738440606000000000, 3296714738440606000000000, 3296714738440606000000000, 109855784678181000000000,
     1120421044173788000000000, 1120421044173788000000000, 1120421044173788000000000, 6638736867478636000000000,
     2804460259110929000000000, 2804460259110929000000000, 2804460259110929000000000, 1586619222667212000000000,
     394216444407617000000000, 394216444407617000000000, 394216444407617000000000, 8817350666777151000000000,
     749174185647676000000000, 749174185647676000000000, 749174185647676000000000, 4250825814352324000000000,
     4250825814352324000000000, 4250825814352324000000000, 3356931029556346000000000, 3356931029556346000000000,
     3356931029556346000000000, 1643068970443654000000000, 1643068970443654000000000, 1643068970443654000000000,
     490489875955668000000000, 490489875955668000000000, 7646870675801803000000000, 490489875955668000000000,
     490489875955668000000000, 7646870675801803000000000, 490489875955668000000000, 490489875955668000000000,
     7646870675801803000000000, 1372149572286861000000000, 1372149572286861000000000, 1372149572286861000000000,
     141260956830925000000000, 141260956830925000000000, 2328268045894251000000000, 141260956830925000000000,
     141260956830925000000000, 2328268045894251000000000, 141260956830925000000000, 141260956830925000000000,
     2328268045894251000000000, 7389210040443899000000000, 7389210040443899000000000, 7389210040443899000000000,
     623965205815433000000000, 623965205815433000000000, 2832417683077947000000000, 623965205815433000000000,
     623965205815433000000000, 2832417683077947000000000, 623965205815433000000000, 623965205815433000000000,
     2832417683077947000000000, 5919651905291188000000000, 5919651905291188000000000, 5919651905291188000000000,
     1890959275696560000000000, 1890959275696560000000000, 128318740561182000000000, 1890959275696560000000000,
     1890959275696560000000000, 128318740561182000000000, 1890959275696560000000000, 1890959275696560000000000,
     128318740561182000000000, 6089762708045698000000000, 6089762708045698000000000, 6089762708045698000000000,
     2750176001295444000000000, 2750176001295444000000000, 3872709603194903000000000, 2750176001295444000000000,
     2750176001295444000000000, 3872709603194903000000000, 2750176001295444000000000, 2750176001295444000000000,
     3872709603194903000000000, 626938394214209000000000, 626938394214209000000000, 626938394214209000000000,
     59448982525699000000000, 59448982525699000000000, 372380593552354000000000, 59448982525699000000000,
     59448982525699000000000, 372380593552354000000000, 59448982525699000000000, 59448982525699000000000,
     372380593552354000000000, 9508721441396247000000000, 9508721441396247000000000, 9508721441396247000000000,
     1183058071099944000000000, 1183058071099944000000000, 7482941078308859000000000, 1183058071099944000000000,
     1183058071099944000000000, 7482941078308859000000000, 1183058071099944000000000, 1183058071099944000000000,
     7482941078308859000000000, 150942779491252000000000, 150942779491252000000000, 150942779491252000000000,
     144436385136434000000000, 801184612787250000000000, 144436385136434000000000, 801184612787250000000000,
     5146357887888395000000000, 5146357887888395000000000, 144436385136434000000000, 801184612787250000000000,
     144436385136434000000000, 801184612787250000000000, 5146357887888395000000000, 5146357887888395000000000,
     144436385136434000000000, 801184612787250000000000, 144436385136434000000000, 801184612787250000000000,
     5146357887888395000000000, 5146357887888395000000000, 3908021114187921000000000, 3908021114187921000000000,
     3908021114187921000000000, 3908021114187921000000000, 3908021114187921000000000, 3908021114187921000000000,
     4552165700697292000000000, 3102585498627273000000000, 4552165700697292000000000, 3102585498627273000000000,
     1645739468379099000000000, 1645739468379099000000000, 4552165700697292000000000, 3102585498627273000000000,
     4552165700697292000000000, 3102585498627273000000000, 1645739468379099000000000, 1645739468379099000000000,
     4552165700697292000000000, 3102585498627273000000000, 4552165700697292000000000, 3102585498627273000000000,
     1645739468379099000000000, 1645739468379099000000000, 699509332296337000000000, 699509332296337000000000,
     699509332296337000000000, 699509332296337000000000, 699509332296337000000000, 699509332296337000000000,
     14015410850694000000000, 1085240801928985000000000, 14015410850694000000000, 1085240801928985000000000,
     343586795014570000000000, 343586795014570000000000, 14015410850694000000000, 1085240801928985000000000,
     14015410850694000000000, 1085240801928985000000000, 343586795014570000000000, 343586795014570000000000,
     14015410850694000000000, 1085240801928985000000000, 14015410850694000000000, 1085240801928985000000000,
     343586795014570000000000, 343586795014570000000000, 8557156992205752000000000, 8557156992205752000000000,
     8557156992205752000000000, 8557156992205752000000000, 8557156992205752000000000, 8557156992205752000000000,
     781025122458046000000000, 2483824987814955000000000, 781025122458046000000000, 2483824987814955000000000,
     6625317544850510000000000, 6625317544850510000000000, 781025122458046000000000, 2483824987814955000000000,
     781025122458046000000000, 2483824987814955000000000, 6625317544850510000000000, 6625317544850510000000000,
     781025122458046000000000, 2483824987814955000000000, 781025122458046000000000, 2483824987814955000000000,
     6625317544850510000000000, 6625317544850510000000000, 109832344876490000000000, 109832344876490000000000,
     109832344876490000000000, 109832344876490000000000, 109832344876490000000000, 109832344876490000000000,
     5729400176172562000000000, 3960091211067035000000000, 5729400176172562000000000, 3960091211067035000000000,
     122689867800652000000000, 122689867800652000000000, 5729400176172562000000000, 3960091211067035000000000,
     5729400176172562000000000, 3960091211067035000000000, 122689867800652000000000, 122689867800652000000000,
     5729400176172562000000000, 3960091211067035000000000, 5729400176172562000000000, 3960091211067035000000000,
     122689867800652000000000, 122689867800652000000000, 187818744959751000000000, 187818744959751000000000,
     187818744959751000000000, 187818744959751000000000, 187818744959751000000000, 187818744959751000000000,
     5946193880076269000000000, 636751619713731000000000, 5946193880076269000000000, 636751619713731000000000,
     2054604991324105000000000, 2054604991324105000000000, 5946193880076269000000000, 636751619713731000000000,
     5946193880076269000000000, 636751619713731000000000, 2054604991324105000000000, 2054604991324105000000000,
     5946193880076269000000000, 636751619713731000000000, 5946193880076269000000000, 636751619713731000000000,
     2054604991324105000000000, 2054604991324105000000000, 1362449508885895000000000, 1362449508885895000000000,
     1362449508885895000000000, 1362449508885895000000000, 1362449508885895000000000, 1362449508885895000000000,
     2244134963451648000000000, 1757650466139104000000000, 2244134963451648000000000, 1757650466139104000000000,
     4610678860796995000000000, 4610678860796995000000000, 2244134963451648000000000, 1757650466139104000000000,
     2244134963451648000000000, 1757650466139104000000000, 4610678860796995000000000, 4610678860796995000000000,
     2244134963451648000000000, 1757650466139104000000000, 2244134963451648000000000, 1757650466139104000000000,
     4610678860796995000000000, 4610678860796995000000000, 1387535709612253000000000, 1387535709612253000000000,
     1387535709612253000000000, 1387535709612253000000000, 1387535709612253000000000, 1387535709612253000000000,
     1864180300424337000000000, 4779942532006705000000000, 1864180300424337000000000, 4779942532006705000000000,
     134478861029963000000000, 134478861029963000000000, 1864180300424337000000000, 4779942532006705000000000,
     1864180300424337000000000, 4779942532006705000000000, 134478861029963000000000, 134478861029963000000000,
     1864180300424337000000000, 4779942532006705000000000, 1864180300424337000000000, 4779942532006705000000000,
     134478861029963000000000, 134478861029963000000000, 3221398306538996000000000, 3221398306538996000000000,
     3221398306538996000000000, 3221398306538996000000000, 3221398306538996000000000, 3221398306538996000000000]],
   [40348789372389000000000, 40348789372389000000000, 40348789372389000000000, 40348789372389000000000,
    52634280080476000000000, 52634280080476000000000, 52634280080476000000000, 52634280080476000000000,
    107863910685776000000000, 107863910685776000000000, 107863910685776000000000, 107863910685776000000000,
    18923400290310000000000, 18923400290310000000000, 18923400290310000000000, 18923400290310000000000,
    60145110030005000000000, 60145110030005000000000, 60145110030005000000000, 60145110030005000000000,
    60145110030005000000000, 60145110030005000000000, 86921912328730000000000, 86921912328730000000000,
    86921912328730000000000, 86921912328730000000000, 86921912328730000000000, 86921912328730000000000,
    35076232857850000000000, 35076232857850000000000, 35076232857850000000000, 35076232857850000000000,
    35076232857850000000000, 35076232857850000000000, 35076232857850000000000, 35076232857850000000000,
    35076232857850000000000, 35076232857850000000000, 35076232857850000000000, 35076232857850000000000,
    11886622733192000000000, 11886622733192000000000, 11886622733192000000000, 11886622733192000000000,
    11886622733192000000000, 11886622733192000000000, 11886622733192000000000, 11886622733192000000000,
    11886622733192000000000, 11886622733192000000000, 11886622733192000000000, 11886622733192000000000,
    43452253144667000000000, 43452253144667000000000, 43452253144667000000000, 43452253144667000000000,
    43452253144667000000000, 43452253144667000000000, 43452253144667000000000, 43452253144667000000000,
    43452253144667000000000, 43452253144667000000000, 43452253144667000000000, 43452253144667000000000,
    26606865702032000000000, 26606865702032000000000, 26606865702032000000000, 26606865702032000000000,
    26606865702032000000000, 26606865702032000000000, 26606865702032000000000, 26606865702032000000000,
    26606865702032000000000, 26606865702032000000000, 26606865702032000000000, 26606865702032000000000,
    55531743021240000000000, 55531743021240000000000, 55531743021240000000000, 55531743021240000000000,
    55531743021240000000000, 55531743021240000000000, 55531743021240000000000, 55531743021240000000000,
    55531743021240000000000, 55531743021240000000000, 55531743021240000000000, 55531743021240000000000,
    1531431405396000000000, 1531431405396000000000, 1531431405396000000000, 1531431405396000000000,
    1531431405396000000000, 1531431405396000000000, 1531431405396000000000, 1531431405396000000000,
    1531431405396000000000, 1531431405396000000000, 1531431405396000000000, 1531431405396000000000,
    22312041367157000000000, 22312041367157000000000, 22312041367157000000000, 22312041367157000000000,
    22312041367157000000000, 22312041367157000000000, 22312041367157000000000, 22312041367157000000000,
    22312041367157000000000, 22312041367157000000000, 22312041367157000000000, 22312041367157000000000,
    24723771562500000000000, 24723771562500000000000, 24723771562500000000000, 24723771562500000000000,
    24723771562500000000000, 24723771562500000000000, 24723771562500000000000, 24723771562500000000000,
    24723771562500000000000, 24723771562500000000000, 24723771562500000000000, 24723771562500000000000,
    24723771562500000000000, 24723771562500000000000, 24723771562500000000000, 24723771562500000000000,
    24723771562500000000000, 24723771562500000000000, 24723771562500000000000, 24723771562500000000000,
    24723771562500000000000, 24723771562500000000000, 24723771562500000000000, 24723771562500000000000,
    65961228918179000000000, 65961228918179000000000, 65961228918179000000000, 65961228918179000000000,
    65961228918179000000000, 65961228918179000000000, 65961228918179000000000, 65961228918179000000000,
    65961228918179000000000, 65961228918179000000000, 65961228918179000000000, 65961228918179000000000,
    65961228918179000000000, 65961228918179000000000, 65961228918179000000000, 65961228918179000000000,
    65961228918179000000000, 65961228918179000000000, 65961228918179000000000, 65961228918179000000000,
    65961228918179000000000, 65961228918179000000000, 65961228918179000000000, 65961228918179000000000,
    6004349067697000000000, 6004349067697000000000, 6004349067697000000000, 6004349067697000000000,
    6004349067697000000000, 6004349067697000000000, 6004349067697000000000, 6004349067697000000000,
    6004349067697000000000, 6004349067697000000000, 6004349067697000000000, 6004349067697000000000,
    6004349067697000000000, 6004349067697000000000, 6004349067697000000000, 6004349067697000000000,
    6004349067697000000000, 6004349067697000000000, 6004349067697000000000, 6004349067697000000000,
    6004349067697000000000, 6004349067697000000000, 6004349067697000000000, 6004349067697000000000,
    22423309968765000000000, 22423309968765000000000, 22423309968765000000000, 22423309968765000000000,
    22423309968765000000000, 22423309968765000000000, 22423309968765000000000, 22423309968765000000000,
    22423309968765000000000, 22423309968765000000000, 22423309968765000000000, 22423309968765000000000,
    22423309968765000000000, 22423309968765000000000, 22423309968765000000000, 22423309968765000000000,
    22423309968765000000000, 22423309968765000000000, 22423309968765000000000, 22423309968765000000000,
    22423309968765000000000, 22423309968765000000000, 22423309968765000000000, 22423309968765000000000,
    8244422362472000000000, 8244422362472000000000, 8244422362472000000000, 8244422362472000000000,
    8244422362472000000000, 8244422362472000000000, 8244422362472000000000, 8244422362472000000000,
    8244422362472000000000, 8244422362472000000000, 8244422362472000000000, 8244422362472000000000,
    8244422362472000000000, 8244422362472000000000, 8244422362472000000000, 8244422362472000000000,
    8244422362472000000000, 8244422362472000000000, 8244422362472000000000, 8244422362472000000000,
    8244422362472000000000, 8244422362472000000000, 8244422362472000000000, 8244422362472000000000,
    43880158352679000000000, 43880158352679000000000, 43880158352679000000000, 43880158352679000000000,
    43880158352679000000000, 43880158352679000000000, 43880158352679000000000, 43880158352679000000000,
    43880158352679000000000, 43880158352679000000000, 43880158352679000000000, 43880158352679000000000,
    43880158352679000000000, 43880158352679000000000, 43880158352679000000000, 43880158352679000000000,
    43880158352679000000000, 43880158352679000000000, 43880158352679000000000, 43880158352679000000000,
    43880158352679000000000, 43880158352679000000000, 43880158352679000000000, 43880158352679000000000,
    34542784257410000000000, 34542784257410000000000, 34542784257410000000000, 34542784257410000000000,
    34542784257410000000000, 34542784257410000000000, 34542784257410000000000, 34542784257410000000000,
    34542784257410000000000, 34542784257410000000000, 34542784257410000000000, 34542784257410000000000,
    34542784257410000000000, 34542784257410000000000, 34542784257410000000000, 34542784257410000000000,
    34542784257410000000000, 34542784257410000000000, 34542784257410000000000, 34542784257410000000000,
    34542784257410000000000, 34542784257410000000000, 34542784257410000000000, 34542784257410000000000,
    39292894733356000000000, 39292894733356000000000, 39292894733356000000000, 39292894733356000000000,
    39292894733356000000000, 39292894733356000000000, 39292894733356000000000, 39292894733356000000000,
    39292894733356000000000, 39292894733356000000000, 39292894733356000000000, 39292894733356000000000,
    39292894733356000000000, 39292894733356000000000, 39292894733356000000000, 39292894733356000000000,
    39292894733356000000000, 39292894733356000000000, 39292894733356000000000, 39292894733356000000000,
    39292894733356000000000, 39292894733356000000000, 39292894733356000000000, 39292894733356000000000]⟩

/-- `tet_data[16]` (jaskowiec_sukumar_tet_data.py 6255-7723). -/
def jsTet_16 : TableRule :=
  ⟨17,
   [
    [1092594110391400000000000, 6722217668825801000000000, 1092594110391400000000000, 1092594110391400000000000,
     170690533535099000000000, 9487928399394703000000000, 170690533535099000000000, 170690533535099000000000,
     603027644020867000000000, 8190917067937399000000000, 603027644020867000000000, 603027644020867000000000,
     1802936778752487000000000, 4591189663742538000000000, 1802936778752487000000000, 1802936778752487000000000,
     2924357505680077000000000, 2075642494319923000000000, 2924357505680077000000000, 2075642494319923000000000,
     2924357505680077000000000, 2075642494319923000000000, 4364943812496382000000000, 635056187503618000000000,
     4364943812496382000000000, 635056187503618000000000, 4364943812496382000000000, 635056187503618000000000,
     3574259051430166000000000, 1425740948569834000000000, 3574259051430166000000000, 1425740948569834000000000,
     3574259051430166000000000, 1425740948569834000000000, 4847450103886418000000000, 152549896113582000000000,
     4847450103886418000000000, 152549896113582000000000, 4847450103886418000000000, 152549896113582000000000,
     66056285459364000000000, 2817717468661823000000000, 2817717468661823000000000, 4298508777216989000000000,
     4298508777216989000000000, 4298508777216989000000000, 2817717468661823000000000, 66056285459364000000000,
     2817717468661823000000000, 2817717468661823000000000, 66056285459364000000000, 2817717468661823000000000,
     3473076755269789000000000, 2532792896616394000000000, 2532792896616394000000000, 1461337451497424000000000,
     1461337451497424000000000, 1461337451497424000000000, 2532792896616394000000000, 3473076755269789000000000,
     2532792896616394000000000, 2532792896616394000000000, 3473076755269789000000000, 2532792896616394000000000,
     5129631932135305000000000, 1194446836887992000000000, 1194446836887992000000000, 2481474394088712000000000,
     2481474394088712000000000, 2481474394088712000000000, 1194446836887992000000000, 5129631932135305000000000,
     1194446836887992000000000, 1194446836887992000000000, 5129631932135305000000000, 1194446836887992000000000,
     4040135150131379000000000, 2796975892179978000000000, 2796975892179978000000000, 365913065508666000000000,
     365913065508666000000000, 365913065508666000000000, 2796975892179978000000000, 4040135150131379000000000,
     2796975892179978000000000, 2796975892179978000000000, 4040135150131379000000000, 2796975892179978000000000,
     2771505768037979000000000, 591496500175592000000000, 591496500175592000000000, 6045501231610838000000000,
     6045501231610838000000000, 6045501231610838000000000, 591496500175592000000000, 2771505768037979000000000,
     591496500175592000000000, 591496500175592000000000, 2771505768037979000000000, 591496500175592000000000,
     3372693231713962000000000, 115664568797204000000000, 115664568797204000000000, 6395977630691629000000000,
     6395977630691629000000000, 6395977630691629000000000, 115664568797204000000000, 3372693231713962000000000,
     115664568797204000000000, 115664568797204000000000, 3372693231713962000000000, 115664568797204000000000,
     889921351196739000000000, 2546200946118619000000000, 2546200946118619000000000, 4017676756566024000000000,
     4017676756566024000000000, 4017676756566024000000000, 2546200946118619000000000, 889921351196739000000000,
     2546200946118619000000000, 2546200946118619000000000, 889921351196739000000000, 2546200946118619000000000,
     833537700079728000000000, 66729146778652000000000, 66729146778652000000000, 9033004006362969000000000,
     9033004006362969000000000, 9033004006362969000000000, 66729146778652000000000, 833537700079728000000000,
     66729146778652000000000, 66729146778652000000000, 833537700079728000000000, 66729146778652000000000,
     1488738514609226000000000, 595499636617363000000000, 595499636617363000000000, 7320262212156049000000000,
     7320262212156049000000000, 7320262212156049000000000, 595499636617363000000000, 1488738514609226000000000,
     595499636617363000000000, 595499636617363000000000, 1488738514609226000000000, 595499636617363000000000,
     130804747131276000000000, 130804747131276000000000, 956382942582895000000000, 7229319246103527000000000,
     956382942582895000000000, 7229319246103527000000000, 1683493064182302000000000, 1683493064182302000000000,
     1683493064182302000000000, 1683493064182302000000000, 1683493064182302000000000, 1683493064182302000000000,
     956382942582895000000000, 7229319246103527000000000, 130804747131276000000000, 130804747131276000000000,
     7229319246103527000000000, 956382942582895000000000, 956382942582895000000000, 7229319246103527000000000,
     130804747131276000000000, 130804747131276000000000, 7229319246103527000000000, 956382942582895000000000,
     6376551993416253000000000, 6376551993416253000000000, 603575153489387000000000, 2913648223135218000000000,
     603575153489387000000000, 2913648223135218000000000, 106224629959142000000000, 106224629959142000000000,
     106224629959142000000000, 106224629959142000000000, 106224629959142000000000, 106224629959142000000000,
     603575153489387000000000, 2913648223135218000000000, 6376551993416253000000000, 6376551993416253000000000,
     2913648223135218000000000, 603575153489387000000000, 603575153489387000000000, 2913648223135218000000000,
     6376551993416253000000000, 6376551993416253000000000, 2913648223135218000000000, 603575153489387000000000,
     1575062824084584000000000, 1575062824084584000000000, 5720629662753272000000000, 2575352925182314000000000,
     5720629662753272000000000, 2575352925182314000000000, 128954587979830000000000, 128954587979830000000000,
     128954587979830000000000, 128954587979830000000000, 128954587979830000000000, 128954587979830000000000,
     5720629662753272000000000, 2575352925182314000000000, 1575062824084584000000000, 1575062824084584000000000,
     2575352925182314000000000, 5720629662753272000000000, 5720629662753272000000000, 2575352925182314000000000,
     1575062824084584000000000, 1575062824084584000000000, 2575352925182314000000000, 5720629662753272000000000,
     1530963612221368000000000, 1530963612221368000000000, 5982871618499548000000000, 1837258256088453000000000,
     5982871618499548000000000, 1837258256088453000000000, 648906513190632000000000, 648906513190632000000000,
     648906513190632000000000, 648906513190632000000000, 648906513190632000000000, 648906513190632000000000,
     5982871618499548000000000, 1837258256088453000000000, 1530963612221368000000000, 1530963612221368000000000,
     1837258256088453000000000, 5982871618499548000000000, 5982871618499548000000000, 1837258256088453000000000,
     1530963612221368000000000, 1530963612221368000000000, 1837258256088453000000000, 5982871618499548000000000,
     116550029704661000000000, 116550029704661000000000, 872107792177225000000000, 8540565555742755000000000,
     872107792177225000000000, 8540565555742755000000000, 470776622375358000000000, 470776622375358000000000,
     470776622375358000000000, 470776622375358000000000, 470776622375358000000000, 470776622375358000000000,
     872107792177225000000000, 8540565555742755000000000, 116550029704661000000000, 116550029704661000000000,
     8540565555742755000000000, 872107792177225000000000, 872107792177225000000000, 8540565555742755000000000,
     116550029704661000000000, 116550029704661000000000, 8540565555742755000000000, 872107792177225000000000,
     4085328910163256000000000, 4085328910163256000000000, 4137799680661914000000000, 1672070477173488000000000,
     4137799680661914000000000, 1672070477173488000000000, 104800932001341000000000, 104800932001341000000000,
     104800932001341000000000, 104800932001341000000000, 104800932001341000000000, 104800932001341000000000,
     4137799680661914000000000, 1672070477173488000000000, 4085328910163256000000000, 4085328910163256000000000,
     1672070477173488000000000, 4137799680661914000000000, 4137799680661914000000000, 1672070477173488000000000,
     4085328910163256000000000, 4085328910163256000000000, 1672070477173488000000000, 4137799680661914000000000,
     116793229924696000000000, 116793229924696000000000, 3904989583719425000000000, 5242157619428415000000000,
     3904989583719425000000000, 5242157619428415000000000, 736059566927464000000000, 736059566927464000000000,
     736059566927464000000000, 736059566927464000000000, 736059566927464000000000, 736059566927464000000000,
     3904989583719425000000000, 5242157619428415000000000, 116793229924696000000000, 116793229924696000000000,
     5242157619428415000000000, 3904989583719425000000000, 3904989583719425000000000, 5242157619428415000000000,
     116793229924696000000000, 116793229924696000000000, 5242157619428415000000000, 3904989583719425000000000,
     81636803712330000000000, 81636803712330000000000, 7735017403534717000000000, 1928802696509954000000000,
     7735017403534717000000000, 1928802696509954000000000, 254543096242999000000000, 254543096242999000000000,
     254543096242999000000000, 254543096242999000000000, 254543096242999000000000, 254543096242999000000000,
     7735017403534717000000000, 1928802696509954000000000, 81636803712330000000000, 81636803712330000000000,
     1928802696509954000000000, 7735017403534717000000000, 7735017403534717000000000, 1928802696509954000000000,
     81636803712330000000000, 81636803712330000000000, 1928802696509954000000000, 7735017403534717000000000,
     1529886055031752000000000, 1529886055031752000000000, 560344049440816000000000, 4682783426267390000000000,
     560344049440816000000000, 4682783426267390000000000, 3226986469260043000000000, 3226986469260043000000000,
     3226986469260043000000000, 3226986469260043000000000, 3226986469260043000000000, 3226986469260043000000000,
     560344049440816000000000, 4682783426267390000000000, 1529886055031752000000000, 1529886055031752000000000,
     4682783426267390000000000, 560344049440816000000000, 560344049440816000000000, 4682783426267390000000000,
     1529886055031752000000000, 1529886055031752000000000, 4682783426267390000000000, 560344049440816000000000],
    [1092594110391400000000000, 1092594110391400000000000, 6722217668825801000000000, 1092594110391400000000000,
     170690533535099000000000, 170690533535099000000000, 9487928399394703000000000, 170690533535099000000000,
     603027644020867000000000, 603027644020867000000000, 8190917067937399000000000, 603027644020867000000000,
     1802936778752487000000000, 1802936778752487000000000, 4591189663742538000000000, 1802936778752487000000000,
     2075642494319923000000000, 2924357505680077000000000, 2924357505680077000000000, 2075642494319923000000000,
     2075642494319923000000000, 2924357505680077000000000, 635056187503618000000000, 4364943812496382000000000,
     4364943812496382000000000, 635056187503618000000000, 635056187503618000000000, 4364943812496382000000000,
     1425740948569834000000000, 3574259051430166000000000, 3574259051430166000000000, 1425740948569834000000000,
     1425740948569834000000000, 3574259051430166000000000, 152549896113582000000000, 4847450103886418000000000,
     4847450103886418000000000, 152549896113582000000000, 152549896113582000000000, 4847450103886418000000000,
     2817717468661823000000000, 66056285459364000000000, 2817717468661823000000000, 2817717468661823000000000,
     66056285459364000000000, 2817717468661823000000000, 4298508777216989000000000, 4298508777216989000000000,
     4298508777216989000000000, 2817717468661823000000000, 2817717468661823000000000, 66056285459364000000000,
     2532792896616394000000000, 3473076755269789000000000, 2532792896616394000000000, 2532792896616394000000000,
     3473076755269789000000000, 2532792896616394000000000, 1461337451497424000000000, 1461337451497424000000000,
     1461337451497424000000000, 2532792896616394000000000, 2532792896616394000000000, 3473076755269789000000000,
     1194446836887992000000000, 5129631932135305000000000, 1194446836887992000000000, 1194446836887992000000000,
     5129631932135305000000000, 1194446836887992000000000, 2481474394088712000000000, 2481474394088712000000000,
     2481474394088712000000000, 1194446836887992000000000, 1194446836887992000000000, 5129631932135305000000000,
     2796975892179978000000000, 4040135150131379000000000, 2796975892179978000000000, 2796975892179978000000000,
     4040135150131379000000000, 2796975892179978000000000, 365913065508666000000000, 365913065508666000000000,
     365913065508666000000000, 2796975892179978000000000, 2796975892179978000000000, 4040135150131379000000000,
     591496500175592000000000, 2771505768037979000000000, 591496500175592000000000, 591496500175592000000000,
     2771505768037979000000000, 591496500175592000000000, 6045501231610838000000000, 6045501231610838000000000,
     6045501231610838000000000, 591496500175592000000000, 591496500175592000000000, 2771505768037979000000000,
     115664568797204000000000, 3372693231713962000000000, 115664568797204000000000, 115664568797204000000000,
     3372693231713962000000000, 115664568797204000000000, 6395977630691629000000000, 6395977630691629000000000,
     6395977630691629000000000, 115664568797204000000000, 115664568797204000000000, 3372693231713962000000000,
     2546200946118619000000000, 889921351196739000000000, 2546200946118619000000000, 2546200946118619000000000,
     889921351196739000000000, 2546200946118619000000000, 4017676756566024000000000, 4017676756566024000000000,
     4017676756566024000000000, 2546200946118619000000000, 2546200946118619000000000, 889921351196739000000000,
     66729146778652000000000, 833537700079728000000000, 66729146778652000000000, 66729146778652000000000,
     833537700079728000000000, 66729146778652000000000, 9033004006362969000000000, 9033004006362969000000000,
     9033004006362969000000000, 66729146778652000000000, 66729146778652000000000, 833537700079728000000000,
     595499636617363000000000, 1488738514609226000000000, 595499636617363000000000, 595499636617363000000000,
     1488738514609226000000000, 595499636617363000000000, 7320262212156049000000000, 7320262212156049000000000,
     7320262212156049000000000, 595499636617363000000000, 595499636617363000000000, 1488738514609226000000000,
     956382942582895000000000, 7229319246103527000000000, 130804747131276000000000, 130804747131276000000000,
     7229319246103527000000000, 956382942582895000000000, 956382942582895000000000, 7229319246103527000000000,
     130804747131276000000000, 130804747131276000000000, 7229319246103527000000000, 956382942582895000000000,
     1683493064182302000000000, 1683493064182302000000000, 1683493064182302000000000, 1683493064182302000000000,
     1683493064182302000000000, 1683493064182302000000000, 7229319246103527000000000, 956382942582895000000000,
     7229319246103527000000000, 956382942582895000000000, 130804747131276000000000, 130804747131276000000000,
     603575153489387000000000, 2913648223135218000000000, 6376551993416253000000000, 6376551993416253000000000,
     2913648223135218000000000, 603575153489387000000000, 603575153489387000000000, 2913648223135218000000000,
     6376551993416253000000000, 6376551993416253000000000, 2913648223135218000000000, 603575153489387000000000,
     106224629959142000000000, 106224629959142000000000, 106224629959142000000000, 106224629959142000000000,
     106224629959142000000000, 106224629959142000000000, 2913648223135218000000000, 603575153489387000000000,
     2913648223135218000000000, 603575153489387000000000, 6376551993416253000000000, 6376551993416253000000000,
     5720629662753272000000000, 2575352925182314000000000, 1575062824084584000000000, 1575062824084584000000000,
     2575352925182314000000000, 5720629662753272000000000, 5720629662753272000000000, 2575352925182314000000000,
     1575062824084584000000000, 1575062824084584000000000, 2575352925182314000000000, 5720629662753272000000000,
     128954587979830000000000, 128954587979830000000000, 128954587979830000000000, 128954587979830000000000,
     128954587979830000000000, 128954587979830000000000, 2575352925182314000000000, 5720629662753272000000000,
     2575352925182314000000000, 5720629662753272000000000, 1575062824084584000000000, 1575062824084584000000000,
     5982871618499548000000000, 1837258256088453000000000, 1530963612221368000000000, 1530963612221368000000000,
     1837258256088453000000000, 5982871618499548000000000, 5982871618499548000000000, 1837258256088453000000000,
     1530963612221368000000000, 1530963612221368000000000, 1837258256088453000000000, 5982871618499548000000000,
     648906513190632000000000, 648906513190632000000000, 648906513190632000000000, 648906513190632000000000,
     648906513190632000000000, 648906513190632000000000, 1837258256088453000000000, 5982871618499548000000000,
     1837258256088453000000000, 5982871618499548000000000, 1530963612221368000000000, 1530963612221368000000000,
     872107792177225000000000, 8540565555742755000000000, 116550029704661000000000, 116550029704661000000000,
     8540565555742755000000000, 872107792177225000000000, 872107792177225000000000, 8540565555742755000000000,
     116550029704661000000000, 116550029704661000000000, 8540565555742755000000000, 872107792177225000000000,
     470776622375358000000000, 470776622375358000000000, 470776622375358000000000, 470776622375358000000000,
     470776622375358000000000, 470776622375358000000000, 8540565555742755000000000, 872107792177225000000000,
     8540565555742755000000000, 872107792177225000000000, 116550029704661000000000, 116550029704661000000000,
     4137799680661914000000000, 1672070477173488000000000, 4085328910163256000000000, 4085328910163256000000000,
     1672070477173488000000000, 4137799680661914000000000, 4137799680661914000000000, 1672070477173488000000000,
     4085328910163256000000000, 4085328910163256000000000, 1672070477173488000000000, 4137799680661914000000000,
     104800932001341000000000, 104800932001341000000000, 104800932001341000000000, 104800932001341000000000,
     104800932001341000000000, 104800932001341000000000, 1672070477173488000000000, 4137799680661914000000000,
     1672070477173488000000000, 4137799680661914000000000, 4085328910163256000000000, 4085328910163256000000000,
     3904989583719425000000000, 5242157619428415000000000, 116793229924696000000000, 116793229924696000000000,
     5242157619428415000000000, 3904989583719425000000000, 3904989583719425000000000, 5242157619428415000000000,
     116793229924696000000000, 116793229924696000000000, 5242157619428415000000000, 3904989583719425000000000,
     736059566927464000000000, 736059566927464000000000, 736059566927464000000000, 736059566927464000000000,
     736059566927464000000000, 736059566927464000000000, 5242157619428415000000000, 3904989583719425000000000,
     5242157619428415000000000, 3904989583719425000000000, 116793229924696000000000, 116793229924696000000000,
     7735017403534717000000000, 1928802696509954000000000, 81636803712330000000000, 81636803712330000000000,
     1928802696509954000000000, 7735017403534717000000000, 7735017403534717000000000, 1928802696509954000000000,
     81636803712330000000000, 81636803712330000000000, 1928802696509954000000000, 7735017403534717000000000,
     254543096242999000000000, 254543096242999000000000, 254543096242999000000000, 254543096242999000000000,
     254543096242999000000000, 254543096242999000000000, 1928802696509954000000000, 7735017403534717000000000,
     1928802696509954000000000, 7735017403534717000000000, 81636803712330000000000, 81636803712330000000000,
     560344049440816000000000, 4682783426267390000000000, 1529886055031752000000000, 1529886055031752000000000,
     4682783426267390000000000, 560344049440816000000000, 560344049440816000000000, 4682783426267390000000000,
     1529886055031752000000000, 1529886055031752000000000, 4682783426267390000000000, 560344049440816000000000,
     3226986469260043000000000, 3226986469260043000000000, 3226986469260043000000000, 3226986469260043000000000,
     3226986469260043000000000, 3226986469260043000000000, 4682783426267390000000000, 560344049440816000000000,
     4682783426267390000000000, 560344049440816000000000, 1529886055031752000000000, 1529886055031752000000000],
    [1092594110391400000000000, 1092594110391400000000000, 1092594110391400000000000, 6722217668825801000000000,
     170690533535099000000000, 170690533535099000000000, 170690533535099000000000, 9487928399394703000000000,
     603027644020867000000000, 603027644020867000000000, 603027644020867000000000, 8190917067937399000000000,
     1802936778752487000000000, 1802936778752487000000000, 1802936778752487000000000, 4591189663742538000000000,
     2075642494319923000000000, 2075642494319923000000000, 2075642494319923000000000, 2924357505680077000000000,
     2924357505680077000000000, 2924357505680077000000000, 635056187503618000000000, 635056187503618000000000,
     635056187503618000000000, 4364943812496382000000000, 4364943812496382000000000, 4364943812496382000000000,
     1425740948569834000000000, 1425740948569834000000000, 1425740948569834000000000, 3574259051430166000000000,
     3574259051430166000000000, 3574259051430166000000000, 152549896113582000000000, 152549896113582000000000,
     152549896113582000000000, 4847450103886418000000000, 4847450103886418000000000, 4847450103886418000000000,
     2817717468661823000000000, 2817717468661823000000000, 66056285459364000000000, 2817717468661823000000000,
     2817717468661823000000000, 66056285459364000000000, 2817717468661823000000000, 2817717468661823000000000,
     66056285459364000000000, 4298508777216989000000000, 4298508777216989000000000, 4298508777216989000000000,
     2532792896616394000000000, 2532792896616394000000000, 3473076755269789000000000, 2532792896616394000000000,
     2532792896616394000000000, 3473076755269789000000000, 2532792896616394000000000, 2532792896616394000000000,
     3473076755269789000000000, 1461337451497424000000000, 1461337451497424000000000, 1461337451497424000000000,
     1194446836887992000000000, 1194446836887992000000000, 5129631932135305000000000, 1194446836887992000000000,
     1194446836887992000000000, 5129631932135305000000000, 1194446836887992000000000, 1194446836887992000000000,
     5129631932135305000000000, 2481474394088712000000000, 2481474394088712000000000, 2481474394088712000000000,
     2796975892179978000000000, 2796975892179978000000000, 4040135150131379000000000, 2796975892179978000000000,
     2796975892179978000000000, 4040135150131379000000000, 2796975892179978000000000, 2796975892179978000000000,
     4040135150131379000000000, 365913065508666000000000, 365913065508666000000000, 365913065508666000000000,
     591496500175592000000000, 591496500175592000000000, 2771505768037979000000000, 591496500175592000000000,
     591496500175592000000000, 2771505768037979000000000, 591496500175592000000000, 591496500175592000000000,
     2771505768037979000000000, 6045501231610838000000000, 6045501231610838000000000, 6045501231610838000000000,
     115664568797204000000000, 115664568797204000000000, 3372693231713962000000000, 115664568797204000000000,
     115664568797204000000000, 3372693231713962000000000, 115664568797204000000000, 115664568797204000000000,
     3372693231713962000000000, 6395977630691629000000000, 6395977630691629000000000, 6395977630691629000000000,
     2546200946118619000000000, 2546200946118619000000000, 889921351196739000000000, 2546200946118619000000000,
     2546200946118619000000000, 889921351196739000000000, 2546200946118619000000000, 2546200946118619000000000,
     889921351196739000000000, 4017676756566024000000000, 4017676756566024000000000, 4017676756566024000000000,
     66729146778652000000000, 66729146778652000000000, 833537700079728000000000, 66729146778652000000000,
     66729146778652000000000, 833537700079728000000000, 66729146778652000000000, 66729146778652000000000,
     833537700079728000000000, 9033004006362969000000000, 9033004006362969000000000, 9033004006362969000000000,
     595499636617363000000000, 595499636617363000000000, 1488738514609226000000000, 595499636617363000000000,
     595499636617363000000000, 1488738514609226000000000, 595499636617363000000000, 595499636617363000000000,
     1488738514609226000000000, 7320262212156049000000000, 7320262212156049000000000, 7320262212156049000000000,
     7229319246103527000000000, 956382942582895000000000, 7229319246103527000000000, 956382942582895000000000,
     130804747131276000000000, 130804747131276000000000, 7229319246103527000000000, 956382942582895000000000,
     7229319246103527000000000, 956382942582895000000000, 130804747131276000000000, 130804747131276000000000,
     7229319246103527000000000, 956382942582895000000000, 7229319246103527000000000, 956382942582895000000000,
     130804747131276000000000, 130804747131276000000000, 1683493064182302000000000, 1683493064182302000000000,
     1683493064182302000000000, 1683493064182302000000000, 1683493064182302000000000, 1683493064182302000000000,
     2913648223135218000000000, 603575153489387000000000, 2913648223135218000000000, 603575153489387000000000,
     6376551993416253000000000, 6376551993416253000000000, 2913648223135218000000000, 603575153489387000000000,
     2913648223135218000000000, 603575153489387000000000, 6376551993416253000000000, 6376551993416253000000000,
     2913648223135218000000000, 603575153489387000000000, 2913648223135218000000000, 603575153489387000000000,
     6376551993416253000000000, 6376551993416253000000000, 106224629959142000000000, 106224629959142000000000,
     106224629959142000000000, 106224629959142000000000, 106224629959142000000000, 106224629959142000000000,
     2575352925182314000000000, 5720629662753272000000000, 2575352925182314000000000, 5720629662753272000000000,
     1575062824084584000000000, 1575062824084584000000000, 2575352925182314000000000, 5720629662753272000000000,
     2575352925182314000000000, 5720629662753272000000000, 1575062824084584000000000, 1575062824084584000000000,
     2575352925182314000000000, 5720629662753272000000000, 2575352925182314000000000, 5720629662753272000000000,
     1575062824084584000000000, 1575062824084584000000000, 128954587979830000000000, 128954587979830000000000,
     128954587979830000000000, 128954587979830000000000, 128954587979830000000000, 128954587979830000000000,
     1837258256088453000000000, 5982871618499548000000000, 1837258256088453000000000, 5982871618499548000000000,
     1530963612221368000000000, 1530963612221368000000000, 1837258256088453000000000, 5982871618499548000000000,
     1837258256088453000000000, 5982871618499548000000000, 1530963612221368000000000, 1530963612221368000000000,
     1837258256088453000000000, 5982871618499548000000000, 1837258256088453000000000, 5982871618499548000000000,
     1530963612221368000000000, 1530963612221368000000000, 648906513190632000000000, 648906513190632000000000,
     648906513190632000000000, 648906513190632000000000, 648906513190632000000000, 648906513190632000000000,
     8540565555742755000000000, 872107792177225000000000, 8540565555742755000000000, 872107792177225000000000,
     116550029704661000000000, 116550029704661000000000, 8540565555742755000000000, 872107792177225000000000,
     8540565555742755000000000, 872107792177225000000000, 116550029704661000000000, 116550029704661000000000,
     8540565555742755000000000, 872107792177225000000000, 8540565555742755000000000, 872107792177225000000000,
     116550029704661000000000, 116550029704661000000000, 470776622375358000000000, 470776622375358000000000,
     470776622375358000000000, 470776622375358000000000, 470776622375358000000000, 470776622375358000000000,
     1672070477173488000000000, 4137799680661914000000000, 1672070477173488000000000, 4137799680661914000000000,
     4085328910163256000000000, 4085328910163256000000000, 1672070477173488000000000, 4137799680661914000000000,
     1672070477173488000000000, 4137799680661914000000000, 4085328910163256000000000, 4085328910163256000000000,
     1672070477173488000000000, 4137799680661914000000000, 1672070477173488000000000, 4137799680661914000000000,
     4085328910163256000000000, 4085328910163256000000000, 104800932001341000000000, 104800932001341000000000,
     104800932001341000000000, 104800932001341000000000, 104800932001341000000000, 104800932001341000000000,
     5242157619428415000000000, 3904989583719425000000000, 5242157619428415000000000, 3904989583719425000000000,
     116793229924696000000000, 116793229924696000000000, 5242157619428415000000000, 3904989583719425000000000,
     5242157619428415000000000, 3904989583719425000000000, 116793229924696000000000, 116793229924696000000000,
     5242157619428415000000000, 3904989583719425000000000, 5242157619428415000000000, 3904989583719425000000000,
     116793229924696000000000, 116793229924696000000000, 736059566927464000000000, 736059566927464000000000,
     736059566927464000000000, 736059566927464000000000, 736059566927464000000000, 736059566927464000000000,
     1928802696509954000000000, 7735017403534717000000000, 1928802696509954000000000, 7735017403534717000000000,
     81636803712330000000000, 81636803712330000000000, 1928802696509954000000000, 7735017403534717000000000,
     1928802696509954000000000, 7735017403534717000000000, 81636803712330000000000, 81636803712330000000000,
     1928802696509954000000000, 7735017403534717000000000, 1928802696509954000000000, 7735017403534717000000000,
     81636803712330000000000, 81636803712330000000000, 254543096242999000000000, 254543096242999000000000,
     254543096242999000000000, 254543096242999000000000, 254543096242999000000000, 254543096242999000000000,
     4682783426267390000000000, 560344049440816000000000, 4682783426267390000000000, 560344049440816000000000,
     1529886055031752000000000, 1529886055031752000000000, 4682783426267390000000000, 560344049440816000000000,
     4682783426267390000000000, 560344049440816000000000, 1529886055031752000000000, 1529886055031752000000000,
     4682783426267390000000000, 560344049440816000000000, 4682783426267390000000000, 560344049440816000000000,
     1529886055031752000000000, 1529886055031752000000000, 3226986469260043000000000, 3226986469260043000000000,
     3226986469260043000000000, 3226986469260043000000000, 3226986469260043000000000, 3226986469260043000000000]],
   [29434110546827000000000, 29434110546827000000000, 29434110546827000000000, 29434110546827000000000,
    4821254562131000000000, 4821254562131000000000, 4821254562131000000000, 4821254562131000000000,
    16334118823360000000000, 16334118823360000000000, 16334118823360000000000, 16334118823360000000000,
    89372605447340000000000, 89372605447340000000000, 89372605447340000000000, 89372605447340000000000,
    35392810411314000000000, 35392810411314000000000, 35392810411314000000000, 35392810411314000000000,
    35392810411314000000000, 35392810411314000000000, 51278767751229000000000, 51278767751229000000000,
    51278767751229000000000, 51278767751229000000000, 51278767751229000000000, 51278767751229000000000,
    85059617057767000000000, 85059617057767000000000, 85059617057767000000000, 85059617057767000000000,
    85059617057767000000000, 85059617057767000000000, 13620010595651000000000, 13620010595651000000000,
    13620010595651000000000, 13620010595651000000000, 13620010595651000000000, 13620010595651000000000,
    19527035946991000000000, 19527035946991000000000, 19527035946991000000000, 19527035946991000000000,
    19527035946991000000000, 19527035946991000000000, 19527035946991000000000, 19527035946991000000000,
    19527035946991000000000, 19527035946991000000000, 19527035946991000000000, 19527035946991000000000,
    35524823327022000000000, 35524823327022000000000, 35524823327022000000000, 35524823327022000000000,
    35524823327022000000000, 35524823327022000000000, 35524823327022000000000, 35524823327022000000000,
    35524823327022000000000, 35524823327022000000000, 35524823327022000000000, 35524823327022000000000,
    47350378720879000000000, 47350378720879000000000, 47350378720879000000000, 47350378720879000000000,
    47350378720879000000000, 47350378720879000000000, 47350378720879000000000, 47350378720879000000000,
    47350378720879000000000, 47350378720879000000000, 47350378720879000000000, 47350378720879000000000,
    40762040525238000000000, 40762040525238000000000, 40762040525238000000000, 40762040525238000000000,
    40762040525238000000000, 40762040525238000000000, 40762040525238000000000, 40762040525238000000000,
    40762040525238000000000, 40762040525238000000000, 40762040525238000000000, 40762040525238000000000,
    43978896160386000000000, 43978896160386000000000, 43978896160386000000000, 43978896160386000000000,
    43978896160386000000000, 43978896160386000000000, 43978896160386000000000, 43978896160386000000000,
    43978896160386000000000, 43978896160386000000000, 43978896160386000000000, 43978896160386000000000,
    8159915418039000000000, 8159915418039000000000, 8159915418039000000000, 8159915418039000000000,
    8159915418039000000000, 8159915418039000000000, 8159915418039000000000, 8159915418039000000000,
    8159915418039000000000, 8159915418039000000000, 8159915418039000000000, 8159915418039000000000,
    64369274033564000000000, 64369274033564000000000, 64369274033564000000000, 64369274033564000000000,
    64369274033564000000000, 64369274033564000000000, 64369274033564000000000, 64369274033564000000000,
    64369274033564000000000, 64369274033564000000000, 64369274033564000000000, 64369274033564000000000,
    2290937029978000000000, 2290937029978000000000, 2290937029978000000000, 2290937029978000000000,
    2290937029978000000000, 2290937029978000000000, 2290937029978000000000, 2290937029978000000000,
    2290937029978000000000, 2290937029978000000000, 2290937029978000000000, 2290937029978000000000,
    31887466942050000000000, 31887466942050000000000, 31887466942050000000000, 31887466942050000000000,
    31887466942050000000000, 31887466942050000000000, 31887466942050000000000, 31887466942050000000000,
    31887466942050000000000, 31887466942050000000000, 31887466942050000000000, 31887466942050000000000,
    19912662599699000000000, 19912662599699000000000, 19912662599699000000000, 19912662599699000000000,
    19912662599699000000000, 19912662599699000000000, 19912662599699000000000, 19912662599699000000000,
    19912662599699000000000, 19912662599699000000000, 19912662599699000000000, 19912662599699000000000,
    19912662599699000000000, 19912662599699000000000, 19912662599699000000000, 19912662599699000000000,
    19912662599699000000000, 19912662599699000000000, 19912662599699000000000, 19912662599699000000000,
    19912662599699000000000, 19912662599699000000000, 19912662599699000000000, 19912662599699000000000,
    12099466368688000000000, 12099466368688000000000, 12099466368688000000000, 12099466368688000000000,
    12099466368688000000000, 12099466368688000000000, 12099466368688000000000, 12099466368688000000000,
    12099466368688000000000, 12099466368688000000000, 12099466368688000000000, 12099466368688000000000,
    12099466368688000000000, 12099466368688000000000, 12099466368688000000000, 12099466368688000000000,
    12099466368688000000000, 12099466368688000000000, 12099466368688000000000, 12099466368688000000000,
    12099466368688000000000, 12099466368688000000000, 12099466368688000000000, 12099466368688000000000,
    29434179821839000000000, 29434179821839000000000, 29434179821839000000000, 29434179821839000000000,
    29434179821839000000000, 29434179821839000000000, 29434179821839000000000, 29434179821839000000000,
    29434179821839000000000, 29434179821839000000000, 29434179821839000000000, 29434179821839000000000,
    29434179821839000000000, 29434179821839000000000, 29434179821839000000000, 29434179821839000000000,
    29434179821839000000000, 29434179821839000000000, 29434179821839000000000, 29434179821839000000000,
    29434179821839000000000, 29434179821839000000000, 29434179821839000000000, 29434179821839000000000,
    34540945548106000000000, 34540945548106000000000, 34540945548106000000000, 34540945548106000000000,
    34540945548106000000000, 34540945548106000000000, 34540945548106000000000, 34540945548106000000000,
    34540945548106000000000, 34540945548106000000000, 34540945548106000000000, 34540945548106000000000,
    34540945548106000000000, 34540945548106000000000, 34540945548106000000000, 34540945548106000000000,
    34540945548106000000000, 34540945548106000000000, 34540945548106000000000, 34540945548106000000000,
    34540945548106000000000, 34540945548106000000000, 34540945548106000000000, 34540945548106000000000,
    8241135414778000000000, 8241135414778000000000, 8241135414778000000000, 8241135414778000000000,
    8241135414778000000000, 8241135414778000000000, 8241135414778000000000, 8241135414778000000000,
    8241135414778000000000, 8241135414778000000000, 8241135414778000000000, 8241135414778000000000,
    8241135414778000000000, 8241135414778000000000, 8241135414778000000000, 8241135414778000000000,
    8241135414778000000000, 8241135414778000000000, 8241135414778000000000, 8241135414778000000000,
    8241135414778000000000, 8241135414778000000000, 8241135414778000000000, 8241135414778000000000,
    13835423781702000000000, 13835423781702000000000, 13835423781702000000000, 13835423781702000000000,
    13835423781702000000000, 13835423781702000000000, 13835423781702000000000, 13835423781702000000000,
    13835423781702000000000, 13835423781702000000000, 13835423781702000000000, 13835423781702000000000,
    13835423781702000000000, 13835423781702000000000, 13835423781702000000000, 13835423781702000000000,
    13835423781702000000000, 13835423781702000000000, 13835423781702000000000, 13835423781702000000000,
    13835423781702000000000, 13835423781702000000000, 13835423781702000000000, 13835423781702000000000,
    17814452359265000000000, 17814452359265000000000, 17814452359265000000000, 17814452359265000000000,
    17814452359265000000000, 17814452359265000000000, 17814452359265000000000, 17814452359265000000000,
    17814452359265000000000, 17814452359265000000000, 17814452359265000000000, 17814452359265000000000,
    17814452359265000000000, 17814452359265000000000, 17814452359265000000000, 17814452359265000000000,
    17814452359265000000000, 17814452359265000000000, 17814452359265000000000, 17814452359265000000000,
    17814452359265000000000, 17814452359265000000000, 17814452359265000000000, 17814452359265000000000,
    6969316351001000000000, 6969316351001000000000, 6969316351001000000000, 6969316351001000000000,
    6969316351001000000000, 6969316351001000000000, 6969316351001000000000, 6969316351001000000000,
    6969316351001000000000, 6969316351001000000000, 6969316351001000000000, 6969316351001000000000,
    6969316351001000000000, 6969316351001000000000, 6969316351001000000000, 6969316351001000000000,
    6969316351001000000000, 6969316351001000000000, 6969316351001000000000, 6969316351001000000000,
    6969316351001000000000, 6969316351001000000000, 6969316351001000000000, 6969316351001000000000,
    57228884018916000000000, 57228884018916000000000, 57228884018916000000000, 57228884018916000000000,
    57228884018916000000000, 57228884018916000000000, 57228884018916000000000, 57228884018916000000000,
    57228884018916000000000, 57228884018916000000000, 57228884018916000000000, 57228884018916000000000,
    57228884018916000000000, 57228884018916000000000, 57228884018916000000000, 57228884018916000000000,
    57228884018916000000000, 57228884018916000000000, 57228884018916000000000, 57228884018916000000000,
    57228884018916000000000, 57228884018916000000000, 57228884018916000000000, 57228884018916000000000]⟩

/-- `tet_data[17]` (jaskowiec_sukumar_tet_data.py 7724-9480). -/
def jsTet_17 : TableRule :=
  ⟨18,
   [
    [2063721818681210000000000, 3808834543956371000000000, 2063721818681210000000000, 2063721818681210000000000,
     1625387945176406000000000, 5123836164470781000000000, 1625387945176406000000000, 1625387945176406000000000,
     3116266728255643000000000, 651199815233071000000000, 3116266728255643000000000, 3116266728255643000000000,
     3307279160890313000000000, 78162517329061000000000, 3307279160890313000000000, 3307279160890313000000000,
     337440820129951000000000, 8987677539610148000000000, 337440820129951000000000, 337440820129951000000000,
     656813827842595000000000, 8029558516472214000000000, 656813827842595000000000, 656813827842595000000000,
     116907242025971000000000, 9649278273922087000000000, 116907242025971000000000, 116907242025971000000000,
     1948270858785206000000000, 3051729141214794000000000, 1948270858785206000000000, 3051729141214794000000000,
     1948270858785206000000000, 3051729141214794000000000, 2501828346584600000000000, 2498171653415399000000000,
     2501828346584600000000000, 2498171653415399000000000, 2501828346584600000000000, 2498171653415399000000000,
     4866334770839438000000000, 133665229160562000000000, 4866334770839438000000000, 133665229160562000000000,
     4866334770839438000000000, 133665229160562000000000, 2496576564241145000000000, 2503423435758855000000000,
     2496576564241145000000000, 2503423435758855000000000, 2496576564241145000000000, 2503423435758855000000000,
     1675482277457161000000000, 3324517722542840000000000, 1675482277457161000000000, 3324517722542840000000000,
     1675482277457161000000000, 3324517722542840000000000, 1671064025294534000000000, 3328935974705466000000000,
     1671064025294534000000000, 3328935974705466000000000, 1671064025294534000000000, 3328935974705466000000000,
     3946110017058707000000000, 1053889982941293000000000, 3946110017058707000000000, 1053889982941293000000000,
     3946110017058707000000000, 1053889982941293000000000, 4568227805863351000000000, 431772194136649000000000,
     4568227805863351000000000, 431772194136649000000000, 4568227805863351000000000, 431772194136649000000000,
     1352754021303201000000000, 331030676150443000000000, 331030676150443000000000, 7985184626395914000000000,
     7985184626395914000000000, 7985184626395914000000000, 331030676150443000000000, 1352754021303201000000000,
     331030676150443000000000, 331030676150443000000000, 1352754021303201000000000, 331030676150443000000000,
     11718790470473000000000, 1946185784467675000000000, 1946185784467675000000000, 6095909640594178000000000,
     6095909640594178000000000, 6095909640594178000000000, 1946185784467675000000000, 11718790470473000000000,
     1946185784467675000000000, 1946185784467675000000000, 11718790470473000000000, 1946185784467675000000000,
     3278960098149503000000000, 132125212613112000000000, 132125212613112000000000, 6456789476624273000000000,
     6456789476624273000000000, 6456789476624273000000000, 132125212613112000000000, 3278960098149503000000000,
     132125212613112000000000, 132125212613112000000000, 3278960098149503000000000, 132125212613112000000000,
     202839984315217000000000, 1229320721770598000000000, 1229320721770598000000000, 7338518572143586000000000,
     7338518572143586000000000, 7338518572143586000000000, 1229320721770598000000000, 202839984315217000000000,
     1229320721770598000000000, 1229320721770598000000000, 202839984315217000000000, 1229320721770598000000000,
     3498961219623653000000000, 619950609516838000000000, 619950609516838000000000, 5261137561342671000000000,
     5261137561342671000000000, 5261137561342671000000000, 619950609516838000000000, 3498961219623653000000000,
     619950609516838000000000, 619950609516838000000000, 3498961219623653000000000, 619950609516838000000000,
     1666830796952924000000000, 840718754699170000000000, 840718754699170000000000, 6651731693648737000000000,
     6651731693648737000000000, 6651731693648737000000000, 840718754699170000000000, 1666830796952924000000000,
     840718754699170000000000, 840718754699170000000000, 1666830796952924000000000, 840718754699170000000000,
     1859179591228751000000000, 78670488744539000000000, 78670488744539000000000, 7983479431282171000000000,
     7983479431282171000000000, 7983479431282171000000000, 78670488744539000000000, 1859179591228751000000000,
     78670488744539000000000, 78670488744539000000000, 1859179591228751000000000, 78670488744539000000000,
     2482707411503117000000000, 421758249887124000000000, 421758249887124000000000, 6673776088722636000000000,
     6673776088722636000000000, 6673776088722636000000000, 421758249887124000000000, 2482707411503117000000000,
     421758249887124000000000, 421758249887124000000000, 2482707411503117000000000, 421758249887124000000000,
     669810222676876000000000, 86834918721388000000000, 86834918721388000000000, 9156519939880347000000000,
     9156519939880347000000000, 9156519939880347000000000, 86834918721388000000000, 669810222676876000000000,
     86834918721388000000000, 86834918721388000000000, 669810222676876000000000, 86834918721388000000000,
     2918417077981162000000000, 1111185367576208000000000, 1111185367576208000000000, 4859212186866421000000000,
     4859212186866421000000000, 4859212186866421000000000, 1111185367576208000000000, 2918417077981162000000000,
     1111185367576208000000000, 1111185367576208000000000, 2918417077981162000000000, 1111185367576208000000000,
     637707896451841000000000, 637707896451841000000000, 36854638456060000000000, 7163454647076797000000000,
     36854638456060000000000, 7163454647076797000000000, 2161982818015302000000000, 2161982818015302000000000,
     2161982818015302000000000, 2161982818015302000000000, 2161982818015302000000000, 2161982818015302000000000,
     36854638456060000000000, 7163454647076797000000000, 637707896451841000000000, 637707896451841000000000,
     7163454647076797000000000, 36854638456060000000000, 36854638456060000000000, 7163454647076797000000000,
     637707896451841000000000, 637707896451841000000000, 7163454647076797000000000, 36854638456060000000000,
     40240981032238000000000, 40240981032238000000000, 914756397949307000000000, 8558399144225498000000000,
     914756397949307000000000, 8558399144225498000000000, 486603476792957000000000, 486603476792957000000000,
     486603476792957000000000, 486603476792957000000000, 486603476792957000000000, 486603476792957000000000,
     914756397949307000000000, 8558399144225498000000000, 40240981032238000000000, 40240981032238000000000,
     8558399144225498000000000, 914756397949307000000000, 914756397949307000000000, 8558399144225498000000000,
     40240981032238000000000, 40240981032238000000000, 8558399144225498000000000, 914756397949307000000000,
     4168774597385260000000000, 4168774597385260000000000, 1326563740184036000000000, 4223229603801267000000000,
     1326563740184036000000000, 4223229603801267000000000, 281432058629436000000000, 281432058629436000000000,
     281432058629436000000000, 281432058629436000000000, 281432058629436000000000, 281432058629436000000000,
     1326563740184036000000000, 4223229603801267000000000, 4168774597385260000000000, 4168774597385260000000000,
     4223229603801267000000000, 1326563740184036000000000, 1326563740184036000000000, 4223229603801267000000000,
     4168774597385260000000000, 4168774597385260000000000, 4223229603801267000000000, 1326563740184036000000000,
     2464330224801677000000000, 2464330224801677000000000, 4439198669278809000000000, 2804526765357552000000000,
     4439198669278809000000000, 2804526765357552000000000, 291944340561961000000000, 291944340561961000000000,
     291944340561961000000000, 291944340561961000000000, 291944340561961000000000, 291944340561961000000000,
     4439198669278809000000000, 2804526765357552000000000, 2464330224801677000000000, 2464330224801677000000000,
     2804526765357552000000000, 4439198669278809000000000, 4439198669278809000000000, 2804526765357552000000000,
     2464330224801677000000000, 2464330224801677000000000, 2804526765357552000000000, 4439198669278809000000000,
     1271207488070096000000000, 1271207488070096000000000, 2395450885895190000000000, 3875767128917152000000000,
     2395450885895190000000000, 3875767128917152000000000, 2457574497117561000000000, 2457574497117561000000000,
     2457574497117561000000000, 2457574497117561000000000, 2457574497117561000000000, 2457574497117561000000000,
     2395450885895190000000000, 3875767128917152000000000, 1271207488070096000000000, 1271207488070096000000000,
     3875767128917152000000000, 2395450885895190000000000, 2395450885895190000000000, 3875767128917152000000000,
     1271207488070096000000000, 1271207488070096000000000, 3875767128917152000000000, 2395450885895190000000000,
     2137049061861850000000000, 2137049061861850000000000, 1657130887168779000000000, 5503423585599962000000000,
     1657130887168779000000000, 5503423585599962000000000, 702396465369408000000000, 702396465369408000000000,
     702396465369408000000000, 702396465369408000000000, 702396465369408000000000, 702396465369408000000000,
     1657130887168779000000000, 5503423585599962000000000, 2137049061861850000000000, 2137049061861850000000000,
     5503423585599962000000000, 1657130887168779000000000, 1657130887168779000000000, 5503423585599962000000000,
     2137049061861850000000000, 2137049061861850000000000, 5503423585599962000000000, 1657130887168779000000000,
     3290353014877974000000000, 3290353014877974000000000, 1788776686026366000000000, 4254763922480989000000000,
     1788776686026366000000000, 4254763922480989000000000, 666106376614672000000000, 666106376614672000000000,
     666106376614672000000000, 666106376614672000000000, 666106376614672000000000, 666106376614672000000000,
     1788776686026366000000000, 4254763922480989000000000, 3290353014877974000000000, 3290353014877974000000000,
     4254763922480989000000000, 1788776686026366000000000, 1788776686026366000000000, 4254763922480989000000000,
     3290353014877974000000000, 3290353014877974000000000, 4254763922480989000000000, 1788776686026366000000000,
     49503159569494000000000, 49503159569494000000000, 3340176116726106000000000, 4722321350880272000000000,
     3340176116726106000000000, 4722321350880272000000000, 1887999372824127000000000, 1887999372824127000000000,
     1887999372824127000000000, 1887999372824127000000000, 1887999372824127000000000, 1887999372824127000000000,
     3340176116726106000000000, 4722321350880272000000000, 49503159569494000000000, 49503159569494000000000,
     4722321350880272000000000, 3340176116726106000000000, 3340176116726106000000000, 4722321350880272000000000,
     49503159569494000000000, 49503159569494000000000, 4722321350880272000000000, 3340176116726106000000000,
     78462883616813000000000, 78462883616813000000000, 5458773009126385000000000, 3752267608204884000000000,
     5458773009126385000000000, 3752267608204884000000000, 710496499051917000000000, 710496499051917000000000,
     710496499051917000000000, 710496499051917000000000, 710496499051917000000000, 710496499051917000000000,
     5458773009126385000000000, 3752267608204884000000000, 78462883616813000000000, 78462883616813000000000,
     3752267608204884000000000, 5458773009126385000000000, 5458773009126385000000000, 3752267608204884000000000,
     78462883616813000000000, 78462883616813000000000, 3752267608204884000000000, 5458773009126385000000000,
     1293557534662013000000000, 1293557534662013000000000, 251043985900785000000000, 5925516079062881000000000,
     251043985900785000000000, 5925516079062881000000000, 2529882400374321000000000, 2529882400374321000000000,
     2529882400374321000000000, 2529882400374321000000000, 2529882400374321000000000, 2529882400374321000000000,
     251043985900785000000000, 5925516079062881000000000, 1293557534662013000000000, 1293557534662013000000000,
     5925516079062881000000000, 251043985900785000000000, 251043985900785000000000, 5925516079062881000000000,
     1293557534662013000000000, 1293557534662013000000000, 5925516079062881000000000, 251043985900785000000000],
    [2063721818681210000000000, 2063721818681210000000000, 3808834543956371000000000, 2063721818681210000000000,
     1625387945176406000000000, 1625387945176406000000000, 5123836164470781000000000, 1625387945176406000000000,
     3116266728255643000000000, 3116266728255643000000000, 651199815233071000000000, 3116266728255643000000000,
     3307279160890313000000000, 3307279160890313000000000, 78162517329061000000000, 3307279160890313000000000,
     337440820129951000000000, 337440820129951000000000, 8987677539610148000000000, 337440820129951000000000,
     656813827842595000000000, 656813827842595000000000, 8029558516472214000000000, 656813827842595000000000,
     116907242025971000000000, 116907242025971000000000, 9649278273922087000000000, 116907242025971000000000,
     3051729141214794000000000, 1948270858785206000000000, 1948270858785206000000000, 3051729141214794000000000,
     3051729141214794000000000, 1948270858785206000000000, 2498171653415399000000000, 2501828346584600000000000,
     2501828346584600000000000, 2498171653415399000000000, 2498171653415399000000000, 2501828346584600000000000,
     133665229160562000000000, 4866334770839438000000000, 4866334770839438000000000, 133665229160562000000000,
     133665229160562000000000, 4866334770839438000000000, 2503423435758855000000000, 2496576564241145000000000,
     2496576564241145000000000, 2503423435758855000000000, 2503423435758855000000000, 2496576564241145000000000,
     3324517722542840000000000, 1675482277457161000000000, 1675482277457161000000000, 3324517722542840000000000,
     3324517722542840000000000, 1675482277457161000000000, 3328935974705466000000000, 1671064025294534000000000,
     1671064025294534000000000, 3328935974705466000000000, 3328935974705466000000000, 1671064025294534000000000,
     1053889982941293000000000, 3946110017058707000000000, 3946110017058707000000000, 1053889982941293000000000,
     1053889982941293000000000, 3946110017058707000000000, 431772194136649000000000, 4568227805863351000000000,
     4568227805863351000000000, 431772194136649000000000, 431772194136649000000000, 4568227805863351000000000,
     331030676150443000000000, 1352754021303201000000000, 331030676150443000000000, 331030676150443000000000,
     1352754021303201000000000, 331030676150443000000000, 7985184626395914000000000, 7985184626395914000000000,
     7985184626395914000000000, 331030676150443000000000, 331030676150443000000000, 1352754021303201000000000,
     1946185784467675000000000, 11718790470473000000000, 1946185784467675000000000, 1946185784467675000000000,
     11718790470473000000000, 1946185784467675000000000, 6095909640594178000000000, 6095909640594178000000000,
     6095909640594178000000000, 1946185784467675000000000, 1946185784467675000000000, 11718790470473000000000,
     132125212613112000000000, 3278960098149503000000000, 132125212613112000000000, 132125212613112000000000,
     3278960098149503000000000, 132125212613112000000000, 6456789476624273000000000, 6456789476624273000000000,
     6456789476624273000000000, 132125212613112000000000, 132125212613112000000000, 3278960098149503000000000,
     1229320721770598000000000, 202839984315217000000000, 1229320721770598000000000, 1229320721770598000000000,
     202839984315217000000000, 1229320721770598000000000, 7338518572143586000000000, 7338518572143586000000000,
     7338518572143586000000000, 1229320721770598000000000, 1229320721770598000000000, 202839984315217000000000,
     619950609516838000000000, 3498961219623653000000000, 619950609516838000000000, 619950609516838000000000,
     3498961219623653000000000, 619950609516838000000000, 5261137561342671000000000, 5261137561342671000000000,
     5261137561342671000000000, 619950609516838000000000, 619950609516838000000000, 3498961219623653000000000,
     840718754699170000000000, 1666830796952924000000000, 840718754699170000000000, 840718754699170000000000,
     1666830796952924000000000, 840718754699170000000000, 6651731693648737000000000, 6651731693648737000000000,
     6651731693648737000000000, 840718754699170000000000, 840718754699170000000000, 1666830796952924000000000,
     78670488744539000000000, 1859179591228751000000000, 78670488744539000000000, 78670488744539000000000,
     1859179591228751000000000, 78670488744539000000000, 7983479431282171000000000, 7983479431282171000000000,
     7983479431282171000000000, 78670488744539000000000, 78670488744539000000000, 1859179591228751000000000,
     421758249887124000000000, 2482707411503117000000000, 421758249887124000000000, 421758249887124000000000,
     2482707411503117000000000, 421758249887124000000000, 6673776088722636000000000, 6673776088722636000000000,
     6673776088722636000000000, 421758249887124000000000, 421758249887124000000000, 2482707411503117000000000,
     86834918721388000000000, 669810222676876000000000, 86834918721388000000000, 86834918721388000000000,
     669810222676876000000000, 86834918721388000000000, 9156519939880347000000000, 9156519939880347000000000,
     9156519939880347000000000, 86834918721388000000000, 86834918721388000000000, 669810222676876000000000,
     1111185367576208000000000, 2918417077981162000000000, 1111185367576208000000000, 1111185367576208000000000,
     2918417077981162000000000, 1111185367576208000000000, 4859212186866421000000000, 4859212186866421000000000,
     4859212186866421000000000, 1111185367576208000000000, 1111185367576208000000000, 2918417077981162000000000,
     36854638456060000000000, 7163454647076797000000000, 637707896451841000000000, 637707896451841000000000,
     7163454647076797000000000, 36854638456060000000000, 36854638456060000000000, 7163454647076797000000000,
     637707896451841000000000, 637707896451841000000000, 7163454647076797000000000, 36854638456060000000000,
     2161982818015302000000000, 2161982818015302000000000, 2161982818015302000000000, 2161982818015302000000000,
     2161982818015302000000000, 2161982818015302000000000, 7163454647076797000000000, 36854638456060000000000,
     7163454647076797000000000, 36854638456060000000000, 637707896451841000000000, 637707896451841000000000,
     914756397949307000000000, 8558399144225498000000000, 40240981032238000000000, 40240981032238000000000,
     8558399144225498000000000, 914756397949307000000000, 914756397949307000000000, 8558399144225498000000000,
     40240981032238000000000, 40240981032238000000000, 8558399144225498000000000, 914756397949307000000000,
     486603476792957000000000, 486603476792957000000000, 486603476792957000000000, 486603476792957000000000,
     486603476792957000000000, 486603476792957000000000, 8558399144225498000000000, 914756397949307000000000,
     8558399144225498000000000, 914756397949307000000000, 40240981032238000000000, 40240981032238000000000,
     1326563740184036000000000, 4223229603801267000000000, 4168774597385260000000000, 4168774597385260000000000,
     4223229603801267000000000, 1326563740184036000000000, 1326563740184036000000000, 4223229603801267000000000,
     4168774597385260000000000, 4168774597385260000000000, 4223229603801267000000000, 1326563740184036000000000,
     281432058629436000000000, 281432058629436000000000, 281432058629436000000000, 281432058629436000000000,
     281432058629436000000000, 281432058629436000000000, 4223229603801267000000000, 1326563740184036000000000,
     4223229603801267000000000, 1326563740184036000000000, 4168774597385260000000000, 4168774597385260000000000,
     4439198669278809000000000, 2804526765357552000000000, 2464330224801677000000000, 2464330224801677000000000,
     2804526765357552000000000, 4439198669278809000000000, 4439198669278809000000000, 2804526765357552000000000,
     2464330224801677000000000, 2464330224801677000000000, 2804526765357552000000000, 4439198669278809000000000,
     291944340561961000000000, 291944340561961000000000, 291944340561961000000000, 291944340561961000000000,
     291944340561961000000000, 291944340561961000000000, 2804526765357552000000000, 4439198669278809000000000,
     2804526765357552000000000, 4439198669278809000000000, 2464330224801677000000000, 2464330224801677000000000,
     2395450885895190000000000, 3875767128917152000000000, 1271207488070096000000000, 1271207488070096000000000,
     3875767128917152000000000, 2395450885895190000000000, 2395450885895190000000000, 3875767128917152000000000,
     1271207488070096000000000, 1271207488070096000000000, 3875767128917152000000000, 2395450885895190000000000,
     2457574497117561000000000, 2457574497117561000000000, 2457574497117561000000000, 2457574497117561000000000,
     2457574497117561000000000, 2457574497117561000000000, 3875767128917152000000000, 2395450885895190000000000,
     3875767128917152000000000, 2395450885895190000000000, 1271207488070096000000000, 1271207488070096000000000,
     1657130887168779000000000, 5503423585599962000000000, 2137049061861850000000000, 2137049061861850000000000,
     5503423585599962000000000, 1657130887168779000000000, 1657130887168779000000000, 5503423585599962000000000,
     2137049061861850000000000, 2137049061861850000000000, 5503423585599962000000000, 1657130887168779000000000,
     702396465369408000000000, 702396465369408000000000, 702396465369408000000000, 702396465369408000000000,
     702396465369408000000000, 702396465369408000000000, 5503423585599962000000000, 1657130887168779000000000,
     5503423585599962000000000, 1657130887168779000000000, 2137049061861850000000000, 2137049061861850000000000,
     1788776686026366000000000, 4254763922480989000000000, 3290353014877974000000000, 3290353014877974000000000,
     4254763922480989000000000, 1788776686026366000000000, 1788776686026366000000000, 4254763922480989000000000,
     3290353014877974000000000, 3290353014877974000000000, 4254763922480989000000000, 1788776686026366000000000,
     666106376614672000000000, 666106376614672000000000, 666106376614672000000000, 666106376614672000000000,
     666106376614672000000000, 666106376614672000000000, 4254763922480989000000000, 1788776686026366000000000,
     4254763922480989000000000, 1788776686026366000000000, 3290353014877974000000000, 3290353014877974000000000,
     3340176116726106000000000, 4722321350880272000000000, 49503159569494000000000, 49503159569494000000000,
     4722321350880272000000000, 3340176116726106000000000, 3340176116726106000000000, 4722321350880272000000000,
     49503159569494000000000, 49503159569494000000000, 4722321350880272000000000, 3340176116726106000000000,
     1887999372824127000000000, 1887999372824127000000000, 1887999372824127000000000, 1887999372824127000000000,
     1887999372824127000000000, 1887999372824127000000000, 4722321350880272000000000, 3340176116726106000000000,
     4722321350880272000000000, 3340176116726106000000000, 49503159569494000000000, 49503159569494000000000,
     5458773009126385000000000, 3752267608204884000000000, 78462883616813000000000, 78462883616813000000000,
     3752267608204884000000000, 5458773009126385000000000, 5458773009126385000000000, 3752267608204884000000000,
     78462883616813000000000, 78462883616813000000000, 3752267608204884000000000, 5458773009126385000000000,
     710496499051917000000000, 710496499051917000000000, 710496499051917000000000, 710496499051917000000000,
     710496499051917000000000, 710496499051917000000000, 3752267608204884000000000, 5458773009126385000000000,
     3752267608204884000000000, 5458773009126385000000000, 78462883616813000000000, 78462883616813000000000,
     251043985900785000000000, 5925516079062881000000000, 1293557534662013000000000, 1293557534662013000000000,
     5925516079062881000000000, 251043985900785000000000, 251043985900785000000000, 5925516079062881000000000,
     1293557534662013000000000, 1293557534662013000000000, 5925516079062881000000000, 251043985900785000000000,
     2529882400374321000000000, 2529882400374321000000000, 2529882400374321000000000, 2529882400374321000000000,
     2529882400374321000000000, 2529882400374321000000000, 5925516079062881000000000, 251043985900785000000000,
     5925516079062881000000000, 251043985900785000000000, 1293557534662013000000000, 1293557534662013000000000],
    [2063721818681210000000000, 2063721818681210000000000, 2063721818681210000000000, 3808834543956371000000000,
     1625387945176406000000000, 1625387945176406000000000, 1625387945176406000000000, 5123836164470781000000000,
     3116266728255643000000000, 3116266728255643000000000, 3116266728255643000000000, 651199815233071000000000,
     3307279160890313000000000, 3307279160890313000000000, 3307279160890313000000000, 78162517329061000000000,
     337440820129951000000000, 337440820129951000000000, 337440820129951000000000, 8987677539610148000000000,
     656813827842595000000000, 656813827842595000000000, 656813827842595000000000, 8029558516472214000000000,
     116907242025971000000000, 116907242025971000000000, 116907242025971000000000, 9649278273922087000000000,
     3051729141214794000000000, 3051729141214794000000000, 3051729141214794000000000, 1948270858785206000000000,
     1948270858785206000000000, 1948270858785206000000000, 2498171653415399000000000, 2498171653415399000000000,
     2498171653415399000000000, 2501828346584600000000000, 2501828346584600000000000, 2501828346584600000000000,
     133665229160562000000000, 133665229160562000000000, 133665229160562000000000, 4866334770839438000000000,
     4866334770839438000000000, 4866334770839438000000000, 2503423435758855000000000, 2503423435758855000000000,
     2503423435758855000000000, 2496576564241145000000000, 2496576564241145000000000, 2496576564241145000000000,
     3324517722542840000000000, 3324517722542840000000000, 3324517722542840000000000, 1675482277457161000000000,
     1675482277457161000000000, 1675482277457161000000000, 3328935974705466000000000, 3328935974705466000000000,
     3328935974705466000000000, 1671064025294534000000000, 1671064025294534000000000, 1671064025294534000000000,
     1053889982941293000000000, 1053889982941293000000000, 1053889982941293000000000, 3946110017058707000000000,
     3946110017058707000000000, 3946110017058707000000000, 431772194136649000000000, 431772194136649000000000,
     431772194136649000000000, 4568227805863351000000000, 4568227805863351000000000, 4568227805863351000000000,
     331030676150443000000000, 331030676150443000000000, 1352754021303201000000000, 331030676150443000000000,
     331030676150443000000000, 1352754021303201000000000, 331030676150443000000000, 331030676150443000000000,
     1352754021303201000000000, 7985184626395914000000000, 7985184626395914000000000, 7985184626395914000000000,
     1946185784467675000000000, 1946185784467675000000000, 11718790470473000000000, 1946185784467675000000000,
     1946185784467675000000000, 11718790470473000000000, 1946185784467675000000000, 1946185784467675000000000,
     11718790470473000000000, 6095909640594178000000000, 6095909640594178000000000, 6095909640594178000000000,
     132125212613112000000000, 132125212613112000000000, 3278960098149503000000000, 132125212613112000000000,
     132125212613112000000000, 3278960098149503000000000, 132125212613112000000000, 132125212613112000000000,
     3278960098149503000000000, 6456789476624273000000000, 6456789476624273000000000, 6456789476624273000000000,
     1229320721770598000000000, 1229320721770598000000000, 202839984315217000000000, 1229320721770598000000000,
     1229320721770598000000000, 202839984315217000000000, 1229320721770598000000000, 1229320721770598000000000,
     202839984315217000000000, 7338518572143586000000000, 7338518572143586000000000, 7338518572143586000000000,
     619950609516838000000000, 619950609516838000000000, 3498961219623653000000000, 619950609516838000000000,
     619950609516838000000000, 3498961219623653000000000, 619950609516838000000000, 619950609516838000000000,
     3498961219623653000000000, 5261137561342671000000000, 5261137561342671000000000, 5261137561342671000000000,
     840718754699170000000000, 840718754699170000000000, 1666830796952924000000000, 840718754699170000000000,
     840718754699170000000000, 1666830796952924000000000, 840718754699170000000000, 840718754699170000000000,
     1666830796952924000000000, 6651731693648737000000000, 6651731693648737000000000, 6651731693648737000000000,
     78670488744539000000000, 78670488744539000000000, 1859179591228751000000000, 78670488744539000000000,
     78670488744539000000000, 1859179591228751000000000, 78670488744539000000000, 78670488744539000000000,
     1859179591228751000000000, 7983479431282171000000000, 7983479431282171000000000, 7983479431282171000000000,
     421758249887124000000000, 421758249887124000000000, 2482707411503117000000000, 421758249887124000000000,
     421758249887124000000000, 2482707411503117000000000, 421758249887124000000000, 421758249887124000000000,
     2482707411503117000000000, 6673776088722636000000000, 6673776088722636000000000, 6673776088722636000000000,
     86834918721388000000000, 86834918721388000000000, 669810222676876000000000, 86834918721388000000000,
     86834918721388000000000, 669810222676876000000000, 86834918721388000000000, 86834918721388000000000,
     669810222676876000000000, 9156519939880347000000000, 9156519939880347000000000, 9156519939880347000000000,
     1111185367576208000000000, 1111185367576208000000000, 2918417077981162000000000, 1111185367576208000000000,
     1111185367576208000000000, 2918417077981162000000000, 1111185367576208000000000, 1111185367576208000000000,
     2918417077981162000000000, 4859212186866421000000000, 4859212186866421000000000, 4859212186866421000000000,
     7163454647076797000000000, 36854638456060000000000, 7163454647076797000000000, 36854638456060000000000,
     637707896451841000000000, 637707896451841000000000, 7163454647076797000000000, 36854638456060000000000,
     7163454647076797000000000, 36854638456060000000000, 637707896451841000000000, 637707896451841000000000,
     7163454647076797000000000, 36854638456060000000000, 7163454647076797000000000, 36854638456060000000000,
     637707896451841000000000, 637707896451841000000000, 2161982818015302000000000, 2161982818015302000000000,
     2161982818015302000000000, 2161982818015302000000000, 2161982818015302000000000, 2161982818015302000000000,
     8558399144225498000000000, 914756397949307000000000, 8558399144225498000000000, 914756397949307000000000,
     40240981032238000000000, 40240981032238000000000, 8558399144225498000000000, 914756397949307000000000,
     8558399144225498000000000, 914756397949307000000000, 40240981032238000000000, 40240981032238000000000,
     8558399144225498000000000, 914756397949307000000000, 8558399144225498000000000, 914756397949307000000000,
     40240981032238000000000, 40240981032238000000000, 486603476792957000000000, 486603476792957000000000,
     486603476792957000000000, 486603476792957000000000, 486603476792957000000000, 486603476792957000000000,
     4223229603801267000000000, 1326563740184036000000000, 4223229603801267000000000, 1326563740184036000000000,
     4168774597385260000000000, 4168774597385260000000000, 4223229603801267000000000, 1326563740184036000000000,
     4223229603801267000000000, 1326563740184036000000000, 4168774597385260000000000, 4168774597385260000000000,
     4223229603801267000000000, 1326563740184036000000000, 4223229603801267000000000, 1326563740184036000000000,
     4168774597385260000000000, 4168774597385260000000000, 281432058629436000000000, 281432058629436000000000,
     281432058629436000000000, 281432058629436000000000, 281432058629436000000000, 281432058629436000000000,
     2804526765357552000000000, 4439198669278809000000000, 2804526765357552000000000, 4439198669278809000000000,
     2464330224801677000000000, 2464330224801677000000000, 2804526765357552000000000, 4439198669278809000000000,
     2804526765357552000000000, 4439198669278809000000000, 2464330224801677000000000, 2464330224801677000000000,
     2804526765357552000000000, 4439198669278809000000000, 2804526765357552000000000, 4439198669278809000000000,
     2464330224801677000000000, 2464330224801677000000000, 291944340561961000000000, 291944340561961000000000,
     291944340561961000000000, 291944340561961000000000, 291944340561961000000000, 291944340561961000000000,
     3875767128917152000000000, 2395450885895190000000000, 3875767128917152000000000, 2395450885895190000000000,
     1271207488070096000000000, 1271207488070096000000000, 3875767128917152000000000, 2395450885895190000000000,
     3875767128917152000000000, 2395450885895190000000000, 1271207488070096000000000, 1271207488070096000000000,
     3875767128917152000000000, 2395450885895190000000000, 3875767128917152000000000, 2395450885895190000000000,
     1271207488070096000000000, 1271207488070096000000000, 2457574497117561000000000, 2457574497117561000000000,
     2457574497117561000000000, 2457574497117561000000000, 2457574497117561000000000, 2457574497117561000000000,
     5503423585599962000000000, 1657130887168779000000000, 5503423585599962000000000, 1657130887168779000000000,
     2137049061861850000000000, 2137049061861850000000000, 5503423585599962000000000, 1657130887168779000000000,
     5503423585599962000000000, 1657130887168779000000000, 2137049061861850000000000, 2137049061861850000000000,
     5503423585599962000000000, 1657130887168779000000000, 5503423585599962000000000, 1657130887168779000000000,
     2137049061861850000000000, 2137049061861850000000000, 702396465369408000000000, 702396465369408000000000,
     702396465369408000000000, 702396465369408000000000, 702396465369408000000000, 702396465369408000000000,
     4254763922480989000000000, 1788776686026366000000000, 4254763922480989000000000, 1788776686026366000000000,
     3290353014877974000000000, 3290353014877974000000000, 4254763922480989000000000, 1788776686026366000000000,
     4254763922480989000000000, 1788776686026366000000000, 3290353014877974000000000, 3290353014877974000000000,
     4254763922480989000000000, 1788776686026366000000000, 4254763922480989000000000, 1788776686026366000000000,
     3290353014877974000000000, 3290353014877974000000000, 666106376614672000000000, 666106376614672000000000,
     666106376614672000000000, 666106376614672000000000, 666106376614672000000000, 666106376614672000000000,
     4722321350880272000000000, 3340176116726106000000000, 4722321350880272000000000, 3340176116726106000000000,
     49503159569494000000000, 49503159569494000000000, 4722321350880272000000000, 3340176116726106000000000,
     4722321350880272000000000, 3340176116726106000000000, 49503159569494000000000, 49503159569494000000000,
     4722321350880272000000000, 3340176116726106000000000, 4722321350880272000000000, 3340176116726106000000000,
     49503159569494000000000, 49503159569494000000000, 1887999372824127000000000, 1887999372824127000000000,
     1887999372824127000000000, 1887999372824127000000000, 1887999372824127000000000, 1887999372824127000000000,
     3752267608204884000000000, 5458773009126385000000000, 3752267608204884000000000, 5458773009126385000000000,
     78462883616813000000000, 78462883616813000000000, 3752267608204884000000000, 5458773009126385000000000,
     3752267608204884000000000, 5458773009126385000000000, 78462883616813000000000, 78462883616813000000000,
     3752267608204884000000000, 5458773009126385000000000, 3752267608204884000000000, 5458773009126385000000000,
     78462883616813000000000, 78462883616813000000000, 710496499051917000000000, 710496499051917000000000,
     710496499051917000000000, 710496499051917000000000, 710496499051917000000000, 710496499051917000000000,
     5925516079062881000000000, 251043985900785000000000, 5925516079062881000000000, 251043985900785000000000,
     1293557534662013000000000, 1293557534662013000000000, 5925516079062881000000000, 251043985900785000000000,
     5925516079062881000000000, 251043985900785000000000, 1293557534662013000000000, 1293557534662013000000000,
     5925516079062881000000000, 251043985900785000000000, 5925516079062881000000000, 251043985900785000000000,
     1293557534662013000000000, 1293557534662013000000000, 2529882400374321000000000, 2529882400374321000000000,
     2529882400374321000000000, 2529882400374321000000000, 2529882400374321000000000, 2529882400374321000000000]],
   [15053884067505955000000, 15053884067505955000000, 15053884067505955000000, 15053884067505955000000,
    72014415315284361000000, 72014415315284361000000, 72014415315284361000000, 72014415315284361000000,
    58018012336948149000000, 58018012336948149000000, 58018012336948149000000, 58018012336948149000000,
    24650883928497907000000, 24650883928497907000000, 24650883928497907000000, 24650883928497907000000,
    8235271059110020900000, 8235271059110020900000, 8235271059110020900000, 8235271059110020900000,
    23961533958249594000000, 23961533958249594000000, 23961533958249594000000, 23961533958249594000000,
    1662026538062452900000, 1662026538062452900000, 1662026538062452900000, 1662026538062452900000,
    474762660688391720000, 474762660688391720000, 474762660688391720000, 474762660688391720000,
    474762660688391720000, 474762660688391720000, 5654960404175804900000, 5654960404175804900000,
    5654960404175804900000, 5654960404175804900000, 5654960404175804900000, 5654960404175804900000,
    11266448475875982000000, 11266448475875982000000, 11266448475875982000000, 11266448475875982000000,
    11266448475875982000000, 11266448475875982000000, 13482461518802007000000, 13482461518802007000000,
    13482461518802007000000, 13482461518802007000000, 13482461518802007000000, 13482461518802007000000,
    3657069096677682900000, 3657069096677682900000, 3657069096677682900000, 3657069096677682900000,
    3657069096677682900000, 3657069096677682900000, 58531719925651142000000, 58531719925651142000000,
    58531719925651142000000, 58531719925651142000000, 58531719925651142000000, 58531719925651142000000,
    19566910348214304000000, 19566910348214304000000, 19566910348214304000000, 19566910348214304000000,
    19566910348214304000000, 19566910348214304000000, 16732442521790393000000, 16732442521790393000000,
    16732442521790393000000, 16732442521790393000000, 16732442521790393000000, 16732442521790393000000,
    16844099731256343000000, 16844099731256343000000, 16844099731256343000000, 16844099731256343000000,
    16844099731256343000000, 16844099731256343000000, 16844099731256343000000, 16844099731256343000000,
    16844099731256343000000, 16844099731256343000000, 16844099731256343000000, 16844099731256343000000,
    9489733030971149900000, 9489733030971149900000, 9489733030971149900000, 9489733030971149900000,
    9489733030971149900000, 9489733030971149900000, 9489733030971149900000, 9489733030971149900000,
    9489733030971149900000, 9489733030971149900000, 9489733030971149900000, 9489733030971149900000,
    10390831359316528000000, 10390831359316528000000, 10390831359316528000000, 10390831359316528000000,
    10390831359316528000000, 10390831359316528000000, 10390831359316528000000, 10390831359316528000000,
    10390831359316528000000, 10390831359316528000000, 10390831359316528000000, 10390831359316528000000,
    28685583242403479000000, 28685583242403479000000, 28685583242403479000000, 28685583242403479000000,
    28685583242403479000000, 28685583242403479000000, 28685583242403479000000, 28685583242403479000000,
    28685583242403479000000, 28685583242403479000000, 28685583242403479000000, 28685583242403479000000,
    36722027845721319000000, 36722027845721319000000, 36722027845721319000000, 36722027845721319000000,
    36722027845721319000000, 36722027845721319000000, 36722027845721319000000, 36722027845721319000000,
    36722027845721319000000, 36722027845721319000000, 36722027845721319000000, 36722027845721319000000,
    47471555465963631000000, 47471555465963631000000, 47471555465963631000000, 47471555465963631000000,
    47471555465963631000000, 47471555465963631000000, 47471555465963631000000, 47471555465963631000000,
    47471555465963631000000, 47471555465963631000000, 47471555465963631000000, 47471555465963631000000,
    4150884078212971700000, 4150884078212971700000, 4150884078212971700000, 4150884078212971700000,
    4150884078212971700000, 4150884078212971700000, 4150884078212971700000, 4150884078212971700000,
    4150884078212971700000, 4150884078212971700000, 4150884078212971700000, 4150884078212971700000,
    25049901222476828000000, 25049901222476828000000, 25049901222476828000000, 25049901222476828000000,
    25049901222476828000000, 25049901222476828000000, 25049901222476828000000, 25049901222476828000000,
    25049901222476828000000, 25049901222476828000000, 25049901222476828000000, 25049901222476828000000,
    2629919627710237800000, 2629919627710237800000, 2629919627710237800000, 2629919627710237800000,
    2629919627710237800000, 2629919627710237800000, 2629919627710237800000, 2629919627710237800000,
    2629919627710237800000, 2629919627710237800000, 2629919627710237800000, 2629919627710237800000,
    52379488186456739000000, 52379488186456739000000, 52379488186456739000000, 52379488186456739000000,
    52379488186456739000000, 52379488186456739000000, 52379488186456739000000, 52379488186456739000000,
    52379488186456739000000, 52379488186456739000000, 52379488186456739000000, 52379488186456739000000,
    9530517345502798700000, 9530517345502798700000, 9530517345502798700000, 9530517345502798700000,
    9530517345502798700000, 9530517345502798700000, 9530517345502798700000, 9530517345502798700000,
    9530517345502798700000, 9530517345502798700000, 9530517345502798700000, 9530517345502798700000,
    9530517345502798700000, 9530517345502798700000, 9530517345502798700000, 9530517345502798700000,
    9530517345502798700000, 9530517345502798700000, 9530517345502798700000, 9530517345502798700000,
    9530517345502798700000, 9530517345502798700000, 9530517345502798700000, 9530517345502798700000,
    4424079498028044100000, 4424079498028044100000, 4424079498028044100000, 4424079498028044100000,
    4424079498028044100000, 4424079498028044100000, 4424079498028044100000, 4424079498028044100000,
    4424079498028044100000, 4424079498028044100000, 4424079498028044100000, 4424079498028044100000,
    4424079498028044100000, 4424079498028044100000, 4424079498028044100000, 4424079498028044100000,
    4424079498028044100000, 4424079498028044100000, 4424079498028044100000, 4424079498028044100000,
    4424079498028044100000, 4424079498028044100000, 4424079498028044100000, 4424079498028044100000,
    17561790084229382000000, 17561790084229382000000, 17561790084229382000000, 17561790084229382000000,
    17561790084229382000000, 17561790084229382000000, 17561790084229382000000, 17561790084229382000000,
    17561790084229382000000, 17561790084229382000000, 17561790084229382000000, 17561790084229382000000,
    17561790084229382000000, 17561790084229382000000, 17561790084229382000000, 17561790084229382000000,
    17561790084229382000000, 17561790084229382000000, 17561790084229382000000, 17561790084229382000000,
    17561790084229382000000, 17561790084229382000000, 17561790084229382000000, 17561790084229382000000,
    24342668817501534000000, 24342668817501534000000, 24342668817501534000000, 24342668817501534000000,
    24342668817501534000000, 24342668817501534000000, 24342668817501534000000, 24342668817501534000000,
    24342668817501534000000, 24342668817501534000000, 24342668817501534000000, 24342668817501534000000,
    24342668817501534000000, 24342668817501534000000, 24342668817501534000000, 24342668817501534000000,
    24342668817501534000000, 24342668817501534000000, 24342668817501534000000, 24342668817501534000000,
    24342668817501534000000, 24342668817501534000000, 24342668817501534000000, 24342668817501534000000,
    39365119659381933000000, 39365119659381933000000, 39365119659381933000000, 39365119659381933000000,
    39365119659381933000000, 39365119659381933000000, 39365119659381933000000, 39365119659381933000000,
    39365119659381933000000, 39365119659381933000000, 39365119659381933000000, 39365119659381933000000,
    39365119659381933000000, 39365119659381933000000, 39365119659381933000000, 39365119659381933000000,
    39365119659381933000000, 39365119659381933000000, 39365119659381933000000, 39365119659381933000000,
    39365119659381933000000, 39365119659381933000000, 39365119659381933000000, 39365119659381933000000,
    31997912691064567000000, 31997912691064567000000, 31997912691064567000000, 31997912691064567000000,
    31997912691064567000000, 31997912691064567000000, 31997912691064567000000, 31997912691064567000000,
    31997912691064567000000, 31997912691064567000000, 31997912691064567000000, 31997912691064567000000,
    31997912691064567000000, 31997912691064567000000, 31997912691064567000000, 31997912691064567000000,
    31997912691064567000000, 31997912691064567000000, 31997912691064567000000, 31997912691064567000000,
    31997912691064567000000, 31997912691064567000000, 31997912691064567000000, 31997912691064567000000,
    37976103121587484000000, 37976103121587484000000, 37976103121587484000000, 37976103121587484000000,
    37976103121587484000000, 37976103121587484000000, 37976103121587484000000, 37976103121587484000000,
    37976103121587484000000, 37976103121587484000000, 37976103121587484000000, 37976103121587484000000,
    37976103121587484000000, 37976103121587484000000, 37976103121587484000000, 37976103121587484000000,
    37976103121587484000000, 37976103121587484000000, 37976103121587484000000, 37976103121587484000000,
    37976103121587484000000, 37976103121587484000000, 37976103121587484000000, 37976103121587484000000,
    14959385626309811000000, 14959385626309811000000, 14959385626309811000000, 14959385626309811000000,
    14959385626309811000000, 14959385626309811000000, 14959385626309811000000, 14959385626309811000000,
    14959385626309811000000, 14959385626309811000000, 14959385626309811000000, 14959385626309811000000,
    14959385626309811000000, 14959385626309811000000, 14959385626309811000000, 14959385626309811000000,
    14959385626309811000000, 14959385626309811000000, 14959385626309811000000, 14959385626309811000000,
    14959385626309811000000, 14959385626309811000000, 14959385626309811000000, 14959385626309811000000,
    17039961812247248000000, 17039961812247248000000, 17039961812247248000000, 17039961812247248000000,
    17039961812247248000000, 17039961812247248000000, 17039961812247248000000, 17039961812247248000000,
    17039961812247248000000, 17039961812247248000000, 17039961812247248000000, 17039961812247248000000,
    17039961812247248000000, 17039961812247248000000, 17039961812247248000000, 17039961812247248000000,
    17039961812247248000000, 17039961812247248000000, 17039961812247248000000, 17039961812247248000000,
    17039961812247248000000, 17039961812247248000000, 17039961812247248000000, 17039961812247248000000,
    36287751176990591000000, 36287751176990591000000, 36287751176990591000000, 36287751176990591000000,
    36287751176990591000000, 36287751176990591000000, 36287751176990591000000, 36287751176990591000000,
    36287751176990591000000, 36287751176990591000000, 36287751176990591000000, 36287751176990591000000,
    36287751176990591000000, 36287751176990591000000, 36287751176990591000000, 36287751176990591000000,
    36287751176990591000000, 36287751176990591000000, 36287751176990591000000, 36287751176990591000000,
    36287751176990591000000, 36287751176990591000000, 36287751176990591000000, 36287751176990591000000]⟩

/-- `tet_data[18]` (jaskowiec_sukumar_tet_data.py 9481-11441). -/
def jsTet_18 : TableRule :=
  ⟨19,
   [
    [2500000000000000000000000, 962334679417012000000000, 7112995961748966000000000, 962334679417012000000000,
     962334679417012000000000, 2840710971185555000000000, 1477867086443335000000000, 2840710971185555000000000,
     2840710971185555000000000, 420121804976231000000000, 8739634585071308000000000, 420121804976231000000000,
     420121804976231000000000, 3706074987820475000000000, 1293925012179526000000000, 3706074987820475000000000,
     1293925012179526000000000, 3706074987820475000000000, 1293925012179526000000000, 7679699947393867000000000,
     533931212533031000000000, 533931212533031000000000, 1252437627540072000000000, 1252437627540072000000000,
     1252437627540072000000000, 533931212533031000000000, 7679699947393867000000000, 533931212533031000000000,
     533931212533031000000000, 7679699947393867000000000, 533931212533031000000000, 1660339253205299000000000,
     52505539069196000000000, 52505539069196000000000, 8234649668656309000000000, 8234649668656309000000000,
     8234649668656309000000000, 52505539069196000000000, 1660339253205299000000000, 52505539069196000000000,
     52505539069196000000000, 1660339253205299000000000, 52505539069196000000000, 1034045995093328000000000,
     2128993323694659000000000, 2128993323694659000000000, 4707967357517354000000000, 4707967357517354000000000,
     4707967357517354000000000, 2128993323694659000000000, 1034045995093328000000000, 2128993323694659000000000,
     2128993323694659000000000, 1034045995093328000000000, 2128993323694659000000000, 1333356346432022000000000,
     4034135325977229000000000, 4034135325977229000000000, 598373001613519000000000, 598373001613519000000000,
     598373001613519000000000, 4034135325977229000000000, 1333356346432022000000000, 4034135325977229000000000,
     4034135325977229000000000, 1333356346432022000000000, 4034135325977229000000000, 5532379678070896000000000,
     118881193081127000000000, 118881193081127000000000, 4229857935766850000000000, 4229857935766850000000000,
     4229857935766850000000000, 118881193081127000000000, 5532379678070896000000000, 118881193081127000000000,
     118881193081127000000000, 5532379678070896000000000, 118881193081127000000000, 8080695151909102000000000,
     890311655120663000000000, 890311655120663000000000, 138681537849572000000000, 138681537849572000000000,
     138681537849572000000000, 890311655120663000000000, 8080695151909102000000000, 890311655120663000000000,
     890311655120663000000000, 8080695151909102000000000, 890311655120663000000000, 4873280365294901000000000,
     515167869589916000000000, 515167869589916000000000, 4096383895525266000000000, 4096383895525266000000000,
     4096383895525266000000000, 515167869589916000000000, 4873280365294901000000000, 515167869589916000000000,
     515167869589916000000000, 4873280365294901000000000, 515167869589916000000000, 2466149943644083000000000,
     1179992852297671000000000, 1179992852297671000000000, 5173864351760575000000000, 5173864351760575000000000,
     5173864351760575000000000, 1179992852297671000000000, 2466149943644083000000000, 1179992852297671000000000,
     1179992852297671000000000, 2466149943644083000000000, 1179992852297671000000000, 2781414318856127000000000,
     460851233492859000000000, 460851233492859000000000, 6296883214158154000000000, 6296883214158154000000000,
     6296883214158154000000000, 460851233492859000000000, 2781414318856127000000000, 460851233492859000000000,
     460851233492859000000000, 2781414318856127000000000, 460851233492859000000000, 81746499483895000000000,
     1410186708097898000000000, 1410186708097898000000000, 7097880084320309000000000, 7097880084320309000000000,
     7097880084320309000000000, 1410186708097898000000000, 81746499483895000000000, 1410186708097898000000000,
     1410186708097898000000000, 81746499483895000000000, 1410186708097898000000000, 5855868767598970000000000,
     1411034408699267000000000, 1411034408699267000000000, 1322062415002498000000000, 1322062415002498000000000,
     1322062415002498000000000, 1411034408699267000000000, 5855868767598970000000000, 1411034408699267000000000,
     1411034408699267000000000, 5855868767598970000000000, 1411034408699267000000000, 303588380906194000000000,
     79118622048211000000000, 79118622048211000000000, 9538174374997385000000000, 9538174374997385000000000,
     9538174374997385000000000, 79118622048211000000000, 303588380906194000000000, 79118622048211000000000,
     79118622048211000000000, 303588380906194000000000, 79118622048211000000000, 2461239587816849000000000,
     1761012114703174000000000, 1761012114703174000000000, 4016736182776802000000000, 4016736182776802000000000,
     4016736182776802000000000, 1761012114703174000000000, 2461239587816849000000000, 1761012114703174000000000,
     1761012114703174000000000, 2461239587816849000000000, 1761012114703174000000000, 7694124041149815000000000,
     7694124041149815000000000, 453113744152098000000000, 1736495090943957000000000, 453113744152098000000000,
     1736495090943957000000000, 116267123754130000000000, 116267123754130000000000, 116267123754130000000000,
     116267123754130000000000, 116267123754130000000000, 116267123754130000000000, 453113744152098000000000,
     1736495090943957000000000, 7694124041149815000000000, 7694124041149815000000000, 1736495090943957000000000,
     453113744152098000000000, 453113744152098000000000, 1736495090943957000000000, 7694124041149815000000000,
     7694124041149815000000000, 1736495090943957000000000, 453113744152098000000000, 1139907343389768000000000,
     1139907343389768000000000, 1902469770309511000000000, 6467333246419940000000000, 1902469770309511000000000,
     6467333246419940000000000, 490289639880780000000000, 490289639880780000000000, 490289639880780000000000,
     490289639880780000000000, 490289639880780000000000, 490289639880780000000000, 1902469770309511000000000,
     6467333246419940000000000, 1139907343389768000000000, 1139907343389768000000000, 6467333246419940000000000,
     1902469770309511000000000, 1902469770309511000000000, 6467333246419940000000000, 1139907343389768000000000,
     1139907343389768000000000, 6467333246419940000000000, 1902469770309511000000000, 5045224197189542000000000,
     5045224197189542000000000, 2025882107314621000000000, 2408858063990418000000000, 2025882107314621000000000,
     2408858063990418000000000, 520035631505419000000000, 520035631505419000000000, 520035631505419000000000,
     520035631505419000000000, 520035631505419000000000, 520035631505419000000000, 2025882107314621000000000,
     2408858063990418000000000, 5045224197189542000000000, 5045224197189542000000000, 2408858063990418000000000,
     2025882107314621000000000, 2025882107314621000000000, 2408858063990418000000000, 5045224197189542000000000,
     5045224197189542000000000, 2408858063990418000000000, 2025882107314621000000000, 3899342137938394000000000,
     3899342137938394000000000, 628045986545770000000000, 5376101656245691000000000, 628045986545770000000000,
     5376101656245691000000000, 96510219270146000000000, 96510219270146000000000, 96510219270146000000000,
     96510219270146000000000, 96510219270146000000000, 96510219270146000000000, 628045986545770000000000,
     5376101656245691000000000, 3899342137938394000000000, 3899342137938394000000000, 5376101656245691000000000,
     628045986545770000000000, 628045986545770000000000, 5376101656245691000000000, 3899342137938394000000000,
     3899342137938394000000000, 5376101656245691000000000, 628045986545770000000000, 102510197711691000000000,
     102510197711691000000000, 1689034611068301000000000, 5666194853322549000000000, 1689034611068301000000000,
     5666194853322549000000000, 2542260337897459000000000, 2542260337897459000000000, 2542260337897459000000000,
     2542260337897459000000000, 2542260337897459000000000, 2542260337897459000000000, 1689034611068301000000000,
     5666194853322549000000000, 102510197711691000000000, 102510197711691000000000, 5666194853322549000000000,
     1689034611068301000000000, 1689034611068301000000000, 5666194853322549000000000, 102510197711691000000000,
     102510197711691000000000, 5666194853322549000000000, 1689034611068301000000000, 3714709314621824000000000,
     3714709314621824000000000, 1282802298826546000000000, 2176247037611105000000000, 1282802298826546000000000,
     2176247037611105000000000, 2826241348940526000000000, 2826241348940526000000000, 2826241348940526000000000,
     2826241348940526000000000, 2826241348940526000000000, 2826241348940526000000000, 1282802298826546000000000,
     2176247037611105000000000, 3714709314621824000000000, 3714709314621824000000000, 2176247037611105000000000,
     1282802298826546000000000, 1282802298826546000000000, 2176247037611105000000000, 3714709314621824000000000,
     3714709314621824000000000, 2176247037611105000000000, 1282802298826546000000000, 2323738231259893000000000,
     2323738231259893000000000, 3753164302248334000000000, 3358240006032013000000000, 3753164302248334000000000,
     3358240006032013000000000, 564857460459761000000000, 564857460459761000000000, 564857460459761000000000,
     564857460459761000000000, 564857460459761000000000, 564857460459761000000000, 3753164302248334000000000,
     3358240006032013000000000, 2323738231259893000000000, 2323738231259893000000000, 3358240006032013000000000,
     3753164302248334000000000, 3753164302248334000000000, 3358240006032013000000000, 2323738231259893000000000,
     2323738231259893000000000, 3358240006032013000000000, 3753164302248334000000000, 282332391047721000000000,
     282332391047721000000000, 817663469329853000000000, 59682218345955000000000, 817663469329853000000000,
     59682218345955000000000, 8840321921276470000000000, 8840321921276470000000000, 8840321921276470000000000,
     8840321921276470000000000, 8840321921276470000000000, 8840321921276470000000000, 817663469329853000000000,
     59682218345955000000000, 282332391047721000000000, 282332391047721000000000, 59682218345955000000000,
     817663469329853000000000, 817663469329853000000000, 59682218345955000000000, 282332391047721000000000,
     282332391047721000000000, 59682218345955000000000, 817663469329853000000000, 4691373442926859000000000,
     4691373442926859000000000, 3727215008878210000000000, 1476210108130195000000000, 3727215008878210000000000,
     1476210108130195000000000, 105201440064736000000000, 105201440064736000000000, 105201440064736000000000,
     105201440064736000000000, 105201440064736000000000, 105201440064736000000000, 3727215008878210000000000,
     1476210108130195000000000, 4691373442926859000000000, 4691373442926859000000000, 1476210108130195000000000,
     3727215008878210000000000, 3727215008878210000000000, 1476210108130195000000000, 4691373442926859000000000,
     4691373442926859000000000, 1476210108130195000000000, 3727215008878210000000000, 62411504342539000000000,
     62411504342539000000000, 2881077012617455000000000, 6852432765000537000000000, 2881077012617455000000000,
     6852432765000537000000000, 204078718039469000000000, 204078718039469000000000, 204078718039469000000000,
     204078718039469000000000, 204078718039469000000000, 204078718039469000000000, 2881077012617455000000000,
     6852432765000537000000000, 62411504342539000000000, 62411504342539000000000, 6852432765000537000000000,
     2881077012617455000000000, 2881077012617455000000000, 6852432765000537000000000, 62411504342539000000000,
     62411504342539000000000, 6852432765000537000000000, 2881077012617455000000000, 2548571009364550000000000,
     2548571009364550000000000, 84836770304887000000000, 6529603551870550000000000, 84836770304887000000000,
     6529603551870550000000000, 836988668460014000000000, 836988668460014000000000, 836988668460014000000000,
     836988668460014000000000, 836988668460014000000000, 836988668460014000000000, 84836770304887000000000,
     6529603551870550000000000, 2548571009364550000000000, 2548571009364550000000000, 6529603551870550000000000,
     84836770304887000000000, 84836770304887000000000, 6529603551870550000000000, 2548571009364550000000000,
     2548571009364550000000000, 6529603551870550000000000, 84836770304887000000000, 5081225906571617000000000,
     5081225906571617000000000, 1193128036212033000000000, 3224332256857841000000000, 1193128036212033000000000,
     3224332256857841000000000, 501313800358508000000000, 501313800358508000000000, 501313800358508000000000,
     501313800358508000000000, 501313800358508000000000, 501313800358508000000000, 1193128036212033000000000,
     3224332256857841000000000, 5081225906571617000000000, 5081225906571617000000000, 3224332256857841000000000,
     1193128036212033000000000, 1193128036212033000000000, 3224332256857841000000000, 5081225906571617000000000,
     5081225906571617000000000, 3224332256857841000000000, 1193128036212033000000000, 109499610637902000000000,
     109499610637902000000000, 4198369201417426000000000, 2537102331108258000000000, 4198369201417426000000000,
     2537102331108258000000000, 3155028856836414000000000, 3155028856836414000000000, 3155028856836414000000000,
     3155028856836414000000000, 3155028856836414000000000, 3155028856836414000000000, 4198369201417426000000000,
     2537102331108258000000000, 109499610637902000000000, 109499610637902000000000, 2537102331108258000000000,
     4198369201417426000000000, 4198369201417426000000000, 2537102331108258000000000, 109499610637902000000000,
     109499610637902000000000, 2537102331108258000000000, 4198369201417426000000000],
    [2500000000000000000000000, 962334679417012000000000, 962334679417012000000000, 7112995961748966000000000,
     962334679417012000000000, 2840710971185555000000000, 2840710971185555000000000, 1477867086443335000000000,
     2840710971185555000000000, 420121804976231000000000, 420121804976231000000000, 8739634585071308000000000,
     420121804976231000000000, 1293925012179526000000000, 3706074987820475000000000, 3706074987820475000000000,
     1293925012179526000000000, 1293925012179526000000000, 3706074987820475000000000, 533931212533031000000000,
     7679699947393867000000000, 533931212533031000000000, 533931212533031000000000, 7679699947393867000000000,
     533931212533031000000000, 1252437627540072000000000, 1252437627540072000000000, 1252437627540072000000000,
     533931212533031000000000, 533931212533031000000000, 7679699947393867000000000, 52505539069196000000000,
     1660339253205299000000000, 52505539069196000000000, 52505539069196000000000, 1660339253205299000000000,
     52505539069196000000000, 8234649668656309000000000, 8234649668656309000000000, 8234649668656309000000000,
     52505539069196000000000, 52505539069196000000000, 1660339253205299000000000, 2128993323694659000000000,
     1034045995093328000000000, 2128993323694659000000000, 2128993323694659000000000, 1034045995093328000000000,
     2128993323694659000000000, 4707967357517354000000000, 4707967357517354000000000, 4707967357517354000000000,
     2128993323694659000000000, 2128993323694659000000000, 1034045995093328000000000, 4034135325977229000000000,
     1333356346432022000000000, 4034135325977229000000000, 4034135325977229000000000, 1333356346432022000000000,
     4034135325977229000000000, 598373001613519000000000, 598373001613519000000000, 598373001613519000000000,
     4034135325977229000000000, 4034135325977229000000000, 1333356346432022000000000, 118881193081127000000000,
     5532379678070896000000000, 118881193081127000000000, 118881193081127000000000, 5532379678070896000000000,
     118881193081127000000000, 4229857935766850000000000, 4229857935766850000000000, 4229857935766850000000000,
     118881193081127000000000, 118881193081127000000000, 5532379678070896000000000, 890311655120663000000000,
     8080695151909102000000000, 890311655120663000000000, 890311655120663000000000, 8080695151909102000000000,
     890311655120663000000000, 138681537849572000000000, 138681537849572000000000, 138681537849572000000000,
     890311655120663000000000, 890311655120663000000000, 8080695151909102000000000, 515167869589916000000000,
     4873280365294901000000000, 515167869589916000000000, 515167869589916000000000, 4873280365294901000000000,
     515167869589916000000000, 4096383895525266000000000, 4096383895525266000000000, 4096383895525266000000000,
     515167869589916000000000, 515167869589916000000000, 4873280365294901000000000, 1179992852297671000000000,
     2466149943644083000000000, 1179992852297671000000000, 1179992852297671000000000, 2466149943644083000000000,
     1179992852297671000000000, 5173864351760575000000000, 5173864351760575000000000, 5173864351760575000000000,
     1179992852297671000000000, 1179992852297671000000000, 2466149943644083000000000, 460851233492859000000000,
     2781414318856127000000000, 460851233492859000000000, 460851233492859000000000, 2781414318856127000000000,
     460851233492859000000000, 6296883214158154000000000, 6296883214158154000000000, 6296883214158154000000000,
     460851233492859000000000, 460851233492859000000000, 2781414318856127000000000, 1410186708097898000000000,
     81746499483895000000000, 1410186708097898000000000, 1410186708097898000000000, 81746499483895000000000,
     1410186708097898000000000, 7097880084320309000000000, 7097880084320309000000000, 7097880084320309000000000,
     1410186708097898000000000, 1410186708097898000000000, 81746499483895000000000, 1411034408699267000000000,
     5855868767598970000000000, 1411034408699267000000000, 1411034408699267000000000, 5855868767598970000000000,
     1411034408699267000000000, 1322062415002498000000000, 1322062415002498000000000, 1322062415002498000000000,
     1411034408699267000000000, 1411034408699267000000000, 5855868767598970000000000, 79118622048211000000000,
     303588380906194000000000, 79118622048211000000000, 79118622048211000000000, 303588380906194000000000,
     79118622048211000000000, 9538174374997385000000000, 9538174374997385000000000, 9538174374997385000000000,
     79118622048211000000000, 79118622048211000000000, 303588380906194000000000, 1761012114703174000000000,
     2461239587816849000000000, 1761012114703174000000000, 1761012114703174000000000, 2461239587816849000000000,
     1761012114703174000000000, 4016736182776802000000000, 4016736182776802000000000, 4016736182776802000000000,
     1761012114703174000000000, 1761012114703174000000000, 2461239587816849000000000, 453113744152098000000000,
     1736495090943957000000000, 7694124041149815000000000, 7694124041149815000000000, 1736495090943957000000000,
     453113744152098000000000, 453113744152098000000000, 1736495090943957000000000, 7694124041149815000000000,
     7694124041149815000000000, 1736495090943957000000000, 453113744152098000000000, 116267123754130000000000,
     116267123754130000000000, 116267123754130000000000, 116267123754130000000000, 116267123754130000000000,
     116267123754130000000000, 1736495090943957000000000, 453113744152098000000000, 1736495090943957000000000,
     453113744152098000000000, 7694124041149815000000000, 7694124041149815000000000, 1902469770309511000000000,
     6467333246419940000000000, 1139907343389768000000000, 1139907343389768000000000, 6467333246419940000000000,
     1902469770309511000000000, 1902469770309511000000000, 6467333246419940000000000, 1139907343389768000000000,
     1139907343389768000000000, 6467333246419940000000000, 1902469770309511000000000, 490289639880780000000000,
     490289639880780000000000, 490289639880780000000000, 490289639880780000000000, 490289639880780000000000,
     490289639880780000000000, 6467333246419940000000000, 1902469770309511000000000, 6467333246419940000000000,
     1902469770309511000000000, 1139907343389768000000000, 1139907343389768000000000, 2025882107314621000000000,
     2408858063990418000000000, 5045224197189542000000000, 5045224197189542000000000, 2408858063990418000000000,
     2025882107314621000000000, 2025882107314621000000000, 2408858063990418000000000, 5045224197189542000000000,
     5045224197189542000000000, 2408858063990418000000000, 2025882107314621000000000, 520035631505419000000000,
     520035631505419000000000, 520035631505419000000000, 520035631505419000000000, 520035631505419000000000,
     520035631505419000000000, 2408858063990418000000000, 2025882107314621000000000, 2408858063990418000000000,
     2025882107314621000000000, 5045224197189542000000000, 5045224197189542000000000, 628045986545770000000000,
     5376101656245691000000000, 3899342137938394000000000, 3899342137938394000000000, 5376101656245691000000000,
     628045986545770000000000, 628045986545770000000000, 5376101656245691000000000, 3899342137938394000000000,
     3899342137938394000000000, 5376101656245691000000000, 628045986545770000000000, 96510219270146000000000,
     96510219270146000000000, 96510219270146000000000, 96510219270146000000000, 96510219270146000000000,
     96510219270146000000000, 5376101656245691000000000, 628045986545770000000000, 5376101656245691000000000,
     628045986545770000000000, 3899342137938394000000000, 3899342137938394000000000, 1689034611068301000000000,
     5666194853322549000000000, 102510197711691000000000, 102510197711691000000000, 5666194853322549000000000,
     1689034611068301000000000, 1689034611068301000000000, 5666194853322549000000000, 102510197711691000000000,
     102510197711691000000000, 5666194853322549000000000, 1689034611068301000000000, 2542260337897459000000000,
     2542260337897459000000000, 2542260337897459000000000, 2542260337897459000000000, 2542260337897459000000000,
     2542260337897459000000000, 5666194853322549000000000, 1689034611068301000000000, 5666194853322549000000000,
     1689034611068301000000000, 102510197711691000000000, 102510197711691000000000, 1282802298826546000000000,
     2176247037611105000000000, 3714709314621824000000000, 3714709314621824000000000, 2176247037611105000000000,
     1282802298826546000000000, 1282802298826546000000000, 2176247037611105000000000, 3714709314621824000000000,
     3714709314621824000000000, 2176247037611105000000000, 1282802298826546000000000, 2826241348940526000000000,
     2826241348940526000000000, 2826241348940526000000000, 2826241348940526000000000, 2826241348940526000000000,
     2826241348940526000000000, 2176247037611105000000000, 1282802298826546000000000, 2176247037611105000000000,
     1282802298826546000000000, 3714709314621824000000000, 3714709314621824000000000, 3753164302248334000000000,
     3358240006032013000000000, 2323738231259893000000000, 2323738231259893000000000, 3358240006032013000000000,
     3753164302248334000000000, 3753164302248334000000000, 3358240006032013000000000, 2323738231259893000000000,
     2323738231259893000000000, 3358240006032013000000000, 3753164302248334000000000, 564857460459761000000000,
     564857460459761000000000, 564857460459761000000000, 564857460459761000000000, 564857460459761000000000,
     564857460459761000000000, 3358240006032013000000000, 3753164302248334000000000, 3358240006032013000000000,
     3753164302248334000000000, 2323738231259893000000000, 2323738231259893000000000, 817663469329853000000000,
     59682218345955000000000, 282332391047721000000000, 282332391047721000000000, 59682218345955000000000,
     817663469329853000000000, 817663469329853000000000, 59682218345955000000000, 282332391047721000000000,
     282332391047721000000000, 59682218345955000000000, 817663469329853000000000, 8840321921276470000000000,
     8840321921276470000000000, 8840321921276470000000000, 8840321921276470000000000, 8840321921276470000000000,
     8840321921276470000000000, 59682218345955000000000, 817663469329853000000000, 59682218345955000000000,
     817663469329853000000000, 282332391047721000000000, 282332391047721000000000, 3727215008878210000000000,
     1476210108130195000000000, 4691373442926859000000000, 4691373442926859000000000, 1476210108130195000000000,
     3727215008878210000000000, 3727215008878210000000000, 1476210108130195000000000, 4691373442926859000000000,
     4691373442926859000000000, 1476210108130195000000000, 3727215008878210000000000, 105201440064736000000000,
     105201440064736000000000, 105201440064736000000000, 105201440064736000000000, 105201440064736000000000,
     105201440064736000000000, 1476210108130195000000000, 3727215008878210000000000, 1476210108130195000000000,
     3727215008878210000000000, 4691373442926859000000000, 4691373442926859000000000, 2881077012617455000000000,
     6852432765000537000000000, 62411504342539000000000, 62411504342539000000000, 6852432765000537000000000,
     2881077012617455000000000, 2881077012617455000000000, 6852432765000537000000000, 62411504342539000000000,
     62411504342539000000000, 6852432765000537000000000, 2881077012617455000000000, 204078718039469000000000,
     204078718039469000000000, 204078718039469000000000, 204078718039469000000000, 204078718039469000000000,
     204078718039469000000000, 6852432765000537000000000, 2881077012617455000000000, 6852432765000537000000000,
     2881077012617455000000000, 62411504342539000000000, 62411504342539000000000, 84836770304887000000000,
     6529603551870550000000000, 2548571009364550000000000, 2548571009364550000000000, 6529603551870550000000000,
     84836770304887000000000, 84836770304887000000000, 6529603551870550000000000, 2548571009364550000000000,
     2548571009364550000000000, 6529603551870550000000000, 84836770304887000000000, 836988668460014000000000,
     836988668460014000000000, 836988668460014000000000, 836988668460014000000000, 836988668460014000000000,
     836988668460014000000000, 6529603551870550000000000, 84836770304887000000000, 6529603551870550000000000,
     84836770304887000000000, 2548571009364550000000000, 2548571009364550000000000, 1193128036212033000000000,
     3224332256857841000000000, 5081225906571617000000000, 5081225906571617000000000, 3224332256857841000000000,
     1193128036212033000000000, 1193128036212033000000000, 3224332256857841000000000, 5081225906571617000000000,
     5081225906571617000000000, 3224332256857841000000000, 1193128036212033000000000, 501313800358508000000000,
     501313800358508000000000, 501313800358508000000000, 501313800358508000000000, 501313800358508000000000,
     501313800358508000000000, 3224332256857841000000000, 1193128036212033000000000, 3224332256857841000000000,
     1193128036212033000000000, 5081225906571617000000000, 5081225906571617000000000, 4198369201417426000000000,
     2537102331108258000000000, 109499610637902000000000, 109499610637902000000000, 2537102331108258000000000,
     4198369201417426000000000, 4198369201417426000000000, 2537102331108258000000000, 109499610637902000000000,
     109499610637902000000000, 2537102331108258000000000, 4198369201417426000000000, 3155028856836414000000000,
     3155028856836414000000000, 3155028856836414000000000, 3155028856836414000000000, 3155028856836414000000000,
     3155028856836414000000000, 2537102331108258000000000, 4198369201417426000000000, 2537102331108258000000000,
     4198369201417426000000000, 109499610637902000000000, 109499610637902000000000],
    [2500000000000000000000000, 962334679417012000000000, 962334679417012000000000, 962334679417012000000000,
     7112995961748966000000000, 2840710971185555000000000, 2840710971185555000000000, 2840710971185555000000000,
     1477867086443335000000000, 420121804976231000000000, 420121804976231000000000, 420121804976231000000000,
     8739634585071308000000000, 1293925012179526000000000, 1293925012179526000000000, 1293925012179526000000000,
     3706074987820475000000000, 3706074987820475000000000, 3706074987820475000000000, 533931212533031000000000,
     533931212533031000000000, 7679699947393867000000000, 533931212533031000000000, 533931212533031000000000,
     7679699947393867000000000, 533931212533031000000000, 533931212533031000000000, 7679699947393867000000000,
     1252437627540072000000000, 1252437627540072000000000, 1252437627540072000000000, 52505539069196000000000,
     52505539069196000000000, 1660339253205299000000000, 52505539069196000000000, 52505539069196000000000,
     1660339253205299000000000, 52505539069196000000000, 52505539069196000000000, 1660339253205299000000000,
     8234649668656309000000000, 8234649668656309000000000, 8234649668656309000000000, 2128993323694659000000000,
     2128993323694659000000000, 1034045995093328000000000, 2128993323694659000000000, 2128993323694659000000000,
     1034045995093328000000000, 2128993323694659000000000, 2128993323694659000000000, 1034045995093328000000000,
     4707967357517354000000000, 4707967357517354000000000, 4707967357517354000000000, 4034135325977229000000000,
     4034135325977229000000000, 1333356346432022000000000, 4034135325977229000000000, 4034135325977229000000000,
     1333356346432022000000000, 4034135325977229000000000, 4034135325977229000000000, 1333356346432022000000000,
     598373001613519000000000, 598373001613519000000000, 598373001613519000000000, 118881193081127000000000,
     118881193081127000000000, 5532379678070896000000000, 118881193081127000000000, 118881193081127000000000,
     5532379678070896000000000, 118881193081127000000000, 118881193081127000000000, 5532379678070896000000000,
     4229857935766850000000000, 4229857935766850000000000, 4229857935766850000000000, 890311655120663000000000,
     890311655120663000000000, 8080695151909102000000000, 890311655120663000000000, 890311655120663000000000,
     8080695151909102000000000, 890311655120663000000000, 890311655120663000000000, 8080695151909102000000000,
     138681537849572000000000, 138681537849572000000000, 138681537849572000000000, 515167869589916000000000,
     515167869589916000000000, 4873280365294901000000000, 515167869589916000000000, 515167869589916000000000,
     4873280365294901000000000, 515167869589916000000000, 515167869589916000000000, 4873280365294901000000000,
     4096383895525266000000000, 4096383895525266000000000, 4096383895525266000000000, 1179992852297671000000000,
     1179992852297671000000000, 2466149943644083000000000, 1179992852297671000000000, 1179992852297671000000000,
     2466149943644083000000000, 1179992852297671000000000, 1179992852297671000000000, 2466149943644083000000000,
     5173864351760575000000000, 5173864351760575000000000, 5173864351760575000000000, 460851233492859000000000,
     460851233492859000000000, 2781414318856127000000000, 460851233492859000000000, 460851233492859000000000,
     2781414318856127000000000, 460851233492859000000000, 460851233492859000000000, 2781414318856127000000000,
     6296883214158154000000000, 6296883214158154000000000, 6296883214158154000000000, 1410186708097898000000000,
     1410186708097898000000000, 81746499483895000000000, 1410186708097898000000000, 1410186708097898000000000,
     81746499483895000000000, 1410186708097898000000000, 1410186708097898000000000, 81746499483895000000000,
     7097880084320309000000000, 7097880084320309000000000, 7097880084320309000000000, 1411034408699267000000000,
     1411034408699267000000000, 5855868767598970000000000, 1411034408699267000000000, 1411034408699267000000000,
     5855868767598970000000000, 1411034408699267000000000, 1411034408699267000000000, 5855868767598970000000000,
     1322062415002498000000000, 1322062415002498000000000, 1322062415002498000000000, 79118622048211000000000,
     79118622048211000000000, 303588380906194000000000, 79118622048211000000000, 79118622048211000000000,
     303588380906194000000000, 79118622048211000000000, 79118622048211000000000, 303588380906194000000000,
     9538174374997385000000000, 9538174374997385000000000, 9538174374997385000000000, 1761012114703174000000000,
     1761012114703174000000000, 2461239587816849000000000, 1761012114703174000000000, 1761012114703174000000000,
     2461239587816849000000000, 1761012114703174000000000, 1761012114703174000000000, 2461239587816849000000000,
     4016736182776802000000000, 4016736182776802000000000, 4016736182776802000000000, 1736495090943957000000000,
     453113744152098000000000, 1736495090943957000000000, 453113744152098000000000, 7694124041149815000000000,
     7694124041149815000000000, 1736495090943957000000000, 453113744152098000000000, 1736495090943957000000000,
     453113744152098000000000, 7694124041149815000000000, 7694124041149815000000000, 1736495090943957000000000,
     453113744152098000000000, 1736495090943957000000000, 453113744152098000000000, 7694124041149815000000000,
     7694124041149815000000000, 116267123754130000000000, 116267123754130000000000, 116267123754130000000000,
     116267123754130000000000, 116267123754130000000000, 116267123754130000000000, 6467333246419940000000000,
     1902469770309511000000000, 6467333246419940000000000, 1902469770309511000000000, 1139907343389768000000000,
     1139907343389768000000000, 6467333246419940000000000, 1902469770309511000000000, 6467333246419940000000000,
     1902469770309511000000000, 1139907343389768000000000, 1139907343389768000000000, 6467333246419940000000000,
     1902469770309511000000000, 6467333246419940000000000, 1902469770309511000000000, 1139907343389768000000000,
     1139907343389768000000000, 490289639880780000000000, 490289639880780000000000, 490289639880780000000000,
     490289639880780000000000, 490289639880780000000000, 490289639880780000000000, 2408858063990418000000000,
     2025882107314621000000000, 2408858063990418000000000, 2025882107314621000000000, 5045224197189542000000000,
     5045224197189542000000000, 2408858063990418000000000, 2025882107314621000000000, 2408858063990418000000000,
     2025882107314621000000000, 5045224197189542000000000, 5045224197189542000000000, 2408858063990418000000000,
     2025882107314621000000000, 2408858063990418000000000, 2025882107314621000000000, 5045224197189542000000000,
     5045224197189542000000000, 520035631505419000000000, 520035631505419000000000, 520035631505419000000000,
     520035631505419000000000, 520035631505419000000000, 520035631505419000000000, 5376101656245691000000000,
     628045986545770000000000, 5376101656245691000000000, 628045986545770000000000, 3899342137938394000000000,
     3899342137938394000000000, 5376101656245691000000000, 628045986545770000000000, 5376101656245691000000000,
     628045986545770000000000, 3899342137938394000000000, 3899342137938394000000000, 5376101656245691000000000,
     628045986545770000000000, 5376101656245691000000000, 628045986545770000000000, 3899342137938394000000000,
     3899342137938394000000000, 96510219270146000000000, 96510219270146000000000, 96510219270146000000000,
     96510219270146000000000, 96510219270146000000000, 96510219270146000000000, 5666194853322549000000000,
     1689034611068301000000000, 5666194853322549000000000, 1689034611068301000000000, 102510197711691000000000,
     102510197711691000000000, 5666194853322549000000000, 1689034611068301000000000, 5666194853322549000000000,
     1689034611068301000000000, 102510197711691000000000, 102510197711691000000000, 5666194853322549000000000,
     1689034611068301000000000, 5666194853322549000000000, 1689034611068301000000000, 102510197711691000000000,
     102510197711691000000000, 2542260337897459000000000, 2542260337897459000000000, 2542260337897459000000000,
     2542260337897459000000000, 2542260337897459000000000, 2542260337897459000000000, 2176247037611105000000000,
     1282802298826546000000000, 2176247037611105000000000, 1282802298826546000000000, 3714709314621824000000000,
     3714709314621824000000000, 2176247037611105000000000, 1282802298826546000000000, 2176247037611105000000000,
     1282802298826546000000000, 3714709314621824000000000, 3714709314621824000000000, 2176247037611105000000000,
     1282802298826546000000000, 2176247037611105000000000, 1282802298826546000000000, 3714709314621824000000000,
     3714709314621824000000000, 2826241348940526000000000, 2826241348940526000000000, 2826241348940526000000000,
     2826241348940526000000000, 2826241348940526000000000, 2826241348940526000000000, 3358240006032013000000000,
     3753164302248334000000000, 3358240006032013000000000, 3753164302248334000000000, 2323738231259893000000000,
     2323738231259893000000000, 3358240006032013000000000, 3753164302248334000000000, 3358240006032013000000000,
     3753164302248334000000000, 2323738231259893000000000, 2323738231259893000000000, 3358240006032013000000000,
     3753164302248334000000000, 3358240006032013000000000, 3753164302248334000000000, 2323738231259893000000000,
     2323738231259893000000000, 564857460459761000000000, 564857460459761000000000, 564857460459761000000000,
     564857460459761000000000, 564857460459761000000000, 564857460459761000000000, 59682218345955000000000,
     817663469329853000000000, 59682218345955000000000, 817663469329853000000000, 282332391047721000000000,
     282332391047721000000000, 59682218345955000000000, 817663469329853000000000, 59682218345955000000000,
     817663469329853000000000, 282332391047721000000000, 282332391047721000000000, 59682218345955000000000,
     817663469329853000000000, 59682218345955000000000, 817663469329853000000000, 282332391047721000000000,
     282332391047721000000000, 8840321921276470000000000, 8840321921276470000000000, 8840321921276470000000000,
     8840321921276470000000000, 8840321921276470000000000, 8840321921276470000000000, 1476210108130195000000000,
     3727215008878210000000000, 1476210108130195000000000, 3727215008878210000000000, 4691373442926859000000000,
     4691373442926859000000000, 1476210108130195000000000, 3727215008878210000000000, 1476210108130195000000000,
     3727215008878210000000000, 4691373442926859000000000, 4691373442926859000000000, 1476210108130195000000000,
     3727215008878210000000000, 1476210108130195000000000, 3727215008878210000000000, 4691373442926859000000000,
     4691373442926859000000000, 105201440064736000000000, 105201440064736000000000, 105201440064736000000000,
     105201440064736000000000, 105201440064736000000000, 105201440064736000000000, 6852432765000537000000000,
     2881077012617455000000000, 6852432765000537000000000, 2881077012617455000000000, 62411504342539000000000,
     62411504342539000000000, 6852432765000537000000000, 2881077012617455000000000, 6852432765000537000000000,
     2881077012617455000000000, 62411504342539000000000, 62411504342539000000000, 6852432765000537000000000,
     2881077012617455000000000, 6852432765000537000000000, 2881077012617455000000000, 62411504342539000000000,
     62411504342539000000000, 204078718039469000000000, 204078718039469000000000, 204078718039469000000000,
     204078718039469000000000, 204078718039469000000000, 204078718039469000000000, 6529603551870550000000000,
     84836770304887000000000, 6529603551870550000000000, 84836770304887000000000, 2548571009364550000000000,
     2548571009364550000000000, 6529603551870550000000000, 84836770304887000000000, 6529603551870550000000000,
     84836770304887000000000, 2548571009364550000000000, 2548571009364550000000000, 6529603551870550000000000,
     84836770304887000000000, 6529603551870550000000000, 84836770304887000000000, 2548571009364550000000000,
     2548571009364550000000000, 836988668460014000000000, 836988668460014000000000, 836988668460014000000000,
     836988668460014000000000, 836988668460014000000000, 836988668460014000000000, 3224332256857841000000000,
     1193128036212033000000000, 3224332256857841000000000, 1193128036212033000000000, 5081225906571617000000000,
     5081225906571617000000000, 3224332256857841000000000, 1193128036212033000000000, 3224332256857841000000000,
     1193128036212033000000000, 5081225906571617000000000, 5081225906571617000000000, 3224332256857841000000000,
     1193128036212033000000000, 3224332256857841000000000, 1193128036212033000000000, 5081225906571617000000000,
     5081225906571617000000000, 501313800358508000000000, 501313800358508000000000, 501313800358508000000000,
     501313800358508000000000, 501313800358508000000000, 501313800358508000000000, 2537102331108258000000000,
     4198369201417426000000000, 2537102331108258000000000, 4198369201417426000000000, 109499610637902000000000,
     109499610637902000000000, 2537102331108258000000000, 4198369201417426000000000, 2537102331108258000000000,
     4198369201417426000000000, 109499610637902000000000, 109499610637902000000000, 2537102331108258000000000,
     4198369201417426000000000, 2537102331108258000000000, 4198369201417426000000000, 109499610637902000000000,
     109499610637902000000000, 3155028856836414000000000, 3155028856836414000000000, 3155028856836414000000000,
     3155028856836414000000000, 3155028856836414000000000, 3155028856836414000000000]],
   [94774249644216000000000, 23096520465790000000000, 23096520465790000000000, 23096520465790000000000,
    23096520465790000000000, 40914927622407000000000, 40914927622407000000000, 40914927622407000000000,
    40914927622407000000000, 11736546674483000000000, 11736546674483000000000, 11736546674483000000000,
    11736546674483000000000, 57977593028187000000000, 57977593028187000000000, 57977593028187000000000,
    57977593028187000000000, 57977593028187000000000, 57977593028187000000000, 20289926391069000000000,
    20289926391069000000000, 20289926391069000000000, 20289926391069000000000, 20289926391069000000000,
    20289926391069000000000, 20289926391069000000000, 20289926391069000000000, 20289926391069000000000,
    20289926391069000000000, 20289926391069000000000, 20289926391069000000000, 2005858485106000000000,
    2005858485106000000000, 2005858485106000000000, 2005858485106000000000, 2005858485106000000000,
    2005858485106000000000, 2005858485106000000000, 2005858485106000000000, 2005858485106000000000,
    2005858485106000000000, 2005858485106000000000, 2005858485106000000000, 29080599724569000000000,
    29080599724569000000000, 29080599724569000000000, 29080599724569000000000, 29080599724569000000000,
    29080599724569000000000, 29080599724569000000000, 29080599724569000000000, 29080599724569000000000,
    29080599724569000000000, 29080599724569000000000, 29080599724569000000000, 25320784632871000000000,
    25320784632871000000000, 25320784632871000000000, 25320784632871000000000, 25320784632871000000000,
    25320784632871000000000, 25320784632871000000000, 25320784632871000000000, 25320784632871000000000,
    25320784632871000000000, 25320784632871000000000, 25320784632871000000000, 7343695736316000000000,
    7343695736316000000000, 7343695736316000000000, 7343695736316000000000, 7343695736316000000000,
    7343695736316000000000, 7343695736316000000000, 7343695736316000000000, 7343695736316000000000,
    7343695736316000000000, 7343695736316000000000, 7343695736316000000000, 10761835745394000000000,
    10761835745394000000000, 10761835745394000000000, 10761835745394000000000, 10761835745394000000000,
    10761835745394000000000, 10761835745394000000000, 10761835745394000000000, 10761835745394000000000,
    10761835745394000000000, 10761835745394000000000, 10761835745394000000000, 19864156771315000000000,
    19864156771315000000000, 19864156771315000000000, 19864156771315000000000, 19864156771315000000000,
    19864156771315000000000, 19864156771315000000000, 19864156771315000000000, 19864156771315000000000,
    19864156771315000000000, 19864156771315000000000, 19864156771315000000000, 50463173642939000000000,
    50463173642939000000000, 50463173642939000000000, 50463173642939000000000, 50463173642939000000000,
    50463173642939000000000, 50463173642939000000000, 50463173642939000000000, 50463173642939000000000,
    50463173642939000000000, 50463173642939000000000, 50463173642939000000000, 26922824605311000000000,
    26922824605311000000000, 26922824605311000000000, 26922824605311000000000, 26922824605311000000000,
    26922824605311000000000, 26922824605311000000000, 26922824605311000000000, 26922824605311000000000,
    26922824605311000000000, 26922824605311000000000, 26922824605311000000000, 13306362885038000000000,
    13306362885038000000000, 13306362885038000000000, 13306362885038000000000, 13306362885038000000000,
    13306362885038000000000, 13306362885038000000000, 13306362885038000000000, 13306362885038000000000,
    13306362885038000000000, 13306362885038000000000, 13306362885038000000000, 17829289008529000000000,
    17829289008529000000000, 17829289008529000000000, 17829289008529000000000, 17829289008529000000000,
    17829289008529000000000, 17829289008529000000000, 17829289008529000000000, 17829289008529000000000,
    17829289008529000000000, 17829289008529000000000, 17829289008529000000000, 1263015826184000000000,
    1263015826184000000000, 1263015826184000000000, 1263015826184000000000, 1263015826184000000000,
    1263015826184000000000, 1263015826184000000000, 1263015826184000000000, 1263015826184000000000,
    1263015826184000000000, 1263015826184000000000, 1263015826184000000000, 32442609438192000000000,
    32442609438192000000000, 32442609438192000000000, 32442609438192000000000, 32442609438192000000000,
    32442609438192000000000, 32442609438192000000000, 32442609438192000000000, 32442609438192000000000,
    32442609438192000000000, 32442609438192000000000, 32442609438192000000000, 10484981857125000000000,
    10484981857125000000000, 10484981857125000000000, 10484981857125000000000, 10484981857125000000000,
    10484981857125000000000, 10484981857125000000000, 10484981857125000000000, 10484981857125000000000,
    10484981857125000000000, 10484981857125000000000, 10484981857125000000000, 10484981857125000000000,
    10484981857125000000000, 10484981857125000000000, 10484981857125000000000, 10484981857125000000000,
    10484981857125000000000, 10484981857125000000000, 10484981857125000000000, 10484981857125000000000,
    10484981857125000000000, 10484981857125000000000, 10484981857125000000000, 36057407457346000000000,
    36057407457346000000000, 36057407457346000000000, 36057407457346000000000, 36057407457346000000000,
    36057407457346000000000, 36057407457346000000000, 36057407457346000000000, 36057407457346000000000,
    36057407457346000000000, 36057407457346000000000, 36057407457346000000000, 36057407457346000000000,
    36057407457346000000000, 36057407457346000000000, 36057407457346000000000, 36057407457346000000000,
    36057407457346000000000, 36057407457346000000000, 36057407457346000000000, 36057407457346000000000,
    36057407457346000000000, 36057407457346000000000, 36057407457346000000000, 25615584078698000000000,
    25615584078698000000000, 25615584078698000000000, 25615584078698000000000, 25615584078698000000000,
    25615584078698000000000, 25615584078698000000000, 25615584078698000000000, 25615584078698000000000,
    25615584078698000000000, 25615584078698000000000, 25615584078698000000000, 25615584078698000000000,
    25615584078698000000000, 25615584078698000000000, 25615584078698000000000, 25615584078698000000000,
    25615584078698000000000, 25615584078698000000000, 25615584078698000000000, 25615584078698000000000,
    25615584078698000000000, 25615584078698000000000, 25615584078698000000000, 14989184678344000000000,
    14989184678344000000000, 14989184678344000000000, 14989184678344000000000, 14989184678344000000000,
    14989184678344000000000, 14989184678344000000000, 14989184678344000000000, 14989184678344000000000,
    14989184678344000000000, 14989184678344000000000, 14989184678344000000000, 14989184678344000000000,
    14989184678344000000000, 14989184678344000000000, 14989184678344000000000, 14989184678344000000000,
    14989184678344000000000, 14989184678344000000000, 14989184678344000000000, 14989184678344000000000,
    14989184678344000000000, 14989184678344000000000, 14989184678344000000000, 18143245723275000000000,
    18143245723275000000000, 18143245723275000000000, 18143245723275000000000, 18143245723275000000000,
    18143245723275000000000, 18143245723275000000000, 18143245723275000000000, 18143245723275000000000,
    18143245723275000000000, 18143245723275000000000, 18143245723275000000000, 18143245723275000000000,
    18143245723275000000000, 18143245723275000000000, 18143245723275000000000, 18143245723275000000000,
    18143245723275000000000, 18143245723275000000000, 18143245723275000000000, 18143245723275000000000,
    18143245723275000000000, 18143245723275000000000, 18143245723275000000000, 28839380739962000000000,
    28839380739962000000000, 28839380739962000000000, 28839380739962000000000, 28839380739962000000000,
    28839380739962000000000, 28839380739962000000000, 28839380739962000000000, 28839380739962000000000,
    28839380739962000000000, 28839380739962000000000, 28839380739962000000000, 28839380739962000000000,
    28839380739962000000000, 28839380739962000000000, 28839380739962000000000, 28839380739962000000000,
    28839380739962000000000, 28839380739962000000000, 28839380739962000000000, 28839380739962000000000,
    28839380739962000000000, 28839380739962000000000, 28839380739962000000000, 31914113052213000000000,
    31914113052213000000000, 31914113052213000000000, 31914113052213000000000, 31914113052213000000000,
    31914113052213000000000, 31914113052213000000000, 31914113052213000000000, 31914113052213000000000,
    31914113052213000000000, 31914113052213000000000, 31914113052213000000000, 31914113052213000000000,
    31914113052213000000000, 31914113052213000000000, 31914113052213000000000, 31914113052213000000000,
    31914113052213000000000, 31914113052213000000000, 31914113052213000000000, 31914113052213000000000,
    31914113052213000000000, 31914113052213000000000, 31914113052213000000000, 3955282336987000000000,
    3955282336987000000000, 3955282336987000000000, 3955282336987000000000, 3955282336987000000000,
    3955282336987000000000, 3955282336987000000000, 3955282336987000000000, 3955282336987000000000,
    3955282336987000000000, 3955282336987000000000, 3955282336987000000000, 3955282336987000000000,
    3955282336987000000000, 3955282336987000000000, 3955282336987000000000, 3955282336987000000000,
    3955282336987000000000, 3955282336987000000000, 3955282336987000000000, 3955282336987000000000,
    3955282336987000000000, 3955282336987000000000, 3955282336987000000000, 16422112319158000000000,
    16422112319158000000000, 16422112319158000000000, 16422112319158000000000, 16422112319158000000000,
    16422112319158000000000, 16422112319158000000000, 16422112319158000000000, 16422112319158000000000,
    16422112319158000000000, 16422112319158000000000, 16422112319158000000000, 16422112319158000000000,
    16422112319158000000000, 16422112319158000000000, 16422112319158000000000, 16422112319158000000000,
    16422112319158000000000, 16422112319158000000000, 16422112319158000000000, 16422112319158000000000,
    16422112319158000000000, 16422112319158000000000, 16422112319158000000000, 4640920897460000000000,
    4640920897460000000000, 4640920897460000000000, 4640920897460000000000, 4640920897460000000000,
    4640920897460000000000, 4640920897460000000000, 4640920897460000000000, 4640920897460000000000,
    4640920897460000000000, 4640920897460000000000, 4640920897460000000000, 4640920897460000000000,
    4640920897460000000000, 4640920897460000000000, 4640920897460000000000, 4640920897460000000000,
    4640920897460000000000, 4640920897460000000000, 4640920897460000000000, 4640920897460000000000,
    4640920897460000000000, 4640920897460000000000, 4640920897460000000000, 12108653399940000000000,
    12108653399940000000000, 12108653399940000000000, 12108653399940000000000, 12108653399940000000000,
    12108653399940000000000, 12108653399940000000000, 12108653399940000000000, 12108653399940000000000,
    12108653399940000000000, 12108653399940000000000, 12108653399940000000000, 12108653399940000000000,
    12108653399940000000000, 12108653399940000000000, 12108653399940000000000, 12108653399940000000000,
    12108653399940000000000, 12108653399940000000000, 12108653399940000000000, 12108653399940000000000,
    12108653399940000000000, 12108653399940000000000, 12108653399940000000000, 36532830172781000000000,
    36532830172781000000000, 36532830172781000000000, 36532830172781000000000, 36532830172781000000000,
    36532830172781000000000, 36532830172781000000000, 36532830172781000000000, 36532830172781000000000,
    36532830172781000000000, 36532830172781000000000, 36532830172781000000000, 36532830172781000000000,
    36532830172781000000000, 36532830172781000000000, 36532830172781000000000, 36532830172781000000000,
    36532830172781000000000, 36532830172781000000000, 36532830172781000000000, 36532830172781000000000,
    36532830172781000000000, 36532830172781000000000, 36532830172781000000000, 17447912387626000000000,
    17447912387626000000000, 17447912387626000000000, 17447912387626000000000, 17447912387626000000000,
    17447912387626000000000, 17447912387626000000000, 17447912387626000000000, 17447912387626000000000,
    17447912387626000000000, 17447912387626000000000, 17447912387626000000000, 17447912387626000000000,
    17447912387626000000000, 17447912387626000000000, 17447912387626000000000, 17447912387626000000000,
    17447912387626000000000, 17447912387626000000000, 17447912387626000000000, 17447912387626000000000,
    17447912387626000000000, 17447912387626000000000, 17447912387626000000000]⟩

/-- `tet_data[19]` (jaskowiec_sukumar_tet_data.py 11442-13662). -/
def jsTet_19 : TableRule :=
  ⟨20,
   [
    [2967759596934131000000000, 1096721209197606000000000, 2967759596934131000000000, 2967759596934131000000000,
     1209047972112185000000000, 6372856083663444000000000, 1209047972112185000000000, 1209047972112185000000000,
     3177959071881044000000000, 466122784356867000000000, 3177959071881044000000000, 3177959071881044000000000,
     2012655712414790000000000, 3962032862755631000000000, 2012655712414790000000000, 2012655712414790000000000,
     1678838969272885000000000, 4963483092181346000000000, 1678838969272885000000000, 1678838969272885000000000,
     362149396096895000000000, 8913551811709316000000000, 362149396096895000000000, 362149396096895000000000,
     4473975503825162000000000, 526024496174838000000000, 4473975503825162000000000, 526024496174838000000000,
     4473975503825162000000000, 526024496174838000000000, 1954214436686958000000000, 3045785563313042000000000,
     1954214436686958000000000, 3045785563313042000000000, 1954214436686958000000000, 3045785563313042000000000,
     8181532733687802000000000, 322823054983952000000000, 322823054983952000000000, 1172821156344295000000000,
     1172821156344295000000000, 1172821156344295000000000, 322823054983952000000000, 8181532733687802000000000,
     322823054983952000000000, 322823054983952000000000, 8181532733687802000000000, 322823054983952000000000,
     1671963931828212000000000, 81265144705196000000000, 81265144705196000000000, 8165505778761395000000000,
     8165505778761395000000000, 8165505778761395000000000, 81265144705196000000000, 1671963931828212000000000,
     81265144705196000000000, 81265144705196000000000, 1671963931828212000000000, 81265144705196000000000,
     661101187666243000000000, 1851459522994347000000000, 1851459522994347000000000, 5635979766345063000000000,
     5635979766345063000000000, 5635979766345063000000000, 1851459522994347000000000, 661101187666243000000000,
     1851459522994347000000000, 1851459522994347000000000, 661101187666243000000000, 1851459522994347000000000,
     1281831845252744000000000, 4110775382017770000000000, 4110775382017770000000000, 496617390711716000000000,
     496617390711716000000000, 496617390711716000000000, 4110775382017770000000000, 1281831845252744000000000,
     4110775382017770000000000, 4110775382017770000000000, 1281831845252744000000000, 4110775382017770000000000,
     5566366248307155000000000, 100597974068545000000000, 100597974068545000000000, 4232437803555756000000000,
     4232437803555756000000000, 4232437803555756000000000, 100597974068545000000000, 5566366248307155000000000,
     100597974068545000000000, 100597974068545000000000, 5566366248307155000000000, 100597974068545000000000,
     8242515811428504000000000, 823016150372359000000000, 823016150372359000000000, 111451887826779000000000,
     111451887826779000000000, 111451887826779000000000, 823016150372359000000000, 8242515811428504000000000,
     823016150372359000000000, 823016150372359000000000, 8242515811428504000000000, 823016150372359000000000,
     6072922714391159000000000, 380128286026647000000000, 380128286026647000000000, 3166820713555548000000000,
     3166820713555548000000000, 3166820713555548000000000, 380128286026647000000000, 6072922714391159000000000,
     380128286026647000000000, 380128286026647000000000, 6072922714391159000000000, 380128286026647000000000,
     1927591204214162000000000, 829781690579476000000000, 829781690579476000000000, 6412845414626887000000000,
     6412845414626887000000000, 6412845414626887000000000, 829781690579476000000000, 1927591204214162000000000,
     829781690579476000000000, 829781690579476000000000, 1927591204214162000000000, 829781690579476000000000,
     2290899793113822000000000, 323283014904537000000000, 323283014904537000000000, 7062534177077103000000000,
     7062534177077103000000000, 7062534177077103000000000, 323283014904537000000000, 2290899793113822000000000,
     323283014904537000000000, 323283014904537000000000, 2290899793113822000000000, 323283014904537000000000,
     40624591785854000000000, 1406521940177762000000000, 1406521940177762000000000, 7146331527858621000000000,
     7146331527858621000000000, 7146331527858621000000000, 1406521940177762000000000, 40624591785854000000000,
     1406521940177762000000000, 1406521940177762000000000, 40624591785854000000000, 1406521940177762000000000,
     5168656572693773000000000, 1139719439112915000000000, 1139719439112915000000000, 2551904549080398000000000,
     2551904549080398000000000, 2551904549080398000000000, 1139719439112915000000000, 5168656572693773000000000,
     1139719439112915000000000, 1139719439112915000000000, 5168656572693773000000000, 1139719439112915000000000,
     251785631681119000000000, 74535713771749000000000, 74535713771749000000000, 9599142940775384000000000,
     9599142940775384000000000, 9599142940775384000000000, 74535713771749000000000, 251785631681119000000000,
     74535713771749000000000, 74535713771749000000000, 251785631681119000000000, 74535713771749000000000,
     3907070674791312000000000, 1110171267302689000000000, 1110171267302689000000000, 3872586790603310000000000,
     3872586790603310000000000, 3872586790603310000000000, 1110171267302689000000000, 3907070674791312000000000,
     1110171267302689000000000, 1110171267302689000000000, 3907070674791312000000000, 1110171267302689000000000,
     5333767142737392000000000, 5333767142737392000000000, 531381050391377000000000, 4037166880195431000000000,
     531381050391377000000000, 4037166880195431000000000, 97684926675800000000000, 97684926675800000000000,
     97684926675800000000000, 97684926675800000000000, 97684926675800000000000, 97684926675800000000000,
     531381050391377000000000, 4037166880195431000000000, 5333767142737392000000000, 5333767142737392000000000,
     4037166880195431000000000, 531381050391377000000000, 531381050391377000000000, 4037166880195431000000000,
     5333767142737392000000000, 5333767142737392000000000, 4037166880195431000000000, 531381050391377000000000,
     945051714627574000000000, 945051714627574000000000, 943920742872811000000000, 501546618875249000000000,
     943920742872811000000000, 501546618875249000000000, 7609480923624367000000000, 7609480923624367000000000,
     7609480923624367000000000, 7609480923624367000000000, 7609480923624367000000000, 7609480923624367000000000,
     943920742872811000000000, 501546618875249000000000, 945051714627574000000000, 945051714627574000000000,
     501546618875249000000000, 943920742872811000000000, 943920742872811000000000, 501546618875249000000000,
     945051714627574000000000, 945051714627574000000000, 501546618875249000000000, 943920742872811000000000,
     7653955692270024000000000, 7653955692270024000000000, 550544516427296000000000, 1738892311826489000000000,
     550544516427296000000000, 1738892311826489000000000, 56607479476192000000000, 56607479476192000000000,
     56607479476192000000000, 56607479476192000000000, 56607479476192000000000, 56607479476192000000000,
     550544516427296000000000, 1738892311826489000000000, 7653955692270024000000000, 7653955692270024000000000,
     1738892311826489000000000, 550544516427296000000000, 550544516427296000000000, 1738892311826489000000000,
     7653955692270024000000000, 7653955692270024000000000, 1738892311826489000000000, 550544516427296000000000,
     975172038222044000000000, 975172038222044000000000, 1798637301234305000000000, 6879571952789530000000000,
     1798637301234305000000000, 6879571952789530000000000, 346618707754121000000000, 346618707754121000000000,
     346618707754121000000000, 346618707754121000000000, 346618707754121000000000, 346618707754121000000000,
     1798637301234305000000000, 6879571952789530000000000, 975172038222044000000000, 975172038222044000000000,
     6879571952789530000000000, 1798637301234305000000000, 1798637301234305000000000, 6879571952789530000000000,
     975172038222044000000000, 975172038222044000000000, 6879571952789530000000000, 1798637301234305000000000,
     4095036586170944000000000, 4095036586170944000000000, 2121920547752147000000000, 3321735025035050000000000,
     2121920547752147000000000, 3321735025035050000000000, 461307841041859000000000, 461307841041859000000000,
     461307841041859000000000, 461307841041859000000000, 461307841041859000000000, 461307841041859000000000,
     2121920547752147000000000, 3321735025035050000000000, 4095036586170944000000000, 4095036586170944000000000,
     3321735025035050000000000, 2121920547752147000000000, 2121920547752147000000000, 3321735025035050000000000,
     4095036586170944000000000, 4095036586170944000000000, 3321735025035050000000000, 2121920547752147000000000,
     4765557207500070000000000, 4765557207500070000000000, 1290161512351960000000000, 3844720976410142000000000,
     1290161512351960000000000, 3844720976410142000000000, 99560303737828000000000, 99560303737828000000000,
     99560303737828000000000, 99560303737828000000000, 99560303737828000000000, 99560303737828000000000,
     1290161512351960000000000, 3844720976410142000000000, 4765557207500070000000000, 4765557207500070000000000,
     3844720976410142000000000, 1290161512351960000000000, 1290161512351960000000000, 3844720976410142000000000,
     4765557207500070000000000, 4765557207500070000000000, 3844720976410142000000000, 1290161512351960000000000,
     137608474867702000000000, 137608474867702000000000, 1614873223066114000000000, 5982705108010641000000000,
     1614873223066114000000000, 5982705108010641000000000, 2264813194055542000000000, 2264813194055542000000000,
     2264813194055542000000000, 2264813194055542000000000, 2264813194055542000000000, 2264813194055542000000000,
     1614873223066114000000000, 5982705108010641000000000, 137608474867702000000000, 137608474867702000000000,
     5982705108010641000000000, 1614873223066114000000000, 1614873223066114000000000, 5982705108010641000000000,
     137608474867702000000000, 137608474867702000000000, 5982705108010641000000000, 1614873223066114000000000,
     4143500741402470000000000, 4143500741402470000000000, 1059283078939860000000000, 2853013762463641000000000,
     1059283078939860000000000, 2853013762463641000000000, 1944202417194029000000000, 1944202417194029000000000,
     1944202417194029000000000, 1944202417194029000000000, 1944202417194029000000000, 1944202417194029000000000,
     1059283078939860000000000, 2853013762463641000000000, 4143500741402470000000000, 4143500741402470000000000,
     2853013762463641000000000, 1059283078939860000000000, 1059283078939860000000000, 2853013762463641000000000,
     4143500741402470000000000, 4143500741402470000000000, 2853013762463641000000000, 1059283078939860000000000,
     2864083155254953000000000, 2864083155254953000000000, 2046229328456809000000000, 4728908103942965000000000,
     2046229328456809000000000, 4728908103942965000000000, 360779412345273000000000, 360779412345273000000000,
     360779412345273000000000, 360779412345273000000000, 360779412345273000000000, 360779412345273000000000,
     2046229328456809000000000, 4728908103942965000000000, 2864083155254953000000000, 2864083155254953000000000,
     4728908103942965000000000, 2046229328456809000000000, 2046229328456809000000000, 4728908103942965000000000,
     2864083155254953000000000, 2864083155254953000000000, 4728908103942965000000000, 2046229328456809000000000,
     236158323301530000000000, 236158323301530000000000, 744179686987702000000000, 24421697078358000000000,
     744179686987702000000000, 24421697078358000000000, 8995240292632410000000000, 8995240292632410000000000,
     8995240292632410000000000, 8995240292632410000000000, 8995240292632410000000000, 8995240292632410000000000,
     744179686987702000000000, 24421697078358000000000, 236158323301530000000000, 236158323301530000000000,
     24421697078358000000000, 744179686987702000000000, 744179686987702000000000, 24421697078358000000000,
     236158323301530000000000, 236158323301530000000000, 24421697078358000000000, 744179686987702000000000,
     5078745759286403000000000, 5078745759286403000000000, 2938352359686784000000000, 1939104157388909000000000,
     2938352359686784000000000, 1939104157388909000000000, 43797723637903000000000, 43797723637903000000000,
     43797723637903000000000, 43797723637903000000000, 43797723637903000000000, 43797723637903000000000,
     2938352359686784000000000, 1939104157388909000000000, 5078745759286403000000000, 5078745759286403000000000,
     1939104157388909000000000, 2938352359686784000000000, 2938352359686784000000000, 1939104157388909000000000,
     5078745759286403000000000, 5078745759286403000000000, 1939104157388909000000000, 2938352359686784000000000,
     23886149405118000000000, 23886149405118000000000, 2899004919931303000000000, 6867525446175153000000000,
     2899004919931303000000000, 6867525446175153000000000, 209583484488425000000000, 209583484488425000000000,
     209583484488425000000000, 209583484488425000000000, 209583484488425000000000, 209583484488425000000000,
     2899004919931303000000000, 6867525446175153000000000, 23886149405118000000000, 23886149405118000000000,
     6867525446175153000000000, 2899004919931303000000000, 2899004919931303000000000, 6867525446175153000000000,
     23886149405118000000000, 23886149405118000000000, 6867525446175153000000000, 2899004919931303000000000,
     2780090233488638000000000, 2780090233488638000000000, 69203955276090000000000, 6284083367674260000000000,
     69203955276090000000000, 6284083367674260000000000, 866622443561012000000000, 866622443561012000000000,
     866622443561012000000000, 866622443561012000000000, 866622443561012000000000, 866622443561012000000000,
     69203955276090000000000, 6284083367674260000000000, 2780090233488638000000000, 2780090233488638000000000,
     6284083367674260000000000, 69203955276090000000000, 69203955276090000000000, 6284083367674260000000000,
     2780090233488638000000000, 2780090233488638000000000, 6284083367674260000000000, 69203955276090000000000,
     5431130574905816000000000, 5431130574905816000000000, 1053191068972152000000000, 3053177470209279000000000,
     1053191068972152000000000, 3053177470209279000000000, 462500885912754000000000, 462500885912754000000000,
     462500885912754000000000, 462500885912754000000000, 462500885912754000000000, 462500885912754000000000,
     1053191068972152000000000, 3053177470209279000000000, 5431130574905816000000000, 5431130574905816000000000,
     3053177470209279000000000, 1053191068972152000000000, 1053191068972152000000000, 3053177470209279000000000,
     5431130574905816000000000, 5431130574905816000000000, 3053177470209279000000000, 1053191068972152000000000,
     87923252192588000000000, 87923252192588000000000, 3387615700292962000000000, 2521955658942761000000000,
     3387615700292962000000000, 2521955658942761000000000, 4002505388571689000000000, 4002505388571689000000000,
     4002505388571689000000000, 4002505388571689000000000, 4002505388571689000000000, 4002505388571689000000000,
     3387615700292962000000000, 2521955658942761000000000, 87923252192588000000000, 87923252192588000000000,
     2521955658942761000000000, 3387615700292962000000000, 3387615700292962000000000, 2521955658942761000000000,
     87923252192588000000000, 87923252192588000000000, 2521955658942761000000000, 3387615700292962000000000],
    [2967759596934131000000000, 2967759596934131000000000, 1096721209197606000000000, 2967759596934131000000000,
     1209047972112185000000000, 1209047972112185000000000, 6372856083663444000000000, 1209047972112185000000000,
     3177959071881044000000000, 3177959071881044000000000, 466122784356867000000000, 3177959071881044000000000,
     2012655712414790000000000, 2012655712414790000000000, 3962032862755631000000000, 2012655712414790000000000,
     1678838969272885000000000, 1678838969272885000000000, 4963483092181346000000000, 1678838969272885000000000,
     362149396096895000000000, 362149396096895000000000, 8913551811709316000000000, 362149396096895000000000,
     526024496174838000000000, 4473975503825162000000000, 4473975503825162000000000, 526024496174838000000000,
     526024496174838000000000, 4473975503825162000000000, 3045785563313042000000000, 1954214436686958000000000,
     1954214436686958000000000, 3045785563313042000000000, 3045785563313042000000000, 1954214436686958000000000,
     322823054983952000000000, 8181532733687802000000000, 322823054983952000000000, 322823054983952000000000,
     8181532733687802000000000, 322823054983952000000000, 1172821156344295000000000, 1172821156344295000000000,
     1172821156344295000000000, 322823054983952000000000, 322823054983952000000000, 8181532733687802000000000,
     81265144705196000000000, 1671963931828212000000000, 81265144705196000000000, 81265144705196000000000,
     1671963931828212000000000, 81265144705196000000000, 8165505778761395000000000, 8165505778761395000000000,
     8165505778761395000000000, 81265144705196000000000, 81265144705196000000000, 1671963931828212000000000,
     1851459522994347000000000, 661101187666243000000000, 1851459522994347000000000, 1851459522994347000000000,
     661101187666243000000000, 1851459522994347000000000, 5635979766345063000000000, 5635979766345063000000000,
     5635979766345063000000000, 1851459522994347000000000, 1851459522994347000000000, 661101187666243000000000,
     4110775382017770000000000, 1281831845252744000000000, 4110775382017770000000000, 4110775382017770000000000,
     1281831845252744000000000, 4110775382017770000000000, 496617390711716000000000, 496617390711716000000000,
     496617390711716000000000, 4110775382017770000000000, 4110775382017770000000000, 1281831845252744000000000,
     100597974068545000000000, 5566366248307155000000000, 100597974068545000000000, 100597974068545000000000,
     5566366248307155000000000, 100597974068545000000000, 4232437803555756000000000, 4232437803555756000000000,
     4232437803555756000000000, 100597974068545000000000, 100597974068545000000000, 5566366248307155000000000,
     823016150372359000000000, 8242515811428504000000000, 823016150372359000000000, 823016150372359000000000,
     8242515811428504000000000, 823016150372359000000000, 111451887826779000000000, 111451887826779000000000,
     111451887826779000000000, 823016150372359000000000, 823016150372359000000000, 8242515811428504000000000,
     380128286026647000000000, 6072922714391159000000000, 380128286026647000000000, 380128286026647000000000,
     6072922714391159000000000, 380128286026647000000000, 3166820713555548000000000, 3166820713555548000000000,
     3166820713555548000000000, 380128286026647000000000, 380128286026647000000000, 6072922714391159000000000,
     829781690579476000000000, 1927591204214162000000000, 829781690579476000000000, 829781690579476000000000,
     1927591204214162000000000, 829781690579476000000000, 6412845414626887000000000, 6412845414626887000000000,
     6412845414626887000000000, 829781690579476000000000, 829781690579476000000000, 1927591204214162000000000,
     323283014904537000000000, 2290899793113822000000000, 323283014904537000000000, 323283014904537000000000,
     2290899793113822000000000, 323283014904537000000000, 7062534177077103000000000, 7062534177077103000000000,
     7062534177077103000000000, 323283014904537000000000, 323283014904537000000000, 2290899793113822000000000,
     1406521940177762000000000, 40624591785854000000000, 1406521940177762000000000, 1406521940177762000000000,
     40624591785854000000000, 1406521940177762000000000, 7146331527858621000000000, 7146331527858621000000000,
     7146331527858621000000000, 1406521940177762000000000, 1406521940177762000000000, 40624591785854000000000,
     1139719439112915000000000, 5168656572693773000000000, 1139719439112915000000000, 1139719439112915000000000,
     5168656572693773000000000, 1139719439112915000000000, 2551904549080398000000000, 2551904549080398000000000,
     2551904549080398000000000, 1139719439112915000000000, 1139719439112915000000000, 5168656572693773000000000,
     74535713771749000000000, 251785631681119000000000, 74535713771749000000000, 74535713771749000000000,
     251785631681119000000000, 74535713771749000000000, 9599142940775384000000000, 9599142940775384000000000,
     9599142940775384000000000, 74535713771749000000000, 74535713771749000000000, 251785631681119000000000,
     1110171267302689000000000, 3907070674791312000000000, 1110171267302689000000000, 1110171267302689000000000,
     3907070674791312000000000, 1110171267302689000000000, 3872586790603310000000000, 3872586790603310000000000,
     3872586790603310000000000, 1110171267302689000000000, 1110171267302689000000000, 3907070674791312000000000,
     531381050391377000000000, 4037166880195431000000000, 5333767142737392000000000, 5333767142737392000000000,
     4037166880195431000000000, 531381050391377000000000, 531381050391377000000000, 4037166880195431000000000,
     5333767142737392000000000, 5333767142737392000000000, 4037166880195431000000000, 531381050391377000000000,
     97684926675800000000000, 97684926675800000000000, 97684926675800000000000, 97684926675800000000000,
     97684926675800000000000, 97684926675800000000000, 4037166880195431000000000, 531381050391377000000000,
     4037166880195431000000000, 531381050391377000000000, 5333767142737392000000000, 5333767142737392000000000,
     943920742872811000000000, 501546618875249000000000, 945051714627574000000000, 945051714627574000000000,
     501546618875249000000000, 943920742872811000000000, 943920742872811000000000, 501546618875249000000000,
     945051714627574000000000, 945051714627574000000000, 501546618875249000000000, 943920742872811000000000,
     7609480923624367000000000, 7609480923624367000000000, 7609480923624367000000000, 7609480923624367000000000,
     7609480923624367000000000, 7609480923624367000000000, 501546618875249000000000, 943920742872811000000000,
     501546618875249000000000, 943920742872811000000000, 945051714627574000000000, 945051714627574000000000,
     550544516427296000000000, 1738892311826489000000000, 7653955692270024000000000, 7653955692270024000000000,
     1738892311826489000000000, 550544516427296000000000, 550544516427296000000000, 1738892311826489000000000,
     7653955692270024000000000, 7653955692270024000000000, 1738892311826489000000000, 550544516427296000000000,
     56607479476192000000000, 56607479476192000000000, 56607479476192000000000, 56607479476192000000000,
     56607479476192000000000, 56607479476192000000000, 1738892311826489000000000, 550544516427296000000000,
     1738892311826489000000000, 550544516427296000000000, 7653955692270024000000000, 7653955692270024000000000,
     1798637301234305000000000, 6879571952789530000000000, 975172038222044000000000, 975172038222044000000000,
     6879571952789530000000000, 1798637301234305000000000, 1798637301234305000000000, 6879571952789530000000000,
     975172038222044000000000, 975172038222044000000000, 6879571952789530000000000, 1798637301234305000000000,
     346618707754121000000000, 346618707754121000000000, 346618707754121000000000, 346618707754121000000000,
     346618707754121000000000, 346618707754121000000000, 6879571952789530000000000, 1798637301234305000000000,
     6879571952789530000000000, 1798637301234305000000000, 975172038222044000000000, 975172038222044000000000,
     2121920547752147000000000, 3321735025035050000000000, 4095036586170944000000000, 4095036586170944000000000,
     3321735025035050000000000, 2121920547752147000000000, 2121920547752147000000000, 3321735025035050000000000,
     4095036586170944000000000, 4095036586170944000000000, 3321735025035050000000000, 2121920547752147000000000,
     461307841041859000000000, 461307841041859000000000, 461307841041859000000000, 461307841041859000000000,
     461307841041859000000000, 461307841041859000000000, 3321735025035050000000000, 2121920547752147000000000,
     3321735025035050000000000, 2121920547752147000000000, 4095036586170944000000000, 4095036586170944000000000,
     1290161512351960000000000, 3844720976410142000000000, 4765557207500070000000000, 4765557207500070000000000,
     3844720976410142000000000, 1290161512351960000000000, 1290161512351960000000000, 3844720976410142000000000,
     4765557207500070000000000, 4765557207500070000000000, 3844720976410142000000000, 1290161512351960000000000,
     99560303737828000000000, 99560303737828000000000, 99560303737828000000000, 99560303737828000000000,
     99560303737828000000000, 99560303737828000000000, 3844720976410142000000000, 1290161512351960000000000,
     3844720976410142000000000, 1290161512351960000000000, 4765557207500070000000000, 4765557207500070000000000,
     1614873223066114000000000, 5982705108010641000000000, 137608474867702000000000, 137608474867702000000000,
     5982705108010641000000000, 1614873223066114000000000, 1614873223066114000000000, 5982705108010641000000000,
     137608474867702000000000, 137608474867702000000000, 5982705108010641000000000, 1614873223066114000000000,
     2264813194055542000000000, 2264813194055542000000000, 2264813194055542000000000, 2264813194055542000000000,
     2264813194055542000000000, 2264813194055542000000000, 5982705108010641000000000, 1614873223066114000000000,
     5982705108010641000000000, 1614873223066114000000000, 137608474867702000000000, 137608474867702000000000,
     1059283078939860000000000, 2853013762463641000000000, 4143500741402470000000000, 4143500741402470000000000,
     2853013762463641000000000, 1059283078939860000000000, 1059283078939860000000000, 2853013762463641000000000,
     4143500741402470000000000, 4143500741402470000000000, 2853013762463641000000000, 1059283078939860000000000,
     1944202417194029000000000, 1944202417194029000000000, 1944202417194029000000000, 1944202417194029000000000,
     1944202417194029000000000, 1944202417194029000000000, 2853013762463641000000000, 1059283078939860000000000,
     2853013762463641000000000, 1059283078939860000000000, 4143500741402470000000000, 4143500741402470000000000,
     2046229328456809000000000, 4728908103942965000000000, 2864083155254953000000000, 2864083155254953000000000,
     4728908103942965000000000, 2046229328456809000000000, 2046229328456809000000000, 4728908103942965000000000,
     2864083155254953000000000, 2864083155254953000000000, 4728908103942965000000000, 2046229328456809000000000,
     360779412345273000000000, 360779412345273000000000, 360779412345273000000000, 360779412345273000000000,
     360779412345273000000000, 360779412345273000000000, 4728908103942965000000000, 2046229328456809000000000,
     4728908103942965000000000, 2046229328456809000000000, 2864083155254953000000000, 2864083155254953000000000,
     744179686987702000000000, 24421697078358000000000, 236158323301530000000000, 236158323301530000000000,
     24421697078358000000000, 744179686987702000000000, 744179686987702000000000, 24421697078358000000000,
     236158323301530000000000, 236158323301530000000000, 24421697078358000000000, 744179686987702000000000,
     8995240292632410000000000, 8995240292632410000000000, 8995240292632410000000000, 8995240292632410000000000,
     8995240292632410000000000, 8995240292632410000000000, 24421697078358000000000, 744179686987702000000000,
     24421697078358000000000, 744179686987702000000000, 236158323301530000000000, 236158323301530000000000,
     2938352359686784000000000, 1939104157388909000000000, 5078745759286403000000000, 5078745759286403000000000,
     1939104157388909000000000, 2938352359686784000000000, 2938352359686784000000000, 1939104157388909000000000,
     5078745759286403000000000, 5078745759286403000000000, 1939104157388909000000000, 2938352359686784000000000,
     43797723637903000000000, 43797723637903000000000, 43797723637903000000000, 43797723637903000000000,
     43797723637903000000000, 43797723637903000000000, 1939104157388909000000000, 2938352359686784000000000,
     1939104157388909000000000, 2938352359686784000000000, 5078745759286403000000000, 5078745759286403000000000,
     2899004919931303000000000, 6867525446175153000000000, 23886149405118000000000, 23886149405118000000000,
     6867525446175153000000000, 2899004919931303000000000, 2899004919931303000000000, 6867525446175153000000000,
     23886149405118000000000, 23886149405118000000000, 6867525446175153000000000, 2899004919931303000000000,
     209583484488425000000000, 209583484488425000000000, 209583484488425000000000, 209583484488425000000000,
     209583484488425000000000, 209583484488425000000000, 6867525446175153000000000, 2899004919931303000000000,
     6867525446175153000000000, 2899004919931303000000000, 23886149405118000000000, 23886149405118000000000,
     69203955276090000000000, 6284083367674260000000000, 2780090233488638000000000, 2780090233488638000000000,
     6284083367674260000000000, 69203955276090000000000, 69203955276090000000000, 6284083367674260000000000,
     2780090233488638000000000, 2780090233488638000000000, 6284083367674260000000000, 69203955276090000000000,
     866622443561012000000000, 866622443561012000000000, 866622443561012000000000, 866622443561012000000000,
     866622443561012000000000, 866622443561012000000000, 6284083367674260000000000, 69203955276090000000000,
     6284083367674260000000000, 69203955276090000000000, 2780090233488638000000000, 2780090233488638000000000,
     1053191068972152000000000, 3053177470209279000000000, 5431130574905816000000000, 5431130574905816000000000,
     3053177470209279000000000, 1053191068972152000000000, 1053191068972152000000000, 3053177470209279000000000,
     5431130574905816000000000, 5431130574905816000000000, 3053177470209279000000000, 1053191068972152000000000,
     462500885912754000000000, 462500885912754000000000, 462500885912754000000000, 462500885912754000000000,
     462500885912754000000000, 462500885912754000000000, 3053177470209279000000000, 1053191068972152000000000,
     3053177470209279000000000, 1053191068972152000000000, 5431130574905816000000000, 5431130574905816000000000,
     3387615700292962000000000, 2521955658942761000000000, 87923252192588000000000, 87923252192588000000000,
     2521955658942761000000000, 3387615700292962000000000, 3387615700292962000000000, 2521955658942761000000000,
     87923252192588000000000, 87923252192588000000000, 2521955658942761000000000, 3387615700292962000000000,
     4002505388571689000000000, 4002505388571689000000000, 4002505388571689000000000, 4002505388571689000000000,
     4002505388571689000000000, 4002505388571689000000000, 2521955658942761000000000, 3387615700292962000000000,
     2521955658942761000000000, 3387615700292962000000000, 87923252192588000000000, 87923252192588000000000],
    [2967759596934131000000000, 2967759596934131000000000, 2967759596934131000000000, 1096721209197606000000000,
     1209047972112185000000000, 1209047972112185000000000, 1209047972112185000000000, 6372856083663444000000000,
     3177959071881044000000000, 3177959071881044000000000, 3177959071881044000000000, 466122784356867000000000,
     2012655712414790000000000, 2012655712414790000000000, 2012655712414790000000000, 3962032862755631000000000,
     1678838969272885000000000, 1678838969272885000000000, 1678838969272885000000000, 4963483092181346000000000,
     362149396096895000000000, 362149396096895000000000, 362149396096895000000000, 8913551811709316000000000,
     526024496174838000000000, 526024496174838000000000, 526024496174838000000000, 4473975503825162000000000,
     4473975503825162000000000, 4473975503825162000000000, 3045785563313042000000000, 3045785563313042000000000,
     3045785563313042000000000, 1954214436686958000000000, 1954214436686958000000000, 1954214436686958000000000,
     322823054983952000000000, 322823054983952000000000, 8181532733687802000000000, 322823054983952000000000,
     322823054983952000000000, 8181532733687802000000000, 322823054983952000000000, 322823054983952000000000,
     8181532733687802000000000, 1172821156344295000000000, 1172821156344295000000000, 1172821156344295000000000,
     81265144705196000000000, 81265144705196000000000, 1671963931828212000000000, 81265144705196000000000,
     81265144705196000000000, 1671963931828212000000000, 81265144705196000000000, 81265144705196000000000,
     1671963931828212000000000, 8165505778761395000000000, 8165505778761395000000000, 8165505778761395000000000,
     1851459522994347000000000, 1851459522994347000000000, 661101187666243000000000, 1851459522994347000000000,
     1851459522994347000000000, 661101187666243000000000, 1851459522994347000000000, 1851459522994347000000000,
     661101187666243000000000, 5635979766345063000000000, 5635979766345063000000000, 5635979766345063000000000,
     4110775382017770000000000, 4110775382017770000000000, 1281831845252744000000000, 4110775382017770000000000,
     4110775382017770000000000, 1281831845252744000000000, 4110775382017770000000000, 4110775382017770000000000,
     1281831845252744000000000, 496617390711716000000000, 496617390711716000000000, 496617390711716000000000,
     100597974068545000000000, 100597974068545000000000, 5566366248307155000000000, 100597974068545000000000,
     100597974068545000000000, 5566366248307155000000000, 100597974068545000000000, 100597974068545000000000,
     5566366248307155000000000, 4232437803555756000000000, 4232437803555756000000000, 4232437803555756000000000,
     823016150372359000000000, 823016150372359000000000, 8242515811428504000000000, 823016150372359000000000,
     823016150372359000000000, 8242515811428504000000000, 823016150372359000000000, 823016150372359000000000,
     8242515811428504000000000, 111451887826779000000000, 111451887826779000000000, 111451887826779000000000,
     380128286026647000000000, 380128286026647000000000, 6072922714391159000000000, 380128286026647000000000,
     380128286026647000000000, 6072922714391159000000000, 380128286026647000000000, 380128286026647000000000,
     6072922714391159000000000, 3166820713555548000000000, 3166820713555548000000000, 3166820713555548000000000,
     829781690579476000000000, 829781690579476000000000, 1927591204214162000000000, 829781690579476000000000,
     829781690579476000000000, 1927591204214162000000000, 829781690579476000000000, 829781690579476000000000,
     1927591204214162000000000, 6412845414626887000000000, 6412845414626887000000000, 6412845414626887000000000,
     323283014904537000000000, 323283014904537000000000, 2290899793113822000000000, 323283014904537000000000,
     323283014904537000000000, 2290899793113822000000000, 323283014904537000000000, 323283014904537000000000,
     2290899793113822000000000, 7062534177077103000000000, 7062534177077103000000000, 7062534177077103000000000,
     1406521940177762000000000, 1406521940177762000000000, 40624591785854000000000, 1406521940177762000000000,
     1406521940177762000000000, 40624591785854000000000, 1406521940177762000000000, 1406521940177762000000000,
     40624591785854000000000, 7146331527858621000000000, 7146331527858621000000000, 7146331527858621000000000,
     1139719439112915000000000, 1139719439112915000000000, 5168656572693773000000000, 1139719439112915000000000,
     1139719439112915000000000, 5168656572693773000000000, 1139719439112915000000000, 1139719439112915000000000,
     5168656572693773000000000, 2551904549080398000000000, 2551904549080398000000000, 2551904549080398000000000,
     74535713771749000000000, 74535713771749000000000, 251785631681119000000000, 74535713771749000000000,
     74535713771749000000000, 251785631681119000000000, 74535713771749000000000, 74535713771749000000000,
     251785631681119000000000, 9599142940775384000000000, 9599142940775384000000000, 9599142940775384000000000,
     1110171267302689000000000, 1110171267302689000000000, 3907070674791312000000000, 1110171267302689000000000,
     1110171267302689000000000, 3907070674791312000000000, 1110171267302689000000000, 1110171267302689000000000,
     3907070674791312000000000, 3872586790603310000000000, 3872586790603310000000000, 3872586790603310000000000,
     4037166880195431000000000, 531381050391377000000000, 4037166880195431000000000, 531381050391377000000000,
     5333767142737392000000000, 5333767142737392000000000, 4037166880195431000000000, 531381050391377000000000,
     4037166880195431000000000, 531381050391377000000000, 5333767142737392000000000, 5333767142737392000000000,
     4037166880195431000000000, 531381050391377000000000, 4037166880195431000000000, 531381050391377000000000,
     5333767142737392000000000, 5333767142737392000000000, 97684926675800000000000, 97684926675800000000000,
     97684926675800000000000, 97684926675800000000000, 97684926675800000000000, 97684926675800000000000,
     501546618875249000000000, 943920742872811000000000, 501546618875249000000000, 943920742872811000000000,
     945051714627574000000000, 945051714627574000000000, 501546618875249000000000, 943920742872811000000000,
     501546618875249000000000, 943920742872811000000000, 945051714627574000000000, 945051714627574000000000,
     501546618875249000000000, 943920742872811000000000, 501546618875249000000000, 943920742872811000000000,
     945051714627574000000000, 945051714627574000000000, 7609480923624367000000000, 7609480923624367000000000,
     7609480923624367000000000, 7609480923624367000000000, 7609480923624367000000000, 7609480923624367000000000,
     1738892311826489000000000, 550544516427296000000000, 1738892311826489000000000, 550544516427296000000000,
     7653955692270024000000000, 7653955692270024000000000, 1738892311826489000000000, 550544516427296000000000,
     1738892311826489000000000, 550544516427296000000000, 7653955692270024000000000, 7653955692270024000000000,
     1738892311826489000000000, 550544516427296000000000, 1738892311826489000000000, 550544516427296000000000,
     7653955692270024000000000, 7653955692270024000000000, 56607479476192000000000, 56607479476192000000000,
     56607479476192000000000, 56607479476192000000000, 56607479476192000000000, 56607479476192000000000,
     6879571952789530000000000, 1798637301234305000000000, 6879571952789530000000000, 1798637301234305000000000,
     975172038222044000000000, 975172038222044000000000, 6879571952789530000000000, 1798637301234305000000000,
     6879571952789530000000000, 1798637301234305000000000, 975172038222044000000000, 975172038222044000000000,
     6879571952789530000000000, 1798637301234305000000000, 6879571952789530000000000, 1798637301234305000000000,
     975172038222044000000000, 975172038222044000000000, 346618707754121000000000, 346618707754121000000000,
     346618707754121000000000, 346618707754121000000000, 346618707754121000000000, 346618707754121000000000,
     3321735025035050000000000, 2121920547752147000000000, 3321735025035050000000000, 2121920547752147000000000,
     4095036586170944000000000, 4095036586170944000000000, 3321735025035050000000000, 2121920547752147000000000,
     3321735025035050000000000, 2121920547752147000000000, 4095036586170944000000000, 4095036586170944000000000,
     3321735025035050000000000, 2121920547752147000000000, 3321735025035050000000000, 2121920547752147000000000,
     4095036586170944000000000, 4095036586170944000000000, 461307841041859000000000, 461307841041859000000000,
     461307841041859000000000, 461307841041859000000000, 461307841041859000000000, 461307841041859000000000,
     3844720976410142000000000, 1290161512351960000000000, 3844720976410142000000000, 1290161512351960000000000,
     4765557207500070000000000, 4765557207500070000000000, 3844720976410142000000000, 1290161512351960000000000,
     3844720976410142000000000, 1290161512351960000000000, 4765557207500070000000000, 4765557207500070000000000,
     3844720976410142000000000, 1290161512351960000000000, 3844720976410142000000000, 1290161512351960000000000,
     4765557207500070000000000, 4765557207500070000000000, 99560303737828000000000, 99560303737828000000000,
     99560303737828000000000, 99560303737828000000000, 99560303737828000000000, 99560303737828000000000,
     5982705108010641000000000, 1614873223066114000000000, 5982705108010641000000000, 1614873223066114000000000,
     137608474867702000000000, 137608474867702000000000, 5982705108010641000000000, 1614873223066114000000000,
     5982705108010641000000000, 1614873223066114000000000, 137608474867702000000000, 137608474867702000000000,
     5982705108010641000000000, 1614873223066114000000000, 5982705108010641000000000, 1614873223066114000000000,
     137608474867702000000000, 137608474867702000000000, 2264813194055542000000000, 2264813194055542000000000,
     2264813194055542000000000, 2264813194055542000000000, 2264813194055542000000000, 2264813194055542000000000,
     2853013762463641000000000, 1059283078939860000000000, 2853013762463641000000000, 1059283078939860000000000,
     4143500741402470000000000, 4143500741402470000000000, 2853013762463641000000000, 1059283078939860000000000,
     2853013762463641000000000, 1059283078939860000000000, 4143500741402470000000000, 4143500741402470000000000,
     2853013762463641000000000, 1059283078939860000000000, 2853013762463641000000000, 1059283078939860000000000,
     4143500741402470000000000, 4143500741402470000000000, 1944202417194029000000000, 1944202417194029000000000,
     1944202417194029000000000, 1944202417194029000000000, 1944202417194029000000000, 1944202417194029000000000,
     4728908103942965000000000, 2046229328456809000000000, 4728908103942965000000000, 2046229328456809000000000,
     2864083155254953000000000, 2864083155254953000000000, 4728908103942965000000000, 2046229328456809000000000,
     4728908103942965000000000, 2046229328456809000000000, 2864083155254953000000000, 2864083155254953000000000,
     4728908103942965000000000, 2046229328456809000000000, 4728908103942965000000000, 2046229328456809000000000,
     2864083155254953000000000, 2864083155254953000000000, 360779412345273000000000, 360779412345273000000000,
     360779412345273000000000, 360779412345273000000000, 360779412345273000000000, 360779412345273000000000,
     24421697078358000000000, 744179686987702000000000, 24421697078358000000000, 744179686987702000000000,
     236158323301530000000000, 236158323301530000000000, 24421697078358000000000, 744179686987702000000000,
     24421697078358000000000, 744179686987702000000000, 236158323301530000000000, 236158323301530000000000,
     24421697078358000000000, 744179686987702000000000, 24421697078358000000000, 744179686987702000000000,
     236158323301530000000000, 236158323301530000000000, 8995240292632410000000000, 8995240292632410000000000,
     8995240292632410000000000, 8995240292632410000000000, 8995240292632410000000000, 8995240292632410000000000,
     1939104157388909000000000, 2938352359686784000000000, 1939104157388909000000000, 2938352359686784000000000,
     5078745759286403000000000, 5078745759286403000000000, 1939104157388909000000000, 2938352359686784000000000,
     1939104157388909000000000, 2938352359686784000000000, 5078745759286403000000000, 5078745759286403000000000,
     1939104157388909000000000, 2938352359686784000000000, 1939104157388909000000000, 2938352359686784000000000,
     5078745759286403000000000, 5078745759286403000000000, 43797723637903000000000, 43797723637903000000000,
     43797723637903000000000, 43797723637903000000000, 43797723637903000000000, 43797723637903000000000,
     6867525446175153000000000, 2899004919931303000000000, 6867525446175153000000000, 2899004919931303000000000,
     23886149405118000000000, 23886149405118000000000, 6867525446175153000000000, 2899004919931303000000000,
     6867525446175153000000000, 2899004919931303000000000, 23886149405118000000000, 23886149405118000000000,
     6867525446175153000000000, 2899004919931303000000000, 6867525446175153000000000, 2899004919931303000000000,
     23886149405118000000000, 23886149405118000000000, 209583484488425000000000, 209583484488425000000000,
     209583484488425000000000, 209583484488425000000000, 209583484488425000000000, 209583484488425000000000,
     6284083367674260000000000, 69203955276090000000000, 6284083367674260000000000, 69203955276090000000000,
     2780090233488638000000000, 2780090233488638000000000, 6284083367674260000000000, 69203955276090000000000,
     6284083367674260000000000, 69203955276090000000000, 2780090233488638000000000, 2780090233488638000000000,
     6284083367674260000000000, 69203955276090000000000, 6284083367674260000000000, 69203955276090000000000,
     2780090233488638000000000, 2780090233488638000000000, 866622443561012000000000, 866622443561012000000000,
     866622443561012000000000, 866622443561012000000000, 866622443561012000000000, 866622443561012000000000,
     3053177470209279000000000, 1053191068972152000000000, 3053177470209279000000000, 1053191068972152000000000,
     5431130574905816000000000, 5431130574905816000000000, 3053177470209279000000000, 1053191068972152000000000,
     3053177470209279000000000, 1053191068972152000000000, 5431130574905816000000000, 5431130574905816000000000,
     3053177470209279000000000, 1053191068972152000000000, 3053177470209279000000000, 1053191068972152000000000,
     5431130574905816000000000, 5431130574905816000000000, 462500885912754000000000, 462500885912754000000000,
     462500885912754000000000, 462500885912754000000000, 462500885912754000000000, 462500885912754000000000,
     2521955658942761000000000, 3387615700292962000000000, 2521955658942761000000000, 3387615700292962000000000,
     87923252192588000000000, 87923252192588000000000, 2521955658942761000000000, 3387615700292962000000000,
     2521955658942761000000000, 3387615700292962000000000, 87923252192588000000000, 87923252192588000000000,
     2521955658942761000000000, 3387615700292962000000000, 2521955658942761000000000, 3387615700292962000000000,
     87923252192588000000000, 87923252192588000000000, 4002505388571689000000000, 4002505388571689000000000,
     4002505388571689000000000, 4002505388571689000000000, 4002505388571689000000000, 4002505388571689000000000]],
   [54184547900846484000000, 54184547900846484000000, 54184547900846484000000, 54184547900846484000000,
    38208979882486272000000, 38208979882486272000000, 38208979882486272000000, 38208979882486272000000,
    40574581523340481000000, 40574581523340481000000, 40574581523340481000000, 40574581523340481000000,
    41476702977503253000000, 41476702977503253000000, 41476702977503253000000, 41476702977503253000000,
    52895666099343607000000, 52895666099343607000000, 52895666099343607000000, 52895666099343607000000,
    9720418198623532300000, 9720418198623532300000, 9720418198623532300000, 9720418198623532300000,
    29881761367804519000000, 29881761367804519000000, 29881761367804519000000, 29881761367804519000000,
    29881761367804519000000, 29881761367804519000000, 70617469235283612000000, 70617469235283612000000,
    70617469235283612000000, 70617469235283612000000, 70617469235283612000000, 70617469235283612000000,
    11380141648659689000000, 11380141648659689000000, 11380141648659689000000, 11380141648659689000000,
    11380141648659689000000, 11380141648659689000000, 11380141648659689000000, 11380141648659689000000,
    11380141648659689000000, 11380141648659689000000, 11380141648659689000000, 11380141648659689000000,
    3284328089439585100000, 3284328089439585100000, 3284328089439585100000, 3284328089439585100000,
    3284328089439585100000, 3284328089439585100000, 3284328089439585100000, 3284328089439585100000,
    3284328089439585100000, 3284328089439585100000, 3284328089439585100000, 3284328089439585100000,
    45173050745331653000000, 45173050745331653000000, 45173050745331653000000, 45173050745331653000000,
    45173050745331653000000, 45173050745331653000000, 45173050745331653000000, 45173050745331653000000,
    45173050745331653000000, 45173050745331653000000, 45173050745331653000000, 45173050745331653000000,
    27439570981396934000000, 27439570981396934000000, 27439570981396934000000, 27439570981396934000000,
    27439570981396934000000, 27439570981396934000000, 27439570981396934000000, 27439570981396934000000,
    27439570981396934000000, 27439570981396934000000, 27439570981396934000000, 27439570981396934000000,
    5345104029866353600000, 5345104029866353600000, 5345104029866353600000, 5345104029866353600000,
    5345104029866353600000, 5345104029866353600000, 5345104029866353600000, 5345104029866353600000,
    5345104029866353600000, 5345104029866353600000, 5345104029866353600000, 5345104029866353600000,
    8527602773365834300000, 8527602773365834300000, 8527602773365834300000, 8527602773365834300000,
    8527602773365834300000, 8527602773365834300000, 8527602773365834300000, 8527602773365834300000,
    8527602773365834300000, 8527602773365834300000, 8527602773365834300000, 8527602773365834300000,
    16086733209506111000000, 16086733209506111000000, 16086733209506111000000, 16086733209506111000000,
    16086733209506111000000, 16086733209506111000000, 16086733209506111000000, 16086733209506111000000,
    16086733209506111000000, 16086733209506111000000, 16086733209506111000000, 16086733209506111000000,
    21640217896230340000000, 21640217896230340000000, 21640217896230340000000, 21640217896230340000000,
    21640217896230340000000, 21640217896230340000000, 21640217896230340000000, 21640217896230340000000,
    21640217896230340000000, 21640217896230340000000, 21640217896230340000000, 21640217896230340000000,
    12989645519908210000000, 12989645519908210000000, 12989645519908210000000, 12989645519908210000000,
    12989645519908210000000, 12989645519908210000000, 12989645519908210000000, 12989645519908210000000,
    12989645519908210000000, 12989645519908210000000, 12989645519908210000000, 12989645519908210000000,
    7540221084980847800000, 7540221084980847800000, 7540221084980847800000, 7540221084980847800000,
    7540221084980847800000, 7540221084980847800000, 7540221084980847800000, 7540221084980847800000,
    7540221084980847800000, 7540221084980847800000, 7540221084980847800000, 7540221084980847800000,
    39363921771970760000000, 39363921771970760000000, 39363921771970760000000, 39363921771970760000000,
    39363921771970760000000, 39363921771970760000000, 39363921771970760000000, 39363921771970760000000,
    39363921771970760000000, 39363921771970760000000, 39363921771970760000000, 39363921771970760000000,
    826043725431126760000, 826043725431126760000, 826043725431126760000, 826043725431126760000,
    826043725431126760000, 826043725431126760000, 826043725431126760000, 826043725431126760000,
    826043725431126760000, 826043725431126760000, 826043725431126760000, 826043725431126760000,
    22025935812658212000000, 22025935812658212000000, 22025935812658212000000, 22025935812658212000000,
    22025935812658212000000, 22025935812658212000000, 22025935812658212000000, 22025935812658212000000,
    22025935812658212000000, 22025935812658212000000, 22025935812658212000000, 22025935812658212000000,
    11429122883124163000000, 11429122883124163000000, 11429122883124163000000, 11429122883124163000000,
    11429122883124163000000, 11429122883124163000000, 11429122883124163000000, 11429122883124163000000,
    11429122883124163000000, 11429122883124163000000, 11429122883124163000000, 11429122883124163000000,
    11429122883124163000000, 11429122883124163000000, 11429122883124163000000, 11429122883124163000000,
    11429122883124163000000, 11429122883124163000000, 11429122883124163000000, 11429122883124163000000,
    11429122883124163000000, 11429122883124163000000, 11429122883124163000000, 11429122883124163000000,
    8037341179884984900000, 8037341179884984900000, 8037341179884984900000, 8037341179884984900000,
    8037341179884984900000, 8037341179884984900000, 8037341179884984900000, 8037341179884984900000,
    8037341179884984900000, 8037341179884984900000, 8037341179884984900000, 8037341179884984900000,
    8037341179884984900000, 8037341179884984900000, 8037341179884984900000, 8037341179884984900000,
    8037341179884984900000, 8037341179884984900000, 8037341179884984900000, 8037341179884984900000,
    8037341179884984900000, 8037341179884984900000, 8037341179884984900000, 8037341179884984900000,
    6441055085633393000000, 6441055085633393000000, 6441055085633393000000, 6441055085633393000000,
    6441055085633393000000, 6441055085633393000000, 6441055085633393000000, 6441055085633393000000,
    6441055085633393000000, 6441055085633393000000, 6441055085633393000000, 6441055085633393000000,
    6441055085633393000000, 6441055085633393000000, 6441055085633393000000, 6441055085633393000000,
    6441055085633393000000, 6441055085633393000000, 6441055085633393000000, 6441055085633393000000,
    6441055085633393000000, 6441055085633393000000, 6441055085633393000000, 6441055085633393000000,
    22848030615680282000000, 22848030615680282000000, 22848030615680282000000, 22848030615680282000000,
    22848030615680282000000, 22848030615680282000000, 22848030615680282000000, 22848030615680282000000,
    22848030615680282000000, 22848030615680282000000, 22848030615680282000000, 22848030615680282000000,
    22848030615680282000000, 22848030615680282000000, 22848030615680282000000, 22848030615680282000000,
    22848030615680282000000, 22848030615680282000000, 22848030615680282000000, 22848030615680282000000,
    22848030615680282000000, 22848030615680282000000, 22848030615680282000000, 22848030615680282000000,
    17682151734035878000000, 17682151734035878000000, 17682151734035878000000, 17682151734035878000000,
    17682151734035878000000, 17682151734035878000000, 17682151734035878000000, 17682151734035878000000,
    17682151734035878000000, 17682151734035878000000, 17682151734035878000000, 17682151734035878000000,
    17682151734035878000000, 17682151734035878000000, 17682151734035878000000, 17682151734035878000000,
    17682151734035878000000, 17682151734035878000000, 17682151734035878000000, 17682151734035878000000,
    17682151734035878000000, 17682151734035878000000, 17682151734035878000000, 17682151734035878000000,
    13640931166040346000000, 13640931166040346000000, 13640931166040346000000, 13640931166040346000000,
    13640931166040346000000, 13640931166040346000000, 13640931166040346000000, 13640931166040346000000,
    13640931166040346000000, 13640931166040346000000, 13640931166040346000000, 13640931166040346000000,
    13640931166040346000000, 13640931166040346000000, 13640931166040346000000, 13640931166040346000000,
    13640931166040346000000, 13640931166040346000000, 13640931166040346000000, 13640931166040346000000,
    13640931166040346000000, 13640931166040346000000, 13640931166040346000000, 13640931166040346000000,
    14095130202420232000000, 14095130202420232000000, 14095130202420232000000, 14095130202420232000000,
    14095130202420232000000, 14095130202420232000000, 14095130202420232000000, 14095130202420232000000,
    14095130202420232000000, 14095130202420232000000, 14095130202420232000000, 14095130202420232000000,
    14095130202420232000000, 14095130202420232000000, 14095130202420232000000, 14095130202420232000000,
    14095130202420232000000, 14095130202420232000000, 14095130202420232000000, 14095130202420232000000,
    14095130202420232000000, 14095130202420232000000, 14095130202420232000000, 14095130202420232000000,
    53521961728209260000000, 53521961728209260000000, 53521961728209260000000, 53521961728209260000000,
    53521961728209260000000, 53521961728209260000000, 53521961728209260000000, 53521961728209260000000,
    53521961728209260000000, 53521961728209260000000, 53521961728209260000000, 53521961728209260000000,
    53521961728209260000000, 53521961728209260000000, 53521961728209260000000, 53521961728209260000000,
    53521961728209260000000, 53521961728209260000000, 53521961728209260000000, 53521961728209260000000,
    53521961728209260000000, 53521961728209260000000, 53521961728209260000000, 53521961728209260000000,
    23572517537989559000000, 23572517537989559000000, 23572517537989559000000, 23572517537989559000000,
    23572517537989559000000, 23572517537989559000000, 23572517537989559000000, 23572517537989559000000,
    23572517537989559000000, 23572517537989559000000, 23572517537989559000000, 23572517537989559000000,
    23572517537989559000000, 23572517537989559000000, 23572517537989559000000, 23572517537989559000000,
    23572517537989559000000, 23572517537989559000000, 23572517537989559000000, 23572517537989559000000,
    23572517537989559000000, 23572517537989559000000, 23572517537989559000000, 23572517537989559000000,
    2335500281519085200000, 2335500281519085200000, 2335500281519085200000, 2335500281519085200000,
    2335500281519085200000, 2335500281519085200000, 2335500281519085200000, 2335500281519085200000,
    2335500281519085200000, 2335500281519085200000, 2335500281519085200000, 2335500281519085200000,
    2335500281519085200000, 2335500281519085200000, 2335500281519085200000, 2335500281519085200000,
    2335500281519085200000, 2335500281519085200000, 2335500281519085200000, 2335500281519085200000,
    2335500281519085200000, 2335500281519085200000, 2335500281519085200000, 2335500281519085200000,
    8299191110448388300000, 8299191110448388300000, 8299191110448388300000, 8299191110448388300000,
    8299191110448388300000, 8299191110448388300000, 8299191110448388300000, 8299191110448388300000,
    8299191110448388300000, 8299191110448388300000, 8299191110448388300000, 8299191110448388300000,
    8299191110448388300000, 8299191110448388300000, 8299191110448388300000, 8299191110448388300000,
    8299191110448388300000, 8299191110448388300000, 8299191110448388300000, 8299191110448388300000,
    8299191110448388300000, 8299191110448388300000, 8299191110448388300000, 8299191110448388300000,
    3480327275620159100000, 3480327275620159100000, 3480327275620159100000, 3480327275620159100000,
    3480327275620159100000, 3480327275620159100000, 3480327275620159100000, 3480327275620159100000,
    3480327275620159100000, 3480327275620159100000, 3480327275620159100000, 3480327275620159100000,
    3480327275620159100000, 3480327275620159100000, 3480327275620159100000, 3480327275620159100000,
    3480327275620159100000, 3480327275620159100000, 3480327275620159100000, 3480327275620159100000,
    3480327275620159100000, 3480327275620159100000, 3480327275620159100000, 3480327275620159100000,
    10813064974593092000000, 10813064974593092000000, 10813064974593092000000, 10813064974593092000000,
    10813064974593092000000, 10813064974593092000000, 10813064974593092000000, 10813064974593092000000,
    10813064974593092000000, 10813064974593092000000, 10813064974593092000000, 10813064974593092000000,
    10813064974593092000000, 10813064974593092000000, 10813064974593092000000, 10813064974593092000000,
    10813064974593092000000, 10813064974593092000000, 10813064974593092000000, 10813064974593092000000,
    10813064974593092000000, 10813064974593092000000, 10813064974593092000000, 10813064974593092000000,
    33635929926435662000000, 33635929926435662000000, 33635929926435662000000, 33635929926435662000000,
    33635929926435662000000, 33635929926435662000000, 33635929926435662000000, 33635929926435662000000,
    33635929926435662000000, 33635929926435662000000, 33635929926435662000000, 33635929926435662000000,
    33635929926435662000000, 33635929926435662000000, 33635929926435662000000, 33635929926435662000000,
    33635929926435662000000, 33635929926435662000000, 33635929926435662000000, 33635929926435662000000,
    33635929926435662000000, 33635929926435662000000, 33635929926435662000000, 33635929926435662000000,
    11388195239530054000000, 11388195239530054000000, 11388195239530054000000, 11388195239530054000000,
    11388195239530054000000, 11388195239530054000000, 11388195239530054000000, 11388195239530054000000,
    11388195239530054000000, 11388195239530054000000, 11388195239530054000000, 11388195239530054000000,
    11388195239530054000000, 11388195239530054000000, 11388195239530054000000, 11388195239530054000000,
    11388195239530054000000, 11388195239530054000000, 11388195239530054000000, 11388195239530054000000,
    11388195239530054000000, 11388195239530054000000, 11388195239530054000000, 11388195239530054000000]⟩

/-- `tet_data` in jaskowiec_sukumar_tet_data.py. -/
def jsTet : List (Int × TableRule) :=
  [(0, jsTet_0), (1, jsTet_1), (2, jsTet_2), (3, jsTet_3), (4, jsTet_4), (5, jsTet_5), (6, jsTet_6), (7, jsTet_7),
   (8, jsTet_8), (9, jsTet_9), (10, jsTet_10), (11, jsTet_11), (12, jsTet_12), (13, jsTet_13), (14, jsTet_14),
   (15, jsTet_15), (16, jsTet_16), (17, jsTet_17), (18, jsTet_18), (19, jsTet_19)]

end
end Modepy.Table
