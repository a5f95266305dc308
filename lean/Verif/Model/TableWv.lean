import Verif.Model.TableRules

/-!
# `witherden_vincent_quad_data.py`, in units of `10^-19`

Generated by tools/gen_tables.py.
-/

namespace Modepy.Table
noncomputable section

/-- `quad_data[1]` (witherden_vincent_quad_data.py 31-31). -/
def wvQuad_1 : TableRule :=
  ⟨1,
   [
    [0],
    [0]],
   [40000000000000000000]⟩

/-- `quad_data[3]` (witherden_vincent_quad_data.py 32-49). -/
def wvQuad_3 : TableRule :=
  ⟨3,
   [
    [5773502691896257000, 5773502691896257000, m 5773502691896257000, m 5773502691896257000],
    [5773502691896257000, m 5773502691896257000, 5773502691896257000, m 5773502691896257000]],
   [10000000000000000000, 10000000000000000000, 10000000000000000000, 10000000000000000000]⟩

/-- `quad_data[5]` (witherden_vincent_quad_data.py 50-84). -/
def wvQuad_5 : TableRule :=
  ⟨5,
   [
    [6831300510639732000, 0, m 6831300510639732000, 0, 8819171036881969000, 8819171036881969000,
     m 8819171036881969000, m 8819171036881969000],
    [0, 6831300510639732000, 0, m 6831300510639732000, 8819171036881969000, m 8819171036881969000,
     8819171036881969000, m 8819171036881969000]],
   [8163265306122449000, 8163265306122449000, 8163265306122449000, 8163265306122449000, 1836734693877551000,
    1836734693877551000, 1836734693877551000, 1836734693877551000]⟩

/-- `quad_data[7]` (witherden_vincent_quad_data.py 85-131). -/
def wvQuad_7 : TableRule :=
  ⟨7,
   [
    [9258200997725514000, 0, m 9258200997725514000, 0, 8059797829185987000, 8059797829185987000,
     m 8059797829185987000, m 8059797829185987000, 3805544332083156700, 3805544332083156700, m 3805544332083156700,
     m 3805544332083156700],
    [0, 9258200997725514000, 0, m 9258200997725514000, 8059797829185987000, m 8059797829185987000,
     8059797829185987000, m 8059797829185987000, 3805544332083156700, m 3805544332083156700, 3805544332083156700,
     m 3805544332083156700]],
   [2419753086419753000, 2419753086419753000, 2419753086419753000, 2419753086419753000, 2374317746906302300,
    2374317746906302300, 2374317746906302300, 2374317746906302300, 5205929166673945000, 5205929166673945000,
    5205929166673945000, 5205929166673945000]⟩

/-- `quad_data[9]` (witherden_vincent_quad_data.py 132-202). -/
def wvQuad_9 : TableRule :=
  ⟨9,
   [
    [4889268569743690500, 0, m 4889268569743690500, 0, 9396552580968377000, 9396552580968377000,
     m 9396552580968377000, m 9396552580968377000, 6908805504863439000, 6908805504863439000, m 6908805504863439000,
     m 6908805504863439000, 9186204410567222000, 3448720253644036000, 9186204410567222000, m 3448720253644036000,
     m 9186204410567222000, 3448720253644036000, m 9186204410567222000, m 3448720253644036000],
    [0, 4889268569743690500, 0, m 4889268569743690500, 9396552580968377000, m 9396552580968377000,
     9396552580968377000, m 9396552580968377000, 6908805504863439000, m 6908805504863439000, 6908805504863439000,
     m 6908805504863439000, 3448720253644036000, 9186204410567222000, m 3448720253644036000, 9186204410567222000,
     3448720253644036000, m 9186204410567222000, m 3448720253644036000, m 9186204410567222000]],
   [4541639606867490000, 4541639606867490000, 4541639606867490000, 4541639606867490000, 427312318657757650,
    427312318657757650, 427312318657757650, 427312318657757650, 2142003609268616200, 2142003609268616200,
    2142003609268616200, 2142003609268616200, 1444522232603068000, 1444522232603068000, 1444522232603068000,
    1444522232603068000, 1444522232603068000, 1444522232603068000, 1444522232603068000, 1444522232603068000]⟩

/-- `quad_data[11]` (witherden_vincent_quad_data.py 203-297). -/
def wvQuad_11 : TableRule :=
  ⟨11,
   [
    [7146178296646060000, 0, m 7146178296646060000, 0, 2736572101714596000, 2736572101714596000,
     m 2736572101714596000, m 2736572101714596000, 6366039322123010000, 6366039322123010000, m 6366039322123010000,
     m 6366039322123010000, 9516303887840335000, 8155654336896384000, 9516303887840335000, m 8155654336896384000,
     m 9516303887840335000, 8155654336896384000, m 9516303887840335000, m 8155654336896384000, 3462072000476454400,
     9355678714875911000, 3462072000476454400, m 9355678714875911000, m 3462072000476454400, 9355678714875911000,
     m 3462072000476454400, m 9355678714875911000],
    [0, 7146178296646060000, 0, m 7146178296646060000, 2736572101714596000, m 2736572101714596000,
     2736572101714596000, m 2736572101714596000, 6366039322123010000, m 6366039322123010000, 6366039322123010000,
     m 6366039322123010000, 8155654336896384000, 9516303887840335000, m 8155654336896384000, 9516303887840335000,
     8155654336896384000, m 9516303887840335000, m 8155654336896384000, m 9516303887840335000, 9355678714875911000,
     3462072000476454400, m 9355678714875911000, 3462072000476454400, 9355678714875911000, m 3462072000476454400,
     m 9355678714875911000, m 3462072000476454400]],
   [2174004398687120000, 2174004398687120000, 2174004398687120000, 2174004398687120000, 2772741029838511000,
    2772741029838511000, 2772741029838511000, 2772741029838511000, 2139336378782481000, 2139336378782481000,
    2139336378782481000, 2139336378782481000, 440745691149830900, 440745691149830900, 440745691149830900,
    440745691149830900, 440745691149830900, 440745691149830900, 440745691149830900, 440745691149830900,
    1016213405196113000, 1016213405196113000, 1016213405196113000, 1016213405196113000, 1016213405196113000,
    1016213405196113000, 1016213405196113000, 1016213405196113000]⟩

/-- `quad_data[13]` (witherden_vincent_quad_data.py 298-419). -/
def wvQuad_13 : TableRule :=
  ⟨13,
   [
    [0, 9834613326132455000, 0, m 9834613326132455000, 0, 6398614183671097000, 0, m 6398614183671097000, 0,
     9187784880797114000, 9187784880797114000, m 9187784880797114000, m 9187784880797114000, 3796285051867438500,
     3796285051867438500, m 3796285051867438500, m 3796285051867438500, 6995542165133511000, 6995542165133511000,
     m 6995542165133511000, m 6995542165133511000, 6435973749966181000, 9750688839059836000, 6435973749966181000,
     m 9750688839059836000, m 6435973749966181000, 9750688839059836000, m 6435973749966181000, m 9750688839059836000,
     3335398811647831000, 8644276092670619000, 3335398811647831000, m 8644276092670619000, m 3335398811647831000,
     8644276092670619000, m 3335398811647831000, m 8644276092670619000],
    [0, 0, 9834613326132455000, 0, m 9834613326132455000, 0, 6398614183671097000, 0, m 6398614183671097000,
     9187784880797114000, m 9187784880797114000, 9187784880797114000, m 9187784880797114000, 3796285051867438500,
     m 3796285051867438500, 3796285051867438500, m 3796285051867438500, 6995542165133511000, m 6995542165133511000,
     6995542165133511000, m 6995542165133511000, 9750688839059836000, 6435973749966181000, m 9750688839059836000,
     6435973749966181000, 9750688839059836000, m 6435973749966181000, m 9750688839059836000, m 6435973749966181000,
     8644276092670619000, 3335398811647831000, m 8644276092670619000, 3335398811647831000, 8644276092670619000,
     m 3335398811647831000, m 8644276092670619000, m 3335398811647831000]],
   [2999933443589096000, 381286253498527360, 381286253498527360, 381286253498527360, 381286253498527360,
    1845354689698072100, 1845354689698072100, 1845354689698072100, 1845354689698072100, 395071406474524350,
    395071406474524350, 395071406474524350, 395071406474524350, 2313985194006854000, 2313985194006854000,
    2313985194006854000, 2313985194006854000, 1372420967130035000, 1372420967130035000, 1372420967130035000,
    1372420967130035000, 335197800503814300, 335197800503814300, 335197800503814300, 335197800503814300,
    335197800503814300, 335197800503814300, 335197800503814300, 335197800503814300, 1135751263643542400,
    1135751263643542400, 1135751263643542400, 1135751263643542400, 1135751263643542400, 1135751263643542400,
    1135751263643542400, 1135751263643542400]⟩

/-- `quad_data[15]` (witherden_vincent_quad_data.py 420-574). -/
def wvQuad_15 : TableRule :=
  ⟨15,
   [
    [7980989878970071000, 0, m 7980989878970071000, 0, 3038530263984597400, 0, m 3038530263984597400, 0,
     8824222701068853000, 8824222701068853000, m 8824222701068853000, m 8824222701068853000, 9777897995399027000,
     9777897995399027000, m 9777897995399027000, m 9777897995399027000, 8087121358195035000, 5672135733965907000,
     8087121358195035000, m 5672135733965907000, m 8087121358195035000, 5672135733965907000, m 8087121358195035000,
     m 5672135733965907000, 3046547990370525600, 5787361940358066000, 3046547990370525600, m 5787361940358066000,
     m 3046547990370525600, 5787361940358066000, m 3046547990370525600, m 5787361940358066000, 9805048437245320000,
     6974636319909671000, 9805048437245320000, m 6974636319909671000, m 9805048437245320000, 6974636319909671000,
     m 9805048437245320000, m 6974636319909671000, 2648441558723162000, 9557425198095117000, 2648441558723162000,
     m 9557425198095117000, m 2648441558723162000, 9557425198095117000, m 2648441558723162000, m 9557425198095117000],
    [0, 7980989878970071000, 0, m 7980989878970071000, 0, 3038530263984597400, 0, m 3038530263984597400,
     8824222701068853000, m 8824222701068853000, 8824222701068853000, m 8824222701068853000, 9777897995399027000,
     m 9777897995399027000, 9777897995399027000, m 9777897995399027000, 5672135733965907000, 8087121358195035000,
     m 5672135733965907000, 8087121358195035000, 5672135733965907000, m 8087121358195035000, m 5672135733965907000,
     m 8087121358195035000, 5787361940358066000, 3046547990370525600, m 5787361940358066000, 3046547990370525600,
     5787361940358066000, m 3046547990370525600, m 5787361940358066000, m 3046547990370525600, 6974636319909671000,
     9805048437245320000, m 6974636319909671000, 9805048437245320000, 6974636319909671000, m 9805048437245320000,
     m 6974636319909671000, m 9805048437245320000, 9557425198095117000, 2648441558723162000, m 9557425198095117000,
     2648441558723162000, 9557425198095117000, m 2648441558723162000, m 9557425198095117000, m 2648441558723162000]],
   [1149329272635253700, 1149329272635253700, 1149329272635253700, 1149329272635253700, 1816857589672718500,
    1816857589672718500, 1816857589672718500, 1816857589672718500, 412384837887658100, 412384837887658100,
    412384837887658100, 412384837887658100, 59337464858392214, 59337464858392214, 59337464858392214,
    59337464858392214, 1011491434774324200, 1011491434774324200, 1011491434774324200, 1011491434774324200,
    1011491434774324200, 1011491434774324200, 1011491434774324200, 1011491434774324200, 1478367216328812200,
    1478367216328812200, 1478367216328812200, 1478367216328812200, 1478367216328812200, 1478367216328812200,
    1478367216328812200, 1478367216328812200, 232731941446732150, 232731941446732150, 232731941446732150,
    232731941446732150, 232731941446732150, 232731941446732150, 232731941446732150, 232731941446732150,
    558454824923120200, 558454824923120200, 558454824923120200, 558454824923120200, 558454824923120200,
    558454824923120200, 558454824923120200, 558454824923120200]⟩

/-- `quad_data[17]` (witherden_vincent_quad_data.py 575-765). -/
def wvQuad_17 : TableRule :=
  ⟨17,
   [
    [5450429872091483000, 0, m 5450429872091483000, 0, 9174971882191532000, 0, m 9174971882191532000, 0,
     1925542426140468800, 1925542426140468800, m 1925542426140468800, m 1925542426140468800, 8713286846954432000,
     8713286846954432000, m 8713286846954432000, m 8713286846954432000, 6943880900895507000, 6943880900895507000,
     m 6943880900895507000, m 6943880900895507000, 4576829928831555000, 4576829928831555000, m 4576829928831555000,
     m 4576829928831555000, 9692042560915087000, 9692042560915087000, m 9692042560915087000, m 9692042560915087000,
     7620882760801982000, 2794777667151921400, 7620882760801982000, m 2794777667151921400, m 7620882760801982000,
     2794777667151921400, m 7620882760801982000, m 2794777667151921400, 9073943521982236000, 5468986704143101000,
     9073943521982236000, m 5468986704143101000, m 9073943521982236000, 5468986704143101000, m 9073943521982236000,
     m 5468986704143101000, 7612486664390827000, 9837879715015495000, 7612486664390827000, m 9837879715015495000,
     m 7612486664390827000, 9837879715015495000, m 7612486664390827000, m 9837879715015495000, 9870947070447679000,
     3028074817888614000, 9870947070447679000, m 3028074817888614000, m 9870947070447679000, 3028074817888614000,
     m 9870947070447679000, m 3028074817888614000],
    [0, 5450429872091483000, 0, m 5450429872091483000, 0, 9174971882191532000, 0, m 9174971882191532000,
     1925542426140468800, m 1925542426140468800, 1925542426140468800, m 1925542426140468800, 8713286846954432000,
     m 8713286846954432000, 8713286846954432000, m 8713286846954432000, 6943880900895507000, m 6943880900895507000,
     6943880900895507000, m 6943880900895507000, 4576829928831555000, m 4576829928831555000, 4576829928831555000,
     m 4576829928831555000, 9692042560915087000, m 9692042560915087000, 9692042560915087000, m 9692042560915087000,
     2794777667151921400, 7620882760801982000, m 2794777667151921400, 7620882760801982000, 2794777667151921400,
     m 7620882760801982000, m 2794777667151921400, m 7620882760801982000, 5468986704143101000, 9073943521982236000,
     m 5468986704143101000, 9073943521982236000, 5468986704143101000, m 9073943521982236000, m 5468986704143101000,
     m 9073943521982236000, 9837879715015495000, 7612486664390827000, m 9837879715015495000, 7612486664390827000,
     9837879715015495000, m 7612486664390827000, m 9837879715015495000, m 7612486664390827000, 3028074817888614000,
     9870947070447679000, m 3028074817888614000, 9870947070447679000, 3028074817888614000, m 9870947070447679000,
     m 3028074817888614000, m 9870947070447679000]],
   [1388043776872199300, 1388043776872199300, 1388043776872199300, 1388043776872199300, 653478238074649100,
    653478238074649100, 653478238074649100, 653478238074649100, 1428564196221995800, 1428564196221995800,
    1428564196221995800, 1428564196221995800, 367159084852515100, 367159084852515100, 367159084852515100,
    367159084852515100, 862556996381438000, 862556996381438000, 862556996381438000, 862556996381438000,
    1345562732119169300, 1345562732119169300, 1345562732119169300, 1345562732119169300, 76556334149099365,
    76556334149099365, 76556334149099365, 76556334149099365, 1031767247849353500, 1031767247849353500,
    1031767247849353500, 1031767247849353500, 1031767247849353500, 1031767247849353500, 1031767247849353500,
    1031767247849353500, 548264002372914400, 548264002372914400, 548264002372914400, 548264002372914400,
    548264002372914400, 548264002372914400, 548264002372914400, 548264002372914400, 151198103882568620,
    151198103882568620, 151198103882568620, 151198103882568620, 151198103882568620, 151198103882568620,
    151198103882568620, 151198103882568620, 207809966559630440, 207809966559630440, 207809966559630440,
    207809966559630440, 207809966559630440, 207809966559630440, 207809966559630440, 207809966559630440]⟩

/-- `quad_data[19]` (witherden_vincent_quad_data.py 766-992). -/
def wvQuad_19 : TableRule :=
  ⟨19,
   [
    [7143442595727942000, 0, m 7143442595727942000, 0, 2656720521209637300, 0, m 2656720521209637300, 0,
     9644342692579673000, 0, m 9644342692579673000, 0, 8033797294676850000, 8033797294676850000,
     m 8033797294676850000, m 8033797294676850000, 9921654058971348000, 9921654058971348000, m 9921654058971348000,
     m 9921654058971348000, 9294496027996094000, 9294496027996094000, m 9294496027996094000, m 9294496027996094000,
     5102782573693434000, 2666403145945621700, 5102782573693434000, m 2666403145945621700, m 5102782573693434000,
     2666403145945621700, m 5102782573693434000, m 2666403145945621700, 3907342057752497500, 9878929331417353000,
     3907342057752497500, m 9878929331417353000, m 3907342057752497500, 9878929331417353000, m 3907342057752497500,
     m 9878929331417353000, 7171679213097452000, 5124918772160977000, 7171679213097452000, m 5124918772160977000,
     m 7171679213097452000, 5124918772160977000, m 7171679213097452000, m 5124918772160977000, 2654400078112960000,
     8689024341545042000, 2654400078112960000, m 8689024341545042000, m 2654400078112960000, 8689024341545042000,
     m 2654400078112960000, m 8689024341545042000, 6200353986932564000, 9263029558071293000, 6200353986932564000,
     m 9263029558071293000, m 6200353986932564000, 9263029558071293000, m 6200353986932564000, m 9263029558071293000,
     8016715847185969000, 9884465306839737000, 8016715847185969000, m 9884465306839737000, m 8016715847185969000,
     9884465306839737000, m 8016715847185969000, m 9884465306839737000],
    [0, 7143442595727942000, 0, m 7143442595727942000, 0, 2656720521209637300, 0, m 2656720521209637300, 0,
     9644342692579673000, 0, m 9644342692579673000, 8033797294676850000, m 8033797294676850000, 8033797294676850000,
     m 8033797294676850000, 9921654058971348000, m 9921654058971348000, 9921654058971348000, m 9921654058971348000,
     9294496027996094000, m 9294496027996094000, 9294496027996094000, m 9294496027996094000, 2666403145945621700,
     5102782573693434000, m 2666403145945621700, 5102782573693434000, 2666403145945621700, m 5102782573693434000,
     m 2666403145945621700, m 5102782573693434000, 9878929331417353000, 3907342057752497500, m 9878929331417353000,
     3907342057752497500, 9878929331417353000, m 3907342057752497500, m 9878929331417353000, m 3907342057752497500,
     5124918772160977000, 7171679213097452000, m 5124918772160977000, 7171679213097452000, 5124918772160977000,
     m 7171679213097452000, m 5124918772160977000, m 7171679213097452000, 8689024341545042000, 2654400078112960000,
     m 8689024341545042000, 2654400078112960000, 8689024341545042000, m 2654400078112960000, m 8689024341545042000,
     m 2654400078112960000, 9263029558071293000, 6200353986932564000, m 9263029558071293000, 6200353986932564000,
     9263029558071293000, m 6200353986932564000, m 9263029558071293000, m 6200353986932564000, 9884465306839737000,
     8016715847185969000, m 9884465306839737000, 8016715847185969000, 9884465306839737000, m 8016715847185969000,
     m 9884465306839737000, m 8016715847185969000]],
   [977373646928287500, 977373646928287500, 977373646928287500, 977373646928287500, 1393076129224822500,
    1393076129224822500, 1393076129224822500, 1393076129224822500, 348695834918879100, 348695834918879100,
    348695834918879100, 348695834918879100, 478045471627957940, 478045471627957940, 478045471627957940,
    478045471627957940, 16177151779117609, 16177151779117609, 16177151779117609, 16177151779117609,
    174410480343557620, 174410480343557620, 174410480343557620, 174410480343557620, 1177258328400560800,
    1177258328400560800, 1177258328400560800, 1177258328400560800, 1177258328400560800, 1177258328400560800,
    1177258328400560800, 1177258328400560800, 161795776116578500, 161795776116578500, 161795776116578500,
    161795776116578500, 161795776116578500, 161795776116578500, 161795776116578500, 161795776116578500,
    828466189834049000, 828466189834049000, 828466189834049000, 828466189834049000, 828466189834049000,
    828466189834049000, 828466189834049000, 828466189834049000, 649890814925960500, 649890814925960500,
    649890814925960500, 649890814925960500, 649890814925960500, 649890814925960500, 649890814925960500,
    649890814925960500, 389805523964105400, 389805523964105400, 389805523964105400, 389805523964105400,
    389805523964105400, 389805523964105400, 389805523964105400, 389805523964105400, 98894009347434840,
    98894009347434840, 98894009347434840, 98894009347434840, 98894009347434840, 98894009347434840, 98894009347434840,
    98894009347434840]⟩

/-- `quad_data[21]` (witherden_vincent_quad_data.py 993-1258). -/
def wvQuad_21 : TableRule :=
  ⟨21,
   [
    [0, 4733510743582241600, 0, m 4733510743582241600, 0, 8352784297558683000, 0, m 8352784297558683000, 0,
     2573719006072290000, 2573719006072290000, m 2573719006072290000, m 2573719006072290000, 9633378321156234000,
     9633378321156234000, m 9633378321156234000, m 9633378321156234000, 8624519253796515000, 8624519253796515000,
     m 8624519253796515000, m 8624519253796515000, 4968979625193457000, 4968979625193457000, m 4968979625193457000,
     m 4968979625193457000, 7043321751954006000, 7043321751954006000, m 7043321751954006000, m 7043321751954006000,
     2418781854767019800, 6741462199553178000, 2418781854767019800, m 6741462199553178000, m 2418781854767019800,
     6741462199553178000, m 2418781854767019800, m 6741462199553178000, 4801569663127951400, 8246473752709207000,
     4801569663127951400, m 8246473752709207000, m 4801569663127951400, 8246473752709207000, m 4801569663127951400,
     m 8246473752709207000, 9322419359217540000, 2706991841016649400, 9322419359217540000, m 2706991841016649400,
     m 9322419359217540000, 2706991841016649400, m 9322419359217540000, m 2706991841016649400, 9349023258240106000,
     6750395674370753000, 9349023258240106000, m 6750395674370753000, m 9349023258240106000, 6750395674370753000,
     m 9349023258240106000, m 6750395674370753000, 9904554675295242000, 4889162511771668600, 9904554675295242000,
     m 4889162511771668600, m 9904554675295242000, 4889162511771668600, m 9904554675295242000, m 4889162511771668600,
     8311352459759014000, 9889606113865724000, 8311352459759014000, m 9889606113865724000, m 8311352459759014000,
     9889606113865724000, m 8311352459759014000, m 9889606113865724000, 914696009222913000, 9840171484895990000,
     914696009222913000, m 9840171484895990000, m 914696009222913000, 9840171484895990000, m 914696009222913000,
     m 9840171484895990000],
    [0, 0, 4733510743582241600, 0, m 4733510743582241600, 0, 8352784297558683000, 0, m 8352784297558683000,
     2573719006072290000, m 2573719006072290000, 2573719006072290000, m 2573719006072290000, 9633378321156234000,
     m 9633378321156234000, 9633378321156234000, m 9633378321156234000, 8624519253796515000, m 8624519253796515000,
     8624519253796515000, m 8624519253796515000, 4968979625193457000, m 4968979625193457000, 4968979625193457000,
     m 4968979625193457000, 7043321751954006000, m 7043321751954006000, 7043321751954006000, m 7043321751954006000,
     6741462199553178000, 2418781854767019800, m 6741462199553178000, 2418781854767019800, 6741462199553178000,
     m 2418781854767019800, m 6741462199553178000, m 2418781854767019800, 8246473752709207000, 4801569663127951400,
     m 8246473752709207000, 4801569663127951400, 8246473752709207000, m 4801569663127951400, m 8246473752709207000,
     m 4801569663127951400, 2706991841016649400, 9322419359217540000, m 2706991841016649400, 9322419359217540000,
     2706991841016649400, m 9322419359217540000, m 2706991841016649400, m 9322419359217540000, 6750395674370753000,
     9349023258240106000, m 6750395674370753000, 9349023258240106000, 6750395674370753000, m 9349023258240106000,
     m 6750395674370753000, m 9349023258240106000, 4889162511771668600, 9904554675295242000, m 4889162511771668600,
     9904554675295242000, 4889162511771668600, m 9904554675295242000, m 4889162511771668600, m 9904554675295242000,
     9889606113865724000, 8311352459759014000, m 9889606113865724000, 8311352459759014000, 9889606113865724000,
     m 8311352459759014000, m 9889606113865724000, m 8311352459759014000, 9840171484895990000, 914696009222913000,
     m 9840171484895990000, 914696009222913000, 9840171484895990000, m 914696009222913000, m 9840171484895990000,
     m 914696009222913000]],
   [1351928403561428200, 1067941587859403800, 1067941587859403800, 1067941587859403800, 1067941587859403800,
    662572080049443900, 662572080049443900, 662572080049443900, 662572080049443900, 1198844836463404700,
    1198844836463404700, 1198844836463404700, 1198844836463404700, 82294612892200100, 82294612892200100,
    82294612892200100, 82294612892200100, 306036409287756500, 306036409287756500, 306036409287756500,
    306036409287756500, 967917918935952100, 967917918935952100, 967917918935952100, 967917918935952100,
    615163414813165600, 615163414813165600, 615163414813165600, 615163414813165600, 867284995132082300,
    867284995132082300, 867284995132082300, 867284995132082300, 867284995132082300, 867284995132082300,
    867284995132082300, 867284995132082300, 558791174041273500, 558791174041273500, 558791174041273500,
    558791174041273500, 558791174041273500, 558791174041273500, 558791174041273500, 558791174041273500,
    371288274409138160, 371288274409138160, 371288274409138160, 371288274409138160, 371288274409138160,
    371288274409138160, 371288274409138160, 371288274409138160, 287756008510205300, 287756008510205300,
    287756008510205300, 287756008510205300, 287756008510205300, 287756008510205300, 287756008510205300,
    287756008510205300, 115095204424931680, 115095204424931680, 115095204424931680, 115095204424931680,
    115095204424931680, 115095204424931680, 115095204424931680, 115095204424931680, 75284821304016460,
    75284821304016460, 75284821304016460, 75284821304016460, 75284821304016460, 75284821304016460, 75284821304016460,
    75284821304016460, 105123041582510770, 105123041582510770, 105123041582510770, 105123041582510770,
    105123041582510770, 105123041582510770, 105123041582510770, 105123041582510770]⟩

/-- `quad_data` in witherden_vincent_quad_data.py. -/
def wvQuad : List (Int × TableRule) :=
  [(1, wvQuad_1), (3, wvQuad_3), (5, wvQuad_5), (7, wvQuad_7), (9, wvQuad_9), (11, wvQuad_11), (13, wvQuad_13),
   (15, wvQuad_15), (17, wvQuad_17), (19, wvQuad_19), (21, wvQuad_21)]

/-- `hex_data[1]` (witherden_vincent_quad_data.py 1264-1264). -/
def wvHex_1 : TableRule :=
  ⟨1,
   [
    [0],
    [0],
    [0]],
   [80000000000000000000]⟩

/-- `hex_data[3]` (witherden_vincent_quad_data.py 1265-1280). -/
def wvHex_3 : TableRule :=
  ⟨3,
   [
    [m 10000000000000000000, 0, 0, 0, 10000000000000000000, 0],
    [0, 0, 10000000000000000000, 0, 0, m 10000000000000000000],
    [0, 10000000000000000000, 0, m 10000000000000000000, 0, 0]],
   [13333333333333333000, 13333333333333333000, 13333333333333333000, 13333333333333333000, 13333333333333333000,
    13333333333333333000]⟩

/-- `hex_data[5]` (witherden_vincent_quad_data.py 1281-1349). -/
def wvHex_5 : TableRule :=
  ⟨5,
   [
    [m 7958224257542215000, 0, 0, 0, 7958224257542215000, 0, 7587869106393281000, m 7587869106393281000,
     m 7587869106393281000, m 7587869106393281000, m 7587869106393281000, 7587869106393281000, 7587869106393281000,
     7587869106393281000],
    [0, 0, 7958224257542215000, 0, 0, m 7958224257542215000, m 7587869106393281000, 7587869106393281000,
     7587869106393281000, m 7587869106393281000, m 7587869106393281000, 7587869106393281000, 7587869106393281000,
     m 7587869106393281000],
    [0, 7958224257542215000, 0, m 7958224257542215000, 0, 0, m 7587869106393281000, 7587869106393281000,
     m 7587869106393281000, m 7587869106393281000, 7587869106393281000, m 7587869106393281000, 7587869106393281000,
     7587869106393281000]],
   [8864265927977839000, 8864265927977839000, 8864265927977839000, 8864265927977839000, 8864265927977839000,
    8864265927977839000, 3351800554016620700, 3351800554016620700, 3351800554016620700, 3351800554016620700,
    3351800554016620700, 3351800554016620700, 3351800554016620700, 3351800554016620700]⟩

/-- `hex_data[7]` (witherden_vincent_quad_data.py 1350-1498). -/
def wvHex_7 : TableRule :=
  ⟨7,
   [
    [m 9880861611886765000, 0, 0, 0, 9880861611886765000, 0, 4079551673583194000, m 4079551673583194000,
     m 4079551673583194000, m 4079551673583194000, m 4079551673583194000, 4079551673583194000, 4079551673583194000,
     4079551673583194000, 7811028210041185000, m 7811028210041185000, m 7811028210041185000, m 7811028210041185000,
     m 7811028210041185000, 7811028210041185000, 7811028210041185000, 7811028210041185000, m 8480522756840387000,
     8480522756840387000, 0, 8480522756840387000, 8480522756840387000, 0, 0, m 8480522756840387000,
     m 8480522756840387000, 8480522756840387000, 0, m 8480522756840387000],
    [0, 0, 9880861611886765000, 0, 0, m 9880861611886765000, m 4079551673583194000, 4079551673583194000,
     4079551673583194000, m 4079551673583194000, m 4079551673583194000, 4079551673583194000, 4079551673583194000,
     m 4079551673583194000, m 7811028210041185000, 7811028210041185000, 7811028210041185000, m 7811028210041185000,
     m 7811028210041185000, 7811028210041185000, 7811028210041185000, m 7811028210041185000, m 8480522756840387000,
     0, 8480522756840387000, 8480522756840387000, 0, m 8480522756840387000, m 8480522756840387000, 0,
     8480522756840387000, m 8480522756840387000, 8480522756840387000, 0],
    [0, 9880861611886765000, 0, m 9880861611886765000, 0, 0, m 4079551673583194000, 4079551673583194000,
     m 4079551673583194000, m 4079551673583194000, 4079551673583194000, m 4079551673583194000, 4079551673583194000,
     4079551673583194000, m 7811028210041185000, 7811028210041185000, m 7811028210041185000, m 7811028210041185000,
     7811028210041185000, m 7811028210041185000, 7811028210041185000, 7811028210041185000, 0, m 8480522756840387000,
     m 8480522756840387000, 0, 8480522756840387000, 8480522756840387000, m 8480522756840387000, 8480522756840387000,
     0, 0, 8480522756840387000, m 8480522756840387000]],
   [2001298909835670000, 2001298909835670000, 2001298909835670000, 2001298909835670000, 2001298909835670000,
    2001298909835670000, 4571538560698527600, 4571538560698527600, 4571538560698527600, 4571538560698527600,
    4571538560698527600, 4571538560698527600, 4571538560698527600, 4571538560698527600, 1537961400659586800,
    1537961400659586800, 1537961400659586800, 1537961400659586800, 1537961400659586800, 1537961400659586800,
    1537961400659586800, 1537961400659586800, 1593017237510088700, 1593017237510088700, 1593017237510088700,
    1593017237510088700, 1593017237510088700, 1593017237510088700, 1593017237510088700, 1593017237510088700,
    1593017237510088700, 1593017237510088700, 1593017237510088700, 1593017237510088700]⟩

/-- `hex_data[9]` (witherden_vincent_quad_data.py 1499-1743). -/
def wvHex_9 : TableRule :=
  ⟨9,
   [
    [m 6136814695917090000, 0, 0, 0, 6136814695917090000, 0, 8700997846619759000, m 8700997846619759000,
     m 8700997846619759000, m 8700997846619759000, m 8700997846619759000, 8700997846619759000, 8700997846619759000,
     8700997846619759000, 5641108070200300000, m 5641108070200300000, m 5641108070200300000, m 5641108070200300000,
     m 5641108070200300000, 5641108070200300000, 5641108070200300000, 5641108070200300000, m 8776871232576783000,
     8776871232576783000, 0, 8776871232576783000, 8776871232576783000, 0, 0, m 8776871232576783000,
     m 8776871232576783000, 8776871232576783000, 0, m 8776871232576783000, 4322679026308622000,
     m 4322679026308622000, m 4322679026308622000, m 9385304218646717000, m 4322679026308622000, 9385304218646717000,
     4322679026308622000, 4322679026308622000, m 4322679026308622000, 4322679026308622000, m 9385304218646717000,
     m 4322679026308622000, m 4322679026308622000, m 4322679026308622000, 4322679026308622000, 9385304218646717000,
     4322679026308622000, 9385304218646717000, 9385304218646717000, m 9385304218646717000, 4322679026308622000,
     m 4322679026308622000, 4322679026308622000, m 9385304218646717000],
    [0, 0, 6136814695917090000, 0, 0, m 6136814695917090000, m 8700997846619759000, 8700997846619759000,
     8700997846619759000, m 8700997846619759000, m 8700997846619759000, 8700997846619759000, 8700997846619759000,
     m 8700997846619759000, m 5641108070200300000, 5641108070200300000, 5641108070200300000, m 5641108070200300000,
     m 5641108070200300000, 5641108070200300000, 5641108070200300000, m 5641108070200300000, m 8776871232576783000,
     0, 8776871232576783000, 8776871232576783000, 0, m 8776871232576783000, m 8776871232576783000, 0,
     8776871232576783000, m 8776871232576783000, 8776871232576783000, 0, 9385304218646717000, m 9385304218646717000,
     9385304218646717000, m 4322679026308622000, m 4322679026308622000, 4322679026308622000, m 9385304218646717000,
     m 9385304218646717000, m 9385304218646717000, 4322679026308622000, 4322679026308622000, 4322679026308622000,
     4322679026308622000, m 4322679026308622000, m 4322679026308622000, m 4322679026308622000, 9385304218646717000,
     4322679026308622000, m 4322679026308622000, 4322679026308622000, 4322679026308622000, 9385304218646717000,
     m 4322679026308622000, m 4322679026308622000],
    [0, 6136814695917090000, 0, m 6136814695917090000, 0, 0, m 8700997846619759000, 8700997846619759000,
     m 8700997846619759000, m 8700997846619759000, 8700997846619759000, m 8700997846619759000, 8700997846619759000,
     8700997846619759000, m 5641108070200300000, 5641108070200300000, m 5641108070200300000, m 5641108070200300000,
     5641108070200300000, m 5641108070200300000, 5641108070200300000, 5641108070200300000, 0, m 8776871232576783000,
     m 8776871232576783000, 0, 8776871232576783000, 8776871232576783000, m 8776871232576783000, 8776871232576783000,
     0, 0, 8776871232576783000, m 8776871232576783000, m 4322679026308622000, 4322679026308622000,
     m 4322679026308622000, 4322679026308622000, 9385304218646717000, m 4322679026308622000, m 4322679026308622000,
     4322679026308622000, m 4322679026308622000, m 9385304218646717000, m 4322679026308622000, m 9385304218646717000,
     9385304218646717000, m 9385304218646717000, 9385304218646717000, m 4322679026308622000, 4322679026308622000,
     4322679026308622000, 4322679026308622000, 4322679026308622000, 9385304218646717000, 4322679026308622000,
     m 9385304218646717000, m 4322679026308622000]],
   [4332749957496545600, 4332749957496545600, 4332749957496545600, 4332749957496545600, 4332749957496545600,
    4332749957496545600, 501487952993490300, 501487952993490300, 501487952993490300, 501487952993490300,
    501487952993490300, 501487952993490300, 501487952993490300, 501487952993490300, 1988598381440235000,
    1988598381440235000, 1988598381440235000, 1988598381440235000, 1988598381440235000, 1988598381440235000,
    1988598381440235000, 1988598381440235000, 917898061361776400, 917898061361776400, 917898061361776400,
    917898061361776400, 917898061361776400, 917898061361776400, 917898061361776400, 917898061361776400,
    917898061361776400, 917898061361776400, 917898061361776400, 917898061361776400, 961168035133733700,
    961168035133733700, 961168035133733700, 961168035133733700, 961168035133733700, 961168035133733700,
    961168035133733700, 961168035133733700, 961168035133733700, 961168035133733700, 961168035133733700,
    961168035133733700, 961168035133733700, 961168035133733700, 961168035133733700, 961168035133733700,
    961168035133733700, 961168035133733700, 961168035133733700, 961168035133733700, 961168035133733700,
    961168035133733700, 961168035133733700, 961168035133733700]⟩

/-- `hex_data[11]` (witherden_vincent_quad_data.py 1744-2116). -/
def wvHex_11 : TableRule :=
  ⟨11,
   [
    [m 8126143340996265000, 0, 0, 0, 8126143340996265000, 0, 6016752641982627000, m 6016752641982627000,
     m 6016752641982627000, m 6016752641982627000, m 6016752641982627000, 6016752641982627000, 6016752641982627000,
     6016752641982627000, 8554557610177600000, m 8554557610177600000, m 8554557610177600000, m 8554557610177600000,
     m 8554557610177600000, 8554557610177600000, 8554557610177600000, 8554557610177600000, 3133934045160547400,
     m 3133934045160547400, m 3133934045160547400, m 3133934045160547400, m 3133934045160547400, 3133934045160547400,
     3133934045160547400, 3133934045160547400, m 7346682869970080000, 7346682869970080000, 0, 7346682869970080000,
     7346682869970080000, 0, 0, m 7346682869970080000, m 7346682869970080000, 7346682869970080000, 0,
     m 7346682869970080000, 4507999351145094400, m 4507999351145094400, m 4507999351145094400, m 9650996655127103000,
     m 4507999351145094400, 9650996655127103000, 4507999351145094400, 4507999351145094400, m 4507999351145094400,
     4507999351145094400, m 9650996655127103000, m 4507999351145094400, m 4507999351145094400, m 4507999351145094400,
     4507999351145094400, 9650996655127103000, 4507999351145094400, 9650996655127103000, 9650996655127103000,
     m 9650996655127103000, 4507999351145094400, m 4507999351145094400, 4507999351145094400, m 9650996655127103000,
     9412448572106032000, m 9412448572106032000, m 9412448572106032000, m 3539028145966301400, m 9412448572106032000,
     3539028145966301400, 9412448572106032000, 9412448572106032000, m 9412448572106032000, 9412448572106032000,
     m 3539028145966301400, m 9412448572106032000, m 9412448572106032000, m 9412448572106032000, 9412448572106032000,
     3539028145966301400, 9412448572106032000, 3539028145966301400, 3539028145966301400, m 3539028145966301400,
     9412448572106032000, m 9412448572106032000, 9412448572106032000, m 3539028145966301400],
    [0, 0, 8126143340996265000, 0, 0, m 8126143340996265000, m 6016752641982627000, 6016752641982627000,
     6016752641982627000, m 6016752641982627000, m 6016752641982627000, 6016752641982627000, 6016752641982627000,
     m 6016752641982627000, m 8554557610177600000, 8554557610177600000, 8554557610177600000, m 8554557610177600000,
     m 8554557610177600000, 8554557610177600000, 8554557610177600000, m 8554557610177600000, m 3133934045160547400,
     3133934045160547400, 3133934045160547400, m 3133934045160547400, m 3133934045160547400, 3133934045160547400,
     3133934045160547400, m 3133934045160547400, m 7346682869970080000, 0, 7346682869970080000, 7346682869970080000,
     0, m 7346682869970080000, m 7346682869970080000, 0, 7346682869970080000, m 7346682869970080000,
     7346682869970080000, 0, 9650996655127103000, m 9650996655127103000, 9650996655127103000, m 4507999351145094400,
     m 4507999351145094400, 4507999351145094400, m 9650996655127103000, m 9650996655127103000, m 9650996655127103000,
     4507999351145094400, 4507999351145094400, 4507999351145094400, 4507999351145094400, m 4507999351145094400,
     m 4507999351145094400, m 4507999351145094400, 9650996655127103000, 4507999351145094400, m 4507999351145094400,
     4507999351145094400, 4507999351145094400, 9650996655127103000, m 4507999351145094400, m 4507999351145094400,
     3539028145966301400, m 3539028145966301400, 3539028145966301400, m 9412448572106032000, m 9412448572106032000,
     9412448572106032000, m 3539028145966301400, m 3539028145966301400, m 3539028145966301400, 9412448572106032000,
     9412448572106032000, 9412448572106032000, 9412448572106032000, m 9412448572106032000, m 9412448572106032000,
     m 9412448572106032000, 3539028145966301400, 9412448572106032000, m 9412448572106032000, 9412448572106032000,
     9412448572106032000, 3539028145966301400, m 9412448572106032000, m 9412448572106032000],
    [0, 8126143340996265000, 0, m 8126143340996265000, 0, 0, m 6016752641982627000, 6016752641982627000,
     m 6016752641982627000, m 6016752641982627000, 6016752641982627000, m 6016752641982627000, 6016752641982627000,
     6016752641982627000, m 8554557610177600000, 8554557610177600000, m 8554557610177600000, m 8554557610177600000,
     8554557610177600000, m 8554557610177600000, 8554557610177600000, 8554557610177600000, m 3133934045160547400,
     3133934045160547400, m 3133934045160547400, m 3133934045160547400, 3133934045160547400, m 3133934045160547400,
     3133934045160547400, 3133934045160547400, 0, m 7346682869970080000, m 7346682869970080000, 0,
     7346682869970080000, 7346682869970080000, m 7346682869970080000, 7346682869970080000, 0, 0, 7346682869970080000,
     m 7346682869970080000, m 4507999351145094400, 4507999351145094400, m 4507999351145094400, 4507999351145094400,
     9650996655127103000, m 4507999351145094400, m 4507999351145094400, 4507999351145094400, m 4507999351145094400,
     m 9650996655127103000, m 4507999351145094400, m 9650996655127103000, 9650996655127103000, m 9650996655127103000,
     9650996655127103000, m 4507999351145094400, 4507999351145094400, 4507999351145094400, 4507999351145094400,
     4507999351145094400, 9650996655127103000, 4507999351145094400, m 9650996655127103000, m 4507999351145094400,
     m 9412448572106032000, 9412448572106032000, m 9412448572106032000, 9412448572106032000, 3539028145966301400,
     m 9412448572106032000, m 9412448572106032000, 9412448572106032000, m 9412448572106032000, m 3539028145966301400,
     m 9412448572106032000, m 3539028145966301400, 3539028145966301400, m 3539028145966301400, 3539028145966301400,
     m 9412448572106032000, 9412448572106032000, 9412448572106032000, 9412448572106032000, 9412448572106032000,
     3539028145966301400, 9412448572106032000, m 3539028145966301400, m 9412448572106032000]],
   [2024770736128001800, 2024770736128001800, 2024770736128001800, 2024770736128001800, 2024770736128001800,
    2024770736128001800, 1175383479564562800, 1175383479564562800, 1175383479564562800, 1175383479564562800,
    1175383479564562800, 1175383479564562800, 1175383479564562800, 1175383479564562800, 446439120788292400,
    446439120788292400, 446439120788292400, 446439120788292400, 446439120788292400, 446439120788292400,
    446439120788292400, 446439120788292400, 2159920452549691200, 2159920452549691200, 2159920452549691200,
    2159920452549691200, 2159920452549691200, 2159920452549691200, 2159920452549691200, 2159920452549691200,
    1451993458601157000, 1451993458601157000, 1451993458601157000, 1451993458601157000, 1451993458601157000,
    1451993458601157000, 1451993458601157000, 1451993458601157000, 1451993458601157000, 1451993458601157000,
    1451993458601157000, 1451993458601157000, 614419940978353400, 614419940978353400, 614419940978353400,
    614419940978353400, 614419940978353400, 614419940978353400, 614419940978353400, 614419940978353400,
    614419940978353400, 614419940978353400, 614419940978353400, 614419940978353400, 614419940978353400,
    614419940978353400, 614419940978353400, 614419940978353400, 614419940978353400, 614419940978353400,
    614419940978353400, 614419940978353400, 614419940978353400, 614419940978353400, 614419940978353400,
    614419940978353400, 226142961388218840, 226142961388218840, 226142961388218840, 226142961388218840,
    226142961388218840, 226142961388218840, 226142961388218840, 226142961388218840, 226142961388218840,
    226142961388218840, 226142961388218840, 226142961388218840, 226142961388218840, 226142961388218840,
    226142961388218840, 226142961388218840, 226142961388218840, 226142961388218840, 226142961388218840,
    226142961388218840, 226142961388218840, 226142961388218840, 226142961388218840, 226142961388218840]⟩

/-- `hex_data` in witherden_vincent_quad_data.py. -/
def wvHex : List (Int × TableRule) :=
  [(1, wvHex_1), (3, wvHex_3), (5, wvHex_5), (7, wvHex_7), (9, wvHex_9), (11, wvHex_11)]

end
end Modepy.Table
