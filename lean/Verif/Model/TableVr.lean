import Verif.Model.TableRules

/-!
# `vr_quad_data_tri.py` and `vr_quad_data_tet.py`, in units of `10^-35`

Generated by tools/gen_tables.py.
-/

namespace Modepy.Table
noncomputable section

/-- `triangle_data[0]` (vr_quad_data_tri.py 29-37). -/
def vrTri_0 : TableRule :=
  ⟨1,
   [
    [0],
    [0],
    []],
   [455901411390955528398712650392730000]⟩

/-- `triangle_data[1]` (vr_quad_data_tri.py 38-58). -/
def vrTri_1 : TableRule :=
  ⟨2,
   [
    [50000000000000000000000000000000000, 0, m 50000000000000000000000000000000000],
    [m 28867513459481288225457439025098000, 57735026918962576450914878050196000,
     m 28867513459481288225457439025098000],
    []],
   [151967137130318509466237550130910000, 151967137130318509466237550130910000, 151967137130318509466237550130910000]⟩

/-- `triangle_data[2]` (vr_quad_data_tri.py 59-88). -/
def vrTri_2 : TableRule :=
  ⟨4,
   [
    [0, m 72527135947068776962128560979340000, 0, m 33784547274789465895498776164916000,
     72527135947068776962128560979340000, 33784547274789465895498776164916000],
    [83747122925185483484415621413487000, m 41873561462592741742207810706744000,
     m 39011034927098671317419951524681000, 19505517463549335658709975762341000,
     m 41873561462592741742207810706744000, 19505517463549335658709975762340000],
    []],
   [50127155117357779154594371101053000, 50127155117357779154594371101054000, 101839982012960730311643179029860000,
    101839982012960730311643179029860000, 50127155117357779154594371101053000, 101839982012960730311643179029860000]⟩

/-- `triangle_data[3]` (vr_quad_data_tri.py 89-130). -/
def vrTri_3 : TableRule :=
  ⟨5,
   [
    [0, 78666101639967696838369807741827000, 0, 30094676896614446173661526090005000,
     m 78666101639967696838369807741827000, 24288496199708743989786878437904000, 54383173096323190163448404527909000,
     m 24288496199708743989786878437904000, m 30094676896614446173661526090005000,
     m 54383173096323190163448404527909000],
    [0, m 45417894957933810585376535186351000, 90835789915867621170753070372702000,
     m 45421109445661253251431660004936000, m 45417894957933810585376535186351000,
     48773309433983369328454581322934000, m 3352199988322116077022921317997500, 48773309433983369328454581322934000,
     m 45421109445661253251431660004936000, m 3352199988322116077022921317997500],
    []],
   [90708593210472630247407787570254000, 27481272244823141968358523316723000, 27481272244823141968358523316723000,
    47124833574335578707704882145384000, 27481272244823141968358523316723000, 47124833574335578707704882145384000,
    47124833574335578707704882145384000, 47124833574335578707704882145384000, 47124833574335578707704882145384000,
    47124833574335578707704882145384000]⟩

/-- `triangle_data[4]` (vr_quad_data_tri.py 131-187). -/
def vrTri_4 : TableRule :=
  ⟨7,
   [
    [0, m 27344573096654179666874290539477000, 27344573096654179666874290539477000,
     m 42233238215340581924615566001252000, 42233238215340581924615566001252000, 0,
     m 18517708686734435661867105631915000, m 67031349478008169894818481229504000,
     18517708686734435661867105631914000, m 48513640791273734232951375597590000, 67031349478008169894818481229504000,
     48513640791273734232951375597590000, 0, m 84624076047564449367313431517587000,
     84624076047564449367313431517587000],
    [31574793276457378418547105481567000, m 15787396638228689209273552740784000,
     m 15787396638228689209273552740784000, 24383371452376474985074290854059000, 24383371452376474985074290854059000,
     m 48766742904752949970148581708119000, 66709931235482596900014874899532000,
     m 17318159475149501708574603496963000, 66709931235482596900014874899532000,
     m 49391771760333095191440271402570000, m 17318159475149501708574603496963000,
     m 49391771760333095191440271402570000, 97715466171969393506910087330460000,
     m 48857733085984696753455043665230000, m 48857733085984696753455043665230000],
    []],
   [57903548483294591423542964237399000, 57903548483294591423542964237399000, 57903548483294591423542964237399000,
    29578809508516787711856076890140000, 29578809508516787711856076890141000, 29578809508516787711856076890141000,
    24944927325911940024010038068926000, 24944927325911940024010038068926000, 24944927325911940024010038068926000,
    24944927325911940024010038068926000, 24944927325911940024010038068926000, 24944927325911940024010038068926000,
    14594924486683250282818432865517000, 14594924486683250282818432865517000, 14594924486683250282818432865517000]⟩

/-- `triangle_data[5]` (vr_quad_data_tri.py 188-262). -/
def vrTri_5 : TableRule :=
  ⟨8,
   [
    [41194192657853010982865870129986000, m 41194192657853010982865870129986000, 21338599921749440268499811887570000,
     0, 0, m 21338599921749440268499811887570000, 20857398496582545094850354093101000,
     m 20857398496582545094850354093101000, 54532428466503419131050832984425000,
     m 54532428466503419131050832984426000, 33675029969920874036200478891324000,
     m 33675029969920874036200478891324000, 61651198554323269517089684287530000, 74641524507499706560581304184834000,
     m 61651198554323269517089684287530000, m 74641524507499706560581304184834000,
     12990325953176437043491619897304000, m 12990325953176437043491619897303000, 90578275359714536457244798934681000,
     m 90578275359714536457244798934681000, 0],
    [m 23783478220060741129500105273301000, m 23783478220060741129500105273301000,
     12319846408951766613334398575003000, m 24639692817903533226668797150005000, 47566956440121482259000210546603000,
     12319846408951766613334398575003000, m 50926599872802291799663328816150000,
     m 50926599872802291799663328816149000, 7400262981505303709627287464998100, 7400262981505303709627287464998100,
     43526336891296988090036041351151000, 43526336891296988090036041351151000, m 50594272453056402070651247697118000,
     m 28094367895274208605804537200598000, m 50594272453056402070651247697118000,
     m 28094367895274208605804537200598000, 78688640348330610676455784897716000, 78688640348330610676455784897716000,
     m 52295391661663234099806653900769000, m 52295391661663234099806653900769000,
     104590783323326468199613307801540000],
    []],
   [33917974956253817294776592406612000, 33917974956253817294776592406612000, 38758245225341608248421340887676000,
    38758245225341608248421340887676000, 33917974956253817294776592406612000, 38758245225341608248421340887676000,
    19009947908771557475880531795232000, 19009947908771557475880531795232000, 19009947908771557475880531795232000,
    19009947908771557475880531795232000, 19009947908771557475880531795232000, 19009947908771557475880531795232000,
    17509278958533358190105932301112000, 17509278958533358190105932301112000, 17509278958533358190105932301112000,
    17509278958533358190105932301112000, 17509278958533358190105932301111000, 17509278958533358190105932301112000,
    6252463214113252591066688643933300, 6252463214113252591066688643933400, 6252463214113252591066688643933300]⟩

/-- `triangle_data[6]` (vr_quad_data_tri.py 263-358). -/
def vrTri_6 : TableRule :=
  ⟨10,
   [
    [0, 18198879794064935596162112438012000, m 18984606011787978345060759355777000,
     m 18198879794064935596162112438013000, m 37183485805852913941222871793789000,
     37183485805852913941222871793789000, 18984606011787978345060759355777000, m 45604440912430706100423731491474000,
     45604440912430706100423731491474000, 0, 27250079579468194023884839447403000, 0,
     m 27250079579468194023884839447403000, m 53495344799133098730940442584470000,
     m 63663129948675283473474306980112000, m 36413050369207089449589467532709000,
     63663129948675283473474306980112000, 53495344799133098730940442584470000, 36413050369207089449589467532709000,
     9865860841671666656952242644470600, m 9865860841671666656952242644470600, m 80715686527894965687110506529034000,
     m 70849825686223299030158263884563000, 80715686527894965687110506529034000, 70849825686223299030158263884563000,
     0, m 93188007906144489152796614894753000, 93188007906144489152796614894753000],
    [0, 32428662930782585458826097784001000, m 31975023687470840225520350665067000,
     32428662930782585458826097784001000, m 453639243311745233305747118934030, m 453639243311745233305747118933960,
     m 31975023687470840225520350665067000, 26329736237034250583971557607976000, 26329736237034250583971557607976000,
     m 52659472474068501167943115215952000, 57779009645998915719423059512945000, 61771103440342682348656306201350000,
     57779009645998915719423059512945000, m 30885551720171341174328153100675000,
     m 5290243652032429054972673348582200, m 52488765993966486664450386164363000,
     m 5290243652032429054972673348582200, m 30885551720171341174328153100675000,
     m 52488765993966486664450386164363000, 87506389276684691859151236786929000, 87506389276684691859151236786929000,
     m 35209108519252559091506760612381000, m 52297280757432132767644476174547000,
     m 35209108519252559091506760612381000, m 52297280757432132767644476174547000,
     107604242899714989615043914689170000, m 53802121449857494807521957344584000,
     m 53802121449857494807521957344584000],
    []],
   [36844247020518171223852083756008000, 26982135907071677972322120367243000, 26982135907071677972322120367243000,
    26982135907071677972322120367243000, 26982135907071677972322120367243000, 26982135907071677972322120367244000,
    26982135907071677972322120367243000, 12071761500142762867789653052100000, 12071761500142762867789653052100000,
    12071761500142762867789653052100000, 13005099621234030030287697777114000, 22844907081688871224481751077453000,
    13005099621234030030287697777114000, 22844907081688871224481751077453000, 13005099621234030030287697777114000,
    13005099621234030030287697777114000, 13005099621234030030287697777114000, 22844907081688871224481751077453000,
    13005099621234030030287697777114000, 10714642481311585857700622750153000, 10714642481311585857700622750153000,
    10714642481311585857700622750153000, 10714642481311585857700622750153000, 10714642481311585857700622750153000,
    10714642481311585857700622750153000, 3365296855746230578727902960333400, 3365296855746230578727902960333500,
    3365296855746230578727902960333400]⟩

/-- `triangle_data[7]` (vr_quad_data_tri.py 359-478). -/
def vrTri_7 : TableRule :=
  ⟨12,
   [
    [0, m 18542610399850690980043697691631000, 18542610399850690980043697691631000,
     m 32001707063130681698349074886935000, 32001707063130681698349074886935000, 0,
     m 14963262045752818798418957602781000, m 50093564750874300428223517244129000,
     14963262045752818798418957602781000, m 35130302705121481629804559641348000, 50093564750874300428223517244128000,
     35130302705121481629804559641348000, m 39075754928485943925742379730586000,
     m 53872893815831736574837198749508000, 39075754928485943925742379730586000,
     m 14797138887345792649094819018922000, 53872893815831736574837198749508000, 14797138887345792649094819018922000,
     m 22913152507304476183051871327667000, m 70222079033847928511493675220401000, 0,
     m 63870750529242832977965961630583000, 22913152507304476183051871327667000,
     m 47308926526543452328441803892734000, 70222079033847928511493675220401000, 47308926526543452328441803892735000,
     63870750529242832977965961630582000, m 8218975968188965337689205648320800,
     m 84515568016436411951015152604368000, 8218975968188965337689205648320800,
     m 76296592048247446613325946956047000, 84515568016436411951015152604368000, 76296592048247446613325946956047000,
     0, m 94190436729271690210274071303830000, 94190436729271690210274071303830000],
    [21411162211664301340462165458887000, m 10705581105832150670231082729443000,
     m 10705581105832150670231082729443000, 18476194187426047228139197115937000, 18476194187426047228139197115937000,
     m 36952388374852094456278394231874000, 49204022817100151454837448537794000,
     m 11643446353444625358790649584804000, 49204022817100151454837448537794000,
     m 37560576463655526096046798952990000, m 11643446353444625358790649584804000,
     m 37560576463655526096046798952990000, 39646661866439951102400799310888000, 14017265506903832534298446961604000,
     39646661866439951102400799310889000, m 53663927373343783636699246272493000, 14017265506903832534298446961605000,
     m 53663927373343783636699246272493000, 67856557698419366256136426691643000,
     m 14084906697096901352016080817778000, 73751590022803563770063020613881000,
     m 36875795011401781885031510306941000, 67856557698419366256136426691643000,
     m 53771651001322464904120345873865000, m 14084906697096901352016080817778000,
     m 53771651001322464904120345873865000, m 36875795011401781885031510306940000,
     92844943902310411936713568924512000, m 39304629969609759695361745623513000, 92844943902310411936713568924512000,
     m 53540313932700652241351823300998000, m 39304629969609759695361745623514000,
     m 53540313932700652241351823300998000, 108761748001466848182450306092680000,
     m 54380874000733424091225153046341000, m 54380874000733424091225153046342000],
    []],
   [28474610815323103371641290149729000, 28474610815323103371641290149729000, 28474610815323103371641290149729000,
    21309588386816800893218613125093000, 21309588386816800893218613125093000, 21309588386816800893218613125093000,
    18932173287103399765087014583837000, 18932173287103399765087014583837000, 18932173287103399765087014583837000,
    18932173287103399765087014583837000, 18932173287103399765087014583837000, 18932173287103399765087014583837000,
    8347245954773216122428174769962300, 8347245954773216122428174769962300, 8347245954773216122428174769962300,
    8347245954773216122428174769962300, 8347245954773216122428174769962400, 8347245954773216122428174769962400,
    8673911626805351133731625169293700, 8673911626805351133731625169293600, 14424557730230049875552919231962000,
    14424557730230049875552919231962000, 8673911626805351133731625169293700, 8673911626805351133731625169293600,
    8673911626805351133731625169293700, 8673911626805351133731625169293700, 14424557730230049875552919231962000,
    6753884819487564113947950701482600, 6753884819487564113947950701482600, 6753884819487564113947950701482500,
    6753884819487564113947950701482500, 6753884819487564113947950701482500, 6753884819487564113947950701482500,
    2343948821609493055435197174974500, 2343948821609493055435197174974600, 2343948821609493055435197174974500]⟩

/-- `triangle_data[8]` (vr_quad_data_tri.py 479-625). -/
def vrTri_8 : TableRule :=
  ⟨14,
   [
    [33840749330282616276614803727603000, m 33840749330282616276614803727604000, 0,
     m 15837256783487402385429961651910000, 0, 15837256783487402385429961651909000,
     m 18003748919109069233633444728547000, 18003748919109069233633444728547000,
     m 44411215529327639172957918743676000, 44411215529327639172957918743676000,
     m 26407466610218569939324474015130000, 26407466610218569939324474015129000, 0,
     47074732981511676359820069717112000, m 47074732981511676359820069717112000, 50691100281912485182864141364046000,
     m 50691100281912485182864141364047000, 61574805258036049546697922568789000,
     m 61574805258036049546697922568789000, 28520479247065339231926648775766000,
     m 28520479247065339231926648775766000, 61484502537664123353119996207596000,
     m 61484502537664123353119996207596000, 10883704976123564363833781204742000,
     m 10883704976123564363833781204743000, 32964023290598784121193347431830000,
     m 32964023290598784121193347431830000, 55280800592112062772924427272673000,
     m 55280800592112062772924427272674000, 75408237504506300730322177299697000,
     m 75408237504506300730322177299698000, 74905048380485682434739851366433000,
     m 74905048380485682434739851366434000, 19624247788373619661815424093760000,
     m 19624247788373619661815424093760000, 0, 87243682719949148181118784089772000,
     79103149889354115500914178391097000, m 79103149889354115500914178391098000,
     m 87243682719949148181118784089772000, 94352470249122517030426883532403000, 8140532830595032680204605698674200,
     m 8140532830595032680204605698674200, m 94352470249122517030426883532403000, 0],
    [m 19537965735417316316644641041672000, m 19537965735417316316644641041672000,
     m 18287288934343356901271462559822000, 9143644467171678450635731279911200, 39075931470834632633289282083344000,
     9143644467171678450635731279911300, m 40887185196921546111148340827586000,
     m 40887185196921546111148340827586000, 4851888671155690532782103282581800, 4851888671155690532782103282582000,
     36035296525765855578366237545005000, 36035296525765855578366237545005000, m 54357219517811041207332500874834000,
     27178609758905520603666250437417000, 27178609758905520603666250437417000, m 41833940388771306478528118915117000,
     m 41833940388771306478528118915117000, m 22982810395535078460065003265087000,
     m 22982810395535078460065003265087000, m 54529881811510911349963357908858000,
     m 54529881811510911349963357908858000, 2565481349689992553699907459371800, 2565481349689992553699907459371500,
     64816750784306384938593122180205000, 64816750784306384938593122180204000, 51964400461820918796263450449486000,
     51964400461820918796263450449486000, m 54576514589396777543130146294961000,
     m 54576514589396777543130146294961000, m 43536966222341946125925878404668000,
     m 43536966222341946125925878404668000, m 20586320359612495421009714581709000,
     m 20586320359612495421009714581710000, 75162834949009272964139860876670000, 75162834949009272964139860876670000,
     87073932444683892251851756809337000, m 40970286061274885784067104473356000,
     m 55070102524547970712547088728629000, m 55070102524547970712547088728629000,
     m 40970286061274885784067104473357000, m 54474424097037041525790615178450000,
     96040388585822856496614193201986000, 96040388585822856496614193201986000, m 54474424097037041525790615178450000,
     108948848194074083051581230356900000],
    []],
   [20691581470544605371895271697260000, 20691581470544605371895271697260000, 23794539985980616400797361789076000,
    23794539985980616400797361789076000, 20691581470544605371895271697260000, 23794539985980616400797361789076000,
    17114863030303046419207015040627000, 17114863030303046419207015040627000, 17114863030303046419207015040627000,
    17114863030303046419207015040627000, 17114863030303046419207015040627000, 17114863030303046419207015040627000,
    6538942352167571113406136358996500, 6538942352167571113406136358996400, 6538942352167571113406136358996400,
    13189788805206353370873193804624000, 13189788805206353370873193804624000, 13189788805206353370873193804624000,
    13189788805206353370873193804624000, 5984093897780193122390238722915800, 5984093897780193122390238722915900,
    5984093897780193122390238722915800, 5984093897780193122390238722916000, 13189788805206353370873193804624000,
    13189788805206353370873193804624000, 5984093897780193122390238722915800, 5984093897780193122390238722915800,
    5422305349196424347154726580486400, 5422305349196424347154726580486300, 7931874393794961785244863900865900,
    7931874393794961785244863900865700, 5422305349196424347154726580486400, 5422305349196424347154726580486400,
    5422305349196424347154726580486400, 5422305349196424347154726580486300, 7931874393794961785244863900865700,
    3740252517597473565718165862182600, 3740252517597473565718165862182600, 3740252517597473565718165862182500,
    3740252517597473565718165862182400, 2107591727663773144207236363039500, 3740252517597473565718165862182600,
    3740252517597473565718165862182400, 2107591727663773144207236363039500, 2107591727663773144207236363039500]⟩

/-- `triangle_data[9]` (vr_quad_data_tri.py 626-802). -/
def vrTri_9 : TableRule :=
  ⟨15,
   [
    [0, 37811539285214573105632000025031000, 0, 28060976678934036420039639714517000,
     m 28060976678934036420039639714517000, m 37811539285214573105632000025031000,
     13612645795137144022275064544358000, m 13612645795137144022275064544358000, 38523130723366368854885150368032000,
     14448330883796892397764575170159000, m 14448330883796892397764575170159000, 50199922907959865394668431471380000,
     25143652303055032384653087127271000, 0, m 38523130723366368854885150368032000,
     25056270604904833010015344344108000, m 25143652303055032384653087127271000,
     m 25056270604904833010015344344109000, m 50199922907959865394668431471380000,
     54873803112611292080239030575457000, 14517136292570846629519516527345000, 40356666820040445450719514048112000,
     m 14517136292570846629519516527346000, m 40356666820040445450719514048112000,
     m 54873803112611292080239030575457000, 62657493845800257036694631667822000, 42221236730845991783894824568658000,
     68647162444028217694604041543579000, 52451761844040940597972356337355000, 26425925713182225910709216974921000,
     m 42221236730845991783894824568658000, 10205732001759316438722275330467000,
     m 52451761844040940597972356337355000, m 10205732001759316438722275330467000,
     m 62657493845800257036694631667822000, m 26425925713182225910709216974921000,
     m 68647162444028217694604041543579000, 79151680103462485387156047337526000, 63964292679575040433963909286056000,
     76848884734188719390457335364592000, m 63964292679575040433963909286056000,
     m 76848884734188719390457335364592000, m 79151680103462485387156047337526000,
     15187387423887444953192138051470000, m 15187387423887444953192138051470000, 0,
     89037304390288533172340646363686000, 81991605544320127351297764941668000, m 81991605544320127351297764941668000,
     m 89037304390288533172340646363685000, 7045698845968405821042881422017700, m 7045698845968405821042881422017800,
     94704402112766222486169064973683000, 0, m 94704402112766222486169064973683000],
    [0, 21830502384792743549483327074518000, m 43661004769585487098966654149036000,
     482483010895461997887182532009500, 482483010895461997887182532009100, 21830502384792743549483327074518000,
     m 24542760164407296072916507862054000, m 24542760164407296072916507862054000,
     m 22241339893162715758625388904021000, 24060277153511834075029325330045000, 24060277153511834075029325330045000,
     m 50449846949264232666571801631269, m 43449183582839001813473460242920000, 44482679786325431517250777808043000,
     m 22241339893162715758625388904022000, 43499633429788266046140032044551000,
     m 43449183582839001813473460242920000, 43499633429788266046140032044551000, m 50449846949264232666571801631078,
     14918459905768125499570812591462000, m 54981337450671043212360903474340000, 40062877544902917712790090882878000,
     m 54981337450671043212360903474340000, 40062877544902917712790090882878000, 14918459905768125499570812591461000,
     m 24390756701634258988418900167204000, m 54890473040254470931193669006158000,
     m 9119427067982036905821002872285200, m 42067603057113017645503470382124000,
     64009900108236507837014671878442000, m 54890473040254470931193669006158000, 66458359758747276633922370549328000,
     m 42067603057113017645503470382124000, 66458359758747276633922370549328000,
     m 24390756701634258988418900167204000, 64009900108236507837014671878443000,
     m 9119427067982036905821002872285000, m 28161359379608104980286843915852000,
     m 54466686032013764942085229009376000, m 44368724288206379156242047385715000,
     m 54466686032013764942085229009376000, m 44368724288206379156242047385715000,
     m 28161359379608104980286843915852000, 82628045411621869922372072925228000, 82628045411621869922372072925228000,
     88737448576412758312484094771430000, m 43270039406953943136612028373603000,
     m 55473547783000627225956807468872000, m 55473547783000627225956807468872000,
     m 43270039406953943136612028373603000, 98743587189954570362568835842475000, 98743587189954570362568835842475000,
     m 54677612053248141539518698378250000, 109355224106496283079037396756500000,
     m 54677612053248141539518698378250000],
    []],
   [20413121641456104921146010905766000, 9399077933035774632762761164580800, 9399077933035774632762761164580800,
    15752650466200850672413820594880000, 15752650466200850672413820594880000, 9399077933035774632762761164580700,
    15752650466200850672413820594880000, 15752650466200850672413820594880000, 14573070396618360905603329055864000,
    15752650466200850672413820594880000, 15752650466200850672413820594880000, 11499818271760449118004500167037000,
    11499818271760449118004500167037000, 14573070396618360905603329055864000, 14573070396618360905603329055863000,
    11499818271760449118004500167037000, 11499818271760449118004500167037000, 11499818271760449118004500167037000,
    11499818271760449118004500167037000, 5344796864733230797756559723382300, 5344796864733230797756559723382300,
    5344796864733230797756559723382300, 5344796864733230797756559723382200, 5344796864733230797756559723382300,
    5344796864733230797756559723382300, 11771363102141070112915130214051000, 4885711631677081108047904301154400,
    4885711631677081108047904301154500, 11771363102141070112915130214051000, 4885711631677081108047904301154400,
    4885711631677081108047904301154300, 11771363102141070112915130214051000, 11771363102141070112915130214051000,
    11771363102141070112915130214051000, 11771363102141070112915130214051000, 4885711631677081108047904301154400,
    4885711631677081108047904301154400, 4093574438735401121265682097262300, 4093574438735401121265682097262300,
    7537748853533910880001256305193700, 4093574438735401121265682097262300, 7537748853533910880001256305193700,
    4093574438735401121265682097262200, 4093574438735401121265682097262300, 4093574438735401121265682097262300,
    7537748853533910880001256305193700, 2586752209767304203623563959769900, 2586752209767304203623563959769900,
    2586752209767304203623563959770000, 2586752209767304203623563959770000, 2586752209767304203623563959770000,
    2586752209767304203623563959770000, 1783532096614320472767211188275400, 1783532096614320472767211188275400,
    1783532096614320472767211188275400]⟩

/-- `triangle_data[10]` (vr_quad_data_tri.py 803-1012). -/
def vrTri_10 : TableRule :=
  ⟨17,
   [
    [14053768755130206658828618391664000, m 14053768755130206658828618391664000, 0, 0,
     25253108180892151157510287230937000, m 25253108180892151157510287230937000, 27653066905149215797530175701768000,
     m 27653066905149215797530175701768000, 39639932929578666884731093942653000,
     m 39639932929578666884731093942653000, 11986866024429451087200918240886000,
     m 11986866024429451087200918240886000, 10468787213559627193812897063098000,
     m 10468787213559627193812897063097000, 44730168313757441375993348512807000, 34261381100197814182180451449712000,
     m 34261381100197814182180451449712000, m 44730168313757441375993348512808000,
     47881252626134275156553235337071000, 0, 51015615497435863868326775030967000,
     34878244540743420308578801206349000, 57391276258635003910951681880859000, 25702375453663387322606113059203000,
     60931331831206290975267860508589000, m 34878244540743420308578801206350000,
     m 51015615497435863868326775030966000, m 25702375453663387322606113059203000,
     m 57391276258635003910951681880860000, m 47881252626134275156553235337071000,
     22513031717891583602372880674511000, 0, 35228956377542903652661747449388000,
     m 22513031717891583602372880674511000, m 35228956377542903652661747449388000,
     m 60931331831206290975267860508590000, 50029442031897347474165480909485000,
     m 50029442031897347474165480909484000, 59623504472920704718527558494493000,
     m 59623504472920704718527558494494000, 69154830009040688619749981905490000, 73005468624972210976461526427474000,
     m 69154830009040688619749981905490000, m 73005468624972210976461526427475000,
     22976026593074863502296045517988000, 9531325536119983901222423410994900, m 9531325536119983901222423410995100,
     m 22976026593074863502296045517989000, 69914099608928100469333013513085000,
     m 69914099608928100469333013513084000, 82853927736516455073423784206057000, 79419074530456794800392879888610000,
     m 79419074530456794800392879888610000, m 82853927736516455073423784206057000,
     12939828127588354604090770692968000, m 12939828127588354604090770692969000, 0,
     90915805900265182902891027226230000, 85693828482943123575327237914906000, m 85693828482943123575327237914906000,
     m 90915805900265182902891027226229000, 95985867197873597318174667753933000,
     m 95985867197873597318174667753933000, 5221977417322059327563789311320700, m 5221977417322059327563789311321400,
     0],
    [m 8113947173903176588926647633615100, m 8113947173903176588926647633615600, 16227894347806353177853295267229000,
     m 29159777612225648151622278604161000, 14579888806112824075811139302080000, 14579888806112824075811139302080000,
     m 29806746273495276760092593645161000, m 29806746273495276760092593645161000,
     m 9044885295662308388085689200222300, m 9044885295662308388085689200222700, 38851631569157585148178282845383000,
     38851631569157585148178282845384000, m 45605792317852692097858857208222000,
     m 45605792317852692097858857208222000, 13736660485170001568815773157590000, 31869131832682690529043084050633000,
     31869131832682690529043084050632000, 13736660485170001568815773157588000, 27644254092835099326642427211329000,
     m 55288508185670198653284854422657000, m 29453879340319039905231898288137000,
     m 46132773719658386474093306462279000, m 7139058951860520204323671412069400,
     m 55518168282673343838972665057510000, 5500174060858592467596439487923900,
     m 46132773719658386474093306462279000, m 29453879340319039905231898288138000,
     m 55518168282673343838972665057510000, m 7139058951860520204323671412070700,
     27644254092835099326642427211329000, 53271832671518906678416977874346000, 58907758680638079810463796576277000,
     50017994221814751371376225569586000, 53271832671518906678416977874346000, 50017994221814751371376225569586000,
     5500174060858592467596439487922700, m 55414942101362256514427103275521000,
     m 55414942101362256514427103275522000, m 45429473085495278329741215518797000,
     m 45429473085495278329741215518797000, m 28920732993456797890084935814631000,
     m 15619296686102938749577329218793000, m 28920732993456797890084935814631000,
     m 15619296686102938749577329218794000, 71034238787465195264004432494313000, 74350206078952076219826151333427000,
     74350206078952076219826151333426000, 71034238787465195264004432494311000, m 55306550734826203502440460211451000,
     m 55306550734826203502440460211451000, m 32894110976634320542690088540335000,
     m 45852624058950181895331566438166000, m 45852624058950181895331566438166000,
     m 32894110976634320542690088540335000, 88200661711460524045130548751787000, 88200661711460524045130548751784000,
     91705248117900363790663132876330000, m 46460444874923794375297262976920000,
     m 55505175077702907392533618901215000, m 55505175077702907392533618901215000,
     m 46460444874923794375297262976919000, m 55417466265091991089116230312826000,
     m 55417466265091991089116230312826000, 101965619952626701767830881878140000,
     101965619952626701767830881878130000, 110834932530183982178232460625650000],
    []],
   [16782939961798108499438738634663000, 16782939961798108499438738634663000, 16782939961798108499438738634663000,
    14254062876910436908239752699873000, 14254062876910436908239752699873000, 14254062876910436908239752699873000,
    13166869135483947298903608241799000, 13166869135483947298903608241799000, 13166869135483947298903608241798000,
    13166869135483947298903608241798000, 13166869135483947298903608241798000, 13166869135483947298903608241799000,
    7674763782746825453874583338415400, 7674763782746825453874583338415900, 7674763782746825453874583338415400,
    7674763782746825453874583338414400, 7674763782746825453874583338414800, 7674763782746825453874583338415700,
    4196394910563202034385827921203500, 4196394910563202034385827921204100, 10186792965144759595425818984437000,
    8840627424131564510898181274507200, 8840627424131564510898181274508300, 3834638220801903354890477837016100,
    3834638220801903354890477837016500, 8840627424131564510898181274507300, 10186792965144759595425818984437000,
    3834638220801903354890477837016100, 8840627424131564510898181274508000, 4196394910563202034385827921203800,
    8840627424131564510898181274508200, 10186792965144759595425818984437000, 3834638220801903354890477837016200,
    8840627424131564510898181274507800, 3834638220801903354890477837015900, 3834638220801903354890477837016700,
    3485679833512171483443345402713500, 3485679833512171483443345402713300, 8097050664728659550446641779270300,
    8097050664728659550446641779270200, 8097050664728659550446641779269800, 3485679833512171483443345402714300,
    8097050664728659550446641779269800, 3485679833512171483443345402714000, 3485679833512171483443345402714400,
    8097050664728659550446641779270100, 8097050664728659550446641779270400, 3485679833512171483443345402714000,
    2877297180883961922435970375368700, 2877297180883961922435970375368600, 2877297180883961922435970375368300,
    5495694697042290810620091501005000, 5495694697042290810620091501004800, 2877297180883961922435970375368100,
    2877297180883961922435970375368700, 2877297180883961922435970375368900, 5495694697042290810620091501005500,
    2032032230611868100568976504184600, 2032032230611868100568976504184900, 2032032230611868100568976504184900,
    2032032230611868100568976504184700, 1033334773057908267203750883177700, 1033334773057908267203750883177800,
    2032032230611868100568976504184700, 2032032230611868100568976504184900, 1033334773057908267203750883177400]⟩

/-- `triangle_data[11]` (vr_quad_data_tri.py 1013-1258). -/
def vrTri_11 : TableRule :=
  ⟨19,
   [
    [26427360326405010146944426135061000, 12385718874820048153057341962848000, 0, 0,
     m 26427360326405010146944426135057000, m 12385718874820048153057341962842000,
     m 22435291528717072984873190791939000, 35024091737596575505863208124883000, 22435291528717072984873190791942000,
     12588800208879502520990017332938000, m 35024091737596575505863208124879000,
     m 12588800208879502520990017332953000, 40024901695833349658264281308061000,
     m 40024901695833349658264281308072000, 0, 11848933195933342726862023439310000,
     m 11848933195933342726862023439310000, 32817940932664234478994293415356000,
     m 32817940932664234478994293415350000, 49980478728492652297900636435619000, 47849651664057497478767011944564000,
     36000718468124154751904988505254000, 42973424315451816610387061667737000, 53557483012590380926039063368404000,
     17162537795828417818906343020262000, m 36000718468124154751904988505260000,
     m 47849651664057497478767011944560000, m 17162537795828417818906343020264000,
     m 49980478728492652297900636435616000, m 42973424315451816610387061667738000,
     m 53557483012590380926039063368409000, 19764779125324695357946027527752000, 10584058697138564315652001700665000,
     31253435676428121474523260921346000, m 10584058697138564315652001700661000, 0,
     m 19764779125324695357946027527739000, m 31253435676428121474523260921340000,
     65510088708884485906819932175334000, 63127235592854168598776007870309000, 55151615620594722099419816509822000,
     43362456467529473240829980342554000, 34256653032456364432296671253983000, m 63127235592854168598776007870304000,
     m 65510088708884485906819932175332000, m 55151615620594722099419816509827000,
     m 43362456467529473240829980342556000, m 34256653032456364432296671253988000,
     19683392048703377872521398434811000, 7517301474560340228253920632471500, m 7517301474560340228253920632463300,
     m 19683392048703377872521398434815000, 76878478113352564525353333489535000,
     m 76878478113352564525353333489531000, m 73313220231134685326138576176554000,
     73313220231134685326138576176556000, m 65795918756574345097884655544085000, 65795918756574345097884655544079000,
     m 57195086064649186652831935054729000, 57195086064649186652831935054725000, 10867373265998159031179892326019000,
     m 10867373265998159031179892326038000, 0, 85272952548451568827878036327761000,
     74405579282453409796698144001758000, 83674834256361682127180672571251000, m 74405579282453409796698144001756000,
     m 85272952548451568827878036327764000, m 83674834256361682127180672571250000,
     4756610968233581626836879049983500, m 4756610968233581626836879049999100, 92442948739249250047565381868294000,
     87686337771015668420728502818325000, m 87686337771015668420728502818320000,
     m 92442948739249250047565381868299000, 0, 96428268978304975291755042105045000,
     m 96428268978304975291755042105045000],
    [m 15257843598421168817139391661751000, 7150898126484383538393755208960200,
     m 14301796252968767076787510417936000, 30515687196842337634278783323477000,
     m 15257843598421168817139391661739000, 7150898126484383538393755208968100, 27489315982194528286710718215879000,
     5684874414081534787886301683959300, 27489315982194528286710718215877000, m 33174190396276063074597019899842000,
     5684874414081534787886301683971800, m 33174190396276063074597019899839000, 23108387768377693187845865320082000,
     23108387768377693187845865320072000, m 46216775536755386375691730640146000, 48411033767464833012932969998934000,
     48411033767464833012932969998919000, 38765038664520260714181163494703000, 38765038664520260714181163494709000,
     9038651215324270346057877416378000, m 13944039728309404288486973319682000,
     m 34466994039155428724445996679253000, 37032136372349615335879411647920000, 18700008958614365755969143019232000,
     m 47803689879844531060239040911093000, m 34466994039155428724445996679242000,
     m 13944039728309404288486973319677000, m 47803689879844531060239040911090000,
     9038651215324270346057877416384100, 37032136372349615335879411647919000, 18700008958614365755969143019223000,
     61481852376982849128590251214206000, m 55732145330963981091848554667149000, 57600355200535013039266276234502000,
     m 55732145330963981091848554667148000, 63683600249586264040100523908576000, 61481852376982849128590251214220000,
     57600355200535013039266276234510000, m 1733908348937862230391834127453800,
     m 13624125365771861170424099745380000, m 31841800124793132020050261954281000,
     m 47857727011210987958166151468851000, m 55866446851597150808874442107058000,
     m 13624125365771861170424099745369000, m 1733908348937862230391834127450600,
     m 31841800124793132020050261954281000, m 47857727011210987958166151468847000,
     m 55866446851597150808874442107057000, 77407408369381877032916337485145000, 80314698841290873239792756872275000,
     80314698841290873239792756872292000, 77407408369381877032916337485141000, m 21657386637865186644541835656385000,
     m 21657386637865186644541835656378000, m 33647175375769961929886610782473000,
     m 33647175375769961929886610782481000, m 46667523465520911309906146089810000,
     m 46667523465520911309906146089810000, m 55750021731516690388374501828760000,
     m 55750021731516690388374501828761000, 92190443336377215596472112861392000, 92190443336377215596472112861357000,
     96619376164615473106918298349265000, m 36683800347426338347344542136154000,
     m 55506642988950877249127570725207000, m 48309688082307736553459149174639000,
     m 55506642988950877249127570725207000, m 36683800347426338347344542136155000,
     m 48309688082307736553459149174633000, 103997692055636675603929027861230000,
     103997692055636675603929027861190000, m 47879500093408360604347076342275000,
     m 56118191962228314999581951518923000, m 56118191962228314999581951518921000,
     m 47879500093408360604347076342282000, 111345774104228033748076085924750000,
     m 55672887052114016874038042962369000, m 55672887052114016874038042962371000],
    []],
   [13555215451378844655798556896040000, 14543140675710730378911493028871000, 14543140675710730378911493028871000,
    13555215451378844655798556896038000, 13555215451378844655798556896039000, 14543140675710730378911493028870000,
    10849621150538757062394596896860000, 10849621150538757062394596896862000, 10849621150538757062394596896865000,
    10849621150538757062394596896866000, 10849621150538757062394596896861000, 10849621150538757062394596896865000,
    3289827999357176056249367277981900, 3289827999357176056249367277980700, 3289827999357176056249367277982700,
    9340797554418697421594446196110400, 9340797554418697421594446196107400, 7459500693471566164618012636416000,
    7459500693471566164618012636422000, 7459500693471566164618012636422700, 9340797554418697421594446196104200,
    9340797554418697421594446196107100, 2950282500940320794473801265417700, 2950282500940320794473801265418700,
    7459500693471566164618012636417700, 9340797554418697421594446196106700, 9340797554418697421594446196108000,
    7459500693471566164618012636420100, 7459500693471566164618012636418400, 2950282500940320794473801265420100,
    2950282500940320794473801265417600, 7296151837692126369538843524253900, 2950282500940320794473801265416400,
    3085130164331790966485282414561100, 2950282500940320794473801265418900, 8599633920790114807519496785065600,
    7296151837692126369538843524258400, 3085130164331790966485282414562800, 3085130164331790966485282414562700,
    7296151837692126369538843524255000, 8599633920790114807519496785068100, 7296151837692126369538843524251100,
    3085130164331790966485282414561000, 7296151837692126369538843524254900, 3085130164331790966485282414560800,
    8599633920790114807519496785066500, 7296151837692126369538843524254800, 3085130164331790966485282414562800,
    2736058065405926444502333221405400, 6499092304012098237337197536835700, 6499092304012098237337197536831600,
    2736058065405926444502333221400600, 2736058065405926444502333221400200, 2736058065405926444502333221400800,
    6499092304012098237337197536832600, 6499092304012098237337197536832500, 6499092304012098237337197536835200,
    6499092304012098237337197536835600, 2736058065405926444502333221404200, 2736058065405926444502333221403800,
    2178632914303308254169110306474000, 2178632914303308254169110306471100, 3806332067646099959201814582650300,
    2178632914303308254169110306471600, 2178632914303308254169110306474000, 3806332067646099959201814582649600,
    2178632914303308254169110306472800, 2178632914303308254169110306472600, 3806332067646099959201814582650000,
    1284221860622051146947166740065500, 1284221860622051146947166740071600, 1284221860622051146947166740070200,
    1284221860622051146947166740065300, 1284221860622051146947166740067000, 1284221860622051146947166740069400,
    814008923962257884435240083496480, 814008923962257884435240083497000, 814008923962257884435240083496710]⟩

/-- `triangle_data[12]` (vr_quad_data_tri.py 1259-1543). -/
def vrTri_12 : TableRule :=
  ⟨20,
   [
    [0, 31197743874682493316405952658346000, 0, 23159249092173243693844953226525000,
     m 23159249092173243693844953226523000, m 31197743874682493316405952658347000,
     10902548045336982508174156740459000, m 12256701046836261185670796486065000, 35428352696617444247363819061472000,
     12256701046836261185670796486065000, m 10902548045336982508174156740459000, 0,
     m 35428352696617444247363819061471000, 20192321888374872888245356280351000, 21511093020495858840316962954555000,
     41703414908870731728562319234907000, m 21511093020495858840316962954556000,
     m 20192321888374872888245356280351000, m 41703414908870731728562319234906000,
     47168531101549306272128193341125000, 36955814642657920310176847152291000, 10212716458891385961951346188836000,
     m 10212716458891385961951346188834000, m 36955814642657920310176847152291000,
     m 47168531101549306272128193341126000, 48397802124170036239897643758983000, 52558118038968623864706766090148000,
     58170567905854028823342845906758000, 41108795785253488485424621903712000, 61194663749155227693925263160327000,
     31091521248698760641177287694349000, 27079046657155268182165558212408000, 0,
     11449322253715135379282144186437000, 36016658714765728409846176543126000, m 11449322253715135379282144186437000,
     25178005034389499284079086617200000, m 27079046657155268182165558212408000,
     m 48397802124170036239897643758982000, m 31091521248698760641177287694350000,
     m 41108795785253488485424621903711000, m 52558118038968623864706766090148000,
     m 58170567905854028823342845906757000, m 25178005034389499284079086617199000,
     m 36016658714765728409846176543126000, m 61194663749155227693925263160326000,
     71435255336334824271645194891381000, 68297991412123155511041213786393000, 60311801385665041051794124615185000,
     52352900749669709543064960570673000, 45893184271021049643254223379124000, 25542071065313774628390971512255000,
     15945090662453445967976253215718000, 0, m 15945090662453445967976253215718000,
     m 25542071065313774628390971512256000, m 45893184271021049643254223379122000,
     m 52352900749669709543064960570675000, m 60311801385665041051794124615185000,
     m 68297991412123155511041213786393000, m 71435255336334824271645194891379000,
     78501366469091053184283119523698000, 60058594477866687376002099318240000, 76800049932334971818122874161051000,
     70185198807733322953661687541315000, 18442771991224365808281020205458000, m 18442771991224365808281020205457000,
     6614851124601648864461186619734400, m 6614851124601648864461186619735100, m 60058594477866687376002099318238000,
     m 78501366469091053184283119523697000, m 70185198807733322953661687541317000,
     m 76800049932334971818122874161051000, 86443598587491174965776690739321000, 76091705943256581163958252966516000,
     84540837848462116186610531085402000, 10351892644234593801818437772806000, 0,
     m 10351892644234593801818437772804000, m 76091705943256581163958252966517000,
     m 86443598587491174965776690739321000, m 84540837848462116186610531085403000,
     93343806211458257947747327243320000, 89678637617904398640856480325155000, 97428768284410257985451821378170000,
     3665168593553859306890846918166600, m 3665168593553859306890846918165300, m 89678637617904398640856480325155000,
     m 93343806211458257947747327243320000, 0, m 97428768284410257985451821378170000],
    [0, 18012025824156935839014960181255000, m 36024051648313871678029920362507000,
     m 781820599939548245930308417717770, m 781820599939548245930308417717190, 18012025824156935839014960181253000,
     20447408346363501656672802075934000, m 19665587746423953410742493658218000,
     m 20454568966337085291703849127819000, m 19665587746423953410742493658217000,
     20447408346363501656672802075935000, 40909137932674170583407698255636000, m 20454568966337085291703849127817000,
     m 36496913169709533458731103995580000, 35735520301579974694616303159691000, 761392868129558764114800835890050,
     35735520301579974694616303159690000, m 36496913169709533458731103995581000, 761392868129558764114800835889930,
     15440134935362200477585689954436000, 33129078725456990357029327775675000, m 48569213660819190834615017730109000,
     m 48569213660819190834615017730109000, 33129078725456990357029327775675000, 15440134935362200477585689954435000,
     27942484084575812053202901075108000, m 17123905027456248493005168144362000,
     m 2316603285544169058404862732402600, m 36954712883119866931222085606309000, 6257699620018343897358505759139200,
     m 49218887916265258411252072976751000, 51535491201809427469656935709153000,
     m 55884968169151624106405802150218000, 54078617910576115424227253750670000, 49867283572805934245057526888441000,
     54078617910576115424227253750670000, m 56124983192824278142416032647581000, 51535491201809427469656935709154000,
     27942484084575812053202901075109000, m 49218887916265258411252072976751000,
     m 36954712883119866931222085606308000, m 17123905027456248493005168144361000,
     m 2316603285544169058404862732402400, m 56124983192824278142416032647581000,
     49867283572805934245057526888442000, 6257699620018343897358505759140200, m 11749720687623642965332753119146000,
     m 21020058954459082058144649610552000, m 34821034765324955641830052962122000,
     m 48637766113120537768015087965347000, m 55989885503282020277374858682557000,
     67739606190905663242707611801704000, 69657825067579619826159737575897000, 69642069530649911283660105924244000,
     69657825067579619826159737575896000, 67739606190905663242707611801704000, m 55989885503282020277374858682557000,
     m 48637766113120537768015087965346000, m 34821034765324955641830052962122000,
     m 21020058954459082058144649610551000, m 11749720687623642965332753119144000,
     m 24026906315210625418614842033408000, m 55970724436419459350422699953710000,
     m 36702357347334174577346477812726000, m 48159615579648356651417480452243000,
     79997630751630084769037541987117000, 79997630751630084769037541987118000, 84861972926982531228763958264969000,
     84861972926982531228763958264967000, m 55970724436419459350422699953709000,
     m 24026906315210625418614842033406000, m 48159615579648356651417480452243000,
     m 36702357347334174577346477812726000, m 37954898904666084195961773295668000,
     m 55884902918978932958057452189329000, m 48809675489326105025907453820491000,
     93839801823645017154019225484994000, 97619350978652210051814907640982000, 93839801823645017154019225484997000,
     m 55884902918978932958057452189329000, m 37954898904666084195961773295667000,
     m 48809675489326105025907453820491000, m 49659899495142321256586597769787000,
     m 56008157717483369456874066333188000, m 56250525595817935625376010176970000,
     105668057212625690713460664102970000, 105668057212625690713460664102980000,
     m 56008157717483369456874066333188000, m 49659899495142321256586597769787000,
     112501051191635871250752020353940000, m 56250525595817935625376010176970000],
    []],
   [12738549441256562814034707748279000, 7601429382340928704634239595162300, 7601429382340928704634239595162000,
    11666988683188333661770319927333000, 11666988683188333661770319927332000, 7601429382340928704634239595161700,
    11666988683188333661770319927332000, 11666988683188333661770319927332000, 10223907344734270977466584574959000,
    11666988683188333661770319927332000, 11666988683188333661770319927332000, 10223907344734270977466584574959000,
    10223907344734270977466584574959000, 8054644355501121609491052355836900, 8054644355501121609491052355836100,
    8054644355501121609491052355837200, 8054644355501121609491052355836900, 8054644355501121609491052355836700,
    8054644355501121609491052355836600, 5401716437951771512029657892841100, 5401716437951771512029657892840400,
    5401716437951771512029657892840600, 5401716437951771512029657892841000, 5401716437951771512029657892840900,
    5401716437951771512029657892841000, 3174902903170492869149196581231300, 7887232817558554891189028602042500,
    5519958086549235207675225503880100, 7887232817558554891189028602042200, 2632547334469417795163339865607400,
    5519958086549235207675225503879600, 5519958086549235207675225503879700, 3174902903170492869149196581231300,
    7887232817558554891189028602042000, 2632547334469417795163339865607600, 7887232817558554891189028602042600,
    2632547334469417795163339865607400, 5519958086549235207675225503879700, 3174902903170492869149196581231300,
    5519958086549235207675225503880100, 7887232817558554891189028602042500, 7887232817558554891189028602042500,
    5519958086549235207675225503880000, 2632547334469417795163339865607300, 2632547334469417795163339865607500,
    2632547334469417795163339865607400, 1894832855737730031149853778660000, 5260478147333017400968360430604400,
    7637004587936125717601845895836600, 5260478147333017400968360430604100, 1894832855737730031149853778660100,
    1894832855737730031149853778660400, 5260478147333017400968360430604700, 7637004587936125717601845895836700,
    5260478147333017400968360430604200, 1894832855737730031149853778660300, 1894832855737730031149853778659900,
    5260478147333017400968360430604600, 7637004587936125717601845895836800, 5260478147333017400968360430604500,
    1894832855737730031149853778659900, 1764902379619319558144198471183600, 1764902379619319558144198471183500,
    4558922198441735898323488169752100, 4558922198441735898323488169752300, 1764902379619319558144198471183000,
    1764902379619319558144198471183600, 4558922198441735898323488169752300, 4558922198441735898323488169752300,
    1764902379619319558144198471184000, 1764902379619319558144198471183800, 4558922198441735898323488169752200,
    4558922198441735898323488169752200, 1966644353221169934616103897663100, 1966644353221169934616103897663100,
    2921641300156312464027603320094200, 1966644353221169934616103897663000, 2921641300156312464027603320094100,
    1966644353221169934616103897663000, 1966644353221169934616103897663200, 1966644353221169934616103897663200,
    2921641300156312464027603320094000, 1246368152220263479619535531254600, 1246368152220263479619535531254500,
    451596861311515835066182060883910, 1246368152220263479619535531254800, 1246368152220263479619535531254400,
    1246368152220263479619535531254500, 1246368152220263479619535531254500, 451596861311515835066182060884040,
    451596861311515835066182060883950]⟩

/-- `triangle_data[13]` (vr_quad_data_tri.py 1544-1870). -/
def vrTri_13 : TableRule :=
  ⟨22,
   [
    [m 98254259598751560000000000000000000, m 92791596948068310000000000000000000,
     m 83312913839103570000000000000000000, m 70216326910233380000000000000000000,
     m 53605693240966750000000000000000000, m 33625526460356820000000000000000000,
     m 11442733222700780000000000000000000, 11442733222701530000000000000000000, 33625526460357050000000000000000000,
     53605693240966540000000000000000000, 70216326910233290000000000000000000, 83312913839103600000000000000000000,
     92791596948067170000000000000000000, 98254259598751290000000000000000000, m 95314544732376110000000000000000000,
     m 88892724129551390000000000000000000, m 78037544793239560000000000000000000,
     m 62752126591859050000000000000000000, m 44013537581354590000000000000000000,
     m 22671434280464060000000000000000000, 8938917188650806000, 22671434280463960000000000000000000,
     44013537581354310000000000000000000, 62752126591858970000000000000000000, 78037544793240880000000000000000000,
     88892724129552040000000000000000000, 95314544732377070000000000000000000, m 90517996816433900000000000000000000,
     m 82918631984703160000000000000000000, m 69958010727004980000000000000000000,
     m 53217912323348230000000000000000000, m 33531048539185890000000000000000000,
     m 11475314340442460000000000000000000, 11475314340442630000000000000000000, 33531048539185820000000000000000000,
     53217912323347430000000000000000000, 69958010727004470000000000000000000, 82918631984701800000000000000000000,
     90517996816433700000000000000000000, m 83862951973572040000000000000000000,
     m 74848124222895560000000000000000000, m 60909187249881310000000000000000000,
     m 43647989833695780000000000000000000, m 22915025601037720000000000000000000, 42151116727133490000,
     22915025601037890000000000000000000, 43647989833695750000000000000000000, 60909187249881690000000000000000000,
     74848124222895500000000000000000000, 83862951973572100000000000000000000, m 75534562629807420000000000000000000,
     m 65396088558779950000000000000000000, m 50805778207433430000000000000000000,
     m 32618955729251570000000000000000000, m 11254048993945930000000000000000000,
     11254048993945960000000000000000000, 32618955729251220000000000000000000, 50805778207433360000000000000000000,
     65396088558780110000000000000000000, 75534562629807720000000000000000000, m 65530672445543730000000000000000000,
     m 54605056789089630000000000000000000, m 39473841604599050000000000000000000,
     m 20827975916461600000000000000000000, 165088930848863900000, 20827975916461450000000000000000000,
     39473841604598890000000000000000000, 54605056789089720000000000000000000, 65530672445543930000000000000000000,
     m 54413937064670220000000000000000000, m 43185008433227870000000000000000000,
     m 27998527264156430000000000000000000, m 9703930128213939000000000000000000, 9703930128213846000000000000000000,
     27998527264156430000000000000000000, 43185008433227860000000000000000000, 54413937064670170000000000000000000,
     m 42971203841969060000000000000000000, m 31933622508625620000000000000000000,
     m 17274729668246970000000000000000000, m 391972169872459400000, 17274729668247280000000000000000000,
     31933622508625640000000000000000000, 42971203841968970000000000000000000, m 31905145985186720000000000000000000,
     m 21382550977425290000000000000000000, m 7691274926532071000000000000000000, 7691274926532407000000000000000000,
     21382550977425260000000000000000000, 31905145985186880000000000000000000, m 21928869388840630000000000000000000,
     m 12095997631036600000000000000000000, 795939096936500600000, 12095997631036120000000000000000000,
     21928869388840990000000000000000000, m 13646625063338810000000000000000000,
     m 4881087191464658000000000000000000, 4881087191464119000000000000000000, 13646625063338990000000000000000000,
     m 7205082977330277000000000000000000, m 1501836395852960000000, 7205082977330659000000000000000000,
     m 2522947784306911000000000000000000, 2522947784307261000000000000000000, 537655885353770300000],
    [m 56727123228366770000000000000000000, m 56486502641344800000000000000000000,
     m 56420446424969300000000000000000000, m 56297180550826980000000000000000000,
     m 56270538712111180000000000000000000, m 56254595999693700000000000000000000,
     m 56225337317517800000000000000000000, m 56225337317517810000000000000000000,
     m 56254595999693730000000000000000000, m 56270538712111200000000000000000000,
     m 56297180550826980000000000000000000, m 56420446424969420000000000000000000,
     m 56486502641344310000000000000000000, m 56727123228367150000000000000000000,
     m 52116628894081810000000000000000000, m 51322238205195310000000000000000000,
     m 50691191501134380000000000000000000, m 50197212156823010000000000000000000,
     m 50101670896137430000000000000000000, m 49963129787850620000000000000000000,
     m 49865752487760850000000000000000000, m 49963129787850760000000000000000000,
     m 50101670896137590000000000000000000, m 50197212156823000000000000000000000,
     m 50691191501134880000000000000000000, m 51322238205194090000000000000000000,
     m 52116628894082470000000000000000000, m 43940876635483140000000000000000000,
     m 42236900489343920000000000000000000, m 40390276325207310000000000000000000,
     m 39606495304084570000000000000000000, m 39306299548590360000000000000000000,
     m 38955190329237740000000000000000000, m 38955190329237910000000000000000000,
     m 39306299548590740000000000000000000, m 39606495304084550000000000000000000,
     m 40390276325207860000000000000000000, m 42236900489342830000000000000000000,
     m 43940876635483130000000000000000000, m 32660532589281400000000000000000000,
     m 29246329691635330000000000000000000, m 26284816356350450000000000000000000,
     m 25200178680069800000000000000000000, m 24435129542689300000000000000000000,
     m 24050075004088410000000000000000000, m 24435129542689750000000000000000000,
     m 25200178680069850000000000000000000, m 26284816356351070000000000000000000,
     m 29246329691635280000000000000000000, m 32660532589281540000000000000000000,
     m 18288622778097390000000000000000000, m 13066006207805240000000000000000000,
     m 9385590076168800000000000000000000, m 7627429527524318000000000000000000,
     m 6497528216127921000000000000000000, m 6497528216128187000000000000000000,
     m 7627429527524277000000000000000000, m 9385590076169102000000000000000000,
     m 13066006207805670000000000000000000, m 18288622778097940000000000000000000,
     m 993262130448130600000000000000000, 5347526866814350000000000000000000, 9539681429383898000000000000000000,
     12025037502043980000000000000000000, 12995056432255540000000000000000000, 12025037502044380000000000000000000,
     9539681429383982000000000000000000, 5347526866814024000000000000000000, m 993262130448511800000000000000000,
     18202970999171490000000000000000000, 24932876243880510000000000000000000, 29415508899853900000000000000000000,
     32062559070213390000000000000000000, 32062559070214220000000000000000000, 29415508899854210000000000000000000,
     24932876243880560000000000000000000, 18202970999171560000000000000000000, 38022366318346220000000000000000000,
     44615602921036450000000000000000000, 48691889624759500000000000000000000, 50400357360140140000000000000000000,
     48691889624759290000000000000000000, 44615602921036650000000000000000000, 38022366318346410000000000000000000,
     57247858130141800000000000000000000, 63167677103942830000000000000000000, 65891311660436190000000000000000000,
     65891311660434220000000000000000000, 63167677103942840000000000000000000, 57247858130141560000000000000000000,
     74559161490208570000000000000000000, 79443541848458340000000000000000000, 80780552650414300000000000000000000,
     79443541848458600000000000000000000, 74559161490207880000000000000000000, 88957713140108350000000000000000000,
     92928091990476400000000000000000000, 92928091990480190000000000000000000, 88957713140107980000000000000000000,
     100361323060452400000000000000000000, 102644476410391300000000000000000000,
     100361323060452500000000000000000000, 108603131535428100000000000000000000,
     108603131535425300000000000000000000, 113454246456733400000000000000000000],
    []],
   [213652285257276900000000000000000, 625696157911199900000000000000000, 1002850344631184000000000000000000,
    1430579772532512000000000000000000, 1814627863116503000000000000000000, 2126781817964112000000000000000000,
    2314482496409111000000000000000000, 2314482496409053000000000000000000, 2126781817963999000000000000000000,
    1814627863116457000000000000000000, 1430579772532544000000000000000000, 1002850344631053000000000000000000,
    625696157911382700000000000000000, 213652285257283500000000000000000, 625696157911118500000000000000000,
    1522288958798713000000000000000000, 2683567162881997000000000000000000, 3758541016429025000000000000000000,
    4525212264149067000000000000000000, 5067341109316087000000000000000000, 5279285518281329000000000000000000,
    5067341109315953000000000000000000, 4525212264148970000000000000000000, 3758541016429198000000000000000000,
    2683567162882085000000000000000000, 1522288958798741000000000000000000, 625696157910934800000000000000000,
    1002850344631337000000000000000000, 2683567162882019000000000000000000, 4602106505669317000000000000000000,
    5975771771828680000000000000000000, 7080355942521726000000000000000000, 7811959201388597000000000000000000,
    7811959201388512000000000000000000, 7080355942521471000000000000000000, 5975771771828566000000000000000000,
    4602106505669305000000000000000000, 2683567162881975000000000000000000, 1002850344631489000000000000000000,
    1430579772532468000000000000000000, 3758541016428882000000000000000000, 5975771771828660000000000000000000,
    7873658000752331000000000000000000, 9489828540747137000000000000000000, 10096242727428070000000000000000000,
    9489828540747140000000000000000000, 7873658000752363000000000000000000, 5975771771828717000000000000000000,
    3758541016428670000000000000000000, 1430579772532427000000000000000000, 1814627863116408000000000000000000,
    4525212264148985000000000000000000, 7080355942521741000000000000000000, 9489828540746970000000000000000000,
    10964712210478430000000000000000000, 10964712210478450000000000000000000, 9489828540747060000000000000000000,
    7080355942521960000000000000000000, 4525212264148989000000000000000000, 1814627863116402000000000000000000,
    2126781817964041000000000000000000, 5067341109316018000000000000000000, 7811959201388544000000000000000000,
    10096242727427830000000000000000000, 10964712210478410000000000000000000, 10096242727427950000000000000000000,
    7811959201388666000000000000000000, 5067341109316147000000000000000000, 2126781817964116000000000000000000,
    2314482496409079000000000000000000, 5279285518281303000000000000000000, 7811959201388603000000000000000000,
    9489828540746975000000000000000000, 9489828540747050000000000000000000, 7811959201388504000000000000000000,
    5279285518281366000000000000000000, 2314482496409137000000000000000000, 2314482496409109000000000000000000,
    5067341109316084000000000000000000, 7080355942521932000000000000000000, 7873658000752322000000000000000000,
    7080355942521524000000000000000000, 5067341109316000000000000000000000, 2314482496409063000000000000000000,
    2126781817964101000000000000000000, 4525212264149032000000000000000000, 5975771771828729000000000000000000,
    5975771771828619000000000000000000, 4525212264149043000000000000000000, 2126781817964008000000000000000000,
    1814627863116444000000000000000000, 3758541016428754000000000000000000, 4602106505669299000000000000000000,
    3758541016429198000000000000000000, 1814627863116470000000000000000000, 1430579772532476000000000000000000,
    2683567162881992000000000000000000, 2683567162882044000000000000000000, 1430579772532575000000000000000000,
    1002850344631470000000000000000000, 1522288958798709000000000000000000, 1002850344631105000000000000000000,
    625696157910935000000000000000000, 625696157911349500000000000000000, 213652285257251700000000000000000]⟩

/-- `triangle_data[14]` (vr_quad_data_tri.py 1871-2242). -/
def vrTri_14 : TableRule :=
  ⟨24,
   [
    [m 98595865678458760000000000000000000, m 93394807083824100000000000000000000,
     m 85153646724845030000000000000000000, m 73739043422810850000000000000000000,
     m 59377250104845970000000000000000000, m 41381203952580840000000000000000000,
     m 21098507893382380000000000000000000, m 62898097436180280000, 21098507893382260000000000000000000,
     41381203952580790000000000000000000, 59377250104846090000000000000000000, 73739043422810830000000000000000000,
     85153646724844440000000000000000000, 93394807083823830000000000000000000, 98595865678458700000000000000000000,
     m 95582665496859450000000000000000000, m 89244527521478270000000000000000000,
     m 81926387129565460000000000000000000, m 68241084510236070000000000000000000,
     m 51388892622060810000000000000000000, m 31798227563569840000000000000000000,
     m 10728997547997160000000000000000000, 10728997547996720000000000000000000, 31798227563569360000000000000000000,
     51388892622060460000000000000000000, 68241084510236090000000000000000000, 81926387129565480000000000000000000,
     89244527521478260000000000000000000, 95582665496859410000000000000000000, m 91882922184633350000000000000000000,
     m 86569727999214480000000000000000000, m 75670809363478050000000000000000000,
     m 59675899805671390000000000000000000, m 41790739001118590000000000000000000,
     m 21552725356194420000000000000000000, 134635447778607800000, 21552725356194530000000000000000000,
     41790739001118470000000000000000000, 59675899805671360000000000000000000, 75670809363478070000000000000000000,
     86569727999214620000000000000000000, 91882922184633810000000000000000000, m 85779611521307680000000000000000000,
     m 78363624721320900000000000000000000, m 65926121723868210000000000000000000,
     m 49815162125075520000000000000000000, m 31655358588322760000000000000000000,
     m 10875268964211050000000000000000000, 10875268964211190000000000000000000, 31655358588322580000000000000000000,
     49815162125075110000000000000000000, 65926121723867710000000000000000000, 78363624721320380000000000000000000,
     85779611521307660000000000000000000, m 78567556583883990000000000000000000,
     m 69867935854309780000000000000000000, m 56856483684449790000000000000000000,
     m 40437305172214300000000000000000000, m 21242457146481650000000000000000000, 320872747519673600000,
     21242457146482220000000000000000000, 40437305172214790000000000000000000, 56856483684450140000000000000000000,
     69867935854309810000000000000000000, 78567556583883880000000000000000000, m 69569054173646650000000000000000000,
     m 60021597038403000000000000000000000, m 46523691007063870000000000000000000,
     m 29608148962566220000000000000000000, m 10195658010900900000000000000000000,
     10195658010901050000000000000000000, 29608148962566390000000000000000000, 46523691007064150000000000000000000,
     60021597038403230000000000000000000, 69569054173646590000000000000000000, m 59409423617231130000000000000000000,
     m 49389679921327400000000000000000000, m 35591306666639060000000000000000000,
     m 18732879998355360000000000000000000, m 89124569481418170000, 18732879998355240000000000000000000,
     35591306666639090000000000000000000, 49389679921327590000000000000000000, 59409423617231130000000000000000000,
     m 48849137999318870000000000000000000, m 38660682373330560000000000000000000,
     m 24970965650869770000000000000000000, m 8781946583892241000000000000000000, 8781946583891979000000000000000000,
     24970965650869660000000000000000000, 38660682373330670000000000000000000, 48849137999318900000000000000000000,
     m 38310915723848910000000000000000000, m 28223369474833560000000000000000000,
     m 15065744683331630000000000000000000, m 101907195913247600000, 15065744683331440000000000000000000,
     28223369474833570000000000000000000, 38310915723848910000000000000000000, m 28187850221065770000000000000000000,
     m 18479043232248860000000000000000000, m 6250221918196253000000000000000000, 6250221918196113000000000000000000,
     18479043232248800000000000000000000, 28187850221065720000000000000000000, m 19190306479037520000000000000000000,
     m 10122540211083770000000000000000000, m 80606447398792290000, 10122540211083710000000000000000000,
     19190306479037430000000000000000000, m 12040568098496470000000000000000000,
     m 4643340869648831000000000000000000, 4643340869648813000000000000000000, 12040568098496380000000000000000000,
     m 6729275459789318000000000000000000, 191253815515147900000, 6729275459789113000000000000000000,
     m 2187858413035581000000000000000000, 2187858413035478000000000000000000, m 53867328776015180000],
    [m 56924349590442350000000000000000000, m 56447838298188530000000000000000000,
     m 56933778855388290000000000000000000, m 56476507035671430000000000000000000,
     m 56440528554780300000000000000000000, m 56439975067431760000000000000000000,
     m 56418864223874110000000000000000000, m 56406125947175790000000000000000000,
     m 56418864223874110000000000000000000, m 56439975067431750000000000000000000,
     m 56440528554780300000000000000000000, m 56476507035671430000000000000000000,
     m 56933778855388210000000000000000000, m 56447838298188610000000000000000000,
     m 56924349590442320000000000000000000, m 52658356367043920000000000000000000,
     m 51525351988226650000000000000000000, m 52661889865050370000000000000000000,
     m 51087511143280990000000000000000000, m 51007152157714870000000000000000000,
     m 50948255171046790000000000000000000, m 50835900373064930000000000000000000,
     m 50835900373064920000000000000000000, m 50948255171046740000000000000000000,
     m 51007152157714820000000000000000000, m 51087511143281030000000000000000000,
     m 52661889865050210000000000000000000, m 51525351988226680000000000000000000,
     m 52658356367044060000000000000000000, m 45278331860906520000000000000000000,
     m 44619387561957750000000000000000000, m 43688562155801100000000000000000000,
     m 41671031430868200000000000000000000, m 41524317908856500000000000000000000,
     m 41277459267078030000000000000000000, m 41097300969589220000000000000000000,
     m 41277459267077970000000000000000000, m 41524317908856360000000000000000000,
     m 41671031430868230000000000000000000, m 43688562155801000000000000000000000,
     m 44619387561957590000000000000000000, m 45278331860906990000000000000000000,
     m 35621631337082560000000000000000000, m 33554757196025460000000000000000000,
     m 30845329509972250000000000000000000, m 28760797262636760000000000000000000,
     m 28416748250700520000000000000000000, m 27909706083491870000000000000000000,
     m 27909706083491810000000000000000000, m 28416748250700340000000000000000000,
     m 28760797262636670000000000000000000, m 30845329509972140000000000000000000,
     m 33554757196025100000000000000000000, m 35621631337082640000000000000000000,
     m 23201942720269070000000000000000000, m 19000510404198030000000000000000000,
     m 15429682663465330000000000000000000, m 13205970578042730000000000000000000,
     m 12264338351770650000000000000000000, m 11772931794318220000000000000000000,
     m 12264338351770470000000000000000000, m 13205970578042590000000000000000000,
     m 15429682663465390000000000000000000, m 19000510404197940000000000000000000,
     m 23201942720268870000000000000000000, m 7617186328404182000000000000000000,
     m 2063945279846321000000000000000000, 1973521954285725000000000000000000, 4536593845750682000000000000000000,
     5886465897158658000000000000000000, 5886465897158809000000000000000000, 4536593845750900000000000000000000,
     1973521954285707000000000000000000, m 2063945279846460000000000000000000, m 7617186328404025000000000000000000,
     9937588294321486000000000000000000, 16126365752826260000000000000000000, 20548650484794460000000000000000000,
     23373112237740970000000000000000000, 24528676703540370000000000000000000, 23373112237741190000000000000000000,
     20548650484794530000000000000000000, 16126365752826040000000000000000000, 9937588294321524000000000000000000,
     28203062973587790000000000000000000, 34709534620238700000000000000000000, 39303937312792040000000000000000000,
     41622718828743230000000000000000000, 41622718828743280000000000000000000, 39303937312792130000000000000000000,
     34709534620238500000000000000000000, 28203062973587750000000000000000000, 46481275929552500000000000000000000,
     53012200450893150000000000000000000, 56954000572321760000000000000000000, 57521594525274570000000000000000000,
     56954000572321770000000000000000000, 53012200450893040000000000000000000, 46481275929552480000000000000000000,
     64057161395835960000000000000000000, 70007662561912950000000000000000000, 72516360940840960000000000000000000,
     72516360940841070000000000000000000, 70007662561912900000000000000000000, 64057161395836030000000000000000000,
     79642471275049450000000000000000000, 84642268339306540000000000000000000, 87377124311602110000000000000000000,
     84642268339306610000000000000000000, 79642471275049580000000000000000000, 92098138372754080000000000000000000,
     97281277427007820000000000000000000, 97281277427007500000000000000000000, 92098138372754280000000000000000000,
     102212110716295000000000000000000000, 103050703976452700000000000000000000,
     102212110716295100000000000000000000, 109106194665232400000000000000000000,
     109106194665232800000000000000000000, 113848699180884700000000000000000000],
    []],
   [154055614356095500000000000000000, 596178324702125800000000000000000, 574681989987539600000000000000000,
    1058549229776579000000000000000000, 1420648249390866000000000000000000, 1694963731153820000000000000000000,
    1850816826880023000000000000000000, 1897566336448255000000000000000000, 1850816826880029000000000000000000,
    1694963731153848000000000000000000, 1420648249390879000000000000000000, 1058549229776542000000000000000000,
    574681989987564800000000000000000, 596178324702124600000000000000000, 154055614356104700000000000000000,
    596178324702125300000000000000000, 1105564953945464000000000000000000, 1730958282987375000000000000000000,
    2927081620744745000000000000000000, 3639636942956808000000000000000000, 4099383565430112000000000000000000,
    4340405474280182000000000000000000, 4340405474280178000000000000000000, 4099383565430139000000000000000000,
    3639636942956890000000000000000000, 2927081620744784000000000000000000, 1730958282987368000000000000000000,
    1105564953945456000000000000000000, 596178324702133800000000000000000, 574681989987653500000000000000000,
    1730958282987309000000000000000000, 3569141070733967000000000000000000, 4836706771502406000000000000000000,
    5703270538345387000000000000000000, 6382713310111043000000000000000000, 6654628035026888000000000000000000,
    6382713310110990000000000000000000, 5703270538345391000000000000000000, 4836706771502444000000000000000000,
    3569141070733997000000000000000000, 1730958282987383000000000000000000, 574681989987578700000000000000000,
    1058549229776458000000000000000000, 2927081620744680000000000000000000, 4836706771502410000000000000000000,
    6208540728799279000000000000000000, 7503044602815588000000000000000000, 8391663703305283000000000000000000,
    8391663703305235000000000000000000, 7503044602815482000000000000000000, 6208540728799259000000000000000000,
    4836706771502411000000000000000000, 2927081620744755000000000000000000, 1058549229776549000000000000000000,
    1420648249390865000000000000000000, 3639636942956972000000000000000000, 5703270538345507000000000000000000,
    7503044602815513000000000000000000, 9146215357625047000000000000000000, 9730018704643734000000000000000000,
    9146215357625031000000000000000000, 7503044602815462000000000000000000, 5703270538345388000000000000000000,
    3639636942956859000000000000000000, 1420648249390875000000000000000000, 1694963731153879000000000000000000,
    4099383565430213000000000000000000, 6382713310110992000000000000000000, 8391663703305160000000000000000000,
    9730018704643719000000000000000000, 9730018704643722000000000000000000, 8391663703305176000000000000000000,
    6382713310110968000000000000000000, 4099383565430108000000000000000000, 1694963731153834000000000000000000,
    1850816826880038000000000000000000, 4340405474280176000000000000000000, 6654628035026823000000000000000000,
    8391663703305207000000000000000000, 9146215357625052000000000000000000, 8391663703305213000000000000000000,
    6654628035026845000000000000000000, 4340405474280142000000000000000000, 1850816826880002000000000000000000,
    1897566336448252000000000000000000, 4340405474280183000000000000000000, 6382713310111034000000000000000000,
    7503044602815600000000000000000000, 7503044602815592000000000000000000, 6382713310111059000000000000000000,
    4340405474280207000000000000000000, 1897566336448244000000000000000000, 1850816826880050000000000000000000,
    4099383565430194000000000000000000, 5703270538345487000000000000000000, 6208540728799271000000000000000000,
    5703270538345529000000000000000000, 4099383565430244000000000000000000, 1850816826880065000000000000000000,
    1694963731153876000000000000000000, 3639636942956906000000000000000000, 4836706771502384000000000000000000,
    4836706771502417000000000000000000, 3639636942956961000000000000000000, 1694963731153899000000000000000000,
    1420648249390866000000000000000000, 2927081620744674000000000000000000, 3569141070733962000000000000000000,
    2927081620744681000000000000000000, 1420648249390889000000000000000000, 1058549229776476000000000000000000,
    1730958282987322000000000000000000, 1730958282987254000000000000000000, 1058549229776467000000000000000000,
    574681989987535600000000000000000, 1105564953945472000000000000000000, 574681989987590200000000000000000,
    596178324702161300000000000000000, 596178324702123200000000000000000, 154055614356100900000000000000000]⟩

/-- `triangle_data[15]` (vr_quad_data_tri.py 2243-2662). -/
def vrTri_15 : TableRule :=
  ⟨25,
   [
    [m 98285698342529440000000000000000000, m 94229971386126650000000000000000000,
     m 87767240003996180000000000000000000, m 77777974669156310000000000000000000,
     m 64053561403129890000000000000000000, m 47487182140828830000000000000000000,
     m 29024776297360290000000000000000000, m 9724225887213769000000000000000000, 9724225887213799000000000000000000,
     29024776297360130000000000000000000, 47487182140828800000000000000000000, 64053561403130120000000000000000000,
     77777974669156030000000000000000000, 87767240003995370000000000000000000, 94229971386126510000000000000000000,
     98285698342529440000000000000000000, m 96391572968354770000000000000000000,
     m 91825171419876180000000000000000000, m 83044441924867290000000000000000000,
     m 70730430918284050000000000000000000, m 55492600240819610000000000000000000,
     m 38076151760795540000000000000000000, m 19291889125477990000000000000000000, m 258943929555778100000,
     19291889125477310000000000000000000, 38076151760795040000000000000000000, 55492600240819970000000000000000000,
     70730430918284630000000000000000000, 83044441924867700000000000000000000, 91825171419876080000000000000000000,
     96391572968354770000000000000000000, m 93007099673532430000000000000000000,
     m 86857450484043470000000000000000000, m 77003300268688250000000000000000000,
     m 63521320920805580000000000000000000, m 47458648235265360000000000000000000,
     m 29377718401559560000000000000000000, m 9947676468812618000000000000000000, 9947676468812877000000000000000000,
     29377718401559240000000000000000000, 47458648235265030000000000000000000, 63521320920805270000000000000000000,
     77003300268688290000000000000000000, 86857450484043060000000000000000000, 93007099673532880000000000000000000,
     m 87943251502400400000000000000000000, m 80295992853584760000000000000000000,
     m 69394622919453840000000000000000000, m 55143022661390280000000000000000000,
     m 38683844884271420000000000000000000, m 20026782533646350000000000000000000, 266934863073358600000,
     20026782533646670000000000000000000, 38683844884271680000000000000000000, 55143022661390290000000000000000000,
     69394622919454130000000000000000000, 80295992853584160000000000000000000, 87943251502400550000000000000000000,
     m 81028352252835730000000000000000000, m 72513046001786320000000000000000000,
     m 61125706917139740000000000000000000, m 46597768365325200000000000000000000,
     m 29494700817334910000000000000000000, m 10103140155057540000000000000000000,
     10103140155057010000000000000000000, 29494700817334370000000000000000000, 46597768365324320000000000000000000,
     61125706917139340000000000000000000, 72513046001785270000000000000000000, 81028352252835280000000000000000000,
     m 72736297594037500000000000000000000, m 63787464531331680000000000000000000,
     m 51989255255318580000000000000000000, m 36954356526239970000000000000000000,
     m 19289284465293710000000000000000000, 137032472286036800000, 19289284465294160000000000000000000,
     36954356526240200000000000000000000, 51989255255319040000000000000000000, 63787464531331600000000000000000000,
     72736297594037320000000000000000000, m 63501317003755030000000000000000000,
     m 54338011593375770000000000000000000, m 42107691534528900000000000000000000,
     m 26759109411866920000000000000000000, m 9186144310236617000000000000000000, 9186144310236670000000000000000000,
     26759109411866950000000000000000000, 42107691534529110000000000000000000, 54338011593376210000000000000000000,
     63501317003755330000000000000000000, m 53836287901163540000000000000000000,
     m 44640705309445030000000000000000000, m 32160015065716410000000000000000000,
     m 16927573992594170000000000000000000, m 98068440751651970000, 16927573992593860000000000000000000,
     32160015065716070000000000000000000, 44640705309445260000000000000000000, 53836287901164020000000000000000000,
     m 44112062013949430000000000000000000, m 35046122467898420000000000000000000,
     m 22611536853759750000000000000000000, m 7913923481054134000000000000000000, 7913923481054092000000000000000000,
     22611536853759280000000000000000000, 35046122467898400000000000000000000, 44112062013949800000000000000000000,
     m 34476540706394190000000000000000000, m 25711312770536840000000000000000000,
     m 13667058681874490000000000000000000, 221824665961738800000, 13667058681874290000000000000000000,
     25711312770536770000000000000000000, 34476540706394460000000000000000000, m 25249115453208240000000000000000000,
     m 17020445760966580000000000000000000, m 5873301998647497000000000000000000, 5873301998647471000000000000000000,
     17020445760966560000000000000000000, 25249115453208460000000000000000000, m 16974790849705490000000000000000000,
     m 9565561935300174000000000000000000, m 324755600750529400000, 9565561935300220000000000000000000,
     16974790849705670000000000000000000, m 10165276833244070000000000000000000,
     m 3813008559176926000000000000000000, 3813008559176809000000000000000000, 10165276833244330000000000000000000,
     m 5239859669536701000000000000000000, 344040455798088900000, 5239859669536901000000000000000000,
     m 2161601582227183000000000000000000, 2161601582227079000000000000000000, m 188180506586266200000],
    [m 56745274395549990000000000000000000, m 56899701856270220000000000000000000,
     m 56722908423783660000000000000000000, m 56642985244382540000000000000000000,
     m 56582141051681530000000000000000000, m 56571904599483970000000000000000000,
     m 56567542523577410000000000000000000, m 56550506190169930000000000000000000,
     m 56550506190169920000000000000000000, m 56567542523577390000000000000000000,
     m 56571904599483980000000000000000000, m 56582141051681580000000000000000000,
     m 56642985244382480000000000000000000, m 56722908423783640000000000000000000,
     m 56899701856270250000000000000000000, m 56745274395549860000000000000000000,
     m 53155698090132050000000000000000000, m 53015287437648770000000000000000000,
     m 52348613936150670000000000000000000, m 51881592847160550000000000000000000,
     m 51692185570712160000000000000000000, m 51672143167376250000000000000000000,
     m 51605953861558430000000000000000000, m 51546646454445810000000000000000000,
     m 51605953861558360000000000000000000, m 51672143167376200000000000000000000,
     m 51692185570712360000000000000000000, m 51881592847160530000000000000000000,
     m 52348613936150560000000000000000000, m 53015287437648660000000000000000000,
     m 53155698090132100000000000000000000, m 47647205251614100000000000000000000,
     m 45744289381961120000000000000000000, m 44457876138616980000000000000000000,
     m 43455956712809660000000000000000000, m 43181623352027270000000000000000000,
     m 43070787405935900000000000000000000, m 42878480397747830000000000000000000,
     m 42878480397747740000000000000000000, m 43070787405935730000000000000000000,
     m 43181623352027510000000000000000000, m 43455956712809720000000000000000000,
     m 44457876138617000000000000000000000, m 45744289381960280000000000000000000,
     m 47647205251614890000000000000000000, m 39036209296200360000000000000000000,
     m 35313553572274370000000000000000000, m 33283099242956700000000000000000000,
     m 31836838977482680000000000000000000, m 31472339961489080000000000000000000,
     m 31108747089505880000000000000000000, m 30898758044432120000000000000000000,
     m 31108747089505620000000000000000000, m 31472339961489200000000000000000000,
     m 31836838977482760000000000000000000, m 33283099242957140000000000000000000,
     m 35313553572273170000000000000000000, m 39036209296200450000000000000000000,
     m 27180940852136320000000000000000000, m 22211908745248210000000000000000000,
     m 19509583324995220000000000000000000, m 17765022405090630000000000000000000,
     m 17028773456555850000000000000000000, m 16440296468842670000000000000000000,
     m 16440296468842440000000000000000000, m 17028773456555750000000000000000000,
     m 17765022405090400000000000000000000, m 19509583324995790000000000000000000,
     m 22211908745247140000000000000000000, m 27180940852135680000000000000000000,
     m 12839153788354900000000000000000000, m 7138843119511875000000000000000000,
     m 3906456738007864000000000000000000, m 1789328885451292000000000000000000, m 529427797853178900000000000000000,
     7305431074051443000, m 529427797853063800000000000000000, m 1789328885450859000000000000000000,
     m 3906456738008296000000000000000000, m 7138843119511754000000000000000000,
     m 12839153788354650000000000000000000, 3147577649113589000000000000000000, 9095710861123058000000000000000000,
     12824299668253280000000000000000000, 15449379022215980000000000000000000, 16969724266695530000000000000000000,
     16969724266695460000000000000000000, 15449379022216430000000000000000000, 12824299668253520000000000000000000,
     9095710861122631000000000000000000, 3147577649113125000000000000000000, 19853826444618930000000000000000000,
     25773323227223020000000000000000000, 30054180729494240000000000000000000, 32898075974957100000000000000000000,
     34057546913111200000000000000000000, 32898075974957140000000000000000000, 30054180729494810000000000000000000,
     25773323227222770000000000000000000, 19853826444618160000000000000000000, 36696679745550350000000000000000000,
     42510243000435660000000000000000000, 46977244143943850000000000000000000, 49237362366579910000000000000000000,
     49237362366579760000000000000000000, 46977244143944160000000000000000000, 42510243000435540000000000000000000,
     36696679745549700000000000000000000, 53419964874463510000000000000000000, 58810986286888210000000000000000000,
     62691206677022530000000000000000000, 63673677954966090000000000000000000, 62691206677023050000000000000000000,
     58810986286888100000000000000000000, 53419964874462980000000000000000000, 69411058387838780000000000000000000,
     73904094315959860000000000000000000, 76739055955766190000000000000000000, 76739055955767180000000000000000000,
     73904094315960190000000000000000000, 69411058387838380000000000000000000, 83763081903817890000000000000000000,
     87195146419434380000000000000000000, 88915752277233610000000000000000000, 87195146419434740000000000000000000,
     83763081903817690000000000000000000, 95679194540583490000000000000000000, 98092903318111940000000000000000000,
     98092903318110910000000000000000000, 95679194540583050000000000000000000, 104370113675398700000000000000000000,
     106030574875297900000000000000000000, 104370113675397900000000000000000000,
     110055399946401700000000000000000000, 110055399946402700000000000000000000,
     113490548791099500000000000000000000],
    []],
   [183900112044060400000000000000000, 299064965235508100000000000000000, 538762943165160900000000000000000,
    880654544759771800000000000000000, 1186515677502570000000000000000000, 1385878279106105000000000000000000,
    1498516395902358000000000000000000, 1550859725249790000000000000000000, 1550859725249786000000000000000000,
    1498516395902373000000000000000000, 1385878279106116000000000000000000, 1186515677502524000000000000000000,
    880654544759753500000000000000000, 538762943165174400000000000000000, 299064965235547700000000000000000,
    183900112044070100000000000000000, 299064965235469100000000000000000, 934117399478926200000000000000000,
    1639241944671086000000000000000000, 2372041342204075000000000000000000, 2915928996951518000000000000000000,
    3257539269458767000000000000000000, 3457095885268818000000000000000000, 3522405450530094000000000000000000,
    3457095885268830000000000000000000, 3257539269458890000000000000000000, 2915928996951569000000000000000000,
    2372041342204079000000000000000000, 1639241944671025000000000000000000, 934117399478965800000000000000000,
    299064965235420400000000000000000, 538762943165333700000000000000000, 1639241944671058000000000000000000,
    2760738411384256000000000000000000, 3849036589072855000000000000000000, 4579220023168446000000000000000000,
    5109241094278086000000000000000000, 5423767359723752000000000000000000, 5423767359723667000000000000000000,
    5109241094277996000000000000000000, 4579220023168441000000000000000000, 3849036589072913000000000000000000,
    2760738411384234000000000000000000, 1639241944671186000000000000000000, 538762943165325500000000000000000,
    880654544759688300000000000000000, 2372041342203910000000000000000000, 3849036589072871000000000000000000,
    5086915027915862000000000000000000, 6033991753726089000000000000000000, 6827797472043587000000000000000000,
    7130547233124261000000000000000000, 6827797472043520000000000000000000, 6033991753726063000000000000000000,
    5086915027915885000000000000000000, 3849036589072779000000000000000000, 2372041342203940000000000000000000,
    880654544759721200000000000000000, 1186515677502447000000000000000000, 2915928996951533000000000000000000,
    4579220023168514000000000000000000, 6033991753725954000000000000000000, 7396329144663179000000000000000000,
    8217105601384368000000000000000000, 8217105601384339000000000000000000, 7396329144663158000000000000000000,
    6033991753726029000000000000000000, 4579220023168589000000000000000000, 2915928996951551000000000000000000,
    1186515677502531000000000000000000, 1385878279106077000000000000000000, 3257539269458897000000000000000000,
    5109241094278015000000000000000000, 6827797472043399000000000000000000, 8217105601384375000000000000000000,
    8722993876298772000000000000000000, 8217105601384393000000000000000000, 6827797472043400000000000000000000,
    5109241094278085000000000000000000, 3257539269458692000000000000000000, 1385878279106055000000000000000000,
    1498516395902379000000000000000000, 3457095885268837000000000000000000, 5423767359723649000000000000000000,
    7130547233124173000000000000000000, 8217105601384404000000000000000000, 8217105601384408000000000000000000,
    7130547233124150000000000000000000, 5423767359723799000000000000000000, 3457095885268735000000000000000000,
    1498516395902292000000000000000000, 1550859725249844000000000000000000, 3522405450530087000000000000000000,
    5423767359723704000000000000000000, 6827797472043501000000000000000000, 7396329144663208000000000000000000,
    6827797472043384000000000000000000, 5423767359723749000000000000000000, 3522405450530120000000000000000000,
    1550859725249807000000000000000000, 1550859725249846000000000000000000, 3457095885268772000000000000000000,
    5109241094278031000000000000000000, 6033991753726045000000000000000000, 6033991753725940000000000000000000,
    5109241094278013000000000000000000, 3457095885268822000000000000000000, 1550859725249864000000000000000000,
    1498516395902362000000000000000000, 3257539269458734000000000000000000, 4579220023168456000000000000000000,
    5086915027915828000000000000000000, 4579220023168487000000000000000000, 3257539269458815000000000000000000,
    1498516395902405000000000000000000, 1385878279106092000000000000000000, 2915928996951552000000000000000000,
    3849036589072869000000000000000000, 3849036589072852000000000000000000, 2915928996951540000000000000000000,
    1385878279106115000000000000000000, 1186515677502568000000000000000000, 2372041342204114000000000000000000,
    2760738411384267000000000000000000, 2372041342203977000000000000000000, 1186515677502517000000000000000000,
    880654544759774300000000000000000, 1639241944671107000000000000000000, 1639241944671111000000000000000000,
    880654544759734700000000000000000, 538762943165153800000000000000000, 934117399478950300000000000000000,
    538762943165312800000000000000000, 299064965235496000000000000000000, 299064965235433700000000000000000,
    183900112044065900000000000000000]⟩

/-- `triangle_data[16]` (vr_quad_data_tri.py 2663-3133). -/
def vrTri_16 : TableRule :=
  ⟨27,
   [
    [m 98191382467935220000000000000000000, m 94693644831589330000000000000000000,
     m 89580957205374480000000000000000000, m 80576988720902260000000000000000000,
     m 67774836253778760000000000000000000, m 52900534835399010000000000000000000,
     m 36453888882939680000000000000000000, m 18640787730294250000000000000000000, m 895532131349814400000,
     18640787730293390000000000000000000, 36453888882940430000000000000000000, 52900534835400180000000000000000000,
     67774836253778630000000000000000000, 80576988720901680000000000000000000, 89580957205382930000000000000000000,
     94693644831589360000000000000000000, 98191382467934660000000000000000000, m 97079628334336830000000000000000000,
     m 93225865580771840000000000000000000, m 84572603128483390000000000000000000,
     m 73640265183029490000000000000000000, m 60039423399835850000000000000000000,
     m 44835112694515050000000000000000000, m 27872357159181450000000000000000000,
     m 9455955274002762000000000000000000, 9455955274003159000000000000000000, 27872357159181550000000000000000000,
     44835112694512800000000000000000000, 60039423399827540000000000000000000, 73640265183017940000000000000000000,
     84572603128485830000000000000000000, 93225865580771590000000000000000000, 97079628334337440000000000000000000,
     m 93846271391618960000000000000000000, m 87871688731063600000000000000000000,
     m 79076384055216960000000000000000000, m 67745049585455620000000000000000000,
     m 53398481319343040000000000000000000, m 37036396591220390000000000000000000,
     m 18952846649735980000000000000000000, 515711961860357300000, 18952846649737910000000000000000000,
     37036396591224550000000000000000000, 53398481319345250000000000000000000, 67745049585444750000000000000000000,
     79076384055212150000000000000000000, 87871688731056240000000000000000000, 93846271391612070000000000000000000,
     m 89465045039808640000000000000000000, m 82392096963008780000000000000000000,
     m 72993105068867450000000000000000000, m 60033102820372740000000000000000000,
     m 44812717554987130000000000000000000, m 27911693254384850000000000000000000,
     m 9493048955172643000000000000000000, 9493048955172949000000000000000000, 27911693254389580000000000000000000,
     44812717554997940000000000000000000, 60033102820376740000000000000000000, 72993105068878870000000000000000000,
     82392096963017530000000000000000000, 89465045039809490000000000000000000, m 83003155920222270000000000000000000,
     m 75329076948374420000000000000000000, m 65364685064995400000000000000000000,
     m 51928780375966180000000000000000000, m 36580296966941980000000000000000000,
     m 19011969869888240000000000000000000, m 4352756771803228000000, 19011969869880620000000000000000000,
     36580296966938420000000000000000000, 51928780375956850000000000000000000, 65364685064992590000000000000000000,
     75329076948378430000000000000000000, 83003155920222680000000000000000000, m 75546014762152600000000000000000000,
     m 67720851851976620000000000000000000, m 57182195790956280000000000000000000,
     m 43365443614139320000000000000000000, m 27396075313763110000000000000000000,
     m 9377799851807074000000000000000000, 9377799851806070000000000000000000, 27396075313766080000000000000000000,
     43365443614136080000000000000000000, 57182195790952730000000000000000000, 67720851851976650000000000000000000,
     75546014762151750000000000000000000, m 67328568494568120000000000000000000,
     m 59226447116619590000000000000000000, m 48031545609003010000000000000000000,
     m 33915432166708860000000000000000000, m 17653819237202210000000000000000000, 418634783265720900000,
     17653819237206120000000000000000000, 33915432166709010000000000000000000, 48031545609002290000000000000000000,
     59226447116619480000000000000000000, 67328568494567480000000000000000000, m 58411346128014820000000000000000000,
     m 49959947880502450000000000000000000, m 38460773198551440000000000000000000,
     m 24422383211536610000000000000000000, m 8384105443878242000000000000000000, 8384105443882010000000000000000000,
     24422383211535930000000000000000000, 38460773198550910000000000000000000, 49959947880502480000000000000000000,
     58411346128015190000000000000000000, m 49084448772754810000000000000000000,
     m 40503992606499490000000000000000000, m 29078698959266370000000000000000000,
     m 15453750359751780000000000000000000, 3365103725798454000000, 15453750359750180000000000000000000,
     29078698959265180000000000000000000, 40503992606499350000000000000000000, 49084448772755810000000000000000000,
     m 39770558397720750000000000000000000, m 31354089957437870000000000000000000,
     m 20145799199732460000000000000000000, m 7116062820970284000000000000000000, 7116062820969220000000000000000000,
     20145799199732010000000000000000000, 31354089957437920000000000000000000, 39770558397721270000000000000000000,
     m 30874679611627840000000000000000000, m 22885739157461830000000000000000000,
     m 11966203745649330000000000000000000, m 3660502080806324000000, 11966203745650460000000000000000000,
     22885739157463700000000000000000000, 30874679611627370000000000000000000, m 22645479926753030000000000000000000,
     m 15289653548542840000000000000000000, m 5248055483422171000000000000000000, 5248055483421986000000000000000000,
     15289653548546720000000000000000000, 22645479926752240000000000000000000, m 15228319666444040000000000000000000,
     m 8751831779987986000000000000000000, 4948708344972005000000, 8751831779990450000000000000000000,
     15228319666443580000000000000000000, m 8888056318907052000000000000000000, m 3299085602573462000000000000000000,
     3299085602578422000000000000000000, 8888056318906934000000000000000000, m 4265314186237629000000000000000000,
     288705851011577200000, 4265314186236573000000000000000000, m 2385983502747716000000000000000000,
     2385983502746954000000000000000000, 501727928634605200000],
    [m 56690821099963250000000000000000000, m 57426497769252250000000000000000000,
     m 56644750343992760000000000000000000, m 56784189545089460000000000000000000,
     m 56713968872856050000000000000000000, m 56690885890770840000000000000000000,
     m 56697671729407530000000000000000000, m 56685349007483830000000000000000000,
     m 56677839423949290000000000000000000, m 56685349007483750000000000000000000,
     m 56697671729407570000000000000000000, m 56690885890771070000000000000000000,
     m 56713968872855780000000000000000000, m 56784189545088900000000000000000000,
     m 56644750343995970000000000000000000, m 57426497769251120000000000000000000,
     m 56690821099964260000000000000000000, m 53293853116471750000000000000000000,
     m 53823978588494450000000000000000000, m 52637471103747890000000000000000000,
     m 52621971794773990000000000000000000, m 52318748446019510000000000000000000,
     m 52311739709653780000000000000000000, m 52296697463048110000000000000000000,
     m 52229380392125010000000000000000000, m 52229380392124750000000000000000000,
     m 52296697463047910000000000000000000, m 52311739709654770000000000000000000,
     m 52318748446019630000000000000000000, m 52621971794770430000000000000000000,
     m 52637471103755120000000000000000000, m 53823978588494350000000000000000000,
     m 53293853116471210000000000000000000, m 49257009463190200000000000000000000,
     m 46923287221570360000000000000000000, m 45654771620816210000000000000000000,
     m 45172555106579450000000000000000000, m 44647009471497360000000000000000000,
     m 44645338723766470000000000000000000, m 44519620458767960000000000000000000,
     m 44410675518849310000000000000000000, m 44519620458767310000000000000000000,
     m 44645338723767750000000000000000000, m 44647009471499350000000000000000000,
     m 45172555106572590000000000000000000, m 45654771620825000000000000000000000,
     m 46923287221571720000000000000000000, m 49257009463184450000000000000000000,
     m 41389624420208630000000000000000000, m 37463354492531160000000000000000000,
     m 36082656368345500000000000000000000, m 34660128073634800000000000000000000,
     m 34089556114005210000000000000000000, m 33959277474341030000000000000000000,
     m 33681353412564710000000000000000000, m 33681353412564120000000000000000000,
     m 33959277474341720000000000000000000, m 34089556114009920000000000000000000,
     m 34660128073628140000000000000000000, m 36082656368351500000000000000000000,
     m 37463354492539180000000000000000000, m 41389624420209000000000000000000000,
     m 30337745496674800000000000000000000, m 25836291669810750000000000000000000,
     m 23920936610312060000000000000000000, m 21764173758239500000000000000000000,
     m 21119644300896490000000000000000000, m 20657696992079420000000000000000000,
     m 20384874577649480000000000000000000, m 20657696992079680000000000000000000,
     m 21119644300902370000000000000000000, m 21764173758232680000000000000000000,
     m 23920936610310950000000000000000000, m 25836291669817790000000000000000000,
     m 30337745496674960000000000000000000, m 17467764095854630000000000000000000,
     m 12672476720158940000000000000000000, m 9751790950751960000000000000000000,
     m 7192596683768898000000000000000000, m 6136000387261218000000000000000000,
     m 5414275268846330000000000000000000, m 5414275268847256000000000000000000,
     m 6136000387267627000000000000000000, m 7192596683765228000000000000000000,
     m 9751790950748634000000000000000000, m 12672476720161030000000000000000000,
     m 17467764095853610000000000000000000, m 3221157974658025000000000000000000, 2010179368319543000000000000000000,
     5846163556679839000000000000000000, 8619455151733102000000000000000000, 10192437288828550000000000000000000,
     10828550537694150000000000000000000, 10192437288821390000000000000000000, 8619455151733668000000000000000000,
     5846163556682090000000000000000000, 2010179368319989000000000000000000, m 3221157974657028000000000000000000,
     12199278782754250000000000000000000, 17925592711726320000000000000000000, 22205337759424380000000000000000000,
     25061898260831240000000000000000000, 26793697379347410000000000000000000, 26793697379341250000000000000000000,
     25061898260831110000000000000000000, 22205337759425190000000000000000000, 17925592711726670000000000000000000,
     12199278782753740000000000000000000, 28338919711975450000000000000000000, 34303787680398830000000000000000000,
     38673456902086570000000000000000000, 41151874158106440000000000000000000, 42239288601798940000000000000000000,
     41151874158110490000000000000000000, 38673456902087280000000000000000000, 34303787680398550000000000000000000,
     28338919711973690000000000000000000, 44486070224730270000000000000000000, 50286518094728830000000000000000000,
     54397129674516010000000000000000000, 55853729872237940000000000000000000, 55853729872249110000000000000000000,
     54397129674519220000000000000000000, 50286518094728310000000000000000000, 44486070224729210000000000000000000,
     59918829704064730000000000000000000, 64984216429815130000000000000000000, 68567946081808980000000000000000000,
     69320256147262780000000000000000000, 68567946081811060000000000000000000, 64984216429813800000000000000000000,
     59918829704065600000000000000000000, 74158649986624280000000000000000000, 78155040115836980000000000000000000,
     81255211474931090000000000000000000, 81255211474918130000000000000000000, 78155040115830600000000000000000000,
     74158649986626110000000000000000000, 87051714369530670000000000000000000, 90085326287312720000000000000000000,
     91309543241641420000000000000000000, 90085326287301530000000000000000000, 87051714369530970000000000000000000,
     98173813965298250000000000000000000, 99560758325319940000000000000000000, 99560758325325190000000000000000000,
     98173813965297360000000000000000000, 105901759807178000000000000000000000, 107647957176988500000000000000000000,
     105901759807185900000000000000000000, 110720350885723600000000000000000000,
     110720350885723500000000000000000000, 113381642199927500000000000000000000],
    []],
   [202071742135303600000000000000000, 137551261016725100000000000000000, 471421560831673500000000000000000,
    726341901691060900000000000000000, 961051589952278200000000000000000, 1103663451870804000000000000000000,
    1201637924964604000000000000000000, 1297990928502312000000000000000000, 1338797413842334000000000000000000,
    1297990928502523000000000000000000, 1201637924964638000000000000000000, 1103663451870528000000000000000000,
    961051589952431900000000000000000, 726341901691619800000000000000000, 471421560830639500000000000000000,
    137551261016469600000000000000000, 202071742135300200000000000000000, 137551261016444100000000000000000,
    778856510691983100000000000000000, 1388359835401183000000000000000000, 1874409362419806000000000000000000,
    2292548132352864000000000000000000, 2566172195712609000000000000000000, 2858890914676911000000000000000000,
    3056706335056018000000000000000000, 3056706335056147000000000000000000, 2858890914676817000000000000000000,
    2566172195711427000000000000000000, 2292548132351950000000000000000000, 1874409362421518000000000000000000,
    1388359835400676000000000000000000, 778856510691993100000000000000000, 137551261016747600000000000000000,
    471421560830726500000000000000000, 1388359835400734000000000000000000, 2064510962488085000000000000000000,
    2980759691850479000000000000000000, 3694617630360964000000000000000000, 4201600489720669000000000000000000,
    4569094499773563000000000000000000, 4707190148543825000000000000000000, 4569094499774081000000000000000000,
    4201600489720527000000000000000000, 3694617630358850000000000000000000, 2980759691849738000000000000000000,
    2064510962488106000000000000000000, 1388359835401224000000000000000000, 471421560831697800000000000000000,
    726341901691592400000000000000000, 1874409362421423000000000000000000, 2980759691849740000000000000000000,
    4221826615852983000000000000000000, 4965946462950055000000000000000000, 5593351146043222000000000000000000,
    6010135328279537000000000000000000, 6010135328280144000000000000000000, 5593351146044709000000000000000000,
    4965946462949763000000000000000000, 4221826615852952000000000000000000, 2980759691850523000000000000000000,
    1874409362419707000000000000000000, 726341901691025500000000000000000, 961051589952415600000000000000000,
    2292548132351970000000000000000000, 3694617630358897000000000000000000, 4965946462949707000000000000000000,
    5996769617995813000000000000000000, 6907681328154115000000000000000000, 7237256267336401000000000000000000,
    6907681328154270000000000000000000, 5996769617995901000000000000000000, 4965946462950049000000000000000000,
    3694617630361064000000000000000000, 2292548132352877000000000000000000, 961051589952258600000000000000000,
    1103663451870517000000000000000000, 2566172195711412000000000000000000, 4201600489720482000000000000000000,
    5593351146044541000000000000000000, 6907681328154247000000000000000000, 7699993908271188000000000000000000,
    7699993908271196000000000000000000, 6907681328154170000000000000000000, 5593351146043160000000000000000000,
    4201600489720686000000000000000000, 2566172195712630000000000000000000, 1103663451870822000000000000000000,
    1201637924964614000000000000000000, 2858890914676807000000000000000000, 4569094499774058000000000000000000,
    6010135328280041000000000000000000, 7237256267336421000000000000000000, 7699993908271194000000000000000000,
    7237256267336429000000000000000000, 6010135328279454000000000000000000, 4569094499773517000000000000000000,
    2858890914676886000000000000000000, 1201637924964599000000000000000000, 1297990928502526000000000000000000,
    3056706335056189000000000000000000, 4707190148543858000000000000000000, 6010135328279463000000000000000000,
    6907681328154132000000000000000000, 6907681328154241000000000000000000, 6010135328280005000000000000000000,
    4707190148543736000000000000000000, 3056706335055999000000000000000000, 1297990928502299000000000000000000,
    1338797413842352000000000000000000, 3056706335056048000000000000000000, 4569094499773589000000000000000000,
    5593351146043131000000000000000000, 5996769617995804000000000000000000, 5593351146044524000000000000000000,
    4569094499773965000000000000000000, 3056706335056132000000000000000000, 1338797413842332000000000000000000,
    1297990928502305000000000000000000, 2858890914676846000000000000000000, 4201600489720665000000000000000000,
    4965946462950010000000000000000000, 4965946462949715000000000000000000, 4201600489720489000000000000000000,
    2858890914676819000000000000000000, 1297990928502532000000000000000000, 1201637924964562000000000000000000,
    2566172195712483000000000000000000, 3694617630360956000000000000000000, 4221826615853020000000000000000000,
    3694617630358962000000000000000000, 2566172195711463000000000000000000, 1201637924964657000000000000000000,
    1103663451870791000000000000000000, 2292548132352833000000000000000000, 2980759691850501000000000000000000,
    2980759691849844000000000000000000, 2292548132351930000000000000000000, 1103663451870530000000000000000000,
    961051589952297300000000000000000, 1874409362419859000000000000000000, 2064510962488093000000000000000000,
    1874409362421438000000000000000000, 961051589952399300000000000000000, 726341901691099800000000000000000,
    1388359835401229000000000000000000, 1388359835400674000000000000000000, 726341901691595100000000000000000,
    471421560831648000000000000000000, 778856510692006900000000000000000, 471421560830659300000000000000000,
    137551261016744000000000000000000, 137551261016469900000000000000000, 202071742135282400000000000000000]⟩

/-- `triangle_data[17]` (vr_quad_data_tri.py 3134-3658). -/
def vrTri_17 : TableRule :=
  ⟨28,
   [
    [m 98941655594155570000000000000000000, m 95734033390368970000000000000000000,
     m 90387324696412260000000000000000000, m 82401691423511930000000000000000000,
     m 71318280675698430000000000000000000, m 57796552919402590000000000000000000,
     m 42591902309716620000000000000000000, m 26172185731875730000000000000000000,
     m 8846027949976127000000000000000000, 8846027949976083000000000000000000, 26172185731875720000000000000000000,
     42591902309716630000000000000000000, 57796552919402570000000000000000000, 71318280675698420000000000000000000,
     82401691423511990000000000000000000, 90387324696412370000000000000000000, 95734033390368900000000000000000000,
     98941655594155560000000000000000000, m 97187750272745270000000000000000000,
     m 93023656420095120000000000000000000, m 86392358916399950000000000000000000,
     m 76809966737465800000000000000000000, m 64443077359744540000000000000000000,
     m 50294094441324450000000000000000000, m 34708743978230640000000000000000000,
     m 17777249452821140000000000000000000, m 36180344883763280000, 17777249452821110000000000000000000,
     34708743978230680000000000000000000, 50294094441324500000000000000000000, 64443077359744540000000000000000000,
     76809966737465800000000000000000000, 86392358916400040000000000000000000, 93023656420095170000000000000000000,
     97187750272745370000000000000000000, m 94500487012912740000000000000000000,
     m 89492364060260280000000000000000000, m 81608148655285280000000000000000000,
     m 70836746520648310000000000000000000, m 57438688302204040000000000000000000,
     m 42493665388191020000000000000000000, m 26152436426417380000000000000000000,
     m 8825519634085994000000000000000000, 8825519634085936000000000000000000, 26152436426417380000000000000000000,
     42493665388191080000000000000000000, 57438688302204100000000000000000000, 70836746520648340000000000000000000,
     81608148655285250000000000000000000, 89492364060260140000000000000000000, 94500487012912680000000000000000000,
     m 90470941902810060000000000000000000, m 84444146341713420000000000000000000,
     m 75646484512393060000000000000000000, m 64127686093838930000000000000000000,
     m 50007091119736630000000000000000000, m 34497571582707580000000000000000000,
     m 17624829598002070000000000000000000, m 27203750991900340000, 17624829598002030000000000000000000,
     34497571582707560000000000000000000, 50007091119736640000000000000000000, 64127686093838980000000000000000000,
     75646484512393120000000000000000000, 84444146341713430000000000000000000, 90470941902810030000000000000000000,
     m 84860299359413420000000000000000000, m 77973700177949270000000000000000000,
     m 68382207998210930000000000000000000, m 56253002843251660000000000000000000,
     m 41850145079216620000000000000000000, m 26102828609620800000000000000000000,
     m 8885909722551076000000000000000000, 8885909722551075000000000000000000, 26102828609620800000000000000000000,
     41850145079216590000000000000000000, 56253002843251640000000000000000000, 68382207998210910000000000000000000,
     77973700177949260000000000000000000, 84860299359413410000000000000000000, m 78073156170732540000000000000000000,
     m 70840807203237980000000000000000000, m 60867271528134970000000000000000000,
     m 48467137520680900000000000000000000, m 33859371210784640000000000000000000,
     m 17563992443546210000000000000000000, 15461331152807800000, 17563992443546260000000000000000000,
     33859371210784670000000000000000000, 48467137520680940000000000000000000, 60867271528134980000000000000000000,
     70840807203237970000000000000000000, 78073156170732540000000000000000000, m 70473560673872260000000000000000000,
     m 63067964507263730000000000000000000, m 52702128306149050000000000000000000,
     m 39951643998314640000000000000000000, m 25050662567144300000000000000000000,
     m 8566092377001593000000000000000000, 8566092377001592000000000000000000, 25050662567144290000000000000000000,
     39951643998314660000000000000000000, 52702128306149070000000000000000000, 63067964507263740000000000000000000,
     70473560673872260000000000000000000, m 62264264495737000000000000000000000,
     m 54585082334927310000000000000000000, m 43977403287108880000000000000000000,
     m 31056447740357860000000000000000000, m 16164752844593240000000000000000000, m 2512456557059834000,
     16164752844593210000000000000000000, 31056447740357850000000000000000000, 43977403287108890000000000000000000,
     54585082334927320000000000000000000, 62264264495737020000000000000000000, m 53596457333862910000000000000000000,
     m 45679209594953940000000000000000000, m 35151883653022930000000000000000000,
     m 22326814400312580000000000000000000, m 7756542601163845000000000000000000, 7756542601163863000000000000000000,
     22326814400312600000000000000000000, 35151883653022930000000000000000000, 45679209594953960000000000000000000,
     53596457333862940000000000000000000, m 44750429383886830000000000000000000,
     m 36807832882106200000000000000000000, m 26549691879731690000000000000000000,
     m 13969565937973280000000000000000000, 28129787955109940000, 13969565937973340000000000000000000,
     26549691879731690000000000000000000, 36807832882106210000000000000000000, 44750429383886850000000000000000000,
     m 36092078763861330000000000000000000, m 28359220529033100000000000000000000,
     m 18373606139943920000000000000000000, m 6245911723514966000000000000000000, 6245911723515028000000000000000000,
     18373606139943920000000000000000000, 28359220529033090000000000000000000, 36092078763861330000000000000000000,
     m 27881658364155670000000000000000000, m 20546712761913530000000000000000000,
     m 10943519696006870000000000000000000, 8173302986656238000, 10943519696006860000000000000000000,
     20546712761913510000000000000000000, 27881658364155650000000000000000000, m 20276603251329960000000000000000000,
     m 13530622818204750000000000000000000, m 4809737991744767000000000000000000, 4809737991744765000000000000000000,
     13530622818204740000000000000000000, 20276603251329960000000000000000000, m 13542018683714960000000000000000000,
     m 7634179604247648000000000000000000, 30315812923081920000, 7634179604247604000000000000000000,
     13542018683714950000000000000000000, m 8069250479298056000000000000000000, m 3100005143860299000000000000000000,
     3100005143860214000000000000000000, 8069250479297999000000000000000000, m 4113162316500443000000000000000000,
     m 135380519691424800000, 4113162316500366000000000000000000, m 1453716882376390000000000000000000,
     1453716882376378000000000000000000, 48006280126649500000],
    [m 57123991491352940000000000000000000, m 56950677615269130000000000000000000,
     m 56934616986108050000000000000000000, m 56892206597807630000000000000000000,
     m 56812604811083350000000000000000000, m 56782260077062720000000000000000000,
     m 56785412187810020000000000000000000, m 56786061257436340000000000000000000,
     m 56780601520454470000000000000000000, m 56780601520454470000000000000000000,
     m 56786061257436340000000000000000000, m 56785412187810020000000000000000000,
     m 56782260077062720000000000000000000, m 56812604811083350000000000000000000,
     m 56892206597807640000000000000000000, m 56934616986108060000000000000000000,
     m 56950677615269080000000000000000000, m 57123991491353000000000000000000000,
     m 54432766115172610000000000000000000, m 53707233075145220000000000000000000,
     m 53458229284904180000000000000000000, m 53161446271430700000000000000000000,
     m 52830045513843990000000000000000000, m 52762609252452520000000000000000000,
     m 52785509891955700000000000000000000, m 52765724202578950000000000000000000,
     m 52745807912032000000000000000000000, m 52765724202578950000000000000000000,
     m 52785509891955700000000000000000000, m 52762609252452520000000000000000000,
     m 52830045513844000000000000000000000, m 53161446271430710000000000000000000,
     m 53458229284904200000000000000000000, m 53707233075145110000000000000000000,
     m 54432766115172680000000000000000000, m 49810410874151610000000000000000000,
     m 48088862872013380000000000000000000, m 47116486594195940000000000000000000,
     m 46451421720744410000000000000000000, m 45798730237919620000000000000000000,
     m 45749742052487540000000000000000000, m 45756059718086070000000000000000000,
     m 45685315115668270000000000000000000, m 45685315115668270000000000000000000,
     m 45756059718086070000000000000000000, m 45749742052487550000000000000000000,
     m 45798730237919620000000000000000000, m 46451421720744430000000000000000000,
     m 47116486594195960000000000000000000, m 48088862872013270000000000000000000,
     m 49810410874151540000000000000000000, m 42915854788663860000000000000000000,
     m 39938659322767770000000000000000000, m 38120711147948160000000000000000000,
     m 37024136828785730000000000000000000, m 36083765149182150000000000000000000,
     m 36047847549166820000000000000000000, m 35956484721162370000000000000000000,
     m 35860896925938360000000000000000000, m 35956484721162370000000000000000000,
     m 36047847549166840000000000000000000, m 36083765149182150000000000000000000,
     m 37024136828785760000000000000000000, m 38120711147948180000000000000000000,
     m 39938659322767740000000000000000000, m 42915854788663810000000000000000000,
     m 33357140413841990000000000000000000, m 29394319334662560000000000000000000,
     m 26843998110804950000000000000000000, m 25265528704464060000000000000000000,
     m 24162192527110590000000000000000000, m 24026959041900710000000000000000000,
     m 23795731182728950000000000000000000, m 23795731182728960000000000000000000,
     m 24026959041900740000000000000000000, m 24162192527110590000000000000000000,
     m 25265528704464080000000000000000000, m 26843998110804950000000000000000000,
     m 29394319334662560000000000000000000, m 33357140413841980000000000000000000,
     m 21662153040842940000000000000000000, m 17174658820294430000000000000000000,
     m 13925722699845180000000000000000000, m 11851849584913490000000000000000000,
     m 10592233165612480000000000000000000, m 10140575765325970000000000000000000,
     m 9891271479530190000000000000000000, m 10140575765326000000000000000000000,
     m 10592233165612490000000000000000000, m 11851849584913510000000000000000000,
     m 13925722699845170000000000000000000, m 17174658820294420000000000000000000,
     m 21662153040842940000000000000000000, m 8492963301814669000000000000000000,
     m 3665899072620031000000000000000000, 229355542908085500000000000000000, 2714692191339537000000000000000000,
     4202442035900100000000000000000000, 4945635739765079000000000000000000, 4945635739765052000000000000000000,
     4202442035900088000000000000000000, 2714692191339514000000000000000000, 229355542908068500000000000000000,
     m 3665899072620030000000000000000000, m 8492963301814676000000000000000000, 5727252912349219000000000000000000,
     10987312465733390000000000000000000, 15199533353117360000000000000000000, 17930448462969180000000000000000000,
     19593289146828830000000000000000000, 20281151530651960000000000000000000, 19593289146828810000000000000000000,
     17930448462969140000000000000000000, 15199533353117320000000000000000000, 10987312465733360000000000000000000,
     5727252912349200000000000000000000, 20729415832960800000000000000000000, 26372903956016010000000000000000000,
     30485781762550920000000000000000000, 33241792529822870000000000000000000, 34619192207513230000000000000000000,
     34619192207513220000000000000000000, 33241792529822790000000000000000000, 30485781762550870000000000000000000,
     26372903956015950000000000000000000, 20729415832960750000000000000000000, 36051185687493730000000000000000000,
     41778411736845580000000000000000000, 45526704175178010000000000000000000, 47899697134080370000000000000000000,
     48324385054221160000000000000000000, 47899697134080320000000000000000000, 45526704175178000000000000000000000,
     41778411736845530000000000000000000, 36051185687493690000000000000000000, 51058808345087140000000000000000000,
     56451408964575750000000000000000000, 59675464752332730000000000000000000, 61349293853646200000000000000000000,
     61349293853646190000000000000000000, 59675464752332800000000000000000000, 56451408964575760000000000000000000,
     51058808345087140000000000000000000, 65278375489624670000000000000000000, 69937268072746940000000000000000000,
     72642728348724560000000000000000000, 74048273657571500000000000000000000, 72642728348724630000000000000000000,
     69937268072747000000000000000000000, 65278375489624700000000000000000000, 78444413117905650000000000000000000,
     82224364848506550000000000000000000, 84572132868692650000000000000000000, 84572132868692630000000000000000000,
     82224364848506580000000000000000000, 78444413117905670000000000000000000, 90169745224925380000000000000000000,
     93100105594198460000000000000000000, 94232973188391930000000000000000000, 93100105594198520000000000000000000,
     90169745224925390000000000000000000, 99808061386471530000000000000000000, 101547092156917400000000000000000000,
     101547092156917700000000000000000000, 99808061386471630000000000000000000, 106745027860259600000000000000000000,
     107414466150290400000000000000000000, 106745027860259800000000000000000000,
     111383443730441800000000000000000000, 111383443730441600000000000000000000,
     114247982982705900000000000000000000],
    []],
   [76969138571907510000000000000000, 223197943884160700000000000000000, 351255761184569400000000000000000,
    543458149274812300000000000000000, 771523036255951600000000000000000, 928944189938881100000000000000000,
    1015411110482608000000000000000000, 1083215169920858000000000000000000, 1134019488130374000000000000000000,
    1134019488130376000000000000000000, 1083215169920860000000000000000000, 1015411110482606000000000000000000,
    928944189938878500000000000000000, 771523036255953100000000000000000, 543458149274815400000000000000000,
    351255761184564200000000000000000, 223197943884166400000000000000000, 76969138571906270000000000000000,
    223197943884164300000000000000000, 592232670458812700000000000000000, 1015801854642465000000000000000000,
    1480317542227223000000000000000000, 1920180732925396000000000000000000, 2180883730324797000000000000000000,
    2380421312438687000000000000000000, 2562940998568836000000000000000000, 2639899599854081000000000000000000,
    2562940998568845000000000000000000, 2380421312438693000000000000000000, 2180883730324790000000000000000000,
    1920180732925390000000000000000000, 1480317542227225000000000000000000, 1015801854642474000000000000000000,
    592232670458817200000000000000000, 223197943884157200000000000000000, 351255761184564400000000000000000,
    1015801854642468000000000000000000, 1795532425666677000000000000000000, 2493427350758664000000000000000000,
    3110246951186547000000000000000000, 3481164466463276000000000000000000, 3763914144618993000000000000000000,
    3934291623641073000000000000000000, 3934291623641080000000000000000000, 3763914144619007000000000000000000,
    3481164466463281000000000000000000, 3110246951186540000000000000000000, 2493427350758648000000000000000000,
    1795532425666670000000000000000000, 1015801854642465000000000000000000, 351255761184576900000000000000000,
    543458149274813400000000000000000, 1480317542227231000000000000000000, 2493427350758664000000000000000000,
    3432467363591304000000000000000000, 4190045265327134000000000000000000, 4674271113854350000000000000000000,
    5026802988408292000000000000000000, 5158275586599082000000000000000000, 5026802988408295000000000000000000,
    4674271113854355000000000000000000, 4190045265327145000000000000000000, 3432467363591309000000000000000000,
    2493427350758665000000000000000000, 1480317542227215000000000000000000, 543458149274808300000000000000000,
    771523036255954800000000000000000, 1920180732925398000000000000000000, 3110246951186541000000000000000000,
    4190045265327132000000000000000000, 4993033706223587000000000000000000, 5649417873770256000000000000000000,
    6080163024859269000000000000000000, 6080163024859268000000000000000000, 5649417873770249000000000000000000,
    4993033706223584000000000000000000, 4190045265327135000000000000000000, 3110246951186550000000000000000000,
    1920180732925400000000000000000000, 771523036255951600000000000000000, 928944189938880100000000000000000,
    2180883730324789000000000000000000, 3481164466463274000000000000000000, 4674271113854357000000000000000000,
    5649417873770258000000000000000000, 6490344936467543000000000000000000, 6797750056710522000000000000000000,
    6490344936467545000000000000000000, 5649417873770255000000000000000000, 4674271113854353000000000000000000,
    3481164466463267000000000000000000, 2180883730324791000000000000000000, 928944189938881300000000000000000,
    1015411110482607000000000000000000, 2380421312438687000000000000000000, 3763914144619002000000000000000000,
    5026802988408302000000000000000000, 6080163024859268000000000000000000, 6797750056710521000000000000000000,
    6797750056710521000000000000000000, 6080163024859268000000000000000000, 5026802988408302000000000000000000,
    3763914144618996000000000000000000, 2380421312438681000000000000000000, 1015411110482606000000000000000000,
    1083215169920861000000000000000000, 2562940998568842000000000000000000, 3934291623641079000000000000000000,
    5158275586599091000000000000000000, 6080163024859270000000000000000000, 6490344936467545000000000000000000,
    6080163024859264000000000000000000, 5158275586599085000000000000000000, 3934291623641079000000000000000000,
    2562940998568837000000000000000000, 1083215169920858000000000000000000, 1134019488130376000000000000000000,
    2639899599854084000000000000000000, 3934291623641078000000000000000000, 5026802988408302000000000000000000,
    5649417873770251000000000000000000, 5649417873770246000000000000000000, 5026802988408294000000000000000000,
    3934291623641084000000000000000000, 2639899599854086000000000000000000, 1134019488130376000000000000000000,
    1134019488130374000000000000000000, 2562940998568840000000000000000000, 3763914144618996000000000000000000,
    4674271113854347000000000000000000, 4993033706223578000000000000000000, 4674271113854350000000000000000000,
    3763914144619011000000000000000000, 2562940998568849000000000000000000, 1134019488130378000000000000000000,
    1083215169920857000000000000000000, 2380421312438685000000000000000000, 3481164466463274000000000000000000,
    4190045265327135000000000000000000, 4190045265327142000000000000000000, 3481164466463279000000000000000000,
    2380421312438693000000000000000000, 1083215169920861000000000000000000, 1015411110482609000000000000000000,
    2180883730324797000000000000000000, 3110246951186558000000000000000000, 3432467363591311000000000000000000,
    3110246951186542000000000000000000, 2180883730324788000000000000000000, 1015411110482606000000000000000000,
    928944189938886900000000000000000, 1920180732925400000000000000000000, 2493427350758667000000000000000000,
    2493427350758650000000000000000000, 1920180732925396000000000000000000, 928944189938881500000000000000000,
    771523036255954500000000000000000, 1480317542227212000000000000000000, 1795532425666667000000000000000000,
    1480317542227231000000000000000000, 771523036255958900000000000000000, 543458149274808800000000000000000,
    1015801854642463000000000000000000, 1015801854642473000000000000000000, 543458149274815400000000000000000,
    351255761184568900000000000000000, 592232670458812200000000000000000, 351255761184553300000000000000000,
    223197943884151100000000000000000, 223197943884165600000000000000000, 76969138571912950000000000000000]⟩

/-- `triangle_data[18]` (vr_quad_data_tri.py 3659-4240). -/
def vrTri_18 : TableRule :=
  ⟨30,
   [
    [m 99217452699870480000000000000000000, m 96401399789512410000000000000000000,
     m 91614491713559050000000000000000000, m 84250197566473840000000000000000000,
     m 74338845534804060000000000000000000, m 62117718920461050000000000000000000,
     m 48114456201982810000000000000000000, m 32884663782533450000000000000000000,
     m 16734251726731050000000000000000000, m 104283870891253800000, 16734251726730890000000000000000000,
     32884663782533250000000000000000000, 48114456201982350000000000000000000, 62117718920460640000000000000000000,
     74338845534804180000000000000000000, 84250197566474320000000000000000000, 91614491713559400000000000000000000,
     96401399789511960000000000000000000, 99217452699870150000000000000000000, m 97607843084354600000000000000000000,
     m 94027563540116920000000000000000000, m 88305195553821930000000000000000000,
     m 79309310328807540000000000000000000, m 68069576908032980000000000000000000,
     m 55052072906111550000000000000000000, m 40577615425575640000000000000000000,
     m 24944710896707740000000000000000000, m 8431299826079080000000000000000000, 8431299826079289000000000000000000,
     24944710896708280000000000000000000, 40577615425576170000000000000000000, 55052072906111590000000000000000000,
     68069576908032410000000000000000000, 79309310328806190000000000000000000, 88305195553820400000000000000000000,
     94027563540116410000000000000000000, 97607843084354570000000000000000000, m 95248580462207590000000000000000000,
     m 90999428864813450000000000000000000, m 83843682376875770000000000000000000,
     m 73689710496038960000000000000000000, m 61862552556238830000000000000000000,
     m 48272980112422700000000000000000000, m 33071493972403310000000000000000000,
     m 16806661489226020000000000000000000, m 389052651563132600000, 16806661489225610000000000000000000,
     33071493972403770000000000000000000, 48272980112424190000000000000000000, 61862552556241320000000000000000000,
     73689710496040610000000000000000000, 83843682376876300000000000000000000, 90999428864814340000000000000000000,
     95248580462207550000000000000000000, m 91447215808062040000000000000000000,
     m 85973062941271030000000000000000000, m 77805859740405740000000000000000000,
     m 66929611547282760000000000000000000, m 54522556933334290000000000000000000,
     m 40331607445577640000000000000000000, m 24726251978241290000000000000000000,
     m 8329818797589794000000000000000000, 8329818797589266000000000000000000, 24726251978240670000000000000000000,
     40331607445577010000000000000000000, 54522556933334560000000000000000000, 66929611547283050000000000000000000,
     77805859740405490000000000000000000, 85973062941271700000000000000000000, 91447215808062170000000000000000000,
     m 86441088454803270000000000000000000, m 80222180174818290000000000000000000,
     m 71714321388499110000000000000000000, m 60538944889028200000000000000000000,
     m 47892199685220580000000000000000000, m 33252585558090510000000000000000000,
     m 17034020197793220000000000000000000, m 173370879290266600000, 17034020197792760000000000000000000,
     33252585558089740000000000000000000, 47892199685220290000000000000000000, 60538944889027970000000000000000000,
     71714321388498160000000000000000000, 80222180174818260000000000000000000, 86441088454803520000000000000000000,
     m 80330860061464500000000000000000000, m 73724197663833370000000000000000000,
     m 64914155572983100000000000000000000, m 53339537424236760000000000000000000,
     m 40290621533848360000000000000000000, m 25132972905175780000000000000000000,
     m 8536485658569324000000000000000000, 8536485658569082000000000000000000, 25132972905175250000000000000000000,
     40290621533848290000000000000000000, 53339537424237100000000000000000000, 64914155572982980000000000000000000,
     73724197663833290000000000000000000, 80330860061464850000000000000000000, m 73327652838559170000000000000000000,
     m 66457997742527250000000000000000000, m 57211802480817190000000000000000000,
     m 45326869491048880000000000000000000, m 31850828592765530000000000000000000,
     m 16434094348842070000000000000000000, m 210769954591418500000, 16434094348841360000000000000000000,
     31850828592765000000000000000000000, 45326869491048720000000000000000000, 57211802480817320000000000000000000,
     66457997742527190000000000000000000, 73327652838559400000000000000000000, m 65704795199754940000000000000000000,
     m 58598114103081430000000000000000000, m 48981344877076750000000000000000000,
     m 36990283719822650000000000000000000, m 23200495714947280000000000000000000,
     m 7897608690272722000000000000000000, 7897608690272231000000000000000000, 23200495714946920000000000000000000,
     36990283719822340000000000000000000, 48981344877076910000000000000000000, 58598114103081470000000000000000000,
     65704795199755020000000000000000000, m 57622500805927500000000000000000000,
     m 50313355841267340000000000000000000, m 40539846793546990000000000000000000,
     m 28660464922232910000000000000000000, m 14816808394972290000000000000000000, m 331596263518226700000,
     14816808394972110000000000000000000, 28660464922232760000000000000000000, 40539846793547080000000000000000000,
     50313355841267450000000000000000000, 57622500805927570000000000000000000, m 49252613402360490000000000000000000,
     m 41882056015188080000000000000000000, m 32174683387850620000000000000000000,
     m 20600617512807710000000000000000000, m 7038035975758498000000000000000000, 7038035975758152000000000000000000,
     20600617512807730000000000000000000, 32174683387850500000000000000000000, 41882056015188090000000000000000000,
     49252613402360560000000000000000000, m 40888249079196430000000000000000000,
     m 33653403206373390000000000000000000, m 24140308508413520000000000000000000,
     m 13007929978659790000000000000000000, 199593120205879700000, 13007929978659800000000000000000000,
     24140308508413060000000000000000000, 33653403206373240000000000000000000, 40888249079196470000000000000000000,
     m 32820131417221660000000000000000000, m 25880382316951670000000000000000000,
     m 16641175460559720000000000000000000, m 6016387955693198000000000000000000, 6016387955693833000000000000000000,
     16641175460559010000000000000000000, 25880382316951530000000000000000000, 32820131417221750000000000000000000,
     m 25213196636576940000000000000000000, m 18672124757722150000000000000000000,
     m 9851768832258237000000000000000000, 224843818882671400000, 9851768832257789000000000000000000,
     18672124757722290000000000000000000, 25213196636577160000000000000000000, m 18213141141004020000000000000000000,
     m 12152603266785480000000000000000000, m 4116149244365906000000000000000000, 4116149244365333000000000000000000,
     12152603266785990000000000000000000, 18213141141004240000000000000000000, m 12102242919999280000000000000000000,
     m 6663752612464568000000000000000000, m 329715505353723400000, 6663752612465043000000000000000000,
     12102242919999300000000000000000000, m 7197018241588042000000000000000000, m 2694233310992772000000000000000000,
     2694233310993136000000000000000000, 7197018241587937000000000000000000, m 3634088748648224000000000000000000,
     438175689289461900000, 3634088748648171000000000000000000, m 1206443294842278000000000000000000,
     1206443294842400000000000000000000, 63710081171242930000],
    [m 57283223024578990000000000000000000, m 57050454840810170000000000000000000,
     m 57089935687076380000000000000000000, m 56952275082570040000000000000000000,
     m 56894018896084770000000000000000000, m 56894405621268040000000000000000000,
     m 56892585970644170000000000000000000, m 56883392904199470000000000000000000,
     m 56875207964248280000000000000000000, m 56872019212291000000000000000000000,
     m 56875207964248290000000000000000000, m 56883392904199480000000000000000000,
     m 56892585970644160000000000000000000, m 56894405621268060000000000000000000,
     m 56894018896084800000000000000000000, m 56952275082569980000000000000000000,
     m 57089935687076310000000000000000000, m 57050454840810170000000000000000000,
     m 57283223024579160000000000000000000, m 54960833757692330000000000000000000,
     m 54286839121130880000000000000000000, m 54094061078564270000000000000000000,
     m 53483890396819410000000000000000000, m 53332606086343210000000000000000000,
     m 53345041622216570000000000000000000, m 53311588583874140000000000000000000,
     m 53261438351765130000000000000000000, m 53229045853373030000000000000000000,
     m 53229045853373090000000000000000000, m 53261438351765200000000000000000000,
     m 53311588583874100000000000000000000, m 53345041622216590000000000000000000,
     m 53332606086343410000000000000000000, m 53483890396819190000000000000000000,
     m 54094061078563770000000000000000000, m 54286839121131130000000000000000000,
     m 54960833757692420000000000000000000, m 50795509335203220000000000000000000,
     m 49427512096479410000000000000000000, m 48407172590139230000000000000000000,
     m 47297693939912510000000000000000000, m 47092204145698690000000000000000000,
     m 47085992326065060000000000000000000, m 46968663178776790000000000000000000,
     m 46855454765116700000000000000000000, m 46811382918321170000000000000000000,
     m 46855454765116860000000000000000000, m 46968663178776800000000000000000000,
     m 47085992326064990000000000000000000, m 47092204145699160000000000000000000,
     m 47297693939912440000000000000000000, m 48407172590138660000000000000000000,
     m 49427512096479990000000000000000000, m 50795509335203030000000000000000000,
     m 44486673825139390000000000000000000, m 41941932302960130000000000000000000,
     m 40168314317135690000000000000000000, m 38641829243580640000000000000000000,
     m 38425739333904880000000000000000000, m 38305728165112970000000000000000000,
     m 38063252368672220000000000000000000, m 37903477400990940000000000000000000,
     m 37903477400991090000000000000000000, m 38063252368672350000000000000000000,
     m 38305728165112760000000000000000000, m 38425739333905440000000000000000000,
     m 38641829243580850000000000000000000, m 40168314317134720000000000000000000,
     m 41941932302960750000000000000000000, m 44486673825139460000000000000000000,
     m 35932319273105100000000000000000000, m 32283679784042910000000000000000000,
     m 30028439983805230000000000000000000, m 28005049716598060000000000000000000,
     m 27650574380345140000000000000000000, m 27325213153555640000000000000000000,
     m 26943572777313990000000000000000000, m 26789624892714870000000000000000000,
     m 26943572777314140000000000000000000, m 27325213153555390000000000000000000,
     m 27650574380345660000000000000000000, m 28005049716598550000000000000000000,
     m 30028439983804220000000000000000000, m 32283679784043120000000000000000000,
     m 35932319273105550000000000000000000, m 25348319799625940000000000000000000,
     m 21003972856577080000000000000000000, m 18262630930707580000000000000000000,
     m 15775332540774840000000000000000000, m 15134977258044020000000000000000000,
     m 14510528672339160000000000000000000, m 14047915299474590000000000000000000,
     m 14047915299474610000000000000000000, m 14510528672338870000000000000000000,
     m 15134977258044310000000000000000000, m 15775332540775550000000000000000000,
     m 18262630930707400000000000000000000, m 21003972856576990000000000000000000,
     m 25348319799626560000000000000000000, m 13222048374868410000000000000000000,
     m 8485451491606928000000000000000000, m 5156422331817216000000000000000000,
     m 2381936169195912000000000000000000, m 1280107831209319000000000000000000, m 368855789625797000000000000000000,
     m 150652517960716400000, m 368855789625302700000000000000000, m 1280107831209274000000000000000000,
     m 2381936169196350000000000000000000, m 5156422331817780000000000000000000,
     m 8485451491606900000000000000000000, m 13222048374868810000000000000000000, m 37257778484298030000000000000000,
     5027965849274903000000000000000000, 8872731580083158000000000000000000, 11737904012861410000000000000000000,
     13394812446357060000000000000000000, 14416771089099160000000000000000000, 14416771089099710000000000000000000,
     13394812446357440000000000000000000, 11737904012861510000000000000000000, 8872731580082449000000000000000000,
     5027965849274624000000000000000000, m 37257778484479780000000000000000, 13945316873451570000000000000000000,
     19312803090378760000000000000000000, 23405691459160730000000000000000000, 26165573388128920000000000000000000,
     28223680608522740000000000000000000, 29021057344676910000000000000000000, 28223680608523030000000000000000000,
     26165573388129320000000000000000000, 23405691459160510000000000000000000, 19312803090378450000000000000000000,
     13945316873451410000000000000000000, 28436009606145800000000000000000000, 33916242762994620000000000000000000,
     37982723185033820000000000000000000, 40445188537868160000000000000000000, 42460190411599290000000000000000000,
     42460190411598670000000000000000000, 40445188537868000000000000000000000, 37982723185034210000000000000000000,
     33916242762994680000000000000000000, 28436009606145670000000000000000000, 42929891090796970000000000000000000,
     48233472502490180000000000000000000, 52125085510593950000000000000000000, 54081060705888360000000000000000000,
     55301148760690800000000000000000000, 54081060705887260000000000000000000, 52125085510594470000000000000000000,
     48233472502490490000000000000000000, 42929891090796920000000000000000000, 56920650682683480000000000000000000,
     61797040075480750000000000000000000, 65348623256772020000000000000000000, 66430789050503950000000000000000000,
     66430789050503990000000000000000000, 65348623256772710000000000000000000, 61797040075480740000000000000000000,
     56920650682683320000000000000000000, 70114634345512320000000000000000000, 74349014478793590000000000000000000,
     77120644129502920000000000000000000, 77283658487162340000000000000000000, 77120644129504920000000000000000000,
     74349014478793270000000000000000000, 70114634345511890000000000000000000, 82242725420894130000000000000000000,
     85616285870386640000000000000000000, 87466008257047440000000000000000000, 87466008257048590000000000000000000,
     85616285870386400000000000000000000, 82242725420893790000000000000000000, 92826338169190120000000000000000000,
     95425822699780490000000000000000000, 96814345180277770000000000000000000, 95425822699779320000000000000000000,
     92826338169190200000000000000000000, 101438948907709600000000000000000000, 103521573175044200000000000000000000,
     103521573175042600000000000000000000, 101438948907709600000000000000000000,
     107885445022279500000000000000000000, 108573678242261700000000000000000000,
     107885445022279500000000000000000000, 112011288598502500000000000000000000,
     112011288598502600000000000000000000, 114566446049158200000000000000000000],
    []],
   [47434729603369150000000000000000, 171394171485104500000000000000000, 263253432399752600000000000000000,
    454013302817776600000000000000000, 630402039071066300000000000000000, 749269320861242100000000000000000,
    834138631356021300000000000000000, 903021666934854000000000000000000, 957700398062362400000000000000000,
    980103417463195000000000000000000, 957700398062347800000000000000000, 903021666934838600000000000000000,
    834138631356018600000000000000000, 749269320861241100000000000000000, 630402039071079600000000000000000,
    454013302817821700000000000000000, 263253432399755100000000000000000, 171394171485067700000000000000000,
    47434729603382880000000000000000, 171394171485065600000000000000000, 427897382703543100000000000000000,
    791603260536200400000000000000000, 1259241290874229000000000000000000, 1581526283993698000000000000000000,
    1790348537260168000000000000000000, 1971087954353484000000000000000000, 2131899566396174000000000000000000,
    2236559012425326000000000000000000, 2236559012425335000000000000000000, 2131899566396183000000000000000000,
    1971087954353461000000000000000000, 1790348537260075000000000000000000, 1581526283993534000000000000000000,
    1259241290874253000000000000000000, 791603260536306500000000000000000, 427897382703581300000000000000000,
    171394171485111400000000000000000, 263253432399776400000000000000000, 791603260536344400000000000000000,
    1460453049042301000000000000000000, 2075958191293315000000000000000000, 2504647064094287000000000000000000,
    2865826239744238000000000000000000, 3165611771665740000000000000000000, 3363770292960962000000000000000000,
    3434895067984112000000000000000000, 3363770292961071000000000000000000, 3165611771665944000000000000000000,
    2865826239744465000000000000000000, 2504647064094216000000000000000000, 2075958191293123000000000000000000,
    1460453049042258000000000000000000, 791603260536233000000000000000000, 263253432399751500000000000000000,
    454013302817852000000000000000000, 1259241290874273000000000000000000, 2075958191293140000000000000000000,
    2853840625847389000000000000000000, 3417646575529255000000000000000000, 3885101296900445000000000000000000,
    4222691310378054000000000000000000, 4401867750359191000000000000000000, 4401867750359176000000000000000000,
    4222691310378035000000000000000000, 3885101296900567000000000000000000, 3417646575529322000000000000000000,
    2853840625847347000000000000000000, 2075958191293194000000000000000000, 1259241290874233000000000000000000,
    454013302817781200000000000000000, 630402039071056200000000000000000, 1581526283993519000000000000000000,
    2504647064094251000000000000000000, 3417646575529329000000000000000000, 4164328749218054000000000000000000,
    4815412016015223000000000000000000, 5271955863740355000000000000000000, 5438569882720394000000000000000000,
    5271955863740335000000000000000000, 4815412016015230000000000000000000, 4164328749218120000000000000000000,
    3417646575529277000000000000000000, 2504647064094206000000000000000000, 1581526283993631000000000000000000,
    630402039071044100000000000000000, 749269320861228900000000000000000, 1790348537260130000000000000000000,
    2865826239744496000000000000000000, 3885101296900474000000000000000000, 4815412016015101000000000000000000,
    5592026908058544000000000000000000, 6020994324521257000000000000000000, 6020994324521272000000000000000000,
    5592026908058601000000000000000000, 4815412016015261000000000000000000, 3885101296900508000000000000000000,
    2865826239744295000000000000000000, 1790348537260160000000000000000000, 749269320861244200000000000000000,
    834138631356022100000000000000000, 1971087954353484000000000000000000, 3165611771665890000000000000000000,
    4222691310377889000000000000000000, 5271955863740297000000000000000000, 6020994324521291000000000000000000,
    6281112556851371000000000000000000, 6020994324521334000000000000000000, 5271955863740431000000000000000000,
    4222691310378092000000000000000000, 3165611771665830000000000000000000, 1971087954353466000000000000000000,
    834138631356043900000000000000000, 903021666934850900000000000000000, 2131899566396187000000000000000000,
    3363770292961047000000000000000000, 4401867750359171000000000000000000, 5438569882720457000000000000000000,
    6020994324521323000000000000000000, 6020994324521346000000000000000000, 5438569882720509000000000000000000,
    4401867750359321000000000000000000, 3363770292961143000000000000000000, 2131899566396197000000000000000000,
    903021666934875800000000000000000, 957700398062370100000000000000000, 2236559012425353000000000000000000,
    3434895067984170000000000000000000, 4401867750359306000000000000000000, 5271955863740448000000000000000000,
    5592026908058633000000000000000000, 5271955863740382000000000000000000, 4401867750359273000000000000000000,
    3434895067984313000000000000000000, 2236559012425407000000000000000000, 957700398062390300000000000000000,
    980103417463203000000000000000000, 2236559012425328000000000000000000, 3363770292961043000000000000000000,
    4222691310378180000000000000000000, 4815412016015319000000000000000000, 4815412016015202000000000000000000,
    4222691310377997000000000000000000, 3363770292961131000000000000000000, 2236559012425374000000000000000000,
    980103417463209900000000000000000, 957700398062340100000000000000000, 2131899566396141000000000000000000,
    3165611771665807000000000000000000, 3885101296900571000000000000000000, 4164328749218112000000000000000000,
    3885101296900566000000000000000000, 3165611771665887000000000000000000, 2131899566396139000000000000000000,
    957700398062330300000000000000000, 903021666934827200000000000000000, 1971087954353461000000000000000000,
    2865826239744295000000000000000000, 3417646575529287000000000000000000, 3417646575529347000000000000000000,
    2865826239744461000000000000000000, 1971087954353450000000000000000000, 903021666934819400000000000000000,
    834138631356027900000000000000000, 1790348537260178000000000000000000, 2504647064094248000000000000000000,
    2853840625847335000000000000000000, 2504647064094192000000000000000000, 1790348537260154000000000000000000,
    834138631356043700000000000000000, 749269320861266000000000000000000, 1581526283993677000000000000000000,
    2075958191293224000000000000000000, 2075958191293059000000000000000000, 1581526283993513000000000000000000,
    749269320861264200000000000000000, 630402039071077900000000000000000, 1259241290874214000000000000000000,
    1460453049042238000000000000000000, 1259241290874209000000000000000000, 630402039071053900000000000000000,
    454013302817779100000000000000000, 791603260536216700000000000000000, 791603260536300000000000000000000,
    454013302817816400000000000000000, 263253432399761200000000000000000, 427897382703594900000000000000000,
    263253432399781100000000000000000, 171394171485116100000000000000000, 171394171485061000000000000000000,
    47434729603372840000000000000000]⟩

/-- `triangle_data[19]` (vr_quad_data_tri.py 4241-4882). -/
def vrTri_19 : TableRule :=
  ⟨32,
   [
    [m 99042563948169760000000000000000000, m 96052304883274090000000000000000000,
     m 91790502030106080000000000000000000, m 86348950186827170000000000000000000,
     m 77540673806680790000000000000000000, m 65953435397654890000000000000000000,
     m 52732649867689630000000000000000000, m 38663051762462660000000000000000000,
     m 23838405298400600000000000000000000, m 8093097777771794000000000000000000, 8093097777706427000000000000000000,
     23838405298422430000000000000000000, 38663051762520080000000000000000000, 52732649867653080000000000000000000,
     65953435397570880000000000000000000, 77540673806686040000000000000000000, 86348950186899640000000000000000000,
     91790502030034710000000000000000000, 96052304883186470000000000000000000, 99042563948164240000000000000000000,
     m 97466076586334960000000000000000000, m 95060329323278540000000000000000000,
     m 90029584177384640000000000000000000, m 81994346110199210000000000000000000,
     m 71310076642134030000000000000000000, m 58707759733949360000000000000000000,
     m 45060716757164780000000000000000000, m 30858056424569470000000000000000000,
     m 15830171906783830000000000000000000, m 44080138682241580000000, 15830171906782940000000000000000000,
     30858056424654690000000000000000000, 45060716757146730000000000000000000, 58707759733817550000000000000000000,
     71310076642081210000000000000000000, 81994346110228490000000000000000000, 90029584177514210000000000000000000,
     95060329323355470000000000000000000, 97466076586391990000000000000000000, m 95422477807405220000000000000000000,
     m 92181173909417580000000000000000000, m 85045146509338810000000000000000000,
     m 75923027532661820000000000000000000, m 64624173435414470000000000000000000,
     m 51922276146164220000000000000000000, m 38287806854448710000000000000000000,
     m 23633487649008910000000000000000000, m 8004700387576616000000000000000000, 8004700387510774000000000000000000,
     23633487649092250000000000000000000, 38287806854519290000000000000000000, 51922276146045350000000000000000000,
     64624173435296670000000000000000000, 75923027532564770000000000000000000, 85045146509318700000000000000000000,
     92181173909364510000000000000000000, 95422477807446250000000000000000000, m 92579954846956000000000000000000000,
     m 87826071600853460000000000000000000, m 80171448170177910000000000000000000,
     m 71765542017811750000000000000000000, m 60367399969732860000000000000000000,
     m 47208961325517400000000000000000000, m 32504292861620260000000000000000000,
     m 16573542275454970000000000000000000, m 40473701754735580000000, 16573542275450050000000000000000000,
     32504292861740330000000000000000000, 47208961325610490000000000000000000, 60367399969838640000000000000000000,
     71765542017843330000000000000000000, 80171448170218430000000000000000000, 87826071600821170000000000000000000,
     92579954846929460000000000000000000, m 88143687577088100000000000000000000,
     m 82327372074880190000000000000000000, m 74140920008353070000000000000000000,
     m 65264253796313030000000000000000000, m 52948910018532500000000000000000000,
     m 39314350994864610000000000000000000, m 24316899917473360000000000000000000,
     m 8237740629712396000000000000000000, 8237740629600203000000000000000000, 24316899917423440000000000000000000,
     39314350994801280000000000000000000, 52948910018547670000000000000000000, 65264253796288480000000000000000000,
     74140920008419580000000000000000000, 82327372074891580000000000000000000, 88143687577081910000000000000000000,
     m 82328042351964050000000000000000000, m 75920965420859200000000000000000000,
     m 67584378170246450000000000000000000, m 58331761033311180000000000000000000,
     m 45712270614380630000000000000000000, m 31792191846872150000000000000000000,
     m 16343949595261690000000000000000000, 14400150328740870000000, 16343949595303100000000000000000000,
     31792191846876860000000000000000000, 45712270614439220000000000000000000, 58331761033352260000000000000000000,
     67584378170388410000000000000000000, 75920965420953960000000000000000000, 82328042352007670000000000000000000,
     m 75704434302970130000000000000000000, m 69057174094767460000000000000000000,
     m 60708530438775000000000000000000000, m 50852323875877350000000000000000000,
     m 37964834709576960000000000000000000, m 23650912159591960000000000000000000,
     m 8035871987529573000000000000000000, 8035871987521126000000000000000000, 23650912159512920000000000000000000,
     37964834709519340000000000000000000, 50852323875773480000000000000000000, 60708530438731080000000000000000000,
     69057174094787300000000000000000000, 75704434302989520000000000000000000, m 68666421740780310000000000000000000,
     m 61940860823489750000000000000000000, m 53319236092898790000000000000000000,
     m 42740572862771870000000000000000000, m 29713430326714930000000000000000000,
     m 15294987277222560000000000000000000, 36733225992933250000000, 15294987277229050000000000000000000,
     29713430326724040000000000000000000, 42740572862724480000000000000000000, 53319236092827250000000000000000000,
     61940860823430460000000000000000000, 68666421740747810000000000000000000, m 61249765366121010000000000000000000,
     m 54396255870211660000000000000000000, m 45438112907994680000000000000000000,
     m 34375392474802970000000000000000000, m 21475689697019020000000000000000000,
     m 7306962564233021000000000000000000, 7306962564307376000000000000000000, 21475689697103940000000000000000000,
     34375392474838870000000000000000000, 45438112908015730000000000000000000, 54396255870207690000000000000000000,
     61249765366106430000000000000000000, m 53371746370546650000000000000000000,
     m 46465797308276670000000000000000000, m 37433412520434870000000000000000000,
     m 26167030587264890000000000000000000, m 13647934792051000000000000000000000, 887400008347176100000,
     13647934792135440000000000000000000, 26167030587312290000000000000000000, 37433412520478480000000000000000000,
     46465797308322360000000000000000000, 53371746370578960000000000000000000, m 45278648592807610000000000000000000,
     m 38566083963415300000000000000000000, m 29685748443799140000000000000000000,
     m 18348031014133470000000000000000000, m 6397919619582282000000000000000000, 6397919619549389000000000000000000,
     18348031014120130000000000000000000, 29685748443800350000000000000000000, 38566083963427640000000000000000000,
     45278648592839130000000000000000000, m 37411360067705600000000000000000000,
     m 31082804398852210000000000000000000, m 22420723584268810000000000000000000,
     m 11122799707816340000000000000000000, m 37374162345389190000000, 11122799707687760000000000000000000,
     22420723584262970000000000000000000, 31082804398836260000000000000000000, 37411360067698090000000000000000000,
     m 30003369978286090000000000000000000, m 23996457337627770000000000000000000,
     m 15662102024239450000000000000000000, m 4896853826558405000000000000000000, 4896853826490651000000000000000000,
     15662102024225270000000000000000000, 23996457337625240000000000000000000, 30003369978257060000000000000000000,
     m 22971784435302750000000000000000000, m 17213205687018960000000000000000000,
     m 9516746573033884000000000000000000, m 9566932461237383000000, 9516746573083445000000000000000000,
     17213205687046780000000000000000000, 22971784435311820000000000000000000, m 16374606954352960000000000000000000,
     m 11017295432765610000000000000000000, m 4248420637559659000000000000000000, 4248420637620064000000000000000000,
     11017295432802790000000000000000000, 16374606954390620000000000000000000, m 10603013770393550000000000000000000,
     m 5831725490609414000000000000000000, 23869302865782580000000, 5831725490612985000000000000000000,
     10603013770401830000000000000000000, m 6231004660092546000000000000000000, m 2151589731965197000000000000000000,
     2151589731897274000000000000000000, 6231004660054057000000000000000000, m 3631975777349347000000000000000000,
     m 95752140465249650000000, 3631975777380490000000000000000000, m 1413771703119468000000000000000000,
     1413771703143592000000000000000000, 8328113976235097000000],
    [m 57182250956700320000000000000000000, m 57088307027381430000000000000000000,
     m 57189115441603630000000000000000000, m 57048534070261580000000000000000000,
     m 57011434604551900000000000000000000, m 56986001146754690000000000000000000,
     m 56970741451165790000000000000000000, m 56967030809869070000000000000000000,
     m 56962027327763910000000000000000000, m 56955832087773180000000000000000000,
     m 56955832087773090000000000000000000, m 56962027327768750000000000000000000,
     m 56967030809871280000000000000000000, m 56970741451158880000000000000000000,
     m 56986001146749870000000000000000000, m 57011434604560970000000000000000000,
     m 57048534070259470000000000000000000, m 57189115441605130000000000000000000,
     m 57088307027358450000000000000000000, m 57182250956710660000000000000000000,
     m 54639582607212160000000000000000000, m 54883106724139800000000000000000000,
     m 54463046481715340000000000000000000, m 54073354362440930000000000000000000,
     m 53892568912960040000000000000000000, m 53771038759939290000000000000000000,
     m 53724539156575040000000000000000000, m 53707238157088850000000000000000000,
     m 53671831927437230000000000000000000, m 53654081168110820000000000000000000,
     m 53671831927447850000000000000000000, m 53707238157114590000000000000000000,
     m 53724539156561170000000000000000000, m 53771038759899880000000000000000000,
     m 53892568912975160000000000000000000, m 54073354362460740000000000000000000,
     m 54463046481716670000000000000000000, m 54883106724008660000000000000000000,
     m 54639582607272070000000000000000000, m 50898348863333460000000000000000000,
     m 50736383749016370000000000000000000, m 49100838230407920000000000000000000,
     m 48739833981111960000000000000000000, m 48299776320584940000000000000000000,
     m 48062377749466360000000000000000000, m 47994697187711950000000000000000000,
     m 47922950166293980000000000000000000, m 47845897514259050000000000000000000,
     m 47845897514273690000000000000000000, m 47922950166338530000000000000000000,
     m 47994697187733650000000000000000000, m 48062377749374440000000000000000000,
     m 48299776320577610000000000000000000, m 48739833981122990000000000000000000,
     m 49100838230447390000000000000000000, m 50736383748913980000000000000000000,
     m 50898348863395010000000000000000000, m 46256117416836000000000000000000000,
     m 43972509516925640000000000000000000, m 41381353584860270000000000000000000,
     m 41433855002533920000000000000000000, m 40507534372719850000000000000000000,
     m 40099609340371880000000000000000000, m 39952843523691620000000000000000000,
     m 39783823401041340000000000000000000, m 39693284197653730000000000000000000,
     m 39783823401100040000000000000000000, m 39952843523745640000000000000000000,
     m 40099609340270430000000000000000000, m 40507534372695250000000000000000000,
     m 41433855002509670000000000000000000, m 41381353584945590000000000000000000,
     m 43972509516911540000000000000000000, m 46256117416788420000000000000000000,
     m 38646476040872780000000000000000000, m 34810053461374730000000000000000000,
     m 31816287733234300000000000000000000, m 32025934747932190000000000000000000,
     m 30570067452546000000000000000000000, m 30085832359115900000000000000000000,
     m 29798646365311660000000000000000000, m 29554052225247160000000000000000000,
     m 29554052225294250000000000000000000, m 29798646365399200000000000000000000,
     m 30085832359060560000000000000000000, m 30570067452488450000000000000000000,
     m 32025934747844320000000000000000000, m 31816287733332710000000000000000000,
     m 34810053461422080000000000000000000, m 38646476040879680000000000000000000,
     m 28624349947785570000000000000000000, m 23956891948814290000000000000000000,
     m 20934821290072370000000000000000000, m 20834355124120370000000000000000000,
     m 19004310515306950000000000000000000, m 18355230520913570000000000000000000,
     m 17873537305267410000000000000000000, m 17661130043492430000000000000000000,
     m 17873537305361560000000000000000000, m 18355230520910460000000000000000000,
     m 19004310515305840000000000000000000, m 20834355123997940000000000000000000,
     m 20934821290138970000000000000000000, m 23956891948900300000000000000000000,
     m 28624349947851180000000000000000000, m 17182443668687160000000000000000000,
     m 12161455846141050000000000000000000, m 9160864797321257000000000000000000,
     m 8173121588456378000000000000000000, m 6159729887113088000000000000000000,
     m 5217506894996591000000000000000000, m 4639512855118827000000000000000000,
     m 4639512855169350000000000000000000, m 5217506895016652000000000000000000,
     m 6159729887167263000000000000000000, m 8173121588374913000000000000000000,
     m 9160864797285858000000000000000000, m 12161455846148270000000000000000000,
     m 17182443668707140000000000000000000, m 4999669609239774000000000000000000, 129758303398003400000000000000000,
     3494274399026588000000000000000000, 5538803059298578000000000000000000, 7642933457595522000000000000000000,
     8830565021772766000000000000000000, 9279025710377474000000000000000000, 8830565021786792000000000000000000,
     7642933457507392000000000000000000, 5538803059280890000000000000000000, 3494274399071401000000000000000000,
     129758303452526700000000000000000, m 4999669609187687000000000000000000, 7836349089744030000000000000000000,
     13126584946175450000000000000000000, 16990674871859820000000000000000000, 19846642098853360000000000000000000,
     21911118767719750000000000000000000, 23091044200342730000000000000000000, 23091044200417310000000000000000000,
     21911118767680740000000000000000000, 19846642098802280000000000000000000, 16990674871803040000000000000000000,
     13126584946165630000000000000000000, 7836349089760494000000000000000000, 21469087773080360000000000000000000,
     26827040584095270000000000000000000, 30855222642458020000000000000000000, 34245020341765680000000000000000000,
     35958376252446570000000000000000000, 36710461041842690000000000000000000, 35958376252486160000000000000000000,
     34245020341806980000000000000000000, 30855222642415170000000000000000000, 26827040584018690000000000000000000,
     21469087773025300000000000000000000, 35486744314747990000000000000000000, 40545246981280310000000000000000000,
     44428675767238290000000000000000000, 48125965112074930000000000000000000, 49090142874362130000000000000000000,
     49090142874315940000000000000000000, 48125965112213270000000000000000000, 44428675767328470000000000000000000,
     40545246981280800000000000000000000, 35486744314693470000000000000000000, 49125678238009910000000000000000000,
     53577479853647000000000000000000000, 57155561985019180000000000000000000, 60933964464375980000000000000000000,
     61140134904964220000000000000000000, 60933964464394550000000000000000000, 57155561985077080000000000000000000,
     53577479853728210000000000000000000, 49125678238032770000000000000000000, 61966700419060560000000000000000000,
     65885995002719130000000000000000000, 68997199039611460000000000000000000, 72533469120582060000000000000000000,
     72533469120627970000000000000000000, 68997199039448730000000000000000000, 65885995002696940000000000000000000,
     61966700419115820000000000000000000, 74153185119866670000000000000000000, 77727930708824180000000000000000000,
     80116064053910450000000000000000000, 82867710005092600000000000000000000, 80116064053797820000000000000000000,
     77727930708693560000000000000000000, 74153185119836790000000000000000000, 85610351094599120000000000000000000,
     88702622374373150000000000000000000, 90121187566051270000000000000000000, 90121187565983380000000000000000000,
     88702622374335800000000000000000000, 85610351094523440000000000000000000, 95657910645429600000000000000000000,
     98045863879347030000000000000000000, 98201676460861120000000000000000000, 98045863879390590000000000000000000,
     95657910645433090000000000000000000, 103304651487040400000000000000000000, 105199430230642400000000000000000000,
     105199430230764800000000000000000000, 103304651487107200000000000000000000,
     108087464304993300000000000000000000, 109766213448158600000000000000000000,
     108087464304940800000000000000000000, 111727889634658300000000000000000000,
     111727889634555500000000000000000000, 114364501913414900000000000000000000],
    []],
   [65233074659031160000000000000000, 166542846691797100000000000000000, 169792654930629300000000000000000,
    321881399144931700000000000000000, 507128233613159900000000000000000, 634538401467381900000000000000000,
    707384187222263300000000000000000, 745864805679512300000000000000000, 797423557307754900000000000000000,
    846263202988770400000000000000000, 846263202991549400000000000000000, 797423557307837100000000000000000,
    745864805675149500000000000000000, 707384187223355100000000000000000, 634538401472381600000000000000000,
    507128233613085900000000000000000, 321881399144291200000000000000000, 169792654924616100000000000000000,
    166542846702522400000000000000000, 65233074659043340000000000000000, 166542846702221900000000000000000,
    253023749504296300000000000000000, 644811657902652700000000000000000, 1007446386644781000000000000000000,
    1329009339913520000000000000000000, 1551428661448465000000000000000000, 1651447345208812000000000000000000,
    1732930201067814000000000000000000, 1864545386043287000000000000000000, 1930909253888154000000000000000000,
    1864545386054272000000000000000000, 1732930201057888000000000000000000, 1651447345195716000000000000000000,
    1551428661460109000000000000000000, 1329009339919976000000000000000000, 1007446386652261000000000000000000,
    644811657907416100000000000000000, 253023749502835500000000000000000, 166542846692612400000000000000000,
    169792654925513800000000000000000, 644811657906595600000000000000000, 1298502354862214000000000000000000,
    1678913124636871000000000000000000, 2103463134648213000000000000000000, 2371912606166288000000000000000000,
    2561196632339163000000000000000000, 2784051786046975000000000000000000, 2942643935454983000000000000000000,
    2942643935469313000000000000000000, 2784051786059235000000000000000000, 2561196632309825000000000000000000,
    2371912606163362000000000000000000, 2103463134651306000000000000000000, 1678913124651485000000000000000000,
    1298502354863200000000000000000000, 644811657902155100000000000000000, 169792654929255300000000000000000,
    321881399142979000000000000000000, 1007446386650514000000000000000000, 1678913124651023000000000000000000,
    2117050758056643000000000000000000, 2783668123002127000000000000000000, 3284492101324905000000000000000000,
    3674878917830867000000000000000000, 3946501978088558000000000000000000, 4044757251498786000000000000000000,
    3946501978108946000000000000000000, 3674878917847820000000000000000000, 3284492101322891000000000000000000,
    2783668122997893000000000000000000, 2117050758054424000000000000000000, 1678913124634770000000000000000000,
    1007446386643783000000000000000000, 321881399144047000000000000000000, 507128233612715700000000000000000,
    1329009339920679000000000000000000, 2103463134656897000000000000000000, 2783668122996234000000000000000000,
    3535459889584929000000000000000000, 4057408388081932000000000000000000, 4506308865705787000000000000000000,
    4779446928138926000000000000000000, 4779446928146555000000000000000000, 4506308865716773000000000000000000,
    4057408388089925000000000000000000, 3535459889589548000000000000000000, 2783668123003341000000000000000000,
    2103463134652690000000000000000000, 1329009339914650000000000000000000, 507128233613372800000000000000000,
    634538401472612400000000000000000, 1551428661461730000000000000000000, 2371912606163842000000000000000000,
    3284492101317082000000000000000000, 4057408388086140000000000000000000, 4738985453736429000000000000000000,
    5264302957180104000000000000000000, 5452241244100795000000000000000000, 5264302957184792000000000000000000,
    4738985453733955000000000000000000, 4057408388080401000000000000000000, 3284492101322997000000000000000000,
    2371912606165501000000000000000000, 1551428661450095000000000000000000, 634538401467988000000000000000000,
    707384187223843400000000000000000, 1651447345195982000000000000000000, 2561196632304381000000000000000000,
    3674878917843735000000000000000000, 4506308865716684000000000000000000, 5264302957185833000000000000000000,
    5695718608515374000000000000000000, 5695718608514931000000000000000000, 5264302957178254000000000000000000,
    4506308865704087000000000000000000, 3674878917828970000000000000000000, 2561196632333397000000000000000000,
    1651447345207727000000000000000000, 707384187222768500000000000000000, 745864805675059700000000000000000,
    1732930201056435000000000000000000, 2784051786054409000000000000000000, 3946501978107228000000000000000000,
    4779446928146156000000000000000000, 5452241244099130000000000000000000, 5695718608513758000000000000000000,
    5452241244098644000000000000000000, 4779446928137659000000000000000000, 3946501978087411000000000000000000,
    2784051786043875000000000000000000, 1732930201065193000000000000000000, 745864805678942600000000000000000,
    797423557307332300000000000000000, 1864545386052885000000000000000000, 2942643935468195000000000000000000,
    4044757251498481000000000000000000, 4779446928136336000000000000000000, 5264302957174777000000000000000000,
    5264302957180875000000000000000000, 4779446928144365000000000000000000, 4044757251497669000000000000000000,
    2942643935454391000000000000000000, 1864545386041722000000000000000000, 797423557306782900000000000000000,
    846263202990935000000000000000000, 1930909253887676000000000000000000, 2942643935456543000000000000000000,
    3946501978089309000000000000000000, 4506308865701871000000000000000000, 4738985453727846000000000000000000,
    4506308865713162000000000000000000, 3946501978107383000000000000000000, 2942643935468836000000000000000000,
    1930909253887108000000000000000000, 846263202987885400000000000000000, 846263202988200800000000000000000,
    1864545386042676000000000000000000, 2784051786047387000000000000000000, 3674878917833161000000000000000000,
    4057408388084098000000000000000000, 4057408388089135000000000000000000, 3674878917846030000000000000000000,
    2784051786056343000000000000000000, 1864545386052779000000000000000000, 846263202990808900000000000000000,
    797423557307036200000000000000000, 1732930201064860000000000000000000, 2561196632334758000000000000000000,
    3284492101329157000000000000000000, 3535459889598715000000000000000000, 3284492101322545000000000000000000,
    2561196632304120000000000000000000, 1732930201054898000000000000000000, 797423557307067000000000000000000,
    745864805678823100000000000000000, 1651447345206498000000000000000000, 2371912606163429000000000000000000,
    2783668123005096000000000000000000, 2783668122999907000000000000000000, 2371912606162619000000000000000000,
    1651447345194196000000000000000000, 745864805674419100000000000000000, 707384187222381100000000000000000,
    1551428661449443000000000000000000, 2103463134648820000000000000000000, 2117050758048889000000000000000000,
    2103463134655125000000000000000000, 1551428661461808000000000000000000, 707384187223465500000000000000000,
    634538401467920000000000000000000, 1329009339915174000000000000000000, 1678913124636116000000000000000000,
    1678913124649092000000000000000000, 1329009339921754000000000000000000, 634538401472842500000000000000000,
    507128233613607800000000000000000, 1007446386646081000000000000000000, 1298502354866266000000000000000000,
    1007446386652825000000000000000000, 507128233613548000000000000000000, 321881399144706300000000000000000,
    644811657902413400000000000000000, 644811657908642400000000000000000, 321881399144108400000000000000000,
    169792654929215400000000000000000, 253023749499810300000000000000000, 169792654922676200000000000000000,
    166542846692031800000000000000000, 166542846704549000000000000000000, 65233074658724510000000000000000]⟩

/-- `triangle_data[20]` (vr_quad_data_tri.py 4883-5587). -/
def vrTri_20 : TableRule :=
  ⟨33,
   [
    [m 99149870613856060000000000000000000, m 97318492917120460000000000000000000,
     m 93361616666660450000000000000000000, m 87093662650251800000000000000000000,
     m 78902193305619550000000000000000000, m 68825073576145100000000000000000000,
     m 57093450425034570000000000000000000, m 44026611102377710000000000000000000,
     m 29936985061337050000000000000000000, m 15145317748257520000000000000000000, m 53948271938938440000,
     15145317748257540000000000000000000, 29936985061337020000000000000000000, 44026611102377210000000000000000000,
     57093450425034140000000000000000000, 68825073576145520000000000000000000, 78902193305619850000000000000000000,
     87093662650250920000000000000000000, 93361616666660360000000000000000000, 97318492917120500000000000000000000,
     99149870613856150000000000000000000, m 98308288570236230000000000000000000,
     m 95543168516611590000000000000000000, m 90277823370168630000000000000000000,
     m 83087606826507290000000000000000000, m 74192029897698880000000000000000000,
     m 63168672980458300000000000000000000, m 50594708540929040000000000000000000,
     m 36972577804322630000000000000000000, m 22553168222834260000000000000000000,
     m 7583311963980857000000000000000000, 7583311963980478000000000000000000, 22553168222834430000000000000000000,
     36972577804322970000000000000000000, 50594708540929420000000000000000000, 63168672980459360000000000000000000,
     74192029897700220000000000000000000, 83087606826507670000000000000000000, 90277823370170250000000000000000000,
     95543168516611510000000000000000000, 98308288570236620000000000000000000, m 96182670703674700000000000000000000,
     m 92399955591277580000000000000000000, m 86450681794017060000000000000000000,
     m 78460341192561600000000000000000000, m 68638873307594830000000000000000000,
     m 56731131981929230000000000000000000, m 43702545889810770000000000000000000,
     m 29839690686411890000000000000000000, m 15160981006584870000000000000000000, 152361100899823900000,
     15160981006584990000000000000000000, 29839690686411310000000000000000000, 43702545889809540000000000000000000,
     56731131981928410000000000000000000, 68638873307593640000000000000000000, 78460341192558680000000000000000000,
     86450681794016180000000000000000000, 92399955591275480000000000000000000, 96182670703674270000000000000000000,
     m 92978302817563350000000000000000000, m 88554423369829670000000000000000000,
     m 81936951440499930000000000000000000, m 73240401647937700000000000000000000,
     m 62771794243994270000000000000000000, m 50305530846831380000000000000000000,
     m 36891882060202650000000000000000000, m 22586261208329750000000000000000000,
     m 7600095256339588000000000000000000, 7600095256340205000000000000000000, 22586261208329390000000000000000000,
     36891882060201270000000000000000000, 50305530846831060000000000000000000, 62771794243995050000000000000000000,
     73240401647938020000000000000000000, 81936951440502280000000000000000000, 88554423369830110000000000000000000,
     92978302817564050000000000000000000, m 88881858516033090000000000000000000,
     m 84074213680360380000000000000000000, m 76861924304914480000000000000000000,
     m 67612840671547220000000000000000000, m 56456169449378070000000000000000000,
     m 43470846681522920000000000000000000, m 29739971387206240000000000000000000,
     m 15139233803733770000000000000000000, 1099195418521473000000, 15139233803735320000000000000000000,
     29739971387206160000000000000000000, 43470846681522440000000000000000000, 56456169449377210000000000000000000,
     67612840671545410000000000000000000, 76861924304914090000000000000000000, 84074213680359380000000000000000000,
     88881858516033110000000000000000000, m 83815205701193240000000000000000000,
     m 78398311938285280000000000000000000, m 70536016468463930000000000000000000,
     m 60806508292166280000000000000000000, m 49276589206031590000000000000000000,
     m 36307196509134320000000000000000000, m 22517543222926120000000000000000000,
     m 7648401051176164000000000000000000, 7648401051175815000000000000000000, 22517543222925280000000000000000000,
     36307196509134100000000000000000000, 49276589206031350000000000000000000, 60806508292165740000000000000000000,
     70536016468463600000000000000000000, 78398311938284210000000000000000000, 83815205701192990000000000000000000,
     m 77925381726248270000000000000000000, m 72032605836369520000000000000000000,
     m 63943256173288110000000000000000000, m 54088935389659440000000000000000000,
     m 42466200685834330000000000000000000, m 29418158838725420000000000000000000,
     m 15173702349410910000000000000000000, 154829531034833100000, 15173702349410930000000000000000000,
     29418158838726030000000000000000000, 42466200685834650000000000000000000, 54088935389660360000000000000000000,
     63943256173288750000000000000000000, 72032605836369190000000000000000000, 77925381726248270000000000000000000,
     m 71390624226042490000000000000000000, m 65245991151466040000000000000000000,
     m 57084737799470760000000000000000000, m 47011301440125030000000000000000000,
     m 35159556648915160000000000000000000, m 21863393382266390000000000000000000,
     m 7441888402959237000000000000000000, 7441888402958868000000000000000000, 21863393382266480000000000000000000,
     35159556648914270000000000000000000, 47011301440125090000000000000000000, 57084737799470980000000000000000000,
     65245991151465840000000000000000000, 71390624226042360000000000000000000, m 64352327820601990000000000000000000,
     m 58054908903108810000000000000000000, m 49743870493961020000000000000000000,
     m 39470103303947870000000000000000000, m 27524411751192130000000000000000000,
     m 14214992331090380000000000000000000, m 281716437642776300000, 14214992331090560000000000000000000,
     27524411751191130000000000000000000, 39470103303947500000000000000000000, 49743870493960870000000000000000000,
     58054908903108730000000000000000000, 64352327820601630000000000000000000, m 56956241521418320000000000000000000,
     m 50557622686320770000000000000000000, m 42139046310772430000000000000000000,
     m 31870008047607860000000000000000000, m 20020322845180450000000000000000000,
     m 6900615615800021000000000000000000, 6900615615800076000000000000000000, 20020322845179880000000000000000000,
     31870008047607760000000000000000000, 42139046310772410000000000000000000, 50557622686321120000000000000000000,
     56956241521418110000000000000000000, m 49381469228830480000000000000000000,
     m 42974310722340010000000000000000000, m 34582889487375910000000000000000000,
     m 24425040231795370000000000000000000, m 12726229298628320000000000000000000, 354055368171940500000,
     12726229298628040000000000000000000, 24425040231795580000000000000000000, 34582889487376010000000000000000000,
     42974310722340350000000000000000000, 49381469228830430000000000000000000, m 41810923773160620000000000000000000,
     m 35501740680274290000000000000000000, m 27245047113059120000000000000000000,
     m 17197053329457780000000000000000000, m 5805742524508234000000000000000000, 5805742524509182000000000000000000,
     17197053329458020000000000000000000, 27245047113059240000000000000000000, 35501740680274180000000000000000000,
     41810923773160460000000000000000000, m 34415342759264730000000000000000000,
     m 28273413347143230000000000000000000, m 20240710283478070000000000000000000,
     m 10500977445334460000000000000000000, 836461390572853400000, 10500977445335290000000000000000000,
     20240710283478440000000000000000000, 28273413347142870000000000000000000, 34415342759264590000000000000000000,
     m 27364013123664890000000000000000000, m 21437897295440290000000000000000000,
     m 13804884486534420000000000000000000, m 4841046427551292000000000000000000, 4841046427552170000000000000000000,
     13804884486535550000000000000000000, 21437897295440130000000000000000000, 27364013123665120000000000000000000,
     m 20831931301213830000000000000000000, m 15229638957825990000000000000000000,
     m 8223050997319206000000000000000000, m 289640332444499700000, 8223050997320734000000000000000000,
     15229638957826010000000000000000000, 20831931301214230000000000000000000, m 14990132125047840000000000000000000,
     m 9882183782660476000000000000000000, m 3476610247940627000000000000000000, 3476610247941285000000000000000000,
     9882183782660088000000000000000000, 14990132125047850000000000000000000, m 9979665210413433000000000000000000,
     m 5466816543322907000000000000000000, 743252088522803300000, 5466816543322009000000000000000000,
     9979665210413277000000000000000000, m 5884640167312196000000000000000000, m 2122132221106886000000000000000000,
     2122132221107052000000000000000000, 5884640167312515000000000000000000, m 2821054037013645000000000000000000,
     19902083663051770000, 2821054037014254000000000000000000, m 989795653116167200000000000000000,
     989795653115829600000000000000000, m 128473895240095900000],
    [m 57244204489026350000000000000000000, m 57329775656366990000000000000000000,
     m 57159827129811760000000000000000000, m 57078546745196920000000000000000000,
     m 57077727335960450000000000000000000, m 57045288391352080000000000000000000,
     m 57017561260849500000000000000000000, m 57016016457577510000000000000000000,
     m 57023541196518250000000000000000000, m 57023249469921350000000000000000000,
     m 57020809104489000000000000000000000, m 57023249469921360000000000000000000,
     m 57023541196518240000000000000000000, m 57016016457577490000000000000000000,
     m 57017561260849550000000000000000000, m 57045288391352210000000000000000000,
     m 57077727335960460000000000000000000, m 57078546745196780000000000000000000,
     m 57159827129812280000000000000000000, m 57329775656366440000000000000000000,
     m 57244204489026320000000000000000000, m 55615399296059100000000000000000000,
     m 55161874062295560000000000000000000, m 54572352842844380000000000000000000,
     m 54283188173401330000000000000000000, m 54245751367361880000000000000000000,
     m 54056122653542230000000000000000000, m 53965220144439960000000000000000000,
     m 53993453361725440000000000000000000, m 54014956821445650000000000000000000,
     m 54000686931316630000000000000000000, m 54000686931316680000000000000000000,
     m 54014956821445690000000000000000000, m 53993453361725330000000000000000000,
     m 53965220144439980000000000000000000, m 54056122653542800000000000000000000,
     m 54245751367362260000000000000000000, m 54283188173400730000000000000000000,
     m 54572352842845700000000000000000000, m 55161874062295380000000000000000000,
     m 55615399296058840000000000000000000, m 52273618206806470000000000000000000,
     m 50896712015509160000000000000000000, m 49912324405401480000000000000000000,
     m 49313542833267290000000000000000000, m 49123833394737000000000000000000000,
     m 48694241870063720000000000000000000, m 48603635695264820000000000000000000,
     m 48687824019952520000000000000000000, m 48686077575113740000000000000000000,
     m 48657979461837090000000000000000000, m 48686077575113850000000000000000000,
     m 48687824019952410000000000000000000, m 48603635695264650000000000000000000,
     m 48694241870064560000000000000000000, m 49123833394738020000000000000000000,
     m 49313542833266450000000000000000000, m 49912324405402930000000000000000000,
     m 50896712015508310000000000000000000, m 52273618206806810000000000000000000,
     m 46886050991150740000000000000000000, m 44814384164708610000000000000000000,
     m 43291877245717290000000000000000000, m 42285365606993430000000000000000000,
     m 41831271220498130000000000000000000, m 41169396085781100000000000000000000,
     m 41156984776431410000000000000000000, m 41243791094205330000000000000000000,
     m 41188232492838380000000000000000000, m 41188232492838490000000000000000000,
     m 41243791094205330000000000000000000, m 41156984776431040000000000000000000,
     m 41169396085782040000000000000000000, m 41831271220499680000000000000000000,
     m 42285365606993080000000000000000000, m 43291877245719420000000000000000000,
     m 44814384164708020000000000000000000, m 46886050991151640000000000000000000,
     m 39792440148996890000000000000000000, m 37129306966061940000000000000000000,
     m 34881091274148770000000000000000000, m 33446332846179580000000000000000000,
     m 32594984629012550000000000000000000, m 31801799052219190000000000000000000,
     m 31865364308759110000000000000000000, m 31858118279766620000000000000000000,
     m 31782453067673120000000000000000000, m 31858118279766690000000000000000000,
     m 31865364308758670000000000000000000, m 31801799052220000000000000000000000,
     m 32594984629013970000000000000000000, m 33446332846179670000000000000000000,
     m 34881091274150240000000000000000000, m 37129306966060990000000000000000000,
     m 39792440148996950000000000000000000, m 31081617938598890000000000000000000,
     m 27677614197658140000000000000000000, m 24783480546765490000000000000000000,
     m 22981169621326210000000000000000000, m 21745958024106850000000000000000000,
     m 20961969678068850000000000000000000, m 20968654207957840000000000000000000,
     m 20829865703533760000000000000000000, m 20829865703533750000000000000000000,
     m 20968654207957390000000000000000000, m 20961969678069550000000000000000000,
     m 21745958024107720000000000000000000, m 22981169621326910000000000000000000,
     m 24783480546766460000000000000000000, m 27677614197657420000000000000000000,
     m 31081617938598710000000000000000000, m 20935597827362260000000000000000000,
     m 16833692821294470000000000000000000, m 13545697102997850000000000000000000,
     m 11370814669338070000000000000000000, m 9822888574763560000000000000000000,
     m 9016437357888584000000000000000000, m 8760541136035830000000000000000000,
     m 8593152545455114000000000000000000, m 8760541136035314000000000000000000,
     m 9016437357889154000000000000000000, m 9822888574763482000000000000000000,
     m 11370814669339000000000000000000000, m 13545697102998610000000000000000000,
     m 16833692821293920000000000000000000, m 20935597827362330000000000000000000,
     m 9620155428408154000000000000000000, m 5022464941077820000000000000000000,
     m 1498018165525905000000000000000000, 1061619564178425000000000000000000, 2818098072016364000000000000000000,
     3791223243117067000000000000000000, 4296576272727459000000000000000000, 4296576272727975000000000000000000,
     3791223243116796000000000000000000, 2818098072017573000000000000000000, 1061619564178137000000000000000000,
     m 1498018165526200000000000000000000, m 5022464941077290000000000000000000,
     m 9620155428407889000000000000000000, 2585581022425696000000000000000000, 7475861793924218000000000000000000,
     11213244089560890000000000000000000, 14012240683247000000000000000000000, 15891226533835520000000000000000000,
     17038642460417100000000000000000000, 17521082272071520000000000000000000, 17038642460416830000000000000000000,
     15891226533837300000000000000000000, 14012240683247410000000000000000000, 11213244089560880000000000000000000,
     7475861793924232000000000000000000, 2585581022426319000000000000000000, 15395394816582100000000000000000000,
     20433002660028830000000000000000000, 24328989730918370000000000000000000, 27175991809590870000000000000000000,
     29040020207748880000000000000000000, 29985091565847170000000000000000000, 29985091565846160000000000000000000,
     29040020207750100000000000000000000, 27175991809591370000000000000000000, 24328989730918470000000000000000000,
     20433002660028160000000000000000000, 15395394816582440000000000000000000, 28510404552244500000000000000000000,
     33567684271288360000000000000000000, 37472833485552780000000000000000000, 40182171530027290000000000000000000,
     41688252883522600000000000000000000, 41923939356138310000000000000000000, 41688252883522080000000000000000000,
     40182171530026940000000000000000000, 37472833485552890000000000000000000, 33567684271287870000000000000000000,
     28510404552244590000000000000000000, 41627854653339070000000000000000000, 46539095027521380000000000000000000,
     50185842185478990000000000000000000, 52527799445770590000000000000000000, 53547757076326900000000000000000000,
     53547757076326730000000000000000000, 52527799445769260000000000000000000, 50185842185478510000000000000000000,
     46539095027521660000000000000000000, 41627854653339370000000000000000000, 54437960174092310000000000000000000,
     59015918302802810000000000000000000, 62149332798263830000000000000000000, 64150565707108090000000000000000000,
     65189969258026770000000000000000000, 64150565707108450000000000000000000, 62149332798262730000000000000000000,
     59015918302803190000000000000000000, 54437960174092550000000000000000000, 66636171885985910000000000000000000,
     70798912965733920000000000000000000, 73477722416830500000000000000000000, 75277604066677920000000000000000000,
     75277604066679570000000000000000000, 73477722416830180000000000000000000, 70798912965734210000000000000000000,
     66636171885985450000000000000000000, 77953159088212210000000000000000000, 81733736851199580000000000000000000,
     84004924668887450000000000000000000, 84570731213986200000000000000000000, 84004924668886860000000000000000000,
     81733736851200680000000000000000000, 77953159088211600000000000000000000, 88126906329950900000000000000000000,
     91375058333422680000000000000000000, 92605420078986440000000000000000000, 92605420078983400000000000000000000,
     91375058333424100000000000000000000, 88126906329951150000000000000000000, 96870167484957270000000000000000000,
     99097572338109080000000000000000000, 99824648810804460000000000000000000, 99097572338109310000000000000000000,
     96870167484957550000000000000000000, 103964597736348500000000000000000000, 105469064858353000000000000000000000,
     105469064858355000000000000000000000, 103964597736347600000000000000000000,
     109433445336618800000000000000000000, 110323748124591200000000000000000000,
     109433445336618600000000000000000000, 112945174952425700000000000000000000,
     112945174952425700000000000000000000, 114488408978052800000000000000000000],
    []],
   [40380742420455790000000000000000, 77021530683076850000000000000000, 198166981450685900000000000000000,
    320237205276600500000000000000000, 405817398663527600000000000000000, 508774713303125700000000000000000,
    602221866740039000000000000000000, 660904528359950600000000000000000, 695697414394955400000000000000000,
    721415164267133400000000000000000, 732383257868097000000000000000000, 721415164267128400000000000000000,
    695697414394944000000000000000000, 660904528359951800000000000000000, 602221866740028100000000000000000,
    508774713303061900000000000000000, 405817398663482900000000000000000, 320237205276631000000000000000000,
    198166981450575500000000000000000, 77021530683143710000000000000000, 40380742420451420000000000000000,
    77021530683136640000000000000000, 305711344301186200000000000000000, 563099196186010000000000000000000,
    808578741274230100000000000000000, 1028616320645236000000000000000000, 1287520315340830000000000000000000,
    1465709050187036000000000000000000, 1556608416800232000000000000000000, 1623974204538972000000000000000000,
    1672692718714403000000000000000000, 1672692718714431000000000000000000, 1623974204539013000000000000000000,
    1556608416800267000000000000000000, 1465709050187044000000000000000000, 1287520315340714000000000000000000,
    1028616320645137000000000000000000, 808578741274287700000000000000000, 563099196185830900000000000000000,
    305711344301189700000000000000000, 77021530683084980000000000000000, 198166981450565000000000000000000,
    563099196185840000000000000000000, 953465451178598000000000000000000, 1369994796354988000000000000000000,
    1745537809875104000000000000000000, 2100399459023692000000000000000000, 2290877323724500000000000000000000,
    2419183293233439000000000000000000, 2537390823544299000000000000000000, 2586326278013549000000000000000000,
    2537390823544212000000000000000000, 2419183293233326000000000000000000, 2290877323724479000000000000000000,
    2100399459023527000000000000000000, 1745537809874851000000000000000000, 1369994796355013000000000000000000,
    953465451178590800000000000000000, 563099196186012900000000000000000, 198166981450677300000000000000000,
    320237205276656900000000000000000, 808578741274312900000000000000000, 1369994796355007000000000000000000,
    1920220699859326000000000000000000, 2430742486685139000000000000000000, 2857915647737479000000000000000000,
    3091976823578473000000000000000000, 3274602421745745000000000000000000, 3383753574696337000000000000000000,
    3383753574696216000000000000000000, 3274602421745495000000000000000000, 3091976823578442000000000000000000,
    2857915647737567000000000000000000, 2430742486685251000000000000000000, 1920220699859343000000000000000000,
    1369994796354979000000000000000000, 808578741274227000000000000000000, 320237205276609000000000000000000,
    405817398663483200000000000000000, 1028616320645119000000000000000000, 1745537809874853000000000000000000,
    2430742486685273000000000000000000, 3086443400800901000000000000000000, 3534152622451153000000000000000000,
    3803306405288837000000000000000000, 4022748523361081000000000000000000, 4106605533804509000000000000000000,
    4022748523360792000000000000000000, 3803306405288473000000000000000000, 3534152622450910000000000000000000,
    3086443400800886000000000000000000, 2430742486685184000000000000000000, 1745537809875134000000000000000000,
    1028616320645233000000000000000000, 405817398663528100000000000000000, 508774713303054500000000000000000,
    1287520315340715000000000000000000, 2100399459023553000000000000000000, 2857915647737573000000000000000000,
    3534152622450886000000000000000000, 3975288936073518000000000000000000, 4384400301738123000000000000000000,
    4669645206838966000000000000000000, 4669645206838936000000000000000000, 4384400301738093000000000000000000,
    3975288936073536000000000000000000, 3534152622451101000000000000000000, 2857915647737474000000000000000000,
    2100399459023720000000000000000000, 1287520315340846000000000000000000, 508774713303136900000000000000000,
    602221866740017200000000000000000, 1465709050187035000000000000000000, 2290877323724450000000000000000000,
    3091976823578387000000000000000000, 3803306405288433000000000000000000, 4384400301738064000000000000000000,
    4919209090625008000000000000000000, 5113735821968909000000000000000000, 4919209090625013000000000000000000,
    4384400301738154000000000000000000, 3803306405288818000000000000000000, 3091976823578434000000000000000000,
    2290877323724476000000000000000000, 1465709050187032000000000000000000, 602221866740050600000000000000000,
    660904528359935400000000000000000, 1556608416800246000000000000000000, 2419183293233287000000000000000000,
    3274602421745473000000000000000000, 4022748523360788000000000000000000, 4669645206838913000000000000000000,
    5113735821968895000000000000000000, 5113735821968897000000000000000000, 4669645206838955000000000000000000,
    4022748523361072000000000000000000, 3274602421745710000000000000000000, 2419183293233380000000000000000000,
    1556608416800194000000000000000000, 660904528359944900000000000000000, 695697414394936700000000000000000,
    1623974204539017000000000000000000, 2537390823544211000000000000000000, 3383753574696220000000000000000000,
    4106605533804512000000000000000000, 4669645206838935000000000000000000, 4919209090624984000000000000000000,
    4669645206838900000000000000000000, 4106605533804497000000000000000000, 3383753574696317000000000000000000,
    2537390823544262000000000000000000, 1623974204538941000000000000000000, 695697414394938600000000000000000,
    721415164267137700000000000000000, 1672692718714456000000000000000000, 2586326278013570000000000000000000,
    3383753574696340000000000000000000, 4022748523361084000000000000000000, 4384400301738083000000000000000000,
    4384400301738022000000000000000000, 4022748523360785000000000000000000, 3383753574696221000000000000000000,
    2586326278013565000000000000000000, 1672692718714420000000000000000000, 721415164267128100000000000000000,
    732383257868110500000000000000000, 1672692718714416000000000000000000, 2537390823544311000000000000000000,
    3274602421745727000000000000000000, 3803306405288828000000000000000000, 3975288936073509000000000000000000,
    3803306405288471000000000000000000, 3274602421745510000000000000000000, 2537390823544253000000000000000000,
    1672692718714475000000000000000000, 732383257868108200000000000000000, 721415164267136700000000000000000,
    1623974204538954000000000000000000, 2419183293233427000000000000000000, 3091976823578435000000000000000000,
    3534152622451169000000000000000000, 3534152622450962000000000000000000, 3091976823578446000000000000000000,
    2419183293233339000000000000000000, 1623974204539023000000000000000000, 721415164267135700000000000000000,
    695697414394950300000000000000000, 1556608416800204000000000000000000, 2290877323724489000000000000000000,
    2857915647737482000000000000000000, 3086443400800938000000000000000000, 2857915647737582000000000000000000,
    2290877323724462000000000000000000, 1556608416800229000000000000000000, 695697414394931400000000000000000,
    660904528359948000000000000000000, 1465709050187027000000000000000000, 2100399459023697000000000000000000,
    2430742486685137000000000000000000, 2430742486685221000000000000000000, 2100399459023515000000000000000000,
    1465709050187019000000000000000000, 660904528359935000000000000000000, 602221866740038900000000000000000,
    1287520315340826000000000000000000, 1745537809875079000000000000000000, 1920220699859300000000000000000000,
    1745537809874826000000000000000000, 1287520315340717000000000000000000, 602221866740025000000000000000000,
    508774713303118400000000000000000, 1028616320645221000000000000000000, 1369994796354976000000000000000000,
    1369994796355045000000000000000000, 1028616320645155000000000000000000, 508774713303065500000000000000000,
    405817398663525200000000000000000, 808578741274265100000000000000000, 953465451178612300000000000000000,
    808578741274340800000000000000000, 405817398663488600000000000000000, 320237205276614600000000000000000,
    563099196186015200000000000000000, 563099196185826000000000000000000, 320237205276647100000000000000000,
    198166981450669900000000000000000, 305711344301174000000000000000000, 198166981450567700000000000000000,
    77021530683075150000000000000000, 77021530683131530000000000000000, 40380742420452460000000000000000]⟩

/-- `triangle_data` in vr_quad_data_tri.py. -/
def vrTri : List (Int × TableRule) :=
  [(0, vrTri_0), (1, vrTri_1), (2, vrTri_2), (3, vrTri_3), (4, vrTri_4), (5, vrTri_5), (6, vrTri_6), (7, vrTri_7),
   (8, vrTri_8), (9, vrTri_9), (10, vrTri_10), (11, vrTri_11), (12, vrTri_12), (13, vrTri_13), (14, vrTri_14),
   (15, vrTri_15), (16, vrTri_16), (17, vrTri_17), (18, vrTri_18), (19, vrTri_19), (20, vrTri_20)]

/-- `tetrahedron_data[0]` (vr_quad_data_tet.py 29-37). -/
def vrTet_0 : TableRule :=
  ⟨1,
   [
    [0],
    [0],
    [0]],
   [100000000000000000000000000000000000]⟩

/-- `tetrahedron_data[1]` (vr_quad_data_tet.py 38-66). -/
def vrTet_1 : TableRule :=
  ⟨2,
   [
    [m 44721359549995800000000000000000000, 44721359549995790000000000000000000, m 3135285529035438000,
     m 4478472582704850000],
    [m 25819888974716120000000000000000000, m 25819888974716110000000000000000000,
     51639777949432230000000000000000000, m 3040216472165524000],
    [m 18257418583505550000000000000000000, m 18257418583505540000000000000000000,
     m 18257418583505540000000000000000000, 54772255750516600000000000000000000]],
   [24274588585366160000000000000000000, 24274588585366180000000000000000000, 24274588585366170000000000000000000,
    24274588585366180000000000000000000]⟩

/-- `tetrahedron_data[2]` (vr_quad_data_tet.py 67-119). -/
def vrTet_2 : TableRule :=
  ⟨3,
   [
    [m 69143632116124460000000000000000000, m 4462167352897876000, 69143632116124460000000000000000000,
     m 31194904174848920000000000000000000, 31194904174848930000000000000000000, m 2335778428885781000,
     m 31194904174848930000000000000000000, 31194904174848920000000000000000000, 815325498600826600,
     764751051630738500],
    [m 39920094614992910000000000000000000, m 36020772645387210000000000000000000,
     m 39920094614992920000000000000000000, 18010386322693610000000000000000000, 18010386322693600000000000000000000,
     79840189229985820000000000000000000, m 18010386322693610000000000000000000,
     m 18010386322693610000000000000000000, 36020772645387210000000000000000000, m 1216767918021078000],
    [m 28227769607870070000000000000000000, m 25470532601132190000000000000000000,
     m 28227769607870070000000000000000000, m 25470532601132200000000000000000000,
     m 25470532601132190000000000000000000, m 28227769607870070000000000000000000,
     25470532601132180000000000000000000, 25470532601132180000000000000000000, 25470532601132180000000000000000000,
     84683308823610200000000000000000000]],
   [4895578863887126000000000000000000, 12919339814319360000000000000000000, 4895578863887128000000000000000000,
    12919339814319360000000000000000000, 12919339814319360000000000000000000, 4895578863887127000000000000000000,
    12919339814319370000000000000000000, 12919339814319370000000000000000000, 12919339814319370000000000000000000,
    4895578863887128000000000000000000]⟩

/-- `tetrahedron_data[3]` (vr_quad_data_tet.py 120-212). -/
def vrTet_3 : TableRule :=
  ⟨5,
   [
    [m 72022883168692910000000000000000000, m 29098229749514970000000000000000000,
     29098229749514960000000000000000000, 72022883168692920000000000000000000, m 52220229368509830000000000000000000,
     m 6535207742649487000, 52220229368509810000000000000000000, m 23121999618994860000000000000000000,
     23121999618994860000000000000000000, m 2767776134172990000, m 52220229368509830000000000000000000,
     m 6454761695883611000, 52220229368509830000000000000000000, m 23897702069275700000000000000000000,
     23897702069275700000000000000000000, 2012273386072096000, m 23121999618994860000000000000000000,
     23121999618994850000000000000000000, m 2415554336713898000, m 240928142519688200],
    [m 41582430985257820000000000000000000, m 43498856187282250000000000000000000,
     m 43498856187282250000000000000000000, m 41582430985257820000000000000000000,
     m 3450378074594940000000000000000000, m 495538393869193800, m 3450378074594934000000000000000000,
     46949234261877190000000000000000000, 46949234261877190000000000000000000, 83164861970515640000000000000000000,
     m 30149363483053150000000000000000000, m 27594689445419610000000000000000000,
     m 30149363483053150000000000000000000, 13797344722709810000000000000000000, 13797344722709800000000000000000000,
     60298726966106300000000000000000000, m 13349492704229100000000000000000000,
     m 13349492704229100000000000000000000, 26698985408458210000000000000000000, m 3363683815577664000],
    [m 29403218927897410000000000000000000, m 30758336183885690000000000000000000,
     m 30758336183885690000000000000000000, m 29403218927897420000000000000000000,
     m 30758336183885690000000000000000000, m 29268588047389580000000000000000000,
     m 30758336183885690000000000000000000, m 30758336183885700000000000000000000,
     m 30758336183885690000000000000000000, m 29403218927897420000000000000000000,
     6999731082357272000000000000000000, 9756196015796521000000000000000000, 6999731082357270000000000000000000,
     9756196015796513000000000000000000, 9756196015796526000000000000000000, 6999731082357274000000000000000000,
     54516941285414090000000000000000000, 54516941285414100000000000000000000, 54516941285414100000000000000000000,
     88209656783692260000000000000000000]],
   [2656134314809884000000000000000000, 3964370704405561000000000000000000, 3964370704405563000000000000000000,
    2656134314809884000000000000000000, 3964370704405561000000000000000000, 9725342157339597000000000000000000,
    3964370704405565000000000000000000, 3964370704405562000000000000000000, 3964370704405562000000000000000000,
    2656134314809884000000000000000000, 3964370704405562000000000000000000, 9725342157339598000000000000000000,
    3964370704405564000000000000000000, 9725342157339597000000000000000000, 9725342157339598000000000000000000,
    3964370704405563000000000000000000, 3964370704405565000000000000000000, 3964370704405565000000000000000000,
    3964370704405565000000000000000000, 2656134314809883000000000000000000]⟩

/-- `tetrahedron_data[4]` (vr_quad_data_tet.py 213-365). -/
def vrTet_4 : TableRule :=
  ⟨6,
   [
    [m 82072494963922030000000000000000000, m 49054475209394440000000000000000000, m 3399986587548112000,
     49054475209394440000000000000000000, 82072494963922030000000000000000000, m 65664140830582620000000000000000000,
     m 26732968689444820000000000000000000, 26732968689444820000000000000000000, 65664140830582600000000000000000000,
     m 40701881839608180000000000000000000, 2627856205102448000, 40701881839608190000000000000000000,
     m 16609665621188150000000000000000000, 16609665621188140000000000000000000, 6579949599920338000,
     m 65664140830582590000000000000000000, m 26732968689444830000000000000000000,
     26732968689444820000000000000000000, 65664140830582590000000000000000000, m 44349240509428200000000000000000000,
     8047312676894457000, 44349240509428200000000000000000000, m 17616271819983380000000000000000000,
     17616271819983390000000000000000000, 3630550313766013000, m 40701881839608190000000000000000000,
     5127163212679586000, 40701881839608190000000000000000000, m 17616271819983370000000000000000000,
     17616271819983380000000000000000000, m 8086285151871179000, m 16609665621188140000000000000000000,
     16609665621188140000000000000000000, 4826285338328022000, m 36532262092188610],
    [m 47384577060484600000000000000000000, m 47500804302184990000000000000000000,
     m 46998484873244280000000000000000000, m 47500804302185000000000000000000000,
     m 47384577060484590000000000000000000, m 18732019549557070000000000000000000,
     m 15434286669088820000000000000000000, m 15434286669088820000000000000000000,
     m 18732019549557060000000000000000000, 23499242436622120000000000000000000, 30868573338177620000000000000000000,
     23499242436622130000000000000000000, 66232823851742080000000000000000000, 66232823851742060000000000000000000,
     94769154120969170000000000000000000, m 37911209384642370000000000000000000,
     m 35775805223858840000000000000000000, m 35775805223858850000000000000000000,
     m 37911209384642370000000000000000000, m 5263527391703772000000000000000000, m 471626279220150600,
     m 5263527391703785000000000000000000, 41039332615562640000000000000000000, 41039332615562640000000000000000000,
     75822418769284720000000000000000000, m 23499242436622120000000000000000000,
     m 20341518554770050000000000000000000, m 23499242436622120000000000000000000,
     10170759277385020000000000000000000, 10170759277385030000000000000000000, 46998484873244260000000000000000000,
     m 9589594917542634000000000000000000, m 9589594917542646000000000000000000, 19179189835085310000000000000000000,
     m 2677889515870966000],
    [m 33505955763125180000000000000000000, m 33588140833890160000000000000000000,
     m 33232947359364380000000000000000000, m 33588140833890150000000000000000000,
     m 33505955763125180000000000000000000, m 33588140833890140000000000000000000,
     m 32489127331054640000000000000000000, m 32489127331054650000000000000000000,
     m 33588140833890130000000000000000000, m 33232947359364400000000000000000000,
     m 32489127331054630000000000000000000, m 33232947359364400000000000000000000,
     m 33588140833890140000000000000000000, m 33588140833890160000000000000000000,
     m 33505955763125180000000000000000000, m 6464670453784325000000000000000000,
     m 3721875911634887000000000000000000, m 3721875911634891000000000000000000,
     m 6464670453784323000000000000000000, m 3721875911634884000000000000000000, 536005124628425200,
     m 3721875911634894000000000000000000, m 3721875911634893000000000000000000,
     m 3721875911634893000000000000000000, m 6464670453784327000000000000000000, 33232947359364400000000000000000000,
     39932879154324420000000000000000000, 33232947359364390000000000000000000, 39932879154324410000000000000000000,
     39932879154324420000000000000000000, 33232947359364380000000000000000000, 73640952121564610000000000000000000,
     73640952121564620000000000000000000, 73640952121564610000000000000000000, 100517867289375500000000000000000000]],
   [812434894069221200000000000000000, 1565619348949876000000000000000000, 2135765185301480000000000000000000,
    1565619348949876000000000000000000, 812434894069221300000000000000000, 1565619348949876000000000000000000,
    4448246502187802000000000000000000, 4448246502187801000000000000000000, 1565619348949876000000000000000000,
    2135765185301483000000000000000000, 4448246502187803000000000000000000, 2135765185301482000000000000000000,
    1565619348949875000000000000000000, 1565619348949875000000000000000000, 812434894069221700000000000000000,
    1565619348949876000000000000000000, 4448246502187803000000000000000000, 4448246502187801000000000000000000,
    1565619348949877000000000000000000, 4448246502187802000000000000000000, 8867633439726776000000000000000000,
    4448246502187802000000000000000000, 4448246502187800000000000000000000, 4448246502187800000000000000000000,
    1565619348949876000000000000000000, 2135765185301483000000000000000000, 4448246502187801000000000000000000,
    2135765185301484000000000000000000, 4448246502187803000000000000000000, 4448246502187801000000000000000000,
    2135765185301483000000000000000000, 1565619348949876000000000000000000, 1565619348949875000000000000000000,
    1565619348949874000000000000000000, 812434894069222500000000000000000]⟩

/-- `tetrahedron_data[5]` (vr_quad_data_tet.py 366-602). -/
def vrTet_5 : TableRule :=
  ⟨7,
   [
    [m 81128886562685650000000000000000000, m 60401872717306330000000000000000000,
     m 23759797409270520000000000000000000, 23759797409270500000000000000000000, 60401872717306310000000000000000000,
     81128886562685660000000000000000000, m 73394461550249660000000000000000000,
     m 40599249028545780000000000000000000, m 4107892033117742000, 40599249028545790000000000000000000,
     73394461550249650000000000000000000, m 53827821399978010000000000000000000,
     m 19591315545814690000000000000000000, 19591315545814690000000000000000000, 53827821399978020000000000000000000,
     m 30068023990707490000000000000000000, m 2797061749636946000, 30068023990707480000000000000000000,
     m 12992588832943340000000000000000000, 12992588832943320000000000000000000, m 10373153648937510000,
     m 73394461550249690000000000000000000, m 40599249028545790000000000000000000, 5547107947262673000,
     40599249028545780000000000000000000, 73394461550249680000000000000000000, m 55083783072664850000000000000000000,
     m 21850338078024970000000000000000000, 21850338078025020000000000000000000, 55083783072664840000000000000000000,
     m 34482469424408740000000000000000000, 5080272902516048000, 34482469424408740000000000000000000,
     m 14484534044119090000000000000000000, 14484534044119100000000000000000000, 7277540011530281000,
     m 53827821399978020000000000000000000, m 19591315545814700000000000000000000,
     19591315545814700000000000000000000, 53827821399978030000000000000000000, m 34482469424408750000000000000000000,
     m 4572916149446541000, 34482469424408770000000000000000000, m 14891153878594040000000000000000000,
     14891153878594030000000000000000000, m 4801501737810156000, m 30068023990707490000000000000000000,
     8271574858017233000, 30068023990707470000000000000000000, m 14484534044119090000000000000000000,
     14484534044119080000000000000000000, m 3778485737955602000, m 12992588832943300000000000000000000,
     12992588832943370000000000000000000, 38353897744842570000, m 37303746045397770000],
    [m 46839784496021160000000000000000000, m 49875586793234290000000000000000000,
     m 48437288920203480000000000000000000, m 48437288920203490000000000000000000,
     m 49875586793234270000000000000000000, m 46839784496021190000000000000000000,
     m 27371762812724350000000000000000000, m 23439987355527570000000000000000000,
     m 22622102608310010000000000000000000, m 23439987355527570000000000000000000,
     m 27371762812724360000000000000000000, 3642056314901796000000000000000000, 11311051304155020000000000000000000,
     11311051304155020000000000000000000, 3642056314901793000000000000000000, 44795232605301690000000000000000000,
     46879974711055120000000000000000000, 44795232605301700000000000000000000, 77247349605958600000000000000000000,
     77247349605958620000000000000000000, 93679568992042370000000000000000000, m 42374312133064300000000000000000000,
     m 40165286614444470000000000000000000, m 39816926009010860000000000000000000,
     m 40165286614444480000000000000000000, m 42374312133064270000000000000000000,
     m 15077337726069120000000000000000000, m 12615298571232040000000000000000000,
     m 12615298571232070000000000000000000, m 15077337726069110000000000000000000,
     19908463004505440000000000000000000, 25230597142464100000000000000000000, 19908463004505420000000000000000000,
     55242624340513590000000000000000000, 55242624340513580000000000000000000, 84748624266128590000000000000000000,
     m 31077507175168390000000000000000000, m 28505874704855840000000000000000000,
     m 28505874704855830000000000000000000, m 31077507175168410000000000000000000,
     m 2713639603804592000000000000000000, 4020116993696106000, m 2713639603804596000000000000000000,
     31219514308660440000000000000000000, 31219514308660460000000000000000000, 62155014350336790000000000000000000,
     m 17359781745035100000000000000000000, m 16725299258916910000000000000000000,
     m 17359781745035110000000000000000000, 8362649629458479000000000000000000, 8362649629458452000000000000000000,
     34719563490070210000000000000000000, m 7501274660169966000000000000000000, m 7501274660169949000000000000000000,
     15002549320339930000000000000000000, m 4727015379385593000],
    [m 33120729246453100000000000000000000, m 35267365637154150000000000000000000,
     m 34250335457767920000000000000000000, m 34250335457767930000000000000000000,
     m 35267365637154120000000000000000000, m 33120729246453110000000000000000000,
     m 35267365637154140000000000000000000, m 34314432795052210000000000000000000,
     m 34234106500944900000000000000000000, m 34314432795052230000000000000000000,
     m 35267365637154120000000000000000000, m 34250335457767910000000000000000000,
     m 34234106500944930000000000000000000, m 34234106500944950000000000000000000,
     m 34250335457767900000000000000000000, m 34250335457767930000000000000000000,
     m 34314432795052180000000000000000000, m 34250335457767930000000000000000000,
     m 35267365637154150000000000000000000, m 35267365637154140000000000000000000,
     m 33120729246453090000000000000000000, m 14050556918158170000000000000000000,
     m 10661287748343220000000000000000000, m 9916954045063580000000000000000000,
     m 10661287748343210000000000000000000, m 14050556918158180000000000000000000,
     m 10661287748343230000000000000000000, m 8920363166411133000000000000000000,
     m 8920363166411159000000000000000000, m 10661287748343210000000000000000000,
     m 9916954045063560000000000000000000, m 8920363166411138000000000000000000,
     m 9916954045063576000000000000000000, m 10661287748343230000000000000000000,
     m 10661287748343220000000000000000000, m 14050556918158150000000000000000000,
     14850542109563090000000000000000000, 22075530273004250000000000000000000, 22075530273004250000000000000000000,
     14850542109563090000000000000000000, 22075530273004250000000000000000000, 26761089499233440000000000000000000,
     22075530273004260000000000000000000, 22075530273004260000000000000000000, 22075530273004250000000000000000000,
     14850542109563090000000000000000000, 53650128805972740000000000000000000, 55637008291738620000000000000000000,
     53650128805972720000000000000000000, 55637008291738650000000000000000000, 55637008291738620000000000000000000,
     53650128805972720000000000000000000, 84585288192466410000000000000000000, 84585288192466500000000000000000000,
     84585288192466470000000000000000000, 99362187739359270000000000000000000]],
   [717390693189978700000000000000000, 611228652739507200000000000000000, 1328208854503779000000000000000000,
    1328208854503778000000000000000000, 611228652739509700000000000000000, 717390693189976800000000000000000,
    611228652739510300000000000000000, 2100612898927194000000000000000000, 2230942960262554000000000000000000,
    2100612898927190000000000000000000, 611228652739512500000000000000000, 1328208854503779000000000000000000,
    2230942960262554000000000000000000, 2230942960262552000000000000000000, 1328208854503778000000000000000000,
    1328208854503778000000000000000000, 2100612898927191000000000000000000, 1328208854503779000000000000000000,
    611228652739510900000000000000000, 611228652739512100000000000000000, 717390693189976000000000000000000,
    611228652739509200000000000000000, 2100612898927193000000000000000000, 2230942960262552000000000000000000,
    2100612898927191000000000000000000, 611228652739510700000000000000000, 2100612898927194000000000000000000,
    4744217792877091000000000000000000, 4744217792877094000000000000000000, 2100612898927190000000000000000000,
    2230942960262554000000000000000000, 4744217792877094000000000000000000, 2230942960262556000000000000000000,
    2100612898927194000000000000000000, 2100612898927190000000000000000000, 611228652739508900000000000000000,
    1328208854503778000000000000000000, 2230942960262555000000000000000000, 2230942960262554000000000000000000,
    1328208854503777000000000000000000, 2230942960262551000000000000000000, 4744217792877095000000000000000000,
    2230942960262550000000000000000000, 2230942960262549000000000000000000, 2230942960262552000000000000000000,
    1328208854503779000000000000000000, 1328208854503780000000000000000000, 2100612898927189000000000000000000,
    1328208854503780000000000000000000, 2100612898927192000000000000000000, 2100612898927196000000000000000000,
    1328208854503777000000000000000000, 611228652739512800000000000000000, 611228652739510300000000000000000,
    611228652739510400000000000000000, 717390693189976400000000000000000]⟩

/-- `tetrahedron_data[6]` (vr_quad_data_tet.py 603-951). -/
def vrTet_6 : TableRule :=
  ⟨9,
   [
    [m 85773474076341000000000000000000000, m 66878897845221060000000000000000000,
     m 41479991875747640000000000000000000, 2411824538873946000, 41479991875747550000000000000000000,
     66878897845221120000000000000000000, 85773474076341060000000000000000000, m 77946703580701630000000000000000000,
     m 53040945359411880000000000000000000, m 18780419684480560000000000000000000,
     18780419684480580000000000000000000, 53040945359411860000000000000000000, 77946703580701600000000000000000000,
     m 64823317350055990000000000000000000, m 36414632917859680000000000000000000, m 20996070771397520000,
     36414632917859710000000000000000000, 64823317350055950000000000000000000, m 44422069750386390000000000000000000,
     m 17634213233379140000000000000000000, 17634213233379130000000000000000000, 44422069750386380000000000000000000,
     m 23343325474308460000000000000000000, m 22827027875896160000, 23343325474308460000000000000000000,
     m 11067805735480520000000000000000000, 11067805735480480000000000000000000, 19120282313638940000,
     m 77946703580701660000000000000000000, m 53040945359411860000000000000000000,
     m 18780419684480580000000000000000000, 18780419684480560000000000000000000, 53040945359411850000000000000000000,
     77946703580701630000000000000000000, m 64645449262721560000000000000000000,
     m 39519684713115330000000000000000000, m 22126837656690180000, 39519684713115280000000000000000000,
     64645449262721540000000000000000000, m 47647519146181910000000000000000000,
     m 18759534796826560000000000000000000, 18759534796826530000000000000000000, 47647519146181900000000000000000000,
     m 28867099461701340000000000000000000, m 26150136742703930000, 28867099461701320000000000000000000,
     m 11604503903309670000000000000000000, 11604503903309660000000000000000000, m 15040848451345020000,
     m 64823317350055970000000000000000000, m 36414632917859710000000000000000000, m 15342570076301810000,
     36414632917859710000000000000000000, 64823317350055950000000000000000000, m 47647519146181910000000000000000000,
     m 18759534796826530000000000000000000, 18759534796826550000000000000000000, 47647519146181880000000000000000000,
     m 29044714547136040000000000000000000, 12568181786313220000, 29044714547136030000000000000000000,
     m 11232886228322210000000000000000000, 11232886228322210000000000000000000, 5140956318691328000,
     m 44422069750386390000000000000000000, m 17634213233379130000000000000000000,
     17634213233379140000000000000000000, 44422069750386380000000000000000000, m 28867099461701310000000000000000000,
     6361741393786283000, 28867099461701340000000000000000000, m 11232886228322210000000000000000000,
     11232886228322210000000000000000000, m 5720436603004886000, m 23343325474308440000000000000000000,
     m 17148508903166420000, 23343325474308440000000000000000000, m 11604503903309680000000000000000000,
     11604503903309670000000000000000000, 12905306116863660000, m 11067805735480510000000000000000000,
     11067805735480510000000000000000000, m 13937617397169970000, 7751372149975728000],
    [m 49521338347304880000000000000000000, m 51392550915480170000000000000000000,
     m 50903034968192440000000000000000000, m 51294187856691790000000000000000000,
     m 50903034968192430000000000000000000, m 51392550915480160000000000000000000,
     m 49521338347304910000000000000000000, m 32222549053325690000000000000000000,
     m 30623204081328700000000000000000000, m 31205115874806400000000000000000000,
     m 31205115874806370000000000000000000, m 30623204081328700000000000000000000,
     m 32222549053325720000000000000000000, m 10471209229073330000000000000000000,
     m 661762603090297000000000000000000, m 2244690942039970000, m 661762603090338200000000000000000,
     m 10471209229073250000000000000000000, 25647093928345920000000000000000000, 31866878477896690000000000000000000,
     31866878477896700000000000000000000, 25647093928345910000000000000000000, 61374244197265660000000000000000000,
     61246408162657390000000000000000000, 61374244197265710000000000000000000, 83615099968805990000000000000000000,
     83615099968805920000000000000000000, 99042676694609780000000000000000000, m 45002550294762060000000000000000000,
     m 44022930986104500000000000000000000, m 44175735650202940000000000000000000,
     m 44175735650202910000000000000000000, m 44022930986104490000000000000000000,
     m 45002550294762060000000000000000000, m 23923340628940820000000000000000000,
     m 22816700607406310000000000000000000, m 21661644929639890000000000000000000,
     m 22816700607406270000000000000000000, m 23923340628940810000000000000000000,
     5823547284607937000000000000000000, 10830822464819930000000000000000000, 10830822464819950000000000000000000,
     5823547284607950000000000000000000, 38352188365594980000000000000000000, 45633401214812510000000000000000000,
     38352188365594960000000000000000000, 67946271615045270000000000000000000, 67946271615045260000000000000000000,
     90005100589524050000000000000000000, m 37425759721819370000000000000000000,
     m 33994617892964230000000000000000000, m 33537947524649660000000000000000000,
     m 33994617892964250000000000000000000, m 37425759721819340000000000000000000,
     m 14538688229869430000000000000000000, m 10830822464819950000000000000000000,
     m 10830822464819950000000000000000000, m 14538688229869410000000000000000000,
     16768973762324830000000000000000000, 21661644929639910000000000000000000, 16768973762324840000000000000000000,
     48533306122833660000000000000000000, 48533306122833650000000000000000000, 74851519443638750000000000000000000,
     m 25647093928345900000000000000000000, m 23151737532635220000000000000000000,
     m 23151737532635210000000000000000000, m 25647093928345900000000000000000000,
     m 3695807869540433000000000000000000, 19416840446264620000, m 3695807869540439000000000000000000,
     26847545402175650000000000000000000, 26847545402175650000000000000000000, 51294187856691790000000000000000000,
     m 13477275246373030000000000000000000, m 13399726904775800000000000000000000,
     m 13477275246373040000000000000000000, 6699863452387905000000000000000000, 6699863452387905000000000000000000,
     26954550492746060000000000000000000, m 6390000620718141000000000000000000, m 6390000620718130000000000000000000,
     12780001241436290000000000000000000, m 23123941283262980000],
    [m 35016874158812730000000000000000000, m 36340021254810910000000000000000000,
     m 35993881208984840000000000000000000, m 36270468068923430000000000000000000,
     m 35993881208984820000000000000000000, m 36340021254810930000000000000000000,
     m 35016874158812730000000000000000000, m 36340021254810940000000000000000000,
     m 35866431908189280000000000000000000, m 35822768841850410000000000000000000,
     m 35822768841850430000000000000000000, m 35866431908189270000000000000000000,
     m 36340021254810930000000000000000000, m 35993881208984810000000000000000000,
     m 35822768841850410000000000000000000, m 35572365182637540000000000000000000,
     m 35822768841850420000000000000000000, m 35993881208984800000000000000000000,
     m 36270468068923450000000000000000000, m 35822768841850420000000000000000000,
     m 35822768841850430000000000000000000, m 36270468068923440000000000000000000,
     m 35993881208984790000000000000000000, m 35866431908189270000000000000000000,
     m 35993881208984800000000000000000000, m 36340021254810970000000000000000000,
     m 36340021254810970000000000000000000, m 35016874158812680000000000000000000,
     m 18266370172026740000000000000000000, m 16916356387359680000000000000000000,
     m 17479542443099990000000000000000000, m 17479542443099970000000000000000000,
     m 16916356387359680000000000000000000, m 18266370172026760000000000000000000,
     m 16916356387359670000000000000000000, m 16133843723800190000000000000000000,
     m 15317096021403570000000000000000000, m 16133843723800210000000000000000000,
     m 16916356387359650000000000000000000, m 17479542443099990000000000000000000,
     m 15317096021403560000000000000000000, m 15317096021403580000000000000000000,
     m 17479542443099960000000000000000000, m 17479542443099980000000000000000000,
     m 16133843723800230000000000000000000, m 17479542443099970000000000000000000,
     m 16916356387359670000000000000000000, m 16916356387359670000000000000000000,
     m 18266370172026720000000000000000000, 2125609665527079000000000000000000, 11317007181709050000000000000000000,
     11857455060879180000000000000000000, 11317007181709020000000000000000000, 2125609665527132000000000000000000,
     11317007181709040000000000000000000, 15317096021403560000000000000000000, 15317096021403550000000000000000000,
     11317007181709020000000000000000000, 11857455060879190000000000000000000, 15317096021403550000000000000000000,
     11857455060879190000000000000000000, 11317007181709020000000000000000000, 11317007181709050000000000000000000,
     2125609665527088000000000000000000, 36270468068923450000000000000000000, 41985304103241350000000000000000000,
     41985304103241360000000000000000000, 36270468068923440000000000000000000, 41985304103241360000000000000000000,
     48401531171400540000000000000000000, 41985304103241360000000000000000000, 41985304103241370000000000000000000,
     41985304103241350000000000000000000, 36270468068923460000000000000000000, 69862152752442560000000000000000000,
     69699144682908620000000000000000000, 69862152752442580000000000000000000, 69699144682908600000000000000000000,
     69699144682908580000000000000000000, 69862152752442530000000000000000000, 90946412681648640000000000000000000,
     90946412681648600000000000000000000, 90946412681648680000000000000000000, 105050622476438100000000000000000000]],
   [349728942435254400000000000000000, 303004420281046500000000000000000, 526017202204224800000000000000000,
    654122353485297900000000000000000, 526017202204226700000000000000000, 303004420281048800000000000000000,
    349728942435250500000000000000000, 303004420281045500000000000000000, 1027880726166938000000000000000000,
    1246347743139886000000000000000000, 1246347743139883000000000000000000, 1027880726166936000000000000000000,
    303004420281050000000000000000000, 526017202204228800000000000000000, 1246347743139885000000000000000000,
    1783957004657833000000000000000000, 1246347743139884000000000000000000, 526017202204228800000000000000000,
    654122353485294000000000000000000, 1246347743139883000000000000000000, 1246347743139887000000000000000000,
    654122353485294400000000000000000, 526017202204228600000000000000000, 1027880726166936000000000000000000,
    526017202204228100000000000000000, 303004420281047100000000000000000, 303004420281047600000000000000000,
    349728942435252300000000000000000, 303004420281046500000000000000000, 1027880726166936000000000000000000,
    1246347743139884000000000000000000, 1246347743139885000000000000000000, 1027880726166937000000000000000000,
    303004420281048900000000000000000, 1027880726166938000000000000000000, 2405889217649253000000000000000000,
    3333782559856899000000000000000000, 2405889217649255000000000000000000, 1027880726166940000000000000000000,
    1246347743139887000000000000000000, 3333782559856901000000000000000000, 3333782559856901000000000000000000,
    1246347743139886000000000000000000, 1246347743139883000000000000000000, 2405889217649256000000000000000000,
    1246347743139886000000000000000000, 1027880726166937000000000000000000, 1027880726166940000000000000000000,
    303004420281047300000000000000000, 526017202204228500000000000000000, 1246347743139883000000000000000000,
    1783957004657836000000000000000000, 1246347743139883000000000000000000, 526017202204228500000000000000000,
    1246347743139885000000000000000000, 3333782559856903000000000000000000, 3333782559856903000000000000000000,
    1246347743139884000000000000000000, 1783957004657834000000000000000000, 3333782559856903000000000000000000,
    1783957004657832000000000000000000, 1246347743139887000000000000000000, 1246347743139885000000000000000000,
    526017202204227700000000000000000, 654122353485294700000000000000000, 1246347743139887000000000000000000,
    1246347743139889000000000000000000, 654122353485295200000000000000000, 1246347743139885000000000000000000,
    2405889217649258000000000000000000, 1246347743139884000000000000000000, 1246347743139884000000000000000000,
    1246347743139882000000000000000000, 654122353485296500000000000000000, 526017202204226700000000000000000,
    1027880726166938000000000000000000, 526017202204225900000000000000000, 1027880726166936000000000000000000,
    1027880726166938000000000000000000, 526017202204227700000000000000000, 303004420281047300000000000000000,
    303004420281048200000000000000000, 303004420281048300000000000000000, 349728942435252100000000000000000]⟩

/-- `tetrahedron_data[7]` (vr_quad_data_tet.py 952-1444). -/
def vrTet_7 : TableRule :=
  ⟨10,
   [
    [m 92235510042792200000000000000000000, m 72233667838416480000000000000000000,
     m 51285238683585450000000000000000000, m 21573180492135860000000000000000000,
     21573180492135770000000000000000000, 51285238683585340000000000000000000, 72233667838416630000000000000000000,
     92235510042792450000000000000000000, m 80820380936692540000000000000000000,
     m 61631635423155150000000000000000000, m 31527880228296390000000000000000000, m 42960911372072460000,
     31527880228296330000000000000000000, 61631635423155150000000000000000000, 80820380936692500000000000000000000,
     m 70235917660667460000000000000000000, m 45422461601563090000000000000000000,
     m 15035858159138110000000000000000000, 15035858159138070000000000000000000, 45422461601563150000000000000000000,
     70235917660667490000000000000000000, m 56319924240231210000000000000000000,
     m 31679569359401980000000000000000000, 31243474214799450000, 31679569359401950000000000000000000,
     56319924240231150000000000000000000, m 34746743748095460000000000000000000,
     m 13894581373266900000000000000000000, 13894581373266930000000000000000000, 34746743748095510000000000000000000,
     m 18950678977082150000000000000000000, m 50851397105922700000, 18950678977082090000000000000000000,
     m 8586713098275741000000000000000000, 8586713098275765000000000000000000, 12854442340997010000,
     m 80820380936692490000000000000000000, m 61631635423155180000000000000000000,
     m 31527880228296350000000000000000000, m 87304057942927670000, 31527880228296360000000000000000000,
     61631635423155190000000000000000000, 80820380936692550000000000000000000, m 71462942768136170000000000000000000,
     m 49766471089824250000000000000000000, m 16554763293097190000000000000000000,
     16554763293097140000000000000000000, 49766471089824340000000000000000000, 71462942768136170000000000000000000,
     m 55378631456192020000000000000000000, m 31937055523420290000000000000000000, m 6832484358818424000,
     31937055523420230000000000000000000, 55378631456191980000000000000000000, m 40488614535604880000000000000000000,
     m 15382292230323150000000000000000000, 15382292230323260000000000000000000, 40488614535604910000000000000000000,
     m 23850751227895810000000000000000000, 53339113543171980000, 23850751227895860000000000000000000,
     m 9831307344980803000000000000000000, 9831307344980859000000000000000000, m 21906753342069660000,
     m 70235917660667520000000000000000000, m 45422461601563100000000000000000000,
     m 15035858159138130000000000000000000, 15035858159138110000000000000000000, 45422461601563190000000000000000000,
     70235917660667440000000000000000000, m 55378631456192110000000000000000000,
     m 31937055523420270000000000000000000, m 4110168395201620000, 31937055523420190000000000000000000,
     55378631456192110000000000000000000, m 39831073165980140000000000000000000,
     m 15684425731708290000000000000000000, 15684425731708360000000000000000000, 39831073165980180000000000000000000,
     m 24795215006842000000000000000000000, m 5917334035232059000, 24795215006842020000000000000000000,
     m 9956169854628913000000000000000000, 9956169854628882000000000000000000, 2509159726481918000,
     m 56319924240231140000000000000000000, m 31679569359401950000000000000000000, m 20668486053808750000,
     31679569359401880000000000000000000, 56319924240231230000000000000000000, m 40488614535604900000000000000000000,
     m 15382292230323180000000000000000000, 15382292230323230000000000000000000, 40488614535604900000000000000000000,
     m 24795215006842060000000000000000000, 39775294973455640000, 24795215006842040000000000000000000,
     m 8809045176202959000000000000000000, 8809045176202959000000000000000000, m 11293540431941820000,
     m 34746743748095480000000000000000000, m 13894581373266900000000000000000000,
     13894581373266930000000000000000000, 34746743748095450000000000000000000, m 23850751227895750000000000000000000,
     49232383860964240000, 23850751227895820000000000000000000, m 9956169854628907000000000000000000,
     9956169854628931000000000000000000, 16131592045254240000, m 18950678977082260000000000000000000,
     37942716574550670000, 18950678977082250000000000000000000, m 9831307344980847000000000000000000,
     9831307344980821000000000000000000, m 26394272572667010000, m 8586713098275671000000000000000000,
     8586713098275778000000000000000000, m 3482046662102929000, 1977022815449524000],
    [m 53252196552048510000000000000000000, m 51619209808551380000000000000000000,
     m 51491905576911380000000000000000000, m 52577365277262660000000000000000000,
     m 52577365277262640000000000000000000, m 51491905576911410000000000000000000,
     m 51619209808551230000000000000000000, m 53252196552048630000000000000000000,
     m 36746586452320390000000000000000000, m 35583041302155830000000000000000000,
     m 34246710729050890000000000000000000, m 36580415794924180000000000000000000,
     m 34246710729050870000000000000000000, m 35583041302155680000000000000000000,
     m 36746586452320410000000000000000000, m 18668366750677730000000000000000000,
     m 10180589840652320000000000000000000, m 8680956755675479000000000000000000,
     m 8680956755675451000000000000000000, m 10180589840652370000000000000000000,
     m 18668366750677580000000000000000000, 7605760292014909000000000000000000, 18290207897462160000000000000000000,
     17361913511350790000000000000000000, 18290207897462220000000000000000000, 7605760292014961000000000000000000,
     44971604985247730000000000000000000, 44427300569702970000000000000000000, 44427300569702960000000000000000000,
     44971604985247700000000000000000000, 70160272327588940000000000000000000, 71166082604311030000000000000000000,
     70160272327588920000000000000000000, 88365796260871550000000000000000000, 88365796260871540000000000000000000,
     106504393104097300000000000000000000, m 46661668689807590000000000000000000,
     m 46935257186376810000000000000000000, m 45743105420386100000000000000000000,
     m 46752225002492830000000000000000000, m 45743105420386060000000000000000000,
     m 46935257186376830000000000000000000, m 46661668689807580000000000000000000,
     m 29906933360044840000000000000000000, m 28732685480327560000000000000000000,
     m 27319838163501340000000000000000000, m 27319838163501250000000000000000000,
     m 28732685480327670000000000000000000, m 29906933360044860000000000000000000,
     m 4432392494984629000000000000000000, m 676926483709710600000000000000000, 44868464822841150000,
     m 676926483709646700000000000000000, m 4432392494984625000000000000000000, 23376112501246360000000000000000000,
     27996764647210860000000000000000000, 27996764647210870000000000000000000, 23376112501246410000000000000000000,
     50175497915370750000000000000000000, 57465370960655630000000000000000000, 50175497915370710000000000000000000,
     76842190546421800000000000000000000, 76842190546421790000000000000000000, 93323337379615100000000000000000000,
     m 40550725968166810000000000000000000, m 37721065124253240000000000000000000,
     m 37312004873305280000000000000000000, m 37312004873305260000000000000000000,
     m 37721065124253230000000000000000000, m 40550725968166770000000000000000000,
     m 20476473087250340000000000000000000, m 18438867603570770000000000000000000,
     m 18110814836572990000000000000000000, m 18438867603570740000000000000000000,
     m 20476473087250390000000000000000000, 5634567303139509000000000000000000, 9055407418286479000000000000000000,
     9055407418286482000000000000000000, 5634567303139487000000000000000000, 31677437570165800000000000000000000,
     36877735207141540000000000000000000, 31677437570165820000000000000000000, 58197538211503550000000000000000000,
     58197538211503570000000000000000000, 81101451936333490000000000000000000, m 32516323420836810000000000000000000,
     m 28462017105030810000000000000000000, m 28631048117629850000000000000000000,
     m 28462017105030820000000000000000000, m 32516323420836880000000000000000000,
     m 13204303293677870000000000000000000, m 8880970559930575000000000000000000,
     m 8880970559930519000000000000000000, m 13204303293677840000000000000000000,
     14315524058814960000000000000000000, 17761941119861130000000000000000000, 14315524058814940000000000000000000,
     41666320398708610000000000000000000, 41666320398708620000000000000000000, 65032646841673760000000000000000000,
     m 20061041856425860000000000000000000, m 19518434987468080000000000000000000,
     m 19518434987468060000000000000000000, m 20061041856425810000000000000000000,
     m 2273842950465107000000000000000000, m 53798381197961430000, m 2273842950465127000000000000000000,
     21792277937933200000000000000000000, 21792277937933250000000000000000000, 40122083712851530000000000000000000,
     m 10941179608744610000000000000000000, m 11352215884221450000000000000000000,
     m 10941179608744690000000000000000000, 5676107942110784000000000000000000, 5676107942110752000000000000000000,
     21882359217489150000000000000000000, m 4957541118743530000000000000000000, m 4957541118743524000000000000000000,
     9915082237487380000000000000000000, 25407678441908940000],
    [m 37654989295032380000000000000000000, m 36500293295117830000000000000000000,
     m 36410275609651430000000000000000000, m 37177811524474540000000000000000000,
     m 37177811524474490000000000000000000, m 36410275609651520000000000000000000,
     m 36500293295117630000000000000000000, m 37654989295032500000000000000000000,
     m 36500293295117720000000000000000000, m 37201853049834820000000000000000000,
     m 36409849358006170000000000000000000, m 36655092968625810000000000000000000,
     m 36409849358006140000000000000000000, m 37201853049834940000000000000000000,
     m 36500293295117640000000000000000000, m 36410275609651390000000000000000000,
     m 36409849358006260000000000000000000, m 36506175803806840000000000000000000,
     m 36506175803806820000000000000000000, m 36409849358006260000000000000000000,
     m 36410275609651420000000000000000000, m 37177811524474520000000000000000000,
     m 36655092968625740000000000000000000, m 36506175803806820000000000000000000,
     m 36655092968625700000000000000000000, m 37177811524474530000000000000000000,
     m 37177811524474570000000000000000000, m 36409849358006190000000000000000000,
     m 36409849358006190000000000000000000, m 37177811524474550000000000000000000,
     m 36410275609651350000000000000000000, m 37201853049835010000000000000000000,
     m 36410275609651430000000000000000000, m 36500293295117640000000000000000000,
     m 36500293295117600000000000000000000, m 37654989295032480000000000000000000,
     m 22478249522818670000000000000000000, m 21147395383382150000000000000000000,
     m 20151492067125890000000000000000000, m 22269982433410520000000000000000000,
     m 20151492067125830000000000000000000, m 21147395383381950000000000000000000,
     m 22478249522818530000000000000000000, m 21147395383381840000000000000000000,
     m 20317076744839850000000000000000000, m 19318042826330830000000000000000000,
     m 19318042826330760000000000000000000, m 20317076744839970000000000000000000,
     m 21147395383381800000000000000000000, m 20151492067125750000000000000000000,
     m 19318042826330860000000000000000000, m 19209419975631940000000000000000000,
     m 19318042826330820000000000000000000, m 20151492067125750000000000000000000,
     m 22269982433410630000000000000000000, m 19318042826330760000000000000000000,
     m 19318042826330690000000000000000000, m 22269982433410620000000000000000000,
     m 20151492067125730000000000000000000, m 20317076744840070000000000000000000,
     m 20151492067125760000000000000000000, m 21147395383381790000000000000000000,
     m 21147395383381780000000000000000000, m 22478249522818450000000000000000000,
     m 5463946427558356000000000000000000, 2538264302263163000000000000000000, 3984240749101874000000000000000000,
     3984240749101926000000000000000000, 2538264302263130000000000000000000, m 5463946427558414000000000000000000,
     2538264302263274000000000000000000, 5801135199449195000000000000000000, 6403139991877385000000000000000000,
     5801135199449232000000000000000000, 2538264302263323000000000000000000, 3984240749101937000000000000000000,
     6403139991877348000000000000000000, 6403139991877312000000000000000000, 3984240749101956000000000000000000,
     3984240749101981000000000000000000, 5801135199449222000000000000000000, 3984240749101960000000000000000000,
     2538264302263200000000000000000000, 2538264302263280000000000000000000, m 5463946427558499000000000000000000,
     19563383412909030000000000000000000, 29462537701018240000000000000000000, 28537694305602890000000000000000000,
     29462537701018200000000000000000000, 19563383412908950000000000000000000, 29462537701018130000000000000000000,
     32834950453212270000000000000000000, 32834950453212340000000000000000000, 29462537701018050000000000000000000,
     28537694305602990000000000000000000, 32834950453212420000000000000000000, 28537694305603020000000000000000000,
     29462537701018130000000000000000000, 29462537701018040000000000000000000, 19563383412908840000000000000000000,
     54792239636040100000000000000000000, 54023077122868660000000000000000000, 54023077122868690000000000000000000,
     54792239636040060000000000000000000, 54023077122868770000000000000000000, 60951230234520180000000000000000000,
     54023077122868830000000000000000000, 54023077122868760000000000000000000, 54023077122868800000000000000000000,
     54792239636040180000000000000000000, 78284497646860940000000000000000000, 79496643816598780000000000000000000,
     78284497646861010000000000000000000, 79496643816598810000000000000000000, 79496643816598840000000000000000000,
     78284497646861150000000000000000000, 95478836113054070000000000000000000, 95478836113054040000000000000000000,
     95478836113053940000000000000000000, 112964967885097700000000000000000000]],
   [89285185138849540000000000000000, 272846179098673500000000000000000, 269857416346665600000000000000000,
    381927598701659300000000000000000, 381927598701659800000000000000000, 269857416346668900000000000000000,
    272846179098687700000000000000000, 89285185138844990000000000000000, 272846179098684800000000000000000,
    477245016195797100000000000000000, 828553102783389200000000000000000, 762870900254706700000000000000000,
    828553102783395500000000000000000, 477245016195784800000000000000000, 272846179098691200000000000000000,
    269857416346688900000000000000000, 828553102783394400000000000000000, 938215425274071900000000000000000,
    938215425274076400000000000000000, 828553102783393700000000000000000, 269857416346684300000000000000000,
    381927598701654000000000000000000, 762870900254706500000000000000000, 938215425274078000000000000000000,
    762870900254712900000000000000000, 381927598701653800000000000000000, 381927598701654300000000000000000,
    828553102783394700000000000000000, 828553102783392400000000000000000, 381927598701652500000000000000000,
    269857416346685900000000000000000, 477245016195781000000000000000000, 269857416346687400000000000000000,
    272846179098688700000000000000000, 272846179098688400000000000000000, 89285185138844920000000000000000,
    272846179098686200000000000000000, 477245016195795800000000000000000, 828553102783384400000000000000000,
    762870900254710600000000000000000, 828553102783396100000000000000000, 477245016195783700000000000000000,
    272846179098685400000000000000000, 477245016195782200000000000000000, 1534495609378168000000000000000000,
    1800286836440550000000000000000000, 1800286836440545000000000000000000, 1534495609378180000000000000000000,
    477245016195778000000000000000000, 828553102783392200000000000000000, 1800286836440532000000000000000000,
    2265378511397823000000000000000000, 1800286836440531000000000000000000, 828553102783403700000000000000000,
    762870900254709700000000000000000, 1800286836440553000000000000000000, 1800286836440543000000000000000000,
    762870900254697200000000000000000, 828553102783399000000000000000000, 1534495609378186000000000000000000,
    828553102783396800000000000000000, 477245016195778000000000000000000, 477245016195778200000000000000000,
    272846179098683000000000000000000, 269857416346681900000000000000000, 828553102783399700000000000000000,
    938215425274068200000000000000000, 938215425274067200000000000000000, 828553102783394900000000000000000,
    269857416346677700000000000000000, 828553102783386200000000000000000, 1800286836440528000000000000000000,
    2265378511397818000000000000000000, 1800286836440534000000000000000000, 828553102783388500000000000000000,
    938215425274083600000000000000000, 2265378511397831000000000000000000, 2265378511397818000000000000000000,
    938215425274078200000000000000000, 938215425274068100000000000000000, 1800286836440537000000000000000000,
    938215425274068800000000000000000, 828553102783385800000000000000000, 828553102783383900000000000000000,
    269857416346675400000000000000000, 381927598701654700000000000000000, 762870900254701200000000000000000,
    938215425274073000000000000000000, 762870900254707500000000000000000, 381927598701654600000000000000000,
    762870900254713200000000000000000, 1800286836440544000000000000000000, 1800286836440537000000000000000000,
    762870900254711100000000000000000, 938215425274066900000000000000000, 1800286836440549000000000000000000,
    938215425274068900000000000000000, 762870900254707800000000000000000, 762870900254707300000000000000000,
    381927598701657400000000000000000, 381927598701651600000000000000000, 828553102783401200000000000000000,
    828553102783397200000000000000000, 381927598701656600000000000000000, 828553102783401300000000000000000,
    1534495609378188000000000000000000, 828553102783392900000000000000000, 828553102783393700000000000000000,
    828553102783388600000000000000000, 381927598701664900000000000000000, 269857416346685200000000000000000,
    477245016195772100000000000000000, 269857416346679700000000000000000, 477245016195775100000000000000000,
    477245016195778200000000000000000, 269857416346671800000000000000000, 272846179098695800000000000000000,
    272846179098693400000000000000000, 272846179098687600000000000000000, 89285185138840230000000000000000]⟩

/-- `tetrahedron_data[8]` (vr_quad_data_tet.py 1445-2117). -/
def vrTet_8 : TableRule :=
  ⟨11,
   [
    [m 89531586890819100000000000000000000, m 78886438096395530000000000000000000,
     m 63216128590791810000000000000000000, m 31319942087699260000000000000000000, 28114280887611600000,
     31319942087699260000000000000000000, 63216128590791930000000000000000000, 78886438096395490000000000000000000,
     89531586890819080000000000000000000, m 84665643274883750000000000000000000,
     m 68305762185095680000000000000000000, m 46874261546559730000000000000000000,
     m 16144326277982520000000000000000000, 16144326277982510000000000000000000, 46874261546559710000000000000000000,
     68305762185095410000000000000000000, 84665643274883720000000000000000000, m 77801365408972510000000000000000000,
     m 57040639201632480000000000000000000, m 30336435709960200000000000000000000, 16619326566012360000,
     30336435709960140000000000000000000, 57040639201632500000000000000000000, 77801365408972500000000000000000000,
     m 60790158141423590000000000000000000, m 41533714104952980000000000000000000,
     m 13659082367574150000000000000000000, 13659082367574130000000000000000000, 41533714104952940000000000000000000,
     60790158141423600000000000000000000, m 47249526836227150000000000000000000,
     m 25389387826970470000000000000000000, 4114924732586100000, 25389387826970470000000000000000000,
     47249526836227120000000000000000000, m 29470216053724320000000000000000000,
     m 10166377655072770000000000000000000, 10166377655072770000000000000000000, 29470216053724320000000000000000000,
     m 14585236818180650000000000000000000, m 27096357343185790000, 14585236818180810000000000000000000,
     m 5779205178488211000000000000000000, 5779205178488374000000000000000000, m 42035473581265970000,
     m 84665643274883660000000000000000000, m 68305762185095470000000000000000000,
     m 46874261546559760000000000000000000, m 16144326277982520000000000000000000,
     16144326277982540000000000000000000, 46874261546559690000000000000000000, 68305762185095540000000000000000000,
     84665643274883870000000000000000000, m 76955391329939630000000000000000000,
     m 59725492597703070000000000000000000, m 27669262324364920000000000000000000, m 283806421591792900,
     27669262324364920000000000000000000, 59725492597703160000000000000000000, 76955391329939760000000000000000000,
     m 64728290980255560000000000000000000, m 40407906135249740000000000000000000,
     m 13773417618440620000000000000000000, 13773417618440630000000000000000000, 40407906135249760000000000000000000,
     64728290980255540000000000000000000, m 49592199347774500000000000000000000,
     m 27630950253995970000000000000000000, 25508987419079700000, 27630950253995950000000000000000000,
     49592199347774510000000000000000000, m 33447873069791980000000000000000000,
     m 12738643810884860000000000000000000, 12738643810884830000000000000000000, 33447873069791980000000000000000000,
     m 17854029433695870000000000000000000, 8987966779557184000, 17854029433695850000000000000000000,
     m 8649629144844082000000000000000000, 8649629144843972000000000000000000, m 176345885361210700000,
     m 77801365408972520000000000000000000, m 57040639201632470000000000000000000,
     m 30336435709960160000000000000000000, m 4619123623515068000, 30336435709960140000000000000000000,
     57040639201632510000000000000000000, 77801365408972390000000000000000000, m 64728290980255570000000000000000000,
     m 40407906135249740000000000000000000, m 13773417618440640000000000000000000,
     13773417618440640000000000000000000, 40407906135249730000000000000000000, 64728290980255570000000000000000000,
     m 50560025369911570000000000000000000, m 28204340582290770000000000000000000, 7728180217143092000,
     28204340582290790000000000000000000, 50560025369911610000000000000000000, m 35087568966353700000000000000000000,
     m 14430922963850130000000000000000000, 14430922963850150000000000000000000, 35087568966353700000000000000000000,
     m 20223589659951420000000000000000000, m 4484039987089917000, 20223589659951400000000000000000000,
     m 7687651778623104000000000000000000, 7687651778623104000000000000000000, 8916286603997394000,
     m 60790158141423590000000000000000000, m 41533714104952980000000000000000000,
     m 13659082367574140000000000000000000, 13659082367574150000000000000000000, 41533714104952940000000000000000000,
     60790158141423630000000000000000000, m 49592199347774490000000000000000000,
     m 27630950253995950000000000000000000, 8820053010898188000, 27630950253995950000000000000000000,
     49592199347774490000000000000000000, m 35087568966353690000000000000000000,
     m 14430922963850130000000000000000000, 14430922963850130000000000000000000, 35087568966353690000000000000000000,
     m 21428486598779560000000000000000000, 34174838263255150000, 21428486598779560000000000000000000,
     m 8058485242821514000000000000000000, 8058485242821527000000000000000000, 7992998381700989000,
     m 47249526836227170000000000000000000, m 25389387826970470000000000000000000, 18387631200180630000,
     25389387826970460000000000000000000, 47249526836227100000000000000000000, m 33447873069792000000000000000000000,
     m 12738643810884850000000000000000000, 12738643810884850000000000000000000, 33447873069791980000000000000000000,
     m 20223589659951400000000000000000000, 17508719137969800000, 20223589659951420000000000000000000,
     m 8058485242821521000000000000000000, 8058485242821525000000000000000000, 628184178996961200,
     m 29470216053724320000000000000000000, m 10166377655072750000000000000000000,
     10166377655072780000000000000000000, 29470216053724310000000000000000000, m 17854029433695840000000000000000000,
     m 17314637779297880000, 17854029433695860000000000000000000, m 7687651778623094000000000000000000,
     7687651778623084000000000000000000, m 7998454933621241000, m 14585236818180670000000000000000000,
     m 36891741225089120000, 14585236818180690000000000000000000, m 8649629144844080000000000000000000,
     8649629144844022000000000000000000, m 3288432315381665000, m 5779205178488232000000000000000000,
     5779205178488267000000000000000000, m 36101120336287940000, m 14941432926101880000],
    [m 51691085792388740000000000000000000, m 52218357601369300000000000000000000,
     m 53339429665361760000000000000000000, m 52111851338724990000000000000000000,
     m 54559054075956390000000000000000000, m 52111851338724990000000000000000000,
     m 53339429665361830000000000000000000, m 52218357601369020000000000000000000,
     m 51691085792388800000000000000000000, m 42208480604862380000000000000000000,
     m 39436350184767490000000000000000000, m 38801989273650460000000000000000000,
     m 38638070915400750000000000000000000, m 38638070915400790000000000000000000,
     m 38801989273650500000000000000000000, m 39436350184767470000000000000000000,
     m 42208480604862410000000000000000000, m 28077058455848590000000000000000000,
     m 21193306646131540000000000000000000, m 17514749323399300000000000000000000,
     m 15772149763604410000000000000000000, m 17514749323399240000000000000000000,
     m 21193306646131520000000000000000000, m 28077058455848570000000000000000000,
     m 1067939823642499000000000000000000, 5337638773982845000000000000000000, 7886074881802214000000000000000000,
     7886074881802186000000000000000000, 5337638773982845000000000000000000, m 1067939823642519000000000000000000,
     27279527037978200000000000000000000, 33300432141417940000000000000000000, 35029498646798560000000000000000000,
     33300432141417870000000000000000000, 27279527037978170000000000000000000, 53179791162367470000000000000000000,
     59995295919781990000000000000000000, 59995295919782040000000000000000000, 53179791162367530000000000000000000,
     81416488121210490000000000000000000, 78872700369534960000000000000000000, 81416488121210140000000000000000000,
     94426838206231580000000000000000000, 94426838206231730000000000000000000, 103382171584777500000000000000000000,
     m 48881731935866980000000000000000000, m 49424081615099750000000000000000000,
     m 47678924921298790000000000000000000, m 47943208163808010000000000000000000,
     m 47943208163808030000000000000000000, m 47678924921298750000000000000000000,
     m 49424081615099860000000000000000000, m 48881731935867070000000000000000000,
     m 34442484469601340000000000000000000, m 34482529228766870000000000000000000,
     m 30684174917900680000000000000000000, m 31905473134219440000000000000000000,
     m 30684174917900700000000000000000000, m 34482529228766910000000000000000000,
     m 34442484469601410000000000000000000, m 16754838822307400000000000000000000,
     m 8620196617925329000000000000000000, m 7952086369667828000000000000000000,
     m 7952086369667832000000000000000000, m 8620196617925341000000000000000000,
     m 16754838822307360000000000000000000, 9990207398186490000000000000000000, 15952736567109750000000000000000000,
     15904172739335660000000000000000000, 15952736567109720000000000000000000, 9990207398186481000000000000000000,
     37953000765621550000000000000000000, 39304371535826050000000000000000000, 39304371535826020000000000000000000,
     37953000765621520000000000000000000, 64433763743606190000000000000000000, 68965058457533730000000000000000000,
     64433763743606140000000000000000000, 83866566084700930000000000000000000, 83866566084701360000000000000000000,
     97763463871733950000000000000000000, m 44918639262190730000000000000000000,
     m 41809364045459140000000000000000000, m 40866939191706230000000000000000000,
     m 40515634775867730000000000000000000, m 40866939191706250000000000000000000,
     m 41809364045459130000000000000000000, m 44918639262190640000000000000000000,
     m 28493960573986680000000000000000000, m 23329515484575590000000000000000000,
     m 24615480885335100000000000000000000, m 24615480885335090000000000000000000,
     m 23329515484575570000000000000000000, m 28493960573986680000000000000000000,
     m 5838654389245797000000000000000000, 379610888165800400000000000000000, 16909122024464590000,
     379610888165801300000000000000000, m 5838654389245814000000000000000000, 20257817387933910000000000000000000,
     24235869997169290000000000000000000, 24235869997169290000000000000000000, 20257817387933860000000000000000000,
     46705593580951980000000000000000000, 46659030969151130000000000000000000, 46705593580952110000000000000000000,
     70303324619445850000000000000000000, 70303324619445750000000000000000000, 89837278524381420000000000000000000,
     m 35097214167030830000000000000000000, m 33284638267346820000000000000000000,
     m 32629559894065550000000000000000000, m 32629559894065530000000000000000000,
     m 33284638267346800000000000000000000, m 35097214167030870000000000000000000,
     m 19326932394735930000000000000000000, m 15952736567109750000000000000000000,
     m 16663394515667250000000000000000000, m 15952736567109670000000000000000000,
     m 19326932394735930000000000000000000, 4485667624329466000000000000000000, 8331697257833645000000000000000000,
     8331697257833636000000000000000000, 4485667624329484000000000000000000, 28143892269736090000000000000000000,
     31905473134219420000000000000000000, 28143892269736050000000000000000000, 52611570662082720000000000000000000,
     52611570662082750000000000000000000, 70194428334061660000000000000000000, m 27279527037978210000000000000000000,
     m 23963707144868470000000000000000000, m 23352189868306960000000000000000000,
     m 23963707144868460000000000000000000, m 27279527037978150000000000000000000,
     m 10006001272257590000000000000000000, m 7354659433325097000000000000000000,
     m 7354659433325097000000000000000000, m 10006001272257550000000000000000000,
     11676094934153510000000000000000000, 14709318866650230000000000000000000, 11676094934153480000000000000000000,
     33969708417126010000000000000000000, 33969708417126050000000000000000000, 54559054075956380000000000000000000,
     m 17014637171694170000000000000000000, m 14746496523487950000000000000000000,
     m 14746496523487940000000000000000000, m 17014637171694160000000000000000000,
     m 1431093052015493000000000000000000, m 946208128427068500, m 1431093052015501000000000000000000,
     16177589575503460000000000000000000, 16177589575503450000000000000000000, 34029274343388340000000000000000000,
     m 8420790403171055000000000000000000, m 9987731430332329000000000000000000,
     m 8420790403171046000000000000000000, 4993865715166155000000000000000000, 4993865715166176000000000000000000,
     16841580806342100000000000000000000, m 3336625665502245000000000000000000, m 3336625665502341000000000000000000,
     6673251331004629000000000000000000, 16663150561439410000],
    [m 36551117290693710000000000000000000, m 36923954762352240000000000000000000,
     m 37716672421000200000000000000000000, m 36848643461797720000000000000000000,
     m 38579077112232300000000000000000000, m 36848643461797700000000000000000000,
     m 37716672421000240000000000000000000, m 36923954762352160000000000000000000,
     m 36551117290693770000000000000000000, m 36923954762352280000000000000000000,
     m 38479299575483430000000000000000000, m 36852561827839000000000000000000000,
     m 37190830428577050000000000000000000, m 37190830428577070000000000000000000,
     m 36852561827839010000000000000000000, m 38479299575483400000000000000000000,
     m 36923954762352320000000000000000000, m 37716672421000200000000000000000000,
     m 36852561827839000000000000000000000, m 37153535734511580000000000000000000,
     m 37397023115273150000000000000000000, m 37153535734511560000000000000000000,
     m 36852561827839040000000000000000000, m 37716672421000220000000000000000000,
     m 36848643461797710000000000000000000, m 37190830428577050000000000000000000,
     m 37397023115273140000000000000000000, m 37397023115273150000000000000000000,
     m 37190830428577050000000000000000000, m 36848643461797710000000000000000000,
     m 38579077112232300000000000000000000, m 37190830428577070000000000000000000,
     m 37153535734511580000000000000000000, m 37190830428577050000000000000000000,
     m 38579077112232280000000000000000000, m 36848643461797700000000000000000000,
     m 36852561827839000000000000000000000, m 36852561827839010000000000000000000,
     m 36848643461797710000000000000000000, m 37716672421000230000000000000000000,
     m 38479299575483390000000000000000000, m 37716672421000200000000000000000000,
     m 36923954762352190000000000000000000, m 36923954762352500000000000000000000,
     m 36551117290693670000000000000000000, m 27486552224921400000000000000000000,
     m 24354514329367390000000000000000000, m 24298679042621570000000000000000000,
     m 24031379132136430000000000000000000, m 24031379132136440000000000000000000,
     m 24298679042621580000000000000000000, m 24354514329367490000000000000000000,
     m 27486552224921230000000000000000000, m 24354514329367420000000000000000000,
     m 24382830250124390000000000000000000, m 21696988159561740000000000000000000,
     m 22560576410171820000000000000000000, m 21696988159561770000000000000000000,
     m 24382830250124400000000000000000000, m 24354514329367550000000000000000000,
     m 24298679042621590000000000000000000, m 21696988159561750000000000000000000,
     m 23297173085995820000000000000000000, m 23297173085995790000000000000000000,
     m 21696988159561760000000000000000000, m 24298679042621570000000000000000000,
     m 24031379132136430000000000000000000, m 22560576410171790000000000000000000,
     m 23297173085995820000000000000000000, m 22560576410171750000000000000000000,
     m 24031379132136440000000000000000000, m 24031379132136430000000000000000000,
     m 21696988159561770000000000000000000, m 21696988159561750000000000000000000,
     m 24031379132136420000000000000000000, m 24298679042621590000000000000000000,
     m 24382830250124370000000000000000000, m 24298679042621590000000000000000000,
     m 24354514329367370000000000000000000, m 24354514329367540000000000000000000,
     m 27486552224921310000000000000000000, m 13899080432868780000000000000000000,
     m 7697053851047725000000000000000000, m 4128552111640288000000000000000000,
     m 2404451030554931000000000000000000, m 4128552111640304000000000000000000,
     m 7697053851047719000000000000000000, m 13899080432868640000000000000000000,
     m 7697053851047702000000000000000000, m 894869925074543100000000000000000, 268425433234255600000000000000000,
     268425433234270000000000000000000, m 894869925074559900000000000000000, m 7697053851047687000000000000000000,
     m 4128552111640309000000000000000000, 268425433234271500000000000000000, 11518730984621060000,
     268425433234291900000000000000000, m 4128552111640321000000000000000000, m 2404451030554927000000000000000000,
     268425433234298200000000000000000, 268425433234285300000000000000000, m 2404451030554915000000000000000000,
     m 4128552111640282000000000000000000, m 894869925074574600000000000000000, m 4128552111640333000000000000000000,
     m 7697053851047723000000000000000000, m 7697053851047680000000000000000000,
     m 13899080432868750000000000000000000, 11276017832336860000000000000000000, 17429317573002390000000000000000000,
     19900737072914020000000000000000000, 19900737072914030000000000000000000, 17429317573002380000000000000000000,
     11276017832336880000000000000000000, 17429317573002390000000000000000000, 22560576410171780000000000000000000,
     22760322219527250000000000000000000, 22560576410171790000000000000000000, 17429317573002370000000000000000000,
     19900737072914030000000000000000000, 22760322219527250000000000000000000, 22760322219527260000000000000000000,
     19900737072914020000000000000000000, 19900737072914000000000000000000000, 22560576410171780000000000000000000,
     19900737072914020000000000000000000, 17429317573002400000000000000000000, 17429317573002360000000000000000000,
     11276017832336870000000000000000000, 38579077112232310000000000000000000, 43792891987711120000000000000000000,
     45410639957792160000000000000000000, 43792891987711110000000000000000000, 38579077112232310000000000000000000,
     43792891987711130000000000000000000, 44288846244198040000000000000000000, 44288846244198040000000000000000000,
     43792891987711110000000000000000000, 45410639957792170000000000000000000, 44288846244198050000000000000000000,
     45410639957792220000000000000000000, 43792891987711130000000000000000000, 43792891987711130000000000000000000,
     38579077112232310000000000000000000, 62421269091258540000000000000000000, 68848294721508260000000000000000000,
     68848294721508300000000000000000000, 62421269091258580000000000000000000, 68848294721508320000000000000000000,
     73148490750373260000000000000000000, 68848294721508240000000000000000000, 68848294721508290000000000000000000,
     68848294721508260000000000000000000, 62421269091258540000000000000000000, 89332425274869290000000000000000000,
     87188328234218360000000000000000000, 89332425274869210000000000000000000, 87188328234218350000000000000000000,
     87188328234218470000000000000000000, 89332425274869230000000000000000000, 101334461749625800000000000000000000,
     101334461749625900000000000000000000, 101334461749625900000000000000000000,
     109653351872081000000000000000000000]],
   [138586128741268900000000000000000, 68557169486481670000000000000000, 198180274923934800000000000000000,
    308670215359013100000000000000000, 162121518045978200000000000000000, 308670215359012800000000000000000,
    198180274923933200000000000000000, 68557169486481630000000000000000, 138586128741267800000000000000000,
    68557169486480210000000000000000, 220503334602801000000000000000000, 420753934075865200000000000000000,
    595069998739289300000000000000000, 595069998739287600000000000000000, 420753934075864700000000000000000,
    220503334602800600000000000000000, 68557169486482080000000000000000, 198180274923934000000000000000000,
    420753934075863500000000000000000, 670407772419400500000000000000000, 611318948122982800000000000000000,
    670407772419403500000000000000000, 420753934075863600000000000000000, 198180274923933400000000000000000,
    308670215359012700000000000000000, 595069998739291000000000000000000, 611318948122985400000000000000000,
    611318948122980500000000000000000, 595069998739289000000000000000000, 308670215359012600000000000000000,
    162121518045978400000000000000000, 595069998739286600000000000000000, 670407772419401000000000000000000,
    595069998739291900000000000000000, 162121518045980600000000000000000, 308670215359013500000000000000000,
    420753934075865100000000000000000, 420753934075864800000000000000000, 308670215359010400000000000000000,
    198180274923934100000000000000000, 220503334602802600000000000000000, 198180274923931600000000000000000,
    68557169486480560000000000000000, 68557169486483100000000000000000, 138586128741269400000000000000000,
    68557169486482950000000000000000, 220503334602799300000000000000000, 420753934075864000000000000000000,
    595069998739292400000000000000000, 595069998739287600000000000000000, 420753934075866500000000000000000,
    220503334602797900000000000000000, 68557169486483970000000000000000, 220503334602800500000000000000000,
    936354764922530800000000000000000, 1277100684258647000000000000000000, 1066951957613014000000000000000000,
    1277100684258650000000000000000000, 936354764922530900000000000000000, 220503334602798900000000000000000,
    420753934075865800000000000000000, 1277100684258648000000000000000000, 1302897151529464000000000000000000,
    1302897151529459000000000000000000, 1277100684258651000000000000000000, 420753934075866900000000000000000,
    595069998739289500000000000000000, 1066951957613015000000000000000000, 1302897151529465000000000000000000,
    1066951957613013000000000000000000, 595069998739287600000000000000000, 595069998739288300000000000000000,
    1277100684258649000000000000000000, 1277100684258648000000000000000000, 595069998739290900000000000000000,
    420753934075863200000000000000000, 936354764922528500000000000000000, 420753934075866000000000000000000,
    220503334602801200000000000000000, 220503334602803600000000000000000, 68557169486480160000000000000000,
    198180274923933700000000000000000, 420753934075864200000000000000000, 670407772419398900000000000000000,
    611318948122985100000000000000000, 670407772419399900000000000000000, 420753934075866700000000000000000,
    198180274923932900000000000000000, 420753934075865100000000000000000, 1277100684258647000000000000000000,
    1302897151529463000000000000000000, 1302897151529464000000000000000000, 1277100684258649000000000000000000,
    420753934075866200000000000000000, 670407772419401800000000000000000, 1302897151529467000000000000000000,
    2335298733600789000000000000000000, 1302897151529462000000000000000000, 670407772419398000000000000000000,
    611318948122979900000000000000000, 1302897151529462000000000000000000, 1302897151529462000000000000000000,
    611318948122984000000000000000000, 670407772419401500000000000000000, 1277100684258649000000000000000000,
    670407772419398100000000000000000, 420753934075864000000000000000000, 420753934075864800000000000000000,
    198180274923933600000000000000000, 308670215359013000000000000000000, 595069998739289300000000000000000,
    611318948122983400000000000000000, 611318948122982900000000000000000, 595069998739293100000000000000000,
    308670215359009100000000000000000, 595069998739290000000000000000000, 1066951957613015000000000000000000,
    1302897151529464000000000000000000, 1066951957613012000000000000000000, 595069998739292100000000000000000,
    611318948122986800000000000000000, 1302897151529459000000000000000000, 1302897151529455000000000000000000,
    611318948122984100000000000000000, 611318948122981600000000000000000, 1066951957613014000000000000000000,
    611318948122986200000000000000000, 595069998739292900000000000000000, 595069998739289700000000000000000,
    308670215359012600000000000000000, 162121518045977600000000000000000, 595069998739288400000000000000000,
    670407772419403000000000000000000, 595069998739289300000000000000000, 162121518045980500000000000000000,
    595069998739288800000000000000000, 1277100684258652000000000000000000, 1277100684258650000000000000000000,
    595069998739287300000000000000000, 670407772419402000000000000000000, 1277100684258649000000000000000000,
    670407772419397700000000000000000, 595069998739289800000000000000000, 595069998739288900000000000000000,
    162121518045978700000000000000000, 308670215359013100000000000000000, 420753934075866600000000000000000,
    420753934075866600000000000000000, 308670215359011500000000000000000, 420753934075865400000000000000000,
    936354764922531000000000000000000, 420753934075866700000000000000000, 420753934075863900000000000000000,
    420753934075866000000000000000000, 308670215359012300000000000000000, 198180274923933300000000000000000,
    220503334602798700000000000000000, 198180274923933900000000000000000, 220503334602799100000000000000000,
    220503334602800500000000000000000, 198180274923934600000000000000000, 68557169486479980000000000000000,
    68557169486480360000000000000000, 68557169486477690000000000000000, 138586128741272600000000000000000]⟩

/-- `tetrahedron_data[9]` (vr_quad_data_tet.py 2118-3010). -/
def vrTet_9 : TableRule :=
  ⟨13,
   [
    [m 91219804841144040000000000000000000, m 83061678137910910000000000000000000,
     m 67461104842651590000000000000000000, m 43285793284644310000000000000000000,
     m 14356394648048800000000000000000000, 14356394648048770000000000000000000, 43285793284644260000000000000000000,
     67461104842651490000000000000000000, 83061678137910750000000000000000000, 91219804841144010000000000000000000,
     m 88869795698776670000000000000000000, m 72854061740497530000000000000000000,
     m 54483725683494850000000000000000000, m 30102925523921250000000000000000000, m 19914194331695440000,
     30102925523921230000000000000000000, 54483725683494740000000000000000000, 72854061740497510000000000000000000,
     88869795698776600000000000000000000, m 80193753225891450000000000000000000,
     m 64378740613687550000000000000000000, m 41373870220664640000000000000000000,
     m 13154244183266530000000000000000000, 13154244183266500000000000000000000, 41373870220664630000000000000000000,
     64378740613687540000000000000000000, 80193753225891570000000000000000000, m 68583554273821720000000000000000000,
     m 51488284181251320000000000000000000, m 25744649665064160000000000000000000, m 41554417390457590000,
     25744649665064120000000000000000000, 51488284181251240000000000000000000, 68583554273821630000000000000000000,
     m 53870389938446820000000000000000000, m 36018184519281580000000000000000000,
     m 12590405481797670000000000000000000, 12590405481797670000000000000000000, 36018184519281590000000000000000000,
     53870389938446880000000000000000000, m 39513995290398030000000000000000000,
     m 21385358657330030000000000000000000, m 19079083743068610000, 21385358657330010000000000000000000,
     39513995290398010000000000000000000, m 25297760989177420000000000000000000,
     m 9895014930192795000000000000000000, 9895014930192718000000000000000000, 25297760989177420000000000000000000,
     m 12732648383239890000000000000000000, m 78257242437039920000, 12732648383239780000000000000000000,
     m 5808117560865567000000000000000000, 5808117560865728000000000000000000, m 7943334557788242000,
     m 88869795698776490000000000000000000, m 72854061740497350000000000000000000,
     m 54483725683494720000000000000000000, m 30102925523921290000000000000000000, 9982971871122978000,
     30102925523921260000000000000000000, 54483725683494780000000000000000000, 72854061740497480000000000000000000,
     88869795698776590000000000000000000, m 79738279481273630000000000000000000,
     m 66266991133104800000000000000000000, m 39617808046139170000000000000000000,
     m 11466776423074200000000000000000000, 11466776423074190000000000000000000, 39617808046139170000000000000000000,
     66266991133104820000000000000000000, 79738279481273660000000000000000000, m 70538652847987290000000000000000000,
     m 50656886352934970000000000000000000, m 24530754372211820000000000000000000, 1284126380764863000,
     24530754372211810000000000000000000, 50656886352934990000000000000000000, 70538652847987360000000000000000000,
     m 58014131709272920000000000000000000, m 36293504636510430000000000000000000,
     m 13082332187680910000000000000000000, 13082332187680930000000000000000000, 36293504636510440000000000000000000,
     58014131709272890000000000000000000, m 42757933088093350000000000000000000,
     m 24826728213436270000000000000000000, 23575847974827950000, 24826728213436260000000000000000000,
     42757933088093340000000000000000000, m 27911206185351650000000000000000000,
     m 11039078306795750000000000000000000, 11039078306795850000000000000000000, 27911206185351700000000000000000000,
     m 16054927164492480000000000000000000, m 15886343008381280000, 16054927164492510000000000000000000,
     m 6884217740776287000000000000000000, 6884217740776251000000000000000000, 42258551664349870000,
     m 80193753225891300000000000000000000, m 64378740613687530000000000000000000,
     m 41373870220664600000000000000000000, m 13154244183266490000000000000000000,
     13154244183266510000000000000000000, 41373870220664580000000000000000000, 64378740613687480000000000000000000,
     80193753225891320000000000000000000, m 70538652847987340000000000000000000,
     m 50656886352935000000000000000000000, m 24530754372211790000000000000000000, m 13591407981514500000,
     24530754372211760000000000000000000, 50656886352934970000000000000000000, 70538652847987300000000000000000000,
     m 58392600077747610000000000000000000, m 37247481992850800000000000000000000,
     m 14535867824804210000000000000000000, 14535867824804170000000000000000000, 37247481992850790000000000000000000,
     58392600077747620000000000000000000, m 43848286715479060000000000000000000,
     m 25449191389909250000000000000000000, 5226286374651878000, 25449191389909230000000000000000000,
     43848286715479060000000000000000000, m 30694042532212520000000000000000000,
     m 12716727620639040000000000000000000, 12716727620639020000000000000000000, 30694042532212520000000000000000000,
     m 17018729857083000000000000000000000, 18591708165808920000, 17018729857083000000000000000000000,
     m 6159912234299805000000000000000000, 6159912234299804000000000000000000, m 30470215512774930000,
     m 68583554273821720000000000000000000, m 51488284181251240000000000000000000,
     m 25744649665064130000000000000000000, 14177641273131280000, 25744649665064150000000000000000000,
     51488284181251260000000000000000000, 68583554273821730000000000000000000, m 58014131709272870000000000000000000,
     m 36293504636510430000000000000000000, m 13082332187680960000000000000000000,
     13082332187680970000000000000000000, 36293504636510360000000000000000000, 58014131709272880000000000000000000,
     m 43848286715479050000000000000000000, m 25449191389909250000000000000000000, 8675413555595385000,
     25449191389909270000000000000000000, 43848286715479050000000000000000000, m 31047072344354530000000000000000000,
     m 12366859202228260000000000000000000, 12366859202228270000000000000000000, 31047072344354530000000000000000000,
     m 18103637050414910000000000000000000, 5302910071271341000, 18103637050414900000000000000000000,
     m 6525847528021659000000000000000000, 6525847528021629000000000000000000, 16760439690807710000,
     m 53870389938446810000000000000000000, m 36018184519281550000000000000000000,
     m 12590405481797640000000000000000000, 12590405481797630000000000000000000, 36018184519281540000000000000000000,
     53870389938446780000000000000000000, m 42757933088093340000000000000000000,
     m 24826728213436330000000000000000000, m 19785791202615000000, 24826728213436310000000000000000000,
     42757933088093330000000000000000000, m 30694042532212530000000000000000000,
     m 12716727620639040000000000000000000, 12716727620639060000000000000000000, 30694042532212550000000000000000000,
     m 18103637050414920000000000000000000, 12342536981821460000, 18103637050414920000000000000000000,
     m 6739748568811813000000000000000000, 6739748568811792000000000000000000, m 31243048493489060000,
     m 39513995290398010000000000000000000, m 21385358657330020000000000000000000, 25088967792071840000,
     21385358657330050000000000000000000, 39513995290398030000000000000000000, m 27911206185351680000000000000000000,
     m 11039078306795820000000000000000000, 11039078306795760000000000000000000, 27911206185351680000000000000000000,
     m 17018729857083000000000000000000000, m 31218904143909910000, 17018729857082990000000000000000000,
     m 6525847528021644000000000000000000, 6525847528021658000000000000000000, 10088217272265670000,
     m 25297760989177460000000000000000000, m 9895014930192725000000000000000000, 9895014930192738000000000000000000,
     25297760989177430000000000000000000, m 16054927164492540000000000000000000, m 10871566978354770000,
     16054927164492510000000000000000000, m 6159912234299806000000000000000000, 6159912234299818000000000000000000,
     6425749817419117000, m 12732648383239820000000000000000000, 80404526416330150000,
     12732648383239890000000000000000000, m 6884217740776248000000000000000000, 6884217740776280000000000000000000,
     5122285048747255000, m 5808117560865610000000000000000000, 5808117560865495000000000000000000,
     m 15913322599175460000, 26633113977241170000],
    [m 52665778880459690000000000000000000, m 54662318706766340000000000000000000,
     m 53651082983855270000000000000000000, m 54202402638968650000000000000000000,
     m 53915499949981290000000000000000000, m 53915499949981270000000000000000000,
     m 54202402638968680000000000000000000, m 53651082983855170000000000000000000,
     m 54662318706766470000000000000000000, m 52665778880459620000000000000000000,
     m 44602363995014220000000000000000000, m 42062312157433820000000000000000000,
     m 42881972756983710000000000000000000, m 42073617309683560000000000000000000,
     m 41590217055857610000000000000000000, m 42073617309683570000000000000000000,
     m 42881972756983670000000000000000000, m 42062312157433780000000000000000000,
     m 44602363995014260000000000000000000, m 31597489069174100000000000000000000,
     m 25743304156237330000000000000000000, m 23887215109317360000000000000000000,
     m 22132754408439800000000000000000000, m 22132754408439780000000000000000000,
     m 23887215109317360000000000000000000, m 25743304156237370000000000000000000,
     m 31597489069174170000000000000000000, m 10385395287979470000000000000000000,
     m 5033089577105044000000000000000000, m 325532426072584900000000000000000, m 44869794361195700000,
     m 325532426072572200000000000000000, m 5033089577105029000000000000000000,
     m 10385395287979520000000000000000000, 14524747503025430000000000000000000, 20795108527928850000000000000000000,
     22458286834512410000000000000000000, 22458286834512360000000000000000000, 20795108527928850000000000000000000,
     14524747503025430000000000000000000, 39390752446955890000000000000000000, 47106706886788570000000000000000000,
     47774430218634730000000000000000000, 47106706886788570000000000000000000, 39390752446955880000000000000000000,
     64587797926948090000000000000000000, 68625276913220950000000000000000000, 68625276913220950000000000000000000,
     64587797926948140000000000000000000, 85248572053029390000000000000000000, 84124624314867550000000000000000000,
     85248572053029290000000000000000000, 99264682701780560000000000000000000, 99264682701780540000000000000000000,
     105331557760919300000000000000000000, m 51309000469515610000000000000000000,
     m 50011522089028170000000000000000000, m 49994826730298620000000000000000000,
     m 49609016963671070000000000000000000, m 49372608356805370000000000000000000,
     m 49609016963671080000000000000000000, m 49994826730298630000000000000000000,
     m 50011522089028130000000000000000000, m 51309000469515720000000000000000000,
     m 38087707191636590000000000000000000, m 38259265169084650000000000000000000,
     m 35620181804209170000000000000000000, m 35287782888849330000000000000000000,
     m 35287782888849380000000000000000000, m 35620181804209190000000000000000000,
     m 38259265169084620000000000000000000, m 38087707191636620000000000000000000,
     m 22186877169579770000000000000000000, m 16499937308107470000000000000000000,
     m 14162837640221080000000000000000000, m 15106176020371360000000000000000000,
     m 14162837640221100000000000000000000, m 16499937308107450000000000000000000,
     m 22186877169579880000000000000000000, m 1265389750111267000000000000000000, 7713371762525968000000000000000000,
     7553088010185681000000000000000000, 7553088010185726000000000000000000, 7713371762525965000000000000000000,
     m 1265389750111255000000000000000000, 24686304178402670000000000000000000, 27574411126323360000000000000000000,
     28325675280442150000000000000000000, 27574411126323340000000000000000000, 24686304178402710000000000000000000,
     50874406713782320000000000000000000, 52120119112316630000000000000000000, 52120119112316710000000000000000000,
     50874406713782290000000000000000000, 72181703899878560000000000000000000, 76518530338169190000000000000000000,
     72181703899878500000000000000000000, 88099229280664830000000000000000000, 88099229280664790000000000000000000,
     102618000939031500000000000000000000, m 46299885012294770000000000000000000,
     m 44281937196716500000000000000000000, m 43538751637822140000000000000000000,
     m 43037033857176460000000000000000000, m 43037033857176440000000000000000000,
     m 43538751637822140000000000000000000, m 44281937196716540000000000000000000,
     m 46299885012294750000000000000000000, m 33612656236744070000000000000000000,
     m 29246766972175270000000000000000000, m 28846849870195280000000000000000000,
     m 29386194999244760000000000000000000, m 28846849870195280000000000000000000,
     m 29246766972175290000000000000000000, m 33612656236744120000000000000000000,
     m 14061446845064950000000000000000000, m 6820831525233976000000000000000000,
     m 8392287201555508000000000000000000, m 8392287201555522000000000000000000,
     m 6820831525233970000000000000000000, m 14061446845064980000000000000000000,
     10126607298295700000000000000000000, 14693097499622370000000000000000000, 16784574403111010000000000000000000,
     14693097499622370000000000000000000, 10126607298295720000000000000000000, 32910426558880780000000000000000000,
     35667681395429220000000000000000000, 35667681395429260000000000000000000, 32910426558880720000000000000000000,
     57600198482887080000000000000000000, 58493533944350520000000000000000000, 57600198482887130000000000000000000,
     77894593433460670000000000000000000, 77894593433460630000000000000000000, 92599770024589520000000000000000000,
     m 39596733521972270000000000000000000, m 37262174386144870000000000000000000,
     m 35767959863054030000000000000000000, m 35850071151125720000000000000000000,
     m 35767959863054070000000000000000000, m 37262174386144830000000000000000000,
     m 39596733521972290000000000000000000, m 25959074905163580000000000000000000,
     m 20954064671724220000000000000000000, m 21833106989059100000000000000000000,
     m 21833106989059100000000000000000000, m 20954064671724210000000000000000000,
     m 25959074905163560000000000000000000, m 4411540689949064000000000000000000,
     m 413078520749046700000000000000000, m 28012800249596570000, m 413078520748995000000000000000000,
     m 4411540689949067000000000000000000, 17925035575562890000000000000000000, 22246185509808120000000000000000000,
     22246185509808100000000000000000000, 17925035575562860000000000000000000, 40179500553003080000000000000000000,
     41908129343448490000000000000000000, 40179500553003090000000000000000000, 63221249291308470000000000000000000,
     63221249291308480000000000000000000, 79193467043944600000000000000000000, m 31102084132312370000000000000000000,
     m 28577499828876560000000000000000000, m 28173353442859070000000000000000000,
     m 28173353442859050000000000000000000, m 28577499828876590000000000000000000,
     m 31102084132312350000000000000000000, m 16903912877454930000000000000000000,
     m 14333718217125150000000000000000000, m 14684012229974190000000000000000000,
     m 14333718217125110000000000000000000, m 16903912877454950000000000000000000,
     3183065730245936000000000000000000, 7342006114987083000000000000000000, 7342006114987096000000000000000000,
     3183065730245925000000000000000000, 24990287712613160000000000000000000, 28667436434250280000000000000000000,
     24990287712613160000000000000000000, 45481412706331440000000000000000000, 45481412706331520000000000000000000,
     62204168264624700000000000000000000, m 22813415817668900000000000000000000,
     m 19882242231513720000000000000000000, m 19651536528504800000000000000000000,
     m 19882242231513690000000000000000000, m 22813415817668910000000000000000000,
     m 8579142750532439000000000000000000, m 6373414832033959000000000000000000,
     m 6373414832033895000000000000000000, m 8579142750532416000000000000000000, 9825768264252401000000000000000000,
     12746829664067780000000000000000000, 9825768264252401000000000000000000, 28461384982046160000000000000000000,
     28461384982046100000000000000000000, 45626831635337820000000000000000000, m 14605669116996410000000000000000000,
     m 12825743506897040000000000000000000, m 12825743506897020000000000000000000,
     m 14605669116996420000000000000000000, m 2156462546924701000000000000000000, m 14367580248695230000,
     m 2156462546924732000000000000000000, 14982206053821710000000000000000000, 14982206053821690000000000000000000,
     29211338233992770000000000000000000, m 7351197971560409000000000000000000, m 7949209931594354000000000000000000,
     m 7351197971560383000000000000000000, 3974604965797181000000000000000000, 3974604965797164000000000000000000,
     14702395943120790000000000000000000, m 3353318237250680000000000000000000, m 3353318237250682000000000000000000,
     6706636474501516000000000000000000, m 36507629181109610000],
    [m 37240329382844330000000000000000000, m 38652096232934740000000000000000000,
     m 37937044595886240000000000000000000, m 38326886462618370000000000000000000,
     m 38124015625694730000000000000000000, m 38124015625694720000000000000000000,
     m 38326886462618370000000000000000000, m 37937044595886230000000000000000000,
     m 38652096232934730000000000000000000, m 37240329382844350000000000000000000,
     m 38652096232934760000000000000000000, m 38173956530465560000000000000000000,
     m 37866454644300920000000000000000000, m 37743038400152960000000000000000000,
     m 37663197005338380000000000000000000, m 37743038400152930000000000000000000,
     m 37866454644300950000000000000000000, m 38173956530465590000000000000000000,
     m 38652096232934700000000000000000000, m 37937044595886260000000000000000000,
     m 37866454644300930000000000000000000, m 37734413897521390000000000000000000,
     m 37822557359574640000000000000000000, m 37822557359574640000000000000000000,
     m 37734413897521390000000000000000000, m 37866454644300890000000000000000000,
     m 37937044595886300000000000000000000, m 38326886462618350000000000000000000,
     m 37743038400152950000000000000000000, m 37822557359574640000000000000000000,
     m 38024742625471860000000000000000000, m 37822557359574640000000000000000000,
     m 37743038400152970000000000000000000, m 38326886462618300000000000000000000,
     m 38124015625694730000000000000000000, m 37663197005338360000000000000000000,
     m 37822557359574640000000000000000000, m 37822557359574650000000000000000000,
     m 37663197005338350000000000000000000, m 38124015625694740000000000000000000,
     m 38124015625694740000000000000000000, m 37743038400152940000000000000000000,
     m 37734413897521380000000000000000000, m 37743038400152940000000000000000000,
     m 38124015625694760000000000000000000, m 38326886462618330000000000000000000,
     m 37866454644300950000000000000000000, m 37866454644301000000000000000000000,
     m 38326886462618330000000000000000000, m 37937044595886320000000000000000000,
     m 38173956530465510000000000000000000, m 37937044595886230000000000000000000,
     m 38652096232934670000000000000000000, m 38652096232934750000000000000000000,
     m 37240329382844470000000000000000000, m 29167479972788580000000000000000000,
     m 26932076035053880000000000000000000, m 27807360088059610000000000000000000,
     m 27086374011582340000000000000000000, m 26657233679843640000000000000000000,
     m 27086374011582290000000000000000000, m 27807360088059660000000000000000000,
     m 26932076035053880000000000000000000, m 29167479972788550000000000000000000,
     m 26932076035053950000000000000000000, m 27053385844273990000000000000000000,
     m 25187272100853980000000000000000000, m 24952230573744050000000000000000000,
     m 24952230573743970000000000000000000, m 25187272100853980000000000000000000,
     m 27053385844274050000000000000000000, m 26932076035053920000000000000000000,
     m 27807360088059640000000000000000000, m 25187272100853980000000000000000000,
     m 25589385470505860000000000000000000, m 25827926884953180000000000000000000,
     m 25589385470505830000000000000000000, m 25187272100854010000000000000000000,
     m 27807360088059600000000000000000000, m 27086374011582290000000000000000000,
     m 24952230573744010000000000000000000, m 25827926884953220000000000000000000,
     m 25827926884953220000000000000000000, m 24952230573744020000000000000000000,
     m 27086374011582250000000000000000000, m 26657233679843660000000000000000000,
     m 24952230573743950000000000000000000, m 25589385470505830000000000000000000,
     m 24952230573743930000000000000000000, m 26657233679843710000000000000000000,
     m 27086374011582290000000000000000000, m 25187272100853990000000000000000000,
     m 25187272100854060000000000000000000, m 27086374011582290000000000000000000,
     m 27807360088059660000000000000000000, m 27053385844273990000000000000000000,
     m 27807360088059620000000000000000000, m 26932076035053970000000000000000000,
     m 26932076035053890000000000000000000, m 29167479972788920000000000000000000,
     m 17144716853745550000000000000000000, m 11648868370597320000000000000000000,
     m 9942944417439626000000000000000000, m 8259441851534097000000000000000000,
     m 8259441851534089000000000000000000, m 9942944417439615000000000000000000,
     m 11648868370597310000000000000000000, m 17144716853745600000000000000000000,
     m 11648868370597310000000000000000000, m 7160532712669608000000000000000000,
     m 4823056224823951000000000000000000, m 5632930374085233000000000000000000,
     m 4823056224823935000000000000000000, m 7160532712669644000000000000000000,
     m 11648868370597260000000000000000000, m 9942944417439639000000000000000000,
     m 4823056224823952000000000000000000, m 5934243189885030000000000000000000,
     m 5934243189884995000000000000000000, m 4823056224823968000000000000000000,
     m 9942944417439642000000000000000000, m 8259441851534096000000000000000000,
     m 5632930374085201000000000000000000, m 5934243189884990000000000000000000,
     m 5632930374085211000000000000000000, m 8259441851534093000000000000000000,
     m 8259441851534104000000000000000000, m 4823056224823946000000000000000000,
     m 4823056224823991000000000000000000, m 8259441851534109000000000000000000,
     m 9942944417439607000000000000000000, m 7160532712669627000000000000000000,
     m 9942944417439622000000000000000000, m 11648868370597410000000000000000000,
     m 11648868370597330000000000000000000, m 17144716853745540000000000000000000,
     2984184242961935000000000000000000, 7835770439663918000000000000000000, 12300604205228900000000000000000000,
     12674914208490660000000000000000000, 12300604205228810000000000000000000, 7835770439663955000000000000000000,
     2984184242961958000000000000000000, 7835770439663954000000000000000000, 15589646830041250000000000000000000,
     15730428629519210000000000000000000, 15730428629519190000000000000000000, 15589646830041260000000000000000000,
     7835770439663928000000000000000000, 12300604205228820000000000000000000, 15730428629519210000000000000000000,
     17802729569654940000000000000000000, 15730428629519180000000000000000000, 12300604205228810000000000000000000,
     12674914208490600000000000000000000, 15730428629519190000000000000000000, 15730428629519220000000000000000000,
     12674914208490640000000000000000000, 12300604205228840000000000000000000, 15589646830041270000000000000000000,
     12300604205228840000000000000000000, 7835770439663919000000000000000000, 7835770439663954000000000000000000,
     2984184242961952000000000000000000, 26402068481113790000000000000000000, 32160215342591020000000000000000000,
     33781395005879870000000000000000000, 33781395005879900000000000000000000, 32160215342591010000000000000000000,
     26402068481113820000000000000000000, 32160215342591020000000000000000000, 34314814317446710000000000000000000,
     35235497920153690000000000000000000, 34314814317446760000000000000000000, 32160215342591020000000000000000000,
     33781395005879900000000000000000000, 35235497920153700000000000000000000, 35235497920153670000000000000000000,
     33781395005879910000000000000000000, 33781395005879860000000000000000000, 34314814317446700000000000000000000,
     33781395005879880000000000000000000, 32160215342591040000000000000000000, 32160215342591040000000000000000000,
     26402068481113800000000000000000000, 49845962770275680000000000000000000, 56993641972071250000000000000000000,
     57620302732400610000000000000000000, 56993641972071240000000000000000000, 49845962770275700000000000000000000,
     56993641972071250000000000000000000, 57535076914377610000000000000000000, 57535076914377550000000000000000000,
     56993641972071290000000000000000000, 57620302732400630000000000000000000, 57535076914377600000000000000000000,
     57620302732400620000000000000000000, 56993641972071250000000000000000000, 56993641972071240000000000000000000,
     49845962770275660000000000000000000, 73669588682274670000000000000000000, 77322683102957990000000000000000000,
     77322683102957990000000000000000000, 73669588682274660000000000000000000, 77322683102958000000000000000000000,
     81160157532822090000000000000000000, 77322683102957960000000000000000000, 77322683102957950000000000000000000,
     77322683102957960000000000000000000, 73669588682274740000000000000000000, 93018806045518150000000000000000000,
     92038108600573370000000000000000000, 93018806045518290000000000000000000, 92038108600573350000000000000000000,
     92038108600573340000000000000000000, 93018806045518050000000000000000000, 106471672438658300000000000000000000,
     106471672438658300000000000000000000, 106471672438658300000000000000000000,
     111720988148532900000000000000000000]],
   [69771498746190090000000000000000, 42237783426076210000000000000000, 108229906082729700000000000000000,
    123543586318445900000000000000000, 147382479519424800000000000000000, 147382479519425500000000000000000,
    123543586318445500000000000000000, 108229906082731200000000000000000, 42237783426075710000000000000000,
    69771498746191480000000000000000, 42237783426074820000000000000000, 189065962118464900000000000000000,
    218916786397661600000000000000000, 363315474345453100000000000000000, 404414029419215000000000000000000,
    363315474345456200000000000000000, 218916786397658500000000000000000, 189065962118464200000000000000000,
    42237783426074680000000000000000, 108229906082729900000000000000000, 218916786397658900000000000000000,
    452139672916751800000000000000000, 452935465658229800000000000000000, 452935465658232800000000000000000,
    452139672916751500000000000000000, 218916786397659000000000000000000, 108229906082728700000000000000000,
    123543586318446000000000000000000, 363315474345454500000000000000000, 452935465658231400000000000000000,
    389391623699168100000000000000000, 452935465658230800000000000000000, 363315474345453500000000000000000,
    123543586318449700000000000000000, 147382479519424500000000000000000, 404414029419217000000000000000000,
    452935465658232500000000000000000, 452935465658232700000000000000000, 404414029419217400000000000000000,
    147382479519423600000000000000000, 147382479519423700000000000000000, 363315474345453600000000000000000,
    452139672916751700000000000000000, 363315474345454100000000000000000, 147382479519423600000000000000000,
    123543586318446900000000000000000, 218916786397657400000000000000000, 218916786397655500000000000000000,
    123543586318447300000000000000000, 108229906082727600000000000000000, 189065962118468900000000000000000,
    108229906082731900000000000000000, 42237783426075760000000000000000, 42237783426074750000000000000000,
    69771498746189040000000000000000, 42237783426077200000000000000000, 189065962118466100000000000000000,
    218916786397657200000000000000000, 363315474345455400000000000000000, 404414029419216700000000000000000,
    363315474345452800000000000000000, 218916786397659900000000000000000, 189065962118466600000000000000000,
    42237783426075610000000000000000, 189065962118468800000000000000000, 486184377246068500000000000000000,
    884420537786194900000000000000000, 754277613330370200000000000000000, 754277613330368700000000000000000,
    884420537786195700000000000000000, 486184377246068600000000000000000, 189065962118467900000000000000000,
    218916786397657300000000000000000, 884420537786197300000000000000000, 992836479120381900000000000000000,
    869233432978679600000000000000000, 992836479120388100000000000000000, 884420537786194700000000000000000,
    218916786397657100000000000000000, 363315474345453900000000000000000, 754277613330369100000000000000000,
    869233432978678700000000000000000, 869233432978676700000000000000000, 754277613330369300000000000000000,
    363315474345455000000000000000000, 404414029419216700000000000000000, 754277613330370900000000000000000,
    992836479120386100000000000000000, 754277613330368100000000000000000, 404414029419216700000000000000000,
    363315474345455500000000000000000, 884420537786196300000000000000000, 884420537786194500000000000000000,
    363315474345453000000000000000000, 218916786397660300000000000000000, 486184377246068800000000000000000,
    218916786397658600000000000000000, 189065962118463900000000000000000, 189065962118466300000000000000000,
    42237783426078540000000000000000, 108229906082730400000000000000000, 218916786397656600000000000000000,
    452139672916753400000000000000000, 452935465658233000000000000000000, 452935465658230600000000000000000,
    452139672916752300000000000000000, 218916786397657200000000000000000, 108229906082730600000000000000000,
    218916786397656900000000000000000, 884420537786197300000000000000000, 992836479120387500000000000000000,
    869233432978679400000000000000000, 992836479120382200000000000000000, 884420537786200100000000000000000,
    218916786397657300000000000000000, 452139672916751700000000000000000, 992836479120382600000000000000000,
    1510527732401861000000000000000000, 1510527732401860000000000000000000, 992836479120385700000000000000000,
    452139672916751600000000000000000, 452935465658233600000000000000000, 869233432978678700000000000000000,
    1510527732401862000000000000000000, 869233432978678100000000000000000, 452935465658232600000000000000000,
    452935465658230400000000000000000, 992836479120384200000000000000000, 992836479120385800000000000000000,
    452935465658233700000000000000000, 452139672916753100000000000000000, 884420537786198700000000000000000,
    452139672916751500000000000000000, 218916786397658900000000000000000, 218916786397657500000000000000000,
    108229906082730900000000000000000, 123543586318446700000000000000000, 363315474345456700000000000000000,
    452935465658230100000000000000000, 389391623699170100000000000000000, 452935465658230100000000000000000,
    363315474345457400000000000000000, 123543586318446400000000000000000, 363315474345455600000000000000000,
    754277613330367500000000000000000, 869233432978680000000000000000000, 869233432978680400000000000000000,
    754277613330370400000000000000000, 363315474345455600000000000000000, 452935465658231500000000000000000,
    869233432978680200000000000000000, 1510527732401866000000000000000000, 869233432978678100000000000000000,
    452935465658232100000000000000000, 389391623699169500000000000000000, 869233432978683400000000000000000,
    869233432978682900000000000000000, 389391623699168400000000000000000, 452935465658230000000000000000000,
    754277613330365900000000000000000, 452935465658233000000000000000000, 363315474345457900000000000000000,
    363315474345456800000000000000000, 123543586318445100000000000000000, 147382479519425800000000000000000,
    404414029419215100000000000000000, 452935465658229800000000000000000, 452935465658231600000000000000000,
    404414029419214500000000000000000, 147382479519425900000000000000000, 404414029419214500000000000000000,
    754277613330367000000000000000000, 992836479120386400000000000000000, 754277613330368000000000000000000,
    404414029419216400000000000000000, 452935465658231700000000000000000, 992836479120390000000000000000000,
    992836479120387500000000000000000, 452935465658230600000000000000000, 452935465658229900000000000000000,
    754277613330369900000000000000000, 452935465658229200000000000000000, 404414029419214300000000000000000,
    404414029419213300000000000000000, 147382479519426400000000000000000, 147382479519424700000000000000000,
    363315474345453100000000000000000, 452139672916752400000000000000000, 363315474345454700000000000000000,
    147382479519423800000000000000000, 363315474345454900000000000000000, 884420537786196000000000000000000,
    884420537786197000000000000000000, 363315474345453600000000000000000, 452139672916753000000000000000000,
    884420537786198400000000000000000, 452139672916753200000000000000000, 363315474345454200000000000000000,
    363315474345455900000000000000000, 147382479519424700000000000000000, 123543586318446600000000000000000,
    218916786397659400000000000000000, 218916786397660500000000000000000, 123543586318447000000000000000000,
    218916786397658900000000000000000, 486184377246069000000000000000000, 218916786397660500000000000000000,
    218916786397659100000000000000000, 218916786397658900000000000000000, 123543586318447300000000000000000,
    108229906082729900000000000000000, 189065962118464300000000000000000, 108229906082727200000000000000000,
    189065962118465100000000000000000, 189065962118465200000000000000000, 108229906082729500000000000000000,
    42237783426076200000000000000000, 42237783426076020000000000000000, 42237783426076630000000000000000,
    69771498746189290000000000000000]⟩

/-- `tetrahedron_data[10]` (vr_quad_data_tet.py 3011-4167). -/
def vrTet_10 : TableRule :=
  ⟨15,
   [
    [m 92737342055837500000000000000000000, m 88201811657960950000000000000000000,
     m 76379184329342670000000000000000000, m 53926335396873600000000000000000000,
     m 27931907341480370000000000000000000, m 44263202907576330000, 27931907341480390000000000000000000,
     53926335396873570000000000000000000, 76379184329342670000000000000000000, 88201811657960920000000000000000000,
     92737342055837560000000000000000000, m 92332984972320880000000000000000000,
     m 79142263714519940000000000000000000, m 64352167173684890000000000000000000,
     m 41718088460251890000000000000000000, m 14008636041712390000000000000000000,
     14008636041712430000000000000000000, 41718088460251830000000000000000000, 64352167173684880000000000000000000,
     79142263714519910000000000000000000, 92332984972320810000000000000000000, m 86243891491668950000000000000000000,
     m 73009541143847660000000000000000000, m 52436213414983320000000000000000000,
     m 26193547129852050000000000000000000, 28633442913835650000, 26193547129851990000000000000000000,
     52436213414983310000000000000000000, 73009541143847720000000000000000000, 86243891491669190000000000000000000,
     m 74879984602485910000000000000000000, m 60342583948640930000000000000000000,
     m 38266656851277030000000000000000000, m 13410966839123180000000000000000000,
     13410966839123200000000000000000000, 38266656851276970000000000000000000, 60342583948640910000000000000000000,
     74879984602485870000000000000000000, m 61384073930509010000000000000000000,
     m 46287762330917260000000000000000000, m 25168068016651890000000000000000000, 56532057815803390000,
     25168068016652080000000000000000000, 46287762330917350000000000000000000, 61384073930509030000000000000000000,
     m 47626328856904330000000000000000000, m 32279126289204970000000000000000000,
     m 12073109721424980000000000000000000, 12073109721424940000000000000000000, 32279126289204950000000000000000000,
     47626328856904340000000000000000000, m 33452166589028750000000000000000000,
     m 18624495488389040000000000000000000, m 14046762516705000000, 18624495488388970000000000000000000,
     33452166589028730000000000000000000, m 20953649205612180000000000000000000,
     m 8657373970162846000000000000000000, 8657373970162874000000000000000000, 20953649205612230000000000000000000,
     m 9864707162326612000000000000000000, m 27128891329068320000, 9864707162326621000000000000000000,
     m 4131173314359964000000000000000000, 4131173314359945000000000000000000, m 36597762774353220000,
     m 92332984972320880000000000000000000, m 79142263714519960000000000000000000,
     m 64352167173684890000000000000000000, m 41718088460251900000000000000000000,
     m 14008636041712410000000000000000000, 14008636041712440000000000000000000, 41718088460251840000000000000000000,
     64352167173684860000000000000000000, 79142263714520030000000000000000000, 92332984972320830000000000000000000,
     m 84211032410346700000000000000000000, m 72028755656943310000000000000000000,
     m 50879195019249010000000000000000000, m 25569359458498930000000000000000000, 1460163362698723000,
     25569359458498870000000000000000000, 50879195019249020000000000000000000, 72028755656943370000000000000000000,
     84211032410346860000000000000000000, m 77233562229309160000000000000000000,
     m 59823772614312600000000000000000000, m 36096077154582370000000000000000000,
     m 12276961515438240000000000000000000, 12276961515438260000000000000000000, 36096077154582350000000000000000000,
     59823772614312560000000000000000000, 77233562229309130000000000000000000, m 65375239694532320000000000000000000,
     m 47261068024845740000000000000000000, m 25553805804486780000000000000000000, m 86901617181546440000,
     25553805804486700000000000000000000, 47261068024845710000000000000000000, 65375239694532280000000000000000000,
     m 51458512537466050000000000000000000, m 34896299328733290000000000000000000,
     m 13276844289048510000000000000000000, 13276844289048490000000000000000000, 34896299328733280000000000000000000,
     51458512537466070000000000000000000, m 37449876495753660000000000000000000,
     m 21691708566346930000000000000000000, m 21730424368089450000, 21691708566346880000000000000000000,
     37449876495753670000000000000000000, m 23657151234280400000000000000000000,
     m 8944577595063591000000000000000000, 8944577595063532000000000000000000, 23657151234280380000000000000000000,
     m 12881395055624260000000000000000000, 43619747127685980000, 12881395055624260000000000000000000,
     m 5068768695826924000000000000000000, 5068768695826914000000000000000000, 2647255546343669000,
     m 86243891491668960000000000000000000, m 73009541143847660000000000000000000,
     m 52436213414983330000000000000000000, m 26193547129852050000000000000000000, 2973606170680436000,
     26193547129851990000000000000000000, 52436213414983300000000000000000000, 73009541143847700000000000000000000,
     86243891491669080000000000000000000, m 77233562229309130000000000000000000,
     m 59823772614312600000000000000000000, m 36096077154582420000000000000000000,
     m 12276961515438260000000000000000000, 12276961515438250000000000000000000, 36096077154582400000000000000000000,
     59823772614312570000000000000000000, 77233562229309110000000000000000000, m 66160943728477860000000000000000000,
     m 46669628519738600000000000000000000, m 26706691782003640000000000000000000, 46781278266803800000,
     26706691782003710000000000000000000, 46669628519738660000000000000000000, 66160943728477860000000000000000000,
     m 52770676072106870000000000000000000, m 35613056968104750000000000000000000,
     m 13279793933373210000000000000000000, 13279793933373190000000000000000000, 35613056968104720000000000000000000,
     52770676072106870000000000000000000, m 39736442919933870000000000000000000,
     m 23336095452666450000000000000000000, 13623856860200900000, 23336095452666450000000000000000000,
     39736442919933880000000000000000000, m 26577128942254860000000000000000000,
     m 10573551365156260000000000000000000, 10573551365156230000000000000000000, 26577128942254830000000000000000000,
     m 13724730313494570000000000000000000, m 26421820968936110000, 13724730313494570000000000000000000,
     m 4224021085461430000000000000000000, 4224021085461412000000000000000000, m 21497235202042360000,
     m 74879984602485930000000000000000000, m 60342583948640950000000000000000000,
     m 38266656851277030000000000000000000, m 13410966839123130000000000000000000,
     13410966839123280000000000000000000, 38266656851277040000000000000000000, 60342583948640920000000000000000000,
     74879984602485920000000000000000000, m 65375239694532360000000000000000000,
     m 47261068024845730000000000000000000, m 25553805804486720000000000000000000, m 21636438811342580000,
     25553805804486740000000000000000000, 47261068024845760000000000000000000, 65375239694532360000000000000000000,
     m 52770676072106890000000000000000000, m 35613056968104710000000000000000000,
     m 13279793933373190000000000000000000, 13279793933373170000000000000000000, 35613056968104690000000000000000000,
     52770676072106860000000000000000000, m 40243208186674300000000000000000000,
     m 22811831518599240000000000000000000, m 829058621519365200, 22811831518599200000000000000000000,
     40243208186674350000000000000000000, m 26832241347551120000000000000000000,
     m 10059251163617960000000000000000000, 10059251163618000000000000000000000, 26832241347551170000000000000000000,
     m 14504019220829840000000000000000000, 21206804127567290000, 14504019220829880000000000000000000,
     m 5032655745891373000000000000000000, 5032655745891431000000000000000000, 26012886099982010000,
     m 61384073930509030000000000000000000, m 46287762330917310000000000000000000,
     m 25168068016651920000000000000000000, 88783642029335230000, 25168068016652070000000000000000000,
     46287762330917380000000000000000000, 61384073930509040000000000000000000, m 51458512537466030000000000000000000,
     m 34896299328733240000000000000000000, m 13276844289048480000000000000000000,
     13276844289048440000000000000000000, 34896299328733290000000000000000000, 51458512537466070000000000000000000,
     m 39736442919933820000000000000000000, m 23336095452666410000000000000000000, m 4211847414956555000,
     23336095452666430000000000000000000, 39736442919933870000000000000000000, m 26832241347551130000000000000000000,
     m 10059251163618030000000000000000000, 10059251163617930000000000000000000, 26832241347551140000000000000000000,
     m 14568374903281920000000000000000000, m 14166622418650220000, 14568374903281910000000000000000000,
     m 5170750206548725000000000000000000, 5170750206548690000000000000000000, m 5226463409860180000,
     m 47626328856904310000000000000000000, m 32279126289204980000000000000000000,
     m 12073109721424980000000000000000000, 12073109721424960000000000000000000, 32279126289204960000000000000000000,
     47626328856904310000000000000000000, m 37449876495753660000000000000000000,
     m 21691708566346900000000000000000000, 2158683492253796000, 21691708566346890000000000000000000,
     37449876495753650000000000000000000, m 26577128942254840000000000000000000,
     m 10573551365156260000000000000000000, 10573551365156290000000000000000000, 26577128942254850000000000000000000,
     m 14504019220829880000000000000000000, m 42393733676067290000, 14504019220829860000000000000000000,
     m 5170750206548752000000000000000000, 5170750206548741000000000000000000, m 7207012917095334000,
     m 33452166589028770000000000000000000, m 18624495488389060000000000000000000, 20047921588082770000,
     18624495488389060000000000000000000, 33452166589028740000000000000000000, m 23657151234280430000000000000000000,
     m 8944577595063568000000000000000000, 8944577595063555000000000000000000, 23657151234280390000000000000000000,
     m 13724730313494580000000000000000000, 14574416087425810000, 13724730313494570000000000000000000,
     m 5032655745891412000000000000000000, 5032655745891380000000000000000000, m 7476516959079628000,
     m 20953649205612200000000000000000000, m 8657373970162807000000000000000000, 8657373970162859000000000000000000,
     20953649205612230000000000000000000, m 12881395055624220000000000000000000, m 10876648707743070000,
     12881395055624240000000000000000000, m 4224021085461366000000000000000000, 4224021085461439000000000000000000,
     17011745324238120000, m 9864707162326536000000000000000000, m 554915209776452300,
     9864707162326575000000000000000000, m 5068768695826988000000000000000000, 5068768695826888000000000000000000,
     m 41015634345879820000, m 4131173314359737000000000000000000, 4131173314360018000000000000000000,
     126337701077630500000, m 149825878224499800000],
    [m 53541929399868480000000000000000000, m 55693607753965590000000000000000000,
     m 55488325304322290000000000000000000, m 55329574276525420000000000000000000,
     m 54753728992887230000000000000000000, m 54994147572094720000000000000000000,
     m 54753728992887280000000000000000000, m 55329574276525410000000000000000000,
     m 55488325304322260000000000000000000, m 55693607753965640000000000000000000,
     m 53541929399868340000000000000000000, m 48538205678621590000000000000000000,
     m 45692807259854450000000000000000000, m 47150415424960300000000000000000000,
     m 45591664570087790000000000000000000, m 45360614294218960000000000000000000,
     m 45360614294219070000000000000000000, m 45591664570087800000000000000000000,
     m 47150415424960300000000000000000000, m 45692807259854390000000000000000000,
     m 48538205678621620000000000000000000, m 38402151297383610000000000000000000,
     m 32155403848514000000000000000000000, m 30274061930425330000000000000000000,
     m 29063677781692380000000000000000000, m 29061581688793910000000000000000000,
     m 29063677781692420000000000000000000, m 30274061930425290000000000000000000,
     m 32155403848513980000000000000000000, m 38402151297383840000000000000000000,
     m 19036789248429910000000000000000000, m 13333092118860740000000000000000000,
     m 8152438338830639000000000000000000, m 7742825314661046000000000000000000,
     m 7742825314660949000000000000000000, m 8152438338830623000000000000000000,
     m 13333092118860680000000000000000000, m 19036789248429850000000000000000000,
     3187123162568605000000000000000000, 10548472462616360000000000000000000, 14530790844396810000000000000000000,
     15485650629322000000000000000000000, 14530790844396850000000000000000000, 10548472462616340000000000000000000,
     3187123162568611000000000000000000, 27497073786047410000000000000000000, 34812141831602630000000000000000000,
     37216116120523120000000000000000000, 37216116120523070000000000000000000, 34812141831602650000000000000000000,
     27497073786047410000000000000000000, 51566605830318510000000000000000000, 58924756688948440000000000000000000,
     60548123860850620000000000000000000, 58924756688948510000000000000000000, 51566605830318520000000000000000000,
     74366363524955360000000000000000000, 79305819273474290000000000000000000, 79305819273474310000000000000000000,
     74366363524955360000000000000000000, 93890476601706130000000000000000000, 91385614519708840000000000000000000,
     93890476601706060000000000000000000, 104231813432587300000000000000000000, 104231813432587300000000000000000000,
     107083858799736600000000000000000000, m 53308473728850830000000000000000000,
     m 51545717201845650000000000000000000, m 52027894846467880000000000000000000,
     m 51402874869346040000000000000000000, m 51331282341545380000000000000000000,
     m 51331282341545410000000000000000000, m 51402874869346020000000000000000000,
     m 52027894846467870000000000000000000, m 51545717201845670000000000000000000,
     m 53308473728851030000000000000000000, m 42766352288858800000000000000000000,
     m 41585821467930030000000000000000000, m 39703425505109730000000000000000000,
     m 39809904126297170000000000000000000, m 40294775622331730000000000000000000,
     m 39809904126297150000000000000000000, m 39703425505109740000000000000000000,
     m 41585821467930060000000000000000000, m 42766352288858890000000000000000000,
     m 29716664137760200000000000000000000, m 24210962658217430000000000000000000,
     m 20840079861887630000000000000000000, m 22418886284310680000000000000000000,
     m 22418886284310640000000000000000000, m 20840079861887660000000000000000000,
     m 24210962658217440000000000000000000, m 29716664137760240000000000000000000,
     m 10427486969231550000000000000000000, m 2238762786407370000000000000000000, 577282588501921700000000000000000,
     143575482330377800000, 577282588501865300000000000000000, m 2238762786407421000000000000000000,
     m 10427486969231530000000000000000000, 13533806486279500000000000000000000, 20147387811165860000000000000000000,
     21841603695808930000000000000000000, 21841603695808850000000000000000000, 20147387811165810000000000000000000,
     13533806486279490000000000000000000, 37797475855265850000000000000000000, 42048666912704500000000000000000000,
     41680159723775260000000000000000000, 42048666912704500000000000000000000, 37797475855265870000000000000000000,
     61830361838577660000000000000000000, 63914388163327230000000000000000000, 63914388163327170000000000000000000,
     61830361838577650000000000000000000, 81744558984228080000000000000000000, 83171642935860060000000000000000000,
     81744558984228100000000000000000000, 94312069490704340000000000000000000, 94312069490704480000000000000000000,
     106616947457702000000000000000000000, m 49792933968676000000000000000000000,
     m 47029557654319110000000000000000000, m 46122015412527510000000000000000000,
     m 45811476584647660000000000000000000, m 45883692032924050000000000000000000,
     m 45811476584647670000000000000000000, m 46122015412527500000000000000000000,
     m 47029557654319140000000000000000000, m 49792933968676000000000000000000000,
     m 39713338522057690000000000000000000, m 34539271222812320000000000000000000,
     m 33049365315814260000000000000000000, m 34034309018632450000000000000000000,
     m 34034309018632450000000000000000000, m 33049365315814260000000000000000000,
     m 34539271222812330000000000000000000, m 39713338522057710000000000000000000,
     m 22350085189374140000000000000000000, m 14735437134924370000000000000000000,
     m 15419115689504220000000000000000000, m 15334185204431480000000000000000000,
     m 15419115689504210000000000000000000, m 14735437134924400000000000000000000,
     m 22350085189374160000000000000000000, 221461062647030700000000000000000, 6384993955662835000000000000000000,
     7667092602215789000000000000000000, 7667092602215803000000000000000000, 6384993955662781000000000000000000,
     221461062647048400000000000000000, 22941846016461980000000000000000000, 27649315062969760000000000000000000,
     30838231379008380000000000000000000, 27649315062969760000000000000000000, 22941846016462030000000000000000000,
     45590015522000620000000000000000000, 47784802450738570000000000000000000, 47784802450738570000000000000000000,
     45590015522000670000000000000000000, 68472100601901670000000000000000000, 69078542445624610000000000000000000,
     68472100601901690000000000000000000, 86742896176376800000000000000000000, 86742896176376790000000000000000000,
     99585867937352370000000000000000000, m 43231979267160290000000000000000000,
     m 40650017385603690000000000000000000, m 38841063437027090000000000000000000,
     m 38726028844600260000000000000000000, m 38726028844600250000000000000000000,
     m 38841063437027080000000000000000000, m 40650017385603650000000000000000000,
     m 43231979267160280000000000000000000, m 31933201936716360000000000000000000,
     m 27286190346333900000000000000000000, m 26368919394361660000000000000000000,
     m 26340834135943330000000000000000000, m 26368919394361650000000000000000000,
     m 27286190346333910000000000000000000, m 31933201936716360000000000000000000,
     m 13719365232594190000000000000000000, m 8945785292878877000000000000000000,
     m 7667092602215794000000000000000000, m 7667092602215776000000000000000000,
     m 8945785292878922000000000000000000, m 13719365232594170000000000000000000, 7748776450308755000000000000000000,
     13170417067971720000000000000000000, 15334185204431540000000000000000000, 13170417067971720000000000000000000,
     7748776450308722000000000000000000, 30977252394291540000000000000000000, 35314704687240650000000000000000000,
     35314704687240640000000000000000000, 30977252394291500000000000000000000, 52560428669621330000000000000000000,
     54572380692667900000000000000000000, 52560428669621310000000000000000000, 72583219322320030000000000000000000,
     72583219322319950000000000000000000, 86463958534320480000000000000000000, m 35440111607735290000000000000000000,
     m 32694920089266920000000000000000000, m 31352901188527160000000000000000000,
     m 30983203529939260000000000000000000, m 31352901188527140000000000000000000,
     m 32694920089266940000000000000000000, m 35440111607735300000000000000000000,
     m 23738918018277350000000000000000000, m 20147387811165910000000000000000000,
     m 19280812358592650000000000000000000, m 19280812358592650000000000000000000,
     m 20147387811165950000000000000000000, m 23738918018277420000000000000000000,
     m 6119735672331731000000000000000000, m 1857678257109984000000000000000000, 53709108760942050000,
     m 1857678257109990000000000000000000, m 6119735672331827000000000000000000, 15491601764969570000000000000000000,
     21138490615702580000000000000000000, 21138490615702710000000000000000000, 15491601764969540000000000000000000,
     37472636860858710000000000000000000, 40294775622331670000000000000000000, 37472636860858750000000000000000000,
     56433838107544180000000000000000000, 56433838107544250000000000000000000, 70880223215470540000000000000000000,
     m 27497073786047320000000000000000000, m 24607030299604840000000000000000000,
     m 23718211950575850000000000000000000, m 23718211950575850000000000000000000,
     m 24607030299604850000000000000000000, m 27497073786047350000000000000000000,
     m 15651028228615170000000000000000000, m 12523713779963250000000000000000000,
     m 12209285453926580000000000000000000, m 12523713779963270000000000000000000,
     m 15651028228615180000000000000000000, 1403486253857101000000000000000000, 6104642726963333000000000000000000,
     6104642726963343000000000000000000, 1403486253857078000000000000000000, 22314725696718860000000000000000000,
     25047427559926610000000000000000000, 22314725696718800000000000000000000, 40258058528220060000000000000000000,
     40258058528220040000000000000000000, 54994147572094720000000000000000000, m 19313617385151960000000000000000000,
     m 16564067783000620000000000000000000, m 15847953482102210000000000000000000,
     m 16564067783000590000000000000000000, m 19313617385151940000000000000000000,
     m 7847252334113224000000000000000000, m 5164154282297464000000000000000000,
     m 5164154282297456000000000000000000, m 7847252334113196000000000000000000, 7923976741051103000000000000000000,
     10328308564594900000000000000000000, 7923976741051094000000000000000000, 24411320117113850000000000000000000,
     24411320117113870000000000000000000, 38627234770303900000000000000000000, m 12097595009365210000000000000000000,
     m 9875816613656393000000000000000000, m 9875816613656384000000000000000000,
     m 12097595009365170000000000000000000, m 2559597481395029000000000000000000, 74926506893649510000,
     m 2559597481394986000000000000000000, 12435414095051330000000000000000000, 12435414095051310000000000000000000,
     24195190018730380000000000000000000, m 5695391335645994000000000000000000, m 5852909941991132000000000000000000,
     m 5695391335646058000000000000000000, 2926454970995645000000000000000000, 2926454970995561000000000000000000,
     11390782671292200000000000000000000, m 2385134025114841000000000000000000, m 2385134025114869000000000000000000,
     4770268050229269000000000000000000, 147294021763881400000],
    [m 37859861356458340000000000000000000, m 39381327711572780000000000000000000,
     m 39236171099371370000000000000000000, m 39123917171095890000000000000000000,
     m 38716733066121040000000000000000000, m 38886734673801900000000000000000000,
     m 38716733066121060000000000000000000, m 39123917171095880000000000000000000,
     m 39236171099371360000000000000000000, m 39381327711572850000000000000000000,
     m 37859861356458300000000000000000000, m 39381327711572710000000000000000000,
     m 38517642329377180000000000000000000, m 38513726643821000000000000000000000,
     m 38401894497351450000000000000000000, m 38407647762947170000000000000000000,
     m 38407647762947180000000000000000000, m 38401894497351450000000000000000000,
     m 38513726643821010000000000000000000, m 38517642329377180000000000000000000,
     m 39381327711572740000000000000000000, m 39236171099371340000000000000000000,
     m 38513726643821000000000000000000000, m 38216287547750380000000000000000000,
     m 38314846800931930000000000000000000, m 38392183931457160000000000000000000,
     m 38314846800931940000000000000000000, m 38216287547750370000000000000000000,
     m 38513726643820990000000000000000000, m 39236171099371390000000000000000000,
     m 39123917171095910000000000000000000, m 38401894497351450000000000000000000,
     m 38314846800931940000000000000000000, m 38337654263894180000000000000000000,
     m 38337654263894190000000000000000000, m 38314846800931940000000000000000000,
     m 38401894497351460000000000000000000, m 39123917171095870000000000000000000,
     m 38716733066121050000000000000000000, m 38407647762947180000000000000000000,
     m 38392183931457150000000000000000000, m 38337654263894180000000000000000000,
     m 38392183931457150000000000000000000, m 38407647762947190000000000000000000,
     m 38716733066121050000000000000000000, m 38886734673801890000000000000000000,
     m 38407647762947200000000000000000000, m 38314846800931930000000000000000000,
     m 38314846800931930000000000000000000, m 38407647762947190000000000000000000,
     m 38886734673801910000000000000000000, m 38716733066120980000000000000000000,
     m 38401894497351440000000000000000000, m 38216287547750370000000000000000000,
     m 38401894497351440000000000000000000, m 38716733066120990000000000000000000,
     m 39123917171095950000000000000000000, m 38513726643821040000000000000000000,
     m 38513726643821020000000000000000000, m 39123917171095960000000000000000000,
     m 39236171099371250000000000000000000, m 38517642329377150000000000000000000,
     m 39236171099371270000000000000000000, m 39381327711573080000000000000000000,
     m 39381327711573080000000000000000000, m 37859861356458010000000000000000000,
     m 32635149938783460000000000000000000, m 30240377710064870000000000000000000,
     m 31615929095729300000000000000000000, m 30183602078338220000000000000000000,
     m 29963848033990520000000000000000000, m 29963848033990590000000000000000000,
     m 30183602078338210000000000000000000, m 31615929095729260000000000000000000,
     m 30240377710064960000000000000000000, m 32635149938783300000000000000000000,
     m 30240377710064920000000000000000000, m 29405616361186400000000000000000000,
     m 28074561410998020000000000000000000, m 28149853166091020000000000000000000,
     m 28492709088941160000000000000000000, m 28149853166091020000000000000000000,
     m 28074561410998030000000000000000000, m 29405616361186360000000000000000000,
     m 30240377710064990000000000000000000, m 31615929095729270000000000000000000,
     m 28074561410998050000000000000000000, m 27686064597680650000000000000000000,
     m 28172562790967200000000000000000000, m 28172562790967240000000000000000000,
     m 27686064597680650000000000000000000, m 28074561410998020000000000000000000,
     m 31615929095729230000000000000000000, m 30183602078338260000000000000000000,
     m 28149853166091050000000000000000000, m 28172562790967190000000000000000000,
     m 27938673659453460000000000000000000, m 28172562790967210000000000000000000,
     m 28149853166091050000000000000000000, m 30183602078338210000000000000000000,
     m 29963848033990540000000000000000000, m 28492709088941220000000000000000000,
     m 28172562790967180000000000000000000, m 28172562790967170000000000000000000,
     m 28492709088941190000000000000000000, m 29963848033990600000000000000000000,
     m 29963848033990440000000000000000000, m 28149853166091050000000000000000000,
     m 27686064597680610000000000000000000, m 28149853166091020000000000000000000,
     m 29963848033990470000000000000000000, m 30183602078338210000000000000000000,
     m 28074561410998040000000000000000000, m 28074561410997990000000000000000000,
     m 30183602078338210000000000000000000, m 31615929095729350000000000000000000,
     m 29405616361186410000000000000000000, m 31615929095729360000000000000000000,
     m 30240377710064850000000000000000000, m 30240377710064890000000000000000000,
     m 32635149938783560000000000000000000, m 23127171759585200000000000000000000,
     m 17478496602828000000000000000000000, m 15803896797503520000000000000000000,
     m 14629882593896600000000000000000000, m 14602127335051610000000000000000000,
     m 14629882593896650000000000000000000, m 15803896797503480000000000000000000,
     m 17478496602828000000000000000000000, m 23127171759585340000000000000000000,
     m 17478496602827990000000000000000000, m 13468127362573750000000000000000000,
     m 10419527521853050000000000000000000, m 11745874427392480000000000000000000,
     m 11745874427392460000000000000000000, m 10419527521853070000000000000000000,
     m 13468127362573710000000000000000000, m 17478496602828030000000000000000000,
     m 15803896797503510000000000000000000, m 10419527521853080000000000000000000,
     m 10902961263948330000000000000000000, m 10842906342024000000000000000000000,
     m 10902961263948370000000000000000000, m 10419527521853070000000000000000000,
     m 15803896797503430000000000000000000, m 14629882593896660000000000000000000,
     m 11745874427392550000000000000000000, m 10842906342023950000000000000000000,
     m 10842906342023960000000000000000000, m 11745874427392480000000000000000000,
     m 14629882593896700000000000000000000, m 14602127335051460000000000000000000,
     m 11745874427392540000000000000000000, m 10902961263948280000000000000000000,
     m 11745874427392500000000000000000000, m 14602127335051570000000000000000000,
     m 14629882593896600000000000000000000, m 10419527521853080000000000000000000,
     m 10419527521853010000000000000000000, m 14629882593896600000000000000000000,
     m 15803896797503480000000000000000000, m 13468127362573670000000000000000000,
     m 15803896797503510000000000000000000, m 17478496602827980000000000000000000,
     m 17478496602827990000000000000000000, m 23127171759585560000000000000000000,
     m 4906751302413310000000000000000000, 230071697208685500000000000000000, 5085423023520914000000000000000000,
     5479212373911804000000000000000000, 5479212373911821000000000000000000, 5085423023520931000000000000000000,
     230071697208772900000000000000000, m 4906751302413288000000000000000000, 230071697208722200000000000000000,
     7272558591714696000000000000000000, 9935121507643203000000000000000000, 9312891219817895000000000000000000,
     9935121507643212000000000000000000, 7272558591714687000000000000000000, 230071697208767800000000000000000,
     5085423023520880000000000000000000, 9935121507643197000000000000000000, 10842906342023960000000000000000000,
     10842906342023940000000000000000000, 9935121507643204000000000000000000, 5085423023520919000000000000000000,
     5479212373911932000000000000000000, 9312891219817824000000000000000000, 10842906342023970000000000000000000,
     9312891219817920000000000000000000, 5479212373911853000000000000000000, 5479212373911867000000000000000000,
     9935121507643204000000000000000000, 9935121507643177000000000000000000, 5479212373911810000000000000000000,
     5085423023520890000000000000000000, 7272558591714695000000000000000000, 5085423023520860000000000000000000,
     230071697208800800000000000000000, 230071697208790900000000000000000, m 4906751302413295000000000000000000,
     15910426223012300000000000000000000, 22747744466949880000000000000000000, 26497155633254190000000000000000000,
     27379229516070430000000000000000000, 26497155633254240000000000000000000, 22747744466949840000000000000000000,
     15910426223012340000000000000000000, 22747744466949800000000000000000000, 28492709088941060000000000000000000,
     29983315710716610000000000000000000, 29983315710716540000000000000000000, 28492709088941100000000000000000000,
     22747744466949820000000000000000000, 26497155633254290000000000000000000, 29983315710716560000000000000000000,
     32708883791844920000000000000000000, 29983315710716550000000000000000000, 26497155633254280000000000000000000,
     27379229516070440000000000000000000, 29983315710716540000000000000000000, 29983315710716550000000000000000000,
     27379229516070440000000000000000000, 26497155633254170000000000000000000, 28492709088941070000000000000000000,
     26497155633254140000000000000000000, 22747744466949820000000000000000000, 22747744466949810000000000000000000,
     15910426223012350000000000000000000, 38886734673801990000000000000000000, 45623751329987820000000000000000000,
     47859306371307820000000000000000000, 47859306371307800000000000000000000, 45623751329987830000000000000000000,
     38886734673801980000000000000000000, 45623751329987840000000000000000000, 49027147740467430000000000000000000,
     48525119641386690000000000000000000, 49027147740467330000000000000000000, 45623751329987900000000000000000000,
     47859306371307710000000000000000000, 48525119641386780000000000000000000, 48525119641386720000000000000000000,
     47859306371307740000000000000000000, 47859306371307730000000000000000000, 49027147740467460000000000000000000,
     47859306371307860000000000000000000, 45623751329987710000000000000000000, 45623751329987750000000000000000000,
     38886734673801880000000000000000000, 61523039909229620000000000000000000, 68355424878480910000000000000000000,
     69824081142757380000000000000000000, 68355424878480970000000000000000000, 61523039909229630000000000000000000,
     68355424878480980000000000000000000, 69617250184569780000000000000000000, 69617250184569840000000000000000000,
     68355424878480930000000000000000000, 69824081142757370000000000000000000, 69617250184569700000000000000000000,
     69824081142757400000000000000000000, 68355424878481050000000000000000000, 68355424878481000000000000000000000,
     61523039909229640000000000000000000, 83154585644605080000000000000000000, 87608152342378310000000000000000000,
     87608152342378360000000000000000000, 83154585644605130000000000000000000, 87608152342378310000000000000000000,
     88216849083559370000000000000000000, 87608152342378300000000000000000000, 87608152342378240000000000000000000,
     87608152342378260000000000000000000, 83154585644605140000000000000000000, 101599513958328400000000000000000000,
     98998397749507010000000000000000000, 101599513958328100000000000000000000, 98998397749506940000000000000000000,
     98998397749507120000000000000000000, 101599513958328200000000000000000000, 111397805361929100000000000000000000,
     111397805361929300000000000000000000, 111397805361929000000000000000000000,
     113579584069374600000000000000000000]],
   [35213676323354240000000000000000, 14131618277153480000000000000000, 34565232660304880000000000000000,
    54538774681939480000000000000000, 82924696143100420000000000000000, 78317262621735840000000000000000,
    82924696143098550000000000000000, 54538774681939860000000000000000, 34565232660304960000000000000000,
    14131618277153500000000000000000, 35213676323356000000000000000000, 14131618277155970000000000000000,
    103324608262404600000000000000000, 130898078197695000000000000000000, 208080470033881000000000000000000,
    226602606797577400000000000000000, 226602606797575800000000000000000, 208080470033881100000000000000000,
    130898078197695400000000000000000, 103324608262404800000000000000000, 14131618277154580000000000000000,
    34565232660304870000000000000000, 130898078197694500000000000000000, 306151788568875700000000000000000,
    330898809681071200000000000000000, 306215133457954300000000000000000, 330898809681071000000000000000000,
    306151788568877600000000000000000, 130898078197695100000000000000000, 34565232660304190000000000000000,
    54538774681938840000000000000000, 208080470033881100000000000000000, 330898809681071000000000000000000,
    382288992294600500000000000000000, 382288992294599500000000000000000, 330898809681071000000000000000000,
    208080470033881400000000000000000, 54538774681939750000000000000000, 82924696143101570000000000000000,
    226602606797577400000000000000000, 306215133457957400000000000000000, 382288992294600200000000000000000,
    306215133457955500000000000000000, 226602606797575900000000000000000, 82924696143100390000000000000000,
    78317262621735520000000000000000, 226602606797575500000000000000000, 330898809681070200000000000000000,
    330898809681071500000000000000000, 226602606797576800000000000000000, 78317262621735010000000000000000,
    82924696143102780000000000000000, 208080470033880700000000000000000, 306151788568876900000000000000000,
    208080470033881900000000000000000, 82924696143102850000000000000000, 54538774681939070000000000000000,
    130898078197694000000000000000000, 130898078197694500000000000000000, 54538774681938240000000000000000,
    34565232660304580000000000000000, 103324608262405400000000000000000, 34565232660304490000000000000000,
    14131618277153970000000000000000, 14131618277154470000000000000000, 35213676323357090000000000000000,
    14131618277155920000000000000000, 103324608262403800000000000000000, 130898078197695600000000000000000,
    208080470033880700000000000000000, 226602606797576800000000000000000, 226602606797575400000000000000000,
    208080470033881100000000000000000, 130898078197696000000000000000000, 103324608262403300000000000000000,
    14131618277154370000000000000000, 103324608262406000000000000000000, 239996604096921700000000000000000,
    503370809843124600000000000000000, 542931747123586500000000000000000, 480108745828460900000000000000000,
    542931747123587400000000000000000, 503370809843125100000000000000000, 239996604096923100000000000000000,
    103324608262403200000000000000000, 130898078197693200000000000000000, 503370809843125200000000000000000,
    720662514212230900000000000000000, 700494086117583300000000000000000, 700494086117581400000000000000000,
    720662514212227600000000000000000, 503370809843125800000000000000000, 130898078197695600000000000000000,
    208080470033881300000000000000000, 542931747123583400000000000000000, 700494086117582600000000000000000,
    911814742532113000000000000000000, 700494086117583300000000000000000, 542931747123585400000000000000000,
    208080470033881600000000000000000, 226602606797576100000000000000000, 480108745828455700000000000000000,
    700494086117581100000000000000000, 700494086117582800000000000000000, 480108745828459100000000000000000,
    226602606797575900000000000000000, 226602606797576500000000000000000, 542931747123583400000000000000000,
    720662514212231800000000000000000, 542931747123586200000000000000000, 226602606797576100000000000000000,
    208080470033880700000000000000000, 503370809843126500000000000000000, 503370809843127200000000000000000,
    208080470033882000000000000000000, 130898078197693400000000000000000, 239996604096923300000000000000000,
    130898078197693800000000000000000, 103324608262405200000000000000000, 103324608262403600000000000000000,
    14131618277153180000000000000000, 34565232660305270000000000000000, 130898078197693900000000000000000,
    306151788568876000000000000000000, 330898809681071900000000000000000, 306215133457956600000000000000000,
    330898809681072000000000000000000, 306151788568877200000000000000000, 130898078197694400000000000000000,
    34565232660305170000000000000000, 130898078197693500000000000000000, 503370809843123700000000000000000,
    720662514212229900000000000000000, 700494086117583600000000000000000, 700494086117584300000000000000000,
    720662514212230000000000000000000, 503370809843122800000000000000000, 130898078197695000000000000000000,
    306151788568877500000000000000000, 720662514212232500000000000000000, 965135116580315500000000000000000,
    1230176557200611000000000000000000, 965135116580315000000000000000000, 720662514212228900000000000000000,
    306151788568877100000000000000000, 330898809681072600000000000000000, 700494086117584600000000000000000,
    1230176557200614000000000000000000, 1230176557200613000000000000000000, 700494086117588300000000000000000,
    330898809681072800000000000000000, 306215133457952900000000000000000, 700494086117581400000000000000000,
    965135116580312900000000000000000, 700494086117581800000000000000000, 306215133457953700000000000000000,
    330898809681071100000000000000000, 720662514212230800000000000000000, 720662514212229400000000000000000,
    330898809681070400000000000000000, 306151788568877200000000000000000, 503370809843124300000000000000000,
    306151788568877400000000000000000, 130898078197694600000000000000000, 130898078197696200000000000000000,
    34565232660305220000000000000000, 54538774681938390000000000000000, 208080470033881200000000000000000,
    330898809681071300000000000000000, 382288992294600500000000000000000, 382288992294599800000000000000000,
    330898809681070600000000000000000, 208080470033881000000000000000000, 54538774681938710000000000000000,
    208080470033880800000000000000000, 542931747123584400000000000000000, 700494086117582100000000000000000,
    911814742532111600000000000000000, 700494086117584900000000000000000, 542931747123582700000000000000000,
    208080470033880300000000000000000, 330898809681073300000000000000000, 700494086117585600000000000000000,
    1230176557200616000000000000000000, 1230176557200616000000000000000000, 700494086117586700000000000000000,
    330898809681072700000000000000000, 382288992294600300000000000000000, 911814742532113200000000000000000,
    1230176557200613000000000000000000, 911814742532113800000000000000000, 382288992294601200000000000000000,
    382288992294599200000000000000000, 700494086117584100000000000000000, 700494086117578900000000000000000,
    382288992294598700000000000000000, 330898809681071400000000000000000, 542931747123580500000000000000000,
    330898809681069900000000000000000, 208080470033879000000000000000000, 208080470033878200000000000000000,
    54538774681939890000000000000000, 82924696143101690000000000000000, 226602606797577000000000000000000,
    306215133457956700000000000000000, 382288992294600800000000000000000, 306215133457955300000000000000000,
    226602606797574900000000000000000, 82924696143099960000000000000000, 226602606797576800000000000000000,
    480108745828459500000000000000000, 700494086117581700000000000000000, 700494086117581500000000000000000,
    480108745828458300000000000000000, 226602606797575900000000000000000, 306215133457954700000000000000000,
    700494086117582600000000000000000, 965135116580315500000000000000000, 700494086117581400000000000000000,
    306215133457956000000000000000000, 382288992294597500000000000000000, 700494086117581000000000000000000,
    700494086117582000000000000000000, 382288992294600500000000000000000, 306215133457954200000000000000000,
    480108745828460000000000000000000, 306215133457957700000000000000000, 226602606797577900000000000000000,
    226602606797578300000000000000000, 82924696143101120000000000000000, 78317262621735060000000000000000,
    226602606797577400000000000000000, 330898809681071600000000000000000, 330898809681071600000000000000000,
    226602606797576500000000000000000, 78317262621735040000000000000000, 226602606797577700000000000000000,
    542931747123583200000000000000000, 720662514212230200000000000000000, 542931747123585500000000000000000,
    226602606797576700000000000000000, 330898809681069800000000000000000, 720662514212226700000000000000000,
    720662514212229700000000000000000, 330898809681069200000000000000000, 330898809681069900000000000000000,
    542931747123582100000000000000000, 330898809681070900000000000000000, 226602606797578100000000000000000,
    226602606797579000000000000000000, 78317262621736220000000000000000, 82924696143101960000000000000000,
    208080470033880200000000000000000, 306151788568877600000000000000000, 208080470033881100000000000000000,
    82924696143102530000000000000000, 208080470033880000000000000000000, 503370809843126700000000000000000,
    503370809843127800000000000000000, 208080470033881000000000000000000, 306151788568878200000000000000000,
    503370809843125700000000000000000, 306151788568876100000000000000000, 208080470033879700000000000000000,
    208080470033879900000000000000000, 82924696143103080000000000000000, 54538774681939440000000000000000,
    130898078197695500000000000000000, 130898078197694200000000000000000, 54538774681938840000000000000000,
    130898078197695400000000000000000, 239996604096924500000000000000000, 130898078197694500000000000000000,
    130898078197695700000000000000000, 130898078197695800000000000000000, 54538774681938450000000000000000,
    34565232660304550000000000000000, 103324608262405100000000000000000, 34565232660304620000000000000000,
    103324608262402100000000000000000, 103324608262403100000000000000000, 34565232660305200000000000000000,
    14131618277153460000000000000000, 14131618277153930000000000000000, 14131618277153800000000000000000,
    35213676323356860000000000000000]⟩

/-- `tetrahedron_data` in vr_quad_data_tet.py. -/
def vrTet : List (Int × TableRule) :=
  [(0, vrTet_0), (1, vrTet_1), (2, vrTet_2), (3, vrTet_3), (4, vrTet_4), (5, vrTet_5), (6, vrTet_6), (7, vrTet_7),
   (8, vrTet_8), (9, vrTet_9), (10, vrTet_10)]

end
end Modepy.Table
