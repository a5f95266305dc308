import Verif.Model.TableRules

/-!
# `xg_quad_data.py`, in units of `10^-35`

Generated by tools/gen_tables.py.
-/

namespace Modepy.Table
noncomputable section

/-- `triangle_table_orig[1]` (xg_quad_data.py 10-13). -/
def xgTri_1 : XgTableRule :=
  ⟨[
    [m 5551115123125780000, 22204460492503100000]],
   [173205080756888000000000000000000000]⟩

/-- `triangle_table_orig[2]` (xg_quad_data.py 14-21). -/
def xgTri_2 : XgTableRule :=
  ⟨[
    [m 50000000000000000000000000000000000, m 28867513459481300000000000000000000],
    [50000000000000000000000000000000000, m 28867513459481300000000000000000000],
    [0, 57735026918962600000000000000000000]],
   [57735026918962600000000000000000000, 57735026918962600000000000000000000, 57735026918962600000000000000000000]⟩

/-- `triangle_table_orig[3]` (xg_quad_data.py 22-39). -/
def xgTri_3 : XgTableRule :=
  ⟨[
    [m 4163336342344340000, m 39011034927098700000000000000000000],
    [33784547274789500000000000000000000, 19505517463549300000000000000000000],
    [m 33784547274789500000000000000000000, 19505517463549400000000000000000000],
    [m 72527135947068700000000000000000000, m 41873561462592800000000000000000000],
    [72527135947068800000000000000000000, m 41873561462592700000000000000000000],
    [0, 83747122925185500000000000000000000]],
   [38690826279781900000000000000000000, 38690826279781900000000000000000000, 38690826279781900000000000000000000,
    19044200639180600000000000000000000, 19044200639180600000000000000000000, 19044200639180600000000000000000000]⟩

/-- `triangle_table_orig[4]` (xg_quad_data.py 40-57). -/
def xgTri_4 : XgTableRule :=
  ⟨[
    [m 4163336342344340000, m 39011034927098700000000000000000000],
    [33784547274789500000000000000000000, 19505517463549300000000000000000000],
    [m 33784547274789500000000000000000000, 19505517463549400000000000000000000],
    [m 72527135947068700000000000000000000, m 41873561462592800000000000000000000],
    [72527135947068800000000000000000000, m 41873561462592700000000000000000000],
    [0, 83747122925185500000000000000000000]],
   [38690826279781900000000000000000000, 38690826279781900000000000000000000, 38690826279781900000000000000000000,
    19044200639180600000000000000000000, 19044200639180600000000000000000000, 19044200639180600000000000000000000]⟩

/-- `triangle_table_orig[5]` (xg_quad_data.py 58-77). -/
def xgTri_5 : XgTableRule :=
  ⟨[
    [m 69614047802963100000000000000000000, m 40191689238420300000000000000000000],
    [69614047802963100000000000000000000, m 40191689238420200000000000000000000],
    [m 22204460492503100000, 80383378476840500000000000000000000],
    [m 693889390390723000, m 47391934523147500000000000000000000],
    [41042619231534500000000000000000000, 23695967261573800000000000000000000],
    [m 41042619231534500000000000000000000, 23695967261573800000000000000000000],
    [m 5551115123125780000, 22204460492503100000]],
   [21813305936723100000000000000000000, 21813305936723100000000000000000000, 21813305936723100000000000000000000,
    22931339925473000000000000000000000, 22931339925473000000000000000000000, 22931339925473000000000000000000000,
    38971143170299800000000000000000000]⟩

/-- `triangle_table_orig[6]` (xg_quad_data.py 78-107). -/
def xgTri_6 : XgTableRule :=
  ⟨[
    [m 34171005235065100000000000000000000, m 19728639070945000000000000000000000],
    [34171005235065100000000000000000000, m 19728639070944900000000000000000000],
    [0, 39457278141889900000000000000000000],
    [4857225732735060000, m 50854615859082600000000000000000000],
    [44041389233664500000000000000000000, 25427307929541300000000000000000000],
    [m 44041389233664500000000000000000000, 25427307929541300000000000000000000],
    [m 69739024379082300000000000000000000, m 54379745836573700000000000000000000],
    [81963753535355000000000000000000000, m 33205893829140700000000000000000000],
    [m 12224729156272700000000000000000000, 87585639665714500000000000000000000],
    [69739024379082300000000000000000000, m 54379745836573700000000000000000000],
    [12224729156272800000000000000000000, 87585639665714500000000000000000000],
    [m 81963753535355000000000000000000000, m 33205893829140700000000000000000000]],
   [29675767605247000000000000000000000, 29675767605247000000000000000000000, 29675767605247000000000000000000000,
    13983034892552500000000000000000000, 13983034892552500000000000000000000, 13983034892552500000000000000000000,
    7038112210581580000000000000000000, 7038112210581580000000000000000000, 7038112210581580000000000000000000,
    7038112210581580000000000000000000, 7038112210581580000000000000000000, 7038112210581580000000000000000000]⟩

/-- `triangle_table_orig[7]` (xg_quad_data.py 108-143). -/
def xgTri_7 : XgTableRule :=
  ⟨[
    [4163336342344340000, m 48449728984184900000000000000000000],
    [41958696106775300000000000000000000, 24224864492092400000000000000000000],
    [m 41958696106775300000000000000000000, 24224864492092500000000000000000000],
    [m 82660707983648000000000000000000000, m 47724182005764300000000000000000000],
    [82660707983648100000000000000000000, m 47724182005764200000000000000000000],
    [0, 95448364011528600000000000000000000],
    [m 43435077013834300000000000000000000, m 49599375367952700000000000000000000],
    [64671857587404300000000000000000000, m 12816192425337700000000000000000000],
    [m 21236780573570000000000000000000000, 62415567793290400000000000000000000],
    [43435077013834300000000000000000000, m 49599375367952700000000000000000000],
    [21236780573570000000000000000000000, 62415567793290400000000000000000000],
    [m 64671857587404300000000000000000000, m 12816192425337700000000000000000000],
    [m 27500918080825800000000000000000000, m 15877662456926600000000000000000000],
    [27500918080825800000000000000000000, m 15877662456926600000000000000000000],
    [0, 31755324913853300000000000000000000]],
   [9211190525883980000000000000000000, 9211190525883980000000000000000000, 9211190525883980000000000000000000,
    7087235007526710000000000000000000, 7087235007526710000000000000000000, 7087235007526710000000000000000000,
    9656969696913570000000000000000000, 9656969696913570000000000000000000, 9656969696913570000000000000000000,
    9656969696913570000000000000000000, 9656969696913570000000000000000000, 9656969696913570000000000000000000,
    22122661991724700000000000000000000, 22122661991724700000000000000000000, 22122661991724700000000000000000000]⟩

/-- `triangle_table_orig[8]` (xg_quad_data.py 144-181). -/
def xgTri_8 : XgTableRule :=
  ⟨[
    [m 48829207674471900000000000000000000, m 28191556195172500000000000000000000],
    [48829207674471900000000000000000000, m 28191556195172500000000000000000000],
    [0, 56383112390345100000000000000000000],
    [m 1387778780781450000, m 43633565854637000000000000000000000],
    [37787776487816900000000000000000000, 21816782927318500000000000000000000],
    [m 37787776487816900000000000000000000, 21816782927318600000000000000000000],
    [m 5551115123125780000, 22204460492503100000],
    [m 84835831504890700000000000000000000, m 48979990156274400000000000000000000],
    [84835831504890700000000000000000000, m 48979990156274400000000000000000000],
    [0, 97959980312548800000000000000000000],
    [m 46537956332076600000000000000000000, m 56281008819734800000000000000000000],
    [72009761554544700000000000000000000, m 12162548013921800000000000000000000],
    [m 25471805222468000000000000000000000, 68443556833656700000000000000000000],
    [46537956332076600000000000000000000, m 56281008819734800000000000000000000],
    [25471805222468100000000000000000000, 68443556833656600000000000000000000],
    [m 72009761554544700000000000000000000, m 12162548013921800000000000000000000]],
   [17877772998979500000000000000000000, 17877772998979500000000000000000000, 17877772998979500000000000000000000,
    16470354192569500000000000000000000, 16470354192569500000000000000000000, 16470354192569500000000000000000000,
    24996196482310500000000000000000000, 5621976702073270000000000000000000, 5621976702073270000000000000000000,
    5621976702073270000000000000000000, 4716428765618440000000000000000000, 4716428765618440000000000000000000,
    4716428765618440000000000000000000, 4716428765618440000000000000000000, 4716428765618440000000000000000000,
    4716428765618440000000000000000000]⟩

/-- `triangle_table_orig[9]` (xg_quad_data.py 182-225). -/
def xgTri_9 : XgTableRule :=
  ⟨[
    [2428612866367530000, m 54160946728182000000000000000000000],
    [46904755759621300000000000000000000, 27080473364091000000000000000000000],
    [m 46904755759621300000000000000000000, 27080473364091100000000000000000000],
    [m 5551115123125780000, 22204460492503100000],
    [m 43538939314290200000000000000000000, m 25137218333336200000000000000000000],
    [43538939314290200000000000000000000, m 25137218333336200000000000000000000],
    [0, 50274436666672500000000000000000000],
    [m 51923560962373200000000000000000000, m 51354426784066500000000000000000000],
    [70436018672976200000000000000000000, m 19289909456332000000000000000000000],
    [m 18512457710602900000000000000000000, 70644336240398500000000000000000000],
    [51923560962373200000000000000000000, m 51354426784066500000000000000000000],
    [18512457710603000000000000000000000, 70644336240398500000000000000000000],
    [m 70436018672976200000000000000000000, m 19289909456331900000000000000000000],
    [m 5551115123125780000, m 35942222147133200000000000000000000],
    [31126877447881000000000000000000000, 17971111073566600000000000000000000],
    [m 31126877447881000000000000000000000, 17971111073566600000000000000000000],
    [m 86581145981664200000000000000000000, m 49987647939260100000000000000000000],
    [86581145981664200000000000000000000, m 49987647939260100000000000000000000],
    [0, 99975295878520300000000000000000000]],
   [5427329283334490000000000000000000, 5427329283334490000000000000000000, 5427329283334490000000000000000000,
    16824413439546800000000000000000000, 13795393052991000000000000000000000, 13795393052991000000000000000000000,
    13795393052991000000000000000000000, 7496928933287340000000000000000000, 7496928933287340000000000000000000,
    7496928933287340000000000000000000, 7496928933287340000000000000000000, 7496928933287340000000000000000000,
    7496928933287340000000000000000000, 13480125524841900000000000000000000, 13480125524841900000000000000000000,
    13480125524841900000000000000000000, 4430183378038280000000000000000000, 4430183378038280000000000000000000,
    4430183378038280000000000000000000]⟩

/-- `triangle_table_orig[10]` (xg_quad_data.py 226-281). -/
def xgTri_10 : XgTableRule :=
  ⟨[
    [m 5377642775528100000, m 56063064349133300000000000000000000],
    [48552037940351100000000000000000000, 28031532174566700000000000000000000],
    [m 48552037940351100000000000000000000, 28031532174566700000000000000000000],
    [m 94258175427147600000000000000000000, m 54419982956186700000000000000000000],
    [94258175427147600000000000000000000, m 54419982956186600000000000000000000],
    [0, 108839965912373000000000000000000000],
    [m 69780686931593400000000000000000000, m 51720719429149500000000000000000000],
    [79681800393447600000000000000000000, m 34571487861713900000000000000000000],
    [m 9901113461854130000000000000000000, 86292207290863500000000000000000000],
    [69780686931593400000000000000000000, m 51720719429149500000000000000000000],
    [9901113461854210000000000000000000, 86292207290863500000000000000000000],
    [m 79681800393447600000000000000000000, m 34571487861713900000000000000000000],
    [m 5551115123125780000, 22204460492503100000],
    [m 30903100009613400000000000000000000, m 51225507594767400000000000000000000],
    [59814140903628000000000000000000000, m 1150115866632680000000000000000000],
    [m 28911040894014500000000000000000000, 52375623461400100000000000000000000],
    [30903100009613400000000000000000000, m 51225507594767400000000000000000000],
    [28911040894014500000000000000000000, 52375623461400100000000000000000000],
    [m 59814140903628000000000000000000000, m 1150115866632640000000000000000000],
    [m 44654496194426000000000000000000000, m 25781285398379000000000000000000000],
    [44654496194426000000000000000000000, m 25781285398379000000000000000000000],
    [0, 51562570796758000000000000000000000],
    [2775557561562890000, m 32874839651011200000000000000000000],
    [28470446283115700000000000000000000, 16437419825505600000000000000000000],
    [m 28470446283115700000000000000000000, 16437419825505600000000000000000000]],
   [1696126428097670000000000000000000, 1696126428097670000000000000000000, 1696126428097670000000000000000000,
    1105976661114440000000000000000000, 1105976661114440000000000000000000, 1105976661114440000000000000000000,
    5016414299747030000000000000000000, 5016414299747030000000000000000000, 5016414299747030000000000000000000,
    5016414299747030000000000000000000, 5016414299747030000000000000000000, 5016414299747030000000000000000000,
    14482521068421200000000000000000000, 6709800125388940000000000000000000, 6709800125388940000000000000000000,
    6709800125388940000000000000000000, 6709800125388940000000000000000000, 6709800125388940000000000000000000,
    6709800125388940000000000000000000, 13619768439139800000000000000000000, 13619768439139800000000000000000000,
    13619768439139800000000000000000000, 13033219517531700000000000000000000, 13033219517531700000000000000000000,
    13033219517531700000000000000000000]⟩

/-- `triangle_table_orig[11]` (xg_quad_data.py 282-343). -/
def xgTri_11 : XgTableRule :=
  ⟨[
    [m 90745931309323600000000000000000000, m 52392187869301300000000000000000000],
    [90745931309323600000000000000000000, m 52392187869301200000000000000000000],
    [0, 104784375738603000000000000000000000],
    [m 823993651088983000, m 57312463741413000000000000000000000],
    [49634049553538300000000000000000000, 28656231870706500000000000000000000],
    [m 49634049553538200000000000000000000, 28656231870706600000000000000000000],
    [m 66702609775505700000000000000000000, m 55246647968395700000000000000000000],
    [81196305502319500000000000000000000, m 30142830580110300000000000000000000],
    [m 14493695726813800000000000000000000, 85389478548506100000000000000000000],
    [66702609775505700000000000000000000, m 55246647968395700000000000000000000],
    [14493695726813800000000000000000000, 85389478548506100000000000000000000],
    [m 81196305502319500000000000000000000, m 30142830580110300000000000000000000],
    [m 5551115123125780000, 22204460492503100000],
    [m 66037651813991800000000000000000000, m 38126856051459000000000000000000000],
    [66037651813991800000000000000000000, m 38126856051458900000000000000000000],
    [m 22204460492503100000, 76253712102917900000000000000000000],
    [m 5551115123125780000, m 35791680916635200000000000000000000],
    [30996504917952800000000000000000000, 17895840458317600000000000000000000],
    [m 30996504917952800000000000000000000, 17895840458317700000000000000000000],
    [m 35654962414219200000000000000000000, m 20585402147795500000000000000000000],
    [35654962414219200000000000000000000, m 20585402147795400000000000000000000],
    [0, 41170804295590900000000000000000000],
    [m 33107350040092300000000000000000000, m 49479368349849500000000000000000000],
    [59404064974223500000000000000000000, m 3932122011778930000000000000000000],
    [m 26296714934131200000000000000000000, 53411490361628500000000000000000000],
    [33107350040092300000000000000000000, m 49479368349849500000000000000000000],
    [26296714934131200000000000000000000, 53411490361628500000000000000000000],
    [m 59404064974223500000000000000000000, m 3932122011778880000000000000000000]],
   [2121640467562470000000000000000000, 2121640467562470000000000000000000, 2121640467562470000000000000000000,
    2159086526689950000000000000000000, 2159086526689950000000000000000000, 2159086526689950000000000000000000,
    2521454325853600000000000000000000, 2521454325853600000000000000000000, 2521454325853600000000000000000000,
    2521454325853600000000000000000000, 2521454325853600000000000000000000, 2521454325853600000000000000000000,
    14106711134588800000000000000000000, 6950588667367230000000000000000000, 6950588667367230000000000000000000,
    6950588667367230000000000000000000, 10928352427800800000000000000000000, 10928352427800800000000000000000000,
    10928352427800800000000000000000000, 11751117365706500000000000000000000, 11751117365706500000000000000000000,
    11751117365706500000000000000000000, 7039547883632790000000000000000000, 7039547883632790000000000000000000,
    7039547883632790000000000000000000, 7039547883632790000000000000000000, 7039547883632790000000000000000000,
    7039547883632790000000000000000000]⟩

/-- `triangle_table_orig[12]` (xg_quad_data.py 344-415). -/
def xgTri_12 : XgTableRule :=
  ⟨[
    [m 18561247895522200000000000000000000, m 10716341468975100000000000000000000],
    [18561247895522200000000000000000000, m 10716341468975100000000000000000000],
    [0, 21432682937950200000000000000000000],
    [m 67222651702193700000000000000000000, m 38811016055902000000000000000000000],
    [67222651702193700000000000000000000, m 38811016055902000000000000000000000],
    [0, 77622032111804000000000000000000000],
    [2775557561562890000, m 36989093457992100000000000000000000],
    [32033494597577900000000000000000000, 18494546728996100000000000000000000],
    [m 32033494597577900000000000000000000, 18494546728996100000000000000000000],
    [m 37279552304503900000000000000000000, m 37591965438942700000000000000000000],
    [51195373200563000000000000000000000, m 13489056617939700000000000000000000],
    [m 13915820896059100000000000000000000, 51081022056882500000000000000000000],
    [37279552304503900000000000000000000, m 37591965438942700000000000000000000],
    [13915820896059100000000000000000000, 51081022056882500000000000000000000],
    [m 51195373200563000000000000000000000, m 13489056617939700000000000000000000],
    [m 72405807527665100000000000000000000, m 54031470967359200000000000000000000],
    [82995530225406900000000000000000000, m 35689533216804900000000000000000000],
    [m 10589722697741800000000000000000000, 89721004184164100000000000000000000],
    [72405807527665100000000000000000000, m 54031470967359200000000000000000000],
    [10589722697741900000000000000000000, 89721004184164100000000000000000000],
    [m 82995530225407000000000000000000000, m 35689533216804900000000000000000000],
    [m 39365448416805100000000000000000000, m 53745394007281800000000000000000000],
    [66227600755112500000000000000000000, m 7218781356678250000000000000000000],
    [m 26862152338307400000000000000000000, 60964175363960000000000000000000000],
    [39365448416805100000000000000000000, m 53745394007281800000000000000000000],
    [26862152338307400000000000000000000, 60964175363960000000000000000000000],
    [m 66227600755112500000000000000000000, m 7218781356678190000000000000000000],
    [m 3469446951953610000, m 53648686378750900000000000000000000],
    [46461125283662500000000000000000000, 26824343189375500000000000000000000],
    [m 46461125283662500000000000000000000, 26824343189375500000000000000000000],
    [m 92606090969099300000000000000000000, m 53466151549608500000000000000000000],
    [92606090969099300000000000000000000, m 53466151549608500000000000000000000],
    [0, 106932303099217000000000000000000000]],
   [10832455882230100000000000000000000, 10832455882230100000000000000000000, 10832455882230100000000000000000000,
    4933928949034840000000000000000000, 4933928949034840000000000000000000, 4933928949034840000000000000000000,
    8646109232464160000000000000000000, 8646109232464160000000000000000000, 8646109232464160000000000000000000,
    7487199013536190000000000000000000, 7487199013536190000000000000000000, 7487199013536190000000000000000000,
    7487199013536190000000000000000000, 7487199013536190000000000000000000, 7487199013536190000000000000000000,
    2612569592750520000000000000000000, 2612569592750520000000000000000000, 2612569592750520000000000000000000,
    2612569592750520000000000000000000, 2612569592750520000000000000000000, 2612569592750520000000000000000000,
    3773027605786550000000000000000000, 3773027605786550000000000000000000, 3773027605786550000000000000000000,
    3773027605786550000000000000000000, 3773027605786550000000000000000000, 3773027605786550000000000000000000,
    4203139649612220000000000000000000, 4203139649612220000000000000000000, 4203139649612220000000000000000000,
    1373800781474750000000000000000000, 1373800781474750000000000000000000, 1373800781474750000000000000000000]⟩

/-- `triangle_table_orig[13]` (xg_quad_data.py 416-495). -/
def xgTri_13 : XgTableRule :=
  ⟨[
    [4076600168545500000, m 56396461592102100000000000000000000],
    [48840768422313800000000000000000000, 28198230796051100000000000000000000],
    [m 48840768422313800000000000000000000, 28198230796051100000000000000000000],
    [2775557561562890000, m 47207168193213400000000000000000000],
    [40882606896047600000000000000000000, 23603584096606700000000000000000000],
    [m 40882606896047600000000000000000000, 23603584096606800000000000000000000],
    [m 30666914515275300000000000000000000, m 17705551350609500000000000000000000],
    [30666914515275300000000000000000000, m 17705551350609400000000000000000000],
    [0, 35411102701218900000000000000000000],
    [m 39685461846296800000000000000000000, m 54446208086261500000000000000000000],
    [66994530265584600000000000000000000, m 7145514076680400000000000000000000],
    [m 27309068419287700000000000000000000, 61591722162941900000000000000000000],
    [39685461846296800000000000000000000, m 54446208086261500000000000000000000],
    [27309068419287800000000000000000000, 61591722162941900000000000000000000],
    [m 66994530265584600000000000000000000, m 7145514076680350000000000000000000],
    [m 5551115123125780000, 22204460492503100000],
    [m 36877346231328100000000000000000000, m 40806649765315500000000000000000000],
    [53778268455761600000000000000000000, m 11533393777826700000000000000000000],
    [m 16900922224433400000000000000000000, 52340043543142300000000000000000000],
    [36877346231328100000000000000000000, m 40806649765315500000000000000000000],
    [16900922224433500000000000000000000, 52340043543142200000000000000000000],
    [m 53778268455761600000000000000000000, m 11533393777826700000000000000000000],
    [m 2775557561562890000, m 28109188226279300000000000000000000],
    [24343271083716400000000000000000000, 14054594113139700000000000000000000],
    [m 24343271083716400000000000000000000, 14054594113139700000000000000000000],
    [m 65932026228360000000000000000000000, m 38065873091161200000000000000000000],
    [65932026228360100000000000000000000, m 38065873091161100000000000000000000],
    [0, 76131746182322300000000000000000000],
    [m 72443410422579600000000000000000000, m 53930344496737100000000000000000000],
    [82926753580310400000000000000000000, m 35772661514367800000000000000000000],
    [m 10483343157730800000000000000000000, 89703006011104900000000000000000000],
    [72443410422579600000000000000000000, m 53930344496737100000000000000000000],
    [10483343157730800000000000000000000, 89703006011104900000000000000000000],
    [m 82926753580310400000000000000000000, m 35772661514367700000000000000000000],
    [m 92531220552635100000000000000000000, m 53422925094508500000000000000000000],
    [92531220552635100000000000000000000, m 53422925094508500000000000000000000],
    [0, 106845850189017000000000000000000000]],
   [1721914215962270000000000000000000, 1721914215962270000000000000000000, 1721914215962270000000000000000000,
    5677877599283880000000000000000000, 5677877599283880000000000000000000, 5677877599283880000000000000000000,
    7978243373374000000000000000000000, 7978243373374000000000000000000000, 7978243373374000000000000000000000,
    3139428456774080000000000000000000, 3139428456774080000000000000000000, 3139428456774080000000000000000000,
    3139428456774080000000000000000000, 3139428456774080000000000000000000, 3139428456774080000000000000000000,
    8941304684372770000000000000000000, 6445300616122100000000000000000000, 6445300616122100000000000000000000,
    6445300616122100000000000000000000, 6445300616122100000000000000000000, 6445300616122100000000000000000000,
    6445300616122100000000000000000000, 8131475474680310000000000000000000, 8131475474680310000000000000000000,
    8131475474680310000000000000000000, 5352573580529490000000000000000000, 5352573580529490000000000000000000,
    5352573580529490000000000000000000, 2666158397291130000000000000000000, 2666158397291130000000000000000000,
    2666158397291130000000000000000000, 2666158397291130000000000000000000, 2666158397291130000000000000000000,
    2666158397291130000000000000000000, 1390732839967070000000000000000000, 1390732839967070000000000000000000,
    1390732839967070000000000000000000]⟩

/-- `triangle_table_orig[14]` (xg_quad_data.py 496-585). -/
def xgTri_14 : XgTableRule :=
  ⟨[
    [0, m 29206320844176900000000000000000000],
    [25293415802136200000000000000000000, 14603160422088500000000000000000000],
    [m 25293415802136200000000000000000000, 14603160422088500000000000000000000],
    [m 38860728567183000000000000000000000, m 55198100751730800000000000000000000],
    [67233321775243300000000000000000000, m 6055327772886700000000000000000000],
    [m 28372593208060300000000000000000000, 61253428524617600000000000000000000],
    [38860728567183000000000000000000000, m 55198100751730800000000000000000000],
    [28372593208060300000000000000000000, 61253428524617600000000000000000000],
    [m 67233321775243300000000000000000000, m 6055327772886670000000000000000000],
    [m 81460035072738200000000000000000000, m 47030973177441800000000000000000000],
    [81460035072738200000000000000000000, m 47030973177441700000000000000000000],
    [0, 94061946354883600000000000000000000],
    [m 23336083105033800000000000000000000, m 41641460445461100000000000000000000],
    [47730604148971100000000000000000000, 611089428946465000000000000000000],
    [m 24394521043937300000000000000000000, 41030371016514700000000000000000000],
    [23336083105033800000000000000000000, m 41641460445461100000000000000000000],
    [24394521043937300000000000000000000, 41030371016514700000000000000000000],
    [m 47730604148971100000000000000000000, 611089428946487000000000000000000],
    [m 17956741507348400000000000000000000, m 10367329543036100000000000000000000],
    [17956741507348400000000000000000000, m 10367329543036100000000000000000000],
    [5551115123125780000, 20734659086072300000000000000000000],
    [m 46838340276237000000000000000000000, m 27042128366880700000000000000000000],
    [46838340276237000000000000000000000, m 27042128366880700000000000000000000],
    [0, 54084256733761500000000000000000000],
    [m 94182711625389700000000000000000000, m 54376413909927700000000000000000000],
    [94182711625389700000000000000000000, m 54376413909927600000000000000000000],
    [0, 108752827819855000000000000000000000],
    [3122502256758250000, m 53912013325044400000000000000000000],
    [46689173108653600000000000000000000, 26956006662522200000000000000000000],
    [m 46689173108653600000000000000000000, 26956006662522200000000000000000000],
    [m 59834186695364100000000000000000000, m 47840728699646100000000000000000000],
    [71348379737134900000000000000000000, m 27897561343143100000000000000000000],
    [m 11514193041770700000000000000000000, 75738290042789300000000000000000000],
    [59834186695364100000000000000000000, m 47840728699646100000000000000000000],
    [11514193041770800000000000000000000, 75738290042789300000000000000000000],
    [m 71348379737134900000000000000000000, m 27897561343143100000000000000000000],
    [m 76078267367321400000000000000000000, m 57515345557308000000000000000000000],
    [87848884043729900000000000000000000, m 37128039437351000000000000000000000],
    [m 11770616676408400000000000000000000, 94643384994659100000000000000000000],
    [76078267367321400000000000000000000, m 57515345557308000000000000000000000],
    [11770616676408500000000000000000000, 94643384994659100000000000000000000],
    [m 87848884043729900000000000000000000, m 37128039437351000000000000000000000]],
   [5679109423495620000000000000000000, 5679109423495620000000000000000000, 5679109423495620000000000000000000,
    2500441912635940000000000000000000, 2500441912635940000000000000000000, 2500441912635940000000000000000000,
    2500441912635940000000000000000000, 2500441912635940000000000000000000, 2500441912635940000000000000000000,
    2499990116924330000000000000000000, 2499990116924330000000000000000000, 2499990116924330000000000000000000,
    6680781640788020000000000000000000, 6680781640788020000000000000000000, 6680781640788020000000000000000000,
    6680781640788020000000000000000000, 6680781640788020000000000000000000, 6680781640788020000000000000000000,
    8967537952300990000000000000000000, 8967537952300990000000000000000000, 8967537952300990000000000000000000,
    7302774587110330000000000000000000, 7302774587110330000000000000000000, 7302774587110330000000000000000000,
    852758518552459000000000000000000, 852758518552459000000000000000000, 852758518552459000000000000000000,
    3790347478341860000000000000000000, 3790347478341860000000000000000000, 3790347478341860000000000000000000,
    4272233777111560000000000000000000, 4272233777111560000000000000000000, 4272233777111560000000000000000000,
    4272233777111560000000000000000000, 4272233777111560000000000000000000, 4272233777111560000000000000000000,
    867797090582997000000000000000000, 867797090582997000000000000000000, 867797090582997000000000000000000,
    867797090582997000000000000000000, 867797090582997000000000000000000, 867797090582997000000000000000000]⟩

/-- `triangle_table_orig[15]` (xg_quad_data.py 586-689). -/
def xgTri_15 : XgTableRule :=
  ⟨[
    [m 61006531020076600000000000000000000, m 35222137106766500000000000000000000],
    [61006531020076600000000000000000000, m 35222137106766500000000000000000000],
    [0, 70444274213533100000000000000000000],
    [m 5551115123125780000, 22204460492503100000],
    [m 5551115123125780000, m 43905276476834400000000000000000000],
    [38023084789117900000000000000000000, 21952638238417200000000000000000000],
    [m 38023084789117900000000000000000000, 21952638238417200000000000000000000],
    [m 55076221170342600000000000000000000, m 43082877955573500000000000000000000],
    [64848977362842500000000000000000000, m 26155967700180200000000000000000000],
    [m 9772756192499920000000000000000000, 69238845655753700000000000000000000],
    [55076221170342600000000000000000000, m 43082877955573500000000000000000000],
    [9772756192499980000000000000000000, 69238845655753800000000000000000000],
    [m 64848977362842500000000000000000000, m 26155967700180200000000000000000000],
    [m 68357214208317700000000000000000000, m 54959053538220700000000000000000000],
    [81774543636207100000000000000000000, m 31719557267227400000000000000000000],
    [m 13417329427889300000000000000000000, 86678610805448100000000000000000000],
    [68357214208317700000000000000000000, m 54959053538220700000000000000000000],
    [13417329427889400000000000000000000, 86678610805448100000000000000000000],
    [m 81774543636207000000000000000000000, m 31719557267227300000000000000000000],
    [m 25612692724233200000000000000000000, m 40821474151886600000000000000000000],
    [48158779997580300000000000000000000, m 1770505482567510000000000000000000],
    [m 22546087273347000000000000000000000, 42591979634454200000000000000000000],
    [25612692724233200000000000000000000, m 40821474151886600000000000000000000],
    [22546087273347000000000000000000000, 42591979634454200000000000000000000],
    [m 48158779997580300000000000000000000, m 1770505482567470000000000000000000],
    [m 693889390390723000, m 54854909315008700000000000000000000],
    [47505744989089200000000000000000000, 27427454657504400000000000000000000],
    [m 47505744989089200000000000000000000, 27427454657504400000000000000000000],
    [m 33540297761457400000000000000000000, m 19364499941277600000000000000000000],
    [33540297761457400000000000000000000, m 19364499941277600000000000000000000],
    [m 11102230246251600000, 38728999882555300000000000000000000],
    [5551115123125780000, m 22031826248214000000000000000000000],
    [19080121222718200000000000000000000, 11015913124107000000000000000000000],
    [m 19080121222718200000000000000000000, 11015913124107100000000000000000000],
    [m 36565038512802100000000000000000000, m 54538656727512600000000000000000000],
    [65514381470706100000000000000000000, m 4396923878686680000000000000000000],
    [m 28949342957903900000000000000000000, 58935580606199400000000000000000000],
    [36565038512802100000000000000000000, m 54538656727512600000000000000000000],
    [28949342957904000000000000000000000, 58935580606199400000000000000000000],
    [m 65514381470706100000000000000000000, m 4396923878686640000000000000000000],
    [m 83097424691169900000000000000000000, m 47976320514411700000000000000000000],
    [83097424691170000000000000000000000, m 47976320514411600000000000000000000],
    [0, 95952641028823300000000000000000000],
    [m 92281600612376800000000000000000000, m 57542156951901400000000000000000000],
    [95973770015086300000000000000000000, m 51147131956257200000000000000000000],
    [m 3692169402709510000000000000000000, 108689288908159000000000000000000000],
    [92281600612376800000000000000000000, m 57542156951901400000000000000000000],
    [3692169402709580000000000000000000, 108689288908159000000000000000000000],
    [m 95973770015086300000000000000000000, m 51147131956257200000000000000000000]],
   [1281285289332130000000000000000000, 1281285289332130000000000000000000, 1281285289332130000000000000000000,
    5149459753400860000000000000000000, 3740205744902160000000000000000000, 3740205744902160000000000000000000,
    3740205744902160000000000000000000, 4196760628021370000000000000000000, 4196760628021370000000000000000000,
    4196760628021370000000000000000000, 4196760628021370000000000000000000, 4196760628021370000000000000000000,
    4196760628021370000000000000000000, 1944833993866240000000000000000000, 1944833993866240000000000000000000,
    1944833993866240000000000000000000, 1944833993866240000000000000000000, 1944833993866240000000000000000000,
    1944833993866240000000000000000000, 5382386071132940000000000000000000, 5382386071132940000000000000000000,
    5382386071132940000000000000000000, 5382386071132940000000000000000000, 5382386071132940000000000000000000,
    5382386071132940000000000000000000, 2742230703770890000000000000000000, 2742230703770890000000000000000000,
    2742230703770890000000000000000000, 8017193127868000000000000000000000, 8017193127868000000000000000000000,
    8017193127868000000000000000000000, 8025637791118540000000000000000000, 8025637791118540000000000000000000,
    8025637791118540000000000000000000, 2846930705670010000000000000000000, 2846930705670010000000000000000000,
    2846930705670010000000000000000000, 2846930705670010000000000000000000, 2846930705670010000000000000000000,
    2846930705670010000000000000000000, 2612707580230240000000000000000000, 2612707580230240000000000000000000,
    2612707580230240000000000000000000, 428728649946284000000000000000000, 428728649946284000000000000000000,
    428728649946284000000000000000000, 428728649946284000000000000000000, 428728649946284000000000000000000,
    428728649946284000000000000000000]⟩

/-- `triangle_table_orig[16]` (xg_quad_data.py 690-805). -/
def xgTri_16 : XgTableRule :=
  ⟨[
    [m 16279607394216900000000000000000000, m 56061007710965000000000000000000000],
    [56690060536559500000000000000000000, 13931950288453600000000000000000000],
    [m 40410453142342500000000000000000000, 42129057422511400000000000000000000],
    [16279607394216900000000000000000000, m 56061007710965000000000000000000000],
    [40410453142342500000000000000000000, 42129057422511400000000000000000000],
    [m 56690060536559400000000000000000000, 13931950288453700000000000000000000],
    [m 36133516018585400000000000000000000, m 52485883552713900000000000000000000],
    [63520866506014800000000000000000000, m 5049601023789980000000000000000000],
    [m 27387350487429300000000000000000000, 57535484576503900000000000000000000],
    [36133516018585400000000000000000000, m 52485883552713900000000000000000000],
    [27387350487429400000000000000000000, 57535484576503900000000000000000000],
    [m 63520866506014800000000000000000000, m 5049601023789950000000000000000000],
    [m 79997658327928500000000000000000000, m 46186669570169300000000000000000000],
    [79997658327928500000000000000000000, m 46186669570169200000000000000000000],
    [0, 92373339140338500000000000000000000],
    [m 80996884917848500000000000000000000, m 55862165096055500000000000000000000],
    [88876496542508700000000000000000000, m 42214277418233700000000000000000000],
    [m 7879611624660180000000000000000000, 98076442514289200000000000000000000],
    [80996884917848400000000000000000000, m 55862165096055500000000000000000000],
    [7879611624660240000000000000000000, 98076442514289200000000000000000000],
    [m 88876496542508700000000000000000000, m 42214277418233600000000000000000000],
    [m 30011609466308600000000000000000000, m 39262157635321700000000000000000000],
    [49007830652732000000000000000000000, m 6359737388619910000000000000000000],
    [m 18996221186423400000000000000000000, 45621895023941600000000000000000000],
    [30011609466308600000000000000000000, m 39262157635321700000000000000000000],
    [18996221186423500000000000000000000, 45621895023941600000000000000000000],
    [m 49007830652732000000000000000000000, m 6359737388619870000000000000000000],
    [m 27603495789586500000000000000000000, m 15936885724692500000000000000000000],
    [27603495789586500000000000000000000, m 15936885724692500000000000000000000],
    [0, 31873771449385000000000000000000000],
    [0, m 27527401254502900000000000000000000],
    [23839428786567100000000000000000000, 13763700627251500000000000000000000],
    [m 23839428786567100000000000000000000, 13763700627251500000000000000000000],
    [m 60911897435540700000000000000000000, m 48840198582588100000000000000000000],
    [72752801416168400000000000000000000, m 28331151280596400000000000000000000],
    [m 11840903980627600000000000000000000, 77171349863184600000000000000000000],
    [60911897435540800000000000000000000, m 48840198582588100000000000000000000],
    [11840903980627700000000000000000000, 77171349863184600000000000000000000],
    [m 72752801416168400000000000000000000, m 28331151280596400000000000000000000],
    [m 54980879023889500000000000000000000, m 31743225304724800000000000000000000],
    [54980879023889500000000000000000000, m 31743225304724800000000000000000000],
    [0, 63486450609449700000000000000000000],
    [m 56820549744095000000000000000000000, m 57094697658781500000000000000000000],
    [77855733465944200000000000000000000, m 20660690705992900000000000000000000],
    [m 21035183721849100000000000000000000, 77755388364774400000000000000000000],
    [56820549744095000000000000000000000, m 57094697658781500000000000000000000],
    [21035183721849200000000000000000000, 77755388364774400000000000000000000],
    [m 77855733465944200000000000000000000, m 20660690705992900000000000000000000],
    [2081668171172170000, m 47186155418111700000000000000000000],
    [40864409299005500000000000000000000, 23593077709055900000000000000000000],
    [m 40864409299005500000000000000000000, 23593077709055900000000000000000000],
    [m 5551115123125780000, 22204460492503100000],
    [m 94887511178284400000000000000000000, m 54783330121516200000000000000000000],
    [94887511178284500000000000000000000, m 54783330121516100000000000000000000],
    [0, 109566660243032000000000000000000000]],
   [1417200439640700000000000000000000, 1417200439640700000000000000000000, 1417200439640700000000000000000000,
    1417200439640700000000000000000000, 1417200439640700000000000000000000, 1417200439640700000000000000000000,
    2422031801298210000000000000000000, 2422031801298210000000000000000000, 2422031801298210000000000000000000,
    2422031801298210000000000000000000, 2422031801298210000000000000000000, 2422031801298210000000000000000000,
    2152146843717850000000000000000000, 2152146843717850000000000000000000, 2152146843717850000000000000000000,
    996253102743078000000000000000000, 996253102743078000000000000000000, 996253102743078000000000000000000,
    996253102743078000000000000000000, 996253102743078000000000000000000, 996253102743078000000000000000000,
    5481258669265360000000000000000000, 5481258669265360000000000000000000, 5481258669265360000000000000000000,
    5481258669265360000000000000000000, 5481258669265360000000000000000000, 5481258669265360000000000000000000,
    7133285159388400000000000000000000, 7133285159388400000000000000000000, 7133285159388400000000000000000000,
    7098848303014150000000000000000000, 7098848303014150000000000000000000, 7098848303014150000000000000000000,
    3057603328371410000000000000000000, 3057603328371410000000000000000000, 3057603328371410000000000000000000,
    3057603328371410000000000000000000, 3057603328371410000000000000000000, 3057603328371410000000000000000000,
    4985447870865240000000000000000000, 4985447870865240000000000000000000, 4985447870865240000000000000000000,
    799287864922339000000000000000000, 799287864922339000000000000000000, 799287864922339000000000000000000,
    799287864922339000000000000000000, 799287864922339000000000000000000, 799287864922339000000000000000000,
    4692761208155210000000000000000000, 4692761208155210000000000000000000, 4692761208155210000000000000000000,
    8006908939191680000000000000000000, 656297474942324000000000000000000, 656297474942324000000000000000000,
    656297474942324000000000000000000]⟩

/-- `triangle_table_orig[17]` (xg_quad_data.py 806-931). -/
def xgTri_17 : XgTableRule :=
  ⟨[
    [5551115123125780000, m 29018817691328500000000000000000000],
    [25131033308479800000000000000000000, 14509408845664300000000000000000000],
    [m 25131033308479700000000000000000000, 14509408845664300000000000000000000],
    [m 84341388249881500000000000000000000, m 55730147641877000000000000000000000],
    [90434417739463600000000000000000000, m 45176710993905200000000000000000000],
    [m 6093029489582120000000000000000000, 100906858635782000000000000000000000],
    [84341388249881500000000000000000000, m 55730147641877000000000000000000000],
    [6093029489582190000000000000000000, 100906858635782000000000000000000000],
    [m 90434417739463600000000000000000000, m 45176710993905200000000000000000000],
    [m 45892565120088800000000000000000000, m 26496084825885700000000000000000000],
    [45892565120088800000000000000000000, m 26496084825885700000000000000000000],
    [0, 52992169651771500000000000000000000],
    [m 15581940864945500000000000000000000, m 55443580380164500000000000000000000],
    [55806519518459700000000000000000000, 14227433560772600000000000000000000],
    [m 40224578653514200000000000000000000, 41216146819392000000000000000000000],
    [15581940864945500000000000000000000, m 55443580380164500000000000000000000],
    [40224578653514200000000000000000000, 41216146819392000000000000000000000],
    [m 55806519518459700000000000000000000, 14227433560772600000000000000000000],
    [m 44328038905528800000000000000000000, m 55459827350347100000000000000000000],
    [70193638827664000000000000000000000, m 10659294116959300000000000000000000],
    [m 25865599922135200000000000000000000, 66119121467306500000000000000000000],
    [44328038905528800000000000000000000, m 55459827350347100000000000000000000],
    [25865599922135200000000000000000000, 66119121467306400000000000000000000],
    [m 70193638827664000000000000000000000, m 10659294116959300000000000000000000],
    [m 24405663711918900000000000000000000, m 30454277894986900000000000000000000],
    [38577010166929000000000000000000000, m 5908785823248390000000000000000000],
    [m 14171346455010000000000000000000000, 36363063718235300000000000000000000],
    [24405663711918900000000000000000000, m 30454277894986900000000000000000000],
    [14171346455010000000000000000000000, 36363063718235300000000000000000000],
    [m 38577010166929000000000000000000000, m 5908785823248350000000000000000000],
    [m 14288049269024000000000000000000000, m 8249209091665640000000000000000000],
    [14288049269024000000000000000000000, m 8249209091665630000000000000000000],
    [0, 16498418183331300000000000000000000],
    [m 32008743864026600000000000000000000, m 46069772486520100000000000000000000],
    [55901965251909100000000000000000000, m 4685499086216200000000000000000000],
    [m 23893221387882500000000000000000000, 50755271572736400000000000000000000],
    [32008743864026600000000000000000000, m 46069772486520100000000000000000000],
    [23893221387882500000000000000000000, 50755271572736400000000000000000000],
    [m 55901965251909100000000000000000000, m 4685499086216180000000000000000000],
    [m 58451263244119900000000000000000000, m 44217697018376700000000000000000000],
    [67519280536817600000000000000000000, m 28511430343511100000000000000000000],
    [m 9068017292697680000000000000000000, 72729127361887800000000000000000000],
    [58451263244119900000000000000000000, m 44217697018376700000000000000000000],
    [9068017292697730000000000000000000, 72729127361887800000000000000000000],
    [m 67519280536817600000000000000000000, m 28511430343511000000000000000000000],
    [m 80003780956120900000000000000000000, m 46190204471204300000000000000000000],
    [80003780956120900000000000000000000, m 46190204471204200000000000000000000],
    [0, 92380408942408600000000000000000000],
    [m 66559778269229500000000000000000000, m 54960689880096800000000000000000000],
    [80877242780296900000000000000000000, m 30162113911363800000000000000000000],
    [m 14317464511067300000000000000000000, 85122803791460600000000000000000000],
    [66559778269229500000000000000000000, m 54960689880096800000000000000000000],
    [14317464511067300000000000000000000, 85122803791460600000000000000000000],
    [m 80877242780296900000000000000000000, m 30162113911363800000000000000000000],
    [m 95573352501773800000000000000000000, m 55179300794254100000000000000000000],
    [95573352501773800000000000000000000, m 55179300794254100000000000000000000],
    [0, 110358601588508000000000000000000000],
    [m 1387778780781450000, m 45817780070044700000000000000000000],
    [39679361485667100000000000000000000, 22908890035022400000000000000000000],
    [m 39679361485667100000000000000000000, 22908890035022400000000000000000000]],
   [4730391234845360000000000000000000, 4730391234845360000000000000000000, 4730391234845360000000000000000000,
    794032435140371000000000000000000, 794032435140371000000000000000000, 794032435140371000000000000000000,
    794032435140371000000000000000000, 794032435140371000000000000000000, 794032435140371000000000000000000,
    4557481305923810000000000000000000, 4557481305923810000000000000000000, 4557481305923810000000000000000000,
    1801062632296840000000000000000000, 1801062632296840000000000000000000, 1801062632296840000000000000000000,
    1801062632296840000000000000000000, 1801062632296840000000000000000000, 1801062632296840000000000000000000,
    1505535714602100000000000000000000, 1505535714602100000000000000000000, 1505535714602100000000000000000000,
    1505535714602100000000000000000000, 1505535714602100000000000000000000, 1505535714602100000000000000000000,
    4533058583669100000000000000000000, 4533058583669100000000000000000000, 4533058583669100000000000000000000,
    4533058583669100000000000000000000, 4533058583669100000000000000000000, 4533058583669100000000000000000000,
    6532643901895840000000000000000000, 6532643901895840000000000000000000, 6532643901895840000000000000000000,
    3894996459992150000000000000000000, 3894996459992150000000000000000000, 3894996459992150000000000000000000,
    3894996459992150000000000000000000, 3894996459992150000000000000000000, 3894996459992150000000000000000000,
    3560732438786210000000000000000000, 3560732438786210000000000000000000, 3560732438786210000000000000000000,
    3560732438786210000000000000000000, 3560732438786210000000000000000000, 3560732438786210000000000000000000,
    2157962240113440000000000000000000, 2157962240113440000000000000000000, 2157962240113440000000000000000000,
    1381882131470730000000000000000000, 1381882131470730000000000000000000, 1381882131470730000000000000000000,
    1381882131470730000000000000000000, 1381882131470730000000000000000000, 1381882131470730000000000000000000,
    480451421895256000000000000000000, 480451421895256000000000000000000, 480451421895256000000000000000000,
    4333496022373890000000000000000000, 4333496022373890000000000000000000, 4333496022373890000000000000000000]⟩

/-- `triangle_table_orig[18]` (xg_quad_data.py 932-1071). -/
def xgTri_18 : XgTableRule :=
  ⟨[
    [m 13948489081933200000000000000000000, m 42072604091782700000000000000000000],
    [43410188487815500000000000000000000, 8956556156527310000000000000000000],
    [m 29461699405882300000000000000000000, 33116047935255400000000000000000000],
    [13948489081933200000000000000000000, m 42072604091782700000000000000000000],
    [29461699405882300000000000000000000, 33116047935255400000000000000000000],
    [m 43410188487815500000000000000000000, 8956556156527340000000000000000000],
    [693889390390723000, m 49046440452670900000000000000000000],
    [42475463397213700000000000000000000, 24523220226335500000000000000000000],
    [m 42475463397213700000000000000000000, 24523220226335500000000000000000000],
    [m 54508447908218500000000000000000000, m 31470467072918700000000000000000000],
    [54508447908218600000000000000000000, m 31470467072918600000000000000000000],
    [0, 62940934145837400000000000000000000],
    [m 89294878385120100000000000000000000, m 55570148308783900000000000000000000],
    [92772599320035700000000000000000000, m 49546558954964100000000000000000000],
    [m 3477720934915580000000000000000000, 105116707263748000000000000000000000],
    [89294878385120100000000000000000000, m 55570148308783900000000000000000000],
    [3477720934915650000000000000000000, 105116707263748000000000000000000000],
    [m 92772599320035800000000000000000000, m 49546558954964000000000000000000000],
    [m 5551115123125780000, 22204460492503100000],
    [m 34186434923523400000000000000000000, m 48379919937747200000000000000000000],
    [58991457160908100000000000000000000, m 5416361139721180000000000000000000],
    [m 24805022237384600000000000000000000, 53796281077468500000000000000000000],
    [34186434923523400000000000000000000, m 48379919937747200000000000000000000],
    [24805022237384700000000000000000000, 53796281077468400000000000000000000],
    [m 58991457160908100000000000000000000, m 5416361139721140000000000000000000],
    [m 47648266163227500000000000000000000, m 55915504286023200000000000000000000],
    [72248380258727500000000000000000000, m 13306856800625900000000000000000000],
    [m 24600114095499900000000000000000000, 69222361086649100000000000000000000],
    [47648266163227500000000000000000000, m 55915504286023200000000000000000000],
    [24600114095500000000000000000000000, 69222361086649100000000000000000000],
    [m 72248380258727500000000000000000000, m 13306856800625900000000000000000000],
    [m 5551115123125780000, m 26927767315911700000000000000000000],
    [23320130562775800000000000000000000, 13463883657955900000000000000000000],
    [m 23320130562775800000000000000000000, 13463883657955900000000000000000000],
    [m 57691929083982100000000000000000000, m 46282281236309000000000000000000000],
    [68927595837730500000000000000000000, m 26821535561904300000000000000000000],
    [m 11235666753748400000000000000000000, 73103816798213400000000000000000000],
    [57691929083982100000000000000000000, m 46282281236309000000000000000000000],
    [11235666753748500000000000000000000, 73103816798213400000000000000000000],
    [m 68927595837730600000000000000000000, m 26821535561904300000000000000000000],
    [m 20315617028387700000000000000000000, m 11729226960093000000000000000000000],
    [20315617028387700000000000000000000, m 11729226960093000000000000000000000],
    [0, 23458453920186000000000000000000000],
    [m 98872316697679500000000000000000000, m 57083958660807200000000000000000000],
    [98872316697679500000000000000000000, m 57083958660807200000000000000000000],
    [22204460492503100000, 114167917321614000000000000000000000],
    [m 31378647708219900000000000000000000, m 31915880712448200000000000000000000],
    [43329287335243900000000000000000000, m 11216765695496600000000000000000000],
    [m 11950639627024000000000000000000000, 43132646407944900000000000000000000],
    [31378647708219800000000000000000000, m 31915880712448200000000000000000000],
    [11950639627024000000000000000000000, 43132646407944900000000000000000000],
    [m 43329287335243900000000000000000000, m 11216765695496600000000000000000000],
    [m 16617683797609600000000000000000000, m 55709943481991500000000000000000000],
    [56555068197604700000000000000000000, 13463635420208800000000000000000000],
    [m 39937384399995100000000000000000000, 42246308061782800000000000000000000],
    [16617683797609600000000000000000000, m 55709943481991500000000000000000000],
    [39937384399995100000000000000000000, 42246308061782700000000000000000000],
    [m 56555068197604700000000000000000000, 13463635420208800000000000000000000],
    [m 72011081467828000000000000000000000, m 55252734012256600000000000000000000],
    [83855812017072700000000000000000000, m 34737058899001500000000000000000000],
    [m 11844730549244700000000000000000000, 89989792911258200000000000000000000],
    [72011081467828000000000000000000000, m 55252734012256600000000000000000000],
    [11844730549244800000000000000000000, 89989792911258200000000000000000000],
    [m 83855812017072700000000000000000000, m 34737058899001500000000000000000000],
    [m 78268388329800100000000000000000000, m 45188275071248300000000000000000000],
    [78268388329800100000000000000000000, m 45188275071248300000000000000000000],
    [0, 90376550142496600000000000000000000]],
   [2654932198450000000000000000000000, 2654932198450000000000000000000000, 2654932198450000000000000000000000,
    2654932198450000000000000000000000, 2654932198450000000000000000000000, 2654932198450000000000000000000000,
    2270203755189360000000000000000000, 2270203755189360000000000000000000, 2270203755189360000000000000000000,
    3519239520573430000000000000000000, 3519239520573430000000000000000000, 3519239520573430000000000000000000,
    730495333563139000000000000000000, 730495333563139000000000000000000, 730495333563139000000000000000000,
    730495333563139000000000000000000, 730495333563139000000000000000000, 730495333563139000000000000000000,
    5325800104375930000000000000000000, 2834658488504370000000000000000000, 2834658488504370000000000000000000,
    2834658488504370000000000000000000, 2834658488504370000000000000000000, 2834658488504370000000000000000000,
    2834658488504370000000000000000000, 1338846743910920000000000000000000, 1338846743910920000000000000000000,
    1338846743910920000000000000000000, 1338846743910920000000000000000000, 1338846743910920000000000000000000,
    1338846743910920000000000000000000, 5797519434230020000000000000000000, 5797519434230020000000000000000000,
    5797519434230020000000000000000000, 2929184382509670000000000000000000, 2929184382509670000000000000000000,
    2929184382509670000000000000000000, 2929184382509670000000000000000000, 2929184382509670000000000000000000,
    2929184382509670000000000000000000, 5389517986313810000000000000000000, 5389517986313810000000000000000000,
    5389517986313810000000000000000000, 92146075846558100000000000000000, 92146075846558100000000000000000,
    92146075846558100000000000000000, 4779228132570040000000000000000000, 4779228132570040000000000000000000,
    4779228132570040000000000000000000, 4779228132570040000000000000000000, 4779228132570040000000000000000000,
    4779228132570040000000000000000000, 1660365463727360000000000000000000, 1660365463727360000000000000000000,
    1660365463727360000000000000000000, 1660365463727360000000000000000000, 1660365463727360000000000000000000,
    1660365463727360000000000000000000, 1323582126920210000000000000000000, 1323582126920210000000000000000000,
    1323582126920210000000000000000000, 1323582126920210000000000000000000, 1323582126920210000000000000000000,
    1323582126920210000000000000000000, 2388547705039280000000000000000000, 2388547705039280000000000000000000,
    2388547705039280000000000000000000]⟩

/-- `triangle_table_orig[19]` (xg_quad_data.py 1072-1223). -/
def xgTri_19 : XgTableRule :=
  ⟨[
    [m 71015029250539600000000000000000000, m 56868110833624000000000000000000000],
    [84756743272417200000000000000000000, m 33066763964650300000000000000000000],
    [m 13741714021877600000000000000000000, 89934874798274300000000000000000000],
    [71015029250539600000000000000000000, m 56868110833624000000000000000000000],
    [13741714021877700000000000000000000, 89934874798274300000000000000000000],
    [m 84756743272417300000000000000000000, m 33066763964650200000000000000000000],
    [m 84242116043768900000000000000000000, m 48637208374973700000000000000000000],
    [84242116043769000000000000000000000, m 48637208374973700000000000000000000],
    [0, 97274416749947400000000000000000000],
    [m 87005513863591800000000000000000000, m 56041590202911500000000000000000000],
    [92036197715994400000000000000000000, m 47328190173734000000000000000000000],
    [m 5030683852402510000000000000000000, 103369780376645000000000000000000000],
    [87005513863591800000000000000000000, m 56041590202911500000000000000000000],
    [5030683852402570000000000000000000, 103369780376645000000000000000000000],
    [m 92036197715994400000000000000000000, m 47328190173733900000000000000000000],
    [m 69945621064432200000000000000000000, m 50955355803618800000000000000000000],
    [79101443117024800000000000000000000, m 35097006823468900000000000000000000],
    [m 9155822052592520000000000000000000, 86052362627087700000000000000000000],
    [69945621064432200000000000000000000, m 50955355803618800000000000000000000],
    [9155822052592600000000000000000000, 86052362627087700000000000000000000],
    [m 79101443117024800000000000000000000, m 35097006823468800000000000000000000],
    [m 24805042378404700000000000000000000, m 35337391260199700000000000000000000],
    [43005599724005500000000000000000000, m 3813101211548200000000000000000000],
    [m 18200557345600800000000000000000000, 39150492471748000000000000000000000],
    [24805042378404700000000000000000000, m 35337391260199700000000000000000000],
    [18200557345600800000000000000000000, 39150492471748000000000000000000000],
    [m 43005599724005500000000000000000000, m 3813101211548180000000000000000000],
    [m 66565583284900400000000000000000000, m 38431657428301700000000000000000000],
    [66565583284900400000000000000000000, m 38431657428301700000000000000000000],
    [0, 76863314856603400000000000000000000],
    [m 96508291801623200000000000000000000, m 55719088250698200000000000000000000],
    [96508291801623200000000000000000000, m 55719088250698100000000000000000000],
    [0, 111438176501396000000000000000000000],
    [m 23451360054062500000000000000000000, m 13539649040075900000000000000000000],
    [23451360054062600000000000000000000, m 13539649040075800000000000000000000],
    [0, 27079298080151700000000000000000000],
    [m 48257092691741800000000000000000000, m 44820650104172200000000000000000000],
    [62944367950217600000000000000000000, m 19381543131742700000000000000000000],
    [m 14687275258475800000000000000000000, 64202193235914900000000000000000000],
    [48257092691741800000000000000000000, m 44820650104172200000000000000000000],
    [14687275258475800000000000000000000, 64202193235914900000000000000000000],
    [m 62944367950217600000000000000000000, m 19381543131742700000000000000000000],
    [m 5551115123125780000, m 24469161409485000000000000000000000],
    [21190915389915800000000000000000000, 12234580704742500000000000000000000],
    [m 21190915389915800000000000000000000, 12234580704742500000000000000000000],
    [m 25105983153559800000000000000000000, m 50652963110043000000000000000000000],
    [56419744407033200000000000000000000, 3584062357054560000000000000000000],
    [m 31313761253473400000000000000000000, 47068900752988500000000000000000000],
    [25105983153559800000000000000000000, m 50652963110043000000000000000000000],
    [31313761253473400000000000000000000, 47068900752988500000000000000000000],
    [m 56419744407033200000000000000000000, 3584062357054610000000000000000000],
    [m 46548698176111800000000000000000000, m 26874903422404800000000000000000000],
    [46548698176111800000000000000000000, m 26874903422404700000000000000000000],
    [m 11102230246251600000, 53749806844809600000000000000000000],
    [4163336342344340000, m 43599548606828900000000000000000000],
    [37758316687048300000000000000000000, 21799774303414500000000000000000000],
    [m 37758316687048300000000000000000000, 21799774303414500000000000000000000],
    [m 5551115123125780000, 22204460492503100000],
    [4857225732735060000, m 55141263467657600000000000000000000],
    [47753734959762300000000000000000000, 27570631733828800000000000000000000],
    [m 47753734959762200000000000000000000, 27570631733828800000000000000000000],
    [m 50128815307877600000000000000000000, m 55150176836813100000000000000000000],
    [72825861817823000000000000000000000, m 15837739099833700000000000000000000],
    [m 22697046509945400000000000000000000, 70987915936646900000000000000000000],
    [50128815307877600000000000000000000, m 55150176836813100000000000000000000],
    [22697046509945400000000000000000000, 70987915936646800000000000000000000],
    [m 72825861817823100000000000000000000, m 15837739099833700000000000000000000],
    [m 26869006747347800000000000000000000, m 57376647619684400000000000000000000],
    [63124137796308500000000000000000000, 5419081392183570000000000000000000],
    [m 36255131048960700000000000000000000, 51957566227500900000000000000000000],
    [26869006747347800000000000000000000, m 57376647619684400000000000000000000],
    [36255131048960800000000000000000000, 51957566227500900000000000000000000],
    [m 63124137796308500000000000000000000, 5419081392183610000000000000000000]],
   [506744803633087000000000000000000, 506744803633087000000000000000000, 506744803633087000000000000000000,
    506744803633087000000000000000000, 506744803633087000000000000000000, 506744803633087000000000000000000,
    1231383096568700000000000000000000, 1231383096568700000000000000000000, 1231383096568700000000000000000000,
    576320652844634000000000000000000, 576320652844634000000000000000000, 576320652844634000000000000000000,
    576320652844634000000000000000000, 576320652844634000000000000000000, 576320652844634000000000000000000,
    1679313165512670000000000000000000, 1679313165512670000000000000000000, 1679313165512670000000000000000000,
    1679313165512670000000000000000000, 1679313165512670000000000000000000, 1679313165512670000000000000000000,
    4563306906295410000000000000000000, 4563306906295410000000000000000000, 4563306906295410000000000000000000,
    4563306906295410000000000000000000, 4563306906295410000000000000000000, 4563306906295410000000000000000000,
    2638771873855490000000000000000000, 2638771873855490000000000000000000, 2638771873855490000000000000000000,
    305740295364577000000000000000000, 305740295364577000000000000000000, 305740295364577000000000000000000,
    5499755743094840000000000000000000, 5499755743094840000000000000000000, 5499755743094840000000000000000000,
    3136410521787260000000000000000000, 3136410521787260000000000000000000, 3136410521787260000000000000000000,
    3136410521787260000000000000000000, 3136410521787260000000000000000000, 3136410521787260000000000000000000,
    5462430751007660000000000000000000, 5462430751007660000000000000000000, 5462430751007660000000000000000000,
    2788984490046340000000000000000000, 2788984490046340000000000000000000, 2788984490046340000000000000000000,
    2788984490046340000000000000000000, 2788984490046340000000000000000000, 2788984490046340000000000000000000,
    4269848369203430000000000000000000, 4269848369203430000000000000000000, 4269848369203430000000000000000000,
    3980871267174290000000000000000000, 3980871267174290000000000000000000, 3980871267174290000000000000000000,
    5970233788803200000000000000000000, 1787802436968940000000000000000000, 1787802436968940000000000000000000,
    1787802436968940000000000000000000, 1464609144629360000000000000000000, 1464609144629360000000000000000000,
    1464609144629360000000000000000000, 1464609144629360000000000000000000, 1464609144629360000000000000000000,
    1464609144629360000000000000000000, 568482893313027000000000000000000, 568482893313027000000000000000000,
    568482893313027000000000000000000, 568482893313027000000000000000000, 568482893313027000000000000000000,
    568482893313027000000000000000000]⟩

/-- `triangle_table_orig[20]` (xg_quad_data.py 1224-1387). -/
def xgTri_20 : XgTableRule :=
  ⟨[
    [m 44111500676637700000000000000000000, m 25467786790015200000000000000000000],
    [44111500676637700000000000000000000, m 25467786790015100000000000000000000],
    [0, 50935573580030300000000000000000000],
    [m 88806735820334600000000000000000000, m 51272592831722200000000000000000000],
    [88806735820334600000000000000000000, m 51272592831722100000000000000000000],
    [0, 102545185663444000000000000000000000],
    [0, m 49506265376045900000000000000000000],
    [42873683462149700000000000000000000, 24753132688022900000000000000000000],
    [m 42873683462149700000000000000000000, 24753132688023000000000000000000000],
    [m 86696389117550800000000000000000000, m 56894127058564400000000000000000000],
    [92619953917631800000000000000000000, m 46634211862897500000000000000000000],
    [m 5923564800080980000000000000000000, 103528338921462000000000000000000000],
    [86696389117550800000000000000000000, m 56894127058564400000000000000000000],
    [5923564800081050000000000000000000, 103528338921462000000000000000000000],
    [m 92619953917631900000000000000000000, m 46634211862897500000000000000000000],
    [m 46255868049954100000000000000000000, m 39335935346809800000000000000000000],
    [57193853316936500000000000000000000, m 20390789131956300000000000000000000],
    [m 10937985266982400000000000000000000, 59726724478766200000000000000000000],
    [46255868049954100000000000000000000, m 39335935346809800000000000000000000],
    [10937985266982400000000000000000000, 59726724478766200000000000000000000],
    [m 57193853316936600000000000000000000, m 20390789131956300000000000000000000],
    [1387778780781450000, m 38873359764810100000000000000000000],
    [33665317086777400000000000000000000, 19436679882405100000000000000000000],
    [m 33665317086777400000000000000000000, 19436679882405100000000000000000000],
    [m 67416180418116900000000000000000000, m 56423729270253900000000000000000000],
    [82572473133354000000000000000000000, m 30172260233077300000000000000000000],
    [m 15156292715237000000000000000000000, 86595989503331300000000000000000000],
    [67416180418116900000000000000000000, m 56423729270253900000000000000000000],
    [15156292715237100000000000000000000, 86595989503331300000000000000000000],
    [m 82572473133354000000000000000000000, m 30172260233077200000000000000000000],
    [m 22447168033665600000000000000000000, m 33519558519158100000000000000000000],
    [40252373218062800000000000000000000, m 2680038500593340000000000000000000],
    [m 17805205184397200000000000000000000, 36199597019751500000000000000000000],
    [22447168033665600000000000000000000, m 33519558519158100000000000000000000],
    [17805205184397200000000000000000000, 36199597019751500000000000000000000],
    [m 40252373218062800000000000000000000, m 2680038500593320000000000000000000],
    [m 23626219697998300000000000000000000, m 13640604302572500000000000000000000],
    [23626219697998300000000000000000000, m 13640604302572500000000000000000000],
    [0, 27281208605145100000000000000000000],
    [m 5551115123125780000, 22204460492503100000],
    [m 55640337063475900000000000000000000, m 49670535155060400000000000000000000],
    [70836113795588300000000000000000000, m 23350677794568800000000000000000000],
    [m 15195776732112400000000000000000000, 73021212949629300000000000000000000],
    [55640337063475900000000000000000000, m 49670535155060400000000000000000000],
    [15195776732112400000000000000000000, 73021212949629300000000000000000000],
    [m 70836113795588300000000000000000000, m 23350677794568800000000000000000000],
    [m 2775557561562890000, m 20816484443009700000000000000000000],
    [18027604345130000000000000000000000, 10408242221504900000000000000000000],
    [m 18027604345130000000000000000000000, 10408242221504900000000000000000000],
    [m 76173172264834800000000000000000000, m 51090241799312000000000000000000000],
    [82332033416111200000000000000000000, m 40422781368539200000000000000000000],
    [m 6158861151276350000000000000000000, 91513023167851200000000000000000000],
    [76173172264834800000000000000000000, m 51090241799312000000000000000000000],
    [6158861151276420000000000000000000, 91513023167851200000000000000000000],
    [m 82332033416111200000000000000000000, m 40422781368539100000000000000000000],
    [m 15012093407474900000000000000000000, m 56032152802942500000000000000000000],
    [56031314459817100000000000000000000, 15015222146613100000000000000000000],
    [m 41019221052342100000000000000000000, 41016930656329500000000000000000000],
    [15012093407474900000000000000000000, m 56032152802942500000000000000000000],
    [41019221052342200000000000000000000, 41016930656329500000000000000000000],
    [m 56031314459817100000000000000000000, 15015222146613100000000000000000000],
    [m 27874288623783800000000000000000000, m 48210916153383900000000000000000000],
    [55689022440443900000000000000000000, m 34383983924435300000000000000000],
    [m 27814733816660000000000000000000000, 48245300137308400000000000000000000],
    [27874288623783800000000000000000000, m 48210916153383900000000000000000000],
    [27814733816660100000000000000000000, 48245300137308300000000000000000000],
    [m 55689022440443900000000000000000000, m 34383983924390900000000000000000],
    [m 42809996429665800000000000000000000, m 55875287099133300000000000000000000],
    [69794416286431300000000000000000000, m 9136900894445090000000000000000000],
    [m 26984419856765400000000000000000000, 65012187993578400000000000000000000],
    [42809996429665900000000000000000000, m 55875287099133300000000000000000000],
    [26984419856765400000000000000000000, 65012187993578400000000000000000000],
    [m 69794416286431300000000000000000000, m 9136900894445050000000000000000000],
    [m 96707157691480600000000000000000000, m 55833903525740000000000000000000000],
    [96707157691480700000000000000000000, m 55833903525739900000000000000000000],
    [0, 111667807051480000000000000000000000],
    [m 67184920986485600000000000000000000, m 38789232217031200000000000000000000],
    [67184920986485600000000000000000000, m 38789232217031200000000000000000000],
    [0, 77578464434062500000000000000000000]],
   [3177780790551590000000000000000000, 3177780790551590000000000000000000, 3177780790551590000000000000000000,
    748687764084414000000000000000000, 748687764084414000000000000000000, 748687764084414000000000000000000,
    2460144450396340000000000000000000, 2460144450396340000000000000000000, 2460144450396340000000000000000000,
    391398311361926000000000000000000, 391398311361926000000000000000000, 391398311361926000000000000000000,
    391398311361926000000000000000000, 391398311361926000000000000000000, 391398311361926000000000000000000,
    2675189822960940000000000000000000, 2675189822960940000000000000000000, 2675189822960940000000000000000000,
    2675189822960940000000000000000000, 2675189822960940000000000000000000, 2675189822960940000000000000000000,
    3274407387563850000000000000000000, 3274407387563850000000000000000000, 3274407387563850000000000000000000,
    763106050561128000000000000000000, 763106050561128000000000000000000, 763106050561128000000000000000000,
    763106050561128000000000000000000, 763106050561128000000000000000000, 763106050561128000000000000000000,
    4050139527340440000000000000000000, 4050139527340440000000000000000000, 4050139527340440000000000000000000,
    4050139527340440000000000000000000, 4050139527340440000000000000000000, 4050139527340440000000000000000000,
    4878564039569100000000000000000000, 4878564039569100000000000000000000, 4878564039569100000000000000000000,
    4818603694764870000000000000000000, 2073749298621530000000000000000000, 2073749298621530000000000000000000,
    2073749298621530000000000000000000, 2073749298621530000000000000000000, 2073749298621530000000000000000000,
    2073749298621530000000000000000000, 4776320845376410000000000000000000, 4776320845376410000000000000000000,
    4776320845376410000000000000000000, 1436116599870240000000000000000000, 1436116599870240000000000000000000,
    1436116599870240000000000000000000, 1436116599870240000000000000000000, 1436116599870240000000000000000000,
    1436116599870240000000000000000000, 1280221625406910000000000000000000, 1280221625406910000000000000000000,
    1280221625406910000000000000000000, 1280221625406910000000000000000000, 1280221625406910000000000000000000,
    1280221625406910000000000000000000, 3002415008616770000000000000000000, 3002415008616770000000000000000000,
    3002415008616770000000000000000000, 3002415008616770000000000000000000, 3002415008616770000000000000000000,
    3002415008616770000000000000000000, 1239524922532760000000000000000000, 1239524922532760000000000000000000,
    1239524922532760000000000000000000, 1239524922532760000000000000000000, 1239524922532760000000000000000000,
    1239524922532760000000000000000000, 276726567457180000000000000000000, 276726567457180000000000000000000,
    276726567457180000000000000000000, 2712471507830120000000000000000000, 2712471507830120000000000000000000,
    2712471507830120000000000000000000]⟩

/-- `triangle_table_orig[21]` (xg_quad_data.py 1388-1567). -/
def xgTri_21 : XgTableRule :=
  ⟨[
    [m 10319129405505200000000000000000000, m 5957752140071020000000000000000000],
    [10319129405505200000000000000000000, m 5957752140071020000000000000000000],
    [0, 11915504280142100000000000000000000],
    [m 21632544850764900000000000000000000, m 22176792985285500000000000000000000],
    [30021938525108200000000000000000000, m 7645936896625880000000000000000000],
    [m 8389393674343320000000000000000000, 29822729881911400000000000000000000],
    [21632544850764900000000000000000000, m 22176792985285500000000000000000000],
    [8389393674343330000000000000000000, 29822729881911400000000000000000000],
    [m 30021938525108200000000000000000000, m 7645936896625880000000000000000000],
    [m 3729655473350140000, m 56698524576800600000000000000000000],
    [49102362640605700000000000000000000, 28349262288400300000000000000000000],
    [m 49102362640605700000000000000000000, 28349262288400300000000000000000000],
    [m 51732142577254400000000000000000000, m 56534402375875800000000000000000000],
    [74826299933907000000000000000000000, m 16534148476163000000000000000000000],
    [m 23094157356652600000000000000000000, 73068550852038900000000000000000000],
    [51732142577254400000000000000000000, m 56534402375875800000000000000000000],
    [23094157356652600000000000000000000, 73068550852038800000000000000000000],
    [m 74826299933907000000000000000000000, m 16534148476162900000000000000000000],
    [0, m 24347179507408300000000000000000000],
    [21085275963915500000000000000000000, 12173589753704200000000000000000000],
    [m 21085275963915500000000000000000000, 12173589753704200000000000000000000],
    [m 23848997800485100000000000000000000, m 36295805875690100000000000000000000],
    [43357588839418600000000000000000000, m 2505935012174240000000000000000000],
    [m 19508591038933500000000000000000000, 38801740887864300000000000000000000],
    [23848997800485100000000000000000000, m 36295805875690100000000000000000000],
    [19508591038933600000000000000000000, 38801740887864300000000000000000000],
    [m 43357588839418600000000000000000000, m 2505935012174200000000000000000000],
    [m 49726138663597800000000000000000000, m 50981524806986600000000000000000000],
    [69014364938315800000000000000000000, m 17573336911289900000000000000000000],
    [m 19288226274718000000000000000000000, 68554861718276600000000000000000000],
    [49726138663597800000000000000000000, m 50981524806986600000000000000000000],
    [19288226274718100000000000000000000, 68554861718276600000000000000000000],
    [m 69014364938315800000000000000000000, m 17573336911289900000000000000000000],
    [m 72412950658754900000000000000000000, m 56083300395461400000000000000000000],
    [84776038199920900000000000000000000, m 34669804635740100000000000000000000],
    [m 12363087541165900000000000000000000, 90753105031201600000000000000000000],
    [72412950658754900000000000000000000, m 56083300395461400000000000000000000],
    [12363087541166000000000000000000000, 90753105031201600000000000000000000],
    [m 84776038199920900000000000000000000, m 34669804635740100000000000000000000],
    [m 25333184867896100000000000000000000, m 48546117771023400000000000000000000],
    [54708763678765500000000000000000000, 2333877231146180000000000000000000],
    [m 29375578810869400000000000000000000, 46212240539877300000000000000000000],
    [25333184867896100000000000000000000, m 48546117771023400000000000000000000],
    [29375578810869400000000000000000000, 46212240539877300000000000000000000],
    [m 54708763678765500000000000000000000, 2333877231146200000000000000000000],
    [m 64303426713184200000000000000000000, m 37125600722672300000000000000000000],
    [64303426713184200000000000000000000, m 37125600722672200000000000000000000],
    [0, 74251201445344600000000000000000000],
    [m 42913384572616400000000000000000000, m 24776054134838000000000000000000000],
    [42913384572616400000000000000000000, m 24776054134838000000000000000000000],
    [0, 49552108269676100000000000000000000],
    [m 46634273354592000000000000000000000, m 40335187439348500000000000000000000],
    [58248433666178900000000000000000000, m 20218871692430200000000000000000000],
    [m 11614160311586800000000000000000000, 60554059131778800000000000000000000],
    [46634273354592000000000000000000000, m 40335187439348500000000000000000000],
    [11614160311586800000000000000000000, 60554059131778800000000000000000000],
    [m 58248433666178900000000000000000000, m 20218871692430200000000000000000000],
    [m 1387778780781450000, m 51360341626925600000000000000000000],
    [44479360595965000000000000000000000, 25680170813462800000000000000000000],
    [m 44479360595965000000000000000000000, 25680170813462900000000000000000000],
    [2775557561562890000, m 40349668011940400000000000000000000],
    [34943837532608700000000000000000000, 20174834005970200000000000000000000],
    [m 34943837532608700000000000000000000, 20174834005970200000000000000000000],
    [m 69288931850735600000000000000000000, m 49169851113649400000000000000000000],
    [77226806090086700000000000000000000, m 35421049627001100000000000000000000],
    [m 7937874239351060000000000000000000, 84590900740650500000000000000000000],
    [69288931850735600000000000000000000, m 49169851113649400000000000000000000],
    [7937874239351130000000000000000000, 84590900740650500000000000000000000],
    [m 77226806090086800000000000000000000, m 35421049627001100000000000000000000],
    [m 83911727336156500000000000000000000, m 48446458365696500000000000000000000],
    [83911727336156500000000000000000000, m 48446458365696400000000000000000000],
    [0, 96892916731392900000000000000000000],
    [m 26783854808923100000000000000000000, m 55958871884460200000000000000000000],
    [61853732023522900000000000000000000, 4783937266428710000000000000000000],
    [m 35069877214599800000000000000000000, 51174934618031600000000000000000000],
    [26783854808923100000000000000000000, m 55958871884460200000000000000000000],
    [35069877214599800000000000000000000, 51174934618031500000000000000000000],
    [m 61853732023522900000000000000000000, 4783937266428750000000000000000000],
    [m 96777263070151500000000000000000000, m 55874378884987200000000000000000000],
    [96777263070151500000000000000000000, m 55874378884987200000000000000000000],
    [0, 111748757769974000000000000000000000],
    [m 87825896621183200000000000000000000, m 55950684866453700000000000000000000],
    [92367662764078000000000000000000000, m 48084115150863700000000000000000000],
    [m 4541766142894770000000000000000000, 104034800017317000000000000000000000],
    [87825896621183200000000000000000000, m 55950684866453700000000000000000000],
    [4541766142894830000000000000000000, 104034800017317000000000000000000000],
    [m 92367662764078100000000000000000000, m 48084115150863700000000000000000000]],
   [3715443306061210000000000000000000, 3715443306061210000000000000000000, 3715443306061210000000000000000000,
    3030294968134310000000000000000000, 3030294968134310000000000000000000, 3030294968134310000000000000000000,
    3030294968134310000000000000000000, 3030294968134310000000000000000000, 3030294968134310000000000000000000,
    768654651065611000000000000000000, 768654651065611000000000000000000, 768654651065611000000000000000000,
    728521404182158000000000000000000, 728521404182158000000000000000000, 728521404182158000000000000000000,
    728521404182158000000000000000000, 728521404182158000000000000000000, 728521404182158000000000000000000,
    3983838906937360000000000000000000, 3983838906937360000000000000000000, 3983838906937360000000000000000000,
    3195198102847670000000000000000000, 3195198102847670000000000000000000, 3195198102847670000000000000000000,
    3195198102847670000000000000000000, 3195198102847670000000000000000000, 3195198102847670000000000000000000,
    1813440599936070000000000000000000, 1813440599936070000000000000000000, 1813440599936070000000000000000000,
    1813440599936070000000000000000000, 1813440599936070000000000000000000, 1813440599936070000000000000000000,
    776099598635468000000000000000000, 776099598635468000000000000000000, 776099598635468000000000000000000,
    776099598635468000000000000000000, 776099598635468000000000000000000, 776099598635468000000000000000000,
    2511526657694950000000000000000000, 2511526657694950000000000000000000, 2511526657694950000000000000000000,
    2511526657694950000000000000000000, 2511526657694950000000000000000000, 2511526657694950000000000000000000,
    2365294203707210000000000000000000, 2365294203707210000000000000000000, 2365294203707210000000000000000000,
    3369746737636110000000000000000000, 3369746737636110000000000000000000, 3369746737636110000000000000000000,
    2754659961924160000000000000000000, 2754659961924160000000000000000000, 2754659961924160000000000000000000,
    2754659961924160000000000000000000, 2754659961924160000000000000000000, 2754659961924160000000000000000000,
    2115597898746740000000000000000000, 2115597898746740000000000000000000, 2115597898746740000000000000000000,
    3397326765839230000000000000000000, 3397326765839230000000000000000000, 3397326765839230000000000000000000,
    1699483371909150000000000000000000, 1699483371909150000000000000000000, 1699483371909150000000000000000000,
    1699483371909150000000000000000000, 1699483371909150000000000000000000, 1699483371909150000000000000000000,
    1238777477547970000000000000000000, 1238777477547970000000000000000000, 1238777477547970000000000000000000,
    1184702809186330000000000000000000, 1184702809186330000000000000000000, 1184702809186330000000000000000000,
    1184702809186330000000000000000000, 1184702809186330000000000000000000, 1184702809186330000000000000000000,
    261314379310209000000000000000000, 261314379310209000000000000000000, 261314379310209000000000000000000,
    565588821605206000000000000000000, 565588821605206000000000000000000, 565588821605206000000000000000000,
    565588821605206000000000000000000, 565588821605206000000000000000000, 565588821605206000000000000000000]⟩

/-- `triangle_table_orig[22]` (xg_quad_data.py 1568-1765). -/
def xgTri_22 : XgTableRule :=
  ⟨[
    [5551115123125780000, m 17961779550825400000000000000000000],
    [15555357388190600000000000000000000, 8980889775412710000000000000000000],
    [m 15555357388190600000000000000000000, 8980889775412730000000000000000000],
    [4163336342344340000, m 43105921890016000000000000000000000],
    [37330823410301600000000000000000000, 21552960945008000000000000000000000],
    [m 37330823410301600000000000000000000, 21552960945008100000000000000000000],
    [m 85243937884353000000000000000000000, m 56370814820709400000000000000000000],
    [91440526608939200000000000000000000, m 45638008316117800000000000000000000],
    [m 6196588724586080000000000000000000, 102008823136827000000000000000000000],
    [85243937884353000000000000000000000, m 56370814820709400000000000000000000],
    [6196588724586150000000000000000000, 102008823136827000000000000000000000],
    [m 91440526608939200000000000000000000, m 45638008316117700000000000000000000],
    [m 11632522291015000000000000000000000, m 6716039876071810000000000000000000],
    [11632522291015000000000000000000000, m 6716039876071800000000000000000000],
    [0, 13432079752143600000000000000000000],
    [m 43446842910914800000000000000000000, m 25084046450056100000000000000000000],
    [43446842910914900000000000000000000, m 25084046450056000000000000000000000],
    [0, 50168092900112100000000000000000000],
    [2775557561562890000, m 30708760414931300000000000000000000],
    [26594566638060500000000000000000000, 15354380207465700000000000000000000],
    [m 26594566638060500000000000000000000, 15354380207465700000000000000000000],
    [m 77445005331884900000000000000000000, m 49983703894353900000000000000000000],
    [82009660013692100000000000000000000, m 42077490066456700000000000000000000],
    [m 4564654681807150000000000000000000, 92061193960810600000000000000000000],
    [77445005331884900000000000000000000, m 49983703894353900000000000000000000],
    [4564654681807220000000000000000000, 92061193960810600000000000000000000],
    [m 82009660013692100000000000000000000, m 42077490066456600000000000000000000],
    [m 13904123725801900000000000000000000, m 51105561801610600000000000000000000],
    [51210776657771400000000000000000000, 13511456536899000000000000000000000],
    [m 37306652931969500000000000000000000, 37594105264711700000000000000000000],
    [13904123725801900000000000000000000, m 51105561801610600000000000000000000],
    [37306652931969500000000000000000000, 37594105264711700000000000000000000],
    [m 51210776657771400000000000000000000, 13511456536899000000000000000000000],
    [m 23304071399817600000000000000000000, m 39938711325112000000000000000000000],
    [46239974301869100000000000000000000, m 212562181292375000000000000000000],
    [m 22935902902051500000000000000000000, 40151273506404500000000000000000000],
    [23304071399817600000000000000000000, m 39938711325112000000000000000000000],
    [22935902902051500000000000000000000, 40151273506404500000000000000000000],
    [m 46239974301869100000000000000000000, m 212562181292342000000000000000000],
    [m 26744719790035500000000000000000000, m 56453267538284100000000000000000000],
    [62262323709811100000000000000000000, 5065027013874890000000000000000000],
    [m 35517603919775600000000000000000000, 51388240524409200000000000000000000],
    [26744719790035500000000000000000000, m 56453267538284100000000000000000000],
    [35517603919775700000000000000000000, 51388240524409200000000000000000000],
    [m 62262323709811100000000000000000000, 5065027013874950000000000000000000],
    [m 22878505379994200000000000000000000, m 24638775273505900000000000000000000],
    [32777057994989100000000000000000000, m 7493979222940990000000000000000000],
    [m 9898552614994860000000000000000000, 32132754496446900000000000000000000],
    [22878505379994200000000000000000000, m 24638775273505900000000000000000000],
    [9898552614994880000000000000000000, 32132754496446900000000000000000000],
    [m 32777057994989100000000000000000000, m 7493979222940970000000000000000000],
    [4857225732735060000, m 56405220111847200000000000000000000],
    [48848353522912600000000000000000000, 28202610055923600000000000000000000],
    [m 48848353522912600000000000000000000, 28202610055923600000000000000000000],
    [m 38014474895820100000000000000000000, m 50115450425960700000000000000000000],
    [62408490638891700000000000000000000, m 7863775758325610000000000000000000],
    [m 24394015743071600000000000000000000, 57979226184286400000000000000000000],
    [38014474895820000000000000000000000, m 50115450425960700000000000000000000],
    [24394015743071600000000000000000000, 57979226184286400000000000000000000],
    [m 62408490638891600000000000000000000, m 7863775758325560000000000000000000],
    [m 45773619140744600000000000000000000, m 38909376761177000000000000000000000],
    [56583318290971500000000000000000000, m 20186428618449900000000000000000000],
    [m 10809699150226900000000000000000000, 59095805379627000000000000000000000],
    [45773619140744500000000000000000000, m 38909376761177000000000000000000000],
    [10809699150226900000000000000000000, 59095805379627000000000000000000000],
    [m 56583318290971500000000000000000000, m 20186428618449900000000000000000000],
    [m 69910784887798600000000000000000000, m 56151116446763500000000000000000000],
    [83583685737654700000000000000000000, m 32468957487961000000000000000000000],
    [m 13672900849856100000000000000000000, 88620073934724600000000000000000000],
    [69910784887798600000000000000000000, m 56151116446763500000000000000000000],
    [13672900849856100000000000000000000, 88620073934724600000000000000000000],
    [m 83583685737654700000000000000000000, m 32468957487961000000000000000000000],
    [m 59915020623635900000000000000000000, m 49377028890768600000000000000000000],
    [72719271694621700000000000000000000, m 27199415482952900000000000000000000],
    [m 12804251070985800000000000000000000, 76576444373721600000000000000000000],
    [59915020623635800000000000000000000, m 49377028890768600000000000000000000],
    [12804251070985900000000000000000000, 76576444373721600000000000000000000],
    [m 72719271694621700000000000000000000, m 27199415482952800000000000000000000],
    [m 50285479867282900000000000000000000, m 56147791277581900000000000000000000],
    [73768153546413600000000000000000000, m 15474607367767000000000000000000000],
    [m 23482673679130700000000000000000000, 71622398645348900000000000000000000],
    [50285479867282900000000000000000000, m 56147791277581900000000000000000000],
    [23482673679130800000000000000000000, 71622398645348900000000000000000000],
    [m 73768153546413700000000000000000000, m 15474607367766900000000000000000000],
    [m 91267458798757700000000000000000000, m 52693291905715900000000000000000000],
    [91267458798757700000000000000000000, m 52693291905715800000000000000000000],
    [0, 105386583811432000000000000000000000],
    [m 65370538534238500000000000000000000, m 37741698019813400000000000000000000],
    [65370538534238500000000000000000000, m 37741698019813400000000000000000000],
    [m 11102230246251600000, 75483396039626900000000000000000000],
    [m 96233289290517400000000000000000000, m 57423523645313300000000000000000000],
    [97846874896916400000000000000000000, m 54628711392668300000000000000000000],
    [m 1613585606399020000000000000000000, 112052235037982000000000000000000000],
    [96233289290517400000000000000000000, m 57423523645313300000000000000000000],
    [1613585606399100000000000000000000, 112052235037982000000000000000000000],
    [m 97846874896916500000000000000000000, m 54628711392668300000000000000000000]],
   [2337070683720250000000000000000000, 2337070683720250000000000000000000, 2337070683720250000000000000000000,
    2400864823998470000000000000000000, 2400864823998470000000000000000000, 2400864823998470000000000000000000,
    449543130528762000000000000000000, 449543130528762000000000000000000, 449543130528762000000000000000000,
    449543130528762000000000000000000, 449543130528762000000000000000000, 449543130528762000000000000000000,
    3650429398263610000000000000000000, 3650429398263610000000000000000000, 3650429398263610000000000000000000,
    2774970408801670000000000000000000, 2774970408801670000000000000000000, 2774970408801670000000000000000000,
    3265451418305160000000000000000000, 3265451418305160000000000000000000, 3265451418305160000000000000000000,
    1302082673026220000000000000000000, 1302082673026220000000000000000000, 1302082673026220000000000000000000,
    1302082673026220000000000000000000, 1302082673026220000000000000000000, 1302082673026220000000000000000000,
    1939431584171500000000000000000000, 1939431584171500000000000000000000, 1939431584171500000000000000000000,
    1939431584171500000000000000000000, 1939431584171500000000000000000000, 1939431584171500000000000000000000,
    3069037018789460000000000000000000, 3069037018789460000000000000000000, 3069037018789460000000000000000000,
    3069037018789460000000000000000000, 3069037018789460000000000000000000, 3069037018789460000000000000000000,
    849442818211660000000000000000000, 849442818211660000000000000000000, 849442818211660000000000000000000,
    849442818211660000000000000000000, 849442818211660000000000000000000, 849442818211660000000000000000000,
    3759662152054820000000000000000000, 3759662152054820000000000000000000, 3759662152054820000000000000000000,
    3759662152054820000000000000000000, 3759662152054820000000000000000000, 3759662152054820000000000000000000,
    916140503997441000000000000000000, 916140503997441000000000000000000, 916140503997441000000000000000000,
    2019956253542970000000000000000000, 2019956253542970000000000000000000, 2019956253542970000000000000000000,
    2019956253542970000000000000000000, 2019956253542970000000000000000000, 2019956253542970000000000000000000,
    2721079985746130000000000000000000, 2721079985746130000000000000000000, 2721079985746130000000000000000000,
    2721079985746130000000000000000000, 2721079985746130000000000000000000, 2721079985746130000000000000000000,
    711299065875511000000000000000000, 711299065875511000000000000000000, 711299065875511000000000000000000,
    711299065875511000000000000000000, 711299065875511000000000000000000, 711299065875511000000000000000000,
    1829666587420850000000000000000000, 1829666587420850000000000000000000, 1829666587420850000000000000000000,
    1829666587420850000000000000000000, 1829666587420850000000000000000000, 1829666587420850000000000000000000,
    875391797197662000000000000000000, 875391797197662000000000000000000, 875391797197662000000000000000000,
    875391797197662000000000000000000, 875391797197662000000000000000000, 875391797197662000000000000000000,
    618187841302302000000000000000000, 618187841302302000000000000000000, 618187841302302000000000000000000,
    2496874756521480000000000000000000, 2496874756521480000000000000000000, 2496874756521480000000000000000000,
    110925475460562000000000000000000, 110925475460562000000000000000000, 110925475460562000000000000000000,
    110925475460562000000000000000000, 110925475460562000000000000000000, 110925475460562000000000000000000]⟩

/-- `triangle_table_orig[23]` (xg_quad_data.py 1766-1977). -/
def xgTri_23 : XgTableRule :=
  ⟨[
    [m 65712214849613200000000000000000000, m 53600577707072900000000000000000000],
    [79275569376653500000000000000000000, m 30108158545169600000000000000000000],
    [m 13563354527040300000000000000000000, 83708736252242500000000000000000000],
    [65712214849613200000000000000000000, m 53600577707072900000000000000000000],
    [13563354527040400000000000000000000, 83708736252242500000000000000000000],
    [m 79275569376653600000000000000000000, m 30108158545169600000000000000000000],
    [m 76660745759442600000000000000000000, m 56836123421761700000000000000000000],
    [87551899615594600000000000000000000, m 37972091589856700000000000000000000],
    [m 10891153856152000000000000000000000, 94808215011618400000000000000000000],
    [76660745759442600000000000000000000, m 56836123421761700000000000000000000],
    [10891153856152000000000000000000000, 94808215011618400000000000000000000],
    [m 87551899615594700000000000000000000, m 37972091589856600000000000000000000],
    [m 88297819372890300000000000000000000, m 50978769783795300000000000000000000],
    [88297819372890400000000000000000000, m 50978769783795200000000000000000000],
    [0, 101957539567590000000000000000000000],
    [m 77617921446782400000000000000000000, m 52064114314269100000000000000000000],
    [83897806345085200000000000000000000, m 41187034604724000000000000000000000],
    [m 6279884898302800000000000000000000, 93251148918993100000000000000000000],
    [77617921446782400000000000000000000, m 52064114314269100000000000000000000],
    [6279884898302870000000000000000000, 93251148918993100000000000000000000],
    [m 83897806345085300000000000000000000, m 41187034604724000000000000000000000],
    [m 37522786404063000000000000000000000, m 57311090188249400000000000000000000],
    [68394253223636500000000000000000000, m 3840141152571200000000000000000000],
    [m 30871466819573500000000000000000000, 61151231340820600000000000000000000],
    [37522786404063000000000000000000000, m 57311090188249400000000000000000000],
    [30871466819573600000000000000000000, 61151231340820600000000000000000000],
    [m 68394253223636500000000000000000000, m 3840141152571130000000000000000000],
    [m 58004024629858700000000000000000000, m 56223762431712000000000000000000000],
    [77693218877133100000000000000000000, m 22121077635339900000000000000000000],
    [m 19689194247274300000000000000000000, 78344840067052000000000000000000000],
    [58004024629858700000000000000000000, m 56223762431712000000000000000000000],
    [19689194247274400000000000000000000, 78344840067052000000000000000000000],
    [m 77693218877133100000000000000000000, m 22121077635339900000000000000000000],
    [m 89831420119030500000000000000000000, m 56494438615384300000000000000000000],
    [93841329072978600000000000000000000, m 49549072573420800000000000000000000],
    [m 4009908953948050000000000000000000, 106043511188805000000000000000000000],
    [89831420119030500000000000000000000, m 56494438615384300000000000000000000],
    [4009908953948100000000000000000000, 106043511188805000000000000000000000],
    [m 93841329072978600000000000000000000, m 49549072573420700000000000000000000],
    [m 21445385867353700000000000000000000, m 45865810284942800000000000000000000],
    [50443649805594900000000000000000000, 4360656187383350000000000000000000],
    [m 28998263938241200000000000000000000, 41505154097559500000000000000000000],
    [21445385867353700000000000000000000, m 45865810284942800000000000000000000],
    [28998263938241200000000000000000000, 41505154097559500000000000000000000],
    [m 50443649805594900000000000000000000, 4360656187383380000000000000000000],
    [4857225732735060000, m 50920750140222300000000000000000000],
    [44098663201192600000000000000000000, 25460375070111200000000000000000000],
    [m 44098663201192500000000000000000000, 25460375070111200000000000000000000],
    [m 41730612660269000000000000000000000, m 40115163422567000000000000000000000],
    [55606056931041900000000000000000000, m 16082188967998000000000000000000000],
    [m 13875444270772800000000000000000000, 56197352390565100000000000000000000],
    [41730612660269100000000000000000000, m 40115163422567000000000000000000000],
    [13875444270772900000000000000000000, 56197352390565100000000000000000000],
    [m 55606056931041900000000000000000000, m 16082188967997900000000000000000000],
    [m 73947685537710000000000000000000000, m 42693716151146700000000000000000000],
    [73947685537710100000000000000000000, m 42693716151146700000000000000000000],
    [0, 85387432302293400000000000000000000],
    [2775557561562890000, m 21127615568211200000000000000000000],
    [18297051803462500000000000000000000, 10563807784105600000000000000000000],
    [m 18297051803462500000000000000000000, 10563807784105600000000000000000000],
    [m 20124604636825800000000000000000000, m 11618945904406200000000000000000000],
    [20124604636825800000000000000000000, m 11618945904406200000000000000000000],
    [0, 23237891808812400000000000000000000],
    [m 59578381850403700000000000000000000, m 47628237617657100000000000000000000],
    [71036454639574500000000000000000000, m 27782273389990800000000000000000000],
    [m 11458072789170800000000000000000000, 75410511007647900000000000000000000],
    [59578381850403600000000000000000000, m 47628237617657100000000000000000000],
    [11458072789170900000000000000000000, 75410511007647900000000000000000000],
    [m 71036454639574500000000000000000000, m 27782273389990700000000000000000000],
    [m 21256122928680800000000000000000000, m 30917657348348700000000000000000000],
    [37403538153512900000000000000000000, m 2949513768028080000000000000000000],
    [m 16147415224832200000000000000000000, 33867171116376800000000000000000000],
    [21256122928680800000000000000000000, m 30917657348348700000000000000000000],
    [16147415224832200000000000000000000, 33867171116376800000000000000000000],
    [m 37403538153512900000000000000000000, m 2949513768028040000000000000000000],
    [m 58861183806505700000000000000000000, m 33983520315506100000000000000000000],
    [58861183806505700000000000000000000, m 33983520315506100000000000000000000],
    [0, 67967040631012300000000000000000000],
    [m 390312782094782000, m 57374563316209200000000000000000000],
    [49687829362875900000000000000000000, 28687281658104600000000000000000000],
    [m 49687829362875900000000000000000000, 28687281658104600000000000000000000],
    [m 18972387666404000000000000000000000, m 55178698374999000000000000000000000],
    [57272348373710200000000000000000000, 11158779497947100000000000000000000],
    [m 38299960707306200000000000000000000, 44019918877051900000000000000000000],
    [18972387666403900000000000000000000, m 55178698374999000000000000000000000],
    [38299960707306300000000000000000000, 44019918877051900000000000000000000],
    [m 57272348373710200000000000000000000, 11158779497947100000000000000000000],
    [4163336342344340000, m 38575926863496200000000000000000000],
    [33407732638318300000000000000000000, 19287963431748100000000000000000000],
    [m 33407732638318200000000000000000000, 19287963431748100000000000000000000],
    [m 40375058081039100000000000000000000, m 23310550651634700000000000000000000],
    [40375058081039200000000000000000000, m 23310550651634700000000000000000000],
    [0, 46621101303269500000000000000000000],
    [m 40941795217926300000000000000000000, m 52020349027005800000000000000000000],
    [65521841380083200000000000000000000, m 9446460221761520000000000000000000],
    [m 24580046162156900000000000000000000, 61466809248767300000000000000000000],
    [40941795217926300000000000000000000, m 52020349027005800000000000000000000],
    [24580046162157000000000000000000000, 61466809248767300000000000000000000],
    [m 65521841380083200000000000000000000, m 9446460221761470000000000000000000],
    [m 97295067938320500000000000000000000, m 56173333665012300000000000000000000],
    [97295067938320500000000000000000000, m 56173333665012200000000000000000000],
    [0, 112346667330025000000000000000000000],
    [m 5551115123125780000, 22204460492503100000]],
   [437891205789307000000000000000000, 437891205789307000000000000000000, 437891205789307000000000000000000,
    437891205789307000000000000000000, 437891205789307000000000000000000, 437891205789307000000000000000000,
    385384721972603000000000000000000, 385384721972603000000000000000000, 385384721972603000000000000000000,
    385384721972603000000000000000000, 385384721972603000000000000000000, 385384721972603000000000000000000,
    678226107788796000000000000000000, 678226107788796000000000000000000, 678226107788796000000000000000000,
    922841941110249000000000000000000, 922841941110249000000000000000000, 922841941110249000000000000000000,
    922841941110249000000000000000000, 922841941110249000000000000000000, 922841941110249000000000000000000,
    395098746460725000000000000000000, 395098746460725000000000000000000, 395098746460725000000000000000000,
    395098746460725000000000000000000, 395098746460725000000000000000000, 395098746460725000000000000000000,
    712695665699021000000000000000000, 712695665699021000000000000000000, 712695665699021000000000000000000,
    712695665699021000000000000000000, 712695665699021000000000000000000, 712695665699021000000000000000000,
    338198738632512000000000000000000, 338198738632512000000000000000000, 338198738632512000000000000000000,
    338198738632512000000000000000000, 338198738632512000000000000000000, 338198738632512000000000000000000,
    2594804955097160000000000000000000, 2594804955097160000000000000000000, 2594804955097160000000000000000000,
    2594804955097160000000000000000000, 2594804955097160000000000000000000, 2594804955097160000000000000000000,
    1974172331087500000000000000000000, 1974172331087500000000000000000000, 1974172331087500000000000000000000,
    2792280959640860000000000000000000, 2792280959640860000000000000000000, 2792280959640860000000000000000000,
    2792280959640860000000000000000000, 2792280959640860000000000000000000, 2792280959640860000000000000000000,
    1551903151979090000000000000000000, 1551903151979090000000000000000000, 1551903151979090000000000000000000,
    4100562470743790000000000000000000, 4100562470743790000000000000000000, 4100562470743790000000000000000000,
    4123642814078310000000000000000000, 4123642814078310000000000000000000, 4123642814078310000000000000000000,
    1813501621437920000000000000000000, 1813501621437920000000000000000000, 1813501621437920000000000000000000,
    1813501621437920000000000000000000, 1813501621437920000000000000000000, 1813501621437920000000000000000000,
    3610355268081230000000000000000000, 3610355268081230000000000000000000, 3610355268081230000000000000000000,
    3610355268081230000000000000000000, 3610355268081230000000000000000000, 3610355268081230000000000000000000,
    2521770607845660000000000000000000, 2521770607845660000000000000000000, 2521770607845660000000000000000000,
    416998957593050000000000000000000, 416998957593050000000000000000000, 416998957593050000000000000000000,
    1229371356227880000000000000000000, 1229371356227880000000000000000000, 1229371356227880000000000000000000,
    1229371356227880000000000000000000, 1229371356227880000000000000000000, 1229371356227880000000000000000000,
    3282574146183400000000000000000000, 3282574146183400000000000000000000, 3282574146183400000000000000000000,
    3452891415134590000000000000000000, 3452891415134590000000000000000000, 3452891415134590000000000000000000,
    1762461230162680000000000000000000, 1762461230162680000000000000000000, 1762461230162680000000000000000000,
    1762461230162680000000000000000000, 1762461230162680000000000000000000, 1762461230162680000000000000000000,
    184525978367459000000000000000000, 184525978367459000000000000000000, 184525978367459000000000000000000,
    4373958352610050000000000000000000]⟩

/-- `triangle_table_orig[24]` (xg_quad_data.py 1978-2207). -/
def xgTri_24 : XgTableRule :=
  ⟨[
    [m 5551115123125780000, 22204460492503100000],
    [0, m 29638036437519600000000000000000000],
    [25667292473180800000000000000000000, 14819018218759800000000000000000000],
    [m 25667292473180800000000000000000000, 14819018218759900000000000000000000],
    [m 51291809884922100000000000000000000, m 29613340244282900000000000000000000],
    [51291809884922100000000000000000000, m 29613340244282900000000000000000000],
    [0, 59226680488565800000000000000000000],
    [m 34667319739036800000000000000000000, m 28226548001723500000000000000000000],
    [41778567500151900000000000000000000, m 15909505574261800000000000000000000],
    [m 7111247761115010000000000000000000, 44136053575985400000000000000000000],
    [34667319739036800000000000000000000, m 28226548001723500000000000000000000],
    [7111247761115050000000000000000000, 44136053575985400000000000000000000],
    [m 41778567500151900000000000000000000, m 15909505574261800000000000000000000],
    [m 17228858629081100000000000000000000, m 28331767767631000000000000000000000],
    [33150459935430100000000000000000000, m 754745367179477000000000000000000],
    [m 15921601306349000000000000000000000, 29086513134810500000000000000000000],
    [17228858629081100000000000000000000, m 28331767767631000000000000000000000],
    [15921601306349100000000000000000000, 29086513134810500000000000000000000],
    [m 33150459935430200000000000000000000, m 754745367179444000000000000000000],
    [m 87704311299664800000000000000000000, m 50636107737952300000000000000000000],
    [87704311299664900000000000000000000, m 50636107737952200000000000000000000],
    [0, 101272215475905000000000000000000000],
    [m 97980618733633400000000000000000000, m 56569136601229400000000000000000000],
    [97980618733633500000000000000000000, m 56569136601229300000000000000000000],
    [0, 113138273202459000000000000000000000],
    [m 77534695461921800000000000000000000, m 51098115521172300000000000000000000],
    [83019613857808000000000000000000000, m 41597958184128200000000000000000000],
    [m 5484918395886140000000000000000000, 92696073705300500000000000000000000],
    [77534695461921800000000000000000000, m 51098115521172300000000000000000000],
    [5484918395886210000000000000000000, 92696073705300500000000000000000000],
    [m 83019613857808000000000000000000000, m 41597958184128200000000000000000000],
    [m 11830295887885400000000000000000000, m 41686453554510700000000000000000000],
    [42016675715829100000000000000000000, 10597890004060100000000000000000000],
    [m 30186379827943700000000000000000000, 31088563550450700000000000000000000],
    [11830295887885400000000000000000000, m 41686453554510700000000000000000000],
    [30186379827943700000000000000000000, 31088563550450700000000000000000000],
    [m 42016675715829100000000000000000000, 10597890004060100000000000000000000],
    [m 63345645296257000000000000000000000, m 50600932341283000000000000000000000],
    [75494515510857200000000000000000000, m 29558471875035300000000000000000000],
    [m 12148870214600200000000000000000000, 80159404216318300000000000000000000],
    [63345645296257000000000000000000000, m 50600932341283000000000000000000000],
    [12148870214600200000000000000000000, 80159404216318300000000000000000000],
    [m 75494515510857200000000000000000000, m 29558471875035200000000000000000000],
    [m 45325106659208300000000000000000000, m 50881145127983200000000000000000000],
    [66726917584080400000000000000000000, m 13812121232122000000000000000000000],
    [m 21401810924872100000000000000000000, 64693266360105300000000000000000000],
    [45325106659208300000000000000000000, m 50881145127983200000000000000000000],
    [21401810924872200000000000000000000, 64693266360105300000000000000000000],
    [m 66726917584080400000000000000000000, m 13812121232122000000000000000000000],
    [m 23690281718952100000000000000000000, m 51050575168543300000000000000000000],
    [56056235833241700000000000000000000, 5008901792849060000000000000000000],
    [m 32365954114289500000000000000000000, 46041673375694300000000000000000000],
    [23690281718952100000000000000000000, m 51050575168543300000000000000000000],
    [32365954114289500000000000000000000, 46041673375694300000000000000000000],
    [m 56056235833241600000000000000000000, 5008901792849100000000000000000000],
    [m 34221988285107900000000000000000000, m 41361091237025700000000000000000000],
    [52930749882064100000000000000000000, m 8956565604404100000000000000000000],
    [m 18708761596956200000000000000000000, 50317656841429800000000000000000000],
    [34221988285107900000000000000000000, m 41361091237025700000000000000000000],
    [18708761596956200000000000000000000, 50317656841429800000000000000000000],
    [m 52930749882064100000000000000000000, m 8956565604404060000000000000000000],
    [m 22606667538238700000000000000000000, m 56455388712044600000000000000000000],
    [60195134574275200000000000000000000, 8649745972998560000000000000000000],
    [m 37588467036036500000000000000000000, 47805642739046100000000000000000000],
    [22606667538238700000000000000000000, m 56455388712044600000000000000000000],
    [37588467036036500000000000000000000, 47805642739046100000000000000000000],
    [m 60195134574275200000000000000000000, 8649745972998590000000000000000000],
    [m 44495329180516600000000000000000000, m 56428020831842500000000000000000000],
    [71115764115911400000000000000000000, m 10320075004157200000000000000000000],
    [m 26620434935394700000000000000000000, 66748095835999700000000000000000000],
    [44495329180516600000000000000000000, m 56428020831842500000000000000000000],
    [26620434935394800000000000000000000, 66748095835999700000000000000000000],
    [m 71115764115911400000000000000000000, m 10320075004157200000000000000000000],
    [5377642775528100000, m 56437817053789700000000000000000000],
    [48876583302720500000000000000000000, 28218908526894900000000000000000000],
    [m 48876583302720500000000000000000000, 28218908526894900000000000000000000],
    [m 80452275594748600000000000000000000, m 56481964637042000000000000000000000],
    [89140954028707000000000000000000000, m 41432732138798100000000000000000000],
    [m 8688678433958350000000000000000000, 97914696775840100000000000000000000],
    [80452275594748600000000000000000000, m 56481964637042000000000000000000000],
    [8688678433958420000000000000000000, 97914696775840100000000000000000000],
    [m 89140954028707000000000000000000000, m 41432732138798000000000000000000000],
    [m 20730605368518200000000000000000000, m 11968820589977900000000000000000000],
    [20730605368518200000000000000000000, m 11968820589977900000000000000000000],
    [0, 23937641179955800000000000000000000],
    [m 54364142669910300000000000000000000, m 41182463487840800000000000000000000],
    [62847130905850400000000000000000000, m 26489496863183500000000000000000000],
    [m 8482988235940030000000000000000000, 67671960351024400000000000000000000],
    [54364142669910300000000000000000000, m 41182463487840800000000000000000000],
    [8482988235940070000000000000000000, 67671960351024400000000000000000000],
    [m 62847130905850400000000000000000000, m 26489496863183500000000000000000000],
    [m 3469446951953610000, m 51019021318165300000000000000000000],
    [44183768537751000000000000000000000, 25509510659082700000000000000000000],
    [m 44183768537751000000000000000000000, 25509510659082700000000000000000000],
    [m 64253738555354100000000000000000000, m 56351478264510600000000000000000000],
    [80928680995549800000000000000000000, m 27469630744805000000000000000000000],
    [m 16674942440195700000000000000000000, 83821109009315600000000000000000000],
    [64253738555354000000000000000000000, m 56351478264510600000000000000000000],
    [16674942440195800000000000000000000, 83821109009315600000000000000000000],
    [m 80928680995549900000000000000000000, m 27469630744804900000000000000000000],
    [m 71101451320235400000000000000000000, m 41050442059511000000000000000000000],
    [71101451320235400000000000000000000, m 41050442059511000000000000000000000],
    [0, 82100884119022000000000000000000000],
    [m 91734214502720900000000000000000000, m 56336411329583400000000000000000000],
    [94655870620829100000000000000000000, m 51275954490775500000000000000000000],
    [m 2921656118108210000000000000000000, 107612365820359000000000000000000000],
    [91734214502720900000000000000000000, m 56336411329583400000000000000000000],
    [2921656118108280000000000000000000, 107612365820359000000000000000000000],
    [m 94655870620829100000000000000000000, m 51275954490775400000000000000000000],
    [0, m 14556014125612900000000000000000000],
    [12605878010625900000000000000000000, 7278007062806460000000000000000000],
    [m 12605878010625900000000000000000000, 7278007062806470000000000000000000]],
   [2172977222858070000000000000000000, 2270810875395850000000000000000000, 2270810875395850000000000000000000,
    2270810875395850000000000000000000, 1797698314225830000000000000000000, 1797698314225830000000000000000000,
    1797698314225830000000000000000000, 2449993801222080000000000000000000, 2449993801222080000000000000000000,
    2449993801222080000000000000000000, 2449993801222080000000000000000000, 2449993801222080000000000000000000,
    2449993801222080000000000000000000, 2645611064278880000000000000000000, 2645611064278880000000000000000000,
    2645611064278880000000000000000000, 2645611064278880000000000000000000, 2645611064278880000000000000000000,
    2645611064278880000000000000000000, 664016271493248000000000000000000, 664016271493248000000000000000000,
    664016271493248000000000000000000, 106911616472099000000000000000000, 106911616472099000000000000000000,
    106911616472099000000000000000000, 929465480582510000000000000000000, 929465480582510000000000000000000,
    929465480582510000000000000000000, 929465480582510000000000000000000, 929465480582510000000000000000000,
    929465480582510000000000000000000, 2603593546572720000000000000000000, 2603593546572720000000000000000000,
    2603593546572720000000000000000000, 2603593546572720000000000000000000, 2603593546572720000000000000000000,
    2603593546572720000000000000000000, 1247792641529240000000000000000000, 1247792641529240000000000000000000,
    1247792641529240000000000000000000, 1247792641529240000000000000000000, 1247792641529240000000000000000000,
    1247792641529240000000000000000000, 1542369927472720000000000000000000, 1542369927472720000000000000000000,
    1542369927472720000000000000000000, 1542369927472720000000000000000000, 1542369927472720000000000000000000,
    1542369927472720000000000000000000, 1722914564436680000000000000000000, 1722914564436680000000000000000000,
    1722914564436680000000000000000000, 1722914564436680000000000000000000, 1722914564436680000000000000000000,
    1722914564436680000000000000000000, 2485900214146010000000000000000000, 2485900214146010000000000000000000,
    2485900214146010000000000000000000, 2485900214146010000000000000000000, 2485900214146010000000000000000000,
    2485900214146010000000000000000000, 734761806339519000000000000000000, 734761806339519000000000000000000,
    734761806339519000000000000000000, 734761806339519000000000000000000, 734761806339519000000000000000000,
    734761806339519000000000000000000, 706897579323028000000000000000000, 706897579323028000000000000000000,
    706897579323028000000000000000000, 706897579323028000000000000000000, 706897579323028000000000000000000,
    706897579323028000000000000000000, 752272399260664000000000000000000, 752272399260664000000000000000000,
    752272399260664000000000000000000, 448464739789977000000000000000000, 448464739789977000000000000000000,
    448464739789977000000000000000000, 448464739789977000000000000000000, 448464739789977000000000000000000,
    448464739789977000000000000000000, 3554169759080900000000000000000000, 3554169759080900000000000000000000,
    3554169759080900000000000000000000, 2051365137348400000000000000000000, 2051365137348400000000000000000000,
    2051365137348400000000000000000000, 2051365137348400000000000000000000, 2051365137348400000000000000000000,
    2051365137348400000000000000000000, 1793104692820780000000000000000000, 1793104692820780000000000000000000,
    1793104692820780000000000000000000, 642110511085378000000000000000000, 642110511085378000000000000000000,
    642110511085378000000000000000000, 642110511085378000000000000000000, 642110511085378000000000000000000,
    642110511085378000000000000000000, 1736795426018150000000000000000000, 1736795426018150000000000000000000,
    1736795426018150000000000000000000, 311240451653169000000000000000000, 311240451653169000000000000000000,
    311240451653169000000000000000000, 311240451653169000000000000000000, 311240451653169000000000000000000,
    311240451653169000000000000000000, 3289958891681760000000000000000000, 3289958891681760000000000000000000,
    3289958891681760000000000000000000]⟩

/-- `triangle_table_orig[25]` (xg_quad_data.py 2208-2453). -/
def xgTri_25 : XgTableRule :=
  ⟨[
    [m 2775557561562890000, m 18813084524047500000000000000000000],
    [16292609121369000000000000000000000, 9406542262023780000000000000000000],
    [m 16292609121369000000000000000000000, 9406542262023790000000000000000000],
    [m 36698647581551000000000000000000000, m 21187974060103700000000000000000000],
    [36698647581551000000000000000000000, m 21187974060103700000000000000000000],
    [0, 42375948120207400000000000000000000],
    [m 11734727840703900000000000000000000, m 57419989976687100000000000000000000],
    [55594533925210800000000000000000000, 18547422571797500000000000000000000],
    [m 43859806084506900000000000000000000, 38872567404889700000000000000000000],
    [11734727840703900000000000000000000, m 57419989976687100000000000000000000],
    [43859806084506900000000000000000000, 38872567404889600000000000000000000],
    [m 55594533925210800000000000000000000, 18547422571797500000000000000000000],
    [m 10152305258647500000000000000000000, m 5861436173975350000000000000000000],
    [10152305258647500000000000000000000, m 5861436173975330000000000000000000],
    [m 5551115123125780000, 11722872347950700000000000000000000],
    [m 64502404602567300000000000000000000, m 51333342611869600000000000000000000],
    [76707181064332900000000000000000000, m 30194049685070800000000000000000000],
    [m 12204776461765600000000000000000000, 81527392296940400000000000000000000],
    [64502404602567300000000000000000000, m 51333342611869600000000000000000000],
    [12204776461765700000000000000000000, 81527392296940400000000000000000000],
    [m 76707181064332900000000000000000000, m 30194049685070700000000000000000000],
    [m 88833122202267700000000000000000000, m 51287827016434300000000000000000000],
    [88833122202267800000000000000000000, m 51287827016434200000000000000000000],
    [0, 102575654032868000000000000000000000],
    [m 56643433847985900000000000000000000, m 44076408881714400000000000000000000],
    [66493006723147600000000000000000000, m 27016448229081900000000000000000000],
    [m 9849572875161740000000000000000000, 71092857110796300000000000000000000],
    [56643433847985900000000000000000000, m 44076408881714400000000000000000000],
    [9849572875161790000000000000000000, 71092857110796300000000000000000000],
    [m 66493006723147700000000000000000000, m 27016448229081900000000000000000000],
    [m 56467226927649900000000000000000000, m 32601368667070400000000000000000000],
    [56467226927649900000000000000000000, m 32601368667070300000000000000000000],
    [0, 65202737334140800000000000000000000],
    [m 39101899892658300000000000000000000, m 45810285023867800000000000000000000],
    [59223820531604500000000000000000000, m 10958096131344200000000000000000000],
    [m 20121920638946100000000000000000000, 56768381155212100000000000000000000],
    [39101899892658300000000000000000000, m 45810285023867800000000000000000000],
    [20121920638946200000000000000000000, 56768381155212100000000000000000000],
    [m 59223820531604500000000000000000000, m 10958096131344200000000000000000000],
    [m 20121812631674000000000000000000000, m 37643270868726600000000000000000000],
    [42660935169693000000000000000000000, 1395634525143030000000000000000000],
    [m 22539122538019000000000000000000000, 36247636343583700000000000000000000],
    [20121812631674000000000000000000000, m 37643270868726600000000000000000000],
    [22539122538019000000000000000000000, 36247636343583600000000000000000000],
    [m 42660935169693000000000000000000000, 1395634525143040000000000000000000],
    [m 20380660627345400000000000000000000, m 49366201811251800000000000000000000],
    [52942715170566200000000000000000000, 7032931056435510000000000000000000],
    [m 32562054543220700000000000000000000, 42333270754816400000000000000000000],
    [20380660627345400000000000000000000, m 49366201811251800000000000000000000],
    [32562054543220800000000000000000000, 42333270754816400000000000000000000],
    [m 52942715170566200000000000000000000, 7032931056435540000000000000000000],
    [m 79460555881537800000000000000000000, m 56500366630111800000000000000000000],
    [88661030765580300000000000000000000, m 40564676677188900000000000000000000],
    [m 9200474884042440000000000000000000, 97065043307300700000000000000000000],
    [79460555881537800000000000000000000, m 56500366630111800000000000000000000],
    [9200474884042500000000000000000000, 97065043307300700000000000000000000],
    [m 88661030765580300000000000000000000, m 40564676677188800000000000000000000],
    [m 19729425215640000000000000000000000, m 22454379891611900000000000000000000],
    [29310776020182400000000000000000000, m 5858993493003560000000000000000000],
    [m 9581350804542340000000000000000000, 28313373384615500000000000000000000],
    [19729425215640000000000000000000000, m 22454379891611900000000000000000000],
    [9581350804542370000000000000000000, 28313373384615500000000000000000000],
    [m 29310776020182400000000000000000000, m 5858993493003540000000000000000000],
    [0, m 31670885452454300000000000000000000],
    [27427791362172400000000000000000000, 15835442726227200000000000000000000],
    [m 27427791362172400000000000000000000, 15835442726227200000000000000000000],
    [m 63550414104481900000000000000000000, m 56481686939039300000000000000000000],
    [80689782790048700000000000000000000, m 26795429565982600000000000000000000],
    [m 17139368685566800000000000000000000, 83277116505022000000000000000000000],
    [63550414104481900000000000000000000, m 56481686939039300000000000000000000],
    [17139368685566800000000000000000000, 83277116505022000000000000000000000],
    [m 80689782790048800000000000000000000, m 26795429565982500000000000000000000],
    [m 26294851295802300000000000000000000, m 55498276727755700000000000000000000],
    [61210343160396300000000000000000000, 4977129152978840000000000000000000],
    [m 34915491864593900000000000000000000, 50521147574776900000000000000000000],
    [26294851295802300000000000000000000, m 55498276727755700000000000000000000],
    [34915491864594000000000000000000000, 50521147574776900000000000000000000],
    [m 61210343160396300000000000000000000, 4977129152978890000000000000000000],
    [m 78472621923700800000000000000000000, m 51207282533018500000000000000000000],
    [83583118494211500000000000000000000, m 42355642820987300000000000000000000],
    [m 5110496570510700000000000000000000, 93562925354005800000000000000000000],
    [78472621923700800000000000000000000, m 51207282533018500000000000000000000],
    [5110496570510770000000000000000000, 93562925354005800000000000000000000],
    [m 83583118494211600000000000000000000, m 42355642820987300000000000000000000],
    [m 39574768562949900000000000000000000, m 34004771405377200000000000000000000],
    [49236380168414300000000000000000000, m 17270369221715700000000000000000000],
    [m 9661611605464420000000000000000000, 51275140627093000000000000000000000],
    [39574768562949900000000000000000000, m 34004771405377200000000000000000000],
    [9661611605464460000000000000000000, 51275140627093000000000000000000000],
    [m 49236380168414300000000000000000000, m 17270369221715700000000000000000000],
    [4163336342344340000, m 44643739612787700000000000000000000],
    [38662612624611800000000000000000000, 22321869806393900000000000000000000],
    [m 38662612624611800000000000000000000, 22321869806393900000000000000000000],
    [m 46226912033443600000000000000000000, m 53484563802011200000000000000000000],
    [69432446979593100000000000000000000, m 13291398258465100000000000000000000],
    [m 23205534946149500000000000000000000, 66775962060476300000000000000000000],
    [46226912033443600000000000000000000, m 53484563802011200000000000000000000],
    [23205534946149600000000000000000000, 66775962060476300000000000000000000],
    [m 69432446979593100000000000000000000, m 13291398258465100000000000000000000],
    [m 72115089489769000000000000000000000, m 41635666329552100000000000000000000],
    [72115089489769000000000000000000000, m 41635666329552100000000000000000000],
    [0, 83271332659104300000000000000000000],
    [m 91067353351473800000000000000000000, m 56489885339348600000000000000000000],
    [94455352436482900000000000000000000, m 50621698788115900000000000000000000],
    [m 3387999085009130000000000000000000, 107111584127465000000000000000000000],
    [91067353351473800000000000000000000, m 56489885339348600000000000000000000],
    [3387999085009200000000000000000000, 107111584127465000000000000000000000],
    [m 94455352436483000000000000000000000, m 50621698788115900000000000000000000],
    [m 97649396715218900000000000000000000, m 56377905479736200000000000000000000],
    [97649396715218900000000000000000000, m 56377905479736200000000000000000000],
    [m 11102230246251600000, 112755810959472000000000000000000000],
    [0, m 53938153192727400000000000000000000],
    [46711810898118600000000000000000000, 26969076596363700000000000000000000],
    [m 46711810898118600000000000000000000, 26969076596363800000000000000000000],
    [m 44027615838398000000000000000000000, m 57580620769858400000000000000000000],
    [71880088271574300000000000000000000, m 9338723399185590000000000000000000],
    [m 27852472433176200000000000000000000, 66919344169044100000000000000000000],
    [44027615838398000000000000000000000, m 57580620769858400000000000000000000],
    [27852472433176300000000000000000000, 66919344169044100000000000000000000],
    [m 71880088271574300000000000000000000, m 9338723399185560000000000000000000]],
   [2371151842968300000000000000000000, 2371151842968300000000000000000000, 2371151842968300000000000000000000,
    2006972864544530000000000000000000, 2006972864544530000000000000000000, 2006972864544530000000000000000000,
    290086957833326000000000000000000, 290086957833326000000000000000000, 290086957833326000000000000000000,
    290086957833326000000000000000000, 290086957833326000000000000000000, 290086957833326000000000000000000,
    3120746912786790000000000000000000, 3120746912786790000000000000000000, 3120746912786790000000000000000000,
    1093180060973750000000000000000000, 1093180060973750000000000000000000, 1093180060973750000000000000000000,
    1093180060973750000000000000000000, 1093180060973750000000000000000000, 1093180060973750000000000000000000,
    588429226277701000000000000000000, 588429226277701000000000000000000, 588429226277701000000000000000000,
    1648050078994710000000000000000000, 1648050078994710000000000000000000, 1648050078994710000000000000000000,
    1648050078994710000000000000000000, 1648050078994710000000000000000000, 1648050078994710000000000000000000,
    1990390665045400000000000000000000, 1990390665045400000000000000000000, 1990390665045400000000000000000000,
    1885232274631890000000000000000000, 1885232274631890000000000000000000, 1885232274631890000000000000000000,
    1885232274631890000000000000000000, 1885232274631890000000000000000000, 1885232274631890000000000000000000,
    2743629497243000000000000000000000, 2743629497243000000000000000000000, 2743629497243000000000000000000000,
    2743629497243000000000000000000000, 2743629497243000000000000000000000, 2743629497243000000000000000000000,
    1842931624582670000000000000000000, 1842931624582670000000000000000000, 1842931624582670000000000000000000,
    1842931624582670000000000000000000, 1842931624582670000000000000000000, 1842931624582670000000000000000000,
    440853977416791000000000000000000, 440853977416791000000000000000000, 440853977416791000000000000000000,
    440853977416791000000000000000000, 440853977416791000000000000000000, 440853977416791000000000000000000,
    3102764794311100000000000000000000, 3102764794311100000000000000000000, 3102764794311100000000000000000000,
    3102764794311100000000000000000000, 3102764794311100000000000000000000, 3102764794311100000000000000000000,
    2755919757306370000000000000000000, 2755919757306370000000000000000000, 2755919757306370000000000000000000,
    565296295198798000000000000000000, 565296295198798000000000000000000, 565296295198798000000000000000000,
    565296295198798000000000000000000, 565296295198798000000000000000000, 565296295198798000000000000000000,
    944771079024629000000000000000000, 944771079024629000000000000000000, 944771079024629000000000000000000,
    944771079024629000000000000000000, 944771079024629000000000000000000, 944771079024629000000000000000000,
    913234513396874000000000000000000, 913234513396874000000000000000000, 913234513396874000000000000000000,
    913234513396874000000000000000000, 913234513396874000000000000000000, 913234513396874000000000000000000,
    2379852114957570000000000000000000, 2379852114957570000000000000000000, 2379852114957570000000000000000000,
    2379852114957570000000000000000000, 2379852114957570000000000000000000, 2379852114957570000000000000000000,
    2364989836532560000000000000000000, 2364989836532560000000000000000000, 2364989836532560000000000000000000,
    1266881007641920000000000000000000, 1266881007641920000000000000000000, 1266881007641920000000000000000000,
    1266881007641920000000000000000000, 1266881007641920000000000000000000, 1266881007641920000000000000000000,
    1590511297883200000000000000000000, 1590511297883200000000000000000000, 1590511297883200000000000000000000,
    293233367069114000000000000000000, 293233367069114000000000000000000, 293233367069114000000000000000000,
    293233367069114000000000000000000, 293233367069114000000000000000000, 293233367069114000000000000000000,
    139691679620526000000000000000000, 139691679620526000000000000000000, 139691679620526000000000000000000,
    1462558588285280000000000000000000, 1462558588285280000000000000000000, 1462558588285280000000000000000000,
    261834480579825000000000000000000, 261834480579825000000000000000000, 261834480579825000000000000000000,
    261834480579825000000000000000000, 261834480579825000000000000000000, 261834480579825000000000000000000]⟩

/-- `triangle_table_orig[26]` (xg_quad_data.py 2454-2719). -/
def xgTri_26 : XgTableRule :=
  ⟨[
    [m 83506202914393000000000000000000000, m 56904567277510200000000000000000000],
    [91033902310881000000000000000000000, m 43866209458687400000000000000000000],
    [m 7527699396487940000000000000000000, 100770776736198000000000000000000000],
    [83506202914393000000000000000000000, m 56904567277510200000000000000000000],
    [7527699396488010000000000000000000, 100770776736198000000000000000000000],
    [m 91033902310881000000000000000000000, m 43866209458687400000000000000000000],
    [m 90755758065010300000000000000000000, m 52685198805474700000000000000000000],
    [91004599601479800000000000000000000, m 52254192621276000000000000000000000],
    [m 248841536469457000000000000000000, 104939391426751000000000000000000000],
    [90755758065010300000000000000000000, m 52685198805474700000000000000000000],
    [248841536469513000000000000000000, 104939391426751000000000000000000000],
    [m 91004599601479800000000000000000000, m 52254192621276000000000000000000000],
    [m 79978863227060100000000000000000000, m 46175818213623500000000000000000000],
    [79978863227060100000000000000000000, m 46175818213623400000000000000000000],
    [0, 92351636427246900000000000000000000],
    [m 82303054094670400000000000000000000, m 53195431906859000000000000000000000],
    [87220122443960400000000000000000000, m 44678819701599900000000000000000000],
    [m 4917068349289970000000000000000000, 97874251608459000000000000000000000],
    [82303054094670400000000000000000000, m 53195431906859000000000000000000000],
    [4917068349290020000000000000000000, 97874251608459000000000000000000000],
    [m 87220122443960400000000000000000000, m 44678819701599900000000000000000000],
    [m 92810181341106000000000000000000000, m 56748083945007900000000000000000000],
    [95550372983021700000000000000000000, m 52001932798734400000000000000000000],
    [m 2740191641915670000000000000000000, 108750016743742000000000000000000000],
    [92810181341106000000000000000000000, m 56748083945007900000000000000000000],
    [2740191641915720000000000000000000, 108750016743742000000000000000000000],
    [m 95550372983021800000000000000000000, m 52001932798734300000000000000000000],
    [m 98097965052376900000000000000000000, m 56636886529944400000000000000000000],
    [98097965052377000000000000000000000, m 56636886529944300000000000000000000],
    [0, 113273773059889000000000000000000000],
    [m 69330289802874500000000000000000000, m 50508092946854800000000000000000000],
    [78406436490119100000000000000000000, m 34787745747599100000000000000000000],
    [m 9076146687244610000000000000000000, 85295838694454000000000000000000000],
    [69330289802874400000000000000000000, m 50508092946854800000000000000000000],
    [9076146687244660000000000000000000, 85295838694453900000000000000000000],
    [m 78406436490119100000000000000000000, m 34787745747599100000000000000000000],
    [m 68258007506466800000000000000000000, m 40406610454040400000000000000000000],
    [69122154887254300000000000000000000, m 38909863285289000000000000000000000],
    [m 864147380787439000000000000000000, 79316473739329400000000000000000000],
    [68258007506466800000000000000000000, m 40406610454040400000000000000000000],
    [864147380787483000000000000000000, 79316473739329400000000000000000000],
    [m 69122154887254300000000000000000000, m 38909863285288900000000000000000000],
    [4857225732735060000, m 55571014035628000000000000000000000],
    [48125909868915400000000000000000000, 27785507017814000000000000000000000],
    [m 48125909868915400000000000000000000, 27785507017814000000000000000000000],
    [m 37884097121369800000000000000000000, m 36843999644558700000000000000000000],
    [50849888229897600000000000000000000, m 14386590684263800000000000000000000],
    [m 12965791108527700000000000000000000, 51230590328822600000000000000000000],
    [37884097121369800000000000000000000, m 36843999644558700000000000000000000],
    [12965791108527800000000000000000000, 51230590328822500000000000000000000],
    [m 50849888229897600000000000000000000, m 14386590684263800000000000000000000],
    [m 19241793339756900000000000000000000, m 52618905199929300000000000000000000],
    [55190205292342300000000000000000000, 9645570753364970000000000000000000],
    [m 35948411952585400000000000000000000, 42973334446564400000000000000000000],
    [19241793339756900000000000000000000, m 52618905199929300000000000000000000],
    [35948411952585400000000000000000000, 42973334446564300000000000000000000],
    [m 55190205292342300000000000000000000, 9645570753365020000000000000000000],
    [m 19560294198083200000000000000000000, m 42600632803846000000000000000000000],
    [46673377324465000000000000000000000, 4360604720885550000000000000000000],
    [m 27113083126381700000000000000000000, 38240028082960500000000000000000000],
    [19560294198083200000000000000000000, m 42600632803846000000000000000000000],
    [27113083126381700000000000000000000, 38240028082960500000000000000000000],
    [m 46673377324464900000000000000000000, 4360604720885590000000000000000000],
    [m 5551115123125780000, m 19209885829653000000000000000000000],
    [16636249132278200000000000000000000, 9604942914826520000000000000000000],
    [m 16636249132278200000000000000000000, 9604942914826530000000000000000000],
    [m 54994973953459700000000000000000000, m 44517417854698800000000000000000000],
    [66050701749786000000000000000000000, m 25368335596810300000000000000000000],
    [m 11055727796326200000000000000000000, 69885753451509100000000000000000000],
    [54994973953459700000000000000000000, m 44517417854698800000000000000000000],
    [11055727796326200000000000000000000, 69885753451509100000000000000000000],
    [m 66050701749786000000000000000000000, m 25368335596810200000000000000000000],
    [m 18055869721276400000000000000000000, m 10424561244031700000000000000000000],
    [18055869721276400000000000000000000, m 10424561244031700000000000000000000],
    [0, 20849122488063500000000000000000000],
    [m 16853064985401700000000000000000000, m 57378652101945700000000000000000000],
    [58117902847895200000000000000000000, 14094143641985000000000000000000000],
    [m 41264837862493500000000000000000000, 43284508459960800000000000000000000],
    [16853064985401700000000000000000000, m 57378652101945700000000000000000000],
    [41264837862493600000000000000000000, 43284508459960700000000000000000000],
    [m 58117902847895200000000000000000000, 14094143641985100000000000000000000],
    [m 19069066073587400000000000000000000, m 28207244982265000000000000000000000],
    [33962723762206300000000000000000000, m 2410673155038100000000000000000000],
    [m 14893657688619000000000000000000000, 30617918137303200000000000000000000],
    [19069066073587400000000000000000000, m 28207244982265000000000000000000000],
    [14893657688619000000000000000000000, 30617918137303200000000000000000000],
    [m 33962723762206300000000000000000000, m 2410673155038090000000000000000000],
    [m 70452513950898800000000000000000000, m 56349454153453600000000000000000000],
    [84026315761726700000000000000000000, m 32838939765229100000000000000000000],
    [m 13573801810827900000000000000000000, 89188393918682800000000000000000000],
    [70452513950898800000000000000000000, m 56349454153453600000000000000000000],
    [13573801810828000000000000000000000, 89188393918682700000000000000000000],
    [m 84026315761726800000000000000000000, m 32838939765229100000000000000000000],
    [2775557561562890000, m 47976154988972600000000000000000000],
    [41548568996349800000000000000000000, 23988077494486300000000000000000000],
    [m 41548568996349800000000000000000000, 23988077494486300000000000000000000],
    [m 53739570890636700000000000000000000, m 31026555719844100000000000000000000],
    [53739570890636700000000000000000000, m 31026555719844100000000000000000000],
    [0, 62053111439688200000000000000000000],
    [m 38125784859592100000000000000000000, m 48872837635331600000000000000000000],
    [61388011377025400000000000000000000, m 8581479409961130000000000000000000],
    [m 23262226517433200000000000000000000, 57454317045292700000000000000000000],
    [38125784859592100000000000000000000, m 48872837635331600000000000000000000],
    [23262226517433300000000000000000000, 57454317045292700000000000000000000],
    [m 61388011377025400000000000000000000, m 8581479409961080000000000000000000],
    [m 36387051009338300000000000000000000, m 21008073695258100000000000000000000],
    [36387051009338300000000000000000000, m 21008073695258100000000000000000000],
    [0, 42016147390516300000000000000000000],
    [0, m 35559725708670200000000000000000000],
    [30795625815315000000000000000000000, 17779862854335100000000000000000000],
    [m 30795625815314900000000000000000000, 17779862854335100000000000000000000],
    [m 54412206780215000000000000000000000, m 53788618565697900000000000000000000],
    [73788413502473100000000000000000000, m 20228044064789100000000000000000000],
    [m 19376206722258100000000000000000000, 74016662630487100000000000000000000],
    [54412206780215000000000000000000000, m 53788618565697900000000000000000000],
    [19376206722258200000000000000000000, 74016662630487000000000000000000000],
    [m 73788413502473200000000000000000000, m 20228044064789100000000000000000000],
    [m 5551115123125780000, 22204460492503100000],
    [m 36472969593802600000000000000000000, m 56094203589043600000000000000000000],
    [66815490110069300000000000000000000, m 3539416425168710000000000000000000],
    [m 30342520516266600000000000000000000, 59633620014212300000000000000000000],
    [36472969593802600000000000000000000, m 56094203589043600000000000000000000],
    [30342520516266700000000000000000000, 59633620014212300000000000000000000],
    [m 66815490110069300000000000000000000, m 3539416425168650000000000000000000],
    [m 54666639745238900000000000000000000, m 57654658422239300000000000000000000],
    [77263718712793100000000000000000000, m 18515369547789400000000000000000000],
    [m 22597078967554200000000000000000000, 76170027970028700000000000000000000],
    [54666639745238900000000000000000000, m 57654658422239300000000000000000000],
    [22597078967554200000000000000000000, 76170027970028700000000000000000000],
    [m 77263718712793100000000000000000000, m 18515369547789300000000000000000000]],
   [242231886394243000000000000000000, 242231886394243000000000000000000, 242231886394243000000000000000000,
    242231886394243000000000000000000, 242231886394243000000000000000000, 242231886394243000000000000000000,
    208809943989292000000000000000000, 208809943989292000000000000000000, 208809943989292000000000000000000,
    208809943989292000000000000000000, 208809943989292000000000000000000, 208809943989292000000000000000000,
    851099508425468000000000000000000, 851099508425468000000000000000000, 851099508425468000000000000000000,
    572537138955069000000000000000000, 572537138955069000000000000000000, 572537138955069000000000000000000,
    572537138955069000000000000000000, 572537138955069000000000000000000, 572537138955069000000000000000000,
    188050028022099000000000000000000, 188050028022099000000000000000000, 188050028022099000000000000000000,
    188050028022099000000000000000000, 188050028022099000000000000000000, 188050028022099000000000000000000,
    91270957129977400000000000000000, 91270957129977400000000000000000, 91270957129977400000000000000000,
    1109135691354400000000000000000000, 1109135691354400000000000000000000, 1109135691354400000000000000000000,
    1109135691354400000000000000000000, 1109135691354400000000000000000000, 1109135691354400000000000000000000,
    799204802113433000000000000000000, 799204802113433000000000000000000, 799204802113433000000000000000000,
    799204802113433000000000000000000, 799204802113433000000000000000000, 799204802113433000000000000000000,
    918360909281208000000000000000000, 918360909281208000000000000000000, 918360909281208000000000000000000,
    2490597821627750000000000000000000, 2490597821627750000000000000000000, 2490597821627750000000000000000000,
    2490597821627750000000000000000000, 2490597821627750000000000000000000, 2490597821627750000000000000000000,
    1430633647868620000000000000000000, 1430633647868620000000000000000000, 1430633647868620000000000000000000,
    1430633647868620000000000000000000, 1430633647868620000000000000000000, 1430633647868620000000000000000000,
    2377752111444310000000000000000000, 2377752111444310000000000000000000, 2377752111444310000000000000000000,
    2377752111444310000000000000000000, 2377752111444310000000000000000000, 2377752111444310000000000000000000,
    3371968261919830000000000000000000, 3371968261919830000000000000000000, 3371968261919830000000000000000000,
    1800925033388930000000000000000000, 1800925033388930000000000000000000, 1800925033388930000000000000000000,
    1800925033388930000000000000000000, 1800925033388930000000000000000000, 1800925033388930000000000000000000,
    3383673302979140000000000000000000, 3383673302979140000000000000000000, 3383673302979140000000000000000000,
    321667377691673000000000000000000, 321667377691673000000000000000000, 321667377691673000000000000000000,
    321667377691673000000000000000000, 321667377691673000000000000000000, 321667377691673000000000000000000,
    3048265172786280000000000000000000, 3048265172786280000000000000000000, 3048265172786280000000000000000000,
    3048265172786280000000000000000000, 3048265172786280000000000000000000, 3048265172786280000000000000000000,
    513858193366859000000000000000000, 513858193366859000000000000000000, 513858193366859000000000000000000,
    513858193366859000000000000000000, 513858193366859000000000000000000, 513858193366859000000000000000000,
    1996795403046820000000000000000000, 1996795403046820000000000000000000, 1996795403046820000000000000000000,
    2295878283238780000000000000000000, 2295878283238780000000000000000000, 2295878283238780000000000000000000,
    1750605303479830000000000000000000, 1750605303479830000000000000000000, 1750605303479830000000000000000000,
    1750605303479830000000000000000000, 1750605303479830000000000000000000, 1750605303479830000000000000000000,
    2934846657699030000000000000000000, 2934846657699030000000000000000000, 2934846657699030000000000000000000,
    2842711171785630000000000000000000, 2842711171785630000000000000000000, 2842711171785630000000000000000000,
    1085881167922600000000000000000000, 1085881167922600000000000000000000, 1085881167922600000000000000000000,
    1085881167922600000000000000000000, 1085881167922600000000000000000000, 1085881167922600000000000000000000,
    3548394048205520000000000000000000, 795281241289347000000000000000000, 795281241289347000000000000000000,
    795281241289347000000000000000000, 795281241289347000000000000000000, 795281241289347000000000000000000,
    795281241289347000000000000000000, 197375661999378000000000000000000, 197375661999378000000000000000000,
    197375661999378000000000000000000, 197375661999378000000000000000000, 197375661999378000000000000000000,
    197375661999378000000000000000000]⟩

/-- `triangle_table_orig[27]` (xg_quad_data.py 2720-3007). -/
def xgTri_27 : XgTableRule :=
  ⟨[
    [m 5551115123125780000, m 16413151730008800000000000000000000],
    [14214206354356200000000000000000000, 8206575865004440000000000000000000],
    [m 14214206354356100000000000000000000, 8206575865004440000000000000000000],
    [m 4163336342344340000, m 39260212186133900000000000000000000],
    [34000341111159400000000000000000000, 19630106093067000000000000000000000],
    [m 34000341111159400000000000000000000, 19630106093067000000000000000000000],
    [0, m 28685548406622900000000000000000000],
    [24842413641623700000000000000000000, 14342774203311500000000000000000000],
    [m 24842413641623600000000000000000000, 14342774203311500000000000000000000],
    [m 75908605663468400000000000000000000, m 43825853913612700000000000000000000],
    [75908605663468500000000000000000000, m 43825853913612600000000000000000000],
    [0, 87651707827225400000000000000000000],
    [m 39518500208573400000000000000000000, m 52412330045467300000000000000000000],
    [65149659395195800000000000000000000, m 8017860077351550000000000000000000],
    [m 25631159186622400000000000000000000, 60430190122818900000000000000000000],
    [39518500208573400000000000000000000, m 52412330045467300000000000000000000],
    [25631159186622400000000000000000000, 60430190122818900000000000000000000],
    [m 65149659395195800000000000000000000, m 8017860077351490000000000000000000],
    [m 18067167650541300000000000000000000, m 35365133466807500000000000000000000],
    [39660687815753200000000000000000000, 2035940573602550000000000000000000],
    [m 21593520165211900000000000000000000, 33329192893205000000000000000000000],
    [18067167650541300000000000000000000, m 35365133466807500000000000000000000],
    [21593520165211900000000000000000000, 33329192893205000000000000000000000],
    [m 39660687815753200000000000000000000, 2035940573602590000000000000000000],
    [m 29979877999038700000000000000000000, m 17308890633017100000000000000000000],
    [29979877999038700000000000000000000, m 17308890633017100000000000000000000],
    [0, 34617781266034300000000000000000000],
    [m 22010619980742600000000000000000000, m 52879484695937700000000000000000000],
    [56800287076083800000000000000000000, 7377986291600390000000000000000000],
    [m 34789667095341200000000000000000000, 45501498404337400000000000000000000],
    [22010619980742700000000000000000000, m 52879484695937700000000000000000000],
    [34789667095341200000000000000000000, 45501498404337400000000000000000000],
    [m 56800287076083800000000000000000000, 7377986291600420000000000000000000],
    [m 9650360450047260000000000000000000, m 5571638203611680000000000000000000],
    [9650360450047260000000000000000000, m 5571638203611670000000000000000000],
    [0, 11143276407223400000000000000000000],
    [m 47566010093530000000000000000000000, m 27462248731776000000000000000000000],
    [47566010093530000000000000000000000, m 27462248731776000000000000000000000],
    [0, 54924497463552000000000000000000000],
    [m 15697790099606700000000000000000000, m 21512488834550300000000000000000000],
    [26479256879153100000000000000000000, m 2838440592260090000000000000000000],
    [m 10781466779546300000000000000000000, 24350929426810500000000000000000000],
    [15697790099606700000000000000000000, m 21512488834550300000000000000000000],
    [10781466779546400000000000000000000, 24350929426810500000000000000000000],
    [m 26479256879153100000000000000000000, m 2838440592260070000000000000000000],
    [m 11950430106482200000000000000000000, m 46296751685726500000000000000000000],
    [46069378125780300000000000000000000, 12798999784499400000000000000000000],
    [m 34118948019298100000000000000000000, 33497751901227200000000000000000000],
    [11950430106482200000000000000000000, m 46296751685726500000000000000000000],
    [34118948019298100000000000000000000, 33497751901227200000000000000000000],
    [m 46069378125780300000000000000000000, 12798999784499400000000000000000000],
    [m 53186222626517000000000000000000000, m 50628322547494500000000000000000000],
    [70438524790381300000000000000000000, m 20746458652151200000000000000000000],
    [m 17252302163864200000000000000000000, 71374781199645800000000000000000000],
    [53186222626517000000000000000000000, m 50628322547494500000000000000000000],
    [17252302163864200000000000000000000, 71374781199645800000000000000000000],
    [m 70438524790381200000000000000000000, m 20746458652151200000000000000000000],
    [m 33699460349041600000000000000000000, m 56817102280382700000000000000000000],
    [66054784118750900000000000000000000, m 776037615905056000000000000000000],
    [m 32355323769709300000000000000000000, 57593139896287800000000000000000000],
    [33699460349041600000000000000000000, m 56817102280382700000000000000000000],
    [32355323769709400000000000000000000, 57593139896287800000000000000000000],
    [m 66054784118750900000000000000000000, m 776037615905001000000000000000000],
    [1040834085586080000, m 52734615007802200000000000000000000],
    [45669516255548800000000000000000000, 26367307503901100000000000000000000],
    [m 45669516255548800000000000000000000, 26367307503901100000000000000000000],
    [m 65833539230075200000000000000000000, m 46810290449456400000000000000000000],
    [73455670302795000000000000000000000, m 33608372169556300000000000000000000],
    [m 7622131072719750000000000000000000, 80418662619012800000000000000000000],
    [65833539230075200000000000000000000, m 46810290449456400000000000000000000],
    [7622131072719810000000000000000000, 80418662619012800000000000000000000],
    [m 73455670302795000000000000000000000, m 33608372169556300000000000000000000],
    [m 90228543945945500000000000000000000, m 52093474135779700000000000000000000],
    [90228543945945500000000000000000000, m 52093474135779600000000000000000000],
    [m 11102230246251600000, 104186948271559000000000000000000000],
    [m 34054463966780400000000000000000000, m 31933904292428500000000000000000000],
    [44682804342654200000000000000000000, m 13525078761279400000000000000000000],
    [m 10628340375873800000000000000000000, 45458983053707900000000000000000000],
    [34054463966780400000000000000000000, m 31933904292428500000000000000000000],
    [10628340375873800000000000000000000, 45458983053707900000000000000000000],
    [m 44682804342654200000000000000000000, m 13525078761279300000000000000000000],
    [m 48855088636612100000000000000000000, m 41333011108690500000000000000000000],
    [60222981953336500000000000000000000, m 21643242309101300000000000000000000],
    [m 11367893316724300000000000000000000, 62976253417791900000000000000000000],
    [48855088636612100000000000000000000, m 41333011108690500000000000000000000],
    [11367893316724400000000000000000000, 62976253417791900000000000000000000],
    [m 60222981953336500000000000000000000, m 21643242309101200000000000000000000],
    [m 11439817909230900000000000000000000, m 56768418377653100000000000000000000],
    [54882801402326400000000000000000000, 18477036264764400000000000000000000],
    [m 43442983493095500000000000000000000, 38291382112888800000000000000000000],
    [11439817909230900000000000000000000, m 56768418377653100000000000000000000],
    [43442983493095500000000000000000000, 38291382112888700000000000000000000],
    [m 54882801402326400000000000000000000, 18477036264764500000000000000000000],
    [m 61728729428596700000000000000000000, m 35639098552333900000000000000000000],
    [61728729428596700000000000000000000, m 35639098552333900000000000000000000],
    [0, 71278197104667800000000000000000000],
    [m 32048121511116200000000000000000000, m 44731325970043800000000000000000000],
    [54762525390578600000000000000000000, m 5388824387175180000000000000000000],
    [m 22714403879462500000000000000000000, 50120150357219100000000000000000000],
    [32048121511116200000000000000000000, m 44731325970043800000000000000000000],
    [22714403879462500000000000000000000, 50120150357219100000000000000000000],
    [m 54762525390578600000000000000000000, m 5388824387175160000000000000000000],
    [m 82912386550847400000000000000000000, m 56525617363432300000000000000000000],
    [90408813876754800000000000000000000, m 43541424359712900000000000000000000],
    [m 7496427325907430000000000000000000, 100067041723145000000000000000000000],
    [82912386550847400000000000000000000, m 56525617363432300000000000000000000],
    [7496427325907500000000000000000000, 100067041723145000000000000000000000],
    [m 90408813876754800000000000000000000, m 43541424359712800000000000000000000],
    [m 92517649077195100000000000000000000, m 56679589738285800000000000000000000],
    [95344789128032800000000000000000000, m 51782839530122000000000000000000000],
    [m 2827140050837680000000000000000000, 108462429268408000000000000000000000],
    [92517649077195100000000000000000000, m 56679589738285800000000000000000000],
    [2827140050837750000000000000000000, 108462429268408000000000000000000000],
    [m 95344789128032900000000000000000000, m 51782839530122000000000000000000000],
    [m 80474142977810000000000000000000000, m 51666886935781800000000000000000000],
    [84981908109750400000000000000000000, m 43859208698673700000000000000000000],
    [m 4507765131940330000000000000000000, 95526095634455500000000000000000000],
    [80474142977810000000000000000000000, m 51666886935781800000000000000000000],
    [4507765131940400000000000000000000, 95526095634455500000000000000000000],
    [m 84981908109750400000000000000000000, m 43859208698673600000000000000000000],
    [m 98008234245712300000000000000000000, m 56585080424562000000000000000000000],
    [98008234245712400000000000000000000, m 56585080424561900000000000000000000],
    [0, 113170160849124000000000000000000000],
    [m 68622113488411600000000000000000000, m 54383161967864200000000000000000000],
    [81408256546500000000000000000000000, m 32236912558411100000000000000000000],
    [m 12786143058088300000000000000000000, 86620074526275400000000000000000000],
    [68622113488411600000000000000000000, m 54383161967864200000000000000000000],
    [12786143058088400000000000000000000, 86620074526275400000000000000000000],
    [m 81408256546500000000000000000000000, m 32236912558411100000000000000000000],
    [m 53322822093527300000000000000000000, m 56465005418958400000000000000000000],
    [75561540164407600000000000000000000, m 17946415824993600000000000000000000],
    [m 22238718070880200000000000000000000, 74411421243952000000000000000000000],
    [53322822093527300000000000000000000, m 56465005418958400000000000000000000],
    [22238718070880300000000000000000000, 74411421243952000000000000000000000],
    [m 75561540164407600000000000000000000, m 17946415824993500000000000000000000],
    [m 70419862931679700000000000000000000, m 57650099541315200000000000000000000],
    [85136382199320400000000000000000000, m 32160340459195200000000000000000000],
    [m 14716519267640600000000000000000000, 89810440000510400000000000000000000],
    [70419862931679700000000000000000000, m 57650099541315200000000000000000000],
    [14716519267640700000000000000000000, 89810440000510400000000000000000000],
    [m 85136382199320500000000000000000000, m 32160340459195100000000000000000000]],
   [1655855288831600000000000000000000, 1655855288831600000000000000000000, 1655855288831600000000000000000000,
    1629887489731740000000000000000000, 1629887489731740000000000000000000, 1629887489731740000000000000000000,
    2087160544856800000000000000000000, 2087160544856800000000000000000000, 2087160544856800000000000000000000,
    902852592433767000000000000000000, 902852592433767000000000000000000, 902852592433767000000000000000000,
    958134970913100000000000000000000, 958134970913100000000000000000000, 958134970913100000000000000000000,
    958134970913100000000000000000000, 958134970913100000000000000000000, 958134970913100000000000000000000,
    2175011751819610000000000000000000, 2175011751819610000000000000000000, 2175011751819610000000000000000000,
    2175011751819610000000000000000000, 2175011751819610000000000000000000, 2175011751819610000000000000000000,
    2333300271420640000000000000000000, 2333300271420640000000000000000000, 2333300271420640000000000000000000,
    1107672939761630000000000000000000, 1107672939761630000000000000000000, 1107672939761630000000000000000000,
    1107672939761630000000000000000000, 1107672939761630000000000000000000, 1107672939761630000000000000000000,
    2727627684917620000000000000000000, 2727627684917620000000000000000000, 2727627684917620000000000000000000,
    1954176372089430000000000000000000, 1954176372089430000000000000000000, 1954176372089430000000000000000000,
    2375575792110030000000000000000000, 2375575792110030000000000000000000, 2375575792110030000000000000000000,
    2375575792110030000000000000000000, 2375575792110030000000000000000000, 2375575792110030000000000000000000,
    1708195292405830000000000000000000, 1708195292405830000000000000000000, 1708195292405830000000000000000000,
    1708195292405830000000000000000000, 1708195292405830000000000000000000, 1708195292405830000000000000000000,
    1118103385314170000000000000000000, 1118103385314170000000000000000000, 1118103385314170000000000000000000,
    1118103385314170000000000000000000, 1118103385314170000000000000000000, 1118103385314170000000000000000000,
    507114401437558000000000000000000, 507114401437558000000000000000000, 507114401437558000000000000000000,
    507114401437558000000000000000000, 507114401437558000000000000000000, 507114401437558000000000000000000,
    1232741680862890000000000000000000, 1232741680862890000000000000000000, 1232741680862890000000000000000000,
    1235062264800820000000000000000000, 1235062264800820000000000000000000, 1235062264800820000000000000000000,
    1235062264800820000000000000000000, 1235062264800820000000000000000000, 1235062264800820000000000000000000,
    481049317401805000000000000000000, 481049317401805000000000000000000, 481049317401805000000000000000000,
    2138677989739680000000000000000000, 2138677989739680000000000000000000, 2138677989739680000000000000000000,
    2138677989739680000000000000000000, 2138677989739680000000000000000000, 2138677989739680000000000000000000,
    1852203274214460000000000000000000, 1852203274214460000000000000000000, 1852203274214460000000000000000000,
    1852203274214460000000000000000000, 1852203274214460000000000000000000, 1852203274214460000000000000000000,
    561611862100713000000000000000000, 561611862100713000000000000000000, 561611862100713000000000000000000,
    561611862100713000000000000000000, 561611862100713000000000000000000, 561611862100713000000000000000000,
    1687579523690780000000000000000000, 1687579523690780000000000000000000, 1687579523690780000000000000000000,
    1893237377070180000000000000000000, 1893237377070180000000000000000000, 1893237377070180000000000000000000,
    1893237377070180000000000000000000, 1893237377070180000000000000000000, 1893237377070180000000000000000000,
    349029563997285000000000000000000, 349029563997285000000000000000000, 349029563997285000000000000000000,
    349029563997285000000000000000000, 349029563997285000000000000000000, 349029563997285000000000000000000,
    207287269503306000000000000000000, 207287269503306000000000000000000, 207287269503306000000000000000000,
    207287269503306000000000000000000, 207287269503306000000000000000000, 207287269503306000000000000000000,
    749485756962467000000000000000000, 749485756962467000000000000000000, 749485756962467000000000000000000,
    749485756962467000000000000000000, 749485756962467000000000000000000, 749485756962467000000000000000000,
    99669548345097000000000000000000, 99669548345097000000000000000000, 99669548345097000000000000000000,
    800620932985643000000000000000000, 800620932985643000000000000000000, 800620932985643000000000000000000,
    800620932985643000000000000000000, 800620932985643000000000000000000, 800620932985643000000000000000000,
    587901992939438000000000000000000, 587901992939438000000000000000000, 587901992939438000000000000000000,
    587901992939438000000000000000000, 587901992939438000000000000000000, 587901992939438000000000000000000,
    146636484114254000000000000000000, 146636484114254000000000000000000, 146636484114254000000000000000000,
    146636484114254000000000000000000, 146636484114254000000000000000000, 146636484114254000000000000000000]⟩

/-- `triangle_table_orig[28]` (xg_quad_data.py 3008-3313). -/
def xgTri_28 : XgTableRule :=
  ⟨[
    [m 8805123245054760000000000000000000, m 5083640275780180000000000000000000],
    [8805123245054750000000000000000000, m 5083640275780180000000000000000000],
    [0, 10167280551560400000000000000000000],
    [m 88746481351385100000000000000000000, m 54006894012803600000000000000000000],
    [91144582870274100000000000000000000, m 49853260340379700000000000000000000],
    [m 2398101518889000000000000000000000, 103860154353183000000000000000000000],
    [88746481351385100000000000000000000, m 54006894012803600000000000000000000],
    [2398101518889060000000000000000000, 103860154353183000000000000000000000],
    [m 91144582870274200000000000000000000, m 49853260340379600000000000000000000],
    [m 52414142110826600000000000000000000, m 49235910875172700000000000000000000],
    [68846620651779400000000000000000000, m 20774023147957200000000000000000000],
    [m 16432478540952800000000000000000000, 70009934023130000000000000000000000],
    [52414142110826600000000000000000000, m 49235910875172700000000000000000000],
    [16432478540952800000000000000000000, 70009934023129900000000000000000000],
    [m 68846620651779400000000000000000000, m 20774023147957100000000000000000000],
    [m 98558762141002600000000000000000000, m 56902927853104200000000000000000000],
    [98558762141002600000000000000000000, m 56902927853104100000000000000000000],
    [22204460492503100000, 113805855706208000000000000000000000],
    [0, m 43282761808513500000000000000000000],
    [37483971272123600000000000000000000, 21641380904256800000000000000000000],
    [m 37483971272123600000000000000000000, 21641380904256800000000000000000000],
    [m 33813652586499000000000000000000000, m 26963680688236200000000000000000000],
    [40258058748794000000000000000000000, m 15801641790531400000000000000000000],
    [m 6444406162294920000000000000000000, 42765322478767700000000000000000000],
    [33813652586499000000000000000000000, m 26963680688236200000000000000000000],
    [6444406162294960000000000000000000, 42765322478767700000000000000000000],
    [m 40258058748794000000000000000000000, m 15801641790531400000000000000000000],
    [5551115123125780000, m 18337097274071900000000000000000000],
    [15880392071012600000000000000000000, 9168548637035960000000000000000000],
    [m 15880392071012600000000000000000000, 9168548637035970000000000000000000],
    [m 15580617966892300000000000000000000, m 24858562418623900000000000000000000],
    [29318455539535600000000000000000000, m 1063929756677020000000000000000000],
    [m 13737837572643300000000000000000000, 25922492175301000000000000000000000],
    [15580617966892300000000000000000000, m 24858562418623900000000000000000000],
    [13737837572643300000000000000000000, 25922492175301000000000000000000000],
    [m 29318455539535600000000000000000000, m 1063929756676980000000000000000000],
    [m 71154528411036200000000000000000000, m 56962812500573700000000000000000000],
    [84908506902024700000000000000000000, m 33140222947972100000000000000000000],
    [m 13753978490988400000000000000000000, 90103035448545900000000000000000000],
    [71154528411036200000000000000000000, m 56962812500573700000000000000000000],
    [13753978490988500000000000000000000, 90103035448545900000000000000000000],
    [m 84908506902024700000000000000000000, m 33140222947972100000000000000000000],
    [m 56152923713272500000000000000000000, m 42548755921389900000000000000000000],
    [64924765383983400000000000000000000, m 27355480471768600000000000000000000],
    [m 8771841670710930000000000000000000, 69904236393158600000000000000000000],
    [56152923713272500000000000000000000, m 42548755921389900000000000000000000],
    [8771841670710990000000000000000000, 69904236393158500000000000000000000],
    [m 64924765383983400000000000000000000, m 27355480471768600000000000000000000],
    [m 15254044569676000000000000000000000, m 46791873168797900000000000000000000],
    [48149973139676400000000000000000000, 10185546476599400000000000000000000],
    [m 32895928570000400000000000000000000, 36606326692198500000000000000000000],
    [15254044569676000000000000000000000, m 46791873168797900000000000000000000],
    [32895928570000400000000000000000000, 36606326692198500000000000000000000],
    [m 48149973139676400000000000000000000, 10185546476599500000000000000000000],
    [m 22520778354861300000000000000000000, m 13002377445539100000000000000000000],
    [22520778354861300000000000000000000, m 13002377445539100000000000000000000],
    [0, 26004754891078200000000000000000000],
    [m 32755930579423400000000000000000000, m 57016318648548500000000000000000000],
    [65755545669623100000000000000000000, 140691317894104000000000000000000],
    [m 32999615090199800000000000000000000, 56875627330654500000000000000000000],
    [32755930579423400000000000000000000, m 57016318648548500000000000000000000],
    [32999615090199800000000000000000000, 56875627330654400000000000000000000],
    [m 65755545669623100000000000000000000, 140691317894148000000000000000000],
    [m 62891280297171900000000000000000000, m 53786850890931800000000000000000000],
    [78026419409698500000000000000000000, m 27572020968412800000000000000000000],
    [m 15135139112526600000000000000000000, 81358871859344600000000000000000000],
    [62891280297171900000000000000000000, m 53786850890931800000000000000000000],
    [15135139112526600000000000000000000, 81358871859344600000000000000000000],
    [m 78026419409698500000000000000000000, m 27572020968412700000000000000000000],
    [m 42562113948455500000000000000000000, m 53803125336295900000000000000000000],
    [67875930318458200000000000000000000, m 9958309249982470000000000000000000],
    [m 25313816370002700000000000000000000, 63761434586278500000000000000000000],
    [42562113948455500000000000000000000, m 53803125336295900000000000000000000],
    [25313816370002700000000000000000000, 63761434586278400000000000000000000],
    [m 67875930318458200000000000000000000, m 9958309249982420000000000000000000],
    [m 94140501712803100000000000000000000, m 56669876546504000000000000000000000],
    [96147803575002000000000000000000000, m 53193127735048000000000000000000000],
    [m 2007301862198800000000000000000000, 109863004281552000000000000000000000],
    [94140501712803100000000000000000000, m 56669876546504000000000000000000000],
    [2007301862198860000000000000000000, 109863004281552000000000000000000000],
    [m 96147803575002000000000000000000000, m 53193127735047900000000000000000000],
    [m 40187196592587700000000000000000000, m 38330233101247300000000000000000000],
    [53288553894953200000000000000000000, m 15638016605436700000000000000000000],
    [m 13101357302365500000000000000000000, 53968249706684000000000000000000000],
    [40187196592587700000000000000000000, m 38330233101247300000000000000000000],
    [13101357302365500000000000000000000, 53968249706684000000000000000000000],
    [m 53288553894953200000000000000000000, m 15638016605436600000000000000000000],
    [m 53523254211119900000000000000000000, m 56906848596694100000000000000000000],
    [76044403639611900000000000000000000, m 17899073541695200000000000000000000],
    [m 22521149428492000000000000000000000, 74805922138389300000000000000000000],
    [53523254211119800000000000000000000, m 56906848596694100000000000000000000],
    [22521149428492000000000000000000000, 74805922138389300000000000000000000],
    [m 76044403639611900000000000000000000, m 17899073541695100000000000000000000],
    [m 68231246746411700000000000000000000, m 39393328676184600000000000000000000],
    [68231246746411700000000000000000000, m 39393328676184600000000000000000000],
    [0, 78786657352369200000000000000000000],
    [m 2775557561562890000, m 33331193876680700000000000000000000],
    [28865660635669800000000000000000000, 16665596938340400000000000000000000],
    [m 28865660635669800000000000000000000, 16665596938340400000000000000000000],
    [m 34633469607556400000000000000000000, m 46918587486573200000000000000000000],
    [57949423476833300000000000000000000, m 6534170758053480000000000000000000],
    [m 23315953869276900000000000000000000, 53452758244626800000000000000000000],
    [34633469607556400000000000000000000, m 46918587486573200000000000000000000],
    [23315953869276900000000000000000000, 53452758244626700000000000000000000],
    [m 57949423476833300000000000000000000, m 6534170758053460000000000000000000],
    [m 70700191257839000000000000000000000, m 49038194407928200000000000000000000],
    [77818417741905300000000000000000000, m 36709064477742900000000000000000000],
    [m 7118226484066260000000000000000000, 85747258885671100000000000000000000],
    [70700191257838900000000000000000000, m 49038194407928200000000000000000000],
    [7118226484066350000000000000000000, 85747258885671100000000000000000000],
    [m 77818417741905300000000000000000000, m 36709064477742900000000000000000000],
    [m 22662440063670200000000000000000000, m 53278806818989200000000000000000000],
    [57472020220403300000000000000000000, 7013154602613970000000000000000000],
    [m 34809580156733100000000000000000000, 46265652216375200000000000000000000],
    [22662440063670200000000000000000000, m 53278806818989200000000000000000000],
    [34809580156733100000000000000000000, 46265652216375200000000000000000000],
    [m 57472020220403300000000000000000000, 7013154602614010000000000000000000],
    [m 10878662096604700000000000000000000, m 56757013000065200000000000000000000],
    [54592346149282400000000000000000000, 18957308765186100000000000000000000],
    [m 43713684052677700000000000000000000, 37799704234879200000000000000000000],
    [10878662096604700000000000000000000, m 56757013000065200000000000000000000],
    [43713684052677700000000000000000000, 37799704234879100000000000000000000],
    [m 54592346149282400000000000000000000, 18957308765186100000000000000000000],
    [m 20631360388374000000000000000000000, m 37281400062453800000000000000000000],
    [42602319736922800000000000000000000, 773417820263012000000000000000000],
    [m 21970959348548700000000000000000000, 36507982242190900000000000000000000],
    [20631360388374000000000000000000000, m 37281400062453800000000000000000000],
    [21970959348548700000000000000000000, 36507982242190800000000000000000000],
    [m 42602319736922800000000000000000000, 773417820263034000000000000000000],
    [m 79729933059714100000000000000000000, m 54575369430987400000000000000000000],
    [87128622878012800000000000000000000, m 41760462756251500000000000000000000],
    [m 7398689818298710000000000000000000, 96335832187238900000000000000000000],
    [79729933059714100000000000000000000, m 54575369430987400000000000000000000],
    [7398689818298790000000000000000000, 96335832187238900000000000000000000],
    [m 87128622878012900000000000000000000, m 41760462756251400000000000000000000],
    [346944695195361000, m 52483841201603300000000000000000000],
    [45452339768776900000000000000000000, 26241920600801600000000000000000000],
    [m 45452339768776800000000000000000000, 26241920600801700000000000000000000],
    [m 52408693341082100000000000000000000, m 30258173208350300000000000000000000],
    [52408693341082100000000000000000000, m 30258173208350300000000000000000000],
    [0, 60516346416700600000000000000000000],
    [m 81748242282172400000000000000000000, m 47197369687391000000000000000000000],
    [81748242282172400000000000000000000, m 47197369687390900000000000000000000],
    [0, 94394739374782000000000000000000000],
    [m 85821826344224700000000000000000000, m 57527136550578100000000000000000000],
    [92730874831889300000000000000000000, m 45560313537986200000000000000000000],
    [m 6909048487664520000000000000000000, 103087450088564000000000000000000000],
    [85821826344224700000000000000000000, m 57527136550578100000000000000000000],
    [6909048487664580000000000000000000, 103087450088564000000000000000000000],
    [m 92730874831889300000000000000000000, m 45560313537986100000000000000000000]],
   [2487652135471490000000000000000000, 2487652135471490000000000000000000, 2487652135471490000000000000000000,
    366768610094024000000000000000000, 366768610094024000000000000000000, 366768610094024000000000000000000,
    366768610094024000000000000000000, 366768610094024000000000000000000, 366768610094024000000000000000000,
    1021160385495180000000000000000000, 1021160385495180000000000000000000, 1021160385495180000000000000000000,
    1021160385495180000000000000000000, 1021160385495180000000000000000000, 1021160385495180000000000000000000,
    53890198945989700000000000000000, 53890198945989700000000000000000, 53890198945989700000000000000000,
    1533160281247900000000000000000000, 1533160281247900000000000000000000, 1533160281247900000000000000000000,
    2174980577094450000000000000000000, 2174980577094450000000000000000000, 2174980577094450000000000000000000,
    2174980577094450000000000000000000, 2174980577094450000000000000000000, 2174980577094450000000000000000000,
    2461345763360310000000000000000000, 2461345763360310000000000000000000, 2461345763360310000000000000000000,
    2270045555273620000000000000000000, 2270045555273620000000000000000000, 2270045555273620000000000000000000,
    2270045555273620000000000000000000, 2270045555273620000000000000000000, 2270045555273620000000000000000000,
    308113724750209000000000000000000, 308113724750209000000000000000000, 308113724750209000000000000000000,
    308113724750209000000000000000000, 308113724750209000000000000000000, 308113724750209000000000000000000,
    1387706859120470000000000000000000, 1387706859120470000000000000000000, 1387706859120470000000000000000000,
    1387706859120470000000000000000000, 1387706859120470000000000000000000, 1387706859120470000000000000000000,
    1466128308237860000000000000000000, 1466128308237860000000000000000000, 1466128308237860000000000000000000,
    1466128308237860000000000000000000, 1466128308237860000000000000000000, 1466128308237860000000000000000000,
    2267730576702780000000000000000000, 2267730576702780000000000000000000, 2267730576702780000000000000000000,
    411667646924947000000000000000000, 411667646924947000000000000000000, 411667646924947000000000000000000,
    411667646924947000000000000000000, 411667646924947000000000000000000, 411667646924947000000000000000000,
    740788142529335000000000000000000, 740788142529335000000000000000000, 740788142529335000000000000000000,
    740788142529335000000000000000000, 740788142529335000000000000000000, 740788142529335000000000000000000,
    888763313341761000000000000000000, 888763313341761000000000000000000, 888763313341761000000000000000000,
    888763313341761000000000000000000, 888763313341761000000000000000000, 888763313341761000000000000000000,
    164292021067346000000000000000000, 164292021067346000000000000000000, 164292021067346000000000000000000,
    164292021067346000000000000000000, 164292021067346000000000000000000, 164292021067346000000000000000000,
    1774656929853960000000000000000000, 1774656929853960000000000000000000, 1774656929853960000000000000000000,
    1774656929853960000000000000000000, 1774656929853960000000000000000000, 1774656929853960000000000000000000,
    402623067575045000000000000000000, 402623067575045000000000000000000, 402623067575045000000000000000000,
    402623067575045000000000000000000, 402623067575045000000000000000000, 402623067575045000000000000000000,
    1352721872295730000000000000000000, 1352721872295730000000000000000000, 1352721872295730000000000000000000,
    2346512390535650000000000000000000, 2346512390535650000000000000000000, 2346512390535650000000000000000000,
    1545875461841200000000000000000000, 1545875461841200000000000000000000, 1545875461841200000000000000000000,
    1545875461841200000000000000000000, 1545875461841200000000000000000000, 1545875461841200000000000000000000,
    1025007536700430000000000000000000, 1025007536700430000000000000000000, 1025007536700430000000000000000000,
    1025007536700430000000000000000000, 1025007536700430000000000000000000, 1025007536700430000000000000000000,
    1084356408416660000000000000000000, 1084356408416660000000000000000000, 1084356408416660000000000000000000,
    1084356408416660000000000000000000, 1084356408416660000000000000000000, 1084356408416660000000000000000000,
    543894722331318000000000000000000, 543894722331318000000000000000000, 543894722331318000000000000000000,
    543894722331318000000000000000000, 543894722331318000000000000000000, 543894722331318000000000000000000,
    2214797343197560000000000000000000, 2214797343197560000000000000000000, 2214797343197560000000000000000000,
    2214797343197560000000000000000000, 2214797343197560000000000000000000, 2214797343197560000000000000000000,
    555107767645364000000000000000000, 555107767645364000000000000000000, 555107767645364000000000000000000,
    555107767645364000000000000000000, 555107767645364000000000000000000, 555107767645364000000000000000000,
    1330580583148890000000000000000000, 1330580583148890000000000000000000, 1330580583148890000000000000000000,
    2068531059492020000000000000000000, 2068531059492020000000000000000000, 2068531059492020000000000000000000,
    888239302611936000000000000000000, 888239302611936000000000000000000, 888239302611936000000000000000000,
    125596996084178000000000000000000, 125596996084178000000000000000000, 125596996084178000000000000000000,
    125596996084178000000000000000000, 125596996084178000000000000000000, 125596996084178000000000000000000]⟩

/-- `triangle_table_orig[29]` (xg_quad_data.py 3314-3637). -/
def xgTri_29 : XgTableRule :=
  ⟨[
    [m 87938703907162100000000000000000000, m 57262394724341600000000000000000000],
    [93560040466392900000000000000000000, m 47525954197309400000000000000000000],
    [m 5621336559230770000000000000000000, 104788348921651000000000000000000000],
    [87938703907162100000000000000000000, m 57262394724341600000000000000000000],
    [5621336559230850000000000000000000, 104788348921651000000000000000000000],
    [m 93560040466392900000000000000000000, m 47525954197309400000000000000000000],
    [m 14324628011414300000000000000000000, m 30511050720283500000000000000000000],
    [33585659025628100000000000000000000, 2850033602494820000000000000000000],
    [m 19261031014213800000000000000000000, 27661017117788700000000000000000000],
    [14324628011414300000000000000000000, m 30511050720283500000000000000000000],
    [19261031014213900000000000000000000, 27661017117788700000000000000000000],
    [m 33585659025628100000000000000000000, 2850033602494830000000000000000000],
    [m 35189538626807200000000000000000000, m 57371128821577700000000000000000000],
    [67279624316679500000000000000000000, m 1789469987479960000000000000000000],
    [m 32090085689872200000000000000000000, 59160598809057700000000000000000000],
    [35189538626807200000000000000000000, m 57371128821577700000000000000000000],
    [32090085689872300000000000000000000, 59160598809057700000000000000000000],
    [m 67279624316679500000000000000000000, m 1789469987479930000000000000000000],
    [m 3946495907847240000, m 57359111146432700000000000000000000],
    [49674447391305900000000000000000000, 28679555573216400000000000000000000],
    [m 49674447391305800000000000000000000, 28679555573216400000000000000000000],
    [m 61554248268722100000000000000000000, m 45928362498519100000000000000000000],
    [70552252812299100000000000000000000, m 30343361462308100000000000000000000],
    [m 8998004543576940000000000000000000, 76271723960827300000000000000000000],
    [61554248268722100000000000000000000, m 45928362498519100000000000000000000],
    [8998004543577000000000000000000000, 76271723960827300000000000000000000],
    [m 70552252812299100000000000000000000, m 30343361462308100000000000000000000],
    [m 93007010487368400000000000000000000, m 55859049859349900000000000000000000],
    [94878861453142800000000000000000000, m 52616908882431800000000000000000000],
    [m 1871850965774360000000000000000000, 108475958741782000000000000000000000],
    [93007010487368400000000000000000000, m 55859049859349900000000000000000000],
    [1871850965774420000000000000000000, 108475958741782000000000000000000000],
    [m 94878861453142800000000000000000000, m 52616908882431700000000000000000000],
    [m 19742931116675300000000000000000000, m 19814832945992200000000000000000000],
    [27031614261311800000000000000000000, m 7190463419210980000000000000000000],
    [m 7288683144636450000000000000000000, 27005296365203200000000000000000000],
    [19742931116675300000000000000000000, m 19814832945992200000000000000000000],
    [7288683144636460000000000000000000, 27005296365203200000000000000000000],
    [m 27031614261311800000000000000000000, m 7190463419210970000000000000000000],
    [m 82766874673327500000000000000000000, m 54048028336522900000000000000000000],
    [88190402900553800000000000000000000, m 44654201890683100000000000000000000],
    [m 5423528227226220000000000000000000, 98702230227206000000000000000000000],
    [82766874673327500000000000000000000, m 54048028336522900000000000000000000],
    [5423528227226270000000000000000000, 98702230227206000000000000000000000],
    [m 88190402900553800000000000000000000, m 44654201890683000000000000000000000],
    [m 72491944440610000000000000000000000, m 50660081473204700000000000000000000],
    [80118889733889600000000000000000000, m 37449824718696000000000000000000000],
    [m 7626945293279610000000000000000000, 88109906191900700000000000000000000],
    [72491944440610000000000000000000000, m 50660081473204700000000000000000000],
    [7626945293279670000000000000000000, 88109906191900700000000000000000000],
    [m 80118889733889700000000000000000000, m 37449824718696000000000000000000000],
    [m 97606406728761800000000000000000000, m 57457293178871900000000000000000000],
    [98562678889974300000000000000000000, m 55800981209788100000000000000000000],
    [m 956272161212501000000000000000000, 113258274388660000000000000000000000],
    [97606406728761800000000000000000000, m 57457293178871900000000000000000000],
    [956272161212568000000000000000000, 113258274388660000000000000000000000],
    [m 98562678889974400000000000000000000, m 55800981209788100000000000000000000],
    [0, m 35003739955028700000000000000000000],
    [30314128028519200000000000000000000, 17501869977514400000000000000000000],
    [m 30314128028519200000000000000000000, 17501869977514400000000000000000000],
    [m 87670799311864600000000000000000000, m 50616759582774700000000000000000000],
    [87670799311864600000000000000000000, m 50616759582774700000000000000000000],
    [0, 101233519165549000000000000000000000],
    [m 48236271621499200000000000000000000, m 40146746347211100000000000000000000],
    [58886238026724500000000000000000000, m 21700463434459100000000000000000000],
    [m 10649966405225300000000000000000000, 61847209781670300000000000000000000],
    [48236271621499200000000000000000000, m 40146746347211100000000000000000000],
    [10649966405225300000000000000000000, 61847209781670300000000000000000000],
    [m 58886238026724500000000000000000000, m 21700463434459100000000000000000000],
    [m 17405270877030800000000000000000000, m 50542328918299900000000000000000000],
    [52473576248192000000000000000000000, 10197757719891900000000000000000000],
    [m 35068305371161200000000000000000000, 40344571198408100000000000000000000],
    [17405270877030800000000000000000000, m 50542328918299900000000000000000000],
    [35068305371161200000000000000000000, 40344571198408100000000000000000000],
    [m 52473576248192000000000000000000000, 10197757719891900000000000000000000],
    [m 18672840783491600000000000000000000, m 41479896168463400000000000000000000],
    [45259064219975900000000000000000000, 4568793604905910000000000000000000],
    [m 26586223436484300000000000000000000, 36911102563557600000000000000000000],
    [18672840783491600000000000000000000, m 41479896168463400000000000000000000],
    [26586223436484400000000000000000000, 36911102563557600000000000000000000],
    [m 45259064219975900000000000000000000, 4568793604905940000000000000000000],
    [m 49956457122986500000000000000000000, m 56230562425237500000000000000000000],
    [73675324090835600000000000000000000, m 15148279738955600000000000000000000],
    [m 23718866967849100000000000000000000, 71378842164193200000000000000000000],
    [49956457122986500000000000000000000, m 56230562425237500000000000000000000],
    [23718866967849200000000000000000000, 71378842164193200000000000000000000],
    [m 73675324090835600000000000000000000, m 15148279738955600000000000000000000],
    [m 64840539960610800000000000000000000, m 54688501268470700000000000000000000],
    [79781901373698600000000000000000000, m 28809304166753600000000000000000000],
    [m 14941361413087700000000000000000000, 83497805435224400000000000000000000],
    [64840539960610800000000000000000000, m 54688501268470700000000000000000000],
    [14941361413087800000000000000000000, 83497805435224400000000000000000000],
    [m 79781901373698600000000000000000000, m 28809304166753600000000000000000000],
    [m 37478408460279700000000000000000000, m 21638169213341300000000000000000000],
    [37478408460279800000000000000000000, m 21638169213341200000000000000000000],
    [0, 43276338426682500000000000000000000],
    [m 76445927822389400000000000000000000, m 56778324409762200000000000000000000],
    [87394435234362800000000000000000000, m 37814953305179800000000000000000000],
    [m 10948507411973400000000000000000000, 94593277714942000000000000000000000],
    [76445927822389500000000000000000000, m 56778324409762200000000000000000000],
    [10948507411973400000000000000000000, 94593277714942000000000000000000000],
    [m 87394435234362900000000000000000000, m 37814953305179800000000000000000000],
    [m 51776234670410900000000000000000000, m 29893023024587000000000000000000000],
    [51776234670410900000000000000000000, m 29893023024586900000000000000000000],
    [0, 59786046049174000000000000000000000],
    [m 34535027682270600000000000000000000, m 53602539551087200000000000000000000],
    [63688674799737000000000000000000000, m 3106941517701570000000000000000000],
    [m 29153647117466300000000000000000000, 56709481068788800000000000000000000],
    [34535027682270600000000000000000000, m 53602539551087200000000000000000000],
    [29153647117466400000000000000000000, 56709481068788800000000000000000000],
    [m 63688674799737000000000000000000000, m 3106941517701510000000000000000000],
    [m 51325936500558700000000000000000000, m 50755670245009600000000000000000000],
    [69618668068563600000000000000000000, m 19071729760006000000000000000000000],
    [m 18292731568004800000000000000000000, 69827400005015600000000000000000000],
    [51325936500558700000000000000000000, m 50755670245009600000000000000000000],
    [18292731568004900000000000000000000, 69827400005015600000000000000000000],
    [m 69618668068563600000000000000000000, m 19071729760006000000000000000000000],
    [m 35532987585108800000000000000000000, m 45978142418549700000000000000000000],
    [57584733145837400000000000000000000, m 7783398711786450000000000000000000],
    [m 22051745560728500000000000000000000, 53761541130336200000000000000000000],
    [35532987585108800000000000000000000, m 45978142418549700000000000000000000],
    [22051745560728600000000000000000000, 53761541130336200000000000000000000],
    [m 57584733145837400000000000000000000, m 7783398711786400000000000000000000],
    [m 5551115123125780000, m 53717224317544600000000000000000000],
    [46520480879780800000000000000000000, 26858612158772300000000000000000000],
    [m 46520480879780800000000000000000000, 26858612158772300000000000000000000],
    [m 32573169227336600000000000000000000, m 33566750808701800000000000000000000],
    [45356243536505900000000000000000000, m 11425816628292100000000000000000000],
    [m 12783074309169300000000000000000000, 44992567436994000000000000000000000],
    [32573169227336600000000000000000000, m 33566750808701800000000000000000000],
    [12783074309169300000000000000000000, 44992567436994000000000000000000000],
    [m 45356243536505900000000000000000000, m 11425816628292100000000000000000000],
    [m 9284076635461460000000000000000000, m 5360164144660780000000000000000000],
    [9284076635461460000000000000000000, m 5360164144660760000000000000000000],
    [5551115123125780000, 10720328289321600000000000000000000],
    [m 18040262369805000000000000000000000, m 56337853290640000000000000000000000],
    [57810143329277500000000000000000000, 12545601142132400000000000000000000],
    [m 39769880959472500000000000000000000, 43792252148507700000000000000000000],
    [18040262369805000000000000000000000, m 56337853290640000000000000000000000],
    [39769880959472500000000000000000000, 43792252148507700000000000000000000],
    [m 57810143329277500000000000000000000, 12545601142132500000000000000000000],
    [m 65671956101672300000000000000000000, m 37915721533509800000000000000000000],
    [65671956101672400000000000000000000, m 37915721533509800000000000000000000],
    [m 22204460492503100000, 75831443067019700000000000000000000],
    [m 5551115123125780000, m 45528374978288600000000000000000000],
    [39428729324221700000000000000000000, 22764187489144300000000000000000000],
    [m 39428729324221700000000000000000000, 22764187489144300000000000000000000],
    [m 77883435582970000000000000000000000, m 44966022499240700000000000000000000],
    [77883435582970100000000000000000000, m 44966022499240600000000000000000000],
    [0, 89932044998481300000000000000000000],
    [m 5551115123125780000, m 19844398974763600000000000000000000],
    [17185753634979100000000000000000000, 9922199487381810000000000000000000],
    [m 17185753634979100000000000000000000, 9922199487381820000000000000000000],
    [m 62723509783699300000000000000000000, m 57713645303871200000000000000000000],
    [81343237870006600000000000000000000, m 25463330235269800000000000000000000],
    [m 18619728086307200000000000000000000, 83176975539141100000000000000000000],
    [62723509783699300000000000000000000, m 57713645303871200000000000000000000],
    [18619728086307200000000000000000000, 83176975539141000000000000000000000],
    [m 81343237870006600000000000000000000, m 25463330235269800000000000000000000]],
   [133238523047020000000000000000000, 133238523047020000000000000000000, 133238523047020000000000000000000,
    133238523047020000000000000000000, 133238523047020000000000000000000, 133238523047020000000000000000000,
    1810376690668780000000000000000000, 1810376690668780000000000000000000, 1810376690668780000000000000000000,
    1810376690668780000000000000000000, 1810376690668780000000000000000000, 1810376690668780000000000000000000,
    234315981380116000000000000000000, 234315981380116000000000000000000, 234315981380116000000000000000000,
    234315981380116000000000000000000, 234315981380116000000000000000000, 234315981380116000000000000000000,
    262658941042052000000000000000000, 262658941042052000000000000000000, 262658941042052000000000000000000,
    1115291193433030000000000000000000, 1115291193433030000000000000000000, 1115291193433030000000000000000000,
    1115291193433030000000000000000000, 1115291193433030000000000000000000, 1115291193433030000000000000000000,
    220350540228776000000000000000000, 220350540228776000000000000000000, 220350540228776000000000000000000,
    220350540228776000000000000000000, 220350540228776000000000000000000, 220350540228776000000000000000000,
    2346105526376530000000000000000000, 2346105526376530000000000000000000, 2346105526376530000000000000000000,
    2346105526376530000000000000000000, 2346105526376530000000000000000000, 2346105526376530000000000000000000,
    478311156495442000000000000000000, 478311156495442000000000000000000, 478311156495442000000000000000000,
    478311156495442000000000000000000, 478311156495442000000000000000000, 478311156495442000000000000000000,
    781620289503179000000000000000000, 781620289503179000000000000000000, 781620289503179000000000000000000,
    781620289503179000000000000000000, 781620289503179000000000000000000, 781620289503179000000000000000000,
    46677423782440300000000000000000, 46677423782440300000000000000000, 46677423782440300000000000000000,
    46677423782440300000000000000000, 46677423782440300000000000000000, 46677423782440300000000000000000,
    1934891328767840000000000000000000, 1934891328767840000000000000000000, 1934891328767840000000000000000000,
    495451662328296000000000000000000, 495451662328296000000000000000000, 495451662328296000000000000000000,
    1625760162796570000000000000000000, 1625760162796570000000000000000000, 1625760162796570000000000000000000,
    1625760162796570000000000000000000, 1625760162796570000000000000000000, 1625760162796570000000000000000000,
    1354969223325520000000000000000000, 1354969223325520000000000000000000, 1354969223325520000000000000000000,
    1354969223325520000000000000000000, 1354969223325520000000000000000000, 1354969223325520000000000000000000,
    1841238660565200000000000000000000, 1841238660565200000000000000000000, 1841238660565200000000000000000000,
    1841238660565200000000000000000000, 1841238660565200000000000000000000, 1841238660565200000000000000000000,
    528490066806056000000000000000000, 528490066806056000000000000000000, 528490066806056000000000000000000,
    528490066806056000000000000000000, 528490066806056000000000000000000, 528490066806056000000000000000000,
    662572943301705000000000000000000, 662572943301705000000000000000000, 662572943301705000000000000000000,
    662572943301705000000000000000000, 662572943301705000000000000000000, 662572943301705000000000000000000,
    2171853744906600000000000000000000, 2171853744906600000000000000000000, 2171853744906600000000000000000000,
    301670463191506000000000000000000, 301670463191506000000000000000000, 301670463191506000000000000000000,
    301670463191506000000000000000000, 301670463191506000000000000000000, 301670463191506000000000000000000,
    1831023283849120000000000000000000, 1831023283849120000000000000000000, 1831023283849120000000000000000000,
    981926186615059000000000000000000, 981926186615059000000000000000000, 981926186615059000000000000000000,
    981926186615059000000000000000000, 981926186615059000000000000000000, 981926186615059000000000000000000,
    1140035454229680000000000000000000, 1140035454229680000000000000000000, 1140035454229680000000000000000000,
    1140035454229680000000000000000000, 1140035454229680000000000000000000, 1140035454229680000000000000000000,
    1589836301247640000000000000000000, 1589836301247640000000000000000000, 1589836301247640000000000000000000,
    1589836301247640000000000000000000, 1589836301247640000000000000000000, 1589836301247640000000000000000000,
    1062509449130290000000000000000000, 1062509449130290000000000000000000, 1062509449130290000000000000000000,
    2168244680374940000000000000000000, 2168244680374940000000000000000000, 2168244680374940000000000000000000,
    2168244680374940000000000000000000, 2168244680374940000000000000000000, 2168244680374940000000000000000000,
    2825016229859290000000000000000000, 2825016229859290000000000000000000, 2825016229859290000000000000000000,
    630698659999200000000000000000000, 630698659999200000000000000000000, 630698659999200000000000000000000,
    630698659999200000000000000000000, 630698659999200000000000000000000, 630698659999200000000000000000000,
    1415584070428970000000000000000000, 1415584070428970000000000000000000, 1415584070428970000000000000000000,
    1786284199665150000000000000000000, 1786284199665150000000000000000000, 1786284199665150000000000000000000,
    971480820595086000000000000000000, 971480820595086000000000000000000, 971480820595086000000000000000000,
    2756249738382360000000000000000000, 2756249738382360000000000000000000, 2756249738382360000000000000000000,
    119281597635416000000000000000000, 119281597635416000000000000000000, 119281597635416000000000000000000,
    119281597635416000000000000000000, 119281597635416000000000000000000, 119281597635416000000000000000000]⟩

/-- `triangle_table_orig[30]` (xg_quad_data.py 3638-3985). -/
def xgTri_30 : XgTableRule :=
  ⟨[
    [m 43405710781709300000000000000000000, m 49449740552349400000000000000000000],
    [64527586919738800000000000000000000, m 12865577930105600000000000000000000],
    [m 21121876138029400000000000000000000, 62315318482455100000000000000000000],
    [43405710781709300000000000000000000, m 49449740552349400000000000000000000],
    [21121876138029500000000000000000000, 62315318482455100000000000000000000],
    [m 64527586919738800000000000000000000, m 12865577930105600000000000000000000],
    [m 99004382519006600000000000000000000, m 57160206898301200000000000000000000],
    [99004382519006700000000000000000000, m 57160206898301100000000000000000000],
    [0, 114320413796602000000000000000000000],
    [m 13719609648588700000000000000000000, m 43937592123719200000000000000000000],
    [44910875784554200000000000000000000, 10087265576175700000000000000000000],
    [m 31191266135965600000000000000000000, 33850326547543500000000000000000000],
    [13719609648588700000000000000000000, m 43937592123719200000000000000000000],
    [31191266135965600000000000000000000, 33850326547543500000000000000000000],
    [m 44910875784554200000000000000000000, 10087265576175800000000000000000000],
    [m 23002603213365900000000000000000000, m 47742236692181700000000000000000000],
    [52847291415601800000000000000000000, 3950279610142450000000000000000000],
    [m 29844688202235900000000000000000000, 43791957082039300000000000000000000],
    [23002603213365900000000000000000000, m 47742236692181700000000000000000000],
    [29844688202235900000000000000000000, 43791957082039300000000000000000000],
    [m 52847291415601800000000000000000000, 3950279610142480000000000000000000],
    [m 78288277832596600000000000000000000, m 45199758281041900000000000000000000],
    [78288277832596600000000000000000000, m 45199758281041900000000000000000000],
    [0, 90399516562083800000000000000000000],
    [m 35671356772393800000000000000000000, m 44352953384065100000000000000000000],
    [56246462749664300000000000000000000, m 8715824460318580000000000000000000],
    [m 20575105977270400000000000000000000, 53068777844383800000000000000000000],
    [35671356772393800000000000000000000, m 44352953384065100000000000000000000],
    [20575105977270500000000000000000000, 53068777844383800000000000000000000],
    [m 56246462749664300000000000000000000, m 8715824460318540000000000000000000],
    [m 85852626927348400000000000000000000, m 49567037267141200000000000000000000],
    [85852626927348400000000000000000000, m 49567037267141100000000000000000000],
    [0, 99134074534282300000000000000000000],
    [m 49401409080195100000000000000000000, m 53793159129250800000000000000000000],
    [71286946895847600000000000000000000, m 15886295681570800000000000000000000],
    [m 21885537815652400000000000000000000, 69679454810821700000000000000000000],
    [49401409080195100000000000000000000, m 53793159129250800000000000000000000],
    [21885537815652500000000000000000000, 69679454810821700000000000000000000],
    [m 71286946895847600000000000000000000, m 15886295681570800000000000000000000],
    [m 37062552685346000000000000000000000, m 36290163137317800000000000000000000],
    [49959479527071800000000000000000000, m 13952030585949900000000000000000000],
    [m 12896926841725800000000000000000000, 50242193723267700000000000000000000],
    [37062552685346000000000000000000000, m 36290163137317800000000000000000000],
    [12896926841725900000000000000000000, 50242193723267700000000000000000000],
    [m 49959479527071800000000000000000000, m 13952030585949800000000000000000000],
    [m 51430581999606500000000000000000000, m 37663681425566800000000000000000000],
    [58332995914388200000000000000000000, m 25708349830294500000000000000000000],
    [m 6902413914781620000000000000000000, 63372031255861300000000000000000000],
    [51430581999606500000000000000000000, m 37663681425566800000000000000000000],
    [6902413914781680000000000000000000, 63372031255861300000000000000000000],
    [m 58332995914388200000000000000000000, m 25708349830294500000000000000000000],
    [4163336342344340000, m 46660354209881600000000000000000000],
    [40409052095337600000000000000000000, 23330177104940800000000000000000000],
    [m 40409052095337600000000000000000000, 23330177104940800000000000000000000],
    [m 96194018597659600000000000000000000, m 55537642531790700000000000000000000],
    [96194018597659700000000000000000000, m 55537642531790700000000000000000000],
    [0, 111075285063581000000000000000000000],
    [m 54607380091083800000000000000000000, m 46213867523775000000000000000000000],
    [67326073328259700000000000000000000, m 24184444631103700000000000000000000],
    [m 12718693237175800000000000000000000, 70398312154878700000000000000000000],
    [54607380091083800000000000000000000, m 46213867523775000000000000000000000],
    [12718693237175900000000000000000000, 70398312154878700000000000000000000],
    [m 67326073328259700000000000000000000, m 24184444631103600000000000000000000],
    [m 84275872174416400000000000000000000, m 56966207432086500000000000000000000],
    [91472118880649000000000000000000000, m 44501942513091400000000000000000000],
    [m 7196246706232580000000000000000000, 101468149945178000000000000000000000],
    [84275872174416300000000000000000000, m 56966207432086500000000000000000000],
    [7196246706232650000000000000000000, 101468149945178000000000000000000000],
    [m 91472118880649000000000000000000000, m 44501942513091400000000000000000000],
    [m 63522547533181600000000000000000000, m 36674759917893200000000000000000000],
    [63522547533181600000000000000000000, m 36674759917893200000000000000000000],
    [0, 73349519835786400000000000000000000],
    [m 57724024570193200000000000000000000, m 56927271273635800000000000000000000],
    [78162475376193300000000000000000000, m 21526836049646500000000000000000000],
    [m 20438450806000100000000000000000000, 78454107323282400000000000000000000],
    [57724024570193200000000000000000000, m 56927271273635800000000000000000000],
    [20438450806000100000000000000000000, 78454107323282400000000000000000000],
    [m 78162475376193300000000000000000000, m 21526836049646500000000000000000000],
    [m 39821033011703800000000000000000000, m 56920325339091600000000000000000000],
    [69204964241180300000000000000000000, m 6025863523528410000000000000000000],
    [m 29383931229476500000000000000000000, 62946188862620100000000000000000000],
    [39821033011703800000000000000000000, m 56920325339091600000000000000000000],
    [29383931229476600000000000000000000, 62946188862620100000000000000000000],
    [m 69204964241180300000000000000000000, m 6025863523528350000000000000000000],
    [m 30605985322806900000000000000000000, m 53373365021893700000000000000000000],
    [61525682655823200000000000000000000, 181121713542376000000000000000000],
    [m 30919697333016200000000000000000000, 53192243308351300000000000000000000],
    [30605985322806900000000000000000000, m 53373365021893700000000000000000000],
    [30919697333016200000000000000000000, 53192243308351300000000000000000000],
    [m 61525682655823200000000000000000000, 181121713542409000000000000000000],
    [m 68776182141386700000000000000000000, m 46342190137736600000000000000000000],
    [74521604996981900000000000000000000, m 36390825840878200000000000000000000],
    [m 5745422855595180000000000000000000, 82733015978614900000000000000000000],
    [68776182141386700000000000000000000, m 46342190137736600000000000000000000],
    [5745422855595230000000000000000000, 82733015978614900000000000000000000],
    [m 74521604996981900000000000000000000, m 36390825840878200000000000000000000],
    [m 19684758015531900000000000000000000, m 35889692861698100000000000000000000],
    [40923764760017500000000000000000000, 897345922049075000000000000000000],
    [m 21239006744485600000000000000000000, 34992346939649100000000000000000000],
    [19684758015531900000000000000000000, m 35889692861698100000000000000000000],
    [21239006744485600000000000000000000, 34992346939649100000000000000000000],
    [m 40923764760017500000000000000000000, 897345922049109000000000000000000],
    [m 9632184471510660000000000000000000, m 23982388127083000000000000000000000],
    [25585449597227600000000000000000000, 3649477617275330000000000000000000],
    [m 15953265125716900000000000000000000, 20332910509807800000000000000000000],
    [9632184471510670000000000000000000, m 23982388127083000000000000000000000],
    [15953265125716900000000000000000000, 20332910509807800000000000000000000],
    [m 25585449597227600000000000000000000, 3649477617275340000000000000000000],
    [m 28286197991210000000000000000000000, m 24652609751239700000000000000000000],
    [35492885309762600000000000000000000, m 12170261161244400000000000000000000],
    [m 7206687318552510000000000000000000, 36822870912484100000000000000000000],
    [28286197991210000000000000000000000, m 24652609751239700000000000000000000],
    [7206687318552540000000000000000000, 36822870912484100000000000000000000],
    [m 35492885309762600000000000000000000, m 12170261161244400000000000000000000],
    [m 45277131544764100000000000000000000, m 26140764085503700000000000000000000],
    [45277131544764100000000000000000000, m 26140764085503600000000000000000000],
    [0, 52281528171007300000000000000000000],
    [m 10333424594611100000000000000000000, m 52966101087647700000000000000000000],
    [51036701378623100000000000000000000, 17534042336799800000000000000000000],
    [m 40703276784012000000000000000000000, 35432058750848000000000000000000000],
    [10333424594611100000000000000000000, m 52966101087647700000000000000000000],
    [40703276784012000000000000000000000, 35432058750848000000000000000000000],
    [m 51036701378623100000000000000000000, 17534042336799800000000000000000000],
    [m 64379410387887000000000000000000000, m 52874213045823900000000000000000000],
    [77980116896737600000000000000000000, m 29317098353662000000000000000000000],
    [m 13600706508850500000000000000000000, 82191311399486000000000000000000000],
    [64379410387887000000000000000000000, m 52874213045823900000000000000000000],
    [13600706508850500000000000000000000, 82191311399486000000000000000000000],
    [m 77980116896737600000000000000000000, m 29317098353662000000000000000000000],
    [0, m 10029941117116500000000000000000000],
    [8686183805884950000000000000000000, 5014970558558260000000000000000000],
    [m 8686183805884940000000000000000000, 5014970558558270000000000000000000],
    [m 89873358431890400000000000000000000, m 54980647624872100000000000000000000],
    [92551316775605000000000000000000000, m 50342287713005500000000000000000000],
    [m 2677958343714530000000000000000000, 105322935337878000000000000000000000],
    [89873358431890400000000000000000000, m 54980647624872100000000000000000000],
    [2677958343714600000000000000000000, 105322935337878000000000000000000000],
    [m 92551316775605000000000000000000000, m 50342287713005400000000000000000000],
    [m 78478618004244400000000000000000000, m 53007527494669200000000000000000000],
    [85145174404307900000000000000000000, m 41460713098235900000000000000000000],
    [m 6666556400063370000000000000000000, 94468240592905200000000000000000000],
    [78478618004244400000000000000000000, m 53007527494669200000000000000000000],
    [6666556400063440000000000000000000, 94468240592905200000000000000000000],
    [m 85145174404307900000000000000000000, m 41460713098235900000000000000000000],
    [m 72349108151471500000000000000000000, m 56749280180954800000000000000000000],
    [85320872358923300000000000000000000, m 34281525509844800000000000000000000],
    [m 12971764207451800000000000000000000, 91030805690799600000000000000000000],
    [72349108151471500000000000000000000, m 56749280180954800000000000000000000],
    [12971764207451900000000000000000000, 91030805690799600000000000000000000],
    [m 85320872358923400000000000000000000, m 34281525509844700000000000000000000],
    [2775557561562890000, m 35822245431797900000000000000000000],
    [31022974564538100000000000000000000, 17911122715899000000000000000000000],
    [m 31022974564538100000000000000000000, 17911122715899000000000000000000000],
    [m 18271587764821500000000000000000000, m 10549106114541600000000000000000000],
    [18271587764821500000000000000000000, m 10549106114541600000000000000000000],
    [5551115123125780000, 21098212229083200000000000000000000],
    [m 20239462350406000000000000000000000, m 56840882187053600000000000000000000],
    [59345379122709800000000000000000000, 10892552539136500000000000000000000],
    [m 39105916772303800000000000000000000, 45948329647917200000000000000000000],
    [20239462350406100000000000000000000, m 56840882187053600000000000000000000],
    [39105916772303800000000000000000000, 45948329647917200000000000000000000],
    [m 59345379122709800000000000000000000, 10892552539136500000000000000000000],
    [m 1734723475976810000, m 56806418709095800000000000000000000],
    [49195801700092600000000000000000000, 28403209354547900000000000000000000],
    [m 49195801700092600000000000000000000, 28403209354548000000000000000000000],
    [m 94049820614395800000000000000000000, m 57642585867286300000000000000000000],
    [96944854008093700000000000000000000, m 52628240939793000000000000000000000],
    [m 2895033393697910000000000000000000, 110270826807079000000000000000000000],
    [94049820614395800000000000000000000, m 57642585867286300000000000000000000],
    [2895033393697990000000000000000000, 110270826807079000000000000000000000],
    [m 96944854008093700000000000000000000, m 52628240939792900000000000000000000]],
   [730017580112729000000000000000000, 730017580112729000000000000000000, 730017580112729000000000000000000,
    730017580112729000000000000000000, 730017580112729000000000000000000, 730017580112729000000000000000000,
    29744491435345000000000000000000, 29744491435345000000000000000000, 29744491435345000000000000000000,
    1026226722541980000000000000000000, 1026226722541980000000000000000000, 1026226722541980000000000000000000,
    1026226722541980000000000000000000, 1026226722541980000000000000000000, 1026226722541980000000000000000000,
    1029569137079970000000000000000000, 1029569137079970000000000000000000, 1029569137079970000000000000000000,
    1029569137079970000000000000000000, 1029569137079970000000000000000000, 1029569137079970000000000000000000,
    658514054865159000000000000000000, 658514054865159000000000000000000, 658514054865159000000000000000000,
    1191163277223170000000000000000000, 1191163277223170000000000000000000, 1191163277223170000000000000000000,
    1191163277223170000000000000000000, 1191163277223170000000000000000000, 1191163277223170000000000000000000,
    492670363119423000000000000000000, 492670363119423000000000000000000, 492670363119423000000000000000000,
    708841614310056000000000000000000, 708841614310056000000000000000000, 708841614310056000000000000000000,
    708841614310056000000000000000000, 708841614310056000000000000000000, 708841614310056000000000000000000,
    1536788840242700000000000000000000, 1536788840242700000000000000000000, 1536788840242700000000000000000000,
    1536788840242700000000000000000000, 1536788840242700000000000000000000, 1536788840242700000000000000000000,
    1304983011460570000000000000000000, 1304983011460570000000000000000000, 1304983011460570000000000000000000,
    1304983011460570000000000000000000, 1304983011460570000000000000000000, 1304983011460570000000000000000000,
    1348250645705370000000000000000000, 1348250645705370000000000000000000, 1348250645705370000000000000000000,
    146626786286445000000000000000000, 146626786286445000000000000000000, 146626786286445000000000000000000,
    1178488539661030000000000000000000, 1178488539661030000000000000000000, 1178488539661030000000000000000000,
    1178488539661030000000000000000000, 1178488539661030000000000000000000, 1178488539661030000000000000000000,
    209005976603397000000000000000000, 209005976603397000000000000000000, 209005976603397000000000000000000,
    209005976603397000000000000000000, 209005976603397000000000000000000, 209005976603397000000000000000000,
    1279450660910340000000000000000000, 1279450660910340000000000000000000, 1279450660910340000000000000000000,
    339299846632590000000000000000000, 339299846632590000000000000000000, 339299846632590000000000000000000,
    339299846632590000000000000000000, 339299846632590000000000000000000, 339299846632590000000000000000000,
    393945585959648000000000000000000, 393945585959648000000000000000000, 393945585959648000000000000000000,
    393945585959648000000000000000000, 393945585959648000000000000000000, 393945585959648000000000000000000,
    929190672018951000000000000000000, 929190672018951000000000000000000, 929190672018951000000000000000000,
    929190672018951000000000000000000, 929190672018951000000000000000000, 929190672018951000000000000000000,
    1016725914288530000000000000000000, 1016725914288530000000000000000000, 1016725914288530000000000000000000,
    1016725914288530000000000000000000, 1016725914288530000000000000000000, 1016725914288530000000000000000000,
    1957741105551490000000000000000000, 1957741105551490000000000000000000, 1957741105551490000000000000000000,
    1957741105551490000000000000000000, 1957741105551490000000000000000000, 1957741105551490000000000000000000,
    2479687987287570000000000000000000, 2479687987287570000000000000000000, 2479687987287570000000000000000000,
    2479687987287570000000000000000000, 2479687987287570000000000000000000, 2479687987287570000000000000000000,
    2238852935543160000000000000000000, 2238852935543160000000000000000000, 2238852935543160000000000000000000,
    2238852935543160000000000000000000, 2238852935543160000000000000000000, 2238852935543160000000000000000000,
    1862448419834570000000000000000000, 1862448419834570000000000000000000, 1862448419834570000000000000000000,
    1088004443075530000000000000000000, 1088004443075530000000000000000000, 1088004443075530000000000000000000,
    1088004443075530000000000000000000, 1088004443075530000000000000000000, 1088004443075530000000000000000000,
    814399376777922000000000000000000, 814399376777922000000000000000000, 814399376777922000000000000000000,
    814399376777922000000000000000000, 814399376777922000000000000000000, 814399376777922000000000000000000,
    2701322257581450000000000000000000, 2701322257581450000000000000000000, 2701322257581450000000000000000000,
    317053091309396000000000000000000, 317053091309396000000000000000000, 317053091309396000000000000000000,
    317053091309396000000000000000000, 317053091309396000000000000000000, 317053091309396000000000000000000,
    661969128802771000000000000000000, 661969128802771000000000000000000, 661969128802771000000000000000000,
    661969128802771000000000000000000, 661969128802771000000000000000000, 661969128802771000000000000000000,
    332533066999982000000000000000000, 332533066999982000000000000000000, 332533066999982000000000000000000,
    332533066999982000000000000000000, 332533066999982000000000000000000, 332533066999982000000000000000000,
    2148601930255910000000000000000000, 2148601930255910000000000000000000, 2148601930255910000000000000000000,
    2583275969303690000000000000000000, 2583275969303690000000000000000000, 2583275969303690000000000000000000,
    457706190537052000000000000000000, 457706190537052000000000000000000, 457706190537052000000000000000000,
    457706190537052000000000000000000, 457706190537052000000000000000000, 457706190537052000000000000000000,
    483470480347864000000000000000000, 483470480347864000000000000000000, 483470480347864000000000000000000,
    58131385638303100000000000000000, 58131385638303100000000000000000, 58131385638303100000000000000000,
    58131385638303100000000000000000, 58131385638303100000000000000000, 58131385638303100000000000000000]⟩

/-- `triangle_table_orig[31]` (xg_quad_data.py 3986-4353). -/
def xgTri_31 : XgTableRule :=
  ⟨[
    [m 5551115123125780000, 22204460492503100000],
    [m 4857225732735060000, m 52938101092158400000000000000000000],
    [45845740373918000000000000000000000, 26469050546079200000000000000000000],
    [m 45845740373917900000000000000000000, 26469050546079300000000000000000000],
    [m 61514906219173300000000000000000000, m 39259296230588600000000000000000000],
    [64757000979975000000000000000000000, m 33643823381927200000000000000000000],
    [m 3242094760801680000000000000000000, 72903119612515800000000000000000000],
    [61514906219173300000000000000000000, m 39259296230588600000000000000000000],
    [3242094760801730000000000000000000, 72903119612515800000000000000000000],
    [m 64757000979975000000000000000000000, m 33643823381927100000000000000000000],
    [2775557561562890000, m 29879521023518400000000000000000000],
    [25876424259278200000000000000000000, 14939760511759200000000000000000000],
    [m 25876424259278100000000000000000000, 14939760511759200000000000000000000],
    [m 60227258275696600000000000000000000, m 57170178188865700000000000000000000],
    [79624455788289000000000000000000000, m 23573246572606900000000000000000000],
    [m 19397197512592400000000000000000000, 80743424761472700000000000000000000],
    [60227258275696500000000000000000000, m 57170178188865700000000000000000000],
    [19397197512592500000000000000000000, 80743424761472700000000000000000000],
    [m 79624455788289000000000000000000000, m 23573246572606900000000000000000000],
    [m 50981188019097600000000000000000000, m 55459143708784700000000000000000000],
    [73519621333488300000000000000000000, m 16421432085257100000000000000000000],
    [m 22538433314390600000000000000000000, 71880575794041800000000000000000000],
    [50981188019097600000000000000000000, m 55459143708784700000000000000000000],
    [22538433314390700000000000000000000, 71880575794041800000000000000000000],
    [m 73519621333488300000000000000000000, m 16421432085257000000000000000000000],
    [m 76237961047990400000000000000000000, m 44016007333525500000000000000000000],
    [76237961047990400000000000000000000, m 44016007333525400000000000000000000],
    [0, 88032014667051000000000000000000000],
    [m 93815432009933300000000000000000000, m 57328995909056400000000000000000000],
    [96556082835663600000000000000000000, m 52582049433085900000000000000000000],
    [m 2740650825730270000000000000000000, 109911045342142000000000000000000000],
    [93815432009933300000000000000000000, m 57328995909056400000000000000000000],
    [2740650825730340000000000000000000, 109911045342142000000000000000000000],
    [m 96556082835663700000000000000000000, m 52582049433085800000000000000000000],
    [m 94680595225085700000000000000000000, m 54663867140237300000000000000000000],
    [94680595225085800000000000000000000, m 54663867140237200000000000000000000],
    [m 22204460492503100000, 109327734280475000000000000000000000],
    [m 20647073303633400000000000000000000, m 57395302409498300000000000000000000],
    [60029326596332500000000000000000000, 10816761210003100000000000000000000],
    [m 39382253292699000000000000000000000, 46578541199495200000000000000000000],
    [20647073303633400000000000000000000, m 57395302409498300000000000000000000],
    [39382253292699100000000000000000000, 46578541199495200000000000000000000],
    [m 60029326596332500000000000000000000, 10816761210003200000000000000000000],
    [m 14400331667261800000000000000000000, m 31297598217411600000000000000000000],
    [34304680967348000000000000000000000, 3177746061935570000000000000000000],
    [m 19904349300086100000000000000000000, 28119852155476100000000000000000000],
    [14400331667261800000000000000000000, m 31297598217411600000000000000000000],
    [19904349300086100000000000000000000, 28119852155476100000000000000000000],
    [m 34304680967348000000000000000000000, 3177746061935590000000000000000000],
    [m 48161033312898000000000000000000000, m 38089192422910900000000000000000000],
    [57066724904323600000000000000000000, m 22664082110022900000000000000000000],
    [m 8905691591425520000000000000000000, 60753274532933800000000000000000000],
    [48161033312898000000000000000000000, m 38089192422910900000000000000000000],
    [8905691591425560000000000000000000, 60753274532933800000000000000000000],
    [m 57066724904323600000000000000000000, m 22664082110022900000000000000000000],
    [m 10037070511088700000000000000000000, m 48291646123243900000000000000000000],
    [46840327588841900000000000000000000, 15453465019443500000000000000000000],
    [m 36803257077753200000000000000000000, 32838181103800500000000000000000000],
    [10037070511088700000000000000000000, m 48291646123243900000000000000000000],
    [36803257077753200000000000000000000, 32838181103800400000000000000000000],
    [m 46840327588841900000000000000000000, 15453465019443500000000000000000000],
    [m 69003405314434000000000000000000000, m 47237945269405600000000000000000000],
    [75410963283101200000000000000000000, m 36139729315231200000000000000000000],
    [m 6407557968667140000000000000000000, 83377674584636800000000000000000000],
    [69003405314434000000000000000000000, m 47237945269405600000000000000000000],
    [6407557968667190000000000000000000, 83377674584636800000000000000000000],
    [m 75410963283101200000000000000000000, m 36139729315231200000000000000000000],
    [m 45131857503676800000000000000000000, m 51224429424952900000000000000000000],
    [66927585928210700000000000000000000, m 13473120405687000000000000000000000],
    [m 21795728424533900000000000000000000, 64697549830639900000000000000000000],
    [45131857503676800000000000000000000, m 51224429424952900000000000000000000],
    [21795728424534000000000000000000000, 64697549830639900000000000000000000],
    [m 66927585928210700000000000000000000, m 13473120405686900000000000000000000],
    [m 84660740995916600000000000000000000, m 56975292247630700000000000000000000],
    [91672420972449000000000000000000000, m 44830706281863100000000000000000000],
    [m 7011679976532430000000000000000000, 101805998529494000000000000000000000],
    [84660740995916600000000000000000000, m 56975292247630700000000000000000000],
    [7011679976532490000000000000000000, 101805998529494000000000000000000000],
    [m 91672420972449100000000000000000000, m 44830706281863000000000000000000000],
    [m 14911203462776200000000000000000000, m 54743183795864700000000000000000000],
    [54864589582647500000000000000000000, 14458110898169700000000000000000000],
    [m 39953386119871300000000000000000000, 40285072897695000000000000000000000],
    [14911203462776200000000000000000000, m 54743183795864700000000000000000000],
    [39953386119871400000000000000000000, 40285072897695000000000000000000000],
    [m 54864589582647500000000000000000000, 14458110898169700000000000000000000],
    [m 55167853197329200000000000000000000, m 46896195562367600000000000000000000],
    [68197223296518000000000000000000000, m 24328664559953900000000000000000000],
    [m 13029370099188700000000000000000000, 71224860122321500000000000000000000],
    [55167853197329200000000000000000000, m 46896195562367600000000000000000000],
    [13029370099188800000000000000000000, 71224860122321500000000000000000000],
    [m 68197223296518000000000000000000000, m 24328664559953800000000000000000000],
    [m 88689641508961200000000000000000000, m 54546676966840700000000000000000000],
    [91583628699788200000000000000000000, m 49534144115874900000000000000000000],
    [m 2893987190826920000000000000000000, 104080821082716000000000000000000000],
    [88689641508961200000000000000000000, m 54546676966840700000000000000000000],
    [2893987190826990000000000000000000, 104080821082716000000000000000000000],
    [m 91583628699788200000000000000000000, m 49534144115874800000000000000000000],
    [m 34469050962721600000000000000000000, m 19900715852038200000000000000000000],
    [34469050962721600000000000000000000, m 19900715852038200000000000000000000],
    [m 11102230246251600000, 39801431704076500000000000000000000],
    [m 48264763844834200000000000000000000, m 27865674398188700000000000000000000],
    [48264763844834200000000000000000000, m 27865674398188700000000000000000000],
    [0, 55731348796377500000000000000000000],
    [m 84671445753285600000000000000000000, m 48885081998334300000000000000000000],
    [84671445753285600000000000000000000, m 48885081998334200000000000000000000],
    [0, 97770163996668500000000000000000000],
    [m 27328678036217300000000000000000000, m 50303973149300200000000000000000000],
    [57228857676692900000000000000000000, 1484657143440080000000000000000000],
    [m 29900179640475600000000000000000000, 48819316005860200000000000000000000],
    [27328678036217300000000000000000000, m 50303973149300200000000000000000000],
    [29900179640475600000000000000000000, 48819316005860100000000000000000000],
    [m 57228857676693000000000000000000000, 1484657143440130000000000000000000],
    [m 33518301010596500000000000000000000, m 55450610597908800000000000000000000],
    [64780787938445900000000000000000000, m 1302394867915780000000000000000000],
    [m 31262486927849400000000000000000000, 56753005465824600000000000000000000],
    [33518301010596500000000000000000000, m 55450610597908800000000000000000000],
    [31262486927849400000000000000000000, 56753005465824600000000000000000000],
    [m 64780787938445900000000000000000000, m 1302394867915720000000000000000000],
    [m 41995122085501600000000000000000000, m 57527720939459100000000000000000000],
    [70818028798144400000000000000000000, m 7604982091343760000000000000000000],
    [m 28822906712642700000000000000000000, 65132703030802900000000000000000000],
    [41995122085501600000000000000000000, m 57527720939459100000000000000000000],
    [28822906712642800000000000000000000, 65132703030802900000000000000000000],
    [m 70818028798144400000000000000000000, m 7604982091343730000000000000000000],
    [m 18328764721779700000000000000000000, m 19780119278969000000000000000000000],
    [26294468146363300000000000000000000, m 5983116229564690000000000000000000],
    [m 7965703424583650000000000000000000, 25763235508533700000000000000000000],
    [18328764721779700000000000000000000, m 19780119278969000000000000000000000],
    [7965703424583670000000000000000000, 25763235508533700000000000000000000],
    [m 26294468146363300000000000000000000, m 5983116229564680000000000000000000],
    [m 36991861294507900000000000000000000, m 43682917497899100000000000000000000],
    [56326446911854300000000000000000000, m 10194432865364600000000000000000000],
    [m 19334585617346400000000000000000000, 53877350363263700000000000000000000],
    [36991861294507900000000000000000000, m 43682917497899100000000000000000000],
    [19334585617346400000000000000000000, 53877350363263700000000000000000000],
    [m 56326446911854300000000000000000000, m 10194432865364600000000000000000000],
    [m 19826213773515200000000000000000000, m 41232373405740900000000000000000000],
    [45621389714455100000000000000000000, 3446181914145350000000000000000000],
    [m 25795175940939900000000000000000000, 37786191491595600000000000000000000],
    [19826213773515200000000000000000000, m 41232373405740900000000000000000000],
    [25795175940939900000000000000000000, 37786191491595600000000000000000000],
    [m 45621389714455100000000000000000000, 3446181914145370000000000000000000],
    [4683753385137380000, m 56955126226549400000000000000000000],
    [49324586187941100000000000000000000, 28477563113274700000000000000000000],
    [m 49324586187941100000000000000000000, 28477563113274700000000000000000000],
    [m 32037552704774400000000000000000000, m 32293156387181900000000000000000000],
    [43985470152070400000000000000000000, m 11598756323826600000000000000000000],
    [m 11947917447296000000000000000000000, 43891912711008500000000000000000000],
    [32037552704774400000000000000000000, m 32293156387181900000000000000000000],
    [11947917447296000000000000000000000, 43891912711008500000000000000000000],
    [m 43985470152070500000000000000000000, m 11598756323826600000000000000000000],
    [0, m 17956217803484500000000000000000000],
    [15550540773704000000000000000000000, 8978108901742290000000000000000000],
    [m 15550540773704000000000000000000000, 8978108901742300000000000000000000],
    [m 10752552889602100000000000000000000, m 6207989305287460000000000000000000],
    [10752552889602100000000000000000000, m 6207989305287460000000000000000000],
    [0, 12415978610575000000000000000000000],
    [m 78037306571931000000000000000000000, m 52966581912912800000000000000000000],
    [84889058774177400000000000000000000, m 41098998977750200000000000000000000],
    [m 6851752202246320000000000000000000, 94065580890663000000000000000000000],
    [78037306571931000000000000000000000, m 52966581912912800000000000000000000],
    [6851752202246390000000000000000000, 94065580890663000000000000000000000],
    [m 84889058774177400000000000000000000, m 41098998977750100000000000000000000],
    [m 98475157161181600000000000000000000, m 56854658495499000000000000000000000],
    [98475157161181600000000000000000000, m 56854658495498900000000000000000000],
    [22204460492503100000, 113709316990998000000000000000000000],
    [m 63930924222335000000000000000000000, m 53253326710135000000000000000000000],
    [78084195878176800000000000000000000, m 28739141108892500000000000000000000],
    [m 14153271655841800000000000000000000, 81992467819027500000000000000000000],
    [63930924222335000000000000000000000, m 53253326710135000000000000000000000],
    [14153271655841800000000000000000000, 81992467819027500000000000000000000],
    [m 78084195878176800000000000000000000, m 28739141108892500000000000000000000],
    [0, m 40532624526153900000000000000000000],
    [35102282521705500000000000000000000, 20266312263077000000000000000000000],
    [m 35102282521705400000000000000000000, 20266312263077000000000000000000000],
    [m 73284741377468400000000000000000000, m 56730901867998800000000000000000000],
    [85772772886023200000000000000000000, m 35100996808660800000000000000000000],
    [m 12488031508554800000000000000000000, 91831898676659700000000000000000000],
    [73284741377468400000000000000000000, m 56730901867998800000000000000000000],
    [12488031508554900000000000000000000, 91831898676659700000000000000000000],
    [m 85772772886023200000000000000000000, m 35100996808660700000000000000000000]],
   [1445070914333660000000000000000000, 700439336799053000000000000000000, 700439336799053000000000000000000,
    700439336799053000000000000000000, 1005679490981000000000000000000000, 1005679490981000000000000000000000,
    1005679490981000000000000000000000, 1005679490981000000000000000000000, 1005679490981000000000000000000000,
    1005679490981000000000000000000000, 1531666843335940000000000000000000, 1531666843335940000000000000000000,
    1531666843335940000000000000000000, 222369637165273000000000000000000, 222369637165273000000000000000000,
    222369637165273000000000000000000, 222369637165273000000000000000000, 222369637165273000000000000000000,
    222369637165273000000000000000000, 489566633422560000000000000000000, 489566633422560000000000000000000,
    489566633422560000000000000000000, 489566633422560000000000000000000, 489566633422560000000000000000000,
    489566633422560000000000000000000, 731571469955612000000000000000000, 731571469955612000000000000000000,
    731571469955612000000000000000000, 87556735286846800000000000000000, 87556735286846800000000000000000,
    87556735286846800000000000000000, 87556735286846800000000000000000, 87556735286846800000000000000000,
    87556735286846800000000000000000, 170930230345654000000000000000000, 170930230345654000000000000000000,
    170930230345654000000000000000000, 225633470441077000000000000000000, 225633470441077000000000000000000,
    225633470441077000000000000000000, 225633470441077000000000000000000, 225633470441077000000000000000000,
    225633470441077000000000000000000, 1765406545778120000000000000000000, 1765406545778120000000000000000000,
    1765406545778120000000000000000000, 1765406545778120000000000000000000, 1765406545778120000000000000000000,
    1765406545778120000000000000000000, 1362581939518300000000000000000000, 1362581939518300000000000000000000,
    1362581939518300000000000000000000, 1362581939518300000000000000000000, 1362581939518300000000000000000000,
    1362581939518300000000000000000000, 1233360339714330000000000000000000, 1233360339714330000000000000000000,
    1233360339714330000000000000000000, 1233360339714330000000000000000000, 1233360339714330000000000000000000,
    1233360339714330000000000000000000, 859809848789946000000000000000000, 859809848789946000000000000000000,
    859809848789946000000000000000000, 859809848789946000000000000000000, 859809848789946000000000000000000,
    859809848789946000000000000000000, 941618591543083000000000000000000, 941618591543083000000000000000000,
    941618591543083000000000000000000, 941618591543083000000000000000000, 941618591543083000000000000000000,
    941618591543083000000000000000000, 199633221216305000000000000000000, 199633221216305000000000000000000,
    199633221216305000000000000000000, 199633221216305000000000000000000, 199633221216305000000000000000000,
    199633221216305000000000000000000, 723708451316092000000000000000000, 723708451316092000000000000000000,
    723708451316092000000000000000000, 723708451316092000000000000000000, 723708451316092000000000000000000,
    723708451316092000000000000000000, 1102003998681290000000000000000000, 1102003998681290000000000000000000,
    1102003998681290000000000000000000, 1102003998681290000000000000000000, 1102003998681290000000000000000000,
    1102003998681290000000000000000000, 313980850970820000000000000000000, 313980850970820000000000000000000,
    313980850970820000000000000000000, 313980850970820000000000000000000, 313980850970820000000000000000000,
    313980850970820000000000000000000, 1946306100070850000000000000000000, 1946306100070850000000000000000000,
    1946306100070850000000000000000000, 1655701309388110000000000000000000, 1655701309388110000000000000000000,
    1655701309388110000000000000000000, 564490366439121000000000000000000, 564490366439121000000000000000000,
    564490366439121000000000000000000, 1158734931298410000000000000000000, 1158734931298410000000000000000000,
    1158734931298410000000000000000000, 1158734931298410000000000000000000, 1158734931298410000000000000000000,
    1158734931298410000000000000000000, 630416868092254000000000000000000, 630416868092254000000000000000000,
    630416868092254000000000000000000, 630416868092254000000000000000000, 630416868092254000000000000000000,
    630416868092254000000000000000000, 160971664393192000000000000000000, 160971664393192000000000000000000,
    160971664393192000000000000000000, 160971664393192000000000000000000, 160971664393192000000000000000000,
    160971664393192000000000000000000, 2233581151020260000000000000000000, 2233581151020260000000000000000000,
    2233581151020260000000000000000000, 2233581151020260000000000000000000, 2233581151020260000000000000000000,
    2233581151020260000000000000000000, 1468068548583770000000000000000000, 1468068548583770000000000000000000,
    1468068548583770000000000000000000, 1468068548583770000000000000000000, 1468068548583770000000000000000000,
    1468068548583770000000000000000000, 1666627010532550000000000000000000, 1666627010532550000000000000000000,
    1666627010532550000000000000000000, 1666627010532550000000000000000000, 1666627010532550000000000000000000,
    1666627010532550000000000000000000, 403162649482013000000000000000000, 403162649482013000000000000000000,
    403162649482013000000000000000000, 2009121611334320000000000000000000, 2009121611334320000000000000000000,
    2009121611334320000000000000000000, 2009121611334320000000000000000000, 2009121611334320000000000000000000,
    2009121611334320000000000000000000, 2379733054572400000000000000000000, 2379733054572400000000000000000000,
    2379733054572400000000000000000000, 2140648609499080000000000000000000, 2140648609499080000000000000000000,
    2140648609499080000000000000000000, 635071446328985000000000000000000, 635071446328985000000000000000000,
    635071446328985000000000000000000, 635071446328985000000000000000000, 635071446328985000000000000000000,
    635071446328985000000000000000000, 59652068709690900000000000000000, 59652068709690900000000000000000,
    59652068709690900000000000000000, 769955125766533000000000000000000, 769955125766533000000000000000000,
    769955125766533000000000000000000, 769955125766533000000000000000000, 769955125766533000000000000000000,
    769955125766533000000000000000000, 1807217880131210000000000000000000, 1807217880131210000000000000000000,
    1807217880131210000000000000000000, 315450235552639000000000000000000, 315450235552639000000000000000000,
    315450235552639000000000000000000, 315450235552639000000000000000000, 315450235552639000000000000000000,
    315450235552639000000000000000000]⟩

/-- `triangle_table_orig[32]` (xg_quad_data.py 4354-4745). -/
def xgTri_32 : XgTableRule :=
  ⟨[
    [m 99562766361289000000000000000000000, m 57482589959954100000000000000000000],
    [99562766361289000000000000000000000, m 57482589959954000000000000000000000],
    [22204460492503100000, 114965179919908000000000000000000000],
    [m 42746868613914900000000000000000000, m 30218292328705000000000000000000000],
    [47543243122600500000000000000000000, m 21910727987533500000000000000000000],
    [m 4796374508685520000000000000000000, 52129020316238600000000000000000000],
    [42746868613914900000000000000000000, m 30218292328705000000000000000000000],
    [4796374508685550000000000000000000, 52129020316238600000000000000000000],
    [m 47543243122600500000000000000000000, m 21910727987533500000000000000000000],
    [m 9171070450281130000000000000000000, m 55177404065234500000000000000000000],
    [52370568860512400000000000000000000, 19646322042777000000000000000000000],
    [m 43199498410231200000000000000000000, 35531082022457500000000000000000000],
    [9171070450281110000000000000000000, m 55177404065234500000000000000000000],
    [43199498410231300000000000000000000, 35531082022457500000000000000000000],
    [m 52370568860512400000000000000000000, 19646322042777000000000000000000000],
    [5030698080332740000, m 57267682745711800000000000000000000],
    [49595268073654200000000000000000000, 28633841372855900000000000000000000],
    [m 49595268073654200000000000000000000, 28633841372856000000000000000000000],
    [m 48363645746701000000000000000000000, m 48826894371900200000000000000000000],
    [66467153787315500000000000000000000, m 17470698650324100000000000000000000],
    [m 18103508040614500000000000000000000, 66297593022224400000000000000000000],
    [48363645746701000000000000000000000, m 48826894371900200000000000000000000],
    [18103508040614600000000000000000000, 66297593022224400000000000000000000],
    [m 66467153787315500000000000000000000, m 17470698650324100000000000000000000],
    [m 74677040622149200000000000000000000, m 54347180509529600000000000000000000],
    [84404559256385700000000000000000000, m 37498624003458900000000000000000000],
    [m 9727518634236520000000000000000000, 91845804512988500000000000000000000],
    [74677040622149200000000000000000000, m 54347180509529600000000000000000000],
    [9727518634236580000000000000000000, 91845804512988500000000000000000000],
    [m 84404559256385700000000000000000000, m 37498624003458800000000000000000000],
    [m 33090034155997500000000000000000000, m 55549427045965400000000000000000000],
    [64652232065475200000000000000000000, m 882096668205867000000000000000000],
    [m 31562197909477700000000000000000000, 56431523714171400000000000000000000],
    [33090034155997500000000000000000000, m 55549427045965400000000000000000000],
    [31562197909477700000000000000000000, 56431523714171300000000000000000000],
    [m 64652232065475200000000000000000000, m 882096668205834000000000000000000],
    [m 46023597931812000000000000000000000, m 54086954371044300000000000000000000],
    [69852475464560100000000000000000000, m 12814127796988100000000000000000000],
    [m 23828877532748100000000000000000000, 66901082168032400000000000000000000],
    [46023597931812000000000000000000000, m 54086954371044300000000000000000000],
    [23828877532748100000000000000000000, 66901082168032400000000000000000000],
    [m 69852475464560200000000000000000000, m 12814127796988000000000000000000000],
    [m 55152849427095300000000000000000000, m 37375893906115300000000000000000000],
    [59944898325395400000000000000000000, m 29075821741904900000000000000000000],
    [m 4792048898300140000000000000000000, 66451715648020200000000000000000000],
    [55152849427095300000000000000000000, m 37375893906115300000000000000000000],
    [4792048898300180000000000000000000, 66451715648020200000000000000000000],
    [m 59944898325395500000000000000000000, m 29075821741904900000000000000000000],
    [m 20577133469764000000000000000000000, m 52660317145013900000000000000000000],
    [55893739153809200000000000000000000, 8509838250628250000000000000000000],
    [m 35316605684045200000000000000000000, 44150478894385600000000000000000000],
    [20577133469764000000000000000000000, m 52660317145013900000000000000000000],
    [35316605684045200000000000000000000, 44150478894385600000000000000000000],
    [m 55893739153809200000000000000000000, 8509838250628300000000000000000000],
    [m 20092303305428400000000000000000000, m 57138712716648800000000000000000000],
    [59529728404873100000000000000000000, 11168911275281400000000000000000000],
    [m 39437425099444600000000000000000000, 45969801441367500000000000000000000],
    [20092303305428400000000000000000000, m 57138712716648800000000000000000000],
    [39437425099444700000000000000000000, 45969801441367500000000000000000000],
    [m 59529728404873100000000000000000000, 11168911275281400000000000000000000],
    [m 2775557561562890000, m 51211470939471700000000000000000000],
    [44350434798751100000000000000000000, 25605735469735900000000000000000000],
    [m 44350434798751000000000000000000000, 25605735469735900000000000000000000],
    [m 25879477956175600000000000000000000, m 42082435075243700000000000000000000],
    [49384196806358100000000000000000000, m 1371067809105530000000000000000000],
    [m 23504718850182600000000000000000000, 43453502884349300000000000000000000],
    [25879477956175500000000000000000000, m 42082435075243700000000000000000000],
    [23504718850182600000000000000000000, 43453502884349300000000000000000000],
    [m 49384196806358100000000000000000000, m 1371067809105510000000000000000000],
    [4163336342344340000, m 41206328125638500000000000000000000],
    [35685726953480200000000000000000000, 20603164062819300000000000000000000],
    [m 35685726953480100000000000000000000, 20603164062819300000000000000000000],
    [m 72262398109805300000000000000000000, m 48953938794088200000000000000000000],
    [78526553665891600000000000000000000, m 38104103104431900000000000000000000],
    [m 6264155556086210000000000000000000, 87058041898520200000000000000000000],
    [72262398109805400000000000000000000, m 48953938794088200000000000000000000],
    [6264155556086280000000000000000000, 87058041898520200000000000000000000],
    [m 78526553665891600000000000000000000, m 38104103104431900000000000000000000],
    [m 32997225542915500000000000000000000, m 49430799576545800000000000000000000],
    [59306940934123500000000000000000000, m 3861035786296650000000000000000000],
    [m 26309715391208000000000000000000000, 53291835362842500000000000000000000],
    [32997225542915500000000000000000000, m 49430799576545800000000000000000000],
    [26309715391208000000000000000000000, 53291835362842500000000000000000000],
    [m 59306940934123500000000000000000000, m 3861035786296620000000000000000000],
    [m 40104907184189400000000000000000000, m 57513903374312300000000000000000000],
    [69860954985052700000000000000000000, m 5974916750768910000000000000000000],
    [m 29756047800863300000000000000000000, 63488820125081300000000000000000000],
    [40104907184189400000000000000000000, m 57513903374312300000000000000000000],
    [29756047800863300000000000000000000, 63488820125081300000000000000000000],
    [m 69860954985052700000000000000000000, m 5974916750768850000000000000000000],
    [5551115123125780000, m 14894052019733000000000000000000000],
    [12898627414375700000000000000000000, 7447026009866520000000000000000000],
    [m 12898627414375700000000000000000000, 7447026009866520000000000000000000],
    [m 69151287469732100000000000000000000, m 56996729278416800000000000000000000],
    [83936259222599300000000000000000000, m 31388407013980100000000000000000000],
    [m 14784971752867200000000000000000000, 88385136292397000000000000000000000],
    [69151287469732100000000000000000000, m 56996729278416800000000000000000000],
    [14784971752867200000000000000000000, 88385136292397000000000000000000000],
    [m 83936259222599300000000000000000000, m 31388407013980100000000000000000000],
    [m 81882407794345800000000000000000000, m 57067752268839600000000000000000000],
    [90363327098865000000000000000000000, m 42378369138520600000000000000000000],
    [m 8480919304519210000000000000000000, 99446121407360300000000000000000000],
    [81882407794345800000000000000000000, m 57067752268839600000000000000000000],
    [8480919304519260000000000000000000, 99446121407360200000000000000000000],
    [m 90363327098865100000000000000000000, m 42378369138520500000000000000000000],
    [m 15094516045128000000000000000000000, m 8714822901941790000000000000000000],
    [15094516045128000000000000000000000, m 8714822901941770000000000000000000],
    [0, 17429645803883600000000000000000000],
    [m 15979469018140200000000000000000000, m 22764895370246800000000000000000000],
    [27704712214198600000000000000000000, m 2456178423572390000000000000000000],
    [m 11725243196058400000000000000000000, 25221073793819300000000000000000000],
    [15979469018140200000000000000000000, m 22764895370246800000000000000000000],
    [11725243196058400000000000000000000, 25221073793819300000000000000000000],
    [m 27704712214198600000000000000000000, m 2456178423572370000000000000000000],
    [0, m 27832827065225100000000000000000000],
    [24103935297624000000000000000000000, 13916413532612600000000000000000000],
    [m 24103935297624000000000000000000000, 13916413532612600000000000000000000],
    [m 59877821961446400000000000000000000, m 46007242792992000000000000000000000],
    [69782351997532800000000000000000000, m 28852093545398300000000000000000000],
    [m 9904530036086390000000000000000000, 74859336338390400000000000000000000],
    [59877821961446400000000000000000000, m 46007242792992000000000000000000000],
    [9904530036086450000000000000000000, 74859336338390400000000000000000000],
    [m 69782351997532900000000000000000000, m 28852093545398300000000000000000000],
    [m 90919242687866700000000000000000000, m 52492249240356800000000000000000000],
    [90919242687866700000000000000000000, m 52492249240356700000000000000000000],
    [0, 104984498480714000000000000000000000],
    [m 96156941055966400000000000000000000, m 55516235803113200000000000000000000],
    [96156941055966400000000000000000000, m 55516235803113200000000000000000000],
    [0, 111032471606226000000000000000000000],
    [m 42015173485048000000000000000000000, m 41181398695180700000000000000000000],
    [56671724175925800000000000000000000, m 15795508234871600000000000000000000],
    [m 14656550690877800000000000000000000, 56976906930052300000000000000000000],
    [42015173485048000000000000000000000, m 41181398695180700000000000000000000],
    [14656550690877900000000000000000000, 56976906930052300000000000000000000],
    [m 56671724175925800000000000000000000, m 15795508234871500000000000000000000],
    [m 28990563943088200000000000000000000, m 31690029177033700000000000000000000],
    [41939652285525400000000000000000000, m 9261550256234700000000000000000000],
    [m 12949088342437100000000000000000000, 40951579433268500000000000000000000],
    [28990563943088200000000000000000000, m 31690029177033700000000000000000000],
    [12949088342437200000000000000000000, 40951579433268500000000000000000000],
    [m 41939652285525400000000000000000000, m 9261550256234670000000000000000000],
    [m 84085334890090000000000000000000000, m 53517509064720500000000000000000000],
    [88390189842356900000000000000000000, m 46061281568179700000000000000000000],
    [m 4304854952266920000000000000000000, 99578790632900200000000000000000000],
    [84085334890090000000000000000000000, m 53517509064720500000000000000000000],
    [4304854952266980000000000000000000, 99578790632900200000000000000000000],
    [m 88390189842356900000000000000000000, m 46061281568179600000000000000000000],
    [m 12723619924623600000000000000000000, m 35324390902713100000000000000000000],
    [36953629857273300000000000000000000, 6643217368534700000000000000000000],
    [m 24230009932649700000000000000000000, 28681173534178500000000000000000000],
    [12723619924623600000000000000000000, m 35324390902713100000000000000000000],
    [24230009932649700000000000000000000, 28681173534178500000000000000000000],
    [m 36953629857273300000000000000000000, 6643217368534740000000000000000000],
    [m 12551628141173300000000000000000000, m 46783716452744600000000000000000000],
    [46791701002111500000000000000000000, 12521829397260600000000000000000000],
    [m 34240072860938200000000000000000000, 34261887055484100000000000000000000],
    [12551628141173300000000000000000000, m 46783716452744600000000000000000000],
    [34240072860938200000000000000000000, 34261887055484100000000000000000000],
    [m 46791701002111500000000000000000000, 12521829397260600000000000000000000],
    [m 5551115123125780000, 22204460492503100000],
    [m 81396805052120700000000000000000000, m 46994467308017400000000000000000000],
    [81396805052120700000000000000000000, m 46994467308017400000000000000000000],
    [0, 93988934616034800000000000000000000],
    [m 55077303550427200000000000000000000, m 56822819321284000000000000000000000],
    [76748656822098800000000000000000000, m 19286934385974900000000000000000000],
    [m 21671353271671500000000000000000000, 76109753707258900000000000000000000],
    [55077303550427200000000000000000000, m 56822819321284000000000000000000000],
    [21671353271671600000000000000000000, 76109753707258800000000000000000000],
    [m 76748656822098700000000000000000000, m 19286934385974800000000000000000000],
    [m 61718975394462300000000000000000000, m 53204175653167200000000000000000000],
    [76935655400283500000000000000000000, m 26848112760567400000000000000000000],
    [m 15216680005821200000000000000000000, 80052288413734700000000000000000000],
    [61718975394462300000000000000000000, m 53204175653167200000000000000000000],
    [15216680005821200000000000000000000, 80052288413734700000000000000000000],
    [m 76935655400283500000000000000000000, m 26848112760567400000000000000000000],
    [m 90920085094674900000000000000000000, m 56772912901378600000000000000000000],
    [94626827366772600000000000000000000, m 50352646955542000000000000000000000],
    [m 3706742272097690000000000000000000, 107125559856921000000000000000000000],
    [90920085094674900000000000000000000, m 56772912901378600000000000000000000],
    [3706742272097750000000000000000000, 107125559856921000000000000000000000],
    [m 94626827366772600000000000000000000, m 50352646955542000000000000000000000],
    [m 31216600921579000000000000000000000, m 18022912945258800000000000000000000],
    [31216600921579000000000000000000000, m 18022912945258700000000000000000000],
    [0, 36045825890517500000000000000000000],
    [m 69412351929919100000000000000000000, m 40075240071823900000000000000000000],
    [69412351929919100000000000000000000, m 40075240071823800000000000000000000],
    [0, 80150480143647700000000000000000000],
    [m 97068830122109400000000000000000000, m 57627103176029300000000000000000000],
    [98440950358003000000000000000000000, m 55250521213368300000000000000000000],
    [m 1372120235893480000000000000000000, 112877624389398000000000000000000000],
    [97068830122109400000000000000000000, m 57627103176029300000000000000000000],
    [1372120235893570000000000000000000, 112877624389398000000000000000000000],
    [m 98440950358003000000000000000000000, m 55250521213368200000000000000000000]],
   [9235970809931740000000000000000, 9235970809931740000000000000000, 9235970809931740000000000000000,
    1446127173588570000000000000000000, 1446127173588570000000000000000000, 1446127173588570000000000000000000,
    1446127173588570000000000000000000, 1446127173588570000000000000000000, 1446127173588570000000000000000000,
    526656419861186000000000000000000, 526656419861186000000000000000000, 526656419861186000000000000000000,
    526656419861186000000000000000000, 526656419861186000000000000000000, 526656419861186000000000000000000,
    245020626672336000000000000000000, 245020626672336000000000000000000, 245020626672336000000000000000000,
    915569609061069000000000000000000, 915569609061069000000000000000000, 915569609061069000000000000000000,
    915569609061069000000000000000000, 915569609061069000000000000000000, 915569609061069000000000000000000,
    431847018651026000000000000000000, 431847018651026000000000000000000, 431847018651026000000000000000000,
    431847018651026000000000000000000, 431847018651026000000000000000000, 431847018651026000000000000000000,
    523179985860810000000000000000000, 523179985860810000000000000000000, 523179985860810000000000000000000,
    523179985860810000000000000000000, 523179985860810000000000000000000, 523179985860810000000000000000000,
    631189725085118000000000000000000, 631189725085118000000000000000000, 631189725085118000000000000000000,
    631189725085118000000000000000000, 631189725085118000000000000000000, 631189725085118000000000000000000,
    1295762745492560000000000000000000, 1295762745492560000000000000000000, 1295762745492560000000000000000000,
    1295762745492560000000000000000000, 1295762745492560000000000000000000, 1295762745492560000000000000000000,
    791227505961662000000000000000000, 791227505961662000000000000000000, 791227505961662000000000000000000,
    791227505961662000000000000000000, 791227505961662000000000000000000, 791227505961662000000000000000000,
    291885832650543000000000000000000, 291885832650543000000000000000000, 291885832650543000000000000000000,
    291885832650543000000000000000000, 291885832650543000000000000000000, 291885832650543000000000000000000,
    966486973366348000000000000000000, 966486973366348000000000000000000, 966486973366348000000000000000000,
    1421876300153430000000000000000000, 1421876300153430000000000000000000, 1421876300153430000000000000000000,
    1421876300153430000000000000000000, 1421876300153430000000000000000000, 1421876300153430000000000000000000,
    1451214479537100000000000000000000, 1451214479537100000000000000000000, 1451214479537100000000000000000000,
    773477919026175000000000000000000, 773477919026175000000000000000000, 773477919026175000000000000000000,
    773477919026175000000000000000000, 773477919026175000000000000000000, 773477919026175000000000000000000,
    1074362488862990000000000000000000, 1074362488862990000000000000000000, 1074362488862990000000000000000000,
    1074362488862990000000000000000000, 1074362488862990000000000000000000, 1074362488862990000000000000000000,
    153960704720825000000000000000000, 153960704720825000000000000000000, 153960704720825000000000000000000,
    153960704720825000000000000000000, 153960704720825000000000000000000, 153960704720825000000000000000000,
    2193000546835730000000000000000000, 2193000546835730000000000000000000, 2193000546835730000000000000000000,
    257249265904015000000000000000000, 257249265904015000000000000000000, 257249265904015000000000000000000,
    257249265904015000000000000000000, 257249265904015000000000000000000, 257249265904015000000000000000000,
    192726392446728000000000000000000, 192726392446728000000000000000000, 192726392446728000000000000000000,
    192726392446728000000000000000000, 192726392446728000000000000000000, 192726392446728000000000000000000,
    2231354840322100000000000000000000, 2231354840322100000000000000000000, 2231354840322100000000000000000000,
    2073846630276750000000000000000000, 2073846630276750000000000000000000, 2073846630276750000000000000000000,
    2073846630276750000000000000000000, 2073846630276750000000000000000000, 2073846630276750000000000000000000,
    1884551996867720000000000000000000, 1884551996867720000000000000000000, 1884551996867720000000000000000000,
    1018847028698250000000000000000000, 1018847028698250000000000000000000, 1018847028698250000000000000000000,
    1018847028698250000000000000000000, 1018847028698250000000000000000000, 1018847028698250000000000000000000,
    322036439993973000000000000000000, 322036439993973000000000000000000, 322036439993973000000000000000000,
    138865623601147000000000000000000, 138865623601147000000000000000000, 138865623601147000000000000000000,
    1463365295353520000000000000000000, 1463365295353520000000000000000000, 1463365295353520000000000000000000,
    1463365295353520000000000000000000, 1463365295353520000000000000000000, 1463365295353520000000000000000000,
    1768676046639590000000000000000000, 1768676046639590000000000000000000, 1768676046639590000000000000000000,
    1768676046639590000000000000000000, 1768676046639590000000000000000000, 1768676046639590000000000000000000,
    431273576214221000000000000000000, 431273576214221000000000000000000, 431273576214221000000000000000000,
    431273576214221000000000000000000, 431273576214221000000000000000000, 431273576214221000000000000000000,
    1712739420543080000000000000000000, 1712739420543080000000000000000000, 1712739420543080000000000000000000,
    1712739420543080000000000000000000, 1712739420543080000000000000000000, 1712739420543080000000000000000000,
    1283296040259240000000000000000000, 1283296040259240000000000000000000, 1283296040259240000000000000000000,
    1283296040259240000000000000000000, 1283296040259240000000000000000000, 1283296040259240000000000000000000,
    2256874499089040000000000000000000, 688723779501585000000000000000000, 688723779501585000000000000000000,
    688723779501585000000000000000000, 336986634424527000000000000000000, 336986634424527000000000000000000,
    336986634424527000000000000000000, 336986634424527000000000000000000, 336986634424527000000000000000000,
    336986634424527000000000000000000, 737998546788714000000000000000000, 737998546788714000000000000000000,
    737998546788714000000000000000000, 737998546788714000000000000000000, 737998546788714000000000000000000,
    737998546788714000000000000000000, 182796202918369000000000000000000, 182796202918369000000000000000000,
    182796202918369000000000000000000, 182796202918369000000000000000000, 182796202918369000000000000000000,
    182796202918369000000000000000000, 2171229216406880000000000000000000, 2171229216406880000000000000000000,
    2171229216406880000000000000000000, 1148245609093460000000000000000000, 1148245609093460000000000000000000,
    1148245609093460000000000000000000, 29460148686035200000000000000000, 29460148686035200000000000000000,
    29460148686035200000000000000000, 29460148686035200000000000000000, 29460148686035200000000000000000,
    29460148686035200000000000000000]⟩

/-- `triangle_table_orig[33]` (xg_quad_data.py 4746-5159). -/
def xgTri_33 : XgTableRule :=
  ⟨[
    [m 73994728019629100000000000000000000, m 42720876140746000000000000000000000],
    [73994728019629100000000000000000000, m 42720876140746000000000000000000000],
    [0, 85441752281492000000000000000000000],
    [m 2775557561562890000, m 26359952191974300000000000000000000],
    [22828388240793000000000000000000000, 13179976095987100000000000000000000],
    [m 22828388240793000000000000000000000, 13179976095987200000000000000000000],
    [m 39676550645769900000000000000000000, m 42678545506855400000000000000000000],
    [56798979928391900000000000000000000, m 13021628040349000000000000000000000],
    [m 17122429282622000000000000000000000, 55700173547204400000000000000000000],
    [39676550645770000000000000000000000, m 42678545506855400000000000000000000],
    [17122429282622000000000000000000000, 55700173547204400000000000000000000],
    [m 56798979928391900000000000000000000, m 13021628040348900000000000000000000],
    [m 31598316073300300000000000000000000, m 37973706727153900000000000000000000],
    [48685352738225500000000000000000000, m 8378091072711250000000000000000000],
    [m 17087036664925100000000000000000000, 46351797799865200000000000000000000],
    [31598316073300300000000000000000000, m 37973706727153900000000000000000000],
    [17087036664925200000000000000000000, 46351797799865200000000000000000000],
    [m 48685352738225500000000000000000000, m 8378091072711210000000000000000000],
    [2775557561562890000, m 15588528269354400000000000000000000],
    [13500061488872800000000000000000000, 7794264134677240000000000000000000],
    [m 13500061488872800000000000000000000, 7794264134677250000000000000000000],
    [2168404344971010000, m 57381590818073300000000000000000000],
    [49693915358015400000000000000000000, 28690795409036700000000000000000000],
    [m 49693915358015400000000000000000000, 28690795409036700000000000000000000],
    [m 64019940087608100000000000000000000, m 41858125784281600000000000000000000],
    [68260170327796300000000000000000000, m 34513831572485500000000000000000000],
    [m 4240230240188270000000000000000000, 76371957356767200000000000000000000],
    [64019940087608000000000000000000000, m 41858125784281600000000000000000000],
    [4240230240188310000000000000000000, 76371957356767200000000000000000000],
    [m 68260170327796400000000000000000000, m 34513831572485500000000000000000000],
    [m 13023310833724100000000000000000000, m 20333227220053600000000000000000000],
    [24120746730349700000000000000000000, m 1111904413359370000000000000000000],
    [m 11097435896625600000000000000000000, 21445131633413000000000000000000000],
    [13023310833724100000000000000000000, m 20333227220053600000000000000000000],
    [11097435896625600000000000000000000, 21445131633413000000000000000000000],
    [m 24120746730349700000000000000000000, m 1111904413359350000000000000000000],
    [m 22101799597383600000000000000000000, m 12760479947124600000000000000000000],
    [22101799597383700000000000000000000, m 12760479947124600000000000000000000],
    [m 5551115123125780000, 25520959894249200000000000000000000],
    [m 77591825174786500000000000000000000, m 53856910378372600000000000000000000],
    [85437365144405700000000000000000000, m 40268036538179800000000000000000000],
    [m 7845539969619160000000000000000000, 94124946916552500000000000000000000],
    [77591825174786500000000000000000000, m 53856910378372600000000000000000000],
    [7845539969619230000000000000000000, 94124946916552500000000000000000000],
    [m 85437365144405800000000000000000000, m 40268036538179700000000000000000000],
    [m 19029241130244400000000000000000000, m 40545819052596600000000000000000000],
    [44628329881918000000000000000000000, 3793103292766970000000000000000000],
    [m 25599088751673600000000000000000000, 36752715759829700000000000000000000],
    [19029241130244400000000000000000000, m 40545819052596600000000000000000000],
    [25599088751673600000000000000000000, 36752715759829700000000000000000000],
    [m 44628329881917900000000000000000000, 3793103292767020000000000000000000],
    [m 66275085646437500000000000000000000, m 54194078514648200000000000000000000],
    [80070991551592600000000000000000000, m 30298868550480200000000000000000000],
    [m 13795905905155000000000000000000000, 84492947065128500000000000000000000],
    [66275085646437600000000000000000000, m 54194078514648200000000000000000000],
    [13795905905155000000000000000000000, 84492947065128500000000000000000000],
    [m 80070991551592600000000000000000000, m 30298868550480200000000000000000000],
    [4857225732735060000, m 50291356104093600000000000000000000],
    [43553591976914700000000000000000000, 25145678052046800000000000000000000],
    [m 43553591976914600000000000000000000, 25145678052046800000000000000000000],
    [m 13890838462724000000000000000000000, m 47583110208346100000000000000000000],
    [48153601462864400000000000000000000, 11761736115588100000000000000000000],
    [m 34262763000140400000000000000000000, 35821374092758000000000000000000000],
    [13890838462724000000000000000000000, m 47583110208346100000000000000000000],
    [34262763000140400000000000000000000, 35821374092758000000000000000000000],
    [m 48153601462864400000000000000000000, 11761736115588200000000000000000000],
    [m 52593106350449000000000000000000000, m 54370533785038500000000000000000000],
    [73382816650387900000000000000000000, m 18361699270906200000000000000000000],
    [m 20789710299938900000000000000000000, 72732233055944800000000000000000000],
    [52593106350449000000000000000000000, m 54370533785038500000000000000000000],
    [20789710299938900000000000000000000, 72732233055944800000000000000000000],
    [m 73382816650387900000000000000000000, m 18361699270906200000000000000000000],
    [m 74112180754338100000000000000000000, m 48924051171923100000000000000000000],
    [79425561548104300000000000000000000, m 39721005677159400000000000000000000],
    [m 5313380793766160000000000000000000, 88645056849082600000000000000000000],
    [74112180754338100000000000000000000, m 48924051171923100000000000000000000],
    [5313380793766240000000000000000000, 88645056849082500000000000000000000],
    [m 79425561548104300000000000000000000, m 39721005677159300000000000000000000],
    [m 49295570914510800000000000000000000, m 57075764711609400000000000000000000],
    [74076847637932500000000000000000000, m 14153334350218900000000000000000000],
    [m 24781276723421700000000000000000000, 71229099061828400000000000000000000],
    [49295570914510800000000000000000000, m 57075764711609400000000000000000000],
    [24781276723421800000000000000000000, 71229099061828300000000000000000000],
    [m 74076847637932500000000000000000000, m 14153334350218900000000000000000000],
    [m 51670323488631800000000000000000000, m 41461766926988500000000000000000000],
    [61742105188877400000000000000000000, m 24016929299420600000000000000000000],
    [m 10071781700245600000000000000000000, 65478696226409200000000000000000000],
    [51670323488631800000000000000000000, m 41461766926988500000000000000000000],
    [10071781700245700000000000000000000, 65478696226409200000000000000000000],
    [m 61742105188877400000000000000000000, m 24016929299420600000000000000000000],
    [m 64505375945992200000000000000000000, m 57099887763461900000000000000000000],
    [81702641329394300000000000000000000, m 27313350368163900000000000000000000],
    [m 17197265383402100000000000000000000, 84413238131625900000000000000000000],
    [64505375945992100000000000000000000, m 57099887763461900000000000000000000],
    [17197265383402100000000000000000000, 84413238131625900000000000000000000],
    [m 81702641329394300000000000000000000, m 27313350368163900000000000000000000],
    [m 61872928859268200000000000000000000, m 49001038870971600000000000000000000],
    [73372608903724200000000000000000000, m 29083008763187800000000000000000000],
    [m 11499680044456000000000000000000000, 78084047634159400000000000000000000],
    [61872928859268200000000000000000000, m 49001038870971600000000000000000000],
    [11499680044456100000000000000000000, 78084047634159400000000000000000000],
    [m 73372608903724200000000000000000000, m 29083008763187700000000000000000000],
    [m 87492200353713800000000000000000000, m 57022781943877900000000000000000000],
    [93129277934715700000000000000000000, m 47259077167375100000000000000000000],
    [m 5637077581001870000000000000000000, 104281859111253000000000000000000000],
    [87492200353713800000000000000000000, m 57022781943877900000000000000000000],
    [5637077581001940000000000000000000, 104281859111253000000000000000000000],
    [m 93129277934715800000000000000000000, m 47259077167375000000000000000000000],
    [m 33145619841996100000000000000000000, m 56983893491575400000000000000000000],
    [65922309291249100000000000000000000, m 213002061562406000000000000000000],
    [m 32776689449253000000000000000000000, 57196895553137900000000000000000000],
    [33145619841996100000000000000000000, m 56983893491575400000000000000000000],
    [32776689449253000000000000000000000, 57196895553137900000000000000000000],
    [m 65922309291249100000000000000000000, m 213002061562362000000000000000000],
    [m 9740939006817950000000000000000000, m 32834341163271900000000000000000000],
    [33305843067327500000000000000000000, 7981269945016860000000000000000000],
    [m 23564904060509600000000000000000000, 24853071218255100000000000000000000],
    [9740939006817940000000000000000000, m 32834341163271900000000000000000000],
    [23564904060509600000000000000000000, 24853071218255100000000000000000000],
    [m 33305843067327500000000000000000000, 7981269945016880000000000000000000],
    [m 92944767082626000000000000000000000, m 53661686294921300000000000000000000],
    [92944767082626100000000000000000000, m 53661686294921200000000000000000000],
    [m 22204460492503100000, 107323372589843000000000000000000000],
    [m 86499638747373800000000000000000000, m 53947756141543200000000000000000000],
    [89969946669431300000000000000000000, m 47937006502630900000000000000000000],
    [m 3470307922057440000000000000000000, 101884762644174000000000000000000000],
    [86499638747373800000000000000000000, m 53947756141543200000000000000000000],
    [3470307922057510000000000000000000, 101884762644174000000000000000000000],
    [m 89969946669431300000000000000000000, m 47937006502630800000000000000000000],
    [m 8192841471891810000000000000000000, m 4730139229224660000000000000000000],
    [8192841471891810000000000000000000, m 4730139229224660000000000000000000],
    [m 5551115123125780000, 9460278458449360000000000000000000],
    [m 56053284785007200000000000000000000, m 32362379059586600000000000000000000],
    [56053284785007200000000000000000000, m 32362379059586600000000000000000000],
    [0, 64724758119173300000000000000000000],
    [m 83686239016151000000000000000000000, m 48316272623442200000000000000000000],
    [83686239016151100000000000000000000, m 48316272623442200000000000000000000],
    [0, 96632545246884500000000000000000000],
    [m 24972283611883700000000000000000000, m 28583342001808200000000000000000000],
    [37240042104566500000000000000000000, m 7334960997497040000000000000000000],
    [m 12267758492682800000000000000000000, 35918302999305300000000000000000000],
    [24972283611883800000000000000000000, m 28583342001808200000000000000000000],
    [12267758492682800000000000000000000, 35918302999305300000000000000000000],
    [m 37240042104566500000000000000000000, m 7334960997497000000000000000000000],
    [m 47779523112848800000000000000000000, m 49332159111642900000000000000000000],
    [66612664570643200000000000000000000, m 16712201240611400000000000000000000],
    [m 18833141457794300000000000000000000, 66044360352254400000000000000000000],
    [47779523112848900000000000000000000, m 49332159111642900000000000000000000],
    [18833141457794300000000000000000000, 66044360352254400000000000000000000],
    [m 66612664570643200000000000000000000, m 16712201240611300000000000000000000],
    [m 16616445416618200000000000000000000, m 56914512902821000000000000000000000],
    [57597636726169300000000000000000000, 14066992600021700000000000000000000],
    [m 40981191309551100000000000000000000, 42847520302799400000000000000000000],
    [16616445416618200000000000000000000, m 56914512902821000000000000000000000],
    [40981191309551100000000000000000000, 42847520302799400000000000000000000],
    [m 57597636726169300000000000000000000, 14066992600021700000000000000000000],
    [m 36279240961075000000000000000000000, m 53901095406565900000000000000000000],
    [64819338394432300000000000000000000, m 4468196599024940000000000000000000],
    [m 28540097433357300000000000000000000, 58369292005590900000000000000000000],
    [36279240961075000000000000000000000, m 53901095406565900000000000000000000],
    [28540097433357300000000000000000000, 58369292005590900000000000000000000],
    [m 64819338394432300000000000000000000, m 4468196599024920000000000000000000],
    [m 77375327602359300000000000000000000, m 56974068564230500000000000000000000],
    [88028654534759600000000000000000000, m 38521965047671200000000000000000000],
    [m 10653326932400300000000000000000000, 95496033611901700000000000000000000],
    [77375327602359300000000000000000000, m 56974068564230500000000000000000000],
    [10653326932400400000000000000000000, 95496033611901700000000000000000000],
    [m 88028654534759700000000000000000000, m 38521965047671100000000000000000000],
    [m 34542395241023800000000000000000000, m 19943061190859500000000000000000000],
    [34542395241023800000000000000000000, m 19943061190859500000000000000000000],
    [0, 39886122381719100000000000000000000],
    [m 30711355053101700000000000000000000, m 48180999095667200000000000000000000],
    [57081646723113800000000000000000000, m 2506314112796040000000000000000000],
    [m 26370291670012000000000000000000000, 50687313208463300000000000000000000],
    [30711355053101700000000000000000000, m 48180999095667200000000000000000000],
    [26370291670012100000000000000000000, 50687313208463300000000000000000000],
    [m 57081646723113800000000000000000000, m 2506314112796000000000000000000000],
    [m 1734723475976810000, m 54960747258649000000000000000000000],
    [47597403336966000000000000000000000, 27480373629324500000000000000000000],
    [m 47597403336966000000000000000000000, 27480373629324600000000000000000000],
    [m 18486459332759600000000000000000000, m 53508842266119800000000000000000000],
    [55583246395934000000000000000000000, 10744677724862200000000000000000000],
    [m 37096787063174400000000000000000000, 42764164541257600000000000000000000],
    [18486459332759600000000000000000000, m 53508842266119800000000000000000000],
    [37096787063174400000000000000000000, 42764164541257600000000000000000000],
    [m 55583246395934000000000000000000000, 10744677724862200000000000000000000],
    [4163336342344340000, m 41592300096438400000000000000000000],
    [36019988485341600000000000000000000, 20796150048219200000000000000000000],
    [m 36019988485341600000000000000000000, 20796150048219200000000000000000000],
    [m 42184939757610800000000000000000000, m 31644289654629300000000000000000000],
    [48497228604427500000000000000000000, m 20711084659892400000000000000000000],
    [m 6312288846816680000000000000000000, 52355374314521800000000000000000000],
    [42184939757610800000000000000000000, m 31644289654629300000000000000000000],
    [6312288846816720000000000000000000, 52355374314521800000000000000000000],
    [m 48497228604427500000000000000000000, m 20711084659892400000000000000000000],
    [m 98582001846829500000000000000000000, m 56916345303519300000000000000000000],
    [98582001846829600000000000000000000, m 56916345303519200000000000000000000],
    [0, 113832690607039000000000000000000000],
    [m 94593887427662100000000000000000000, m 56955190911504400000000000000000000],
    [96621585920586500000000000000000000, m 53443114099328600000000000000000000],
    [m 2027698492924290000000000000000000, 110398305010833000000000000000000000],
    [94593887427662100000000000000000000, m 56955190911504400000000000000000000],
    [2027698492924350000000000000000000, 110398305010833000000000000000000000],
    [m 96621585920586500000000000000000000, m 53443114099328600000000000000000000]],
   [554665717383154000000000000000000, 554665717383154000000000000000000, 554665717383154000000000000000000,
    1183801289997030000000000000000000, 1183801289997030000000000000000000, 1183801289997030000000000000000000,
    867900081454562000000000000000000, 867900081454562000000000000000000, 867900081454562000000000000000000,
    867900081454562000000000000000000, 867900081454562000000000000000000, 867900081454562000000000000000000,
    1085419345762830000000000000000000, 1085419345762830000000000000000000, 1085419345762830000000000000000000,
    1085419345762830000000000000000000, 1085419345762830000000000000000000, 1085419345762830000000000000000000,
    1547442217473430000000000000000000, 1547442217473430000000000000000000, 1547442217473430000000000000000000,
    180322291829483000000000000000000, 180322291829483000000000000000000, 180322291829483000000000000000000,
    884401129496358000000000000000000, 884401129496358000000000000000000, 884401129496358000000000000000000,
    884401129496358000000000000000000, 884401129496358000000000000000000, 884401129496358000000000000000000,
    1669566530621090000000000000000000, 1669566530621090000000000000000000, 1669566530621090000000000000000000,
    1669566530621090000000000000000000, 1669566530621090000000000000000000, 1669566530621090000000000000000000,
    1686819554159890000000000000000000, 1686819554159890000000000000000000, 1686819554159890000000000000000000,
    419370730053866000000000000000000, 419370730053866000000000000000000, 419370730053866000000000000000000,
    419370730053866000000000000000000, 419370730053866000000000000000000, 419370730053866000000000000000000,
    1333219561473320000000000000000000, 1333219561473320000000000000000000, 1333219561473320000000000000000000,
    1333219561473320000000000000000000, 1333219561473320000000000000000000, 1333219561473320000000000000000000,
    517579163190373000000000000000000, 517579163190373000000000000000000, 517579163190373000000000000000000,
    517579163190373000000000000000000, 517579163190373000000000000000000, 517579163190373000000000000000000,
    946448971387129000000000000000000, 946448971387129000000000000000000, 946448971387129000000000000000000,
    1073673012163680000000000000000000, 1073673012163680000000000000000000, 1073673012163680000000000000000000,
    1073673012163680000000000000000000, 1073673012163680000000000000000000, 1073673012163680000000000000000000,
    574520784162592000000000000000000, 574520784162592000000000000000000, 574520784162592000000000000000000,
    574520784162592000000000000000000, 574520784162592000000000000000000, 574520784162592000000000000000000,
    642405453070136000000000000000000, 642405453070136000000000000000000, 642405453070136000000000000000000,
    642405453070136000000000000000000, 642405453070136000000000000000000, 642405453070136000000000000000000,
    267194214811026000000000000000000, 267194214811026000000000000000000, 267194214811026000000000000000000,
    267194214811026000000000000000000, 267194214811026000000000000000000, 267194214811026000000000000000000,
    1145261856437570000000000000000000, 1145261856437570000000000000000000, 1145261856437570000000000000000000,
    1145261856437570000000000000000000, 1145261856437570000000000000000000, 1145261856437570000000000000000000,
    234723748834965000000000000000000, 234723748834965000000000000000000, 234723748834965000000000000000000,
    234723748834965000000000000000000, 234723748834965000000000000000000, 234723748834965000000000000000000,
    849333343246846000000000000000000, 849333343246846000000000000000000, 849333343246846000000000000000000,
    849333343246846000000000000000000, 849333343246846000000000000000000, 849333343246846000000000000000000,
    158615351208961000000000000000000, 158615351208961000000000000000000, 158615351208961000000000000000000,
    158615351208961000000000000000000, 158615351208961000000000000000000, 158615351208961000000000000000000,
    315547833204207000000000000000000, 315547833204207000000000000000000, 315547833204207000000000000000000,
    315547833204207000000000000000000, 315547833204207000000000000000000, 315547833204207000000000000000000,
    1600827157261450000000000000000000, 1600827157261450000000000000000000, 1600827157261450000000000000000000,
    1600827157261450000000000000000000, 1600827157261450000000000000000000, 1600827157261450000000000000000000,
    239260140116815000000000000000000, 239260140116815000000000000000000, 239260140116815000000000000000000,
    339591291166310000000000000000000, 339591291166310000000000000000000, 339591291166310000000000000000000,
    339591291166310000000000000000000, 339591291166310000000000000000000, 339591291166310000000000000000000,
    2093831184643670000000000000000000, 2093831184643670000000000000000000, 2093831184643670000000000000000000,
    1277811216246460000000000000000000, 1277811216246460000000000000000000, 1277811216246460000000000000000000,
    555875802820062000000000000000000, 555875802820062000000000000000000, 555875802820062000000000000000000,
    1768409634713990000000000000000000, 1768409634713990000000000000000000, 1768409634713990000000000000000000,
    1768409634713990000000000000000000, 1768409634713990000000000000000000, 1768409634713990000000000000000000,
    946352799842140000000000000000000, 946352799842140000000000000000000, 946352799842140000000000000000000,
    946352799842140000000000000000000, 946352799842140000000000000000000, 946352799842140000000000000000000,
    348333086015103000000000000000000, 348333086015103000000000000000000, 348333086015103000000000000000000,
    348333086015103000000000000000000, 348333086015103000000000000000000, 348333086015103000000000000000000,
    739297256867232000000000000000000, 739297256867232000000000000000000, 739297256867232000000000000000000,
    739297256867232000000000000000000, 739297256867232000000000000000000, 739297256867232000000000000000000,
    223066737407613000000000000000000, 223066737407613000000000000000000, 223066737407613000000000000000000,
    223066737407613000000000000000000, 223066737407613000000000000000000, 223066737407613000000000000000000,
    1719298787801200000000000000000000, 1719298787801200000000000000000000, 1719298787801200000000000000000000,
    1143133324683550000000000000000000, 1143133324683550000000000000000000, 1143133324683550000000000000000000,
    1143133324683550000000000000000000, 1143133324683550000000000000000000, 1143133324683550000000000000000000,
    668980727312605000000000000000000, 668980727312605000000000000000000, 668980727312605000000000000000000,
    856920499188898000000000000000000, 856920499188898000000000000000000, 856920499188898000000000000000000,
    856920499188898000000000000000000, 856920499188898000000000000000000, 856920499188898000000000000000000,
    1616661196460090000000000000000000, 1616661196460090000000000000000000, 1616661196460090000000000000000000,
    1590279254708640000000000000000000, 1590279254708640000000000000000000, 1590279254708640000000000000000000,
    1590279254708640000000000000000000, 1590279254708640000000000000000000, 1590279254708640000000000000000000,
    50832700570132700000000000000000, 50832700570132700000000000000000, 50832700570132700000000000000000,
    111544379333426000000000000000000, 111544379333426000000000000000000, 111544379333426000000000000000000,
    111544379333426000000000000000000, 111544379333426000000000000000000, 111544379333426000000000000000000]⟩

/-- `triangle_table_orig[34]` (xg_quad_data.py 5160-5593). -/
def xgTri_34 : XgTableRule :=
  ⟨[
    [m 20865073605333600000000000000000000, m 54080960852670900000000000000000000],
    [57268022762151500000000000000000000, 8970796632284380000000000000000000],
    [m 36402949156817900000000000000000000, 45110164220386600000000000000000000],
    [20865073605333600000000000000000000, m 54080960852670900000000000000000000],
    [36402949156817900000000000000000000, 45110164220386500000000000000000000],
    [m 57268022762151500000000000000000000, 8970796632284420000000000000000000],
    [m 89097175315861200000000000000000000, m 57148188680340900000000000000000000],
    [94040370835372100000000000000000000, m 48586322888801200000000000000000000],
    [m 4943195519510830000000000000000000, 105734511569142000000000000000000000],
    [89097175315861200000000000000000000, m 57148188680340900000000000000000000],
    [4943195519510900000000000000000000, 105734511569142000000000000000000000],
    [m 94040370835372200000000000000000000, m 48586322888801200000000000000000000],
    [m 86205221453761800000000000000000000, m 49770607811880700000000000000000000],
    [86205221453761800000000000000000000, m 49770607811880700000000000000000000],
    [0, 99541215623761400000000000000000000],
    [m 87999414063426400000000000000000000, m 54581251858802000000000000000000000],
    [91268457711792300000000000000000000, m 48919102167671900000000000000000000],
    [m 3269043648365880000000000000000000, 103500354026474000000000000000000000],
    [87999414063426500000000000000000000, m 54581251858802000000000000000000000],
    [3269043648365950000000000000000000, 103500354026474000000000000000000000],
    [m 91268457711792400000000000000000000, m 48919102167671800000000000000000000],
    [m 93748375745509400000000000000000000, m 54125649972760100000000000000000000],
    [93748375745509400000000000000000000, m 54125649972760000000000000000000000],
    [0, 108251299945520000000000000000000000],
    [m 68124048521147100000000000000000000, m 47254254003026200000000000000000000],
    [74985408664076700000000000000000000, m 35370029626444000000000000000000000],
    [m 6861360142929600000000000000000000, 82624283629470200000000000000000000],
    [68124048521147100000000000000000000, m 47254254003026200000000000000000000],
    [6861360142929660000000000000000000, 82624283629470200000000000000000000],
    [m 74985408664076700000000000000000000, m 35370029626444000000000000000000000],
    [m 78844430308137300000000000000000000, m 51513519234555500000000000000000000],
    [84034231449532000000000000000000000, m 42524519976480900000000000000000000],
    [m 5189801141394630000000000000000000, 94038039211036400000000000000000000],
    [78844430308137300000000000000000000, m 51513519234555500000000000000000000],
    [5189801141394710000000000000000000, 94038039211036400000000000000000000],
    [m 84034231449532000000000000000000000, m 42524519976480900000000000000000000],
    [m 77271347743962700000000000000000000, m 44612633420622100000000000000000000],
    [77271347743962700000000000000000000, m 44612633420622000000000000000000000],
    [m 11102230246251600000, 89225266841244200000000000000000000],
    [0, m 14988699059565600000000000000000000],
    [12980594155263700000000000000000000, 7494349529782810000000000000000000],
    [m 12980594155263700000000000000000000, 7494349529782820000000000000000000],
    [m 28883149528014900000000000000000000, m 29318823199080300000000000000000000],
    [39832420463475600000000000000000000, m 10354129633025200000000000000000000],
    [m 10949270935460600000000000000000000, 39672952832105600000000000000000000],
    [28883149528014900000000000000000000, m 29318823199080300000000000000000000],
    [10949270935460700000000000000000000, 39672952832105600000000000000000000],
    [m 39832420463475600000000000000000000, m 10354129633025200000000000000000000],
    [m 80036260521166300000000000000000000, m 55884631397612300000000000000000000],
    [88415640732044900000000000000000000, m 41371119136433400000000000000000000],
    [m 8379380210878540000000000000000000, 97255750534045800000000000000000000],
    [80036260521166300000000000000000000, m 55884631397612300000000000000000000],
    [8379380210878610000000000000000000, 97255750534045800000000000000000000],
    [m 88415640732044900000000000000000000, m 41371119136433400000000000000000000],
    [m 13793248053350500000000000000000000, m 7963535476601190000000000000000000],
    [13793248053350500000000000000000000, m 7963535476601180000000000000000000],
    [0, 15927070953202400000000000000000000],
    [m 14656285308642500000000000000000000, m 52342688512318800000000000000000000],
    [52658240608365200000000000000000000, 13478628853762300000000000000000000],
    [m 38001955299722700000000000000000000, 38864059658556500000000000000000000],
    [14656285308642500000000000000000000, m 52342688512318800000000000000000000],
    [38001955299722700000000000000000000, 38864059658556500000000000000000000],
    [m 52658240608365200000000000000000000, 13478628853762400000000000000000000],
    [m 14791223778178400000000000000000000, m 34665387857625300000000000000000000],
    [37416718405833300000000000000000000, 4523118383849770000000000000000000],
    [m 22625494627654900000000000000000000, 30142269473775600000000000000000000],
    [14791223778178400000000000000000000, m 34665387857625300000000000000000000],
    [22625494627655000000000000000000000, 30142269473775600000000000000000000],
    [m 37416718405833300000000000000000000, 4523118383849790000000000000000000],
    [m 14888251010183200000000000000000000, m 44866353740446800000000000000000000],
    [46299527619497500000000000000000000, 9539573277485450000000000000000000],
    [m 31411276609314300000000000000000000, 35326780462961400000000000000000000],
    [14888251010183200000000000000000000, m 44866353740446800000000000000000000],
    [31411276609314300000000000000000000, 35326780462961400000000000000000000],
    [m 46299527619497400000000000000000000, 9539573277485480000000000000000000],
    [m 14412341550112300000000000000000000, m 22199147096348900000000000000000000],
    [26431196102841900000000000000000000, m 1381880362240750000000000000000000],
    [m 12018854552729600000000000000000000, 23581027458589700000000000000000000],
    [14412341550112300000000000000000000, m 22199147096348900000000000000000000],
    [12018854552729600000000000000000000, 23581027458589700000000000000000000],
    [m 26431196102841900000000000000000000, m 1381880362240730000000000000000000],
    [m 56021943491268800000000000000000000, m 42108532754196900000000000000000000],
    [64478030826858100000000000000000000, m 27462159855716600000000000000000000],
    [m 8456087335589270000000000000000000, 69570692609913600000000000000000000],
    [56021943491268800000000000000000000, m 42108532754196900000000000000000000],
    [8456087335589310000000000000000000, 69570692609913500000000000000000000],
    [m 64478030826858100000000000000000000, m 27462159855716500000000000000000000],
    [m 56775489079636200000000000000000000, m 50128574606027500000000000000000000],
    [71800363604141400000000000000000000, m 24104728552237200000000000000000000],
    [m 15024874524505200000000000000000000, 74233303158264700000000000000000000],
    [56775489079636200000000000000000000, m 50128574606027500000000000000000000],
    [15024874524505200000000000000000000, 74233303158264700000000000000000000],
    [m 71800363604141400000000000000000000, m 24104728552237100000000000000000000],
    [2775557561562890000, m 48871256531163400000000000000000000],
    [42323749670853700000000000000000000, 24435628265581700000000000000000000],
    [m 42323749670853700000000000000000000, 24435628265581800000000000000000000],
    [m 43438042322624000000000000000000000, m 45790141180639500000000000000000000],
    [61374446666621800000000000000000000, m 14723377551736300000000000000000000],
    [m 17936404343997700000000000000000000, 60513518732375800000000000000000000],
    [43438042322624000000000000000000000, m 45790141180639500000000000000000000],
    [17936404343997700000000000000000000, 60513518732375800000000000000000000],
    [m 61374446666621800000000000000000000, m 14723377551736200000000000000000000],
    [m 42883411933471100000000000000000000, m 36052903462331500000000000000000000],
    [52664436245302600000000000000000000, m 19111672404173000000000000000000000],
    [m 9781024311831410000000000000000000, 55164575866504600000000000000000000],
    [42883411933471200000000000000000000, m 36052903462331500000000000000000000],
    [9781024311831450000000000000000000, 55164575866504600000000000000000000],
    [m 52664436245302600000000000000000000, m 19111672404173000000000000000000000],
    [m 69612085434081400000000000000000000, m 56926107479496700000000000000000000],
    [84105497932848200000000000000000000, m 31822780656578900000000000000000000],
    [m 14493412498766700000000000000000000, 88748888136075700000000000000000000],
    [69612085434081500000000000000000000, m 56926107479496700000000000000000000],
    [14493412498766800000000000000000000, 88748888136075600000000000000000000],
    [m 84105497932848200000000000000000000, m 31822780656578800000000000000000000],
    [m 66648189614246300000000000000000000, m 38479350214786300000000000000000000],
    [66648189614246300000000000000000000, m 38479350214786300000000000000000000],
    [0, 76958700429572700000000000000000000],
    [4163336342344340000, m 54916967076805200000000000000000000],
    [47559488587306900000000000000000000, 27458483538402600000000000000000000],
    [m 47559488587306900000000000000000000, 27458483538402600000000000000000000],
    [m 29429125011188200000000000000000000, m 49260808560575500000000000000000000],
    [57375674130014500000000000000000000, m 855965590549246000000000000000000],
    [m 27946549118826200000000000000000000, 50116774151124800000000000000000000],
    [29429125011188200000000000000000000, m 49260808560575500000000000000000000],
    [27946549118826200000000000000000000, 50116774151124800000000000000000000],
    [m 57375674130014500000000000000000000, m 855965590549201000000000000000000],
    [m 54733683171138100000000000000000000, m 31600506712596300000000000000000000],
    [54733683171138100000000000000000000, m 31600506712596300000000000000000000],
    [0, 63201013425192600000000000000000000],
    [m 69057074957270700000000000000000000, m 53464092774804700000000000000000000],
    [80829800011904200000000000000000000, m 33073134836640300000000000000000000],
    [m 11772725054633500000000000000000000, 86537227611445000000000000000000000],
    [69057074957270700000000000000000000, m 53464092774804700000000000000000000],
    [11772725054633600000000000000000000, 86537227611445000000000000000000000],
    [m 80829800011904300000000000000000000, m 33073134836640200000000000000000000],
    [m 14635945730951800000000000000000000, m 56702734467084200000000000000000000],
    [56423981378014300000000000000000000, 15676266422127400000000000000000000],
    [m 41788035647062400000000000000000000, 41026468044956800000000000000000000],
    [14635945730951800000000000000000000, m 56702734467084200000000000000000000],
    [41788035647062500000000000000000000, 41026468044956800000000000000000000],
    [m 56423981378014300000000000000000000, 15676266422127500000000000000000000],
    [m 98752612782304300000000000000000000, m 57014847573042300000000000000000000],
    [98752612782304300000000000000000000, m 57014847573042200000000000000000000],
    [0, 114029695146085000000000000000000000],
    [m 27869526875855000000000000000000000, m 16090478843962400000000000000000000],
    [27869526875855000000000000000000000, m 16090478843962300000000000000000000],
    [0, 32180957687924800000000000000000000],
    [m 43610043846910300000000000000000000, m 52795439225981200000000000000000000],
    [67527213497112400000000000000000000, m 11369686218587000000000000000000000],
    [m 23917169650202000000000000000000000, 64165125444568300000000000000000000],
    [43610043846910300000000000000000000, m 52795439225981200000000000000000000],
    [23917169650202100000000000000000000, 64165125444568300000000000000000000],
    [m 67527213497112400000000000000000000, m 11369686218586900000000000000000000],
    [2775557561562890000, m 28467385501300600000000000000000000],
    [24653479023451200000000000000000000, 14233692750650300000000000000000000],
    [m 24653479023451200000000000000000000, 14233692750650400000000000000000000],
    [3957337929572090000, m 57576434340793100000000000000000000],
    [49862654798453500000000000000000000, 28788217170396600000000000000000000],
    [m 49862654798453500000000000000000000, 28788217170396600000000000000000000],
    [m 29361459879318200000000000000000000, m 55039498029219600000000000000000000],
    [62346333444506800000000000000000000, 2091978866922630000000000000000000],
    [m 32984873565188600000000000000000000, 52947519162297000000000000000000000],
    [29361459879318200000000000000000000, m 55039498029219600000000000000000000],
    [32984873565188600000000000000000000, 52947519162297000000000000000000000],
    [m 62346333444506800000000000000000000, 2091978866922660000000000000000000],
    [m 29217524245073900000000000000000000, m 57574687817496000000000000000000000],
    [64469904387446900000000000000000000, 3484225676826260000000000000000000],
    [m 35252380142373000000000000000000000, 54090462140669700000000000000000000],
    [29217524245073900000000000000000000, m 57574687817496000000000000000000000],
    [35252380142373000000000000000000000, 54090462140669700000000000000000000],
    [m 64469904387446900000000000000000000, 3484225676826300000000000000000000],
    [m 1387778780781450000, m 39917165954426300000000000000000000],
    [34569279763612500000000000000000000, 19958582977213200000000000000000000],
    [m 34569279763612500000000000000000000, 19958582977213200000000000000000000],
    [m 29404250943783600000000000000000000, m 40538150617520000000000000000000000],
    [49809193729104000000000000000000000, m 5195752987809130000000000000000000],
    [m 20404942785320400000000000000000000, 45733903605329200000000000000000000],
    [29404250943783600000000000000000000, m 40538150617520000000000000000000000],
    [20404942785320400000000000000000000, 45733903605329200000000000000000000],
    [m 49809193729104000000000000000000000, m 5195752987809110000000000000000000],
    [m 95251437348711400000000000000000000, m 57046622308344300000000000000000000],
    [97029542793477900000000000000000000, m 53966853336793800000000000000000000],
    [m 1778105444766510000000000000000000, 111013475645138000000000000000000000],
    [95251437348711400000000000000000000, m 57046622308344300000000000000000000],
    [1778105444766580000000000000000000, 111013475645138000000000000000000000],
    [m 97029542793477900000000000000000000, m 53966853336793700000000000000000000],
    [m 5551115123125780000, 22204460492503100000],
    [m 57112662404759000000000000000000000, m 55348323362954900000000000000000000],
    [76489385291574200000000000000000000, m 21786854838808300000000000000000000],
    [m 19376722886815100000000000000000000, 77135178201763300000000000000000000],
    [57112662404759000000000000000000000, m 55348323362954900000000000000000000],
    [19376722886815200000000000000000000, 77135178201763200000000000000000000],
    [m 76489385291574200000000000000000000, m 21786854838808300000000000000000000],
    [m 41684036926310100000000000000000000, m 24066289940315500000000000000000000],
    [41684036926310100000000000000000000, m 24066289940315400000000000000000000],
    [0, 48132579880631000000000000000000000],
    [m 57210738184377700000000000000000000, m 57601288500270800000000000000000000],
    [78489548224139800000000000000000000, m 20745308386796100000000000000000000],
    [m 21278810039762000000000000000000000, 78346596887067000000000000000000000],
    [57210738184377700000000000000000000, m 57601288500270800000000000000000000],
    [21278810039762100000000000000000000, 78346596887066900000000000000000000],
    [m 78489548224139800000000000000000000, m 20745308386796100000000000000000000],
    [m 43576534554125900000000000000000000, m 56789016986039300000000000000000000],
    [70968998642918900000000000000000000, m 9343877439743800000000000000000000],
    [m 27392464088793000000000000000000000, 66132894425783100000000000000000000],
    [43576534554125900000000000000000000, m 56789016986039300000000000000000000],
    [27392464088793100000000000000000000, 66132894425783100000000000000000000],
    [m 70968998642918900000000000000000000, m 9343877439743760000000000000000000],
    [m 80626144515788700000000000000000000, m 57734211176549400000000000000000000],
    [90312365804241600000000000000000000, m 40957183771593700000000000000000000],
    [m 9686221288452820000000000000000000, 98691394948143200000000000000000000],
    [80626144515788700000000000000000000, m 57734211176549400000000000000000000],
    [9686221288452890000000000000000000, 98691394948143200000000000000000000],
    [m 90312365804241600000000000000000000, m 40957183771593700000000000000000000]],
   [17612527055691700000000000000000, 17612527055691700000000000000000, 17612527055691700000000000000000,
    17612527055691700000000000000000, 17612527055691700000000000000000, 17612527055691700000000000000000,
    113284430871668000000000000000000, 113284430871668000000000000000000, 113284430871668000000000000000000,
    113284430871668000000000000000000, 113284430871668000000000000000000, 113284430871668000000000000000000,
    398192690207968000000000000000000, 398192690207968000000000000000000, 398192690207968000000000000000000,
    263239101004467000000000000000000, 263239101004467000000000000000000, 263239101004467000000000000000000,
    263239101004467000000000000000000, 263239101004467000000000000000000, 263239101004467000000000000000000,
    190470261321039000000000000000000, 190470261321039000000000000000000, 190470261321039000000000000000000,
    808804972153262000000000000000000, 808804972153262000000000000000000, 808804972153262000000000000000000,
    808804972153262000000000000000000, 808804972153262000000000000000000, 808804972153262000000000000000000,
    511321426195194000000000000000000, 511321426195194000000000000000000, 511321426195194000000000000000000,
    511321426195194000000000000000000, 511321426195194000000000000000000, 511321426195194000000000000000000,
    692365391854776000000000000000000, 692365391854776000000000000000000, 692365391854776000000000000000000,
    2033428789725170000000000000000000, 2033428789725170000000000000000000, 2033428789725170000000000000000000,
    1707963231184710000000000000000000, 1707963231184710000000000000000000, 1707963231184710000000000000000000,
    1707963231184710000000000000000000, 1707963231184710000000000000000000, 1707963231184710000000000000000000,
    298999299206133000000000000000000, 298999299206133000000000000000000, 298999299206133000000000000000000,
    298999299206133000000000000000000, 298999299206133000000000000000000, 298999299206133000000000000000000,
    2037100918983170000000000000000000, 2037100918983170000000000000000000, 2037100918983170000000000000000000,
    872292396849971000000000000000000, 872292396849971000000000000000000, 872292396849971000000000000000000,
    872292396849971000000000000000000, 872292396849971000000000000000000, 872292396849971000000000000000000,
    1672793925081690000000000000000000, 1672793925081690000000000000000000, 1672793925081690000000000000000000,
    1672793925081690000000000000000000, 1672793925081690000000000000000000, 1672793925081690000000000000000000,
    1318422355907110000000000000000000, 1318422355907110000000000000000000, 1318422355907110000000000000000000,
    1318422355907110000000000000000000, 1318422355907110000000000000000000, 1318422355907110000000000000000000,
    1916663848296340000000000000000000, 1916663848296340000000000000000000, 1916663848296340000000000000000000,
    1916663848296340000000000000000000, 1916663848296340000000000000000000, 1916663848296340000000000000000000,
    1126498082659350000000000000000000, 1126498082659350000000000000000000, 1126498082659350000000000000000000,
    1126498082659350000000000000000000, 1126498082659350000000000000000000, 1126498082659350000000000000000000,
    837045986012669000000000000000000, 837045986012669000000000000000000, 837045986012669000000000000000000,
    837045986012669000000000000000000, 837045986012669000000000000000000, 837045986012669000000000000000000,
    1123100751808750000000000000000000, 1123100751808750000000000000000000, 1123100751808750000000000000000000,
    1142030205858250000000000000000000, 1142030205858250000000000000000000, 1142030205858250000000000000000000,
    1142030205858250000000000000000000, 1142030205858250000000000000000000, 1142030205858250000000000000000000,
    1435050255493940000000000000000000, 1435050255493940000000000000000000, 1435050255493940000000000000000000,
    1435050255493940000000000000000000, 1435050255493940000000000000000000, 1435050255493940000000000000000000,
    242388279712304000000000000000000, 242388279712304000000000000000000, 242388279712304000000000000000000,
    242388279712304000000000000000000, 242388279712304000000000000000000, 242388279712304000000000000000000,
    1010380351557140000000000000000000, 1010380351557140000000000000000000, 1010380351557140000000000000000000,
    645945995427137000000000000000000, 645945995427137000000000000000000, 645945995427137000000000000000000,
    1055730698981700000000000000000000, 1055730698981700000000000000000000, 1055730698981700000000000000000000,
    1055730698981700000000000000000000, 1055730698981700000000000000000000, 1055730698981700000000000000000000,
    1331481268165630000000000000000000, 1331481268165630000000000000000000, 1331481268165630000000000000000000,
    544419274727477000000000000000000, 544419274727477000000000000000000, 544419274727477000000000000000000,
    544419274727477000000000000000000, 544419274727477000000000000000000, 544419274727477000000000000000000,
    386478003463170000000000000000000, 386478003463170000000000000000000, 386478003463170000000000000000000,
    386478003463170000000000000000000, 386478003463170000000000000000000, 386478003463170000000000000000000,
    39310860128204100000000000000000, 39310860128204100000000000000000, 39310860128204100000000000000000,
    1872987663355190000000000000000000, 1872987663355190000000000000000000, 1872987663355190000000000000000000,
    768291141470844000000000000000000, 768291141470844000000000000000000, 768291141470844000000000000000000,
    768291141470844000000000000000000, 768291141470844000000000000000000, 768291141470844000000000000000000,
    1844191543797810000000000000000000, 1844191543797810000000000000000000, 1844191543797810000000000000000000,
    131796278069835000000000000000000, 131796278069835000000000000000000, 131796278069835000000000000000000,
    604196019626021000000000000000000, 604196019626021000000000000000000, 604196019626021000000000000000000,
    604196019626021000000000000000000, 604196019626021000000000000000000, 604196019626021000000000000000000,
    126759423650627000000000000000000, 126759423650627000000000000000000, 126759423650627000000000000000000,
    126759423650627000000000000000000, 126759423650627000000000000000000, 126759423650627000000000000000000,
    1534759707064890000000000000000000, 1534759707064890000000000000000000, 1534759707064890000000000000000000,
    1429080035302290000000000000000000, 1429080035302290000000000000000000, 1429080035302290000000000000000000,
    1429080035302290000000000000000000, 1429080035302290000000000000000000, 1429080035302290000000000000000000,
    86250513729918400000000000000000, 86250513729918400000000000000000, 86250513729918400000000000000000,
    86250513729918400000000000000000, 86250513729918400000000000000000, 86250513729918400000000000000000,
    2095948607966560000000000000000000, 485981957062565000000000000000000, 485981957062565000000000000000000,
    485981957062565000000000000000000, 485981957062565000000000000000000, 485981957062565000000000000000000,
    485981957062565000000000000000000, 1628152187474080000000000000000000, 1628152187474080000000000000000000,
    1628152187474080000000000000000000, 100052014359594000000000000000000, 100052014359594000000000000000000,
    100052014359594000000000000000000, 100052014359594000000000000000000, 100052014359594000000000000000000,
    100052014359594000000000000000000, 339937280749536000000000000000000, 339937280749536000000000000000000,
    339937280749536000000000000000000, 339937280749536000000000000000000, 339937280749536000000000000000000,
    339937280749536000000000000000000, 49769675350018500000000000000000, 49769675350018500000000000000000,
    49769675350018500000000000000000, 49769675350018500000000000000000, 49769675350018500000000000000000,
    49769675350018500000000000000000]⟩

/-- `triangle_table_orig[35]` (xg_quad_data.py 5594-6055). -/
def xgTri_35 : XgTableRule :=
  ⟨[
    [m 9569449414804590000000000000000000, m 5524924195633920000000000000000000],
    [9569449414804600000000000000000000, m 5524924195633920000000000000000000],
    [5551115123125780000, 11049848391267900000000000000000000],
    [0, m 54839524322647300000000000000000000],
    [47492421194867200000000000000000000, 27419762161323700000000000000000000],
    [m 47492421194867200000000000000000000, 27419762161323700000000000000000000],
    [m 5551115123125780000, m 8473124122587060000000000000000000],
    [7337940739579140000000000000000000, 4236562061293560000000000000000000],
    [m 7337940739579150000000000000000000, 4236562061293560000000000000000000],
    [m 88784082040153100000000000000000000, m 57376800669530200000000000000000000],
    [94081807987765600000000000000000000, m 48200870163689200000000000000000000],
    [m 5297725947612530000000000000000000, 105577670833219000000000000000000000],
    [88784082040153100000000000000000000, m 57376800669530200000000000000000000],
    [5297725947612600000000000000000000, 105577670833219000000000000000000000],
    [m 94081807987765700000000000000000000, m 48200870163689200000000000000000000],
    [m 10034207598327700000000000000000000, m 56192636681814700000000000000000000],
    [53681354671244700000000000000000000, 19406439653908700000000000000000000],
    [m 43647147072916900000000000000000000, 36786197027906000000000000000000000],
    [10034207598327700000000000000000000, m 56192636681814700000000000000000000],
    [43647147072917000000000000000000000, 36786197027906000000000000000000000],
    [m 53681354671244700000000000000000000, 19406439653908800000000000000000000],
    [m 69311601738833000000000000000000000, m 57368528854276500000000000000000000],
    [84338404234960500000000000000000000, m 31341343455680800000000000000000000],
    [m 15026802496127500000000000000000000, 88709872309957300000000000000000000],
    [69311601738833000000000000000000000, m 57368528854276500000000000000000000],
    [15026802496127600000000000000000000, 88709872309957300000000000000000000],
    [m 84338404234960500000000000000000000, m 31341343455680700000000000000000000],
    [m 21275811967196400000000000000000000, m 12283595766488700000000000000000000],
    [21275811967196300000000000000000000, m 12283595766488700000000000000000000],
    [5551115123125780000, 24567191532977400000000000000000000],
    [m 20170550651440600000000000000000000, m 57170157791299600000000000000000000],
    [59596084311350600000000000000000000, 11116869623181500000000000000000000],
    [m 39425533659910000000000000000000000, 46053288168118200000000000000000000],
    [20170550651440600000000000000000000, m 57170157791299600000000000000000000],
    [39425533659910000000000000000000000, 46053288168118100000000000000000000],
    [m 59596084311350600000000000000000000, 11116869623181500000000000000000000],
    [5551115123125780000, m 24069657869901300000000000000000000],
    [20844935175734600000000000000000000, 12034828934950700000000000000000000],
    [m 20844935175734600000000000000000000, 12034828934950700000000000000000000],
    [m 64267456637991900000000000000000000, m 49911718050236000000000000000000000],
    [75358544097026700000000000000000000, m 30701391059997900000000000000000000],
    [m 11091087459034700000000000000000000, 80613109110233900000000000000000000],
    [64267456637991900000000000000000000, m 49911718050236000000000000000000000],
    [11091087459034800000000000000000000, 80613109110233900000000000000000000],
    [m 75358544097026700000000000000000000, m 30701391059997800000000000000000000],
    [2081668171172170000, m 48412771111544900000000000000000000],
    [41926689650199300000000000000000000, 24206385555772400000000000000000000],
    [m 41926689650199200000000000000000000, 24206385555772500000000000000000000],
    [m 59680262574112600000000000000000000, m 56244420234421400000000000000000000],
    [78549228031192800000000000000000000, m 23562413376496400000000000000000000],
    [m 18868965457080200000000000000000000, 79806833610917900000000000000000000],
    [59680262574112600000000000000000000, m 56244420234421400000000000000000000],
    [18868965457080200000000000000000000, 79806833610917900000000000000000000],
    [m 78549228031192800000000000000000000, m 23562413376496400000000000000000000],
    [m 88583797294857900000000000000000000, m 55314597935499400000000000000000000],
    [92195745659693700000000000000000000, m 49058519853288500000000000000000000],
    [m 3611948364835750000000000000000000, 104373117788788000000000000000000000],
    [88583797294857900000000000000000000, m 55314597935499400000000000000000000],
    [3611948364835800000000000000000000, 104373117788788000000000000000000000],
    [m 92195745659693700000000000000000000, m 49058519853288500000000000000000000],
    [m 21481054147146700000000000000000000, m 25264039633717000000000000000000000],
    [32619827198589200000000000000000000, m 5971118774639620000000000000000000],
    [m 11138773051442500000000000000000000, 31235158408356700000000000000000000],
    [21481054147146700000000000000000000, m 25264039633717000000000000000000000],
    [11138773051442500000000000000000000, 31235158408356700000000000000000000],
    [m 32619827198589200000000000000000000, m 5971118774639610000000000000000000],
    [m 81139585286780200000000000000000000, m 46845961407257200000000000000000000],
    [81139585286780200000000000000000000, m 46845961407257200000000000000000000],
    [0, 93691922814514400000000000000000000],
    [m 1387778780781450000, m 37503784513189000000000000000000000],
    [32479230126479100000000000000000000, 18751892256594500000000000000000000],
    [m 32479230126479100000000000000000000, 18751892256594600000000000000000000],
    [m 94111852004958700000000000000000000, m 54335503088997200000000000000000000],
    [94111852004958800000000000000000000, m 54335503088997100000000000000000000],
    [0, 108671006177994000000000000000000000],
    [m 9775096939338880000000000000000000, m 17426334519355700000000000000000000],
    [19979196858277200000000000000000000, 247684985754892000000000000000000],
    [m 10204099918938300000000000000000000, 17178649533600900000000000000000000],
    [9775096939338890000000000000000000, m 17426334519355700000000000000000000],
    [10204099918938300000000000000000000, 17178649533600900000000000000000000],
    [m 19979196858277200000000000000000000, 247684985754903000000000000000000],
    [m 55225246543256500000000000000000000, m 52711753152174200000000000000000000],
    [73262340579425600000000000000000000, m 21470589860631800000000000000000000],
    [m 18037094036169000000000000000000000, 74182343012806000000000000000000000],
    [55225246543256500000000000000000000, m 52711753152174200000000000000000000],
    [18037094036169100000000000000000000, 74182343012806000000000000000000000],
    [m 73262340579425600000000000000000000, m 21470589860631700000000000000000000],
    [m 73330302740948000000000000000000000, m 48456866722910100000000000000000000],
    [78630028940311000000000000000000000, m 39277471679409500000000000000000000],
    [m 5299726199362950000000000000000000, 87734338402319700000000000000000000],
    [73330302740948000000000000000000000, m 48456866722910100000000000000000000],
    [5299726199363030000000000000000000, 87734338402319700000000000000000000],
    [m 78630028940311000000000000000000000, m 39277471679409500000000000000000000],
    [m 35377855031177000000000000000000000, m 57129468294377400000000000000000000],
    [67164498363217000000000000000000000, m 2073387041213690000000000000000000],
    [m 31786643332040000000000000000000000, 59202855335591100000000000000000000],
    [35377855031177000000000000000000000, m 57129468294377400000000000000000000],
    [31786643332040000000000000000000000, 59202855335591100000000000000000000],
    [m 67164498363217000000000000000000000, m 2073387041213640000000000000000000],
    [m 51564990450718300000000000000000000, m 57531330331362100000000000000000000],
    [75606088805832900000000000000000000, m 15890926510543000000000000000000000],
    [m 24041098355114600000000000000000000, 73422256841905100000000000000000000],
    [51564990450718300000000000000000000, m 57531330331362100000000000000000000],
    [24041098355114600000000000000000000, 73422256841905100000000000000000000],
    [m 75606088805832900000000000000000000, m 15890926510543000000000000000000000],
    [m 21973987181432200000000000000000000, m 37997627488267700000000000000000000],
    [43893904279093800000000000000000000, m 31217377420012000000000000000000],
    [m 21919917097661600000000000000000000, 38028844865687800000000000000000000],
    [21973987181432200000000000000000000, m 37997627488267700000000000000000000],
    [21919917097661700000000000000000000, 38028844865687800000000000000000000],
    [m 43893904279093800000000000000000000, m 31217377419989800000000000000000],
    [m 60482829086183800000000000000000000, m 43023229931186700000000000000000000],
    [67500624616358700000000000000000000, m 30868051515794200000000000000000000],
    [m 7017795530174810000000000000000000, 73891281446980900000000000000000000],
    [60482829086183800000000000000000000, m 43023229931186700000000000000000000],
    [7017795530174850000000000000000000, 73891281446980900000000000000000000],
    [m 67500624616358700000000000000000000, m 30868051515794100000000000000000000],
    [m 10540651029786000000000000000000000, m 31309961497003300000000000000000000],
    [32385547562810600000000000000000000, 6526509184280430000000000000000000],
    [m 21844896533024500000000000000000000, 24783452312723000000000000000000000],
    [10540651029786000000000000000000000, m 31309961497003300000000000000000000],
    [21844896533024600000000000000000000, 24783452312723000000000000000000000],
    [m 32385547562810500000000000000000000, 6526509184280450000000000000000000],
    [m 87913939350941900000000000000000000, m 50757136549786800000000000000000000],
    [87913939350941900000000000000000000, m 50757136549786700000000000000000000],
    [0, 101514273099574000000000000000000000],
    [m 44461399827537900000000000000000000, m 55376202677277900000000000000000000],
    [70187898197407500000000000000000000, m 10816600399825900000000000000000000],
    [m 25726498369869500000000000000000000, 66192803077103900000000000000000000],
    [44461399827537900000000000000000000, m 55376202677277900000000000000000000],
    [25726498369869600000000000000000000, 66192803077103900000000000000000000],
    [m 70187898197407500000000000000000000, m 10816600399825900000000000000000000],
    [m 23876011572551500000000000000000000, m 47996330941134000000000000000000000],
    [53504047669742900000000000000000000, 3320932907686210000000000000000000],
    [m 29628036097191400000000000000000000, 44675398033447900000000000000000000],
    [23876011572551500000000000000000000, m 47996330941134000000000000000000000],
    [29628036097191400000000000000000000, 44675398033447900000000000000000000],
    [m 53504047669742900000000000000000000, 3320932907686250000000000000000000],
    [m 10680624500393100000000000000000000, m 43574907178404000000000000000000000],
    [43077288834243300000000000000000000, 12537761443579100000000000000000000],
    [m 32396664333850200000000000000000000, 31037145734824900000000000000000000],
    [10680624500393100000000000000000000, m 43574907178404000000000000000000000],
    [32396664333850200000000000000000000, 31037145734824900000000000000000000],
    [m 43077288834243300000000000000000000, 12537761443579200000000000000000000],
    [m 49845820778025600000000000000000000, m 46711834658382800000000000000000000],
    [65376545860550700000000000000000000, m 19811829737065000000000000000000000],
    [m 15530725082525100000000000000000000, 66523664395447800000000000000000000],
    [49845820778025600000000000000000000, m 46711834658382800000000000000000000],
    [15530725082525100000000000000000000, 66523664395447800000000000000000000],
    [m 65376545860550700000000000000000000, m 19811829737064900000000000000000000],
    [m 47118728299279700000000000000000000, m 37748161580172200000000000000000000],
    [56250231024228700000000000000000000, m 21931934911106800000000000000000000],
    [m 9131502724949030000000000000000000, 59680096491279100000000000000000000],
    [47118728299279700000000000000000000, m 37748161580172200000000000000000000],
    [9131502724949070000000000000000000, 59680096491279100000000000000000000],
    [m 56250231024228700000000000000000000, m 21931934911106800000000000000000000],
    [m 70442153599362200000000000000000000, m 40669796342888800000000000000000000],
    [70442153599362300000000000000000000, m 40669796342888700000000000000000000],
    [0, 81339592685777600000000000000000000],
    [m 33861070795850500000000000000000000, m 32068265475981400000000000000000000],
    [44702467955428700000000000000000000, m 13290414770559100000000000000000000],
    [m 10841397159578100000000000000000000, 45358680246540600000000000000000000],
    [33861070795850500000000000000000000, m 32068265475981400000000000000000000],
    [10841397159578200000000000000000000, 45358680246540600000000000000000000],
    [m 44702467955428600000000000000000000, m 13290414770559100000000000000000000],
    [m 70498953851611900000000000000000000, m 54513781159869800000000000000000000],
    [82459796266598700000000000000000000, m 33796994395787800000000000000000000],
    [m 11960842414986800000000000000000000, 88310775555657600000000000000000000],
    [70498953851611900000000000000000000, m 54513781159869800000000000000000000],
    [11960842414986900000000000000000000, 88310775555657600000000000000000000],
    [m 82459796266598800000000000000000000, m 33796994395787700000000000000000000],
    [m 58139661103207800000000000000000000, m 33566948988530600000000000000000000],
    [58139661103207800000000000000000000, m 33566948988530600000000000000000000],
    [0, 67133897977061300000000000000000000],
    [m 33539196847092400000000000000000000, m 19363864328072600000000000000000000],
    [33539196847092400000000000000000000, m 19363864328072600000000000000000000],
    [0, 38727728656145300000000000000000000],
    [m 11540856290209200000000000000000000, m 52024278749878900000000000000000000],
    [50824775156062600000000000000000000, 16017464646192900000000000000000000],
    [m 39283918865853500000000000000000000, 36006814103686100000000000000000000],
    [11540856290209200000000000000000000, m 52024278749878900000000000000000000],
    [39283918865853500000000000000000000, 36006814103686000000000000000000000],
    [m 50824775156062600000000000000000000, 16017464646192900000000000000000000],
    [m 45774903359410100000000000000000000, m 26428152776684500000000000000000000],
    [45774903359410100000000000000000000, m 26428152776684500000000000000000000],
    [0, 52856305553369100000000000000000000],
    [m 35516859452256600000000000000000000, m 42946854793782200000000000000000000],
    [54951496990185200000000000000000000, m 9285075151404540000000000000000000],
    [m 19434637537928600000000000000000000, 52231929945186800000000000000000000],
    [35516859452256600000000000000000000, m 42946854793782200000000000000000000],
    [19434637537928600000000000000000000, 52231929945186800000000000000000000],
    [m 54951496990185200000000000000000000, m 9285075151404500000000000000000000],
    [m 95143357699664400000000000000000000, m 57105763188292900000000000000000000],
    [97026720473392100000000000000000000, m 53843683175112700000000000000000000],
    [m 1883362773727680000000000000000000, 110949446363406000000000000000000000],
    [95143357699664300000000000000000000, m 57105763188292900000000000000000000],
    [1883362773727760000000000000000000, 110949446363406000000000000000000000],
    [m 97026720473392100000000000000000000, m 53843683175112600000000000000000000],
    [m 80625540528872500000000000000000000, m 53228217266152300000000000000000000],
    [86409758615081700000000000000000000, m 43209657658779300000000000000000000],
    [m 5784218086209100000000000000000000, 96437874924931700000000000000000000],
    [80625540528872500000000000000000000, m 53228217266152300000000000000000000],
    [5784218086209170000000000000000000, 96437874924931700000000000000000000],
    [m 86409758615081700000000000000000000, m 43209657658779200000000000000000000],
    [m 39094238101462500000000000000000000, m 50900886837618200000000000000000000],
    [63628580127265600000000000000000000, m 8406159918654990000000000000000000],
    [m 24534342025803000000000000000000000, 59307046756273200000000000000000000],
    [39094238101462500000000000000000000, m 50900886837618200000000000000000000],
    [24534342025803000000000000000000000, 59307046756273200000000000000000000],
    [m 63628580127265500000000000000000000, m 8406159918654940000000000000000000],
    [m 26704107522244400000000000000000000, m 54310638162348900000000000000000000],
    [60386446105461000000000000000000000, 4028883581519680000000000000000000],
    [m 33682338583216500000000000000000000, 50281754580829300000000000000000000],
    [26704107522244400000000000000000000, m 54310638162348900000000000000000000],
    [33682338583216600000000000000000000, 50281754580829300000000000000000000],
    [m 60386446105461000000000000000000000, 4028883581519730000000000000000000],
    [m 80012284035409700000000000000000000, m 56864030976986900000000000000000000],
    [89251837405360700000000000000000000, m 40860655100987400000000000000000000],
    [m 9239553369951010000000000000000000, 97724686077974300000000000000000000],
    [80012284035409700000000000000000000, m 56864030976986900000000000000000000],
    [9239553369951100000000000000000000, 97724686077974300000000000000000000],
    [m 89251837405360800000000000000000000, m 40860655100987300000000000000000000],
    [m 98716837819455000000000000000000000, m 56994192888611100000000000000000000],
    [98716837819455100000000000000000000, m 56994192888611000000000000000000000],
    [0, 113988385777222000000000000000000000],
    [m 2019326546254250000, m 57704966306400100000000000000000000],
    [49973966745867500000000000000000000, 28852483153200100000000000000000000],
    [m 49973966745867500000000000000000000, 28852483153200100000000000000000000]],
   [995571377794288000000000000000000, 995571377794288000000000000000000, 995571377794288000000000000000000,
    397742620839622000000000000000000, 397742620839622000000000000000000, 397742620839622000000000000000000,
    1384835388244760000000000000000000, 1384835388244760000000000000000000, 1384835388244760000000000000000000,
    78669640704059300000000000000000, 78669640704059300000000000000000, 78669640704059300000000000000000,
    78669640704059300000000000000000, 78669640704059300000000000000000, 78669640704059300000000000000000,
    341517002105453000000000000000000, 341517002105453000000000000000000, 341517002105453000000000000000000,
    341517002105453000000000000000000, 341517002105453000000000000000000, 341517002105453000000000000000000,
    135561780639318000000000000000000, 135561780639318000000000000000000, 135561780639318000000000000000000,
    135561780639318000000000000000000, 135561780639318000000000000000000, 135561780639318000000000000000000,
    1522504857521900000000000000000000, 1522504857521900000000000000000000, 1522504857521900000000000000000000,
    219051270933381000000000000000000, 219051270933381000000000000000000, 219051270933381000000000000000000,
    219051270933381000000000000000000, 219051270933381000000000000000000, 219051270933381000000000000000000,
    1441129771014770000000000000000000, 1441129771014770000000000000000000, 1441129771014770000000000000000000,
    616134857943777000000000000000000, 616134857943777000000000000000000, 616134857943777000000000000000000,
    616134857943777000000000000000000, 616134857943777000000000000000000, 616134857943777000000000000000000,
    913689412939185000000000000000000, 913689412939185000000000000000000, 913689412939185000000000000000000,
    319187980246744000000000000000000, 319187980246744000000000000000000, 319187980246744000000000000000000,
    319187980246744000000000000000000, 319187980246744000000000000000000, 319187980246744000000000000000000,
    230186077079262000000000000000000, 230186077079262000000000000000000, 230186077079262000000000000000000,
    230186077079262000000000000000000, 230186077079262000000000000000000, 230186077079262000000000000000000,
    1562900952271410000000000000000000, 1562900952271410000000000000000000, 1562900952271410000000000000000000,
    1562900952271410000000000000000000, 1562900952271410000000000000000000, 1562900952271410000000000000000000,
    514108470620063000000000000000000, 514108470620063000000000000000000, 514108470620063000000000000000000,
    1317256254372420000000000000000000, 1317256254372420000000000000000000, 1317256254372420000000000000000000,
    175477710291901000000000000000000, 175477710291901000000000000000000, 175477710291901000000000000000000,
    1490517100851550000000000000000000, 1490517100851550000000000000000000, 1490517100851550000000000000000000,
    1490517100851550000000000000000000, 1490517100851550000000000000000000, 1490517100851550000000000000000000,
    625351400989476000000000000000000, 625351400989476000000000000000000, 625351400989476000000000000000000,
    625351400989476000000000000000000, 625351400989476000000000000000000, 625351400989476000000000000000000,
    610298627236548000000000000000000, 610298627236548000000000000000000, 610298627236548000000000000000000,
    610298627236548000000000000000000, 610298627236548000000000000000000, 610298627236548000000000000000000,
    238689855283284000000000000000000, 238689855283284000000000000000000, 238689855283284000000000000000000,
    238689855283284000000000000000000, 238689855283284000000000000000000, 238689855283284000000000000000000,
    120382655563218000000000000000000, 120382655563218000000000000000000, 120382655563218000000000000000000,
    120382655563218000000000000000000, 120382655563218000000000000000000, 120382655563218000000000000000000,
    1408108912721030000000000000000000, 1408108912721030000000000000000000, 1408108912721030000000000000000000,
    1408108912721030000000000000000000, 1408108912721030000000000000000000, 1408108912721030000000000000000000,
    950836373138276000000000000000000, 950836373138276000000000000000000, 950836373138276000000000000000000,
    950836373138276000000000000000000, 950836373138276000000000000000000, 950836373138276000000000000000000,
    1426514849368370000000000000000000, 1426514849368370000000000000000000, 1426514849368370000000000000000000,
    1426514849368370000000000000000000, 1426514849368370000000000000000000, 1426514849368370000000000000000000,
    357640021454662000000000000000000, 357640021454662000000000000000000, 357640021454662000000000000000000,
    481470896907052000000000000000000, 481470896907052000000000000000000, 481470896907052000000000000000000,
    481470896907052000000000000000000, 481470896907052000000000000000000, 481470896907052000000000000000000,
    1096696792117330000000000000000000, 1096696792117330000000000000000000, 1096696792117330000000000000000000,
    1096696792117330000000000000000000, 1096696792117330000000000000000000, 1096696792117330000000000000000000,
    1203032386161460000000000000000000, 1203032386161460000000000000000000, 1203032386161460000000000000000000,
    1203032386161460000000000000000000, 1203032386161460000000000000000000, 1203032386161460000000000000000000,
    964049280430492000000000000000000, 964049280430492000000000000000000, 964049280430492000000000000000000,
    964049280430492000000000000000000, 964049280430492000000000000000000, 964049280430492000000000000000000,
    1270911359764640000000000000000000, 1270911359764640000000000000000000, 1270911359764640000000000000000000,
    1270911359764640000000000000000000, 1270911359764640000000000000000000, 1270911359764640000000000000000000,
    866655803690971000000000000000000, 866655803690971000000000000000000, 866655803690971000000000000000000,
    1508863351841560000000000000000000, 1508863351841560000000000000000000, 1508863351841560000000000000000000,
    1508863351841560000000000000000000, 1508863351841560000000000000000000, 1508863351841560000000000000000000,
    474018906505984000000000000000000, 474018906505984000000000000000000, 474018906505984000000000000000000,
    474018906505984000000000000000000, 474018906505984000000000000000000, 474018906505984000000000000000000,
    1163778761521730000000000000000000, 1163778761521730000000000000000000, 1163778761521730000000000000000000,
    1586889178002300000000000000000000, 1586889178002300000000000000000000, 1586889178002300000000000000000000,
    814350980996593000000000000000000, 814350980996593000000000000000000, 814350980996593000000000000000000,
    814350980996593000000000000000000, 814350980996593000000000000000000, 814350980996593000000000000000000,
    1450056765152960000000000000000000, 1450056765152960000000000000000000, 1450056765152960000000000000000000,
    1242748006336540000000000000000000, 1242748006336540000000000000000000, 1242748006336540000000000000000000,
    1242748006336540000000000000000000, 1242748006336540000000000000000000, 1242748006336540000000000000000000,
    81968780315066500000000000000000, 81968780315066500000000000000000, 81968780315066500000000000000000,
    81968780315066500000000000000000, 81968780315066500000000000000000, 81968780315066500000000000000000,
    439016355690880000000000000000000, 439016355690880000000000000000000, 439016355690880000000000000000000,
    439016355690880000000000000000000, 439016355690880000000000000000000, 439016355690880000000000000000000,
    878177004598599000000000000000000, 878177004598599000000000000000000, 878177004598599000000000000000000,
    878177004598599000000000000000000, 878177004598599000000000000000000, 878177004598599000000000000000000,
    702185883202992000000000000000000, 702185883202992000000000000000000, 702185883202992000000000000000000,
    702185883202992000000000000000000, 702185883202992000000000000000000, 702185883202992000000000000000000,
    217282030369851000000000000000000, 217282030369851000000000000000000, 217282030369851000000000000000000,
    217282030369851000000000000000000, 217282030369851000000000000000000, 217282030369851000000000000000000,
    41627024395810200000000000000000, 41627024395810200000000000000000, 41627024395810200000000000000000,
    108700796476885000000000000000000, 108700796476885000000000000000000, 108700796476885000000000000000000]⟩

/-- `triangle_table_orig[36]` (xg_quad_data.py 6056-6547). -/
def xgTri_36 : XgTableRule :=
  ⟨[
    [m 45770306387539200000000000000000000, m 52141842729563100000000000000000000],
    [68041313597704200000000000000000000, m 13567326705824500000000000000000000],
    [m 22271007210165000000000000000000000, 65709169435387700000000000000000000],
    [45770306387539200000000000000000000, m 52141842729563100000000000000000000],
    [22271007210165000000000000000000000, 65709169435387700000000000000000000],
    [m 68041313597704200000000000000000000, m 13567326705824500000000000000000000],
    [m 36361676298891200000000000000000000, m 41429464277319700000000000000000000],
    [54059806678784400000000000000000000, m 10775403260366400000000000000000000],
    [m 17698130379893200000000000000000000, 52204867537686200000000000000000000],
    [36361676298891200000000000000000000, m 41429464277319700000000000000000000],
    [17698130379893200000000000000000000, 52204867537686200000000000000000000],
    [m 54059806678784400000000000000000000, m 10775403260366400000000000000000000],
    [m 74962911892600900000000000000000000, m 46477792693461000000000000000000000],
    [77732405130664400000000000000000000, m 41680889693916500000000000000000000],
    [m 2769493238063500000000000000000000, 88158682387377500000000000000000000],
    [74962911892600900000000000000000000, m 46477792693461000000000000000000000],
    [2769493238063570000000000000000000, 88158682387377500000000000000000000],
    [m 77732405130664400000000000000000000, m 41680889693916400000000000000000000],
    [m 26737758237748000000000000000000000, m 44967445714422100000000000000000000],
    [52311829450861200000000000000000000, m 671855016925405000000000000000000],
    [m 25574071213113200000000000000000000, 45639300731347500000000000000000000],
    [26737758237748000000000000000000000, m 44967445714422100000000000000000000],
    [25574071213113200000000000000000000, 45639300731347500000000000000000000],
    [m 52311829450861200000000000000000000, m 671855016925360000000000000000000],
    [m 37317732959222400000000000000000000, m 49063516603887500000000000000000000],
    [61149118257577400000000000000000000, m 7786346452386660000000000000000000],
    [m 23831385298355000000000000000000000, 56849863056274300000000000000000000],
    [37317732959222400000000000000000000, m 49063516603887500000000000000000000],
    [23831385298355000000000000000000000, 56849863056274200000000000000000000],
    [m 61149118257577400000000000000000000, m 7786346452386620000000000000000000],
    [m 14975882871475800000000000000000000, m 46321446291835200000000000000000000],
    [47603490664503700000000000000000000, 10191228135119400000000000000000000],
    [m 32627607793027900000000000000000000, 36130218156715900000000000000000000],
    [14975882871475700000000000000000000, m 46321446291835200000000000000000000],
    [32627607793027900000000000000000000, 36130218156715900000000000000000000],
    [m 47603490664503700000000000000000000, 10191228135119400000000000000000000],
    [m 98352138144106100000000000000000000, m 57521271319697800000000000000000000],
    [98990951292888600000000000000000000, m 56414814489463500000000000000000000],
    [m 638813148782380000000000000000000, 113936085809161000000000000000000000],
    [98352138144106100000000000000000000, m 57521271319697800000000000000000000],
    [638813148782469000000000000000000, 113936085809161000000000000000000000],
    [m 98990951292888600000000000000000000, m 56414814489463500000000000000000000],
    [m 5551115123125780000, m 27374719021510400000000000000000000],
    [23707202094089100000000000000000000, 13687359510755200000000000000000000],
    [m 23707202094089100000000000000000000, 13687359510755200000000000000000000],
    [m 53788829941643900000000000000000000, m 39427972611017900000000000000000000],
    [61040040871680500000000000000000000, m 26868506863795700000000000000000000],
    [m 7251210930036570000000000000000000, 66296479474813600000000000000000000],
    [53788829941643900000000000000000000, m 39427972611017900000000000000000000],
    [7251210930036600000000000000000000, 66296479474813600000000000000000000],
    [m 61040040871680500000000000000000000, m 26868506863795700000000000000000000],
    [m 25563046668462200000000000000000000, m 36279824244610600000000000000000000],
    [44200772774898500000000000000000000, m 3998335690710100000000000000000000],
    [m 18637726106436300000000000000000000, 40278159935320800000000000000000000],
    [25563046668462200000000000000000000, m 36279824244610600000000000000000000],
    [18637726106436300000000000000000000, 40278159935320700000000000000000000],
    [m 44200772774898500000000000000000000, m 3998335690710060000000000000000000],
    [m 1387778780781450000, m 36620767514629500000000000000000000],
    [31714514973753100000000000000000000, 18310383757314800000000000000000000],
    [m 31714514973753000000000000000000000, 18310383757314800000000000000000000],
    [m 83136119811518300000000000000000000, m 57248771387722100000000000000000000],
    [91146950262974200000000000000000000, m 43373606034980600000000000000000000],
    [m 8010830451455850000000000000000000, 100622377422703000000000000000000000],
    [83136119811518300000000000000000000, m 57248771387722100000000000000000000],
    [8010830451455920000000000000000000, 100622377422703000000000000000000000],
    [m 91146950262974300000000000000000000, m 43373606034980500000000000000000000],
    [m 13003286298009300000000000000000000, m 38562994925042100000000000000000000],
    [39898176400101400000000000000000000, 8020321195762940000000000000000000],
    [m 26894890102092200000000000000000000, 30542673729279200000000000000000000],
    [13003286298009200000000000000000000, m 38562994925042100000000000000000000],
    [26894890102092200000000000000000000, 30542673729279200000000000000000000],
    [m 39898176400101400000000000000000000, 8020321195762960000000000000000000],
    [m 29484302362535900000000000000000000, m 17022769905878400000000000000000000],
    [29484302362535900000000000000000000, m 17022769905878400000000000000000000],
    [0, 34045539811756800000000000000000000],
    [m 60110699315720800000000000000000000, m 57257600517555600000000000000000000],
    [79641886265804500000000000000000000, m 23428592387884300000000000000000000],
    [m 19531186950083700000000000000000000, 80686192905439900000000000000000000],
    [60110699315720800000000000000000000, m 57257600517555600000000000000000000],
    [19531186950083800000000000000000000, 80686192905439900000000000000000000],
    [m 79641886265804500000000000000000000, m 23428592387884200000000000000000000],
    [m 63205241025983800000000000000000000, m 45255306558366200000000000000000000],
    [70794865648589500000000000000000000, m 32109691101637300000000000000000000],
    [m 7589624622605680000000000000000000, 77364997660003500000000000000000000],
    [63205241025983800000000000000000000, m 45255306558366200000000000000000000],
    [7589624622605730000000000000000000, 77364997660003500000000000000000000],
    [m 70794865648589500000000000000000000, m 32109691101637300000000000000000000],
    [m 52716585532238100000000000000000000, m 55235918086652400000000000000000000],
    [74194001030516400000000000000000000, m 18035943228367200000000000000000000],
    [m 21477415498278300000000000000000000, 73271861315019700000000000000000000],
    [52716585532238100000000000000000000, m 55235918086652400000000000000000000],
    [21477415498278300000000000000000000, 73271861315019600000000000000000000],
    [m 74194001030516400000000000000000000, m 18035943228367100000000000000000000],
    [m 28230973261381900000000000000000000, m 57260000432656200000000000000000000],
    [63704101626079200000000000000000000, 4181260198412150000000000000000000],
    [m 35473128364697200000000000000000000, 53078740234244100000000000000000000],
    [28230973261381900000000000000000000, m 57260000432656200000000000000000000],
    [35473128364697300000000000000000000, 53078740234244100000000000000000000],
    [m 63704101626079200000000000000000000, 4181260198412200000000000000000000],
    [m 71047632569890900000000000000000000, m 50975814717158200000000000000000000],
    [79670166808613100000000000000000000, m 36041147325689100000000000000000000],
    [m 8622534238722150000000000000000000, 87016962042847300000000000000000000],
    [71047632569890900000000000000000000, m 50975814717158200000000000000000000],
    [8622534238722210000000000000000000, 87016962042847300000000000000000000],
    [m 79670166808613100000000000000000000, m 36041147325689000000000000000000000],
    [m 95056420733325400000000000000000000, m 56440377229715000000000000000000000],
    [96407010846772700000000000000000000, m 54101086533024100000000000000000000],
    [m 1350590113447250000000000000000000, 110541463762739000000000000000000000],
    [95056420733325400000000000000000000, m 56440377229715000000000000000000000],
    [1350590113447310000000000000000000, 110541463762739000000000000000000000],
    [m 96407010846772700000000000000000000, m 54101086533024100000000000000000000],
    [m 28616499791046100000000000000000000, m 27325102827656000000000000000000000],
    [37972483105295200000000000000000000, m 11120064372610000000000000000000000],
    [m 9355983314249040000000000000000000, 38445167200266100000000000000000000],
    [28616499791046100000000000000000000, m 27325102827656000000000000000000000],
    [9355983314249070000000000000000000, 38445167200266100000000000000000000],
    [m 37972483105295200000000000000000000, m 11120064372610000000000000000000000],
    [m 54753479566032500000000000000000000, m 31611936166517600000000000000000000],
    [54753479566032500000000000000000000, m 31611936166517500000000000000000000],
    [0, 63223872333035100000000000000000000],
    [m 13633349630546000000000000000000000, m 28077682324477800000000000000000000],
    [31132660987660100000000000000000000, 2232014043510880000000000000000000],
    [m 17499311357114100000000000000000000, 25845668280967000000000000000000000],
    [13633349630546000000000000000000000, m 28077682324477800000000000000000000],
    [17499311357114100000000000000000000, 25845668280966900000000000000000000],
    [m 31132660987660100000000000000000000, 2232014043510910000000000000000000],
    [m 8091837122976930000000000000000000, m 51793028571538900000000000000000000],
    [48899997043374400000000000000000000, 18888777773985500000000000000000000],
    [m 40808159920397500000000000000000000, 32904250797553500000000000000000000],
    [8091837122976940000000000000000000, m 51793028571538900000000000000000000],
    [40808159920397500000000000000000000, 32904250797553500000000000000000000],
    [m 48899997043374400000000000000000000, 18888777773985500000000000000000000],
    [m 44770259704283500000000000000000000, m 57210278655469200000000000000000000],
    [71930684525364700000000000000000000, m 10167042910201700000000000000000000],
    [m 27160424821081100000000000000000000, 67377321565670900000000000000000000],
    [44770259704283500000000000000000000, m 57210278655469200000000000000000000],
    [27160424821081200000000000000000000, 67377321565670900000000000000000000],
    [m 71930684525364700000000000000000000, m 10167042910201700000000000000000000],
    [m 48011047223406800000000000000000000, m 45179917425831600000000000000000000],
    [63132479843356800000000000000000000, m 18988827844848800000000000000000000],
    [m 15121432619950000000000000000000000, 64168745270680400000000000000000000],
    [48011047223406800000000000000000000, m 45179917425831600000000000000000000],
    [15121432619950000000000000000000000, 64168745270680400000000000000000000],
    [m 63132479843356800000000000000000000, m 18988827844848800000000000000000000],
    [m 41323708163607700000000000000000000, m 34557238584596600000000000000000000],
    [50589300580704200000000000000000000, m 18508761755960300000000000000000000],
    [m 9265592417096570000000000000000000, 53066000340556900000000000000000000],
    [41323708163607700000000000000000000, m 34557238584596600000000000000000000],
    [9265592417096590000000000000000000, 53066000340556900000000000000000000],
    [m 50589300580704200000000000000000000, m 18508761755960300000000000000000000],
    [m 65560184610300900000000000000000000, m 54673762175281400000000000000000000],
    [80128959269412900000000000000000000, m 29439904261677500000000000000000000],
    [m 14568774659112000000000000000000000, 84113666436958900000000000000000000],
    [65560184610300900000000000000000000, m 54673762175281400000000000000000000],
    [14568774659112000000000000000000000, 84113666436958900000000000000000000],
    [m 80128959269412900000000000000000000, m 29439904261677400000000000000000000],
    [m 57620923725166000000000000000000000, m 50424349278017500000000000000000000],
    [72479229306645700000000000000000000, m 24689009096510500000000000000000000],
    [m 14858305581479600000000000000000000, 75113358374528000000000000000000000],
    [57620923725166000000000000000000000, m 50424349278017500000000000000000000],
    [14858305581479700000000000000000000, 75113358374528000000000000000000000],
    [m 72479229306645700000000000000000000, m 24689009096510400000000000000000000],
    [m 24925193834014900000000000000000000, m 51773945365247100000000000000000000],
    [57300148857459000000000000000000000, 4301121628115390000000000000000000],
    [m 32374955023444100000000000000000000, 47472823737131800000000000000000000],
    [24925193834014900000000000000000000, m 51773945365247100000000000000000000],
    [32374955023444100000000000000000000, 47472823737131700000000000000000000],
    [m 57300148857459000000000000000000000, 4301121628115420000000000000000000],
    [m 78377703132887500000000000000000000, m 54712080331353400000000000000000000],
    [86570903027290700000000000000000000, m 40521041837679100000000000000000000],
    [m 8193199894403120000000000000000000, 95233122169032500000000000000000000],
    [78377703132887500000000000000000000, m 54712080331353400000000000000000000],
    [8193199894403190000000000000000000, 95233122169032500000000000000000000],
    [m 86570903027290700000000000000000000, m 40521041837679100000000000000000000],
    [m 9830636937197220000000000000000000, m 57522359685526200000000000000000000],
    [54731143241890200000000000000000000, 20247598519768700000000000000000000],
    [m 44900506304692900000000000000000000, 37274761165757600000000000000000000],
    [9830636937197220000000000000000000, m 57522359685526200000000000000000000],
    [44900506304693000000000000000000000, 37274761165757600000000000000000000],
    [m 54731143241890100000000000000000000, 20247598519768700000000000000000000],
    [m 2775557561562890000, m 45359100459111600000000000000000000],
    [39282133290401000000000000000000000, 22679550229555800000000000000000000],
    [m 39282133290401000000000000000000000, 22679550229555800000000000000000000],
    [m 15401622396033300000000000000000000, m 16813042003647700000000000000000000],
    [22261332688070400000000000000000000, m 4931675252636310000000000000000000],
    [m 6859710292037060000000000000000000, 21744717256284000000000000000000000],
    [15401622396033300000000000000000000, m 16813042003647700000000000000000000],
    [6859710292037070000000000000000000, 21744717256284000000000000000000000],
    [m 22261332688070400000000000000000000, m 4931675252636300000000000000000000],
    [m 35730985892987800000000000000000000, m 55046376829560200000000000000000000],
    [65537053667184100000000000000000000, m 3420753070810720000000000000000000],
    [m 29806067774196300000000000000000000, 58467129900371000000000000000000000],
    [35730985892987800000000000000000000, m 55046376829560200000000000000000000],
    [29806067774196400000000000000000000, 58467129900371000000000000000000000],
    [m 65537053667184100000000000000000000, m 3420753070810690000000000000000000],
    [m 72653937769578900000000000000000000, m 57068525840467200000000000000000000],
    [85749762019162700000000000000000000, m 34385892873195500000000000000000000],
    [m 13095824249583700000000000000000000, 91454418713662700000000000000000000],
    [72653937769578900000000000000000000, m 57068525840467200000000000000000000],
    [13095824249583800000000000000000000, 91454418713662700000000000000000000],
    [m 85749762019162700000000000000000000, m 34385892873195400000000000000000000],
    [m 42651591436807300000000000000000000, m 24624907797406600000000000000000000],
    [42651591436807300000000000000000000, m 24624907797406600000000000000000000],
    [0, 49249815594813300000000000000000000],
    [m 83027114581134700000000000000000000, m 51140681795256000000000000000000000],
    [85802686892115400000000000000000000, m 46333249532556100000000000000000000],
    [m 2775572310980630000000000000000000, 97473931327812100000000000000000000],
    [83027114581134700000000000000000000, m 51140681795256000000000000000000000],
    [2775572310980710000000000000000000, 97473931327812100000000000000000000],
    [m 85802686892115400000000000000000000, m 46333249532556000000000000000000000],
    [m 91194985271971900000000000000000000, m 52651449295517000000000000000000000],
    [91194985271971900000000000000000000, m 52651449295516900000000000000000000],
    [0, 105302898591034000000000000000000000],
    [m 7556434302672010000000000000000000, m 4362709378761390000000000000000000],
    [7556434302672010000000000000000000, m 4362709378761390000000000000000000],
    [5551115123125780000, 8725418757522840000000000000000000],
    [m 88144405800714400000000000000000000, m 55627077065397500000000000000000000],
    [92246664777266200000000000000000000, m 48521756092204400000000000000000000],
    [m 4102258976551720000000000000000000, 104148833157602000000000000000000000],
    [88144405800714400000000000000000000, m 55627077065397500000000000000000000],
    [4102258976551790000000000000000000, 104148833157602000000000000000000000],
    [m 92246664777266200000000000000000000, m 48521756092204300000000000000000000],
    [m 66646520563485700000000000000000000, m 38478386587880400000000000000000000],
    [66646520563485700000000000000000000, m 38478386587880400000000000000000000],
    [0, 76956773175760900000000000000000000],
    [m 91784551568339900000000000000000000, m 57586320130293500000000000000000000],
    [95763491927467300000000000000000000, m 50694593267998400000000000000000000],
    [m 3978940359127430000000000000000000, 108280913398292000000000000000000000],
    [91784551568339900000000000000000000, m 57586320130293500000000000000000000],
    [3978940359127490000000000000000000, 108280913398292000000000000000000000],
    [m 95763491927467400000000000000000000, m 50694593267998400000000000000000000],
    [m 17476902776510300000000000000000000, m 55598397134821000000000000000000000],
    [56888075716706100000000000000000000, 12663756783481800000000000000000000],
    [m 39411172940195700000000000000000000, 42934640351339200000000000000000000],
    [17476902776510300000000000000000000, m 55598397134821000000000000000000000],
    [39411172940195800000000000000000000, 42934640351339200000000000000000000],
    [m 56888075716706100000000000000000000, 12663756783481800000000000000000000],
    [2775557561562890000, m 16513031625331100000000000000000000],
    [14300704881032600000000000000000000, 8256515812665570000000000000000000],
    [m 14300704881032600000000000000000000, 8256515812665580000000000000000000],
    [2428612866367530000, m 55823188110938400000000000000000000],
    [48344299024310200000000000000000000, 27911594055469200000000000000000000],
    [m 48344299024310100000000000000000000, 27911594055469300000000000000000000]],
   [530299080204048000000000000000000, 530299080204048000000000000000000, 530299080204048000000000000000000,
    530299080204048000000000000000000, 530299080204048000000000000000000, 530299080204048000000000000000000,
    852735720068235000000000000000000, 852735720068235000000000000000000, 852735720068235000000000000000000,
    852735720068235000000000000000000, 852735720068235000000000000000000, 852735720068235000000000000000000,
    575685337093622000000000000000000, 575685337093622000000000000000000, 575685337093622000000000000000000,
    575685337093622000000000000000000, 575685337093622000000000000000000, 575685337093622000000000000000000,
    821466057284550000000000000000000, 821466057284550000000000000000000, 821466057284550000000000000000000,
    821466057284550000000000000000000, 821466057284550000000000000000000, 821466057284550000000000000000000,
    712531285111189000000000000000000, 712531285111189000000000000000000, 712531285111189000000000000000000,
    712531285111189000000000000000000, 712531285111189000000000000000000, 712531285111189000000000000000000,
    906787924467786000000000000000000, 906787924467786000000000000000000, 906787924467786000000000000000000,
    906787924467786000000000000000000, 906787924467786000000000000000000, 906787924467786000000000000000000,
    22575537833488300000000000000000, 22575537833488300000000000000000, 22575537833488300000000000000000,
    22575537833488300000000000000000, 22575537833488300000000000000000, 22575537833488300000000000000000,
    1328568622419630000000000000000000, 1328568622419630000000000000000000, 1328568622419630000000000000000000,
    905464942672671000000000000000000, 905464942672671000000000000000000, 905464942672671000000000000000000,
    905464942672671000000000000000000, 905464942672671000000000000000000, 905464942672671000000000000000000,
    1148546713393940000000000000000000, 1148546713393940000000000000000000, 1148546713393940000000000000000000,
    1148546713393940000000000000000000, 1148546713393940000000000000000000, 1148546713393940000000000000000000,
    1191009353654200000000000000000000, 1191009353654200000000000000000000, 1191009353654200000000000000000000,
    120418171917182000000000000000000, 120418171917182000000000000000000, 120418171917182000000000000000000,
    120418171917182000000000000000000, 120418171917182000000000000000000, 120418171917182000000000000000000,
    1198297265385060000000000000000000, 1198297265385060000000000000000000, 1198297265385060000000000000000000,
    1198297265385060000000000000000000, 1198297265385060000000000000000000, 1198297265385060000000000000000000,
    1397418196056710000000000000000000, 1397418196056710000000000000000000, 1397418196056710000000000000000000,
    176271997029356000000000000000000, 176271997029356000000000000000000, 176271997029356000000000000000000,
    176271997029356000000000000000000, 176271997029356000000000000000000, 176271997029356000000000000000000,
    784790713516818000000000000000000, 784790713516818000000000000000000, 784790713516818000000000000000000,
    784790713516818000000000000000000, 784790713516818000000000000000000, 784790713516818000000000000000000,
    412103470390366000000000000000000, 412103470390366000000000000000000, 412103470390366000000000000000000,
    412103470390366000000000000000000, 412103470390366000000000000000000, 412103470390366000000000000000000,
    210769644467901000000000000000000, 210769644467901000000000000000000, 210769644467901000000000000000000,
    210769644467901000000000000000000, 210769644467901000000000000000000, 210769644467901000000000000000000,
    539192134568117000000000000000000, 539192134568117000000000000000000, 539192134568117000000000000000000,
    539192134568117000000000000000000, 539192134568117000000000000000000, 539192134568117000000000000000000,
    112268992915328000000000000000000, 112268992915328000000000000000000, 112268992915328000000000000000000,
    112268992915328000000000000000000, 112268992915328000000000000000000, 112268992915328000000000000000000,
    1445424933769910000000000000000000, 1445424933769910000000000000000000, 1445424933769910000000000000000000,
    1445424933769910000000000000000000, 1445424933769910000000000000000000, 1445424933769910000000000000000000,
    1068859063686460000000000000000000, 1068859063686460000000000000000000, 1068859063686460000000000000000000,
    1542183891548070000000000000000000, 1542183891548070000000000000000000, 1542183891548070000000000000000000,
    1542183891548070000000000000000000, 1542183891548070000000000000000000, 1542183891548070000000000000000000,
    825116783278687000000000000000000, 825116783278687000000000000000000, 825116783278687000000000000000000,
    825116783278687000000000000000000, 825116783278687000000000000000000, 825116783278687000000000000000000,
    213586718019254000000000000000000, 213586718019254000000000000000000, 213586718019254000000000000000000,
    213586718019254000000000000000000, 213586718019254000000000000000000, 213586718019254000000000000000000,
    914702307626632000000000000000000, 914702307626632000000000000000000, 914702307626632000000000000000000,
    914702307626632000000000000000000, 914702307626632000000000000000000, 914702307626632000000000000000000,
    1247762155400490000000000000000000, 1247762155400490000000000000000000, 1247762155400490000000000000000000,
    1247762155400490000000000000000000, 1247762155400490000000000000000000, 1247762155400490000000000000000000,
    441681004138194000000000000000000, 441681004138194000000000000000000, 441681004138194000000000000000000,
    441681004138194000000000000000000, 441681004138194000000000000000000, 441681004138194000000000000000000,
    708949380615653000000000000000000, 708949380615653000000000000000000, 708949380615653000000000000000000,
    708949380615653000000000000000000, 708949380615653000000000000000000, 708949380615653000000000000000000,
    774121357886594000000000000000000, 774121357886594000000000000000000, 774121357886594000000000000000000,
    774121357886594000000000000000000, 774121357886594000000000000000000, 774121357886594000000000000000000,
    363942399470003000000000000000000, 363942399470003000000000000000000, 363942399470003000000000000000000,
    363942399470003000000000000000000, 363942399470003000000000000000000, 363942399470003000000000000000000,
    142390010221717000000000000000000, 142390010221717000000000000000000, 142390010221717000000000000000000,
    142390010221717000000000000000000, 142390010221717000000000000000000, 142390010221717000000000000000000,
    1153759507308680000000000000000000, 1153759507308680000000000000000000, 1153759507308680000000000000000000,
    1769003352135730000000000000000000, 1769003352135730000000000000000000, 1769003352135730000000000000000000,
    1769003352135730000000000000000000, 1769003352135730000000000000000000, 1769003352135730000000000000000000,
    526581785282162000000000000000000, 526581785282162000000000000000000, 526581785282162000000000000000000,
    526581785282162000000000000000000, 526581785282162000000000000000000, 526581785282162000000000000000000,
    192190116265906000000000000000000, 192190116265906000000000000000000, 192190116265906000000000000000000,
    192190116265906000000000000000000, 192190116265906000000000000000000, 192190116265906000000000000000000,
    1401787702818400000000000000000000, 1401787702818400000000000000000000, 1401787702818400000000000000000000,
    461920831828266000000000000000000, 461920831828266000000000000000000, 461920831828266000000000000000000,
    461920831828266000000000000000000, 461920831828266000000000000000000, 461920831828266000000000000000000,
    271485750470148000000000000000000, 271485750470148000000000000000000, 271485750470148000000000000000000,
    1906689361583730000000000000000000, 1906689361583730000000000000000000, 1906689361583730000000000000000000,
    231334223839489000000000000000000, 231334223839489000000000000000000, 231334223839489000000000000000000,
    231334223839489000000000000000000, 231334223839489000000000000000000, 231334223839489000000000000000000,
    939386229393313000000000000000000, 939386229393313000000000000000000, 939386229393313000000000000000000,
    46103351483156300000000000000000, 46103351483156300000000000000000, 46103351483156300000000000000000,
    46103351483156300000000000000000, 46103351483156300000000000000000, 46103351483156300000000000000000,
    500162058532458000000000000000000, 500162058532458000000000000000000, 500162058532458000000000000000000,
    500162058532458000000000000000000, 500162058532458000000000000000000, 500162058532458000000000000000000,
    1819752508570560000000000000000000, 1819752508570560000000000000000000, 1819752508570560000000000000000000,
    501587323676717000000000000000000, 501587323676717000000000000000000, 501587323676717000000000000000000]⟩

/-- `triangle_table_orig[37]` (xg_quad_data.py 6548-7057). -/
def xgTri_37 : XgTableRule :=
  ⟨[
    [m 69308820352671900000000000000000000, m 40015466087830600000000000000000000],
    [69308820352671900000000000000000000, m 40015466087830500000000000000000000],
    [m 11102230246251600000, 80030932175661100000000000000000000],
    [m 33412271632399900000000000000000000, m 51875656535329800000000000000000000],
    [61631772213791700000000000000000000, m 2998047764139580000000000000000000],
    [m 28219500581391800000000000000000000, 54873704299469400000000000000000000],
    [33412271632399900000000000000000000, m 51875656535329800000000000000000000],
    [28219500581391900000000000000000000, 54873704299469400000000000000000000],
    [m 61631772213791700000000000000000000, m 2998047764139530000000000000000000],
    [m 89493929237359400000000000000000000, m 51669344136026800000000000000000000],
    [89493929237359400000000000000000000, m 51669344136026800000000000000000000],
    [0, 103338688272054000000000000000000000],
    [m 75613518652324800000000000000000000, m 51993973121116000000000000000000000],
    [82834860892734100000000000000000000, m 39486241461883800000000000000000000],
    [m 7221342240409310000000000000000000, 91480214582999800000000000000000000],
    [75613518652324800000000000000000000, m 51993973121116000000000000000000000],
    [7221342240409380000000000000000000, 91480214582999800000000000000000000],
    [m 82834860892734200000000000000000000, m 39486241461883700000000000000000000],
    [m 84800448035565500000000000000000000, m 57382818530981500000000000000000000],
    [92095202606365100000000000000000000, m 44747932985611200000000000000000000],
    [m 7294754570799610000000000000000000, 102130751516593000000000000000000000],
    [84800448035565500000000000000000000, m 57382818530981500000000000000000000],
    [7294754570799670000000000000000000, 102130751516593000000000000000000000],
    [m 92095202606365200000000000000000000, m 44747932985611100000000000000000000],
    [m 70551641007683100000000000000000000, m 48120343056361500000000000000000000],
    [76949260029472700000000000000000000, m 37039341863152800000000000000000000],
    [m 6397619021789600000000000000000000, 85159684919514300000000000000000000],
    [70551641007683100000000000000000000, m 48120343056361500000000000000000000],
    [6397619021789660000000000000000000, 85159684919514300000000000000000000],
    [m 76949260029472700000000000000000000, m 37039341863152700000000000000000000],
    [m 12346882279099700000000000000000000, m 16501678669005200000000000000000000],
    [20464314071996100000000000000000000, m 2441874376733620000000000000000000],
    [m 8117431792896430000000000000000000, 18943553045738900000000000000000000],
    [12346882279099700000000000000000000, m 16501678669005200000000000000000000],
    [8117431792896430000000000000000000, 18943553045738900000000000000000000],
    [m 20464314071996100000000000000000000, m 2441874376733610000000000000000000],
    [m 14115293561515000000000000000000000, m 44697785411625900000000000000000000],
    [45767064440131000000000000000000000, 10124689899666100000000000000000000],
    [m 31651770878616000000000000000000000, 34573095511959900000000000000000000],
    [14115293561515000000000000000000000, m 44697785411625900000000000000000000],
    [31651770878616000000000000000000000, 34573095511959900000000000000000000],
    [m 45767064440131000000000000000000000, 10124689899666100000000000000000000],
    [m 22226952863035100000000000000000000, m 12832737218738400000000000000000000],
    [22226952863035100000000000000000000, m 12832737218738400000000000000000000],
    [0, 25665474437476900000000000000000000],
    [m 31129235394249000000000000000000000, m 48447626446390600000000000000000000],
    [57521492952757600000000000000000000, m 2734895428610060000000000000000000],
    [m 26392257558508500000000000000000000, 51182521875000700000000000000000000],
    [31129235394249000000000000000000000, m 48447626446390600000000000000000000],
    [26392257558508500000000000000000000, 51182521875000700000000000000000000],
    [m 57521492952757500000000000000000000, m 2734895428610020000000000000000000],
    [m 25517618371949400000000000000000000, m 41922309411584400000000000000000000],
    [49064594121718300000000000000000000, m 1137751048392430000000000000000000],
    [m 23546975749768900000000000000000000, 43060060459976900000000000000000000],
    [25517618371949400000000000000000000, m 41922309411584400000000000000000000],
    [23546975749768900000000000000000000, 43060060459976900000000000000000000],
    [m 49064594121718300000000000000000000, m 1137751048392410000000000000000000],
    [m 22738491727535500000000000000000000, m 34332292689716500000000000000000000],
    [41101883503225100000000000000000000, m 2525965134929760000000000000000000],
    [m 18363391775689500000000000000000000, 36858257824646400000000000000000000],
    [22738491727535500000000000000000000, m 34332292689716500000000000000000000],
    [18363391775689600000000000000000000, 36858257824646400000000000000000000],
    [m 41101883503225100000000000000000000, m 2525965134929750000000000000000000],
    [m 82431411808054800000000000000000000, m 50673434341218700000000000000000000],
    [85100187340525600000000000000000000, m 46050979524982600000000000000000000],
    [m 2668775532470780000000000000000000, 96724413866201400000000000000000000],
    [82431411808054800000000000000000000, m 50673434341218700000000000000000000],
    [2668775532470850000000000000000000, 96724413866201400000000000000000000],
    [m 85100187340525600000000000000000000, m 46050979524982600000000000000000000],
    [m 96025084028127400000000000000000000, m 57217095597866800000000000000000000],
    [97564000332579100000000000000000000, m 54551614369960300000000000000000000],
    [m 1538916304451690000000000000000000, 111768709967827000000000000000000000],
    [96025084028127400000000000000000000, m 57217095597866800000000000000000000],
    [1538916304451750000000000000000000, 111768709967827000000000000000000000],
    [m 97564000332579100000000000000000000, m 54551614369960200000000000000000000],
    [m 88743516782176100000000000000000000, m 54747072920427000000000000000000000],
    [91784114323016900000000000000000000, m 49480603494321700000000000000000000],
    [m 3040597540840810000000000000000000, 104227676414749000000000000000000000],
    [88743516782176000000000000000000000, m 54747072920427000000000000000000000],
    [3040597540840870000000000000000000, 104227676414749000000000000000000000],
    [m 91784114323016900000000000000000000, m 49480603494321600000000000000000000],
    [m 14743801672844800000000000000000000, m 26364744637852900000000000000000000],
    [30204439457092600000000000000000000, 413865521883394000000000000000000],
    [m 15460637784247800000000000000000000, 25950879115969600000000000000000000],
    [14743801672844800000000000000000000, m 26364744637852900000000000000000000],
    [15460637784247800000000000000000000, 25950879115969600000000000000000000],
    [m 30204439457092600000000000000000000, 413865521883405000000000000000000],
    [m 58167629238312100000000000000000000, m 33583096398861900000000000000000000],
    [58167629238312200000000000000000000, m 33583096398861900000000000000000000],
    [0, 67166192797723800000000000000000000],
    [5551115123125780000, m 44283386491499300000000000000000000],
    [38350537667243000000000000000000000, 22141693245749600000000000000000000],
    [m 38350537667243000000000000000000000, 22141693245749700000000000000000000],
    [m 63852651231947500000000000000000000, m 42124005904839300000000000000000000],
    [68406784838730200000000000000000000, m 34236015113434600000000000000000000],
    [m 4554133606782730000000000000000000, 76360021018273900000000000000000000],
    [63852651231947500000000000000000000, m 42124005904839300000000000000000000],
    [4554133606782780000000000000000000, 76360021018273900000000000000000000],
    [m 68406784838730300000000000000000000, m 34236015113434600000000000000000000],
    [m 91244418004082900000000000000000000, m 57039245293560400000000000000000000],
    [95019644438956800000000000000000000, m 50500361298281800000000000000000000],
    [m 3775226434873810000000000000000000, 107539606591842000000000000000000000],
    [91244418004082900000000000000000000, m 57039245293560400000000000000000000],
    [3775226434873890000000000000000000, 107539606591842000000000000000000000],
    [m 95019644438956800000000000000000000, m 50500361298281700000000000000000000],
    [m 2775557561562890000, m 15872646837428000000000000000000000],
    [13746115386511400000000000000000000, 7936323418714010000000000000000000],
    [m 13746115386511300000000000000000000, 7936323418714010000000000000000000],
    [m 53650720489459300000000000000000000, m 43711422090147400000000000000000000],
    [64680562210341500000000000000000000, m 24607175830136400000000000000000000],
    [m 11029841720882200000000000000000000, 68318597920283800000000000000000000],
    [53650720489459300000000000000000000, m 43711422090147400000000000000000000],
    [11029841720882200000000000000000000, 68318597920283800000000000000000000],
    [m 64680562210341600000000000000000000, m 24607175830136400000000000000000000],
    [m 8527788157658360000000000000000000, m 54811072534421300000000000000000000],
    [51731675302309600000000000000000000, 20020255084586400000000000000000000],
    [m 43203887144651200000000000000000000, 34790817449835000000000000000000000],
    [8527788157658370000000000000000000, m 54811072534421300000000000000000000],
    [43203887144651200000000000000000000, 34790817449834900000000000000000000],
    [m 51731675302309600000000000000000000, 20020255084586500000000000000000000],
    [m 16435656319638600000000000000000000, m 50551055464016500000000000000000000],
    [51996326379773800000000000000000000, 11041831831331000000000000000000000],
    [m 35560670060135100000000000000000000, 39509223632685600000000000000000000],
    [16435656319638600000000000000000000, m 50551055464016500000000000000000000],
    [35560670060135200000000000000000000, 39509223632685600000000000000000000],
    [m 51996326379773800000000000000000000, 11041831831331000000000000000000000],
    [m 81381272571201300000000000000000000, m 55356126813574200000000000000000000],
    [88630448361268900000000000000000000, m 42800186032179000000000000000000000],
    [m 7249175790067470000000000000000000, 98156312845753200000000000000000000],
    [81381272571201300000000000000000000, m 55356126813574200000000000000000000],
    [7249175790067540000000000000000000, 98156312845753200000000000000000000],
    [m 88630448361268900000000000000000000, m 42800186032179000000000000000000000],
    [m 94797647390829200000000000000000000, m 54731447239638500000000000000000000],
    [94797647390829300000000000000000000, m 54731447239638500000000000000000000],
    [m 22204460492503100000, 109462894479277000000000000000000000],
    [m 41910547578514400000000000000000000, m 54631433608883700000000000000000000],
    [68267483139713400000000000000000000, m 8979882085068050000000000000000000],
    [m 26356935561199000000000000000000000, 63611315693951800000000000000000000],
    [41910547578514400000000000000000000, m 54631433608883700000000000000000000],
    [26356935561199000000000000000000000, 63611315693951800000000000000000000],
    [m 68267483139713400000000000000000000, m 8979882085068000000000000000000000],
    [m 48677494045468800000000000000000000, m 35483129429226100000000000000000000],
    [55068038514215500000000000000000000, m 24414381721328700000000000000000000],
    [m 6390544468746610000000000000000000, 59897511150554900000000000000000000],
    [48677494045468800000000000000000000, m 35483129429226100000000000000000000],
    [6390544468746650000000000000000000, 59897511150554900000000000000000000],
    [m 55068038514215500000000000000000000, m 24414381721328700000000000000000000],
    [m 35909034523353800000000000000000000, m 33950304358022100000000000000000000],
    [47356343301937600000000000000000000, m 14122983943585800000000000000000000],
    [m 11447308778583700000000000000000000, 48073288301607900000000000000000000],
    [35909034523353800000000000000000000, m 33950304358022100000000000000000000],
    [11447308778583800000000000000000000, 48073288301607900000000000000000000],
    [m 47356343301937600000000000000000000, m 14122983943585800000000000000000000],
    [m 76603320945807200000000000000000000, m 44226947968881100000000000000000000],
    [76603320945807200000000000000000000, m 44226947968881100000000000000000000],
    [0, 88453895937762200000000000000000000],
    [m 25248858363296000000000000000000000, m 54714013952455200000000000000000000],
    [60008155207490400000000000000000000, 5490854217058070000000000000000000],
    [m 34759296844194400000000000000000000, 49223159735397200000000000000000000],
    [25248858363296000000000000000000000, m 54714013952455200000000000000000000],
    [34759296844194400000000000000000000, 49223159735397200000000000000000000],
    [m 60008155207490400000000000000000000, 5490854217058120000000000000000000],
    [m 693889390390723000, m 50545261693006500000000000000000000],
    [43773480667076100000000000000000000, 25272630846503300000000000000000000],
    [m 43773480667076100000000000000000000, 25272630846503300000000000000000000],
    [m 2775557561562890000, m 27272204187887400000000000000000000],
    [23618421643906900000000000000000000, 13636102093943700000000000000000000],
    [m 23618421643906800000000000000000000, 13636102093943700000000000000000000],
    [m 39948855862139300000000000000000000, m 42805065874848300000000000000000000],
    [57044702389354600000000000000000000, m 13194191091311400000000000000000000],
    [m 17095846527215300000000000000000000, 55999256966159700000000000000000000],
    [39948855862139300000000000000000000, m 42805065874848300000000000000000000],
    [17095846527215300000000000000000000, 55999256966159700000000000000000000],
    [m 57044702389354600000000000000000000, m 13194191091311300000000000000000000],
    [4943961906533900000, m 57184433744987300000000000000000000],
    [49523172324187100000000000000000000, 28592216872493700000000000000000000],
    [m 49523172324187100000000000000000000, 28592216872493700000000000000000000],
    [m 7262215394394840000000000000000000, m 4192842012866880000000000000000000],
    [7262215394394850000000000000000000, m 4192842012866880000000000000000000],
    [0, 8385684025733830000000000000000000],
    [m 74822550833094300000000000000000000, m 57144178004035600000000000000000000],
    [86899585246422000000000000000000000, m 36226140795394400000000000000000000],
    [m 12077034413327600000000000000000000, 93370318799430100000000000000000000],
    [74822550833094300000000000000000000, m 57144178004035600000000000000000000],
    [12077034413327700000000000000000000, 93370318799430100000000000000000000],
    [m 86899585246422000000000000000000000, m 36226140795394300000000000000000000],
    [m 61214302766947200000000000000000000, m 50017785048732200000000000000000000],
    [73923823876705200000000000000000000, m 28004248746762200000000000000000000],
    [m 12709521109757900000000000000000000, 78022033795494500000000000000000000],
    [61214302766947200000000000000000000, m 50017785048732200000000000000000000],
    [12709521109758000000000000000000000, 78022033795494500000000000000000000],
    [m 73923823876705200000000000000000000, m 28004248746762200000000000000000000],
    [m 8245623271886620000000000000000000, m 36587111104193900000000000000000000],
    [35808179303258900000000000000000000, 11152636328607000000000000000000000],
    [m 27562556031372300000000000000000000, 25434474775586900000000000000000000],
    [8245623271886600000000000000000000, m 36587111104193900000000000000000000],
    [27562556031372300000000000000000000, 25434474775586900000000000000000000],
    [m 35808179303258900000000000000000000, 11152636328607000000000000000000000],
    [m 98898529953405000000000000000000000, m 57099092891056700000000000000000000],
    [98898529953405100000000000000000000, m 57099092891056600000000000000000000],
    [0, 114198185782113000000000000000000000],
    [m 28849633742385900000000000000000000, m 23836996263996600000000000000000000],
    [35068261185728700000000000000000000, m 13066017578784600000000000000000000],
    [m 6218627443342830000000000000000000, 36903013842781200000000000000000000],
    [28849633742385900000000000000000000, m 23836996263996600000000000000000000],
    [6218627443342850000000000000000000, 36903013842781200000000000000000000],
    [m 35068261185728700000000000000000000, m 13066017578784600000000000000000000],
    [m 69338845905777900000000000000000000, m 54563400792324400000000000000000000],
    [81922714155913800000000000000000000, m 32767501627336100000000000000000000],
    [m 12583868250135900000000000000000000, 87330902419660500000000000000000000],
    [69338845905777900000000000000000000, m 54563400792324400000000000000000000],
    [12583868250136000000000000000000000, 87330902419660500000000000000000000],
    [m 81922714155913900000000000000000000, m 32767501627336000000000000000000000],
    [m 17221861996121400000000000000000000, m 57169987252525300000000000000000000],
    [58121592292780100000000000000000000, 13670423637151700000000000000000000],
    [m 40899730296658700000000000000000000, 43499563615373600000000000000000000],
    [17221861996121400000000000000000000, m 57169987252525300000000000000000000],
    [40899730296658700000000000000000000, 43499563615373600000000000000000000],
    [m 58121592292780100000000000000000000, 13670423637151800000000000000000000],
    [m 49166762890981200000000000000000000, m 57133062792022100000000000000000000],
    [74062065219393200000000000000000000, m 14013134289424700000000000000000000],
    [m 24895302328412000000000000000000000, 71146197081446800000000000000000000],
    [49166762890981200000000000000000000, m 57133062792022100000000000000000000],
    [24895302328412100000000000000000000, 71146197081446800000000000000000000],
    [m 74062065219393200000000000000000000, m 14013134289424600000000000000000000],
    [m 33772735494586900000000000000000000, m 57122090496927300000000000000000000],
    [66355549234906200000000000000000000, m 687001645141005000000000000000000],
    [m 32582813740319200000000000000000000, 57809092142068400000000000000000000],
    [33772735494586900000000000000000000, m 57122090496927300000000000000000000],
    [32582813740319300000000000000000000, 57809092142068400000000000000000000],
    [m 66355549234906200000000000000000000, m 687001645140961000000000000000000],
    [m 56199209754321700000000000000000000, m 54470987727952400000000000000000000],
    [75272864018798000000000000000000000, m 21434449455876600000000000000000000],
    [m 19073654264476300000000000000000000, 75905437183829100000000000000000000],
    [56199209754321700000000000000000000, m 54470987727952400000000000000000000],
    [19073654264476300000000000000000000, 75905437183829000000000000000000000],
    [m 75272864018798000000000000000000000, m 21434449455876600000000000000000000],
    [m 62908155899883900000000000000000000, m 57104889149424000000000000000000000],
    [80908362633637500000000000000000000, m 25927616539819400000000000000000000],
    [m 18000206733753600000000000000000000, 83032505689243500000000000000000000],
    [62908155899883900000000000000000000, m 57104889149424000000000000000000000],
    [18000206733753600000000000000000000, 83032505689243400000000000000000000],
    [m 80908362633637500000000000000000000, m 25927616539819300000000000000000000],
    [m 47085424810000800000000000000000000, m 49810325155934500000000000000000000],
    [66679719360802800000000000000000000, m 15872011455475500000000000000000000],
    [m 19594294550802000000000000000000000, 65682336611410100000000000000000000],
    [47085424810000700000000000000000000, m 49810325155934500000000000000000000],
    [19594294550802000000000000000000000, 65682336611410000000000000000000000],
    [m 66679719360802800000000000000000000, m 15872011455475400000000000000000000],
    [m 43190721639941100000000000000000000, m 24936174765314200000000000000000000],
    [43190721639941100000000000000000000, m 24936174765314200000000000000000000],
    [0, 49872349530628500000000000000000000]],
   [262230720699770000000000000000000, 262230720699770000000000000000000, 262230720699770000000000000000000,
    363590736745636000000000000000000, 363590736745636000000000000000000, 363590736745636000000000000000000,
    363590736745636000000000000000000, 363590736745636000000000000000000, 363590736745636000000000000000000,
    191336824107688000000000000000000, 191336824107688000000000000000000, 191336824107688000000000000000000,
    333008448213022000000000000000000, 333008448213022000000000000000000, 333008448213022000000000000000000,
    333008448213022000000000000000000, 333008448213022000000000000000000, 333008448213022000000000000000000,
    83215170346457300000000000000000, 83215170346457300000000000000000, 83215170346457300000000000000000,
    83215170346457300000000000000000, 83215170346457300000000000000000, 83215170346457300000000000000000,
    525252627723895000000000000000000, 525252627723895000000000000000000, 525252627723895000000000000000000,
    525252627723895000000000000000000, 525252627723895000000000000000000, 525252627723895000000000000000000,
    1267671761808400000000000000000000, 1267671761808400000000000000000000, 1267671761808400000000000000000000,
    1267671761808400000000000000000000, 1267671761808400000000000000000000, 1267671761808400000000000000000000,
    933284200342381000000000000000000, 933284200342381000000000000000000, 933284200342381000000000000000000,
    933284200342381000000000000000000, 933284200342381000000000000000000, 933284200342381000000000000000000,
    1313776534133610000000000000000000, 1313776534133610000000000000000000, 1313776534133610000000000000000000,
    791411412242845000000000000000000, 791411412242845000000000000000000, 791411412242845000000000000000000,
    791411412242845000000000000000000, 791411412242845000000000000000000, 791411412242845000000000000000000,
    990795399556603000000000000000000, 990795399556603000000000000000000, 990795399556603000000000000000000,
    990795399556603000000000000000000, 990795399556603000000000000000000, 990795399556603000000000000000000,
    1162553341926510000000000000000000, 1162553341926510000000000000000000, 1162553341926510000000000000000000,
    1162553341926510000000000000000000, 1162553341926510000000000000000000, 1162553341926510000000000000000000,
    401329597120552000000000000000000, 401329597120552000000000000000000, 401329597120552000000000000000000,
    401329597120552000000000000000000, 401329597120552000000000000000000, 401329597120552000000000000000000,
    53463084446775000000000000000000, 53463084446775000000000000000000, 53463084446775000000000000000000,
    53463084446775000000000000000000, 53463084446775000000000000000000, 53463084446775000000000000000000,
    208660640469085000000000000000000, 208660640469085000000000000000000, 208660640469085000000000000000000,
    208660640469085000000000000000000, 208660640469085000000000000000000, 208660640469085000000000000000000,
    1414002328881270000000000000000000, 1414002328881270000000000000000000, 1414002328881270000000000000000000,
    1414002328881270000000000000000000, 1414002328881270000000000000000000, 1414002328881270000000000000000000,
    909337093009034000000000000000000, 909337093009034000000000000000000, 909337093009034000000000000000000,
    1018590445542220000000000000000000, 1018590445542220000000000000000000, 1018590445542220000000000000000000,
    755957736768010000000000000000000, 755957736768010000000000000000000, 755957736768010000000000000000000,
    755957736768010000000000000000000, 755957736768010000000000000000000, 755957736768010000000000000000000,
    95227555954727100000000000000000, 95227555954727100000000000000000, 95227555954727100000000000000000,
    95227555954727100000000000000000, 95227555954727100000000000000000, 95227555954727100000000000000000,
    1497281119521930000000000000000000, 1497281119521930000000000000000000, 1497281119521930000000000000000000,
    908709744962295000000000000000000, 908709744962295000000000000000000, 908709744962295000000000000000000,
    908709744962295000000000000000000, 908709744962295000000000000000000, 908709744962295000000000000000000,
    564386929439721000000000000000000, 564386929439721000000000000000000, 564386929439721000000000000000000,
    564386929439721000000000000000000, 564386929439721000000000000000000, 564386929439721000000000000000000,
    828134192280083000000000000000000, 828134192280083000000000000000000, 828134192280083000000000000000000,
    828134192280083000000000000000000, 828134192280083000000000000000000, 828134192280083000000000000000000,
    278647467358930000000000000000000, 278647467358930000000000000000000, 278647467358930000000000000000000,
    278647467358930000000000000000000, 278647467358930000000000000000000, 278647467358930000000000000000000,
    152002570879997000000000000000000, 152002570879997000000000000000000, 152002570879997000000000000000000,
    516595672413159000000000000000000, 516595672413159000000000000000000, 516595672413159000000000000000000,
    516595672413159000000000000000000, 516595672413159000000000000000000, 516595672413159000000000000000000,
    1055502901575920000000000000000000, 1055502901575920000000000000000000, 1055502901575920000000000000000000,
    1055502901575920000000000000000000, 1055502901575920000000000000000000, 1055502901575920000000000000000000,
    1227563426272320000000000000000000, 1227563426272320000000000000000000, 1227563426272320000000000000000000,
    1227563426272320000000000000000000, 1227563426272320000000000000000000, 1227563426272320000000000000000000,
    621153880777323000000000000000000, 621153880777323000000000000000000, 621153880777323000000000000000000,
    545553158311022000000000000000000, 545553158311022000000000000000000, 545553158311022000000000000000000,
    545553158311022000000000000000000, 545553158311022000000000000000000, 545553158311022000000000000000000,
    865894257829446000000000000000000, 865894257829446000000000000000000, 865894257829446000000000000000000,
    1572501649351060000000000000000000, 1572501649351060000000000000000000, 1572501649351060000000000000000000,
    1082855640111880000000000000000000, 1082855640111880000000000000000000, 1082855640111880000000000000000000,
    1082855640111880000000000000000000, 1082855640111880000000000000000000, 1082855640111880000000000000000000,
    245202641228793000000000000000000, 245202641228793000000000000000000, 245202641228793000000000000000000,
    1767841325076320000000000000000000, 1767841325076320000000000000000000, 1767841325076320000000000000000000,
    164424505054736000000000000000000, 164424505054736000000000000000000, 164424505054736000000000000000000,
    164424505054736000000000000000000, 164424505054736000000000000000000, 164424505054736000000000000000000,
    698233342811307000000000000000000, 698233342811307000000000000000000, 698233342811307000000000000000000,
    698233342811307000000000000000000, 698233342811307000000000000000000, 698233342811307000000000000000000,
    1415469600404100000000000000000000, 1415469600404100000000000000000000, 1415469600404100000000000000000000,
    1415469600404100000000000000000000, 1415469600404100000000000000000000, 1415469600404100000000000000000000,
    30015632628715700000000000000000, 30015632628715700000000000000000, 30015632628715700000000000000000,
    1551685260543190000000000000000000, 1551685260543190000000000000000000, 1551685260543190000000000000000000,
    1551685260543190000000000000000000, 1551685260543190000000000000000000, 1551685260543190000000000000000000,
    426448011351609000000000000000000, 426448011351609000000000000000000, 426448011351609000000000000000000,
    426448011351609000000000000000000, 426448011351609000000000000000000, 426448011351609000000000000000000,
    246175155216757000000000000000000, 246175155216757000000000000000000, 246175155216757000000000000000000,
    246175155216757000000000000000000, 246175155216757000000000000000000, 246175155216757000000000000000000,
    226059736275972000000000000000000, 226059736275972000000000000000000, 226059736275972000000000000000000,
    226059736275972000000000000000000, 226059736275972000000000000000000, 226059736275972000000000000000000,
    250438876527800000000000000000000, 250438876527800000000000000000000, 250438876527800000000000000000000,
    250438876527800000000000000000000, 250438876527800000000000000000000, 250438876527800000000000000000000,
    508286774023427000000000000000000, 508286774023427000000000000000000, 508286774023427000000000000000000,
    508286774023427000000000000000000, 508286774023427000000000000000000, 508286774023427000000000000000000,
    207232778630067000000000000000000, 207232778630067000000000000000000, 207232778630067000000000000000000,
    207232778630067000000000000000000, 207232778630067000000000000000000, 207232778630067000000000000000000,
    844115726621801000000000000000000, 844115726621801000000000000000000, 844115726621801000000000000000000,
    844115726621801000000000000000000, 844115726621801000000000000000000, 844115726621801000000000000000000,
    1435976338712110000000000000000000, 1435976338712110000000000000000000, 1435976338712110000000000000000000]⟩

/-- `triangle_table_orig[38]` (xg_quad_data.py 7058-7597). -/
def xgTri_38 : XgTableRule :=
  ⟨[
    [0, m 43557198951312300000000000000000000],
    [37721640809529400000000000000000000, 21778599475656200000000000000000000],
    [m 37721640809529400000000000000000000, 21778599475656200000000000000000000],
    [m 38017185669450700000000000000000000, m 48676901082212500000000000000000000],
    [61164025749423700000000000000000000, m 8585398029027760000000000000000000],
    [m 23146840079972900000000000000000000, 57262299111240400000000000000000000],
    [38017185669450700000000000000000000, m 48676901082212500000000000000000000],
    [23146840079972900000000000000000000, 57262299111240400000000000000000000],
    [m 61164025749423700000000000000000000, m 8585398029027720000000000000000000],
    [5551115123125780000, m 20761979727194600000000000000000000],
    [17980401876608000000000000000000000, 10380989863597300000000000000000000],
    [m 17980401876608000000000000000000000, 10380989863597300000000000000000000],
    [m 64388710735877100000000000000000000, m 40573908618816900000000000000000000],
    [67332390962662300000000000000000000, m 35475304904788900000000000000000000],
    [m 2943680226785240000000000000000000, 76049213523605900000000000000000000],
    [64388710735877100000000000000000000, m 40573908618816900000000000000000000],
    [2943680226785280000000000000000000, 76049213523605900000000000000000000],
    [m 67332390962662400000000000000000000, m 35475304904788900000000000000000000],
    [m 2775557561562890000, m 46713152507187000000000000000000000],
    [40454776762080700000000000000000000, 23356576253593500000000000000000000],
    [m 40454776762080700000000000000000000, 23356576253593600000000000000000000],
    [m 91532058656497200000000000000000000, m 57377461458362200000000000000000000],
    [95456368555852800000000000000000000, m 50580357328032800000000000000000000],
    [m 3924309899355580000000000000000000, 107957818786395000000000000000000000],
    [91532058656497200000000000000000000, m 57377461458362200000000000000000000],
    [3924309899355660000000000000000000, 107957818786395000000000000000000000],
    [m 95456368555852900000000000000000000, m 50580357328032700000000000000000000],
    [m 78472586424382300000000000000000000, m 51373173879402500000000000000000000],
    [83726766864788900000000000000000000, m 42272666404483700000000000000000000],
    [m 5254180440406580000000000000000000, 93645840283886200000000000000000000],
    [78472586424382300000000000000000000, m 51373173879402500000000000000000000],
    [5254180440406640000000000000000000, 93645840283886200000000000000000000],
    [m 83726766864788900000000000000000000, m 42272666404483600000000000000000000],
    [m 9964359087623980000000000000000000, m 18600062141874100000000000000000000],
    [21090305870644200000000000000000000, 670642968624358000000000000000000],
    [m 11125946783020200000000000000000000, 17929419173249800000000000000000000],
    [9964359087623990000000000000000000, m 18600062141874100000000000000000000],
    [11125946783020200000000000000000000, 17929419173249800000000000000000000],
    [m 21090305870644100000000000000000000, 670642968624369000000000000000000],
    [m 41959606976158900000000000000000000, m 52071016051529600000000000000000000],
    [66074626189571400000000000000000000, m 10302577548399500000000000000000000],
    [m 24115019213412500000000000000000000, 62373593599929200000000000000000000],
    [41959606976158900000000000000000000, m 52071016051529600000000000000000000],
    [24115019213412500000000000000000000, 62373593599929200000000000000000000],
    [m 66074626189571400000000000000000000, m 10302577548399500000000000000000000],
    [m 90709796569683100000000000000000000, m 55471321549486500000000000000000000],
    [93394471928192100000000000000000000, m 50821327426720900000000000000000000],
    [m 2684675358508900000000000000000000, 106292648976207000000000000000000000],
    [90709796569683100000000000000000000, m 55471321549486500000000000000000000],
    [2684675358508980000000000000000000, 106292648976207000000000000000000000],
    [m 93394471928192100000000000000000000, m 50821327426720800000000000000000000],
    [m 94748648786119700000000000000000000, m 54703157882019600000000000000000000],
    [94748648786119800000000000000000000, m 54703157882019500000000000000000000],
    [0, 109406315764039000000000000000000000],
    [m 31006871991021500000000000000000000, m 44966761533984600000000000000000000],
    [54445793809858400000000000000000000, m 4369358069124500000000000000000000],
    [m 23438921818836800000000000000000000, 49336119603109200000000000000000000],
    [31006871991021500000000000000000000, m 44966761533984600000000000000000000],
    [23438921818836900000000000000000000, 49336119603109200000000000000000000],
    [m 54445793809858400000000000000000000, m 4369358069124470000000000000000000],
    [m 56355965604141800000000000000000000, m 32537131911992600000000000000000000],
    [56355965604141800000000000000000000, m 32537131911992500000000000000000000],
    [0, 65074263823985100000000000000000000],
    [m 55804669150858500000000000000000000, m 57266700781635500000000000000000000],
    [77496752243247700000000000000000000, m 19694910743611500000000000000000000],
    [m 21692083092389200000000000000000000, 76961611525247000000000000000000000],
    [55804669150858500000000000000000000, m 57266700781635500000000000000000000],
    [21692083092389200000000000000000000, 76961611525247000000000000000000000],
    [m 77496752243247800000000000000000000, m 19694910743611500000000000000000000],
    [m 23391252232540800000000000000000000, m 19775702200253900000000000000000000],
    [28821886599366100000000000000000000, m 10369567559582900000000000000000000],
    [m 5430634366825260000000000000000000, 30145269759836800000000000000000000],
    [23391252232540800000000000000000000, m 19775702200253900000000000000000000],
    [5430634366825270000000000000000000, 30145269759836800000000000000000000],
    [m 28821886599366100000000000000000000, m 10369567559582900000000000000000000],
    [m 84191118240738100000000000000000000, m 54145730613515200000000000000000000],
    [88987137338141900000000000000000000, m 45838781862741000000000000000000000],
    [m 4796019097403830000000000000000000, 99984512476256200000000000000000000],
    [84191118240738000000000000000000000, m 54145730613515200000000000000000000],
    [4796019097403900000000000000000000, 99984512476256200000000000000000000],
    [m 88987137338141900000000000000000000, m 45838781862741000000000000000000000],
    [m 53335107942756500000000000000000000, m 40306833625953500000000000000000000],
    [61574295837566900000000000000000000, m 26036141579035600000000000000000000],
    [m 8239187894810320000000000000000000, 66342975204989100000000000000000000],
    [53335107942756500000000000000000000, m 40306833625953500000000000000000000],
    [8239187894810350000000000000000000, 66342975204989100000000000000000000],
    [m 61574295837566900000000000000000000, m 26036141579035500000000000000000000],
    [m 99085847720091800000000000000000000, m 57207240854077300000000000000000000],
    [99085847720091800000000000000000000, m 57207240854077200000000000000000000],
    [0, 114414481708155000000000000000000000],
    [m 47291121570664000000000000000000000, m 45699037409328200000000000000000000],
    [63222088110305600000000000000000000, m 18105793948989200000000000000000000],
    [m 15930966539641600000000000000000000, 63804831358317400000000000000000000],
    [47291121570664000000000000000000000, m 45699037409328200000000000000000000],
    [15930966539641600000000000000000000, 63804831358317400000000000000000000],
    [m 63222088110305600000000000000000000, m 18105793948989100000000000000000000],
    [m 82379151966393300000000000000000000, m 47561625563410300000000000000000000],
    [82379151966393300000000000000000000, m 47561625563410300000000000000000000],
    [0, 95123251126820600000000000000000000],
    [m 72785722160360800000000000000000000, m 45891721551063700000000000000000000],
    [76136257766803300000000000000000000, m 40088423648136600000000000000000000],
    [m 3350535606442500000000000000000000, 85980145199200300000000000000000000],
    [72785722160360800000000000000000000, m 45891721551063700000000000000000000],
    [3350535606442560000000000000000000, 85980145199200300000000000000000000],
    [m 76136257766803400000000000000000000, m 40088423648136600000000000000000000],
    [m 49855221184504900000000000000000000, m 55254653716155100000000000000000000],
    [72779544387755000000000000000000000, m 15548561198995900000000000000000000],
    [m 22924323203250000000000000000000000, 70803214915151000000000000000000000],
    [49855221184504900000000000000000000, m 55254653716155100000000000000000000],
    [22924323203250100000000000000000000, 70803214915151000000000000000000000],
    [m 72779544387755000000000000000000000, m 15548561198995800000000000000000000],
    [m 54925671022190300000000000000000000, m 50985596144990700000000000000000000],
    [71617656999751000000000000000000000, m 22074228352628300000000000000000000],
    [m 16691985977560700000000000000000000, 73059824497619000000000000000000000],
    [54925671022190300000000000000000000, m 50985596144990700000000000000000000],
    [16691985977560700000000000000000000, 73059824497619000000000000000000000],
    [m 71617656999751000000000000000000000, m 22074228352628200000000000000000000],
    [m 44686452030685000000000000000000000, m 31858800667671700000000000000000000],
    [49933756727650900000000000000000000, m 22770202329732000000000000000000000],
    [m 5247304696965870000000000000000000, 54629002997403800000000000000000000],
    [44686452030685000000000000000000000, m 31858800667671700000000000000000000],
    [5247304696965900000000000000000000, 54629002997403800000000000000000000],
    [m 49933756727650900000000000000000000, m 22770202329732000000000000000000000],
    [m 61953974615995600000000000000000000, m 46956784465504100000000000000000000],
    [71642755535154800000000000000000000, m 30175323650116500000000000000000000],
    [m 9688780919159160000000000000000000, 77132108115620600000000000000000000],
    [61953974615995600000000000000000000, m 46956784465504100000000000000000000],
    [9688780919159210000000000000000000, 77132108115620600000000000000000000],
    [m 71642755535154800000000000000000000, m 30175323650116400000000000000000000],
    [m 62648548681833000000000000000000000, m 54683284777192000000000000000000000],
    [78681388120343600000000000000000000, m 26913592280097600000000000000000000],
    [m 16032839438510500000000000000000000, 81596877057289500000000000000000000],
    [62648548681833000000000000000000000, m 54683284777192000000000000000000000],
    [16032839438510600000000000000000000, 81596877057289500000000000000000000],
    [m 78681388120343600000000000000000000, m 26913592280097500000000000000000000],
    [m 67197877643540300000000000000000000, m 57051260429903300000000000000000000],
    [83006779671988300000000000000000000, m 29669438904752700000000000000000000],
    [m 15808902028447900000000000000000000, 86720699334656000000000000000000000],
    [67197877643540300000000000000000000, m 57051260429903300000000000000000000],
    [15808902028448000000000000000000000, 86720699334656000000000000000000000],
    [m 83006779671988300000000000000000000, m 29669438904752700000000000000000000],
    [m 41335885239677800000000000000000000, m 57227331670065000000000000000000000],
    [70228265636913000000000000000000000, m 7184260870446650000000000000000000],
    [m 28892380397235100000000000000000000, 64411592540511800000000000000000000],
    [41335885239677800000000000000000000, m 57227331670065000000000000000000000],
    [28892380397235200000000000000000000, 64411592540511800000000000000000000],
    [m 70228265636913000000000000000000000, m 7184260870446610000000000000000000],
    [m 25346463551838300000000000000000000, m 57253866498558200000000000000000000],
    [62256534628553400000000000000000000, 6676251917290790000000000000000000],
    [m 36910071076715000000000000000000000, 50577614581267500000000000000000000],
    [25346463551838300000000000000000000, m 57253866498558200000000000000000000],
    [36910071076715100000000000000000000, 50577614581267500000000000000000000],
    [m 62256534628553400000000000000000000, 6676251917290830000000000000000000],
    [m 69573906885921900000000000000000000, m 51790249949511200000000000000000000],
    [79638625567583400000000000000000000, m 34357645828985800000000000000000000],
    [m 10064718681661500000000000000000000, 86147895778497100000000000000000000],
    [69573906885921900000000000000000000, m 51790249949511200000000000000000000],
    [10064718681661500000000000000000000, 86147895778497100000000000000000000],
    [m 79638625567583400000000000000000000, m 34357645828985800000000000000000000],
    [m 88784932749476000000000000000000000, m 51260004822892800000000000000000000],
    [88784932749476000000000000000000000, m 51260004822892800000000000000000000],
    [0, 102520009645786000000000000000000000],
    [m 14348566512620800000000000000000000, m 8284148738546840000000000000000000],
    [14348566512620800000000000000000000, m 8284148738546830000000000000000000],
    [0, 16568297477093700000000000000000000],
    [m 38636910084523100000000000000000000, m 38903470904529400000000000000000000],
    [53009849140972900000000000000000000, m 14008810204667500000000000000000000],
    [m 14372939056449700000000000000000000, 52912281109196900000000000000000000],
    [38636910084523100000000000000000000, m 38903470904529400000000000000000000],
    [14372939056449700000000000000000000, 52912281109196900000000000000000000],
    [m 53009849140972800000000000000000000, m 14008810204667400000000000000000000],
    [2775557561562890000, m 30137742399876300000000000000000000],
    [26100050531004300000000000000000000, 15068871199938200000000000000000000],
    [m 26100050531004300000000000000000000, 15068871199938200000000000000000000],
    [m 33658056387534600000000000000000000, m 55145765476506100000000000000000000],
    [64586662007560500000000000000000000, m 1575849135360950000000000000000000],
    [m 30928605620025900000000000000000000, 56721614611867100000000000000000000],
    [33658056387534600000000000000000000, m 55145765476506100000000000000000000],
    [30928605620025900000000000000000000, 56721614611867100000000000000000000],
    [m 64586662007560500000000000000000000, m 1575849135360900000000000000000000],
    [m 37693173503841100000000000000000000, m 21762163869053900000000000000000000],
    [37693173503841100000000000000000000, m 21762163869053900000000000000000000],
    [0, 43524327738107900000000000000000000],
    [2081668171172170000, m 55031736573002400000000000000000000],
    [47658881886593200000000000000000000, 27515868286501200000000000000000000],
    [m 47658881886593200000000000000000000, 27515868286501200000000000000000000],
    [m 8784354154748520000000000000000000, m 51270307120416000000000000000000000],
    [48793565503484700000000000000000000, 18027679706356400000000000000000000],
    [m 40009211348736200000000000000000000, 33242627414059700000000000000000000],
    [8784354154748510000000000000000000, m 51270307120416000000000000000000000],
    [40009211348736300000000000000000000, 33242627414059600000000000000000000],
    [m 48793565503484700000000000000000000, 18027679706356500000000000000000000],
    [m 8503912074594440000000000000000000, m 57221773164738800000000000000000000],
    [53807465247551700000000000000000000, 21246282694221400000000000000000000],
    [m 45303553172957200000000000000000000, 35975490470517400000000000000000000],
    [8503912074594440000000000000000000, m 57221773164738800000000000000000000],
    [45303553172957200000000000000000000, 35975490470517400000000000000000000],
    [m 53807465247551700000000000000000000, 21246282694221400000000000000000000],
    [m 84482245043809000000000000000000000, m 57007049747206400000000000000000000],
    [91610675797788500000000000000000000, m 44660245503077400000000000000000000],
    [m 7128430753979440000000000000000000, 101667295250284000000000000000000000],
    [84482245043809000000000000000000000, m 57007049747206400000000000000000000],
    [7128430753979510000000000000000000, 101667295250284000000000000000000000],
    [m 91610675797788500000000000000000000, m 44660245503077300000000000000000000],
    [m 23361755931365200000000000000000000, m 37942157065303300000000000000000000],
    [44539749858614500000000000000000000, m 1260795580922440000000000000000000],
    [m 21177993927249200000000000000000000, 39202952646225700000000000000000000],
    [23361755931365200000000000000000000, m 37942157065303300000000000000000000],
    [21177993927249200000000000000000000, 39202952646225700000000000000000000],
    [m 44539749858614500000000000000000000, m 1260795580922420000000000000000000],
    [m 8471273767610210000000000000000000, m 38182236985847600000000000000000000],
    [37302424086866900000000000000000000, 11754780207760700000000000000000000],
    [m 28831150319256700000000000000000000, 26427456778087000000000000000000000],
    [8471273767610210000000000000000000, m 38182236985847600000000000000000000],
    [28831150319256700000000000000000000, 26427456778087000000000000000000000],
    [m 37302424086866900000000000000000000, 11754780207760700000000000000000000],
    [m 30228200141771600000000000000000000, m 29988148386350200000000000000000000],
    [41084598385922400000000000000000000, m 11184315040279500000000000000000000],
    [m 10856398244150800000000000000000000, 41172463426629700000000000000000000],
    [30228200141771600000000000000000000, m 29988148386350200000000000000000000],
    [10856398244150800000000000000000000, 41172463426629700000000000000000000],
    [m 41084598385922400000000000000000000, m 11184315040279400000000000000000000],
    [m 17281546621195600000000000000000000, m 55110081638940200000000000000000000],
    [56367504014554400000000000000000000, 12588782428829600000000000000000000],
    [m 39085957393358800000000000000000000, 42521299210110700000000000000000000],
    [17281546621195600000000000000000000, m 55110081638940200000000000000000000],
    [39085957393358800000000000000000000, 42521299210110700000000000000000000],
    [m 56367504014554400000000000000000000, 12588782428829600000000000000000000],
    [m 5551115123125780000, m 8047891163990220000000000000000000],
    [6969678194907850000000000000000000, 4023945581995140000000000000000000],
    [m 6969678194907840000000000000000000, 4023945581995140000000000000000000],
    [m 16293712483088200000000000000000000, m 45603365215790600000000000000000000],
    [47640529016478400000000000000000000, 8690913675581360000000000000000000],
    [m 31346816533390200000000000000000000, 36912451540209400000000000000000000],
    [16293712483088200000000000000000000, m 45603365215790600000000000000000000],
    [31346816533390200000000000000000000, 36912451540209300000000000000000000],
    [m 47640529016478400000000000000000000, 8690913675581380000000000000000000],
    [m 96366288222453300000000000000000000, m 57138683817501200000000000000000000],
    [97666695835989500000000000000000000, m 54886311760307100000000000000000000],
    [m 1300407613536200000000000000000000, 112024995577808000000000000000000000],
    [96366288222453300000000000000000000, m 57138683817501200000000000000000000],
    [1300407613536270000000000000000000, 112024995577808000000000000000000000],
    [m 97666695835989500000000000000000000, m 54886311760307000000000000000000000],
    [m 25373681319593300000000000000000000, m 51210804711264000000000000000000000],
    [57036698487995100000000000000000000, 3631149745333520000000000000000000],
    [m 31663017168401700000000000000000000, 47579654965930500000000000000000000],
    [25373681319593300000000000000000000, m 51210804711264000000000000000000000],
    [31663017168401800000000000000000000, 47579654965930500000000000000000000],
    [m 57036698487995100000000000000000000, 3631149745333560000000000000000000],
    [m 15001122172665200000000000000000000, m 28983256020905700000000000000000000],
    [32600797084825300000000000000000000, 1500275123650780000000000000000000],
    [m 17599674912160000000000000000000000, 27482980897255000000000000000000000],
    [15001122172665200000000000000000000, m 28983256020905700000000000000000000],
    [17599674912160100000000000000000000, 27482980897255000000000000000000000],
    [m 32600797084825300000000000000000000, 1500275123650820000000000000000000],
    [m 75738968673027800000000000000000000, m 55650931396143500000000000000000000],
    [86064604669839100000000000000000000, m 37766405229204100000000000000000000],
    [m 10325635996811300000000000000000000, 93417336625347600000000000000000000],
    [75738968673027800000000000000000000, m 55650931396143500000000000000000000],
    [10325635996811400000000000000000000, 93417336625347600000000000000000000],
    [m 86064604669839200000000000000000000, m 37766405229204100000000000000000000],
    [m 76664557469367500000000000000000000, m 57683373408531400000000000000000000],
    [88287545482455700000000000000000000, m 37551767634098600000000000000000000],
    [m 11622988013088200000000000000000000, 95235141042630000000000000000000000],
    [76664557469367500000000000000000000, m 57683373408531400000000000000000000],
    [11622988013088300000000000000000000, 95235141042630000000000000000000000],
    [m 88287545482455700000000000000000000, m 37551767634098500000000000000000000]],
   [548014716391298000000000000000000, 548014716391298000000000000000000, 548014716391298000000000000000000,
    430415531741352000000000000000000, 430415531741352000000000000000000, 430415531741352000000000000000000,
    430415531741352000000000000000000, 430415531741352000000000000000000, 430415531741352000000000000000000,
    1015268985209990000000000000000000, 1015268985209990000000000000000000, 1015268985209990000000000000000000,
    640250703597187000000000000000000, 640250703597187000000000000000000, 640250703597187000000000000000000,
    640250703597187000000000000000000, 640250703597187000000000000000000, 640250703597187000000000000000000,
    680733536197642000000000000000000, 680733536197642000000000000000000, 680733536197642000000000000000000,
    60224168507228800000000000000000, 60224168507228800000000000000000, 60224168507228800000000000000000,
    60224168507228800000000000000000, 60224168507228800000000000000000, 60224168507228800000000000000000,
    359197351176717000000000000000000, 359197351176717000000000000000000, 359197351176717000000000000000000,
    359197351176717000000000000000000, 359197351176717000000000000000000, 359197351176717000000000000000000,
    1276701767257740000000000000000000, 1276701767257740000000000000000000, 1276701767257740000000000000000000,
    1276701767257740000000000000000000, 1276701767257740000000000000000000, 1276701767257740000000000000000000,
    541334832808980000000000000000000, 541334832808980000000000000000000, 541334832808980000000000000000000,
    541334832808980000000000000000000, 541334832808980000000000000000000, 541334832808980000000000000000000,
    156954324404139000000000000000000, 156954324404139000000000000000000, 156954324404139000000000000000000,
    156954324404139000000000000000000, 156954324404139000000000000000000, 156954324404139000000000000000000,
    121151717537325000000000000000000, 121151717537325000000000000000000, 121151717537325000000000000000000,
    865268111290327000000000000000000, 865268111290327000000000000000000, 865268111290327000000000000000000,
    865268111290327000000000000000000, 865268111290327000000000000000000, 865268111290327000000000000000000,
    901086011156803000000000000000000, 901086011156803000000000000000000, 901086011156803000000000000000000,
    160330435135882000000000000000000, 160330435135882000000000000000000, 160330435135882000000000000000000,
    160330435135882000000000000000000, 160330435135882000000000000000000, 160330435135882000000000000000000,
    1434513311012720000000000000000000, 1434513311012720000000000000000000, 1434513311012720000000000000000000,
    1434513311012720000000000000000000, 1434513311012720000000000000000000, 1434513311012720000000000000000000,
    266188923400770000000000000000000, 266188923400770000000000000000000, 266188923400770000000000000000000,
    266188923400770000000000000000000, 266188923400770000000000000000000, 266188923400770000000000000000000,
    904605231438631000000000000000000, 904605231438631000000000000000000, 904605231438631000000000000000000,
    904605231438631000000000000000000, 904605231438631000000000000000000, 904605231438631000000000000000000,
    21485512222453200000000000000000, 21485512222453200000000000000000, 21485512222453200000000000000000,
    817249603960987000000000000000000, 817249603960987000000000000000000, 817249603960987000000000000000000,
    817249603960987000000000000000000, 817249603960987000000000000000000, 817249603960987000000000000000000,
    434118134219019000000000000000000, 434118134219019000000000000000000, 434118134219019000000000000000000,
    623904966738618000000000000000000, 623904966738618000000000000000000, 623904966738618000000000000000000,
    623904966738618000000000000000000, 623904966738618000000000000000000, 623904966738618000000000000000000,
    410546351822147000000000000000000, 410546351822147000000000000000000, 410546351822147000000000000000000,
    410546351822147000000000000000000, 410546351822147000000000000000000, 410546351822147000000000000000000,
    625355183161777000000000000000000, 625355183161777000000000000000000, 625355183161777000000000000000000,
    625355183161777000000000000000000, 625355183161777000000000000000000, 625355183161777000000000000000000,
    1132839955184530000000000000000000, 1132839955184530000000000000000000, 1132839955184530000000000000000000,
    1132839955184530000000000000000000, 1132839955184530000000000000000000, 1132839955184530000000000000000000,
    706541885922776000000000000000000, 706541885922776000000000000000000, 706541885922776000000000000000000,
    706541885922776000000000000000000, 706541885922776000000000000000000, 706541885922776000000000000000000,
    402812476621882000000000000000000, 402812476621882000000000000000000, 402812476621882000000000000000000,
    402812476621882000000000000000000, 402812476621882000000000000000000, 402812476621882000000000000000000,
    174199974565689000000000000000000, 174199974565689000000000000000000, 174199974565689000000000000000000,
    174199974565689000000000000000000, 174199974565689000000000000000000, 174199974565689000000000000000000,
    198001426935558000000000000000000, 198001426935558000000000000000000, 198001426935558000000000000000000,
    198001426935558000000000000000000, 198001426935558000000000000000000, 198001426935558000000000000000000,
    205847539341480000000000000000000, 205847539341480000000000000000000, 205847539341480000000000000000000,
    205847539341480000000000000000000, 205847539341480000000000000000000, 205847539341480000000000000000000,
    503198682021698000000000000000000, 503198682021698000000000000000000, 503198682021698000000000000000000,
    503198682021698000000000000000000, 503198682021698000000000000000000, 503198682021698000000000000000000,
    295756370965664000000000000000000, 295756370965664000000000000000000, 295756370965664000000000000000000,
    1556353222354480000000000000000000, 1556353222354480000000000000000000, 1556353222354480000000000000000000,
    1095819216723810000000000000000000, 1095819216723810000000000000000000, 1095819216723810000000000000000000,
    1095819216723810000000000000000000, 1095819216723810000000000000000000, 1095819216723810000000000000000000,
    1374850709996530000000000000000000, 1374850709996530000000000000000000, 1374850709996530000000000000000000,
    472102701977765000000000000000000, 472102701977765000000000000000000, 472102701977765000000000000000000,
    472102701977765000000000000000000, 472102701977765000000000000000000, 472102701977765000000000000000000,
    1342088781485010000000000000000000, 1342088781485010000000000000000000, 1342088781485010000000000000000000,
    525832881102775000000000000000000, 525832881102775000000000000000000, 525832881102775000000000000000000,
    783162638193919000000000000000000, 783162638193919000000000000000000, 783162638193919000000000000000000,
    783162638193919000000000000000000, 783162638193919000000000000000000, 783162638193919000000000000000000,
    223291534831865000000000000000000, 223291534831865000000000000000000, 223291534831865000000000000000000,
    223291534831865000000000000000000, 223291534831865000000000000000000, 223291534831865000000000000000000,
    141453803999968000000000000000000, 141453803999968000000000000000000, 141453803999968000000000000000000,
    141453803999968000000000000000000, 141453803999968000000000000000000, 141453803999968000000000000000000,
    1203390678816900000000000000000000, 1203390678816900000000000000000000, 1203390678816900000000000000000000,
    1203390678816900000000000000000000, 1203390678816900000000000000000000, 1203390678816900000000000000000000,
    1229516693471710000000000000000000, 1229516693471710000000000000000000, 1229516693471710000000000000000000,
    1229516693471710000000000000000000, 1229516693471710000000000000000000, 1229516693471710000000000000000000,
    1332279685150990000000000000000000, 1332279685150990000000000000000000, 1332279685150990000000000000000000,
    1332279685150990000000000000000000, 1332279685150990000000000000000000, 1332279685150990000000000000000000,
    506662796369692000000000000000000, 506662796369692000000000000000000, 506662796369692000000000000000000,
    506662796369692000000000000000000, 506662796369692000000000000000000, 506662796369692000000000000000000,
    1727892778916510000000000000000000, 1727892778916510000000000000000000, 1727892778916510000000000000000000,
    1049050692396320000000000000000000, 1049050692396320000000000000000000, 1049050692396320000000000000000000,
    1049050692396320000000000000000000, 1049050692396320000000000000000000, 1049050692396320000000000000000000,
    57799511133376600000000000000000, 57799511133376600000000000000000, 57799511133376600000000000000000,
    57799511133376600000000000000000, 57799511133376600000000000000000, 57799511133376600000000000000000,
    784527030238756000000000000000000, 784527030238756000000000000000000, 784527030238756000000000000000000,
    784527030238756000000000000000000, 784527030238756000000000000000000, 784527030238756000000000000000000,
    1455362171410030000000000000000000, 1455362171410030000000000000000000, 1455362171410030000000000000000000,
    1455362171410030000000000000000000, 1455362171410030000000000000000000, 1455362171410030000000000000000000,
    313669525943984000000000000000000, 313669525943984000000000000000000, 313669525943984000000000000000000,
    313669525943984000000000000000000, 313669525943984000000000000000000, 313669525943984000000000000000000,
    50625361895662000000000000000000, 50625361895662000000000000000000, 50625361895662000000000000000000,
    50625361895662000000000000000000, 50625361895662000000000000000000, 50625361895662000000000000000000]⟩

/-- `triangle_table_orig[39]` (xg_quad_data.py 7598-8167). -/
def xgTri_39 : XgTableRule :=
  ⟨[
    [m 51907510039262500000000000000000000, m 56977344334974000000000000000000000],
    [75297582653892100000000000000000000, m 16464550173710100000000000000000000],
    [m 23390072614629500000000000000000000, 73441894508684100000000000000000000],
    [51907510039262500000000000000000000, m 56977344334974000000000000000000000],
    [23390072614629600000000000000000000, 73441894508684100000000000000000000],
    [m 75297582653892100000000000000000000, m 16464550173710100000000000000000000],
    [m 23601747851883700000000000000000000, m 17648949499470300000000000000000000],
    [27085312542591800000000000000000000, m 11615238463711000000000000000000000],
    [m 3483564690708050000000000000000000, 29264187963181300000000000000000000],
    [23601747851883700000000000000000000, m 17648949499470300000000000000000000],
    [3483564690708070000000000000000000, 29264187963181300000000000000000000],
    [m 27085312542591800000000000000000000, m 11615238463710900000000000000000000],
    [m 6253508424916360000000000000000000, m 16841403059063600000000000000000000],
    [17711837096980200000000000000000000, 3005004370774230000000000000000000],
    [m 11458328672063800000000000000000000, 13836398688289400000000000000000000],
    [6253508424916370000000000000000000, m 16841403059063600000000000000000000],
    [11458328672063800000000000000000000, 13836398688289400000000000000000000],
    [m 17711837096980200000000000000000000, 3005004370774230000000000000000000],
    [m 44171982481354000000000000000000000, m 57273896147926700000000000000000000],
    [71686640278493300000000000000000000, m 9617110890410400000000000000000000],
    [m 27514657797139200000000000000000000, 66891007038337200000000000000000000],
    [44171982481354000000000000000000000, m 57273896147926700000000000000000000],
    [27514657797139200000000000000000000, 66891007038337200000000000000000000],
    [m 71686640278493300000000000000000000, m 9617110890410360000000000000000000],
    [693889390390723000, m 48177391174488200000000000000000000],
    [41722844645167000000000000000000000, 24088695587244100000000000000000000],
    [m 41722844645167000000000000000000000, 24088695587244100000000000000000000],
    [m 15015342269982100000000000000000000, m 21805432181592900000000000000000000],
    [26391729344749200000000000000000000, m 2100951761526340000000000000000000],
    [m 11376387074767100000000000000000000, 23906383943119300000000000000000000],
    [15015342269982100000000000000000000, m 21805432181592900000000000000000000],
    [11376387074767100000000000000000000, 23906383943119300000000000000000000],
    [m 26391729344749200000000000000000000, m 2100951761526300000000000000000000],
    [0, m 43015355484213600000000000000000000],
    [37252390602147300000000000000000000, 21507677742106800000000000000000000],
    [m 37252390602147300000000000000000000, 21507677742106900000000000000000000],
    [m 7324241381724720000000000000000000, m 55672301202474300000000000000000000],
    [51875747819344100000000000000000000, 21493171501214300000000000000000000],
    [m 44551506437619300000000000000000000, 34179129701260100000000000000000000],
    [7324241381724710000000000000000000, m 55672301202474300000000000000000000],
    [44551506437619400000000000000000000, 34179129701260000000000000000000000],
    [m 51875747819344100000000000000000000, 21493171501214400000000000000000000],
    [m 61576635195673100000000000000000000, m 57361430082863900000000000000000000],
    [80464773247001600000000000000000000, m 24646215317587900000000000000000000],
    [m 18888138051328500000000000000000000, 82007645400451900000000000000000000],
    [61576635195673100000000000000000000, m 57361430082863900000000000000000000],
    [18888138051328500000000000000000000, 82007645400451800000000000000000000],
    [m 80464773247001600000000000000000000, m 24646215317587900000000000000000000],
    [0, m 7106243706214440000000000000000000],
    [6154187575065010000000000000000000, 3553121853107260000000000000000000],
    [m 6154187575065010000000000000000000, 3553121853107260000000000000000000],
    [4857225732735060000, m 57425388147699600000000000000000000],
    [49731844958089700000000000000000000, 28712694073849800000000000000000000],
    [m 49731844958089700000000000000000000, 28712694073849900000000000000000000],
    [m 48003862478268200000000000000000000, m 39157484051927400000000000000000000],
    [57913307176387200000000000000000000, m 21993822359991200000000000000000000],
    [m 9909444698119020000000000000000000, 61151306411918600000000000000000000],
    [48003862478268100000000000000000000, m 39157484051927400000000000000000000],
    [9909444698119070000000000000000000, 61151306411918600000000000000000000],
    [m 57913307176387200000000000000000000, m 21993822359991100000000000000000000],
    [m 36508484113357400000000000000000000, m 38260125928736600000000000000000000],
    [51388483062956300000000000000000000, m 12487211731459700000000000000000000],
    [m 14879998949598900000000000000000000, 50747337660196400000000000000000000],
    [36508484113357400000000000000000000, m 38260125928736600000000000000000000],
    [14879998949598900000000000000000000, 50747337660196400000000000000000000],
    [m 51388483062956300000000000000000000, m 12487211731459700000000000000000000],
    [m 66000502541090300000000000000000000, m 38105407908749100000000000000000000],
    [66000502541090400000000000000000000, m 38105407908749100000000000000000000],
    [0, 76210815817498200000000000000000000],
    [m 56713187575704000000000000000000000, m 37974002964326200000000000000000000],
    [61243045038344000000000000000000000, m 30128059687988500000000000000000000],
    [m 4529857462640050000000000000000000, 68102062652314800000000000000000000],
    [56713187575703900000000000000000000, m 37974002964326200000000000000000000],
    [4529857462640100000000000000000000, 68102062652314800000000000000000000],
    [m 61243045038344000000000000000000000, m 30128059687988500000000000000000000],
    [m 14031613163580400000000000000000000, m 47005865572418300000000000000000000],
    [47724080294380800000000000000000000, 11351199330472400000000000000000000],
    [m 33692467130800400000000000000000000, 35654666241946000000000000000000000],
    [14031613163580400000000000000000000, m 47005865572418300000000000000000000],
    [33692467130800500000000000000000000, 35654666241945900000000000000000000],
    [m 47724080294380800000000000000000000, 11351199330472500000000000000000000],
    [m 25349195822799400000000000000000000, m 36610435880584300000000000000000000],
    [44380165427607000000000000000000000, m 3647829607758480000000000000000000],
    [m 19030969604807600000000000000000000, 40258265488342800000000000000000000],
    [25349195822799400000000000000000000, m 36610435880584300000000000000000000],
    [19030969604807700000000000000000000, 40258265488342800000000000000000000],
    [m 44380165427607000000000000000000000, m 3647829607758430000000000000000000],
    [m 23248267893550700000000000000000000, m 51041551846753400000000000000000000],
    [55827414494644300000000000000000000, 5387185333575660000000000000000000],
    [m 32579146601093600000000000000000000, 45654366513177800000000000000000000],
    [23248267893550700000000000000000000, m 51041551846753400000000000000000000],
    [32579146601093600000000000000000000, 45654366513177800000000000000000000],
    [m 55827414494644300000000000000000000, 5387185333575690000000000000000000],
    [m 52163635975054700000000000000000000, m 54750015447026100000000000000000000],
    [73496722222242400000000000000000000, m 17800026184648200000000000000000000],
    [m 21333086247187600000000000000000000, 72550041631674300000000000000000000],
    [52163635975054700000000000000000000, m 54750015447026100000000000000000000],
    [21333086247187700000000000000000000, 72550041631674300000000000000000000],
    [m 73496722222242400000000000000000000, m 17800026184648100000000000000000000],
    [m 95266388583149600000000000000000000, m 55002075093205000000000000000000000],
    [95266388583149700000000000000000000, m 55002075093204900000000000000000000],
    [0, 110004150186410000000000000000000000],
    [m 90690106293315300000000000000000000, m 55212750394609500000000000000000000],
    [93160697601198800000000000000000000, m 50933560724617300000000000000000000],
    [m 2470591307883430000000000000000000, 106146311119227000000000000000000000],
    [90690106293315300000000000000000000, m 55212750394609500000000000000000000],
    [2470591307883520000000000000000000, 106146311119227000000000000000000000],
    [m 93160697601198800000000000000000000, m 50933560724617200000000000000000000],
    [m 12932342290720500000000000000000000, m 31033539412300200000000000000000000],
    [33342004645757800000000000000000000, 4317032751950320000000000000000000],
    [m 20409662355037300000000000000000000, 26716506660349900000000000000000000],
    [12932342290720500000000000000000000, m 31033539412300200000000000000000000],
    [20409662355037300000000000000000000, 26716506660349900000000000000000000],
    [m 33342004645757800000000000000000000, 4317032751950340000000000000000000],
    [m 13784410422442600000000000000000000, m 40217042416953100000000000000000000],
    [41721185609379000000000000000000000, 8170871606450260000000000000000000],
    [m 27936775186936400000000000000000000, 32046170810502900000000000000000000],
    [13784410422442600000000000000000000, m 40217042416953100000000000000000000],
    [27936775186936400000000000000000000, 32046170810502800000000000000000000],
    [m 41721185609379000000000000000000000, 8170871606450290000000000000000000],
    [m 66294103217866000000000000000000000, m 45041551128090100000000000000000000],
    [72154179111714700000000000000000000, m 34891601943734600000000000000000000],
    [m 5860075893848650000000000000000000, 79933153071824700000000000000000000],
    [66294103217866000000000000000000000, m 45041551128090100000000000000000000],
    [5860075893848690000000000000000000, 79933153071824700000000000000000000],
    [m 72154179111714700000000000000000000, m 34891601943734600000000000000000000],
    [m 64122202646501300000000000000000000, m 55393733579619800000000000000000000],
    [80033481813668500000000000000000000, m 27834589648674100000000000000000000],
    [m 15911279167167100000000000000000000, 83228323228293800000000000000000000],
    [64122202646501300000000000000000000, m 55393733579619800000000000000000000],
    [15911279167167200000000000000000000, 83228323228293800000000000000000000],
    [m 80033481813668500000000000000000000, m 27834589648674000000000000000000000],
    [m 81530008183876100000000000000000000, m 50261462137952600000000000000000000],
    [84292707134754700000000000000000000, m 45476327189013600000000000000000000],
    [m 2762698950878590000000000000000000, 95737789326966200000000000000000000],
    [81530008183876100000000000000000000, m 50261462137952600000000000000000000],
    [2762698950878660000000000000000000, 95737789326966200000000000000000000],
    [m 84292707134754700000000000000000000, m 45476327189013500000000000000000000],
    [m 90238671492070700000000000000000000, m 57241680160442600000000000000000000],
    [94692084920282400000000000000000000, m 49528141835670500000000000000000000],
    [m 4453413428211640000000000000000000, 106769821996113000000000000000000000],
    [90238671492070700000000000000000000, m 57241680160442600000000000000000000],
    [4453413428211710000000000000000000, 106769821996113000000000000000000000],
    [m 94692084920282400000000000000000000, m 49528141835670500000000000000000000],
    [m 50797244570018300000000000000000000, m 29327802826591300000000000000000000],
    [50797244570018300000000000000000000, m 29327802826591300000000000000000000],
    [0, 58655605653182700000000000000000000],
    [0, m 26028645488038100000000000000000000],
    [22541468218740200000000000000000000, 13014322744019100000000000000000000],
    [m 22541468218740200000000000000000000, 13014322744019100000000000000000000],
    [m 36521604921152900000000000000000000, m 50737982602401800000000000000000000],
    [62201184331029200000000000000000000, m 6259646347496290000000000000000000],
    [m 25679579409876300000000000000000000, 56997628949898100000000000000000000],
    [36521604921152900000000000000000000, m 50737982602401800000000000000000000],
    [25679579409876400000000000000000000, 56997628949898100000000000000000000],
    [m 62201184331029300000000000000000000, m 6259646347496250000000000000000000],
    [m 8146697174927580000000000000000000, m 52365228029452600000000000000000000],
    [49422966335934600000000000000000000, 19127367304300100000000000000000000],
    [m 41276269161007100000000000000000000, 33237860725152500000000000000000000],
    [8146697174927580000000000000000000, m 52365228029452600000000000000000000],
    [41276269161007100000000000000000000, 33237860725152500000000000000000000],
    [m 49422966335934600000000000000000000, 19127367304300100000000000000000000],
    [m 50100475560027300000000000000000000, m 50930584971577300000000000000000000],
    [69157418195001600000000000000000000, m 17922992090876400000000000000000000],
    [m 19056942634974200000000000000000000, 68853577062453800000000000000000000],
    [50100475560027300000000000000000000, m 50930584971577300000000000000000000],
    [19056942634974200000000000000000000, 68853577062453800000000000000000000],
    [m 69157418195001600000000000000000000, m 17922992090876400000000000000000000],
    [5551115123125780000, m 35752411415513000000000000000000000],
    [30962496532387000000000000000000000, 17876205707756500000000000000000000],
    [m 30962496532387000000000000000000000, 17876205707756500000000000000000000],
    [m 42538501367251800000000000000000000, m 45339755648003300000000000000000000],
    [60534630876175700000000000000000000, m 14169544998957500000000000000000000],
    [m 17996129508923900000000000000000000, 59509300646960800000000000000000000],
    [42538501367251800000000000000000000, m 45339755648003300000000000000000000],
    [17996129508924000000000000000000000, 59509300646960800000000000000000000],
    [m 60534630876175800000000000000000000, m 14169544998957400000000000000000000],
    [m 40434782435372000000000000000000000, m 30993099181146800000000000000000000],
    [47058202450569800000000000000000000, m 19520999194955600000000000000000000],
    [m 6623420015197780000000000000000000, 50514098376102400000000000000000000],
    [40434782435372000000000000000000000, m 30993099181146800000000000000000000],
    [6623420015197800000000000000000000, 50514098376102400000000000000000000],
    [m 47058202450569800000000000000000000, m 19520999194955600000000000000000000],
    [m 88890204598181900000000000000000000, m 51320783553081300000000000000000000],
    [88890204598181900000000000000000000, m 51320783553081200000000000000000000],
    [0, 102641567106163000000000000000000000],
    [m 16442016253358900000000000000000000, m 57254647239454000000000000000000000],
    [57804987120763200000000000000000000, 14388119854881500000000000000000000],
    [m 41362970867404300000000000000000000, 42866527384572500000000000000000000],
    [16442016253358900000000000000000000, m 57254647239454000000000000000000000],
    [41362970867404300000000000000000000, 42866527384572500000000000000000000],
    [m 57804987120763200000000000000000000, 14388119854881600000000000000000000],
    [m 27207964379670200000000000000000000, m 27970449294975800000000000000000000],
    [37827101834548600000000000000000000, m 9577563690568600000000000000000000],
    [m 10619137454878400000000000000000000, 37548012985544400000000000000000000],
    [27207964379670200000000000000000000, m 27970449294975800000000000000000000],
    [10619137454878500000000000000000000, 37548012985544400000000000000000000],
    [m 37827101834548600000000000000000000, m 9577563690568570000000000000000000],
    [m 31259592531293400000000000000000000, m 57171692937562600000000000000000000],
    [65141934726939300000000000000000000, 1514245224730960000000000000000000],
    [m 33882342195645900000000000000000000, 55657447712831700000000000000000000],
    [31259592531293400000000000000000000, m 57171692937562600000000000000000000],
    [33882342195645900000000000000000000, 55657447712831700000000000000000000],
    [m 65141934726939300000000000000000000, 1514245224731000000000000000000000],
    [m 36480475130444300000000000000000000, m 21062012136727500000000000000000000],
    [36480475130444300000000000000000000, m 21062012136727500000000000000000000],
    [0, 42124024273455000000000000000000000],
    [m 23061575503872400000000000000000000, m 54949681464841700000000000000000000],
    [59118607830352100000000000000000000, 7502930494774480000000000000000000],
    [m 36057032326479600000000000000000000, 47446750970067300000000000000000000],
    [23061575503872400000000000000000000, m 54949681464841700000000000000000000],
    [36057032326479700000000000000000000, 47446750970067300000000000000000000],
    [m 59118607830352000000000000000000000, 7502930494774520000000000000000000],
    [m 73174496781264100000000000000000000, m 50173031881501500000000000000000000],
    [80038368584898900000000000000000000, m 38284457180966600000000000000000000],
    [m 6863871803634760000000000000000000, 88457489062468200000000000000000000],
    [73174496781264100000000000000000000, m 50173031881501500000000000000000000],
    [6863871803634840000000000000000000, 88457489062468200000000000000000000],
    [m 80038368584899000000000000000000000, m 38284457180966600000000000000000000],
    [m 55942199595540000000000000000000000, m 45905866008218900000000000000000000],
    [67726745943612100000000000000000000, m 25494432989207700000000000000000000],
    [m 11784546348072100000000000000000000, 71400298997426700000000000000000000],
    [55942199595540000000000000000000000, m 45905866008218900000000000000000000],
    [11784546348072100000000000000000000, 71400298997426600000000000000000000],
    [m 67726745943612100000000000000000000, m 25494432989207700000000000000000000],
    [m 28187070033874600000000000000000000, m 44792709733285800000000000000000000],
    [52885159550305300000000000000000000, m 2014363840943560000000000000000000],
    [m 24698089516430700000000000000000000, 46807073574229500000000000000000000],
    [28187070033874600000000000000000000, m 44792709733285800000000000000000000],
    [24698089516430800000000000000000000, 46807073574229400000000000000000000],
    [m 52885159550305300000000000000000000, m 2014363840943520000000000000000000],
    [m 63181925527793300000000000000000000, m 51472732382392600000000000000000000],
    [76167656609246500000000000000000000, m 28980786375889200000000000000000000],
    [m 12985731081453200000000000000000000, 80453518758281800000000000000000000],
    [63181925527793300000000000000000000, m 51472732382392600000000000000000000],
    [12985731081453300000000000000000000, 80453518758281800000000000000000000],
    [m 76167656609246600000000000000000000, m 28980786375889100000000000000000000],
    [m 95845151882990200000000000000000000, m 57244321215608900000000000000000000],
    [97497612336608900000000000000000000, m 54382175752443000000000000000000000],
    [m 1652460453618690000000000000000000, 111626496968052000000000000000000000],
    [95845151882990200000000000000000000, m 57244321215608900000000000000000000],
    [1652460453618750000000000000000000, 111626496968052000000000000000000000],
    [m 97497612336608900000000000000000000, m 54382175752442900000000000000000000],
    [m 83806929801903000000000000000000000, m 54626015892447700000000000000000000],
    [89210982371343700000000000000000000, m 45265922275403300000000000000000000],
    [m 5404052569440630000000000000000000, 99891938167851100000000000000000000],
    [83806929801903000000000000000000000, m 54626015892447700000000000000000000],
    [5404052569440700000000000000000000, 99891938167851100000000000000000000],
    [m 89210982371343700000000000000000000, m 45265922275403300000000000000000000],
    [m 13912813462279400000000000000000000, m 8032566597632050000000000000000000],
    [13912813462279400000000000000000000, m 8032566597632040000000000000000000],
    [0, 16065133195264200000000000000000000],
    [m 73014202636963200000000000000000000, m 57182062792860600000000000000000000],
    [86028220337895900000000000000000000, m 34641122924244600000000000000000000],
    [m 13014017700932600000000000000000000, 91823185717105300000000000000000000],
    [73014202636963200000000000000000000, m 57182062792860600000000000000000000],
    [13014017700932600000000000000000000, 91823185717105300000000000000000000],
    [m 86028220337895900000000000000000000, m 34641122924244600000000000000000000],
    [m 38481648423499700000000000000000000, m 54913090515974000000000000000000000],
    [66796955598897700000000000000000000, m 5869539856265180000000000000000000],
    [m 28315307175397900000000000000000000, 60782630372239200000000000000000000],
    [38481648423499800000000000000000000, m 54913090515974000000000000000000000],
    [28315307175397900000000000000000000, 60782630372239200000000000000000000],
    [m 66796955598897700000000000000000000, m 5869539856265140000000000000000000],
    [m 74786883044034500000000000000000000, m 54631988756965200000000000000000000],
    [84706131644814900000000000000000000, m 37451346207507000000000000000000000],
    [m 9919248600780420000000000000000000, 92083334964472200000000000000000000],
    [74786883044034500000000000000000000, m 54631988756965200000000000000000000],
    [9919248600780480000000000000000000, 92083334964472200000000000000000000],
    [m 84706131644815000000000000000000000, m 37451346207506900000000000000000000],
    [m 75797025135117200000000000000000000, m 43761432865532800000000000000000000],
    [75797025135117200000000000000000000, m 43761432865532700000000000000000000],
    [0, 87522865731065500000000000000000000],
    [m 82569754738333500000000000000000000, m 57117161215160100000000000000000000],
    [90749789973546600000000000000000000, m 42948924580067300000000000000000000],
    [m 8180035235213090000000000000000000, 100066085795227000000000000000000000],
    [82569754738333500000000000000000000, m 57117161215160100000000000000000000],
    [8180035235213160000000000000000000, 100066085795227000000000000000000000],
    [m 90749789973546600000000000000000000, m 42948924580067200000000000000000000],
    [m 98907034023781000000000000000000000, m 57104002718377500000000000000000000],
    [98907034023781000000000000000000000, m 57104002718377400000000000000000000],
    [0, 114208005436755000000000000000000000]],
   [135516180487411000000000000000000, 135516180487411000000000000000000, 135516180487411000000000000000000,
    135516180487411000000000000000000, 135516180487411000000000000000000, 135516180487411000000000000000000,
    939797930044847000000000000000000, 939797930044847000000000000000000, 939797930044847000000000000000000,
    939797930044847000000000000000000, 939797930044847000000000000000000, 939797930044847000000000000000000,
    1114326142473460000000000000000000, 1114326142473460000000000000000000, 1114326142473460000000000000000000,
    1114326142473460000000000000000000, 1114326142473460000000000000000000, 1114326142473460000000000000000000,
    132417126730493000000000000000000, 132417126730493000000000000000000, 132417126730493000000000000000000,
    132417126730493000000000000000000, 132417126730493000000000000000000, 132417126730493000000000000000000,
    658261228999691000000000000000000, 658261228999691000000000000000000, 658261228999691000000000000000000,
    1084175242494000000000000000000000, 1084175242494000000000000000000000, 1084175242494000000000000000000000,
    1084175242494000000000000000000000, 1084175242494000000000000000000000, 1084175242494000000000000000000000,
    832949423738663000000000000000000, 832949423738663000000000000000000, 832949423738663000000000000000000,
    374484523914620000000000000000000, 374484523914620000000000000000000, 374484523914620000000000000000000,
    374484523914620000000000000000000, 374484523914620000000000000000000, 374484523914620000000000000000000,
    119659419106528000000000000000000, 119659419106528000000000000000000, 119659419106528000000000000000000,
    119659419106528000000000000000000, 119659419106528000000000000000000, 119659419106528000000000000000000,
    1399322902661340000000000000000000, 1399322902661340000000000000000000, 1399322902661340000000000000000000,
    145228421388989000000000000000000, 145228421388989000000000000000000, 145228421388989000000000000000000,
    758828101328776000000000000000000, 758828101328776000000000000000000, 758828101328776000000000000000000,
    758828101328776000000000000000000, 758828101328776000000000000000000, 758828101328776000000000000000000,
    848313291282610000000000000000000, 848313291282610000000000000000000, 848313291282610000000000000000000,
    848313291282610000000000000000000, 848313291282610000000000000000000, 848313291282610000000000000000000,
    642406493822559000000000000000000, 642406493822559000000000000000000, 642406493822559000000000000000000,
    767469920316038000000000000000000, 767469920316038000000000000000000, 767469920316038000000000000000000,
    767469920316038000000000000000000, 767469920316038000000000000000000, 767469920316038000000000000000000,
    814042822778057000000000000000000, 814042822778057000000000000000000, 814042822778057000000000000000000,
    814042822778057000000000000000000, 814042822778057000000000000000000, 814042822778057000000000000000000,
    986393782575065000000000000000000, 986393782575065000000000000000000, 986393782575065000000000000000000,
    986393782575065000000000000000000, 986393782575065000000000000000000, 986393782575065000000000000000000,
    644882350877706000000000000000000, 644882350877706000000000000000000, 644882350877706000000000000000000,
    644882350877706000000000000000000, 644882350877706000000000000000000, 644882350877706000000000000000000,
    393367205875558000000000000000000, 393367205875558000000000000000000, 393367205875558000000000000000000,
    393367205875558000000000000000000, 393367205875558000000000000000000, 393367205875558000000000000000000,
    115806114133767000000000000000000, 115806114133767000000000000000000, 115806114133767000000000000000000,
    164576983133918000000000000000000, 164576983133918000000000000000000, 164576983133918000000000000000000,
    164576983133918000000000000000000, 164576983133918000000000000000000, 164576983133918000000000000000000,
    1287450794992040000000000000000000, 1287450794992040000000000000000000, 1287450794992040000000000000000000,
    1287450794992040000000000000000000, 1287450794992040000000000000000000, 1287450794992040000000000000000000,
    1071521200193640000000000000000000, 1071521200193640000000000000000000, 1071521200193640000000000000000000,
    1071521200193640000000000000000000, 1071521200193640000000000000000000, 1071521200193640000000000000000000,
    664661036207724000000000000000000, 664661036207724000000000000000000, 664661036207724000000000000000000,
    664661036207724000000000000000000, 664661036207724000000000000000000, 664661036207724000000000000000000,
    328374830138061000000000000000000, 328374830138061000000000000000000, 328374830138061000000000000000000,
    328374830138061000000000000000000, 328374830138061000000000000000000, 328374830138061000000000000000000,
    401121692015999000000000000000000, 401121692015999000000000000000000, 401121692015999000000000000000000,
    401121692015999000000000000000000, 401121692015999000000000000000000, 401121692015999000000000000000000,
    84570976798735800000000000000000, 84570976798735800000000000000000, 84570976798735800000000000000000,
    84570976798735800000000000000000, 84570976798735800000000000000000, 84570976798735800000000000000000,
    1005202254040590000000000000000000, 1005202254040590000000000000000000, 1005202254040590000000000000000000,
    1333541706507380000000000000000000, 1333541706507380000000000000000000, 1333541706507380000000000000000000,
    681258365576868000000000000000000, 681258365576868000000000000000000, 681258365576868000000000000000000,
    681258365576868000000000000000000, 681258365576868000000000000000000, 681258365576868000000000000000000,
    647264474766686000000000000000000, 647264474766686000000000000000000, 647264474766686000000000000000000,
    647264474766686000000000000000000, 647264474766686000000000000000000, 647264474766686000000000000000000,
    611522512198908000000000000000000, 611522512198908000000000000000000, 611522512198908000000000000000000,
    611522512198908000000000000000000, 611522512198908000000000000000000, 611522512198908000000000000000000,
    1173724787137810000000000000000000, 1173724787137810000000000000000000, 1173724787137810000000000000000000,
    844080578234442000000000000000000, 844080578234442000000000000000000, 844080578234442000000000000000000,
    844080578234442000000000000000000, 844080578234442000000000000000000, 844080578234442000000000000000000,
    1051301566109170000000000000000000, 1051301566109170000000000000000000, 1051301566109170000000000000000000,
    1051301566109170000000000000000000, 1051301566109170000000000000000000, 1051301566109170000000000000000000,
    275751085091529000000000000000000, 275751085091529000000000000000000, 275751085091529000000000000000000,
    190831049978947000000000000000000, 190831049978947000000000000000000, 190831049978947000000000000000000,
    190831049978947000000000000000000, 190831049978947000000000000000000, 190831049978947000000000000000000,
    1265987599829400000000000000000000, 1265987599829400000000000000000000, 1265987599829400000000000000000000,
    1265987599829400000000000000000000, 1265987599829400000000000000000000, 1265987599829400000000000000000000,
    203276865079895000000000000000000, 203276865079895000000000000000000, 203276865079895000000000000000000,
    203276865079895000000000000000000, 203276865079895000000000000000000, 203276865079895000000000000000000,
    1234183859332180000000000000000000, 1234183859332180000000000000000000, 1234183859332180000000000000000000,
    489780047107150000000000000000000, 489780047107150000000000000000000, 489780047107150000000000000000000,
    489780047107150000000000000000000, 489780047107150000000000000000000, 489780047107150000000000000000000,
    487021433628083000000000000000000, 487021433628083000000000000000000, 487021433628083000000000000000000,
    487021433628083000000000000000000, 487021433628083000000000000000000, 487021433628083000000000000000000,
    758226332695552000000000000000000, 758226332695552000000000000000000, 758226332695552000000000000000000,
    758226332695552000000000000000000, 758226332695552000000000000000000, 758226332695552000000000000000000,
    1001088157987960000000000000000000, 1001088157987960000000000000000000, 1001088157987960000000000000000000,
    1001088157987960000000000000000000, 1001088157987960000000000000000000, 1001088157987960000000000000000000,
    575333292854515000000000000000000, 575333292854515000000000000000000, 575333292854515000000000000000000,
    575333292854515000000000000000000, 575333292854515000000000000000000, 575333292854515000000000000000000,
    56018236387191900000000000000000, 56018236387191900000000000000000, 56018236387191900000000000000000,
    56018236387191900000000000000000, 56018236387191900000000000000000, 56018236387191900000000000000000,
    270192740006597000000000000000000, 270192740006597000000000000000000, 270192740006597000000000000000000,
    270192740006597000000000000000000, 270192740006597000000000000000000, 270192740006597000000000000000000,
    1511860126446720000000000000000000, 1511860126446720000000000000000000, 1511860126446720000000000000000000,
    150421625077037000000000000000000, 150421625077037000000000000000000, 150421625077037000000000000000000,
    150421625077037000000000000000000, 150421625077037000000000000000000, 150421625077037000000000000000000,
    476604654650773000000000000000000, 476604654650773000000000000000000, 476604654650773000000000000000000,
    476604654650773000000000000000000, 476604654650773000000000000000000, 476604654650773000000000000000000,
    355171956045239000000000000000000, 355171956045239000000000000000000, 355171956045239000000000000000000,
    355171956045239000000000000000000, 355171956045239000000000000000000, 355171956045239000000000000000000,
    642189943596882000000000000000000, 642189943596882000000000000000000, 642189943596882000000000000000000,
    135818785838045000000000000000000, 135818785838045000000000000000000, 135818785838045000000000000000000,
    135818785838045000000000000000000, 135818785838045000000000000000000, 135818785838045000000000000000000,
    30294916428953300000000000000000, 30294916428953300000000000000000, 30294916428953300000000000000000]⟩

/-- `triangle_table_orig[40]` (xg_quad_data.py 8168-8763). -/
def xgTri_40 : XgTableRule :=
  ⟨[
    [m 66411637423956600000000000000000000, m 57470378380535800000000000000000000],
    [82976626354626300000000000000000000, m 28778975925799800000000000000000000],
    [m 16564988930669700000000000000000000, 86249354306335700000000000000000000],
    [66411637423956600000000000000000000, m 57470378380535800000000000000000000],
    [16564988930669800000000000000000000, 86249354306335700000000000000000000],
    [m 82976626354626300000000000000000000, m 28778975925799800000000000000000000],
    [m 24207197863738400000000000000000000, m 55141831198597600000000000000000000],
    [59857825561048100000000000000000000, 6606867294864960000000000000000000],
    [m 35650627697309600000000000000000000, 48534963903732700000000000000000000],
    [24207197863738400000000000000000000, m 55141831198597600000000000000000000],
    [35650627697309600000000000000000000, 48534963903732700000000000000000000],
    [m 59857825561048000000000000000000000, 6606867294865000000000000000000000],
    [m 67514797177612500000000000000000000, m 56556494724168900000000000000000000],
    [82736759768937100000000000000000000, m 30191282125081900000000000000000000],
    [m 15221962591324600000000000000000000, 86747776849250900000000000000000000],
    [67514797177612500000000000000000000, m 56556494724168900000000000000000000],
    [15221962591324600000000000000000000, 86747776849250800000000000000000000],
    [m 82736759768937100000000000000000000, m 30191282125081900000000000000000000],
    [m 87225015944191200000000000000000000, m 51618467078933100000000000000000000],
    [88315411766862400000000000000000000, m 49729846113705800000000000000000000],
    [m 1090395822671140000000000000000000, 101348313192639000000000000000000000],
    [87225015944191200000000000000000000, m 51618467078933100000000000000000000],
    [1090395822671230000000000000000000, 101348313192639000000000000000000000],
    [m 88315411766862500000000000000000000, m 49729846113705700000000000000000000],
    [m 76868567879223400000000000000000000, m 57460672418387400000000000000000000],
    [88196685972471000000000000000000000, m 37839796326742300000000000000000000],
    [m 11328118093247600000000000000000000, 95300468745129800000000000000000000],
    [76868567879223400000000000000000000, m 57460672418387400000000000000000000],
    [11328118093247600000000000000000000, 95300468745129700000000000000000000],
    [m 88196685972471000000000000000000000, m 37839796326742200000000000000000000],
    [m 30999131154608900000000000000000000, m 54008229992950400000000000000000000],
    [62272064764632200000000000000000000, 158079921338261000000000000000000],
    [m 31272933610023300000000000000000000, 53850150071612200000000000000000000],
    [30999131154608900000000000000000000, m 54008229992950400000000000000000000],
    [31272933610023300000000000000000000, 53850150071612200000000000000000000],
    [m 62272064764632200000000000000000000, 158079921338294000000000000000000],
    [m 85323240841065700000000000000000000, m 57384241303948400000000000000000000],
    [92357831166648400000000000000000000, m 45199973449606700000000000000000000],
    [m 7034590325582650000000000000000000, 102584214753555000000000000000000000],
    [85323240841065700000000000000000000, m 57384241303948400000000000000000000],
    [7034590325582710000000000000000000, 102584214753555000000000000000000000],
    [m 92357831166648400000000000000000000, m 45199973449606600000000000000000000],
    [m 53727030292133600000000000000000000, m 55074388383079000000000000000000000],
    [74559334583703800000000000000000000, m 18991778911344200000000000000000000],
    [m 20832304291570200000000000000000000, 74066167294423300000000000000000000],
    [53727030292133600000000000000000000, m 55074388383079000000000000000000000],
    [20832304291570200000000000000000000, 74066167294423300000000000000000000],
    [m 74559334583703800000000000000000000, m 18991778911344200000000000000000000],
    [m 76757602207091500000000000000000000, m 55974233776494000000000000000000000],
    [86853909511358500000000000000000000, m 38486916556674800000000000000000000],
    [m 10096307304267000000000000000000000, 94461150333168800000000000000000000],
    [76757602207091500000000000000000000, m 55974233776494000000000000000000000],
    [10096307304267000000000000000000000, 94461150333168800000000000000000000],
    [m 86853909511358500000000000000000000, m 38486916556674700000000000000000000],
    [m 41709706260058900000000000000000000, m 52536474950509000000000000000000000],
    [66352775062455100000000000000000000, m 9853427730343330000000000000000000],
    [m 24643068802396100000000000000000000, 62389902680852400000000000000000000],
    [41709706260058900000000000000000000, m 52536474950509000000000000000000000],
    [24643068802396200000000000000000000, 62389902680852400000000000000000000],
    [m 66352775062455100000000000000000000, m 9853427730343280000000000000000000],
    [m 64250324642862700000000000000000000, m 54449319151536000000000000000000000],
    [79279655925428100000000000000000000, m 28417753766348400000000000000000000],
    [m 15029331282565400000000000000000000, 82867072917884500000000000000000000],
    [64250324642862700000000000000000000, m 54449319151536000000000000000000000],
    [15029331282565500000000000000000000, 82867072917884500000000000000000000],
    [m 79279655925428100000000000000000000, m 28417753766348400000000000000000000],
    [m 73395730528035600000000000000000000, m 53103387228266600000000000000000000],
    [82686747630698800000000000000000000, m 37010873552462600000000000000000000],
    [m 9291017102663090000000000000000000, 90114260780729200000000000000000000],
    [73395730528035600000000000000000000, m 53103387228266600000000000000000000],
    [9291017102663160000000000000000000, 90114260780729200000000000000000000],
    [m 82686747630698800000000000000000000, m 37010873552462600000000000000000000],
    [m 43310798704792500000000000000000000, m 57587141183196700000000000000000000],
    [71527326548365600000000000000000000, m 8714681344946130000000000000000000],
    [m 28216527843573100000000000000000000, 66301822528142900000000000000000000],
    [43310798704792500000000000000000000, m 57587141183196700000000000000000000],
    [28216527843573100000000000000000000, 66301822528142900000000000000000000],
    [m 71527326548365600000000000000000000, m 8714681344946090000000000000000000],
    [m 84693242965372500000000000000000000, m 55611797625038800000000000000000000],
    [90507850976089000000000000000000000, m 45540601124380900000000000000000000],
    [m 5814608010716470000000000000000000, 101152398749420000000000000000000000],
    [84693242965372500000000000000000000, m 55611797625038800000000000000000000],
    [5814608010716540000000000000000000, 101152398749420000000000000000000000],
    [m 90507850976089000000000000000000000, m 45540601124380800000000000000000000],
    [m 52988575538367900000000000000000000, m 51296985906932000000000000000000000],
    [70918780702159400000000000000000000, m 20240959573111300000000000000000000],
    [m 17930205163791500000000000000000000, 71537945480043300000000000000000000],
    [52988575538367900000000000000000000, m 51296985906932000000000000000000000],
    [17930205163791500000000000000000000, 71537945480043300000000000000000000],
    [m 70918780702159400000000000000000000, m 20240959573111200000000000000000000],
    [m 81395203621001100000000000000000000, m 52158827793142700000000000000000000],
    [85868471710980000000000000000000000, m 44410900185422800000000000000000000],
    [m 4473268089978810000000000000000000, 96569727978565500000000000000000000],
    [81395203621001200000000000000000000, m 52158827793142700000000000000000000],
    [4473268089978880000000000000000000, 96569727978565500000000000000000000],
    [m 85868471710980000000000000000000000, m 44410900185422700000000000000000000],
    [m 13262238321158200000000000000000000, m 56187932687266300000000000000000000],
    [55291296253881800000000000000000000, 16608531046466700000000000000000000],
    [m 42029057932723600000000000000000000, 39579401640799700000000000000000000],
    [13262238321158200000000000000000000, m 56187932687266300000000000000000000],
    [42029057932723600000000000000000000, 39579401640799700000000000000000000],
    [m 55291296253881800000000000000000000, 16608531046466700000000000000000000],
    [m 95288876390862000000000000000000000, m 55015058435041200000000000000000000],
    [95288876390862100000000000000000000, m 55015058435041200000000000000000000],
    [m 11102230246251600000, 110030116870082000000000000000000000],
    [m 11833011130767100000000000000000000, m 6831792161672200000000000000000000],
    [11833011130767100000000000000000000, m 6831792161672200000000000000000000],
    [0, 13663584323344400000000000000000000],
    [0, m 12737340589454800000000000000000000],
    [11030860527122500000000000000000000, 6368670294727410000000000000000000],
    [m 11030860527122500000000000000000000, 6368670294727420000000000000000000],
    [m 12565893500209100000000000000000000, m 18929257322289200000000000000000000],
    [22676164465979600000000000000000000, m 1417754331286180000000000000000000],
    [m 10110270965770500000000000000000000, 20347011653575400000000000000000000],
    [12565893500209000000000000000000000, m 18929257322289200000000000000000000],
    [10110270965770500000000000000000000, 20347011653575400000000000000000000],
    [m 22676164465979600000000000000000000, m 1417754331286180000000000000000000],
    [m 25582836243545200000000000000000000, m 25237212852983300000000000000000000],
    [34647485573171200000000000000000000, m 9536779661275730000000000000000000],
    [m 9064649329626060000000000000000000, 34773992514259100000000000000000000],
    [25582836243545200000000000000000000, m 25237212852983300000000000000000000],
    [9064649329626070000000000000000000, 34773992514259000000000000000000000],
    [m 34647485573171200000000000000000000, m 9536779661275710000000000000000000],
    [m 41982097163871200000000000000000000, m 56044801444994200000000000000000000],
    [69527270383355400000000000000000000, m 8335161925561980000000000000000000],
    [m 27545173219484200000000000000000000, 64379963370556200000000000000000000],
    [41982097163871200000000000000000000, m 56044801444994200000000000000000000],
    [27545173219484200000000000000000000, 64379963370556200000000000000000000],
    [m 69527270383355400000000000000000000, m 8335161925561930000000000000000000],
    [m 39584244571866400000000000000000000, m 47566799110898300000000000000000000],
    [60986178692682200000000000000000000, m 10497561833403500000000000000000000],
    [m 21401934120815700000000000000000000, 58064360944301800000000000000000000],
    [39584244571866400000000000000000000, m 47566799110898300000000000000000000],
    [21401934120815800000000000000000000, 58064360944301800000000000000000000],
    [m 60986178692682200000000000000000000, m 10497561833403400000000000000000000],
    [m 13831881077136100000000000000000000, m 52410356380693000000000000000000000],
    [52304640585644000000000000000000000, 14226417795421400000000000000000000],
    [m 38472759508507900000000000000000000, 38183938585271700000000000000000000],
    [13831881077136100000000000000000000, m 52410356380693000000000000000000000],
    [38472759508507900000000000000000000, 38183938585271600000000000000000000],
    [m 52304640585644000000000000000000000, 14226417795421400000000000000000000],
    [m 55558835329547200000000000000000000, m 57170940642241600000000000000000000],
    [77290904619207000000000000000000000, m 19529892478943400000000000000000000],
    [m 21732069289659900000000000000000000, 76700833121185100000000000000000000],
    [55558835329547200000000000000000000, m 57170940642241600000000000000000000],
    [21732069289659900000000000000000000, 76700833121185100000000000000000000],
    [m 77290904619207100000000000000000000, m 19529892478943400000000000000000000],
    [m 26904113625079300000000000000000000, m 49908301034879300000000000000000000],
    [56673913368466300000000000000000000, 1654504651817900000000000000000000],
    [m 29769799743386900000000000000000000, 48253796383061400000000000000000000],
    [26904113625079300000000000000000000, m 49908301034879300000000000000000000],
    [29769799743387000000000000000000000, 48253796383061400000000000000000000],
    [m 56673913368466300000000000000000000, 1654504651817920000000000000000000],
    [m 38617376855258300000000000000000000, m 31612494675971300000000000000000000],
    [46685911894020600000000000000000000, m 17637382046185200000000000000000000],
    [m 8068535038762340000000000000000000, 49249876722156600000000000000000000],
    [38617376855258300000000000000000000, m 31612494675971300000000000000000000],
    [8068535038762370000000000000000000, 49249876722156600000000000000000000],
    [m 46685911894020600000000000000000000, m 17637382046185200000000000000000000],
    [m 90712290003268400000000000000000000, m 54847061860786900000000000000000000],
    [92855093896012200000000000000000000, m 51135616647898200000000000000000000],
    [m 2142803892743790000000000000000000, 105982678508685000000000000000000000],
    [90712290003268400000000000000000000, m 54847061860786900000000000000000000],
    [2142803892743860000000000000000000, 105982678508685000000000000000000000],
    [m 92855093896012200000000000000000000, m 51135616647898100000000000000000000],
    [m 13211254083412100000000000000000000, m 29657575362028800000000000000000000],
    [32289840719874400000000000000000000, 3387506028928670000000000000000000],
    [m 19078586636462400000000000000000000, 26270069333100200000000000000000000],
    [13211254083412100000000000000000000, m 29657575362028800000000000000000000],
    [19078586636462400000000000000000000, 26270069333100200000000000000000000],
    [m 32289840719874400000000000000000000, 3387506028928690000000000000000000],
    [m 13532200006090800000000000000000000, m 46558820109446500000000000000000000],
    [47087220988055800000000000000000000, 11560181080356700000000000000000000],
    [m 33555020981965100000000000000000000, 34998639029089800000000000000000000],
    [13532200006090700000000000000000000, m 46558820109446500000000000000000000],
    [33555020981965100000000000000000000, 34998639029089800000000000000000000],
    [m 47087220988055800000000000000000000, 11560181080356800000000000000000000],
    [m 51005162143835600000000000000000000, m 37923882528380800000000000000000000],
    [58345626751632400000000000000000000, m 25209824876515500000000000000000000],
    [m 7340464607796830000000000000000000, 63133707404896400000000000000000000],
    [51005162143835600000000000000000000, m 37923882528380800000000000000000000],
    [7340464607796870000000000000000000, 63133707404896400000000000000000000],
    [m 58345626751632400000000000000000000, m 25209824876515500000000000000000000],
    [m 51567412876653600000000000000000000, m 45684803758863600000000000000000000],
    [65347907060409500000000000000000000, m 21816287679191000000000000000000000],
    [m 13780494183755900000000000000000000, 67501091438054600000000000000000000],
    [51567412876653600000000000000000000, m 45684803758863600000000000000000000],
    [13780494183755900000000000000000000, 67501091438054600000000000000000000],
    [m 65347907060409500000000000000000000, m 21816287679190900000000000000000000],
    [m 72835797984670600000000000000000000, m 48029591121869600000000000000000000],
    [78012745037253900000000000000000000, m 39062855798701400000000000000000000],
    [m 5176947052583250000000000000000000, 87092446920571000000000000000000000],
    [72835797984670600000000000000000000, m 48029591121869600000000000000000000],
    [5176947052583310000000000000000000, 87092446920571100000000000000000000],
    [m 78012745037254000000000000000000000, m 39062855798701400000000000000000000],
    [m 62260740206958100000000000000000000, m 43603282267888400000000000000000000],
    [68891920235854000000000000000000000, m 32117741543704700000000000000000000],
    [m 6631180028895880000000000000000000, 75721023811593200000000000000000000],
    [62260740206958100000000000000000000, m 43603282267888400000000000000000000],
    [6631180028895930000000000000000000, 75721023811593200000000000000000000],
    [m 68891920235854000000000000000000000, m 32117741543704600000000000000000000],
    [m 63528538940605800000000000000000000, m 50005009951296400000000000000000000],
    [75069878404619200000000000000000000, m 30014823612225400000000000000000000],
    [m 11541339464013400000000000000000000, 80019833563521800000000000000000000],
    [63528538940605800000000000000000000, m 50005009951296400000000000000000000],
    [11541339464013400000000000000000000, 80019833563521800000000000000000000],
    [m 75069878404619200000000000000000000, m 30014823612225300000000000000000000],
    [m 13545478402323900000000000000000000, m 38891721146901800000000000000000000],
    [40453957711279300000000000000000000, 7715132170624990000000000000000000],
    [m 26908479308955500000000000000000000, 31176588976276800000000000000000000],
    [13545478402323900000000000000000000, m 38891721146901800000000000000000000],
    [26908479308955500000000000000000000, 31176588976276800000000000000000000],
    [m 40453957711279300000000000000000000, 7715132170625020000000000000000000],
    [m 24191105544338000000000000000000000, m 13966741298018200000000000000000000],
    [24191105544338000000000000000000000, m 13966741298018200000000000000000000],
    [5551115123125780000, 27933482596036400000000000000000000],
    [m 91834711208585900000000000000000000, m 57179705694461500000000000000000000],
    [95436433316614300000000000000000000, m 50941340008612200000000000000000000],
    [m 3601722108028380000000000000000000, 108121045703074000000000000000000000],
    [91834711208585900000000000000000000, m 57179705694461500000000000000000000],
    [3601722108028450000000000000000000, 108121045703074000000000000000000000],
    [m 95436433316614300000000000000000000, m 50941340008612100000000000000000000],
    [m 26841456178680500000000000000000000, m 43363067211489700000000000000000000],
    [50974245880502400000000000000000000, m 1563849319559200000000000000000000],
    [m 24132789701821900000000000000000000, 44926916531049000000000000000000000],
    [26841456178680500000000000000000000, m 43363067211489700000000000000000000],
    [24132789701821900000000000000000000, 44926916531049000000000000000000000],
    [m 50974245880502400000000000000000000, m 1563849319559150000000000000000000],
    [m 36826861145558700000000000000000000, m 21261998195797300000000000000000000],
    [36826861145558700000000000000000000, m 21261998195797300000000000000000000],
    [0, 42523996391594600000000000000000000],
    [m 99082746811437400000000000000000000, m 57205450543631000000000000000000000],
    [99082746811437400000000000000000000, m 57205450543630900000000000000000000],
    [22204460492503100000, 114410901087262000000000000000000000],
    [2775557561562890000, m 24234470017351700000000000000000000],
    [20987666682278800000000000000000000, 12117235008675900000000000000000000],
    [m 20987666682278800000000000000000000, 12117235008675900000000000000000000],
    [m 3469446951953610000, m 49681561132122700000000000000000000],
    [43025494040087900000000000000000000, 24840780566061400000000000000000000],
    [m 43025494040087900000000000000000000, 24840780566061400000000000000000000],
    [m 29450956974500200000000000000000000, m 57125217727234000000000000000000000],
    [64197368235751900000000000000000000, 3057331957937300000000000000000000],
    [m 34746411261251600000000000000000000, 54067885769296700000000000000000000],
    [29450956974500200000000000000000000, m 57125217727234000000000000000000000],
    [34746411261251700000000000000000000, 54067885769296700000000000000000000],
    [m 64197368235751900000000000000000000, 3057331957937350000000000000000000],
    [m 80543126452089200000000000000000000, m 46501595738487800000000000000000000],
    [80543126452089200000000000000000000, m 46501595738487700000000000000000000],
    [0, 93003191476975600000000000000000000],
    [m 49331086065111400000000000000000000, m 28481315819108700000000000000000000],
    [49331086065111500000000000000000000, m 28481315819108700000000000000000000],
    [0, 56962631638217400000000000000000000],
    [m 5551115123125780000, 22204460492503100000],
    [m 15766005001997600000000000000000000, m 57631399232172600000000000000000000],
    [57793258291703300000000000000000000, 15161938768163900000000000000000000],
    [m 42027253289705700000000000000000000, 42469460464008800000000000000000000],
    [15766005001997600000000000000000000, m 57631399232172600000000000000000000],
    [42027253289705700000000000000000000, 42469460464008800000000000000000000],
    [m 57793258291703300000000000000000000, 15161938768163900000000000000000000],
    [m 71110589752252700000000000000000000, m 41055718135696200000000000000000000],
    [71110589752252700000000000000000000, m 41055718135696100000000000000000000],
    [0, 82111436271392300000000000000000000],
    [m 39500420341927100000000000000000000, m 40469300239711800000000000000000000],
    [54797652251933600000000000000000000, m 13973717356416600000000000000000000],
    [m 15297231910006500000000000000000000, 54443017596128400000000000000000000],
    [39500420341927100000000000000000000, m 40469300239711800000000000000000000],
    [15297231910006500000000000000000000, 54443017596128400000000000000000000],
    [m 54797652251933600000000000000000000, m 13973717356416500000000000000000000],
    [3122502256758250000, m 54513955979531900000000000000000000],
    [47210470739061200000000000000000000, 27256977989766000000000000000000000],
    [m 47210470739061200000000000000000000, 27256977989766000000000000000000000],
    [m 3642919299551290000, m 57203141564320800000000000000000000],
    [49539373770979300000000000000000000, 28601570782160400000000000000000000],
    [m 49539373770979300000000000000000000, 28601570782160400000000000000000000],
    [m 26583541850389600000000000000000000, m 35075660264700100000000000000000000],
    [43668183768937500000000000000000000, m 5484192432654120000000000000000000],
    [m 17084641918547900000000000000000000, 40559852697354300000000000000000000],
    [26583541850389600000000000000000000, m 35075660264700100000000000000000000],
    [17084641918547900000000000000000000, 40559852697354300000000000000000000],
    [m 43668183768937500000000000000000000, m 5484192432654100000000000000000000],
    [5551115123125780000, m 34273351742727800000000000000000000],
    [29681593282041900000000000000000000, 17136675871363900000000000000000000],
    [m 29681593282041900000000000000000000, 17136675871363900000000000000000000],
    [m 60927517902937200000000000000000000, m 35176518862316600000000000000000000],
    [60927517902937200000000000000000000, m 35176518862316500000000000000000000],
    [0, 70353037724633100000000000000000000],
    [m 1387778780781450000, m 42794958420783000000000000000000000],
    [37061521146296800000000000000000000, 21397479210391500000000000000000000],
    [m 37061521146296800000000000000000000, 21397479210391500000000000000000000],
    [m 96488163632640600000000000000000000, m 57216175902539300000000000000000000],
    [97794743655318400000000000000000000, m 54953112919106900000000000000000000],
    [m 1306580022677760000000000000000000, 112169288821646000000000000000000000],
    [96488163632640600000000000000000000, m 57216175902539300000000000000000000],
    [1306580022677830000000000000000000, 112169288821646000000000000000000000],
    [m 97794743655318400000000000000000000, m 54953112919106800000000000000000000]],
   [65393988364031700000000000000000, 65393988364031700000000000000000, 65393988364031700000000000000000,
    65393988364031700000000000000000, 65393988364031700000000000000000, 65393988364031700000000000000000,
    268759720512990000000000000000000, 268759720512990000000000000000000, 268759720512990000000000000000000,
    268759720512990000000000000000000, 268759720512990000000000000000000, 268759720512990000000000000000000,
    149720993801543000000000000000000, 149720993801543000000000000000000, 149720993801543000000000000000000,
    149720993801543000000000000000000, 149720993801543000000000000000000, 149720993801543000000000000000000,
    172717496654643000000000000000000, 172717496654643000000000000000000, 172717496654643000000000000000000,
    172717496654643000000000000000000, 172717496654643000000000000000000, 172717496654643000000000000000000,
    70854220241766000000000000000000, 70854220241766000000000000000000, 70854220241766000000000000000000,
    70854220241766000000000000000000, 70854220241766000000000000000000, 70854220241766000000000000000000,
    353973535502623000000000000000000, 353973535502623000000000000000000, 353973535502623000000000000000000,
    353973535502623000000000000000000, 353973535502623000000000000000000, 353973535502623000000000000000000,
    71472094956639300000000000000000, 71472094956639300000000000000000, 71472094956639300000000000000000,
    71472094956639300000000000000000, 71472094956639300000000000000000, 71472094956639300000000000000000,
    331635205970254000000000000000000, 331635205970254000000000000000000, 331635205970254000000000000000000,
    331635205970254000000000000000000, 331635205970254000000000000000000, 331635205970254000000000000000000,
    201611257170408000000000000000000, 201611257170408000000000000000000, 201611257170408000000000000000000,
    201611257170408000000000000000000, 201611257170408000000000000000000, 201611257170408000000000000000000,
    505529115756549000000000000000000, 505529115756549000000000000000000, 505529115756549000000000000000000,
    505529115756549000000000000000000, 505529115756549000000000000000000, 505529115756549000000000000000000,
    336422839994279000000000000000000, 336422839994279000000000000000000, 336422839994279000000000000000000,
    336422839994279000000000000000000, 336422839994279000000000000000000, 336422839994279000000000000000000,
    353982005949622000000000000000000, 353982005949622000000000000000000, 353982005949622000000000000000000,
    353982005949622000000000000000000, 353982005949622000000000000000000, 353982005949622000000000000000000,
    79012496014799800000000000000000, 79012496014799800000000000000000, 79012496014799800000000000000000,
    79012496014799800000000000000000, 79012496014799800000000000000000, 79012496014799800000000000000000,
    193669720162766000000000000000000, 193669720162766000000000000000000, 193669720162766000000000000000000,
    193669720162766000000000000000000, 193669720162766000000000000000000, 193669720162766000000000000000000,
    525932449269382000000000000000000, 525932449269382000000000000000000, 525932449269382000000000000000000,
    525932449269382000000000000000000, 525932449269382000000000000000000, 525932449269382000000000000000000,
    336050017233848000000000000000000, 336050017233848000000000000000000, 336050017233848000000000000000000,
    336050017233848000000000000000000, 336050017233848000000000000000000, 336050017233848000000000000000000,
    331674476757542000000000000000000, 331674476757542000000000000000000, 331674476757542000000000000000000,
    331674476757542000000000000000000, 331674476757542000000000000000000, 331674476757542000000000000000000,
    108358245082826000000000000000000, 108358245082826000000000000000000, 108358245082826000000000000000000,
    1488616082408720000000000000000000, 1488616082408720000000000000000000, 1488616082408720000000000000000000,
    1489448052675560000000000000000000, 1489448052675560000000000000000000, 1489448052675560000000000000000000,
    1425847444010420000000000000000000, 1425847444010420000000000000000000, 1425847444010420000000000000000000,
    1425847444010420000000000000000000, 1425847444010420000000000000000000, 1425847444010420000000000000000000,
    1305883254623360000000000000000000, 1305883254623360000000000000000000, 1305883254623360000000000000000000,
    1305883254623360000000000000000000, 1305883254623360000000000000000000, 1305883254623360000000000000000000,
    321325670719201000000000000000000, 321325670719201000000000000000000, 321325670719201000000000000000000,
    321325670719201000000000000000000, 321325670719201000000000000000000, 321325670719201000000000000000000,
    762937441832444000000000000000000, 762937441832444000000000000000000, 762937441832444000000000000000000,
    762937441832444000000000000000000, 762937441832444000000000000000000, 762937441832444000000000000000000,
    659427250554455000000000000000000, 659427250554455000000000000000000, 659427250554455000000000000000000,
    659427250554455000000000000000000, 659427250554455000000000000000000, 659427250554455000000000000000000,
    167912726604469000000000000000000, 167912726604469000000000000000000, 167912726604469000000000000000000,
    167912726604469000000000000000000, 167912726604469000000000000000000, 167912726604469000000000000000000,
    731632175284119000000000000000000, 731632175284119000000000000000000, 731632175284119000000000000000000,
    731632175284119000000000000000000, 731632175284119000000000000000000, 731632175284119000000000000000000,
    1146500816953180000000000000000000, 1146500816953180000000000000000000, 1146500816953180000000000000000000,
    1146500816953180000000000000000000, 1146500816953180000000000000000000, 1146500816953180000000000000000000,
    173448830331788000000000000000000, 173448830331788000000000000000000, 173448830331788000000000000000000,
    173448830331788000000000000000000, 173448830331788000000000000000000, 173448830331788000000000000000000,
    1308791469886660000000000000000000, 1308791469886660000000000000000000, 1308791469886660000000000000000000,
    1308791469886660000000000000000000, 1308791469886660000000000000000000, 1308791469886660000000000000000000,
    917762635051842000000000000000000, 917762635051842000000000000000000, 917762635051842000000000000000000,
    917762635051842000000000000000000, 917762635051842000000000000000000, 917762635051842000000000000000000,
    962100494717882000000000000000000, 962100494717882000000000000000000, 962100494717882000000000000000000,
    962100494717882000000000000000000, 962100494717882000000000000000000, 962100494717882000000000000000000,
    780459419768537000000000000000000, 780459419768537000000000000000000, 780459419768537000000000000000000,
    780459419768537000000000000000000, 780459419768537000000000000000000, 780459419768537000000000000000000,
    539210823143793000000000000000000, 539210823143793000000000000000000, 539210823143793000000000000000000,
    539210823143793000000000000000000, 539210823143793000000000000000000, 539210823143793000000000000000000,
    760342282747058000000000000000000, 760342282747058000000000000000000, 760342282747058000000000000000000,
    760342282747058000000000000000000, 760342282747058000000000000000000, 760342282747058000000000000000000,
    560933725142032000000000000000000, 560933725142032000000000000000000, 560933725142032000000000000000000,
    560933725142032000000000000000000, 560933725142032000000000000000000, 560933725142032000000000000000000,
    1138701835341180000000000000000000, 1138701835341180000000000000000000, 1138701835341180000000000000000000,
    1138701835341180000000000000000000, 1138701835341180000000000000000000, 1138701835341180000000000000000000,
    1392419130696040000000000000000000, 1392419130696040000000000000000000, 1392419130696040000000000000000000,
    80009935913433300000000000000000, 80009935913433300000000000000000, 80009935913433300000000000000000,
    80009935913433300000000000000000, 80009935913433300000000000000000, 80009935913433300000000000000000,
    973469687674758000000000000000000, 973469687674758000000000000000000, 973469687674758000000000000000000,
    973469687674758000000000000000000, 973469687674758000000000000000000, 973469687674758000000000000000000,
    1249124488160620000000000000000000, 1249124488160620000000000000000000, 1249124488160620000000000000000000,
    21297969654698300000000000000000, 21297969654698300000000000000000, 21297969654698300000000000000000,
    1397211605837570000000000000000000, 1397211605837570000000000000000000, 1397211605837570000000000000000000,
    810422455508744000000000000000000, 810422455508744000000000000000000, 810422455508744000000000000000000,
    213521950662648000000000000000000, 213521950662648000000000000000000, 213521950662648000000000000000000,
    213521950662648000000000000000000, 213521950662648000000000000000000, 213521950662648000000000000000000,
    470649918590806000000000000000000, 470649918590806000000000000000000, 470649918590806000000000000000000,
    1080789663316300000000000000000000, 1080789663316300000000000000000000, 1080789663316300000000000000000000,
    1521690544146530000000000000000000, 77770854567432900000000000000000, 77770854567432900000000000000000,
    77770854567432900000000000000000, 77770854567432900000000000000000, 77770854567432900000000000000000,
    77770854567432900000000000000000, 673925273312208000000000000000000, 673925273312208000000000000000000,
    673925273312208000000000000000000, 985222241836090000000000000000000, 985222241836090000000000000000000,
    985222241836090000000000000000000, 985222241836090000000000000000000, 985222241836090000000000000000000,
    985222241836090000000000000000000, 524632838662871000000000000000000, 524632838662871000000000000000000,
    524632838662871000000000000000000, 208716982837283000000000000000000, 208716982837283000000000000000000,
    208716982837283000000000000000000, 1168772105292970000000000000000000, 1168772105292970000000000000000000,
    1168772105292970000000000000000000, 1168772105292970000000000000000000, 1168772105292970000000000000000000,
    1168772105292970000000000000000000, 1251386917182840000000000000000000, 1251386917182840000000000000000000,
    1251386917182840000000000000000000, 889649143725163000000000000000000, 889649143725163000000000000000000,
    889649143725163000000000000000000, 1053858324866720000000000000000000, 1053858324866720000000000000000000,
    1053858324866720000000000000000000, 48248115557237600000000000000000, 48248115557237600000000000000000,
    48248115557237600000000000000000, 48248115557237600000000000000000, 48248115557237600000000000000000,
    48248115557237600000000000000000]⟩

/-- `triangle_table_orig[41]` (xg_quad_data.py 8764-9387). -/
def xgTri_41 : XgTableRule :=
  ⟨[
    [m 99456983472075500000000000000000000, m 57421516180391000000000000000000000],
    [99456983472075500000000000000000000, m 57421516180390900000000000000000000],
    [0, 114843032360782000000000000000000000],
    [m 5617674584836660000000000000000000, m 3243365933775140000000000000000000],
    [5617674584836650000000000000000000, m 3243365933775140000000000000000000],
    [m 5551115123125780000, 6486731867550340000000000000000000],
    [m 5551115123125780000, m 13336487938297900000000000000000000],
    [11549737351830700000000000000000000, 6668243969148980000000000000000000],
    [m 11549737351830700000000000000000000, 6668243969148980000000000000000000],
    [m 89446859394723700000000000000000000, m 53097841550313800000000000000000000],
    [90707509366054500000000000000000000, m 50914331749408600000000000000000000],
    [m 1260649971330790000000000000000000, 104012173299722000000000000000000000],
    [89446859394723700000000000000000000, m 53097841550313800000000000000000000],
    [1260649971330860000000000000000000, 104012173299722000000000000000000000],
    [m 90707509366054600000000000000000000, m 50914331749408500000000000000000000],
    [m 83678266843431500000000000000000000, m 54016766573740100000000000000000000],
    [88619025504868800000000000000000000, m 45459121544194700000000000000000000],
    [m 4940758661437240000000000000000000, 99475888117934900000000000000000000],
    [83678266843431500000000000000000000, m 54016766573740100000000000000000000],
    [4940758661437310000000000000000000, 99475888117934900000000000000000000],
    [m 88619025504868800000000000000000000, m 45459121544194700000000000000000000],
    [m 94247957093734000000000000000000000, m 55659144758281000000000000000000000],
    [95326211860453800000000000000000000, m 53791552718819000000000000000000000],
    [m 1078254766719720000000000000000000, 109450697477100000000000000000000000],
    [94247957093734000000000000000000000, m 55659144758281000000000000000000000],
    [1078254766719790000000000000000000, 109450697477100000000000000000000000],
    [m 95326211860453800000000000000000000, m 53791552718819000000000000000000000],
    [m 47818348033753500000000000000000000, m 41036116782557400000000000000000000],
    [59447493623236400000000000000000000, m 20893845772957500000000000000000000],
    [m 11629145589482900000000000000000000, 61929962555515000000000000000000000],
    [47818348033753500000000000000000000, m 41036116782557400000000000000000000],
    [11629145589482900000000000000000000, 61929962555515000000000000000000000],
    [m 59447493623236400000000000000000000, m 20893845772957500000000000000000000],
    [m 47786178727052700000000000000000000, m 35568548495723200000000000000000000],
    [54696355936561400000000000000000000, m 23599770479549500000000000000000000],
    [m 6910177209508730000000000000000000, 59168318975272800000000000000000000],
    [47786178727052700000000000000000000, m 35568548495723200000000000000000000],
    [6910177209508770000000000000000000, 59168318975272800000000000000000000],
    [m 54696355936561500000000000000000000, m 23599770479549500000000000000000000],
    [4857225732735060000, m 51447322281830400000000000000000000],
    [44554688052750300000000000000000000, 25723661140915200000000000000000000],
    [m 44554688052750300000000000000000000, 25723661140915200000000000000000000],
    [m 82977481051684200000000000000000000, m 50391286234357400000000000000000000],
    [85128874534168700000000000000000000, m 46664963415621800000000000000000000],
    [m 2151393482484410000000000000000000, 97056249649979200000000000000000000],
    [82977481051684300000000000000000000, m 50391286234357400000000000000000000],
    [2151393482484480000000000000000000, 97056249649979200000000000000000000],
    [m 85128874534168700000000000000000000, m 46664963415621700000000000000000000],
    [m 80506207604731000000000000000000000, m 55710779590286600000000000000000000],
    [88500054192189300000000000000000000, m 41865031152897700000000000000000000],
    [m 7993846587458250000000000000000000, 97575810743184400000000000000000000],
    [80506207604731000000000000000000000, m 55710779590286600000000000000000000],
    [7993846587458320000000000000000000, 97575810743184300000000000000000000],
    [m 88500054192189300000000000000000000, m 41865031152897700000000000000000000],
    [m 75892338634994100000000000000000000, m 46781272099145900000000000000000000],
    [78459939376709600000000000000000000, m 42334057160943200000000000000000000],
    [m 2567600741715450000000000000000000, 89115329260089100000000000000000000],
    [75892338634994100000000000000000000, m 46781272099145900000000000000000000],
    [2567600741715510000000000000000000, 89115329260089100000000000000000000],
    [m 78459939376709600000000000000000000, m 42334057160943100000000000000000000],
    [m 6669793735182240000000000000000000, m 55164499869306800000000000000000000],
    [51108755141474200000000000000000000, 21806039121983300000000000000000000],
    [m 44438961406291900000000000000000000, 33358460747323600000000000000000000],
    [6669793735182230000000000000000000, m 55164499869306800000000000000000000],
    [44438961406292000000000000000000000, 33358460747323600000000000000000000],
    [m 51108755141474200000000000000000000, 21806039121983300000000000000000000],
    [m 93039119591469900000000000000000000, m 57416322708744400000000000000000000],
    [96243553853393000000000000000000000, m 51866079757579200000000000000000000],
    [m 3204434261923030000000000000000000, 109282402466324000000000000000000000],
    [93039119591469900000000000000000000, m 57416322708744400000000000000000000],
    [3204434261923120000000000000000000, 109282402466324000000000000000000000],
    [m 96243553853393000000000000000000000, m 51866079757579100000000000000000000],
    [m 10179246544689800000000000000000000, m 13038223693758700000000000000000000],
    [16381056211364100000000000000000000, m 2296374252206900000000000000000000],
    [m 6201809666674370000000000000000000, 15334597945965700000000000000000000],
    [10179246544689800000000000000000000, m 13038223693758700000000000000000000],
    [6201809666674380000000000000000000, 15334597945965700000000000000000000],
    [m 16381056211364100000000000000000000, m 2296374252206890000000000000000000],
    [m 57315400507473700000000000000000000, m 33091061911701200000000000000000000],
    [57315400507473800000000000000000000, m 33091061911701200000000000000000000],
    [0, 66182123823402400000000000000000000],
    [m 11964378950220300000000000000000000, m 51461673052711500000000000000000000],
    [50549305660007400000000000000000000, 15369380414961100000000000000000000],
    [m 38584926709787000000000000000000000, 36092292637750400000000000000000000],
    [11964378950220300000000000000000000, m 51461673052711500000000000000000000],
    [38584926709787000000000000000000000, 36092292637750400000000000000000000],
    [m 50549305660007400000000000000000000, 15369380414961200000000000000000000],
    [m 89370315180977700000000000000000000, m 55908758428750200000000000000000000],
    [93103562683833900000000000000000000, m 49442584076573600000000000000000000],
    [m 3733247502856150000000000000000000, 105351342505324000000000000000000000],
    [89370315180977700000000000000000000, m 55908758428750200000000000000000000],
    [3733247502856240000000000000000000, 105351342505324000000000000000000000],
    [m 93103562683833900000000000000000000, m 49442584076573600000000000000000000],
    [m 47609915540097500000000000000000000, m 27487597553170600000000000000000000],
    [47609915540097500000000000000000000, m 27487597553170600000000000000000000],
    [0, 54975195106341300000000000000000000],
    [m 5551115123125780000, m 31822881181210400000000000000000000],
    [27559423524542000000000000000000000, 15911440590605300000000000000000000],
    [m 27559423524542000000000000000000000, 15911440590605300000000000000000000],
    [m 12537506708828200000000000000000000, m 31576402673138900000000000000000000],
    [33614720229479300000000000000000000, 4930402026606440000000000000000000],
    [m 21077213520651100000000000000000000, 26646000646532600000000000000000000],
    [12537506708828200000000000000000000, m 31576402673138900000000000000000000],
    [21077213520651100000000000000000000, 26646000646532500000000000000000000],
    [m 33614720229479300000000000000000000, 4930402026606450000000000000000000],
    [m 37006788298624600000000000000000000, m 21365879186054400000000000000000000],
    [37006788298624600000000000000000000, m 21365879186054400000000000000000000],
    [0, 42731758372108900000000000000000000],
    [m 86060405291382600000000000000000000, m 57305121360034500000000000000000000],
    [92657893510431400000000000000000000, m 45877936562304800000000000000000000],
    [m 6597488219048830000000000000000000, 103183057922339000000000000000000000],
    [86060405291382600000000000000000000, m 57305121360034500000000000000000000],
    [6597488219048890000000000000000000, 103183057922339000000000000000000000],
    [m 92657893510431500000000000000000000, m 45877936562304700000000000000000000],
    [m 37246528778512500000000000000000000, m 30895554368016500000000000000000000],
    [45379599335961800000000000000000000, m 16808662940971700000000000000000000],
    [m 8133070557449310000000000000000000, 47704217308988300000000000000000000],
    [37246528778512500000000000000000000, m 30895554368016500000000000000000000],
    [8133070557449340000000000000000000, 47704217308988300000000000000000000],
    [m 45379599335961900000000000000000000, m 16808662940971700000000000000000000],
    [m 25224760836480200000000000000000000, m 31414513744457000000000000000000000],
    [39818147368475300000000000000000000, m 6138026816550140000000000000000000],
    [m 14593386531995100000000000000000000, 37552540561007200000000000000000000],
    [25224760836480200000000000000000000, m 31414513744457000000000000000000000],
    [14593386531995100000000000000000000, 37552540561007200000000000000000000],
    [m 39818147368475300000000000000000000, m 6138026816550110000000000000000000],
    [m 77250795122178400000000000000000000, m 57323223918730300000000000000000000],
    [88268765701533400000000000000000000, m 38239539078988400000000000000000000],
    [m 11017970579354900000000000000000000, 95562762997718700000000000000000000],
    [77250795122178400000000000000000000, m 57323223918730300000000000000000000],
    [11017970579355000000000000000000000, 95562762997718700000000000000000000],
    [m 88268765701533400000000000000000000, m 38239539078988300000000000000000000],
    [m 97281903597154700000000000000000000, m 57206883390058000000000000000000000],
    [98183566085701600000000000000000000, m 55645158148615700000000000000000000],
    [m 901662488546884000000000000000000, 112852041538674000000000000000000000],
    [97281903597154600000000000000000000, m 57206883390058000000000000000000000],
    [901662488546973000000000000000000, 112852041538674000000000000000000000],
    [m 98183566085701600000000000000000000, m 55645158148615600000000000000000000],
    [m 20361834007684200000000000000000000, m 55123879656195300000000000000000000],
    [57919597141263500000000000000000000, 9928074309801260000000000000000000],
    [m 37557763133579200000000000000000000, 45195805346394100000000000000000000],
    [20361834007684200000000000000000000, m 55123879656195300000000000000000000],
    [37557763133579300000000000000000000, 45195805346394100000000000000000000],
    [m 57919597141263500000000000000000000, 9928074309801300000000000000000000],
    [m 14229399114449100000000000000000000, m 57235407491813600000000000000000000],
    [56682016441089300000000000000000000, 16294682632206100000000000000000000],
    [m 42452617326640200000000000000000000, 40940724859607600000000000000000000],
    [14229399114449100000000000000000000, m 57235407491813600000000000000000000],
    [42452617326640200000000000000000000, 40940724859607500000000000000000000],
    [m 56682016441089300000000000000000000, 16294682632206100000000000000000000],
    [m 21178007912397200000000000000000000, m 12227128569122500000000000000000000],
    [21178007912397200000000000000000000, m 12227128569122500000000000000000000],
    [5551115123125780000, 24454257138245100000000000000000000],
    [m 7154381807871480000000000000000000, m 39589172778651000000000000000000000],
    [37862420245058900000000000000000000, 13598709995335600000000000000000000],
    [m 30708038437187400000000000000000000, 25990462783315500000000000000000000],
    [7154381807871500000000000000000000, m 39589172778651000000000000000000000],
    [30708038437187400000000000000000000, 25990462783315500000000000000000000],
    [m 37862420245058900000000000000000000, 13598709995335600000000000000000000],
    [5421010862427520000, m 57251313359481400000000000000000000],
    [49581091769334300000000000000000000, 28625656679740700000000000000000000],
    [m 49581091769334300000000000000000000, 28625656679740700000000000000000000],
    [m 34072584339074000000000000000000000, m 55166089418268200000000000000000000],
    [64811527033201200000000000000000000, m 1924678901091840000000000000000000],
    [m 30738942694127100000000000000000000, 57090768319360100000000000000000000],
    [34072584339074000000000000000000000, m 55166089418268200000000000000000000],
    [30738942694127200000000000000000000, 57090768319360100000000000000000000],
    [m 64811527033201200000000000000000000, m 1924678901091800000000000000000000],
    [m 25420500317361000000000000000000000, m 51370572700173900000000000000000000],
    [57198471123986400000000000000000000, 3670487298341900000000000000000000],
    [m 31777970806625400000000000000000000, 47700085401832000000000000000000000],
    [25420500317361000000000000000000000, m 51370572700173900000000000000000000],
    [31777970806625400000000000000000000, 47700085401832000000000000000000000],
    [m 57198471123986400000000000000000000, 3670487298341940000000000000000000],
    [m 13311178834618600000000000000000000, m 22603324747774100000000000000000000],
    [26230642858871200000000000000000000, m 226156651210407000000000000000000],
    [m 12919464024252500000000000000000000, 22829481398984600000000000000000000],
    [13311178834618600000000000000000000, m 22603324747774100000000000000000000],
    [12919464024252600000000000000000000, 22829481398984500000000000000000000],
    [m 26230642858871200000000000000000000, m 226156651210385000000000000000000],
    [m 42835120414075900000000000000000000, m 46374623851729500000000000000000000],
    [61579162553583400000000000000000000, m 13908990526890400000000000000000000],
    [m 18744042139507500000000000000000000, 60283614378619900000000000000000000],
    [42835120414075900000000000000000000, m 46374623851729500000000000000000000],
    [18744042139507600000000000000000000, 60283614378619900000000000000000000],
    [m 61579162553583400000000000000000000, m 13908990526890300000000000000000000],
    [m 28308678232916800000000000000000000, m 57244266277976000000000000000000000],
    [63729327934186500000000000000000000, 4106098641722510000000000000000000],
    [m 35420649701269700000000000000000000, 53138167636253600000000000000000000],
    [28308678232916800000000000000000000, m 57244266277976000000000000000000000],
    [35420649701269700000000000000000000, 53138167636253600000000000000000000],
    [m 63729327934186500000000000000000000, 4106098641722540000000000000000000],
    [m 38982610581001500000000000000000000, m 51490548014106800000000000000000000],
    [64083427925499600000000000000000000, m 8014657061929950000000000000000000],
    [m 25100817344498100000000000000000000, 59505205076036800000000000000000000],
    [38982610581001500000000000000000000, m 51490548014106800000000000000000000],
    [25100817344498100000000000000000000, 59505205076036800000000000000000000],
    [m 64083427925499600000000000000000000, m 8014657061929900000000000000000000],
    [m 71358109961060000000000000000000000, m 55283101652348000000000000000000000],
    [83555625411460900000000000000000000, m 34156385166147400000000000000000000],
    [m 12197515450400800000000000000000000, 89439486818495500000000000000000000],
    [71358109961060000000000000000000000, m 55283101652348000000000000000000000],
    [12197515450400900000000000000000000, 89439486818495500000000000000000000],
    [m 83555625411460900000000000000000000, m 34156385166147300000000000000000000],
    [m 67177893900431700000000000000000000, m 46689252269607200000000000000000000],
    [74023025499395900000000000000000000, m 34833136555706000000000000000000000],
    [m 6845131598964200000000000000000000, 81522388825313200000000000000000000],
    [67177893900431700000000000000000000, m 46689252269607200000000000000000000],
    [6845131598964250000000000000000000, 81522388825313200000000000000000000],
    [m 74023025499396000000000000000000000, m 34833136555705900000000000000000000],
    [m 75059812077502200000000000000000000, m 51923400712748300000000000000000000],
    [82496890106870100000000000000000000, m 39042003706028800000000000000000000],
    [m 7437078029367880000000000000000000, 90965404418777200000000000000000000],
    [75059812077502200000000000000000000, m 51923400712748300000000000000000000],
    [7437078029367950000000000000000000, 90965404418777200000000000000000000],
    [m 82496890106870200000000000000000000, m 39042003706028800000000000000000000],
    [m 59464715111368400000000000000000000, m 40487430456712200000000000000000000],
    [64795500865152800000000000000000000, m 31254238686893300000000000000000000],
    [m 5330785753784350000000000000000000, 71741669143605600000000000000000000],
    [59464715111368400000000000000000000, m 40487430456712200000000000000000000],
    [5330785753784410000000000000000000, 71741669143605600000000000000000000],
    [m 64795500865152800000000000000000000, m 31254238686893300000000000000000000],
    [m 55914730411574700000000000000000000, m 46537465321601300000000000000000000],
    [68259992402031500000000000000000000, m 25154844321381400000000000000000000],
    [m 12345261990456700000000000000000000, 71692309642982800000000000000000000],
    [55914730411574700000000000000000000, m 46537465321601300000000000000000000],
    [12345261990456800000000000000000000, 71692309642982800000000000000000000],
    [m 68259992402031500000000000000000000, m 25154844321381300000000000000000000],
    [m 47513641482741600000000000000000000, m 55154491728129500000000000000000000],
    [71522011710749600000000000000000000, m 13570774686295600000000000000000000],
    [m 24008370228008000000000000000000000, 68725266414425100000000000000000000],
    [47513641482741600000000000000000000, m 55154491728129500000000000000000000],
    [24008370228008000000000000000000000, 68725266414425100000000000000000000],
    [m 71522011710749600000000000000000000, m 13570774686295600000000000000000000],
    [m 55098939175943100000000000000000000, m 57240622147657900000000000000000000],
    [77121302496269500000000000000000000, m 19096769974111400000000000000000000],
    [m 22022363320326400000000000000000000, 76337392121769300000000000000000000],
    [55098939175943100000000000000000000, m 57240622147657900000000000000000000],
    [22022363320326400000000000000000000, 76337392121769300000000000000000000],
    [m 77121302496269500000000000000000000, m 19096769974111300000000000000000000],
    [m 2775557561562890000, m 22943850805370700000000000000000000],
    [19869957658091100000000000000000000, 11471925402685400000000000000000000],
    [m 19869957658091100000000000000000000, 11471925402685400000000000000000000],
    [m 66906775613675300000000000000000000, m 57244722857070500000000000000000000],
    [83028772033660400000000000000000000, m 29320605938212800000000000000000000],
    [m 16121996419985000000000000000000000, 86565328795283300000000000000000000],
    [66906775613675300000000000000000000, m 57244722857070500000000000000000000],
    [16121996419985100000000000000000000, 86565328795283300000000000000000000],
    [m 83028772033660400000000000000000000, m 29320605938212700000000000000000000],
    [m 42086181836543400000000000000000000, m 57243826525037200000000000000000000],
    [70617698898783400000000000000000000, m 7825789356219220000000000000000000],
    [m 28531517062239900000000000000000000, 65069615881256400000000000000000000],
    [42086181836543400000000000000000000, m 57243826525037200000000000000000000],
    [28531517062240000000000000000000000, 65069615881256400000000000000000000],
    [m 70617698898783400000000000000000000, m 7825789356219170000000000000000000],
    [m 21245173597369900000000000000000000, m 39438908961583800000000000000000000],
    [44777683856958300000000000000000000, 1320594437659150000000000000000000],
    [m 23532510259588400000000000000000000, 38118314523924700000000000000000000],
    [21245173597369900000000000000000000, m 39438908961583800000000000000000000],
    [23532510259588400000000000000000000, 38118314523924700000000000000000000],
    [m 44777683856958300000000000000000000, 1320594437659170000000000000000000],
    [m 25800420807868500000000000000000000, m 22157162536728800000000000000000000],
    [32088876036522300000000000000000000, m 11265238579578400000000000000000000],
    [m 6288455228653710000000000000000000, 33422401116307200000000000000000000],
    [25800420807868600000000000000000000, m 22157162536728800000000000000000000],
    [6288455228653730000000000000000000, 33422401116307200000000000000000000],
    [m 32088876036522300000000000000000000, m 11265238579578400000000000000000000],
    [m 29370336187542400000000000000000000, m 46047385175478200000000000000000000],
    [54563373433582300000000000000000000, m 2411764668362050000000000000000000],
    [m 25193037246039800000000000000000000, 48459149843840300000000000000000000],
    [29370336187542400000000000000000000, m 46047385175478200000000000000000000],
    [25193037246039900000000000000000000, 48459149843840300000000000000000000],
    [m 54563373433582300000000000000000000, m 2411764668362020000000000000000000],
    [m 60047596226514400000000000000000000, m 55148536852211300000000000000000000],
    [77783832008814500000000000000000000, m 24428475342246400000000000000000000],
    [m 17736235782300000000000000000000000, 79577012194457800000000000000000000],
    [60047596226514400000000000000000000, m 55148536852211300000000000000000000],
    [17736235782300100000000000000000000, 79577012194457800000000000000000000],
    [m 77783832008814500000000000000000000, m 24428475342246400000000000000000000],
    [m 64378659978871000000000000000000000, m 51606114317066700000000000000000000],
    [76881535978619100000000000000000000, m 29950497844769500000000000000000000],
    [m 12502875999748100000000000000000000, 81556612161836300000000000000000000],
    [64378659978871000000000000000000000, m 51606114317066700000000000000000000],
    [12502875999748100000000000000000000, 81556612161836200000000000000000000],
    [m 76881535978619100000000000000000000, m 29950497844769400000000000000000000],
    [m 52124100620529900000000000000000000, m 51455997052960900000000000000000000],
    [70624250935186300000000000000000000, m 19412796760314700000000000000000000],
    [m 18500150314656400000000000000000000, 70868793813275600000000000000000000],
    [52124100620529900000000000000000000, m 51455997052960900000000000000000000],
    [18500150314656400000000000000000000, 70868793813275600000000000000000000],
    [m 70624250935186300000000000000000000, m 19412796760314600000000000000000000],
    [m 35101185488933600000000000000000000, m 39271417796087900000000000000000000],
    [51560638198511200000000000000000000, m 10762809438322200000000000000000000],
    [m 16459452709577600000000000000000000, 50034227234410200000000000000000000],
    [35101185488933600000000000000000000, m 39271417796087900000000000000000000],
    [16459452709577600000000000000000000, 50034227234410100000000000000000000],
    [m 51560638198511200000000000000000000, m 10762809438322200000000000000000000],
    [m 14878346974678500000000000000000000, m 46204815328845500000000000000000000],
    [47453717339288000000000000000000000, 10217381218031900000000000000000000],
    [m 32575370364609600000000000000000000, 35987434110813700000000000000000000],
    [14878346974678500000000000000000000, m 46204815328845500000000000000000000],
    [32575370364609600000000000000000000, 35987434110813700000000000000000000],
    [m 47453717339288000000000000000000000, 10217381218031900000000000000000000],
    [4163336342344340000, m 46220719577895800000000000000000000],
    [40028317335654500000000000000000000, 23110359788947900000000000000000000],
    [m 40028317335654500000000000000000000, 23110359788947900000000000000000000],
    [m 69071354327190800000000000000000000, m 39878365014095700000000000000000000],
    [69071354327190800000000000000000000, m 39878365014095600000000000000000000],
    [0, 79756730028191300000000000000000000]],
   [9042920028217440000000000000000, 9042920028217440000000000000000, 9042920028217440000000000000000,
    1116007043683640000000000000000000, 1116007043683640000000000000000000, 1116007043683640000000000000000000,
    977951180386507000000000000000000, 977951180386507000000000000000000, 977951180386507000000000000000000,
    163961817802840000000000000000000, 163961817802840000000000000000000, 163961817802840000000000000000000,
    163961817802840000000000000000000, 163961817802840000000000000000000, 163961817802840000000000000000000,
    186687074884359000000000000000000, 186687074884359000000000000000000, 186687074884359000000000000000000,
    186687074884359000000000000000000, 186687074884359000000000000000000, 186687074884359000000000000000000,
    95877916032083900000000000000000, 95877916032083900000000000000000, 95877916032083900000000000000000,
    95877916032083900000000000000000, 95877916032083900000000000000000, 95877916032083900000000000000000,
    648604688543074000000000000000000, 648604688543074000000000000000000, 648604688543074000000000000000000,
    648604688543074000000000000000000, 648604688543074000000000000000000, 648604688543074000000000000000000,
    705592328785141000000000000000000, 705592328785141000000000000000000, 705592328785141000000000000000000,
    705592328785141000000000000000000, 705592328785141000000000000000000, 705592328785141000000000000000000,
    515303617839871000000000000000000, 515303617839871000000000000000000, 515303617839871000000000000000000,
    309821379866219000000000000000000, 309821379866219000000000000000000, 309821379866219000000000000000000,
    309821379866219000000000000000000, 309821379866219000000000000000000, 309821379866219000000000000000000,
    178648005064792000000000000000000, 178648005064792000000000000000000, 178648005064792000000000000000000,
    178648005064792000000000000000000, 178648005064792000000000000000000, 178648005064792000000000000000000,
    438591164403768000000000000000000, 438591164403768000000000000000000, 438591164403768000000000000000000,
    438591164403768000000000000000000, 438591164403768000000000000000000, 438591164403768000000000000000000,
    390140730528495000000000000000000, 390140730528495000000000000000000, 390140730528495000000000000000000,
    390140730528495000000000000000000, 390140730528495000000000000000000, 390140730528495000000000000000000,
    48815688414163300000000000000000, 48815688414163300000000000000000, 48815688414163300000000000000000,
    48815688414163300000000000000000, 48815688414163300000000000000000, 48815688414163300000000000000000,
    1058174455902380000000000000000000, 1058174455902380000000000000000000, 1058174455902380000000000000000000,
    1058174455902380000000000000000000, 1058174455902380000000000000000000, 1058174455902380000000000000000000,
    735247908183962000000000000000000, 735247908183962000000000000000000, 735247908183962000000000000000000,
    573130626568662000000000000000000, 573130626568662000000000000000000, 573130626568662000000000000000000,
    573130626568662000000000000000000, 573130626568662000000000000000000, 573130626568662000000000000000000,
    129962765091248000000000000000000, 129962765091248000000000000000000, 129962765091248000000000000000000,
    129962765091248000000000000000000, 129962765091248000000000000000000, 129962765091248000000000000000000,
    872304383965269000000000000000000, 872304383965269000000000000000000, 872304383965269000000000000000000,
    1040979938503900000000000000000000, 1040979938503900000000000000000000, 1040979938503900000000000000000000,
    1077969400091420000000000000000000, 1077969400091420000000000000000000, 1077969400091420000000000000000000,
    1077969400091420000000000000000000, 1077969400091420000000000000000000, 1077969400091420000000000000000000,
    1052606939199560000000000000000000, 1052606939199560000000000000000000, 1052606939199560000000000000000000,
    84943386568900200000000000000000, 84943386568900200000000000000000, 84943386568900200000000000000000,
    84943386568900200000000000000000, 84943386568900200000000000000000, 84943386568900200000000000000000,
    1020289515751400000000000000000000, 1020289515751400000000000000000000, 1020289515751400000000000000000000,
    1020289515751400000000000000000000, 1020289515751400000000000000000000, 1020289515751400000000000000000000,
    1080474099002310000000000000000000, 1080474099002310000000000000000000, 1080474099002310000000000000000000,
    1080474099002310000000000000000000, 1080474099002310000000000000000000, 1080474099002310000000000000000000,
    102003622333933000000000000000000, 102003622333933000000000000000000, 102003622333933000000000000000000,
    102003622333933000000000000000000, 102003622333933000000000000000000, 102003622333933000000000000000000,
    41404945067455200000000000000000, 41404945067455200000000000000000, 41404945067455200000000000000000,
    41404945067455200000000000000000, 41404945067455200000000000000000, 41404945067455200000000000000000,
    404976646698537000000000000000000, 404976646698537000000000000000000, 404976646698537000000000000000000,
    404976646698537000000000000000000, 404976646698537000000000000000000, 404976646698537000000000000000000,
    181074302129102000000000000000000, 181074302129102000000000000000000, 181074302129102000000000000000000,
    181074302129102000000000000000000, 181074302129102000000000000000000, 181074302129102000000000000000000,
    1172103066293000000000000000000000, 1172103066293000000000000000000000, 1172103066293000000000000000000000,
    1037531190332250000000000000000000, 1037531190332250000000000000000000, 1037531190332250000000000000000000,
    1037531190332250000000000000000000, 1037531190332250000000000000000000, 1037531190332250000000000000000000,
    177299643721865000000000000000000, 177299643721865000000000000000000, 177299643721865000000000000000000,
    396336454553501000000000000000000, 396336454553501000000000000000000, 396336454553501000000000000000000,
    396336454553501000000000000000000, 396336454553501000000000000000000, 396336454553501000000000000000000,
    625354702202453000000000000000000, 625354702202453000000000000000000, 625354702202453000000000000000000,
    625354702202453000000000000000000, 625354702202453000000000000000000, 625354702202453000000000000000000,
    1222595395765170000000000000000000, 1222595395765170000000000000000000, 1222595395765170000000000000000000,
    1222595395765170000000000000000000, 1222595395765170000000000000000000, 1222595395765170000000000000000000,
    758387552126465000000000000000000, 758387552126465000000000000000000, 758387552126465000000000000000000,
    758387552126465000000000000000000, 758387552126465000000000000000000, 758387552126465000000000000000000,
    176173531602917000000000000000000, 176173531602917000000000000000000, 176173531602917000000000000000000,
    176173531602917000000000000000000, 176173531602917000000000000000000, 176173531602917000000000000000000,
    598507476158384000000000000000000, 598507476158384000000000000000000, 598507476158384000000000000000000,
    598507476158384000000000000000000, 598507476158384000000000000000000, 598507476158384000000000000000000,
    287974100005333000000000000000000, 287974100005333000000000000000000, 287974100005333000000000000000000,
    287974100005333000000000000000000, 287974100005333000000000000000000, 287974100005333000000000000000000,
    580439783629517000000000000000000, 580439783629517000000000000000000, 580439783629517000000000000000000,
    580439783629517000000000000000000, 580439783629517000000000000000000, 580439783629517000000000000000000,
    413365123027083000000000000000000, 413365123027083000000000000000000, 413365123027083000000000000000000,
    413365123027083000000000000000000, 413365123027083000000000000000000, 413365123027083000000000000000000,
    723196855702422000000000000000000, 723196855702422000000000000000000, 723196855702422000000000000000000,
    723196855702422000000000000000000, 723196855702422000000000000000000, 723196855702422000000000000000000,
    670497910042751000000000000000000, 670497910042751000000000000000000, 670497910042751000000000000000000,
    670497910042751000000000000000000, 670497910042751000000000000000000, 670497910042751000000000000000000,
    379724287497273000000000000000000, 379724287497273000000000000000000, 379724287497273000000000000000000,
    379724287497273000000000000000000, 379724287497273000000000000000000, 379724287497273000000000000000000,
    158089878056633000000000000000000, 158089878056633000000000000000000, 158089878056633000000000000000000,
    158089878056633000000000000000000, 158089878056633000000000000000000, 158089878056633000000000000000000,
    1252291740177060000000000000000000, 1252291740177060000000000000000000, 1252291740177060000000000000000000,
    139055040840670000000000000000000, 139055040840670000000000000000000, 139055040840670000000000000000000,
    139055040840670000000000000000000, 139055040840670000000000000000000, 139055040840670000000000000000000,
    169630058881459000000000000000000, 169630058881459000000000000000000, 169630058881459000000000000000000,
    169630058881459000000000000000000, 169630058881459000000000000000000, 169630058881459000000000000000000,
    1031451283333890000000000000000000, 1031451283333890000000000000000000, 1031451283333890000000000000000000,
    1031451283333890000000000000000000, 1031451283333890000000000000000000, 1031451283333890000000000000000000,
    1169569964554700000000000000000000, 1169569964554700000000000000000000, 1169569964554700000000000000000000,
    1169569964554700000000000000000000, 1169569964554700000000000000000000, 1169569964554700000000000000000000,
    854364303868680000000000000000000, 854364303868680000000000000000000, 854364303868680000000000000000000,
    854364303868680000000000000000000, 854364303868680000000000000000000, 854364303868680000000000000000000,
    346326524875541000000000000000000, 346326524875541000000000000000000, 346326524875541000000000000000000,
    346326524875541000000000000000000, 346326524875541000000000000000000, 346326524875541000000000000000000,
    495049547104095000000000000000000, 495049547104095000000000000000000, 495049547104095000000000000000000,
    495049547104095000000000000000000, 495049547104095000000000000000000, 495049547104095000000000000000000,
    564195276815496000000000000000000, 564195276815496000000000000000000, 564195276815496000000000000000000,
    564195276815496000000000000000000, 564195276815496000000000000000000, 564195276815496000000000000000000,
    1017109018865600000000000000000000, 1017109018865600000000000000000000, 1017109018865600000000000000000000,
    1017109018865600000000000000000000, 1017109018865600000000000000000000, 1017109018865600000000000000000000,
    882493473962007000000000000000000, 882493473962007000000000000000000, 882493473962007000000000000000000,
    882493473962007000000000000000000, 882493473962007000000000000000000, 882493473962007000000000000000000,
    889212424278315000000000000000000, 889212424278315000000000000000000, 889212424278315000000000000000000,
    687549526032323000000000000000000, 687549526032323000000000000000000, 687549526032323000000000000000000]⟩

/-- `triangle_table_orig[42]` (xg_quad_data.py 9388-10041). -/
def xgTri_42 : XgTableRule :=
  ⟨[
    [0, m 23915669727967100000000000000000000],
    [20711577532938000000000000000000000, 11957834863983600000000000000000000],
    [m 20711577532938000000000000000000000, 11957834863983600000000000000000000],
    [m 99590382227213700000000000000000000, m 57498533987579600000000000000000000],
    [99590382227213800000000000000000000, m 57498533987579600000000000000000000],
    [0, 114997067975159000000000000000000000],
    [m 33732186702983100000000000000000000, m 57463021225838500000000000000000000],
    [66630529511272100000000000000000000, m 481419997063726000000000000000000],
    [m 32898342808289000000000000000000000, 57944441222902300000000000000000000],
    [33732186702983100000000000000000000, m 57463021225838500000000000000000000],
    [32898342808289000000000000000000000, 57944441222902300000000000000000000],
    [m 66630529511272100000000000000000000, m 481419997063670000000000000000000],
    [4770489558936220000, m 56879992979770300000000000000000000],
    [49259518887561600000000000000000000, 28439996489885200000000000000000000],
    [m 49259518887561600000000000000000000, 28439996489885200000000000000000000],
    [m 94952259941407700000000000000000000, m 56069717377459200000000000000000000],
    [96033929602597300000000000000000000, m 54196210567273000000000000000000000],
    [m 1081669661189610000000000000000000, 110265927944732000000000000000000000],
    [94952259941407600000000000000000000, m 56069717377459200000000000000000000],
    [1081669661189680000000000000000000, 110265927944732000000000000000000000],
    [m 96033929602597300000000000000000000, m 54196210567272900000000000000000000],
    [m 86369982899641900000000000000000000, m 53941219280079300000000000000000000],
    [89899457657476600000000000000000000, m 47827989675477800000000000000000000],
    [m 3529474757834610000000000000000000, 101769208955557000000000000000000000],
    [86369982899641900000000000000000000, m 53941219280079300000000000000000000],
    [3529474757834670000000000000000000, 101769208955557000000000000000000000],
    [m 89899457657476600000000000000000000, m 47827989675477800000000000000000000],
    [m 2081668171172170000, m 50772285124871800000000000000000000],
    [43970088726325800000000000000000000, 25386142562435900000000000000000000],
    [m 43970088726325700000000000000000000, 25386142562436000000000000000000000],
    [m 80060101283264900000000000000000000, m 46222721027241700000000000000000000],
    [80060101283264900000000000000000000, m 46222721027241700000000000000000000],
    [0, 92445442054483400000000000000000000],
    [m 9196450543381780000000000000000000, m 57476336247113200000000000000000000],
    [54374192578147300000000000000000000, 20773808328340800000000000000000000],
    [m 45177742034765400000000000000000000, 36702527918772500000000000000000000],
    [9196450543381790000000000000000000, m 57476336247113200000000000000000000],
    [45177742034765500000000000000000000, 36702527918772500000000000000000000],
    [m 54374192578147200000000000000000000, 20773808328340800000000000000000000],
    [m 66309355251219500000000000000000000, m 48132277490581300000000000000000000],
    [74838452674455100000000000000000000, m 33359447410832500000000000000000000],
    [m 8529097423235550000000000000000000, 81491724901413800000000000000000000],
    [66309355251219500000000000000000000, m 48132277490581300000000000000000000],
    [8529097423235600000000000000000000, 81491724901413800000000000000000000],
    [m 74838452674455100000000000000000000, m 33359447410832400000000000000000000],
    [m 51372916997472300000000000000000000, m 37176697642006600000000000000000000],
    [57882423085526900000000000000000000, m 25901902365317100000000000000000000],
    [m 6509506088054580000000000000000000, 63078600007323700000000000000000000],
    [51372916997472300000000000000000000, m 37176697642006600000000000000000000],
    [6509506088054630000000000000000000, 63078600007323700000000000000000000],
    [m 57882423085526900000000000000000000, m 25901902365317100000000000000000000],
    [m 87029083183676100000000000000000000, m 50246264603421800000000000000000000],
    [87029083183676200000000000000000000, m 50246264603421700000000000000000000],
    [0, 100492529206844000000000000000000000],
    [m 93438263780905800000000000000000000, m 57493742331160900000000000000000000],
    [96510173307875000000000000000000000, m 52173038954195400000000000000000000],
    [m 3071909526969120000000000000000000, 109666781285356000000000000000000000],
    [93438263780905800000000000000000000, m 57493742331160900000000000000000000],
    [3071909526969210000000000000000000, 109666781285356000000000000000000000],
    [m 96510173307875000000000000000000000, m 52173038954195400000000000000000000],
    [2775557561562890000, m 54376585322681200000000000000000000],
    [47091504260494000000000000000000000, 27188292661340600000000000000000000],
    [m 47091504260494000000000000000000000, 27188292661340700000000000000000000],
    [m 90377238041680600000000000000000000, m 55951105488338200000000000000000000],
    [93643697743564100000000000000000000, m 50293431323799700000000000000000000],
    [m 3266459701883440000000000000000000, 106244536812138000000000000000000000],
    [90377238041680600000000000000000000, m 55951105488338200000000000000000000],
    [3266459701883510000000000000000000, 106244536812138000000000000000000000],
    [m 93643697743564100000000000000000000, m 50293431323799700000000000000000000],
    [m 97636560454756200000000000000000000, m 57287342016015200000000000000000000],
    [98430573728534900000000000000000000, m 55912070683946400000000000000000000],
    [m 794013273778615000000000000000000, 113199412699962000000000000000000000],
    [97636560454756200000000000000000000, m 57287342016015200000000000000000000],
    [794013273778704000000000000000000, 113199412699962000000000000000000000],
    [m 98430573728534900000000000000000000, m 55912070683946400000000000000000000],
    [m 80976763015790200000000000000000000, m 50897875397137900000000000000000000],
    [84567234600471400000000000000000000, m 44678996189337600000000000000000000],
    [m 3590471584681230000000000000000000, 95576871586475500000000000000000000],
    [80976763015790200000000000000000000, m 50897875397137900000000000000000000],
    [3590471584681290000000000000000000, 95576871586475400000000000000000000],
    [m 84567234600471500000000000000000000, m 44678996189337500000000000000000000],
    [m 11503943729553500000000000000000000, m 55605671624505300000000000000000000],
    [53907896086093900000000000000000000, 17840128298752600000000000000000000],
    [m 42403952356540300000000000000000000, 37765543325752800000000000000000000],
    [11503943729553500000000000000000000, m 55605671624505300000000000000000000],
    [42403952356540400000000000000000000, 37765543325752800000000000000000000],
    [m 53907896086093900000000000000000000, 17840128298752700000000000000000000],
    [m 45642869772220000000000000000000000, m 57286458799044500000000000000000000],
    [72432963498933200000000000000000000, m 10884655324845100000000000000000000],
    [m 26790093726713100000000000000000000, 68171114123889700000000000000000000],
    [45642869772220000000000000000000000, m 57286458799044500000000000000000000],
    [26790093726713100000000000000000000, 68171114123889700000000000000000000],
    [m 72432963498933200000000000000000000, m 10884655324845100000000000000000000],
    [m 26081632436550800000000000000000000, m 51230069551399300000000000000000000],
    [57407357887430900000000000000000000, 3027678513478420000000000000000000],
    [m 31325725450880000000000000000000000, 48202391037921000000000000000000000],
    [26081632436550800000000000000000000, m 51230069551399300000000000000000000],
    [31325725450880100000000000000000000, 48202391037920900000000000000000000],
    [m 57407357887430900000000000000000000, 3027678513478460000000000000000000],
    [m 23737442933070800000000000000000000, m 54774164573700100000000000000000000],
    [59304539458429300000000000000000000, 6829853685927300000000000000000000],
    [m 35567096525358500000000000000000000, 47944310887772800000000000000000000],
    [23737442933070900000000000000000000, m 54774164573700100000000000000000000],
    [35567096525358500000000000000000000, 47944310887772800000000000000000000],
    [m 59304539458429300000000000000000000, 6829853685927350000000000000000000],
    [m 48002697917900100000000000000000000, m 42881250819630900000000000000000000],
    [61137601514802700000000000000000000, m 20130930437276400000000000000000000],
    [m 13134903596902500000000000000000000, 63012181256907400000000000000000000],
    [48002697917900100000000000000000000, m 42881250819630900000000000000000000],
    [13134903596902600000000000000000000, 63012181256907400000000000000000000],
    [m 61137601514802700000000000000000000, m 20130930437276400000000000000000000],
    [m 55650162501787400000000000000000000, m 47691618600212900000000000000000000],
    [69127234506276500000000000000000000, m 24348645151173600000000000000000000],
    [m 13477072004489100000000000000000000, 72040263751386600000000000000000000],
    [55650162501787400000000000000000000, m 47691618600212900000000000000000000],
    [13477072004489200000000000000000000, 72040263751386600000000000000000000],
    [m 69127234506276600000000000000000000, m 24348645151173500000000000000000000],
    [m 12478176574417700000000000000000000, m 51872351401291200000000000000000000],
    [51161862354760300000000000000000000, 15129757794292000000000000000000000],
    [m 38683685780342600000000000000000000, 36742593606999300000000000000000000],
    [12478176574417700000000000000000000, m 51872351401291200000000000000000000],
    [38683685780342600000000000000000000, 36742593606999200000000000000000000],
    [m 51161862354760300000000000000000000, 15129757794292000000000000000000000],
    [m 91900353211488000000000000000000000, m 53058693665274400000000000000000000],
    [91900353211488100000000000000000000, m 53058693665274300000000000000000000],
    [0, 106117387330549000000000000000000000],
    [m 57250293774060900000000000000000000, m 57297391133539800000000000000000000],
    [78246143179249200000000000000000000, m 20931513215689000000000000000000000],
    [m 20995849405188200000000000000000000, 78228904349228800000000000000000000],
    [57250293774060900000000000000000000, m 57297391133539800000000000000000000],
    [20995849405188300000000000000000000, 78228904349228800000000000000000000],
    [m 78246143179249200000000000000000000, m 20931513215688900000000000000000000],
    [m 35082904042609800000000000000000000, m 55889259681253400000000000000000000],
    [65942970703975700000000000000000000, m 2438056298805110000000000000000000],
    [m 30860066661366000000000000000000000, 58327315980058600000000000000000000],
    [35082904042609800000000000000000000, m 55889259681253400000000000000000000],
    [30860066661366000000000000000000000, 58327315980058600000000000000000000],
    [m 65942970703975800000000000000000000, m 2438056298805060000000000000000000],
    [m 58448557926903100000000000000000000, m 33745290652843000000000000000000000],
    [58448557926903100000000000000000000, m 33745290652843000000000000000000000],
    [0, 67490581305686000000000000000000000],
    [0, m 46308066751251400000000000000000000],
    [40103962206729200000000000000000000, 23154033375625700000000000000000000],
    [m 40103962206729200000000000000000000, 23154033375625700000000000000000000],
    [m 48329385573259600000000000000000000, m 55408939280498600000000000000000000],
    [72150241800291000000000000000000000, m 14150006015486700000000000000000000],
    [m 23820856227031400000000000000000000, 69558945295985300000000000000000000],
    [48329385573259600000000000000000000, m 55408939280498600000000000000000000],
    [23820856227031400000000000000000000, 69558945295985300000000000000000000],
    [m 72150241800291100000000000000000000, m 14150006015486700000000000000000000],
    [m 60723425879311600000000000000000000, m 42433782075470500000000000000000000],
    [67110446195666100000000000000000000, m 31371138378570000000000000000000000],
    [m 6387020316354410000000000000000000, 73804920454040600000000000000000000],
    [60723425879311600000000000000000000, m 42433782075470500000000000000000000],
    [6387020316354450000000000000000000, 73804920454040600000000000000000000],
    [m 67110446195666100000000000000000000, m 31371138378570000000000000000000000],
    [m 74479369220077300000000000000000000, m 52032748775510700000000000000000000],
    [82301366878364500000000000000000000, m 38484651414672400000000000000000000],
    [m 7821997658287220000000000000000000, 90517400190183100000000000000000000],
    [74479369220077300000000000000000000, m 52032748775510700000000000000000000],
    [7821997658287280000000000000000000, 90517400190183100000000000000000000],
    [m 82301366878364500000000000000000000, m 38484651414672300000000000000000000],
    [m 8889912152017170000000000000000000, m 23994545417022400000000000000000000],
    [25224841959409400000000000000000000, 4298382947452340000000000000000000],
    [m 16334929807392300000000000000000000, 19696162469570100000000000000000000],
    [8889912152017180000000000000000000, m 23994545417022400000000000000000000],
    [16334929807392300000000000000000000, 19696162469570100000000000000000000],
    [m 25224841959409400000000000000000000, 4298382947452350000000000000000000],
    [m 64093927012580800000000000000000000, m 52285819108589400000000000000000000],
    [77327811112006600000000000000000000, m 29364059466906000000000000000000000],
    [m 13233884099425800000000000000000000, 81649878575495400000000000000000000],
    [64093927012580800000000000000000000, m 52285819108589400000000000000000000],
    [13233884099425900000000000000000000, 81649878575495400000000000000000000],
    [m 77327811112006700000000000000000000, m 29364059466905900000000000000000000],
    [m 72840614316212500000000000000000000, m 46066493316460800000000000000000000],
    [76315060633427400000000000000000000, m 40048575766874100000000000000000000],
    [m 3474446317214810000000000000000000, 86115069083335000000000000000000000],
    [72840614316212500000000000000000000, m 46066493316460800000000000000000000],
    [3474446317214870000000000000000000, 86115069083335000000000000000000000],
    [m 76315060633427400000000000000000000, m 40048575766874100000000000000000000],
    [m 34632334976132400000000000000000000, m 25420978730877800000000000000000000],
    [39331380858070300000000000000000000, m 17281992516264100000000000000000000],
    [m 4699045881937870000000000000000000, 42702971247142000000000000000000000],
    [34632334976132400000000000000000000, m 25420978730877800000000000000000000],
    [4699045881937900000000000000000000, 42702971247142000000000000000000000],
    [m 39331380858070300000000000000000000, m 17281992516264100000000000000000000],
    [m 29328359092418200000000000000000000, m 46670083015487400000000000000000000],
    [55081657034349800000000000000000000, m 2064062517602800000000000000000000],
    [m 25753297941931600000000000000000000, 48734145533090200000000000000000000],
    [29328359092418200000000000000000000, m 46670083015487400000000000000000000],
    [25753297941931600000000000000000000, 48734145533090200000000000000000000],
    [m 55081657034349800000000000000000000, m 2064062517602750000000000000000000],
    [m 52075640841362500000000000000000000, m 52093525817617800000000000000000000],
    [71152137151438700000000000000000000, m 19052064978165500000000000000000000],
    [m 19076496310076200000000000000000000, 71145590795783300000000000000000000],
    [52075640841362500000000000000000000, m 52093525817617800000000000000000000],
    [19076496310076300000000000000000000, 71145590795783300000000000000000000],
    [m 71152137151438800000000000000000000, m 19052064978165400000000000000000000],
    [m 60555027935120200000000000000000000, m 55435992266257100000000000000000000],
    [78286491554136400000000000000000000, m 24724196385561800000000000000000000],
    [m 17731463619016200000000000000000000, 80160188651819000000000000000000000],
    [60555027935120200000000000000000000, m 55435992266257100000000000000000000],
    [17731463619016300000000000000000000, 80160188651819000000000000000000000],
    [m 78286491554136400000000000000000000, m 24724196385561800000000000000000000],
    [m 40905454399991300000000000000000000, m 34138644830088300000000000000000000],
    [50017660873626400000000000000000000, m 18355840248694200000000000000000000],
    [m 9112206473635120000000000000000000, 52494485078782600000000000000000000],
    [40905454399991300000000000000000000, m 34138644830088300000000000000000000],
    [9112206473635150000000000000000000, 52494485078782600000000000000000000],
    [m 50017660873626400000000000000000000, m 18355840248694200000000000000000000],
    [m 68025872242342300000000000000000000, m 39274755650975500000000000000000000],
    [68025872242342400000000000000000000, m 39274755650975400000000000000000000],
    [0, 78549511301950900000000000000000000],
    [m 68384877689179100000000000000000000, m 57282030241995600000000000000000000],
    [83800132214506200000000000000000000, m 30582026192523000000000000000000000],
    [m 15415254525327000000000000000000000, 87864056434518600000000000000000000],
    [68384877689179100000000000000000000, m 57282030241995600000000000000000000],
    [15415254525327100000000000000000000, 87864056434518600000000000000000000],
    [m 83800132214506200000000000000000000, m 30582026192522900000000000000000000],
    [m 71845211882128600000000000000000000, m 55400012643472700000000000000000000],
    [83900424260290800000000000000000000, m 34519772308462600000000000000000000],
    [m 12055212378162100000000000000000000, 89919784951935400000000000000000000],
    [71845211882128600000000000000000000, m 55400012643472700000000000000000000],
    [12055212378162200000000000000000000, 89919784951935400000000000000000000],
    [m 83900424260290800000000000000000000, m 34519772308462600000000000000000000],
    [m 21667354415688700000000000000000000, m 24499725128675600000000000000000000],
    [32051061555013400000000000000000000, m 6514616792449490000000000000000000],
    [m 10383707139324700000000000000000000, 31014341921125200000000000000000000],
    [21667354415688700000000000000000000, m 24499725128675600000000000000000000],
    [10383707139324700000000000000000000, 31014341921125200000000000000000000],
    [m 32051061555013400000000000000000000, m 6514616792449460000000000000000000],
    [m 78401417474182900000000000000000000, m 57293824798152100000000000000000000],
    [88818616492266000000000000000000000, m 39250706826275600000000000000000000],
    [m 10417199018083000000000000000000000, 96544531624427700000000000000000000],
    [78401417474182900000000000000000000, m 57293824798152100000000000000000000],
    [10417199018083100000000000000000000, 96544531624427700000000000000000000],
    [m 88818616492266000000000000000000000, m 39250706826275500000000000000000000],
    [m 7382986667640720000000000000000000, m 40234854190615800000000000000000000],
    [38535899180456400000000000000000000, 13723573085329200000000000000000000],
    [m 31152912512815700000000000000000000, 26511281105286600000000000000000000],
    [7382986667640720000000000000000000, m 40234854190615800000000000000000000],
    [31152912512815700000000000000000000, 26511281105286600000000000000000000],
    [m 38535899180456400000000000000000000, 13723573085329300000000000000000000],
    [m 13454529284893900000000000000000000, m 14476929626336200000000000000000000],
    [19264653467653700000000000000000000, m 4413499343511710000000000000000000],
    [m 5810124182759720000000000000000000, 18890428969847900000000000000000000],
    [13454529284893900000000000000000000, m 14476929626336200000000000000000000],
    [5810124182759750000000000000000000, 18890428969847900000000000000000000],
    [m 19264653467653700000000000000000000, m 4413499343511680000000000000000000],
    [m 81224627731204900000000000000000000, m 55359930548468900000000000000000000],
    [88555420072318700000000000000000000, m 42662625753923000000000000000000000],
    [m 7330792341113820000000000000000000, 98022556302391900000000000000000000],
    [81224627731204900000000000000000000, m 55359930548468900000000000000000000],
    [7330792341113890000000000000000000, 98022556302391900000000000000000000],
    [m 88555420072318800000000000000000000, m 42662625753922900000000000000000000],
    [m 21779874120415800000000000000000000, m 57155725996821000000000000000000000],
    [60388247745197500000000000000000000, 9715938718903150000000000000000000],
    [m 38608373624781700000000000000000000, 47439787277917900000000000000000000],
    [21779874120415800000000000000000000, m 57155725996821000000000000000000000],
    [38608373624781700000000000000000000, 47439787277917900000000000000000000],
    [m 60388247745197500000000000000000000, 9715938718903190000000000000000000],
    [m 6479382678223790000000000000000000, m 3740873333455100000000000000000000],
    [6479382678223790000000000000000000, m 3740873333455100000000000000000000],
    [m 5551115123125780000, 7481746666910230000000000000000000],
    [m 42173742894104100000000000000000000, m 48091898059119700000000000000000000],
    [62735676882461300000000000000000000, m 12477583689407700000000000000000000],
    [m 20561933988357200000000000000000000, 60569481748527500000000000000000000],
    [42173742894104100000000000000000000, m 48091898059119700000000000000000000],
    [20561933988357200000000000000000000, 60569481748527500000000000000000000],
    [m 62735676882461300000000000000000000, m 12477583689407700000000000000000000],
    [m 86724517518683600000000000000000000, m 57249401685345600000000000000000000],
    [92941694970310800000000000000000000, m 46480934459455800000000000000000000],
    [m 6217177451627120000000000000000000, 103730336144801000000000000000000000],
    [86724517518683600000000000000000000, m 57249401685345600000000000000000000],
    [6217177451627200000000000000000000, 103730336144801000000000000000000000],
    [m 92941694970310800000000000000000000, m 46480934459455700000000000000000000],
    [m 35974948772649800000000000000000000, m 41046630772117700000000000000000000],
    [53534899374738900000000000000000000, m 10631904150899700000000000000000000],
    [m 17559950602089100000000000000000000, 51678534923017400000000000000000000],
    [35974948772649800000000000000000000, m 41046630772117700000000000000000000],
    [17559950602089100000000000000000000, 51678534923017400000000000000000000],
    [m 53534899374738900000000000000000000, m 10631904150899600000000000000000000],
    [m 38462016485447100000000000000000000, m 52677593302205100000000000000000000],
    [64851142252658200000000000000000000, m 6970286706070560000000000000000000],
    [m 26389125767211000000000000000000000, 59647880008275700000000000000000000],
    [38462016485447100000000000000000000, m 52677593302205100000000000000000000],
    [26389125767211000000000000000000000, 59647880008275700000000000000000000],
    [m 64851142252658200000000000000000000, m 6970286706070510000000000000000000],
    [m 14709579616219200000000000000000000, m 46723591737438700000000000000000000],
    [47818607208784300000000000000000000, 10622926242083800000000000000000000],
    [m 33109027592565000000000000000000000, 36100665495355000000000000000000000],
    [14709579616219200000000000000000000, m 46723591737438700000000000000000000],
    [33109027592565000000000000000000000, 36100665495355000000000000000000000],
    [m 47818607208784300000000000000000000, 10622926242083800000000000000000000],
    [m 14236698354849100000000000000000000, m 32805865585485900000000000000000000],
    [35529062167593000000000000000000000, 4073590351427550000000000000000000],
    [m 21292363812743900000000000000000000, 28732275234058400000000000000000000],
    [14236698354849100000000000000000000, m 32805865585485900000000000000000000],
    [21292363812743900000000000000000000, 28732275234058400000000000000000000],
    [m 35529062167593000000000000000000000, 4073590351427570000000000000000000],
    [m 26541827239335500000000000000000000, m 15323931101414900000000000000000000],
    [26541827239335500000000000000000000, m 15323931101414900000000000000000000],
    [0, 30647862202829800000000000000000000],
    [m 21806859696894800000000000000000000, m 40551576066406500000000000000000000],
    [46022124885452400000000000000000000, 1390493558929360000000000000000000],
    [m 24215265188557600000000000000000000, 39161082507477200000000000000000000],
    [21806859696894800000000000000000000, m 40551576066406500000000000000000000],
    [24215265188557700000000000000000000, 39161082507477200000000000000000000],
    [m 46022124885452400000000000000000000, 1390493558929380000000000000000000],
    [m 28058519641950800000000000000000000, m 33418952446785700000000000000000000],
    [42970921607756000000000000000000000, m 7589914579121160000000000000000000],
    [m 14912401965805200000000000000000000, 41008867025906900000000000000000000],
    [28058519641950800000000000000000000, m 33418952446785700000000000000000000],
    [14912401965805200000000000000000000, 41008867025906900000000000000000000],
    [m 42970921607756000000000000000000000, m 7589914579121140000000000000000000],
    [m 47549456256642800000000000000000000, m 27452691369593100000000000000000000],
    [47549456256642800000000000000000000, m 27452691369593000000000000000000000],
    [0, 54905382739186100000000000000000000],
    [2775557561562890000, m 32644308263379700000000000000000000],
    [28270800245057100000000000000000000, 16322154131689900000000000000000000],
    [m 28270800245057100000000000000000000, 16322154131689900000000000000000000],
    [0, m 14180931586841900000000000000000000],
    [12281047003534300000000000000000000, 7090465793421000000000000000000000],
    [m 12281047003534300000000000000000000, 7090465793421010000000000000000000]],
   [614261429366784000000000000000000, 614261429366784000000000000000000, 614261429366784000000000000000000,
    6013599939131370000000000000000, 6013599939131370000000000000000, 6013599939131370000000000000000,
    92271836140005600000000000000000, 92271836140005600000000000000000, 92271836140005600000000000000000,
    92271836140005600000000000000000, 92271836140005600000000000000000, 92271836140005600000000000000000,
    175659334888028000000000000000000, 175659334888028000000000000000000, 175659334888028000000000000000000,
    76050371949443600000000000000000, 76050371949443600000000000000000, 76050371949443600000000000000000,
    76050371949443600000000000000000, 76050371949443600000000000000000, 76050371949443600000000000000000,
    179618006932084000000000000000000, 179618006932084000000000000000000, 179618006932084000000000000000000,
    179618006932084000000000000000000, 179618006932084000000000000000000, 179618006932084000000000000000000,
    492627458371911000000000000000000, 492627458371911000000000000000000, 492627458371911000000000000000000,
    324063508387899000000000000000000, 324063508387899000000000000000000, 324063508387899000000000000000000,
    96917240726922400000000000000000, 96917240726922400000000000000000, 96917240726922400000000000000000,
    96917240726922400000000000000000, 96917240726922400000000000000000, 96917240726922400000000000000000,
    439580726276793000000000000000000, 439580726276793000000000000000000, 439580726276793000000000000000000,
    439580726276793000000000000000000, 439580726276793000000000000000000, 439580726276793000000000000000000,
    702893549146522000000000000000000, 702893549146522000000000000000000, 702893549146522000000000000000000,
    702893549146522000000000000000000, 702893549146522000000000000000000, 702893549146522000000000000000000,
    230817420814312000000000000000000, 230817420814312000000000000000000, 230817420814312000000000000000000,
    39255645541762600000000000000000, 39255645541762600000000000000000, 39255645541762600000000000000000,
    39255645541762600000000000000000, 39255645541762600000000000000000, 39255645541762600000000000000000,
    379783607733232000000000000000000, 379783607733232000000000000000000, 379783607733232000000000000000000,
    118100463363177000000000000000000, 118100463363177000000000000000000, 118100463363177000000000000000000,
    118100463363177000000000000000000, 118100463363177000000000000000000, 118100463363177000000000000000000,
    32405470058619400000000000000000, 32405470058619400000000000000000, 32405470058619400000000000000000,
    32405470058619400000000000000000, 32405470058619400000000000000000, 32405470058619400000000000000000,
    292132828168783000000000000000000, 292132828168783000000000000000000, 292132828168783000000000000000000,
    292132828168783000000000000000000, 292132828168783000000000000000000, 292132828168783000000000000000000,
    329531291139491000000000000000000, 329531291139491000000000000000000, 329531291139491000000000000000000,
    329531291139491000000000000000000, 329531291139491000000000000000000, 329531291139491000000000000000000,
    133951098071763000000000000000000, 133951098071763000000000000000000, 133951098071763000000000000000000,
    133951098071763000000000000000000, 133951098071763000000000000000000, 133951098071763000000000000000000,
    549473700835549000000000000000000, 549473700835549000000000000000000, 549473700835549000000000000000000,
    549473700835549000000000000000000, 549473700835549000000000000000000, 549473700835549000000000000000000,
    375599497494910000000000000000000, 375599497494910000000000000000000, 375599497494910000000000000000000,
    375599497494910000000000000000000, 375599497494910000000000000000000, 375599497494910000000000000000000,
    705657846034988000000000000000000, 705657846034988000000000000000000, 705657846034988000000000000000000,
    705657846034988000000000000000000, 705657846034988000000000000000000, 705657846034988000000000000000000,
    584062950057900000000000000000000, 584062950057900000000000000000000, 584062950057900000000000000000000,
    584062950057900000000000000000000, 584062950057900000000000000000000, 584062950057900000000000000000000,
    578065966788896000000000000000000, 578065966788896000000000000000000, 578065966788896000000000000000000,
    578065966788896000000000000000000, 578065966788896000000000000000000, 578065966788896000000000000000000,
    164961550462510000000000000000000, 164961550462510000000000000000000, 164961550462510000000000000000000,
    128916621405050000000000000000000, 128916621405050000000000000000000, 128916621405050000000000000000000,
    128916621405050000000000000000000, 128916621405050000000000000000000, 128916621405050000000000000000000,
    302936666153150000000000000000000, 302936666153150000000000000000000, 302936666153150000000000000000000,
    302936666153150000000000000000000, 302936666153150000000000000000000, 302936666153150000000000000000000,
    755148178593906000000000000000000, 755148178593906000000000000000000, 755148178593906000000000000000000,
    785057615266147000000000000000000, 785057615266147000000000000000000, 785057615266147000000000000000000,
    329638435625800000000000000000000, 329638435625800000000000000000000, 329638435625800000000000000000000,
    329638435625800000000000000000000, 329638435625800000000000000000000, 329638435625800000000000000000000,
    685570736168927000000000000000000, 685570736168927000000000000000000, 685570736168927000000000000000000,
    685570736168927000000000000000000, 685570736168927000000000000000000, 685570736168927000000000000000000,
    374699749417971000000000000000000, 374699749417971000000000000000000, 374699749417971000000000000000000,
    374699749417971000000000000000000, 374699749417971000000000000000000, 374699749417971000000000000000000,
    1085431449670560000000000000000000, 1085431449670560000000000000000000, 1085431449670560000000000000000000,
    1085431449670560000000000000000000, 1085431449670560000000000000000000, 1085431449670560000000000000000000,
    421143121343937000000000000000000, 421143121343937000000000000000000, 421143121343937000000000000000000,
    421143121343937000000000000000000, 421143121343937000000000000000000, 421143121343937000000000000000000,
    489577687660884000000000000000000, 489577687660884000000000000000000, 489577687660884000000000000000000,
    489577687660884000000000000000000, 489577687660884000000000000000000, 489577687660884000000000000000000,
    1121564597964450000000000000000000, 1121564597964450000000000000000000, 1121564597964450000000000000000000,
    1121564597964450000000000000000000, 1121564597964450000000000000000000, 1121564597964450000000000000000000,
    735858746063702000000000000000000, 735858746063702000000000000000000, 735858746063702000000000000000000,
    735858746063702000000000000000000, 735858746063702000000000000000000, 735858746063702000000000000000000,
    504041664888609000000000000000000, 504041664888609000000000000000000, 504041664888609000000000000000000,
    504041664888609000000000000000000, 504041664888609000000000000000000, 504041664888609000000000000000000,
    303870011768401000000000000000000, 303870011768401000000000000000000, 303870011768401000000000000000000,
    303870011768401000000000000000000, 303870011768401000000000000000000, 303870011768401000000000000000000,
    922804517093367000000000000000000, 922804517093367000000000000000000, 922804517093367000000000000000000,
    922804517093367000000000000000000, 922804517093367000000000000000000, 922804517093367000000000000000000,
    640178217417603000000000000000000, 640178217417603000000000000000000, 640178217417603000000000000000000,
    123276207362366000000000000000000, 123276207362366000000000000000000, 123276207362366000000000000000000,
    123276207362366000000000000000000, 123276207362366000000000000000000, 123276207362366000000000000000000,
    271675567129297000000000000000000, 271675567129297000000000000000000, 271675567129297000000000000000000,
    271675567129297000000000000000000, 271675567129297000000000000000000, 271675567129297000000000000000000,
    1196792323849410000000000000000000, 1196792323849410000000000000000000, 1196792323849410000000000000000000,
    1196792323849410000000000000000000, 1196792323849410000000000000000000, 1196792323849410000000000000000000,
    105268313149223000000000000000000, 105268313149223000000000000000000, 105268313149223000000000000000000,
    105268313149223000000000000000000, 105268313149223000000000000000000, 105268313149223000000000000000000,
    1014965500713600000000000000000000, 1014965500713600000000000000000000, 1014965500713600000000000000000000,
    1014965500713600000000000000000000, 1014965500713600000000000000000000, 1014965500713600000000000000000000,
    1344969675259520000000000000000000, 1344969675259520000000000000000000, 1344969675259520000000000000000000,
    1344969675259520000000000000000000, 1344969675259520000000000000000000, 1344969675259520000000000000000000,
    226905728272180000000000000000000, 226905728272180000000000000000000, 226905728272180000000000000000000,
    226905728272180000000000000000000, 226905728272180000000000000000000, 226905728272180000000000000000000,
    183094614410767000000000000000000, 183094614410767000000000000000000, 183094614410767000000000000000000,
    183094614410767000000000000000000, 183094614410767000000000000000000, 183094614410767000000000000000000,
    1402500014487550000000000000000000, 1402500014487550000000000000000000, 1402500014487550000000000000000000,
    699955965452803000000000000000000, 699955965452803000000000000000000, 699955965452803000000000000000000,
    699955965452803000000000000000000, 699955965452803000000000000000000, 699955965452803000000000000000000,
    90802398357201400000000000000000, 90802398357201400000000000000000, 90802398357201400000000000000000,
    90802398357201400000000000000000, 90802398357201400000000000000000, 90802398357201400000000000000000,
    901509583363616000000000000000000, 901509583363616000000000000000000, 901509583363616000000000000000000,
    901509583363616000000000000000000, 901509583363616000000000000000000, 901509583363616000000000000000000,
    525384933227356000000000000000000, 525384933227356000000000000000000, 525384933227356000000000000000000,
    525384933227356000000000000000000, 525384933227356000000000000000000, 525384933227356000000000000000000,
    843258004751850000000000000000000, 843258004751850000000000000000000, 843258004751850000000000000000000,
    843258004751850000000000000000000, 843258004751850000000000000000000, 843258004751850000000000000000000,
    1143651085043540000000000000000000, 1143651085043540000000000000000000, 1143651085043540000000000000000000,
    1143651085043540000000000000000000, 1143651085043540000000000000000000, 1143651085043540000000000000000000,
    1262769144114180000000000000000000, 1262769144114180000000000000000000, 1262769144114180000000000000000000,
    979151996628876000000000000000000, 979151996628876000000000000000000, 979151996628876000000000000000000,
    979151996628876000000000000000000, 979151996628876000000000000000000, 979151996628876000000000000000000,
    1072473564623950000000000000000000, 1072473564623950000000000000000000, 1072473564623950000000000000000000,
    1072473564623950000000000000000000, 1072473564623950000000000000000000, 1072473564623950000000000000000000,
    1048848005306200000000000000000000, 1048848005306200000000000000000000, 1048848005306200000000000000000000,
    1170683552069130000000000000000000, 1170683552069130000000000000000000, 1170683552069130000000000000000000,
    1372138370648160000000000000000000, 1372138370648160000000000000000000, 1372138370648160000000000000000000]⟩

/-- `triangle_table_orig[43]` (xg_quad_data.py 10042-10725). -/
def xgTri_43 : XgTableRule :=
  ⟨[
    [m 2775557561562890000, m 27174781657834600000000000000000000],
    [23534051257980200000000000000000000, 13587390828917300000000000000000000],
    [m 23534051257980100000000000000000000, 13587390828917300000000000000000000],
    [3469446951953610000, m 49274259095938800000000000000000000],
    [42672760129739500000000000000000000, 24637129547969400000000000000000000],
    [m 42672760129739400000000000000000000, 24637129547969400000000000000000000],
    [m 39506733155766900000000000000000000, m 32541690542417200000000000000000000],
    [47935297269708500000000000000000000, m 17942989262218500000000000000000000],
    [m 8428564113941650000000000000000000, 50484679804635700000000000000000000],
    [39506733155766900000000000000000000, m 32541690542417200000000000000000000],
    [8428564113941680000000000000000000, 50484679804635700000000000000000000],
    [m 47935297269708600000000000000000000, m 17942989262218400000000000000000000],
    [m 5377642775528100000, m 57450914029685400000000000000000000],
    [49753951020343400000000000000000000, 28725457014842700000000000000000000],
    [m 49753951020343400000000000000000000, 28725457014842800000000000000000000],
    [m 11125603549339000000000000000000000, m 6423370204107950000000000000000000],
    [11125603549339000000000000000000000, m 6423370204107930000000000000000000],
    [0, 12846740408215900000000000000000000],
    [m 24646837298065400000000000000000000, m 52120501981219500000000000000000000],
    [57461097422765900000000000000000000, 4715463767543300000000000000000000],
    [m 32814260124700500000000000000000000, 47405038213676200000000000000000000],
    [24646837298065400000000000000000000, m 52120501981219500000000000000000000],
    [32814260124700500000000000000000000, 47405038213676200000000000000000000],
    [m 57461097422765900000000000000000000, 4715463767543350000000000000000000],
    [m 79575263644167400000000000000000000, m 55585048147520900000000000000000000],
    [87925695588418000000000000000000000, m 41121675754932800000000000000000000],
    [m 8350431944250490000000000000000000, 96706723902453800000000000000000000],
    [79575263644167400000000000000000000, m 55585048147520900000000000000000000],
    [8350431944250560000000000000000000, 96706723902453800000000000000000000],
    [m 87925695588418000000000000000000000, m 41121675754932800000000000000000000],
    [m 48253886188633000000000000000000000, m 33857300476574000000000000000000000],
    [53448225410592500000000000000000000, m 24860441032392200000000000000000000],
    [m 5194339221959520000000000000000000, 58717741508966300000000000000000000],
    [48253886188633000000000000000000000, m 33857300476574000000000000000000000],
    [5194339221959550000000000000000000, 58717741508966300000000000000000000],
    [m 53448225410592600000000000000000000, m 24860441032392200000000000000000000],
    [m 6254696626119350000000000000000000, m 34294121393179200000000000000000000],
    [32826928640020200000000000000000000, 11730334525405500000000000000000000],
    [m 26572232013900900000000000000000000, 22563786867773800000000000000000000],
    [6254696626119350000000000000000000, m 34294121393179200000000000000000000],
    [26572232013900900000000000000000000, 22563786867773800000000000000000000],
    [m 32826928640020200000000000000000000, 11730334525405500000000000000000000],
    [m 30130814355531900000000000000000000, m 32875457338449100000000000000000000],
    [43536388393894500000000000000000000, m 9656321999378900000000000000000000],
    [m 13405574038362500000000000000000000, 42531779337828100000000000000000000],
    [30130814355531900000000000000000000, m 32875457338449100000000000000000000],
    [13405574038362600000000000000000000, 42531779337828100000000000000000000],
    [m 43536388393894500000000000000000000, m 9656321999378860000000000000000000],
    [m 5551115123125780000, m 6878137107838080000000000000000000],
    [5956641466100220000000000000000000, 3439068553919060000000000000000000],
    [m 5956641466100220000000000000000000, 3439068553919080000000000000000000],
    [m 35231165502281600000000000000000000, m 51594631133528100000000000000000000],
    [62297844011663700000000000000000000, m 4713768763145720000000000000000000],
    [m 27066678509382000000000000000000000, 56308399896673900000000000000000000],
    [35231165502281600000000000000000000, m 51594631133528100000000000000000000],
    [27066678509382100000000000000000000, 56308399896673900000000000000000000],
    [m 62297844011663700000000000000000000, m 4713768763145680000000000000000000],
    [m 346944695195361000, m 56039688938398600000000000000000000],
    [48531794240831000000000000000000000, 28019844469199300000000000000000000],
    [m 48531794240831000000000000000000000, 28019844469199400000000000000000000],
    [m 12800312652182800000000000000000000, m 51600357027661400000000000000000000],
    [51087376356393100000000000000000000, 14714782580657000000000000000000000],
    [m 38287063704210200000000000000000000, 36885574447004500000000000000000000],
    [12800312652182800000000000000000000, m 51600357027661400000000000000000000],
    [38287063704210300000000000000000000, 36885574447004400000000000000000000],
    [m 51087376356393100000000000000000000, 14714782580657100000000000000000000],
    [m 90127055211839600000000000000000000, m 52034879587823900000000000000000000],
    [90127055211839600000000000000000000, m 52034879587823800000000000000000000],
    [0, 104069759175648000000000000000000000],
    [m 75118628320269700000000000000000000, m 48071245484494600000000000000000000],
    [79190233941265100000000000000000000, m 41019017680547500000000000000000000],
    [m 4071605620995390000000000000000000, 89090263165042100000000000000000000],
    [75118628320269700000000000000000000, m 48071245484494600000000000000000000],
    [4071605620995470000000000000000000, 89090263165042100000000000000000000],
    [m 79190233941265200000000000000000000, m 41019017680547400000000000000000000],
    [m 67034428298913300000000000000000000, m 46654018005672200000000000000000000],
    [73920778930985400000000000000000000, m 34726508832189300000000000000000000],
    [m 6886350632072020000000000000000000, 81380526837861500000000000000000000],
    [67034428298913300000000000000000000, m 46654018005672200000000000000000000],
    [6886350632072080000000000000000000, 81380526837861500000000000000000000],
    [m 73920778930985400000000000000000000, m 34726508832189300000000000000000000],
    [m 77580876066209600000000000000000000, m 52493394350877400000000000000000000],
    [84251051071839100000000000000000000, m 40940312345751000000000000000000000],
    [m 6670175005629490000000000000000000, 93433706696628400000000000000000000],
    [77580876066209600000000000000000000, m 52493394350877400000000000000000000],
    [6670175005629540000000000000000000, 93433706696628400000000000000000000],
    [m 84251051071839200000000000000000000, m 40940312345751000000000000000000000],
    [m 5204170427930420000, m 53080573778005100000000000000000000],
    [45969125339206500000000000000000000, 26540286889002600000000000000000000],
    [m 45969125339206500000000000000000000, 26540286889002600000000000000000000],
    [m 12785487625900600000000000000000000, m 55199717395419100000000000000000000],
    [54197101359105000000000000000000000, 16527301613908100000000000000000000],
    [m 41411613733204400000000000000000000, 38672415781511100000000000000000000],
    [12785487625900500000000000000000000, m 55199717395419100000000000000000000],
    [41411613733204500000000000000000000, 38672415781511000000000000000000000],
    [m 54197101359105000000000000000000000, 16527301613908100000000000000000000],
    [m 81185485483071500000000000000000000, m 46872461897941800000000000000000000],
    [81185485483071500000000000000000000, m 46872461897941700000000000000000000],
    [0, 93744923795883600000000000000000000],
    [m 71268785841843600000000000000000000, m 55378528333018400000000000000000000],
    [83593605281512000000000000000000000, m 34031314869400000000000000000000000],
    [m 12324819439668400000000000000000000, 89409843202418500000000000000000000],
    [71268785841843500000000000000000000, m 55378528333018400000000000000000000],
    [12324819439668500000000000000000000, 89409843202418500000000000000000000],
    [m 83593605281512000000000000000000000, m 34031314869400000000000000000000000],
    [m 27040014117930200000000000000000000, m 57306164103038400000000000000000000],
    [63148600965636200000000000000000000, 5235742906701800000000000000000000],
    [m 36108586847706000000000000000000000, 52070421196336700000000000000000000],
    [27040014117930200000000000000000000, m 57306164103038400000000000000000000],
    [36108586847706100000000000000000000, 52070421196336700000000000000000000],
    [m 63148600965636300000000000000000000, 5235742906701850000000000000000000],
    [m 56576932068933500000000000000000000, m 32664706959922000000000000000000000],
    [56576932068933600000000000000000000, m 32664706959921900000000000000000000],
    [0, 65329413919844000000000000000000000],
    [m 18478688196683100000000000000000000, m 32979522157781500000000000000000000],
    [37800448091652200000000000000000000, 486747671951548000000000000000000],
    [m 19321759894969000000000000000000000, 32492774485830000000000000000000000],
    [18478688196683100000000000000000000, m 32979522157781500000000000000000000],
    [19321759894969000000000000000000000, 32492774485830000000000000000000000],
    [m 37800448091652200000000000000000000, 486747671951571000000000000000000],
    [m 95990613817521500000000000000000000, m 55420206727223500000000000000000000],
    [95990613817521500000000000000000000, m 55420206727223400000000000000000000],
    [0, 110840413454447000000000000000000000],
    [m 80938151535440200000000000000000000, m 57315735914007300000000000000000000],
    [90105959105850500000000000000000000, m 41436627408042100000000000000000000],
    [m 9167807570410270000000000000000000, 98752363322049400000000000000000000],
    [80938151535440200000000000000000000, m 57315735914007300000000000000000000],
    [9167807570410340000000000000000000, 98752363322049400000000000000000000],
    [m 90105959105850500000000000000000000, m 41436627408042000000000000000000000],
    [m 31942848667068600000000000000000000, m 23933996521344800000000000000000000],
    [36698873335107300000000000000000000, m 15696320154250900000000000000000000],
    [m 4756024668038710000000000000000000, 39630316675595700000000000000000000],
    [31942848667068600000000000000000000, m 23933996521344800000000000000000000],
    [4756024668038730000000000000000000, 39630316675595700000000000000000000],
    [m 36698873335107300000000000000000000, m 15696320154250800000000000000000000],
    [m 8546801251622780000000000000000000, m 46640357835051800000000000000000000],
    [44665135352562800000000000000000000, 15918431912524000000000000000000000],
    [m 36118334100940100000000000000000000, 30721925922527900000000000000000000],
    [8546801251622770000000000000000000, m 46640357835051800000000000000000000],
    [36118334100940100000000000000000000, 30721925922527900000000000000000000],
    [m 44665135352562800000000000000000000, 15918431912524000000000000000000000],
    [m 25825613481914200000000000000000000, m 55450865650449900000000000000000000],
    [60934665056084600000000000000000000, 5359795481569340000000000000000000],
    [m 35109051574170400000000000000000000, 50091070168880600000000000000000000],
    [25825613481914200000000000000000000, m 55450865650449900000000000000000000],
    [35109051574170400000000000000000000, 50091070168880600000000000000000000],
    [m 60934665056084600000000000000000000, 5359795481569380000000000000000000],
    [m 58279946491371400000000000000000000, m 47018294735939900000000000000000000],
    [69859010929633800000000000000000000, m 26962766824755500000000000000000000],
    [m 11579064438262400000000000000000000, 73981061560695400000000000000000000],
    [58279946491371400000000000000000000, m 47018294735939900000000000000000000],
    [11579064438262400000000000000000000, 73981061560695400000000000000000000],
    [m 69859010929633800000000000000000000, m 26962766824755400000000000000000000],
    [m 87969623175882100000000000000000000, m 57282533435858200000000000000000000],
    [93592940736525700000000000000000000, m 47542661713729100000000000000000000],
    [m 5623317560643580000000000000000000, 104825195149587000000000000000000000],
    [87969623175882100000000000000000000, m 57282533435858200000000000000000000],
    [5623317560643650000000000000000000, 104825195149587000000000000000000000],
    [m 93592940736525800000000000000000000, m 47542661713729100000000000000000000],
    [m 46561039262024700000000000000000000, m 51813075309225800000000000000000000],
    [68151959096998100000000000000000000, m 14416505172905100000000000000000000],
    [m 21590919834973400000000000000000000, 66229580482130900000000000000000000],
    [46561039262024600000000000000000000, m 51813075309225800000000000000000000],
    [21590919834973500000000000000000000, 66229580482130900000000000000000000],
    [m 68151959096998100000000000000000000, m 14416505172905100000000000000000000],
    [m 93340399559638300000000000000000000, m 57275889464282200000000000000000000],
    [96272575080237000000000000000000000, m 52197212485895500000000000000000000],
    [m 2932175520598680000000000000000000, 109473101950178000000000000000000000],
    [93340399559638300000000000000000000, m 57275889464282200000000000000000000],
    [2932175520598750000000000000000000, 109473101950178000000000000000000000],
    [m 96272575080237100000000000000000000, m 52197212485895500000000000000000000],
    [m 51396050819491800000000000000000000, m 57286153985489900000000000000000000],
    [75309290046287300000000000000000000, m 15867208671131000000000000000000000],
    [m 23913239226795500000000000000000000, 73153362656620900000000000000000000],
    [51396050819491800000000000000000000, m 57286153985489900000000000000000000],
    [23913239226795500000000000000000000, 73153362656620900000000000000000000],
    [m 75309290046287300000000000000000000, m 15867208671130900000000000000000000],
    [m 61691723863061600000000000000000000, m 55262810787321200000000000000000000],
    [78704859957883700000000000000000000, m 25795194675005400000000000000000000],
    [m 17013136094822100000000000000000000, 81058005462326700000000000000000000],
    [61691723863061600000000000000000000, m 55262810787321200000000000000000000],
    [17013136094822100000000000000000000, 81058005462326600000000000000000000],
    [m 78704859957883700000000000000000000, m 25795194675005300000000000000000000],
    [m 86363081428402200000000000000000000, m 55335026706806500000000000000000000],
    [91103079561385900000000000000000000, m 47125109112697100000000000000000000],
    [m 4739998132983690000000000000000000, 102460135819504000000000000000000000],
    [86363081428402200000000000000000000, m 55335026706806500000000000000000000],
    [4739998132983780000000000000000000, 102460135819504000000000000000000000],
    [m 91103079561385900000000000000000000, m 47125109112697000000000000000000000],
    [m 97099189034945800000000000000000000, m 57303083539166800000000000000000000],
    [98175520577573200000000000000000000, m 55438822621547100000000000000000000],
    [m 1076331542627350000000000000000000, 112741906160714000000000000000000000],
    [97099189034945800000000000000000000, m 57303083539166800000000000000000000],
    [1076331542627430000000000000000000, 112741906160714000000000000000000000],
    [m 98175520577573300000000000000000000, m 55438822621547100000000000000000000],
    [m 99230517588993900000000000000000000, m 57290766041831600000000000000000000],
    [99230517588993900000000000000000000, m 57290766041831500000000000000000000],
    [0, 114581532083663000000000000000000000],
    [m 43668327166426400000000000000000000, m 25211920444597000000000000000000000],
    [43668327166426500000000000000000000, m 25211920444596900000000000000000000],
    [0, 50423840889194000000000000000000000],
    [m 62361278877871800000000000000000000, m 40338147343700300000000000000000000],
    [66114499780180100000000000000000000, m 33837378048872700000000000000000000],
    [m 3753220902308310000000000000000000, 74175525392573000000000000000000000],
    [62361278877871700000000000000000000, m 40338147343700300000000000000000000],
    [3753220902308340000000000000000000, 74175525392573000000000000000000000],
    [m 66114499780180100000000000000000000, m 33837378048872700000000000000000000],
    [m 91989119779265400000000000000000000, m 55362560310096300000000000000000000],
    [93939943536724100000000000000000000, m 51983634445565300000000000000000000],
    [m 1950823757458730000000000000000000, 107346194755662000000000000000000000],
    [91989119779265400000000000000000000, m 55362560310096300000000000000000000],
    [1950823757458790000000000000000000, 107346194755662000000000000000000000],
    [m 93939943536724200000000000000000000, m 51983634445565200000000000000000000],
    [m 5551115123125780000, m 17054110158363000000000000000000000],
    [14769292636080700000000000000000000, 8527055079181540000000000000000000],
    [m 14769292636080600000000000000000000, 8527055079181560000000000000000000],
    [m 57692441054824300000000000000000000, m 51821251917615900000000000000000000],
    [73724741143980500000000000000000000, m 24052493601006200000000000000000000],
    [m 16032300089156200000000000000000000, 75873745518622100000000000000000000],
    [57692441054824300000000000000000000, m 51821251917615900000000000000000000],
    [16032300089156300000000000000000000, 75873745518622100000000000000000000],
    [m 73724741143980600000000000000000000, m 24052493601006200000000000000000000],
    [m 50723010453495000000000000000000000, m 55343995679985700000000000000000000],
    [73290811432551300000000000000000000, m 16255417769157400000000000000000000],
    [m 22567800979056300000000000000000000, 71599413449143100000000000000000000],
    [50723010453495000000000000000000000, m 55343995679985700000000000000000000],
    [22567800979056400000000000000000000, 71599413449143100000000000000000000],
    [m 73290811432551300000000000000000000, m 16255417769157400000000000000000000],
    [m 8439433014776330000000000000000000, m 25432761855273500000000000000000000],
    [26245134362454900000000000000000000, 5407617543303390000000000000000000],
    [m 17805701347678600000000000000000000, 20025144311970200000000000000000000],
    [8439433014776340000000000000000000, m 25432761855273500000000000000000000],
    [17805701347678600000000000000000000, 20025144311970200000000000000000000],
    [m 26245134362454900000000000000000000, 5407617543303400000000000000000000],
    [m 72274543590291700000000000000000000, m 57294781282938000000000000000000000],
    [85756007890443300000000000000000000, m 33944200154649400000000000000000000],
    [m 13481464300151600000000000000000000, 91238981437587400000000000000000000],
    [72274543590291700000000000000000000, m 57294781282938000000000000000000000],
    [13481464300151600000000000000000000, 91238981437587400000000000000000000],
    [m 85756007890443300000000000000000000, m 33944200154649300000000000000000000],
    [m 47250099165753800000000000000000000, m 46817056136138200000000000000000000],
    [64169809527174800000000000000000000, m 17511258140807600000000000000000000],
    [m 16919710361420900000000000000000000, 64328314276945900000000000000000000],
    [47250099165753800000000000000000000, m 46817056136138200000000000000000000],
    [16919710361421000000000000000000000, 64328314276945900000000000000000000],
    [m 64169809527174800000000000000000000, m 17511258140807600000000000000000000],
    [m 35080029727614000000000000000000000, m 46671221117152800000000000000000000],
    [57958477976902100000000000000000000, m 7044586351050620000000000000000000],
    [m 22878448249288100000000000000000000, 53715807468203500000000000000000000],
    [35080029727614000000000000000000000, m 46671221117152800000000000000000000],
    [22878448249288100000000000000000000, 53715807468203500000000000000000000],
    [m 57958477976902100000000000000000000, m 7044586351050590000000000000000000],
    [m 12275092202821100000000000000000000, m 15827564830985600000000000000000000],
    [19844619325089300000000000000000000, m 2716759265946540000000000000000000],
    [m 7569527122268160000000000000000000, 18544324096932300000000000000000000],
    [12275092202821200000000000000000000, m 15827564830985600000000000000000000],
    [7569527122268170000000000000000000, 18544324096932200000000000000000000],
    [m 19844619325089300000000000000000000, m 2716759265946530000000000000000000],
    [m 38479753550946700000000000000000000, m 55206358961559900000000000000000000],
    [67049986086626900000000000000000000, m 5721264625704370000000000000000000],
    [m 28570232535680200000000000000000000, 60927623587264300000000000000000000],
    [38479753550946700000000000000000000, m 55206358961559900000000000000000000],
    [28570232535680200000000000000000000, 60927623587264300000000000000000000],
    [m 67049986086626900000000000000000000, m 5721264625704310000000000000000000],
    [m 39605917796945200000000000000000000, m 57246915152619800000000000000000000],
    [69380241708933700000000000000000000, m 5676273376042830000000000000000000],
    [m 29774323911988500000000000000000000, 62923188528662700000000000000000000],
    [39605917796945200000000000000000000, m 57246915152619800000000000000000000],
    [29774323911988500000000000000000000, 62923188528662700000000000000000000],
    [m 69380241708933700000000000000000000, m 5676273376042770000000000000000000],
    [m 84481754164315800000000000000000000, m 51822758166184300000000000000000000],
    [87120702148250900000000000000000000, m 47251966179477100000000000000000000],
    [m 2638947983935110000000000000000000, 99074724345661500000000000000000000],
    [84481754164315800000000000000000000, m 51822758166184300000000000000000000],
    [2638947983935180000000000000000000, 99074724345661400000000000000000000],
    [m 87120702148251000000000000000000000, m 47251966179477100000000000000000000],
    [m 20507268425580300000000000000000000, m 24244875862514000000000000000000000],
    [31250312621327400000000000000000000, m 5637377487522030000000000000000000],
    [m 10743044195747100000000000000000000, 29882253350036100000000000000000000],
    [20507268425580300000000000000000000, m 24244875862514000000000000000000000],
    [10743044195747100000000000000000000, 29882253350036100000000000000000000],
    [m 31250312621327400000000000000000000, m 5637377487522030000000000000000000],
    [m 52353562229447900000000000000000000, m 40871265880657300000000000000000000],
    [61572335652201300000000000000000000, m 24903881928982700000000000000000000],
    [m 9218773422753410000000000000000000, 65775147809640000000000000000000000],
    [52353562229447900000000000000000000, m 40871265880657300000000000000000000],
    [9218773422753460000000000000000000, 65775147809640000000000000000000000],
    [m 61572335652201300000000000000000000, m 24903881928982600000000000000000000],
    [m 13693189087059100000000000000000000, m 57252078775710600000000000000000000],
    [56428349182762800000000000000000000, 16767389779638300000000000000000000],
    [m 42735160095703700000000000000000000, 40484688996072400000000000000000000],
    [13693189087059100000000000000000000, m 57252078775710600000000000000000000],
    [42735160095703800000000000000000000, 40484688996072300000000000000000000],
    [m 56428349182762800000000000000000000, 16767389779638400000000000000000000],
    [m 62320689311818700000000000000000000, m 57257680220856400000000000000000000],
    [80746950288936800000000000000000000, m 25342460014964100000000000000000000],
    [m 18426260977118100000000000000000000, 82600140235820600000000000000000000],
    [62320689311818700000000000000000000, m 57257680220856400000000000000000000],
    [18426260977118100000000000000000000, 82600140235820600000000000000000000],
    [m 80746950288936800000000000000000000, m 25342460014964100000000000000000000],
    [m 14379384782311700000000000000000000, m 40790874923298200000000000000000000],
    [42515626317325700000000000000000000, 7942524949375770000000000000000000],
    [m 28136241535014000000000000000000000, 32848349973922500000000000000000000],
    [14379384782311700000000000000000000, m 40790874923298200000000000000000000],
    [28136241535014000000000000000000000, 32848349973922500000000000000000000],
    [m 42515626317325700000000000000000000, 7942524949375810000000000000000000],
    [m 27449236039881100000000000000000000, m 40488358656967400000000000000000000],
    [48788565174409900000000000000000000, m 3527556396528650000000000000000000],
    [m 21339329134528800000000000000000000, 44015915053496100000000000000000000],
    [27449236039881100000000000000000000, m 40488358656967400000000000000000000],
    [21339329134528900000000000000000000, 44015915053496100000000000000000000],
    [m 48788565174409900000000000000000000, m 3527556396528610000000000000000000],
    [m 68227667429915700000000000000000000, m 51826247883638300000000000000000000],
    [78996680965018100000000000000000000, m 33173769293444000000000000000000000],
    [m 10769013535102400000000000000000000, 85000017177082400000000000000000000],
    [68227667429915700000000000000000000, m 51826247883638300000000000000000000],
    [10769013535102400000000000000000000, 85000017177082400000000000000000000],
    [m 78996680965018100000000000000000000, m 33173769293443900000000000000000000],
    [4163336342344340000, m 41416427390059700000000000000000000],
    [35867678253785300000000000000000000, 20708213695029900000000000000000000],
    [m 35867678253785300000000000000000000, 20708213695029900000000000000000000],
    [m 40313963669589500000000000000000000, m 40328359141014300000000000000000000],
    [55082365343855500000000000000000000, m 14748737094600300000000000000000000],
    [m 14768401674266000000000000000000000, 55077096235614600000000000000000000],
    [40313963669589500000000000000000000, m 40328359141014300000000000000000000],
    [14768401674266000000000000000000000, 55077096235614600000000000000000000],
    [m 55082365343855500000000000000000000, m 14748737094600200000000000000000000],
    [m 22073052548745100000000000000000000, m 47052810769116900000000000000000000],
    [51785455719889800000000000000000000, 4410581138276360000000000000000000],
    [m 29712403171144700000000000000000000, 42642229630840600000000000000000000],
    [22073052548745100000000000000000000, m 47052810769116900000000000000000000],
    [29712403171144700000000000000000000, 42642229630840600000000000000000000],
    [m 51785455719889800000000000000000000, 4410581138276400000000000000000000],
    [m 72139886135785600000000000000000000, m 41649982679804800000000000000000000],
    [72139886135785600000000000000000000, m 41649982679804700000000000000000000],
    [0, 83299965359609600000000000000000000],
    [m 24254520205272800000000000000000000, m 14003353769579400000000000000000000],
    [24254520205272800000000000000000000, m 14003353769579400000000000000000000],
    [5551115123125780000, 28006707539158900000000000000000000]],
   [533465685138539000000000000000000, 533465685138539000000000000000000, 533465685138539000000000000000000,
    430821349358293000000000000000000, 430821349358293000000000000000000, 430821349358293000000000000000000,
    677688839793802000000000000000000, 677688839793802000000000000000000, 677688839793802000000000000000000,
    677688839793802000000000000000000, 677688839793802000000000000000000, 677688839793802000000000000000000,
    105415335310234000000000000000000, 105415335310234000000000000000000, 105415335310234000000000000000000,
    1018113725314390000000000000000000, 1018113725314390000000000000000000, 1018113725314390000000000000000000,
    460302854938874000000000000000000, 460302854938874000000000000000000, 460302854938874000000000000000000,
    460302854938874000000000000000000, 460302854938874000000000000000000, 460302854938874000000000000000000,
    180200116486766000000000000000000, 180200116486766000000000000000000, 180200116486766000000000000000000,
    180200116486766000000000000000000, 180200116486766000000000000000000, 180200116486766000000000000000000,
    670099669470056000000000000000000, 670099669470056000000000000000000, 670099669470056000000000000000000,
    670099669470056000000000000000000, 670099669470056000000000000000000, 670099669470056000000000000000000,
    941544191053222000000000000000000, 941544191053222000000000000000000, 941544191053222000000000000000000,
    941544191053222000000000000000000, 941544191053222000000000000000000, 941544191053222000000000000000000,
    889065330170922000000000000000000, 889065330170922000000000000000000, 889065330170922000000000000000000,
    889065330170922000000000000000000, 889065330170922000000000000000000, 889065330170922000000000000000000,
    1189657186123020000000000000000000, 1189657186123020000000000000000000, 1189657186123020000000000000000000,
    471963971581958000000000000000000, 471963971581958000000000000000000, 471963971581958000000000000000000,
    471963971581958000000000000000000, 471963971581958000000000000000000, 471963971581958000000000000000000,
    279606216548857000000000000000000, 279606216548857000000000000000000, 279606216548857000000000000000000,
    533805558284129000000000000000000, 533805558284129000000000000000000, 533805558284129000000000000000000,
    533805558284129000000000000000000, 533805558284129000000000000000000, 533805558284129000000000000000000,
    187688910371867000000000000000000, 187688910371867000000000000000000, 187688910371867000000000000000000,
    380360896683890000000000000000000, 380360896683890000000000000000000, 380360896683890000000000000000000,
    380360896683890000000000000000000, 380360896683890000000000000000000, 380360896683890000000000000000000,
    468895880656517000000000000000000, 468895880656517000000000000000000, 468895880656517000000000000000000,
    468895880656517000000000000000000, 468895880656517000000000000000000, 468895880656517000000000000000000,
    307136007538708000000000000000000, 307136007538708000000000000000000, 307136007538708000000000000000000,
    307136007538708000000000000000000, 307136007538708000000000000000000, 307136007538708000000000000000000,
    470529800238637000000000000000000, 470529800238637000000000000000000, 470529800238637000000000000000000,
    367092499161804000000000000000000, 367092499161804000000000000000000, 367092499161804000000000000000000,
    367092499161804000000000000000000, 367092499161804000000000000000000, 367092499161804000000000000000000,
    350624120673057000000000000000000, 350624120673057000000000000000000, 350624120673057000000000000000000,
    239415464262243000000000000000000, 239415464262243000000000000000000, 239415464262243000000000000000000,
    239415464262243000000000000000000, 239415464262243000000000000000000, 239415464262243000000000000000000,
    143548837941873000000000000000000, 143548837941873000000000000000000, 143548837941873000000000000000000,
    143548837941873000000000000000000, 143548837941873000000000000000000, 143548837941873000000000000000000,
    735330378735815000000000000000000, 735330378735815000000000000000000, 735330378735815000000000000000000,
    997822340752419000000000000000000, 997822340752419000000000000000000, 997822340752419000000000000000000,
    997822340752419000000000000000000, 997822340752419000000000000000000, 997822340752419000000000000000000,
    81770483322343300000000000000000, 81770483322343300000000000000000, 81770483322343300000000000000000,
    84288633702724000000000000000000, 84288633702724000000000000000000, 84288633702724000000000000000000,
    84288633702724000000000000000000, 84288633702724000000000000000000, 84288633702724000000000000000000,
    1049825544033120000000000000000000, 1049825544033120000000000000000000, 1049825544033120000000000000000000,
    1049825544033120000000000000000000, 1049825544033120000000000000000000, 1049825544033120000000000000000000,
    685746688671062000000000000000000, 685746688671062000000000000000000, 685746688671062000000000000000000,
    685746688671062000000000000000000, 685746688671062000000000000000000, 685746688671062000000000000000000,
    338015008501492000000000000000000, 338015008501492000000000000000000, 338015008501492000000000000000000,
    338015008501492000000000000000000, 338015008501492000000000000000000, 338015008501492000000000000000000,
    550075783983988000000000000000000, 550075783983988000000000000000000, 550075783983988000000000000000000,
    550075783983988000000000000000000, 550075783983988000000000000000000, 550075783983988000000000000000000,
    72359709641924100000000000000000, 72359709641924100000000000000000, 72359709641924100000000000000000,
    72359709641924100000000000000000, 72359709641924100000000000000000, 72359709641924100000000000000000,
    485632147870856000000000000000000, 485632147870856000000000000000000, 485632147870856000000000000000000,
    485632147870856000000000000000000, 485632147870856000000000000000000, 485632147870856000000000000000000,
    53248836370274000000000000000000, 53248836370274000000000000000000, 53248836370274000000000000000000,
    53248836370274000000000000000000, 53248836370274000000000000000000, 53248836370274000000000000000000,
    131297743323075000000000000000000, 131297743323075000000000000000000, 131297743323075000000000000000000,
    131297743323075000000000000000000, 131297743323075000000000000000000, 131297743323075000000000000000000,
    282074898739942000000000000000000, 282074898739942000000000000000000, 282074898739942000000000000000000,
    282074898739942000000000000000000, 282074898739942000000000000000000, 282074898739942000000000000000000,
    173479007212991000000000000000000, 173479007212991000000000000000000, 173479007212991000000000000000000,
    173479007212991000000000000000000, 173479007212991000000000000000000, 173479007212991000000000000000000,
    32857611634505100000000000000000, 32857611634505100000000000000000, 32857611634505100000000000000000,
    32857611634505100000000000000000, 32857611634505100000000000000000, 32857611634505100000000000000000,
    14849317867335100000000000000000, 14849317867335100000000000000000, 14849317867335100000000000000000,
    924096796539964000000000000000000, 924096796539964000000000000000000, 924096796539964000000000000000000,
    679413161845793000000000000000000, 679413161845793000000000000000000, 679413161845793000000000000000000,
    679413161845793000000000000000000, 679413161845793000000000000000000, 679413161845793000000000000000000,
    127351538279031000000000000000000, 127351538279031000000000000000000, 127351538279031000000000000000000,
    127351538279031000000000000000000, 127351538279031000000000000000000, 127351538279031000000000000000000,
    1203720036159540000000000000000000, 1203720036159540000000000000000000, 1203720036159540000000000000000000,
    455139667979184000000000000000000, 455139667979184000000000000000000, 455139667979184000000000000000000,
    455139667979184000000000000000000, 455139667979184000000000000000000, 455139667979184000000000000000000,
    318980351669853000000000000000000, 318980351669853000000000000000000, 318980351669853000000000000000000,
    318980351669853000000000000000000, 318980351669853000000000000000000, 318980351669853000000000000000000,
    1026245779878170000000000000000000, 1026245779878170000000000000000000, 1026245779878170000000000000000000,
    1026245779878170000000000000000000, 1026245779878170000000000000000000, 1026245779878170000000000000000000,
    106060198373818000000000000000000, 106060198373818000000000000000000, 106060198373818000000000000000000,
    106060198373818000000000000000000, 106060198373818000000000000000000, 106060198373818000000000000000000,
    662503102985925000000000000000000, 662503102985925000000000000000000, 662503102985925000000000000000000,
    662503102985925000000000000000000, 662503102985925000000000000000000, 662503102985925000000000000000000,
    715043092991155000000000000000000, 715043092991155000000000000000000, 715043092991155000000000000000000,
    715043092991155000000000000000000, 715043092991155000000000000000000, 715043092991155000000000000000000,
    1159093950217470000000000000000000, 1159093950217470000000000000000000, 1159093950217470000000000000000000,
    1159093950217470000000000000000000, 1159093950217470000000000000000000, 1159093950217470000000000000000000,
    354599808235400000000000000000000, 354599808235400000000000000000000, 354599808235400000000000000000000,
    354599808235400000000000000000000, 354599808235400000000000000000000, 354599808235400000000000000000000,
    152076776615603000000000000000000, 152076776615603000000000000000000, 152076776615603000000000000000000,
    152076776615603000000000000000000, 152076776615603000000000000000000, 152076776615603000000000000000000,
    273280398874755000000000000000000, 273280398874755000000000000000000, 273280398874755000000000000000000,
    273280398874755000000000000000000, 273280398874755000000000000000000, 273280398874755000000000000000000,
    1092479946331640000000000000000000, 1092479946331640000000000000000000, 1092479946331640000000000000000000,
    1092479946331640000000000000000000, 1092479946331640000000000000000000, 1092479946331640000000000000000000,
    740042925250608000000000000000000, 740042925250608000000000000000000, 740042925250608000000000000000000,
    740042925250608000000000000000000, 740042925250608000000000000000000, 740042925250608000000000000000000,
    167980755876417000000000000000000, 167980755876417000000000000000000, 167980755876417000000000000000000,
    167980755876417000000000000000000, 167980755876417000000000000000000, 167980755876417000000000000000000,
    127828514134713000000000000000000, 127828514134713000000000000000000, 127828514134713000000000000000000,
    127828514134713000000000000000000, 127828514134713000000000000000000, 127828514134713000000000000000000,
    911384585914049000000000000000000, 911384585914049000000000000000000, 911384585914049000000000000000000,
    911384585914049000000000000000000, 911384585914049000000000000000000, 911384585914049000000000000000000,
    918034035463041000000000000000000, 918034035463041000000000000000000, 918034035463041000000000000000000,
    918034035463041000000000000000000, 918034035463041000000000000000000, 918034035463041000000000000000000,
    425357212308250000000000000000000, 425357212308250000000000000000000, 425357212308250000000000000000000,
    425357212308250000000000000000000, 425357212308250000000000000000000, 425357212308250000000000000000000,
    923668993501326000000000000000000, 923668993501326000000000000000000, 923668993501326000000000000000000,
    875657406768648000000000000000000, 875657406768648000000000000000000, 875657406768648000000000000000000,
    875657406768648000000000000000000, 875657406768648000000000000000000, 875657406768648000000000000000000,
    768024404899661000000000000000000, 768024404899661000000000000000000, 768024404899661000000000000000000,
    768024404899661000000000000000000, 768024404899661000000000000000000, 768024404899661000000000000000000,
    569967023739828000000000000000000, 569967023739828000000000000000000, 569967023739828000000000000000000,
    1266858185306930000000000000000000, 1266858185306930000000000000000000, 1266858185306930000000000000000000]⟩

/-- `triangle_table_orig[44]` (xg_quad_data.py 10726-11439). -/
def xgTri_44 : XgTableRule :=
  ⟨[
    [m 99486307726010800000000000000000000, m 57438446546294400000000000000000000],
    [99486307726010900000000000000000000, m 57438446546294300000000000000000000],
    [0, 114876893092589000000000000000000000],
    [m 94973294521187600000000000000000000, m 55871908439467900000000000000000000],
    [95873139327091200000000000000000000, m 54313331516716000000000000000000000],
    [m 899844805903505000000000000000000, 110185239956184000000000000000000000],
    [94973294521187600000000000000000000, m 55871908439467900000000000000000000],
    [899844805903571000000000000000000, 110185239956184000000000000000000000],
    [m 95873139327091200000000000000000000, m 54313331516715900000000000000000000],
    [m 80018625133644900000000000000000000, m 57599825475139300000000000000000000],
    [89892224681843100000000000000000000, m 40498249404070800000000000000000000],
    [m 9873599548198230000000000000000000, 98098074879210100000000000000000000],
    [80018625133644900000000000000000000, m 57599825475139300000000000000000000],
    [9873599548198310000000000000000000, 98098074879210100000000000000000000],
    [m 89892224681843200000000000000000000, m 40498249404070700000000000000000000],
    [m 69107257757678200000000000000000000, m 57399297810269000000000000000000000],
    [84262878941920500000000000000000000, m 31148991898894000000000000000000000],
    [m 15155621184242300000000000000000000, 88548289709163000000000000000000000],
    [69107257757678200000000000000000000, m 57399297810269000000000000000000000],
    [15155621184242300000000000000000000, 88548289709163000000000000000000000],
    [m 84262878941920500000000000000000000, m 31148991898894000000000000000000000],
    [m 7699895351147680000000000000000000, m 57425657966379900000000000000000000],
    [53582026303495000000000000000000000, 22044524002614400000000000000000000],
    [m 45882130952347300000000000000000000, 35381133963765600000000000000000000],
    [7699895351147680000000000000000000, m 57425657966379900000000000000000000],
    [45882130952347400000000000000000000, 35381133963765600000000000000000000],
    [m 53582026303495000000000000000000000, 22044524002614400000000000000000000],
    [m 93896165397605800000000000000000000, m 57431186206544600000000000000000000],
    [96684948923145000000000000000000000, m 52600871448999700000000000000000000],
    [m 2788783525539130000000000000000000, 110032057655544000000000000000000000],
    [93896165397605900000000000000000000, m 57431186206544600000000000000000000],
    [2788783525539200000000000000000000, 110032057655544000000000000000000000],
    [m 96684948923145000000000000000000000, m 52600871448999700000000000000000000],
    [m 33180145609071600000000000000000000, m 57645428924943100000000000000000000],
    [66512478665586800000000000000000000, 87865463748826300000000000000000],
    [m 33332333056515200000000000000000000, 57557563461194300000000000000000000],
    [33180145609071600000000000000000000, m 57645428924943100000000000000000000],
    [33332333056515200000000000000000000, 57557563461194300000000000000000000],
    [m 66512478665586800000000000000000000, 87865463748848500000000000000000],
    [m 91249794560409800000000000000000000, m 52683093452950700000000000000000000],
    [91249794560409800000000000000000000, m 52683093452950600000000000000000000],
    [0, 105366186905901000000000000000000000],
    [m 85135003626309200000000000000000000, m 49152717261109400000000000000000000],
    [85135003626309300000000000000000000, m 49152717261109400000000000000000000],
    [0, 98305434522218900000000000000000000],
    [m 75360075461947000000000000000000000, m 56428043735894600000000000000000000],
    [86548157092117600000000000000000000, m 37049717913211100000000000000000000],
    [m 11188081630170500000000000000000000, 93477761649105800000000000000000000],
    [75360075461947000000000000000000000, m 56428043735894600000000000000000000],
    [11188081630170600000000000000000000, 93477761649105800000000000000000000],
    [m 86548157092117600000000000000000000, m 37049717913211100000000000000000000],
    [m 64188384014833700000000000000000000, m 55744459482502200000000000000000000],
    [80370310039496100000000000000000000, m 27716541443465900000000000000000000],
    [m 16181926024662300000000000000000000, 83461000925968100000000000000000000],
    [64188384014833700000000000000000000, m 55744459482502200000000000000000000],
    [16181926024662400000000000000000000, 83461000925968100000000000000000000],
    [m 80370310039496100000000000000000000, m 27716541443465800000000000000000000],
    [m 85694130550738200000000000000000000, m 53532557635426900000000000000000000],
    [89207620117203400000000000000000000, m 47447015194446000000000000000000000],
    [m 3513489566465170000000000000000000, 100979572829873000000000000000000000],
    [85694130550738200000000000000000000, m 53532557635426900000000000000000000],
    [3513489566465240000000000000000000, 100979572829873000000000000000000000],
    [m 89207620117203500000000000000000000, m 47447015194446000000000000000000000],
    [m 47130997744185400000000000000000000, m 56038016659278800000000000000000000],
    [72095844876723800000000000000000000, m 12797633022532200000000000000000000],
    [m 24964847132538300000000000000000000, 68835649681811100000000000000000000],
    [47130997744185400000000000000000000, m 56038016659278800000000000000000000],
    [24964847132538400000000000000000000, 68835649681811100000000000000000000],
    [m 72095844876723800000000000000000000, m 12797633022532200000000000000000000],
    [m 45877109010955600000000000000000000, m 57406084346393200000000000000000000],
    [72653681881246600000000000000000000, m 11027699682478900000000000000000000],
    [m 26776572870290900000000000000000000, 68433784028872200000000000000000000],
    [45877109010955600000000000000000000, m 57406084346393200000000000000000000],
    [26776572870291000000000000000000000, 68433784028872200000000000000000000],
    [m 72653681881246600000000000000000000, m 11027699682478900000000000000000000],
    [m 34546849932194300000000000000000000, m 56405733374695800000000000000000000],
    [66122222987675500000000000000000000, m 1715582974661020000000000000000000],
    [m 31575373055481200000000000000000000, 58121316349356900000000000000000000],
    [34546849932194300000000000000000000, m 56405733374695800000000000000000000],
    [31575373055481200000000000000000000, 58121316349356900000000000000000000],
    [m 66122222987675500000000000000000000, m 1715582974660980000000000000000000],
    [m 57849757682184600000000000000000000, m 57266125378210100000000000000000000],
    [78518798194927000000000000000000000, m 21466297066440800000000000000000000],
    [m 20669040512742400000000000000000000, 78732422444651000000000000000000000],
    [57849757682184600000000000000000000, m 57266125378210100000000000000000000],
    [20669040512742400000000000000000000, 78732422444651000000000000000000000],
    [m 78518798194927100000000000000000000, m 21466297066440800000000000000000000],
    [m 97570612866935100000000000000000000, m 57266265284717800000000000000000000],
    [98379346949892100000000000000000000, m 55865496763223700000000000000000000],
    [m 808734082956919000000000000000000, 113131762047942000000000000000000000],
    [97570612866935100000000000000000000, m 57266265284717800000000000000000000],
    [808734082957008000000000000000000, 113131762047942000000000000000000000],
    [m 98379346949892100000000000000000000, m 55865496763223700000000000000000000],
    [m 90622174591700300000000000000000000, m 55922828226421000000000000000000000],
    [93741677191404200000000000000000000, m 50519691229390600000000000000000000],
    [m 3119502599703900000000000000000000, 106442519455812000000000000000000000],
    [90622174591700300000000000000000000, m 55922828226421000000000000000000000],
    [3119502599703970000000000000000000, 106442519455812000000000000000000000],
    [m 93741677191404200000000000000000000, m 50519691229390600000000000000000000],
    [m 69988559087811600000000000000000000, m 54008890216001400000000000000000000],
    [81767350501167800000000000000000000, m 33607425036312400000000000000000000],
    [m 11778791413356200000000000000000000, 87616315252313800000000000000000000],
    [69988559087811600000000000000000000, m 54008890216001400000000000000000000],
    [11778791413356300000000000000000000, 87616315252313800000000000000000000],
    [m 81767350501167800000000000000000000, m 33607425036312300000000000000000000],
    [1734723475976810000, m 53482489050026500000000000000000000],
    [46317194174946000000000000000000000, 26741244525013300000000000000000000],
    [m 46317194174946000000000000000000000, 26741244525013300000000000000000000],
    [m 78289394945399000000000000000000000, m 53781701381072300000000000000000000],
    [85721017127456700000000000000000000, m 40909754179092400000000000000000000],
    [m 7431622182057660000000000000000000, 94691455560164700000000000000000000],
    [78289394945399000000000000000000000, m 53781701381072300000000000000000000],
    [7431622182057750000000000000000000, 94691455560164700000000000000000000],
    [m 85721017127456700000000000000000000, m 40909754179092400000000000000000000],
    [m 59766185021726900000000000000000000, m 40399184944683200000000000000000000],
    [64869812965144900000000000000000000, m 31559442043754900000000000000000000],
    [m 5103627943418030000000000000000000, 71958626988438100000000000000000000],
    [59766185021726900000000000000000000, m 40399184944683200000000000000000000],
    [5103627943418080000000000000000000, 71958626988438100000000000000000000],
    [m 64869812965145000000000000000000000, m 31559442043754800000000000000000000],
    [m 4336808689942020000, m 56370795967774900000000000000000000],
    [48818541339642500000000000000000000, 28185397983887500000000000000000000],
    [m 48818541339642500000000000000000000, 28185397983887500000000000000000000],
    [m 20897563939305600000000000000000000, m 57187773422212600000000000000000000],
    [59974846539157500000000000000000000, 10496065462458100000000000000000000],
    [m 39077282599851900000000000000000000, 46691707959754600000000000000000000],
    [20897563939305500000000000000000000, m 57187773422212600000000000000000000],
    [39077282599851900000000000000000000, 46691707959754600000000000000000000],
    [m 59974846539157500000000000000000000, 10496065462458100000000000000000000],
    [m 70115750588451500000000000000000000, m 50188901524063700000000000000000000],
    [78522739002100500000000000000000000, m 35627570452980900000000000000000000],
    [m 8406988413648930000000000000000000, 85816471977044700000000000000000000],
    [70115750588451600000000000000000000, m 50188901524063700000000000000000000],
    [8406988413649000000000000000000000, 85816471977044700000000000000000000],
    [m 78522739002100500000000000000000000, m 35627570452980800000000000000000000],
    [m 50649905192005600000000000000000000, m 46855084603527700000000000000000000],
    [65902646159126900000000000000000000, m 20436562293786300000000000000000000],
    [m 15252740967121300000000000000000000, 67291646897314100000000000000000000],
    [50649905192005600000000000000000000, m 46855084603527700000000000000000000],
    [15252740967121300000000000000000000, 67291646897314100000000000000000000],
    [m 65902646159126900000000000000000000, m 20436562293786300000000000000000000],
    [m 60426103887101200000000000000000000, m 51726337139424800000000000000000000],
    [75009373951010900000000000000000000, m 26467372448234900000000000000000000],
    [m 14583270063909700000000000000000000, 78193709587659700000000000000000000],
    [60426103887101200000000000000000000, m 51726337139424800000000000000000000],
    [14583270063909800000000000000000000, 78193709587659600000000000000000000],
    [m 75009373951010900000000000000000000, m 26467372448234800000000000000000000],
    [m 24265290673251200000000000000000000, m 54972035955015900000000000000000000],
    [59739824971420900000000000000000000, 6471659824258810000000000000000000],
    [m 35474534298169700000000000000000000, 48500376130757200000000000000000000],
    [24265290673251200000000000000000000, m 54972035955015900000000000000000000],
    [35474534298169700000000000000000000, 48500376130757100000000000000000000],
    [m 59739824971420900000000000000000000, 6471659824258850000000000000000000],
    [m 48562561574984800000000000000000000, m 51401663459673300000000000000000000],
    [68796427140347800000000000000000000, m 16355580266946300000000000000000000],
    [m 20233865565363000000000000000000000, 67757243726619600000000000000000000],
    [48562561574984800000000000000000000, m 51401663459673300000000000000000000],
    [20233865565363000000000000000000000, 67757243726619600000000000000000000],
    [m 68796427140347800000000000000000000, m 16355580266946200000000000000000000],
    [m 77021165318447800000000000000000000, m 44468190529904600000000000000000000],
    [77021165318447900000000000000000000, m 44468190529904500000000000000000000],
    [0, 88936381059809100000000000000000000],
    [m 7004374206319490000000000000000000, m 36453795236256500000000000000000000],
    [35072099842114100000000000000000000, 12160931617843100000000000000000000],
    [m 28067725635794600000000000000000000, 24292863618413500000000000000000000],
    [7004374206319500000000000000000000, m 36453795236256500000000000000000000],
    [28067725635794600000000000000000000, 24292863618413400000000000000000000],
    [m 35072099842114100000000000000000000, 12160931617843200000000000000000000],
    [m 37576157116436600000000000000000000, m 36593408295516400000000000000000000],
    [50478899753191700000000000000000000, m 14245202491671300000000000000000000],
    [m 12902742636755100000000000000000000, 50838610787187700000000000000000000],
    [37576157116436600000000000000000000, m 36593408295516400000000000000000000],
    [12902742636755100000000000000000000, 50838610787187700000000000000000000],
    [m 50478899753191700000000000000000000, m 14245202491671300000000000000000000],
    [m 29198719226118900000000000000000000, m 42522790652738500000000000000000000],
    [51425176558138500000000000000000000, m 4025437281418860000000000000000000],
    [m 22226457332019500000000000000000000, 46548227934157400000000000000000000],
    [29198719226118900000000000000000000, m 42522790652738500000000000000000000],
    [22226457332019500000000000000000000, 46548227934157400000000000000000000],
    [m 51425176558138500000000000000000000, m 4025437281418830000000000000000000],
    [m 9994102280758130000000000000000000, m 46358726159912600000000000000000000],
    [45144885681949600000000000000000000, 14524216616799800000000000000000000],
    [m 35150783401191500000000000000000000, 31834509543112900000000000000000000],
    [9994102280758140000000000000000000, m 46358726159912600000000000000000000],
    [35150783401191500000000000000000000, 31834509543112900000000000000000000],
    [m 45144885681949600000000000000000000, 14524216616799800000000000000000000],
    [m 2775557561562890000, m 49404502025994900000000000000000000],
    [42785553815831400000000000000000000, 24702251012997500000000000000000000],
    [m 42785553815831400000000000000000000, 24702251012997500000000000000000000],
    [m 78572545778343200000000000000000000, m 49816065133597200000000000000000000],
    [82428250811447000000000000000000000, m 43137788117262300000000000000000000],
    [m 3855705033103800000000000000000000, 92953853250859600000000000000000000],
    [78572545778343200000000000000000000, m 49816065133597200000000000000000000],
    [3855705033103860000000000000000000, 92953853250859600000000000000000000],
    [m 82428250811447000000000000000000000, m 43137788117262300000000000000000000],
    [m 37216202532394300000000000000000000, m 48589207870643400000000000000000000],
    [60687589631937100000000000000000000, m 7935572890118490000000000000000000],
    [m 23471387099542800000000000000000000, 56524780760761900000000000000000000],
    [37216202532394300000000000000000000, m 48589207870643400000000000000000000],
    [23471387099542800000000000000000000, 56524780760761900000000000000000000],
    [m 60687589631937100000000000000000000, m 7935572890118440000000000000000000],
    [m 67271337412828700000000000000000000, m 38839124764042800000000000000000000],
    [67271337412828700000000000000000000, m 38839124764042800000000000000000000],
    [m 11102230246251600000, 77678249528085600000000000000000000],
    [m 28245292263573700000000000000000000, m 51973756971523800000000000000000000],
    [59133239999245000000000000000000000, 1525737848191080000000000000000000],
    [m 30887947735671400000000000000000000, 50448019123332800000000000000000000],
    [28245292263573700000000000000000000, m 51973756971523800000000000000000000],
    [30887947735671400000000000000000000, 50448019123332800000000000000000000],
    [m 59133239999245000000000000000000000, 1525737848191110000000000000000000],
    [m 30625898891847700000000000000000000, m 17681870969382500000000000000000000],
    [30625898891847700000000000000000000, m 17681870969382500000000000000000000],
    [0, 35363741938765100000000000000000000],
    [m 41227540532904800000000000000000000, m 23802731624698800000000000000000000],
    [41227540532904800000000000000000000, m 23802731624698800000000000000000000],
    [0, 47605463249397700000000000000000000],
    [m 39534637758000200000000000000000000, m 53735556857670200000000000000000000],
    [66303676204245600000000000000000000, m 7370222199008490000000000000000000],
    [m 26769038446245400000000000000000000, 61105779056678800000000000000000000],
    [39534637758000200000000000000000000, m 53735556857670200000000000000000000],
    [26769038446245500000000000000000000, 61105779056678800000000000000000000],
    [m 66303676204245600000000000000000000, m 7370222199008440000000000000000000],
    [m 83611081767915400000000000000000000, m 56278004494697800000000000000000000],
    [90543722450660800000000000000000000, m 44270318601563700000000000000000000],
    [m 6932640682745420000000000000000000, 100548323096262000000000000000000000],
    [83611081767915300000000000000000000, m 56278004494697800000000000000000000],
    [6932640682745480000000000000000000, 100548323096262000000000000000000000],
    [m 90543722450660800000000000000000000, m 44270318601563700000000000000000000],
    [m 88143653771324700000000000000000000, m 57413585189482800000000000000000000],
    [93793450182096500000000000000000000, m 47627850753605900000000000000000000],
    [m 5649796410771720000000000000000000, 105041435943089000000000000000000000],
    [88143653771324800000000000000000000, m 57413585189482800000000000000000000],
    [5649796410771790000000000000000000, 105041435943089000000000000000000000],
    [m 93793450182096500000000000000000000, m 47627850753605800000000000000000000],
    [m 14066634371847200000000000000000000, m 31431891785362100000000000000000000],
    [34254133961050600000000000000000000, 3533883180914050000000000000000000],
    [m 20187499589203400000000000000000000, 27898008604448100000000000000000000],
    [14066634371847200000000000000000000, m 31431891785362100000000000000000000],
    [20187499589203400000000000000000000, 27898008604448100000000000000000000],
    [m 34254133961050600000000000000000000, 3533883180914080000000000000000000],
    [m 46509878666065200000000000000000000, m 32326907390170400000000000000000000],
    [51250862358707000000000000000000000, m 24115282756659200000000000000000000],
    [m 4740983692641820000000000000000000, 56442190146829600000000000000000000],
    [46509878666065200000000000000000000, m 32326907390170400000000000000000000],
    [4740983692641860000000000000000000, 56442190146829600000000000000000000],
    [m 51250862358707000000000000000000000, m 24115282756659100000000000000000000],
    [m 69645236705236700000000000000000000, m 45080962943894200000000000000000000],
    [73863877489095600000000000000000000, m 37774062767368300000000000000000000],
    [m 4218640783858920000000000000000000, 82855025711262500000000000000000000],
    [69645236705236700000000000000000000, m 45080962943894200000000000000000000],
    [4218640783858960000000000000000000, 82855025711262500000000000000000000],
    [m 73863877489095700000000000000000000, m 37774062767368300000000000000000000],
    [m 41138164770629900000000000000000000, m 43303490462420200000000000000000000],
    [58071005198308000000000000000000000, m 13974950525225400000000000000000000],
    [m 16932840427678100000000000000000000, 57278440987645600000000000000000000],
    [41138164770629900000000000000000000, m 43303490462420200000000000000000000],
    [16932840427678100000000000000000000, 57278440987645600000000000000000000],
    [m 58071005198307900000000000000000000, m 13974950525225400000000000000000000],
    [m 16105364465857600000000000000000000, m 40818069444179600000000000000000000],
    [43402167305025800000000000000000000, 6461379957449960000000000000000000],
    [m 27296802839168100000000000000000000, 34356689486729800000000000000000000],
    [16105364465857600000000000000000000, m 40818069444179600000000000000000000],
    [27296802839168200000000000000000000, 34356689486729700000000000000000000],
    [m 43402167305025700000000000000000000, 6461379957449990000000000000000000],
    [m 50285099429352300000000000000000000, m 40046029669655400000000000000000000],
    [59823428729303100000000000000000000, m 23525158702817700000000000000000000],
    [m 9538329299950800000000000000000000, 63571188372473200000000000000000000],
    [50285099429352300000000000000000000, m 40046029669655400000000000000000000],
    [9538329299950840000000000000000000, 63571188372473200000000000000000000],
    [m 59823428729303100000000000000000000, m 23525158702817700000000000000000000],
    [m 54485551979992700000000000000000000, m 54800911607893100000000000000000000],
    [74701757592977300000000000000000000, m 19785416349944700000000000000000000],
    [m 20216205612984600000000000000000000, 74586327957837900000000000000000000],
    [54485551979992700000000000000000000, m 54800911607893100000000000000000000],
    [20216205612984600000000000000000000, 74586327957837800000000000000000000],
    [m 74701757592977400000000000000000000, m 19785416349944600000000000000000000],
    [m 60589364243453700000000000000000000, m 46544694446254500000000000000000000],
    [70603569923567700000000000000000000, m 29199581410852200000000000000000000],
    [m 10014205680114000000000000000000000, 75744275857106800000000000000000000],
    [60589364243453800000000000000000000, m 46544694446254500000000000000000000],
    [10014205680114000000000000000000000, 75744275857106800000000000000000000],
    [m 70603569923567800000000000000000000, m 29199581410852200000000000000000000],
    [m 10819273327684500000000000000000000, m 24082406970480100000000000000000000],
    [26265612884553400000000000000000000, 2671437932977920000000000000000000],
    [m 15446339556869000000000000000000000, 21410969037502200000000000000000000],
    [10819273327684500000000000000000000, m 24082406970480100000000000000000000],
    [15446339556869000000000000000000000, 21410969037502200000000000000000000],
    [m 26265612884553400000000000000000000, 2671437932977930000000000000000000],
    [m 22950375210735400000000000000000000, m 47552371620673900000000000000000000],
    [52656749439069500000000000000000000, 3900577851455470000000000000000000],
    [m 29706374228334100000000000000000000, 43651793769218500000000000000000000],
    [22950375210735400000000000000000000, m 47552371620673900000000000000000000],
    [29706374228334100000000000000000000, 43651793769218500000000000000000000],
    [m 52656749439069500000000000000000000, 3900577851455500000000000000000000],
    [m 5898196614388810000000000000000000, m 15544871499606600000000000000000000],
    [16411351924418500000000000000000000, 2664447645227250000000000000000000],
    [m 10513155310029600000000000000000000, 12880423854379400000000000000000000],
    [5898196614388820000000000000000000, m 15544871499606600000000000000000000],
    [10513155310029600000000000000000000, 12880423854379400000000000000000000],
    [m 16411351924418400000000000000000000, 2664447645227260000000000000000000],
    [m 2775557561562890000, m 30826511953903800000000000000000000],
    [26696542462145400000000000000000000, 15413255976951900000000000000000000],
    [m 26696542462145400000000000000000000, 15413255976952000000000000000000000],
    [m 2775557561562890000, m 42105606635216100000000000000000000],
    [36464524987851800000000000000000000, 21052803317608100000000000000000000],
    [m 36464524987851800000000000000000000, 21052803317608100000000000000000000],
    [m 23246536294444500000000000000000000, m 25497063954571600000000000000000000],
    [33704373253797700000000000000000000, m 7383559003700060000000000000000000],
    [m 10457836959353300000000000000000000, 32880622958271700000000000000000000],
    [23246536294444500000000000000000000, m 25497063954571600000000000000000000],
    [10457836959353300000000000000000000, 32880622958271700000000000000000000],
    [m 33704373253797800000000000000000000, m 7383559003700050000000000000000000],
    [m 56829964137873700000000000000000000, m 32810795093038200000000000000000000],
    [56829964137873700000000000000000000, m 32810795093038200000000000000000000],
    [0, 65621590186076400000000000000000000],
    [m 18191711081321600000000000000000000, m 16450380098391000000000000000000000],
    [23342302607777400000000000000000000, m 7529293885535890000000000000000000],
    [m 5150591526455750000000000000000000, 23979673983927000000000000000000000],
    [18191711081321700000000000000000000, m 16450380098391000000000000000000000],
    [5150591526455760000000000000000000, 23979673983927000000000000000000000],
    [m 23342302607777400000000000000000000, m 7529293885535890000000000000000000],
    [2775557561562890000, m 23904765686958500000000000000000000],
    [20702134356420600000000000000000000, 11952382843479300000000000000000000],
    [m 20702134356420600000000000000000000, 11952382843479300000000000000000000],
    [m 25000323231711100000000000000000000, m 35005390544813500000000000000000000],
    [42815719097059600000000000000000000, m 4148219749077350000000000000000000],
    [m 17815395865348500000000000000000000, 39153610293890900000000000000000000],
    [25000323231711100000000000000000000, m 35005390544813500000000000000000000],
    [17815395865348500000000000000000000, 39153610293890900000000000000000000],
    [m 42815719097059600000000000000000000, m 4148219749077320000000000000000000],
    [m 33758194324903200000000000000000000, m 28557075934557600000000000000000000],
    [41610250379579700000000000000000000, m 14956915903979000000000000000000000],
    [m 7852056054676520000000000000000000, 43513991838536700000000000000000000],
    [33758194324903200000000000000000000, m 28557075934557600000000000000000000],
    [7852056054676540000000000000000000, 43513991838536600000000000000000000],
    [m 41610250379579700000000000000000000, m 14956915903979000000000000000000000],
    [m 11618414024584600000000000000000000, m 55461628912299000000000000000000000],
    [53840386585608800000000000000000000, 17668972759173900000000000000000000],
    [m 42221972561024200000000000000000000, 37792656153125200000000000000000000],
    [11618414024584600000000000000000000, m 55461628912299000000000000000000000],
    [42221972561024200000000000000000000, 37792656153125200000000000000000000],
    [m 53840386585608800000000000000000000, 17668972759173900000000000000000000],
    [m 11711270292749800000000000000000000, m 6761505056071560000000000000000000],
    [11711270292749800000000000000000000, m 6761505056071560000000000000000000],
    [5551115123125780000, 13523010112143200000000000000000000],
    [0, m 6333228349610720000000000000000000],
    [5484736638730700000000000000000000, 3166614174805390000000000000000000],
    [m 5484736638730710000000000000000000, 3166614174805390000000000000000000],
    [m 13818398085165400000000000000000000, m 51774444174819500000000000000000000],
    [51747182964795700000000000000000000, 13920138306050300000000000000000000],
    [m 37928784879630300000000000000000000, 37854305868769300000000000000000000],
    [13818398085165400000000000000000000, m 51774444174819500000000000000000000],
    [37928784879630300000000000000000000, 37854305868769200000000000000000000],
    [m 51747182964795600000000000000000000, 13920138306050400000000000000000000]],
   [7673693644645420000000000000000, 7673693644645420000000000000000, 7673693644645420000000000000000,
    71356275110984400000000000000000, 71356275110984400000000000000000, 71356275110984400000000000000000,
    71356275110984400000000000000000, 71356275110984400000000000000000, 71356275110984400000000000000000,
    47326702798148100000000000000000, 47326702798148100000000000000000, 47326702798148100000000000000000,
    47326702798148100000000000000000, 47326702798148100000000000000000, 47326702798148100000000000000000,
    93414426685364500000000000000000, 93414426685364500000000000000000, 93414426685364500000000000000000,
    93414426685364500000000000000000, 93414426685364500000000000000000, 93414426685364500000000000000000,
    116216966785835000000000000000000, 116216966785835000000000000000000, 116216966785835000000000000000000,
    116216966785835000000000000000000, 116216966785835000000000000000000, 116216966785835000000000000000000,
    39132489958142700000000000000000, 39132489958142700000000000000000, 39132489958142700000000000000000,
    39132489958142700000000000000000, 39132489958142700000000000000000, 39132489958142700000000000000000,
    55783521131876000000000000000000, 55783521131876000000000000000000, 55783521131876000000000000000000,
    55783521131876000000000000000000, 55783521131876000000000000000000, 55783521131876000000000000000000,
    194505388280140000000000000000000, 194505388280140000000000000000000, 194505388280140000000000000000000,
    302269117841143000000000000000000, 302269117841143000000000000000000, 302269117841143000000000000000000,
    167622213834507000000000000000000, 167622213834507000000000000000000, 167622213834507000000000000000000,
    167622213834507000000000000000000, 167622213834507000000000000000000, 167622213834507000000000000000000,
    233249201402808000000000000000000, 233249201402808000000000000000000, 233249201402808000000000000000000,
    233249201402808000000000000000000, 233249201402808000000000000000000, 233249201402808000000000000000000,
    231663230339976000000000000000000, 231663230339976000000000000000000, 231663230339976000000000000000000,
    231663230339976000000000000000000, 231663230339976000000000000000000, 231663230339976000000000000000000,
    209479080764229000000000000000000, 209479080764229000000000000000000, 209479080764229000000000000000000,
    209479080764229000000000000000000, 209479080764229000000000000000000, 209479080764229000000000000000000,
    103468582876105000000000000000000, 103468582876105000000000000000000, 103468582876105000000000000000000,
    103468582876105000000000000000000, 103468582876105000000000000000000, 103468582876105000000000000000000,
    254299883811322000000000000000000, 254299883811322000000000000000000, 254299883811322000000000000000000,
    254299883811322000000000000000000, 254299883811322000000000000000000, 254299883811322000000000000000000,
    138746706799948000000000000000000, 138746706799948000000000000000000, 138746706799948000000000000000000,
    138746706799948000000000000000000, 138746706799948000000000000000000, 138746706799948000000000000000000,
    32141154553923800000000000000000, 32141154553923800000000000000000, 32141154553923800000000000000000,
    32141154553923800000000000000000, 32141154553923800000000000000000, 32141154553923800000000000000000,
    124953960346934000000000000000000, 124953960346934000000000000000000, 124953960346934000000000000000000,
    124953960346934000000000000000000, 124953960346934000000000000000000, 124953960346934000000000000000000,
    265379061171651000000000000000000, 265379061171651000000000000000000, 265379061171651000000000000000000,
    265379061171651000000000000000000, 265379061171651000000000000000000, 265379061171651000000000000000000,
    472789719197897000000000000000000, 472789719197897000000000000000000, 472789719197897000000000000000000,
    261371077655576000000000000000000, 261371077655576000000000000000000, 261371077655576000000000000000000,
    261371077655576000000000000000000, 261371077655576000000000000000000, 261371077655576000000000000000000,
    589195615639655000000000000000000, 589195615639655000000000000000000, 589195615639655000000000000000000,
    589195615639655000000000000000000, 589195615639655000000000000000000, 589195615639655000000000000000000,
    208626561325169000000000000000000, 208626561325169000000000000000000, 208626561325169000000000000000000,
    179438413575265000000000000000000, 179438413575265000000000000000000, 179438413575265000000000000000000,
    179438413575265000000000000000000, 179438413575265000000000000000000, 179438413575265000000000000000000,
    411792947826443000000000000000000, 411792947826443000000000000000000, 411792947826443000000000000000000,
    411792947826443000000000000000000, 411792947826443000000000000000000, 411792947826443000000000000000000,
    588099012918186000000000000000000, 588099012918186000000000000000000, 588099012918186000000000000000000,
    588099012918186000000000000000000, 588099012918186000000000000000000, 588099012918186000000000000000000,
    468361846661526000000000000000000, 468361846661526000000000000000000, 468361846661526000000000000000000,
    468361846661526000000000000000000, 468361846661526000000000000000000, 468361846661526000000000000000000,
    349355235102319000000000000000000, 349355235102319000000000000000000, 349355235102319000000000000000000,
    349355235102319000000000000000000, 349355235102319000000000000000000, 349355235102319000000000000000000,
    483567997005437000000000000000000, 483567997005437000000000000000000, 483567997005437000000000000000000,
    483567997005437000000000000000000, 483567997005437000000000000000000, 483567997005437000000000000000000,
    409767421447625000000000000000000, 409767421447625000000000000000000, 409767421447625000000000000000000,
    744861325130525000000000000000000, 744861325130525000000000000000000, 744861325130525000000000000000000,
    744861325130525000000000000000000, 744861325130525000000000000000000, 744861325130525000000000000000000,
    863229272619748000000000000000000, 863229272619748000000000000000000, 863229272619748000000000000000000,
    863229272619748000000000000000000, 863229272619748000000000000000000, 863229272619748000000000000000000,
    805974557212626000000000000000000, 805974557212626000000000000000000, 805974557212626000000000000000000,
    805974557212626000000000000000000, 805974557212626000000000000000000, 805974557212626000000000000000000,
    714969103253460000000000000000000, 714969103253460000000000000000000, 714969103253460000000000000000000,
    714969103253460000000000000000000, 714969103253460000000000000000000, 714969103253460000000000000000000,
    608156686801161000000000000000000, 608156686801161000000000000000000, 608156686801161000000000000000000,
    356425184531545000000000000000000, 356425184531545000000000000000000, 356425184531545000000000000000000,
    356425184531545000000000000000000, 356425184531545000000000000000000, 356425184531545000000000000000000,
    674429486954984000000000000000000, 674429486954984000000000000000000, 674429486954984000000000000000000,
    674429486954984000000000000000000, 674429486954984000000000000000000, 674429486954984000000000000000000,
    509823620819863000000000000000000, 509823620819863000000000000000000, 509823620819863000000000000000000,
    479909951448470000000000000000000, 479909951448470000000000000000000, 479909951448470000000000000000000,
    479909951448470000000000000000000, 479909951448470000000000000000000, 479909951448470000000000000000000,
    1164499829178200000000000000000000, 1164499829178200000000000000000000, 1164499829178200000000000000000000,
    862536847780239000000000000000000, 862536847780239000000000000000000, 862536847780239000000000000000000,
    429573541550075000000000000000000, 429573541550075000000000000000000, 429573541550075000000000000000000,
    429573541550075000000000000000000, 429573541550075000000000000000000, 429573541550075000000000000000000,
    149459041916569000000000000000000, 149459041916569000000000000000000, 149459041916569000000000000000000,
    149459041916569000000000000000000, 149459041916569000000000000000000, 149459041916569000000000000000000,
    55587256939320400000000000000000, 55587256939320400000000000000000, 55587256939320400000000000000000,
    55587256939320400000000000000000, 55587256939320400000000000000000, 55587256939320400000000000000000,
    862735998652747000000000000000000, 862735998652747000000000000000000, 862735998652747000000000000000000,
    862735998652747000000000000000000, 862735998652747000000000000000000, 862735998652747000000000000000000,
    869416398666802000000000000000000, 869416398666802000000000000000000, 869416398666802000000000000000000,
    869416398666802000000000000000000, 869416398666802000000000000000000, 869416398666802000000000000000000,
    479645193927155000000000000000000, 479645193927155000000000000000000, 479645193927155000000000000000000,
    479645193927155000000000000000000, 479645193927155000000000000000000, 479645193927155000000000000000000,
    641132577087806000000000000000000, 641132577087806000000000000000000, 641132577087806000000000000000000,
    641132577087806000000000000000000, 641132577087806000000000000000000, 641132577087806000000000000000000,
    879022272958385000000000000000000, 879022272958385000000000000000000, 879022272958385000000000000000000,
    879022272958385000000000000000000, 879022272958385000000000000000000, 879022272958385000000000000000000,
    739183286003891000000000000000000, 739183286003891000000000000000000, 739183286003891000000000000000000,
    739183286003891000000000000000000, 739183286003891000000000000000000, 739183286003891000000000000000000,
    299510954834280000000000000000000, 299510954834280000000000000000000, 299510954834280000000000000000000,
    299510954834280000000000000000000, 299510954834280000000000000000000, 299510954834280000000000000000000,
    558541336920173000000000000000000, 558541336920173000000000000000000, 558541336920173000000000000000000,
    558541336920173000000000000000000, 558541336920173000000000000000000, 558541336920173000000000000000000,
    915899410661766000000000000000000, 915899410661766000000000000000000, 915899410661766000000000000000000,
    915899410661766000000000000000000, 915899410661766000000000000000000, 915899410661766000000000000000000,
    696212420928980000000000000000000, 696212420928980000000000000000000, 696212420928980000000000000000000,
    696212420928980000000000000000000, 696212420928980000000000000000000, 696212420928980000000000000000000,
    1049767105124430000000000000000000, 1049767105124430000000000000000000, 1049767105124430000000000000000000,
    1049767105124430000000000000000000, 1049767105124430000000000000000000, 1049767105124430000000000000000000,
    852314012454468000000000000000000, 852314012454468000000000000000000, 852314012454468000000000000000000,
    869744987846943000000000000000000, 869744987846943000000000000000000, 869744987846943000000000000000000,
    1004440002548710000000000000000000, 1004440002548710000000000000000000, 1004440002548710000000000000000000,
    1004440002548710000000000000000000, 1004440002548710000000000000000000, 1004440002548710000000000000000000,
    770172541359094000000000000000000, 770172541359094000000000000000000, 770172541359094000000000000000000,
    1107325632684560000000000000000000, 1107325632684560000000000000000000, 1107325632684560000000000000000000,
    1107325632684560000000000000000000, 1107325632684560000000000000000000, 1107325632684560000000000000000000,
    804816939135827000000000000000000, 804816939135827000000000000000000, 804816939135827000000000000000000,
    979418441585797000000000000000000, 979418441585797000000000000000000, 979418441585797000000000000000000,
    979418441585797000000000000000000, 979418441585797000000000000000000, 979418441585797000000000000000000,
    919900743157982000000000000000000, 919900743157982000000000000000000, 919900743157982000000000000000000,
    919900743157982000000000000000000, 919900743157982000000000000000000, 919900743157982000000000000000000,
    341773534503681000000000000000000, 341773534503681000000000000000000, 341773534503681000000000000000000,
    341773534503681000000000000000000, 341773534503681000000000000000000, 341773534503681000000000000000000,
    1112924405351570000000000000000000, 1112924405351570000000000000000000, 1112924405351570000000000000000000,
    1085231655372960000000000000000000, 1085231655372960000000000000000000, 1085231655372960000000000000000000,
    615827109002209000000000000000000, 615827109002209000000000000000000, 615827109002209000000000000000000,
    615827109002209000000000000000000, 615827109002209000000000000000000, 615827109002209000000000000000000]⟩

/-- `triangle_table_orig[45]` (xg_quad_data.py 11440-12185). -/
def xgTri_45 : XgTableRule :=
  ⟨[
    [m 96749796278768400000000000000000000, m 56471941069694800000000000000000000],
    [97281033706757700000000000000000000, m 55551810853535200000000000000000000],
    [m 531237427989240000000000000000000, 112023751923230000000000000000000000],
    [96749796278768400000000000000000000, m 56471941069694800000000000000000000],
    [531237427989306000000000000000000, 112023751923230000000000000000000000],
    [m 97281033706757700000000000000000000, m 55551810853535100000000000000000000],
    [m 98943904955500700000000000000000000, m 57501200548013600000000000000000000],
    [99269452900433800000000000000000000, m 56937334967089900000000000000000000],
    [m 325547944933025000000000000000000, 114438535515103000000000000000000000],
    [98943904955500700000000000000000000, m 57501200548013600000000000000000000],
    [325547944933113000000000000000000, 114438535515103000000000000000000000],
    [m 99269452900433800000000000000000000, m 56937334967089800000000000000000000],
    [m 85724783085411700000000000000000000, m 56546982796685100000000000000000000],
    [91833515151996800000000000000000000, m 45966348487534600000000000000000000],
    [m 6108732066585000000000000000000000, 102513331284220000000000000000000000],
    [85724783085411700000000000000000000, m 56546982796685100000000000000000000],
    [6108732066585090000000000000000000, 102513331284220000000000000000000000],
    [m 91833515151996800000000000000000000, m 45966348487534500000000000000000000],
    [m 86009422327718300000000000000000000, m 57522024853914400000000000000000000],
    [92820245964468900000000000000000000, m 45725332273671400000000000000000000],
    [m 6810823636750560000000000000000000, 103247357127586000000000000000000000],
    [86009422327718300000000000000000000, m 57522024853914400000000000000000000],
    [6810823636750630000000000000000000, 103247357127586000000000000000000000],
    [m 92820245964469000000000000000000000, m 45725332273671300000000000000000000],
    [m 5467818005740930000000000000000000, m 56214268954647700000000000000000000],
    [51416893972766300000000000000000000, 23371865181082200000000000000000000],
    [m 45949075967025300000000000000000000, 32842403773565500000000000000000000],
    [5467818005740910000000000000000000, m 56214268954647700000000000000000000],
    [45949075967025300000000000000000000, 32842403773565500000000000000000000],
    [m 51416893972766300000000000000000000, 23371865181082300000000000000000000],
    [m 49732663296837700000000000000000000, m 57443518202158400000000000000000000],
    [74613877694241800000000000000000000, m 14347990711840200000000000000000000],
    [m 24881214397404100000000000000000000, 71791508913998600000000000000000000],
    [49732663296837700000000000000000000, m 57443518202158400000000000000000000],
    [24881214397404100000000000000000000, 71791508913998600000000000000000000],
    [m 74613877694241800000000000000000000, m 14347990711840100000000000000000000],
    [m 96239582473679000000000000000000000, m 57430537135663000000000000000000000],
    [97856095349309200000000000000000000, m 54630654703982200000000000000000000],
    [m 1616512875630170000000000000000000, 112061191839645000000000000000000000],
    [96239582473679000000000000000000000, m 57430537135663000000000000000000000],
    [1616512875630250000000000000000000, 112061191839645000000000000000000000],
    [m 97856095349309200000000000000000000, m 54630654703982100000000000000000000],
    [m 27961070235673100000000000000000000, m 57479443137000500000000000000000000],
    [63759193069862100000000000000000000, 4524724427406390000000000000000000],
    [m 35798122834189000000000000000000000, 52954718709594200000000000000000000],
    [27961070235673100000000000000000000, m 57479443137000500000000000000000000],
    [35798122834189000000000000000000000, 52954718709594200000000000000000000],
    [m 63759193069862100000000000000000000, 4524724427406430000000000000000000],
    [m 40402890296751200000000000000000000, m 31119792517448300000000000000000000],
    [47151976028986800000000000000000000, m 19430033124578200000000000000000000],
    [m 6749085732235480000000000000000000, 50549825642026600000000000000000000],
    [40402890296751300000000000000000000, m 31119792517448300000000000000000000],
    [6749085732235520000000000000000000, 50549825642026600000000000000000000],
    [m 47151976028986800000000000000000000, m 19430033124578200000000000000000000],
    [m 29442839410535800000000000000000000, m 18309182975606300000000000000000000],
    [30577637284680500000000000000000000, m 16343655401266500000000000000000000],
    [m 1134797874144680000000000000000000, 34652838376872900000000000000000000],
    [29442839410535900000000000000000000, m 18309182975606300000000000000000000],
    [1134797874144700000000000000000000, 34652838376872900000000000000000000],
    [m 30577637284680500000000000000000000, m 16343655401266500000000000000000000],
    [m 61058004009917000000000000000000000, m 35251855051306800000000000000000000],
    [61058004009917000000000000000000000, m 35251855051306800000000000000000000],
    [0, 70503710102613700000000000000000000],
    [m 43275119028613700000000000000000000, m 37954480542530100000000000000000000],
    [54507103851580100000000000000000000, m 18500112159309800000000000000000000],
    [m 11231984822966400000000000000000000, 56454592701839900000000000000000000],
    [43275119028613700000000000000000000, m 37954480542530100000000000000000000],
    [11231984822966400000000000000000000, 56454592701839900000000000000000000],
    [m 54507103851580100000000000000000000, m 18500112159309700000000000000000000],
    [m 44044389245586800000000000000000000, m 43813658252872500000000000000000000],
    [59965935702510700000000000000000000, m 16236730854412100000000000000000000],
    [m 15921546456923900000000000000000000, 60050389107284600000000000000000000],
    [44044389245586800000000000000000000, m 43813658252872500000000000000000000],
    [15921546456923900000000000000000000, 60050389107284600000000000000000000],
    [m 59965935702510700000000000000000000, m 16236730854412000000000000000000000],
    [m 61279883033232500000000000000000000, m 52431770764693100000000000000000000],
    [76047186964242800000000000000000000, m 26854050065371800000000000000000000],
    [m 14767303931010200000000000000000000, 79285820830065000000000000000000000],
    [61279883033232500000000000000000000, m 52431770764693100000000000000000000],
    [14767303931010200000000000000000000, 79285820830065000000000000000000000],
    [m 76047186964242800000000000000000000, m 26854050065371800000000000000000000],
    [m 38095100310735000000000000000000000, m 21994216419208700000000000000000000],
    [38095100310735100000000000000000000, m 21994216419208700000000000000000000],
    [0, 43988432838417400000000000000000000],
    [m 47474623357918000000000000000000000, m 27409486575370100000000000000000000],
    [47474623357918000000000000000000000, m 27409486575370000000000000000000000],
    [0, 54818973150740100000000000000000000],
    [m 40788451897774200000000000000000000, m 53068517830945800000000000000000000],
    [66352910531673600000000000000000000, m 8789576609039130000000000000000000],
    [m 25564458633899400000000000000000000, 61858094439985000000000000000000000],
    [40788451897774200000000000000000000, m 53068517830945800000000000000000000],
    [25564458633899400000000000000000000, 61858094439985000000000000000000000],
    [m 66352910531673600000000000000000000, m 8789576609039100000000000000000000],
    [m 69268856593560800000000000000000000, m 52054382897965200000000000000000000],
    [79714846264740500000000000000000000, m 33961398052142300000000000000000000],
    [m 10445989671179700000000000000000000, 86015780950107500000000000000000000],
    [69268856593560800000000000000000000, m 52054382897965200000000000000000000],
    [10445989671179700000000000000000000, 86015780950107500000000000000000000],
    [m 79714846264740500000000000000000000, m 33961398052142200000000000000000000],
    [m 5312590645178970000, m 57563407311774800000000000000000000],
    [49851373060387800000000000000000000, 28781703655887400000000000000000000],
    [m 49851373060387800000000000000000000, 28781703655887400000000000000000000],
    [m 76676405679321200000000000000000000, m 52066524714991100000000000000000000],
    [83429135929613200000000000000000000, m 40370452831678000000000000000000000],
    [m 6752730250292030000000000000000000, 92436977546669200000000000000000000],
    [76676405679321200000000000000000000, m 52066524714991100000000000000000000],
    [6752730250292100000000000000000000, 92436977546669200000000000000000000],
    [m 83429135929613300000000000000000000, m 40370452831677900000000000000000000],
    [m 88142494556619700000000000000000000, m 55109220346610700000000000000000000],
    [91797232081229000000000000000000000, m 48779029265658900000000000000000000],
    [m 3654737524609230000000000000000000, 103888249612270000000000000000000000],
    [88142494556619700000000000000000000, m 55109220346610700000000000000000000],
    [3654737524609300000000000000000000, 103888249612270000000000000000000000],
    [m 91797232081229000000000000000000000, m 48779029265658900000000000000000000],
    [m 30788563677170900000000000000000000, m 28136936804129400000000000000000000],
    [39761583895638800000000000000000000, m 12595209888400100000000000000000000],
    [m 8973020218467920000000000000000000, 40732146692529500000000000000000000],
    [30788563677170900000000000000000000, m 28136936804129400000000000000000000],
    [8973020218467950000000000000000000, 40732146692529500000000000000000000],
    [m 39761583895638800000000000000000000, m 12595209888400100000000000000000000],
    [m 51690806387591800000000000000000000, m 52770400117212000000000000000000000],
    [71545910263170800000000000000000000, m 18380351415151400000000000000000000],
    [m 19855103875579000000000000000000000, 71150751532363500000000000000000000],
    [51690806387591800000000000000000000, m 52770400117212000000000000000000000],
    [19855103875579000000000000000000000, 71150751532363500000000000000000000],
    [m 71545910263170800000000000000000000, m 18380351415151400000000000000000000],
    [m 36522335396393700000000000000000000, m 55536072100117400000000000000000000],
    [66356816963302700000000000000000000, m 3861234208753870000000000000000000],
    [m 29834481566909000000000000000000000, 59397306308871300000000000000000000],
    [36522335396393700000000000000000000, m 55536072100117400000000000000000000],
    [29834481566909000000000000000000000, 59397306308871300000000000000000000],
    [m 66356816963302700000000000000000000, m 3861234208753820000000000000000000],
    [m 83433874281849100000000000000000000, m 48170569776159000000000000000000000],
    [83433874281849100000000000000000000, m 48170569776159000000000000000000000],
    [0, 96341139552318000000000000000000000],
    [m 54085071215301300000000000000000000, m 42510034407525700000000000000000000],
    [63857305320318500000000000000000000, m 25584028434178500000000000000000000],
    [m 9772234105017190000000000000000000, 68094062841704300000000000000000000],
    [54085071215301300000000000000000000, m 42510034407525700000000000000000000],
    [9772234105017240000000000000000000, 68094062841704300000000000000000000],
    [m 63857305320318500000000000000000000, m 25584028434178500000000000000000000],
    [m 83755436630162200000000000000000000, m 52414106878540400000000000000000000],
    [87269666388569800000000000000000000, m 46327282387508000000000000000000000],
    [m 3514229758407490000000000000000000, 98741389266048400000000000000000000],
    [83755436630162200000000000000000000, m 52414106878540400000000000000000000],
    [3514229758407560000000000000000000, 98741389266048400000000000000000000],
    [m 87269666388569800000000000000000000, m 46327282387508000000000000000000000],
    [m 39400450916939900000000000000000000, m 57247532448088400000000000000000000],
    [69278042862488500000000000000000000, m 5498025190587610000000000000000000],
    [m 29877591945548600000000000000000000, 62745557638676100000000000000000000],
    [39400450916939900000000000000000000, m 57247532448088400000000000000000000],
    [29877591945548600000000000000000000, 62745557638676100000000000000000000],
    [m 69278042862488500000000000000000000, m 5498025190587570000000000000000000],
    [m 33507526831923600000000000000000000, m 43906434358617000000000000000000000],
    [54777850960118000000000000000000000, m 7065152275126010000000000000000000],
    [m 21270324128194500000000000000000000, 50971586633743100000000000000000000],
    [33507526831923600000000000000000000, m 43906434358617000000000000000000000],
    [21270324128194500000000000000000000, 50971586633743100000000000000000000],
    [m 54777850960118100000000000000000000, m 7065152275125960000000000000000000],
    [m 93207383259146300000000000000000000, m 55427727760435300000000000000000000],
    [94605511944158100000000000000000000, m 53006097842475500000000000000000000],
    [m 1398128685011750000000000000000000, 108433825602911000000000000000000000],
    [93207383259146300000000000000000000, m 55427727760435300000000000000000000],
    [1398128685011810000000000000000000, 108433825602911000000000000000000000],
    [m 94605511944158100000000000000000000, m 53006097842475400000000000000000000],
    [m 10254170249021800000000000000000000, m 5920247953588980000000000000000000],
    [10254170249021800000000000000000000, m 5920247953588980000000000000000000],
    [0, 11840495907178000000000000000000000],
    [m 24725397282679600000000000000000000, m 56071879514252200000000000000000000],
    [60922370738622500000000000000000000, 6623117591662850000000000000000000],
    [m 36196973455942900000000000000000000, 49448761922589400000000000000000000],
    [24725397282679600000000000000000000, m 56071879514252200000000000000000000],
    [36196973455942900000000000000000000, 49448761922589400000000000000000000],
    [m 60922370738622500000000000000000000, 6623117591662900000000000000000000],
    [m 59548295462739300000000000000000000, m 57301592049564300000000000000000000],
    [79398782123584800000000000000000000, m 22919540598011700000000000000000000],
    [m 19850486660845400000000000000000000, 80221132647576100000000000000000000],
    [59548295462739300000000000000000000, m 57301592049564300000000000000000000],
    [19850486660845500000000000000000000, 80221132647576100000000000000000000],
    [m 79398782123584800000000000000000000, m 22919540598011700000000000000000000],
    [m 21190291318947100000000000000000000, m 22794222552637800000000000000000000],
    [30335521449574100000000000000000000, m 6954219319482090000000000000000000],
    [m 9145230130626980000000000000000000, 29748441872120000000000000000000000],
    [21190291318947100000000000000000000, m 22794222552637800000000000000000000],
    [9145230130627000000000000000000000, 29748441872120000000000000000000000],
    [m 30335521449574100000000000000000000, m 6954219319482080000000000000000000],
    [m 48065853549210600000000000000000000, m 48610984701993100000000000000000000],
    [66131274429508000000000000000000000, m 17320757877202300000000000000000000],
    [m 18065420880297400000000000000000000, 65931742579195400000000000000000000],
    [48065853549210600000000000000000000, m 48610984701993100000000000000000000],
    [18065420880297400000000000000000000, 65931742579195400000000000000000000],
    [m 66131274429508000000000000000000000, m 17320757877202300000000000000000000],
    [m 58563257009522300000000000000000000, m 48075527463104200000000000000000000],
    [70916256588145900000000000000000000, m 26679504567051300000000000000000000],
    [m 12352999578623500000000000000000000, 74755032030155500000000000000000000],
    [58563257009522300000000000000000000, m 48075527463104200000000000000000000],
    [12352999578623600000000000000000000, 74755032030155500000000000000000000],
    [m 70916256588145900000000000000000000, m 26679504567051200000000000000000000],
    [0, m 11656336099177700000000000000000000],
    [10094683176937500000000000000000000, 5828168049588860000000000000000000],
    [m 10094683176937500000000000000000000, 5828168049588870000000000000000000],
    [m 36489263643259700000000000000000000, m 49380185173253700000000000000000000],
    [61009126625247300000000000000000000, m 6910536693823920000000000000000000],
    [m 24519862981987600000000000000000000, 56290721867077700000000000000000000],
    [36489263643259700000000000000000000, m 49380185173253700000000000000000000],
    [24519862981987600000000000000000000, 56290721867077700000000000000000000],
    [m 61009126625247300000000000000000000, m 6910536693823890000000000000000000],
    [m 10662122389563900000000000000000000, m 17257418086954500000000000000000000],
    [20276423661813700000000000000000000, m 604959804143923000000000000000000],
    [m 9614301272249710000000000000000000, 17862377891098500000000000000000000],
    [10662122389563900000000000000000000, m 17257418086954500000000000000000000],
    [9614301272249720000000000000000000, 17862377891098500000000000000000000],
    [m 20276423661813700000000000000000000, m 604959804143912000000000000000000],
    [m 63098646216816900000000000000000000, m 41685471639662600000000000000000000],
    [67650000517092000000000000000000000, m 33802294748339000000000000000000000],
    [m 4551354300275130000000000000000000, 75487766388001600000000000000000000],
    [63098646216816900000000000000000000, m 41685471639662600000000000000000000],
    [4551354300275180000000000000000000, 75487766388001600000000000000000000],
    [m 67650000517092000000000000000000000, m 33802294748338900000000000000000000],
    [m 10951950034472500000000000000000000, m 27691779802002700000000000000000000],
    [29457759801775400000000000000000000, 4361222950170280000000000000000000],
    [m 18505809767302900000000000000000000, 23330556851832500000000000000000000],
    [10951950034472500000000000000000000, m 27691779802002700000000000000000000],
    [18505809767302900000000000000000000, 23330556851832500000000000000000000],
    [m 29457759801775400000000000000000000, 4361222950170310000000000000000000],
    [m 14147353942032000000000000000000000, m 54643161443323600000000000000000000],
    [54396042924028600000000000000000000, 15069612811532200000000000000000000],
    [m 40248688981996600000000000000000000, 39573548631791500000000000000000000],
    [14147353942032000000000000000000000, m 54643161443323600000000000000000000],
    [40248688981996600000000000000000000, 39573548631791400000000000000000000],
    [m 54396042924028600000000000000000000, 15069612811532200000000000000000000],
    [m 32195104149719200000000000000000000, m 36959650358697800000000000000000000],
    [48105548200482500000000000000000000, m 9401952891793680000000000000000000],
    [m 15910444050763300000000000000000000, 46361603250491500000000000000000000],
    [32195104149719200000000000000000000, m 36959650358697800000000000000000000],
    [15910444050763400000000000000000000, 46361603250491500000000000000000000],
    [m 48105548200482500000000000000000000, m 9401952891793650000000000000000000],
    [m 79909003824949700000000000000000000, m 55312820158517200000000000000000000],
    [87856809324710700000000000000000000, m 41546817224255700000000000000000000],
    [m 7947805499760970000000000000000000, 96859637382773000000000000000000000],
    [79909003824949700000000000000000000, m 55312820158517200000000000000000000],
    [7947805499761040000000000000000000, 96859637382773000000000000000000000],
    [m 87856809324710700000000000000000000, m 41546817224255700000000000000000000],
    [m 10582426030688300000000000000000000, m 37061655711808000000000000000000000],
    [37387548368082500000000000000000000, 9366178079658250000000000000000000],
    [m 26805122337394200000000000000000000, 27695477632149800000000000000000000],
    [10582426030688300000000000000000000, m 37061655711808000000000000000000000],
    [26805122337394200000000000000000000, 27695477632149800000000000000000000],
    [m 37387548368082500000000000000000000, 9366178079658280000000000000000000],
    [m 11204595369159800000000000000000000, m 44989790809755300000000000000000000],
    [44564599436775600000000000000000000, 12791431176059800000000000000000000],
    [m 33360004067615800000000000000000000, 32198359633695600000000000000000000],
    [11204595369159800000000000000000000, m 44989790809755300000000000000000000],
    [33360004067615900000000000000000000, 32198359633695500000000000000000000],
    [m 44564599436775600000000000000000000, 12791431176059800000000000000000000],
    [m 61200208537204000000000000000000000, m 55532421580891100000000000000000000],
    [78692592091320900000000000000000000, m 25234724519678400000000000000000000],
    [m 17492383554116900000000000000000000, 80767146100569500000000000000000000],
    [61200208537204000000000000000000000, m 55532421580891100000000000000000000],
    [17492383554116900000000000000000000, 80767146100569500000000000000000000],
    [m 78692592091320900000000000000000000, m 25234724519678300000000000000000000],
    [m 20523507282885800000000000000000000, m 11849252454489400000000000000000000],
    [20523507282885800000000000000000000, m 11849252454489400000000000000000000],
    [5551115123125780000, 23698504908978800000000000000000000],
    [m 69310856751575900000000000000000000, m 57312340633371500000000000000000000],
    [84289371314634800000000000000000000, m 31368792388243200000000000000000000],
    [m 14978514563058800000000000000000000, 88681133021614700000000000000000000],
    [69310856751576000000000000000000000, m 57312340633371500000000000000000000],
    [14978514563058900000000000000000000, 88681133021614700000000000000000000],
    [m 84289371314634800000000000000000000, m 31368792388243200000000000000000000],
    [m 52182537044957900000000000000000000, m 35237310557002600000000000000000000],
    [56607674625884800000000000000000000, m 27572747436354800000000000000000000],
    [m 4425137580926870000000000000000000, 62810057993357400000000000000000000],
    [52182537044957900000000000000000000, m 35237310557002600000000000000000000],
    [4425137580926910000000000000000000, 62810057993357400000000000000000000],
    [m 56607674625884800000000000000000000, m 27572747436354700000000000000000000],
    [0, m 22563680509593200000000000000000000],
    [19540720524183500000000000000000000, 11281840254796600000000000000000000],
    [m 19540720524183500000000000000000000, 11281840254796600000000000000000000],
    [m 21330305926164300000000000000000000, m 32814170713377600000000000000000000],
    [39083058404986500000000000000000000, m 2065501445863250000000000000000000],
    [m 17752752478822200000000000000000000, 34879672159240900000000000000000000],
    [21330305926164300000000000000000000, m 32814170713377600000000000000000000],
    [17752752478822200000000000000000000, 34879672159240900000000000000000000],
    [m 39083058404986500000000000000000000, m 2065501445863230000000000000000000],
    [m 76353151836479000000000000000000000, m 47540208897837700000000000000000000],
    [79347604524986000000000000000000000, m 42353664700482400000000000000000000],
    [m 2994452688506930000000000000000000, 89893873598320200000000000000000000],
    [76353151836479000000000000000000000, m 47540208897837700000000000000000000],
    [2994452688507000000000000000000000, 89893873598320200000000000000000000],
    [m 79347604524986000000000000000000000, m 42353664700482400000000000000000000],
    [m 67884482751176600000000000000000000, m 47291221034981000000000000000000000],
    [74897640167866900000000000000000000, m 35144076067795000000000000000000000],
    [m 7013157416690250000000000000000000, 82435297102776100000000000000000000],
    [67884482751176600000000000000000000, m 47291221034981000000000000000000000],
    [7013157416690310000000000000000000, 82435297102776100000000000000000000],
    [m 74897640167866900000000000000000000, m 35144076067794900000000000000000000],
    [m 1387778780781450000, m 41322179544695800000000000000000000],
    [35786057225448300000000000000000000, 20661089772347900000000000000000000],
    [m 35786057225448200000000000000000000, 20661089772348000000000000000000000],
    [m 71309872195622100000000000000000000, m 55444311333444300000000000000000000],
    [83671118207907200000000000000000000, m 34034005195308200000000000000000000],
    [m 12361246012285100000000000000000000, 89478316528752500000000000000000000],
    [71309872195622100000000000000000000, m 55444311333444300000000000000000000],
    [12361246012285100000000000000000000, 89478316528752500000000000000000000],
    [m 83671118207907300000000000000000000, m 34034005195308200000000000000000000],
    [m 23702202213867000000000000000000000, m 47815353791872000000000000000000000],
    [53260412181635200000000000000000000, 3380967653091390000000000000000000],
    [m 29558209967768200000000000000000000, 44434386138780600000000000000000000],
    [23702202213867000000000000000000000, m 47815353791872000000000000000000000],
    [29558209967768200000000000000000000, 44434386138780600000000000000000000],
    [m 53260412181635200000000000000000000, 3380967653091430000000000000000000],
    [m 49629255197943000000000000000000000, m 55841263605812600000000000000000000],
    [73174580461028600000000000000000000, m 15059563969413200000000000000000000],
    [m 23545325263085600000000000000000000, 70900827575225900000000000000000000],
    [49629255197943000000000000000000000, m 55841263605812600000000000000000000],
    [23545325263085600000000000000000000, 70900827575225800000000000000000000],
    [m 73174580461028600000000000000000000, m 15059563969413200000000000000000000],
    [0, m 32398951274847600000000000000000000],
    [28058314859992300000000000000000000, 16199475637423800000000000000000000],
    [m 28058314859992200000000000000000000, 16199475637423800000000000000000000],
    [m 5551115123125780000, 22204460492503100000],
    [m 21703474679151000000000000000000000, m 41120300953009700000000000000000000],
    [46462962576143400000000000000000000, 1764390053967790000000000000000000],
    [m 24759487896992400000000000000000000, 39355910899042000000000000000000000],
    [21703474679151000000000000000000000, m 41120300953009700000000000000000000],
    [24759487896992400000000000000000000, 39355910899042000000000000000000000],
    [m 46462962576143400000000000000000000, 1764390053967820000000000000000000],
    [m 12791164301131500000000000000000000, m 50863906936384500000000000000000000],
    [50445017693202200000000000000000000, 14354480239431800000000000000000000],
    [m 37653853392070700000000000000000000, 36509426696952800000000000000000000],
    [12791164301131500000000000000000000, m 50863906936384500000000000000000000],
    [37653853392070800000000000000000000, 36509426696952800000000000000000000],
    [m 50445017693202200000000000000000000, 14354480239431800000000000000000000],
    [m 71628268859951600000000000000000000, m 41354600307880000000000000000000000],
    [71628268859951700000000000000000000, m 41354600307879900000000000000000000],
    [0, 82709200615760000000000000000000000],
    [m 4163336342344340000, m 48378305160084800000000000000000000],
    [41896841260669200000000000000000000, 24189152580042400000000000000000000],
    [m 41896841260669200000000000000000000, 24189152580042400000000000000000000],
    [m 91918133084949900000000000000000000, m 57250910447612800000000000000000000],
    [95539809379895500000000000000000000, m 50977983096199100000000000000000000],
    [m 3621676294945600000000000000000000, 108228893543812000000000000000000000],
    [91918133084949900000000000000000000, m 57250910447612800000000000000000000],
    [3621676294945650000000000000000000, 108228893543812000000000000000000000],
    [m 95539809379895600000000000000000000, m 50977983096199100000000000000000000],
    [m 78297196007811100000000000000000000, m 57273156232313400000000000000000000],
    [88748606256004000000000000000000000, m 39170782671697200000000000000000000],
    [m 10451410248192900000000000000000000, 96443938904010700000000000000000000],
    [78297196007811100000000000000000000, m 57273156232313400000000000000000000],
    [10451410248193000000000000000000000, 96443938904010700000000000000000000],
    [m 88748606256004000000000000000000000, m 39170782671697200000000000000000000],
    [m 14461283051109000000000000000000000, m 57295167407019800000000000000000000],
    [56849712014115900000000000000000000, 16123745209932200000000000000000000],
    [m 42388428963006800000000000000000000, 41171422197087700000000000000000000],
    [14461283051109000000000000000000000, m 57295167407019800000000000000000000],
    [42388428963006900000000000000000000, 41171422197087700000000000000000000],
    [m 56849712014115800000000000000000000, 16123745209932200000000000000000000],
    [m 89774457652960200000000000000000000, m 51831307292289300000000000000000000],
    [89774457652960200000000000000000000, m 51831307292289200000000000000000000],
    [0, 103662614584579000000000000000000000],
    [m 26734836171405200000000000000000000, m 52758606695132700000000000000000000],
    [59057711751959300000000000000000000, 3226256057114340000000000000000000],
    [m 32322875580554100000000000000000000, 49532350638018400000000000000000000],
    [26734836171405200000000000000000000, m 52758606695132700000000000000000000],
    [32322875580554100000000000000000000, 49532350638018400000000000000000000],
    [m 59057711751959300000000000000000000, 3226256057114400000000000000000000],
    [0, m 53231347309540400000000000000000000],
    [46099699047734500000000000000000000, 26615673654770200000000000000000000],
    [m 46099699047734400000000000000000000, 26615673654770300000000000000000000]],
   [33654859994815900000000000000000, 33654859994815900000000000000000, 33654859994815900000000000000000,
    33654859994815900000000000000000, 33654859994815900000000000000000, 33654859994815900000000000000000,
    10282576014238400000000000000000, 10282576014238400000000000000000, 10282576014238400000000000000000,
    10282576014238400000000000000000, 10282576014238400000000000000000, 10282576014238400000000000000000,
    83257726401922800000000000000000, 83257726401922800000000000000000, 83257726401922800000000000000000,
    83257726401922800000000000000000, 83257726401922800000000000000000, 83257726401922800000000000000000,
    39858807691079800000000000000000, 39858807691079800000000000000000, 39858807691079800000000000000000,
    39858807691079800000000000000000, 39858807691079800000000000000000, 39858807691079800000000000000000,
    224207519446568000000000000000000, 224207519446568000000000000000000, 224207519446568000000000000000000,
    224207519446568000000000000000000, 224207519446568000000000000000000, 224207519446568000000000000000000,
    79764559378672800000000000000000, 79764559378672800000000000000000, 79764559378672800000000000000000,
    79764559378672800000000000000000, 79764559378672800000000000000000, 79764559378672800000000000000000,
    26858740054026900000000000000000, 26858740054026900000000000000000, 26858740054026900000000000000000,
    26858740054026900000000000000000, 26858740054026900000000000000000, 26858740054026900000000000000000,
    91180700000119600000000000000000, 91180700000119600000000000000000, 91180700000119600000000000000000,
    91180700000119600000000000000000, 91180700000119600000000000000000, 91180700000119600000000000000000,
    706261522420447000000000000000000, 706261522420447000000000000000000, 706261522420447000000000000000000,
    706261522420447000000000000000000, 706261522420447000000000000000000, 706261522420447000000000000000000,
    472388652280605000000000000000000, 472388652280605000000000000000000, 472388652280605000000000000000000,
    472388652280605000000000000000000, 472388652280605000000000000000000, 472388652280605000000000000000000,
    554674921144060000000000000000000, 554674921144060000000000000000000, 554674921144060000000000000000000,
    661269001467787000000000000000000, 661269001467787000000000000000000, 661269001467787000000000000000000,
    661269001467787000000000000000000, 661269001467787000000000000000000, 661269001467787000000000000000000,
    561806255506106000000000000000000, 561806255506106000000000000000000, 561806255506106000000000000000000,
    561806255506106000000000000000000, 561806255506106000000000000000000, 561806255506106000000000000000000,
    326485639476823000000000000000000, 326485639476823000000000000000000, 326485639476823000000000000000000,
    326485639476823000000000000000000, 326485639476823000000000000000000, 326485639476823000000000000000000,
    803212380524392000000000000000000, 803212380524392000000000000000000, 803212380524392000000000000000000,
    707899637983011000000000000000000, 707899637983011000000000000000000, 707899637983011000000000000000000,
    377712197253821000000000000000000, 377712197253821000000000000000000, 377712197253821000000000000000000,
    377712197253821000000000000000000, 377712197253821000000000000000000, 377712197253821000000000000000000,
    317758791683960000000000000000000, 317758791683960000000000000000000, 317758791683960000000000000000000,
    317758791683960000000000000000000, 317758791683960000000000000000000, 317758791683960000000000000000000,
    83677716771506700000000000000000, 83677716771506700000000000000000, 83677716771506700000000000000000,
    281863520686820000000000000000000, 281863520686820000000000000000000, 281863520686820000000000000000000,
    281863520686820000000000000000000, 281863520686820000000000000000000, 281863520686820000000000000000000,
    143506094200954000000000000000000, 143506094200954000000000000000000, 143506094200954000000000000000000,
    143506094200954000000000000000000, 143506094200954000000000000000000, 143506094200954000000000000000000,
    884643232943602000000000000000000, 884643232943602000000000000000000, 884643232943602000000000000000000,
    884643232943602000000000000000000, 884643232943602000000000000000000, 884643232943602000000000000000000,
    387825810150638000000000000000000, 387825810150638000000000000000000, 387825810150638000000000000000000,
    387825810150638000000000000000000, 387825810150638000000000000000000, 387825810150638000000000000000000,
    284086186834762000000000000000000, 284086186834762000000000000000000, 284086186834762000000000000000000,
    284086186834762000000000000000000, 284086186834762000000000000000000, 284086186834762000000000000000000,
    293168676084798000000000000000000, 293168676084798000000000000000000, 293168676084798000000000000000000,
    635952140168105000000000000000000, 635952140168105000000000000000000, 635952140168105000000000000000000,
    635952140168105000000000000000000, 635952140168105000000000000000000, 635952140168105000000000000000000,
    244739635019611000000000000000000, 244739635019611000000000000000000, 244739635019611000000000000000000,
    244739635019611000000000000000000, 244739635019611000000000000000000, 244739635019611000000000000000000,
    132405238493273000000000000000000, 132405238493273000000000000000000, 132405238493273000000000000000000,
    132405238493273000000000000000000, 132405238493273000000000000000000, 132405238493273000000000000000000,
    684858367105834000000000000000000, 684858367105834000000000000000000, 684858367105834000000000000000000,
    684858367105834000000000000000000, 684858367105834000000000000000000, 684858367105834000000000000000000,
    111688446229048000000000000000000, 111688446229048000000000000000000, 111688446229048000000000000000000,
    111688446229048000000000000000000, 111688446229048000000000000000000, 111688446229048000000000000000000,
    1183641151720610000000000000000000, 1183641151720610000000000000000000, 1183641151720610000000000000000000,
    269291794861436000000000000000000, 269291794861436000000000000000000, 269291794861436000000000000000000,
    269291794861436000000000000000000, 269291794861436000000000000000000, 269291794861436000000000000000000,
    108509483049269000000000000000000, 108509483049269000000000000000000, 108509483049269000000000000000000,
    108509483049269000000000000000000, 108509483049269000000000000000000, 108509483049269000000000000000000,
    1037811198838450000000000000000000, 1037811198838450000000000000000000, 1037811198838450000000000000000000,
    1037811198838450000000000000000000, 1037811198838450000000000000000000, 1037811198838450000000000000000000,
    529733504559864000000000000000000, 529733504559864000000000000000000, 529733504559864000000000000000000,
    529733504559864000000000000000000, 529733504559864000000000000000000, 529733504559864000000000000000000,
    518993073019420000000000000000000, 518993073019420000000000000000000, 518993073019420000000000000000000,
    518993073019420000000000000000000, 518993073019420000000000000000000, 518993073019420000000000000000000,
    1193816850256490000000000000000000, 1193816850256490000000000000000000, 1193816850256490000000000000000000,
    560036732615648000000000000000000, 560036732615648000000000000000000, 560036732615648000000000000000000,
    560036732615648000000000000000000, 560036732615648000000000000000000, 560036732615648000000000000000000,
    1151184076576060000000000000000000, 1151184076576060000000000000000000, 1151184076576060000000000000000000,
    1151184076576060000000000000000000, 1151184076576060000000000000000000, 1151184076576060000000000000000000,
    553373766915059000000000000000000, 553373766915059000000000000000000, 553373766915059000000000000000000,
    553373766915059000000000000000000, 553373766915059000000000000000000, 553373766915059000000000000000000,
    1067288267073430000000000000000000, 1067288267073430000000000000000000, 1067288267073430000000000000000000,
    1067288267073430000000000000000000, 1067288267073430000000000000000000, 1067288267073430000000000000000000,
    378248326506365000000000000000000, 378248326506365000000000000000000, 378248326506365000000000000000000,
    378248326506365000000000000000000, 378248326506365000000000000000000, 378248326506365000000000000000000,
    838005801987109000000000000000000, 838005801987109000000000000000000, 838005801987109000000000000000000,
    838005801987109000000000000000000, 838005801987109000000000000000000, 838005801987109000000000000000000,
    202813366858157000000000000000000, 202813366858157000000000000000000, 202813366858157000000000000000000,
    202813366858157000000000000000000, 202813366858157000000000000000000, 202813366858157000000000000000000,
    936605929712279000000000000000000, 936605929712279000000000000000000, 936605929712279000000000000000000,
    936605929712279000000000000000000, 936605929712279000000000000000000, 936605929712279000000000000000000,
    785206029281347000000000000000000, 785206029281347000000000000000000, 785206029281347000000000000000000,
    785206029281347000000000000000000, 785206029281347000000000000000000, 785206029281347000000000000000000,
    264457215319174000000000000000000, 264457215319174000000000000000000, 264457215319174000000000000000000,
    264457215319174000000000000000000, 264457215319174000000000000000000, 264457215319174000000000000000000,
    1093730674430310000000000000000000, 1093730674430310000000000000000000, 1093730674430310000000000000000000,
    103672898532160000000000000000000, 103672898532160000000000000000000, 103672898532160000000000000000000,
    103672898532160000000000000000000, 103672898532160000000000000000000, 103672898532160000000000000000000,
    731157090708969000000000000000000, 731157090708969000000000000000000, 731157090708969000000000000000000,
    731157090708969000000000000000000, 731157090708969000000000000000000, 731157090708969000000000000000000,
    1135932180200280000000000000000000, 1135932180200280000000000000000000, 1135932180200280000000000000000000,
    955150196618041000000000000000000, 955150196618041000000000000000000, 955150196618041000000000000000000,
    955150196618041000000000000000000, 955150196618041000000000000000000, 955150196618041000000000000000000,
    404811071308783000000000000000000, 404811071308783000000000000000000, 404811071308783000000000000000000,
    404811071308783000000000000000000, 404811071308783000000000000000000, 404811071308783000000000000000000,
    482893851698199000000000000000000, 482893851698199000000000000000000, 482893851698199000000000000000000,
    482893851698199000000000000000000, 482893851698199000000000000000000, 482893851698199000000000000000000,
    868945552413083000000000000000000, 868945552413083000000000000000000, 868945552413083000000000000000000,
    247782857601944000000000000000000, 247782857601944000000000000000000, 247782857601944000000000000000000,
    247782857601944000000000000000000, 247782857601944000000000000000000, 247782857601944000000000000000000,
    687977897274153000000000000000000, 687977897274153000000000000000000, 687977897274153000000000000000000,
    687977897274153000000000000000000, 687977897274153000000000000000000, 687977897274153000000000000000000,
    281115557747843000000000000000000, 281115557747843000000000000000000, 281115557747843000000000000000000,
    281115557747843000000000000000000, 281115557747843000000000000000000, 281115557747843000000000000000000,
    1018880468252320000000000000000000, 1018880468252320000000000000000000, 1018880468252320000000000000000000,
    1202297812059250000000000000000000, 836728609250625000000000000000000, 836728609250625000000000000000000,
    836728609250625000000000000000000, 836728609250625000000000000000000, 836728609250625000000000000000000,
    836728609250625000000000000000000, 613090355204100000000000000000000, 613090355204100000000000000000000,
    613090355204100000000000000000000, 613090355204100000000000000000000, 613090355204100000000000000000000,
    613090355204100000000000000000000, 543369186710105000000000000000000, 543369186710105000000000000000000,
    543369186710105000000000000000000, 708939679471309000000000000000000, 708939679471309000000000000000000,
    708939679471309000000000000000000, 63577694340262300000000000000000, 63577694340262300000000000000000,
    63577694340262300000000000000000, 63577694340262300000000000000000, 63577694340262300000000000000000,
    63577694340262300000000000000000, 98894889268104300000000000000000, 98894889268104300000000000000000,
    98894889268104300000000000000000, 98894889268104300000000000000000, 98894889268104300000000000000000,
    98894889268104300000000000000000, 151747316303939000000000000000000, 151747316303939000000000000000000,
    151747316303939000000000000000000, 151747316303939000000000000000000, 151747316303939000000000000000000,
    151747316303939000000000000000000, 216734061123210000000000000000000, 216734061123210000000000000000000,
    216734061123210000000000000000000, 534703305717215000000000000000000, 534703305717215000000000000000000,
    534703305717215000000000000000000, 534703305717215000000000000000000, 534703305717215000000000000000000,
    534703305717215000000000000000000, 529281085221973000000000000000000, 529281085221973000000000000000000,
    529281085221973000000000000000000]⟩

/-- `triangle_table_orig[46]` (xg_quad_data.py 12186-12961). -/
def xgTri_46 : XgTableRule :=
  ⟨[
    [5551115123125780000, m 50516777744773600000000000000000000],
    [43748812844306300000000000000000000, 25258388872386800000000000000000000],
    [m 43748812844306300000000000000000000, 25258388872386900000000000000000000],
    [m 4993732155250310000000000000000000, m 31040114421146300000000000000000000],
    [29378393702713600000000000000000000, 11195358304431200000000000000000000],
    [m 24384661547463300000000000000000000, 19844756116715200000000000000000000],
    [4993732155250290000000000000000000, m 31040114421146300000000000000000000],
    [24384661547463300000000000000000000, 19844756116715200000000000000000000],
    [m 29378393702713600000000000000000000, 11195358304431200000000000000000000],
    [m 5824807809962500000000000000000000, m 38139174632823800000000000000000000],
    [35941898016377700000000000000000000, 14025155780822400000000000000000000],
    [m 30117090206415200000000000000000000, 24114018852001500000000000000000000],
    [5824807809962490000000000000000000, m 38139174632823800000000000000000000],
    [30117090206415300000000000000000000, 24114018852001500000000000000000000],
    [m 35941898016377700000000000000000000, 14025155780822500000000000000000000],
    [m 26752517246704900000000000000000000, m 45087881559146200000000000000000000],
    [52423509456397000000000000000000000, m 624418771254687000000000000000000],
    [m 25670992209692000000000000000000000, 45712300330400900000000000000000000],
    [26752517246704900000000000000000000, m 45087881559146200000000000000000000],
    [25670992209692100000000000000000000, 45712300330400900000000000000000000],
    [m 52423509456397000000000000000000000, m 624418771254653000000000000000000],
    [m 43867813853252100000000000000000000, m 38716524171664200000000000000000000],
    [55463400405521500000000000000000000, m 18632379119571100000000000000000000],
    [m 11595586552269400000000000000000000, 57348903291235400000000000000000000],
    [43867813853252100000000000000000000, m 38716524171664200000000000000000000],
    [11595586552269400000000000000000000, 57348903291235400000000000000000000],
    [m 55463400405521500000000000000000000, m 18632379119571100000000000000000000],
    [m 85395076125004000000000000000000000, m 49302870188239700000000000000000000],
    [85395076125004000000000000000000000, m 49302870188239600000000000000000000],
    [0, 98605740376479300000000000000000000],
    [3122502256758250000, m 53179537383682800000000000000000000],
    [46054830335773600000000000000000000, 26589768691841400000000000000000000],
    [m 46054830335773500000000000000000000, 26589768691841500000000000000000000],
    [m 23976542950788000000000000000000000, m 39923330820610600000000000000000000],
    [46562890169733000000000000000000000, m 802629880005756000000000000000000],
    [m 22586347218945100000000000000000000, 40725960700616500000000000000000000],
    [23976542950788000000000000000000000, m 39923330820610600000000000000000000],
    [22586347218945100000000000000000000, 40725960700616400000000000000000000],
    [m 46562890169733100000000000000000000, m 802629880005712000000000000000000],
    [m 87549594799702800000000000000000000, m 55924165141919500000000000000000000],
    [92206545098189900000000000000000000, m 47858090616616900000000000000000000],
    [m 4656950298487050000000000000000000, 103782255758536000000000000000000000],
    [87549594799702800000000000000000000, m 55924165141919500000000000000000000],
    [4656950298487120000000000000000000, 103782255758536000000000000000000000],
    [m 92206545098189900000000000000000000, m 47858090616616800000000000000000000],
    [m 41617075719872900000000000000000000, m 32183421694439200000000000000000000],
    [48680198628028000000000000000000000, m 19949733957410900000000000000000000],
    [m 7063122908155050000000000000000000, 52133155651850100000000000000000000],
    [41617075719872900000000000000000000, m 32183421694439200000000000000000000],
    [7063122908155100000000000000000000, 52133155651850100000000000000000000],
    [m 48680198628028000000000000000000000, m 19949733957410900000000000000000000],
    [m 54326121142564300000000000000000000, m 48706522111890300000000000000000000],
    [69344146050167600000000000000000000, m 22694539942586400000000000000000000],
    [m 15018024907603300000000000000000000, 71401062054476800000000000000000000],
    [54326121142564300000000000000000000, m 48706522111890300000000000000000000],
    [15018024907603400000000000000000000, 71401062054476700000000000000000000],
    [m 69344146050167700000000000000000000, m 22694539942586400000000000000000000],
    [m 49334938461621500000000000000000000, m 43864037323932900000000000000000000],
    [62654839865885400000000000000000000, m 20793291339939700000000000000000000],
    [m 13319901404263900000000000000000000, 64657328663872700000000000000000000],
    [49334938461621500000000000000000000, m 43864037323932900000000000000000000],
    [13319901404263900000000000000000000, 64657328663872700000000000000000000],
    [m 62654839865885400000000000000000000, m 20793291339939700000000000000000000],
    [m 98141250190288800000000000000000000, m 57360768783134400000000000000000000],
    [98746508041944100000000000000000000, m 56312431432387300000000000000000000],
    [m 605257851655328000000000000000000, 113673200215522000000000000000000000],
    [98141250190288800000000000000000000, m 57360768783134400000000000000000000],
    [605257851655394000000000000000000, 113673200215522000000000000000000000],
    [m 98746508041944200000000000000000000, m 56312431432387200000000000000000000],
    [m 6560547442567210000000000000000000, m 55766758615272800000000000000000000],
    [51575703368824500000000000000000000, 22201778559640200000000000000000000],
    [m 45015155926257300000000000000000000, 33564980055632700000000000000000000],
    [6560547442567190000000000000000000, m 55766758615272800000000000000000000],
    [45015155926257300000000000000000000, 33564980055632600000000000000000000],
    [m 51575703368824500000000000000000000, 22201778559640200000000000000000000],
    [m 16097654175693800000000000000000000, m 35256727255257700000000000000000000],
    [38582048545199200000000000000000000, 3687386170141420000000000000000000],
    [m 22484394369505500000000000000000000, 31569341085116300000000000000000000],
    [16097654175693800000000000000000000, m 35256727255257700000000000000000000],
    [22484394369505500000000000000000000, 31569341085116300000000000000000000],
    [m 38582048545199200000000000000000000, 3687386170141450000000000000000000],
    [m 32922143422069100000000000000000000, m 49258841625772300000000000000000000],
    [59120479919947800000000000000000000, m 3881991737660450000000000000000000],
    [m 26198336497878600000000000000000000, 53140833363432800000000000000000000],
    [32922143422069100000000000000000000, m 49258841625772300000000000000000000],
    [26198336497878600000000000000000000, 53140833363432800000000000000000000],
    [m 59120479919947800000000000000000000, m 3881991737660420000000000000000000],
    [m 23167087272607300000000000000000000, m 30296300817765400000000000000000000],
    [37820909785183800000000000000000000, m 4915135700886330000000000000000000],
    [m 14653822512576500000000000000000000, 35211436518651800000000000000000000],
    [23167087272607300000000000000000000, m 30296300817765400000000000000000000],
    [14653822512576500000000000000000000, 35211436518651800000000000000000000],
    [m 37820909785183800000000000000000000, m 4915135700886300000000000000000000],
    [m 32291103943378300000000000000000000, m 27337520447762200000000000000000000],
    [39820539155927800000000000000000000, m 14296156107328300000000000000000000],
    [m 7529435212549500000000000000000000, 41633676555090600000000000000000000],
    [32291103943378300000000000000000000, m 27337520447762200000000000000000000],
    [7529435212549520000000000000000000, 41633676555090600000000000000000000],
    [m 39820539155927800000000000000000000, m 14296156107328300000000000000000000],
    [m 41111557231165100000000000000000000, m 23735768634217900000000000000000000],
    [41111557231165200000000000000000000, m 23735768634217900000000000000000000],
    [0, 47471537268435800000000000000000000],
    [m 50260385029871200000000000000000000, m 29017846826570400000000000000000000],
    [50260385029871200000000000000000000, m 29017846826570300000000000000000000],
    [0, 58035693653140800000000000000000000],
    [m 7913517496054270000000000000000000, m 48533267753756900000000000000000000],
    [45987801551452700000000000000000000, 17413326692002800000000000000000000],
    [m 38074284055398400000000000000000000, 31119941061754100000000000000000000],
    [7913517496054270000000000000000000, m 48533267753756900000000000000000000],
    [38074284055398400000000000000000000, 31119941061754100000000000000000000],
    [m 45987801551452700000000000000000000, 17413326692002900000000000000000000],
    [m 79501562539103100000000000000000000, m 48917333384362500000000000000000000],
    [82114434665802100000000000000000000, m 44391706107239300000000000000000000],
    [m 2612872126698970000000000000000000, 93309039491601900000000000000000000],
    [79501562539103100000000000000000000, m 48917333384362500000000000000000000],
    [2612872126699030000000000000000000, 93309039491601900000000000000000000],
    [m 82114434665802100000000000000000000, m 44391706107239300000000000000000000],
    [m 43520622836381700000000000000000000, m 55808744003610700000000000000000000],
    [70092101478620200000000000000000000, m 9785592963022390000000000000000000],
    [m 26571478642238400000000000000000000, 65594336966633200000000000000000000],
    [43520622836381700000000000000000000, m 55808744003610700000000000000000000],
    [26571478642238500000000000000000000, 65594336966633100000000000000000000],
    [m 70092101478620200000000000000000000, m 9785592963022340000000000000000000],
    [m 64094592211243900000000000000000000, m 55694713731397600000000000000000000],
    [80280333053514300000000000000000000, m 27660188234442700000000000000000000],
    [m 16185740842270300000000000000000000, 83354901965840300000000000000000000],
    [64094592211243900000000000000000000, m 55694713731397600000000000000000000],
    [16185740842270400000000000000000000, 83354901965840300000000000000000000],
    [m 80280333053514300000000000000000000, m 27660188234442600000000000000000000],
    [m 31732449637355300000000000000000000, m 55689799448943800000000000000000000],
    [64095005873123600000000000000000000, 363792214211955000000000000000000],
    [m 32362556235768300000000000000000000, 55326007234731900000000000000000000],
    [31732449637355300000000000000000000, m 55689799448943800000000000000000000],
    [32362556235768400000000000000000000, 55326007234731900000000000000000000],
    [m 64095005873123600000000000000000000, 363792214212000000000000000000000],
    [m 19862767910431300000000000000000000, m 48859325854023300000000000000000000],
    [52244801356581600000000000000000000, 7228001327103780000000000000000000],
    [m 32382033446150300000000000000000000, 41631324526919500000000000000000000],
    [19862767910431300000000000000000000, m 48859325854023300000000000000000000],
    [32382033446150300000000000000000000, 41631324526919500000000000000000000],
    [m 52244801356581600000000000000000000, 7228001327103810000000000000000000],
    [m 12403617126406600000000000000000000, m 26117953849550200000000000000000000],
    [28820620091783400000000000000000000, 2317129394491260000000000000000000],
    [m 16417002965376800000000000000000000, 23800824455059000000000000000000000],
    [12403617126406600000000000000000000, m 26117953849550200000000000000000000],
    [16417002965376800000000000000000000, 23800824455059000000000000000000000],
    [m 28820620091783400000000000000000000, 2317129394491280000000000000000000],
    [m 43416110602837900000000000000000000, m 48398948921467200000000000000000000],
    [63622774583875000000000000000000000, m 13399980254838900000000000000000000],
    [m 20206663981037100000000000000000000, 61798929176306200000000000000000000],
    [43416110602837900000000000000000000, m 48398948921467200000000000000000000],
    [20206663981037100000000000000000000, 61798929176306200000000000000000000],
    [m 63622774583875000000000000000000000, m 13399980254838900000000000000000000],
    [m 38864284496138300000000000000000000, m 52999026102693300000000000000000000],
    [65330645228836100000000000000000000, m 7157944622214830000000000000000000],
    [m 26466360732697800000000000000000000, 60156970724908100000000000000000000],
    [38864284496138300000000000000000000, m 52999026102693300000000000000000000],
    [26466360732697800000000000000000000, 60156970724908100000000000000000000],
    [m 65330645228836100000000000000000000, m 7157944622214770000000000000000000],
    [m 49742313896156900000000000000000000, m 52583495263659700000000000000000000],
    [70409799666186400000000000000000000, m 16786359845261700000000000000000000],
    [m 20667485770029500000000000000000000, 69369855108921400000000000000000000],
    [49742313896156900000000000000000000, m 52583495263659700000000000000000000],
    [20667485770029500000000000000000000, 69369855108921400000000000000000000],
    [m 70409799666186400000000000000000000, m 16786359845261700000000000000000000],
    [m 6550690906007180000000000000000000, m 57355483546767900000000000000000000],
    [52946651250845000000000000000000000, 23004677036442100000000000000000000],
    [m 46395960344837800000000000000000000, 34350806510325900000000000000000000],
    [6550690906007170000000000000000000, m 57355483546767900000000000000000000],
    [46395960344837800000000000000000000, 34350806510325900000000000000000000],
    [m 52946651250845000000000000000000000, 23004677036442100000000000000000000],
    [m 54046107587222400000000000000000000, m 55557204112323400000000000000000000],
    [75137003918120600000000000000000000, m 19026700090039800000000000000000000],
    [m 21090896330898100000000000000000000, 74583904202363300000000000000000000],
    [54046107587222500000000000000000000, m 55557204112323400000000000000000000],
    [21090896330898200000000000000000000, 74583904202363300000000000000000000],
    [m 75137003918120600000000000000000000, m 19026700090039800000000000000000000],
    [m 19374430311448600000000000000000000, m 55739761697092700000000000000000000],
    [57959264786297400000000000000000000, 11091132014980600000000000000000000],
    [m 38584834474848800000000000000000000, 44648629682112200000000000000000000],
    [19374430311448600000000000000000000, m 55739761697092700000000000000000000],
    [38584834474848800000000000000000000, 44648629682112200000000000000000000],
    [m 57959264786297400000000000000000000, 11091132014980700000000000000000000],
    [m 21797347584325400000000000000000000, m 21246252441995200000000000000000000],
    [29298468142147800000000000000000000, m 8253930522147500000000000000000000],
    [m 7501120557822360000000000000000000, 29500182964142800000000000000000000],
    [21797347584325400000000000000000000, m 21246252441995200000000000000000000],
    [7501120557822370000000000000000000, 29500182964142800000000000000000000],
    [m 29298468142147700000000000000000000, m 8253930522147480000000000000000000],
    [m 31297864663886600000000000000000000, m 18069830588755400000000000000000000],
    [31297864663886600000000000000000000, m 18069830588755400000000000000000000],
    [0, 36139661177510800000000000000000000],
    [m 10030569436081400000000000000000000, m 5791151964046810000000000000000000],
    [10030569436081400000000000000000000, m 5791151964046810000000000000000000],
    [0, 11582303928093700000000000000000000],
    [m 19584532512471800000000000000000000, m 57359024620476600000000000000000000],
    [59466638713865700000000000000000000, 11718809633195400000000000000000000],
    [m 39882106201393900000000000000000000, 45640214987281200000000000000000000],
    [19584532512471900000000000000000000, m 57359024620476600000000000000000000],
    [39882106201393900000000000000000000, 45640214987281200000000000000000000],
    [m 59466638713865700000000000000000000, 11718809633195400000000000000000000],
    [m 63168655681204900000000000000000000, m 48075999227147000000000000000000000],
    [73219364483632700000000000000000000, m 30667660929262100000000000000000000],
    [m 10050708802427800000000000000000000, 78743660156409100000000000000000000],
    [63168655681204900000000000000000000, m 48075999227147000000000000000000000],
    [10050708802427900000000000000000000, 78743660156409100000000000000000000],
    [m 73219364483632800000000000000000000, m 30667660929262100000000000000000000],
    [m 90233030436033500000000000000000000, m 57371658547584400000000000000000000],
    [94801828977471500000000000000000000, m 49458267344267200000000000000000000],
    [m 4568798541437990000000000000000000, 106829925891852000000000000000000000],
    [90233030436033500000000000000000000, m 57371658547584400000000000000000000],
    [4568798541438060000000000000000000, 106829925891852000000000000000000000],
    [m 94801828977471500000000000000000000, m 49458267344267200000000000000000000],
    [m 60642348255765900000000000000000000, m 52698535358924500000000000000000000],
    [75959444490944100000000000000000000, m 26168546455174000000000000000000000],
    [m 15317096235178100000000000000000000, 78867081814098600000000000000000000],
    [60642348255765900000000000000000000, m 52698535358924500000000000000000000],
    [15317096235178200000000000000000000, 78867081814098500000000000000000000],
    [m 75959444490944100000000000000000000, m 26168546455173900000000000000000000],
    [5551115123125780000, m 11344215054773400000000000000000000],
    [9824378423427620000000000000000000, 5672107527386690000000000000000000],
    [m 9824378423427620000000000000000000, 5672107527386720000000000000000000],
    [m 80972189677200300000000000000000000, m 55728798211338800000000000000000000],
    [88748649811996300000000000000000000, m 42259574154838100000000000000000000],
    [m 7776460134796030000000000000000000, 97988372366177000000000000000000000],
    [80972189677200300000000000000000000, m 55728798211338800000000000000000000],
    [7776460134796090000000000000000000, 97988372366177000000000000000000000],
    [m 88748649811996400000000000000000000, m 42259574154838100000000000000000000],
    [m 58209787586990200000000000000000000, m 42586101506139000000000000000000000],
    [65985539545954200000000000000000000, m 29118104046160100000000000000000000],
    [m 7775751958963970000000000000000000, 71704205552299100000000000000000000],
    [58209787586990200000000000000000000, m 42586101506139000000000000000000000],
    [7775751958964030000000000000000000, 71704205552299100000000000000000000],
    [m 65985539545954200000000000000000000, m 29118104046160000000000000000000000],
    [m 83686548692344400000000000000000000, m 57375019535379500000000000000000000],
    [91531498806439300000000000000000000, m 43787167354923900000000000000000000],
    [m 7844950114094870000000000000000000, 101162186890303000000000000000000000],
    [83686548692344400000000000000000000, m 57375019535379500000000000000000000],
    [7844950114094940000000000000000000, 101162186890303000000000000000000000],
    [m 91531498806439300000000000000000000, m 43787167354923800000000000000000000],
    [m 10243921312001800000000000000000000, m 16775873288237500000000000000000000],
    [19650293094283300000000000000000000, m 483559446443627000000000000000000],
    [m 9406371782281530000000000000000000, 17259432734681200000000000000000000],
    [10243921312001800000000000000000000, m 16775873288237500000000000000000000],
    [9406371782281550000000000000000000, 17259432734681100000000000000000000],
    [m 19650293094283400000000000000000000, m 483559446443615000000000000000000],
    [m 52704295544170000000000000000000000, m 36463881029295200000000000000000000],
    [57930795064028100000000000000000000, m 27411318315166600000000000000000000],
    [m 5226499519858050000000000000000000, 63875199344461800000000000000000000],
    [52704295544170000000000000000000000, m 36463881029295200000000000000000000],
    [5226499519858100000000000000000000, 63875199344461800000000000000000000],
    [m 57930795064028100000000000000000000, m 27411318315166600000000000000000000],
    [m 71820502549667100000000000000000000, m 48207876525200900000000000000000000],
    [77659497008161000000000000000000000, m 38094441457976400000000000000000000],
    [m 5838994458493830000000000000000000, 86302317983177300000000000000000000],
    [71820502549667100000000000000000000, m 48207876525200900000000000000000000],
    [5838994458493870000000000000000000, 86302317983177300000000000000000000],
    [m 77659497008161000000000000000000000, m 38094441457976300000000000000000000],
    [m 78211800995999000000000000000000000, m 52747840671084500000000000000000000],
    [84786870513932700000000000000000000, m 41359486202726000000000000000000000],
    [m 6575069517933630000000000000000000, 94107326873810500000000000000000000],
    [78211800995999000000000000000000000, m 52747840671084500000000000000000000],
    [6575069517933700000000000000000000, 94107326873810500000000000000000000],
    [m 84786870513932700000000000000000000, m 41359486202725900000000000000000000],
    [m 85578878348644000000000000000000000, m 53180888262584500000000000000000000],
    [88845439405541800000000000000000000, m 47523038546011500000000000000000000],
    [m 3266561056897810000000000000000000, 100703926808596000000000000000000000],
    [85578878348644000000000000000000000, m 53180888262584500000000000000000000],
    [3266561056897890000000000000000000, 100703926808596000000000000000000000],
    [m 88845439405541800000000000000000000, m 47523038546011500000000000000000000],
    [m 26080043841003700000000000000000000, m 52832053993193300000000000000000000],
    [58793922812718300000000000000000000, 3830046498475550000000000000000000],
    [m 32713878971714600000000000000000000, 49002007494717800000000000000000000],
    [26080043841003700000000000000000000, m 52832053993193300000000000000000000],
    [32713878971714600000000000000000000, 49002007494717800000000000000000000],
    [m 58793922812718300000000000000000000, 3830046498475590000000000000000000],
    [m 13061737230200300000000000000000000, m 52863298211428100000000000000000000],
    [52311827794029300000000000000000000, 15119852846803600000000000000000000],
    [m 39250090563829000000000000000000000, 37743445364624600000000000000000000],
    [13061737230200300000000000000000000, m 52863298211428100000000000000000000],
    [39250090563829000000000000000000000, 37743445364624500000000000000000000],
    [m 52311827794029300000000000000000000, 15119852846803600000000000000000000],
    [m 90769196814375400000000000000000000, m 52405620214905800000000000000000000],
    [90769196814375500000000000000000000, m 52405620214905800000000000000000000],
    [0, 104811240429812000000000000000000000],
    [m 44521414457403900000000000000000000, m 57371140175475300000000000000000000],
    [71945572064741600000000000000000000, m 9871105844789940000000000000000000],
    [m 27424157607337600000000000000000000, 67242246020265300000000000000000000],
    [44521414457403900000000000000000000, m 57371140175475300000000000000000000],
    [27424157607337700000000000000000000, 67242246020265200000000000000000000],
    [m 71945572064741600000000000000000000, m 9871105844789890000000000000000000],
    [m 69780908932146600000000000000000000, m 52448444053919300000000000000000000],
    [80312139405734300000000000000000000, m 34207817807447700000000000000000000],
    [m 10531230473587700000000000000000000, 86656261861367100000000000000000000],
    [69780908932146600000000000000000000, m 52448444053919300000000000000000000],
    [10531230473587800000000000000000000, 86656261861367100000000000000000000],
    [m 80312139405734300000000000000000000, m 34207817807447600000000000000000000],
    [m 66899206817769500000000000000000000, m 42468204214393900000000000000000000],
    [70228147111655200000000000000000000, m 36702310490020600000000000000000000],
    [m 3328940293885660000000000000000000, 79170514704414500000000000000000000],
    [66899206817769500000000000000000000, m 42468204214393900000000000000000000],
    [3328940293885730000000000000000000, 79170514704414500000000000000000000],
    [m 70228147111655200000000000000000000, m 36702310490020500000000000000000000],
    [m 75250391870932500000000000000000000, m 43445834003307700000000000000000000],
    [75250391870932500000000000000000000, m 43445834003307700000000000000000000],
    [0, 86891668006615400000000000000000000],
    [m 72891023006190000000000000000000000, m 55555967179393700000000000000000000],
    [84558390412264400000000000000000000, m 35347494041499600000000000000000000],
    [m 11667367406074400000000000000000000, 90903461220893400000000000000000000],
    [72891023006190000000000000000000000, m 55555967179393700000000000000000000],
    [11667367406074500000000000000000000, 90903461220893300000000000000000000],
    [m 84558390412264400000000000000000000, m 35347494041499600000000000000000000],
    [m 37024530768151500000000000000000000, m 43207267925178500000000000000000000],
    [55930857035400900000000000000000000, m 10460550245828500000000000000000000],
    [m 18906326267249400000000000000000000, 53667818171007100000000000000000000],
    [37024530768151500000000000000000000, m 43207267925178500000000000000000000],
    [18906326267249400000000000000000000, 53667818171007100000000000000000000],
    [m 55930857035400900000000000000000000, m 10460550245828500000000000000000000],
    [0, m 44163717527386100000000000000000000],
    [38246901304276500000000000000000000, 22081858763693100000000000000000000],
    [m 38246901304276400000000000000000000, 22081858763693100000000000000000000],
    [m 32275953620672100000000000000000000, m 36120487686156200000000000000000000],
    [47419236743630400000000000000000000, m 9891551923792270000000000000000000],
    [m 15143283122958200000000000000000000, 46012039609948600000000000000000000],
    [32275953620672100000000000000000000, m 36120487686156200000000000000000000],
    [15143283122958300000000000000000000, 46012039609948500000000000000000000],
    [m 47419236743630400000000000000000000, m 9891551923792240000000000000000000],
    [m 66470762672695800000000000000000000, m 57348736410677200000000000000000000],
    [82900843942932000000000000000000000, m 28891000878142400000000000000000000],
    [m 16430081270236100000000000000000000, 86239737288819700000000000000000000],
    [66470762672695800000000000000000000, m 57348736410677200000000000000000000],
    [16430081270236200000000000000000000, 86239737288819700000000000000000000],
    [m 82900843942932000000000000000000000, m 28891000878142300000000000000000000],
    [m 32306760913108800000000000000000000, m 57339310967499000000000000000000000],
    [65810680389904300000000000000000000, 691179819007182000000000000000000],
    [m 33503919476795500000000000000000000, 56648131148491900000000000000000000],
    [32306760913108800000000000000000000, m 57339310967499000000000000000000000],
    [33503919476795500000000000000000000, 56648131148491900000000000000000000],
    [m 65810680389904200000000000000000000, 691179819007215000000000000000000],
    [m 20015287390691000000000000000000000, m 11555831562923100000000000000000000],
    [20015287390691000000000000000000000, m 11555831562923100000000000000000000],
    [m 5551115123125780000, 23111663125846300000000000000000000],
    [m 61468169515746300000000000000000000, m 35488664216509700000000000000000000],
    [61468169515746300000000000000000000, m 35488664216509600000000000000000000],
    [0, 70977328433019400000000000000000000],
    [m 13683702205917700000000000000000000, m 43325524227150100000000000000000000],
    [44362855715949000000000000000000000, 9812328385429200000000000000000000],
    [m 30679153510031300000000000000000000, 33513195841720900000000000000000000],
    [13683702205917600000000000000000000, m 43325524227150100000000000000000000],
    [30679153510031300000000000000000000, 33513195841720900000000000000000000],
    [m 44362855715949000000000000000000000, 9812328385429240000000000000000000],
    [m 5551115123125780000, 22204460492503100000],
    [m 55947816484895400000000000000000000, m 57318116904317400000000000000000000],
    [77612853578672800000000000000000000, m 19793171910030500000000000000000000],
    [m 21665037093777400000000000000000000, 77111288814347900000000000000000000],
    [55947816484895400000000000000000000, m 57318116904317400000000000000000000],
    [21665037093777500000000000000000000, 77111288814347900000000000000000000],
    [m 77612853578672800000000000000000000, m 19793171910030400000000000000000000],
    [m 75690025149534100000000000000000000, m 57316379219729500000000000000000000],
    [87482453031995300000000000000000000, m 36891294982714900000000000000000000],
    [m 11792427882461200000000000000000000, 94207674202444400000000000000000000],
    [75690025149534100000000000000000000, m 57316379219729500000000000000000000],
    [11792427882461200000000000000000000, 94207674202444400000000000000000000],
    [m 87482453031995300000000000000000000, m 36891294982714800000000000000000000],
    [m 5551115123125780000, m 22231995200693700000000000000000000],
    [19253472620614500000000000000000000, 11115997600346900000000000000000000],
    [m 19253472620614500000000000000000000, 11115997600346900000000000000000000],
    [m 92282620861069300000000000000000000, m 55502955244943800000000000000000000],
    [94208279657766700000000000000000000, m 52167616371022000000000000000000000],
    [m 1925658796697330000000000000000000, 107670571615966000000000000000000000],
    [92282620861069300000000000000000000, m 55502955244943800000000000000000000],
    [1925658796697390000000000000000000, 107670571615966000000000000000000000],
    [m 94208279657766700000000000000000000, m 52167616371021900000000000000000000],
    [m 96136090469234400000000000000000000, m 55504197711250800000000000000000000],
    [96136090469234400000000000000000000, m 55504197711250700000000000000000000],
    [0, 111008395422501000000000000000000000],
    [m 94945587611159400000000000000000000, m 57286876316098500000000000000000000],
    [97084683998778100000000000000000000, m 53581852690455900000000000000000000],
    [m 2139096387618630000000000000000000, 110868729006554000000000000000000000],
    [94945587611159400000000000000000000, m 57286876316098500000000000000000000],
    [2139096387618710000000000000000000, 110868729006554000000000000000000000],
    [m 97084683998778100000000000000000000, m 53581852690455900000000000000000000],
    [m 99852123327278200000000000000000000, m 57649650282159800000000000000000000],
    [99852123327278200000000000000000000, m 57649650282159800000000000000000000],
    [0, 115299300564320000000000000000000000]],
   [260909619045285000000000000000000, 260909619045285000000000000000000, 260909619045285000000000000000000,
    771404886185342000000000000000000, 771404886185342000000000000000000, 771404886185342000000000000000000,
    771404886185342000000000000000000, 771404886185342000000000000000000, 771404886185342000000000000000000,
    748247598586078000000000000000000, 748247598586078000000000000000000, 748247598586078000000000000000000,
    748247598586078000000000000000000, 748247598586078000000000000000000, 748247598586078000000000000000000,
    534663240093695000000000000000000, 534663240093695000000000000000000, 534663240093695000000000000000000,
    534663240093695000000000000000000, 534663240093695000000000000000000, 534663240093695000000000000000000,
    594132539384631000000000000000000, 594132539384631000000000000000000, 594132539384631000000000000000000,
    594132539384631000000000000000000, 594132539384631000000000000000000, 594132539384631000000000000000000,
    216068000348610000000000000000000, 216068000348610000000000000000000, 216068000348610000000000000000000,
    379235361988024000000000000000000, 379235361988024000000000000000000, 379235361988024000000000000000000,
    655193594644162000000000000000000, 655193594644162000000000000000000, 655193594644162000000000000000000,
    655193594644162000000000000000000, 655193594644162000000000000000000, 655193594644162000000000000000000,
    116121993153936000000000000000000, 116121993153936000000000000000000, 116121993153936000000000000000000,
    116121993153936000000000000000000, 116121993153936000000000000000000, 116121993153936000000000000000000,
    722977885365734000000000000000000, 722977885365734000000000000000000, 722977885365734000000000000000000,
    722977885365734000000000000000000, 722977885365734000000000000000000, 722977885365734000000000000000000,
    443122103427260000000000000000000, 443122103427260000000000000000000, 443122103427260000000000000000000,
    443122103427260000000000000000000, 443122103427260000000000000000000, 443122103427260000000000000000000,
    551482717171390000000000000000000, 551482717171390000000000000000000, 551482717171390000000000000000000,
    551482717171390000000000000000000, 551482717171390000000000000000000, 551482717171390000000000000000000,
    22814069694688200000000000000000, 22814069694688200000000000000000, 22814069694688200000000000000000,
    22814069694688200000000000000000, 22814069694688200000000000000000, 22814069694688200000000000000000,
    285038818015255000000000000000000, 285038818015255000000000000000000, 285038818015255000000000000000000,
    285038818015255000000000000000000, 285038818015255000000000000000000, 285038818015255000000000000000000,
    795961020284760000000000000000000, 795961020284760000000000000000000, 795961020284760000000000000000000,
    795961020284760000000000000000000, 795961020284760000000000000000000, 795961020284760000000000000000000,
    496901155141467000000000000000000, 496901155141467000000000000000000, 496901155141467000000000000000000,
    496901155141467000000000000000000, 496901155141467000000000000000000, 496901155141467000000000000000000,
    818694354738019000000000000000000, 818694354738019000000000000000000, 818694354738019000000000000000000,
    818694354738019000000000000000000, 818694354738019000000000000000000, 818694354738019000000000000000000,
    832896774358327000000000000000000, 832896774358327000000000000000000, 832896774358327000000000000000000,
    832896774358327000000000000000000, 832896774358327000000000000000000, 832896774358327000000000000000000,
    785072210099399000000000000000000, 785072210099399000000000000000000, 785072210099399000000000000000000,
    712242423821491000000000000000000, 712242423821491000000000000000000, 712242423821491000000000000000000,
    553003480569057000000000000000000, 553003480569057000000000000000000, 553003480569057000000000000000000,
    553003480569057000000000000000000, 553003480569057000000000000000000, 553003480569057000000000000000000,
    302894991760204000000000000000000, 302894991760204000000000000000000, 302894991760204000000000000000000,
    302894991760204000000000000000000, 302894991760204000000000000000000, 302894991760204000000000000000000,
    247799370456882000000000000000000, 247799370456882000000000000000000, 247799370456882000000000000000000,
    247799370456882000000000000000000, 247799370456882000000000000000000, 247799370456882000000000000000000,
    219654401601883000000000000000000, 219654401601883000000000000000000, 219654401601883000000000000000000,
    219654401601883000000000000000000, 219654401601883000000000000000000, 219654401601883000000000000000000,
    273496667132073000000000000000000, 273496667132073000000000000000000, 273496667132073000000000000000000,
    273496667132073000000000000000000, 273496667132073000000000000000000, 273496667132073000000000000000000,
    556931446995822000000000000000000, 556931446995822000000000000000000, 556931446995822000000000000000000,
    556931446995822000000000000000000, 556931446995822000000000000000000, 556931446995822000000000000000000,
    934910072804370000000000000000000, 934910072804370000000000000000000, 934910072804370000000000000000000,
    934910072804370000000000000000000, 934910072804370000000000000000000, 934910072804370000000000000000000,
    530476102022040000000000000000000, 530476102022040000000000000000000, 530476102022040000000000000000000,
    530476102022040000000000000000000, 530476102022040000000000000000000, 530476102022040000000000000000000,
    401700411934115000000000000000000, 401700411934115000000000000000000, 401700411934115000000000000000000,
    401700411934115000000000000000000, 401700411934115000000000000000000, 401700411934115000000000000000000,
    397696236186070000000000000000000, 397696236186070000000000000000000, 397696236186070000000000000000000,
    397696236186070000000000000000000, 397696236186070000000000000000000, 397696236186070000000000000000000,
    127099677826631000000000000000000, 127099677826631000000000000000000, 127099677826631000000000000000000,
    127099677826631000000000000000000, 127099677826631000000000000000000, 127099677826631000000000000000000,
    250066615326478000000000000000000, 250066615326478000000000000000000, 250066615326478000000000000000000,
    250066615326478000000000000000000, 250066615326478000000000000000000, 250066615326478000000000000000000,
    287289434590960000000000000000000, 287289434590960000000000000000000, 287289434590960000000000000000000,
    287289434590960000000000000000000, 287289434590960000000000000000000, 287289434590960000000000000000000,
    964878619686517000000000000000000, 964878619686517000000000000000000, 964878619686517000000000000000000,
    964878619686517000000000000000000, 964878619686517000000000000000000, 964878619686517000000000000000000,
    924271500791604000000000000000000, 924271500791604000000000000000000, 924271500791604000000000000000000,
    1121610618959590000000000000000000, 1121610618959590000000000000000000, 1121610618959590000000000000000000,
    124956629097483000000000000000000, 124956629097483000000000000000000, 124956629097483000000000000000000,
    124956629097483000000000000000000, 124956629097483000000000000000000, 124956629097483000000000000000000,
    454165861582643000000000000000000, 454165861582643000000000000000000, 454165861582643000000000000000000,
    454165861582643000000000000000000, 454165861582643000000000000000000, 454165861582643000000000000000000,
    52581529718257400000000000000000, 52581529718257400000000000000000, 52581529718257400000000000000000,
    52581529718257400000000000000000, 52581529718257400000000000000000, 52581529718257400000000000000000,
    363745738630400000000000000000000, 363745738630400000000000000000000, 363745738630400000000000000000000,
    363745738630400000000000000000000, 363745738630400000000000000000000, 363745738630400000000000000000000,
    1130737663740010000000000000000000, 1130737663740010000000000000000000, 1130737663740010000000000000000000,
    167367830294361000000000000000000, 167367830294361000000000000000000, 167367830294361000000000000000000,
    167367830294361000000000000000000, 167367830294361000000000000000000, 167367830294361000000000000000000,
    555065536684876000000000000000000, 555065536684876000000000000000000, 555065536684876000000000000000000,
    555065536684876000000000000000000, 555065536684876000000000000000000, 555065536684876000000000000000000,
    67947495016841400000000000000000, 67947495016841400000000000000000, 67947495016841400000000000000000,
    67947495016841400000000000000000, 67947495016841400000000000000000, 67947495016841400000000000000000,
    1083844858480740000000000000000000, 1083844858480740000000000000000000, 1083844858480740000000000000000000,
    1083844858480740000000000000000000, 1083844858480740000000000000000000, 1083844858480740000000000000000000,
    654930068604333000000000000000000, 654930068604333000000000000000000, 654930068604333000000000000000000,
    654930068604333000000000000000000, 654930068604333000000000000000000, 654930068604333000000000000000000,
    399473610362976000000000000000000, 399473610362976000000000000000000, 399473610362976000000000000000000,
    399473610362976000000000000000000, 399473610362976000000000000000000, 399473610362976000000000000000000,
    276509845494608000000000000000000, 276509845494608000000000000000000, 276509845494608000000000000000000,
    276509845494608000000000000000000, 276509845494608000000000000000000, 276509845494608000000000000000000,
    216304742586648000000000000000000, 216304742586648000000000000000000, 216304742586648000000000000000000,
    216304742586648000000000000000000, 216304742586648000000000000000000, 216304742586648000000000000000000,
    442647824843251000000000000000000, 442647824843251000000000000000000, 442647824843251000000000000000000,
    442647824843251000000000000000000, 442647824843251000000000000000000, 442647824843251000000000000000000,
    463892557883417000000000000000000, 463892557883417000000000000000000, 463892557883417000000000000000000,
    463892557883417000000000000000000, 463892557883417000000000000000000, 463892557883417000000000000000000,
    168305057084501000000000000000000, 168305057084501000000000000000000, 168305057084501000000000000000000,
    111092009489152000000000000000000, 111092009489152000000000000000000, 111092009489152000000000000000000,
    111092009489152000000000000000000, 111092009489152000000000000000000, 111092009489152000000000000000000,
    330945953613295000000000000000000, 330945953613295000000000000000000, 330945953613295000000000000000000,
    330945953613295000000000000000000, 330945953613295000000000000000000, 330945953613295000000000000000000,
    524562820573358000000000000000000, 524562820573358000000000000000000, 524562820573358000000000000000000,
    524562820573358000000000000000000, 524562820573358000000000000000000, 524562820573358000000000000000000,
    422394866966702000000000000000000, 422394866966702000000000000000000, 422394866966702000000000000000000,
    206810239508454000000000000000000, 206810239508454000000000000000000, 206810239508454000000000000000000,
    206810239508454000000000000000000, 206810239508454000000000000000000, 206810239508454000000000000000000,
    691051231312354000000000000000000, 691051231312354000000000000000000, 691051231312354000000000000000000,
    691051231312354000000000000000000, 691051231312354000000000000000000, 691051231312354000000000000000000,
    725418224478355000000000000000000, 725418224478355000000000000000000, 725418224478355000000000000000000,
    826908746946387000000000000000000, 826908746946387000000000000000000, 826908746946387000000000000000000,
    826908746946387000000000000000000, 826908746946387000000000000000000, 826908746946387000000000000000000,
    98398031116890900000000000000000, 98398031116890900000000000000000, 98398031116890900000000000000000,
    98398031116890900000000000000000, 98398031116890900000000000000000, 98398031116890900000000000000000,
    126316696953337000000000000000000, 126316696953337000000000000000000, 126316696953337000000000000000000,
    126316696953337000000000000000000, 126316696953337000000000000000000, 126316696953337000000000000000000,
    1036853122953850000000000000000000, 1036853122953850000000000000000000, 1036853122953850000000000000000000,
    653585935246822000000000000000000, 653585935246822000000000000000000, 653585935246822000000000000000000,
    762025481716896000000000000000000, 762025481716896000000000000000000, 762025481716896000000000000000000,
    762025481716896000000000000000000, 762025481716896000000000000000000, 762025481716896000000000000000000,
    1149223872800850000000000000000000, 117599148179202000000000000000000, 117599148179202000000000000000000,
    117599148179202000000000000000000, 117599148179202000000000000000000, 117599148179202000000000000000000,
    117599148179202000000000000000000, 92048820580289900000000000000000, 92048820580289900000000000000000,
    92048820580289900000000000000000, 92048820580289900000000000000000, 92048820580289900000000000000000,
    92048820580289900000000000000000, 1122654236151000000000000000000000, 1122654236151000000000000000000000,
    1122654236151000000000000000000000, 112154561618584000000000000000000, 112154561618584000000000000000000,
    112154561618584000000000000000000, 112154561618584000000000000000000, 112154561618584000000000000000000,
    112154561618584000000000000000000, 77829133241896900000000000000000, 77829133241896900000000000000000,
    77829133241896900000000000000000, 45263327991360000000000000000000, 45263327991360000000000000000000,
    45263327991360000000000000000000, 45263327991360000000000000000000, 45263327991360000000000000000000,
    45263327991360000000000000000000, 2441363741933410000000000000000, 2441363741933410000000000000000,
    2441363741933410000000000000000]⟩

/-- `triangle_table_orig[47]` (xg_quad_data.py 12962-13765). -/
def xgTri_47 : XgTableRule :=
  ⟨[
    [5551115123125780000, m 5488581773174420000000000000000000],
    [4753251246317300000000000000000000, 2744290886587230000000000000000000],
    [m 4753251246317290000000000000000000, 2744290886587230000000000000000000],
    [m 96663742233248200000000000000000000, m 56535389802881200000000000000000000],
    [97292954898774900000000000000000000, m 55445561497423100000000000000000000],
    [m 629212665526646000000000000000000, 111980951300304000000000000000000000],
    [96663742233248200000000000000000000, m 56535389802881200000000000000000000],
    [629212665526713000000000000000000, 111980951300304000000000000000000000],
    [m 97292954898774900000000000000000000, m 55445561497423100000000000000000000],
    [m 55421586636589600000000000000000000, m 43595283427447400000000000000000000],
    [65465416251647000000000000000000000, m 26198860231603100000000000000000000],
    [m 10043829615057300000000000000000000, 69794143659050500000000000000000000],
    [55421586636589600000000000000000000, m 43595283427447400000000000000000000],
    [10043829615057400000000000000000000, 69794143659050500000000000000000000],
    [m 65465416251647000000000000000000000, m 26198860231603000000000000000000000],
    [m 61264177937586400000000000000000000, m 42805378386933800000000000000000000],
    [67702634070483200000000000000000000, m 31653645242453100000000000000000000],
    [m 6438456132896810000000000000000000, 74459023629386900000000000000000000],
    [61264177937586400000000000000000000, m 42805378386933800000000000000000000],
    [6438456132896860000000000000000000, 74459023629386900000000000000000000],
    [m 67702634070483300000000000000000000, m 31653645242453000000000000000000000],
    [m 9131036764625680000000000000000000, m 5271806534036990000000000000000000],
    [9131036764625670000000000000000000, m 5271806534036980000000000000000000],
    [m 5551115123125780000, 10543613068074000000000000000000000],
    [m 79684085415639400000000000000000000, m 49023992523710000000000000000000000],
    [82298065628291000000000000000000000, m 44496445985417800000000000000000000],
    [m 2613980212651570000000000000000000, 93520438509127900000000000000000000],
    [79684085415639400000000000000000000, m 49023992523710000000000000000000000],
    [2613980212651650000000000000000000, 93520438509127900000000000000000000],
    [m 82298065628291000000000000000000000, m 44496445985417700000000000000000000],
    [m 97128586885482400000000000000000000, m 57553352291636300000000000000000000],
    [98406958600253600000000000000000000, m 55339147530693700000000000000000000],
    [m 1278371714771130000000000000000000, 112892499822330000000000000000000000],
    [97128586885482400000000000000000000, m 57553352291636300000000000000000000],
    [1278371714771210000000000000000000, 112892499822330000000000000000000000],
    [m 98406958600253600000000000000000000, m 55339147530693600000000000000000000],
    [m 93648904794849600000000000000000000, m 55999425828931500000000000000000000],
    [95321377762621900000000000000000000, m 53102617674464300000000000000000000],
    [m 1672472967772330000000000000000000, 109102043503396000000000000000000000],
    [93648904794849600000000000000000000, m 55999425828931500000000000000000000],
    [1672472967772420000000000000000000, 109102043503396000000000000000000000],
    [m 95321377762622000000000000000000000, m 53102617674464200000000000000000000],
    [m 84840429261309500000000000000000000, m 48982644672180500000000000000000000],
    [84840429261309600000000000000000000, m 48982644672180400000000000000000000],
    [m 11102230246251600000, 97965289344361000000000000000000000],
    [m 5394527344979110000000000000000000, m 22457611472173400000000000000000000],
    [22146125715712600000000000000000000, 6557008013925000000000000000000000],
    [m 16751598370733500000000000000000000, 15900603458248500000000000000000000],
    [5394527344979090000000000000000000, m 22457611472173400000000000000000000],
    [16751598370733500000000000000000000, 15900603458248500000000000000000000],
    [m 22146125715712600000000000000000000, 6557008013925010000000000000000000],
    [m 10288337054183000000000000000000000, m 30138835771850800000000000000000000],
    [31245165946001400000000000000000000, 6159456634306200000000000000000000],
    [m 20956828891818500000000000000000000, 23979379137544600000000000000000000],
    [10288337054183000000000000000000000, m 30138835771850800000000000000000000],
    [20956828891818500000000000000000000, 23979379137544600000000000000000000],
    [m 31245165946001400000000000000000000, 6159456634306230000000000000000000],
    [m 5551115123125780000, m 30545083028762000000000000000000000],
    [26452817863612800000000000000000000, 15272541514381000000000000000000000],
    [m 26452817863612800000000000000000000, 15272541514381000000000000000000000],
    [m 73248213764906400000000000000000000, m 48491296481354100000000000000000000],
    [78618801497748800000000000000000000, m 39189165661564900000000000000000000],
    [m 5370587732842360000000000000000000, 87680462142919000000000000000000000],
    [73248213764906400000000000000000000, m 48491296481354100000000000000000000],
    [5370587732842420000000000000000000, 87680462142919100000000000000000000],
    [m 78618801497748800000000000000000000, m 39189165661564900000000000000000000],
    [m 68426811117296300000000000000000000, m 42961315180326200000000000000000000],
    [71418995884800700000000000000000000, m 37778699137375000000000000000000000],
    [m 2992184767504360000000000000000000, 80740014317701200000000000000000000],
    [68426811117296300000000000000000000, m 42961315180326200000000000000000000],
    [2992184767504400000000000000000000, 80740014317701200000000000000000000],
    [m 71418995884800700000000000000000000, m 37778699137374900000000000000000000],
    [m 2081668171172170000, m 48945570323521800000000000000000000],
    [42388107302887600000000000000000000, 24472785161760900000000000000000000],
    [m 42388107302887600000000000000000000, 24472785161761000000000000000000000],
    [m 11259199413113400000000000000000000, m 48818031348608400000000000000000000],
    [47907255017196700000000000000000000, 14658262956273200000000000000000000],
    [m 36648055604083300000000000000000000, 34159768392335300000000000000000000],
    [11259199413113400000000000000000000, m 48818031348608400000000000000000000],
    [36648055604083300000000000000000000, 34159768392335300000000000000000000],
    [m 47907255017196700000000000000000000, 14658262956273200000000000000000000],
    [m 76128147379226800000000000000000000, m 43952606382304100000000000000000000],
    [76128147379226800000000000000000000, m 43952606382304100000000000000000000],
    [0, 87905212764608300000000000000000000],
    [m 87984784872866300000000000000000000, m 52962597960343000000000000000000000],
    [89859347720512100000000000000000000, m 49715759866239500000000000000000000],
    [m 1874562847645800000000000000000000, 102678357826583000000000000000000000],
    [87984784872866300000000000000000000, m 52962597960343000000000000000000000],
    [1874562847645870000000000000000000, 102678357826583000000000000000000000],
    [m 89859347720512100000000000000000000, m 49715759866239400000000000000000000],
    [m 23123809819906000000000000000000000, m 37175232717159900000000000000000000],
    [43756600834611900000000000000000000, m 1438190377738720000000000000000000],
    [m 20632791014705900000000000000000000, 38613423094898700000000000000000000],
    [23123809819906000000000000000000000, m 37175232717159900000000000000000000],
    [20632791014705900000000000000000000, 38613423094898700000000000000000000],
    [m 43756600834611900000000000000000000, m 1438190377738700000000000000000000],
    [m 46889550912339900000000000000000000, m 43001929575977700000000000000000000],
    [60685538880716000000000000000000000, m 19106577474141400000000000000000000],
    [m 13795987968376100000000000000000000, 62108507050119100000000000000000000],
    [46889550912339900000000000000000000, m 43001929575977700000000000000000000],
    [13795987968376100000000000000000000, 62108507050119000000000000000000000],
    [m 60685538880716000000000000000000000, m 19106577474141300000000000000000000],
    [m 11739233105524100000000000000000000, m 37274742279795900000000000000000000],
    [38150490286583200000000000000000000, 8470897049566770000000000000000000],
    [m 26411257181059100000000000000000000, 28803845230229200000000000000000000],
    [11739233105524100000000000000000000, m 37274742279795900000000000000000000],
    [26411257181059100000000000000000000, 28803845230229200000000000000000000],
    [m 38150490286583200000000000000000000, 8470897049566810000000000000000000],
    [m 10992961573914300000000000000000000, m 13964656636214600000000000000000000],
    [17590228189045900000000000000000000, m 2537855667728680000000000000000000],
    [m 6597266615131590000000000000000000, 16502512303943300000000000000000000],
    [10992961573914300000000000000000000, m 13964656636214600000000000000000000],
    [6597266615131600000000000000000000, 16502512303943300000000000000000000],
    [m 17590228189045900000000000000000000, m 2537855667728670000000000000000000],
    [m 16204920039724400000000000000000000, m 22098784556599300000000000000000000],
    [27240568838636500000000000000000000, m 2984480142397220000000000000000000],
    [m 11035648798912000000000000000000000, 25083264698996600000000000000000000],
    [16204920039724400000000000000000000, m 22098784556599300000000000000000000],
    [11035648798912100000000000000000000, 25083264698996600000000000000000000],
    [m 27240568838636500000000000000000000, m 2984480142397210000000000000000000],
    [m 92895931257087900000000000000000000, m 53633490917900700000000000000000000],
    [92895931257087900000000000000000000, m 53633490917900600000000000000000000],
    [0, 107266981835801000000000000000000000],
    [m 56792554236958200000000000000000000, m 52773439710278600000000000000000000],
    [74099416552666900000000000000000000, m 22797074859872000000000000000000000],
    [m 17306862315708600000000000000000000, 75570514570150700000000000000000000],
    [56792554236958200000000000000000000, m 52773439710278600000000000000000000],
    [17306862315708700000000000000000000, 75570514570150700000000000000000000],
    [m 74099416552666900000000000000000000, m 22797074859872000000000000000000000],
    [m 36310842599378400000000000000000000, m 52763898191178900000000000000000000],
    [63850297535946000000000000000000000, m 5064163028290450000000000000000000],
    [m 27539454936567500000000000000000000, 57828061219469400000000000000000000],
    [36310842599378400000000000000000000, m 52763898191178900000000000000000000],
    [27539454936567500000000000000000000, 57828061219469400000000000000000000],
    [m 63850297535946000000000000000000000, m 5064163028290400000000000000000000],
    [m 46903656396230100000000000000000000, m 52697835910181400000000000000000000],
    [69089492820796000000000000000000000, m 14270840014421000000000000000000000],
    [m 22185836424565900000000000000000000, 66968675924602500000000000000000000],
    [46903656396230100000000000000000000, m 52697835910181400000000000000000000],
    [22185836424566000000000000000000000, 66968675924602500000000000000000000],
    [m 69089492820796000000000000000000000, m 14270840014420900000000000000000000],
    [m 33803039308384600000000000000000000, m 36648653111336400000000000000000000],
    [48640184263093200000000000000000000, m 10949964210516800000000000000000000],
    [m 14837144954708600000000000000000000, 47598617321853300000000000000000000],
    [33803039308384600000000000000000000, m 36648653111336400000000000000000000],
    [14837144954708700000000000000000000, 47598617321853200000000000000000000],
    [m 48640184263093200000000000000000000, m 10949964210516800000000000000000000],
    [m 12603730801931600000000000000000000, m 52894478654176100000000000000000000],
    [52109827635416000000000000000000000, 15532088270154900000000000000000000],
    [m 39506096833484400000000000000000000, 37362390384021300000000000000000000],
    [12603730801931600000000000000000000, m 52894478654176100000000000000000000],
    [39506096833484400000000000000000000, 37362390384021200000000000000000000],
    [m 52109827635416000000000000000000000, 15532088270154900000000000000000000],
    [m 44018371642510400000000000000000000, m 36579746792427000000000000000000000],
    [53688175807499300000000000000000000, m 19831154679425000000000000000000000],
    [m 9669804164988930000000000000000000, 56410901471852100000000000000000000],
    [44018371642510300000000000000000000, m 36579746792427000000000000000000000],
    [9669804164988970000000000000000000, 56410901471852100000000000000000000],
    [m 53688175807499300000000000000000000, m 19831154679425000000000000000000000],
    [m 21083069268888300000000000000000000, m 12172315717736200000000000000000000],
    [21083069268888300000000000000000000, m 12172315717736200000000000000000000],
    [0, 24344631435472400000000000000000000],
    [m 20847045004866300000000000000000000, m 29950682881818200000000000000000000],
    [36361574738779500000000000000000000, m 3078729127142570000000000000000000],
    [m 15514529733913200000000000000000000, 33029412008960800000000000000000000],
    [20847045004866300000000000000000000, m 29950682881818200000000000000000000],
    [15514529733913200000000000000000000, 33029412008960800000000000000000000],
    [m 36361574738779400000000000000000000, m 3078729127142530000000000000000000],
    [m 22797318474342100000000000000000000, m 48721710760636900000000000000000000],
    [53592898471720200000000000000000000, 4617798443373890000000000000000000],
    [m 30795579997378100000000000000000000, 44103912317263000000000000000000000],
    [22797318474342100000000000000000000, m 48721710760636900000000000000000000],
    [30795579997378100000000000000000000, 44103912317263000000000000000000000],
    [m 53592898471720200000000000000000000, 4617798443373920000000000000000000],
    [m 81969334154814600000000000000000000, m 52883882159690700000000000000000000],
    [86783452478442100000000000000000000, m 44545584629519600000000000000000000],
    [m 4814118323627450000000000000000000, 97429466789210300000000000000000000],
    [81969334154814600000000000000000000, m 52883882159690700000000000000000000],
    [4814118323627530000000000000000000, 97429466789210300000000000000000000],
    [m 86783452478442100000000000000000000, m 44545584629519500000000000000000000],
    [m 24826155062103400000000000000000000, m 52822203489770200000000000000000000],
    [58158447637063700000000000000000000, 4911020782811950000000000000000000],
    [m 33332292574960300000000000000000000, 47911182706958300000000000000000000],
    [24826155062103400000000000000000000, m 52822203489770200000000000000000000],
    [33332292574960400000000000000000000, 47911182706958300000000000000000000],
    [m 58158447637063700000000000000000000, 4911020782811980000000000000000000],
    [m 1387778780781450000, m 37667277468535800000000000000000000],
    [32620819179149200000000000000000000, 18833638734267900000000000000000000],
    [m 32620819179149200000000000000000000, 18833638734267900000000000000000000],
    [m 1040834085586080000, m 52940747517054300000000000000000000],
    [45848032245106900000000000000000000, 26470373758527100000000000000000000],
    [m 45848032245106900000000000000000000, 26470373758527200000000000000000000],
    [m 12427095901943700000000000000000000, m 43564261027324400000000000000000000],
    [43941304697731200000000000000000000, 11019949767313500000000000000000000],
    [m 31514208795787500000000000000000000, 32544311260011000000000000000000000],
    [12427095901943700000000000000000000, m 43564261027324400000000000000000000],
    [31514208795787500000000000000000000, 32544311260011000000000000000000000],
    [m 43941304697731200000000000000000000, 11019949767313500000000000000000000],
    [m 26070189438266700000000000000000000, m 20992358276179300000000000000000000],
    [31215010271649200000000000000000000, m 12081267196922100000000000000000000],
    [m 5144820833382460000000000000000000, 33073625473101500000000000000000000],
    [26070189438266700000000000000000000, m 20992358276179300000000000000000000],
    [5144820833382480000000000000000000, 33073625473101500000000000000000000],
    [m 31215010271649200000000000000000000, m 12081267196922000000000000000000000],
    [m 56248468735254100000000000000000000, m 48651251086220900000000000000000000],
    [70257453734189600000000000000000000, m 24386977305594400000000000000000000],
    [m 14008984998935500000000000000000000, 73038228391815300000000000000000000],
    [56248468735254200000000000000000000, m 48651251086220900000000000000000000],
    [14008984998935500000000000000000000, 73038228391815300000000000000000000],
    [m 70257453734189700000000000000000000, m 24386977305594300000000000000000000],
    [m 66071472756340200000000000000000000, m 52681305116132800000000000000000000],
    [78659084913260200000000000000000000, m 30878921314375600000000000000000000],
    [m 12587612156920000000000000000000000, 83560226430508500000000000000000000],
    [66071472756340200000000000000000000, m 52681305116132800000000000000000000],
    [12587612156920000000000000000000000, 83560226430508500000000000000000000],
    [m 78659084913260200000000000000000000, m 30878921314375600000000000000000000],
    [m 82669686777638700000000000000000000, m 55712806420844700000000000000000000],
    [89583549065395600000000000000000000, m 43737645661915300000000000000000000],
    [m 6913862287756920000000000000000000, 99450452082760000000000000000000000],
    [82669686777638700000000000000000000, m 55712806420844700000000000000000000],
    [6913862287756990000000000000000000, 99450452082760000000000000000000000],
    [m 89583549065395600000000000000000000, m 43737645661915200000000000000000000],
    [m 51356163243264900000000000000000000, m 29650494673045400000000000000000000],
    [51356163243264900000000000000000000, m 29650494673045300000000000000000000],
    [0, 59300989346090700000000000000000000],
    [m 88966644367593900000000000000000000, m 55768637399333400000000000000000000],
    [92780378906062600000000000000000000, m 49163055412125400000000000000000000],
    [m 3813734538468670000000000000000000, 104931692811459000000000000000000000],
    [88966644367593900000000000000000000, m 55768637399333400000000000000000000],
    [3813734538468740000000000000000000, 104931692811459000000000000000000000],
    [m 92780378906062600000000000000000000, m 49163055412125300000000000000000000],
    [0, m 13980368807481600000000000000000000],
    [12107354541554600000000000000000000, 6990184403740820000000000000000000],
    [m 12107354541554600000000000000000000, 6990184403740830000000000000000000],
    [m 34452655299507800000000000000000000, m 48599981614692000000000000000000000],
    [59315146351533800000000000000000000, m 5536883909856300000000000000000000],
    [m 24862491052026000000000000000000000, 54136865524548400000000000000000000],
    [34452655299507800000000000000000000, m 48599981614692000000000000000000000],
    [24862491052026000000000000000000000, 54136865524548300000000000000000000],
    [m 59315146351533800000000000000000000, m 5536883909856260000000000000000000],
    [m 36234619328555900000000000000000000, m 20920067223325300000000000000000000],
    [36234619328555900000000000000000000, m 20920067223325300000000000000000000],
    [0, 41840134446650700000000000000000000],
    [m 65494542725425400000000000000000000, m 48392971086402000000000000000000000],
    [74656813688142600000000000000000000, m 32523452266262700000000000000000000],
    [m 9162270962717220000000000000000000, 80916423352664700000000000000000000],
    [65494542725425300000000000000000000, m 48392971086402000000000000000000000],
    [9162270962717290000000000000000000, 80916423352664700000000000000000000],
    [m 74656813688142600000000000000000000, m 32523452266262600000000000000000000],
    [m 93012524112428300000000000000000000, m 57383958132479500000000000000000000],
    [96202227568644000000000000000000000, m 51859229685235800000000000000000000],
    [m 3189703456215730000000000000000000, 109243187817715000000000000000000000],
    [93012524112428300000000000000000000, m 57383958132479500000000000000000000],
    [3189703456215810000000000000000000, 109243187817715000000000000000000000],
    [m 96202227568644000000000000000000000, m 51859229685235700000000000000000000],
    [0, m 43820483878434100000000000000000000],
    [37949652244850400000000000000000000, 21910241939217100000000000000000000],
    [m 37949652244850300000000000000000000, 21910241939217100000000000000000000],
    [m 6678508942454480000000000000000000, m 55764972588735000000000000000000000],
    [51633137374414600000000000000000000, 22098727890800400000000000000000000],
    [m 44954628431960100000000000000000000, 33666244697934700000000000000000000],
    [6678508942454480000000000000000000, m 55764972588735000000000000000000000],
    [44954628431960100000000000000000000, 33666244697934600000000000000000000],
    [m 51633137374414600000000000000000000, 22098727890800400000000000000000000],
    [m 41597899021645600000000000000000000, m 29204731777806500000000000000000000],
    [46090989141113900000000000000000000, m 21422471407901600000000000000000000],
    [m 4493090119468350000000000000000000, 50627203185708200000000000000000000],
    [41597899021645600000000000000000000, m 29204731777806500000000000000000000],
    [4493090119468370000000000000000000, 50627203185708200000000000000000000],
    [m 46090989141114000000000000000000000, m 21422471407901600000000000000000000],
    [m 24627705576691600000000000000000000, m 43448156854177000000000000000000000],
    [49941060371674100000000000000000000, 395859760749928000000000000000000],
    [m 25313354794982500000000000000000000, 43052297093427100000000000000000000],
    [24627705576691600000000000000000000, m 43448156854177000000000000000000000],
    [25313354794982500000000000000000000, 43052297093427100000000000000000000],
    [m 49941060371674100000000000000000000, 395859760749950000000000000000000],
    [m 74973726200095600000000000000000000, m 55679770960375500000000000000000000],
    [85706959228632100000000000000000000, m 37089266025474000000000000000000000],
    [m 10733233028536400000000000000000000, 92769036985849600000000000000000000],
    [74973726200095600000000000000000000, m 55679770960375500000000000000000000],
    [10733233028536500000000000000000000, 92769036985849500000000000000000000],
    [m 85706959228632100000000000000000000, m 37089266025474000000000000000000000],
    [m 74550793444160400000000000000000000, m 52714057557693100000000000000000000],
    [82927109703597500000000000000000000, m 38205852216082800000000000000000000],
    [m 8376316259437070000000000000000000, 90919909773775900000000000000000000],
    [74550793444160400000000000000000000, m 52714057557693100000000000000000000],
    [8376316259437110000000000000000000, 90919909773775900000000000000000000],
    [m 82927109703597500000000000000000000, m 38205852216082700000000000000000000],
    [m 45718177804191100000000000000000000, m 48449632102066600000000000000000000],
    [64817701106495300000000000000000000, m 15368287342130000000000000000000000],
    [m 19099523302304200000000000000000000, 63817919444196700000000000000000000],
    [45718177804191100000000000000000000, m 48449632102066600000000000000000000],
    [19099523302304200000000000000000000, 63817919444196700000000000000000000],
    [m 64817701106495300000000000000000000, m 15368287342130000000000000000000000],
    [m 31237691698758100000000000000000000, m 29161853684292100000000000000000000],
    [40873751961420900000000000000000000, m 12471707724564700000000000000000000],
    [m 9636060262662720000000000000000000, 41633561408856900000000000000000000],
    [31237691698758100000000000000000000, m 29161853684292100000000000000000000],
    [9636060262662750000000000000000000, 41633561408856900000000000000000000],
    [m 40873751961420800000000000000000000, m 12471707724564700000000000000000000],
    [m 36244609664691800000000000000000000, m 43162684421663900000000000000000000],
    [55502286037037700000000000000000000, m 9807410509042110000000000000000000],
    [m 19257676372345900000000000000000000, 52970094930706100000000000000000000],
    [36244609664691800000000000000000000, m 43162684421663900000000000000000000],
    [19257676372345900000000000000000000, 52970094930706100000000000000000000],
    [m 55502286037037700000000000000000000, m 9807410509042070000000000000000000],
    [m 32616646260370700000000000000000000, m 55705385397930200000000000000000000],
    [64550602012395600000000000000000000, m 394151548766652000000000000000000],
    [m 31933955752024900000000000000000000, 56099536946696900000000000000000000],
    [32616646260370700000000000000000000, m 55705385397930200000000000000000000],
    [31933955752024900000000000000000000, 56099536946696900000000000000000000],
    [m 64550602012395600000000000000000000, m 394151548766619000000000000000000],
    [m 53784292001756900000000000000000000, m 36980700529962500000000000000000000],
    [58918372109570600000000000000000000, m 28088212933100400000000000000000000],
    [m 5134080107813750000000000000000000, 65068913463063000000000000000000000],
    [53784292001756900000000000000000000, m 36980700529962500000000000000000000],
    [5134080107813800000000000000000000, 65068913463062900000000000000000000],
    [m 58918372109570700000000000000000000, m 28088212933100300000000000000000000],
    [m 55851533886826800000000000000000000, m 55689739217360600000000000000000000],
    [76154495835778200000000000000000000, m 20523977577639100000000000000000000],
    [m 20302961948951400000000000000000000, 76213716794999800000000000000000000],
    [55851533886826700000000000000000000, m 55689739217360600000000000000000000],
    [20302961948951500000000000000000000, 76213716794999700000000000000000000],
    [m 76154495835778200000000000000000000, m 20523977577639000000000000000000000],
    [m 66003657270757100000000000000000000, m 55674192040916300000000000000000000],
    [81217093277985500000000000000000000, m 29323747918699000000000000000000000],
    [m 15213436007228300000000000000000000, 84997939959615400000000000000000000],
    [66003657270757100000000000000000000, m 55674192040916300000000000000000000],
    [15213436007228400000000000000000000, 84997939959615300000000000000000000],
    [m 81217093277985500000000000000000000, m 29323747918699000000000000000000000],
    [m 44695335875345500000000000000000000, m 55682962368161300000000000000000000],
    [70570527906473300000000000000000000, m 10865815114646500000000000000000000],
    [m 25875192031127800000000000000000000, 66548777482807900000000000000000000],
    [44695335875345500000000000000000000, m 55682962368161300000000000000000000],
    [25875192031127900000000000000000000, 66548777482807900000000000000000000],
    [m 70570527906473400000000000000000000, m 10865815114646500000000000000000000],
    [m 19870749346215700000000000000000000, m 55738068167530300000000000000000000],
    [58205957664057900000000000000000000, 10660460357709300000000000000000000],
    [m 38335208317842100000000000000000000, 45077607809821100000000000000000000],
    [19870749346215800000000000000000000, m 55738068167530300000000000000000000],
    [38335208317842100000000000000000000, 45077607809821000000000000000000000],
    [m 58205957664057900000000000000000000, 10660460357709300000000000000000000],
    [m 3165870343657670000, m 57360394426682100000000000000000000],
    [49675558744602000000000000000000000, 28680197213341100000000000000000000],
    [m 49675558744602000000000000000000000, 28680197213341100000000000000000000],
    [m 80239000604949900000000000000000000, m 57345366439244900000000000000000000],
    [89782044428188600000000000000000000, m 40816329678539100000000000000000000],
    [m 9543043823238710000000000000000000, 98161696117784000000000000000000000],
    [80239000604949900000000000000000000, m 57345366439244900000000000000000000],
    [9543043823238760000000000000000000, 98161696117784000000000000000000000],
    [m 89782044428188600000000000000000000, m 40816329678539000000000000000000000],
    [m 13449553992786900000000000000000000, m 57357771856417000000000000000000000],
    [56398064528522700000000000000000000, 17031230500884600000000000000000000],
    [m 42948510535735700000000000000000000, 40326541355532400000000000000000000],
    [13449553992786900000000000000000000, m 57357771856417000000000000000000000],
    [42948510535735800000000000000000000, 40326541355532400000000000000000000],
    [m 56398064528522700000000000000000000, 17031230500884600000000000000000000],
    [m 71709284775736700000000000000000000, m 57343681973260200000000000000000000],
    [85515727723247400000000000000000000, m 33430221316370600000000000000000000],
    [m 13806442947510700000000000000000000, 90773903289630800000000000000000000],
    [71709284775736700000000000000000000, m 57343681973260200000000000000000000],
    [13806442947510800000000000000000000, 90773903289630800000000000000000000],
    [m 85515727723247500000000000000000000, m 33430221316370500000000000000000000],
    [m 62507647975326600000000000000000000, m 36088807384965200000000000000000000],
    [62507647975326600000000000000000000, m 36088807384965100000000000000000000],
    [0, 72177614769930400000000000000000000],
    [m 51015724874008600000000000000000000, m 57345497171610600000000000000000000],
    [75170519780267700000000000000000000, m 15508165147563900000000000000000000],
    [m 24154794906259100000000000000000000, 72853662319174500000000000000000000],
    [51015724874008600000000000000000000, m 57345497171610600000000000000000000],
    [24154794906259100000000000000000000, 72853662319174400000000000000000000],
    [m 75170519780267700000000000000000000, m 15508165147563800000000000000000000],
    [m 87380123018010200000000000000000000, m 57352108080599300000000000000000000],
    [93358444067394900000000000000000000, m 46997352279106500000000000000000000],
    [m 5978321049384690000000000000000000, 104349460359706000000000000000000000],
    [87380123018010100000000000000000000, m 57352108080599300000000000000000000],
    [5978321049384760000000000000000000, 104349460359706000000000000000000000],
    [m 93358444067394900000000000000000000, m 46997352279106500000000000000000000],
    [m 39184908288647500000000000000000000, m 57345327364011000000000000000000000],
    [69254964429892200000000000000000000, m 5262462340926680000000000000000000],
    [m 30070056141244600000000000000000000, 62607789704937700000000000000000000],
    [39184908288647500000000000000000000, m 57345327364011000000000000000000000],
    [30070056141244700000000000000000000, 62607789704937700000000000000000000],
    [m 69254964429892200000000000000000000, m 5262462340926630000000000000000000],
    [m 61920375973213900000000000000000000, m 57342883815744000000000000000000000],
    [80620582097300800000000000000000000, m 24953176696814800000000000000000000],
    [m 18700206124086900000000000000000000, 82296060512558900000000000000000000],
    [61920375973213900000000000000000000, m 57342883815744000000000000000000000],
    [18700206124087000000000000000000000, 82296060512558800000000000000000000],
    [m 80620582097300800000000000000000000, m 24953176696814700000000000000000000],
    [m 26594843220537400000000000000000000, m 57351635407928100000000000000000000],
    [62965394822117600000000000000000000, 5644007865314300000000000000000000],
    [m 36370551601580100000000000000000000, 51707627542613900000000000000000000],
    [26594843220537400000000000000000000, m 57351635407928100000000000000000000],
    [36370551601580200000000000000000000, 51707627542613800000000000000000000],
    [m 62965394822117600000000000000000000, 5644007865314350000000000000000000],
    [m 99218470991579100000000000000000000, m 57283810935571300000000000000000000],
    [99218470991579100000000000000000000, m 57283810935571300000000000000000000],
    [22204460492503100000, 114567621871143000000000000000000000]],
   [747320506906425000000000000000000, 747320506906425000000000000000000, 747320506906425000000000000000000,
    36854924623765700000000000000000, 36854924623765700000000000000000, 36854924623765700000000000000000,
    36854924623765700000000000000000, 36854924623765700000000000000000, 36854924623765700000000000000000,
    389968250658099000000000000000000, 389968250658099000000000000000000, 389968250658099000000000000000000,
    389968250658099000000000000000000, 389968250658099000000000000000000, 389968250658099000000000000000000,
    392321652273118000000000000000000, 392321652273118000000000000000000, 392321652273118000000000000000000,
    392321652273118000000000000000000, 392321652273118000000000000000000, 392321652273118000000000000000000,
    813920332599430000000000000000000, 813920332599430000000000000000000, 813920332599430000000000000000000,
    242959889262567000000000000000000, 242959889262567000000000000000000, 242959889262567000000000000000000,
    242959889262567000000000000000000, 242959889262567000000000000000000, 242959889262567000000000000000000,
    16941174540361200000000000000000, 16941174540361200000000000000000, 16941174540361200000000000000000,
    16941174540361200000000000000000, 16941174540361200000000000000000, 16941174540361200000000000000000,
    69951121244016900000000000000000, 69951121244016900000000000000000, 69951121244016900000000000000000,
    69951121244016900000000000000000, 69951121244016900000000000000000, 69951121244016900000000000000000,
    214166767678293000000000000000000, 214166767678293000000000000000000, 214166767678293000000000000000000,
    892639285999951000000000000000000, 892639285999951000000000000000000, 892639285999951000000000000000000,
    892639285999951000000000000000000, 892639285999951000000000000000000, 892639285999951000000000000000000,
    781063298491827000000000000000000, 781063298491827000000000000000000, 781063298491827000000000000000000,
    781063298491827000000000000000000, 781063298491827000000000000000000, 781063298491827000000000000000000,
    782193690587829000000000000000000, 782193690587829000000000000000000, 782193690587829000000000000000000,
    331616536681165000000000000000000, 331616536681165000000000000000000, 331616536681165000000000000000000,
    331616536681165000000000000000000, 331616536681165000000000000000000, 331616536681165000000000000000000,
    451418371495259000000000000000000, 451418371495259000000000000000000, 451418371495259000000000000000000,
    451418371495259000000000000000000, 451418371495259000000000000000000, 451418371495259000000000000000000,
    509999080871160000000000000000000, 509999080871160000000000000000000, 509999080871160000000000000000000,
    532806069113706000000000000000000, 532806069113706000000000000000000, 532806069113706000000000000000000,
    532806069113706000000000000000000, 532806069113706000000000000000000, 532806069113706000000000000000000,
    360786613872797000000000000000000, 360786613872797000000000000000000, 360786613872797000000000000000000,
    178888339995330000000000000000000, 178888339995330000000000000000000, 178888339995330000000000000000000,
    178888339995330000000000000000000, 178888339995330000000000000000000, 178888339995330000000000000000000,
    754197488558318000000000000000000, 754197488558318000000000000000000, 754197488558318000000000000000000,
    754197488558318000000000000000000, 754197488558318000000000000000000, 754197488558318000000000000000000,
    587526861741003000000000000000000, 587526861741003000000000000000000, 587526861741003000000000000000000,
    587526861741003000000000000000000, 587526861741003000000000000000000, 587526861741003000000000000000000,
    785165773104481000000000000000000, 785165773104481000000000000000000, 785165773104481000000000000000000,
    785165773104481000000000000000000, 785165773104481000000000000000000, 785165773104481000000000000000000,
    930062666308559000000000000000000, 930062666308559000000000000000000, 930062666308559000000000000000000,
    930062666308559000000000000000000, 930062666308559000000000000000000, 930062666308559000000000000000000,
    867974288346918000000000000000000, 867974288346918000000000000000000, 867974288346918000000000000000000,
    867974288346918000000000000000000, 867974288346918000000000000000000, 867974288346918000000000000000000,
    114836330499573000000000000000000, 114836330499573000000000000000000, 114836330499573000000000000000000,
    338337813114849000000000000000000, 338337813114849000000000000000000, 338337813114849000000000000000000,
    338337813114849000000000000000000, 338337813114849000000000000000000, 338337813114849000000000000000000,
    393202084201990000000000000000000, 393202084201990000000000000000000, 393202084201990000000000000000000,
    393202084201990000000000000000000, 393202084201990000000000000000000, 393202084201990000000000000000000,
    370429026741487000000000000000000, 370429026741487000000000000000000, 370429026741487000000000000000000,
    370429026741487000000000000000000, 370429026741487000000000000000000, 370429026741487000000000000000000,
    740994576702500000000000000000000, 740994576702500000000000000000000, 740994576702500000000000000000000,
    740994576702500000000000000000000, 740994576702500000000000000000000, 740994576702500000000000000000000,
    434228488013296000000000000000000, 434228488013296000000000000000000, 434228488013296000000000000000000,
    434228488013296000000000000000000, 434228488013296000000000000000000, 434228488013296000000000000000000,
    688270416150677000000000000000000, 688270416150677000000000000000000, 688270416150677000000000000000000,
    688270416150677000000000000000000, 688270416150677000000000000000000, 688270416150677000000000000000000,
    969646111096620000000000000000000, 969646111096620000000000000000000, 969646111096620000000000000000000,
    821063735363198000000000000000000, 821063735363198000000000000000000, 821063735363198000000000000000000,
    821063735363198000000000000000000, 821063735363198000000000000000000, 821063735363198000000000000000000,
    547484313503681000000000000000000, 547484313503681000000000000000000, 547484313503681000000000000000000,
    547484313503681000000000000000000, 547484313503681000000000000000000, 547484313503681000000000000000000,
    226291231078410000000000000000000, 226291231078410000000000000000000, 226291231078410000000000000000000,
    226291231078410000000000000000000, 226291231078410000000000000000000, 226291231078410000000000000000000,
    419574857736571000000000000000000, 419574857736571000000000000000000, 419574857736571000000000000000000,
    419574857736571000000000000000000, 419574857736571000000000000000000, 419574857736571000000000000000000,
    788397400413246000000000000000000, 788397400413246000000000000000000, 788397400413246000000000000000000,
    434273868807597000000000000000000, 434273868807597000000000000000000, 434273868807597000000000000000000,
    715987990477709000000000000000000, 715987990477709000000000000000000, 715987990477709000000000000000000,
    715987990477709000000000000000000, 715987990477709000000000000000000, 715987990477709000000000000000000,
    884235004926358000000000000000000, 884235004926358000000000000000000, 884235004926358000000000000000000,
    884235004926358000000000000000000, 884235004926358000000000000000000, 884235004926358000000000000000000,
    467242067414262000000000000000000, 467242067414262000000000000000000, 467242067414262000000000000000000,
    467242067414262000000000000000000, 467242067414262000000000000000000, 467242067414262000000000000000000,
    325792590440364000000000000000000, 325792590440364000000000000000000, 325792590440364000000000000000000,
    325792590440364000000000000000000, 325792590440364000000000000000000, 325792590440364000000000000000000,
    158347377504036000000000000000000, 158347377504036000000000000000000, 158347377504036000000000000000000,
    158347377504036000000000000000000, 158347377504036000000000000000000, 158347377504036000000000000000000,
    703979913540540000000000000000000, 703979913540540000000000000000000, 703979913540540000000000000000000,
    121428124360815000000000000000000, 121428124360815000000000000000000, 121428124360815000000000000000000,
    121428124360815000000000000000000, 121428124360815000000000000000000, 121428124360815000000000000000000,
    953513635505608000000000000000000, 953513635505608000000000000000000, 953513635505608000000000000000000,
    552542506508694000000000000000000, 552542506508694000000000000000000, 552542506508694000000000000000000,
    552542506508694000000000000000000, 552542506508694000000000000000000, 552542506508694000000000000000000,
    856440511720922000000000000000000, 856440511720922000000000000000000, 856440511720922000000000000000000,
    421551001356884000000000000000000, 421551001356884000000000000000000, 421551001356884000000000000000000,
    421551001356884000000000000000000, 421551001356884000000000000000000, 421551001356884000000000000000000,
    43448053087350500000000000000000, 43448053087350500000000000000000, 43448053087350500000000000000000,
    43448053087350500000000000000000, 43448053087350500000000000000000, 43448053087350500000000000000000,
    704215451964878000000000000000000, 704215451964878000000000000000000, 704215451964878000000000000000000,
    296321525953702000000000000000000, 296321525953702000000000000000000, 296321525953702000000000000000000,
    296321525953702000000000000000000, 296321525953702000000000000000000, 296321525953702000000000000000000,
    784274707238807000000000000000000, 784274707238807000000000000000000, 784274707238807000000000000000000,
    784274707238807000000000000000000, 784274707238807000000000000000000, 784274707238807000000000000000000,
    694230079042815000000000000000000, 694230079042815000000000000000000, 694230079042815000000000000000000,
    694230079042815000000000000000000, 694230079042815000000000000000000, 694230079042815000000000000000000,
    193910085376547000000000000000000, 193910085376547000000000000000000, 193910085376547000000000000000000,
    193910085376547000000000000000000, 193910085376547000000000000000000, 193910085376547000000000000000000,
    286766832819105000000000000000000, 286766832819105000000000000000000, 286766832819105000000000000000000,
    286766832819105000000000000000000, 286766832819105000000000000000000, 286766832819105000000000000000000,
    532528930070311000000000000000000, 532528930070311000000000000000000, 532528930070311000000000000000000,
    532528930070311000000000000000000, 532528930070311000000000000000000, 532528930070311000000000000000000,
    836592737884522000000000000000000, 836592737884522000000000000000000, 836592737884522000000000000000000,
    836592737884522000000000000000000, 836592737884522000000000000000000, 836592737884522000000000000000000,
    675274198675558000000000000000000, 675274198675558000000000000000000, 675274198675558000000000000000000,
    675274198675558000000000000000000, 675274198675558000000000000000000, 675274198675558000000000000000000,
    285069927041842000000000000000000, 285069927041842000000000000000000, 285069927041842000000000000000000,
    285069927041842000000000000000000, 285069927041842000000000000000000, 285069927041842000000000000000000,
    642920782930878000000000000000000, 642920782930878000000000000000000, 642920782930878000000000000000000,
    642920782930878000000000000000000, 642920782930878000000000000000000, 642920782930878000000000000000000,
    245704502719421000000000000000000, 245704502719421000000000000000000, 245704502719421000000000000000000,
    245704502719421000000000000000000, 245704502719421000000000000000000, 245704502719421000000000000000000,
    223271428864188000000000000000000, 223271428864188000000000000000000, 223271428864188000000000000000000,
    223271428864188000000000000000000, 223271428864188000000000000000000, 223271428864188000000000000000000,
    270458011061034000000000000000000, 270458011061034000000000000000000, 270458011061034000000000000000000,
    270458011061034000000000000000000, 270458011061034000000000000000000, 270458011061034000000000000000000,
    293629704776184000000000000000000, 293629704776184000000000000000000, 293629704776184000000000000000000,
    293629704776184000000000000000000, 293629704776184000000000000000000, 293629704776184000000000000000000,
    129701309788085000000000000000000, 129701309788085000000000000000000, 129701309788085000000000000000000,
    78427654187028400000000000000000, 78427654187028400000000000000000, 78427654187028400000000000000000,
    78427654187028400000000000000000, 78427654187028400000000000000000, 78427654187028400000000000000000,
    129096645631175000000000000000000, 129096645631175000000000000000000, 129096645631175000000000000000000,
    129096645631175000000000000000000, 129096645631175000000000000000000, 129096645631175000000000000000000,
    92205403836717800000000000000000, 92205403836717800000000000000000, 92205403836717800000000000000000,
    92205403836717800000000000000000, 92205403836717800000000000000000, 92205403836717800000000000000000,
    629105077020551000000000000000000, 629105077020551000000000000000000, 629105077020551000000000000000000,
    113903070409829000000000000000000, 113903070409829000000000000000000, 113903070409829000000000000000000,
    113903070409829000000000000000000, 113903070409829000000000000000000, 113903070409829000000000000000000,
    62712199240658600000000000000000, 62712199240658600000000000000000, 62712199240658600000000000000000,
    62712199240658600000000000000000, 62712199240658600000000000000000, 62712199240658600000000000000000,
    122284856065185000000000000000000, 122284856065185000000000000000000, 122284856065185000000000000000000,
    122284856065185000000000000000000, 122284856065185000000000000000000, 122284856065185000000000000000000,
    104248172095732000000000000000000, 104248172095732000000000000000000, 104248172095732000000000000000000,
    104248172095732000000000000000000, 104248172095732000000000000000000, 104248172095732000000000000000000,
    126896857184808000000000000000000, 126896857184808000000000000000000, 126896857184808000000000000000000,
    126896857184808000000000000000000, 126896857184808000000000000000000, 126896857184808000000000000000000,
    15459187633762900000000000000000, 15459187633762900000000000000000, 15459187633762900000000000000000]⟩

/-- `triangle_table_orig[48]` (xg_quad_data.py 13766-14617). -/
def xgTri_48 : XgTableRule :=
  ⟨[
    [0, m 4985232066376490000000000000000000],
    [4317337613242850000000000000000000, 2492616033188270000000000000000000],
    [m 4317337613242830000000000000000000, 2492616033188280000000000000000000],
    [m 4516477265005070000000000000000000, m 20374579426251400000000000000000000],
    [19903142007060000000000000000000000, 6275905666016460000000000000000000],
    [m 15386664742054900000000000000000000, 14098673760235000000000000000000000],
    [4516477265005080000000000000000000, m 20374579426251400000000000000000000],
    [15386664742054900000000000000000000, 14098673760235000000000000000000000],
    [m 19903142007060000000000000000000000, 6275905666016470000000000000000000],
    [m 27473470409127200000000000000000000, m 38976656878879800000000000000000000],
    [47491510216263000000000000000000000, m 4304394864984250000000000000000000],
    [m 20018039807135800000000000000000000, 43281051743864100000000000000000000],
    [27473470409127200000000000000000000, m 38976656878879800000000000000000000],
    [20018039807135800000000000000000000, 43281051743864100000000000000000000],
    [m 47491510216263000000000000000000000, m 4304394864984240000000000000000000],
    [m 32601858877976100000000000000000000, m 51725511617300700000000000000000000],
    [61096536523317600000000000000000000, m 2371282190272150000000000000000000],
    [m 28494677645341500000000000000000000, 54096793807572900000000000000000000],
    [32601858877976100000000000000000000, m 51725511617300700000000000000000000],
    [28494677645341500000000000000000000, 54096793807572900000000000000000000],
    [m 61096536523317600000000000000000000, m 2371282190272120000000000000000000],
    [0, m 13890333151925500000000000000000000],
    [12029381376596600000000000000000000, 6945166575962760000000000000000000],
    [m 12029381376596600000000000000000000, 6945166575962770000000000000000000],
    [m 99385799488525300000000000000000000, m 57501881807098500000000000000000000],
    [99490990154620200000000000000000000, m 57319686228940200000000000000000000],
    [m 105190666094856000000000000000000, 114821568036039000000000000000000000],
    [99385799488525300000000000000000000, m 57501881807098500000000000000000000],
    [105190666094934000000000000000000, 114821568036039000000000000000000000],
    [m 99490990154620300000000000000000000, m 57319686228940100000000000000000000],
    [m 32465958030201600000000000000000000, m 54414549714157600000000000000000000],
    [63357361403052600000000000000000000, m 909069555275155000000000000000000],
    [m 30891403372850900000000000000000000, 55323619269432800000000000000000000],
    [32465958030201600000000000000000000, m 54414549714157600000000000000000000],
    [30891403372851000000000000000000000, 55323619269432800000000000000000000],
    [m 63357361403052600000000000000000000, m 909069555275099000000000000000000],
    [m 8401261814375130000000000000000000, m 9867799681203870000000000000000000],
    [12746396110566100000000000000000000, m 2341806314491050000000000000000000],
    [m 4345134296190980000000000000000000, 12209605995695000000000000000000000],
    [8401261814375120000000000000000000, m 9867799681203870000000000000000000],
    [4345134296190990000000000000000000, 12209605995695000000000000000000000],
    [m 12746396110566100000000000000000000, m 2341806314491050000000000000000000],
    [m 68050562893254300000000000000000000, m 57450768223436000000000000000000000],
    [83779106195054500000000000000000000, m 30208132095670800000000000000000000],
    [m 15728543301800200000000000000000000, 87658900319106900000000000000000000],
    [68050562893254300000000000000000000, m 57450768223436000000000000000000000],
    [15728543301800300000000000000000000, 87658900319106900000000000000000000],
    [m 83779106195054500000000000000000000, m 30208132095670800000000000000000000],
    [m 55412485218420500000000000000000000, m 48499178896207100000000000000000000],
    [69707763596011700000000000000000000, m 23739030437878300000000000000000000],
    [m 14295278377591200000000000000000000, 72238209334085500000000000000000000],
    [55412485218420500000000000000000000, m 48499178896207100000000000000000000],
    [14295278377591200000000000000000000, 72238209334085500000000000000000000],
    [m 69707763596011800000000000000000000, m 23739030437878300000000000000000000],
    [4510281037539700000, m 54041966741780900000000000000000000],
    [46801716068856000000000000000000000, 27020983370890500000000000000000000],
    [m 46801716068856000000000000000000000, 27020983370890500000000000000000000],
    [m 33038679441849800000000000000000000, m 43371331113028700000000000000000000],
    [54080014260754200000000000000000000, m 6926670147618270000000000000000000],
    [m 21041334818904300000000000000000000, 50298001260647000000000000000000000],
    [33038679441849800000000000000000000, m 43371331113028700000000000000000000],
    [21041334818904400000000000000000000, 50298001260647000000000000000000000],
    [m 54080014260754200000000000000000000, m 6926670147618250000000000000000000],
    [m 85476722552458000000000000000000000, m 49350008775108600000000000000000000],
    [85476722552458000000000000000000000, m 49350008775108500000000000000000000],
    [m 11102230246251600000, 98700017550217200000000000000000000],
    [m 75952135375607300000000000000000000, m 43850985804633800000000000000000000],
    [75952135375607300000000000000000000, m 43850985804633800000000000000000000],
    [0, 87701971609267600000000000000000000],
    [m 72722633108802300000000000000000000, m 53696054670467400000000000000000000],
    [82863463982023900000000000000000000, m 36131620367084500000000000000000000],
    [m 10140830873221600000000000000000000, 89827675037551900000000000000000000],
    [72722633108802300000000000000000000, m 53696054670467400000000000000000000],
    [10140830873221600000000000000000000, 89827675037551900000000000000000000],
    [m 82863463982024000000000000000000000, m 36131620367084400000000000000000000],
    [m 23810041415405500000000000000000000, m 33709214277689400000000000000000000],
    [41098056613794900000000000000000000, m 3765493592056050000000000000000000],
    [m 17288015198389400000000000000000000, 37474707869745600000000000000000000],
    [23810041415405500000000000000000000, m 33709214277689400000000000000000000],
    [17288015198389400000000000000000000, 37474707869745500000000000000000000],
    [m 41098056613794900000000000000000000, m 3765493592056010000000000000000000],
    [m 2081668171172170000, m 50491682572683600000000000000000000],
    [43727079787764100000000000000000000, 25245841286341800000000000000000000],
    [m 43727079787764100000000000000000000, 25245841286341900000000000000000000],
    [2775557561562890000, m 46179620632104400000000000000000000],
    [39992724604530400000000000000000000, 23089810316052200000000000000000000],
    [m 39992724604530400000000000000000000, 23089810316052200000000000000000000],
    [m 76837647852811600000000000000000000, m 55909334619049500000000000000000000],
    [86837728015187400000000000000000000, m 38588687698052900000000000000000000],
    [m 10000080162375800000000000000000000, 94498022317102500000000000000000000],
    [76837647852811600000000000000000000, m 55909334619049500000000000000000000],
    [10000080162375900000000000000000000, 94498022317102400000000000000000000],
    [m 86837728015187400000000000000000000, m 38588687698052900000000000000000000],
    [m 39481835688065800000000000000000000, m 55942830548805600000000000000000000],
    [68188830258906700000000000000000000, m 6220857419505190000000000000000000],
    [m 28706994570840900000000000000000000, 62163687968310900000000000000000000],
    [39481835688065800000000000000000000, m 55942830548805600000000000000000000],
    [28706994570841000000000000000000000, 62163687968310900000000000000000000],
    [m 68188830258906700000000000000000000, m 6220857419505140000000000000000000],
    [m 35808200103666600000000000000000000, m 48419731762996800000000000000000000],
    [59836817803016800000000000000000000, m 6800945072073460000000000000000000],
    [m 24028617699350200000000000000000000, 55220676835070300000000000000000000],
    [35808200103666600000000000000000000, m 48419731762996800000000000000000000],
    [24028617699350200000000000000000000, 55220676835070300000000000000000000],
    [m 59836817803016800000000000000000000, m 6800945072073430000000000000000000],
    [m 70743720676693200000000000000000000, m 45652178474401800000000000000000000],
    [74907806635279600000000000000000000, m 38439770027045900000000000000000000],
    [m 4164085958586420000000000000000000, 84091948501447700000000000000000000],
    [70743720676693200000000000000000000, m 45652178474401800000000000000000000],
    [4164085958586480000000000000000000, 84091948501447700000000000000000000],
    [m 74907806635279700000000000000000000, m 38439770027045800000000000000000000],
    [m 9701078949349040000000000000000000, m 55049949314164700000000000000000000],
    [52525194057786900000000000000000000, 19123593842827600000000000000000000],
    [m 42824115108437800000000000000000000, 35926355471337100000000000000000000],
    [9701078949349030000000000000000000, m 55049949314164700000000000000000000],
    [42824115108437800000000000000000000, 35926355471337100000000000000000000],
    [m 52525194057786900000000000000000000, 19123593842827700000000000000000000],
    [m 22510606888237800000000000000000000, m 50872207349408800000000000000000000],
    [55311927355296400000000000000000000, 5941346254885500000000000000000000],
    [m 32801320467058500000000000000000000, 44930861094523400000000000000000000],
    [22510606888237800000000000000000000, m 50872207349408800000000000000000000],
    [32801320467058600000000000000000000, 44930861094523300000000000000000000],
    [m 55311927355296400000000000000000000, 5941346254885540000000000000000000],
    [m 89142246128908700000000000000000000, m 55689353511683900000000000000000000],
    [92799517925904800000000000000000000, m 49354772942198100000000000000000000],
    [m 3657271796995990000000000000000000, 105044126453882000000000000000000000],
    [89142246128908700000000000000000000, m 55689353511683900000000000000000000],
    [3657271796996040000000000000000000, 105044126453882000000000000000000000],
    [m 92799517925904800000000000000000000, m 49354772942198000000000000000000000],
    [m 11231501558393100000000000000000000, m 51622984675368800000000000000000000],
    [50322566927240700000000000000000000, 16084726665471500000000000000000000],
    [m 39091065368847600000000000000000000, 35538258009897400000000000000000000],
    [11231501558393100000000000000000000, m 51622984675368800000000000000000000],
    [39091065368847600000000000000000000, 35538258009897400000000000000000000],
    [m 50322566927240700000000000000000000, 16084726665471500000000000000000000],
    [m 24247749198134000000000000000000000, m 46526044009366000000000000000000000],
    [52416610648770700000000000000000000, 2263855214505230000000000000000000],
    [m 28168861450636700000000000000000000, 44262188794860800000000000000000000],
    [24247749198134000000000000000000000, m 46526044009366000000000000000000000],
    [28168861450636800000000000000000000, 44262188794860800000000000000000000],
    [m 52416610648770700000000000000000000, 2263855214505260000000000000000000],
    [m 83724014027395500000000000000000000, m 55929784568894700000000000000000000],
    [90298621278551400000000000000000000, m 44542230770081900000000000000000000],
    [m 6574607251155910000000000000000000, 100472015338977000000000000000000000],
    [83724014027395500000000000000000000, m 55929784568894700000000000000000000],
    [6574607251155970000000000000000000, 100472015338977000000000000000000000],
    [m 90298621278551500000000000000000000, m 44542230770081800000000000000000000],
    [m 13318347049091700000000000000000000, m 18399301337776700000000000000000000],
    [22593435894945500000000000000000000, m 2334376212042540000000000000000000],
    [m 9275088845853800000000000000000000, 20733677549819300000000000000000000],
    [13318347049091700000000000000000000, m 18399301337776700000000000000000000],
    [9275088845853820000000000000000000, 20733677549819300000000000000000000],
    [m 22593435894945500000000000000000000, m 2334376212042530000000000000000000],
    [m 72689161196677400000000000000000000, m 50260381043912900000000000000000000],
    [79871347386253100000000000000000000, m 37820469654148200000000000000000000],
    [m 7182186189575690000000000000000000, 88080850698061200000000000000000000],
    [72689161196677400000000000000000000, m 50260381043912900000000000000000000],
    [7182186189575760000000000000000000, 88080850698061200000000000000000000],
    [m 79871347386253100000000000000000000, m 37820469654148200000000000000000000],
    [m 64034267680894000000000000000000000, m 49252317057731900000000000000000000],
    [74670891607688400000000000000000000, m 30829143995521100000000000000000000],
    [m 10636623926794400000000000000000000, 80081461053253000000000000000000000],
    [64034267680894000000000000000000000, m 49252317057731900000000000000000000],
    [10636623926794500000000000000000000, 80081461053253000000000000000000000],
    [m 74670891607688400000000000000000000, m 30829143995521000000000000000000000],
    [m 68321717220184300000000000000000000, m 56097451023259400000000000000000000],
    [82742676283788100000000000000000000, m 31119617231226600000000000000000000],
    [m 14420959063603800000000000000000000, 87217068254486100000000000000000000],
    [68321717220184300000000000000000000, m 56097451023259400000000000000000000],
    [14420959063603900000000000000000000, 87217068254486100000000000000000000],
    [m 82742676283788200000000000000000000, m 31119617231226600000000000000000000],
    [m 83839805257724100000000000000000000, m 57406923516192600000000000000000000],
    [91635756746995100000000000000000000, m 43903939443432900000000000000000000],
    [m 7795951489271040000000000000000000, 101310862959626000000000000000000000],
    [83839805257724100000000000000000000, m 57406923516192600000000000000000000],
    [7795951489271100000000000000000000, 101310862959626000000000000000000000],
    [m 91635756746995200000000000000000000, m 43903939443432800000000000000000000],
    [m 96488627659865900000000000000000000, m 55707735153161200000000000000000000],
    [96488627659866000000000000000000000, m 55707735153161200000000000000000000],
    [0, 111415470306322000000000000000000000],
    [m 59225145333921000000000000000000000, m 55651660365661100000000000000000000],
    [77808324306406600000000000000000000, m 23464650219170500000000000000000000],
    [m 18583178972485500000000000000000000, 79116310584831600000000000000000000],
    [59225145333921000000000000000000000, m 55651660365661100000000000000000000],
    [18583178972485600000000000000000000, 79116310584831600000000000000000000],
    [m 77808324306406600000000000000000000, m 23464650219170400000000000000000000],
    [m 36426477146050000000000000000000000, m 57405163423686200000000000000000000],
    [67927568406334600000000000000000000, m 2843672867009460000000000000000000],
    [m 31501091260284500000000000000000000, 60248836290695800000000000000000000],
    [36426477146050000000000000000000000, m 57405163423686200000000000000000000],
    [31501091260284600000000000000000000, 60248836290695700000000000000000000],
    [m 67927568406334600000000000000000000, m 2843672867009410000000000000000000],
    [m 64466682188081700000000000000000000, m 53196149015755200000000000000000000],
    [78302557525187300000000000000000000, m 29231709964698900000000000000000000],
    [m 13835875337105700000000000000000000, 82427858980454100000000000000000000],
    [64466682188081700000000000000000000, m 53196149015755200000000000000000000],
    [13835875337105700000000000000000000, 82427858980454100000000000000000000],
    [m 78302557525187400000000000000000000, m 29231709964698900000000000000000000],
    [m 18326940651609800000000000000000000, m 41372183327216000000000000000000000],
    [44992832097200900000000000000000000, 4814495485664210000000000000000000],
    [m 26665891445591100000000000000000000, 36557687841551800000000000000000000],
    [18326940651609800000000000000000000, m 41372183327216000000000000000000000],
    [26665891445591200000000000000000000, 36557687841551800000000000000000000],
    [m 44992832097200900000000000000000000, 4814495485664240000000000000000000],
    [m 6402469605775750000000000000000000, m 41051333470792200000000000000000000],
    [38752732447820300000000000000000000, 14980965409836600000000000000000000],
    [m 32350262842044600000000000000000000, 26070368060955700000000000000000000],
    [6402469605775760000000000000000000, m 41051333470792200000000000000000000],
    [32350262842044600000000000000000000, 26070368060955700000000000000000000],
    [m 38752732447820300000000000000000000, 14980965409836600000000000000000000],
    [m 46015923358724600000000000000000000, m 48470232197639100000000000000000000],
    [64984414089848200000000000000000000, m 15615842508433700000000000000000000],
    [m 18968490731123600000000000000000000, 64086074706072900000000000000000000],
    [46015923358724600000000000000000000, m 48470232197639100000000000000000000],
    [18968490731123600000000000000000000, 64086074706072900000000000000000000],
    [m 64984414089848200000000000000000000, m 15615842508433700000000000000000000],
    [m 62850907517187600000000000000000000, m 43960983180755200000000000000000000],
    [69496781968468200000000000000000000, m 32449990970413200000000000000000000],
    [m 6645874451280600000000000000000000, 76410974151168400000000000000000000],
    [62850907517187600000000000000000000, m 43960983180755200000000000000000000],
    [6645874451280640000000000000000000, 76410974151168400000000000000000000],
    [m 69496781968468200000000000000000000, m 32449990970413200000000000000000000],
    [m 93449067868256800000000000000000000, m 55824444146228300000000000000000000],
    [95069920716907600000000000000000000, m 53017044660772300000000000000000000],
    [m 1620852848650800000000000000000000, 108841488807001000000000000000000000],
    [93449067868256800000000000000000000, m 55824444146228300000000000000000000],
    [1620852848650860000000000000000000, 108841488807001000000000000000000000],
    [m 95069920716907600000000000000000000, m 53017044660772300000000000000000000],
    [m 49718634910646400000000000000000000, m 55624309454314400000000000000000000],
    [73031382510726400000000000000000000, m 15245446146946500000000000000000000],
    [m 23312747600079900000000000000000000, 70869755601260900000000000000000000],
    [49718634910646400000000000000000000, m 55624309454314400000000000000000000],
    [23312747600080000000000000000000000, 70869755601260900000000000000000000],
    [m 73031382510726400000000000000000000, m 15245446146946400000000000000000000],
    [m 19646045886649300000000000000000000, m 11342649881168700000000000000000000],
    [19646045886649300000000000000000000, m 11342649881168700000000000000000000],
    [0, 22685299762337500000000000000000000],
    [m 76477834359061700000000000000000000, m 57369006779153200000000000000000000],
    [87921934440159200000000000000000000, m 37547243991789200000000000000000000],
    [m 11444100081097500000000000000000000, 94916250770942400000000000000000000],
    [76477834359061600000000000000000000, m 57369006779153200000000000000000000],
    [11444100081097600000000000000000000, 94916250770942400000000000000000000],
    [m 87921934440159200000000000000000000, m 37547243991789100000000000000000000],
    [m 86560964360184000000000000000000000, m 53020559443910400000000000000000000],
    [89197633581381300000000000000000000, m 48453714390043500000000000000000000],
    [m 2636669221197300000000000000000000, 101474273833954000000000000000000000],
    [86560964360183900000000000000000000, m 53020559443910400000000000000000000],
    [2636669221197360000000000000000000, 101474273833954000000000000000000000],
    [m 89197633581381300000000000000000000, m 48453714390043500000000000000000000],
    [m 80347270468749400000000000000000000, m 53187309456333600000000000000000000],
    [86235196382503900000000000000000000, m 42989122622509400000000000000000000],
    [m 5887925913754440000000000000000000, 96176432078843100000000000000000000],
    [80347270468749400000000000000000000, m 53187309456333600000000000000000000],
    [5887925913754510000000000000000000, 96176432078843100000000000000000000],
    [m 86235196382503900000000000000000000, m 42989122622509400000000000000000000],
    [m 12053965097836300000000000000000000, m 46914022619776700000000000000000000],
    [46655717931362600000000000000000000, 13017971318831100000000000000000000],
    [m 34601752833526300000000000000000000, 33896051300945700000000000000000000],
    [12053965097836300000000000000000000, m 46914022619776700000000000000000000],
    [34601752833526300000000000000000000, 33896051300945700000000000000000000],
    [m 46655717931362600000000000000000000, 13017971318831200000000000000000000],
    [m 6172169993417890000000000000000000, m 27636104453730600000000000000000000],
    [27019653515279900000000000000000000, 8472796216089410000000000000000000],
    [m 20847483521862000000000000000000000, 19163308237641300000000000000000000],
    [6172169993417900000000000000000000, m 27636104453730600000000000000000000],
    [20847483521862100000000000000000000, 19163308237641300000000000000000000],
    [m 27019653515279900000000000000000000, 8472796216089420000000000000000000],
    [m 94600280954375200000000000000000000, m 57380107877191700000000000000000000],
    [96992771570727200000000000000000000, m 53236192573038300000000000000000000],
    [m 2392490616351910000000000000000000, 110616300450230000000000000000000000],
    [94600280954375300000000000000000000, m 57380107877191700000000000000000000],
    [2392490616351980000000000000000000, 110616300450230000000000000000000000],
    [m 96992771570727200000000000000000000, m 53236192573038300000000000000000000],
    [m 20973158081832900000000000000000000, m 54463175727474200000000000000000000],
    [57653072791685200000000000000000000, 9068300167282890000000000000000000],
    [m 36679914709852200000000000000000000, 45394875560191400000000000000000000],
    [20973158081832900000000000000000000, m 54463175727474200000000000000000000],
    [36679914709852300000000000000000000, 45394875560191400000000000000000000],
    [m 57653072791685100000000000000000000, 9068300167282930000000000000000000],
    [m 53588808819149500000000000000000000, m 43425004501953400000000000000000000],
    [64401561467720000000000000000000000, m 24696767544954400000000000000000000],
    [m 10812752648570400000000000000000000, 68121772046907800000000000000000000],
    [53588808819149500000000000000000000, m 43425004501953400000000000000000000],
    [10812752648570500000000000000000000, 68121772046907800000000000000000000],
    [m 64401561467720000000000000000000000, m 24696767544954300000000000000000000],
    [m 89909074000354300000000000000000000, m 57340126819590800000000000000000000],
    [94612543482164200000000000000000000, m 49193478705246500000000000000000000],
    [m 4703469481809830000000000000000000, 106533605524837000000000000000000000],
    [89909074000354300000000000000000000, m 57340126819590800000000000000000000],
    [4703469481809910000000000000000000, 106533605524837000000000000000000000],
    [m 94612543482164200000000000000000000, m 49193478705246400000000000000000000],
    [m 14226265688360400000000000000000000, m 56908448605073300000000000000000000],
    [56397295026134800000000000000000000, 16133916815429600000000000000000000],
    [m 42171029337774400000000000000000000, 40774531789643800000000000000000000],
    [14226265688360400000000000000000000, m 56908448605073300000000000000000000],
    [42171029337774400000000000000000000, 40774531789643700000000000000000000],
    [m 56397295026134800000000000000000000, 16133916815429700000000000000000000],
    [m 58106813824728200000000000000000000, m 37608188392552800000000000000000000],
    [61623053450625900000000000000000000, m 31517882708911000000000000000000000],
    [m 3516239625897690000000000000000000, 69126071101463900000000000000000000],
    [58106813824728200000000000000000000, m 37608188392552800000000000000000000],
    [3516239625897730000000000000000000, 69126071101463900000000000000000000],
    [m 61623053450625900000000000000000000, m 31517882708911000000000000000000000],
    [m 43230361497566000000000000000000000, m 42921616619109200000000000000000000],
    [58786391112428000000000000000000000, m 15977782962122200000000000000000000],
    [m 15556029614861900000000000000000000, 58899399581231500000000000000000000],
    [43230361497566000000000000000000000, m 42921616619109200000000000000000000],
    [15556029614862000000000000000000000, 58899399581231500000000000000000000],
    [m 58786391112428000000000000000000000, m 15977782962122200000000000000000000],
    [m 54615078926623400000000000000000000, m 52577535892830100000000000000000000],
    [72841021214890700000000000000000000, m 21009277833733000000000000000000000],
    [m 18225942288267300000000000000000000, 73586813726563100000000000000000000],
    [54615078926623400000000000000000000, m 52577535892830100000000000000000000],
    [18225942288267300000000000000000000, 73586813726563100000000000000000000],
    [m 72841021214890700000000000000000000, m 21009277833732900000000000000000000],
    [m 79506240679562100000000000000000000, m 49030858978345200000000000000000000],
    [82215089784400300000000000000000000, m 44338994698727900000000000000000000],
    [m 2708849104838200000000000000000000, 93369853677073200000000000000000000],
    [79506240679562100000000000000000000, m 49030858978345200000000000000000000],
    [2708849104838280000000000000000000, 93369853677073200000000000000000000],
    [m 82215089784400400000000000000000000, m 44338994698727900000000000000000000],
    [m 25184574558858300000000000000000000, m 20270732080067700000000000000000000],
    [30147256214076000000000000000000000, m 11675115311440700000000000000000000],
    [m 4962681655217680000000000000000000, 31945847391508500000000000000000000],
    [25184574558858300000000000000000000, m 20270732080067700000000000000000000],
    [4962681655217720000000000000000000, 31945847391508500000000000000000000],
    [m 30147256214076000000000000000000000, m 11675115311440600000000000000000000],
    [m 36058518255942700000000000000000000, m 20818395221647600000000000000000000],
    [36058518255942800000000000000000000, m 20818395221647600000000000000000000],
    [0, 41636790443295200000000000000000000],
    [m 97712556750745200000000000000000000, m 57333501569761500000000000000000000],
    [98508547222701000000000000000000000, m 55954805629993300000000000000000000],
    [m 795990471955765000000000000000000, 113288307199755000000000000000000000],
    [97712556750745300000000000000000000, m 57333501569761500000000000000000000],
    [795990471955843000000000000000000, 113288307199755000000000000000000000],
    [m 98508547222701100000000000000000000, m 55954805629993200000000000000000000],
    [m 2775557561562890000, m 34742627962761800000000000000000000],
    [30087998409983300000000000000000000, 17371313981380900000000000000000000],
    [m 30087998409983300000000000000000000, 17371313981380900000000000000000000],
    [m 26607245123060800000000000000000000, m 56621285723554900000000000000000000],
    [62339094393066200000000000000000000, 5268092660487210000000000000000000],
    [m 35731849270005300000000000000000000, 51353193063067800000000000000000000],
    [26607245123060800000000000000000000, m 56621285723554900000000000000000000],
    [35731849270005300000000000000000000, 51353193063067800000000000000000000],
    [m 62339094393066200000000000000000000, 5268092660487260000000000000000000],
    [m 12724847472110100000000000000000000, m 34679505484408200000000000000000000],
    [36395756476234400000000000000000000, 6319711572074570000000000000000000],
    [m 23670909004124200000000000000000000, 28359793912333700000000000000000000],
    [12724847472110100000000000000000000, m 34679505484408200000000000000000000],
    [23670909004124200000000000000000000, 28359793912333700000000000000000000],
    [m 36395756476234400000000000000000000, 6319711572074590000000000000000000],
    [m 52029725667838300000000000000000000, m 30039376120188900000000000000000000],
    [52029725667838300000000000000000000, m 30039376120188800000000000000000000],
    [0, 60078752240377700000000000000000000],
    [m 91580900952196500000000000000000000, m 52874257817379200000000000000000000],
    [91580900952196500000000000000000000, m 52874257817379100000000000000000000],
    [0, 105748515634758000000000000000000000],
    [m 30727380337735400000000000000000000, m 28592841602633900000000000000000000],
    [40125817363133300000000000000000000, m 12314271162908300000000000000000000],
    [m 9398437025397840000000000000000000, 40907112765542300000000000000000000],
    [30727380337735400000000000000000000, m 28592841602633900000000000000000000],
    [9398437025397890000000000000000000, 40907112765542300000000000000000000],
    [m 40125817363133300000000000000000000, m 12314271162908300000000000000000000],
    [m 58589180790116200000000000000000000, m 57323206949747500000000000000000000],
    [78937943839932100000000000000000000, m 22078115476286100000000000000000000],
    [m 20348763049815800000000000000000000, 79401322426033600000000000000000000],
    [58589180790116200000000000000000000, m 57323206949747500000000000000000000],
    [20348763049815900000000000000000000, 79401322426033600000000000000000000],
    [m 78937943839932100000000000000000000, m 22078115476286100000000000000000000],
    [m 17860222460692300000000000000000000, m 26683655423740600000000000000000000],
    [32038834693135900000000000000000000, m 2125578656330620000000000000000000],
    [m 14178612232443600000000000000000000, 28809234080071300000000000000000000],
    [17860222460692300000000000000000000, m 26683655423740600000000000000000000],
    [14178612232443600000000000000000000, 28809234080071200000000000000000000],
    [m 32038834693135900000000000000000000, m 2125578656330600000000000000000000],
    [m 43751879768235900000000000000000000, m 52805029804391100000000000000000000],
    [67606437142315100000000000000000000, m 11487724440419100000000000000000000],
    [m 23854557374079200000000000000000000, 64292754244810300000000000000000000],
    [43751879768235900000000000000000000, m 52805029804391100000000000000000000],
    [23854557374079200000000000000000000, 64292754244810300000000000000000000],
    [m 67606437142315100000000000000000000, m 11487724440419100000000000000000000],
    [m 48056445088740200000000000000000000, m 57349391506508200000000000000000000],
    [73694252480585700000000000000000000, m 12943406509166800000000000000000000],
    [m 25637807391845500000000000000000000, 70292798015675100000000000000000000],
    [48056445088740200000000000000000000, m 57349391506508200000000000000000000],
    [25637807391845500000000000000000000, 70292798015675100000000000000000000],
    [m 73694252480585700000000000000000000, m 12943406509166800000000000000000000],
    [m 48038610507303000000000000000000000, m 36887306566949200000000000000000000],
    [55964649817814000000000000000000000, m 23159003778355800000000000000000000],
    [m 7926039310511070000000000000000000, 60046310345305100000000000000000000],
    [48038610507303000000000000000000000, m 36887306566949200000000000000000000],
    [7926039310511100000000000000000000, 60046310345305100000000000000000000],
    [m 55964649817814100000000000000000000, m 23159003778355800000000000000000000],
    [m 41788380954447100000000000000000000, m 29271463211375300000000000000000000],
    [46244021224216200000000000000000000, m 21554067883885400000000000000000000],
    [m 4455640269769070000000000000000000, 50825531095260800000000000000000000],
    [41788380954447100000000000000000000, m 29271463211375300000000000000000000],
    [4455640269769100000000000000000000, 50825531095260700000000000000000000],
    [m 46244021224216300000000000000000000, m 21554067883885300000000000000000000],
    [m 67585861227308200000000000000000000, m 39020715172999100000000000000000000],
    [67585861227308200000000000000000000, m 39020715172999100000000000000000000],
    [0, 78041430345998200000000000000000000],
    [m 36944533995870500000000000000000000, m 36277089606217200000000000000000000],
    [49889148172283800000000000000000000, m 13856360168293100000000000000000000],
    [m 12944614176413200000000000000000000, 50133449774510400000000000000000000],
    [36944533995870500000000000000000000, m 36277089606217200000000000000000000],
    [12944614176413200000000000000000000, 50133449774510300000000000000000000],
    [m 49889148172283800000000000000000000, m 13856360168293100000000000000000000],
    [4857225732735060000, m 56756638958566100000000000000000000],
    [49152691171539800000000000000000000, 28378319479283100000000000000000000],
    [m 49152691171539800000000000000000000, 28378319479283100000000000000000000],
    [m 7224774411748300000000000000000000, m 57707312306547300000000000000000000],
    [53588385647466500000000000000000000, 22596817976087900000000000000000000],
    [m 46363611235718200000000000000000000, 35110494330459500000000000000000000],
    [7224774411748310000000000000000000, m 57707312306547300000000000000000000],
    [46363611235718200000000000000000000, 35110494330459500000000000000000000],
    [m 53588385647466500000000000000000000, 22596817976087900000000000000000000],
    [m 23245589269716300000000000000000000, m 57716232573911700000000000000000000],
    [61606518254596600000000000000000000, 8726845453442540000000000000000000],
    [m 38360928984880300000000000000000000, 48989387120469200000000000000000000],
    [23245589269716300000000000000000000, m 57716232573911700000000000000000000],
    [38360928984880300000000000000000000, 48989387120469200000000000000000000],
    [m 61606518254596600000000000000000000, 8726845453442590000000000000000000]],
   [756064210363960000000000000000000, 756064210363960000000000000000000, 756064210363960000000000000000000,
    644311020676935000000000000000000, 644311020676935000000000000000000, 644311020676935000000000000000000,
    644311020676935000000000000000000, 644311020676935000000000000000000, 644311020676935000000000000000000,
    525263623558504000000000000000000, 525263623558504000000000000000000, 525263623558504000000000000000000,
    525263623558504000000000000000000, 525263623558504000000000000000000, 525263623558504000000000000000000,
    319911666002334000000000000000000, 319911666002334000000000000000000, 319911666002334000000000000000000,
    319911666002334000000000000000000, 319911666002334000000000000000000, 319911666002334000000000000000000,
    687481284259858000000000000000000, 687481284259858000000000000000000, 687481284259858000000000000000000,
    4117588464665250000000000000000, 4117588464665250000000000000000, 4117588464665250000000000000000,
    4117588464665250000000000000000, 4117588464665250000000000000000, 4117588464665250000000000000000,
    267596212401442000000000000000000, 267596212401442000000000000000000, 267596212401442000000000000000000,
    267596212401442000000000000000000, 267596212401442000000000000000000, 267596212401442000000000000000000,
    871548391197981000000000000000000, 871548391197981000000000000000000, 871548391197981000000000000000000,
    871548391197981000000000000000000, 871548391197981000000000000000000, 871548391197981000000000000000000,
    67331009881855000000000000000000, 67331009881855000000000000000000, 67331009881855000000000000000000,
    67331009881855000000000000000000, 67331009881855000000000000000000, 67331009881855000000000000000000,
    397153938897075000000000000000000, 397153938897075000000000000000000, 397153938897075000000000000000000,
    397153938897075000000000000000000, 397153938897075000000000000000000, 397153938897075000000000000000000,
    315599495492060000000000000000000, 315599495492060000000000000000000, 315599495492060000000000000000000,
    564476777735866000000000000000000, 564476777735866000000000000000000, 564476777735866000000000000000000,
    564476777735866000000000000000000, 564476777735866000000000000000000, 564476777735866000000000000000000,
    209828818780214000000000000000000, 209828818780214000000000000000000, 209828818780214000000000000000000,
    334451128313732000000000000000000, 334451128313732000000000000000000, 334451128313732000000000000000000,
    225068639047388000000000000000000, 225068639047388000000000000000000, 225068639047388000000000000000000,
    225068639047388000000000000000000, 225068639047388000000000000000000, 225068639047388000000000000000000,
    700481495369879000000000000000000, 700481495369879000000000000000000, 700481495369879000000000000000000,
    700481495369879000000000000000000, 700481495369879000000000000000000, 700481495369879000000000000000000,
    457265635183064000000000000000000, 457265635183064000000000000000000, 457265635183064000000000000000000,
    568838755547095000000000000000000, 568838755547095000000000000000000, 568838755547095000000000000000000,
    149732173556948000000000000000000, 149732173556948000000000000000000, 149732173556948000000000000000000,
    149732173556948000000000000000000, 149732173556948000000000000000000, 149732173556948000000000000000000,
    219272684890694000000000000000000, 219272684890694000000000000000000, 219272684890694000000000000000000,
    219272684890694000000000000000000, 219272684890694000000000000000000, 219272684890694000000000000000000,
    475030279121726000000000000000000, 475030279121726000000000000000000, 475030279121726000000000000000000,
    475030279121726000000000000000000, 475030279121726000000000000000000, 475030279121726000000000000000000,
    366399336166406000000000000000000, 366399336166406000000000000000000, 366399336166406000000000000000000,
    366399336166406000000000000000000, 366399336166406000000000000000000, 366399336166406000000000000000000,
    281138610979425000000000000000000, 281138610979425000000000000000000, 281138610979425000000000000000000,
    281138610979425000000000000000000, 281138610979425000000000000000000, 281138610979425000000000000000000,
    440161522219822000000000000000000, 440161522219822000000000000000000, 440161522219822000000000000000000,
    440161522219822000000000000000000, 440161522219822000000000000000000, 440161522219822000000000000000000,
    107843627229292000000000000000000, 107843627229292000000000000000000, 107843627229292000000000000000000,
    107843627229292000000000000000000, 107843627229292000000000000000000, 107843627229292000000000000000000,
    457580176360597000000000000000000, 457580176360597000000000000000000, 457580176360597000000000000000000,
    457580176360597000000000000000000, 457580176360597000000000000000000, 457580176360597000000000000000000,
    565569512479940000000000000000000, 565569512479940000000000000000000, 565569512479940000000000000000000,
    565569512479940000000000000000000, 565569512479940000000000000000000, 565569512479940000000000000000000,
    132591015675268000000000000000000, 132591015675268000000000000000000, 132591015675268000000000000000000,
    132591015675268000000000000000000, 132591015675268000000000000000000, 132591015675268000000000000000000,
    894454609282500000000000000000000, 894454609282500000000000000000000, 894454609282500000000000000000000,
    894454609282500000000000000000000, 894454609282500000000000000000000, 894454609282500000000000000000000,
    321371458591359000000000000000000, 321371458591359000000000000000000, 321371458591359000000000000000000,
    321371458591359000000000000000000, 321371458591359000000000000000000, 321371458591359000000000000000000,
    394874677128370000000000000000000, 394874677128370000000000000000000, 394874677128370000000000000000000,
    394874677128370000000000000000000, 394874677128370000000000000000000, 394874677128370000000000000000000,
    177846044592186000000000000000000, 177846044592186000000000000000000, 177846044592186000000000000000000,
    177846044592186000000000000000000, 177846044592186000000000000000000, 177846044592186000000000000000000,
    57650119674111200000000000000000, 57650119674111200000000000000000, 57650119674111200000000000000000,
    57650119674111200000000000000000, 57650119674111200000000000000000, 57650119674111200000000000000000,
    55935707605732000000000000000000, 55935707605732000000000000000000, 55935707605732000000000000000000,
    210573957670126000000000000000000, 210573957670126000000000000000000, 210573957670126000000000000000000,
    210573957670126000000000000000000, 210573957670126000000000000000000, 210573957670126000000000000000000,
    102071758574364000000000000000000, 102071758574364000000000000000000, 102071758574364000000000000000000,
    102071758574364000000000000000000, 102071758574364000000000000000000, 102071758574364000000000000000000,
    300383648721441000000000000000000, 300383648721441000000000000000000, 300383648721441000000000000000000,
    300383648721441000000000000000000, 300383648721441000000000000000000, 300383648721441000000000000000000,
    701458939552398000000000000000000, 701458939552398000000000000000000, 701458939552398000000000000000000,
    701458939552398000000000000000000, 701458939552398000000000000000000, 701458939552398000000000000000000,
    740318750299051000000000000000000, 740318750299051000000000000000000, 740318750299051000000000000000000,
    740318750299051000000000000000000, 740318750299051000000000000000000, 740318750299051000000000000000000,
    490778076808968000000000000000000, 490778076808968000000000000000000, 490778076808968000000000000000000,
    490778076808968000000000000000000, 490778076808968000000000000000000, 490778076808968000000000000000000,
    475242273591555000000000000000000, 475242273591555000000000000000000, 475242273591555000000000000000000,
    475242273591555000000000000000000, 475242273591555000000000000000000, 475242273591555000000000000000000,
    81929719547717500000000000000000, 81929719547717500000000000000000, 81929719547717500000000000000000,
    81929719547717500000000000000000, 81929719547717500000000000000000, 81929719547717500000000000000000,
    237865610782274000000000000000000, 237865610782274000000000000000000, 237865610782274000000000000000000,
    237865610782274000000000000000000, 237865610782274000000000000000000, 237865610782274000000000000000000,
    940684813677869000000000000000000, 940684813677869000000000000000000, 940684813677869000000000000000000,
    73317882410406300000000000000000, 73317882410406300000000000000000, 73317882410406300000000000000000,
    73317882410406300000000000000000, 73317882410406300000000000000000, 73317882410406300000000000000000,
    184716496046800000000000000000000, 184716496046800000000000000000000, 184716496046800000000000000000000,
    184716496046800000000000000000000, 184716496046800000000000000000000, 184716496046800000000000000000000,
    239438889541362000000000000000000, 239438889541362000000000000000000, 239438889541362000000000000000000,
    239438889541362000000000000000000, 239438889541362000000000000000000, 239438889541362000000000000000000,
    633672830561267000000000000000000, 633672830561267000000000000000000, 633672830561267000000000000000000,
    633672830561267000000000000000000, 633672830561267000000000000000000, 633672830561267000000000000000000,
    902399311630943000000000000000000, 902399311630943000000000000000000, 902399311630943000000000000000000,
    902399311630943000000000000000000, 902399311630943000000000000000000, 902399311630943000000000000000000,
    35907242388879100000000000000000, 35907242388879100000000000000000, 35907242388879100000000000000000,
    35907242388879100000000000000000, 35907242388879100000000000000000, 35907242388879100000000000000000,
    339190330613662000000000000000000, 339190330613662000000000000000000, 339190330613662000000000000000000,
    339190330613662000000000000000000, 339190330613662000000000000000000, 339190330613662000000000000000000,
    555801685937175000000000000000000, 555801685937175000000000000000000, 555801685937175000000000000000000,
    555801685937175000000000000000000, 555801685937175000000000000000000, 555801685937175000000000000000000,
    54458302245966100000000000000000, 54458302245966100000000000000000, 54458302245966100000000000000000,
    54458302245966100000000000000000, 54458302245966100000000000000000, 54458302245966100000000000000000,
    186804200617109000000000000000000, 186804200617109000000000000000000, 186804200617109000000000000000000,
    186804200617109000000000000000000, 186804200617109000000000000000000, 186804200617109000000000000000000,
    623612245243915000000000000000000, 623612245243915000000000000000000, 623612245243915000000000000000000,
    623612245243915000000000000000000, 623612245243915000000000000000000, 623612245243915000000000000000000,
    634136955193855000000000000000000, 634136955193855000000000000000000, 634136955193855000000000000000000,
    634136955193855000000000000000000, 634136955193855000000000000000000, 634136955193855000000000000000000,
    374419555897892000000000000000000, 374419555897892000000000000000000, 374419555897892000000000000000000,
    374419555897892000000000000000000, 374419555897892000000000000000000, 374419555897892000000000000000000,
    311952097799168000000000000000000, 311952097799168000000000000000000, 311952097799168000000000000000000,
    311952097799168000000000000000000, 311952097799168000000000000000000, 311952097799168000000000000000000,
    943544947492988000000000000000000, 943544947492988000000000000000000, 943544947492988000000000000000000,
    943544947492988000000000000000000, 943544947492988000000000000000000, 943544947492988000000000000000000,
    892449665212072000000000000000000, 892449665212072000000000000000000, 892449665212072000000000000000000,
    24211507118646700000000000000000, 24211507118646700000000000000000, 24211507118646700000000000000000,
    24211507118646700000000000000000, 24211507118646700000000000000000, 24211507118646700000000000000000,
    864813860215232000000000000000000, 864813860215232000000000000000000, 864813860215232000000000000000000,
    207188122883237000000000000000000, 207188122883237000000000000000000, 207188122883237000000000000000000,
    207188122883237000000000000000000, 207188122883237000000000000000000, 207188122883237000000000000000000,
    857809563427597000000000000000000, 857809563427597000000000000000000, 857809563427597000000000000000000,
    857809563427597000000000000000000, 857809563427597000000000000000000, 857809563427597000000000000000000,
    734995498973332000000000000000000, 734995498973332000000000000000000, 734995498973332000000000000000000,
    153736926852128000000000000000000, 153736926852128000000000000000000, 153736926852128000000000000000000,
    875587341630923000000000000000000, 875587341630923000000000000000000, 875587341630923000000000000000000,
    875587341630923000000000000000000, 875587341630923000000000000000000, 875587341630923000000000000000000,
    104891448781901000000000000000000, 104891448781901000000000000000000, 104891448781901000000000000000000,
    104891448781901000000000000000000, 104891448781901000000000000000000, 104891448781901000000000000000000,
    927996486161506000000000000000000, 927996486161506000000000000000000, 927996486161506000000000000000000,
    927996486161506000000000000000000, 927996486161506000000000000000000, 927996486161506000000000000000000,
    409722719592831000000000000000000, 409722719592831000000000000000000, 409722719592831000000000000000000,
    409722719592831000000000000000000, 409722719592831000000000000000000, 409722719592831000000000000000000,
    110188925093586000000000000000000, 110188925093586000000000000000000, 110188925093586000000000000000000,
    110188925093586000000000000000000, 110188925093586000000000000000000, 110188925093586000000000000000000,
    713047113936002000000000000000000, 713047113936002000000000000000000, 713047113936002000000000000000000,
    713047113936002000000000000000000, 713047113936002000000000000000000, 713047113936002000000000000000000,
    821609761580361000000000000000000, 821609761580361000000000000000000, 821609761580361000000000000000000,
    821609761580361000000000000000000, 821609761580361000000000000000000, 821609761580361000000000000000000,
    549740516000258000000000000000000, 549740516000258000000000000000000, 549740516000258000000000000000000,
    797136101037585000000000000000000, 797136101037585000000000000000000, 797136101037585000000000000000000,
    797136101037585000000000000000000, 797136101037585000000000000000000, 797136101037585000000000000000000,
    224314420638853000000000000000000, 224314420638853000000000000000000, 224314420638853000000000000000000,
    40704739396837200000000000000000, 40704739396837200000000000000000, 40704739396837200000000000000000,
    40704739396837200000000000000000, 40704739396837200000000000000000, 40704739396837200000000000000000,
    41547339930714500000000000000000, 41547339930714500000000000000000, 41547339930714500000000000000000,
    41547339930714500000000000000000, 41547339930714500000000000000000, 41547339930714500000000000000000]⟩

/-- `triangle_table_orig[49]` (xg_quad_data.py 14618-15493). -/
def xgTri_49 : XgTableRule :=
  ⟨[
    [m 61057213632871700000000000000000000, m 50805411191391800000000000000000000],
    [74527383557895400000000000000000000, m 27474392494664600000000000000000000],
    [m 13470169925023600000000000000000000, 78279803686056500000000000000000000],
    [61057213632871800000000000000000000, m 50805411191391800000000000000000000],
    [13470169925023700000000000000000000, 78279803686056400000000000000000000],
    [m 74527383557895400000000000000000000, m 27474392494664500000000000000000000],
    [m 21740746844089600000000000000000000, m 56234652242839100000000000000000000],
    [59571010837327000000000000000000000, 9289287057191630000000000000000000],
    [m 37830263993237400000000000000000000, 46945365185647500000000000000000000],
    [21740746844089600000000000000000000, m 56234652242839100000000000000000000],
    [37830263993237500000000000000000000, 46945365185647500000000000000000000],
    [m 59571010837327000000000000000000000, 9289287057191680000000000000000000],
    [m 74657702398083500000000000000000000, m 57509668203848400000000000000000000],
    [87133684826788700000000000000000000, m 35900632762994500000000000000000000],
    [m 12475982428705100000000000000000000, 93410300966843000000000000000000000],
    [74657702398083500000000000000000000, m 57509668203848400000000000000000000],
    [12475982428705200000000000000000000, 93410300966843000000000000000000000],
    [m 87133684826788700000000000000000000, m 35900632762994500000000000000000000],
    [m 46488095131110500000000000000000000, m 26839914238059600000000000000000000],
    [46488095131110500000000000000000000, m 26839914238059600000000000000000000],
    [0, 53679828476119200000000000000000000],
    [m 18652159062065300000000000000000000, m 15190921808712500000000000000000000],
    [22481803724280800000000000000000000, m 8557782678820400000000000000000000],
    [m 3829644662215460000000000000000000, 23748704487533000000000000000000000],
    [18652159062065300000000000000000000, m 15190921808712500000000000000000000],
    [3829644662215480000000000000000000, 23748704487533000000000000000000000],
    [m 22481803724280800000000000000000000, m 8557782678820390000000000000000000],
    [m 8876182515746620000000000000000000, m 14305301576398400000000000000000000],
    [16826845831831900000000000000000000, m 534348759064596000000000000000000],
    [m 7950663316085320000000000000000000, 14839650335463100000000000000000000],
    [8876182515746630000000000000000000, m 14305301576398400000000000000000000],
    [7950663316085310000000000000000000, 14839650335463100000000000000000000],
    [m 16826845831831900000000000000000000, m 534348759064585000000000000000000],
    [m 78147803918196500000000000000000000, m 45118655628748900000000000000000000],
    [78147803918196600000000000000000000, m 45118655628748900000000000000000000],
    [0, 90237311257497800000000000000000000],
    [m 48639838036980400000000000000000000, m 57473532714413300000000000000000000],
    [74093458394408100000000000000000000, m 13386569018779000000000000000000000],
    [m 25453620357427700000000000000000000, 70860101733192400000000000000000000],
    [48639838036980400000000000000000000, m 57473532714413300000000000000000000],
    [25453620357427800000000000000000000, 70860101733192400000000000000000000],
    [m 74093458394408200000000000000000000, m 13386569018778900000000000000000000],
    [m 37022598751812200000000000000000000, m 38858551748024300000000000000000000],
    [52163792343967300000000000000000000, m 12633235159175300000000000000000000],
    [m 15141193592155100000000000000000000, 51491786907199600000000000000000000],
    [37022598751812200000000000000000000, m 38858551748024300000000000000000000],
    [15141193592155100000000000000000000, 51491786907199600000000000000000000],
    [m 52163792343967400000000000000000000, m 12633235159175300000000000000000000],
    [2775557561562890000, m 33135871726650800000000000000000000],
    [28696506691822100000000000000000000, 16567935863325400000000000000000000],
    [m 28696506691822100000000000000000000, 16567935863325400000000000000000000],
    [m 55660589033254000000000000000000000, m 40073527072101800000000000000000000],
    [62534986980310600000000000000000000, m 28166720556352600000000000000000000],
    [m 6874397947056570000000000000000000, 68240247628454400000000000000000000],
    [55660589033254000000000000000000000, m 40073527072101800000000000000000000],
    [6874397947056620000000000000000000, 68240247628454400000000000000000000],
    [m 62534986980310600000000000000000000, m 28166720556352500000000000000000000],
    [m 23093959523489000000000000000000000, m 54310366079605500000000000000000000],
    [58581136475515500000000000000000000, 7155227418491680000000000000000000],
    [m 35487176952026500000000000000000000, 47155138661113900000000000000000000],
    [23093959523489000000000000000000000, m 54310366079605500000000000000000000],
    [35487176952026500000000000000000000, 47155138661113800000000000000000000],
    [m 58581136475515500000000000000000000, 7155227418491730000000000000000000],
    [m 12830890012394000000000000000000000, m 57500475146778500000000000000000000],
    [56212317212983000000000000000000000, 17638360869492000000000000000000000],
    [m 43381427200588900000000000000000000, 39862114277286600000000000000000000],
    [12830890012394000000000000000000000, m 57500475146778500000000000000000000],
    [43381427200589000000000000000000000, 39862114277286500000000000000000000],
    [m 56212317212983000000000000000000000, 17638360869492100000000000000000000],
    [m 63417236502579500000000000000000000, m 42554839571165200000000000000000000],
    [68562190373890100000000000000000000, m 33643518063457000000000000000000000],
    [m 5144953871310620000000000000000000, 76198357634622300000000000000000000],
    [63417236502579500000000000000000000, m 42554839571165200000000000000000000],
    [5144953871310660000000000000000000, 76198357634622300000000000000000000],
    [m 68562190373890100000000000000000000, m 33643518063457000000000000000000000],
    [m 36128311243234500000000000000000000, m 44153050231697100000000000000000000],
    [56301818776837300000000000000000000, m 9211510216623440000000000000000000],
    [m 20173507533602800000000000000000000, 53364560448320600000000000000000000],
    [36128311243234500000000000000000000, m 44153050231697100000000000000000000],
    [20173507533602900000000000000000000, 53364560448320600000000000000000000],
    [m 56301818776837300000000000000000000, m 9211510216623410000000000000000000],
    [m 24458985250678900000000000000000000, m 46866793891867100000000000000000000],
    [52817326729625700000000000000000000, 2251294368056710000000000000000000],
    [m 28358341478946800000000000000000000, 44615499523810400000000000000000000],
    [24458985250678900000000000000000000, m 46866793891867100000000000000000000],
    [28358341478946800000000000000000000, 44615499523810400000000000000000000],
    [m 52817326729625700000000000000000000, 2251294368056740000000000000000000],
    [m 2775557561562890000, m 16570704844176900000000000000000000],
    [14350651353671100000000000000000000, 8285352422088490000000000000000000],
    [m 14350651353671100000000000000000000, 8285352422088500000000000000000000],
    [m 76440468282859700000000000000000000, m 56504278301868700000000000000000000],
    [87154374573354000000000000000000000, m 37947248259200800000000000000000000],
    [m 10713906290494200000000000000000000, 94451526561069600000000000000000000],
    [76440468282859700000000000000000000, m 56504278301868700000000000000000000],
    [10713906290494300000000000000000000, 94451526561069600000000000000000000],
    [m 87154374573354000000000000000000000, m 37947248259200800000000000000000000],
    [m 43881396034292200000000000000000000, m 50652589028067600000000000000000000],
    [65807126882905600000000000000000000, m 12676109205189000000000000000000000],
    [m 21925730848613400000000000000000000, 63328698233256600000000000000000000],
    [43881396034292200000000000000000000, m 50652589028067600000000000000000000],
    [21925730848613400000000000000000000, 63328698233256600000000000000000000],
    [m 65807126882905600000000000000000000, m 12676109205188900000000000000000000],
    [m 29031421623299500000000000000000000, m 52106748079988400000000000000000000],
    [59641478357515700000000000000000000, 911425406239930000000000000000000],
    [m 30610056734216200000000000000000000, 51195322673748500000000000000000000],
    [29031421623299500000000000000000000, m 52106748079988400000000000000000000],
    [30610056734216200000000000000000000, 51195322673748500000000000000000000],
    [m 59641478357515700000000000000000000, 911425406239974000000000000000000],
    [m 11022106138868000000000000000000000, m 56223112097793700000000000000000000],
    [54201696425943600000000000000000000, 18566132129428800000000000000000000],
    [m 43179590287075600000000000000000000, 37656979968365000000000000000000000],
    [11022106138868000000000000000000000, m 56223112097793700000000000000000000],
    [43179590287075600000000000000000000, 37656979968365000000000000000000000],
    [m 54201696425943500000000000000000000, 18566132129428800000000000000000000],
    [m 82697827385445400000000000000000000, m 57462270717388500000000000000000000],
    [91112699893119800000000000000000000, m 42887283994881900000000000000000000],
    [m 8414872507674410000000000000000000, 100349554712270000000000000000000000],
    [82697827385445400000000000000000000, m 57462270717388500000000000000000000],
    [8414872507674480000000000000000000, 100349554712270000000000000000000000],
    [m 91112699893119800000000000000000000, m 42887283994881800000000000000000000],
    [m 39778489720864400000000000000000000, m 22966121748297800000000000000000000],
    [39778489720864400000000000000000000, m 22966121748297800000000000000000000],
    [0, 45932243496595700000000000000000000],
    [m 22649962118473500000000000000000000, m 22828624984036500000000000000000000],
    [31095150228880500000000000000000000, m 8201130097334960000000000000000000],
    [m 8445188110407000000000000000000000, 31029755081371500000000000000000000],
    [22649962118473400000000000000000000, m 22828624984036500000000000000000000],
    [8445188110407020000000000000000000, 31029755081371500000000000000000000],
    [m 31095150228880500000000000000000000, m 8201130097334930000000000000000000],
    [m 34409570678022500000000000000000000, m 48829139755087200000000000000000000],
    [59492060811857400000000000000000000, m 5384992462940030000000000000000000],
    [m 25082490133834900000000000000000000, 54214132218027300000000000000000000],
    [34409570678022500000000000000000000, m 48829139755087200000000000000000000],
    [25082490133834900000000000000000000, 54214132218027300000000000000000000],
    [m 59492060811857400000000000000000000, m 5384992462939970000000000000000000],
    [m 75185639971867000000000000000000000, m 54439150942275600000000000000000000],
    [84738507662399700000000000000000000, m 37893098744289700000000000000000000],
    [m 9552867690532710000000000000000000, 92332249686565400000000000000000000],
    [75185639971867000000000000000000000, m 54439150942275600000000000000000000],
    [9552867690532760000000000000000000, 92332249686565400000000000000000000],
    [m 84738507662399800000000000000000000, m 37893098744289700000000000000000000],
    [m 53461908075309800000000000000000000, m 50670327829951900000000000000000000],
    [70612745156478900000000000000000000, m 20964206613030800000000000000000000],
    [m 17150837081169000000000000000000000, 71634534442982800000000000000000000],
    [53461908075309800000000000000000000, m 50670327829951900000000000000000000],
    [17150837081169100000000000000000000, 71634534442982700000000000000000000],
    [m 70612745156478900000000000000000000, m 20964206613030700000000000000000000],
    [m 86116533047239200000000000000000000, m 49719403536500900000000000000000000],
    [86116533047239200000000000000000000, m 49719403536500900000000000000000000],
    [0, 99438807073001800000000000000000000],
    [m 10857073341025600000000000000000000, m 6268334216052630000000000000000000],
    [10857073341025600000000000000000000, m 6268334216052620000000000000000000],
    [0, 12536668432105300000000000000000000],
    [m 67842852868361900000000000000000000, m 52796151262664700000000000000000000],
    [79644234649694500000000000000000000, m 32355558417879100000000000000000000],
    [m 11801381781332500000000000000000000, 85151709680543900000000000000000000],
    [67842852868361900000000000000000000, m 52796151262664700000000000000000000],
    [11801381781332600000000000000000000, 85151709680543800000000000000000000],
    [m 79644234649694500000000000000000000, m 32355558417879000000000000000000000],
    [m 9812804917070570000000000000000000, m 31111906291100500000000000000000000],
    [31850103666789300000000000000000000, 7057814804986320000000000000000000],
    [m 22037298749718700000000000000000000, 24054091486114300000000000000000000],
    [9812804917070570000000000000000000, m 31111906291100500000000000000000000],
    [22037298749718700000000000000000000, 24054091486114300000000000000000000],
    [m 31850103666789200000000000000000000, 7057814804986340000000000000000000],
    [m 81198101881640100000000000000000000, m 53473260414787400000000000000000000],
    [86908252883206700000000000000000000, m 43582988761183700000000000000000000],
    [m 5710151001566590000000000000000000, 97056249175971100000000000000000000],
    [81198101881640100000000000000000000, m 53473260414787400000000000000000000],
    [5710151001566640000000000000000000, 97056249175971100000000000000000000],
    [m 86908252883206700000000000000000000, m 43582988761183600000000000000000000],
    [m 96747363469297800000000000000000000, m 55857116342385700000000000000000000],
    [96747363469297900000000000000000000, m 55857116342385700000000000000000000],
    [0, 111714232684771000000000000000000000],
    [m 38816954030832800000000000000000000, m 53658558406526100000000000000000000],
    [65878151725919000000000000000000000, m 6787189084970950000000000000000000],
    [m 27061197695086200000000000000000000, 60445747491497100000000000000000000],
    [38816954030832800000000000000000000, m 53658558406526100000000000000000000],
    [27061197695086200000000000000000000, 60445747491497000000000000000000000],
    [m 65878151725919000000000000000000000, m 6787189084970890000000000000000000],
    [m 51214253977457600000000000000000000, m 33881791091529600000000000000000000],
    [54949618799710700000000000000000000, m 27411949434581700000000000000000000],
    [m 3735364822253050000000000000000000, 61293740526111400000000000000000000],
    [51214253977457600000000000000000000, m 33881791091529600000000000000000000],
    [3735364822253100000000000000000000, 61293740526111400000000000000000000],
    [m 54949618799710700000000000000000000, m 27411949434581700000000000000000000],
    [m 69143985501061200000000000000000000, m 39920298641881300000000000000000000],
    [69143985501061300000000000000000000, m 39920298641881300000000000000000000],
    [0, 79840597283762700000000000000000000],
    [m 89378361429922200000000000000000000, m 55834047448625300000000000000000000],
    [93042884201576300000000000000000000, m 49486907822627300000000000000000000],
    [m 3664522771654080000000000000000000, 105320955271253000000000000000000000],
    [89378361429922200000000000000000000, m 55834047448625300000000000000000000],
    [3664522771654140000000000000000000, 105320955271253000000000000000000000],
    [m 93042884201576400000000000000000000, m 49486907822627200000000000000000000],
    [m 20438937977062100000000000000000000, m 29941559804457600000000000000000000],
    [36149620408122400000000000000000000, m 2729859612281540000000000000000000],
    [m 15710682431060200000000000000000000, 32671419416739200000000000000000000],
    [20438937977062100000000000000000000, m 29941559804457600000000000000000000],
    [15710682431060200000000000000000000, 32671419416739100000000000000000000],
    [m 36149620408122400000000000000000000, m 2729859612281530000000000000000000],
    [m 29077462427214500000000000000000000, m 34707538263885200000000000000000000],
    [44596341052952300000000000000000000, m 7828052007612700000000000000000000],
    [m 15518878625737800000000000000000000, 42535590271498000000000000000000000],
    [29077462427214500000000000000000000, m 34707538263885200000000000000000000],
    [15518878625737800000000000000000000, 42535590271497900000000000000000000],
    [m 44596341052952300000000000000000000, m 7828052007612670000000000000000000],
    [m 45530327016209600000000000000000000, m 56218624883920700000000000000000000],
    [71451920823408100000000000000000000, m 11321107396690100000000000000000000],
    [m 25921593807198400000000000000000000, 67539732280610900000000000000000000],
    [45530327016209600000000000000000000, m 56218624883920700000000000000000000],
    [25921593807198500000000000000000000, 67539732280610900000000000000000000],
    [m 71451920823408100000000000000000000, m 11321107396690100000000000000000000],
    [0, m 52252588465952300000000000000000000],
    [45252069025008500000000000000000000, 26126294232976200000000000000000000],
    [m 45252069025008500000000000000000000, 26126294232976200000000000000000000],
    [m 50049811961059000000000000000000000, m 54142101949433700000000000000000000],
    [71913341683026000000000000000000000, m 16273357638194500000000000000000000],
    [m 21863529721967000000000000000000000, 70415459587628200000000000000000000],
    [50049811961059000000000000000000000, m 54142101949433700000000000000000000],
    [21863529721967100000000000000000000, 70415459587628200000000000000000000],
    [m 71913341683026000000000000000000000, m 16273357638194400000000000000000000],
    [m 59653316717651900000000000000000000, m 54312444348452900000000000000000000],
    [76862614906214700000000000000000000, m 24505065523259000000000000000000000],
    [m 17209298188562800000000000000000000, 78817509871712000000000000000000000],
    [59653316717651900000000000000000000, m 54312444348452900000000000000000000],
    [17209298188562800000000000000000000, 78817509871712000000000000000000000],
    [m 76862614906214700000000000000000000, m 24505065523259000000000000000000000],
    [m 18241222915476300000000000000000000, m 50297724458337200000000000000000000],
    [52679718591208100000000000000000000, 9351499788271320000000000000000000],
    [m 34438495675731800000000000000000000, 40946224670066000000000000000000000],
    [18241222915476300000000000000000000, m 50297724458337200000000000000000000],
    [34438495675731800000000000000000000, 40946224670066000000000000000000000],
    [m 52679718591208100000000000000000000, 9351499788271360000000000000000000],
    [m 17504275018488800000000000000000000, m 37315461111231100000000000000000000],
    [41068274785500800000000000000000000, 3498583714774950000000000000000000],
    [m 23563999767012000000000000000000000, 33816877396456200000000000000000000],
    [17504275018488800000000000000000000, m 37315461111231100000000000000000000],
    [23563999767012000000000000000000000, 33816877396456200000000000000000000],
    [m 41068274785500800000000000000000000, 3498583714774970000000000000000000],
    [m 87027029250770400000000000000000000, m 53339994853211600000000000000000000],
    [89707305205997600000000000000000000, m 48697620720452800000000000000000000],
    [m 2680275955227200000000000000000000, 102037615573664000000000000000000000],
    [87027029250770400000000000000000000, m 53339994853211600000000000000000000],
    [2680275955227260000000000000000000, 102037615573664000000000000000000000],
    [m 89707305205997700000000000000000000, m 48697620720452800000000000000000000],
    [m 25906638561252600000000000000000000, m 41535262741815000000000000000000000],
    [48923911967899400000000000000000000, m 1668175749798780000000000000000000],
    [m 23017273406646800000000000000000000, 43203438491613800000000000000000000],
    [25906638561252600000000000000000000, m 41535262741815000000000000000000000],
    [23017273406646800000000000000000000, 43203438491613800000000000000000000],
    [m 48923911967899400000000000000000000, m 1668175749798740000000000000000000],
    [m 25389417516223000000000000000000000, m 57390850498838600000000000000000000],
    [62396643234900500000000000000000000, 6707544693080600000000000000000000],
    [m 37007225718677500000000000000000000, 50683305805758100000000000000000000],
    [25389417516223000000000000000000000, m 57390850498838600000000000000000000],
    [37007225718677600000000000000000000, 50683305805758000000000000000000000],
    [m 62396643234900500000000000000000000, 6707544693080650000000000000000000],
    [m 6392473449228420000000000000000000, m 38909332692463900000000000000000000],
    [36892707280588300000000000000000000, 13918621946182600000000000000000000],
    [m 30500233831359900000000000000000000, 24990710746281400000000000000000000],
    [6392473449228420000000000000000000, m 38909332692463900000000000000000000],
    [30500233831359900000000000000000000, 24990710746281300000000000000000000],
    [m 36892707280588300000000000000000000, 13918621946182700000000000000000000],
    [m 32336677856616200000000000000000000, m 27441054007776800000000000000000000],
    [39932988805663600000000000000000000, m 14283857493935000000000000000000000],
    [m 7596310949047350000000000000000000, 41724911501711800000000000000000000],
    [32336677856616200000000000000000000, m 27441054007776800000000000000000000],
    [7596310949047380000000000000000000, 41724911501711800000000000000000000],
    [m 39932988805663600000000000000000000, m 14283857493934900000000000000000000],
    [m 45933867955078400000000000000000000, m 46136190485467500000000000000000000],
    [62922046971792000000000000000000000, m 16711801300444200000000000000000000],
    [m 16988179016713500000000000000000000, 62847991785911600000000000000000000],
    [45933867955078400000000000000000000, m 46136190485467500000000000000000000],
    [16988179016713500000000000000000000, 62847991785911600000000000000000000],
    [m 62922046971792000000000000000000000, m 16711801300444100000000000000000000],
    [m 73910550014397100000000000000000000, m 50637232744855600000000000000000000],
    [80808404941588700000000000000000000, m 38689797547720400000000000000000000],
    [m 6897854927191570000000000000000000, 89327030292576100000000000000000000],
    [73910550014397100000000000000000000, m 50637232744855600000000000000000000],
    [6897854927191640000000000000000000, 89327030292576100000000000000000000],
    [m 80808404941588800000000000000000000, m 38689797547720400000000000000000000],
    [m 11606977913379100000000000000000000, m 53497319519919200000000000000000000],
    [52133526695312700000000000000000000, 16696722025808400000000000000000000],
    [m 40526548781933600000000000000000000, 36800597494110800000000000000000000],
    [11606977913379100000000000000000000, m 53497319519919200000000000000000000],
    [40526548781933600000000000000000000, 36800597494110800000000000000000000],
    [m 52133526695312700000000000000000000, 16696722025808400000000000000000000],
    [m 65577583679224700000000000000000000, m 47916361999904600000000000000000000],
    [74285578588461100000000000000000000, m 32833672385056000000000000000000000],
    [m 8707994909236370000000000000000000, 80750034384960700000000000000000000],
    [65577583679224700000000000000000000, m 47916361999904600000000000000000000],
    [8707994909236440000000000000000000, 80750034384960700000000000000000000],
    [m 74285578588461100000000000000000000, m 32833672385056000000000000000000000],
    [m 83552616064107200000000000000000000, m 56063167758821400000000000000000000],
    [90328435527821600000000000000000000, m 44327104184753900000000000000000000],
    [m 6775819463714390000000000000000000, 100390271943575000000000000000000000],
    [83552616064107200000000000000000000, m 56063167758821400000000000000000000],
    [6775819463714460000000000000000000, 100390271943575000000000000000000000],
    [m 90328435527821700000000000000000000, m 44327104184753900000000000000000000],
    [m 67748842104198500000000000000000000, m 55812525411705900000000000000000000],
    [82209485908001100000000000000000000, m 30765955633363800000000000000000000],
    [m 14460643803802500000000000000000000, 86578481045069700000000000000000000],
    [67748842104198500000000000000000000, m 55812525411705900000000000000000000],
    [14460643803802600000000000000000000, 86578481045069700000000000000000000],
    [m 82209485908001100000000000000000000, m 30765955633363700000000000000000000],
    [m 37231932331276100000000000000000000, m 57393107655513200000000000000000000],
    [68319855397447600000000000000000000, m 3547245403111710000000000000000000],
    [m 31087923066171500000000000000000000, 60940353058624900000000000000000000],
    [37231932331276100000000000000000000, m 57393107655513200000000000000000000],
    [31087923066171500000000000000000000, 60940353058624900000000000000000000],
    [m 68319855397447600000000000000000000, m 3547245403111650000000000000000000],
    [m 93676060044306700000000000000000000, m 55819574918551200000000000000000000],
    [95179199930067300000000000000000000, m 53216060265530500000000000000000000],
    [m 1503139885760620000000000000000000, 109035635184082000000000000000000000],
    [93676060044306700000000000000000000, m 55819574918551200000000000000000000],
    [1503139885760700000000000000000000, 109035635184082000000000000000000000],
    [m 95179199930067400000000000000000000, m 53216060265530400000000000000000000],
    [m 66619173394165100000000000000000000, m 57308501713419200000000000000000000],
    [82940205033727600000000000000000000, m 29039645681757700000000000000000000],
    [m 16321031639562500000000000000000000, 86348147395177000000000000000000000],
    [66619173394165000000000000000000000, m 57308501713419200000000000000000000],
    [16321031639562600000000000000000000, 86348147395177000000000000000000000],
    [m 82940205033727600000000000000000000, m 29039645681757700000000000000000000],
    [m 4163336342344340000, m 55400636586589200000000000000000000],
    [47978358669815800000000000000000000, 27700318293294600000000000000000000],
    [m 47978358669815800000000000000000000, 27700318293294600000000000000000000],
    [m 80515347766474000000000000000000000, m 49699174948588000000000000000000000],
    [83298421935841400000000000000000000, m 44878749086011100000000000000000000],
    [m 2783074169367360000000000000000000, 94577924034599200000000000000000000],
    [80515347766474000000000000000000000, m 49699174948588000000000000000000000],
    [2783074169367430000000000000000000, 94577924034599200000000000000000000],
    [m 83298421935841400000000000000000000, m 44878749086011100000000000000000000],
    [m 94025356560109800000000000000000000, m 57375002851113500000000000000000000],
    [96700888291323700000000000000000000, m 52740845955388200000000000000000000],
    [m 2675531731213930000000000000000000, 110115848806502000000000000000000000],
    [94025356560109800000000000000000000, m 57375002851113500000000000000000000],
    [2675531731214020000000000000000000, 110115848806502000000000000000000000],
    [m 96700888291323800000000000000000000, m 52740845955388100000000000000000000],
    [m 55800138185704800000000000000000000, m 45895888627009700000000000000000000],
    [67647074573104100000000000000000000, m 25376392889997600000000000000000000],
    [m 11846936387399300000000000000000000, 71272281517007300000000000000000000],
    [55800138185704800000000000000000000, m 45895888627009700000000000000000000],
    [11846936387399300000000000000000000, 71272281517007300000000000000000000],
    [m 67647074573104100000000000000000000, m 25376392889997600000000000000000000],
    [m 33515583932564500000000000000000000, m 55885836769979700000000000000000000],
    [65156346320835200000000000000000000, m 1082428723280520000000000000000000],
    [m 31640762388270700000000000000000000, 56968265493260300000000000000000000],
    [33515583932564500000000000000000000, m 55885836769979700000000000000000000],
    [31640762388270700000000000000000000, 56968265493260300000000000000000000],
    [m 65156346320835200000000000000000000, m 1082428723280470000000000000000000],
    [m 72304850966873300000000000000000000, m 45754555590751400000000000000000000],
    [75777032963894700000000000000000000, m 39740559958784400000000000000000000],
    [m 3472181997021310000000000000000000, 85495115549535800000000000000000000],
    [72304850966873300000000000000000000, m 45754555590751400000000000000000000],
    [3472181997021370000000000000000000, 85495115549535800000000000000000000],
    [m 75777032963894700000000000000000000, m 39740559958784400000000000000000000],
    [m 46826261407944700000000000000000000, m 40298677651135400000000000000000000],
    [58312809288775800000000000000000000, m 20403393117963300000000000000000000],
    [m 11486547880831100000000000000000000, 60702070769098700000000000000000000],
    [46826261407944700000000000000000000, m 40298677651135400000000000000000000],
    [11486547880831100000000000000000000, 60702070769098700000000000000000000],
    [m 58312809288775800000000000000000000, m 20403393117963300000000000000000000],
    [m 2775557561562890000, m 25079797310499000000000000000000000],
    [21719741592656700000000000000000000, 12539898655249500000000000000000000],
    [m 21719741592656700000000000000000000, 12539898655249500000000000000000000],
    [m 11247883641677600000000000000000000, m 22883057799614000000000000000000000],
    [25441251191572200000000000000000000, 1700575927302810000000000000000000],
    [m 14193367549894600000000000000000000, 21182481872311300000000000000000000],
    [11247883641677600000000000000000000, m 22883057799614000000000000000000000],
    [14193367549894600000000000000000000, 21182481872311200000000000000000000],
    [m 25441251191572200000000000000000000, 1700575927302830000000000000000000],
    [m 41172923406071200000000000000000000, m 32888195428957500000000000000000000],
    [49068474429140100000000000000000000, m 19212699903249800000000000000000000],
    [m 7895551023068840000000000000000000, 52100895332207400000000000000000000],
    [41172923406071200000000000000000000, m 32888195428957500000000000000000000],
    [7895551023068870000000000000000000, 52100895332207400000000000000000000],
    [m 49068474429140100000000000000000000, m 19212699903249800000000000000000000],
    [m 89091288563351700000000000000000000, m 57366938316409900000000000000000000],
    [94226870201021700000000000000000000, m 48471849993547700000000000000000000],
    [m 5135581637669960000000000000000000, 105838788309958000000000000000000000],
    [89091288563351700000000000000000000, m 57366938316409900000000000000000000],
    [5135581637670030000000000000000000, 105838788309958000000000000000000000],
    [m 94226870201021700000000000000000000, m 48471849993547600000000000000000000],
    [m 60873506522460500000000000000000000, m 35145335377259100000000000000000000],
    [60873506522460600000000000000000000, m 35145335377259000000000000000000000],
    [0, 70290670754518100000000000000000000],
    [m 7099955986054410000000000000000000, m 48828388229492600000000000000000000],
    [45836602625616900000000000000000000, 18265451865071800000000000000000000],
    [m 38736646639562500000000000000000000, 30562936364420900000000000000000000],
    [7099955986054410000000000000000000, m 48828388229492600000000000000000000],
    [38736646639562500000000000000000000, 30562936364420900000000000000000000],
    [m 45836602625616900000000000000000000, 18265451865071900000000000000000000],
    [4163336342344340000, m 44375651708543400000000000000000000],
    [38430441689088900000000000000000000, 22187825854271700000000000000000000],
    [m 38430441689088900000000000000000000, 22187825854271700000000000000000000],
    [m 91727811927066600000000000000000000, m 52959076908267300000000000000000000],
    [91727811927066600000000000000000000, m 52959076908267300000000000000000000],
    [0, 105918153816535000000000000000000000],
    [m 30447266387357800000000000000000000, m 17578737444829300000000000000000000],
    [30447266387357800000000000000000000, m 17578737444829200000000000000000000],
    [0, 35157474889658600000000000000000000],
    [0, m 6369943611613200000000000000000000],
    [5516532988331430000000000000000000, 3184971805806620000000000000000000],
    [m 5516532988331440000000000000000000, 3184971805806640000000000000000000],
    [m 99336273607005400000000000000000000, m 57351824307298900000000000000000000],
    [99336273607005500000000000000000000, m 57351824307298900000000000000000000],
    [0, 114703648614598000000000000000000000],
    [m 13798316432331000000000000000000000, m 44198593821724400000000000000000000],
    [45176263277328800000000000000000000, 10149604351007300000000000000000000],
    [m 31377946844997800000000000000000000, 34048989470717200000000000000000000],
    [13798316432331000000000000000000000, m 44198593821724400000000000000000000],
    [31377946844997800000000000000000000, 34048989470717200000000000000000000],
    [m 45176263277328800000000000000000000, 10149604351007300000000000000000000],
    [m 57133871576000900000000000000000000, m 56609726595635300000000000000000000],
    [77592397121112200000000000000000000, m 21174520903556800000000000000000000],
    [m 20458525545111300000000000000000000, 77784247499192100000000000000000000],
    [57133871576000900000000000000000000, m 56609726595635300000000000000000000],
    [20458525545111300000000000000000000, 77784247499192100000000000000000000],
    [m 77592397121112200000000000000000000, m 21174520903556700000000000000000000],
    [m 97448997895894400000000000000000000, m 57372975226826600000000000000000000],
    [98410952985074300000000000000000000, m 55706820137767600000000000000000000],
    [m 961955089179856000000000000000000, 113079795364594000000000000000000000],
    [97448997895894400000000000000000000, m 57372975226826600000000000000000000],
    [961955089179911000000000000000000, 113079795364594000000000000000000000],
    [m 98410952985074300000000000000000000, m 55706820137767500000000000000000000],
    [1431146867680870000, m 57315719828247600000000000000000000],
    [49636869407453900000000000000000000, 28657859914123800000000000000000000],
    [m 49636869407453800000000000000000000, 28657859914123800000000000000000000],
    [m 58709342896187300000000000000000000, m 57710801847006900000000000000000000],
    [79333691920371500000000000000000000, m 21988381464086200000000000000000000],
    [m 20624349024184200000000000000000000, 79699183311093100000000000000000000],
    [58709342896187300000000000000000000, m 57710801847006900000000000000000000],
    [20624349024184300000000000000000000, 79699183311093100000000000000000000],
    [m 79333691920371500000000000000000000, m 21988381464086100000000000000000000]],
   [262916545424224000000000000000000, 262916545424224000000000000000000, 262916545424224000000000000000000,
    262916545424224000000000000000000, 262916545424224000000000000000000, 262916545424224000000000000000000,
    166975986733349000000000000000000, 166975986733349000000000000000000, 166975986733349000000000000000000,
    166975986733349000000000000000000, 166975986733349000000000000000000, 166975986733349000000000000000000,
    48731312956189700000000000000000, 48731312956189700000000000000000, 48731312956189700000000000000000,
    48731312956189700000000000000000, 48731312956189700000000000000000, 48731312956189700000000000000000,
    559431223438412000000000000000000, 559431223438412000000000000000000, 559431223438412000000000000000000,
    811677345200297000000000000000000, 811677345200297000000000000000000, 811677345200297000000000000000000,
    811677345200297000000000000000000, 811677345200297000000000000000000, 811677345200297000000000000000000,
    782523060866428000000000000000000, 782523060866428000000000000000000, 782523060866428000000000000000000,
    782523060866428000000000000000000, 782523060866428000000000000000000, 782523060866428000000000000000000,
    273506720319852000000000000000000, 273506720319852000000000000000000, 273506720319852000000000000000000,
    73856981464256900000000000000000, 73856981464256900000000000000000, 73856981464256900000000000000000,
    73856981464256900000000000000000, 73856981464256900000000000000000, 73856981464256900000000000000000,
    562368600721796000000000000000000, 562368600721796000000000000000000, 562368600721796000000000000000000,
    562368600721796000000000000000000, 562368600721796000000000000000000, 562368600721796000000000000000000,
    680852800906752000000000000000000, 680852800906752000000000000000000, 680852800906752000000000000000000,
    469619577305666000000000000000000, 469619577305666000000000000000000, 469619577305666000000000000000000,
    469619577305666000000000000000000, 469619577305666000000000000000000, 469619577305666000000000000000000,
    282802020554042000000000000000000, 282802020554042000000000000000000, 282802020554042000000000000000000,
    282802020554042000000000000000000, 282802020554042000000000000000000, 282802020554042000000000000000000,
    82970460350076100000000000000000, 82970460350076100000000000000000, 82970460350076100000000000000000,
    82970460350076100000000000000000, 82970460350076100000000000000000, 82970460350076100000000000000000,
    450380292207813000000000000000000, 450380292207813000000000000000000, 450380292207813000000000000000000,
    450380292207813000000000000000000, 450380292207813000000000000000000, 450380292207813000000000000000000,
    532399104328846000000000000000000, 532399104328846000000000000000000, 532399104328846000000000000000000,
    532399104328846000000000000000000, 532399104328846000000000000000000, 532399104328846000000000000000000,
    517505578445651000000000000000000, 517505578445651000000000000000000, 517505578445651000000000000000000,
    517505578445651000000000000000000, 517505578445651000000000000000000, 517505578445651000000000000000000,
    865308200510308000000000000000000, 865308200510308000000000000000000, 865308200510308000000000000000000,
    119960340652597000000000000000000, 119960340652597000000000000000000, 119960340652597000000000000000000,
    119960340652597000000000000000000, 119960340652597000000000000000000, 119960340652597000000000000000000,
    392169124485666000000000000000000, 392169124485666000000000000000000, 392169124485666000000000000000000,
    392169124485666000000000000000000, 392169124485666000000000000000000, 392169124485666000000000000000000,
    375571304455253000000000000000000, 375571304455253000000000000000000, 375571304455253000000000000000000,
    375571304455253000000000000000000, 375571304455253000000000000000000, 375571304455253000000000000000000,
    218296335817881000000000000000000, 218296335817881000000000000000000, 218296335817881000000000000000000,
    218296335817881000000000000000000, 218296335817881000000000000000000, 218296335817881000000000000000000,
    52295464565354300000000000000000, 52295464565354300000000000000000, 52295464565354300000000000000000,
    52295464565354300000000000000000, 52295464565354300000000000000000, 52295464565354300000000000000000,
    706316272893323000000000000000000, 706316272893323000000000000000000, 706316272893323000000000000000000,
    790096284853050000000000000000000, 790096284853050000000000000000000, 790096284853050000000000000000000,
    790096284853050000000000000000000, 790096284853050000000000000000000, 790096284853050000000000000000000,
    457805755873815000000000000000000, 457805755873815000000000000000000, 457805755873815000000000000000000,
    457805755873815000000000000000000, 457805755873815000000000000000000, 457805755873815000000000000000000,
    195974608424722000000000000000000, 195974608424722000000000000000000, 195974608424722000000000000000000,
    195974608424722000000000000000000, 195974608424722000000000000000000, 195974608424722000000000000000000,
    365267550899719000000000000000000, 365267550899719000000000000000000, 365267550899719000000000000000000,
    365267550899719000000000000000000, 365267550899719000000000000000000, 365267550899719000000000000000000,
    202959383723718000000000000000000, 202959383723718000000000000000000, 202959383723718000000000000000000,
    880583941725372000000000000000000, 880583941725372000000000000000000, 880583941725372000000000000000000,
    270341729174580000000000000000000, 270341729174580000000000000000000, 270341729174580000000000000000000,
    270341729174580000000000000000000, 270341729174580000000000000000000, 270341729174580000000000000000000,
    802086940898160000000000000000000, 802086940898160000000000000000000, 802086940898160000000000000000000,
    802086940898160000000000000000000, 802086940898160000000000000000000, 802086940898160000000000000000000,
    201755829465252000000000000000000, 201755829465252000000000000000000, 201755829465252000000000000000000,
    201755829465252000000000000000000, 201755829465252000000000000000000, 201755829465252000000000000000000,
    50401542238768600000000000000000, 50401542238768600000000000000000, 50401542238768600000000000000000,
    330448895397707000000000000000000, 330448895397707000000000000000000, 330448895397707000000000000000000,
    330448895397707000000000000000000, 330448895397707000000000000000000, 330448895397707000000000000000000,
    627129859680770000000000000000000, 627129859680770000000000000000000, 627129859680770000000000000000000,
    627129859680770000000000000000000, 627129859680770000000000000000000, 627129859680770000000000000000000,
    427467132249425000000000000000000, 427467132249425000000000000000000, 427467132249425000000000000000000,
    104738137120834000000000000000000, 104738137120834000000000000000000, 104738137120834000000000000000000,
    104738137120834000000000000000000, 104738137120834000000000000000000, 104738137120834000000000000000000,
    774500033592939000000000000000000, 774500033592939000000000000000000, 774500033592939000000000000000000,
    774500033592939000000000000000000, 774500033592939000000000000000000, 774500033592939000000000000000000,
    748555389436410000000000000000000, 748555389436410000000000000000000, 748555389436410000000000000000000,
    748555389436410000000000000000000, 748555389436410000000000000000000, 748555389436410000000000000000000,
    204978854459350000000000000000000, 204978854459350000000000000000000, 204978854459350000000000000000000,
    204978854459350000000000000000000, 204978854459350000000000000000000, 204978854459350000000000000000000,
    423928942704152000000000000000000, 423928942704152000000000000000000, 423928942704152000000000000000000,
    296154035168128000000000000000000, 296154035168128000000000000000000, 296154035168128000000000000000000,
    296154035168128000000000000000000, 296154035168128000000000000000000, 296154035168128000000000000000000,
    264322519442828000000000000000000, 264322519442828000000000000000000, 264322519442828000000000000000000,
    264322519442828000000000000000000, 264322519442828000000000000000000, 264322519442828000000000000000000,
    476816625257245000000000000000000, 476816625257245000000000000000000, 476816625257245000000000000000000,
    476816625257245000000000000000000, 476816625257245000000000000000000, 476816625257245000000000000000000,
    755733125909080000000000000000000, 755733125909080000000000000000000, 755733125909080000000000000000000,
    755733125909080000000000000000000, 755733125909080000000000000000000, 755733125909080000000000000000000,
    167365533160457000000000000000000, 167365533160457000000000000000000, 167365533160457000000000000000000,
    167365533160457000000000000000000, 167365533160457000000000000000000, 167365533160457000000000000000000,
    654984135259254000000000000000000, 654984135259254000000000000000000, 654984135259254000000000000000000,
    654984135259254000000000000000000, 654984135259254000000000000000000, 654984135259254000000000000000000,
    104541271556711000000000000000000, 104541271556711000000000000000000, 104541271556711000000000000000000,
    104541271556711000000000000000000, 104541271556711000000000000000000, 104541271556711000000000000000000,
    737016017470911000000000000000000, 737016017470911000000000000000000, 737016017470911000000000000000000,
    737016017470911000000000000000000, 737016017470911000000000000000000, 737016017470911000000000000000000,
    839880672302334000000000000000000, 839880672302334000000000000000000, 839880672302334000000000000000000,
    839880672302334000000000000000000, 839880672302334000000000000000000, 839880672302334000000000000000000,
    524030554204430000000000000000000, 524030554204430000000000000000000, 524030554204430000000000000000000,
    524030554204430000000000000000000, 524030554204430000000000000000000, 524030554204430000000000000000000,
    317011354912535000000000000000000, 317011354912535000000000000000000, 317011354912535000000000000000000,
    317011354912535000000000000000000, 317011354912535000000000000000000, 317011354912535000000000000000000,
    400327369469600000000000000000000, 400327369469600000000000000000000, 400327369469600000000000000000000,
    400327369469600000000000000000000, 400327369469600000000000000000000, 400327369469600000000000000000000,
    397959133459497000000000000000000, 397959133459497000000000000000000, 397959133459497000000000000000000,
    397959133459497000000000000000000, 397959133459497000000000000000000, 397959133459497000000000000000000,
    134016149770113000000000000000000, 134016149770113000000000000000000, 134016149770113000000000000000000,
    134016149770113000000000000000000, 134016149770113000000000000000000, 134016149770113000000000000000000,
    192103624065167000000000000000000, 192103624065167000000000000000000, 192103624065167000000000000000000,
    192103624065167000000000000000000, 192103624065167000000000000000000, 192103624065167000000000000000000,
    102490297252187000000000000000000, 102490297252187000000000000000000, 102490297252187000000000000000000,
    102490297252187000000000000000000, 102490297252187000000000000000000, 102490297252187000000000000000000,
    80770565673134500000000000000000, 80770565673134500000000000000000, 80770565673134500000000000000000,
    80770565673134500000000000000000, 80770565673134500000000000000000, 80770565673134500000000000000000,
    87651213001853400000000000000000, 87651213001853400000000000000000, 87651213001853400000000000000000,
    87651213001853400000000000000000, 87651213001853400000000000000000, 87651213001853400000000000000000,
    291585761127085000000000000000000, 291585761127085000000000000000000, 291585761127085000000000000000000,
    267810604082772000000000000000000, 267810604082772000000000000000000, 267810604082772000000000000000000,
    267810604082772000000000000000000, 267810604082772000000000000000000, 267810604082772000000000000000000,
    38766202160295900000000000000000, 38766202160295900000000000000000, 38766202160295900000000000000000,
    38766202160295900000000000000000, 38766202160295900000000000000000, 38766202160295900000000000000000,
    512026293508671000000000000000000, 512026293508671000000000000000000, 512026293508671000000000000000000,
    512026293508671000000000000000000, 512026293508671000000000000000000, 512026293508671000000000000000000,
    247517308890500000000000000000000, 247517308890500000000000000000000, 247517308890500000000000000000000,
    247517308890500000000000000000000, 247517308890500000000000000000000, 247517308890500000000000000000000,
    371675473786398000000000000000000, 371675473786398000000000000000000, 371675473786398000000000000000000,
    371675473786398000000000000000000, 371675473786398000000000000000000, 371675473786398000000000000000000,
    620899930381709000000000000000000, 620899930381709000000000000000000, 620899930381709000000000000000000,
    620899930381709000000000000000000, 620899930381709000000000000000000, 620899930381709000000000000000000,
    929318444439935000000000000000000, 929318444439935000000000000000000, 929318444439935000000000000000000,
    944441540813819000000000000000000, 944441540813819000000000000000000, 944441540813819000000000000000000,
    944441540813819000000000000000000, 944441540813819000000000000000000, 944441540813819000000000000000000,
    758926774522390000000000000000000, 758926774522390000000000000000000, 758926774522390000000000000000000,
    758926774522390000000000000000000, 758926774522390000000000000000000, 758926774522390000000000000000000,
    53204190308183100000000000000000, 53204190308183100000000000000000, 53204190308183100000000000000000,
    53204190308183100000000000000000, 53204190308183100000000000000000, 53204190308183100000000000000000,
    606091002031275000000000000000000, 606091002031275000000000000000000, 606091002031275000000000000000000,
    560868711640865000000000000000000, 560868711640865000000000000000000, 560868711640865000000000000000000,
    560868711640865000000000000000000, 560868711640865000000000000000000, 560868711640865000000000000000000,
    685895547787148000000000000000000, 685895547787148000000000000000000, 685895547787148000000000000000000,
    144098120898350000000000000000000, 144098120898350000000000000000000, 144098120898350000000000000000000,
    929142906337337000000000000000000, 929142906337337000000000000000000, 929142906337337000000000000000000,
    1061188317475570000000000000000000, 1061188317475570000000000000000000, 1061188317475570000000000000000000,
    11191027935111200000000000000000, 11191027935111200000000000000000, 11191027935111200000000000000000,
    711073169618489000000000000000000, 711073169618489000000000000000000, 711073169618489000000000000000000,
    711073169618489000000000000000000, 711073169618489000000000000000000, 711073169618489000000000000000000,
    185045160512641000000000000000000, 185045160512641000000000000000000, 185045160512641000000000000000000,
    185045160512641000000000000000000, 185045160512641000000000000000000, 185045160512641000000000000000000,
    24650528320484700000000000000000, 24650528320484700000000000000000, 24650528320484700000000000000000,
    24650528320484700000000000000000, 24650528320484700000000000000000, 24650528320484700000000000000000,
    136581761113595000000000000000000, 136581761113595000000000000000000, 136581761113595000000000000000000,
    27809542858201500000000000000000, 27809542858201500000000000000000, 27809542858201500000000000000000,
    27809542858201500000000000000000, 27809542858201500000000000000000, 27809542858201500000000000000000]⟩

/-- `triangle_table_orig[50]` (xg_quad_data.py 15494-16405). -/
def xgTri_50 : XgTableRule :=
  ⟨[
    [m 23093240984562700000000000000000000, m 13332888898898200000000000000000000],
    [23093240984562700000000000000000000, m 13332888898898200000000000000000000],
    [5551115123125780000, 26665777797796400000000000000000000],
    [m 11243137017724500000000000000000000, m 57575252834616000000000000000000000],
    [55483200092951700000000000000000000, 19050784141729300000000000000000000],
    [m 44240063075227100000000000000000000, 38524468692886700000000000000000000],
    [11243137017724500000000000000000000, m 57575252834616000000000000000000000],
    [44240063075227200000000000000000000, 38524468692886700000000000000000000],
    [m 55483200092951700000000000000000000, 19050784141729400000000000000000000],
    [m 92568822098610600000000000000000000, m 53848652830351300000000000000000000],
    [92918712359958400000000000000000000, m 53242625120623500000000000000000000],
    [m 349890261347685000000000000000000, 107091277950975000000000000000000000],
    [92568822098610600000000000000000000, m 53848652830351300000000000000000000],
    [349890261347774000000000000000000, 107091277950975000000000000000000000],
    [m 92918712359958400000000000000000000, m 53242625120623400000000000000000000],
    [m 29692106117972800000000000000000000, m 19146540832960700000000000000000000],
    [31427443814926500000000000000000000, m 16140847773547400000000000000000000],
    [m 1735337696953650000000000000000000, 35287388606508200000000000000000000],
    [29692106117972800000000000000000000, m 19146540832960700000000000000000000],
    [1735337696953690000000000000000000, 35287388606508200000000000000000000],
    [m 31427443814926500000000000000000000, m 16140847773547400000000000000000000],
    [m 70777454997646800000000000000000000, m 53730488391129500000000000000000000],
    [81920695403286400000000000000000000, m 34429829847607300000000000000000000],
    [m 11143240405639600000000000000000000, 88160318238736900000000000000000000],
    [70777454997646800000000000000000000, m 53730488391129500000000000000000000],
    [11143240405639700000000000000000000, 88160318238736900000000000000000000],
    [m 81920695403286500000000000000000000, m 34429829847607200000000000000000000],
    [m 90907207527032800000000000000000000, m 57586628305377200000000000000000000],
    [95325086794265100000000000000000000, m 49934636952825800000000000000000000],
    [m 4417879267232210000000000000000000, 107521265258203000000000000000000000],
    [90907207527032800000000000000000000, m 57586628305377200000000000000000000],
    [4417879267232270000000000000000000, 107521265258203000000000000000000000],
    [m 95325086794265100000000000000000000, m 49934636952825700000000000000000000],
    [m 17776222920358400000000000000000000, m 56902146444580600000000000000000000],
    [58166815811048400000000000000000000, 13056412589924700000000000000000000],
    [m 40390592890690000000000000000000000, 43845733854656000000000000000000000],
    [17776222920358400000000000000000000, m 56902146444580600000000000000000000],
    [40390592890690000000000000000000000, 43845733854655900000000000000000000],
    [m 58166815811048400000000000000000000, 13056412589924800000000000000000000],
    [m 63358007216059500000000000000000000, m 53665917816023500000000000000000000],
    [78155051754114000000000000000000000, m 28036684874253600000000000000000000],
    [m 14797044538054400000000000000000000, 81702602690277100000000000000000000],
    [63358007216059500000000000000000000, m 53665917816023500000000000000000000],
    [14797044538054500000000000000000000, 81702602690277100000000000000000000],
    [m 78155051754114000000000000000000000, m 28036684874253500000000000000000000],
    [m 99510826557356100000000000000000000, m 57452602500171800000000000000000000],
    [99510826557356200000000000000000000, m 57452602500171700000000000000000000],
    [m 11102230246251600000, 114905205000344000000000000000000000],
    [m 48639150346057000000000000000000000, m 41558253110498600000000000000000000],
    [60310078103624000000000000000000000, m 21343613262926700000000000000000000],
    [m 11670927757566900000000000000000000, 62901866373425400000000000000000000],
    [48639150346057000000000000000000000, m 41558253110498600000000000000000000],
    [11670927757567000000000000000000000, 62901866373425400000000000000000000],
    [m 60310078103624000000000000000000000, m 21343613262926700000000000000000000],
    [m 67960972311168200000000000000000000, m 50495637092434200000000000000000000],
    [77710990657911900000000000000000000, m 33608109941145400000000000000000000],
    [m 9750018346743650000000000000000000, 84103747033579600000000000000000000],
    [67960972311168200000000000000000000, m 50495637092434200000000000000000000],
    [9750018346743720000000000000000000, 84103747033579600000000000000000000],
    [m 77710990657911900000000000000000000, m 33608109941145300000000000000000000],
    [m 80987858028162000000000000000000000, m 49186089726616600000000000000000000],
    [83090332230151800000000000000000000, m 45544497587167500000000000000000000],
    [m 2102474201989750000000000000000000, 94730587313784200000000000000000000],
    [80987858028162100000000000000000000, m 49186089726616600000000000000000000],
    [2102474201989810000000000000000000, 94730587313784200000000000000000000],
    [m 83090332230151800000000000000000000, m 45544497587167400000000000000000000],
    [m 3469446951953610000, m 54384156132974700000000000000000000],
    [47098060774535400000000000000000000, 27192078066487400000000000000000000],
    [m 47098060774535400000000000000000000, 27192078066487400000000000000000000],
    [m 10197291667485100000000000000000000, m 31266847173129500000000000000000000],
    [32176529781918400000000000000000000, 6802309952723330000000000000000000],
    [m 21979238114433300000000000000000000, 24464537220406300000000000000000000],
    [10197291667485100000000000000000000, m 31266847173129500000000000000000000],
    [21979238114433300000000000000000000, 24464537220406300000000000000000000],
    [m 32176529781918400000000000000000000, 6802309952723350000000000000000000],
    [m 63905313551409000000000000000000000, m 46456703619309800000000000000000000],
    [72185342286111300000000000000000000, m 32115273162675300000000000000000000],
    [m 8280028734702240000000000000000000, 78571976781985100000000000000000000],
    [63905313551409000000000000000000000, m 46456703619309800000000000000000000],
    [8280028734702280000000000000000000, 78571976781985100000000000000000000],
    [m 72185342286111300000000000000000000, m 32115273162675200000000000000000000],
    [m 54848856966069200000000000000000000, m 53671264515430200000000000000000000],
    [73905107006631500000000000000000000, m 20664871243439900000000000000000000],
    [m 19056250040562300000000000000000000, 74336135758870100000000000000000000],
    [54848856966069200000000000000000000, m 53671264515430200000000000000000000],
    [19056250040562300000000000000000000, 74336135758870100000000000000000000],
    [m 73905107006631500000000000000000000, m 20664871243439800000000000000000000],
    [m 28743291564930100000000000000000000, m 48722771965406600000000000000000000],
    [56566804047303400000000000000000000, m 531034700909150000000000000000000],
    [m 27823512482373300000000000000000000, 49253806666315800000000000000000000],
    [28743291564930100000000000000000000, m 48722771965406600000000000000000000],
    [27823512482373300000000000000000000, 49253806666315800000000000000000000],
    [m 56566804047303400000000000000000000, m 531034700909117000000000000000000],
    [m 25853575380566000000000000000000000, m 57476168616596100000000000000000000],
    [62702609824453100000000000000000000, 6348231250072010000000000000000000],
    [m 36849034443887100000000000000000000, 51127937366524200000000000000000000],
    [25853575380566000000000000000000000, m 57476168616596100000000000000000000],
    [36849034443887200000000000000000000, 51127937366524200000000000000000000],
    [m 62702609824453100000000000000000000, 6348231250072060000000000000000000],
    [m 85293311497853500000000000000000000, m 55648988758506300000000000000000000],
    [90840093708707900000000000000000000, m 46041680150787400000000000000000000],
    [m 5546782210854320000000000000000000, 101690668909294000000000000000000000],
    [85293311497853500000000000000000000, m 55648988758506300000000000000000000],
    [5546782210854380000000000000000000, 101690668909294000000000000000000000],
    [m 90840093708707900000000000000000000, m 46041680150787300000000000000000000],
    [m 6911753209634530000000000000000000, m 47916934061220500000000000000000000],
    [44953158773298100000000000000000000, 17972713166378100000000000000000000],
    [m 38041405563663500000000000000000000, 29944220894842400000000000000000000],
    [6911753209634520000000000000000000, m 47916934061220500000000000000000000],
    [38041405563663600000000000000000000, 29944220894842400000000000000000000],
    [m 44953158773298100000000000000000000, 17972713166378200000000000000000000],
    [5551115123125780000, m 30918435458414100000000000000000000],
    [26776150552256200000000000000000000, 15459217729207100000000000000000000],
    [m 26776150552256200000000000000000000, 15459217729207100000000000000000000],
    [m 5611541563961370000000000000000000, m 37840666740342700000000000000000000],
    [35576749475258400000000000000000000, 14060595821388600000000000000000000],
    [m 29965207911297000000000000000000000, 23780070918954200000000000000000000],
    [5611541563961380000000000000000000, m 37840666740342700000000000000000000],
    [29965207911297000000000000000000000, 23780070918954200000000000000000000],
    [m 35576749475258300000000000000000000, 14060595821388600000000000000000000],
    [m 24397413927543600000000000000000000, m 52319798442392800000000000000000000],
    [57508981535765500000000000000000000, 5031118973299360000000000000000000],
    [m 33111567608221800000000000000000000, 47288679469093500000000000000000000],
    [24397413927543600000000000000000000, m 52319798442392800000000000000000000],
    [33111567608221900000000000000000000, 47288679469093500000000000000000000],
    [m 57508981535765500000000000000000000, 5031118973299400000000000000000000],
    [m 27325078883205100000000000000000000, m 40025389355433600000000000000000000],
    [48325543419771300000000000000000000, m 3651517795552550000000000000000000],
    [m 21000464536566200000000000000000000, 43676907150986200000000000000000000],
    [27325078883205100000000000000000000, m 40025389355433600000000000000000000],
    [21000464536566200000000000000000000, 43676907150986200000000000000000000],
    [m 48325543419771300000000000000000000, m 3651517795552530000000000000000000],
    [m 2081668171172170000, m 51006243855179100000000000000000000],
    [44172702930209000000000000000000000, 25503121927589600000000000000000000],
    [m 44172702930209000000000000000000000, 25503121927589600000000000000000000],
    [m 16627205471955100000000000000000000, m 49360682183497800000000000000000000],
    [51061207455016600000000000000000000, 10280758759092200000000000000000000],
    [m 34434001983061500000000000000000000, 39079923424405700000000000000000000],
    [16627205471955100000000000000000000, m 49360682183497800000000000000000000],
    [34434001983061500000000000000000000, 39079923424405700000000000000000000],
    [m 51061207455016600000000000000000000, 10280758759092200000000000000000000],
    [m 93789271474578100000000000000000000, m 56006513490944300000000000000000000],
    [95397699197842700000000000000000000, m 53220634953947800000000000000000000],
    [m 1608427723264500000000000000000000, 109227148444892000000000000000000000],
    [93789271474578100000000000000000000, m 56006513490944300000000000000000000],
    [1608427723264570000000000000000000, 109227148444892000000000000000000000],
    [m 95397699197842700000000000000000000, m 53220634953947700000000000000000000],
    [m 11930506754016100000000000000000000, m 43200879236359200000000000000000000],
    [43378312261518800000000000000000000, 11268317689179900000000000000000000],
    [m 31447805507502700000000000000000000, 31932561547179400000000000000000000],
    [11930506754016100000000000000000000, m 43200879236359200000000000000000000],
    [31447805507502700000000000000000000, 31932561547179400000000000000000000],
    [m 43378312261518800000000000000000000, 11268317689179900000000000000000000],
    [m 90151108565688600000000000000000000, m 56569680324298700000000000000000000],
    [94066334527651700000000000000000000, m 49788310035065900000000000000000000],
    [m 3915225961963030000000000000000000, 106357990359365000000000000000000000],
    [90151108565688600000000000000000000, m 56569680324298700000000000000000000],
    [3915225961963100000000000000000000, 106357990359365000000000000000000000],
    [m 94066334527651700000000000000000000, m 49788310035065800000000000000000000],
    [m 32049535943729800000000000000000000, m 27024376159027900000000000000000000],
    [39428564247009600000000000000000000, m 14243524227258500000000000000000000],
    [m 7379028303279830000000000000000000, 41267900386286500000000000000000000],
    [32049535943729800000000000000000000, m 27024376159027900000000000000000000],
    [7379028303279860000000000000000000, 41267900386286500000000000000000000],
    [m 39428564247009600000000000000000000, m 14243524227258500000000000000000000],
    [m 59104204439569200000000000000000000, m 50341926055773000000000000000000000],
    [73149489059521800000000000000000000, m 26014779487249400000000000000000000],
    [m 14045284619952500000000000000000000, 76356705543022500000000000000000000],
    [59104204439569200000000000000000000, m 50341926055773000000000000000000000],
    [14045284619952600000000000000000000, 76356705543022500000000000000000000],
    [m 73149489059521800000000000000000000, m 26014779487249400000000000000000000],
    [m 21751462540323700000000000000000000, m 44849821522859400000000000000000000],
    [49716816064156100000000000000000000, 3587591632043750000000000000000000],
    [m 27965353523832400000000000000000000, 41262229890815700000000000000000000],
    [21751462540323700000000000000000000, m 44849821522859400000000000000000000],
    [27965353523832400000000000000000000, 41262229890815700000000000000000000],
    [m 49716816064156100000000000000000000, 3587591632043770000000000000000000],
    [m 15800907798262900000000000000000000, m 15547647645906700000000000000000000],
    [21365111729576000000000000000000000, m 5910163733197960000000000000000000],
    [m 5564203931313080000000000000000000, 21457811379104700000000000000000000],
    [15800907798262900000000000000000000, m 15547647645906700000000000000000000],
    [5564203931313090000000000000000000, 21457811379104700000000000000000000],
    [m 21365111729576000000000000000000000, m 5910163733197950000000000000000000],
    [m 34192996428318900000000000000000000, m 44503618911963300000000000000000000],
    [55637762752261300000000000000000000, m 7360194082453050000000000000000000],
    [m 21444766323942400000000000000000000, 51863812994416400000000000000000000],
    [34192996428318900000000000000000000, m 44503618911963300000000000000000000],
    [21444766323942400000000000000000000, 51863812994416400000000000000000000],
    [m 55637762752261300000000000000000000, m 7360194082453030000000000000000000],
    [m 50348314662450000000000000000000000, m 36218696833371900000000000000000000],
    [56540468880892100000000000000000000, m 25493571118728300000000000000000000],
    [m 6192154218442070000000000000000000, 61712267952100200000000000000000000],
    [50348314662450000000000000000000000, m 36218696833371900000000000000000000],
    [6192154218442100000000000000000000, 61712267952100200000000000000000000],
    [m 56540468880892100000000000000000000, m 25493571118728200000000000000000000],
    [m 72296664168698500000000000000000000, m 56041252984416500000000000000000000],
    [84681480828764400000000000000000000, m 34590121286756900000000000000000000],
    [m 12384816660065900000000000000000000, 90631374271173400000000000000000000],
    [72296664168698500000000000000000000, m 56041252984416500000000000000000000],
    [12384816660065900000000000000000000, 90631374271173400000000000000000000],
    [m 84681480828764500000000000000000000, m 34590121286756800000000000000000000],
    [m 83410412765541300000000000000000000, m 52895122351604300000000000000000000],
    [87513726075546000000000000000000000, m 45787975219302400000000000000000000],
    [m 4103313310004710000000000000000000, 98683097570906800000000000000000000],
    [83410412765541300000000000000000000, m 52895122351604300000000000000000000],
    [4103313310004770000000000000000000, 98683097570906800000000000000000000],
    [m 87513726075546000000000000000000000, m 45787975219302400000000000000000000],
    [m 45220969294953200000000000000000000, m 53438108768101900000000000000000000],
    [68889244370848800000000000000000000, m 12443453809134600000000000000000000],
    [m 23668275075895600000000000000000000, 65881562577236600000000000000000000],
    [45220969294953200000000000000000000, m 53438108768101900000000000000000000],
    [23668275075895600000000000000000000, 65881562577236500000000000000000000],
    [m 68889244370848800000000000000000000, m 12443453809134500000000000000000000],
    [m 89091508745388200000000000000000000, m 54075896308780900000000000000000000],
    [91376854308511500000000000000000000, m 50117561680599300000000000000000000],
    [m 2285345563123250000000000000000000, 104193457989380000000000000000000000],
    [89091508745388200000000000000000000, m 54075896308780900000000000000000000],
    [2285345563123320000000000000000000, 104193457989380000000000000000000000],
    [m 91376854308511600000000000000000000, m 50117561680599200000000000000000000],
    [m 43793566633133300000000000000000000, m 45931123138039200000000000000000000],
    [61674302778459900000000000000000000, m 14960779657600400000000000000000000],
    [m 17880736145326500000000000000000000, 60891902795639700000000000000000000],
    [43793566633133300000000000000000000, m 45931123138039200000000000000000000],
    [17880736145326600000000000000000000, 60891902795639700000000000000000000],
    [m 61674302778459900000000000000000000, m 14960779657600300000000000000000000],
    [m 54799008713988300000000000000000000, m 45819330231577900000000000000000000],
    [67080208321929000000000000000000000, m 24547668532729700000000000000000000],
    [m 12281199607940600000000000000000000, 70366998764307700000000000000000000],
    [54799008713988300000000000000000000, m 45819330231577900000000000000000000],
    [12281199607940700000000000000000000, 70366998764307700000000000000000000],
    [m 67080208321929000000000000000000000, m 24547668532729700000000000000000000],
    [m 20885455826291600000000000000000000, m 30653810287769100000000000000000000],
    [36989706345142600000000000000000000, m 2760430171301700000000000000000000],
    [m 16104250518851000000000000000000000, 33414240459070800000000000000000000],
    [20885455826291600000000000000000000, m 30653810287769100000000000000000000],
    [16104250518851000000000000000000000, 33414240459070800000000000000000000],
    [m 36989706345142600000000000000000000, m 2760430171301680000000000000000000],
    [m 19653261626464000000000000000000000, m 55000331539356000000000000000000000],
    [57458315142880800000000000000000000, 10479941933938300000000000000000000],
    [m 37805053516416800000000000000000000, 44520389605417700000000000000000000],
    [19653261626464000000000000000000000, m 55000331539356000000000000000000000],
    [37805053516416800000000000000000000, 44520389605417700000000000000000000],
    [m 57458315142880800000000000000000000, 10479941933938400000000000000000000],
    [m 34026425560719800000000000000000000, m 53673989933539500000000000000000000],
    [63496251585275400000000000000000000, m 2630753968793760000000000000000000],
    [m 29469826024555500000000000000000000, 56304743902333400000000000000000000],
    [34026425560719800000000000000000000, m 53673989933539500000000000000000000],
    [29469826024555600000000000000000000, 56304743902333300000000000000000000],
    [m 63496251585275400000000000000000000, m 2630753968793730000000000000000000],
    [m 30334121141262000000000000000000000, m 34191292599382500000000000000000000],
    [44777588549923100000000000000000000, m 9174473210116280000000000000000000],
    [m 14443467408661000000000000000000000, 43365765809498800000000000000000000],
    [30334121141262000000000000000000000, m 34191292599382500000000000000000000],
    [14443467408661100000000000000000000, 43365765809498800000000000000000000],
    [m 44777588549923100000000000000000000, m 9174473210116250000000000000000000],
    [m 49535294281864500000000000000000000, m 49993522428841300000000000000000000],
    [68063307588975900000000000000000000, m 17902062017612000000000000000000000],
    [m 18528013307111400000000000000000000, 67895584446453400000000000000000000],
    [49535294281864500000000000000000000, m 49993522428841300000000000000000000],
    [18528013307111500000000000000000000, 67895584446453400000000000000000000],
    [m 68063307588975900000000000000000000, m 17902062017612000000000000000000000],
    [m 5496749923657030000000000000000000, m 15116834147609700000000000000000000],
    [15839937358454600000000000000000000, 2798092001667700000000000000000000],
    [m 10343187434797600000000000000000000, 12318742145942000000000000000000000],
    [5496749923657030000000000000000000, m 15116834147609700000000000000000000],
    [10343187434797600000000000000000000, 12318742145942000000000000000000000],
    [m 15839937358454600000000000000000000, 2798092001667700000000000000000000],
    [m 79641981144983800000000000000000000, m 55870738754201800000000000000000000],
    [88206469661834400000000000000000000, m 41036609502176400000000000000000000],
    [m 8564488516850520000000000000000000, 96907348256378200000000000000000000],
    [79641981144983800000000000000000000, m 55870738754201800000000000000000000],
    [8564488516850590000000000000000000, 96907348256378200000000000000000000],
    [m 88206469661834400000000000000000000, m 41036609502176300000000000000000000],
    [m 77252621434083100000000000000000000, m 53093517049471600000000000000000000],
    [84606645258146100000000000000000000, m 40355974146122500000000000000000000],
    [m 7354023824062980000000000000000000, 93449491195594000000000000000000000],
    [77252621434083100000000000000000000, m 53093517049471600000000000000000000],
    [7354023824063050000000000000000000, 93449491195594000000000000000000000],
    [m 84606645258146200000000000000000000, m 40355974146122400000000000000000000],
    [m 22122265719250300000000000000000000, m 23111044337275500000000000000000000],
    [31075884363694300000000000000000000, m 7602921933502600000000000000000000],
    [m 8953618644443950000000000000000000, 30713966270778200000000000000000000],
    [22122265719250300000000000000000000, m 23111044337275500000000000000000000],
    [8953618644443970000000000000000000, 30713966270778200000000000000000000],
    [m 31075884363694300000000000000000000, m 7602921933502580000000000000000000],
    [5551115123125780000, m 43735474019364000000000000000000000],
    [37876031547323600000000000000000000, 21867737009682000000000000000000000],
    [m 37876031547323600000000000000000000, 21867737009682100000000000000000000],
    [m 63310729924221100000000000000000000, m 56061901718698400000000000000000000],
    [80206396034969800000000000000000000, m 26797749587162000000000000000000000],
    [m 16895666110748700000000000000000000, 82859651305860400000000000000000000],
    [63310729924221100000000000000000000, m 56061901718698400000000000000000000],
    [16895666110748700000000000000000000, 82859651305860400000000000000000000],
    [m 80206396034969800000000000000000000, m 26797749587161900000000000000000000],
    [m 66000029759477700000000000000000000, m 38105134948157800000000000000000000],
    [66000029759477700000000000000000000, m 38105134948157700000000000000000000],
    [0, 76210269896315600000000000000000000],
    [m 38407586571187400000000000000000000, m 50180464055963900000000000000000000],
    [62661349931750300000000000000000000, m 8171713640716370000000000000000000],
    [m 24253763360562900000000000000000000, 58352177696680300000000000000000000],
    [38407586571187400000000000000000000, m 50180464055963900000000000000000000],
    [24253763360563000000000000000000000, 58352177696680300000000000000000000],
    [m 62661349931750300000000000000000000, m 8171713640716320000000000000000000],
    [m 53170841252843500000000000000000000, m 56066404582769400000000000000000000],
    [75140351293956300000000000000000000, m 18014096974167400000000000000000000],
    [m 21969510041112800000000000000000000, 74080501556936800000000000000000000],
    [53170841252843500000000000000000000, m 56066404582769400000000000000000000],
    [21969510041112900000000000000000000, 74080501556936800000000000000000000],
    [m 75140351293956400000000000000000000, m 18014096974167300000000000000000000],
    [m 17511720551530400000000000000000000, m 37564082456563200000000000000000000],
    [41287309953002300000000000000000000, 3616446366682240000000000000000000],
    [m 23775589401471900000000000000000000, 33947636089881100000000000000000000],
    [17511720551530400000000000000000000, m 37564082456563200000000000000000000],
    [23775589401471900000000000000000000, 33947636089881000000000000000000000],
    [m 41287309953002300000000000000000000, 3616446366682270000000000000000000],
    [m 30063413976092500000000000000000000, m 56093583647028800000000000000000000],
    [63610175415680600000000000000000000, 2011111595730200000000000000000000],
    [m 33546761439588100000000000000000000, 54082472051298700000000000000000000],
    [30063413976092500000000000000000000, m 56093583647028800000000000000000000],
    [33546761439588100000000000000000000, 54082472051298700000000000000000000],
    [m 63610175415680600000000000000000000, 2011111595730250000000000000000000],
    [m 10868692205689500000000000000000000, m 52891066884917500000000000000000000],
    [51239353658445200000000000000000000, 17032969886417700000000000000000000],
    [m 40370661452755700000000000000000000, 35858096998499800000000000000000000],
    [10868692205689500000000000000000000, m 52891066884917500000000000000000000],
    [40370661452755700000000000000000000, 35858096998499800000000000000000000],
    [m 51239353658445200000000000000000000, 17032969886417800000000000000000000],
    [m 41113970829952400000000000000000000, m 32227834482125100000000000000000000],
    [48467108785456700000000000000000000, m 19491825948128600000000000000000000],
    [m 7353137955504250000000000000000000, 51719660430253700000000000000000000],
    [41113970829952400000000000000000000, m 32227834482125100000000000000000000],
    [7353137955504300000000000000000000, 51719660430253700000000000000000000],
    [m 48467108785456700000000000000000000, m 19491825948128500000000000000000000],
    [m 96718296080601100000000000000000000, m 55840334277697000000000000000000000],
    [96718296080601100000000000000000000, m 55840334277696900000000000000000000],
    [m 11102230246251600000, 111680668555394000000000000000000000],
    [m 69178376289359700000000000000000000, m 57411035226075700000000000000000000],
    [84308603108024700000000000000000000, m 31204713646106700000000000000000000],
    [m 15130226818665000000000000000000000, 88615748872182500000000000000000000],
    [69178376289359700000000000000000000, m 57411035226075700000000000000000000],
    [15130226818665000000000000000000000, 88615748872182500000000000000000000],
    [m 84308603108024700000000000000000000, m 31204713646106700000000000000000000],
    [m 76406091414580000000000000000000000, m 44113077445935000000000000000000000],
    [76406091414580100000000000000000000, m 44113077445934900000000000000000000],
    [0, 88226154891869900000000000000000000],
    [m 97953562628985100000000000000000000, m 57376987737405100000000000000000000],
    [98666710287713600000000000000000000, m 56141779759188700000000000000000000],
    [m 713147658728364000000000000000000, 113518767496594000000000000000000000],
    [97953562628985100000000000000000000, m 57376987737405100000000000000000000],
    [713147658728452000000000000000000, 113518767496594000000000000000000000],
    [m 98666710287713600000000000000000000, m 56141779759188600000000000000000000],
    [m 95090315064315600000000000000000000, m 57387511563190800000000000000000000],
    [97244200405854200000000000000000000, m 53656872717968000000000000000000000],
    [m 2153885341538620000000000000000000, 111044384281159000000000000000000000],
    [95090315064315500000000000000000000, m 57387511563190800000000000000000000],
    [2153885341538690000000000000000000, 111044384281159000000000000000000000],
    [m 97244200405854300000000000000000000, m 53656872717967900000000000000000000],
    [m 11195104828353500000000000000000000, m 23684295020028700000000000000000000],
    [26108753572246900000000000000000000, 2146902330630410000000000000000000],
    [m 14913648743893400000000000000000000, 21537392689398400000000000000000000],
    [11195104828353500000000000000000000, m 23684295020028700000000000000000000],
    [14913648743893400000000000000000000, 21537392689398400000000000000000000],
    [m 26108753572246900000000000000000000, 2146902330630420000000000000000000],
    [m 39218251627345500000000000000000000, m 39119141236067000000000000000000000],
    [53487295898338100000000000000000000, m 14404431583258100000000000000000000],
    [m 14269044270992600000000000000000000, 53523572819325100000000000000000000],
    [39218251627345500000000000000000000, m 39119141236067000000000000000000000],
    [14269044270992700000000000000000000, 53523572819325100000000000000000000],
    [m 53487295898338200000000000000000000, m 14404431583258000000000000000000000],
    [m 48703846544346800000000000000000000, m 57412552079576300000000000000000000],
    [74072651869183600000000000000000000, m 13472492329635200000000000000000000],
    [m 25368805324836700000000000000000000, 70885044409211500000000000000000000],
    [48703846544346900000000000000000000, m 57412552079576300000000000000000000],
    [25368805324836700000000000000000000, 70885044409211500000000000000000000],
    [m 74072651869183600000000000000000000, m 13472492329635100000000000000000000],
    [m 74320583688319000000000000000000000, m 49038868751056800000000000000000000],
    [79629197955425600000000000000000000, m 39844079122643300000000000000000000],
    [m 5308614267106490000000000000000000, 88882947873700100000000000000000000],
    [74320583688319000000000000000000000, m 49038868751056800000000000000000000],
    [5308614267106560000000000000000000, 88882947873700100000000000000000000],
    [m 79629197955425600000000000000000000, m 39844079122643200000000000000000000],
    [m 48922335290760600000000000000000000, m 28245323449505800000000000000000000],
    [48922335290760600000000000000000000, m 28245323449505700000000000000000000],
    [0, 56490646899011500000000000000000000],
    [m 69393567486204500000000000000000000, m 44034718635067900000000000000000000],
    [72831968729571100000000000000000000, m 38079232984749000000000000000000000],
    [m 3438401243366530000000000000000000, 82113951619816900000000000000000000],
    [69393567486204500000000000000000000, m 44034718635067900000000000000000000],
    [3438401243366580000000000000000000, 82113951619816900000000000000000000],
    [m 72831968729571100000000000000000000, m 38079232984749000000000000000000000],
    [m 59416809204083900000000000000000000, m 57418257398341700000000000000000000],
    [79434074150039700000000000000000000, m 22747337483378900000000000000000000],
    [m 20017264945955700000000000000000000, 80165594881720600000000000000000000],
    [59416809204083900000000000000000000, m 57418257398341700000000000000000000],
    [20017264945955800000000000000000000, 80165594881720600000000000000000000],
    [m 79434074150039700000000000000000000, m 22747337483378800000000000000000000],
    [m 40109962198954800000000000000000000, m 23157497472752300000000000000000000],
    [40109962198954800000000000000000000, m 23157497472752300000000000000000000],
    [0, 46314994945504600000000000000000000],
    [m 59168695264172800000000000000000000, m 40847798164087400000000000000000000],
    [64959578530845500000000000000000000, m 30817694125510000000000000000000000],
    [m 5790883266672630000000000000000000, 71665492289597400000000000000000000],
    [59168695264172800000000000000000000, m 40847798164087400000000000000000000],
    [5790883266672700000000000000000000, 71665492289597400000000000000000000],
    [m 64959578530845500000000000000000000, m 30817694125509900000000000000000000],
    [m 42226270556224600000000000000000000, m 55956030132080800000000000000000000],
    [69572478867421800000000000000000000, m 8591007942724930000000000000000000],
    [m 27346208311197200000000000000000000, 64547038074805800000000000000000000],
    [42226270556224600000000000000000000, m 55956030132080800000000000000000000],
    [27346208311197200000000000000000000, 64547038074805800000000000000000000],
    [m 69572478867421800000000000000000000, m 8591007942724890000000000000000000],
    [2775557561562890000, m 23325735799867100000000000000000000],
    [20200679764649000000000000000000000, 11662867899933500000000000000000000],
    [m 20200679764649000000000000000000000, 11662867899933600000000000000000000],
    [m 57815837783084700000000000000000000, m 33379989507487700000000000000000000],
    [57815837783084800000000000000000000, m 33379989507487700000000000000000000],
    [0, 66759979014975400000000000000000000],
    [m 77777971180155400000000000000000000, m 57398131471203700000000000000000000],
    [88597225573899100000000000000000000, m 38658633161226700000000000000000000],
    [m 10819254393743700000000000000000000, 96056764632430400000000000000000000],
    [77777971180155400000000000000000000, m 57398131471203700000000000000000000],
    [10819254393743800000000000000000000, 96056764632430400000000000000000000],
    [m 88597225573899200000000000000000000, m 38658633161226600000000000000000000],
    [0, m 6185857031692900000000000000000000],
    [5357109333624670000000000000000000, 3092928515846480000000000000000000],
    [m 5357109333624660000000000000000000, 3092928515846480000000000000000000],
    [m 87324891245458500000000000000000000, m 50417049467520300000000000000000000],
    [87324891245458600000000000000000000, m 50417049467520300000000000000000000],
    [0, 100834098935041000000000000000000000],
    [m 37473331227815300000000000000000000, m 57386414467099100000000000000000000],
    [68434758374518400000000000000000000, m 3759649574167210000000000000000000],
    [m 30961427146703000000000000000000000, 61146064041266400000000000000000000],
    [37473331227815300000000000000000000, m 57386414467099100000000000000000000],
    [30961427146703000000000000000000000, 61146064041266400000000000000000000],
    [m 68434758374518400000000000000000000, m 3759649574167160000000000000000000],
    [4943961906533900000, m 57279115920674000000000000000000000],
    [49605169493617400000000000000000000, 28639557960337000000000000000000000],
    [m 49605169493617400000000000000000000, 28639557960337100000000000000000000],
    [m 7798892068546630000000000000000000, m 56023791168005400000000000000000000],
    [52417472402080200000000000000000000, 21257856931268400000000000000000000],
    [m 44618580333533600000000000000000000, 34765934236737100000000000000000000],
    [7798892068546630000000000000000000, m 56023791168005400000000000000000000],
    [44618580333533600000000000000000000, 34765934236737100000000000000000000],
    [m 52417472402080200000000000000000000, 21257856931268400000000000000000000],
    [m 11056039746108700000000000000000000, m 6383207523587050000000000000000000],
    [11056039746108700000000000000000000, m 6383207523587040000000000000000000],
    [0, 12766415047174200000000000000000000],
    [m 84965569809328800000000000000000000, m 57349445987280500000000000000000000],
    [92148862022612900000000000000000000, m 44907618908258600000000000000000000],
    [m 7183292213284030000000000000000000, 102257064895539000000000000000000000],
    [84965569809328800000000000000000000, m 57349445987280500000000000000000000],
    [7183292213284110000000000000000000, 102257064895539000000000000000000000],
    [m 92148862022612900000000000000000000, m 44907618908258600000000000000000000]],
   [576546916551267000000000000000000, 576546916551267000000000000000000, 576546916551267000000000000000000,
    60159001914035700000000000000000, 60159001914035700000000000000000, 60159001914035700000000000000000,
    60159001914035700000000000000000, 60159001914035700000000000000000, 60159001914035700000000000000000,
    51970202132418000000000000000000, 51970202132418000000000000000000, 51970202132418000000000000000000,
    51970202132418000000000000000000, 51970202132418000000000000000000, 51970202132418000000000000000000,
    472919509167668000000000000000000, 472919509167668000000000000000000, 472919509167668000000000000000000,
    472919509167668000000000000000000, 472919509167668000000000000000000, 472919509167668000000000000000000,
    196236411801604000000000000000000, 196236411801604000000000000000000, 196236411801604000000000000000000,
    196236411801604000000000000000000, 196236411801604000000000000000000, 196236411801604000000000000000000,
    23646276494913300000000000000000, 23646276494913300000000000000000, 23646276494913300000000000000000,
    23646276494913300000000000000000, 23646276494913300000000000000000, 23646276494913300000000000000000,
    133259843779795000000000000000000, 133259843779795000000000000000000, 133259843779795000000000000000000,
    133259843779795000000000000000000, 133259843779795000000000000000000, 133259843779795000000000000000000,
    224642346912314000000000000000000, 224642346912314000000000000000000, 224642346912314000000000000000000,
    224642346912314000000000000000000, 224642346912314000000000000000000, 224642346912314000000000000000000,
    6338132360747380000000000000000, 6338132360747380000000000000000, 6338132360747380000000000000000,
    485988369945468000000000000000000, 485988369945468000000000000000000, 485988369945468000000000000000000,
    485988369945468000000000000000000, 485988369945468000000000000000000, 485988369945468000000000000000000,
    295977037542899000000000000000000, 295977037542899000000000000000000, 295977037542899000000000000000000,
    295977037542899000000000000000000, 295977037542899000000000000000000, 295977037542899000000000000000000,
    256954404005210000000000000000000, 256954404005210000000000000000000, 256954404005210000000000000000000,
    256954404005210000000000000000000, 256954404005210000000000000000000, 256954404005210000000000000000000,
    286030239424163000000000000000000, 286030239424163000000000000000000, 286030239424163000000000000000000,
    736848090364941000000000000000000, 736848090364941000000000000000000, 736848090364941000000000000000000,
    736848090364941000000000000000000, 736848090364941000000000000000000, 736848090364941000000000000000000,
    380670054905011000000000000000000, 380670054905011000000000000000000, 380670054905011000000000000000000,
    380670054905011000000000000000000, 380670054905011000000000000000000, 380670054905011000000000000000000,
    268222261343230000000000000000000, 268222261343230000000000000000000, 268222261343230000000000000000000,
    268222261343230000000000000000000, 268222261343230000000000000000000, 268222261343230000000000000000000,
    450901414458083000000000000000000, 450901414458083000000000000000000, 450901414458083000000000000000000,
    450901414458083000000000000000000, 450901414458083000000000000000000, 450901414458083000000000000000000,
    80743058240463900000000000000000, 80743058240463900000000000000000, 80743058240463900000000000000000,
    80743058240463900000000000000000, 80743058240463900000000000000000, 80743058240463900000000000000000,
    113895704473559000000000000000000, 113895704473559000000000000000000, 113895704473559000000000000000000,
    113895704473559000000000000000000, 113895704473559000000000000000000, 113895704473559000000000000000000,
    482629966278613000000000000000000, 482629966278613000000000000000000, 482629966278613000000000000000000,
    482629966278613000000000000000000, 482629966278613000000000000000000, 482629966278613000000000000000000,
    737697184097546000000000000000000, 737697184097546000000000000000000, 737697184097546000000000000000000,
    715277566067149000000000000000000, 715277566067149000000000000000000, 715277566067149000000000000000000,
    715277566067149000000000000000000, 715277566067149000000000000000000, 715277566067149000000000000000000,
    373132746668887000000000000000000, 373132746668887000000000000000000, 373132746668887000000000000000000,
    373132746668887000000000000000000, 373132746668887000000000000000000, 373132746668887000000000000000000,
    602052581797523000000000000000000, 602052581797523000000000000000000, 602052581797523000000000000000000,
    602052581797523000000000000000000, 602052581797523000000000000000000, 602052581797523000000000000000000,
    419897605800485000000000000000000, 419897605800485000000000000000000, 419897605800485000000000000000000,
    468799340510592000000000000000000, 468799340510592000000000000000000, 468799340510592000000000000000000,
    468799340510592000000000000000000, 468799340510592000000000000000000, 468799340510592000000000000000000,
    66818932556073900000000000000000, 66818932556073900000000000000000, 66818932556073900000000000000000,
    66818932556073900000000000000000, 66818932556073900000000000000000, 66818932556073900000000000000000,
    595767701650779000000000000000000, 595767701650779000000000000000000, 595767701650779000000000000000000,
    595767701650779000000000000000000, 595767701650779000000000000000000, 595767701650779000000000000000000,
    75868491012429900000000000000000, 75868491012429900000000000000000, 75868491012429900000000000000000,
    75868491012429900000000000000000, 75868491012429900000000000000000, 75868491012429900000000000000000,
    763144102105398000000000000000000, 763144102105398000000000000000000, 763144102105398000000000000000000,
    763144102105398000000000000000000, 763144102105398000000000000000000, 763144102105398000000000000000000,
    349441390455600000000000000000000, 349441390455600000000000000000000, 349441390455600000000000000000000,
    349441390455600000000000000000000, 349441390455600000000000000000000, 349441390455600000000000000000000,
    560886307214325000000000000000000, 560886307214325000000000000000000, 560886307214325000000000000000000,
    560886307214325000000000000000000, 560886307214325000000000000000000, 560886307214325000000000000000000,
    808211418303054000000000000000000, 808211418303054000000000000000000, 808211418303054000000000000000000,
    808211418303054000000000000000000, 808211418303054000000000000000000, 808211418303054000000000000000000,
    547193962893478000000000000000000, 547193962893478000000000000000000, 547193962893478000000000000000000,
    547193962893478000000000000000000, 547193962893478000000000000000000, 547193962893478000000000000000000,
    601642487033357000000000000000000, 601642487033357000000000000000000, 601642487033357000000000000000000,
    601642487033357000000000000000000, 601642487033357000000000000000000, 601642487033357000000000000000000,
    155086596160521000000000000000000, 155086596160521000000000000000000, 155086596160521000000000000000000,
    155086596160521000000000000000000, 155086596160521000000000000000000, 155086596160521000000000000000000,
    187144363012413000000000000000000, 187144363012413000000000000000000, 187144363012413000000000000000000,
    187144363012413000000000000000000, 187144363012413000000000000000000, 187144363012413000000000000000000,
    314016385868262000000000000000000, 314016385868262000000000000000000, 314016385868262000000000000000000,
    314016385868262000000000000000000, 314016385868262000000000000000000, 314016385868262000000000000000000,
    132529102577594000000000000000000, 132529102577594000000000000000000, 132529102577594000000000000000000,
    132529102577594000000000000000000, 132529102577594000000000000000000, 132529102577594000000000000000000,
    494964990367132000000000000000000, 494964990367132000000000000000000, 494964990367132000000000000000000,
    494964990367132000000000000000000, 494964990367132000000000000000000, 494964990367132000000000000000000,
    460000147619125000000000000000000, 460000147619125000000000000000000, 460000147619125000000000000000000,
    460000147619125000000000000000000, 460000147619125000000000000000000, 460000147619125000000000000000000,
    775514944747671000000000000000000, 775514944747671000000000000000000, 775514944747671000000000000000000,
    775514944747671000000000000000000, 775514944747671000000000000000000, 775514944747671000000000000000000,
    286397590771773000000000000000000, 286397590771773000000000000000000, 286397590771773000000000000000000,
    286397590771773000000000000000000, 286397590771773000000000000000000, 286397590771773000000000000000000,
    336882086925247000000000000000000, 336882086925247000000000000000000, 336882086925247000000000000000000,
    336882086925247000000000000000000, 336882086925247000000000000000000, 336882086925247000000000000000000,
    702263044998402000000000000000000, 702263044998402000000000000000000, 702263044998402000000000000000000,
    702263044998402000000000000000000, 702263044998402000000000000000000, 702263044998402000000000000000000,
    406546447646501000000000000000000, 406546447646501000000000000000000, 406546447646501000000000000000000,
    406546447646501000000000000000000, 406546447646501000000000000000000, 406546447646501000000000000000000,
    938736321972935000000000000000000, 938736321972935000000000000000000, 938736321972935000000000000000000,
    938736321972935000000000000000000, 938736321972935000000000000000000, 938736321972935000000000000000000,
    142273964245158000000000000000000, 142273964245158000000000000000000, 142273964245158000000000000000000,
    142273964245158000000000000000000, 142273964245158000000000000000000, 142273964245158000000000000000000,
    230903689826481000000000000000000, 230903689826481000000000000000000, 230903689826481000000000000000000,
    230903689826481000000000000000000, 230903689826481000000000000000000, 230903689826481000000000000000000,
    809318459381545000000000000000000, 809318459381545000000000000000000, 809318459381545000000000000000000,
    809318459381545000000000000000000, 809318459381545000000000000000000, 809318459381545000000000000000000,
    620543784640619000000000000000000, 620543784640619000000000000000000, 620543784640619000000000000000000,
    181406210448485000000000000000000, 181406210448485000000000000000000, 181406210448485000000000000000000,
    181406210448485000000000000000000, 181406210448485000000000000000000, 181406210448485000000000000000000,
    481440634702766000000000000000000, 481440634702766000000000000000000, 481440634702766000000000000000000,
    442887612139366000000000000000000, 442887612139366000000000000000000, 442887612139366000000000000000000,
    442887612139366000000000000000000, 442887612139366000000000000000000, 442887612139366000000000000000000,
    199838120756553000000000000000000, 199838120756553000000000000000000, 199838120756553000000000000000000,
    199838120756553000000000000000000, 199838120756553000000000000000000, 199838120756553000000000000000000,
    731576273276457000000000000000000, 731576273276457000000000000000000, 731576273276457000000000000000000,
    731576273276457000000000000000000, 731576273276457000000000000000000, 731576273276457000000000000000000,
    231647508605185000000000000000000, 231647508605185000000000000000000, 231647508605185000000000000000000,
    231647508605185000000000000000000, 231647508605185000000000000000000, 231647508605185000000000000000000,
    412474615785110000000000000000000, 412474615785110000000000000000000, 412474615785110000000000000000000,
    412474615785110000000000000000000, 412474615785110000000000000000000, 412474615785110000000000000000000,
    741811804821793000000000000000000, 741811804821793000000000000000000, 741811804821793000000000000000000,
    741811804821793000000000000000000, 741811804821793000000000000000000, 741811804821793000000000000000000,
    51953242757784200000000000000000, 51953242757784200000000000000000, 51953242757784200000000000000000,
    76330432677584800000000000000000, 76330432677584800000000000000000, 76330432677584800000000000000000,
    76330432677584800000000000000000, 76330432677584800000000000000000, 76330432677584800000000000000000,
    358165879091432000000000000000000, 358165879091432000000000000000000, 358165879091432000000000000000000,
    20030346207878400000000000000000, 20030346207878400000000000000000, 20030346207878400000000000000000,
    20030346207878400000000000000000, 20030346207878400000000000000000, 20030346207878400000000000000000,
    31596954490042200000000000000000, 31596954490042200000000000000000, 31596954490042200000000000000000,
    31596954490042200000000000000000, 31596954490042200000000000000000, 31596954490042200000000000000000,
    889428155022161000000000000000000, 889428155022161000000000000000000, 889428155022161000000000000000000,
    889428155022161000000000000000000, 889428155022161000000000000000000, 889428155022161000000000000000000,
    676375489637482000000000000000000, 676375489637482000000000000000000, 676375489637482000000000000000000,
    676375489637482000000000000000000, 676375489637482000000000000000000, 676375489637482000000000000000000,
    91489965108238000000000000000000, 91489965108238000000000000000000, 91489965108238000000000000000000,
    91489965108238000000000000000000, 91489965108238000000000000000000, 91489965108238000000000000000000,
    328927442696546000000000000000000, 328927442696546000000000000000000, 328927442696546000000000000000000,
    328927442696546000000000000000000, 328927442696546000000000000000000, 328927442696546000000000000000000,
    697620007031718000000000000000000, 697620007031718000000000000000000, 697620007031718000000000000000000,
    404270931654679000000000000000000, 404270931654679000000000000000000, 404270931654679000000000000000000,
    404270931654679000000000000000000, 404270931654679000000000000000000, 404270931654679000000000000000000,
    83601013758453900000000000000000, 83601013758453900000000000000000, 83601013758453900000000000000000,
    83601013758453900000000000000000, 83601013758453900000000000000000, 83601013758453900000000000000000,
    791663940079498000000000000000000, 791663940079498000000000000000000, 791663940079498000000000000000000,
    562746676100412000000000000000000, 562746676100412000000000000000000, 562746676100412000000000000000000,
    562746676100412000000000000000000, 562746676100412000000000000000000, 562746676100412000000000000000000,
    228590335399010000000000000000000, 228590335399010000000000000000000, 228590335399010000000000000000000,
    228590335399010000000000000000000, 228590335399010000000000000000000, 228590335399010000000000000000000,
    894665890552717000000000000000000, 894665890552717000000000000000000, 894665890552717000000000000000000,
    603665320593789000000000000000000, 603665320593789000000000000000000, 603665320593789000000000000000000,
    68715523697818000000000000000000, 68715523697818000000000000000000, 68715523697818000000000000000000,
    68715523697818000000000000000000, 68715523697818000000000000000000, 68715523697818000000000000000000,
    1014430020469050000000000000000000, 1014430020469050000000000000000000, 1014430020469050000000000000000000,
    207664020928111000000000000000000, 207664020928111000000000000000000, 207664020928111000000000000000000,
    101427759242769000000000000000000, 101427759242769000000000000000000, 101427759242769000000000000000000,
    101427759242769000000000000000000, 101427759242769000000000000000000, 101427759242769000000000000000000,
    129786386894210000000000000000000, 129786386894210000000000000000000, 129786386894210000000000000000000,
    242621327035549000000000000000000, 242621327035549000000000000000000, 242621327035549000000000000000000,
    242621327035549000000000000000000, 242621327035549000000000000000000, 242621327035549000000000000000000,
    1000023592557810000000000000000000, 1000023592557810000000000000000000, 1000023592557810000000000000000000,
    64173443503233700000000000000000, 64173443503233700000000000000000, 64173443503233700000000000000000,
    64173443503233700000000000000000, 64173443503233700000000000000000, 64173443503233700000000000000000]⟩

/-- `triangle_table_orig` in xg_quad_data.py. -/
def xgTri : List (Int × XgTableRule) :=
  [(1, xgTri_1), (2, xgTri_2), (3, xgTri_3), (4, xgTri_4), (5, xgTri_5), (6, xgTri_6), (7, xgTri_7), (8, xgTri_8),
   (9, xgTri_9), (10, xgTri_10), (11, xgTri_11), (12, xgTri_12), (13, xgTri_13), (14, xgTri_14), (15, xgTri_15),
   (16, xgTri_16), (17, xgTri_17), (18, xgTri_18), (19, xgTri_19), (20, xgTri_20), (21, xgTri_21), (22, xgTri_22),
   (23, xgTri_23), (24, xgTri_24), (25, xgTri_25), (26, xgTri_26), (27, xgTri_27), (28, xgTri_28), (29, xgTri_29),
   (30, xgTri_30), (31, xgTri_31), (32, xgTri_32), (33, xgTri_33), (34, xgTri_34), (35, xgTri_35), (36, xgTri_36),
   (37, xgTri_37), (38, xgTri_38), (39, xgTri_39), (40, xgTri_40), (41, xgTri_41), (42, xgTri_42), (43, xgTri_43),
   (44, xgTri_44), (45, xgTri_45), (46, xgTri_46), (47, xgTri_47), (48, xgTri_48), (49, xgTri_49), (50, xgTri_50)]

/-- `tetrahedron_table_orig[1]` (xg_quad_data.py 16416-16416). -/
def xgTet_1 : XgTableRule :=
  ⟨[
    [0, 0, 0]],
   [94280904158206300000000000000000000]⟩

/-- `tetrahedron_table_orig[2]` (xg_quad_data.py 16417-16430). -/
def xgTet_2 : XgTableRule :=
  ⟨[
    [m 26770285859100700000000000000000000, 5939017006199490000000000000000000,
     m 39694269411421500000000000000000000],
    [15109318415331400000000000000000000, 43540877324763100000000000000000000, 21517192543069200000000000000000000],
    [m 13676991952373900000000000000000000, m 32803411155904100000000000000000000,
     29508465199371300000000000000000000],
    [80674493090519600000000000000000000, m 34009773142852900000000000000000000,
     m 34303789510025500000000000000000000]],
   [28333385879163600000000000000000000, 26283401989043300000000000000000000, 30084464750479400000000000000000000,
    9579651539519960000000000000000000]⟩

/-- `tetrahedron_table_orig[3]` (xg_quad_data.py 16431-16448). -/
def xgTet_3 : XgTableRule :=
  ⟨[
    [m 16850371802760000000000000000000000, 19109149162717100000000000000000000,
     m 38962673145851600000000000000000000],
    [2783799427534420000000000000000000, m 2304932838839660000000000000000000, 54813506632418300000000000000000000],
    [m 35122161773434500000000000000000000, 18351440263399900000000000000000000, 5147815330343530000000000000000000],
    [43085324635490400000000000000000000, m 24747158231804500000000000000000000,
     m 16833156410070300000000000000000000],
    [m 46767637479673800000000000000000000, m 42352508272643800000000000000000000,
     m 15869730778893100000000000000000000],
    [14928312538484300000000000000000000, 63978476851645200000000000000000000, m 10802192530553900000000000000000000]],
   [12498633461647900000000000000000000, 21158064843802100000000000000000000, 12074217182667200000000000000000000,
    23759163162187200000000000000000000, 13258196489496800000000000000000000, 11532629018405100000000000000000000]⟩

/-- `tetrahedron_table_orig[4]` (xg_quad_data.py 16449-16476). -/
def xgTet_4 : XgTableRule :=
  ⟨[
    [m 1459612280979990000000000000000000, 242656457919971000000000000000000, 70935657801036300000000000000000000],
    [m 29372448963099900000000000000000000, 17643965067646100000000000000000000, 11088604949411300000000000000000000],
    [32308783371582700000000000000000000, m 19320704109565600000000000000000000, 16954263967046500000000000000000000],
    [m 8819654179396580000000000000000000, 2317884270105980000000000000000000, m 20118193913255900000000000000000000],
    [12702036633147100000000000000000000, 54514106772152200000000000000000000, 13095039907593200000000000000000000],
    [m 44143076880911800000000000000000000, m 38482256315901800000000000000000000,
     9225429679162530000000000000000000],
    [39394185896334300000000000000000000, 20687446706395300000000000000000000, m 31115604261982400000000000000000000],
    [m 6034469714614210000000000000000000, m 45737390749270800000000000000000000,
     m 33022153293223800000000000000000000],
    [m 8914059834601180000000000000000000, 72680926595994600000000000000000000,
     m 35079317373637400000000000000000000],
    [65452130336037600000000000000000000, m 39703562438705700000000000000000000,
     m 29704248339511400000000000000000000],
    [m 73076422596778600000000000000000000, m 26694200886489800000000000000000000,
     m 38610375702418500000000000000000000]],
   [10037902524126400000000000000000000, 10392983102544600000000000000000000, 14611288340938800000000000000000000,
    18234946234012400000000000000000000, 7180689656495250000000000000000000, 7488419211098010000000000000000000,
    6549691200440060000000000000000000, 5650554884698810000000000000000000, 5222577442370050000000000000000000,
    5211223219892040000000000000000000, 3700628341589880000000000000000000]⟩

/-- `tetrahedron_table_orig[5]` (xg_quad_data.py 16477-16510). -/
def xgTet_5 : XgTableRule :=
  ⟨[
    [16641807215776800000, 10943623241462300000, 77043678252967200000000000000000000],
    [40899259174870100000000000000000000, m 23613198294267500000000000000000000, 33394105278758400000000000000000000],
    [6338467275430000000, 47226396588535000000000000000000000, 33394105278758300000000000000000000],
    [m 40899259174870100000000000000000000, m 23613198294267500000000000000000000,
     33394105278758300000000000000000000],
    [3723900931035780000, 3548001489301810000, m 29827886943075900000000000000000000],
    [m 24354367705320200000000000000000000, 14061000750609800000000000000000000, 9942628981025300000000000000000000],
    [771865760070526000, m 28122001501219500000000000000000000, 9942628981025310000000000000000000],
    [24354367705320300000000000000000000, 14061000750609800000000000000000000, 9942628981025300000000000000000000],
    [62905899875643500000000000000000000, m 36318738226818400000000000000000000,
     m 25681226084322400000000000000000000],
    [m 62905899875643500000000000000000000, m 36318738226818400000000000000000000,
     m 25681226084322400000000000000000000],
    [m 14077689537993300000, 72637476453636800000000000000000000, m 25681226084322400000000000000000000],
    [40899259174870100000000000000000000, 23613198294267500000000000000000000, m 33394105278758400000000000000000000],
    [m 10479652114649000000, m 47226396588535000000000000000000000, m 33394105278758300000000000000000000],
    [m 40899259174870100000000000000000000, 23613198294267500000000000000000000,
     m 33394105278758400000000000000000000]],
   [6928990554348650000000000000000000, 4011277307197070000000000000000000, 4011277307197070000000000000000000,
    4011277307197080000000000000000000, 10624319524407300000000000000000000, 10624319524407300000000000000000000,
    10624319524407300000000000000000000, 10624319524407300000000000000000000, 6928990554348640000000000000000000,
    6928990554348650000000000000000000, 6928990554348640000000000000000000, 4011277307197070000000000000000000,
    4011277307197070000000000000000000, 4011277307197070000000000000000000]⟩

/-- `tetrahedron_table_orig[6]` (xg_quad_data.py 16511-16562). -/
def xgTet_6 : XgTableRule :=
  ⟨[
    [491994195152311000000000000000000, m 1392238503430920000000000000000000, 106622826396772000000000000000000000],
    [3415058060219540000000000000000000, 25420738305434000000000000000000000, 63158869670392300000000000000000000],
    [m 45611983286172300000000000000000000, m 31103854474453800000000000000000000,
     23002676551069900000000000000000000],
    [21444992297694900000000000000000000, m 12349038732497200000000000000000000, 56323516363028300000000000000000000],
    [m 15406930599959400000000000000000000, m 6865214472302170000000000000000000,
     62062648962826200000000000000000000],
    [30645254032229500000000000000000000, 18184955019231800000000000000000000, 12546858764429100000000000000000000],
    [m 1305882959514770000000000000000000, m 2488891169073400000000000000000000,
     m 33577059262826600000000000000000000],
    [1535244689838070000000000000000000, m 32611431005329200000000000000000000, 11477889859270000000000000000000000],
    [m 15677844877753400000000000000000000, 25224543010009200000000000000000000, 21405978007055200000000000000000000],
    [m 39736169405067600000000000000000000, m 19771590833785000000000000000000000,
     m 7963361802882330000000000000000000],
    [976488461664955000000000000000000, 65041842911336800000000000000000000, 586844628157869000000000000000000],
    [m 52280879846474500000000000000000000, m 6635055304123420000000000000000000, 193427268845595000000000000000000],
    [55656057022103300000000000000000000, m 31866900542201100000000000000000000, 1379740251424840000000000000000000],
    [8423081979023460000000000000000000, 2138059822864520000000000000000000, 3195756126912550000000000000000000],
    [21741660911602400000000000000000000, 45995070049980000000000000000000000, m 30272323037531600000000000000000000],
    [32121589452256500000000000000000000, m 42600524215450500000000000000000000,
     m 29948556026042600000000000000000000],
    [m 25936480785454000000000000000000000, 38519802111375800000000000000000000,
     m 28251970992531200000000000000000000],
    [56364547672025800000000000000000000, m 11116062278217000000000000000000000,
     m 30681404953004100000000000000000000],
    [m 64109496446257300000000000000000000, m 19343183385076100000000000000000000,
     m 36604736051615900000000000000000000],
    [m 33441510905821500000000000000000000, m 44917586997236500000000000000000000,
     m 31024232927461300000000000000000000],
    [m 1894588386892020000000000000000000, 90105994599309600000000000000000000,
     m 34739520504369000000000000000000000],
    [m 82146558961993500000000000000000000, m 51098603593551800000000000000000000,
     m 26356452401013600000000000000000000],
    [85974154756156600000000000000000000, m 52080851412257400000000000000000000,
     m 36034325853693300000000000000000000]],
   [668997954335606000000000000000000, 2970735653233080000000000000000000, 2284547635722330000000000000000000,
    4609400560445580000000000000000000, 5000029728577230000000000000000000, 4076639987614170000000000000000000,
    6329625453919040000000000000000000, 5640010745481940000000000000000000, 5903349342913690000000000000000000,
    6065469759756600000000000000000000, 4109742141772240000000000000000000, 2127511513916560000000000000000000,
    4394728431101770000000000000000000, 10615973663376300000000000000000000, 5085041567819720000000000000000000,
    4692231443743280000000000000000000, 5945953620535510000000000000000000, 4445158942203450000000000000000000,
    2404570751840840000000000000000000, 3744281034182770000000000000000000, 1501468576714850000000000000000000,
    982721516374585000000000000000000, 682714132625144000000000000000000]⟩

/-- `tetrahedron_table_orig[7]` (xg_quad_data.py 16563-16630). -/
def xgTet_7 : XgTableRule :=
  ⟨[
    [m 30825229135629200000000000000000000, m 19784328796788800000000000000000000,
     65537714053414200000000000000000000],
    [32300685647651700000000000000000000, m 11666081448002900000000000000000000, 59632172682128200000000000000000000],
    [179003094309949000000000000000000, 276022304167135000000000000000000, 91916703424354600000000000000000000],
    [m 17498585628502200000000000000000000, 14925530712725800000000000000000000, 51629213873982400000000000000000000],
    [3515818224512230000000000000000000, 32225700098319600000000000000000000, 54921035994702200000000000000000000],
    [m 11489128025050600000000000000000000, 3598150246997990000000000000000000,
     m 38869176539664600000000000000000000],
    [10802426195804700000000000000000000, m 21232110827452600000000000000000000, 51382146570685700000000000000000000],
    [9960886019209520000000000000000000, 33706003461657900000000000000000000, m 27325022264021700000000000000000000],
    [25525896571730400000000000000000000, 2345931387652710000000000000000000, m 12892664264274900000000000000000000],
    [30189720939645400000000000000000000, m 27974408127285300000000000000000000,
     m 33681550281556000000000000000000000],
    [m 3637995251662870000000000000000000, 67841581477926300000000000000000000, 4965154590499940000000000000000000],
    [m 19797484326743500000000000000000000, m 10992601207068500000000000000000000,
     36881013673108800000000000000000000],
    [17055476085871900000000000000000000, 5854481149716680000000000000000000, 32453984503362300000000000000000000],
    [53827145753577300000000000000000000, m 33262024381560600000000000000000000, 6530998463389480000000000000000000],
    [m 58262559515596600000000000000000000, m 28663942886696000000000000000000000,
     4050073689194290000000000000000000],
    [m 6638827484255140000000000000000000, 33966437327451700000000000000000000, 4339137621154700000000000000000000],
    [13948654504833600000000000000000000, m 30785023183686700000000000000000000, m 855418822812698000000000000000000],
    [m 25254482115614800000000000000000000, m 9687707852320760000000000000000000,
     m 12122343431281700000000000000000000],
    [m 33641794793567800000000000000000000, m 42228093056235600000000000000000000,
     2244936992133660000000000000000000],
    [50881740950913400000000000000000000, m 4607960014652950000000000000000000, m 5389155149780180000000000000000000],
    [m 39976767712995800000000000000000000, 16941179340015600000000000000000000,
     m 1331769110761940000000000000000000],
    [22335792089976300000000000000000000, 50702639223184600000000000000000000, m 3996173060097080000000000000000000],
    [m 28876898323279800000000000000000000, m 43204116122417300000000000000000000,
     m 33043707571388500000000000000000000],
    [24300568059884600000000000000000000, 52621554880824900000000000000000000, m 36336975480343900000000000000000000],
    [m 24024591846687900000000000000000000, 49192396597830400000000000000000000,
     m 31846700755382400000000000000000000],
    [m 57371224951689400000000000000000000, m 7453182334351910000000000000000000,
     m 33480007414143000000000000000000000],
    [55307405863451800000000000000000000, m 335502653046674000000000000000000, m 35074440354014200000000000000000000],
    [76321608715403600000000000000000000, m 43453942883759800000000000000000000,
     m 31204798915756200000000000000000000],
    [110832352531628000000000000000000, 88358150932317500000000000000000000, m 31553368840076300000000000000000000],
    [m 76665897255192200000000000000000000, m 45403274249962500000000000000000000,
     m 31487022315780100000000000000000000],
    [33143792684370300000000000000000000, m 54190340337227700000000000000000000,
     m 31044102687621500000000000000000000]],
   [726734289368660000000000000000000, 1131728380832580000000000000000000, 2188901775099530000000000000000000,
    2112963792897430000000000000000000, 2195895309073100000000000000000000, 2576689032434020000000000000000000,
    2714939653754840000000000000000000, 4053245620775990000000000000000000, 4976303160793190000000000000000000,
    3944574588616260000000000000000000, 1952753833398620000000000000000000, 5685281412049430000000000000000000,
    6289592929070610000000000000000000, 2961469497133170000000000000000000, 2669355215292270000000000000000000,
    6292259405657680000000000000000000, 6051781771700640000000000000000000, 7762916999363130000000000000000000,
    1967897514881240000000000000000000, 2315768097972110000000000000000000, 2107052954112760000000000000000000,
    2091180546356570000000000000000000, 3482341478841340000000000000000000, 1574679761531760000000000000000000,
    3186304737552320000000000000000000, 2645633263182260000000000000000000, 1988645034769640000000000000000000,
    1941276685984100000000000000000000, 1810458458523610000000000000000000, 1702437591661190000000000000000000,
    1179841365526300000000000000000000]⟩

/-- `tetrahedron_table_orig[8]` (xg_quad_data.py 16631-16724). -/
def xgTet_8 : XgTableRule :=
  ⟨[
    [m 1611772551670530000000000000000000, 79986001195007000000000000000000, 114075012048065000000000000000000000],
    [m 714882723684071000000000000000000, 17239145950071400000000000000000000, 78606960727934500000000000000000000],
    [45899233720885600000000000000000000, m 17447163516512300000000000000000000,
     m 39914309123309900000000000000000000],
    [m 45209904924941800000000000000000000, m 26329416290714000000000000000000000,
     35360929602404400000000000000000000],
    [11095603564306300000000000000000000, m 6295720376005640000000000000000000, 81894041423014700000000000000000000],
    [18252242936488900000000000000000000, 16783828185933600000000000000000000, 47649627163617500000000000000000000],
    [m 15074898054199700000000000000000000, m 7826941873249310000000000000000000,
     76289742950812300000000000000000000],
    [m 28773247348786000000000000000000000, m 12346869747836400000000000000000000,
     m 38800583238178000000000000000000000],
    [36807472123784900000000000000000000, m 21698767663397400000000000000000000, 39975536952744100000000000000000000],
    [47881564248905100000000000000000000, m 4629437300594240000000000000000000, 11446564649950900000000000000000000],
    [m 34787793674008200000000000000000000, m 12956303361647300000000000000000000,
     25091719687786400000000000000000000],
    [m 3548285868734740000000000000000000, m 22681080313074800000000000000000000,
     41746155783433100000000000000000000],
    [25916504429340400000000000000000000, 13300714430272900000000000000000000, m 27477783451180300000000000000000000],
    [m 130503737894631000000000000000000, 49194091158945400000000000000000000, 30319293247532100000000000000000000],
    [m 3493996070828600000000000000000000, 30019951691221900000000000000000000,
     m 34425035242309200000000000000000000],
    [m 16604628597073000000000000000000000, 14077364576875100000000000000000000, 39705374341808300000000000000000000],
    [10100855224224300000000000000000000, m 22592575753151600000000000000000000,
     m 30708932586014300000000000000000000],
    [m 35874681636051400000000000000000000, m 10831997955734600000000000000000000,
     m 19899043969039200000000000000000000],
    [m 34730675639856800000000000000000000, m 37423047390301300000000000000000000,
     1526258958568330000000000000000000],
    [m 8635741121401180000000000000000000, m 14780624820850100000000000000000000, m 15423501898439500000000000000000],
    [29011682017784900000000000000000000, m 34495123737267500000000000000000000, 4121026001314490000000000000000000],
    [10420933551501100000000000000000000, 2883671141680470000000000000000000, 32489138482799300000000000000000000],
    [m 6419387451918360000000000000000000, 25581255708530400000000000000000000, m 6957900515388780000000000000000000],
    [m 20169869721189700000000000000000000, 44043680790411800000000000000000000,
     m 3340987564879220000000000000000000],
    [18461706773564000000000000000000000, 39985686052859600000000000000000000, m 1303527431545760000000000000000000],
    [37888939581601600000000000000000000, m 9956585162815590000000000000000000, m 8390322512212590000000000000000000],
    [m 48187161631658000000000000000000000, m 1509747383909750000000000000000000,
     m 4501404031339340000000000000000000],
    [68217190507781700000000000000000000, m 39565186188175900000000000000000000,
     m 7451523522744340000000000000000000],
    [39786422930151400000000000000000000, 22566160132483500000000000000000000, m 39939390220091400000000000000000000],
    [m 69758894701591300000000000000000000, m 38996510239184500000000000000000000,
     m 12542104582055800000000000000000000],
    [274296474933631000000000000000000, 81349982308796200000000000000000000, m 14158157952053200000000000000000000],
    [1645687860050990000000000000000000, m 44510367002946300000000000000000000,
     m 18582442994108000000000000000000000],
    [m 46183492147859000000000000000000000, m 45356474799379400000000000000000000,
     m 32455124248090200000000000000000000],
    [15750905683970900000000000000000000, 66501454601714300000000000000000000, m 33171210015082300000000000000000000],
    [53991752032152400000000000000000000, m 46746244699730300000000000000000000,
     m 31681595057011200000000000000000000],
    [m 14039052620897200000000000000000000, 70126539837596300000000000000000000,
     m 33721502391500900000000000000000000],
    [4453396570037860000000000000000000, m 51072418473091300000000000000000000,
     m 39500136705117100000000000000000000],
    [m 42343603021043500000000000000000000, 22633249976876100000000000000000000,
     m 33364440060358700000000000000000000],
    [m 72141763768940300000000000000000000, m 27271551706363500000000000000000000,
     m 35193929700016600000000000000000000],
    [72781187161903400000000000000000000, m 28616278030707300000000000000000000,
     m 32261675829158100000000000000000000],
    [49018907797013400000000000000000000, 18563065233326300000000000000000000, m 27800423257075700000000000000000000],
    [m 87588873525077800000000000000000000, m 55663746788874200000000000000000000,
     m 37205777991045900000000000000000000],
    [763237720561976000000000000000000, 105605694666911000000000000000000000, m 39727510089742200000000000000000000],
    [93174311471691900000000000000000000, m 56642471247059100000000000000000000,
     m 38210736167906300000000000000000000]],
   [164537481630632000000000000000000, 1420225807086320000000000000000000, 931166933355630000000000000000000,
    954963853667850000000000000000000, 1660525836053510000000000000000000, 1472327293818890000000000000000000,
    1696008804372660000000000000000000, 1558403647118710000000000000000000, 2121750827153030000000000000000000,
    1206737437038090000000000000000000, 2569620002676110000000000000000000, 3044613298400530000000000000000000,
    2657371950971870000000000000000000, 2277670508479180000000000000000000, 3039734516459270000000000000000000,
    3445975598980100000000000000000000, 3919020579958410000000000000000000, 3682867612856830000000000000000000,
    2370135764446070000000000000000000, 4983964714854840000000000000000000, 3085557054397930000000000000000000,
    5260166194805440000000000000000000, 5030244735062130000000000000000000, 2556666046956540000000000000000000,
    3780551604388330000000000000000000, 4881829761941620000000000000000000, 2144298545342660000000000000000000,
    1387806157624150000000000000000000, 650295778034312000000000000000000, 1600439962738470000000000000000000,
    1639469740183780000000000000000000, 2126905426801050000000000000000000, 2215499757972540000000000000000000,
    1899450114449250000000000000000000, 1937004602528580000000000000000000, 1687515406301920000000000000000000,
    709100855483249000000000000000000, 2067061551838190000000000000000000, 1295021056106630000000000000000000,
    1450836547071300000000000000000000, 1118682591537560000000000000000000, 240124083764661000000000000000000,
    196017972799913000000000000000000, 142736140697601000000000000000000]⟩

/-- `tetrahedron_table_orig[9]` (xg_quad_data.py 16725-16844). -/
def xgTet_9 : XgTableRule :=
  ⟨[
    [21080520171032600000000000000000000, m 8955776048075970000000000000000000, 77358820742610400000000000000000000],
    [128372935585005000000000000000000, 61211977549114700000000000000000, 102094083614009000000000000000000000],
    [m 2918734175018470000000000000000000, 21227585796595300000000000000000000, 77993587233880800000000000000000000],
    [m 43579492976892700000000000000000000, m 28393554803183400000000000000000000,
     36443776437833300000000000000000000],
    [m 17993416378702000000000000000000000, m 9582556152029260000000000000000000,
     75720443480581900000000000000000000],
    [6942222186204160000000000000000000, m 13946666807075100000000000000000000, 70554876049830200000000000000000000],
    [m 10056429911352300000000000000000000, 48363975282618300000000000000000000,
     m 40716036117457900000000000000000000],
    [19048556967533600000000000000000000, 32488439517388200000000000000000000, 27843378353425400000000000000000000],
    [32312388519965500000000000000000000, m 30910970021347200000000000000000000, 32200036913513200000000000000000000],
    [6819987943340140000000000000000000, m 17995410176563600000000000000000000,
     m 39551356831763300000000000000000000],
    [9708131623556140000000000000000000, 13466903412736300000000000000000000, 66322094175076900000000000000000000],
    [42462397880552000000000000000000000, m 19740374513644000000000000000000000, 36718975211832700000000000000000000],
    [m 35696642562031100000000000000000000, 5240665094885540000000000000000000,
     m 37474813564634700000000000000000000],
    [m 21457520611417500000000000000000000, 27613873828653100000000000000000000, 23259322631861000000000000000000000],
    [m 481867430578161000000000000000000, 48400412463517400000000000000000000, 34878403068180200000000000000000000],
    [m 43149541046214500000000000000000000, m 39727522863965200000000000000000000,
     m 40357045419721000000000000000000000],
    [m 13124535674170300000000000000000000, 7569076187744310000000000000000000, 53749001963035500000000000000000000],
    [m 40835582229139900000000000000000000, m 12398597420137700000000000000000000,
     26543181047657600000000000000000000],
    [m 12456126058496400000000000000000000, m 23447903004377100000000000000000000,
     36988830293557800000000000000000000],
    [11363487803308900000000000000000000, m 3305476987034430000000000000000000, 43698730368954000000000000000000000],
    [33516688463284700000000000000000000, 1770622072827530000000000000000000, 18603932202331000000000000000000000],
    [21595893332072900000000000000000000, 23852467646065100000000000000000000, m 34799111860047200000000000000000000],
    [m 12286394938977700000000000000000000, 5313763678851680000000000000000000,
     m 27314504197534300000000000000000000],
    [13802762434560600000000000000000000, 734485926751206000000000000000000, m 8193864872695200000000000000000000],
    [39053197838237300000000000000000000, m 24342866340538900000000000000000000,
     m 28129243187282200000000000000000000],
    [m 45808678443245400000000000000000000, m 25895561742666300000000000000000000,
     m 25463137907529900000000000000000000],
    [23102285643897700000000000000000000, m 25783699179727100000000000000000000, 8678030145840360000000000000000000],
    [35540688846104000000000000000000000, 14583660189636200000000000000000000, m 14284384983789900000000000000000000],
    [m 6505241861040960000000000000000000, m 31940646106035600000000000000000000,
     m 21566221160496900000000000000000000],
    [m 17865065412882000000000000000000000, m 8361295659204320000000000000000000, 9674903232992660000000000000000000],
    [1265104521534250000000000000000000, 27896063239418100000000000000000000, 15830367371877700000000000000000000],
    [m 45738278238675600000000000000000000, m 36205443810798500000000000000000000,
     m 2371578880066310000000000000000000],
    [m 5542731199877090000000000000000000, 45834946506408600000000000000000000,
     m 20836405653505900000000000000000000],
    [m 6387630000068670000000000000000000, m 41105127254854000000000000000000000,
     m 1327703130967620000000000000000000],
    [m 34137497321461800000000000000000000, 14535866523231700000000000000000000,
     m 8664488303113430000000000000000000],
    [59660778909768300000000000000000000, m 28173356231085500000000000000000000,
     m 7748272430107630000000000000000000],
    [69173147105181000000000000000000000, m 42449518959171800000000000000000000, m 966950194712262000000000000000000],
    [1078283022003020000000000000000000, 77406860420967900000000000000000000, m 6316745396431410000000000000000000],
    [18339835796290600000000000000000000, 50965017378072600000000000000000000, m 10419976056002600000000000000000000],
    [m 15668321006897400000000000000000000, 58716277773025200000000000000000000,
     m 7558004547861690000000000000000000],
    [m 72154751951562700000000000000000000, m 40692881343089800000000000000000000,
     m 7999199041063000000000000000000000],
    [56344181003998300000000000000000000, m 8745287448038950000000000000000000,
     m 37510692504863500000000000000000000],
    [m 60381753177294100000000000000000000, m 16050111666762000000000000000000000,
     m 12992270317055500000000000000000000],
    [44246171554796300000000000000000000, m 46589498400508300000000000000000000,
     m 18927283103315800000000000000000000],
    [53769545085447400000000000000000000, m 48229190516123200000000000000000000,
     m 39106124961710900000000000000000000],
    [58016749514138200000000000000000000, m 2630487459758540000000000000000000,
     m 19077652738217400000000000000000000],
    [14186344438883700000000000000000000, 70931340080506000000000000000000000, m 34771345294203300000000000000000000],
    [3802052805108170000000000000000000, m 49813195731098000000000000000000000,
     m 34745435317620200000000000000000000],
    [m 67665463382768000000000000000000000, m 16081025541391300000000000000000000,
     m 36064795881809900000000000000000000],
    [m 14837794287408100000000000000000000, 74765781148175800000000000000000000,
     m 34404996864916800000000000000000000],
    [75885389849878400000000000000000000, m 28638649562902800000000000000000000,
     m 34745634116842200000000000000000000],
    [m 40093327041092200000000000000000000, 31849093413507200000000000000000000,
     m 32768924366832200000000000000000000],
    [42940222817735200000000000000000000, 33424512668300400000000000000000000, m 35423809177187200000000000000000000],
    [m 49118202183870100000000000000000000, m 52599068171214800000000000000000000,
     m 30400191294550900000000000000000000],
    [m 82304366968194000000000000000000000, m 47522987588928000000000000000000000,
     m 34407059570463900000000000000000000],
    [83073852724424500000000000000000000, m 48944845564165200000000000000000000,
     m 32981606346024600000000000000000000],
    [284775635443480000000000000000000, 98002935469286500000000000000000000, m 33780121130847700000000000000000000]],
   [551558344381980000000000000000000, 668799331175713000000000000000000, 669939372222656000000000000000000,
    678802354666028000000000000000000, 1108982580114100000000000000000000, 1185385051403990000000000000000000,
    742946816321177000000000000000000, 926343928641625000000000000000000, 922010916817944000000000000000000,
    1345053436050420000000000000000000, 1404365766437440000000000000000000, 1096011092214680000000000000000000,
    1252639699732750000000000000000000, 1425412153096570000000000000000000, 1481848540335730000000000000000000,
    772943163310455000000000000000000, 2477748611946940000000000000000000, 1875135046618820000000000000000000,
    2486714323750520000000000000000000, 3077301259766430000000000000000000, 2384611724828320000000000000000000,
    2394028934237990000000000000000000, 3320607633857940000000000000000000, 3948045644348180000000000000000000,
    3002404111834550000000000000000000, 2651859605375600000000000000000000, 3603518537876010000000000000000000,
    2418482626601950000000000000000000, 3326170406104860000000000000000000, 4629392699770530000000000000000000,
    4262570074951460000000000000000000, 2169355448047010000000000000000000, 3367386996185730000000000000000000,
    1553314738917890000000000000000000, 3122684843223610000000000000000000, 2110073670411400000000000000000000,
    405144808936909000000000000000000, 1224476178455540000000000000000000, 2013302684316420000000000000000000,
    1223319076983060000000000000000000, 664376101021386000000000000000000, 972176210434993000000000000000000,
    1289502120703010000000000000000000, 1450392237232670000000000000000000, 673169400168803000000000000000000,
    662950441786340000000000000000000, 1233747612217940000000000000000000, 1251476806607650000000000000000000,
    864102814374049000000000000000000, 862346954119176000000000000000000, 513516282754194000000000000000000,
    1247440344954740000000000000000000, 622361500042201000000000000000000, 782176608831162000000000000000000,
    756246981707266000000000000000000, 635585327043357000000000000000000, 518644179936464000000000000000000]⟩

/-- `tetrahedron_table_orig[10]` (xg_quad_data.py 16845-16998). -/
def xgTet_10 : XgTableRule :=
  ⟨[
    [41354419261084400000000000000000000, m 24675077653130900000000000000000000,
     m 2246678712539800000000000000000000],
    [692034457414863000000000000000000, 48151516465391100000000000000000000, m 2246678712556190000000000000000000],
    [m 42046453718497300000000000000000000, m 23476438812276800000000000000000000,
     m 2246678712549980000000000000000000],
    [12128270190507400000000000000000000, m 36455744613607600000000000000000000,
     m 36749854306727300000000000000000000],
    [25507465854022700000000000000000000, 28731262395667900000000000000000000, m 36749854306727000000000000000000000],
    [m 37635736044463800000000000000000000, 7724482217897550000000000000000000,
     m 36749854306739200000000000000000000],
    [m 47935788154157900000000000000000, 11050236014926900000000000000000000, 91688847630809600000000000000000000],
    [m 9545817212686220000000000000000000, m 5566631617759850000000000000000000, 91688847630773100000000000000000000],
    [9593753000785580000000000000000000, m 5483604397160680000000000000000000, 91688847630857800000000000000000000],
    [31263014011765600000000000000000000, 51567677095122100000000000000000000, m 35533365581984100000000000000000000],
    [m 60290425384379500000000000000000000, 1290725785546670000000000000000000,
     m 35533365581981900000000000000000000],
    [29027411372670300000000000000000000, m 52858402880633900000000000000000000,
     m 35533365581983500000000000000000000],
    [17931249629747000000000000000000000, 28233246005220000000000000000000000, m 19831658082725400000000000000000000],
    [m 33416333086706800000000000000000000, 1412294698335290000000000000000000,
     m 19831658082756300000000000000000000],
    [15485083456968700000000000000000000, m 29645540703597300000000000000000000,
     m 19831658082724500000000000000000000],
    [40066666040114900000000000000000000, 21619930778004900000000000000000000, m 14478584054505700000000000000000000],
    [m 38756742301871400000000000000000000, 23888785246696700000000000000000000,
     m 14478584054518700000000000000000000],
    [m 1309923738259360000000000000000000, m 45508716024704900000000000000000000,
     m 14478584054519700000000000000000000],
    [m 11597498981253200000000000000000000, 79373557131870600000000000000000000,
     m 35423932811080700000000000000000000],
    [m 62940767374243500000000000000000000, m 49730507304073100000000000000000000,
     m 35423932811075200000000000000000000],
    [74538266355539200000000000000000000, m 29643049827766500000000000000000000,
     m 35423932811075900000000000000000000],
    [m 14651658878484300000000000000000000, 62073523348533600000000000000000000,
     m 12515119273659100000000000000000000],
    [m 46431418682992200000000000000000000, m 43725470470616200000000000000000000,
     m 12515119273647400000000000000000000],
    [61083077561476400000000000000000000, m 18348052877911700000000000000000000,
     m 12515119273643000000000000000000000],
    [15267732269863300000000000000000000, 61534901091359000000000000000000000, m 13871777973984300000000000000000000],
    [m 60924653699413100000000000000000000, m 17545206541794800000000000000000000,
     m 13871777973988300000000000000000000],
    [45656921429529400000000000000000000, m 43989694549557900000000000000000000,
     m 13871777973966700000000000000000000],
    [m 23498362886520400000000000000000000, m 50602303514631100000000000000000000,
     m 35491378657464900000000000000000000],
    [55572061776956500000000000000000000, 4950972550220370000000000000000000, m 35491378657460800000000000000000000],
    [m 32073698890380800000000000000000000, 45651330964450400000000000000000000,
     m 35491378657463700000000000000000000],
    [26171907921642300000000000000000000, 12068459539904000000000000000000000, 8659130596210640000000000000000000],
    [m 23537546506951300000000000000000000, 16631307355681300000000000000000000, 8659130596171440000000000000000000],
    [m 2634361414712090000000000000000000, m 28699766895620700000000000000000000, 8659130596207920000000000000000000],
    [m 15187078424149000000000000000000000, 37538079513561000000000000000000000, 25976875303201000000000000000000000],
    [m 24915391255967600000000000000000000, m 31921435481356600000000000000000000,
     25976875303213500000000000000000000],
    [40102469680088700000000000000000000, m 5616644032198330000000000000000000, 25976875303223100000000000000000000],
    [21083189437295200000000000000000000, m 13092457023013100000000000000000000, 26306320811424000000000000000000000],
    [796805661212086000000000000000000, 24804806156968300000000000000000000, 26306320811438900000000000000000000],
    [m 21879995098508400000000000000000000, m 11712349133981200000000000000000000,
     26306320811447600000000000000000000],
    [m 64518453411499600000000000000000000, m 29485096230678300000000000000000000,
     m 34538330891840300000000000000000000],
    [57794069074581200000000000000000000, m 41132071551936000000000000000000000,
     m 34538330891835500000000000000000000],
    [6724384336957470000000000000000000, 70617167782565900000000000000000000, m 34538330891835300000000000000000000],
    [m 11170270031112400000000000000000000, 37827811318509900000000000000000000,
     m 23278895342989800000000000000000000],
    [m 27174710555839600000000000000000000, m 28587643273347200000000000000000000,
     m 23278895342974200000000000000000000],
    [38344980586973900000000000000000000, m 9240168045211910000000000000000000,
     m 23278895342968000000000000000000000],
    [23538646310649100000000000000000000, m 32634975236111900000000000000000000, 24152681205786800000000000000000000],
    [16493394451018100000000000000000000, 36702553293771800000000000000000000, 24152681205762100000000000000000000],
    [m 40032040761677600000000000000000000, m 4067578057659140000000000000000000,
     24152681205766600000000000000000000],
    [78138664743505500000000000000000000, m 45264685203487900000000000000000000,
     m 21330680032200900000000000000000000],
    [131034908770753000000000000000000, 90302411287451000000000000000000000, m 21330680032244200000000000000000000],
    [m 78269699652326400000000000000000000, m 45037726083959900000000000000000000,
     m 21330680032278200000000000000000000],
    [m 14464864859422000000000000000000000, 8558659569093130000000000000000000, 60558165067355000000000000000000000],
    [m 179584179474888000000000000000000, m 16806270215118200000000000000000000, 60558165067368100000000000000000000],
    [14644449038883400000000000000000000, 8247610646027730000000000000000000, 60558165067377000000000000000000000],
    [56628974115156800000000000000000000, m 32907154550894800000000000000000000, 14141316841708100000000000000000000],
    [183944749757621000000000000000000, 65495707449456200000000000000000000, 14141316841655700000000000000000000],
    [m 56812918864965200000000000000000000, m 32588552898556000000000000000000000,
     14141316841623900000000000000000000],
    [195995882040799000000000000000000, 35009344240963700000000000000000000, 55935383469979700000000000000000000],
    [m 30416979423550400000000000000000000, m 17334934707607300000000000000000000,
     55935383469949700000000000000000000],
    [30220983541455200000000000000000000, m 17674409533346500000000000000000000, 55935383470032800000000000000000000],
    [m 7138061627291870000000000000000000, 39630423039437900000000000000000000,
     m 39610078790242700000000000000000000],
    [m 30751922301210200000000000000000000, m 25996954222760300000000000000000000,
     m 39610078790237500000000000000000000],
    [37889983928565300000000000000000000, m 13633468816722000000000000000000000,
     m 39610078790235000000000000000000000],
    [m 3187848524903900000000000000000000, 106707438509449000000000000000000000,
     m 39507410904804200000000000000000000],
    [m 90817428259481200000000000000000000, m 56114477060661700000000000000000000,
     m 39507410904824600000000000000000000],
    [94005276784335800000000000000000000, m 50592961448709600000000000000000000,
     m 39507410904760200000000000000000000],
    [9976676831438750000000000000000000, 94721800664262600000000000000000000, m 37794922085720500000000000000000000],
    [m 87019824083157200000000000000000000, m 38720844750680600000000000000000000,
     m 37794922085721900000000000000000000],
    [77043147251772200000000000000000000, m 56000955913528100000000000000000000,
     m 37794922085718600000000000000000000],
    [m 820775777814033000000, m 14667391115692300000000, m 3464548867786860000000000000000000],
    [m 34784175972342300000000, 2419854376387840000000, 120100985698529000000000000000000000],
    [47909520167749400000000, m 15524883409377100000000, 40681238659126500000000000000000000],
    [13747877127650600000000, m 23063236052196400000000, m 33414077860783800000000000000000000],
    [14203584573946100000000, m 17061743688657600000000, 56994752059008200000000000000000000]],
   [1948842229205630000000000000000000, 1948842229209620000000000000000000, 1948842229209300000000000000000000,
    1167948509387570000000000000000000, 1167948509387890000000000000000000, 1167948509385400000000000000000000,
    624172197526661000000000000000000, 624172197527072000000000000000000, 624172197526365000000000000000000,
    578805012499284000000000000000000, 578805012499533000000000000000000, 578805012497432000000000000000000,
    2395402083263860000000000000000000, 2395402083263220000000000000000000, 2395402083262730000000000000000000,
    1184933331206540000000000000000000, 1184933331205320000000000000000000, 1184933331203500000000000000000000,
    658548439060982000000000000000000, 658548439061438000000000000000000, 658548439061556000000000000000000,
    1239654181091800000000000000000000, 1239654181091100000000000000000000, 1239654181090900000000000000000000,
    1292280510423850000000000000000000, 1292280510423510000000000000000000, 1292280510423060000000000000000000,
    861537010564474000000000000000000, 861537010564896000000000000000000, 861537010565374000000000000000000,
    2529268615100920000000000000000000, 2529268615101520000000000000000000, 2529268615101820000000000000000000,
    1059923965283040000000000000000000, 1059923965281860000000000000000000, 1059923965282570000000000000000000,
    2648592188370440000000000000000000, 2648592188372750000000000000000000, 2648592188373230000000000000000000,
    1178839305271430000000000000000000, 1178839305270010000000000000000000, 1178839305270650000000000000000000,
    2576065352686690000000000000000000, 2576065352687010000000000000000000, 2576065352687930000000000000000000,
    1114113973854800000000000000000000, 1114113973858630000000000000000000, 1114113973855600000000000000000000,
    673992636364470000000000000000000, 673992636363803000000000000000000, 673992636364011000000000000000000,
    1571137476305300000000000000000000, 1571137476303060000000000000000000, 1571137476303430000000000000000000,
    959306888489052000000000000000000, 959306888489720000000000000000000, 959306888489236000000000000000000,
    1074068668563870000000000000000000, 1074068668563430000000000000000000, 1074068668564010000000000000000000,
    774239246773105000000000000000000, 774239246774146000000000000000000, 774239246774322000000000000000000,
    74491258912825500000000000000000, 74491258913403000000000000000000, 74491258913855600000000000000000,
    159576637662907000000000000000000, 159576637662087000000000000000000, 159576637661854000000000000000000,
    4391465167043930000000000000000000, 36007415613448800000000000000000, 1108282011979690000000000000000000,
    2631527838118750000000000000000000, 1076402571837850000000000000000000]⟩

/-- `tetrahedron_table_orig[11]` (xg_quad_data.py 16999-17194). -/
def xgTet_11 : XgTableRule :=
  ⟨[
    [9651177776899700000000000000000000, 76337951938333900000000000000000000, m 18682688631227000000000000000000000],
    [m 70936194539930400000000000000000000, m 29810810837952900000000000000000000,
     m 18682688631230500000000000000000000],
    [61285016762979400000000000000000000, m 46527141100371500000000000000000000,
     m 18682688631127100000000000000000000],
    [m 452783642439655000000000000000000, 53521266845051500000000000000000000, 41941364567102800000000000000000000],
    [m 46124384909265800000000000000000000, m 27152755559288200000000000000000000,
     41941364567175200000000000000000000],
    [46577168551893700000000000000000000, m 26368511285743400000000000000000000, 41941364567110100000000000000000000],
    [2438655531438610000000000000000000, m 38597667734599300000000000000000000, 5030086583798780000000000000000000],
    [32207233019230400000000000000000000, 21410771508705800000000000000000000, 5030086583729960000000000000000000],
    [m 34645888550817700000000000000000000, 17186896225885400000000000000000000, 5030086583707340000000000000000000],
    [m 12675006645851600000000000000000000, 69302911143828900000000000000000000,
     m 15059561451941000000000000000000000],
    [m 53680578283787300000000000000000000, m 45628333320368200000000000000000000,
     m 15059561451902400000000000000000000],
    [66355584929703800000000000000000000, m 23674577823438900000000000000000000,
     m 15059561451924300000000000000000000],
    [m 9547972451775020000000000000000000, 32729712659905300000000000000000000,
     m 17252757854239000000000000000000000],
    [m 23570776396144400000000000000000000, m 24633643027864600000000000000000000,
     m 17252757854298500000000000000000000],
    [33118748847925300000000000000000000, m 8096069632058690000000000000000000,
     m 17252757854149100000000000000000000],
    [m 790832808659181000000000000000000, 91157421497979800000000000000000000, m 17098106154201900000000000000000000],
    [m 78549226356410400000000000000000000, m 46263592051449600000000000000000000,
     m 17098106154217900000000000000000000],
    [79340059164988200000000000000000000, m 44893829446490100000000000000000000,
     m 17098106154080400000000000000000000],
    [m 14946444320701500000000000000000000, 45062430768804600000000000000000000, 7674742839401760000000000000000000],
    [m 31551987641729100000000000000000000, m 35475215862311000000000000000000000,
     7674742839470600000000000000000000],
    [46498431962306600000000000000000000, m 9587214906505580000000000000000000, 7674742839681360000000000000000000],
    [11652768607855800000000000000000000, 39909038378325200000000000000000000, m 37201345699233300000000000000000000],
    [m 40388625380147500000000000000000000, m 9862925550286260000000000000000000,
     m 37201345699228900000000000000000000],
    [28735856772271400000000000000000000, m 30046112827989900000000000000000000,
     m 37201345699214200000000000000000000],
    [m 204775506709099000000000000000000, 10747476620910300000000000000000000, 93429606650194500000000000000000000],
    [m 9205200026937790000000000000000000, m 5551079101315480000000000000000000, 93429606650218800000000000000000000],
    [9409975533966560000000000000000000, m 5196397519770710000000000000000000, 93429606649532000000000000000000000],
    [34683545748858100000000000000000000, m 39450869275980000000000000000000000,
     m 3611736289802840000000000000000000],
    [16823682119893100000000000000000000, 49762266349945200000000000000000000, m 3611736289860150000000000000000000],
    [m 51507227868901300000000000000000000, m 10311397073921100000000000000000000,
     m 3611736289902880000000000000000000],
    [m 11443197274181800000000000000000000, 87671528768355300000000000000000000,
     m 35355603674755200000000000000000000],
    [m 70204172464894900000000000000000000, m 53745863924108000000000000000000000,
     m 35355603674762000000000000000000000],
    [81647369739082000000000000000000000, m 33925664844211000000000000000000000,
     m 35355603674768800000000000000000000],
    [m 30487025675930000000000000000000000, 36228510995562300000000000000000000,
     m 19261143521970800000000000000000000],
    [m 16131298025474600000000000000000000, m 44516794218976800000000000000000000,
     m 19261143521980300000000000000000000],
    [46618323701465200000000000000000000, 8288283223322350000000000000000000, m 19261143521970900000000000000000000],
    [21016403082595100000000000000000000, m 49901948721561200000000000000000000,
     m 28185235196410600000000000000000000],
    [32708153749946600000000000000000000, 43151713326464000000000000000000000, m 28185235196430900000000000000000000],
    [m 53724556832506800000000000000000000, 6750235395125620000000000000000000,
     m 28185235196483000000000000000000000],
    [m 6404070599046530000000000000000000, 70692107895172200000000000000000000,
     m 38885527614649800000000000000000000],
    [m 58019125984726400000000000000000000, m 40892141773912400000000000000000000,
     m 38885527614645200000000000000000000],
    [64423196583705400000000000000000000, m 29799966121196100000000000000000000,
     m 38885527614540500000000000000000000],
    [547000964710360000000000000000000, 28753422429639800000000000000000000, 66548480631273200000000000000000000],
    [m 25174694752140900000000000000000000, m 13902994483459200000000000000000000,
     66548480631307800000000000000000000],
    [24627693787777700000000000000000000, m 14850427946387400000000000000000000, 66548480630788900000000000000000000],
    [1008461981380960000000000000000000, m 20575203177881300000000000000000000, 1794683181875780000000000000000000],
    [17314417649292900000000000000000000, 11160955283682500000000000000000000, 1794683181975160000000000000000000],
    [m 18322879630831600000000000000000000, 9414247894240610000000000000000000, 1794683181866870000000000000000000],
    [17489820784458000000000000000000000, 33722133771876800000000000000000000, m 22727944534311100000000000000000000],
    [m 37949134908495100000000000000000000, m 1714437779017450000000000000000000,
     m 22727944534329800000000000000000000],
    [20459314124070600000000000000000000, m 32007695992898700000000000000000000,
     m 22727944534292000000000000000000000],
    [1065391638487670000000000000000000, 39248519525557100000000000000000000, 8078480103364900000000000000000000],
    [m 34522910789325300000000000000000000, m 18701603538808100000000000000000000,
     8078480103319570000000000000000000],
    [33457519150582400000000000000000000, m 20546915986683500000000000000000000, 8078480103608090000000000000000000],
    [m 70836868268856200000000000000000, m 24225984881142300000000000000000000, 34061119425516500000000000000000000],
    [21015736772912100000000000000000000, 12051645913155700000000000000000000, 34061119425510900000000000000000000],
    [m 20944899904668900000000000000000000, 12174338968097900000000000000000000, 34061119425370200000000000000000000],
    [m 28512730488909600000000000000000000, 54191217345275000000000000000000000,
     m 35491312360094900000000000000000000],
    [m 32674605638550100000000000000000000, m 51788357607287200000000000000000000,
     m 35491312360110400000000000000000000],
    [61187336127468500000000000000000000, m 2402859737978140000000000000000000,
     m 35491312360124900000000000000000000],
    [m 232320939692072000000000000000000, 25130733920813900000000000000000000, 42130576765870500000000000000000000],
    [m 21647693521367100000000000000000000, m 12766562795978900000000000000000000,
     42130576765847400000000000000000000],
    [21880014460960100000000000000000000, m 12364171124716700000000000000000000, 42130576766195400000000000000000000],
    [m 2051577904029300000000000000000000, 65510984996024900000000000000000000,
     m 24302508737577100000000000000000000],
    [m 55708388281473000000000000000000000, m 34532211080761700000000000000000000,
     m 24302508737551200000000000000000000],
    [57759966185434800000000000000000000, m 30978773915258800000000000000000000,
     m 24302508737367800000000000000000000],
    [m 302645519699800000000000000000000, m 16660218641855700000000000000000000, 69395070057672100000000000000000000],
    [14579495336265800000000000000000000, 8068010612598300000000000000000000, 69395070057684500000000000000000000],
    [m 14276849816669100000000000000000000, 8592208029345210000000000000000000, 69395070057570100000000000000000000],
    [m 19735385491409400000000000000000000, 29665614493757700000000000000000000,
     m 35478959071846100000000000000000000],
    [m 15823483024736400000000000000000000, m 31924152435905700000000000000000000,
     m 35478959071860000000000000000000000],
    [35558868516149000000000000000000000, 2258537942164060000000000000000000, m 35478959071849500000000000000000000],
    [10688577443622600000000000000000000, 41472886921593300000000000000000000, 32736342046922500000000000000000000],
    [m 41260862364197500000000000000000000, m 11479863864300900000000000000000000,
     32736342046915400000000000000000000],
    [30572284920517800000000000000000000, m 29993023057307500000000000000000000, 32736342046978500000000000000000000],
    [m 30033640829424100000000000000000000, m 28823352650917400000000000000000000,
     37974790979879300000000000000000000],
    [39978576032569700000000000000000000, m 11598219600866700000000000000000000, 37974790980191500000000000000000000],
    [m 9944935203203160000000000000000000, 40421572251939600000000000000000000, 37974790979840700000000000000000000],
    [1221835246093990000000000000000000, 100907701884453000000000000000000000, m 36266720206888700000000000000000000],
    [m 87999550892497800000000000000000000, m 49395710579872500000000000000000000,
     m 36266720206893800000000000000000000],
    [86777715646392800000000000000000000, m 51511991304577200000000000000000000,
     m 36266720206864300000000000000000000],
    [15345688386501200000000000000000000, 74896501751785100000000000000000000, m 36566238606002600000000000000000000],
    [m 72535117364884300000000000000000000, m 24158494894627400000000000000000000,
     m 36566238606000400000000000000000000],
    [57189428978406000000000000000000000, m 50738006857156300000000000000000000,
     m 36566238605984100000000000000000000],
    [223545621647398000000000000000000, 66671928058074100000000000000000000, 10569533606824100000000000000000000],
    [m 57851356228407300000000000000000000, m 33142367841781300000000000000000000,
     10569533606827800000000000000000000],
    [57627810606585100000000000000000000, m 33529560216200600000000000000000000, 10569533607078500000000000000000000],
    [9436416592156350000000000000000000, m 51585014138478300000000000000000000,
     m 40151223529902700000000000000000000],
    [39955724402440000000000000000000000, 33964683558688700000000000000000000, m 40151223529904300000000000000000000],
    [m 49392140994530400000000000000000000, 17620330579836300000000000000000000,
     m 40151223529954800000000000000000000],
    [157895181731732000000000, m 80695262652248900000000, 111822360907102000000000000000000000],
    [m 72345088999772100000000, 45968516665500400000000, 66641045836755600000000000000000000],
    [m 11950105030522400000000, 11562543868011500000000, m 38099908580523000000000000000000000],
    [12731938640884900000000, 5765654131403360000000, m 22539455026822800000000000000000000],
    [m 13983130452621000000000, m 12261985879302400000000, 26049409997557500000000000000000000]],
   [600845159732900000000000000000000, 600845159733409000000000000000000, 600845159734557000000000000000000,
    137982881729824000000000000000000, 137982881730247000000000000000000, 137982881724185000000000000000000,
    920652231770260000000000000000000, 920652231774636000000000000000000, 920652231767883000000000000000000,
    661716072025893000000000000000000, 661716072024581000000000000000000, 661716072024213000000000000000000,
    1856561000081450000000000000000000, 1856561000077810000000000000000000, 1856561000092550000000000000000000,
    298677403005469000000000000000000, 298677403005462000000000000000000, 298677403007424000000000000000000,
    1102878767900120000000000000000000, 1102878767904990000000000000000000, 1102878767915030000000000000000000,
    1059928861008340000000000000000000, 1059928861007870000000000000000000, 1059928861011450000000000000000000,
    409142461938696000000000000000000, 409142461937905000000000000000000, 409142461947846000000000000000000,
    1171819691079050000000000000000000, 1171819691079350000000000000000000, 1171819691078020000000000000000000,
    250403187559638000000000000000000, 250403187561624000000000000000000, 250403187560628000000000000000000,
    1216114263350160000000000000000000, 1216114263349710000000000000000000, 1216114263351990000000000000000000,
    782992696918182000000000000000000, 782992696917981000000000000000000, 782992696920705000000000000000000,
    484839331593464000000000000000000, 484839331594336000000000000000000, 484839331606112000000000000000000,
    597173171055007000000000000000000, 597173171055419000000000000000000, 597173171042218000000000000000000,
    2600671075854560000000000000000000, 2600671075855070000000000000000000, 2600671075855780000000000000000000,
    1890365261443690000000000000000000, 1890365261439510000000000000000000, 1890365261440520000000000000000000,
    2041098864392530000000000000000000, 2041098864391600000000000000000000, 2041098864395930000000000000000000,
    1636464416593780000000000000000000, 1636464416587390000000000000000000, 1636464416590380000000000000000000,
    572964737547824000000000000000000, 572964737548000000000000000000000, 572964737546058000000000000000000,
    1641509167149200000000000000000000, 1641509167150630000000000000000000, 1641509167147150000000000000000000,
    1433502997428490000000000000000000, 1433502997429100000000000000000000, 1433502997428190000000000000000000,
    678988863033392000000000000000000, 678988863030666000000000000000000, 678988863030576000000000000000000,
    1469153197406040000000000000000000, 1469153197403500000000000000000000, 1469153197407170000000000000000000,
    681230704214779000000000000000000, 681230704214552000000000000000000, 681230704208426000000000000000000,
    482110236270034000000000000000000, 482110236255637000000000000000000, 482110236269031000000000000000000,
    263398684352695000000000000000000, 263398684352256000000000000000000, 263398684353644000000000000000000,
    572950098933217000000000000000000, 572950098933272000000000000000000, 572950098935171000000000000000000,
    851444680345821000000000000000000, 851444680346480000000000000000000, 851444680349955000000000000000000,
    308329306953878000000000000000000, 308329306953569000000000000000000, 308329306949863000000000000000000,
    104767813052089000000000000000000, 1696700601544910000000000000000000, 1097194774902280000000000000000000,
    2806232769415220000000000000000000, 2548279781284250000000000000000000]⟩

/-- `tetrahedron_table_orig[12]` (xg_quad_data.py 17195-17444). -/
def xgTet_12 : XgTableRule :=
  ⟨[
    [39585440989126700000000000000000000, 33385155553877200000000000000000000, m 39055774516598100000000000000000000],
    [m 48705113313516500000000000000000000, 17589419739655400000000000000000000,
     m 39055774516598100000000000000000000],
    [9119672324389510000000000000000000, m 50974575293533700000000000000000000,
     m 39055774516598900000000000000000000],
    [m 59264318049465900000000000000000000, m 25753288941198100000000000000000000,
     m 419476157759784000000000000000000],
    [51935161478811500000000000000000000, m 38447760498199200000000000000000000, m 419476157760429000000000000000000],
    [7329156570653900000000000000000000, 64201049439397300000000000000000000, m 419476157758415000000000000000000],
    [m 4544141850245140000000000000000000, 34458584520482600000000000000000000, 18740270218560000000000000000000000],
    [m 27569938648069300000000000000000000, m 21164634540954000000000000000000000,
     18740270218561500000000000000000000],
    [32114080498314400000000000000000000, m 13293949979529500000000000000000000, 18740270218562100000000000000000000],
    [m 34138606308621600000000000000000000, m 40897326238796400000000000000000000,
     m 30711020133902300000000000000000000],
    [52487426623969400000000000000000000, m 9116237193661330000000000000000000,
     m 30711020133902800000000000000000000],
    [m 18348820315348800000000000000000000, 50013563432458100000000000000000000,
     m 30711020133902800000000000000000000],
    [m 13197224311392000000000000000000000, m 24378240864195200000000000000000000,
     m 2701961597911840000000000000000000],
    [27710788043666600000000000000000000, 759988918990409000000000000000000, m 2701961597911510000000000000000000],
    [m 14513563732273500000000000000000000, 23618251945205300000000000000000000,
     m 2701961597910550000000000000000000],
    [29167191569410300000000000000000000, 57256359932728400000000000000000000, m 36502238745638400000000000000000000],
    [m 64169058014673900000000000000000000, m 3368651110208420000000000000000000,
     m 36502238745638400000000000000000000],
    [35001866445262000000000000000000000, m 53887708822520300000000000000000000,
     m 36502238745638300000000000000000000],
    [m 4070439485536640000000000000000000, 57948977065600000000000000000000000, m 8612392000622990000000000000000000],
    [m 48150066519363300000000000000000000, m 32499592531842100000000000000000000,
     m 8612392000621880000000000000000000],
    [52220506004900500000000000000000000, m 25449384533757800000000000000000000,
     m 8612392000621740000000000000000000],
    [m 9820856549819250000000000000000000, 55045942167958400000000000000000000, 10707912217301500000000000000000000],
    [m 42760756017790700000000000000000000, m 36028082343045600000000000000000000,
     10707912217302000000000000000000000],
    [52581612567610500000000000000000000, m 19017859824912400000000000000000000, 10707912217302200000000000000000000],
    [21840890336816100000000000000000000, 41159867751953900000000000000000000, 3230374822491170000000000000000000],
    [m 46565936258007900000000000000000000, m 1665168003024590000000000000000000, 3230374822490630000000000000000000],
    [24725045921192300000000000000000000, m 39494699748929300000000000000000000, 3230374822491060000000000000000000],
    [m 660677749114476000000000000000000, m 14306207779286600000000000000000000, 32898271993753700000000000000000000],
    [12719878243237700000000000000000000, 6580940175195600000000000000000000, 32898271993752700000000000000000000],
    [m 12059200494123800000000000000000000, 7725267604091000000000000000000000, 32898271993753900000000000000000000],
    [m 18623466749427700000000000000000000, 23426973950176300000000000000000000,
     m 20023244699879200000000000000000000],
    [m 10976621199934500000000000000000000, m 27841882286628000000000000000000000,
     m 20023244699880400000000000000000000],
    [29600087949363100000000000000000000, 4414908336450660000000000000000000, m 20023244699880100000000000000000000],
    [m 58904027542211800000000000000000000, m 40175543643672900000000000000000000,
     m 27718259708111600000000000000000000],
    [64245055177375900000000000000000000, m 30924612414936500000000000000000000,
     m 27718259708111800000000000000000000],
    [m 5341027635165640000000000000000000, 71100156058608600000000000000000000,
     m 27718259708111800000000000000000000],
    [m 1196400210307820000000000000000000, 90852537359877100000000000000000000,
     m 37941459521307600000000000000000000],
    [m 78082405246774900000000000000000000, m 46462381655158300000000000000000000,
     m 37941459521307800000000000000000000],
    [79278805457082600000000000000000000, m 44390155704719500000000000000000000,
     m 37941459521307800000000000000000000],
    [6235239461686300000000000000000000, 47302963953829900000000000000000000, 28875921978833600000000000000000000],
    [m 44083188189160200000000000000000000, m 18251606204416000000000000000000000,
     28875921978832600000000000000000000],
    [37847948727475000000000000000000000, m 29051357749414900000000000000000000, 28875921978832600000000000000000000],
    [22359038630935600000000000000000000, m 6857456848032080000000000000000000, 73079530505631600000000000000000000],
    [m 5240787479715300000000000000000000, 22792223882604100000000000000000000, 73079530505632000000000000000000000],
    [m 17118251151220800000000000000000000, m 15934767034571500000000000000000000,
     73079530505631400000000000000000000],
    [16664770503318200000000000000000000, 21901402350855200000000000000000000, 41249182463286100000000000000000000],
    [m 27299556066004500000000000000000000, 3481413428683420000000000000000000, 41249182463285200000000000000000000],
    [10634785562687400000000000000000000, m 25382815779539000000000000000000000, 41249182463285300000000000000000000],
    [m 7415049139037600000000000000000000, m 4251600332346970000000000000000000, 98390201212362200000000000000000000],
    [7389518464069890000000000000000000, m 4295820758543230000000000000000000, 98390201212361700000000000000000000],
    [25530674968011900000000000000000, 8547421090889230000000000000000000, 98390201212363800000000000000000000],
    [19559087172280400000000000000000000, m 24473221310445400000000000000000000, 6829751492607600000000000000000000],
    [11414887781145500000000000000000000, 29175277021253100000000000000000000, 6829751492606400000000000000000000],
    [m 30973974953424400000000000000000000, m 4702055710805700000000000000000000, 6829751492607450000000000000000000],
    [m 1802680258591540000000000000000000, 26002837042451400000000000000000000, 50902677121085000000000000000000000],
    [m 21617777319934500000000000000000000, m 14562585420066500000000000000000000,
     50902677121086700000000000000000000],
    [23420457578525400000000000000000000, m 11440251622384100000000000000000000, 50902677121086600000000000000000000],
    [m 15326138117029200000000000000000000, 29644537697514600000000000000000000, 38516178552585300000000000000000000],
    [m 18009853670977200000000000000000000, m 28095093800013400000000000000000000,
     38516178552585700000000000000000000],
    [33335991788007800000000000000000000, m 1549443897500670000000000000000000, 38516178552585100000000000000000000],
    [577633666523352000000000000000000, 77757591937258900000000000000000000, 2348420776072120000000000000000000],
    [m 67628866788032100000000000000000000, m 38378550539339000000000000000000000,
     2348420776071210000000000000000000],
    [67051233121508800000000000000000000, m 39379041397920100000000000000000000, 2348420776071100000000000000000000],
    [m 8304590790913340000000000000000000, m 36243918926601200000000000000000000, 7747281662419680000000000000000000],
    [35540449918596900000000000000000000, 10929972870335000000000000000000000, 7747281662420320000000000000000000],
    [m 27235859127683600000000000000000000, 25313946056266300000000000000000000, 7747281662419570000000000000000000],
    [54238453159679300000000000000000000, m 2145827819997080000000000000000000,
     m 16303385660846600000000000000000000],
    [m 25260885175574400000000000000000000, 48044792208254000000000000000000000,
     m 16303385660847200000000000000000000],
    [m 28977567984105300000000000000000000, m 45898964388255900000000000000000000,
     m 16303385660847000000000000000000000],
    [55734319673101000000000000000000000, 9342132288033100000000000000000000, m 35845623956671100000000000000000000],
    [m 35957683723501200000000000000000000, 43596270555532500000000000000000000,
     m 35845623956671100000000000000000000],
    [m 19776635949599300000000000000000000, m 52938402843564000000000000000000000,
     m 35845623956670800000000000000000000],
    [47313662387698600000000000000000000, m 25035851202112900000000000000000000, 36986262196132100000000000000000000],
    [m 1975148047452080000000000000000000, 53492759174882800000000000000000000, 36986262196133000000000000000000000],
    [m 45338514340246200000000000000000000, m 28456907972770800000000000000000000,
     36986262196131900000000000000000000],
    [31532193244274200000000000000000000, m 15325251067065900000000000000000000,
     m 36672982288756900000000000000000000],
    [m 2494039878683620000000000000000000, 34970305920112700000000000000000000,
     m 36672982288757100000000000000000000],
    [m 29038153365589500000000000000000000, m 19645054853048600000000000000000000,
     m 36672982288757200000000000000000000],
    [m 1831653764008920000000000000000000, 108643540500343000000000000000000000,
     m 37900813371663800000000000000000000],
    [m 93172239148376400000000000000000000, m 55908028940741200000000000000000000,
     m 37900813371664100000000000000000000],
    [95003892912385700000000000000000000, m 52735511559602700000000000000000000,
     m 37900813371664200000000000000000000],
    [m 66999745537138800000000000000000000, m 22779889775462300000000000000000000,
     m 21972270608144200000000000000000000],
    [53227836009529100000000000000000000, m 46633536794524200000000000000000000,
     m 21972270608144300000000000000000000],
    [13771909527609700000000000000000000, 69413426569985700000000000000000000, m 21972270608143700000000000000000000],
    [27827832827809700000000000000000000, 21081720810696200000000000000000000, m 36546458690528600000000000000000000],
    [m 32171222191459100000000000000000000, 13558749755800600000000000000000000,
     m 36546458690528600000000000000000000],
    [4343389363650290000000000000000000, m 34640470566498900000000000000000000,
     m 36546458690528700000000000000000000],
    [9746770878915400000000000000000000, 37485593711103500000000000000000000, m 20147263262335600000000000000000000],
    [m 37336861869216100000000000000000000, m 10301845669545000000000000000000000,
     m 20147263262335300000000000000000000],
    [27590090990300900000000000000000000, m 27183748041559400000000000000000000,
     m 20147263262335000000000000000000000],
    [1089081465931240000000000000000000, 94003261589227300000000000000000000, m 24644052857514800000000000000000000],
    [m 81953753307831000000000000000000000, m 46058458578326800000000000000000000,
     m 24644052857515500000000000000000000],
    [80864671841899700000000000000000000, m 47944803010901100000000000000000000,
     m 24644052857515600000000000000000000],
    [m 12519388860303300000000000000000000, 3267824275100510000000000000000000, 73753957198558500000000000000000000],
    [3429675592810750000000000000000000, m 12476020930429100000000000000000000, 73753957198558400000000000000000000],
    [9089713267491690000000000000000000, 9208196655328470000000000000000000, 73753957198559000000000000000000000],
    [48688527238868200000000000000000000, m 41947004842578800000000000000000000,
     m 36892402612237600000000000000000000],
    [11982908186908000000000000000000000, 63139003882998900000000000000000000, m 36892402612237500000000000000000000],
    [m 60671435425775800000000000000000000, m 21191999040420800000000000000000000,
     m 36892402612237500000000000000000000],
    [33825404658352800000000000000000000, 33627990935188900000000000000000000, m 22025086002609000000000000000000000],
    [m 46035396757283000000000000000000000, 12479664259827700000000000000000000,
     m 22025086002609400000000000000000000],
    [12209992098930100000000000000000000, m 46107655195016700000000000000000000,
     m 22025086002609100000000000000000000],
    [m 9480210749913890000000000000000000, 79966432708163000000000000000000000,
     m 15947203660917700000000000000000000],
    [m 64512856800331200000000000000000000, m 48193319696737400000000000000000000,
     m 15947203660917200000000000000000000],
    [73993067550245000000000000000000000, m 31773113011425300000000000000000000,
     m 15947203660917400000000000000000000],
    [11401130677616000000000000000000000, 92175673400368200000000000000000000, m 37588860736178700000000000000000000],
    [m 85527040114465300000000000000000000, m 36214167901503100000000000000000000,
     m 37588860736178900000000000000000000],
    [74125909436848500000000000000000000, m 55961505498866300000000000000000000,
     m 37588860736178900000000000000000000],
    [m 16584218015568000000000000000000000, 81696294515769400000000000000000000,
     m 35427006210027100000000000000000000],
    [m 62458957437927300000000000000000000, m 55210501361266200000000000000000000,
     m 35427006210027000000000000000000000],
    [79043175453495800000000000000000000, m 26485793154503500000000000000000000,
     m 35427006210027000000000000000000000],
    [25574130564935700000000000000000000, m 18542203994499600000000000000000000, 68955890919122500000000000000000000],
    [3270954418922730000000000000000000, 31418948746183900000000000000000000, 68955890919123700000000000000000000],
    [m 28845084983858700000000000000000000, m 12876744751684200000000000000000000,
     68955890919122800000000000000000000],
    [m 16131575695716400000000000000000000, 62240023172200800000000000000000000,
     m 40739166924703500000000000000000000],
    [m 45835653351400300000000000000000000, m 45090365941662900000000000000000000,
     m 40739166924703700000000000000000000],
    [61967229047116700000000000000000000, m 17149657230538400000000000000000000,
     m 40739166924704000000000000000000000],
    [215699898765183000000, m 174736370992125000000, 64821170535755100000000000000000000],
    [215768577391029000000, m 784133983875845000000, 119860353953893000000000000000000000],
    [932976159332810000000, m 1038742413216320000000, m 40415091454715700000000000000000000],
    [m 193782609554479000000, m 643408870516526000000, m 27105849860727200000000000000000000],
    [511210059808282000000, 851161159313764000000, 875755507387370000000000000000000]],
   [196698372273148000000000000000000, 196698372273156000000000000000000, 196698372273062000000000000000000,
    593882685696330000000000000000000, 593882685696352000000000000000000, 593882685696374000000000000000000,
    1238799407968200000000000000000000, 1238799407968150000000000000000000, 1238799407968120000000000000000000,
    809284187539252000000000000000000, 809284187539236000000000000000000, 809284187539222000000000000000000,
    1463869310244210000000000000000000, 1463869310244070000000000000000000, 1463869310243920000000000000000000,
    265528824562810000000000000000000, 265528824562798000000000000000000, 265528824562834000000000000000000,
    1120809992484550000000000000000000, 1120809992484590000000000000000000, 1120809992484570000000000000000000,
    695607989649797000000000000000000, 695607989649740000000000000000000, 695607989649711000000000000000000,
    736054409846543000000000000000000, 736054409846635000000000000000000, 736054409846627000000000000000000,
    1839284753952960000000000000000000, 1839284753952970000000000000000000, 1839284753952890000000000000000000,
    1594145923191260000000000000000000, 1594145923191080000000000000000000, 1594145923191160000000000000000000,
    819183899036344000000000000000000, 819183899036412000000000000000000, 819183899036391000000000000000000,
    294790999852269000000000000000000, 294790999852259000000000000000000, 294790999852263000000000000000000,
    727501233383112000000000000000000, 727501233383119000000000000000000, 727501233383113000000000000000000,
    297359482938225000000000000000000, 297359482938299000000000000000000, 297359482938252000000000000000000,
    859915960963346000000000000000000, 859915960963336000000000000000000, 859915960963354000000000000000000,
    298228147645889000000000000000000, 298228147645893000000000000000000, 298228147645866000000000000000000,
    1770913902179470000000000000000000, 1770913902179420000000000000000000, 1770913902179460000000000000000000,
    1089112295514760000000000000000000, 1089112295514740000000000000000000, 1089112295514770000000000000000000,
    502733325550593000000000000000000, 502733325550605000000000000000000, 502733325550543000000000000000000,
    314863068921769000000000000000000, 314863068921804000000000000000000, 314863068921800000000000000000000,
    1103448010198800000000000000000000, 1103448010198760000000000000000000, 1103448010198770000000000000000000,
    793705941737894000000000000000000, 793705941737921000000000000000000, 793705941737940000000000000000000,
    396471418063503000000000000000000, 396471418063520000000000000000000, 396471418063583000000000000000000,
    303733516257231000000000000000000, 303733516257264000000000000000000, 303733516257254000000000000000000,
    1050278031455160000000000000000000, 1050278031455130000000000000000000, 1050278031455110000000000000000000,
    47681895964062700000000000000000, 47681895964055200000000000000000, 47681895964053900000000000000000,
    784021930375232000000000000000000, 784021930375221000000000000000000, 784021930375275000000000000000000,
    1080421477025910000000000000000000, 1080421477025930000000000000000000, 1080421477025940000000000000000000,
    2069677141888700000000000000000000, 2069677141888740000000000000000000, 2069677141888720000000000000000000,
    346740810672804000000000000000000, 346740810672790000000000000000000, 346740810672803000000000000000000,
    754303426952455000000000000000000, 754303426952443000000000000000000, 754303426952452000000000000000000,
    739775920991071000000000000000000, 739775920991112000000000000000000, 739775920991109000000000000000000,
    1146148214278150000000000000000000, 1146148214278120000000000000000000, 1146148214278110000000000000000000,
    267380541702802000000000000000000, 267380541702784000000000000000000, 267380541702784000000000000000000,
    121571084356495000000000000000000, 121571084356478000000000000000000, 121571084356474000000000000000000,
    197644247637581000000000000000000, 197644247637581000000000000000000, 197644247637583000000000000000000,
    209026833265583000000000000000000, 209026833265534000000000000000000, 209026833265520000000000000000000,
    246529805415523000000000000000000, 246529805415509000000000000000000, 246529805415493000000000000000000,
    1047082314278210000000000000000000, 18875031566434800000000000000000, 466026308255542000000000000000000,
    2405780237649510000000000000000000, 2781755001556020000000000000000000]⟩

/-- `tetrahedron_table_orig[13]` (xg_quad_data.py 17445-17742). -/
def xgTet_13 : XgTableRule :=
  ⟨[
    [m 4777385017466610000000000000000000, 90155300843559900000000000000000000,
     m 23277153239963400000000000000000000],
    [m 75688088307601300000000000000000000, m 49214987210570900000000000000000000,
     m 23277153239960800000000000000000000],
    [80465473325074000000000000000000000, m 40940313632980000000000000000000000,
     m 23277153239954300000000000000000000],
    [3005907944967990000000000000000000, 38360647097643100000000000000000000, 34967626965507900000000000000000000],
    [m 34724248864665200000000000000000000, m 16577130907048500000000000000000000,
     34967626965491000000000000000000000],
    [31718340919718800000000000000000000, m 21783516190615100000000000000000000, 34967626965495600000000000000000000],
    [m 3529824413110860000000000000000000, 50644923504457200000000000000000000, 27179885654091100000000000000000000],
    [m 42094878121028800000000000000000000, m 28379379364881900000000000000000000,
     27179885654099400000000000000000000],
    [45624702534145000000000000000000000, m 22265544139583000000000000000000000, 27179885654075500000000000000000000],
    [m 71535370808888800000000000000000000, m 27860504026789600000000000000000000,
     m 38741286882116500000000000000000000],
    [59895589653882800000000000000000000, m 48021196376248200000000000000000000,
     m 38741286882121300000000000000000000],
    [11639781155013000000000000000000000, 75881700403029900000000000000000000, m 38741286882120300000000000000000000],
    [371051945602552000000000000000000, m 53934764619922600000000000000000000, m 37831459371486700000000000000000000],
    [46523350335192900000000000000000000, 27288722720969600000000000000000000, m 37831459371486600000000000000000000],
    [m 46894402280785300000000000000000000, 26646041898951400000000000000000000,
     m 37831459371488400000000000000000000],
    [m 3599160575353620000000000000000000, m 20322336827453000000000000000000000,
     m 39080543634288400000000000000000000],
    [19399240244528200000000000000000000, 7044203923151300000000000000000000, m 39080543634285200000000000000000000],
    [m 15800079669146800000000000000000000, 13278132904286500000000000000000000,
     m 39080543634285200000000000000000000],
    [m 2161537359848650000000000000000000, m 32383837768015400000000000000000000,
     22146211326587000000000000000000000],
    [29125994859059400000000000000000000, 14319972619149000000000000000000000, 22146211326588900000000000000000000],
    [m 26964457499210000000000000000000000, 18063865148865400000000000000000000, 22146211326588200000000000000000000],
    [m 49135730749658800000000000000000000, 1938723202896770000000000000000000, m 5332156026748040000000000000000000],
    [22888881830231600000000000000000000, m 43522152664167000000000000000000000,
     m 5332156026744840000000000000000000],
    [26246848919441800000000000000000000, 41583429461273400000000000000000000, m 5332156026745260000000000000000000],
    [m 14262810988221900000000000000000000, 44243815176031500000000000000000000,
     m 13661267200974800000000000000000000],
    [m 31184862408672600000000000000000000, m 34473864233198400000000000000000000,
     m 13661267200974800000000000000000000],
    [45447673396902600000000000000000000, m 9769950942847150000000000000000000,
     m 13661267200978100000000000000000000],
    [76187547638104200000000000000000000, m 27563524019429400000000000000000000,
     m 34057188159231900000000000000000000],
    [m 14223061800407200000000000000000000, 79762113716342400000000000000000000,
     m 34057188159233100000000000000000000],
    [m 61964485837687000000000000000000000, m 52198589696921300000000000000000000,
     m 34057188159237700000000000000000000],
    [5776897880027800000000000000000000, m 16783965788995600000000000000000000, 24821585587538100000000000000000000],
    [11646891809507200000000000000000000, 13394923213684100000000000000000000, 24821585587538200000000000000000000],
    [m 17423789689550600000000000000000000, 3389042575316230000000000000000000, 24821585587534000000000000000000000],
    [m 14147191422962600000000000000000000, 45457463991182100000000000000000000, 14930785505212000000000000000000000],
    [m 32293722896500200000000000000000000, m 34980559160075300000000000000000000,
     14930785505216100000000000000000000],
    [46440914319457100000000000000000000, m 10476904831104700000000000000000000, 14930785505218200000000000000000000],
    [m 13982581703261400000000000000000000, 66949301747650700000000000000000000,
     m 12468610014256700000000000000000000],
    [m 50988505227453000000000000000000000, m 45583921839342600000000000000000000,
     m 12468610014253100000000000000000000],
    [64971086930718200000000000000000000, m 21365379908305200000000000000000000,
     m 12468610014245100000000000000000000],
    [36103189213715500000000000000000000, m 33022003480362300000000000000000000,
     m 8804090671666170000000000000000000],
    [10546299290991900000000000000000000, 47777280756884300000000000000000000, m 8804090671661180000000000000000000],
    [m 46649488504703900000000000000000000, m 14755277276538500000000000000000000,
     m 8804090671646460000000000000000000],
    [2459013465212480000000000000000000, 81466384846629600000000000000000000, m 29039044165298300000000000000000000],
    [m 71781465564278900000000000000000000, m 38603624294205800000000000000000000,
     m 29039044165294800000000000000000000],
    [69322452099072300000000000000000000, m 42862760552449500000000000000000000,
     m 29039044165307000000000000000000000],
    [m 1065595141175730000000000000000000, 107045377333378000000000000000000000,
     m 35887168115151900000000000000000000],
    [m 92171218557803100000000000000000000, m 54445521129093200000000000000000000,
     m 35887168115150700000000000000000000],
    [93236813698974900000000000000000000, m 52599856204273100000000000000000000,
     m 35887168115150800000000000000000000],
    [m 41152855288723600000000000000000000, m 7053881312997470000000000000000000,
     17486496448249100000000000000000000],
    [26685268056691100000000000000000000, m 32112477461790400000000000000000000, 17486496448252600000000000000000000],
    [14467587232020200000000000000000000, 39166358774799400000000000000000000, 17486496448247600000000000000000000],
    [157119041239772000000000000000000, 7902375403647920000000000000000000, 100562602248012000000000000000000000],
    [m 6922217370423010000000000000000000, m 3815118620693260000000000000000000,
     100562602248007000000000000000000000],
    [6765098329171680000000000000000000, m 4087256782951130000000000000000000, 100562602248031000000000000000000000],
    [m 29911898616293300000000000000000000, 31652844391375300000000000000000000,
     m 6085363845277860000000000000000000],
    [m 12456218036810100000000000000000000, m 41730886272822000000000000000000000,
     m 6085363845275460000000000000000000],
    [42368116653110200000000000000000000, 10078041881449400000000000000000000, m 6085363845275340000000000000000000],
    [38716964303931500000000000000000000, m 39682822714125400000000000000000000,
     m 29074162126620200000000000000000000],
    [15007850412342900000000000000000000, 53371286001669300000000000000000000, m 29074162126621500000000000000000000],
    [m 53724814716258200000000000000000000, m 13688463287561100000000000000000000,
     m 29074162126610600000000000000000000],
    [m 8064886300342540000000000000000000, 60596866323169600000000000000000000,
     m 29286750496855400000000000000000000],
    [m 48445982475427700000000000000000000, m 37282829576318800000000000000000000,
     m 29286750496849100000000000000000000],
    [56510868775777400000000000000000000, m 23314036746867300000000000000000000,
     m 29286750496861700000000000000000000],
    [67056038539932500000000000000000000, m 8534490338988290000000000000000000,
     m 39861903840607500000000000000000000],
    [m 26136933828050300000000000000000000, 62339478022222200000000000000000000,
     m 39861903840608400000000000000000000],
    [m 40919104711868400000000000000000000, m 53804987683236700000000000000000000,
     m 39861903840610700000000000000000000],
    [m 29949148611602100000000000000000000, 48177450120208400000000000000000000,
     m 27630050288156900000000000000000000],
    [m 26748321387858500000000000000000000, m 50025448579469000000000000000000000,
     m 27630050288158300000000000000000000],
    [56697469999464600000000000000000000, 1847998459249880000000000000000000, m 27630050288153100000000000000000000],
    [4510147973428890000000000000000000, m 27684827953887900000000000000000000, m 3171132373617960000000000000000000],
    [21720690320756100000000000000000000, 17748316696753200000000000000000000, m 3171132373613690000000000000000000],
    [m 26230838294184600000000000000000000, 9936511257127260000000000000000000, m 3171132373618720000000000000000000],
    [m 24957854927240500000000000000000000, 38486206440103800000000000000000000,
     m 36700729246508700000000000000000000],
    [m 20851105008807400000000000000000000, m 40857239611012900000000000000000000,
     m 36700729246508200000000000000000000],
    [45808959936051600000000000000000000, 2371033170906490000000000000000000, m 36700729246506400000000000000000000],
    [27075048284897000000000000000000000, 40043263419805000000000000000000000, m 39189668093877700000000000000000000],
    [m 48216007514430100000000000000000000, 3426047913492080000000000000000000,
     m 39189668093875400000000000000000000],
    [21140959229544800000000000000000000, m 43469311333311200000000000000000000,
     m 39189668093876900000000000000000000],
    [m 4554280384514680000000000000000000, 94966521304016800000000000000000000,
     m 39451129289821400000000000000000000],
    [m 79966279766055600000000000000000000, m 51427383160954400000000000000000000,
     m 39451129289822800000000000000000000],
    [84520560150564400000000000000000000, m 43539138143054500000000000000000000,
     m 39451129289827100000000000000000000],
    [2029674430134100000000000000000000, 91171601179072900000000000000000000, m 16898138274505100000000000000000000],
    [m 79971759939849300000000000000000000, m 43828050971633300000000000000000000,
     m 16898138274508700000000000000000000],
    [77942085509718900000000000000000000, m 47343550207443400000000000000000000,
     m 16898138274505800000000000000000000],
    [14417562364465400000000000000000000, 71528666107167200000000000000000000, m 19884563608563900000000000000000000],
    [m 69154423129856100000000000000000000, m 23278357785311000000000000000000000,
     m 19884563608565400000000000000000000],
    [54736860765400000000000000000000000, m 48250308321860100000000000000000000,
     m 19884563608566100000000000000000000],
    [3528170518753220000000000000000000, 36203848315905900000000000000000000, m 35817889666877700000000000000000000],
    [m 33117537615701300000000000000000000, m 15046438859838400000000000000000000,
     m 35817889666876100000000000000000000],
    [29589367096964500000000000000000000, m 21157409456077400000000000000000000,
     m 35817889666872800000000000000000000],
    [m 782783570176244000000000000000000, m 31418762225022800000000000000000000,
     m 26525706249819100000000000000000000],
    [27600838027419800000000000000000000, 15031470655066800000000000000000000, m 26525706249814200000000000000000000],
    [m 26818054457243100000000000000000000, 16387291569944800000000000000000000,
     m 26525706249814300000000000000000000],
    [6806655606966090000000000000000000, 65043221839205800000000000000000000, 9127655651197960000000000000000000],
    [m 59732410260224500000000000000000000, m 26626874249159100000000000000000000,
     9127655651192470000000000000000000],
    [52925754653253100000000000000000000, m 38416347590049800000000000000000000, 9127655651200030000000000000000000],
    [m 9685067665231930000000000000000000, m 20499970865818800000000000000000000,
     47120270283611500000000000000000000],
    [22596029379251200000000000000000000, 1862470797446680000000000000000000, 47120270283617700000000000000000000],
    [m 12910961714021000000000000000000000, 18637500068374900000000000000000000, 47120270283612500000000000000000000],
    [m 1001708030503950000000000000000000, 65592592023316500000000000000000000, m 4789101434801450000000000000000000],
    [m 56303996977009200000000000000000000, m 33663800613256200000000000000000000,
     m 4789101434802210000000000000000000],
    [57305705007514200000000000000000000, m 31928791410073700000000000000000000,
     m 4789101434808660000000000000000000],
    [3465920273834420000000000000000000, 18524088239868700000000000000000000, 55620715985370400000000000000000000],
    [m 17775291134581700000000000000000000, m 6260469115301880000000000000000000,
     55620715985364700000000000000000000],
    [14309370860763100000000000000000000, m 12263619124580600000000000000000000, 55620715985333500000000000000000000],
    [7285263734559300000000000000000000, 96932792112176000000000000000000000, m 36669024111318600000000000000000000],
    [m 87588892296181800000000000000000000, m 42157172588687200000000000000000000,
     m 36669024111320900000000000000000000],
    [80303628561626100000000000000000000, m 54775619523491600000000000000000000,
     m 36669024111321900000000000000000000],
    [13433896639180300000000000000000000, m 47537930313639200000000000000000000,
     m 25000819683023400000000000000000000],
    [34452106975358900000000000000000000, 35403060918159300000000000000000000, m 25000819683025600000000000000000000],
    [m 47886003614538700000000000000000000, 12134869395473600000000000000000000,
     m 25000819683027600000000000000000000],
    [m 1348321313217420000000000000000000, m 12554652119785100000000000000000000,
     79539107810413100000000000000000000],
    [11546808328019700000000000000000000, 5109645550180970000000000000000000, 79539107810417200000000000000000000],
    [m 10198487014796800000000000000000000, 7445006569601830000000000000000000, 79539107810414100000000000000000000],
    [m 5176848990301740000000000000000000, 30423939824376700000000000000000000, 12462956541923400000000000000000000],
    [m 23759480275971300000000000000000000, m 19695252649347800000000000000000000,
     12462956541923800000000000000000000],
    [28936329266270100000000000000000000, m 10728687175037000000000000000000000, 12462956541929500000000000000000000],
    [1729207472857360000000000000000000, 49685198441135300000000000000000000, 44307804391241400000000000000000000],
    [m 43893247778524500000000000000000000, m 23345061620658800000000000000000000,
     44307804391244500000000000000000000],
    [42164040305660800000000000000000000, m 26340136820471900000000000000000000, 44307804391256400000000000000000000],
    [m 391479177516457000000000000000000, 26895958172205800000000000000000000, m 17891906873894100000000000000000000],
    [m 23096843447497900000000000000000000, m 13787009998891600000000000000000000,
     m 17891906873886600000000000000000000],
    [23488322625013700000000000000000000, m 13108948173325200000000000000000000,
     m 17891906873886200000000000000000000],
    [m 68811441387185900000000000000000000, m 9541153848828570000000000000000000,
     m 36217532773589000000000000000000000],
    [42668602308096900000000000000000000, m 54821879387915700000000000000000000,
     m 36217532773586900000000000000000000],
    [26142839079093600000000000000000000, 64363033236742700000000000000000000, m 36217532773587100000000000000000000],
    [496097300628823000000000000000000, 24394630898910300000000000000000000, 75902016251720600000000000000000000],
    [m 21374418724716700000000000000000000, m 11767682584363000000000000000000000,
     75902016251716400000000000000000000],
    [20878321424077600000000000000000000, m 12626948314542100000000000000000000, 75902016251732700000000000000000000],
    [m 7325006065249270000000000000000000, 34938222056578500000000000000000000, 53850976197258000000000000000000000],
    [m 26594884831434900000000000000000000, m 23812752363668300000000000000000000,
     53850976197252100000000000000000000],
    [33919890896686700000000000000000000, m 11125469692911900000000000000000000, 53850976197240100000000000000000000],
    [m 4678501489682660000000000000000000, 65173826799951200000000000000000000,
     m 40348898636802400000000000000000000],
    [m 54102938925757200000000000000000000, m 36638614541682700000000000000000000,
     m 40348898636798400000000000000000000],
    [58781440415434900000000000000000000, m 28535212258257600000000000000000000,
     m 40348898636807200000000000000000000],
    [m 2500405721723710000000000000000000, 74347930613841000000000000000000000, 9129480050841530000000000000000000],
    [m 63136993769525100000000000000000000, m 39339380181699000000000000000000000,
     9129480050844320000000000000000000],
    [65637399491242100000000000000000000, m 35008550432136700000000000000000000, 9129480050850450000000000000000000],
    [13641995681938400000000000000000000, 26720850456510800000000000000000000, 50764760080193300000000000000000000],
    [m 29961933147026900000000000000000000, m 1546110409379760000000000000000000,
     50764760080200400000000000000000000],
    [16319937465097600000000000000000000, m 25174740047135100000000000000000000, 50764760080194800000000000000000000],
    [11987437029841800000000, m 6195967642546060000000, 75876863609196800000000000000000000],
    [m 7662979863046560000000, 3002370388193690000000, 117406440316567000000000000000000000],
    [m 482966202439009000000, m 5457794979132390000000, m 29175881312529100000000000000000000],
    [m 2111050829994400000000, 11644940421156500000000, 40728505128060200000000000000000000],
    [m 1270671025297560000000, 3123283355285960000000, m 273797565167698000000000000000000]],
   [200887673646286000000000000000000, 200887673646046000000000000000000, 200887673646232000000000000000000,
    666306373868558000000000000000000, 666306373869141000000000000000000, 666306373867523000000000000000000,
    460737122110414000000000000000000, 460737122109711000000000000000000, 460737122109625000000000000000000,
    256268951692279000000000000000000, 256268951691948000000000000000000, 256268951691991000000000000000000,
    235005654447042000000000000000000, 235005654446923000000000000000000, 235005654447035000000000000000000,
    527052754118289000000000000000000, 527052754118820000000000000000000, 527052754118752000000000000000000,
    714961366974697000000000000000000, 714961366974774000000000000000000, 714961366974817000000000000000000,
    448845818235097000000000000000000, 448845818234801000000000000000000, 448845818235013000000000000000000,
    1080718451894170000000000000000000, 1080718451893810000000000000000000, 1080718451894540000000000000000000,
    293227202050287000000000000000000, 293227202050352000000000000000000, 293227202050308000000000000000000,
    1454454303359150000000000000000000, 1454454303358730000000000000000000, 1454454303359030000000000000000000,
    637963291334823000000000000000000, 637963291335070000000000000000000, 637963291335052000000000000000000,
    437334200450381000000000000000000, 437334200449979000000000000000000, 437334200450373000000000000000000,
    1203465566155600000000000000000000, 1203465566156330000000000000000000, 1203465566155830000000000000000000,
    521154166200869000000000000000000, 521154166200641000000000000000000, 521154166200487000000000000000000,
    61328970346035100000000000000000, 61328970346141000000000000000000, 61328970346229000000000000000000,
    861854803007364000000000000000000, 861854803008962000000000000000000, 861854803008200000000000000000000,
    209967579380148000000000000000000, 209967579380181000000000000000000, 209967579379976000000000000000000,
    782057398216375000000000000000000, 782057398216339000000000000000000, 782057398216470000000000000000000,
    878729001495772000000000000000000, 878729001495983000000000000000000, 878729001496600000000000000000000,
    892969489447894000000000000000000, 892969489447761000000000000000000, 892969489447887000000000000000000,
    134935598366959000000000000000000, 134935598366930000000000000000000, 134935598366793000000000000000000,
    531065986285393000000000000000000, 531065986285184000000000000000000, 531065986285218000000000000000000,
    1675384049059490000000000000000000, 1675384049059370000000000000000000, 1675384049059240000000000000000000,
    653851943197237000000000000000000, 653851943197069000000000000000000, 653851943197134000000000000000000,
    390584400794776000000000000000000, 390584400795171000000000000000000, 390584400794846000000000000000000,
    126416696275215000000000000000000, 126416696275155000000000000000000, 126416696275047000000000000000000,
    196895355148754000000000000000000, 196895355148876000000000000000000, 196895355148764000000000000000000,
    425246913479433000000000000000000, 425246913479412000000000000000000, 425246913479049000000000000000000,
    950473780765503000000000000000000, 950473780765618000000000000000000, 950473780765759000000000000000000,
    1448220413680090000000000000000000, 1448220413680320000000000000000000, 1448220413680310000000000000000000,
    370575350803494000000000000000000, 370575350803537000000000000000000, 370575350803248000000000000000000,
    1023177070802990000000000000000000, 1023177070803220000000000000000000, 1023177070803110000000000000000000,
    910628443182790000000000000000000, 910628443182588000000000000000000, 910628443182793000000000000000000,
    1004913520938320000000000000000000, 1004913520938990000000000000000000, 1004913520939630000000000000000000,
    121714286187474000000000000000000, 121714286187342000000000000000000, 121714286187213000000000000000000,
    740968779705143000000000000000000, 740968779705232000000000000000000, 740968779705109000000000000000000,
    452696575771365000000000000000000, 452696575771131000000000000000000, 452696575771781000000000000000000,
    1868666320900500000000000000000000, 1868666320899920000000000000000000, 1868666320900690000000000000000000,
    208819700591201000000000000000000, 208819700590994000000000000000000, 208819700591018000000000000000000,
    1763106267985920000000000000000000, 1763106267986220000000000000000000, 1763106267985930000000000000000000,
    201431501028147000000000000000000, 201431501027980000000000000000000, 201431501028021000000000000000000,
    374440493250076000000000000000000, 374440493250154000000000000000000, 374440493250375000000000000000000,
    227479774987694000000000000000000, 227479774987930000000000000000000, 227479774988148000000000000000000,
    241377177692592000000000000000000, 241377177692877000000000000000000, 241377177692253000000000000000000,
    190144783329074000000000000000000, 190144783329102000000000000000000, 190144783329226000000000000000000,
    302173714299617000000000000000000, 302173714299884000000000000000000, 302173714299261000000000000000000,
    813775298509852000000000000000000, 23387270882494700000000000000000, 1603311133568380000000000000000000,
    1323716781044560000000000000000000, 2434676563375690000000000000000000]⟩

/-- `tetrahedron_table_orig[14]` (xg_quad_data.py 17743-18102). -/
def xgTet_14 : XgTableRule :=
  ⟨[
    [m 57524228358418000000000000000000000, m 16613326058321900000000000000000000,
     m 30024084198229500000000000000000000],
    [43149676586918000000000000000000000, m 41510780062473100000000000000000000,
     m 30024084198330900000000000000000000],
    [14374551771398200000000000000000000, 58124106120534600000000000000000000, m 30024084198338200000000000000000000],
    [m 33030769841551700000000000000000000, m 37120973016165700000000000000000000,
     m 23672435375004800000000000000000000],
    [48663090565955200000000000000000000, m 10044999281537800000000000000000000,
     m 23672435374566700000000000000000000],
    [m 15632320724295100000000000000000000, 47165972297536900000000000000000000,
     m 23672435374709800000000000000000000],
    [m 577016879846576000000000000000000, 81356393715431800000000000000000000, m 1124874139319760000000000000000000],
    [m 70168195277811100000000000000000000, m 41177908133949200000000000000000000,
     m 1124874139141120000000000000000000],
    [70745212157704300000000000000000000, m 40178485581323200000000000000000000,
     m 1124874139183390000000000000000000],
    [m 30324167104122200000000000000000000, 44526369111885700000000000000000000,
     m 20912004919393400000000000000000000],
    [m 23398883237020000000000000000000000, m 48524683616748200000000000000000000,
     m 20912004919512100000000000000000000],
    [53723050341045700000000000000000000, 3998314505168600000000000000000000, m 20912004919435700000000000000000000],
    [29958405259915100000000000000000000, 32648401988696000000000000000000000, m 38710701695579200000000000000000000],
    [m 43253548145200400000000000000000000, 9620539017564670000000000000000000,
     m 38710701695572200000000000000000000],
    [13295142885340000000000000000000000, m 42268941006309900000000000000000000,
     m 38710701695618800000000000000000000],
    [23139785089425500000000000000000000, m 8671007929617910000000000000000000, 15767582055776800000000000000000000],
    [m 4060579401191660000000000000000000, 24375145690455500000000000000000000, 15767582055571800000000000000000000],
    [m 19079205688061800000000000000000000, m 15704137760872700000000000000000000,
     15767582055533000000000000000000000],
    [11984599696930400000000000000000000, 56416167435420100000000000000000000, m 38049944666366700000000000000000000],
    [m 54850134031771700000000000000000000, m 17829115925975000000000000000000000,
     m 38049944666312800000000000000000000],
    [42865534334932000000000000000000000, m 38587051509398300000000000000000000,
     m 38049944666340500000000000000000000],
    [m 42230670184532900000000000000000000, 694637725684425000000000000000000, m 25667851267814000000000000000000000],
    [20513761175424200000000000000000000, m 36920152061354000000000000000000000,
     m 25667851267929300000000000000000000],
    [21716909009045700000000000000000000, 36225514335740700000000000000000000, m 25667851267829800000000000000000000],
    [m 19955520594873300000000000000000000, 50045623120997400000000000000000000, m 755044562352760000000000000000000],
    [m 33363020673655800000000000000000000, m 42304799341431500000000000000000000,
     m 755044562555918000000000000000000],
    [53318541268404100000000000000000000, m 7740823779440850000000000000000000, m 755044562511435000000000000000000],
    [m 336236777595752000000000000000000, 24240798754482400000000000000000000, 39666852715210300000000000000000000],
    [m 20825029140644900000000000000000000, m 12411588968332300000000000000000000,
     39666852714694400000000000000000000],
    [21161265918304100000000000000000000, m 11829209786216300000000000000000000, 39666852715366800000000000000000000],
    [39017891968430600000000000000000000, m 22479373228138300000000000000000000, 54362953687465800000000000000000000],
    [m 41237707488769800000000000000000, 45030172260628900000000000000000000, 54362953687720400000000000000000000],
    [m 38976654260363700000000000000000000, m 22550799032397300000000000000000000,
     54362953688242700000000000000000000],
    [544047552181209000000000000000000, 65180239026692000000000000000000000, 21085339726918500000000000000000000],
    [m 56719766597572700000000000000000000, m 32118960512073300000000000000000000,
     21085339727558300000000000000000000],
    [56175719045936600000000000000000000, m 33061278514430900000000000000000000, 21085339726645300000000000000000000],
    [5109903009675820000000000000000000, 98805577514107300000000000000000000, m 38462276325667400000000000000000000],
    [m 88123091667670700000000000000000000, m 44977482939880000000000000000000000,
     m 38462276325637200000000000000000000],
    [83013188657985200000000000000000000, m 53828094574286000000000000000000000,
     m 38462276325707700000000000000000000],
    [m 33340333964518800000000000000000000, 24848741026856900000000000000000000, 4320199156927150000000000000000000],
    [m 4849473999181730000000000000000000, m 41297946697426200000000000000000000, 4320199156864360000000000000000000],
    [38189807963377200000000000000000000, 16449205670828700000000000000000000, 4320199157222130000000000000000000],
    [29672092171476900000000000000000000, m 17861016034312100000000000000000000,
     m 39425522610366000000000000000000000],
    [632047537306693000000000000000000, 34627293621160600000000000000000000, m 39425522610361100000000000000000000],
    [m 30304139709064700000000000000000000, m 16766277586913900000000000000000000,
     m 39425522610351200000000000000000000],
    [39470815405302900000000000000000000, 11599370607401300000000000000000000, m 29008237216563100000000000000000000],
    [m 29780757316545200000000000000000000, 28383043545354700000000000000000000,
     m 29008237216540700000000000000000000],
    [m 9690058088341080000000000000000000, m 39982414152804700000000000000000000,
     m 29008237216500800000000000000000000],
    [46022774254109300000000000000000000, 3320417294495800000000000000000000, m 40019547009081000000000000000000000],
    [m 25886952855198800000000000000000000, 38196683009423700000000000000000000,
     m 40019547009022200000000000000000000],
    [m 20135821398984100000000000000000000, m 41517100303959800000000000000000000,
     m 40019547008936500000000000000000000],
    [43202040134421100000000000000000000, m 49868841776683600000000000000000000,
     m 25145999669995400000000000000000000],
    [21586663768671600000000000000000000, 62348485140074800000000000000000000, m 25145999670017500000000000000000000],
    [m 64788703903043300000000000000000000, m 12479643363232800000000000000000000,
     m 25145999670056500000000000000000000],
    [324350258804347000000000000000000, 93959830955468400000000000000000000, m 20529934652492200000000000000000000],
    [m 81533775672213500000000000000000000, m 46699019913928700000000000000000000,
     m 20529934652638300000000000000000000],
    [81209425413155500000000000000000000, m 47260811041489100000000000000000000,
     m 20529934652232500000000000000000000],
    [m 29296397480589700000000000000000000, 12368017576090100000000000000000000, 29465947404060100000000000000000000],
    [3937181324850050000000000000000000, m 31555433245539600000000000000000000, 29465947404164700000000000000000000],
    [25359216155548800000000000000000000, 19187415669466400000000000000000000, 29465947404256100000000000000000000],
    [m 29117123642079000000000000000000000, m 34558814841814000000000000000000000,
     m 5795226862357380000000000000000000],
    [44487373398590100000000000000000000, m 7936761338079120000000000000000000, m 5795226862121650000000000000000000],
    [m 15370249756728700000000000000000000, 42495576179925800000000000000000000,
     m 5795226862189090000000000000000000],
    [37705776284024600000000000000000000, 30963939194556400000000000000000000, m 22121571444900300000000000000000000],
    [m 45668446085554300000000000000000000, 17172190534428900000000000000000000,
     m 22121571444928000000000000000000000],
    [7962669801609280000000000000000000, m 48136129728637500000000000000000000,
     m 22121571444861600000000000000000000],
    [m 73435684387020700000000000000000, 6984686512807870000000000000000000, 103191504161762000000000000000000000],
    [m 6012198115212340000000000000000000, m 3555940424550630000000000000000000,
     103191504162137000000000000000000000],
    [6085633799849960000000000000000000, m 3428746088226150000000000000000000, 103191504161585000000000000000000000],
    [m 78606124447515400000000000000000000, m 36281098846651400000000000000000000,
     m 28436647016808100000000000000000000],
    [70723415502370500000000000000000000, m 49934351241303200000000000000000000,
     m 28436647016913600000000000000000000],
    [7882708945288710000000000000000000, 86215450088018400000000000000000000, m 28436647016845300000000000000000000],
    [m 17980794302579900000000000000000000, 76390731252773300000000000000000000,
     m 39166327095519000000000000000000000],
    [m 57165916727230700000000000000000000, m 53767190272633600000000000000000000,
     m 39166327095507400000000000000000000],
    [75146711029856800000000000000000000, m 22623540980130400000000000000000000,
     m 39166327095500000000000000000000000],
    [2349121749284230000000000000000000, 33030323230499300000000000000000000, m 5853404503565350000000000000000000],
    [m 29779659887566700000000000000000000, m 14480762503782600000000000000000000,
     m 5853404503336720000000000000000000],
    [27430538138116700000000000000000000, m 18549560726699300000000000000000000,
     m 5853404503471410000000000000000000],
    [m 35081859003159000000000000000000000, m 20865395517810700000000000000000000,
     43490325933146300000000000000000000],
    [35610892080163600000000000000000000, m 19949083349860700000000000000000000, 43490325933184700000000000000000000],
    [m 529033076836162000000000000000000, 40814478867678600000000000000000000, 43490325933214800000000000000000000],
    [m 47999970705739500000000000000000000, m 10213079361986000000000000000000000,
     m 7166469320204440000000000000000000],
    [32844771531054900000000000000000000, m 36462654331071400000000000000000000,
     m 7166469320319800000000000000000000],
    [15155199174506100000000000000000000, 46675733693063100000000000000000000, m 7166469320166640000000000000000000],
    [55037493623956600000000000000000000, m 17492498822262400000000000000000000,
     m 36510200785078100000000000000000000],
    [m 12369798456122500000000000000000000, 56410117050326000000000000000000000,
     m 36510200785092000000000000000000000],
    [m 42667695167979900000000000000000000, m 38917618227820500000000000000000000,
     m 36510200785109600000000000000000000],
    [m 11609139960182400000000000000000000, m 7369982797233310000000000000000000,
     66667416083591000000000000000000000],
    [12187162307664600000000000000000000, m 6368818722810370000000000000000000, 66667416084275200000000000000000000],
    [m 578022347846076000000000000000000, 13738801520005500000000000000000000, 66667416084155100000000000000000000],
    [m 17959661924561300000000000000000000, 68929640132128600000000000000000000,
     m 28506079802465500000000000000000000],
    [m 50714988465941600000000000000000000, m 50018343536111700000000000000000000,
     m 28506079802467700000000000000000000],
    [68674650390372300000000000000000000, m 18911296595986400000000000000000000,
     m 28506079802396800000000000000000000],
    [m 473131159616946000000000000000000, 79825284473447600000000000000000000, m 37671390490415000000000000000000000],
    [m 68894158638492500000000000000000000, m 40322385840299200000000000000000000,
     m 37671390490414500000000000000000000],
    [69367289798139100000000000000000000, m 39502898633086800000000000000000000,
     m 37671390490414600000000000000000000],
    [18380197558264400000000000000000000, 75001593430541100000000000000000000, m 38473231132937100000000000000000000],
    [m 74143384014340100000000000000000000, m 21583078703314800000000000000000000,
     m 38473231132946600000000000000000000],
    [55763186456050200000000000000000000, m 53418514727303900000000000000000000,
     m 38473231132947400000000000000000000],
    [m 31574827789040900000000000000000000, 16859959802301800000000000000000000,
     m 1430711791014900000000000000000000],
    [1186260398816200000000000000000000, m 35774582886557800000000000000000000, m 1430711790970270000000000000000000],
    [30388567390151100000000000000000000, 18914623084333800000000000000000000, m 1430711791041980000000000000000000],
    [m 37601568449324000000000000000000000, m 7541204156110640000000000000000000,
     22268934348461400000000000000000000],
    [25331658599041000000000000000000000, m 28793311421250100000000000000000000, 22268934348440100000000000000000000],
    [12269909850378100000000000000000000, 36334515577219100000000000000000000, 22268934348486000000000000000000000],
    [3132847887437240000000000000000000, m 19912299693034800000000000000000000, 18613687184359100000000000000000000],
    [15678133438301500000000000000000000, 12669275703096100000000000000000000, 18613687184162500000000000000000000],
    [m 18810981325555400000000000000000000, 7243023989959380000000000000000000, 18613687184311300000000000000000000],
    [m 59403982885858200000000000000000000, m 43842388877404800000000000000000000,
     m 10727956227499500000000000000000000],
    [67670613973304700000000000000000000, m 29524163826414900000000000000000000,
     m 10727956227454900000000000000000000],
    [m 8266631087504340000000000000000000, 73366552703770400000000000000000000,
     m 10727956227485500000000000000000000],
    [57990637494918900000000000000000000, m 42436365131016000000000000000000000,
     m 6485516948547950000000000000000000],
    [7755651500224910000000000000000000, 71439547817869000000000000000000000, m 6485516948561630000000000000000000],
    [m 65746288995225700000000000000000000, m 29003182686755100000000000000000000,
     m 6485516948569680000000000000000000],
    [19592885319236300000000000000000000, m 21636157853198600000000000000000000, 57256226934594500000000000000000000],
    [8941019681549950000000000000000000, 27786015346415400000000000000000000, 57256226934727000000000000000000000],
    [m 28533905000811500000000000000000000, m 6149857493356040000000000000000000,
     57256226934601100000000000000000000],
    [29384769349053100000000000000000000, m 17198527847267900000000000000000000,
     m 27910871122642000000000000000000000],
    [201977348840127000000000000000000, 34047220664255700000000000000000000, m 27910871122661600000000000000000000],
    [m 29586746697993700000000000000000000, m 16848692816978600000000000000000000,
     m 27910871122545400000000000000000000],
    [36550205253213000000000000000000000, 43739457704828600000000000000000000, m 37141543711115000000000000000000000],
    [m 56154584146773400000000000000000000, 9783677410376380000000000000000000,
     m 37141543711124900000000000000000000],
    [19604378893552300000000000000000000, m 53523135115235200000000000000000000,
     m 37141543711108500000000000000000000],
    [m 5706595245720940000000000000000000, 92381827960994000000000000000000000,
     m 31617384171283700000000000000000000],
    [m 77151712239390300000000000000000000, m 51132970432385900000000000000000000,
     m 31617384171227900000000000000000000],
    [82858307485220600000000000000000000, m 41248857528683500000000000000000000,
     m 31617384171348000000000000000000000],
    [10115280572106000000000000000000000, 6305510675913090000000000000000000, 83732771004249600000000000000000000],
    [m 10518372715330400000000000000000000, 5607334603928900000000000000000000, 83732771004256600000000000000000000],
    [403092143123203000000000000000000, m 11912845279890200000000000000000000, 83732771004203100000000000000000000],
    [m 21241972584397400000000000000000000, m 29363733257148300000000000000000000,
     24988739185450700000000000000000000],
    [36050725242723800000000000000000000, m 3714221255853140000000000000000000, 24988739185529300000000000000000000],
    [m 14808752658455100000000000000000000, 33077954513052600000000000000000000, 24988739185566600000000000000000000],
    [m 16517821996291000000000000000000000, 8626870981050190000000000000000000, 51089041404365600000000000000000000],
    [787821573356979000000000000000000, m 18618288954459800000000000000000000, 51089041404351100000000000000000000],
    [15730000422844800000000000000000000, 9991417973422900000000000000000000, 51089041404350400000000000000000000],
    [m 36179275256107600000000000000000000, 44088372637954100000000000000000000,
     m 37061477567401600000000000000000000],
    [m 20092013087898300000000000000000000, m 53376357781289300000000000000000000,
     m 37061477567405200000000000000000000],
    [56271288344046900000000000000000000, 9287985143315730000000000000000000, m 37061477567404800000000000000000000],
    [m 50158206002813400000000000000000000, m 18901752353235200000000000000000000,
     24330045602755800000000000000000000],
    [41448500715489000000000000000000000, m 33987404429936300000000000000000000, 24330045603007700000000000000000000],
    [8709705287395680000000000000000000, 52889156783182400000000000000000000, 24330045602915500000000000000000000],
    [94340683721178300000000000000000000, m 54983020776000000000000000000000000,
     m 35387025450148700000000000000000000],
    [446350908212159000000000000000000, 109192939101015000000000000000000000, m 35387025450212800000000000000000000],
    [m 94787034629603100000000000000000000, m 54209918325067700000000000000000000,
     m 35387025450245200000000000000000000],
    [20057517208297500000000000000000000, 10885872935502300000000000000000000, m 35826517440007800000000000000000000],
    [m 19456201108735200000000000000000000, 11927382971390100000000000000000000,
     m 35826517439995100000000000000000000],
    [m 601316099752385000000000000000000, m 22813255906967400000000000000000000,
     m 35826517440008600000000000000000000],
    [m 1255658338458570000000000000000000, 54699346392174000000000000000000000, 8755062971445480000000000000000000],
    [m 46743194376901900000000000000000000, m 28437105215728100000000000000000000,
     8755062971455990000000000000000000],
    [47998852715191700000000000000000000, m 26262241176487300000000000000000000, 8755062971379200000000000000000000],
    [m 1716908737168970000000000000000000, m 21601513093439600000000000000000000,
     m 13973079981263700000000000000000000],
    [19565913467658600000000000000000000, 9313869964408440000000000000000000, m 13973079981232600000000000000000000],
    [m 17849004730562000000000000000000000, 12287643128990100000000000000000000,
     m 13973079981247400000000000000000000],
    [m 54627579157898700000000000000000, 66782870129457800000000000000000000, m 21837611247741800000000000000000000],
    [m 57808348280178400000000000000000000, m 33438743936065800000000000000000000,
     m 21837611247721300000000000000000000],
    [57862975859325300000000000000000000, m 33344126193469000000000000000000000,
     m 21837611247767100000000000000000000],
    [m 18338770132105900000000000000000000, m 21953998883169900000000000000000000,
     57635078163621500000000000000000000],
    [28182105813497900000000000000000000, m 4904841366906030000000000000000000, 57635078163687400000000000000000000],
    [m 9843335681437260000000000000000000, 26858840250190000000000000000000000, 57635078163651000000000000000000000],
    [19166178950754600000000000000000000, m 10974545067406600000000000000000000, 80622084254331500000000000000000000],
    [m 78854652033647900000000000000000, 22085670398387700000000000000000000, 80622084254540600000000000000000000],
    [m 19087324298351700000000000000000000, m 11111125330918900000000000000000000,
     80622084254850200000000000000000000],
    [m 4813891231175000000000000000000000, 102301268899185000000000000000000000,
     m 40496587843492800000000000000000000],
    [m 86188552090391200000000000000000000, m 55319586546826200000000000000000000,
     m 40496587843379500000000000000000000],
    [91002443321797400000000000000000000, m 46981682352396000000000000000000000,
     m 40496587843611800000000000000000000],
    [m 44244628717086000000000000000000000, m 34871056847813400000000000000000000,
     22257068137966300000000000000000000],
    [52321535445408300000000000000000000, m 20881444026007100000000000000000000, 22257068137904700000000000000000000],
    [m 8076906728405850000000000000000000, 55752500873872900000000000000000000, 22257068138012700000000000000000000],
    [23301646691039700000000000000000000, 45866043048839400000000000000000000, m 409672523946633000000000000000000],
    [m 51371981796767000000000000000000000, m 2753203539748660000000000000000000,
     m 409672524092190000000000000000000],
    [28070335105649000000000000000000000, m 43112839508787800000000000000000000, m 409672523825050000000000000000000],
    [39670806540032900000000, 14248495305034100000000, m 25924478100859700000000000000000000],
    [172242545847118000000000, 41632075202261800000000, 119114912174165000000000000000000000],
    [35024103731407100000000, 25644076346791500000000, 41206531275114500000000000000000000],
    [m 294794246186653000000000, m 94892538256776700000000, 84352626013441900000000000000000000],
    [m 103209102664440000000000, 57257076019048100000000, m 40036396733867000000000000000000000],
    [m 43593935658203500000000, m 43078581778027200000000, 3321002545060890000000000000000000]],
   [407311106084951000000000000000000, 407311106086412000000000000000000, 407311106089195000000000000000000,
    631649202580972000000000000000000, 631649202580268000000000000000000, 631649202577768000000000000000000,
    146798867817842000000000000000000, 146798867823839000000000000000000, 146798867814492000000000000000000,
    347291066290810000000000000000000, 347291066292713000000000000000000, 347291066293482000000000000000000,
    327576451412751000000000000000000, 327576451413050000000000000000000, 327576451411143000000000000000000,
    1045539694081720000000000000000000, 1045539694083470000000000000000000, 1045539694073820000000000000000000,
    364986777096763000000000000000000, 364986777100916000000000000000000, 364986777098790000000000000000000,
    806153706545878000000000000000000, 806153706540727000000000000000000, 806153706547674000000000000000000,
    285738806924658000000000000000000, 285738806927622000000000000000000, 285738806927797000000000000000000,
    858697993389976000000000000000000, 858697993385280000000000000000000, 858697993390625000000000000000000,
    94758560919432500000000000000000, 94758560920492400000000000000000, 94758560922219400000000000000000,
    194662998140932000000000000000000, 194662998140232000000000000000000, 194662998141354000000000000000000,
    94144285077445500000000000000000, 94144285078611700000000000000000, 94144285076881100000000000000000,
    189817372694094000000000000000000, 189817372692919000000000000000000, 189817372688908000000000000000000,
    358472221400519000000000000000000, 358472221400298000000000000000000, 358472221401662000000000000000000,
    773951746082833000000000000000000, 773951746077951000000000000000000, 773951746070415000000000000000000,
    192176084759634000000000000000000, 192176084765180000000000000000000, 192176084769918000000000000000000,
    359141808167828000000000000000000, 359141808170410000000000000000000, 359141808169343000000000000000000,
    163835774237929000000000000000000, 163835774238299000000000000000000, 163835774239529000000000000000000,
    372396860339681000000000000000000, 372396860343135000000000000000000, 372396860340175000000000000000000,
    986772173845936000000000000000000, 986772173839348000000000000000000, 986772173843421000000000000000000,
    511418213201809000000000000000000, 511418213203137000000000000000000, 511418213204769000000000000000000,
    148408055902508000000000000000000, 148408055898773000000000000000000, 148408055903742000000000000000000,
    289589802390020000000000000000000, 289589802389795000000000000000000, 289589802389629000000000000000000,
    142400302631111000000000000000000, 142400302631816000000000000000000, 142400302631990000000000000000000,
    1418663075565720000000000000000000, 1418663075566150000000000000000000, 1418663075570380000000000000000000,
    539971419326250000000000000000000, 539971419319880000000000000000000, 539971419323761000000000000000000,
    946900966745673000000000000000000, 946900966753316000000000000000000, 946900966753050000000000000000000,
    514867007981190000000000000000000, 514867007976846000000000000000000, 514867007970910000000000000000000,
    692917641087077000000000000000000, 692917641083534000000000000000000, 692917641083512000000000000000000,
    384786348087887000000000000000000, 384786348087703000000000000000000, 384786348091793000000000000000000,
    341675933601673000000000000000000, 341675933602221000000000000000000, 341675933602166000000000000000000,
    185506742588904000000000000000000, 185506742588527000000000000000000, 185506742588539000000000000000000,
    1082037555609100000000000000000000, 1082037555613980000000000000000000, 1082037555609710000000000000000000,
    906808701359823000000000000000000, 906808701356199000000000000000000, 906808701357411000000000000000000,
    1386097624531740000000000000000000, 1386097624535670000000000000000000, 1386097624539600000000000000000000,
    456878927721502000000000000000000, 456878927727467000000000000000000, 456878927726143000000000000000000,
    464900158014659000000000000000000, 464900158010975000000000000000000, 464900158010665000000000000000000,
    326622940781702000000000000000000, 326622940780099000000000000000000, 326622940781070000000000000000000,
    1247296221087090000000000000000000, 1247296221086730000000000000000000, 1247296221093260000000000000000000,
    267294138131050000000000000000000, 267294138129828000000000000000000, 267294138131039000000000000000000,
    247104884668795000000000000000000, 247104884666643000000000000000000, 247104884669676000000000000000000,
    296404318850117000000000000000000, 296404318841329000000000000000000, 296404318845359000000000000000000,
    860843027377963000000000000000000, 860843027375037000000000000000000, 860843027377383000000000000000000,
    876808189201044000000000000000000, 876808189200772000000000000000000, 876808189201718000000000000000000,
    290438401248579000000000000000000, 290438401246964000000000000000000, 290438401247830000000000000000000,
    214700460048371000000000000000000, 214700460050576000000000000000000, 214700460053189000000000000000000,
    28872798277953400000000000000000, 28872798277259500000000000000000, 28872798275976000000000000000000,
    890647160456436000000000000000000, 890647160456416000000000000000000, 890647160457989000000000000000000,
    949936126258408000000000000000000, 949936126256084000000000000000000, 949936126260162000000000000000000,
    1687691724868760000000000000000000, 1687691724869570000000000000000000, 1687691724869630000000000000000000,
    948331095626193000000000000000000, 948331095626163000000000000000000, 948331095627096000000000000000000,
    291801565831253000000000000000000, 291801565829244000000000000000000, 291801565827458000000000000000000,
    270440540659129000000000000000000, 270440540658569000000000000000000, 270440540661825000000000000000000,
    36444503829071100000000000000000, 36444503830403200000000000000000, 36444503827151000000000000000000,
    212760250081768000000000000000000, 212760250089270000000000000000000, 212760250085897000000000000000000,
    245758502593965000000000000000000, 245758502598051000000000000000000, 245758502598958000000000000000000,
    1403798417026190000000000000000000, 12504520777175400000000000000000, 1529167476688990000000000000000000,
    448751025261868000000000000000000, 271147435356790000000000000000000, 1797838630723240000000000000000000]⟩

/-- `tetrahedron_table_orig[15]` (xg_quad_data.py 18103-18536). -/
def xgTet_15 : XgTableRule :=
  ⟨[
    [25815211947884300000000000000000000, 30417538236605700000000000000000000, 11494153692982700000000000000000000],
    [m 39249966807428200000000000000000000, 7147860232646700000000000000000000, 11494153692979800000000000000000000],
    [13434754859546200000000000000000000, m 37565398469253000000000000000000000, 11494153692977200000000000000000000],
    [17479366276000400000000000000000000, 34350251258201000000000000000000000, m 14251419648879600000000000000000000],
    [m 38487873353985700000000000000000000, m 2037550392031690000000000000000000,
     m 14251419648875300000000000000000000],
    [21008507077984800000000000000000000, m 32312700866169800000000000000000000,
     m 14251419648878700000000000000000000],
    [m 26861583854866400000000000000000000, m 20974680532326200000000000000000000,
     m 38973916502021600000000000000000000],
    [31595398104693000000000000000000000, m 12775473738038300000000000000000000,
     m 38973916502021200000000000000000000],
    [m 4733814249823750000000000000000000, 33750154270361400000000000000000000,
     m 38973916502021800000000000000000000],
    [535680841576558000000000000000000, 9689475305431050000000000000000000, 74252831671860300000000000000000000],
    [m 8659172184635910000000000000000000, m 4380824435589390000000000000000000, 74252831671861900000000000000000000],
    [8123491343054050000000000000000000, m 5308650869840930000000000000000000, 74252831671861400000000000000000000],
    [m 81446311348451200000000000000000000, m 50780562031622200000000000000000000,
     m 28561122420826600000000000000000000],
    [84700412412062200000000000000000000, m 45144293656484500000000000000000000,
     m 28561122420827000000000000000000000],
    [m 3254101063610140000000000000000000, 95924855688106800000000000000000000,
     m 28561122420825700000000000000000000],
    [22493584419354800000000000000000000, 71576855838295000000000000000000000, m 38918675464442900000000000000000000],
    [m 73234167688657500000000000000000000, m 16308412389815300000000000000000000,
     m 38918675464443900000000000000000000],
    [50740583269302800000000000000000000, m 55268443448479600000000000000000000,
     m 38918675464443400000000000000000000],
    [m 54735703843413000000000000000000000, m 24323541973821200000000000000000000,
     18473255823241100000000000000000000],
    [48432657181054600000000000000000000, m 35240739035505800000000000000000000, 18473255823240300000000000000000000],
    [6303046662358980000000000000000000, 59564281009330600000000000000000000, 18473255823240800000000000000000000],
    [m 2378791442311290000000000000000000, 24655069891171500000000000000000000, 58027046825220700000000000000000000],
    [m 20162521136681700000000000000000000, m 14387628764931700000000000000000000,
     58027046825222600000000000000000000],
    [22541312578989500000000000000000000, m 10267441126240200000000000000000000, 58027046825223400000000000000000000],
    [m 7391871819240760000000000000000000, m 54772707701169000000000000000000000,
     m 39144139110491800000000000000000000],
    [51130492212892900000000000000000000, 20984805073602100000000000000000000, m 39144139110491400000000000000000000],
    [m 43738620393651100000000000000000000, 33787902627567500000000000000000000,
     m 39144139110492100000000000000000000],
    [m 29680045306990700000000000000000000, 3217216264418480000000000000000000, 40615006739307100000000000000000000],
    [12053831639038000000000000000000000, m 27312281353534200000000000000000000, 40615006739311000000000000000000000],
    [17626213667949900000000000000000000, 24095065089117000000000000000000000, 40615006739308500000000000000000000],
    [m 424109825534735000000000000000000, 41643107620837200000000000000000000, 58086323914008500000000000000000000],
    [m 35851934179406200000000000000000000, m 21188843693325600000000000000000000,
     58086323914008700000000000000000000],
    [36276044004941300000000000000000000, m 20454263927510100000000000000000000, 58086323914010300000000000000000000],
    [420238636403193000000000000000000, m 2089419032777850000000000000000000, 112230077847980000000000000000000000],
    [1599370643332780000000000000000000, 1408646851164700000000000000000000, 112230077847979000000000000000000000],
    [m 2019609279738780000000000000000000, 680772181611991000000000000000000, 112230077847980000000000000000000000],
    [m 5388551273867860000000000000000000, 84152052407791000000000000000000000,
     m 17023826014100100000000000000000000],
    [m 70183539528812400000000000000000000, m 46742648496659800000000000000000000,
     m 17023826014099200000000000000000000],
    [75572090802679500000000000000000000, m 37409403911130400000000000000000000,
     m 17023826014098700000000000000000000],
    [3646027806298290000000000000000000, 71145220481902100000000000000000000, m 2928517214460710000000000000000000],
    [m 63436582198322500000000000000000000, m 32415057537792000000000000000000000,
     m 2928517214460720000000000000000000],
    [59790554392026100000000000000000000, m 38730162944110300000000000000000000,
     m 2928517214460040000000000000000000],
    [1258503466822880000000000000000000, m 28364992252173400000000000000000000, m 2378639271913670000000000000000000],
    [23935552135116300000000000000000000, 15272392099102800000000000000000000, m 2378639271913050000000000000000000],
    [m 25194055601940200000000000000000000, 13092600153068100000000000000000000,
     m 2378639271915440000000000000000000],
    [385162531779287000000000000000000, m 17937724481876500000000000000000000, m 38760024827806700000000000000000000],
    [15341943821500900000000000000000000, 9302422778043600000000000000000000, m 38760024827806600000000000000000000],
    [m 15727106353283300000000000000000000, 8635301703831090000000000000000000,
     m 38760024827806300000000000000000000],
    [m 348530140993749000000000000000000, m 18502824453638700000000000000000000,
     m 15732764004671800000000000000000000],
    [16198181089113900000000000000000000, 8949576270733580000000000000000000, m 15732764004675000000000000000000000],
    [m 15849650948122600000000000000000000, 9553248182902170000000000000000000,
     m 15732764004675000000000000000000000],
    [5304635114647130000000000000000000, m 44007317659808300000000000000000000, m 9846677659403660000000000000000000],
    [35459137488481000000000000000000000, 26597607596995400000000000000000000, m 9846677659401410000000000000000000],
    [m 40763772603130400000000000000000000, 17409710062810700000000000000000000,
     m 9846677659402990000000000000000000],
    [6653928546486270000000000000000000, 23907896488813900000000000000000000, 41957495088879500000000000000000000],
    [m 24031809983606500000000000000000000, m 6191477088183470000000000000000000,
     41957495088881200000000000000000000],
    [17377881437120700000000000000000000, m 17716419400629300000000000000000000, 41957495088881600000000000000000000],
    [m 16673489310625300000000000000000000, 40962101486964000000000000000000000, 16987064782806500000000000000000000],
    [m 27137475824796700000000000000000000, m 34920716056212400000000000000000000,
     16987064782804200000000000000000000],
    [43810965135420500000000000000000000, m 6041385430752710000000000000000000, 16987064782806200000000000000000000],
    [9493532822319650000000000000000000, m 5696877119302570000000000000000000, 100104563339689000000000000000000000],
    [186873896394871000000000000000000, 11070079155441500000000000000000000, 100104563339690000000000000000000000],
    [m 9680406718713280000000000000000000, m 5373202036138140000000000000000000,
     100104563339690000000000000000000000],
    [m 5105981722468010000000000000000000, m 34592781568983100000000000000000000,
     12782529866145300000000000000000000],
    [32511218487541300000000000000000000, 12874480901572300000000000000000000, 12782529866143200000000000000000000],
    [m 27405236765071600000000000000000000, 21718300667408400000000000000000000, 12782529866141600000000000000000000],
    [m 2080245286773480000000000000000000, 18488392978742200000000000000000000, 6699851292944300000000000000000000],
    [m 14971295351342700000000000000000000, m 11045741753808400000000000000000000,
     6699851292952050000000000000000000],
    [17051540638128400000000000000000000, m 7442651224930890000000000000000000, 6699851292943050000000000000000000],
    [29217812387094400000000000000000000, m 32816049041264800000000000000000000, 18886030520057800000000000000000000],
    [13810625928022100000000000000000000, 41711392290868800000000000000000000, 18886030520053600000000000000000000],
    [m 43028438315119700000000000000000000, m 8895343249598350000000000000000000,
     18886030520051500000000000000000000],
    [m 8780905828000340000000000000000000, m 25795496618938300000000000000000000,
     41623191174525400000000000000000000],
    [26730008289235100000000000000000000, 5293260794183280000000000000000000, 41623191174527100000000000000000000],
    [m 17949102461237200000000000000000000, 20502235824753600000000000000000000, 41623191174526100000000000000000000],
    [m 1944587456799730000000000000000000, 33720039476151100000000000000000000,
     m 14293774191073500000000000000000000],
    [m 28230117074561100000000000000000000, m 18544081875541400000000000000000000,
     m 14293774191070300000000000000000000],
    [30174704531362900000000000000000000, m 15175957600607600000000000000000000,
     m 14293774191073000000000000000000000],
    [m 7313431320411610000000000000000000, 64689849721006100000000000000000000, 7526757476604350000000000000000000],
    [m 52366337565182700000000000000000000, m 38678542172811500000000000000000000,
     7526757476604870000000000000000000],
    [59679768885593800000000000000000000, m 26011307548193600000000000000000000, 7526757476604780000000000000000000],
    [m 37625070524488400000000000000000000, m 11432255655738500000000000000000000,
     5502259745637510000000000000000000],
    [28713159082673000000000000000000000, m 26868139065523100000000000000000000, 5502259745639020000000000000000000],
    [8911911441816050000000000000000000, 38300394721258200000000000000000000, 5502259745637600000000000000000000],
    [m 3797896271838640000000000000000000, 55896447566729000000000000000000000,
     m 37836457302907300000000000000000000],
    [m 46508795438175800000000000000000000, m 31237298435716800000000000000000000,
     m 37836457302907300000000000000000000],
    [50306691710013500000000000000000000, m 24659149131017500000000000000000000,
     m 37836457302907300000000000000000000],
    [275055549348987000000000000000000, 83875180793612700000000000000000000, m 3557858186989300000000000000000000],
    [m 72775565088954700000000000000000000, m 41699385303617500000000000000000000,
     m 3557858186987810000000000000000000],
    [72500509539607300000000000000000000, m 42175795489994900000000000000000000,
     m 3557858186989160000000000000000000],
    [61230061385656000000000000000000000, m 21579664551150800000000000000000000,
     m 11800947709355300000000000000000000],
    [m 11926492986382900000000000000000000, 63816620910836400000000000000000000,
     m 11800947709354300000000000000000000],
    [m 49303568399272200000000000000000000, m 42236956359683100000000000000000000,
     m 11800947709354300000000000000000000],
    [m 26457272200894300000000000000000000, 35259933104757400000000000000000000,
     m 16374800275572000000000000000000000],
    [m 17307361704011700000000000000000000, m 40542636393191500000000000000000000,
     m 16374800275572200000000000000000000],
    [43764633904905000000000000000000000, 5282703288436960000000000000000000, m 16374800275571400000000000000000000],
    [m 6630962451131290000000000000000000, 24188346990541800000000000000000000, 29774548604757000000000000000000000],
    [m 17632241743797900000000000000000000, m 17836755429490700000000000000000000,
     29774548604758200000000000000000000],
    [24263204194926300000000000000000000, m 6351591561047870000000000000000000, 29774548604756700000000000000000000],
    [m 420038409319059000000000000000000, 62813224041423600000000000000000000, 25967126045984600000000000000000000],
    [m 54187828508816400000000000000000000, m 31770375953747000000000000000000000,
     25967126045985300000000000000000000],
    [54607866918135900000000000000000000, m 31042848087676200000000000000000000, 25967126045984800000000000000000000],
    [5394663228522690000000000000000000, m 20523543209607100000000000000000000, 22715089269558600000000000000000000],
    [15076578180927100000000000000000000, 14933687005569700000000000000000000, 22715089269555500000000000000000000],
    [m 20471241409449500000000000000000000, 5589856204040970000000000000000000, 22715089269557000000000000000000000],
    [10181714269994300000000000000000000, 56406589895332800000000000000000000, m 27799261789741300000000000000000000],
    [m 53940396925206600000000000000000000, m 19385671735777600000000000000000000,
     m 27799261789738500000000000000000000],
    [43758682655212700000000000000000000, m 37020918159556300000000000000000000,
     m 27799261789741200000000000000000000],
    [12455133013034800000000000000000000, 67351383384000500000000000000000000, m 38234327772244600000000000000000000],
    [m 64555575497087700000000000000000000, m 22889230095198000000000000000000000,
     m 38234327772244000000000000000000000],
    [52100442484052000000000000000000000, m 44462153288804300000000000000000000,
     m 38234327772244700000000000000000000],
    [m 9855929555799210000000000000000000, 91983538884106100000000000000000000,
     m 37753863224449100000000000000000000],
    [m 74732116625730300000000000000000000, m 54527254815285500000000000000000000,
     m 37753863224449300000000000000000000],
    [84588046181529400000000000000000000, m 37456284068821400000000000000000000,
     m 37753863224449400000000000000000000],
    [m 17553880202830800000000000000000000, 71551661829042400000000000000000000,
     m 28296886270114800000000000000000000],
    [m 53188616725529000000000000000000000, m 50977937105161900000000000000000000,
     m 28296886270114900000000000000000000],
    [70742496928360300000000000000000000, m 20573724723881900000000000000000000,
     m 28296886270115400000000000000000000],
    [m 626762915722012000000000000000000, m 7296366071409340000000000000000000, 92666599027356500000000000000000000],
    [6632219831012680000000000000000000, 3105390428539380000000000000000000, 92666599027356100000000000000000000],
    [m 6005456915289890000000000000000000, 4190975642870680000000000000000000, 92666599027356400000000000000000000],
    [m 20233811082675600000000000000000000, m 956595869654207000000000000000000, 70424087081649100000000000000000000],
    [10945341865613400000000000000000000, m 17044696478144100000000000000000000, 70424087081648800000000000000000000],
    [9288469217061770000000000000000000, 18001292347798000000000000000000000, 70424087081647800000000000000000000],
    [m 6473499743579240000000000000000000, 41086332571168200000000000000000000, 41168840474923500000000000000000000],
    [m 32345057883178000000000000000000000, m 26149381514915800000000000000000000,
     41168840474923000000000000000000000],
    [38818557626756700000000000000000000, m 14936951056252500000000000000000000, 41168840474923500000000000000000000],
    [m 12330255454272100000000000000000000, 40193209435052600000000000000000000, 1190964787818940000000000000000000],
    [m 28643212703244100000000000000000000, m 30774919176074100000000000000000000,
     1190964787820830000000000000000000],
    [40973468157518800000000000000000000, m 9418290258973970000000000000000000, 1190964787819720000000000000000000],
    [19896489145263900000000000000000000, 50453508506000200000000000000000000, m 9824886296290350000000000000000000],
    [m 53642264648885000000000000000000000, m 7995889207082830000000000000000000,
     m 9824886296290940000000000000000000],
    [33745775503619100000000000000000000, m 42457619298921100000000000000000000,
     m 9824886296292370000000000000000000],
    [2178991630195040000000000000000000, 61398654171549100000000000000000000, m 12100769327937500000000000000000000],
    [m 54262290085834900000000000000000000, m 28812264979394100000000000000000000,
     m 12100769327935200000000000000000000],
    [52083298455640000000000000000000000, m 32586389192156700000000000000000000,
     m 12100769327935000000000000000000000],
    [m 20145230598294100000000000000000000, 24113230940265600000000000000000000,
     m 29703233170750500000000000000000000],
    [m 10810055262442800000000000000000000, m 29502896933350400000000000000000000,
     m 29703233170750500000000000000000000],
    [30955285860736300000000000000000000, 5389665993088000000000000000000000, m 29703233170750100000000000000000000],
    [m 1169567835631200000000000000000000, m 13878298458961400000000000000000000,
     58280652146045400000000000000000000],
    [12603742944577100000000000000000000, 5926273772376190000000000000000000, 58280652146043500000000000000000000],
    [m 11434175108949200000000000000000000, 7952024686583800000000000000000000, 58280652146046900000000000000000000],
    [6829681010950600000000000000000000, 29511210596314100000000000000000000, m 30178765709074600000000000000000000],
    [m 28972298578318400000000000000000000, m 8840928042931670000000000000000000,
     m 30178765709074300000000000000000000],
    [22142617567365200000000000000000000, m 20670282553383300000000000000000000,
     m 30178765709074000000000000000000000],
    [m 42981750030683900000000000000000000, 445269831351928000000000000000000, m 38622442779905300000000000000000000],
    [21105260029849600000000000000000000, m 37445922341359900000000000000000000,
     m 38622442779905100000000000000000000],
    [21876490000832700000000000000000000, 37000652510006000000000000000000000, m 38622442779905200000000000000000000],
    [65783071490769700000000000000000000, m 17094239138375300000000000000000000,
     m 38043463044831400000000000000000000],
    [m 18087490393186100000000000000000000, 65516930619161700000000000000000000,
     m 38043463044831300000000000000000000],
    [m 47695581097583900000000000000000000, m 48422691480789100000000000000000000,
     m 38043463044831300000000000000000000],
    [m 37046307366366100000000000000000000, m 15695019643230800000000000000000000,
     46145186678380600000000000000000000],
    [32115439407118100000000000000000000, m 24235533474063900000000000000000000, 46145186678382300000000000000000000],
    [4930867959248820000000000000000000, 39930553117294700000000000000000000, 46145186678381600000000000000000000],
    [m 11930055178085600000000000000000000, 53064187174784000000000000000000000,
     m 26645677965305300000000000000000000],
    [m 39989906535492000000000000000000000, m 36863824440163800000000000000000000,
     m 26645677965304600000000000000000000],
    [51919961713577700000000000000000000, m 16200362734619200000000000000000000,
     m 26645677965305700000000000000000000],
    [m 15045205551019100000000000000000000, m 42819434555323100000000000000000000,
     m 38344402106662400000000000000000000],
    [44605320876104000000000000000000000, 8380187065320080000000000000000000, m 38344402106662300000000000000000000],
    [m 29560115325086700000000000000000000, 34439247490001200000000000000000000,
     m 38344402106662400000000000000000000],
    [19758300547536200000000000000000000, 66068246812586900000000000000000000, m 28096607458349000000000000000000000],
    [m 67095930396969100000000000000000000, m 15922933196517700000000000000000000,
     m 28096607458350500000000000000000000],
    [47337629849432700000000000000000000, m 50145313616068200000000000000000000,
     m 28096607458349800000000000000000000],
    [m 746313738874201000000000000000000, 49064738461817600000000000000000000, 18432254233228700000000000000000000],
    [m 42118153068536900000000000000000000, m 25178695887966200000000000000000000,
     18432254233228900000000000000000000],
    [42864466807408100000000000000000000, m 23886042573849300000000000000000000, 18432254233228700000000000000000000],
    [204947320088601000000000000000000, 23282874026137300000000000000000000, 79499317456484800000000000000000000],
    [m 20266034039791400000000000000000000, m 11463947427434200000000000000000000,
     79499317456486800000000000000000000],
    [20061086719703100000000000000000000, m 11818926598702700000000000000000000, 79499317456485500000000000000000000],
    [7152086010197930000000000000000000, 84233595251859500000000000000000000, m 22960195040495000000000000000000000],
    [m 76524476345304700000000000000000000, m 35922909451045900000000000000000000,
     m 22960195040495000000000000000000000],
    [69372390335106600000000000000000000, m 48310685800812300000000000000000000,
     m 22960195040494100000000000000000000],
    [21668391053832100000000000000000000, m 52450973808201600000000000000000000,
     m 37688732971843600000000000000000000],
    [34589680244219100000000000000000000, 44990864015855200000000000000000000, m 37688732971843800000000000000000000],
    [m 56258071298049800000000000000000000, 7460109792348690000000000000000000,
     m 37688732971843500000000000000000000],
    [12798539399840100000000000000000000, m 42974797500194300000000000000000000,
     m 27797423904295500000000000000000000],
    [30817996657741600000000000000000000, 32571259001696300000000000000000000, m 27797423904296000000000000000000000],
    [m 43616536057579600000000000000000000, 10403538498498700000000000000000000,
     m 27797423904295500000000000000000000],
    [m 1577812374505560000000000000000000, 80091612148050900000000000000000000,
     m 30881990652406100000000000000000000],
    [m 68572464563009900000000000000000000, m 41412231672753700000000000000000000,
     m 30881990652406000000000000000000000],
    [70150276937515100000000000000000000, m 38679380475298300000000000000000000,
     m 30881990652405100000000000000000000],
    [m 71059962309492600000000000000000, 106591769485371000000000000000000000, m 38197999732451300000000000000000000],
    [m 92275650227511700000000000000000000, m 53357424475237500000000000000000000,
     m 38197999732451200000000000000000000],
    [92346710189821300000000000000000000, m 53234345010133800000000000000000000,
     m 38197999732451500000000000000000000],
    [m 1882955447783470000000000000000000, 85894931708715600000000000000000000,
     m 40153617952223300000000000000000000],
    [m 73445715192186700000000000000000000, m 44578153106333300000000000000000000,
     m 40153617952223400000000000000000000],
    [75328670639968600000000000000000000, m 41316778602383400000000000000000000,
     m 40153617952222800000000000000000000],
    [m 33752172993493000000000000000000000, 43062814862665800000000000000000000,
     m 30457071296886600000000000000000000],
    [m 20417405132788500000000000000000000, m 50761646676624900000000000000000000,
     m 30457071296886100000000000000000000],
    [54169578126281500000000000000000000, 7698831813957930000000000000000000, m 30457071296885500000000000000000000],
    [49967950380218400000000000000000000, m 44349259056561800000000000000000000,
     m 3905755491124830000000000000000000],
    [13423609791891700000000000000000000, 65448143932593400000000000000000000, m 3905755491127180000000000000000000],
    [m 63391560172112000000000000000000000, m 21098884876029200000000000000000000,
     m 3905755491126780000000000000000000],
    [75964087995068800000000000000000000, m 53495602330826400000000000000000000,
     m 37261087845324200000000000000000000],
    [8346506611711340000000000000000000, 92534631144459300000000000000000000, m 37261087845324400000000000000000000],
    [m 84310594606780100000000000000000000, m 39039028813632600000000000000000000,
     m 37261087845324300000000000000000000],
    [m 88200274270371200000000000000000000, m 49045672285541300000000000000000000,
     m 25759900261233200000000000000000000],
    [86574935280151600000000000000000000, m 51860841996126000000000000000000000,
     m 25759900261234600000000000000000000],
    [1625338990220750000000000000000000, 100906514281669000000000000000000000, m 25759900261234300000000000000000000],
    [70677423345967500000000000000000000, m 8915332085968260000000000000000000,
     m 39546744712057700000000000000000000],
    [m 27617807603360600000000000000000000, 65666110134619900000000000000000000,
     m 39546744712057700000000000000000000],
    [m 43059615742604200000000000000000000, m 56750778048653300000000000000000000,
     m 39546744712058500000000000000000000],
    [m 9186459446440830000000000000000000, 19030423232977500000000000000000000, 71585088598414500000000000000000000],
    [m 11887600241307200000000000000000000, m 17470918867941900000000000000000000,
     71585088598414600000000000000000000],
    [21074059687747600000000000000000000, m 1559504365035710000000000000000000, 71585088598413200000000000000000000],
    [54051330125250100000000000000000000, m 943860862874218000000000000000000, m 9143187100549780000000000000000000],
    [m 26208257577737900000000000000000000, 47281755428243300000000000000000000,
     m 9143187100549640000000000000000000],
    [m 27843072547510300000000000000000000, m 46337894565367400000000000000000000,
     m 9143187100549680000000000000000000],
    [14580594134952400000000000000000000, m 52633455426846700000000000000000000,
     m 26396105439725700000000000000000000],
    [38291612421129800000000000000000000, 38943892636562600000000000000000000, m 26396105439724700000000000000000000],
    [m 52872206556079600000000000000000000, 13689562790285300000000000000000000,
     m 26396105439725300000000000000000000],
    [m 1823158001392010000000, m 173834348867150000000, m 30039438029893400000000000000000000],
    [m 1699106971810910000000, m 24902063310236600000, 42754162122597300000000000000000000],
    [15699225528336000000000, 10287278335463200000000, 14546451156206700000000000000000000],
    [5359985656924710000000, 7810443937532850000000, m 10727985707978500000000000000000000]],
   [249094171140855000000000000000000, 249094171140690000000000000000000, 249094171140722000000000000000000,
    652868546942704000000000000000000, 652868546942395000000000000000000, 652868546942618000000000000000000,
    299603045409476000000000000000000, 299603045409517000000000000000000, 299603045409458000000000000000000,
    431794709527661000000000000000000, 431794709527601000000000000000000, 431794709527687000000000000000000,
    115071789816229000000000000000000, 115071789816230000000000000000000, 115071789816246000000000000000000,
    81214672435680700000000000000000, 81214672435652900000000000000000, 81214672435648200000000000000000,
    181330436451233000000000000000000, 181330436451273000000000000000000, 181330436451180000000000000000000,
    414087152453678000000000000000000, 414087152453607000000000000000000, 414087152453595000000000000000000,
    100666812186601000000000000000000, 100666812186624000000000000000000, 100666812186573000000000000000000,
    281295627235464000000000000000000, 281295627235580000000000000000000, 281295627235510000000000000000000,
    96435897291842600000000000000000, 96435897291869100000000000000000, 96435897291827200000000000000000,
    28821389253712000000000000000000, 28821389253752500000000000000000, 28821389253691900000000000000000,
    202238868092459000000000000000000, 202238868092480000000000000000000, 202238868092491000000000000000000,
    342986352626608000000000000000000, 342986352626522000000000000000000, 342986352626463000000000000000000,
    956695562971094000000000000000000, 956695562971296000000000000000000, 956695562971111000000000000000000,
    433604548796903000000000000000000, 433604548796935000000000000000000, 433604548796941000000000000000000,
    1033560642993590000000000000000000, 1033560642992940000000000000000000, 1033560642993270000000000000000000,
    423558626963751000000000000000000, 423558626963793000000000000000000, 423558626963730000000000000000000,
    681046506781639000000000000000000, 681046506781542000000000000000000, 681046506781649000000000000000000,
    397039820954813000000000000000000, 397039820954811000000000000000000, 397039820954754000000000000000000,
    80899405989575500000000000000000, 80899405989571400000000000000000, 80899405989580800000000000000000,
    552735908612229000000000000000000, 552735908612158000000000000000000, 552735908612256000000000000000000,
    1159348842191350000000000000000000, 1159348842192250000000000000000000, 1159348842191350000000000000000000,
    475283519793602000000000000000000, 475283519793658000000000000000000, 475283519793719000000000000000000,
    442753455264511000000000000000000, 442753455264529000000000000000000, 442753455264571000000000000000000,
    1080239511092230000000000000000000, 1080239511092410000000000000000000, 1080239511092090000000000000000000,
    285875163245338000000000000000000, 285875163245380000000000000000000, 285875163245399000000000000000000,
    869361992936774000000000000000000, 869361992936585000000000000000000, 869361992936762000000000000000000,
    383799020167440000000000000000000, 383799020167453000000000000000000, 383799020167383000000000000000000,
    139738389542722000000000000000000, 139738389542723000000000000000000, 139738389542685000000000000000000,
    489300425975968000000000000000000, 489300425975965000000000000000000, 489300425975971000000000000000000,
    739653306113128000000000000000000, 739653306113081000000000000000000, 739653306113117000000000000000000,
    1023524305074460000000000000000000, 1023524305074440000000000000000000, 1023524305074500000000000000000000,
    169108162235348000000000000000000, 169108162235353000000000000000000, 169108162235344000000000000000000,
    1068703689884790000000000000000000, 1068703689884500000000000000000000, 1068703689884730000000000000000000,
    672536035459299000000000000000000, 672536035459384000000000000000000, 672536035459328000000000000000000,
    285456723044317000000000000000000, 285456723044365000000000000000000, 285456723044297000000000000000000,
    106650111993310000000000000000000, 106650111993292000000000000000000, 106650111993302000000000000000000,
    278412463006544000000000000000000, 278412463006510000000000000000000, 278412463006522000000000000000000,
    255134087803697000000000000000000, 255134087803699000000000000000000, 255134087803706000000000000000000,
    237978659265236000000000000000000, 237978659265308000000000000000000, 237978659265341000000000000000000,
    367154580391546000000000000000000, 367154580391558000000000000000000, 367154580391620000000000000000000,
    943568869218895000000000000000000, 943568869219145000000000000000000, 943568869218898000000000000000000,
    567510405577512000000000000000000, 567510405577412000000000000000000, 567510405577405000000000000000000,
    757232155064711000000000000000000, 757232155064673000000000000000000, 757232155064802000000000000000000,
    926123494364474000000000000000000, 926123494364532000000000000000000, 926123494364516000000000000000000,
    628310692395311000000000000000000, 628310692395284000000000000000000, 628310692395237000000000000000000,
    950431568825956000000000000000000, 950431568825956000000000000000000, 950431568826002000000000000000000,
    402949656022401000000000000000000, 402949656022447000000000000000000, 402949656022438000000000000000000,
    272052467007333000000000000000000, 272052467007334000000000000000000, 272052467007346000000000000000000,
    337227207067558000000000000000000, 337227207067548000000000000000000, 337227207067610000000000000000000,
    791030849914603000000000000000000, 791030849914697000000000000000000, 791030849914647000000000000000000,
    398525303397504000000000000000000, 398525303397513000000000000000000, 398525303397507000000000000000000,
    356670706908016000000000000000000, 356670706907958000000000000000000, 356670706907986000000000000000000,
    717150418477603000000000000000000, 717150418477588000000000000000000, 717150418477665000000000000000000,
    189617098059473000000000000000000, 189617098059435000000000000000000, 189617098059462000000000000000000,
    287078796909986000000000000000000, 287078796910012000000000000000000, 287078796909986000000000000000000,
    235922503173230000000000000000000, 235922503173207000000000000000000, 235922503173239000000000000000000,
    761112189683938000000000000000000, 761112189683879000000000000000000, 761112189683944000000000000000000,
    464793323114600000000000000000000, 464793323114599000000000000000000, 464793323114606000000000000000000,
    62772914817206300000000000000000, 62772914817206900000000000000000, 62772914817199600000000000000000,
    106299368117930000000000000000000, 106299368117924000000000000000000, 106299368117947000000000000000000,
    406209681264780000000000000000000, 406209681264790000000000000000000, 406209681264795000000000000000000,
    134809639348428000000000000000000, 134809639348326000000000000000000, 134809639348292000000000000000000,
    150236562849430000000000000000000, 150236562849425000000000000000000, 150236562849425000000000000000000,
    50933515037411400000000000000000, 50933515037412600000000000000000, 50933515037388000000000000000000,
    45772877537753600000000000000000, 45772877537749800000000000000000, 45772877537708900000000000000000,
    168397478196152000000000000000000, 168397478196167000000000000000000, 168397478196237000000000000000000,
    213070712463987000000000000000000, 213070712463992000000000000000000, 213070712464070000000000000000000,
    146222435997457000000000000000000, 146222435997416000000000000000000, 146222435997499000000000000000000,
    1060499955638240000000000000000000, 1361881750910500000000000000000000, 887275759574957000000000000000000,
    855159201414087000000000000000000]⟩

/-- `tetrahedron_table_orig` in xg_quad_data.py. -/
def xgTet : List (Int × XgTableRule) :=
  [(1, xgTet_1), (2, xgTet_2), (3, xgTet_3), (4, xgTet_4), (5, xgTet_5), (6, xgTet_6), (7, xgTet_7), (8, xgTet_8),
   (9, xgTet_9), (10, xgTet_10), (11, xgTet_11), (12, xgTet_12), (13, xgTet_13), (14, xgTet_14), (15, xgTet_15)]

end
end Modepy.Table
