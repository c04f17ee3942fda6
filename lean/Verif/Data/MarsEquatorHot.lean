import Verif.Model.AtmTables

/-! Data of aviary/subsystems/atmosphere/data/MarsEquatorHot.py, as exact decimals (generated from the source text). -/

namespace Verif.AtmD

set_option maxRecDepth 100000

/-- `atm_data.alt`, aviary/subsystems/atmosphere/data/MarsEquatorHot.py:67-70 -/
def marsEquatorHotAlt : List ℤ :=
  [(-8000),
   (-5000),
   (-2000),
   (-1632),
   (-1627),
   (-1000),
   0,
   1000,
   2000,
   3000,
   4000,
   5000,
   6000,
   7000,
   8000,
   9000,
   10000,
   15000,
   20000,
   25000,
   30000,
   40000,
   50000,
   60000,
   70000,
   80000]
/-- `atm_data.akima_T`, aviary/subsystems/atmosphere/data/MarsEquatorHot.py:72-99 -/
def marsEquatorHotTRows : List IRow :=
  [⟨23902000000000001, 0, 0, 0⟩,
   ⟨23902000000000001, 0, 0, 0⟩,
   ⟨23902000000000001, 0, 0, 0⟩,
   ⟨23902000000000001, 0, 0, 0⟩,
   ⟨23902000000000001, 0, 9283353628094410900000000000000000000, -1216670725618895800000000000⟩,
   ⟨23981999999999999, 1583231859526921000, -1297687750325006000000000000000000, -233385731106854020000⟩,
   ⟨24406999999999999, -319320676633555930, -133358646732882370000000000000000, 125679323366440030000⟩,
   ⟨24080000000000001, -209000000000000330, 0, 0⟩,
   ⟨23871000000000001, -209000000000000330, 0, 0⟩,
   ⟨23662000000000000, -209000000000000330, 0, 0⟩,
   ⟨23453000000000000, -209000000000000330, 0, 0⟩,
   ⟨23244000000000000, -209000000000000330, 15999999999999696000000000000000, -15999999999999697000⟩,
   ⟨23034999999999999, -225000000000000030, -31999999999999260000000000000000, 15999999999999609000⟩,
   ⟨22794000000000000, -240999999999999680, 43368086899420178, 0⟩,
   ⟨22553000000000000, -240999999999999680, 2999999999997319000000000000000, -1999999999998184000⟩,
   ⟨22313000000000000, -240999999999999680, 43368086899420178, 0⟩,
   ⟨22072000000000000, -240999999999999680, 43368086899420178, 0⟩,
   ⟨21831000000000000, -240999999999999680, -364912280701847400000000000000, -135017543859646000⟩,
   ⟨20600000000000000, -254775438596491600, -4569495343296377800000000000000, 504916612518936030⟩,
   ⟨19275000000000000, -262601646090534960, 1083873566237641000000000000000, -64708869626128184⟩,
   ⟨17981000000000000, -256616075650118120, 8820303533034461700000000000000, -659417680602160410⟩,
   ⟨16836000000000001, -217869366364935400, 6449984384098198400000000000000, 27695225239533949⟩,
   ⟨15330000000000001, -80561111111111274, 29800330330330340000000000000000, -1879421921921922100⟩,
   ⟨15625000000000000, -48381081081081177, -5835136621993333100000000000000, 130324473010144330⟩,
   ⟨14688000000000000, -125986471617904480, -22103796108922369000000000000000, 1485244327071281800⟩,
   ⟨12703000000000000, -122489095674967230, 26302819134993440000000000000000, -623390956749672040⟩,
   ⟨13484999999999999, 216549999999999900, 0, 0⟩]
/-- `atm_data.akima_T`, aviary/subsystems/atmosphere/data/MarsEquatorHot.py:72-99, with the column exponents. -/
def marsEquatorHotT : CTab := ⟨14, 20, 38, 29, marsEquatorHotTRows⟩
/-- `atm_data.akima_P`, aviary/subsystems/atmosphere/data/MarsEquatorHot.py:101-128 -/
def marsEquatorHotPRows : List IRow :=
  [⟨1049200000000000000000, -805366666666666730000, 0, 0⟩,
   ⟨1049200000000000000000, -805366666666666730000, 163039113998843240000, 30135110148533771000⟩,
   ⟨830399999999999980000, -626178400866319870000, 93625179466674345000, 23137978177389628000⟩,
   ⟨657219999999999910000, -507530752107363120000, 11456687174059016000, 143704405504128870000⟩,
   ⟨638630000000000000000, -500849232308055030000, -782735755889829640000, 496240074399911850000000⟩,
   ⟨638380000000000000000, -497910167505945240000, 169083268371111130000, 38237421598251231000⟩,
   ⟨607920000000000070000, -472197453857558240000, 246643432790415890000, -83668894214838923000⟩,
   ⟨562330000000000040000, -447969435563926250000, 61759081648898869000, 28935273990365889000⟩,
   ⟨518440000000000050000, -426937037037036920000, 274280172917389800000, -51909802547021877000⟩,
   ⟨477970000000000030000, -387653943217665870000, 132807852346452510000, 12731579830206619000⟩,
   ⟨440660000000000030000, -357272898799313590000, 44703690272001469000, 89025297721134776000⟩,
   ⟨406270000000000040000, -321624571428572660000, 58994285714289445000, -14748571428571668000⟩,
   ⟨374549999999999950000, -314250285714286070000, 6451660231663464700, 22051196911198476000⟩,
   ⟨343409999999999970000, -306344594594593830000, 285891891891878690000, -78445945945940239000⟩,
   ⟨314849999999999970000, -272700000000000300000, 99272311212813070000, 9727688787189438300⟩,
   ⟨288669999999999960000, -249927231121281000000, 127912906372229170000, -28640595159414030000⟩,
   ⟨264670000000000020000, -232936828394659300000, 159862581556132280000, -31494297609541840000⟩,
   ⟨242660000000000000000, -210412601366295230000, 60677839410979922000, -162527335677897810⟩,
   ⟨152419999999999990000, -150953716972899550000, 69713646014738096000, -1158042413787807800⟩,
   ⟨92923999999999992000, -89925389061569980000, 18364219968566005000, 1855711630914795600⟩,
   ⟨54872000000000000000, -57643331861142993000, 10157428074521938000, 2279447129552809900⟩,
   ⟨31439000000000000000, -30390050314974991000, 4332715112938176800, 422933520203681700⟩,
   ⟨9611000000000000700, -9036614482988189000, 450813422311921290, 195190106067626750⟩,
   ⟨2977100000000000100, -2279284456335546200, -410486456724035560, 75897091305958149⟩,
   ⟨1046300000000000000, -823344630604872680, -117142916858197000, 22561754746306975⟩,
   ⟨331430000000000000, -380777821932057630, 22814643864115173, 10375917806794244⟩,
   ⟨77226000000000003, -23870999999999991, 0, 0⟩]
/-- `atm_data.akima_P`, aviary/subsystems/atmosphere/data/MarsEquatorHot.py:101-128, with the column exponents. -/
def marsEquatorHotP : CTab := ⟨18, 22, 26, 29, marsEquatorHotPRows⟩
/-- `atm_data.akima_rho`, aviary/subsystems/atmosphere/data/MarsEquatorHot.py:130-157 -/
def marsEquatorHotrhoRows : List IRow :=
  [⟨2324800000000000100, -178433333333333430000, 0, 0⟩,
   ⟨2324800000000000100, -178433333333333430000, 361165930337410380000, 66648393591233812000⟩,
   ⟨1840000000000000000, -138768311243455630000, 703688475133096160000, -114174181598561680000⟩,
   ⟨1456200000000000000, -127374031767081580000, 12799504781047203000000, -23396641338538801000000⟩,
   ⟨1414999999999999900, -128223679277482550000, -53257855574555241000000000, 7004465832020980300000000000⟩,
   ⟨1409799999999999900, -200659862717271270000, 8059094689114526300000, 1432540301280494800000⟩,
   ⟨1319200000000000100, -82703621232712142000, 460781412618287690000, -430419289347075280000⟩,
   ⟨1236800000000000100, -86400571660758615000, -348654140754706150000, 308711306830561390000⟩,
   ⟨1150000000000000000, -84112315270935918000, 392463054187201760000, -41231527093604597000⟩,
   ⟨1069400000000000000, -77500000000000031000, 244653558052420810000, 20346441947572638000⟩,
   ⟨994549999999999950, -71996535580524425000, 98154421494100478000, 146499136558342550000⟩,
   ⟨924999999999999950, -65638473053892139000, 133193056374292280000, -31345750985073658000⟩,
   ⟨860380000000000000, -63914984455958514000, 21913557858373977000, 45584887737479782000⟩,
   ⟨797140000000000000, -62109166666666694000, 481833333333336370000, -122916666666669380000⟩,
   ⟨738619999999999990, -56160000000000016000, 185810110974106540000, 16189889025893806000⟩,
   ⟨684479999999999980, -51958101109741039000, 235983858311850060000, -50173747337743496000⟩,
   ⟨634380000000000010, -48743636363636343000, 307206627320077440000, -69842990956443184000⟩,
   ⟨588010000000000010, -44694793545928100000, 107206087828685120000, 137956617975340510⟩,
   ⟨391510000000000040, -33870717299578057000, 150132174325200540000, -3695565666727932700⟩,
   ⟨255069999999999990, -21629174117103954000, 43611756320734501000, 2930345204268930400⟩,
   ⟨161490000000000010, -15070239581828812000, 30826397587739962000, 3986878809767253800⟩,
   ⟨98828999999999996, -8997440715729379600, 15437688985320991000, 888971817197281400⟩,
   ⟨33181999999999998, -3242987467073338800, 3311038587917712100, 603083608281568650⟩,
   ⟨10094000000000001, -771528924645092570, -802114029716507620, 221220327616743180⟩,
   ⟨3788800000000000, -268290747738164470, -414629064529809600, 69613654191145397⟩,
   ⟨1387400000000000, -142375598070690170, 1131961413803268, 32550401929309837⟩,
   ⟨290280000000000, -44498000000000005, 0, 0⟩]
/-- `atm_data.akima_rho`, aviary/subsystems/atmosphere/data/MarsEquatorHot.py:130-157, with the column exponents. -/
def marsEquatorHotrho : CTab := ⟨20, 26, 31, 34, marsEquatorHotrhoRows⟩
/-- `atm_data.akima_dT`, aviary/subsystems/atmosphere/data/MarsEquatorHot.py:159-186 -/
def marsEquatorHotdTRows : List IRow :=
  [⟨0, 0, 0, 0⟩,
   ⟨0, 0, 0, 0⟩,
   ⟨0, 0, 0, 0⟩,
   ⟨0, 0, 0, 0⟩,
   ⟨0, 0, 1899659759775996200000000000000000000000, -2532734031930451300000000000000000000000⟩,
   ⟨1583231859526926200, 10923582815767848000000000000000, -150411956412425410000000000000000000, 1599276516878526400000000000000000⟩,
   ⟨-319320676633555460, 10923582815767829000000000000000, 1124903735853079300000000000000000, -11140552510943132000000000000000⟩,
   ⟨-209000000000000550, 22444752690260592, 2016262496860907900, -20923334209159587⟩,
   ⟨-209000000000000330, 0, 0, 0⟩,
   ⟨-209000000000000330, 0, 0, 0⟩,
   ⟨-209000000000000330, 0, 79999999999998483000000000000000, -799999999999984850000000000000⟩,
   ⟨-209000000000000330, -799999999999984800000000000000, -159999999999996910000000000000000, 799999999999984980000000000000⟩,
   ⟨-225000000000000030, -1599999999999969600000000000000, 26469779601696886, 0⟩,
   ⟨-240999999999999720, -1599999999999969600000000000000, 319999999999997860000000000000000, -1599999999999995500000000000000⟩,
   ⟨-240999999999999590, 0, 0, 0⟩,
   ⟨-240999999999999590, 0, 0, 0⟩,
   ⟨-240999999999999590, 0, 0, 0⟩,
   ⟨-240999999999999590, 0, -12208629769428611000000000000000, 13396908661663617000000000000⟩,
   ⟨-254775438596491600, -216094827318089970000000000000, 1533757879293705800000000000000, -684688661098672180000000000⟩,
   ⟨-262601646090535180, -114070688971119810000000000000, 5211321486019516000000000000000, -1071359060860627100000000000⟩,
   ⟨-256616075650118160, 326709530066284660000000000000, 13335733615957263000000000000000, -8742481006419790500000000000⟩,
   ⟨-217869366364935530, 1004596816180525800000000000000, 11077390484569241000000000000000, -7392533120992069200000000000⟩,
   ⟨-80561111111111263, 1002314976796753000000000000000, -7412857585425690100000000000000, 607710820461173060000000000⟩,
   ⟨-48381081081081133, -297943294150033000000000000000, -11561619069664294000000000000000, 6780512957482282600000000000⟩,
   ⟨-125986471617904540, -576113220838206820000000000000, 5690185092996672500000000000000, 420684709679116260000000000⟩,
   ⟨-122489095674967340, 688129210664862500000000000000, 37268148935094706000000000000000, -10245531474246609000000000000⟩,
   ⟨216549999999999990, 5068099555409824400000000000000, 0, 0⟩]
/-- `atm_data.akima_dT`, aviary/subsystems/atmosphere/data/MarsEquatorHot.py:159-186, with the column exponents. -/
def marsEquatorHotdT : CTab := ⟨20, 37, 42, 43, marsEquatorHotdTRows⟩
/-- `atm_data` of aviary/subsystems/atmosphere/data/MarsEquatorHot.py. -/
def marsEquatorHot : AtmData := ⟨0, marsEquatorHotAlt, marsEquatorHotT, marsEquatorHotP, marsEquatorHotrho, marsEquatorHotdT⟩

end Verif.AtmD
