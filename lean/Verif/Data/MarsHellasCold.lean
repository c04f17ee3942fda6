import Verif.Model.AtmTables

/-! Data of aviary/subsystems/atmosphere/data/MarsHellasCold.py, as exact decimals (generated from the source text). -/

namespace Verif.AtmD

set_option maxRecDepth 100000

/-- `atm_data.alt`, aviary/subsystems/atmosphere/data/MarsHellasCold.py:71-74 -/
def marsHellasColdAlt : List ℤ :=
  [(-80000),
   (-70000),
   (-61151),
   (-61051),
   (-60000),
   (-50000),
   (-40000),
   (-30000),
   (-20000),
   (-10000),
   0,
   10000,
   20000,
   30000,
   40000,
   50000,
   60000,
   70000,
   80000,
   90000,
   100000,
   150000,
   200000,
   250000,
   300000,
   400000,
   500000,
   600000,
   700000,
   800000]
/-- `atm_data.akima_T`, aviary/subsystems/atmosphere/data/MarsHellasCold.py:76-107 -/
def marsHellasColdTRows : List IRow :=
  [⟨18149000000000001, 0, 0, 0⟩,
   ⟨18149000000000001, 0, 0, 0⟩,
   ⟨18149000000000001, 0, 0, 0⟩,
   ⟨18149000000000001, 0, -6526548076134838800000000000000000000, 434654807613483150000000000000000000000⟩,
   ⟨17931000000000000, -134519238651829290, 2214742461435091300000000000000000, -14062877111290946000000000000000000⟩,
   ⟨17925000000000000, -134996416858447440, -994493860994477000000000000000, 990910719442499770000000000000⟩,
   ⟨17790000000000001, -134012672422108940, 1025344844216252600000000000000, -1012672422107639600000000000000⟩,
   ⟨17656000000000000, -134999999999999420, -43368086899420178, 0⟩,
   ⟨17521000000000001, -134999999999999440, -21684043449710089, 0⟩,
   ⟨17386000000000001, -134999999999999420, 2002985074625010800000000000000, -1002985074625940600000000000000⟩,
   ⟨17252000000000001, -134002985074627220, -335994029850753290000000000000000, 334997014925378320000000000000000⟩,
   ⟨17116999999999999, 199000000000000910, 0, 0⟩,
   ⟨17316000000000000, 199000000000000910, 0, 0⟩,
   ⟨17515000000000001, 199000000000000910, 2999999999997276000000000000000, -1999999999998184000000000000000⟩,
   ⟨17715000000000001, 199000000000000910, -5767955557622883900, 2949029909160572600⟩,
   ⟨17913999999999999, 198999999999998090, 400634386776843580000, -397772093041481920000⟩,
   ⟨18113000000000000, 198999999999605920, -275007194243811530000000000000000, 137007194244206960000000000000000⟩,
   ⟨18174000000000001, 60007194244603753, -1014388489204895900000000000000, 1007194244600595400000000000000⟩,
   ⟨18234000000000000, 60999999999995693, 2829767670187166700, 21684043449710088⟩,
   ⟨18294999999999999, 61000000000001363, -10842021724855045, 0⟩,
   ⟨18356000000000000, 61000000000001363, -3252606517456513200, 411996825544491710⟩,
   ⟨18416999999999999, 60999999999996105, -18394160583940136000000000000000, 1158832116788187200000000000000⟩,
   ⟨18406999999999999, -36029197080291201, -8029018842301960300000000000000, 6971651672054574100000000000⟩,
   ⟨18027000000000001, -115796511627906750, -7422884710539421500000000000000, 116437407224152470000000000000⟩,
   ⟨17277000000000001, -181292553191489490, -22039376471997189000000000000000, 3115577422059011100000000000000⟩,
   ⟨16209000000000000, -168018011257035570, 2755718433979750300000000000000, 32608269172380514000000000000⟩,
   ⟨14837000000000000, -103121161825726350, 1284232365145232700000000000000, -39211618257261299000000000000⟩,
   ⟨13894999999999999, -89200000000000087, 1719602977667521100000000000000, -21960297766749965000000000000⟩,
   ⟨13153000000000000, -61396029776674657, 30779785665479829000000000000000, -1916018268781237600000000000000⟩,
   ⟨13700999999999999, -20605797101449266, -12143840579710127000000000000000, 153442028985506900000000000000⟩,
   ⟨12434000000000000, -217449999999999800, 0, 0⟩]
/-- `atm_data.akima_T`, aviary/subsystems/atmosphere/data/MarsHellasCold.py:76-107, with the column exponents. -/
def marsHellasColdT : CTab := ⟨14, 20, 38, 41, marsHellasColdTRows⟩
/-- `atm_data.akima_P`, aviary/subsystems/atmosphere/data/MarsHellasCold.py:109-140 -/
def marsHellasColdPRows : List IRow :=
  [⟨1280000000000000000000, -12349644027573735000000, 0, 0⟩,
   ⟨1280000000000000000000, -12349644027573735000000, 6585377398081432100000000000000, -3088937122344093200000000000000⟩,
   ⟨1160000000000000000000, -11959249684660672000000, 6140692090720516100000000000000, 1470508771234667000000000000000⟩,
   ⟨1060000000000000000000, -10527026308344103000000, 30024830771535050000000000000000000, -1949780446319094400000000000000000000⟩,
   ⟨1060000000000000000000, -8970778154846841000000, -46152125590382354000000000000000, -53332256968749411000000000000000⟩,
   ⟨1050000000000000000000, -10117628427896498000000, -8578583352049528600000000000000, 7754867631014461900000000000000⟩,
   ⟨948000000000000000000, -9506884809002055800000, 8592241634586564900000000000000, -2523393544566044000000000000000⟩,
   ⟨859000000000000000000, -8545454545454546400000, 755244755244785560000000000000, 1699300699300687800000000000000⟩,
   ⟨776000000000000000000, -7884615384615385700000, 5754807692307739700000000000000, -908653846153878520000000000000⟩,
   ⟨702000000000000000000, -7006250000000000000000, -13877787807814457, 3062500000000023700000000000000⟩,
   ⟨635000000000000000000, -6087499999999999900000, 1249999999999994200000000000000, -374999999999986450000000000000⟩,
   ⟨575000000000000000000, -5949999999999999000000, -166666666666662200000000000000, 666666666666635000000000000000⟩,
   ⟨516000000000000000000, -5783333333333336200000, 8749999999999855200000000000000, -2916666666666567500000000000000⟩,
   ⟨463999999999999940000, -4908333333333332600000, 1388888888888974300000000000000, 694444444444386490000000000000⟩,
   ⟨417000000000000000000, -4422222222222217000000, 1944444444444346100000000000000, 277777777777835100000000000000⟩,
   ⟨375000000000000000000, -3950000000000000700000, 1500000000000022300000000000000, -13877787807814456⟩,
   ⟨337000000000000000000, -3649999999999999800000, 599999999999989490000000000000, 900000000000011990000000000000⟩,
   ⟨302000000000000000000, -3260000000000000400000, 2200000000000011100000000000000, -600000000000003410000000000000⟩,
   ⟨271000000000000000000, -3000000000000000200000, 400000000000001040000000000000, 599999999999996380000000000000⟩,
   ⟨242000000000000000000, -2740000000000000400000, 3549999999999997800000000000000, -1149999999999998300000000000000⟩,
   ⟨217000000000000000000, -2375000000000000000000, 1792682926829266500000000000000, -42682926829268336000000000000⟩,
   ⟨195000000000000000000, -2029268292682926900000, 754054302807176810000000000000, 4896456511735147900000000000⟩,
   ⟨112999999999999990000, -1238490566037735700000, 541543050177145310000000000000, 4687616379665388400000000000⟩,
   ⟨65200000000000003000, -661790393013100310000, 82542244030232522000000000000, 23407708399193556000000000000⟩,
   ⟨37100000000000001000, -403690335988915980000, 41720606518851071000000000000, 21132013091796147000000000000⟩,
   ⟨20599999999999998000, -203479631281593830000, 24230946547087390000000000000, 3264868473450643000000000000⟩,
   ⟨5940000000000000400, -57071683983899650000, 1578473408167882300000000000, 1319321057573175800000000000⟩,
   ⟨1710000000000000000, -14335105440368599000, -3373681509731672700000000000, 566878695010027060000000000⟩,
   ⟨506000000000000010, -4076107609531129800, -598860993408871380000000000, 119496860294000210000000000⟩,
   ⟨158000000000000000, -1688923787528868400, -184652424942263600000000000, 65857621247113180000000000⟩,
   ⟨36499999999999998, -82500000000000057, 0, 0⟩]
/-- `atm_data.akima_P`, aviary/subsystems/atmosphere/data/MarsHellasCold.py:109-140, with the column exponents. -/
def marsHellasColdP : CTab := ⟨18, 23, 36, 39, marsHellasColdPRows⟩
/-- `atm_data.akima_rho`, aviary/subsystems/atmosphere/data/MarsHellasCold.py:142-173 -/
def marsHellasColdrhoRows : List IRow :=
  [⟨374000000000000030000, -3817900327720656800000, 0, 0⟩,
   ⟨374000000000000030000, -3817900327720656800000, 4301482086769244500000000000000, -21224788095627426000000000000000⟩,
   ⟨337999999999999970000, -3594347553235629400000, 4815748192789883200000000000000, 511162923068773830000000000000⟩,
   ⟨310000000000000000000, -2730048484784832600000, 98162248429555271000000000000000000, -65432199944770254000000000000000000000⟩,
   ⟨313000000000000010000, -2702151459985083600000, -43580950434807453000000000000000, 2768084505630406300000000000000000⟩,
   ⟨310000000000000000000, -2700934364223580700000, -852722111501593990000000000000, 8620657537373883100000000000000⟩,
   ⟨282999999999999990000, -2612859060402683000000, 1257181208053682500000000000000, -1285906040268417700000000000000⟩,
   ⟨258000000000000000000, -2399999999999999000000, 999999999999990470000000000000, 0⟩,
   ⟨235000000000000000000, -2200000000000001000000, 999999999999990470000000000000, 84703294725430030⟩,
   ⟨213999999999999990000, -2000000000000000300000, 1200000000000024500000000000000, -2000000000000107900000000000000⟩,
   ⟨195000000000000000000, -1819999999999998900000, 3899999999999973100000000000000, -26999999999999829000000000000000⟩,
   ⟨178000000000000000000, -1849999999999999700000, -3999999999999957800000000000000, 24999999999999676000000000000000⟩,
   ⟨158000000000000020000, -1900000000000000000000, -25410988417629011, 10000000000000158000000000000000⟩,
   ⟨140000000000000000000, -1600000000000000800000, 1347826086956543800000000000000, -3478260869565342500000000000000⟩,
   ⟨125000000000000010000, -1434782608695652100000, 124223602484467140000000000000, 2236024844720523000000000000000⟩,
   ⟨111000000000000000000, -1342857142857143000000, 1028571428571440500000000000000, -42351647362715015⟩,
   ⟨98600000000000007000, -1137142857142857200000, 771428571428563470000000000000, 42351647362715015⟩,
   ⟨88000000000000005000, -982857142857142820000, 257142857142861200000000000000, 1714285714285692000000000000000⟩,
   ⟨78600000000000007000, -880000000000000360000, 378947368421049650000000000000, 210526315789486160000000000000⟩,
   ⟨70200000000000002000, -797894736842105840000, 502575587905940410000000000000, -1236282194848843900000000000000⟩,
   ⟨62599999999999999000, -734468085106382970000, 662465150403527160000000000000, -177842993396936390000000000000⟩,
   ⟨55900000000000004000, -607310344827585740000, 301545176778696750000000000000, -45848974247051182000000000000⟩,
   ⟨32499999999999999000, -340151898734177340000, 113760969169838480000000000000, 61085656597032658000000000000⟩,
   ⟨19100000000000000000, -180576687116564410000, 20204885112220213000000000000, 65896978241817035000000000000⟩,
   ⟨11400000000000000000, -110949068322981360000, 9083154453229866300000000000, 52829964385465856000000000000⟩,
   ⟨6740000000000000100, -62243440580652155000, 6204846907546876000000000000, 9838593673105272900000000000⟩,
   ⟨2120000000000000000, -20317965746242577000, 1935442939331846900000000000, 3692522806910732400000000000⟩,
   ⟨650999999999999970, -5369511446846689900, -979610990973583900000000000, 1879122437820274500000000000⟩,
   ⟨204000000000000010, -1691366115333035200, -207810205679411950000000000, 470176321012447000000000000⟩,
   ⟨61099999999999999, -696457563654518250, -17584872690963486000000000, 250042436345481890000000000⟩,
   ⟨14699999999999999, 18500000000000043, 0, 0⟩]
/-- `atm_data.akima_rho`, aviary/subsystems/atmosphere/data/MarsHellasCold.py:142-173, with the column exponents. -/
def marsHellasColdrho : CTab := ⟨22, 27, 40, 44, marsHellasColdrhoRows⟩
/-- `atm_data.akima_dT`, aviary/subsystems/atmosphere/data/MarsHellasCold.py:175-206 -/
def marsHellasColddTRows : List IRow :=
  [⟨0, 0, 0, 0⟩,
   ⟨0, 0, 0, 0⟩,
   ⟨0, 0, 0, 0⟩,
   ⟨0, 0, -4034571152159594900000000000000000000000000000, 268937876564139370000000000000000000000000000000⟩,
   ⟨-134519238651820140, -1006007395009265100000000000000000, 52488316563783596000000000000000000000000, 300702179632648560000000000000000000000⟩,
   ⟨-134996416858447490, 98293486946443399000000000000000, 1673811805907942100000000000000000000000, -1673002239033787800000000000000000000000⟩,
   ⟨-134012672422108900, -68844823582104489000000000000000, -1585086262029043600000000000000000000000, 1286206919959631300000000000000000000000⟩,
   ⟨-134999999999999360, -23868215254525477000, 87474959702577495000000000, -581111305293360550000000⟩,
   ⟨-134999999999999510, -6547556705597984200, 173798283030606530000000000, -86638672524916578000000000⟩,
   ⟨-134999999999999490, 2220498143048343400, 1002967253284907700000000000000000000000, -5952327912665024800000000000000000000⟩,
   ⟨-134002985074627220, 198807752283184280000000000000000, 995032800178221370000000000000000000000000, -664017892626424850000000000000000000000000⟩,
   ⟨199000000000001090, 52093798077336478, -521458918754588870000000000, 347465633176134740000000000⟩,
   ⟨199000000000000910, 0, 0, 0⟩,
   ⟨199000000000000910, 0, 0, 0⟩,
   ⟨199000000000000910, 0, -5377642775520567300000000000, 2688821387756516400000000000⟩,
   ⟨198999999999998220, -268882138777158560000, -392251120278776610000000000000, 2762331835091280800000000000⟩,
   ⟨198999999999606050, -77890406644005049000000, -416978417263452130000000000000000000000000, 277985611509228670000000000000000000000000⟩,
   ⟨60007194244603699, 284875681511630330000, 2978417266164736500000000000000000000000, -1985611510775536600000000000000000000000⟩,
   ⟨60999999999995747, 571113106078099970000, 5664764116779617200000000000, -5705517815461430200000000000⟩,
   ⟨61000000000001418, -7589415204405229800, -58334668879895352, 28401655035641265⟩,
   ⟨61000000000001342, -7589415207551668000, 18726570784445877000000000000, -23898215147200204000000000000⟩,
   ⟨60999999999996094, -3431739802478434900000, -8364276297755230200000000000000000000000, 896621682910120000000000000000000000000⟩,
   ⟨-36029197080291212, -1639613675932761500000000000000000, 74458809186936426000000000000000000000, 2815192154793416200000000000000000000⟩,
   ⟨-115796511627906710, -1544040925584874900000000000000000, -407997140631017240000000000000000000000, 175247465851490860000000000000000000000⟩,
   ⟨-181292553191489530, -637682072329711200000000000000000, 3033232324114317900000000000000000000000, -245377300415347210000000000000000000000⟩,
   ⟨-168018011257035550, 555220498669502700000000000000000, 561760252518182590000000000000000000000, -46801225687459401000000000000000000000⟩,
   ⟨-103121161825726420, 274704233082086080000000000000000, -381626900725679820000000000000000000000, 24613428590085700000000000000000000000⟩,
   ⟨-89200000000000087, 249853289333297530000000000000000, 49204896055852765000000000000000000000, -2101848315589592800000000000000000000⟩,
   ⟨-61396029776674657, 285207631977315150000000000000000, 368523000312305520000000000000000000000, -24582830553736682000000000000000000000⟩,
   ⟨-20605797101449287, 284768715989825580000000000000000, -3318249312081781900000000000000000000000, 106503856710645160000000000000000000000⟩,
   ⟨-217449999999999760, -3156614206854384100000000000000000, 0, 0⟩]
/-- `atm_data.akima_dT`, aviary/subsystems/atmosphere/data/MarsHellasCold.py:175-206, with the column exponents. -/
def marsHellasColddT : CTab := ⟨20, 40, 50, 53, marsHellasColddTRows⟩
/-- `atm_data` of aviary/subsystems/atmosphere/data/MarsHellasCold.py. -/
def marsHellasCold : AtmData := ⟨1, marsHellasColdAlt, marsHellasColdT, marsHellasColdP, marsHellasColdrho, marsHellasColddT⟩

end Verif.AtmD
