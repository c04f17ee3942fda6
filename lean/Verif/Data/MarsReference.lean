import Verif.Model.AtmTables

/-! Data of aviary/subsystems/atmosphere/data/MarsReference2024.py, as exact decimals (generated from the source text). -/

namespace Verif.AtmD

set_option maxRecDepth 100000

/-- `atm_data.alt`, aviary/subsystems/atmosphere/data/MarsReference2024.py:74-77 -/
def marsReferenceAlt : List ℤ :=
  [(-80000),
   (-70000),
   (-61151),
   (-61051),
   (-60000),
   (-50000),
   (-40000),
   (-30000),
   (-20000),
   (-10000),
   0,
   10000,
   20000,
   30000,
   40000,
   50000,
   60000,
   70000,
   80000,
   90000,
   100000,
   150000,
   200000,
   250000,
   300000,
   400000,
   500000,
   600000,
   700000,
   800000]
/-- `atm_data.akima_T`, aviary/subsystems/atmosphere/data/MarsReference2024.py:79-110 -/
def marsReferenceTRows : List IRow :=
  [⟨21400000000000000, 0, 0, 0⟩,
   ⟨21400000000000000, 0, 0, 0⟩,
   ⟨21400000000000000, 0, 0, 0⟩,
   ⟨21400000000000000, 0, 0, 0⟩,
   ⟨21400000000000000, 0, 0, 0⟩,
   ⟨21400000000000000, 0, 0, 0⟩,
   ⟨21400000000000000, 0, 0, 0⟩,
   ⟨21400000000000000, 0, 0, 0⟩,
   ⟨21400000000000000, 0, 0, 0⟩,
   ⟨21400000000000000, 0, 0, 0⟩,
   ⟨21400000000000000, 0, 49999999999997159000000000000000, -4999999999999715800⟩,
   ⟨21400000000000000, -49999999999997156, -99999999999994344000000000000000, 4999999999999715200⟩,
   ⟨21390000000000001, -99999999999994313, -13552527156068806, 0⟩,
   ⟨21380000000000001, -99999999999994313, -200000000000052670000000000000000, 10000000000002987000⟩,
   ⟨21359999999999999, -200000000000009960, 300000000000054040000000000000000, -30000000000003272000⟩,
   ⟨21340000000000001, -500000000000000010, 0, 0⟩,
   ⟨21290000000000001, -500000000000000010, 0, 0⟩,
   ⟨21240000000000001, -500000000000000010, -2199999999999968800000000000000000, 109999999999997470000⟩,
   ⟨21080000000000001, -1600000000000014000, 499999999999954030000000000000000, -49999999999996229000⟩,
   ⟨20919999999999999, -2099999999999994200, 0, 0⟩,
   ⟨20709999999999999, -2099999999999994200, 0, 0⟩,
   ⟨20500000000000000, -2099999999999994200, 111519999999995600000000000000000, -870399999999943140⟩,
   ⟨19619999999999999, -1637599999999996400, 7040000000001255300000000000000, 89599999999977909⟩,
   ⟨18830000000000001, -1499999999999999800, -2645453300864631000, 320000000000033860⟩,
   ⟨18119999999999999, -1260000000000000900, 9714285714287159700000000000000, -114285714285729970⟩,
   ⟨17500000000000000, -1248571428571427200, -4285714285714548000000000000000, 31428571428573311⟩,
   ⟨16240000000000001, -1239999999999998300, 34736842105262456000000000000000, -127368421052628210⟩,
   ⟨15219999999999999, -927368421052633440, 14129934210526545000000000000000, -13930921052632057⟩,
   ⟨14419999999999999, -686562499999999020, 24832500000000004000000000000000, -31762499999999916⟩,
   ⟨13950000000000000, -285199999999998750, 26039999999999812000000000000000, -25199999999999327⟩,
   ⟨13900000000000000, 159999999999999420, 0, 0⟩]
/-- `atm_data.akima_T`, aviary/subsystems/atmosphere/data/MarsReference2024.py:79-110, with the column exponents. -/
def marsReferenceT : CTab := ⟨14, 21, 39, 29, marsReferenceTRows⟩
/-- `atm_data.akima_P`, aviary/subsystems/atmosphere/data/MarsReference2024.py:112-143 -/
def marsReferencePRows : List IRow :=
  [⟨1310000000000000000000, -1084964402757373400000, 0, 0⟩,
   ⟨1310000000000000000000, -1084964402757373400000, -292917412505756810000, 142561440079488910000⟩,
   ⟨1200000000000000000000, -1100779453234677800000, -1053282618901177100000, 816210971482962530000⟩,
   ⟨1100000000000000000000, -1095449698039838300000, 3100922590841866500000000, -200547289280202840000000000⟩,
   ⟨1100000000000000000000, -910023194762189790000, -12495196836735407000000, 81362344953615658000000⟩,
   ⟨1090000000000000000000, -903053449476040600000, -276563629576330450000, 307098124336735450000⟩,
   ⟨1000000000000000000000, -866236738090285920000, 340119377190334380000, -77751996287475656000⟩,
   ⟨916000000000000000000, -821538461538461610000, 150769230769232100000, 64615384615385197000⟩,
   ⟨836000000000000000000, -771999999999999910000, 540000000000000250000, -120000000000000680000⟩,
   ⟨763000000000000000000, -699999999999999930000, 179999999999996840000, 120000000000003450000⟩,
   ⟨696000000000000000000, -627999999999999950000, 344615384615384170000, -64615384615385197000⟩,
   ⟨636000000000000000000, -578461538461538460000, 69230769230768649000, 115384615384615810000⟩,
   ⟨580000000000000000000, -530000000000000050000, 333333333333332020000, -33333333333332443000⟩,
   ⟨530000000000000000000, -473333333333333310000, 133333333333331140000, 0⟩,
   ⟨484000000000000000000, -446666666666666670000, 83333333333333174000, 83333333333333873000⟩,
   ⟨441000000000000000000, -404999999999999940000, 285714285714285680000, -35714285714284759000⟩,
   ⟨403000000000000000000, -358571428571428580000, 85714285714285491000, 0⟩,
   ⟨368000000000000000000, -341428571428571480000, 28571428571429194000, 85714285714286194000⟩,
   ⟨335000000000000000000, -310000000000000000000, 266666666666665750000, -66666666666666271000⟩,
   ⟨306000000000000000000, -276666666666666660000, 79279279279278680000, -12612612612612068000⟩,
   ⟨279000000000000000000, -264594594594594580000, 176260200243068610000, -30314254297123673000⟩,
   ⟨254000000000000000000, -238436830835117820000, 90156961894688234000, -1056660044890522900⟩,
   ⟨156000000000000000000, -156204819277108460000, 69804605293761868000, -518993347908988700⟩,
   ⟨94699999999999989000, -90292664092664066000, 13936468336468357000, 2529771969771964200⟩,
   ⟨56200000000000003000, -57382905982905968000, 9276229048420315500, 2377916583478322300⟩,
   ⟨32800000000000004000, -30272302558398225000, 3959434856873007000, 411286770152521070⟩,
   ⟨10600000000000000000, -10014829740076568000, 466076406330091490, 209875333374647780⟩,
   ⟨3149999999999999900, -2786416926176955000, -462035759028549000, 97645268520550426⟩,
   ⟨878000000000000000, -781130388617540950, -94081541080948628, 23021192969848931⟩,
   ⟨233000000000000010, -278657681683969900, -23484636632060203, 12994231831603010⟩,
   ⟨60800000000000007, 64199999999999961, 0, 0⟩]
/-- `atm_data.akima_P`, aviary/subsystems/atmosphere/data/MarsReference2024.py:112-143, with the column exponents. -/
def marsReferenceP : CTab := ⟨18, 22, 26, 29, marsReferencePRows⟩
/-- `atm_data.akima_rho`, aviary/subsystems/atmosphere/data/MarsReference2024.py:145-176 -/
def marsReferencerhoRows : List IRow :=
  [⟨320999999999999970000, -27504181263419551000, 0, 0⟩,
   ⟨320999999999999970000, -27504181263419551000, 9707034533008809700000000000000, -4665221898813001600000000000000⟩,
   ⟨293999999999999990000, -26962340926461698000, 11917142682084435000000000000000, -1070745363834976600000000000000⟩,
   ⟨270999999999999990000, -25104778522496715000, 73735509271292282000000000000000000, -4863073074879557500000000000000000000⟩,
   ⟨270999999999999990000, -23525952226298854000, -1447934913344271100000000000000000, 9233655037431800700000000000000000⟩,
   ⟨268000000000000010000, -23363030340788721000, -9683272218828396000000000000000, 13313575626715605000000000000000⟩,
   ⟨245000000000000010000, -21305612096539719000, 2112241930794031800000000000000, 943879034603049810000000000000⟩,
   ⟨224000000000000000000, -20599999999999998000, -17999999999999553000000000000000, 23999999999999686000000000000000⟩,
   ⟨204000000000000010000, -17000000000000009000, 190582413132217600, -84703294725430030⟩,
   ⟨187000000000000010000, -17000000000000000000, -21175823681357509, 42351647362715015⟩,
   ⟨170000000000000010000, -17000000000000000000, 26666666666666145000000000000000, -6666666666666292000000000000000⟩,
   ⟨155000000000000000000, -13666666666666659000, 3333333333333675300000000000000, 3333333333333019200000000000000⟩,
   ⟨142000000000000010000, -12000000000000023000, 84703294725430036, -42351647362715015⟩,
   ⟨129999999999999990000, -12000000000000008000, -148230765769502560, 211758236813575100⟩,
   ⟨118000000000000000000, -11999999999999963000, 32307692307691766000000000000000, -12307692307692073000000000000000⟩,
   ⟨108000000000000010000, -9230769230769224900, 1615384615384598200000000000000, 692307692307697110000000000000⟩,
   ⟨99000000000000008000, -8700000000000001400, 1384615384615404900000000000000, 1615384615384555800000000000000⟩,
   ⟨90600000000000003000, -7938461538461553700, 6394230769230785200000000000000, -1009615384615355400000000000000⟩,
   ⟨83199999999999993000, -6962500000000004300, 1431818181818269300000000000000, 1193181818181801100000000000000⟩,
   ⟨76499999999999997000, -6318181818181808000, 2951871657753937200000000000000, -770053475935802310000000000000⟩,
   ⟨70400000000000003000, -5958823529411761300, 2884803921568543000000000000000, -296568627450966750000000000000⟩,
   ⟨64700000000000001000, -5470833333333337400, 1935185185185201900000000000000, -38703703703704950000000000000⟩,
   ⟨41700000000000001000, -3825925925925926300, 1557862995739100900000000000000, -13202228777449796000000000000⟩,
   ⟨26300000000000000000, -2367079646017699300, 465495054659032310000000000000, 45732847475273456000000000000⟩,
   ⟨16199999999999999000, -1558588235294117500, 289265833162531740000000000000, 53582127485140529000000000000⟩,
   ⟨9799999999999999700, -867456445993031210, 126790248105690310000000000000, 10066619788734080000000000000⟩,
   ⟨3400000000000000200, -311877356119628010, 21905515700318923000000000000, 5797184041930899100000000000⟩,
   ⟨1080000000000000000, -94150803461063039, -12104273725093096000000000000, 3005507718615611400000000000⟩,
   ⟨318000000000000000, -28194119352780840, -2417356191227321300000000000, 754147554400815550000000000⟩,
   ⟨87299999999999994, -10404405103211009, -386189793577981690000000000, 435059489678899130000000000⟩,
   ⟨22900000000000001, 1875000000000001, 0, 0⟩]
/-- `atm_data.akima_rho`, aviary/subsystems/atmosphere/data/MarsReference2024.py:145-176, with the column exponents. -/
def marsReferencerho : CTab := ⟨22, 25, 41, 44, marsReferencerhoRows⟩
/-- `atm_data.akima_dT`, aviary/subsystems/atmosphere/data/MarsReference2024.py:178-209 -/
def marsReferencedTRows : List IRow :=
  [⟨0, 0, 0, 0⟩,
   ⟨0, 0, 0, 0⟩,
   ⟨0, 0, 0, 0⟩,
   ⟨0, 0, 0, 0⟩,
   ⟨0, 0, 0, 0⟩,
   ⟨0, 0, 0, 0⟩,
   ⟨0, 0, 0, 0⟩,
   ⟨0, 0, 0, 0⟩,
   ⟨0, 0, 0, 0⟩,
   ⟨0, 0, 0, 0⟩,
   ⟨0, 0, -99999999999994278000000000000000, 49999999999997111000000000000000⟩,
   ⟨-4999999999999715, -49999999999997192000000000000000, -105879118406787540, 79409338805090659⟩,
   ⟨-9999999999999438, -49999999999997192000000000000000, 119999999999998780000000000000000, -70000000000001532000000000000000⟩,
   ⟨-9999999999999434, -20000000000004265000000000000000, -110000000000022030000000000000000, 30000000000010645000000000000000⟩,
   ⟨-20000000000000998, -150000000000016380000000000000000, -599999999999937850000000000000000, 449999999999963950000000000000000⟩,
   ⟨-50000000000000012, -54210108624290575, 348493555441799130, -185863229568958180⟩,
   ⟨-50000000000000001, 85187313552433306, 28395771184133624, -113583084736566940⟩,
   ⟨-50000000000000001, -198770398289000230, -2612500000000057700000000000000000, 1512500000000043900000000000000000⟩,
   ⟨-160000000000001350, -687499999999982940000000000000000, -124999999999969940000000000000000, 312499999999973480000000000000000⟩,
   ⟨-209999999999999290, -2385244779467998600, 1070441032299812300, 13761140185580552⟩,
   ⟨-209999999999999420, -203079294311631590, -1446064630184422800, 1649143924496054500⟩,
   ⟨-209999999999999420, 1852223218807685900, 47628509915013351000000000000000, -5826501983002754800000000000000⟩,
   ⟨-163759999999999560, 39297450424928778000000000000000, -7115117303387975200000000000000, 951925443680404620000000000000⟩,
   ⟨-150000000000000050, 39540685667079393000000000000000, 11930413265770934000000000000000, -2047710079837365200000000000000⟩,
   ⟨-126000000000000090, 5266562336986307800000000000000, -1020752608779680200000000000000, 84916599705076712000000000000⟩,
   ⟨-124857142857142680, 1427781227070259100000000000000, -618557730545396860000000000000, 56149389355265631000000000000⟩,
   ⟨-123999999999999830, 5901443422742010000000000000000, 5542393130689998100000000000000, -300622168349055430000000000000⟩,
   ⟨-92736842105263376, 26562655531825369000000000000000, -1493452894323234300000000000000, 124524655166704900000000000000⟩,
   ⟨-68656249999999870, 34050994195372143000000000000000, 872696810454521980000000000000, -26417122999173524000000000000⟩,
   ⟨-28519999999999864, 43579793504710525000000000000000, -31146200942131948000000000000, 12516685047106204000000000000⟩,
   ⟨15999999999999950, 46711874999999727000000000000000, 0, 0⟩]
/-- `atm_data.akima_dT`, aviary/subsystems/atmosphere/data/MarsReference2024.py:178-209, with the column exponents. -/
def marsReferencedT : CTab := ⟨20, 39, 42, 45, marsReferencedTRows⟩
/-- `atm_data` of aviary/subsystems/atmosphere/data/MarsReference2024.py. -/
def marsReference : AtmData := ⟨1, marsReferenceAlt, marsReferenceT, marsReferenceP, marsReferencerho, marsReferencedT⟩

end Verif.AtmD
