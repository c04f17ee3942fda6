import Verif.Model.AtmTables

/-! Data of aviary/subsystems/atmosphere/data/MIL_SPEC_210A_Tropical.py, as exact decimals (generated from the source text). -/

namespace Verif.AtmD

set_option maxRecDepth 100000

/-- `atm_data.alt`, aviary/subsystems/atmosphere/data/MIL_SPEC_210A_Tropical.py:272-323 (part 1) -/
def tropicalAlt_0 : List ℤ :=
  [0,
   15240000000000000,
   30480000000000000,
   45720000000000005,
   60960000000000000,
   76200000000000000,
   91440000000000010,
   106680000000000000,
   121920000000000000,
   137160000000000010,
   152400000000000000,
   167640000000000000,
   182880000000000020,
   198120000000000000,
   213360000000000000,
   228600000000000000,
   243840000000000000,
   259080000000000000,
   274320000000000030,
   289560000000000040,
   304800000000000000,
   320040000000000000,
   335280000000000000,
   350520000000000030,
   365760000000000040,
   381000000000000000,
   396240000000000000,
   411480000000000000,
   426720000000000000,
   441960000000000000,
   457200000000000000,
   472440000000000100,
   487680000000000000,
   502920000000000000,
   518160000000000000,
   533400000000000000,
   548640000000000100,
   563880000000000000,
   579120000000000100,
   594360000000000000,
   609600000000000000,
   624840000000000100,
   640080000000000000,
   655320000000000100,
   670560000000000000,
   685800000000000000,
   701040000000000100,
   716280000000000000,
   731520000000000100,
   746760000000000000,
   762000000000000000,
   777240000000000100,
   792480000000000000,
   807720000000000100,
   822960000000000000,
   838200000000000000,
   853440000000000000,
   868680000000000100,
   883920000000000000,
   899160000000000000,
   914400000000000000,
   929640000000000000,
   944880000000000100,
   960120000000000000]
/-- `atm_data.alt`, aviary/subsystems/atmosphere/data/MIL_SPEC_210A_Tropical.py:272-323 (part 2) -/
def tropicalAlt_1 : List ℤ :=
  [975360000000000000,
   990600000000000000,
   1005840000000000000,
   1021080000000000100,
   1036320000000000000,
   1051560000000000000,
   1066800000000000000,
   1082040000000000000,
   1097280000000000100,
   1112520000000000000,
   1127760000000000000,
   1143000000000000000,
   1158240000000000100,
   1173480000000000100,
   1188720000000000000,
   1203960000000000000,
   1219200000000000000,
   1234440000000000100,
   1249680000000000100,
   1264920000000000000,
   1280160000000000000,
   1295400000000000000,
   1310640000000000100,
   1325880000000000100,
   1341120000000000000,
   1356360000000000000,
   1371600000000000000,
   1386840000000000100,
   1402080000000000100,
   1418234400000000100,
   1432560000000000000,
   1447800000000000000,
   1463040000000000100,
   1478280000000000100,
   1493520000000000000,
   1508760000000000000,
   1524000000000000000,
   1539240000000000100,
   1554480000000000100,
   1569720000000000000,
   1584960000000000000,
   1600200000000000000,
   1615440000000000100,
   1630680000000000100,
   1633575600000000100,
   1645920000000000000,
   1661160000000000200,
   1676400000000000000,
   1691640000000000000,
   1706880000000000000,
   1722120000000000000,
   1737360000000000200,
   1752600000000000000,
   1767840000000000000,
   1783080000000000000,
   1798320000000000000,
   1813560000000000200,
   1828800000000000000,
   1844040000000000000,
   1859280000000000000,
   1874520000000000000,
   1889760000000000200,
   1905000000000000000,
   1920240000000000000]
/-- `atm_data.alt`, aviary/subsystems/atmosphere/data/MIL_SPEC_210A_Tropical.py:272-323 (part 3) -/
def tropicalAlt_2 : List ℤ :=
  [1935480000000000000,
   1950720000000000000,
   1965960000000000200,
   1981200000000000000,
   1996440000000000000,
   2011680000000000000,
   2026920000000000000,
   2042160000000000200,
   2057400000000000000,
   2072640000000000000,
   2087880000000000000,
   2103120000000000000,
   2118360000000000200,
   2122017600000000000,
   2133600000000000000,
   2148840000000000000,
   2164080000000000000,
   2179320000000000000,
   2194560000000000200,
   2209800000000000000,
   2225040000000000000,
   2240280000000000300,
   2255520000000000000,
   2270760000000000200,
   2286000000000000000,
   2301240000000000000,
   2316480000000000300,
   2331720000000000000,
   2346960000000000200,
   2362200000000000000,
   2377440000000000000,
   2392680000000000300,
   2407920000000000000,
   2423160000000000200,
   2438400000000000000,
   2453640000000000000,
   2468880000000000300,
   2484120000000000000,
   2499360000000000200,
   2514600000000000000,
   2529840000000000000,
   2545080000000000300,
   2560320000000000000,
   2575560000000000200,
   2590800000000000000,
   2606040000000000000,
   2621280000000000300,
   2636824800000000000,
   2651760000000000200,
   2667000000000000000,
   2682240000000000000,
   2697480000000000300,
   2712720000000000000,
   2727960000000000200,
   2743200000000000000,
   2758440000000000000,
   2773680000000000300,
   2788920000000000000,
   2804160000000000200,
   2819400000000000000,
   2834640000000000000,
   2849880000000000300,
   2865120000000000000,
   2880360000000000200]
/-- `atm_data.alt`, aviary/subsystems/atmosphere/data/MIL_SPEC_210A_Tropical.py:272-323 (part 4) -/
def tropicalAlt_3 : List ℤ :=
  [2895600000000000000,
   2910840000000000000,
   2926080000000000300,
   2941320000000000000,
   2956560000000000200,
   2971800000000000000,
   2987040000000000000,
   3002280000000000300,
   3017520000000000000,
   3032760000000000200,
   3048000000000000000]
/-- `atm_data.alt`, aviary/subsystems/atmosphere/data/MIL_SPEC_210A_Tropical.py:272-323 -/
def tropicalAlt : List ℤ :=
  tropicalAlt_0 ++ tropicalAlt_1 ++ tropicalAlt_2 ++ tropicalAlt_3
/-- `atm_data.akima_T`, aviary/subsystems/atmosphere/data/MIL_SPEC_210A_Tropical.py:325-529 (part 1) -/
def tropicalTRows_0 : List IRow :=
  [⟨30526111111111106, -74730242053074629, 0, 0⟩,
   ⟨30526111111111106, -74730242053074629, 56913499868005481, 7847703715884518100000000000000⟩,
   ⟨30414999999999998, -69262175561387350, 227653999472021930, -74689632372710600⟩,
   ⟨30309444444444443, -69262175561387324, 170740499604016380, -74689632372710565⟩,
   ⟨30203888888888889, -69262175561387316, -59799502315101967000000000000000, 23543111147677915000000000000000⟩,
   ⟨30092777777777775, -71084864391951609, 35879701389060623000000000000000, -15695407431785100000000000000000⟩,
   ⟨29987222222222221, -71084864391951635, -47839601852079298000000000000000, 23543111147676760000000000000000⟩,
   ⟨29876111111111106, -69262175561387498, 910615997888088540, -224068897118132200⟩,
   ⟨29770555555555552, -69262175561387342, 1479750996568141700, -672206691354394720⟩,
   ⟨29664999999999998, -69262175561387385, -59799502315032950000000000000000, 23543111147649126000000000000000⟩,
   ⟨29553888888888889, -71084864391950673, 35879701388967539000000000000000, -15695407431744343000000000000000⟩,
   ⟨29448333333333329, -71084864391950681, -47839601851994671000000000000000, 23543111147633068000000000000000⟩,
   ⟨29337222222222221, -69262175561391123, 63003244353882034000, -24796957947739897000⟩,
   ⟨29231666666666666, -69262175561389206, 0, -8215859560998181800⟩,
   ⟨29126111111111106, -69262175561394957, -59799502314929451000000000000000, 23543111147613418000000000000000⟩,
   ⟨29014999999999998, -71084864391951635, 35879701389055702000000000000000, -15695407431781421000000000000000⟩,
   ⟨28909444444444443, -71084864391950681, -47839601852093189000000000000000, 23543111147681690000000000000000⟩,
   ⟨28798333333333329, -69262175561387290, 113826999736010900, 0⟩,
   ⟨28692777777777775, -69262175561387290, 113826999736010900, 0⟩,
   ⟨28587222222222221, -69262175561387290, -71759402778119205000000000000000, 31390814863568592000000000000000⟩,
   ⟨28476111111111106, -69262175561387697, 2048885995248202100, -448137794236265810⟩,
   ⟨28370555555555552, -69262175561387394, 2788761493532267200, -1344413382708789400⟩,
   ⟨28264999999999998, -69262175561387489, -59799502315031807000000000000000, 23543111147648828000000000000000⟩,
   ⟨28153888888888889, -71084864391950655, 35879701388969538000000000000000, -15695407431745270000000000000000⟩,
   ⟨28048333333333329, -71084864391950707, -47839601851995069000000000000000, 23543111147633439000000000000000⟩,
   ⟨27937222222222221, -69262175561391019, 57881029365761711000, -22705648241304133000⟩,
   ⟨27831666666666666, -69262175561389258, -56913499868005451, -7543652869643762700⟩,
   ⟨27726111111111106, -69262175561394541, -71759402777949316000000000000000, 31390814863504356000000000000000⟩,
   ⟨27614999999999998, -69262175561387914, 4211598990232415800, -896275588472531620⟩,
   ⟨27509444444444443, -69262175561387290, 5634436486932522100, -2688826765417562700⟩,
   ⟨27403888888888889, -69262175561387498, -71759402778122085000000000000000, 31390814863570571000000000000000⟩,
   ⟨27292777777777775, -69262175561387506, 7057273983632654400, -2688826765417562700⟩,
   ⟨27187222222222221, -69262175561387290, 113826999736011230, -896275588472531620⟩,
   ⟨27081666666666666, -69262175561387914, -59799502315103068000000000000000, 23543111147680631000000000000000⟩,
   ⟨26970555555555552, -71084864391950768, 35879701389054343000000000000000, -15695407431783416000000000000000⟩,
   ⟨26864999999999998, -71084864391951592, -47839601851967261000000000000000, 23543111147618189000000000000000⟩,
   ⟨26753888888888889, -69262175561394124, 32668348924235030000, -7170204707780167200⟩,
   ⟨26648333333333329, -69262175561389163, 43709567898628317000, -21435924490968045000⟩,
   ⟨26542777777777775, -69262175561390811, -71759402777947224000000000000000, 31390814863487886000000000000000⟩,
   ⟨26431666666666666, -69262175561394966, 36879947914467641000, -8066480296252783600⟩,
   ⟨26326111111111106, -69262175561389371, 49230177385824857000, -24199440888758352000⟩,
   ⟨26220555555555552, -69262175561391236, -71759402777968849000000000000000, 31390814863503940000000000000000⟩,
   ⟨26109444444444443, -69262175561390820, 54636959873285389000, -21510614123340754000⟩,
   ⟨26003888888888889, -69262175561389163, 113826999736010560, -7170204707780167200⟩,
   ⟨25898333333333329, -69262175561394124, -71759402777952315000000000000000, 31390814863503642000000000000000⟩,
   ⟨25787222222222221, -69262175561388946, 23903669944562360000, -9410893678961581100⟩,
   ⟨25681666666666666, -69262175561388226, 0, -3136964559653823100⟩,
   ⟨25576111111111109, -69262175561390395, -71759402778035180000000000000000, 31390814863534042000000000000000⟩,
   ⟨25464999999999998, -69262175561389363, 45018578395592177000, -19643373314022749000⟩,
   ⟨25359444444444443, -69262175561389363, 0, -74689632372710964⟩,
   ⟨25253888888888886, -69262175561389371, 36936861414335649000, -16132960592505567000⟩,
   ⟨25148333333333332, -69262175561389363, -71759402778024677000000000000000, 31390814863524553000000000000000⟩,
   ⟨25037222222222221, -69262175561391644, 22423918947994211000, -4929515736598923200⟩,
   ⟨24931666666666663, -69262175561388226, 30107241430174791000, -14788547209796594000⟩,
   ⟨24826111111111109, -69262175561389363, -71759402778048783000000000000000, 31390814863538529000000000000000⟩,
   ⟨24714999999999998, -69262175561389363, 30619462928987021000, -11950341179633752000⟩,
   ⟨24609444444444443, -69262175561388417, -227653999472022470, -3958550515753680700⟩,
   ⟨24503888888888886, -69262175561391227, -71759402778006381000000000000000, 31390814863522243000000000000000⟩,
   ⟨24392777777777775, -69262175561389354, 36766120914731625000, -16058270960132858000⟩,
   ⟨24287222222222221, -69262175561389371, 56913499868005617, -74689632372710964⟩,
   ⟨24181666666666663, -69262175561389363, 36766120914731625000, -15983581327760146000⟩,
   ⟨24076111111111109, -69262175561389354, -71759402778048783000000000000000, 31390814863538450000000000000000⟩,
   ⟨23964999999999998, -69262175561389371, 44335616397175850000, -17402684342841239000⟩,
   ⟨23859444444444443, -69262175561388027, 56913499868005617, -5825791325071454700⟩]
/-- `atm_data.akima_T`, aviary/subsystems/atmosphere/data/MIL_SPEC_210A_Tropical.py:325-529 (part 2) -/
def tropicalTRows_1 : List IRow :=
  [⟨23753888888888886, -69262175561392051, -71759402778013436000000000000000, 31390814863526869000000000000000⟩,
   ⟨23642777777777775, -69262175561389363, 36766120914731625000, -15983581327760146000⟩,
   ⟨23537222222222221, -69262175561389354, -227653999472022470, 74689632372710964⟩,
   ⟨23431666666666663, -69262175561389354, 26976998937434343000, -6124549854562153300⟩,
   ⟨23326111111111109, -69262175561385416, 502315819446427640000000000000000, -219735704044810630000000000000000⟩,
   ⟨23259444444444443, -69262175561387931, -562115321761511970000000000000000, 243278815192478000000000000000000⟩,
   ⟨23109444444444443, -71084864391951740, 45181846193584139000000000000000, -21799176988567274000000000000000⟩,
   ⟨23003888888888886, -72502511260166824, -29235312242911331000000000000000, 17439341590855582000000000000000⟩,
   ⟨22892777777777775, -69262175561389363, 53043381876980604000, -23228475667912556000⟩,
   ⟨22787222222222221, -69262175561389371, -7171100983368707900, 4705446839480790600⟩,
   ⟨22681666666666663, -69262175561388261, 15138990964889494000, -6572687648798564600⟩,
   ⟨22576111111111109, -69262175561388261, -26806258437830646000, 12771927135733574000⟩,
   ⟨22470555555555552, -69262175561387489, 13943807467661210000, -5601722427953188800⟩,
   ⟨22364999999999998, -69262175561387159, -626048498548061800, -970965220845242380⟩,
   ⟨22259444444444443, -69262175561388062, -17074049960401686000, 5601722427953322000⟩,
   ⟨22153888888888886, -69262175561389371, 12407142971225224000, 0⟩,
   ⟨22048333333333332, -69262175561385624, 59799502315017754000000000000000, -23543111147646948000000000000000⟩,
   ⟨21948333333333332, -67439486730825320, -47839601852048991000000000000000, 23543111147661176000000000000000⟩,
   ⟨21842777777777775, -65616797900262622, -113826999736011230, 0⟩,
   ⟨21742777777777775, -65616797900262622, -56913499868005617, 0⟩,
   ⟨21642777777777775, -65616797900262631, -71759402778043489000000000000000, 31390814863535088000000000000000⟩,
   ⟨21537222222222221, -65616797900263412, 5065301488252499500, 0⟩,
   ⟨21437222222222221, -65616797900261833, 5008387988384434700, -3286343824399204000⟩,
   ⟨21337222222222221, -65616797900262622, -113826999736011230, 0⟩,
   ⟨21237222222222221, -65616797900262622, -113826999736011230, 0⟩,
   ⟨21137222222222221, -65616797900262622, -113826999736011230, 0⟩,
   ⟨21037222222222221, -65616797900262622, -113826999736011230, 0⟩,
   ⟨20937222222222221, -65616797900262622, 55914439107323013000000000000000, -20993857074345084000000000000000⟩,
   ⟨20842777777777775, -63202025436841901, -43106779887752760000000000000000, 17888330851058419000000000000000⟩,
   ⟨20742777777777775, -63876869572210568, 100528628231762970000000000000000, -41486582904868819000000000000000⟩,
   ⟨20648333333333329, -63876869572210169, -137447318535282250000000000000000, 67058423611155953000000000000000⟩,
   ⟨20548333333333329, -61971420239136394, 1935058995512191100, 970965220845242380⟩,
   ⟨20453888888888886, -61971420239135145, -113826999736009880, 0⟩,
   ⟨20359444444444443, -61971420239135145, -17017136460533680000, 0⟩,
   ⟨20264999999999998, -61971420239140340, -71759402778002798000000000000000, 31390814863519405000000000000000⟩,
   ⟨20164999999999998, -61971420239139603, 18326146957497808000, -3958550515753680700⟩,
   ⟨20070555555555552, -61971420239136810, 0, 4033240148126391800⟩,
   ⟨19976111111111109, -61971420239134017, 71759402778049291000000000000000, -31390814863543677000000000000000⟩,
   ⟨19887222222222221, -61971420239137747, 170740499604016870, 0⟩,
   ⟨19792777777777775, -61971420239137756, 170740499604016870, 0⟩,
   ⟨19698333333333329, -61971420239137738, 12179488971753202000, 74689632372710964⟩,
   ⟨19603888888888886, -61971420239134017, 59799502315014908000000000000000, -23543111147645006000000000000000⟩,
   ⟨19514999999999998, -60148731408573262, -43679636473664928000000000000000, 20813475072603689000000000000000⟩,
   ⟨19420555555555552, -58960021301677915, 8139441795724691400000000000000, -2611204998241946500000000000000⟩,
   ⟨19331666666666666, -58298536060340071, -488352629322111960000000000000000, 1774784576479679700000000000000000⟩,
   ⟨19314999999999998, -41937973092746562, 1367337294568619600000000000000000, -566642796472271400000000000000000⟩,
   ⟨19364999999999998, 36598949898955344, -25824962181918927000000000000000, 16320460337249775000000000000000⟩,
   ⟨19420555555555552, 40099154272381045, 86110125300293515000, -38315781407201637000⟩,
   ⟨19481666666666666, 40099154272380576, -15366644964361333000, 10083100370315740000⟩,
   ⟨19542777777777775, 40099154272382918, 12520969970961385000, -6124549854562444400⟩,
   ⟨19603888888888886, 40099154272382441, 0, 0⟩,
   ⟨19664999999999998, 40099154272382441, 0, 0⟩,
   ⟨19726111111111109, 40099154272382441, 18781454956442076000, -8215859560998401500⟩,
   ⟨19787222222222221, 40099154272382441, -59799502315079190000000000000000, 23543111147671221000000000000000⟩,
   ⟨19842777777777775, 38276465441820519, 11959900463009601000000000000000, 1045654853217978300⟩,
   ⟨19903888888888886, 41921843102946509, 47839601851979323000000000000000, -23543111147625998000000000000000⟩,
   ⟨19970555555555552, 40099154272387073, -18212319957761581000, 0⟩,
   ⟨20031666666666666, 40099154272381539, -4609993489308510000, 2912895662535796900⟩,
   ⟨20092777777777775, 40099154272382207, 0, 1045654853217928500⟩,
   ⟨20153888888888886, 40099154272382901, 12748623970433411000, -6273929119307870500⟩,
   ⟨20214999999999998, 40099154272382441, 0, 0⟩,
   ⟨20276111111111109, 40099154272382441, 0, 0⟩,
   ⟨20337222222222221, 40099154272382441, 71759402778063013000000000000000, -31390814863543677000000000000000⟩,
   ⟨20403888888888886, 40099154272383404, -15821952963305374000, 6273929119307571800⟩]
/-- `atm_data.akima_T`, aviary/subsystems/atmosphere/data/MIL_SPEC_210A_Tropical.py:325-529 (part 3) -/
def tropicalTRows_2 : List IRow :=
  [⟨20464999999999998, 40099154272382918, 0, 2091309706435956700⟩,
   ⟨20526111111111109, 40099154272384366, 59799502315010665000000000000000, -23543111147642578000000000000000⟩,
   ⟨20592777777777775, 41921843102945364, -35879701389035005000000000000000, 15695407431773966000000000000000⟩,
   ⟨20653888888888886, 41921843102945581, 35879701389031934000000000000000, -15695407431772997000000000000000⟩,
   ⟨20720555555555552, 41921843102945382, -35879701389000289000000000000000, 15695407431759107000000000000000⟩,
   ⟨20781666666666666, 41921843102945841, 35879701388990557000000000000000, -15695407431754997000000000000000⟩,
   ⟨20848333333333329, 41921843102945581, -35879701388999777000000000000000, 15695407431757909000000000000000⟩,
   ⟨20909444444444443, 41921843102945364, 35879701389012241000000000000000, -15695407431763435000000000000000⟩,
   ⟨20976111111111109, 41921843102945564, -47839601852016262000000000000000, 23543111147644520000000000000000⟩,
   ⟨21037222222222221, 43744531933506232, 10187516476372884000, -2240688971181275500⟩,
   ⟨21103888888888886, 43744531933507793, 13602326468453505000, -6722066913544145600⟩,
   ⟨21170555555555552, 43744531933507273, -63786135802717112000000000000000, 26159012386286712000000000000000⟩,
   ⟨21231666666666663, 42529406046466958, 14218487495952816000000000000000, -4097913727434673700000000000000⟩,
   ⟨21298333333333332, 44007886213210268, 405619926756806830000000000000000, -992419077324846530000000000000000⟩,
   ⟨21314999999999998, 33849935424739414, -183634403626784990000000000000000, 84993771109105007000000000000000⟩,
   ⟨21342777777777775, 25517643627879353, -3471723491948301400, 2427413052113048500⟩,
   ⟨21381666666666663, 25517643627880004, -28456749934003147, 0⟩,
   ⟨21420555555555552, 25517643627880008, 24444348193308120000, -10643272613111060000⟩,
   ⟨21459444444444443, 25517643627880047, -73912184861432621000000000000000, 32332539309461923000000000000000⟩,
   ⟨21492611111111108, 25517643627879449, 2152782083350995900000000000000, -941724445910335410000000000000⟩,
   ⟨21531666666666663, 25517643627879449, -12919364470037121000, 8253204377184364700⟩,
   ⟨21570555555555552, 25517643627881257, 6288941735414546100, -4070584964312650000⟩,
   ⟨21609444444444443, 25517643627880312, -1365923996832151100, -448137794236276440⟩,
   ⟨21648333333333332, 25517643627879600, -4695363739110407300, 2203344154994920700⟩,
   ⟨21687222222222221, 25517643627879700, 7939433231586877800, -3921205699567418800⟩,
   ⟨21726111111111109, 25517643627879396, -28456749934002470, 0⟩,
   ⟨21764999999999998, 25517643627879396, -28456749934002470, 0⟩,
   ⟨21803888888888886, 25517643627879396, -71759402778034553000000000000000, 31390814863531733000000000000000⟩,
   ⟨21837222222222221, 25517643627878785, 3983944990760345500, 0⟩,
   ⟨21876111111111109, 25517643627880004, 3955488240826437400, -2614137133044945600⟩,
   ⟨21914999999999998, 25517643627879396, -28456749934002470, 0⟩,
   ⟨21953888888888886, 25517643627879396, -28456749934002470, 0⟩,
   ⟨21992777777777775, 25517643627879396, 8707765479804963900, -3099619743467578500⟩,
   ⟨22031666666666663, 25517643627879887, -9675294977560839000, 4219964229058069200⟩,
   ⟨22070555555555552, 25517643627879887, 26037926189612878000, -8551962906675608000⟩,
   ⟨22109444444444443, 25517643627881873, -48774869386880231000, 21323890042408471000⟩,
   ⟨22148333333333332, 25517643627881873, 71759402778006694000000000000000, -31390814863521456000000000000000⟩,
   ⟨22192777777777775, 25517643627880611, -4012401740694443900, 0⟩,
   ⟨22231666666666663, 25517643627879396, -3244069492476281700, 2128654522622211800⟩,
   ⟨22270555555555552, 25517643627879887, 42258273651994669000, -19157890703600819000⟩,
   ⟨22309444444444443, 25517643627879396, -28456749934002470, 0⟩,
   ⟨22348333333333332, 25517643627879396, -28456749934002470, 0⟩,
   ⟨22387222222222221, 25517643627879396, 9931405726967098200, -3921205699567418800⟩,
   ⟨22426111111111109, 25517643627879700, -6004374236074520800, 2614137133044821100⟩,
   ⟨22464999999999998, 25517643627879700, 7939433231586877800, -3921205699567418800⟩,
   ⟨22503888888888886, 25517643627879396, -28456749934002470, 0⟩,
   ⟨22542777777777775, 25517643627879396, -28456749934002470, 0⟩,
   ⟨22581666666666663, 25517643627879396, -7344156432269289200000000000000, 2653891465816000900000000000000⟩,
   ⟨22620555555555552, 25158240196501594, 7208616977262400400000000000000, -880702585895710460000000000000⟩,
   ⟨22659444444444443, 26722133839762975, 55952444616860548000000000000000, -26204804968137327000000000000000⟩,
   ⟨22703888888888886, 25517643627879396, -28456749934002470, 0⟩,
   ⟨22742777777777775, 25517643627879396, -28456749934002470, 0⟩,
   ⟨22781666666666663, 25517643627879396, 5264498737790582200, -858930772286196550⟩,
   ⟨22820555555555552, 25517643627880420, 16590285211523441000, -7244894340152790300⟩,
   ⟨22859444444444443, 25517643627880411, -1394380746766154300, -858930772286196550⟩,
   ⟨22898333333333332, 25517643627879396, -28456749934002470, 0⟩,
   ⟨22937222222222221, 25517643627879396, -28456749934002470, 0⟩,
   ⟨22976111111111109, 25517643627879396, 9931405726967098200, -3921205699567418800⟩,
   ⟨23014999999999998, 25517643627879700, -6004374236074520800, 2614137133044821100⟩,
   ⟨23053888888888886, 25517643627879700, 7939433231586877800, -3921205699567418800⟩,
   ⟨23092777777777775, 25517643627879396, -28456749934002470, 0⟩,
   ⟨23131666666666663, 25517643627879396, -28456749934002470, 0⟩,
   ⟨23170555555555552, 25517643627879396, 45473886394537026000, -19157890703600819000⟩,
   ⟨23209444444444443, 25517643627879887, -9675294977560839000, 4219964229058069200⟩]
/-- `atm_data.akima_T`, aviary/subsystems/atmosphere/data/MIL_SPEC_210A_Tropical.py:325-529 (part 4) -/
def tropicalTRows_3 : List IRow :=
  [⟨23248333333333332, 25517643627879887, 5492152737262607200, -3099619743467578500⟩,
   ⟨23287222222222221, 25517643627879396, -28456749934002470, 0⟩,
   ⟨23326111111111109, 25517643627879396, -28456749934002470, 0⟩,
   ⟨23364999999999998, 25517643627879396, 9931405726967098200, -3921205699567418800⟩,
   ⟨23403888888888886, 25517643627879700, -6004374236074520800, 2614137133044821100⟩,
   ⟨23442777777777775, 25517643627879700, 4923017738582544100, -1941930441690531000⟩,
   ⟨23481666666666663, 25517643627879856, -10073689476636873000, 4593412390921615100⟩,
   ⟨23520555555555552, 25517643627880008, 22680029697399970000, -9448238495147711400⟩,
   ⟨23559444444444443, 25517643627880312, -1365923996832151100, -448137794236276440⟩,
   ⟨23598333333333332, 25517643627879600, -4695363739110407300, 2203344154994920700⟩,
   ⟨23637222222222221, 25517643627879700, 1963515745446217200, 0⟩,
   ⟨23676111111111109, 25517643627880307, 0, 0⟩]
/-- `atm_data.akima_T`, aviary/subsystems/atmosphere/data/MIL_SPEC_210A_Tropical.py:325-529 -/
def tropicalTRows : List IRow :=
  tropicalTRows_0 ++ tropicalTRows_1 ++ tropicalTRows_2 ++ tropicalTRows_3
/-- `atm_data.akima_T`, aviary/subsystems/atmosphere/data/MIL_SPEC_210A_Tropical.py:325-529, with the column exponents. -/
def tropicalT : CTab := ⟨14, 19, 37, 39, tropicalTRows⟩
/-- `atm_data.akima_P`, aviary/subsystems/atmosphere/data/MIL_SPEC_210A_Tropical.py:531-735 (part 1) -/
def tropicalPRows_0 : List IRow :=
  [⟨1010353520000000000, -1207600557742795600, 0, 0⟩,
   ⟨1010353520000000000, -1207600557742795600, 72696221781343336000000000000000, 21415011393903584000⟩,
   ⟨992118529999999880, -1185442749343827600, 72696221781359653000000000000000, -9177862025958679500⟩,
   ⟨974221224999999980, -1163284940944875800, -29139711932418798000, 47700932927378378000000000000000⟩,
   ⟨956661604999999980, -1130048228346462700, 151526502048577820000, -55067172155752084000⟩,
   ⟨939439670000000040, -1130048228346456100, -209805925913415430000, 110134344311504170000⟩,
   ⟨922217734999999960, -1130048228346443300, 654265996031861210000000000000000, -238504664636879510000000000000000⟩,
   ⟨905671169999999980, -1096811515748031600, -436177330687965990000000000000000, 238504664636886360000000000000000⟩,
   ⟨888786919999999950, -1063574803149619200, 289065942369594390000, -108604700640510920000⟩,
   ⟨872578040000000040, -1063574803149606800, -102571786002114150000, 55067172155752015000⟩,
   ⟨856369159999999970, -1063574803149600000, 218088665343867030000000000000000, -47700932927331071000000000000000⟩,
   ⟨840497964999999970, -1030338090551178000, 97909432092927135000, 47700932927321754000000000000000⟩,
   ⟨824964455000000020, -997101377952765940, 80425604933475863000, -16826080380924227000⟩,
   ⟨809768629999999980, -997101377952754040, -61146354769248850000000000000000, 40122280032333147000000000000000⟩,
   ⟨794572805000000080, -987782673485908270, 168492177586488930000000000000000, -55279585822327470000000000000000⟩,
   ⟨779714664999999950, -974943569553809830, 2331176954593503300, 21415011393903565000⟩,
   ⟨764856524999999970, -974943569553793310, 218088665343733850000000000000000, -47700932927283519000000000000000⟩,
   ⟨750336069999999890, -941706856955378410, 186494156367480240000, 47700932927289634000000000000000⟩,
   ⟨736153300000000020, -908470144356961920, 153857679003171220000, -61185746839724458000⟩,
   ⟨722308215000000050, -908470144356957120, -64354032396653920000000000000000, 42227055378362692000000000000000⟩,
   ⟨708463129999999950, -898662589819721270, 162076822332119430000000000000000, -53174810476405025000000000000000⟩,
   ⟨694955729999999890, -886312335958004740, 0, 26003942406882895000⟩,
   ⟨681448329999999990, -886312335957986620, 145392443562434830000000000000000, 73422896207669359000⟩,
   ⟨668278614999999990, -841996719160105300, 75763251024288859000, -30592873419862229000⟩,
   ⟨655446585000000050, -841996719160102990, -96928295708462392000000000000000, 63601243903179805000000000000000⟩,
   ⟨642614555000000040, -827404991677872200, 99292400481796705000000000000000, -32576246877226909000000000000000⟩,
   ⟨630120210000000010, -819838910761157540, -1165588477296751600, 6118574683972446600⟩,
   ⟨617625864999999980, -819838910761153810, 145392443562827050000000000000000, -101721304121041920000⟩,
   ⟨605469205000000000, -775523293963274710, 138705028798313850000, -30592873419862406000⟩,
   ⟨593650229999999940, -775523293963253570, -110775195095218500000000000000000, 72687135889280933000000000000000⟩,
   ⟨581831255000000020, -758641154230720980, 69234496934555165000000000000000, -22714729965400513000000000000000⟩,
   ⟨570349965000000010, -753365485564304560, -70578856098334924000000000000000, 46311585366369749000000000000000⟩,
   ⟨558868675000000000, -742609267894911800, 149627174928516280000000000000000, -49090280488354074000000000000000⟩,
   ⟨547725069999999980, -731207677165355200, -130853199206357940000000000000000, 85861679269274638000000000000000⟩,
   ⟨536581465000000030, -711303205213755160, 29571344453420076000000000000000, -9701884663194954600000000000000⟩,
   ⟨525775544999999980, -709049868766404060, -1748382715945132700, 1529643670993120500⟩,
   ⟨514969625000000010, -709049868766403350, 145392443562640120000000000000000, 5353752848475857500⟩,
   ⟨504501389999999960, -664734251968506480, 108982522627246600000, -48183775636283295000⟩,
   ⟨494370840000000030, -664734251968506480, 582794238648374050, 0⟩,
   ⟨484240289999999950, -664734251968506570, -68870104845472038000000000000000, 45190357510156185000000000000000⟩,
   ⟨474109739999999950, -654238447990053910, 153044677434413650000000000000000, -50211508344624779000000000000000⟩,
   ⟨464316875000000000, -642576443569552320, -12238679011615855000, 5353752848475857500⟩,
   ⟨454524009999999980, -642576443569551880, 145392443562565220000000000000000, 41300379116814252000⟩,
   ⟨445068829999999940, -598260826771653690, 69352514399156512000, -30592873419862044000⟩,
   ⟨435951334999999960, -598260826771653690, -1165588477296755000, 764821835496560270⟩,
   ⟨426833839999999980, -598260826771653600, -53409469063928137000000000000000, 35045583375260361000000000000000⟩,
   ⟨417716344999999930, -590121223686325540, 183965948997785340000000000000000, -60356282479596374000000000000000⟩,
   ⟨408936535000000000, -576103018372700500, -103690734943981200000000000000000, 68038539989470790000000000000000⟩,
   ⟨400156725000000010, -560251663133454160, 82761852489547617000000000000000, -27152838743296684000000000000000⟩,
   ⟨391714599999999990, -553945209973755580, 0, 0⟩,
   ⟨383272474999999980, -553945209973755580, 0, 0⟩,
   ⟨374830349999999960, -553945209973755580, -8429033715261001500000000000000000, 3718226566647245000000000000000000⟩,
   ⟨359972209999999980, -532355550508111720, 9021787523632143800000000000000000, -3913922701734088800000000000000000⟩,
   ⟨358959155000000030, -509629593175853570, -22146181068638213000, 10707505696951715000⟩,
   ⟨351192399999999980, -509629593175852590, 582794238648377520, 0⟩,
   ⟨343425645000000000, -509629593175852680, -93247078183740398000, 41300379116814252000⟩,
   ⟨335658889999999960, -509629593175852590, 145392443562735400000000000000000, -30592873419862406000⟩,
   ⟨328229820000000040, -465313976377952000, 15152650204857635000, -6883396519468878600⟩,
   ⟨321138434999999990, -465313976377952090, 0, 0⟩,
   ⟨314047050000000020, -465313976377952090, -94412666661037161000, 41300379116814252000⟩,
   ⟨306955664999999970, -465313976377952090, 339249034979584960000000000000000, -127202487806372590000000000000000⟩,
   ⟨300201965000000020, -450542104111986230, -339249034979628110000000000000000, 159003109757978740000000000000000⟩,
   ⟨293110579999999970, -443156167979002990, 363481108906777310000000000000000, -143102798782197500000000000000000⟩,
   ⟨286694565000000000, -432077263779526890, -290784887125408990000000000000000, 143102798782187910000000000000000⟩]
/-- `atm_data.akima_P`, aviary/subsystems/atmosphere/data/MIL_SPEC_210A_Tropical.py:531-735 (part 2) -/
def tropicalPRows_1 : List IRow :=
  [⟨279940864999999980, -420998359580050160, 387713182833746960000000000000000, -159003109757938970000000000000000⟩,
   ⟨273862534999999990, -413612423447070120, -242320739271106870000000000000000, 127202487806353460000000000000000⟩,
   ⟨267446519999999980, -398840551181104840, 14278458846885250000, 382410917748280140⟩,
   ⟨261368190000000000, -398840551181100040, -582794238648370580, 0⟩,
   ⟨255289859999999970, -398840551181100090, -72696221781360997000000000000000, 47700932927391626000000000000000⟩,
   ⟨249211529999999980, -387761646981627980, 145392443562643300000000000000000, -47700932927371364000000000000000⟩,
   ⟨243470884999999980, -376682742782150990, 582794238648377520, 0⟩,
   ⟨237730240000000010, -376682742782150990, -81783249504042337000000000000000, 53663549543324476000000000000000⟩,
   ⟨231989595000000010, -364218975557742160, 127218388117355740000000000000000, -41738316311470032000000000000000⟩,
   ⟨226586634999999990, -354524934383201050, -24477358023231858000, 11854738450196683000⟩,
   ⟨221183675000000000, -354524934383200030, 339249034979509190000000000000000, -127202487806340840000000000000000⟩,
   ⟨216118400000000000, -339753062117235500, -339249034979541850000000000000000, 159003109757940120000000000000000⟩,
   ⟨210715440000000020, -332367125984252840, 387713182833818130000000000000000, -159003109757962340000000000000000⟩,
   ⟨205987850000000000, -324981189851268980, -242320739271091990000000000000000, 127202487806343910000000000000000⟩,
   ⟨200922575000000000, -310209317585306190, 24185960903907667000, -5353752848475922000⟩,
   ⟨196194984999999980, -310209317585302590, -59478726911980830000000000000000, 39028036031488548000000000000000⟩,
   ⟨191467395000000000, -301075564504818560, 170919361134705280000000000000000, -56075905884082619000000000000000⟩,
   ⟨187077490000000000, -288051509186348880, 22437578187962266000, -14914025792182570000⟩,
   ⟨182687585000000000, -288051509186352250, -1165588477296755000, 0⟩,
   ⟨178297680000000000, -288051509186352340, -2643498973866358600000000000000, 1734579379177404800000000000000⟩,
   ⟨173907775000000000, -288051509186352340, 290784887125300870000000000000000, -95401865854752673000000000000000⟩,
   ⟨169855554999999990, -265893700787400840, 291397119324188760, 0⟩,
   ⟨165803335000000010, -265893700787400840, -145392443562641570000000000000000, 95401865854754215000000000000000⟩,
   ⟨161751114999999990, -243735892388451790, 0, 0⟩,
   ⟨158036579999999990, -243735892388451790, 0, 0⟩,
   ⟨154322045000000000, -243735892388451790, 0, 0⟩,
   ⟨150607510000000000, -243735892388451790, -65175922976394064000000000000000, 42766353659046355000000000000000⟩,
   ⟨146892974999999990, -233595878375372300, 157713837084957420000000000000000, -51743384870394278000000000000000⟩,
   ⟨143516124999999990, -221578083989499760, -44292362137276692000, 26768764242379607000⟩,
   ⟨140139275000000020, -221578083989494610, 166280022378754240000000000000000, -54870975135791267000000000000000⟩,
   ⟨136762424999999980, -210813156832117610, -10544391291188748000000000000000, 850172525756982380000000000000⟩,
   ⟨133723259999999990, -213310827071906100, -253886628832926310000000000000000, 130997070995922600000000000000000⟩,
   ⟨130346410000000000, -199420275590554460, 89167518513200700000, -34225777138470254000⟩,
   ⟨127307245000000000, -199420275590551240, -291397119324188760, 0⟩,
   ⟨124268080000000010, -199420275590551240, -22874673866948818000, 10133889320329423000⟩,
   ⟨121228915000000000, -199420275590551240, 363481108906642950000000000000000, -143102798782142210000000000000000⟩,
   ⟨118527434999999990, -188341371391076180, -290784887125323770000000000000000, 143102798782146590000000000000000⟩,
   ⟨115488269999999990, -177262467191602170, 53908467074974279000, -21415011393903176000⟩,
   ⟨112786790000000000, -177262467191600500, -42835376540655747000, 21223805935029546000⟩,
   ⟨110085309999999990, -177262467191598860, 363481108906641650000000000000000, -143102798782145460000000000000000⟩,
   ⟨107721515000000000, -166183562992126420, -218088665344014050000000000000000, 95401865854775424000000000000000⟩,
   ⟨105020034999999990, -166183562992125890, 218088665344000390000000000000000, -95401865854768547000000000000000⟩,
   ⟨102656240000000000, -166183562992125890, -198516605633621700000000000000000, 82559306989694811000000000000000⟩,
   ⟨99954759999999987, -169166344891984080, 52303149698927891000000000000000, 26223839759029707000000000000000⟩,
   ⟨97590964999999997, -134952286608100520, 1737754805462685100000000000000000, -3814918979715627500000000000000000⟩,
   ⟨97253279999999995, -130273987545778570, 43119541804071863000000000000000, -77602896798760968000000000000000⟩,
   ⟨95564855000000007, -155104658792646700, -32927874483632938000, 7265807437217149100⟩,
   ⟨93201059999999998, -155104658792651700, -66888534641819234000000000000000, 43890114594361313000000000000000⟩,
   ⟨90837264999999989, -144910846113244740, 157007817841836700000000000000000, -51511751260454083000000000000000⟩,
   ⟨88811154999999999, -132946850393703200, -13258568929250747000, 8795451108210652600⟩,
   ⟨86785044999999991, -132946850393701180, 9179009258711836400, -1147232753244813000⟩,
   ⟨84758934999999983, -132946850393699180, 35841845676874793000, -16826080380923925000⟩,
   ⟨82732825000000012, -132946850393700040, -41524089503697392000, 13766793038938410000⟩,
   ⟨80706715000000004, -132946850393703180, 20252099793030879000, 191205458874135490⟩,
   ⟨78680604999999996, -132946850393696890, 363481108906574990000000000000000, -143102798782119220000000000000000⟩,
   ⟨76992179999999989, -121867946194225380, -290784887125276150000000000000000, 143102798782123890000000000000000⟩,
   ⟨74966070000000009, -110789041994751480, 16609635801478562000, -7265807437217149100⟩,
   ⟨73277644999999993, -110789041994751480, -2768272633579826200, 1912054588741445900⟩,
   ⟨71589220000000005, -110789041994751060, 7576325102428817600, -3059287341986167900⟩,
   ⟨69900794999999989, -110789041994750950, -12675774690602361000, 6118574683972627600⟩,
   ⟨68212370000000001, -110789041994750610, 7430626542766724600, -2485670965363761800⟩,
   ⟨66523944999999994, -110789041994750040, 3933861110876501100, 0⟩,
   ⟨64835519999999997, -110789041994748840, 363481108906612250000000000000000, -143102798782133080000000000000000⟩,
   ⟨63484779999999992, -99710137795275633, -290784887125262190000000000000000, 143102798782113360000000000000000⟩]
/-- `atm_data.akima_P`, aviary/subsystems/atmosphere/data/MIL_SPEC_210A_Tropical.py:531-735 (part 3) -/
def tropicalPRows_2 : List IRow :=
  [⟨61796355000000003, -88631233595804826, 17629525719113629000, 0⟩,
   ⟨60445614999999998, -88631233595799430, 2331176954593482300, -1625246400430151800⟩,
   ⟨59094875000000002, -88631233595799808, 145698559662092650, -956027294370677560⟩,
   ⟨57744134999999997, -88631233595800452, -19305059155227734000, 8030629272714074200⟩,
   ⟨56393395000000000, -88631233595800774, 14205609567054032000, -6022971954535268400⟩,
   ⟨55042654999999995, -88631233595800663, -21490537550159175000, 10325094779203808000⟩,
   ⟨53691914999999999, -88631233595800019, 7649174382259864000, -2581273694800829100⟩,
   ⟨52341175000000003, -88631233595799441, -11364487653643226000, 5066944660164590900⟩,
   ⟨50990434999999998, -88631233595799430, 363481108906630680000000000000000, -143102798782140360000000000000000⟩,
   ⟨49977379999999994, -77552329396325659, -218088665343971890000000000000000, 95401865854755367000000000000000⟩,
   ⟨48626639999999998, -77552329396325359, 218088665343972240000000000000000, -95401865854756857000000000000000⟩,
   ⟨47613584999999994, -77552329396324970, -212496648283857750000000000000000, 91732563321871726000000000000000⟩,
   ⟨46262845000000007, -78404552796286320, 223487187004123850000000000000000, -95274900369211048000000000000000⟩,
   ⟨45249790000000003, -76670617297406229, -1562717224279320400000000000000000, 3102425151949128400000000000000000⟩,
   ⟨44912105000000001, -66473425196849578, 211443304350108830000000000000000, -121703794464074890000000000000000⟩,
   ⟨44236734999999999, -66473425196848901, 7430626542766724600, -7074601978343014300⟩,
   ⟨43223680000000004, -66473425196851599, -9106159978881006800, 5927369225098483200⟩,
   ⟨42210625000000000, -66473425196850211, 1529834876451972900, -191205458874135490⟩,
   ⟨41197569999999996, -66473425196849878, 4079559670538594100, -2007657318178423000⟩,
   ⟨40184514999999997, -66473425196850033, -16682485081310004000, 5449355577913121300⟩,
   ⟨39171459999999997, -66473425196851299, 8304817900739281100, 0⟩,
   ⟨38158404999999993, -66473425196848734, 436177330687986980000000000000000, -190803731709530150000000000000000⟩,
   ⟨37483035000000004, -66473425196849723, -30815245368533327000, 12141546638508182000⟩,
   ⟨36469980000000000, -66473425196850655, -84437535952181777000000000000000, 55405207317708115000000000000000⟩,
   ⟨35456925000000001, -53582996214328826, 121619152446555640000000000000000, -39901296734433325000000000000000⟩,
   ⟨34781554999999998, -44315616797900353, 21599811469905235000, -11472327532448131000⟩,
   ⟨34106185000000000, -44315616797901741, -348941864550352710000000000000000, 143102798782129890000000000000000⟩,
   ⟨33126898499999998, -50962959317587120, 4880901748680219900, 1242835482681939900⟩,
   ⟨32350222999999996, -50962959317584822, -8221776434304570000000000000000, 5394866426709987700000000000000⟩,
   ⟨31573547500000000, -49709960588996116, 12634935843895624000000000000000, -4145320158757247600000000000000⟩,
   ⟨30830640500000000, -48747178477690423, 72849279831046323, 2485670965363761800⟩,
   ⟨30087733499999999, -48747178477688669, 14539244356269096000000000000000, -6644389695876209200⟩,
   ⟨29378595000000000, -44315616797902407, 8741913579725767000, 47801364718536153⟩,
   ⟨28703224999999998, -44315616797899715, -72849279831046323, 0⟩,
   ⟨28027855000000000, -44315616797899715, -14539244356285799000000000000000, 9540186585484938700000000000000⟩,
   ⟨27352485000000001, -42099835958004955, 72849279831046323, 0⟩,
   ⟨26710883500000000, -42099835958004950, -36424639915523161, 0⟩,
   ⟨26069281999999998, -42099835958004950, -18430867797255159000, 9082259296521870200⟩,
   ⟨25427680500000001, -42099835958004239, 67849806995899577000000000000000, -25440497561268061000000000000000⟩,
   ⟨24853615999999997, -39145461504812107, -16962451748986880000000000000000, 7950155487901726600000000000000⟩,
   ⟨24245782999999997, -38776164698162746, 7269622178138372800000000000000, -1625246400430151800⟩,
   ⟨23671718499999997, -36560383858267287, 19385659141695445000000000000000, -7950155487900343800000000000000⟩,
   ⟨23131422500000003, -36191087051618254, -33924903497975403000000000000000, 15900310975803214000000000000000⟩,
   ⟨22557357999999999, -35452493438320193, 38771318283387503000000000000000, -15900310975799110000000000000000⟩,
   ⟨22050830500000002, -34713899825022060, -16962451748990851000000000000000, 7950155487903781700000000000000⟩,
   ⟨21510534499999999, -34344603018372460, 3131529553656704200000000000000, 2715283874329387800000000000000⟩,
   ⟨21004007000000001, -31498176862506500, 3704987389328370900000000000000, -376284669079048250000000000000⟩,
   ⟨20531248000000001, -30631081628710488, 6722894035541671700000000000000, -3421015713739563700000000000000⟩,
   ⟨20058489000000000, -31020931758530312, -9999721060926597400000000000000, 3857246176705128800000000000000⟩,
   ⟨19585729999999999, -31426694138546934, -9214278739258100000000000000000, 7793150621892338300000000000000⟩,
   ⟨19112970999999998, -28805150918635264, 7394201902851202000, -2581273694800829100⟩,
   ⟨18673980500000000, -28805150918634809, -3443505242273684500000000000000, 2259517875507335000000000000000⟩,
   ⟨18234990000000000, -28280360719712522, 22191478227976964000000000000000, -7280668709965259600000000000000⟩,
   ⟨17829768000000001, -26589370078739977, 1639108796198542300, -1051630023807745300⟩,
   ⟨17424546000000000, -26589370078740221, -5135874228088888200, 1673047765148765200⟩,
   ⟨17019323999999999, -26589370078740610, -9382304138357308100000000000000, 6156367544857188700000000000000⟩,
   ⟨16614102000000000, -25159506928052594, 10313880435797079000000000000000, -3383819040616733300000000000000⟩,
   ⟨16242648499999998, -24373589238845497, -18212319957762014, 0⟩,
   ⟨15871194999999998, -24373589238845497, -9559553164232859900000000000000, 6272672679945880600000000000000⟩,
   ⟨15499741500000000, -22916713336614211, 9959382384037361300000000000000, -3267513905523296900000000000000⟩,
   ⟨15162056500000001, -22157808398950005, 18212319957761581, 0⟩,
   ⟨14824371500000000, -22157808398950005, 18212319957761581, 0⟩,
   ⟨14486686499999998, -22157808398950005, -7485263502640187300, 3274393483219726500⟩,
   ⟨14149001499999999, -22157808398950005, 36348110890667862000000000000000, -14310279878215901000000000000000⟩]
/-- `atm_data.akima_P`, aviary/subsystems/atmosphere/data/MIL_SPEC_210A_Tropical.py:531-735 (part 4) -/
def tropicalPRows_3 : List IRow :=
  [⟨13845084999999999, -21049917979002664, -21808866534404875000000000000000, 9540186585479204300000000000000⟩,
   ⟨13507400000000000, -21049917979002572, 7269622178134748800000000000000, -525815011903872650⟩,
   ⟨13203483500000000, -18834137139107440, 21808866534401368000000000000000, -9540186585477506000000000000000⟩,
   ⟨12933335500000001, -18834137139107568, -21808866534406022000000000000000, 9540186585479394900000000000000⟩,
   ⟨12629419000000000, -18834137139107693, 21808866534402479000000000000000, -9540186585477817300000000000000⟩,
   ⟨12359270999999999, -18834137139107693, -21808866534405203000000000000000, 9540186585479394900000000000000⟩,
   ⟨12055354499999999, -18834137139107573, 7269622178135568700000000000000, -788722517855809060⟩,
   ⟨11785206499999999, -16618356299212378, 21808866534401441000000000000000, -9540186585477578000000000000000⟩,
   ⟨11548827000000001, -16618356299212536, -29078488712540486000000000000000, 14310279878218302000000000000000⟩,
   ⟨11278679000000000, -15510465879265195, 4370956789862779400, -1912054588741355100⟩,
   ⟨11042299499999999, -15510465879265195, 728492798310480480, -478013647185361470⟩,
   ⟨10805920000000001, -15510465879265306, 0, 0⟩]
/-- `atm_data.akima_P`, aviary/subsystems/atmosphere/data/MIL_SPEC_210A_Tropical.py:531-735 -/
def tropicalPRows : List IRow :=
  tropicalPRows_0 ++ tropicalPRows_1 ++ tropicalPRows_2 ++ tropicalPRows_3
/-- `atm_data.akima_P`, aviary/subsystems/atmosphere/data/MIL_SPEC_210A_Tropical.py:531-735, with the column exponents. -/
def tropicalP : CTab := ⟨13, 17, 35, 37, tropicalPRows⟩
/-- `atm_data.akima_rho`, aviary/subsystems/atmosphere/data/MIL_SPEC_210A_Tropical.py:737-941 (part 1) -/
def tropicalrhoRows_0 : List IRow :=
  [⟨1157539880968112800, -1132874942236902500, 0, 0⟩,
   ⟨1157539880968112800, -1132874942236902500, 355709374175034260, 727811908670561670000000000000⟩,
   ⟨1140532483575493100, -1082162988089127500, 266782030631275690, 0⟩,
   ⟨1124040319637014800, -1082162988089126900, -5723008121102124600000, 375513797008860610000⟩,
   ⟨1107548155698536500, -1082162988080405200, 44384656057593356000000000000000, -1456166875752778400000000000000⟩,
   ⟨1091571433454054300, -1048340303545412700, 177854687087517150, 0⟩,
   ⟨1075594727228022200, -1048340303545412900, -20057811956120927000000000000000, 1316129393446925400000000000000⟩,
   ⟨1059618021001990300, -1017746434866403500, 4226256206518493300000000000000, -138656699688894990000000000000⟩,
   ⟨1044156644340801900, -1014526027637034200, -88927343543758518, 0⟩,
   ⟨1028695267679613500, -1014526027637033900, -14777643229556125000000000000000, 970023668426547680000000000000⟩,
   ⟨1013234019166027800, -991979673449137590, 14785919562201825000000000000000, -485011840857349820000000000000⟩,
   ⟨998287988088133240, -980706496462279950, 257265293107253140000000, -11253078450669255000000⟩,
   ⟨983342021084040120, -980706496462218960, -4439637911838387200000000000000, 291269574337843260000000000000⟩,
   ⟨968396038061496660, -973943641131581730, 35508827983701745000000000000000, -1165078293287770200000000000000⟩,
   ⟨953965464696048370, -946892219900592300, -1028825692823310300000000, 45007353944277410000000⟩,
   ⟨939534827256798930, -946892219900462330, -8062038127972977100000000000000, 529186123595660060000000000000⟩,
   ⟨925104253891350650, -934593062408634520, 28231614879698469000000000000000, -926075706604520820000000000000⟩,
   ⟨911188962035395120, -913069536565595470, 1350445303414904300000000, -59071236666232798000000⟩,
   ⟨897273782308591670, -913069536565360740, -22194740961074533000000000000000, 1456212096926228100000000000000⟩,
   ⟨883358554526437410, -879254208996346810, 137345792137715800000000, -4506305607167023500000⟩,
   ⟨869958720382927990, -879254208891703950, 0, 0⟩,
   ⟨856558886239418450, -879254208891703950, 22231835885939630000, -735226068668869180⟩,
   ⟨843159052095909130, -879254208891686740, -2775635909831036300000000000000, 182083085641256810000000000000⟩,
   ⟨829759201933949480, -875027293003361360, 38842005495082012000000000000000, -1274423214531537000000000000000⟩,
   ⟨816874825502886040, -845435203411764850, -22195431232997783000000000000000, 1456234745685663800000000000000⟩,
   ⟨803990336942670640, -811620401689073510, 14713384698689065000000, -482670078953586370000⟩,
   ⟨791621242021100070, -811620401677858390, 533564061262551110, -23340510116472040⟩,
   ⟨779252147099529500, -811620401677858660, -1762527446297428200000000000, 70396508738463412000000000⟩,
   ⟨766883036159508700, -811620868824264170, 6131387348518881700000000000, -201189121365780200000000000⟩,
   ⟨754514005311739400, -811616198666367840, -16550717628512070000000000000, 724022141901445890000000000⟩,
   ⟨742144846316367460, -811616197360192350, 33286422845109110000000000000000, -728072114320472040000000000000⟩,
   ⟨730291209107243100, -760889265097999320, 33289525992056965000000000000000, -1456279984896302400000000000000⟩,
   ⟨718952965536763470, -760892418140225370, -44393967824439792000000000000000, 2184623715087887800000000000000⟩,
   ⟨707099152124685660, -743986593778299260, 6205812055297215100000000000, -271470343622410440000000000⟩,
   ⟨695760844480404870, -743986593778299260, -1350095996809460300000000, 59064818025950400000000⟩,
   ⟨684422488780773160, -743986593777915590, 4828392529078682600000000000, -68906810926763936000000⟩,
   ⟨673084245210293530, -743971881638725710, 55455994458098184000000000000000, -2183401884519166600000000000000⟩,
   ⟨662261283149306770, -727075514990612560, -33278491996664933000000000000000, 1455691725358984800000000000000⟩,
   ⟨650922991523476320, -727079718654926440, 11092715184075081000000000000000, 90509794033555827000000000⟩,
   ⟨640099965388688300, -693262816297604530, 33292975803262342000000000000000, -1456325293944644700000000000000⟩,
   ⟨629792412984796710, -693258611326523730, -44379484071644057000000000000000, 2183990139126720100000000000000⟩,
   ⟨618969450923809840, -676352786335723630, 12068318921667102000000000000, -475139525233354170000000000⟩,
   ⟨608661946575269170, -676349108529389820, -15539698729821092000000000000000, 1019506881301130700000000000000⟩,
   ⟨598354330097576330, -652677643827538810, 13316638384792008000000000000000, -436931530196664430000000000000⟩,
   ⟨588562155313879230, -642532730601034420, -1034382294229970100000000000, -1054816003438668700000⟩,
   ⟨578769932474831220, -642535883471763260, -66560776739163028000000000000000, 2911722818505786600000000000000⟩,
   ⟨568462396089389870, -642532204865315350, 59168659726190111000000000000000, -2426517385648601800000000000000⟩,
   ⟨559185550870536670, -631259261324594620, -36975527512079252000000000000000, 1940942408193409500000000000000⟩,
   ⟨549393392105289920, -608721081541845990, 3448101739957362600000000000, -7031527066923148600000⟩,
   ⟨540116562904886740, -608710572217680080, 3449495020939691600000000000, -226309655644034380000000000⟩,
   ⟨530839813796735280, -608715826798099400, -4846540223134853300, 157548443286187180⟩,
   ⟨521562984596332210, -608715826798103130, -12094118721951122000, 636028900673859200⟩,
   ⟨512286155395929030, -608715826798095740, 23713494522698255000000000000000, -682538777402519620000000000000⟩,
   ⟨503318498304911600, -583994540996844440, -427716714640320560000000000000, 125096298981871060000000000000⟩,
   ⟨494452766613201140, -576581851691944060, 4113971283486380100000000000000, -48167517468435998000000000000⟩,
   ⟨485744159900557190, -567398648821430830, 1266823757133391900000000000000, 30768865784633788000000000000⟩,
   ⟨477137318402717000, -561393479133129790, 2691565311564036000000000000000, -30059273834553522000000000000⟩,
   ⟨468633555632605840, -555284036503049610, 1997278427487748500000000000000, 43712163822506843000000000000⟩,
   ⟨460232887608673870, -546150587178000020, 3994225826925949100000000000000, -43676859178516607000000000000⟩,
   ⟨451986861704010920, -537019471604031550, 1330925879019348600000000000000, 29104333446837721000000000000⟩,
   ⟨443843898508626600, -530934898733991850, 2662182645490383000000000000000, -29098898471704031000000000000⟩,
   ⟨435803982004070670, -524848098127041390, 888314009073407360000000000000, 116486103679886890000000000000⟩,
   ⟨427867160245693990, -514024082165173520, 3327096229877683700000000000000, -72773646625886407000000000000⟩,
   ⟨420084948569685650, -508953762609079080, -1109070374578621700000000000000, 145547293251502040000000000000⟩]
/-- `atm_data.akima_rho`, aviary/subsystems/atmosphere/data/MIL_SPEC_210A_Tropical.py:737-941 (part 2) -/
def tropicalrhoRows_1 : List IRow :=
  [⟨412354252229866270, -502192869605667880, 5550467269294771200000000000000, -145679291590208240000000000000⟩,
   ⟨404778181990865520, -495425582159189920, 459885002745473250000000000, 72800036918968339000000000000⟩,
   ⟨397253675143404760, -490351671873288150, 6210776300164976200000000000000, -116406475760145460000000000000⟩,
   ⟨389883762359862000, -479532112315737840, 1331767308880768000000000000000, 29110665137895415000000000000⟩,
   ⟨382616928304048250, -473444533592469730, 1479220316985634500000000000000, 48545936043067913000000000000⟩,
   ⟨375453172975963420, -465553321287762470, 2071037159592013900000000000000, -38833126154582873000000000000⟩,
   ⟨368392496375607610, -461946586629674550, 441838250062224720000000000000, 58364423588884958000000000000⟩,
   ⟨361383351129891120, -456533189359043770, 6215710138459068000000000000000, -116685062051528460000000000000⟩,
   ⟨354528848003443590, -445718002597402060, 1328538912852288700000000000000, 29239147769038690000000000000⟩,
   ⟨347777311475572890, -439631311704963460, 2668007480163849700000000000000, -29232069849826054000000000000⟩,
   ⟨341128949786132950, -433536036021330280, 1996812584154923400000000000000, 43634112462870074000000000000⟩,
   ⟨334583682842872320, -424409444993199140, 3991556834597488000000000000000, -43586587973540686000000000000⟩,
   ⟨328192961908178760, -415280174655822980, 1776793786084835000000000000000, -21737884340639547000000000⟩,
   ⟨321905351738114850, -409866021832490290, 1997371455423948300000000000000, 43655366038587092000000000000⟩,
   ⟨315720836314230150, -400736246473385000, 3992343303878885300000000000000, -43626862266330416000000000000⟩,
   ⟨309690898935813200, -391607385180814710, 1331815628287304800000000000000, 29114737157560733000000000000⟩,
   ⟨303764040285125160, -385519375452741130, 2663079251619747900000000000000, -29146411016585711000000000000⟩,
   ⟨297940260362166200, -379433152535201670, 884818263069713420000000000000, 116661166208191000000000000000⟩,
   ⟨292219543148485860, -368607593726350070, 3328071451243256700000000000000, -72822618231180259000000000000⟩,
   ⟨286653484072524720, -363537713903788080, -1108725085721278800000000000000, 145468079012765030000000000000⟩,
   ⟨281138908295852030, -356781287892632030, 5553685607023763000000000000000, -145754696878244590000000000000⟩,
   ⟨275778958619997960, -350009444988124160, -1105393948948757500000000000000, 145392767805662700000000000000⟩,
   ⟨270470604372584470, -343248113152149530, 5321260351293332000000000000000, -130843181352541580000000000000⟩,
   ⟨265316780115287700, -336145708584599430, 667443483979836530000000000000, 14538077138596892000000000000⟩,
   ⟨260214567304881850, -333098367173981150, 2217451546725534900000000000000, 72751034997930542000000000000⟩,
   ⟨255215401185304340, -321270480623721020, 2774786129819349600000000000000, -36366948035545420000000000000⟩,
   ⟨250370813111194580, -315346882521049930, 555540822951942760000000000000, -25465752419898978000000000⟩,
   ⟨245577820465525310, -313655368477054320, 2372091953210506800000000000000, -46556457308361908000000000000⟩,
   ⟨240836327137594810, -309669159515351330, 7937602138533034500000000000000, -146530661666743170000000000000⟩,
   ⟨236249459910482910, -295685206138641720, 26364476785597386000000000000000, -1059694752602243100000000000000⟩,
   ⟨231714124038010340, -293467603064949340, -38049963028957235000000000000000, 1880019355016703400000000000000⟩,
   ⟨227281866893266770, -286738453648129840, 1757612578181529900000000000000, -254980032000950780000000000⟩,
   ⟨222952704494702470, -281399016824916650, -1284758923906843100000000000000, 114977316781324920000000000000⟩,
   ⟨218675041413876890, -277303655329963750, 3331522698243600800000000000000, -72905680530989124000000000000⟩,
   ⟨214500505116131200, -272229043661665370, -1034044734793221300000000000, 72815114460587426000000000000⟩,
   ⟨210377484154574580, -267158636311514570, 3328935496170653100000000000000, -72826447524973565000000000000⟩,
   ⟨206357525902296580, -262086389694789210, 289013866517216020, 72803816558373444000000000000⟩,
   ⟨202389099004657960, -257013617783382070, 3329538936715965100000000000000, -72820788463625308000000000000⟩,
   ⟨198523766853198590, -251939137571872700, 517142908144002190000000000, 72764224236240642000000000000⟩,
   ⟨194709982074828870, -246867548094197310, 2957367878532335700000000000000, -48490628668085822000000000000⟩,
   ⟨190999243987287510, -241232185911512930, 740108379219750890000000000000, -5030927414265452500000000⟩,
   ⟨187340053272835820, -238976686112989240, 739840047421712690000000000000, 48530849123278549000000000000⟩,
   ⟨183732409931473720, -233340156085447310, 3677461901137725300000000000000, -95740889102208317000000000000⟩,
   ⟨180227829299390320, -228802216948203020, 2638667423596286900000000000000, -77377394025079803000000000000⟩,
   ⟨176774780021946270, -226151004990237620, 264532289349082550000000000000000, -76362701454677109000000000000000⟩,
   ⟨176156339692473020, -265033972024781300, -87129965878907160000000000000000, 3902395308764094500000000000000⟩,
   ⟨172291007541013670, -301748372721603920, -1836093442632905800000000000000, 153753388110440470000000000000⟩,
   ⟨167704140313901770, -296631667660428940, 1398828703168656200000000000000, 12355154184361138000000000000⟩,
   ⟨163220335796068540, -291507164235624020, 1998116542530808700000000000000, 43653550130881572000000000000⟩,
   ⟨158839626024414590, -282375244378526430, 3327642317302186700000000000000, 33939416320635633000000000⟩,
   ⟨154613526335128980, -272230225789175530, 1331374147786183900000000000000, -14562347370254680000000000000⟩,
   ⟨150490505373572310, -269186862141897490, 443687940080991240000000000000, 58235813644188269000000000000⟩,
   ⟨146419015766655000, -263776788207216570, 6213258710558830300000000000000, -116478867847018240000000000000⟩,
   ⟨142502136242106000, -252954706346492920, 1331732733010534000000000000000, 29094830248355183000000000000⟩,
   ⟨138688335445286000, -246868336342509720, 2218543078606527600000000000000, 22627449112325463000000000⟩,
   ⟨134977597357744640, -240104640419809700, 2219922581895259200000000000000, -22630965826983633000000000⟩,
   ⟨131369954016382550, -233339893254335550, 1478568911423636500000000000000, 48577366344743938000000000000⟩,
   ⟨127865389402749470, -225448476455850940, 1848900689957483800000000000000, -24277359776930424000000000000⟩,
   ⟨124463903516845360, -221504607547698510, 738901353192096930000000000000, 24291190167717524000000000000⟩,
   ⟨121113932967130270, -217559892164319470, 3700139318507748300000000000000, -48597486797010478000000000000⟩,
   ⟨117867057163594470, -209668008216359350, 1478339141586039600000000000000, 48569817414611219000000000000⟩,
   ⟨114723244069337340, -201777817745258260, 1479680098825796500000000000000, -20112246537360120000000000⟩,
   ⟨111682509702809190, -197269154170670670, 924488733992996350000000000000, -12128626744701634000000000000⟩,
   ⟨108693306690920370, -195296402231165920, -3327642236909143200000000000000, 327574755296107190000000000000⟩]
/-- `atm_data.akima_rho`, aviary/subsystems/atmosphere/data/MIL_SPEC_210A_Tropical.py:737-941 (part 3) -/
def tropicalrhoRows_2 : List IRow :=
  [⟨105755651052121200, -182614537823566350, 20253202492091301000, -650616719496677290⟩,
   ⟨102972605495690330, -182614537823550020, 7669983380649102500, -303426631514131070⟩,
   ⟨100189559939259470, -182614537823547680, -156460029188293350000000000000000, 6937274745248419800000000000000⟩,
   ⟨96228133104405228, -176134271927858240, 172716901274450810000000000000000, -7409364821929125300000000000000⟩,
   ⟨94932705009584686, -165957544163030960, -8214106074588358800000000000000, 404236334465463950000000000000⟩,
   ⟨92355816908611776, -162828051215652160, -3777293297409380000000000000000, 269534578569824470000000000000⟩,
   ⟨89881991516917545, -155560804885464830, 1724452784088613400000000000, -67891138575119292000000000⟩,
   ⟨87511260871402582, -155560279223251050, -2068357617918987500000000000, 113093312504254360000000000⟩,
   ⟨85140514207437346, -155558703542868980, 7393803945458552100000000000000, -194032933558833980000000000000⟩,
   ⟨82872846271201062, -146542076157911620, 739725094032530130000000000000, -71480312231694343⟩,
   ⟨80656725708054419, -144287394071305430, -1476693163475093500000000000000, 193942494055166780000000000000⟩,
   ⟨78492136499547116, -135274969371397660, 4900925567002326800000000000, -140675917012949140000000000⟩,
   ⟨76430610000318477, -135269833265528420, -3700911245358150900000000000, 293120534254445130000000000⟩,
   ⟨74369115537990457, -135260689801465190, 41619627793008056000000000000000, -5067422054418496400000000000000⟩,
   ⟨73905269272435223, -125152748755283440, -7540303291459227300000000000, 42477745045966664000000000000⟩,
   ⟨72462199121130139, -123460673511521700, 1240417646936522600000000000000, -7407614583806198500000000000⟩,
   ⟨70606846095809764, -120196022959147160, 1298806201090093800000000000000, -6215499708352014500000000000⟩,
   ⟨68803024425128742, -116670340771743290, 1109702505148068500000000000000, -22620417862426019000000000⟩,
   ⟨67050734109087046, -113289543665240940, -2078676655335336700, 72815125009707065000000000000⟩,
   ⟨65349975147684675, -108215983811710780, 1724747439461382600000000000, -67903442498772349000000000⟩,
   ⟨63700779577822261, -108215458108691270, -1034205500946295100000000000, 45240835561468469000000000⟩,
   ⟨62051567989509539, -108215458108691260, 4271558527697551400000000000000, -134723603865247770000000000000⟩,
   ⟨60453887755836155, -104582921985397140, 10682319489080253000000000000000, -420563110655772810000000000000⟩,
   ⟨58959286249891753, -101326905801513370, -169039150734994840000000000000000, 7466017506483417100000000000000⟩,
   ⟨56131677364705326, -96346444957625865, 142251583965718880000000000000000, -5642321589494365000000000000000⟩,
   ⟨55970099256453236, -55905238271353595, -29911443541818728000000000000000, 292850991072702530000000000000⟩,
   ⟨54527045123598468, -126670257683567380, -255705972921202440000000000000000, 11707544576321967000000000000000⟩,
   ⟨50801634135575424, -90312201590517444, 302722372642377590000000000000000, -13167292254832253000000000000000⟩,
   ⟨51795530921806950, -85075519058315983, -2174584496857915500000000000000, 107349501412266030000000000000⟩,
   ⟨50486471125774694, -84223831336975974, -437611916276495770000000000000, 29520093333006162000000000000⟩,
   ⟨49203185016287274, -83500792648996820, 587997786953177630000000000000, 3861851193240513800000000000⟩,
   ⟨47945656574894358, -81439492107453759, 977935239085448360000000000000, -8561181362994833800000000000⟩,
   ⟨46724201683594015, -79055265329681435, 563518279442716970000000000000, 3364328157114700300000000000⟩,
   ⟨45533678419837513, -77103244378924866, 605146943003356360000000000000, 3974483400656033000000000000⟩,
   ⟨44374086783624853, -74981825303887682, 655241533466557400000000000000, -3309668207305029600000000000⟩,
   ⟨43245410756505738, -73215257788269119, 443616617588946770000000000000, 7285660338251100100000000000⟩,
   ⟨42142492397481135, -71355469342484753, 726703179359590760000000000000, -3976748842397199800000000000⟩,
   ⟨41070505666000387, -69417567094378031, 351908671576087450000000000000, 9993573890203737200000000000⟩,
   ⟨40024292621064460, -67648624417265694, 634038508045379550000000000000, -11911967463481347000000000000⟩,
   ⟨39003837244223037, -66546068537047280, -23391676659108609000000000000, 33942927884352837000000000000⟩,
   ⟨38001146328772675, -64252315477286458, 1527209426582792500000000000000, -33919452994666406000000000000⟩,
   ⟨37045405491173689, -61960796368818342, 28269947818298148000000000000, 15915758023469228000000000000⟩,
   ⟨36107413096515453, -60765662839654619, 789083991399476090000000000000, -12648532248480418000000000000⟩,
   ⟨35195194388402039, -59241850156935416, 302589155377497000000000000000, 11908022904988719000000000000⟩,
   ⟨34303591425834418, -57489839765147443, 798737560092537900000000000000, -8739623790762666900000000000⟩,
   ⟨33442904072360342, -55664240895949036, 414859490039092720000000000000, -3910050136101900400000000000⟩,
   ⟨32602832464432054, -54672190828457111, 14643230380245157000000000000, 37925816620756444000000000000⟩,
   ⟨31783392620499874, -51984990518345006, 1433746612571364700000000000000, -53859623035296838000000000000⟩,
   ⟨30989710444662207, -51431934482860872, -1185977317091759700000000000000, 64639240388696157000000000000⟩,
   ⟨30216644014370336, -50648963620037436, 1391771171664103200000000000000, -36448806665238969000000000000⟩,
   ⟨29464177311173952, -48946498796484917, -196196845508114680000000000000, 29158361714964172000000000000⟩,
   ⟨28723996759363445, -47512831448038770, 1061407413442897800000000000000, -24262488675395723000000000000⟩,
   ⟨28015965237320157, -45968205868797171, 81639693554506145000000000000, 8187138760277533000000000000⟩,
   ⟨27320203848212446, -45148910523044320, 605835984368437320000000000000, -3241175486957403800000000000⟩,
   ⟨26645058204650525, -43528158734623220, 380241055053111480000000000000, 22187817244757221000000000⟩,
   ⟨25990528306634401, -42367638012066601, 238208072479290800000000000000, 3091205116588362200000000000⟩,
   ⟨25351472231615352, -41426193042703760, 331738319775963450000000000000, 45254898715528878000000000⟩,
   ⟨24727857942692767, -40411901405777398, 381297088664183730000000000000, -3161377924880231300000000000⟩,
   ⟨24119717476767263, -39469984094386692, 226957691710502600000000000000, 10036747220558057000000000000⟩,
   ⟨23527018796938217, -38078883803677040, 457462333081016820000000000000, -6694635334880917100000000000⟩,
   ⟨22954951881105277, -37151002593172494, 158036312718048160000000000000, 2101120297732809000000000000⟩,
   ⟨22393184828820075, -36522907564709047, 356153156616456290000000000000, 5774525076698855700000000000⟩,
   ⟨21846891599531952, -35034999542705902, 413596384161466100000000000000, -3859750450007581800000000000⟩,
   ⟨21321198097339320, -34043294676617072, 118527715576545460000000000000, 1947376165643255300000000000⟩]
/-- `atm_data.akima_rho`, aviary/subsystems/atmosphere/data/MIL_SPEC_210A_Tropical.py:737-941 (part 4) -/
def tropicalrhoRows_3 : List IRow :=
  [⟨20805820477144743, -33546334325180921, 200376246972813570000000000000, 4323945584416541000000000000⟩,
   ⟨20300758738948210, -32634306757217639, 442948499239159160000000000000, -7235078658727487700000000000⟩,
   ⟨19811138786848145, -31788320333062867, 112160702962385390000000000000, 7235078658686277100000000000⟩,
   ⟨19331850735196436, -30942333908910195, 397901343274436040000000000000, -4313073155430026100000000000⟩,
   ⟨18868004469641191, -30030053820521088, 178049196926320120000000000000, -21729110068491395000000000⟩,
   ⟨18414474086083994, -29488873893576043, 199042991865142040000000000000, 4398776155645602100000000000⟩,
   ⟨17971243566074543, -28575696096516878, 399989667694945890000000000000, -4387925105341132100000000000⟩,
   ⟨17543486869062170, -27662266275566557, 132881717418407220000000000000, 2909436104101171600000000000⟩,
   ⟨17126030035597543, -27054521206807673, 221905904256741200000000000000, 22611119175332959⟩,
   ⟨16718873065680658, -26378152010631568, 222423569664206490000000000000, -11322515467905882000000000⟩,
   ⟨16322031977761824, -25700993892375614, 222078459392138610000000000000, 13493732411085797⟩,
   ⟨15935506771841041, -25024098748147445, 0, 0⟩]
/-- `atm_data.akima_rho`, aviary/subsystems/atmosphere/data/MIL_SPEC_210A_Tropical.py:737-941 -/
def tropicalrhoRows : List IRow :=
  tropicalrhoRows_0 ++ tropicalrhoRows_1 ++ tropicalrhoRows_2 ++ tropicalrhoRows_3
/-- `atm_data.akima_rho`, aviary/subsystems/atmosphere/data/MIL_SPEC_210A_Tropical.py:737-941, with the column exponents. -/
def tropicalrho : CTab := ⟨18, 22, 39, 40, tropicalrhoRows⟩
/-- `atm_data.akima_dT`, aviary/subsystems/atmosphere/data/MIL_SPEC_210A_Tropical.py:943-1147 (part 1) -/
def tropicaldTRows_0 : List IRow :=
  [⟨-74730242053074629, 53819552083536147000000000000000000000000000000, 0, 0⟩,
   ⟨-74730242053074629, 53819552083536147000000000000000000000000000000, -45338940901246941000000000000, -7724117830594972400000000000000000000000000⟩,
   ⟨-69262175561387350, 170740499604016380000000000000000, -46681020232951386000000000000, 6126118140811103200000000000⟩,
   ⟨-69262175561387333, 71141874835018031000000000000000, 18672408093162959000000000000, -18378354422414124000000000000⟩,
   ⟨-69262175561387324, -35993517636004166, -19619259289731890000000000000000000000000000, 7724117830603144700000000000000000000000000⟩,
   ⟨-71084864391951644, -5979950231510021300000000000000000000000000000, 3923851857946125300000000000000000000000000, 54704320585481407000000000000⟩,
   ⟨-71084864391951644, 5979950231510148400000000000000000000000000000, 15695407431783396000000000000000000000000000, -7724117830602043500000000000000000000000000⟩,
   ⟨-69262175561387446, 796788998152054950000000000000000, -336103345677145820000000000000, 73513417689651178000000000000⟩,
   ⟨-69262175561387376, 284567499339992620000000000000000, 35226572965744207, -73513417689683872000000000000⟩,
   ⟨-69262175561387359, -227653999472006220000000000000000, -19619259289725464000000000000000000000000000, 7724117830601725600000000000000000000000000⟩,
   ⟨-71084864391950725, -5979950231500528200000000000000000000000000000, 3923851857938210000000000000000000000000000, 1310606399748753200000000000000⟩,
   ⟨-71084864391950673, 5979950231504255100000000000000000000000000000, 15695407431689961000000000000000000000000000, -7724117830551381300000000000000000000000000⟩,
   ⟨-69262175561391141, 63117071353353720000000000000000000, -49575243487009806000000000000000, 10843229109093717000000000000000⟩,
   ⟨-69262175561389198, -12435599721204802000000000000000000, -202197369489473760000, -10843229109074897000000000000000⟩,
   ⟨-69262175561394931, -87988270795537215000000000000000000, -19619259289524618000000000000000000000000000, 7724117830526484400000000000000000000000000⟩,
   ⟨-71084864391951653, -5979950231500418100000000000000000000000000000, 3923851857952760100000000000000000000000000, -5494496216369985800000000000000⟩,
   ⟨-71084864391950612, 5979950231501315900000000000000000000000000000, 15695407431783899000000000000000000000000000, -7724117830601044400000000000000000000000000⟩,
   ⟨-69262175561387290, 455307998944164940000000000000000, -149379264745617250000000000000, 76495682969996387⟩,
   ⟨-69262175561387255, 56333450873299040000, 83523889965107616000000000000, -54805702076866498000000000000⟩,
   ⟨-69262175561387255, -127290408306936750000000000000000, -5445131196555107200000000000000, 2353493861436884700000000000000⟩,
   ⟨-69262175561387706, -325545219244990810000000000000000, 3190741094962970000000000000000, -1046831067901488300000000000000⟩,
   ⟨-69262175561387385, 2105799495115050900000000000000000, -1792551176944024300000000000000, -179111843051698850⟩,
   ⟨-69262175561387480, -3357896492211586900000000000000000, -19619259289719005000000000000000000000000000, 7724117830599276300000000000000000000000000⟩,
   ⟨-71084864391950690, -5979950231501040600000000000000000000000000000, 3923851857938334100000000000000000000000000, 1249999707915495400000000000000⟩,
   ⟨-71084864391950707, 5979950231503716200000000000000000000000000000, 15695407431695265000000000000000000000000000, -7724117830554209200000000000000000000000000⟩,
   ⟨-69262175561391028, 59019299362889287000000000000000000, -30846818169826514000000000000000, 32462363110129382000⟩,
   ⟨-69262175561389198, -35001802418515530000000000000000000, -28128046257410558000000000000000, 18456723265884879000000000000000⟩,
   ⟨-69262175561394532, 7865340076854708000000000000000000, 70295267789688899000000000000000, -30864072817762882000000000000000⟩,
   ⟨-69262175561387931, 7072851933461062200000000000000000, 182422487782724800000000000000, -1253612719298533500000000000000⟩,
   ⟨-69262175561387255, -1105956769189683300000000000000000, -697203640920806480000000000000, 394561091157780610000000000000⟩,
   ⟨-69262175561387446, -481839104145668940000000000000000, 151749852732104900000000000000, 9867633657593648600000000000⟩,
   ⟨-69262175561387480, 49449434311543103000000000000000, 2101105068059145300000000000000, -689338933090468500000000000000⟩,
   ⟨-69262175561387229, 1650491496171223500000000000000000, -3883860883381203500000000000000, 557651455797537770⟩,
   ⟨-69262175561387879, -10187516476370771000000000000000000, -19619259289704791000000000000000000000000000, 7724117830593932000000000000000000000000000⟩,
   ⟨-71084864391950716, -5979950231501899300000000000000000000000000000, 3923851857930623900000000000000000000000000, 4269059609882694900000000000000⟩,
   ⟨-71084864391951583, 5979950231500430800000000000000000000000000000, 15695407431660067000000000000000000000000000, -7724117830535973700000000000000000000000000⟩,
   ⟨-69262175561394124, 75694954824153517000000000000000000, -28307370668912052000000000000000, -100053865660267840000⟩,
   ⟨-69262175561389163, -10585910975387868000000000000000000, 4460918275667270600000000000000, -2927111729466812900000000000000⟩,
   ⟨-69262175561390776, -17384350427688302000000000000000000, -24168044744596296000000000000000, 11483075982158796000000000000000⟩,
   ⟨-69262175561394974, -11037600762202167000000000000000000, 89150114322117620000000000000000, -37841737816273621000000000000000⟩,
   ⟨-69262175561389345, -2978988459495660800000000000000000, -20841019408421588000000000000000, 9640361635775523500000000000000⟩,
   ⟨-69262175561391227, 669002083354085760000000000000000, 1420656053259441200000000000000, -19512995479684278000000000000⟩,
   ⟨-69262175561390802, 4863200488721207700000000000000000, 10885192255335624000000000000000, -4580546992189555000000000000000⟩,
   ⟨-69262175561389154, 6125260950189330700000000000000000, -77056428728312652000000000000000, 33883627923216285000000000000000⟩,
   ⟨-69262175561394124, 7349169208469164800000000000000000, 49093166802215292000000000000000, -20870948245907126000000000000000⟩,
   ⟨-69262175561388990, 11562051142063732000000000000000000, -1225600738497871100000000000000, -1993017291292299000000000000000⟩,
   ⟨-69262175561388218, -6060382293899212800000000000000000, -21298093645186746000000000000000, 10384831989376632000000000000000⟩,
   ⟨-69262175561390412, 1381712903247134200000000000000000, 11911429669545860000000000000000, -5372249491944437700000000000000⟩,
   ⟨-69262175561389337, 255377328015974000000000000000000, 100459755530466070000000000000, -151368349443203160000000000000⟩,
   ⟨-69262175561389328, -493114823856362990000000000000000, -125158483961699930000000000000, 49394015409587312000000000000⟩,
   ⟨-69262175561389415, -530433818769812170000000000000000, 1473264899024255600000000000000, -566796259096414800000000000000⟩,
   ⟨-69262175561389354, 10795428654782334000000000000000, -27355475085920102000000000000000, 11647489311957952000000000000000⟩,
   ⟨-69262175561391583, -2212155224599253000000000000000000, 47569809958469035000000000000000, -20827106498528121000000000000000⟩,
   ⟨-69262175561388244, -2336987579961641900000000000000000, -10528221334467869000000000000000, 4777914225664078700000000000000⟩,
   ⟨-69262175561389354, -1135799475661655800000000000000000, 788843990242699920000000000000, 44925003158476240000000000000⟩,
   ⟨-69262175561389328, 1581622209005490200000000000000000, 9034180203309025700000000000000, -3864416429702116500000000000000⟩,
   ⟨-69262175561388356, 2191600907795988000000000000000000, -41600657153853676000000000000000, 18193421932643413000000000000000⟩,
   ⟨-69262175561391245, 2159613318743277600000000000000000, 21370894412366927000000000000000, -9610756949165618100000000000000⟩,
   ⟨-69262175561389354, 332959191741164860000000000000000, 52782763282415860000000000000, -128983130475625590000000000000⟩,
   ⟨-69262175561389337, -404878315516697570000000000000000, -311256043135487410000000000000, 182523424986366930000000000000⟩,
   ⟨-69262175561389406, -81813156060258086000000000000000, 1169138436213100700000000000000, -413367882232673990000000000000⟩,
   ⟨-69262175561389293, 601485830183973690000000000000000, -1674189149391315800000000000000, 619035473834372660000000000000⟩,
   ⟨-69262175561389371, -188171893131739480000000000000000, 16380493750369305000000000000000, -6746621253104410900000000000000⟩,
   ⟨-69262175561387983, 2730951247342790500000000000000000, -58496502120481998000000000000000, 25666096414688356000000000000000⟩]
/-- `atm_data.akima_dT`, aviary/subsystems/atmosphere/data/MIL_SPEC_210A_Tropical.py:943-1147 (part 2) -/
def tropicaldTRows_1 : List IRow :=
  [⟨-69262175561392069, 3267991423436851700000000000000000, 30126039252945076000000000000000, -13529401529210428000000000000000⟩,
   ⟨-69262175561389363, 822969208091361160000000000000000, -232173351909701640000000000000, -5954173657581772600000000000⟩,
   ⟨-69262175561389293, 73817768959797090000000000000000, -1155122716013963700000000000000, 505631570908092800000000000000⟩,
   ⟨-69262175561389371, 76106984849530873000000000000000, 34107973693889736000000000000000, -11190280083317495000000000000000⟩,
   ⟨-69262175561385399, 26066382939451279000000000000000000, 70114892387421663000000000000000, -64410006130782365000000000000000⟩,
   ⟨-69262175561387940, -209014828261309860000000000000000000, -16185888913751275000000000000000000000000000, 5471250129919865300000000000000000000000000⟩,
   ⟨-71084864391951757, -11212406684076684000000000000000000000000000000, 278545039300830100000000000000000000000000, 639703174243289450000000000000000000000000⟩,
   ⟨-72502511260166842, -5906123685423931900000000000000000000000000000, 49605238302854363000000000000000000000000000, -20851939493285554000000000000000000000000000⟩,
   ⟨-69262175561389337, 4941576488538313500000000000000000, -11787972413602894000000000000000, 5484740206758530000000000000000⟩,
   ⟨-69262175561389380, 7228014483234279500000000000000000, 2895492253054016600000000000000, -1899929299903166700000000000000⟩,
   ⟨-69262175561388278, 2815284289587268900000000000000000, -5389957704154237000000000000000, 2471605773396362200000000000000⟩,
   ⟨-69262175561388226, 3608169959580601400000000000000000, 1677700377240742500000000000000, -694016189375523350000000000000⟩,
   ⟨-69262175561387532, 3886084674245259000000000000000000, 469679967030903330000000000000, -878666381612529200000000000000⟩,
   ⟨-69262175561387142, -804639136064954790000000000000000, -6174527240691692300000000000000, 1898513402507610600000000000000⟩,
   ⟨-69262175561388027, -6396273172665695300000000000000000, -3108144103689401200000000000000, 1019732317485187000000000000000⟩,
   ⟨-69262175561389363, -8764678979664570900000000000000000, -5261532008038646200000000000000000000000000, 3452448824186781800000000000000000000000000⟩,
   ⟨-69262175561385590, 8018574780342679000000000000000000000000000000, 5172343415547119600000000000000000000000000, -1696963062841774200000000000000000000000000⟩,
   ⟨-67439486730825355, 11959900463001931000000000000000000000000000000, 7585683800904008500000000000000000000000000, -4977482808988536300000000000000000000000000⟩,
   ⟨-65616797900262588, 399318350448830120000000000000000000000000000, -524039829986313620000000000000000000000000, 171929078079622120000000000000000000000000⟩,
   ⟨-65616797900262657, 113826999735775590000000000000000, 120780632275882740000000000000, -79252383383023863000000000000⟩,
   ⟨-65616797900262640, -70242683851962313000000000000000, -8695540355141808700000000000000, 3653098411551488300000000000000⟩,
   ⟨-65616797900263377, -1120453597401422200000000000000000, 21893357897059374000000000000000, -9619523692953044300000000000000⟩,
   ⟨-65616797900261868, -1415723309216629600000000000000000, -7215617413501025000000000000000, 3285830155172418300000000000000⟩,
   ⟨-65616797900262596, -514154410128321350000000000000000, -109497819535089060000000000000, 121690135446055860000000000000⟩,
   ⟨-65616797900262657, 0, 0, 0⟩,
   ⟨-65616797900262657, 0, 0, 0⟩,
   ⟨-65616797900262657, 0, 0, 0⟩,
   ⟨-65616797900262657, 0, 31190873367596054000000000000000000000000000, -13644301560627780000000000000000000000000000⟩,
   ⟨-63202025436841919, 1972359001669197200000000000000000, -7565651781298633700000000000000000000000000, 3057786780811760400000000000000000000000000⟩,
   ⟨-63876869572210612, -1754280058704347700000000000000000000000000000, 115408515958885610000000000000000000000000, 600788110424192060000000000000000000000000⟩,
   ⟨-63876869572210204, 3322124584395643600000000000000000000000000000, 23216324325036325000000000000000000000000000, -11343715952831605000000000000000000000000000⟩,
   ⟨-61971420239136368, 16618741961448649000000000000000000, -5564377611769170300000000000000, 5316968229849534700⟩,
   ⟨-61971420239135128, -341480999186693820000000000000000, 3961082367670471400000000000000, -2599135411866425700000000000000⟩,
   ⟨-61971420239135180, -6378170527580556000000000000000000, -53863217763458502000000000000000, 23533824287126046000000000000000⟩,
   ⟨-61971420239140332, -6575971838114320000000000000000000, 5810241484548510600000000000000, 1052703681045049600000000000000⟩,
   ⟨-61971420239139612, 18468597120910128000000000000000000, 250546800682094020000000000000, -103211256945649610000000000000⟩,
   ⟨-61971420239136776, 18513115804453743000000000000000000, 47014597524773995000000000000, -160359055341870520000000000000⟩,
   ⟨-61971420239134000, 17539078017750147000000000000000000, -71489258083149826000000000000000, 28771467266514345000000000000000⟩,
   ⟨-61971420239137747, 111577454286684130000000000000000, 433470420089923840000000000000, -185442963027127980000000000000⟩,
   ⟨-61971420239137695, 140679168833690570000000000000000, -259307964175991070000000000000, 85074791396498661000000000000⟩,
   ⟨-61971420239137704, -56913499867188511000000000000000, -14083663804491022000000000000000, 19802676890295125000000000000000⟩,
   ⟨-61971420239133974, 94995745467505897000000000000000000, 17812624414411744000000000000000000000000000, -6538661875719751900000000000000000000000000⟩,
   ⟨-60148731408573262, 8733261781237045600000000000000000000000000000, -1208119783269160900000000000000000000000000, 390879718502334210000000000000000000000000⟩,
   ⟨-58960021301677906, 7774456241073496500000000000000000000000000000, -21553616955631044000000000000000000000000000, 12664261724393713000000000000000000000000000⟩,
   ⟨-58298536060340063, 30320162776696189000000000000000000000000000000, 3575711557352039400000000000000000000000000000, -5971597975903501900000000000000000000000000000⟩,
   ⟨-41937973092746710, 599020457656199010000000000000000000000000000000, 435879731582754210000000000000000000000000000, -328690775071422940000000000000000000000000000⟩,
   ⟨36598949898955296, 172536673149258950000000000000000000000000000000, -181215016669491670000000000000000000000000000, 54509403590287582000000000000000000000000000⟩,
   ⟨40099154272381071, -2441764162380361400000000000000000, -12965890497422142000000000000000, 8211373400789305700000000000000⟩,
   ⟨40099154272380593, 15252817964610746000000000000000000, 10376237099539601000000000000000, -6808554527250613600000000000000⟩,
   ⟨40099154272382918, -560567375044022490000000000000000, -4961108215340930600000000000000, 2222443658286020500000000000000⟩,
   ⟨40099154272382467, -196642309141466530000000000000000, -78042572525662894000000000000, 62361227390001594000000000000⟩,
   ⟨40099154272382441, 0, 0, 0⟩,
   ⟨40099154272382441, 0, 0, 0⟩,
   ⟨40099154272382441, 0, -21581185218678479000000000000000000000000000, 9011470802359711400000000000000000000000000⟩,
   ⟨38276465441820537, -2989975115747202600000000000000000000000000000, 52972000082240731000000000000000000000000000, -23172353491797109000000000000000000000000000⟩,
   ⟨41921843102946527, -2989975115767627700000000000000000000000000000, -19619259289619605000000000000000000000000000, 9011470802315722200000000000000000000000000⟩,
   ⟨40099154272387055, -49818283551053137000000000000000000, -8863169708323243200000000000000, 11631456310041191000000000000000⟩,
   ⟨40099154272381522, 4211598990229574100000000000000000, -463231866279862290000000000000, 303957917507720740000000000000⟩,
   ⟨40099154272382163, 4917564354448750500000000000000000, 1263953370670569500000000000000, -765756557847081270000000000000⟩,
   ⟨40099154272382935, 3434510818957851900000000000000000, -11294898077326952000000000000000, 4462331419427435000000000000000⟩,
   ⟨40099154272382415, 99973055689191967000000000000000, 133203062786803870000000000000, -56934207437029246000000000000⟩,
   ⟨40099154272382441, 109273919746569520000000000000000, -218093726528311470000000000000, 96057532447840700000000000000⟩,
   ⟨40099154272382441, 113826999736010800000000000000000, 10313525831891607000000000000000, -4071913419548879300000000000000⟩,
   ⟨40099154272383412, 3177468588375511700000000000000000, -8128456799717274400000000000000, 2666816535342375900000000000000⟩]
/-- `atm_data.akima_dT`, aviary/subsystems/atmosphere/data/MIL_SPEC_210A_Tropical.py:943-1147 (part 3) -/
def tropicaldTRows_2 : List IRow :=
  [⟨40099154272382953, -3016415492994564400000000000000000, 8103825112440325200000000000000, -4859237964273084700⟩,
   ⟨40099154272384375, 21684043449689343000000000000000000, 23543111147603439000000000000000000000000000, -10298823774107209000000000000000000000000000⟩,
   ⟨41921843102945347, 3813204491157486900000000000000000, -1605827096015251900000000000000, 817612394671166200⟩,
   ⟨41921843102945555, -1081356497491350900000000000000000, -921605115973858580000000000000, 604727766386723930000000000000⟩,
   ⟨41921843102945390, 323169699250483580000000000000000, 5585778272506142900000000000000, -2652641417440624300000000000000⟩,
   ⟨41921843102945798, -1134262004411712700000000000000000, -276081019349912200000000000000, 56907494609786516000000000000⟩,
   ⟨41921843102945581, -1579241007787786400000000000000000, -168194210304987530000000000000, 55181827527899730000000000000⟩,
   ⟨41921843102945321, -1707404996040068500000000000000000, 2203344154993872700000000000000, 653219233166542740⟩,
   ⟨41921843102945573, 5008387988385872400000000000000000, 23543111147609381000000000000000000000000000, -10298823774104807000000000000000000000000000⟩,
   ⟨43744531933506232, 23676015945065187000000000000000000, -12443292753261323000000000000000, 2332825788008670700000000000000⟩,
   ⟨43744531933507776, 2003355195354699800000000000000000, -3100913680504338600000000000000, -298105525221372200000000000000⟩,
   ⟨43744531933507256, -9525347917861989600000000000000000, -10776641724122651000000000000000000000000000, 3638345962518473000000000000000000000000000⟩,
   ⟨42529406046466931, -7496198938408277400000000000000000000000000000, 37486262518990182000000000000000000000000000, -17192785816463379000000000000000000000000000⟩,
   ⟨44007886213210268, -13032725911902142000000000000000000000000000000, -1897325588574037100000000000000000000000000000, 3208817236403439000000000000000000000000000000⟩,
   ⟨33849935424739427, -113133995859347800000000000000000000000000000000, 9022516061157102600000000000000000000000000, 22917666749733544000000000000000000000000000⟩,
   ⟨25517643627879357, 2703641839018967200000000000000000, 4537066301433761700000000000000, -2364573706941612800000000000000⟩,
   ⟨25517643627879986, 56913499868020783000000000000000, -82582093525515999000000000000, 54187725410438112000000000000⟩,
   ⟨25517643627879995, 182768610400861910000000000000000, 341292909174912060000000000000, -167863077337145600000000000000⟩,
   ⟨25517643627880043, 53405133437786738000000000000000, -5855232973806840900000000000000, 2140466093546773000000000000000⟩,
   ⟨25517643627879449, -2879159437668878800000000000000000, 2386114404372788900000000000000, -326051295886645530000000000000⟩,
   ⟨25517643627879449, 2121880523073678700000000000000000, 23602311774250508000000000000000, -11279235725598761000000000000000⟩,
   ⟨25517643627881261, -4528919772866381000000000000000000, -2562613380478659800000000000000, 1021733983634259700000000000000⟩,
   ⟨25517643627880338, -5220600870245300300000000000000000, -697538850281249290000000000000, 573576748212932330000000000000⟩,
   ⟨25517643627879583, -3350172517230433900000000000000000, 6827495694616743500000000000000, -2694483161460978600000000000000⟩,
   ⟨25517643627879704, -1314391409678941400000000000000000, -2364334262591114000000000000000, 1222906841664427200000000000000⟩,
   ⟨25517643627879388, 0, 0, 0⟩,
   ⟨25517643627879388, 0, 0, 0⟩,
   ⟨25517643627879388, 0, -7240226238129832300000000000000, 3023239302488041500000000000000⟩,
   ⟨25517643627878776, -1003100435173622800000000000000000, 17771464402681561000000000000000, -7774043920683023400000000000000⟩,
   ⟨25517643627879999, -1003100435173622800000000000000000, -6582023852845293900000000000000, 3023239302488041500000000000000⟩,
   ⟨25517643627879388, 0, 0, 0⟩,
   ⟨25517643627879388, 0, 0, 0⟩,
   ⟨25517643627879388, 0, 4778712579382038700000000000000, -1714378766780450400000000000000⟩,
   ⟨25517643627879891, 2620191006054972800000000000000000, -5325907983970383700000000000000, 2329793518797170700000000000000⟩,
   ⟨25517643627879878, 2620191006054973300000000000000000, 18971485356460435000000000000000, -7965097038601687000000000000000⟩,
   ⟨25517643627881864, 4946648713965081900000000000000000, -1305313280715078800000000000000, -1273306567429968600000000000000⟩,
   ⟨25517643627881864, -7903999988120364800000000000000000, -104882171888225560000000000000, 16807603578666613000000000000⟩,
   ⟨25517643627880641, -8106570037967700600000000000000000, -382282128461991670000000000000, 200280753274326010000000000000⟩,
   ⟨25517643627879388, -7876264153069261300000000000000000, 18024364854226142000000000000000, -7014575580057249100000000000000⟩,
   ⟨25517643627879891, -1813654754669521300000000000000000, -3537580294259878300000000000000, 1766633849792331100000000000000⟩,
   ⟨25517643627879418, -286775350628008850000000000000000, 37419685505093750000000000000, 13153713971137004000000000000⟩,
   ⟨25517643627879388, -81068648067797648000000000000000, -12435113212158609000000000000, 43064149721311877000000000000⟩,
   ⟨25517643627879388, 181088408670925200000000000000000, 3030022586029373900000000000000, -1208516033231844700000000000000⟩,
   ⟨25517643627879691, 995986247690110220000000000000000, -653534283261220970000000000000, 0⟩,
   ⟨25517643627879691, -995986247690110100000000000000000, -2614137133044945200000000000000, 1286484809569381100000000000000⟩,
   ⟨25517643627879388, 0, 0, 0⟩,
   ⟨25517643627879388, 0, 0, 0⟩,
   ⟨25517643627879388, 0, -3893788428073583900000000000000000000000000, 1548069233131973000000000000000000000000000⟩,
   ⟨25158240196501611, -883331505909754060000000000000000000000000000, 22807578101746130000000000000000000000000000, -10180681924467362000000000000000000000000000⟩,
   ⟨26722133839762979, -883331505909769540000000000000000000000000000, -14398801988178453000000000000000000000000000, 6425463216399708300000000000000000000000000⟩,
   ⟨25517643627879392, -40696822826799663000000000000000, -2609320307338629300000000000, 6982194357119418500000000000⟩,
   ⟨25517643627879388, -23975526018362057000, -19080102592996857000000000000, 12519752357619689000000000000⟩,
   ⟨25517643627879388, 29078076351775439000000000000000, 10775964941978089000000000000000, -4216339600241151700000000000000⟩,
   ⟨25517643627880403, 3495911729392284000000000000000000, -2125925478362492500000000000000, -36709584859138356000000000000⟩,
   ⟨25517643627880429, -3239691530948054100000000000000000, -9192570138180025200000000000000, 4486203438498354300000000000000⟩,
   ⟨25517643627879388, 0, 0, 0⟩,
   ⟨25517643627879388, 0, 0, 0⟩,
   ⟨25517643627879388, 0, 3267671416306181800000000000000, -1286484809569381100000000000000⟩,
   ⟨25517643627879691, 995986247690110220000000000000000, -653534283261220970000000000000, 0⟩,
   ⟨25517643627879691, -995986247690110100000000000000000, -2614137133044945200000000000000, 1286484809569381100000000000000⟩,
   ⟨25517643627879388, 0, 0, 0⟩,
   ⟨25517643627879388, 0, 0, 0⟩,
   ⟨25517643627879388, 0, 5757465383349469000000000000000, -2307596070976467300000000000000⟩,
   ⟨25517643627879908, 1470052732016668800000000000000000, -1146797242638843300000000000000, 33785338446159151000000000000⟩]
/-- `atm_data.akima_dT`, aviary/subsystems/atmosphere/data/MIL_SPEC_210A_Tropical.py:943-1147 (part 4) -/
def tropicaldTRows_3 : List IRow :=
  [⟨25517643627879878, -1789978214865775300000000000000000, -3700278982395301000000000000000, 1850945196753911100000000000000⟩,
   ⟨25517643627879401, -171545879319128060000000000000000, 79227857556851990000000000000, -14883312924753503000000000000⟩,
   ⟨25517643627879388, -33762245684409696000000000000000, -9407737534756218200000000000, 20709607645725005000000000000⟩,
   ⟨25517643627879388, 81861883371788019000000000000000, 3369865327232275300000000000000, -1388787340734415300000000000000⟩,
   ⟨25517643627879691, 676518960695169240000000000000000, -1523691352917026600000000000000, 708517896142201700000000000000⟩,
   ⟨25517643627879691, 969067700455232270000000000000000, 104304249723693460000000000000, -44598919221600683000000000000⟩,
   ⟨25517643627879848, 976233915382968820000000000000000, -100243223607398970000000000000, 37524178017333301000000000000⟩,
   ⟨25517643627879986, 932150835675976940000000000000000, 2731163892284977500000000000000, -1201014676318049200000000000000⟩,
   ⟨25517643627880338, 888394790768300320000000000000000, -10306221381738235000000000000000, 4248219264508149900000000000000⟩,
   ⟨25517643627879583, -924531661317395910000000000000000, 936992535600003430000000000000, 126301156653233630000000000000⟩,
   ⟨25517643627879704, 2811453692836580600000000000000000, 409021801076462940000000000000, 199679934383780940000000000000⟩,
   ⟨25517643627880299, 5449467612361612800000000000000000, 0, 0⟩]
/-- `atm_data.akima_dT`, aviary/subsystems/atmosphere/data/MIL_SPEC_210A_Tropical.py:943-1147 -/
def tropicaldTRows : List IRow :=
  tropicaldTRows_0 ++ tropicaldTRows_1 ++ tropicaldTRows_2 ++ tropicaldTRows_3
/-- `atm_data.akima_dT`, aviary/subsystems/atmosphere/data/MIL_SPEC_210A_Tropical.py:943-1147, with the column exponents. -/
def tropicaldT : CTab := ⟨19, 52, 51, 53, tropicaldTRows⟩
/-- `atm_data` of aviary/subsystems/atmosphere/data/MIL_SPEC_210A_Tropical.py. -/
def tropical : AtmData := ⟨14, tropicalAlt, tropicalT, tropicalP, tropicalrho, tropicaldT⟩

end Verif.AtmD
