import Verif.Model.AtmTables

/-! Data of aviary/subsystems/atmosphere/data/MIL_SPEC_210A_Cold.py, as exact decimals (generated from the source text). -/

namespace Verif.AtmD

set_option maxRecDepth 100000

/-- `atm_data.alt`, aviary/subsystems/atmosphere/data/MIL_SPEC_210A_Cold.py:241-293 (part 1) -/
def coldAlt_0 : List ℤ :=
  [0,
   15240000000000000,
   30480000000000000,
   45720000000000005,
   60960000000000000,
   76200000000000000,
   91440000000000010,
   100919280000000000,
   106680000000000000,
   121920000000000000,
   137160000000000010,
   152400000000000000,
   167640000000000000,
   182880000000000020,
   198120000000000000,
   213360000000000000,
   228600000000000000,
   243840000000000000,
   259080000000000000,
   274320000000000030,
   289560000000000040,
   304800000000000000,
   320040000000000000,
   327477120000000000,
   335280000000000000,
   350520000000000030,
   365760000000000040,
   381000000000000000,
   396240000000000000,
   411480000000000000,
   426720000000000000,
   441960000000000000,
   457200000000000000,
   472440000000000100,
   487680000000000000,
   502920000000000000,
   518160000000000000,
   533400000000000000,
   548640000000000100,
   563880000000000000,
   579120000000000100,
   594360000000000000,
   609600000000000000,
   624840000000000100,
   640080000000000000,
   655320000000000100,
   670560000000000000,
   685800000000000000,
   701040000000000100,
   716280000000000000,
   731520000000000100,
   746760000000000000,
   762000000000000000,
   777240000000000100,
   792480000000000000,
   807720000000000100,
   822960000000000000,
   838200000000000000,
   853440000000000000,
   868680000000000100,
   883920000000000000,
   899160000000000000,
   914400000000000000,
   929640000000000000]
/-- `atm_data.alt`, aviary/subsystems/atmosphere/data/MIL_SPEC_210A_Cold.py:241-293 (part 2) -/
def coldAlt_1 : List ℤ :=
  [936193200000000000,
   944880000000000100,
   960120000000000000,
   975360000000000000,
   990600000000000000,
   1005840000000000000,
   1021080000000000100,
   1036320000000000000,
   1051560000000000000,
   1066800000000000000,
   1082040000000000000,
   1097280000000000100,
   1112520000000000000,
   1127760000000000000,
   1143000000000000000,
   1158240000000000100,
   1173480000000000100,
   1188720000000000000,
   1203960000000000000,
   1219200000000000000,
   1234440000000000100,
   1249680000000000100,
   1264920000000000000,
   1280160000000000000,
   1291650960000000100,
   1295400000000000000,
   1310640000000000100,
   1325880000000000100,
   1341120000000000000,
   1356360000000000000,
   1371600000000000000,
   1386840000000000100,
   1402080000000000100,
   1417320000000000000,
   1432560000000000000,
   1447800000000000000,
   1463040000000000100,
   1478280000000000100,
   1493520000000000000,
   1508760000000000000,
   1524000000000000000,
   1539240000000000100,
   1541769840000000100,
   1554480000000000100,
   1569720000000000000,
   1584960000000000000,
   1600200000000000000,
   1615440000000000100,
   1630680000000000100,
   1645920000000000000,
   1661160000000000200,
   1676400000000000000,
   1691640000000000000,
   1706880000000000000,
   1722120000000000000,
   1737360000000000200,
   1752600000000000000,
   1767840000000000000,
   1783080000000000000,
   1798320000000000000,
   1813560000000000200,
   1828800000000000000,
   1844040000000000000,
   1859280000000000000]
/-- `atm_data.alt`, aviary/subsystems/atmosphere/data/MIL_SPEC_210A_Cold.py:241-293 (part 3) -/
def coldAlt_2 : List ℤ :=
  [1861931760000000200,
   1874520000000000000,
   1889760000000000200,
   1905000000000000000,
   1920240000000000000,
   1935480000000000000,
   1950720000000000000,
   1965960000000000200,
   1981200000000000000,
   1996440000000000000,
   2011680000000000000,
   2026920000000000000,
   2042160000000000200,
   2057400000000000000,
   2072640000000000000,
   2087880000000000000,
   2103120000000000000,
   2118360000000000200,
   2133600000000000000,
   2148840000000000000,
   2164080000000000000,
   2179320000000000000,
   2194560000000000200,
   2209800000000000000,
   2225040000000000000,
   2226716400000000000,
   2240280000000000300,
   2255520000000000000,
   2270760000000000200,
   2286000000000000000,
   2301240000000000000,
   2316480000000000300,
   2331720000000000000,
   2346960000000000200,
   2362200000000000000,
   2377440000000000000,
   2392680000000000300,
   2407920000000000000,
   2423160000000000200,
   2438400000000000000,
   2453640000000000000,
   2468880000000000300,
   2484120000000000000,
   2499360000000000200,
   2514600000000000000,
   2529840000000000000,
   2545080000000000300,
   2560320000000000000,
   2575560000000000200,
   2590800000000000000,
   2606040000000000000,
   2621280000000000300,
   2636520000000000000,
   2651760000000000200,
   2667000000000000000,
   2682240000000000000,
   2697480000000000300,
   2712720000000000000,
   2727960000000000200,
   2743200000000000000,
   2758440000000000000,
   2773680000000000300,
   2788920000000000000,
   2804160000000000200]
/-- `atm_data.alt`, aviary/subsystems/atmosphere/data/MIL_SPEC_210A_Cold.py:241-293 (part 4) -/
def coldAlt_3 : List ℤ :=
  [2819400000000000000,
   2834640000000000000,
   2849880000000000300,
   2865120000000000000,
   2880360000000000200,
   2895600000000000000,
   2910840000000000000,
   2926080000000000300,
   2941320000000000000,
   2956560000000000200,
   2971800000000000000,
   2987040000000000000,
   3002280000000000300,
   3017520000000000000,
   3032760000000000200,
   3048000000000000000]
/-- `atm_data.alt`, aviary/subsystems/atmosphere/data/MIL_SPEC_210A_Cold.py:241-293 -/
def coldAlt : List ℤ :=
  coldAlt_0 ++ coldAlt_1 ++ coldAlt_2 ++ coldAlt_3
/-- `atm_data.akima_T`, aviary/subsystems/atmosphere/data/MIL_SPEC_210A_Cold.py:295-504 (part 1) -/
def coldTRows_0 : List IRow :=
  [⟨22203888888888886, 2424176144648593900, 0, 0⟩,
   ⟨22203888888888886, 2424176144648593900, 119599004630075510000000000000000, 2987585294908424000⟩,
   ⟨22576111111111109, 2460629921259842700, 358797013890247050000000000000000, -156954074317693370000000000000000⟩,
   ⟨22953888888888886, 2460629921259842700, -358797013890226470000000000000000, 156954074317678350000000000000000⟩,
   ⟨23326111111111109, 2460629921259837800, 119599004630114240000000000000000, -2987585294908424900⟩,
   ⟨23703888888888886, 2497083697871096300, 351400997012918700000000000000000, -152101044870569270000000000000000⟩,
   ⟨24087222222222221, 2498210850843241400, -257850374924089690000000000000000, 85863092792893257000000000000000⟩,
   ⟨24464999999999998, 2479445124148344300, 27443634118581650000000000000000000, -28498556583947867000000000000000000⟩,
   ⟨24703888888888886, 0, 0, 0⟩,
   ⟨24703888888888886, 0, 0, 0⟩,
   ⟨24703888888888886, 0, 0, 0⟩,
   ⟨24703888888888886, 0, 0, 0⟩,
   ⟨24703888888888886, 0, 0, 0⟩,
   ⟨24703888888888886, 0, 0, 0⟩,
   ⟨24703888888888886, 0, 0, 0⟩,
   ⟨24703888888888886, 0, 0, 0⟩,
   ⟨24703888888888886, 0, 0, 0⟩,
   ⟨24703888888888886, 0, 0, 0⟩,
   ⟨24703888888888886, 0, 0, 0⟩,
   ⟨24703888888888886, 0, 0, 0⟩,
   ⟨24703888888888886, 0, 0, 0⟩,
   ⟨24703888888888886, 0, 0, 0⟩,
   ⟨24703888888888886, 0, 0, 0⟩,
   ⟨24703888888888886, 0, 0, 0⟩,
   ⟨24703888888888886, 0, -13995749649702100000000000000000000, 8581454174303906700000000000000000⟩,
   ⟨24659444444444443, -616699228385930810, -178049645990776170000000000000000, 103849312330572490000000000000000⟩,
   ⟨24564999999999998, -598609384353271380, 321028907165091710000000000000000, -144562963187413520000000000000000⟩,
   ⟨24476111111111109, -601487314085742510, -358797013890481800000000000000000, 156954074317803160000000000000000⟩,
   ⟨24381666666666663, -601487314085737920, 358797013890346450000000000000000, -156954074317737280000000000000000⟩,
   ⟨24292777777777775, -601487314085738260, -478396018520139580000000000000000, 235431111476440470000000000000000⟩,
   ⟨24198333333333332, -583260425780125330, 232776214460142960000, -87386869876071831000⟩,
   ⟨24109444444444443, -583260425780115270, 68296199841606332000, -87386869876070793000⟩,
   ⟨24020555555555552, -583260425780155780, -1116257376547178600000000000000000, 418544198180465900000000000000000⟩,
   ⟨23920555555555552, -631865461261777680, 39866334876781241000000000000000, 26159012386250420000000000000000⟩,
   ⟨23826111111111109, -601487314085731760, 478396018520265110000000000000000, -235431111476511310000000000000000⟩,
   ⟨23737222222222221, -619714202391355180, -437664813984963180000, 191952355197867160000⟩,
   ⟨23642777777777775, -619714202391355180, 72280144832366705000, -47801364718534445000⟩,
   ⟨23548333333333332, -619714202391366280, -145698559662094380000, 47801364718535017000⟩,
   ⟨23453888888888886, -619714202391377470, 438233948983640640000, -191952355197864900000⟩,
   ⟨23359444444444443, -619714202391377470, -717594027780490120000000000000000, 313908148635385290000000000000000⟩,
   ⟨23259444444444443, -619714202391377470, 71711009833686655000, -31369645596538231000⟩,
   ⟨23164999999999998, -619714202391377470, 1138269997360112300, 0⟩,
   ⟨23070555555555552, -619714202391377470, 367661209147316250000, -160582709601328580000⟩,
   ⟨22976111111111109, -619714202391377470, -597995023150370920000000000000000, 235431111476530890000000000000000⟩,
   ⟨22876111111111109, -637941090696995260, 478396018520188790000000000000000, -235431111476476960000000000000000⟩,
   ⟨22781666666666663, -656167979002618330, -40408584906283747000, 8962755884725209000⟩,
   ⟨22681666666666663, -656167979002624230, -52929554877245226000, 25394475006721728000⟩,
   ⟨22581666666666663, -656167979002622320, 717594027780754220000000000000000, -313908148635495010000000000000000⟩,
   ⟨22487222222222221, -656167979002618420, -26180209939282429000, 0⟩,
   ⟨22387222222222221, -656167979002626220, -14228374967001405000, 8962755884725316200⟩,
   ⟨22287222222222221, -656167979002624230, 50083879883844645000, -24647578682994323000⟩,
   ⟨22187222222222221, -656167979002626220, -1138269997360112300, 0⟩,
   ⟨22087222222222221, -656167979002626220, -1138269997360112300, 0⟩,
   ⟨21987222222222221, -656167979002626220, 63173984853485857000, -24647578682994323000⟩,
   ⟨21887222222222221, -656167979002624230, -40408584906283987000, 17178615445723521000⟩,
   ⟨21787222222222221, -656167979002624230, 24472804943242267000, -8215859560998107900⟩,
   ⟨21687222222222221, -656167979002622320, -26749344937962638000, 0⟩,
   ⟨21587222222222221, -656167979002630130, -597995023150706860000000000000000, 235431111476671880000000000000000⟩,
   ⟨21481666666666663, -674394867308253200, 478396018520128480000000000000000, -235431111476399240000000000000000⟩,
   ⟨21381666666666663, -692621755613839850, -264078639387542940000, 57511016926986066000⟩,
   ⟨21276111111111109, -692621755613880180, -352863699181634800000, 173279947104689420000⟩,
   ⟨21170555555555552, -692621755613866820, 717594027780380850000000000000000, -313908148635350150000000000000000⟩,
   ⟨21070555555555552, -692621755613874980, 1138269997360112300, 0⟩,
   ⟨20964999999999998, -692621755613874980, 1138269997360112300, 0⟩]
/-- `atm_data.akima_T`, aviary/subsystems/atmosphere/data/MIL_SPEC_210A_Cold.py:295-504 (part 2) -/
def coldTRows_1 : List IRow :=
  [⟨20859444444444443, -692621755613874980, -9909447003425271400000000000000000, 15457134615918174000000000000000000⟩,
   ⟨20814999999999998, 0, 0, 0⟩,
   ⟨20814999999999998, 0, 0, 0⟩,
   ⟨20814999999999998, 0, 0, 0⟩,
   ⟨20814999999999998, 0, 0, 0⟩,
   ⟨20814999999999998, 0, 0, 0⟩,
   ⟨20814999999999998, 0, 0, 0⟩,
   ⟨20814999999999998, 0, 0, 0⟩,
   ⟨20814999999999998, 0, 0, 0⟩,
   ⟨20814999999999998, 0, 0, 0⟩,
   ⟨20814999999999998, 0, 0, 0⟩,
   ⟨20814999999999998, 0, 0, 0⟩,
   ⟨20814999999999998, 0, 0, 0⟩,
   ⟨20814999999999998, 0, 0, 0⟩,
   ⟨20814999999999998, 0, 0, 0⟩,
   ⟨20814999999999998, 0, 0, 0⟩,
   ⟨20814999999999998, 0, 0, 0⟩,
   ⟨20814999999999998, 0, 0, 0⟩,
   ⟨20814999999999998, 0, 0, 0⟩,
   ⟨20814999999999998, 0, 0, 0⟩,
   ⟨20814999999999998, 0, 0, 0⟩,
   ⟨20814999999999998, 0, 0, 0⟩,
   ⟨20814999999999998, 0, 0, 0⟩,
   ⟨20814999999999998, 0, 0, 0⟩,
   ⟨20814999999999998, 0, 0, 0⟩,
   ⟨20814999999999998, 0, -45928091103216806000000000000000000, 59247824619871502000000000000000000⟩,
   ⟨20781666666666666, -945487001444703800, -177873280607443260000000000000000, 106763772279565290000000000000000⟩,
   ⟨20637222222222221, -925312684824056150, 302909628548793540000000000000000, -138618317972035950000000000000000⟩,
   ⟨20498333333333329, -929571303587049470, -119599004630056450000000000000000, -8962755884725316200⟩,
   ⟨20353888888888886, -966025080198296310, -478396018520645850000000000000000, 235431111476668140000000000000000⟩,
   ⟨20203888888888886, -947798191892679390, 121794889717532020000, -47801364718535017000⟩,
   ⟨20059444444444443, -947798191892675580, 239198009260182910000000000000000, -156954074317721760000000000000000⟩,
   ⟨19914999999999998, -984251968503939420, 0, 0⟩,
   ⟨19764999999999998, -984251968503939420, 0, 0⟩,
   ⟨19614999999999998, -984251968503939420, 0, 0⟩,
   ⟨19464999999999998, -984251968503939420, 0, 0⟩,
   ⟨19314999999999998, -984251968503939420, 124071429712250760000, -29875852949083674000⟩,
   ⟨19164999999999998, -984251968503922940, 358797013890200080000000000000000, 78477037158885895000000000000000⟩,
   ⟨19026111111111109, -820209973753290020, 797326697534100250000000000000000, -130795061931445620000000000000000⟩,
   ⟨18914999999999998, -668319237873043520, 318930679013565440000000000000000, -156954074317698600000000000000000⟩,
   ⟨18814999999999998, -680470496743459070, -382537640277016680000000000000000, 198690925540442050000000000000000⟩,
   ⟨18709444444444443, -658625536976489410, 33218864081891733000000000000000, -11215981359530562000000000000000⟩,
   ⟨18609444444444443, -656315417940956780, -970496463592930690000000000000000, 3447487838214621300000000000000000⟩,
   ⟨18592777777777775, -639226731692887730, 8775311214500505900000000000000000, -3217857171503493500000000000000000⟩,
   ⟨18587222222222221, 31968674678599997, 298057614675500580000000000000000, -176264968482829610000000000000000⟩,
   ⟨18592777777777775, 0, 0, 0⟩,
   ⟨18592777777777775, 0, 0, 0⟩,
   ⟨18592777777777775, 0, 0, 0⟩,
   ⟨18592777777777775, 0, 0, 0⟩,
   ⟨18592777777777775, 0, 0, 0⟩,
   ⟨18592777777777775, 0, 0, 0⟩,
   ⟨18592777777777775, 0, 0, 0⟩,
   ⟨18592777777777775, 0, 0, 0⟩,
   ⟨18592777777777775, 0, 0, 0⟩,
   ⟨18592777777777775, 0, 0, 0⟩,
   ⟨18592777777777775, 0, 0, 0⟩,
   ⟨18592777777777775, 0, 0, 0⟩,
   ⟨18592777777777775, 0, 0, 0⟩,
   ⟨18592777777777775, 0, 0, 0⟩,
   ⟨18592777777777775, 0, 0, 0⟩,
   ⟨18592777777777775, 0, 0, 0⟩,
   ⟨18592777777777775, 0, 0, 0⟩,
   ⟨18592777777777775, 0, 0, 0⟩,
   ⟨18592777777777775, 0, 0, 0⟩]
/-- `atm_data.akima_T`, aviary/subsystems/atmosphere/data/MIL_SPEC_210A_Cold.py:295-504 (part 3) -/
def coldTRows_2 : List IRow :=
  [⟨18592777777777775, 0, 0, 0⟩,
   ⟨18592777777777775, 0, 9039569720707906200000000000000000, -3560403455759208700000000000000000⟩,
   ⟨18664999999999998, 583260425780102870, -14797509965681284000, 11203444855906378000⟩,
   ⟨18753888888888886, 583260425780106170, 123457037037693860000000000000000, -81008554486629853000000000000000⟩,
   ⟨18842777777777775, 564445573335594680, -231481944445485930000000000000000, 75945519831223464000000000000000⟩,
   ⟨18926111111111109, 546806649168867820, 0, 0⟩,
   ⟨19009444444444443, 546806649168867990, 172544018537047440000000000000000, -113217859932581800000000000000000⟩,
   ⟨19092777777777775, 520510940743726300, -133307981445465050000000000000000, 43736214385021193000000000000000⟩,
   ⟨19170555555555552, 510352872557600070, -28456749934003146000, 18672408093178184000⟩,
   ⟨19248333333333329, 510352872557604410, 28456749934002472000, -8962755884725101800⟩,
   ⟨19326111111111109, 510352872557606580, 61861554118942403000000000000000, -40591570944216517000000000000000⟩,
   ⟨19403888888888886, 501018687542952120, -355900152186388430000000000000000, 116765141793393820000000000000000⟩,
   ⟨19476111111111109, 473899095946321050, 0, 0⟩,
   ⟨19548333333333329, 473899095946321050, 588485588635185090000, -257679231685858950000⟩,
   ⟨19620555555555552, 473899095946321050, -597995023150155100000000000000000, 235431111476454930000000000000000⟩,
   ⟨19687222222222221, 455672207640716530, 358797013890495190000000000000000, -156954074317815100000000000000000⟩,
   ⟨19759444444444443, 455672207640709080, -119599004630206990000000000000000, 31369645596537859000⟩,
   ⟨19826111111111109, 419218431029443670, -358797013890188990000000000000000, 156954074317676930000000000000000⟩,
   ⟨19887222222222221, 419218431029451210, 478396018520432400000000000000000, -235431111476578900000000000000000⟩,
   ⟨19953888888888886, 400991542723834040, -189521954560456460000, 82905491933707192000⟩,
   ⟨20014999999999998, 400991542723833950, 21057994951162330000, -13444133827088291000⟩,
   ⟨20076111111111109, 400991542723830740, -83093709807287214000, 26888267654175307000⟩,
   ⟨20137222222222221, 400991542723824410, 163003397752197000000000000000000, -106957610073699160000000000000000⟩,
   ⟨20198333333333329, 376110393608210460, -151871751911070430000000000000000, 49826690259528540000000000000000⟩,
   ⟨20253888888888886, 364537766112580250, -49514744885164296000, 14564478312678291000⟩,
   ⟨20309444444444443, 364537766112575400, 7355484673050669400000000000000000, -55668860205156640000000000000000000⟩,
   ⟨20314999999999998, 141811030295388510, -2480471551175149300000000000000000, 835298524451560210000000000000000⟩,
   ⟨20309444444444443, -70058719965178970, -276584272480316370000000000000000, 169219908707590620000000000000000⟩,
   ⟨20298333333333329, -36453776611249284, 18745884019024126000, -7982454459833293900⟩,
   ⟨20292777777777775, -36453776611249160, 35570937417503934, 0⟩,
   ⟨20287222222222221, -36453776611249160, 17109620897818984000, -7468963237270918400⟩,
   ⟨20281666666666666, -36453776611249154, -717594027781182740000000000000000, 313908148635683800000000000000000⟩,
   ⟨20270555555555552, -36453776611250033, 8608166855035951900, -1867240809317818200⟩,
   ⟨20264999999999998, -36453776611248726, 11418270911018490000, -5601722427953188800⟩,
   ⟨20259444444444443, -36453776611249154, -597995023151100050000000000000000, 235431111476831990000000000000000⟩,
   ⟨20248333333333329, -54680664916882194, 358797013890459740000000000000000, -156954074317791910000000000000000⟩,
   ⟨20242777777777775, -54680664916887073, -478396018519988300000000000000000, 235431111476379550000000000000000⟩,
   ⟨20231666666666666, -36453776611268675, 8572595917618448100, -1867240809317818200⟩,
   ⟨20226111111111109, -36453776611267374, 11418270911018490000, -5601722427953188800⟩,
   ⟨20220555555555552, -36453776611267808, -597995023150090220000000000000000, 235431111476410360000000000000000⟩,
   ⟨20209444444444443, -54680664916886867, 478396018520147970000000000000000, -235431111476439470000000000000000⟩,
   ⟨20203888888888886, -72907553222498330, -332659406728488860000, 145551421086317020000⟩,
   ⟨20192777777777775, -72907553222498330, 75410387325108337000, -49388519406456300000⟩,
   ⟨20181666666666666, -72907553222509780, -432898308371012560000, 180282100139626800000⟩,
   ⟨20170555555555552, -72907553222516101, 347314632944508380000, -151339867595209180000⟩,
   ⟨20159444444444443, -72907553222515678, -394339412210439220000, 180468824220558550000⟩,
   ⟨20148333333333329, -72907553222510181, 306336913039536570000, -142377111710476870000⟩,
   ⟨20137222222222221, -72907553222516057, -22409690573027480000, 10829996694043347000⟩,
   ⟨20126111111111109, -72907553222515363, 7469896857675648500, -4294653861430777700⟩,
   ⟨20114999999999998, -72907553222516101, -12236402471621353000, 4388015901896872600⟩,
   ⟨20103888888888886, -72907553222516827, 20986853076326821000, -6815428954009712900⟩,
   ⟨20092777777777775, -72907553222515244, 122577450340715630000, -93362040465886472⟩,
   ⟨20081666666666666, -72907553222477915, 717594027779970210000000000000000, -313908148635213170000000000000000⟩,
   ⟨20076111111111109, -72907553222513488, -11453841848435993000, 93362040465886472⟩,
   ⟨20064999999999998, -72907553222516968, -853702498020094410, 653534283261236470⟩,
   ⟨20053888888888886, -72907553222516827, 15793496213371370000, -3454395497237800000⟩,
   ⟨20042777777777775, -72907553222514442, 317150478014457540000, -131173666854570520000⟩,
   ⟨20031666666666666, -72907553222509194, -474729730774007490000, 197834163747222840000⟩,
   ⟨20020555555555552, -72907553222516101, 384237265983868390000, -168051672838595650000⟩,
   ⟨20009444444444443, -72907553222516101, -429412356504107490000, 197834163747222840000⟩,
   ⟨19998333333333329, -72907553222509194, 282717810594314540000, -131173666854570520000⟩,
   ⟨19987222222222221, -72907553222514442, 142283749670012350, -3454395497237800000⟩,
   ⟨19976111111111109, -72907553222516827, -7469896857675826600, 4388015901896872600⟩,
   ⟨19964999999999998, -72907553222516101, 12307544346456069000, -4294653861430777700⟩]
/-- `atm_data.akima_T`, aviary/subsystems/atmosphere/data/MIL_SPEC_210A_Cold.py:295-504 (part 4) -/
def coldTRows_3 : List IRow :=
  [⟨19953888888888886, -72907553222515363, -26962770562467981000, 10829996694043347000⟩,
   ⟨19942777777777775, -72907553222516068, 344966951074944940000, -142377111710476870000⟩,
   ⟨19931666666666666, -72907553222510181, -430408342751787350000, 180468824220558550000⟩,
   ⟨19920555555555552, -72907553222515678, 344540099825943090000, -151339867595209180000⟩,
   ⟨19909444444444443, -72907553222516101, -391422595342203980000, 180282100139626800000⟩,
   ⟨19898333333333329, -72907553222509780, 261446390018653910000, -122210910969851200000⟩,
   ⟨19887222222222221, -72907553222515233, 142283749670012350, -93362040465886472⟩,
   ⟨19876111111111109, -72907553222515244, 284567499340024700, -93362040465886472⟩,
   ⟨19864999999999998, -72907553222515244, -11240416223931243000, 0⟩,
   ⟨19853888888888886, -72907553222518692, -717594027780403130000000000000000, 313908148635343930000000000000000⟩,
   ⟨19837222222222221, -72907553222518692, 11382699973601258000, 0⟩,
   ⟨19826111111111109, -72907553222515244, 213425624505018520, -93362040465886472⟩,
   ⟨19814999999999998, -72907553222515233, 142283749670012350, -93362040465886472⟩,
   ⟨19803888888888886, -72907553222515244, -11240416223931243000, 0⟩,
   ⟨19792777777777775, -72907553222518692, -597995023150341700000000000000000, 235431111476511670000000000000000⟩,
   ⟨19776111111111109, -91134441528140239, 119599004630075720000000000000000, 0⟩,
   ⟨19764999999999998, -54680664916893697, 0, 0⟩]
/-- `atm_data.akima_T`, aviary/subsystems/atmosphere/data/MIL_SPEC_210A_Cold.py:295-504 -/
def coldTRows : List IRow :=
  coldTRows_0 ++ coldTRows_1 ++ coldTRows_2 ++ coldTRows_3
/-- `atm_data.akima_T`, aviary/subsystems/atmosphere/data/MIL_SPEC_210A_Cold.py:295-504, with the column exponents. -/
def coldT : CTab := ⟨14, 20, 38, 40, coldTRows⟩
/-- `atm_data.akima_P`, aviary/subsystems/atmosphere/data/MIL_SPEC_210A_Cold.py:507-716 (part 1) -/
def coldPRows_0 : List IRow :=
  [⟨1009678149999999900, -1107890419947494100, 0, 0⟩,
   ⟨1009678149999999900, -1107890419947494100, -61776189296727866000, 19885367722910472000⟩,
   ⟨992793899999999990, -1107890419947498900, -64107366251321373000, 0⟩,
   ⟨975909649999999970, -1107890419947518100, -4361773306879715400000000000000000, 1908037317095237500000000000000000⟩,
   ⟨955648549999999960, -1107890419947518300, 65272954728618136000, 0⟩,
   ⟨938764299999999930, -1107890419947499100, 1165588477296752400, 0⟩,
   ⟨921880050000000050, -1107890419947499300, -135208263366423190000, 50478241142772681000⟩,
   ⟨904995800000000020, -1107890419947504600, 1240152251725780100000000000000000, -872184562347770400000000000000000⟩,
   ⟨894865249999999940, -1107890419947508000, -2595384705881225600000000000000000, 2562307005008393900000000000000000⟩,
   ⟨888111549999999990, -1151818758554122900, 248758514602607840000000000000000, 25908908820108787000000000000000⟩,
   ⟨871227299999999960, -1057944540359715400, 3706315569507242400000000000000000, -1692992127668573600000000000000000⟩,
   ⟨857719899999999910, -1107890419947498200, -185328567890183800000, 73422896207669559000⟩,
   ⟨840835649999999880, -1107890419947503900, 0, 24474298735889786000⟩,
   ⟨823951399999999990, -1107890419947487000, 3634811089066290700000000000000000, -1431027987821384300000000000000000⟩,
   ⟨810443999999999940, -997101377952753860, -2907848871253366700000000000000000, 1431027987821530700000000000000000⟩,
   ⟨793559749999999910, -886312335958008110, 136373851843720150000, -53537528484759060000⟩,
   ⟨780052350000000010, -886312335958004200, 1165588477296751600, -18355724051917340000⟩,
   ⟨766544949999999950, -886312335958016280, -4361773306879806300000000000000000, 1908037317095288500000000000000000⟩,
   ⟨749660699999999920, -886312335958008110, 185328567890183520000, -81071114562634918000⟩,
   ⟨736153300000000020, -886312335958008290, -1165588477296751600, 0⟩,
   ⟨722645899999999970, -886312335958008290, -1165588477296751600, 0⟩,
   ⟨709138499999999910, -886312335958008110, 90915901229146891000, -30592873419862406000⟩,
   ⟨695631100000000010, -886312335958001190, -68769720160508347000, 15296436709931114000⟩,
   ⟨682123699999999950, -886312335958011670, -879153448040316530000000000000000, 788076968898646690000000000000000⟩,
   ⟨675370000000000000, -886312335958010600, 798664545937886540000000000000000, -682367319022255410000000000000000⟩,
   ⟨668616300000000050, -886312335958005980, -97909432092927135000, 33652160761848454000⟩,
   ⟨655108899999999920, -886312335958011840, 79260016456179109000, 4588931012979334900⟩,
   ⟨641601500000000010, -886312335957984490, 4361773306879419100000000000000000, -1908037317095113900000000000000000⟩,
   ⟨631470949999999940, -886312335957984490, -139870617275610200000, 30592873419862229000⟩,
   ⟨617963550000000030, -886312335958005800, -186494156367480240000, 91778620259586694000⟩,
   ⟨604456149999999910, -886312335957998700, 3634811089066709200000000000000000, -1431027987821557800000000000000000⟩,
   ⟨594325600000000050, -775523293963256320, -2180886653440059300000000000000000, 954018658547709690000000000000000⟩,
   ⟨580818199999999920, -775523293963252060, 2180886653439918400000000000000000, -954018658547652910000000000000000⟩,
   ⟨570687649999999920, -775523293963255610, -2907848871252988900000000000000000, 1431027987821341700000000000000000⟩,
   ⟨557180250000000010, -664734251968519980, 61776189296728014000, 0⟩,
   ⟨547049699999999940, -664734251968500890, 3496765431890265400, -2294465506489680900⟩,
   ⟨536919150000000010, -664734251968501510, -2913971193241870200, 764821835496551130⟩,
   ⟨526788600000000010, -664734251968501780, -25060152261880235000, 0⟩,
   ⟨516658050000000000, -664734251968509590, -4361773306879634200000000000000000, 1908037317095176000000000000000000⟩,
   ⟨503150650000000020, -664734251968523980, 88001930035905002000, 0⟩,
   ⟨493020099999999950, -664734251968496980, -582794238648374050, 0⟩,
   ⟨482889550000000020, -664734251968496980, -170758711923974610000, 74952539878662914000⟩,
   ⟨472759000000000010, -664734251968496980, 4361773306879771600000000000000000, -1908037317095268900000000000000000⟩,
   ⟨466005299999999990, -664734251968497870, -25060152261880082000, 0⟩,
   ⟨455874749999999990, -664734251968505680, -12238679011615929000, 8413040190462162600⟩,
   ⟨445744199999999980, -664734251968503730, 26225740739176830000, -8413040190462062500⟩,
   ⟨435613649999999980, -664734251968501780, -76346045262937457000, 33652160761848651000⟩,
   ⟨425483099999999980, -664734251968501780, 4361773306879950000000000000000000, -1908037317095344000000000000000000⟩,
   ⟨418729400000000020, -664734251968500980, -90333106990497976000, 35181804432841355000⟩,
   ⟨408598849999999950, -664734251968503730, 0, 11472327532448402000⟩,
   ⟨398468300000000020, -664734251968495380, 3634811089066497500000000000000000, -1431027987821458300000000000000000⟩,
   ⟨391714599999999990, -553945209973753630, -2907848871253267800000000000000000, 1431027987821481900000000000000000⟩,
   ⟨381584049999999990, -443156167979012760, 72849279831047187000, -16061258545427767000⟩,
   ⟨374830349999999960, -443156167979001750, 96743843615630096000, -48183775636282725000⟩,
   ⟨368076650000000010, -443156167979005390, -4361773306879936100000000000000000, 1908037317095340200000000000000000⟩,
   ⟨357946100000000010, -443156167979005480, 44292362137276426000, -16826080380924125000⟩,
   ⟨351192399999999980, -443156167979003970, -582794238648377520, -6118574683972482200⟩,
   ⟨344438699999999950, -443156167979008050, -4361773306879711300000000000000000, 1908037317095224000000000000000000⟩,
   ⟨334308150000000020, -443156167979020130, 81008399172124471000, 764821835496560270⟩,
   ⟨327554449999999960, -443156167978995350, 42543979421331054000, -27533586077875515000⟩,
   ⟨320800750000000010, -443156167979001750, -4662353909187020100, -2294465506489680900⟩,
   ⟨314047050000000020, -443156167979004860, -14569855966209438000, 7648218354965601500⟩,
   ⟨307293349999999990, -443156167979004230, 15735444443506192000, -5353752848475922000⟩,
   ⟨300539650000000000, -443156167979002990, -22146181068638346000, 4588931012979361900⟩]
/-- `atm_data.akima_P`, aviary/subsystems/atmosphere/data/MIL_SPEC_210A_Cold.py:507-716 (part 2) -/
def coldPRows_1 : List IRow :=
  [⟨293785949999999980, -443156167979006810, -3302586603369958600000000000000000, 3359769886844021300000000000000000⟩,
   ⟨290409099999999960, -443156167979002720, 1879496038667963900000000000000000, -1442415341796690300000000000000000⟩,
   ⟨287032249999999990, -443156167978997480, 6410736625132152800, -17590902216420885000⟩,
   ⟨280278550000000030, -443156167979007790, -27391329216473742000, 18355724051917448000⟩,
   ⟨273524849999999970, -443156167979003520, 37881625512144538000, -12237149367944964000⟩,
   ⟨266771150000000020, -443156167979000500, -95578255138333904000, 41300379116814252000⟩,
   ⟨260017449999999990, -443156167979000590, 4361773306879858400000000000000000, -1908037317095276300000000000000000⟩,
   ⟨256640599999999980, -443156167978995800, -31470888887012384000, 0⟩,
   ⟨249886900000000020, -443156167979005390, 0, 0⟩,
   ⟨243133200000000000, -443156167979005390, 15152650204857815000, 0⟩,
   ⟨236379500000000010, -443156167979000590, 3634811089066574500000000000000000, -1431027987821489200000000000000000⟩,
   ⟨233002649999999990, -332367125984251550, -2180886653439865000000000000000000, 954018658547613330000000000000000⟩,
   ⟨226248950000000000, -332367125984251550, 2907848871253274800000000000000000, -1431027987821499800000000000000000⟩,
   ⟨222872099999999990, -443156167979002990, -582794238648377520, 0⟩,
   ⟨216118400000000000, -443156167979002990, -582794238648377520, 0⟩,
   ⟨209364700000000010, -443156167979002990, 2907848871253299400000000000000000, -954018658547664290000000000000000⟩,
   ⟨205987850000000000, -221578083989501360, -291397119324188760, -5353752848475922000⟩,
   ⟨202610999999999990, -221578083989505310, -3634811089066580100000000000000000, 1431027987821493500000000000000000⟩,
   ⟨195857300000000000, -332367125984252890, 2180886653440008600000000000000000, -954018658547685700000000000000000⟩,
   ⟨192480450000000020, -332367125984251640, -2907848871253354600000000000000000, 1431027987821530900000000000000000⟩,
   ⟨185726749999999990, -221578083989502650, 98492226331574630000, -43212433705554629000⟩,
   ⟨182349900000000020, -221578083989502690, 0, 0⟩,
   ⟨178973050000000000, -221578083989502690, 0, 0⟩,
   ⟨175596199999999990, -221578083989502690, -3328939870853273000000000000000000, 1230325088731385300000000000000000⟩,
   ⟨168842500000000000, -378981899639966090, 451923200541268050000000000000000, 251294337242845550000000000000000⟩,
   ⟨165465650000000020, -175576928676303750, 15276762620354206000000000000000000, -28256599761267882000000000000000000⟩,
   ⟨165465650000000020, -221578083989501100, -874191357972555870, 0⟩,
   ⟨162088799999999990, -221578083989501500, 1165588477296755000, -1147232753244840500⟩,
   ⟨158711950000000000, -221578083989501720, -16609635801478759000, 6883396519469041400⟩,
   ⟨155335099999999980, -221578083989502120, 3496765431890265400, 382410917748280140⟩,
   ⟨151958249999999990, -221578083989500830, 10198899176346607000, -4588931012979361900⟩,
   ⟨148581400000000010, -221578083989500830, -7867722221753002200, 3059287341986167900⟩,
   ⟨145204549999999980, -221578083989500960, 15444047324182003000, -7265807437217322400⟩,
   ⟨141827700000000000, -221578083989501320, -25934343619852797000, 11089916614700123000⟩,
   ⟨138450849999999990, -221578083989501500, -582794238648377520, 382410917748280140⟩,
   ⟨135074000000000000, -221578083989501450, -874191357972566350, 382410917748280140⟩,
   ⟨131697150000000000, -221578083989501500, 18940812756072045000, -6500985601720607200⟩,
   ⟨128320299999999990, -221578083989500160, 874191357972566350, -1147232753244840500⟩,
   ⟨124943450000000010, -221578083989500700, -31470888887012384000, 12237149367944964000⟩,
   ⟨121566600000000000, -221578083989501890, 6702133744456341200, -2676876424237961000⟩,
   ⟨118189750000000000, -221578083989501760, -12238679011615929000, 3824109177482800800⟩,
   ⟨114812899999999990, -221578083989502690, -1453924435626569000000000000000000, 954018658547624850000000000000000⟩,
   ⟨111436050000000000, 0, 0, 0⟩,
   ⟨111436050000000000, 0, 871657335507584380000000000000000, -685795722089717690000000000000000⟩,
   ⟨111436050000000000, -110789041994750750, -1453924435626654200000000000000000, 477009329273837500000000000000000⟩,
   ⟨108059200000000000, -221578083989501500, -291397119324188760, 0⟩,
   ⟨104682350000000010, -221578083989501500, -23603166665259290000, 10325094779203563000⟩,
   ⟨101305499999999990, -221578083989501500, 4361773306879901400000000000000000, -1908037317095300100000000000000000⟩,
   ⟨101305499999999990, -221578083989500300, -11947281892291738000, 2676876424237961000⟩,
   ⟨97928649999999998, -221578083989502120, -15444047324182003000, 7648218354965601500⟩,
   ⟨94551799999999985, -221578083989501500, 4361773306879900000000000000000000, -1908037317095299000000000000000000⟩,
   ⟨94551799999999985, -221578083989500070, -47497730449843333000, 18738134969666172000⟩,
   ⟨91174950000000008, -221578083989501500, -582794238648370580, 6500985601720607200⟩,
   ⟨87798099999999995, -221578083989497190, 4361773306879935400000000000000000, -1908037317095363500000000000000000⟩,
   ⟨87798099999999995, -221578083989498300, -5536545267159520500, 1147232753244813000⟩,
   ⟨84421250000000000, -221578083989499190, -6993530863780447000, 3441698259734439300⟩,
   ⟨81044399999999996, -221578083989498880, 3634811089066636300000000000000000, -1431027987821531200000000000000000⟩,
   ⟨81044399999999996, -110789041994749730, -2180886653439936100000000000000000, 954018658547645180000000000000000⟩,
   ⟨77667549999999992, -110789041994749420, 2180886653439980500000000000000000, -954018658547686520000000000000000⟩,
   ⟨77667549999999992, -110789041994749420, -2180886653439908700000000000000000, 954018658547630410000000000000000⟩,
   ⟨74290700000000006, -110789041994750750, 2180886653439954900000000000000000, -954018658547652500000000000000000⟩,
   ⟨74290700000000006, -110789041994750750, -2180886653440059300000000000000000, 954018658547718910000000000000000⟩,
   ⟨70913850000000002, -110789041994752370, 2180886653439986400000000000000000, -954018658547666590000000000000000⟩,
   ⟨70913850000000002, -110789041994752370, -2907848871253384400000000000000000, 1431027987821568100000000000000000⟩]
/-- `atm_data.akima_P`, aviary/subsystems/atmosphere/data/MIL_SPEC_210A_Cold.py:507-716 (part 3) -/
def coldPRows_2 : List IRow :=
  [⟨67536999999999998, 0, 0, 0⟩,
   ⟨67536999999999998, 0, 0, 0⟩,
   ⟨67536999999999998, 0, -3634811089066557900000000000000000, 1431027987821466400000000000000000⟩,
   ⟨64160149999999994, -110789041994749590, 2180886653439984000000000000000000, -954018658547688010000000000000000⟩,
   ⟨64160149999999994, -110789041994749590, -2180886653439925700000000000000000, 954018658547639890000000000000000⟩,
   ⟨60783299999999999, -110789041994749590, 2180886653439984000000000000000000, -954018658547688010000000000000000⟩,
   ⟨60783299999999999, -110789041994749590, -2907848871253247700000000000000000, 1431027987821466400000000000000000⟩,
   ⟨57406449999999995, 0, 0, 0⟩,
   ⟨57406449999999995, 0, 0, 0⟩,
   ⟨57406449999999995, 0, -3634811089066546800000000000000000, 1431027987821461300000000000000000⟩,
   ⟨54029600000000000, -110789041994749590, 2180886653439984000000000000000000, -954018658547688010000000000000000⟩,
   ⟨54029600000000000, -110789041994749590, -2907848871253247700000000000000000, 1431027987821466400000000000000000⟩,
   ⟨50652749999999996, 0, 0, 0⟩,
   ⟨50652749999999996, 0, 0, 0⟩,
   ⟨50652749999999996, 0, -4361773306879868800000000000000000, 1908037317095287700000000000000000⟩,
   ⟨47275899999999992, 0, 0, 0⟩,
   ⟨47275899999999992, 0, 0, 0⟩,
   ⟨47275899999999992, 0, -4361773306879857700000000000000000, 1908037317095282500000000000000000⟩,
   ⟨43899049999999997, 0, 0, 0⟩,
   ⟨43899049999999997, 0, 0, 0⟩,
   ⟨43899049999999997, 0, -4361773306880070000000000000000000, 1908037317095421000000000000000000⟩,
   ⟨40522199999999998, 0, 0, 0⟩,
   ⟨40522199999999998, 0, 0, 0⟩,
   ⟨40522199999999998, 0, 0, 0⟩,
   ⟨40522199999999998, 0, -4361773306879857700000000000000000, 1908037317095282500000000000000000⟩,
   ⟨37145350000000003, 0, 0, 0⟩,
   ⟨37145350000000003, 0, 0, 0⟩,
   ⟨37145350000000003, 0, 0, 0⟩,
   ⟨37145350000000003, 0, 0, 0⟩,
   ⟨37145350000000003, 0, -4119452567608965200000000000000000, 1749034207337474700000000000000000⟩,
   ⟨33768499999999999, -36929680664916803, 775426365667534950000000000000000, -349806841467470200000000000000000⟩,
   ⟨33768499999999999, -44315616797899854, 2950395833157376100, -2581273694800829100⟩,
   ⟨33093129999999996, -44315616797900764, -36424639915524028, 0⟩,
   ⟨32417759999999998, -44315616797900775, 15079800925026590000, -6548786966439140900⟩,
   ⟨31742389999999996, -44315616797900770, -436177330688005890000000000000000, 190803731709542280000000000000000⟩,
   ⟨30729335000000001, -44315616797900304, 1966930555438250600, 0⟩,
   ⟨30053964999999998, -44315616797899715, 1493410236536449700, -1051630023807745300⟩,
   ⟨29378595000000000, -44315616797899954, -19596456274551928000, 8078430637432609800⟩,
   ⟨28703224999999998, -44315616797900309, 12165829731784736000, -5449355577912862300⟩,
   ⟨28027855000000000, -44315616797900392, -8814762859556814700, 4158718730512644900⟩,
   ⟨27352485000000001, -44315616797900181, 1602684156283019100, -286808188311203260⟩,
   ⟨26677114999999999, -44315616797899904, 2440450874340051700, -860424564933609830⟩,
   ⟨26001745000000001, -44315616797899715, -26626411778248065000, 11615731626604285000⟩,
   ⟨25326374999999998, -44315616797899715, 436177330687984210000000000000000, -190803731709527980000000000000000⟩,
   ⟨24988689999999997, -44315616797900009, -14934102365364852000, 6500985601720916300⟩,
   ⟨24313319999999999, -44315616797900015, 109273919746569480, -47801364718533874⟩,
   ⟨23637949999999996, -44315616797900009, 3897436470960978500, 0⟩,
   ⟨22962580000000003, -44315616797898821, 363481108906639610000000000000000, -143102798782144260000000000000000⟩,
   ⟨22624895000000001, -33236712598425050, -218088665343992190000000000000000, 95401865854763634000000000000000⟩,
   ⟨21949524999999999, -33236712598425194, 218088665343997480000000000000000, -95401865854768225000000000000000⟩,
   ⟨21611840000000002, -33236712598425061, -218088665343991410000000000000000, 95401865854763176000000000000000⟩,
   ⟨20936469999999999, -33236712598425294, 218088665343999040000000000000000, -95401865854766683000000000000000⟩,
   ⟨20598784999999998, -33236712598425194, -290784887125344200000000000000000, 143102798782158500000000000000000⟩,
   ⟨19923414999999998, -22157808398950538, 11127727494192325000, -4397725554105116400⟩,
   ⟨19585729999999999, -22157808398950199, 54636959873286042, -1481842306274620800⟩,
   ⟨19248044999999997, -22157808398951212, -436177330687960960000000000000000, 190803731709518590000000000000000⟩,
   ⟨18572675000000002, -22157808398950385, 7503475822597771100, -3274393483219570500⟩,
   ⟨18234990000000000, -22157808398950385, -18212319957762014, 0⟩,
   ⟨17897305000000001, -22157808398950382, 7485263502640009800, -3274393483219570500⟩,
   ⟨17559620000000000, -22157808398950388, -436177330688010400000000000000000, 190803731709543900000000000000000⟩,
   ⟨16884250000000000, -22157808398950152, 983465277719125280, 0⟩,
   ⟨16546564999999998, -22157808398949858, 637431198521655290, -430212282466804910⟩,
   ⟨16208879999999999, -22157808398949960, -9962139016895821700, 4063116001075573200⟩,
   ⟨15871194999999998, -22157808398950163, 8960461419218698200, -3919711906919778100⟩]
/-- `atm_data.akima_P`, aviary/subsystems/atmosphere/data/MIL_SPEC_210A_Cold.py:507-716 (part 4) -/
def coldPRows_3 : List IRow :=
  [⟨15533510000000001, -22157808398950160, -8650851979936956800, 4063116001075573200⟩,
   ⟨15195825000000000, -22157808398949960, 1857656635691681200, -812623200215075900⟩,
   ⟨14858140000000001, -22157808398949941, -218547839493138970, -119503411796334700⟩,
   ⟨14520454999999999, -22157808398950099, -7904146861668714700, 3322194847938262500⟩,
   ⟨14182769999999998, -22157808398950196, 6356099665258791200, -2724677788956431100⟩,
   ⟨13845084999999999, -22157808398950155, -5736880786695034800, 2772479153675096800⟩,
   ⟨13507400000000000, -22157808398949971, 1948718235480489200, -812623200215075900⟩,
   ⟨13169715000000001, -22157808398949932, -928828317845840580, 310708870670470220⟩,
   ⟨12832030000000000, -22157808398950005, -10399234695882110000, 4541129648260935100⟩,
   ⟨12494344999999998, -22157808398950005, 436177330687988020000000000000000, -190803731709529270000000000000000⟩,
   ⟨12494344999999998, -22157808398950005, -7485263502640187300, 3274393483219726500⟩,
   ⟨12156659999999999, -22157808398950005, -582794238648370580, 406311600107537950⟩,
   ⟨11818974999999998, -22157808398949913, 2695423353748714100, -884325247292876790⟩,
   ⟨11481290000000001, -22157808398949710, -16208964762408193000, 7098502660702619200⟩,
   ⟨11143605000000000, -22157808398949708, 363481108906654270000000000000000, -143102798782146640000000000000000⟩,
   ⟨11143605000000000, -11078904199475230, -72696221781333805000000000000000, -167304776514876540⟩,
   ⟨10805920000000001, -33236712598425577, 0, 0⟩]
/-- `atm_data.akima_P`, aviary/subsystems/atmosphere/data/MIL_SPEC_210A_Cold.py:507-716 -/
def coldPRows : List IRow :=
  coldPRows_0 ++ coldPRows_1 ++ coldPRows_2 ++ coldPRows_3
/-- `atm_data.akima_P`, aviary/subsystems/atmosphere/data/MIL_SPEC_210A_Cold.py:507-716, with the column exponents. -/
def coldP : CTab := ⟨13, 17, 35, 37, coldPRows⟩
/-- `atm_data.akima_rho`, aviary/subsystems/atmosphere/data/MIL_SPEC_210A_Cold.py:719-928 (part 1) -/
def coldrhoRows_0 : List IRow :=
  [⟨1592519297224152900, -3889004877401699400, 0, 0⟩,
   ⟨1592519297224152900, -3889004877401699400, 1034478755924907700000000000, 72792731182752311000000000000000⟩,
   ⟨1535827678910497400, -3381773395230683000, 1551699645696998700000000000, -3393837859863732200000000000⟩,
   ⟨1484289692632734900, -3381749746764564700, -15128358360053269000000000000000, 99270837461767865000000000000000⟩,
   ⟨1432751946631727300, -3151169915813179200, 14121249374710892000000000000000, -46331142202966785000000000000000⟩,
   ⟨1386367944795764400, -3043577031671582400, -31931923806880576000000, 140606500613044060000000⟩,
   ⟨1339983830830650000, -3043577031665161200, 796603360757307500000000000, -2059284958540625200000000000⟩,
   ⟨1293599828994687300, -3043567099732192000, 26759464791430721000000000000000, 79532670899682793000000000000000⟩,
   ⟨1267830964003408700, -2321849762766296100, 129327972456880180000000000000000, -640228516396522570000000000000000⟩,
   ⟨1257523347525715700, -1469201975849643200, 27793386094008701000000000000000, -132210311415826090000000000000000⟩,
   ⟨1236908210681031800, -1543265056445029500, -41561660535282944000000000000000, 209158257088471270000000000000000⟩,
   ⟨1211139217542150500, -1352706625213912900, 2758711187175737700000000000, -10861153182897769000000000000⟩,
   ⟨1190524224863519300, -1352698217258073100, -37724615394383567000000, -3620009326383781300000000000⟩,
   ⟨1169908975889683500, -1352723441648263300, -66565880337019458000000000000000, 291192646325702020000000000000000⟩,
   ⟨1144140110898404800, -1352700319122926000, 68972539651960092000000000, -18285422435446578000000⟩,
   ⟨1123524974053720800, -1352698216967325300, 32188285491464637000000000, -211199376540853800000000000⟩,
   ⟨1102909853227487200, -1352698707448193000, -1383967210259084300000000000, 6124496293926673100000000000⟩,
   ⟨1082294620272101500, -1352698216944449200, 1272781680323583900000000000, -5183742926444548600000000000⟩,
   ⟨1061679611575020000, -1352695541469567400, -351100184482198440000000000, 1151864110069646600000000000⟩,
   ⟨1041064490748786700, -1352698217127376800, -1655224316624147600000000000, 7240738804834583400000000000⟩,
   ⟨1020449241774950700, -1352698216866037000, 66568845841282511000000000000000, -291200791841783960000000000000000⟩,
   ⟨1004987881132212600, -1352687706561917700, -525963671318261760000000000, 283539505784005740000000000⟩,
   ⟨984372808361329900, -1352701762308466200, -64339445364335446000000000, 138458112622738540000000000⟩,
   ⟨963757623461295120, -1352702758636291900, -17324659961657764000000000000000, 172804564516455930000000000000000⟩,
   ⟨953450006983602270, -1323655386630420200, 215350880376660340000000000000000, -1670682947199938300000000000000000⟩,
   ⟨948296262818557060, -1014523975935810700, -545122713794039530000000000, 2693547570546121500000000000⟩,
   ⟨932834886157368760, -1014521823369300800, 9981943136302869700000, -44001529671573088000000⟩,
   ⟨917373573569981500, -1014521823371642400, -827614726489294110000000000, 3620369384678524900000000000⟩,
   ⟨901912196908793210, -1014521823319373100, 66568432020631638000000000000000, -291199886645362530000000000000000⟩,
   ⟨891604580431100360, -1014517619106240400, -275863573271601710000000000, -22504686449201172000000⟩,
   ⟨876143267843713210, -1014526027584759900, -10289329391996255000000, 45010073113706111000000⟩,
   ⟨860681891182524920, -1014526027584760400, 275873862102999760000000000, -22504336341549293000000⟩,
   ⟨845220578595137660, -1014517619106247500, 55474147400527951000000000000000, -218402743423815490000000000000000⟩,
   ⟨834913026191246190, -845436516969087930, -33285285018906811000000000000000, 145604808204423180000000000000000⟩,
   ⟨819451649530057780, -845437305284775340, 44379897245306677000000000000000, -218404892991935830000000000000000⟩,
   ⟨809144081107715850, -1014523925484739000, -103452108642535060000000000, 226273437941081520000000000⟩,
   ⟨793682720464977790, -1014525502093241100, -4438134548043144300000000000000, 29121391493060982000000000000000⟩,
   ⟨778221343803789380, -946889908212432880, 35504662677061939000000000000000, -116485566319578830000000000000000⟩,
   ⟨767913839455248710, -676347531856369840, -6430540744539309300000, -905054372239159580000000000⟩,
   ⟨757606271032906790, -676353838225063970, -55475216411958377000000000000000, 218407042640595390000000000000000⟩,
   ⟨742144846316367460, -845437568057487870, 33285836766205565000000000000000, -145607297222456440000000000000000⟩,
   ⟨731837341967826900, -845437305284777640, -44380173119599053000000000000000, 218406250641714600000000000000000⟩,
   ⟨716375965306638500, -676349633998868000, 206903466000193630000000000, -905090934097944840000000000⟩,
   ⟨706068412902746800, -676349634008668370, -643051406633624630000, 2813114981787775400000⟩,
   ⟨695760844480404870, -676349634008668240, 206904109051600280000000000, -905090934097944840000000000⟩,
   ⟨685453292076513180, -676349633998868000, -66569949327729042000000000000000, 291206674880150720000000000000000⟩,
   ⟨669991915415324990, -676352787158719270, 1448321272352992900000000000, -6335616896712730400000000000⟩,
   ⟨659684411066784220, -676352787181586450, -181051225484004720000000000, 1187970630152436800000000000⟩,
   ⟨649376794589091370, -676350028166716450, 88927343543758245, 169705869757453340000000000⟩,
   ⟨639069226166749440, -676348845702373540, 68968465579106754000000000, -339411740331828590000000000⟩,
   ⟨628761673762857850, -676349108472229460, -80463209479170753000000000, 301699323014795280000000000⟩,
   ⟨618454105340515920, -676349458832033700, 149431674293502840000000000, -603398644395761960000000000⟩,
   ⟨608146552936624230, -676349108472231360, -931074285295709350000000000, 4072940880714271900000000000⟩,
   ⟨597838920440481150, -676349108472229870, 879347935331036700000000000, -3733529136297809300000000000⟩,
   ⟨587531432110390610, -676348320162662370, -43105290805752260000000000, -282843117974063030000000000⟩,
   ⟨577223863688048790, -676351604785838710, -310358095715130850000000000, 1527352832835289800000000000⟩,
   ⟨566916247210355940, -676350422321497150, 51726348853075717000000000, 583512752911804320⟩,
   ⟨556608678788014010, -676348845702379770, 103452697394905720000000000, -565686227778947500000000000⟩,
   ⟨546301126384122320, -676349634011931280, -1040449919461977700, 3384373966888465300⟩,
   ⟨535993557961780390, -676349634011939140, 524671326908170520, 0⟩,
   ⟨525685989539438460, -676349634011923150, 66570225196020878000000000000000, -291208032496184570000000000000000⟩,
   ⟨520532245374393350, -676347531885776520, -1034519481784792800000000000, 4525454706434109700000000000⟩,
   ⟨510224628896700510, -676347531902110300, 8038347115810506600000, -31647164261823456000000⟩,
   ⟨499917092511259150, -676347531877609900, -531743158075629210000000000, 2131491921420883100000000000⟩]
/-- `atm_data.akima_rho`, aviary/subsystems/atmosphere/data/MIL_SPEC_210A_Cold.py:719-928 (part 2) -/
def coldrhoRows_1 : List IRow :=
  [⟨489609508070466880, -676348887753125390, 309627122718301570000000000000000, -3149883617700169300000000000000000⟩,
   ⟨489609508070466880, -676350685091356060, -176209026186909030000000000000000, 1352311922638879800000000000000000⟩,
   ⟨479301907611224320, -676352040982990110, -28965583158742094000000000, 773850725666377560000000000⟩,
   ⟨468994323170432100, -676347531872595600, 155181604865509870000000000, -1018243610158334400000000000⟩,
   ⟨458686786784990750, -676349896781793030, -155179047617462520000000000, 678823480663657180000000000⟩,
   ⟨448379202344198540, -676349896781791400, 51726348853075717000000000, -226274491881815860000000000⟩,
   ⟨438071633921856610, -676349896781791270, -172421162458231830000000000, 791960719894149600000000000⟩,
   ⟨427764049481064390, -676349634011940360, 275875149059517150000000000, -905106414691279680000000000⟩,
   ⟨417456513095623090, -676347531872705920, -413806936393398100000000000, 1810179074336828700000000000⟩,
   ⟨407148944673281110, -676347531872705920, 66569673448724728000000000000000, -291206222294607320000000000000000⟩,
   ⟨401995168471335320, -676349634011931140, -206905183916401700000000000, 905096573748701690000000000⟩,
   ⟨391687584030543100, -676349634015197980, 17242545364719455000000000, -113138654949149680000000000⟩,
   ⟨381380015608201170, -676349896781788830, -103453342473855780000000000, 339415963213621400000000000⟩,
   ⟨371072431167408900, -676350685081557310, 206906040242256350000000000, -8439344945363427300000⟩,
   ⟨360764894781967600, -676344378644253650, 55473854275086930000000000000000, -218401272609880590000000000000000⟩,
   ⟨355611086543121180, -507261962739098530, -33284560849211949000000000000000, 145601753496113920000000000000000⟩,
   ⟨345303550157679880, -507261962739098530, 44379207562149517000000000000000, -218401272609877440000000000000000⟩,
   ⟨340149741918833400, -676344378644253650, -310354880360279460000000000, 678815042252332270000000000⟩,
   ⟨329842205533392110, -676349108462430980, -16642694201369868000000000000000, 109203351365014700000000000000000⟩,
   ⟨319534621092599840, -422719178720336100, 11094957139791198000000000000000, -36400664880615688000000000000000⟩,
   ⟨314380828872203700, -338174817006782380, 137936611082024250000000000, -678821025825489520000000000⟩,
   ⟨309227052670257960, -338175342539145370, -55475009493859889000000000000000, 218405684952489170000000000000000⟩,
   ⟨298919468229465690, -507262225509360760, 35447962125492927000000000000000, -159795829144018010000000000000000⟩,
   ⟨293765708045970190, -540222212934324100, -24291447769808409000000000000000, 100781714723156590000000000000000⟩,
   ⟨283458123605177970, -578405965393535680, 6897349542716633900000000000000, 38352734590316814000000000000000⟩,
   ⟨278304347403232180, -267966290493575410, 233154922598417880000000000000000, -4312542605141231300000000000000000⟩,
   ⟨278304347403232180, -338174550031193000, -172972990492899630000000000, 793771180419560780000000000⟩,
   ⟨273150555182836040, -338174291466263820, 13339101531563818, -58351275291180441⟩,
   ⟨267996778980890190, -338174291466263820, 489100389490673300, -58351275291180441⟩,
   ⟨262843002778944460, -338174291466249250, 66569742414616846000000000000000, -291206222286165150000000000000000⟩,
   ⟨262843002778944460, -338174291466259760, -206905397497649060000000000, 905097976805116040000000000⟩,
   ⟨257689210558548320, -338174291466259760, 75588242012194060, -466810202329432360⟩,
   ⟨252535434356602470, -338174291466260840, -137837382492826110, 466810202329443530⟩,
   ⟨247381658154656650, -338174291466262060, -206904967965240640000000000, 905095160189057830000000000⟩,
   ⟨242227865934260540, -338174291472795670, 66569742415904421000000000000000, -291206222291795190000000000000000⟩,
   ⟨242227865934260540, -338174291472789770, -413809509119249540000000000, 1810190328605645200000000000⟩,
   ⟨237074057695414090, -338174291472789770, 1286151723306190700000, -5626229963575483400000⟩,
   ⟨231920281493468300, -338174291472789770, -206904755144322070000000000, 905096573398594020000000000⟩,
   ⟨226766489273072160, -338174291462989190, 66569466543541650000000000000000, -291204412109910090000000000000000⟩,
   ⟨226766489273072160, -338170087197594100, -206900252477243690000000000, -12658842364219266000000⟩,
   ⟨221612729089576690, -338176393605493180, -3858721951949249400000, 16880265375159715000000⟩,
   ⟨216458920850730260, -338176393605489590, 160832843346978820000000000, -150244083569840350000000000⟩,
   ⟨211305144648784420, -338172538280332630, 400946073236062740000000000000000, -10565791242065742000000000000000000⟩,
   ⟨211304984464281340, -338174291466263080, -15884710280492889000000000000000, 83317615810948705000000000000000⟩,
   ⟨206151352428388330, -338174465947719040, 91865217090820547000000000, -527666028257810790000000000⟩,
   ⟨200997576226442490, -338175342529261650, -2368628705326964000000, 8474414061813426900000⟩,
   ⟨195843784006046380, -338175342542410380, 68968465681373198000000000, -1406557490893904500000⟩,
   ⟨190690007804100590, -338173240393376780, 66569604478543574000000000000000, -291205769739988730000000000000000⟩,
   ⟨190690007804100590, -338174291466260160, -206905397413168070000000000, 905097976396657120000000000⟩,
   ⟨185536215583704450, -338174291466260230, -66695507657819079, 408458927038263090⟩,
   ⟨180382439381758660, -338174291466259080, 226764726036582170, -991971679950043830⟩,
   ⟨175228663179812840, -338174291466259080, -137937361001869270000000000, 452551803530669550000000000⟩,
   ⟨170074870959416700, -338175342539149370, 137938218043585760000000000, -11252343224600384000000⟩,
   ⟨164921110775921200, -338171138260666870, 66569328607681798000000000000000, -291204864650460740000000000000000⟩,
   ⟨164921110775921200, -338174291459722360, -413811222855867530000000000, 1810195949875707400000000000⟩,
   ⟨159767302537074770, -338174291472789770, 1286151723306190700000, -5626229963575483400000⟩,
   ⟨154613526335128980, -338174291472789770, -206904755931331510000000000, 905096576841340780000000000⟩,
   ⟨149459734114732850, -338174291462989260, 66569466543541915000000000000000, -291204412109909920000000000000000⟩,
   ⟨149459734114732850, -338170087197609750, -310352146191285820000000000, 678805545582294690000000000⟩,
   ⟨144305973931237340, -338174816998619150, -413811114373401140000000000, 2036469382215061300000000000⟩,
   ⟨139152165692390920, -338173240396649450, 66569604478972797000000000000000, -291205769741396050000000000000000⟩,
   ⟨139152165692390920, -338174291466256100, -1618477652496429100, 6360289006738818800⟩,
   ⟨133998389490445100, -338174291466261040, -22189914138204924000000000000000, 145603111143077630000000000000000⟩,
   ⟨128844613288499300, 0, 0, 0⟩]
/-- `atm_data.akima_rho`, aviary/subsystems/atmosphere/data/MIL_SPEC_210A_Cold.py:719-928 (part 3) -/
def coldrhoRows_2 : List IRow :=
  [⟨128844613288499300, 0, 0, 0⟩,
   ⟨128844613288499300, 0, -82858260156904593000000000000000, 399855659143211700000000000000000⟩,
   ⟨123690821068103180, -185200078064448070, 46494398325800229000000000000000, -225342271865697460000000000000000⟩,
   ⟨123690821068103180, -338174474356306040, -148419900512179500000000000, 600079354449375840000000000⟩,
   ⟨118537028847707050, -338174817005153300, 321539042418341950000, 226272034184446460000000000⟩,
   ⟨113383252645761240, -338173240393364720, 66569673447008872000000000000000, -291206222288982240000000000000000⟩,
   ⟨113383252645761240, -338175342545671320, -173408319910327540, 408458927038253320⟩,
   ⟨108229460425365130, -338175342545674100, -235657460390957960, 1167025505823581000⟩,
   ⟨103075668204969000, -338175342545673150, 55474940524536281000000000000000, -218405232400688820000000000000000⟩,
   ⟨103075668204969000, -169087408502574650, -33284819481039552000000000000000, 145602884868938120000000000000000⟩,
   ⟨97921892003023189, -169087408502574180, 33284922933578067000000000000000, -145603337417228980000000000000000⟩,
   ⟨97921892003023189, -169087408502574180, -33285043628633140000000000000000, 145603903104685750000000000000000⟩,
   ⟨92768099782627081, -169087145731497070, 33284871206987292000000000000000, -145603111141675310000000000000000⟩,
   ⟨92768099782627081, -169087145731497070, -33284664302234930000000000000000, 145602206046523780000000000000000⟩,
   ⟨87614339599131577, -169087145731499370, 33284871206987747000000000000000, -145603111141677300000000000000000⟩,
   ⟨87614339599131577, -169087145731499370, -33285060870831902000000000000000, 145603903104698370000000000000000⟩,
   ⟨82460547378735455, -169087408502576650, 33284922933577760000000000000000, -145603337417224180000000000000000⟩,
   ⟨82460547378735455, -169087408502576650, -39118278607946379000000000000000, 183880175727906910000000000000000⟩,
   ⟨77306771176789635, -80185491408511914, 7892275895357765500000000000000, -17262209390237335000000000000000⟩,
   ⟨77306771176789635, 40092698171773187, 15429030748549540000000000000000, -73247628981435250000000000000000⟩,
   ⟨78908616207542984, 0, -87260489014994513000000000000000, 381716924825003300000000000000000⟩,
   ⟨72152978956393513, 0, 0, 0⟩,
   ⟨72152978956393513, 0, 0, 0⟩,
   ⟨72152978956393513, 0, -66569742414619875000000000000000, 291206222286180330000000000000000⟩,
   ⟨66999202754447720, 0, 0, 0⟩,
   ⟨66999202754447720, 0, 0, 0⟩,
   ⟨66999202754447720, 0, -84042354904700304000000000000000, 413077918864701130000000000000000⟩,
   ⟨61845410534051591, 0, 0, 0⟩,
   ⟨61845410534051591, 0, 0, 0⟩,
   ⟨61845410534051591, 0, 0, 0⟩,
   ⟨61845410534051591, 0, -66569949320013959000000000000000, 291207127384135270000000000000000⟩,
   ⟨56691618313655469, 0, 0, 0⟩,
   ⟨56691618313655469, 0, 0, 0⟩,
   ⟨56691618313655469, 0, 0, 0⟩,
   ⟨56691618313655469, 0, -66569742414620150000000000000000, 291206222286181530000000000000000⟩,
   ⟨51537842111709656, 0, 0, 0⟩,
   ⟨51537842111709656, 0, 0, 0⟩,
   ⟨51537842111709656, 0, 0, 0⟩,
   ⟨51537842111709656, 0, -66569949320013853000000000000000, 291207127384134850000000000000000⟩,
   ⟨46384049891313540, 0, 0, 0⟩,
   ⟨46384049891313540, 0, 0, 0⟩,
   ⟨46384049891313540, 0, 0, 0⟩,
   ⟨46384049891313540, 0, 0, 0⟩,
   ⟨46384049891313540, 0, -66569742414616973000000000000000, 291206222286160690000000000000000⟩,
   ⟨41230273689367727, 0, 0, 0⟩,
   ⟨41230273689367727, 0, 0, 0⟩,
   ⟨41230273689367727, 0, 0, 0⟩,
   ⟨41230273689367727, 0, 0, 0⟩,
   ⟨41230273689367727, 0, -66569742414616973000000000000000, 291206222286160690000000000000000⟩,
   ⟨36076497487421914, 0, 0, 0⟩,
   ⟨36076497487421914, 0, 0, 0⟩,
   ⟨36076497487421914, 0, 0, 0⟩,
   ⟨36076497487421914, 0, 0, 0⟩,
   ⟨36076497487421914, 0, 0, 0⟩,
   ⟨36076497487421914, 0, -66569949320017072000000000000000, 291207127384155820000000000000000⟩,
   ⟨30922705267025796, 0, 0, 0⟩,
   ⟨30922705267025796, 0, 0, 0⟩,
   ⟨30922705267025796, 0, 0, 0⟩,
   ⟨30922705267025796, 0, 0, 0⟩,
   ⟨30922705267025796, 0, 0, 0⟩,
   ⟨30922705267025796, 0, 0, 0⟩,
   ⟨30922705267025796, 0, 0, 0⟩,
   ⟨30922705267025796, 0, -66569949320017072000000000000000, 291207127384155820000000000000000⟩,
   ⟨25768913046629677, 0, 0, 0⟩]
/-- `atm_data.akima_rho`, aviary/subsystems/atmosphere/data/MIL_SPEC_210A_Cold.py:719-928 (part 4) -/
def coldrhoRows_3 : List IRow :=
  [⟨25768913046629677, 0, 0, 0⟩,
   ⟨25768913046629677, 0, 0, 0⟩,
   ⟨25768913046629677, 0, 0, 0⟩,
   ⟨25768913046629677, 0, 0, 0⟩,
   ⟨25768913046629677, 0, 0, 0⟩,
   ⟨25768913046629677, 0, 0, 0⟩,
   ⟨25768913046629677, 0, 0, 0⟩,
   ⟨25768913046629677, 0, -66569742414616973000000000000000, 291206222286160690000000000000000⟩,
   ⟨20615136844683864, 0, 0, 0⟩,
   ⟨20615136844683864, 0, 0, 0⟩,
   ⟨20615136844683864, 0, 0, 0⟩,
   ⟨20615136844683864, 0, 0, 0⟩,
   ⟨20615136844683864, 0, 628578595933341510000000000000, -2749687646252561200000000000000⟩,
   ⟨20663800896718147, 0, -628578595933371370000000000000, 2749687646252757600000000000000⟩,
   ⟨20615136844683864, 0, 0, 0⟩,
   ⟨20615136844683864, 0, 0, 0⟩,
   ⟨20615136844683864, 0, 0, 0⟩]
/-- `atm_data.akima_rho`, aviary/subsystems/atmosphere/data/MIL_SPEC_210A_Cold.py:719-928 -/
def coldrhoRows : List IRow :=
  coldrhoRows_0 ++ coldrhoRows_1 ++ coldrhoRows_2 ++ coldrhoRows_3
/-- `atm_data.akima_rho`, aviary/subsystems/atmosphere/data/MIL_SPEC_210A_Cold.py:719-928, with the column exponents. -/
def coldrho : CTab := ⟨18, 22, 38, 41, coldrhoRows⟩
/-- `atm_data.akima_dT`, aviary/subsystems/atmosphere/data/MIL_SPEC_210A_Cold.py:930-1139 (part 1) -/
def colddTRows_0 : List IRow :=
  [⟨2424176144648593900000000000000000, 35879701389024819000000000000000000000000000, 0, 0⟩,
   ⟨2424176144648593900000000000000000, 35879701389024819000000000000000000000000000, -164385753968413250000000000000000, -51494118870624003000000000000000000000000000⟩,
   ⟨2460629921259843000000000000000000, 2276539994719956800000000000000, -246475786829922690000000000000000, 5390983963909224500000000000000⟩,
   ⟨2460629921259842700000000000000000, -1479750996567957000000000000000, -333877187762943740000000000000000, 16516967989038712000000000000000⟩,
   ⟨2460629921259838500000000000000000, -147753646349606670000000000000, 4123107492203265000000000000000000000000000000, -167556873295670760000000000000000000000000000⟩,
   ⟨2497083697871094500000000000000000, 8923244596885631600000000000000000000000000, -1066409870939438300000000000000000000000000000, 34739201317812735000000000000000000000000000⟩,
   ⟨2498210850843241700000000000000000, 624402302627616330000000000000000000000000, -849647764980692080000000000000000000000000000, 46330780008047746000000000000000000000000⟩,
   ⟨2479445124148342900000000000000000, -25240579546671505000000000000000000000000000, -822473873618601110000000000000000000000000000000, 57937257466087050000000000000000000000000000000⟩,
   ⟨-346944695195361420, -2848617092049639500000000000, 314626471651387310000000000000000, -36381936837496901000000000000000⟩,
   ⟨0, 0, 0, 0⟩,
   ⟨0, 0, 0, 0⟩,
   ⟨0, 0, 0, 0⟩,
   ⟨0, 0, 0, 0⟩,
   ⟨0, 0, 0, 0⟩,
   ⟨0, 0, 0, 0⟩,
   ⟨0, 0, 0, 0⟩,
   ⟨0, 0, 0, 0⟩,
   ⟨0, 0, 0, 0⟩,
   ⟨0, 0, 0, 0⟩,
   ⟨0, 0, 0, 0⟩,
   ⟨0, 0, 0, 0⟩,
   ⟨0, 0, 0, 0⟩,
   ⟨0, 0, 0, 0⟩,
   ⟨0, 0, 0, 0⟩,
   ⟨0, 0, -303630012520216940000000000000000000000000000000, 25931542885203312000000000000000000000000000000⟩,
   ⟨-616699228385930980000000000000000, -1856094444182519800000000000000000000000000, 2701982449520697600000000000000000000000000000, -118196957546837040000000000000000000000000000⟩,
   ⟨-598609384353271810000000000000000, -1856094444182467600000000000000000000000000, -128151385855529130000000000000000000000000000, 8269766967168641400000000000000000000000000⟩,
   ⟨-601487314085742510000000000000000, 2612441239038297100000000000000, 90529559309722793000000000000000, -3955877999454783800000000000000⟩,
   ⟨-601487314085737830000000000000000, 2615434016660145100000000000000, -600912042271235420000000000000000, 26943781422926333000000000000000⟩,
   ⟨-601487314085738260000000000000000, 3073328992873262200000000000000, 2354311114760939400000000000000000000000000000, -102988237741021450000000000000000000000000000⟩,
   ⟨-583260425780125160000000000000000, 39270314908815298000000000000000, -3715469712198932800000000000000000, 102651463246193250000000000000000⟩,
   ⟨-583260425780115270000000000000000, -2452454448861074200000000000000, -1805086499862752100000000000000000, 15792532807327075000000000000000⟩,
   ⟨-583260425780155350000000000000000, -46467683661424730000000000000000, -5885777786901450600000000000000000000000000000, 248888241207595310000000000000000000000000000⟩,
   ⟨-631865461261778280000000000000000, -5979950231511544900000000000000000000000000, 5101007415326420800000000000000000000000000000, -223141181772792960000000000000000000000000000⟩,
   ⟨-601487314085732190000000000000000, -5979950231500698700000000000000000000000000, -1569540743177052500000000000000000000000000000, 77241178305948199000000000000000000000000000⟩,
   ⟨-619714202391355440000000000000000, -2610906806443639800000000000000, 921483339398151710000000000000000, -47508046181946986000000000000000⟩,
   ⟨-619714202391354830000000000000000, -7626408982312400700000000000000, -15956421461481262000000000000000, 1047009282248108600000000000000⟩,
   ⟨-619714202391366460000000000000000, -7383233119240344100000000000000, -380464460662202430000000000000000, 25878208146315198000000000000000⟩,
   ⟨-619714202391377380000000000000000, -948558331133483470000000000000, 98515046110214543000000000000000, -3115297287107945200000000000000⟩,
   ⟨-619714202391377640000000000000000, -116474139264755610000000000000, -22059496072869831000000000000000, 1458870924694311000000000000000⟩,
   ⟨-619714202391377820000000000000000, 227653999472012960000000000000, 1022834349565888100, -31873201237498298⟩,
   ⟨-619714202391377470000000000000000, 227653999472021870000000000000, 80957931143246442, -2591317173780380⟩,
   ⟨-619714202391377120000000000000000, 227653999472022500000000000000, 76872400861492948000000000000000000000000000, -5044120791438026500000000000000000000000000⟩,
   ⟨-619714202391377300000000000000000, -1171535389129946400000000000000000000000000, -1415795941453176700000000000000000000000000000, 46449998079168917000000000000000000000000000⟩,
   ⟨-637941090696995430000000000000000, -11959900463005554000000000000000000000000000, -296476958310191120000000000000000000000000000, 19453868655517644000000000000000000000000000⟩,
   ⟨-656167979002618240000000000000000, -7441591618362965800000000000000000000000000, 976586826555945900000000000000000000000000000, -32040250215078833000000000000000000000000000⟩,
   ⟨-656167979002624400000000000000000, 1138269997359274300000000000000, -47745810446412247000000000000000, 3132927194650088300000000000000⟩,
   ⟨-656167979002622670000000000000000, 1865916148565109200000000000000, 282148797755301250000000000000000, -13315107163268718000000000000000⟩,
   ⟨-656167979002617980000000000000000, 1188207003695911200000000000000, -1228548201737553500000000000000000, 51728159180099484000000000000000⟩,
   ⟨-656167979002626400000000000000000, -215167874500974320000000000000, 355917571664350210000000000000000, -16546678863604866000000000000000⟩,
   ⟨-656167979002624320000000000000000, -896076052666331030000000000000, -93029480788899525000000000000000, 4816470344397970400000000000000⟩,
   ⟨-656167979002626140000000000000000, -375629099128836540000000000000, 5160374600296334900000000000000, 53464303774311524000000000000⟩,
   ⟨-656167979002626570000000000000000, -181088408670927090000000000000, 10006266537970886000000000000000, 123108594217159310000000000000⟩,
   ⟨-656167979002626570000000000000000, 209681315303178250000000000000, 242151650218891510000000000000000, -9930759933517495900000000000000⟩,
   ⟨-656167979002624140000000000000000, 670980208970167190000000000000, -149385860438848620000000000000000, 5688049841115462400000000000000⟩,
   ⟨-656167979002624580000000000000000, 80977597127629274000000000000, 168628136444218920000000000000000, -5532419174681040100000000000000⟩,
   ⟨-656167979002622490000000000000000, 1365923996831215800000000000000, 174057400149358410000000000000000000000000000, -11421089248674018000000000000000000000000000⟩,
   ⟨-656167979002630470000000000000000, -2652634778294655800000000000000000000000000, -1221425942876400100000000000000000000000000000, 40073029621954163000000000000000000000000000⟩,
   ⟨-674394867308253120000000000000000, -11959900462995430000000000000000000000000000, -313449634346863440000000000000000000000000000, 20567561308899243000000000000000000000000000⟩,
   ⟨-692621755613840460000000000000000, -7182928035514490600000000000000000000000000, 942641474471244500000000000000000000000000000, -30926557561317261000000000000000000000000000⟩,
   ⟨-692621755613880270000000000000000, 8707765479763589100000000000000, 794818694000713840000000000000000, -52153457611417827000000000000000⟩,
   ⟨-692621755613867000000000000000000, -3405271416683449100000000000000, -646430707102304960000000000000000, 33554033993264604000000000000000⟩,
   ⟨-692621755613875320000000000000000, 271058847620384710000000000000, 24179678651399213000000000000000, -793296543681083800000000000000⟩,
   ⟨-692621755613874630000000000000000, 455307998944042350000000000000, -89627558847252786000000000000000, 3920715610116057100000000000000⟩]
/-- `atm_data.akima_dT`, aviary/subsystems/atmosphere/data/MIL_SPEC_210A_Cold.py:930-1139 (part 2) -/
def colddTRows_1 : List IRow :=
  [⟨-692621755613874630000000000000000, 455307998944044510000000000000, 483849769394811650000000000000000000000000000000, -49222748112352623000000000000000000000000000000⟩,
   ⟨433680868994201770, 0, -172413740472552960000000000000000, 13231856799784512000000000000000⟩,
   ⟨0, 0, 0, 0⟩,
   ⟨0, 0, 0, 0⟩,
   ⟨0, 0, 0, 0⟩,
   ⟨0, 0, 0, 0⟩,
   ⟨0, 0, 0, 0⟩,
   ⟨0, 0, 0, 0⟩,
   ⟨0, 0, 0, 0⟩,
   ⟨0, 0, 0, 0⟩,
   ⟨0, 0, 0, 0⟩,
   ⟨0, 0, 0, 0⟩,
   ⟨0, 0, 0, 0⟩,
   ⟨0, 0, 0, 0⟩,
   ⟨0, 0, 0, 0⟩,
   ⟨0, 0, 0, 0⟩,
   ⟨0, 0, 0, 0⟩,
   ⟨0, 0, 0, 0⟩,
   ⟨0, 0, 0, 0⟩,
   ⟨0, 0, 0, 0⟩,
   ⟨0, 0, 0, 0⟩,
   ⟨0, 0, 0, 0⟩,
   ⟨0, 0, 0, 0⟩,
   ⟨0, 0, 0, 0⟩,
   ⟨0, 0, 0, 0⟩,
   ⟨0, 0, -2017331409432558300000000000000000000000000000000, 358662677311655430000000000000000000000000000000⟩,
   ⟨-945487001444704140000000000000000, -2776717552471753200000000000000000000000000, 3144917063037817200000000000000000000000000000, -137408110320158010000000000000000000000000000⟩,
   ⟨-925312684824056500000000000000000, -2661879241565392800000000000000000000000000, 410712753537073360000000000000000000000000000, -27520100050096874000000000000000000000000000⟩,
   ⟨-929571303587049470000000000000000, -9318611681941474500000000000000000000000000, -3419426029256664100000000000000000000000000000, 161505429496376880000000000000000000000000000⟩,
   ⟨-966025080198296830000000000000000, -1010126728291785300000000000000000000000000, 2172965528896951100000000000000000000000000000, -86739755638111174000000000000000000000000000⟩,
   ⟨-947798191892679390000000000000000, 4783960185204902100000000000000000000000000, -104636049545100280000000000000000000000000000, -13731765032167250000000000000000000000000000⟩,
   ⟨-947798191892675580000000000000000, -7973266975334966500000000000000000000000000, -3662261734081955200000000000000000000000000000, 171647062902213950000000000000000000000000000⟩,
   ⟨-984251968503940290000000000000000, 59605265205251559, 112034448559058620000000000000000, -4900894512644830200000000000000⟩,
   ⟨-984251968503939420000000000000000, 0, 0, 0⟩,
   ⟨-984251968503939420000000000000000, 0, 0, 0⟩,
   ⟨-984251968503939420000000000000000, 0, 0, 0⟩,
   ⟨-984251968503939420000000000000000, 0, -8417521568414420400000000000000000, 600359577799664170000000000000000⟩,
   ⟨-984251968503922420000000000000000, 161748166625023880000000000000000, 14387456812434420000000000000000000000000000000, -480611776125216480000000000000000000000000000⟩,
   ⟨-820209973753289500000000000000000, 103652470679423140000000000000000000000000000, 1336586224590191300000000000000000000000000000, -104867214465381530000000000000000000000000000⟩,
   ⟨-668319237873043170000000000000000, 71322996153688027000000000000000000000000000, -11714303922031320000000000000000000000000000000, 427239963913906650000000000000000000000000000⟩,
   ⟨-680470496743459420000000000000000, 11960198538364537000000000000000000000000000, 523905051320910100000000000000000000000000000, -24156576227466501000000000000000000000000000⟩,
   ⟨-658625536976488800000000000000000, 11097179246200647000000000000000000000000000, -1374728005806349400000000000000000000000000000, 48952119117258705000000000000000000000000000⟩,
   ⟨-656315417940956780000000000000000, 3303974732489249200000000000000000000000000, 31246609729424058000000000000000000000000000000, -2313156634612711500000000000000000000000000000⟩,
   ⟨-639226731692887130000000000000000, 116988586157966860000000000000000000000000000, 106002886704634180000000000000000000000000000000, -5795326527207943000000000000000000000000000000⟩,
   ⟨31968674678599807000000000000000, 2942750280480804200000000000000000000000000, -4515483105427139800000000000000000000000000000, 193304294847529570000000000000000000000000000⟩,
   ⟨-16263032587282567, 10263581297990816000000000000, 753719230956139000000000000000, -47701264253619019000000000000⟩,
   ⟨0, 0, 0, 0⟩,
   ⟨0, 0, 0, 0⟩,
   ⟨0, 0, 0, 0⟩,
   ⟨0, 0, 0, 0⟩,
   ⟨0, 0, 0, 0⟩,
   ⟨0, 0, 0, 0⟩,
   ⟨0, 0, 0, 0⟩,
   ⟨0, 0, 0, 0⟩,
   ⟨0, 0, 0, 0⟩,
   ⟨0, 0, 0, 0⟩,
   ⟨0, 0, 0, 0⟩,
   ⟨0, 0, 0, 0⟩,
   ⟨0, 0, 0, 0⟩,
   ⟨0, 0, 0, 0⟩,
   ⟨0, 0, 0, 0⟩,
   ⟨0, 0, 0, 0⟩,
   ⟨0, 0, 0, 0⟩,
   ⟨0, 0, 0, 0⟩]
/-- `atm_data.akima_dT`, aviary/subsystems/atmosphere/data/MIL_SPEC_210A_Cold.py:930-1139 (part 3) -/
def colddTRows_2 : List IRow :=
  [⟨0, 0, 0, 0⟩,
   ⟨0, 0, 109466244419006040000000000000000000000000000000, -5771980020239864400000000000000000000000000000⟩,
   ⟨583260425780102610000000000000000, 12025287966327249000000000000000000000000000, -769383046367652880000000000000000000000000000, -1291197100468477800000000000000000000000000⟩,
   ⟨583260425780106170000000000000000, -12325178306004355000000000000000000000000000, -28825413521045416000000000000000000000000000, 1803057916370527100000000000000000000000000⟩,
   ⟨564445573335594680000000000000000, -11947455197174185000000000000000000000000000, 16488495208900910000000000000000000000000000, 525594460327829400000000000000000000000000⟩,
   ⟨546806649168867990000000000000000, -11078665939419759000000000000000000000000000, 2045143723076325300000000000000000000000000000, -86495875270663605000000000000000000000000000⟩,
   ⟨546806649168867820000000000000000, -9010658460843576300000000000000000000000000, -1583057681689880900000000000000000000000000000, 68381209811993222000000000000000000000000000⟩,
   ⟨520510940743726220000000000000000, -9616089570660707100000000000000000000000000, -50132419649856512000000000000000000000000000, 15993916125299600000000000000000000000000000⟩,
   ⟨510352872557600250000000000000000, 2015347682828597600000000000000, 132766343280541450000000000000000, -5626764251244117900000000000000⟩,
   ⟨510352872557604410000000000000000, 2141489543740287800000000000000, -31892099493854258000000000000000, -266410878050080660000000000000⟩,
   ⟨510352872557606840000000000000000, 983790497718183390000000000000, -615872110878733600000000000000000000000000000, 13776666760888151000000000000000000000000000⟩,
   ⟨500925171709860370000000000000000, -9172575265931852900000000000000000000000000, -2287125066308025500000000000000000000000000000, 113213585959439110000000000000000000000000000⟩,
   ⟨473899095946321480000000000000000, -546776123731900680000000000000, 27719634395460700000000000000000, -689917590618976780000000000000⟩,
   ⟨473899095946321050000000000000000, -182597478743097810000000000000, 20228442100935483000000000000000, -1031229887035662200000000000000⟩,
   ⟨473899095946320880000000000000000, -284567499340094510000000000000, -1831130867037276100000000000000000000000000000, 68658825160742414000000000000000000000000000⟩,
   ⟨455672207640716790000000000000000, -7973266975335142300000000000000000000000000, 1569540743175139100000000000000000000000000000, -68658825160766609000000000000000000000000000⟩,
   ⟨455672207640708900000000000000000, -7973266975334029500000000000000000000000000, -3139081486356581300000000000000000000000000000, 137317650321803140000000000000000000000000000⟩,
   ⟨419218431029443500000000000000000, -7973266975338025400000000000000000000000000, 1569540743177645800000000000000000000000000000, -68658825160874492000000000000000000000000000⟩,
   ⟨419218431029450950000000000000000, -7973266975336813000000000000000000000000000, -1307950619313367100000000000000000000000000000, 68658825160808576000000000000000000000000000⟩,
   ⟨400991542723833600000000000000000, -1991972495378909800000000000000, 448137794236061160000000000000000, -19603578050572365000000000000000⟩,
   ⟨400991542723834040000000000000000, -1991972495379743500000000000000, -39602250414852931000, 547286187102429330⟩,
   ⟨400991542723831000000000000000000, -1991972495380570000000000000000, -20091184952873809000000000000000, -9463648705187595300000000000000⟩,
   ⟨400991542723824150000000000000000, -9198364819274231600000000000000, -2527318488431966500000000000000000000000000000, 95652387643961556000000000000000000000000000⟩,
   ⟨376149824906333530000000000000000, -10384685562046524000000000000000000000000000, 359644855552342730000000000000000000000000000, -11692892664558682000000000000000000000000000⟩,
   ⟨364537766112580300000000000000000, -7569999926795054900000000000000000000000000, 1556357466577111900000000000000000000000000000, -69530072918360131000000000000000000000000000⟩,
   ⟨364537766112575310000000000000000, -8578887937055117200000000000000000000000000, -2191453015736315000000000000000000000000000000000, 837531628706389780000000000000000000000000000000⟩,
   ⟨141811030295388350000000000000000, -294894537028119580000000000000000000000000000, 7550749772947217800000000000000000000000000000, 197174994212645210000000000000000000000000000⟩,
   ⟨-70058719965178915000000000000000, 18759749693424582000000000000000000000000000, 1878737789257818600000000000000000000000000000, -109108273902201890000000000000000000000000000⟩,
   ⟨-36453776611249279000000000000000, 109242101185171950000000000000, 5269794746501405000000000000000, -402622958708752880000000000000⟩,
   ⟨-36453776611249133000000000000000, -10671281225251126000000000000, -111736484600142650000000000000, 7331790328093218800000000000⟩,
   ⟨-36453776611249149000000000000000, -8968417199945137700000000000, 1453542682668256000000000000000, -56762720720092870000000000000⟩,
   ⟨-36453776611249149000000000000000, -4215156083974155000000000000, -103831646011465710000000000000000, 4411432091359587300000000000000⟩,
   ⟨-36453776611250005000000000000000, -95237836206945424000000000000, 124066042058447520000000000000000, -4070408204017654000000000000000⟩,
   ⟨-36453776611248710000000000000000, 850145404278209730000000000000, -74689632372681791000000000000000, -1304987328715768400⟩,
   ⟨-36453776611249149000000000000000, -1426394590442062600000000000000, -1961925928971948800000000000000000000000000000, 77241178305984569000000000000000000000000000⟩,
   ⟨-54680664916882183000000000000000, -5979950231506987900000000000000000000000000, 392385185794093800000000000000000000000000000, 7495604672138464100000000000000⟩,
   ⟨-54680664916887062000000000000000, 5979950231502326000000000000000000000000000, 1569540743176207100000000000000000000000000000, -77241178305913431000000000000000000000000000⟩,
   ⟨-36453776611268659000000000000000, 1984858307896220600000000000000, -111684340907258720000000000000000, 2442789608644617800000000000000⟩,
   ⟨-36453776611267364000000000000000, 282788952469189470000000000000, 140932401748840790000000000000000000000000000, -9247532923154638000000000000000000000000000⟩,
   ⟨-36453776611267797000000000000000, -2148529854828460700000000000000000000000000, -1287581444642749000000000000000000000000000000, 42243485716631804000000000000000000000000000⟩,
   ⟨-54680664916886812000000000000000, -11959900463002183000000000000000000000000000, -319519876449638150000000000000000000000000000, 20965871158123698000000000000000000000000000⟩,
   ⟨-72907553222498363000000000000000, -7090417545901875300000000000000000000000000, 930500990276327740000000000000000000000000000, -30528247712493901000000000000000000000000000⟩,
   ⟨-72907553222498309000000000000000, -7512581982574720800000000000000, -138068946379658870000000000000000, 9059642150887296000000000000000⟩,
   ⟨-72907553222509758000000000000000, -5408411239755080100000000000000, 17403637119200908000000000000000, 4194764540437325300000000000000⟩,
   ⟨-72907553222516111000000000000000, -1955150546180548400000000000000, 210724623698151800000000000000000, -4214455876245759500000000000000⟩,
   ⟨-72907553222515689000000000000000, 1531217762770900500000000000000, 494551533696319760000000000000000, -23330151337424339000000000000000⟩,
   ⟨-72907553222510127000000000000000, 349333638033662450000000000000, -804263681648622120000000000000000, 34636718310834461000000000000000⟩,
   ⟨-72907553222516014000000000000000, -30700178364713897000000000000, 122200096198063020000000000000000, -5987100804093086100000000000000⟩,
   ⟨-72907553222515342000000000000000, -477690237397879530000000000000, -1509031319203518800000000000000, 72863604138246198000000000000⟩,
   ⟨-72907553222516079000000000000000, -472916134533704990000000000000, 2191062202870867100000000000000, -67957528115753178000000000000⟩,
   ⟨-72907553222516773000000000000000, -453483515736492620000000000000, 150008950161936530000000000000000, -3387907756976889400000000000000⟩,
   ⟨-72907553222515179000000000000000, 1758187311228823400000000000000, 4622566306096647000000000000000000, -205702538895607200000000000000000⟩,
   ⟨-72907553222477947000000000000000, -673925672347867940000000000000, -4296110893289941000000000000000000, 184299702368063620000000000000000⟩,
   ⟨-72907553222513520000000000000000, -3204366041664741900000000000000, -14095714376041547000000000000000, 5134144357041069000000000000000⟩,
   ⟨-72907553222516914000000000000000, -56671276586719629000000000000, -32777775684634841000000000000000, 2792972179623298800000000000000⟩,
   ⟨-72907553222516773000000000000000, 890329166463797770000000000000, 66521384539347826000000000000000, -1551451418269315800000000000000⟩,
   ⟨-72907553222514420000000000000000, 1836891818451636200000000000000, 365983682875646850000000000000000, -17098327044894001000000000000000⟩,
   ⟨-72907553222509172000000000000000, 1078425262114712500000000000000, -920445499671802890000000000000000, 36333662658806888000000000000000⟩,
   ⟨-72907553222516046000000000000000, -1660445702849845400000000000000, 107369162471402580000000000000000, 12043112195909000000000000000⟩,
   ⟨-72907553222516079000000000000000, 1620557682283994100000000000000, 756580774639189980000000000000000, -37018244821029869000000000000000⟩,
   ⟨-72907553222509140000000000000000, -1112166401747569600000000000000, -407849668895565070000000000000000, 16633195431500052000000000000000⟩,
   ⟨-72907553222514420000000000000000, -1953866155930792100000000000000, -81870056074970160000000000000000, 7045817076139520100000000000000⟩,
   ⟨-72907553222516805000000000000000, 460068227333734020000000000000, 6592473507032568300000000000000, -269288926329453440000000000000⟩,
   ⟨-72907553222516046000000000000000, 473373620620522130000000000000, -946817292711012790000000000000, 14975016309193343000000000000⟩]
/-- `atm_data.akima_dT`, aviary/subsystems/atmosphere/data/MIL_SPEC_210A_Cold.py:930-1139 (part 4) -/
def colddTRows_3 : List IRow :=
  [⟨-72907553222515342000000000000000, 454948813582492280000000000000, -150508837103606290000000000000000, 5956738831936711600000000000000⟩,
   ⟨-72907553222516035000000000000000, 17933053461791592000000000000, 785713733854829940000000000000000, -34939559260500081000000000000000⟩,
   ⟨-72907553222510127000000000000000, -378446875347796570000000000000, -558728792424585000000000000000000, 22761712072128695000000000000000⟩,
   ⟨-72907553222515623000000000000000, -1548758615158090300000000000000, 73743708443339976000000000000000, 451077001243760530000000000000⟩,
   ⟨-72907553222516111000000000000000, 1013247803367089400000000000000, 693070394986894360000000000000000, -31982029092208202000000000000000⟩,
   ⟨-72907553222509790000000000000000, -146174517691967250000000000000, -683906818930429220000000000000000, 30097952161698312000000000000000⟩,
   ⟨-72907553222515244000000000000000, -20219956719160643000000000000, 580968393514787610000000000000, 18306444734185219000000000000⟩,
   ⟨-72907553222515255000000000000000, 10243392670653986000000000000, 3341440249260857500000000000000, -171466421847497450000000000000⟩,
   ⟨-72907553222515222000000000000000, -7382647388538370400000000000, -368645261945093540000000000000000, 14480580268109761000000000000000⟩,
   ⟨-72907553222518670000000000000000, -1154015772439527800000000000000, 72813729045406097000000000000000, 68362851650603706000000000000⟩,
   ⟨-72907553222518713000000000000000, 1112980064425048400000000000000, 305349372406188290000000000000000, -14965004935072678000000000000000⟩,
   ⟨-72907553222515222000000000000000, -7179455258578602900000000000, -1162118568175788300000000000000, 45904923113716613000000000000⟩,
   ⟨-72907553222515244000000000000000, -10615527404847316000000000000, 459493427998337350000000000000, -15075243700735570000000000000⟩,
   ⟨-72907553222515255000000000000000, -7114187483501948100000000000, -244297339219097090000000000000000, 6412003654045261200000000000000⟩,
   ⟨-72907553222518670000000000000000, -2985587347242254000000000000000, -2158118521867431600000000000000000000000000000, 90114708023575400000000000000000000000000000⟩,
   ⟨-91134441528140282000000000000000, -2989975115752635300000000000000000000000000, 2354311114765448600000000000000000000000000000, -38620589152980891000000000000000000000000000⟩,
   ⟨-54680664916893686000000000000000, 41859651620525854000000000000000000000000000, 0, 0⟩]
/-- `atm_data.akima_dT`, aviary/subsystems/atmosphere/data/MIL_SPEC_210A_Cold.py:930-1139 -/
def colddTRows : List IRow :=
  colddTRows_0 ++ colddTRows_1 ++ colddTRows_2 ++ colddTRows_3
/-- `atm_data.akima_dT`, aviary/subsystems/atmosphere/data/MIL_SPEC_210A_Cold.py:930-1139, with the column exponents. -/
def colddT : CTab := ⟨35, 49, 53, 54, colddTRows⟩
/-- `atm_data` of aviary/subsystems/atmosphere/data/MIL_SPEC_210A_Cold.py. -/
def cold : AtmData := ⟨14, coldAlt, coldT, coldP, coldrho, colddT⟩

end Verif.AtmD
