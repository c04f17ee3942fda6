import Verif.Model.AtmTables

/-! Data of aviary/subsystems/atmosphere/data/MIL_SPEC_210A_Hot.py, as exact decimals (generated from the source text). -/

namespace Verif.AtmD

set_option maxRecDepth 100000

/-- `atm_data.alt`, aviary/subsystems/atmosphere/data/MIL_SPEC_210A_Hot.py:237-288 (part 1) -/
def hotAlt_0 : List ℤ :=
  [0,
   15240000000000000,
   30480000000000000,
   45720000000000005,
   60960000000000000,
   76200000000000000,
   91440000000000010,
   106680000000000000,
   121920000000000000,
   137160000000000010,
   152400000000000000,
   167640000000000000,
   182880000000000020,
   198120000000000000,
   213360000000000000,
   228600000000000000,
   243840000000000000,
   259080000000000000,
   274320000000000030,
   289560000000000040,
   304800000000000000,
   320040000000000000,
   335280000000000000,
   350520000000000030,
   365760000000000040,
   381000000000000000,
   396240000000000000,
   411480000000000000,
   426720000000000000,
   441960000000000000,
   457200000000000000,
   472440000000000100,
   487680000000000000,
   502920000000000000,
   518160000000000000,
   533400000000000000,
   548640000000000100,
   563880000000000000,
   579120000000000100,
   594360000000000000,
   609600000000000000,
   624840000000000100,
   640080000000000000,
   655320000000000100,
   670560000000000000,
   685800000000000000,
   701040000000000100,
   716280000000000000,
   731520000000000100,
   746760000000000000,
   762000000000000000,
   777240000000000100,
   792480000000000000,
   807720000000000100,
   822960000000000000,
   838200000000000000,
   853440000000000000,
   868680000000000100,
   883920000000000000,
   899160000000000000,
   914400000000000000,
   929640000000000000,
   944880000000000100,
   960120000000000000]
/-- `atm_data.alt`, aviary/subsystems/atmosphere/data/MIL_SPEC_210A_Hot.py:237-288 (part 2) -/
def hotAlt_1 : List ℤ :=
  [975360000000000000,
   990600000000000000,
   1005840000000000000,
   1021080000000000100,
   1036320000000000000,
   1051560000000000000,
   1066800000000000000,
   1082040000000000000,
   1097280000000000100,
   1112520000000000000,
   1127760000000000000,
   1143000000000000000,
   1158240000000000100,
   1173480000000000100,
   1188720000000000000,
   1200912000000000000,
   1203960000000000000,
   1219200000000000000,
   1234440000000000100,
   1249680000000000100,
   1264920000000000000,
   1280160000000000000,
   1295400000000000000,
   1310640000000000100,
   1325880000000000100,
   1341120000000000000,
   1356360000000000000,
   1371600000000000000,
   1386840000000000100,
   1402080000000000100,
   1417320000000000000,
   1432560000000000000,
   1447800000000000000,
   1463040000000000100,
   1478280000000000100,
   1493520000000000000,
   1508760000000000000,
   1524000000000000000,
   1536192000000000000,
   1539240000000000100,
   1554480000000000100,
   1569720000000000000,
   1584960000000000000,
   1600200000000000000,
   1615440000000000100,
   1630680000000000100,
   1645920000000000000,
   1661160000000000200,
   1676400000000000000,
   1691640000000000000,
   1706880000000000000,
   1722120000000000000,
   1737360000000000200,
   1752600000000000000,
   1767840000000000000,
   1783080000000000000,
   1798320000000000000,
   1813560000000000200,
   1828800000000000000,
   1844040000000000000,
   1859280000000000000,
   1874520000000000000,
   1889760000000000200,
   1905000000000000000]
/-- `atm_data.alt`, aviary/subsystems/atmosphere/data/MIL_SPEC_210A_Hot.py:237-288 (part 3) -/
def hotAlt_2 : List ℤ :=
  [1920240000000000000,
   1935480000000000000,
   1950720000000000000,
   1965960000000000200,
   1981200000000000000,
   1996440000000000000,
   2011680000000000000,
   2023872000000000000,
   2026920000000000000,
   2042160000000000200,
   2057400000000000000,
   2072640000000000000,
   2087880000000000000,
   2103120000000000000,
   2118360000000000200,
   2133600000000000000,
   2148840000000000000,
   2164080000000000000,
   2179320000000000000,
   2194560000000000200,
   2209800000000000000,
   2225040000000000000,
   2240280000000000300,
   2255520000000000000,
   2270760000000000200,
   2286000000000000000,
   2301240000000000000,
   2316480000000000300,
   2331720000000000000,
   2346960000000000200,
   2362200000000000000,
   2377440000000000000,
   2392680000000000300,
   2407920000000000000,
   2423160000000000200,
   2438400000000000000,
   2453640000000000000,
   2468880000000000300,
   2484120000000000000,
   2499360000000000200,
   2514600000000000000,
   2529840000000000000,
   2545080000000000300,
   2560320000000000000,
   2575560000000000200,
   2590800000000000000,
   2606040000000000000,
   2621280000000000300,
   2636520000000000000,
   2651760000000000200,
   2667000000000000000,
   2682240000000000000,
   2697480000000000300,
   2712720000000000000,
   2727960000000000200,
   2743200000000000000,
   2758440000000000000,
   2773680000000000300,
   2788920000000000000,
   2804160000000000200,
   2819400000000000000,
   2834640000000000000,
   2849880000000000300,
   2865120000000000000]
/-- `atm_data.alt`, aviary/subsystems/atmosphere/data/MIL_SPEC_210A_Hot.py:237-288 (part 4) -/
def hotAlt_3 : List ℤ :=
  [2880360000000000200,
   2895600000000000000,
   2910840000000000000,
   2926080000000000300,
   2941320000000000000,
   2956560000000000200,
   2971800000000000000,
   2987040000000000000,
   3002280000000000300,
   3017520000000000000,
   3032760000000000200,
   3048000000000000000]
/-- `atm_data.alt`, aviary/subsystems/atmosphere/data/MIL_SPEC_210A_Hot.py:237-288 -/
def hotAlt : List ℤ :=
  hotAlt_0 ++ hotAlt_1 ++ hotAlt_2 ++ hotAlt_3
/-- `atm_data.akima_T`, aviary/subsystems/atmosphere/data/MIL_SPEC_210A_Hot.py:290-495 (part 1) -/
def hotTRows_0 : List IRow :=
  [⟨31259444444444443, -692621755613854770, 0, 0⟩,
   ⟨31259444444444443, -692621755613854770, -120656619720171610000, -746896323727106000⟩,
   ⟨31153888888888889, -692621755613891980, -489456098864847180000, 240500616240128170000⟩,
   ⟨31048333333333329, -692621755613873420, 3414809992080327700, -1493792647454211300⟩,
   ⟨30942777777777775, -692621755613873240, -569134998680054890, 0⟩,
   ⟨30837222222222221, -692621755613873680, -717594027781211880000000000000000, 313908148635700540000000000000000⟩,
   ⟨30726111111111106, -692621755613873850, 17643184959081689000, -6722066913543947200⟩,
   ⟨30620555555555552, -692621755613873500, -569134998680055340, -2240688971181322000⟩,
   ⟨30514999999999998, -692621755613874890, -597995023150313490000000000000000, 235431111476485270000000000000000⟩,
   ⟨30403888888888889, -710848643919507070, 478396018519487360000000000000000, -235431111476106620000000000000000⟩,
   ⟨30298333333333329, -729075532225086350, -357416779171074740000, 78424113991346284000⟩,
   ⟨30187222222222221, -729075532225140820, -474658588899165490000, 233778549326583950000⟩,
   ⟨30076111111111106, -729075532225122520, 717594027780260910000000000000000, -313908148635231040000000000000000⟩,
   ⟨29970555555555552, -729075532225085310, -245297184431103860000, 0⟩,
   ⟨29859444444444443, -729075532225159900, -125209699709612170000, 82905491933708922000⟩,
   ⟨29748333333333329, -729075532225140730, 375059964130155900000, -163570294896236040000⟩,
   ⟨29637222222222221, -729075532225140470, -486041288872766540000, 239753719916400780000⟩,
   ⟨29526111111111106, -729075532225121740, 1138269997360109000, -746896323727105290⟩,
   ⟨29414999999999998, -729075532225121480, -1707404996040163500, 746896323727105290⟩,
   ⟨29303888888888889, -729075532225121480, -226580971409785080000000000000000, 148675178090249120000000000000000⟩,
   ⟨29192777777777775, -694548827505220290, 25289657366730754000000000000000, -8297131681995684800000000000000⟩,
   ⟨29087222222222221, -692621755613873940, 1138269997360109000, 4481377942362631800⟩,
   ⟨28981666666666666, -692621755613870810, 717594027780456150000000000000000, -313908148635372980000000000000000⟩,
   ⟨28881666666666666, -692621755613872900, -734753283295950420000, 321165419202655240000⟩,
   ⟨28776111111111106, -692621755613872810, 12520969970961200000, -7468963237271052000⟩,
   ⟨28670555555555552, -692621755613874800, -15366644964361515000, 10456548532179535000⟩,
   ⟨28564999999999998, -692621755613872810, -569134998680054510, 746896323727105290⟩,
   ⟨28459444444444443, -692621755613872810, 0, 0⟩,
   ⟨28353888888888889, -692621755613872900, -257818154402065450000, 0⟩,
   ⟨28248333333333329, -692621755613951740, -717594027779172300000000000000000, 313908148634869920000000000000000⟩,
   ⟨28137222222222221, -692621755613908110, 545231328735493810000, -214359244909680450000⟩,
   ⟨28031666666666666, -692621755613891630, 239198009259727880000000000000000, -156954074317477150000000000000000⟩,
   ⟨27926111111111106, -728980352651726220, -1249075766370443300000000000000, 409801760619478230000000000000⟩,
   ⟨27814999999999998, -729075532225123730, 0, 0⟩,
   ⟨27703888888888889, -729075532225123730, 717594027779616740000000000000000, -313908148634954300000000000000000⟩,
   ⟨27598333333333329, -729075532225090680, -324976084246312060000, 70955150754075410000⟩,
   ⟨27487222222222221, -729075532225140210, -431404328999479990000, 212118555938496600000⟩,
   ⟨27376111111111106, -729075532225123730, 597995023150455290000000000000000, -235431111476569540000000000000000⟩,
   ⟨27270555555555552, -710848643919506470, -358797013890068750000000000000000, 156954074317627260000000000000000⟩,
   ⟨27159444444444443, -710848643919498230, 119599004630129870000000000000000, -35851023538901265000⟩,
   ⟨27053888888888889, -674394867308260050, 358797013890421500000000000000000, -156954074317768810000000000000000⟩,
   ⟨26953888888888889, -674394867308258840, -358797013890738630000000000000000, 156954074317908840000000000000000⟩,
   ⟨26848333333333329, -674394867308257890, 478396018520365820000000000000000, -235431111476534430000000000000000⟩,
   ⟨26748333333333329, -692621755613866650, -39839449907603696000, 8962755884725209000⟩,
   ⟨26642777777777775, -692621755613872900, -53498689875925276000, 26888267654175943000⟩,
   ⟨26537222222222221, -692621755613870810, 717594027780133860000000000000000, -313908148635170880000000000000000⟩,
   ⟨26437222222222221, -692621755613829350, -271477394370385170000, 0⟩,
   ⟨26331666666666666, -692621755613912190, -248711994423184530000, 162823398572509880000⟩,
   ⟨26226111111111106, -692621755613874540, 77402359820487180000, -34357230891446636000⟩,
   ⟨26120555555555552, -692621755613874980, 569134998680056170, 0⟩,
   ⟨26014999999999998, -692621755613874890, 0, 0⟩,
   ⟨25909444444444443, -692621755613874980, 80248034813887443000, -34357230891446636000⟩,
   ⟨25803888888888889, -692621755613874540, -495147448851648890000, 162823398572509880000⟩,
   ⟨25698333333333329, -692621755613912270, 817277858104555780000, -357016442741554180000⟩,
   ⟨25592777777777775, -692621755613912270, -597995023150229300000000000000000, 235431111476502310000000000000000⟩,
   ⟨25481666666666663, -710848643919507680, 358797013890402140000000000000000, -156954074317759810000000000000000⟩,
   ⟨25376111111111109, -710848643919506640, -478396018520472800000000000000000, 235431111476586710000000000000000⟩,
   ⟨25264999999999998, -692621755613893710, 442787028973078420000, -174026843428412390000⟩,
   ⟨25159444444444443, -692621755613880180, -239198009260462940000000000000000, 156954074317830820000000000000000⟩,
   ⟨25053888888888886, -656167979002626140, -2276539994720224700, 0⟩,
   ⟨24953888888888886, -656167979002626220, -1138269997360112300, 0⟩,
   ⟨24853888888888886, -656167979002626220, -1138269997360112300, 0⟩,
   ⟨24753888888888886, -656167979002626220, 153666449643613330000, -67220669135438266000⟩,
   ⟨24653888888888886, -656167979002626220, -1138269997360112300, 0⟩]
/-- `atm_data.akima_T`, aviary/subsystems/atmosphere/data/MIL_SPEC_210A_Hot.py:290-495 (part 2) -/
def hotTRows_1 : List IRow :=
  [⟨24553888888888886, -656167979002626220, -569134998680056170, 0⟩,
   ⟨24453888888888886, -656167979002626310, 0, 0⟩,
   ⟨24353888888888886, -656167979002626220, -717594027780487830000000000000000, 313908148635385290000000000000000⟩,
   ⟨24248333333333332, -656167979002626220, 118949214724130320000, -44813779423625511000⟩,
   ⟨24148333333333332, -656167979002620930, -173586174597417120000, 90374455170980262000⟩,
   ⟨24048333333333332, -656167979002610520, 1195990046300974300000000000000000, -470862222953170510000000000000000⟩,
   ⟨23959444444444443, -619714202391377470, 1138269997360112300, 0⟩,
   ⟨23864999999999998, -619714202391377470, 1138269997360112300, 0⟩,
   ⟨23770555555555552, -619714202391377470, 478396018520677700000000000000000, -156954074317813610000000000000000⟩,
   ⟨23681666666666663, -583260425780106690, 64867256748473011000000000000000, -42563816764104942000000000000000⟩,
   ⟨23592777777777775, -593146195708584360, -348661505023164820000000000000000, 114390257553492080000000000000000⟩,
   ⟨23498333333333332, -619714202391377470, -70003604837646908000, 46307572071080794000⟩,
   ⟨23403888888888886, -619714202391366630, 368799479144672020000, -177761325047047870000⟩,
   ⟨23309444444444443, -619714202391377470, 1707404996040168700, 0⟩,
   ⟨23214999999999998, -619714202391377560, 2276539994720224700, 0⟩,
   ⟨23120555555555552, -619714202391377470, -3662719516795965400000000000000000, 2575027781774485700000000000000000⟩,
   ⟨23037222222222221, -364537766112634420, 21527820833423960000000000000000000, -31390814863553097000000000000000000⟩,
   ⟨23037222222222221, 72907553222516003, 5051073113285498400, -2894223254442549600⟩,
   ⟨23048333333333332, 72907553222515515, -9390727478220815600, 4948188144691983300⟩,
   ⟨23059444444444443, 72907553222516090, 717594027780488510000000000000000, -313908148635385020000000000000000⟩,
   ⟨23076111111111109, 72907553222516090, 71141874835007021, -93362040465888705⟩,
   ⟨23087222222222221, 72907553222516101, -71141874835007021, 0⟩,
   ⟨23098333333333332, 72907553222516101, -71141874835007021, 0⟩,
   ⟨23109444444444443, 72907553222516101, -384237265983868390000, 168051672838595650000⟩,
   ⟨23120555555555552, 72907553222516101, -71141874835007021, 0⟩,
   ⟨23131666666666663, 72907553222516101, -71141874835007021, 0⟩,
   ⟨23142777777777775, 72907553222516101, 0, -93362040465888705⟩,
   ⟨23153888888888886, 72907553222516090, 597995023150377950000000000000000, -235431111476519680000000000000000⟩,
   ⟨23170555555555552, 91134441528144901, -358797013890344420000000000000000, 156954074317734470000000000000000⟩,
   ⟨23181666666666663, 91134441528144901, 478396018520512020000000000000000, -235431111476599880000000000000000⟩,
   ⟨23198333333333332, 72907553222534749, -183617178949153110000, 40145677400332146000⟩,
   ⟨23209444444444443, 72907553222506776, -244799191307259160000, 120437032200996430000⟩,
   ⟨23220555555555552, 72907553222516101, 597995023150775470000000000000000, -235431111476700270000000000000000⟩,
   ⟨23237222222222221, 91134441528140239, -358797013890283260000000000000000, 156954074317714380000000000000000⟩,
   ⟨23248333333333332, 91134441528144901, 358797013890187380000000000000000, -156954074317674310000000000000000⟩,
   ⟨23264999999999998, 91134441528140239, -358797013890241290000000000000000, 156954074317691490000000000000000⟩,
   ⟨23276111111111109, 91134441528140455, 318930679013536850000000000000000, -130795061931401550000000000000000⟩,
   ⟨23292777777777775, 97210070963350652, 159465339506870370000000000000000, -209272099090328070000000000000000⟩,
   ⟨23303888888888886, 0, 0, 0⟩,
   ⟨23303888888888886, 0, 0, 0⟩,
   ⟨23303888888888886, 0, 1913584074081465700000000000000000, -784770371588489300000000000000000⟩,
   ⟨23320555555555552, 36453776611279805, -40799865217876528000, -26748224593477114000⟩,
   ⟨23326111111111109, 36453776611248726, -60506164547173476000, 39678867198002700000⟩,
   ⟨23331666666666663, 36453776611257942, 185644722381950810000, -81224975205323168000⟩,
   ⟨23337222222222221, 36453776611257942, -189984376746883970000, 83092216014638964000⟩,
   ⟨23342777777777775, 36453776611257942, 186391712067718410000, -81738466427885564000⟩,
   ⟨23348333333333332, 36453776611257828, -180664791143500350000, 79311053375772450000⟩,
   ⟨23353888888888886, 36453776611258050, 227974137908777270000, -111334233255569620000⟩,
   ⟨23359444444444443, 36453776611249973, -10706852162668684000, 3501076517470909500⟩,
   ⟨23364999999999998, 36453776611249165, -5762491861635500300, 0⟩,
   ⟨23370555555555552, 36453776611247414, -717594027780476900000000000000000, 313908148635384960000000000000000⟩,
   ⟨23370555555555552, 36453776611248287, 367163216023466850000, -160629390621557680000⟩,
   ⟨23376111111111109, 36453776611248292, -62604849854805431000, 41032616784757108000⟩,
   ⟨23381666666666663, 36453776611257823, 195035449860174090000, -85006137844193684000⟩,
   ⟨23387222222222221, 36453776611258050, -192118632991934190000, 84025836419297825000⟩,
   ⟨23392777777777775, 36453776611258050, 193541470488638900000, -85006137844193684000⟩,
   ⟨23398333333333332, 36453776611257828, -189201816123698920000, 83045534994406028000⟩,
   ⟨23403888888888886, 36453776611258050, 228080850721029800000, -111427595296035510000⟩,
   ⟨23409444444444443, 36453776611249957, -7754464357015857900, 1633835708153091000⟩,
   ⟨23414999999999998, 36453776611248748, -11489412785853498000, 5555041407720245800⟩,
   ⟨23420555555555552, 36453776611249122, 310712138341896850000, -123471298516140730000⟩,
   ⟨23426111111111109, 36453776611257828, -189201816123698920000, 83045534994406028000⟩,
   ⟨23431666666666663, 36453776611258050, 176360707715980290000, -77443812566452832000⟩,
   ⟨23437222222222221, 36453776611257839, -172270049912971540000, 75669933797604592000⟩]
/-- `atm_data.akima_T`, aviary/subsystems/atmosphere/data/MIL_SPEC_210A_Hot.py:290-495 (part 3) -/
def hotTRows_2 : List IRow :=
  [⟨23442777777777775, 36453776611258050, 174973441156697700000, -76556873182026922000⟩,
   ⟨23448333333333332, 36453776611258050, -173657316472254190000, 75669933797604592000⟩,
   ⟨23453888888888886, 36453776611257839, 236084311639967980000, -115722249157466290000⟩,
   ⟨23459444444444443, 36453776611249165, -14406229654088751000, 5648403448186131900⟩,
   ⟨23464999999999998, 36453776611248737, 5513495299713110000, -1820559789084873100⟩,
   ⟨23470555555555552, 36453776611249160, 326647918304930840000, -137802371727648460000⟩,
   ⟨23476111111111109, 36453776611252716, -611283801442733760000000000000000, 244150782272012610000000000000000⟩,
   ⟨23476111111111109, 20252098117365866, 525199877358263450000000000000000, -260468107400098720000000000000000⟩,
   ⟨23481666666666663, 32165097009928051, -5698540808845218800000000000000000, 15233777801423481000000000000000000⟩,
   ⟨23481666666666663, 109361329833743660, 610824137333362990000, -234898893812170370000⟩,
   ⟨23498333333333332, 109361329833766100, 7541038732510834200, -4854826104226327600⟩,
   ⟨23514999999999998, 109361329833765020, -34859518669153025000, 16431719121996020000⟩,
   ⟨23531666666666663, 109361329833765840, 248427426923847460000, -81411699286256881000⟩,
   ⟨23548333333333332, 109361329833784770, -205626358838063010000000000000000, 134925432308347610000000000000000⟩,
   ⟨23564999999999998, 140698786920642120, 67143300844979252000000000000000, -22028642009503731000000000000000⟩,
   ⟨23587222222222221, 145815106445032200, 45530799894405030000, -22593613792745603000⟩,
   ⟨23609444444444443, 145815106445030440, -597995023150709820000000000000000, 235431111476658050000000000000000⟩,
   ⟨23626111111111109, 127588218139398720, 358797013890467570000000000000000, -156954074317793260000000000000000⟩,
   ⟨23648333333333332, 127588218139397870, -358797013890440850000000000000000, 156954074317777580000000000000000⟩,
   ⟨23664999999999998, 127588218139398520, 358797013890394730000000000000000, -156954074317757790000000000000000⟩,
   ⟨23687222222222221, 127588218139397650, -358797013890389610000000000000000, 156954074317757960000000000000000⟩,
   ⟨23703888888888886, 127588218139397650, 358797013890400410000000000000000, -156954074317757790000000000000000⟩,
   ⟨23726111111111109, 127588218139398520, -358797013890445090000000000000000, 156954074317777580000000000000000⟩,
   ⟨23742777777777775, 127588218139397870, 358797013890473120000000000000000, -156954074317793260000000000000000⟩,
   ⟨23764999999999998, 127588218139398720, -478396018520581480000000000000000, 235431111476658050000000000000000⟩,
   ⟨23781666666666663, 145815106445030440, 57055783617676312000, -22593613792745603000⟩,
   ⟨23803888888888886, 145815106445032200, 0, -7655687318202691600⟩,
   ⟨23826111111111109, 145815106445026980, -597995023150658740000000000000000, 235431111476639590000000000000000⟩,
   ⟨23842777777777775, 127588218139397870, 478396018520487630000000000000000, -235431111476596640000000000000000⟩,
   ⟨23864999999999998, 109361329833784770, -348595186691530280000, 137242199484853120000⟩,
   ⟨23881666666666663, 109361329833774150, 0, 45747399828286546000⟩,
   ⟨23898333333333332, 109361329833806020, 597995023149733360000000000000000, -235431111476280690000000000000000⟩,
   ⟨23920555555555552, 127588218139403160, -478396018520150510000000000000000, 235431111476436600000000000000000⟩,
   ⟨23937222222222221, 145815106445011820, 362538994159200080000, -142843921912813110000⟩,
   ⟨23959444444444443, 145815106445022900, -426851249010037050, -47614640637602109000⟩,
   ⟨23981666666666663, 145815106444989700, -717594027779657480000000000000000, 313908148635030070000000000000000⟩,
   ⟨23998333333333332, 145815106444993150, 122506308465880640000, -186724080931772940⟩,
   ⟨24020555555555552, 145815106445030470, -19350589955121679000, 12510513422428787000⟩,
   ⟨24042777777777775, 145815106445033390, 6971903733830771500, -2427413052113163800⟩,
   ⟨24064999999999998, 145815106445033940, -22907683696871986000, 0⟩,
   ⟨24087222222222221, 145815106445027000, -717594027780758880000000000000000, 313908148635512080000000000000000⟩,
   ⟨24103888888888886, 145815106445030470, -142283749670012350, 0⟩,
   ⟨24126111111111109, 145815106445030470, -142283749670012350, 0⟩,
   ⟨24148333333333332, 145815106445030470, -280441270599601000000, 118569791391681480000⟩,
   ⟨24170555555555552, 145815106445027650, 18212319957761581000, 186724080931772940⟩,
   ⟨24192777777777775, 145815106445033310, 30875573678393417000, -17738787688519278000⟩,
   ⟨24214999999999998, 145815106445030470, -142283749670012350, 0⟩,
   ⟨24237222222222221, 145815106445030470, -142283749670012350, 0⟩,
   ⟨24259444444444443, 145815106445030470, -280441270599601000000, 118569791391681480000⟩,
   ⟨24281666666666663, 145815106445027650, 36993774914203212000, -12137065260565242000⟩,
   ⟨24303888888888886, 145815106445030440, 23049967446542550000, -186724080931781850⟩,
   ⟨24326111111111109, 145815106445037380, 717594027780357810000000000000000, -313908148635329040000000000000000⟩,
   ⟨24353888888888886, 145815106445033910, -68011632342265907000, 29689128868151902000⟩,
   ⟨24376111111111109, 145815106445033910, 142283749670015730, -186724080931781850⟩,
   ⟨24398333333333332, 145815106445033940, -145413992162752620000, 186724080931772940⟩,
   ⟨24420555555555552, 145815106444989720, -597995023149764190000000000000000, 235431111476306300000000000000000⟩,
   ⟨24437222222222221, 127588218139397630, 358797013890370120000000000000000, -156954074317737810000000000000000⟩,
   ⟨24459444444444443, 127588218139403180, -478396018520518030000000000000000, 235431111476597200000000000000000⟩,
   ⟨24476111111111109, 145815106445011840, 362254426659860040000, -142657197831881340000⟩,
   ⟨24498333333333332, 145815106445022900, -569134998680049400, -47427916556670329000⟩,
   ⟨24520555555555552, 145815106444989720, -717594027779780140000000000000000, 313908148635110530000000000000000⟩,
   ⟨24537222222222221, 145815106445011800, 367234357898301840000, -160769433682256530000⟩,
   ⟨24559444444444443, 145815106445011820, -122506308465880640000, 80291354800662366000⟩,
   ⟨24581666666666663, 145815106445030470, 45388516144735020000, -14937926474542546000⟩]
/-- `atm_data.akima_T`, aviary/subsystems/atmosphere/data/MIL_SPEC_210A_Hot.py:290-495 (part 4) -/
def hotTRows_3 : List IRow :=
  [⟨24603888888888886, 145815106445033940, -68296199841605928000, 29689128868151902000⟩,
   ⟨24626111111111109, 145815106445033910, 717594027780528400000000000000000, -313908148635411160000000000000000⟩,
   ⟨24653888888888886, 145815106445030470, 0, -186724080931772940⟩,
   ⟨24676111111111109, 145815106445030440, 142283749670012350, -186724080931772940⟩,
   ⟨24698333333333332, 145815106445030470, -199339533287692060000, 65353428326123651000⟩,
   ⟨24720555555555552, 145815106445015290, 99456341019338633000, 0⟩,
   ⟨24742777777777775, 145815106445045650, 597995023150285970000000000000000, -235431111476508860000000000000000⟩,
   ⟨24770555555555552, 164041994750655710, -358797013890262850000000000000000, 156954074317699920000000000000000⟩,
   ⟨24792777777777775, 164041994750656530, 358797013890204490000000000000000, -156954074317674710000000000000000⟩,
   ⟨24820555555555552, 164041994750655490, -358797013890198940000000000000000, 156954074317675640000000000000000⟩,
   ⟨24842777777777775, 164041994750656340, 358797013890201520000000000000000, -156954074317671900000000000000000⟩,
   ⟨24870555555555552, 164041994750656340, -119599004630070110000000000000000, 0⟩,
   ⟨24892777777777775, 127588218139411530, 0, 0⟩]
/-- `atm_data.akima_T`, aviary/subsystems/atmosphere/data/MIL_SPEC_210A_Hot.py:290-495 -/
def hotTRows : List IRow :=
  hotTRows_0 ++ hotTRows_1 ++ hotTRows_2 ++ hotTRows_3
/-- `atm_data.akima_T`, aviary/subsystems/atmosphere/data/MIL_SPEC_210A_Hot.py:290-495, with the column exponents. -/
def hotT : CTab := ⟨14, 20, 38, 40, hotTRows⟩
/-- `atm_data.akima_P`, aviary/subsystems/atmosphere/data/MIL_SPEC_210A_Hot.py:497-702 (part 1) -/
def hotPRows_0 : List IRow :=
  [⟨1009678149999999900, -1107890419947494100, 0, 0⟩,
   ⟨1009678149999999900, -1107890419947494100, -61776189296727866000, 19885367722910472000⟩,
   ⟨992793899999999990, -1107890419947498900, -64107366251321373000, 0⟩,
   ⟨975909649999999970, -1107890419947518100, -4361773306879715400000000000000000, 1908037317095237500000000000000000⟩,
   ⟨955648549999999960, -1107890419947518300, 65272954728618136000, 0⟩,
   ⟨938764299999999930, -1107890419947499100, 50120304523760351000, -33652160761848497000⟩,
   ⟨921880050000000050, -1107890419947506700, -5827942386483757600, -1529643670993111600⟩,
   ⟨904995800000000020, -1107890419947509200, -4662353909187013300, 1529643670993116000⟩,
   ⟨888111549999999990, -1107890419947509400, 9324707818374013100, 0⟩,
   ⟨871227299999999960, -1107890419947506200, 4361773306879825100000000000000000, -1908037317095274900000000000000000⟩,
   ⟨857719899999999910, -1107890419947498200, -185328567890183800000, 73422896207669559000⟩,
   ⟨840835649999999880, -1107890419947503900, 0, 24474298735889786000⟩,
   ⟨823951399999999990, -1107890419947487000, 3634811089066290700000000000000000, -1431027987821384300000000000000000⟩,
   ⟨810443999999999940, -997101377952753860, -2907848871253366700000000000000000, 1431027987821530700000000000000000⟩,
   ⟨793559749999999910, -886312335958008110, 136373851843720150000, -53537528484759060000⟩,
   ⟨780052350000000010, -886312335958004200, 1165588477296751600, -18355724051917340000⟩,
   ⟨766544949999999950, -886312335958016280, -4361773306879806300000000000000000, 1908037317095288500000000000000000⟩,
   ⟨749660699999999920, -886312335958008110, 185328567890183520000, -81071114562634918000⟩,
   ⟨736153300000000020, -886312335958008290, -1165588477296751600, 0⟩,
   ⟨722645899999999970, -886312335958008290, -1165588477296751600, 0⟩,
   ⟨709138499999999910, -886312335958008110, 110730905343191730000, -42830022787807376000⟩,
   ⟨695631100000000010, -886312335958004200, -74597662546992105000, 30592873419862229000⟩,
   ⟨682123699999999950, -886312335958005090, 121221201638862170000, -52007884813765790000⟩,
   ⟨668616300000000050, -886312335958004380, -110730905343191410000, 36711448103834679000⟩,
   ⟨655108899999999920, -886312335958013090, 95578255138333628000, 0⟩,
   ⟨641601500000000010, -886312335957984490, 4361773306879419100000000000000000, -1908037317095113900000000000000000⟩,
   ⟨631470949999999940, -886312335957984490, -139870617275610200000, 30592873419862229000⟩,
   ⟨617963550000000030, -886312335958005800, -186494156367480240000, 91778620259586694000⟩,
   ⟨604456149999999910, -886312335957998700, 3634811089066709200000000000000000, -1431027987821557800000000000000000⟩,
   ⟨594325600000000050, -775523293963256320, -2180886653440059300000000000000000, 954018658547709690000000000000000⟩,
   ⟨580818199999999920, -775523293963252060, 2180886653439918400000000000000000, -954018658547652910000000000000000⟩,
   ⟨570687649999999920, -775523293963255610, -2907848871252988900000000000000000, 1431027987821341700000000000000000⟩,
   ⟨557180250000000010, -664734251968519980, 61776189296728014000, 0⟩,
   ⟨547049699999999940, -664734251968500890, 3496765431890265400, -2294465506489680900⟩,
   ⟨536919150000000010, -664734251968501510, -2913971193241870200, 764821835496551130⟩,
   ⟨526788600000000010, -664734251968501780, -25060152261880235000, 0⟩,
   ⟨516658050000000000, -664734251968509590, -4361773306879634200000000000000000, 1908037317095176000000000000000000⟩,
   ⟨503150650000000020, -664734251968523980, 88001930035905002000, 0⟩,
   ⟨493020099999999950, -664734251968496980, -582794238648374050, 0⟩,
   ⟨482889550000000020, -664734251968496980, -170758711923974610000, 74952539878662914000⟩,
   ⟨472759000000000010, -664734251968496980, 4361773306879771600000000000000000, -1908037317095268900000000000000000⟩,
   ⟨466005299999999990, -664734251968497870, -25060152261880082000, 0⟩,
   ⟨455874749999999990, -664734251968505680, -12238679011615929000, 8413040190462162600⟩,
   ⟨445744199999999980, -664734251968503730, 26225740739176830000, -8413040190462062500⟩,
   ⟨435613649999999980, -664734251968501780, -76346045262937457000, 33652160761848651000⟩,
   ⟨425483099999999980, -664734251968501780, 4361773306879950000000000000000000, -1908037317095344000000000000000000⟩,
   ⟨418729400000000020, -664734251968500980, -90333106990497976000, 35181804432841355000⟩,
   ⟨408598849999999950, -664734251968503730, 0, 11472327532448402000⟩,
   ⟨398468300000000020, -664734251968495380, 3634811089066497500000000000000000, -1431027987821458300000000000000000⟩,
   ⟨391714599999999990, -553945209973753630, -2907848871253267800000000000000000, 1431027987821481900000000000000000⟩,
   ⟨381584049999999990, -443156167979012760, 72849279831047187000, -16061258545427767000⟩,
   ⟨374830349999999960, -443156167979001750, 96743843615630096000, -48183775636282725000⟩,
   ⟨368076650000000010, -443156167979005390, -4361773306879936100000000000000000, 1908037317095340200000000000000000⟩,
   ⟨357946100000000010, -443156167979005480, 44292362137276426000, -16826080380924125000⟩,
   ⟨351192399999999980, -443156167979003970, -582794238648377520, -6118574683972482200⟩,
   ⟨344438699999999950, -443156167979008050, -4361773306879711300000000000000000, 1908037317095224000000000000000000⟩,
   ⟨334308150000000020, -443156167979020130, 81008399172124471000, 764821835496560270⟩,
   ⟨327554449999999960, -443156167978995350, 42543979421331054000, -27533586077875515000⟩,
   ⟨320800750000000010, -443156167979001750, -4662353909187020100, -2294465506489680900⟩,
   ⟨314047050000000020, -443156167979004860, -14569855966209438000, 7648218354965601500⟩,
   ⟨307293349999999990, -443156167979004230, 19232209875396457000, -7648218354965601500⟩,
   ⟨300539650000000000, -443156167979003520, -47789127569166952000, 22944655064896805000⟩,
   ⟨293785949999999980, -443156167979001840, 63524572012672390000, -24474298735889343000⟩,
   ⟨287032249999999990, -443156167978999260, -4079559670538642800, -3059287341986241100⟩]
/-- `atm_data.akima_P`, aviary/subsystems/atmosphere/data/MIL_SPEC_210A_Hot.py:497-702 (part 2) -/
def hotPRows_1 : List IRow :=
  [⟨280278550000000030, -443156167979002640, -94995460899685543000, 40535557281317690000⟩,
   ⟨273524849999999970, -443156167979003520, 37881625512144538000, -12237149367944964000⟩,
   ⟨266771150000000020, -443156167979000500, -95578255138333904000, 41300379116814252000⟩,
   ⟨260017449999999990, -443156167979000590, 4361773306879858400000000000000000, -1908037317095276300000000000000000⟩,
   ⟨256640599999999980, -443156167978995800, -31470888887012384000, 0⟩,
   ⟨249886900000000020, -443156167979005390, 0, 0⟩,
   ⟨243133200000000000, -443156167979005390, 15152650204857815000, 0⟩,
   ⟨236379500000000010, -443156167979000590, 3634811089066574500000000000000000, -1431027987821489200000000000000000⟩,
   ⟨233002649999999990, -332367125984251550, -2180886653439865000000000000000000, 954018658547613330000000000000000⟩,
   ⟨226248950000000000, -332367125984251550, 2907848871253274800000000000000000, -1431027987821499800000000000000000⟩,
   ⟨222872099999999990, -443156167979002990, -582794238648377520, 0⟩,
   ⟨216118400000000000, -443156167979002990, -582794238648377520, 0⟩,
   ⟨209364700000000010, -443156167979002990, 2907848871253299400000000000000000, -954018658547664290000000000000000⟩,
   ⟨205987850000000000, -221578083989501360, 5245148147835397500, -9177862025958723800⟩,
   ⟨202610999999999990, -221578083989506160, -3392490349795471800000000000000000, 1272024878063551800000000000000000⟩,
   ⟨195857300000000000, -369296806649168020, 894934548444454620000000000000000, -112928344998549580000000000000000⟩,
   ⟨192480450000000020, -201434621808635540, 21294852845036871000000000000000000, -48182760532711512000000000000000000⟩,
   ⟨192480450000000020, -246197871099443470, -4038678987851905500000000000000000, 1802035243923424100000000000000000⟩,
   ⟨185726749999999990, -221578083989500210, 66438543205914249000, -32504928008603033000⟩,
   ⟨182349900000000020, -221578083989502690, 0, 0⟩,
   ⟨178973050000000000, -221578083989502690, 0, 0⟩,
   ⟨175596199999999990, -221578083989502690, -4361773306879947200000000000000000, 1908037317095346200000000000000000⟩,
   ⟨168842500000000000, -221578083989501230, 18358018517423892000, -8030629272713883500⟩,
   ⟨165465650000000020, -221578083989501270, 582794238648370580, -382410917748270990⟩,
   ⟨162088799999999990, -221578083989501320, -1165588477296755000, -382410917748280140⟩,
   ⟨158711950000000000, -221578083989501720, -16609635801478759000, 6883396519469041400⟩,
   ⟨155335099999999980, -221578083989502120, 3496765431890265400, 382410917748280140⟩,
   ⟨151958249999999990, -221578083989500830, 10198899176346607000, -4588931012979361900⟩,
   ⟨148581400000000010, -221578083989500830, -7867722221753002200, 3059287341986167900⟩,
   ⟨145204549999999980, -221578083989500960, 15444047324182003000, -7265807437217322400⟩,
   ⟨141827700000000000, -221578083989501320, -25934343619852797000, 11089916614700123000⟩,
   ⟨138450849999999990, -221578083989501500, -582794238648377520, 382410917748280140⟩,
   ⟨135074000000000000, -221578083989501450, -874191357972566350, 382410917748280140⟩,
   ⟨131697150000000000, -221578083989501500, 18940812756072045000, -6500985601720607200⟩,
   ⟨128320299999999990, -221578083989500160, 874191357972566350, -1147232753244840500⟩,
   ⟨124943450000000010, -221578083989500700, -31470888887012384000, 12237149367944964000⟩,
   ⟨121566600000000000, -221578083989501890, 4953751028511209100, -1912054588741400400⟩,
   ⟨118189750000000000, -221578083989501500, -14278458846885250000, 4206520095231081300⟩,
   ⟨114812899999999990, -221578083989502920, -3180459702933252600000000000000000, 2235981230971080100000000000000000⟩,
   ⟨111436050000000000, 0, 0, 0⟩,
   ⟨111436050000000000, 0, 726962217813326840000000000000000, -477009329273837630000000000000000⟩,
   ⟨111436050000000000, -110789041994750750, -1453924435626654200000000000000000, 477009329273837500000000000000000⟩,
   ⟨108059200000000000, -221578083989501500, -291397119324188760, 0⟩,
   ⟨104682350000000010, -221578083989501500, -23603166665259290000, 10325094779203563000⟩,
   ⟨101305499999999990, -221578083989501500, 4361773306879901400000000000000000, -1908037317095300100000000000000000⟩,
   ⟨101305499999999990, -221578083989500300, -11947281892291738000, 2676876424237961000⟩,
   ⟨97928649999999998, -221578083989502120, -15444047324182003000, 7648218354965601500⟩,
   ⟨94551799999999985, -221578083989501500, 4361773306879900000000000000000000, -1908037317095299000000000000000000⟩,
   ⟨94551799999999985, -221578083989500070, -47497730449843333000, 18738134969666172000⟩,
   ⟨91174950000000008, -221578083989501500, -582794238648370580, 6500985601720607200⟩,
   ⟨87798099999999995, -221578083989497190, 4361773306879935400000000000000000, -1908037317095363500000000000000000⟩,
   ⟨87798099999999995, -221578083989498300, -5536545267159520500, 1147232753244813000⟩,
   ⟨84421250000000000, -221578083989499190, -6993530863780447000, 3441698259734439300⟩,
   ⟨81044399999999996, -221578083989498880, 3634811089066636300000000000000000, -1431027987821531200000000000000000⟩,
   ⟨81044399999999996, -110789041994749730, -2180886653439936100000000000000000, 954018658547645180000000000000000⟩,
   ⟨77667549999999992, -110789041994749420, 2180886653439980500000000000000000, -954018658547686520000000000000000⟩,
   ⟨77667549999999992, -110789041994749420, -2180886653439908700000000000000000, 954018658547630410000000000000000⟩,
   ⟨74290700000000006, -110789041994750750, 2180886653439954900000000000000000, -954018658547652500000000000000000⟩,
   ⟨74290700000000006, -110789041994750750, -2180886653440059300000000000000000, 954018658547718910000000000000000⟩,
   ⟨70913850000000002, -110789041994752370, 2180886653439986400000000000000000, -954018658547666590000000000000000⟩,
   ⟨70913850000000002, -110789041994752370, -2180886653440046800000000000000000, 954018658547717690000000000000000⟩,
   ⟨67536999999999998, -110789041994751060, 2180886653439960400000000000000000, -954018658547655340000000000000000⟩,
   ⟨67536999999999998, -110789041994751060, -2180886653439917400000000000000000, 954018658547638680000000000000000⟩,
   ⟨64160149999999994, -110789041994749590, 2180886653439984000000000000000000, -954018658547688010000000000000000⟩]
/-- `atm_data.akima_P`, aviary/subsystems/atmosphere/data/MIL_SPEC_210A_Hot.py:497-702 (part 3) -/
def hotPRows_2 : List IRow :=
  [⟨64160149999999994, -110789041994749590, -2180886653439925700000000000000000, 954018658547639890000000000000000⟩,
   ⟨60783299999999999, -110789041994749590, 2180886653439984000000000000000000, -954018658547688010000000000000000⟩,
   ⟨60783299999999999, -110789041994749590, -2907848871253247700000000000000000, 1431027987821466400000000000000000⟩,
   ⟨57406449999999995, 0, 0, 0⟩,
   ⟨57406449999999995, 0, 0, 0⟩,
   ⟨57406449999999995, 0, -4361773306879857700000000000000000, 1908037317095282500000000000000000⟩,
   ⟨54029600000000000, 0, 0, 0⟩,
   ⟨54029600000000000, 0, 0, 0⟩,
   ⟨54029600000000000, 0, -109044332672001930000000000000000000, 238504664636928040000000000000000000⟩,
   ⟨50652749999999996, 0, 0, 0⟩,
   ⟨50652749999999996, 0, 0, 0⟩,
   ⟨50652749999999996, 0, -4361773306879868800000000000000000, 1908037317095287700000000000000000⟩,
   ⟨47275899999999992, 0, 0, 0⟩,
   ⟨47275899999999992, 0, 0, 0⟩,
   ⟨47275899999999992, 0, -4361773306879857700000000000000000, 1908037317095282500000000000000000⟩,
   ⟨43899049999999997, 0, 0, 0⟩,
   ⟨43899049999999997, 0, 0, 0⟩,
   ⟨43899049999999997, 0, -4361773306880070000000000000000000, 1908037317095421000000000000000000⟩,
   ⟨40522199999999998, 0, 0, 0⟩,
   ⟨40522199999999998, 0, 0, 0⟩,
   ⟨40522199999999998, 0, 0, 0⟩,
   ⟨40522199999999998, 0, -4361773306879857700000000000000000, 1908037317095282500000000000000000⟩,
   ⟨37145350000000003, 0, 0, 0⟩,
   ⟨37145350000000003, 0, 0, 0⟩,
   ⟨37145350000000003, 0, -4361773306879868800000000000000000, 1908037317095287700000000000000000⟩,
   ⟨33768499999999999, 0, 0, 0⟩,
   ⟨33768499999999999, 0, 0, 0⟩,
   ⟨33768499999999999, 0, -581569774250645720000000000000000, 190803731709526010000000000000000⟩,
   ⟨33093129999999996, -44315616797900764, -36424639915524028, 0⟩,
   ⟨32417759999999998, -44315616797900775, 15079800925026590000, -6548786966439140900⟩,
   ⟨31742389999999996, -44315616797900770, -436177330688005890000000000000000, 190803731709542280000000000000000⟩,
   ⟨30729335000000001, -44315616797900304, 1966930555438250600, 0⟩,
   ⟨30053964999999998, -44315616797899715, 1493410236536449700, -1051630023807745300⟩,
   ⟨29378595000000000, -44315616797899954, -19596456274551928000, 8078430637432609800⟩,
   ⟨28703224999999998, -44315616797900309, 12165829731784736000, -5449355577912862300⟩,
   ⟨28027855000000000, -44315616797900392, -8814762859556814700, 4158718730512644900⟩,
   ⟨27352485000000001, -44315616797900181, 1602684156283019100, -286808188311203260⟩,
   ⟨26677114999999999, -44315616797899904, 2440450874340051700, -860424564933609830⟩,
   ⟨26001745000000001, -44315616797899715, -26626411778248065000, 11615731626604285000⟩,
   ⟨25326374999999998, -44315616797899715, 436177330687984210000000000000000, -190803731709527980000000000000000⟩,
   ⟨24988689999999997, -44315616797900009, -14934102365364852000, 6500985601720916300⟩,
   ⟨24313319999999999, -44315616797900015, 109273919746569480, -47801364718533874⟩,
   ⟨23637949999999996, -44315616797900009, 3897436470960978500, 0⟩,
   ⟨22962580000000003, -44315616797898821, 363481108906639610000000000000000, -143102798782144260000000000000000⟩,
   ⟨22624895000000001, -33236712598425050, -218088665343992190000000000000000, 95401865854763634000000000000000⟩,
   ⟨21949524999999999, -33236712598425194, 218088665343997480000000000000000, -95401865854768225000000000000000⟩,
   ⟨21611840000000002, -33236712598425061, -218088665343991410000000000000000, 95401865854763176000000000000000⟩,
   ⟨20936469999999999, -33236712598425294, 218088665343999040000000000000000, -95401865854766683000000000000000⟩,
   ⟨20598784999999998, -33236712598425194, -290784887125344200000000000000000, 143102798782158500000000000000000⟩,
   ⟨19923414999999998, -22157808398950538, 11127727494192325000, -4397725554105116400⟩,
   ⟨19585729999999999, -22157808398950199, 54636959873286042, -1481842306274620800⟩,
   ⟨19248044999999997, -22157808398951212, -436177330687960960000000000000000, 190803731709518590000000000000000⟩,
   ⟨18572675000000002, -22157808398950385, 7503475822597771100, -3274393483219570500⟩,
   ⟨18234990000000000, -22157808398950385, -18212319957762014, 0⟩,
   ⟨17897305000000001, -22157808398950382, 7485263502640009800, -3274393483219570500⟩,
   ⟨17559620000000000, -22157808398950388, -436177330688010400000000000000000, 190803731709543900000000000000000⟩,
   ⟨16884250000000000, -22157808398950152, 983465277719125280, 0⟩,
   ⟨16546564999999998, -22157808398949858, 637431198521655290, -430212282466804910⟩,
   ⟨16208879999999999, -22157808398949960, -9962139016895821700, 4063116001075573200⟩,
   ⟨15871194999999998, -22157808398950163, 8960461419218698200, -3919711906919778100⟩,
   ⟨15533510000000001, -22157808398950160, -8650851979936956800, 4063116001075573200⟩,
   ⟨15195825000000000, -22157808398949960, 1857656635691681200, -812623200215075900⟩,
   ⟨14858140000000001, -22157808398949941, -218547839493138970, -119503411796334700⟩,
   ⟨14520454999999999, -22157808398950099, -7904146861668714700, 3322194847938262500⟩]
/-- `atm_data.akima_P`, aviary/subsystems/atmosphere/data/MIL_SPEC_210A_Hot.py:497-702 (part 4) -/
def hotPRows_3 : List IRow :=
  [⟨14182769999999998, -22157808398950196, 6356099665258791200, -2724677788956431100⟩,
   ⟨13845084999999999, -22157808398950155, -5736880786695034800, 2772479153675096800⟩,
   ⟨13507400000000000, -22157808398949971, 1948718235480489200, -812623200215075900⟩,
   ⟨13169715000000001, -22157808398949932, -928828317845840580, 310708870670470220⟩,
   ⟨12832030000000000, -22157808398950005, -10399234695882110000, 4541129648260935100⟩,
   ⟨12494344999999998, -22157808398950005, 436177330687988020000000000000000, -190803731709529270000000000000000⟩,
   ⟨12494344999999998, -22157808398950005, -7485263502640187300, 3274393483219726500⟩,
   ⟨12156659999999999, -22157808398950005, -582794238648370580, 406311600107537950⟩,
   ⟨11818974999999998, -22157808398949913, 2695423353748714100, -884325247292876790⟩,
   ⟨11481290000000001, -22157808398949710, -16208964762408193000, 7098502660702619200⟩,
   ⟨11143605000000000, -22157808398949708, 363481108906654270000000000000000, -143102798782146640000000000000000⟩,
   ⟨11143605000000000, -11078904199475230, -72696221781333805000000000000000, -167304776514876540⟩,
   ⟨10805920000000001, -33236712598425577, 0, 0⟩]
/-- `atm_data.akima_P`, aviary/subsystems/atmosphere/data/MIL_SPEC_210A_Hot.py:497-702 -/
def hotPRows : List IRow :=
  hotPRows_0 ++ hotPRows_1 ++ hotPRows_2 ++ hotPRows_3
/-- `atm_data.akima_P`, aviary/subsystems/atmosphere/data/MIL_SPEC_210A_Hot.py:497-702, with the column exponents. -/
def hotP : CTab := ⟨13, 17, 35, 37, hotPRows⟩
/-- `atm_data.akima_rho`, aviary/subsystems/atmosphere/data/MIL_SPEC_210A_Hot.py:704-909 (part 1) -/
def hotrhoRows_0 : List IRow :=
  [⟨1128678734237216400, -101452602763703470, 0, 0⟩,
   ⟨1128678734237216400, -101452602763703470, 0, -116702550582360310⟩,
   ⟨1113217357576028000, -101452602763703480, 88927343543758565, -116702550582360310⟩,
   ⟨1097755980914839600, -101452602763703470, 788211038492804980000000000, -64649855723652432000000000⟩,
   ⟨1082294620272101500, -101452407563239960, 10640848988706156000000000000, -4654789585611499700000000000⟩,
   ⟨1066833355740065300, -101452407563241110, -492631895545373280000000000, -64649852572683615000000000⟩,
   ⟨1051371995097327300, -101452602763701680, 1689619527331411900, -2334051011647203700⟩,
   ⟨1035910618436139100, -101452602763702760, -12183046065494934000, 4551399472712060400⟩,
   ⟨1020449241774950700, -101452602763703310, 1003177682710911500000000000, -205704084855087620000000000⟩,
   ⟨1004987881132212600, -101452440324156790, 12121730309880288000000000000, -5485442262530030900000000000⟩,
   ⟨989526616600176270, -101452567727722790, -6666951668704531300000000000, 2866143580952699200000000000⟩,
   ⟨974065191883637050, -101452602763703420, -88927343543758518, 0⟩,
   ⟨958603815222448640, -101452602763703400, -444636717718792540, 116702550582360200⟩,
   ⟨943142438561260230, -101452602763703400, 665698113899470080000000000000000, -291205317233223280000000000000000⟩,
   ⟨932834886157368760, -101451761910625970, -2758635726402179800000000000, -22504336341549495000000⟩,
   ⟨917373573569981500, -101452602758475760, -102892582501213890000000, 45009956411155264000000⟩,
   ⟨901912196908793210, -101452602758475690, 2758738621830352200000000000, -22504569746650594000000⟩,
   ⟨886450884321406060, -101451761910624330, 554733197802241520000000000000000, -218399123040347960000000000000000⟩,
   ⟨876143267843713210, -84543651698868949, -332852850150475760000000000000000, 145604808187541640000000000000000⟩,
   ⟨860681891182524920, -84543730530437609, 332858195279710970000000000000000, -145607297240727350000000000000000⟩,
   ⟨850374386833984140, -84543756808035626, -332849918972734260000000000000000, 145603789945815680000000000000000⟩,
   ⟨834913026191246190, -84543651699767427, 332840435890972880000000000000000, -145599603900915910000000000000000⟩,
   ⟨824605393695103000, -84543730529131064, -332843367006016840000000000000000, 145600735256505960000000000000000⟩,
   ⟨809144081107715850, -84543756805830617, 332850953551164060000000000000000, -145603789966913250000000000000000⟩,
   ⟨798836528703824160, -84543546589293880, -332854746815165900000000000000000, 145605600162158230000000000000000⟩,
   ⟨783375152042635860, -84543651697888966, 332857160728088290000000000000000, -145606957819674530000000000000000⟩,
   ⟨773067647694095190, -84543756807463886, -443794489682323960000000000000000, 218401612138188850000000000000000⟩,
   ⟨757606271032906790, -67636014448596305, 7241291270888669700000000000, -1583798386051537400000000000⟩,
   ⟨747298654555213940, -67634910850653050, 9655645211478204200000000000, -4751788980364486900000000000⟩,
   ⟨736991150206673270, -67635278727305422, -665686389489614480000000000000000, 291199886805690480000000000000000⟩,
   ⟨721529789563935210, -67636329754455188, 6206602456911062100000000000, 151900273243102090000000⟩,
   ⟨711222157067792020, -67634437876186302, 289382737138233790000000, -126588540344741740000000⟩,
   ⟨700914668737701580, -67634437876185895, -3448251796090269600000000000, -49227819994303213000000⟩,
   ⟨690607100315359770, -67635488937634018, -665687768753947760000000000000000, 291201244359848860000000000000000⟩,
   ⟨675145723654171360, -67636014457741700, 4827537508143839100000000000, 68919274759165305000000⟩,
   ⟨664838107176478510, -67634542976288168, 1810512247636932400000000000, -1187970624784119700000000000⟩,
   ⟨654530602827937740, -67634818877773637, -172421163436433630000000000, -56568623174682747000000000⟩,
   ⟨644223050424046150, -67634910847222282, -172421163436434670000000000, -113137247516392360000000000⟩,
   ⟨633915482001704330, -67635042232149661, -4655371423366062400000000000, 2036470436972737700000000000⟩,
   ⟨623607865524011480, -67635042232151084, 517263490665013400000000000, 1983943359900135000⟩,
   ⟨613300297101669440, -67634884570237733, 1034526979818261900000000000, -565686229529485700000000000⟩,
   ⟨602992744697777860, -67634963401192369, -11115917942969780000, 2450753562229549300⟩,
   ⟨592685176275435930, -67634963401194077, -14850866371807716000, 7352260686688735300⟩,
   ⟨582377607853093890, -67634963401193507, 1724211662554304300000000000, -678823490700068400000000000⟩,
   ⟨572070055449202420, -67634910847223055, -804632112221471650000000000, 301699330016951870000000000⟩,
   ⟨561762487026860380, -67634945883203912, 1149485151815708300000000000, -377131190844771720000000000⟩,
   ⟨551454934622968800, -67634858294885424, -10345237695233683000000000000, 4525475807188821700000000000⟩,
   ⟨541147302126825600, -67634858294885424, 665701562286270440000000000000000, -291208032496182010000000000000000⟩,
   ⟨535993557961780390, -67634858294885424, -2069030386865212300000000000, 905089533784029730000000000⟩,
   ⟨525685989539438460, -67634858293578703, 344846615216157050000000000, -226275900131493720000000000⟩,
   ⟨515378437135546870, -67634910847222865, -689686803119632150000000000, 226275901181816650000000000⟩,
   ⟨505070868713204950, -67634963400867230, 689688945557188660000000000, -4219730823956954000000⟩,
   ⟨494763316309313310, -67634753186616818, 665693286051100160000000000000000, -291204864642019690000000000000000⟩,
   ⟨489609508070466880, -67635068508482076, -1724219141166041700000000000, 678825589595440690000000000⟩,
   ⟨479301907611224320, -67635121063269529, 4287276159588154700000, 226272383416834490000000000⟩,
   ⟨468994323170432100, -67634963401520638, 554751819146484070000000000000000, -218406363774912380000000000000000⟩,
   ⟨463840562986936600, -50726222550936171, -332851470811189320000000000000000, 145604355652627340000000000000000⟩,
   ⟨453532978546144330, -50726196273909948, 443798972453071960000000000000000, -218404892991934420000000000000000⟩,
   ⟨448379202344198540, -67634858293905752, -1034519481108944900000000000, 226272383533537030000000000⟩,
   ⟨438071633921856610, -67635015955001330, -1379369311493207700000000000, 678822776830574600000000000⟩,
   ⟨427764049481064390, -67634963401520584, 554751646725044430000000000000000, -218406250637486420000000000000000⟩,
   ⟨422610289297568830, -50726196273909955, -332851815654038590000000000000000, 145604468790043470000000000000000⟩,
   ⟨412302704856776670, -50726196273909948, 332851988075473370000000000000000, -145604581927465390000000000000000⟩,
   ⟨407148944673281110, -50726222550936083, -443800696664174070000000000000000, 218405684952487470000000000000000⟩]
/-- `atm_data.akima_rho`, aviary/subsystems/atmosphere/data/MIL_SPEC_210A_Hot.py:704-909 (part 2) -/
def hotrhoRows_1 : List IRow :=
  [⟨396841360232488890, -33817534253914185, 1034518945099381700000000000, -226272031850400870000000000⟩,
   ⟨391687584030543100, -33817376592736919, 1379374670343857000000000000, -678826644761559850000000000⟩,
   ⟨386533823847047600, -33817429147279390, -554751646712197480000000000000000, 218406250633273180000000000000000⟩,
   ⟨376226239406255330, -50726196273909955, 332846125753221870000000000000000, -145602092906281300000000000000000⟩,
   ⟨371072431167408900, -50726275104498666, -443791041099344730000000000000000, 218400933199724780000000000000000⟩,
   ⟨360764894781967600, -33817954683394193, 3103552015391661400000000000, -678817151242475070000000000⟩,
   ⟨355611086543121180, -33817481702067047, 4138114369840230000000000000, -2036468332650721000000000000⟩,
   ⟨350457326359625680, -33817639360549338, -665698113860863800000000000000000, 291206674846417220000000000000000⟩,
   ⟨340149741918833400, -33817534253913365, 1034518941008711700000000000, -226272030975126320000000000⟩,
   ⟨334995965716887610, -33817376592736716, 1379372521370136600000000000, -678825235578261570000000000⟩,
   ⟨329842205533392110, -33817429146952293, -665700182886959180000000000000000, 291207127386957940000000000000000⟩,
   ⟨319534621092599840, -33817639361530521, 689671801654803950000000000, 4219614121406422200000⟩,
   ⟨314380828872203700, -33817429146625244, 2534429290997095100, -1633835708153013300⟩,
   ⟨309227052670257960, -33817429146625623, -9915398805129103600, 3267671416306104800⟩,
   ⟨304073276468312110, -33817429146626369, -2666784632058431400000000000, 844760709090652400000000000⟩,
   ⟨298919468229465690, -33817653376297624, -77497878697156507000000000000000, 6690710139164069900000000000000⟩,
   ⟨293765708045970190, -49731117021713881, -12269728988324831000000000000000000, 27407640358455931000000000000000000⟩,
   ⟨288611931844024390, -33817863591833032, 1839147617833523400000000000, -241356034674101840000000000⟩,
   ⟨283458123605177970, -33817471189959180, 1931110526395495000000000000, -1086112620897021400000000000⟩,
   ⟨278304347403232180, -33817639361202699, -665696044796171040000000000000000, 291205769744219180000000000000000⟩,
   ⟨267996778980890190, -33817534254241221, 2069047550598410800000000000, -905095166490995450000000000⟩,
   ⟨262843002778944460, -33817534254241214, -689688939154423990000000000, 452550390729581480000000000⟩,
   ⟨257689210558548320, -33817429146626958, 7647751544763255200, -2509104837520759000⟩,
   ⟨252535434356602470, -33817429146626375, 11471627317144746000, -5018209675041398100⟩,
   ⟨247381658154656650, -33817429146626375, -665702941625578950000000000000000, 291208485032512920000000000000000⟩,
   ⟨237074057695414090, -33817534254241221, 2069045399801679900000000000, -905093756840887070000000000⟩,
   ⟨231920281493468300, -33817534253914544, -344850903781763090000000000, 226277307505902470000000000⟩,
   ⟨226766489273072160, -33817481700596889, 3103580957240254300000000000, -1357646963077852600000000000⟩,
   ⟨221612729089576690, -33817481700597018, -3103580945946444800000000000, 1357646958176313300000000000⟩,
   ⟨216458920850730260, -33817481700596882, 1149474421442263100000000000, -527973815830235120000000000⟩,
   ⟨211305144648784420, -33817499218587189, -804632094658321230000000000, 377124153856025450000000000⟩,
   ⟨206151352428388330, -33817481700597011, 1034526979684870800000000000, -452548984697252080000000000⟩,
   ⟨200997576226442490, -33817481700596808, -1034526985820857600000000000, 452548987556464620000000000⟩,
   ⟨195843784006046380, -33817481700596903, 1034526993290742200000000000, -452548990824125210000000000⟩,
   ⟨190690007804100590, -33817481700596808, -689686803653196150000000000, 226275901298519190000000000⟩,
   ⟨185536215583704450, -33817534254241221, 689682514465098690000000000, -58351275291180441⟩,
   ⟨180382439381758660, -33817324039010819, 621315664758732680000000000000000, -262084785471907470000000000000000⟩,
   ⟨180382439381758660, -27053859231208983, -64104959306855672000000000000000, 12942637325743448000000000000000⟩,
   ⟨175228663179812840, -37574973179095831, -146394348521270690000000000000000, 88475672678468109000000000000000⟩,
   ⟨170074870959416700, -33817408124724241, 3328474844419617800000000000000000, -7280117543320883700000000000000000⟩,
   ⟨170074870959416700, -33817097008466057, -2048328812884840700000000000, 366554604228060370000000000⟩,
   ⟨164921110775921200, -33817465933810270, -3724298011790423100000000000, 1832821403625371100000000000⟩,
   ⟨159767307342609880, -33817324039742940, 665695424080707160000000000000000, -291205362451678300000000000000000⟩,
   ⟨159767307342609880, -33817334550413649, -758645572763724860000000000, -928310438607389700000⟩,
   ⟨154613527936974000, -33817565786231036, -14147762330078817000000, 6188852959933032900000⟩,
   ⟨149459730911042810, -33817565786231029, 1379376596821364000000000000, -7876663597730574200000⟩,
   ⟨144305965922012200, -33817145357732569, 665693906785960450000000000000000, -291205136178311890000000000000000⟩,
   ⟨144305965922012200, -33817460678715002, -1551794758871008100000000000, 610942679232839250000000000⟩,
   ⟨139152170497926000, -33817507977516277, 868197655017727210000, 203646188314266250000000000⟩,
   ⟨133998389490445100, -33817366082126816, 554747129289746280000000000000000, -218404463068723530000000000000000⟩,
   ⟨133998389490445100, -16908730339504509, -332849022431197070000000000000000, 145603246907787670000000000000000⟩,
   ⟨128844608482964200, -16908730339504309, 443798075860449100000000000000000, -218404463068712570000000000000000⟩,
   ⟨128844608482964200, -33817366082124492, -931071256154702480000000000, 203646191581927980000000000⟩,
   ⟨123690827475483290, -33817507977516230, -1241432489466645000000000000, 610940916732598180000000000⟩,
   ⟨118537032051397110, -33817460679125820, 554748594867625850000000000000000, -218405017440549680000000000000000⟩,
   ⟨118537032051397110, -16908764499575355, -332849332789469780000000000000000, 145603416613730160000000000000000⟩,
   ⟨113383244636536080, -16908740850291926, 332849229336452050000000000000000, -145603337417519200000000000000000⟩,
   ⟨113383244636536080, -16908740850291926, -332848798283815010000000000000000, 145603145084324740000000000000000⟩,
   ⟨108229463629055190, -16908743477986612, 332849281062733330000000000000000, -145603360044942280000000000000000⟩,
   ⟨108229463629055190, -16908743477986612, -332849798326621700000000000000000, 145603586319605590000000000000000⟩,
   ⟨103075674612349120, -16908743477986635, 332849281062733810000000000000000, -145603360044942490000000000000000⟩,
   ⟨103075674612349120, -16908743477986635, -332848781041725630000000000000000, 145603145084325480000000000000000⟩,
   ⟨97921893604868221, -16908740850291926, 332849229336452050000000000000000, -145603337417519200000000000000000⟩,
   ⟨97921893604868221, -16908740850291922, -332849729358273060000000000000000, 145603575005973380000000000000000⟩]
/-- `atm_data.akima_rho`, aviary/subsystems/atmosphere/data/MIL_SPEC_210A_Hot.py:704-909 (part 3) -/
def hotrhoRows_2 : List IRow :=
  [⟨92768106190007207, -16908727711772892, 332848970704187660000000000000000, -145603224280045680000000000000000⟩,
   ⟨92768106190007207, -16908727711772892, -443797696532611240000000000000000, 218404429126560670000000000000000⟩,
   ⟨87614333191751451, 0, 0, 0⟩,
   ⟨87614333191751451, 0, 0, 0⟩,
   ⟨87614333191751451, 0, -554748284508146590000000000000000, 218404813793101500000000000000000⟩,
   ⟨82460552184270536, -16908743477987015, 332849281062733330000000000000000, -145603360044938830000000000000000⟩,
   ⟨82460552184270536, -16908743477987015, -443799558680881160000000000000000, 218405266342087410000000000000000⟩,
   ⟨77306763167564491, 0, 0, 0⟩,
   ⟨77306763167564491, 0, 0, 0⟩,
   ⟨77306763167564491, 0, 0, 0⟩,
   ⟨77306763167564491, 0, -665698044862393610000000000000000, 291206493815574380000000000000000⟩,
   ⟨72152982160083576, 0, 0, 0⟩,
   ⟨72152982160083576, 0, 0, 0⟩,
   ⟨72152982160083576, 0, -665698872483948220000000000000000, 291206855854742790000000000000000⟩,
   ⟨66999194745222548, 0, 0, 0⟩,
   ⟨66999194745222548, 0, 0, 0⟩,
   ⟨66999194745222548, 0, -665698044862360150000000000000000, 291206493815552830000000000000000⟩,
   ⟨61845413737741647, 0, 0, 0⟩,
   ⟨61845413737741647, 0, 0, 0⟩,
   ⟨61845413737741647, 0, 0, 0⟩,
   ⟨61845413737741647, 0, -665699493200170300000000000000000, 291207127384155610000000000000000⟩,
   ⟨56691621517345532, 0, 0, 0⟩,
   ⟨56691621517345532, 0, 0, 0⟩,
   ⟨56691621517345532, 0, -665698458673186690000000000000000, 291206674835168970000000000000000⟩,
   ⟨51537837306174561, 0, 0, 0⟩,
   ⟨51537837306174561, 0, 0, 0⟩,
   ⟨51537837306174561, 0, 0, 0⟩,
   ⟨51537837306174561, 0, -665698458673153230000000000000000, 291206674835147420000000000000000⟩,
   ⟨46384053095003604, 0, 0, 0⟩,
   ⟨46384053095003604, 0, 0, 0⟩,
   ⟨46384053095003604, 0, 0, 0⟩,
   ⟨46384053095003604, 0, 0, 0⟩,
   ⟨46384053095003604, 0, -665697631051566860000000000000000, 291206312795958250000000000000000⟩,
   ⟨41230275291212759, 0, 0, 0⟩,
   ⟨41230275291212759, 0, 0, 0⟩,
   ⟨41230275291212759, 0, 0, 0⟩,
   ⟨41230275291212759, 0, 0, 0⟩,
   ⟨41230275291212759, 0, -665698458673155030000000000000000, 291206674835148160000000000000000⟩,
   ⟨36076491080041788, 0, 0, 0⟩,
   ⟨36076491080041788, 0, 0, 0⟩,
   ⟨36076491080041788, 0, 0, 0⟩,
   ⟨36076491080041788, 0, 0, 0⟩,
   ⟨36076491080041788, 0, -665698458673154190000000000000000, 291206674835147830000000000000000⟩,
   ⟨30922706868870824, 0, 0, 0⟩,
   ⟨30922706868870824, 0, 0, 0⟩,
   ⟨30922706868870824, 0, 0, 0⟩,
   ⟨30922706868870824, 0, 0, 0⟩,
   ⟨30922706868870824, 0, 0, 0⟩,
   ⟨30922706868870824, 0, 0, 0⟩,
   ⟨30922706868870824, 0, -665698872483948220000000000000000, 291206855854742790000000000000000⟩,
   ⟨25768919454009796, 0, 0, 0⟩,
   ⟨25768919454009796, 0, 0, 0⟩,
   ⟨25768919454009796, 0, 0, 0⟩,
   ⟨25768919454009796, 0, 0, 0⟩,
   ⟨25768919454009796, 0, 0, 0⟩,
   ⟨25768919454009796, 0, 0, 0⟩,
   ⟨25768919454009796, 0, 0, 0⟩,
   ⟨25768919454009796, 0, 0, 0⟩,
   ⟨25768919454009796, 0, -665698044862391700000000000000000, 291206493815573590000000000000000⟩,
   ⟨20615138446528895, 0, 0, 0⟩,
   ⟨20615138446528895, 0, 0, 0⟩,
   ⟨20615138446528895, 0, 0, 0⟩,
   ⟨20615138446528895, 0, 0, 0⟩,
   ⟨20615138446528895, 0, 0, 0⟩]
/-- `atm_data.akima_rho`, aviary/subsystems/atmosphere/data/MIL_SPEC_210A_Hot.py:704-909 (part 4) -/
def hotrhoRows_3 : List IRow :=
  [⟨20615138446528895, 0, 0, 0⟩,
   ⟨20615138446528895, 0, 0, 0⟩,
   ⟨20615138446528895, 0, 0, 0⟩,
   ⟨20615138446528895, 0, 0, 0⟩,
   ⟨20615138446528895, 0, -665698562125884880000000000000000, 291206720090067500000000000000000⟩,
   ⟨15461353434435412, 0, 0, 0⟩,
   ⟨15461353434435412, 0, 0, 0⟩,
   ⟨15461353434435412, 0, 0, 0⟩,
   ⟨15461353434435412, 0, 0, 0⟩,
   ⟨15461353434435412, 0, 0, 0⟩,
   ⟨15461353434435412, 0, 0, 0⟩,
   ⟨15461353434435412, 0, 0, 0⟩,
   ⟨15461353434435412, 0, 0, 0⟩]
/-- `atm_data.akima_rho`, aviary/subsystems/atmosphere/data/MIL_SPEC_210A_Hot.py:704-909 -/
def hotrhoRows : List IRow :=
  hotrhoRows_0 ++ hotrhoRows_1 ++ hotrhoRows_2 ++ hotrhoRows_3
/-- `atm_data.akima_rho`, aviary/subsystems/atmosphere/data/MIL_SPEC_210A_Hot.py:704-909, with the column exponents. -/
def hotrho : CTab := ⟨18, 21, 39, 41, hotrhoRows⟩
/-- `atm_data.akima_dT`, aviary/subsystems/atmosphere/data/MIL_SPEC_210A_Hot.py:911-1116 (part 1) -/
def hotdTRows_0 : List IRow :=
  [⟨-692621755613854770000000000000000, -42770495150806125000000000000000000, 0, 0⟩,
   ⟨-692621755613854770000000000000000, -42770495150806125000000000000000000, 593288436352621120000000000000000, 39852191866056537000000000000000⟩,
   ⟨-692621755613892060000000000000000, 3080859701871224100000000000000000, 1972109158976773900000000000000000, -90473800697122909000000000000000⟩,
   ⟨-692621755613873590000000000000000, 151063429107016060000000000000000, 2409400048612351900000000000000, -318420952045734440000000000000⟩,
   ⟨-692621755613873420000000000000000, 2634884253148401800000000000000, 2143869077364842400000000000000, -152018487197786450000000000000⟩,
   ⟨-692621755613873420000000000000000, -37942333245336998000000000000000, -38926083178029815000000000000000, 1492344455201827400000000000000⟩,
   ⟨-692621755613873850000000000000000, -184584323896234130000000000000000, 83975370451487377000000000000000, -2755097455757700200000000000000⟩,
   ⟨-692621755613873160000000000000000, 455307998943931000000000000000000, 38634326663341236000000000000000000000000000, -2535060804689027100000000000000000000000000⟩,
   ⟨-692621755613875240000000000000000, -588787138354328300000000000000000000000000000, -1492272089851418800000000000000000000000000000, 48959058066029257000000000000000000000000000⟩,
   ⟨-710848643919507590000000000000000, -11959900462995765000000000000000000000000000000, -334016564283086650000000000000000000000000000, 21917097393979035000000000000000000000000000⟩,
   ⟨-729075532225086350000000000000000, -6869488023268762000000000000000000000000000000, 901507614594410540000000000000000000000000000, -29577021476092412000000000000000000000000000⟩,
   ⟨-729075532225140640000000000000000, 11838007972494765000000000000000000, -326384567849156810000000000000000, 21416310226539503000000000000000⟩,
   ⟨-729075532225122600000000000000000, 16812108786667026000000000000000000, 1832923429393750700000000000000000, -87041902643949737000000000000000⟩,
   ⟨-729075532225085220000000000000000, 12031184692036233000000000000000000, -11486311075349682000000000000000000, 490420316537345560000000000000000⟩,
   ⟨-729075532225160070000000000000000, 3639960245990197800000000000000000, 1938011008720784300000000000000000, -86967961646851118000000000000000⟩,
   ⟨-729075532225140300000000000000000, 2113625644830671700000000000000000, -699142748707987270000000000000000, 36530112881606654000000000000000⟩,
   ⟨-729075532225140380000000000000000, 6256943701044371000000000000000000, 1592242283916305400000000000000000, -78242807281964841000000000000000⟩,
   ⟨-729075532225121560000000000000000, 271028605098299050000000000000000, -65443911360953119000000000000000, 2147109952787786700000000000000⟩,
   ⟨-729075532225121910000000000000000, -227653999471737460000000000000000, 31628398376954319000000000000000, 130048306479445990000000000000⟩,
   ⟨-729075532225121480000000000000000, 826993705698772550000000000000000, 4303411198778499400000000000000000000000000000, -184820171776855660000000000000000000000000000⟩,
   ⟨-694544592182382360000000000000000, 2390304753328730100000000000000000000000000000, -65321401005740720000000000000000000000000000, -573082718888417120000000000000000000000000⟩,
   ⟨-692621755613873590000000000000000, 2263675026691124900000000000000000, 210819286657625840000000000000000, -14758074483268338000000000000000⟩,
   ⟨-692621755613870470000000000000000, -1593577996299880800000000000000000, -82855698846020813000000000000000, 5436725646045963400000000000000⟩,
   ⟨-692621755613872900000000000000000, -330857145899338370000000000000000, 45708448783445650000000000000000, -2064804825746861000000000000000⟩,
   ⟨-692621755613873070000000000000000, -376363466869068000000000000000000, -87674037512308211000000000000000, 4187765223926250800000000000000⟩,
   ⟨-692621755613874200000000000000000, -130747229426499000000000000000000, 283416875273746360000000000000000, -12397938550907570000000000000000⟩,
   ⟨-692621755613872200000000000000000, -130747229426498980000000000000000, -5143943406624900000000000000000, 165335503938067590000000000000⟩,
   ⟨-692621755613872460000000000000000, -172333342442087540000000000000000, -4863171884364545500000000000000, 80919128105092792000000000000⟩,
   ⟨-692621755613872810000000000000000, -264180574014174620000000000000000, -10667903225484017000000000000000000, 478875530230699340000000000000000⟩,
   ⟨-692621755613951480000000000000000, 8245573163561143300000000000000000, 2644916439711596000000000000000000, -86775473743943042000000000000000⟩,
   ⟨-692621755613908200000000000000000, 28399836434076752000000000000000000, -1135282412057880400000000000000000, -230788926658097730000⟩,
   ⟨-692621755613891280000000000000000, -6203571485608161400000000000000000, -4708622229527746600000000000000000000000000000, 205976475482410580000000000000000000000000000⟩,
   ⟨-729075532225123730000000000000000, -853702498019799890000000000000000, 37344816186351672000000000000000, -974335257341422960⟩,
   ⟨-729075532225124160000000000000000, 284567499339517520000000000000000, -14589632852011716000000000000000, 957324990291683320000000000000⟩,
   ⟨-729075532225123730000000000000000, 506913504005707210000000000000000, 3967080006059947600000000000000000, -168882550438742330000000000000000⟩,
   ⟨-729075532225090600000000000000000, 3750744548368806100000000000000000, -4771939628980925900000000000000000, 156559699113972120000000000000000⟩,
   ⟨-729075532225140300000000000000000, -32611435424170130000000000000000000, 2845674993385980100000000000000000, 88859375469536712000⟩,
   ⟨-729075532225123900000000000000000, 54124738374296764000000000000000000, 1831130867031733400000000000000000000000000000, -68658825160571408000000000000000000000000000⟩,
   ⟨-710848643919506120000000000000000, 7973266975339670700000000000000000000000000000, -1569540743175867700000000000000000000000000000, 68658825160795548000000000000000000000000000⟩,
   ⟨-710848643919497790000000000000000, 7973266975337357300000000000000000000000000000, 3662261734078256700000000000000000000000000000, -171647062902056790000000000000000000000000000⟩,
   ⟨-674394867308259710000000000000000, 682961998416131500000000000000000, -59751705898179426000000000000000, 2450447256322967600000000000000⟩,
   ⟨-674394867308259190000000000000000, 569134998680090440000000000000000, 37344816186357437000000000000000, -1960357805058319100000000000000⟩,
   ⟨-674394867308258150000000000000000, 341480999207919920000000000000000, -2354311114762861100000000000000000000000000000, 102988237741144870000000000000000000000000000⟩,
   ⟨-692621755613867000000000000000000, -8650851979932900900000000000000000, 328634382440109200000000000000000, -28935684089300890000⟩,
   ⟨-692621755613872550000000000000000, 1365923996821505200000000000000000, -97195579950997569000000000000000, 6377662726489191200000000000000⟩,
   ⟨-692621755613870470000000000000000, 2847184635306593600000000000000000, 4429889406583111800000000000000000, -187762873006827900000000000000000⟩,
   ⟨-692621755613829700000000000000000, 7042150986948269400000000000000000, -11969062093228454000000000000000000, 522258606130641780000000000000000⟩,
   ⟨-692621755613912100000000000000000, 6120729703090704800000000000000000, 4056905332276681300000000000000000, -186449965573315870000000000000000⟩,
   ⟨-692621755613874540000000000000000, -138060341538597380000000000000000, -30345038066282981000000000000000, 1605392986910774200000000000000⟩,
   ⟨-692621755613874890000000000000000, 55617064791285676000000000000000, 3565119126508568700000000000000, -228349816803716060000000000000⟩,
   ⟨-692621755613874800000000000000000, 5173954533455051400000000000000, -8249809393894892600000000000000, 274004556843338950000000000000⟩,
   ⟨-692621755613874890000000000000000, -55361313507969102000000000000000, 66915120639368952000000000000000, -2927170631643426000000000000000⟩,
   ⟨-692621755613874460000000000000000, -55361313507969110000000000000000, -3226795817501871300000000000000000, 105866004511327350000000000000000⟩,
   ⟨-692621755613912010000000000000000, -24643545442794949000000000000000000, 4862295067453235400000000000000000, -212698821848345330000000000000000⟩,
   ⟨-692621755613911930000000000000000, -24643545442793658000000000000000000, -1961925928964725900000000000000000000000000000, 77241178305715722000000000000000000000000000⟩,
   ⟨-710848643919507850000000000000000, -5979950231496803400000000000000000000000000000, 392385185793695520000000000000000000000000000, 7785769693687119300000000000000⟩,
   ⟨-710848643919506470000000000000000, 5979950231500432900000000000000000000000000000, 1046360495450316400000000000000000000000000000, -42911765725482144000000000000000000000000000⟩,
   ⟨-692621755613893710000000000000000, 7973266975337918400000000000000000000000000000, -1569540743174954400000000000000000000000000000, 68658825160758169000000000000000000000000000⟩,
   ⟨-692621755613880010000000000000000, 7973266975337678100000000000000000000000000000, 3662261734080231300000000000000000000000000000, -171647062902144370000000000000000000000000000⟩,
   ⟨-656167979002626570000000000000000, 170740499604142740000000000000000, -67220669135456239000000000000000, 2940536707587584800000000000000⟩,
   ⟨-656167979002626830000000000000000, 170740499604014430000000000000000, 6722066913544339300000000000000, -441080506138070590000000000000⟩,
   ⟨-656167979002626570000000000000000, 68296199841606247000000000000000, -13036735832327637000000000000000, 561375189630251430000000000000⟩,
   ⟨-656167979002626570000000000000000, 62087454401460211000000000000000, 33678234233512453000000000000000, -1497000505680625800000000000000⟩,
   ⟨-656167979002626220000000000000000, 45530799894404174000000000000000, -55768258838290790000000000000000, 2483119886406842200000000000000⟩]
/-- `atm_data.akima_dT`, aviary/subsystems/atmosphere/data/MIL_SPEC_210A_Hot.py:911-1116 (part 2) -/
def hotdTRows_1 : List IRow :=
  [⟨-656167979002626570000000000000000, 75884666490673965000000000000000, 7219997796028753100000000000000, -310389985800856290000000000000⟩,
   ⟨-656167979002626400000000000000000, 79678899815207869000000000000000, -3286343824399286000000000000000, 117621468303482470000000000000⟩,
   ⟨-656167979002626310000000000000000, 61466579857446130000000000000000, 18670243176297601000000000000000, -264506248769440500000000000000⟩,
   ⟨-656167979002625880000000000000000, 446234832298417130000000000000000, 344763013198636200000000000000000, -11311122480269184000000000000000⟩,
   ⟨-656167979002621190000000000000000, 3073328992872697900000000000000000, 242741305211358600000000000000000, -4842653534360774400⟩,
   ⟨-656167979002610870000000000000000, 10472083975711514000000000000000000, 4708622229527335600000000000000000000000000000, -205976475482400030000000000000000000000000000⟩,
   ⟨-619714202391377730000000000000000, 796788998152178210000000000000000, -39212056995693027000000000000000, 857656539713759310000000000000⟩,
   ⟨-619714202391377120000000000000000, 199197249538122010000000000000000, -46705916777082792000000000000000, 2207036162194995700000000000000⟩,
   ⟨-619714202391377120000000000000000, 313403672606495960000000000000000, 4507867018196523300000000000000000000000000000, -192803561352932660000000000000000000000000000⟩,
   ⟨-583260425780106690000000000000000, 3059509420774424600000000000000000000000000000, -796262769887635820000000000000000000000000000, 11146285492741677000000000000000000000000000⟩,
   ⟨-593146195708584360000000000000000, -13444151253023701000000000000000000000000000000, -1667383415188054200000000000000000000000000000, 92233792346572010000000000000000000000000000⟩,
   ⟨-619714202391377300000000000000000, -16237210721575136000000000000000000, 4016780766173634700000000000000000, -163272393115568210000000000000000⟩,
   ⟨-619714202391366540000000000000000, -7569495482437684700000000000000000, -520911595891025690000000000000000, 34180550911454283000000000000000⟩,
   ⟨-619714202391378080000000000000000, 369197238920707520000000000000000, 48645440861335941000000000000000, -1595979030883787100000000000000⟩,
   ⟨-619714202391376950000000000000000, 739875498284045920000000000000000, -97278691919572579000000000000000, 3442579560101570400000000000000⟩,
   ⟨-619714202391376860000000000000000, 173516767890207800000000000000000, 21536595993022760000000000000000000000000000000, -358410770548324150000000000000000000000000000⟩,
   ⟨-364537766112634420000000000000000, 365320595960994810000000000000000000000000000000, 1172874991720038500000000000000000000000000000000, -269641931540900460000000000000000000000000000000⟩,
   ⟨72907553222516198000000000000000, 516732934777128130000000000000000, -179380359456097490000000000000000, 7646441362335424500000000000000⟩,
   ⟨72907553222515526000000000000000, 377051936625532560000000000000000, 22881352540409899000000000000000, -1501401085328718400000000000000⟩,
   ⟨72907553222516101000000000000000, 28340123909682982000000000000000, 14315731726549677, -91389631280882066000000000000⟩,
   ⟨72907553222516111000000000000000, -35337685368864075000000000000000, -3905135184405173700000000000000, 224607593801859710000000000000⟩,
   ⟨72907553222516046000000000000000, 2134256245050210700000000000000, 3921205699567325900000000000000, -174594367012981250000000000000⟩,
   ⟨72907553222516079000000000000000, 0, 0, 0⟩,
   ⟨72907553222516079000000000000000, 0, 0, 0⟩,
   ⟨72907553222516079000000000000000, 0, 0, 0⟩,
   ⟨72907553222516079000000000000000, 0, 0, 0⟩,
   ⟨72907553222516079000000000000000, 0, -5601722427953323800000000000000, 245044725632254440000000000000⟩,
   ⟨72907553222516035000000000000000, 17996758818016259, 1961925928971841300000000000000000000000000000, -77241178305983470000000000000000000000000000⟩,
   ⟨91134441528144890000000000000000, 5979950231502472100000000000000000000000000000, -392385185793819100000000000000000000000000000, -19827755686294964000000000000000⟩,
   ⟨91134441528144901000000000000000, -5979950231507062000000000000000000000000000000, -1569540743171882600000000000000000000000000000, 77241178305673381000000000000000000000000000⟩,
   ⟨72907553222534760000000000000000, -42870093775487420000000000000000000, 2410841289919607800000000000000000, -52730561896659938000000000000000⟩,
   ⟨72907553222506755000000000000000, -6128872517046835400000000000000000, 5142637346252910600000, 52730561896700587000000000000000⟩,
   ⟨72907553222516079000000000000000, 30612348741447111000000000000000000, 2354311114760739900000000000000000000000000000, -102988237741095710000000000000000000000000000⟩,
   ⟨91134441528140228000000000000000, 9184416041197766300000000000000000, -401456774003215160000000000000000, 244620341204862060⟩,
   ⟨91134441528144901000000000000000, -3051986430420178000000000000000000, -532505728553919570000, 27953056617003715000⟩,
   ⟨91134441528140249000000000000000, -3051986430416931800000000000000000, 404147797521992820000000000000000, -12857640897859642000000000000000⟩,
   ⟨91134441528140434000000000000000, 307583988257244100000000000000000, 784770371588681100000000000000000000000000000, -34329412580432612000000000000000000000000000⟩,
   ⟨97210070963350619000000000000000, 115019763876415710000000000000000, -12556325945418090000000000000000000000000000000, 549270601286881680000000000000000000000000000⟩,
   ⟨-21684043449710089, 1046204041691401000000000000000, 3806874644665018900000000000000, -199631189414627860000000000000⟩,
   ⟨0, 4850582375116361900000000000000, -9017924363178471000000000000000, 2436524260546351600000000000000⟩,
   ⟨0, 17785468708736497000000000000000, 4708622229534399100000000000000000000000000000, -205976475482686440000000000000000000000000000⟩,
   ⟨36453776611279864000000000000000, 6036388079743666500000000000000000, -5209601857995274000000000000000000, 227891594837939060000000000000000⟩,
   ⟨36453776611248732000000000000000, 6036388079743667400000000000000000, 396088456677409190000000000000000, -25990056212399733000000000000000⟩,
   ⟨36453776611257931000000000000000, 0, 0, 0⟩,
   ⟨36453776611257931000000000000000, 0, 0, 0⟩,
   ⟨36453776611257931000000000000000, 0, -11438053076149537000000000000000, 382961328621799810000000000000⟩,
   ⟨36453776611257801000000000000000, -81794820525506753000000000000000, 46408250311270568000000000000000, -2065060823871825100000000000000⟩,
   ⟨36453776611258023000000000000000, -106149563457455120000000000000000, -960870698470189490000000000000000, 40732447998086565000000000000000⟩,
   ⟨36453776611249962000000000000000, -1012226610347391300000000000000000, 92201358628004626000000000000000, -3989045595950206300000000000000⟩,
   ⟨36453776611249149000000000000000, -981387668583664910000000000000000, -79519808170176415000000000000000, 4527052953252318400000000000000⟩,
   ⟨36453776611247409000000000000000, -250824059624717440000000000000000, 114479611080606180000000000000000, -4012029755095894300000000000000⟩,
   ⟨36453776611248265000000000000000, 443041279970708070000000000000000, -91398568027787899000000000000000, 4120369297953115000000000000000⟩,
   ⟨36453776611248276000000000000000, 528174179252586700000000000000000, 1140915384720495800000000000000000, -50228328106970870000000000000000⟩,
   ⟨36453776611257801000000000000000, 305542291120180420000000000000000, -9533713755699709400000000000000, -16087175818150541000000000000⟩,
   ⟨36453776611258039000000000000000, 3745589307552641200000000000000, 2959113862397145900000000000000, -210294451378489380000000000000⟩,
   ⟨36453776611258039000000000000000, -52588073878038219000000000000000, -13209181786904873000000000000000, 449923133438699330000000000000⟩,
   ⟨36453776611257812000000000000000, -141709733272045760000000000000000, 58209701478841977000000000000000, -2612097349396708300000000000000⟩,
   ⟨36453776611258023000000000000000, -187516416208682600000000000000000, -921701817904125480000000000000000, 38420749911453083000000000000000⟩,
   ⟨36453776611249930000000000000000, -1510454332023263000000000000000000, 64117878049812109000000000000000, -1088532071211896300000000000000⟩,
   ⟨36453776611248732000000000000000, -314600948213107660000000000000000, 18094749929089025000000000000000, 1254600990271381900000000000000⟩,
   ⟨36453776611249116000000000000000, 1111098874499711600000000000000000, 948424515367097230000000000000000, -42496699389608649000000000000000⟩,
   ⟨36453776611257795000000000000000, 408533878433360440000000000000000, -17274728589480360000000000000000, 17785951563417819000000000000⟩,
   ⟨36453776611258023000000000000000, -105607081702498740000000000000000, -12318082733731933000000000000000, 757566465367814280000000000000⟩,
   ⟨36453776611257844000000000000000, 46789463833793327000000000000000, 18787315219905437000000000000000, -836921986005574530000000000000⟩]
/-- `atm_data.akima_dT`, aviary/subsystems/atmosphere/data/MIL_SPEC_210A_Hot.py:911-1116 (part 3) -/
def hotdTRows_2 : List IRow :=
  [⟨36453776611258056000000000000000, 36282356165854596000000000000000, -5960588217597289900000000000000, 188952813794154450000000000000⟩,
   ⟨36453776611258039000000000000000, -13739191571278410000000000000000, -7225216383696723000000000000000, -18100098529388822000000000000⟩,
   ⟨36453776611257844000000000000000, -246575443278949190000000000000000, -1035309480022486000000000000000000, 44475551449250080000000000000000⟩,
   ⟨36453776611249165000000000000000, -813453879525997510000000000000000, 39613812674936601000000000000000, -383438474982374250000000000000⟩,
   ⟨36453776611248710000000000000000, 126805630964877630000000000000000, 21170467469402908000000000000000, -694569142696712180000000000000⟩,
   ⟨36453776611249149000000000000000, 288124593081894780000000000000000, 338347969447011130000000000000000, -13395015503760183000000000000000⟩,
   ⟨36453776611252705000000000000000, 1267688243228319900000000000000000, -1451150626625120400000000000000000000000000000, 49447307282867785000000000000000000000000000⟩,
   ⟨20252098117365841000000000000000, -9777532351588568600000000000000000000000000000, 1717899378768336600000000000000000000000000000, -9391083740129340700000000000000000000000000⟩,
   ⟨32165097009928013000000000000000, 27923917004206655000000000000000000000000000000, 230957220200414880000000000000000000000000000000, -51517479275379491000000000000000000000000000000⟩,
   ⟨109361329833743640000000000000000, 30944157643119177000000000000000000, -1101336393756190500000000000000000, 2684478735850170800000000000000⟩,
   ⟨109361329833766170000000000000000, -754103873251003970000000000000000, -48070324793670161000000000000000, 3154220786985932900000000000000⟩,
   ⟨109361329833765020000000000000000, -21512123395719797000000000000000, 73778264060549339000000000000000, -2420546721144992600000000000000⟩,
   ⟨109361329833765840000000000000000, 540678248746797680000000000000000, 629715577328678480000000000000000, 10016950247732374000000000000000⟩,
   ⟨109361329833784840000000000000000, 26713947517297622000000000000000000, 3669024913639108800000000000000000000000000000, -152215918015695180000000000000000000000000000⟩,
   ⟨140698786920642190000000000000000, 5771967967379426000000000000000000000000000000, -186950131102001800000000000000000000000000000, 1869980025909621700000000000000000000000000⟩,
   ⟨145815106445032160000000000000000, 1376679189987501300000000000000000000000000000, -8662095360121545300000000000000000000000000, -5359001628796997500000000000000000000000000⟩,
   ⟨145815106445030340000000000000000, -2621348046690337800000000000000000000000000000, -2010302184754332900000000000000000000000000000, 91701855523063404000000000000000000000000000⟩,
   ⟨127588218139398650000000000000000, -1408609121733129600000000000000000, 59751705898172524000000000000000, -265869142029873370⟩,
   ⟨127588218139397890000000000000000, 412622874042957840000000000000000, 39469016740084273000000000000000, -2589830494755825800000000000000⟩,
   ⟨127588218139398520000000000000000, -188884941075698250000000000000000, -83511916930494425000000000000000, 3658810008866776300000000000000⟩,
   ⟨127588218139397590000000000000000, -184968874571015390000000000000000, 14258929816608471000000000000000, -16707594929473007000000000000⟩,
   ⟨127588218139397630000000000000000, 238001908538930230000000000000000, 60931709798848012000000000000000, -2694951283089654200000000000000⟩,
   ⟨127588218139398460000000000000000, 217431671825827950000000000000000, -78949841986206346000000000000000, 2590217912933413100000000000000⟩,
   ⟨127588218139397870000000000000000, -384166124108959590000000000000000, 62552567112138800000000000000000, 176209567817070070⟩,
   ⟨127588218139398740000000000000000, 1522436121469126400000000000000000, 2354311114765704000000000000000000000000000000, -102988237741274990000000000000000000000000000⟩,
   ⟨145815106445030400000000000000000, 5648664861897616500000000000000000, -446737363629001770000000000000000, 9771158434576356700000000000000⟩,
   ⟨145815106445032090000000000000000, -1159612559810973500000000000000000, 243096706990861010000000000000000000000000000, -15951227492848266000000000000000000000000000⟩,
   ⟨145815106445026870000000000000000, -3704258471598739600000000000000000000000000000, -1083417584175163800000000000000000000000000000, 35545196331216709000000000000000000000000000⟩,
   ⟨127588218139397870000000000000000, -11959900463005978000000000000000000000000000000, -209046111819192320000000000000000000000000000, 13716936471097587000000000000000000000000000⟩,
   ⟨109361329833784730000000000000000, -8774527010702896700000000000000000000000000000, 1151512731061536100000000000000000000000000000, -37779289076791701000000000000000000000000000⟩,
   ⟨109361329833774150000000000000000, 6986132108812282500000000000000000, -616091328830895620000000000000000000000000000, 40425940212061578000000000000000000000000000⟩,
   ⟨109361329833806020000000000000000, 9389231851431490500000000000000000000000000000, 337358085506128380000000000000000000000000000, -11068178658329221000000000000000000000000000⟩,
   ⟨127588218139403140000000000000000, 11959900462993937000000000000000000000000000000, 163691021873353610000000000000000000000000000, -10740880700334778000000000000000000000000000⟩,
   ⟨145815106445011880000000000000000, 9465249289655439400000000000000000000000000000, -1242158699427027300000000000000000000000000000, 40753238170116339000000000000000000000000000⟩,
   ⟨145815106445022790000000000000000, -21783642074420705000000000000000000, -892459064579015370000000000000000, 58560306074487450000000000000000⟩,
   ⟨145815106444989590000000000000000, -8182565930410939500000000000000000, 618413444278714630000000000000000, 4392780513346988200000000000000⟩,
   ⟨145815106444993040000000000000000, 13727445829274152000000000000000000, 2795325398753476500000000000000000, -137094207414817890000000000000000⟩,
   ⟨145815106445030360000000000000000, 3405449219075686200000000000000000, -110350812286630720000000000000000, 848746308916242820000000000000⟩,
   ⟨145815106445033290000000000000000, 633339802732396300000000000000000, 23095729409771695000000000000000, -2710823433817840900000000000000⟩,
   ⟨145815106445033830000000000000000, -551530399144590270000000000000000, -821235085279101530000000000000000, 36841671636401404000000000000000⟩,
   ⟨145815106445026950000000000000000, 87498904324634256000000000000000, 446895828421891440000000000000000, -19715032833599576000000000000000⟩,
   ⟨145815106445030490000000000000000, -28014874935027049000000000000000, -3495982902706392000000000000000, 166231501019852640000000000000⟩,
   ⟨145815106445030420000000000000000, -18746845395711094000000000000000, 3377374515117479500000000000000, -140896755217823490000000000000⟩,
   ⟨145815106445030420000000000000000, -13977496818968691000000000000000, -330963555136936270000000000000000, 13812996136168169000000000000000⟩,
   ⟨145815106445027600000000000000000, -477226663205839880000000000000000, 831808999766053610000000000000000, -36352961117054734000000000000000⟩,
   ⟨145815106445033330000000000000000, -453442856158120370000000000000000, -326041315554907230000000000000000, 14953332570110600000000000000000⟩,
   ⟨145815106445030360000000000000000, 27893249935309127000000000000000, 3393489347626970300000000000000, -158982537889568430000000000000⟩,
   ⟨145815106445030420000000000000000, 20552097174557347000000000000000, -1323118225470409000000000000000, -1669591946132717200000000000⟩,
   ⟨145815106445030420000000000000000, -20939872592945469000000000000000, -340942849110519480000000000000000, 14497782407667515000000000000000⟩,
   ⟨145815106445027600000000000000000, -311217471500481050000000000000000, 225749837257130950000000000000000, -5386538708115646400000000000000⟩,
   ⟨145815106445030470000000000000000, 2816443910134742500000000000000000, 464725985567483250000000000000000, -23200416544576974000000000000000⟩,
   ⟨145815106445037340000000000000000, 815872753300668460000000000000000, -539672265834051870000000000000000, 22342029208766772000000000000000⟩,
   ⟨145815106445033960000000000000000, -66019659846885365000000000000000, 1065020099174344500000000000000, -30676052506082055000000000000⟩,
   ⟨145815106445033870000000000000000, -54932086221661254000000000000000, 3474453581062055600000000000000, -113991259221345720000000000000⟩,
   ⟨145815106445033830000000000000000, -28456749934071909000000000000000, -1896183041871892100000000000000000, 639263435395431490000⟩,
   ⟨145815106444989740000000000000000, -57824115865744475000000000000000000, -1961925928959682700000000000000000000000000000, 77241178305537956000000000000000000000000000⟩,
   ⟨127588218139397570000000000000000, -5979950231500701800000000000000000000000000000, 392385185794720810000000000000000000000000000, -31191932173905544000000000000000⟩,
   ⟨127588218139403140000000000000000, 5979950231500770700000000000000000000000000000, 1569540743172901700000000000000000000000000000, -77241178305717390000000000000000000000000000⟩,
   ⟨145815106445011800000000000000000, 36282356165774309000000000000000000, -1904585625499522600000000000000000, 37903714564321280000⟩,
   ⟨145815106445022860000000000000000, -21769413699423901000000000000000000, -1585909860725410800000000000000000, 104062326818872860000000000000000⟩,
   ⟨145815106444989680000000000000000, 2399852577767628400000000000000000, 2296850993703184200000000000000000, -98680844051590587000000000000000⟩,
   ⟨145815106445011750000000000000000, 3649742849651523000000000000000000, -960784197036117070000000000000000, 47206858088798080000000000000000⟩,
   ⟨145815106445011710000000000000000, 7257495213725510400000000000000000, 1210731362620085000000000000000000, -57823526909489544000000000000000⟩,
   ⟨145815106445030420000000000000000, 3870726395784905800000000000000000, -82725545052487351000000000000000, -1435686472540724400000000000000⟩]
/-- `atm_data.akima_dT`, aviary/subsystems/atmosphere/data/MIL_SPEC_210A_Hot.py:911-1116 (part 4) -/
def hotdTRows_3 : List IRow :=
  [⟨145815106445033890000000000000000, 348904499190832440000000000000000, 20317182606183601000000000000000, -3080423899915717400000000000000⟩,
   ⟨145815106445033810000000000000000, -1178183360903920700000000000000000, -255937874014898400000000000000000, 12554868240723924000000000000000⟩,
   ⟨145815106445030510000000000000000, -231279063157880170000000000000000, 13976635186594399000000000000000, -411404650792174460000000000000⟩,
   ⟨145815106445030340000000000000000, -91926793135969951000000000000000, 16716026313782044000000000000000, -639794232434446650000000000000⟩,
   ⟨145815106445030360000000000000000, -28213529849097143000000000000000, -1297764281123822400000000000000000, 42577568278394572000000000000000⟩,
   ⟨145815106445015240000000000000000, -9917177351975323000000000000000000, 1957801988574460100000000000000000, -421974234685865160000⟩,
   ⟨145815106445045600000000000000000, 49756627259480768000000000000000000, 2354311114756955700000000000000000000000000000, -102988237740969610000000000000000000000000000⟩,
   ⟨164041994750655690000000000000000, 1735861745975967800000000000000000, -78424113991590476000000000000000, 8307762859139701500⟩,
   ⟨164041994750656510000000000000000, -654505248481944440000000000000000, -56322772775616956000000000000000, 3695719998399544000000000000000⟩,
   ⟨164041994750655520000000000000000, 203853808618129190000000000000000, 34866478384899634000000000000000, -1143913332837968100000000000000⟩,
   ⟨164041994750656230000000000000000, 469536373911034640000000000000000, -24274130521129320000000000000000, -50012421453960148⟩,
   ⟨164041994750656380000000000000000, -270339124373028970000000000000000, -2354311114765157700000000000000000000000000000, 51494118870629192000000000000000000000000000⟩,
   ⟨127588218139411490000000000000000, -35879701389021126000000000000000000000000000000, 0, 0⟩]
/-- `atm_data.akima_dT`, aviary/subsystems/atmosphere/data/MIL_SPEC_210A_Hot.py:911-1116 -/
def hotdTRows : List IRow :=
  hotdTRows_0 ++ hotdTRows_1 ++ hotdTRows_2 ++ hotdTRows_3
/-- `atm_data.akima_dT`, aviary/subsystems/atmosphere/data/MIL_SPEC_210A_Hot.py:911-1116, with the column exponents. -/
def hotdT : CTab := ⟨35, 52, 53, 54, hotdTRows⟩
/-- `atm_data` of aviary/subsystems/atmosphere/data/MIL_SPEC_210A_Hot.py. -/
def hot : AtmData := ⟨14, hotAlt, hotT, hotP, hotrho, hotdT⟩

end Verif.AtmD
