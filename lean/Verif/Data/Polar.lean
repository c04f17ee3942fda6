import Verif.Model.AtmTables

/-! Data of aviary/subsystems/atmosphere/data/MIL_SPEC_210A_Polar.py, as exact decimals (generated from the source text). -/

namespace Verif.AtmD

set_option maxRecDepth 100000

/-- `atm_data.alt`, aviary/subsystems/atmosphere/data/MIL_SPEC_210A_Polar.py:238-290 (part 1) -/
def polarAlt_0 : List ℤ :=
  [0,
   15240000000000000,
   30480000000000000,
   45720000000000005,
   60960000000000000,
   76200000000000000,
   91440000000000010,
   98846640000000000,
   106680000000000000,
   121920000000000000,
   137160000000000010,
   152400000000000000,
   167640000000000000,
   182880000000000020,
   198120000000000000,
   213360000000000000,
   228600000000000000,
   243840000000000000,
   259080000000000000,
   274320000000000030,
   289560000000000040,
   301203360000000000,
   304800000000000000,
   320040000000000000,
   335280000000000000,
   350520000000000030,
   365760000000000040,
   381000000000000000,
   396240000000000000,
   411480000000000000,
   426720000000000000,
   441960000000000000,
   457200000000000000,
   472440000000000100,
   487680000000000000,
   502920000000000000,
   518160000000000000,
   533400000000000000,
   548640000000000100,
   563880000000000000,
   579120000000000100,
   594360000000000000,
   609600000000000000,
   624840000000000100,
   640080000000000000,
   655320000000000100,
   670560000000000000,
   685800000000000000,
   701040000000000100,
   716280000000000000,
   731520000000000100,
   746760000000000000,
   762000000000000000,
   777240000000000100,
   792480000000000000,
   807720000000000100,
   822960000000000000,
   838200000000000000,
   853440000000000000,
   868680000000000100,
   883920000000000000,
   899160000000000000,
   914400000000000000,
   916381200000000000]
/-- `atm_data.alt`, aviary/subsystems/atmosphere/data/MIL_SPEC_210A_Polar.py:238-290 (part 2) -/
def polarAlt_1 : List ℤ :=
  [929640000000000000,
   944880000000000100,
   960120000000000000,
   975360000000000000,
   990600000000000000,
   1005840000000000000,
   1021080000000000100,
   1036320000000000000,
   1051560000000000000,
   1066800000000000000,
   1082040000000000000,
   1097280000000000100,
   1112520000000000000,
   1127760000000000000,
   1143000000000000000,
   1158240000000000100,
   1173480000000000100,
   1188720000000000000,
   1203960000000000000,
   1219200000000000000,
   1234440000000000100,
   1249680000000000100,
   1264920000000000000,
   1280160000000000000,
   1295400000000000000,
   1310640000000000100,
   1325880000000000100,
   1341120000000000000,
   1356360000000000000,
   1371600000000000000,
   1386840000000000100,
   1402080000000000100,
   1417320000000000000,
   1432560000000000000,
   1447800000000000000,
   1463040000000000100,
   1478280000000000100,
   1493520000000000000,
   1508760000000000000,
   1524000000000000000,
   1539240000000000100,
   1554480000000000100,
   1569720000000000000,
   1584960000000000000,
   1600200000000000000,
   1615440000000000100,
   1630680000000000100,
   1645920000000000000,
   1661160000000000200,
   1676400000000000000,
   1691640000000000000,
   1706880000000000000,
   1722120000000000000,
   1737360000000000200,
   1752600000000000000,
   1767840000000000000,
   1783080000000000000,
   1798320000000000000,
   1813560000000000200,
   1828800000000000000,
   1844040000000000000,
   1859280000000000000,
   1874520000000000000,
   1889760000000000200]
/-- `atm_data.alt`, aviary/subsystems/atmosphere/data/MIL_SPEC_210A_Polar.py:238-290 (part 3) -/
def polarAlt_2 : List ℤ :=
  [1905000000000000000,
   1920240000000000000,
   1935480000000000000,
   1950720000000000000,
   1965960000000000200,
   1981200000000000000,
   1996440000000000000,
   2011680000000000000,
   2026920000000000000,
   2042160000000000200,
   2057400000000000000,
   2072640000000000000,
   2087880000000000000,
   2103120000000000000,
   2118360000000000200,
   2133600000000000000,
   2148840000000000000,
   2164080000000000000,
   2179320000000000000,
   2194560000000000200,
   2209800000000000000,
   2225040000000000000,
   2240280000000000300,
   2255520000000000000,
   2270760000000000200,
   2286000000000000000,
   2301240000000000000,
   2316480000000000300,
   2331720000000000000,
   2346960000000000200,
   2362200000000000000,
   2377440000000000000,
   2392680000000000300,
   2407920000000000000,
   2423160000000000200,
   2438400000000000000,
   2453640000000000000,
   2468880000000000300,
   2484120000000000000,
   2499360000000000200,
   2514600000000000000,
   2529840000000000000,
   2545080000000000300,
   2560320000000000000,
   2575560000000000200,
   2590800000000000000,
   2606040000000000000,
   2621280000000000300,
   2624084160000000000,
   2636520000000000000,
   2651760000000000200,
   2667000000000000000,
   2682240000000000000,
   2697480000000000300,
   2712720000000000000,
   2727960000000000200,
   2743200000000000000,
   2758440000000000000,
   2773680000000000300,
   2788920000000000000,
   2804160000000000200,
   2819400000000000000,
   2834640000000000000,
   2849880000000000300]
/-- `atm_data.alt`, aviary/subsystems/atmosphere/data/MIL_SPEC_210A_Polar.py:238-290 (part 4) -/
def polarAlt_3 : List ℤ :=
  [2865120000000000000,
   2880360000000000200,
   2895600000000000000,
   2910840000000000000,
   2926080000000000300,
   2941320000000000000,
   2956560000000000200,
   2971800000000000000,
   2987040000000000000,
   3002280000000000300,
   3017520000000000000,
   3032760000000000200,
   3048000000000000000]
/-- `atm_data.alt`, aviary/subsystems/atmosphere/data/MIL_SPEC_210A_Polar.py:238-290 -/
def polarAlt : List ℤ :=
  polarAlt_0 ++ polarAlt_1 ++ polarAlt_2 ++ polarAlt_3
/-- `atm_data.akima_T`, aviary/subsystems/atmosphere/data/MIL_SPEC_210A_Polar.py:292-498 (part 1) -/
def polarTRows_0 : List IRow :=
  [⟨24664999999999998, 546806649168869380, 0, 0⟩,
   ⟨24664999999999998, 546806649168869380, -59190039862725705000, -746896323727106000⟩,
   ⟨24748333333333332, 546806649168850650, -119518349722811510000, 39585505157536619000⟩,
   ⟨24831666666666663, 546806649168841450, 120656619720171590000, 0⟩,
   ⟨24914999999999998, 546806649168878490, 717594027780120810000000000000000, -313908148635221770000000000000000⟩,
   ⟨25003888888888886, 546806649168879270, -198628114539339150000, 49295157365989014000⟩,
   ⟨25087222222222221, 546806649168852470, -158219529633055150000, 54523431632078681000⟩,
   ⟨25170555555555552, 546806649168842580, 6699545059087395700000000000000000, -8074539987142404100000000000000000⟩,
   ⟨25214999999999998, 210362016819307280, -6690972161938384200000000000000000, 3957596561555152100000000000000000⟩,
   ⟨25209444444444443, -109361329833782080, -76833224821807361000, 45747399828285192000⟩,
   ⟨25192777777777775, -109361329833773580, -3272526242410313200, 41266021885922561000⟩,
   ⟨25176111111111109, -109361329833745850, 717594027780115810000000000000000, -313908148635221640000000000000000⟩,
   ⟨25164999999999998, -109361329833745850, -183688320823987600000, 40145677400331905000⟩,
   ⟨25148333333333332, -109361329833773820, -244870333182093450000, 120437032200995720000⟩,
   ⟨25131666666666663, -109361329833764500, 717594027780482920000000000000000, -313908148635382180000000000000000⟩,
   ⟨25120555555555552, -109361329833764500, -3557093741750345700, 1493792647454214800⟩,
   ⟨25103888888888886, -109361329833764500, -142283749670013630, 0⟩,
   ⟨25087222222222221, -109361329833764500, -367234357898305150000, 160582709601327620000⟩,
   ⟨25070555555555552, -109361329833764500, 717594027780851290000000000000000, -313908148635542780000000000000000⟩,
   ⟨25059444444444443, -109361329833764500, -333370825476841920000, 138362543970446250000⟩,
   ⟨25042777777777775, -109361329833769660, 63031701103816040000, -19232580335972963000⟩,
   ⟨25026111111111109, -109361329833763800, 962452386821019090000000000000000, -723838387501758050000000000000000⟩,
   ⟨25014999999999998, -179625340311971150, -14474143728879802000000000000000000, 18306742899186389000000000000000000⟩,
   ⟨24998333333333332, -510352872557608750, -100167759767689600000, 56017224279532896000⟩,
   ⟨24920555555555552, -510352872557600680, 229361404468061980000, -115022033853974210000⟩,
   ⟨24842777777777775, -510352872557611090, -717594027780005950000000000000000, 313908148635148120000000000000000⟩,
   ⟨24759444444444443, -510352872557628350, 113257864737330850000, 0⟩,
   ⟨24681666666666663, -510352872557594000, -10244429976241011000, 6722066913543985700⟩,
   ⟨24603888888888886, -510352872557592530, 0, 0⟩,
   ⟨24526111111111109, -510352872557592530, 0, 0⟩,
   ⟨24448333333333332, -510352872557592530, -388150069099798340000, 168051672838599680000⟩,
   ⟨24370555555555552, -510352872557593740, 36424639915523378000, -11950341179633611000⟩,
   ⟨24292777777777775, -510352872557590970, -20488859952482021000, 0⟩,
   ⟨24214999999999998, -510352872557597040, -717594027780748210000000000000000, 313908148635501760000000000000000⟩,
   ⟨24131666666666663, -510352872557594000, -569134998680056170, 0⟩,
   ⟨24053888888888886, -510352872557594000, -569134998680056170, 0⟩,
   ⟨23976111111111109, -510352872557594000, 56913499868005281000, -23900682359267223000⟩,
   ⟨23898333333333332, -510352872557593570, -250419399419224730000, 82158595609982059000⟩,
   ⟨23820555555555552, -510352872557612650, 426851249010039590000, -186724080931775160000⟩,
   ⟨23742777777777775, -510352872557612650, -717594027780040510000000000000000, 313908148635170880000000000000000⟩,
   ⟨23659444444444443, -510352872557625140, 100736894766369350000, 746896323727100710⟩,
   ⟨23581666666666663, -510352872557594000, -569134998680056170, 0⟩,
   ⟨23503888888888886, -510352872557594000, -569134998680056170, 0⟩,
   ⟨23426111111111109, -510352872557594000, -717594027780768110000000000000000, 313908148635501760000000000000000⟩,
   ⟨23342777777777775, -510352872557597040, 19350589955121911000, 0⟩,
   ⟨23264999999999998, -510352872557590970, 0, 0⟩,
   ⟨23187222222222221, -510352872557590970, -20488859952482021000, 0⟩,
   ⟨23109444444444443, -510352872557597040, -717594027780693830000000000000000, 313908148635452460000000000000000⟩,
   ⟨23026111111111109, -510352872557612650, 426851249010039590000, -186724080931775160000⟩,
   ⟨22948333333333332, -510352872557612650, 0, 0⟩,
   ⟨22870555555555552, -510352872557612650, 426282114011359510000, -186724080931775160000⟩,
   ⟨22792777777777775, -510352872557612560, -717594027779981310000000000000000, 313908148635132040000000000000000⟩,
   ⟨22709444444444443, -510352872557634330, 213425624505021060000, -46307572071080794000⟩,
   ⟨22631666666666663, -510352872557601810, 284567499340026380000, -140416508860694930000⟩,
   ⟨22553888888888886, -510352872557612650, -717594027780611330000000000000000, 313908148635465890000000000000000⟩,
   ⟨22470555555555552, -510352872557594000, 49514744885164595000, -19419304416904618000⟩,
   ⟨22392777777777775, -510352872557592440, -1138269997360112300, -6722066913543985700⟩,
   ⟨22314999999999998, -510352872557597040, -597995023150684660000000000000000, 235431111476653220000000000000000⟩,
   ⟨22231666666666663, -528579760863226010, 358797013890394180000000000000000, -156954074317758360000000000000000⟩,
   ⟨22153888888888886, -528579760863226010, -478396018520459760000000000000000, 235431111476605040000000000000000⟩,
   ⟨22070555555555552, -510352872557594000, -569134998680056170, 0⟩,
   ⟨21992777777777775, -510352872557594000, -569134998680056170, 0⟩,
   ⟨21914999999999998, -510352872557594000, -394131091807664030000000000000000, 101662127655760550000000000000000⟩,
   ⟨21831666666666663, -559648623999908340, -68039847447109363000000000000000000, 271686979681684320000000000000000000⟩]
/-- `atm_data.akima_T`, aviary/subsystems/atmosphere/data/MIL_SPEC_210A_Polar.py:292-498 (part 2) -/
def polarTRows_1 : List IRow :=
  [⟨21814999999999998, -56420290541869659, 179724106058273600000000000000000, -52958393110266418000000000000000⟩,
   ⟨21809444444444443, -36691356660138155, 34213589614100124000000000000000, -21426945806370121000000000000000⟩,
   ⟨21803888888888886, -41192767570713415, -655402545373059910000000000000000, 293504118974155160000000000000000⟩,
   ⟨21792777777777775, -36453776611267369, 367056503211218750000, -160536028581095600000⟩,
   ⟨21787222222222221, -36453776611267374, 35570937417503510, 0⟩,
   ⟨21781666666666663, -36453776611267374, 367092074148636250000, -160536028581095600000⟩,
   ⟨21776111111111109, -36453776611267369, -717594027780462760000000000000000, 313908148635370140000000000000000⟩,
   ⟨21764999999999998, -36453776611267369, 305874490853112670000, -120390351180763460000⟩,
   ⟨21759444444444443, -36453776611258050, 0, -40098996380099195000⟩,
   ⟨21753888888888886, -36453776611286017, -717594027780246510000000000000000, 313908148635306540000000000000000⟩,
   ⟨21742777777777775, -36453776611266946, 358626191043270350000, -156848227982693020000⟩,
   ⟨21737222222222221, -36453776611266935, -71141874835006175, 46681020232943236⟩,
   ⟨21731666666666663, -36453776611266935, 358519478231017870000, -156801546962460070000⟩,
   ⟨21726111111111109, -36453776611266941, -717594027780496810000000000000000, 313908148635388800000000000000000⟩,
   ⟨21714999999999998, -36453776611266941, 298831445244446980000, -117636170987019760000⟩,
   ⟨21709444444444443, -36453776611257833, 35570937417503087, -39212056995672322000⟩,
   ⟨21703888888888886, -36453776611285155, -717594027780255070000000000000000, 313908148635308530000000000000000⟩,
   ⟨21692777777777775, -36453776611267369, 305874490853112670000, -120390351180763460000⟩,
   ⟨21687222222222221, -36453776611258050, 35570937417503510, -40145677400332146000⟩,
   ⟨21681666666666663, -36453776611286023, -717594027780365860000000000000000, 313908148635384960000000000000000⟩,
   ⟨21670555555555552, -36453776611248726, 7149758420918120600, -2800861213976594400⟩,
   ⟨21664999999999998, -36453776611248504, 35570937417503510, -980301424891831490⟩,
   ⟨21659444444444443, -36453776611249171, -717594027780605060000000000000000, 313908148635383110000000000000000⟩,
   ⟨21648333333333332, -36453776611286017, 122328453778794570000, 46681020232944353⟩,
   ⟨21642777777777775, -36453776611248726, 0, 46681020232944353⟩,
   ⟨21637222222222221, -36453776611248721, -119553920660227870000, 46681020232943236⟩,
   ⟨21631666666666663, -36453776611285155, -717594027780377290000000000000000, 313908148635388800000000000000000⟩,
   ⟨21620555555555552, -36453776611248726, 35570937417503510, 0⟩,
   ⟨21614999999999998, -36453776611248726, 35570937417503510, 0⟩,
   ⟨21609444444444443, -36453776611248726, -717594027780616330000000000000000, 313908148635388800000000000000000⟩,
   ⟨21598333333333332, -36453776611285155, 179313095521633060000, -39212056995672322000⟩,
   ⟨21592777777777775, -36453776611257833, 239107841320458590000, -117682852007252710000⟩,
   ⟨21587222222222221, -36453776611266946, -717594027780371700000000000000000, 313908148635306540000000000000000⟩,
   ⟨21576111111111109, -36453776611286017, 122328453778794570000, 46681020232944353⟩,
   ⟨21570555555555552, -36453776611248726, 0, 46681020232944353⟩,
   ⟨21564999999999998, -36453776611248726, 8572595917618243500, -3734481618635459200⟩,
   ⟨21559444444444443, -36453776611248726, -717594027780610650000000000000000, 313908148635384960000000000000000⟩,
   ⟨21548333333333332, -36453776611286023, 183581608011735620000, -40145677400332146000⟩,
   ⟨21542777777777775, -36453776611258050, 244728049432424170000, -120390351180763460000⟩,
   ⟨21537222222222221, -36453776611267369, -717594027780371700000000000000000, 313908148635308530000000000000000⟩,
   ⟨21526111111111109, -36453776611285155, 119553920660227870000, 0⟩,
   ⟨21520555555555552, -36453776611248726, 35570937417503510, 0⟩,
   ⟨21514999999999998, -36453776611248726, 71141874835007021, -46681020232944353⟩,
   ⟨21509444444444443, -36453776611248732, -717594027780607770000000000000000, 313908148635383110000000000000000⟩,
   ⟨21498333333333332, -36453776611286456, 187814549564418530000, -41032616784758086000⟩,
   ⟨21492777777777775, -36453776611257833, 250454970356639220000, -123237893414970140000⟩,
   ⟨21487222222222221, -36453776611267369, -717594027780363150000000000000000, 313908148635302840000000000000000⟩,
   ⟨21476111111111109, -36453776611286462, 187921262376671050000, -41125978825223973000⟩,
   ⟨21470555555555552, -36453776611257839, 250526112231474250000, -123284574435203100000⟩,
   ⟨21464999999999998, -36453776611267369, -717594027780511120000000000000000, 313908148635398130000000000000000⟩,
   ⟨21453888888888886, -36453776611267808, 384201695046450810000, -168051672838595650000⟩,
   ⟨21448333333333332, -36453776611267808, 35570937417503934, 0⟩,
   ⟨21442777777777775, -36453776611267803, 384130553171615820000, -168004991818362730000⟩,
   ⟨21437222222222221, -36453776611267808, -717594027780326050000000000000000, 313908148635282260000000000000000⟩,
   ⟨21426111111111109, -36453776611287335, 192225345804191260000, -42059599229883857000⟩,
   ⟨21420555555555552, -36453776611258050, 256146320343439750000, -126038754628946740000⟩,
   ⟨21414999999999998, -36453776611267808, -717594027780511040000000000000000, 313908148635399980000000000000000⟩,
   ⟨21403888888888886, -36453776611266935, 367056503211214360000, -160536028581091810000⟩,
   ⟨21398333333333332, -36453776611266941, 35570937417503087, 0⟩,
   ⟨21392777777777775, -36453776611266941, 350053595125656210000, -153113746364061130000⟩,
   ⟨21387222222222221, -36453776611266941, -717594027780337400000000000000000, 313908148635285960000000000000000⟩,
   ⟨21376111111111109, -36453776611287335, 192189774866773770000, -42012918209650914000⟩,
   ⟨21370555555555552, -36453776611258045, 256075178468604720000, -125992073608713800000⟩,
   ⟨21364999999999998, -36453776611267808, -717594027780459790000000000000000, 313908148635370000000000000000000⟩]
/-- `atm_data.akima_T`, aviary/subsystems/atmosphere/data/MIL_SPEC_210A_Polar.py:292-498 (part 3) -/
def polarTRows_2 : List IRow :=
  [⟨21353888888888886, -36453776611266946, 350124737000491200000, -153160427384294050000⟩,
   ⟨21348333333333332, -36453776611266941, 35570937417503087, 0⟩,
   ⟨21342777777777775, -36453776611266941, 350089166063073710000, -153160427384294050000⟩,
   ⟨21337222222222221, -36453776611266946, -717594027780354510000000000000000, 313908148635297210000000000000000⟩,
   ⟨21326111111111109, -36453776611284722, 175009012094115200000, -38231755570780510000⟩,
   ⟨21320555555555552, -36453776611258045, 233309778521408320000, -114788628752812870000⟩,
   ⟨21314999999999998, -36453776611266941, -717594027780471140000000000000000, 313908148635373780000000000000000⟩,
   ⟨21303888888888886, -36453776611266941, 350053595125656210000, -153113746364061130000⟩,
   ⟨21298333333333332, -36453776611266941, 35570937417503087, 0⟩,
   ⟨21292777777777775, -36453776611266941, 367092074148631860000, -160536028581091810000⟩,
   ⟨21287222222222221, -36453776611266941, -717594027780405750000000000000000, 313908148635327120000000000000000⟩,
   ⟨21276111111111109, -36453776611284722, 175044583031532690000, -38278436591013461000⟩,
   ⟨21270555555555552, -36453776611258050, 233416491333660800000, -114881990793278770000⟩,
   ⟨21264999999999998, -36453776611266946, -717594027780465470000000000000000, 313908148635370000000000000000000⟩,
   ⟨21253888888888886, -36453776611267808, 384166124109033320000, -168004991818362730000⟩,
   ⟨21248333333333332, -36453776611267808, 35570937417503934, 0⟩,
   ⟨21242777777777775, -36453776611267808, 384166124109033320000, -168004991818362730000⟩,
   ⟨21237222222222221, -36453776611267808, -717594027780388640000000000000000, 313908148635319640000000000000000⟩,
   ⟨21226111111111109, -36453776611285594, 183617178949150920000, -40145677400331183000⟩,
   ⟨21220555555555552, -36453776611257617, 244728049432421240000, -120390351180760620000⟩,
   ⟨21214999999999998, -36453776611266941, -717594027780522390000000000000000, 313908148635403690000000000000000⟩,
   ⟨21203888888888886, -36453776611266935, 367056503211214360000, -160536028581091810000⟩,
   ⟨21198333333333332, -36453776611266941, 35570937417503087, 0⟩,
   ⟨21192777777777775, -36453776611266941, 350053595125656210000, -153113746364061130000⟩,
   ⟨21187222222222221, -36453776611266941, -717594027780337400000000000000000, 313908148635285960000000000000000⟩,
   ⟨21176111111111109, -36453776611287335, 128197658452684170000, -46681020232945462⟩,
   ⟨21170555555555552, -36453776611248298, 106712812252509260, -46681020232943236⟩,
   ⟨21164999999999998, -36453776611248287, -35570937417503087, 46681020232943236⟩,
   ⟨21159444444444443, -36453776611248287, -717594027780650630000000000000000, 313908148635407460000000000000000⟩,
   ⟨21148333333333332, -36453776611284722, 175044583031532690000, -38278436591013461000⟩,
   ⟨21142777777777775, -36453776611258050, 233416491333660800000, -114881990793278770000⟩,
   ⟨21137222222222221, -36453776611266946, -717594027780354510000000000000000, 313908148635297210000000000000000⟩,
   ⟨21126111111111109, -36453776611284722, 116708245666827630000, 0⟩,
   ⟨21120555555555552, -36453776611249160, 35570937417503934, 0⟩,
   ⟨21114999999999998, -36453776611249165, 17180762772653992000, -7515644257503860600⟩,
   ⟨21109444444444443, -36453776611249154, -717594027780633520000000000000000, 313908148635399980000000000000000⟩,
   ⟨21098333333333332, -36453776611285594, 122399595653628110000, 46681020232943236⟩,
   ⟨21092777777777775, -36453776611248292, 35570937417503087, 0⟩,
   ⟨21087222222222221, -36453776611248287, -128019803765596650000, -46681020232945462⟩,
   ⟨21081666666666663, -36453776611287335, -717594027780314700000000000000000, 313908148635358820000000000000000⟩,
   ⟨21070555555555552, -36453776611250027, 5691349986800628800, 46681020232945462⟩,
   ⟨21064999999999998, -36453776611248292, 0, 46681020232943236⟩,
   ⟨21059444444444443, -36453776611248282, -122435166591045630000, 46681020232943236⟩,
   ⟨21053888888888886, -36453776611285594, -717594027780272010000000000000000, 313908148635319640000000000000000⟩,
   ⟨21042777777777775, -36453776611267803, 320102865820110270000, -125992073608713800000⟩,
   ⟨21037222222222221, -36453776611258045, 35570937417503934, -42059599229883857000⟩,
   ⟨21031666666666663, -36453776611287335, -597995023150184830000000000000000, 235431111476481690000000000000000⟩,
   ⟨21020555555555552, -54680664916881977, 125209699709610860000, 78477037158802383000000000000000⟩,
   ⟨21014999999999998, 0, 0, 0⟩,
   ⟨21014999999999998, 0, 0, 0⟩,
   ⟨21014999999999998, 0, 0, 0⟩,
   ⟨21014999999999998, 0, 0, 0⟩,
   ⟨21014999999999998, 0, 0, 0⟩,
   ⟨21014999999999998, 0, 0, 0⟩,
   ⟨21014999999999998, 0, 0, 0⟩,
   ⟨21014999999999998, 0, 0, 0⟩,
   ⟨21014999999999998, 0, 0, 0⟩,
   ⟨21014999999999998, 0, 0, 0⟩,
   ⟨21014999999999998, 0, 0, 0⟩,
   ⟨21014999999999998, 0, 0, 0⟩,
   ⟨21014999999999998, 0, 0, 0⟩,
   ⟨21014999999999998, 0, 0, 0⟩,
   ⟨21014999999999998, 0, 0, 0⟩,
   ⟨21014999999999998, 0, 0, 0⟩]
/-- `atm_data.akima_T`, aviary/subsystems/atmosphere/data/MIL_SPEC_210A_Polar.py:292-498 (part 4) -/
def polarTRows_3 : List IRow :=
  [⟨21014999999999998, 0, 0, 0⟩,
   ⟨21014999999999998, 0, 0, 0⟩,
   ⟨21014999999999998, 0, 0, 0⟩,
   ⟨21014999999999998, 0, 0, 0⟩,
   ⟨21014999999999998, 0, 0, 0⟩,
   ⟨21014999999999998, 0, 0, 0⟩,
   ⟨21014999999999998, 0, 0, 0⟩,
   ⟨21014999999999998, 0, 0, 0⟩,
   ⟨21014999999999998, 0, 0, 0⟩,
   ⟨21014999999999998, 0, 0, 0⟩,
   ⟨21014999999999998, 0, 0, 0⟩,
   ⟨21014999999999998, 0, 0, 0⟩,
   ⟨21014999999999998, 0, 0, 0⟩,
   ⟨21014999999999998, 0, 0, 0⟩]
/-- `atm_data.akima_T`, aviary/subsystems/atmosphere/data/MIL_SPEC_210A_Polar.py:292-498 -/
def polarTRows : List IRow :=
  polarTRows_0 ++ polarTRows_1 ++ polarTRows_2 ++ polarTRows_3
/-- `atm_data.akima_T`, aviary/subsystems/atmosphere/data/MIL_SPEC_210A_Polar.py:292-498, with the column exponents. -/
def polarT : CTab := ⟨14, 20, 38, 40, polarTRows⟩
/-- `atm_data.akima_P`, aviary/subsystems/atmosphere/data/MIL_SPEC_210A_Polar.py:500-706 (part 1) -/
def polarPRows_0 : List IRow :=
  [⟨1010353520000000000, -1218679461942267700, 0, 0⟩,
   ⟨1010353520000000000, -1218679461942267700, 96928295708429812000000000000000, 31800621951613645000000000000000⟩,
   ⟨992118529999999880, -1166977909011371400, 266552813198184290000000000000000, -111302176830546040000000000000000⟩,
   ⟨974558909999999890, -1163284940944879700, -290784887125263710000000000000000, 143102798782125940000000000000000⟩,
   ⟨956661604999999980, -1152206036745401900, 145392443562694850000000000000000, -22944655064896701000⟩,
   ⟨939439670000000040, -1107890419947509200, 5827942386483762500, 0⟩,
   ⟨922555420000000010, -1107890419947508100, -1165588477296751600, 1529643670993111600⟩,
   ⟨905671169999999980, -1107890419947507100, 228906929122507610000000000000000, -59729370188604502000000000000000⟩,
   ⟨897566729999999950, -1083811753606106100, 183445510741988530000000000000000, -134817532992007670000000000000000⟩,
   ⟨889124604999999860, -1079889688922129300, -367463661749717300000000000000000, 215960809998216690000000000000000⟩,
   ⟨872578040000000040, -1041416994750716900, 870694592540673510000, -308988021540608520000⟩,
   ⟨856706845000000030, -1041416994750667200, -1165588477296753300, 0⟩,
   ⟨840835649999999880, -1041416994750667200, -209509608114818480000000000000000, 137473496138420230000000000000000⟩,
   ⟨824964455000000020, -1009411271507726900, 161547159513995970000000000000000, -53001036585945187000000000000000⟩,
   ⟨809768629999999980, -997101377952752800, -61146354769265167000000000000000, 40122280032339263000000000000000⟩,
   ⟨794572805000000080, -987782673485908270, 168492177586488930000000000000000, -55279585822327470000000000000000⟩,
   ⟨779714664999999950, -974943569553809830, 2331176954593503300, 21415011393903565000⟩,
   ⟨764856524999999970, -974943569553793310, 218088665343733850000000000000000, -47700932927283519000000000000000⟩,
   ⟨750336069999999890, -941706856955378410, 186494156367480240000, 47700932927289634000000000000000⟩,
   ⟨736153300000000020, -908470144356961920, 166679152253435480000, -68833965194690025000⟩,
   ⟨722308215000000050, -908470144356959080, -47789127569166814000, 19885367722910448000⟩,
   ⟨708463129999999950, -908470144356960140, 75350482333073931000000000000000, 4598723629901259700000000000000⟩,
   ⟨697994895000000110, -889053171538753340, 3264359034153971300000000000000000, -5670706844432649000000000000000000⟩,
   ⟨694955729999999890, -874304402958397730, -252218557430128640000000000000000, 113796815056861220000000000000000⟩,
   ⟨681448329999999990, -871890093804849190, -43875826163778091000000000000000, 62095889017859781000000000000000⟩,
   ⟨668278614999999990, -841996719160105300, 75763251024288859000, -30592873419862229000⟩,
   ⟨655446585000000050, -841996719160102990, -96928295708462392000000000000000, 63601243903179805000000000000000⟩,
   ⟨642614555000000040, -827404991677872200, 99292400481796705000000000000000, -32576246877226909000000000000000⟩,
   ⟨630120210000000010, -819838910761157540, -1165588477296751600, 6118574683972446600⟩,
   ⟨617625864999999980, -819838910761153810, 145392443562827050000000000000000, -101721304121041920000⟩,
   ⟨605469205000000000, -775523293963274710, 138705028798313850000, -30592873419862406000⟩,
   ⟨593650229999999940, -775523293963253570, -110775195095218500000000000000000, 72687135889280933000000000000000⟩,
   ⟨581831255000000020, -758641154230720980, 69234496934555165000000000000000, -22714729965400513000000000000000⟩,
   ⟨570349965000000010, -753365485564304560, -70578856098334924000000000000000, 46311585366369749000000000000000⟩,
   ⟨558868675000000000, -742609267894911800, 149627174928516280000000000000000, -49090280488354074000000000000000⟩,
   ⟨547725069999999980, -731207677165355200, -130853199206357940000000000000000, 85861679269274638000000000000000⟩,
   ⟨536581465000000030, -711303205213755160, 29571344453420076000000000000000, -9701884663194954600000000000000⟩,
   ⟨525775544999999980, -709049868766404060, -12828745020232633000000000000000, 8417811693066051900000000000000⟩,
   ⟨514969625000000010, -707094768025320160, 265127397084824420000000000000000, -86984054161684052000000000000000⟩,
   ⟨504501389999999960, -686892060367453720, -23311769545935099000, 31357695255358968000⟩,
   ⟨494033155000000040, -686892060367438970, 678498069958833730000000000000000, -254404975612615950000000000000000⟩,
   ⟨484240289999999950, -657348315835521290, -242320739271139780000000000000000, 127202487806373350000000000000000⟩,
   ⟨474109739999999950, -642576443569552770, 15152650204857815000, -5353752848475922000⟩,
   ⟨464316875000000000, -642576443569552320, -12238679011615855000, 5353752848475857500⟩,
   ⟨454524009999999980, -642576443569551880, 145392443562565220000000000000000, 41300379116814252000⟩,
   ⟨445068829999999940, -598260826771653690, 69352514399156512000, -30592873419862044000⟩,
   ⟨435951334999999960, -598260826771653690, -1165588477296755000, 764821835496560270⟩,
   ⟨426833839999999980, -598260826771653600, -53409469063928137000000000000000, 35045583375260361000000000000000⟩,
   ⟨417716344999999930, -590121223686325540, 183965948997785340000000000000000, -60356282479596374000000000000000⟩,
   ⟨408936535000000000, -576103018372700500, -103690734943981200000000000000000, 68038539989470790000000000000000⟩,
   ⟨400156725000000010, -560251663133454160, 82761852489547617000000000000000, -27152838743296684000000000000000⟩,
   ⟨391714599999999990, -553945209973755580, 0, 0⟩,
   ⟨383272474999999980, -553945209973755580, 0, 0⟩,
   ⟨374830349999999960, -553945209973755580, 145392443562795720000000000000000, -55831993991248231000⟩,
   ⟨366725910000000000, -509629593175854370, 34967654318902649000, -15296436709931203000⟩,
   ⟨358959155000000030, -509629593175854370, -3496765431890244400, 2294465506489653500⟩,
   ⟨351192399999999980, -509629593175853830, 16901032920802948000, -6118574683972482200⟩,
   ⟨343425645000000000, -509629593175852680, -93247078183740398000, 41300379116814252000⟩,
   ⟨335658889999999960, -509629593175852590, 145392443562735400000000000000000, -30592873419862406000⟩,
   ⟨328229820000000040, -465313976377952000, 15152650204857635000, -6883396519468878600⟩,
   ⟨321138434999999990, -465313976377952090, 0, 0⟩,
   ⟨314047050000000020, -465313976377952090, -72849279831047187000, 27533586077876166000⟩,
   ⟨306955664999999970, -465313976377955370, 389394457111411200000000000000000, -160106308102832040000000000000000⟩,
   ⟨300201965000000020, -458184266444869960, -8806653495794253300000000000000000, 30910293669371000000000000000000000⟩]
/-- `atm_data.akima_P`, aviary/subsystems/atmosphere/data/MIL_SPEC_210A_Polar.py:500-706 (part 2) -/
def polarPRows_1 : List IRow :=
  [⟨299188909999999960, -443156167978998110, 213570733487881710000000000000000, -103127723323287210000000000000000⟩,
   ⟨293448264999999990, -440910590047318700, -174861970225024980000000000000000, 105070345730837400000000000000000⟩,
   ⟨286694565000000000, -420998359580061800, 164930769537490830000, -64245034181711068000⟩,
   ⟨280278550000000030, -420998359580056290, -582794238648377520, 0⟩,
   ⟨273862534999999990, -420998359580056290, -72696221781305627000000000000000, 47700932927376337000000000000000⟩,
   ⟨267446519999999980, -409919455380578150, 145392443562656420000000000000000, -47700932927375574000000000000000⟩,
   ⟨261368190000000000, -398840551181100040, -582794238648370580, 0⟩,
   ⟨255289859999999970, -398840551181100090, -72696221781360997000000000000000, 47700932927391626000000000000000⟩,
   ⟨249211529999999980, -387761646981627980, 145392443562643300000000000000000, -47700932927371364000000000000000⟩,
   ⟨243470884999999980, -376682742782150990, 582794238648377520, 0⟩,
   ⟨237730240000000010, -376682742782150990, -81783249504042337000000000000000, 53663549543324476000000000000000⟩,
   ⟨231989595000000010, -364218975557742160, 127218388117355740000000000000000, -41738316311470032000000000000000⟩,
   ⟨226586634999999990, -354524934383201050, -145392443562670410000000000000000, 95401865854766819000000000000000⟩,
   ⟨221183675000000000, -332367125984252840, 291397119324188760, 0⟩,
   ⟨216118400000000000, -332367125984252840, 291397119324188760, 0⟩,
   ⟨211053125000000000, -332367125984252840, 51285893001056611000, -16826080380923925000⟩,
   ⟨205987850000000000, -332367125984248890, -90489003336251251000000000000000, 59375986441093057000000000000000⟩,
   ⟨200922575000000000, -318576601875816050, 109806880452909720000000000000000, -36025879413681796000000000000000⟩,
   ⟨196194984999999980, -310209317585302590, -59478726911980830000000000000000, 39028036031488548000000000000000⟩,
   ⟨191467395000000000, -301075564504818560, 170919361134705280000000000000000, -56075905884082619000000000000000⟩,
   ⟨187077490000000000, -288051509186348880, 22437578187962266000, -14914025792182570000⟩,
   ⟨182687585000000000, -288051509186352250, -1165588477296755000, 0⟩,
   ⟨178297680000000000, -288051509186352340, -2643498973866358600000000000000, 1734579379177404800000000000000⟩,
   ⟨173907775000000000, -288051509186352340, 290784887125300870000000000000000, -95401865854752673000000000000000⟩,
   ⟨169855554999999990, -265893700787400840, 291397119324188760, 0⟩,
   ⟨165803335000000010, -265893700787400840, -145392443562641570000000000000000, 95401865854754215000000000000000⟩,
   ⟨161751114999999990, -243735892388451790, 0, 0⟩,
   ⟨158036579999999990, -243735892388451790, 0, 0⟩,
   ⟨154322045000000000, -243735892388451790, 0, 0⟩,
   ⟨150607510000000000, -243735892388451790, -65175922976394064000000000000000, 42766353659046355000000000000000⟩,
   ⟨146892974999999990, -233595878375372300, 157713837084960910000000000000000, -51743384870396565000000000000000⟩,
   ⟨143516124999999990, -221578083989500300, 0, 0⟩,
   ⟨140139275000000020, -221578083989500300, -70518102876453680000, 30975284337610691000⟩,
   ⟨136762424999999980, -221578083989500300, 363481108906649070000000000000000, -143102798782146980000000000000000⟩,
   ⟨133723259999999990, -210499179790026370, -290784887125332530000000000000000, 143102798782151950000000000000000⟩,
   ⟨130346410000000000, -199420275590551220, 46623539091869647000, -20458984099532502000⟩,
   ⟨127307245000000000, -199420275590551240, -291397119324188760, 0⟩,
   ⟨124268080000000010, -199420275590551240, -22874673866948818000, 10133889320329423000⟩,
   ⟨121228915000000000, -199420275590551240, 363481108906642950000000000000000, -143102798782142210000000000000000⟩,
   ⟨118527434999999990, -188341371391076180, -290784887125323770000000000000000, 143102798782146590000000000000000⟩,
   ⟨115488269999999990, -177262467191602170, 53908467074974279000, -21415011393903176000⟩,
   ⟨112786790000000000, -177262467191600500, -42835376540655747000, 21223805935029546000⟩,
   ⟨110085309999999990, -177262467191598860, 363481108906641650000000000000000, -143102798782145460000000000000000⟩,
   ⟨107721515000000000, -166183562992126420, -218088665344014050000000000000000, 95401865854775424000000000000000⟩,
   ⟨105020034999999990, -166183562992125890, 218088665344000390000000000000000, -95401865854768547000000000000000⟩,
   ⟨102656240000000000, -166183562992125890, -218088665343979140000000000000000, 95401865854758619000000000000000⟩,
   ⟨99954759999999987, -166183562992125580, 72696221781330249000000000000000, 764821835496560270⟩,
   ⟨97590964999999997, -144025754593175640, 290784887125304690000000000000000, -143102798782133410000000000000000⟩,
   ⟨95564855000000007, -155104658792646370, -36133242796198974000, 7839423813839556200⟩,
   ⟨93201059999999998, -155104658792651870, -66888534641816903000000000000000, 43890114594360551000000000000000⟩,
   ⟨90837264999999989, -144910846113244740, 157007817841836700000000000000000, -51511751260454083000000000000000⟩,
   ⟨88811154999999999, -132946850393703200, -13258568929250747000, 8795451108210652600⟩,
   ⟨86785044999999991, -132946850393701180, 9179009258711836400, -1147232753244813000⟩,
   ⟨84758934999999983, -132946850393699180, 35841845676874793000, -16826080380923925000⟩,
   ⟨82732825000000012, -132946850393700040, -41524089503697392000, 13766793038938410000⟩,
   ⟨80706715000000004, -132946850393703180, 20252099793030879000, 191205458874135490⟩,
   ⟨78680604999999996, -132946850393696890, 363481108906574990000000000000000, -143102798782119220000000000000000⟩,
   ⟨76992179999999989, -121867946194225380, -290784887125276150000000000000000, 143102798782123890000000000000000⟩,
   ⟨74966070000000009, -110789041994751480, 16609635801478562000, -7265807437217149100⟩,
   ⟨73277644999999993, -110789041994751480, -2768272633579826200, 1912054588741445900⟩,
   ⟨71589220000000005, -110789041994751060, 7576325102428817600, -3059287341986167900⟩,
   ⟨69900794999999989, -110789041994750950, -12675774690602361000, 6118574683972627600⟩,
   ⟨68212370000000001, -110789041994750610, 7430626542766724600, -2485670965363761800⟩,
   ⟨66523944999999994, -110789041994750040, 3933861110876501100, 0⟩]
/-- `atm_data.akima_P`, aviary/subsystems/atmosphere/data/MIL_SPEC_210A_Polar.py:500-706 (part 3) -/
def polarPRows_2 : List IRow :=
  [⟨64835519999999997, -110789041994748840, 363481108906612250000000000000000, -143102798782133080000000000000000⟩,
   ⟨63484779999999992, -99710137795275633, -290784887125262190000000000000000, 143102798782113360000000000000000⟩,
   ⟨61796355000000003, -88631233595804826, 17629525719113629000, 0⟩,
   ⟨60445614999999998, -88631233595799430, 2331176954593482300, -1625246400430151800⟩,
   ⟨59094875000000002, -88631233595799808, 145698559662092650, -956027294370677560⟩,
   ⟨57744134999999997, -88631233595800452, -19305059155227734000, 8030629272714074200⟩,
   ⟨56393395000000000, -88631233595800774, 14205609567054032000, -6022971954535268400⟩,
   ⟨55042654999999995, -88631233595800663, -21490537550159175000, 10325094779203808000⟩,
   ⟨53691914999999999, -88631233595800019, 7649174382259864000, -2581273694800829100⟩,
   ⟨52341175000000003, -88631233595799441, -11364487653643226000, 5066944660164590900⟩,
   ⟨50990434999999998, -88631233595799430, 363481108906630680000000000000000, -143102798782140360000000000000000⟩,
   ⟨49977379999999994, -77552329396325659, -218088665343971890000000000000000, 95401865854755367000000000000000⟩,
   ⟨48626639999999998, -77552329396325359, 218088665343972240000000000000000, -95401865854756857000000000000000⟩,
   ⟨47613584999999994, -77552329396324970, -290784887125292240000000000000000, 143102798782130180000000000000000⟩,
   ⟨46262845000000007, -66473425196851588, 30888094648363642000, -13575587580063621000⟩,
   ⟨45249790000000003, -66473425196851599, -6046490225976988200, 4015314636357037100⟩,
   ⟨44236734999999999, -66473425196850677, 24695905862724703000, -10803108426388657000⟩,
   ⟨43223680000000004, -66473425196850677, -21199140430834985000, 9942683861455518900⟩,
   ⟨42210625000000000, -66473425196850211, 1529834876451972900, -191205458874135490⟩,
   ⟨41197569999999996, -66473425196849878, 4079559670538594100, -2007657318178423000⟩,
   ⟨40184514999999997, -66473425196850033, -16682485081310004000, 5449355577913121300⟩,
   ⟨39171459999999997, -66473425196851299, 8304817900739281100, 0⟩,
   ⟨38158404999999993, -66473425196848734, 436177330687986980000000000000000, -190803731709530150000000000000000⟩,
   ⟨37483035000000004, -66473425196849723, -30815245368533327000, 12141546638508182000⟩,
   ⟨36469980000000000, -66473425196850655, -84437535952181777000000000000000, 55405207317708115000000000000000⟩,
   ⟨35456925000000001, -53582996214328826, 121619152446555340000000000000000, -39901296734433138000000000000000⟩,
   ⟨34781554999999998, -44315616797900320, 25642946500528306000, -14244806686123094000⟩,
   ⟨34106185000000000, -44315616797902424, -284323000744717480000000000000000, 110242156098820460000000000000000⟩,
   ⟨33160666999999999, -54163531641879470, 1292377276109099700000000000000, 3392066341507228400000000000000⟩,
   ⟨32350222999999996, -51406115485563753, -1453924435620644700000000000000, 2862055975639743200000000000000⟩,
   ⟨31573547500000000, -49855068897637694, 7269622178121171900000000000000, 4493328283542397500⟩,
   ⟨30830640500000000, -47639288057743251, 19385659141703932000000000000000, -7950155487903116800000000000000⟩,
   ⟨30121502000000000, -47269991251093535, -48464147854190186000000000000000, 25440497561252001000000000000000⟩,
   ⟨29378595000000000, -44315616797903762, 26517137858501494000, -5783965130942874500⟩,
   ⟨28703224999999998, -44315616797899715, -36424639915523161, 0⟩,
   ⟨28027855000000000, -44315616797899721, -10672419495248540000, 2485670965363879700⟩,
   ⟨27352485000000001, -44315616797901242, -407098841975432440000000000000000, 181263545124043150000000000000000⟩,
   ⟨26373198499999999, -42099835958005910, 421638086331737470000000000000000, -181263545124058940000000000000000⟩,
   ⟨26069281999999998, -39884055118110412, -11838007972545308000, 5927369225098483200⟩,
   ⟨25461448999999998, -39884055118109885, -109273919746569480, 47801364718533874⟩,
   ⟨24853615999999997, -39884055118109890, -18685840276663827000, 8174033366869682000⟩,
   ⟨24245782999999997, -39884055118109890, 21808866534399967000000000000000, -4770093292738323100000000000000⟩,
   ⟨23671718499999997, -36560383858267287, 19385659141695445000000000000000, -7950155487900343800000000000000⟩,
   ⟨23131422500000003, -36191087051618254, -33924903497975403000000000000000, 15900310975803214000000000000000⟩,
   ⟨22557357999999999, -35452493438320193, 36348110890676205000000000000000, -14310279878219558000000000000000⟩,
   ⟨22050830500000002, -34344603018372855, -29078488712548504000000000000000, 14310279878222963000000000000000⟩,
   ⟨21510534499999999, -33236712598424711, 37878557665000333000000000000000, -15314510045101934000000000000000⟩,
   ⟨21037775499999998, -32362062266886521, -6519027685280038700000000000000, 511714095463352350000000000000⟩,
   ⟨20531248000000001, -33992513442264405, -311800862235599420000000000000000, 840491370983804260000000000000000⟩,
   ⟨20429942500000000, -31652162617101676, 37926453109652161000000000000000, -18971243805242788000000000000000⟩,
   ⟨20058489000000000, -31020931758529807, -145698559662092650, -478013647185338780⟩,
   ⟨19585729999999999, -31020931758530196, -12085746871158164000000000000000, 7930280099183156700000000000000⟩,
   ⟨19112970999999998, -29176741494269459, 4876516740613585400000000000000, -1599907067130581300000000000000⟩,
   ⟨18673980500000000, -28805150918634809, -3443505242273684500000000000000, 2259517875507335000000000000000⟩,
   ⟨18234990000000000, -28280360719712522, 22191478227976964000000000000000, -7280668709965259600000000000000⟩,
   ⟨17829768000000001, -26589370078739977, 1639108796198542300, -1051630023807745300⟩,
   ⟨17424546000000000, -26589370078740221, -5135874228088888200, 1673047765148765200⟩,
   ⟨17019323999999999, -26589370078740610, -9382304138357308100000000000000, 6156367544857188700000000000000⟩,
   ⟨16614102000000000, -25159506928052594, 10313880435797079000000000000000, -3383819040616733300000000000000⟩,
   ⟨16242648499999998, -24373589238845497, -18212319957762014, 0⟩,
   ⟨15871194999999998, -24373589238845497, -9559553164232859900000000000000, 6272672679945880600000000000000⟩,
   ⟨15499741500000000, -22916713336614211, 9959382384037361300000000000000, -3267513905523296900000000000000⟩,
   ⟨15162056500000001, -22157808398950005, 18212319957761581, 0⟩,
   ⟨14824371500000000, -22157808398950005, 18212319957761581, 0⟩]
/-- `atm_data.akima_P`, aviary/subsystems/atmosphere/data/MIL_SPEC_210A_Polar.py:500-706 (part 4) -/
def polarPRows_3 : List IRow :=
  [⟨14486686499999998, -22157808398950005, -7485263502640187300, 3274393483219726500⟩,
   ⟨14149001499999999, -22157808398950005, 36348110890667862000000000000000, -14310279878215901000000000000000⟩,
   ⟨13845084999999999, -21049917979002664, -21808866534404875000000000000000, 9540186585479204300000000000000⟩,
   ⟨13507400000000000, -21049917979002572, 7269622178134748800000000000000, -525815011903872650⟩,
   ⟨13203483500000000, -18834137139107440, 21808866534401368000000000000000, -9540186585477506000000000000000⟩,
   ⟨12933335500000001, -18834137139107568, -21808866534406022000000000000000, 9540186585479394900000000000000⟩,
   ⟨12629419000000000, -18834137139107693, 19385659141691491000000000000000, -7950155487898456000000000000000⟩,
   ⟨12359270999999999, -18464840332458532, -33924903497961834000000000000000, 15900310975798098000000000000000⟩,
   ⟨12055354499999999, -17726246719159885, 43617733068793721000000000000000, -19080373170949972000000000000000⟩,
   ⟨11818974999999998, -17726246719159375, -2385813914466767200, 0⟩,
   ⟨11548827000000001, -17726246719160096, -11118245684211063000000000000000, 7295436800661977600000000000000⟩,
   ⟨11278679000000000, -16031826076887440, 6841997344128253400000000000000, -2244749784819437200000000000000⟩,
   ⟨11042299499999999, -15510465879265195, 728492798310480480, -478013647185361470⟩,
   ⟨10805920000000001, -15510465879265306, 0, 0⟩]
/-- `atm_data.akima_P`, aviary/subsystems/atmosphere/data/MIL_SPEC_210A_Polar.py:500-706 -/
def polarPRows : List IRow :=
  polarPRows_0 ++ polarPRows_1 ++ polarPRows_2 ++ polarPRows_3
/-- `atm_data.akima_P`, aviary/subsystems/atmosphere/data/MIL_SPEC_210A_Polar.py:500-706, with the column exponents. -/
def polarP : CTab := ⟨13, 17, 35, 37, polarPRows⟩
/-- `atm_data.akima_rho`, aviary/subsystems/atmosphere/data/MIL_SPEC_210A_Polar.py:708-914 (part 1) -/
def polarrhoRows_0 : List IRow :=
  [⟨1432236729196035800, -2012148070558151800, 0, 0⟩,
   ⟨1432236729196035800, -2012148070558151800, 11095474201309786000000000000000, 792046877536075490000000000⟩,
   ⟨1401829321456952800, -1978323546425353600, 11096681018166492000000000000000, -791874577890395620000000000⟩,
   ⟨1371937371430316200, -1944506380248651600, 14790670599295268000000000000000, -2425461427068454900000000000000⟩,
   ⟨1342560766986973700, -1916324371760304100, -14785383069348370000000000000000, 19410027205537918000000000000000⟩,
   ⟨1313699620256077100, -1826146429314889100, 2845674993400274400, -700215303494162090⟩,
   ⟨1285869148673318300, -1826146429314885400, 533564061262551110, -233405101164720400⟩,
   ⟨1258038677090559400, -1826146429314885100, -304377664217487960000000000000000, 441923188448716480000000000000000⟩,
   ⟨1244638907020851000, -1549734727117543200, 268964306440340350000000000000000, -176670325384068350000000000000000⟩,
   ⟨1233300487247418000, -1453578717467728700, -4422115321976155000000000000000, 2655011398839705000000000000000⟩,
   ⟨1211139217542150500, -1448557927705098200, 14869192700098516000000000000000, 2397965960869482000000000000000⟩,
   ⟨1189493421567779500, -1386528253786601000, 7235089440600454000000000000, -1581854756420715200000000000⟩,
   ⟨1168362843029099500, -1386517223167665100, -22183706325295338000000000000000, 14557821864672033000000000000000⟩,
   ⟨1147232376619572000, -1352698217020431700, 99730415092141389000000, -32721761347585646000000⟩,
   ⟨1126617255793338700, -1352698216944449200, -22053981198852144000, 10736634653577168000⟩,
   ⟨1106002134967105200, -1352698216944440800, 22192671676538599000000000000000, -3167055329219226900000000000⟩,
   ⟨1085902343705715100, -1285077020854446100, 8273772524389123900000000000, -1809380257981957400000000000⟩,
   ⟨1066317898027619300, -1285064409665277400, -22182327692743065000000000000000, 14557143299534402000000000000000⟩,
   ⟨1046733580497125800, -1251245929505670700, 1430129538870724400000, -469377658442252730000⟩,
   ⟨1027664592531476000, -1251245929504580500, -889273435437585080, 233405101164720400⟩,
   ⟨1008595604565826200, -1251245929504580500, 46180481015396688000000000000000, -15742746880909506000000000000000⟩,
   ⟨990041962183470290, -1220179001608677000, -166291020401187740000000000000000, 128651389775294750000000000000000⟩,
   ⟨975611324744220850, -1084186544453826300, 479098379479098180000000000000000, -704851580747051240000000000000000⟩,
   ⟨972003713439759330, -1013092645575867400, 1333802971866075700000000000000, -1493708291368128800000000000000⟩,
   ⟨956542288723220110, -1019434967203217700, -60114115542885914000000000000000, 27000937314177462000000000000000⟩,
   ⟨940565630552538940, -1014527604427694500, 59170116003044697000000000000000, -24265450521393346000000000000000⟩,
   ⟨925619599474644670, -1003252149880941400, -25891796446219814000000000000000, 12135327338242581000000000000000⟩,
   ⟨910158222813456260, -997614685365180640, 11099095177035730000000000000000, -1583921452625617300000000000⟩,
   ⟨895212303864713950, -963795679599430530, 29585479254154360000000000000000, -12133341121853798000000000000000⟩,
   ⟨880781730499265670, -958160959501060200, -51784819366073097000000000000000, 24270604520893310000000000000000⟩,
   ⟨865835699421371290, -946890118231696140, 59181763739384093000000000000000, -24271057010491839000000000000000⟩,
   ⟨851920535713018180, -935618225875653320, -36980357009071533000000000000000, 19411235427512280000000000000000⟩,
   ⟨837489898273768740, -913082145436432950, 5514906159319060200000000000, 224876011957960490000000⟩,
   ⟨823574654473164140, -913065334435584740, 5656724258117550900000000, -2474443479782464900000000⟩,
   ⟨809659538820161950, -913065334435138320, -22757001748654452000000000000, 9955614110888916000000000000⟩,
   ⟨795744246964206430, -913065329765270440, 33282455596356401000000000000000, -7279476382088174000000000000000⟩,
   ⟨782344476894498260, -862341816520391150, 33274009919824454000000000000000, -14556125431733913000000000000000⟩,
   ⟨769459972315832520, -862345757026971040, -44376035219858467000000000000000, 21838090900074576000000000000000⟩,
   ⟨756060138172322980, -845442034946105620, 3103371933519236400000000000, -678770730760678190000000000⟩,
   ⟨743175649612107690, -845437305358277880, -7394798750478125000000000000000, 4852909006357287300000000000000⟩,
   ⟨730291209107243100, -834162901985010960, 29591609180778333000000000000000, -9709890589630610700000000000000⟩,
   ⟨717922162241023450, -811623553740303670, -3548492725809791600000000000, 2327901046311189300000000000⟩,
   ⟨705553019264101850, -811618149364830460, 1182187955994909000000000000, -387814747894616050000000000⟩,
   ⟨693183972397882210, -811617248243618040, -4436189931511051800000000000000, 2911338246435648500000000000000⟩,
   ⟨680814941550112910, -804853342137703460, 35501931171892959000000000000000, -11648067671445652000000000000000⟩,
   ⟨668961240267187280, -777804023186000560, -5551962042272339900000000000000, 3642114431969248900000000000000⟩,
   ⟨657107474910460400, -769349140784077790, 33303491921365586000000000000000, -10929057534728023000000000000000⟩,
   ⟨645769247358431110, -743990797606091180, -1462051457551114600000000000, 958845190422580430000000000⟩,
   ⟨634430827584998250, -743988572966453230, 1216769028567335300000000000, -399096944681973840000000000⟩,
   ⟨623092455866916200, -743987645053410200, -12319684401625207000000000000000, 8086044949715715800000000000000⟩,
   ⟨611754164241085750, -725196681304171640, 19719770562596862000000000000000, -6468836012775175900000000000000⟩,
   ⟨600931202180098880, -710163910442998450, 1028857528812300500000000, -450059651839256080000000⟩,
   ⟨590108304192913270, -710163910442933540, -17757999875667745000000000000000, 11650420918614888000000000000000⟩,
   ⟨579285342131926510, -683113330017550130, 8875551813969317600000000000000, -2911700180693412600000000000000⟩,
   ⟨568977773709584580, -676348582965194110, 344885193676333170000000000, -226288555706186510000000000⟩,
   ⟨558670221305692880, -676349108472229460, -689706090393314470000000000, 226288558973855250000000000⟩,
   ⟨548362652883350950, -676349633979264400, -5545581928172471700000000000000, 3639285821122241000000000000000⟩,
   ⟨538055100479459370, -667895013980497480, 33279698669587400000000000000000, -10917857506537329000000000000000⟩,
   ⟨528262877640411350, -642531153883904620, 21408635466755120000000, 28152039574432333000000⟩,
   ⟨518470702856714370, -642531153622495620, -683698235985646260000000000, 901099526445863550000000000⟩,
   ⟨508678544091467620, -642526958918317700, 23273331351279167000000000000000, -6540635667488546900000000000000⟩,
   ⟨499195461324904720, -617163215237777390, 1906756784879855100000000000000, -522155240966094310000000000000⟩,
   ⟨489815697562825450, -614989656250290060, 6124002040067939600000000000000, -1318494161278651500000000000000⟩,
   ⟨480538820307071460, -605510606717540890, 1676378606556317300000000000000000, -6288702879327561200000000000000000⟩]
/-- `atm_data.akima_rho`, aviary/subsystems/atmosphere/data/MIL_SPEC_210A_Polar.py:708-914 (part 2) -/
def polarrhoRows_1 : List IRow :=
  [⟨479508145158933860, -681786059853575800, -33866816753194107000000000000000, 15363726185176847000000000000000⟩,
   ⟨470231219847828900, -690566384174072750, -3461358965630353400000000000000, 2567135360269260800000000000000⟩,
   ⟨459717461933128400, -683229505371775880, 5702482965369553900000000000000, -778708864879341260000000000000⟩,
   ⟨449409925547687050, -671274168854997500, 2852132839751812300000000000000, 311703041277391100000000000000⟩,
   ⟨439256983226163740, -660409005951040640, 5072193926262431500000000000000, -147743209004649140000000000⟩,
   ⟨429310150304747510, -644949988298286980, 4280962441856599600000000000000, -310830563680268880000000000000⟩,
   ⟨419569538912590410, -634067397597318880, 2222820501182188500000000000000, 725257685163627110000000000000⟩,
   ⟨409983649731953780, -622238842429585350, 5061624777536289600000000000000, -413722974485890040000000000000⟩,
   ⟨400603645693119900, -609693719261223450, 2857872318759072500000000000000, -166532952467989770000000000⟩,
   ⟨391378283773554940, -600984084789961790, 2288953621780550100000000000000, 996584102563229040000000000000⟩,
   ⟨382307724157761930, -587063427194990170, 5119816600677740500000000000000, -1032523268508987000000000000000⟩,
   ⟨373443241905175360, -578652567484765740, 502250583684203510000000000000, 1287726258514862600000000000000⟩,
   ⟨364681822361867520, -568149181397907190, 9609270424005582500000000000000, -1936036400972514100000000000000⟩,
   ⟨356177883388802910, -552349900185613670, 1492207570429284100000000000000, 966954971571059040000000000000⟩,
   ⟨347828954959364330, -541064172280790510, 5898772679641538200000000000000, -965664737181332200000000000000⟩,
   ⟨339685959727079430, -529813202381113850, 1848385217925451400000000000000, 1214990260223767400000000000000⟩,
   ⟨331697542540262180, -515713602580988500, 6938800757397082800000000000000, -912074633945341270000000000000⟩,
   ⟨323966942311144700, -500919225837472910, 1661796447779520800000000000000, 545547763137162440000000000000⟩,
   ⟨316390840035243310, -492052841840092930, 3804396407037604200000000000000, -311191067120940670000000000000⟩,
   ⟨308969299786359450, -482625336303170920, 3178378416110329500000000000000, 412584656082237580000000000000⟩,
   ⟨301702513785896520, -470062861230312230, 5540166101573308600000000000000, -724861425763972040000000000000⟩,
   ⟨294641773111739500, -458227072205132130, 1336725109072132400000000000000, 1308950260405992600000000000000⟩,
   ⟨287735770667553180, -445032324692642200, 4560055543613987300000000000000, -664683894935859840000000000000⟩,
   ⟨281035861605023640, -435764611981600160, 1138436249554537300000000000000, 501447581270671670000000000000⟩,
   ⟨274438999233322490, -428800707940405610, 5142471626284854700000000000000, -752602573341991950000000000000⟩,
   ⟨267996875091592040, -418370384446636710, 929917435182401890000000000000, 1882365027181574900000000000000⟩,
   ⟨261709136773925650, -402420188598086450, 3328740462700848700000000000000, -729388947320675510000000000000⟩,
   ⟨255627748133120840, -397356371458911060, -739790772011144490000000000000, 1210411512354215400000000000000⟩,
   ⟨249597698625551760, -391177435545848180, 9318733280666109000000000000000, -2223934731326378600000000000000⟩,
   ⟨243773870647241820, -378269708804013360, 478930785658403200000000000000, 934729157862910790000000000000⟩,
   ⟨238053249544263320, -370296989243668890, 4431860405470170000000000000000, -726022167351404810000000000000⟩,
   ⟨232487158431401610, -361847403711870850, 1108204337965120700000000000000, 730341628077680190000000000000⟩,
   ⟨227024194101619780, -353380775078230550, 4436732598506036000000000000000, -728827750025286920000000000000⟩,
   ⟨221715919946457810, -344935887639012490, 4285209893452005900000000000000, -1359134282049502500000000000000⟩,
   ⟨216510516279170810, -341344645876566980, 9643361594860718800000000000000, -2053663764272454900000000000000⟩,
   ⟨211459706675801830, -326261050248338230, 592573841995904520000000000000000, -258268634830551970000000000000000⟩,
   ⟨211108774466464390, -319641578275451010, -596948406433096100000000000000000, 262588883822408550000000000000000⟩,
   ⟨201667467818303550, -309492402785389190, 157437875977046140000000000000, 652889213830581500000000000000⟩,
   ⟨196977569918813600, -304463377683306050, -3190359709604650100000000000000, 2139272756245205600000000000000⟩,
   ⟨192339171337062380, -299281723394853940, 5548395134297786500000000000000, -1456904929058961400000000000000⟩,
   ⟨187855414874580070, -292521532293056180, -1115627000148019100000000000000, 1459209246034097500000000000000⟩,
   ⟨183423125692935870, -285754590268056410, 5551205849057387800000000000000, -1458185182646593700000000000000⟩,
   ⟨179145542704361840, -278994752566441270, -1119308583950722800000000000000, 1460983542626415500000000000000⟩,
   ⟨174919378941274990, -272226669192825940, 5554767995328014000000000000000, -1459392659810688700000000000000⟩,
   ⟨170848001463509810, -265464387441823560, -1109060608912831900000000000000, 1452979090604997700000000000000⟩,
   ⟨166827995155880930, -258720841084766790, 5006473374045182300000000000000, -1095312814150548000000000000000⟩,
   ⟨162962598930620320, -251092952004592510, 555928632917372300000000000000, -226520262376781320000000000⟩,
   ⟨159148846189151210, -249400059863034860, -2325335265551479300000000000, 1092141277397256400000000000000⟩,
   ⟨155386592765420830, -241797404126447490, 4994826110831905500000000000000, -1092651423357489600000000000000⟩,
   ⟨151778933405608470, -234186472057399780, 554980652171224080000000000000, 466810202329454620⟩,
   ⟨148222821418885740, -232494891029578520, -3325229706534714400000000000000, 3274051364159757600000000000000⟩,
   ⟨144718256805252630, -219817491811601820, 3790712431453582300000000000, -1130540671636966400000000000⟩,
   ⟨141368286255537570, -219813815020003790, -6656146552600511700000000000000, 4367776517581395700000000000000⟩,
   ⟨138018331724272770, -209668270973035140, 63088614603683476000000, -20698889532764654000000⟩,
   ⟨134822987275376310, -209668270924965380, -3409599082813074500000000000000, 2237269739377654100000000000000⟩,
   ⟨131627642826479850, -204472041922765710, 6494474443449096000000000000000, -2130733085121679600000000000000⟩,
   ⟨128586908459951690, -199523252396861740, -8692647831402523800, 4901507124459273800⟩,
   ⟨125546174093423530, -199523252396854150, 7766969949650202400000000000000, -2184284242178142500000000000000⟩,
   ⟨122608518454624380, -191069026464503960, -862306824258765060000000000, 728547419481291480000000000000⟩,
   ⟨119722394170464530, -185995334521656630, 2959589691545956900000000000000, -485911725770416320000000000000⟩,
   ⟨116939364632483970, -180360205879003370, 368770144339197960000000000000, 243257847485422680000000000000⟩,
   ⟨114207850430692450, -177541239963913470, 1480561090373750800000000000000, -243232443950516780000000000000⟩,
   ⟨111527899620440880, -174723267270676710, -1481824553426165500000000000000, 1942238925762007200000000000000⟩,
   ⟨108899448127928030, -165706875963797650, 3105779086950373600000000000, -1132111219347655200000000000⟩]
/-- `atm_data.akima_rho`, aviary/subsystems/atmosphere/data/MIL_SPEC_210A_Polar.py:708-914 (part 3) -/
def polarrhoRows_2 : List IRow :=
  [⟨106374107400044760, -165705297792182860, -2068732495270866700000000000, 1131196683748781500000000000⟩,
   ⟨103848750653711190, -165703721418021510, 7394569349298769500000000000000, -1940831850210227600000000000000⟩,
   ⟨101426472635106600, -156688262467360620, 369210721548770240000000000000, 243169913745713940000000000000⟩,
   ⟨99055725971141331, -153868566371316470, 1110564262269909600000000000000, -565598190175635910000000000⟩,
   ⟨96736542698716024, -150487507434264240, 1107978990055953000000000000000, 339148033325870190000000000⟩,
   ⟨94468858744029438, -147108024381325640, 1110392511349109000000000000000, 991971679950090990⟩,
   ⟨92252722162432493, -143723548006726700, 1110219580957497200000000000000, -339358947949121200000000000⟩,
   ⟨90088148972375492, -140341963284811770, 1108151170095191300000000000000, 452408346672373300000000000⟩,
   ⟨87975091118507528, -136961166260057050, 1110392457781184900000000000000, -339464501613290030000000000⟩,
   ⟨85913580637729206, -133579055345052860, 1109012927650504600000000000000, 226274493019660310000000000⟩,
   ⟨83903601511590223, -130197207322453340, 1109875060263000200000000000000, -113154827048865470000000000⟩,
   ⟨81945169758540867, -126815096570828510, -344788733097427230000000000, 728038165579865750000000000000⟩,
   ⟨80038269360130865, -121743375575507460, 1967517475905686400, -423046745861068230⟩,
   ⟨78182900316360188, -121743375575504510, 666955076578182890, -14587818822794761⟩,
   ⟨76327531272589497, -121743375575502500, 2219750066943343900000000000000, -226274493676112140000000000⟩,
   ⟨74523709601908475, -114979153990584480, 5547823376872073300000000000000, -2184227686738214700000000000000⟩,
   ⟨72822966658956406, -113288492749139280, -4438465606895820300000000000000, 2184227686738563000000000000000⟩,
   ⟨71070676342914710, -111597831507693980, 2219060382287283000000000000000, 131290369405159090⟩,
   ⟨69421464754601994, -104834135462481430, 1034473413421317500000000000, -452513835274848710000000000⟩,
   ⟨67823800539378920, -104834135380837840, -740721429428379380000000000000, 485811373706050970000000000000⟩,
   ⟨66226120305705530, -103706852786445330, 2960586428296863300000000000000, -971471887569203900000000000000⟩,
   ⟨64680003463572083, -101451937225225140, -4440649414028962300000000000000, 2913208615310076200000000000000⟩,
   ⟨63133854584538046, -94688591400447967, 7584624246765038400000, -2488769418081723600000⟩,
   ⟨61690800451683271, -94688591394671152, -22231835885939959, 0⟩,
   ⟨60247746318828503, -94688591394671169, -2068839710055692300000000000, 904957385344522630000000000⟩,
   ⟨58804676167523433, -94688591721194746, 3327556448160005100000000000000, -727585757183177330000000000000⟩,
   ⟨57413153389308011, -89615819319929476, 1034044890238205600000000000, 727359658437876810000000000000⟩,
   ⟨56073177984182217, -84544623292935936, 1723247466987111000000000000, -678471993266814010000000000⟩,
   ⟨54784733933695762, -84544098242961261, -1110737353176966000000000000000, 728603939427531520000000000000⟩,
   ⟨53496273864758997, -82852911625785151, 2220478147663026600000000000000, -728629063378099230000000000000⟩,
   ⟨52259377187362198, -81161783358221685, -1715532992311674900000000000, 924597012696357160000000000⟩,
   ⟨51022464491515075, -81160569962288221, 2914105161059671600000000000000, -748004917277795840000000000000⟩,
   ⟨49826783286759553, -77490272237632572, 285487184698467470000000000000, 124691111818393380000000000000⟩,
   ⟨48656875768548838, -75751293547503518, 776383787521653140000000000000, -72728408136274328000000000000⟩,
   ⟨47517883859431675, -73891627528904060, 369804967070001590000000000000, 121515778028935470000000000000⟩,
   ⟨46404665636859334, -71917773100260704, 699523441754510770000000000000, -70818522675703543000000000000⟩,
   ⟨45322379041830840, -70279069853159106, 251335618756744040000000000000, 99691774844447138000000000000⟩,
   ⟨44260692173897824, -68818373716235196, 666649446157189050000000000000, -73132085089056559000000000000⟩,
   ⟨43224795010959945, -67295990681321493, 393914096448964920000000000000, 32334331366199661000000000000⟩,
   ⟨42209497575117549, -65870043689323524, 677891429916432510000000000000, -40254357426239098000000000000⟩,
   ⟨41219957807369673, -64084312024299021, 494274003822832290000000000000, 39975160537024430000000000000⟩,
   ⟨40256207744616919, -62299228815268771, 541494198786455060000000000000, -31889477870209373000000000000⟩,
   ⟨39318215349958684, -60870951705229240, 333875913169250360000000000000, 72272214018135230000000000000⟩,
   ⟨38400854719296551, -59349724792653176, 615054294487503670000000000000, -39955822172296043000000000000⟩,
   ⟨37509235738278628, -57753440603968203, 395317710121650990000000000000, -179016441219360510000000000⟩,
   ⟨36638248521256800, -56549759561387327, 352193456145866970000000000000, 92295688162367092000000000000⟩,
   ⟨35787877049780779, -54833182656366555, 732773220028322470000000000000, -168812996090465210000000000000⟩,
   ⟨34963263246399263, -53775932921343629, 321605686757189650000000000000, 82938637451877303000000000000⟩,
   ⟨34154123266014830, -52217784921652375, 25892162701665672000000000000000, -59342764380314063000000000000000⟩,
   ⟨34014970988193276, -51695553991634588, -2377516346779105500000000000000, 1305948654866270300000000000000⟩,
   ⟨33360441090177162, -51549883220058449, 161953145517001010000000000000, 103129634360168730000000000000⟩,
   ⟨32582232737336569, -50337670791561477, 377644806139674770000000000000, 21651831411333264000000000000⟩,
   ⟨31824624111591468, -49035745350471742, 380699020562794630000000000000, 41525947553019732000000000000⟩,
   ⟨31087631231392156, -47586033228304578, 380354044210765590000000000000, -226111191753318790⟩,
   ⟨30371254096738649, -46426714101551712, 285318232377017050000000000000, -83059754740682150000000000⟩,
   ⟨29670334766631907, -45557642867045399, 227862465218124400000000000000, 100143150957861920000000000000⟩,
   ⟨28984873241071935, -44165347836123231, 488610369257772520000000000000, -87529738205493662000000000000⟩,
   ⟨28320043479508065, -43285946838352607, 147573599168809760000000000000, 48604926347539681000000000000⟩,
   ⟨27665513581491944, -42497476601836416, 591902738238214170000000000000, -36469547056986906⟩,
   ⟨27031599429021613, -40693357055686619, 295874558857080390000000000000, -100488307903341670000000000⟩,
   ⟨26418301022097079, -39792231575486901, 147822332048019660000000000000, 50283193624409091000000000⟩,
   ⟨25815302478720291, -39341318747788379, 237092321160822310000000000000, 38772311287320721000000000000⟩,
   ⟨25222619817341554, -38348506433908863, 620895577443783660000000000000, -58098261478470154000000000000⟩,
   ⟨24650552901508613, -36860829597115042, 221848445452129670000000000000, -75346711258892269000000000⟩]
/-- `atm_data.akima_rho`, aviary/subsystems/atmosphere/data/MIL_SPEC_210A_Polar.py:708-914 (part 4) -/
def polarrhoRows_3 : List IRow :=
  [⟨24093943790222439, -36185160530766712, 110579201815115710000000000000, 73011314722562189000000000000⟩,
   ⟨23547634542484010, -35339392141725054, 444501761114577120000000000000, -73086661433850429000000000000⟩,
   ⟨23016799117742660, -34493798751146983, 110349545039206940000000000000, 73086661433715326000000000000⟩,
   ⟨22496263556549052, -33648205360569290, 444386932726690850000000000000, -73011314722452956000000000000⟩,
   ⟨21991201818352523, -32802436971526776, -229656775391878690000000000, 145569846096975920000000000000⟩,
   ⟨21496439943703739, -31788845872772532, 333117689089134750000000000000, -72860386939802155000000000000⟩,
   ⟨21017135873601722, -31281174514600126, 436299779261561330, 72860386939795036000000000000⟩,
   ⟨20542989744498731, -30773503156427551, 665315679580354340000000000000, -145569846097030260000000000000⟩,
   ⟨20084301419942514, -29759912057672600, -229894762265128080000000000, 145720695679059940000000000000⟩,
   ⟨19635912958934035, -28745270605445491, 311287295790752680000000000000, -58384975905395703000000000000⟩,
   ⟨19202998320922638, -28203277559270626, 29521545099968007000000000000, 38862877336719594000000000000⟩,
   ⟨18775241623910265, -27842509931226306, 369249660749629150000000000000, -48397652127666906000000000000⟩,
   ⟨18357784790445635, -27054258641125637, 221733617063970740000000000000, 116702550582363650⟩,
   ⟨17950627820528749, -26378414576313859, 0, 0⟩]
/-- `atm_data.akima_rho`, aviary/subsystems/atmosphere/data/MIL_SPEC_210A_Polar.py:708-914 -/
def polarrhoRows : List IRow :=
  polarrhoRows_0 ++ polarrhoRows_1 ++ polarrhoRows_2 ++ polarrhoRows_3
/-- `atm_data.akima_rho`, aviary/subsystems/atmosphere/data/MIL_SPEC_210A_Polar.py:708-914, with the column exponents. -/
def polarrho : CTab := ⟨18, 22, 39, 41, polarrhoRows⟩
/-- `atm_data.akima_dT`, aviary/subsystems/atmosphere/data/MIL_SPEC_210A_Polar.py:916-1122 (part 1) -/
def polardTRows_0 : List IRow :=
  [⟨546806649168869380000000000000000, -15309731464493474000000, 0, 0⟩,
   ⟨546806649168869380000000000000000, -15309731464493474000000, 339519748419798260000, -88007388054359438000000000000⟩,
   ⟨546806649168850820000000000000000, -11093284952190294000000, 259438092359767990000, 52547018412093369000000000000⟩,
   ⟨546806649168841800000000000000000, 475721418000015800000, 4004507927807289800000, -1618924517140485600000000000000⟩,
   ⟨546806649168878230000000000000000, 9730866177903748800000, -316507886466961330000, -169628743704884830000000000000⟩,
   ⟨546806649168879700000000000000000, -11735563672782728000000, -752871494316951260000, 247005083437329040000000000000⟩,
   ⟨546806649168853080000000000000000, -17472444459477265000000, 8057822529407946100000, -4841303723632744900000000000000⟩,
   ⟨546806649168842230000000000000000, -109198888879724680000000, -125937256653097130000000000000000000, 87229182926807240000000000000000000000000000⟩,
   ⟨210362016819307190000000000000000, -429970018463401330000000000000000000, -46535354701940460000000000000000000, 62961620614362932000000000000000000000000000⟩,
   ⟨-109361329833781950000000000000000, -107682385179405000000000, 14010175958864847000000, -4321451717677559900000000000000⟩,
   ⟨-109361329833773620000000000000000, 18240776707695173000000, 493058395216561880000, -323529130719503990000000000000⟩,
   ⟨-109361329833745830000000000000000, 10726566764596487000000, -899471756986997660000, 126527514577966260000000000000⟩,
   ⟨-109361329833745890000000000000000, -7873239327414154800000, -2579176019752044000000, 1241090847447124700000000000000⟩,
   ⟨-109361329833773860000000000000000, -10689926445796563000, 1205773199496282300000, -527306421751837400000000000000⟩,
   ⟨-109361329833764540000000000000000, 0, 0, 0⟩,
   ⟨-109361329833764540000000000000000, 0, 0, 0⟩,
   ⟨-109361329833764540000000000000000, 0, 0, 0⟩,
   ⟨-109361329833764540000000000000000, 0, 0, 0⟩,
   ⟨-109361329833764540000000000000000, 0, 6931314132642590800, -2710270944006524900000000000⟩,
   ⟨-109361329833764470000000000000000, 22422147321539113000, -452947574064183070000, 148604847133927240000000000000⟩,
   ⟨-109361329833769700000000000000000, -3429038367046909800000, 987668330038520180000, -335031695051088380000000000000⟩,
   ⟨-109361329833763850000000000000000, 3330995107577871000000, -5821325776142053400000000000000000, 548282074992204680000000000000000000000000⟩,
   ⟨-179625340311971150000000000000000, -113260759693715050000000000000000000, -704022637143782960000000000000000000, 1334148898005997400000000000000000000000000000⟩,
   ⟨-510352872557609010000000000000000, -7895775074032991900000, 2627080124136235300000, -1136353020574339600000000000000⟩,
   ⟨-510352872557600250000000000000000, -7000360483764607900000, 80103499058627226000, -52561351088340778000000000000⟩,
   ⟨-510352872557610910000000000000000, -8221137809418276200000, -813627791937090550000, 392852521734592620000000000000⟩,
   ⟨-510352872557628440000000000000000, -5647617752053484000000, 5112234977210396800000, -2133594631706293200000000000000⟩,
   ⟨-510352872557593830000000000000000, 1510233793423015900000, -15369140510553164000, -15732191073794693000000000000⟩,
   ⟨-510352872557592440000000000000000, -54393891800932293000, -2378598759450147100, 1452276998769774000000000000⟩,
   ⟨-510352872557592530000000000000000, -25702870908131501000, 4485478951689896000, -1836574058959643000000000000⟩,
   ⟨-510352872557592530000000000000000, -16952957407491056000, -122722095917700280000, 46949968528098325000000000000⟩,
   ⟨-510352872557593740000000000000000, -486176337855506450000, 414470492999782800000, -172615319355965490000000000000⟩,
   ⟨-510352872557590970000000000000000, 119518349722806290000, -842835888761153520000, 371463780065788120000000000000⟩,
   ⟨-510352872557597210000000000000000, 312466273785123960000, 445093807436433290000, -202590955243666330000000000000⟩,
   ⟨-510352872557593570000000000000000, -237061189532850330000, -42882980760734828000, 21192129654763091000000000000⟩,
   ⟨-510352872557594170000000000000000, -67524491368820174000, 7772258001496440300, -2192596521017419400000000000⟩,
   ⟨-510352872557594170000000000000000, 16599770794834876000, 109856000948194390000, -48294231343355939000000000000⟩,
   ⟨-510352872557593310000000000000000, 0, -2177557510150727600000, 882393772437666300000000000000⟩,
   ⟨-510352872557612650000000000000000, -4889154956998752900000, 807951416266743250000, -319646144061869460000000000000⟩,
   ⟨-510352872557612650000000000000000, -2534869669907705500000, -1299841903050146200000, 604289775303935740000000000000⟩,
   ⟨-510352872557625310000000000000000, -48782999886862922000, 4065249990571791400000, -1778324580302614300000000000000⟩,
   ⟨-510352872557593910000000000000000, -48782999886862170000, -26410156267013634000, 12078540456464439000000000000⟩,
   ⟨-510352872557594170000000000000000, -12164717529039367000, 4933615963290799800, -2713521096898984000000000000⟩,
   ⟨-510352872557594170000000000000000, -50858872222472883000, -309371849472274370000, 136577139429486070000000000000⟩,
   ⟨-510352872557596600000000000000000, 35810741489980544000, 591482126513738070000, -235275308875791340000000000000⟩,
   ⟨-510352872557591140000000000000000, 1670842384003753700000, -103389913064126810000, 802853849757990150000000000⟩,
   ⟨-510352872557590970000000000000000, -1424541493702177300000, -234574500432148140000, 38822621511274844000000000000⟩,
   ⟨-510352872557597210000000000000000, -5869317597498927900000, -1223961531136298400000, 619651987944038830000000000000⟩,
   ⟨-510352872557612650000000000000000, 0, 0, 0⟩,
   ⟨-510352872557612650000000000000000, 0, 0, 0⟩,
   ⟨-510352872557612650000000000000000, 0, -12014769935993456000, 2982812794437291300000000000⟩,
   ⟨-510352872557612820000000000000000, -158375905383490750000, -2582253597527101600000, 1095950628280803300000000000000⟩,
   ⟨-510352872557634250000000000000000, -2502606765112251400000, 4357135878036316900000, -1827443087585643100000000000000⟩,
   ⟨-510352872557601550000000000000000, 2971631099665554200000, -2303685219129557200000, 1062650400122973600000000000000⟩,
   ⟨-510352872557612910000000000000000, 6797895092077391900000, 1395692731877091000000, -666947770710411080000000000000⟩,
   ⟨-510352872557593740000000000000000, 2867502994526125500000, -264278280381102740000, 86705472565890588000000000000⟩,
   ⟨-510352872557592440000000000000000, 853702498016006290000, -272617158160031350000, -63020833666338847⟩,
   ⟨-510352872557597470000000000000000, -7455668482706121600000, -1961925928970571800000000000000000, 772411783059324310000000000000000000000000⟩,
   ⟨-528579760863226270000000000000000, -5979950231506799400000000000000000, 392385185794470170000000000000000, -36766161253688152000000000000⟩,
   ⟨-528579760863226180000000000000000, 5979950231506059300000000000000000, 1569540743177605100000000000000000, -772411783059827980000000000000000000000000⟩,
   ⟨-510352872557594170000000000000000, 0, 0, 0⟩,
   ⟨-510352872557594170000000000000000, 0, 0, 0⟩,
   ⟨-510352872557594170000000000000000, 0, -6379729464374670100000000000000000, 2793483762845691700000000000000000000000000⟩,
   ⟨-559648623999908340000000000000000, 188196245112467680000000000000000, 3829705032436940300000000000000000000, -12859578736801071000000000000000000000000000000⟩]
/-- `atm_data.akima_dT`, aviary/subsystems/atmosphere/data/MIL_SPEC_210A_Polar.py:916-1122 (part 2) -/
def polardTRows_1 : List IRow :=
  [⟨-56420290541868943000000000000000, 32265502061645876000000000000000000, -1280689372097476400000000000000000, -23050546846950504000000000000000000000000⟩,
   ⟨-36691356660138155000000000000000, -2910963072899129100000000000000000, -344385758035185090000000000000000, 224135628952629060000000000000000000000000⟩,
   ⟨-41192767570713388000000000000000, 2209319998697067300000000000000000, 322183882133868000000000000000000, -172645727935094370000000000000000000000000⟩,
   ⟨-36453776611267347000000000000000, 5472825312526671800, -18003241456848736, -223822854999118310000000000⟩,
   ⟨-36453776611267347000000000000000, -10671281225250969000, -1225376781114818600, 804053005980850380000000000⟩,
   ⟨-36453776611267364000000000000000, 8003460918938568900, 815965735365445060, -267392918849869310000000000⟩,
   ⟨-36453776611267342000000000000000, 14242885256157726000, 406877259947983920, -114451625652442120000000000⟩,
   ⟨-36453776611267315000000000000000, 18669826172331844000, 1061833544054418000000, -435040849651489160000000000000⟩,
   ⟨-36453776611258023000000000000000, 2070893156346348500000, -4020325176520537400000, 1758728925130399800000000000000⟩,
   ⟨-36453776611285990000000000000000, 2074829536409965400000, 2183174865412398000000, -984295689430667000000000000000⟩,
   ⟨-36453776611266962000000000000000, 34953078926399570000, 313556604084325700, -638602369971630390000000000⟩,
   ⟨-36453776611266924000000000000000, 14208077713125512, -173847283249078610, 113461282601852770000000000⟩,
   ⟨-36453776611266924000000000000000, 2621016441289732500, 586262065445846640, -191230032308253030000000000⟩,
   ⟨-36453776611266914000000000000000, 7165895690527962000, 4907130149314665000, -1384292560569751800000000000⟩,
   ⟨-36453776611266838000000000000000, 60281482296903503000, 1026951660163839500000, -421754891579995360000000000000⟩,
   ⟨-36453776611257823000000000000000, 1975034412101817800000, -4186067510493791800000, 1889836198660529900000000000000⟩,
   ⟨-36453776611285144000000000000000, 6062342660457697100000, 941113677528521460000, -374826648918074830000000000000⟩,
   ⟨-36453776611267315000000000000000, 8630586183400689000000, -146868019100224380000, -12721172480606642000000000000⟩,
   ⟨-36453776611258023000000000000000, 3267672264366341600000, -4248209305918641800000, 1856118489520978000000000000000⟩,
   ⟨-36453776611286012000000000000000, 3111540327496084300000, 4378228722658181700000, -1953130537711765200000000000000⟩,
   ⟨-36453776611248715000000000000000, 471128441424553210000, -23671669792701895000, 1373972515269202800000000000⟩,
   ⟨-36453776611248498000000000000000, -154649386198289060000, -19498834165058314000, 308919973123944110000000000⟩,
   ⟨-36453776611249176000000000000000, -727449148084315530000, -4654798566109328100000, 2043444708934364100000000000000⟩,
   ⟨-36453776611286066000000000000000, -224040294158786970000, 4326212768920478000000, -1773392782079216600000000000000⟩,
   ⟨-36453776611248699000000000000000, 8073739475625136900000, -527639669613776410000, -1246625168324057200000000000⟩,
   ⟨-36453776611248694000000000000000, -8095579105111090200000, -3641872379465246900000, 1708899391445420800000000000000⟩,
   ⟨-36453776611285128000000000000000, -28387841638405816000, 4720954817698705200000, -2065185135950042300000000000000⟩,
   ⟨-36453776611248623000000000000000, -30167967610686418000, -5967744070894765500, 2611143559623743500000000000⟩,
   ⟨-36453776611248715000000000000000, -30127425967459063000, 6218632484231643500, -2783311852539218100000000000⟩,
   ⟨-36453776611248715000000000000000, -34517107124771898000, -4492544901113550000000, 1922766017092346000000000000000⟩,
   ⟨-36453776611285052000000000000000, -2994179545637910000000, 4090945634461579800000, -1786143922039346300000000000000⟩,
   ⟨-36453776611257823000000000000000, -2755806783483856800000, -256296301350781900000, 28916881727968226000000000000⟩,
   ⟨-36453776611266952000000000000000, -8552868383769152700000, -1034246816430526200000, 507331024430800350000000000000⟩,
   ⟨-36453776611286050000000000000000, -4727265506619971800000, 5443854380173478300000, -2313323627152091700000000000000⟩,
   ⟨-36453776611248699000000000000000, 15317901376093761000, -959518913878582310, 123236467317588950000000000⟩,
   ⟨-36453776611248694000000000000000, -5341453279426907900, -500110238640095210, -54475791134463580000000000⟩,
   ⟨-36453776611248715000000000000000, -24380538305274765000, -4616354216542818400000, 1975848604317295400000000000000⟩,
   ⟨-36453776611286034000000000000000, -3059100617905302100000, 4234220264005168900000, -1855766361278800600000000000000⟩,
   ⟨-36453776611258039000000000000000, -3304819340431576400000, -219142094291292930000, 23274674180189247000000000000⟩,
   ⟨-36453776611267342000000000000000, -8362554384668357300000, -868546357858453600000, 428850989393847960000000000000⟩,
   ⟨-36453776611285079000000000000000, -4954676905921925800000, 5346637046023316500000, -2267615219300126300000000000000⟩,
   ⟨-36453776611248715000000000000000, 9559689430954031300, -796114114503601520, 110786026983867870000000000⟩,
   ⟨-36453776611248715000000000000000, -6986599756873204400, -420275790417714910, -36027762456954995000000000⟩,
   ⟨-36453776611248737000000000000000, -22306922341291847000, -4663548571240820100000, 1995546582186944300000000000000⟩,
   ⟨-36453776611286451000000000000000, -3123009413679063400000, 4315814561112637900000, -1888022784723814500000000000000⟩,
   ⟨-36453776611257801000000000000000, -3129273808546500500000, -230463815567257810000, 15794057862648744000000000000⟩,
   ⟨-36453776611267364000000000000000, -9053323915004588200000, -865117466550901200000, 418360653613879720000000000000⟩,
   ⟨-36453776611286446000000000000000, -6271871892638827000000, 4664090629257399300000, -1982199317569259000000000000000⟩,
   ⟨-36453776611257839000000000000000, -2224646378955141300000, -920933701366767950000, 430521584753484270000000000000⟩,
   ⟨-36453776611267380000000000000000, -297132589701669290000, -7386796526415383400, 7072659864885613100000000000⟩,
   ⟨-36453776611267754000000000000000, -29478446076424011000, -1645633037795460500, 1123801487590679400000000000⟩,
   ⟨-36453776611267797000000000000000, -1333910153156331400, 173504676972001050, -56415855666163952000000000⟩,
   ⟨-36453776611267797000000000000000, 23609029259404708, 1677791547085631300, -642470729982289340000000000⟩,
   ⟨-36453776611267781000000000000000, 6397082439648706400, -2385461629030706400000, 1012871708179984000000000000000⟩,
   ⟨-36453776611287324000000000000000, -2128327755480577300000, 4178942977618499300000, -1823426101792730200000000000000⟩,
   ⟨-36453776611258050000000000000000, -1805516851587495900000, -1050591069741344300000, 491732895146529640000000000000⟩,
   ⟨-36453776611267797000000000000000, 435077963032066470000, 62577769488176652000, -33911240264089146000000000000⟩,
   ⟨-36453776611266881000000000000000, -20394605996482078000, -812817656097913130, 492530045299371250000000000⟩,
   ⟨-36453776611266914000000000000000, -10851134279609086000, 23045118783624675, -7377780356994999400000000⟩,
   ⟨-36453776611266930000000000000000, -10662782726797050000, 1686637939468492900, -647624855793861730000000000⟩,
   ⟨-36453776611266930000000000000000, -4378796743905364900, -2490948993994815300000, 1058201782041863200000000000000⟩,
   ⟨-36453776611287335000000000000000, -2195882269875328100000, 4197163191566678400000, -1831554102070224200000000000000⟩,
   ⟨-36453776611258029000000000000000, -1884056196016735400000, -1039696944545493800000, 487812927950740390000000000000⟩,
   ⟨-36453776611267781000000000000000, 415458902680528960000, 60558621845745922000, -32813699678552658000000000000⟩]
/-- `atm_data.akima_dT`, aviary/subsystems/atmosphere/data/MIL_SPEC_210A_Polar.py:916-1122 (part 3) -/
def polardTRows_2 : List IRow :=
  [⟨-36453776611266903000000000000000, -25083643799584690000, -2908583147477436200, 1763287876613647900000000000⟩,
   ⟨-36453776611266946000000000000000, 9123844964715433800, 208558294903776090, -70223413735354732000000000⟩,
   ⟨-36453776611266930000000000000000, 10587725331988333000, -2605523782639543600, 641188152656214430000000000⟩,
   ⟨-36453776611266952000000000000000, -24152393117555306000, -2159276617556872000000, 916924760068946390000000000000⟩,
   ⟨-36453776611284684000000000000000, -1950080449993624600000, 3827065563312465400000, -1673876532747190500000000000000⟩,
   ⟨-36453776611258018000000000000000, -1932285937885962300000, -895879670746501110000, 419719367196179040000000000000⟩,
   ⟨-36453776611266914000000000000000, 6205567311219887200, 4539262398520403100, -2479938549090270400000000000⟩,
   ⟨-36453776611266887000000000000000, -28233087449636739000, -1457242062723889800, 946565647433969380000000000⟩,
   ⟨-36453776611266930000000000000000, -6695705866824195000, 876431355734125830, -286798278918058340000000000⟩,
   ⟨-36453776611266930000000000000000, 34597872260185373, 2236558650166486500, -856435988910423270000000000⟩,
   ⟨-36453776611266908000000000000000, 8530775327945753600, -2169063526119136900000, 920867350617161740000000000000⟩,
   ⟨-36453776611284678000000000000000, -1940993268974084300000, 3843337584464834700000, -1685710731158368600000000000000⟩,
   ⟨-36453776611258039000000000000000, -2251802308413414000000, -812605326402135530000, 378374932460526010000000000000⟩,
   ⟨-36453776611266952000000000000000, -655876543117742870000, -19355859818200512000, 17813784855385440000000000000⟩,
   ⟨-36453776611267770000000000000000, -4627075148025474000, 805178871461935110, -482263856804023970000000000⟩,
   ⟨-36453776611267776000000000000000, -13688056930279985000, -72613121583090513, 24382665463033860000000000⟩,
   ⟨-36453776611267797000000000000000, -14202387067518467000, 4457085152352509100, -1700491854188299100000000000⟩,
   ⟨-36453776611267776000000000000000, 3163921314187756100, -2166819344157019100000, 919625863617859440000000000000⟩,
   ⟨-36453776611285546000000000000000, -1964460894049239500000, 3996314789915726000000, -1748169199438183700000000000000⟩,
   ⟨-36453776611257600000000000000000, -1964460894049239000000, -944874639129347030000, 441613985496928910000000000000⟩,
   ⟨-36453776611266908000000000000000, 6221424674025099300, 3148988430253084700, -1721520991523247900000000000⟩,
   ⟨-36453776611266887000000000000000, -17748308124101800000, -354984368892710900, 231329403097040510000000000⟩,
   ⟨-36453776611266914000000000000000, -12449828096126066000, 233033239612141590, -76332473116655760000000000⟩,
   ⟨-36453776611266930000000000000000, -10665614055189720000, 1639964976904609200, -616877647613536720000000000⟩,
   ⟨-36453776611266930000000000000000, -3661838137646445600, -2635049738862131600000, 1152725207461380800000000000000⟩,
   ⟨-36453776611287335000000000000000, -1220835309924519500, 5042271737651407000000, -2205517120576960500000000000000⟩,
   ⟨-36453776611248292000000000000000, 12787773072502290000, -2989646373819501000, 1257971490394995800000000000⟩,
   ⟨-36453776611248298000000000000000, 9315383366754128800, 2522046092711779700, -1137047974713406900000000000⟩,
   ⟨-36453776611248265000000000000000, 6960938165069417100, -4515612640933105800000, 1932900253430936700000000000000⟩,
   ⟨-36453776611284716000000000000000, -2949680187099523300000, 4028731096672522500000, -1762858284208407100000000000000⟩,
   ⟨-36453776611258039000000000000000, -2985126629630973700000, -223587784675255950000, 23454231708421796000000000000⟩,
   ⟨-36453776611266952000000000000000, -8165855236600140300000, -911354483657434250000, 448624455702380070000000000000⟩,
   ⟨-36453776611284684000000000000000, -4685008083656070000000, 5204274795148485600000, -2209244834926105900000000000000⟩,
   ⟨-36453776611249149000000000000000, 7116720768289737900, -587936172644693080, 79369910944369970000000000⟩,
   ⟨-36453776611249149000000000000000, -5273294265474480500, -362847140526044960, 5674882623454743600000000⟩,
   ⟨-36453776611249165000000000000000, -15937464723186838000, -4697523202573474700000, 2054934726939952800000000000000⟩,
   ⟨-36453776611285556000000000000000, -14182328446072333000, 4264701205519711600000, -1743904268652147900000000000000⟩,
   ⟨-36453776611248255000000000000000, 8463404395722733400000, -561284507453486850000, 3133849189853608700000000000⟩,
   ⟨-36453776611248282000000000000000, -8426189303980500800000, -3978519151191863600000, 1869904828037200400000000000000⟩,
   ⟨-36453776611287340000000000000000, 598429244189382600000, 4630344102860446200000, -2009897508082189800000000000000⟩,
   ⟨-36453776611250027000000000000000, 1687126057429484000000, -32102517833186816000, -1647787880400763400000000000⟩,
   ⟨-36453776611248260000000000000000, 593827936350676930000, -28006272864209072000, -7190823374568728200000000000⟩,
   ⟨-36453776611248260000000000000000, -760840274250803510000, -5064762603234498600000, 2302094881580566800000000000000⟩,
   ⟨-36453776611285567000000000000000, 5268905229619241100000, 1042384776147936300000, -408340766951470950000000000000⟩,
   ⟨-36453776611267781000000000000000, 8588719252316314800000, -286870146608935860000, 94117502168042002000000000000⟩,
   ⟨-36453776611258023000000000000000, 6402768735139260700000, -2944171946091838300000, 827944866730480900000000000000⟩,
   ⟨-36453776611287340000000000000000, -25646645877997934000000, -2354311114757181700000000000000000, 1029882377409242200000000000000000000000000⟩,
   ⟨-54680664916881999000000000000000, -14437066217143657000000, 7062933344299041600000000000000000, -3089647132239064800000000000000000000000000⟩,
   ⟨10842021724855044, -9666015602570538300, -34470271320421219000, 86047835802150098000000000000⟩,
   ⟨0, 0, 0, 0⟩,
   ⟨0, 0, 0, 0⟩,
   ⟨0, 0, 0, 0⟩,
   ⟨0, 0, 0, 0⟩,
   ⟨0, 0, 0, 0⟩,
   ⟨0, 0, 0, 0⟩,
   ⟨0, 0, 0, 0⟩,
   ⟨0, 0, 0, 0⟩,
   ⟨0, 0, 0, 0⟩,
   ⟨0, 0, 0, 0⟩,
   ⟨0, 0, 0, 0⟩,
   ⟨0, 0, 0, 0⟩,
   ⟨0, 0, 0, 0⟩,
   ⟨0, 0, 0, 0⟩,
   ⟨0, 0, 0, 0⟩]
/-- `atm_data.akima_dT`, aviary/subsystems/atmosphere/data/MIL_SPEC_210A_Polar.py:916-1122 (part 4) -/
def polardTRows_3 : List IRow :=
  [⟨0, 0, 0, 0⟩,
   ⟨0, 0, 0, 0⟩,
   ⟨0, 0, 0, 0⟩,
   ⟨0, 0, 0, 0⟩,
   ⟨0, 0, 0, 0⟩,
   ⟨0, 0, 0, 0⟩,
   ⟨0, 0, 0, 0⟩,
   ⟨0, 0, 0, 0⟩,
   ⟨0, 0, 0, 0⟩,
   ⟨0, 0, 0, 0⟩,
   ⟨0, 0, 0, 0⟩,
   ⟨0, 0, 0, 0⟩,
   ⟨0, 0, 0, 0⟩,
   ⟨0, 0, 0, 0⟩]
/-- `atm_data.akima_dT`, aviary/subsystems/atmosphere/data/MIL_SPEC_210A_Polar.py:916-1122 -/
def polardTRows : List IRow :=
  polardTRows_0 ++ polardTRows_1 ++ polardTRows_2 ++ polardTRows_3
/-- `atm_data.akima_dT`, aviary/subsystems/atmosphere/data/MIL_SPEC_210A_Polar.py:916-1122, with the column exponents. -/
def polardT : CTab := ⟨35, 40, 41, 52, polardTRows⟩
/-- `atm_data` of aviary/subsystems/atmosphere/data/MIL_SPEC_210A_Polar.py. -/
def polar : AtmData := ⟨14, polarAlt, polarT, polarP, polarrho, polardT⟩

end Verif.AtmD
