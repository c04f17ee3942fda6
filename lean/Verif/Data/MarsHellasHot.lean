import Verif.Model.AtmTables

/-! Data of aviary/subsystems/atmosphere/data/MarsHellasHot.py, as exact decimals (generated from the source text). -/

namespace Verif.AtmD

set_option maxRecDepth 100000

/-- `atm_data.alt`, aviary/subsystems/atmosphere/data/MarsHellasHot.py:71-74 -/
def marsHellasHotAlt : List ℤ :=
  [(-80000),
   (-70000),
   (-61151),
   (-61051),
   (-60000),
   (-50000),
   (-40000),
   (-30000),
   (-20000),
   (-10000),
   0,
   10000,
   20000,
   30000,
   40000,
   50000,
   60000,
   70000,
   80000,
   90000,
   100000,
   150000,
   200000,
   250000,
   300000,
   400000,
   500000,
   600000,
   700000,
   800000]
/-- `atm_data.akima_T`, aviary/subsystems/atmosphere/data/MarsHellasHot.py:76-107 -/
def marsHellasHotTRows : List IRow :=
  [⟨28249000000000001, 0, 0, 0⟩,
   ⟨28249000000000001, 0, 0, 0⟩,
   ⟨28249000000000001, 0, 0, 0⟩,
   ⟨28249000000000001, 0, -63687080318200362000000000000000000000, 42427080318200382000000000000000000000⟩,
   ⟨26123000000000002, -9291968179960599600, 3394297989233001900000000000000000, 1422439212662873400000000000000⟩,
   ⟨26063000000000000, -2110016973290404100, -996605341926698220000000000000, 9983026709656923100000000000⟩,
   ⟨25851999999999998, -2099999999999966000, 2862293735361731800, -28622937353617319⟩,
   ⟨25642000000000002, -2099999999999994200, 0, -28622937353617319⟩,
   ⟨25431999999999999, -2100000000000080100, -2999999999977239700000000000000, 19999999999867346000000000000⟩,
   ⟨25221000000000001, -2100000000000022900, 5811323644522304100, -29490299091605726⟩,
   ⟨25011000000000001, -2099999999999995100, -16562737642593146000000000000000, 165627376425904120000000000000⟩,
   ⟨24800999999999999, -1934372623574146900, 32874524714835765000000000000000, -164372623574193020000000000000⟩,
   ⟨24624000000000001, -1770000000000009600, -2970713952610282400, 29056618222611520⟩,
   ⟨24447000000000000, -1769999999999981900, 2499999999999139300000000000000, -15000000000000691000000000000⟩,
   ⟨24271000000000001, -1765000000000000700, -1011235955058120300000000000000, 5112359550571432300000000000⟩,
   ⟨24094000000000000, -1769887640449448200, 45977528089893080000000000000000, -449887640449473780000000000000⟩,
   ⟨23918000000000001, -2200000000000007500, -89000000000003447000000000000000, 450000000000026780000000000000⟩,
   ⟨23653999999999999, -2629999999999995600, -43368086899420178, 0⟩,
   ⟨23391000000000000, -2629999999999995600, -43368086899420178, 0⟩,
   ⟨23128000000000000, -2629999999999995600, -43368086899420178, 0⟩,
   ⟨22865000000000001, -2629999999999995600, -43368086899420178, 0⟩,
   ⟨22602000000000001, -2629999999999995600, 22909090909090780000000000000000, -22618181818181742000000000000⟩,
   ⟨21577000000000001, -2035454545454548600, -139264990328819010000000000000, 336711798839435580000000000⟩,
   ⟨20559999999999999, -2024127659574472000, 750041447913950660000000000000, 425023487151017560000000000⟩,
   ⟨19572000000000000, -1917246753246751100, 949506493506304550000000000000, -1129142857142634500000000000⟩,
   ⟨18622999999999999, -1906981818181818600, -211502450379777000000000000000, 111320632197975230000000000⟩,
   ⟨16706000000000000, -1915886118598381700, 722757500773254600000000000000, 136103685210555240000000000⟩,
   ⟨14875999999999999, -1730503512880565000, 22840959373605220000000000000000, -9185924244799548300000000000⟩,
   ⟨14511000000000001, 81911088400614895, 22968421108737606000000000000000, -15497531992743763000000000000⟩,
   ⟨15340000000000001, 26335712325007418, -20681714246500185000000000000000, 4218357123250091500000000000⟩,
   ⟨13719999999999999, -2844500000000002000, 0, 0⟩]
/-- `atm_data.akima_T`, aviary/subsystems/atmosphere/data/MarsHellasHot.py:76-107, with the column exponents. -/
def marsHellasHotT : CTab := ⟨14, 21, 38, 39, marsHellasHotTRows⟩
/-- `atm_data.akima_P`, aviary/subsystems/atmosphere/data/MarsHellasHot.py:109-140 -/
def marsHellasHotPRows : List IRow :=
  [⟨108000000000000000000, -84577579387501475000, 0, 0⟩,
   ⟨108000000000000000000, -84577579387501475000, 421643168554072850000, -163885229803925630000⟩,
   ⟨99800000000000000000, -81061272910537774000, 1302878123801919800000, -933881031379222340000⟩,
   ⟨93000000000000011000, -79941146371438856000, -681849813441699670000000, 48126127715586090000000000⟩,
   ⟨92899999999999989000, -71932725913020537000, 13688043466870826000000, -81990173691046759000000⟩,
   ⟨92200000000000011000, -70330386900449363000, -414663810675733320000, 347702500720659110000⟩,
   ⟨85100000000000000000, -68192588092344297000, 365790345741583170000, -46531536507155028000⟩,
   ⟨78600000000000000000, -62272727272727244000, 176767676767671660000, 50505050505053609000⟩,
   ⟨72600000000000000000, -57222222222222223000, 222222222222221570000, 0⟩,
   ⟨67100000000000000000, -52777777777777785000, 35555555555554648000, 142222222222221370000⟩,
   ⟨62000000000000000000, -47800000000000002000, 109999999999998290000, -29999999999999478000⟩,
   ⟨57300000000000000000, -46499999999999993000, 19999999999999880000, 29999999999998082000⟩,
   ⟨52700000000000000000, -45200000000000025000, 411428571428558410000, -91428571428560370000⟩,
   ⟨48499999999999994000, -39714285714285702000, 142857142857154300000, 28571428571422253000⟩,
   ⟨44700000000000000000, -35999999999999963000, 79999999999992574000, 20000000000003351000⟩,
   ⟨41200000000000000000, -33800000000000011000, 80000000000001595000, 0⟩,
   ⟨37900000000000000000, -32199999999999999000, 89999999999999805000, 30000000000000170000⟩,
   ⟨34800000000000000000, -29499999999999998000, 179999999999998910000, -29999999999999478000⟩,
   ⟨32000000000000000000, -26800000000000001000, 59999999999999288000, 19999999999999879000⟩,
   ⟨29400000000000000000, -24999999999999998000, 133333333333332180000, -33333333333333136000⟩,
   ⟨27000000000000000000, -23333333333333334000, 168144499178981410000, -34811165845648201000⟩,
   ⟨24800000000000000000, -21014778325123152000, 61173657276770683000, -175618154861528790⟩,
   ⟨15800000000000000000, -15029126213592236000, 67783882624406843000, -960271670512435870⟩,
   ⟨9859999999999999400, -8970941704035874400, 17798862191285796000, 1763994377886352200⟩,
   ⟨6039999999999999900, -5868059701492536900, 9395073458135340700, 2233224114343075900⟩,
   ⟨3619999999999999600, -3253634269921694800, 4949344361788151500, 378699833742880930⟩,
   ⟨1240000000000000000, -1127665896335424200, 708131882892554790, 218852708046168670⟩,
   ⟨401999999999999960, -329481395618407350, -477320034608898180, 108213399079297130⟩,
   ⟨132999999999999980, -100305205302295480, -96309627859669335, 24336168088262457⟩,
   ⟨47400000000000003, -46558626609442065, -36827467811158784, 14241373390557935⟩,
   ⟨11399999999999999, -11200000000000015, 0, 0⟩]
/-- `atm_data.akima_P`, aviary/subsystems/atmosphere/data/MarsHellasHot.py:109-140, with the column exponents. -/
def marsHellasHotP : CTab := ⟨17, 21, 26, 29, marsHellasHotPRows⟩
/-- `atm_data.akima_rho`, aviary/subsystems/atmosphere/data/MarsHellasHot.py:142-173 -/
def marsHellasHotrhoRows : List IRow :=
  [⟨202999999999999990000, -166545372358458010000, 0, 0⟩,
   ⟨202999999999999990000, -166545372358458010000, 1307864248547282100000000000000, -6533270127014546500000000000000⟩,
   ⟨187000000000000010000, -159987897768555990000, 1472557147369236400000000000000, 61278858754053907000000000000⟩,
   ⟨173999999999999990000, -133782628509207960000, 423280730739811910000000000000000000, -281942904454719680000000000000000000000⟩,
   ⟨188000000000000010000, -60507816962713551000, -32779743986472145000000000000000, -17033363116685403000000000000000⟩,
   ⟨187000000000000010000, -129975290920239790000, -781988909715376310000000000000, 7795180017393312900000000000000⟩,
   ⟨173999999999999990000, -122229529062367420000, -54094187526532015000000000000, 2770470937632763400000000000000⟩,
   ⟨161999999999999990000, -114999999999999790000, 27528570785764763, 4999999999999655600000000000000⟩,
   ⟨151000000000000010000, -100000000000000290000, 27528570785764763, -84703294725430030⟩,
   ⟨141000000000000000000, -99999999999999995000, -499999999999982510000000000000, 4999999999999909900000000000000⟩,
   ⟨131000000000000010000, -94999999999999937000, 1000000000000002100000000000000, -5000000000000058200000000000000⟩,
   ⟨122000000000000010000, -90000000000000059000, -55057141571529527, 465868120989865170⟩,
   ⟨112999999999999990000, -89999999999999805000, 1642857142857141800000000000000, -6428571428571482900000000000000⟩,
   ⟨105000000000000010000, -76428571428571405000, 103896103896089410000000000000, 389610389610413430000000000000⟩,
   ⟨97500000000000000000, -73181818181818302000, 169696969696978060000000000000, 484848484848481530000000000000⟩,
   ⟨90399999999999994000, -68333333333333339000, 366666666666675550000000000000, -333333333333365430000000000000⟩,
   ⟨83899999999999999000, -61999999999999946000, 199999999999990680000000000000, 42351647362715015⟩,
   ⟨77900000000000000000, -57999999999999985000, 114285714285715620000000000000, 857142857142867130000000000000⟩,
   ⟨72300000000000003000, -53142857142857114000, 261904761904757190000000000000, -476190476190446430000000000000⟩,
   ⟨67200000000000003000, -49333333333333362000, 123809523809524550000000000000, 95238095238089298000000000000⟩,
   ⟨62399999999999999000, -46571428571428625000, 379285714285717500000000000000, -1221428571428584600000000000000⟩,
   ⟨57999999999999996000, -42650000000000017000, 68086956521739730000000000000, 25826086956521066000000000000⟩,
   ⟨38700000000000002000, -33904347826086927000, 181404682274246470000000000000, -70635451505015627000000000000⟩,
   ⟨25400000000000002000, -21061538461538471000, 40220626130818592000000000000, 34020286199901383000000000000⟩,
   ⟨16299999999999999000, -14487954383464003000, 30191462329622838000000000000, 39135250679314649000000000000⟩,
   ⟨10300000000000001000, -8533664349553124800, 12948861103797355000000000000, 8687782391733899700000000000⟩,
   ⟨3930000000000000100, -3337557411273487400, 3360293752839565800000000000, 5015280359895305500000000000⟩,
   ⟨1430000000000000100, -1160914552736982800, -1216590013083061800000000000, 3375735540452887800000000000⟩,
   ⟨485000000000000000, -391511893217728740, -93404028359207714000000000, 798522960536494780000000000⟩,
   ⟨163999999999999990, -170635810728621830, -35783785427563934000000000, 513141892713782030000000000⟩,
   ⟨41099999999999996, -23849999999999975, 0, 0⟩]
/-- `atm_data.akima_rho`, aviary/subsystems/atmosphere/data/MarsHellasHot.py:142-173, with the column exponents. -/
def marsHellasHotrho : CTab := ⟨22, 26, 40, 44, marsHellasHotrhoRows⟩
/-- `atm_data.akima_dT`, aviary/subsystems/atmosphere/data/MarsHellasHot.py:175-206 -/
def marsHellasHotdTRows : List IRow :=
  [⟨0, 0, 0, 0⟩,
   ⟨0, 0, 0, 0⟩,
   ⟨0, 0, 0, 0⟩,
   ⟨0, 0, -278759978485611880000000000000000000, 18584029668602607000000000000000000000⟩,
   ⟨-9291968179958587400, 93308685428591479000000000000, 1950275925821458900000000000000000, -12370881051527602000000000000000000⟩,
   ⟨-2110016973290405900, 107030642587560520000000000000, 8644791353830824000000000000, -9330882322148339900000000000⟩,
   ⟨-2099999999999967300, -273133748267461930, 58096196604618242, -58104716524506756⟩,
   ⟨-2099999999999994700, -854351311910299880, -94649776192142535, 94649776191314786⟩,
   ⟨-2100000000000080100, 92146449986292779, 96062459417236126, -48031229708630764⟩,
   ⟨-2100000000000022900, 572458747072092390, -3951700078173142800, 3922209779081561800⟩,
   ⟨-2099999999999995100, 39204750556056103000, 331884514731410010000000000000, -166257138309481180000000000000⟩,
   ⟨-1934372623574145800, 1649976145382969100000000000000, 31724465354339262000000000000, -32349456318500993000000000000⟩,
   ⟨-1770000000000010700, 1313981762914723200000000000000, -267512649338592700000000000000, 136114473047149230000000000000⟩,
   ⟨-1769999999999981900, 47162967557345720000000000000, 682318998284759810000000000, -398615754038618250000000000⟩,
   ⟨-1765000000000001200, 48850874901882385000000000000, 400901457388851600000000000000, -410674185328487520000000000000⟩,
   ⟨-1769887640449448800, -4253345537175710600000000000000, -9611477752704767200000000000, 4833671919716738900000000000⟩,
   ⟨-2200000000000007900, -4300564934638303800000000000000, -429887013070643450000000000000, 429943506534485700000000000000⟩,
   ⟨-2629999999999996100, -16601303663675384000, 3318959690128094100, -1659263004629550100⟩,
   ⟨-2629999999999996500, 0, 0, 0⟩,
   ⟨-2629999999999996500, 0, 0, 0⟩,
   ⟨-2629999999999996500, 0, 0, 0⟩,
   ⟨-2629999999999996500, 0, 67662185142272070000000000000, -8776073392090831700000000000⟩,
   ⟨-2035454545454548600, 184163470159083800000000000000, -9739355141217966700000000000, 1301832234647864600000000000⟩,
   ⟨-2024127659574472900, 186602132023185360000000000000, 4435240738007929300000000000, -778409425072549240000000000⟩,
   ⟨-1917246753246750600, 46319137019566349000000000000, -738030272534977840000000000, 44448986948189748000000000⟩,
   ⟨-1906981818181818200, 5852849977210882700000000000, -329666344645636030000000000, 18209484070789450000000000⟩,
   ⟨-1915886118598381400, -5451966739547976500000000000, 2283866176604280700000000000, -37552045203062821000000000⟩,
   ⟨-1730503512880564200, 338665132972119650000000000000, 36316681072928760000000000000, -2157918638983817000000000000⟩,
   ⟨81911088400614569, 1128245430606421800000000000000, -12447295886778223000000000000, 60908781995792610000000000⟩,
   ⟨26335712325006744, -1178487400761844800000000000000, -19770664550016279000000000000, 284718143438463110000000000⟩,
   ⟨-2844500000000002000, -4278465880449709600000000000000, 0, 0⟩]
/-- `atm_data.akima_dT`, aviary/subsystems/atmosphere/data/MarsHellasHot.py:175-206, with the column exponents. -/
def marsHellasHotdT : CTab := ⟨21, 37, 39, 42, marsHellasHotdTRows⟩
/-- `atm_data` of aviary/subsystems/atmosphere/data/MarsHellasHot.py. -/
def marsHellasHot : AtmData := ⟨1, marsHellasHotAlt, marsHellasHotT, marsHellasHotP, marsHellasHotrho, marsHellasHotdT⟩

end Verif.AtmD
