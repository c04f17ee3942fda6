import Verif.Model.AtmTables

/-! Data of aviary/subsystems/atmosphere/data/VenusReference2021.py, as exact decimals (generated from the source text). -/

namespace Verif.AtmD

set_option maxRecDepth 100000

/-- `atm_data.alt`, aviary/subsystems/atmosphere/data/VenusReference2021.py:107-113 -/
def venusAlt : List ℤ :=
  [0,
   9998347872,
   19993392580,
   29985135760,
   39973579050,
   49958724080,
   59940572490,
   69919125900,
   79894385950,
   89866354280,
   99835032500,
   149629129000,
   199341216800,
   248971498200,
   298520174900,
   397373518500,
   495902848300,
   594109754900,
   691995818200,
   789562608000,
   886811683900,
   983744595100,
   1080362881000,
   1176668071000,
   1272661684000,
   1368345231000,
   1463720210000]
/-- `atm_data.akima_T`, aviary/subsystems/atmosphere/data/VenusReference2021.py:115-143 -/
def venusTRows : List IRow :=
  [⟨73529999999999995, -765002458137138170, 0, 0⟩,
   ⟨73529999999999995, -765002458137138170, 73781523772633288000, -25008840385820178000⟩,
   ⟨72770000000000005, -757748764565244030, 442687046969220390000, -369064021866124560000⟩,
   ⟨72020000000000005, -779864732590193100, -13050174528746787000, 5249749153856378500⟩,
   ⟨71239999999999998, -780900287391267290, -11223315693303581, -10603578090092898⟩,
   ⟨70460000000000002, -780905703185441010, -3357563625019403600, 807891810374041560⟩,
   ⟨69679999999999995, -781334570374878080, -554265738696884230000, 353339253320884190000⟩,
   ⟨68879999999999995, -786369196929739140, 196609442685074530000, -49256229299720546000⟩,
   ⟨68110000000000002, -761845194502631510, 352198157406137870000, -252724790027463910000⟩,
   ⟨67360000000000002, -767022587457678790, -448969327802293960000, 297677038906200770000⟩,
   ⟨66579999999999995, -767761595495708180, 78033187473205079000, -24203548040340507000⟩,
   ⟨65820000000000005, -759419490522323350, 64303043023768989000, -9555612330207447700⟩,
   ⟨62079999999999995, -766459299566890800, -116502885191000200000, 7174571265690556500⟩,
   ⟨58070000000000005, -829099958030157960, -15675357472441614000, 282820509745589830⟩,
   ⟨53920000000000005, -842569505478227980, -58084083652429367000, 7186533498871478900⟩,
   ⟨49689999999999998, -847198937353482210, 67082407726537057000, -2181003022003424200⟩,
   ⟨41760000000000002, -778510708244358870, 236410859882241650000, -13951217268589407000⟩,
   ⟨35050000000000000, -718959095017797890, -915282463784379890000, 75152666052728623000⟩,
   ⟨26280000000000001, -342248862865604430, 8618672223672642600, -345895443436550920⟩,
   ⟨22980000000000001, -335318684766732630, 30803371213450261, 14035162569840896⟩,
   ⟨19709999999999999, -334857763183144970, 37436784950185437000, 1439639764129474900⟩,
   ⟨16940000000000001, -221198235489326660, 696311337511220430000, -43296870760968538000⟩,
   ⟨17394999999999999, -91739334324186014, -287931356095936330000, 21944189425978210000⟩,
   ⟨15800000000000000, -33574857469586660, 24194101929265054000, 2227388608806531000⟩,
   ⟨15900000000000000, 75000508229625812, 5270522784266167600, 129740846997414290⟩,
   ⟨16680000000000001, 88705836367339774, 4978220824833427800, 521152682204295600⟩,
   ⟨17619999999999999, 112546504708978890, 112644750542166460000, -3412670385827671500⟩,
   ⟨19422000000000000, 234287411356701040, 0, 0⟩]
/-- `atm_data.akima_T`, aviary/subsystems/atmosphere/data/VenusReference2021.py:115-143, with the column exponents. -/
def venusT : CTab := ⟨14, 20, 27, 30, venusTRows⟩
/-- `atm_data.akima_P`, aviary/subsystems/atmosphere/data/VenusReference2021.py:145-173 -/
def venusPRows : List IRow :=
  [⟨9210000000000000000000000000, -5700049424686650400000000000, 0, 0⟩,
   ⟨9210000000000000000000000000, -5700049424686650400000000000, 119142674744263900000000000, -200055205115478450000000000⟩,
   ⟨8650000000000000000000000000, -5521800175152368400000000000, 119229560948348810000000000, -475354687768630770000000⟩,
   ⟨8110000000000000000000000000, -5283601681823648700000000000, 209716254873295070000000000, -302057321809386990000000000⟩,
   ⟨7600000000000000000000000000, -4954983106295579800000000000, 74315398338907950000000000, 753740677085231060000000000⟩,
   ⟨7120000000000000000000000000, -4580924218535572500000000000, 106375963375166460000000000, -320836546406982150000000000⟩,
   ⟨6670000000000000000000000000, -4464453549417087300000000000, -86721292518100405000000000, 1435368172744697000000000000⟩,
   ⟨6230000000000000000000000000, -4208532690858647800000000000, 344080818178041510000000000, -1440243689567999700000000000⟩,
   ⟨5830000000000000000000000000, -3952068721812360600000000000, -14563148156340338000000000, 572060353235280320000000000⟩,
   ⟨5440000000000000000000000000, -3810352968100593800000000000, 328381977976630950000000000, -1279445635543547900000000000⟩,
   ⟨5080000000000000000000000000, -3537114838055557000000000000, 147664318068584170000000000, -209005584147047290000000000⟩,
   ⟨4740000000000000000000000000, -3305020728541088000000000000, 92050173124354345000000000, -18247530097876661000000000⟩,
   ⟨3300000000000000000000000000, -2524041315382563900000000000, 92077427346421575000000000, -18555942437512061000000000⟩,
   ⟨2250000000000000000000000000, -1746140522969562900000000000, 35043035444801973000000000, 16603752303724585000000000⟩,
   ⟨1490000000000000000000000000, -1275608044668914400000000000, 30222601541299750000000000, 21248837442349003000000000⟩,
   ⟨958000000000000000000000000, -819607825220875130000000000, 13830813607131126000000000, 6941586491046653100000000⟩,
   ⟨350000000000000000000000000, -342664184451499030000000000, 5530124713610984500000000, 4279876601659050000000000⟩,
   ⟨107000000000000000000000000, -109040791779003040000000000, -1038389663899895900000000, 3558028717818270500000000⟩,
   ⟨23600000000000000000000000, -26488945128030852000000000, -407234431909993720000000, 1057771394838909700000000⟩,
   ⟨3690000000000000000000000, -4055774742767472900000000, -140889564276767550000000, 221289049081977700000000⟩,
   ⟨447000000000000000000000, -485467000363604540000000, -25957339920221364000000, 33488462798491418000000⟩,
   ⟨37399999999999999000000, -40192831846302870000000, -2508252708497454900000, 3052063003227388300000⟩,
   ⟨2669999999999999900000, -2787825535283285200000, -205343122702765640000, 234654720253165650000⟩,
   ⟨176000000000000020000, -184234613452534620000, -14408593316794284000, 16227340387469627000⟩,
   ⟨9879999999999999900, -10248440452670061000, -812234898595385440, 912251778644544740⟩,
   ⟨627000000000000060, -623731763250573660, -47169919236833793, 52575025147109697⟩,
   ⟨58900000000000002, -82381923929823163, -21988454953033512, 26422979395019618⟩,
   ⟨9550000000000000, 219249298821334860, 0, 0⟩]
/-- `atm_data.akima_P`, aviary/subsystems/atmosphere/data/VenusReference2021.py:145-173, with the column exponents. -/
def venusP : CTab := ⟨21, 25, 28, 32, venusPRows⟩
/-- `atm_data.akima_rho`, aviary/subsystems/atmosphere/data/VenusReference2021.py:175-203 -/
def venusrhoRows : List IRow :=
  [⟨6479999999999999700000000000, -325002470142900100000000000, 0, 0⟩,
   ⟨6479999999999999700000000000, -325002470142900100000000000, 4952059479122612900000000, -164856922362166490000000⟩,
   ⟨6160000000000000100000000000, -315104931545497110000000000, 4955345310479066400000000, -165009160356559870000000⟩,
   ⟨5850000000000000000000000000, -305204097331148500000000000, 6627263502131304300000000, -166835738095591440000000000⟩,
   ⟨5550000000000000000000000000, -296957324710377110000000000, -6519815636396372700000000, 1316448327083639200000000000⟩,
   ⟨5260000000000000100000000000, -270579666769742070000000000, 401197192169230440000000, -22327819642637252000000000⟩,
   ⟨4989999999999999900000000000, -270446310332712530000000000, -267468290680175130000000, 22311823664994360000000000⟩,
   ⟨4720000000000000300000000000, -270313348974233560000000000, 32988517645084019000000000, -1319828760782671000000000000⟩,
   ⟨4470000000000000300000000000, -243903021911293220000000000, -3265593224093837300000000, 659791068716242790000000000⟩,
   ⟨4229999999999999700000000000, -230722136213148660000000000, 168172983461907640000000, -9262468219480333200000000⟩,
   ⟨4000000000000000000000000000, -230663051455472790000000000, -184912958678498890000000, 12550576163902946000000000⟩,
   ⟨3770000000000000300000000000, -230657556671785880000000000, 10197523208320862000000000, -60183853742010864000000000⟩,
   ⟨2800000000000000000000000000, -173869159526137780000000000, 4104306464683764900000000, 2369097105654810500000000⟩,
   ⟨2039999999999999900000000000, -131306011874815430000000000, 2740982746209838400000000, 3403347033759122600000000⟩,
   ⟨1460000000000000000000000000, -101583961456193600000000000, 2228399528973899000000000, 7091331029168018100000000⟩,
   ⟨1019999999999999900000000000, -74278194772295749000000000, 1211589468222239500000000, 3713117838952014500000000⟩,
   ⟨440000000000000040000000000, -39438902849134934000000000, 825553714799629410000000, 2869120770577283200000000⟩,
   ⟨159000000000000010000000000, -14814599854537974000000000, 50615518852214197000000, 3009814564805038200000000⟩,
   ⟨46899999999999997000000000, -5111907039283062600000000, -60620999505306953000000, 1848460925430845200000000⟩,
   ⟨8390000000000000200000000, -985288144360336170000000, -11664675619871023000000, 379378142657895000000000⟩,
   ⟨1190000000000000100000000, -129483279386927280000000, -6171126030313705000000, 83486114055655379000000⟩,
   ⟨115000000000000000000000, -12642499312956104000000, -721549224024358000000, 9149746335886023200000⟩,
   ⟨7990000000000000400000, -839597155974801210000, -58021423397600726000, 678470073802459890000⟩,
   ⟨581000000000000030000, -60708845153117898000, -4801034756570371900, 53844419752364004000⟩,
   ⟨32000000000000001000, -3364673731967415700, -260979793520955490, 2961634410477009500⟩,
   ⟨1850000000000000000, -187915096887054670, -14520493342904826, 161691086279695950⟩,
   ⟨139000000000000000, -21688440793019366, -6853096991516782, 81531120890314674⟩,
   ⟨16100000000000001, 70080342012550478, 0, 0⟩]
/-- `atm_data.akima_rho`, aviary/subsystems/atmosphere/data/VenusReference2021.py:175-203, with the column exponents. -/
def venusrho : CTab := ⟨26, 29, 32, 37, venusrhoRows⟩
/-- `atm_data.akima_dT`, aviary/subsystems/atmosphere/data/VenusReference2021.py:205-233 -/
def venusdTRows : List IRow :=
  [⟨-765002458137138170, 21945804542487295000, 0, 0⟩,
   ⟨-765002458137138170, 21945804542487295000, -12279603725501243000, -24141350178736575000⟩,
   ⟨-757748764565243680, -9849357588355515700, -44952982873325407000, 326855176107819180000⟩,
   ⟨-779864732590193100, -1751375164031529800, 419609447067405610, 2961905508095099400⟩,
   ⟨-780900287391266860, -25744294856973772, 118230940787650760, -979984471955368840⟩,
   ⟨-780905703185440830, -82871895879575068, -629070002697579470, 2823404074409217500⟩,
   ⟨-781334570374877730, -494636341594904160, -13097407840064193000, 85555195509947486000⟩,
   ⟨-786369196929739140, -1068438816946109900, 77335843675491729000, -517465541683800540000⟩,
   ⟨-761845194502631590, -1302973753215666500, -11208886003743669000, 73301199572294333000⟩,
   ⟨-767022587457678440, -1783597918574704100, -765012812729469230, 18155451347243835000⟩,
   ⟨-767761595495707830, 2106807918503295000, 16966566817334167000, -107189586137137900000⟩,
   ⟨-759419490522323430, 3977907739220077500, -1048252805215769000, -69374794081435046⟩,
   ⟨-766459299566890630, -6977486954072295300, -3978140755166478900, 5726950735435076900⟩,
   ⟨-829099958030157960, -4070926454433250400, 347312476079459990, -148903062814964310⟩,
   ⟨-842569505478227460, -1723801633161048100, -736169843692710590, 1807322538998690900⟩,
   ⟨-847198937353481340, 4292267476643367500, 555350527652989270, -289971304815529730⟩,
   ⟨-778510708244358610, 6771134328376149400, -224524604524339730, 152980685743841890⟩,
   ⟨-718959095017797280, 6802105290184876500, 10183589307456465000, -7097565226566270700⟩,
   ⟨-342248862865603520, 1462407772306572200, -102582625395729680, 26061950972949885⟩,
   ⟨-335318684766732630, 203277831459756680, -370487224579728250, 363335177356588420⟩,
   ⟨-334857763183145190, 3349894194287571700, 1609466837667288600, -773400480027435910⟩,
   ⟨-221198235489326620, 12710693618195941000, 315404308791584070, -256756759998340430⟩,
   ⟨-91739334324185884, 11587853900745780000, -1384705059284192300, 836730464517855910⟩,
   ⟨-33574857469586563, 8263158573719109000, 1475537709194340600, -1207507754324167900⟩,
   ⟨75000508229625779, 3085767552253590500, -399686400031539960, 236435533539823660⟩,
   ⟨88705836367339828, 1948399065778187200, 12791178545845845, 45965155534204287⟩,
   ⟨112546504708978840, 3455660174554347600, 1413490373219582800, -458684607249460880⟩,
   ⟨234287411356701040, 17900865535537898000, 0, 0⟩]
/-- `atm_data.akima_dT`, aviary/subsystems/atmosphere/data/VenusReference2021.py:205-233, with the column exponents. -/
def venusdT : CTab := ⟨20, 26, 29, 33, venusdTRows⟩
/-- `atm_data` of aviary/subsystems/atmosphere/data/VenusReference2021.py. -/
def venus : AtmData := ⟨7, venusAlt, venusT, venusP, venusrho, venusdT⟩

end Verif.AtmD
