import Verif.Model.AtmTables

/-! Data of aviary/subsystems/atmosphere/data/MarsPolarHot.py, as exact decimals (generated from the source text). -/

namespace Verif.AtmD

set_option maxRecDepth 100000

/-- `atm_data.alt`, aviary/subsystems/atmosphere/data/MarsPolarHot.py:68-71 -/
def marsPolarHotAlt : List ℤ :=
  [(-8000),
   (-5000),
   (-2000),
   (-1955),
   (-1945),
   (-1000),
   0,
   1000,
   2000,
   3000,
   4000,
   5000,
   6000,
   7000,
   8000,
   9000,
   10000,
   15000,
   20000,
   25000,
   30000,
   40000,
   50000,
   60000,
   70000,
   80000]
/-- `atm_data.akima_T`, aviary/subsystems/atmosphere/data/MarsPolarHot.py:73-100 -/
def marsPolarHotTRows : List IRow :=
  [⟨21622000000000000, 0, 0, 0⟩,
   ⟨21622000000000000, 0, 0, 0⟩,
   ⟨21622000000000000, 0, 0, 0⟩,
   ⟨21622000000000000, 0, 0, 0⟩,
   ⟨21622000000000000, 0, 2205292005886609600000000000000000000, -145529200588660970000000000000000000000⟩,
   ⟨21697000000000000, 447079941133906880, -66929356322253667000000000000000, -854305691994714780000000000000⟩,
   ⟨22059000000000000, 318294708663066770, 350169430536596890000000000000000, -353464139199663030000000000000000⟩,
   ⟨22374000000000001, -41758847862728655, -11479549453604911000000000000000, 6238397316333686200000000000000⟩,
   ⟨22327000000000001, -46002754820937433, 1005509641872356100000000000000, -1002754820935726700000000000000⟩,
   ⟨22281000000000000, -46999999999999890, 16263032587282567, -10842021724855044⟩,
   ⟨22234000000000000, -46999999999999890, 16263032587282567, -10842021724855044⟩,
   ⟨22187000000000000, -46999999999999890, 76999999999785133000000000000000, -75999999999786046000000000000000⟩,
   ⟨22141000000000000, -120999999999787750, -428932063478715240000, 215886336585313630000⟩,
   ⟨22019999999999999, -120999999999997950, 2818925648462311600, -2818925648462311900⟩,
   ⟨21899000000000001, -121000000000000790, 0, 0⟩,
   ⟨21778000000000000, -121000000000000790, 0, 0⟩,
   ⟨21656999999999999, -121000000000000790, 10299920638612293000, -7502679033599692000⟩,
   ⟨21536000000000001, -121000000000002590, -10490821256037812000000000000000, 674164251207655080000000000000⟩,
   ⟨20753000000000000, -175345893719806570, -226051960896117580000000000000, -76953859028503984000000000000⟩,
   ⟨19861000000000001, -183377952755905570, -487602167599824820000000000000, 64638543756181249000000000000⟩,
   ⟨18940000000000001, -183406083650190220, 867511180283326980000000000000, -61258890049056838000000000000⟩,
   ⟨18037000000000000, -179325388601036280, 868740821811553470000000000000, 105379803829208150000000000000⟩,
   ⟨16436000000000001, -130336631016042710, 3244880551034599500000000000000, -79121744943034052000000000000⟩,
   ⟨15378000000000000, -89175543478260959, 69904415496517807000000000000, -4235006767043525500000000000⟩,
   ⟨14488999999999999, -89047957198443682, -239475380587719830000000000000, 16427110043209637000000000000⟩,
   ⟨13591000000000000, -88909331797235155, 12706866359447057000000000000000, -420593317972352910000000000000⟩,
   ⟨13552000000000001, 39050000000000147, 0, 0⟩]
/-- `atm_data.akima_T`, aviary/subsystems/atmosphere/data/MarsPolarHot.py:73-100, with the column exponents. -/
def marsPolarHotT : CTab := ⟨14, 20, 38, 41, marsPolarHotTRows⟩
/-- `atm_data.akima_P`, aviary/subsystems/atmosphere/data/MarsPolarHot.py:102-129 -/
def marsPolarHotPRows : List IRow :=
  [⟨1100000000000000000000, -945000000000000560000, 0, 0⟩,
   ⟨1100000000000000000000, -945000000000000560000, 336621004566209340000, -6651445966514136600⟩,
   ⟨844999999999999890000, -760986301369862840000, 490132222743946040000, -51170406059245249000⟩,
   ⟨647000000000000000000, -605067064083457120000, 111388066592708460000000, -1682092247052717200000000⟩,
   ⟨645000000000000000000, -624445504833607070000, -1163530145112019900000000, 78797564994562651000000000⟩,
   ⟨644000000000000000000, -587578845220766560000, 301264389042999870000, 99043254014757378000⟩,
   ⟨592000000000000000000, -504105445116681120000, -140634356751959810000, 181688807918770080000⟩,
   ⟨542000000000000000000, -477725674091442000000, 125942053257412100000, 51314687657005867000⟩,
   ⟨496000000000000000000, -437142857142857330000, 192857142857141830000, -21428571428568077000⟩,
   ⟨454000000000000000000, -404999999999999530000, 100000000000007720000, 49999999999993106000⟩,
   ⟨415000000000000060000, -369999999999999980000, 159999999999984470000, 40000000000009473000⟩,
   ⟨380000000000000000000, -326000000000000250000, 77142857142861034000, -17142857142858627000⟩,
   ⟨348000000000000000000, -315714285714285630000, -85714285714287228000, 142857142857143190000⟩,
   ⟨317000000000000000000, -290000000000000010000, 342857142857142680000, -142857142857142490000⟩,
   ⟨290000000000000000000, -264285714285714300000, -14285714285714250000, 57142857142856304000⟩,
   ⟨264000000000000000000, -250000000000000050000, 318918918918918010000, -118918918918918560000⟩,
   ⟨241000000000000000000, -221891891891891730000, 128112152052304100000, -9193233133383826400⟩,
   ⟨220000000000000030000, -199027431421446060000, 68129049357281701000, -414837302877973980⟩,
   ⟨137000000000000000000, -134009661835748990000, 58264815567294875000, -369098379159396670⟩,
   ⟨84099999999999994000, -78513084112149505000, 13473162894879071000, 1910601065883990600⟩,
   ⟨50600000000000001000, -50710413223140505000, 7883103669764019600, 2067544555303391400⟩,
   ⟨29799999999999997000, -27320725388601040000, 3941907398206650000, 347881799039439220⟩,
   ⟨9900000000000000400, -9000456621004566300, 456969174561054610, 184348744644351150⟩,
   ⟨3200000000000000200, -2556055932551923200, -388563494572742550, 82461942712466565⟩,
   ⟨1080000000000000100, -859324640323411880, -92397614566630747, 22072225489004251⟩,
   ⟨348999999999999980, -381953104786545960, 1206209573091889, 11594689521345408⟩,
   ⟨84199999999999997, -31699999999999959, 0, 0⟩]
/-- `atm_data.akima_P`, aviary/subsystems/atmosphere/data/MarsPolarHot.py:102-129, with the column exponents. -/
def marsPolarHotP : CTab := ⟨18, 22, 26, 29, marsPolarHotPRows⟩
/-- `atm_data.akima_rho`, aviary/subsystems/atmosphere/data/MarsPolarHot.py:131-158 -/
def marsPolarHotrhoRows : List IRow :=
  [⟨27000000000000000000, -233333333333333320000, 0, 0⟩,
   ⟨27000000000000000000, -233333333333333320000, 1209876543209877400000000000000, -1440329218106993900000000000000⟩,
   ⟨20700000000000000000, -199629629629629590000, 2177007155775742500000000000000, -3223768708552880700000000000000⟩,
   ⟨15800000000000002000, -156050955414012900000, 1054859638570451700000000000000000, -157351052811205120000000000000000000⟩,
   ⟨15800000000000002000, -162584926528677470000, -25006325776064897000000000000000000, 16632175041351388000000000000000000000⟩,
   ⟨15699999999999999000, -174197569336241510000, 1381461013145658800000000000000, 2701608613260009900000000000000⟩,
   ⟨14200000000000001000, -140850144092219010000, -3829971181556159600000000000000, 39149855907780585000000000000000⟩,
   ⟨12800000000000001000, -100000000000000500000, 65645053412208276, -254109884176290110⟩,
   ⟨11800000000000000000, -99999999999999932000, -10587911840678754, 127054942088145050⟩,
   ⟨10800000000000001000, -99999999999999784000, 1066666666666601100000000000000, -2666666666666330500000000000000⟩,
   ⟨9879999999999999900, -86666666666666680000, 521568627450999540000000000000, -549019607843249930000000000000⟩,
   ⟨9060000000000000300, -77882352941176482000, 168137254901949240000000000000, 1200980392156902800000000000000⟩,
   ⟨8309999999999999700, -70916666666666746000, 291666666666679420000000000000, -42351647362715015⟩,
   ⟨7629999999999999600, -65083333333333296000, 166666666666670000000000000000, 416666666666648610000000000000⟩,
   ⟨7000000000000000100, -60499999999999940000, 249999999999994420000000000000, 21175823681357508⟩,
   ⟨6420000000000000400, -55499999999999998000, 331081081081080110000000000000, -810810810810824950000000000000⟩,
   ⟨5890000000000000300, -51310810810810850000, 389939939939941040000000000000, -588588588588588270000000000000⟩,
   ⟨5409999999999999900, -45277777777777815000, 144632850241547340000000000000, -6154589371982098900000000000⟩,
   ⟨3500000000000000100, -31276086956521734000, 124736599953990590000000000000, -6429721647112187800000000000⟩,
   ⟨2239999999999999800, -19284656084656083000, 33475099904815912000000000000, 40436043576611597000000000000⟩,
   ⟨1410000000000000000, -12904442825928620000, 23711259363023349000000000000, 40755194311098039000000000000⟩,
   ⟨875000000000000020, -7476677316293931500, 10610564004587307000000000000, 8456209158352012900000000000⟩,
   ⟨317999999999999980, -2817701767870868400, 2562089219205996000000000000, 4814928459502692900000000000⟩,
   ⟨110000000000000000, -860805386178861730, -894683643329243700000000000, 2452737505117858600000000000⟩,
   ⟨39499999999999998, -303920863309352580, -246316067146281180000000000, 695524700239808010000000000⟩,
   ⟨13600000000000000, -144526666666666660, 20533333333333325000000000, 374733333333333280000000000⟩,
   ⟨3100000000000000, -28000000000000017, 0, 0⟩]
/-- `atm_data.akima_rho`, aviary/subsystems/atmosphere/data/MarsPolarHot.py:131-158, with the column exponents. -/
def marsPolarHotrho : CTab := ⟨21, 26, 40, 44, marsPolarHotrhoRows⟩
/-- `atm_data.akima_dT`, aviary/subsystems/atmosphere/data/MarsPolarHot.py:160-187 -/
def marsPolarHotdTRows : List IRow :=
  [⟨0, 0, 0, 0⟩,
   ⟨0, 0, 0, 0⟩,
   ⟨0, 0, 0, 0⟩,
   ⟨0, 0, 0, 0⟩,
   ⟨0, 0, 134036925858156640000000000000000000000, -8932893174476704700000000000000000000000000000⟩,
   ⟨447079941133896040, 870564820121731280000000000000000000000000000, -2377385488913137800000000000000000, 14845915946557742000000000000000000000⟩,
   ⟨318294708663066730, -3582920431659574100000000000000000000000000000, -3542441559599566800000000000000000, 3524826426001188200000000000000000000000⟩,
   ⟨-41758847862728580, -93324272855144125000000000000000000000000000, 69394530213262410000000000000000, -18509326940206665000000000000000000000⟩,
   ⟨-46002754820937417, -10063193249239288000000000000000000000000000, -9790968873396026100000000000000, 9881710332010471300000000000000000000⟩,
   ⟨-46999999999999901, 75117845052437866000000000000, 68046417865779848, -34744045669667267000000⟩,
   ⟨-46999999999999890, 106978543774995760000000000000, -105536870301133140, -1441673473862619900000⟩,
   ⟨-46999999999999890, -108420217248858380000000000000, -2219999999989460700000000000000000, 1479999999991582100000000000000000000000⟩,
   ⟨-120999999999787770, -4175479406664473500000000000000000, 2073645075072451800000, 11622602028388091⟩,
   ⟨-120999999999997950, -28189256484701502000000000000000, -27969491288776215000, 27969491288854602000000000⟩,
   ⟨-121000000000000770, -219765195690129560000000000000, -123055620702080980, 125980381895109640000000⟩,
   ⟨-121000000000000790, -87935291408962567000000000000, 175870582817963210, -87935291409000643000000⟩,
   ⟨-121000000000000790, -38068562605930246, -15772635738046123000, -3309322497698724900000000⟩,
   ⟨-121000000000002700, -41473238969188443000000000000000, -59624101847682522000000000000000, 7577148871953855300000000000000000000⟩,
   ⟨-175345893719806570, -27954853080327669000000000000000000000000000, 1815611380243383200000000000000, 112507124276512270000000000000000000⟩,
   ⟨-183377952755905550, -1360704957155419800000000000000000000000000, 58870704681589282000000000000, 40403585807124856000000000000000000⟩,
   ⟨-183406083650190220, 2258271025194836800000000000000000000000000, -1820720109904924000000000000000, 600268784905512220000000000000000000⟩,
   ⟨-179325388601036220, 29071228794058987000000000000000000000000000, 4373903718143700100000000000000, -238215083905025220000000000000000000⟩,
   ⟨-130336631016042750, 45084777985425427000000000000000000000000000, 3312833357766600400000000000000, -370520240253096020000000000000000000⟩,
   ⟨-89175543478260937, 185373064828614490000000000000000000000000, -11825620261907865000000000000, 604694176077409930000000000000000⟩,
   ⟨-89047957198443660, 130268912413680160000000000000000000000000, 567480949993867820000000000, 26816792948537291000000000000000⟩,
   ⟨-88909331797235188, 149663569298118700000000000000000000000000, 19170898325786100000000000000000, -638993150299237900000000000000000000⟩,
   ⟨39050000000000120, 191869684995248730000000000000000000000000000, 0, 0⟩]
/-- `atm_data.akima_dT`, aviary/subsystems/atmosphere/data/MarsPolarHot.py:160-187, with the column exponents. -/
def marsPolarHotdT : CTab := ⟨20, 51, 42, 51, marsPolarHotdTRows⟩
/-- `atm_data` of aviary/subsystems/atmosphere/data/MarsPolarHot.py. -/
def marsPolarHot : AtmData := ⟨0, marsPolarHotAlt, marsPolarHotT, marsPolarHotP, marsPolarHotrho, marsPolarHotdT⟩

end Verif.AtmD
