import Verif.Model.AtmTables

/-! Data of aviary/subsystems/atmosphere/data/StandardAtm1976.py, as exact decimals (generated from the source text). -/

namespace Verif.AtmD

set_option maxRecDepth 100000

/-- `atm_data.alt`, aviary/subsystems/atmosphere/data/StandardAtm1976.py:730-829 (part 1) -/
def standardAlt_0 : List ℤ :=
  [(-5000),
   (-4950),
   (-4900),
   (-4850),
   (-4800),
   (-4750),
   (-4700),
   (-4650),
   (-4600),
   (-4550),
   (-4500),
   (-4450),
   (-4400),
   (-4350),
   (-4300),
   (-4250),
   (-4200),
   (-4150),
   (-4100),
   (-4050),
   (-4000),
   (-3950),
   (-3900),
   (-3850),
   (-3800),
   (-3750),
   (-3700),
   (-3650),
   (-3600),
   (-3550),
   (-3500),
   (-3450),
   (-3400),
   (-3350),
   (-3300),
   (-3250),
   (-3200),
   (-3150),
   (-3100),
   (-3050),
   (-3000),
   (-2950),
   (-2900),
   (-2850),
   (-2800),
   (-2750),
   (-2700),
   (-2650),
   (-2600),
   (-2550),
   (-2500),
   (-2450),
   (-2400),
   (-2350),
   (-2300),
   (-2250),
   (-2200),
   (-2150),
   (-2100),
   (-2050),
   (-2000),
   (-1950),
   (-1900),
   (-1850)]
/-- `atm_data.alt`, aviary/subsystems/atmosphere/data/StandardAtm1976.py:730-829 (part 2) -/
def standardAlt_1 : List ℤ :=
  [(-1800),
   (-1750),
   (-1700),
   (-1650),
   (-1600),
   (-1550),
   (-1500),
   (-1450),
   (-1400),
   (-1350),
   (-1300),
   (-1250),
   (-1200),
   (-1150),
   (-1100),
   (-1050),
   (-1000),
   (-950),
   (-900),
   (-850),
   (-800),
   (-750),
   (-700),
   (-650),
   (-600),
   (-550),
   (-500),
   (-450),
   (-400),
   (-350),
   (-300),
   (-250),
   (-200),
   (-150),
   (-100),
   (-50),
   0,
   50,
   100,
   150,
   200,
   250,
   300,
   350,
   400,
   450,
   500,
   550,
   600,
   650,
   700,
   750,
   800,
   850,
   900,
   950,
   1000,
   1050,
   1100,
   1150,
   1200,
   1250,
   1300,
   1350]
/-- `atm_data.alt`, aviary/subsystems/atmosphere/data/StandardAtm1976.py:730-829 (part 3) -/
def standardAlt_2 : List ℤ :=
  [1400,
   1450,
   1500,
   1550,
   1600,
   1650,
   1700,
   1750,
   1800,
   1850,
   1900,
   1950,
   2000,
   2050,
   2100,
   2150,
   2200,
   2250,
   2300,
   2350,
   2400,
   2450,
   2500,
   2550,
   2600,
   2650,
   2700,
   2750,
   2800,
   2850,
   2900,
   2950,
   3000,
   3050,
   3100,
   3150,
   3200,
   3250,
   3300,
   3350,
   3400,
   3450,
   3500,
   3550,
   3600,
   3650,
   3700,
   3750,
   3800,
   3850,
   3900,
   3950,
   4000,
   4050,
   4100,
   4150,
   4200,
   4250,
   4300,
   4350,
   4400,
   4450,
   4500,
   4550]
/-- `atm_data.alt`, aviary/subsystems/atmosphere/data/StandardAtm1976.py:730-829 (part 4) -/
def standardAlt_3 : List ℤ :=
  [4600,
   4650,
   4700,
   4750,
   4800,
   4850,
   4900,
   4950,
   5000,
   5050,
   5100,
   5150,
   5200,
   5250,
   5300,
   5350,
   5400,
   5450,
   5500,
   5550,
   5600,
   5650,
   5700,
   5750,
   5800,
   5850,
   5900,
   5950,
   6000,
   6050,
   6100,
   6150,
   6200,
   6250,
   6300,
   6350,
   6400,
   6450,
   6500,
   6550,
   6600,
   6650,
   6700,
   6750,
   6800,
   6850,
   6900,
   6950,
   7000,
   7050,
   7100,
   7150,
   7200,
   7250,
   7300,
   7350,
   7400,
   7450,
   7500,
   7550,
   7600,
   7650,
   7700,
   7750]
/-- `atm_data.alt`, aviary/subsystems/atmosphere/data/StandardAtm1976.py:730-829 (part 5) -/
def standardAlt_4 : List ℤ :=
  [7800,
   7850,
   7900,
   7950,
   8000,
   8050,
   8100,
   8150,
   8200,
   8250,
   8300,
   8350,
   8400,
   8450,
   8500,
   8550,
   8600,
   8650,
   8700,
   8750,
   8800,
   8850,
   8900,
   8950,
   9000,
   9050,
   9100,
   9150,
   9200,
   9250,
   9300,
   9350,
   9400,
   9450,
   9500,
   9550,
   9600,
   9650,
   9700,
   9750,
   9800,
   9850,
   9900,
   9950,
   10000,
   10050,
   10100,
   10150,
   10200,
   10250,
   10300,
   10350,
   10400,
   10450,
   10500,
   10550,
   10600,
   10650,
   10700,
   10750,
   10800,
   10850,
   10900,
   10950]
/-- `atm_data.alt`, aviary/subsystems/atmosphere/data/StandardAtm1976.py:730-829 (part 6) -/
def standardAlt_5 : List ℤ :=
  [11000,
   11100,
   11200,
   11300,
   11400,
   11500,
   11600,
   11700,
   11800,
   11900,
   12000,
   12100,
   12200,
   12300,
   12400,
   12500,
   12600,
   12700,
   12800,
   12900,
   13000,
   13100,
   13200,
   13300,
   13400,
   13500,
   13600,
   13700,
   13800,
   13900,
   14000,
   14100,
   14200,
   14300,
   14400,
   14500,
   14600,
   14700,
   14800,
   14900,
   15000,
   15100,
   15200,
   15300,
   15400,
   15500,
   15600,
   15700,
   15800,
   15900,
   16000,
   16100,
   16200,
   16300,
   16400,
   16500,
   16600,
   16700,
   16800,
   16900,
   17000,
   17100,
   17200,
   17300]
/-- `atm_data.alt`, aviary/subsystems/atmosphere/data/StandardAtm1976.py:730-829 (part 7) -/
def standardAlt_6 : List ℤ :=
  [17400,
   17500,
   17600,
   17700,
   17800,
   17900,
   18000,
   18100,
   18200,
   18300,
   18400,
   18500,
   18600,
   18700,
   18800,
   18900,
   19000,
   19100,
   19200,
   19300,
   19400,
   19500,
   19600,
   19700,
   19800,
   19900,
   20000,
   20100,
   20200,
   20300,
   20400,
   20500,
   20600,
   20700,
   20800,
   20900,
   21000,
   21100,
   21200,
   21300,
   21400,
   21500,
   21600,
   21700,
   21800,
   21900,
   22000,
   22100,
   22200,
   22300,
   22400,
   22500,
   22600,
   22700,
   22800,
   22900,
   23000,
   23100,
   23200,
   23300,
   23400,
   23500,
   23600,
   23700]
/-- `atm_data.alt`, aviary/subsystems/atmosphere/data/StandardAtm1976.py:730-829 (part 8) -/
def standardAlt_7 : List ℤ :=
  [23800,
   23900,
   24000,
   24100,
   24200,
   24300,
   24400,
   24500,
   24600,
   24700,
   24800,
   24900,
   25000,
   25100,
   25200,
   25300,
   25400,
   25500,
   25600,
   25700,
   25800,
   25900,
   26000,
   26100,
   26200,
   26300,
   26400,
   26500,
   26600,
   26700,
   26800,
   26900,
   27000,
   27100,
   27200,
   27300,
   27400,
   27500,
   27600,
   27700,
   27800,
   27900,
   28000,
   28100,
   28200,
   28300,
   28400,
   28500,
   28600,
   28700,
   28800,
   28900,
   29000,
   29100,
   29200,
   29300,
   29400,
   29500,
   29600,
   29700,
   29800,
   29900,
   30000,
   30100]
/-- `atm_data.alt`, aviary/subsystems/atmosphere/data/StandardAtm1976.py:730-829 (part 9) -/
def standardAlt_8 : List ℤ :=
  [30200,
   30300,
   30400,
   30500,
   30600,
   30700,
   30800,
   30900,
   31000,
   31100,
   31200,
   31300,
   31400,
   31500,
   31600,
   31700,
   31800,
   31900,
   32000,
   32200,
   32400,
   32600,
   32800,
   33000,
   33200,
   33400,
   33600,
   33800,
   34000,
   34200,
   34400,
   34600,
   34800,
   35000,
   35200,
   35400,
   35600,
   35800,
   36000,
   36200,
   36400,
   36600,
   36800,
   37000,
   37200,
   37400,
   37600,
   37800,
   38000,
   38200,
   38400,
   38600,
   38800,
   39000,
   39200,
   39400,
   39600,
   39800,
   40000,
   40200,
   40400,
   40600,
   40800,
   41000]
/-- `atm_data.alt`, aviary/subsystems/atmosphere/data/StandardAtm1976.py:730-829 (part 10) -/
def standardAlt_9 : List ℤ :=
  [41200,
   41400,
   41600,
   41800,
   42000,
   42200,
   42400,
   42600,
   42800,
   43000,
   43200,
   43400,
   43600,
   43800,
   44000,
   44200,
   44400,
   44600,
   44800,
   45000,
   45200,
   45400,
   45600,
   45800,
   46000,
   46200,
   46400,
   46600,
   46800,
   47000,
   47200,
   47400,
   47600,
   47800,
   48000,
   48200,
   48400,
   48600,
   48800,
   49000,
   49200,
   49400,
   49600,
   49800,
   50000,
   50500,
   51000,
   51500,
   52000,
   52500,
   53000,
   53500,
   54000,
   54500,
   55000,
   55500,
   56000,
   56500,
   57000,
   57500,
   58000,
   58500,
   59000,
   59500]
/-- `atm_data.alt`, aviary/subsystems/atmosphere/data/StandardAtm1976.py:730-829 (part 11) -/
def standardAlt_10 : List ℤ :=
  [60000,
   60500,
   61000,
   61500,
   62000,
   62500,
   63000,
   63500,
   64000,
   64500,
   65000,
   65500,
   66000,
   66500,
   67000,
   67500,
   68000,
   68500,
   69000,
   69500,
   70000,
   70500,
   71000,
   71500,
   72000,
   72500,
   73000,
   73500,
   74000,
   74500,
   75000,
   75500,
   76000,
   76500,
   77000,
   77500,
   78000,
   78500,
   79000,
   79500,
   80000,
   80500,
   81000,
   81500,
   82000,
   82500,
   83000,
   83500,
   84000,
   84500]
/-- `atm_data.alt`, aviary/subsystems/atmosphere/data/StandardAtm1976.py:730-829 -/
def standardAlt : List ℤ :=
  standardAlt_0 ++ standardAlt_1 ++ standardAlt_2 ++ standardAlt_3 ++ standardAlt_4 ++ standardAlt_5 ++ standardAlt_6 ++ standardAlt_7 ++ standardAlt_8 ++ standardAlt_9 ++ standardAlt_10
/-- `atm_data.akima_T`, aviary/subsystems/atmosphere/data/StandardAtm1976.py:831-1522 (part 1) -/
def standardTRows_0 : List IRow :=
  [⟨32064999999999998, -649999999999977250, 0, 0⟩,
   ⟨32064999999999998, -649999999999977250, 1734723475976807100, 0⟩,
   ⟨32032499999999999, -649999999999977250, 1734723475976807100, 0⟩,
   ⟨32000000000000000, -649999999999977250, 1734723475976807100, 0⟩,
   ⟨31967500000000001, -649999999999977250, 1734723475976807100, 0⟩,
   ⟨31935000000000002, -649999999999977250, -6826136877968736200000, 90968899080223760000⟩,
   ⟨31902499999999998, -649999999999977250, 1734723475976807100, 0⟩,
   ⟨31869999999999999, -649999999999977250, 1734723475976807100, 0⟩,
   ⟨31837500000000000, -649999999999977250, 1734723475976807100, 0⟩,
   ⟨31805000000000001, -649999999999977250, 1734723475976807100, 0⟩,
   ⟨31772500000000002, -649999999999977250, -6826136877968736200000, 90968899080223760000⟩,
   ⟨31739999999999998, -649999999999977250, 1734723475976807100, 0⟩,
   ⟨31707499999999999, -649999999999977250, 1734723475976807100, 0⟩,
   ⟨31675000000000000, -649999999999977250, 1734723475976807100, 0⟩,
   ⟨31642500000000001, -649999999999977250, 1734723475976807100, 0⟩,
   ⟨31610000000000002, -649999999999977250, -6826136877968736200000, 90968899080223760000⟩,
   ⟨31577499999999998, -649999999999977250, 1734723475976807100, 0⟩,
   ⟨31544999999999999, -649999999999977250, 1734723475976807100, 0⟩,
   ⟨31512500000000000, -649999999999977250, 1734723475976807100, 0⟩,
   ⟨31480000000000001, -649999999999977250, 1734723475976807100, 0⟩,
   ⟨31447500000000002, -649999999999977250, -6826136877968736200000, 90968899080223760000⟩,
   ⟨31414999999999998, -649999999999977250, 1734723475976807100, 0⟩,
   ⟨31382499999999999, -649999999999977250, 1734723475976807100, 0⟩,
   ⟨31350000000000000, -649999999999977250, 1734723475976807100, 0⟩,
   ⟨31317500000000001, -649999999999977250, 1734723475976807100, 0⟩,
   ⟨31285000000000002, -649999999999977250, -6826136877968736200000, 90968899080223760000⟩,
   ⟨31252499999999998, -649999999999977250, 1734723475976807100, 0⟩,
   ⟨31219999999999999, -649999999999977250, 1734723475976807100, 0⟩,
   ⟨31187500000000000, -649999999999977250, 1734723475976807100, 0⟩,
   ⟨31155000000000001, -649999999999977250, 1734723475976807100, 0⟩,
   ⟨31122500000000002, -649999999999977250, -6826136877968736200000, 90968899080223760000⟩,
   ⟨31089999999999998, -649999999999977250, 1734723475976807100, 0⟩,
   ⟨31057499999999999, -649999999999977250, 1734723475976807100, 0⟩,
   ⟨31025000000000000, -649999999999977250, 1734723475976807100, 0⟩,
   ⟨30992500000000001, -649999999999977250, 1734723475976807100, 0⟩,
   ⟨30960000000000002, -649999999999977250, -6826136877968736200000, 90968899080223760000⟩,
   ⟨30927499999999998, -649999999999977250, 1734723475976807100, 0⟩,
   ⟨30894999999999999, -649999999999977250, 1734723475976807100, 0⟩,
   ⟨30862500000000000, -649999999999977250, 1734723475976807100, 0⟩,
   ⟨30830000000000001, -649999999999977250, 1734723475976807100, 0⟩,
   ⟨30797500000000002, -649999999999977250, -6826136877968736200000, 90968899080223760000⟩,
   ⟨30764999999999998, -649999999999977250, 1734723475976807100, 0⟩,
   ⟨30732499999999999, -649999999999977250, 1734723475976807100, 0⟩,
   ⟨30700000000000000, -649999999999977250, 1734723475976807100, 0⟩,
   ⟨30667500000000001, -649999999999977250, 1734723475976807100, 0⟩,
   ⟨30635000000000002, -649999999999977250, -6826136877968736200000, 90968899080223760000⟩,
   ⟨30602499999999998, -649999999999977250, 1734723475976807100, 0⟩,
   ⟨30569999999999999, -649999999999977250, 1734723475976807100, 0⟩,
   ⟨30537500000000000, -649999999999977250, 1734723475976807100, 0⟩,
   ⟨30505000000000001, -649999999999977250, 1734723475976807100, 0⟩,
   ⟨30472500000000002, -649999999999977250, -6826136877968736200000, 90968899080223760000⟩,
   ⟨30439999999999998, -649999999999977250, 1734723475976807100, 0⟩,
   ⟨30407499999999999, -649999999999977250, 1734723475976807100, 0⟩,
   ⟨30375000000000000, -649999999999977250, 1734723475976807100, 0⟩,
   ⟨30342500000000001, -649999999999977250, 1734723475976807100, 0⟩,
   ⟨30310000000000002, -649999999999977250, -6826136877968736200000, 90968899080223760000⟩,
   ⟨30277499999999998, -649999999999977250, 1734723475976807100, 0⟩,
   ⟨30244999999999999, -649999999999977250, 1734723475976807100, 0⟩,
   ⟨30212500000000000, -649999999999977250, 1734723475976807100, 0⟩,
   ⟨30180000000000001, -649999999999977250, 1734723475976807100, 0⟩,
   ⟨30147500000000002, -649999999999977250, -6826136877968736200000, 90968899080223760000⟩,
   ⟨30114999999999998, -649999999999977250, 1734723475976807100, 0⟩,
   ⟨30082499999999999, -649999999999977250, 1734723475976807100, 0⟩,
   ⟨30050000000000000, -649999999999977250, 1734723475976807100, 0⟩]
/-- `atm_data.akima_T`, aviary/subsystems/atmosphere/data/StandardAtm1976.py:831-1522 (part 2) -/
def standardTRows_1 : List IRow :=
  [⟨30017500000000001, -649999999999977250, 1734723475976807100, 0⟩,
   ⟨29985000000000002, -649999999999977250, -6826136877968736200000, 90968899080223760000⟩,
   ⟨29952499999999998, -649999999999977250, 1734723475976807100, 0⟩,
   ⟨29919999999999999, -649999999999977250, 1734723475976807100, 0⟩,
   ⟨29887500000000000, -649999999999977250, 1734723475976807100, 0⟩,
   ⟨29855000000000001, -649999999999977250, 1734723475976807100, 0⟩,
   ⟨29822500000000002, -649999999999977250, -6826136877968736200000, 90968899080223760000⟩,
   ⟨29789999999999998, -649999999999977250, 1734723475976807100, 0⟩,
   ⟨29757499999999999, -649999999999977250, 1734723475976807100, 0⟩,
   ⟨29725000000000000, -649999999999977250, 1734723475976807100, 0⟩,
   ⟨29692500000000001, -649999999999977250, 1734723475976807100, 0⟩,
   ⟨29660000000000002, -649999999999977250, -6826136877968736200000, 90968899080223760000⟩,
   ⟨29627499999999998, -649999999999977250, 1734723475976807100, 0⟩,
   ⟨29594999999999999, -649999999999977250, 1734723475976807100, 0⟩,
   ⟨29562500000000000, -649999999999977250, 1734723475976807100, 0⟩,
   ⟨29530000000000001, -649999999999977250, 1734723475976807100, 0⟩,
   ⟨29497500000000002, -649999999999977250, -6826136877968736200000, 90968899080223760000⟩,
   ⟨29464999999999998, -649999999999977250, 1734723475976807100, 0⟩,
   ⟨29432499999999999, -649999999999977250, 1734723475976807100, 0⟩,
   ⟨29400000000000000, -649999999999977250, 1734723475976807100, 0⟩,
   ⟨29367500000000001, -649999999999977250, 1734723475976807100, 0⟩,
   ⟨29335000000000002, -649999999999977250, -6826136877968736200000, 90968899080223760000⟩,
   ⟨29302499999999998, -649999999999977250, 1734723475976807100, 0⟩,
   ⟨29269999999999999, -649999999999977250, 1734723475976807100, 0⟩,
   ⟨29237500000000000, -649999999999977250, 1734723475976807100, 0⟩,
   ⟨29205000000000001, -649999999999977250, 1734723475976807100, 0⟩,
   ⟨29172500000000002, -649999999999977250, -6826136877968736200000, 90968899080223760000⟩,
   ⟨29139999999999998, -649999999999977250, 1734723475976807100, 0⟩,
   ⟨29107499999999999, -649999999999977250, 1734723475976807100, 0⟩,
   ⟨29075000000000000, -649999999999977250, 1734723475976807100, 0⟩,
   ⟨29042500000000001, -649999999999977250, 1734723475976807100, 0⟩,
   ⟨29010000000000002, -649999999999977250, -6826136877968736200000, 90968899080223760000⟩,
   ⟨28977499999999998, -649999999999977250, 1734723475976807100, 0⟩,
   ⟨28944999999999999, -649999999999977250, 1734723475976807100, 0⟩,
   ⟨28912500000000000, -649999999999977250, 1734723475976807100, 0⟩,
   ⟨28880000000000001, -649999999999977250, 1734723475976807100, 0⟩,
   ⟨28847500000000002, -649999999999977250, -6826136877968736200000, 90968899080223760000⟩,
   ⟨28814999999999998, -649999999999977250, 1734723475976807100, 0⟩,
   ⟨28782499999999999, -649999999999977250, 1734723475976807100, 0⟩,
   ⟨28750000000000000, -649999999999977250, 1734723475976807100, 0⟩,
   ⟨28717500000000001, -649999999999977250, 1734723475976807100, 0⟩,
   ⟨28685000000000002, -649999999999977250, -6826136877968736200000, 90968899080223760000⟩,
   ⟨28652499999999998, -649999999999977250, 1734723475976807100, 0⟩,
   ⟨28619999999999999, -649999999999977250, 1734723475976807100, 0⟩,
   ⟨28587500000000000, -649999999999977250, 1734723475976807100, 0⟩,
   ⟨28555000000000001, -649999999999977250, 1734723475976807100, 0⟩,
   ⟨28522500000000002, -649999999999977250, -6826136877968736200000, 90968899080223760000⟩,
   ⟨28489999999999998, -649999999999977250, 1734723475976807100, 0⟩,
   ⟨28457499999999999, -649999999999977250, 1734723475976807100, 0⟩,
   ⟨28425000000000000, -649999999999977250, 1734723475976807100, 0⟩,
   ⟨28392500000000001, -649999999999977250, 1734723475976807100, 0⟩,
   ⟨28360000000000002, -649999999999977250, -6826136877968736200000, 90968899080223760000⟩,
   ⟨28327499999999998, -649999999999977250, 1734723475976807100, 0⟩,
   ⟨28294999999999999, -649999999999977250, 1734723475976807100, 0⟩,
   ⟨28262500000000000, -649999999999977250, 1734723475976807100, 0⟩,
   ⟨28230000000000001, -649999999999977250, 1734723475976807100, 0⟩,
   ⟨28197500000000002, -649999999999977250, -6826136877968736200000, 90968899080223760000⟩,
   ⟨28164999999999998, -649999999999977250, 1734723475976807100, 0⟩,
   ⟨28132499999999999, -649999999999977250, 1734723475976807100, 0⟩,
   ⟨28100000000000000, -649999999999977250, 1734723475976807100, 0⟩,
   ⟨28067500000000001, -649999999999977250, 1734723475976807100, 0⟩,
   ⟨28035000000000002, -649999999999977250, -6826136877968736200000, 90968899080223760000⟩,
   ⟨28002499999999998, -649999999999977250, 1734723475976807100, 0⟩,
   ⟨27969999999999999, -649999999999977250, 1734723475976807100, 0⟩]
/-- `atm_data.akima_T`, aviary/subsystems/atmosphere/data/StandardAtm1976.py:831-1522 (part 3) -/
def standardTRows_2 : List IRow :=
  [⟨27937500000000000, -649999999999977250, 1734723475976807100, 0⟩,
   ⟨27905000000000001, -649999999999977250, 1734723475976807100, 0⟩,
   ⟨27872500000000002, -649999999999977250, -6826136877968736200000, 90968899080223760000⟩,
   ⟨27839999999999998, -649999999999977250, 1734723475976807100, 0⟩,
   ⟨27807499999999999, -649999999999977250, 1734723475976807100, 0⟩,
   ⟨27775000000000000, -649999999999977250, 1734723475976807100, 0⟩,
   ⟨27742500000000001, -649999999999977250, 1734723475976807100, 0⟩,
   ⟨27710000000000002, -649999999999977250, -6826136877968736200000, 90968899080223760000⟩,
   ⟨27677499999999998, -649999999999977250, 1734723475976807100, 0⟩,
   ⟨27644999999999999, -649999999999977250, 1734723475976807100, 0⟩,
   ⟨27612500000000000, -649999999999977250, 1734723475976807100, 0⟩,
   ⟨27580000000000001, -649999999999977250, 1734723475976807100, 0⟩,
   ⟨27547500000000002, -649999999999977250, -6826136877968736200000, 90968899080223760000⟩,
   ⟨27514999999999998, -649999999999977250, 1734723475976807100, 0⟩,
   ⟨27482499999999999, -649999999999977250, 1734723475976807100, 0⟩,
   ⟨27450000000000000, -649999999999977250, 1734723475976807100, 0⟩,
   ⟨27417500000000001, -649999999999977250, 1734723475976807100, 0⟩,
   ⟨27385000000000002, -649999999999977250, -6826136877968736200000, 90968899080223760000⟩,
   ⟨27352499999999998, -649999999999977250, 1734723475976807100, 0⟩,
   ⟨27319999999999999, -649999999999977250, 1734723475976807100, 0⟩,
   ⟨27287500000000000, -649999999999977250, 1734723475976807100, 0⟩,
   ⟨27255000000000001, -649999999999977250, 1734723475976807100, 0⟩,
   ⟨27222500000000002, -649999999999977250, -6826136877968736200000, 90968899080223760000⟩,
   ⟨27189999999999998, -649999999999977250, 1734723475976807100, 0⟩,
   ⟨27157499999999999, -649999999999977250, 1734723475976807100, 0⟩,
   ⟨27125000000000000, -649999999999977250, 1734723475976807100, 0⟩,
   ⟨27092500000000001, -649999999999977250, 1734723475976807100, 0⟩,
   ⟨27060000000000002, -649999999999977250, -6826136877968736200000, 90968899080223760000⟩,
   ⟨27027499999999998, -649999999999977250, 1734723475976807100, 0⟩,
   ⟨26994999999999999, -649999999999977250, 1734723475976807100, 0⟩,
   ⟨26962500000000000, -649999999999977250, 1734723475976807100, 0⟩,
   ⟨26930000000000001, -649999999999977250, 1734723475976807100, 0⟩,
   ⟨26897500000000002, -649999999999977250, -6826136877968736200000, 90968899080223760000⟩,
   ⟨26864999999999998, -649999999999977250, 1734723475976807100, 0⟩,
   ⟨26832499999999999, -649999999999977250, 1734723475976807100, 0⟩,
   ⟨26800000000000000, -649999999999977250, 1734723475976807100, 0⟩,
   ⟨26767500000000001, -649999999999977250, 1734723475976807100, 0⟩,
   ⟨26735000000000002, -649999999999977250, -6826136877968736200000, 90968899080223760000⟩,
   ⟨26702499999999998, -649999999999977250, 1734723475976807100, 0⟩,
   ⟨26669999999999999, -649999999999977250, 1734723475976807100, 0⟩,
   ⟨26637500000000000, -649999999999977250, 1734723475976807100, 0⟩,
   ⟨26605000000000001, -649999999999977250, 1734723475976807100, 0⟩,
   ⟨26572500000000002, -649999999999977250, -6826136877968736200000, 90968899080223760000⟩,
   ⟨26539999999999998, -649999999999977250, 1734723475976807100, 0⟩,
   ⟨26507499999999999, -649999999999977250, 1734723475976807100, 0⟩,
   ⟨26475000000000000, -649999999999977250, 1734723475976807100, 0⟩,
   ⟨26442500000000001, -649999999999977250, 1734723475976807100, 0⟩,
   ⟨26410000000000002, -649999999999977250, -6826136877968736200000, 90968899080223760000⟩,
   ⟨26377499999999998, -649999999999977250, 1734723475976807100, 0⟩,
   ⟨26344999999999999, -649999999999977250, 1734723475976807100, 0⟩,
   ⟨26312500000000000, -649999999999977250, 1734723475976807100, 0⟩,
   ⟨26280000000000001, -649999999999977250, 1734723475976807100, 0⟩,
   ⟨26247500000000002, -649999999999977250, -6826136877968736200000, 90968899080223760000⟩,
   ⟨26214999999999998, -649999999999977250, 1734723475976807100, 0⟩,
   ⟨26182499999999999, -649999999999977250, 1734723475976807100, 0⟩,
   ⟨26150000000000000, -649999999999977250, 1734723475976807100, 0⟩,
   ⟨26117500000000001, -649999999999977250, 1734723475976807100, 0⟩,
   ⟨26085000000000002, -649999999999977250, -6826136877968736200000, 90968899080223760000⟩,
   ⟨26052499999999998, -649999999999977250, 1734723475976807100, 0⟩,
   ⟨26019999999999999, -649999999999977250, 1734723475976807100, 0⟩,
   ⟨25987500000000000, -649999999999977250, 1734723475976807100, 0⟩,
   ⟨25955000000000001, -649999999999977250, 1734723475976807100, 0⟩,
   ⟨25922500000000002, -649999999999977250, -6826136877968736200000, 90968899080223760000⟩,
   ⟨25889999999999998, -649999999999977250, 1734723475976807100, 0⟩]
/-- `atm_data.akima_T`, aviary/subsystems/atmosphere/data/StandardAtm1976.py:831-1522 (part 4) -/
def standardTRows_3 : List IRow :=
  [⟨25857499999999999, -649999999999977250, 1734723475976807100, 0⟩,
   ⟨25825000000000000, -649999999999977250, 1734723475976807100, 0⟩,
   ⟨25792500000000001, -649999999999977250, 1734723475976807100, 0⟩,
   ⟨25760000000000002, -649999999999977250, -6826136877968736200000, 90968899080223760000⟩,
   ⟨25727499999999998, -649999999999977250, 1734723475976807100, 0⟩,
   ⟨25694999999999999, -649999999999977250, 3469446951953614300, -69388939039072287⟩,
   ⟨25662500000000000, -649999999999977330, 6938893903907228500, -69388939039072287⟩,
   ⟨25630000000000001, -649999999999977330, -2839742330174033400000, 34069969068184495000⟩,
   ⟨25597499999999999, -650000000000005690, 1708702623837154900000, -22759572004815711000⟩,
   ⟨25565000000000001, -650000000000005690, -2272487753529617200000, 34069969068184495000⟩,
   ⟨25532499999999999, -649999999999977330, 6938893903907228500, -69388939039072287⟩,
   ⟨25500000000000000, -649999999999977330, 6938893903907228500, -69388939039072287⟩,
   ⟨25467500000000001, -649999999999977330, -2839742330174033400000, 34069969068184495000⟩,
   ⟨25434999999999999, -650000000000005690, 1708702623837154900000, -22759572004815711000⟩,
   ⟨25402500000000001, -650000000000005690, -2272487753529617200000, 34069969068184495000⟩,
   ⟨25369999999999999, -649999999999977330, 6938893903907228500, -69388939039072287⟩,
   ⟨25337500000000000, -649999999999977330, 6938893903907228500, -69388939039072287⟩,
   ⟨25305000000000001, -649999999999977330, -2839742330174033400000, 34069969068184495000⟩,
   ⟨25272499999999999, -650000000000005690, 1708702623837154900000, -22759572004815711000⟩,
   ⟨25240000000000001, -650000000000005690, -2272487753529617200000, 34069969068184495000⟩,
   ⟨25207499999999999, -649999999999977330, 6938893903907228500, -69388939039072287⟩,
   ⟨25175000000000000, -649999999999977330, 6938893903907228500, -69388939039072287⟩,
   ⟨25142500000000001, -649999999999977330, -2839742330174033400000, 34069969068184495000⟩,
   ⟨25109999999999999, -650000000000005690, 1708702623837154900000, -22759572004815711000⟩,
   ⟨25077500000000001, -650000000000005690, -2272487753529617200000, 34069969068184495000⟩,
   ⟨25044999999999999, -649999999999977330, 6938893903907228500, -69388939039072287⟩,
   ⟨25012500000000000, -649999999999977330, 6938893903907228500, -69388939039072287⟩,
   ⟨24980000000000001, -649999999999977330, -2839742330174033400000, 34069969068184495000⟩,
   ⟨24947499999999999, -650000000000005690, 1708702623837154900000, -22759572004815711000⟩,
   ⟨24915000000000001, -650000000000005690, -2272487753529617200000, 34069969068184495000⟩,
   ⟨24882499999999999, -649999999999977330, 6938893903907228500, -69388939039072287⟩,
   ⟨24850000000000000, -649999999999977330, 6938893903907228500, -69388939039072287⟩,
   ⟨24817500000000001, -649999999999977330, -2839742330174033400000, 34069969068184495000⟩,
   ⟨24784999999999999, -650000000000005690, 1708702623837154900000, -22759572004815711000⟩,
   ⟨24752500000000001, -650000000000005690, -2272487753529617200000, 34069969068184495000⟩,
   ⟨24719999999999999, -649999999999977330, 6938893903907228500, -69388939039072287⟩,
   ⟨24687500000000000, -649999999999977330, 6938893903907228500, -69388939039072287⟩,
   ⟨24655000000000001, -649999999999977330, -2839742330174033400000, 34069969068184495000⟩,
   ⟨24622499999999999, -650000000000005690, 1708702623837154900000, -22759572004815711000⟩,
   ⟨24590000000000001, -650000000000005690, -2272487753529617200000, 34069969068184495000⟩,
   ⟨24557499999999999, -649999999999977330, 6938893903907228500, -69388939039072287⟩,
   ⟨24525000000000000, -649999999999977330, 6938893903907228500, -69388939039072287⟩,
   ⟨24492500000000001, -649999999999977330, -2839742330174033400000, 34069969068184495000⟩,
   ⟨24459999999999999, -650000000000005690, 1708702623837154900000, -22759572004815711000⟩,
   ⟨24427500000000001, -650000000000005690, -2272487753529617200000, 34069969068184495000⟩,
   ⟨24394999999999999, -649999999999977330, 6938893903907228500, -69388939039072287⟩,
   ⟨24362500000000000, -649999999999977330, 6938893903907228500, -69388939039072287⟩,
   ⟨24330000000000001, -649999999999977330, -2839742330174033400000, 34069969068184495000⟩,
   ⟨24297499999999999, -650000000000005690, 1708702623837154900000, -22759572004815711000⟩,
   ⟨24265000000000001, -650000000000005690, -2272487753529617200000, 34069969068184495000⟩,
   ⟨24232499999999999, -649999999999977330, 6938893903907228500, -69388939039072287⟩,
   ⟨24200000000000000, -649999999999977330, 6938893903907228500, -69388939039072287⟩,
   ⟨24167500000000001, -649999999999977330, -2839742330174033400000, 34069969068184495000⟩,
   ⟨24134999999999999, -650000000000005690, 1708702623837154900000, -22759572004815711000⟩,
   ⟨24102500000000001, -650000000000005690, -2272487753529617200000, 34069969068184495000⟩,
   ⟨24069999999999999, -649999999999977330, 6938893903907228500, -69388939039072287⟩,
   ⟨24037500000000000, -649999999999977330, 6938893903907228500, -69388939039072287⟩,
   ⟨24005000000000001, -649999999999977330, -2839742330174033400000, 34069969068184495000⟩,
   ⟨23972499999999999, -650000000000005690, 1708702623837154900000, -22759572004815711000⟩,
   ⟨23940000000000001, -650000000000005690, -2272487753529617200000, 34069969068184495000⟩,
   ⟨23907499999999999, -649999999999977330, 6938893903907228500, -69388939039072287⟩,
   ⟨23875000000000000, -649999999999977330, 6938893903907228500, -69388939039072287⟩,
   ⟨23842500000000001, -649999999999977330, -2839742330174033400000, 34069969068184495000⟩,
   ⟨23809999999999999, -650000000000005690, 1708702623837154900000, -22759572004815711000⟩]
/-- `atm_data.akima_T`, aviary/subsystems/atmosphere/data/StandardAtm1976.py:831-1522 (part 5) -/
def standardTRows_4 : List IRow :=
  [⟨23777500000000001, -650000000000005690, -2272487753529617200000, 34069969068184495000⟩,
   ⟨23744999999999999, -649999999999977330, 6938893903907228500, -69388939039072287⟩,
   ⟨23712500000000000, -649999999999977330, 6938893903907228500, -69388939039072287⟩,
   ⟨23680000000000001, -649999999999977330, -2839742330174033400000, 34069969068184495000⟩,
   ⟨23647499999999999, -650000000000005690, 1708702623837154900000, -22759572004815711000⟩,
   ⟨23615000000000001, -650000000000005690, -2272487753529617200000, 34069969068184495000⟩,
   ⟨23582499999999999, -649999999999977330, 6938893903907228500, -69388939039072287⟩,
   ⟨23550000000000000, -649999999999977330, 6938893903907228500, -69388939039072287⟩,
   ⟨23517500000000001, -649999999999977330, -2839742330174033400000, 34069969068184495000⟩,
   ⟨23484999999999999, -650000000000005690, 1708702623837154900000, -22759572004815711000⟩,
   ⟨23452500000000001, -650000000000005690, -2272487753529617200000, 34069969068184495000⟩,
   ⟨23419999999999999, -649999999999977330, 6938893903907228500, -69388939039072287⟩,
   ⟨23387500000000000, -649999999999977330, 6938893903907228500, -69388939039072287⟩,
   ⟨23355000000000001, -649999999999977330, -2839742330174033400000, 34069969068184495000⟩,
   ⟨23322499999999999, -650000000000005690, 1708702623837154900000, -22759572004815711000⟩,
   ⟨23290000000000001, -650000000000005690, -2272487753529617200000, 34069969068184495000⟩,
   ⟨23257499999999999, -649999999999977330, 6938893903907228500, -69388939039072287⟩,
   ⟨23225000000000000, -649999999999977330, 6938893903907228500, -69388939039072287⟩,
   ⟨23192500000000001, -649999999999977330, -2839742330174033400000, 34069969068184495000⟩,
   ⟨23159999999999999, -650000000000005690, 1708702623837154900000, -22759572004815711000⟩,
   ⟨23127500000000001, -650000000000005690, -2272487753529617200000, 34069969068184495000⟩,
   ⟨23094999999999999, -649999999999977330, 6938893903907228500, -69388939039072287⟩,
   ⟨23062500000000000, -649999999999977330, 6938893903907228500, -69388939039072287⟩,
   ⟨23030000000000001, -649999999999977330, -2839742330174033400000, 34069969068184495000⟩,
   ⟨22997499999999999, -650000000000005690, 1708702623837154900000, -22759572004815711000⟩,
   ⟨22965000000000001, -650000000000005690, -2272487753529617200000, 34069969068184495000⟩,
   ⟨22932499999999999, -649999999999977330, 6938893903907228500, -69388939039072287⟩,
   ⟨22900000000000000, -649999999999977330, 6938893903907228500, -69388939039072287⟩,
   ⟨22867500000000001, -649999999999977330, -2839742330174033400000, 34069969068184495000⟩,
   ⟨22834999999999999, -650000000000005690, 1708702623837154900000, -22759572004815711000⟩,
   ⟨22802500000000001, -650000000000005690, -2272487753529617200000, 34069969068184495000⟩,
   ⟨22769999999999999, -649999999999977330, 6938893903907228500, -69388939039072287⟩,
   ⟨22737500000000000, -649999999999977330, 6938893903907228500, -69388939039072287⟩,
   ⟨22705000000000001, -649999999999977330, -2839742330174033400000, 34069969068184495000⟩,
   ⟨22672499999999999, -650000000000005690, 1708702623837154900000, -22759572004815711000⟩,
   ⟨22640000000000001, -650000000000005690, -2272487753529617200000, 34069969068184495000⟩,
   ⟨22607499999999999, -649999999999977330, 6938893903907228500, -69388939039072287⟩,
   ⟨22575000000000000, -649999999999977330, 6938893903907228500, -69388939039072287⟩,
   ⟨22542500000000001, -649999999999977330, -2839742330174033400000, 34069969068184495000⟩,
   ⟨22509999999999999, -650000000000005690, 1708702623837154900000, -22759572004815711000⟩,
   ⟨22477500000000001, -650000000000005690, -2272487753529617200000, 34069969068184495000⟩,
   ⟨22444999999999999, -649999999999977330, 6938893903907228500, -69388939039072287⟩,
   ⟨22412500000000000, -649999999999977330, 6938893903907228500, -69388939039072287⟩,
   ⟨22380000000000001, -649999999999977330, -2839742330174033400000, 34069969068184495000⟩,
   ⟨22347499999999999, -650000000000005690, 1708702623837154900000, -22759572004815711000⟩,
   ⟨22315000000000001, -650000000000005690, -2272487753529617200000, 34069969068184495000⟩,
   ⟨22282499999999999, -649999999999977330, 6938893903907228500, -69388939039072287⟩,
   ⟨22250000000000000, -649999999999977330, 6938893903907228500, -69388939039072287⟩,
   ⟨22217500000000001, -649999999999977330, -2839742330174033400000, 34069969068184495000⟩,
   ⟨22184999999999999, -650000000000005690, 1708702623837154900000, -22759572004815711000⟩,
   ⟨22152500000000001, -650000000000005690, -2272487753529617200000, 34069969068184495000⟩,
   ⟨22119999999999999, -649999999999977330, 6938893903907228500, -69388939039072287⟩,
   ⟨22087500000000000, -649999999999977330, 6938893903907228500, -69388939039072287⟩,
   ⟨22055000000000001, -649999999999977330, -2839742330174033400000, 34069969068184495000⟩,
   ⟨22022499999999999, -650000000000005690, 1708702623837154900000, -22759572004815711000⟩,
   ⟨21990000000000001, -650000000000005690, -2272487753529617200000, 34069969068184495000⟩,
   ⟨21957499999999999, -649999999999977330, 6938893903907228500, -69388939039072287⟩,
   ⟨21925000000000000, -649999999999977330, 6938893903907228500, -69388939039072287⟩,
   ⟨21892500000000001, -649999999999977330, -2839742330174033400000, 34069969068184495000⟩,
   ⟨21859999999999999, -650000000000005690, 1708702623837154900000, -22759572004815711000⟩,
   ⟨21827500000000001, -650000000000005690, -2272487753529617200000, 34069969068184495000⟩,
   ⟨21794999999999999, -649999999999977330, 6938893903907228500, -69388939039072287⟩,
   ⟨21762500000000000, -649999999999977330, 6938893903907228500, -69388939039072287⟩,
   ⟨21730000000000001, -649999999999977330, -2269018306577663700000, 22690183065776637000⟩]
/-- `atm_data.akima_T`, aviary/subsystems/atmosphere/data/StandardAtm1976.py:831-1522 (part 6) -/
def standardTRows_5 : List IRow :=
  [⟨21697499999999999, -650000000000034230, -12999999999997264000000000000000000, 259999999999968120000000000000000⟩,
   ⟨21665000000000001, 0, 0, 0⟩,
   ⟨21665000000000001, 0, 0, 0⟩,
   ⟨21665000000000001, 0, 0, 0⟩,
   ⟨21665000000000001, 0, 0, 0⟩,
   ⟨21665000000000001, 0, 0, 0⟩,
   ⟨21665000000000001, 0, 0, 0⟩,
   ⟨21665000000000001, 0, 0, 0⟩,
   ⟨21665000000000001, 0, 0, 0⟩,
   ⟨21665000000000001, 0, 0, 0⟩,
   ⟨21665000000000001, 0, 0, 0⟩,
   ⟨21665000000000001, 0, 0, 0⟩,
   ⟨21665000000000001, 0, 0, 0⟩,
   ⟨21665000000000001, 0, 0, 0⟩,
   ⟨21665000000000001, 0, 0, 0⟩,
   ⟨21665000000000001, 0, 0, 0⟩,
   ⟨21665000000000001, 0, 0, 0⟩,
   ⟨21665000000000001, 0, 0, 0⟩,
   ⟨21665000000000001, 0, 0, 0⟩,
   ⟨21665000000000001, 0, 0, 0⟩,
   ⟨21665000000000001, 0, 0, 0⟩,
   ⟨21665000000000001, 0, 0, 0⟩,
   ⟨21665000000000001, 0, 0, 0⟩,
   ⟨21665000000000001, 0, 0, 0⟩,
   ⟨21665000000000001, 0, 0, 0⟩,
   ⟨21665000000000001, 0, 0, 0⟩,
   ⟨21665000000000001, 0, 0, 0⟩,
   ⟨21665000000000001, 0, 0, 0⟩,
   ⟨21665000000000001, 0, 0, 0⟩,
   ⟨21665000000000001, 0, 0, 0⟩,
   ⟨21665000000000001, 0, 0, 0⟩,
   ⟨21665000000000001, 0, 0, 0⟩,
   ⟨21665000000000001, 0, 0, 0⟩,
   ⟨21665000000000001, 0, 0, 0⟩,
   ⟨21665000000000001, 0, 0, 0⟩,
   ⟨21665000000000001, 0, 0, 0⟩,
   ⟨21665000000000001, 0, 0, 0⟩,
   ⟨21665000000000001, 0, 0, 0⟩,
   ⟨21665000000000001, 0, 0, 0⟩,
   ⟨21665000000000001, 0, 0, 0⟩,
   ⟨21665000000000001, 0, 0, 0⟩,
   ⟨21665000000000001, 0, 0, 0⟩,
   ⟨21665000000000001, 0, 0, 0⟩,
   ⟨21665000000000001, 0, 0, 0⟩,
   ⟨21665000000000001, 0, 0, 0⟩,
   ⟨21665000000000001, 0, 0, 0⟩,
   ⟨21665000000000001, 0, 0, 0⟩,
   ⟨21665000000000001, 0, 0, 0⟩,
   ⟨21665000000000001, 0, 0, 0⟩,
   ⟨21665000000000001, 0, 0, 0⟩,
   ⟨21665000000000001, 0, 0, 0⟩,
   ⟨21665000000000001, 0, 0, 0⟩,
   ⟨21665000000000001, 0, 0, 0⟩,
   ⟨21665000000000001, 0, 0, 0⟩,
   ⟨21665000000000001, 0, 0, 0⟩,
   ⟨21665000000000001, 0, 0, 0⟩,
   ⟨21665000000000001, 0, 0, 0⟩,
   ⟨21665000000000001, 0, 0, 0⟩,
   ⟨21665000000000001, 0, 0, 0⟩,
   ⟨21665000000000001, 0, 0, 0⟩,
   ⟨21665000000000001, 0, 0, 0⟩,
   ⟨21665000000000001, 0, 0, 0⟩,
   ⟨21665000000000001, 0, 0, 0⟩,
   ⟨21665000000000001, 0, 0, 0⟩]
/-- `atm_data.akima_T`, aviary/subsystems/atmosphere/data/StandardAtm1976.py:831-1522 (part 7) -/
def standardTRows_6 : List IRow :=
  [⟨21665000000000001, 0, 0, 0⟩,
   ⟨21665000000000001, 0, 0, 0⟩,
   ⟨21665000000000001, 0, 0, 0⟩,
   ⟨21665000000000001, 0, 0, 0⟩,
   ⟨21665000000000001, 0, 0, 0⟩,
   ⟨21665000000000001, 0, 0, 0⟩,
   ⟨21665000000000001, 0, 0, 0⟩,
   ⟨21665000000000001, 0, 0, 0⟩,
   ⟨21665000000000001, 0, 0, 0⟩,
   ⟨21665000000000001, 0, 0, 0⟩,
   ⟨21665000000000001, 0, 0, 0⟩,
   ⟨21665000000000001, 0, 0, 0⟩,
   ⟨21665000000000001, 0, 0, 0⟩,
   ⟨21665000000000001, 0, 0, 0⟩,
   ⟨21665000000000001, 0, 0, 0⟩,
   ⟨21665000000000001, 0, 0, 0⟩,
   ⟨21665000000000001, 0, 0, 0⟩,
   ⟨21665000000000001, 0, 0, 0⟩,
   ⟨21665000000000001, 0, 0, 0⟩,
   ⟨21665000000000001, 0, 0, 0⟩,
   ⟨21665000000000001, 0, 0, 0⟩,
   ⟨21665000000000001, 0, 0, 0⟩,
   ⟨21665000000000001, 0, 0, 0⟩,
   ⟨21665000000000001, 0, 0, 0⟩,
   ⟨21665000000000001, 0, 0, 0⟩,
   ⟨21665000000000001, 0, 0, 0⟩,
   ⟨21665000000000001, 0, -499999999999971580000000000000000, 4999999999999715900000000000000⟩,
   ⟨21665000000000001, 49999999999997160, 999999999999943160000000000000000, -4999999999999715900000000000000⟩,
   ⟨21675000000000000, 99999999999994321, 0, 0⟩,
   ⟨21684999999999999, 99999999999994321, 0, 0⟩,
   ⟨21694999999999999, 99999999999994321, 853050269311594960000, -5685556192513985000⟩,
   ⟨21705000000000001, 99999999999994321, 0, 0⟩,
   ⟨21715000000000001, 99999999999994321, 0, 0⟩,
   ⟨21725000000000000, 99999999999994321, 0, 0⟩,
   ⟨21734999999999999, 99999999999994321, 0, 0⟩,
   ⟨21744999999999999, 99999999999994321, 853050269311594960000, -5685556192513985000⟩,
   ⟨21755000000000001, 99999999999994321, 0, 0⟩,
   ⟨21765000000000001, 99999999999994321, 0, 0⟩,
   ⟨21775000000000000, 99999999999994321, 0, 0⟩,
   ⟨21784999999999999, 99999999999994321, 0, 0⟩,
   ⟨21794999999999999, 99999999999994321, 853050269311594960000, -5685556192513985000⟩,
   ⟨21805000000000001, 99999999999994321, 0, 0⟩,
   ⟨21815000000000001, 99999999999994321, 0, 0⟩,
   ⟨21825000000000000, 99999999999994321, 0, 0⟩,
   ⟨21834999999999999, 99999999999994321, 0, 0⟩,
   ⟨21844999999999999, 99999999999994321, 853050269311594960000, -5685556192513985000⟩,
   ⟨21855000000000001, 99999999999994321, 0, 0⟩,
   ⟨21865000000000001, 99999999999994321, 0, 0⟩,
   ⟨21875000000000000, 99999999999994321, 0, 0⟩,
   ⟨21884999999999999, 99999999999994321, 0, 0⟩,
   ⟨21894999999999999, 99999999999994321, 853050269311594960000, -5685556192513985000⟩,
   ⟨21905000000000001, 99999999999994321, 0, 0⟩,
   ⟨21915000000000001, 99999999999994321, 0, 0⟩,
   ⟨21925000000000000, 99999999999994321, 0, 0⟩,
   ⟨21934999999999999, 99999999999994321, 0, 0⟩,
   ⟨21944999999999999, 99999999999994321, 853050269311594960000, -5685556192513985000⟩,
   ⟨21955000000000001, 99999999999994321, 0, 0⟩,
   ⟨21965000000000001, 99999999999994321, 0, 0⟩,
   ⟨21975000000000000, 99999999999994321, 0, 0⟩,
   ⟨21984999999999999, 99999999999994321, 0, 0⟩,
   ⟨21994999999999999, 99999999999994321, 853050269311594960000, -5685556192513985000⟩,
   ⟨22005000000000001, 99999999999994321, 0, 0⟩,
   ⟨22015000000000001, 99999999999994321, 0, 0⟩,
   ⟨22025000000000000, 99999999999994321, 0, 0⟩]
/-- `atm_data.akima_T`, aviary/subsystems/atmosphere/data/StandardAtm1976.py:831-1522 (part 8) -/
def standardTRows_7 : List IRow :=
  [⟨22034999999999999, 99999999999994321, 0, 0⟩,
   ⟨22044999999999999, 99999999999994321, 853050269311594960000, -5685556192513985000⟩,
   ⟨22055000000000001, 99999999999994321, 0, 0⟩,
   ⟨22065000000000001, 99999999999994321, 0, 0⟩,
   ⟨22075000000000000, 99999999999994321, 0, 0⟩,
   ⟨22084999999999999, 99999999999994321, 0, 0⟩,
   ⟨22094999999999999, 99999999999994321, 853050269311594960000, -5685556192513985000⟩,
   ⟨22105000000000001, 99999999999994321, 0, 0⟩,
   ⟨22115000000000001, 99999999999994321, 0, 0⟩,
   ⟨22125000000000000, 99999999999994321, 0, 0⟩,
   ⟨22134999999999999, 99999999999994321, 0, 0⟩,
   ⟨22144999999999999, 99999999999994321, 853050269311594960000, -5685556192513985000⟩,
   ⟨22155000000000001, 99999999999994321, 0, 0⟩,
   ⟨22165000000000001, 99999999999994321, 0, 0⟩,
   ⟨22175000000000000, 99999999999994321, 0, 0⟩,
   ⟨22184999999999999, 99999999999994321, 0, 0⟩,
   ⟨22194999999999999, 99999999999994321, 853050269311594960000, -5685556192513985000⟩,
   ⟨22205000000000001, 99999999999994321, 0, 0⟩,
   ⟨22215000000000001, 99999999999994321, 0, 0⟩,
   ⟨22225000000000000, 99999999999994321, 0, 0⟩,
   ⟨22234999999999999, 99999999999994321, 0, 0⟩,
   ⟨22244999999999999, 99999999999994321, 853050269311594960000, -5685556192513985000⟩,
   ⟨22255000000000001, 99999999999994321, 0, 0⟩,
   ⟨22265000000000001, 99999999999994321, 0, 0⟩,
   ⟨22275000000000000, 99999999999994321, 0, 0⟩,
   ⟨22284999999999999, 99999999999994321, 0, 0⟩,
   ⟨22294999999999999, 99999999999994321, 853050269311594960000, -5685556192513985000⟩,
   ⟨22305000000000001, 99999999999994321, 0, 0⟩,
   ⟨22315000000000001, 99999999999994321, 0, 0⟩,
   ⟨22325000000000000, 99999999999994321, 0, 0⟩,
   ⟨22334999999999999, 99999999999994321, 0, 0⟩,
   ⟨22344999999999999, 99999999999994321, 853050269311594960000, -5685556192513985000⟩,
   ⟨22355000000000001, 99999999999994321, 0, 0⟩,
   ⟨22365000000000001, 99999999999994321, 0, 0⟩,
   ⟨22375000000000000, 99999999999994321, 0, 0⟩,
   ⟨22384999999999999, 99999999999994321, 0, 0⟩,
   ⟨22394999999999999, 99999999999994321, 853050269311594960000, -5685556192513985000⟩,
   ⟨22405000000000001, 99999999999994321, 0, 0⟩,
   ⟨22415000000000001, 99999999999994321, 0, 0⟩,
   ⟨22425000000000000, 99999999999994321, 0, 0⟩,
   ⟨22434999999999999, 99999999999994321, 0, 0⟩,
   ⟨22444999999999999, 99999999999994321, 853050269311594960000, -5685556192513985000⟩,
   ⟨22455000000000001, 99999999999994321, 0, 0⟩,
   ⟨22465000000000001, 99999999999994321, 0, 0⟩,
   ⟨22475000000000000, 99999999999994321, 0, 0⟩,
   ⟨22484999999999999, 99999999999994321, 0, 0⟩,
   ⟨22494999999999999, 99999999999994321, 853050269311594960000, -5685556192513985000⟩,
   ⟨22505000000000001, 99999999999994321, 0, 0⟩,
   ⟨22515000000000001, 99999999999994321, 0, 0⟩,
   ⟨22525000000000000, 99999999999994321, 0, 0⟩,
   ⟨22534999999999999, 99999999999994321, 0, 0⟩,
   ⟨22544999999999999, 99999999999994321, 853050269311594960000, -5685556192513985000⟩,
   ⟨22555000000000001, 99999999999994321, 0, 0⟩,
   ⟨22565000000000001, 99999999999994321, 0, 0⟩,
   ⟨22575000000000000, 99999999999994321, 0, 0⟩,
   ⟨22584999999999999, 99999999999994321, 0, 0⟩,
   ⟨22594999999999999, 99999999999994321, 853050269311594960000, -5685556192513985000⟩,
   ⟨22605000000000001, 99999999999994321, 0, 0⟩,
   ⟨22615000000000001, 99999999999994321, 0, 0⟩,
   ⟨22625000000000000, 99999999999994321, 0, 0⟩,
   ⟨22634999999999999, 99999999999994321, 0, 0⟩,
   ⟨22644999999999999, 99999999999994321, 853050269311594960000, -5685556192513985000⟩,
   ⟨22655000000000001, 99999999999994321, 0, 0⟩,
   ⟨22665000000000001, 99999999999994321, 0, 0⟩]
/-- `atm_data.akima_T`, aviary/subsystems/atmosphere/data/StandardAtm1976.py:831-1522 (part 9) -/
def standardTRows_8 : List IRow :=
  [⟨22675000000000000, 99999999999994321, 0, 0⟩,
   ⟨22684999999999999, 99999999999994321, 0, 0⟩,
   ⟨22694999999999999, 99999999999994321, 853050269311594960000, -5685556192513985000⟩,
   ⟨22705000000000001, 99999999999994321, 0, 0⟩,
   ⟨22715000000000001, 99999999999994321, 0, 0⟩,
   ⟨22725000000000000, 99999999999994321, 0, 0⟩,
   ⟨22734999999999999, 99999999999994321, 0, 0⟩,
   ⟨22744999999999999, 99999999999994321, 853050269311594960000, -5685556192513985000⟩,
   ⟨22755000000000001, 99999999999994321, 0, 0⟩,
   ⟨22765000000000001, 99999999999994321, 0, 0⟩,
   ⟨22775000000000000, 99999999999994321, 0, 0⟩,
   ⟨22784999999999999, 99999999999994321, 0, 0⟩,
   ⟨22794999999999999, 99999999999994321, 853050269311594960000, -5685556192513985000⟩,
   ⟨22805000000000001, 99999999999994321, 0, 0⟩,
   ⟨22815000000000001, 99999999999994321, 0, 0⟩,
   ⟨22825000000000000, 99999999999994321, 0, 0⟩,
   ⟨22834999999999999, 99999999999994321, 0, 0⟩,
   ⟨22844999999999999, 99999999999994321, 568772459685895640000, -2840609691912021700⟩,
   ⟨22855000000000001, 100000000000022730, -1800000000000636300000000000000000, 18000000000003520000000000000000⟩,
   ⟨22865000000000001, 280000000000001120, 216840434497100890, 0⟩,
   ⟨22921000000000001, 280000000000001120, 216840434497100890, 0⟩,
   ⟨22977000000000001, 280000000000001120, 216840434497100890, 0⟩,
   ⟨23033000000000001, 280000000000001120, -212286785372661790000, 709068220805519900⟩,
   ⟨23088999999999999, 280000000000001120, 216840434497100890, 0⟩,
   ⟨23144999999999999, 280000000000001120, 216840434497100890, 0⟩,
   ⟨23200999999999999, 280000000000001120, 216840434497100890, 0⟩,
   ⟨23256999999999999, 280000000000001120, 216840434497100890, 0⟩,
   ⟨23313000000000000, 280000000000001120, 216840434497100890, 0⟩,
   ⟨23369000000000000, 280000000000001120, 216840434497100890, 0⟩,
   ⟨23425000000000000, 280000000000001120, 216840434497100890, 0⟩,
   ⟨23481000000000000, 280000000000001120, 216840434497100890, 0⟩,
   ⟨23537000000000000, 280000000000001120, 216840434497100890, 0⟩,
   ⟨23593000000000001, 280000000000001120, 216840434497100890, 0⟩,
   ⟨23649000000000001, 280000000000001120, 216840434497100890, 0⟩,
   ⟨23705000000000001, 280000000000001120, 216840434497100890, 0⟩,
   ⟨23761000000000001, 280000000000001120, -212286785372661790000, 709068220805519900⟩,
   ⟨23816999999999999, 280000000000001120, 216840434497100890, 0⟩,
   ⟨23872999999999999, 280000000000001120, 216840434497100890, 0⟩,
   ⟨23928999999999999, 280000000000001120, 216840434497100890, 0⟩,
   ⟨23984999999999999, 280000000000001120, 216840434497100890, 0⟩,
   ⟨24041000000000000, 280000000000001120, 216840434497100890, 0⟩,
   ⟨24097000000000000, 280000000000001120, 216840434497100890, 0⟩,
   ⟨24153000000000000, 280000000000001120, 216840434497100890, 0⟩,
   ⟨24209000000000000, 280000000000001120, 216840434497100890, 0⟩,
   ⟨24265000000000001, 280000000000001120, 216840434497100890, 0⟩,
   ⟨24321000000000001, 280000000000001120, 216840434497100890, 0⟩,
   ⟨24377000000000001, 280000000000001120, 216840434497100890, 0⟩,
   ⟨24433000000000001, 280000000000001120, -212286785372661790000, 709068220805519900⟩,
   ⟨24488999999999999, 280000000000001120, 216840434497100890, 0⟩,
   ⟨24544999999999999, 280000000000001120, 216840434497100890, 0⟩,
   ⟨24600999999999999, 280000000000001120, 216840434497100890, 0⟩,
   ⟨24656999999999999, 280000000000001120, 216840434497100890, 0⟩,
   ⟨24713000000000000, 280000000000001120, 216840434497100890, 0⟩,
   ⟨24769000000000000, 280000000000001120, 216840434497100890, 0⟩,
   ⟨24825000000000000, 280000000000001120, 216840434497100890, 0⟩,
   ⟨24881000000000000, 280000000000001120, 216840434497100890, 0⟩,
   ⟨24937000000000000, 280000000000001120, 216840434497100890, 0⟩,
   ⟨24993000000000001, 280000000000001120, 216840434497100890, 0⟩,
   ⟨25049000000000001, 280000000000001120, 216840434497100890, 0⟩,
   ⟨25105000000000001, 280000000000001120, 216840434497100890, 0⟩,
   ⟨25161000000000001, 280000000000001120, -212286785372661790000, 709068220805519900⟩,
   ⟨25216999999999999, 280000000000001120, 216840434497100890, 0⟩,
   ⟨25272999999999999, 280000000000001120, 216840434497100890, 0⟩,
   ⟨25328999999999999, 280000000000001120, 216840434497100890, 0⟩]
/-- `atm_data.akima_T`, aviary/subsystems/atmosphere/data/StandardAtm1976.py:831-1522 (part 10) -/
def standardTRows_9 : List IRow :=
  [⟨25384999999999999, 280000000000001120, 216840434497100890, 0⟩,
   ⟨25441000000000000, 280000000000001120, 216840434497100890, 0⟩,
   ⟨25497000000000000, 280000000000001120, 216840434497100890, 0⟩,
   ⟨25553000000000000, 280000000000001120, -212286785372661790000, 709068220805519900⟩,
   ⟨25608999999999997, 280000000000001120, 216840434497100890, 0⟩,
   ⟨25664999999999998, 280000000000001120, 216840434497100890, 0⟩,
   ⟨25720999999999998, 280000000000001120, 216840434497100890, 0⟩,
   ⟨25776999999999998, 280000000000001120, 216840434497100890, 0⟩,
   ⟨25832999999999998, 280000000000001120, 216840434497100890, 0⟩,
   ⟨25888999999999999, 280000000000001120, 216840434497100890, 0⟩,
   ⟨25944999999999999, 280000000000001120, 216840434497100890, 0⟩,
   ⟨26000999999999999, 280000000000001120, 216840434497100890, 0⟩,
   ⟨26056999999999999, 280000000000001120, 216840434497100890, 0⟩,
   ⟨26113000000000000, 280000000000001120, 216840434497100890, 0⟩,
   ⟨26169000000000000, 280000000000001120, 216840434497100890, 0⟩,
   ⟨26225000000000000, 280000000000001120, 216840434497100890, 0⟩,
   ⟨26281000000000000, 280000000000001120, 216840434497100890, 0⟩,
   ⟨26337000000000000, 280000000000001120, 216840434497100890, 0⟩,
   ⟨26393000000000001, 280000000000001120, 216840434497100890, 0⟩,
   ⟨26449000000000001, 280000000000001120, 216840434497100890, 0⟩,
   ⟨26505000000000001, 280000000000001120, 216840434497100890, 0⟩,
   ⟨26561000000000001, 280000000000001120, 216840434497100890, 0⟩,
   ⟨26617000000000002, 280000000000001120, 216840434497100890, 0⟩,
   ⟨26673000000000002, 280000000000001120, 216840434497100890, 0⟩,
   ⟨26729000000000002, 280000000000001120, 216840434497100890, 0⟩,
   ⟨26785000000000002, 280000000000001120, 216840434497100890, 0⟩,
   ⟨26841000000000003, 280000000000001120, 216840434497100890, 0⟩,
   ⟨26897000000000003, 280000000000001120, -425657772917809020000, 1420304845956010900⟩,
   ⟨26952999999999997, 280000000000001120, 216840434497100890, 0⟩,
   ⟨27008999999999997, 280000000000001120, 700000000000003040000000000000000, -3500000000000013500000000000000⟩,
   ⟨27064999999999998, 140000000000000560, -1400000000000005600000000000000000, 3500000000000014100000000000000⟩,
   ⟨27064999999999998, 0, 0, 0⟩,
   ⟨27064999999999998, 0, 0, 0⟩,
   ⟨27064999999999998, 0, 0, 0⟩,
   ⟨27064999999999998, 0, 0, 0⟩,
   ⟨27064999999999998, 0, 0, 0⟩,
   ⟨27064999999999998, 0, 0, 0⟩,
   ⟨27064999999999998, 0, 0, 0⟩,
   ⟨27064999999999998, 0, 0, 0⟩,
   ⟨27064999999999998, 0, 0, 0⟩,
   ⟨27064999999999998, 0, 0, 0⟩,
   ⟨27064999999999998, 0, 0, 0⟩,
   ⟨27064999999999998, 0, 0, 0⟩,
   ⟨27064999999999998, 0, 0, 0⟩,
   ⟨27064999999999998, 0, 0, 0⟩,
   ⟨27064999999999998, 0, 0, 0⟩,
   ⟨27064999999999998, 0, 279999999999995460000000000000000, -559999999999990950000000000000⟩,
   ⟨27064999999999998, -139999999999997720, -559999999999990660000000000000000, 559999999999990790000000000000⟩,
   ⟨26925000000000000, -279999999999995490, 346944695195361430, 0⟩,
   ⟨26785000000000002, -279999999999995440, -56812193838240435000, 68001160258290845⟩,
   ⟨26644999999999999, -280000000000001120, 34260788650541942000, -45449755070592350⟩,
   ⟨26505000000000001, -280000000000001120, -45449755070592348000, 68001160258290845⟩,
   ⟨26364999999999998, -279999999999995440, 173472347597680710, 0⟩,
   ⟨26225000000000000, -279999999999995440, 173472347597680710, 0⟩,
   ⟨26085000000000002, -279999999999995440, -56812193838240435000, 68001160258290845⟩,
   ⟨25944999999999999, -280000000000001120, 34260788650541942000, -45449755070592350⟩,
   ⟨25805000000000001, -280000000000001120, -37903707950093235000, 53082538364890299⟩,
   ⟨25664999999999998, -279999999999999220, 26628005356243988000, -37816971776294397⟩,
   ⟨25525000000000000, -280000000000001120, -86736173798840357, 0⟩,
   ⟨25384999999999999, -280000000000001120, -86736173798840357, 0⟩,
   ⟨25244999999999999, -280000000000001120, 34260788650541942000, -45449755070592350⟩,
   ⟨25105000000000001, -280000000000001120, -86736173798840357, 0⟩,
   ⟨24965000000000001, -280000000000001120, -86736173798840357, 0⟩,
   ⟨24825000000000000, -280000000000001120, -86736173798840357, 0⟩]
/-- `atm_data.akima_T`, aviary/subsystems/atmosphere/data/StandardAtm1976.py:831-1522 (part 11) -/
def standardTRows_10 : List IRow :=
  [⟨24684999999999999, -280000000000001120, -86736173798840357, 0⟩,
   ⟨24544999999999999, -280000000000001120, 34260788650541942000, -45449755070592350⟩,
   ⟨24405000000000001, -280000000000001120, -86736173798840357, 0⟩,
   ⟨24265000000000001, -280000000000001120, -86736173798840357, 0⟩,
   ⟨24125000000000000, -280000000000001120, -86736173798840357, 0⟩,
   ⟨23984999999999999, -280000000000001120, -86736173798840357, 0⟩,
   ⟨23844999999999999, -280000000000001120, 34260788650541942000, -45449755070592350⟩,
   ⟨23705000000000001, -280000000000001120, -86736173798840357, 0⟩,
   ⟨23565000000000001, -280000000000001120, -86736173798840357, 0⟩,
   ⟨23425000000000000, -280000000000001120, -86736173798840357, 0⟩,
   ⟨23284999999999999, -280000000000001120, -86736173798840357, 0⟩,
   ⟨23144999999999999, -280000000000001120, 34260788650541942000, -45449755070592350⟩,
   ⟨23005000000000001, -280000000000001120, -86736173798840357, 0⟩,
   ⟨22865000000000001, -280000000000001120, -86736173798840357, 0⟩,
   ⟨22725000000000000, -280000000000001120, -86736173798840357, 0⟩,
   ⟨22584999999999999, -280000000000001120, -86736173798840357, 0⟩,
   ⟨22444999999999999, -280000000000001120, 34260788650541942000, -45449755070592350⟩,
   ⟨22305000000000001, -280000000000001120, -86736173798840357, 0⟩,
   ⟨22165000000000001, -280000000000001120, -86736173798840357, 0⟩,
   ⟨22025000000000000, -280000000000001120, -86736173798840357, 0⟩,
   ⟨21884999999999999, -280000000000001120, -86736173798840357, 0⟩,
   ⟨21744999999999999, -280000000000001120, 22985086056692695000, -22898349882893855⟩,
   ⟨21605000000000001, -279999999999995490, -160000000000024870000000000000000, 320000000000026900000000000000⟩,
   ⟨21465000000000001, -200000000000000000, 0, 0⟩,
   ⟨21365000000000001, -200000000000000000, 0, 0⟩,
   ⟨21265000000000001, -200000000000000000, 0, 0⟩,
   ⟨21165000000000001, -200000000000000000, 0, 0⟩,
   ⟨21065000000000001, -200000000000000000, 0, 0⟩,
   ⟨20965000000000001, -200000000000000000, 0, 0⟩,
   ⟨20865000000000001, -200000000000000000, 0, 0⟩,
   ⟨20765000000000001, -200000000000000000, 0, 0⟩,
   ⟨20665000000000001, -200000000000000000, 0, 0⟩,
   ⟨20565000000000001, -200000000000000000, 0, 0⟩,
   ⟨20465000000000001, -200000000000000000, 0, 0⟩,
   ⟨20365000000000001, -200000000000000000, 0, 0⟩,
   ⟨20265000000000001, -200000000000000000, 0, 0⟩,
   ⟨20165000000000001, -200000000000000000, 0, 0⟩,
   ⟨20065000000000001, -200000000000000000, 0, 0⟩,
   ⟨19965000000000001, -200000000000000000, 0, 0⟩,
   ⟨19865000000000001, -200000000000000000, 0, 0⟩,
   ⟨19765000000000001, -200000000000000000, 0, 0⟩,
   ⟨19665000000000001, -200000000000000000, 0, 0⟩,
   ⟨19565000000000001, -200000000000000000, 0, 0⟩,
   ⟨19465000000000001, -200000000000000000, 0, 0⟩,
   ⟨19365000000000001, -200000000000000000, 0, 0⟩,
   ⟨19265000000000001, -200000000000000000, 0, 0⟩,
   ⟨19165000000000001, -200000000000000000, 0, 0⟩,
   ⟨19065000000000001, -200000000000000000, 0, 0⟩,
   ⟨18965000000000001, -200000000000000000, 0, 0⟩,
   ⟨18865000000000001, -200000000000000000, 0, 0⟩,
   ⟨18765000000000001, -200000000000000000, 0, 0⟩]
/-- `atm_data.akima_T`, aviary/subsystems/atmosphere/data/StandardAtm1976.py:831-1522 -/
def standardTRows : List IRow :=
  standardTRows_0 ++ standardTRows_1 ++ standardTRows_2 ++ standardTRows_3 ++ standardTRows_4 ++ standardTRows_5 ++ standardTRows_6 ++ standardTRows_7 ++ standardTRows_8 ++ standardTRows_9 ++ standardTRows_10
/-- `atm_data.akima_T`, aviary/subsystems/atmosphere/data/StandardAtm1976.py:831-1522, with the column exponents. -/
def standardT : CTab := ⟨14, 20, 38, 38, standardTRows⟩
/-- `atm_data.akima_P`, aviary/subsystems/atmosphere/data/StandardAtm1976.py:1524-2215 (part 1) -/
def standardPRows_0 : List IRow :=
  [⟨17768700000000000000000, -18934000000000232000000, 0, 0⟩,
   ⟨17768700000000000000000, -18934000000000232000000, 8195121951229822200000, 40975609758788778000000000000⟩,
   ⟨17674239999999999000000, -18848975609756035000000, 8195121951229822200000, 0⟩,
   ⟨17580200000000000000000, -18767024390243730000000, 7708521529612966600000, 19271303831089880000000000000⟩,
   ⟨17486560000000001000000, -18688493827160261000000, 7997530864228253300000, 20246913569508254000000000000⟩,
   ⟨17393320000000001000000, -18607000000000266000000, 8301234567830562500000, -20246913569508254000000000000⟩,
   ⟨17300489999999999000000, -18525506172839673000000, 7701203313112614200000, 40006250973476656000000000000⟩,
   ⟨17208060000000001000000, -18445493670885519000000, 8093764650698176200000, -39006094709748140000000000000⟩,
   ⟨17116030000000002000000, -18367481481481761000000, 7592592592479263800000, 60740740755989013000000000000⟩,
   ⟨17024389999999999000000, -18287000000000269000000, 8503703703882336800000, -60740740756273224000000000000⟩,
   ⟨16933160000000001000000, -18206518518518184000000, 7407407407289668100000, 59259259273858337000000000000⟩,
   ⟨16842320000000001000000, -18127999999999734000000, 8101265822847381000000, -20253164575763094000000000000⟩,
   ⟨16751880000000002000000, -18048506329114428000000, 7602531645432720300000, 19746835467344680000000000000⟩,
   ⟨16661829999999999000000, -17971000000000053000000, 7898734177440048300000, -19746835467344680000000000000⟩,
   ⟨16572170000000001000000, -17893493670885693000000, 7693572250372682500000, 41032385343839909000000000000⟩,
   ⟨16482900000000000000000, -17813480519481178000000, 8096005260575367800000, -39980272877357954000000000000⟩,
   ⟨16394029999999999000000, -17735518987341219000000, 7207594936895133800000, 59240506297726371000000000000⟩,
   ⟨16305540000000002000000, -17658999999999942000000, 7999999999679374700000, -39999999961253254000000000000⟩,
   ⟨16217439999999999000000, -17582000000000260000000, 7400000000313156500000, 39999999961821687000000000000⟩,
   ⟨16129720000000001000000, -17504999999999999000000, 7999999999738349900000, -39999999961537471000000000000⟩,
   ⟨16042389999999999000000, -17427999999999741000000, 7296000000254565900000, 60799999961886899000000000000⟩,
   ⟨15955440000000002000000, -17350480000000044000000, 7991999999710942100000, -59199999968484467000000000000⟩,
   ⟨15868879999999999000000, -17275000000000563000000, 7000000000253692400000, 79999999976791971000000000000⟩,
   ⟨15782689999999999000000, -17198999999999785000000, 8103896103780528000000, -60779220764857199000000000000⟩,
   ⟨15696889999999999000000, -17122519480519337000000, 7109125541161631800000, 38954112550584345000000000000⟩,
   ⟨15611460000000001000000, -17048506666666434000000, 7701333333287153200000, 0⟩,
   ⟨15526410000000001000000, -16971493333333569000000, 7498666666667474900000, 0⟩,
   ⟨15441739999999999000000, -16896506666666895000000, 7202666666704971300000, 19733333334670533000000000000⟩,
   ⟨15357439999999999000000, -16822999999999734000000, 7498666666664633200000, -19733333334102100000000000000⟩,
   ⟨15273510000000001000000, -16749493333333156000000, 7293223744252941800000, 41088584470969641000000000000⟩,
   ⟨15189950000000000000000, -16673479452055304000000, 7695780821904208500000, -39978082182869914000000000000⟩,
   ⟨15106769999999998000000, -16599519999999966000000, 6909369863149806000000, 38926027382615307000000000000⟩,
   ⟨15023950000000000000000, -16527506849314772000000, 7602739725884078200000, -20273972585869162000000000000⟩,
   ⟨14941500000000000000000, -16452999999999882000000, 7298630137063355200000, 20273972592121936000000000000⟩,
   ⟨14859420000000001000000, -16378493150684847000000, 7298630136916273400000, 5968558980384841200⟩,
   ⟨14777710000000001000000, -16305506849315240000000, 7002739726054585800000, 19726027398689896000000000000⟩,
   ⟨14696360000000001000000, -16233999999999796000000, 7298630137029960700000, -19726027409490146000000000000⟩,
   ⟨14615370000000001000000, -16162493150685211000000, 7093034921742002600000, 41119043046080608000000000000⟩,
   ⟨14534739999999999000000, -16088478873239339000000, 7495658884961642300000, -39976847399998407000000000000⟩,
   ⟨14454480000000002000000, -16016520547944729000000, 6709627628688963000000, 38896392046581242000000000000⟩,
   ⟨14374570000000001000000, -15946507042254339000000, 7301408450631186600000, 23874235921539365000⟩,
   ⟨14295019999999998000000, -15873492957746230000000, 7197183098858417600000, -19718309894756206000000000000⟩,
   ⟨14215830000000002000000, -15802999999999740000000, 6799999999670091900000, 40000000037139222000000000000⟩,
   ⟨14136989999999999000000, -15732000000000266000000, 7400000000258088800000, -40000000031454879000000000000⟩,
   ⟨14058510000000001000000, -15661000000000056000000, 6695652173717192600000, 60869565244701115000000000000⟩,
   ⟨13980379999999999000000, -15589478260869525000000, 7295529700128256600000, -39975505230813727000000000000⟩,
   ⟨13902610000000001000000, -15519521126760546000000, 6509899979389999200000, 38865074529752522000000000000⟩,
   ⟨13825179999999999000000, -15451507246376908000000, 7202898550914227300000, -20289855097104239000000000000⟩,
   ⟨13748100000000000000000, -15381000000000057000000, 6999999999853656500000, 17621459846850484000⟩,
   ⟨13671369999999998000000, -15311000000000202000000, 6898550724777053300000, 20289855062145535000000000000⟩,
   ⟨13594989999999999000000, -15240492753622780000000, 6898550724544349900000, 11795009413617663000⟩,
   ⟨13518960000000001000000, -15171507246376461000000, 6701449275371373900000, -11226575225009584000⟩,
   ⟨13443270000000001000000, -15104492753623589000000, 6692623837257727300000, 41185377468764274000000000000⟩,
   ⟨13367919999999998000000, -15034477611940860000000, 7191044776253719000000, -59104477616358508000000000000⟩,
   ⟨13292919999999998000000, -14966999999999549000000, 6304477611946879200000, 59104477606553022000000000000⟩,
   ⟨13218250000000000000000, -14899522388059591000000, 7208955223785551700000, -20895522382886612000000000000⟩,
   ⟨13143929999999999000000, -14829000000000448000000, 6600000000035421900000, 8384404281969182000⟩,
   ⟨13069949999999999000000, -14762999999999456000000, 6400000000100192700000, 39999999981716887000000000000⟩,
   ⟨12996300000000001000000, -14695999999999838000000, 6999999999807471600000, -39999999984416948000000000000⟩,
   ⟨12922989999999999000000, -14629000000000588000000, 6400000000120442400000, 39999999997206711000000000000⟩,
   ⟨12850009999999999000000, -14561999999999600000000, 7000000000026673500000, -40000000005022687000000000000⟩,
   ⟨12777370000000001000000, -14494999999999713000000, 6295384615274457300000, 60923076928958155000000000000⟩,
   ⟨12705060000000001000000, -14427476923077297000000, 6895246842750779600000, -39972445467526546000000000000⟩,
   ⟨12633089999999999000000, -14361522388059859000000, 6110493685466877500000, 38796785300831971000000000000⟩]
/-- `atm_data.akima_P`, aviary/subsystems/atmosphere/data/StandardAtm1976.py:1524-2215 (part 2) -/
def standardPRows_1 : List IRow :=
  [⟨12561439999999999000000, -14297507692307619000000, 6803076923048934300000, -20307692302878877000000000000⟩,
   ⟨12490120000000000000000, -14230999999999838000000, 6600000000019079800000, -5684341886080801600⟩,
   ⟨12419130000000000000000, -14165000000000072000000, 6393749999917730400000, 41250000014798615000000000000⟩,
   ⟨12348470000000000000000, -14097968749999794000000, 6680037313548581000000, -57257462708690812000000000000⟩,
   ⟨12278140000000001000000, -14035462686567460000000, 5785074626669484000000, 101492537343546030000000000000⟩,
   ⟨12208119999999998000000, -13969999999999999000000, 7307462686807753300000, -101492537340703860000000000000⟩,
   ⟨12138440000000001000000, -13904537313432471000000, 5719687277718676800000, 77555081745970260000000000000⟩,
   ⟨12069070000000000000000, -13841523809524352000000, 6809523809589990200000, -20952380950944872000000000000⟩,
   ⟨12000029999999999000000, -13774999999999771000000, 6200000000080053200000, -11226575225009584000⟩,
   ⟨11931310000000001000000, -13712999999999813000000, 6101587301449385100000, 19682539698067103000000000000⟩,
   ⟨11862900000000000000000, -13650507936507969000000, 6603174603283790400000, -20317460333387771000000000000⟩,
   ⟨11794810000000001000000, -13586000000000132000000, 6298412698296829200000, 20317460336514159000000000000⟩,
   ⟨11727039999999999000000, -13521492063491923000000, 6298412698545519100000, -20463630789890885000⟩,
   ⟨11659590000000001000000, -13458507936508006000000, 6101587301451516600000, 11368683772161603000⟩,
   ⟨11592449999999999000000, -13397492063492644000000, 6196825396921212700000, 20317460319034808000000000000⟩,
   ⟨11525619999999998000000, -13333999999999495000000, 6501587301644562100000, -20317460330261383000000000000⟩,
   ⟨11459110000000001000000, -13270507936507832000000, 5901535258750457100000, 40010408551580668000000000000⟩,
   ⟨11392909999999999000000, -13208491803278962000000, 6291959406846458800000, -38719750206155369000000000000⟩,
   ⟨11327020000000000000000, -13148476190475959000000, 5790476190420435000000, 60952380958809733000000000000⟩,
   ⟨11261430000000000000000, -13085999999999835000000, 6606451612923081400000, -41290322588736219000000000000⟩,
   ⟨11196160000000001000000, -13023032258064767000000, 5711263881472206700000, 19037546286995166000000000000⟩,
   ⟨11131189999999999000000, -12964491803278523000000, 6098360655875723700000, -20321522242738866000⟩,
   ⟨11066520000000001000000, -12903508196721289000000, 6196612021690839700000, 21005464497250160000000000000⟩,
   ⟨11002159999999999000000, -12839966666667097000000, 6186666666780737800000, -38666666672213528000000000000⟩,
   ⟨10938109999999999000000, -12780999999999709000000, 5505084745798072100000, 58983050835763602000000000000⟩,
   ⟨10874350000000000000000, -12721525423729046000000, 6511808835654520400000, -41344817980757397000000000000⟩,
   ⟨10810899999999999000000, -12659508196721054000000, 5701583773454644200000, 40011114174518529000000000000⟩,
   ⟨10747750000000001000000, -12599491525423417000000, 5996610169289340900000, -19661016932843723000000000000⟩,
   ⟨10684900000000000000000, -12541000000000487000000, 5701694915335764600000, 19661016947623013000000000000⟩,
   ⟨10622339999999999000000, -12482508474576054000000, 6101694915321331700000, -15063505998114124000⟩,
   ⟨10560080000000000000000, -12421491525423974000000, 5996610169365012800000, -19661016930285770000000000000⟩,
   ⟨10498119999999998000000, -12363000000000101000000, 5600000000178085100000, 39999999982285321000000000000⟩,
   ⟨10436450000000000000000, -12303999999999647000000, 6101694915097511200000, -20338983031251700000000000000⟩,
   ⟨10375080000000000000000, -12244508474576019000000, 5603389830584859200000, 19661016933127939000000000000⟩,
   ⟨10314000000000001000000, -12187000000000189000000, 5799999999886651000000, 11652900866465644000⟩,
   ⟨10253209999999999000000, -12129000000000451000000, 5800000000134630800000, -8810729923425242000⟩,
   ⟨10192709999999999000000, -12070999999999769000000, 5698245614003027900000, 20350877197046202000000000000⟩,
   ⟨10132500000000000000000, -12012491228069957000000, 5853829112012932000000, -31116699602193874000000000000⟩,
   ⟨10072580000000000000000, -11956286689419979000000, 5405228352544711500000, 50421906283304461000000000000⟩,
   ⟨10012939999999999000000, -11898452762923290000000, 6124829307355383600000, -38855344529906687000000000000⟩,
   ⟨9953596000000000600000, -11840118620689466000000, 5347590119761492300000, 31226803622672610000000000000⟩,
   ⟨9894533000000000200000, -11784300709220155000000, 5720283687960048400000, -4028368792177161500000000000⟩,
   ⟨9835753999999999400000, -11727399999999976000000, 5620000000051206900000, 3999999995158987100000000000⟩,
   ⟨9777258000000000200000, -11670899999999820000000, 5599999999947158700000, 4000000003685500700000000000⟩,
   ⟨9719044000000000200000, -11614600000000063000000, 5580000000001206800000, 4000000000843328600000000000⟩,
   ⟨9661111000000000100000, -11558499999999984000000, 5560000000026476900000, 3999999995158987100000000000⟩,
   ⟨9603458000000000200000, -11502600000000092000000, 5529945945913894800000, 6010810816547973700000000000⟩,
   ⟨9546083999999999700000, -11446849729729704000000, 5529945945987080600000, -2842170943040400800⟩,
   ⟨9488988000000000500000, -11391550270270040000000, 5459962653524641600000, 10018280098904597000000000000⟩,
   ⟨9432168000000000800000, -11336199272727372000000, 5529872430277293500000, -2003576966558284700000000000⟩,
   ⟨9375625000000000000000, -11281050816697093000000, 5410308397263819200000, 7970988429093495200000000000⟩,
   ⟨9319355999999999800000, -11226349908592271000000, 5449908391069513200000, 4014665479274981300000000000⟩,
   ⟨9263361000000000100000, -11171549724770630000000, 5429944954106602900000, 2984279490192420600⟩,
   ⟨9207638999999999900000, -11117250275229344000000, 5349831798613991500000, 12044649455305035000000000000⟩,
   ⟨9152188000000000500000, -11062848608534065000000, 5439664815959588600000, -5988621824144502900000000000⟩,
   ⟨9097009000000001100000, -11008901107011283000000, 5270349346401559700000, 13974411158983459000000000000⟩,
   ⟨9042097999999999600000, -10955149532710347000000, 5409980681998050700000, -4014827976988044500000000000⟩,
   ⟨8987457000000000700000, -10901350837988632000000, 5270316433722754500000, 7970232796594701900000000000⟩,
   ⟨8933083000000000200000, -10848049906191664000000, 5309905979384765700000, 4015051784023171800000000000⟩,
   ⟨8878975999999999500000, -10794649717514014000000, 5279962477404609400000, 1996205088659053400000000000⟩,
   ⟨8825135000000000600000, -10741700377358328000000, 5230131967986296000000, 5988700732473263000000000000⟩,
   ⟨8771558000000000200000, -10688949905123525000000, 5249904906507297100000, 4015223635747134600000000000⟩,
   ⟨8718244999999999700000, -10636149714285766000000, 5219962050179205500000, 1996161394828277500000000000⟩,
   ⟨8665194999999999700000, -10583800381679362000000, 5170133477880867200000, 5988571598720682400000000000⟩]
/-- `atm_data.akima_P`, aviary/subsystems/atmosphere/data/StandardAtm1976.py:1524-2215 (part 3) -/
def standardPRows_2 : List IRow :=
  [⟨8612405999999999800000, -10531649904030646000000, 5189903808832951600000, 4015399460115531800000000000⟩,
   ⟨8559877999999999900000, -10479449710982802000000, 5169942196501153700000, 5826450433232822000⟩,
   ⟨8507609999999999100000, -10427750289017354000000, 5099959964976008700000, 10019567705938925000000000000⟩,
   ⟨8455600000000000000000, -10375999221789650000000, 5169863473173919600000, -2003823044702812700000000000⟩,
   ⟨8403849000000000500000, -10324450873786258000000, 5040271083212389000000, 9980734810142168000000000000⟩,
   ⟨8352354000000000800000, -10273299607843375000000, 5109901845612796800000, -1996055398620910800000000000⟩,
   ⟨8301114999999999400000, -10222350293542153000000, 5019959314169142800000, 10019878859282017000000000000⟩,
   ⟨8250130000000000300000, -10171399209486015000000, 5099841274700267200000, -3999875501676797400000000000⟩,
   ⟨8199400000000000000000, -10120700787401644000000, 4960155598115534900000, 12000376443666027000000000000⟩,
   ⟨8148922000000000100000, -10070199203187219000000, 5049860201330247200000, -2003912777155392000000000000⟩,
   ⟨8098697000000000100000, -10019850894632214000000, 4940357852884957800000, 5964214711582371200000000000⟩,
   ⟨8048722000000000100000, -9969999999999998900000, 4969818913481560600000, 6036217303631019800000000000⟩,
   ⟨7998997000000000100000, -9919849094567410900000, 4979798469528517800000, -1995911209178302700000000000⟩,
   ⟨7949522000000000100000, -9870200803212819500000, 4860158683515436800000, 12000391810715884000000000000⟩,
   ⟨7900294000000000200000, -9820699186991866700000, 4959836740059486800000, -3999868339548129200000000000⟩,
   ⟨7851313999999999900000, -9771400809716739700000, 4840323886650565900000, 7967611334720459300000000000⟩,
   ⟨7802578999999999400000, -9722400000000124700000, 4899836065581553100000, 4032786889069939500000000000⟩,
   ⟨7754089999999999400000, -9673099180327625400000, 4859836065602607300000, -5684341886080801600⟩,
   ⟨7705846000000000600000, -9624500819672031000000, 4780327868764189300000, 7967213125112949200000000000⟩,
   ⟨7657844000000000200000, -9576100000000005600000, 4849937888277011500000, 2012422347519304800000000000⟩,
   ⟨7610085000000000600000, -9527449689441168000000, 4789938146380734600000, 3999948360302596100000000000⟩,
   ⟨7562567999999999300000, -9479250311850339700000, 4760124740235127700000, 1987525974982418100000000000⟩,
   ⟨7515291000000000300000, -9431499999999870100000, 4739831932677418500000, 8033613455751266100000000000⟩,
   ⟨7468252999999999900000, -9383499159663923500000, 4789852544843142900000, -2004122408436615200000000000⟩,
   ⟨7421455000000000300000, -9335750943396124800000, 4660292612702576700000, 9979213303950019400000000000⟩,
   ⟨7374894000000000200000, -9288399576271297400000, 4729893933417272900000, -1995735835720324600000000000⟩,
   ⟨7328569999999999700000, -9241250317124807300000, 4650062884032735000000, 8000108186223543400000000000⟩,
   ⟨7282480999999999800000, -9194149680170511400000, 4709936034121753200000, -2984279490192420600⟩,
   ⟨7236627999999999900000, -9147050319829515900000, 4620127931735496100000, 5987206831576941300000000000⟩,
   ⟨7191008999999999700000, -9100399999999789100000, 4630021505438719700000, 1995698914925015100000000000⟩,
   ⟨7145623000000001000000, -9053950107526777200000, 4589847782896327800000, 8034744485314604400000000000⟩,
   ⟨7100469000000000200000, -9007449023861415300000, 4629717535877020700000, -3982552719747900200000000000⟩,
   ⟨7055547000000000100000, -8961450539956628000000, 4510106573540540100000, 12000283562514370000000000000⟩,
   ⟨7010854000000000800000, -8915449452954030500000, 4629977260011841800000, -4017333849049009200000000000⟩,
   ⟨6966391999999999800000, -8869450980392590700000, 4480304051145722900000, 9978405465602691100000000000⟩,
   ⟨6922157999999998700000, -8823899559471213300000, 4549889722702360300000, -1995565678498678800000000000⟩,
   ⟨6878152000000000400000, -8778550329670073500000, 4459954090244622200000, 10022368751521072000000000000⟩,
   ⟨6834372000000000100000, -8733199111111254400000, 4539821435632873600000, -3999842675312948700000000000⟩,
   ⟨6790819000000000200000, -8688100884955584700000, 4410286868225199700000, 9978024583432444800000000000⟩,
   ⟨6747490000000000900000, -8643249664429573500000, 4489932885838499200000, 8810729923425242000⟩,
   ⟨6704386000000000100000, -8598350335570533100000, 4400134228269081500000, 5986577169352358300000000000⟩,
   ⟨6661505000000000300000, -8553900000000140800000, 4419999999933210500000, 10231815394945442000⟩,
   ⟨6618845999999999200000, -8509700000000046700000, 4379818181902451000000, 8036363629315702500000000000⟩,
   ⟨6576408000000000200000, -8465299090908823500000, 4419818181758117500000, 4405364961712621000⟩,
   ⟨6534192000000000600000, -8421100909090915500000, 4320363636356106200000, 3963636364403555700000000000⟩,
   ⟨6492195000000000400000, -8377600000000020600000, 4329931034505918500000, 6013793098844645100000000000⟩,
   ⟨6450416000000000300000, -8333849655172544500000, 4369931034456797500000, 5826450433232822000⟩,
   ⟨6408855999999999800000, -8290150344827543100000, 4290161025774352600000, 3981587952353038700000000000⟩,
   ⟨6367513000000000500000, -8246950115473367800000, 4279953166062000500000, 6013985719022231000000000000⟩,
   ⟨6326386000000000100000, -8203699534883821100000, 4289883883595635800000, 2004618633293375700000000000⟩,
   ⟨6285475000000000000000, -8160650349650373100000, 4240139860116087800000, 1986013990773471800000000000⟩,
   ⟨6244777999999999900000, -8118099999999904200000, 4219811320785282700000, 8037735841810445700000000000⟩,
   ⟨6204294000000000200000, -8075299056603910200000, 4269834406161621300000, -2004617085162863100000000000⟩,
   ⟨6164023999999999100000, -8032751058823686600000, 4160423529479651100000, 5957647054373183800000000000⟩,
   ⟨6123964999999999400000, -7990699999999815600000, 4199904761879836000000, 4019047619863158600000000000⟩,
   ⟨6084116999999999800000, -7948399523809526600000, 4189881122842820500000, 2004727810387407900000000000⟩,
   ⟨6044479999999999600000, -7906350357995320300000, 4130167178917787300000, 3980884030099219000000000000⟩,
   ⟨6005051999999999700000, -7864750119903881400000, 4130023865264575800000, 4000023110464213100000000000⟩,
   ⟨5965832000000000700000, -7823149879517950800000, 4139951807169773100000, 2004819281964387600000000000⟩,
   ⟨5926820000000000400000, -7781600000000106700000, 4100000000034675900000, 3999999995016878800000000000⟩,
   ⟨5888015000000000100000, -7740300000000132700000, 4079999999986760800000, 4000000003756554800000000000⟩,
   ⟨5849415999999999600000, -7699199999999982500000, 4070024449914022900000, 1995110020516222200000000000⟩,
   ⟨5811022000000000100000, -7658350122249307100000, 4050024329697699100000, 4000024031611815300000000000⟩,
   ⟨5772832000000000000000, -7617549877149961000000, 4049876785879824500000, 4019728822015622300000000000⟩]
/-- `atm_data.akima_P`, aviary/subsystems/atmosphere/data/StandardAtm1976.py:1524-2215 (part 4) -/
def standardPRows_3 : List IRow :=
  [⟨5734845999999999900000, -7576749629629511600000, 4019950861778376400000, 1995012829212328100000000000⟩,
   ⟨5697063000000000500000, -7536400495049536900000, 3980198019747583000000, 3980198026383164000000000000⟩,
   ⟨5659480999999999800000, -7496300000000082300000, 3999900000057898800000, 4019999993545297500000000000⟩,
   ⟨5622100000000000000000, -7455999499999985700000, 3989875187930991400000, 2004962410779853500000000000⟩,
   ⟨5584919999999999700000, -7415950375939861100000, 3930175564886440200000, 3979924619059716000000000000⟩,
   ⟨5547938999999999900000, -7376350125944569000000, 3930025061356801200000, 4000025510038085500000000000⟩,
   ⟨5511155999999999800000, -7336749873417749900000, 3939949367105377400000, 2005063290155817200000000000⟩,
   ⟨5474570999999999900000, -7297199999999938800000, 3910025445289022700000, 1994910941931493600000000000⟩,
   ⟨5438183000000000200000, -7257950127226408200000, 3869819528104478900000, 8041183436802157400000000000⟩,
   ⟨5401991000000000300000, -7218648843187602400000, 3909665152305308400000, -3979302956267361400000000000⟩,
   ⟨5365995000000000400000, -7179850639386268400000, 3790125884325234900000, 12000398580838124000000000000⟩,
   ⟨5330191999999999800000, -7141049350649455900000, 3919946445341970700000, -6015263091541100900000000000⟩,
   ⟨5294583999999999700000, -7102301030927903500000, 3770334042134138100000, 9974428686447824100000000000⟩,
   ⟨5259167999999999300000, -7063849608355074100000, 3849921671045386600000, -2913225216616411000⟩,
   ⟨5223944999999999700000, -7025350391644834300000, 3770182904650099100000, 3979084863487969500000000000⟩,
   ⟨5188912999999999700000, -6987350131233565500000, 3759946673356751000000, 6015914672730105800000000000⟩,
   ⟨5154070999999999900000, -6949299470899546800000, 3789867515425804400000, -1994667106615111000000000000⟩,
   ⟨5119418999999999500000, -6911550395778280500000, 3710078311403641800000, 8000168856838740100000000000⟩,
   ⟨5084955000000000300000, -6873849599999986500000, 3779946382905308200000, -2005276587482285300000000000⟩,
   ⟨5050679999999999600000, -6836200531914991000000, 3690185956373070900000, 5984085327170875000000000000⟩,
   ⟨5016591999999999800000, -6798849865951726000000, 3709865518125532400000, 4021534442273377900000000000⟩,
   ⟨4982690999999999600000, -6761449595687298400000, 3689919137490349800000, -1492139745096210300⟩,
   ⟨4948976000000000200000, -6724550404312505900000, 3630079981181744200000, 8000176265667846600000000000⟩,
   ⟨4915445000000000400000, -6687649591280759000000, 3699945207889676800000, -2005390352692870900000000000⟩,
   ⟨4882098999999999800000, -6650800543478314200000, 3600107501243598900000, 8000238885941258100000000000⟩,
   ⟨4848936000000000100000, -6614199450549433500000, 3649862411519145000000, -1994460328802461000000000000⟩,
   ⟨4815955999999999800000, -6577850410958902200000, 3570081281104897900000, 8000182136740362800000000000⟩,
   ⟨4783157000000000000000, -6541549584487596800000, 3629916897467744100000, 5826450433232822000⟩,
   ⟨4750539999999999400000, -6505250415512478800000, 3560166205041959500000, 1983379494561177100000000000⟩,
   ⟨4718102999999999900000, -6469499999999970700000, 3539775280848367700000, 8044943827769657100000000000⟩,
   ⟨4685844999999999700000, -6433498876404405200000, 3599774025526336800000, -3999748922396406500000000000⟩,
   ⟨4653767000000000600000, -6397801117318317100000, 3470361941489486000000, 9972304433176759800000000000⟩,
   ⟨4621866000000000300000, -6362349575070936700000, 3559943022698419600000, -2005601704766491000000000000⟩,
   ⟨4590143000000000000000, -6326900564971810000000, 3470197498680605000000, 5983099135420388200000000000⟩,
   ⟨4558595999999999900000, -6291749857549850900000, 3509971509973830300000, 0⟩,
   ⟨4527225000000000000000, -6256650142450115300000, 3459942037520136000000, 6017290501318939300000000000⟩,
   ⟨4496029000000000100000, -6221599425287317700000, 3479885057474163600000, -1421085471520200400⟩,
   ⟨4465008000000000200000, -6186800574712682600000, 3400113605974297700000, 8000267309853371200000000000⟩,
   ⟨4434159999999999900000, -6152199418604698900000, 3459767441881034600000, -3976744188349811900000000000⟩,
   ⟨4403484999999999900000, -6117900000000008600000, 3359647058816861800000, 12070588236241521000000000000⟩,
   ⟨4372980999999999800000, -6083398235294119200000, 3479642954859585400000, -7999179205313566600000000000⟩,
   ⟨4342650000000000000000, -6049201744185920000000, 3300697674421648900000, 11930232556238708000000000000⟩,
   ⟨4312488000000000500000, -6015299999999988300000, 3430088495545824500000, -2017699112499827000000000000⟩,
   ⟨4282497000000000100000, -5981150442477964000000, 3320176991178769100000, 5982300881797187700000000000⟩,
   ⟨4252675000000000000000, -5947500000000037100000, 3339999999989906500000, 2842170943040400800⟩,
   ⟨4223020999999999900000, -5914099999999925700000, 3309909909921771300000, 6018018016362702400000000000⟩,
   ⟨4193534000000000400000, -5880549549549479900000, 3349909909887038700000, -71054273576010022⟩,
   ⟨4164215000000000100000, -5847050450450614000000, 3270210391664641100000, 3975939686711171700000000000⟩,
   ⟨4135061999999999500000, -5814050151057462500000, 3280060422988206900000, 1993957702879356400000000000⟩,
   ⟨4106073999999999800000, -5781099999999860900000, 3269724770632187600000, 6055045871278253000000000000⟩,
   ⟨4077251000000000200000, -5747948623853194900000, 3279693443701070300000, -1993734613776610000000000000⟩,
   ⟨4048593000000000000000, -5715301219512219300000, 3180487804900167200000, 7951219509507723500000000000⟩,
   ⟨4020097000000000100000, -5682900000000008900000, 3270030769219722900000, -2006153845073299800000000000⟩,
   ⟨3991763999999999900000, -5650350153846189500000, 3189781164631533400000, 8049920921919806000000000000⟩,
   ⟨3963593000000000000000, -5617848598130729300000, 3229594051107831300000, -3974884989688121600000000000⟩,
   ⟨3935584000000000400000, -5585850773993872300000, 3110151868780874800000, 12000585992879565000000000000⟩,
   ⟨3907733999999999700000, -5553849211356597600000, 3239934542629363600000, -6018454261464966900000000000⟩,
   ⟨3880044999999999700000, -5521901249999914700000, 3100499999991513100000, 7950000000107593400000000000⟩,
   ⟨3852513999999999900000, -5490299999999988900000, 3179999999986194100000, 1421085471520200400⟩,
   ⟨3825141999999999800000, -5458500000000022100000, 3120000000009781600000, 3999999999351189400000000000⟩,
   ⟨3797927999999999900000, -5426999999999971200000, 3099999999998637200000, 3999999999351189400000000000⟩,
   ⟨3770870999999999900000, -5395700000000034400000, 3099999999991354000000, 1421085471520200400⟩,
   ⟨3743969999999999700000, -5364700000000011600000, 3069902912642597100000, 6019417472558075600000000000⟩,
   ⟨3717223999999999800000, -5333549514563139300000, 3109902912600226400000, 4405364961712621000⟩]
/-- `atm_data.akima_P`, aviary/subsystems/atmosphere/data/StandardAtm1976.py:1524-2215 (part 5) -/
def standardPRows_4 : List IRow :=
  [⟨3690633999999999700000, -5302450485436808400000, 3030226748074582400000, 3974067862841935000000000000⟩,
   ⟨3664198000000000300000, -5271850162866353900000, 3030032359657042100000, 4000042721301610900000000000⟩,
   ⟨3637915000000000100000, -5241249836065684100000, 3049967213132554100000, -1492139745096210300⟩,
   ⟨3611784999999999900000, -5210750163934469500000, 3010032570479559400000, 4000043283838295400000000000⟩,
   ⟨3585807000000000000000, -5180349834983387900000, 3019933993403434200000, 2006600659001378400000000000⟩,
   ⟨3559981000000000500000, -5149999999999928400000, 2979999999974758500000, 4000000002193360100000000000⟩,
   ⟨3534306000000000500000, -5119900000000016300000, 2970033444824338500000, 1993311035732858700000000000⟩,
   ⟨3508781000000000500000, -5090050167224090300000, 2950033219603121000000, 4000045041365752500000000000⟩,
   ⟨3483405000000000300000, -5060249831649955800000, 2969966329953166500000, 4334310688136611400⟩,
   ⟨3458177999999999900000, -5030550168350098200000, 2919931285687482500000, 6020476871526626000000000000⟩,
   ⟨3433099000000000500000, -5000899319727857100000, 2949829586018282400000, -1993128093289442500000000000⟩,
   ⟨3408168000000000000000, -4971550508474673600000, 2870100297085720600000, 8000279570978818800000000000⟩,
   ⟨3383383000000000200000, -4942249484535994800000, 2939930800722123600000, -2006778702465794600000000000⟩,
   ⟨3358745000000000400000, -4913000684931463800000, 2850239370517826600000, 5979523154664435100000000000⟩,
   ⟨3334252000000000400000, -4884049826989681300000, 2889965397919880400000, 710542735760100200⟩,
   ⟨3309904000000000100000, -4855150173010429200000, 2839929344030700600000, 6021051610360928200000000000⟩,
   ⟨3285700000000000000000, -4826299300699347800000, 2869824809325116700000, -1992933892864812300000000000⟩,
   ⟨3261639999999999800000, -4797750522648061500000, 2790103052181436200000, 8000295488770348300000000000⟩,
   ⟨3237722000000000100000, -4769249469964584900000, 2869893249008193300000, -3999851218239314300000000000⟩,
   ⟨3213947000000000100000, -4740850526315871800000, 2759924812021097600000, 10036090227600881000000000000⟩,
   ⟨3190312999999999700000, -4712498571428588100000, 2839712259404158900000, -3999594735901724000000000000⟩,
   ⟨3166820999999999900000, -4684401418439740000000, 2720567375851779000000, 7943262417313690300000000000⟩,
   ⟨3143467999999999700000, -4656599999999925500000, 2810035842335345400000, -2007168465070208300000000000⟩,
   ⟨3120255000000000300000, -4628650179211450500000, 2739926756995814400000, 6021817054673307100000000000⟩,
   ⟨3097180999999999800000, -4600799275362391000000, 2759855072513062500000, -5826450433232822000⟩,
   ⟨3074245999999999900000, -4573200724637698200000, 2700289855044424400000, 3971014496428893200000000000⟩,
   ⟨3051447999999999600000, -4545900000000019100000, 2729963369988120100000, 2007326005610821400000000000⟩,
   ⟨3028786999999999900000, -4518449816849719800000, 2709816038804646800000, 4029466229482636400000000000⟩,
   ⟨3006263000000000100000, -4491049446494461300000, 2699778597783364400000, -1977859779032087400000000000⟩,
   ⟨2983875000000000000000, -4464200000000055000000, 2629812734083003600000, 10037453184921219000000000000⟩,
   ⟨2961620999999999900000, -4437149063670357700000, 2739921764476882500000, -6021806078422287000000000000⟩,
   ⟨2939503000000000200000, -4410201481481467800000, 2590479385012933800000, 9963382254412067100000000000⟩,
   ⟨2917518000000000000000, -4383549433962259400000, 2689885944487713600000, -3999830405874149300000000000⟩,
   ⟨2895667000000000200000, -4356950561797822800000, 2590110650630883400000, 8000341781908560700000000000⟩,
   ⟨2873947999999999600000, -4330449429657868200000, 2649885931589324200000, -710542735760100200⟩,
   ⟨2852361999999999900000, -4303950570342028200000, 2580228136876528000000, 1977186309289891400000000000⟩,
   ⟨2830907000000000300000, -4278000000000064400000, 2579999999961657600000, 4000000004467096300000000000⟩,
   ⟨2809581999999999600000, -4251900000000114600000, 2620000000049849200000, -4334310688136611400⟩,
   ⟨2788387999999999700000, -4225699999999942100000, 2559999999979290000000, 4000000002264414300000000000⟩,
   ⟨2767323999999999800000, -4199799999999977600000, 2550038910508867300000, 1992217898489912200000000000⟩,
   ⟨2746388999999999900000, -4174150194552502100000, 2530038605320683600000, 4000061036109059200000000000⟩,
   ⟨2725582000000000000000, -4148549803921582700000, 2549960784316773900000, -710542735760100200⟩,
   ⟨2704902999999999900000, -4123050196078470900000, 2510038905679046000000, 4000062002660342500000000000⟩,
   ⟨2684350999999999800000, -4097649802371480900000, 2519920948631515500000, 2007905135812393600000000000⟩,
   ⟨2663926000000000200000, -4072299999999978000000, 2490039840606073300000, 1992031876554279000000000000⟩,
   ⟨2643627000000000000000, -4047250199203173100000, 2480079681307145500000, 1992031867104060500000000000⟩,
   ⟨2623453000000000200000, -4022300000000067900000, 2479838709639992300000, 4032258070481020800000000000⟩,
   ⟨2603403999999999700000, -3997199193548379300000, 2479838709727566600000, -5826450433232822000⟩,
   ⟨2583480000000000300000, -3972400806451539700000, 2410281764271893300000, 5975905205595211400000000000⟩,
   ⟨2563679000000000100000, -3947849795918402000000, 2459918367374758400000, -1991836738000074900000000000⟩,
   ⟨2544001000000000200000, -3923400000000001300000, 2409876543191291700000, 6024691360728695400000000000⟩,
   ⟨2524445000000000100000, -3898849382716032900000, 2449876543228768600000, -2913225216616411000⟩,
   ⟨2505012000000000300000, -3874350617283965000000, 2380246913556316600000, 1975308645256745600000000000⟩,
   ⟨2485700000000000000000, -3850400000000008900000, 2369874477011979500000, 6025104599345354300000000000⟩,
   ⟨2466508000000000200000, -3826249372384937800000, 2419915620621804300000, -2008228729053485200000000000⟩,
   ⟨2447436999999999900000, -3802200833333398800000, 2340333333344091200000, 3966666666777030200000000000⟩,
   ⟨2428484999999999900000, -3778499999999949600000, 2369957805913447500000, 2008438816787361600000000000⟩,
   ⟨2409652000000000000000, -3754649789029555600000, 2349787952220161400000, 4033970735761727600000000000⟩,
   ⟨2390937999999999700000, -3730849361702173200000, 2339744680873057300000, -1974468086949343500000000000⟩,
   ⟨2372341999999999800000, -3707599999999966000000, 2279999999991666400000, 8000000000905061500000000000⟩,
   ⟨2353861999999999900000, -3684199999999982800000, 2370128755363865100000, -2025751072629589300000000000⟩,
   ⟨2335500000000000000000, -3660650643776792300000, 2280257510731775800000, 1974248926046584700000000000⟩,
   ⟨2317254000000000100000, -3637700000000022400000, 2259649122797924500000, 8070175440231253700000000000⟩,
   ⟨2299123000000000000000, -3614498245614023600000, 2929489328429824000000, -125968041123307740000000000000⟩]
/-- `atm_data.akima_P`, aviary/subsystems/atmosphere/data/StandardAtm1976.py:1524-2215 (part 6) -/
def standardPRows_5 : List IRow :=
  [⟨2281108000000000200000, -3594650955413971600000, 3405612934820201200000, -111084370405549750000000000000⟩,
   ⟨2263206000000000100000, -3568926153846185800000, 3293838633208290400000, -48122324859143366000000000000⟩,
   ⟨2227798000000000000000, -3517486078639763500000, 3649754683038164300000, -44114681906259892000000000000⟩,
   ⟨2192943999999999900000, -3457725389550880400000, 2637538301598896500000, 4500065348898018800000000000⟩,
   ⟨2158634999999999900000, -3403624603914233500000, 2602460990990795800000, 3999940043506455800000000000⟩,
   ⟨2124863000000000100000, -3350375402081367000000, 2555080416266530700000, 4245979186787707200000000000⟩,
   ⟨2091618999999999900000, -3298000000000000900000, 2522536585373025100000, 3746341462909086300000000000⟩,
   ⟨2058895000000000100000, -3246425365853667700000, 2477446557020357400000, 4509002834378606100000000000⟩,
   ⟨2026682999999999800000, -3195523733862947400000, 2449907738394507900000, 3246564790408968000000000000⟩,
   ⟨1994976000000000200000, -3145551609657932800000, 2387706546965873300000, 4745441882478829100000000000⟩,
   ⟨1963763999999999900000, -3096373846153871200000, 2374852390857640200000, 3253222452981319400000000000⟩,
   ⟨1933041000000000000000, -3047900831600822300000, 2320166320165251200000, 3991683991682038000000000000⟩,
   ⟨1902798000000000000000, -3000300000000015700000, 2294999999999092200000, 3500000000169478300000000000⟩,
   ⟨1873027999999999900000, -2953349999999982600000, 2257459105783121800000, 3754089421788009200000000000⟩,
   ⟨1843724000000000200000, -2907074591057783300000, 2222459739792936900000, 3499936598458930000000000000⟩,
   ⟨1814879000000000100000, -2861575415282385100000, 2180083056483228400000, 3745847175657956800000000000⟩,
   ⟨1786485000000000200000, -2816850000000023200000, 2152537142852040000000, 3246285714677555200000000000⟩,
   ⟨1758534999999999900000, -2772825371428582200000, 2117536538914732700000, 3500060394614479500000000000⟩,
   ⟨1731022000000000100000, -2729424622531904500000, 2089924506383633700000, 3253774680720411600000000000⟩,
   ⟨1703940000000000100000, -2686650000000018000000, 2049999999999219100000, 3500000000080660900000000000⟩,
   ⟨1677282000000000000000, -2644600000000008900000, 2017539585873517900000, 3246041412747757900000000000⟩,
   ⟨1651041000000000000000, -2603275395858712900000, 1985079171740666800000, 3246041412925393300000000000⟩,
   ⟨1625209999999999900000, -2562600000000020600000, 1960000000000050600000, 3000000000152880600000000000⟩,
   ⟨1599782999999999800000, -2522499999999972400000, 1927458492978617700000, 3254150702138858100000000000⟩,
   ⟨1574754000000000100000, -2482974584929759300000, 1899994706152918800000, 2746378682028094500000000000⟩,
   ⟨1550116999999999800000, -2444150777202089800000, 1860076284747203100000, 3500143546322220800000000000⟩,
   ⟨1525865000000000000000, -2405899208443250400000, 1844921902555585400000, 2499894177008244100000000000⟩,
   ⟨1501993000000000000000, -2368250802139035400000, 1800078683938055500000, 3500152996576134100000000000⟩,
   ⟨1478494000000000100000, -2331199182561302300000, 1787450305365423500000, 2246795076530361500000000000⟩,
   ⟨1455363000000000100000, -2294776137931034700000, 1742611552451123300000, 3500224065167145700000000000⟩,
   ⟨1432593000000000000000, -2258873839662463500000, 1737385286685455700000, 1999867955984058300000000000⟩,
   ⟨1410179999999999900000, -2223526173541958300000, 1690162244626858200000, 3245510956970676400000000000⟩,
   ⟨1388117000000000000000, -2188749275362329000000, 1677307207953848800000, 2762032827714478000000000000⟩,
   ⟨1366399999999999800000, -2154374521354937700000, 1647571931199865000000, 1988020429521952900000000000⟩,
   ⟨1345023000000000000000, -2120826676602082500000, 1605106661876787500000, 3756099833100990200000000000⟩,
   ⟨1323978999999999900000, -2087597713414617300000, 1614727298315266100000, 1504404314909280000000000000⟩,
   ⟨1303266000000000200000, -2054851846153839200000, 1552833908943052200000, 3235070643938797400000000000⟩,
   ⟨1282876000000000000000, -2022824646781796100000, 1552465127427349300000, 1999955075309145700000000000⟩,
   ⟨1262805000000000100000, -1991175357710655700000, 1517437830619994400000, 3009794044408487200000000000⟩,
   ⟨1243048000000000000000, -1959923662884934100000, 1504896511414921700000, 1746977707917097000000000000⟩,
   ⟨1223601000000000000000, -1929301639344261000000, 1460260979217653400000, 2990295520790553600000000000⟩,
   ⟨1204457000000000000000, -1899199331103670100000, 1459866220738037600000, 2006688963027691600000000000⟩,
   ⟨1185613000000000100000, -1869400000000001100000, 1427538726331012400000, 2246127366745120900000000000⟩,
   ⟨1167063999999999900000, -1840175387263356200000, 1402538048116786000000, 2500067821871176800000000000⟩,
   ⟨1148804999999999900000, -1811374605954459500000, 1387461155369007400000, 1999944007735621100000000000⟩,
   ⟨1130832000000000000000, -1783025399644758300000, 1357539241790251000000, 2500072268545317100000000000⟩,
   ⟨1113140000000000000000, -1755124593128388800000, 1342459910082438500000, 1999940275680955700000000000⟩,
   ⟨1095725000000000000000, -1727675412844036100000, 1317615157260920800000, 1992612714238895200000000000⟩,
   ⟨1078582000000000000000, -1700725325884545800000, 1297437093418318900000, 2509549503626473600000000000⟩,
   ⟨1061707000000000000000, -1674023719165091500000, 1287373391557311700000, 1499852495143727700000000000⟩,
   ⟨1045096999999999900000, -1647826295585401300000, 1247470900211977800000, 2515865832970476600000000000⟩,
   ⟨1028746000000000100000, -1622122117831269700000, 1244677584907782800000, 1753419821852730800000000000⟩,
   ⟨1012651000000000000000, -1596702540186559800000, 1219262019967737300000, 1999199868771839500000000000⟩,
   ⟨996807899999999970000, -1571717539826573000000, 1200007965316740600000, 1974601734122671900000000000⟩,
   ⟨981212700000000040000, -1547125000000001000000, 1181761706553574700000, 1873829344587463200000000000⟩,
   ⟨965861499999999980000, -1522927617065552600000, 1162261513388429600000, 1950019316785400900000000000⟩,
   ⟨950750400000000080000, -1499097381002748400000, 1146245794707390000000, 1749230556646885800000000000⟩,
   ⟨935875799999999980000, -1475647695941606900000, 1125523467796063500000, 1924612636452494300000000000⟩,
   ⟨921233799999999970000, -1452559842794749300000, 1110984516399127200000, 1699976307705242100000000000⟩,
   ⟨906821000000000090000, -1429830159574456000000, 1090778028881711500000, 1823792856407990800000000000⟩,
   ⟨892633600000000110000, -1407467461139898700000, 1075746174444503000000, 1699993954491496700000000000⟩,
   ⟨878668200000000070000, -1385442539464661900000, 1057753882235923300000, 1750006422933658800000000000⟩,
   ⟨864921299999999970000, -1363762459893064200000, 1042007559346469500000, 1623842995881474800000000000⟩,
   ⟨851389499999999860000, -1342435155807370200000, 1024269462409810400000, 1724611832787381700000000000⟩]
/-- `atm_data.akima_P`, aviary/subsystems/atmosphere/data/StandardAtm1976.py:1524-2215 (part 7) -/
def standardPRows_6 : List IRow :=
  [⟨838069299999999930000, -1321432383009337300000, 1010484642807396700000, 1575365812795937200000000000⟩,
   ⟨824957600000000090000, -1300750080409350800000, 992769981349272930000, 1623805958508306400000000000⟩,
   ⟨812051000000000020000, -1280407538994813100000, 978007798961511100000, 1574610051928715300000000000⟩,
   ⟨799346299999999970000, -1260375000000003800000, 962745974955203660000, 1575402504494505200000000000⟩,
   ⟨786840399999999950000, -1240647459749550300000, 948007518151849910000, 1473845680330931900000000000⟩,
   ⟨774530199999999970000, -1221245155682414000000, 931515305346009000000, 1600026289474421100000000000⟩,
   ⟨762412499999999910000, -1202134841688650100000, 919738083381749280000, 1374608548445621800000000000⟩,
   ⟨750484500000000030000, -1183327697456481900000, 902023696090070710000, 1574604955818515000000000000⟩,
   ⟨738743000000000030000, -1164814842047935600000, 891238097344992940000, 1324610744832810400000000000⟩,
   ⟨727185300000000010000, -1146592696877585200000, 874277785184984760000, 1499190257403526500000000000⟩,
   ⟨715808300000000050000, -1128657384096665200000, 863230884949661770000, 1350752471545036100000000000⟩,
   ⟨704609399999999910000, -1110987540656208400000, 848015957331149690000, 1373810829052857400000000000⟩,
   ⟨693585700000000000000, -1093615078260869600000, 834761749372936530000, 1374607671316141400000000000⟩,
   ⟨682734399999999910000, -1076507460972015300000, 822746157911691330000, 1299993929118059600000000000⟩,
   ⟨672052900000000050000, -1059662539635046800000, 809261801212257730000, 1299216229218025300000000000⟩,
   ⟨661538500000000020000, -1043087538742036600000, 796499718756704730000, 1325415544624064600000000000⟩,
   ⟨651188599999999950000, -1026759919703515100000, 784999614687209590000, 1199235566531342700000000000⟩,
   ⟨641000700000000050000, -1010700156739811500000, 770769632945722610000, 1324604103447590800000000000⟩,
   ⟨630972099999999950000, -994887382849862890000, 760984660587937870000, 1175362439893579100000000000⟩,
   ⟨621100500000000010000, -979315080906136610000, 747016181229431860000, 1249190938468203200000000000⟩,
   ⟨611383300000000050000, -964000000000007960000, 736507682029352520000, 1149231797048511100000000000⟩,
   ⟨601818099999999960000, -948925076820306360000, 724507556867515230000, 1200012516404669400000000000⟩,
   ⟨592402500000000050000, -934074921928033870000, 714238435932801350000, 1125375686987784000000000000⟩,
   ⟨583134299999999980000, -919452540503281290000, 701762041111819770000, 1149200921635173900000000000⟩,
   ⟨574011099999999990000, -905072539404554570000, 691007880910055130000, 1124605954512247800000000000⟩,
   ⟨565030599999999960000, -890914999999999900000, 685543072505878680000, 595692749447707140000000000⟩,
   ⟨556190599999999990000, -877025430725048020000, 679335692275928650000, 620738022905076360000000000⟩,
   ⟨547488900000000010000, -863252495472658030000, 682951579910584510000, 629796735478471780000000000⟩,
   ⟨538925299999999970000, -849404524853802690000, 676413082855564780000, 603940252488222030000000000⟩,
   ⟨530499499999999990000, -835695081120944590000, 654753560022924840000, 1175455207129694100000000000⟩,
   ⟨522209199999999960000, -822247373358347410000, 645237538616749670000, 1049979721849947400000000000⟩,
   ⟨514052300000000010000, -809027628669457650000, 632525733891775520000, 1123713305399842700000000000⟩,
   ⟨506026400000000010000, -796040000000002630000, 623500000000154480000, 1049999999986894800000000000⟩,
   ⟨498129399999999990000, -783255000000003810000, 613254108216521010000, 1024589178362234200000000000⟩,
   ⟨490359199999999960000, -770682541082164610000, 602499651996080150000, 1075445622047421900000000000⟩,
   ⟨482713699999999970000, -758309914355629560000, 593499441133404960000, 949199442947801190000000000⟩,
   ⟨475190899999999970000, -746155165700077010000, 582025129899321790000, 1049144010916158700000000000⟩,
   ⟨467788600000000040000, -734199919898815940000, 574483979762763200000, 950801011858626340000000000⟩,
   ⟨460505000000000020000, -722425000000002980000, 564008275262106710000, 949172473834192390000000000⟩,
   ⟨453338100000000030000, -710860082752611140000, 554262452161657940000, 974582309949401190000000000⟩,
   ⟨446285900000000040000, -699482459016392610000, 545991803278755870000, 925409836047830260000000000⟩,
   ⟨439346600000000030000, -688285000000003030000, 536762013729719130000, 873798627023525480000000000⟩,
   ⟨432518300000000000000, -677287620137301930000, 527261801098133380000, 950021263204092770000000000⟩,
   ⟨425799100000000000000, -666457377736377700000, 520484061939041620000, 825371169854705040000000000⟩,
   ⟨419187399999999980000, -655800085146640680000, 509762816521741590000, 924569814262366100000000000⟩,
   ⟨412681300000000010000, -645327457871926910000, 502753677075273860000, 799211011748291060000000000⟩,
   ⟨406279100000000020000, -635032621026896950000, 493261885816875800000, 900021687262331200000000000⟩,
   ⟨399979000000000000000, -624897376804380960000, 487237867192846830000, 749981324537074680000000000⟩,
   ⟨393779500000000010000, -614927625063163230000, 477016782179484660000, 874572413678276220000000000⟩,
   ⟨387678800000000000000, -605124917695470280000, 470991898551853560000, 749987099553095450000000000⟩,
   ⟨381675400000000040000, -595480083594567610000, 461762598763559890000, 824576069278215570000000000⟩,
   ⟨375767599999999990000, -585997458798513280000, 455245946629123640000, 749993322248787560000000000⟩,
   ⟨369953900000000020000, -576667541869256280000, 447262355180422210000, 749183174522105700000000000⟩,
   ⟨364232700000000020000, -567497539813291210000, 439999582769656760000, 775439855931203700000000000⟩,
   ⟨358602500000000010000, -558464916201118380000, 433745577149180530000, 674604296269087970000000000⟩,
   ⟨353061900000000010000, -549587623369253600000, 425016590710702870000, 774574621482671010000000000⟩,
   ⟨347609300000000030000, -540854919168594960000, 419992040048144950000, 649987681080599380000000000⟩,
   ⟨342243399999999970000, -532260082063308100000, 411508059440268720000, 750014689072653420000000000⟩,
   ⟨336962700000000000000, -523804916467780380000, 405991778403735940000, 649986837399918520000000000⟩,
   ⟨331765899999999970000, -515490084848485690000, 397762805601475900000, 724567924730301680000000000⟩,
   ⟨326651499999999990000, -507317458359036850000, 392753412570873190000, 599242333274574460000000000⟩,
   ⟨321618199999999980000, -499282617407637410000, 385261531241420930000, 700020952271174300000000000⟩,
   ⟨316664600000000020000, -491367380497127470000, 380984508222931320000, 575354148982798550000000000⟩,
   ⟨311789600000000020000, -483575084087974280000, 372508253693765210000, 700015510314289140000000000⟩]
/-- `atm_data.akima_P`, aviary/subsystems/atmosphere/data/StandardAtm1976.py:1524-2215 (part 8) -/
def standardPRows_7 : List IRow :=
  [⟨306991799999999970000, -475914914361004690000, 367998914981632060000, 549252111898823650000000000⟩,
   ⟨302269999999999980000, -468390160427802400000, 360270342879376340000, 674569990112283720000000000⟩,
   ⟨297622800000000010000, -460982382573181470000, 356730833916435480000, 550742340137411270000000000⟩,
   ⟨293049199999999970000, -453682543192811370000, 349262679322498430000, 599163995916862640000000000⟩,
   ⟨288547900000000030000, -446517540407586230000, 343753971438282020000, 600006932020003070000000000⟩,
   ⟨284117700000000010000, -439462458899214480000, 338999762426828190000, 524612749477348950000000000⟩,
   ⟨279757500000000030000, -432525079825835100000, 332507841089618710000, 600014149366723300000000000⟩,
   ⟨275466100000000010000, -425694918759232490000, 328238065425245950000, 525381049811812710000000000⟩,
   ⟨271242500000000020000, -418972543135783860000, 321762631733052430000, 549168184516002390000000000⟩,
   ⟨267085500000000000000, -412372540045767790000, 317008009153657580000, 524599542316428530000000000⟩,
   ⟨262994000000000010000, -405874999999999820000, 311991324920918320000, 550867507908003960000000000⟩,
   ⟨258967000000000010000, -399469913249209050000, 307498649842502550000, 449267507864892230000000000⟩,
   ⟨255003500000000030000, -393185159999999810000, 300770386307624990000, 574561369218740140000000000⟩,
   ⟨251102300000000010000, -386997383863081750000, 298231115048280820000, 450727125994587730000000000⟩,
   ⟨247262600000000020000, -380897543424317530000, 291508684863239780000, 524565756838679760000000000⟩,
   ⟨243483300000000010000, -374910000000000960000, 287507692307931180000, 449230769209441100000000000⟩,
   ⟨239763400000000000000, -369025076923079510000, 282507558528227740000, 500013377949804040000000000⟩,
   ⟨236101899999999980000, -363224921739130290000, 279238540235987610000, 425363367727582520000000000⟩,
   ⟨232498000000000000000, -357512541924092150000, 273254117073973310000, 500007533528190600000000000⟩,
   ⟨228950700000000010000, -351897457322554060000, 269753087117269330000, 399264513797348290000000000⟩,
   ⟨225459099999999990000, -346382616226069640000, 264261406774624060000, 500021583266230210000000000⟩,
   ⟨222022200000000020000, -340947381615597620000, 261730800027798470000, 400736153177705410000000000⟩,
   ⟨218639300000000000000, -335592544769088170000, 256016616652698950000, 423786025613992490000000000⟩,
   ⟨215309400000000010000, -330345076628350000000, 252007528399622620000, 450013443559216270000000000⟩,
   ⟨212031600000000030000, -325169922027289890000, 249238609216367880000, 375359351250104120000000000⟩,
   ⟨208805200000000010000, -320072542037587670000, 244008407517620780000, 424579624113130530000000000⟩,
   ⟨205629300000000010000, -315065000000001320000, 240753830438972250000, 374616956098083870000000000⟩,
   ⟨202503099999999990000, -310137538304392340000, 236244393449064330000, 450943699026318290000000000⟩,
   ⟨199425800000000000000, -305277367325703260000, 233490342777209470000, 324638979294356040000000000⟩,
   ⟨196396699999999990000, -300510168776370600000, 227780264404692240000, 423661323262214400000000000⟩,
   ⟨193414800000000010000, -295827465091297810000, 225984284634983530000, 376222449472996000000000000⟩,
   ⟨190479500000000010000, -291194912663756190000, 222498019477002090000, 299324689860824840000000000⟩,
   ⟨187590100000000010000, -286655154867257840000, 216759787010523110000, 475569971506439900000000000⟩,
   ⟨184745699999999990000, -282177288135595170000, 216481599721540810000, 224721383794701540000000000⟩,
   ⟨181945799999999990000, -277780239726025830000, 209278983712007930000, 474498889072583240000000000⟩,
   ⟨179189400000000000000, -273452310385063850000, 209725359184909090000, 250567932142953250000000000⟩,
   ⟨176476100000000000000, -269182632821722610000, 203272653394342970000, 399062877813882730000000000⟩,
   ⟨173805000000000020000, -264997460890491750000, 201746146352416180000, 299994269667980240000000000⟩,
   ⟨171175500000000010000, -260872539682542980000, 198007936507915710000, 324603174618465250000000000⟩,
   ⟨168586899999999990000, -256814999999999130000, 194991161616547830000, 350883838364790570000000000⟩,
   ⟨166038600000000020000, -252809911616158900000, 192244807226749080000, 274635438911596810000000000⟩,
   ⟨163530000000000020000, -248882624839950160000, 187517135091685990000, 374534890321132040000000000⟩,
   ⟨161060300000000010000, -245019921671020050000, 186745232486354440000, 224693461554625910000000000⟩,
   ⟨158629000000000000000, -241217608982826540000, 181749866741021110000, 401103154171189640000000000⟩,
   ⟨156235400000000000000, -237462280701754760000, 181480663511385250000, 174740666398220950000000000⟩,
   ⟨153879099999999990000, -233780245231607430000, 175035118745145440000, 398940441574957600000000000⟩,
   ⟨151559200000000010000, -230159860724231920000, 175726728767638940000, 225934365559177250000000000⟩,
   ⟨149275400000000010000, -226577545839211520000, 170763113322605640000, 299147059839577380000000000⟩,
   ⟨147027000000000000000, -223072539454807570000, 168253876362897690000, 300006911789219010000000000⟩,
   ⟨144813400000000000000, -219617459854012850000, 166499367252612170000, 224661814878235340000000000⟩,
   ⟨142634100000000010000, -216220073964497190000, 162752349460285060000, 325504698930334510000000000⟩,
   ⟨140488500000000000000, -212867375565612390000, 161737708542228360000, 199984801896313550000000000⟩,
   ⟨138376199999999990000, -209572625954198930000, 157017402677617230000, 324519274224055460000000000⟩,
   ⟨136296499999999990000, -206334922118379170000, 156238768067909500000, 225344377009495420000000000⟩,
   ⟨134249000000000000000, -203142543443918050000, 153015099039782710000, 223924535192043820000000000⟩,
   ⟨132233099999999990000, -200015064102564870000, 150240316421360050000, 326609383516918120000000000⟩,
   ⟨130248299999999990000, -196912274959082620000, 149979744291864340000, 124775161642887160000000000⟩,
   ⟨128294300000000000000, -193875247524752350000, 144035991436985980000, 348876103824502540000000000⟩,
   ⟨126370300000000000000, -190889864864865450000, 145227673827655350000, 175881265888633290000000000⟩,
   ⟨124476100000000000000, -187932547008545860000, 140763314752961900000, 249138610176058450000000000⟩,
   ⟨122611100000000010000, -185042539130433780000, 139007826086803850000, 224608695652550620000000000⟩,
   ⟨120774800000000000000, -182195000000002130000, 136991007194245390000, 250899280581085040000000000⟩,
   ⟨118966799999999990000, -179379910071942840000, 135244309470722300000, 174669772363134080000000000⟩,
   ⟨117186700000000000000, -176622622950819430000, 131771343410413970000, 249095167150770190000000000⟩]
/-- `atm_data.akima_P`, aviary/subsystems/atmosphere/data/StandardAtm1976.py:1524-2215 (part 9) -/
def standardPRows_8 : List IRow :=
  [⟨115433899999999990000, -173912467532465950000, 131239269205682410000, 200748404110551160000000000⟩,
   ⟨113708100000000010000, -171227457627119240000, 128745827526491330000, 199993518523733380000000000⟩,
   ⟨112008899999999990000, -168592543021032190000, 126262002265276060000, 199229983817161850000000000⟩,
   ⟨110335800000000020000, -166007533980581490000, 124243429779380410000, 250996827860783270000000000⟩,
   ⟨108688400000000000000, -163447366336635700000, 123236794381106920000, 149983928243724320000000000⟩,
   ⟨107066400000000000000, -160937635270540500000, 119527054108231620000, 223647294583795300000000000⟩,
   ⟨105469200000000000000, -158480000000000730000, 118991701244677840000, 200829875531272110000000000⟩,
   ⟨103896499999999990000, -156039917012447960000, 117441157849237920000, 155054339566196310000000000⟩,
   ⟨102348000000000000000, -153644577553593450000, 114263262324562630000, 219449303474061880000000000⟩,
   ⟨100823200000000000000, -151293477516060120000, 113446307210393610000, 170144439565755890000000000⟩,
   ⟨99321780000000001000, -148973508039982520000, 111326999915212220000, 182380408298432600000000000⟩,
   ⟨97843359999999996000, -146692253919188720000, 109650783837481070000, 177460808135077030000000000⟩,
   ⟨96387579999999991000, -144445999999998660000, 107924595395653130000, 177540460437608520000000000⟩,
   ⟨94954090000000008000, -142234245953954230000, 106225388984743090000, 169920641057141900000000000⟩,
   ⟨93542539999999997000, -140058761981942280000, 104427002177778790000, 174919601639844650000000000⟩,
   ⟨92152569999999992000, -137917746057894840000, 102950000298224210000, 162460549141263400000000000⟩,
   ⟨90783850000000007000, -135810007887188030000, 101251577437647130000, 164921128111283900000000000⟩,
   ⟨89436040000000003000, -133735500000001640000, 121398879906545190000, -2004887990649240100000000000⟩,
   ⟨88108819999999992000, -131908988799065510000, 140255406871989120000, -1885652696538842000000000000⟩,
   ⟨86801869999999997000, -129669576470587330000, 115790270144473790000, -666822330755018100000000000⟩,
   ⟨84249459999999999000, -125838152461714450000, 125617409326018310000, -610489312014017590000000000⟩,
   ⟨81778060000000005000, -121546043263090560000, 91106482906089253000, 166034012421545360000000000⟩,
   ⟨79384910000000002000, -117702543131941090000, 88024999133180795000, 160107873193246510000000000⟩,
   ⟨77067349999999999000, -113989413718781960000, 85062053841265112000, 154181604892014730000000000⟩,
   ⟨74822820000000002000, -110401913639260980000, 82193078965613068000, 148880149870717080000000000⟩,
   ⟨72648849999999993000, -106935534300791560000, 79443063023226786000, 142932600818782020000000000⟩,
   ⟨70543060000000003000, -103586292658879970000, 76761582817639475000, 138902506318372410000000000⟩,
   ⟨68503150000000005000, -100349146338592450000, 74235722598319649000, 132329716563961420000000000⟩,
   ⟨66526919999999996000, -97220921774782962000, 71705526075198370000, 129528133198247860000000000⟩,
   ⟨64612220000000002000, -94197266971937060000, 69378815285481980000, 122976665568527700000000000⟩,
   ⟨62757010000000002000, -91274542361835492000, 67030496971003109000, 119831056038036120000000000⟩,
   ⟨60959289999999999000, -88449525215749683000, 64840867771760737000, 115519650786544130000000000⟩,
   ⟨59217160000000001000, -85717266923935442000, 62710249263030902000, 110154846686277830000000000⟩,
   ⟨57528779999999995000, -83076671137390687000, 60586073253669771000, 108624180793701070000000000⟩,
   ⟨55892349999999999000, -80522879190291385000, 58671060417295888000, 102394954863208050000000000⟩,
   ⟨54306179999999995000, -78053162827763770000, 56680026927789787000, 100155723019926250000000000⟩,
   ⟨52768589999999995000, -75665774883028281000, 54859362959257946000, 96469059608431112000000000⟩,
   ⟨51277990000000000000, -73355637493127832000, 53083956154485054000, 92395925095634109000000000⟩,
   ⟨49832850000000002000, -71121404136833696000, 51322695436401004000, 89875570264338901000000000⟩,
   ⟨48431670000000003000, -68960645635060519000, 49664979565333669000, 87115109384597329000000000⟩,
   ⟨47073020000000002000, -66869508321185656000, 48077887213945208000, 82376442266732247000000000⟩,
   ⟨45755520000000001000, -64847541101907755000, 46460154966880554000, 82095006425086949000000000⟩,
   ⟨44477809999999999000, -62890620895522387000, 45051238345814730000, 76490321515333702000000000⟩,
   ⟨43238630000000001000, -60996782975871369000, 43516206400863113000, 76147119635154592000000000⟩,
   ⟨42036709999999999000, -59164758176274694000, 42177041503839790000, 71793365495446967000000000⟩,
   ⟨40870860000000005000, -57391524477526594000, 40790354557348339000, 70543465948182117000000000⟩,
   ⟨39739909999999998000, -55675258136094835000, 39507679725964838000, 67761353939287120000000000⟩,
   ⟨38642750000000001000, -54013637322329125000, 38240342081378653000, 64576201753568932000000000⟩,
   ⟨37578289999999998000, -52406532196969717000, 36990315944950350000, 64314695177002119000000000⟩,
   ⟨36545470000000000000, -50849741924959301000, 35887917655893011000, 59958929603184945000000000⟩,
   ⟨35543309999999997000, -49342274503199772000, 34678250598348116000, 59273728082488709000000000⟩,
   ⟨34570810000000000000, -47884016005566903000, 33614500305179095000, 56814998658574761000000000⟩,
   ⟨33627030000000002000, -46471257994969484000, 32557252456673349000, 55282364589889786000000000⟩,
   ⟨32711070000000001000, -45102629059194682000, 31533055316140119000, 52419882179792486000000000⟩,
   ⟨31822050000000002000, -43778402987933333000, 30502798793326932000, 52117530166852225000000000⟩,
   ⟨30959100000000001000, -42495749999999999000, 29606851133354843000, 49032443332243380000000000⟩,
   ⟨30121420000000001000, -41252637022667141000, 28651992738857808000, 47742919724522162000000000⟩,
   ⟨29308209999999997000, -40049265809443423000, 27745130911715348000, 47157978023300302000000000⟩,
   ⟨28518700000000001000, -38882870999346814000, 26919735236699201000, 43690736531640242000000000⟩,
   ⟨27752159999999998000, -37753652706040856000, 26014876172556975000, 44637956474816170000000000⟩,
   ⟨27007850000000002000, -36659492111368798000, 25287895347397492000, 40585511051870197000000000⟩,
   ⟨26285100000000000000, -35599273684210654000, 24439868421061507000, 41190789473559421000000000⟩,
   ⟨25583220000000000000, -34572249999999909000, 23737895005098572000, 38730249744996230000000000⟩,
   ⟨24901580000000001000, -33576257900101963000, 22976184539380553000, 38085523285692758000000000⟩]
/-- `atm_data.akima_P`, aviary/subsystems/atmosphere/data/StandardAtm1976.py:1524-2215 (part 10) -/
def standardPRows_9 : List IRow :=
  [⟨24239550000000000000, -32611507890583910000, 22276562254277751000, 36191613746044959000000000⟩,
   ⟨23596520000000001000, -31677015463917567000, 21582602118427884000, 35908553872310293000000000⟩,
   ⟨22971899999999999000, -30770621114533665000, 20956451620874130000, 33730205290828653000000000⟩,
   ⟨22365140000000002000, -29891886803349706000, 20276567700861989000, 33388623330837119000000000⟩,
   ⟨21775680000000000000, -29040757747318215000, 19676158874435896000, 31836424574105401000000000⟩,
   ⟨21202990000000003000, -28215507682851866000, 19075768285169505000, 31230792870810819000000000⟩,
   ⟨20646559999999999000, -27415000000000120000, 18506832298151830000, 29658385092730391000000000⟩,
   ⟨20105900000000000000, -26639136645962760000, 17926543894983792000, 29014420157569277000000000⟩,
   ⟨19580519999999999000, -25887257585974342000, 17400758597446894000, 28106035063740074000000000⟩,
   ⟨19069960000000000000, -25157499999999975000, 16881444962342853000, 27177751882670467000000000⟩,
   ⟨18573779999999999000, -24449628899247067000, 16363647500468142000, 25889873094403495000000000⟩,
   ⟨18091540000000001000, -23764015151515046000, 15851133763258689000, 26231190624771004000000000⟩,
   ⟨17622810000000001000, -23098492372234981000, 15425003130796304000, 23730774047457657000000000⟩,
   ⟨17167200000000000000, -22453015318146186000, 14914031814615947000, 24336704634638635000000000⟩,
   ⟨16724299999999999000, -21827249999999982000, 14506440501044390000, 22802974947756794000000000⟩,
   ⟨16293740000000000000, -21219628810020898000, 14056822026622603000, 22480923721063254000000000⟩,
   ⟨15875149999999999000, -20630378820490708000, 13638259156442506000, 21534093404811799000000000⟩,
   ⟨15468170000000001000, -20059007542147230000, 13232189971470672000, 20909356794520525000000000⟩,
   ⟨15072450000000001000, -19504628715134961000, 12850371513486830000, 20303212162932351000000000⟩,
   ⟨14687660000000000000, -18966249999999959000, 12481804949059269000, 19034752547150702000000000⟩,
   ⟨14313480000000001000, -18444136098981014000, 12081787163998985000, 20000889252493742000000000⟩,
   ⟨13949590000000001000, -17936863545318055000, 11768554428761256000, 17481141856914852000000000⟩,
   ⟨13595699999999999000, -17445143997939300000, 11364399793921052000, 18390005152059407000000000⟩,
   ⟨13251489999999998000, -16968499999999977000, 11081061850030765000, 17196907498590737000000000⟩,
   ⟨12916690000000000000, -16504621237000441000, 10756433559205685000, 16231414540924390000000000⟩,
   ⟨12591030000000001000, -16054886197183104000, 10407184506223099000, 16856267646536003000000000⟩,
   ⟨12274230000000000000, -15618371295758344000, 10143928739008833000, 14981802445362608000000000⟩,
   ⟨11966040000000000000, -15194635983263557000, 9813228412675501600, 15928537525251862000000000⟩,
   ⟨11666200000000001000, -14782992601726238000, 9385444807871734300, 23209263921913568000000000⟩,
   ⟨11374480000000000000, -14379723692705081000, 8898199216297430400, 23149270947705333000000000⟩,
   ⟨11090629999999999000, -13996016598915943000, 8191847968253701200, 20449098877429323000000000⟩,
   ⟨10814150000000001000, -13643803761532885000, 7824279499019093200, 19545428881330776000000000⟩,
   ⟨10544560000000001000, -13307378066914531000, 7974982263967909000, 10946054087813614000000000⟩,
   ⟨10281690000000000000, -12975243511450435000, 7796781782008506400, 9519689525595842800000000⟩,
   ⟨10025380000000000000, -12651948612739385000, 7560256697459414600, 10608696975429253000000000⟩,
   ⟨9775449999999999300, -12336807908470497000, 7417809721958768400, 9254285078356961000000000⟩,
   ⟨9531754999999999700, -12028990377498126000, 7207210055947422800, 9615440947985735200000000⟩,
   ⟨9294135000000000000, -11729163446122655000, 7033907782916844900, 9213226160858372700000000⟩,
   ⟨9062439000000000500, -11436751263412948000, 6857048769623886300, 9025720051087511500000000⟩,
   ⟨8836518999999999800, -11151638448566687000, 6687048642954347300, 8743689268904397000000000⟩,
   ⟨8616230999999999100, -10873664075725825000, 6519579653238658500, 8556206652797147500000000⟩,
   ⟨8401434000000000400, -10602613441612922000, 6358235018164362400, 8371853124095746200000000⟩,
   ⟨8191992000000000500, -10338237817137438000, 6200767087252787400, 8056188480843121300000000⟩,
   ⟨7987771999999999700, -10080539707470306000, 7708346443800924700, -75318053514216927000000000⟩,
   ⟨7788642000000000100, -9862587513935337800, 9075091187760176300, -67910774549789783000000000⟩,
   ⟨7594476999999999100, -9581076795884678500, 6538528968118365200, -14339861008492994000000000⟩,
   ⟨7129976999999999500, -9034772856636539400, 6874661471597265900, -12304086777330247000000000⟩,
   ⟨6693886999999999400, -8439587360306789700, 4229385550237816100, 7679233117963146800000000⟩,
   ⟨6283440999999999800, -7959054556898288000, 3943564626871318900, 6950530221887934700000000⟩,
   ⟨5896215999999999700, -7512569117546997500, 3940875222908125800, 4570142560639950600000000⟩,
   ⟨5531011000000000200, -7084205526051386100, 3732479388010821700, 4368622660335525100000000⟩,
   ⟨5186677999999999900, -6678192917297789300, 3535998222339194000, 4149202472335245200000000⟩,
   ⟨4862127000000000300, -6293474076521357200, 3347118640790978900, 3959257792723880600000000⟩,
   ⟨4556316000000000300, -5929067778996830300, 3168762615606487800, 3763859286598503200000000⟩,
   ⟨4268254999999999900, -5583962572786690900, 2998123124901708800, 3590566616645113900000000⟩,
   ⟨3997001000000000200, -5257221010671686000, 2836705625514166700, 3402291758389936200000000⟩,
   ⟨3741657000000000000, -4948033259932346600, 2681413788479594800, 3257028203347555800000000⟩,
   ⟨3501366000000000200, -4655464169559277900, 2536601862806516600, 3077630567576566900000000⟩,
   ⟨3275318999999999600, -4378721754021800200, 2395977755461509900, 2937146499491089100000000⟩,
   ⟨3062739999999999800, -4117095379729465200, 2264395990638594400, 2790232079013382700000000⟩,
   ⟨2862894999999999600, -3869729040073009700, 2138955052740669100, 2648514974392876600000000⟩,
   ⟨2675086999999999900, -3635969672490995800, 2019075405333492900, 2518360889728135800000000⟩,
   ⟨2498650999999999900, -3415174425284683800, 1905843602576324700, 2392898062348117100000000⟩,
   ⟨2332956000000000100, -3206643329559439500, 1798706505977357800, 2267201704227520000000000⟩]
/-- `atm_data.akima_P`, aviary/subsystems/atmosphere/data/StandardAtm1976.py:1524-2215 (part 11) -/
def standardPRows_10 : List IRow :=
  [⟨2177403999999999900, -3009768666179997800, 1696297796625351800, 2157510539493520500000000⟩,
   ⟨2031426000000000100, -2823957557471262900, 1599865982074453700, 2041703347015200100000000⟩,
   ⟨1894483000000000000, -2648658184161204900, 1507562677375553600, 1944020116969799900000000⟩,
   ⟨1766061999999999800, -2483321765546376900, 1421235913724831700, 1831987944054050600000000⟩,
   ⟨1645677999999999800, -2327458264593486100, 1337931758646996600, 1752670664455571700000000⟩,
   ⟨1532869000000000000, -2180520058745368800, 1261169817905949000, 1640627140027037600000000⟩,
   ⟨1427200999999999800, -2042098373404571600, 1185525160857835500, 1576846144673432900000000⟩,
   ⟨1328257000000000000, -1911719511233738200, 1117125903894932900, 1473286415596200600000000⟩,
   ⟨1235647999999999900, -1788957272727272500, 1049388292967126400, 1411143231567178800000000⟩,
   ⟨1149000000000000000, -1673434869193806500, 987749109883605270, 1322965479850016200000000⟩,
   ⟨1067963000000000000, -1564737717106571200, 927743482090235770, 1260217200823796200000000⟩,
   ⟨992202999999999950, -1462511739891369600, 872212606375273560, 1186843829042300000000000⟩,
   ⟨921406299999999940, -1366389150536024600, 818873933035829550, 1124581553692792600000000⟩,
   ⟨855274599999999910, -1276067395579744600, 768835569822752230, 1063046835443268200000000⟩,
   ⟨793526199999999980, -1191210987331644200, 721609180563964600, 1003411321377940800000000⟩,
   ⟨735895099999999940, -1111524484364912800, 676863229660284550, 948529152760072000000000⟩,
   ⟨682129600000000020, -1036724192753183100, 634757639307265180, 895324315127767110000000⟩,
   ⟨631992200000000000, -966533496458998040, 594987705016401970, 844844483270917170000000⟩,
   ⟨585258599999999960, -900698392332826510, 557448208073501910, 797592771661394300000000⟩,
   ⟨541717000000000050, -838971625738016730, 522115422515020920, 751941844905589030000000⟩,
   ⟨501167699999999970, -781120519649722610, 488747695383921760, 709253952211122410000000⟩,
   ⟨463422200000000030, -726926345469747340, 460267942515753300, 609979337583450860000000⟩,
   ⟨428302799999999980, -676324706186295920, 432723261729276560, 589017239932976990000000⟩,
   ⟨395642000000000000, -628634750713870720, 411598643320939930, 562727419129577240000000⟩,
   ⟨365309600000000010, -583254430738305110, 384691632940544570, 541539636510820430000000⟩,
   ⟨337176299999999960, -540723720170419940, 352824994057105590, 560188187026175540000000⟩,
   ⟨311092200000000000, -501239809362013290, 328263100696716680, 525061730870766950000000⟩,
   ⟨286916499999999970, -464475536310810600, 305437489348828150, 491064737347763830000000⟩,
   ⟨264517699999999990, -430248801845819500, 284099045602132650, 458339826285092760000000⟩,
   ⟨243772799999999990, -398401348588467710, 264051085698837320, 429917721410421120000000⟩,
   ⟨224566599999999990, -368771857108006040, 245526738225165050, 399808078698892670000000⟩,
   ⟨206791799999999970, -341220622695247680, 227967335425077180, 375302369597920980000000⟩,
   ⟨190347600000000020, -315609121380755660, 211849014230409660, 349068267694067570000000⟩,
   ⟨175140400000000020, -291806207950009080, 196588233896063710, 326718502082238800000000⟩,
   ⟨161082400000000000, -269696995794785860, 182467739798068690, 304643521952885710000000⟩,
   ⟨148091800000000000, -249165395400332240, 169283834446464060, 283681471203610050000000⟩,
   ⟨136092200000000000, -230109400921658710, 156946054399971430, 265639280664134970000000⟩,
   ⟨125012300000000010, -212422500876680420, 145575827684434230, 246283796983366380000000⟩,
   ⟨114785900000000000, -196017789630861660, 134781426387801090, 230687324588737240000000⟩,
   ⟨105350800000000010, -180809492057665890, 124923864564834750, 214199531769587570000000⟩,
   ⟨96649410000000002, -166710609112910540, 115644999390308600, 199663657358029220000000⟩,
   ⟨88627950000000000, -153648631743694510, 107032965433032410, 185913388817105490000000⟩,
   ⟨81236339999999996, -141550984784262840, 99031051135191436, 172892891001303140000000⟩,
   ⟨74427979999999994, -130351182988234010, 91577079855154086, 160931598190521000000000⟩,
   ⟨68159479999999995, -119986488016289610, 84663228200285174, 149570642510169560000000⟩,
   ⟨62390509999999999, -110398385377434790, 78229041821952823, 139013314534868110000000⟩,
   ⟨57083539999999999, -101532881336228010, 72256169748459686, 129229139522041300000000⟩,
   ⟨52203690000000003, -93338045814966790, 66718978643352946, 119958753119666780000000⟩,
   ⟨47718580000000005, -85766457302233955, 64254683984527083, 57649241203049188000000⟩,
   ⟨43598100000000006, -78908619594758391, 61968783790333605, 53672162096652343000000⟩,
   ⟨39814300000000002, -72309200000000138, 0, 0⟩]
/-- `atm_data.akima_P`, aviary/subsystems/atmosphere/data/StandardAtm1976.py:1524-2215 -/
def standardPRows : List IRow :=
  standardPRows_0 ++ standardPRows_1 ++ standardPRows_2 ++ standardPRows_3 ++ standardPRows_4 ++ standardPRows_5 ++ standardPRows_6 ++ standardPRows_7 ++ standardPRows_8 ++ standardPRows_9 ++ standardPRows_10
/-- `atm_data.akima_P`, aviary/subsystems/atmosphere/data/StandardAtm1976.py:1524-2215, with the column exponents. -/
def standardP : CTab := ⟨17, 21, 25, 35, standardPRows⟩
/-- `atm_data.akima_rho`, aviary/subsystems/atmosphere/data/StandardAtm1976.py:2217-2908 (part 1) -/
def standardrhoRows_0 : List IRow :=
  [⟨19304660000000000000000, -1665599999999978600000, 0, 0⟩,
   ⟨19304660000000000000000, -1665599999999978600000, 559999999998517410000, -21684043449710090⟩,
   ⟨19221520000000001000000, -1659999999999994800000, 539259259259327410000, 4148148147783796100000000000⟩,
   ⟨19138660000000001000000, -1654296296296316400000, 558518518519140850000, -3851851851973536900000000000⟩,
   ⟨19056080000000000000000, -1649000000000022200000, 490566037737478090000, 5886792453285369100000000000⟩,
   ⟨18973760000000000000000, -1643652830188653200000, 591313893658171780000, -4149571184559019000000000000⟩,
   ⟨18891720000000001000000, -1638050909090911500000, 520363636352151340000, 1963636365228533000000000000⟩,
   ⟨18809950000000000000000, -1632699999999998400000, 540000000013381340000, -1799775606325937400⟩,
   ⟨18728450000000001000000, -1627299999999998200000, 539999999986655790000, 1799775606325937400⟩,
   ⟨18647220000000000000000, -1621899999999998500000, 540000000011104520000, -1344410693882025500⟩,
   ⟨18566260000000001000000, -1616499999999987300000, 529811320746677350000, 2037735849329258900000000000⟩,
   ⟨18485570000000000000000, -1611049056603821600000, 539622641512001060000, -1962264150386777800000000000⟩,
   ⟨18405149999999999000000, -1605799999999979800000, 520000000008133360000, -845677694538693510⟩,
   ⟨18324990000000001000000, -1600599999999961900000, 538461538450159060000, 4307692308240518600000000000⟩,
   ⟨18245100000000001000000, -1594892307692341700000, 567832167834461470000, -5874125874106607100000000000⟩,
   ⟨18165490000000000000000, -1589654545454553700000, 462587412591289260000, 5664335664358131600000000000⟩,
   ⟨18086130000000000000000, -1584603846153814800000, 571349782292856920000, -2116110305516380800000000000⟩,
   ⟨18007040000000001000000, -1579049056603800800000, 529811320746785710000, 1344410693882025500⟩,
   ⟨17928219999999999000000, -1573750943396232600000, 510188679258313660000, -1279358563532895200⟩,
   ⟨17849660000000001000000, -1568649056603744600000, 519622641497591560000, 2037735850239988400000000000⟩,
   ⟨17771360000000000000000, -1563300000000001000000, 550188679251082970000, -2037735850218304400000000000⟩,
   ⟨17693330000000000000000, -1557950943396256800000, 510188679239177500000, 1279358563532895200⟩,
   ⟨17615559999999999000000, -1552849056603769100000, 509034406229430110000, 4155382906149106900000000000⟩,
   ⟨17538050000000001000000, -1547447058823513600000, 549389567133459530000, -3995560486657647300000000000⟩,
   ⟨17460810000000000000000, -1542252830188678800000, 471328153912723710000, 3847576765395391200000000000⟩,
   ⟨17383820000000001000000, -1537250980392146100000, 550203477607525140000, -4001479835978246900000000000⟩,
   ⟨17307090000000001000000, -1532049056603770100000, 509034406222599590000, 4155382906604471400000000000⟩,
   ⟨17230620000000001000000, -1526647058823548700000, 539592760174362480000, -2036199094382872200000000000⟩,
   ⟨17154419999999999000000, -1521403846153883800000, 480769230776104220000, 0⟩,
   ⟨17078469999999999000000, -1516596153846123300000, 498461538465358640000, 4153846153002495500000000000⟩,
   ⟨17002770000000000000000, -1511299999999993200000, 560769230758444470000, -4153846152568814600000000000⟩,
   ⟨16927340000000000000000, -1506003846153852000000, 471342383114362300000, 1885369531871329800000000000⟩,
   ⟨16852160000000000000000, -1501149019607816600000, 509803921564509270000, 0⟩,
   ⟨16777230000000001000000, -1496050980392172400000, 530196078430019140000, 0⟩,
   ⟨16702560000000000000000, -1490749019607873000000, 509803921571068650000, 455364912443911830⟩,
   ⟨16628149999999999000000, -1485650980392128100000, 490196078437412450000, -1279358563532895200⟩,
   ⟨16553990000000001000000, -1480749019607850500000, 488995598224941660000, 4161664667848459500000000000⟩,
   ⟨16480079999999999000000, -1475546938775512700000, 538775510219532460000, -5877551022140728200000000000⟩,
   ⟨16406430000000001000000, -1470599999999978500000, 450612244885903680000, 5877551021620312000000000000⟩,
   ⟨16333020000000000000000, -1465653061224497900000, 551420568233507080000, -4161664666482365100000000000⟩,
   ⟨16259870000000001000000, -1460450980392148200000, 480392156861205940000, 1960784313539097700000000000⟩,
   ⟨16186970000000001000000, -1455500000000020700000, 499999999998711100000, 455364912443911830⟩,
   ⟨16114320000000000000000, -1450499999999998700000, 500000000005379000000, -433680868994201780⟩,
   ⟨16041920000000001000000, -1445499999999977400000, 499999999994374270000, 433680868994201780⟩,
   ⟨15969770000000001000000, -1440500000000000300000, 489795918367022520000, 2040816326370244200000000000⟩,
   ⟨15897870000000001000000, -1435448979591853100000, 499591836735865660000, -1959183673736105000000000000⟩,
   ⟨15826220000000000000000, -1430600000000025800000, 459999999999544950000, 4000000000605082500000000000⟩,
   ⟨15754809999999999000000, -1425699999999984900000, 529411764710904880000, -5882352942005071900000000000⟩,
   ⟨15683650000000000000000, -1420847058823524900000, 447759699616519500000, 8330413016907970300000000000⟩,
   ⟨15612729999999999000000, -1415744680851091600000, 548852732588759940000, -7983312474220579000000000000⟩,
   ⟨15542069999999999000000, -1410854901960770600000, 422794117648026920000, 5637254901920927900000000000⟩,
   ⟨15471640000000000000000, -1406204166666645700000, 520833333330457090000, 0⟩,
   ⟨15401460000000000000000, -1400995833333341900000, 498333333332433850000, -3833333333028676100000000000⟩,
   ⟨15331530000000000000000, -1396299999999995000000, 440833333336949500000, 3833333333028676100000000000⟩,
   ⟨15261830000000001000000, -1391604166666647800000, 520833333327963390000, 477048955893621980⟩,
   ⟨15192380000000001000000, -1386395833333331600000, 498333333334060090000, -3833333333830984700000000000⟩,
   ⟨15123180000000001000000, -1381700000000028900000, 419999999998481500000, 8000000000234382800000000000⟩,
   ⟨15054209999999999000000, -1376900000000026500000, 540000000007201390000, -8000000000299434400000000000⟩,
   ⟨14985489999999999000000, -1372099999999977200000, 419999999998969370000, 8000000000234382800000000000⟩,
   ⟨14917000000000000000000, -1367299999999970500000, 530612244893993730000, -6122448979522730200000000000⟩,
   ⟨14848760000000001000000, -1362453061224493900000, 431437255751364740000, 3834997829000285100000000000⟩,
   ⟨14780750000000000000000, -1357851063829803600000, 500425531918308110000, -2042553191774349000000000000⟩,
   ⟨14712980000000000000000, -1353000000000004400000, 469787234041692890000, 2042553191774349000000000000⟩,
   ⟨14645450000000000000000, -1348148936170205000000, 479574468087581260000, -1957446809199362000000000000⟩]
/-- `atm_data.akima_rho`, aviary/subsystems/atmosphere/data/StandardAtm1976.py:2217-2908 (part 2) -/
def standardrhoRows_1 : List IRow :=
  [⟨14578160000000000000000, -1343500000000019100000, 450212765951325590000, 1957446809676411000000000000⟩,
   ⟨14511099999999999000000, -1338851063829779600000, 490212765968706330000, -1387778780781445700⟩,
   ⟨14444280000000000000000, -1333948936170197400000, 479574468072673480000, -1957446807052641700000000000⟩,
   ⟨14377700000000000000000, -1329300000000000200000, 440000000010560010000, 3999999998328258200000000000⟩,
   ⟨14311350000000000000000, -1324600000000021000000, 490212765945992280000, -2042553189540892700000000000⟩,
   ⟨14245239999999999000000, -1319851063829775000000, 450212765972901190000, -2125036258071588600⟩,
   ⟨14179360000000001000000, -1315348936170204300000, 448907801400898010000, 4175886526760347700000000000⟩,
   ⟨14113709999999999000000, -1310546666666688300000, 498666666679415270000, -5866666667590261300000000000⟩,
   ⟨14048300000000000000000, -1305999999999964800000, 410666666662579800000, 5866666666527742100000000000⟩,
   ⟨13983110000000001000000, -1301453333333348300000, 521333333328079680000, -6133333332815523100000000000⟩,
   ⟨13918159999999999000000, -1296700000000027600000, 429333333342189380000, 6133333332381843000000000000⟩,
   ⟨13853439999999999000000, -1291946666666675700000, 489304964534692420000, -3994326239990104300000000000⟩,
   ⟨13788959999999999000000, -1287353191489327200000, 411498817975389370000, 3827895979466485300000000000⟩,
   ⟨13724700000000001000000, -1282951111111114700000, 470222222205074850000, 2320192649118979700⟩,
   ⟨13660669999999999000000, -1278248888888890500000, 468917257699587500000, -3827895982935932000000000000⟩,
   ⟨13596870000000001000000, -1273846808510614800000, 418723404243322620000, 6127659575214626200000000000⟩,
   ⟨13533290000000000000000, -1269200000000038900000, 510638297877776160000, -6127659574499052800000000000⟩,
   ⟨13469949999999999000000, -1264553191489348500000, 401276595749584940000, 5872340425039368900000000000⟩,
   ⟨13406830000000001000000, -1260099999999974700000, 479999999991457290000, -3999999999217303700000000000⟩,
   ⟨13343940000000001000000, -1255600000000001200000, 430222222226833810000, 1955555554511781600000000000⟩,
   ⟨13281270000000001000000, -1251151111111145000000, 470222222216458930000, 1387778780781445700⟩,
   ⟨13218829999999999000000, -1246448888888875500000, 449777777789298880000, -1322726650432315500⟩,
   ⟨13156620000000001000000, -1241951111111082000000, 430222222209486590000, 845677694538693510⟩,
   ⟨13094630000000000000000, -1237648888888923200000, 439555555559211800000, 2044444444271840800000000000⟩,
   ⟨13032859999999999000000, -1233100000000009300000, 470222222228059890000, -2044444445182571100000000000⟩,
   ⟨12971320000000000000000, -1228551111111117400000, 420444444438879240000, 1955555556723553900000000000⟩,
   ⟨12909999999999999000000, -1224199999999975200000, 440000000008201880000, -1322726650432315500⟩,
   ⟨12848900000000001000000, -1219799999999993300000, 439999999986138320000, 1767249541151372400⟩,
   ⟨12788020000000000000000, -1215399999999999900000, 449777777791657000000, -1955555557569231800000000000⟩,
   ⟨12727360000000001000000, -1211048888888901300000, 428857881123171570000, 4183979330140905000000000000⟩,
   ⟨12666919999999999000000, -1206446511627909300000, 469271317844017410000, -3993798451098953200000000000⟩,
   ⟨12606710000000001000000, -1202053333333300900000, 391565891461542170000, 3820155039676274700000000000⟩,
   ⟨12546710000000001000000, -1197851162790709500000, 460465116283547010000, -2046511628640401300000000000⟩,
   ⟨12486930000000001000000, -1193400000000022200000, 429767441858142240000, 2046511628672927100000000000⟩,
   ⟨12427370000000000000000, -1188948837209290100000, 439534883726720570000, -1953488372810358700000000000⟩,
   ⟨12368030000000001000000, -1184699999999983600000, 410232558132776300000, 1953488372333309700000000000⟩,
   ⟨12308900000000000000000, -1180451162790731100000, 450232558140345030000, 455364912443911830⟩,
   ⟨12249989999999999000000, -1175948837209293700000, 439534883728780580000, -1953488373222355600000000000⟩,
   ⟨12191300000000000000000, -1171699999999997600000, 399999999989248990000, 4000000001450760000000000000⟩,
   ⟨12132820000000000000000, -1167399999999996300000, 450232558149289670000, -2046511629106608100000000000⟩,
   ⟨12074560000000001000000, -1163051162790686300000, 410232558130553670000, 856519716263548590⟩,
   ⟨12016510000000000000000, -1158948837209316600000, 419534883726378600000, 2046511627295990500000000000⟩,
   ⟨11958670000000000000000, -1154600000000005500000, 450232558137932640000, -2046511627729671000000000000⟩,
   ⟨11901050000000000000000, -1150251162790705600000, 410232558141233070000, 10842021724855045⟩,
   ⟨11843640000000000000000, -1146148837209292600000, 408803176403369660000, 4192853091447828500000000000⟩,
   ⟨11786440000000000000000, -1141746341463400100000, 458536585365415900000, -5853658536917380800000000000⟩,
   ⟨11729460000000000000000, -1137600000000015300000, 359999999994121560000, 8000000001199322900000000000⟩,
   ⟨11672680000000000000000, -1133399999999983400000, 480000000011000090000, -8000000001925737700000000000⟩,
   ⟨11616120000000001000000, -1129200000000018100000, 359999999983279530000, 8000000002489522700000000000⟩,
   ⟨11559759999999999000000, -1124999999999998200000, 470697674438187330000, -6139534885986255600000000000⟩,
   ⟨11503620000000001000000, -1120753488372066000000, 371639251260229870000, 3811684629788456500000000000⟩,
   ⟨11447680000000000000000, -1116751219512229000000, 440487804886534020000, -2048780488555883500000000000⟩,
   ⟨11391950000000000000000, -1112500000000005200000, 409756097560418340000, 2048780488111360700000000000⟩,
   ⟨11336430000000000000000, -1108248780487793000000, 419512195122751420000, -1951219512461195600000000000⟩,
   ⟨11281120000000000000000, -1104199999999999600000, 390243902435860630000, 1951219512461195600000000000⟩,
   ⟨11226010000000000000000, -1100151219512206400000, 430243902441477710000, 0⟩,
   ⟨11171110000000000000000, -1095848780487791700000, 409756097562695160000, -444522890719056860⟩,
   ⟨11116420000000000000000, -1091751219512198000000, 390243902433909070000, 845677694538693510⟩,
   ⟨11061930000000000000000, -1087848780487795800000, 409756097567275920000, -889045781438113710⟩,
   ⟨11007640000000001000000, -1083751219512188800000, 419487804869696360000, 2151219512963077700000000000⟩,
   ⟨10953560000000000000000, -1079395000000019000000, 418000000005253350000, -3800000000547723600000000000⟩,
   ⟨10899690000000000000000, -1075500000000007000000, 350769230769395250000, 5846153846092439100000000000⟩,
   ⟨10846009999999999000000, -1071553846153856600000, 451782363976093790000, -4202626640876366600000000000⟩,
   ⟨10792539999999999000000, -1067351219512161800000, 380487804884369580000, 1951219510715630000000000000⟩]
/-- `atm_data.akima_rho`, aviary/subsystems/atmosphere/data/StandardAtm1976.py:2217-2908 (part 3) -/
def standardrhoRows_2 : List IRow :=
  [⟨10739270000000001000000, -1063400000000014400000, 409756097547570570000, -1951219510314475300000000000⟩,
   ⟨10686199999999999000000, -1059448780487812400000, 388742964369914270000, 4202626639965637500000000000⟩,
   ⟨10633330000000001000000, -1055246153846116600000, 429193245765207050000, -3992495308316468100000000000⟩,
   ⟨10580670000000001000000, -1051253658536588400000, 351719824894837230000, 3802376484550798800000000000⟩,
   ⟨10528200000000001000000, -1047451282051298400000, 420512820509309890000, -2051282050664384000000000000⟩,
   ⟨10475930000000000000000, -1043400000000005400000, 400000000006948590000, -878203759713258730⟩,
   ⟨10423860000000000000000, -1039400000000001200000, 389743589735628950000, 2051282052496685600000000000⟩,
   ⟨10371990000000000000000, -1035348717948707400000, 399487179495903400000, -1948717950265959000000000000⟩,
   ⟨10320320000000001000000, -1031500000000018000000, 370256410243838510000, 1948717950732165700000000000⟩,
   ⟨10268839999999999000000, -1027651282051274700000, 410256410274663300000, -2331034670843834300⟩,
   ⟨10217560000000001000000, -1023548717948703500000, 399487179470207860000, -1948717946807353700000000000⟩,
   ⟨10166480000000000000000, -1019700000000011700000, 360000000012200620000, 3999999998826990800000000000⟩,
   ⟨10115590000000001000000, -1015799999999977200000, 413231552155024600000, -2646310431832395600000000000⟩,
   ⟨10064900000000001000000, -1011866157760814700000, 366463104327228110000, 1353689567146383600000000000⟩,
   ⟨10014400000000001000000, -1008100000000006200000, 393012919895169260000, -202583979225148120000000000⟩,
   ⟨9964093000000000500000, -1004185064599496300000, 393012919898557390000, -227682456221955920⟩,
   ⟨9913982000000000100000, -1000254935400527800000, 382987080103848930000, 0⟩,
   ⟨9864064999999999600000, -996425064599489360000, 377033672691669430000, 795849441296431210000000000⟩,
   ⟨9814338999999999700000, -992595039164475840000, 387007832899877950000, -444522890719056860⟩,
   ⟨9764806000000000300000, -988724960835510670000, 380992167096710340000, 661363325216157750⟩,
   ⟨9715464999999999800000, -984915039164493700000, 375007750234856960000, 800016533174154760000000000⟩,
   ⟨9666314000000000300000, -981104960422157060000, 382992042876229460000, -399991689043702910000000000⟩,
   ⟨9617354000000000200000, -977305039370073860000, 374015748035613600000, 598425196082861430000000000⟩,
   ⟨9568583000000000500000, -973520000000010970000, 381002638517234580000, -200527703697692840000000000⟩,
   ⟨9520001999999999600000, -969725013192616630000, 373994638753241390000, 601599954553298840000000000⟩,
   ⟨9471610000000000300000, -965939946808492440000, 376986680959766140000, -199463852249351360000000000⟩,
   ⟨9423407000000000300000, -962185039787813890000, 369007872222821300000, 800017067393091270000000000⟩,
   ⟨9375390999999999600000, -958434959785530250000, 376991914213863170000, -399991421365028520000000000⟩,
   ⟨9327562999999999800000, -954695039999994400000, 368015999997354870000, 598400000341101090000000000⟩,
   ⟨9279920999999999900000, -950969999999995400000, 374000000000765880000, 0⟩,
   ⟨9232466000000000300000, -947229999999987880000, 369999999999537360000, -216840434497100890⟩,
   ⟨9185197000000000500000, -943530000000008900000, 365978260866709420000, 804347826560171440000000000⟩,
   ⟨9138112999999999900000, -939809891304349800000, 371978143365878460000, -399976498915901480000000000⟩,
   ⟨9091215000000000300000, -936120108108109570000, 361045968034302620000, 595130717124560430000000000⟩,
   ⟨9044499999999999800000, -932465013623982880000, 369002724800185580000, -444522890719056860⟩,
   ⟨8997969000000000100000, -928774986376014500000, 364986331227208530000, 402188795201735590000000000⟩,
   ⟨8951622000000000200000, -925094958904101880000, 363983561645319890000, -198356164718242770000000000⟩,
   ⟨8905458000000000500000, -921470000000002000000, 357999999996963180000, 800000000251120730000000000⟩,
   ⟨8859475000000000000000, -917830000000013950000, 368010989013864720000, -402197802428123950000000000⟩,
   ⟨8813674999999999700000, -914180054945058360000, 358021978022292740000, 397802197812154730000000000⟩,
   ⟨8768055999999999600000, -910569999999999520000, 359988888888135510000, 402222222455755910000000000⟩,
   ⟨8722617999999999800000, -906939944444433710000, 359988888890303930000, -433680868994201780⟩,
   ⟨8677361000000000100000, -903340055555563740000, 355019436703229390000, 198334881406758010000000000⟩,
   ⟨8632282999999999500000, -899774986072426070000, 356986025613231260000, 402237774902239300000000000⟩,
   ⟨8587384000000000100000, -896174957983175550000, 358991596635042490000, 227682456221955920⟩,
   ⟨8542665000000000400000, -892585042016808050000, 352016806721744440000, 198319327832704340000000000⟩,
   ⟨8498124000000000200000, -889050000000002470000, 352000000002425240000, 399999999561775180000000000⟩,
   ⟨8453760000000000200000, -885500000000011360000, 357002816898959670000, -200563379738807220000000000⟩,
   ⟨8409573999999999700000, -881945014084502170000, 349994270171043690000, 601709346454218310000000000⟩,
   ⟨8365565000000000400000, -878399943181808620000, 352985771306067740000, -199426989115278320000000000⟩,
   ⟨8321733000000000000000, -874885042492931860000, 346016997169296790000, 598300283188163390000000000⟩,
   ⟨8278075999999999800000, -871379999999999370000, 352000000001259740000, 0⟩,
   ⟨8234595000000000100000, -867859999999986910000, 347002865327863520000, 199426934211280320000000000⟩,
   ⟨8191289000000000500000, -864375014326642700000, 345002848814077680000, 400003302757166050000000000⟩,
   ⟨8148157000000000300000, -860894985590795140000, 347994236310131520000, -199423630799049060000000000⟩,
   ⟨8105198999999999600000, -857430000000003480000, 342991304352695800000, 601739129899893340000000000⟩,
   ⟨8062414000000000000000, -853954956521734300000, 347994169384825080000, -200573007735991440000000000⟩,
   ⟨8019802999999999800000, -850490057803466250000, 340023121390314080000, 397687860843442410000000000⟩,
   ⟨7977364000000000100000, -847059999999999580000, 342997084545263840000, 200583090718617350000000000⟩,
   ⟨7935096999999999800000, -843614985422743580000, 341994169098257310000, 200583090274094480000000000⟩,
   ⟨7893002000000000100000, -840179999999990320000, 339002932550494860000, 199413489627292550000000000⟩,
   ⟨7851078000000000200000, -836775014662762920000, 338005865101219980000, 199413489854975020000000000⟩,
   ⟨7809323999999999700000, -833380000000011320000, 338997050149944040000, 200589970393398600000000000⟩,
   ⟨7767739999999999600000, -829974985250731430000, 338997050147829850000, 0⟩]
/-- `atm_data.akima_rho`, aviary/subsystems/atmosphere/data/StandardAtm1976.py:2217-2908 (part 4) -/
def standardrhoRows_3 : List IRow :=
  [⟨7726326000000000000000, -826585014749253400000, 335002932343999780000, 400003501534792340000000000⟩,
   ⟨7685081000000000300000, -823204985163198160000, 336997032641185900000, -216840434497100890⟩,
   ⟨7644005000000000400000, -819835014836802970000, 331993958668661230000, 601801737891601070000000000⟩,
   ⟨7603096999999999800000, -816469940119774220000, 335976047907173010000, -397604790649923340000000000⟩,
   ⟨7562356999999999600000, -813140000000001090000, 327999999999445280000, 800000000251120730000000000⟩,
   ⟨7521782999999999700000, -809799999999988210000, 338011976048742760000, -402395209807195800000000000⟩,
   ⟨7481377000000000200000, -806450059880237000000, 327020930944367970000, 598209020383558290000000000⟩,
   ⟨7441136999999999900000, -803134984894264560000, 329993957706752670000, 200604229278270030000000000⟩,
   ⟨7401062999999999900000, -799820000000001160000, 328990936554777660000, -198187311071899860000000000⟩,
   ⟨7361153999999999800000, -796544954682783510000, 324966582592887870000, 804870792822480460000000000⟩,
   ⟨7321408999999999800000, -793234923547392670000, 332996774583468890000, -402413020657646490000000000⟩,
   ⟨7281830000000000200000, -789935136778107310000, 321051653140978530000, 395140496180484290000000000⟩,
   ⟨7242414000000000400000, -786694984709483980000, 324984653022724590000, 402457774647656970000000000⟩,
   ⟨7203161000000000100000, -783414953846157760000, 327993808400752120000, -200607833784286640000000000⟩,
   ⟨7164072000000000200000, -780150061349683920000, 319021443903003830000, 598165206993142640000000000⟩,
   ⟨7125145000000000500000, -776914984520129670000, 323993808046697120000, -199380804628921530000000000⟩,
   ⟨7086379999999999900000, -773690000000010140000, 318990654208614920000, 601869158786856570000000000⟩,
   ⟨7047776000000000000000, -770454953271014570000, 324990596336816340000, -399988426495051500000000000⟩,
   ⟨7009334000000000400000, -767235046439633530000, 315009171458974830000, 800023293077122040000000000⟩,
   ⟨6971051999999999800000, -764024952978063410000, 321993691227378100000, -200619122811725180000000000⟩,
   ⟨6932931000000000000000, -760820062500000910000, 314024999996821040000, 397500000449968450000000000⟩,
   ⟨6894968999999999700000, -757649999999998680000, 316996845428862940000, 200630914496974950000000000⟩,
   ⟨6857166000000000100000, -754464984227122510000, 317993690848630390000, -199369084837117840000000000⟩,
   ⟨6819522000000000100000, -751299999999999260000, 311974522294178210000, 805095541199941240000000000⟩,
   ⟨6782036000000000200000, -748119872611467210000, 318964817456362280000, -598059032863324630000000000⟩,
   ⟨6744708999999999800000, -744975078864367530000, 306031545741164520000, 996845426234731370000000000⟩,
   ⟨6707537999999999600000, -741839999999988000000, 318012738857026670000, -402547771147492750000000000⟩,
   ⟨6670525000000000500000, -738690063694253940000, 307022262266827520000, 598095316675650810000000000⟩,
   ⟨6633668000000000300000, -735574983922834580000, 311993569135268220000, -199356913746159840000000000⟩,
   ⟨6596967000000000200000, -732470000000012860000, 306990291259280410000, 601941748149762530000000000⟩,
   ⟨6560420999999999600000, -729354951456308820000, 312990228831610120000, -399987513553454170000000000⟩,
   ⟨6524031000000000100000, -726255048231509230000, 303009520612461710000, 800025137402595640000000000⟩,
   ⟨6487794999999999500000, -723164951140079690000, 309993443042469870000, -200643005324446090000000000⟩,
   ⟨6451713999999999500000, -720080064935054600000, 302025974026923170000, 397402597190465340000000000⟩,
   ⟨6415786000000000000000, -717029999999996350000, 305999999996632320000, 433680868994201780⟩,
   ⟨6380010999999999900000, -713969999999997100000, 304996721314115320000, 200655737381608150000000000⟩,
   ⟨6344389000000000300000, -710904983606552460000, 302983541631017330000, 402635935735969760000000000⟩,
   ⟨6308920000000000100000, -707844950495061950000, 301980198019562450000, -198019801651936470000000000⟩,
   ⟨6273602999999999800000, -704839999999990090000, 297009966780968440000, 598006643975825630000000000⟩,
   ⟨6238436000000000500000, -701825049833881810000, 305009966772258150000, 455364912443911830⟩,
   ⟨6203421000000000100000, -698774950166125480000, 299980066448317580000, -198006644641732950000000000⟩,
   ⟨6168557000000000100000, -695789999999990710000, 292983164983307760000, 1003367003284821900000000000⟩,
   ⟨6133842000000000500000, -692784915824911540000, 303992996630587630000, -601966329864464510000000000⟩,
   ⟨6099278000000000200000, -689790133333345500000, 291056700337785420000, 593993265901940360000000000⟩,
   ⟨6064861999999999800000, -686835016835024730000, 297993220493955650000, 202029302152646090000000000⟩,
   ⟨6030594999999999700000, -683839932432423450000, 296983073984357960000, -199317499657847300000000000⟩,
   ⟨5996477000000000100000, -680885050505053800000, 290020202016368900000, 597979798544565740000000000⟩,
   ⟨5962505999999999600000, -677939999999999140000, 296000000005202690000, -661363325216157750⟩,
   ⟨5928683000000000100000, -674979999999997390000, 291999999995110850000, 661363325216157750⟩,
   ⟨5895006999999999900000, -672059999999996540000, 288989690726054390000, 602061855134016650000000000⟩,
   ⟨5861477000000000500000, -669124948453601080000, 293993080068623610000, -200677869807708300000000000⟩,
   ⟨5828094000000000300000, -666200068493150830000, 286027397264067260000, 397260273320761840000000000⟩,
   ⟨5794856000000000500000, -663310000000011370000, 288996539787872290000, 200692042314192670000000000⟩,
   ⟨5761762999999999700000, -660404982698959090000, 289993079591918240000, -199307959470197000000000000⟩,
   ⟨5728815000000000400000, -657520000000000300000, 283972027963474160000, 805594406743000070000000000⟩,
   ⟨5696010999999999700000, -654619860139860240000, 290961356989931080000, -597865803034485680000000000⟩,
   ⟨5663352000000000400000, -651755086505188790000, 278034602069785000000, 996539792949124170000000000⟩,
   ⟨5630834999999999600000, -648900000000019080000, 291010452966266030000, -602090592476383540000000000⟩,
   ⟨5598461999999999600000, -646035052264792150000, 279010305217510230000, 800029548804394960000000000⟩,
   ⟨5566231000000000400000, -643184946996456990000, 286989324897832700000, -399985121380622870000000000⟩,
   ⟨5534143000000000300000, -640345052631582210000, 277010376477913360000, 800029967740114510000000000⟩,
   ⟨5502196000000000300000, -637514946619222290000, 284989248391264650000, -399984909592570500000000000⟩,
   ⟨5470391000000000000000, -634695053003529770000, 275010448729304380000, 800030395642185950000000000⟩,
   ⟨5438726000000000400000, -631884946236563560000, 283978494618512220000, -597849461614081300000000000⟩]
/-- `atm_data.akima_rho`, aviary/subsystems/atmosphere/data/StandardAtm1976.py:2217-2908 (part 5) -/
def standardrhoRows_4 : List IRow :=
  [⟨5407201999999999800000, -629089999999998820000, 272981949463581380000, 1003610107779689900000000000⟩,
   ⟨5375817000000000500000, -626284909747279800000, 283992470341407810000, -602104177301922290000000000⟩,
   ⟨5344573000000000200000, -623490142857163770000, 270057142857146430000, 794285714522495460000000000⟩,
   ⟨5313466999999999500000, -620730000000002710000, 280000000004788160000, -400000000461663070000000000⟩,
   ⟨5282500000000000000000, -617959999999989730000, 271970802915335830000, 805839416528030100000000000⟩,
   ⟨5251671000000000000000, -615179854014597040000, 278959656382828820000, -597770692591526670000000000⟩,
   ⟨5220981000000000100000, -612435090252713110000, 266036101080662170000, 996389892056644250000000000⟩,
   ⟨5190426999999999700000, -609700000000001840000, 278014598543646430000, -402919708480855470000000000⟩,
   ⟨5160010999999999900000, -606950072992701370000, 268029197076957780000, 397080292420786570000000000⟩,
   ⟨5129730999999999600000, -604240000000000300000, 270996309967018220000, 200738006832191740000000000⟩,
   ⟨5099586999999999900000, -601514981549818040000, 270996309959225510000, 672205346941012730⟩,
   ⟨5069578999999999600000, -598805018450175570000, 268007380078147990000, 199261992073641180000000000⟩,
   ⟨5039706000000000500000, -596109999999988640000, 267985074621810770000, 402985074970203490000000000⟩,
   ⟨5009968000000000200000, -593399925373147770000, 268981301671720970000, -199245408653890920000000000⟩,
   ⟨4980364999999999900000, -590725055762079260000, 262022304834674560000, 597769516411063020000000000⟩,
   ⟨4950895000000000200000, -588060000000001350000, 269003745315534000000, -200749063341632360000000000⟩,
   ⟨4921558999999999800000, -585385018726596700000, 264007490639262740000, 199250936117143640000000000⟩,
   ⟨4892355999999999900000, -582729999999995220000, 263984848483588520000, 403030303152297080000000000⟩,
   ⟨4863286000000000000000, -580059924242423180000, 264981017724801100000, -199233848028387170000000000⟩,
   ⟨4834349000000000000000, -577425056603777230000, 257011147255652460000, 800034699876021620000000000⟩,
   ⟨4805542999999999900000, -574794942528730270000, 265977011496321730000, -597701149771673340000000000⟩,
   ⟨4776869000000000300000, -572179999999999860000, 255999999996807270000, 800000000359540860000000000⟩,
   ⟨4748324999999999900000, -569560000000005100000, 265011494255469780000, -202298850804708020000000000⟩,
   ⟨4719913000000000000000, -566925057471260280000, 256022988504782240000, 197701149429272580000000000⟩,
   ⟨4691631000000000000000, -564350000000005130000, 255999999999572000000, 400000000120139310000000000⟩,
   ⟨4663477999999999800000, -561760000000000060000, 261003861005255040000, -200772200888198530000000000⟩,
   ⟨4635455000000000000000, -559165019305014190000, 253992097006745830000, 602352799236594040000000000⟩,
   ⟨4607561000000000000000, -556579921875003780000, 257968749999660590000, -396874999899522760000000000⟩,
   ⟨4579795999999999900000, -554029999999999840000, 250000000001103840000, 799999999909597020000000000⟩,
   ⟨4552158000000000000000, -551469999999995520000, 260015624999138850000, -403125000010074260000000000⟩,
   ⟨4524649000000000000000, -548900078125005020000, 249027297430826240000, 597665513846039300000000000⟩,
   ⟨4497266999999999800000, -546364980237158370000, 253992094862315910000, -199209486065202540000000000⟩,
   ⟨4470011999999999900000, -543839999999989970000, 248988047809871100000, 602390437922165010000000000⟩,
   ⟨4442883000000000200000, -541304940239046960000, 253991968629619180000, -200784164381545550000000000⟩,
   ⟨4415880999999999800000, -538780079365079110000, 247027761972841640000, 197622208923881410000000000⟩,
   ⟨4389004000000000200000, -536294980079681740000, 248979983674641820000, 403206451988482800000000000⟩,
   ⟨4362251999999999800000, -533774939759036260000, 251991903619443070000, -200790362120265360000000000⟩,
   ⟨4335626000000000200000, -531270080000000510000, 244031999995433390000, 396800000561185740000000000⟩,
   ⟨4309123999999999700000, -528800000000004220000, 246995951421307170000, 200809716159036330000000000⟩,
   ⟨4282746000000000100000, -526314979757078950000, 246995951414124300000, 330681662608078870⟩,
   ⟨4256492000000000100000, -523845020242912770000, 244008097167447130000, 199190283185898510000000000⟩,
   ⟨4230361000000000300000, -521389999999999360000, 243983606555475470000, 403278688763421320000000000⟩,
   ⟨4204353000000000100000, -518919918032787280000, 245967213116762890000, -396721311812960060000000000⟩,
   ⟨4178468000000000200000, -516490000000005490000, 236979253109945360000, 1004149377959850300000000000⟩,
   ⟨4152703999999999800000, -514044896265559180000, 248978914390088350000, -799932255309519770000000000⟩,
   ⟨4127063000000000300000, -511615102040806780000, 234040816324480150000, 995918367360185850000000000⟩,
   ⟨4101542000000000200000, -509200000000009760000, 246016528924941020000, -403305784911012550000000000⟩,
   ⟨4076142999999999800000, -506770082644628810000, 236033057854077600000, 396694214559482530000000000⟩,
   ⟨4050864000000000100000, -504379999999995940000, 238995815897020930000, 200836820313460630000000000⟩,
   ⟨4025705000000000000000, -501974979079502360000, 238995815900883410000, -113841228110977960⟩,
   ⟨4000665999999999900000, -499585020920501720000, 236008368200381550000, 199163180034361150000000000⟩,
   ⟨3975746000000000000000, -497209999999995130000, 236995780591436460000, 200843881640894890000000000⟩,
   ⟨3950945000000000200000, -494824978902957970000, 235991561179328860000, 200843882199259000000000000⟩,
   ⟨3926262999999999800000, -492449999999999730000, 234000000002817020000, -325260651745651340⟩,
   ⟨3901699000000000100000, -490109999999996360000, 231999999997811760000, 400000000120139310000000000⟩,
   ⟨3877251999999999900000, -487760000000009370000, 236000000000666550000, 113841228110977960⟩,
   ⟨3852922999999999800000, -485399999999994030000, 232000000001633580000, -216840434497100890⟩,
   ⟨3828711000000000200000, -483079999999994090000, 228987012984173270000, 602597402836122010000000000⟩,
   ⟨3804615000000000100000, -480744935064939650000, 234986901511736760000, -399977704819767830000000000⟩,
   ⟨3780636000000000000000, -478425064377684240000, 226025751073373330000, 597424892607827140000000000⟩,
   ⟨3756771999999999900000, -476120000000004920000, 231999999999451610000, 222261445359528430⟩,
   ⟨3733023999999999800000, -473799999999993600000, 228000000001543480000, -222261445359528430⟩,
   ⟨3709391000000000200000, -471519999999994770000, 225999999997635960000, 400000000120139310000000000⟩,
   ⟨3685872000000000000000, -469230000000009400000, 450092575101282270000, -44018515020044456000000000000⟩]
/-- `atm_data.akima_rho`, aviary/subsystems/atmosphere/data/StandardAtm1976.py:2217-2908 (part 6) -/
def standardrhoRows_5 : List IRow :=
  [⟨3662467999999999800000, -468030462875499770000, 5112324560404757900000, -933246397060718480000000000000⟩,
   ⟨3639178000000000100000, -486900697051006220000, -17313223951024083000000, 906729365612449590000000000000⟩,
   ⟨3582241999999999900000, -561146366387752920000, -306989129751643120000, 37662576852681069000000000000⟩,
   ⟨3526196999999999800000, -555987375926981530000, 425237779490423270000, 649981320787027250000000000⟩,
   ⟨3471029999999999900000, -547287625940936830000, 417032247010901510000, 673034708272414490000000000⟩,
   ⟨3416724999999999900000, -538745070588236940000, 411243920160572560000, 726313866306906590000000000⟩,
   ⟨3363268999999999800000, -530302298025133550000, 406730071976766450000, 549973053674769630000000000⟩,
   ⟨3310651000000000000000, -522002704669495650000, 396779352676111660000, 749111427338251820000000000⟩,
   ⟨3258854999999999900000, -513842384187771810000, 393484982917515100000, 575343585959759810000000000⟩,
   ⟨3207869999999999900000, -505800081453633380000, 385769950816052950000, 623819454737841490000000000⟩,
   ⟨3157682000000000000000, -497897536600890900000, 380245184255737630000, 650847583325616500000000000⟩,
   ⟨3108278999999999900000, -490097378640778190000, 375238039383271250000, 549982469452931010000000000⟩,
   ⟨3059649999999999900000, -482427623112277220000, 367524622455691920000, 623768877220135830000000000⟩,
   ⟨3011781000000000000000, -474889999999997280000, 362991858887415750000, 600814111236338630000000000⟩,
   ⟨2964661000000000100000, -467449918588877860000, 357491982237152590000, 549987665024280500000000000⟩,
   ⟨2918278999999999700000, -460135082644627050000, 350770202824242890000, 573806163897000180000000000⟩,
   ⟨2872622000000000200000, -452947536738973430000, 345745070214872950000, 600860368239557710000000000⟩,
   ⟨2827679000000000200000, -445852377224203970000, 341491317855841020000, 474640456419542890000000000⟩,
   ⟨2783439999999999800000, -438880158730161280000, 334024403888259960000, 599146912794591270000000000⟩,
   ⟨2739891999999999900000, -432019926578557840000, 330985315712001570000, 500734214404780900000000000⟩,
   ⟨2697026000000000100000, -425249999999996450000, 324499999999891630000, 549999999988331100000000000⟩,
   ⟨2654831000000000300000, -418595000000002180000, 319507692307439540000, 499230769244530340000000000⟩,
   ⟨2613296000000000000000, -412055076923079690000, 314261670776867910000, 524602153112051210000000000⟩,
   ⟨2572410000000000000000, -405612462861608650000, 310492572322037240000, 475371383892224510000000000⟩,
   ⟨2532164000000000100000, -399259999999999900000, 304999999999828530000, 500000000006517370000000000⟩,
   ⟨2492548000000000000000, -393010000000001310000, 300000000000163160000, 499999999994320190000000000⟩,
   ⟨2453552000000000000000, -386859999999999950000, 295507487520759810000, 449251247926782760000000000⟩,
   ⟨2415166000000000000000, -380815074875206860000, 290252908995882310000, 525457852488424980000000000⟩,
   ⟨2377380000000000000000, -374852379339543020000, 287238099668073330000, 399983428610349930000000000⟩,
   ⟨2340185999999999900000, -368987622317598250000, 280770751729093150000, 499148003066721440000000000⟩,
   ⟨2303572999999999900000, -363222462882096370000, 277992576419226970000, 425371179044989290000000000⟩,
   ⟨2267532999999999900000, -357534999999998330000, 273253825382528640000, 424617461745641280000000000⟩,
   ⟨2232057000000000100000, -351942538253823930000, 268499409006721140000, 475441637569232330000000000⟩,
   ⟨2197136000000000100000, -346429917582418670000, 265245354923550950000, 374640331824165270000000000⟩,
   ⟨2162762000000000000000, -341012618384400400000, 259261614439589860000, 500022400054371370000000000⟩,
   ⟨2128925000000000100000, -335677379375591950000, 257491200788459710000, 324673677053438230000000000⟩,
   ⟨2095617999999999900000, -330430153256706660000, 251269675731528840000, 474564993918169300000000000⟩,
   ⟨2062831000000000000000, -325262390243900630000, 249478048780456030000, 376097560972170340000000000⟩,
   ⟨2030558000000000100000, -320159999999999860000, 244261306532469030000, 373869346745813690000000000⟩,
   ⟨1998790000000000000000, -315162613065327080000, 240015455601274030000, 424585093147279730000000000⟩,
   ⟨1967518000000000000000, -310234928425357610000, 237731271779693730000, 376157075603620420000000000⟩,
   ⟨1936736000000000000000, -305367455867082650000, 233253028000234010000, 349255870797930880000000000⟩,
   ⟨1906436000000000000000, -300597618545838530000, 228770225780611310000, 399162880319984020000000000⟩,
   ⟨1876608999999999900000, -295902465166130480000, 226484318629340760000, 376219798377101600000000000⟩,
   ⟨1847249000000000000000, -291259912854030660000, 222998023344555610000, 299326205847590240000000000⟩,
   ⟨1818348999999999900000, -286710154525385380000, 217769937698417160000, 424551484028509360000000000⟩,
   ⟨1789900000000000100000, -282227390326208480000, 216732341182257210000, 300669143852720730000000000⟩,
   ⟨1761897000000000000000, -277802542759407390000, 211762317814398300000, 349195812639668790000000000⟩,
   ⟨1734332000000000100000, -273462537659327690000, 208499277148499720000, 375448878422708720000000000⟩,
   ⟨1707198000000000000000, -269179917452830980000, 206245139311577870000, 274660597147517800000000000⟩,
   ⟨1680489000000000000000, -264972616487455040000, 201515998221005640000, 374565052451992560000000000⟩,
   ⟨1654197000000000000000, -260829927007299390000, 199985401459780170000, 300729927008844040000000000⟩,
   ⟨1628317000000000000000, -256740000000001140000, 195754077791797150000, 324592220822924260000000000⟩,
   ⟨1602841999999999900000, -252727540777918150000, 192761658768140850000, 299241902365968420000000000⟩,
   ⟨1577764999999999900000, -248782535031845640000, 189999234348829620000, 325426883589208540000000000⟩,
   ⟨1553080000000000000000, -244884922279792350000, 187738726654785260000, 275350132435516280000000000⟩,
   ⟨1528781999999999900000, -241047542706966130000, 183762212955127470000, 299205774148851220000000000⟩,
   ⟨1504863999999999900000, -237282536715618930000, 180999190950317890000, 325448061178784130000000000⟩,
   ⟨1481320000000000100000, -233564918478258930000, 178991960114794950000, 249988771110415990000000000⟩,
   ⟨1458145000000000100000, -229910082644630040000, 174762671983081920000, 324559247978363220000000000⟩,
   ⟨1435332000000000000000, -226317461430574930000, 173246197921810790000, 249994513582479230000000000⟩,
   ⟨1412876000000000100000, -222777539118064210000, 170007823612848000000, 274608819352955040000000000⟩,
   ⟨1390771000000000100000, -219295000000001260000, 167745961820885320000, 275403817915649970000000000⟩,
   ⟨1369012000000000000000, -215857459618208830000, 164991923641796590000, 275403817908873690000000000⟩]
/-- `atm_data.akima_rho`, aviary/subsystems/atmosphere/data/StandardAtm1976.py:2217-2908 (part 7) -/
def standardrhoRows_6 : List IRow :=
  [⟨1347594000000000000000, -212475000000000200000, 162007575757522260000, 249242424243186380000000000⟩,
   ⟨1326510999999999900000, -209160075757577030000, 159261684643043530000, 274589111461765840000000000⟩,
   ⟨1305756999999999900000, -205892465331277800000, 157993066255952240000, 225346687196656330000000000⟩,
   ⟨1285328000000000000000, -202664999999999830000, 154745627980625290000, 275437201926266640000000000⟩,
   ⟨1265218999999999900000, -199487456279809510000, 152499320478255870000, 224630750277938920000000000⟩,
   ⟨1245425000000000000000, -196370080645161180000, 149262434450762440000, 274563006529747660000000000⟩,
   ⟨1225939999999999900000, -193302463054186970000, 147992610837641250000, 225369458116869740000000000⟩,
   ⟨1206760000000000100000, -190274999999999160000, 145253807106404220000, 224619289350245940000000000⟩,
   ⟨1187880000000000000000, -187302538071066030000, 143007614213281250000, 224619289333305270000000000⟩,
   ⟨1169295000000000100000, -184375000000000520000, 140991258741185430000, 250874125878023820000000000⟩,
   ⟨1151001000000000000000, -181479912587413470000, 138991382730853200000, 199987601046775730000000000⟩,
   ⟨1132993999999999900000, -178640088652482300000, 135770883649586160000, 223798159865173950000000000⟩,
   ⟨1115268000000000000000, -175857531531531030000, 134243920985212390000, 250923216794631210000000000⟩,
   ⟨1097819000000000000000, -173097376146788220000, 133237752548846440000, 149986213000900530000000000⟩,
   ⟨1080644000000000000000, -170387625231910990000, 129017470624608870000, 274505256645364660000000000⟩,
   ⟨1063737000000000000000, -167724924242425100000, 128739167102887850000, 175325713958074150000000000⟩,
   ⟨1047095000000000000000, -165097543186179990000, 125660802667352090000, 209351595072484760000000000⟩,
   ⟨1030713000000000000000, -162521521654311300000, 124101317380701300000, 205084805036368010000000000⟩,
   ⟨1014587000000000000000, -159977969865186200000, 122544797987162550000, 185218853152897950000000000⟩,
   ⟨998713600000000060000, -157471508249497080000, 120152447445199780000, 199837750441625310000000000⟩,
   ⟨983088599999999980000, -155008507975460430000, 118352363683822080000, 189843386228172790000000000⟩,
   ⟨967708000000000040000, -152584507685915530000, 116499932453369120000, 195083613816981700000000000⟩,
   ⟨952568000000000030000, -150195983952703060000, 114849169451836270000, 174922581847318690000000000⟩,
   ⟨937665000000000030000, -147846523789112200000, 112728597439047740000, 192378147220785580000000000⟩,
   ⟨922995000000000070000, -145534238396164930000, 111298475693035330000, 172536392337784370000000000⟩,
   ⟨908554599999999990000, -143256507964602820000, 97821513634001346000, 1332928282623031200000000000⟩,
   ⟨894340099999999940000, -140900199207135800000, 282355778379928500000, -18443585766633142000000000000⟩,
   ⟨880347999999999960000, -140786159369527080000, -284408498461044610000, 19322443541376873000000000000⟩,
   ⟨866178199999999980000, -140677596276334880000, 147493826757581300000, -1513419912407861600000000000⟩,
   ⟨852242799999999990000, -138181745714905650000, 111375416971868740000, 189915451867558150000000000⟩,
   ⟨838537899999999970000, -135897262739908020000, 109326251102937790000, 200002288783411930000000000⟩,
   ⟨825059499999999950000, -133650737031214240000, 107674546165456500000, 179915695607026650000000000⟩,
   ⟨811803900000000050000, -131443271399222970000, 105578007476549040000, 194913244573231040000000000⟩,
   ⟨798767100000000040000, -129273237276320000000, 104073748672698800000, 174997895920059570000000000⟩,
   ⟨785945599999999940000, -127139262934089940000, 102102586817965440000, 182370659104598110000000000⟩,
   ⟨773335599999999960000, -125042499999999250000, 100499999999976420000, 174999999997673210000000000⟩,
   ⟨760933599999999990000, -122980000000000340000, 98749999999926852000, 175000000005127100000000000⟩,
   ⟨748736099999999930000, -120952500000000280000, 97076271186550005000, 167372881351067690000000000⟩,
   ⟨736739599999999970000, -118960762711863910000, 95377124097390575000, 169914708902051380000000000⟩,
   ⟨724940599999999990000, -117002245817245430000, 93899163449176165000, 162541827539476090000000000⟩,
   ⟨713335900000000020000, -115075499999999980000, 92225432756282343000, 162456724368966580000000000⟩,
   ⟨701922200000000000000, -113182254327563660000, 90651705165978937000, 157372759037455320000000000⟩,
   ⟨690696199999999980000, -111322008396532860000, 89126259080685166000, 157458057262373100000000000⟩,
   ⟨679654700000000000000, -109492245797740560000, 87724586838572845000, 149999293544696550000000000⟩,
   ⟨668794699999999960000, -107692754272905720000, 86125419736603462000, 155000755398552390000000000⟩,
   ⟨658113099999999980000, -105923745651554150000, 84750811470175277000, 142375368521977420000000000⟩,
   ⟨647606899999999960000, -104186016811594070000, 83177100884844337000, 152458027461032550000000000⟩,
   ⟨637273000000000010000, -102476737385658870000, 82023758990917812000, 134997957498250700000000000⟩,
   ⟨627108700000000020000, -100795762818591040000, 80427144127027310000, 144913773203673260000000000⟩,
   ⟨617110999999999980000, -99143745804089374000, 79199160817886904000, 137541959105999630000000000⟩,
   ⟨607277199999999990000, -97518499999999836000, 77826254338868311000, 132374566112059140000000000⟩,
   ⟨597604500000000000000, -95922262543388801000, 76426231774527553000, 140002256437463790000000000⟩,
   ⟨588090100000000020000, -94351737230967011000, 75349143321279608000, 122457977538538930000000000⟩,
   ⟨578731499999999980000, -92808016971279857000, 73852563691129141000, 134913343684763460000000000⟩,
   ⟨569525899999999970000, -91290491694351845000, 72798338870448400000, 125083056476941630000000000⟩,
   ⟨560470900000000010000, -89796999999999811000, 71501648351608589000, 119835164836108960000000000⟩,
   ⟨551563900000000000000, -88331016483516807000, 70201618381613247000, 130002997006140350000000000⟩,
   ⟨542802299999999990000, -86887983216782751000, 69272948862912313000, 112537281540643570000000000⟩,
   ⟨534183900000000030000, -85468763055062294000, 67878017589860193000, 119828791630787170000000000⟩,
   ⟨525706099999999970000, -84075254065775905000, 66824516722623648000, 120088985496480830000000000⟩,
   ⟨517366599999999970000, -82702737035674437000, 65799126118524337000, 107457744895824860000000000⟩,
   ⟨509163200000000010000, -81354517189835118000, 64478029066351266000, 117368991717388410000000000⟩,
   ⟨501093400000000020000, -80029745910992927000, 63599182198539770000, 107540890073105000000000000⟩,
   ⟨493155100000000000000, -78725500000000234000, 62475422729102068000, 107457727091192310000000000⟩]
/-- `atm_data.akima_rho`, aviary/subsystems/atmosphere/data/StandardAtm1976.py:2217-2908 (part 8) -/
def standardrhoRows_7 : List IRow :=
  [⟨485346099999999990000, -77443754227290869000, 61400845458104592000, 107457727096274520000000000⟩,
   ⟨477664199999999970000, -76183499999999870000, 60400000000035877000, 104999999998705580000000000⟩,
   ⟨470107300000000010000, -74943999999999532000, 59400827129819178000, 99917287015232419000000000⟩,
   ⟨462673300000000020000, -73726008271298595000, 58350812508869465000, 105001462098528840000000000⟩,
   ⟨455360100000000020000, -72527491582491664000, 57499171930311895000, 94998631885297396000000000⟩,
   ⟨448165800000000020000, -71349008554319820000, 56401710863998658000, 99914456798295965000000000⟩,
   ⟨441088300000000020000, -70191000000000350000, 55549999999973571000, 95000000002071775000000000⟩,
   ⟨434125699999999980000, -69051500000000257000, 54600000000054498000, 94999999998683649000000000⟩,
   ⟨427276099999999990000, -67930999999999545000, 53700823421748857000, 89917657823873123000000000⟩,
   ⟨420537600000000030000, -66830008234217414000, 52725354342353570000, 97546907939613152000000000⟩,
   ⟨413908300000000030000, -65746237074988434000, 52024483555599905000, 79922394322316790000000000⟩,
   ⟨407386500000000010000, -64681770685579783000, 50902499350899990000, 97456920703776736000000000⟩,
   ⟨400970199999999970000, -63634483622350667000, 50373008088776572000, 77535414632347830000000000⟩,
   ⟨394657900000000010000, -62603762836185397000, 49277156585045901000, 89912703349610094000000000⟩,
   ⟨388447700000000010000, -61591245893479639000, 48599178695857084000, 82541065208292864000000000⟩,
   ⟨382337999999999980000, -60594500000000009000, 47725424601183635000, 82457539883134218000000000⟩,
   ⟨376327100000000000000, -59615254246011388000, 46926254749050802000, 79916985206338038000000000⟩,
   ⟨370413299999999970000, -58652754055468470000, 46175398640286172000, 80000690657626903000000000⟩,
   ⟨364594999999999990000, -57705245875465459000, 45449175093100567000, 77541245345931764000000000⟩,
   ⟨358870700000000000000, -56772999999999710000, 44650825082528534000, 74917491746090269000000000⟩,
   ⟨353238800000000020000, -55857508250825304000, 43876244457069489000, 77458062542431664000000000⟩,
   ⟨347697699999999980000, -54956745942921143000, 43249188584301103000, 72540570783789386000000000⟩,
   ⟨342246000000000010000, -54070000000000001000, 42449999999933839000, 75000000003891403000000000⟩,
   ⟨336882199999999980000, -53198500000000216000, 41776190476249770000, 67380952378486430000000000⟩,
   ⟨331604799999999990000, -52342761904761700000, 41000704305638414000, 77548617054189959000000000⟩,
   ⟨326412300000000000000, -51499483233532658000, 40548347800167477000, 59997555311596298000000000⟩,
   ⟨321303500000000020000, -50670517010935846000, 39602597731624291000, 74910336192339305000000000⟩,
   ⟨316276799999999980000, -49855991955445659000, 39173815350652973000, 62538019393136570000000000⟩,
   ⟨311331000000000000000, -49053754242614607000, 38375416661077981000, 70000760036379608000000000⟩,
   ⟨306464699999999990000, -48265245681382108000, 37825354600017120000, 59921353819546636000000000⟩,
   ⟨301676599999999990000, -47490762183235860000, 37101642996359624000, 67457532722454190000000000⟩,
   ⟨296965299999999990000, -46728492063491931000, 36673832443226877000, 57537390598386618000000000⟩,
   ⟨292329700000000000000, -45977754197447903000, 35925412285180124000, 65000745960205734000000000⟩,
   ⟨287768500000000000000, -45239745727956247000, 35399978924615486000, 57459387101678723000000000⟩,
   ⟨283280500000000000000, -44514508333333434000, 34726260306214937000, 62457302710815816000000000⟩,
   ⟨278864399999999980000, -43801245936395890000, 34249187279184859000, 57540636041546438000000000⟩,
   ⟨274519100000000000000, -43098999999999746000, 33650802919699309000, 54919708028928732000000000⟩,
   ⟨270243400000000010000, -42409508029197107000, 33050788603137797000, 60001431656235462000000000⟩,
   ⟨266036100000000000000, -41730491827637506000, 32649195090104994000, 49998767365069317000000000⟩,
   ⟨261896200000000000000, -41062508295625893000, 31950814271110214000, 60001529147355991000000000⟩,
   ⟨257822500000000000000, -40405491551459508000, 31549168326173001000, 49998681976524944000000000⟩,
   ⟨253813999999999980000, -39759508580343099000, 30901716068678144000, 54914196565620159000000000⟩,
   ⟨249869500000000010000, -39124999999999850000, 30499999999958458000, 50000000002311919000000000⟩,
   ⟨245988000000000010000, -38499999999999987000, 29974569319138828000, 52543068087087567000000000⟩,
   ⟨242168500000000020000, -37884745693191101000, 29499971971540749000, 47459734756419705000000000⟩,
   ⟨238410000000000010000, -37280508333333365000, 28951666666675346000, 49916666666403425000000000⟩,
   ⟨234711400000000010000, -36686499999999920000, 28549137931029888000, 50086206896223435000000000⟩,
   ⟨231071800000000010000, -36100491379310455000, 28099151518809995000, 44998641221947236000000000⟩,
   ⟨227490300000000000000, -35525008756567650000, 27527129764069242000, 47374589268906494000000000⟩,
   ⟨223965799999999990000, -34960253784505593000, 27149941683786749000, 47543676679656277000000000⟩,
   ⟨220497400000000020000, -34402991847825953000, 26748369565180308000, 45081521740564284000000000⟩,
   ⟨217084300000000010000, -33854500000000173000, 26251495327120297000, 39850467289536432000000000⟩,
   ⟨213725500000000010000, -33317514953270914000, 25725964915413683000, 52553041168882645000000000⟩,
   ⟨210420000000000020000, -32787229742611976000, 25597685974117731000, 32528828707308166000000000⟩,
   ⟨207167200000000010000, -32265517374517442000, 24852687501916542000, 49904994982598294000000000⟩,
   ⟨203966000000000010000, -31753492125984323000, 24673849772263504000, 37536282616059104000000000⟩,
   ⟨200815700000000000000, -31248754245754239000, 24150849150870146000, 42457542455993786000000000⟩,
   ⟨197715400000000010000, -30753000000000030000, 23799999999971721000, 40000000002459403000000000⟩,
   ⟨194664300000000000000, -30264999999999887000, 23425393494259139000, 37460650574773107000000000⟩,
   ⟨191661600000000020000, -29785253934942302000, 22999932287562392000, 42546120664465616000000000⟩,
   ⟨188706499999999990000, -29312491452991710000, 22724509449895707000, 32463584926860874000000000⟩,
   ⟨185798299999999990000, -28848262188515734000, 22176194609213429000, 45002424235752883000000000⟩,
   ⟨182936099999999980000, -28391237569060735000, 22023773610591016000, 29998329548856919000000000⟩,
   ⟨180119299999999990000, -27941762597984266000, 21477149015335677000, 39911078309252558000000000⟩]
/-- `atm_data.akima_rho`, aviary/subsystems/atmosphere/data/StandardAtm1976.py:2217-2908 (part 9) -/
def standardrhoRows_8 : List IRow :=
  [⟨177346999999999990000, -27500246294184773000, 21273824306228702000, 35080511224984679000000000⟩,
   ⟨174618599999999990000, -27064245654692703000, 20899954468021411000, 32461100127165090000000000⟩,
   ⟨171933400000000010000, -26636508235294143000, 20450807730244062000, 40001579914909455000000000⟩,
   ⟨169290599999999990000, -26215491606714801000, 20274506033123749000, 27465463836509333000000000⟩,
   ⟨166689600000000000000, -25801761846901395000, 19776161201868314000, 40002348827786754000000000⟩,
   ⟨164129600000000010000, -25394237918215684000, 19648463040086607000, 27532878147354291000000000⟩,
   ⟨161610100000000000000, -24993008793969733000, 19177110007284420000, 32376938970541244000000000⟩,
   ⟨159130300000000020000, -24599753512132882000, 18898879509854755000, 37647170340910513000000000⟩,
   ⟨156689599999999990000, -24210481770833526000, 18748722587757699000, 19945449560103525000000000⟩,
   ⟨154287500000000000000, -23829523684210346000, 18102310966083003000, 45005745495900070000000000⟩,
   ⟨151923100000000010000, -23453975741239903000, 18222359132319247000, 17521499166519477000000000⟩,
   ⟨149596100000000000000, -23084272108843571000, 17553727324275568000, 37348356008410310000000000⟩,
   ⟨147305600000000000000, -22721993055555532000, 17548611111105827000, 25069444444315892000000000⟩,
   ⟨145051200000000000000, -22363500000000112000, 17149999999997795000, 30000000000743408000000000⟩,
   ⟨142832299999999990000, -22011499999999942000, 16875400291132761000, 27459970887392803000000000⟩,
   ⟨140648300000000000000, -21665754002911081000, 16575393174818677000, 30000711628867187000000000⟩,
   ⟨138498600000000000000, -21325245925926048000, 16374598719022907000, 24999387357132993000000000⟩,
   ⟨136382699999999990000, -20990254135338458000, 19787793892330451000, -346238035848505260000000000⟩,
   ⟨134299999999999990000, -20698369668246392000, 55718399389613651000, -3588143256496031900000000000⟩,
   ⟨132250000000000010000, -20660444657402933000, -50415434426100830000, 1641883364812291500000000000⟩,
   ⟨128047600000000000000, -20706801996672203000, 23250091168118847000, -134249566725526860000000000⟩,
   ⟨123988499999999990000, -19937897830018069000, 15976822821495249000, 32153433970489106000000000⟩,
   ⟨120067400000000000000, -19260240796393672000, 15450014218805915000, 29351280043850442000000000⟩,
   ⟨116279500000000000000, -18607018691588828000, 14839823888062574000, 29305534568910354000000000⟩,
   ⟨112619800000000000000, -17978259094583630000, 14325909458368683000, 28102263540759011000000000⟩,
   ⟨109083700000000010000, -17371499999999964000, 13823972692087233000, 26301365395507048000000000⟩,
   ⟨105666800000000000000, -16786979453841881000, 13300535870686635000, 26171841070262743000000000⟩,
   ⟨102364699999999990000, -16223551809730106000, 12855591518539242000, 24474948398406720000000000⟩,
   ⟨99173370000000000000, -15679958210910451000, 12381094069785039000, 23965823786769422000000000⟩,
   ⟨96088819999999991000, -15155955459574930000, 11945953525167292000, 22840972678978635000000000⟩,
   ⟨93107239999999994000, -14650708151353456000, 11517290818926227000, 22155837437498205000000000⟩,
   ⟨90224940000000007000, -14163429513671419000, 11115767552364909000, 21160406560288210000000000⟩,
   ⟨87438410000000005000, -13693406323704492000, 10718402420919159000, 20470688215160798000000000⟩,
   ⟨84744239999999995000, -13240105401009543000, 10343353436616115000, 19595830693092869000000000⟩,
   ⟨82139159999999999000, -12802856266713179000, 9978305651667636900, 18975384199490884000000000⟩,
   ⟨79620019999999993000, -12380953579607093000, 9632523701048309400, 18132763965380639000000000⟩,
   ⟨77183809999999999000, -11973893314806697000, 9290803972578635500, 17568088387791924000000000⟩,
   ⟨74827599999999998000, -11581179449838199000, 8968770324218634800, 16885108384577499000000000⟩,
   ⟨72548589999999998000, -11202166506807969000, 8656916490386452100, 16195442500605085000000000⟩,
   ⟨70344079999999998000, -10836455316191785000, 8353164486817291800, 15730066138642907000000000⟩,
   ⟨68211460000000002000, -10483452657352720000, 8068677385902238700, 14947774086670458000000000⟩,
   ⟨66148240000000001000, -10142768233012622000, 7783808191901115100, 14605172936480426000000000⟩,
   ⟨64151989999999999000, -9813889697812800500, 7521043342477154200, 13922077408178745000000000⟩,
   ⟨62220410000000002000, -9496341471223899800, 7258115784299481800, 13447888844706804000000000⟩,
   ⟨60351249999999997000, -9189879373238268200, 7008671544525246400, 13014855869472245000000000⟩,
   ⟨58542350000000002000, -8893914684413896900, 6771643614783902900, 12454530295515083000000000⟩,
   ⟨56791649999999999000, -8608103503467922700, 6537420598149007700, 12012728762333951000000000⟩,
   ⟨55097139999999998000, -8332191405027162700, 6314227268544108900, 11642149140702897000000000⟩,
   ⟨53456889999999998000, -8065651735316550700, 6102847238721399000, 11111976355308742000000000⟩,
   ⟨51869059999999998000, -7808203474141327400, 5891080679335997000, 10829651386527449000000000⟩,
   ⟨50331849999999999000, -7559564665304050400, 5694138944195536300, 10329716050311154000000000⟩,
   ⟨48843539999999996000, -7319403448275855500, 5499180789042457200, 10049581237569742000000000⟩,
   ⟨47402460000000000000, -7087376719229073500, 5317197135370682100, 9581941304130472000000000⟩,
   ⟨46007019999999999000, -6863190504249286500, 5135386045385875200, 9331958353954475100000000⟩,
   ⟨44655670000000001000, -6646576712409109300, 4964653580998272100, 8959101972808039900000000⟩,
   ⟨43346929999999997000, -6437239646801812000, 4797238571930757300, 8612188408000489600000000⟩,
   ⟨42079359999999998000, -6235015477834977900, 4635340349133644300, 8396677130769722700000000⟩,
   ⟨40851569999999999000, -6039525851312707400, 4484608924791985600, 7959182042180252700000000⟩,
   ⟨39662240000000000000, -5850590475870408500, 4330985965118352600, 7801891420111965400000000⟩,
   ⟨38510070000000000000, -5667988767561540100, 4190211648241895700, 7461336491775965400000000⟩,
   ⟨37393830000000002000, -5491426697841734100, 4050295900243131400, 7176949592136420800000000⟩,
   ⟨36312319999999999000, -5320802522321445200, 3914648306047151100, 7023890501250111600000000⟩,
   ⟨35264379999999998000, -5155787921478061100, 3788918699859175100, 6648868702195707300000000⟩,
   ⟨34248909999999998000, -4996252531041061400, 3660336245365191400, 6489515334412884600000000⟩]
/-- `atm_data.akima_rho`, aviary/subsystems/atmosphere/data/StandardAtm1976.py:2217-2908 (part 10) -/
def standardrhoRows_9 : List IRow :=
  [⟨33264820000000000000, -4842051662825156200, 3542707991742004700, 6243757475782064100000000⟩,
   ⟨32311079999999999000, -4692850834184538000, 3427021457532779000, 6026012584731666400000000⟩,
   ⟨31386700000000001000, -4548538760781550500, 3313355150037793500, 5804144451971708600000000⟩,
   ⟨30490710000000000000, -4409039581437671100, 3203353965337525000, 5681255327312464900000000⟩,
   ⟨29622170000000001000, -4274087916431396700, 3103310406506633400, 5304270753138609700000000⟩,
   ⟨28780189999999999000, -4143590375267366100, 2997100290767169500, 5370923630049855500000000⟩,
   ⟨27963889999999998000, -4017261255280620500, 2907541710032506100, 4901052699948060400000000⟩,
   ⟨27172460000000000000, -3895078323639383700, 2804082363937456100, 4991690901579100200000000⟩,
   ⟨26405059999999999000, -3776924999999991100, 2721332112739451600, 4620894363037061700000000⟩,
   ⟨25660930000000002000, -3662526642254767500, 2628914225475851600, 4620894363103236100000000⟩,
   ⟨24939310000000000000, -3551825000000009500, 2547622630332785600, 4306368483380022100000000⟩,
   ⟨24239480000000000000, -3444752452606642600, 2461495260662908600, 4306368483446196500000000⟩,
   ⟨23560719999999999000, -3341124999999992900, 2387541118422045700, 4060444078907651100000000⟩,
   ⟨22902370000000001000, -3240750822368420300, 2308268511350550200, 3963630353494036100000000⟩,
   ⟨22263769999999999000, -3143663725490203900, 2234557804219482500, 3806423514540937600000000⟩,
   ⟨21644279999999999000, -3049713705103973900, 2163870510395951800, 3715737240124077200000000⟩,
   ⟨21043289999999998000, -2958699999999985900, 2097580645162584500, 3495967741880510200000000⟩,
   ⟨20460220000000002000, -2870601612903224800, 2027016008986993900, 3528231808673651700000000⟩,
   ⟨19894489999999999000, -2785287094373335600, 1966935243785726700, 3245973744070834500000000⟩,
   ⟨19345560000000000000, -2702714516129023100, 1900201612902610000, 3276209677432942600000000⟩,
   ⟨18812880000000001000, -2622775000000001900, 1844395280235957200, 3092735988207324800000000⟩,
   ⟨18295950000000000000, -2545287905604716400, 1785120059795547500, 2963761022020479900000000⟩,
   ⟨17794270000000001000, -2470326589986471000, 1727014119233754800, 2965769004471524200000000⟩,
   ⟨17307350000000000000, -2397687102411753400, 1677539549033288900, 2715778577711725900000000⟩,
   ⟨16834739999999999000, -2327326586157166400, 1620118563556737000, 2810537215102163200000000⟩,
   ⟨16375980000000001000, -2259149198956774100, 1574394540318265000, 2528270376017547200000000⟩,
   ⟨15930650000000001000, -2193139492892822400, 1520199289281812700, 2588767767956544600000000⟩,
   ⟨15498310000000000000, -2129225000000001500, 1477500000000087100, 2437500000003756800000000⟩,
   ⟨15078570000000000000, -2067199999999992700, 2261676594926785600, -39208829746348825000000000⟩,
   ⟨14671040000000001000, -2023783531898539100, -1162523621740631400, 171210010833355660000000000⟩,
   ⟨14275329999999999000, -1864832463768136500, 6719347861961741600, -122386233677750780000000000⟩,
   ⟨13919449999999999000, -1742922029702966000, -317155781869189140, 35662863350882710000000000⟩,
   ⟨13572450000000000000, -1712812824956673000, 1026313597562483500, 1341382513549532600000000⟩,
   ⟨13234099999999999000, -1670150622037913900, 1000671626284509100, 1342973780570211500000000⟩,
   ⟨12904180000000000000, -1628512188449849600, 977468844984106590, 1282028875409788600000000⟩,
   ⟨12582489999999999000, -1587874999999994100, 951921725240421210, 1216413737988961500000000⟩,
   ⟨12268820000000001000, -1548338434504791800, 926953286543749000, 1248421934767433100000000⟩,
   ⟨11962959999999999000, -1509762196721320900, 907469672131962810, 1157008196703646700000000⟩,
   ⟨11664729999999999000, -1472074999999998000, 882499999999809610, 1187500000004986100000000⟩,
   ⟨11373939999999999000, -1435349999999999900, 860671378091825140, 1091431095413782900000000⟩,
   ⟨11090399999999999000, -1399613427561831500, 836920098231903550, 1187563992994750100000000⟩,
   ⟨10813920000000000000, -1364711546840961900, 821217834169584870, 967975393912779120000000⟩,
   ⟨10544339999999999000, -1330701263001482900, 795352185375272750, 1110548234963145200000000⟩,
   ⟨10281470000000001000, -1297554517704515400, 995141095995261660, -9745760538492370800000000⟩,
   ⟨10025160000000000000, -1269443786510895300, 1167874379130022100, -8734252679266232100000000⟩,
   ⟨9775243999999999300, -1233209914560813300, 1111924211025633300, -7259318396186468200000000⟩,
   ⟨9177363000000000400, -1176462381429648500, 373603817498422910, 14061676221890232000000000⟩,
   ⟨8616048999999999500, -1033639428015629500, 1683459114504179600, -9216611083831660200000000⟩,
   ⟨8129794999999999800, -934418099693948690, -15882450126710201, 5177688880113741300000000⟩,
   ⟨7668660999999999800, -897173678105766920, 433331270465434230, 450045832998655390000000⟩,
   ⟨7231470000000000500, -850465207311733850, 412689646391810670, 431489996856782920000000⟩,
   ⟨6817093999999999900, -805960067696126510, 392993715589542740, 412952766660005600000000⟩,
   ⟨6424455000000000100, -763563550387222330, 374074099909568020, 395138156697358570000000⟩,
   ⟨6052518999999999900, -723192604221035210, 355953403623521320, 378773615943410220000000⟩,
   ⟨5700294999999999500, -684756461739107770, 338718314074628150, 361818414150527680000000⟩,
   ⟨5366836999999999500, -648170992225516000, 322128144974308830, 346633990720322840000000⟩,
   ⟨5051237999999999600, -613358422797683090, 306325468503252320, 331259749008489090000000⟩,
   ⟨4752631000000000000, -580241427829793920, 291174261248474340, 317085906948305330000000⟩,
   ⟨4470186000000000200, -548745857402834400, 276742038379604410, 302702193541288280000000⟩,
   ⟨4203109999999999800, -518801387113314030, 262911781468285730, 289519215960115960000000⟩,
   ⟨3950644000000000100, -490338814846784460, 249726966978563410, 276986599142268740000000⟩,
   ⟨3712063999999999800, -463288718655360900, 237146278692322460, 263761888297919030000000⟩,
   ⟨3486677999999999900, -437595876623894130, 225039036920336650, 252769911150963870000000⟩,
   ⟨3273821999999999900, -413196198598228370, 213630997114539870, 241059497000801330000000⟩]
/-- `atm_data.akima_rho`, aviary/subsystems/atmosphere/data/StandardAtm1976.py:2217-2908 (part 11) -/
def standardrhoRows_10 : List IRow :=
  [⟨3072866000000000300, -390025152659268240, 202672350723054980, 229414049246165870000000⟩,
   ⟨2883207000000000300, -368037312217616300, 192123036730581400, 220464152434775920000000⟩,
   ⟨2704267000000000100, -347171527401297340, 182286482459014630, 208481311338363690000000⟩,
   ⟨2535498999999999800, -327379269320358150, 172641431326962130, 200479101604201670000000⟩,
   ⟨2376376000000000000, -308611532925630230, 163694200333577930, 189929163580442990000000⟩,
   ⟨2226400000000000000, -290817644165418980, 154976562969339720, 181926406780787540000000⟩,
   ⟨2085093000000000000, -273955539817628870, 146804063029197600, 172534666467639710000000⟩,
   ⟨1952001000000000100, -257981123516201680, 138903144646693070, 165586513546715580000000⟩,
   ⟨1826690000000000000, -242848910199932140, 131529600095785920, 156172078057295670000000⟩,
   ⟨1708749000000000100, -228524659604923930, 124304656380931130, 150170714350866800000000⟩,
   ⟨1597782000000000000, -214967913609199380, 117666560357728210, 141834236525091970000000⟩,
   ⟨1493416999999999900, -202137500799488440, 111179531514578250, 135409689503872900000000⟩,
   ⟨1395296999999999900, -190003974976751630, 105066886746704870, 129052255766671420000000⟩,
   ⟨1303083000000000100, -178529394383831110, 99275410134203484, 122249550848325340000000⟩,
   ⟨1216453000000000000, -167684981739048390, 93703012500352094, 116732445612288500000000⟩,
   ⟨1135099000000000000, -157439187146921050, 88499738358382665, 110480091600750000000000⟩,
   ⟨1058729999999999900, -147760612624077160, 83495884158786918, 105207366455208850000000⟩,
   ⟨987068600000000060, -138621968959784370, 78776074172067564, 99826100472293723000000⟩,
   ⟨919851799999999930, -129995665789035410, 74273644784386931, 94873419926421503000000⟩,
   ⟨856829399999999950, -121856750661148440, 70010963536204218, 90000993735357350000000⟩,
   ⟨797763800000000030, -114180646854512880, 65965320708179357, 85432327641524878000000⟩,
   ⟨742429399999999960, -106943372326383560, 48600795401479410, 351733022523836660000000⟩,
   ⟨690612399999999980, -99445295117306780, 55688660490434377, -137655162885974490000000⟩,
   ⟨642109899999999980, -94908842789908134, 28320104191284574, 234495032137577750000000⟩,
   ⟨595656600000000020, -90318119629747761, 86550849506173150, -233609138224353700000000⟩,
   ⟨552369300000000020, -83415103215813148, 51554504134059446, 75991203644045586000000⟩,
   ⟨512045599999999980, -77689718775076895, 48215160680560793, 71344296419581830000000⟩,
   ⟨474495300000000020, -72333120483874002, 45064458717428442, 67159019201030157000000⟩,
   ⟨439539300000000020, -67322981968123464, 42122948698320924, 62973813282959148000000⟩,
   ⟨407009599999999990, -62638383498669236, 39345296640425240, 59247466659206805000000⟩,
   ⟨376748100000000010, -58259497834682703, 36751766881187184, 55563796249325429000000⟩,
   ⟨348606600000000000, -54167592674694011, 34307311065647382, 52170848564634950000000⟩,
   ⟨322445699999999970, -50345580203894518, 32017224968329739, 49007582191229973000000⟩,
   ⟨298134599999999990, -46776300840627361, 29877278410638323, 45854768038190375000000⟩,
   ⟨275550700000000010, -43444662239277076, 27855859259609690, 43147710518632049000000⟩,
   ⟨254578700000000000, -40335468484426383, 25981344028215272, 40320513206233243000000⟩,
   ⟨235110899999999990, -37434930232558107, 24205410675324945, 37863879516769384000000⟩,
   ⟨217045900000000020, -34730410068649855, 22555275858640977, 35458510287111477000000⟩,
   ⟨200288900000000000, -32208943655632433, 21008637017023439, 33164721912496432000000⟩,
   ⟨184751099999999990, -29859344539586346, 19554125588357763, 31135304067383259000000⟩,
   ⟨170349200000000000, -27670417200245187, 18204262693351105, 29041626231048488000000⟩,
   ⟨157005399999999990, -25632178734177225, 16928165689178119, 27268179887332015000000⟩,
   ⟨144646600000000000, -23734850816104444, 15750137654995443, 25417573341874023000000⟩,
   ⟨133204700000000000, -21969205250540840, 14636966968697435, 23822760842385349000000⟩,
   ⟨122615800000000000, -20326837847353207, 13603714873327194, 22260841474742164000000⟩,
   ⟨112820300000000000, -18799510048959929, 12636222043814633, 20759578707679630000000⟩,
   ⟨103762400000000000, -17380191004270875, 11729664696949041, 19451107769364948000000⟩,
   ⟨95389859999999997, -16061341226305732, 10893440498848858, 18099680545321705000000⟩,
   ⟨87654150000000002, -14836249572330948, 10512364552918109, 8740537874021376100000⟩,
   ⟨80509760000000007, -13719459082983981, 10161163319358640, 8168366806409883400000⟩,
   ⟨73914269999999998, -12642080000000034, 0, 0⟩]
/-- `atm_data.akima_rho`, aviary/subsystems/atmosphere/data/StandardAtm1976.py:2217-2908 -/
def standardrhoRows : List IRow :=
  standardrhoRows_0 ++ standardrhoRows_1 ++ standardrhoRows_2 ++ standardrhoRows_3 ++ standardrhoRows_4 ++ standardrhoRows_5 ++ standardrhoRows_6 ++ standardrhoRows_7 ++ standardrhoRows_8 ++ standardrhoRows_9 ++ standardrhoRows_10
/-- `atm_data.akima_rho`, aviary/subsystems/atmosphere/data/StandardAtm1976.py:2217-2908, with the column exponents. -/
def standardrho : CTab := ⟨22, 25, 29, 39, standardrhoRows⟩
/-- `atm_data.akima_dT`, aviary/subsystems/atmosphere/data/StandardAtm1976.py:2910-3601 (part 1) -/
def standarddTRows_0 : List IRow :=
  [⟨-64999999999997725000000000000000, 520417042793042230000000000000, 0, 0⟩,
   ⟨-64999999999997725000000000000000, 520417042793042230000000000000, -48148248609680897, -69388939039072251000000000000000⟩,
   ⟨-64999999999997707000000000000000, 0, 0, 0⟩,
   ⟨-64999999999997707000000000000000, 0, 0, 0⟩,
   ⟨-64999999999997707000000000000000, 0, 0, 0⟩,
   ⟨-64999999999997707000000000000000, 0, -624500451351650540000000000000000, 832667268468867310000000000000000⟩,
   ⟨-64999999999997759000000000000000, 0, 624500451351650540000000000000000, -832667268468867310000000000000000⟩,
   ⟨-64999999999997707000000000000000, 0, 0, 0⟩,
   ⟨-64999999999997707000000000000000, 0, 0, 0⟩,
   ⟨-64999999999997707000000000000000, 0, 0, 0⟩,
   ⟨-64999999999997707000000000000000, 0, -624500451351650540000000000000000, 832667268468867310000000000000000⟩,
   ⟨-64999999999997759000000000000000, 0, 624500451351650540000000000000000, -832667268468867310000000000000000⟩,
   ⟨-64999999999997707000000000000000, 0, 0, 0⟩,
   ⟨-64999999999997707000000000000000, 0, 0, 0⟩,
   ⟨-64999999999997707000000000000000, 0, 0, 0⟩,
   ⟨-64999999999997707000000000000000, 0, -624500451351650540000000000000000, 832667268468867310000000000000000⟩,
   ⟨-64999999999997759000000000000000, 0, 624500451351650540000000000000000, -832667268468867310000000000000000⟩,
   ⟨-64999999999997707000000000000000, 0, 0, 0⟩,
   ⟨-64999999999997707000000000000000, 0, 0, 0⟩,
   ⟨-64999999999997707000000000000000, 0, 0, 0⟩,
   ⟨-64999999999997707000000000000000, 0, -624500451351650540000000000000000, 832667268468867310000000000000000⟩,
   ⟨-64999999999997759000000000000000, 0, 624500451351650540000000000000000, -832667268468867310000000000000000⟩,
   ⟨-64999999999997707000000000000000, 0, 0, 0⟩,
   ⟨-64999999999997707000000000000000, 0, 0, 0⟩,
   ⟨-64999999999997707000000000000000, 0, 0, 0⟩,
   ⟨-64999999999997707000000000000000, 0, -624500451351650540000000000000000, 832667268468867310000000000000000⟩,
   ⟨-64999999999997759000000000000000, 0, 624500451351650540000000000000000, -832667268468867310000000000000000⟩,
   ⟨-64999999999997707000000000000000, 0, 0, 0⟩,
   ⟨-64999999999997707000000000000000, 0, 0, 0⟩,
   ⟨-64999999999997707000000000000000, 0, 0, 0⟩,
   ⟨-64999999999997707000000000000000, 0, -624500451351650540000000000000000, 832667268468867310000000000000000⟩,
   ⟨-64999999999997759000000000000000, 0, 624500451351650540000000000000000, -832667268468867310000000000000000⟩,
   ⟨-64999999999997707000000000000000, 0, 0, 0⟩,
   ⟨-64999999999997707000000000000000, 0, 0, 0⟩,
   ⟨-64999999999997707000000000000000, 0, 0, 0⟩,
   ⟨-64999999999997707000000000000000, 0, -624500451351650540000000000000000, 832667268468867310000000000000000⟩,
   ⟨-64999999999997759000000000000000, 0, 624500451351650540000000000000000, -832667268468867310000000000000000⟩,
   ⟨-64999999999997707000000000000000, 0, 0, 0⟩,
   ⟨-64999999999997707000000000000000, 0, 0, 0⟩,
   ⟨-64999999999997707000000000000000, 0, 0, 0⟩,
   ⟨-64999999999997707000000000000000, 0, -624500451351650540000000000000000, 832667268468867310000000000000000⟩,
   ⟨-64999999999997759000000000000000, 0, 624500451351650540000000000000000, -832667268468867310000000000000000⟩,
   ⟨-64999999999997707000000000000000, 0, 0, 0⟩,
   ⟨-64999999999997707000000000000000, 0, 0, 0⟩,
   ⟨-64999999999997707000000000000000, 0, 0, 0⟩,
   ⟨-64999999999997707000000000000000, 0, -624500451351650540000000000000000, 832667268468867310000000000000000⟩,
   ⟨-64999999999997759000000000000000, 0, 624500451351650540000000000000000, -832667268468867310000000000000000⟩,
   ⟨-64999999999997707000000000000000, 0, 0, 0⟩,
   ⟨-64999999999997707000000000000000, 0, 0, 0⟩,
   ⟨-64999999999997707000000000000000, 0, 0, 0⟩,
   ⟨-64999999999997707000000000000000, 0, -624500451351650540000000000000000, 832667268468867310000000000000000⟩,
   ⟨-64999999999997759000000000000000, 0, 624500451351650540000000000000000, -832667268468867310000000000000000⟩,
   ⟨-64999999999997707000000000000000, 0, 0, 0⟩,
   ⟨-64999999999997707000000000000000, 0, 0, 0⟩,
   ⟨-64999999999997707000000000000000, 0, 0, 0⟩,
   ⟨-64999999999997707000000000000000, 0, -624500451351650540000000000000000, 832667268468867310000000000000000⟩,
   ⟨-64999999999997759000000000000000, 0, 624500451351650540000000000000000, -832667268468867310000000000000000⟩,
   ⟨-64999999999997707000000000000000, 0, 0, 0⟩,
   ⟨-64999999999997707000000000000000, 0, 0, 0⟩,
   ⟨-64999999999997707000000000000000, 0, 0, 0⟩,
   ⟨-64999999999997707000000000000000, 0, -624500451351650540000000000000000, 832667268468867310000000000000000⟩,
   ⟨-64999999999997759000000000000000, 0, 624500451351650540000000000000000, -832667268468867310000000000000000⟩,
   ⟨-64999999999997707000000000000000, 0, 0, 0⟩,
   ⟨-64999999999997707000000000000000, 0, 0, 0⟩]
/-- `atm_data.akima_dT`, aviary/subsystems/atmosphere/data/StandardAtm1976.py:2910-3601 (part 2) -/
def standarddTRows_1 : List IRow :=
  [⟨-64999999999997707000000000000000, 0, 0, 0⟩,
   ⟨-64999999999997707000000000000000, 0, -624500451351650540000000000000000, 832667268468867310000000000000000⟩,
   ⟨-64999999999997759000000000000000, 0, 624500451351650540000000000000000, -832667268468867310000000000000000⟩,
   ⟨-64999999999997707000000000000000, 0, 0, 0⟩,
   ⟨-64999999999997707000000000000000, 0, 0, 0⟩,
   ⟨-64999999999997707000000000000000, 0, 0, 0⟩,
   ⟨-64999999999997707000000000000000, 0, -624500451351650540000000000000000, 832667268468867310000000000000000⟩,
   ⟨-64999999999997759000000000000000, 0, 624500451351650540000000000000000, -832667268468867310000000000000000⟩,
   ⟨-64999999999997707000000000000000, 0, 0, 0⟩,
   ⟨-64999999999997707000000000000000, 0, 0, 0⟩,
   ⟨-64999999999997707000000000000000, 0, 0, 0⟩,
   ⟨-64999999999997707000000000000000, 0, -624500451351650540000000000000000, 832667268468867310000000000000000⟩,
   ⟨-64999999999997759000000000000000, 0, 624500451351650540000000000000000, -832667268468867310000000000000000⟩,
   ⟨-64999999999997707000000000000000, 0, 0, 0⟩,
   ⟨-64999999999997707000000000000000, 0, 0, 0⟩,
   ⟨-64999999999997707000000000000000, 0, 0, 0⟩,
   ⟨-64999999999997707000000000000000, 0, -624500451351650540000000000000000, 832667268468867310000000000000000⟩,
   ⟨-64999999999997759000000000000000, 0, 624500451351650540000000000000000, -832667268468867310000000000000000⟩,
   ⟨-64999999999997707000000000000000, 0, 0, 0⟩,
   ⟨-64999999999997707000000000000000, 0, 0, 0⟩,
   ⟨-64999999999997707000000000000000, 0, 0, 0⟩,
   ⟨-64999999999997707000000000000000, 0, -624500451351650540000000000000000, 832667268468867310000000000000000⟩,
   ⟨-64999999999997759000000000000000, 0, 624500451351650540000000000000000, -832667268468867310000000000000000⟩,
   ⟨-64999999999997707000000000000000, 0, 0, 0⟩,
   ⟨-64999999999997707000000000000000, 0, 0, 0⟩,
   ⟨-64999999999997707000000000000000, 0, 0, 0⟩,
   ⟨-64999999999997707000000000000000, 0, -624500451351650540000000000000000, 832667268468867310000000000000000⟩,
   ⟨-64999999999997759000000000000000, 0, 624500451351650540000000000000000, -832667268468867310000000000000000⟩,
   ⟨-64999999999997707000000000000000, 0, 0, 0⟩,
   ⟨-64999999999997707000000000000000, 0, 0, 0⟩,
   ⟨-64999999999997707000000000000000, 0, 0, 0⟩,
   ⟨-64999999999997707000000000000000, 0, -624500451351650540000000000000000, 832667268468867310000000000000000⟩,
   ⟨-64999999999997759000000000000000, 0, 624500451351650540000000000000000, -832667268468867310000000000000000⟩,
   ⟨-64999999999997707000000000000000, 0, 0, 0⟩,
   ⟨-64999999999997707000000000000000, 0, 0, 0⟩,
   ⟨-64999999999997707000000000000000, 0, 0, 0⟩,
   ⟨-64999999999997707000000000000000, 0, -624500451351650540000000000000000, 832667268468867310000000000000000⟩,
   ⟨-64999999999997759000000000000000, 0, 624500451351650540000000000000000, -832667268468867310000000000000000⟩,
   ⟨-64999999999997707000000000000000, 0, 0, 0⟩,
   ⟨-64999999999997707000000000000000, 0, 0, 0⟩,
   ⟨-64999999999997707000000000000000, 0, 0, 0⟩,
   ⟨-64999999999997707000000000000000, 0, -624500451351650540000000000000000, 832667268468867310000000000000000⟩,
   ⟨-64999999999997759000000000000000, 0, 624500451351650540000000000000000, -832667268468867310000000000000000⟩,
   ⟨-64999999999997707000000000000000, 0, 0, 0⟩,
   ⟨-64999999999997707000000000000000, 0, 0, 0⟩,
   ⟨-64999999999997707000000000000000, 0, 0, 0⟩,
   ⟨-64999999999997707000000000000000, 0, -624500451351650540000000000000000, 832667268468867310000000000000000⟩,
   ⟨-64999999999997759000000000000000, 0, 624500451351650540000000000000000, -832667268468867310000000000000000⟩,
   ⟨-64999999999997707000000000000000, 0, 0, 0⟩,
   ⟨-64999999999997707000000000000000, 0, 0, 0⟩,
   ⟨-64999999999997707000000000000000, 0, 0, 0⟩,
   ⟨-64999999999997707000000000000000, 0, -624500451351650540000000000000000, 832667268468867310000000000000000⟩,
   ⟨-64999999999997759000000000000000, 0, 624500451351650540000000000000000, -832667268468867310000000000000000⟩,
   ⟨-64999999999997707000000000000000, 0, 0, 0⟩,
   ⟨-64999999999997707000000000000000, 0, 0, 0⟩,
   ⟨-64999999999997707000000000000000, 0, 0, 0⟩,
   ⟨-64999999999997707000000000000000, 0, -624500451351650540000000000000000, 832667268468867310000000000000000⟩,
   ⟨-64999999999997759000000000000000, 0, 624500451351650540000000000000000, -832667268468867310000000000000000⟩,
   ⟨-64999999999997707000000000000000, 0, 0, 0⟩,
   ⟨-64999999999997707000000000000000, 0, 0, 0⟩,
   ⟨-64999999999997707000000000000000, 0, 0, 0⟩,
   ⟨-64999999999997707000000000000000, 0, -624500451351650540000000000000000, 832667268468867310000000000000000⟩,
   ⟨-64999999999997759000000000000000, 0, 624500451351650540000000000000000, -832667268468867310000000000000000⟩,
   ⟨-64999999999997707000000000000000, 0, 0, 0⟩]
/-- `atm_data.akima_dT`, aviary/subsystems/atmosphere/data/StandardAtm1976.py:2910-3601 (part 3) -/
def standarddTRows_2 : List IRow :=
  [⟨-64999999999997707000000000000000, 0, 0, 0⟩,
   ⟨-64999999999997707000000000000000, 0, 0, 0⟩,
   ⟨-64999999999997707000000000000000, 0, -624500451351650540000000000000000, 832667268468867310000000000000000⟩,
   ⟨-64999999999997759000000000000000, 0, 624500451351650540000000000000000, -832667268468867310000000000000000⟩,
   ⟨-64999999999997707000000000000000, 0, 0, 0⟩,
   ⟨-64999999999997707000000000000000, 0, 0, 0⟩,
   ⟨-64999999999997707000000000000000, 0, 0, 0⟩,
   ⟨-64999999999997707000000000000000, 0, -624500451351650540000000000000000, 832667268468867310000000000000000⟩,
   ⟨-64999999999997759000000000000000, 0, 624500451351650540000000000000000, -832667268468867310000000000000000⟩,
   ⟨-64999999999997707000000000000000, 0, 0, 0⟩,
   ⟨-64999999999997707000000000000000, 0, 0, 0⟩,
   ⟨-64999999999997707000000000000000, 0, 0, 0⟩,
   ⟨-64999999999997707000000000000000, 0, -624500451351650540000000000000000, 832667268468867310000000000000000⟩,
   ⟨-64999999999997759000000000000000, 0, 624500451351650540000000000000000, -832667268468867310000000000000000⟩,
   ⟨-64999999999997707000000000000000, 0, 0, 0⟩,
   ⟨-64999999999997707000000000000000, 0, 0, 0⟩,
   ⟨-64999999999997707000000000000000, 0, 0, 0⟩,
   ⟨-64999999999997707000000000000000, 0, -624500451351650540000000000000000, 832667268468867310000000000000000⟩,
   ⟨-64999999999997759000000000000000, 0, 624500451351650540000000000000000, -832667268468867310000000000000000⟩,
   ⟨-64999999999997707000000000000000, 0, 0, 0⟩,
   ⟨-64999999999997707000000000000000, 0, 0, 0⟩,
   ⟨-64999999999997707000000000000000, 0, 0, 0⟩,
   ⟨-64999999999997707000000000000000, 0, -624500451351650540000000000000000, 832667268468867310000000000000000⟩,
   ⟨-64999999999997759000000000000000, 0, 624500451351650540000000000000000, -832667268468867310000000000000000⟩,
   ⟨-64999999999997707000000000000000, 0, 0, 0⟩,
   ⟨-64999999999997707000000000000000, 0, 0, 0⟩,
   ⟨-64999999999997707000000000000000, 0, 0, 0⟩,
   ⟨-64999999999997707000000000000000, 0, -624500451351650540000000000000000, 832667268468867310000000000000000⟩,
   ⟨-64999999999997759000000000000000, 0, 624500451351650540000000000000000, -832667268468867310000000000000000⟩,
   ⟨-64999999999997707000000000000000, 0, 0, 0⟩,
   ⟨-64999999999997707000000000000000, 0, 0, 0⟩,
   ⟨-64999999999997707000000000000000, 0, 0, 0⟩,
   ⟨-64999999999997707000000000000000, 0, -624500451351650540000000000000000, 832667268468867310000000000000000⟩,
   ⟨-64999999999997759000000000000000, 0, 624500451351650540000000000000000, -832667268468867310000000000000000⟩,
   ⟨-64999999999997707000000000000000, 0, 0, 0⟩,
   ⟨-64999999999997707000000000000000, 0, 0, 0⟩,
   ⟨-64999999999997707000000000000000, 0, 0, 0⟩,
   ⟨-64999999999997707000000000000000, 0, -624500451351650540000000000000000, 832667268468867310000000000000000⟩,
   ⟨-64999999999997759000000000000000, 0, 624500451351650540000000000000000, -832667268468867310000000000000000⟩,
   ⟨-64999999999997707000000000000000, 0, 0, 0⟩,
   ⟨-64999999999997707000000000000000, 0, 0, 0⟩,
   ⟨-64999999999997707000000000000000, 0, 0, 0⟩,
   ⟨-64999999999997707000000000000000, 0, -624500451351650540000000000000000, 832667268468867310000000000000000⟩,
   ⟨-64999999999997759000000000000000, 0, 624500451351650540000000000000000, -832667268468867310000000000000000⟩,
   ⟨-64999999999997707000000000000000, 0, 0, 0⟩,
   ⟨-64999999999997707000000000000000, 0, 0, 0⟩,
   ⟨-64999999999997707000000000000000, 0, 0, 0⟩,
   ⟨-64999999999997707000000000000000, 0, -624500451351650540000000000000000, 832667268468867310000000000000000⟩,
   ⟨-64999999999997759000000000000000, 0, 624500451351650540000000000000000, -832667268468867310000000000000000⟩,
   ⟨-64999999999997707000000000000000, 0, 0, 0⟩,
   ⟨-64999999999997707000000000000000, 0, 0, 0⟩,
   ⟨-64999999999997707000000000000000, 0, 0, 0⟩,
   ⟨-64999999999997707000000000000000, 0, -624500451351650540000000000000000, 832667268468867310000000000000000⟩,
   ⟨-64999999999997759000000000000000, 0, 624500451351650540000000000000000, -832667268468867310000000000000000⟩,
   ⟨-64999999999997707000000000000000, 0, 0, 0⟩,
   ⟨-64999999999997707000000000000000, 0, 0, 0⟩,
   ⟨-64999999999997707000000000000000, 0, 0, 0⟩,
   ⟨-64999999999997707000000000000000, 0, -624500451351650540000000000000000, 832667268468867310000000000000000⟩,
   ⟨-64999999999997759000000000000000, 0, 624500451351650540000000000000000, -832667268468867310000000000000000⟩,
   ⟨-64999999999997707000000000000000, 0, 0, 0⟩,
   ⟨-64999999999997707000000000000000, 0, 0, 0⟩,
   ⟨-64999999999997707000000000000000, 0, 0, 0⟩,
   ⟨-64999999999997707000000000000000, 0, -624500451351650540000000000000000, 832667268468867310000000000000000⟩,
   ⟨-64999999999997759000000000000000, 0, 624500451351650540000000000000000, -832667268468867310000000000000000⟩]
/-- `atm_data.akima_dT`, aviary/subsystems/atmosphere/data/StandardAtm1976.py:2910-3601 (part 4) -/
def standarddTRows_3 : List IRow :=
  [⟨-64999999999997707000000000000000, 0, 0, 0⟩,
   ⟨-64999999999997707000000000000000, 0, 0, 0⟩,
   ⟨-64999999999997707000000000000000, 0, 0, 0⟩,
   ⟨-64999999999997707000000000000000, 0, -572458747072346260000000000000000, 728583859910258940000000000000000⟩,
   ⟨-64999999999997759000000000000000, -260208521396521080000000000000, 739540008179586160000000000000000, -958662973566130180000000000000000⟩,
   ⟨-64999999999997707000000000000000, -54780741346635922000000000000, -262723963601213570000000000000000, 269804467584792410000000000000000⟩,
   ⟨-64999999999997742000000000000000, -658486870472828770000000000000, 709422766629991730000000000000000, -947283967953635180000000000000000⟩,
   ⟨-64999999999997716000000000000000, -668888963825174950000000000000, -28513416668238157000000000000000000, 34396039039112544000000000000000000⟩,
   ⟨-65000000000000578000000000000000, -27832762852862745000000000000000, 5670635979131158600000000000000000, -2696301922142130600⟩,
   ⟨-65000000000000552000000000000000, 28873596938448823000000000000000, 21966382515756820000000000000000000, -33000187558233751000000000000000000⟩,
   ⟨-64999999999997742000000000000000, 1036015409263926400000000000000, -154917112875122830000000000000000, 103594879161891920000000000000000⟩,
   ⟨-64999999999997716000000000000000, 263805874226887690000000000000, -3297573427836077200000000000000, -98927202835082935000000000000000⟩,
   ⟨-64999999999997716000000000000000, -511123881314595000000000000000, -28550390738204926000000000000000000, 34406881146041837000000000000000000⟩,
   ⟨-65000000000000578000000000000000, -27963422668050100000000000000000, 5722899905206099600000000000000000, -52263926074944353000000000000000⟩,
   ⟨-65000000000000552000000000000000, 28873596938448823000000000000000, 21966382515756820000000000000000000, -33000187558233751000000000000000000⟩,
   ⟨-64999999999997742000000000000000, 1036015409263926400000000000000, -154917112875122830000000000000000, 103594879161891920000000000000000⟩,
   ⟨-64999999999997716000000000000000, 263805874226887690000000000000, -3297573427836077200000000000000, -98927202835082935000000000000000⟩,
   ⟨-64999999999997716000000000000000, -511123881314595000000000000000, -28550390738204926000000000000000000, 34406881146041837000000000000000000⟩,
   ⟨-65000000000000578000000000000000, -27963422668050100000000000000000, 5722899905206099600000000000000000, -52263926074944353000000000000000⟩,
   ⟨-65000000000000552000000000000000, 28873596938448823000000000000000, 21966382515756820000000000000000000, -33000187558233751000000000000000000⟩,
   ⟨-64999999999997742000000000000000, 1036015409263926400000000000000, -154917112875122830000000000000000, 103594879161891920000000000000000⟩,
   ⟨-64999999999997716000000000000000, 263805874226887690000000000000, -3297573427836077200000000000000, -98927202835082935000000000000000⟩,
   ⟨-64999999999997716000000000000000, -511123881314595000000000000000, -28550390738204926000000000000000000, 34406881146041837000000000000000000⟩,
   ⟨-65000000000000578000000000000000, -27963422668050100000000000000000, 5722899905206099600000000000000000, -52263926074944353000000000000000⟩,
   ⟨-65000000000000552000000000000000, 28873596938448823000000000000000, 21966382515756820000000000000000000, -33000187558233751000000000000000000⟩,
   ⟨-64999999999997742000000000000000, 1036015409263926400000000000000, -154917112875122830000000000000000, 103594879161891920000000000000000⟩,
   ⟨-64999999999997716000000000000000, 263805874226887690000000000000, -3297573427836077200000000000000, -98927202835082935000000000000000⟩,
   ⟨-64999999999997716000000000000000, -511123881314595000000000000000, -28550390738204926000000000000000000, 34406881146041837000000000000000000⟩,
   ⟨-65000000000000578000000000000000, -27963422668050100000000000000000, 5722899905206099600000000000000000, -52263926074944353000000000000000⟩,
   ⟨-65000000000000552000000000000000, 28873596938448823000000000000000, 21966382515756820000000000000000000, -33000187558233751000000000000000000⟩,
   ⟨-64999999999997742000000000000000, 1036015409263926400000000000000, -154917112875122830000000000000000, 103594879161891920000000000000000⟩,
   ⟨-64999999999997716000000000000000, 263805874226887690000000000000, -3297573427836077200000000000000, -98927202835082935000000000000000⟩,
   ⟨-64999999999997716000000000000000, -511123881314595000000000000000, -28550390738204926000000000000000000, 34406881146041837000000000000000000⟩,
   ⟨-65000000000000578000000000000000, -27963422668050100000000000000000, 5722899905206099600000000000000000, -52263926074944353000000000000000⟩,
   ⟨-65000000000000552000000000000000, 28873596938448823000000000000000, 21966382515756820000000000000000000, -33000187558233751000000000000000000⟩,
   ⟨-64999999999997742000000000000000, 1036015409263926400000000000000, -154917112875122830000000000000000, 103594879161891920000000000000000⟩,
   ⟨-64999999999997716000000000000000, 263805874226887690000000000000, -3297573427836077200000000000000, -98927202835082935000000000000000⟩,
   ⟨-64999999999997716000000000000000, -511123881314595000000000000000, -28550390738204926000000000000000000, 34406881146041837000000000000000000⟩,
   ⟨-65000000000000578000000000000000, -27963422668050100000000000000000, 5722899905206099600000000000000000, -52263926074944353000000000000000⟩,
   ⟨-65000000000000552000000000000000, 28873596938448823000000000000000, 21966382515756820000000000000000000, -33000187558233751000000000000000000⟩,
   ⟨-64999999999997742000000000000000, 1036015409263926400000000000000, -154917112875122830000000000000000, 103594879161891920000000000000000⟩,
   ⟨-64999999999997716000000000000000, 263805874226887690000000000000, -3297573427836077200000000000000, -98927202835082935000000000000000⟩,
   ⟨-64999999999997716000000000000000, -511123881314595000000000000000, -28550390738204926000000000000000000, 34406881146041837000000000000000000⟩,
   ⟨-65000000000000578000000000000000, -27963422668050100000000000000000, 5722899905206099600000000000000000, -52263926074944353000000000000000⟩,
   ⟨-65000000000000552000000000000000, 28873596938448823000000000000000, 21966382515756820000000000000000000, -33000187558233751000000000000000000⟩,
   ⟨-64999999999997742000000000000000, 1036015409263926400000000000000, -154917112875122830000000000000000, 103594879161891920000000000000000⟩,
   ⟨-64999999999997716000000000000000, 263805874226887690000000000000, -3297573427836077200000000000000, -98927202835082935000000000000000⟩,
   ⟨-64999999999997716000000000000000, -511123881314595000000000000000, -28550390738204926000000000000000000, 34406881146041837000000000000000000⟩,
   ⟨-65000000000000578000000000000000, -27963422668050100000000000000000, 5722899905206099600000000000000000, -52263926074944353000000000000000⟩,
   ⟨-65000000000000552000000000000000, 28873596938448823000000000000000, 21966382515756820000000000000000000, -33000187558233751000000000000000000⟩,
   ⟨-64999999999997742000000000000000, 1036015409263926400000000000000, -154917112875122830000000000000000, 103594879161891920000000000000000⟩,
   ⟨-64999999999997716000000000000000, 263805874226887690000000000000, -3297573427836077200000000000000, -98927202835082935000000000000000⟩,
   ⟨-64999999999997716000000000000000, -511123881314595000000000000000, -28550390738204926000000000000000000, 34406881146041837000000000000000000⟩,
   ⟨-65000000000000578000000000000000, -27963422668050100000000000000000, 5722899905206099600000000000000000, -52263926074944353000000000000000⟩,
   ⟨-65000000000000552000000000000000, 28873596938448823000000000000000, 21966382515756820000000000000000000, -33000187558233751000000000000000000⟩,
   ⟨-64999999999997742000000000000000, 1036015409263926400000000000000, -154917112875122830000000000000000, 103594879161891920000000000000000⟩,
   ⟨-64999999999997716000000000000000, 263805874226887690000000000000, -3297573427836077200000000000000, -98927202835082935000000000000000⟩,
   ⟨-64999999999997716000000000000000, -511123881314595000000000000000, -28550390738204926000000000000000000, 34406881146041837000000000000000000⟩,
   ⟨-65000000000000578000000000000000, -27963422668050100000000000000000, 5722899905206099600000000000000000, -52263926074944353000000000000000⟩,
   ⟨-65000000000000552000000000000000, 28873596938448823000000000000000, 21966382515756820000000000000000000, -33000187558233751000000000000000000⟩,
   ⟨-64999999999997742000000000000000, 1036015409263926400000000000000, -154917112875122830000000000000000, 103594879161891920000000000000000⟩,
   ⟨-64999999999997716000000000000000, 263805874226887690000000000000, -3297573427836077200000000000000, -98927202835082935000000000000000⟩,
   ⟨-64999999999997716000000000000000, -511123881314595000000000000000, -28550390738204926000000000000000000, 34406881146041837000000000000000000⟩,
   ⟨-65000000000000578000000000000000, -27963422668050100000000000000000, 5722899905206099600000000000000000, -52263926074944353000000000000000⟩]
/-- `atm_data.akima_dT`, aviary/subsystems/atmosphere/data/StandardAtm1976.py:2910-3601 (part 5) -/
def standarddTRows_4 : List IRow :=
  [⟨-65000000000000552000000000000000, 28873596938448823000000000000000, 21966382515756820000000000000000000, -33000187558233751000000000000000000⟩,
   ⟨-64999999999997742000000000000000, 1036015409263926400000000000000, -154917112875122830000000000000000, 103594879161891920000000000000000⟩,
   ⟨-64999999999997716000000000000000, 263805874226887690000000000000, -3297573427836077200000000000000, -98927202835082935000000000000000⟩,
   ⟨-64999999999997716000000000000000, -511123881314595000000000000000, -28550390738204926000000000000000000, 34406881146041837000000000000000000⟩,
   ⟨-65000000000000578000000000000000, -27963422668050100000000000000000, 5722899905206099600000000000000000, -52263926074944353000000000000000⟩,
   ⟨-65000000000000552000000000000000, 28873596938448823000000000000000, 21966382515756820000000000000000000, -33000187558233751000000000000000000⟩,
   ⟨-64999999999997742000000000000000, 1036015409263926400000000000000, -154917112875122830000000000000000, 103594879161891920000000000000000⟩,
   ⟨-64999999999997716000000000000000, 263805874226887690000000000000, -3297573427836077200000000000000, -98927202835082935000000000000000⟩,
   ⟨-64999999999997716000000000000000, -511123881314595000000000000000, -28550390738204926000000000000000000, 34406881146041837000000000000000000⟩,
   ⟨-65000000000000578000000000000000, -27963422668050100000000000000000, 5722899905206099600000000000000000, -52263926074944353000000000000000⟩,
   ⟨-65000000000000552000000000000000, 28873596938448823000000000000000, 21966382515756820000000000000000000, -33000187558233751000000000000000000⟩,
   ⟨-64999999999997742000000000000000, 1036015409263926400000000000000, -154917112875122830000000000000000, 103594879161891920000000000000000⟩,
   ⟨-64999999999997716000000000000000, 263805874226887690000000000000, -3297573427836077200000000000000, -98927202835082935000000000000000⟩,
   ⟨-64999999999997716000000000000000, -511123881314595000000000000000, -28550390738204926000000000000000000, 34406881146041837000000000000000000⟩,
   ⟨-65000000000000578000000000000000, -27963422668050100000000000000000, 5722899905206099600000000000000000, -52263926074944353000000000000000⟩,
   ⟨-65000000000000552000000000000000, 28873596938448823000000000000000, 21966382515756820000000000000000000, -33000187558233751000000000000000000⟩,
   ⟨-64999999999997742000000000000000, 1036015409263926400000000000000, -154917112875122830000000000000000, 103594879161891920000000000000000⟩,
   ⟨-64999999999997716000000000000000, 263805874226887690000000000000, -3297573427836077200000000000000, -98927202835082935000000000000000⟩,
   ⟨-64999999999997716000000000000000, -511123881314595000000000000000, -28550390738204926000000000000000000, 34406881146041837000000000000000000⟩,
   ⟨-65000000000000578000000000000000, -27963422668050100000000000000000, 5722899905206099600000000000000000, -52263926074944353000000000000000⟩,
   ⟨-65000000000000552000000000000000, 28873596938448823000000000000000, 21966382515756820000000000000000000, -33000187558233751000000000000000000⟩,
   ⟨-64999999999997742000000000000000, 1036015409263926400000000000000, -154917112875122830000000000000000, 103594879161891920000000000000000⟩,
   ⟨-64999999999997716000000000000000, 263805874226887690000000000000, -3297573427836077200000000000000, -98927202835082935000000000000000⟩,
   ⟨-64999999999997716000000000000000, -511123881314595000000000000000, -28550390738204926000000000000000000, 34406881146041837000000000000000000⟩,
   ⟨-65000000000000578000000000000000, -27963422668050100000000000000000, 5722899905206099600000000000000000, -52263926074944353000000000000000⟩,
   ⟨-65000000000000552000000000000000, 28873596938448823000000000000000, 21966382515756820000000000000000000, -33000187558233751000000000000000000⟩,
   ⟨-64999999999997742000000000000000, 1036015409263926400000000000000, -154917112875122830000000000000000, 103594879161891920000000000000000⟩,
   ⟨-64999999999997716000000000000000, 263805874226887690000000000000, -3297573427836077200000000000000, -98927202835082935000000000000000⟩,
   ⟨-64999999999997716000000000000000, -511123881314595000000000000000, -28550390738204926000000000000000000, 34406881146041837000000000000000000⟩,
   ⟨-65000000000000578000000000000000, -27963422668050100000000000000000, 5722899905206099600000000000000000, -52263926074944353000000000000000⟩,
   ⟨-65000000000000552000000000000000, 28873596938448823000000000000000, 21966382515756820000000000000000000, -33000187558233751000000000000000000⟩,
   ⟨-64999999999997742000000000000000, 1036015409263926400000000000000, -154917112875122830000000000000000, 103594879161891920000000000000000⟩,
   ⟨-64999999999997716000000000000000, 263805874226887690000000000000, -3297573427836077200000000000000, -98927202835082935000000000000000⟩,
   ⟨-64999999999997716000000000000000, -511123881314595000000000000000, -28550390738204926000000000000000000, 34406881146041837000000000000000000⟩,
   ⟨-65000000000000578000000000000000, -27963422668050100000000000000000, 5722899905206099600000000000000000, -52263926074944353000000000000000⟩,
   ⟨-65000000000000552000000000000000, 28873596938448823000000000000000, 21966382515756820000000000000000000, -33000187558233751000000000000000000⟩,
   ⟨-64999999999997742000000000000000, 1036015409263926400000000000000, -154917112875122830000000000000000, 103594879161891920000000000000000⟩,
   ⟨-64999999999997716000000000000000, 263805874226887690000000000000, -3297573427836077200000000000000, -98927202835082935000000000000000⟩,
   ⟨-64999999999997716000000000000000, -511123881314595000000000000000, -28550390738204926000000000000000000, 34406881146041837000000000000000000⟩,
   ⟨-65000000000000578000000000000000, -27963422668050100000000000000000, 5722899905206099600000000000000000, -52263926074944353000000000000000⟩,
   ⟨-65000000000000552000000000000000, 28873596938448823000000000000000, 21966382515756820000000000000000000, -33000187558233751000000000000000000⟩,
   ⟨-64999999999997742000000000000000, 1036015409263926400000000000000, -154917112875122830000000000000000, 103594879161891920000000000000000⟩,
   ⟨-64999999999997716000000000000000, 263805874226887690000000000000, -3297573427836077200000000000000, -98927202835082935000000000000000⟩,
   ⟨-64999999999997716000000000000000, -511123881314595000000000000000, -28550390738204926000000000000000000, 34406881146041837000000000000000000⟩,
   ⟨-65000000000000578000000000000000, -27963422668050100000000000000000, 5722899905206099600000000000000000, -52263926074944353000000000000000⟩,
   ⟨-65000000000000552000000000000000, 28873596938448823000000000000000, 21966382515756820000000000000000000, -33000187558233751000000000000000000⟩,
   ⟨-64999999999997742000000000000000, 1036015409263926400000000000000, -154917112875122830000000000000000, 103594879161891920000000000000000⟩,
   ⟨-64999999999997716000000000000000, 263805874226887690000000000000, -3297573427836077200000000000000, -98927202835082935000000000000000⟩,
   ⟨-64999999999997716000000000000000, -511123881314595000000000000000, -28550390738204926000000000000000000, 34406881146041837000000000000000000⟩,
   ⟨-65000000000000578000000000000000, -27963422668050100000000000000000, 5722899905206099600000000000000000, -52263926074944353000000000000000⟩,
   ⟨-65000000000000552000000000000000, 28873596938448823000000000000000, 21966382515756820000000000000000000, -33000187558233751000000000000000000⟩,
   ⟨-64999999999997742000000000000000, 1036015409263926400000000000000, -154917112875122830000000000000000, 103594879161891920000000000000000⟩,
   ⟨-64999999999997716000000000000000, 263805874226887690000000000000, -3297573427836077200000000000000, -98927202835082935000000000000000⟩,
   ⟨-64999999999997716000000000000000, -511123881314595000000000000000, -28550390738204926000000000000000000, 34406881146041837000000000000000000⟩,
   ⟨-65000000000000578000000000000000, -27963422668050100000000000000000, 5722899905206099600000000000000000, -52263926074944353000000000000000⟩,
   ⟨-65000000000000552000000000000000, 28873596938448823000000000000000, 21966382515756820000000000000000000, -33000187558233751000000000000000000⟩,
   ⟨-64999999999997742000000000000000, 1036015409263926400000000000000, -154917112875122830000000000000000, 103594879161891920000000000000000⟩,
   ⟨-64999999999997716000000000000000, 263805874226887690000000000000, -3297573427836077200000000000000, -98927202835082935000000000000000⟩,
   ⟨-64999999999997716000000000000000, -511123881314595000000000000000, -28550390738204926000000000000000000, 34406881146041837000000000000000000⟩,
   ⟨-65000000000000578000000000000000, -27963422668050100000000000000000, 5722899905206099600000000000000000, -52263926074944353000000000000000⟩,
   ⟨-65000000000000552000000000000000, 28873596938448823000000000000000, 21966382515756820000000000000000000, -33000187558233751000000000000000000⟩,
   ⟨-64999999999997742000000000000000, 1036015409263926400000000000000, -172042034257429120000000000000000, 137844721926504570000000000000000⟩,
   ⟨-64999999999997716000000000000000, 349430481138419230000000000000, -139772192455358600000000000000000, 139772192455349480000000000000000⟩,
   ⟨-64999999999997716000000000000000, -45555650607614723, -68278716014447099000000000000000000, 91038288019262807000000000000000000⟩]
/-- `atm_data.akima_dT`, aviary/subsystems/atmosphere/data/StandardAtm1976.py:2910-3601 (part 6) -/
def standarddTRows_5 : List IRow :=
  [⟨-65000000000003406000000000000000, -57870491117396747, 780000000000041490000000000000000000000000000000, -1040000000000055500000000000000000000000000000000⟩,
   ⟨52041704279304213, -45550406094357202, -156125112837903530000000000000000, 104083408558603870000000000000000⟩,
   ⟨0, 0, 0, 0⟩,
   ⟨0, 0, 0, 0⟩,
   ⟨0, 0, 0, 0⟩,
   ⟨0, 0, 0, 0⟩,
   ⟨0, 0, 0, 0⟩,
   ⟨0, 0, 0, 0⟩,
   ⟨0, 0, 0, 0⟩,
   ⟨0, 0, 0, 0⟩,
   ⟨0, 0, 0, 0⟩,
   ⟨0, 0, 0, 0⟩,
   ⟨0, 0, 0, 0⟩,
   ⟨0, 0, 0, 0⟩,
   ⟨0, 0, 0, 0⟩,
   ⟨0, 0, 0, 0⟩,
   ⟨0, 0, 0, 0⟩,
   ⟨0, 0, 0, 0⟩,
   ⟨0, 0, 0, 0⟩,
   ⟨0, 0, 0, 0⟩,
   ⟨0, 0, 0, 0⟩,
   ⟨0, 0, 0, 0⟩,
   ⟨0, 0, 0, 0⟩,
   ⟨0, 0, 0, 0⟩,
   ⟨0, 0, 0, 0⟩,
   ⟨0, 0, 0, 0⟩,
   ⟨0, 0, 0, 0⟩,
   ⟨0, 0, 0, 0⟩,
   ⟨0, 0, 0, 0⟩,
   ⟨0, 0, 0, 0⟩,
   ⟨0, 0, 0, 0⟩,
   ⟨0, 0, 0, 0⟩,
   ⟨0, 0, 0, 0⟩,
   ⟨0, 0, 0, 0⟩,
   ⟨0, 0, 0, 0⟩,
   ⟨0, 0, 0, 0⟩,
   ⟨0, 0, 0, 0⟩,
   ⟨0, 0, 0, 0⟩,
   ⟨0, 0, 0, 0⟩,
   ⟨0, 0, 0, 0⟩,
   ⟨0, 0, 0, 0⟩,
   ⟨0, 0, 0, 0⟩,
   ⟨0, 0, 0, 0⟩,
   ⟨0, 0, 0, 0⟩,
   ⟨0, 0, 0, 0⟩,
   ⟨0, 0, 0, 0⟩,
   ⟨0, 0, 0, 0⟩,
   ⟨0, 0, 0, 0⟩,
   ⟨0, 0, 0, 0⟩,
   ⟨0, 0, 0, 0⟩,
   ⟨0, 0, 0, 0⟩,
   ⟨0, 0, 0, 0⟩,
   ⟨0, 0, 0, 0⟩,
   ⟨0, 0, 0, 0⟩,
   ⟨0, 0, 0, 0⟩,
   ⟨0, 0, 0, 0⟩,
   ⟨0, 0, 0, 0⟩,
   ⟨0, 0, 0, 0⟩,
   ⟨0, 0, 0, 0⟩,
   ⟨0, 0, 0, 0⟩,
   ⟨0, 0, 0, 0⟩,
   ⟨0, 0, 0, 0⟩,
   ⟨0, 0, 0, 0⟩,
   ⟨0, 0, 0, 0⟩]
/-- `atm_data.akima_dT`, aviary/subsystems/atmosphere/data/StandardAtm1976.py:2910-3601 (part 7) -/
def standarddTRows_6 : List IRow :=
  [⟨0, 0, 0, 0⟩,
   ⟨0, 0, 0, 0⟩,
   ⟨0, 0, 0, 0⟩,
   ⟨0, 0, 0, 0⟩,
   ⟨0, 0, 0, 0⟩,
   ⟨0, 0, 0, 0⟩,
   ⟨0, 0, 0, 0⟩,
   ⟨0, 0, 0, 0⟩,
   ⟨0, 0, 0, 0⟩,
   ⟨0, 0, 0, 0⟩,
   ⟨0, 0, 0, 0⟩,
   ⟨0, 0, 0, 0⟩,
   ⟨0, 0, 0, 0⟩,
   ⟨0, 0, 0, 0⟩,
   ⟨0, 0, 0, 0⟩,
   ⟨0, 0, 0, 0⟩,
   ⟨0, 0, 0, 0⟩,
   ⟨0, 0, 0, 0⟩,
   ⟨0, 0, 0, 0⟩,
   ⟨0, 0, 0, 0⟩,
   ⟨0, 0, 0, 0⟩,
   ⟨0, 0, 0, 0⟩,
   ⟨0, 0, 0, 0⟩,
   ⟨0, 0, 0, 0⟩,
   ⟨0, 0, 0, 0⟩,
   ⟨0, 0, 0, 0⟩,
   ⟨0, 0, 9999999999999430400000000000000000000000000000, -4999999999999713900000000000000000000000000000⟩,
   ⟨4999999999999715000000000000000, 49999999999997158000000000000000000000000000, 4999999999999719900000000000000000000000000000, -4999999999999719100000000000000000000000000000⟩,
   ⟨9999999999999432100000000000000, 0, 0, 0⟩,
   ⟨9999999999999432100000000000000, 0, 0, 0⟩,
   ⟨9999999999999432100000000000000, 0, 13010426069826052000000000000000, -8673617379884036900000000000000⟩,
   ⟨9999999999999436400000000000000, 0, -13010426069826052000000000000000, 8673617379884036900000000000000⟩,
   ⟨9999999999999432100000000000000, 0, 0, 0⟩,
   ⟨9999999999999432100000000000000, 0, 0, 0⟩,
   ⟨9999999999999432100000000000000, 0, 0, 0⟩,
   ⟨9999999999999432100000000000000, 0, 13010426069826052000000000000000, -8673617379884036900000000000000⟩,
   ⟨9999999999999436400000000000000, 0, -13010426069826052000000000000000, 8673617379884036900000000000000⟩,
   ⟨9999999999999432100000000000000, 0, 0, 0⟩,
   ⟨9999999999999432100000000000000, 0, 0, 0⟩,
   ⟨9999999999999432100000000000000, 0, 0, 0⟩,
   ⟨9999999999999432100000000000000, 0, 13010426069826052000000000000000, -8673617379884036900000000000000⟩,
   ⟨9999999999999436400000000000000, 0, -13010426069826052000000000000000, 8673617379884036900000000000000⟩,
   ⟨9999999999999432100000000000000, 0, 0, 0⟩,
   ⟨9999999999999432100000000000000, 0, 0, 0⟩,
   ⟨9999999999999432100000000000000, 0, 0, 0⟩,
   ⟨9999999999999432100000000000000, 0, 13010426069826052000000000000000, -8673617379884036900000000000000⟩,
   ⟨9999999999999436400000000000000, 0, -13010426069826052000000000000000, 8673617379884036900000000000000⟩,
   ⟨9999999999999432100000000000000, 0, 0, 0⟩,
   ⟨9999999999999432100000000000000, 0, 0, 0⟩,
   ⟨9999999999999432100000000000000, 0, 0, 0⟩,
   ⟨9999999999999432100000000000000, 0, 13010426069826052000000000000000, -8673617379884036900000000000000⟩,
   ⟨9999999999999436400000000000000, 0, -13010426069826052000000000000000, 8673617379884036900000000000000⟩,
   ⟨9999999999999432100000000000000, 0, 0, 0⟩,
   ⟨9999999999999432100000000000000, 0, 0, 0⟩,
   ⟨9999999999999432100000000000000, 0, 0, 0⟩,
   ⟨9999999999999432100000000000000, 0, 13010426069826052000000000000000, -8673617379884036900000000000000⟩,
   ⟨9999999999999436400000000000000, 0, -13010426069826052000000000000000, 8673617379884036900000000000000⟩,
   ⟨9999999999999432100000000000000, 0, 0, 0⟩,
   ⟨9999999999999432100000000000000, 0, 0, 0⟩,
   ⟨9999999999999432100000000000000, 0, 0, 0⟩,
   ⟨9999999999999432100000000000000, 0, 13010426069826052000000000000000, -8673617379884036900000000000000⟩,
   ⟨9999999999999436400000000000000, 0, -13010426069826052000000000000000, 8673617379884036900000000000000⟩,
   ⟨9999999999999432100000000000000, 0, 0, 0⟩,
   ⟨9999999999999432100000000000000, 0, 0, 0⟩]
/-- `atm_data.akima_dT`, aviary/subsystems/atmosphere/data/StandardAtm1976.py:2910-3601 (part 8) -/
def standarddTRows_7 : List IRow :=
  [⟨9999999999999432100000000000000, 0, 0, 0⟩,
   ⟨9999999999999432100000000000000, 0, 13010426069826052000000000000000, -8673617379884036900000000000000⟩,
   ⟨9999999999999436400000000000000, 0, -13010426069826052000000000000000, 8673617379884036900000000000000⟩,
   ⟨9999999999999432100000000000000, 0, 0, 0⟩,
   ⟨9999999999999432100000000000000, 0, 0, 0⟩,
   ⟨9999999999999432100000000000000, 0, 0, 0⟩,
   ⟨9999999999999432100000000000000, 0, 13010426069826052000000000000000, -8673617379884036900000000000000⟩,
   ⟨9999999999999436400000000000000, 0, -13010426069826052000000000000000, 8673617379884036900000000000000⟩,
   ⟨9999999999999432100000000000000, 0, 0, 0⟩,
   ⟨9999999999999432100000000000000, 0, 0, 0⟩,
   ⟨9999999999999432100000000000000, 0, 0, 0⟩,
   ⟨9999999999999432100000000000000, 0, 13010426069826052000000000000000, -8673617379884036900000000000000⟩,
   ⟨9999999999999436400000000000000, 0, -13010426069826052000000000000000, 8673617379884036900000000000000⟩,
   ⟨9999999999999432100000000000000, 0, 0, 0⟩,
   ⟨9999999999999432100000000000000, 0, 0, 0⟩,
   ⟨9999999999999432100000000000000, 0, 0, 0⟩,
   ⟨9999999999999432100000000000000, 0, 13010426069826052000000000000000, -8673617379884036900000000000000⟩,
   ⟨9999999999999436400000000000000, 0, -13010426069826052000000000000000, 8673617379884036900000000000000⟩,
   ⟨9999999999999432100000000000000, 0, 0, 0⟩,
   ⟨9999999999999432100000000000000, 0, 0, 0⟩,
   ⟨9999999999999432100000000000000, 0, 0, 0⟩,
   ⟨9999999999999432100000000000000, 0, 13010426069826052000000000000000, -8673617379884036900000000000000⟩,
   ⟨9999999999999436400000000000000, 0, -13010426069826052000000000000000, 8673617379884036900000000000000⟩,
   ⟨9999999999999432100000000000000, 0, 0, 0⟩,
   ⟨9999999999999432100000000000000, 0, 0, 0⟩,
   ⟨9999999999999432100000000000000, 0, 0, 0⟩,
   ⟨9999999999999432100000000000000, 0, 13010426069826052000000000000000, -8673617379884036900000000000000⟩,
   ⟨9999999999999436400000000000000, 0, -13010426069826052000000000000000, 8673617379884036900000000000000⟩,
   ⟨9999999999999432100000000000000, 0, 0, 0⟩,
   ⟨9999999999999432100000000000000, 0, 0, 0⟩,
   ⟨9999999999999432100000000000000, 0, 0, 0⟩,
   ⟨9999999999999432100000000000000, 0, 13010426069826052000000000000000, -8673617379884036900000000000000⟩,
   ⟨9999999999999436400000000000000, 0, -13010426069826052000000000000000, 8673617379884036900000000000000⟩,
   ⟨9999999999999432100000000000000, 0, 0, 0⟩,
   ⟨9999999999999432100000000000000, 0, 0, 0⟩,
   ⟨9999999999999432100000000000000, 0, 0, 0⟩,
   ⟨9999999999999432100000000000000, 0, 13010426069826052000000000000000, -8673617379884036900000000000000⟩,
   ⟨9999999999999436400000000000000, 0, -13010426069826052000000000000000, 8673617379884036900000000000000⟩,
   ⟨9999999999999432100000000000000, 0, 0, 0⟩,
   ⟨9999999999999432100000000000000, 0, 0, 0⟩,
   ⟨9999999999999432100000000000000, 0, 0, 0⟩,
   ⟨9999999999999432100000000000000, 0, 13010426069826052000000000000000, -8673617379884036900000000000000⟩,
   ⟨9999999999999436400000000000000, 0, -13010426069826052000000000000000, 8673617379884036900000000000000⟩,
   ⟨9999999999999432100000000000000, 0, 0, 0⟩,
   ⟨9999999999999432100000000000000, 0, 0, 0⟩,
   ⟨9999999999999432100000000000000, 0, 0, 0⟩,
   ⟨9999999999999432100000000000000, 0, 13010426069826052000000000000000, -8673617379884036900000000000000⟩,
   ⟨9999999999999436400000000000000, 0, -13010426069826052000000000000000, 8673617379884036900000000000000⟩,
   ⟨9999999999999432100000000000000, 0, 0, 0⟩,
   ⟨9999999999999432100000000000000, 0, 0, 0⟩,
   ⟨9999999999999432100000000000000, 0, 0, 0⟩,
   ⟨9999999999999432100000000000000, 0, 13010426069826052000000000000000, -8673617379884036900000000000000⟩,
   ⟨9999999999999436400000000000000, 0, -13010426069826052000000000000000, 8673617379884036900000000000000⟩,
   ⟨9999999999999432100000000000000, 0, 0, 0⟩,
   ⟨9999999999999432100000000000000, 0, 0, 0⟩,
   ⟨9999999999999432100000000000000, 0, 0, 0⟩,
   ⟨9999999999999432100000000000000, 0, 13010426069826052000000000000000, -8673617379884036900000000000000⟩,
   ⟨9999999999999436400000000000000, 0, -13010426069826052000000000000000, 8673617379884036900000000000000⟩,
   ⟨9999999999999432100000000000000, 0, 0, 0⟩,
   ⟨9999999999999432100000000000000, 0, 0, 0⟩,
   ⟨9999999999999432100000000000000, 0, 0, 0⟩,
   ⟨9999999999999432100000000000000, 0, 13010426069826052000000000000000, -8673617379884036900000000000000⟩,
   ⟨9999999999999436400000000000000, 0, -13010426069826052000000000000000, 8673617379884036900000000000000⟩,
   ⟨9999999999999432100000000000000, 0, 0, 0⟩]
/-- `atm_data.akima_dT`, aviary/subsystems/atmosphere/data/StandardAtm1976.py:2910-3601 (part 9) -/
def standarddTRows_8 : List IRow :=
  [⟨9999999999999432100000000000000, 0, 0, 0⟩,
   ⟨9999999999999432100000000000000, 0, 0, 0⟩,
   ⟨9999999999999432100000000000000, 0, 13010426069826052000000000000000, -8673617379884036900000000000000⟩,
   ⟨9999999999999436400000000000000, 0, -13010426069826052000000000000000, 8673617379884036900000000000000⟩,
   ⟨9999999999999432100000000000000, 0, 0, 0⟩,
   ⟨9999999999999432100000000000000, 0, 0, 0⟩,
   ⟨9999999999999432100000000000000, 0, 0, 0⟩,
   ⟨9999999999999432100000000000000, 0, 13010426069826052000000000000000, -8673617379884036900000000000000⟩,
   ⟨9999999999999436400000000000000, 0, -13010426069826052000000000000000, 8673617379884036900000000000000⟩,
   ⟨9999999999999432100000000000000, 0, 0, 0⟩,
   ⟨9999999999999432100000000000000, 0, 0, 0⟩,
   ⟨9999999999999432100000000000000, 0, 0, 0⟩,
   ⟨9999999999999432100000000000000, 0, 13010426069826052000000000000000, -8673617379884036900000000000000⟩,
   ⟨9999999999999436400000000000000, 0, -13010426069826052000000000000000, 8673617379884036900000000000000⟩,
   ⟨9999999999999432100000000000000, 0, 0, 0⟩,
   ⟨9999999999999432100000000000000, 0, 0, 0⟩,
   ⟨9999999999999432100000000000000, 0, 0, 0⟩,
   ⟨9999999999999432100000000000000, 0, 2853620117982751500000000000000000, -902875957928736260000⟩,
   ⟨10000000000002286000000000000000, 57072402359627925000000000000000, 53999999999982013000000000000000000000000000000, -35999999999989904000000000000000000000000000000⟩,
   ⟨28000000000000099000000000000000, 216840434497117960000000000000, -5421010862429226700000000000000, 426563390026391690⟩,
   ⟨28000000000000121000000000000000, 0, 0, 0⟩,
   ⟨28000000000000121000000000000000, 0, 0, 0⟩,
   ⟨28000000000000121000000000000000, 0, 6505213034913026000000000000000, -2168404344971009200000000000000⟩,
   ⟨28000000000000130000000000000000, 0, -6505213034913026000000000000000, 2168404344971009200000000000000⟩,
   ⟨28000000000000121000000000000000, 0, 0, 0⟩,
   ⟨28000000000000121000000000000000, 0, 0, 0⟩,
   ⟨28000000000000121000000000000000, 0, 0, 0⟩,
   ⟨28000000000000121000000000000000, 0, 0, 0⟩,
   ⟨28000000000000121000000000000000, 0, 0, 0⟩,
   ⟨28000000000000121000000000000000, 0, 0, 0⟩,
   ⟨28000000000000121000000000000000, 0, 0, 0⟩,
   ⟨28000000000000121000000000000000, 0, 0, 0⟩,
   ⟨28000000000000121000000000000000, 0, 0, 0⟩,
   ⟨28000000000000121000000000000000, 0, 0, 0⟩,
   ⟨28000000000000121000000000000000, 0, 0, 0⟩,
   ⟨28000000000000121000000000000000, 0, 6505213034913026000000000000000, -2168404344971009200000000000000⟩,
   ⟨28000000000000130000000000000000, 0, -6505213034913026000000000000000, 2168404344971009200000000000000⟩,
   ⟨28000000000000121000000000000000, 0, 0, 0⟩,
   ⟨28000000000000121000000000000000, 0, 0, 0⟩,
   ⟨28000000000000121000000000000000, 0, 0, 0⟩,
   ⟨28000000000000121000000000000000, 0, 0, 0⟩,
   ⟨28000000000000121000000000000000, 0, 0, 0⟩,
   ⟨28000000000000121000000000000000, 0, 0, 0⟩,
   ⟨28000000000000121000000000000000, 0, 0, 0⟩,
   ⟨28000000000000121000000000000000, 0, 0, 0⟩,
   ⟨28000000000000121000000000000000, 0, 0, 0⟩,
   ⟨28000000000000121000000000000000, 0, 0, 0⟩,
   ⟨28000000000000121000000000000000, 0, 6505213034913026000000000000000, -2168404344971009200000000000000⟩,
   ⟨28000000000000130000000000000000, 0, -6505213034913026000000000000000, 2168404344971009200000000000000⟩,
   ⟨28000000000000121000000000000000, 0, 0, 0⟩,
   ⟨28000000000000121000000000000000, 0, 0, 0⟩,
   ⟨28000000000000121000000000000000, 0, 0, 0⟩,
   ⟨28000000000000121000000000000000, 0, 0, 0⟩,
   ⟨28000000000000121000000000000000, 0, 0, 0⟩,
   ⟨28000000000000121000000000000000, 0, 0, 0⟩,
   ⟨28000000000000121000000000000000, 0, 0, 0⟩,
   ⟨28000000000000121000000000000000, 0, 0, 0⟩,
   ⟨28000000000000121000000000000000, 0, 0, 0⟩,
   ⟨28000000000000121000000000000000, 0, 0, 0⟩,
   ⟨28000000000000121000000000000000, 0, 0, 0⟩,
   ⟨28000000000000121000000000000000, 0, 6505213034913026000000000000000, -2168404344971009200000000000000⟩,
   ⟨28000000000000130000000000000000, 0, -6505213034913026000000000000000, 2168404344971009200000000000000⟩,
   ⟨28000000000000121000000000000000, 0, 0, 0⟩,
   ⟨28000000000000121000000000000000, 0, 0, 0⟩]
/-- `atm_data.akima_dT`, aviary/subsystems/atmosphere/data/StandardAtm1976.py:2910-3601 (part 10) -/
def standarddTRows_9 : List IRow :=
  [⟨28000000000000121000000000000000, 0, 0, 0⟩,
   ⟨28000000000000121000000000000000, 0, 0, 0⟩,
   ⟨28000000000000121000000000000000, 0, 0, 0⟩,
   ⟨28000000000000121000000000000000, 0, 6505213034913026000000000000000, -2168404344971009200000000000000⟩,
   ⟨28000000000000130000000000000000, 0, -6505213034913026000000000000000, 2168404344971009200000000000000⟩,
   ⟨28000000000000121000000000000000, 0, 0, 0⟩,
   ⟨28000000000000121000000000000000, 0, 0, 0⟩,
   ⟨28000000000000121000000000000000, 0, 0, 0⟩,
   ⟨28000000000000121000000000000000, 0, 0, 0⟩,
   ⟨28000000000000121000000000000000, 0, 0, 0⟩,
   ⟨28000000000000121000000000000000, 0, 0, 0⟩,
   ⟨28000000000000121000000000000000, 0, 0, 0⟩,
   ⟨28000000000000121000000000000000, 0, 0, 0⟩,
   ⟨28000000000000121000000000000000, 0, 0, 0⟩,
   ⟨28000000000000121000000000000000, 0, 0, 0⟩,
   ⟨28000000000000121000000000000000, 0, 0, 0⟩,
   ⟨28000000000000121000000000000000, 0, 0, 0⟩,
   ⟨28000000000000121000000000000000, 0, 0, 0⟩,
   ⟨28000000000000121000000000000000, 0, 0, 0⟩,
   ⟨28000000000000121000000000000000, 0, 0, 0⟩,
   ⟨28000000000000121000000000000000, 0, 0, 0⟩,
   ⟨28000000000000121000000000000000, 0, 0, 0⟩,
   ⟨28000000000000121000000000000000, 0, 0, 0⟩,
   ⟨28000000000000121000000000000000, 0, 0, 0⟩,
   ⟨28000000000000121000000000000000, 0, 0, 0⟩,
   ⟨28000000000000121000000000000000, 0, 0, 0⟩,
   ⟨28000000000000121000000000000000, 0, 0, 0⟩,
   ⟨28000000000000121000000000000000, 0, 4336808689942020300000000000000, -1084202172485505800000000000000⟩,
   ⟨28000000000000130000000000000000, 43368086899420126000000000000, 1365853658536580500000000000000000000000000000, -682926829268292530000000000000000000000000000⟩,
   ⟨28000000000000121000000000000000, -27317073170731826000000000000000000000000000, -4268292682926836500000000000000000000000000000, 1067073170731708300000000000000000000000000000⟩,
   ⟨14000000000000074000000000000000, -70000000000000312000000000000000000000000000, -3500000000000024100000000000000000000000000000, 1750000000000010800000000000000000000000000000⟩,
   ⟨0, 0, 0, 0⟩,
   ⟨0, 0, 0, 0⟩,
   ⟨0, 0, 0, 0⟩,
   ⟨0, 0, 0, 0⟩,
   ⟨0, 0, 0, 0⟩,
   ⟨0, 0, 0, 0⟩,
   ⟨0, 0, 0, 0⟩,
   ⟨0, 0, 0, 0⟩,
   ⟨0, 0, 0, 0⟩,
   ⟨0, 0, 0, 0⟩,
   ⟨0, 0, 0, 0⟩,
   ⟨0, 0, 0, 0⟩,
   ⟨0, 0, 0, 0⟩,
   ⟨0, 0, 0, 0⟩,
   ⟨0, 0, 0, 0⟩,
   ⟨0, 0, -1119999999999982200000000000000000000000000000, 111999999999998250000000000000000000000000000⟩,
   ⟨-13999999999999772000000000000000, -27999999999999533000000000000000000000000000, -14789773927740354000000000000000000000000000, 2957954785548155700000000000000000000000000⟩,
   ⟨-27999999999999527000000000000000, -27260511303612452000000000000000000000000000, 1090420452144524000000000000000000000000000000, -109042045214454920000000000000000000000000000⟩,
   ⟨-27999999999999514000000000000000, -1222980050563591800000000000000, -14164914452116360000000000000000, 2832982890423042400000000000000⟩,
   ⟨-28000000000000125000000000000000, -514734327957945590000000000000, 11682713641283697000000000000000, -34744129788203730000000000000⟩,
   ⟨-28000000000000095000000000000000, 627478938829271150000000000000, 37072492443510838000000000000000, -5622300023596770300000000000000⟩,
   ⟨-27999999999999557000000000000000, 118003165482777170000000000000, -1734361389482770600000000000000, 117720902602198390000000000000⟩,
   ⟨-27999999999999527000000000000000, 32857703486148937000000000000, -211845719844907830000000000000, -89061669975614191000000000000⟩,
   ⟨-27999999999999527000000000000000, -55123120980052483000000000000, -65972751141205691000000000000000, 8627205918465359100000000000000⟩,
   ⟨-28000000000000125000000000000000, -181993796251601890000000000000, 6019186124187597700000000000000, -233000753194358790000000000000⟩,
   ⟨-28000000000000095000000000000000, 245174251271388700000000000000, 10906146080210805000000000000000, -1774147440346270400000000000000⟩,
   ⟨-27999999999999922000000000000000, 5178279032766601600000000000, -19571486241982001000000000000000, 2505805351483888000000000000000⟩,
   ⟨-28000000000000095000000000000000, -72616331552517511000000000000, -61723881819640055000000000000, 94643285456781142000000000000⟩,
   ⟨-28000000000000121000000000000000, -7806255641895631700000000000, -34694469519536085000000000000, 38163916471489746000000000000⟩,
   ⟨-28000000000000121000000000000000, 17347234759768068000000000000, 2428612866367530200000000000000, -346944695195361430000000000000⟩,
   ⟨-28000000000000095000000000000000, 0, -3122502256758253400000000000000, 416333634234433700000000000000⟩,
   ⟨-28000000000000121000000000000000, 0, 0, 0⟩,
   ⟨-28000000000000121000000000000000, 0, 0, 0⟩]
/-- `atm_data.akima_dT`, aviary/subsystems/atmosphere/data/StandardAtm1976.py:2910-3601 (part 11) -/
def standarddTRows_10 : List IRow :=
  [⟨-28000000000000121000000000000000, 0, 0, 0⟩,
   ⟨-28000000000000121000000000000000, 0, 3122502256758253400000000000000, -416333634234433700000000000000⟩,
   ⟨-28000000000000095000000000000000, 0, -3122502256758253400000000000000, 416333634234433700000000000000⟩,
   ⟨-28000000000000121000000000000000, 0, 0, 0⟩,
   ⟨-28000000000000121000000000000000, 0, 0, 0⟩,
   ⟨-28000000000000121000000000000000, 0, 0, 0⟩,
   ⟨-28000000000000121000000000000000, 0, 3122502256758253400000000000000, -416333634234433700000000000000⟩,
   ⟨-28000000000000095000000000000000, 0, -3122502256758253400000000000000, 416333634234433700000000000000⟩,
   ⟨-28000000000000121000000000000000, 0, 0, 0⟩,
   ⟨-28000000000000121000000000000000, 0, 0, 0⟩,
   ⟨-28000000000000121000000000000000, 0, 0, 0⟩,
   ⟨-28000000000000121000000000000000, 0, 3122502256758253400000000000000, -416333634234433700000000000000⟩,
   ⟨-28000000000000095000000000000000, 0, -3122502256758253400000000000000, 416333634234433700000000000000⟩,
   ⟨-28000000000000121000000000000000, 0, 0, 0⟩,
   ⟨-28000000000000121000000000000000, 0, 0, 0⟩,
   ⟨-28000000000000121000000000000000, 0, 0, 0⟩,
   ⟨-28000000000000121000000000000000, 0, 3122502256758253400000000000000, -416333634234433700000000000000⟩,
   ⟨-28000000000000095000000000000000, 0, -3122502256758253400000000000000, 416333634234433700000000000000⟩,
   ⟨-28000000000000121000000000000000, 0, 0, 0⟩,
   ⟨-28000000000000121000000000000000, 0, 0, 0⟩,
   ⟨-28000000000000121000000000000000, 0, 0, 0⟩,
   ⟨-28000000000000121000000000000000, 0, 23592239273288009000000000000000, -685631060201855920⟩,
   ⟨-27999999999999531000000000000000, 2359223927328286400000000000000, 959999999999845970000000000000000000000000000, -127999999999982520000000000000000000000000000⟩,
   ⟨-20000000000000018000000000000000, 69388939039074708000000000000, -693889390390819780000000000000, 9689835032698281⟩,
   ⟨-20000000000000000000000000000000, 0, 0, 0⟩,
   ⟨-20000000000000000000000000000000, 0, 0, 0⟩,
   ⟨-20000000000000000000000000000000, 0, 0, 0⟩,
   ⟨-20000000000000000000000000000000, 0, 0, 0⟩,
   ⟨-20000000000000000000000000000000, 0, 0, 0⟩,
   ⟨-20000000000000000000000000000000, 0, 0, 0⟩,
   ⟨-20000000000000000000000000000000, 0, 0, 0⟩,
   ⟨-20000000000000000000000000000000, 0, 0, 0⟩,
   ⟨-20000000000000000000000000000000, 0, 0, 0⟩,
   ⟨-20000000000000000000000000000000, 0, 0, 0⟩,
   ⟨-20000000000000000000000000000000, 0, 0, 0⟩,
   ⟨-20000000000000000000000000000000, 0, 0, 0⟩,
   ⟨-20000000000000000000000000000000, 0, 0, 0⟩,
   ⟨-20000000000000000000000000000000, 0, 0, 0⟩,
   ⟨-20000000000000000000000000000000, 0, 0, 0⟩,
   ⟨-20000000000000000000000000000000, 0, 0, 0⟩,
   ⟨-20000000000000000000000000000000, 0, 0, 0⟩,
   ⟨-20000000000000000000000000000000, 0, 0, 0⟩,
   ⟨-20000000000000000000000000000000, 0, 0, 0⟩,
   ⟨-20000000000000000000000000000000, 0, 0, 0⟩,
   ⟨-20000000000000000000000000000000, 0, 0, 0⟩,
   ⟨-20000000000000000000000000000000, 0, 0, 0⟩,
   ⟨-20000000000000000000000000000000, 0, 0, 0⟩,
   ⟨-20000000000000000000000000000000, 0, 0, 0⟩,
   ⟨-20000000000000000000000000000000, 0, 0, 0⟩,
   ⟨-20000000000000000000000000000000, 0, 0, 0⟩,
   ⟨-20000000000000000000000000000000, 0, 0, 0⟩]
/-- `atm_data.akima_dT`, aviary/subsystems/atmosphere/data/StandardAtm1976.py:2910-3601 -/
def standarddTRows : List IRow :=
  standarddTRows_0 ++ standarddTRows_1 ++ standarddTRows_2 ++ standarddTRows_3 ++ standarddTRows_4 ++ standarddTRows_5 ++ standarddTRows_6 ++ standarddTRows_7 ++ standarddTRows_8 ++ standarddTRows_9 ++ standarddTRows_10
/-- `atm_data.akima_dT`, aviary/subsystems/atmosphere/data/StandardAtm1976.py:2910-3601, with the column exponents. -/
def standarddT : CTab := ⟨34, 49, 53, 55, standarddTRows⟩
/-- `atm_data` of aviary/subsystems/atmosphere/data/StandardAtm1976.py. -/
def standard : AtmData := ⟨0, standardAlt, standardT, standardP, standardrho, standarddT⟩

end Verif.AtmD
