import Verif.PyFloat
/-!
# The membership function parameter tables

GENERATED by `tools/gen_tables.py` from `csu_radartools/beta_function_parameters/*.csv` (54 files).  Every entry is the
exact decimal of the CSV times 1000; `none` is the entry `nan`.  Each definition cites its file; row `i` is data row `i`.
-/
namespace Csu.Tables

/-- The six input variables, named as the dictionary keys of csu_fhc.py:301-309. -/
inductive Key | DZ | DR | KD | RH | LD | T
  deriving DecidableEq, Repr

/-- Which of the three families of CSV files, by suffix: none, `_winter`, `_ML` (beta_functions.py:154-424). -/
inductive Season | summer | winter | ml
  deriving DecidableEq, Repr

/-- One row of a CSV: centre `m`, width `a`, slope `b`, in thousandths. -/
structure RawRow where
  m : Option Int
  a : Option Int
  b : Option Int
  deriving DecidableEq, Repr

/-- S-band_Reflectivity.csv, lines 2-11 -/
def tabS_summer_DZ : List RawRow :=
  [⟨some 2000, some 29000, some 10000⟩,
   ⟨some 41500, some 15500, some 10000⟩,
   ⟨some (-3000), some 22000, some 20000⟩,
   ⟨some 17000, some 17000, some 15000⟩,
   ⟨some 21000, some 22000, some 10000⟩,
   ⟨some (-3000), some 22000, some 20000⟩,
   ⟨some 37000, some 8000, some 8000⟩,
   ⟨some 49000, some 9000, some 6000⟩,
   ⟨some 58000, some 12000, some 10000⟩,
   ⟨some 57000, some 9000, some 10000⟩]

/-- S-band_Differential_Reflectivity.csv, lines 2-11 -/
def tabS_summer_DR : List RawRow :=
  [⟨some 350, some 350, some 5000⟩,
   ⟨some 2600, some 2800, some 9000⟩,
   ⟨some 3200, some 2800, some 10000⟩,
   ⟨some 600, some 600, some 7000⟩,
   ⟨some 1300, some 1300, some 10000⟩,
   ⟨some (-900), some 900, some 10000⟩,
   ⟨some 300, some 800, some 6000⟩,
   ⟨some 1000, some 1900, some 8000⟩,
   ⟨some 140, some 550, some 8000⟩,
   ⟨some 4000, some 1700, some 8000⟩]

/-- S-band_Specific_Differential_Phase.csv, lines 2-11 -/
def tabS_summer_KD : List RawRow :=
  [⟨some 10, some 10, some 2000⟩,
   ⟨some 3700, some 4000, some 10000⟩,
   ⟨some 43, some 43, some 6000⟩,
   ⟨some 40, some 50, some 1000⟩,
   ⟨some 130, some 500, some 6000⟩,
   ⟨some (-230), some 230, some 3000⟩,
   ⟨some 200, some 560, some 3000⟩,
   ⟨some 550, some 1155, some 3000⟩,
   ⟨some 200, some 800, some 6000⟩,
   ⟨some 1600, some 1500, some 6000⟩]

/-- S-band_Correlation_Coefficient.csv, lines 2-11 -/
def tabS_summer_RH : List RawRow :=
  [⟨some 1000, some 15, some 3000⟩,
   ⟨some 1000, some 20, some 2000⟩,
   ⟨some 1000, some 20, some 3000⟩,
   ⟨some 998, some 20, some 3000⟩,
   ⟨some 780, some 200, some 10000⟩,
   ⟨some 970, some 40, some 3000⟩,
   ⟨some 1000, some 10, some 1000⟩,
   ⟨some 1000, some 40, some 4000⟩,
   ⟨some 960, some 100, some 3000⟩,
   ⟨some 980, some 40, some 3000⟩]

/-- S-band_Linear_Depolarization_Ratio.csv, lines 2-11 -/
def tabS_summer_LD : List RawRow :=
  [⟨some (-48380), some 5500, some 10000⟩,
   ⟨some (-25000), some 5500, some 4000⟩,
   ⟨some (-23330), some 7980, some 20000⟩,
   ⟨some (-46455), some 19675, some 20000⟩,
   ⟨some (-13605), some 6445, some 8000⟩,
   ⟨some (-29680), some 11900, some 20000⟩,
   ⟨some (-43180), some 12920, some 8000⟩,
   ⟨some (-35895), some 13205, some 3000⟩,
   ⟨some (-22245), some 7765, some 8000⟩,
   ⟨some (-34080), some 3060, some 10000⟩]

/-- S-band_Temperature.csv, lines 2-11 -/
def tabS_summer_T : List RawRow :=
  [⟨some 40000, some 41000, some 50000⟩,
   ⟨some 48000, some 51000, some 30000⟩,
   ⟨some (-50000), some 50000, some 25000⟩,
   ⟨some (-25000), some 26000, some 15000⟩,
   ⟨some 1000, some 3500, some 5000⟩,
   ⟨some (-50000), some 50000, some 25000⟩,
   ⟨some (-50000), some 50000, some 25000⟩,
   ⟨some (-2500), some 20000, some 2000⟩,
   ⟨some 0, some 100000, some 5000⟩,
   ⟨some 48000, some 51000, some 30000⟩]

/-- S-band_Reflectivity_winter.csv, lines 2-7 -/
def tabS_winter_DZ : List RawRow :=
  [⟨some 6000, some 11000, some 5000⟩,
   ⟨some 12000, some 13000, some 5000⟩,
   ⟨some 17000, some 14000, some 5000⟩,
   ⟨some 28000, some 12000, some 5000⟩,
   ⟨some 11320, some 28830, some 15000⟩,
   ⟨some 19530, some 29850, some 15000⟩]

/-- S-band_Differential_Reflectivity_winter.csv, lines 2-7 -/
def tabS_winter_DR : List RawRow :=
  [⟨some 0, some 1000, some 20000⟩,
   ⟨some 5500, some 3700, some 10000⟩,
   ⟨some 2630, some 1300, some 10000⟩,
   ⟨some 0, some 1000, some 15000⟩,
   ⟨some 210, some 210, some 5000⟩,
   ⟨some 1140, some 1090, some 8000⟩]

/-- S-band_Specific_Differential_Phase_winter.csv, lines 2-7 -/
def tabS_winter_KD : List RawRow :=
  [⟨some 0, some 200, some 5000⟩,
   ⟨some 130, some 130, some 5000⟩,
   ⟨some 310, some 300, some 5000⟩,
   ⟨some 0, some 200, some 5000⟩,
   ⟨some 90, some 90, some 8000⟩,
   ⟨some 1180, some 1180, some 8000⟩]

/-- S-band_Correlation_Coefficient_winter.csv, lines 2-7 -/
def tabS_winter_RH : List RawRow :=
  [⟨none, none, some 10000⟩,
   ⟨none, none, some 10000⟩,
   ⟨none, none, some 10000⟩,
   ⟨none, none, some 10000⟩,
   ⟨none, none, some 10000⟩,
   ⟨none, none, some 10000⟩]

/-- S-band_Linear_Depolarization_Ratio_winter.csv, lines 2-7 -/
def tabS_winter_LD : List RawRow :=
  [⟨none, none, some 5000⟩,
   ⟨none, none, some 5000⟩,
   ⟨none, none, some 5000⟩,
   ⟨none, none, some 5000⟩,
   ⟨none, none, some 5000⟩,
   ⟨none, none, some 5000⟩]

/-- S-band_Temperature_winter.csv, lines 2-7 -/
def tabS_winter_T : List RawRow :=
  [⟨some (-20000), some 20000, some 20000⟩,
   ⟨some (-13000), some 3000, some 20000⟩,
   ⟨some (-15000), some 3000, some 20000⟩,
   ⟨some (-4000), some 3000, some 20000⟩,
   ⟨some (-4000), some 3000, some 20000⟩,
   ⟨some 25000, some 25000, some 40000⟩]

/-- S-band_Reflectivity_ML.csv, lines 2-3 -/
def tabS_ml_DZ : List RawRow :=
  [⟨some 16000, some 17000, some 5000⟩,
   ⟨some 25000, some 23000, some 10000⟩]

/-- S-band_Differential_Reflectivity_ML.csv, lines 2-3 -/
def tabS_ml_DR : List RawRow :=
  [⟨some 500, some 1500, some 15000⟩,
   ⟨some 3000, some 5000, some 10000⟩]

/-- S-band_Specific_Differential_Phase_ML.csv, lines 2-3 -/
def tabS_ml_KD : List RawRow :=
  [⟨some 0, some 200, some 6000⟩,
   ⟨some 0, some 1000, some 6000⟩]

/-- S-band_Correlation_Coefficient_ML.csv, lines 2-3 -/
def tabS_ml_RH : List RawRow :=
  [⟨some 980, some 50, some 10000⟩,
   ⟨some 750, some 230, some 30000⟩]

/-- S-band_Linear_Depolarization_Ratio_ML.csv, lines 2-3 -/
def tabS_ml_LD : List RawRow :=
  [⟨some (-34400), some 25600, some 20000⟩,
   ⟨some (-13195), some 6855, some 8000⟩]

/-- S-band_Temperature_ML.csv, lines 2-3 -/
def tabS_ml_T : List RawRow :=
  [⟨some (-4000), some 3000, some 20000⟩,
   ⟨some 0, some 1000, some 15000⟩]

/-- C-band_Reflectivity.csv, lines 2-11 -/
def tabC_summer_DZ : List RawRow :=
  [⟨some 1750, some 29000, some 10000⟩,
   ⟨some 39000, some 19000, some 10000⟩,
   ⟨some (-3000), some 22000, some 20000⟩,
   ⟨some 17000, some 18100, some 10000⟩,
   ⟨some 24000, some 21300, some 10000⟩,
   ⟨some (-3000), some 22000, some 20000⟩,
   ⟨some 37000, some 9200, some 8000⟩,
   ⟨some 44300, some 10200, some 6000⟩,
   ⟨some 62300, some 14300, some 10000⟩,
   ⟨some 57800, some 8500, some 10000⟩]

/-- C-band_Differential_Reflectivity.csv, lines 2-11 -/
def tabC_summer_DR : List RawRow :=
  [⟨some 460, some 460, some 5000⟩,
   ⟨some 2300, some 2200, some 9000⟩,
   ⟨some 2900, some 2700, some 10000⟩,
   ⟨some 1000, some 1100, some 7000⟩,
   ⟨some 1300, some 900, some 10000⟩,
   ⟨some (-900), some 900, some 10000⟩,
   ⟨some 900, some 900, some 6000⟩,
   ⟨some 1600, some 1200, some 3000⟩,
   ⟨some 140, some 560, some 8000⟩,
   ⟨some 4400, some 1900, some 8000⟩]

/-- C-band_Specific_Differential_Phase.csv, lines 2-11 -/
def tabC_summer_KD : List RawRow :=
  [⟨some 30, some 30, some 2000⟩,
   ⟨some 5500, some 5500, some 10000⟩,
   ⟨some 80, some 80, some 6000⟩,
   ⟨some (-8), some 300, some 1000⟩,
   ⟨some 250, some 430, some 6000⟩,
   ⟨some (-750), some 750, some 30000⟩,
   ⟨some 100, some 80, some 3000⟩,
   ⟨some 1900, some 1900, some 3000⟩,
   ⟨some 600, some 3500, some 6000⟩,
   ⟨some 3400, some 3300, some 6000⟩]

/-- C-band_Correlation_Coefficient.csv, lines 2-11 -/
def tabC_summer_RH : List RawRow :=
  [⟨some 1000, some 18, some 3000⟩,
   ⟨some 1000, some 25, some 3000⟩,
   ⟨some 980, some 25, some 3000⟩,
   ⟨some 930, some 70, some 3000⟩,
   ⟨some 740, some 250, some 10000⟩,
   ⟨some 975, some 22, some 3000⟩,
   ⟨some 1000, some 25, some 1000⟩,
   ⟨some 1000, some 40, some 2000⟩,
   ⟨some 970, some 100, some 3000⟩,
   ⟨some 990, some 30, some 3000⟩]

/-- C-band_Linear_Depolarization_Ratio.csv, lines 2-11 -/
def tabC_summer_LD : List RawRow :=
  [⟨some (-48330), some 5500, some 10000⟩,
   ⟨some (-25000), some 5500, some 4000⟩,
   ⟨some (-30060), some 14630, some 20000⟩,
   ⟨some (-34400), some 25600, some 20000⟩,
   ⟨some (-13195), some 6855, some 8000⟩,
   ⟨some (-30700), some 12900, some 20000⟩,
   ⟨some (-50840), some 24710, some 8000⟩,
   ⟨some (-44585), some 22565, some 3000⟩,
   ⟨some (-22240), some 7040, some 8000⟩,
   ⟨some (-33280), some 3130, some 10000⟩]

/-- C-band_Temperature.csv, lines 2-11 -/
def tabC_summer_T : List RawRow :=
  [⟨some 40000, some 41000, some 50000⟩,
   ⟨some 48000, some 51000, some 30000⟩,
   ⟨some (-50000), some 50000, some 25000⟩,
   ⟨some (-25000), some 26000, some 15000⟩,
   ⟨some 1000, some 3500, some 5000⟩,
   ⟨some (-50000), some 50000, some 25000⟩,
   ⟨some (-50000), some 50000, some 25000⟩,
   ⟨some (-2500), some 20000, some 2000⟩,
   ⟨some 0, some 100000, some 5000⟩,
   ⟨some 48000, some 51000, some 30000⟩]

/-- C-band_Reflectivity_winter.csv, lines 2-7 -/
def tabC_winter_DZ : List RawRow :=
  [⟨some 6000, some 11000, some 5000⟩,
   ⟨some 12000, some 13000, some 5000⟩,
   ⟨some 17000, some 14000, some 5000⟩,
   ⟨some 28000, some 12000, some 5000⟩,
   ⟨some 11320, some 28830, some 15000⟩,
   ⟨some 19530, some 29850, some 15000⟩]

/-- C-band_Differential_Reflectivity_winter.csv, lines 2-7 -/
def tabC_winter_DR : List RawRow :=
  [⟨some 0, some 1000, some 20000⟩,
   ⟨some 5500, some 3700, some 10000⟩,
   ⟨some 2630, some 1300, some 10000⟩,
   ⟨some 0, some 1000, some 15000⟩,
   ⟨some 210, some 210, some 5000⟩,
   ⟨some 1140, some 1090, some 8000⟩]

/-- C-band_Specific_Differential_Phase_winter.csv, lines 2-7 -/
def tabC_winter_KD : List RawRow :=
  [⟨some 0, some 325, some 5000⟩,
   ⟨some 270, some 260, some 5000⟩,
   ⟨some 1000, some 700, some 5000⟩,
   ⟨some 0, some 325, some 5000⟩,
   ⟨some 90, some 90, some 8000⟩,
   ⟨some 1180, some 1180, some 8000⟩]

/-- C-band_Correlation_Coefficient_winter.csv, lines 2-7 -/
def tabC_winter_RH : List RawRow :=
  [⟨none, none, some 10000⟩,
   ⟨none, none, some 10000⟩,
   ⟨none, none, some 10000⟩,
   ⟨none, none, some 10000⟩,
   ⟨none, none, some 10000⟩,
   ⟨none, none, some 10000⟩]

/-- C-band_Linear_Depolarization_Ratio_winter.csv, lines 2-7 -/
def tabC_winter_LD : List RawRow :=
  [⟨none, none, some 5000⟩,
   ⟨none, none, some 5000⟩,
   ⟨none, none, some 5000⟩,
   ⟨none, none, some 5000⟩,
   ⟨none, none, some 5000⟩,
   ⟨none, none, some 5000⟩]

/-- C-band_Temperature_winter.csv, lines 2-7 -/
def tabC_winter_T : List RawRow :=
  [⟨some (-20000), some 20000, some 20000⟩,
   ⟨some (-13000), some 3000, some 20000⟩,
   ⟨some (-15000), some 3000, some 20000⟩,
   ⟨some (-4000), some 3000, some 20000⟩,
   ⟨some (-4000), some 3000, some 20000⟩,
   ⟨some 25000, some 25000, some 40000⟩]

/-- C-band_Reflectivity_ML.csv, lines 2-3 -/
def tabC_ml_DZ : List RawRow :=
  [⟨some 16000, some 17000, some 5000⟩,
   ⟨some 35000, some 23000, some 10000⟩]

/-- C-band_Differential_Reflectivity_ML.csv, lines 2-3 -/
def tabC_ml_DR : List RawRow :=
  [⟨some 500, some 1500, some 15000⟩,
   ⟨some 3000, some 6000, some 10000⟩]

/-- C-band_Specific_Differential_Phase_ML.csv, lines 2-3 -/
def tabC_ml_KD : List RawRow :=
  [⟨some 0, some 200, some 6000⟩,
   ⟨some 0, some 1000, some 6000⟩]

/-- C-band_Correlation_Coefficient_ML.csv, lines 2-3 -/
def tabC_ml_RH : List RawRow :=
  [⟨some 980, some 20, some 10000⟩,
   ⟨some 750, some 230, some 20000⟩]

/-- C-band_Linear_Depolarization_Ratio_ML.csv, lines 2-3 -/
def tabC_ml_LD : List RawRow :=
  [⟨some (-34400), some 25600, some 20000⟩,
   ⟨some (-13195), some 6855, some 8000⟩]

/-- C-band_Temperature_ML.csv, lines 2-3 -/
def tabC_ml_T : List RawRow :=
  [⟨some (-4000), some 3000, some 20000⟩,
   ⟨some 0, some 1000, some 15000⟩]

/-- X-band_Reflectivity.csv, lines 2-11 -/
def tabX_summer_DZ : List RawRow :=
  [⟨some 2000, some 29000, some 10000⟩,
   ⟨some 42000, some 17000, some 10000⟩,
   ⟨some (-3000), some 22000, some 20000⟩,
   ⟨some 16000, some 17000, some 15000⟩,
   ⟨some 28000, some 29000, some 10000⟩,
   ⟨some (-3000), some 22000, some 20000⟩,
   ⟨some 36000, some 9000, some 8000⟩,
   ⟨some 43000, some 9000, some 5000⟩,
   ⟨some 59000, some 10300, some 6000⟩,
   ⟨some 56000, some 9000, some 10000⟩]

/-- X-band_Differential_Reflectivity.csv, lines 2-11 -/
def tabX_summer_DR : List RawRow :=
  [⟨some 450, some 450, some 5000⟩,
   ⟨some 2850, some 3020, some 9000⟩,
   ⟨some 3200, some 2600, some 10000⟩,
   ⟨some 700, some 700, some 7000⟩,
   ⟨some 1600, some 1200, some 10000⟩,
   ⟨some (-900), some 1000, some 10000⟩,
   ⟨some 300, some 1000, some 6000⟩,
   ⟨some 600, some 1500, some 2000⟩,
   ⟨some 120, some 500, some 8000⟩,
   ⟨some 4300, some 2000, some 8000⟩]

/-- X-band_Specific_Differential_Phase.csv, lines 2-11 -/
def tabX_summer_KD : List RawRow :=
  [⟨some 30, some 30, some 2000⟩,
   ⟨some 12750, some 13000, some 60000⟩,
   ⟨some 150, some 150, some 6000⟩,
   ⟨some 200, some 200, some 1000⟩,
   ⟨some (-7000), some 8100, some 6000⟩,
   ⟨some (-790), some 790, some 3000⟩,
   ⟨some 700, some 2100, some 3000⟩,
   ⟨some 1550, some 3050, some 3000⟩,
   ⟨some 500, some 1500, some 6000⟩,
   ⟨some 3600, some 3300, some 6000⟩]

/-- X-band_Correlation_Coefficient.csv, lines 2-11 -/
def tabX_summer_RH : List RawRow :=
  [⟨some 1000, some 15, some 2000⟩,
   ⟨some 1000, some 40, some 2000⟩,
   ⟨some 1000, some 30, some 3000⟩,
   ⟨some 998, some 20, some 3000⟩,
   ⟨some 700, some 260, some 10000⟩,
   ⟨some 980, some 20, some 3000⟩,
   ⟨some 1000, some 15, some 1000⟩,
   ⟨some 1000, some 35, some 1000⟩,
   ⟨some 970, some 150, some 3000⟩,
   ⟨some 980, some 30, some 3000⟩]

/-- X-band_Linear_Depolarization_Ratio.csv, lines 2-11 -/
def tabX_summer_LD : List RawRow :=
  [⟨some (-48330), some 5500, some 10000⟩,
   ⟨some (-25091), some 5500, some 4000⟩,
   ⟨some (-23445), some 8105, some 20000⟩,
   ⟨some (-45935), some 19435, some 20000⟩,
   ⟨some (-13225), some 6815, some 8000⟩,
   ⟨some (-31085), some 13300, some 20000⟩,
   ⟨some (-42325), some 13405, some 8000⟩,
   ⟨some (-34340), some 13660, some 3000⟩,
   ⟨some (-22475), some 6765, some 8000⟩,
   ⟨some (-32580), some 940, some 10000⟩]

/-- X-band_Temperature.csv, lines 2-11 -/
def tabX_summer_T : List RawRow :=
  [⟨some 40000, some 41000, some 50000⟩,
   ⟨some 48000, some 51000, some 30000⟩,
   ⟨some (-50000), some 50000, some 25000⟩,
   ⟨some (-25000), some 26000, some 15000⟩,
   ⟨some 1000, some 3500, some 5000⟩,
   ⟨some (-50000), some 50000, some 25000⟩,
   ⟨some (-50000), some 50000, some 25000⟩,
   ⟨some (-2500), some 20000, some 2000⟩,
   ⟨some 0, some 100000, some 5000⟩,
   ⟨some 48000, some 51000, some 30000⟩]

/-- X-band_Reflectivity_winter.csv, lines 2-7 -/
def tabX_winter_DZ : List RawRow :=
  [⟨some 6000, some 11000, some 5000⟩,
   ⟨some 12000, some 13000, some 5000⟩,
   ⟨some 17000, some 14000, some 5000⟩,
   ⟨some 28000, some 12000, some 5000⟩,
   ⟨some 11320, some 28830, some 15000⟩,
   ⟨some 19530, some 29850, some 15000⟩]

/-- X-band_Differential_Reflectivity_winter.csv, lines 2-7 -/
def tabX_winter_DR : List RawRow :=
  [⟨some 0, some 1000, some 20000⟩,
   ⟨some 5500, some 3700, some 10000⟩,
   ⟨some 2630, some 1300, some 10000⟩,
   ⟨some 0, some 1000, some 15000⟩,
   ⟨some 210, some 210, some 5000⟩,
   ⟨some 1140, some 1090, some 8000⟩]

/-- X-band_Specific_Differential_Phase_winter.csv, lines 2-7 -/
def tabX_winter_KD : List RawRow :=
  [⟨some (-550), some 555, some 5000⟩,
   ⟨some 460, some 450, some 5000⟩,
   ⟨some 1320, some 1280, some 5000⟩,
   ⟨some (-550), some 550, some 5000⟩,
   ⟨some 90, some 90, some 8000⟩,
   ⟨some 1180, some 1180, some 8000⟩]

/-- X-band_Correlation_Coefficient_winter.csv, lines 2-7 -/
def tabX_winter_RH : List RawRow :=
  [⟨none, none, some 10000⟩,
   ⟨none, none, some 10000⟩,
   ⟨none, none, some 10000⟩,
   ⟨none, none, some 10000⟩,
   ⟨none, none, some 10000⟩,
   ⟨none, none, some 10000⟩]

/-- X-band_Linear_Depolarization_Ratio_winter.csv, lines 2-7 -/
def tabX_winter_LD : List RawRow :=
  [⟨none, none, some 5000⟩,
   ⟨none, none, some 5000⟩,
   ⟨none, none, some 5000⟩,
   ⟨none, none, some 5000⟩,
   ⟨none, none, some 5000⟩,
   ⟨none, none, some 5000⟩]

/-- X-band_Temperature_winter.csv, lines 2-7 -/
def tabX_winter_T : List RawRow :=
  [⟨some (-20000), some 20000, some 20000⟩,
   ⟨some (-13000), some 3000, some 20000⟩,
   ⟨some (-15000), some 3000, some 20000⟩,
   ⟨some (-4000), some 3000, some 20000⟩,
   ⟨some (-4000), some 3000, some 20000⟩,
   ⟨some 25000, some 25000, some 40000⟩]

/-- X-band_Reflectivity_ML.csv, lines 2-3 -/
def tabX_ml_DZ : List RawRow :=
  [⟨some 16000, some 17000, some 5000⟩,
   ⟨some 35000, some 23000, some 10000⟩]

/-- X-band_Differential_Reflectivity_ML.csv, lines 2-3 -/
def tabX_ml_DR : List RawRow :=
  [⟨some 500, some 1500, some 15000⟩,
   ⟨some 3000, some 5000, some 10000⟩]

/-- X-band_Specific_Differential_Phase_ML.csv, lines 2-3 -/
def tabX_ml_KD : List RawRow :=
  [⟨some 0, some 200, some 6000⟩,
   ⟨some 0, some 1000, some 6000⟩]

/-- X-band_Correlation_Coefficient_ML.csv, lines 2-3 -/
def tabX_ml_RH : List RawRow :=
  [⟨some 980, some 50, some 10000⟩,
   ⟨some 750, some 230, some 30000⟩]

/-- X-band_Linear_Depolarization_Ratio_ML.csv, lines 2-3 -/
def tabX_ml_LD : List RawRow :=
  [⟨some (-34400), some 25600, some 20000⟩,
   ⟨some (-13195), some 6855, some 8000⟩]

/-- X-band_Temperature_ML.csv, lines 2-3 -/
def tabX_ml_T : List RawRow :=
  [⟨some (-4000), some 3000, some 20000⟩,
   ⟨some 0, some 1000, some 15000⟩]

/-- the 18 tables of band S -/
def csvS : Season → Key → List RawRow
  | .summer, .DZ => tabS_summer_DZ
  | .summer, .DR => tabS_summer_DR
  | .summer, .KD => tabS_summer_KD
  | .summer, .RH => tabS_summer_RH
  | .summer, .LD => tabS_summer_LD
  | .summer, .T => tabS_summer_T
  | .winter, .DZ => tabS_winter_DZ
  | .winter, .DR => tabS_winter_DR
  | .winter, .KD => tabS_winter_KD
  | .winter, .RH => tabS_winter_RH
  | .winter, .LD => tabS_winter_LD
  | .winter, .T => tabS_winter_T
  | .ml, .DZ => tabS_ml_DZ
  | .ml, .DR => tabS_ml_DR
  | .ml, .KD => tabS_ml_KD
  | .ml, .RH => tabS_ml_RH
  | .ml, .LD => tabS_ml_LD
  | .ml, .T => tabS_ml_T

/-- the 18 tables of band C -/
def csvC : Season → Key → List RawRow
  | .summer, .DZ => tabC_summer_DZ
  | .summer, .DR => tabC_summer_DR
  | .summer, .KD => tabC_summer_KD
  | .summer, .RH => tabC_summer_RH
  | .summer, .LD => tabC_summer_LD
  | .summer, .T => tabC_summer_T
  | .winter, .DZ => tabC_winter_DZ
  | .winter, .DR => tabC_winter_DR
  | .winter, .KD => tabC_winter_KD
  | .winter, .RH => tabC_winter_RH
  | .winter, .LD => tabC_winter_LD
  | .winter, .T => tabC_winter_T
  | .ml, .DZ => tabC_ml_DZ
  | .ml, .DR => tabC_ml_DR
  | .ml, .KD => tabC_ml_KD
  | .ml, .RH => tabC_ml_RH
  | .ml, .LD => tabC_ml_LD
  | .ml, .T => tabC_ml_T

/-- the 18 tables of band X -/
def csvX : Season → Key → List RawRow
  | .summer, .DZ => tabX_summer_DZ
  | .summer, .DR => tabX_summer_DR
  | .summer, .KD => tabX_summer_KD
  | .summer, .RH => tabX_summer_RH
  | .summer, .LD => tabX_summer_LD
  | .summer, .T => tabX_summer_T
  | .winter, .DZ => tabX_winter_DZ
  | .winter, .DR => tabX_winter_DR
  | .winter, .KD => tabX_winter_KD
  | .winter, .RH => tabX_winter_RH
  | .winter, .LD => tabX_winter_LD
  | .winter, .T => tabX_winter_T
  | .ml, .DZ => tabX_ml_DZ
  | .ml, .DR => tabX_ml_DR
  | .ml, .KD => tabX_ml_KD
  | .ml, .RH => tabX_ml_RH
  | .ml, .LD => tabX_ml_LD
  | .ml, .T => tabX_ml_T

/-- The file `fdir + band + '-band_' + variable + suffix + '.csv'`, beta_functions.py:120-131 and its callers, for the
shipped directory; `none` when there is no such file.  Bands are case sensitive. -/
def csv (band : String) (s : Season) (k : Key) : Option (List RawRow) :=
  if band = "S" then some (csvS s k)
  else if band = "C" then some (csvC s k)
  else if band = "X" then some (csvX s k)
  else none

end Csu.Tables
