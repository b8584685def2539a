/-!
# The text of the parameter files

GENERATED by `tools/gen_csv.py`: the files of `csu_radartools/beta_function_parameters`, byte for byte.
-/
namespace Csu.Csv

/-- C-band_Correlation_Coefficient.csv -/
def txtC_Correlation_Coefficient : String :=
  ",m,a,b\nDrizzle,1.000,0.018,3.000\nRain,1.000,0.025,3.000\nIce Crystals,0.980,0.025,3.000\nAggregates,0.930,0.070,3.000\nWet Snow,0.740,0.250,10.000\nVertical Ice,0.975,0.022,3.000\nLow-Density Graupel,1.000,0.025,1.000\nHigh-Density Graupel,1.000,0.040,2.000\nHail,0.970,0.100,3.000\nBig Drops,0.990,0.030,3.000\n"

/-- C-band_Correlation_Coefficient_ML.csv -/
def txtC_Correlation_Coefficient_ML : String :=
  ",m,a,b\nOther,0.98,0.02,10.000\nWet Snow,0.750,0.23,20.000\n"

/-- C-band_Correlation_Coefficient_winter.csv -/
def txtC_Correlation_Coefficient_winter : String :=
  ",m,a,b\nIC,nan,nan,10\nPL,nan,nan,10 \nDN,nan,nan,10 \nAG,nan,nan,10 \nSL,nan,nan,10 \nRN,nan,nan,10 \n"

/-- C-band_Differential_Reflectivity.csv -/
def txtC_Differential_Reflectivity : String :=
  ",m,a,b\nDrizzle,0.46,0.46,5.00\nRain,2.30,2.20,9.00\nIce Crystals,2.90,2.70,10.00\nAggregates,1.00,1.10,7.00\nWet Snow,1.30,0.90,10.00\nVertical Ice,-0.90,0.90,10.00\nLow-Density Graupel,0.90,0.90,6.00\nHigh-Density Graupel,1.60,1.20,3.00\nHail,0.14,0.56,8.00\nBig Drops,4.40,1.90,8.00\n"

/-- C-band_Differential_Reflectivity_ML.csv -/
def txtC_Differential_Reflectivity_ML : String :=
  ",m,a,b\nOther,0.5,1.5,15.0\nWet Snow,3.0,6.0,10.00\n"

/-- C-band_Differential_Reflectivity_winter.csv -/
def txtC_Differential_Reflectivity_winter : String :=
  ",m,a,b\nIC,0,1,20.0\nPL,5.5,3.7,10\nDN,2.63,1.3,10\nAG,0,1,15\nSL,0.21,0.21,5\nRN,1.14,1.09,8\n"

/-- C-band_Linear_Depolarization_Ratio.csv -/
def txtC_Linear_Depolarization_Ratio : String :=
  ",m,a,b\nDrizzle,-48.33,5.5,10\nRain,-25,5.5,4\nIce Crystals,-30.06,14.63,20\nAggregates,-34.4,25.6,20\nWet Snow,-13.195,6.855,8\nVertical Ice,-30.7,12.9,20\nLow-Density Graupel,-50.84,24.71,8\nHigh-Density Graupel,-44.585,22.565,3\nHail,-22.24,7.04,8\nBig Drops,-33.28,3.13,10\n"

/-- C-band_Linear_Depolarization_Ratio_ML.csv -/
def txtC_Linear_Depolarization_Ratio_ML : String :=
  ",m,a,b\nOther,-34.4,25.6,20\nWet Snow,-13.195,6.855,8"

/-- C-band_Linear_Depolarization_Ratio_winter.csv -/
def txtC_Linear_Depolarization_Ratio_winter : String :=
  ",m,a,b\nIC,nan,nan,5\nPL,nan,nan,5 \nDN,nan,nan,5 \nAG,nan,nan,5 \nSL,nan,nan,5 \nRN,nan,nan,5 \n"

/-- C-band_Reflectivity.csv -/
def txtC_Reflectivity : String :=
  ",m,a,b\nDrizzle,1.75,29.00,10.00\nRain,39.00,19.00,10.00\nIce Crystals,-3.00,22.00,20.00\nAggregates,17.00,18.10,10.00\nWet Snow,24.00,21.30,10.00\nVertical Ice,-3.00,22.00,20.00\nLow-Density Graupel,37.00,9.20,8.00\nHigh-Density Graupel,44.30,10.20,6.00\nHail,62.30,14.30,10.00\nBig Drops,57.80,8.50,10.00\n"

/-- C-band_Reflectivity_ML.csv -/
def txtC_Reflectivity_ML : String :=
  ",m,a,b\nOther,16,17,5.00\nWetSnow,35,23.00,10.00\n"

/-- C-band_Reflectivity_winter.csv -/
def txtC_Reflectivity_winter : String :=
  ",m,a,b\nIC,6,11,5.0\nPL,12,13,5.0\nDN,17,14,5.0\nAG,28,12,5.0\nSL,11.32,28.83,15.0\nRN,19.53,29.85,15.0\n"

/-- C-band_Specific_Differential_Phase.csv -/
def txtC_Specific_Differential_Phase : String :=
  ",m,a,b\nDrizzle,0.030,0.030,2.000\nRain,5.500,5.500,10.000\nIce Crystals,0.080,0.080,6.000\nAggregates,-0.008,0.300,1.000\nWet Snow,0.250,0.430,6.000\nVertical Ice,-0.750,0.750,30.000\nLow-Density Graupel,0.100,0.080,3.000\nHigh-Density Graupel,1.900,1.900,3.000\nHail,0.6,3.500,6.000\nBig Drops,3.400,3.300,6.000\n"

/-- C-band_Specific_Differential_Phase_ML.csv -/
def txtC_Specific_Differential_Phase_ML : String :=
  ",m,a,b\nOther,0,0.2,6\nWet Snow,0,1,6\n"

/-- C-band_Specific_Differential_Phase_winter.csv -/
def txtC_Specific_Differential_Phase_winter : String :=
  ",m,a,b\nIC,0,0.325,5.0\nPL,0.27,0.26,5\nDN,1.0,0.7,5\nAG,0,0.325,5\nSL,0.09,0.09,8 \nRN,1.18,1.18,8\n"

/-- C-band_Temperature.csv -/
def txtC_Temperature : String :=
  ",m,a,b\nDrizzle,40.000,41.000,50.000\nRain,48.000,51.000,30.000\nIce Crystals,-50.000,50.000,25.000\nAggregates,-25.000,26.000,15.000\nWet Snow,1.000,3.500,5.000\nVertical Ice,-50.000,50.000,25.000\nLow-Density Graupel,-50.000,50.000,25.000\nHigh-Density Graupel,-2.500,20.000,2.000\nHail,0.000,100.000,5.000\nBig Drops,48.000,51.000,30.000\n"

/-- C-band_Temperature_ML.csv -/
def txtC_Temperature_ML : String :=
  ",m,a,b\nOther,-4,3,20\nWet Snow,0,1,15\n"

/-- C-band_Temperature_winter.csv -/
def txtC_Temperature_winter : String :=
  ",m,a,b\nIC,-20,20,20.\nPL,-13.0,3,20 \nDN,-15.0,3,20 \nAG,-4,3,20 \nSL,-4,3,20 \nRN,25.0,25.0,40.0 \n"

/-- S-band_Correlation_Coefficient.csv -/
def txtS_Correlation_Coefficient : String :=
  ",m,a,b\nDrizzle,1.000,0.015,3.000\nRain,1.000,0.020,2.000\nIce Crystals,1.000,0.020,3.000\nAggregates,0.998,0.020,3.000\nWet Snow,0.780,0.200,10.000\nVertical Ice,0.970,0.040,3.000\nLow-Density Graupel,1.000,0.010,1.000\nHigh-Density Graupel,1.000,0.040,4.000\nHail,0.960,0.100,3.000\nBig Drops,0.980,0.040,3.000\n"

/-- S-band_Correlation_Coefficient_ML.csv -/
def txtS_Correlation_Coefficient_ML : String :=
  ",m,a,b\nOther,0.98,0.05,10.000\nWet Snow,0.750,0.23,30.000\n"

/-- S-band_Correlation_Coefficient_winter.csv -/
def txtS_Correlation_Coefficient_winter : String :=
  ",m,a,b\nIC,nan,nan,10\nPL,nan,nan,10 \nDN,nan,nan,10 \nAG,nan,nan,10 \nSL,nan,nan,10 \nRN,nan,nan,10 \n"

/-- S-band_Differential_Reflectivity.csv -/
def txtS_Differential_Reflectivity : String :=
  ",m,a,b\nDrizzle,0.35,0.35,5.00\nRain,2.60,2.80,9.00\nIce Crystals,3.20,2.80,10.00\nAggregates,0.60,0.60,7.00\nWet Snow,1.30,1.30,10.00\nVertical Ice,-0.90,0.90,10.00\nLow-Density Graupel,0.30,0.80,6.00\nHigh-Density Graupel,1.00,1.90,8.00\nHail,0.14,0.55,8.00\nBig Drops,4.00,1.70,8.00\n"

/-- S-band_Differential_Reflectivity_ML.csv -/
def txtS_Differential_Reflectivity_ML : String :=
  ",m,a,b\nOther,0.5,1.5,15.0\nWet Snow,3.0,5.0,10.00\n"

/-- S-band_Differential_Reflectivity_winter.csv -/
def txtS_Differential_Reflectivity_winter : String :=
  ",m,a,b\nIC,0,1,20.0\nPL,5.5,3.7,10\nDN,2.63,1.3,10\nAG,0,1,15\nSL,0.21,0.21,5\nRN,1.14,1.09,8\n"

/-- S-band_Linear_Depolarization_Ratio.csv -/
def txtS_Linear_Depolarization_Ratio : String :=
  ",m,a,b\nDrizzle,-48.38,5.5,10\nRain,-25,5.5,4\nIce Crystals,-23.33,7.98,20\nAggregates,-46.455,19.675,20\nWet Snow,-13.605,6.445,8\nVertical Ice,-29.68,11.9,20\nLow-Density Graupel,-43.18,12.92,8\nHigh-Density Graupel,-35.895,13.205,3\nHail,-22.245,7.765,8\nBig Drops,-34.08,3.06,10\n"

/-- S-band_Linear_Depolarization_Ratio_ML.csv -/
def txtS_Linear_Depolarization_Ratio_ML : String :=
  ",m,a,b\nOther,-34.4,25.6,20\nWet Snow,-13.195,6.855,8"

/-- S-band_Linear_Depolarization_Ratio_winter.csv -/
def txtS_Linear_Depolarization_Ratio_winter : String :=
  ",m,a,b\nIC,nan,nan,5\nPL,nan,nan,5 \nDN,nan,nan,5 \nAG,nan,nan,5 \nSL,nan,nan,5 \nRN,nan,nan,5 \n"

/-- S-band_Reflectivity.csv -/
def txtS_Reflectivity : String :=
  ",m,a,b\nDrizzle,2.00,29.00,10.00\nRain,41.50,15.50,10.00\nIce Crystals,-3.00,22.00,20.00\nAggregates,17.00,17.00,15.00\nWet Snow,21.00,22.00,10.00\nVertical Ice,-3.00,22.00,20.00\nLow-Density Graupel,37.00,8.00,8.00\nHigh-Density Graupel,49.00,9.00,6.00\nHail,58.00,12.00,10.00\nBig Drops,57.00,9.00,10.00\n"

/-- S-band_Reflectivity_ML.csv -/
def txtS_Reflectivity_ML : String :=
  ",m,a,b\nOther,16,17,5.00\nWetSnow,25,23.00,10.00\n"

/-- S-band_Reflectivity_winter.csv -/
def txtS_Reflectivity_winter : String :=
  ",m,a,b\nIC,6,11,5.0\nPL,12,13,5.0\nDN,17,14,5.0\nAG,28,12,5.0\nSL,11.32,28.83,15.0\nRN,19.53,29.85,15.0\n"

/-- S-band_Specific_Differential_Phase.csv -/
def txtS_Specific_Differential_Phase : String :=
  ",m,a,b\nDrizzle,0.010,0.010,2.000\nRain,3.700,4.000,10.000\nIce Crystals,0.043,0.0430,6.000\nAggregates,0.040,0.0500,1.000\nWet Snow,0.130,0.500,6.000\nVertical Ice,-0.230,0.230,3.000\nLow-Density Graupel,0.200,0.560,3.000\nHigh-Density Graupel,0.550,1.155,3.000\nHail,0.200,0.800,6.000\nBig Drops,1.600,1.500,6.000\n"

/-- S-band_Specific_Differential_Phase_ML.csv -/
def txtS_Specific_Differential_Phase_ML : String :=
  ",m,a,b\nOther,0,0.2,6\nWet Snow,0,1,6\n"

/-- S-band_Specific_Differential_Phase_winter.csv -/
def txtS_Specific_Differential_Phase_winter : String :=
  ",m,a,b\nIC,0,0.2,5.0\nPL,0.13,0.13,5\nDN,0.31,0.3,5\nAG,0,0.2,5\nSL,0.09,0.09,8 \nRN,1.18,1.18,8\n"

/-- S-band_Temperature.csv -/
def txtS_Temperature : String :=
  ",m,a,b\nDrizzle,40.000,41.000,50.000\nRain,48.000,51.000,30.000\nIce Crystals,-50.000,50.000,25.000\nAggregates,-25.000,26.000,15.000\nWet Snow,1.000,3.500,5.000\nVertical Ice,-50.000,50.000,25.000\nLow-Density Graupel,-50.000,50.000,25.000\nHigh-Density Graupel,-2.500,20.000,2.000\nHail,0.000,100.000,5.000\nBig Drops,48.000,51.000,30.000\n"

/-- S-band_Temperature_ML.csv -/
def txtS_Temperature_ML : String :=
  ",m,a,b\nOther,-4,3,20\nWet Snow,0,1,15\n"

/-- S-band_Temperature_winter.csv -/
def txtS_Temperature_winter : String :=
  ",m,a,b\nIC,-20,20,20.\nPL,-13.0,3,20 \nDN,-15.0,3,20 \nAG,-4,3,20 \nSL,-4,3,20 \nRN,25.0,25.0,40.0 \n"

/-- X-band_Correlation_Coefficient.csv -/
def txtX_Correlation_Coefficient : String :=
  ",m,a,b\nDrizzle,1.000,0.015,2.000\nRain,1.000,0.040,2.000\nIce Crystals,1.000,0.030,3.000\nAggregates,0.998,0.020,3.000\nWet Snow,0.700,0.260,10.000\nVertical Ice,0.98,0.020,3.000\nLow-Density Graupel,1.000,0.015,1.000\nHigh-Density Graupel,1.000,0.035,1.000\nHail,0.970,0.150,3.000\nBig Drops,0.980,0.030,3.000\n"

/-- X-band_Correlation_Coefficient_ML.csv -/
def txtX_Correlation_Coefficient_ML : String :=
  ",m,a,b\nOther,0.98,0.05,10.000\nWet Snow,0.750,0.23,30.000\n"

/-- X-band_Correlation_Coefficient_winter.csv -/
def txtX_Correlation_Coefficient_winter : String :=
  ",m,a,b\nIC,nan,nan,10\nPL,nan,nan,10 \nDN,nan,nan,10 \nAG,nan,nan,10 \nSL,nan,nan,10 \nRN,nan,nan,10 \n"

/-- X-band_Differential_Reflectivity.csv -/
def txtX_Differential_Reflectivity : String :=
  ",m,a,b\nDrizzle,0.45,0.45,5.0\nRain,2.85,3.02,9.0\nIce Crystals,3.2,2.6,10.0\nAggregates,0.7,0.7,7.0\nWet Snow,1.6,1.2,10.0\nVertical Ice,-0.9,1.0,10.0\nLow-Density Graupel,0.3,1.0,6.0\nHigh-Density Graupel,0.6,1.5,2.0\nHail,0.12,0.5,8.0\nBig Drops,4.3,2.0,8.0\n"

/-- X-band_Differential_Reflectivity_ML.csv -/
def txtX_Differential_Reflectivity_ML : String :=
  ",m,a,b\nOther,0.5,1.5,15.0\nWet Snow,3.0,5.0,10.00\n"

/-- X-band_Differential_Reflectivity_winter.csv -/
def txtX_Differential_Reflectivity_winter : String :=
  ",m,a,b\nIC,0,1,20.0\nPL,5.5,3.7,10\nDN,2.63,1.3,10\nAG,0,1,15\nSL,0.21,0.21,5\nRN,1.14,1.09,8\n"

/-- X-band_Linear_Depolarization_Ratio.csv -/
def txtX_Linear_Depolarization_Ratio : String :=
  ",m,a,b\nDrizzle,-48.33,5.5,10\nRain,-25.091,5.5,4.0\nIce Crystals,-23.445,8.105,20.0\nAggregates,-45.935,19.435,20.0\nWet Snow,-13.225,6.815,8.0\nVertical Ice,-31.085,13.3,20.0\nLow-Density Graupel,-42.325,13.405,8.0\nHigh-Density Graupel,-34.34,13.66,3.0\nHail,-22.475,6.765,8.0\nBig Drops,-32.58,0.94000,10.0\n"

/-- X-band_Linear_Depolarization_Ratio_ML.csv -/
def txtX_Linear_Depolarization_Ratio_ML : String :=
  ",m,a,b\nOther,-34.4,25.6,20\nWet Snow,-13.195,6.855,8"

/-- X-band_Linear_Depolarization_Ratio_winter.csv -/
def txtX_Linear_Depolarization_Ratio_winter : String :=
  ",m,a,b\nIC,nan,nan,5\nPL,nan,nan,5 \nDN,nan,nan,5 \nAG,nan,nan,5 \nSL,nan,nan,5 \nRN,nan,nan,5 \n"

/-- X-band_Reflectivity.csv -/
def txtX_Reflectivity : String :=
  ",m,a,b\nDrizzle,2.0,29.0,10.00\nRain,42.0,17.0,10.00\nIce Crystals,-3.00,22.00,20.00\nAggregates,16.0,17.0,15.00\nWet Snow,28.0,29.0,10.00\nVertical Ice,-3.00,22.00,20.00\nLow-Density Graupel,36.0,9.0,8.0\nHigh-Density Graupel,43.0,9.0,5.0\nHail,59.0,10.3,6.0\nBig Drops,56.0,9.0,10.0\n"

/-- X-band_Reflectivity_ML.csv -/
def txtX_Reflectivity_ML : String :=
  ",m,a,b\nOther,16,17,5.00\nWetSnow,35,23.00,10.00\n"

/-- X-band_Reflectivity_winter.csv -/
def txtX_Reflectivity_winter : String :=
  ",m,a,b\nIC,6,11,5.0\nPL,12,13,5.0\nDN,17,14,5.0\nAG,28,12,5.0\nSL,11.32,28.83,15.0\nRN,19.53,29.85,15.0\n"

/-- X-band_Specific_Differential_Phase.csv -/
def txtX_Specific_Differential_Phase : String :=
  ",m,a,b\nDrizzle,0.03,0.03,2.000\nRain,12.75,13.0,60.0\nIce Crystals,0.15,0.150,6.000\nAggregates,0.2,0.2,1.000\nWet Snow,-7.0,8.1,6.000\nVertical Ice,-0.79,0.79,3.000\nLow-Density Graupel,0.7,2.1,3.000\nHigh-Density Graupel,1.55,3.05,3.000\nHail,0.5,1.5,6.000\nBig Drops,3.6,3.3,6.000\n"

/-- X-band_Specific_Differential_Phase_ML.csv -/
def txtX_Specific_Differential_Phase_ML : String :=
  ",m,a,b\nOther,0,0.2,6\nWet Snow,0,1,6\n"

/-- X-band_Specific_Differential_Phase_winter.csv -/
def txtX_Specific_Differential_Phase_winter : String :=
  ",m,a,b\nIC,-0.55,0.555,5.0\nPL,0.46,0.45,5\nDN,1.32,1.28,5\nAG,-0.55,0.55,5\nSL,0.09,0.09,8 \nRN,1.18,1.18,8\n"

/-- X-band_Temperature.csv -/
def txtX_Temperature : String :=
  ",m,a,b\nDrizzle,40.000,41.000,50.000\nRain,48.000,51.000,30.000\nIce Crystals,-50.000,50.000,25.000\nAggregates,-25.000,26.000,15.000\nWet Snow,1.000,3.500,5.000\nVertical Ice,-50.000,50.000,25.000\nLow-Density Graupel,-50.000,50.000,25.000\nHigh-Density Graupel,-2.500,20.000,2.000\nHail,0.000,100.000,5.000\nBig Drops,48.000,51.000,30.000\n"

/-- X-band_Temperature_ML.csv -/
def txtX_Temperature_ML : String :=
  ",m,a,b\nOther,-4,3,20\nWet Snow,0,1,15\n"

/-- X-band_Temperature_winter.csv -/
def txtX_Temperature_winter : String :=
  ",m,a,b\nIC,-20,20,20.\nPL,-13.0,3,20 \nDN,-15.0,3,20 \nAG,-4,3,20 \nSL,-4,3,20 \nRN,25.0,25.0,40.0 \n"

/-- csu_radartools/beta_function_parameters: file names and contents -/
def shippedFiles : List (String × String) :=
  [("C-band_Correlation_Coefficient.csv", txtC_Correlation_Coefficient),
   ("C-band_Correlation_Coefficient_ML.csv", txtC_Correlation_Coefficient_ML),
   ("C-band_Correlation_Coefficient_winter.csv", txtC_Correlation_Coefficient_winter),
   ("C-band_Differential_Reflectivity.csv", txtC_Differential_Reflectivity),
   ("C-band_Differential_Reflectivity_ML.csv", txtC_Differential_Reflectivity_ML),
   ("C-band_Differential_Reflectivity_winter.csv", txtC_Differential_Reflectivity_winter),
   ("C-band_Linear_Depolarization_Ratio.csv", txtC_Linear_Depolarization_Ratio),
   ("C-band_Linear_Depolarization_Ratio_ML.csv", txtC_Linear_Depolarization_Ratio_ML),
   ("C-band_Linear_Depolarization_Ratio_winter.csv", txtC_Linear_Depolarization_Ratio_winter),
   ("C-band_Reflectivity.csv", txtC_Reflectivity),
   ("C-band_Reflectivity_ML.csv", txtC_Reflectivity_ML),
   ("C-band_Reflectivity_winter.csv", txtC_Reflectivity_winter),
   ("C-band_Specific_Differential_Phase.csv", txtC_Specific_Differential_Phase),
   ("C-band_Specific_Differential_Phase_ML.csv", txtC_Specific_Differential_Phase_ML),
   ("C-band_Specific_Differential_Phase_winter.csv", txtC_Specific_Differential_Phase_winter),
   ("C-band_Temperature.csv", txtC_Temperature),
   ("C-band_Temperature_ML.csv", txtC_Temperature_ML),
   ("C-band_Temperature_winter.csv", txtC_Temperature_winter),
   ("S-band_Correlation_Coefficient.csv", txtS_Correlation_Coefficient),
   ("S-band_Correlation_Coefficient_ML.csv", txtS_Correlation_Coefficient_ML),
   ("S-band_Correlation_Coefficient_winter.csv", txtS_Correlation_Coefficient_winter),
   ("S-band_Differential_Reflectivity.csv", txtS_Differential_Reflectivity),
   ("S-band_Differential_Reflectivity_ML.csv", txtS_Differential_Reflectivity_ML),
   ("S-band_Differential_Reflectivity_winter.csv", txtS_Differential_Reflectivity_winter),
   ("S-band_Linear_Depolarization_Ratio.csv", txtS_Linear_Depolarization_Ratio),
   ("S-band_Linear_Depolarization_Ratio_ML.csv", txtS_Linear_Depolarization_Ratio_ML),
   ("S-band_Linear_Depolarization_Ratio_winter.csv", txtS_Linear_Depolarization_Ratio_winter),
   ("S-band_Reflectivity.csv", txtS_Reflectivity),
   ("S-band_Reflectivity_ML.csv", txtS_Reflectivity_ML),
   ("S-band_Reflectivity_winter.csv", txtS_Reflectivity_winter),
   ("S-band_Specific_Differential_Phase.csv", txtS_Specific_Differential_Phase),
   ("S-band_Specific_Differential_Phase_ML.csv", txtS_Specific_Differential_Phase_ML),
   ("S-band_Specific_Differential_Phase_winter.csv", txtS_Specific_Differential_Phase_winter),
   ("S-band_Temperature.csv", txtS_Temperature),
   ("S-band_Temperature_ML.csv", txtS_Temperature_ML),
   ("S-band_Temperature_winter.csv", txtS_Temperature_winter),
   ("X-band_Correlation_Coefficient.csv", txtX_Correlation_Coefficient),
   ("X-band_Correlation_Coefficient_ML.csv", txtX_Correlation_Coefficient_ML),
   ("X-band_Correlation_Coefficient_winter.csv", txtX_Correlation_Coefficient_winter),
   ("X-band_Differential_Reflectivity.csv", txtX_Differential_Reflectivity),
   ("X-band_Differential_Reflectivity_ML.csv", txtX_Differential_Reflectivity_ML),
   ("X-band_Differential_Reflectivity_winter.csv", txtX_Differential_Reflectivity_winter),
   ("X-band_Linear_Depolarization_Ratio.csv", txtX_Linear_Depolarization_Ratio),
   ("X-band_Linear_Depolarization_Ratio_ML.csv", txtX_Linear_Depolarization_Ratio_ML),
   ("X-band_Linear_Depolarization_Ratio_winter.csv", txtX_Linear_Depolarization_Ratio_winter),
   ("X-band_Reflectivity.csv", txtX_Reflectivity),
   ("X-band_Reflectivity_ML.csv", txtX_Reflectivity_ML),
   ("X-band_Reflectivity_winter.csv", txtX_Reflectivity_winter),
   ("X-band_Specific_Differential_Phase.csv", txtX_Specific_Differential_Phase),
   ("X-band_Specific_Differential_Phase_ML.csv", txtX_Specific_Differential_Phase_ML),
   ("X-band_Specific_Differential_Phase_winter.csv", txtX_Specific_Differential_Phase_winter),
   ("X-band_Temperature.csv", txtX_Temperature),
   ("X-band_Temperature_ML.csv", txtX_Temperature_ML),
   ("X-band_Temperature_winter.csv", txtX_Temperature_winter)]

end Csu.Csv
