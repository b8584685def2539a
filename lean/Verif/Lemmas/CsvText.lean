import Verif.Lemmas.CsvElab
/-!
# The shipped files parse to the tables of `Model/Tables.lean`

GENERATED by `tools/gen_csv.py`: one theorem per file, checked by kernel evaluation of the parser on the text of the file.
-/
namespace Csu.Csv
open Csu Tables

theorem ok_C_summer_RH : Parses txtC_Correlation_Coefficient tabC_summer_RH := by csv_check txtC_Correlation_Coefficient
theorem ok_C_ml_RH : Parses txtC_Correlation_Coefficient_ML tabC_ml_RH := by csv_check txtC_Correlation_Coefficient_ML
theorem ok_C_winter_RH : Parses txtC_Correlation_Coefficient_winter tabC_winter_RH := by csv_check txtC_Correlation_Coefficient_winter
theorem ok_C_summer_DR : Parses txtC_Differential_Reflectivity tabC_summer_DR := by csv_check txtC_Differential_Reflectivity
theorem ok_C_ml_DR : Parses txtC_Differential_Reflectivity_ML tabC_ml_DR := by csv_check txtC_Differential_Reflectivity_ML
theorem ok_C_winter_DR : Parses txtC_Differential_Reflectivity_winter tabC_winter_DR := by csv_check txtC_Differential_Reflectivity_winter
theorem ok_C_summer_LD : Parses txtC_Linear_Depolarization_Ratio tabC_summer_LD := by csv_check txtC_Linear_Depolarization_Ratio
theorem ok_C_ml_LD : Parses txtC_Linear_Depolarization_Ratio_ML tabC_ml_LD := by csv_check txtC_Linear_Depolarization_Ratio_ML
theorem ok_C_winter_LD : Parses txtC_Linear_Depolarization_Ratio_winter tabC_winter_LD := by csv_check txtC_Linear_Depolarization_Ratio_winter
theorem ok_C_summer_DZ : Parses txtC_Reflectivity tabC_summer_DZ := by csv_check txtC_Reflectivity
theorem ok_C_ml_DZ : Parses txtC_Reflectivity_ML tabC_ml_DZ := by csv_check txtC_Reflectivity_ML
theorem ok_C_winter_DZ : Parses txtC_Reflectivity_winter tabC_winter_DZ := by csv_check txtC_Reflectivity_winter
theorem ok_C_summer_KD : Parses txtC_Specific_Differential_Phase tabC_summer_KD := by csv_check txtC_Specific_Differential_Phase
theorem ok_C_ml_KD : Parses txtC_Specific_Differential_Phase_ML tabC_ml_KD := by csv_check txtC_Specific_Differential_Phase_ML
theorem ok_C_winter_KD : Parses txtC_Specific_Differential_Phase_winter tabC_winter_KD := by csv_check txtC_Specific_Differential_Phase_winter
theorem ok_C_summer_T : Parses txtC_Temperature tabC_summer_T := by csv_check txtC_Temperature
theorem ok_C_ml_T : Parses txtC_Temperature_ML tabC_ml_T := by csv_check txtC_Temperature_ML
theorem ok_C_winter_T : Parses txtC_Temperature_winter tabC_winter_T := by csv_check txtC_Temperature_winter
theorem ok_S_summer_RH : Parses txtS_Correlation_Coefficient tabS_summer_RH := by csv_check txtS_Correlation_Coefficient
theorem ok_S_ml_RH : Parses txtS_Correlation_Coefficient_ML tabS_ml_RH := by csv_check txtS_Correlation_Coefficient_ML
theorem ok_S_winter_RH : Parses txtS_Correlation_Coefficient_winter tabS_winter_RH := by csv_check txtS_Correlation_Coefficient_winter
theorem ok_S_summer_DR : Parses txtS_Differential_Reflectivity tabS_summer_DR := by csv_check txtS_Differential_Reflectivity
theorem ok_S_ml_DR : Parses txtS_Differential_Reflectivity_ML tabS_ml_DR := by csv_check txtS_Differential_Reflectivity_ML
theorem ok_S_winter_DR : Parses txtS_Differential_Reflectivity_winter tabS_winter_DR := by csv_check txtS_Differential_Reflectivity_winter
theorem ok_S_summer_LD : Parses txtS_Linear_Depolarization_Ratio tabS_summer_LD := by csv_check txtS_Linear_Depolarization_Ratio
theorem ok_S_ml_LD : Parses txtS_Linear_Depolarization_Ratio_ML tabS_ml_LD := by csv_check txtS_Linear_Depolarization_Ratio_ML
theorem ok_S_winter_LD : Parses txtS_Linear_Depolarization_Ratio_winter tabS_winter_LD := by csv_check txtS_Linear_Depolarization_Ratio_winter
theorem ok_S_summer_DZ : Parses txtS_Reflectivity tabS_summer_DZ := by csv_check txtS_Reflectivity
theorem ok_S_ml_DZ : Parses txtS_Reflectivity_ML tabS_ml_DZ := by csv_check txtS_Reflectivity_ML
theorem ok_S_winter_DZ : Parses txtS_Reflectivity_winter tabS_winter_DZ := by csv_check txtS_Reflectivity_winter
theorem ok_S_summer_KD : Parses txtS_Specific_Differential_Phase tabS_summer_KD := by csv_check txtS_Specific_Differential_Phase
theorem ok_S_ml_KD : Parses txtS_Specific_Differential_Phase_ML tabS_ml_KD := by csv_check txtS_Specific_Differential_Phase_ML
theorem ok_S_winter_KD : Parses txtS_Specific_Differential_Phase_winter tabS_winter_KD := by csv_check txtS_Specific_Differential_Phase_winter
theorem ok_S_summer_T : Parses txtS_Temperature tabS_summer_T := by csv_check txtS_Temperature
theorem ok_S_ml_T : Parses txtS_Temperature_ML tabS_ml_T := by csv_check txtS_Temperature_ML
theorem ok_S_winter_T : Parses txtS_Temperature_winter tabS_winter_T := by csv_check txtS_Temperature_winter
theorem ok_X_summer_RH : Parses txtX_Correlation_Coefficient tabX_summer_RH := by csv_check txtX_Correlation_Coefficient
theorem ok_X_ml_RH : Parses txtX_Correlation_Coefficient_ML tabX_ml_RH := by csv_check txtX_Correlation_Coefficient_ML
theorem ok_X_winter_RH : Parses txtX_Correlation_Coefficient_winter tabX_winter_RH := by csv_check txtX_Correlation_Coefficient_winter
theorem ok_X_summer_DR : Parses txtX_Differential_Reflectivity tabX_summer_DR := by csv_check txtX_Differential_Reflectivity
theorem ok_X_ml_DR : Parses txtX_Differential_Reflectivity_ML tabX_ml_DR := by csv_check txtX_Differential_Reflectivity_ML
theorem ok_X_winter_DR : Parses txtX_Differential_Reflectivity_winter tabX_winter_DR := by csv_check txtX_Differential_Reflectivity_winter
theorem ok_X_summer_LD : Parses txtX_Linear_Depolarization_Ratio tabX_summer_LD := by csv_check txtX_Linear_Depolarization_Ratio
theorem ok_X_ml_LD : Parses txtX_Linear_Depolarization_Ratio_ML tabX_ml_LD := by csv_check txtX_Linear_Depolarization_Ratio_ML
theorem ok_X_winter_LD : Parses txtX_Linear_Depolarization_Ratio_winter tabX_winter_LD := by csv_check txtX_Linear_Depolarization_Ratio_winter
theorem ok_X_summer_DZ : Parses txtX_Reflectivity tabX_summer_DZ := by csv_check txtX_Reflectivity
theorem ok_X_ml_DZ : Parses txtX_Reflectivity_ML tabX_ml_DZ := by csv_check txtX_Reflectivity_ML
theorem ok_X_winter_DZ : Parses txtX_Reflectivity_winter tabX_winter_DZ := by csv_check txtX_Reflectivity_winter
theorem ok_X_summer_KD : Parses txtX_Specific_Differential_Phase tabX_summer_KD := by csv_check txtX_Specific_Differential_Phase
theorem ok_X_ml_KD : Parses txtX_Specific_Differential_Phase_ML tabX_ml_KD := by csv_check txtX_Specific_Differential_Phase_ML
theorem ok_X_winter_KD : Parses txtX_Specific_Differential_Phase_winter tabX_winter_KD := by csv_check txtX_Specific_Differential_Phase_winter
theorem ok_X_summer_T : Parses txtX_Temperature tabX_summer_T := by csv_check txtX_Temperature
theorem ok_X_ml_T : Parses txtX_Temperature_ML tabX_ml_T := by csv_check txtX_Temperature_ML
theorem ok_X_winter_T : Parses txtX_Temperature_winter tabX_winter_T := by csv_check txtX_Temperature_winter

theorem find_S : ∀ s k, ∃ t, shippedFiles.lookup (fileName "S" s k) = some t ∧ Parses t (csvS s k)
  | .summer, .DZ => ⟨txtS_Reflectivity, by krfl, ok_S_summer_DZ⟩
  | .summer, .DR => ⟨txtS_Differential_Reflectivity, by krfl, ok_S_summer_DR⟩
  | .summer, .KD => ⟨txtS_Specific_Differential_Phase, by krfl, ok_S_summer_KD⟩
  | .summer, .RH => ⟨txtS_Correlation_Coefficient, by krfl, ok_S_summer_RH⟩
  | .summer, .LD => ⟨txtS_Linear_Depolarization_Ratio, by krfl, ok_S_summer_LD⟩
  | .summer, .T => ⟨txtS_Temperature, by krfl, ok_S_summer_T⟩
  | .winter, .DZ => ⟨txtS_Reflectivity_winter, by krfl, ok_S_winter_DZ⟩
  | .winter, .DR => ⟨txtS_Differential_Reflectivity_winter, by krfl, ok_S_winter_DR⟩
  | .winter, .KD => ⟨txtS_Specific_Differential_Phase_winter, by krfl, ok_S_winter_KD⟩
  | .winter, .RH => ⟨txtS_Correlation_Coefficient_winter, by krfl, ok_S_winter_RH⟩
  | .winter, .LD => ⟨txtS_Linear_Depolarization_Ratio_winter, by krfl, ok_S_winter_LD⟩
  | .winter, .T => ⟨txtS_Temperature_winter, by krfl, ok_S_winter_T⟩
  | .ml, .DZ => ⟨txtS_Reflectivity_ML, by krfl, ok_S_ml_DZ⟩
  | .ml, .DR => ⟨txtS_Differential_Reflectivity_ML, by krfl, ok_S_ml_DR⟩
  | .ml, .KD => ⟨txtS_Specific_Differential_Phase_ML, by krfl, ok_S_ml_KD⟩
  | .ml, .RH => ⟨txtS_Correlation_Coefficient_ML, by krfl, ok_S_ml_RH⟩
  | .ml, .LD => ⟨txtS_Linear_Depolarization_Ratio_ML, by krfl, ok_S_ml_LD⟩
  | .ml, .T => ⟨txtS_Temperature_ML, by krfl, ok_S_ml_T⟩

theorem find_C : ∀ s k, ∃ t, shippedFiles.lookup (fileName "C" s k) = some t ∧ Parses t (csvC s k)
  | .summer, .DZ => ⟨txtC_Reflectivity, by krfl, ok_C_summer_DZ⟩
  | .summer, .DR => ⟨txtC_Differential_Reflectivity, by krfl, ok_C_summer_DR⟩
  | .summer, .KD => ⟨txtC_Specific_Differential_Phase, by krfl, ok_C_summer_KD⟩
  | .summer, .RH => ⟨txtC_Correlation_Coefficient, by krfl, ok_C_summer_RH⟩
  | .summer, .LD => ⟨txtC_Linear_Depolarization_Ratio, by krfl, ok_C_summer_LD⟩
  | .summer, .T => ⟨txtC_Temperature, by krfl, ok_C_summer_T⟩
  | .winter, .DZ => ⟨txtC_Reflectivity_winter, by krfl, ok_C_winter_DZ⟩
  | .winter, .DR => ⟨txtC_Differential_Reflectivity_winter, by krfl, ok_C_winter_DR⟩
  | .winter, .KD => ⟨txtC_Specific_Differential_Phase_winter, by krfl, ok_C_winter_KD⟩
  | .winter, .RH => ⟨txtC_Correlation_Coefficient_winter, by krfl, ok_C_winter_RH⟩
  | .winter, .LD => ⟨txtC_Linear_Depolarization_Ratio_winter, by krfl, ok_C_winter_LD⟩
  | .winter, .T => ⟨txtC_Temperature_winter, by krfl, ok_C_winter_T⟩
  | .ml, .DZ => ⟨txtC_Reflectivity_ML, by krfl, ok_C_ml_DZ⟩
  | .ml, .DR => ⟨txtC_Differential_Reflectivity_ML, by krfl, ok_C_ml_DR⟩
  | .ml, .KD => ⟨txtC_Specific_Differential_Phase_ML, by krfl, ok_C_ml_KD⟩
  | .ml, .RH => ⟨txtC_Correlation_Coefficient_ML, by krfl, ok_C_ml_RH⟩
  | .ml, .LD => ⟨txtC_Linear_Depolarization_Ratio_ML, by krfl, ok_C_ml_LD⟩
  | .ml, .T => ⟨txtC_Temperature_ML, by krfl, ok_C_ml_T⟩

theorem find_X : ∀ s k, ∃ t, shippedFiles.lookup (fileName "X" s k) = some t ∧ Parses t (csvX s k)
  | .summer, .DZ => ⟨txtX_Reflectivity, by krfl, ok_X_summer_DZ⟩
  | .summer, .DR => ⟨txtX_Differential_Reflectivity, by krfl, ok_X_summer_DR⟩
  | .summer, .KD => ⟨txtX_Specific_Differential_Phase, by krfl, ok_X_summer_KD⟩
  | .summer, .RH => ⟨txtX_Correlation_Coefficient, by krfl, ok_X_summer_RH⟩
  | .summer, .LD => ⟨txtX_Linear_Depolarization_Ratio, by krfl, ok_X_summer_LD⟩
  | .summer, .T => ⟨txtX_Temperature, by krfl, ok_X_summer_T⟩
  | .winter, .DZ => ⟨txtX_Reflectivity_winter, by krfl, ok_X_winter_DZ⟩
  | .winter, .DR => ⟨txtX_Differential_Reflectivity_winter, by krfl, ok_X_winter_DR⟩
  | .winter, .KD => ⟨txtX_Specific_Differential_Phase_winter, by krfl, ok_X_winter_KD⟩
  | .winter, .RH => ⟨txtX_Correlation_Coefficient_winter, by krfl, ok_X_winter_RH⟩
  | .winter, .LD => ⟨txtX_Linear_Depolarization_Ratio_winter, by krfl, ok_X_winter_LD⟩
  | .winter, .T => ⟨txtX_Temperature_winter, by krfl, ok_X_winter_T⟩
  | .ml, .DZ => ⟨txtX_Reflectivity_ML, by krfl, ok_X_ml_DZ⟩
  | .ml, .DR => ⟨txtX_Differential_Reflectivity_ML, by krfl, ok_X_ml_DR⟩
  | .ml, .KD => ⟨txtX_Specific_Differential_Phase_ML, by krfl, ok_X_ml_KD⟩
  | .ml, .RH => ⟨txtX_Correlation_Coefficient_ML, by krfl, ok_X_ml_RH⟩
  | .ml, .LD => ⟨txtX_Linear_Depolarization_Ratio_ML, by krfl, ok_X_ml_LD⟩
  | .ml, .T => ⟨txtX_Temperature_ML, by krfl, ok_X_ml_T⟩

end Csu.Csv
