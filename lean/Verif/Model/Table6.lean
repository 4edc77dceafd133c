import Verif.Model.Database
/-!
Generated by tools/gen_database.py from src/database_mra_objects.rs. Do not edit.
-/
namespace Uecho.Table
set_option maxRecDepth 10000

/-- Enumeration values of property 0x80 of class 0135 (src/database_mra_objects.rs, pushes before line 35856). -/
def class_0135_enums_0 : List PropertyEnum := [
  ⟨0x30, "true", "On"⟩,
  ⟨0x31, "false", "Off"⟩]

/-- Class Air cleaner (src/database_mra_objects.rs:35845-35916). -/
def class_0135 : ClassDef := ⟨"Air cleaner", 0x01, 0x35, [
  ⟨0x80, "Operation status", "state", 1, .required, .required, .required, class_0135_enums_0⟩,
  ⟨0xA0, "Air flow rate setting", "", 0, .optional, .optional, .optional, []⟩,
  ⟨0xC0, "Air pollution detection status", "state", 1, .optional, .notApplicable, .optional, []⟩,
  ⟨0xC1, "Smoke (cigarette) detection status", "state", 1, .optional, .notApplicable, .optional, []⟩,
  ⟨0xC2, "Optical catalyst operation setting", "state", 1, .optional, .optional, .optional, []⟩,
  ⟨0xE1, "Filter change notice", "state", 1, .optional, .notApplicable, .optional, []⟩]⟩

/-- Class Low-voltage smart electric energy meter (src/database_mra_objects.rs:35919-36035). -/
def class_0288 : ClassDef := ⟨"Low-voltage smart electric energy meter", 0x02, 0x88, [
  ⟨0xC0, "Route B Identification number", "raw", 0, .required_c, .notApplicable, .optional, []⟩,
  ⟨0xD0, "One-minute measured cumulative amounts of electric energy measured (normal and reverse directions)", "object", 0, .required, .notApplicable, .optional, []⟩,
  ⟨0xD3, "Coefficient", "number", 0, .optional, .notApplicable, .optional, []⟩,
  ⟨0xD7, "Number of effective digits for cumulative amounts of electric energy", "number", 0, .required, .notApplicable, .optional, []⟩,
  ⟨0xE0, "Measured cumulative amount of electric energy (normal direction)", "", 0, .required, .notApplicable, .optional, []⟩,
  ⟨0xE1, "Unit for cumulative amounts of electric energy (normal and reverse directions)", "numericValue", 1, .required, .notApplicable, .optional, []⟩,
  ⟨0xE2, "Historical data of measured cumulative amounts of electric energy 1 (normal direction)", "object", 0, .required, .notApplicable, .optional, []⟩,
  ⟨0xE3, "Measured cumulative amount of electric energy (reverse direction)", "", 0, .required_c, .notApplicable, .optional, []⟩,
  ⟨0xE4, "Historical data of measured cumulative amounts of electric energy 1 (reverse direction)", "object", 0, .required_c, .notApplicable, .optional, []⟩,
  ⟨0xE5, "Day for which the historical data of measured cumulative amounts of electric energy is to be retrieved 1", "", 0, .required, .required, .optional, []⟩,
  ⟨0xE7, "Measured instantaneous electric power", "", 0, .required, .notApplicable, .optional, []⟩,
  ⟨0xE8, "Measured instantaneous currents", "object", 0, .required, .notApplicable, .optional, []⟩,
  ⟨0xEA, "Cumulative amounts of electric energy measured at fixed time (normal direction)", "object", 0, .required, .notApplicable, .optional, []⟩,
  ⟨0xEB, "Cumulative amounts of electric energy measured at fixed time (reverse direction)", "object", 0, .required_c, .notApplicable, .optional, []⟩,
  ⟨0xEC, "Historical data of measured cumulative amounts of electric energy 2 (normal and reverse directions)", "object", 0, .optional, .notApplicable, .optional, []⟩,
  ⟨0xED, "Day for which the historical data of measured cumulative amounts of electric energy is to be retrieved 2", "object", 0, .optional, .optional, .optional, []⟩,
  ⟨0xEE, "Historical data of measured cumulative amounts of electric energy 3 (normal and reverse directions)", "object", 0, .required, .notApplicable, .optional, []⟩,
  ⟨0xEF, "Day for which the historical data of measured cumulative amounts of electric energy is to be retrieved 3", "object", 0, .required, .required, .optional, []⟩]⟩

end Uecho.Table
