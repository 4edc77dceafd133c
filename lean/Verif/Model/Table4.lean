import Verif.Model.Database
/-!
Generated by tools/gen_database.py from src/database_mra_objects.rs. Do not edit.
-/
namespace Uecho.Table
set_option maxRecDepth 10000

/-- Class Electric energy sensor (src/database_mra_objects.rs:21538-21609). -/
def class_0022 : ClassDef := ⟨"Electric energy sensor", 0x00, 0x22, [
  ⟨0xE0, "Cumulative amounts of electric energy", "number", 0, .required, .notApplicable, .optional, []⟩,
  ⟨0xE1, "Medium-capacity sensor instantaneous electric energy", "number", 0, .optional, .notApplicable, .optional, []⟩,
  ⟨0xE2, "Small-capacity sensor instantaneous electric energy", "number", 0, .optional, .notApplicable, .optional, []⟩,
  ⟨0xE3, "Large-capacity sensor instantaneous electric energy", "number", 0, .optional, .notApplicable, .optional, []⟩,
  ⟨0xE4, "Cumulative amounts of electric energy measurement log", "array", 0, .optional, .notApplicable, .optional, []⟩,
  ⟨0xE4, "Cumulative amounts of electric energy measurement log", "array", 0, .optional, .notApplicable, .optional, []⟩,
  ⟨0xE5, "Effective voltage value", "number", 0, .optional, .notApplicable, .optional, []⟩]⟩

/-- Enumeration values of property 0x90 of class 03D3 (src/database_mra_objects.rs, pushes before line 21623). -/
def class_03D3_enums_0 : List PropertyEnum := [
  ⟨0x41, "enable", "Reservation on"⟩,
  ⟨0x42, "disable", "Reservation off"⟩]

/-- Enumeration values of property 0xB0 of class 03D3 (src/database_mra_objects.rs, pushes before line 21663). -/
def class_03D3_enums_3 : List PropertyEnum := [
  ⟨0x41, "open", "Door/cover open"⟩,
  ⟨0x42, "close", "Door/cover closed"⟩]

/-- Enumeration values of property 0xEE of class 03D3 (src/database_mra_objects.rs, pushes before line 21943). -/
def class_03D3_enums_30 : List PropertyEnum := [
  ⟨0x41, "true", "Locked"⟩,
  ⟨0x42, "false", "Unlocked"⟩]

/-- Class Washer and dryer (src/database_mra_objects.rs:21612-21963). -/
def class_03D3 : ClassDef := ⟨"Washer and dryer", 0x03, 0xD3, [
  ⟨0x90, "On timer reservation setting", "state", 1, .optional, .optional, .optional, class_03D3_enums_0⟩,
  ⟨0x91, "On timer setting", "time", 2, .optional, .optional, .optional, []⟩,
  ⟨0x92, "Relative time-based on timer setting", "time", 2, .optional, .optional, .optional, []⟩,
  ⟨0xB0, "Door/cover open/close status", "state", 1, .optional, .notApplicable, .optional, class_03D3_enums_3⟩,
  ⟨0xB2, "Washer and dryer setting", "state", 1, .optional, .optional, .optional, []⟩,
  ⟨0xD0, "Washer and dryer cycle setting 1", "state", 1, .optional, .optional, .optional, []⟩,
  ⟨0xD1, "Washer and dryer cycle setting 2", "state", 1, .optional, .optional, .optional, []⟩,
  ⟨0xD2, "Drying cycle setting", "state", 1, .optional, .optional, .optional, []⟩,
  ⟨0xD3, "Washer and dryer cycle option list 1", "raw", 0, .optional, .notApplicable, .optional, []⟩,
  ⟨0xD4, "Washer and dryer cycle option list 2", "raw", 0, .optional, .notApplicable, .optional, []⟩,
  ⟨0xD5, "Washer and dryer cycle option list 3", "raw", 0, .optional, .notApplicable, .optional, []⟩,
  ⟨0xD6, "Water flow rate setting", "", 0, .optional, .optional, .optional, []⟩,
  ⟨0xD7, "Rotation speed for spin drying setting", "", 0, .optional, .optional, .optional, []⟩,
  ⟨0xD8, "Degree of drying setting", "", 0, .optional, .optional, .optional, []⟩,
  ⟨0xDB, "Remaining washing time", "", 0, .optional, .notApplicable, .optional, []⟩,
  ⟨0xDC, "Remaining drying time", "", 0, .optional, .notApplicable, .optional, []⟩,
  ⟨0xDF, "Elapsed time on the ON timer", "time", 2, .optional, .notApplicable, .optional, []⟩,
  ⟨0xE1, "Presoaking time setting", "", 0, .optional, .optional, .optional, []⟩,
  ⟨0xE2, "Current stage of washer and dryer cycle", "state", 1, .optional, .notApplicable, .optional, []⟩,
  ⟨0xE3, "Water volume setting 1", "", 0, .optional, .optional, .optional, []⟩,
  ⟨0xE4, "Water volume setting 2", "", 0, .optional, .optional, .optional, []⟩,
  ⟨0xE5, "Washing time setting", "", 0, .optional, .optional, .optional, []⟩,
  ⟨0xE6, "Number of times of rinsing setting", "", 0, .optional, .optional, .optional, []⟩,
  ⟨0xE7, "Rinsing process setting", "raw", 0, .optional, .optional, .optional, []⟩,
  ⟨0xE8, "Spin drying time setting", "", 0, .optional, .optional, .optional, []⟩,
  ⟨0xE9, "Drying time setting", "", 0, .optional, .optional, .optional, []⟩,
  ⟨0xEA, "Warm water setting", "", 0, .optional, .optional, .optional, []⟩,
  ⟨0xEB, "Bathtub water recycle setting", "state", 1, .optional, .optional, .optional, []⟩,
  ⟨0xEC, "Wrinkling minimization setting", "state", 1, .optional, .optional, .optional, []⟩,
  ⟨0xED, "Time remaining to complete washer and dryer cycle", "", 0, .optional, .notApplicable, .optional, []⟩,
  ⟨0xEE, "Door/cover lock setting", "state", 1, .optional, .optional, .optional, class_03D3_enums_30⟩,
  ⟨0xEF, "Washer and dryer cycle", "raw", 0, .optional, .notApplicable, .optional, []⟩]⟩

/-- Enumeration values of property 0x80 of class 028F (src/database_mra_objects.rs, pushes before line 21981). -/
def class_028F_enums_0 : List PropertyEnum := [
  ⟨0x30, "true", "On"⟩,
  ⟨0x31, "false", "Off"⟩]

/-- Class Bidirectional high voltage smart electric energy meter (src/database_mra_objects.rs:21966-22191). -/
def class_028F : ClassDef := ⟨"Bidirectional high voltage smart electric energy meter", 0x02, 0x8F, [
  ⟨0x80, "Operation status", "state", 1, .required, .optional, .required, class_028F_enums_0⟩,
  ⟨0xC0, "Route B Identification number", "raw", 0, .required_c, .notApplicable, .optional, []⟩,
  ⟨0xC1, "Monthly maximum electric power demand (normal and reverse directions)", "object", 0, .required, .notApplicable, .optional, []⟩,
  ⟨0xC2, "Cumulative maximum electric power demand (normal and reverse directions)", "object", 0, .optional, .notApplicable, .optional, []⟩,
  ⟨0xC3, "Electric power demand at fixed time (30-minute average electric power) (normal and reverse directions)", "object", 0, .required, .notApplicable, .optional, []⟩,
  ⟨0xC4, "Number of effective digits of electric power demand", "number", 0, .required, .notApplicable, .optional, []⟩,
  ⟨0xC5, "Unit of electric power demand", "numericValue", 1, .required, .notApplicable, .optional, []⟩,
  ⟨0xC6, "Historical data of measured electric power demand (normal direction)", "object", 0, .required, .notApplicable, .optional, []⟩,
  ⟨0xC7, "Unit of cumulative maximum electric power demand", "numericValue", 1, .optional, .notApplicable, .optional, []⟩,
  ⟨0xC8, "Historical data of measured electric power demand (reverse direction)", "object", 0, .required, .notApplicable, .optional, []⟩,
  ⟨0xCA, "Measurement data of cumulative amount of reactive electric energy (lag) for power factor (normal and reverse directions)", "object", 0, .optional, .notApplicable, .optional, []⟩,
  ⟨0xCB, "Measurement data of cumulative amount of reactive electric energy (lag) at fixed time for power factor (normal and reverse directions)", "object", 0, .optional, .notApplicable, .optional, []⟩,
  ⟨0xCC, "Number of effective digits for cumulative amount of reactive electric energy", "number", 0, .optional, .notApplicable, .optional, []⟩,
  ⟨0xCD, "Unit for cumulative amounts of reactive electric energy", "numericValue", 1, .optional, .notApplicable, .optional, []⟩,
  ⟨0xCE, "Historical data of measurement data of cumulative amount of reactive electric energy (lag) for power factor (normal direction)", "object", 0, .optional, .notApplicable, .optional, []⟩,
  ⟨0xCF, "Historical data of measurement data of cumulative amount of reactive electric energy (lag) for power factor (reverse direction)", "object", 0, .optional, .notApplicable, .optional, []⟩,
  ⟨0xD0, "One-minute measured cumulative amount of active electric energy (normal and reverse directions)", "object", 0, .required, .notApplicable, .optional, []⟩,
  ⟨0xD1, "One-minute measurement data of cumulative amount of reactive electric energy (lag) for power factor (normal and reverse directions)", "object", 0, .optional, .notApplicable, .optional, []⟩,
  ⟨0xD3, "Coefficient", "number", 0, .required, .notApplicable, .optional, []⟩,
  ⟨0xD4, "Multiplying factor for coefficient", "numericValue", 1, .required, .notApplicable, .optional, []⟩,
  ⟨0xD5, "Present values of measured cumulative amount of reactive electric energy (lag) (normal and reverse directions)", "object", 0, .optional, .notApplicable, .optional, []⟩,
  ⟨0xD6, "Present values of measured cumulative amount of reactive electric energy (lead) (normal and reverse directions)", "object", 0, .optional, .notApplicable, .optional, []⟩,
  ⟨0xE0, "Fixed date", "number", 0, .required, .notApplicable, .optional, []⟩,
  ⟨0xE1, "Day for which the historical data of measured cumulative amounts of electric energy is to be retrieved", "", 0, .required, .required, .optional, []⟩,
  ⟨0xE2, "Measured cumulative amount of active electric energy (normal and reverse directions)", "object", 0, .required, .notApplicable, .optional, []⟩,
  ⟨0xE3, "Cumulative amounts of active electric energy at fixed time (normal and reverse directions)", "object", 0, .required, .notApplicable, .optional, []⟩,
  ⟨0xE4, "Measurement data of cumulative amount of active electric energy for power factor (normal and reverse directions)", "object", 0, .optional, .notApplicable, .optional, []⟩,
  ⟨0xE5, "Number of effective digits for cumulative amount of active electric energy", "number", 0, .required, .notApplicable, .optional, []⟩,
  ⟨0xE6, "Unit for cumulative amounts of active electric energy", "numericValue", 1, .required, .notApplicable, .optional, []⟩,
  ⟨0xE7, "Historical data of measured cumulative amount of active electric energy (normal direction)", "object", 0, .required, .notApplicable, .optional, []⟩,
  ⟨0xE8, "Historical data of measured cumulative amount of active electric energy (reverse direction)", "object", 0, .required, .notApplicable, .optional, []⟩,
  ⟨0xEA, "Measured instantaneous electric energy", "", 0, .required, .notApplicable, .optional, []⟩,
  ⟨0xEB, "Measured instantaneous currents 2", "object", 0, .required, .notApplicable, .optional, []⟩,
  ⟨0xED, "Historical data of measured cumulative amount of active electric energy 2 (normal and reverse directions)", "object", 0, .required, .notApplicable, .optional, []⟩,
  ⟨0xEE, "Historical data of measurement data of cumulative amount of reactive electric energy (lag) for power factor 2 (normal and reverse directions)", "object", 0, .optional, .notApplicable, .optional, []⟩,
  ⟨0xEF, "Day for which the historical data of measured cumulative amounts of electric energy is to be retrieved 2", "object", 0, .required, .required, .optional, []⟩]⟩

/-- Enumeration values of property 0x90 of class 0263 (src/database_mra_objects.rs, pushes before line 22219). -/
def class_0263_enums_1 : List PropertyEnum := [
  ⟨0x41, "true", "ON"⟩,
  ⟨0x42, "false", "OFF"⟩]

/-- Enumeration values of property 0xD0 of class 0263 (src/database_mra_objects.rs, pushes before line 22244). -/
def class_0263_enums_2 : List PropertyEnum := [
  ⟨0x41, "low", "Low"⟩,
  ⟨0x42, "medium", "Medium"⟩,
  ⟨0x43, "high", "High"⟩]

/-- Enumeration values of property 0xD1 of class 0263 (src/database_mra_objects.rs, pushes before line 22269). -/
def class_0263_enums_3 : List PropertyEnum := [
  ⟨0x41, "low", "Low"⟩,
  ⟨0x42, "medium", "Medium"⟩,
  ⟨0x43, "high", "High"⟩]

/-- Enumeration values of property 0xE0 of class 0263 (src/database_mra_objects.rs, pushes before line 22304). -/
def class_0263_enums_5 : List PropertyEnum := [
  ⟨0x41, "open", "Open"⟩,
  ⟨0x42, "close", "Close"⟩,
  ⟨0x43, "stop", "Stop"⟩]

/-- Enumeration values of property 0xE3 of class 0263 (src/database_mra_objects.rs, pushes before line 22349). -/
def class_0263_enums_8 : List PropertyEnum := [
  ⟨0x41, "low", "Low"⟩,
  ⟨0x42, "medium", "Medium"⟩,
  ⟨0x43, "high", "High"⟩]

/-- Enumeration values of property 0xE5 of class 0263 (src/database_mra_objects.rs, pushes before line 22369). -/
def class_0263_enums_9 : List PropertyEnum := [
  ⟨0x41, "true", "Lock"⟩,
  ⟨0x42, "false", "Unlock"⟩]

/-- Enumeration values of property 0xE8 of class 0263 (src/database_mra_objects.rs, pushes before line 22389). -/
def class_0263_enums_10 : List PropertyEnum := [
  ⟨0x41, "true", "ON (permitted)"⟩,
  ⟨0x42, "false", "OFF (prohibited)"⟩]

/-- Enumeration values of property 0xEA of class 0263 (src/database_mra_objects.rs, pushes before line 22434). -/
def class_0263_enums_12 : List PropertyEnum := [
  ⟨0x41, "fullyOpen", "Fully open"⟩,
  ⟨0x42, "fullyClosed", "Fully closed"⟩,
  ⟨0x43, "opening", "Opening"⟩,
  ⟨0x44, "closing", "Closing"⟩,
  ⟨0x45, "stoppedHalfway", "Stopped halfway"⟩]

/-- Enumeration values of property 0xEE of class 0263 (src/database_mra_objects.rs, pushes before line 22474). -/
def class_0263_enums_14 : List PropertyEnum := [
  ⟨0x41, "low", "Low"⟩,
  ⟨0x42, "medium", "Medium"⟩,
  ⟨0x43, "high", "High"⟩,
  ⟨0x44, "none", "None"⟩]

/-- Enumeration values of property 0xEF of class 0263 (src/database_mra_objects.rs, pushes before line 22504). -/
def class_0263_enums_15 : List PropertyEnum := [
  ⟨0x41, "low", "Low"⟩,
  ⟨0x42, "medium", "Medium"⟩,
  ⟨0x43, "high", "High"⟩,
  ⟨0x44, "none", "None"⟩]

/-- Class Electrically operated rain sliding door/shutter (src/database_mra_objects.rs:22194-22514). -/
def class_0263 : ClassDef := ⟨"Electrically operated rain sliding door/shutter", 0x02, 0x63, [
  ⟨0x89, "Fault description (Recoverable faults)", "state", 2, .optional, .notApplicable, .required, []⟩,
  ⟨0x90, "Timer operation setting", "state", 1, .optional, .optional, .required, class_0263_enums_1⟩,
  ⟨0xD0, "Opening speed setting", "state", 1, .optional, .optional, .optional, class_0263_enums_2⟩,
  ⟨0xD1, "Closing speed setting", "state", 1, .optional, .optional, .optional, class_0263_enums_3⟩,
  ⟨0xD2, "Operation time", "number", 0, .optional, .optional, .optional, []⟩,
  ⟨0xE0, "Open/close operation setting", "state", 1, .required, .required, .required, class_0263_enums_5⟩,
  ⟨0xE1, "Degree-of-opening setting", "number", 0, .optional, .optional, .optional, []⟩,
  ⟨0xE2, "Blind angle setting", "number", 0, .optional, .optional, .optional, []⟩,
  ⟨0xE3, "Opening/closing speed setting", "state", 1, .optional, .optional, .optional, class_0263_enums_8⟩,
  ⟨0xE5, "Electric lock setting", "state", 1, .optional, .optional, .optional, class_0263_enums_9⟩,
  ⟨0xE8, "Remote operation setting status", "state", 1, .optional, .notApplicable, .required, class_0263_enums_10⟩,
  ⟨0xE9, "Selective degree-of-opening setting", "state", 1, .optional, .optional, .required, []⟩,
  ⟨0xEA, "Open/closed status", "state", 1, .optional, .notApplicable, .required, class_0263_enums_12⟩,
  ⟨0xED, "Slit degree-of-opening", "level", 0, .optional, .optional, .optional, []⟩,
  ⟨0xEE, "One-time opening speed setting", "state", 1, .optional, .optional, .optional, class_0263_enums_14⟩,
  ⟨0xEF, "One-time closing speed setting", "state", 1, .optional, .optional, .optional, class_0263_enums_15⟩]⟩

/-- Class CO2 sensor (src/database_mra_objects.rs:22517-22528). -/
def class_001B : ClassDef := ⟨"CO2 sensor", 0x00, 0x1B, [
  ⟨0xE0, "Measured value of CO2 concentration", "number", 0, .required, .notApplicable, .optional, []⟩]⟩

/-- Class Current sensor (src/database_mra_objects.rs:22531-22562). -/
def class_0023 : ClassDef := ⟨"Current sensor", 0x00, 0x23, [
  ⟨0xE0, "Measured current value 1", "number", 0, .required_c, .notApplicable, .optional, []⟩,
  ⟨0xE1, "Rated voltage to be measured", "number", 0, .optional, .notApplicable, .optional, []⟩,
  ⟨0xE2, "Measured current value 2", "number", 0, .required_c, .notApplicable, .optional, []⟩]⟩

/-- Enumeration values of property 0xD9 of class 02A1 (src/database_mra_objects.rs, pushes before line 22711). -/
def class_02A1_enums_14 : List PropertyEnum := [
  ⟨0x0, "reset", "Reset"⟩]

/-- Class EV Charger (src/database_mra_objects.rs:22565-22791). -/
def class_02A1 : ClassDef := ⟨"EV Charger", 0x02, 0xA1, [
  ⟨0xC5, "Rated charge capacity", "number", 0, .required, .notApplicable, .optional, []⟩,
  ⟨0xC7, "Vehicle connection and chargeable status", "state", 1, .required, .notApplicable, .required, []⟩,
  ⟨0xC7, "Vehicle connection and chargeable status", "state", 1, .required, .notApplicable, .required, []⟩,
  ⟨0xC8, "Minimum/maximum charging electric energy", "object", 0, .optional, .notApplicable, .optional, []⟩,
  ⟨0xCA, "Minimum/maximum charging electric current", "object", 0, .optional, .notApplicable, .optional, []⟩,
  ⟨0xCC, "Charger type", "state", 1, .required, .notApplicable, .optional, []⟩,
  ⟨0xCC, "Charger type", "state", 1, .required, .notApplicable, .optional, []⟩,
  ⟨0xCD, "Vehicle connection confirmation", "state", 1, .notApplicable, .required, .optional, []⟩,
  ⟨0xCE, "Chargeable capacity of vehicle mounted battery", "number", 0, .required, .notApplicable, .optional, []⟩,
  ⟨0xCF, "Remaining chargeable capacity of vehicle mounted battery", "number", 0, .required, .notApplicable, .optional, []⟩,
  ⟨0xD0, "Used capacity of vehicle mounted battery 1", "number", 0, .required, .notApplicable, .optional, []⟩,
  ⟨0xD2, "Rated voltage", "number", 0, .optional, .notApplicable, .optional, []⟩,
  ⟨0xD3, "Measured instantaneous charging electric energy", "number", 0, .optional, .notApplicable, .optional, []⟩,
  ⟨0xD8, "Measured cumulative amount of charging electric energy", "number", 0, .optional, .notApplicable, .optional, []⟩,
  ⟨0xD9, "Cumulative amount of charging electric energy reset setting", "state", 1, .notApplicable, .optional, .notApplicable, class_02A1_enums_14⟩,
  ⟨0xDA, "Operation mode setting", "state", 1, .required, .required, .required, []⟩,
  ⟨0xE2, "Remaining stored electricity of vehicle mounted battery1", "number", 0, .required, .notApplicable, .optional, []⟩,
  ⟨0xE4, "Remaining stored electricity of vehicle mounted battery3", "number", 0, .required, .notApplicable, .optional, []⟩,
  ⟨0xE6, "Vehicle ID", "object", 0, .required, .notApplicable, .optional, []⟩,
  ⟨0xE7, "Charging amount setting", "number", 0, .optional, .optional, .optional, []⟩,
  ⟨0xEB, "Charging electric energy setting", "number", 0, .optional, .optional, .optional, []⟩,
  ⟨0xED, "Charging current setting", "number", 0, .optional, .optional, .optional, []⟩]⟩

/-- Class Watt-hour meter (src/database_mra_objects.rs:22794-22825). -/
def class_0280 : ClassDef := ⟨"Watt-hour meter", 0x02, 0x80, [
  ⟨0xE0, "Cumulative amounts of electric energy measurement value", "number", 0, .required, .notApplicable, .optional, []⟩,
  ⟨0xE2, "Cumulative amounts of electric energy unit", "numericValue", 1, .required, .notApplicable, .optional, []⟩,
  ⟨0xE3, "Cumulative amounts of electric energy measurement log 1", "array", 0, .optional, .notApplicable, .optional, []⟩]⟩

/-- Enumeration values of property 0xB1 of class 0003 (src/database_mra_objects.rs, pushes before line 22839). -/
def class_0003_enums_0 : List PropertyEnum := [
  ⟨0x41, "true", "YES"⟩,
  ⟨0x42, "false", "NO"⟩]

/-- Enumeration values of property 0xBF of class 0003 (src/database_mra_objects.rs, pushes before line 22854). -/
def class_0003_enums_1 : List PropertyEnum := [
  ⟨0x0, "reset", "Reset"⟩]

/-- Class Emergency button (src/database_mra_objects.rs:22828-22864). -/
def class_0003 : ClassDef := ⟨"Emergency button", 0x00, 0x03, [
  ⟨0xB1, "Emergency occurrence status", "state", 1, .required, .notApplicable, .required, class_0003_enums_0⟩,
  ⟨0xBF, "Emergency occurrence status resetting", "state", 1, .notApplicable, .optional, .notApplicable, class_0003_enums_1⟩]⟩

/-- Enumeration values of property 0x89 of class 0279 (src/database_mra_objects.rs, pushes before line 27892). -/
def class_0279_enums_1 : List PropertyEnum := [
  ⟨0x0, "noFault", "No fault"⟩,
  ⟨0x1, "trunOffOrUnplug", "Faults that can be recovered from by turn off the power or unplug and reoperate."⟩,
  ⟨0x2, "resetButton", "Faults that can be recovered from by pressing the reset button."⟩,
  ⟨0x3, "setIncorrectly", "Device set incorrectly"⟩,
  ⟨0x4, "supply", "Supply"⟩,
  ⟨0x5, "cleaning", "Cleaning (filters, etc.)"⟩,
  ⟨0x6, "changingBattery", "Changing the battery"⟩,
  ⟨0x7, "recoverOperationNoReuired", "Recover operation no required"⟩,
  ⟨0x9, "userDefinable", "User-definable domain"⟩,
  ⟨0xa, "abnormalEventOrSafety", "Abnormal event or the tripping of a safety device."⟩,
  ⟨0xb, "abnormalEventOrSafety", "Abnormal event or the tripping of a safety device."⟩,
  ⟨0xc, "abnormalEventOrSafety", "Abnormal event or the tripping of a safety device."⟩,
  ⟨0xd, "abnormalEventOrSafety", "Abnormal event or the tripping of a safety device."⟩,
  ⟨0xe, "abnormalEventOrSafety", "Abnormal event or the tripping of a safety device."⟩,
  ⟨0xf, "abnormalEventOrSafety", "Abnormal event or the tripping of a safety device."⟩,
  ⟨0x10, "abnormalEventOrSafety", "Abnormal event or the tripping of a safety device."⟩,
  ⟨0x11, "abnormalEventOrSafety", "Abnormal event or the tripping of a safety device."⟩,
  ⟨0x12, "abnormalEventOrSafety", "Abnormal event or the tripping of a safety device."⟩,
  ⟨0x13, "abnormalEventOrSafety", "Abnormal event or the tripping of a safety device."⟩,
  ⟨0x14, "switch", "Fault in a switch"⟩,
  ⟨0x15, "switch", "Fault in a switch"⟩,
  ⟨0x16, "switch", "Fault in a switch"⟩,
  ⟨0x17, "switch", "Fault in a switch"⟩,
  ⟨0x18, "switch", "Fault in a switch"⟩,
  ⟨0x19, "switch", "Fault in a switch"⟩,
  ⟨0x1a, "switch", "Fault in a switch"⟩,
  ⟨0x1b, "switch", "Fault in a switch"⟩,
  ⟨0x1c, "switch", "Fault in a switch"⟩,
  ⟨0x1d, "switch", "Fault in a switch"⟩,
  ⟨0x1e, "sensorSystem", "Fault in the sensor system"⟩,
  ⟨0x1f, "sensorSystem", "Fault in the sensor system"⟩,
  ⟨0x20, "sensorSystem", "Fault in the sensor system"⟩,
  ⟨0x21, "sensorSystem", "Fault in the sensor system"⟩,
  ⟨0x22, "sensorSystem", "Fault in the sensor system"⟩,
  ⟨0x23, "sensorSystem", "Fault in the sensor system"⟩,
  ⟨0x24, "sensorSystem", "Fault in the sensor system"⟩,
  ⟨0x25, "sensorSystem", "Fault in the sensor system"⟩,
  ⟨0x26, "sensorSystem", "Fault in the sensor system"⟩,
  ⟨0x27, "sensorSystem", "Fault in the sensor system"⟩,
  ⟨0x28, "sensorSystem", "Fault in the sensor system"⟩,
  ⟨0x29, "sensorSystem", "Fault in the sensor system"⟩,
  ⟨0x2a, "sensorSystem", "Fault in the sensor system"⟩,
  ⟨0x2b, "sensorSystem", "Fault in the sensor system"⟩,
  ⟨0x2c, "sensorSystem", "Fault in the sensor system"⟩,
  ⟨0x2d, "sensorSystem", "Fault in the sensor system"⟩,
  ⟨0x2e, "sensorSystem", "Fault in the sensor system"⟩,
  ⟨0x2f, "sensorSystem", "Fault in the sensor system"⟩,
  ⟨0x30, "sensorSystem", "Fault in the sensor system"⟩,
  ⟨0x31, "sensorSystem", "Fault in the sensor system"⟩,
  ⟨0x32, "sensorSystem", "Fault in the sensor system"⟩,
  ⟨0x33, "sensorSystem", "Fault in the sensor system"⟩,
  ⟨0x34, "sensorSystem", "Fault in the sensor system"⟩,
  ⟨0x35, "sensorSystem", "Fault in the sensor system"⟩,
  ⟨0x36, "sensorSystem", "Fault in the sensor system"⟩,
  ⟨0x37, "sensorSystem", "Fault in the sensor system"⟩,
  ⟨0x38, "sensorSystem", "Fault in the sensor system"⟩,
  ⟨0x39, "sensorSystem", "Fault in the sensor system"⟩,
  ⟨0x3a, "sensorSystem", "Fault in the sensor system"⟩,
  ⟨0x3b, "sensorSystem", "Fault in the sensor system"⟩,
  ⟨0x3c, "component", "Fault in a component such as an actuator."⟩,
  ⟨0x3d, "component", "Fault in a component such as an actuator."⟩,
  ⟨0x3e, "component", "Fault in a component such as an actuator."⟩,
  ⟨0x3f, "component", "Fault in a component such as an actuator."⟩,
  ⟨0x40, "component", "Fault in a component such as an actuator."⟩,
  ⟨0x41, "component", "Fault in a component such as an actuator."⟩,
  ⟨0x42, "component", "Fault in a component such as an actuator."⟩,
  ⟨0x43, "component", "Fault in a component such as an actuator."⟩,
  ⟨0x44, "component", "Fault in a component such as an actuator."⟩,
  ⟨0x45, "component", "Fault in a component such as an actuator."⟩,
  ⟨0x46, "component", "Fault in a component such as an actuator."⟩,
  ⟨0x47, "component", "Fault in a component such as an actuator."⟩,
  ⟨0x48, "component", "Fault in a component such as an actuator."⟩,
  ⟨0x49, "component", "Fault in a component such as an actuator."⟩,
  ⟨0x4a, "component", "Fault in a component such as an actuator."⟩,
  ⟨0x4b, "component", "Fault in a component such as an actuator."⟩,
  ⟨0x4c, "component", "Fault in a component such as an actuator."⟩,
  ⟨0x4d, "component", "Fault in a component such as an actuator."⟩,
  ⟨0x4e, "component", "Fault in a component such as an actuator."⟩,
  ⟨0x4f, "component", "Fault in a component such as an actuator."⟩,
  ⟨0x50, "component", "Fault in a component such as an actuator."⟩,
  ⟨0x51, "component", "Fault in a component such as an actuator."⟩,
  ⟨0x52, "component", "Fault in a component such as an actuator."⟩,
  ⟨0x53, "component", "Fault in a component such as an actuator."⟩,
  ⟨0x54, "component", "Fault in a component such as an actuator."⟩,
  ⟨0x55, "component", "Fault in a component such as an actuator."⟩,
  ⟨0x56, "component", "Fault in a component such as an actuator."⟩,
  ⟨0x57, "component", "Fault in a component such as an actuator."⟩,
  ⟨0x58, "component", "Fault in a component such as an actuator."⟩,
  ⟨0x59, "component", "Fault in a component such as an actuator."⟩,
  ⟨0x5a, "controlCircuitBoard", "Fault in a control circuit board."⟩,
  ⟨0x5b, "controlCircuitBoard", "Fault in a control circuit board."⟩,
  ⟨0x5c, "controlCircuitBoard", "Fault in a control circuit board."⟩,
  ⟨0x5d, "controlCircuitBoard", "Fault in a control circuit board."⟩,
  ⟨0x5e, "controlCircuitBoard", "Fault in a control circuit board."⟩,
  ⟨0x5f, "controlCircuitBoard", "Fault in a control circuit board."⟩,
  ⟨0x60, "controlCircuitBoard", "Fault in a control circuit board."⟩,
  ⟨0x61, "controlCircuitBoard", "Fault in a control circuit board."⟩,
  ⟨0x62, "controlCircuitBoard", "Fault in a control circuit board."⟩,
  ⟨0x63, "controlCircuitBoard", "Fault in a control circuit board."⟩,
  ⟨0x64, "controlCircuitBoard", "Fault in a control circuit board."⟩,
  ⟨0x65, "controlCircuitBoard", "Fault in a control circuit board."⟩,
  ⟨0x66, "controlCircuitBoard", "Fault in a control circuit board."⟩,
  ⟨0x67, "controlCircuitBoard", "Fault in a control circuit board."⟩,
  ⟨0x68, "controlCircuitBoard", "Fault in a control circuit board."⟩,
  ⟨0x69, "controlCircuitBoard", "Fault in a control circuit board."⟩,
  ⟨0x6a, "controlCircuitBoard", "Fault in a control circuit board."⟩,
  ⟨0x6b, "controlCircuitBoard", "Fault in a control circuit board."⟩,
  ⟨0x6c, "controlCircuitBoard", "Fault in a control circuit board."⟩,
  ⟨0x6d, "controlCircuitBoard", "Fault in a control circuit board."⟩,
  ⟨0x6e, "controlCircuitBoard", "Fault in a control circuit board."⟩,
  ⟨0x6f, "userDefinable", "User-definable domain"⟩,
  ⟨0x70, "userDefinable", "User-definable domain"⟩,
  ⟨0x71, "userDefinable", "User-definable domain"⟩,
  ⟨0x72, "userDefinable", "User-definable domain"⟩,
  ⟨0x73, "userDefinable", "User-definable domain"⟩,
  ⟨0x74, "userDefinable", "User-definable domain"⟩,
  ⟨0x75, "userDefinable", "User-definable domain"⟩,
  ⟨0x76, "userDefinable", "User-definable domain"⟩,
  ⟨0x77, "userDefinable", "User-definable domain"⟩,
  ⟨0x78, "userDefinable", "User-definable domain"⟩,
  ⟨0x79, "userDefinable", "User-definable domain"⟩,
  ⟨0x7a, "userDefinable", "User-definable domain"⟩,
  ⟨0x7b, "userDefinable", "User-definable domain"⟩,
  ⟨0x7c, "userDefinable", "User-definable domain"⟩,
  ⟨0x7d, "userDefinable", "User-definable domain"⟩,
  ⟨0x7e, "userDefinable", "User-definable domain"⟩,
  ⟨0x7f, "userDefinable", "User-definable domain"⟩,
  ⟨0x80, "userDefinable", "User-definable domain"⟩,
  ⟨0x81, "userDefinable", "User-definable domain"⟩,
  ⟨0x82, "userDefinable", "User-definable domain"⟩,
  ⟨0x83, "userDefinable", "User-definable domain"⟩,
  ⟨0x84, "userDefinable", "User-definable domain"⟩,
  ⟨0x85, "userDefinable", "User-definable domain"⟩,
  ⟨0x86, "userDefinable", "User-definable domain"⟩,
  ⟨0x87, "userDefinable", "User-definable domain"⟩,
  ⟨0x88, "userDefinable", "User-definable domain"⟩,
  ⟨0x89, "userDefinable", "User-definable domain"⟩,
  ⟨0x8a, "userDefinable", "User-definable domain"⟩,
  ⟨0x8b, "userDefinable", "User-definable domain"⟩,
  ⟨0x8c, "userDefinable", "User-definable domain"⟩,
  ⟨0x8d, "userDefinable", "User-definable domain"⟩,
  ⟨0x8e, "userDefinable", "User-definable domain"⟩,
  ⟨0x8f, "userDefinable", "User-definable domain"⟩,
  ⟨0x90, "userDefinable", "User-definable domain"⟩,
  ⟨0x91, "userDefinable", "User-definable domain"⟩,
  ⟨0x92, "userDefinable", "User-definable domain"⟩,
  ⟨0x93, "userDefinable", "User-definable domain"⟩,
  ⟨0x94, "userDefinable", "User-definable domain"⟩,
  ⟨0x95, "userDefinable", "User-definable domain"⟩,
  ⟨0x96, "userDefinable", "User-definable domain"⟩,
  ⟨0x97, "userDefinable", "User-definable domain"⟩,
  ⟨0x98, "userDefinable", "User-definable domain"⟩,
  ⟨0x99, "userDefinable", "User-definable domain"⟩,
  ⟨0x9a, "userDefinable", "User-definable domain"⟩,
  ⟨0x9b, "userDefinable", "User-definable domain"⟩,
  ⟨0x9c, "userDefinable", "User-definable domain"⟩,
  ⟨0x9d, "userDefinable", "User-definable domain"⟩,
  ⟨0x9e, "userDefinable", "User-definable domain"⟩,
  ⟨0x9f, "userDefinable", "User-definable domain"⟩,
  ⟨0xa0, "userDefinable", "User-definable domain"⟩,
  ⟨0xa1, "userDefinable", "User-definable domain"⟩,
  ⟨0xa2, "userDefinable", "User-definable domain"⟩,
  ⟨0xa3, "userDefinable", "User-definable domain"⟩,
  ⟨0xa4, "userDefinable", "User-definable domain"⟩,
  ⟨0xa5, "userDefinable", "User-definable domain"⟩,
  ⟨0xa6, "userDefinable", "User-definable domain"⟩,
  ⟨0xa7, "userDefinable", "User-definable domain"⟩,
  ⟨0xa8, "userDefinable", "User-definable domain"⟩,
  ⟨0xa9, "userDefinable", "User-definable domain"⟩,
  ⟨0xaa, "userDefinable", "User-definable domain"⟩,
  ⟨0xab, "userDefinable", "User-definable domain"⟩,
  ⟨0xac, "userDefinable", "User-definable domain"⟩,
  ⟨0xad, "userDefinable", "User-definable domain"⟩,
  ⟨0xae, "userDefinable", "User-definable domain"⟩,
  ⟨0xaf, "userDefinable", "User-definable domain"⟩,
  ⟨0xb0, "userDefinable", "User-definable domain"⟩,
  ⟨0xb1, "userDefinable", "User-definable domain"⟩,
  ⟨0xb2, "userDefinable", "User-definable domain"⟩,
  ⟨0xb3, "userDefinable", "User-definable domain"⟩,
  ⟨0xb4, "userDefinable", "User-definable domain"⟩,
  ⟨0xb5, "userDefinable", "User-definable domain"⟩,
  ⟨0xb6, "userDefinable", "User-definable domain"⟩,
  ⟨0xb7, "userDefinable", "User-definable domain"⟩,
  ⟨0xb8, "userDefinable", "User-definable domain"⟩,
  ⟨0xb9, "userDefinable", "User-definable domain"⟩,
  ⟨0xba, "userDefinable", "User-definable domain"⟩,
  ⟨0xbb, "userDefinable", "User-definable domain"⟩,
  ⟨0xbc, "userDefinable", "User-definable domain"⟩,
  ⟨0xbd, "userDefinable", "User-definable domain"⟩,
  ⟨0xbe, "userDefinable", "User-definable domain"⟩,
  ⟨0xbf, "userDefinable", "User-definable domain"⟩,
  ⟨0xc0, "userDefinable", "User-definable domain"⟩,
  ⟨0xc1, "userDefinable", "User-definable domain"⟩,
  ⟨0xc2, "userDefinable", "User-definable domain"⟩,
  ⟨0xc3, "userDefinable", "User-definable domain"⟩,
  ⟨0xc4, "userDefinable", "User-definable domain"⟩,
  ⟨0xc5, "userDefinable", "User-definable domain"⟩,
  ⟨0xc6, "userDefinable", "User-definable domain"⟩,
  ⟨0xc7, "userDefinable", "User-definable domain"⟩,
  ⟨0xc8, "userDefinable", "User-definable domain"⟩,
  ⟨0xc9, "userDefinable", "User-definable domain"⟩,
  ⟨0xca, "userDefinable", "User-definable domain"⟩,
  ⟨0xcb, "userDefinable", "User-definable domain"⟩,
  ⟨0xcc, "userDefinable", "User-definable domain"⟩,
  ⟨0xcd, "userDefinable", "User-definable domain"⟩,
  ⟨0xce, "userDefinable", "User-definable domain"⟩,
  ⟨0xcf, "userDefinable", "User-definable domain"⟩,
  ⟨0xd0, "userDefinable", "User-definable domain"⟩,
  ⟨0xd1, "userDefinable", "User-definable domain"⟩,
  ⟨0xd2, "userDefinable", "User-definable domain"⟩,
  ⟨0xd3, "userDefinable", "User-definable domain"⟩,
  ⟨0xd4, "userDefinable", "User-definable domain"⟩,
  ⟨0xd5, "userDefinable", "User-definable domain"⟩,
  ⟨0xd6, "userDefinable", "User-definable domain"⟩,
  ⟨0xd7, "userDefinable", "User-definable domain"⟩,
  ⟨0xd8, "userDefinable", "User-definable domain"⟩,
  ⟨0xd9, "userDefinable", "User-definable domain"⟩,
  ⟨0xda, "userDefinable", "User-definable domain"⟩,
  ⟨0xdb, "userDefinable", "User-definable domain"⟩,
  ⟨0xdc, "userDefinable", "User-definable domain"⟩,
  ⟨0xdd, "userDefinable", "User-definable domain"⟩,
  ⟨0xde, "userDefinable", "User-definable domain"⟩,
  ⟨0xdf, "userDefinable", "User-definable domain"⟩,
  ⟨0xe0, "userDefinable", "User-definable domain"⟩,
  ⟨0xe1, "userDefinable", "User-definable domain"⟩,
  ⟨0xe2, "userDefinable", "User-definable domain"⟩,
  ⟨0xe3, "userDefinable", "User-definable domain"⟩,
  ⟨0xe4, "userDefinable", "User-definable domain"⟩,
  ⟨0xe5, "userDefinable", "User-definable domain"⟩,
  ⟨0xe6, "userDefinable", "User-definable domain"⟩,
  ⟨0xe7, "userDefinable", "User-definable domain"⟩,
  ⟨0xe8, "userDefinable", "User-definable domain"⟩,
  ⟨0xe9, "userDefinable", "User-definable domain"⟩,
  ⟨0xea, "userDefinable", "User-definable domain"⟩,
  ⟨0xeb, "userDefinable", "User-definable domain"⟩,
  ⟨0xec, "userDefinable", "User-definable domain"⟩,
  ⟨0xed, "userDefinable", "User-definable domain"⟩,
  ⟨0xee, "userDefinable", "User-definable domain"⟩,
  ⟨0xef, "userDefinable", "User-definable domain"⟩,
  ⟨0xf0, "userDefinable", "User-definable domain"⟩,
  ⟨0xf1, "userDefinable", "User-definable domain"⟩,
  ⟨0xf2, "userDefinable", "User-definable domain"⟩,
  ⟨0xf3, "userDefinable", "User-definable domain"⟩,
  ⟨0xf4, "userDefinable", "User-definable domain"⟩,
  ⟨0xf5, "userDefinable", "User-definable domain"⟩,
  ⟨0xf6, "userDefinable", "User-definable domain"⟩,
  ⟨0xf7, "userDefinable", "User-definable domain"⟩,
  ⟨0xf8, "userDefinable", "User-definable domain"⟩,
  ⟨0xf9, "userDefinable", "User-definable domain"⟩,
  ⟨0xfa, "userDefinable", "User-definable domain"⟩,
  ⟨0xfb, "userDefinable", "User-definable domain"⟩,
  ⟨0xfc, "userDefinable", "User-definable domain"⟩,
  ⟨0xfd, "userDefinable", "User-definable domain"⟩,
  ⟨0xfe, "userDefinable", "User-definable domain"⟩,
  ⟨0xff, "userDefinable", "User-definable domain"⟩,
  ⟨0x100, "userDefinable", "User-definable domain"⟩,
  ⟨0x101, "userDefinable", "User-definable domain"⟩,
  ⟨0x102, "userDefinable", "User-definable domain"⟩,
  ⟨0x103, "userDefinable", "User-definable domain"⟩,
  ⟨0x104, "userDefinable", "User-definable domain"⟩,
  ⟨0x105, "userDefinable", "User-definable domain"⟩,
  ⟨0x106, "userDefinable", "User-definable domain"⟩,
  ⟨0x107, "userDefinable", "User-definable domain"⟩,
  ⟨0x108, "userDefinable", "User-definable domain"⟩,
  ⟨0x109, "userDefinable", "User-definable domain"⟩,
  ⟨0x10a, "userDefinable", "User-definable domain"⟩,
  ⟨0x10b, "userDefinable", "User-definable domain"⟩,
  ⟨0x10c, "userDefinable", "User-definable domain"⟩,
  ⟨0x10d, "userDefinable", "User-definable domain"⟩,
  ⟨0x10e, "userDefinable", "User-definable domain"⟩,
  ⟨0x10f, "userDefinable", "User-definable domain"⟩,
  ⟨0x110, "userDefinable", "User-definable domain"⟩,
  ⟨0x111, "userDefinable", "User-definable domain"⟩,
  ⟨0x112, "userDefinable", "User-definable domain"⟩,
  ⟨0x113, "userDefinable", "User-definable domain"⟩,
  ⟨0x114, "userDefinable", "User-definable domain"⟩,
  ⟨0x115, "userDefinable", "User-definable domain"⟩,
  ⟨0x116, "userDefinable", "User-definable domain"⟩,
  ⟨0x117, "userDefinable", "User-definable domain"⟩,
  ⟨0x118, "userDefinable", "User-definable domain"⟩,
  ⟨0x119, "userDefinable", "User-definable domain"⟩,
  ⟨0x11a, "userDefinable", "User-definable domain"⟩,
  ⟨0x11b, "userDefinable", "User-definable domain"⟩,
  ⟨0x11c, "userDefinable", "User-definable domain"⟩,
  ⟨0x11d, "userDefinable", "User-definable domain"⟩,
  ⟨0x11e, "userDefinable", "User-definable domain"⟩,
  ⟨0x11f, "userDefinable", "User-definable domain"⟩,
  ⟨0x120, "userDefinable", "User-definable domain"⟩,
  ⟨0x121, "userDefinable", "User-definable domain"⟩,
  ⟨0x122, "userDefinable", "User-definable domain"⟩,
  ⟨0x123, "userDefinable", "User-definable domain"⟩,
  ⟨0x124, "userDefinable", "User-definable domain"⟩,
  ⟨0x125, "userDefinable", "User-definable domain"⟩,
  ⟨0x126, "userDefinable", "User-definable domain"⟩,
  ⟨0x127, "userDefinable", "User-definable domain"⟩,
  ⟨0x128, "userDefinable", "User-definable domain"⟩,
  ⟨0x129, "userDefinable", "User-definable domain"⟩,
  ⟨0x12a, "userDefinable", "User-definable domain"⟩,
  ⟨0x12b, "userDefinable", "User-definable domain"⟩,
  ⟨0x12c, "userDefinable", "User-definable domain"⟩,
  ⟨0x12d, "userDefinable", "User-definable domain"⟩,
  ⟨0x12e, "userDefinable", "User-definable domain"⟩,
  ⟨0x12f, "userDefinable", "User-definable domain"⟩,
  ⟨0x130, "userDefinable", "User-definable domain"⟩,
  ⟨0x131, "userDefinable", "User-definable domain"⟩,
  ⟨0x132, "userDefinable", "User-definable domain"⟩,
  ⟨0x133, "userDefinable", "User-definable domain"⟩,
  ⟨0x134, "userDefinable", "User-definable domain"⟩,
  ⟨0x135, "userDefinable", "User-definable domain"⟩,
  ⟨0x136, "userDefinable", "User-definable domain"⟩,
  ⟨0x137, "userDefinable", "User-definable domain"⟩,
  ⟨0x138, "userDefinable", "User-definable domain"⟩,
  ⟨0x139, "userDefinable", "User-definable domain"⟩,
  ⟨0x13a, "userDefinable", "User-definable domain"⟩,
  ⟨0x13b, "userDefinable", "User-definable domain"⟩,
  ⟨0x13c, "userDefinable", "User-definable domain"⟩,
  ⟨0x13d, "userDefinable", "User-definable domain"⟩,
  ⟨0x13e, "userDefinable", "User-definable domain"⟩,
  ⟨0x13f, "userDefinable", "User-definable domain"⟩,
  ⟨0x140, "userDefinable", "User-definable domain"⟩,
  ⟨0x141, "userDefinable", "User-definable domain"⟩,
  ⟨0x142, "userDefinable", "User-definable domain"⟩,
  ⟨0x143, "userDefinable", "User-definable domain"⟩,
  ⟨0x144, "userDefinable", "User-definable domain"⟩,
  ⟨0x145, "userDefinable", "User-definable domain"⟩,
  ⟨0x146, "userDefinable", "User-definable domain"⟩,
  ⟨0x147, "userDefinable", "User-definable domain"⟩,
  ⟨0x148, "userDefinable", "User-definable domain"⟩,
  ⟨0x149, "userDefinable", "User-definable domain"⟩,
  ⟨0x14a, "userDefinable", "User-definable domain"⟩,
  ⟨0x14b, "userDefinable", "User-definable domain"⟩,
  ⟨0x14c, "userDefinable", "User-definable domain"⟩,
  ⟨0x14d, "userDefinable", "User-definable domain"⟩,
  ⟨0x14e, "userDefinable", "User-definable domain"⟩,
  ⟨0x14f, "userDefinable", "User-definable domain"⟩,
  ⟨0x150, "userDefinable", "User-definable domain"⟩,
  ⟨0x151, "userDefinable", "User-definable domain"⟩,
  ⟨0x152, "userDefinable", "User-definable domain"⟩,
  ⟨0x153, "userDefinable", "User-definable domain"⟩,
  ⟨0x154, "userDefinable", "User-definable domain"⟩,
  ⟨0x155, "userDefinable", "User-definable domain"⟩,
  ⟨0x156, "userDefinable", "User-definable domain"⟩,
  ⟨0x157, "userDefinable", "User-definable domain"⟩,
  ⟨0x158, "userDefinable", "User-definable domain"⟩,
  ⟨0x159, "userDefinable", "User-definable domain"⟩,
  ⟨0x15a, "userDefinable", "User-definable domain"⟩,
  ⟨0x15b, "userDefinable", "User-definable domain"⟩,
  ⟨0x15c, "userDefinable", "User-definable domain"⟩,
  ⟨0x15d, "userDefinable", "User-definable domain"⟩,
  ⟨0x15e, "userDefinable", "User-definable domain"⟩,
  ⟨0x15f, "userDefinable", "User-definable domain"⟩,
  ⟨0x160, "userDefinable", "User-definable domain"⟩,
  ⟨0x161, "userDefinable", "User-definable domain"⟩,
  ⟨0x162, "userDefinable", "User-definable domain"⟩,
  ⟨0x163, "userDefinable", "User-definable domain"⟩,
  ⟨0x164, "userDefinable", "User-definable domain"⟩,
  ⟨0x165, "userDefinable", "User-definable domain"⟩,
  ⟨0x166, "userDefinable", "User-definable domain"⟩,
  ⟨0x167, "userDefinable", "User-definable domain"⟩,
  ⟨0x168, "userDefinable", "User-definable domain"⟩,
  ⟨0x169, "userDefinable", "User-definable domain"⟩,
  ⟨0x16a, "userDefinable", "User-definable domain"⟩,
  ⟨0x16b, "userDefinable", "User-definable domain"⟩,
  ⟨0x16c, "userDefinable", "User-definable domain"⟩,
  ⟨0x16d, "userDefinable", "User-definable domain"⟩,
  ⟨0x16e, "userDefinable", "User-definable domain"⟩,
  ⟨0x16f, "userDefinable", "User-definable domain"⟩,
  ⟨0x170, "userDefinable", "User-definable domain"⟩,
  ⟨0x171, "userDefinable", "User-definable domain"⟩,
  ⟨0x172, "userDefinable", "User-definable domain"⟩,
  ⟨0x173, "userDefinable", "User-definable domain"⟩,
  ⟨0x174, "userDefinable", "User-definable domain"⟩,
  ⟨0x175, "userDefinable", "User-definable domain"⟩,
  ⟨0x176, "userDefinable", "User-definable domain"⟩,
  ⟨0x177, "userDefinable", "User-definable domain"⟩,
  ⟨0x178, "userDefinable", "User-definable domain"⟩,
  ⟨0x179, "userDefinable", "User-definable domain"⟩,
  ⟨0x17a, "userDefinable", "User-definable domain"⟩,
  ⟨0x17b, "userDefinable", "User-definable domain"⟩,
  ⟨0x17c, "userDefinable", "User-definable domain"⟩,
  ⟨0x17d, "userDefinable", "User-definable domain"⟩,
  ⟨0x17e, "userDefinable", "User-definable domain"⟩,
  ⟨0x17f, "userDefinable", "User-definable domain"⟩,
  ⟨0x180, "userDefinable", "User-definable domain"⟩,
  ⟨0x181, "userDefinable", "User-definable domain"⟩,
  ⟨0x182, "userDefinable", "User-definable domain"⟩,
  ⟨0x183, "userDefinable", "User-definable domain"⟩,
  ⟨0x184, "userDefinable", "User-definable domain"⟩,
  ⟨0x185, "userDefinable", "User-definable domain"⟩,
  ⟨0x186, "userDefinable", "User-definable domain"⟩,
  ⟨0x187, "userDefinable", "User-definable domain"⟩,
  ⟨0x188, "userDefinable", "User-definable domain"⟩,
  ⟨0x189, "userDefinable", "User-definable domain"⟩,
  ⟨0x18a, "userDefinable", "User-definable domain"⟩,
  ⟨0x18b, "userDefinable", "User-definable domain"⟩,
  ⟨0x18c, "userDefinable", "User-definable domain"⟩,
  ⟨0x18d, "userDefinable", "User-definable domain"⟩,
  ⟨0x18e, "userDefinable", "User-definable domain"⟩,
  ⟨0x18f, "userDefinable", "User-definable domain"⟩,
  ⟨0x190, "userDefinable", "User-definable domain"⟩,
  ⟨0x191, "userDefinable", "User-definable domain"⟩,
  ⟨0x192, "userDefinable", "User-definable domain"⟩,
  ⟨0x193, "userDefinable", "User-definable domain"⟩,
  ⟨0x194, "userDefinable", "User-definable domain"⟩,
  ⟨0x195, "userDefinable", "User-definable domain"⟩,
  ⟨0x196, "userDefinable", "User-definable domain"⟩,
  ⟨0x197, "userDefinable", "User-definable domain"⟩,
  ⟨0x198, "userDefinable", "User-definable domain"⟩,
  ⟨0x199, "userDefinable", "User-definable domain"⟩,
  ⟨0x19a, "userDefinable", "User-definable domain"⟩,
  ⟨0x19b, "userDefinable", "User-definable domain"⟩,
  ⟨0x19c, "userDefinable", "User-definable domain"⟩,
  ⟨0x19d, "userDefinable", "User-definable domain"⟩,
  ⟨0x19e, "userDefinable", "User-definable domain"⟩,
  ⟨0x19f, "userDefinable", "User-definable domain"⟩,
  ⟨0x1a0, "userDefinable", "User-definable domain"⟩,
  ⟨0x1a1, "userDefinable", "User-definable domain"⟩,
  ⟨0x1a2, "userDefinable", "User-definable domain"⟩,
  ⟨0x1a3, "userDefinable", "User-definable domain"⟩,
  ⟨0x1a4, "userDefinable", "User-definable domain"⟩,
  ⟨0x1a5, "userDefinable", "User-definable domain"⟩,
  ⟨0x1a6, "userDefinable", "User-definable domain"⟩,
  ⟨0x1a7, "userDefinable", "User-definable domain"⟩,
  ⟨0x1a8, "userDefinable", "User-definable domain"⟩,
  ⟨0x1a9, "userDefinable", "User-definable domain"⟩,
  ⟨0x1aa, "userDefinable", "User-definable domain"⟩,
  ⟨0x1ab, "userDefinable", "User-definable domain"⟩,
  ⟨0x1ac, "userDefinable", "User-definable domain"⟩,
  ⟨0x1ad, "userDefinable", "User-definable domain"⟩,
  ⟨0x1ae, "userDefinable", "User-definable domain"⟩,
  ⟨0x1af, "userDefinable", "User-definable domain"⟩,
  ⟨0x1b0, "userDefinable", "User-definable domain"⟩,
  ⟨0x1b1, "userDefinable", "User-definable domain"⟩,
  ⟨0x1b2, "userDefinable", "User-definable domain"⟩,
  ⟨0x1b3, "userDefinable", "User-definable domain"⟩,
  ⟨0x1b4, "userDefinable", "User-definable domain"⟩,
  ⟨0x1b5, "userDefinable", "User-definable domain"⟩,
  ⟨0x1b6, "userDefinable", "User-definable domain"⟩,
  ⟨0x1b7, "userDefinable", "User-definable domain"⟩,
  ⟨0x1b8, "userDefinable", "User-definable domain"⟩,
  ⟨0x1b9, "userDefinable", "User-definable domain"⟩,
  ⟨0x1ba, "userDefinable", "User-definable domain"⟩,
  ⟨0x1bb, "userDefinable", "User-definable domain"⟩,
  ⟨0x1bc, "userDefinable", "User-definable domain"⟩,
  ⟨0x1bd, "userDefinable", "User-definable domain"⟩,
  ⟨0x1be, "userDefinable", "User-definable domain"⟩,
  ⟨0x1bf, "userDefinable", "User-definable domain"⟩,
  ⟨0x1c0, "userDefinable", "User-definable domain"⟩,
  ⟨0x1c1, "userDefinable", "User-definable domain"⟩,
  ⟨0x1c2, "userDefinable", "User-definable domain"⟩,
  ⟨0x1c3, "userDefinable", "User-definable domain"⟩,
  ⟨0x1c4, "userDefinable", "User-definable domain"⟩,
  ⟨0x1c5, "userDefinable", "User-definable domain"⟩,
  ⟨0x1c6, "userDefinable", "User-definable domain"⟩,
  ⟨0x1c7, "userDefinable", "User-definable domain"⟩,
  ⟨0x1c8, "userDefinable", "User-definable domain"⟩,
  ⟨0x1c9, "userDefinable", "User-definable domain"⟩,
  ⟨0x1ca, "userDefinable", "User-definable domain"⟩,
  ⟨0x1cb, "userDefinable", "User-definable domain"⟩,
  ⟨0x1cc, "userDefinable", "User-definable domain"⟩,
  ⟨0x1cd, "userDefinable", "User-definable domain"⟩,
  ⟨0x1ce, "userDefinable", "User-definable domain"⟩,
  ⟨0x1cf, "userDefinable", "User-definable domain"⟩,
  ⟨0x1d0, "userDefinable", "User-definable domain"⟩,
  ⟨0x1d1, "userDefinable", "User-definable domain"⟩,
  ⟨0x1d2, "userDefinable", "User-definable domain"⟩,
  ⟨0x1d3, "userDefinable", "User-definable domain"⟩,
  ⟨0x1d4, "userDefinable", "User-definable domain"⟩,
  ⟨0x1d5, "userDefinable", "User-definable domain"⟩,
  ⟨0x1d6, "userDefinable", "User-definable domain"⟩,
  ⟨0x1d7, "userDefinable", "User-definable domain"⟩,
  ⟨0x1d8, "userDefinable", "User-definable domain"⟩,
  ⟨0x1d9, "userDefinable", "User-definable domain"⟩,
  ⟨0x1da, "userDefinable", "User-definable domain"⟩,
  ⟨0x1db, "userDefinable", "User-definable domain"⟩,
  ⟨0x1dc, "userDefinable", "User-definable domain"⟩,
  ⟨0x1dd, "userDefinable", "User-definable domain"⟩,
  ⟨0x1de, "userDefinable", "User-definable domain"⟩,
  ⟨0x1df, "userDefinable", "User-definable domain"⟩,
  ⟨0x1e0, "userDefinable", "User-definable domain"⟩,
  ⟨0x1e1, "userDefinable", "User-definable domain"⟩,
  ⟨0x1e2, "userDefinable", "User-definable domain"⟩,
  ⟨0x1e3, "userDefinable", "User-definable domain"⟩,
  ⟨0x1e4, "userDefinable", "User-definable domain"⟩,
  ⟨0x1e5, "userDefinable", "User-definable domain"⟩,
  ⟨0x1e6, "userDefinable", "User-definable domain"⟩,
  ⟨0x1e7, "userDefinable", "User-definable domain"⟩,
  ⟨0x1e8, "userDefinable", "User-definable domain"⟩,
  ⟨0x1e9, "userDefinable", "User-definable domain"⟩,
  ⟨0x1ea, "userDefinable", "User-definable domain"⟩,
  ⟨0x1eb, "userDefinable", "User-definable domain"⟩,
  ⟨0x1ec, "userDefinable", "User-definable domain"⟩,
  ⟨0x1ed, "userDefinable", "User-definable domain"⟩,
  ⟨0x1ee, "userDefinable", "User-definable domain"⟩,
  ⟨0x1ef, "userDefinable", "User-definable domain"⟩,
  ⟨0x1f0, "userDefinable", "User-definable domain"⟩,
  ⟨0x1f1, "userDefinable", "User-definable domain"⟩,
  ⟨0x1f2, "userDefinable", "User-definable domain"⟩,
  ⟨0x1f3, "userDefinable", "User-definable domain"⟩,
  ⟨0x1f4, "userDefinable", "User-definable domain"⟩,
  ⟨0x1f5, "userDefinable", "User-definable domain"⟩,
  ⟨0x1f6, "userDefinable", "User-definable domain"⟩,
  ⟨0x1f7, "userDefinable", "User-definable domain"⟩,
  ⟨0x1f8, "userDefinable", "User-definable domain"⟩,
  ⟨0x1f9, "userDefinable", "User-definable domain"⟩,
  ⟨0x1fa, "userDefinable", "User-definable domain"⟩,
  ⟨0x1fb, "userDefinable", "User-definable domain"⟩,
  ⟨0x1fc, "userDefinable", "User-definable domain"⟩,
  ⟨0x1fd, "userDefinable", "User-definable domain"⟩,
  ⟨0x1fe, "userDefinable", "User-definable domain"⟩,
  ⟨0x1ff, "userDefinable", "User-definable domain"⟩,
  ⟨0x200, "userDefinable", "User-definable domain"⟩,
  ⟨0x201, "userDefinable", "User-definable domain"⟩,
  ⟨0x202, "userDefinable", "User-definable domain"⟩,
  ⟨0x203, "userDefinable", "User-definable domain"⟩,
  ⟨0x204, "userDefinable", "User-definable domain"⟩,
  ⟨0x205, "userDefinable", "User-definable domain"⟩,
  ⟨0x206, "userDefinable", "User-definable domain"⟩,
  ⟨0x207, "userDefinable", "User-definable domain"⟩,
  ⟨0x208, "userDefinable", "User-definable domain"⟩,
  ⟨0x209, "userDefinable", "User-definable domain"⟩,
  ⟨0x20a, "userDefinable", "User-definable domain"⟩,
  ⟨0x20b, "userDefinable", "User-definable domain"⟩,
  ⟨0x20c, "userDefinable", "User-definable domain"⟩,
  ⟨0x20d, "userDefinable", "User-definable domain"⟩,
  ⟨0x20e, "userDefinable", "User-definable domain"⟩,
  ⟨0x20f, "userDefinable", "User-definable domain"⟩,
  ⟨0x210, "userDefinable", "User-definable domain"⟩,
  ⟨0x211, "userDefinable", "User-definable domain"⟩,
  ⟨0x212, "userDefinable", "User-definable domain"⟩,
  ⟨0x213, "userDefinable", "User-definable domain"⟩,
  ⟨0x214, "userDefinable", "User-definable domain"⟩,
  ⟨0x215, "userDefinable", "User-definable domain"⟩,
  ⟨0x216, "userDefinable", "User-definable domain"⟩,
  ⟨0x217, "userDefinable", "User-definable domain"⟩,
  ⟨0x218, "userDefinable", "User-definable domain"⟩,
  ⟨0x219, "userDefinable", "User-definable domain"⟩,
  ⟨0x21a, "userDefinable", "User-definable domain"⟩,
  ⟨0x21b, "userDefinable", "User-definable domain"⟩,
  ⟨0x21c, "userDefinable", "User-definable domain"⟩,
  ⟨0x21d, "userDefinable", "User-definable domain"⟩,
  ⟨0x21e, "userDefinable", "User-definable domain"⟩,
  ⟨0x21f, "userDefinable", "User-definable domain"⟩,
  ⟨0x220, "userDefinable", "User-definable domain"⟩,
  ⟨0x221, "userDefinable", "User-definable domain"⟩,
  ⟨0x222, "userDefinable", "User-definable domain"⟩,
  ⟨0x223, "userDefinable", "User-definable domain"⟩,
  ⟨0x224, "userDefinable", "User-definable domain"⟩,
  ⟨0x225, "userDefinable", "User-definable domain"⟩,
  ⟨0x226, "userDefinable", "User-definable domain"⟩,
  ⟨0x227, "userDefinable", "User-definable domain"⟩,
  ⟨0x228, "userDefinable", "User-definable domain"⟩,
  ⟨0x229, "userDefinable", "User-definable domain"⟩,
  ⟨0x22a, "userDefinable", "User-definable domain"⟩,
  ⟨0x22b, "userDefinable", "User-definable domain"⟩,
  ⟨0x22c, "userDefinable", "User-definable domain"⟩,
  ⟨0x22d, "userDefinable", "User-definable domain"⟩,
  ⟨0x22e, "userDefinable", "User-definable domain"⟩,
  ⟨0x22f, "userDefinable", "User-definable domain"⟩,
  ⟨0x230, "userDefinable", "User-definable domain"⟩,
  ⟨0x231, "userDefinable", "User-definable domain"⟩,
  ⟨0x232, "userDefinable", "User-definable domain"⟩,
  ⟨0x233, "userDefinable", "User-definable domain"⟩,
  ⟨0x234, "userDefinable", "User-definable domain"⟩,
  ⟨0x235, "userDefinable", "User-definable domain"⟩,
  ⟨0x236, "userDefinable", "User-definable domain"⟩,
  ⟨0x237, "userDefinable", "User-definable domain"⟩,
  ⟨0x238, "userDefinable", "User-definable domain"⟩,
  ⟨0x239, "userDefinable", "User-definable domain"⟩,
  ⟨0x23a, "userDefinable", "User-definable domain"⟩,
  ⟨0x23b, "userDefinable", "User-definable domain"⟩,
  ⟨0x23c, "userDefinable", "User-definable domain"⟩,
  ⟨0x23d, "userDefinable", "User-definable domain"⟩,
  ⟨0x23e, "userDefinable", "User-definable domain"⟩,
  ⟨0x23f, "userDefinable", "User-definable domain"⟩,
  ⟨0x240, "userDefinable", "User-definable domain"⟩,
  ⟨0x241, "userDefinable", "User-definable domain"⟩,
  ⟨0x242, "userDefinable", "User-definable domain"⟩,
  ⟨0x243, "userDefinable", "User-definable domain"⟩,
  ⟨0x244, "userDefinable", "User-definable domain"⟩,
  ⟨0x245, "userDefinable", "User-definable domain"⟩,
  ⟨0x246, "userDefinable", "User-definable domain"⟩,
  ⟨0x247, "userDefinable", "User-definable domain"⟩,
  ⟨0x248, "userDefinable", "User-definable domain"⟩,
  ⟨0x249, "userDefinable", "User-definable domain"⟩,
  ⟨0x24a, "userDefinable", "User-definable domain"⟩,
  ⟨0x24b, "userDefinable", "User-definable domain"⟩,
  ⟨0x24c, "userDefinable", "User-definable domain"⟩,
  ⟨0x24d, "userDefinable", "User-definable domain"⟩,
  ⟨0x24e, "userDefinable", "User-definable domain"⟩,
  ⟨0x24f, "userDefinable", "User-definable domain"⟩,
  ⟨0x250, "userDefinable", "User-definable domain"⟩,
  ⟨0x251, "userDefinable", "User-definable domain"⟩,
  ⟨0x252, "userDefinable", "User-definable domain"⟩,
  ⟨0x253, "userDefinable", "User-definable domain"⟩,
  ⟨0x254, "userDefinable", "User-definable domain"⟩,
  ⟨0x255, "userDefinable", "User-definable domain"⟩,
  ⟨0x256, "userDefinable", "User-definable domain"⟩,
  ⟨0x257, "userDefinable", "User-definable domain"⟩,
  ⟨0x258, "userDefinable", "User-definable domain"⟩,
  ⟨0x259, "userDefinable", "User-definable domain"⟩,
  ⟨0x25a, "userDefinable", "User-definable domain"⟩,
  ⟨0x25b, "userDefinable", "User-definable domain"⟩,
  ⟨0x25c, "userDefinable", "User-definable domain"⟩,
  ⟨0x25d, "userDefinable", "User-definable domain"⟩,
  ⟨0x25e, "userDefinable", "User-definable domain"⟩,
  ⟨0x25f, "userDefinable", "User-definable domain"⟩,
  ⟨0x260, "userDefinable", "User-definable domain"⟩,
  ⟨0x261, "userDefinable", "User-definable domain"⟩,
  ⟨0x262, "userDefinable", "User-definable domain"⟩,
  ⟨0x263, "userDefinable", "User-definable domain"⟩,
  ⟨0x264, "userDefinable", "User-definable domain"⟩,
  ⟨0x265, "userDefinable", "User-definable domain"⟩,
  ⟨0x266, "userDefinable", "User-definable domain"⟩,
  ⟨0x267, "userDefinable", "User-definable domain"⟩,
  ⟨0x268, "userDefinable", "User-definable domain"⟩,
  ⟨0x269, "userDefinable", "User-definable domain"⟩,
  ⟨0x26a, "userDefinable", "User-definable domain"⟩,
  ⟨0x26b, "userDefinable", "User-definable domain"⟩,
  ⟨0x26c, "userDefinable", "User-definable domain"⟩,
  ⟨0x26d, "userDefinable", "User-definable domain"⟩,
  ⟨0x26e, "userDefinable", "User-definable domain"⟩,
  ⟨0x26f, "userDefinable", "User-definable domain"⟩,
  ⟨0x270, "userDefinable", "User-definable domain"⟩,
  ⟨0x271, "userDefinable", "User-definable domain"⟩,
  ⟨0x272, "userDefinable", "User-definable domain"⟩,
  ⟨0x273, "userDefinable", "User-definable domain"⟩,
  ⟨0x274, "userDefinable", "User-definable domain"⟩,
  ⟨0x275, "userDefinable", "User-definable domain"⟩,
  ⟨0x276, "userDefinable", "User-definable domain"⟩,
  ⟨0x277, "userDefinable", "User-definable domain"⟩,
  ⟨0x278, "userDefinable", "User-definable domain"⟩,
  ⟨0x279, "userDefinable", "User-definable domain"⟩,
  ⟨0x27a, "userDefinable", "User-definable domain"⟩,
  ⟨0x27b, "userDefinable", "User-definable domain"⟩,
  ⟨0x27c, "userDefinable", "User-definable domain"⟩,
  ⟨0x27d, "userDefinable", "User-definable domain"⟩,
  ⟨0x27e, "userDefinable", "User-definable domain"⟩,
  ⟨0x27f, "userDefinable", "User-definable domain"⟩,
  ⟨0x280, "userDefinable", "User-definable domain"⟩,
  ⟨0x281, "userDefinable", "User-definable domain"⟩,
  ⟨0x282, "userDefinable", "User-definable domain"⟩,
  ⟨0x283, "userDefinable", "User-definable domain"⟩,
  ⟨0x284, "userDefinable", "User-definable domain"⟩,
  ⟨0x285, "userDefinable", "User-definable domain"⟩,
  ⟨0x286, "userDefinable", "User-definable domain"⟩,
  ⟨0x287, "userDefinable", "User-definable domain"⟩,
  ⟨0x288, "userDefinable", "User-definable domain"⟩,
  ⟨0x289, "userDefinable", "User-definable domain"⟩,
  ⟨0x28a, "userDefinable", "User-definable domain"⟩,
  ⟨0x28b, "userDefinable", "User-definable domain"⟩,
  ⟨0x28c, "userDefinable", "User-definable domain"⟩,
  ⟨0x28d, "userDefinable", "User-definable domain"⟩,
  ⟨0x28e, "userDefinable", "User-definable domain"⟩,
  ⟨0x28f, "userDefinable", "User-definable domain"⟩,
  ⟨0x290, "userDefinable", "User-definable domain"⟩,
  ⟨0x291, "userDefinable", "User-definable domain"⟩,
  ⟨0x292, "userDefinable", "User-definable domain"⟩,
  ⟨0x293, "userDefinable", "User-definable domain"⟩,
  ⟨0x294, "userDefinable", "User-definable domain"⟩,
  ⟨0x295, "userDefinable", "User-definable domain"⟩,
  ⟨0x296, "userDefinable", "User-definable domain"⟩,
  ⟨0x297, "userDefinable", "User-definable domain"⟩,
  ⟨0x298, "userDefinable", "User-definable domain"⟩,
  ⟨0x299, "userDefinable", "User-definable domain"⟩,
  ⟨0x29a, "userDefinable", "User-definable domain"⟩,
  ⟨0x29b, "userDefinable", "User-definable domain"⟩,
  ⟨0x29c, "userDefinable", "User-definable domain"⟩,
  ⟨0x29d, "userDefinable", "User-definable domain"⟩,
  ⟨0x29e, "userDefinable", "User-definable domain"⟩,
  ⟨0x29f, "userDefinable", "User-definable domain"⟩,
  ⟨0x2a0, "userDefinable", "User-definable domain"⟩,
  ⟨0x2a1, "userDefinable", "User-definable domain"⟩,
  ⟨0x2a2, "userDefinable", "User-definable domain"⟩,
  ⟨0x2a3, "userDefinable", "User-definable domain"⟩,
  ⟨0x2a4, "userDefinable", "User-definable domain"⟩,
  ⟨0x2a5, "userDefinable", "User-definable domain"⟩,
  ⟨0x2a6, "userDefinable", "User-definable domain"⟩,
  ⟨0x2a7, "userDefinable", "User-definable domain"⟩,
  ⟨0x2a8, "userDefinable", "User-definable domain"⟩,
  ⟨0x2a9, "userDefinable", "User-definable domain"⟩,
  ⟨0x2aa, "userDefinable", "User-definable domain"⟩,
  ⟨0x2ab, "userDefinable", "User-definable domain"⟩,
  ⟨0x2ac, "userDefinable", "User-definable domain"⟩,
  ⟨0x2ad, "userDefinable", "User-definable domain"⟩,
  ⟨0x2ae, "userDefinable", "User-definable domain"⟩,
  ⟨0x2af, "userDefinable", "User-definable domain"⟩,
  ⟨0x2b0, "userDefinable", "User-definable domain"⟩,
  ⟨0x2b1, "userDefinable", "User-definable domain"⟩,
  ⟨0x2b2, "userDefinable", "User-definable domain"⟩,
  ⟨0x2b3, "userDefinable", "User-definable domain"⟩,
  ⟨0x2b4, "userDefinable", "User-definable domain"⟩,
  ⟨0x2b5, "userDefinable", "User-definable domain"⟩,
  ⟨0x2b6, "userDefinable", "User-definable domain"⟩,
  ⟨0x2b7, "userDefinable", "User-definable domain"⟩,
  ⟨0x2b8, "userDefinable", "User-definable domain"⟩,
  ⟨0x2b9, "userDefinable", "User-definable domain"⟩,
  ⟨0x2ba, "userDefinable", "User-definable domain"⟩,
  ⟨0x2bb, "userDefinable", "User-definable domain"⟩,
  ⟨0x2bc, "userDefinable", "User-definable domain"⟩,
  ⟨0x2bd, "userDefinable", "User-definable domain"⟩,
  ⟨0x2be, "userDefinable", "User-definable domain"⟩,
  ⟨0x2bf, "userDefinable", "User-definable domain"⟩,
  ⟨0x2c0, "userDefinable", "User-definable domain"⟩,
  ⟨0x2c1, "userDefinable", "User-definable domain"⟩,
  ⟨0x2c2, "userDefinable", "User-definable domain"⟩,
  ⟨0x2c3, "userDefinable", "User-definable domain"⟩,
  ⟨0x2c4, "userDefinable", "User-definable domain"⟩,
  ⟨0x2c5, "userDefinable", "User-definable domain"⟩,
  ⟨0x2c6, "userDefinable", "User-definable domain"⟩,
  ⟨0x2c7, "userDefinable", "User-definable domain"⟩,
  ⟨0x2c8, "userDefinable", "User-definable domain"⟩,
  ⟨0x2c9, "userDefinable", "User-definable domain"⟩,
  ⟨0x2ca, "userDefinable", "User-definable domain"⟩,
  ⟨0x2cb, "userDefinable", "User-definable domain"⟩,
  ⟨0x2cc, "userDefinable", "User-definable domain"⟩,
  ⟨0x2cd, "userDefinable", "User-definable domain"⟩,
  ⟨0x2ce, "userDefinable", "User-definable domain"⟩,
  ⟨0x2cf, "userDefinable", "User-definable domain"⟩,
  ⟨0x2d0, "userDefinable", "User-definable domain"⟩,
  ⟨0x2d1, "userDefinable", "User-definable domain"⟩,
  ⟨0x2d2, "userDefinable", "User-definable domain"⟩,
  ⟨0x2d3, "userDefinable", "User-definable domain"⟩,
  ⟨0x2d4, "userDefinable", "User-definable domain"⟩,
  ⟨0x2d5, "userDefinable", "User-definable domain"⟩,
  ⟨0x2d6, "userDefinable", "User-definable domain"⟩,
  ⟨0x2d7, "userDefinable", "User-definable domain"⟩,
  ⟨0x2d8, "userDefinable", "User-definable domain"⟩,
  ⟨0x2d9, "userDefinable", "User-definable domain"⟩,
  ⟨0x2da, "userDefinable", "User-definable domain"⟩,
  ⟨0x2db, "userDefinable", "User-definable domain"⟩,
  ⟨0x2dc, "userDefinable", "User-definable domain"⟩,
  ⟨0x2dd, "userDefinable", "User-definable domain"⟩,
  ⟨0x2de, "userDefinable", "User-definable domain"⟩,
  ⟨0x2df, "userDefinable", "User-definable domain"⟩,
  ⟨0x2e0, "userDefinable", "User-definable domain"⟩,
  ⟨0x2e1, "userDefinable", "User-definable domain"⟩,
  ⟨0x2e2, "userDefinable", "User-definable domain"⟩,
  ⟨0x2e3, "userDefinable", "User-definable domain"⟩,
  ⟨0x2e4, "userDefinable", "User-definable domain"⟩,
  ⟨0x2e5, "userDefinable", "User-definable domain"⟩,
  ⟨0x2e6, "userDefinable", "User-definable domain"⟩,
  ⟨0x2e7, "userDefinable", "User-definable domain"⟩,
  ⟨0x2e8, "userDefinable", "User-definable domain"⟩,
  ⟨0x2e9, "userDefinable", "User-definable domain"⟩,
  ⟨0x2ea, "userDefinable", "User-definable domain"⟩,
  ⟨0x2eb, "userDefinable", "User-definable domain"⟩,
  ⟨0x2ec, "userDefinable", "User-definable domain"⟩,
  ⟨0x2ed, "userDefinable", "User-definable domain"⟩,
  ⟨0x2ee, "userDefinable", "User-definable domain"⟩,
  ⟨0x2ef, "userDefinable", "User-definable domain"⟩,
  ⟨0x2f0, "userDefinable", "User-definable domain"⟩,
  ⟨0x2f1, "userDefinable", "User-definable domain"⟩,
  ⟨0x2f2, "userDefinable", "User-definable domain"⟩,
  ⟨0x2f3, "userDefinable", "User-definable domain"⟩,
  ⟨0x2f4, "userDefinable", "User-definable domain"⟩,
  ⟨0x2f5, "userDefinable", "User-definable domain"⟩,
  ⟨0x2f6, "userDefinable", "User-definable domain"⟩,
  ⟨0x2f7, "userDefinable", "User-definable domain"⟩,
  ⟨0x2f8, "userDefinable", "User-definable domain"⟩,
  ⟨0x2f9, "userDefinable", "User-definable domain"⟩,
  ⟨0x2fa, "userDefinable", "User-definable domain"⟩,
  ⟨0x2fb, "userDefinable", "User-definable domain"⟩,
  ⟨0x2fc, "userDefinable", "User-definable domain"⟩,
  ⟨0x2fd, "userDefinable", "User-definable domain"⟩,
  ⟨0x2fe, "userDefinable", "User-definable domain"⟩,
  ⟨0x2ff, "userDefinable", "User-definable domain"⟩,
  ⟨0x300, "userDefinable", "User-definable domain"⟩,
  ⟨0x301, "userDefinable", "User-definable domain"⟩,
  ⟨0x302, "userDefinable", "User-definable domain"⟩,
  ⟨0x303, "userDefinable", "User-definable domain"⟩,
  ⟨0x304, "userDefinable", "User-definable domain"⟩,
  ⟨0x305, "userDefinable", "User-definable domain"⟩,
  ⟨0x306, "userDefinable", "User-definable domain"⟩,
  ⟨0x307, "userDefinable", "User-definable domain"⟩,
  ⟨0x308, "userDefinable", "User-definable domain"⟩,
  ⟨0x309, "userDefinable", "User-definable domain"⟩,
  ⟨0x30a, "userDefinable", "User-definable domain"⟩,
  ⟨0x30b, "userDefinable", "User-definable domain"⟩,
  ⟨0x30c, "userDefinable", "User-definable domain"⟩,
  ⟨0x30d, "userDefinable", "User-definable domain"⟩,
  ⟨0x30e, "userDefinable", "User-definable domain"⟩,
  ⟨0x30f, "userDefinable", "User-definable domain"⟩,
  ⟨0x310, "userDefinable", "User-definable domain"⟩,
  ⟨0x311, "userDefinable", "User-definable domain"⟩,
  ⟨0x312, "userDefinable", "User-definable domain"⟩,
  ⟨0x313, "userDefinable", "User-definable domain"⟩,
  ⟨0x314, "userDefinable", "User-definable domain"⟩,
  ⟨0x315, "userDefinable", "User-definable domain"⟩,
  ⟨0x316, "userDefinable", "User-definable domain"⟩,
  ⟨0x317, "userDefinable", "User-definable domain"⟩,
  ⟨0x318, "userDefinable", "User-definable domain"⟩,
  ⟨0x319, "userDefinable", "User-definable domain"⟩,
  ⟨0x31a, "userDefinable", "User-definable domain"⟩,
  ⟨0x31b, "userDefinable", "User-definable domain"⟩,
  ⟨0x31c, "userDefinable", "User-definable domain"⟩,
  ⟨0x31d, "userDefinable", "User-definable domain"⟩,
  ⟨0x31e, "userDefinable", "User-definable domain"⟩,
  ⟨0x31f, "userDefinable", "User-definable domain"⟩,
  ⟨0x320, "userDefinable", "User-definable domain"⟩,
  ⟨0x321, "userDefinable", "User-definable domain"⟩,
  ⟨0x322, "userDefinable", "User-definable domain"⟩,
  ⟨0x323, "userDefinable", "User-definable domain"⟩,
  ⟨0x324, "userDefinable", "User-definable domain"⟩,
  ⟨0x325, "userDefinable", "User-definable domain"⟩,
  ⟨0x326, "userDefinable", "User-definable domain"⟩,
  ⟨0x327, "userDefinable", "User-definable domain"⟩,
  ⟨0x328, "userDefinable", "User-definable domain"⟩,
  ⟨0x329, "userDefinable", "User-definable domain"⟩,
  ⟨0x32a, "userDefinable", "User-definable domain"⟩,
  ⟨0x32b, "userDefinable", "User-definable domain"⟩,
  ⟨0x32c, "userDefinable", "User-definable domain"⟩,
  ⟨0x32d, "userDefinable", "User-definable domain"⟩,
  ⟨0x32e, "userDefinable", "User-definable domain"⟩,
  ⟨0x32f, "userDefinable", "User-definable domain"⟩,
  ⟨0x330, "userDefinable", "User-definable domain"⟩,
  ⟨0x331, "userDefinable", "User-definable domain"⟩,
  ⟨0x332, "userDefinable", "User-definable domain"⟩,
  ⟨0x333, "userDefinable", "User-definable domain"⟩,
  ⟨0x334, "userDefinable", "User-definable domain"⟩,
  ⟨0x335, "userDefinable", "User-definable domain"⟩,
  ⟨0x336, "userDefinable", "User-definable domain"⟩,
  ⟨0x337, "userDefinable", "User-definable domain"⟩,
  ⟨0x338, "userDefinable", "User-definable domain"⟩,
  ⟨0x339, "userDefinable", "User-definable domain"⟩,
  ⟨0x33a, "userDefinable", "User-definable domain"⟩,
  ⟨0x33b, "userDefinable", "User-definable domain"⟩,
  ⟨0x33c, "userDefinable", "User-definable domain"⟩,
  ⟨0x33d, "userDefinable", "User-definable domain"⟩,
  ⟨0x33e, "userDefinable", "User-definable domain"⟩,
  ⟨0x33f, "userDefinable", "User-definable domain"⟩,
  ⟨0x340, "userDefinable", "User-definable domain"⟩,
  ⟨0x341, "userDefinable", "User-definable domain"⟩,
  ⟨0x342, "userDefinable", "User-definable domain"⟩,
  ⟨0x343, "userDefinable", "User-definable domain"⟩,
  ⟨0x344, "userDefinable", "User-definable domain"⟩,
  ⟨0x345, "userDefinable", "User-definable domain"⟩,
  ⟨0x346, "userDefinable", "User-definable domain"⟩,
  ⟨0x347, "userDefinable", "User-definable domain"⟩,
  ⟨0x348, "userDefinable", "User-definable domain"⟩,
  ⟨0x349, "userDefinable", "User-definable domain"⟩,
  ⟨0x34a, "userDefinable", "User-definable domain"⟩,
  ⟨0x34b, "userDefinable", "User-definable domain"⟩,
  ⟨0x34c, "userDefinable", "User-definable domain"⟩,
  ⟨0x34d, "userDefinable", "User-definable domain"⟩,
  ⟨0x34e, "userDefinable", "User-definable domain"⟩,
  ⟨0x34f, "userDefinable", "User-definable domain"⟩,
  ⟨0x350, "userDefinable", "User-definable domain"⟩,
  ⟨0x351, "userDefinable", "User-definable domain"⟩,
  ⟨0x352, "userDefinable", "User-definable domain"⟩,
  ⟨0x353, "userDefinable", "User-definable domain"⟩,
  ⟨0x354, "userDefinable", "User-definable domain"⟩,
  ⟨0x355, "userDefinable", "User-definable domain"⟩,
  ⟨0x356, "userDefinable", "User-definable domain"⟩,
  ⟨0x357, "userDefinable", "User-definable domain"⟩,
  ⟨0x358, "userDefinable", "User-definable domain"⟩,
  ⟨0x359, "userDefinable", "User-definable domain"⟩,
  ⟨0x35a, "userDefinable", "User-definable domain"⟩,
  ⟨0x35b, "userDefinable", "User-definable domain"⟩,
  ⟨0x35c, "userDefinable", "User-definable domain"⟩,
  ⟨0x35d, "userDefinable", "User-definable domain"⟩,
  ⟨0x35e, "userDefinable", "User-definable domain"⟩,
  ⟨0x35f, "userDefinable", "User-definable domain"⟩,
  ⟨0x360, "userDefinable", "User-definable domain"⟩,
  ⟨0x361, "userDefinable", "User-definable domain"⟩,
  ⟨0x362, "userDefinable", "User-definable domain"⟩,
  ⟨0x363, "userDefinable", "User-definable domain"⟩,
  ⟨0x364, "userDefinable", "User-definable domain"⟩,
  ⟨0x365, "userDefinable", "User-definable domain"⟩,
  ⟨0x366, "userDefinable", "User-definable domain"⟩,
  ⟨0x367, "userDefinable", "User-definable domain"⟩,
  ⟨0x368, "userDefinable", "User-definable domain"⟩,
  ⟨0x369, "userDefinable", "User-definable domain"⟩,
  ⟨0x36a, "userDefinable", "User-definable domain"⟩,
  ⟨0x36b, "userDefinable", "User-definable domain"⟩,
  ⟨0x36c, "userDefinable", "User-definable domain"⟩,
  ⟨0x36d, "userDefinable", "User-definable domain"⟩,
  ⟨0x36e, "userDefinable", "User-definable domain"⟩,
  ⟨0x36f, "userDefinable", "User-definable domain"⟩,
  ⟨0x370, "userDefinable", "User-definable domain"⟩,
  ⟨0x371, "userDefinable", "User-definable domain"⟩,
  ⟨0x372, "userDefinable", "User-definable domain"⟩,
  ⟨0x373, "userDefinable", "User-definable domain"⟩,
  ⟨0x374, "userDefinable", "User-definable domain"⟩,
  ⟨0x375, "userDefinable", "User-definable domain"⟩,
  ⟨0x376, "userDefinable", "User-definable domain"⟩,
  ⟨0x377, "userDefinable", "User-definable domain"⟩,
  ⟨0x378, "userDefinable", "User-definable domain"⟩,
  ⟨0x379, "userDefinable", "User-definable domain"⟩,
  ⟨0x37a, "userDefinable", "User-definable domain"⟩,
  ⟨0x37b, "userDefinable", "User-definable domain"⟩,
  ⟨0x37c, "userDefinable", "User-definable domain"⟩,
  ⟨0x37d, "userDefinable", "User-definable domain"⟩,
  ⟨0x37e, "userDefinable", "User-definable domain"⟩,
  ⟨0x37f, "userDefinable", "User-definable domain"⟩,
  ⟨0x380, "userDefinable", "User-definable domain"⟩,
  ⟨0x381, "userDefinable", "User-definable domain"⟩,
  ⟨0x382, "userDefinable", "User-definable domain"⟩,
  ⟨0x383, "userDefinable", "User-definable domain"⟩,
  ⟨0x384, "userDefinable", "User-definable domain"⟩,
  ⟨0x385, "userDefinable", "User-definable domain"⟩,
  ⟨0x386, "userDefinable", "User-definable domain"⟩,
  ⟨0x387, "userDefinable", "User-definable domain"⟩,
  ⟨0x388, "userDefinable", "User-definable domain"⟩,
  ⟨0x389, "userDefinable", "User-definable domain"⟩,
  ⟨0x38a, "userDefinable", "User-definable domain"⟩,
  ⟨0x38b, "userDefinable", "User-definable domain"⟩,
  ⟨0x38c, "userDefinable", "User-definable domain"⟩,
  ⟨0x38d, "userDefinable", "User-definable domain"⟩,
  ⟨0x38e, "userDefinable", "User-definable domain"⟩,
  ⟨0x38f, "userDefinable", "User-definable domain"⟩,
  ⟨0x390, "userDefinable", "User-definable domain"⟩,
  ⟨0x391, "userDefinable", "User-definable domain"⟩,
  ⟨0x392, "userDefinable", "User-definable domain"⟩,
  ⟨0x393, "userDefinable", "User-definable domain"⟩,
  ⟨0x394, "userDefinable", "User-definable domain"⟩,
  ⟨0x395, "userDefinable", "User-definable domain"⟩,
  ⟨0x396, "userDefinable", "User-definable domain"⟩,
  ⟨0x397, "userDefinable", "User-definable domain"⟩,
  ⟨0x398, "userDefinable", "User-definable domain"⟩,
  ⟨0x399, "userDefinable", "User-definable domain"⟩,
  ⟨0x39a, "userDefinable", "User-definable domain"⟩,
  ⟨0x39b, "userDefinable", "User-definable domain"⟩,
  ⟨0x39c, "userDefinable", "User-definable domain"⟩,
  ⟨0x39d, "userDefinable", "User-definable domain"⟩,
  ⟨0x39e, "userDefinable", "User-definable domain"⟩,
  ⟨0x39f, "userDefinable", "User-definable domain"⟩,
  ⟨0x3a0, "userDefinable", "User-definable domain"⟩,
  ⟨0x3a1, "userDefinable", "User-definable domain"⟩,
  ⟨0x3a2, "userDefinable", "User-definable domain"⟩,
  ⟨0x3a3, "userDefinable", "User-definable domain"⟩,
  ⟨0x3a4, "userDefinable", "User-definable domain"⟩,
  ⟨0x3a5, "userDefinable", "User-definable domain"⟩,
  ⟨0x3a6, "userDefinable", "User-definable domain"⟩,
  ⟨0x3a7, "userDefinable", "User-definable domain"⟩,
  ⟨0x3a8, "userDefinable", "User-definable domain"⟩,
  ⟨0x3a9, "userDefinable", "User-definable domain"⟩,
  ⟨0x3aa, "userDefinable", "User-definable domain"⟩,
  ⟨0x3ab, "userDefinable", "User-definable domain"⟩,
  ⟨0x3ac, "userDefinable", "User-definable domain"⟩,
  ⟨0x3ad, "userDefinable", "User-definable domain"⟩,
  ⟨0x3ae, "userDefinable", "User-definable domain"⟩,
  ⟨0x3af, "userDefinable", "User-definable domain"⟩,
  ⟨0x3b0, "userDefinable", "User-definable domain"⟩,
  ⟨0x3b1, "userDefinable", "User-definable domain"⟩,
  ⟨0x3b2, "userDefinable", "User-definable domain"⟩,
  ⟨0x3b3, "userDefinable", "User-definable domain"⟩,
  ⟨0x3b4, "userDefinable", "User-definable domain"⟩,
  ⟨0x3b5, "userDefinable", "User-definable domain"⟩,
  ⟨0x3b6, "userDefinable", "User-definable domain"⟩,
  ⟨0x3b7, "userDefinable", "User-definable domain"⟩,
  ⟨0x3b8, "userDefinable", "User-definable domain"⟩,
  ⟨0x3b9, "userDefinable", "User-definable domain"⟩,
  ⟨0x3ba, "userDefinable", "User-definable domain"⟩,
  ⟨0x3bb, "userDefinable", "User-definable domain"⟩,
  ⟨0x3bc, "userDefinable", "User-definable domain"⟩,
  ⟨0x3bd, "userDefinable", "User-definable domain"⟩,
  ⟨0x3be, "userDefinable", "User-definable domain"⟩,
  ⟨0x3bf, "userDefinable", "User-definable domain"⟩,
  ⟨0x3c0, "userDefinable", "User-definable domain"⟩,
  ⟨0x3c1, "userDefinable", "User-definable domain"⟩,
  ⟨0x3c2, "userDefinable", "User-definable domain"⟩,
  ⟨0x3c3, "userDefinable", "User-definable domain"⟩,
  ⟨0x3c4, "userDefinable", "User-definable domain"⟩,
  ⟨0x3c5, "userDefinable", "User-definable domain"⟩,
  ⟨0x3c6, "userDefinable", "User-definable domain"⟩,
  ⟨0x3c7, "userDefinable", "User-definable domain"⟩,
  ⟨0x3c8, "userDefinable", "User-definable domain"⟩,
  ⟨0x3c9, "userDefinable", "User-definable domain"⟩,
  ⟨0x3ca, "userDefinable", "User-definable domain"⟩,
  ⟨0x3cb, "userDefinable", "User-definable domain"⟩,
  ⟨0x3cc, "userDefinable", "User-definable domain"⟩,
  ⟨0x3cd, "userDefinable", "User-definable domain"⟩,
  ⟨0x3ce, "userDefinable", "User-definable domain"⟩,
  ⟨0x3cf, "userDefinable", "User-definable domain"⟩,
  ⟨0x3d0, "userDefinable", "User-definable domain"⟩,
  ⟨0x3d1, "userDefinable", "User-definable domain"⟩,
  ⟨0x3d2, "userDefinable", "User-definable domain"⟩,
  ⟨0x3d3, "userDefinable", "User-definable domain"⟩,
  ⟨0x3d4, "userDefinable", "User-definable domain"⟩,
  ⟨0x3d5, "userDefinable", "User-definable domain"⟩,
  ⟨0x3d6, "userDefinable", "User-definable domain"⟩,
  ⟨0x3d7, "userDefinable", "User-definable domain"⟩,
  ⟨0x3d8, "userDefinable", "User-definable domain"⟩,
  ⟨0x3d9, "userDefinable", "User-definable domain"⟩,
  ⟨0x3da, "userDefinable", "User-definable domain"⟩,
  ⟨0x3db, "userDefinable", "User-definable domain"⟩,
  ⟨0x3dc, "userDefinable", "User-definable domain"⟩,
  ⟨0x3dd, "userDefinable", "User-definable domain"⟩,
  ⟨0x3de, "userDefinable", "User-definable domain"⟩,
  ⟨0x3df, "userDefinable", "User-definable domain"⟩,
  ⟨0x3e0, "userDefinable", "User-definable domain"⟩,
  ⟨0x3e1, "userDefinable", "User-definable domain"⟩,
  ⟨0x3e2, "userDefinable", "User-definable domain"⟩,
  ⟨0x3e3, "userDefinable", "User-definable domain"⟩,
  ⟨0x3e4, "userDefinable", "User-definable domain"⟩,
  ⟨0x3e5, "userDefinable", "User-definable domain"⟩,
  ⟨0x3e6, "userDefinable", "User-definable domain"⟩,
  ⟨0x3e7, "userDefinable", "User-definable domain"⟩,
  ⟨0x3e8, "userDefinable", "User-definable domain"⟩,
  ⟨0x3e9, "repairLocationUnkown", "Repair location unknown"⟩,
  ⟨0x3ff, "fault", "Fault"⟩]

/-- Enumeration values of property 0xA2 of class 0279 (src/database_mra_objects.rs, pushes before line 27962). -/
def class_0279_enums_7 : List PropertyEnum := [
  ⟨0x41, "true", "Valid"⟩,
  ⟨0x42, "false", "Invalid"⟩]

/-- Enumeration values of property 0xB2 of class 0279 (src/database_mra_objects.rs, pushes before line 28002). -/
def class_0279_enums_10 : List PropertyEnum := [
  ⟨0x41, "true", "Valid"⟩,
  ⟨0x42, "false", "Invalid"⟩]

/-- Enumeration values of property 0xE2 of class 0279 (src/database_mra_objects.rs, pushes before line 28137). -/
def class_0279_enums_23 : List PropertyEnum := [
  ⟨0x0, "reset", "Reset"⟩]

/-- Enumeration values of property 0xE4 of class 0279 (src/database_mra_objects.rs, pushes before line 28162). -/
def class_0279_enums_25 : List PropertyEnum := [
  ⟨0x0, "reset", "Reset"⟩]

/-- Class Household solar power generation (src/database_mra_objects.rs:22867-28232). -/
def class_0279 : ClassDef := ⟨"Household solar power generation", 0x02, 0x79, [
  ⟨0x83, "Identification number", "raw", 0, .required, .notApplicable, .optional, []⟩,
  ⟨0x89, "Fault description", "state", 2, .required, .notApplicable, .optional, class_0279_enums_1⟩,
  ⟨0x8C, "Product code", "raw", 0, .required, .notApplicable, .optional, []⟩,
  ⟨0x97, "Current time setting", "time", 2, .required_c, .optional, .optional, []⟩,
  ⟨0x98, "Current date setting", "date", 0, .required_c, .optional, .optional, []⟩,
  ⟨0xA0, "Output power control setting 1", "number", 0, .required_c, .required_c, .optional, []⟩,
  ⟨0xA1, "Output power control setting 2", "number", 0, .required_c, .required_c, .optional, []⟩,
  ⟨0xA2, "Function to control purchase surplus electricity setting", "state", 1, .required_c, .optional, .optional, class_0279_enums_7⟩,
  ⟨0xB0, "Output power controlling schedule", "object", 0, .required_c, .notApplicable, .optional, []⟩,
  ⟨0xB1, "Next access date and time", "", 0, .required_c, .notApplicable, .required, []⟩,
  ⟨0xB2, "Function to control the type of surplus electricity purchase", "state", 1, .required_c, .notApplicable, .optional, class_0279_enums_10⟩,
  ⟨0xB3, "Output power change time setting value", "number", 0, .optional, .notApplicable, .optional, []⟩,
  ⟨0xB4, "Upper limit clip setting value", "", 0, .required_c, .notApplicable, .optional, []⟩,
  ⟨0xC0, "Operation power factor setting value", "number", 0, .optional, .notApplicable, .optional, []⟩,
  ⟨0xC1, "FIT contract type", "state", 1, .required, .required, .optional, []⟩,
  ⟨0xC2, "Self-consumption type", "state", 1, .required, .notApplicable, .optional, []⟩,
  ⟨0xC3, "Capacity approved by equipment", "", 0, .required_c, .notApplicable, .optional, []⟩,
  ⟨0xC4, "Conversion coefficient", "number", 0, .required_c, .notApplicable, .optional, []⟩,
  ⟨0xD0, "System-interconnected type", "state", 1, .optional, .notApplicable, .optional, []⟩,
  ⟨0xD0, "System-interconnected type", "state", 1, .required, .notApplicable, .optional, []⟩,
  ⟨0xD1, "Output power restraint status", "state", 1, .required, .notApplicable, .optional, []⟩,
  ⟨0xE0, "Measured instantaneous amount of electricity generated", "number", 0, .required, .notApplicable, .optional, []⟩,
  ⟨0xE1, "Measured cumulative amount of electric energy generated", "number", 0, .required, .notApplicable, .optional, []⟩,
  ⟨0xE2, "Resetting cumulative amount of electric energy generated", "state", 1, .notApplicable, .optional, .notApplicable, class_0279_enums_23⟩,
  ⟨0xE3, "Measured cumulative amount of electric energy sold", "number", 0, .optional, .notApplicable, .optional, []⟩,
  ⟨0xE4, "Resetting cumulative amount of electric energy sold", "state", 1, .notApplicable, .optional, .notApplicable, class_0279_enums_25⟩,
  ⟨0xE5, "Power generation output limit setting 1", "number", 0, .optional, .optional, .optional, []⟩,
  ⟨0xE6, "Power generation output limit setting 2", "number", 0, .optional, .optional, .optional, []⟩,
  ⟨0xE7, "Limit setting for the amount of electricity sold", "number", 0, .optional, .optional, .optional, []⟩,
  ⟨0xE8, "Rated power generation output (System-interconnected)", "number", 0, .optional, .optional, .optional, []⟩,
  ⟨0xE8, "Rated power generation output (System-interconnected)", "", 0, .required, .optional, .optional, []⟩,
  ⟨0xE9, "Rated power generation output (Independent)", "number", 0, .optional, .optional, .optional, []⟩]⟩

/-- Enumeration values of property 0x80 of class 027B (src/database_mra_objects.rs, pushes before line 28246). -/
def class_027B_enums_0 : List PropertyEnum := [
  ⟨0x30, "true", "On"⟩,
  ⟨0x31, "false", "Off"⟩]

/-- Enumeration values of property 0x90 of class 027B (src/database_mra_objects.rs, pushes before line 28266). -/
def class_027B_enums_1 : List PropertyEnum := [
  ⟨0x41, "on", "ON"⟩,
  ⟨0x42, "off", "OFF"⟩]

/-- Enumeration values of property 0x94 of class 027B (src/database_mra_objects.rs, pushes before line 28306). -/
def class_027B_enums_4 : List PropertyEnum := [
  ⟨0x41, "on", "ON"⟩,
  ⟨0x42, "off", "OFF"⟩]

/-- Class Floor heater (src/database_mra_objects.rs:28235-28466). -/
def class_027B : ClassDef := ⟨"Floor heater", 0x02, 0x7B, [
  ⟨0x80, "Operation status", "state", 1, .required, .required, .required, class_027B_enums_0⟩,
  ⟨0x90, "ON timer reservation setting", "state", 1, .optional, .optional, .optional, class_027B_enums_1⟩,
  ⟨0x91, "Time set by ON timer", "time", 2, .optional, .optional, .optional, []⟩,
  ⟨0x92, "Relative ON timer setting", "time", 2, .optional, .optional, .optional, []⟩,
  ⟨0x94, "OFF timer reservation setting", "state", 1, .optional, .optional, .optional, class_027B_enums_4⟩,
  ⟨0x95, "Time set by OFF timer", "time", 2, .optional, .optional, .optional, []⟩,
  ⟨0x96, "Relative OFF timer setting", "time", 2, .optional, .optional, .optional, []⟩,
  ⟨0xD1, "Maximum temperature level", "number", 0, .optional, .notApplicable, .required, []⟩,
  ⟨0xE0, "Set temperature value", "", 0, .required_c, .required_c, .optional, []⟩,
  ⟨0xE1, "Set temperature level by 15 steps", "", 0, .required_c, .required_c, .optional, []⟩,
  ⟨0xE2, "Measured room temperature", "", 0, .optional, .notApplicable, .optional, []⟩,
  ⟨0xE3, "Measured floor temperature", "", 0, .optional, .notApplicable, .optional, []⟩,
  ⟨0xE3, "Measured floor temperature", "", 0, .optional, .notApplicable, .optional, []⟩,
  ⟨0xE4, "Zone change setting", "bitmap", 1, .optional, .optional, .optional, []⟩,
  ⟨0xE5, "Special operation setting", "state", 1, .optional, .optional, .optional, []⟩,
  ⟨0xE6, "Daily timer setting", "state", 1, .optional, .optional, .optional, []⟩,
  ⟨0xE7, "Daily timer setting 1", "bitmap", 6, .optional, .optional, .optional, []⟩,
  ⟨0xE8, "Daily timer setting 2", "bitmap", 6, .optional, .optional, .optional, []⟩,
  ⟨0xE9, "Rated power consumption", "number", 0, .optional, .notApplicable, .optional, []⟩,
  ⟨0xEA, "Power consumption measurement method", "state", 1, .optional, .notApplicable, .optional, []⟩]⟩

end Uecho.Table
