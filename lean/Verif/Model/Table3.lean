import Verif.Model.Database
/-!
Generated by tools/gen_database.py from src/database_mra_objects.rs. Do not edit.
-/
namespace Uecho.Table
set_option maxRecDepth 10000

/-- Enumeration values of property 0x80 of class 0156 (src/database_mra_objects.rs, pushes before line 19384). -/
def class_0156_enums_0 : List PropertyEnum := [
  ⟨0x30, "true", "On"⟩,
  ⟨0x31, "false", "Off"⟩]

/-- Class Package-type commercial air conditioner (indoor unit) (except those for facilities) (src/database_mra_objects.rs:19368-19464). -/
def class_0156 : ClassDef := ⟨"Package-type commercial air conditioner (indoor unit) (except those for facilities)", 0x01, 0x56, [
  ⟨0x80, "Operation status", "state", 1, .required, .required, .required, class_0156_enums_0⟩,
  ⟨0xAC, "Thermostat state", "state", 1, .required, .notApplicable, .optional, []⟩,
  ⟨0xAE, "Current function (automatic operation mode)", "state", 1, .required, .notApplicable, .optional, []⟩,
  ⟨0xB0, "Operation mode setting", "state", 1, .required, .required, .required, []⟩,
  ⟨0xB3, "Temperature setting", "number", 0, .required, .required, .required, []⟩,
  ⟨0xBB, "Measured indoor unit temperature", "", 0, .optional, .notApplicable, .optional, []⟩,
  ⟨0xCA, "Group information", "", 0, .required, .notApplicable, .optional, []⟩,
  ⟨0xDB, "Power consumption range for indoor units", "state", 1, .optional, .notApplicable, .optional, []⟩]⟩

/-- Enumeration values of property 0x90 of class 03BB (src/database_mra_objects.rs, pushes before line 19478). -/
def class_03BB_enums_0 : List PropertyEnum := [
  ⟨0x41, "on", "Reservation on"⟩,
  ⟨0x42, "off", "Reservation off"⟩]

/-- Enumeration values of property 0xE5 of class 03BB (src/database_mra_objects.rs, pushes before line 19558). -/
def class_03BB_enums_7 : List PropertyEnum := [
  ⟨0x41, "true", "Removed"⟩,
  ⟨0x42, "false", "Not removed"⟩]

/-- Enumeration values of property 0xE6 of class 03BB (src/database_mra_objects.rs, pushes before line 19578). -/
def class_03BB_enums_8 : List PropertyEnum := [
  ⟨0x41, "true", "Removed"⟩,
  ⟨0x42, "false", "Not removed"⟩]

/-- Class Rice cooker (src/database_mra_objects.rs:19467-19588). -/
def class_03BB : ClassDef := ⟨"Rice cooker", 0x03, 0xBB, [
  ⟨0x90, "Rice cooking reservation setting", "state", 1, .optional, .optional, .optional, class_03BB_enums_0⟩,
  ⟨0x91, "Rice cooking reservation time setting", "time", 2, .optional, .optional, .optional, []⟩,
  ⟨0x92, "Rice cooking reservation relative time setting", "time", 2, .optional, .optional, .optional, []⟩,
  ⟨0xB0, "Cover closure status", "state", 1, .optional, .notApplicable, .optional, []⟩,
  ⟨0xB1, "Rice cooking status", "state", 1, .required, .notApplicable, .optional, []⟩,
  ⟨0xB2, "Rice cooking control setting", "state", 1, .required_o, .required_o, .optional, []⟩,
  ⟨0xE1, "Warmer setting", "state", 1, .optional, .optional, .optional, []⟩,
  ⟨0xE5, "Inner pot removal status", "state", 1, .optional, .notApplicable, .optional, class_03BB_enums_7⟩,
  ⟨0xE6, "Cover removal status", "state", 1, .optional, .notApplicable, .optional, class_03BB_enums_8⟩]⟩

/-- Class High-voltage smart electric energy meter (src/database_mra_objects.rs:19591-19754). -/
def class_028A : ClassDef := ⟨"High-voltage smart electric energy meter", 0x02, 0x8A, [
  ⟨0xC1, "Monthly maximum electric power demand", "", 0, .required, .notApplicable, .optional, []⟩,
  ⟨0xC2, "Cumulative maximum electric power demand", "number", 0, .optional, .notApplicable, .optional, []⟩,
  ⟨0xC3, "Electric power demand at fixed time (30-minute average electric power)", "object", 0, .required, .notApplicable, .optional, []⟩,
  ⟨0xC4, "Number of effective digits of electric power demand", "number", 0, .required, .notApplicable, .optional, []⟩,
  ⟨0xC5, "Unit of electric power demand", "numericValue", 1, .required, .notApplicable, .optional, []⟩,
  ⟨0xC6, "Historical data of measured electric power demand", "object", 0, .required, .notApplicable, .optional, []⟩,
  ⟨0xC7, "Unit of cumulative maximum electric power demand", "numericValue", 1, .optional, .notApplicable, .optional, []⟩,
  ⟨0xCA, "Measurement data of reactive electric power consumption (lag) for power factor measurement", "object", 0, .optional, .notApplicable, .optional, []⟩,
  ⟨0xCB, "Measurement data of cumulative amount of reactive electric power consumption (lag) at fixed time for power factor measurement", "object", 0, .optional, .notApplicable, .optional, []⟩,
  ⟨0xCC, "Number of effective digits for measurement data of cumulative amount of reactive electric power consumption (lag) for power factor measurement", "number", 0, .optional, .notApplicable, .optional, []⟩,
  ⟨0xCD, "Unit of measurement data of cumulative amount of reactive electric power consumption (lag)", "numericValue", 1, .optional, .notApplicable, .optional, []⟩,
  ⟨0xCE, "Historical data of measurement data of cumulative amount of reactive electric power consumption (lag) for power factor measurement", "object", 0, .optional, .notApplicable, .optional, []⟩,
  ⟨0xD3, "Coefficient", "number", 0, .required, .notApplicable, .optional, []⟩,
  ⟨0xD4, "Multiplying factor for coefficient", "numericValue", 1, .required, .notApplicable, .optional, []⟩,
  ⟨0xE0, "Fixed date", "number", 0, .required, .notApplicable, .optional, []⟩,
  ⟨0xE1, "Day for which the historical data of measured cumulative amounts of electric energy is to be retrieved", "", 0, .required, .required, .optional, []⟩,
  ⟨0xE2, "Measured cumulative amounts of active electric energy", "object", 0, .required, .notApplicable, .optional, []⟩,
  ⟨0xE3, "Cumulative amounts of active electric energy at fixed time", "object", 0, .required, .notApplicable, .optional, []⟩,
  ⟨0xE4, "Measurement data of cumulative amounts of active electric energy for power factor measurement", "object", 0, .optional, .notApplicable, .optional, []⟩,
  ⟨0xE5, "Number of effective digits for cumulative amount of active electric energy", "number", 0, .required, .notApplicable, .optional, []⟩,
  ⟨0xE6, "Unit of cumulative amounts of effective electric energy", "numericValue", 1, .required, .notApplicable, .optional, []⟩,
  ⟨0xE7, "Historical data of measured cumulative amount of active electric energy", "object", 0, .required, .notApplicable, .optional, []⟩]⟩

/-- Class Cooking heater (src/database_mra_objects.rs:19757-19848). -/
def class_03B9 : ClassDef := ⟨"Cooking heater", 0x03, 0xB9, [
  ⟨0x96, "Relative time settings of off timers", "object", 0, .optional, .optional, .optional, []⟩,
  ⟨0xA1, "Child lock setting", "state", 1, .optional, .optional, .optional, []⟩,
  ⟨0xA2, "Radiant heater lock setting", "state", 1, .optional, .optional, .optional, []⟩,
  ⟨0xB1, "Heating status", "object", 0, .required, .notApplicable, .optional, []⟩,
  ⟨0xB2, "Heating setting", "object", 0, .optional, .optional, .optional, []⟩,
  ⟨0xB3, "All stop setting", "state", 1, .notApplicable, .required_o, .optional, []⟩,
  ⟨0xE0, "Heating modes of stoves", "object", 0, .optional, .optional, .optional, []⟩,
  ⟨0xE3, "Heating temperature setting", "object", 0, .optional, .optional, .optional, []⟩,
  ⟨0xE7, "Heating power setting", "object", 0, .optional, .optional, .optional, []⟩]⟩

/-- Enumeration values of property 0xB1 of class 001D (src/database_mra_objects.rs, pushes before line 19872). -/
def class_001D_enums_1 : List PropertyEnum := [
  ⟨0x41, "true", "Detected"⟩,
  ⟨0x42, "false", "Not detected"⟩]

/-- Class VOC sensor (src/database_mra_objects.rs:19851-19892). -/
def class_001D : ClassDef := ⟨"VOC sensor", 0x00, 0x1D, [
  ⟨0xB0, "Detection threshold level", "level", 0, .optional, .optional, .optional, []⟩,
  ⟨0xB1, "VOC detection status", "state", 1, .optional, .notApplicable, .required, class_001D_enums_1⟩,
  ⟨0xE0, "Measured value of VOC concentration", "number", 0, .required, .notApplicable, .optional, []⟩]⟩

/-- Enumeration values of property 0x90 of class 0273 (src/database_mra_objects.rs, pushes before line 19906). -/
def class_0273_enums_0 : List PropertyEnum := [
  ⟨0x41, "true", "Reservation on"⟩,
  ⟨0x42, "false", "Reservation off"⟩]

/-- Enumeration values of property 0x94 of class 0273 (src/database_mra_objects.rs, pushes before line 19946). -/
def class_0273_enums_3 : List PropertyEnum := [
  ⟨0x41, "true", "Reservation on"⟩,
  ⟨0x42, "false", "Reservation off"⟩]

/-- Class Bathroom heater dryer (src/database_mra_objects.rs:19895-20146). -/
def class_0273 : ClassDef := ⟨"Bathroom heater dryer", 0x02, 0x73, [
  ⟨0x90, "On timer reservation setting 1", "state", 1, .optional, .optional, .optional, class_0273_enums_0⟩,
  ⟨0x91, "On timer setting value", "time", 2, .optional, .optional, .optional, []⟩,
  ⟨0x92, "On relative timer setting value", "time", 2, .optional, .optional, .optional, []⟩,
  ⟨0x94, "Off timer reservation setting", "state", 1, .optional, .optional, .optional, class_0273_enums_3⟩,
  ⟨0x95, "OFF timer setting value", "time", 2, .optional, .optional, .optional, []⟩,
  ⟨0x96, "Off relative timer setting value", "time", 2, .optional, .optional, .optional, []⟩,
  ⟨0xB0, "Operation setting", "state", 1, .required, .required, .optional, []⟩,
  ⟨0xB0, "Operation setting", "state", 1, .required, .required, .optional, []⟩,
  ⟨0xB1, "Ventilation operation setting", "", 0, .optional, .optional, .optional, []⟩,
  ⟨0xB2, "Bathroom prewarming operation setting", "", 0, .required, .required, .optional, []⟩,
  ⟨0xB2, "Bathroom prewarming operation setting", "", 0, .optional, .optional, .optional, []⟩,
  ⟨0xB3, "Bathroom heating operation setting", "", 0, .optional, .optional, .optional, []⟩,
  ⟨0xB4, "Bathroom drying operation setting", "", 0, .required, .required, .optional, []⟩,
  ⟨0xB5, "Cool air circulation operation setting", "", 0, .optional, .optional, .optional, []⟩,
  ⟨0xB6, "Mist sauna operation setting", "", 0, .optional, .optional, .optional, []⟩,
  ⟨0xB7, "Water mist operation setting", "", 0, .optional, .optional, .optional, []⟩,
  ⟨0xBA, "Measured value of bathroom relative humidity", "number", 0, .optional, .notApplicable, .optional, []⟩,
  ⟨0xBB, "Measured value of bathroom temperature", "number", 0, .optional, .notApplicable, .optional, []⟩,
  ⟨0xC2, "Ventilation air flow rate setting", "", 0, .optional, .optional, .optional, []⟩,
  ⟨0xCF, "Filter cleaning reminder sign setting", "state", 1, .optional, .optional, .optional, []⟩,
  ⟨0xE0, "Human body detection status", "state", 1, .optional, .notApplicable, .optional, []⟩,
  ⟨0xE1, "On timer reservation setting 2", "state", 1, .optional, .optional, .optional, []⟩,
  ⟨0xE1, "On timer reservation setting 2", "state", 1, .optional, .optional, .optional, []⟩]⟩

/-- Enumeration values of property 0xE2 of class 03D4 (src/database_mra_objects.rs, pushes before line 20224). -/
def class_03D4_enums_6 : List PropertyEnum := [
  ⟨0x30, "true", "ON"⟩,
  ⟨0x31, "false", "OFF"⟩]

/-- Class Commercial show case outdoor unit (src/database_mra_objects.rs:20149-20234). -/
def class_03D4 : ClassDef := ⟨"Commercial show case outdoor unit", 0x03, 0xD4, [
  ⟨0xAA, "Indicates that the showcase freezer is in an exceptional status.", "state", 1, .optional, .notApplicable, .optional, []⟩,
  ⟨0xB0, "Operation mode setting", "state", 1, .required, .required, .required, []⟩,
  ⟨0xB0, "Operation mode setting", "state", 1, .required, .required, .required, []⟩,
  ⟨0xBE, "Used to acquire measurements of outdoor air temperature.", "number", 0, .optional, .notApplicable, .optional, []⟩,
  ⟨0xCA, "Group information", "raw", 0, .optional, .optional, .optional, []⟩,
  ⟨0xCA, "Group information", "", 0, .required, .optional, .optional, []⟩,
  ⟨0xE2, "Indicates compressor ON/OFF status.", "state", 1, .optional, .optional, .optional, class_03D4_enums_6⟩]⟩

/-- Class Frequency regulation (src/database_mra_objects.rs:20237-20578). -/
def class_02A7 : ClassDef := ⟨"Frequency regulation", 0x02, 0xA7, [
  ⟨0x8C, "Product code", "raw", 0, .required, .notApplicable, .optional, []⟩,
  ⟨0x8D, "Production number", "raw", 0, .required, .notApplicable, .optional, []⟩,
  ⟨0xC0, "Control point", "state", 1, .required, .optional, .optional, []⟩,
  ⟨0xC1, "Frequency regulation parameter setting", "object", 0, .required, .required, .optional, []⟩,
  ⟨0xC2, "EM target power value", "number", 0, .required, .required, .optional, []⟩,
  ⟨0xC3, "Command control parameter setting", "object", 0, .required_c, .required_c, .optional, []⟩,
  ⟨0xC4, "Autonomous control parameter setting 1", "object", 0, .required_c, .required_c, .optional, []⟩,
  ⟨0xC5, "Autonomous control parameter setting 2", "object", 0, .optional, .optional, .optional, []⟩,
  ⟨0xC6, "Autonomous control parameter setting 3", "array", 0, .optional, .optional, .optional, []⟩,
  ⟨0xC7, "Correction value for reference frequency", "number", 0, .optional, .optional, .optional, []⟩,
  ⟨0xD0, "Transmittable/receivable cycle", "number", 0, .required, .notApplicable, .optional, []⟩,
  ⟨0xD1, "Device type", "raw", 0, .required, .notApplicable, .optional, []⟩,
  ⟨0xD2, "Values of AC max power", "object", 0, .required, .notApplicable, .optional, []⟩,
  ⟨0xD3, "Value of contract power", "number", 0, .optional, .notApplicable, .optional, []⟩,
  ⟨0xD4, "Device control performance", "object", 0, .required_c, .notApplicable, .optional, []⟩,
  ⟨0xD5, "Information of frequency regulation", "object", 0, .required, .notApplicable, .required, []⟩,
  ⟨0xD6, "Detailed information of whether the device can continue to control", "raw", 0, .required, .notApplicable, .optional, []⟩,
  ⟨0xD7, "Information of EM", "object", 0, .required, .notApplicable, .optional, []⟩,
  ⟨0xD8, "Measured instantaneous values of PCS", "object", 0, .required, .notApplicable, .optional, []⟩,
  ⟨0xD9, "Response information", "object", 0, .required, .notApplicable, .optional, []⟩,
  ⟨0xDA, "Instantaneous input and output power capability value", "object", 0, .required, .notApplicable, .optional, []⟩,
  ⟨0xDB, "Instantaneous chargeable and dischargeable power values", "object", 0, .optional, .notApplicable, .optional, []⟩,
  ⟨0xDC, "Battery status", "object", 0, .required, .notApplicable, .optional, []⟩,
  ⟨0xDE, "Cumulative electric energy measurement values", "object", 0, .required, .notApplicable, .optional, []⟩,
  ⟨0xDF, "Cumulative electric energy measurement by frequency regulation", "object", 0, .optional, .notApplicable, .optional, []⟩,
  ⟨0xE0, "EM planned information", "object", 0, .optional, .notApplicable, .optional, []⟩,
  ⟨0xE1, "EM planned value 1", "array", 0, .optional, .notApplicable, .optional, []⟩,
  ⟨0xE2, "EM planned value 2", "array", 0, .optional, .notApplicable, .optional, []⟩,
  ⟨0xE3, "Information of supply plan for regulation up", "object", 0, .optional, .notApplicable, .optional, []⟩,
  ⟨0xE4, "Supply plan-1 for regulation up", "array", 0, .optional, .notApplicable, .optional, []⟩,
  ⟨0xE5, "Supply plan-2 for regulation up", "array", 0, .optional, .notApplicable, .optional, []⟩,
  ⟨0xE6, "Information of supply plan for regulation down", "object", 0, .optional, .notApplicable, .optional, []⟩,
  ⟨0xE7, "Supply plan-1 for regulation down", "array", 0, .optional, .notApplicable, .optional, []⟩,
  ⟨0xE8, "Supply plan-2 for regulation down", "array", 0, .optional, .notApplicable, .optional, []⟩]⟩

/-- Enumeration values of property 0xC6 of class 027C (src/database_mra_objects.rs, pushes before line 20647). -/
def class_027C_enums_6 : List PropertyEnum := [
  ⟨0x0, "reset", "Reset"⟩]

/-- Enumeration values of property 0xC6 of class 027C (src/database_mra_objects.rs, pushes before line 20662). -/
def class_027C_enums_7 : List PropertyEnum := [
  ⟨0x0, "reset", "Reset"⟩]

/-- Enumeration values of property 0xC9 of class 027C (src/database_mra_objects.rs, pushes before line 20697). -/
def class_027C_enums_10 : List PropertyEnum := [
  ⟨0x0, "reset", "Reset"⟩]

/-- Enumeration values of property 0xCE of class 027C (src/database_mra_objects.rs, pushes before line 20782). -/
def class_027C_enums_18 : List PropertyEnum := [
  ⟨0x0, "reset", "Reset"⟩]

/-- Enumeration values of property 0xCE of class 027C (src/database_mra_objects.rs, pushes before line 20797). -/
def class_027C_enums_19 : List PropertyEnum := [
  ⟨0x0, "reset", "Reset"⟩]

/-- Class Fuel cell (src/database_mra_objects.rs:20581-20867). -/
def class_027C : ClassDef := ⟨"Fuel cell", 0x02, 0x7C, [
  ⟨0xC1, "Measured temperature of water in water heater", "number", 0, .optional, .notApplicable, .optional, []⟩,
  ⟨0xC2, "Rated power generation output", "number", 0, .optional, .notApplicable, .optional, []⟩,
  ⟨0xC2, "Rated power generation output", "number", 0, .required, .notApplicable, .optional, []⟩,
  ⟨0xC3, "Heating value of hot water storage tank", "number", 0, .optional, .notApplicable, .optional, []⟩,
  ⟨0xC4, "Measured instantaneous power generation output", "number", 0, .required, .notApplicable, .optional, []⟩,
  ⟨0xC5, "Measured cumulative power generation output", "number", 0, .required, .notApplicable, .optional, []⟩,
  ⟨0xC6, "Cumulative power generation output reset setting", "state", 1, .notApplicable, .optional, .notApplicable, class_027C_enums_6⟩,
  ⟨0xC6, "Cumulative energy generation output reset setting", "state", 1, .notApplicable, .optional, .notApplicable, class_027C_enums_7⟩,
  ⟨0xC7, "Measured instantaneous gas consumption", "number", 0, .optional, .notApplicable, .optional, []⟩,
  ⟨0xC8, "Measured cumulative gas consumption", "number", 0, .optional, .notApplicable, .optional, []⟩,
  ⟨0xC9, "Cumulative gas consumption reset setting", "state", 1, .notApplicable, .optional, .notApplicable, class_027C_enums_10⟩,
  ⟨0xCA, "Power generation setting", "state", 1, .notApplicable, .optional, .optional, []⟩,
  ⟨0xCA, "Power generation setting", "state", 1, .optional, .optional, .optional, []⟩,
  ⟨0xCB, "Power generation status", "state", 1, .optional, .notApplicable, .optional, []⟩,
  ⟨0xCB, "Power generation status", "state", 1, .required, .notApplicable, .required, []⟩,
  ⟨0xCC, "Measured in-house instantaneous power consumption", "number", 0, .optional, .notApplicable, .optional, []⟩,
  ⟨0xCD, "Measured in-house cumulative power consumption", "number", 0, .optional, .notApplicable, .optional, []⟩,
  ⟨0xCD, "Measured in-house cumulative energy consumption", "number", 0, .optional, .notApplicable, .optional, []⟩,
  ⟨0xCE, "In-house cumulative power consumption reset", "state", 1, .notApplicable, .optional, .notApplicable, class_027C_enums_18⟩,
  ⟨0xCE, "In-house cumulative energy consumption reset", "state", 1, .notApplicable, .optional, .notApplicable, class_027C_enums_19⟩,
  ⟨0xD0, "System interconnected type", "state", 1, .optional, .notApplicable, .optional, []⟩,
  ⟨0xD0, "System interconnected type", "state", 1, .required, .notApplicable, .optional, []⟩,
  ⟨0xD1, "Power generation request time setting", "", 0, .required, .required, .optional, []⟩,
  ⟨0xD2, "Designated power generation status", "state", 1, .required, .required, .optional, []⟩,
  ⟨0xE1, "Measured remaining hot water amount", "number", 0, .optional, .notApplicable, .optional, []⟩,
  ⟨0xE2, "Tank capacity", "number", 0, .optional, .notApplicable, .optional, []⟩]⟩

/-- Enumeration values of property 0xB1 of class 0002 (src/database_mra_objects.rs, pushes before line 20892). -/
def class_0002_enums_1 : List PropertyEnum := [
  ⟨0x41, "true", "Detected"⟩,
  ⟨0x42, "false", "Not detected"⟩]

/-- Enumeration values of property 0xBF of class 0002 (src/database_mra_objects.rs, pushes before line 20907). -/
def class_0002_enums_2 : List PropertyEnum := [
  ⟨0x0, "reset", "Reset"⟩]

/-- Class Crime prevention sensor (src/database_mra_objects.rs:20870-20917). -/
def class_0002 : ClassDef := ⟨"Crime prevention sensor", 0x00, 0x02, [
  ⟨0xB0, "Detection threshold level", "level", 0, .optional, .optional, .optional, []⟩,
  ⟨0xB1, "Invasion occurrence status", "state", 1, .required, .notApplicable, .required, class_0002_enums_1⟩,
  ⟨0xBF, "Invasion occurrence status resetting", "state", 1, .notApplicable, .optional, .notApplicable, class_0002_enums_2⟩]⟩

/-- Enumeration values of property 0xE3 of class 0281 (src/database_mra_objects.rs, pushes before line 20981). -/
def class_0281_enums_5 : List PropertyEnum := [
  ⟨0x41, "true", "Detected"⟩,
  ⟨0x42, "false", "Not detected"⟩]

/-- Class Water flowmeter (src/database_mra_objects.rs:20920-21031). -/
def class_0281 : ClassDef := ⟨"Water flowmeter", 0x02, 0x81, [
  ⟨0xD0, "Water flowmeter classification", "state", 1, .optional, .optional, .optional, []⟩,
  ⟨0xD1, "Owner classification", "state", 1, .optional, .optional, .optional, []⟩,
  ⟨0xE0, "Measured cumulative amount of flowing water", "number", 0, .required, .notApplicable, .optional, []⟩,
  ⟨0xE1, "Unit for measured Cumulative amounts of flowing water", "numericValue", 1, .required, .notApplicable, .optional, []⟩,
  ⟨0xE2, "Historical data of measured cumulative amount of flowing water", "array", 0, .optional, .notApplicable, .optional, []⟩,
  ⟨0xE3, "Detection of abnormal value in metering data", "state", 1, .optional, .notApplicable, .required, class_0281_enums_5⟩,
  ⟨0xE4, "Security data information", "number", 0, .optional, .notApplicable, .optional, []⟩,
  ⟨0xE5, "ID number setting", "raw", 0, .optional, .optional, .optional, []⟩,
  ⟨0xE6, "Verification expiration information", "raw", 0, .optional, .optional, .optional, []⟩,
  ⟨0xE7, "Historical data 2 of measured cumulative amount of flowing water", "array", 0, .optional, .notApplicable, .optional, []⟩]⟩

/-- Enumeration values of property 0x80 of class 0130 (src/database_mra_objects.rs, pushes before line 21045). -/
def class_0130_enums_0 : List PropertyEnum := [
  ⟨0x30, "true", "On"⟩,
  ⟨0x31, "false", "Off"⟩]

/-- Class Home air conditioner (src/database_mra_objects.rs:21034-21535). -/
def class_0130 : ClassDef := ⟨"Home air conditioner", 0x01, 0x30, [
  ⟨0x80, "Operation status", "state", 1, .required, .required, .required, class_0130_enums_0⟩,
  ⟨0x8F, "Power-saving operation setting", "state", 1, .required, .required, .required, []⟩,
  ⟨0x90, "ON timer-based reservation setting", "state", 1, .optional, .optional, .optional, []⟩,
  ⟨0x91, "ON timer setting (time)", "time", 2, .optional, .optional, .optional, []⟩,
  ⟨0x92, "ON timer setting (relative time)", "time", 2, .optional, .optional, .optional, []⟩,
  ⟨0x94, "OFF timer-based reservation setting", "state", 1, .optional, .optional, .optional, []⟩,
  ⟨0x95, "OFF timer setting (time)", "time", 2, .optional, .optional, .optional, []⟩,
  ⟨0x96, "OFF timer setting (relative time)", "time", 2, .optional, .optional, .optional, []⟩,
  ⟨0xA0, "Air flow rate setting", "", 0, .optional, .optional, .optional, []⟩,
  ⟨0xA0, "Air flow rate setting", "", 0, .required, .required, .required, []⟩,
  ⟨0xA1, "Automatic control of air flow direction setting", "state", 1, .optional, .optional, .optional, []⟩,
  ⟨0xA3, "Automatic swing of air flow setting", "state", 1, .optional, .optional, .optional, []⟩,
  ⟨0xA4, "Air flow direction (vertical) setting", "state", 1, .optional, .optional, .optional, []⟩,
  ⟨0xA5, "Air flow direction (horizontal) setting", "state", 1, .optional, .optional, .optional, []⟩,
  ⟨0xAA, "Special state", "state", 1, .optional, .notApplicable, .optional, []⟩,
  ⟨0xAB, "Non-priority state", "state", 1, .optional, .notApplicable, .optional, []⟩,
  ⟨0xB0, "Operation mode setting", "state", 1, .required, .required, .required, []⟩,
  ⟨0xB1, "Automatic temperature control setting", "state", 1, .optional, .optional, .optional, []⟩,
  ⟨0xB2, "Normal/highspeed/silent operation setting", "state", 1, .optional, .optional, .optional, []⟩,
  ⟨0xB3, "Set temperature value", "", 0, .required, .required, .optional, []⟩,
  ⟨0xB4, "Set value of relative humidity in dehumidifying mode", "number", 0, .optional, .optional, .optional, []⟩,
  ⟨0xB5, "Set temperature value in cooling mode", "", 0, .optional, .optional, .optional, []⟩,
  ⟨0xB6, "Set temperature value in heating mode", "", 0, .optional, .optional, .optional, []⟩,
  ⟨0xB7, "Set temperature value in dehumidifying mode", "", 0, .optional, .optional, .optional, []⟩,
  ⟨0xB8, "Rated power consumption", "object", 0, .optional, .notApplicable, .optional, []⟩,
  ⟨0xB9, "Measured value of current consumption", "number", 0, .optional, .notApplicable, .optional, []⟩,
  ⟨0xBA, "Measured value of room relative humidity", "", 0, .optional, .notApplicable, .optional, []⟩,
  ⟨0xBB, "Measured value of room temperature", "", 0, .optional, .notApplicable, .optional, []⟩,
  ⟨0xBB, "Measured value of room temperature", "", 0, .required, .notApplicable, .optional, []⟩,
  ⟨0xBC, "Set temperature value of user remote control", "number", 0, .optional, .notApplicable, .optional, []⟩,
  ⟨0xBD, "Measured cooled air temperature", "", 0, .optional, .notApplicable, .optional, []⟩,
  ⟨0xBE, "Measured outdoor air temperature", "", 0, .optional, .notApplicable, .optional, []⟩,
  ⟨0xBF, "Relative temperature setting", "", 0, .optional, .optional, .optional, []⟩,
  ⟨0xC0, "Ventilation function setting", "state", 1, .optional, .optional, .optional, []⟩,
  ⟨0xC1, "Humidifier function setting", "state", 1, .optional, .optional, .optional, []⟩,
  ⟨0xC2, "Ventilation air flow rate setting", "", 0, .optional, .optional, .optional, []⟩,
  ⟨0xC4, "Degree of humidification setting", "", 0, .optional, .optional, .optional, []⟩,
  ⟨0xC6, "Mounted air cleaning method", "bitmap", 1, .optional, .notApplicable, .optional, []⟩,
  ⟨0xC7, "Air purifier function setting", "bitmap", 8, .optional, .optional, .optional, []⟩,
  ⟨0xC8, "Mounted air refresh method", "bitmap", 1, .optional, .notApplicable, .optional, []⟩,
  ⟨0xC9, "Air refresher function setting", "bitmap", 8, .optional, .optional, .optional, []⟩,
  ⟨0xCA, "Mounted self-cleaning method", "bitmap", 1, .optional, .notApplicable, .optional, []⟩,
  ⟨0xCB, "Self-cleaning function setting", "bitmap", 8, .optional, .optional, .optional, []⟩,
  ⟨0xCC, "Special function setting", "state", 1, .optional, .optional, .optional, []⟩,
  ⟨0xCD, "Operation status of components", "bitmap", 1, .optional, .notApplicable, .optional, []⟩,
  ⟨0xCE, "Thermostat setting override function", "state", 1, .notApplicable, .optional, .notApplicable, []⟩,
  ⟨0xCE, "Thermostat setting override function", "state", 1, .optional, .optional, .optional, []⟩,
  ⟨0xCF, "Air purification mode setting", "state", 1, .optional, .optional, .optional, []⟩,
  ⟨0xD0, "Buzzer", "state", 1, .notApplicable, .optional, .notApplicable, []⟩]⟩

end Uecho.Table
