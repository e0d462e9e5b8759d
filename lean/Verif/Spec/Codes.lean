import Verif.Model.ParamNames
import Verif.Model.Frames
/-!
The numbers that stand on the wire for the members of the enumerations, as the device manual lists them.
-/
namespace Spec
open Elgas

/-- Service numbers of requests and responses. -/
def serviceCodes : List (Nat × ServiceNumber) :=
  [(0x64, .readValues), (0x65, .writeValues), (0x67, .searchArchivePointersOld),
   (0x68, .readArchivesOld), (0x6c, .readDeviceTime), (0x70, .readScadaParameters),
   (0x71, .writeDeviceTime), (0x77, .groupWriteValues), (0x79, .groupReadValues),
   (0x7b, .searchArchivePointers), (0x7c, .readArchives), (0x7d, .readArchivesByDate),
   (0x87, .call), (0x91, .readArchivesByDateOld)]

/-- Archives. -/
def archiveCodes : List (Nat × Archive) :=
  [(0, .extreme), (1, .data), (2, .binary),
   (3, .daily), (4, .monthly), (5, .setting),
   (6, .fast1), (7, .fast2), (8, .status),
   (9, .billing), (10, .gasComposition)]

/-- Protocols of a calling modem. -/
def protocolCodes : List (Nat × Protocol) :=
  [(0, .elgas2), (1, .qmd), (2, .rds),
   (3, .modbus)]

/-- Types of parameter objects. -/
def objectCodes : List (Nat × ObjType) :=
  [(0, .SYSTEM_PARAMETER), (30, .ANALOG_MEASURAND), (31, .BINARY),
   (32, .COUNTER), (33, .STANDARD_COUNTER), (34, .FLOW_RATE),
   (35, .STANDARD_FLOW_RATE), (36, .CONVERSION_COEFFICIENT), (45, .ERROR_COUNTER),
   (46, .ERROR_STANDARD_COUNTER), (47, .COMPRESSIBILITY), (48, .TIME_WINDOW),
   (49, .CORRECTION_COUNTER), (53, .DOUBLE_COUNTER), (54, .DOUBLE_ERROR_COUNTER),
   (59, .DIAGNOSTICS), (61, .DEVICE_ERROR), (62, .SUM_OF_ALARMS),
   (65, .TIMER), (68, .TARIFF_COUNTER), (69, .BASE_TARIFF_COUNTER),
   (70, .SET_POINT), (72, .DIFFERENCE_COUNTER), (73, .DIFFERENCE_BASE_COUNTER),
   (74, .COMPRESSIBILITY_Z), (75, .COMPRESSIBILITY_Z_BASE), (77, .ENERGY),
   (78, .ERROR_ENERGY), (79, .DOUBLE_TARIFF_COUNTER), (80, .ANALOG_STATISTICS),
   (81, .COUNTER_STATISTICS), (82, .STANDARD_COUNTER_STATISTICS), (83, .STATISTICS),
   (84, .ANALOG_TIME_STATISTICS), (85, .TIME_STATISTICS), (141, .MODEM)]

end Spec
