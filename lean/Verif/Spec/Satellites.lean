/-
Reference data on satellites and channels, independent of the model.
-/
namespace Msat.SatSpec

/-- Satellites by name, with their code in WMO common code table C-5 and, where there is one, their
code in HRIT files (MSG/SPE/057 and EUMETSAT's Global Spacecraft ID list). -/
def satellites : List (String × Int × Option Int) :=
  [("METOP1", 3, some 11), ("METOP2", 4, some 12), ("METOP3", 5, some 13),
   ("METEOSAT3", 50, some 16), ("METEOSAT4", 51, some 19), ("METEOSAT5", 52, some 20),
   ("METEOSAT6", 53, some 21), ("METEOSAT7", 54, none),
   ("MSG1", 55, some 321), ("MSG2", 56, some 322), ("MSG3", 57, some 323), ("MSG4", 70, some 324),
   ("MTSAT1", 58, some 21001), ("MTSAT2", 59, some 21002),
   ("GMS3", 150, none), ("GMS4", 151, some 20004), ("GMS5", 152, some 20005),
   ("NOAA12", 204, some 17012), ("NOAA14", 205, some 17014), ("NOAA15", 206, some 17015),
   ("GOES7", 251, some 18007), ("GOES8", 252, some 18008), ("GOES9", 253, some 18009),
   ("GOES10", 254, some 18010), ("GOES11", 255, some 18011), ("GOES12", 256, some 18012),
   ("GOMS1", 310, some 19001), ("GOMS2", 311, some 19002)]

/-- The code for "no satellite" in WMO and HRIT numbering. -/
def noneWMO : Int := 1023
def noneHRIT : Int := 0

/-- The satellites that carry SEVIRI. -/
def seviri : List Int := [55, 56, 57, 70]

/-- SEVIRI channels: number, name, central wavelength in tenths of a micrometre, thermal or not. -/
def channels : List (Int × String × Int × Bool) :=
  [(1, "VIS006", 6, false), (2, "VIS008", 8, false), (3, "IR_016", 16, false), (4, "IR_039", 39, true),
   (5, "WV_062", 62, true), (6, "WV_073", 73, true), (7, "IR_087", 87, true), (8, "IR_097", 97, true),
   (9, "IR_108", 108, true), (10, "IR_120", 120, true), (11, "IR_134", 134, true), (12, "HRV", 7, false)]

end Msat.SatSpec
