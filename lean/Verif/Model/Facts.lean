import Mathlib.Data.Rat.Floor
import Mathlib.Algebra.Order.Round
import Verif.Model.Basic

/-
msat/facts.cpp: satellites, channels and day numbers.

Simplifications: strings are Lean strings; floating point numbers are exact rationals.
-/
namespace Msat.Facts

/-! HRIT codes: `t_enum_MSG_spacecraft`, msat/hrit/MSG_spacecraft.h:34-70 -/

/-- msat/facts.cpp:186-224 `spacecraftIDFromHRIT` -/
def fromHRIT (id : Int) : Int :=
  match id with
  | 0 => 1023  -- MSG_NO_SPACECRAFT
  | 11 => 3  -- MSG_METOP_1
  | 12 => 4  -- MSG_METOP_2
  | 13 => 5  -- MSG_METOP_3
  | 16 => 50  -- MSG_METEOSAT_3
  | 19 => 51  -- MSG_METEOSAT_4
  | 20 => 52  -- MSG_METEOSAT_5
  | 21 => 53  -- MSG_METEOSAT_6
  | 321 => 55  -- MSG_MSG_1
  | 322 => 56  -- MSG_MSG_2
  | 323 => 57  -- MSG_MSG_3
  | 324 => 70  -- MSG_MSG_4
  | 17012 => 204  -- MSG_NOAA_12
  | 17014 => 205  -- MSG_NOAA_14
  | 17015 => 206  -- MSG_NOAA_15
  | 18007 => 251  -- MSG_GOES_7
  | 18008 => 252  -- MSG_GOES_8
  | 18009 => 253  -- MSG_GOES_9
  | 18010 => 254  -- MSG_GOES_10
  | 18011 => 255  -- MSG_GOES_11
  | 18012 => 256  -- MSG_GOES_12
  | 19001 => 310  -- MSG_GOMS_1
  | 19002 => 311  -- MSG_GOMS_2
  | 20004 => 151  -- MSG_GMS_4
  | 20005 => 152  -- MSG_GMS_5
  | 21001 => 58  -- MSG_MTSAT_1
  | 21002 => 59  -- MSG_MTSAT_2
  | _ => 1023

/-- msat/facts.cpp:226-261 `spacecraftIDToHRIT` -/
def toHRIT (id : Int) : Int :=
  match id with
  | 1023 => 0  -- MSG_NO_SPACECRAFT
  | 3 => 11  -- MSG_METOP_1
  | 4 => 12  -- MSG_METOP_2
  | 5 => 13  -- MSG_METOP_3
  | 50 => 16  -- MSG_METEOSAT_3
  | 51 => 19  -- MSG_METEOSAT_4
  | 52 => 20  -- MSG_METEOSAT_5
  | 53 => 21  -- MSG_METEOSAT_6
  | 55 => 321  -- MSG_MSG_1
  | 56 => 322  -- MSG_MSG_2
  | 57 => 323  -- MSG_MSG_3
  | 70 => 324  -- MSG_MSG_4
  | 204 => 17012  -- MSG_NOAA_12
  | 205 => 17014  -- MSG_NOAA_14
  | 206 => 17015  -- MSG_NOAA_15
  | 251 => 18007  -- MSG_GOES_7
  | 252 => 18008  -- MSG_GOES_8
  | 253 => 18009  -- MSG_GOES_9
  | 254 => 18010  -- MSG_GOES_10
  | 255 => 18011  -- MSG_GOES_11
  | 256 => 18012  -- MSG_GOES_12
  | 310 => 19001  -- MSG_GOMS_1
  | 311 => 19002  -- MSG_GOMS_2
  | 151 => 20004  -- MSG_GMS_4
  | 152 => 20005  -- MSG_GMS_5
  | 58 => 21001  -- MSG_MTSAT_1
  | 59 => 21002  -- MSG_MTSAT_2
  | _ => 0

/-- msat/facts.cpp:264-300 `spacecraftName` -/
def spacecraftName (id : Int) : String :=
  match id with
  | 3 => "METOP1"
  | 4 => "METOP2"
  | 5 => "METOP3"
  | 50 => "METEOSAT3"
  | 51 => "METEOSAT4"
  | 52 => "METEOSAT5"
  | 53 => "METEOSAT6"
  | 54 => "METEOSAT7"
  | 55 => "MSG1"
  | 56 => "MSG2"
  | 57 => "MSG3"
  | 58 => "MTSAT1"
  | 59 => "MTSAT2"
  | 70 => "MSG4"
  | 150 => "GMS3"
  | 151 => "GMS4"
  | 152 => "GMS5"
  | 204 => "NOAA12"
  | 205 => "NOAA14"
  | 206 => "NOAA15"
  | 251 => "GOES7"
  | 252 => "GOES8"
  | 253 => "GOES9"
  | 254 => "GOES10"
  | 255 => "GOES11"
  | 256 => "GOES12"
  | 310 => "GOMS1"
  | 311 => "GOMS2"
  | 999 => "Non Spacecraft"
  | 1023 => "Non Spacecraft"
  | _ => "unknown"

/-- msat/facts.cpp:302-333 `spacecraftID` -/
def spacecraftID (name : String) : Int :=
  if name = "METOP1" then 3 else
  if name = "METOP2" then 4 else
  if name = "METOP3" then 5 else
  if name = "METEOSAT3" then 50 else
  if name = "METEOSAT4" then 51 else
  if name = "METEOSAT5" then 52 else
  if name = "METEOSAT6" then 53 else
  if name = "METEOSAT7" then 54 else
  if name = "MSG1" then 55 else
  if name = "MSG2" then 56 else
  if name = "MSG3" then 57 else
  if name = "MTSAT1" then 58 else
  if name = "MTSAT2" then 59 else
  if name = "MSG4" then 70 else
  if name = "GMS3" then 150 else
  if name = "GMS4" then 151 else
  if name = "GMS5" then 152 else
  if name = "NOAA12" then 204 else
  if name = "NOAA14" then 205 else
  if name = "NOAA15" then 206 else
  if name = "GOES7" then 251 else
  if name = "GOES8" then 252 else
  if name = "GOES9" then 253 else
  if name = "GOES10" then 254 else
  if name = "GOES11" then 255 else
  if name = "GOES12" then 256 else
  if name = "GOMS1" then 310 else
  if name = "GOMS2" then 311 else
  -1

/-- msat/facts.cpp:336-346 `sensorName` -/
def sensorName (id : Int) : String :=
  match id with
  | 55 => "Seviri"
  | 56 => "Seviri"
  | 57 => "Seviri"
  | 70 => "Seviri"
  | _ => "unknown"

/-- msat/facts.cpp:349-378 `channelName` -/
def channelName (id channel : Int) : String :=
  if id = 55 ∨ id = 56 ∨ id = 57 ∨ id = 70 then
    match channel with
    | 0 => "no-channel"  -- MSG_SEVIRI_NO_CHANNEL
    | 1 => "VIS006"  -- MSG_SEVIRI_1_5_VIS_0_6
    | 2 => "VIS008"  -- MSG_SEVIRI_1_5_VIS_0_8
    | 3 => "IR_016"  -- MSG_SEVIRI_1_5_IR_1_6
    | 4 => "IR_039"  -- MSG_SEVIRI_1_5_IR_3_9
    | 5 => "WV_062"  -- MSG_SEVIRI_1_5_WV_6_2
    | 6 => "WV_073"  -- MSG_SEVIRI_1_5_WV_7_3
    | 7 => "IR_087"  -- MSG_SEVIRI_1_5_IR_8_7
    | 8 => "IR_097"  -- MSG_SEVIRI_1_5_IR_9_7
    | 9 => "IR_108"  -- MSG_SEVIRI_1_5_IR_10_8
    | 10 => "IR_120"  -- MSG_SEVIRI_1_5_IR_12_0
    | 11 => "IR_134"  -- MSG_SEVIRI_1_5_IR_13_4
    | 12 => "HRV"  -- MSG_SEVIRI_1_5_HRV
    | _ => "unknown"
  else "unknown"

/-- msat/facts.cpp:380-409 `channelUnit` -/
def channelUnit (id channel : Int) : String :=
  if id = 55 ∨ id = 56 ∨ id = 57 ∨ id = 70 then
    match channel with
    | 0 => "unknown"  -- MSG_SEVIRI_NO_CHANNEL
    | 1 => "mW m^-2 sr^-1 (cm^-1)^-1"  -- MSG_SEVIRI_1_5_VIS_0_6
    | 2 => "mW m^-2 sr^-1 (cm^-1)^-1"  -- MSG_SEVIRI_1_5_VIS_0_8
    | 3 => "mW m^-2 sr^-1 (cm^-1)^-1"  -- MSG_SEVIRI_1_5_IR_1_6
    | 4 => "K"  -- MSG_SEVIRI_1_5_IR_3_9
    | 5 => "K"  -- MSG_SEVIRI_1_5_WV_6_2
    | 6 => "K"  -- MSG_SEVIRI_1_5_WV_7_3
    | 7 => "K"  -- MSG_SEVIRI_1_5_IR_8_7
    | 8 => "K"  -- MSG_SEVIRI_1_5_IR_9_7
    | 9 => "K"  -- MSG_SEVIRI_1_5_IR_10_8
    | 10 => "K"  -- MSG_SEVIRI_1_5_IR_12_0
    | 11 => "K"  -- MSG_SEVIRI_1_5_IR_13_4
    | 12 => "mW m^-2 sr^-1 (cm^-1)^-1"  -- MSG_SEVIRI_1_5_HRV
    | _ => "unknown"
  else "unknown"

/-- msat/facts.cpp:411-441 `channelLevel` -/
def channelLevel (id channel : Int) : String :=
  if id = 55 ∨ id = 56 ∨ id = 57 ∨ id = 70 then
    match channel with
    | 0 | 1 | 2 | 3 | 4 | 5 | 6 | 7 | 8 | 9 | 10 | 11 | 12 => "1.5"
    | _ => ""
  else ""

/-- msat/facts.cpp:443-469 `channel_central_wavelength`, in micrometres -/
def centralWavelength (id channel : Int) : Outcome Rat :=
  if id = 55 ∨ id = 56 ∨ id = 57 ∨ id = 70 then
    match channel with
    | 1 => .ok (6 / 10)
    | 2 => .ok (8 / 10)
    | 3 => .ok (16 / 10)
    | 4 => .ok (39 / 10)
    | 5 => .ok (62 / 10)
    | 6 => .ok (73 / 10)
    | 7 => .ok (87 / 10)
    | 8 => .ok (97 / 10)
    | 9 => .ok (108 / 10)
    | 10 => .ok (120 / 10)
    | 11 => .ok (134 / 10)
    | 12 => .ok (7 / 10)
    | _ => .throws "central wavelength unknown"
  else .throws "central wavelength unknown"

/-- msat/facts.cpp:471-476 `channel_central_wave_number`, per metre -/
def centralWaveNumber (id channel : Int) : Outcome Rat := do
  let w ← centralWavelength id channel
  pure (1 / (w * (1 / 1000000)))

/-- C `round`: to the nearest integer, halves away from zero. -/
def roundC (x : Rat) : Int := if 0 ≤ x then ⌊x + 1 / 2⌋ else -⌊-x + 1 / 2⌋

/-- The `switch` of msat/facts.cpp:491-506, on the wavelength in tenths of a micrometre. -/
def wavelengthSwitch (v : Int) : Outcome Int :=
  match v with
  | 6 => .ok 1
  | 8 => .ok 2
  | 16 => .ok 3
  | 39 => .ok 4
  | 62 => .ok 5
  | 73 => .ok 6
  | 87 => .ok 7
  | 97 => .ok 8
  | 108 => .ok 9
  | 120 => .ok 10
  | 134 => .ok 11
  | 7 => .ok 12
  | _ => .throws "unknown central wavelength"

/-- msat/facts.cpp:478-509 `channel_from_central_wavelength`.  The conversion of the rounded value to
`int` is undefined when it is out of range. -/
def channelFromWavelength (id : Int) (w : Rat) : Outcome Int :=
  if id = 55 ∨ id = 56 ∨ id = 57 ∨ id = 70 then
    let v := roundC (w * 10)
    if v < -2147483648 ∨ 2147483647 < v then .ub
    else wavelengthSwitch v
  else .throws "unsupported satellite"

/-- msat/facts.cpp:511-515 `channel_from_central_wave_number`.  Zero gives an infinite wavelength, whose conversion to `int` is
undefined. -/
def channelFromWaveNumber (id : Int) (n : Rat) : Outcome Int :=
  if n = 0 ∧ (id = 55 ∨ id = 56 ∨ id = 57 ∨ id = 70) then .ub else channelFromWavelength id ((1 / n) * 1000000)

/-- msat/facts.cpp:11-30 `channelInfo`: decimal digits and the missing values, in units of 0.00001. -/
def channelInfo : List (Nat × Int × Int) :=
  [(2, 0, 0), (4, 0, -102691), (4, 0, 0), (4, 0, 0), (2, 0, 0), (2, 0, 0), (2, 0, 0), (2, 0, 0),
   (2, 0, 0), (2, 0, 0), (2, 0, 0), (2, 0, 0), (4, 0, -163196)]

/-- msat/facts.cpp:537-543 `significantDigitsForChannel`; the lookup never leaves the table. -/
def significantDigits (channel : Int) : Outcome Nat :=
  if 0 ≤ channel ∧ channel.toNat < channelInfo.length then
    match channelInfo[channel.toNat]? with
    | some e => .ok e.1
    | none => .ub
  else .ok 0

/-- msat/facts.cpp:575-601 `jday`.  The sum is a `double`, exact here. -/
def jday (yr month day : Int) : Int :=
  let leap := (yr.tmod 4 == 0 && yr.tmod 100 != 0) || yr.tmod 400 == 0
  let j : Int := 0
  let j := if month = 1 then 0 else j
  let j := if month = 2 then 31 else j
  let j := if month = 3 then 59 else j
  let j := if month = 4 then 90 else j
  let j := if month = 5 then 120 else j
  let j := if month = 6 then 151 else j
  let j := if month = 7 then 181 else j
  let j := if month = 8 then 212 else j
  let j := if month = 9 then 243 else j
  let j := if month = 10 then 273 else j
  let j := if month = 11 then 304 else j
  let j := if month = 12 then 334 else j
  let j := if month > 2 && leap then j + 1 else j
  j + day

end Msat.Facts
