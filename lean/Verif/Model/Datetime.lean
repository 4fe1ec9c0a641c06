import Verif.Model.Text

/-
Dates and times in GRIB and NetCDF files: gdal/grib/utils.h, gdal/netcdf/netcdf.cpp, gdal/netcdf/utils.cpp.

What the GRIB library does is a parameter of trust: a message is its date fields, a key that is set reads back; in
edition 1 there are no seconds: setting them fails, and they read as 0 (the code ignores this failure).
-/
namespace Msat.Datetime
open Msat Text

/-- `"%d-%d-%d %d:%d:%d"` -/
def stampFormat : List Directive :=
  [.int none, .lit 45, .int none, .lit 45, .int none, .blank, .int none, .lit 58, .int none, .lit 58, .int none]

/-- Date fields of a GRIB message. -/
structure Message where
  edition : Int
  century : Int
  yearOfCentury : Int
  year : Int
  month : Int
  day : Int
  hour : Int
  minute : Int
  second : Int
deriving DecidableEq, Repr

/-- The key "second" of a message. -/
def Message.getSecond (g : Message) : Int := if g.edition = 2 then g.second else 0

/-- `set_long_unchecked("second", ...)`, gdal/grib/utils.h:411. -/
def Message.setSecond (g : Message) (s : Int) : Message := if g.edition = 2 then { g with second := s } else g

/-- gdal/grib/utils.h:383-412 `setTime`; C division and remainder. -/
def setTime (g : Message) (buf : Bytes) : Outcome Message :=
  match scanf stampFormat buf with
  | [year, month, day, hour, minute, second] =>
    let rest (g : Message) := ({ g with month, day, hour, minute } : Message).setSecond second
    if g.edition = 1 then .ok (rest { g with century := year.tdiv 100 + 1, yearOfCentury := year.tmod 100 })
    else if g.edition = 2 then .ok (rest { g with year := year })
    else .throws "griberror"
  | _ => .throws "griberror"

/-- `snprintf(buf, 20, "%04ld-%02ld-%02ld %02ld:%02ld:%02ld", ...)`, gdal/grib/utils.h:378 and
gdal/netcdf/netcdf.cpp:172. -/
def formatStamp (year month day hour min sec : Int) : Bytes :=
  (fmt0 4 year ++ [45] ++ fmt0 2 month ++ [45] ++ fmt0 2 day ++ [32] ++ fmt0 2 hour ++ [58] ++ fmt0 2 min ++ [58] ++
    fmt0 2 sec).take 19

/-- gdal/grib/utils.h:352-380 `formatTime` -/
def formatTime (g : Message) : Outcome Bytes :=
  let rest (year : Int) := formatStamp year g.month g.day g.hour g.minute g.getSecond
  if g.edition = 1 then .ok (rest ((g.century - 1) * 100 + g.yearOfCentury))
  else if g.edition = 2 then .ok (rest g.year)
  else .throws "griberror"

/-! ### NetCDF -/

/-- gdal/netcdf/netcdf.cpp:290-294: the attribute "Time" that is written. -/
def netcdfTime (sval : Bytes) : Bytes := sval ++ str " UTC"

/-- `"%04d-%02d-%02d %02d:%02d:%02d UTC"`, gdal/netcdf/netcdf.cpp:166. -/
def netcdfFormat : List Directive :=
  [.int (some 4), .lit 45, .int (some 2), .lit 45, .int (some 2), .blank, .int (some 2), .lit 58, .int (some 2), .lit 58,
    .int (some 2), .blank, .lit 85, .lit 84, .lit 67]

/-- gdal/netcdf/netcdf.cpp:163-174: the date and time read from the attribute; `none` when it cannot be
understood. -/
def netcdfReadTime (attr : Bytes) : Option Bytes :=
  match scanf netcdfFormat attr with
  | [year, month, day, hour, min, sec] => some (formatStamp year month day hour min sec)
  | _ => none

/-- Days before a month in a year that is not a leap year. -/
def cumulative : Int → Int
  | 1 => 0 | 2 => 31 | 3 => 59 | 4 => 90 | 5 => 120 | 6 => 151
  | 7 => 181 | 8 => 212 | 9 => 243 | 10 => 273 | 11 => 304 | 12 => 334
  | _ => 0

/-- `mktime` in UTC, with the formula of POSIX for seconds since the Epoch; months from 1 to 12 only. -/
def mktimeUTC (year month day hour min sec : Int) : Int :=
  let y := year - 1900
  let leap := (year % 4 = 0 ∧ year % 100 ≠ 0) ∨ year % 400 = 0
  let yday := cumulative month + (if leap ∧ 2 < month then 1 else 0) + day - 1
  sec + min * 60 + hour * 3600 + yday * 86400 + (y - 70) * 31536000 + (y - 69) / 4 * 86400 - (y - 1) / 100 * 86400 +
    (y + 299) / 400 * 86400

/-- gdal/netcdf/utils.cpp:28-58 `forecastSeconds2000`: `tm_sec` is left at zero.  That an empty TZ means UTC is
trusted. -/
def forecastSeconds2000 (timestr : Bytes) : Int :=
  match scanf stampFormat timestr with
  | [year, month, day, hour, minute, _second] => mktimeUTC year month day hour minute 0 - 946684800
  | _ => 0

end Msat.Datetime
