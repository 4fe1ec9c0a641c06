import Verif.Model.NetcdfAny

/-
What C116 means: which files are opened, and what an image says of its file.
-/
namespace Msat.NetcdfAnySpec
open Msat NetcdfAny

/-- The value of an attribute if it is there, or else something that is well known. -/
def Value {α : Type} (att : String → Option Att) (conv : Att → α) (k : String) (otherwise v : α) : Prop :=
  (∃ a, att k = some a ∧ v = conv a) ∨ (att k = none ∧ v = otherwise)

/-- The number is the same modulo 2^32, and is one of an `int`. -/
abbrev AsInt (v i : Int) : Prop := i % 2 ^ 32 = v % 2 ^ 32 ∧ -2 ^ 31 ≤ i ∧ i < 2 ^ 31

/-- The variable is an image: it has a time, that is one, lines and columns, and is not one of the others. -/
def IsImage (others : List String) (v : Var) (sx sy : Nat) : Prop := v.name ∉ others ∧ v.dims = [1, sy, sx]

/-- Variables whose integers have no sign. -/
def Unsigned (v : Var) : Prop := ∃ a, v.att "_Unsigned" = some a ∧ a.asString = "true"

/-- The types of GDAL for those of NetCDF. -/
def TypeIs (v : Var) (t : NetcdfBand.DataType) : Prop :=
  match v.type with
  | .noType => t = .unknown
  | .byte => t = .byte
  | .char => t = .byte
  | .short => Unsigned v ∧ t = .uint16 ∨ ¬ Unsigned v ∧ t = .int16
  | .int => Unsigned v ∧ t = .uint32 ∨ ¬ Unsigned v ∧ t = .int32
  | .float => t = .float32
  | .double => t = .float64

/-- What a band says is what its variable says. -/
structure BandSays (spacecraft : Int) (key : String) (old : Prop) (sx sy : Nat) (b : Band) : Prop where
  name : b.name = b.var.name
  type : TypeIs b.var b.type
  width : AsInt sx b.blockX
  height : AsInt sy b.blockY
  unsigned : b.unsigned = true ↔ Unsigned b.var
  channel : b.channel = (b.var.att key).map Att.asInt
  channelName : ∀ c, b.channel = some c → b.channelName = some (Facts.channelName spacecraft c)
  noChannel : b.channel = none → b.channelName = none
  old : b.offset1bug = true ↔ old

/-- The bands of an image are those of its variables that are images, in order. -/
inductive Bands (others : List String) (spacecraft : Int) (key : String) (old : Prop) : List Var → List Band → Prop where
  | nil : Bands others spacecraft key old [] []
  | image {v : Var} {vs : List Var} {b : Band} {bs : List Band} (sx sy : Nat) (h : IsImage others v sx sy) (hv : b.var = v)
      (hb : BandSays spacecraft key old sx sy b) (ht : Bands others spacecraft key old vs bs) : Bands others spacecraft key old (v :: vs) (b :: bs)
  | other {v : Var} {vs : List Var} {bs : List Band} (h : ∀ sx sy, ¬ IsImage others v sx sy) (ht : Bands others spacecraft key old vs bs) :
      Bands others spacecraft key old (v :: vs) bs

/-- The size of the image is that of the first band; when there are none it is the one of GDAL. -/
def SizeIs (d : Image) : Prop :=
  match d.bands with
  | [] => d.sx = 512 ∧ d.sy = 512
  | b :: _ => d.sx = b.blockX ∧ d.sy = b.blockY

/-- Files that are opened as NetCDF: the satellite is there, and the pixels are not sampled. -/
def Accepts (f : File) : Prop :=
  f.isFile = true ∧ f.valid = true ∧ f.att "Satellite" ≠ none ∧ (∀ a, f.att "SampleX" = some a → a.asFloat = 1) ∧
  (∀ a, f.att "SampleY" = some a → a.asFloat = 1)

/-- Files of the first version did not say it. -/
def FirstVersion (f : File) : Prop := f.att "Version" = none ∨ ∃ a, f.att "Version" = some a ∧ a.asString = "0"

/-- What an image says is what its file says. -/
structure Describes (f : File) (d : Image) : Prop where
  noName : ∀ a, f.att "Satellite" = some a → a.asString = "" → d.spacecraft = none ∧ d.spacecraftId = none
  name : ∀ a, f.att "Satellite" = some a → a.asString ≠ "" → d.spacecraft = some a.asString ∧ d.spacecraftId = some (Facts.spacecraftID a.asString)
  time : ∃ t, Value f.att Att.asString "Time" "0000-00-00 00:00:00 UTC" t ∧ Datetime.netcdfReadTime (str t) = some d.datetime
  longitude : ∃ v, Value f.att Att.asFloat "Longitude" 0 v ∧ d.lon = some v
  bands : Bands ["time"] (d.spacecraftId.getD 0) "chnum" (FirstVersion f) f.vars d.bands
  size : SizeIs d

/-- Files that are opened as NetCDF-24: edition 1, satellites 55 and 56. -/
def Accepts24 (f : File) : Prop :=
  f.isFile = true ∧ f.valid = true ∧ (∃ a, f.att "GribEditionNumber" = some a ∧ a.asInt = 1) ∧
  ∃ a, f.att "LevelType" = some a ∧ (a.asInt = 55 ∨ a.asInt = 56)

/-- The first variable with a name. -/
def FirstNamed (f : File) (name : String) (p : Var) : Prop := ∃ l r, f.vars = l ++ p :: r ∧ p.name = name ∧ ∀ v ∈ l, v.name ≠ name

/-- The pixels of an image: the place of the first one, from the point below the satellite, and their sizes; NaN if a size is not known. -/
def Grid (columns lines : Int) (psx psy : Option ℝ) (g : Geo) : Prop :=
  match psx, psy with
  | some psx, some psy => ∃ m, g = .matrix m ∧ m.dx = psx ∧ m.dy = -psy ∧ m.rx = 0 ∧ m.ry = 0 ∧ m.x0 = columns * psx ∧ m.y0 = lines * psy
  | _, _ => g = .notANumber

/-- The size of pixels for a number; zero has none. -/
def SizeFor (f : ℤ → Outcome ℝ) (v : Int) (s : Option ℝ) : Prop := (v = 0 ∧ s = none) ∨ (v ≠ 0 ∧ ∃ r, f v = .ok r ∧ s = some r)

/-- What the variable `Projection` says. -/
def Projection (p : Var) (lon : Option Rat) (g : Geo) : Prop :=
  (p.att "Lop" = none ∧ lon = none ∧ g = .failure) ∨
  ∃ lop xp yp x0 y0 dx dy, p.att "Lop" = some lop ∧ p.att "Xp" = some xp ∧ p.att "Yp" = some yp ∧ p.att "X0" = some x0 ∧ p.att "Y0" = some y0 ∧
    p.att "DX" = some dx ∧ p.att "DY" = some dy ∧ lon = some lop.asFloat ∧ (-2 ^ 31 < x0.asInt ∧ x0.asInt ≤ 2 ^ 31) ∧ (-2 ^ 31 < y0.asInt ∧ y0.asInt ≤ 2 ^ 31) ∧
    ∃ psx psy, SizeFor PixelSize.pixelHSizeFromSeviriDX dx.asInt psx ∧ SizeFor PixelSize.pixelVSizeFromSeviriDY dy.asInt psy ∧
      Grid (x0.asInt - 1 - xp.asInt) (yp.asInt - (y0.asInt - 1)) psx psy g

structure Describes24 (f : File) (d : Image) (g : Geo) : Prop where
  noSatellite : Value f.att Att.asInt "SatelliteID" 0 0 → d.spacecraft = none ∧ d.spacecraftId = none
  satellite : ∀ s, Value f.att Att.asInt "SatelliteID" 0 s → s ≠ 0 → d.spacecraft = some (Facts.spacecraftName s) ∧ d.spacecraftId = some s
  time : ∃ year month day hour minute second, Value f.att Att.asInt "Year" 0 year ∧ Value f.att Att.asInt "Month" 0 month ∧
    Value f.att Att.asInt "Day" 0 day ∧ Value f.att Att.asInt "Hour" 0 hour ∧ Value f.att Att.asInt "Minute" 0 minute ∧
    Value f.att Att.asInt "Second" 0 second ∧ d.datetime = Datetime.formatStamp year month day hour minute second
  projection : ∃ p, FirstNamed f "Projection" p ∧ Projection p d.lon g
  bands : ∃ s, Value f.att Att.asInt "SatelliteID" 0 s ∧ Bands ["Projection", "time"] s "L1" False f.vars d.bands
  size : SizeIs d

/-- The geotransform of a NetCDF file, from the attributes. -/
def Georeferenced (f : File) (g : Geo) : Prop :=
  ((f.att "AreaStartPix" = none ∨ f.att "AreaStartLin" = none) ∧ g = .failure) ∨
  ∃ asp asl c l co lo psx psy, f.att "AreaStartPix" = some asp ∧ f.att "AreaStartLin" = some asl ∧
    Value f.att Att.asInt "Column_Scale_Factor" (-13642337) c ∧ Value f.att Att.asInt "Line_Scale_Factor" (-13642337) l ∧
    Value f.att Att.asInt "Column_Offset" 1856 co ∧ Value f.att Att.asInt "Line_Offset" 1856 lo ∧
    SizeFor hSize |c| psx ∧ SizeFor vSize |l| psy ∧ Grid (asp.asInt - 1 - co) (lo - (asl.asInt - 1)) psx psy g

/-- Numbers of an image of a reasonable size. -/
def Modest (v : Int) : Prop := -2 ^ 29 < v ∧ v < 2 ^ 29

end Msat.NetcdfAnySpec
