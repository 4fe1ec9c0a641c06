import Verif.Model.GribHandle

/-
What C113 means: which files are GRIB files, what an image that was opened says, and who owns what.
-/
namespace Msat.GribHandleSpec
open Msat GribHandle

/-! ### Keys -/

/-- The message has the integer. -/
def Has (lib : Lib) (k : String) (v : Int) : Prop := lib.long k = .found v

/-- The value of the first of the keys that the message has. -/
def First {α : Type} (look : String → Answer α) : List String → α → Prop
  | [], _ => False
  | k :: ks, v => look k = .found v ∨ ((∀ w, look k ≠ .found w) ∧ First look ks v)

/-- The message does not have the key (and there is no other trouble with it). -/
def Lacks (lib : Lib) (k : String) : Prop := lib.long k = .notFound

/-- The text of the time of a message: the year is in two keys in edition 1. -/
def Time (lib : Lib) (t : Bytes) : Prop :=
  ∃ year month day hour minute second,
    (Has lib "editionNumber" 2 ∧ Has lib "year" year ∨
      Has lib "editionNumber" 1 ∧ ∃ c y, Has lib "centuryOfReferenceTimeOfData" c ∧ Has lib "yearOfCentury" y ∧ year = (c - 1) * 100 + y) ∧
    Has lib "month" month ∧ Has lib "day" day ∧ Has lib "hour" hour ∧ Has lib "minute" minute ∧ Has lib "second" second ∧
    t = Datetime.formatStamp year month day hour minute second

/-- The channel of a message: its number, or the level, or the one of the central wave number. -/
def Channel (lib : Lib) (spacecraft c : Int) : Prop :=
  Has lib "channelNumber" c ∨
  Lacks lib "channelNumber" ∧ Has lib "level" c ∨
  Lacks lib "channelNumber" ∧ Lacks lib "level" ∧ ∃ e v, Has lib "scaleFactorOfCentralWaveNumber" e ∧
    Has lib "scaledValueOfCentralWaveNumber" v ∧ Facts.channelFromWaveNumber spacecraft ((v : Rat) * (10 : Rat) ^ (-e)) = .ok c

/-- The number is the same modulo 2^32, and is one of an `int`. -/
abbrev AsInt (v i : Int) : Prop := i % 2 ^ 32 = v % 2 ^ 32 ∧ -2 ^ 31 ≤ i ∧ i < 2 ^ 31

/-- What the image says is what the message says. -/
structure Describes (lib : Lib) (d : Dataset) : Prop where
  width : ∃ v, Has lib "numberOfPointsAlongXAxis" v ∧ AsInt v d.sx
  height : ∃ v, Has lib "numberOfPointsAlongYAxis" v ∧ AsInt v d.sy
  time : Time lib d.datetime
  satellite : ∃ v, First lib.long ["satelliteNumber", "satelliteIdentifier", "indicatorOfTypeOfLevel"] v ∧ AsInt v d.spacecraft
  satelliteName : d.spacecraftName = Facts.spacecraftName d.spacecraft
  longitude : First lib.double ["longitudeOfSubSatellitePointInDegrees", "geography.lop"] d.lon
  channel : Channel lib d.spacecraft d.channel
  band : ∃ c, AsInt d.channel c ∧ d.channelName = Facts.channelName d.spacecraft c ∧ d.unit = Facts.channelUnit d.spacecraft c ∧
    d.nodata = GribFile.defaultScaledMissing c
  missing : lib.setMissing d.nodata = true

/-- GRIB in the first bytes of a file, before any zero. -/
def Signature (header : Bytes) : Prop := ∃ a b, header = a ++ str "GRIB" ++ b ∧ (0 : UInt8) ∉ a

/-! ### Objects -/

/-- No objects, nothing open. -/
def nothing : State := ⟨[], 0, [], [], []⟩

/-- Everything that objects own. -/
def held (s : State) : List Nat := s.objs.flatMap fun
  | some x => x.owned
  | none => []

/-- All objects have been destroyed. -/
def AllGone (s : State) : Prop := ∀ x ∈ s.objs, x = none

/-- A handle or a file is asked for by an object that has none. -/
def Empty (s : State) : Op → Prop
  | .samples o _ => ∀ x, s.get o = .ok x → x.gh = none
  | .file o _ _ => ∀ x, s.get o = .ok x → x.gh = none ∧ x.fp = none
  | _ => True

/-- All along a history. -/
def AlwaysEmpty : State → List Op → Prop
  | _, [] => True
  | s, op :: ops => Empty s op ∧ ∀ s', step s op = .ok s' → AlwaysEmpty s' ops

end Msat.GribHandleSpec
