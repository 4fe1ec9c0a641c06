import Verif.Model.GribKeys

/-
What a GRIB message says of an image (WMO Manual on Codes, volume I.2, and the local tables of ECMWF), and what is expected of a library
that keeps keys.
-/
namespace Msat.GribKeysSpec
open Msat GribKeys

/-- A library whose keys do not disturb one another: a key that was set has the value that it was given, and no other changes. -/
structure Keeps {H : Type} (lib : Lib H) (value : H → String → Option Val) : Prop where
  same : ∀ h k v, (lib.set h k v).2 = true → value (lib.set h k v).1 k = some v
  others : ∀ h k v k', k' ≠ k → value (lib.set h k v).1 k' = value h k'

/-- What does not depend on the image, in edition 2: space products (code table 0.0) of centre 98, the time is that of the observation
(1.2), operational (1.3) analysis (1.4), the grid is in the message (3.0) and is a space view (3.1), on the oblate spheroid of IAU 1965 (3.2),
scanned along +i and -j (flag table 3.4) with the grid turned by 180 degrees, seen from 6.610708 radii of the Earth; satellite product
(4.0), image format (4.1), scaled radiance (4.2), one band, simple packing (5.0). -/
def always2 : List (String × ℤ) := [
  ("discipline", 3), ("centre", 98), ("subCentre", 0), ("tablesVersion", 4), ("localTablesVersion", 0),
  ("significanceOfReferenceTime", 3), ("productionStatusOfProcessedData", 0), ("typeOfProcessedData", 0),
  ("sourceOfGridDefinition", 0), ("interpretationOfNumberOfPoints", 0), ("gridDefinitionTemplateNumber", 90),
  ("shapeOfTheEarth", 2), ("scanningMode", 0), ("orientationOfTheGridInDegrees", 180), ("Nr", 6610708),
  ("productDefinitionTemplateNumber", 31), ("parameterCategory", 0), ("parameterNumber", 0), ("typeOfGeneratingProcess", 0),
  ("generatingProcessIdentifier", 254), ("NB", 1), ("dataRepresentationTemplateNumber", 0)]

/-- Sizes and counts, in edition 2. -/
def counts2 (sx sy missing : ℕ) : List (String × ℤ) := [
  ("numberOfPointsAlongXAxis", sx), ("numberOfPointsAlongYAxis", sy), ("numberOfDataPoints", sx * sy),
  ("numberOfValues", sx * sy - missing), ("bitmapPresent", if missing = 0 then 0 else 1)]

/-- Where the image is, in edition 2. -/
def place2 (g : Georef.Grid) : List (String × ℤ) := [
  ("xCoordinateOfSubSatellitePoint", g.xp), ("yCoordinateOfSubSatellitePoint", g.yp), ("geography.dx", g.dx), ("geography.dy", g.dy),
  ("geography.xo", g.x0), ("geography.yo", g.y0), ("Xo", g.x0), ("Yo", g.y0)]

/-- The same for edition 1: image data (code table 2) of a grid that is described (255), no vertical coordinates, space view (code table
6), oblate spheroid (code table 7), time in minutes (code table 4). -/
def always1 : List (String × ℤ) := [
  ("centre", 98), ("subCentre", 0), ("generatingProcessIdentifier", 254), ("gridDefinition", 255), ("indicatorOfParameter", 127),
  ("indicatorOfUnitOfTimeRange", 0), ("timeRangeIndicator", 0), ("numberIncludedInAverage", 0),
  ("numberMissingFromAveragesOrAccumulations", 0), ("numberOfVerticalCoordinateValues", 0), ("pvlLocation", 255),
  ("dataRepresentationType", 90), ("resolutionAndComponentFlags", 64), ("scanningMode", 0), ("orientationOfTheGridInDegrees", 180),
  ("altitudeOfTheCameraFromTheEarthsCentreMeasuredInUnitsOfTheEarthsRadius", 6610708)]

/-- Sizes, in edition 1. -/
def counts1 (sx sy missing : ℕ) : List (String × ℤ) := [
  ("numberOfPointsAlongXAxis", sx), ("numberOfPointsAlongYAxis", sy), ("bitmapPresent", if missing = 0 then 0 else 1)]

/-- Where the image is, in edition 1. -/
def place1 (g : Georef.Grid) : List (String × ℤ) := [
  ("XpInGridLengths", g.xp), ("YpInGridLengths", g.yp), ("geography.dx", g.dx), ("geography.dy", g.dy), ("Xo", g.x0), ("Yo", g.y0)]

/-- The satellite and the channel: Meteosat second generation (BUFR table 0 02 020), SEVIRI (common table C-8). -/
def satellite2 (spacecraft : ℕ) : List (String × ℤ) :=
  [("satelliteSeries", 333), ("satelliteNumber", spacecraft), ("instrumentType", 207)]

def satelliteECMWF (spacecraft : ℕ) : List (String × ℤ) := [
  ("indicatorOfTypeOfLevel", spacecraft), ("satelliteIdentifier", spacecraft), ("instrumentIdentifier", 207)]

/-- The local part of ECMWF: satellite image simulation. -/
def localECMWF : List (String × ℤ) := [("localDefinitionNumber", 24), ("functionCode", 1)]

end Msat.GribKeysSpec
