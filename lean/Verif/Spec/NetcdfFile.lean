import Verif.Model.NetcdfFile
import Verif.Spec.NetcdfBand
import Verif.Spec.Georef
import Verif.Spec.Datetime
import Verif.Spec.Satellites
import Mathlib.Data.List.Forall2

/-
Images before an export and after they are opened.
-/
namespace Msat.NetcdfFileSpec
open Msat NetcdfFile

/-- The band that is opened is the one that was exported: name, type, missing value, scale, offset, unit and channel; if it has a channel
of SEVIRI, on one of the satellites with SEVIRI, the name of the channel is there. -/
def SameBand (spacecraft : Int) (b : Band) (o : OpenBand) : Prop :=
  o.name = b.name ∧ o.type = b.raster.type ∧ o.nodata = b.raster.nodata ∧ o.scale = b.scale ∧ o.offset = b.offset ∧
  o.units = b.units ∧ o.channel.map Prod.fst = b.raster.channel ∧
  ∀ c name w t, b.raster.channel = some c → ((c : Int), name, w, t) ∈ SatSpec.channels → spacecraft ∈ SatSpec.seviri →
    o.channel = some (c, name)

/-- The pixels are the same, for the types that can be read. -/
def SamePixels (b : Band) (o : OpenBand) : Prop :=
  b.raster.type ≠ .int32 ∧ b.raster.type ≠ .uint32 → (∀ c ∈ b.raster.pixels, NetcdfBandSpec.HasType b.raster.type c) →
    NetcdfBand.readBlock o.var = .ok b.raster.pixels

/-- The bands that can be exported: the name is allowed, the type has one number per pixel, and the missing value fits. -/
def Exportable (valid : String → Bool) (b : Band) : Prop :=
  valid b.name = true ∧ NetcdfBandSpec.Plain b.raster.type ∧ NetcdfBandSpec.NodataFits b.raster.type b.raster.nodata

/-- The image is a geostationary image of Meteosat, at either resolution. -/
def OfMeteosat (ps : ℝ) (s : Georef.Source) : Prop :=
  s.height = 35785831 ∧ ∃ cx cy, GeorefSpec.OnGrid s.gt ps ps cx cy ∧ GeorefSpec.Near cx ∧ GeorefSpec.Near cy

/-- What `GetNoDataValue` of GDAL returns when a band has no missing value. -/
def unset : Rat := -10000000000

end Msat.NetcdfFileSpec
