import Verif.Model.OmtpIds

/-
Specification of consistent OpenMTP-IDS contents (only the data types of the model are used).
-/
namespace Msat.IdsSpec
open Ids

/-- A number that fits in two bytes. -/
def U16 (v : Int) : Prop := 0 ≤ v ∧ v < 65536

/-- All the numbers of the file header fit in two bytes and the first record has room for the header. -/
def FileHeaderOk (h : FileHeader) : Prop :=
  h.fortran.length = 2 ∧ h.satellite.length = 8 ∧ 58 ≤ h.record_length ∧
  (∀ v ∈ [h.no_records, h.year, h.julian_day, h.hour, h.minute, h.process_year, h.process_julian_day,
    h.process_hour, h.process_minute, h.no_channels, h.vis_id, h.wv_id, h.ir_id, h.satellite_id, h.record_length,
    h.no_vis_average, h.no_wv_average, h.no_ir_average, h.averaging_type, h.sample_interval, h.ir_calibration,
    h.wv_calibration, h.fine_adjustment, h.ir_space_count, h.wv_space_count], U16 v)

/-- A line header that tells the number of pixels of the line and leaves room for them. -/
def ScanLineOk (l : ScanLine) : Prop :=
  (∀ v ∈ [l.lineheader.length, l.lineheader.line, l.lineheader.start, l.lineheader.no_pixels,
    l.lineheader.channel_id, l.lineheader.quality, l.lineheader.pad0, l.lineheader.pad1], U16 v) ∧
  l.lineheader.no_pixels = l.linepixel.length ∧ l.linepixel.length + 16 ≤ l.lineheader.length

/-- A record header that tells the number of lines of the record. -/
def RecordOk (r : Record) : Prop :=
  r.recordheader.fortran.length = 2 ∧
  (∀ v ∈ [r.recordheader.record_header_length, r.recordheader.no_scanlines, r.recordheader.record_length,
    r.recordheader.zero], U16 v) ∧
  r.recordheader.no_scanlines = r.scanline.length ∧ ∀ l ∈ r.scanline, ScanLineOk l

/-- A file header that counts the records, itself included. -/
def Consistent (x : OpenMTP_IDS) : Prop :=
  FileHeaderOk x.fileheader ∧ x.fileheader.no_records = x.record.length + 1 ∧ ∀ r ∈ x.record, RecordOk r

/-- All the lines, in order. -/
def allLines (x : OpenMTP_IDS) : List ScanLine := x.record.flatMap (·.scanline)

end Msat.IdsSpec
