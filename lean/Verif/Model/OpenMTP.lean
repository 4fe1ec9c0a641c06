import Verif.Model.Machine
import Verif.Model.Text

/-
msat/openmtp: OpenMTP files.

A file is the bytes that are left to read.  Simplifications: memory that the code leaves uninitialised holds
zeros; allocation succeeds; the calibration table is in Model/OpenMtpTools.lean; the messages are left out;
the byte order of the machine is little endian.
-/
namespace Msat.Mtp
open Text

/-! ### Files -/

/-- `file.read(buf + off, n); if (file.fail()) throw;` as in msat/openmtp/OpenMTP_binary_header.cpp:49-54 and the other
readers.  What there is, up to `n` bytes, is stored; a negative number of bytes fails; `throw;` outside of a
handler ends the program. -/
def readAt (buf : Bytes) (off : Nat) (n : Int) (file : Bytes) : Outcome (Bytes × Bytes) :=
  if n < 0 then .terminate
  else if buf.length < off + min n.toNat file.length then .ub
  else if file.length < n.toNat then .terminate
  else .ok (buf.take off ++ file.take n.toNat ++ buf.drop (off + n.toNat), file.drop n.toNat)

/-! ### Headers -/

/-- msat/openmtp/OpenMTP_ascii_header.cpp:42-52 `read`; header is an array of 1346 bytes, of which 1345 are read. -/
def asciiRead (file : Bytes) : Outcome (Bytes × Bytes) := readAt (List.replicate 1346 0) 0 1345 file

/-- msat/openmtp/OpenMTP_machine.cpp:59-70 `int4` at an offset of the header.  The header is an array of 192999 bytes
and the offsets of the code are constants well below, hence no undefined behaviour. -/
def int4 (header : Bytes) (off : Nat) : Int :=
  Machine.getI4 .little false (header.getD off 0) (header.getD (off + 1) 0) (header.getD (off + 2) 0) (header.getD (off + 3) 0)

/-- msat/openmtp/OpenMTP_binary_header.cpp:131-134 `year` -/
def year (header : Bytes) : Int := int4 header 8
/-- msat/openmtp/OpenMTP_binary_header.cpp:135-138 `jday` -/
def jday (header : Bytes) : Int := int4 header 12
/-- msat/openmtp/OpenMTP_binary_header.cpp:159-162 `date` -/
def date (header : Bytes) : Int := int4 header 24
/-- msat/openmtp/OpenMTP_binary_header.cpp:163-166 `time` -/
def time (header : Bytes) : Int := int4 header 28
/-- msat/openmtp/OpenMTP_binary_header.cpp:191-194 `is_rectified` -/
def isRectified (header : Bytes) : Bool := int4 header 36 > 3
/-- msat/openmtp/OpenMTP_binary_header.cpp:195-198 `chan` -/
def chan (header : Bytes) : Int := int4 header 40
/-- msat/openmtp/OpenMTP_binary_header.cpp:203-206 `is_VISs_data` -/
def isVISsData (header : Bytes) : Bool := int4 header 40 == 1
/-- msat/openmtp/OpenMTP_binary_header.cpp:207-210 `is_VISn_data` -/
def isVISnData (header : Bytes) : Bool := int4 header 40 == 2
/-- msat/openmtp/OpenMTP_binary_header.cpp:211-214 `is_visible_composite` -/
def isVisibleComposite (header : Bytes) : Bool := int4 header 40 == 3
/-- msat/openmtp/OpenMTP_binary_header.cpp:215-219 `is_vis_data` -/
def isVisData (header : Bytes) : Bool := isVISsData header || isVISnData header || isVisibleComposite header
/-- msat/openmtp/OpenMTP_binary_header.cpp:220-223 `is_ir1_data` -/
def isIr1Data (header : Bytes) : Bool := int4 header 40 == 4
/-- msat/openmtp/OpenMTP_binary_header.cpp:224-227 `is_ir2_data` -/
def isIr2Data (header : Bytes) : Bool := int4 header 40 == 5
/-- msat/openmtp/OpenMTP_binary_header.cpp:228-231 `is_ir_data` -/
def isIrData (header : Bytes) : Bool := isIr1Data header || isIr2Data header
/-- msat/openmtp/OpenMTP_binary_header.cpp:232-235 `is_wv1_data` -/
def isWv1Data (header : Bytes) : Bool := int4 header 40 == 6
/-- msat/openmtp/OpenMTP_binary_header.cpp:236-239 `is_wv2_data` -/
def isWv2Data (header : Bytes) : Bool := int4 header 40 == 7
/-- msat/openmtp/OpenMTP_binary_header.cpp:240-243 `is_wv_data` -/
def isWvData (header : Bytes) : Bool := isWv1Data header || isWv2Data header
/-- msat/openmtp/OpenMTP_binary_header.cpp:328-331 `first_line` -/
def firstLine (header : Bytes) : Int := int4 header 123
/-- msat/openmtp/OpenMTP_binary_header.cpp:336-339 `nlines` -/
def nlines (header : Bytes) : Int := int4 header 131
/-- msat/openmtp/OpenMTP_binary_header.cpp:340-343 `npixels` -/
def npixels (header : Bytes) : Int := int4 header 135

/-- msat/openmtp/OpenMTP_binary_header.cpp:390-393 `is_line_present`: the index is not checked.  A negative index
down to -155 reads other parts of the header. -/
def isLinePresent (header : Bytes) (index : Int) : Outcome Bool :=
  if 0 ≤ 155 + index ∧ 155 + index < header.length then .ok ((header.getD (155 + index).toNat 0).toNat > 0) else .ub

/-- msat/openmtp/OpenMTP_binary_header.cpp:58-75: the second section, skipped in rectified products.  Skipping beyond
the end of a file is no error. -/
def secondSection (header file : Bytes) : Outcome (Bytes × Bytes) :=
  if isRectified header then .ok (header, file.drop 2636) else readAt header 5175 2636 file

/-- msat/openmtp/OpenMTP_binary_header.cpp:77-95: the third section. -/
def thirdSection (header file : Bytes) : Outcome (Bytes × Bytes) :=
  if isVisibleComposite header then readAt header 7811 185188 file else readAt header 7811 136704 file

/-- msat/openmtp/OpenMTP_binary_header.cpp:43-98 `read`; `header` is an array of 192999 bytes. -/
def binaryRead (file : Bytes) : Outcome (Bytes × Bytes) := do
  let header := List.replicate 192999 0
  let (header, file) ← readAt header 0 5175 file
  let (header, file) ← secondSection header file
  thirdSection header file

/-! ### Images -/

/-- `new unsigned char[nlines*npixels]` in msat/openmtp/OpenMTP_image.cpp:52-53: the product of two `int`. -/
def newImage (nlines npixels : Int) : Outcome Bytes :=
  if nlines * npixels < -2 ^ 31 ∨ 2 ^ 31 ≤ nlines * npixels then .ub
  else if nlines * npixels < 0 then .throws "std::bad_array_new_length"
  else .ok (List.replicate (nlines * npixels).toNat 0)

/-- msat/openmtp/OpenMTP_image_line.cpp:42-52 `read`; `line` is an array of 5032 bytes. -/
def lineRead (line : Bytes) (npixels : Int) (file : Bytes) : Outcome (Bytes × Bytes) :=
  if 2 ^ 31 ≤ npixels + 32 then .ub else readAt line 0 (npixels + 32) file

/-- `memcpy(image+i*npixels, line.linevals( ), npixels)`, msat/openmtp/OpenMTP_image.cpp:58; a negative size is a huge
one. -/
def copyLine (image line : Bytes) (i : Nat) (npixels : Int) : Outcome Bytes :=
  if npixels < 0 then .ub
  else if line.length < 32 + npixels.toNat ∨ image.length < (i + 1) * npixels.toNat then .ub
  else .ok (image.take (i * npixels.toNat) ++ (line.drop 32).take npixels.toNat ++ image.drop ((i + 1) * npixels.toNat))

/-- msat/openmtp/OpenMTP_image.cpp:55-59: `n` more lines from line `i`; gives the image, the array of the last line and
the rest of the file. -/
def readLines (npixels : Int) : (n i : Nat) → (image line file : Bytes) → Outcome (Bytes × Bytes × Bytes)
  | 0, _, image, line, file => .ok (image, line, file)
  | n + 1, i, image, line, file => do
    let (line, file) ← lineRead line npixels file
    let image ← copyLine image line i npixels
    readLines npixels n (i + 1) image line file

/-- What an `OpenMTP` object holds: the binary header, the image if it has been allocated, the last line. -/
structure Product where
  header : Bytes
  image : Option Bytes
  line : Bytes
deriving DecidableEq, Repr

/-- A new object. -/
def Product.new : Product := ⟨List.replicate 192999 0, none, List.replicate 5032 0⟩

/-- msat/openmtp/OpenMTP_image.cpp:52-53: an image that is there already is used again. -/
def ensureImage (image : Option Bytes) (nlines npixels : Int) : Outcome Bytes :=
  match image with
  | some image => .ok image
  | none => newImage nlines npixels

/-- msat/openmtp/OpenMTP_image.cpp:44-59 `read` -/
def imageRead (p : Product) (header file : Bytes) : Outcome (Product × Bytes) := do
  let image ← ensureImage p.image (nlines header) (npixels header)
  let (image, line, file) ← readLines (npixels header) (nlines header).toNat 0 image p.line file
  .ok (⟨header, some image, line⟩, file)

/-- msat/openmtp/OpenMTP.cpp:53-59 `read` -/
def read (p : Product) (file : Bytes) : Outcome Product := do
  let (_, file) ← asciiRead file
  let (header, file) ← binaryRead file
  let (p, _) ← imageRead p header file
  .ok p

/-! ### Products -/

/-- msat/openmtp/OpenMTP.cpp:110-119 `is_A_format` -/
def isAFormat (header : Bytes) : Bool :=
  if (isIrData header || isWvData header) && (nlines header == 2500 && npixels header == 2500) then true
  else if isVisibleComposite header && (nlines header == 5000 && npixels header == 5000) then true
  else false

/-- msat/openmtp/OpenMTP.cpp:121-132 `is_B_format` -/
def isBFormat (header : Bytes) : Bool :=
  if (isIrData header || isWvData header) && (nlines header == 625 && npixels header == 1250) && firstLine header == 1810
  then true
  else if isVisibleComposite header && (nlines header == 1250 && npixels header == 2500) && firstLine header == 3620
  then true
  else false

/-- msat/openmtp/OpenMTP.cpp:134-137 `is_subwindow` -/
def isSubwindow (header : Bytes) : Bool := !isAFormat header || !isBFormat header

/-- msat/openmtp/OpenMTP.cpp:156-163 `get_chname` -/
def getChname (header : Bytes) : Outcome String :=
  if isVisData header then .ok "VIS"
  else if isIrData header then .ok "IR"
  else if isWvData header then .ok "WV"
  else .throws "Invalid Channel in OpenMTP format\n"

/-- msat/openmtp/OpenMTP.cpp:165-172 `get_chunit` -/
def getChunit (header : Bytes) : Outcome String :=
  if isVisData header then .ok "%"
  else if isIrData header then .ok "K"
  else if isWvData header then .ok "K"
  else .throws "Invalid Channel in OpenMTP format\n"

/-- The fields of `struct tm` that are set. -/
structure TM where
  tm_year : Int
  tm_mon : Int
  tm_mday : Int
  tm_hour : Int
  tm_min : Int
deriving DecidableEq, Repr

/-- msat/openmtp/OpenMTP.cpp:61-76 `get_datetime`; C division rounds towards zero; the differences do not overflow
for headers written by anybody (the years do not reach -2^31). -/
def getDatetime (header : Bytes) : TM :=
  let tmp := date header
  let tmp := tmp - tmp.tdiv 10000 * 10000
  let mon := tmp.tdiv 100 - 1
  let mday := tmp - (mon + 1) * 100
  let t := time header
  let hour := t.tdiv 100
  ⟨year header - 1900, mon, mday, hour, t - hour * 100⟩

/-- msat/openmtp/OpenMTP.cpp:98-108 `get_timestr`: `snprintf` into an array of 14 characters. -/
def getTimestr (header : Bytes) : Bytes :=
  let tmp := date header
  let tmp := tmp - tmp.tdiv 10000 * 10000
  (fmt0 4 (year header) ++ fmt0 4 tmp ++ [95] ++ fmt0 4 (time header)).take 13

/-! ### Numbers in text -/

/-- One character of a number in text, msat/openmtp/OpenMTP_machine.cpp:102-150: a space counts nothing, otherwise its
distance from '0'. -/
def digit (c : UInt8) : Int := if c = 32 then 0 else (c.toNat : Int) - 48

/-- The sum of digits times the weights of the positions. -/
def weighted : List Rat → Bytes → Outcome Rat
  | [], _ => .ok 0
  | w :: ws, c :: cs => do
    let r ← weighted ws cs
    pure (digit c * w + r)
  | _ :: _, [] => .ub

/-- msat/openmtp/OpenMTP_machine.cpp:102-116 `r4_from_char5`, exact instead of `float`. -/
def r4FromChar5 (buff : Bytes) : Outcome Rat := weighted [1/10, 1/100, 1/1000, 1/10000, 1/100000] buff
/-- msat/openmtp/OpenMTP_machine.cpp:118-128 `r4_from_char3`, exact instead of `float`. -/
def r4FromChar3 (buff : Bytes) : Outcome Rat := weighted [10, 1, 1/10] buff

/-- `tmp += x` for a `short int` -/
def addShort (tmp x : Int) : Int := (BitVec.ofInt 16 (tmp + x)).toInt

/-- msat/openmtp/OpenMTP_machine.cpp:130-140 `int4_from_char3` -/
def int4FromChar3 (buff : Bytes) : Outcome Int :=
  match buff with
  | c0 :: c1 :: c2 :: _ => .ok (addShort (addShort (addShort 0 (digit c0 * 100)) (digit c1 * 10)) (digit c2))
  | _ => .ub

/-- msat/openmtp/OpenMTP_machine.cpp:142-150 `int4_from_char2` -/
def int4FromChar2 (buff : Bytes) : Outcome Int :=
  match buff with
  | c0 :: c1 :: _ => .ok (addShort (addShort 0 (digit c0 * 10)) (digit c1))
  | _ => .ub

end Msat.Mtp
