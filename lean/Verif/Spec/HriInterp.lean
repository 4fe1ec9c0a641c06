import Verif.Spec.HriMachine

/-
The interpretation data of an HRI file: 560 bytes of members one after the other, and 800 bytes of message.  The names, the types and the
order are those of the structures and of the reading function of msat/hri/HRI_subframe_interpretation; what they mean is that of the
METEOSAT formats.
-/
namespace Msat.HriSpec

/-- The types of the members: decimal numbers in text, with a number of characters and of decimal places; IBM numbers; integers in two's
complement, big endian; flags. -/
inductive Field where
  | text (chars places : Nat)
  | ibm8 | ibm4 | int4 | int2 | flag
deriving DecidableEq, Repr

/-- Bytes. -/
def Field.bytes : Field → Nat
  | .text n _ => n | .ibm8 => 8 | .ibm4 => 4 | .int4 => 4 | .int2 => 2 | .flag => 1

/-- What comes one after the other. -/
inductive Item where
  | member (name : String) (f : Field)
  | reserved (n : Nat)

/-- Members and reserved bytes. -/
def interpLayout : List Item :=
  [.member "cal.bbc1ir" (.text 6 3), .member "cal.bbsd1i" (.text 3 2), .member "cal.bbc1wv" (.text 6 3),
   .member "cal.bbsd1w" (.text 3 2), .member "cal.bb1t" (.text 5 2), .member "cal.bb2t" (.text 5 2), .member "cal.bbc2ir" (.text 6 3),
   .member "cal.bbsd2i" (.text 3 2), .member "cal.bbc2wv" (.text 6 3), .member "cal.bbsd2w" (.text 3 2),
   .member "cal.time1_day" (.text 3 0), .member "cal.time1_slot" (.text 2 0), .member "cal.calir" (.text 5 5),
   .member "cal.irspc" (.text 3 1), .member "cal.time2_day" (.text 3 0), .member "cal.time2_slot" (.text 2 0),
   .member "cal.calwv" (.text 5 5), .member "cal.wvspc" (.text 3 1), .member "cal.time3_day" (.text 3 0),
   .member "cal.time3_slot" (.text 2 0), .reserved 15, .member "cal.ir_gain" (.text 2 0), .member "cal.wv_gain" (.text 2 0),
   .member "cal.v1_gain" (.text 2 0), .member "cal.v2_gain" (.text 2 0), .reserved 4, .member "oper.degsra" .ibm8,
   .member "oper.degsde" .ibm8, .member "oper.degnra" .ibm8, .member "oper.degnde" .ibm8, .member "oper.finatt_x" .ibm8,
   .member "oper.finatt_y" .ibm8, .member "oper.finatt_z" .ibm8, .member "oper.farade_1" .ibm8, .member "oper.farade_2" .ibm8,
   .member "oper.nrslot" .int4, .member "oper.spndur" .ibm4, .member "oper.flecl" .flag, .member "oper.fldec" .flag,
   .member "oper.flman" .flag, .member "oper.flmode" .flag, .member "oper.flir1" .flag, .member "oper.flir2" .flag,
   .member "oper.flwv1" .flag, .member "oper.flwv2" .flag, .member "oper.flvis1" .flag, .member "oper.flvis2" .flag,
   .member "oper.flvis3" .flag, .member "oper.flvis4" .flag, .reserved 36, .member "imag.imstat_1" .flag, .member "imag.imstat_2" .flag,
   .member "imag.imstat_3" .flag, .member "imag.imstat_4" .flag, .member "imag.imstat_5" .flag, .member "imag.imstat_6" .flag,
   .member "imag.imstat_7" .flag, .member "imag.imstat_8" .flag, .member "imag.imstat_9" .flag, .member "imag.imstat_10" .flag,
   .member "imag.imstat_11" .flag, .reserved 5, .member "imag.limhor_1" .int2, .member "imag.limhor_2" .int2,
   .member "imag.limhor_3" .int2, .member "imag.limhor_4" .int2, .member "imag.limhor_5" .int2, .member "imag.limhor_6" .int2,
   .member "imag.limhor_7" .int2, .member "imag.limhor_8" .int2, .member "imag.limhor_9" .int2, .member "imag.limhor_10" .int2,
   .member "imag.limhor_11" .int2, .member "imag.limhor_12" .int2, .member "imag.satdis" .ibm8, .member "imag.sorbof_x" .ibm8,
   .member "imag.sorbof_y" .ibm8, .member "imag.sorbof_z" .ibm8, .member "imag.norbof_x" .ibm8, .member "imag.norbof_y" .ibm8,
   .member "imag.norbof_z" .ibm8, .member "imag.xddifm" .ibm4, .member "imag.yddifm" .ibm4, .member "imag.xscm" .ibm4,
   .member "imag.yscm" .ibm4, .member "imag.conds_1" .flag, .member "imag.conds_2" .flag, .member "imag.conds_3" .flag,
   .member "imag.conds_4" .flag, .member "imag.lowdyn_ir" .int2, .member "imag.lowdyn_v1" .int2, .member "imag.lowdyn_v2" .int2,
   .member "imag.lowdyn_wv" .int2, .member "imag.higdyn_ir" .int2, .member "imag.higdyn_v1" .int2, .member "imag.higdyn_v2" .int2,
   .member "imag.higdyn_wv" .int2, .member "imag.mvis1" .ibm4, .member "imag.mvis2" .ibm4, .member "imag.snnom_ir" .ibm4,
   .member "imag.snnom_v1" .ibm4, .member "imag.snnom_v2" .ibm4, .member "imag.snnom_wv" .ibm4, .member "imag.snnlin" .int4,
   .member "imag.snrep_ir" .ibm4, .member "imag.snrep_v1" .ibm4, .member "imag.snrep_v2" .ibm4, .member "imag.snrep_wv" .ibm4,
   .member "imag.snrwp_ir" .ibm4, .member "imag.snrwp_v1" .ibm4, .member "imag.snrwp_v2" .ibm4, .member "imag.snrwp_wv" .ibm4,
   .member "imag.swmnep_ir" .ibm4, .member "imag.swmnep_v1" .ibm4, .member "imag.swmnep_v2" .ibm4, .member "imag.swmnep_wv" .ibm4,
   .member "imag.swmnwp_ir" .ibm4, .member "imag.swmnwp_v1" .ibm4, .member "imag.swmnwp_v2" .ibm4, .member "imag.swmnwp_wv" .ibm4,
   .member "imag.snmxep_ir" .int2, .member "imag.snmxep_v1" .int2, .member "imag.snmxep_v2" .int2, .member "imag.snmxep_wv" .int2,
   .member "imag.snmxwp_ir" .int2, .member "imag.snmxwp_v1" .int2, .member "imag.snmxwp_v2" .int2, .member "imag.snmxwp_wv" .int2,
   .reserved 88]

/-- Where the members of a layout are, from byte `pos`. -/
def places : Nat → List Item → List (String × Nat × Field)
  | _, [] => []
  | pos, .member name f :: is => (name, pos, f) :: places (pos + f.bytes) is
  | pos, .reserved n :: is => places (pos + n) is

/-- All the bytes of a layout. -/
def layoutSize : List Item → Nat
  | [] => 0
  | .member _ f :: is => f.bytes + layoutSize is
  | .reserved n :: is => n + layoutSize is

/-- Big endian. -/
def number (bs : List UInt8) : Nat := bs.foldl (fun n b => n * 256 + b.toNat) 0

/-- Two's complement on `bits` bits. -/
def twos (bits n : Nat) : Int := if n < 2 ^ (bits - 1) then n else (n : Int) - 2 ^ bits

/-- Digits and spaces. -/
def isText (bs : List UInt8) : Prop := ∀ c ∈ bs, c = 32 ∨ (48 ≤ c.toNat ∧ c.toNat ≤ 57)

/-- The digits of a number in text; a space counts as zero. -/
def textNumber (bs : List UInt8) : Nat := bs.foldl (fun n c => n * 10 + (if c = 32 then 0 else c.toNat - 48)) 0

end Msat.HriSpec
