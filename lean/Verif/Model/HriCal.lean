import Mathlib.Analysis.SpecialFunctions.Log.Basic
import Verif.Model.HriFile

/-
msat/hri/HRI_image.cpp and HRI.cpp: calibration of HRI images.

Numbers are real: the rounding of `float` is not modelled.  `none` is a result that is not a finite number.
-/
namespace Msat.Hri
open Msat

/-- msat/hri/HRI_image.cpp:392-424 `gms_ir_cal`, in hundredths. -/
def gmsIr : List Nat :=
  [13000, 13000, 13000, 13000, 13000, 13000, 13000, 13000, 13000, 13000, 13000, 13000, 13000, 13000, 13419, 14765, 15573, 16175, 16662,
   17077, 17440, 17764, 18047, 18318, 18570, 18805, 19026, 19235, 19433, 19622, 19803, 19976, 20142, 20302, 20457, 20607, 20752, 20892,
   21029, 21162, 21291, 21417, 21540, 21660, 21778, 21892, 22005, 22115, 22223, 22329, 22433, 22535, 22635, 22733, 22830, 22926, 23020,
   23112, 23203, 23293, 23381, 23468, 23554, 23639, 23723, 23806, 23887, 23968, 24048, 24127, 24205, 24282, 24358, 24433, 24508, 24581,
   24654, 24726, 24798, 24869, 24939, 25008, 25077, 25146, 25213, 25280, 25347, 25412, 25478, 25542, 25607, 25670, 25733, 25796, 25858,
   25920, 25981, 26042, 26103, 26162, 26222, 26281, 26340, 26398, 26456, 26513, 26570, 26627, 26683, 26739, 26795, 26850, 26905, 26960,
   27014, 27068, 27121, 27175, 27228, 27280, 27333, 27385, 27437, 27488, 27539, 27590, 27641, 27692, 27742, 27792, 27841, 27891, 27940,
   27989, 28037, 28086, 28134, 28182, 28230, 28277, 28324, 28371, 28418, 28465, 28511, 28558, 28604, 28649, 28695, 28740, 28786, 28831,
   28875, 28920, 28965, 29009, 29053, 29097, 29141, 29184, 29228, 29271, 29314, 29357, 29399, 29442, 29484, 29527, 29569, 29611, 29652,
   29694, 29736, 29777, 29818, 29859, 29900, 29941, 29981, 30022, 30062, 30102, 30142, 30182, 30222, 30262, 30301, 30341, 30380, 30419,
   30458, 30497, 30536, 30574, 30613, 30651, 30690, 30728, 30766, 30804, 30842, 30879, 30917, 30954, 30992, 31029, 31066, 31103, 31140,
   31177, 31214, 31251, 31287, 31324, 31360, 31396, 31432, 31468, 31504, 31540, 31576, 31612, 31647, 31683, 31718, 31753, 31788, 31824,
   31859, 31894, 31928, 31963, 31998, 32032, 32067, 32101, 32136, 32170, 32204, 32238, 32272, 32306, 32340, 32374, 32407, 32441, 32474,
   32508, 32541, 32575, 32608, 32641, 32674, 32707, 32740, 32773]

/-- msat/hri/HRI_image.cpp:425-462 `gms_vh_cal`, in millionths. -/
def gmsVh : List Nat :=
  [0, 0, 0, 0, 252, 252, 252, 252, 1008, 1008, 1008, 1008, 2268, 2268, 2268, 2268, 4031, 4031, 4031, 4031, 6299, 6299, 6299, 6299, 9070,
   9070, 9070, 9070, 12346, 12346, 12346, 12346, 16125, 16125, 16125, 16125, 20408, 20408, 20408, 20408, 25195, 25195, 25195, 25195,
   30486, 30486, 30486, 30486, 36281, 36281, 36281, 36281, 42580, 42580, 42580, 42580, 49383, 49383, 49383, 49383, 56689, 56689, 56689,
   56689, 64500, 64500, 64500, 64500, 72814, 72814, 72814, 72814, 81633, 81633, 81633, 81633, 90955, 90955, 90955, 90955, 100781, 100781,
   100781, 100781, 111111, 111111, 111111, 111111, 121945, 121945, 121945, 121945, 133283, 133283, 133283, 133283, 145125, 145125,
   145125, 145125, 157470, 157470, 157470, 157470, 170320, 170320, 170320, 170320, 183673, 183673, 183673, 183673, 197531, 197531,
   197531, 197531, 211892, 211892, 211892, 211892, 226757, 226757, 226757, 226757, 242126, 242126, 242126, 242126, 258000, 258000,
   258000, 258000, 274376, 274376, 274376, 274376, 291257, 291257, 291257, 291257, 308642, 308642, 308642, 308642, 326531, 326531,
   326531, 326531, 344923, 344923, 344923, 344923, 363820, 363820, 363820, 363820, 383220, 383220, 383220, 383220, 403124, 403124,
   403124, 403124, 423532, 423532, 423532, 423532, 444444, 444444, 444444, 444444, 465860, 465860, 465860, 465860, 487780, 487780,
   487780, 487780, 510204, 510204, 510204, 510204, 533132, 533132, 533132, 533132, 556563, 556563, 556563, 556563, 580499, 580499,
   580499, 580499, 604938, 604938, 604938, 604938, 629882, 629882, 629882, 629882, 655329, 655329, 655329, 655329, 681280, 681280,
   681280, 681280, 707735, 707735, 707735, 707735, 734694, 734694, 734694, 734694, 762157, 762157, 762157, 762157, 790123, 790123,
   790123, 790123, 818594, 818594, 818594, 818594, 847569, 847569, 847569, 847569, 877047, 877047, 877047, 877047, 907029, 907029,
   907029, 907029, 937516, 937516, 937516, 937516, 968506, 968506, 968506, 968506, 1000000, 1000000, 1000000, 1000000]

/-- msat/hri/HRI_image.cpp:356-357 and the like: `rad`. -/
noncomputable def radOf (cc sc : ℝ) (i : ℕ) : ℝ := if (i : ℝ) < sc then 0 else cc * (i - sc)

/-- msat/hri/HRI_image.cpp:358 and the like: `-a/(log(rad) - b)`.  The logarithm of zero is minus infinity, and the quotient zero; that of
a negative number is not a number. -/
noncomputable def planck (a b rad : ℝ) : Option ℝ :=
  if rad = 0 then some 0 else if rad < 0 then none else if Real.log rad = b then none else some (-a / (Real.log rad - b))

/-- msat/hri/HRI_image.cpp:336-546 `get_calibration`: entry `i` of the table, `i < 256`.  `coeff` is `none` if `calibrated` is false; the
members of `calc` are not used then but by the INDOX tables, which set them. -/
noncomputable def calibration (sat : Sat) (band : Band) (coeff : Option (ℝ × ℝ)) (i : ℕ) : Option ℝ :=
  match sat, band with
  | .METEOSAT, .IR => match coeff with
    | some (cc, sc) => planck 1255.5465 6.9618 (radOf cc sc i)
    | none => some 1
  | .METEOSAT, .WV => match coeff with
    | some (cc, sc) => planck 2233.4882 9.2477 (radOf cc sc i)
    | none => some 1
  | .METEOSAT, .VIS => some (100 * (i / 255))
  | .METEOSAT, .VH => some (100 * (i / 255))
  | .GOES_E, .IR => if i < 79 then some (163 + i) else some ((i + 405) / 2)
  | .GOES_W, .IR => some (i / 255 * (318.1 - 159.1) + 159.1)
  | .GMS, .IR => some ((gmsIr.getD i 0 : ℝ) / 100)
  | .INDOX, .IR => let (cc, sc) := coeff.getD (0.074, 5)
    planck 1272.2 6.7348 (radOf cc sc i)
  | .INDOX, .WV => let (cc, sc) := coeff.getD (0.0078, 6)
    planck 2264.9 9.1124 (radOf cc sc i)
  | .GOES_E, .VH => some (100 * (i / 255))
  | .GOES_W, .VH => some (100 * (i / 255))
  | .INDOX, .VH => some (100 * (i / 255))
  | .GMS, .VH => some ((gmsVh.getD i 0 : ℝ) / 1000000)
  | _, _ => some 1

/-- msat/hri/HRI_image.cpp:61-248 `set_format_band`: `units`. -/
def unitsOf : Band → String
  | .IR => "K" | .WV => "K" | .VIS => "%" | .VH => "%"

/-- msat/hri/HRI.cpp:128-359: the satellite of the images. -/
def satOf (code : List Char) (ident : Ident) : Sat :=
  if code = ['X', 'I'] ∨ code = ['X', 'W'] ∨ code = ['X', 'V', 'H'] then
    if ident.isGOES_E then .GOES_E
    else if ident.isGOES_W then .GOES_W
    else if ident.isGMS then .GMS
    else .INDOX
  else .METEOSAT

/-- Where the coefficients given to `set_calibration` come from: two members of the interpretation data, or a variable that has not been
set. -/
inductive Coeff where
  | of (cc sc : String)
  | unset
deriving DecidableEq, Repr

/-- `calir` and `irspc` -/
def Coeff.ir : Coeff := .of "cal.calir" "cal.irspc"
/-- `calwv` and `wvspc` -/
def Coeff.wv : Coeff := .of "cal.calwv" "cal.wvspc"

/-- msat/hri/HRI.cpp:149, 165-167, 183-185, 205-210, 230-232, 248-250, 278-280, 300-305, 326-328, 349, 370-372: the calls of
`set_calibration`, image by image; `none` if there is none. -/
def coeffsOf (code : List Char) : List (Option Coeff) :=
  if code = ['A', 'V'] then [some .unset]
  else if code = ['A', 'V', 'H'] then [some .wv]
  else if code = ['A', 'W'] then [some .wv]
  else if code = ['A', 'I', 'W'] then [some .ir, some .wv]
  else if code = ['A', 'I', 'V', 'H'] then [some .ir, none]
  else if code = ['B', 'W'] then [some .wv]
  else if code = ['B', 'I', 'V'] ∨ code = ['B', 'I', 'V', 'H'] then [some .ir, none]
  else if code = ['B', 'I', 'W'] then [some .ir, some .wv]
  else if code = ['X', 'I'] then [some .ir]
  else if code = ['X', 'W'] then [some .unset]
  else if code = ['X', 'V', 'H'] then [some .wv]
  else []

/-- The number a member of the interpretation data has. -/
noncomputable def numberOf (vs : List (String × Value)) (name : String) : ℝ :=
  match vs.lookup name with
  | some (.num v) => v
  | _ => 0

/-- Entry `i` of the calibration table of image `k`, after `readfrom` by an object that had not read anything before; `garbage` is what is
in the two members of the variable that is not set. -/
noncomputable def calibrationOf (garbage : ℝ × ℝ) (code : List Char) (ident : Ident) (vs : List (String × Value)) (k : ℕ) (band : Band) (i : ℕ) :
    Option ℝ :=
  calibration (satOf code ident) band
    (((coeffsOf code).getD k none).map fun
      | .of cc sc => (numberOf vs cc, numberOf vs sc)
      | .unset => garbage) i

/-- Entry `i` of what `get_calibration` gives for image `k` of a file that was read. -/
noncomputable def File.table (garbage : ℝ × ℝ) (F : File) (k i : ℕ) : Outcome (Option ℝ) := do
  let code ← F.label.formatCode
  let images ← imagesOf code
  match images[k]? with
  | some (_, band) => pure (calibrationOf garbage code F.ident F.interp.1 k band i)
  | none => .ub

end Msat.Hri
