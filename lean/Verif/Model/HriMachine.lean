import Verif.Model.Basic

/-
msat/hri/HRI_machine.cpp: integers and IBM floating point numbers of HRI files.

The platform is a parameter where it matters: `isbig` is the byte order found by the constructor, `longSize`
is `sizeof(unsigned long)`.  The value of the IEEE number is the bit pattern the code builds.
-/
namespace Msat.Hri

/-- Value of an unsigned integer in memory, `isbig` the byte order of the machine. -/
def load (isbig : Bool) (mem : Bytes) : Nat :=
  (if isbig then mem else mem.reverse).foldl (fun a b => a * 256 + b.toNat) 0

/-- msat/hri/HRI_machine.cpp:32-44: word.byte[3] = 1 and the word is 1 on a big endian machine. -/
def detectBig (isbig : Bool) : Bool := load isbig [0, 0, 0, 1] == 1

/-- msat/hri/HRI_machine.cpp:311-326 `i2_from_buff`; `machine` is the byte order of the machine. -/
def i2FromBuff (machine : Bool) (buff : Bytes) : Outcome Int :=
  match buff with
  | b0 :: b1 :: _ =>
    let c := if detectBig machine then [b0, b1] else [b1, b0]
    let v := load machine c
    .ok (if v < 2 ^ 15 then v else v - 2 ^ 16)
  | _ => .ub

/-- msat/hri/HRI_machine.cpp:328-347 `i4_from_buff` -/
def i4FromBuff (machine : Bool) (buff : Bytes) : Outcome Int :=
  match buff with
  | b0 :: b1 :: b2 :: b3 :: _ =>
    let c := if detectBig machine then [b0, b1, b2, b3] else [b3, b2, b1, b0]
    let v := load machine c
    .ok (if v < 2 ^ 31 then v else v - 2 ^ 32)
  | _ => .ub

/-- `while ((fraction & bit) == 0) { fraction <<= 1; exponent -= 1; }`, msat/hri/HRI_machine.cpp:214-221 with
`bit = 2^23`.  Called with a fraction that is not zero and less than `2 * bit`: the other cases do not happen,
and only serve to make the function total. -/
def normalise (bit : Nat) (fraction : Nat) (exponent : Int) : Nat × Int :=
  if fraction &&& bit ≠ 0 ∨ fraction = 0 ∨ 2 * bit ≤ fraction then (fraction, exponent)
  else normalise bit (fraction <<< 1) (exponent - 1)
termination_by 2 * bit - fraction
decreasing_by
  rename_i h
  rw [Nat.shiftLeft_eq]
  omega

/-- `exponent <<= 2` for positive and negative exponents, msat/hri/HRI_machine.cpp:208-211. -/
def timesFour (exponent : Int) : Int := if 0 ≤ exponent then exponent * 4 else -((-exponent) * 4)

/-- msat/hri/HRI_machine.cpp:201-231: the bits of the `float` made from the value of `pnt[0]`.  The bits of
`pnt[0]` above the 32nd (there are some when `unsigned long` has 64) are only masked out. -/
def r4Bits (w : Nat) : Nat :=
  if w &&& 0x7FFFFFFF = 0 then w % 2 ^ 32
  else
    let sign := w &&& 0x80000000
    let exponent : Int := ((w &&& 0x7F000000) >>> 24 : Nat) - 64
    let fraction := w &&& 0x00FFFFFF
    let exponent := timesFour exponent - 1
    let (fraction, exponent) := if fraction ≠ 0 then normalise 0x00800000 fraction exponent else (fraction, exponent)
    let fraction := fraction &&& 0x007FFFFF
    let exponent := exponent + 127
    if 255 ≤ exponent then sign ||| 0x7F7FFFFF
    else if exponent ≤ 0 then sign
    else sign ||| (exponent.toNat <<< 23) ||| fraction

/-- msat/hri/HRI_machine.cpp:180-232 `r4_from_buff`: `pnt[0]` is read from an array of four bytes. -/
def r4FromBuff (longSize : Nat) (machine : Bool) (buff : Bytes) : Outcome Nat :=
  match buff with
  | b0 :: b1 :: b2 :: b3 :: rest =>
    if detectBig machine then
      -- `pnt` points into the buffer itself
      if longSize ≤ 4 + rest.length then .ok (r4Bits (load machine ((b0 :: b1 :: b2 :: b3 :: rest).take longSize)))
      else .ub
    else if longSize ≤ 4 then .ok (r4Bits (load machine [b3, b2, b1, b0]))
    else .ub
  | _ => .ub

/-- msat/hri/HRI_machine.cpp:144-160 `leftshift(fraction, 1)` on two 32 bit words. -/
def leftshift (hi lo : Nat) : Nat × Nat := (((hi <<< 1) ||| ((lo >>> 31) &&& 1)) % 2 ^ 32, (lo <<< 1) % 2 ^ 32)

/-- msat/hri/HRI_machine.cpp:162-178 `rightshift(fraction, n)` on two 32 bit words. -/
def rightshift (hi lo : Nat) : Nat → Nat × Nat
  | 0 => (hi, lo)
  | n + 1 => rightshift (hi >>> 1) (((hi <<< 31) ||| ((lo >>> 1) &&& 0x7FFFFFFF)) % 2 ^ 32) n

/-- msat/hri/HRI_machine.cpp:281-288.  As `normalise`: only called with `0 < hi < 2^24`. -/
def normalise2 (hi lo : Nat) (exponent : Int) : (Nat × Nat) × Int :=
  if hi &&& 0x01000000 ≠ 0 ∨ hi = 0 ∨ 0x02000000 ≤ hi then ((hi, lo), exponent)
  else normalise2 (leftshift hi lo).1 (leftshift hi lo).2 (exponent - 1)
termination_by 0x02000000 - hi
decreasing_by
  rename_i h
  have h1 : hi <<< 1 < 2 ^ 26 := by rw [Nat.shiftLeft_eq]; omega
  have h2 : (lo >>> 31) &&& 1 < 2 ^ 26 := Nat.lt_of_le_of_lt Nat.and_le_right (by decide)
  have h3 := Nat.or_lt_two_pow h1 h2
  have h4 : hi <<< 1 ≤ (hi <<< 1) ||| ((lo >>> 31) &&& 1) := Nat.left_le_or
  have _h5 : hi <<< 1 = hi * 2 := by rw [Nat.shiftLeft_eq]
  simp only [leftshift]
  rw [Nat.mod_eq_of_lt (by omega)]
  omega

/-- msat/hri/HRI_machine.cpp:263-308 with `unsigned long` of 32 bits: the high and the low word of the
`double` made from the two words `pnt[0]` and `pnt[1]`. -/
def r8Bits (w0 w1 : Nat) : Nat × Nat :=
  if w0 &&& 0x7FFFFFFF = 0 then (w0, w1)
  else
    let sign := w0 &&& 0x80000000
    let exponent : Int := ((w0 &&& 0x7F000000) >>> 24 : Nat) - 64
    let hi := w0 &&& 0x00FFFFFF
    let lo := w1
    let exponent := timesFour exponent
    let ((hi, lo), exponent) := if hi ≠ 0 then normalise2 hi lo exponent else ((hi, lo), exponent)
    let (hi, lo) := rightshift hi lo 4
    let hi := hi &&& 0x000FFFFF
    let exponent := exponent + 1023
    if 2047 ≤ exponent then (sign ||| 0X7FEFFFFF, 0xFFFFFFFF)
    else if exponent ≤ 0 then (sign, 0)
    else (sign ||| (exponent.toNat <<< 20) ||| hi, lo)

/-- msat/hri/HRI_machine.cpp:234-309 `r8_from_buff`: `pnt[0]` and `pnt[1]` are read from an array of eight
bytes; the result is the bit pattern of the double. -/
def r8FromBuff (longSize : Nat) (machine : Bool) (buff : Bytes) : Outcome Nat :=
  match buff with
  | b0 :: b1 :: b2 :: b3 :: b4 :: b5 :: b6 :: b7 :: _ =>
    if longSize = 4 then
      let (h, l) := if detectBig machine
        then r8Bits (load machine [b0, b1, b2, b3]) (load machine [b4, b5, b6, b7])
        else r8Bits (load machine [b3, b2, b1, b0]) (load machine [b7, b6, b5, b4])
      .ok (h * 2 ^ 32 + l)
    else .ub
  | _ => .ub

/-! ### Numbers in text -/

/-- One character of a number in text: a space counts nothing, otherwise its distance from '0'
(msat/hri/HRI_machine.cpp:48-142); `char` is signed. -/
def digit (c : UInt8) : Int :=
  if c = 32 then 0 else (if c.toNat < 128 then (c.toNat : Int) else (c.toNat : Int) - 256) - 48

/-- The sum of digits times the weights of the positions. -/
def weighted : List Rat → Bytes → Outcome Rat
  | [], _ => .ok 0
  | w :: ws, c :: cs => do
    let r ← weighted ws cs
    pure (digit c * w + r)
  | _ :: _, [] => .ub

/-- msat/hri/HRI_machine.cpp:48-64 `r4_from_char6`, exact instead of `float`. -/
def r4FromChar6 (buff : Bytes) : Outcome Rat := weighted [100, 10, 1, 1/10, 1/100, 1/1000] buff
/-- msat/hri/HRI_machine.cpp:66-76 `r4_from_char3` -/
def r4FromChar3 (buff : Bytes) : Outcome Rat := weighted [1, 1/10, 1/100] buff
/-- msat/hri/HRI_machine.cpp:78-88 `r4f_from_char3` -/
def r4fFromChar3 (buff : Bytes) : Outcome Rat := weighted [10, 1, 1/10] buff
/-- msat/hri/HRI_machine.cpp:90-104 `r4_from_char5` -/
def r4FromChar5 (buff : Bytes) : Outcome Rat := weighted [100, 10, 1, 1/10, 1/100] buff
/-- msat/hri/HRI_machine.cpp:106-116 `i2_from_char3` -/
def i2FromChar3 (buff : Bytes) : Outcome Rat := weighted [100, 10, 1] buff
/-- msat/hri/HRI_machine.cpp:118-126 `i2_from_char2` -/
def i2FromChar2 (buff : Bytes) : Outcome Rat := weighted [10, 1] buff
/-- msat/hri/HRI_machine.cpp:128-142 `r4f_from_char5` -/
def r4fFromChar5 (buff : Bytes) : Outcome Rat := weighted [1/10, 1/100, 1/1000, 1/10000, 1/100000] buff

end Msat.Hri
