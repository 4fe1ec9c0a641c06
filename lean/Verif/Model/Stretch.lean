import Mathlib.Data.Rat.Floor
import Verif.Model.Basic

/-
tools/image.cpp: conversion of an image to 8 bits.

Simplification: floating point numbers are exact rationals or NaN; infinities and rounding are not modelled.  Integer
pixels are rationals that are whole numbers.
-/
namespace Msat.Stretch
open Msat

/-- The type parameter `T`: `uint8_t`, `uint16_t`, `float` (tools/image.cpp:79, 101, 123). -/
inductive Kind where
  | byte
  | ushort
  | float
deriving DecidableEq, Repr

/-- A number; `none` is NaN. -/
abbrev Val := Option Rat

/-- `a == b`: false when one is NaN. -/
def eqv (a b : Val) : Bool :=
  match a, b with
  | some x, some y => decide (x = y)
  | _, _ => false

/-- `a < b`: false when one is NaN. -/
def lt (a b : Val) : Bool :=
  match a, b with
  | some x, some y => decide (x < y)
  | _, _ => false

/-- Number of values of an unsigned integer type. -/
def Kind.size : Kind → Int
  | .byte => 256
  | .ushort => 65536
  | .float => 0

/-- Truncation towards zero. -/
def trunc (q : Rat) : Int := if 0 ≤ q then ⌊q⌋ else ⌈q⌉

/-- Conversion of a floating point number to an unsigned type with `size` values: undefined out of range. -/
def toUnsigned (size : Int) (x : Val) : Outcome Int :=
  match x with
  | none => .ub
  | some q => if 0 ≤ trunc q ∧ trunc q < size then .ok (trunc q) else .ub

/-- Conversion of a `double` to `T`. -/
def convert (k : Kind) (x : Val) : Outcome Val :=
  match k with
  | .float => .ok x
  | _ => do
    let n ← toUnsigned k.size x
    pure (some (n : Rat))

/-- One turn of the loop of `compute_if_needed`, tools/image.cpp:29-40. -/
def minMaxStep (missing : Val) (s : Val × Val) (v : Val) : Val × Val :=
  if eqv v missing then s
  else if eqv s.1 missing then (v, v)
  else (if lt v s.1 then v else s.1, if lt s.2 v then v else s.2)

/-- `struct Stretch`, tools/image.h:35-41: `none` to compute the range. -/
abbrev Range := Option (Val × Val)

/-- tools/image.cpp:11-41 `Stretch::compute_if_needed`; `nodata` is what `GetNoDataValue` returns. -/
def computeIfNeeded (k : Kind) (r : Range) (nodata : Val) (vals : List Val) : Outcome (Val × Val) :=
  match r with
  | some (mn, mx) => do
    let vmin ← convert k mn
    let vmax ← convert k mx
    pure (vmin, vmax)
  | none => do
    let missing ← convert k nodata
    pure (vals.foldl (minMaxStep missing) (missing, missing))

/-- Conversion of a value of type `T` to `uint8_t`: modulo 256 from an integer, undefined out of range from a
`float`. -/
def toByte (k : Kind) (x : Val) : Outcome UInt8 :=
  match k with
  | .float => do
    let n ← toUnsigned 256 x
    pure (UInt8.ofNat n.toNat)
  | _ =>
    match x with
    | none => .ub
    | some q => .ok (UInt8.ofNat ((trunc q) % 256).toNat)

/-- `(v - vmin) * 255 / (vmax - vmin)`: NaN if one of them is; integer division for integer types. -/
def scaled (k : Kind) (v vmin vmax : Val) : Val :=
  match v, vmin, vmax with
  | some v, some a, some b =>
    let q := (v - a) * 255 / (b - a)
    match k with
    | .float => some q
    | _ => some (trunc q : Rat)
  | _, _, _ => none

/-- One pixel of `rescale`, tools/image.cpp:49-63. -/
def rescaleOne (k : Kind) (vmin vmax v : Val) : Outcome UInt8 :=
  if eqv vmax vmin then toByte k vmin
  else if lt v vmin then .ok 0
  else if lt vmax v then .ok 255
  else toByte k (scaled k v vmin vmax)

/-- tools/image.cpp:43-66 `Stretch::rescale` -/
def rescale (k : Kind) (vmin vmax : Val) : List Val → Outcome (List UInt8)
  | [] => .ok []
  | v :: vs => do
    let x ← rescaleOne k vmin vmax v
    let xs ← rescale k vmin vmax vs
    pure (x :: xs)

/-- tools/image.cpp:68-145 `imageToMagick`: the 8 bit pixels given to Magick. -/
def imageToMagick (k : Kind) (r : Range) (nodata : Val) (vals : List Val) : Outcome (List UInt8) := do
  let (vmin, vmax) ← computeIfNeeded k r nodata vals
  rescale k vmin vmax vals

end Msat.Stretch
