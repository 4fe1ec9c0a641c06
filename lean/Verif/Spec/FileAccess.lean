import Verif.Model.Basic

/-
Names of the files of an xRIT product, as documented in the comments of msat/xrit/fileaccess.cpp
and .h: the short name of a product and the long names of its files.
-/
namespace Msat.XritSpec

/-- `[directory/]resolution:productid1:productid2:datetime` -/
def shortName (dir res p1 p2 time : Bytes) : Bytes :=
  dir ++ str "/" ++ res ++ str ":" ++ p1 ++ str ":" ++ p2 ++ str ":" ++ time

/-- The long form without directory: eight parts joined by dashes. -/
def longName (res number sat prod1 prod2 seg time last : Bytes) : Bytes :=
  res ++ str "-" ++ number ++ str "-" ++ sat ++ str "-" ++ prod1 ++ str "-" ++ prod2 ++ str "-"
    ++ seg ++ str "-" ++ time ++ str "-" ++ last

/-- A component padded with `k` underscores. -/
def padded (x : Bytes) (k : Nat) : Bytes := x ++ List.replicate k 95

/-- A component followed by underscores up to `n` characters. -/
def paddedTo (x : Bytes) (n : Nat) : Bytes := padded x (n - x.length)

/-- `name` is the file name of a prologue (`kind` "PRO") or of an epilogue ("EPI"). -/
def IsLogue (kind : String) (res p1 time : Bytes) (name : Bytes) : Prop :=
  ∃ number sat, number.length = 3 ∧ sat.length = 6 ∧
    name = longName res number sat (paddedTo p1 12) (paddedTo [] 9) (paddedTo (str kind) 9) time
      (str "__")

/-- `name` is the file name of an image segment; the segment number has six digits, the first of
which is zero, and is padded to nine characters. -/
def IsSegment (res p1 p2 time : Bytes) (name : Bytes) : Prop :=
  ∃ number sat seg, number.length = 3 ∧ sat.length = 6 ∧ seg.length = 5 ∧
    name = longName res number sat (paddedTo p1 12) (paddedTo p2 9) (paddedTo (str "0" ++ seg) 9) time
      (str "C_")

/-- No character with a meaning in paths or in search patterns: `/ ? * [ \\`. -/
def NoSpecial (x : Bytes) : Prop := ∀ c ∈ str "/?*[\\", c ∉ x

/-- A product whose components have no special character and fit in the fields of a file name. -/
structure Plain (resolution productid1 productid2 timing : Bytes) : Prop where
  res : NoSpecial resolution
  p1 : NoSpecial productid1
  p2 : NoSpecial productid2
  time : NoSpecial timing
  fit1 : productid1.length ≤ 12
  fit2 : productid2.length ≤ 9

end Msat.XritSpec
