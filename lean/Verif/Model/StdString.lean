import Verif.Model.Basic

/-
The part of `std::string` used by the code: not code of /repo, but the C++ standard library it is
written with.  Strings are byte lists.
-/
namespace Msat.StdString

/-- `s.find(c, pos)`: index of the first `c` at or after `pos` (`none` is `npos`). -/
def find (s : Bytes) (c : UInt8) (pos : Nat) : Option Nat :=
  ((s.drop pos).findIdx? (· == c)).map (pos + ·)

/-- `s.rfind(c)`: index of the last `c`. -/
def rfind (s : Bytes) (c : UInt8) : Option Nat :=
  (s.reverse.findIdx? (· == c)).map (fun i => s.length - 1 - i)

/-- `s.substr(pos, n)` for `pos ≤ s.size()`. -/
def substr (s : Bytes) (pos n : Nat) : Bytes := (s.drop pos).take n

/-- `s.substr(pos)` for `pos ≤ s.size()`. -/
def substrFrom (s : Bytes) (pos : Nat) : Bytes := s.drop pos

/-- `s.resize(n, c)` -/
def resize (s : Bytes) (n : Nat) (c : UInt8) : Bytes := s.take n ++ List.replicate (n - s.length) c

end Msat.StdString
