import Verif.Lemmas.Layout
import Verif.Spec.Prologue

namespace Msat.Layout

/-- A `read_from` reads exactly the fields of a layout and returns its size. -/
def Agrees (f : ReadFrom) (l : Lay) : Prop := ∀ b, f b = (l.reads b, l.size)

theorem loop_get (n : Nat) (P : Nat → Path) (k : Kind) (o : Nat → Nat) (b p : Nat) :
    loop n (fun j => get (P j) k (o j)) b p
      = ((List.range n).flatMap fun j => [⟨P j, b + p + o j, k⟩], p) := by
  induction n with
  | zero => rfl
  | succ n ih =>
    simp only [loop, ih, get, List.range_succ, List.flatMap_append, List.flatMap_cons,
      List.flatMap_nil, List.append_nil]

theorem loop_loop_get (n m : Nat) (P : Nat → Nat → Path) (k : Kind) (o : Nat → Nat → Nat) (b p : Nat) :
    loop n (fun i => loop m fun j => get (P i j) k (o i j)) b p
      = ((List.range n).flatMap fun i => (List.range m).flatMap fun j =>
          [⟨P i j, b + p + o i j, k⟩], p) := by
  induction n with
  | zero => rfl
  | succ n ih =>
    simp only [loop, ih, loop_get, List.range_succ, List.flatMap_append, List.flatMap_cons,
      List.flatMap_nil, List.append_nil]

theorem loop_loop_loop_get (n m q : Nat) (P : Nat → Nat → Nat → Path) (k : Kind)
    (o : Nat → Nat → Nat → Nat) (b p : Nat) :
    loop n (fun i => loop m fun j => loop q fun l => get (P i j l) k (o i j l)) b p
      = ((List.range n).flatMap fun i => (List.range m).flatMap fun j =>
          (List.range q).flatMap fun l => [⟨P i j l, b + p + o i j l, k⟩], p) := by
  induction n with
  | zero => rfl
  | succ n ih =>
    simp only [loop, ih, loop_loop_get, List.range_succ, List.flatMap_append, List.flatMap_cons,
      List.flatMap_nil, List.append_nil]

theorem loop_pure (n : Nat) (body : Nat → Stmt) (R : Nat → Nat → Nat → List Read)
    (h : ∀ i b p, body i b p = (R i b p, p)) (b p : Nat) :
    loop n body b p = ((List.range n).flatMap fun i => R i b p, p) := by
  induction n with
  | zero => rfl
  | succ n ih =>
    simp only [loop, ih, h, List.range_succ, List.flatMap_append, List.flatMap_cons,
      List.flatMap_nil, List.append_nil]

theorem loop_call {f : ReadFrom} {l : Lay} (h : Agrees f l) (n : Nat) (P : Nat → Path) (b p : Nat) :
    loop n (fun j => call (P j) f) b p
      = ((List.range n).flatMap fun j => (l.reads (b + p + j * l.size)).map (Read.under (P j)),
          p + n * l.size) := by
  induction n with
  | zero => simp [loop]
  | succ n ih =>
    simp only [loop, ih, call, h _, List.range_succ, List.flatMap_append, List.flatMap_cons,
      List.flatMap_nil, List.append_nil, Nat.succ_mul, Nat.add_assoc]

theorem call_eq {f : ReadFrom} {l : Lay} (h : Agrees f l) (P : Path) (b p : Nat) :
    call P f b p = ((l.reads (b + p)).map (Read.under P), p + l.size) := by
  simp only [call, h _]

theorem under_prim (P : Path) (k : Kind) (b : Nat) :
    ((Lay.prim k).reads b).map (Read.under P) = [⟨P, b, k⟩] := by
  simp [Lay.reads, Read.under]

theorem under_arr (P : Path) (l : Lay) (n b : Nat) :
    ((Lay.arr n l).reads b).map (Read.under P)
      = (List.range n).flatMap fun j => (l.reads (b + j * l.size)).map (Read.under (P ++ [.i j])) := by
  simp only [Lay.reads, List.map_flatMap, List.map_map]
  congr 1; funext j; congr 1; funext r
  simp [Read.under]

theorem reads_field (nm : String) (l rest : Lay) (b : Nat) :
    (Lay.field nm l rest).reads b = (l.reads b).map (Read.under [.f nm]) ++ rest.reads (b + l.size) := rfl
theorem reads_skip (n : Nat) (rest : Lay) (b : Nat) : (Lay.skip n rest).reads b = rest.reads (b + n) := rfl
theorem reads_done (b : Nat) : Lay.done.reads b = [] := rfl
theorem size_prim (k : Kind) : (Lay.prim k).size = k.width := rfl
theorem size_arr (n : Nat) (l : Lay) : (Lay.arr n l).size = n * l.size := rfl
theorem size_field (nm : String) (l rest : Lay) : (Lay.field nm l rest).size = l.size + rest.size := rfl
theorem size_skip (n : Nat) (rest : Lay) : (Lay.skip n rest).size = n + rest.size := rfl
theorem size_done : Lay.done.size = 0 := rfl

/-- Symbolic execution of a `read_from` body against a layout. -/
macro "agree" "[" xs:Lean.Parser.Tactic.simpLemma,* "]" : tactic =>
  `(tactic| simp -implicitDefEqProofs only [body, bodyRet, block, loop_loop_loop_get, loop_loop_get, loop_get, get, adv,
    Lay.struct, fields, under_prim, under_arr,
    reads_field, reads_skip, reads_done, size_prim, size_arr, size_field, size_skip,
    size_done, Kind.width, List.append_nil, List.nil_append, List.cons_append, Nat.add_zero, Nat.zero_add,
    Nat.add_assoc, Nat.reduceAdd, Nat.reduceMul, u1, flag, u2, u4, i4, r4, r8, t6, t8, t10, cuc, gtime, raw,
    Nat.add_mul, Nat.mul_assoc, Nat.mul_one, $xs,*])

end Msat.Layout
