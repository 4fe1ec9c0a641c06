import Verif.Spec.Ini

/-
What an INI file means (C62): a document is a list of items, with the freedom that its author has in writing
them down.
-/
namespace Msat.IniSpec

inductive Item where
  /-- a line without anything but blanks -/
  | blank (ws : Bytes)
  /-- `; text` or `# text` -/
  | comment (ws : Bytes) (mark : UInt8) (text : Bytes)
  /-- `[name]`, anything may follow -/
  | sec (ws name after : Bytes)
  /-- `key = value`, a comment may follow -/
  | plain (ws key ws1 ws2 val ws3 : Bytes) (remark : Option (UInt8 × Bytes))
  /-- `key = "value"` or `key = 'value'`, anything may follow -/
  | quoted (ws key ws1 ws2 : Bytes) (quote : UInt8) (val after : Bytes)

def quotes : List UInt8 := [34, 39]
def marks : List UInt8 := [59, 35]

/-- A comment after a value. -/
def remarkText : Option (UInt8 × Bytes) → Bytes
  | none => []
  | some (m, t) => m :: t

/-- A line of the file, without its newline. -/
def Item.text : Item → Bytes
  | .blank ws => ws
  | .comment ws m t => ws ++ m :: t
  | .sec ws n a => ws ++ 91 :: (n ++ 93 :: a)
  | .plain ws k w1 w2 v w3 r => ws ++ (k ++ (w1 ++ 61 :: (w2 ++ (v ++ (w3 ++ remarkText r)))))
  | .quoted ws k w1 w2 q v a => ws ++ (k ++ (w1 ++ 61 :: (w2 ++ q :: (v ++ q :: a))))

/-- Blanks inside of a line. -/
def IsBlanks (ws : Bytes) : Prop := ∀ c ∈ ws, c = 32 ∨ c = 9 ∨ c = 11 ∨ c = 12 ∨ c = 13

/-- A text that does not start or end with a blank and is not empty. -/
def Neat (t : Bytes) : Prop :=
  (∃ c r, t = c :: r ∧ ¬ IsBlanks [c]) ∧ (∃ c r, t = r ++ [c] ∧ ¬ IsBlanks [c])

/-- What has to be observed. -/
def Item.Ok : Item → Prop
  | .blank ws => IsBlanks ws
  | .comment ws m _ => IsBlanks ws ∧ m ∈ marks
  | .sec ws n _ => IsBlanks ws ∧ n ≠ [] ∧ 93 ∉ n
  | .plain ws k w1 w2 v w3 r => IsBlanks ws ∧ IsBlanks w1 ∧ IsBlanks w2 ∧ IsBlanks w3 ∧ Neat k ∧ 61 ∉ k ∧
      k.head? ∉ [some 91, some 59, some 35] ∧ Neat v ∧ 59 ∉ v ∧ 35 ∉ v ∧ v.head? ∉ [some 34, some 39] ∧
      (∀ m t, r = some (m, t) → m ∈ marks)
  | .quoted ws k w1 w2 q v _ => IsBlanks ws ∧ IsBlanks w1 ∧ IsBlanks w2 ∧ Neat k ∧ 61 ∉ k ∧
      k.head? ∉ [some 91, some 59, some 35] ∧ q ∈ quotes ∧ q ∉ v ∧ v ≠ [] ∧
      (∃ c r, v = r ++ [c] ∧ ¬ IsBlanks [c]) ∧ v ≠ [34, 34] ∧ v ≠ [39, 39]

/-- A line of a file: no newline, no NUL, not too long. -/
def Item.Line (i : Item) : Prop := 10 ∉ i.text ∧ 0 ∉ i.text ∧ i.text.length ≤ 1022

/-- The file. -/
def render (doc : List Item) : Bytes := doc.flatMap fun i => i.text ++ [10]

/-- The entries that the document makes, `cur` being the current section: names and keys without case; every
key belongs to the last section before it. -/
def entries (cur : Bytes) : List Item → List Op
  | [] => []
  | .blank _ :: is => entries cur is
  | .comment _ _ _ :: is => entries cur is
  | .sec _ n _ :: is => .set (n.map fold) none :: entries (n.map fold) is
  | .plain _ k _ _ v _ _ :: is => .set (cur ++ [58] ++ k.map fold) (some v) :: entries cur is
  | .quoted _ k _ _ _ v _ :: is => .set (cur ++ [58] ++ k.map fold) (some v) :: entries cur is

end Msat.IniSpec
