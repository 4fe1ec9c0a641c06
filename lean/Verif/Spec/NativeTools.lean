import Verif.Spec.Native
import Verif.Spec.Datetime

/-
MSG native files as a whole: the text header says which channels there are, how large they are, and where data and trailer begin.
Independent of the model.
-/
namespace Msat.NativeToolsSpec
open Msat NativeSpec
open Msat.TextSpec (digits)

/-- Blanks of texts. -/
def Blank (c : UInt8) : Prop := c = 32 ∨ (9 ≤ c ∧ c ≤ 13)

/-- An entry of the text header: a name, blanks, a colon, the value. -/
def Entry (text value : Bytes) : Prop :=
  ∃ key pad pad' tail, text = key ++ pad ++ [58] ++ pad' ++ value ++ tail ∧ key ≠ [] ∧ (∀ c ∈ key, ¬ Blank c) ∧ pad ≠ [] ∧
    (∀ c ∈ pad, c = 32) ∧ (∀ c ∈ pad', c = 32) ∧ (∀ c, tail.head? = some c → Blank c)

/-- A number in decimal digits. -/
def Number (value : Bytes) (n : Nat) : Prop := ∃ k, 1 ≤ k ∧ n < 10 ^ k ∧ value = digits k n

/-- An entry whose value is a number. -/
def Says (text : Bytes) (n : Nat) : Prop := ∃ value, Entry text value ∧ Number value n

/-- The entry of a part of the file: its size and where it begins. -/
def Locates (text : Bytes) (pos : Nat) : Prop :=
  ∃ size pad value v, Entry text (size ++ pad ++ value) ∧ Number size v ∧ pad ≠ [] ∧ (∀ c ∈ pad, c = 32) ∧ Number value pos

/-- The entry of the channels: one letter for each, `X` for those in the file. -/
def Lists (text : Bytes) (selected : Nat → Bool) : Prop :=
  ∃ word, Entry text word ∧ word.length = 12 ∧ (∀ c ∈ word, ¬ Blank c) ∧ ∀ i < 12, word[i]? = some 88 ↔ selected i = true

/-- The text header of a file of `nlines` lines of `ncols` columns, `hlines` and `hcols` for channel 11. -/
structure Describes (text : Bytes) (selected : Nat → Bool) (nlines ncols hlines hcols datapos trailerpos : Nat) : Prop where
  known : ∃ (a : List Bytes) (b : List (Bytes × Bytes)) (gap : Bytes) (c : List Bytes), text = textHeader a b gap c ∧
    a.length = 6 ∧ b.length = 5 ∧ gap.length = 1364 ∧ c.length = 37 ∧
    (∀ t ∈ a, Fits 80 t) ∧ (∀ t ∈ b, Fits 46 t.1 ∧ Fits 16 t.2) ∧ (∀ t ∈ c, Fits 80 t) ∧
    (∃ t, b[3]? = some t ∧ Locates (t.1 ++ t.2) datapos) ∧ (∃ t, b[4]? = some t ∧ Locates (t.1 ++ t.2) trailerpos) ∧
    (∃ t, c[28]? = some t ∧ Lists t selected) ∧
    (∃ t v, c[29]? = some t ∧ Says t v) ∧ (∃ t v, c[30]? = some t ∧ Says t v) ∧ (∃ t v, c[31]? = some t ∧ Says t v) ∧
    (∃ t, c[33]? = some t ∧ Says t nlines) ∧ (∃ t, c[34]? = some t ∧ Says t ncols) ∧
    (∃ t, c[35]? = some t ∧ Says t hlines) ∧ (∃ t, c[36]? = some t ∧ Says t hcols)

/-- A complete file: the text header, the level 1.5 header, the lines (`items`: channel, bytes and data of each) and the trailer where
the text header says. -/
structure NativeFile (file : Bytes) (selected : Nat → Bool) (nlines ncols hlines hcols : Nat) (items : List (Nat × Bytes × Bytes)) :
    Prop where
  complete : ∃ (text pk l15 more : Bytes) (datapos trailerpos : Nat), file = text ++ pk ++ l15 ++ more ∧
    Describes text selected nlines ncols hlines hcols datapos trailerpos ∧ Announces pk l15.length ∧ l15.length = 445248 ∧
    (∃ tpk t15 more', file.drop trailerpos = tpk ++ t15 ++ more' ∧ Announces tpk t15.length ∧ t15.length = 380325) ∧
    (∃ more'', file.drop datapos = items.flatMap (·.2.1) ++ more'')
  order : items.map (·.1) = imageOrder selected nlines
  lines : ∀ x ∈ items, LineBytes x.2.1 x.2.2
  small : nlines < 2 ^ 31 ∧ ncols < 2 ^ 31 ∧ hlines < 2 ^ 31 ∧ hcols < 2 ^ 31

end Msat.NativeToolsSpec
