import Verif.Model.XritOpen
import Verif.Spec.Sources
import Verif.Spec.MsatTool
import Verif.Spec.Calendar

/-
What a dataset that was opened keeps in memory, and what xRIT images are.
-/
namespace Msat.XritOpenSpec
open Msat Sources SourcesSpec XritOpen

/-- The datasets that go away when the product is closed (the product itself, if it is an image). -/
def owns : Product → List Nat
  | .image d => [d.id]
  | .reflectance _ r _ => r.owned
  | _ => []

/-- The datasets that are read when the product is. -/
def reads : Product → List Nat
  | .image d => [d.id]
  | .reflectance _ _ bands => bands.map Ref.ds
  | _ => []

/-- All the numbers in use are below the next one. -/
def Fresh (h : Heap) : Prop := ∀ i ∈ h.live, i < h.next

/-- An xRIT image of a channel: one band, with its metadata, and a date that can be read. -/
def IsImage (c : Common) (channel : Int) (d : Dataset) : Prop :=
  Has d c ∧ d.bands = [⟨some channel, true⟩] ∧ 1 ≤ channel ∧ channel ≤ 12 ∧ (Text.scanf timeFormat c.datetime).length = 6

/-- Nothing is lost: what is in memory after something was opened, or was not, is what was there before and what the product owns; and the
product reads only what it owns. -/
def NothingLost (h : Heap) : Heap × Outcome (Option Product) → Prop
  | (h', .ok (some p)) => h'.live.Perm (owns p ++ h.live) ∧ ∀ i ∈ reads p, i ∈ owns p
  | (h', .ok none) => h'.live = h.live
  | (h', .throws _) => h'.live = h.live
  | _ => False

/-- The name of the same product with another channel. -/
def channelOf (fa : Xrit.FileAccess) (chan : Bytes) : Xrit.FileAccess :=
  ⟨fa.directory, fa.resolution, fa.productid1, chan, fa.timing⟩

/-- A name that is understood: of these files, and of this product of them. -/
def Named (name : Bytes) (fa : Xrit.FileAccess) : Prop := Xrit.isValid name = true ∧ Xrit.parse name = .ok fa

/-- It ends with a letter that asks for something computed: `r` or `a`. -/
def Asks (productid2 : Bytes) : Prop := ∃ p, productid2 = p ++ str "r" ∨ productid2 = p ++ str "a"

/-- The characters of a text as bytes. -/
def bytes (s : List Char) : Bytes := s.map fun c => UInt8.ofNat c.toNat

end Msat.XritOpenSpec
