import Verif.Model.Copy
import Verif.Lemmas.StackInv
import Verif.Props.Image
/-! What is meant by a proper image, by a copy of it and by images that are left alone. -/
set_option autoImplicit false
namespace DevIL.Copy
open DevIL.Utility

/-- The contents of a proper image: the geometry is consistent and fits into 32 bits, and every block has the length the object states. -/
structure Content.Whole (c : Content) : Prop where
  consistent : c.img.Consistent
  pos : 0 < c.img.width ∧ 0 < c.img.height ∧ 0 < c.img.depth
  type : c.img.bpc = ilGetBpcType c.img.type ∧ c.img.bpc ≠ 0
  fits : c.img.size < 2 ^ 32
  pal : ∀ p, c.pal = some p → p.length = c.palSize
  anim : ∀ a, c.anim = some a → a.length = c.animSize ∧ c.animSize ≠ 0
  profile : ∀ p, c.profile = some p → p.length = c.profileSize
  noProfile : c.profile = none → c.profileSize = 0

/-- What a copy of an image has: all its contents, but no compressed data. -/
def Content.copied (c : Content) : Content := { c with dxtc := none, dxtcFormat := IL_DXT_NO_COMP, dxtcSize := 0 }

/-- The arguments of `ilTexImage` are proper: a known type, a size that fits into 32 bits, and as many bytes. -/
def TexOk (w h d bpp type : Nat) (data : List UInt8) : Prop :=
  ilGetBpcType type ≠ 0 ∧ max w 1 * bpp * ilGetBpcType type * max h 1 * max d 1 < 2 ^ 32 ∧
  max w 1 * bpp * ilGetBpcType type * max h 1 * max d 1 ≤ data.length

/-- The arguments of a call are proper; a name that has been deleted is not bound again before `ilGenImages` has returned it again. -/
def Op.Valid (y : Sys) : Op → Prop
  | .bind n => n ∉ y.base.free
  | .change c => c.Whole
  | .tex w h d bpp _ t data => TexOk w h d bpp t data
  | .surface w h d bpp _ t data => TexOk w h d bpp t data
  | _ => True

/-- Name `n` has the same image object as before, and this object and all its sub-images have the same links and contents. -/
def Untouched (y y' : Sys) (n : Nat) : Prop :=
  ∀ q, y.base.stack[n]? = some (some q) → y'.base.stack[n]? = some (some q) ∧
    ∀ x, Stack.Reach y.base.heap q x → y'.base.heap[x]? = y.base.heap[x]? ∧ y'.cont x = y.cont x

/-- The object at `p` exists and has no sub-images. -/
def Bare (y : Sys) (p : Nat) : Prop := ∃ v, y.base.heap[p]? = some (.live ⟨v, none, none, none, none⟩)

/-- The bound image is the image of its name itself, not one of its sub-images. -/
def AtBase (y : Sys) : Prop := y.base.stack[y.base.curName]? = some y.base.cur

/-- The states a program can bring about with proper calls, and with copies of images that exist onto other images. -/
inductive Reachable (junk : Nat → UInt8) : Sys → Prop where
  | start : Reachable junk (initial junk)
  | call {y y' : Sys} (o : Op) : Reachable junk y → o.Valid y → step junk y o = .ok y' → Reachable junk y'
  | copy {y y' : Sys} {b : Bool} (src q : Nat) : Reachable junk y → AtBase y → y.base.stack[src]? = some (some q) → src ≠ y.base.curName →
      ilCopyImage junk y src = .ok (b, y') → Reachable junk y'

end DevIL.Copy
