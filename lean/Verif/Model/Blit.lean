import Verif.Model.Manip
/-! Model of `ilBlit` and `ilOverlayImage`, DevIL/src-IL/src/il_devil.cpp. -/
set_option autoImplicit false
namespace DevIL.Blit
open DevIL.Utility DevIL.Manip

/-- `(z+DestZ)*Dest->SizeOfPlane + (y+DestY)*Dest->Bps + (x+DestX)*Dest->Bpp + c` in 32 bits (il_devil.cpp:811, 861). -/
def destIdx (m : Img) (dx dy dz : Int) (z y x c : Nat) : Nat :=
  toU32 (((z : Int) + dz) * m.plane + ((y : Int) + dy) * m.bps + ((x : Int) + dx) * m.bpp + c)

/-- `(z+SrcZ)*ConvSizePlane + (y+SrcY)*ConvBps + (x+SrcX)*Dest->Bpp + c` in 32 bits (il_devil.cpp:810, 860). -/
def srcIdx (bpp bps plane sx sy sz : Nat) (z y x c : Nat) : Nat := u32 ((z + sz) * plane + (y + sy) * bps + (x + sx) * bpp + c)

/-- `if (Width + DestX > Dest->Width) Width = Dest->Width - DestX`, il_devil.cpp:801-803, unsigned. -/
def limit (n : Nat) (off : Int) (size : Nat) : Nat := if toU32 ((n : Int) + off) > size then toU32 ((size : Int) - off) else n

/-- Reading the alpha of a source pixel, il_devil.cpp:812-834: the element with the index `AlphaIdx` of the component type; its last
byte stands for it.  `IL_HALF` has no case. -/
def readAlpha (m : Img) (cv : List UInt8) (i : Nat) : C UInt8 :=
  if m.type = IL_HALF then pure 0 else rd cv (i * m.bpc + (m.bpc - 1))

/-- The loops of `ilBlit`, il_devil.cpp:805-867.  `alpha` says whether the source format has alpha; `blend` is `IL_BLIT_BLEND`, as
the function of the source component, its alpha and the old component that the floating-point arithmetic computes.  `ilIsEnabled`
is constant during the call. -/
def blitLoops (blend : Option (UInt8 → UInt8 → UInt8 → UInt8)) (alpha : Bool) (m : Img) (cv : List UInt8) (bps plane : Nat)
    (dx dy dz : Int) (sx sy sz w h d : Nat) : C (List UInt8) :=
  if alpha then
    loopN d (fun z b => loopN h (fun y b => loopN w (fun x b => do
      let a ← readAlpha m cv (u32 (srcIdx m.bpp bps plane sx sy sz z y x 0 + toU32 ((m.bpp : Int) - 1)))
      match blend with
      | some f => loopN (m.bpp - 1) (fun c b => do
          let s ← rd cv (srcIdx m.bpp bps plane sx sy sz z y x c)
          let o ← rd b (destIdx m dx dy dz z y x c)
          wr b (destIdx m dx dy dz z y x c) (f s a o)) b
      | none => loopN m.bpp (fun c b => do
          let s ← rd cv (srcIdx m.bpp bps plane sx sy sz z y x c)
          wr b (destIdx m dx dy dz z y x c) s) b) b) b) m.data
  else
    loopN d (fun z b => loopN h (fun y b => loopN w (fun x b => loopN m.bpp (fun c b => do
      let s ← rd cv (srcIdx m.bpp bps plane sx sy sz z y x c)
      wr b (destIdx m dx dy dz z y x c) s) b) b) b) m.data

/-- `ilBlit`, il_devil.cpp:731-870, for two different existing images: the result, the destination afterwards, and whether the
destination is bound again.  `conv` is `ilConvertBuffer` from the source's to the destination's format and type; `none` is NULL. -/
def ilBlit (junk : Nat → UInt8) (conv : List UInt8 → Option (List UInt8)) (blend : Option (UInt8 → UInt8 → UInt8 → UInt8))
    (dest src : Img) (dx dy dz : Int) (sx sy sz w h d : Nat) : C (Bool × Img × Bool) := do
  let m ← (if dest.origin = IL_ORIGIN_LOWER_LEFT then ilFlipImage dest else pure dest)
  let temp ← (if src.origin = IL_ORIGIN_LOWER_LEFT then iGetFlipped junk src else pure src.data)
  match conv temp with
  | none => pure (false, m, false)
  | some cv => do
    let bps := u32 (m.bpp * src.width)
    let plane := u32 (bps * src.height)
    let data ← blitLoops blend (src.format = IL_RGBA ∨ src.format = IL_BGRA ∨ src.format = IL_LUMINANCE_ALPHA) m cv bps plane
      dx dy dz sx sy sz (limit w dx m.width) (limit h dy m.height) (limit d dz m.depth)
    let m := { m with data := data }
    let m ← (if dest.origin = IL_ORIGIN_LOWER_LEFT then ilFlipImage m else pure m)
    pure (true, m, true)

/-- `ilOverlayImage`, il_devil.cpp:716-728. -/
def ilOverlayImage (junk : Nat → UInt8) (conv : List UInt8 → Option (List UInt8)) (blend : Option (UInt8 → UInt8 → UInt8 → UInt8))
    (dest src : Img) (x y z : Int) : C (Bool × Img × Bool) :=
  ilBlit junk conv blend dest src x y z 0 0 0 src.width src.height src.depth

end DevIL.Blit
