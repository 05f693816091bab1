import Verif.Model.Image
/-! Model of DevIL/src-IL/src/il_devil.cpp:320-710: the clear colour and clearing an image. -/
set_option autoImplicit false
namespace DevIL.Clear
open Utility

/-- The global clear values `ClearRed`, `ClearGreen`, `ClearBlue`, `ClearAlpha`, `ClearLum`.  il_devil.cpp:319-323. -/
inductive Chan where
  | red | green | blue | alpha | lum
  deriving DecidableEq

/-- The stores `Ptr[k] = (T)(ClearX * MAX)` of `ilGetClear`, il_devil.cpp:340-600, in program order, for one type and
format; `none` is the `IL_INTERNAL_ERROR` exit.  (`IL_BGR` also writes element 3; byte `IL_LUMINANCE_ALPHA` falls through
into `IL_COLOUR_INDEX`; float `IL_LUMINANCE_ALPHA` writes element 0 twice.) -/
def clearStores (format type : Nat) : Option (List (Nat × Chan)) :=
  if type = IL_BYTE ∨ type = IL_UNSIGNED_BYTE ∨ type = IL_SHORT ∨ type = IL_UNSIGNED_SHORT ∨ type = IL_INT ∨
      type = IL_UNSIGNED_INT ∨ type = IL_FLOAT ∨ type = IL_DOUBLE then
    if format = IL_RGB then some [(0, .red), (1, .green), (2, .blue)]
    else if format = IL_RGBA then some [(0, .red), (1, .green), (2, .blue), (3, .alpha)]
    else if format = IL_BGR then some [(2, .red), (1, .green), (0, .blue), (3, .alpha)]
    else if format = IL_BGRA then some [(2, .red), (1, .green), (0, .blue), (3, .alpha)]
    else if format = IL_LUMINANCE then some [(0, .alpha)]
    else if format = IL_LUMINANCE_ALPHA then
      if type = IL_BYTE ∨ type = IL_UNSIGNED_BYTE then some [(0, .lum), (1, .alpha), (0, .alpha)]
      else if type = IL_FLOAT then some [(0, .lum), (0, .alpha)]
      else some [(0, .lum), (1, .alpha)]
    else if format = IL_COLOUR_INDEX then some [(0, .alpha)]
    else none
  else none

/-- Run the stores on the 32-byte array; `enc ch` are the bytes of the clear value `ch` converted to the component type
(the conversion itself, a float multiplication and a cast, is not modelled).  il_devil.cpp:352-603. -/
def runStores (enc : Chan → List UInt8) (bpc : Nat) : List (Nat × Chan) → List UInt8 → C (List UInt8)
  | [], b => .ok b
  | (k, ch) :: r, b => memcpy b (k * bpc) (enc ch) 0 bpc >>= runStores enc bpc r

/-- `ilGetClear`, il_devil.cpp:330-600, on the array `colours`. -/
def ilGetClear (enc : Chan → List UInt8) (format type : Nat) (colours : List UInt8) : C (List UInt8) :=
  match clearStores format type with
  | none => .ok colours
  | some l => runStores enc (ilGetBpcType type) l colours

/-- The stores into a non-indexed image, il_devil.cpp:630-681.  The five arms differ in the element type; an element is
copied as its bytes.  Any other type stores nothing. -/
def paint (m : Img) (colours : List UInt8) : C (List UInt8) :=
  let numBytes := m.bpp * m.bpc
  let sz := ilGetBpcType m.type
  if m.type = IL_BYTE ∨ m.type = IL_UNSIGNED_BYTE ∨ m.type = IL_SHORT ∨ m.type = IL_UNSIGNED_SHORT ∨ m.type = IL_INT ∨
      m.type = IL_UNSIGNED_INT ∨ m.type = IL_FLOAT ∨ m.type = IL_DOUBLE then
    forStep 0 numBytes m.bpc (fun c b => forStep c m.size numBytes (fun i b =>
      memcpy b i colours (if sz = 1 then c else c / m.bpc * sz) sz) b) m.data
  else .ok m.data

/-- `Palette[k] = Colours[k] * UCHAR_MAX`, il_devil.cpp:697-700 (truncated to a byte). -/
def palByte (v : UInt8) : UInt8 := UInt8.ofNat (v.toNat * 255)

/-- `ilClearImage_`, il_devil.cpp:615-705.  `junk` is the content of the array `Colours[32]` on entry.  The result is the
image and, for `IL_COLOUR_INDEX`, its new RGBA palette of one entry. -/
def ilClearImage (enc : Chan → List UInt8) (junk : Nat → UInt8) (m : Img) : C (Img × Option (List UInt8)) := do
  let colours ← ilGetClear enc m.format m.type (alloc junk 32)
  if m.format ≠ IL_COLOUR_INDEX then do
    let d ← paint m colours
    pure ({ m with data := d }, none)
  else do
    let c0 ← rd colours 0
    let c1 ← rd colours 1
    let c2 ← rd colours 2
    let c3 ← rd colours 3
    pure ({ m with data := List.replicate m.size 0 }, some [palByte c0, palByte c1, palByte c2, palByte c3])

end DevIL.Clear
