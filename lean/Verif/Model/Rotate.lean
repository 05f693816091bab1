import Verif.Core
import Verif.Buf
/-! Model of `iluRotate_`, ilu_rotate.cpp:86-430.  A picture is a list of components, of any type: the code is the same for components of 1, 2, 4 and 8 bytes, with `Bps` divided by their size.
The size of the turned picture is calculated with floats: for quarters of a turn it is what the exact sine and cosine give, and for other angles it is any size. -/
set_option autoImplicit false
namespace DevIL.Rotate

/-- `a - b` of `ILuint`, ilu_rotate.cpp:145, 156, 167. -/
def sub32 (a b : Nat) : Nat := u32 (a + 4294967296 - b)

/-- The innermost loop, ilu_rotate.cpp:147-149, 158-160, 169-171, 183-185 and for wider components :201-203, 257-259, 313-315. -/
def copyPx {α : Type} (ro io bpp : Nat) (src dst : List α) : C (List α) :=
  loopN bpp (fun c d => do
    let v ← rd src (u32 (io + c))
    wr d (u32 (ro + c)) v) dst

/-- The loops over the picture, ilu_rotate.cpp:143-151, 154-162, 165-173: `off` is what is assigned to `RotOffset`. -/
def turn {α : Type} (off : Nat → Nat → Nat) (w h bpp : Nat) (src dst : List α) : C (List α) :=
  loopN w (fun x d => loopN h (fun y d => copyPx (off x y) (u32 (y * (w * bpp) + x * bpp)) bpp src d) d) dst

/-- `Angle == 90.0`, ilu_rotate.cpp:142-152: the turned picture is `h` wide and `w` high, and has the colour of `ilClearImage_`, which is anything. -/
def rotate90 {α : Type} (fill : Nat → α) (w h bpp : Nat) (src : List α) : C (List α) :=
  turn (fun x y => u32 (x * (h * bpp) + sub32 (sub32 w 1) y * bpp)) w h bpp src (alloc fill (w * h * bpp))

/-- `Angle == 180.0`, ilu_rotate.cpp:153-163. -/
def rotate180 {α : Type} (fill : Nat → α) (w h bpp : Nat) (src : List α) : C (List α) :=
  turn (fun x y => u32 (sub32 (sub32 h 1) y * (w * bpp) + x * bpp)) w h bpp src (alloc fill (w * h * bpp))

/-- `Angle == 270.0`, ilu_rotate.cpp:164-174. -/
def rotate270 {α : Type} (fill : Nat → α) (w h bpp : Nat) (src : List α) : C (List α) :=
  turn (fun x y => u32 (sub32 (sub32 h 1) x * (h * bpp) + y * bpp)) w h bpp src (alloc fill (w * h * bpp))

/-- Any other angle, ilu_rotate.cpp:175-189: the turned picture is `w'` wide and `h'` high, and `SrcX` and `SrcY`, calculated with floats, are any functions of the place. -/
def rotateAny {α : Type} (fill : Nat → α) (w' h' : Nat) (sx sy : Nat → Nat → Int) (w h bpp : Nat) (src : List α) : C (List α) :=
  loopN w' (fun x d => loopN h' (fun y d =>
    if 0 ≤ sx x y ∧ sx x y < w ∧ 0 ≤ sy x y ∧ sy x y < h then
      copyPx (u32 (y * (w' * bpp) + x * bpp)) (u32 ((sy x y).toNat * (w * bpp) + (sx x y).toNat * bpp)) bpp src d
    else pure d) d) (alloc fill (w' * h' * bpp))

end DevIL.Rotate
