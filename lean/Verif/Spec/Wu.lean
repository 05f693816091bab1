import Verif.Core
/-! Specification for the reduction of colours: averages.  Nothing here refers to the model of the quantizer. -/
set_option autoImplicit false
namespace DevIL.WuSpec

/-- The sum of `f 0` to `f (n - 1)`. -/
def sumTo : Nat → (Nat → Int) → Int
  | 0, _ => 0
  | n + 1, f => sumTo n f + f n

/-- Component `c` (red, green, blue) of pixel `i`. -/
def comp (data : List UInt8) (c i : Nat) : Int := ((data.getD (3 * i + c) 0).toNat : Int)

/-- The sum of `f` over the pixels with the index `k`. -/
def sumAt (idx : List UInt8) (n : Nat) (k : UInt8) (f : Nat → Int) : Int := sumTo n (fun i => if idx[i]? = some k then f i else 0)

/-- The number of pixels with the index `k`. -/
def count (idx : List UInt8) (n : Nat) (k : UInt8) : Int := sumAt idx n k (fun _ => 1)

/-- Each entry of the palette (blue, green, red) that a pixel has is the average, rounded down, of all pixels that have it. -/
def Averages (data idx pal : List UInt8) (n : Nat) : Prop :=
  ∀ i k c, i < n → idx[i]? = some k → c < 3 → ∃ v, pal[3 * k.toNat + (2 - c)]? = some v ∧ (v.toNat : Int) = sumAt idx n k (comp data c) / count idx n k

end DevIL.WuSpec
