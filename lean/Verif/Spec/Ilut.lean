import Verif.Model.Ilut
/-! Vocabulary of C123 to C125: what a history of calls to the utility toolkit has set. -/
set_option autoImplicit false
namespace DevIL.IlutSpec
open DevIL.Ilut

/-- The documented on/off modes: palettes, integer formats, conversion for OpenGL, use of S3TC, generation of S3TC, choice of the texture
target. -/
def switches : List Nat := [0x0600, 0x0636, 0x0610, 0x0634, 0x0635, 0x0807]

/-- What one call other than push and pop says about the switch `m`. -/
def toldSwitch (m : Nat) : Op → Option Nat
  | .init => some 0
  | .able m' f => if m' = m then some f else none
  | .setInteger m' v => if m' = m ∧ m ∈ [0x0634, 0x0635, 0x0807] ∧ (v = 0 ∨ v = 1) then some v.toNat else none
  | _ => none

/-- The value of the switch `m` after the calls `ops`, when it was `v` before. -/
def lastSwitch (m : Nat) (v : Nat) (ops : List Op) : Nat := ops.foldl (fun v o => (toldSwitch m o).getD v) v

/-- The integer modes with the values they accept and the value `ilutInit` gives them. -/
def accepts (m : Nat) (v : Int) : Bool :=
  if m = 0x0705 then 0x0706 ≤ v ∧ v ≤ 0x070A
  else if m = 0x0630 ∨ m = 0x0631 ∨ m = 0x0632 then 1 ≤ v
  else if m = 0x0634 ∨ m = 0x0635 ∨ m = 0x0807 then v = 0 ∨ v = 1
  else if m = 0x0620 then 0 ≤ v
  else if m = 0x0707 then true
  else if m = 0x0706 then 0 ≤ v ∧ v ≤ 2
  else false

/-- The integer modes that can be set and read. -/
def integers : List Nat := [0x0705, 0x0630, 0x0631, 0x0632, 0x0634, 0x0635, 0x0807, 0x0620, 0x0707, 0x0706]

/-- What `ilutInit` gives an integer mode. -/
def initial (m : Nat) : Int :=
  if m = 0x0630 ∨ m = 0x0631 then 256 else if m = 0x0632 then 1 else if m = 0x0707 then -1 else 0

/-- What one call other than push and pop says about the integer mode `m`. -/
def toldInt (m : Nat) : Op → Option Int
  | .init => some (initial m)
  | .able m' f => if m' = m ∧ m ∈ switches then some f else none
  | .setInteger m' v => if m' = m ∧ accepts m v then some v else none
  | .mipFunc n => if m = 0x0620 then some n else none
  | _ => none

/-- The value of the integer mode `m` after the calls `ops`, when it was `v` before. -/
def lastInt (m : Nat) (v : Int) (ops : List Op) : Int := ops.foldl (fun v o => (toldInt m o).getD v) v

/-- The call is neither a push nor a pop. -/
def Flat : Op → Prop
  | .push _ => False
  | .pop => False
  | _ => True

/-- The arguments of a call have the types of the C prototypes: a flag is 0 or 1, an `ILint` has 32 bits; `ilutD3D8MipFunc` is given a number
that an `ILint` holds. -/
def Typed : Op → Prop
  | .able _ f => f = 0 ∨ f = 1
  | .setInteger _ v => -2147483648 ≤ v ∧ v < 2147483648
  | .mipFunc n => n < 2147483648
  | _ => True

/-- `ops` is a properly nested sequence of calls: `d` pushes are open, at most `room` ever are, none is left open and none is popped that
was not pushed. -/
def Nested (room : Nat) : Nat → List Op → Prop
  | d, [] => d = 0
  | d, .push _ :: ops => d + 1 ≤ room ∧ Nested room (d + 1) ops
  | d, .pop :: ops => 0 < d ∧ Nested room (d - 1) ops
  | d, _ :: ops => Nested room d ops

end DevIL.IlutSpec
