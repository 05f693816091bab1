import Verif.Core
/-! Specification: reading a file, with nothing in between. -/
set_option autoImplicit false
namespace DevIL.Cache

/-- What a loader asks for while it reads a file: a byte, `number` items of `size` bytes, another position (`mode` 0: from the start, 1: from here, 2: from the end), the position, whether the end is reached; and that
the next `size` bytes be read ahead, and that reading ahead stop. -/
inductive Op where
  | getc
  | read (size number : Nat)
  | seek (off : Int) (mode : Nat)
  | tell
  | eof
  | pre (size : Nat)
  | un
  deriving DecidableEq

/-- What it gets. -/
inductive Got where
  | byte (b : Option UInt8)
  | bytes (bs : List UInt8) (n : Nat)
  | ok (b : Bool)
  | at_ (n : Nat)
  | nothing
  deriving DecidableEq

/-- A request at position `p` of a file: what the caller gets and the position afterwards; `none` if it leads outside the file. -/
def direct (data : List UInt8) (p : Nat) : Op → Option (Got × Nat)
  | .getc => match data[p]? with
    | some b => some (.byte (some b), p + 1)
    | none => none
  | .read size number => if 0 < size ∧ p + size * number ≤ data.length then some (.bytes ((data.drop p).take (size * number)) number, p + size * number) else none
  | .seek off mode =>
    let t : Int := if mode = 0 then off else if mode = 1 then p + off else data.length + off
    if 0 ≤ t ∧ t ≤ data.length ∧ mode ≤ 2 then some (.ok true, t.toNat) else none
  | .tell => some (.at_ p, p)
  | .eof => some (.ok (decide (data.length ≤ p)), p)
  | .pre _ => some (.nothing, p)
  | .un => some (.nothing, p)

/-- A sequence of requests. -/
def directAll (data : List UInt8) : Nat → List Op → Option (List Got × Nat)
  | p, [] => some ([], p)
  | p, op :: ops => match direct data p op with
    | none => none
    | some (g, p) => match directAll data p ops with
      | none => none
      | some (gs, p) => some (g :: gs, p)

/-- How loaders use the cache, and what they ask for: while it is on (`c`) they read, or move by nothing; it is switched on when it is off. -/
def Proper : Bool → List Op → Prop
  | _, [] => True
  | c, .getc :: ops => Proper c ops
  | c, .read size number :: ops => size * number < 2 ^ 31 ∧ Proper c ops
  | c, .seek off mode :: ops => (c = true → off = 0 ∧ mode = 1) ∧ Proper c ops
  | c, .tell :: ops => c = false ∧ Proper c ops
  | c, .eof :: ops => c = false ∧ Proper c ops
  | c, .pre size :: ops => c = false ∧ size < 2 ^ 31 ∧ Proper true ops
  | _, .un :: ops => Proper false ops

end DevIL.Cache
