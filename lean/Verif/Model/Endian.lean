import Verif.Comp
import Verif.Model.Lump
/-!
Model of DevIL/src-IL/src/il_endian.cpp (the portable variants, without inline assembler).  `big` says whether the host
is big-endian (`__BIG_ENDIAN__` of il_endian.h); otherwise `__LITTLE_ENDIAN__` is defined (il_endian.h:43-48).
-/
set_option autoImplicit false
namespace DevIL.Endian

/-- `iSwapUShort`, il_endian.cpp:17-34 (line 31); `iSwapShort`, il_endian.cpp:36-38, is the same on the bits. -/
def iSwapUShort (s : BitVec 16) : BitVec 16 := (s >>> 8) ||| (s <<< 8)

/-- `iSwapUInt`, il_endian.cpp:40-56 (line 53); `iSwapInt` and `iSwapFloat`, il_endian.cpp:58-64, are the same on the
bits. -/
def iSwapUInt (i : BitVec 32) : BitVec 32 :=
  (i >>> 24) ||| ((i >>> 8) &&& 0xff00#32) ||| ((i <<< 8) &&& 0xff0000#32) ||| (i <<< 24)

/-- The macro `dswap(x,y)`, il_endian.cpp:77: `t=b[x];b[x]=b[y];b[y]=b[x];`. -/
def dswap (x y : Nat) (b : List UInt8) : C (List UInt8) := do
  let _t ← rd b x
  let v ← rd b y
  let b ← wr b x v
  let v ← rd b x
  wr b y v

/-- `iSwapDouble`, il_endian.cpp:66-84 (lines 76-82), on the eight bytes of the double. -/
def iSwapDouble (b : List UInt8) : C (List UInt8) := do
  let b ← dswap 0 7 b
  let b ← dswap 1 6 b
  let b ← dswap 2 5 b
  dswap 3 4 b

/-- The bytes in memory of a `k`-byte object with value `v`.  Bookkeeping: the memory behind il_endian.cpp:98-283. -/
def objBytes (big : Bool) (k v : Nat) : List UInt8 := if big then (leBytes k v).reverse else leBytes k v

/-- The value of the object with these bytes in memory.  Bookkeeping: the memory behind il_endian.cpp:98-283. -/
def objVal (big : Bool) (bs : List UInt8) : Nat := leVal (if big then bs.reverse else bs)

/-- `iread(&obj, k, 1)` into an uninitialised local: bytes that are not delivered keep their old content `junk`.  il_endian.cpp:98-105. -/
def readObj (junk : Nat → UInt8) (l : Lump.R) (k : Nat) : C (List UInt8 × Lump.R) := do
  let (g, l) ← Lump.read l k 1
  pure ((List.range k).map (fun i => match g.bytes[i]? with | some b => b | none => junk i), l)

/-- `GetLittleUShort`, il_endian.cpp:87-94 (`GetLittleShort`, 96-103, is the same on the bits). -/
def GetLittleUShort (big : Bool) (junk : Nat → UInt8) (l : Lump.R) : C (BitVec 16 × Lump.R) := do
  let (bs, l) ← readObj junk l 2
  let s := BitVec.ofNat 16 (objVal big bs)
  pure (if big then iSwapUShort s else s, l)

/-- `GetLittleUInt`, il_endian.cpp:105-112 (`GetLittleInt`, 114-121, and `GetLittleFloat`, 123-130, are the same on the
bits). -/
def GetLittleUInt (big : Bool) (junk : Nat → UInt8) (l : Lump.R) : C (BitVec 32 × Lump.R) := do
  let (bs, l) ← readObj junk l 4
  let s := BitVec.ofNat 32 (objVal big bs)
  pure (if big then iSwapUInt s else s, l)

/-- `GetBigUShort`, il_endian.cpp:141-148 (`GetBigShort`, 150-157, is the same on the bits). -/
def GetBigUShort (big : Bool) (junk : Nat → UInt8) (l : Lump.R) : C (BitVec 16 × Lump.R) := do
  let (bs, l) ← readObj junk l 2
  let s := BitVec.ofNat 16 (objVal big bs)
  pure (if big then s else iSwapUShort s, l)

/-- `GetBigUInt`, il_endian.cpp:159-166 (`GetBigInt`, 168-175, and `GetBigFloat`, 177-184, are the same on the bits). -/
def GetBigUInt (big : Bool) (junk : Nat → UInt8) (l : Lump.R) : C (BitVec 32 × Lump.R) := do
  let (bs, l) ← readObj junk l 4
  let s := BitVec.ofNat 32 (objVal big bs)
  pure (if big then s else iSwapUInt s, l)

/-- The bytes `SaveLittleUShort` hands to `iwrite`, il_endian.cpp:195-200 (`SaveLittleShort`, 202-207, alike). -/
def SaveLittleUShort (big : Bool) (s : BitVec 16) : List UInt8 :=
  objBytes big 2 (if big then iSwapUShort s else s).toNat

/-- The bytes `SaveLittleUInt` hands to `iwrite`, il_endian.cpp:209-214 (`SaveLittleInt`, 216-221, and
`SaveLittleFloat`, 223-228, alike). -/
def SaveLittleUInt (big : Bool) (i : BitVec 32) : List UInt8 :=
  objBytes big 4 (if big then iSwapUInt i else i).toNat

/-- The bytes `SaveBigUShort` hands to `iwrite`, il_endian.cpp:238-243 (`SaveBigShort`, 246-251, alike). -/
def SaveBigUShort (big : Bool) (s : BitVec 16) : List UInt8 :=
  objBytes big 2 (if big then s else iSwapUShort s).toNat

/-- The bytes `SaveBigUInt` hands to `iwrite`, il_endian.cpp:254-259 (`SaveBigInt`, 262-267, and `SaveBigFloat`,
270-275, alike). -/
def SaveBigUInt (big : Bool) (i : BitVec 32) : List UInt8 :=
  objBytes big 4 (if big then i else iSwapUInt i).toNat

end DevIL.Endian
