import Verif.Core
import Verif.Buf
/-! Model of the NeuQuant quantizer, il_neuquant.cpp, which `ilConvertImage` uses for `IL_COLOUR_INDEX` when the quantization mode is `IL_NEU_QUANT`.  The picture has already been converted to
`IL_BGR` of bytes, so it is a list of bytes.  Allocation succeeds.  `n` is `netsizethink`, the number of colours, `s` the sampling factor.  Arithmetic of `ILint` whose result is undefined, by
overflow or division by zero, is `.overflow`. -/
set_option autoImplicit false
namespace DevIL.Neu

/-- A result that an `ILint` must hold: overflow is undefined, il_neuquant.cpp:243-336. -/
def chk (x : Int) : C Int := if -2147483648 ≤ x ∧ x ≤ 2147483647 then .ok x else .error .overflow

/-- An entry of `network`, il_neuquant.cpp:96-97. -/
structure Px where
  b : Int
  g : Int
  r : Int
  c : Int

/-- `initnet`, il_neuquant.cpp:108-124, for the network: `p[3]` is not set. -/
def initnet (junk : Nat → Int) (n : Nat) : List Px := (List.range n).map (fun i => ⟨(i * 4096 / 256 : Nat), (i * 4096 / 256 : Nat), (i * 4096 / 256 : Nat), junk i⟩)

/-- The variables of `contest`, il_neuquant.cpp:243-284: a position is `none` while it is -1. -/
structure Ct where
  bestd : Int
  bestpos : Option Nat
  bestbiasd : Int
  bestbiaspos : Option Nat
  freq : List Int
  bias : List Int

/-- `abs`, as in il_neuquant.cpp:263. -/
def abs (x : Int) : Int := if x < 0 then -x else x

/-- The body of the loop of `contest`, il_neuquant.cpp:261-274. -/
def contestStep (net : List Px) (b g r : Int) (i : Nat) (t : Ct) : C Ct := do
  let p ← rd net i
  let dist ← chk (abs (p.b - b) + abs (p.g - g) + abs (p.r - r))
  let bi ← rd t.bias i
  let biasdist ← chk (dist - bi / 4096)
  let f ← rd t.freq i
  let freq ← wr t.freq i (f - f / 1024)
  let nb ← chk (bi + f / 1024 * 1024)
  let bias ← wr t.bias i nb
  pure ⟨if dist < t.bestd then dist else t.bestd, if dist < t.bestd then some i else t.bestpos, if biasdist < t.bestbiasd then biasdist else t.bestbiasd,
    if biasdist < t.bestbiasd then some i else t.bestbiaspos, freq, bias⟩

/-- `contest`, il_neuquant.cpp:243-278: `bestbiaspos`, `freq` and `bias`. -/
def contest (net : List Px) (n : Nat) (b g r : Int) (freq bias : List Int) : C (Option Nat × List Int × List Int) := do
  let t ← loopN n (contestStep net b g r) ⟨2147483647, none, 2147483647, none, freq, bias⟩
  match t.bestpos with
  | none => .error .oobWrite
  | some k => do
    let f ← rd t.freq k
    let f ← chk (f + 64)
    let freq ← wr t.freq k f
    let x ← rd t.bias k
    let x ← chk (x - 65536)
    let bias ← wr t.bias k x
    pure (t.bestbiaspos, freq, bias)

/-- `*n -= (a*(*n - t)) / den`, il_neuquant.cpp:289-293 and 316-320. -/
def move (a den x t : Int) : C Int := do
  let q ← chk (a * (x - t))
  chk (x - q.tdiv den)

/-- An entry moved towards a colour, il_neuquant.cpp:289-296 and 317-333. -/
def movePx (a den : Int) (b g r : Int) (i : Nat) (net : List Px) : C (List Px) := do
  let p ← rd net i
  let x ← move a den p.b b
  let y ← move a den p.g g
  let z ← move a den p.r r
  wr net i ⟨x, y, z, p.c⟩

/-- The loop of `alterneigh`, il_neuquant.cpp:312-332: `q` is the place in `radpower`. -/
def neigh (pw : List Int) (b g r hi lo : Int) : Nat → Nat → Int → Int → List Px → C (List Px)
  | 0, _, _, _, _ => .error .hang
  | fuel + 1, q, j, k, net =>
    if j < hi ∨ lo < k then do
      let a ← rd pw (q + 1)
      let net ← (if j < hi then movePx a 262144 b g r j.toNat net else pure net)
      let net ← (if lo < k then movePx a 262144 b g r k.toNat net else pure net)
      neigh pw b g r hi lo fuel (q + 1) (if j < hi then j + 1 else j) (if lo < k then k - 1 else k) net
    else pure net

/-- `alterneigh`, il_neuquant.cpp:301-334. -/
def alterneigh (pw : List Int) (n : Nat) (rad i : Nat) (b g r : Int) (net : List Px) : C (List Px) :=
  neigh pw b g r (if (i : Int) + rad > n then n else i + rad) (if (i : Int) - rad < -1 then -1 else i - rad) 40 0 (i + 1) (i - 1) net

/-- The loop that sets `radpower`, il_neuquant.cpp:357-358 and 390-391. -/
def powers (alpha rad : Nat) (pw : List Int) : C (List Int) :=
  loopN rad (fun i pw => do
    let v ← chk ((alpha * (((rad * rad - i * i) * 256) / (rad * rad)) : Nat) : Int)
    wr pw i v) pw

/-- `rad = radius >> radiusbiasshift; if (rad <= 1) rad = 0;`, il_neuquant.cpp:355-356. -/
def radOf (radius : Nat) : Nat := if radius / 64 ≤ 1 then 0 else radius / 64

/-- The variables of `learn`, il_neuquant.cpp:340-396. -/
structure L where
  net : List Px
  freq : List Int
  bias : List Int
  pw : List Int
  pos : Nat
  alpha : Nat
  radius : Nat

/-- `step`, il_neuquant.cpp:362-369. -/
def stride (len : Nat) : Nat := if len % 499 ≠ 0 then 3 * 499 else if len % 491 ≠ 0 then 3 * 491 else if len % 487 ≠ 0 then 3 * 487 else 3 * 503

/-- The body of the loop of `learn`, il_neuquant.cpp:372-393: `delta` is not zero in the remainder of :385. -/
def learnStep (data : List UInt8) (n s delta : Nat) (i : Nat) (t : L) : C L := do
  let x ← rd data t.pos
  let y ← rd data (t.pos + 1)
  let z ← rd data (t.pos + 2)
  let b : Int := x.toNat * 16
  let g : Int := y.toNat * 16
  let r : Int := z.toNat * 16
  let (j, freq, bias) ← contest t.net n b g r t.freq t.bias
  match j with
  | none => .error .oobRead
  | some j => do
    let net ← movePx t.alpha 1024 b g r j t.net
    let net ← (if radOf t.radius ≠ 0 then alterneigh t.pw n (radOf t.radius) j b g r net else pure net)
    let pos := if data.length ≤ t.pos + stride data.length then t.pos + stride data.length - data.length else t.pos + stride data.length
    if delta = 0 then .error .overflow
    else if (i + 1) % delta = 0 then do
      let alpha := t.alpha - t.alpha / (30 + (s - 1) / 3)
      let radius := t.radius - t.radius / 30
      let pw ← powers alpha (radOf radius) t.pw
      pure ⟨net, freq, bias, pw, pos, alpha, radius⟩
    else pure ⟨net, freq, bias, t.pw, pos, t.alpha, t.radius⟩

/-- `initnet` and `learn`, il_neuquant.cpp:108-124 and 340-396: the network.  `radpower` begins as anything. -/
def learn (junk : Nat → Int) (data : List UInt8) (n s : Nat) : C (List Px) := do
  let sp := data.length / (3 * s)
  let pw ← powers 1024 (radOf 2048) (alloc junk 32)
  let t ← loopN sp (learnStep data n s (sp / 100)) ⟨initnet junk n, List.replicate n ((65536 / n : Nat) : Int), List.replicate n 0, pw, 0, 1024, 2048⟩
  pure t.net

/-- `unbiasnet`, il_neuquant.cpp:130-140. -/
def unbias (net : List Px) : List Px := net.mapIdx (fun i p => ⟨p.b / 16, p.g / 16, p.r / 16, i⟩)

/-- The byte of an `int`, il_neuquant.cpp:447-456. -/
def u8 (x : Int) : UInt8 := UInt8.ofNat (x % 256).toNat

/-- The palette, il_neuquant.cpp:447-451: the `PalSize` bytes of it. -/
def palette (net : List Px) : List UInt8 := net.flatMap (fun p => [u8 p.b, u8 p.g, u8 p.r])

/-- `netindex[k] = v`, il_neuquant.cpp:173-183. -/
def wrI (idx : List Int) (k v : Int) : C (List Int) := if k < 0 then .error .oobWrite else wr idx k.toNat v

/-- The variables of `inxbuild`, il_neuquant.cpp:146-185. -/
structure Ix where
  net : List Px
  idx : List Int
  prev : Int
  start : Nat

/-- The search for the smallest, il_neuquant.cpp:156-165: `smallpos` and `smallval`. -/
def smallest (net : List Px) (n i : Nat) (v : Int) : C (Nat × Int) :=
  loopN (n - (i + 1)) (fun m t => do
    let q ← rd net (i + 1 + m)
    pure (if q.g < t.2 then (i + 1 + m, q.g) else t)) (i, v)

/-- The body of the loop of `inxbuild`, il_neuquant.cpp:154-181. -/
def ixStep (n i : Nat) (t : Ix) : C Ix := do
  let p ← rd t.net i
  let (sp, sv) ← smallest t.net n i p.g
  let q ← rd t.net sp
  let net ← (if i ≠ sp then do
      let net ← wr t.net sp p
      wr net i q
    else pure t.net)
  if sv ≠ t.prev then do
    let idx ← wrI t.idx t.prev ((t.start + i) / 2 : Nat)
    let idx ← loopN (sv - (t.prev + 1)).toNat (fun m idx => wrI idx (t.prev + 1 + m) i) idx
    pure ⟨net, idx, sv, i⟩
  else pure ⟨net, t.idx, t.prev, t.start⟩

/-- `inxbuild`, il_neuquant.cpp:146-185: the network and `netindex`. -/
def inxbuild (junk : Nat → Int) (n : Nat) (net : List Px) : C (List Px × List Int) := do
  let t ← loopN n (ixStep n) ⟨net, alloc junk 256, 0, 0⟩
  let idx ← wrI t.idx t.prev ((t.start + (n - 1)) / 2 : Nat)
  let idx ← loopN (256 - (t.prev + 1)).toNat (fun m idx => wrI idx (t.prev + 1 + m) (n - 1 : Nat)) idx
  pure (t.net, idx)

/-- One side of the loop of `inxsearch`, il_neuquant.cpp:207-217 and 223-233: `bestd` and `best`. -/
def near (p : Px) (b g r : Int) (t : Int × Int) : Int × Int :=
  let dist := abs (p.g - g) + abs (p.b - b)
  if dist < t.1 then
    let dist := dist + abs (p.r - r)
    if dist < t.1 then (dist, p.c) else t
  else t

/-- The loop of `inxsearch`, il_neuquant.cpp:202-235. -/
def searchLoop (net : List Px) (n : Nat) (b g r : Int) : Nat → Int → Int → Int × Int → C Int
  | 0, _, _, _ => .error .hang
  | fuel + 1, i, j, t =>
    if i < n ∨ 0 ≤ j then do
      let (i, t) ← (if i < n then do
          if i < 0 then .error .oobRead else do
          let p ← rd net i.toNat
          if t.1 ≤ p.g - g then pure ((n : Int), t) else pure (i + 1, near p b g r t)
        else pure (i, t))
      let (j, t) ← (if 0 ≤ j then do
          let p ← rd net j.toNat
          if t.1 ≤ g - p.g then pure ((-1 : Int), t) else pure (j - 1, near p b g r t)
        else pure (j, t))
      searchLoop net n b g r fuel i j t
    else pure t.2

/-- `inxsearch`, il_neuquant.cpp:191-237. -/
def inxsearch (net : List Px) (idx : List Int) (n : Nat) (b g r : UInt8) : C UInt8 := do
  let i ← rd idx g.toNat
  let best ← searchLoop net n b.toNat g.toNat r.toNat (n + n + 2) i (i - 1) (1000, -1)
  pure (u8 best)

/-- `iNeuQuant`, il_neuquant.cpp:399-462: the new data and the palette. -/
def iNeuQuant (junk : Nat → Int) (fill : Nat → UInt8) (data : List UInt8) (n s : Nat) : C (List UInt8 × List UInt8) := do
  let net ← learn junk data n s
  let net := unbias net
  let (sorted, idx) ← inxbuild junk n net
  let new ← loopN (data.length / 3) (fun i d => do
    let b ← rd data (3 * i)
    let g ← rd data (3 * i + 1)
    let r ← rd data (3 * i + 2)
    let v ← inxsearch sorted idx n b g r
    wr d i v) (alloc fill (data.length / 3))
  pure (new, palette net)

end DevIL.Neu
