import Verif.Lemmas.Fix
import Verif.Props.Block
/-! What the load-time settings are to do, apart from how `ilFixImage` does it. -/
set_option autoImplicit false
namespace DevIL.Fix
open DevIL.Stack (Link Heap Chain Cell)

/-- `q` is `p` or one of the images that follow it along the link. -/
def Along (l : Link) (h : Heap) (p q : Nat) : Prop := ∃ c, Chain l h p c ∧ q ∈ c

/-- `q` is a part of the loaded image `r`: a mipmap (or the picture itself) of a layer of a face of one of its images. -/
def Part (h : Heap) (r q : Nat) : Prop := ∃ i f k, Along .next h r i ∧ Along .face h i f ∧ Along .layer h f k ∧ Along .mip h k q

/-- The image `r` is bound, and its links lead to images and end. -/
structure Bound (s : S) (r : Nat) : Prop where
  name : s.sys.stack[s.sys.curName]? = some (some r)
  cur : s.sys.cur = some r
  live : ∃ n, s.sys.heap[r]? = some (Cell.live n)
  ends : Ends s.sys.heap

/-- One of the two origins. -/
def IsOrigin (o : Nat) : Prop := o = IL_ORIGIN_LOWER_LEFT ∨ o = IL_ORIGIN_UPPER_LEFT

/-- An image that can be turned over. -/
structure Turnable (m : Img) : Prop where
  cons : m.Consistent
  fits : m.size < 2 ^ 32
  origin : IsOrigin m.origin

/-- The settings are off. -/
def Settings.off (a : Settings) : Prop := a.originSet = false ∧ a.typeSet = false ∧ a.formatSet = false ∧ a.convPal = false

/-- Only the origin is asked for. -/
def Settings.onlyOrigin (a : Settings) : Prop := a.originSet = true ∧ IsOrigin a.originMode ∧ a.typeSet = false ∧ a.formatSet = false ∧ a.convPal = false

/-- What the fix needs to know of `ilConvertImage(df, dt)` when it returns true: no image changes its origin, each image is as before or has the format and the type asked for, the first has them. -/
def IsConversion (conv : Nat → Nat → List Img → C (Bool × List Img)) : Prop :=
  ∀ df dt ms ms', conv df dt ms = .ok (true, ms') → ms'.map (·.origin) = ms.map (·.origin) ∧
    (∀ m, ms'[0]? = some m → m.format = df ∧ m.type = dt) ∧ (∀ (i : Nat) (m' : Img), ms'[i]? = some m' → ms[i]? = some m' ∨ m'.format = df ∧ m'.type = dt)

/-- What a part of the image is to be like afterwards.  Paletted images that IL_CONV_PAL converts are bytes, and BGR. -/
structure Asked (a : Settings) (m : Img) : Prop where
  origin : a.originSet = true → m.origin = a.originMode
  type : a.typeSet = true → (a.convPal = true → a.formatSet = true ∧ a.formatMode ≠ IL_COLOUR_INDEX) → m.type = a.typeMode
  format : a.formatSet = true → a.typeSet = false → (a.convPal = true → a.formatMode ≠ IL_COLOUR_INDEX) → m.format = a.formatMode
  palette : a.convPal = true → a.formatSet = false → a.typeSet = false → m.format ≠ IL_COLOUR_INDEX

end DevIL.Fix
