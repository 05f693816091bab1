import Verif.Lemmas.IffB
/-! Tiles of Maya IFF pictures: C243 (their pixels), C244 (whatever the bytes are). -/
set_option autoImplicit false
namespace DevIL.Iff
open DevIL.IffSpec

theorem side_eq {a b n : Nat} (h : a ≤ b) (hb : b < n) (hn : n ≤ 65535) : (b + 65536 - a + 1) % 65536 = b + 1 - a := by
  rw [show b + 65536 - a + 1 = b + 1 - a + 65536 by omega, Nat.add_mod_right]
  exact Nat.mod_eq_of_lt (by omega)

/-- **C243**, in part: a packed tile of a picture with alpha gives its pixels to the image, each where it belongs and with red first, and changes no other pixel, for every way to pack it.
What is missing are tiles that are not packed (`C243_violated_plain`) and those of pictures without alpha (`C243_violated_rgb`). -/
theorem C243_tile_partial (junk : Nat → UInt8) (width height : Nat) (hw : width ≤ 65535) (hh : height ≤ 65535) (hs : width * height * 4 < 2147483648) (d : List UInt8) (hd : d.length = width * height * 4)
    (x1 y1 x2 y2 : Nat) (hx : x1 ≤ x2) (hx2 : x2 < width) (hy : y1 ≤ y2) (hy2 : y2 < height) (r g b a : List Packet)
    (R : Channel r ((x2 + 1 - x1) * (y2 + 1 - y1))) (G : Channel g ((x2 + 1 - x1) * (y2 + 1 - y1))) (B : Channel b ((x2 + 1 - x1) * (y2 + 1 - y1))) (A : Channel a ((x2 + 1 - x1) * (y2 + 1 - y1)))
    (hp : (packed r g b a).length < (x2 + 1 - x1) * (y2 + 1 - y1) * 4) :
    ∃ d', tile junk 4 width d x1 y1 x2 y2 (packed r g b a) = .ok (some d') ∧ d'.length = d.length ∧
      ∀ x y c, x < width → y < height → c < 4 → d'[(y * width + x) * 4 + c]? =
        if Inside x1 y1 x2 y2 x y then value r g b a ((y - y1) * (x2 + 1 - x1) + (x - x1)) c else d[(y * width + x) * 4 + c]? := by
  obtain ⟨t, e, hl, ht⟩ := tile_rle junk R G B A
  obtain ⟨d', e', hl', hd'⟩ := paste (t := t) (x1 := x1) (y1 := y1) (tw := x2 + 1 - x1) (th := y2 + 1 - y1) (by omega) hd (by omega) (by omega) (by omega) (by omega)
  refine ⟨d', ?_, hl', ?_⟩
  · unfold tile
    simp only [side_eq hx hx2 hw, side_eq hy hy2 hh]
    rw [if_neg (by omega), e, bind_ok]
    simp only []
    rw [e', bind_ok]
    rfl
  · intro x y c hx' hy' hc
    rw [hd' x y c hx' hy' hc]
    by_cases hi : Inside x1 y1 x2 y2 x y
    · obtain ⟨i1, i2, i3, i4⟩ := hi
      rw [if_pos ⟨i1, by omega, i3, by omega⟩, if_pos ⟨i1, i2, i3, i4⟩, Nat.mul_comm _ 4]
      refine ht _ c ?_ hc
      have := Nat.mul_le_mul_left (x2 + 1 - x1) (show y - y1 + 1 ≤ y2 + 1 - y1 by omega)
      rw [Nat.mul_add, Nat.mul_comm _ (y - y1)] at this
      omega
    · rw [if_neg hi, if_neg (fun h => hi ⟨h.1, by omega, h.2.2.1, by omega⟩)]

/-- A channel of two rows of four pixels: a run and three more values. -/
def some4 (v w : UInt8) : List Packet := [.run 5 v, .lit [w, v, w]]

theorem some4_channel (v w : UInt8) : Channel (some4 v w) ((4 + 1 - 1) * (2 + 1 - 1)) := by
  refine ⟨?_, rfl⟩
  intro p hp
  simp only [some4, List.mem_cons, List.not_mem_nil, or_false] at hp
  rcases hp with rfl | rfl <;> exact ⟨by simp [Packet.means], by simp [Packet.means]⟩

example : ∃ d', tile (fun _ => 9) 4 6 (List.replicate 120 7) 1 1 4 2 (packed (some4 1 2) (some4 3 4) (some4 5 6) (some4 255 0)) = .ok (some d') ∧ d'.length = 120 := by
  obtain ⟨d', e, hl, -⟩ := C243_tile_partial (fun _ => 9) 6 5 (by omega) (by omega) (by omega) (List.replicate 120 7) (by simp) 1 1 4 2 (by omega) (by omega) (by omega) (by omega)
    (some4 1 2) (some4 3 4) (some4 5 6) (some4 255 0) (some4_channel 1 2) (some4_channel 3 4) (some4_channel 5 6) (some4_channel 255 0) (by decide)
  exact ⟨d', e, by rw [hl]; simp⟩

/-- The chunk of a packed tile. -/
def chunk (t : Tile) : Chunk := ⟨t.x1, t.y1, t.x2, t.y2, packed t.r t.g t.b t.a⟩

/-- **C243** for all tiles of a picture, in part, as `C243_tile_partial`: every pixel is as the last tile says that has it, and those that no tile has are left as they were. -/
theorem C243_picture_partial (junk : Nat → UInt8) (width height : Nat) (hw : width ≤ 65535) (hh : height ≤ 65535) (hs : width * height * 4 < 2147483648) :
    ∀ (ts : List Tile) (d : List UInt8) (_ : d.length = width * height * 4) (_ : ∀ t ∈ ts, t.Ok width height),
    ∃ d', tiles junk 4 width (ts.map chunk) d = .ok (some d') ∧ d'.length = width * height * 4 ∧
      ∀ x y c, x < width → y < height → c < 4 →
        (∀ (i : Nat) (t : Tile), ts[i]? = some t → t.Has x y → (∀ (j : Nat) (u : Tile), i < j → ts[j]? = some u → ¬ u.Has x y) → d'[(y * width + x) * 4 + c]? = t.at x y c) ∧
        ((∀ t ∈ ts, ¬ t.Has x y) → d'[(y * width + x) * 4 + c]? = d[(y * width + x) * 4 + c]?) := by
  intro ts
  induction ts with
  | nil =>
    intro d hd _
    exact ⟨d, rfl, hd, fun x y c _ _ _ => ⟨fun i t h => by simp at h, fun _ => rfl⟩⟩
  | cons t ts ih =>
    intro d hd hok
    obtain ⟨o1, o2, o3, o4, o5, o6, o7, o8, o9⟩ := hok t (by simp)
    obtain ⟨d1, e1, l1, p1⟩ := C243_tile_partial junk width height hw hh hs d hd t.x1 t.y1 t.x2 t.y2 o1 o2 o3 o4 t.r t.g t.b t.a o5 o6 o7 o8 o9
    obtain ⟨d2, e2, l2, p2⟩ := ih d1 (by omega) (fun u hu => hok u (by simp [hu]))
    refine ⟨d2, ?_, l2, ?_⟩
    · rw [List.map_cons, tiles]
      show (tile junk 4 width d t.x1 t.y1 t.x2 t.y2 (packed t.r t.g t.b t.a) >>= _) = _
      rw [e1, bind_ok]
      exact e2
    · intro x y c hx hy hc
      obtain ⟨q1, q2⟩ := p2 x y c hx hy hc
      have q := p1 x y c hx hy hc
      refine ⟨?_, ?_⟩
      · intro i u hu hi hlast
        cases i with
        | zero =>
          simp only [List.getElem?_cons_zero, Option.some.injEq] at hu
          subst hu
          rw [q2, q, if_pos hi]
          · rfl
          · intro v hv
            obtain ⟨j, hj⟩ := List.mem_iff_getElem?.mp hv
            exact hlast (j + 1) v (by omega) (by simpa using hj)
        | succ i => exact q1 i u (by simpa using hu) hi (fun j v hj hv => hlast (j + 1) v (by omega) (by simpa using hv))
      · intro hno
        rw [q2 (fun v hv => hno v (by simp [hv])), q, if_neg (hno t (by simp))]

/-- Two tiles of a picture of five rows of eight pixels, which have two pixels in common. -/
def two : List Tile := [⟨0, 0, 3, 1, some4 1 2, some4 3 4, some4 5 6, some4 255 0⟩, ⟨2, 1, 5, 2, some4 9 8, some4 7 6, some4 5 4, some4 3 2⟩]

example : ∃ d', tiles (fun _ => 9) 4 8 (two.map chunk) (List.replicate 160 7) = .ok (some d') ∧ d'[(1 * 8 + 2) * 4 + 0]? = some 9 ∧ d'[(0 * 8 + 3) * 4 + 1]? = some 3 ∧ d'[(4 * 8 + 0) * 4 + 0]? = some 7 := by
  obtain ⟨d', e, -, h⟩ := C243_picture_partial (fun _ => 9) 8 5 (by omega) (by omega) (by omega) two (List.replicate 160 7) (by simp) (by
    intro t ht
    simp only [two, List.mem_cons, List.not_mem_nil, or_false] at ht
    rcases ht with rfl | rfl <;> exact ⟨by decide, by decide, by decide, by decide, some4_channel _ _, some4_channel _ _, some4_channel _ _, some4_channel _ _, by decide⟩)
  refine ⟨d', e, ?_, ?_, ?_⟩
  · rw [(h 2 1 0 (by omega) (by omega) (by omega)).1 1 _ rfl (by decide) (by
      intro j u hj hu
      obtain ⟨j, rfl⟩ : ∃ k, j = k + 2 := ⟨j - 2, by omega⟩
      simp [two] at hu)]
    decide
  · rw [(h 3 0 1 (by omega) (by omega) (by omega)).1 0 _ rfl (by decide) (by
      intro j u hj hu
      rcases Nat.lt_or_ge j 2 with hj2 | hj2
      · obtain rfl : j = 1 := by omega
        simp only [two, List.getElem?_cons_succ, List.getElem?_cons_zero, Option.some.injEq] at hu
        subst hu
        decide
      · obtain ⟨j, rfl⟩ : ∃ k, j = k + 2 := ⟨j - 2, by omega⟩
        simp [two] at hu)]
    decide
  · rw [(h 0 4 0 (by omega) (by omega) (by omega)).2 (by decide)]
    rfl

/-- **C243** fails for tiles that are not packed: the loader means to turn the order of the bytes of each pixel, but copies bytes to other pixels.  Two pixels, stored with alpha first, come out as neither order has them. -/
theorem C243_violated_plain (junk : Nat → UInt8) :
    tile junk 4 2 (List.replicate 8 0) 0 0 1 0 [255, 3, 2, 1, 254, 6, 5, 4] = .ok (some [255, 3, 2, 3, 255, 3, 2, 4]) := by
  rfl

/-- **C243** fails for packed tiles of pictures without alpha: the loader gives up, whatever the tile is. -/
theorem C243_violated_rgb (junk : Nat → UInt8) (width height : Nat) (hw : width ≤ 65535) (hh : height ≤ 65535) (d : List UInt8) (x1 y1 x2 y2 : Nat) (hx : x1 ≤ x2) (hx2 : x2 < width) (hy : y1 ≤ y2) (hy2 : y2 < height)
    (z : List UInt8) (hz : z.length < (x2 + 1 - x1) * (y2 + 1 - y1) * 3) : tile junk 3 width d x1 y1 x2 y2 z = .ok none := by
  unfold tile
  simp only [side_eq hx hx2 hw, side_eq hy hy2 hh]
  rw [if_neg (by omega)]
  rfl

example : tile (fun _ => 0) 3 8 (List.replicate 24 0) 0 0 7 0 [135, 1, 135, 2, 135, 3] = .ok none :=
  C243_violated_rgb _ 8 1 (by omega) (by omega) _ 0 0 7 0 (by omega) (by omega) (by omega) (by omega) _ (by simp)

/-- **C244**, in part: a tile that is in the image is unpacked and copied without a write outside a block and comes to an end, whatever its bytes are, and leaves the block of the image at its size; the only fault it can have is to read
beyond its bytes.  What is missing are reads (`C244_violated_read`), a single pixel that is not packed (`C244_violated_pixel`), and tiles that are not in the image (`C244_violated_corner`). -/
theorem C244_safe_partial (junk : Nat → UInt8) (k width height : Nat) (hk : k = 3 ∨ k = 4) (hw : width ≤ 65535) (hh : height ≤ 65535) (hs : width * height * k < 2147483648) (d : List UInt8) (hd : d.length = width * height * k)
    (x1 y1 x2 y2 : Nat) (hx : x1 ≤ x2) (hx2 : x2 < width) (hy : y1 ≤ y2) (hy2 : y2 < height) (z : List UInt8) (hn : 1 < (x2 + 1 - x1) * (y2 + 1 - y1) ∨ z.length < k) :
    (∃ r, tile junk k width d x1 y1 x2 y2 z = .ok r ∧ ∀ d', r = some d' → d'.length = d.length) ∨ tile junk k width d x1 y1 x2 y2 z = .error .oobRead := by
  have hpos : 0 < (x2 + 1 - x1) * (y2 + 1 - y1) := Nat.mul_pos (by omega) (by omega)
  have main : Only (tile junk k width d x1 y1 x2 y2 z) (fun r => ∀ d', r = some d' → d'.length = d.length) := by
    unfold tile
    simp only [side_eq hx hx2 hw, side_eq hy hy2 hh]
    have hcopy : ∀ t : Option (List UInt8), (∀ u, t = some u → u.length = (x2 + 1 - x1) * (y2 + 1 - y1) * k) → Only (match t with
        | none => pure none
        | some t => do
          let d ← loopN (y2 + 1 - y1) (fun i d => memcpy d (u32 (u32 (k * (width * y1 + x1)) + k * i * width)) t (k * i * (x2 + 1 - x1)) ((x2 + 1 - x1) * k)) d
          pure (some d) : C (Option (List UInt8))) (fun r => ∀ d', r = some d' → d'.length = d.length) := by
      intro t ht
      cases t with
      | none => exact Or.inl ⟨none, rfl, fun _ h => nomatch h⟩
      | some t =>
        obtain ⟨d', e', hl', -⟩ := paste (k := k) (t := t) (x1 := x1) (y1 := y1) (tw := x2 + 1 - x1) (th := y2 + 1 - y1) (by omega) hd (by omega) (Nat.le_of_eq (ht t rfl).symm) (by omega) (by omega)
        simp only []
        rw [e', bind_ok]
        refine Or.inl ⟨some d', rfl, ?_⟩
        rintro _ ⟨⟩
        exact hl'
    by_cases hz : (x2 + 1 - x1) * (y2 + 1 - y1) * k ≤ z.length
    · rw [if_pos hz]
      have hn' : 1 < (x2 + 1 - x1) * (y2 + 1 - y1) := by
        rcases hn with h | h
        · exact h
        · have := Nat.mul_le_mul_right k hpos
          omega
      obtain ⟨t, e, hl⟩ := plain_any hk hn' hz
      rw [e, bind_ok]
      refine hcopy (some t) ?_
      rintro _ ⟨⟩
      exact hl
    · rw [if_neg hz]
      exact Only.bind (tile_rle_any junk _ _ k z) (fun t ht => hcopy t ht)
  exact main

example : (∃ r, tile (fun _ => 9) 4 6 (List.replicate 120 7) 1 1 4 2 [3, 1] = .ok r ∧ ∀ d', r = some d' → d'.length = (List.replicate 120 (7 : UInt8)).length) ∨ tile (fun _ => 9) 4 6 (List.replicate 120 7) 1 1 4 2 [3, 1] = .error .oobRead :=
  C244_safe_partial _ 4 6 5 (Or.inr rfl) (by omega) (by omega) (by omega) _ (by simp) 1 1 4 2 (by omega) (by omega) (by omega) (by omega) _ (Or.inl (by omega))

/-- **C244** for all tiles of a picture, in part, as `C244_safe_partial`: the only fault is to read beyond the bytes of a tile, and the block of the image keeps its size. -/
theorem C244_picture_partial (junk : Nat → UInt8) (k width height : Nat) (hk : k = 3 ∨ k = 4) (hw : width ≤ 65535) (hh : height ≤ 65535) (hs : width * height * k < 2147483648) :
    ∀ (ts : List Chunk) (d : List UInt8) (_ : d.length = width * height * k)
      (_ : ∀ t ∈ ts, t.x1 ≤ t.x2 ∧ t.x2 < width ∧ t.y1 ≤ t.y2 ∧ t.y2 < height ∧ (1 < (t.x2 + 1 - t.x1) * (t.y2 + 1 - t.y1) ∨ t.z.length < k)),
    (∃ r, tiles junk k width ts d = .ok r ∧ ∀ d', r = some d' → d'.length = width * height * k) ∨ tiles junk k width ts d = .error .oobRead := by
  intro ts
  induction ts with
  | nil =>
    intro d hd _
    refine Or.inl ⟨some d, rfl, ?_⟩
    rintro _ ⟨⟩
    exact hd
  | cons t ts ih =>
    intro d hd hok
    obtain ⟨o1, o2, o3, o4, o5⟩ := hok t (by simp)
    rw [tiles]
    rcases C244_safe_partial junk k width height hk hw hh hs d hd t.x1 t.y1 t.x2 t.y2 o1 o2 o3 o4 t.z o5 with ⟨r, e, hr⟩ | e
    · rw [e, bind_ok]
      cases r with
      | none => exact Or.inl ⟨none, rfl, fun _ h => nomatch h⟩
      | some d1 => exact ih d1 (by rw [hr d1 rfl]; exact hd) (fun u hu => hok u (by simp [hu]))
    · rw [e]
      exact Or.inr rfl

example : (∃ r, tiles (fun _ => 9) 3 6 [⟨1, 1, 4, 2, [3, 1]⟩, ⟨0, 0, 1, 0, [1, 2, 3, 4, 5, 6]⟩] (List.replicate 90 7) = .ok r ∧ ∀ d', r = some d' → d'.length = 6 * 5 * 3) ∨
    tiles (fun _ => 9) 3 6 [⟨1, 1, 4, 2, [3, 1]⟩, ⟨0, 0, 1, 0, [1, 2, 3, 4, 5, 6]⟩] (List.replicate 90 7) = .error .oobRead :=
  C244_picture_partial _ 3 6 5 (Or.inl rfl) (by omega) (by omega) (by omega) _ _ (by simp) (by
    intro t ht
    simp only [List.mem_cons, List.not_mem_nil, or_false] at ht
    rcases ht with rfl | rfl <;> decide)

/-- **C244** fails for bytes that end in a packet: what the packet says is read beyond them. -/
theorem C244_violated_read (junk : Nat → UInt8) (d : List UInt8) : tile junk 4 1 d 0 0 0 0 [0] = .error .oobRead ∧ tile junk 4 1 d 0 0 0 0 [128] = .error .oobRead := ⟨rfl, rfl⟩

/-- **C244** fails for a single pixel that is not packed: a byte is written behind it, whatever the pixel is. -/
theorem C244_violated_pixel (junk : Nat → UInt8) (width : Nat) (d : List UInt8) (x y : Nat) (a b g r : UInt8) : tile junk 4 width d x y x y [a, b, g, r] = .error .oobWrite := by
  unfold tile
  simp only [show (x + 65536 - x + 1) % 65536 = 1 by omega, show (y + 65536 - y + 1) % 65536 = 1 by omega]
  rfl

/-- **C244** fails for tiles that are not in the image: any packed tile in the last row that goes beyond the right side is written outside the block. -/
theorem C244_violated_corner (junk : Nat → UInt8) (width height : Nat) (hh : 0 < height) (hs : width * height * 4 < 2147483648) (d : List UInt8) (hd : d.length = width * height * 4)
    (x1 x2 : Nat) (hx : x1 < width) (hx2 : width ≤ x2) (hx3 : x2 < 65535) (r g b a : List Packet)
    (R : Channel r (x2 + 1 - x1)) (G : Channel g (x2 + 1 - x1)) (B : Channel b (x2 + 1 - x1)) (A : Channel a (x2 + 1 - x1)) (hp : (packed r g b a).length < (x2 + 1 - x1) * 4) :
    tile junk 4 width d x1 (height - 1) x2 (height - 1) (packed r g b a) = .error .oobWrite := by
  obtain ⟨h, rfl⟩ : ∃ h, height = h + 1 := ⟨height - 1, by omega⟩
  rw [Nat.add_sub_cancel]
  have e1 : (x2 + 65536 - x1 + 1) % 65536 = x2 + 1 - x1 := side_eq (n := 65535) (by omega) hx3 (by omega)
  have e2 : (h + 65536 - h + 1) % 65536 = 1 := by omega
  obtain ⟨t, e, hl, -⟩ := tile_rle junk (w := x2 + 1 - x1) (h := 1) (by rw [Nat.mul_one]; exact R) (by rw [Nat.mul_one]; exact G) (by rw [Nat.mul_one]; exact B) (by rw [Nat.mul_one]; exact A)
  have hd' : width * (h + 1) * 4 = 4 * (width * h + width) := by rw [Nat.mul_add, Nat.mul_one, Nat.mul_comm]
  have hu : u32 (4 * (width * h + x1)) = 4 * (width * h + x1) := Nat.mod_eq_of_lt (by omega)
  unfold tile
  simp only [e1, e2]
  rw [if_neg (by omega), e, bind_ok]
  simp only [hu]
  show ((memcpy d (u32 (4 * (width * h + x1) + 4 * 0 * width)) t (4 * 0 * (x2 + 1 - x1)) ((x2 + 1 - x1) * 4) >>= fun s => Except.ok s) >>= fun d => pure (some d)) = _
  rw [show 4 * (width * h + x1) + 4 * 0 * width = 4 * (width * h + x1) by omega, hu]
  unfold memcpy
  rw [if_pos (by omega), if_neg (by omega)]
  rfl

example : tile (fun _ => 0) 4 2 (List.replicate 16 0) 1 1 8 1 (packed (some4 1 2) (some4 3 4) (some4 5 6) (some4 255 0)) = .error .oobWrite :=
  C244_violated_corner _ 2 2 (by omega) (by omega) _ (by simp) 1 8 (by omega) (by omega) (by omega) _ _ _ _ (some4_channel 1 2) (some4_channel 3 4) (some4_channel 5 6) (some4_channel 255 0) (by decide)

end DevIL.Iff
