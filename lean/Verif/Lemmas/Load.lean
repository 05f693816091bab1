import Verif.Props.Image
import Verif.Props.Manip
import Verif.Lemmas.Stream
/-! Facts the image loaders and savers share: fresh 8-bit images, rows from the top, filling a buffer. -/
set_option autoImplicit false
namespace DevIL.Load
open DevIL.Image DevIL.Utility DevIL.Lump

/-- A fresh image of one byte per component. -/
theorem init8 (junk : Nat → UInt8) {w h bpp : Nat} (fmt : Nat) (hw : 0 < w) (hh : 0 < h) (hfit : w * bpp * h < 4294967296) :
    ∃ m, ilInitImage junk w h 1 bpp fmt IL_UNSIGNED_BYTE none = .ok (some m) ∧ m.Consistent ∧ m.width = w ∧ m.height = h ∧
      m.depth = 1 ∧ m.bpp = bpp ∧ m.bpc = 1 ∧ m.format = fmt ∧ m.type = IL_UNSIGNED_BYTE ∧ m.bps = w * bpp ∧
      m.size = w * bpp * h ∧ m.data.length = w * bpp * h := by
  have hbt : ilGetBpcType IL_UNSIGNED_BYTE = 1 := rfl
  obtain ⟨m, em, c, f1, f2, f3, f4, f5, f6, f7, _⟩ := C14_geometry_partial junk w h 1 bpp fmt IL_UNSIGNED_BYTE none
      (by rw [hbt]; decide)
      (by rw [hbt, Nat.max_eq_left hw, Nat.max_eq_left hh, Nat.max_self, Nat.mul_one, Nat.mul_one]; exact hfit) (fun _ h => nomatch h)
  rw [hbt] at f5
  rw [Nat.max_eq_left hw] at f1
  rw [Nat.max_eq_left hh] at f2
  rw [Nat.max_self] at f3
  have hs : m.size = w * bpp * h := by rw [c.2.2.1, f1, f2, f4, f5, f3, Nat.mul_one, Nat.mul_one]
  exact ⟨m, em, c, f1, f2, f3, f4, f5, f6, f7, by rw [c.1, f1, f4, f5, Nat.mul_one], hs, by rw [c.2.2.2, hs]⟩

/-- The position of a pixel component in an image of one byte per component and one slice. -/
theorem px_eq {m : Img} (hb : m.bpc = 1) (x y b : Nat) : m.px x y 0 b = m.data[(y * m.width + x) * m.bpp + b]? := by
  unfold Img.px
  simp only [hb, Nat.zero_mul, Nat.zero_add, Nat.mul_one]

/-- The rows in the opposite order. -/
theorem flipped (junk : Nat → UInt8) {q : Img} (hc : q.Consistent) (hd : q.depth = 1) (hb : q.bpc = 1) (h32 : q.size < 4294967296) :
    ∃ t, Manip.iGetFlipped junk q = .ok t ∧ t.length = q.size ∧ ∀ x y b, x < q.width → y < q.height → b < q.bpp →
      t[(y * q.width + x) * q.bpp + b]? = q.px x (q.height - 1 - y) 0 b := by
  rw [Manip.C16_flipped_copy junk q hc (by omega)]
  obtain ⟨m', e, s, _, hp⟩ := Manip.C16_flip q hc (by omega)
  rw [e, bind_ok]
  refine ⟨m'.data, rfl, by rw [s.2, hc.2.2.2], fun x y b hx hy hb' => ?_⟩
  have key := hp x (q.height - 1 - y) 0 b ⟨hx, by omega, by rw [hd]; decide, by rw [hb]; omega⟩
  rw [show q.height - 1 - (q.height - 1 - y) = y by omega] at key
  rw [← key]
  unfold Img.px
  rw [s.1]
  simp only [hb, Nat.zero_mul, Nat.zero_add, Nat.mul_one]

/-- The rows of an image from the side where an image of origin `o` has its first row. -/
theorem fromSide (junk : Nat → UInt8) {q : Img} (hc : q.Consistent) (hd : q.depth = 1) (hb : q.bpc = 1) (h32 : q.size < 4294967296)
    (o : Nat) :
    ∃ t, (if q.origin ≠ o then Manip.iGetFlipped junk q else pure q.data) = .ok t ∧ t.length = q.size ∧
      ∀ x y b, x < q.width → y < q.height → b < q.bpp →
      t[(y * q.width + x) * q.bpp + b]? = q.px x (if q.origin = o then y else q.height - 1 - y) 0 b := by
  by_cases ho : q.origin = o
  · rw [if_neg (by simp [ho])]
    refine ⟨q.data, rfl, hc.2.2.2, fun x y b _ _ _ => ?_⟩
    rw [if_pos ho, px_eq hb]
  · rw [if_pos ho]
    obtain ⟨t, e, hl, hp⟩ := flipped junk hc hd hb h32
    refine ⟨t, e, hl, fun x y b hx hy hb' => ?_⟩
    rw [if_neg ho]
    exact hp x y b hx hy hb'

/-- `n` times `*q++ = v`. -/
theorem fill_splice {β : Type} {d : List β} {q n : Nat} {v : β} (hd : q + n ≤ d.length) :
    loopN n (fun i d => wr d (q + i) v) d = .ok (splice d q (List.replicate n v)) := by
  obtain ⟨t, e, ht⟩ := loopN_inv (n := n) (s := d) (f := fun i d => wr d (q + i) v)
    (fun k t => t = splice d q (List.replicate k v)) (by simp) (by
      rintro k t hk rfl
      have hl : (List.replicate k v).length = k := by simp
      refine ⟨_, wr_splice ?_, ?_⟩
      · rw [splice_length (by omega)]; omega
      · have := splice_splice (d := d) (o := List.replicate k v) (o' := [v]) (q := q) (by omega)
        rw [hl] at this
        rw [this, List.replicate_succ'])
  rw [e, ht]

end DevIL.Load
