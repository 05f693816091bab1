import Verif.Lemmas.GifPaint
/-! Property C101: a GIF file with one picture is loaded as the picture it describes. -/
set_option autoImplicit false
namespace DevIL.Gif
open DevIL.Lump DevIL.GifSpec DevIL.Image DevIL.Utility

/-- **C101 (partial).** A GIF file with one picture (`Still`: any screen, any colour tables, any extensions before the frame, the frame anywhere inside the screen, any
way of coding the pixels by LZW, split into data blocks in any way) is loaded: the result is `IL_TRUE` and one colour-index image of the size of the screen, with the first row
first.  Inside the frame it has the pixels that were coded, interlaced rows in their place; around the frame it has the transparent colour if there is one and the background
colour otherwise.  Its palette is the local colour table, or the global one if there is none, with alpha 0 for the transparent colour and 255 for the others; the duration is
that of the extension.  This holds whatever memory contained, and on hosts of either byte order.  `buf` is the static buffer of the decoder.
Missing: files in which a clear code is followed by fewer than two codes for pixels (`C101_violated_one_pixel`), interlaced frames that are not the whole screen
(`C101_violated_interlaced_part`) and files with several frames. -/
theorem C101_picture_partial (s : Still) (ok : s.StartOk) (inside : s.Inside) (whole : s.Interlaced → s.Whole) (px : List UInt8) (shows : s.Shows false px)
    (hlt : s.bytes.length < 4294967295) (big : Bool) (junk : Nat → UInt8) (jz : Junk) (buf : List UInt8) (hb : buf.length = 257) :
    ∃ F, ∀ fuel, F ≤ fuel → ∃ f p l', iLoadGifInternal fuel big junk jz buf (open_ s.bytes s.bytes.length) = .ok (true, [f], l') ∧
      f.img.Consistent ∧ f.img.width = s.width.toNat ∧ f.img.height = s.height.toNat ∧ f.img.depth = 1 ∧ f.img.bpp = 1 ∧ f.img.type = IL_UNSIGNED_BYTE ∧
      f.img.format = IL_COLOUR_INDEX ∧ f.img.origin = IL_ORIGIN_UPPER_LEFT ∧
      (∀ x j y, x < s.w.toNat → j < s.h.toNat → s.row j = some y → f.img.px (s.x.toNat + x) (s.y.toNat + y) 0 0 = px[j * s.w.toNat + x]?) ∧
      (∀ x y, x < s.width.toNat → y < s.height.toNat → (x < s.x.toNat ∨ s.x.toNat + s.w.toNat ≤ x ∨ y < s.y.toNat ∨ s.y.toNat + s.h.toNat ≤ y) →
        f.img.px x y 0 0 = some s.around) ∧
      f.pal = some p ∧ s.Colours p ∧ f.duration = s.duration ∧ f.offX = s.x.toNat ∧ f.offY = s.y.toNat := by
  obtain ⟨z1, z2, hpl, hold⟩ := shows
  have hbytes : s.bytes = s.start ++ UInt8.ofNat s.size :: (blockBytes s.blocks ++ 0 :: 0x3B :: []) := by
    unfold Still.bytes; simp
  have hat : At (open_ s.bytes s.bytes.length) (s.start ++ UInt8.ofNat s.size :: (blockBytes s.blocks ++ 0 :: 0x3B :: [])) := by
    have := at_open (data := s.bytes) (by rw [hbytes]; simp) hlt
    rw [hbytes] at this ⊢
    exact this
  obtain ⟨F, hF⟩ := GifGetData_spec ⟨z1, z2⟩ hold
  refine ⟨F + s.start.length + 2, fun fuel hfuel => ?_⟩
  obtain ⟨fuel, rfl⟩ : ∃ f, fuel = f + 1 := ⟨fuel - 1, by omega⟩
  obtain ⟨m, l1, mc, m1, m2, m3, m4, m5, m6, m7, m8, m9, m10, m11, hl1, _, _, hload⟩ :=
    load_start (jz := jz) (buf := buf) (big := big) (junk := junk) ok hat (fuel := fuel) (by omega)
  rw [m7] at m11
  have hroom : Room (jobOf s) m.data := room_of ok inside (by rw [m11]; simp)
  obtain ⟨buf', l', e, hl', _⟩ := hF fuel (by omega) hroom hpl hb hl1 (junk := jz)
  obtain ⟨p, l'', hcol, eload⟩ := hload _ _ _ [] e hl'
  obtain ⟨hin, hout⟩ := painted ok inside hpl m11
  have hpx : ∀ (d : List UInt8) (x y : Nat), Img.px { m with data := d } x y 0 0 = d[y * s.width.toNat + x]? := by
    intro d x y
    rw [Load.px_eq (m := { m with data := d }) m5]
    dsimp only
    rw [m1, m4, Nat.mul_one, Nat.add_zero]
  have hpl' : (paint (jobOf s) 0 px m.data).length = m.size := by rw [paint_length, mc.2.2.2]
  generalize paint (jobOf s) 0 px m.data = pd at *
  rw [eload]
  unfold straighten
  dsimp only
  by_cases hint : s.Interlaced
  · obtain ⟨w1, w2, w3, w4⟩ := whole hint
    have hx0 : s.x.toNat = 0 := by rw [w1]; rfl
    have hy0 : s.y.toNat = 0 := by rw [w2]; rfl
    obtain ⟨d, er, dl, hd⟩ := RemoveInterlace_spec (junk := junk) (m := { m with data := pd }) (by show m.size = m.bps * m.height; rw [m7, m6, m2]) hpl'
    have er : RemoveInterlace junk { m with data := pd } s.y.toNat = .ok { m with data := d } := by rw [hy0]; exact er
    rw [if_pos hint, er, bind_ok, pure_eq_ok, bind_ok]
    refine ⟨_, p, l'', rfl, ⟨mc.1, mc.2.1, mc.2.2.1, dl⟩, m1, m2, m3, m4, m9, m8, m10, ?_, ?_, rfl, hcol, rfl, rfl, rfl⟩
    · intro x j y hx hj hrow
      unfold Still.row at hrow
      rw [if_pos hint] at hrow
      dsimp only at hd
      rw [m2, m6, ← w4] at hd
      refine (hpx d _ _).trans ?_
      have := hin x j hx hj
      rw [hx0, hy0, Nat.zero_add, Nat.zero_add] at this
      rw [hx0, hy0, Nat.zero_add, Nat.zero_add, hd j y hrow x (by rw [← w3]; exact hx)]
      exact this
    · intro x y hx hy ho
      rw [hx0, hy0, w3, w4] at ho
      omega
  · rw [if_neg hint, pure_eq_ok, bind_ok]
    refine ⟨_, p, l'', rfl, ⟨mc.1, mc.2.1, mc.2.2.1, hpl'⟩, m1, m2, m3, m4, m9, m8, m10, ?_, ?_, rfl, hcol, rfl, rfl, rfl⟩
    · intro x j y hx hj hrow
      unfold Still.row at hrow
      rw [if_neg hint] at hrow
      rw [← Option.some.inj hrow]
      exact (hpx pd _ _).trans (hin x j hx hj)
    · intro x y hx hy ho
      exact (hpx pd _ _).trans (hout x y hx hy ho)

/-! ### Examples -/

/-- A picture of two pixels above each other, colours 1 and 2, on a screen of the size `w` times `h`, at the column `x`. -/
def tiny (w h x : BitVec 16) (flags : UInt8) : Still :=
  { version := 57, width := w, height := h, info := 0x81, background := 0, aspect := 0, globalTable := [0, 0, 0, 255, 0, 0, 0, 255, 0, 0, 0, 255], exts := [], x := x, y := 0, w := 1,
    h := 2, flags := flags, localTable := [], size := 2, blocks := [[0x8C, 0x0A]] }

theorem tiny_ok (w h x : BitVec 16) (hw : 0 < w.toNat) (hh : 0 < h.toNat) (flags : UInt8) (hf : tableSize flags = 0) : (tiny w h x flags).StartOk :=
  ⟨.inr rfl, ⟨hw, hh⟩, show 12 = tableSize 0x81 by decide, by rw [show (tiny w h x flags).flags = flags from rfl, hf]; rfl, .inl (show 0 < tableSize 0x81 by decide), by simp [tiny], show 0 < (1 : BitVec 16).toNat ∧ 0 < (2 : BitVec 16).toNat by decide⟩

theorem tiny_shows (w h x : BitVec 16) (flags : UInt8) : (tiny w h x flags).Shows false [1, 2] := by
  refine ⟨show 2 ≤ 2 by decide, show 2 ≤ 8 by decide, rfl, ?_, [(3, 1), (3, 2), (3, 5)], [false, false, false, false], ?_,
    show bitsOfBytes [0x8C, 0x0A] = bitsOf 3 4 ++ bitsOfCodes [(3, 1), (3, 2), (3, 5)] ++ [false, false, false, false] by decide, by decide⟩
  · intro b hb
    simp only [tiny, List.mem_singleton] at hb
    subst hb
    decide
  · exact .code true (roots 2) 1 [1] [2] _ rfl (by decide) (by decide) (.code false _ 2 [2] [] _ rfl (by decide) (by decide) (.finish false _))

/-- The picture is read on a larger screen with another column. -/
example (junk : Nat → UInt8) (jz : Junk) (buf : List UInt8) (hb : buf.length = 257) :
    ∃ F, ∀ fuel, F ≤ fuel → ∃ f l', iLoadGifInternal fuel false junk jz buf (open_ (tiny 2 2 1 0).bytes (tiny 2 2 1 0).bytes.length) = .ok (true, [f], l') ∧
      f.img.px 0 0 0 0 = some 0 ∧ f.img.px 1 0 0 0 = some 1 ∧ f.img.px 1 1 0 0 = some 2 := by
  obtain ⟨F, h⟩ := C101_picture_partial (tiny 2 2 1 0) (tiny_ok 2 2 1 (by decide) (by decide) 0 (by decide)) (by unfold Still.Inside; decide) (by intro h; exact absurd h (by decide)) [1, 2] (tiny_shows 2 2 1 0) (by decide)
    false junk jz buf hb
  refine ⟨F, fun fuel hf => ?_⟩
  obtain ⟨f, p, l', e, _, _, _, _, _, _, _, _, h1, h2, _⟩ := h fuel hf
  refine ⟨f, l', e, ?_, ?_, ?_⟩
  · exact h2 0 0 (by decide) (by decide) (by decide)
  · exact h1 0 0 0 (by decide) (by decide) rfl
  · exact h1 0 1 1 (by decide) (by decide) rfl

end DevIL.Gif
