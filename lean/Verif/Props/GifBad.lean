import Verif.Lemmas.GifSafe
/-! Property C101, violations, and property C102: no GIF file makes the loader touch memory it does not own. -/
set_option autoImplicit false
namespace DevIL.Gif
open DevIL.Lump DevIL.GifSpec DevIL.Image DevIL.Utility

theorem still_at {s : Still} (hlt : s.bytes.length < 4294967295) :
    At (open_ s.bytes s.bytes.length) (s.start ++ UInt8.ofNat s.size :: (blockBytes s.blocks ++ [0, 0x3B])) := by
  have hbytes : s.bytes = s.start ++ UInt8.ofNat s.size :: (blockBytes s.blocks ++ [0, 0x3B]) := by
    unfold Still.bytes; simp
  have := at_open (data := s.bytes) (by rw [hbytes]; simp) hlt
  rw [hbytes] at this ⊢
  exact this

/-- **C101 is violated.** No GIF file whose frame is a single pixel can be loaded, however it is coded: the result is `IL_FALSE`. -/
theorem C101_violated_one_pixel (s : Still) (ok : s.StartOk) (inside : s.Inside) (h1 : s.w = 1 ∧ s.h = 1) (v : UInt8) (shows : s.Shows true [v])
    (hlt : s.bytes.length < 4294967295) (big : Bool) (junk : Nat → UInt8) (jz : Junk) (buf : List UInt8) (hb : buf.length = 257) :
    ∃ F, ∀ fuel, F ≤ fuel → ∃ fs l', iLoadGifInternal fuel big junk jz buf (open_ s.bytes s.bytes.length) = .ok (false, fs, l') := by
  obtain ⟨z1, z2, hpl, hold⟩ := shows
  obtain ⟨F, hF⟩ := first_code ⟨z1, z2⟩ hold (by simp)
  refine ⟨F + s.start.length + 2, fun fuel hfuel => ?_⟩
  obtain ⟨fuel, rfl⟩ : ∃ f, fuel = f + 1 := ⟨fuel - 1, by omega⟩
  obtain ⟨m, l1, mc, m1, m2, m3, m4, m5, m6, m7, m8, m9, m10, m11, hl1, _, hbad, _⟩ :=
    load_start (jz := jz) (buf := buf) (big := big) (junk := junk) ok (still_at hlt) (fuel := fuel) (by omega)
  have hroom : Room (jobOf s) m.data := room_of ok inside (by rw [m11, m7]; simp)
  have hw : (jobOf s).w = 1 := by show s.w.toNat = 1; rw [h1.1]; rfl
  have hh : (jobOf s).h = 1 := by show s.h.toNat = 1; rw [h1.2]; rfl
  obtain ⟨c, rest, z, e1, e2, e3, _, e5⟩ := hF fuel (by omega) (k := jobOf s) (data := m.data) (junk := jz) (by omega) hb hl1
  have h256 : 2 ^ s.size ≤ 2 ^ 8 := Nat.pow_le_pow_right (by omega) z2
  obtain ⟨b', l', e⟩ := e5 (by
    have hput := put_spec (k := jobOf s) (n := 0) (d := m.data) (s := { startS jz (jobOf s).base m.data with oc := c, fc := UInt8.ofNat c }) (c := UInt8.ofNat c) hroom (by rw [hw, hh]; omega)
    have hcn : (UInt8.ofNat c).toNat = c := by simp; omega
    have hat : at_ (jobOf s) 0 m.data { startS jz (jobOf s).base m.data with oc := c, fc := UInt8.ofNat c } =
        { startS jz (jobOf s).base m.data with oc := c, fc := UInt8.ofNat c } := by simp [at_, startS]
    rw [hcn, hat] at hput
    unfold restart
    rw [if_neg (by rw [e3]; omega)]
    dsimp only
    rw [hput, bind_ok]
    dsimp only [at_]
    simp [hw, hh, pure_eq_ok])
  exact hbad _ _ _ e

/-- A file with a single pixel of colour 1: a clear code, the code 1 and the end code. -/
def dot : Still :=
  { version := 57, width := 1, height := 1, info := 0x81, background := 0, aspect := 0, globalTable := [0, 0, 0, 255, 0, 0, 0, 255, 0, 0, 0, 255], exts := [], x := 0, y := 0, w := 1,
    h := 1, flags := 0, localTable := [], size := 2, blocks := [[0x4C, 0x01]] }

example : dot.StartOk ∧ dot.Inside ∧ (dot.w = 1 ∧ dot.h = 1) ∧ dot.Shows true [1] ∧ dot.bytes.length < 4294967295 := by
  refine ⟨⟨.inr rfl, by decide, by decide, by decide, .inl (by decide), by simp [dot], by decide⟩, by unfold Still.Inside; decide, by decide, ?_, by decide⟩
  refine ⟨by decide, by decide, rfl, ?_, [(3, 1), (3, 5)], [false, false, false, false, false, false, false], ?_, by decide, by decide⟩
  · intro b hb
    simp only [dot, List.mem_singleton] at hb
    subst hb
    decide
  · exact .code true (roots 2) 1 [1] [] _ rfl (by decide) (by decide) (.finish false _)

/-- The rows of the picture that the file `tiny 1 3 0 0x40` describes. -/
example : (tiny 1 3 0 0x40).row 0 = some 0 ∧ (tiny 1 3 0 0x40).row 1 = some 1 := by decide

/-- **C101 is violated.** A file with an interlaced frame that has fewer rows than the screen is loaded with rows in the wrong place: of the two rows of the frame, coloured 1
and 2, the second should be row 1 of the image, which has the background colour instead. -/
theorem C101_violated_interlaced_part : (tiny 1 3 0 0x40).Shows false [1, 2] ∧ (tiny 1 3 0 0x40).row 1 = some 1 ∧
    ∀ (big : Bool) (junk : Nat → UInt8) (jz : Junk) (buf : List UInt8), buf.length = 257 →
    ∃ F, ∀ fuel, F ≤ fuel → ∃ f l', iLoadGifInternal fuel big junk jz buf (open_ (tiny 1 3 0 0x40).bytes (tiny 1 3 0 0x40).bytes.length) = .ok (true, [f], l') ∧
      f.img.px 0 1 0 0 = some 0 := by
  refine ⟨tiny_shows 1 3 0 0x40, by decide, fun big junk jz buf hb => ?_⟩
  have ok := tiny_ok 1 3 0 (by decide) (by decide) 0x40 (by decide)
  have inside : (tiny 1 3 0 0x40).Inside := by unfold Still.Inside; decide
  obtain ⟨z1, z2, hpl, hold⟩ := tiny_shows 1 3 0 0x40
  obtain ⟨F, hF⟩ := GifGetData_spec ⟨z1, z2⟩ hold
  refine ⟨F + (tiny 1 3 0 0x40).start.length + 2, fun fuel hfuel => ?_⟩
  obtain ⟨fuel, rfl⟩ : ∃ f, fuel = f + 1 := ⟨fuel - 1, by omega⟩
  obtain ⟨m, l1, mc, m1, m2, m3, m4, m5, m6, m7, m8, m9, m10, m11, hl1, _, _, hload⟩ :=
    load_start (jz := jz) (buf := buf) (big := big) (junk := junk) ok (still_at (s := tiny 1 3 0 0x40) (by decide)) (fuel := fuel) (by omega)
  rw [m7] at m11
  have hroom : Room (jobOf (tiny 1 3 0 0x40)) m.data := room_of ok inside (by rw [m11]; simp)
  obtain ⟨buf', l', e, hl', _⟩ := hF fuel (by omega) hroom hpl hb hl1 (junk := jz)
  obtain ⟨p, l'', hcol, eload⟩ := hload _ _ _ [] e hl'
  obtain ⟨hin, hout⟩ := painted ok inside hpl m11
  have hw : (tiny 1 3 0 0x40).width.toNat = 1 := by decide
  have hh : (tiny 1 3 0 0x40).height.toNat = 3 := by decide
  have hpl' : (paint (jobOf (tiny 1 3 0 0x40)) 0 [1, 2] m.data).length = m.size := by rw [paint_length, mc.2.2.2]
  obtain ⟨d, er, dl, hd⟩ := RemoveInterlace_spec (junk := junk) (m := { m with data := paint (jobOf (tiny 1 3 0 0x40)) 0 [1, 2] m.data })
    (by show m.size = m.bps * m.height; rw [m7, m6, m2]) hpl'
  have h2 := hd 2 1 (by show (interlaced m.height)[2]? = some 1; rw [m2, hh]; decide) 0 (by show 0 < m.bps; rw [m6, hw]; decide)
  have h3 := hout 0 2 (by rw [hw]; omega) (by rw [hh]; omega) (by right; right; right; decide)
  refine ⟨{ img := { m with data := d }, pal := some p, offX := 0, offY := 0, duration := (tiny 1 3 0 0x40).duration }, l'', ?_, ?_⟩
  · rw [eload]
    unfold straighten
    dsimp only
    rw [if_pos (by decide), show (tiny 1 3 0 0x40).y.toNat = 0 from rfl, er, bind_ok, pure_eq_ok, bind_ok]
    rfl
  · rw [Load.px_eq (by exact m5)]
    dsimp only at h2 ⊢
    rw [m6, hw] at h2
    rw [m1, m4, hw]
    rw [hw] at h3
    exact h2.trans h3

/-- **C102 is violated.** Every GIF file whose frame begins below the screen makes the loader write behind the image: the loader does not compare the frame with the screen.
The heap gets pixels of the file's choice at an offset of the file's choice. -/
theorem C102_violated_frame_outside (s : Still) (ok : s.StartOk) (below : s.height.toNat ≤ s.y.toNat) (plain : lastControl s.exts = none) (lone : Bool) (px : List UInt8)
    (shows : s.Shows lone px) (hlt : s.bytes.length < 4294967295) (big : Bool) (junk : Nat → UInt8) (jz : Junk) (buf : List UInt8) (hb : buf.length = 257) :
    ∃ F, ∀ fuel, F ≤ fuel → iLoadGifInternal fuel big junk jz buf (open_ s.bytes s.bytes.length) = .error .oobWrite := by
  obtain ⟨z1, z2, hpl, hold⟩ := shows
  obtain ⟨hw, hh⟩ := ok.frame
  have hpos := Nat.mul_pos hw hh
  obtain ⟨F, hF⟩ := first_code ⟨z1, z2⟩ hold (by rintro rfl; simp at hpl; omega)
  refine ⟨F + s.start.length + 2, fun fuel hfuel => ?_⟩
  obtain ⟨fuel, rfl⟩ : ∃ f, fuel = f + 1 := ⟨fuel - 1, by omega⟩
  obtain ⟨m, l1, mc, m1, m2, m3, m4, m5, m6, m7, m8, m9, m10, m11, hl1, hbad, _, _⟩ :=
    load_start (jz := jz) (buf := buf) (big := big) (junk := junk) ok (still_at hlt) (fuel := fuel) (by omega)
  obtain ⟨c, rest, z, e1, e2, e3, e4, _⟩ := hF fuel (by omega) (k := jobOf s) (data := m.data) (junk := jz) hh hb hl1
  apply hbad
  apply e4
  have hge : m.data.length ≤ s.x.toNat + s.y.toNat * s.width.toNat := by
    have : s.height.toNat * s.width.toNat ≤ s.y.toNat * s.width.toNat := Nat.mul_le_mul_right _ below
    rw [mc.2.2.2, m7, Nat.mul_comm]
    omega
  unfold restart
  rw [if_neg (by rw [e3]; omega)]
  dsimp only
  unfold put
  dsimp only
  rw [show (jobOf s).gfx = none by show gfxOf _ = none; rw [plain]; rfl, show skips none c = false from rfl, if_neg (by decide)]
  have hw' : (startS jz (jobOf s).base m.data).i < (jobOf s).w := hw
  rw [if_pos hw']
  rw [show wr (startS jz (jobOf s).base m.data).data ((startS jz (jobOf s).base m.data).dp + (startS jz (jobOf s).base m.data).i) (UInt8.ofNat (c + (jobOf s).pal)) = .error .oobWrite
    from wr_of_ge (by exact hge)]
  rfl

/-- Such a file. -/
example : ∃ s : Still, s.StartOk ∧ s.height.toNat ≤ s.y.toNat ∧ lastControl s.exts = none ∧ s.Shows false [1, 2] ∧ s.bytes.length < 4294967295 := by
  refine ⟨{ tiny 1 1 0 0 with y := 9 }, ?_, by decide, rfl, tiny_shows 1 1 0 0, by decide⟩
  have h := tiny_ok 1 1 0 (by decide) (by decide) 0 (by decide)
  exact ⟨h.1, h.2, h.3, h.4, h.5, h.6, h.7⟩

/-- A file whose data are a clear code, the code 0, and twice the code 15, which has no meaning yet. -/
def wild : Still :=
  { version := 57, width := 4, height := 1, info := 0x81, background := 0, aspect := 0, globalTable := [0, 0, 0, 255, 0, 0, 0, 255, 0, 0, 0, 255], exts := [], x := 0, y := 0, w := 4,
    h := 1, flags := 0, localTable := [], size := 3, blocks := [[0x08, 0xFF]] }

theorem get4 {z : Z} {c : Nat} {bits : List Bool} {tail : List UInt8} (hc : c < 16) (hcur : z.cur = 4) (h : Feeds z.src (bitsOf 4 c ++ bits) tail) :
    ∃ src, get_next_code z = .ok (c, { z with src := src }) ∧ Feeds src bits tail := by
  obtain ⟨src, e, hf⟩ := nextCode_spec h (by decide) (by decide) (by omega)
  refine ⟨src, ?_, hf⟩
  unfold get_next_code
  rw [hcur, e, bind_ok]
  rfl

/-- **C102 is violated.** The loader follows entries of the code table that it has not written: with this file, whose frame is the screen, it reads wherever the uninitialised
entry 15 points to. -/
theorem C102_violated_uninitialised : wild.StartOk ∧ wild.Whole ∧
    ∀ (big : Bool) (junk : Nat → UInt8) (jz : Junk) (buf : List UInt8), buf.length = 257 → 4096 < jz.pre 15 →
    ∃ F, ∀ fuel, F ≤ fuel → iLoadGifInternal fuel big junk jz buf (open_ wild.bytes wild.bytes.length) = .error .oobRead := by
  have ok : wild.StartOk := ⟨.inr rfl, by decide, by decide, by decide, .inl (by decide), by simp [wild], by decide⟩
  refine ⟨ok, ⟨rfl, rfl, rfl, rfl⟩, fun big junk jz buf hb hj => ⟨wild.start.length + 10, fun fuel hfuel => ?_⟩⟩
  obtain ⟨fuel, rfl⟩ : ∃ f, fuel = f + 6 := ⟨fuel - 6, by omega⟩
  obtain ⟨m, l1, mc, m1, m2, m3, m4, m5, m6, m7, m8, m9, m10, m11, hl1, hbad, _, _⟩ :=
    load_start (jz := jz) (buf := buf) (big := big) (junk := junk) ok (still_at (s := wild) (by decide)) (fuel := fuel + 5) (by omega)
  apply hbad
  have hm : m.data.length = 4 := by rw [m11, m7]; simp; decide
  have hadv := At.adv_cons hl1
  have h0 : Feeds (startZ 3 buf (adv l1 1)).src (bitsOf 4 8 ++ (bitsOf 4 0 ++ (bitsOf 4 15 ++ (bitsOf 4 15 ++ [])))) [0, 0x3B] := by
    refine ⟨[0x08, 0xFF], by show 0 ≤ 8; omega, ⟨0, [[0x08, 0xFF]], rfl, by show 0 + 0 ≤ _; omega, hb, ?_, hadv, by simp⟩,
      show bitsOf 4 8 ++ (bitsOf 4 0 ++ (bitsOf 4 15 ++ (bitsOf 4 15 ++ []))) = (byteBits 0).drop (8 - 0) ++ bitsOfBytes [8, 255] by decide⟩
    intro b hb
    simp only [List.mem_singleton] at hb
    subst hb
    decide
  obtain ⟨s1, e1, h1⟩ := get4 (z := startZ 3 buf (adv l1 1)) (by decide) rfl h0
  obtain ⟨s2, e2, h2⟩ := get4 (z := { startZ 3 buf (adv l1 1) with src := s1 }) (by decide) rfl h1
  obtain ⟨s3, e3, h3⟩ := get4 (z := { startZ 3 buf (adv l1 1) with src := s2 }) (by decide) rfl h2
  obtain ⟨s4, e4, h4⟩ := get4 (z := { startZ 3 buf (adv l1 1) with src := s3, slot := 11 }) (by decide) rfl h3
  have hsuf : (startS jz (jobOf wild).base m.data).suffix.length = 4097 := by simp [startS, MAX_CODES]
  have hpre : (startS jz (jobOf wild).base m.data).pre.length = 4097 := by simp [startS, MAX_CODES]
  have h15 : (startS jz (jobOf wild).base m.data).pre[15]? = some (jz.pre 15) := by rw [startS_pre]; simp [MAX_CODES]
  have hsk : ∀ c, skips (jobOf wild).gfx c = false := fun _ => rfl
  obtain ⟨su, hsu⟩ : ∃ su, su = (startS jz (jobOf wild).base m.data).suffix := ⟨_, rfl⟩
  obtain ⟨pr, hpr⟩ : ∃ pr, pr = (startS jz (jobOf wild).base m.data).pre := ⟨_, rfl⟩
  rw [← hsu] at hsuf
  rw [← hpr] at hpre h15
  have hS : startS jz (jobOf wild).base m.data = { suffix := su, pre := pr, oc := 0, fc := 0, i := 0, read := 0, j := 0, dp := 0, data := m.data } := by rw [hsu, hpr]; simp only [startS]; congr 1
  -- the first pixel
  have hr : restart (jobOf wild) 0 { startZ 3 buf (adv l1 1) with src := s2 } (startS jz (jobOf wild).base m.data) =
      .ok (some { suffix := su, pre := pr, oc := 0, fc := 0, i := 1, read := 0, j := 0, dp := 0, data := m.data.set 0 0 }) := by
    rw [hS]
    unfold restart
    rw [if_neg (by show ¬ 0 ≥ 10; decide)]
    dsimp only
    unfold put
    rw [hsk, if_neg (by decide), if_pos (by show 0 < 4; decide), wr_of_lt (by show 0 < m.data.length; omega), bind_ok]
    rfl
  -- the two after it
  have hu : useCode (jobOf wild) 15 { startZ 3 buf (adv l1 1) with src := s3 } { suffix := su, pre := pr, oc := 0, fc := 0, i := 1, read := 0, j := 0, dp := 0, data := m.data.set 0 0 } =
      .ok (some ({ startZ 3 buf (adv l1 1) with src := s3, slot := 11 },
        { suffix := su.set 10 0, pre := pr.set 10 0, oc := 15, fc := 0, i := 3, read := 0, j := 0, dp := 0, data := ((m.data.set 0 0).set 1 0).set 2 0 })) := by
    have hx : ∀ s : S, expand 10 s 4098 0 [0] = .ok (some (0, [0, 0])) := fun s => rfl
    have hl : learn 15 0 { startZ 3 buf (adv l1 1) with src := s3 } { suffix := su, pre := pr, oc := 0, fc := 0, i := 1, read := 0, j := 0, dp := 0, data := m.data.set 0 0 } =
        .ok ({ startZ 3 buf (adv l1 1) with src := s3, slot := 11 },
          { suffix := su.set 10 0, pre := pr.set 10 0, oc := 15, fc := 0, i := 1, read := 0, j := 0, dp := 0, data := m.data.set 0 0 }) := by
      unfold learn
      rw [if_pos (by show 10 < 16; decide)]
      dsimp only
      rw [wr_of_lt (b := su) (by show 10 < su.length; omega), bind_ok, wr_of_lt (b := pr) (by show 10 < pr.length; omega), bind_ok]
      rfl
    unfold useCode
    dsimp only [startZ]
    simp only [show (15 : Nat) ≥ 2 ^ 3 + 2 by decide, show (15 : Nat) ≥ 11 by decide, if_true]
    rw [if_neg (by show ¬ 0 ≥ 4096; decide)]
    show (expand 10 _ 4098 0 [0] >>= _) = _
    rw [hx, bind_ok]
    dsimp only
    dsimp only [startZ] at hl
    rw [hl, bind_ok]
    dsimp only
    unfold popAll put
    rw [hsk, if_neg (by decide), if_pos (by show 1 < 4; decide), wr_of_lt (by simp; omega), bind_ok, pure_eq_ok, bind_ok]
    dsimp only
    rw [if_neg (by show ¬ 1 + 1 = 4; decide)]
    unfold popAll put
    rw [hsk, if_neg (by decide), if_pos (by show 2 < 4; decide), wr_of_lt (by simp; omega), bind_ok, pure_eq_ok, bind_ok]
    rfl
  -- the code without meaning
  have hv : useCode (jobOf wild) 15 { startZ 3 buf (adv l1 1) with src := s4, slot := 11 }
      { suffix := su.set 10 0, pre := pr.set 10 0, oc := 15, fc := 0, i := 3, read := 0, j := 0, dp := 0, data := ((m.data.set 0 0).set 1 0).set 2 0 } = .error .oobRead := by
    unfold useCode
    dsimp only [startZ]
    simp only [show (15 : Nat) ≥ 2 ^ 3 + 2 by decide, show (15 : Nat) ≥ 11 by decide, if_true]
    rw [if_neg (by show ¬ 15 ≥ 4096; decide)]
    unfold expand
    rw [if_pos (by show (10 : Int) ≤ 15; decide), if_neg (by show ¬ 1 ≥ 4096; decide)]
    dsimp only
    rw [show ((15 : Nat) : Int).toNat = 15 from rfl, rd_of_lt (b := su.set 10 0) (i := 15) (by simp; omega), bind_ok, rd_of_some (b := pr.set 10 0) (i := 15) (v := jz.pre 15) (by rw [List.getElem?_set_ne (by decide)]; exact h15), bind_ok]
    unfold expand
    rw [if_pos (by show (10 : Int) ≤ jz.pre 15; omega), if_neg (by show ¬ 2 ≥ 4096; decide), rd_of_ge (b := su.set 10 0) (by simp; omega)]
    rfl
  unfold GifGetData
  rw [At.getc hl1, bind_ok]
  dsimp only
  rw [if_neg (by decide)]
  show ((dataLoop (jobOf wild) 3 (fuel + 5) (startZ 3 buf (adv l1 1)) (startS jz (jobOf wild).base m.data)) >>= _) = _
  unfold dataLoop
  rw [e1, bind_ok]
  dsimp only
  rw [if_neg (by show ¬ (8 = 9 ∨ 1 ≤ 0); decide), if_pos (by rfl)]
  unfold skipClears
  rw [show get_next_code { startZ 3 buf (adv l1 1) with cur := 3 + 1, slot := (startZ 3 buf (adv l1 1)).newcodes, top := 2 ^ (3 + 1), src := s1 } = _ from e2, bind_ok]
  dsimp only
  rw [if_neg (by show ¬ 0 = 8; decide), pure_eq_ok, bind_ok]
  dsimp only
  rw [if_neg (by show ¬ 0 = 9; decide)]
  rw [show restart (jobOf wild) 0 _ (startS jz (jobOf wild).base m.data) = _ from hr, bind_ok]
  dsimp only
  unfold dataLoop
  rw [show get_next_code _ = _ from e3, bind_ok]
  dsimp only
  rw [if_neg (by show ¬ (15 = 9 ∨ 1 ≤ 0); decide), if_neg (by show ¬ 15 = 8; decide)]
  rw [show useCode (jobOf wild) 15 _ _ = _ from hu, bind_ok]
  dsimp only
  unfold dataLoop
  rw [show get_next_code _ = _ from e4, bind_ok]
  dsimp only
  rw [if_neg (by show ¬ (15 = 9 ∨ 1 ≤ 0); decide), if_neg (by show ¬ 15 = 8; decide)]
  rw [show useCode (jobOf wild) 15 _ _ = _ from hv]
  rfl

/-- **C102, the pixels.** Whatever bytes stand where the pixels of a frame should be, decoding them ends, and changes only the pixels of the frame, as long as the frame lies
within the image's memory and the memory the code table is allocated in holds no number above 4096.  `k.base` is the index of the frame's first pixel and `k.stride` the
distance between rows.

Missing: the table is not initialised (`C102_violated_uninitialised`), and frames are not compared with the image (`C102_violated_frame_outside`). -/
theorem C102_pixels_partial (bytes : List UInt8) (hne : bytes ≠ []) (hlt : bytes.length < 4294967295) (k : Job) (data buf : List UInt8) (jz : Junk) (hb : buf.length = 257)
    (inside : ∀ x y, x < k.w → y < k.h → k.base + y * k.stride + x < data.length) (table : ∀ i, jz.pre i ≤ 4096) :
    ∀ fuel, 8 * bytes.length < fuel → ∃ ok data' buf' l', GifGetData fuel jz k data buf (open_ bytes bytes.length) = .ok (ok, data', buf', l') ∧
      data'.length = data.length ∧ ∀ p : Nat, (∀ x y, x < k.w → y < k.h → p ≠ k.base + y * k.stride + x) → data'[p]? = data[p]? := by
  intro fuel hf
  obtain ⟨⟨ok, d, b, l⟩, e, h, _⟩ := GifGetData_safe (k := k) (jz := jz) (data := data) (buf := buf) (at_open (List.length_pos_iff.2 hne) hlt).good hb inside table (fuel := fuel) hf
  exact ⟨ok, d, b, l, e, h.1, h.2⟩

/-- A frame of 2 x 2 pixels in the middle of an image of 4 x 4. -/
example : ∃ (k : Job) (data : List UInt8), k.w = 2 ∧ k.h = 2 ∧ (∀ x y, x < k.w → y < k.h → k.base + y * k.stride + x < data.length) ∧
    ∃ p : Nat, p < data.length ∧ ∀ x y, x < k.w → y < k.h → p ≠ k.base + y * k.stride + x := by
  refine ⟨⟨none, 5, 2, 2, 4, 0⟩, List.replicate 16 0, rfl, rfl, ?_, 0, by decide, ?_⟩
  · intro x y hx hy
    have hx : x < 2 := hx
    have hy : y < 2 := hy
    show 5 + y * 4 + x < (List.replicate 16 (0 : UInt8)).length
    rw [List.length_replicate]
    omega
  · intro x y _ _
    show 0 ≠ 5 + y * 4 + x
    omega

end DevIL.Gif
