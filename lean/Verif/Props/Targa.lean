import Verif.Lemmas.Targa
import Verif.Props.Rle
/-! C40 and C78: decoding run-length Targa data.  C77: loading arbitrary bytes as Targa.  C79: incomplete Targa files. -/
set_option autoImplicit false
namespace DevIL.Targa
open DevIL.Lump DevIL.Endian DevIL.Image DevIL.Utility DevIL.Rle

/-! ## C40 -/

/-- An image of bytes, one to four per pixel, whose pixels a 32-bit counter can number with room for one packet. -/
structure Fits (m : Img) : Prop where
  cons : m.Consistent
  bpc : m.bpc = 1
  bpp0 : 0 < m.bpp
  bpp : m.bpp ≤ 4
  size : m.size + 512 ≤ 4294967296

theorem Fits.sizeEq {m : Img} (h : Fits m) : u32 (m.width * m.height * m.depth * m.bpp) = m.size := by
  have e : m.width * m.height * m.depth * m.bpp = m.size := by rw [h.cons.2.2.1, h.bpc]; grind
  rw [e, u32_of_lt (by have := h.size; omega)]

/-- **C40 (partial).** Decoding any byte string as run-length Targa data into any image of at most 4 GiB less 512 bytes terminates
without touching memory outside the image or the input, and keeps the size of the pixel block.
Missing, and false: images of more than 2^32 - 512 bytes, see `C40_violated_large`. -/
theorem C40_safe_partial (junk : Nat → UInt8) (m : Img) (hm : Fits m) (stream : List UInt8) (h0 : 0 < stream.length)
    (hlt : stream.length < 4294967295) :
    ∃ ok data l, iUncompressTgaData junk m (open_ stream stream.length) = .ok (ok, data, l) ∧ data.length = m.size := by
  obtain ⟨t, e, h1, _, _⟩ := decode_safe (junk := junk) hm.bpp0 hm.bpp hm.size m.data (open_ stream stream.length) hm.cons.2.2.2
    (at_open h0 hlt).1
  unfold iUncompressTgaData
  rw [hm.sizeEq]
  simp only []
  rw [e, bind_ok]
  exact ⟨_, _, _, rfl, h1⟩

/-- A 2x2 grey image. -/
def grey22 : Img :=
  { width := 2, height := 2, depth := 1, bpp := 1, bpc := 1, bps := 2, plane := 4, size := 4, format := IL_LUMINANCE,
    type := IL_UNSIGNED_BYTE, origin := IL_ORIGIN_LOWER_LEFT, data := [0, 0, 0, 0] }

example : Fits grey22 := ⟨⟨rfl, rfl, rfl, rfl⟩, rfl, by decide, by decide, by decide⟩

/-- Two bytes per pixel and 4294967292 bytes. -/
def huge (data : List UInt8) : Img :=
  { width := 42966, height := 49981, depth := 1, bpp := 2, bpc := 1, bps := 85932, plane := 4294967292, size := 4294967292,
    format := IL_BGR, type := IL_UNSIGNED_BYTE, origin := IL_ORIGIN_LOWER_LEFT, data := data }

/-- `n` runs of 128 pixels, then 128 pixels verbatim. -/
def hugeStream (n : Nat) : List UInt8 := (List.replicate n [255, 1, 2]).flatten ++ (127 :: List.replicate 256 0)

theorem huge_runs (junk : Nat → UInt8) (size : Nat) (rest : List UInt8) : ∀ (k done fuel : Nat) (d : List UInt8) (l : R),
    done + 256 * k + 256 ≤ 4294967296 → done + 256 * k ≤ size → d.length = size → At l ((List.replicate k [255, 1, 2]).flatten ++ rest) → k ≤ fuel →
    ∃ d' l', whileF (fun s : D => !s.failed && decide (s.done < size)) (tgaStep junk 2 size) fuel ⟨done, d, l, false⟩ =
        whileF (fun s : D => !s.failed && decide (s.done < size)) (tgaStep junk 2 size) (fuel - k)
          ⟨done + 256 * k, d', l', false⟩ ∧ d'.length = size ∧ At l' rest := by
  intro k
  induction k with
  | zero => intro done fuel d l _ _ hd hl _; exact ⟨d, l, by simp, hd, by simpa using hl⟩
  | succ k ih =>
    intro done fuel d l hdone hsize hd hl hf
    obtain ⟨f, rfl⟩ : ∃ f, fuel = f + 1 := ⟨fuel - 1, by omega⟩
    rw [List.replicate_succ, List.flatten_cons, List.append_assoc] at hl
    have hl' : At l (255 :: ([1, 2] ++ ((List.replicate k [255, 1, 2]).flatten ++ rest))) := hl
    have h1 := hl'.adv_cons
    have a1 : done + 256 + 256 * k + 256 ≤ 4294967296 := by clear hsize; omega
    have a2 : done + 256 + 256 * k ≤ size := by clear hdone; omega
    have hrun := run_spec (px := [1, 2]) (tail := (alloc junk 4).drop 2) (done := done) (size := size) (bpp := 2) (n := 128) rfl d
      hd (by omega)
    have hstep : tgaStep junk 2 size ⟨done, d, l, false⟩ =
        .ok ⟨done + 256, clip d done (List.replicate 128 [1, 2]).flatten, adv (adv l 1) 2, false⟩ := by
      unfold tgaStep
      rw [hl'.getb, bind_ok]
      simp only []
      rw [if_pos (by decide)]
      unfold runStep
      rw [h1.readAt (bs := [1, 2]) (off := 0) (dst := alloc junk 4) (size := 1) (number := 2) rfl (by decide)
        (by rw [alloc_length]; decide), bind_ok]
      simp only []
      rw [if_neg (by simp), List.take_zero, List.nil_append]
      have e128 : (255 : UInt8).toNat % 128 + 1 = 128 := by decide
      rw [e128]
      simp only [List.length_cons, List.length_nil, Nat.zero_add]
      simp only [Nat.reduceAdd]
      rw [hrun, bind_ok, u32_of_lt (by omega)]
      rfl
    obtain ⟨d', l', e, h2, h3⟩ := ih (done + 256) f (clip d done (List.replicate 128 [1, 2]).flatten) (adv (adv l 1) 2) a1 a2
      (by rw [clip_length]; exact hd) (h1.adv (bs := [1, 2])) (by omega)
    refine ⟨d', l', ?_, h2, h3⟩
    rw [whileF, if_pos (by simp; omega), hstep, bind_ok, e]
    rw [show done + 256 + 256 * k = done + 256 * (k + 1) by omega, show f + 1 - (k + 1) = f - k by omega]

theorem huge_last (junk : Nat → UInt8) (size done fuel : Nat) (d : List UInt8) (l : R) (h : done + 256 = 4294967296)
    (hlt : done < size) (hsz : size < 4294967296) (hd : d.length = size) (hl : At l (127 :: List.replicate 256 0)) :
    whileF (fun s : D => !s.failed && decide (s.done < size)) (tgaStep junk 2 size) (fuel + 1) ⟨done, d, l, false⟩ =
      .error .oobWrite := by
  rw [whileF, if_pos (by simp only [Bool.not_false, Bool.true_and, decide_eq_true_eq]; omega)]
  have hstep : tgaStep junk 2 size ⟨done, d, l, false⟩ = .error .oobWrite := by
    unfold tgaStep
    rw [hl.getb, bind_ok]
    simp only []
    rw [if_neg (by decide)]
    unfold rawStep
    have e1 : ((127 : UInt8).toNat + 1) * 2 = 256 := by decide
    simp only [e1]
    have e2 : u32 (done + 256) = 0 := by unfold u32; omega
    rw [e2, if_neg (by omega)]
    unfold readAt
    have h1 := hl.adv_cons
    rw [At.read (bs := List.replicate 256 0) (rest := []) (by rw [List.append_nil]; exact h1) (by rw [List.length_replicate])
      (by decide), bind_ok]
    simp only []
    rw [if_neg (by rw [List.length_replicate]; omega)]
    rfl
  rw [hstep]
  rfl

theorem uncompress_error {junk : Nat → UInt8} {m : Img} {l : R} {size bpp : Nat} {d : List UInt8} {e : Fault}
    (hs : u32 (m.width * m.height * m.depth * m.bpp) = size) (hb : m.bpp = bpp) (hd : m.data = d)
    (h : whileF (fun s : D => !s.failed && decide (s.done < size)) (tgaStep junk bpp size) (size + 1) ⟨0, d, l, false⟩ = .error e) :
    iUncompressTgaData junk m l = .error e := by
  unfold iUncompressTgaData
  rw [hs, hb, hd]
  simp only []
  rw [h]
  rfl

/-- **C40 is violated for images that almost fill 32 bits.** A 42966x49981 image of two bytes per pixel and a stream of 50 MB: the
sum of the position and the length of the last packet wraps to 0, passes the check, and the packet is written past the end. -/
theorem C40_violated_large (junk : Nat → UInt8) (data : List UInt8) (n : Nat) (hn : n = 16777215)
    (hd : data.length = 4294967292) :
    (huge data).Consistent ∧ (hugeStream n).length = 50331902 ∧
    iUncompressTgaData junk (huge data) (open_ (hugeStream n) (hugeStream n).length) = .error .oobWrite := by
  have hlen : (hugeStream n).length = 50331902 := by
    unfold hugeStream
    rw [List.length_append, List.length_cons, List.length_replicate, List.length_flatten, List.map_replicate, List.sum_replicate_nat]
    rw [hn]
    rfl
  refine ⟨⟨show (85932 : Nat) = 42966 * 2 * 1 by decide, show (4294967292 : Nat) = 42966 * 2 * 1 * 49981 by decide,
    show (4294967292 : Nat) = 42966 * 2 * 1 * 49981 * 1 by decide, hd⟩, hlen, ?_⟩
  have hat := at_open (data := hugeStream n) (by omega) (by omega)
  obtain ⟨size, hsize⟩ : ∃ size, size = 4294967292 := ⟨_, rfl⟩
  rw [← hsize] at hd
  obtain ⟨d', l', e, hd', hl'⟩ := huge_runs junk size (127 :: List.replicate 256 0) n 0 (size + 1) data _ (by rw [hn])
    (by rw [hn, hsize]; decide) hd hat (by rw [hn, hsize]; decide)
  refine uncompress_error (size := size) (bpp := 2) (d := data) (by rw [hsize]; simp only [huge, u32]) (by simp only [huge])
    (by simp only [huge]) ?_
  rw [e]
  obtain ⟨f, hf⟩ : ∃ f, size + 1 - n = f + 1 := ⟨size - n, Nat.succ_sub (by rw [hn, hsize]; decide)⟩
  rw [hf]
  exact huge_last junk size _ f d' l' (by rw [hn]) (by rw [hn, hsize]; decide) (by rw [hsize]; decide) hd' hl'

/-! ## C78 -/

/-- **C78.** A stream of complete run-length packets that stand for at least as many bytes as the image has (the surplus of the
last packet is dropped) decodes to exactly those bytes, whatever follows in the input; if they are exactly as many, the input is
left right after the last packet. -/
theorem C78_decodes (junk : Nat → UInt8) (m : Img) (hm : Fits m) (stream out rest pre : List UInt8)
    (hp : Packets tgaHeader m.bpp stream out) (hout : m.size ≤ out.length) (hne : 0 < (pre ++ stream ++ rest).length)
    (hlt : (pre ++ stream ++ rest).length < 4294967295) :
    ∃ l, iUncompressTgaData junk m ⟨pre ++ stream ++ rest, (pre ++ stream ++ rest).length, pre.length⟩ =
        .ok (true, out.take m.size, l) ∧
      (out.length = m.size → l = ⟨pre ++ stream ++ rest, (pre ++ stream ++ rest).length, pre.length + stream.length⟩) := by
  have hat : At ⟨pre ++ stream ++ rest, (pre ++ stream ++ rest).length, pre.length⟩ (stream ++ rest) := by
    refine ⟨⟨rfl, ?_, hlt, hne⟩, ?_⟩
    · show pre.length ≤ (pre ++ stream ++ rest).length
      simp
    · show (pre ++ stream ++ rest).drop pre.length = _
      rw [List.append_assoc, List.drop_left]
  obtain ⟨t, e, h1, h2, h3⟩ := decode_spec (junk := junk) hm.bpp0 hm.bpp hm.size hp (m.size + 1) rest [] m.data _ (by simp) hat
    hm.cons.2.2.2 (by simpa using hout)
  simp only [List.length_nil, clip_nil, List.nil_append] at e h1 h3
  refine ⟨t.inp, ?_, ?_⟩
  · unfold iUncompressTgaData
    rw [hm.sizeEq]
    simp only []
    rw [e, bind_ok, h1, h2]
    rfl
  · intro he
    rw [h3 he]
    rfl

/-- A run of three pixels 7 and the pixel 9. -/
example : Packets tgaHeader 1 [130, 7, 0, 9] [7, 7, 7, 9] :=
  .run 130 3 [7] [0, 9] [9] rfl (by decide) rfl (.raw 0 1 [9] [] [] rfl (by decide) rfl .nil)

/-- **C41 with C78 (partial).** A scan line without equal neighbours that is encoded and decoded again comes back. -/
theorem C41_round_trip_partial (junk : Nat → UInt8) (line dest : List UInt8) (n : Nat) (m : Img) (hm : Fits m)
    (hsz : m.size = n * m.bpp) (hn0 : 0 < n) (hline : line.length = n * m.bpp) (hd : NoRuns m.bpp line)
    (hn : n < 2147483648) (hq : n * m.bpp + n / 126 + 3 ≤ dest.length) (hdest : dest.length < 4294967295) :
    ∃ dest' len l, ilRleCompressLine line 0 n m.bpp dest 0 false = .ok (dest', len) ∧ dest'.length = dest.length ∧
      iUncompressTgaData junk m ⟨dest', dest'.length, 0⟩ = .ok (true, line, l) ∧ l.pos = len := by
  have htake : (line.drop 0).take (n * m.bpp) = line := by rw [List.drop_zero, List.take_of_length_le (by omega)]
  obtain ⟨o, fin, e, pk, hfin, hlen⟩ := C41_line_partial line 0 n m.bpp dest 0 false hm.bpp0 hm.bpp hn (by omega)
    (by rw [htake]; exact hd) (by omega)
  simp only [Bool.false_eq_true, if_false] at hfin pk
  subst hfin
  rw [htake] at pk
  simp only [List.append_nil, List.take_zero, List.nil_append, Nat.zero_add] at e hlen
  have hl : (o ++ dest.drop o.length).length = dest.length := by simp; omega
  obtain ⟨l, e2, h2⟩ := C78_decodes junk m hm o line (dest.drop o.length) [] pk (by omega)
    (by rw [List.nil_append, hl]; omega) (by rw [List.nil_append, hl]; exact hdest)
  simp only [List.nil_append, List.length_nil, Nat.zero_add] at e2 h2
  refine ⟨_, _, l, e, hl, ?_, ?_⟩
  · rw [e2, List.take_of_length_le (by omega)]
  · rw [h2 (by omega)]

end DevIL.Targa
