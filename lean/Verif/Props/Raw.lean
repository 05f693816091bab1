import Verif.Model.Raw
import Verif.Lemmas.Stream
import Verif.Props.Lump
import Verif.Props.Image
/-! C38: RAW save and load.  C75: loading arbitrary bytes as RAW.  C35 for RAW. -/
set_option autoImplicit false
namespace DevIL.Raw
open DevIL.Lump DevIL.Endian DevIL.Image DevIL.Utility

/-- An image as the library makes them: consistent geometry, non-zero dimensions, a component size that exists, fields
that fit their C types. -/
structure Sound (m : Img) : Prop where
  cons : m.Consistent
  w0 : 0 < m.width
  h0 : 0 < m.height
  d0 : 0 < m.depth
  bpp0 : 0 < m.bpp
  bpp : m.bpp < 256
  bpc : m.bpc = 1 ∨ m.bpc = 2 ∨ m.bpc = 4 ∨ m.bpc = 8

theorem type_bpc {bpc : Nat} (h : bpc = 1 ∨ bpc = 2 ∨ bpc = 4 ∨ bpc = 8) :
    ilGetBpcType (ilGetTypeBpc bpc) = bpc ∧ bpc < 256 := by
  rcases h with h | h | h | h <;> subst h <;> decide

theorem Sound.lt {m : Img} (h : Sound m) {n : Nat} (hn : m.size < n) : m.width < n ∧ m.height < n ∧ m.depth < n := by
  have hs := h.cons.2.2.1
  have hc : 0 < m.bpc := by rcases h.bpc with e | e | e | e <;> omega
  have b0 := h.bpp0; have w0 := h.w0; have h0 := h.h0; have d0 := h.d0
  have le1 : ∀ {a b : Nat}, 0 < b → a ≤ a * b := fun {a b} hb => Nat.le_mul_of_pos_right a hb
  have le2 : ∀ {a b : Nat}, 0 < a → b ≤ a * b := fun {a b} hb => Nat.le_mul_of_pos_left b hb
  have p1 : 0 < m.width * m.bpp * m.bpc := Nat.mul_pos (Nat.mul_pos w0 b0) hc
  have p2 : 0 < m.width * m.bpp * m.bpc * m.height := Nat.mul_pos p1 h0
  have a1 : m.width ≤ m.size := by
    rw [hs]; exact Nat.le_trans (le1 b0) (Nat.le_trans (le1 hc) (Nat.le_trans (le1 h0) (le1 d0)))
  have a2 : m.height ≤ m.size := by rw [hs]; exact Nat.le_trans (le2 p1) (le1 d0)
  have a3 : m.depth ≤ m.size := by rw [hs]; exact le2 p2
  omega

/-- The bytes of a RAW file. -/
theorem output_raw (big : Bool) (m : Img) (hw : m.width < 4294967296) (hh : m.height < 4294967296)
    (hd : m.depth < 4294967296) (hl : m.data.length = m.size) :
    output (iSaveRawInternal big m) = leBytes 4 m.width ++ (leBytes 4 m.height ++ (leBytes 4 m.depth ++
      (UInt8.ofNat m.bpp :: UInt8.ofNat m.bpc :: m.data))) := by
  have t : ∀ v, v < 4294967296 → (BitVec.ofNat 32 v).toNat = v := fun v hv => by simp; omega
  unfold output iSaveRawInternal
  simp only [List.flatMap_cons, List.flatMap_nil, WOp.bytes, saveLittleUInt_eq, t _ hw, t _ hh, t _ hd]
  rw [List.take_of_length_le (by simp), List.take_of_length_le (by simp), List.take_of_length_le (by simp),
    List.take_of_length_le (by omega)]
  simp

theorem plain_raw (big : Bool) (m : Img) (hl : m.data.length = m.size) : ∀ op ∈ iSaveRawInternal big m, Plain op := by
  intro op h
  simp only [iSaveRawInternal, List.mem_cons, List.not_mem_nil, or_false] at h
  rcases h with h | h | h | h | h | h <;> subst h
  · simp [Plain, saveLittleUInt_eq]
  · simp [Plain, saveLittleUInt_eq]
  · simp [Plain, saveLittleUInt_eq]
  · trivial
  · trivial
  · simp [Plain, hl]

/-- **C38.** Every image (below the 4 GiB limit of lumps) saved as RAW by a host of either endianness and loaded by a
host of either endianness comes back with the same width, height, depth, components per pixel, component size and pixel
data.  The file is read to its end. -/
theorem C38_round_trip (big big' : Bool) (junk : Nat → UInt8) (o : Option Nat) (m : Img) (h : Sound m)
    (hsz : m.size < 4294967281) :
    let file := output (iSaveRawInternal big m)
    ∃ m', iLoadRawInternal big' junk o (open_ file file.length) = .ok (some m', ⟨file, file.length, file.length⟩) ∧
      m'.width = m.width ∧ m'.height = m.height ∧ m'.depth = m.depth ∧ m'.bpp = m.bpp ∧ m'.bpc = m.bpc ∧
      m'.data = m.data ∧ m'.Consistent := by
  intro file
  obtain ⟨hw, hh, hd⟩ := h.lt (Nat.lt_trans hsz (by decide : (4294967281 : Nat) < 4294967296))
  have hl := h.cons.2.2.2
  have hf : file = _ := output_raw big m hw hh hd hl
  have hlen : file.length = 14 + m.size := by rw [hf]; simp; omega
  have t : ∀ v, v < 4294967296 → (BitVec.ofNat 32 v).toNat = v := fun v hv => by simp; omega
  have a0 : At (open_ file file.length) (leBytes 4 (BitVec.ofNat 32 m.width).toNat ++
      (leBytes 4 (BitVec.ofNat 32 m.height).toNat ++ (leBytes 4 (BitVec.ofNat 32 m.depth).toNat ++
      (UInt8.ofNat m.bpp :: UInt8.ofNat m.bpc :: (m.data ++ []))))) := by
    have := at_open (data := file) (by omega) (by omega)
    rw [t _ hw, t _ hh, t _ hd, List.append_nil]
    refine ⟨this.1, ?_⟩
    rw [this.2]; exact hf
  have a1 := a0.adv
  have a2 := a1.adv
  have a3 := a2.adv
  have a4 := a3.adv_cons
  have a5 := a4.adv_cons
  simp only [leBytes_length] at a1 a2 a3 a4 a5
  have hb : (UInt8.ofNat m.bpp).toNat = m.bpp := by
    have := h.bpp; simp [UInt8.toNat_ofNat']; omega
  obtain ⟨ht, hc8⟩ := type_bpc h.bpc
  have hc : (UInt8.ofNat m.bpc).toNat = m.bpc := by simp [UInt8.toNat_ofNat']; omega
  have hprod : max m.width 1 * m.bpp * m.bpc * max m.height 1 * max m.depth 1 = m.size := by
    rw [Nat.max_eq_left h.w0, Nat.max_eq_left h.h0, Nat.max_eq_left h.d0]; exact h.cons.2.2.1.symm
  have hnz : m.bpc ≠ 0 := by rcases h.bpc with e | e | e | e <;> omega
  obtain ⟨m1, e1, c1, f1, f2, f3, f4, f5, f6, f7, _⟩ := C14_geometry_partial junk m.width m.height m.depth m.bpp 0
    (ilGetTypeBpc m.bpc) none (by rw [ht]; exact hnz) (by rw [ht, hprod]; omega) (fun _ h => nomatch h)
  rw [Nat.max_eq_left h.w0] at f1
  rw [Nat.max_eq_left h.h0] at f2
  rw [Nat.max_eq_left h.d0] at f3
  rw [ht] at f5
  have hs1 : m1.size = m.size := by rw [c1.2.2.1, f1, f2, f3, f4, f5]; exact h.cons.2.2.1.symm
  have hr := a5.readAt (dst := m1.data) (off := 0) (size := 1) (number := m1.size) (by omega) (by decide)
    (by rw [c1.2.2.2]; omega)
  have hrb := At.read (l := adv (adv (adv (adv (open_ file file.length) 4) 4) 4) 1) (bs := [UInt8.ofNat m.bpc])
    (rest := m.data ++ []) (size := 1) (number := 1) a4 rfl (by decide)
  refine ⟨{ m1 with data := m.data, format := rawFormat m.bpp,
                    origin := match o with | some o => o | none => IL_ORIGIN_UPPER_LEFT }, ?_, f1, f2, f3, f4, f5, rfl, ?_⟩
  · unfold iLoadRawInternal
    rw [a0.getLittleUInt]
    simp only [bind_ok]
    rw [a1.getLittleUInt]
    simp only [bind_ok]
    rw [a2.getLittleUInt]
    simp only [bind_ok]
    rw [a3.getb]
    simp only [bind_ok]
    rw [hrb]
    simp only [bind_ok, List.length_singleton, t _ hw, t _ hh, t _ hd, hb, hc]
    rw [e1]
    simp only [bind_ok]
    rw [hr]
    simp only [bind_ok]
    rw [if_neg (by omega)]
    have hdrop : m1.data.drop (0 + m.data.length) = [] := List.drop_eq_nil_of_le (by rw [c1.2.2.2]; omega)
    rw [hdrop]
    simp only [List.take_zero, List.nil_append, List.append_nil, pure_eq_ok, adv_adv]
    congr 2
    unfold adv open_
    simp only [Nat.zero_add]
    congr 1
    omega
  · exact ⟨c1.1, c1.2.1, c1.2.2.1, by show m.data.length = m1.size; omega⟩

/-- A 2x1x2 image of two 16-bit components. -/
def demo : Img :=
  { width := 2, height := 1, depth := 2, bpp := 2, bpc := 2, bps := 8, plane := 8, size := 16, format := IL_LUMINANCE_ALPHA,
    type := IL_UNSIGNED_SHORT, origin := IL_ORIGIN_LOWER_LEFT, data := [1, 2, 3, 4, 5, 6, 7, 8, 9, 10, 11, 12, 13, 14, 15, 16] }

example : Sound demo ∧ demo.size < 4294967281 := by
  refine ⟨⟨⟨?_, ?_, ?_, ?_⟩, ?_, ?_, ?_, ?_, ?_, ?_⟩, ?_⟩ <;> decide

/-- **C35, RAW.** The dry run of a RAW save reports exactly the number of bytes the save writes, which is 14 more than
the pixel data. -/
theorem C35_raw (big : Bool) (m : Img) (h : Sound m) (hsz : m.size < 4294967281) :
    (dryRun dry0 (iSaveRawInternal big m)).max = (output (iSaveRawInternal big m)).length ∧
    (output (iSaveRawInternal big m)).length = 14 + m.size := by
  obtain ⟨hw, hh, hd⟩ := h.lt (Nat.lt_trans hsz (by decide : (4294967281 : Nat) < 4294967296))
  have hl := h.cons.2.2.2
  have e : (output (iSaveRawInternal big m)).length = 14 + m.size := by rw [output_raw big m hw hh hd hl]; simp; omega
  exact ⟨C35_dry_run_plain _ (plain_raw big m hl) (by omega), e⟩

/-- **C75.** Loading any non-empty byte string as RAW never touches memory outside the string or the new image; when it
succeeds, the pixel block has exactly the size the image reports. -/
theorem C75_raw_safe (big : Bool) (junk : Nat → UInt8) (o : Option Nat) (file : List UInt8) (h0 : 0 < file.length)
    (hlt : file.length < 4294967295) :
    ∃ r l, iLoadRawInternal big junk o (open_ file file.length) = .ok (r, l) ∧
      ∀ m, r = some m → m.data.length = m.size := by
  have g0 : Good (open_ file file.length) := (at_open h0 hlt).1
  obtain ⟨w, l1, e1, g1, _⟩ := keeps_getLittleUInt (big := big) (junk := junk) g0
  obtain ⟨h, l2, e2, g2, _⟩ := keeps_getLittleUInt (big := big) (junk := junk) g1
  obtain ⟨d, l3, e3, g3, _⟩ := keeps_getLittleUInt (big := big) (junk := junk) g2
  obtain ⟨bpp, l4, e4, g4, _⟩ := keeps_getb g3
  obtain ⟨g, e5, _, g5⟩ := keeps_read g4 1 1
  unfold iLoadRawInternal
  rw [e1]; simp only [bind_ok]
  rw [e2]; simp only [bind_ok]
  rw [e3]; simp only [bind_ok]
  rw [e4]; simp only [bind_ok]
  rw [e5]; simp only [bind_ok]
  cases hg : g.bytes with
  | nil => exact ⟨none, _, rfl, fun m hm => nomatch hm⟩
  | cons bpc rest =>
    simp only []
    by_cases ht : ilGetBpcType (ilGetTypeBpc bpc.toNat) = 0
    · unfold ilInitImage
      rw [if_pos ht]
      exact ⟨none, _, rfl, fun m hm => nomatch hm⟩
    · have hi : ∃ m, ilInitImage junk w.toNat h.toNat d.toNat bpp.toNat 0 (ilGetTypeBpc bpc.toNat) none = .ok (some m) ∧
          m.data.length = m.size ∧ m.size < 4294967296 := by
        unfold ilInitImage
        rw [if_neg ht]
        exact ⟨_, rfl, alloc_length _ _, u32_lt _⟩
      obtain ⟨m, em, hml, hms⟩ := hi
      rw [em]; simp only [bind_ok]
      obtain ⟨n, d', l', e6, _, _, hd'⟩ := keeps_readAt (dst := m.data) (off := 0) (size := 1) (number := m.size) g5
        (by rw [Nat.one_mul, u32_of_lt hms]; omega)
      rw [e6]; simp only [bind_ok]
      by_cases hn : n < m.size
      · rw [if_pos hn]; exact ⟨none, _, rfl, fun m hm => nomatch hm⟩
      · rw [if_neg hn]
        refine ⟨_, l', rfl, ?_⟩
        intro m' hm'
        cases hm'
        show d'.length = m.size
        omega

example : (iLoadRawInternal false (fun _ => 0) none (open_ [2, 0, 0, 0, 1, 0, 0, 0, 1, 0, 0, 0, 1, 1, 7] 15)).toOption.map
    (·.1.isSome) = some false := by decide

end DevIL.Raw
