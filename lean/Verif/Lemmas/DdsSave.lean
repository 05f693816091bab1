import Verif.Model.DdsSave
import Verif.Props.DxtSave
import Verif.Props.Dds
import Verif.Lemmas.PsdB
set_option autoImplicit false
namespace DevIL.DdsSave
open DevIL.Image DevIL.Lump DevIL.Dxt DevIL.DxtSave DevIL.DetectSpec DevIL.DdsSpec
open DevIL.DxtSpec (bytes)

/-! ### The header -/

/-- The numbers of the header. -/
def vals (m : Img) (mips fmt cc : Nat) : List Nat :=
  [124, flags1 m, m.height, m.width, linearSize m (named fmt), if m.depth > 1 then m.depth else 0, mips + 1, 0, 0, 0, 0, 0, 0, 0, 0, 0, 0, 0,
    32, 4, cc, 0, 0, 0, 0, 0, caps1 mips, if m.depth > 1 then 0x200000 else 0, 0, 0, 0]

/-- The bytes of the header. -/
def head (vs : List Nat) : List UInt8 := [68, 68, 83, 32] ++ vs.flatMap (leBytes 4)

theorem int_out (big : Bool) {v : Nat} (h : v < 4294967296) : (Bmp.int big v).bytes = leBytes 4 v := by
  show (Endian.SaveLittleUInt big (BitVec.ofNat 32 v)).take (4 * 1) = _
  rw [saveLittleUInt_eq, BitVec.toNat_ofNat, Nat.mod_eq_of_lt h, List.take_of_length_le (by simp [leBytes_length])]

theorem leAt_head {vs : List Nat} {tail : List UInt8} {i v : Nat} (h : vs[i]? = some v) (hv : v < 4294967296) : leAt (head vs ++ tail) (4 + 4 * i) 4 = v := by
  have key : ∀ (vs : List Nat) (i : Nat), vs[i]? = some v → ((vs.flatMap (leBytes 4) ++ tail).drop (4 * i)).take 4 = leBytes 4 v := by
    intro vs
    induction vs with
    | nil => intro i h; cases h
    | cons a vs ih =>
      intro i h
      rw [List.flatMap_cons, List.append_assoc]
      cases i with
      | zero =>
        cases h
        rw [Nat.mul_zero, List.drop_zero, List.take_append_of_le_length (by simp [leBytes_length]), List.take_of_length_le (by simp [leBytes_length])]
      | succ i =>
        rw [show 4 * (i + 1) = (leBytes 4 a).length + 4 * i by rw [leBytes_length]; omega, List.drop_append, List.drop_of_length_le (by omega), Nat.add_sub_cancel_left, List.nil_append]
        exact ih i h
  unfold leAt DetectSpec.at_ head
  rw [List.append_assoc, show 4 + 4 * i = ([68, 68, 83, 32] : List UInt8).length + 4 * i from rfl, List.drop_append, List.drop_of_length_le (by omega), Nat.add_sub_cancel_left, List.nil_append,
    key vs i h, Psd.le_leBytes 4 v hv]

theorem head_length {vs : List Nat} : (head vs).length = 4 + 4 * vs.length := by
  unfold head
  rw [List.length_append]
  have : (vs.flatMap (leBytes 4)).length = 4 * vs.length := by
    induction vs with
    | nil => rfl
    | cons a vs ih => rw [List.flatMap_cons, List.length_append, leBytes_length, ih, List.length_cons]; omega
  rw [this]
  rfl

theorem flags1_lt (m : Img) : flags1 m < 4294967296 := by
  unfold flags1
  split <;> decide

theorem caps1_lt (mips : Nat) : caps1 mips < 4294967296 := by
  unfold caps1
  split <;> decide

theorem linear_lt (m : Img) (fmt : Nat) : linearSize m fmt < 4294967296 := u32_lt _

theorem vals_length (m : Img) (mips fmt cc : Nat) : (vals m mips fmt cc).length = 31 := rfl

theorem header_out (big : Bool) (m : Img) (mips fmt cc : Nat) (hcc : fourCC (named fmt) = some cc) (hc : cc < 4294967296) (hw : m.width < 4294967296) (hh : m.height < 4294967296)
    (hd : m.depth < 4294967296) (hm : mips + 1 < 4294967296) : output (writeHeader big m mips fmt) = head (vals m mips fmt cc) := by
  unfold writeHeader
  rw [hcc]
  simp only
  have h0 := int_out big (v := 0) (by decide)
  have h1 : (if m.depth > 1 then m.depth else 0) < 4294967296 := by split <;> omega
  have h2 : (if m.depth > 1 then 0x200000 else 0) < 4294967296 := by split <;> omega
  unfold output head vals
  simp only [List.flatMap_append, List.flatMap_cons, List.flatMap_nil, List.append_nil, List.replicate, h0, int_out big (show 124 < 4294967296 by decide), int_out big (flags1_lt m), int_out big hh,
    int_out big hw, int_out big (linear_lt m _), int_out big h1, int_out big h2, int_out big hm, int_out big (show 32 < 4294967296 by decide), int_out big (show 4 < 4294967296 by decide),
    int_out big hc, int_out big (caps1_lt mips), List.append_assoc]
  rfl

theorem fourCC_lt {fmt cc : Nat} (h : fourCC fmt = some cc) : cc < 4294967296 := by
  unfold fourCC at h
  repeat' split at h
  all_goals first | cases h; decide | cases h

/-! ### A picture -/

/-- The letters of the header. -/
def letters (fmt : Nat) : List UInt8 := if fmt = IL_DXT1 then [68, 88, 84, 49] else if fmt = IL_DXT3 then [68, 88, 84, 51] else [68, 88, 84, 53]

theorem at_head {vs : List Nat} {tail : List UInt8} {i v : Nat} (h : vs[i]? = some v) : DetectSpec.at_ (head vs ++ tail) (4 + 4 * i) 4 = leBytes 4 v := by
  have key : ∀ (vs : List Nat) (i : Nat), vs[i]? = some v → ((vs.flatMap (leBytes 4) ++ tail).drop (4 * i)).take 4 = leBytes 4 v := by
    intro vs
    induction vs with
    | nil => intro i h; cases h
    | cons a vs ih =>
      intro i h
      rw [List.flatMap_cons, List.append_assoc]
      cases i with
      | zero =>
        cases h
        rw [Nat.mul_zero, List.drop_zero, List.take_append_of_le_length (by simp [leBytes_length]), List.take_of_length_le (by simp [leBytes_length])]
      | succ i =>
        rw [show 4 * (i + 1) = (leBytes 4 a).length + 4 * i by rw [leBytes_length]; omega, List.drop_append, List.drop_of_length_le (by omega), Nat.add_sub_cancel_left, List.nil_append]
        exact ih i h
  unfold DetectSpec.at_ head
  rw [List.append_assoc, show 4 + 4 * i = ([68, 68, 83, 32] : List UInt8).length + 4 * i from rfl, List.drop_append, List.drop_of_length_le (by omega), Nat.add_sub_cancel_left, List.nil_append,
    key vs i h]

/-- The code of a format. -/
def codeOf (fmt : Nat) : Nat := if fmt = IL_DXT1 then 0x31545844 else if fmt = IL_DXT3 then 0x33545844 else 0x35545844

theorem code_named {fmt : Nat} (hf : fmt = IL_DXT1 ∨ fmt = IL_DXT3 ∨ fmt = IL_DXT5) : named fmt = fmt ∧ fourCC (named fmt) = some (codeOf fmt) ∧ leBytes 4 (codeOf fmt) = letters fmt := by
  rcases hf with rfl | rfl | rfl <;> decide

theorem linear_eq {m : Img} (hd : m.depth = 1) (hw : 0 < m.width) (hh : 0 < m.height) (hwh : m.width * m.height < 2 ^ 27) {fmt : Nat} (hf : fmt = IL_DXT1 ∨ fmt = IL_DXT3 ∨ fmt = IL_DXT5) :
    linearSize m fmt = bytes (bsize fmt) m.width m.height 1 := by
  have hww : m.width ≤ m.width * m.height := Nat.le_mul_of_pos_right _ hh
  have hhh : m.height ≤ m.width * m.height := Nat.le_mul_of_pos_left _ hw
  have hb : (m.width + 3) / 4 * ((m.height + 3) / 4) ≤ m.width * m.height := Nat.mul_le_mul (by omega) (by omega)
  have key : ∀ n, n ≤ 16 → u32 (u32 (u32 (u32 (m.width + 3) / 4 * (u32 (m.height + 3) / 4)) * n) * 1) = (m.width + 3) / 4 * ((m.height + 3) / 4) * 1 * n := by
    intro n hn
    have : (m.width + 3) / 4 * ((m.height + 3) / 4) * n ≤ m.width * m.height * 16 := Nat.mul_le_mul hb hn
    rw [u32_of_lt (show m.width + 3 < 4294967296 by omega), u32_of_lt (show m.height + 3 < 4294967296 by omega), Nat.mul_one, Nat.mul_one,
      u32_of_lt (show (m.width + 3) / 4 * ((m.height + 3) / 4) < 4294967296 by omega), u32_of_lt (show (m.width + 3) / 4 * ((m.height + 3) / 4) * n < 4294967296 by omega), u32_of_lt (by omega)]
  unfold linearSize bytes
  rw [hd]
  rcases hf with rfl | rfl | rfl
  · rw [if_pos (.inl rfl)]; exact key 8 (by decide)
  · rw [if_neg (by decide)]; exact key 16 (by decide)
  · rw [if_neg (by decide)]; exact key 16 (by decide)

/-- The header of a picture without mipmaps is a header in the sense of the specification. -/
theorem header_is {m : Img} (hd : m.depth = 1) (hw : 0 < m.width) (hh : 0 < m.height) (hwh : m.width * m.height < 2 ^ 27) {fmt : Nat} (hf : fmt = IL_DXT1 ∨ fmt = IL_DXT3 ∨ fmt = IL_DXT5)
    (tail : List UInt8) :
    DdsSpec.Header (head (vals m 0 fmt (codeOf fmt)) ++ tail) m.width m.height ∧ Code (head (vals m 0 fmt (codeOf fmt)) ++ tail) (letters fmt) ∧
      Declares (head (vals m 0 fmt (codeOf fmt)) ++ tail) (bytes (bsize fmt) m.width m.height 1) := by
  have hww : m.width ≤ m.width * m.height := Nat.le_mul_of_pos_right _ hh
  have hhh : m.height ≤ m.width * m.height := Nat.le_mul_of_pos_left _ hw
  obtain ⟨n1, n2, n3⟩ := code_named hf
  have hfl : flags1 m = 0xA1007 := by unfold flags1; rw [hd]; rfl
  have g : ∀ {i v : Nat}, (vals m 0 fmt (codeOf fmt))[i]? = some v → v < 4294967296 → leAt (head (vals m 0 fmt (codeOf fmt)) ++ tail) (4 + 4 * i) 4 = v := fun h hv => leAt_head h hv
  have gf := g (i := 1) rfl (flags1_lt m)
  refine ⟨⟨?_, rfl, g (i := 0) rfl (by decide), g (i := 18) rfl (by decide), g (i := 3) rfl (by omega), g (i := 2) rfl (by omega), hw, hh, ?_, .inr ?_, ?_⟩, ⟨?_, ?_⟩, .inr (.inr ⟨?_, ?_⟩)⟩
  · rw [List.length_append, head_length, vals_length]; omega
  · rw [show (24 : Nat) = 4 + 4 * 5 from rfl, g (i := 5) rfl (by rw [hd]; decide), hd]; decide
  · exact Nat.le_of_eq (g (i := 6) rfl (by decide))
  · rw [show (112 : Nat) = 4 + 4 * 27 from rfl, g (i := 27) rfl (by rw [hd]; decide), hd]; decide
  · rw [show (80 : Nat) = 4 + 4 * 19 from rfl, g (i := 19) rfl (by decide)]; decide
  · rw [← n3]; exact at_head (i := 20) rfl
  · rw [show (8 : Nat) = 4 + 4 * 1 from rfl, gf, hfl]; decide
  · rw [show (20 : Nat) = 4 + 4 * 4 from rfl, g (i := 4) rfl (linear_lt _ _), n1]; exact linear_eq hd hw hh hwh hf

/-! ### Saving -/

/-- What is written for a picture, and that it is what the compressor gives. -/
theorem level_ok (big : Bool) (k : Mem) {m : Img} (h : DxtSave.Picture m) {fmt : Nat} (hf : fmt = IL_DXT1 ∨ fmt = IL_DXT3 ∨ fmt = IL_DXT5) :
    ∃ ops, level big k m fmt = .ok (some (ops, true, m)) ∧ (∀ op ∈ ops, Plain op) ∧ (output ops).length = bytes (bsize fmt) m.width m.height m.depth ∧
      ∀ st, ilSurfaceToDxtcData big k ⟨m, st, []⟩ fmt = .ok (some (true, ⟨m, fmt, output ops⟩)) := by
  obtain ⟨d, ed, hm, hr⟩ := upright k.bytes h
  obtain ⟨ops, eo, hp, hl, hi⟩ := compress_spec big k hm hf
  have hl : (output ops).length = bytes (bsize fmt) m.width m.height m.depth := hl
  have eo : Compress big k { m with data := d } fmt = .ok (some (ops, bytes (bsize fmt) m.width m.height m.depth)) := eo
  have hpos := bytes_pos (bsize_pos fmt) h.plain.w0 h.plain.h0 h.plain.d0
  have hbl := h.blocks
  have hle := bytes_le fmt m.width m.height m.depth
  refine ⟨ops, ?_, hp, hl, fun st => ?_⟩
  · unfold level
    rw [ed, bind_ok, eo, bind_ok]
    simp only
    rw [if_neg (by omega), decide_eq_true (by omega)]
    rfl
  · have hsz : dxtcSize m fmt = bytes (bsize fmt) m.width m.height m.depth := size_eq h hf
    have hal : (alloc k.bytes (dxtcSize m fmt)).length = bytes (bsize fmt) m.width m.height m.depth := by rw [alloc_length, hsz]
    obtain ⟨w, ew, hw, _⟩ := C74_memory_is_file_prefix (alloc k.bytes (dxtcSize m fmt)) (by omega) (by omega) ops hp (SaveL.plain_small (by omega))
    rw [file_output ops hp] at hw
    dsimp only at hw
    rw [List.take_of_length_le (by omega), List.drop_of_length_le (by omega), List.append_nil] at hw
    unfold ilSurfaceToDxtcData
    simp only [ne_eq, not_true_eq_false, if_false]
    rw [if_neg (by omega)]
    unfold ilGetDXTCData
    rw [if_neg (by simp), ed, bind_ok, eo, bind_ok]
    dsimp only
    rw [ew, bind_ok, hw]
    rfl

theorem save_ok (big : Bool) (k : Mem) {m : Img} (h : DxtSave.Picture m) {fmt : Nat} (hf : fmt = IL_DXT1 ∨ fmt = IL_DXT3 ∨ fmt = IL_DXT5) :
    ∃ ops, iSaveDdsInternal big k m 0 [m] fmt = .ok (some (true, writeHeader big m 0 fmt ++ ops, [m])) ∧ (∀ op ∈ ops, Plain op) ∧
      (output ops).length = bytes (bsize fmt) m.width m.height m.depth ∧ ∀ st, ilSurfaceToDxtcData big k ⟨m, st, []⟩ fmt = .ok (some (true, ⟨m, fmt, output ops⟩)) := by
  obtain ⟨ops, e, h1, h2, h3⟩ := level_ok big k h hf
  refine ⟨ops, ?_, h1, h2, h3⟩
  unfold iSaveDdsInternal
  show (levels big k fmt [m] [0] >>= _) = _
  unfold levels levels
  simp only [List.length_singleton, Nat.lt_add_one, if_true, List.getElem?_cons_zero]
  rw [e, bind_ok]
  simp only [if_true, pure_eq_ok, bind_ok, List.append_nil]

end DevIL.DdsSave
