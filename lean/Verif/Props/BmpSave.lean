import Verif.Props.BmpRead
import Verif.Props.Pal
/-! C46: saving and loading bitmaps. -/
set_option autoImplicit false
namespace DevIL.Bmp
open DevIL.Lump DevIL.Endian DevIL.Image DevIL.Utility DevIL.Load
open DevIL.Targa (Loaded)
open DevIL.Palette (Has IsPal red green blue)

/-- An image that BMP can hold as it is: one slice of unsigned bytes, BGR or colour indices, small enough for a file of less than 2^31 bytes,
with `n` colours in the palette. -/
structure Savable (m : Img) (n : Nat) : Prop where
  cons : m.Consistent
  depth : m.depth = 1
  bpc : m.bpc = 1
  type : m.type = IL_UNSIGNED_BYTE
  kind : m.format = IL_COLOUR_INDEX ∧ m.bpp = 1 ∧ 0 < n ∨ m.format = IL_BGR ∧ m.bpp = 3 ∧ n = 0
  w0 : 0 < m.width
  h0 : 0 < m.height
  fits : 54 + n * 4 + m.height * stride (m.bpp * 8) m.width < 2147483648

theorem Savable.bps {m : Img} {n : Nat} (h : Savable m n) : m.bps = m.width * m.bpp := by rw [h.cons.1, h.bpc, Nat.mul_one]

theorem Savable.plane {m : Img} {n : Nat} (h : Savable m n) : m.plane = m.height * m.bps := by rw [h.cons.2.1, h.cons.1]; grind

theorem Savable.size {m : Img} {n : Nat} (h : Savable m n) : m.size = m.height * m.bps := by rw [h.cons.2.2.1, h.cons.1, h.depth]; grind

theorem Savable.bpp2 {m : Img} {n : Nat} (h : Savable m n) : m.bpp = 1 ∨ m.bpp = 3 := by rcases h.kind with h | h <;> simp [h.2.1]

theorem Savable.stride {m : Img} {n : Nat} (h : Savable m n) : stride (m.bpp * 8) m.width = m.bps + (4 - m.bps % 4) % 4 := by
  rw [h.bps]
  unfold Bmp.stride
  rcases h.bpp2 with e | e <;> rw [e] <;> omega

/-! ### The rows -/

theorem pad_bytes (big : Bool) (k : Nat) (hk : k < 4) : (objBytes big 4 0).take k = List.replicate k 0 := by
  have : objBytes big 4 0 = [0, 0, 0, 0] := by cases big <;> rfl
  rw [this]
  have : k = 0 ∨ k = 1 ∨ k = 2 ∨ k = 3 := by omega
  rcases this with rfl | rfl | rfl | rfl <;> rfl

theorem output_append (a b : List WOp) : output (a ++ b) = output a ++ output b := by unfold output; rw [List.flatMap_append]

/-- Rows of `bps` bytes of `data`, each followed by zeros up to `st` bytes. -/
def Rows (h bps st : Nat) (data out : List UInt8) : Prop :=
  out.length = h * st ∧ ∀ j, j < h → (∀ x, x < bps → out[j * st + x]? = data[j * bps + x]?) ∧ ∀ x, bps ≤ x → x < st → out[j * st + x]? = some 0

theorem rowOps_spec (big : Bool) {t : Img} {n : Nat} (hm : Savable t n) {data : List UInt8} (hd : data.length = t.size) :
    Holds (rowOps big t data) fun ops => (∀ op ∈ ops, Plain op) ∧ Rows t.height t.bps (stride (t.bpp * 8) t.width) data (output ops) := by
  have hs := hm.size
  have hpl := hm.plane
  have hst := hm.stride
  have hb := hm.bps
  have hw := hm.w0
  have hb0 : 0 < t.bps := by rw [hb]; rcases hm.bpp2 with e | e <;> rw [e] <;> omega
  generalize stride (t.bpp * 8) t.width = st at *
  unfold rowOps
  refine Holds.ite (fun h0 => ?_) (fun h0 => ?_)
  · rw [if_neg (by omega)]
    have ht : data.take t.plane = data := List.take_of_length_le (by omega)
    refine Holds.pure ⟨?_, ?_⟩
    · intro op hop
      rw [List.mem_singleton] at hop
      rw [hop, ht]
      show data.length = 1 * t.plane
      omega
    · have e : output [.write (data.take t.plane) 1 t.plane] = data := by
        show (data.take t.plane).take (1 * t.plane) ++ [] = data
        rw [ht, Nat.one_mul, ht, List.append_nil]
      have e2 : st = t.bps := by omega
      rw [e, e2]
      exact ⟨by rw [hd, hs], fun j hj => ⟨fun x hx => rfl, fun x h1 h2 => by omega⟩⟩
  · rw [hpl, forStep_mul hb0]
    generalize hpad : (4 - t.bps % 4) % 4 = pad at *
    refine Holds.loop (fun (j : Nat) (ops : List WOp) => (∀ op ∈ ops, Plain op) ∧ Rows j t.bps st data (output ops))
      ⟨fun op hop => absurd hop List.not_mem_nil, ⟨(Nat.zero_mul st).symm, fun j hj => absurd hj (Nat.not_lt_zero j)⟩⟩ ?_
    rintro j ops hj ⟨hp, hr⟩
    have hjb : j * t.bps + t.bps ≤ t.height * t.bps := by rw [← Nat.succ_mul]; exact Nat.mul_le_mul_right _ hj
    rw [if_neg (by omega)]
    have lrow : ((data.drop (j * t.bps)).take t.bps).length = t.bps := by rw [List.length_take, List.length_drop]; omega
    refine Holds.pure ⟨?_, ?_⟩
    · intro op hop
      rcases List.mem_append.mp hop with hop | hop
      · exact hp op hop
      · rw [pad_bytes big pad (by omega)] at hop
        simp only [List.mem_cons, List.not_mem_nil, or_false] at hop
        rcases hop with rfl | rfl
        · show _ = 1 * t.bps
          rw [lrow, Nat.one_mul]
        · show (List.replicate pad (0 : UInt8)).length = 1 * pad
          rw [List.length_replicate, Nat.one_mul]
    · have e : output (ops ++ [.write ((data.drop (j * t.bps)).take t.bps) 1 t.bps, .write ((objBytes big 4 0).take pad) 1 pad]) =
          output ops ++ ((data.drop (j * t.bps)).take t.bps ++ List.replicate pad 0) := by
        rw [output_append]
        congr 1
        show ((data.drop (j * t.bps)).take t.bps).take (1 * t.bps) ++ (((objBytes big 4 0).take pad).take (1 * pad) ++ []) = _
        rw [Nat.one_mul, Nat.one_mul, List.take_take, Nat.min_self, List.take_take, Nat.min_self, pad_bytes big pad (by omega), List.append_nil]
      rw [e]
      have hl := hr.1
      refine ⟨by simp only [List.length_append, lrow, List.length_replicate, hl]; rw [Nat.succ_mul]; omega, fun j' hj' => ?_⟩
      have hle : j' * st + st ≤ (j + 1) * st := by rw [← Nat.succ_mul]; exact Nat.mul_le_mul_right _ hj'
      rw [Nat.succ_mul] at hle
      by_cases hjj : j' = j
      · subst hjj
        refine ⟨fun x hx => ?_, fun x h1 h2 => ?_⟩
        · rw [List.getElem?_append_right (by omega), hl, Nat.add_sub_cancel_left, List.getElem?_append_left (by omega), List.getElem?_take, if_pos hx,
            List.getElem?_drop]
        · rw [List.getElem?_append_right (by omega), hl, Nat.add_sub_cancel_left, List.getElem?_append_right (by omega), lrow,
            List.getElem?_replicate, if_pos (by omega)]
      · have hlt : j' * st + st ≤ j * st := by rw [← Nat.succ_mul]; exact Nat.mul_le_mul_right _ (by omega)
        obtain ⟨r1, r2⟩ := hr.2 j' (by omega)
        refine ⟨fun x hx => ?_, fun x h1 h2 => ?_⟩
        · rw [List.getElem?_append_left (by omega)]; exact r1 x hx
        · rw [List.getElem?_append_left (by omega)]; exact r2 x h1 h2

/-- The rows from the bottom on. -/
theorem bottomUp_spec (junk : Nat → UInt8) {q : Img} (hc : q.Consistent) (hd : q.depth = 1) (hb : q.bpc = 1) (h32 : q.size < 4294967296) :
    ∃ t, bottomUp junk q = .ok t ∧ t.length = q.size ∧ ∀ x y b, x < q.width → y < q.height → b < q.bpp →
      t[(y * q.width + x) * q.bpp + b]? = q.px x (if q.origin = IL_ORIGIN_LOWER_LEFT then y else q.height - 1 - y) 0 b := by
  unfold bottomUp
  by_cases ho : q.origin = IL_ORIGIN_LOWER_LEFT
  · rw [if_neg (by simp [ho])]
    exact ⟨q.data, rfl, hc.2.2.2, fun x y b _ _ _ => by rw [if_pos ho, px_eq hb]⟩
  · rw [if_pos ho]
    obtain ⟨t, e, hl, hp⟩ := flipped junk hc hd hb h32
    exact ⟨t, e, hl, fun x y b hx hy hb' => by rw [if_neg ho]; exact hp x y b hx hy hb'⟩

/-! ### The file -/

/-- The file that is written. -/
def fileOf (size off w h bits used : Nat) (rest : List UInt8) : List UInt8 :=
  [66, 77] ++ (leBytes 4 size ++ (leBytes 4 0 ++ (leBytes 4 off ++ (leBytes 4 40 ++ (leBytes 4 w ++ (leBytes 4 h ++ (leBytes 2 1 ++ (leBytes 2 bits ++
    (leBytes 4 0 ++ (leBytes 4 0 ++ (leBytes 4 0 ++ (leBytes 4 0 ++ (leBytes 4 used ++ (leBytes 4 0 ++ rest))))))))))))))

theorem fileOf_length (size off w h bits used : Nat) (rest : List UInt8) : (fileOf size off w h bits used rest).length = 54 + rest.length := by
  simp [fileOf]; omega

theorem field_mid {file pre post : List UInt8} {n v o : Nat} (h : file = pre ++ (leBytes n v ++ post)) (ho : pre.length = o) (hv : v < 256 ^ n) :
    field file o n = v := by
  unfold field
  rw [h, List.drop_left' ho, List.take_left' (leBytes_length n v), leVal_leBytes n v hv]

theorem fileOf_drop (size off w h bits used : Nat) (rest : List UInt8) : (fileOf size off w h bits used rest).drop 54 = rest := by
  have : fileOf size off w h bits used rest = fileOf size off w h bits used [] ++ rest := by simp [fileOf]
  rw [this, List.drop_left' (by rw [fileOf_length]; rfl)]

structure FieldsOf (file : List UInt8) (off w h bits used : Nat) : Prop where
  mark : file[0]? = some 66 ∧ file[1]? = some 77
  off : field file 10 4 = off
  size : field file 14 4 = 40
  width : field file 18 4 = w
  height : field file 22 4 = h
  planes : field file 26 2 = 1
  bits : field file 28 2 = bits
  comp : field file 30 4 = 0
  used : field file 46 4 = used

theorem fileOf_fields {size off w h bits used : Nat} {rest : List UInt8} (ho : off < 4294967296) (hw : w < 4294967296) (hh : h < 4294967296)
    (hb : bits < 65536) (hu : used < 4294967296) : FieldsOf (fileOf size off w h bits used rest) off w h bits used := by
  refine ⟨⟨rfl, rfl⟩, ?_, ?_, ?_, ?_, ?_, ?_, ?_, ?_⟩
  · exact field_mid (pre := [66, 77] ++ (leBytes 4 size ++ leBytes 4 0)) (by simp only [fileOf, List.append_assoc]; rfl) (by simp) ho
  · exact field_mid (pre := [66, 77] ++ (leBytes 4 size ++ (leBytes 4 0 ++ leBytes 4 off))) (by simp only [fileOf, List.append_assoc]; rfl) (by simp) (by decide)
  · exact field_mid (pre := [66, 77] ++ (leBytes 4 size ++ (leBytes 4 0 ++ (leBytes 4 off ++ leBytes 4 40)))) (by simp only [fileOf, List.append_assoc]; rfl) (by simp) hw
  · exact field_mid (pre := [66, 77] ++ (leBytes 4 size ++ (leBytes 4 0 ++ (leBytes 4 off ++ (leBytes 4 40 ++ leBytes 4 w))))) (by simp only [fileOf, List.append_assoc]; rfl) (by simp) hh
  · exact field_mid (pre := [66, 77] ++ (leBytes 4 size ++ (leBytes 4 0 ++ (leBytes 4 off ++ (leBytes 4 40 ++ (leBytes 4 w ++ leBytes 4 h))))))
      (by simp only [fileOf, List.append_assoc]; rfl) (by simp) (by decide)
  · exact field_mid (pre := [66, 77] ++ (leBytes 4 size ++ (leBytes 4 0 ++ (leBytes 4 off ++ (leBytes 4 40 ++ (leBytes 4 w ++ (leBytes 4 h ++ leBytes 2 1)))))))
      (by simp only [fileOf, List.append_assoc]; rfl) (by simp) hb
  · exact field_mid (pre := [66, 77] ++ (leBytes 4 size ++ (leBytes 4 0 ++ (leBytes 4 off ++ (leBytes 4 40 ++ (leBytes 4 w ++ (leBytes 4 h ++ (leBytes 2 1 ++ leBytes 2 bits))))))))
      (by simp only [fileOf, List.append_assoc]; rfl) (by simp) (by decide)
  · exact field_mid (pre := [66, 77] ++ (leBytes 4 size ++ (leBytes 4 0 ++ (leBytes 4 off ++ (leBytes 4 40 ++ (leBytes 4 w ++ (leBytes 4 h ++ (leBytes 2 1 ++ (leBytes 2 bits ++
      (leBytes 4 0 ++ (leBytes 4 0 ++ (leBytes 4 0 ++ leBytes 4 0)))))))))))) (by simp only [fileOf, List.append_assoc]; rfl) (by simp) hu

theorem allInside_append {a b : List WOp} : ∀ {f : OutFile}, AllInside f a → AllInside (f.run a) b → AllInside f (a ++ b) := by
  induction a with
  | nil => intro f _ h; exact h
  | cons op a ih => intro f h1 h2; exact ⟨h1.1, ih h1.2 h2⟩

/-- The palette that is written: none, or `q`. -/
def palData (pal : Option Pal) : List UInt8 := match pal with | none => [] | some p => p.data

theorem int_bytes (big : Bool) {v : Nat} (hv : v < 4294967296) : (int big v).bytes = leBytes 4 v := by
  unfold int
  rw [Targa.write_bytes, saveLittleUInt_eq, BitVec.toNat_ofNat, Nat.mod_eq_of_lt hv, List.take_of_length_le (by simp)]

theorem short_bytes (big : Bool) {v : Nat} (hv : v < 65536) : (short big v).bytes = leBytes 2 v := by
  unfold short
  rw [Targa.write_bytes, saveLittleUShort_eq, BitVec.toNat_ofNat, Nat.mod_eq_of_lt hv, List.take_of_length_le (by simp)]

theorem int_plain (big : Bool) (v : Nat) : Plain (int big v) := by
  show (SaveLittleUInt big _).length = 4 * 1
  rw [saveLittleUInt_eq]; simp

theorem short_plain (big : Bool) (v : Nat) : Plain (short big v) := by
  show (SaveLittleUShort big _).length = 2 * 1
  rw [saveLittleUShort_eq]; simp

def headOps (big : Bool) (n w h bits : Nat) : List WOp :=
  [.putc 66, .putc 77, int big 0, int big 0, int big (54 + n * 4), int big 0x28, int big w, int big h, short big 1, short big bits,
    int big 0, int big 0, int big 0, int big 0, int big n, int big 0]

theorem headOps_spec (big : Bool) {n w h bits : Nat} (hn : 54 + n * 4 < 4294967296) (hw : w < 4294967296) (hh : h < 4294967296) (hb : bits < 65536) :
    (∀ op ∈ headOps big n w h bits, Plain op) ∧ ∀ rest, output (headOps big n w h bits) ++ rest = fileOf 0 (54 + n * 4) w h bits n rest := by
  constructor
  · unfold headOps
    simp only [List.forall_mem_cons]
    exact ⟨trivial, trivial, int_plain _ _, int_plain _ _, int_plain _ _, int_plain _ _, int_plain _ _, int_plain _ _, short_plain _ _, short_plain _ _,
      int_plain _ _, int_plain _ _, int_plain _ _, int_plain _ _, int_plain _ _, int_plain _ _, fun x hx => absurd hx List.not_mem_nil⟩
  · intro rest
    have e0 : (int big 0).bytes = leBytes 4 0 := int_bytes big (by decide)
    have e1 : (int big (54 + n * 4)).bytes = leBytes 4 (54 + n * 4) := int_bytes big hn
    have e2 : (int big 40).bytes = leBytes 4 40 := int_bytes big (by decide)
    have e3 : (int big n).bytes = leBytes 4 n := int_bytes big (by omega)
    have e4 : (short big 1).bytes = leBytes 2 1 := short_bytes big (by decide)
    simp only [output, headOps, List.flatMap_cons, List.flatMap_nil, e0, e1, e2, int_bytes big hw, int_bytes big hh, e4, short_bytes big hb, e3,
      Targa.putc_bytes, List.append_assoc, List.nil_append, fileOf, List.cons_append]

/-- What saving to an empty file leaves in it. -/
theorem save_bytes (big : Bool) (junk : Nat → UInt8) (cur t : Loaded) (conv : Option Loaded) {n : Nat} (hm : Savable t.1 n) (hw : cur.1.width = t.1.width)
    {pal : Option Pal} (hpal : tempPal junk cur.2 = .ok (some pal)) (hpd : ∀ p, pal = some p → p.data.length = p.size ∧ p.size = n * 4)
    (hpn : pal = none → n = 0) (hconv : (if converts cur.1 then conv else some cur) = some t)
    (hnum : clrUsed t.2 cur.2 = n) :
    ∃ ops rows data size, iSaveBitmapInternal big junk 0 cur conv = .ok (some ops) ∧ AllInside ⟨[], 0⟩ ops ∧ bottomUp junk t.1 = .ok data ∧
      OutFile.run ⟨[], 0⟩ ops = ⟨fileOf size (54 + n * 4) t.1.width t.1.height (t.1.bpp * 8) n (palData pal ++ rows),
        (fileOf size (54 + n * 4) t.1.width t.1.height (t.1.bpp * 8) n (palData pal ++ rows)).length⟩ ∧
      Rows t.1.height t.1.bps (stride (t.1.bpp * 8) t.1.width) data rows ∧ (palData pal).length = n * 4 ∧
      size = 54 + n * 4 + t.1.height * stride (t.1.bpp * 8) t.1.width := by
  have hfits := hm.fits
  have hst := hm.stride
  have hwf : t.1.width < 4294967296 ∧ t.1.height < 4294967296 ∧ t.1.size < 4294967296 := by
    have h1 : t.1.height * t.1.bps ≤ t.1.height * stride (t.1.bpp * 8) t.1.width := Nat.mul_le_mul_left _ (by omega)
    have h2 : t.1.width ≤ t.1.bps := by rw [hm.bps]; rcases hm.bpp2 with e | e <;> rw [e] <;> omega
    have h3 : 1 * t.1.width ≤ t.1.height * t.1.width := Nat.mul_le_mul_right _ hm.h0
    have h4 : t.1.height * t.1.width ≤ t.1.height * t.1.bps := Nat.mul_le_mul_left _ h2
    have h5 : t.1.height * 1 ≤ t.1.height * t.1.width := Nat.mul_le_mul_left _ hm.w0
    have := hm.size
    omega
  obtain ⟨data, ed, ld, pd⟩ := bottomUp_spec junk hm.cons hm.depth hm.bpc hwf.2.2
  obtain ⟨rops, er, hrp, hr⟩ := rowOps_spec big hm ld
  have hps : palSize pal = n * 4 := by
    cases pal with
    | none => rw [hpn rfl]; rfl
    | some p => exact (hpd p rfl).2
  have hpl : (palData pal).length = n * 4 := by
    cases pal with
    | none => rw [hpn rfl]; rfl
    | some p => exact (hpd p rfl).1.trans (hpd p rfl).2
  have hpo : (∀ op ∈ palOps pal, Plain op) ∧ output (palOps pal) = palData pal := by
    cases pal with
    | none => exact ⟨by intro op hop; rw [List.mem_singleton.mp hop]; rfl, rfl⟩
    | some p =>
      refine ⟨by intro op hop; rw [List.mem_singleton.mp hop]; show p.data.length = 1 * p.size; rw [(hpd p rfl).1, Nat.one_mul], ?_⟩
      show p.data.take (1 * p.size) ++ [] = p.data
      rw [Nat.one_mul, ← (hpd p rfl).1, List.take_length, List.append_nil]
  generalize hst' : stride (t.1.bpp * 8) t.1.width = st at *
  have hbpp : t.1.bpp * 8 < 65536 := by rcases hm.bpp2 with e | e <;> rw [e] <;> decide
  obtain ⟨hhp, hho⟩ := headOps_spec big (n := n) (w := t.1.width) (h := t.1.height) (bits := t.1.bpp * 8) (by omega) hwf.1 hwf.2.1 hbpp
  generalize hhdr : headOps big n t.1.width t.1.height (t.1.bpp * 8) = hdr at *
  have hplain : ∀ op ∈ hdr ++ palOps pal ++ rops, Plain op := by
    intro op hop
    rcases List.mem_append.mp hop with hop | hop
    · rcases List.mem_append.mp hop with hop | hop
      · exact hhp op hop
      · exact hpo.1 op hop
    · exact hrp op hop
  have hout : output (hdr ++ palOps pal ++ rops) = fileOf 0 (54 + n * 4) t.1.width t.1.height (t.1.bpp * 8) n (palData pal ++ output rops) := by
    rw [output_append, output_append, hpo.2, List.append_assoc, hho]
  have hlen : (output (hdr ++ palOps pal ++ rops)).length = 54 + n * 4 + t.1.height * st := by
    rw [hout, fileOf_length, List.length_append, hpl, hr.1]; omega
  have hsz : u32 (0 + (output (hdr ++ palOps pal ++ rops)).length) = 54 + n * 4 + t.1.height * st := by
    rw [Nat.zero_add, hlen, u32_of_lt (by omega)]
  have hti : toInt (54 + n * 4 + t.1.height * st) = ((54 + n * 4 + t.1.height * st : Nat) : Int) := by unfold toInt; rw [if_pos hfits]
  generalize hS : 54 + n * 4 + t.1.height * st = S at *
  have erun := file_output _ hplain
  rw [hout] at erun
  generalize hR : palData pal ++ output rops = R at *
  have e1 : OutFile.step ⟨fileOf 0 (54 + n * 4) t.1.width t.1.height (t.1.bpp * 8) n R, (fileOf 0 (54 + n * 4) t.1.width t.1.height (t.1.bpp * 8) n R).length⟩
      (.seek 2 SEEK_SET) = ⟨fileOf 0 (54 + n * 4) t.1.width t.1.height (t.1.bpp * 8) n R, 2⟩ := rfl
  have e2 : OutFile.step ⟨fileOf 0 (54 + n * 4) t.1.width t.1.height (t.1.bpp * 8) n R, 2⟩ (int big S) =
      ⟨fileOf S (54 + n * 4) t.1.width t.1.height (t.1.bpp * 8) n R, 6⟩ := by
    have : (int big S).bytes = leBytes 4 S := int_bytes big (by omega)
    show OutFile.put _ ((SaveLittleUInt big (BitVec.ofNat 32 S)).take (4 * 1)) = _
    have this' : (SaveLittleUInt big (BitVec.ofNat 32 S)).take (4 * 1) = leBytes 4 S := this
    rw [this']
    unfold OutFile.put
    simp only [leBytes_length]
    rw [OutFile.mk.injEq]
    refine ⟨?_, rfl⟩
    simp only [fileOf, List.append_assoc]
    rw [List.take_left' (by rfl : ([66, 77] : List UInt8).length = 2), ← List.append_assoc [66, 77] (leBytes 4 0), List.drop_left' (by simp)]
  have e3 : OutFile.step ⟨fileOf S (54 + n * 4) t.1.width t.1.height (t.1.bpp * 8) n R, 6⟩ (.seek (toInt S) SEEK_SET) =
      ⟨fileOf S (54 + n * 4) t.1.width t.1.height (t.1.bpp * 8) n R, S⟩ := by
    show OutFile.mk _ (toInt S).toNat = _
    rw [hti, Int.toNat_natCast]
  have hlenS : ∀ s, (fileOf s (54 + n * 4) t.1.width t.1.height (t.1.bpp * 8) n R).length = S := by
    intro s
    have := hlen
    rw [hout, fileOf_length] at this
    rw [fileOf_length, this]
  refine ⟨(hdr ++ palOps pal ++ rops) ++ [.seek 2 SEEK_SET, int big S, .seek (toInt S) SEEK_SET], output rops, data, S, ?_, ?_, ed, ?_, hr, hpl, rfl⟩
  · unfold iSaveBitmapInternal
    rw [hpal, bind_ok]
    dsimp only
    rw [hconv]
    dsimp only
    rw [ed, bind_ok, er, bind_ok, hps, hnum, hw]
    unfold headOps at hhdr
    rw [hhdr]
    show Except.ok (some (hdr ++ palOps pal ++ rops ++ [.seek 2 SEEK_SET, int big (u32 (0 + (output (hdr ++ palOps pal ++ rops)).length)),
      .seek (toInt (u32 (0 + (output (hdr ++ palOps pal ++ rops)).length))) SEEK_SET])) = _
    rw [hsz]
  · refine allInside_append (plain_inside hplain _) ?_
    rw [erun]
    refine ⟨?_, ?_, ?_, trivial⟩
    · refine ⟨fun _ => ?_, fun h => absurd h (by decide), fun h => absurd h (by decide)⟩
      show (0 : Int) ≤ 2 ∧ (2 : Int) ≤ ((fileOf 0 _ _ _ _ _ _).length : Int)
      rw [hlenS]
      omega
    · show (SaveLittleUInt big _).length = 4 * 1
      rw [saveLittleUInt_eq]; simp
    · rw [e1, e2]
      refine ⟨fun _ => ?_, fun h => absurd h (by decide), fun h => absurd h (by decide)⟩
      show 0 ≤ toInt S ∧ toInt S ≤ ((fileOf S _ _ _ _ _ _).length : Int)
      rw [hlenS, hti]
      omega
  · unfold OutFile.run at erun ⊢
    rw [List.foldl_append, erun]
    simp only [List.foldl_cons, List.foldl_nil]
    rw [e1, e2, e3, hR, hlenS]

/-- What is loaded is what was saved. -/
theorem round_trip (big big' : Bool) (junk junk' : Nat → UInt8) (cur t : Loaded) (conv : Option Loaded) {n : Nat} (hm : Savable t.1 n)
    (hw : cur.1.width = t.1.width) {pal : Option Pal} (hpal : tempPal junk cur.2 = .ok (some pal))
    (hpd : ∀ p, pal = some p → p.data.length = p.size ∧ p.size = n * 4)
    (hpn : pal = none → n = 0) (hconv : (if converts cur.1 then conv else some cur) = some t) (hnum : clrUsed t.2 cur.2 = n) :
    ∃ ops, iSaveBitmapInternal big junk 0 cur conv = .ok (some ops) ∧ AllInside ⟨[], 0⟩ ops ∧
    ∃ m' l, iLoadBitmapInternal big' junk' (open_ (OutFile.run ⟨[], 0⟩ ops).data (OutFile.run ⟨[], 0⟩ ops).data.length) =
        .ok (true, some (m', if n = 0 then none else some ⟨palData pal, n * 4, IL_PAL_BGR32⟩), l) ∧ m'.Consistent ∧
      m'.width = t.1.width ∧ m'.height = t.1.height ∧ m'.depth = 1 ∧ m'.bpp = t.1.bpp ∧ m'.bpc = 1 ∧ m'.format = t.1.format ∧ m'.type = t.1.type ∧
      m'.origin = IL_ORIGIN_LOWER_LEFT ∧
      ∀ x y c, x < t.1.width → y < t.1.height → c < t.1.bpp →
        m'.px x y 0 c = t.1.px x (if t.1.origin = IL_ORIGIN_LOWER_LEFT then y else t.1.height - 1 - y) 0 c := by
  obtain ⟨ops, rows, data, size, es, hin, ed, eo, hr, hpl, hsz⟩ := save_bytes big junk cur t conv hm hw hpal hpd hpn hconv hnum
  refine ⟨ops, es, hin, ?_⟩
  rw [eo]
  dsimp only
  have hfits := hm.fits
  have hst := hm.stride
  have hw0 := hm.w0
  have hh0 := hm.h0
  have hb2 := hm.bpp2
  have hbps := hm.bps
  have hsize := hm.size
  have hle : t.1.height * t.1.bps ≤ t.1.height * stride (t.1.bpp * 8) t.1.width := Nat.mul_le_mul_left _ (by omega)
  have hwb : t.1.width ≤ t.1.bps := by rw [hbps]; rcases hb2 with e | e <;> rw [e] <;> omega
  have h3 : 1 * t.1.width ≤ t.1.height * t.1.width := Nat.mul_le_mul_right _ hm.h0
  have h4 : t.1.height * t.1.width ≤ t.1.height * t.1.bps := Nat.mul_le_mul_left _ hwb
  have h5 : t.1.height * 1 ≤ t.1.height * t.1.width := Nat.mul_le_mul_left _ hm.w0
  obtain ⟨data', ed', ld, pd⟩ := bottomUp_spec junk hm.cons hm.depth hm.bpc (by omega)
  rw [ed'] at ed
  cases ed
  have F := fileOf_fields (size := size) (off := 54 + n * 4) (w := t.1.width) (h := t.1.height) (bits := t.1.bpp * 8) (used := n) (rest := palData pal ++ rows)
    (by omega) (by omega) (by omega) (by rcases hb2 with e | e <;> rw [e] <;> decide) (by omega)
  have hlen : (fileOf size (54 + n * 4) t.1.width t.1.height (t.1.bpp * 8) n (palData pal ++ rows)).length =
      54 + n * 4 + t.1.height * stride (t.1.bpp * 8) t.1.width := by
    rw [fileOf_length, List.length_append, hpl, hr.1]; omega
  have hdrop : (fileOf size (54 + n * 4) t.1.width t.1.height (t.1.bpp * 8) n (palData pal ++ rows)).drop 54 = palData pal ++ rows := fileOf_drop _ _ _ _ _ _ _
  generalize hfile : fileOf size (54 + n * 4) t.1.width t.1.height (t.1.bpp * 8) n (palData pal ++ rows) = file at *
  have sw : sfield file 18 4 = t.1.width := sfield_of F.width (by simp only [Nat.reduceMul, Nat.reduceSub, Nat.reducePow]; omega)
  have sh : sfield file 22 4 = t.1.height := sfield_of F.height (by simp only [Nat.reduceMul, Nat.reduceSub, Nat.reducePow]; omega)
  have hcol : colours (t.1.bpp * 8) n = n := by
    unfold colours
    rcases hm.kind with h | h <;> rw [h.2.1]
    · rw [if_neg (by decide), if_neg (by omega)]
    · rw [if_pos (by decide), h.2.2]
  have hbi : (if t.1.bpp * 8 ≤ 8 then 1 else 3) = t.1.bpp := by rcases hb2 with e | e <;> rw [e] <;> rfl
  have hC : Complete file t.1.width t.1.height (t.1.bpp * 8) (54 + n * 4) := by
    refine ⟨⟨by omega, by omega, F.mark, F.size, by rw [sw]; omega, by rw [sh]; omega, F.planes, ?_⟩, by omega, F.width, by rw [sh]; exact Int.natAbs_natCast _, F.bits,
      F.off, by rw [F.used, hcol], by omega, ?_⟩
    · rw [F.bits]; rcases hb2 with e | e <;> rw [e] <;> simp
    · rw [hbi, ← hbps, Nat.mul_comm]
      omega
  obtain ⟨m', l, e, g⟩ := C90_pixels_partial big' junk' file _ _ _ _ hC F.comp (by rcases hb2 with e | e <;> rw [e] <;> intro h <;> omega)
    (by intro h; omega) (by intro h; omega)
  rw [F.used, hcol] at e
  have hpe : paletteOf file n = if n = 0 then none else some ⟨palData pal, n * 4, IL_PAL_BGR32⟩ := by
    unfold paletteOf
    rw [hdrop, List.take_left' hpl]
  rw [hpe] at e
  refine ⟨m', l, e, g.cons, g.width, g.height, g.depth, g.bpp.trans hbi, g.bpc, ?_, g.type.trans hm.type.symm, ?_, ?_⟩
  · rw [g.format]
    rcases hm.kind with h | h <;> rw [h.1, h.2.1] <;> rfl
  · rw [g.origin, sh, if_neg (by omega)]
  · intro x y c hx hy hc
    rw [g.pixels x y c hx hy (by rw [g.bpp, hbi]; exact hc), ← pd x y c hx hy hc]
    have hxb : x * t.1.bpp + c < t.1.bps := by rw [hbps]; exact idx_lt hx hc
    have hrow := (hr.2 y hy).1 (x * t.1.bpp + c) hxb
    have hi : y * t.1.bps + (x * t.1.bpp + c) = (y * t.1.width + x) * t.1.bpp + c := by rw [hbps]; grind
    rw [hi] at hrow
    rw [← hrow]
    have hin' : y * stride (t.1.bpp * 8) t.1.width + (x * t.1.bpp + c) < rows.length := by
      rw [hr.1]
      exact idx_lt hy (by omega)
    have hget : file.getD (54 + n * 4 + (y * stride (t.1.bpp * 8) t.1.width + (x * t.1.bpp + c))) 0 =
        rows[y * stride (t.1.bpp * 8) t.1.width + (x * t.1.bpp + c)]'hin' := by
      have : file[54 + (n * 4 + (y * stride (t.1.bpp * 8) t.1.width + (x * t.1.bpp + c)))]? =
          (palData pal ++ rows)[n * 4 + (y * stride (t.1.bpp * 8) t.1.width + (x * t.1.bpp + c))]? := by rw [← hdrop, List.getElem?_drop]
      rw [List.getD_eq_getElem?_getD, Nat.add_assoc, this, List.getElem?_append_right (by omega), hpl, Nat.add_sub_cancel_left,
        List.getElem?_eq_getElem hin']
      rfl
    rw [List.getElem?_eq_getElem hin', ← hget]
    congr 1
    rcases hb2 with e | e <;> rw [e] at hc ⊢
    · show file.getD (54 + n * 4 + y * stride (1 * 8) t.1.width + x) 0 = _
      congr 1
      omega
    · show file.getD (54 + n * 4 + y * stride (3 * 8) t.1.width + x * 3 + c) 0 = _
      congr 1
      omega

/-! ## C46 -/

theorem Savable.converts {m : Img} {n : Nat} (h : Savable m n) : converts m = false := by
  unfold Bmp.converts
  rw [decide_eq_false_iff_not]
  rintro (h' | h')
  · rcases h.kind with k | k
    · exact h'.2.2 k.1
    · exact h'.1 k.1
  · rw [h.bpc] at h'; omega

/-- **C46 (BGR).** Saving a BGR image as BMP to an empty file and loading the file again, on any hosts, gives an image of the same size, format and
type with the same value in every place: row `y` from the bottom is row `y` from the bottom.  The saver's seeks stay inside the file. -/
theorem C46_bgr_partial (big big' : Bool) (junk junk' : Nat → UInt8) (m : Img) (conv : Option Loaded) (hm : Savable m 0) :
    ∃ ops, iSaveBitmapInternal big junk 0 (m, none) conv = .ok (some ops) ∧ AllInside ⟨[], 0⟩ ops ∧
    ∃ m' l, iLoadBitmapInternal big' junk' (open_ (OutFile.run ⟨[], 0⟩ ops).data (OutFile.run ⟨[], 0⟩ ops).data.length) = .ok (true, some (m', none), l) ∧
      m'.Consistent ∧ m'.width = m.width ∧ m'.height = m.height ∧ m'.depth = 1 ∧ m'.bpp = m.bpp ∧ m'.bpc = 1 ∧ m'.format = m.format ∧ m'.type = m.type ∧
      m'.origin = IL_ORIGIN_LOWER_LEFT ∧
      ∀ x y c, x < m.width → y < m.height → c < m.bpp →
        m'.px x y 0 c = m.px x (if m.origin = IL_ORIGIN_LOWER_LEFT then y else m.height - 1 - y) 0 c :=
  round_trip big big' junk junk' (m, none) (m, none) conv hm rfl (pal := none) rfl (fun p h => nomatch h) (fun _ => rfl)
    (by rw [show Bmp.converts (m, (none : Option Pal)).1 = false from hm.converts]; rfl) rfl

/-- The palette that is written: the colours of the image's, blue first. -/
theorem tempPal_spec (junk : Nat → UInt8) {p : Pal} {n : Nat} (hp : Has p n) (h0 : 0 < n) (hn : n * 12 < 16777216) :
    ∃ q, tempPal junk (some p) = .ok (some (some q)) ∧ Has q n ∧ q.type = IL_PAL_BGR32 ∧ ∀ i, i < n → red q i = red p i ∧ green q i = green p i ∧ blue q i = blue p i := by
  have ht := hp.type
  have hs : p.size ≠ 0 := by
    rw [hp.size]
    have : 0 < Palette.stride p.type := by unfold Palette.stride; split <;> decide
    exact Nat.ne_of_gt (Nat.mul_pos h0 this)
  have hnn : p.type ≠ IL_PAL_NONE := by
    intro e
    rw [e] at ht
    revert ht
    decide
  unfold tempPal
  by_cases hb : p.type = IL_PAL_BGR32
  · dsimp only
    rw [if_neg (by simp [hb])]
    exact ⟨p, rfl, hp, hb, fun i _ => ⟨rfl, rfl, rfl⟩⟩
  · dsimp only
    rw [if_pos ⟨hs, hnn, hb⟩]
    obtain ⟨q, e, h1, h2, h3⟩ := Palette.C29_convert_partial junk p n IL_PAL_BGR32 hp (by decide) hn
    rw [e, bind_ok]
    exact ⟨q, rfl, h2, h1, fun i hi => ⟨(h3 i hi).1, (h3 i hi).2.1, (h3 i hi).2.2.1⟩⟩

theorem numCols_eq {p : Pal} {n : Nat} (hp : Has p n) (h0 : 0 < n) : numCols (some p) = n := by
  have hs : Palette.stride p.type = ilGetBppPal p.type ∧ p.type ≠ IL_PAL_NONE ∧ 0 < Palette.stride p.type := by
    have ht := hp.type
    unfold IsPal at ht
    simp only [List.mem_cons, List.not_mem_nil, or_false] at ht
    rcases ht with e | e | e | e | e | e <;> rw [e] <;> decide
  have hsz := hp.size
  unfold numCols
  dsimp only
  have : 0 < n * Palette.stride p.type := Nat.mul_pos h0 hs.2.2
  rw [if_neg (by rintro (h | h); exacts [absurd h (by omega), hs.2.1 h]), hsz, ← hs.1, Nat.mul_div_cancel _ hs.2.2]

/-- **C46 (palette).** Saving a colour-indexed image with a palette of any layout and loading the file again gives an image with the same index in
every place, and a palette of the same number of entries with the same red, green and blue in every entry.  (That palettes of images have at most
1398101 entries is C29's limit.) -/
theorem C46_palette_partial (big big' : Bool) (junk junk' : Nat → UInt8) (m : Img) (p : Pal) (n : Nat) (conv : Option Loaded) (hm : Savable m n)
    (hf : m.format = IL_COLOUR_INDEX) (hp : Has p n) (hn : n * 12 < 16777216) :
    ∃ ops, iSaveBitmapInternal big junk 0 (m, some p) conv = .ok (some ops) ∧ AllInside ⟨[], 0⟩ ops ∧
    ∃ m' q l, iLoadBitmapInternal big' junk' (open_ (OutFile.run ⟨[], 0⟩ ops).data (OutFile.run ⟨[], 0⟩ ops).data.length) = .ok (true, some (m', some q), l) ∧
      m'.Consistent ∧ m'.width = m.width ∧ m'.height = m.height ∧ m'.depth = 1 ∧ m'.bpp = m.bpp ∧ m'.bpc = 1 ∧ m'.format = m.format ∧ m'.type = m.type ∧
      m'.origin = IL_ORIGIN_LOWER_LEFT ∧
      (∀ x y c, x < m.width → y < m.height → c < m.bpp →
        m'.px x y 0 c = m.px x (if m.origin = IL_ORIGIN_LOWER_LEFT then y else m.height - 1 - y) 0 c) ∧
      Has q n ∧ ∀ i, i < n → red q i = red p i ∧ green q i = green p i ∧ blue q i = blue p i := by
  have h0 : 0 < n := by
    rcases hm.kind with k | k
    · exact k.2.2
    · rw [hf] at k; exact absurd k.1 (by decide)
  obtain ⟨q, e, hq, ht, hc⟩ := tempPal_spec junk hp h0 hn
  have hqs : q.size = n * 4 := by rw [hq.size, ht]; rfl
  obtain ⟨ops, h1, h2, m', l, h3, h4, h5, h6, h7, h8, h9, h10, h11, h12, h13⟩ := round_trip big big' junk junk' (m, some p) (m, some p) conv hm rfl (pal := some q) e
    (fun p' h => by cases h; exact ⟨hq.len, hqs⟩) (fun h => nomatch h)
    (by rw [show Bmp.converts (m, some p).1 = false from hm.converts]; rfl) (by
      show (if p.type ≠ IL_PAL_NONE then numCols (some p) else 0) = n
      rw [if_pos (by intro e; have := hp.type; rw [e] at this; revert this; decide), numCols_eq hp h0])
  refine ⟨ops, h1, h2, m', ⟨q.data, n * 4, IL_PAL_BGR32⟩, l, ?_, h4, h5, h6, h7, h8, h9, h10, h11, h12, h13, ?_, ?_⟩
  · rw [h3, if_neg (by omega)]; rfl
  · exact ⟨by show IsPal IL_PAL_BGR32; decide, rfl, hq.len.trans hqs⟩
  · intro i hi
    have hcc := hc i hi
    have : (⟨q.data, n * 4, IL_PAL_BGR32⟩ : Pal) = q := by rw [← hqs, ← ht]
    rw [this]
    exact hcc

/-- **C46 (conversion).** An image without palette in any other format is converted first; what is loaded is the converted image `t`. -/
theorem C46_converted_partial (big big' : Bool) (junk junk' : Nat → UInt8) (m t : Img) (ht : Savable t 0) (hw : t.width = m.width)
    (hf : m.format ≠ IL_BGR ∧ m.format ≠ IL_BGRA ∧ m.format ≠ IL_COLOUR_INDEX ∨ m.bpc > 1) :
    ∃ ops, iSaveBitmapInternal big junk 0 (m, none) (some (t, none)) = .ok (some ops) ∧ AllInside ⟨[], 0⟩ ops ∧
    ∃ m' l, iLoadBitmapInternal big' junk' (open_ (OutFile.run ⟨[], 0⟩ ops).data (OutFile.run ⟨[], 0⟩ ops).data.length) = .ok (true, some (m', none), l) ∧
      m'.Consistent ∧ m'.width = t.width ∧ m'.height = t.height ∧ m'.depth = 1 ∧ m'.bpp = t.bpp ∧ m'.bpc = 1 ∧ m'.format = t.format ∧ m'.type = t.type ∧
      m'.origin = IL_ORIGIN_LOWER_LEFT ∧
      ∀ x y c, x < t.width → y < t.height → c < t.bpp →
        m'.px x y 0 c = t.px x (if t.origin = IL_ORIGIN_LOWER_LEFT then y else t.height - 1 - y) 0 c :=
  round_trip big big' junk junk' (m, none) (t, none) (some (t, none)) ht hw.symm (pal := none) rfl (fun p h => nomatch h) (fun _ => rfl)
    (by rw [show Bmp.converts (m, (none : Option Pal)).1 = true from decide_eq_true hf]; rfl) rfl

/-- **C46 (layout).** Each row of the file, from the bottom row on, starts at a multiple of four bytes behind the palette and ends in zeros. -/
theorem C46_layout (big : Bool) (junk : Nat → UInt8) (m : Img) (conv : Option Loaded) (hm : Savable m 0) :
    ∃ ops, iSaveBitmapInternal big junk 0 (m, none) conv = .ok (some ops) ∧
      (OutFile.run ⟨[], 0⟩ ops).data.length = 54 + m.height * ((m.width * 3 + 3) / 4 * 4) ∧
      ∀ y, y < m.height →
        (∀ x c, x < m.width → c < 3 → (OutFile.run ⟨[], 0⟩ ops).data[54 + y * ((m.width * 3 + 3) / 4 * 4) + x * 3 + c]? =
          m.px x (if m.origin = IL_ORIGIN_LOWER_LEFT then y else m.height - 1 - y) 0 c) ∧
        ∀ i, m.width * 3 ≤ i → i < (m.width * 3 + 3) / 4 * 4 → (OutFile.run ⟨[], 0⟩ ops).data[54 + y * ((m.width * 3 + 3) / 4 * 4) + i]? = some 0 := by
  obtain ⟨ops, rows, data, size, es, hin, ed, eo, hr, hpl, hsz⟩ := save_bytes big junk (m, none) (m, none) conv (n := 0) hm rfl (pal := none) rfl
    (fun p h => nomatch h) (fun _ => rfl) (by rw [show Bmp.converts (m, (none : Option Pal)).1 = false from hm.converts]; rfl) rfl
  have hb : m.bpp = 3 := by rcases hm.kind with k | k; exacts [absurd k.2.2 (by decide), k.2.1]
  have hst : stride (m.bpp * 8) m.width = (m.width * 3 + 3) / 4 * 4 := by rw [hb]; unfold stride; omega
  have hbps : m.bps = m.width * 3 := by rw [hm.bps, hb]
  have hfits := hm.fits
  dsimp only at hr hst
  rw [hst] at hr hfits
  generalize hS : (m.width * 3 + 3) / 4 * 4 = S at *
  have hle : m.height * m.bps ≤ m.height * S := Nat.mul_le_mul_left _ (by omega)
  obtain ⟨data', ed', ld, pd⟩ := bottomUp_spec junk hm.cons hm.depth hm.bpc (by rw [hm.size]; omega)
  rw [ed'] at ed
  cases ed
  have hdrop : (OutFile.run ⟨[], 0⟩ ops).data.drop 54 = rows := by rw [eo]; exact fileOf_drop _ _ _ _ _ _ _
  have hlen : (OutFile.run ⟨[], 0⟩ ops).data.length = 54 + m.height * S := by
    rw [eo]
    show (fileOf _ _ _ _ _ _ ([] ++ rows)).length = _
    rw [fileOf_length, List.nil_append, hr.1]
  have hget : ∀ i, (OutFile.run ⟨[], 0⟩ ops).data[54 + i]? = rows[i]? := by intro i; rw [← hdrop, List.getElem?_drop]
  refine ⟨ops, es, hlen, fun y hy => ⟨fun x c hx hc => ?_, fun i h1 h2 => ?_⟩⟩
  · have hx3 : x * 3 + c < m.bps := by rw [hbps]; exact idx_lt hx hc
    rw [show 54 + y * S + x * 3 + c = 54 + (y * S + (x * 3 + c)) by omega, hget, (hr.2 y hy).1 (x * 3 + c) hx3, ← pd x y c hx hy (by rw [hb]; exact hc), hb, hbps]
    congr 1
    grind
  · rw [show 54 + y * S + i = 54 + (y * S + i) by omega, hget, (hr.2 y hy).2 i (by omega) h2]

/-! ### Instances and violations -/

/-- A BGR image of 3x2 pixels, top row first. -/
def bgr32 : Img := ⟨3, 2, 1, 3, 1, 9, 18, 18, IL_BGR, IL_UNSIGNED_BYTE, IL_ORIGIN_UPPER_LEFT, [1, 2, 3, 4, 5, 6, 7, 8, 9, 10, 11, 12, 13, 14, 15, 16, 17, 18]⟩

example : Savable bgr32 0 := ⟨⟨rfl, rfl, rfl, rfl⟩, rfl, rfl, rfl, Or.inr ⟨rfl, rfl, rfl⟩, by decide, by decide, by decide⟩

/-- A palette image of 5x1 pixels with two colours. -/
def index51 : Img := ⟨5, 1, 1, 1, 1, 5, 5, 5, IL_COLOUR_INDEX, IL_UNSIGNED_BYTE, IL_ORIGIN_LOWER_LEFT, [1, 0, 1, 1, 0]⟩

example : Savable index51 2 ∧ Has ⟨[1, 2, 3, 4, 5, 6], 6, IL_PAL_RGB24⟩ 2 :=
  ⟨⟨⟨rfl, rfl, rfl, rfl⟩, rfl, rfl, rfl, Or.inl ⟨rfl, rfl, by decide⟩, by decide, by decide, by decide⟩, by decide, rfl, rfl⟩

/-- What the image is after saving and loading. -/
def again (m : Loaded) : C (Bool × Option Loaded) := do
  match ← iSaveBitmapInternal false (fun _ => 0) 0 m none with
  | none => pure (false, none)
  | some ops => do
    let f := (OutFile.run ⟨[], 0⟩ ops).data
    let (ok, m', _) ← iLoadBitmapInternal false (fun _ => 0) (open_ f f.length)
    pure (ok, m')

set_option maxRecDepth 20000 in
/-- **C46 (violated).** An image with alpha, which is saved as it is, comes back without: one BGRA pixel. -/
theorem C46_violated_alpha : again (⟨1, 1, 1, 4, 1, 4, 4, 4, IL_BGRA, IL_UNSIGNED_BYTE, IL_ORIGIN_LOWER_LEFT, [1, 2, 3, 4]⟩, none) =
    .ok (true, some (⟨1, 1, 1, 3, 1, 3, 3, 3, IL_BGR, IL_UNSIGNED_BYTE, IL_ORIGIN_LOWER_LEFT, [1, 2, 3]⟩, none)) := by rfl

set_option maxRecDepth 20000 in
/-- **C46 (violated).** Only the first slice of a volume is saved, and the call reports success. -/
theorem C46_violated_slices : again (⟨1, 1, 2, 3, 1, 3, 3, 6, IL_BGR, IL_UNSIGNED_BYTE, IL_ORIGIN_LOWER_LEFT, [1, 2, 3, 4, 5, 6]⟩, none) =
    .ok (true, some (⟨1, 1, 1, 3, 1, 3, 3, 3, IL_BGR, IL_UNSIGNED_BYTE, IL_ORIGIN_LOWER_LEFT, [1, 2, 3]⟩, none)) := by rfl

set_option maxRecDepth 20000 in
/-- **C46 (violated).** A grey image with a palette left over is converted to BGR; the palette is written in front of the pixels all the same,
and the header says so, but what is loaded has no palette: here a colour-indexed image whose indices are two bytes wide, converted to the one-pixel BGR image `t`.
The pixels survive. -/
example : (do
    match ← iSaveBitmapInternal false (fun _ => 0) 0 (⟨1, 1, 1, 1, 2, 2, 2, 2, IL_COLOUR_INDEX, IL_UNSIGNED_SHORT, IL_ORIGIN_LOWER_LEFT, [0, 0]⟩,
        some ⟨[1, 2, 3, 0], 4, IL_PAL_BGR32⟩) (some (⟨1, 1, 1, 3, 1, 3, 3, 3, IL_BGR, IL_UNSIGNED_BYTE, IL_ORIGIN_LOWER_LEFT, [1, 2, 3]⟩, none)) with
    | none => pure (false, none)
    | some ops => do
      let f := (OutFile.run ⟨[], 0⟩ ops).data
      let (ok, m', _) ← iLoadBitmapInternal false (fun _ => 0) (open_ f f.length)
      pure (ok, m') : C (Bool × Option Loaded)) =
    .ok (true, some (⟨1, 1, 1, 3, 1, 3, 3, 3, IL_BGR, IL_UNSIGNED_BYTE, IL_ORIGIN_LOWER_LEFT, [1, 2, 3]⟩, none)) := by rfl

set_option maxRecDepth 20000 in
/-- **C46 (violated).** A colour-indexed image without a palette is saved with a header that announces 256 colours, and cannot be loaded again. -/
theorem C46_violated_no_palette : (again (⟨1, 1, 1, 1, 1, 1, 1, 1, IL_COLOUR_INDEX, IL_UNSIGNED_BYTE, IL_ORIGIN_LOWER_LEFT, [0]⟩, none)).map (·.1) =
    .ok false := by rfl

/-! ## C92 -/

/-- **C92 (partial).** A saver that never seeks leaves everything in front of the position of the file as it is, wherever it starts, and what it writes
stands there.  `C44_round_trip_partial` shows that uncompressed SGI is saved so; its calls do not depend on the position.  Missing, and false: BMP,
see the violation. -/
theorem C92_in_place_partial (f : OutFile) (hp : f.pos ≤ f.data.length) (ops : List WOp) (hplain : ∀ op ∈ ops, Plain op) :
    (f.run ops).data.take f.pos = f.data.take f.pos ∧ ((f.run ops).data.drop f.pos).take (output ops).length = output ops ∧
      (f.run ops).pos = f.pos + (output ops).length := by
  suffices h : ∀ (ops : List WOp) (pre old : List UInt8), (∀ op ∈ ops, Plain op) →
      OutFile.run ⟨pre ++ old, pre.length⟩ ops = ⟨pre ++ (output ops ++ old.drop (output ops).length), pre.length + (output ops).length⟩ by
    have e := h ops (f.data.take f.pos) (f.data.drop f.pos) hplain
    have hl : (f.data.take f.pos).length = f.pos := by rw [List.length_take]; omega
    rw [List.take_append_drop, hl] at e
    rw [e]
    refine ⟨List.take_left' hl, ?_, rfl⟩
    rw [List.drop_left' hl, List.take_left' rfl]
  intro ops
  induction ops with
  | nil => intro pre old _; simp [OutFile.run, output]
  | cons op ops ih =>
    intro pre old hp
    have e : OutFile.step ⟨pre ++ old, pre.length⟩ op = ⟨(pre ++ op.bytes) ++ old.drop op.bytes.length, (pre ++ op.bytes).length⟩ := by
      have hput : ∀ bs, OutFile.put ⟨pre ++ old, pre.length⟩ bs = ⟨(pre ++ bs) ++ old.drop bs.length, (pre ++ bs).length⟩ := by
        intro bs
        unfold OutFile.put
        dsimp only
        rw [List.take_left' rfl, List.drop_append, List.drop_of_length_le (by omega), List.nil_append, Nat.add_sub_cancel_left, List.length_append]
      cases op with
      | putc b => exact hput [b]
      | write buf s n => exact hput _
      | seek o m => exact (hp _ List.mem_cons_self).elim
    show OutFile.run (OutFile.step ⟨pre ++ old, pre.length⟩ op) ops = _
    rw [e, ih _ _ (fun x hx => hp x (List.mem_cons_of_mem _ hx))]
    have : output (op :: ops) = op.bytes ++ output ops := rfl
    rw [this, List.drop_drop, OutFile.mk.injEq]
    simp only [List.length_append, List.append_assoc]
    exact ⟨trivial, by omega⟩

example : (OutFile.run ⟨[1, 2, 3, 4, 5], 2⟩ [.putc 9, .write [8, 7] 1 2]).data.take 2 = [1, 2] :=
  (C92_in_place_partial ⟨[1, 2, 3, 4, 5], 2⟩ (by decide) [.putc 9, .write [8, 7] 1 2] (by decide)).1

set_option maxRecDepth 20000 in
/-- **C92 (violated).** Saving a bitmap behind eight bytes of an open file overwrites four of them: the size is stored at an absolute position.
What stands behind the eight bytes is not a bitmap with its size either. -/
theorem C92_violated : (do
    match ← iSaveBitmapInternal false (fun _ => 0) 8 (⟨1, 1, 1, 3, 1, 3, 3, 3, IL_BGR, IL_UNSIGNED_BYTE, IL_ORIGIN_LOWER_LEFT, [1, 2, 3]⟩, none) none with
    | none => pure []
    | some ops => pure ((OutFile.run ⟨[1, 2, 3, 4, 5, 6, 7, 8], 8⟩ ops).data.take 16) : C (List UInt8)) =
    .ok [1, 2, 66, 0, 0, 0, 7, 8, 66, 77, 0, 0, 0, 0, 0, 0] := by rfl

end DevIL.Bmp
