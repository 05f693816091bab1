import Verif.Lemmas.DpxC
import Verif.Props.Games
/-! Raw data and DPX files: C176 (raw data), C177 (the position of the file), C178 (DPX, eight bits), C179 (DPX, other depths), C180 (DPX, orientation),
C181 (DPX, safety), C182 (DPX, files cut off). -/
set_option autoImplicit false
namespace DevIL.Dpx
open DevIL.Games DevIL.Detect DevIL.Image DevIL.DetectSpec DevIL.DpxSpec
open DevIL.Lump (SEEK_SET)

/-- Seeking leaves the contents alone. -/
theorem seek_data (s : Cache.S) (off : Int) (m : Nat) : (Cache.iSeekRFile s off m).2.data = s.data := by
  unfold Cache.iSeekRFile
  simp only []
  generalize (if m = SEEK_SET then off + (s.start : Int) else if m = Lump.SEEK_CUR then (s.pos : Int) + off else (s.data.length : Int) + off) = t
  by_cases h : t < 0 ∨ m > 2
  · rw [if_pos h]
  · rw [if_neg h]

/-! ### C176 -/

/-- **C176**, from a file: for every file, at every position in it, every dimensions and every number of bytes per pixel, loading raw data ends without
a fault, leaves the contents of the file alone and does what `RawData` says of the bytes from that position on. -/
theorem C176_file (junk : Nat → UInt8) (bs : List UInt8) (p w h d k : Nat) (hk : k < 256) (cur : Img) :
    ∃ ok r s', RawData.ilLoadDataF junk w h d k (some cur) (opened bs p) = .ok (ok, r, s') ∧ RawData (bs.drop p) w h d k cur ok r ∧ s'.data = bs := by
  have := raw_spec (o := fileOps) junk w h d k hk cur (s := Cache.iSetInputFile (opened bs p) bs p) (rest := bs.drop p) (Q := fun t => t.data = bs) rfl (fun n hn => by
    refine Holds.pure ⟨?_, ?_, rfl⟩
    · show (bs.drop p).take (n * 1) = _
      rw [Nat.mul_one]
    · rfl)
  obtain ⟨r, e, h1, h2⟩ := this
  refine ⟨r.1, r.2.1, (Cache.iSeekRFile r.2.2 (Lump.toInt (Cache.iTellRFile (Cache.iSetInputFile (opened bs p) bs p))) SEEK_SET).2, ?_, h1, by rw [seek_data]; exact h2⟩
  · unfold RawData.ilLoadDataF ilLoadF
    show (RawData.iLoadDataInternal fileOps junk w h d k (some cur) (Cache.iSetInputFile (opened bs p) bs p) >>= _) = _
    rw [e, bind_ok]
    rfl

/-- **C176**, from memory: likewise. -/
theorem C176_memory (junk : Nat → UInt8) (bs : List UInt8) (h0 : 0 < bs.length) (hl : bs.length < 2147483648) (w h d k : Nat) (hk : k < 256) (cur : Img) :
    ∃ ok r, RawData.ilLoadDataL junk w h d k (some cur) bs bs.length = .ok (ok, r) ∧ RawData bs w h d k cur ok r := by
  refine loadL h0 hl (fun t ht => ?_)
  refine raw_spec (o := lumpOps) junk w h d k hk cur (rest := bs) (Q := fun t => ∃ q, LumpAt t bs q) ⟨_, ht⟩ (fun n hn => ?_)
  by_cases hz : n = 0
  · subst hz
    refine (lumpLaws2.read0 1 ht).mono (fun r hr => ⟨by rw [hr.1]; simp, by rw [hr.2.1]; rfl, _, hr.2.2⟩)
  · refine (lumpLaws2.read n 1 ht (by omega) (by omega)).mono (fun r hr => ⟨?_, by rw [if_neg hz]; exact hr.2.1, _, hr.2.2⟩)
    rw [hr.1, Nat.mul_one]
    rfl

/-- **C176**, by name: the same as from a file at its beginning; a file that cannot be opened is refused and the image left alone. -/
theorem C176_named (junk : Nat → UInt8) (w h d k : Nat) (hk : k < 256) (cur : Img) :
    RawData.ilLoadData junk w h d k (some cur) none (opened · 0) = .ok (false, some cur) ∧
    ∀ bs, ∃ ok r, RawData.ilLoadData junk w h d k (some cur) (some bs) (opened · 0) = .ok (ok, r) ∧ RawData bs w h d k cur ok r := by
  refine ⟨rfl, fun bs => ?_⟩
  obtain ⟨ok, r, s', e, h1, -⟩ := C176_file junk bs 0 w h d k hk cur
  refine ⟨ok, r, ?_, h1⟩
  unfold RawData.ilLoadData
  simp only [e, bind_ok]
  rfl

/-- **C176**, without a bound image: nothing is loaded. -/
theorem C176_unbound (junk : Nat → UInt8) (bs : List UInt8) (p w h d k : Nat) :
    ∃ s', RawData.ilLoadDataF junk w h d k none (opened bs p) = .ok (false, none, s') ∧ s'.data = bs := by
  refine ⟨(Cache.iSeekRFile (Cache.iSetInputFile (opened bs p) bs p) (Lump.toInt (Cache.iTellRFile (opened bs p))) SEEK_SET).2, ?_, by rw [seek_data]; rfl⟩
  · unfold RawData.ilLoadDataF ilLoadF RawData.iLoadDataInternal
    rfl

/-- A volume of 2 by 1 by 2 pixels of three bytes, after two other bytes. -/
def volume : List UInt8 := [9, 9, 1, 2, 3, 4, 5, 6, 7, 8, 9, 10, 11, 12]

example : rawFormat 3 = some IL_RGB ∧ 2 * 1 * 2 * 3 < 2 ^ 32 ∧ 2 * 1 * 2 * 3 ≤ (volume.drop 2).length := by decide
/-- The second pixel of its second slice. -/
example : ∃ m s', RawData.ilLoadDataF (fun _ => 0) 2 1 2 3 (some before.1) (opened volume 2) = .ok (true, some m, s') ∧ m.px 1 0 1 0 = some 10 := by
  obtain ⟨ok, r, s', e, ⟨-, h⟩, -⟩ := C176_file (fun _ => 0) volume 2 2 1 2 3 (by decide) before.1
  obtain ⟨m, rfl, -, h⟩ := h _ rfl
  obtain ⟨h1, h2⟩ := h (by decide) (by decide) (by decide) (by decide)
  have hok := h1.mpr (by decide)
  subst hok
  exact ⟨m, s', e, ((h2 rfl).px 1 0 1 0 (by decide) (by decide) (by decide) (by decide)).1⟩
/-- One byte too few. -/
example : ∃ m s', RawData.ilLoadDataF (fun _ => 0) 2 1 2 3 (some before.1) (opened volume 3) = .ok (false, some m, s') := by
  obtain ⟨ok, r, s', e, ⟨-, h⟩, -⟩ := C176_file (fun _ => 0) volume 3 2 1 2 3 (by decide) before.1
  obtain ⟨m, rfl, -, h⟩ := h _ rfl
  obtain ⟨h1, -⟩ := h (by decide) (by decide) (by decide) (by decide)
  cases ok with
  | false => exact ⟨m, s', e⟩
  | true => exact absurd (h1.mp rfl) (by decide)

/-! ### C177 -/

/-- A loader that only reads: it leaves the contents of the file, and where the library thinks that the picture begins, alone. -/
def Reads {ρ : Type} (v : Cache.S → C (Bool × ρ × Cache.S)) : Prop :=
  ∀ s b r s', v s = .ok (b, r, s') → s'.data = s.data ∧ s'.start = s.start

/-- Where a file is after `ilLoad…F`, for every loader, from every position. -/
theorem pos_after {ρ : Type} (v : Cache.S → C (Bool × ρ × Cache.S)) (hv : Reads v) (bs : List UInt8) (p : Nat) (hp : p < 2147483648) (b : Bool) (r : ρ) (s' : Cache.S)
    (h : ilLoadF v (opened bs p) = .ok (b, r, s')) : s'.data = bs ∧ s'.pos = p + p := by
  unfold ilLoadF at h
  simp only [] at h
  cases e : v (Cache.iSetInputFile (opened bs p) bs p) with
  | error f =>
    have e' : v (Cache.iSetInputFile (opened bs p) (opened bs p).data (opened bs p).pos) = .error f := e
    rw [e'] at h
    cases h
  | ok t =>
    obtain ⟨b1, r1, s1⟩ := t
    have e' : v (Cache.iSetInputFile (opened bs p) (opened bs p).data (opened bs p).pos) = .ok (b1, r1, s1) := e
    rw [e'] at h
    have h2 := h
    rw [bind_ok] at h2
    obtain ⟨h3, h4⟩ := hv _ _ _ _ e
    have hd : s1.data = bs := h3
    have hst : s1.start = p := h4
    have ht : Lump.toInt (Cache.iTellRFile (Cache.iSetInputFile (opened bs p) bs p)) = p := by
      show Lump.toInt (u32 p) = p
      rw [u32_of_lt (by omega)]
      unfold Lump.toInt
      rw [if_pos hp]
    have h5 : (Cache.iSeekRFile s1 (Lump.toInt (Cache.iTellRFile (Cache.iSetInputFile (opened bs p) bs p))) SEEK_SET).2 = s' := by
      injection h2 with h2
      injection h2 with _ h2
      injection h2 with _ h2
    rw [ht] at h5
    unfold Cache.iSeekRFile at h5
    simp only [SEEK_SET, if_true] at h5
    rw [if_neg (by omega)] at h5
    subst h5
    refine ⟨hd, ?_⟩
    show ((p : Int) + (s1.start : Int)).toNat = _
    rw [hst]
    omega

/-- **C177** (partial): whatever the format, loading from a file that is at its beginning leaves it there.  Missing: a file at another position
(`C177_violated_elsewhere`). -/
theorem C177_beginning_partial {ρ : Type} (v : Cache.S → C (Bool × ρ × Cache.S)) (hv : Reads v) (bs : List UInt8) (b : Bool) (r : ρ) (s' : Cache.S)
    (h : ilLoadF v (opened bs 0) = .ok (b, r, s')) : s'.data = bs ∧ s'.pos = 0 :=
  pos_after v hv bs 0 (by decide) b r s' h

/-- **C177 violated**: whatever the format, loading from a file that is not at its beginning leaves it at twice its position: the position is taken
from the beginning of the file, and returned to from the beginning of the picture. -/
theorem C177_violated_elsewhere {ρ : Type} (v : Cache.S → C (Bool × ρ × Cache.S)) (hv : Reads v) (bs : List UInt8) (p : Nat) (h0 : 0 < p) (hp : p < 2147483648)
    (b : Bool) (r : ρ) (s' : Cache.S) (h : ilLoadF v (opened bs p) = .ok (b, r, s')) : s'.pos = p + p ∧ s'.pos ≠ p := by
  obtain ⟨-, h2⟩ := pos_after v hv bs p hp b r s' h
  exact ⟨h2, by omega⟩

/-- The loader of raw data is such a loader. -/
theorem reads_raw (junk : Nat → UInt8) (w h d k : Nat) (cur : Option Img) : Reads (RawData.iLoadDataInternal fileOps junk w h d k cur) := by
  intro s b r s' e
  unfold RawData.iLoadDataInternal at e
  split at e
  · cases e; exact ⟨rfl, rfl⟩
  · simp only [into, fileOps, pure_eq_ok, bind_ok] at e
    cases hm : memcpy (RawData.dataTex junk w h d k).data 0 (Cache.fread s (u32 (u32 (u32 (w * h) * d) * k)) 1).1 0 (Cache.fread s (u32 (u32 (u32 (w * h) * d) * k)) 1).1.length with
    | error f =>
      rw [hm] at e
      cases e
    | ok x =>
      rw [hm] at e
      simp only [bind_ok] at e
      split at e <;> (cases e; exact ⟨rfl, rfl⟩)

example : ∃ b r s', ilLoadF (RawData.iLoadDataInternal fileOps (fun _ => 0) 2 1 2 3 (some before.1)) (opened volume 2) = .ok (b, r, s') ∧ s'.pos = 4 := by
  obtain ⟨ok, r, s', e, -⟩ := C176_file (fun _ => 0) volume 2 2 1 2 3 (by decide) before.1
  exact ⟨ok, r, s', e, (C177_violated_elsewhere _ (reads_raw _ _ _ _ _ _) volume 2 (by decide) (by decide) _ _ _ e).1⟩

/-! ### C178 -/

/-- **C178**: for every file with a DPX header whose first picture has eight bits for each component, lies inside the file and takes less than 4 GiB,
from a file or from memory, loading ends without a fault, succeeds exactly if all the pixels are in the file, and shows them. -/
theorem C178_eight (junk : Nat → UInt8) (cur : Loaded) (bs : List UInt8) (hl : bs.length < 2147483648) (k f : Nat) (hh : DpxHead bs k f 8)
    (hfit : dpxWidth bs * dpxHeight bs * k < 2 ^ 32) :
    Both (iLoadDpxInternal fileOps junk cur) (iLoadDpxInternal lumpOps junk cur) bs (fun ok r =>
      (ok = true ↔ dpxData bs + dpxWidth bs * dpxHeight bs * k ≤ bs.length) ∧
      (ok = true → r.2 = none ∧ Shows3 r.1 (dpxWidth bs) (dpxHeight bs) 1 k 1 f IL_UNSIGNED_BYTE
        (fun x y _ c => bs[dpxData bs + (y * dpxWidth bs + x) * k + c]?))) := by
  have h0 : 0 < bs.length := by have := hh.long; omega
  exact both h0 hl (fun t ht => (bytes_spec fileLaws2 junk cur ht hh (.inl rfl) hfit).mono (fun r hr => ⟨hr.2, hr.1⟩))
    (fun t ht => (bytes_spec lumpLaws2 junk cur ht hh (.inl rfl) hfit).mono (fun r hr => ⟨hr.2, hr.1⟩))

/-- A DPX file: orientation, width, height, kind of the picture, bits, packing, offset of the data; then what follows the header. -/
def dpx (orient w h : Nat) (kind bits : UInt8) (packing off : Nat) (rest : List UInt8) : List UInt8 :=
  [0x53, 0x44, 0x50, 0x58] ++ List.replicate 764 0 ++ (leBytes 2 orient).reverse ++ [0, 1] ++ (leBytes 4 w).reverse ++ (leBytes 4 h).reverse ++
  List.replicate 20 0 ++ [kind, 0, 0, bits] ++ (leBytes 2 packing).reverse ++ [0, 0] ++ (leBytes 4 off).reverse ++ List.replicate 852 0 ++ rest

/-- A header is well formed; to be settled by computation. -/
theorem head_of {bs : List UInt8} {k f : Nat} {bits : UInt8} (h : decide (1664 ≤ bs.length ∧ (bs[800]?).bind dpxKind = some (k, f) ∧ bs[803]? = some bits ∧ 0 < dpxWidth bs ∧
    0 < dpxHeight bs ∧ dpxData bs ≤ bs.length) = true) : DpxHead bs k f bits := by
  obtain ⟨h1, h2, h3, h4, h5, h6⟩ := of_decide_eq_true h
  exact ⟨h1, h2, h3, h4, h5, h6⟩

/-- A picture of two by one pixels, red and a grey. -/
def dpxFile : List UInt8 := dpx 0 2 1 50 8 0 1664 [255, 0, 0, 99, 98, 97]

theorem dpxFile_head : DpxHead dpxFile 3 IL_RGB 8 := head_of (by decide +kernel)

/-- The green of its second pixel. -/
example : ∃ ok r s', ilLoadF (iLoadDpxInternal fileOps (fun _ => 0) before) (opened dpxFile 0) = .ok (ok, r, s') ∧ ok = true ∧ r.1.px 1 0 0 1 = some 98 := by
  obtain ⟨⟨ok, r, s', e, ⟨h1, h2⟩, -⟩, -⟩ := C178_eight (fun _ => 0) before dpxFile (by decide +kernel) 3 IL_RGB dpxFile_head (by decide +kernel)
  have hok := h1.mpr (by decide +kernel)
  refine ⟨ok, r, s', e, hok, ?_⟩
  have := ((h2 hok).2.px 1 0 0 1 (by decide +kernel) (by decide +kernel) (by decide) (by decide)).1
  rw [this]
  decide +kernel

/-! ### C179 -/

/-- **C179** (partial), with alpha: a picture of ten bits for each component, padded to words, with all its pixels in the file, is loaded as sixteen
bits, every value in the range of its type: 0 becomes 0 and 1023 becomes 65535. -/
theorem C179_alpha_partial (junk : Nat → UInt8) (cur : Loaded) (bs : List UInt8) (hl : bs.length < 2147483648) (f : Nat) (hh : DpxHead bs 4 f 10)
    (hp : beAt bs 804 2 = 1) (hfit : dpxWidth bs * dpxHeight bs * 8 < 2 ^ 32) (hall : dpxData bs + dpxWidth bs * dpxHeight bs * tenBytes 4 ≤ bs.length) :
    Both (iLoadDpxInternal fileOps junk cur) (iLoadDpxInternal lumpOps junk cur) bs (fun ok r =>
      ok = true ∧ r.2 = none ∧ Shows3 r.1 (dpxWidth bs) (dpxHeight bs) 1 4 2 f IL_UNSIGNED_SHORT
        (fun x y _ c => some (byteOf (widen (tenValue bs 4 (dpxData bs + (y * dpxWidth bs + x) * tenBytes 4) (c / 2))) (c % 2)))) := by
  have h0 : 0 < bs.length := by have := hh.long; omega
  exact both h0 hl (fun t ht => (ten_spec fileLaws2 junk cur ht hh hp hfit hall).mono (fun r hr => ⟨hr.2, hr.1⟩))
    (fun t ht => (ten_spec lumpLaws2 junk cur ht hh hp hfit hall).mono (fun r hr => ⟨hr.2, hr.1⟩))

/-- **C179** (partial), without alpha: the value is right in its ten highest bits; the lowest six are these.  Missing: the lowest bits
(`C179_violated_white`), and pictures of sixteen or thirty-two bits (`C179_violated_wide`). -/
theorem C179_high_partial (junk : Nat → UInt8) (cur : Loaded) (bs : List UInt8) (hl : bs.length < 2147483648) (k f : Nat) (hk : k ≠ 4) (hh : DpxHead bs k f 10)
    (hp : beAt bs 804 2 = 1) (hfit : dpxWidth bs * dpxHeight bs * (k * 2) < 2 ^ 32) (hall : dpxData bs + dpxWidth bs * dpxHeight bs * tenBytes k ≤ bs.length) :
    Both (iLoadDpxInternal fileOps junk cur) (iLoadDpxInternal lumpOps junk cur) bs (fun ok r =>
      ok = true ∧ r.2 = none ∧ Shows3 r.1 (dpxWidth bs) (dpxHeight bs) 1 k 2 f IL_UNSIGNED_SHORT
        (fun x y _ c => let v := tenValue bs k (dpxData bs + (y * dpxWidth bs + x) * tenBytes k) (c / 2)
          some (byteOf (v * 64 + v % 16 * 4) (c % 2)))) := by
  have h0 : 0 < bs.length := by have := hh.long; omega
  have e : ∀ v, stored k v = v * 64 + v % 16 * 4 := fun v => by unfold stored; rw [if_neg hk]
  simp only [← e]
  exact both h0 hl (fun t ht => (ten_spec fileLaws2 junk cur ht hh hp hfit hall).mono (fun r hr => ⟨hr.2, hr.1⟩))
    (fun t ht => (ten_spec lumpLaws2 junk cur ht hh hp hfit hall).mono (fun r hr => ⟨hr.2, hr.1⟩))

/-- **C179 violated**: white is not white: in every such picture without alpha, of any size, where all ten bits of a component are set the loaded value is
65532, and not the highest. -/
theorem C179_violated_white (junk : Nat → UInt8) (cur : Loaded) (bs : List UInt8) (hl : bs.length < 2147483648) (k f : Nat) (hk : k ≠ 4) (hh : DpxHead bs k f 10)
    (hp : beAt bs 804 2 = 1) (hfit : dpxWidth bs * dpxHeight bs * (k * 2) < 2 ^ 32) (hall : dpxData bs + dpxWidth bs * dpxHeight bs * tenBytes k ≤ bs.length)
    (x y c : Nat) (hx : x < dpxWidth bs) (hy : y < dpxHeight bs) (hc : c < k)
    (hv : tenValue bs k (dpxData bs + (y * dpxWidth bs + x) * tenBytes k) c = 1023) :
    ∃ r s', ilLoadF (iLoadDpxInternal fileOps junk cur) (opened bs 0) = .ok (true, r, s') ∧ r.1.type = IL_UNSIGNED_SHORT ∧ r.1.px x y 0 (2 * c) = some 252 ∧
      r.1.px x y 0 (2 * c + 1) = some 255 ∧ widen 1023 = 65535 ∧ 255 * 256 + 252 ≠ 65535 := by
  obtain ⟨⟨ok, r, s', e, ⟨h1, -, h3⟩, -⟩, -⟩ := C179_high_partial junk cur bs hl k f hk hh hp hfit hall
  subst h1
  refine ⟨r, s', e, h3.type, ?_, ?_, by decide, by decide⟩
  · rw [(h3.px x y 0 (2 * c) hx hy (by decide) (by omega)).1]
    rw [show 2 * c / 2 = c by omega, show 2 * c % 2 = 0 by omega]
    simp only [hv]
    decide
  · rw [(h3.px x y 0 (2 * c + 1) hx hy (by decide) (by omega)).1]
    rw [show (2 * c + 1) / 2 = c by omega, show (2 * c + 1) % 2 = 1 by omega]
    simp only [hv]
    decide

/-- **C179 violated**: a picture of sixteen or thirty-two bits for each component is always loaded as one of bytes, if there are enough of them: its first
bytes, each taken for a component. -/
theorem C179_violated_wide (junk : Nat → UInt8) (cur : Loaded) (bs : List UInt8) (hl : bs.length < 2147483648) (k f : Nat) (bits : UInt8) (hb : bits = 16 ∨ bits = 32)
    (hh : DpxHead bs k f bits) (hfit : dpxWidth bs * dpxHeight bs * k < 2 ^ 32) (hall : dpxData bs + dpxWidth bs * dpxHeight bs * k ≤ bs.length) :
    Both (iLoadDpxInternal fileOps junk cur) (iLoadDpxInternal lumpOps junk cur) bs (fun ok r => ok = true ∧ r.1.type = IL_UNSIGNED_BYTE ∧
      Shows3 r.1 (dpxWidth bs) (dpxHeight bs) 1 k 1 f IL_UNSIGNED_BYTE (fun x y _ c => bs[dpxData bs + (y * dpxWidth bs + x) * k + c]?)) := by
  have h0 : 0 < bs.length := by have := hh.long; omega
  refine both h0 hl (fun t ht => (bytes_spec fileLaws2 junk cur ht hh (.inr hb) hfit).mono (fun r hr => ⟨?_, hr.1⟩))
    (fun t ht => (bytes_spec lumpLaws2 junk cur ht hh (.inr hb) hfit).mono (fun r hr => ⟨?_, hr.1⟩))
  · have := hr.2.1.mpr hall
    exact ⟨this, (hr.2.2 this).2.type, (hr.2.2 this).2⟩
  · have := hr.2.1.mpr hall
    exact ⟨this, (hr.2.2 this).2.type, (hr.2.2 this).2⟩

/-- One white pixel of ten bits, with and without alpha, and one of sixteen bits. -/
def tenAlpha : List UInt8 := dpx 0 1 1 51 10 1 1664 [0xFF, 0xFF, 0xFF, 0xFF, 0xFF, 0, 0, 0]
/-- See `tenAlpha`. -/
def tenRgb : List UInt8 := dpx 0 1 1 50 10 1 1664 [0xFF, 0xFF, 0xFF, 0xFC]
/-- See `tenAlpha`. -/
def wideRgb : List UInt8 := dpx 0 1 1 50 16 0 1664 [1, 2, 3, 4, 5, 6]

example : DpxHead tenAlpha 4 IL_RGBA 10 ∧ beAt tenAlpha 804 2 = 1 ∧ dpxWidth tenAlpha * dpxHeight tenAlpha * 8 < 2 ^ 32 ∧
    dpxData tenAlpha + dpxWidth tenAlpha * dpxHeight tenAlpha * tenBytes 4 ≤ tenAlpha.length ∧ tenValue tenAlpha 4 1664 2 = 1023 :=
  ⟨head_of (by decide +kernel), by decide +kernel, by decide +kernel, by decide +kernel, by decide +kernel⟩
example : DpxHead tenRgb 3 IL_RGB 10 ∧ beAt tenRgb 804 2 = 1 ∧ dpxWidth tenRgb * dpxHeight tenRgb * (3 * 2) < 2 ^ 32 ∧
    dpxData tenRgb + dpxWidth tenRgb * dpxHeight tenRgb * tenBytes 3 ≤ tenRgb.length ∧ tenValue tenRgb 3 (dpxData tenRgb + (0 * dpxWidth tenRgb + 0) * tenBytes 3) 2 = 1023 :=
  ⟨head_of (by decide +kernel), by decide +kernel, by decide +kernel, by decide +kernel, by decide +kernel⟩
example : DpxHead wideRgb 3 IL_RGB 16 ∧ dpxWidth wideRgb * dpxHeight wideRgb * 3 < 2 ^ 32 ∧ dpxData wideRgb + dpxWidth wideRgb * dpxHeight wideRgb * 3 ≤ wideRgb.length :=
  ⟨head_of (by decide +kernel), by decide +kernel, by decide +kernel⟩

/-! ### C180 -/

/-- The row of the file that is row `y` of the picture, from the top, by the orientation at offset 768: 0 is from the top to the bottom, 2 from the bottom to
the top. -/
def rowOf (bs : List UInt8) (y : Nat) : Nat := if beAt bs 768 2 = 2 then dpxHeight bs - 1 - y else y

/-- **C180** (partial): a picture of eight bits from the top to the bottom is loaded that way.  Missing: other orientations (`C180_violated_bottom`). -/
theorem C180_top_partial (junk : Nat → UInt8) (cur : Loaded) (bs : List UInt8) (hl : bs.length < 2147483648) (k f : Nat) (hh : DpxHead bs k f 8)
    (hfit : dpxWidth bs * dpxHeight bs * k < 2 ^ 32) (ho : beAt bs 768 2 = 0) :
    Both (iLoadDpxInternal fileOps junk cur) (iLoadDpxInternal lumpOps junk cur) bs (fun ok r => ok = true → r.1.origin = IL_ORIGIN_UPPER_LEFT ∧
      ∀ x y c, x < dpxWidth bs → y < dpxHeight bs → c < k → r.1.px x y 0 c = bs[dpxData bs + (rowOf bs y * dpxWidth bs + x) * k + c]?) := by
  have e : ∀ y, rowOf bs y = y := fun y => by unfold rowOf; rw [if_neg (by omega)]
  obtain ⟨⟨ok, r, s', h1, ⟨-, h2⟩, h3⟩, ok', r', h4, -, h5⟩ := C178_eight junk cur bs hl k f hh hfit
  refine ⟨⟨ok, r, s', h1, fun h => ⟨(h2 h).2.origin, fun x y c hx hy hc => ?_⟩, h3⟩, ok', r', h4, fun h => ⟨(h5 h).2.origin, fun x y c hx hy hc => ?_⟩⟩
  · rw [e]; exact ((h2 h).2.px x y 0 c hx hy (by decide) (by omega)).1
  · rw [e]; exact ((h5 h).2.px x y 0 c hx hy (by decide) (by omega)).1

/-- **C180 violated**: a picture from the bottom to the top is loaded upside down, whatever its size: the image says that its first row is the top row, and has
the row of the file that is the bottom one there. -/
theorem C180_violated_bottom (junk : Nat → UInt8) (cur : Loaded) (bs : List UInt8) (hl : bs.length < 2147483648) (k f : Nat) (hh : DpxHead bs k f 8)
    (hfit : dpxWidth bs * dpxHeight bs * k < 2 ^ 32) (hall : dpxData bs + dpxWidth bs * dpxHeight bs * k ≤ bs.length) (ho : beAt bs 768 2 = 2) :
    Both (iLoadDpxInternal fileOps junk cur) (iLoadDpxInternal lumpOps junk cur) bs (fun ok r => ok = true ∧ r.1.origin = IL_ORIGIN_UPPER_LEFT ∧
      ∀ x y c, x < dpxWidth bs → y < dpxHeight bs → c < k → r.1.px x (dpxHeight bs - 1 - y) 0 c = bs[dpxData bs + (rowOf bs y * dpxWidth bs + x) * k + c]?) := by
  have e : ∀ y, rowOf bs y = dpxHeight bs - 1 - y := fun y => by unfold rowOf; rw [if_pos ho]
  obtain ⟨⟨ok, r, s', h1, ⟨h0, h2⟩, h3⟩, ok', r', h4, h0', h5⟩ := C178_eight junk cur bs hl k f hh hfit
  have a := h0.mpr hall
  have b := h0'.mpr hall
  refine ⟨⟨ok, r, s', h1, ⟨a, (h2 a).2.origin, fun x y c hx hy hc => ?_⟩, h3⟩, ok', r', h4, ⟨b, (h5 b).2.origin, fun x y c hx hy hc => ?_⟩⟩
  · rw [e]; exact ((h2 a).2.px x _ 0 c hx (by omega) (by decide) (by omega)).1
  · rw [e]; exact ((h5 b).2.px x _ 0 c hx (by omega) (by decide) (by omega)).1

/-- Two pixels, one above the other; the bottom one is first in the file. -/
def bottomFile : List UInt8 := dpx 2 1 2 6 8 0 1664 [10, 20]

example : DpxHead bottomFile 1 IL_LUMINANCE 8 ∧ beAt bottomFile 768 2 = 2 ∧ dpxData bottomFile + dpxWidth bottomFile * dpxHeight bottomFile * 1 ≤ bottomFile.length ∧
    rowOf bottomFile 0 = 1 ∧ beAt dpxFile 768 2 = 0 := ⟨head_of (by decide +kernel), by decide +kernel, by decide +kernel, by decide +kernel, by decide +kernel⟩

/-! ### C181 -/

/-- **C181** (partial): loading a file with a whole DPX header and a picture that begins inside the file, of any size and depth but ten bits, ends without a fault,
and the block of the image then has the size it reports.  Missing: shorter files; files with another offset (`C181_violated_offset`); ten bits
(`C181_violated_size`). -/
theorem C181_whole_partial (junk : Nat → UInt8) (cur : Loaded) (hcur : cur.1.data.length = cur.1.size) (bs : List UInt8) (hl : bs.length < 2147483648) (hlong : 1664 ≤ bs.length)
    (hin : dpxData bs ≤ bs.length) (hb : bs[803]? ≠ some 10) :
    Both (iLoadDpxInternal fileOps junk cur) (iLoadDpxInternal lumpOps junk cur) bs (fun _ r => r.1.data.length = r.1.size) := by
  have key : ∀ {σ : Type} {o : Ops σ} {At : σ → List UInt8 → Nat → Prop} (L : Laws2 o At) (t : σ), At t bs 0 →
      Holds (iLoadDpxInternal o junk cur t) (fun r => r.2.1.1.data.length = r.2.1.1.size ∧ ∃ q, At r.2.2 bs q) := by
    intro σ o At L t ht
    unfold iLoadDpxInternal
    refine (header_spec L junk ht hlong).bind (fun r hr => ?_)
    obtain ⟨h, t⟩ := r
    obtain ⟨e, ht⟩ := hr
    simp only [] at e ht
    subst e
    show Holds (picture o junk cur _ t) _
    unfold picture
    simp only []
    have hin' : beAt bs 808 4 ≤ bs.length := hin
    rw [toInt_of hin' hl]
    refine (L.seekAbs _ ht hin').bind (fun r hr => ?_)
    cases kind (beAt bs 800 1) with
    | none => exact Holds.pure ⟨hcur, _, hr⟩
    | some q =>
      obtain ⟨f, k⟩ := q
      simp only []
      refine Holds.ite (fun _ => ?_) (fun _ => Holds.ite (fun _ => Holds.ite (fun h10 => ?_) (fun _ => Holds.pure ⟨hcur, _, hr⟩)) (fun _ => Holds.pure ⟨hcur, _, hr⟩))
      · have hsz : (texOf junk (beAt bs 772 4) (beAt bs 776 4) k f IL_UNSIGNED_BYTE).data.length = (texOf junk (beAt bs 772 4) (beAt bs 776 4) k f IL_UNSIGNED_BYTE).size :=
          alloc_length _ _
        have hlt : (texOf junk (beAt bs 772 4) (beAt bs 776 4) k f IL_UNSIGNED_BYTE).size < 4294967296 := u32_lt _
        refine (into_len L _ _ 1 hr (by omega) (by omega)).bind (fun r hr => Holds.pure ⟨?_, hr.2⟩)
        exact hr.1.trans hsz
      · exfalso
        apply hb
        have h3 : bs[803]? = some (bs[803]'(by omega)) := List.getElem?_eq_getElem _
        rw [be_one h3] at h10
        rw [h3]
        congr 1
        exact UInt8.toNat_inj.mp h10
  exact both (by omega) hl (fun t ht => key fileLaws2 t ht) (fun t ht => key lumpLaws2 t ht)

/-- A file that says that its picture begins at offset 2^32 - 1. -/
def farFile : List UInt8 := dpx 0 1 1 6 8 0 4294967295 [10, 20]

/-- A file with a picture of one row that takes 2^32 + 2 bytes. -/
def hugeFile : List UInt8 := dpx 0 715827883 1 50 10 1 1664 [10, 20, 30, 40]

theorem be_lt (l : List UInt8) : be l < 256 ^ l.length := by
  unfold be
  rw [← List.length_reverse]
  exact le_lt _

theorem beAt_lt (bs : List UInt8) (off n : Nat) : beAt bs off n < 256 ^ n :=
  Nat.lt_of_lt_of_le (be_lt _) (Nat.pow_le_pow_right (by decide) (by unfold at_; rw [List.length_take]; omega))

/-- **C181 violated**: every file whose picture of whole bytes is said to begin at 2^31 or beyond makes the loader read outside the memory it is given. -/
theorem C181_violated_offset (junk : Nat → UInt8) (cur : Loaded) (bs : List UInt8) (hl : bs.length < 2147483648) (k f : Nat) (bits : UInt8) (hb : bits = 8 ∨ bits = 16 ∨ bits = 32)
    (hlong : 1664 ≤ bs.length) (hkind : (bs[800]?).bind dpxKind = some (k, f)) (hbits : bs[803]? = some bits) (hw : 0 < dpxWidth bs) (hh : 0 < dpxHeight bs)
    (hfit : dpxWidth bs * dpxHeight bs * k < 2 ^ 32) (hfar : 2 ^ 31 ≤ dpxData bs) : ilLoadL (iLoadDpxInternal lumpOps junk cur) bs bs.length = .error .oobRead := by
  obtain ⟨hkd, hk3⟩ := kind_of hkind
  have hk0 : 0 < k := by omega
  have hoff : beAt bs 808 4 < 4294967296 := beAt_lt bs 808 4
  change 2147483648 ≤ beAt bs 808 4 at hfar
  change 0 < beAt bs 772 4 at hw
  change 0 < beAt bs 776 4 at hh
  change beAt bs 772 4 * beAt bs 776 4 * k < 4294967296 at hfit
  obtain ⟨⟨h, t⟩, e, eh, ht⟩ := header_spec lumpLaws2 junk (lump_at bs hl (by omega)) hlong
  simp only [] at eh ht
  subst eh
  unfold ilLoadL iLoadDpxInternal
  rw [e, bind_ok]
  show (picture lumpOps junk cur _ t >>= _) = _
  unfold picture
  simp only []
  rw [hkd]
  have hb8 : beAt bs 803 1 = 8 ∨ beAt bs 803 1 = 16 ∨ beAt bs 803 1 = 32 := by rw [be_one hbits]; rcases hb with rfl | rfl | rfl <;> decide
  simp only [if_pos hb8]
  generalize beAt bs 772 4 = w at *
  generalize beAt bs 776 4 = v at *
  generalize beAt bs 808 4 = off at *
  have hf1 : w * v * 1 * (k * 1) < 4294967296 := by simpa using hfit
  obtain ⟨-, -, -, -, -, -, -, g8, g9⟩ := geo_size w v 1 k f IL_UNSIGNED_BYTE 1 hw hh (by decide) hk0 (by decide) (by decide) hf1
  have hsz : (texOf junk w v k f IL_UNSIGNED_BYTE).size = w * v * k := by
    show (geometry w v 1 k f IL_UNSIGNED_BYTE []).size = _
    rw [g8, g9]; simp
  have hpos : 0 < w * v * k := Nat.mul_pos (Nat.mul_pos hw hh) hk0
  obtain ⟨hg, hd, hp, -⟩ := ht
  have hts : t.size = bs.length := by rw [hg.size, hd]
  have e1 : Lump.toInt off = (off : Int) - 4294967296 := by unfold Lump.toInt; rw [if_neg (by omega)]
  have es : lumpOps.seek t (Lump.toInt off) SEEK_SET = .ok (true, { t with pos := off }) := by
    show Lump.seek t _ _ = _
    unfold Lump.seek Lump.seekTo
    rw [if_pos rfl, e1, if_neg (by unfold Lump.toInt; split <;> omega), bind_ok]
    have : Lump.ofInt ((off : Int) - 4294967296) = off := by unfold Lump.ofInt; omega
    simp only []
    rw [this, pure_eq_ok]
  rw [es, bind_ok]
  simp only []
  have er : ∀ n, 0 < n → n < 4294967296 → lumpOps.read { t with pos := off } n 1 = .error .oobRead := fun n h1 h2 => by
    show (Lump.read { t with pos := off } n 1 >>= _) = _
    unfold Lump.read
    have hm : 0 < min (u32 (n * 1)) (Lump.ofInt ((t.size : Int) - off)) := by
      rw [Nat.mul_one, u32_of_lt h2]
      have := hg.size
      rw [hd] at this
      have : 0 < Lump.ofInt ((t.size : Int) - off) := by unfold Lump.ofInt; omega
      omega
    simp only []
    obtain ⟨m, hm'⟩ := Nat.exists_eq_succ_of_ne_zero (Nat.pos_iff_ne_zero.mp hm)
    rw [hm']
    have el : Lump.readLoop { t with pos := off } (Nat.succ m) 0 [] = .error .oobRead := by
      rw [Lump.readLoop]
      show (rd t.data (off + 0) >>= _) = _
      rw [rd_of_ge (by rw [hd]; omega), bind_error]
    rw [el, bind_error, bind_error]
  unfold Games.into
  rw [hsz, er _ hpos (by omega), bind_error, bind_error, bind_error]

example : farFile.length = 1666 ∧ (farFile[800]?).bind dpxKind = some (1, IL_LUMINANCE) ∧ farFile[803]? = some 8 ∧ dpxWidth farFile = 1 ∧ dpxHeight farFile = 1 ∧ 2 ^ 31 ≤ dpxData farFile :=
  ⟨by decide +kernel, by decide +kernel, by decide +kernel, by decide +kernel, by decide +kernel, by decide +kernel⟩

/-- **C181 violated**: a file of 1668 bytes with a large picture of ten bits makes the loader write outside the block of the image: its size wraps around to 2 bytes. -/
theorem C181_violated_size : ilLoadF (iLoadDpxInternal fileOps (fun _ => 0) before) (opened hugeFile 0) = .error .oobWrite :=
  error_of (by decide +kernel)

example : 1664 ≤ dpxFile.length ∧ dpxFile.length < 2147483648 ∧ dpxData dpxFile ≤ dpxFile.length ∧ dpxFile[803]? ≠ some 10 ∧ before.1.data.length = before.1.size := by
  refine ⟨by decide +kernel, by decide +kernel, by decide +kernel, by decide +kernel, by decide⟩

/-! ### C182 -/

/-- **C182** (partial): a file that ends before the last pixel of a picture with eight bits for each component is refused.  Missing: ten bits
(`C182_violated_ten`). -/
theorem C182_eight_partial (junk : Nat → UInt8) (cur : Loaded) (bs : List UInt8) (hl : bs.length < 2147483648) (k f : Nat) (hh : DpxHead bs k f 8)
    (hfit : dpxWidth bs * dpxHeight bs * k < 2 ^ 32) (hshort : bs.length < dpxData bs + dpxWidth bs * dpxHeight bs * k) :
    Both (iLoadDpxInternal fileOps junk cur) (iLoadDpxInternal lumpOps junk cur) bs (fun ok _ => ok = false) := by
  obtain ⟨⟨ok, r, s', h1, ⟨h0, -⟩, h3⟩, ok', r', h4, h0', -⟩ := C178_eight junk cur bs hl k f hh hfit
  refine ⟨⟨ok, r, s', h1, ?_, h3⟩, ok', r', h4, ?_⟩
  · cases ok with
    | false => rfl
    | true => exact absurd (h0.mp rfl) (by omega)
  · cases ok' with
    | false => rfl
    | true => exact absurd (h0'.mp rfl) (by omega)

/-- A file of ten bits that ends with its header. -/
def emptyTen : List UInt8 := dpx 0 1 1 6 10 1 1664 []

/-- **C182 violated**: every file of ten bits that ends where its picture should begin, of any size, is loaded with success; the values are what was in
memory before: with zeros there all high bytes are 0, with 255 they are 255. -/
theorem C182_violated_ten (b : UInt8) (hb : b = 0 ∨ b = 255) (cur : Loaded) (bs : List UInt8) (hl : bs.length < 2147483648) (k f : Nat) (hh : DpxHead bs k f 10)
    (hp : beAt bs 804 2 = 1) (hfit : dpxWidth bs * dpxHeight bs * (k * 2) < 2 ^ 32) (hend : dpxData bs = bs.length) :
    Both (iLoadDpxInternal fileOps (fun _ => b) cur) (iLoadDpxInternal lumpOps (fun _ => b) cur) bs (fun ok r => ok = true ∧
      ∀ x y c, x < dpxWidth bs → y < dpxHeight bs → c < k → r.1.px x y 0 (2 * c + 1) = some b) := by
  have h0 : 0 < bs.length := by have := hh.long; omega
  obtain ⟨-, hk3⟩ := kind_of hh.kind
  have hv : ∀ c, c < k → byteOf ((if k = 4 then fillHigh else fillLow) (tens (alloc (fun _ => b) 8) c)) 1 = b := by
    have hkk : k = 1 ∨ k = 3 ∨ k = 4 := by omega
    rcases hb with rfl | rfl <;> rcases hkk with rfl | rfl | rfl <;> decide
  have key : ∀ r : Loaded, Shows3 r.1 (dpxWidth bs) (dpxHeight bs) 1 k 2 f IL_UNSIGNED_SHORT
        (fun _ _ _ c => some (byteOf ((if k = 4 then fillHigh else fillLow) (tens (alloc (fun _ => b) 8) (c / 2))) (c % 2))) →
      ∀ x y c, x < dpxWidth bs → y < dpxHeight bs → c < k → r.1.px x y 0 (2 * c + 1) = some b := by
    intro r h x y c hx hy hc
    rw [(h.px x y 0 (2 * c + 1) hx hy (by decide) (by omega)).1, show (2 * c + 1) / 2 = c by omega, show (2 * c + 1) % 2 = 1 by omega, hv c hc]
  exact both h0 hl (fun t ht => (ten_end fileLaws2 _ cur ht hh hp hfit hend).mono (fun r hr => ⟨⟨hr.2.1, key _ hr.2.2.2⟩, hr.1⟩))
    (fun t ht => (ten_end lumpLaws2 _ cur ht hh hp hfit hend).mono (fun r hr => ⟨⟨hr.2.1, key _ hr.2.2.2⟩, hr.1⟩))

/-- A file that lacks its last byte. -/
def cutFile : List UInt8 := dpx 0 2 1 50 8 0 1664 [255, 0, 0, 99, 98]

example : DpxHead cutFile 3 IL_RGB 8 ∧ cutFile.length < dpxData cutFile + dpxWidth cutFile * dpxHeight cutFile * 3 :=
  ⟨head_of (by decide +kernel), by decide +kernel⟩
/-- The file without pixels meets the hypotheses of the violation. -/
example : DpxHead emptyTen 1 IL_LUMINANCE 10 ∧ beAt emptyTen 804 2 = 1 ∧ dpxWidth emptyTen * dpxHeight emptyTen * (1 * 2) < 2 ^ 32 ∧ dpxData emptyTen = emptyTen.length :=
  ⟨head_of (by decide +kernel), by decide +kernel, by decide +kernel, by decide +kernel⟩

end DevIL.Dpx
