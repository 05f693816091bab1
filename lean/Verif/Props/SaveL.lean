import Verif.Model.SaveL
import Verif.Props.SgiSave
/-! C88: what a save to memory returns. -/
set_option autoImplicit false
namespace DevIL.SaveL
open DevIL.Lump

theorem plain_small {ops : List WOp} {n : Nat} (hl : (output ops).length < n) : ∀ op ∈ ops, op.bytes.length < n := by
  induction ops with
  | nil => intro _ h; simp at h
  | cons o ops ih =>
    unfold output at hl ih
    rw [List.flatMap_cons, List.length_append] at hl
    intro op hop
    rcases List.mem_cons.mp hop with rfl | hop
    · omega
    · exact ih (by omega) op hop

/-- **C88 (partial).** Whatever was saved before, a save to memory by a function that selects its output before it reads the position (all but
Targa, OpenEXR and TIFF), of a saver that writes front to back, returns the number of bytes the file would have, if the buffer is as large
as that; the buffer then starts with exactly the bytes of the file, and the rest of it is untouched.  Missing: savers that seek
(`C88_violated_sgi_rle`) and the three other functions (`C88_violated_targa`). -/
theorem C88_memory_partial (before : List Save) (o : Out) (ho : history before .unset = .ok o) (buf : List UInt8) (ops : List WOp)
    (hp : ∀ op ∈ ops, Plain op) (hbuf : (OutFile.run ⟨[], 0⟩ ops).data.length ≤ buf.length) (h0 : 0 < buf.length) (hlt : buf.length < 4294967296) :
    ∃ w, saveL (some buf) (some ops) o = .ok ((OutFile.run ⟨[], 0⟩ ops).data.length, .lump w) ∧
      w.data = (OutFile.run ⟨[], 0⟩ ops).data ++ buf.drop (OutFile.run ⟨[], 0⟩ ops).data.length := by
  have hle := hbuf
  rw [file_output ops hp] at hle
  dsimp only at hle
  obtain ⟨w, e, hd, hpos⟩ := C74_memory_is_file_prefix buf h0 hlt ops hp (plain_small (by omega))
  refine ⟨w, ?_, by rw [hd, List.take_of_length_le hbuf]⟩
  rw [Nat.min_eq_left hbuf] at hpos
  unfold saveL iSetOutputLump itellw exec
  simp only [pure_eq_ok, bind_ok, e, hpos]
  rw [show (openW buf buf.length).pos = 0 from rfl, Nat.sub_zero]
  unfold u32
  rw [Nat.add_mod_right, Nat.mod_eq_of_lt (by omega)]

/-- **C88 (partial).** Asking for the size (`ilSaveL` with a null pointer), by the same functions and for the same savers, returns the number
of bytes the file would have, whatever was saved before. -/
theorem C88_size_partial (ops : List WOp) (hp : ∀ op ∈ ops, Plain op) (hlt : (OutFile.run ⟨[], 0⟩ ops).data.length < 4294967296) :
    ∃ o, ilDetermineSize (some ops) = .ok ((OutFile.run ⟨[], 0⟩ ops).data.length, o) := by
  have h := hlt
  rw [file_output ops hp] at h ⊢
  refine ⟨.dry (dryRun dry0 ops), ?_⟩
  unfold ilDetermineSize saveL iSetOutputLump itellw exec
  simp only [pure_eq_ok, bind_ok]
  rw [C35_dry_run_plain ops hp h]

/-- **C88 (partial).** A save to an open file of savers that write front to back returns the number of bytes written to it, from any position. -/
theorem C88_file_partial (old : List UInt8) (ops : List WOp) (hp : ∀ op ∈ ops, Plain op) (hlt : old.length + (output ops).length < 4294967296) :
    saveF ⟨old, old.length⟩ (some ops) = .ok ((output ops).length, .file ⟨old ++ output ops, (old ++ output ops).length⟩) := by
  have e : OutFile.run ⟨old, old.length⟩ ops = ⟨old ++ output ops, (old ++ output ops).length⟩ := by
    clear hlt
    induction ops generalizing old with
    | nil => simp [OutFile.run, output]
    | cons op ops ih =>
      have e : OutFile.step ⟨old, old.length⟩ op = ⟨old ++ op.bytes, (old ++ op.bytes).length⟩ := by
        have := hp op (by simp)
        cases op with
        | putc b => simp [OutFile.step, OutFile.put, WOp.bytes]
        | write buf s n => simp [OutFile.step, OutFile.put, WOp.bytes]
        | seek o m => exact this.elim
      show OutFile.run (OutFile.step ⟨old, old.length⟩ op) ops = _
      rw [e, ih _ (fun x hx => hp x (by simp [hx]))]
      simp [output, List.append_assoc]
  unfold saveF itellw exec
  simp only [pure_eq_ok, bind_ok, e]
  rw [List.length_append, u32_of_lt hlt, u32_of_lt (show old.length < 4294967296 by omega), show old.length + (output ops).length + 4294967296 - old.length = (output ops).length + 4294967296 by omega]
  unfold u32
  rw [Nat.add_mod_right, Nat.mod_eq_of_lt (by omega)]

/-- A save that writes five bytes. -/
def five : List WOp := [.putc 1, .write [2, 3, 4, 5] 4 1]

example : (∀ op ∈ five, Plain op) ∧ ∃ o, history [.size (some five), .toFile (some five), .toMem (List.replicate 9 0) (some five)] .unset = .ok o :=
  ⟨by decide, ⟨_, rfl⟩⟩
example : saveL (some (List.replicate 9 0)) (some five) .unset = .ok (5, .lump ⟨[1, 2, 3, 4, 5, 0, 0, 0, 0], 9, 5⟩) := by rfl

/-- **C88 (violated).** A second save to memory by `ilSaveTargaL`, of the same image to a buffer of any size that holds it, returns 0, which
the caller has to take for a failure, although all bytes are in the buffer; the first save can come in any state in which the
function has an output to ask. -/
theorem C88_violated_targa (buf buf' : List UInt8) (ops : List WOp) (hp : ∀ op ∈ ops, Plain op) (h0 : 0 < buf.length) (h0' : 0 < buf'.length)
    (hb : (output ops).length ≤ buf.length) (hb' : (output ops).length ≤ buf'.length) (hlt : buf.length < 4294967296) (hlt' : buf'.length < 4294967296)
    (o : Out) (p : Nat) (ho : itellw o = .ok p) :
    ∃ w w', history [.toMemEarly buf (some ops)] o = .ok (.lump w) ∧ saveLEarly (some buf') (some ops) (.lump w) = .ok (0, .lump w') ∧
      w'.data.take (output ops).length = output ops := by
  obtain ⟨w, e, hd, hpos⟩ := C74_memory_is_file_prefix buf h0 hlt ops hp (plain_small (by omega))
  obtain ⟨w', e', hd', hpos'⟩ := C74_memory_is_file_prefix buf' h0' hlt' ops hp (plain_small (by omega))
  rw [file_output ops hp] at hpos hpos' hd'
  dsimp only at hpos hpos' hd'
  rw [Nat.min_eq_left hb] at hpos
  rw [Nat.min_eq_left hb'] at hpos'
  refine ⟨w, w', ?_, ?_, ?_⟩
  · unfold history saveLEarly
    rw [ho]
    unfold iSetOutputLump itellw exec
    simp only [pure_eq_ok, bind_ok, e, history]
  · unfold saveLEarly iSetOutputLump itellw exec
    simp only [pure_eq_ok, bind_ok, e', hpos, hpos']
    rw [show (output ops).length + 4294967296 - (output ops).length = 4294967296 by omega]
    rfl
  · rw [hd', List.take_of_length_le hb', List.take_left' rfl]

/-- **C88 (violated).** As the first save of a program, `ilSaveTargaL` calls a null pointer; after a save to a named file it uses the closed
file. -/
theorem C88_violated_targa_first (buf : List UInt8) (ops ops' : Option (List WOp)) (o : Out) (ho : history [.toFile ops'] .unset = .ok o) :
    saveLEarly (some buf) ops .unset = .error .nullDeref ∧ saveLEarly (some buf) ops o = .error .useAfterFree := by
  have : o = .closed := by
    unfold history save at ho
    cases ops' with
    | none =>
      unfold saveF itellw at ho
      simp only [pure_eq_ok, bind_ok, history, Except.ok.injEq] at ho
      exact ho.symm
    | some ops' =>
      unfold saveF itellw exec at ho
      simp only [pure_eq_ok, bind_ok, history, Except.ok.injEq] at ho
      exact ho.symm
  subst this
  exact ⟨rfl, rfl⟩

example : itellw (.dry dry0) = .ok 0 := rfl
example : ∃ o, history [.toFile (some five)] .unset = .ok o := ⟨_, rfl⟩

/-- **C88 (violated).** Saving any image as in C87 as run-length encoded SGI returns less than the number of bytes in the file: the lines of
pixels are not counted. -/
theorem C88_violated_sgi_rle (big : Bool) (junk : Nat → UInt8) (m : Img) (conv : Option Img) (hm : Sgi.Savable m)
    (hsize : 512 + m.height * m.bpp * (2 * m.width + 9) < 2147483648)
    (hne : ∀ x y c, x + 1 < m.width → y < m.height → c < m.bpp → m.px x y 0 c ≠ m.px (x + 1) y 0 c) :
    ∃ ops f n, Sgi.iSaveSgiInternal big junk true none m conv = .ok (some ops) ∧
      saveF ⟨[], 0⟩ (some ops) = .ok (n, .file f) ∧ n = 512 + 8 * (m.height * m.bpp) ∧ n < f.data.length := by
  obtain ⟨ops, e, h1, h2, _⟩ := Sgi.rle_common big big junk junk m conv hm hsize hne
  have hsum : m.height * m.bpp * (2 * m.width + 9) = 8 * (m.height * m.bpp) + m.height * m.bpp * (2 * m.width + 1) := by grind
  refine ⟨ops, OutFile.run ⟨[], 0⟩ ops, 512 + 8 * (m.height * m.bpp), e, ?_, rfl, by omega⟩
  unfold saveF itellw exec
  simp only [pure_eq_ok, bind_ok, h1]
  have hz : u32 0 = 0 := by decide
  rw [hz, Nat.sub_zero]
  have hn : 512 + 8 * (m.height * m.bpp) < 4294967296 := by omega
  generalize 512 + 8 * (m.height * m.bpp) = n at *
  rw [u32_of_lt (show n < 4294967296 by omega)]
  unfold u32
  rw [Nat.add_mod_right, Nat.mod_eq_of_lt (by omega)]

/-- For an RGB image of three by two pixels, the returned number is 560. -/
example : 512 + 8 * (Sgi.rgb32.height * Sgi.rgb32.bpp) = 560 := by decide

end DevIL.SaveL
