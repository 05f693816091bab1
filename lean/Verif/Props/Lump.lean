import Verif.Lemmas.Lump
/-!
C32, C33: reading a memory lump.  C34, C74: writing one.  C35: the dry run.

The reference is an ordinary file: a list of bytes and a position.
-/
set_option autoImplicit false
namespace DevIL.Lump

/-! ## Reading -/

/-- The calls a loader can make on its input. -/
inductive ROp where
  | read (size number : Nat)
  | getc
  | seek (off : Int) (mode : Nat)
  | tell
  | eof
  deriving DecidableEq

/-- What a call shows to its caller. -/
inductive ROut where
  | got (bytes : List UInt8) (ret : Nat) (err : Bool)
  | byte (b : Option UInt8)
  | moved (ok : Bool)
  | at_ (pos : Nat)
  | ended (b : Bool)
  deriving DecidableEq

def rstep (l : R) : ROp → C (ROut × R)
  | .read s n => do let (g, l) ← read l s n; pure (.got g.bytes g.ret g.err, l)
  | .getc => do let (b, l) ← getc l; pure (.byte b, l)
  | .seek o m => do let (r, l) ← seek l o m; pure (.moved r, l)
  | .tell => .ok (.at_ (tell l), l)
  | .eof => .ok (.ended (eof l), l)

def rrun : R → List ROp → C (List ROut × R)
  | l, [] => .ok ([], l)
  | l, op :: ops => do
      let (o, l) ← rstep l op
      let (os, l) ← rrun l ops
      pure (o :: os, l)

/-- Seeks the code handles: no absolute seek before the start, no `INT_MIN` from the end. -/
def SaneSeek : ROp → Prop
  | .seek off mode => (mode = SEEK_SET → 0 ≤ off) ∧ (mode = SEEK_END → off ≠ -2147483648)
  | _ => True

instance (op : ROp) : Decidable (SaneSeek op) := by
  cases op <;> unfold SaneSeek <;> infer_instance

theorem rstep_good {l : R} (h : Good l) (op : ROp) (hs : SaneSeek op) :
    ∃ o l', rstep l op = .ok (o, l') ∧ Good l' ∧ l'.data = l.data := by
  cases op with
  | read s n =>
    refine ⟨?_, { l with pos := l.pos + avail l s n }, ?_, h.read_good s n, rfl⟩
    rotate_left
    simp only [rstep, read_spec h, bind_ok, pure_eq_ok]
    rfl
  | getc =>
    by_cases hp : l.pos < l.size
    · obtain ⟨b, _, e⟩ := getc_spec h hp
      refine ⟨.byte (some b), { l with pos := l.pos + 1 }, ?_, ⟨h.size, hp, h.lt, h.ne⟩, rfl⟩
      simp only [rstep, e, bind_ok, pure_eq_ok]
    · have := h.pos
      refine ⟨.byte none, { l with pos := l.size - 1 }, ?_, ⟨h.size, Nat.sub_le _ _, h.lt, h.ne⟩, rfl⟩
      simp only [rstep, getc_end h (by omega), bind_ok, pure_eq_ok]
  | seek off mode =>
    obtain ⟨r, l', e, g⟩ := seek_ok h hs.1 hs.2
    refine ⟨.moved r, l', by simp only [rstep, e, bind_ok, pure_eq_ok], g, ?_⟩
    unfold seek at e
    cases e1 : seekTo l.size l.pos off mode with
    | error f => rw [e1] at e; cases e
    | ok r => rw [e1] at e; cases r <;> · cases e; rfl
  | tell => exact ⟨_, _, rfl, h, rfl⟩
  | eof => exact ⟨_, _, rfl, h, rfl⟩

theorem rrun_good {l : R} (h : Good l) (ops : List ROp) (hs : ∀ op ∈ ops, SaneSeek op) :
    ∃ os l', rrun l ops = .ok (os, l') ∧ Good l' ∧ l'.data = l.data := by
  induction ops generalizing l with
  | nil => exact ⟨[], l, rfl, h, rfl⟩
  | cons op ops ih =>
    obtain ⟨o, l1, e1, g1, d1⟩ := rstep_good h op (hs op (by simp))
    obtain ⟨os, l2, e2, g2, d2⟩ := ih g1 (fun x hx => hs x (by simp [hx]))
    exact ⟨o :: os, l2, by simp only [rrun, e1, bind_ok, e2, pure_eq_ok], g2, d2.trans d1⟩

/-- **C32 (partial).** Whatever reads, single-byte reads, seeks, tells and end-of-file tests a loader performs on a
non-empty lump of the announced size, with whatever arguments, no byte outside the lump is accessed: no call faults.
Missing: absolute seeks to a negative offset, `INT_MIN` from the end, and the empty lump (see the violations). -/
theorem C32_in_bounds_partial (data : List UInt8) (h0 : 0 < data.length) (hlt : data.length < 4294967295)
    (ops : List ROp) (hs : ∀ op ∈ ops, SaneSeek op) : C.Safe (rrun (open_ data data.length) ops) := by
  obtain ⟨os, l', e, _⟩ := rrun_good (l := open_ data data.length) ⟨rfl, Nat.zero_le _, hlt, h0⟩ ops hs
  exact ⟨_, e⟩

example : rrun (open_ [1, 2, 3] 3) [.getc, .read 2 5, .getc, .seek (-2) SEEK_END, .read 1 1, .seek 9 SEEK_CUR, .eof] =
    .ok ([.byte (some 1), .got [2, 3] 1 true, .byte none, .moved true, .got [2] 1 false, .moved false, .ended false],
      ⟨[1, 2, 3], 3, 2⟩) := by decide

/-- C32 fails: seeking to a negative absolute offset is accepted, and the next read leaves the lump. -/
theorem C32_violated_negative_seek : rrun (open_ [1, 2, 3] 3) [.seek (-4) SEEK_SET, .read 1 1] = .error .oobRead := by
  decide

/-- C32 fails: an empty lump is not checked at all. -/
theorem C32_violated_empty : rrun (open_ [] 0) [.getc] = .error .oobRead := by decide

/-! ### The reference file -/

/-- An ordinary file opened for reading. -/
structure File where
  data : List UInt8
  pos : Nat

/-- Where a seek leads, as a signed position. -/
def File.target (f : File) (off : Int) (mode : Nat) : Option Int :=
  if mode = SEEK_SET then some off
  else if mode = SEEK_CUR then some (f.pos + off)
  else if mode = SEEK_END then some (f.data.length + off)
  else none

/-- A read delivers as many of the requested bytes as there are left, and counts complete items; a single-byte read
delivers the next byte, if any; a seek moves if the target lies in the file. -/
def File.step (f : File) : ROp → ROut × File
  | .read s n =>
      let got := (f.data.drop f.pos).take (s * n)
      (.got got (got.length / s) (decide (got.length / s ≠ n)), { f with pos := f.pos + got.length })
  | .getc =>
      match f.data[f.pos]? with
      | some b => (.byte (some b), { f with pos := f.pos + 1 })
      | none => (.byte none, f)
  | .seek off mode =>
      match f.target off mode with
      | some t => if 0 ≤ t ∧ t ≤ f.data.length then (.moved true, { f with pos := t.toNat }) else (.moved false, f)
      | none => (.moved false, f)
  | .tell => (.at_ f.pos, f)
  | .eof => (.ended (decide (f.data.length ≤ f.pos)), f)

def File.run : File → List ROp → List ROut × File
  | f, [] => ([], f)
  | f, op :: ops => ((f.step op).1 :: ((f.step op).2.run ops).1, ((f.step op).2.run ops).2)

/-- The calls in which the code keeps to the reference: 32-bit arguments, no absolute seek before the start (C32), no
single-byte read at the end of the file. -/
def Allowed (f : File) : ROp → Prop
  | .read s n => s * n < 4294967296
  | .getc => f.pos < f.data.length
  | .seek off mode => -2147483648 < off ∧ off < 2147483648 ∧ (mode = SEEK_SET → 0 ≤ off)
  | _ => True

instance (f : File) (op : ROp) : Decidable (Allowed f op) := by
  cases op <;> unfold Allowed <;> infer_instance

def AllAllowed : File → List ROp → Prop
  | _, [] => True
  | f, op :: ops => Allowed f op ∧ AllAllowed (f.step op).2 ops

/-- The lump state that shows the file `f`. -/
def ofFile (f : File) : R := ⟨f.data, f.data.length, f.pos⟩

theorem seekTo_target {f : File} {off : Int} {mode : Nat} (hp : f.pos ≤ f.data.length) (hlt : f.data.length < 2147483648)
    (ha : Allowed f (.seek off mode)) : seekTo f.data.length f.pos off mode = .ok (match f.target off mode with
      | some t => if 0 ≤ t ∧ t ≤ f.data.length then some t.toNat else none
      | none => none) := by
  obtain ⟨h1, h2, h3⟩ := ha
  unfold seekTo File.target
  by_cases m0 : mode = SEEK_SET
  · have h0 := h3 m0
    rw [if_pos m0, if_pos m0, toInt_of hlt]
    simp only []
    by_cases hc : off > f.data.length
    · rw [if_pos hc, if_neg (by omega)]
    · rw [if_neg hc, if_pos (by omega)]
      congr 2
      unfold ofInt; omega
  · rw [if_neg m0, if_neg m0]
    by_cases m1 : mode = SEEK_CUR
    · rw [if_pos m1, if_pos m1]
      simp only []
      by_cases hc : (0 : Int) ≤ f.pos + off ∧ (f.pos : Int) + off ≤ f.data.length
      · rw [if_pos hc, if_neg (by unfold ofInt; omega)]
        congr 2
        unfold ofInt; omega
      · rw [if_neg hc, if_pos (by unfold ofInt; omega)]
    · rw [if_neg m1, if_neg m1]
      by_cases m2 : mode = SEEK_END
      · rw [if_pos m2, if_pos m2, toInt_of hlt]
        simp only []
        by_cases hc : (0 : Int) ≤ f.data.length + off ∧ (f.data.length : Int) + off ≤ f.data.length
        · rw [if_pos hc, if_neg (by omega), if_neg (by omega), if_neg (by omega)]
          congr 2
          unfold ofInt; omega
        · rw [if_neg hc]
          by_cases hp : off > 0
          · rw [if_pos hp]
          · rw [if_neg hp, if_neg (by omega), if_pos (by omega)]
      · rw [if_neg m2, if_neg m2]

theorem rstep_file {f : File} (h0 : 0 < f.data.length) (hp : f.pos ≤ f.data.length) (hlt : f.data.length < 2147483648)
    (op : ROp) (ha : Allowed f op) :
    rstep (ofFile f) op = .ok ((f.step op).1, ofFile (f.step op).2) ∧ (f.step op).2.data = f.data ∧
      (f.step op).2.pos ≤ f.data.length := by
  have hg : Good (ofFile f) := ⟨rfl, hp, Nat.lt_trans hlt (by decide), h0⟩
  cases op with
  | read s n =>
    have hk : avail (ofFile f) s n = ((f.data.drop f.pos).take (s * n)).length := by
      unfold avail ofFile
      rw [u32_of_lt ha, List.length_take, List.length_drop]
    have hb : (f.data.drop f.pos).take (avail (ofFile f) s n) = (f.data.drop f.pos).take (s * n) := by
      rw [hk, List.length_take, List.take_eq_take_iff]
      simp
    have hret : (if s ≠ 0 then avail (ofFile f) s n / s else avail (ofFile f) s n) =
        ((f.data.drop f.pos).take (s * n)).length / s := by
      rw [hk]
      by_cases hs : s = 0
      · subst hs; simp
      · rw [if_pos hs]
    refine ⟨?_, rfl, ?_⟩
    · simp only [rstep, read_spec hg, bind_ok, pure_eq_ok, hret]
      rw [show (ofFile f).data = f.data from rfl, show (ofFile f).pos = f.pos from rfl, hb, hk]
      rfl
    · show f.pos + ((f.data.drop f.pos).take (s * n)).length ≤ f.data.length
      rw [List.length_take, List.length_drop]; omega
  | getc =>
    obtain ⟨b, hb, e⟩ := getc_spec hg ha
    have hb' : f.data[f.pos]? = some b := hb
    have es : f.step .getc = (.byte (some b), { f with pos := f.pos + 1 }) := by simp only [File.step, hb']
    rw [es]
    refine ⟨?_, rfl, ha⟩
    simp only [rstep, e, bind_ok, pure_eq_ok]
    rfl
  | seek off mode =>
    have e := seekTo_target hp hlt ha
    simp only [rstep, seek]
    rw [show (ofFile f).size = f.data.length from rfl, show (ofFile f).pos = f.pos from rfl, e]
    simp only [File.step]
    cases ht : f.target off mode with
    | none => exact ⟨rfl, rfl, hp⟩
    | some t =>
      simp only []
      by_cases hc : 0 ≤ t ∧ t ≤ f.data.length
      · simp only [if_pos hc]
        exact ⟨rfl, by simp, by show t.toNat ≤ _; omega⟩
      · simp only [if_neg hc]
        exact ⟨rfl, by simp, hp⟩
  | tell => exact ⟨rfl, rfl, hp⟩
  | eof =>
    refine ⟨?_, rfl, hp⟩
    show Except.ok (ROut.ended (eof (ofFile f)), ofFile f) = _
    unfold eof
    rw [if_pos (show (ofFile f).size ≠ 0 from by show f.data.length ≠ 0; omega)]
    rfl

/-- **C33 (partial).** A lump of fewer than 2^31 bytes shows its caller exactly what an ordinary file with the same
bytes would, over every history of reads, single-byte reads, seeks, tells and end-of-file tests: consecutive bytes, the
position moving by the bytes delivered, short reads only at the end, seeks and tells agreeing.
Missing: single-byte reads at the end and absolute seeks before the start (see the violations). -/
theorem C33_like_a_file_partial (data : List UInt8) (h0 : 0 < data.length) (hlt : data.length < 2147483648)
    (ops : List ROp) (ha : AllAllowed ⟨data, 0⟩ ops) :
    rrun (open_ data data.length) ops = .ok ((File.run ⟨data, 0⟩ ops).1, ofFile (File.run ⟨data, 0⟩ ops).2) := by
  suffices h : ∀ (ops : List ROp) (f : File), f.data = data → f.pos ≤ data.length → AllAllowed f ops →
      rrun (ofFile f) ops = .ok ((f.run ops).1, ofFile (f.run ops).2) from h ops ⟨data, 0⟩ rfl (Nat.zero_le _) ha
  clear ha
  intro ops
  induction ops with
  | nil => intro f _ _ _; rfl
  | cons op ops ih =>
    intro f hd hp ha
    subst hd
    obtain ⟨e1, e2, e3⟩ := rstep_file h0 hp hlt op ha.1
    have e4 := ih (f.step op).2 e2 e3 ha.2
    simp only [rrun, e1, bind_ok, e4, pure_eq_ok, File.run]

example : AllAllowed ⟨[1, 2, 3, 4, 5], 0⟩
    [.getc, .read 2 1, .tell, .seek (-1) SEEK_END, .read 3 2, .eof, .seek (-9) SEEK_CUR, .seek 0 SEEK_SET] := by
  refine ⟨by decide, by decide, trivial, by decide, by decide, trivial, by decide, by decide, trivial⟩

/-- C33 fails: a single-byte read at the end of the lump moves the position back, so that the last byte is delivered
again. -/
theorem C33_violated_getc_at_end :
    rrun (open_ [7, 8] 2) [.getc, .getc, .getc, .tell, .getc] =
      .ok ([.byte (some 7), .byte (some 8), .byte none, .at_ 1, .byte (some 8)], ⟨[7, 8], 2, 2⟩) ∧
    (File.run ⟨[7, 8], 0⟩ [.getc, .getc, .getc, .tell, .getc]).1 =
      [.byte (some 7), .byte (some 8), .byte none, .at_ 2, .byte none] := by decide

/-- C33 fails: an absolute seek before the start succeeds. -/
theorem C33_violated_negative_seek :
    (rrun (open_ [7, 8] 2) [.seek (-1) SEEK_SET, .tell]) = .ok ([.moved true, .at_ 4294967295], ⟨[7, 8], 2, 4294967295⟩) ∧
    (File.run ⟨[7, 8], 0⟩ [.seek (-1) SEEK_SET, .tell]).1 = [.moved false, .at_ 0] := by decide

/-! ## Writing -/

def wstep (w : W) : WOp → C W
  | .putc b => do let (_, w) ← putc w b; pure w
  | .write buf s n => do let (_, w) ← write w buf s n; pure w
  | .seek o m => do let (_, w) ← seekw w o m; pure w

def wrun : W → List WOp → C W
  | w, [] => .ok w
  | w, op :: ops => do
      let w ← wstep w op
      wrun w ops

/-- The saver hands over buffers of the size it says, and does not seek by `INT_MIN` from the end. -/
def SaneWrite : WOp → Prop
  | .putc _ => True
  | .write buf s n => u32 (s * n) ≤ buf.length
  | .seek off mode => mode = SEEK_END → off ≠ -2147483648

instance (op : WOp) : Decidable (SaneWrite op) := by
  cases op <;> unfold SaneWrite <;> infer_instance

theorem wstep_ok {w : W} (hs : w.size = w.data.length) (h0 : 0 < w.size) (hlt : w.size < 4294967296)
    (hp : w.pos < 4294967296) (op : WOp) (h : SaneWrite op) :
    ∃ w', wstep w op = .ok w' ∧ w'.size = w.size ∧ w'.data.length = w.data.length ∧ w'.pos < 4294967296 := by
  cases op with
  | putc b =>
    simp only [wstep, putc_spec b hs hlt, bind_ok, pure_eq_ok]
    split
    · exact ⟨_, rfl, rfl, by simp, by show w.pos + 1 < _; omega⟩
    · exact ⟨_, rfl, rfl, rfl, hp⟩
  | write buf s n =>
    obtain ⟨k, h1, h2, h3, e⟩ := write_spec hs hlt h0 hp h
    simp only [wstep, e, bind_ok, pure_eq_ok]
    refine ⟨_, rfl, rfl, ?_, u32_lt _⟩
    have hb : u32 (s * n) ≤ buf.length := h
    simp only [List.length_append, List.length_take, List.length_drop]
    by_cases hk : k = 0
    · omega
    · have := h3 (by omega)
      omega
  | seek off mode =>
    obtain ⟨r, e⟩ := seekTo_ok (size := w.size) (pos := w.pos) h
    simp only [wstep, seekw, e]
    cases r with
    | none => exact ⟨w, rfl, rfl, rfl, hp⟩
    | some p =>
      refine ⟨{ w with pos := p }, rfl, rfl, rfl, ?_⟩
      show p < _
      unfold seekTo at e
      split at e
      · split at e
        · cases e
        · injection e with e; injection e with e; rw [← e]; exact ofInt_lt _
      · split at e
        · split at e
          · cases e
          · injection e with e; injection e with e; rw [← e]; exact ofInt_lt _
        · split at e
          · split at e
            · cases e
            · split at e
              · cases e
              · split at e
                · cases e
                · injection e with e; injection e with e; rw [← e]; exact ofInt_lt _
          · cases e

/-- **C34 (partial).** Saving to a caller buffer of `Size > 0` bytes never writes outside it, and never reads outside
the saver's own buffers, whatever sequence of writes, single-byte writes and seeks the saver performs.
Missing: `Size = 0`, which the code takes to mean "unbounded" (see the violation). -/
theorem C34_in_bounds_partial (buf : List UInt8) (h0 : 0 < buf.length) (hlt : buf.length < 4294967296)
    (ops : List WOp) (hs : ∀ op ∈ ops, SaneWrite op) :
    ∃ w', wrun (openW buf buf.length) ops = .ok w' ∧ w'.data.length = buf.length := by
  suffices h : ∀ (ops : List WOp) (w : W), w.size = w.data.length → w.data.length = buf.length → w.pos < 4294967296 →
      (∀ op ∈ ops, SaneWrite op) → ∃ w', wrun w ops = .ok w' ∧ w'.data.length = buf.length from
    h ops (openW buf buf.length) rfl rfl (by show 0 < 4294967296; decide) hs
  intro ops
  induction ops with
  | nil => intro w _ h _ _; exact ⟨w, rfl, h⟩
  | cons op ops ih =>
    intro w h1 h2 h3 h4
    obtain ⟨w1, e, a, b, c⟩ := wstep_ok h1 (by omega) (by omega) h3 op (h4 op (by simp))
    obtain ⟨w2, e2, r⟩ := ih w1 (by omega) (by omega) c (fun x hx => h4 x (by simp [hx]))
    exact ⟨w2, by simp only [wrun, e, bind_ok, e2], r⟩

example : wrun (openW [0, 0, 0, 0] 4) [.putc 1, .write [2, 3] 1 2, .seek (-7) SEEK_SET, .write [8] 1 1, .putc 9,
    .seek (-1) SEEK_END, .write [5, 6] 2 1] = .ok ⟨[1, 2, 3, 5], 4, 4⟩ := by decide

/-- C34 fails: a caller that passes a buffer with `Size = 0` gets an unbounded write. -/
theorem C34_violated_zero_size : wrun (openW [] 0) [.write [1] 1 1] = .error .oobWrite := by decide

/-! ### The reference output file -/

/-- An ordinary file opened for writing. -/
structure OutFile where
  data : List UInt8
  pos : Nat
  deriving DecidableEq

/-- Writing `bs` at the position: overwrites what is there, extends the file at its end. -/
def OutFile.put (f : OutFile) (bs : List UInt8) : OutFile :=
  ⟨f.data.take f.pos ++ bs ++ f.data.drop (f.pos + bs.length), f.pos + bs.length⟩

def OutFile.step (f : OutFile) : WOp → OutFile
  | .putc b => f.put [b]
  | .write buf s n => f.put (buf.take (s * n))
  | .seek off mode =>
      if mode = SEEK_SET then { f with pos := off.toNat }
      else if mode = SEEK_CUR then { f with pos := (f.pos + off).toNat }
      else if mode = SEEK_END then { f with pos := (f.data.length + off).toNat }
      else f

/-- What a save produces in a file that starts empty. -/
def OutFile.run (f : OutFile) (ops : List WOp) : OutFile := ops.foldl OutFile.step f

/-- Complete buffers, and seeks that stay inside what has been written so far. -/
def Inside (f : OutFile) : WOp → Prop
  | .putc _ => True
  | .write buf s n => buf.length = s * n
  | .seek off mode =>
      (mode = SEEK_SET → 0 ≤ off ∧ off ≤ f.data.length) ∧
      (mode = SEEK_CUR → 0 ≤ f.pos + off ∧ f.pos + off ≤ f.data.length) ∧
      (mode = SEEK_END → 0 ≤ f.data.length + off ∧ off ≤ 0)

instance (f : OutFile) (op : WOp) : Decidable (Inside f op) := by
  cases op <;> unfold Inside <;> infer_instance

def AllInside : OutFile → List WOp → Prop
  | _, [] => True
  | f, op :: ops => Inside f op ∧ AllInside (f.step op) ops

def dryStep (s : Dry) : WOp → Dry
  | .putc _ => dryPutc s
  | .write _ a b => dryWrite s a b
  | .seek o m => drySeek s o m

/-- The dry run that `ilDetermineSize` performs over the calls of a save. -/
def dryRun (s : Dry) (ops : List WOp) : Dry := ops.foldl dryStep s

theorem bump_max (s : Dry) : (Dry.bump s).max = max s.cur s.max ∧ (Dry.bump s).cur = s.cur := by
  unfold Dry.bump
  split <;> simp <;> omega

theorem put_len {f : OutFile} (hp : f.pos ≤ f.data.length) (bs : List UInt8) :
    (f.put bs).data.length = max (f.pos + bs.length) f.data.length ∧ (f.put bs).pos = f.pos + bs.length := by
  unfold OutFile.put
  simp; omega

theorem dry_step {f : OutFile} {s : Dry} {op : WOp} (hc : s.cur = f.pos) (hm : s.max = f.data.length)
    (hp : f.pos ≤ f.data.length) (hi : Inside f op) (hl : (f.step op).data.length < 4294967296) :
    (dryStep s op).cur = (f.step op).pos ∧ (dryStep s op).max = (f.step op).data.length ∧
      (f.step op).pos ≤ (f.step op).data.length := by
  cases op with
  | putc b =>
    obtain ⟨l1, l2⟩ := put_len hp [b]
    simp only [OutFile.step] at hl ⊢
    simp only [dryStep, dryPutc, (bump_max _).1, (bump_max _).2]
    simp only [List.length_singleton] at l1 l2
    rw [l1] at hl
    rw [l1, l2, hc, hm, u32_of_lt (by omega)]
    omega
  | write buf a b =>
    have hb : (buf.take (a * b)).length = a * b := by rw [List.length_take, show buf.length = a * b from hi]; omega
    obtain ⟨l1, l2⟩ := put_len hp (buf.take (a * b))
    simp only [OutFile.step] at hl ⊢
    simp only [dryStep, dryWrite, (bump_max _).1, (bump_max _).2]
    rw [l1] at hl
    rw [hb] at l1 l2 hl
    have e1 : u32 (a * b) = a * b := u32_of_lt (by omega)
    have e2 : u32 (f.pos + a * b) = f.pos + a * b := u32_of_lt (by omega)
    rw [l1, l2, hc, hm, e1, e2]
    omega
  | seek off mode =>
    obtain ⟨h0, h1, h2⟩ := hi
    simp only [OutFile.step] at hl ⊢
    simp only [dryStep, drySeek]
    split
    · rename_i m
      have := h0 m
      rw [if_pos m] at hl
      simp only [(bump_max _).1, (bump_max _).2, hc, hm, ofInt] at hl ⊢
      omega
    · rename_i m0
      rw [if_neg m0] at hl
      split
      · rename_i m
        have := h1 m
        rw [if_pos m] at hl
        simp only [(bump_max _).1, (bump_max _).2, hc, hm, ofInt] at hl ⊢
        omega
      · rename_i m1
        rw [if_neg m1] at hl
        split
        · rename_i m
          have := h2 m
          rw [if_pos m] at hl
          simp only [(bump_max _).1, (bump_max _).2, hc, hm, ofInt] at hl ⊢
          omega
        · exact ⟨hc, hm, hp⟩

theorem step_len {f : OutFile} {op : WOp} (hp : f.pos ≤ f.data.length) :
    f.data.length ≤ (f.step op).data.length := by
  cases op with
  | putc b => have := (put_len hp [b]).1; simp only [OutFile.step]; omega
  | write buf a b => have := (put_len hp (buf.take (a * b))).1; simp only [OutFile.step]; omega
  | seek off mode =>
    simp only [OutFile.step]
    split
    · exact Nat.le_refl _
    · split
      · exact Nat.le_refl _
      · split <;> exact Nat.le_refl _

theorem step_pos {f : OutFile} {op : WOp} (hp : f.pos ≤ f.data.length) (hi : Inside f op) :
    (f.step op).pos ≤ (f.step op).data.length := by
  cases op with
  | putc b => have := put_len hp [b]; simp only [OutFile.step]; omega
  | write buf a b => have := put_len hp (buf.take (a * b)); simp only [OutFile.step]; omega
  | seek off mode =>
    obtain ⟨h0, h1, h2⟩ := hi
    simp only [OutFile.step]
    split
    · rename_i m; have := h0 m; simp only []; omega
    · split
      · rename_i m; have := h1 m; simp only []; omega
      · split
        · rename_i m; have := h2 m; simp only []; omega
        · exact hp

theorem run_len (ops : List WOp) : ∀ f : OutFile, f.pos ≤ f.data.length → AllInside f ops →
    f.data.length ≤ (f.run ops).data.length := by
  induction ops with
  | nil => intro f _ _; exact Nat.le_refl _
  | cons op ops ih =>
    intro f hp hi
    exact Nat.le_trans (step_len hp) (ih (f.step op) (step_pos hp hi.1) hi.2)

/-- **C35 (partial).** For every save, as a sequence of writes, single-byte writes and seeks, the size the dry run
reports is the size of the file the save produces.
Missing: seeks beyond what has been written (see the violation), files of 4 GiB or more, and TGA, for which
`ilDetermineSize` does not use the dry run at all (see `C35_violated_targa`). -/
theorem C35_dry_run_partial (ops : List WOp) (hi : AllInside ⟨[], 0⟩ ops)
    (hl : (OutFile.run ⟨[], 0⟩ ops).data.length < 4294967296) :
    (dryRun dry0 ops).max = (OutFile.run ⟨[], 0⟩ ops).data.length := by
  suffices h : ∀ (ops : List WOp) (f : OutFile) (s : Dry), s.cur = f.pos → s.max = f.data.length →
      f.pos ≤ f.data.length → AllInside f ops → (f.run ops).data.length < 4294967296 →
      (dryRun s ops).max = (f.run ops).data.length from h ops ⟨[], 0⟩ dry0 rfl rfl (Nat.le_refl _) hi hl
  intro ops
  induction ops with
  | nil => intro f s _ h _ _ _; exact h
  | cons op ops ih =>
    intro f s h1 h2 h3 h4 h5
    have hp := step_pos h3 h4.1
    have hlen := run_len ops (f.step op) hp h4.2
    obtain ⟨a, b, c⟩ := dry_step h1 h2 h3 h4.1 (Nat.lt_of_le_of_lt hlen h5)
    exact ih (f.step op) (dryStep s op) a b c h4.2 h5

example : AllInside ⟨[], 0⟩ [.write [1, 2, 3, 4] 2 2, .putc 5, .seek 1 SEEK_SET, .putc 9, .seek 0 SEEK_END, .putc 6] ∧
    (dryRun dry0 [.write [1, 2, 3, 4] 2 2, .putc 5, .seek 1 SEEK_SET, .putc 9, .seek 0 SEEK_END, .putc 6]).max = 6 := by
  refine ⟨⟨by decide, trivial, by decide, trivial, by decide, trivial, trivial⟩, by decide⟩

/-- C35 fails: a seek beyond the end counts in the dry run although nothing is written there. -/
theorem C35_violated_seek : (dryRun dry0 [.putc 1, .seek 9 SEEK_SET]).max = 9 ∧
    (OutFile.run ⟨[], 0⟩ [.putc 1, .seek 9 SEEK_SET]).data.length = 1 := by decide

/-! ### Saving to memory and saving to a file -/

/-- The bytes a saver that never seeks produces. -/
def output (ops : List WOp) : List UInt8 := ops.flatMap WOp.bytes

/-- A call that is not a seek and hands over a complete buffer. -/
def Plain : WOp → Prop
  | .putc _ => True
  | .write buf s n => buf.length = s * n
  | .seek _ _ => False

instance (op : WOp) : Decidable (Plain op) := by
  cases op <;> unfold Plain <;> infer_instance

theorem file_output (ops : List WOp) (hp : ∀ op ∈ ops, Plain op) :
    OutFile.run ⟨[], 0⟩ ops = ⟨output ops, (output ops).length⟩ := by
  suffices h : ∀ (ops : List WOp) (d : List UInt8), (∀ op ∈ ops, Plain op) →
      OutFile.run ⟨d, d.length⟩ ops = ⟨d ++ output ops, (d ++ output ops).length⟩ by simpa using h ops [] hp
  intro ops
  induction ops with
  | nil => intro d _; simp [OutFile.run, output]
  | cons op ops ih =>
    intro d hp
    have e : OutFile.step ⟨d, d.length⟩ op = ⟨d ++ op.bytes, (d ++ op.bytes).length⟩ := by
      have := hp op (by simp)
      cases op with
      | putc b => simp [OutFile.step, OutFile.put, WOp.bytes]
      | write buf s n => simp [OutFile.step, OutFile.put, WOp.bytes]
      | seek o m => exact this.elim
    show OutFile.run (OutFile.step ⟨d, d.length⟩ op) ops = _
    rw [e, ih _ (fun x hx => hp x (by simp [hx]))]
    simp [output, List.append_assoc]

theorem plain_inside {ops : List WOp} (hp : ∀ op ∈ ops, Plain op) (f : OutFile) : AllInside f ops := by
  induction ops generalizing f with
  | nil => trivial
  | cons op ops ih =>
    refine ⟨?_, ih (fun x hx => hp x (by simp [hx])) _⟩
    have := hp op (by simp)
    cases op with
    | putc b => trivial
    | write buf s n => exact this
    | seek o m => exact this.elim

/-- **C35**, for savers that never seek: the dry run reports the number of bytes the save writes. -/
theorem C35_dry_run_plain (ops : List WOp) (hp : ∀ op ∈ ops, Plain op) (hl : (output ops).length < 4294967296) :
    (dryRun dry0 ops).max = (output ops).length := by
  have h := C35_dry_run_partial ops (plain_inside hp _)
  rw [file_output ops hp] at h
  exact h hl

theorem wstep_plain {w : W} {done : List UInt8} {tail : List UInt8} {op : WOp} (hp : Plain op)
    (hd : w.data = done.take w.size ++ tail) (hs : w.size = w.data.length) (h0 : 0 < w.size) (hlt : w.size < 4294967296)
    (hpos : w.pos = min done.length w.size) (hop : op.bytes.length < 4294967296) :
    ∃ w', wstep w op = .ok w' ∧ w'.size = w.size ∧ w'.data.length = w.data.length ∧
      w'.data = (done ++ op.bytes).take w.size ++ tail.drop op.bytes.length ∧
      w'.pos = min (done ++ op.bytes).length w.size := by
  have hlen : (done.take w.size).length = w.pos := by rw [List.length_take]; omega
  have hl : w.pos + tail.length = w.size := by rw [hs, hd, List.length_append, hlen]
  -- a full buffer stays as it is
  have full : ∀ bs : List UInt8, w.pos = w.size →
      w.data = (done ++ bs).take w.size ++ tail.drop bs.length ∧ w.pos = min (done ++ bs).length w.size := by
    intro bs hf
    have ht : tail = [] := List.eq_nil_of_length_eq_zero (by omega)
    refine ⟨?_, by rw [List.length_append]; omega⟩
    rw [hd, ht, List.take_append_of_le_length (by omega)]
    simp
  cases op with
  | seek o m => exact hp.elim
  | putc b =>
    simp only [wstep, putc_spec b hs hlt, bind_ok, pure_eq_ok, WOp.bytes]
    by_cases hf : w.pos < w.size
    · rw [if_pos hf]
      refine ⟨_, rfl, rfl, by simp, ?_, ?_⟩
      · have hdn : done.take w.size = done := List.take_of_length_le (by omega)
        have hdl : done.length = w.pos := by rw [← hlen, hdn]
        show w.data.set w.pos b = _
        rw [hd, hdn, List.take_of_length_le (by simp; omega), ← hdl]
        obtain ⟨t, ts, rfl⟩ : ∃ t ts, tail = t :: ts := by
          cases tail with
          | nil => simp at hl; omega
          | cons t ts => exact ⟨t, ts, rfl⟩
        simp
      · simp only [List.length_append, List.length_singleton]; omega
    · rw [if_neg hf]
      exact ⟨w, rfl, rfl, rfl, full [b] (by omega)⟩
  | write buf s n =>
    have hb : buf.length = s * n := hp
    have hbt : buf.take (s * n) = buf := List.take_of_length_le (by omega)
    simp only [WOp.bytes, hbt] at hop ⊢
    have hu : u32 (s * n) = buf.length := by rw [u32_of_lt (by omega)]; omega
    obtain ⟨k, h1, h2, h3, e⟩ := write_spec (w := w) (buf := buf) (size := s) (number := n) hs hlt h0 (by omega) (by omega)
    simp only [wstep, e, bind_ok, pure_eq_ok]
    rw [hu] at h1 h2
    by_cases hf : w.pos = w.size
    · have hk : k = 0 := by
        by_cases hk : k = 0
        · exact hk
        · have := h3 (by omega); omega
      subst hk
      have hpp : u32 (w.pos + 0) = w.pos := by rw [Nat.add_zero, u32_of_lt (by omega)]
      refine ⟨_, rfl, rfl, by simp, ?_, ?_⟩
      · show w.data.take w.pos ++ ([] ++ w.data.drop (w.pos + 0)) = _
        rw [List.nil_append, Nat.add_zero, List.take_append_drop]
        exact (full buf hf).1
      · show u32 (w.pos + 0) = _
        rw [hpp]; exact (full buf hf).2
    · have hdn : done.take w.size = done := List.take_of_length_le (by omega)
      have hdl : done.length = w.pos := by rw [← hlen, hdn]
      have hk : k = min buf.length (w.size - w.pos) := by
        by_cases hk0 : k = 0
        · omega
        · have := h3 (by omega); omega
      have e1 : w.data.take w.pos = done := by rw [hd, hdn, ← hdl]; simp
      have e2 : w.data.drop (w.pos + k) = tail.drop k := by rw [hd, hdn, ← hdl]; simp
      refine ⟨_, rfl, rfl, ?_, ?_, ?_⟩
      · simp only [List.length_append, List.length_take, List.length_drop]; omega
      · show w.data.take w.pos ++ (buf.take k ++ w.data.drop (w.pos + k)) = _
        rw [e1, e2]
        have e3 : (done ++ buf).take w.size = done ++ buf.take k := by
          rw [List.take_append, List.take_of_length_le (by omega : done.length ≤ w.size)]
          congr 1
          rw [List.take_eq_take_iff]; omega
        rw [e3, List.append_assoc]
        congr 2
        by_cases hkb : k = buf.length
        · rw [hkb]
        · have hlt : tail.length ≤ k := by omega
          rw [List.drop_of_length_le hlt, List.drop_of_length_le (by omega)]
      · show u32 (w.pos + k) = _
        rw [u32_of_lt (by omega), List.length_append]; omega

/-- **C74.** Saving to memory writes the same bytes as saving to a file: after any save by a saver that does not seek,
the caller's buffer starts with the file's contents, cut off at the buffer's size; the rest of the buffer is untouched,
and the reported position is the number of bytes stored. -/
theorem C74_memory_is_file_prefix (buf : List UInt8) (h0 : 0 < buf.length) (hlt : buf.length < 4294967296)
    (ops : List WOp) (hp : ∀ op ∈ ops, Plain op) (hl : ∀ op ∈ ops, op.bytes.length < 4294967296) :
    ∃ w, wrun (openW buf buf.length) ops = .ok w ∧
      w.data = (OutFile.run ⟨[], 0⟩ ops).data.take buf.length ++ buf.drop (OutFile.run ⟨[], 0⟩ ops).data.length ∧
      w.pos = min (OutFile.run ⟨[], 0⟩ ops).data.length buf.length := by
  rw [file_output ops hp]
  simp only []
  suffices h : ∀ (ops : List WOp) (w : W) (done : List UInt8), (∀ op ∈ ops, Plain op) →
      (∀ op ∈ ops, op.bytes.length < 4294967296) → w.data = done.take w.size ++ buf.drop done.length →
      w.size = w.data.length → w.size = buf.length → w.pos = min done.length w.size →
      ∃ w', wrun w ops = .ok w' ∧ w'.data = (done ++ output ops).take buf.length ++ buf.drop (done ++ output ops).length ∧
        w'.pos = min (done ++ output ops).length buf.length by
    have := h ops (openW buf buf.length) [] hp hl (by simp [openW]) rfl rfl (by simp [openW])
    simpa using this
  intro ops
  induction ops with
  | nil =>
    intro w done _ _ h1 h2 h3 h4
    exact ⟨w, rfl, by simpa [output, h3] using h1, by simpa [output, h3] using h4⟩
  | cons op ops ih =>
    intro w done g1 g2 h1 h2 h3 h4
    obtain ⟨w1, e1, a1, a2, a3, a4⟩ := wstep_plain (g1 op (by simp)) h1 h2 (by omega) (by omega) h4 (g2 op (by simp))
    rw [List.drop_drop] at a3
    obtain ⟨w2, e2, b1, b2⟩ := ih w1 (done ++ op.bytes) (fun x hx => g1 x (by simp [hx])) (fun x hx => g2 x (by simp [hx]))
      (by rw [a3, a1, List.length_append]) (by omega) (by omega) (by rw [a4, a1])
    refine ⟨w2, by simp only [wrun, e1, bind_ok, e2], ?_, ?_⟩
    · rw [b1]; simp [output, List.append_assoc]
    · rw [b2]; simp [output, List.append_assoc]

example : wrun (openW [0, 0, 0, 0] 4) [.putc 1, .write [2, 3, 4, 5] 4 1, .putc 6] = .ok ⟨[1, 2, 3, 4], 4, 4⟩ ∧
    wrun (openW [0, 0, 0, 0] 4) [.putc 1, .write [2, 3] 2 1] = .ok ⟨[1, 2, 3, 0], 4, 3⟩ := by decide

end DevIL.Lump
