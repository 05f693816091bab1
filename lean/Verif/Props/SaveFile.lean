import Verif.Model.SaveFile
import Verif.Props.Register
/-! Properties C108 and C109: saving to named files. -/
set_option autoImplicit false
namespace DevIL.SaveFile
open DevIL.Register (txt sameStr iGetExtension iCheckExtension)
open DevIL.Lump (WOp OutFile)

/-! ### C108: protection of existing files -/

/-- Nothing that exists and can be read is changed. -/
def Keeps (d d' : Disk) : Prop := ∀ m f, d m = some f → f.readable = true → d' m = some f

/-- Only the file `n` is changed. -/
def Only (n : List UInt8) (d d' : Disk) : Prop := ∀ m, m ≠ n → d' m = d m

theorem Keeps.refl (d : Disk) : Keeps d d := fun _ _ h _ => h

theorem Keeps.trans {d d' d'' : Disk} (h : Keeps d d') (h' : Keeps d' d'') : Keeps d d'' := fun m f e r => h' m f (h m f e r) r

/-- Registered savers that do as the others: they leave every readable file when overwriting is disabled, and change no other file. -/
def Behaved (w : World) : Prop := ∀ p ∈ w.procs, ∀ n d, (w.overwrite = false → Keeps d (p.2 n d).1) ∧ Only n d (p.2 n d).1

/-- What is shown of every save. -/
def Safe (w : World) (d : Disk) (n : List UInt8) (r : Result) : Prop := (w.overwrite = false → Keeps d r.disk) ∧ Only n d r.disk

theorem Safe.same {w : World} {d : Disk} {n : List UInt8} {b : Bool} {o : SaveL.Out} : Safe w d n ⟨b, d, o⟩ := ⟨fun _ => Keeps.refl d, fun _ _ => rfl⟩

theorem open_spec {may : List UInt8 → Bool} {d d' : Disk} {n : List UInt8} {f : File} (h : fopenW may d n = some (f, d')) : d' = put d n f ∧ f.data = [] := by
  unfold fopenW at h
  split at h
  · split at h
    · cases h; exact ⟨rfl, rfl⟩
    · cases h
  · split at h
    · cases h; exact ⟨rfl, rfl⟩
    · cases h

/-- A file that was opened is the only one that changes, and it did not exist, or overwriting is enabled. -/
theorem Safe.put {w : World} {d d' : Disk} {n : List UInt8} {f g : File} {b : Bool} {o : SaveL.Out} (h : fopenW w.may d n = some (f, d'))
    (hm : (!w.overwrite && iFileExists d n) = false) : Safe w d n ⟨b, SaveFile.put d' n g, o⟩ ∧ Safe w d n ⟨b, d', o⟩ := by
  obtain ⟨rfl, -⟩ := open_spec h
  refine ⟨⟨fun ho m k e r => ?_, fun m hn => ?_⟩, ⟨fun ho m k e r => ?_, fun m hn => ?_⟩⟩
  · have hmn : m ≠ n := by
      rintro rfl
      simp [ho, iFileExists, e, r] at hm
    simp [SaveFile.put, hmn, e]
  · simp [SaveFile.put, hn]
  · have hmn : m ≠ n := by
      rintro rfl
      simp [ho, iFileExists, e, r] at hm
    simp [SaveFile.put, hmn, e]
  · simp [SaveFile.put, hn]

theorem saveAs_safe {w : World} {d : Disk} {o : SaveL.Out} {k : Fmt} {n : List UInt8} {r : Result} (h : saveAs w d o k n = .ok r) : Safe w d n r := by
  unfold saveAs at h
  split at h
  · cases h
  split at h
  · cases h; exact Safe.same
  split at h
  · cases h; exact Safe.same
  rename_i hm
  split at h
  · cases h; exact Safe.same
  rename_i f d' hopen
  cases hb : w.body k with
  | error e => rw [hb] at h; cases h
  | ok p => rw [hb] at h; cases h; exact (Safe.put hopen (by simpa using hm)).1

theorem saveMng_safe {w : World} {d : Disk} {o : SaveL.Out} {n : List UInt8} {r : Result} (h : saveMng w d o n = .ok r) : Safe w d n r := by
  unfold saveMng at h
  split at h
  · cases h; exact Safe.same
  rename_i hm
  split at h
  · cases h; exact Safe.same
  rename_i f d' hopen
  cases hb : SaveL.itellw o with
  | error e => rw [hb] at h; cases h
  | ok p => rw [hb] at h; cases h; exact (Safe.put (g := f) hopen (by simpa using hm)).2

theorem header_safe {w : World} {d : Disk} {o : SaveL.Out} {n : List UInt8} {r : Result} (h : ilSaveCHeader w d o n = .ok r) : Safe w d n r := by
  unfold ilSaveCHeader at h
  split at h
  · cases h; exact Safe.same
  split at h
  · cases h; exact Safe.same
  cases hc : iCheckExtension n (txt ['h']) with
  | error e => rw [hc] at h; cases h
  | ok b =>
    rw [hc, bind_ok] at h
    split at h
    · cases h; exact Safe.same
    split at h
    · cases h; exact Safe.same
    rename_i hm
    split at h
    · cases h; exact Safe.same
    split at h
    · cases h; exact Safe.same
    rename_i hopen
    cases h
    exact (Safe.put hopen (by simpa using hm)).1

theorem jasc_safe {w : World} {d : Disk} {o : SaveL.Out} {n : List UInt8} {r : Result} (h : ilSaveJascPal w d o n = .ok r) : Safe w d n r := by
  unfold ilSaveJascPal at h
  split at h
  · cases h; exact Safe.same
  split at h
  · cases h; exact Safe.same
  cases hc : iCheckExtension n (txt ['p', 'a', 'l']) with
  | error e => rw [hc] at h; cases h
  | ok b =>
    rw [hc, bind_ok] at h
    split at h
    · cases h; exact Safe.same
    split at h
    · cases h; exact Safe.same
    rename_i hm
    split at h
    · cases h; exact Safe.same
    split at h
    · cases h; exact Safe.same
    rename_i hopen
    cases h
    exact (Safe.put hopen (by simpa using hm)).1

theorem pal_safe {w : World} {d : Disk} {o : SaveL.Out} {n : List UInt8} {r : Result} (h : ilSavePal w d o n = .ok r) : Safe w d n r := by
  unfold ilSavePal at h
  cases hc : iGetExtension n with
  | error e => rw [hc] at h; cases h
  | ok b =>
    rw [hc, bind_ok] at h
    split at h
    · cases h; exact Safe.same
    split at h
    · cases h; exact Safe.same
    split at h
    · cases h; exact Safe.same
    split at h
    · cases h; exact Safe.same
    split at h
    · exact jasc_safe h
    · cases h; exact Safe.same

theorem image_safe {w : World} {d : Disk} {o : SaveL.Out} {n : List UInt8} {r : Result} (hw : Behaved w) (h : ilSaveImage w d o n = .ok r) : Safe w d n r := by
  unfold ilSaveImage at h
  split at h
  · cases h; exact Safe.same
  split at h
  · cases h; exact Safe.same
  cases hc : iGetExtension n with
  | error e => rw [hc] at h; cases h
  | ok b =>
    rw [hc, bind_ok] at h
    split at h
    · cases h; exact Safe.same
    split at h
    · exact saveAs_safe h
    split at h
    · exact header_safe h
    split at h
    · exact saveMng_safe h
    split at h
    · exact pal_safe h
    split at h
    · rename_i e ok d' he
      cases h
      unfold iRegisterSave at he
      split at he
      · cases he
      · rename_i p hp
        cases he
        exact hw p (List.mem_of_find?_eq_some hp) n d
    · cases h; exact Safe.same

theorem save_safe {w : World} {d : Disk} {o : SaveL.Out} {t : Nat} {n : List UInt8} {r : Result} (hw : Behaved w) (h : ilSave w d o t n = .ok r) : Safe w d n r := by
  unfold ilSave at h
  split at h
  · exact image_safe hw h
  split at h
  · exact saveAs_safe h
  split at h
  · exact header_safe h
  split at h
  · exact jasc_safe h
  · cases h; exact Safe.same

/-- The calls that save to a named file. -/
inductive Call where
  | save (type : Nat)
  | image
  | pal
  | data (bytes : List UInt8)

/-- One call. -/
def Call.run (w : World) (d : Disk) (o : SaveL.Out) (n : List UInt8) : Call → C Result
  | .save t => ilSave w d o t n
  | .image => ilSaveImage w d o n
  | .pal => ilSavePal w d o n
  | .data b => ilSaveData w d o b n

/-- Any number of calls, one after the other; between them the program may change the image and every setting. -/
def runAll : List (World × List UInt8 × Call) → Disk → SaveL.Out → C (Disk × SaveL.Out)
  | [], d, o => pure (d, o)
  | (w, n, c) :: cs, d, o => do
    let r ← c.run w d o n
    runAll cs r.disk r.out

theorem call_safe {w : World} {d : Disk} {o : SaveL.Out} {n : List UInt8} {c : Call} {r : Result} (hw : Behaved w) (h : c.run w d o n = .ok r) : Safe w d n r := by
  cases c with
  | save t => exact save_safe hw h
  | image => exact image_safe hw h
  | pal => exact pal_safe h
  | data b =>
    simp only [Call.run, ilSaveData] at h
    split at h
    · cases h; exact Safe.same
    split at h
    · cases h; exact Safe.same
    cases hb : SaveL.exec [.write b 1 b.length] o with
    | error e => rw [hb] at h; cases h
    | ok p => rw [hb] at h; cases h; exact Safe.same

/-- **C108.** While overwriting is disabled, no sequence of saves, by type or by extension, of whatever images, changes or removes a file that exists and can be read. -/
theorem C108_protected (cs : List (World × List UInt8 × Call)) (hw : ∀ c ∈ cs, Behaved c.1) (ho : ∀ c ∈ cs, c.1.overwrite = false)
    (d : Disk) (o : SaveL.Out) (d' : Disk) (o' : SaveL.Out) (h : runAll cs d o = .ok (d', o')) (m : List UInt8) (f : File) (hm : d m = some f) (hr : f.readable = true) :
    d' m = some f := by
  induction cs generalizing d o with
  | nil => cases h; exact hm
  | cons c cs ih =>
    obtain ⟨w, n, c⟩ := c
    simp only [runAll] at h
    cases hb : c.run w d o n with
    | error e => rw [hb] at h; cases h
    | ok r =>
      rw [hb, bind_ok] at h
      exact ih (fun c hc => hw c (by simp [hc])) (fun c hc => ho c (by simp [hc])) r.disk r.out h
        ((call_safe (hw _ (by simp)) hb).1 (ho _ (List.mem_cons_self)) m f hm hr)

/-- **C108.** In either mode, no sequence of saves changes a file that none of them names. -/
theorem C108_others (cs : List (World × List UInt8 × Call)) (hw : ∀ c ∈ cs, Behaved c.1)
    (d : Disk) (o : SaveL.Out) (d' : Disk) (o' : SaveL.Out) (h : runAll cs d o = .ok (d', o')) (m : List UInt8) (hm : ∀ c ∈ cs, c.2.1 ≠ m) : d' m = d m := by
  induction cs generalizing d o with
  | nil => cases h; rfl
  | cons c cs ih =>
    obtain ⟨w, n, c⟩ := c
    simp only [runAll] at h
    cases hb : c.run w d o n with
    | error e => rw [hb] at h; cases h
    | ok r =>
      rw [hb, bind_ok] at h
      rw [ih (fun c hc => hw c (by simp [hc])) r.disk r.out h (fun c hc => hm c (by simp [hc]))]
      exact (call_safe (hw _ List.mem_cons_self) hb).2 m (fun e => hm _ (List.mem_cons_self) e.symm)

/-- A save to a file that exists and can be read reports failure when overwriting is disabled. -/
theorem C108_reports (w : World) (d : Disk) (o : SaveL.Out) (k : Fmt) (t : Nat) (n : List UInt8) (f : File) (ht : (t, k) ∈ typeFmt) (hv : k = .vtf → w.cur = true)
    (ho : w.overwrite = false) (hf : d n = some f) (hr : f.readable = true) : ilSave w d o t n = .ok ⟨false, d, o⟩ := by
  have hfind : typeFmt.find? (fun r => r.1 == t) = some (t, k) := by
    simp only [typeFmt, List.mem_cons, Prod.mk.injEq, List.not_mem_nil, or_false] at ht
    rcases ht with ⟨rfl, rfl⟩ | ⟨rfl, rfl⟩ | ⟨rfl, rfl⟩ | ⟨rfl, rfl⟩ | ⟨rfl, rfl⟩ | ⟨rfl, rfl⟩ | ⟨rfl, rfl⟩ | ⟨rfl, rfl⟩ | ⟨rfl, rfl⟩ | ⟨rfl, rfl⟩ | ⟨rfl, rfl⟩ | ⟨rfl, rfl⟩ | ⟨rfl, rfl⟩ | ⟨rfl, rfl⟩ | ⟨rfl, rfl⟩ | ⟨rfl, rfl⟩ <;> rfl
  have ht0 : t ≠ IL_TYPE_UNKNOWN := by rintro rfl; cases k <;> exact absurd ht (by decide)
  unfold ilSave
  rw [if_neg ht0, hfind]
  simp only
  unfold saveAs
  rw [if_neg (by rintro ⟨h1, h2⟩; simp [hv h1] at h2)]
  split
  · rfl
  · rw [if_pos (by simp [ho, iFileExists, hf, hr])]
    rfl

/-- A disk with one file. -/
def one (n : List UInt8) (f : File) : Disk := fun m => if m = n then some f else none

/-- A program with an image, that saves as the formats would save three bytes. -/
def demo (overwrite : Bool) : World := ⟨overwrite, true, true, 2, [65], true, fun _ => true, fun _ => pure ([.write [1, 2, 3] 1 3], true), [47], [74], []⟩

theorem demo_behaved (b : Bool) : Behaved (demo b) := fun p hp => by cases hp

-- the hypotheses of C108 are met: a file of the same name is kept, another one is made
example : ∃ d' o', runAll [(demo false, txt ['a', '.', 'b', 'm', 'p'], .image), (demo false, txt ['b'], .save IL_TGA)] (one (txt ['a', '.', 'b', 'm', 'p']) ⟨[9], true, true⟩) .unset = .ok (d', o') ∧
    d' (txt ['a', '.', 'b', 'm', 'p']) = some ⟨[9], true, true⟩ ∧ d' (txt ['b']) = some ⟨[1, 2, 3], true, true⟩ := by
  refine ⟨_, _, rfl, ?_, ?_⟩ <;> decide

/-- **The limit of C108**: a file that the process may write but not read does not count as existing and is overwritten. -/
theorem C108_limit_unreadable : ∃ r, ilSave (demo false) (one [97] ⟨[9], false, true⟩) .unset IL_TGA [97] = .ok r ∧ r.ret = true ∧ r.disk [97] = some ⟨[1, 2, 3], false, true⟩ :=
  ⟨_, rfl, rfl, by decide⟩

/-! ### C109: what the returned value says -/

theorem find_fmt {t : Nat} {k : Fmt} (ht : (t, k) ∈ typeFmt) : typeFmt.find? (fun r => r.1 == t) = some (t, k) ∧ t ≠ IL_TYPE_UNKNOWN := by
  simp only [typeFmt, List.mem_cons, Prod.mk.injEq, List.not_mem_nil, or_false] at ht
  rcases ht with ⟨rfl, rfl⟩ | ⟨rfl, rfl⟩ | ⟨rfl, rfl⟩ | ⟨rfl, rfl⟩ | ⟨rfl, rfl⟩ | ⟨rfl, rfl⟩ | ⟨rfl, rfl⟩ | ⟨rfl, rfl⟩ | ⟨rfl, rfl⟩ | ⟨rfl, rfl⟩ | ⟨rfl, rfl⟩ | ⟨rfl, rfl⟩ | ⟨rfl, rfl⟩ | ⟨rfl, rfl⟩ | ⟨rfl, rfl⟩ | ⟨rfl, rfl⟩ <;> exact ⟨rfl, by decide⟩

/-- **C109** (part).  When `ilSave` with an image format returns `IL_TRUE`, the saver of the format succeeded and the named file contains exactly what it wrote, whatever the file contained before; when it returns `IL_FALSE` although the saver succeeds and writes something less than 4 GB, nothing has changed.
What is missing: that a failed save changes nothing also when the saver fails, which is false, see `C109_violated_mng`; and `ilSaveData`, see `C109_violated_data`. -/
theorem C109_returned_partial (w : World) (d : Disk) (o : SaveL.Out) (k : Fmt) (t : Nat) (n : List UInt8) (r : Result) (ht : (t, k) ∈ typeFmt) (h : ilSave w d o t n = .ok r) :
    (r.ret = true → ∃ ops f, w.body k = .ok (ops, true) ∧ r.disk n = some f ∧ f.data = (OutFile.run ⟨[], 0⟩ ops).data) ∧
    (r.ret = false → (∃ ops, w.body k = .ok (ops, true) ∧ 0 < (OutFile.run ⟨[], 0⟩ ops).pos ∧ (OutFile.run ⟨[], 0⟩ ops).pos < 2 ^ 32) → r.disk = d) := by
  obtain ⟨h1, h2⟩ := find_fmt ht
  unfold ilSave at h
  rw [if_neg h2, h1] at h
  simp only at h
  unfold saveAs at h
  split at h
  · cases h
  split at h
  · cases h; exact ⟨fun e => by simp at e, fun _ _ => rfl⟩
  split at h
  · cases h; exact ⟨fun e => by simp at e, fun _ _ => rfl⟩
  split at h
  · cases h; exact ⟨fun e => by simp at e, fun _ _ => rfl⟩
  rename_i f d' hopen
  cases hb : w.body k with
  | error e => rw [hb] at h; cases h
  | ok p =>
    obtain ⟨ops, ok⟩ := p
    rw [hb, bind_ok] at h
    cases h
    refine ⟨fun e => ?_, fun e hs => ?_⟩
    · cases ok with
      | false => simp at e
      | true => exact ⟨ops, _, rfl, by simp only [put, if_true]; rfl, rfl⟩
    · obtain ⟨ops', he, hp, hp'⟩ := hs
      cases he
      simp only [if_true] at e
      rw [u32_of_lt (by omega)] at e
      simp only [decide_eq_false_iff_not, ne_eq, Decidable.not_not] at e
      omega

-- both cases happen
example : ∃ r, ilSave (demo true) (one [97] ⟨[9], true, true⟩) .unset IL_TGA [97] = .ok r ∧ r.ret = true ∧ r.disk [97] = some ⟨[1, 2, 3], true, true⟩ := ⟨_, rfl, rfl, by decide⟩
example : ∃ r, ilSave (demo true) (one [97] ⟨[9], true, false⟩) .unset IL_TGA [97] = .ok r ∧ r.ret = false ∧ r.disk [97] = some ⟨[9], true, false⟩ := ⟨_, rfl, rfl, by decide⟩

/-- **C109 is false of MNG files**: with overwriting enabled, saving to an existing file with that extension destroys it and fails.  When nothing was saved before, or the last save was to a file, the program crashes instead, and the file is lost as well. -/
theorem C109_violated_mng (w : World) (hc : w.cur = true) (ho : w.overwrite = true) (d : Disk) (f : File) (hf : d (txt ['a', '.', 'm', 'n', 'g']) = some f) (hw : f.writable = true) (l : Lump.W) :
    (∃ r, ilSaveImage w d (.lump l) (txt ['a', '.', 'm', 'n', 'g']) = .ok r ∧ r.ret = false ∧ r.disk (txt ['a', '.', 'm', 'n', 'g']) = some ⟨[], f.readable, true⟩) ∧
    ilSaveImage w d .unset (txt ['a', '.', 'm', 'n', 'g']) = .error .nullDeref ∧ ilSaveImage w d .closed (txt ['a', '.', 'm', 'n', 'g']) = .error .useAfterFree := by
  have he : iGetExtension (txt ['a', '.', 'm', 'n', 'g']) = .ok (some (txt ['m', 'n', 'g'])) := by decide
  have hopen : fopenW w.may d (txt ['a', '.', 'm', 'n', 'g']) = some (⟨[], f.readable, true⟩, put d (txt ['a', '.', 'm', 'n', 'g']) ⟨[], f.readable, true⟩) := by
    unfold fopenW
    simp [hf, hw]
  have key : ∀ o, ilSaveImage w d o (txt ['a', '.', 'm', 'n', 'g']) = (do
      let _ ← SaveL.itellw o
      pure ⟨false, put d (txt ['a', '.', 'm', 'n', 'g']) ⟨[], f.readable, true⟩, .closed⟩) := by
    intro o
    unfold ilSaveImage
    rw [if_neg (by decide), if_neg (by simp [hc]), he, bind_ok]
    simp only
    rw [show extFmt.find? (fun r => r.1.any fun x => sameStr (txt ['m', 'n', 'g']) (txt x)) = none by decide]
    simp only
    rw [if_neg (by decide), if_pos (by decide)]
    unfold saveMng
    rw [if_neg (by simp [ho]), hopen]
  refine ⟨⟨⟨false, put d (txt ['a', '.', 'm', 'n', 'g']) ⟨[], f.readable, true⟩, .closed⟩, ?_, rfl, ?_⟩, ?_, ?_⟩
  · rw [key]; rfl
  · simp [put]
  · rw [key]; rfl
  · rw [key]; rfl

example : (one (txt ['a', '.', 'm', 'n', 'g']) ⟨[9], true, true⟩) (txt ['a', '.', 'm', 'n', 'g']) = some ⟨[9], true, true⟩ := by decide

/-- **C109 is false of `ilSaveData`**: whatever the image and the name, it never changes the disk; on a file that exists it returns `IL_TRUE` when the last save was to memory, and crashes when there was none or when it was to a file. -/
theorem C109_violated_data (w : World) (d : Disk) (o : SaveL.Out) (data n : List UInt8) :
    (∀ r, ilSaveData w d o data n = .ok r → r.disk = d) ∧
    (w.cur = true → iFileExists d n = true → ilSaveData w d .unset data n = .error .nullDeref ∧ ilSaveData w d .closed data n = .error .useAfterFree) := by
  refine ⟨fun r h => ?_, fun hc he => ?_⟩
  · unfold ilSaveData at h
    split at h
    · cases h; rfl
    split at h
    · cases h; rfl
    cases hb : SaveL.exec [.write data 1 data.length] o with
    | error e => rw [hb] at h; cases h
    | ok p => rw [hb] at h; cases h; rfl
  · unfold ilSaveData
    rw [if_neg (by simp [hc]), if_neg (by simp [he]), if_neg (by simp [hc]), if_neg (by simp [he])]
    exact ⟨rfl, rfl⟩

-- it does return true without having saved anything
example : ∃ r, ilSaveData (demo true) (one [97] ⟨[9], true, true⟩) (.dry Lump.dry0) [1, 2] [97] = .ok r ∧ r.ret = true ∧ r.disk [97] = some ⟨[9], true, true⟩ := ⟨_, rfl, rfl, by decide⟩

end DevIL.SaveFile
