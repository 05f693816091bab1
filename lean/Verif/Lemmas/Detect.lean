import Verif.Model.Detect
import Verif.Lemmas.Stream
import Verif.Props.Utility
/-! Lemmas for recognising a file by its contents. -/
set_option autoImplicit false
namespace DevIL.Detect

open DevIL.Lump (SEEK_SET SEEK_CUR SEEK_END)
open DevIL.DetectSpec

variable {σ : Type}

/-- What the input functions do on an input with the bytes `all`, at position `p`. -/
structure Laws (o : Ops σ) (At : σ → List UInt8 → Nat → Prop) : Prop where
  read : ∀ {s all p} (size number : Nat), At s all p → 0 < size → size * number < 4294967296 →
    Holds (o.read s size number) (fun r => r.1 = at_ all p (size * number) ∧ r.2.1 = r.1.length / size ∧
      At r.2.2 all (p + r.1.length))
  getc : ∀ {s all p}, At s all p → Holds (o.getc s) (fun r => (∃ q, At r.2 all q) ∧
    (p < all.length → r.1 = all[p]? ∧ At r.2 all (p + 1)))
  seekCur : ∀ {s all p} (off : Int), At s all p → Holds (o.seek s off SEEK_CUR) (fun r => (∃ q, At r.2 all q) ∧
    ∀ q : Nat, (p : Int) + off = q → q ≤ all.length → At r.2 all q)
  seekSet : ∀ {s all p}, At s all p → Holds (o.seek s 0 SEEK_SET) (fun r => ∃ q, At r.2 all q)
  tell : ∀ {s all}, At s all 0 → o.tell s = 0
  eof : ∀ {s all}, At s all 0 → 0 < all.length → (o.eof s).1 = false ∧ At (o.eof s).2 all 0

theorem at_length (all : List UInt8) (p n : Nat) : (at_ all p n).length = min n (all.length - p) := by
  simp [at_]

/-! ### Files and lumps obey the laws -/

/-- A file, from its beginning. -/
def FileAt (s : Cache.S) (all : List UInt8) (p : Nat) : Prop := s.data = all ∧ s.start = 0 ∧ s.pos = p ∧ all.length < 2147483648

theorem seek_set (s : Cache.S) (off : Int) (h : s.start = 0) : Cache.iSeekRFile s off SEEK_SET
    = if off < 0 then (false, s) else (true, { s with pos := off.toNat }) := by
  unfold Cache.iSeekRFile
  simp [SEEK_SET, h]

theorem seek_cur (s : Cache.S) (off : Int) : Cache.iSeekRFile s off SEEK_CUR
    = if (s.pos : Int) + off < 0 then (false, s) else (true, { s with pos := ((s.pos : Int) + off).toNat }) := by
  unfold Cache.iSeekRFile
  simp [SEEK_SET, SEEK_CUR]

theorem seek_end (s : Cache.S) : Cache.iSeekRFile s 0 SEEK_END = (true, { s with pos := s.data.length }) := by
  unfold Cache.iSeekRFile
  simp only [SEEK_SET, SEEK_CUR, SEEK_END]
  have e : (if (2 : Nat) = 0 then (0 : Int) + s.start else if (2 : Nat) = 1 then (s.pos : Int) + 0 else s.data.length + 0) = s.data.length := by
    simp
  rw [e, if_neg (by omega), Int.toNat_natCast]

theorem fileLaws : Laws fileOps FileAt where
  read := by
    rintro s all p size number ⟨rfl, hst, rfl, hl⟩ hs _
    refine Holds.pure ⟨?_, ?_, rfl, hst, rfl, hl⟩
    · simp [Cache.fread, at_]
    · simp only [Cache.fread]; rw [if_neg (by omega)]
  getc := by
    rintro s all p ⟨rfl, hst, rfl, hl⟩
    refine Holds.pure ?_
    unfold Cache.fgetc
    cases e : s.data[s.pos]? with
    | none =>
      refine ⟨⟨s.pos, rfl, hst, rfl, hl⟩, fun hp => ?_⟩
      rw [List.getElem?_eq_none_iff] at e
      omega
    | some b => exact ⟨⟨s.pos + 1, rfl, hst, rfl, hl⟩, fun _ => ⟨rfl, rfl, hst, rfl, hl⟩⟩
  seekCur := by
    rintro s all p off ⟨rfl, hst, rfl, hl⟩
    refine Holds.pure ?_
    show (∃ q, FileAt (Cache.iSeekRFile s off SEEK_CUR).2 _ q) ∧ ∀ q : Nat, _ → _ → FileAt (Cache.iSeekRFile s off SEEK_CUR).2 _ q
    rw [seek_cur]
    split
    · refine ⟨⟨s.pos, rfl, hst, rfl, hl⟩, fun q hq _ => ?_⟩
      omega
    · refine ⟨⟨_, rfl, hst, rfl, hl⟩, fun q hq _ => ⟨rfl, hst, ?_, hl⟩⟩
      show ((s.pos : Int) + off).toNat = q
      omega
  seekSet := by
    rintro s all p ⟨rfl, hst, rfl, hl⟩
    refine Holds.pure ?_
    show ∃ q, FileAt (Cache.iSeekRFile s 0 SEEK_SET).2 _ q
    rw [seek_set _ _ hst, if_neg (by omega)]
    exact ⟨_, rfl, hst, rfl, hl⟩
  tell := by
    rintro s all ⟨rfl, hst, hp, hl⟩
    show u32 s.pos = 0
    rw [hp]; rfl
  eof := by
    rintro s all ⟨rfl, hst, hp, hl⟩ h0
    show (Cache.iEofFile s).1 = false ∧ FileAt (Cache.iEofFile s).2 _ 0
    unfold Cache.iEofFile Cache.iTellRFile
    rw [seek_end, hp]
    simp only []
    rw [seek_set _ _ (by exact hst)]
    refine ⟨?_, rfl, hst, rfl, hl⟩
    show decide (0 ≥ u32 s.data.length) = false
    rw [u32_of_lt (by omega)]
    rw [decide_eq_false_iff_not]
    omega

/-- A lump. -/
def LumpAt (l : Lump.R) (all : List UInt8) (p : Nat) : Prop := Lump.Good l ∧ l.data = all ∧ l.pos = p ∧ all.length < 2147483648

theorem lumpLaws : Laws lumpOps LumpAt where
  read := by
    rintro l all p size number ⟨hg, rfl, rfl, hl⟩ hs hlt
    have e2 := Lump.read_spec hg size number
    have hav : Lump.avail l size number = min (size * number) (l.data.length - l.pos) := by
      unfold Lump.avail
      rw [u32_of_lt hlt, hg.size]
    have hbytes : (l.data.drop l.pos).take (Lump.avail l size number) = at_ l.data l.pos (size * number) := by
      unfold at_
      rw [hav]
      conv => rhs; rw [← List.take_length (l := List.drop l.pos l.data), List.take_take, List.length_drop]
    have hlen : (at_ l.data l.pos (size * number)).length = Lump.avail l size number := by rw [at_length, hav]
    rw [hbytes] at e2
    refine ⟨_, by show (Lump.read l size number >>= _) = _; rw [e2]; rfl, rfl, ?_, hg.read_good size number, rfl, ?_, hl⟩
    · show (if size ≠ 0 then _ else _) = _
      rw [if_pos (by omega), hlen]
    · show l.pos + _ = l.pos + _
      rw [hlen]
  getc := by
    rintro l all p ⟨hg, rfl, rfl, hl⟩
    by_cases hp : l.pos < l.size
    · obtain ⟨b, hb, e⟩ := Lump.getc_spec hg hp
      have hk : LumpAt { l with pos := l.pos + 1 } l.data (l.pos + 1) := ⟨⟨hg.size, hp, hg.lt, hg.ne⟩, rfl, rfl, hl⟩
      exact ⟨_, e, ⟨_, hk⟩, fun _ => ⟨hb.symm, hk⟩⟩
    · have := hg.pos
      have hs := hg.size
      exact ⟨_, Lump.getc_end hg (by omega), ⟨l.size - 1, ⟨hg.size, Nat.sub_le _ _, hg.lt, hg.ne⟩, rfl, rfl, hl⟩, fun h => by omega⟩
  seekCur := by
    rintro l all p off ⟨hg, rfl, rfl, hl⟩
    have hp := hg.pos
    have hs := hg.size
    show Holds (Lump.seek l off SEEK_CUR) _
    unfold Lump.seek Lump.seekTo
    simp only [SEEK_SET, SEEK_CUR]
    rw [if_neg (by decide), if_pos trivial]
    split
    · rename_i hc
      refine ⟨_, rfl, ⟨l.pos, hg, rfl, rfl, hl⟩, fun q hq hql => ?_⟩
      rw [hq] at hc
      unfold Lump.ofInt at hc
      omega
    · rename_i hc
      refine ⟨_, rfl, ⟨_, ⟨hg.size, by simpa using hc, hg.lt, hg.ne⟩, rfl, rfl, hl⟩, fun q hq hql => ⟨⟨hg.size, by simpa using hc, hg.lt, hg.ne⟩, rfl, ?_, hl⟩⟩
      show Lump.ofInt _ = q
      rw [hq]
      unfold Lump.ofInt
      omega
  seekSet := by
    rintro l all p ⟨hg, rfl, rfl, hl⟩
    have hs := hg.size
    show Holds (Lump.seek l 0 SEEK_SET) _
    unfold Lump.seek Lump.seekTo
    simp only [SEEK_SET]
    rw [if_pos trivial, if_neg (by unfold Lump.toInt; split <;> omega)]
    exact ⟨_, rfl, 0, ⟨hg.size, Nat.zero_le _, hg.lt, hg.ne⟩, rfl, rfl, hl⟩
  tell := by
    rintro l all ⟨hg, rfl, hp, hl⟩
    exact hp
  eof := by
    rintro l all ⟨hg, rfl, hp, hl⟩ h0
    refine ⟨?_, hg, rfl, hp, hl⟩
    show Lump.eof l = false
    have hs := hg.size
    unfold Lump.eof
    rw [if_pos (by omega), decide_eq_false_iff_not]
    omega

/-! ### Reading a header -/

/-- The number of bytes a field takes. -/
def Fld.width : Fld → Nat
  | .rd size number => size * number
  | .getc => 1
  | .skip n => n

/-- What is read into a field at a position. -/
def Fld.bytes (all : List UInt8) (p : Nat) : Fld → List UInt8
  | .rd size number => at_ all p (size * number)
  | .getc => at_ all p 1
  | .skip _ => []

/-- The offset of a field. -/
def start (fs : List Fld) (i : Nat) : Nat := ((fs.take i).map Fld.width).sum

/-- Fields as they occur. -/
def Fld.Ok : Fld → Prop
  | .rd size number => 0 < size ∧ size * number < 4294967296
  | _ => True

instance (f : Fld) : Decidable f.Ok := by cases f <;> unfold Fld.Ok <;> infer_instance

theorem at_one {all : List UInt8} {p : Nat} (h : p < all.length) : at_ all p 1 = [all[p]] := by
  unfold at_
  rw [List.drop_eq_getElem_cons h]
  rfl

theorem start_succ (f : Fld) (fs : List Fld) (i : Nat) : start (f :: fs) (i + 1) = f.width + start fs i := by
  simp [start]

variable {o : Ops σ} {At : σ → List UInt8 → Nat → Prop}

theorem head_spec (L : Laws o At) (junk : Nat → UInt8) (all : List UInt8) (fs : List Fld) :
    ∀ (s : σ) (p : Nat), At s all p → (∀ f ∈ fs, f.Ok) →
    Holds (head o junk fs s) (fun r => (∃ q, At r.2 all q) ∧ (p + start fs fs.length ≤ all.length → At r.2 all (p + start fs fs.length)) ∧
      ∀ i f, fs[i]? = some f → p + start fs i + f.width ≤ all.length → fld r.1 i = f.bytes all (p + start fs i)) := by
  induction fs with
  | nil =>
    intro s p h _
    exact Holds.pure ⟨⟨p, h⟩, fun _ => h, by simp⟩
  | cons f fs ih =>
    intro s p h hok
    have hok' : ∀ g ∈ fs, g.Ok := fun g hg => hok g (List.mem_cons_of_mem _ hg)
    have hf := hok f List.mem_cons_self
    have hlen : start (f :: fs) (f :: fs).length = f.width + start fs fs.length := by rw [List.length_cons, start_succ]
    -- the step of one field
    have key : ∀ (s' : σ) (b : List UInt8), (∃ q, At s' all q) → (p + f.width ≤ all.length → b = f.bytes all p ∧ At s' all (p + f.width)) →
        Holds (head o junk fs s' >>= fun r => pure (b :: r.1, r.2) : C (List (List UInt8) × σ))
          (fun r => (∃ q, At r.2 all q) ∧
            (p + start (f :: fs) (f :: fs).length ≤ all.length → At r.2 all (p + start (f :: fs) (f :: fs).length)) ∧
            ∀ i g, (f :: fs)[i]? = some g → p + start (f :: fs) i + g.width ≤ all.length →
              fld r.1 i = g.bytes all (p + start (f :: fs) i)) := by
      intro s' b hq hb
      rw [hlen]
      by_cases hfit : p + f.width ≤ all.length
      · obtain ⟨hb, hat⟩ := hb hfit
        refine (ih s' _ hat hok').bind (fun r hr => Holds.pure ⟨hr.1, fun h => ?_, fun i g hi hg => ?_⟩)
        · rw [← Nat.add_assoc]; exact hr.2.1 (by omega)
        · cases i with
          | zero =>
            simp only [List.getElem?_cons_zero, Option.some.injEq] at hi
            rw [← hi]
            exact hb
          | succ i =>
            rw [start_succ] at hg ⊢
            rw [← Nat.add_assoc] at hg ⊢
            exact hr.2.2 i g hi hg
      · obtain ⟨q, hq⟩ := hq
        refine (ih s' q hq hok').bind (fun r hr => Holds.pure ⟨hr.1, fun h => ?_, fun i g hi hg => ?_⟩)
        · omega
        · exfalso
          cases i with
          | zero =>
            simp only [List.getElem?_cons_zero, Option.some.injEq] at hi
            rw [← hi] at hg
            omega
          | succ i => rw [start_succ] at hg; omega
    cases f with
    | rd size number =>
      refine (L.read size number h hf.1 hf.2).bind (fun r hr => ?_)
      refine key r.2.2 _ ⟨_, hr.2.2⟩ (fun hfit => ?_)
      have hfit : p + size * number ≤ all.length := hfit
      have hl : r.1.length = size * number := by rw [hr.1, at_length]; omega
      refine ⟨?_, ?_⟩
      · rw [hl, List.drop_of_length_le (by simp), List.append_nil]
        exact hr.1
      · have := hr.2.2; rw [hl] at this; exact this
    | getc =>
      refine (L.getc h).bind (fun r hr => ?_)
      refine key r.2 _ hr.1 (fun hfit => ?_)
      have hfit : p < all.length := hfit
      refine ⟨?_, (hr.2 hfit).2⟩
      rw [(hr.2 hfit).1, List.getElem?_eq_getElem hfit]
      exact (at_one hfit).symm
    | skip n =>
      refine (L.seekCur _ h).bind (fun r hr => ?_)
      exact key r.2 _ hr.1 (fun hfit => ⟨rfl, hr.2 (p + n) (by omega) hfit⟩)

/-! ### Numbers -/

theorem le_inj : ∀ (a b : List UInt8), a.length = b.length → le a = le b → a = b := by
  intro a
  induction a with
  | nil => intro b h _; exact (List.length_eq_zero_iff.mp h.symm).symm
  | cons x a ih =>
    intro b h he
    cases b with
    | nil => simp at h
    | cons y b =>
      simp only [le] at he
      have hx := x.toNat_lt
      have hy := y.toNat_lt
      have h1 : x.toNat = y.toNat := by omega
      have h2 : le a = le b := by omega
      rw [ih b (by simpa using h) h2, UInt8.toNat_inj.mp h1]

theorem le_beq {a t : List UInt8} {n : Nat} (h : a.length = t.length) (hn : n = le t) : (le a == n) = (a == t) := by
  rw [hn]
  by_cases e : a = t
  · simp [e]
  · have : le a ≠ le t := fun h' => e (le_inj a t h h')
    rw [beq_eq_false_iff_ne.mpr e, beq_eq_false_iff_ne.mpr this]

theorem be_beq {a t : List UInt8} {n : Nat} (h : a.length = t.length) (hn : n = be t) : (be a == n) = (a == t) := by
  unfold be at *
  rw [le_beq (t := t.reverse) (by simpa using h) hn]
  by_cases e : a = t
  · simp [e]
  · rw [beq_eq_false_iff_ne.mpr e, beq_eq_false_iff_ne.mpr (fun h => e (by simpa using h))]

theorem le_lt : ∀ (a : List UInt8), le a < 256 ^ a.length := by
  intro a
  induction a with
  | nil => simp [le]
  | cons x a ih =>
    have := x.toNat_lt
    simp only [le, List.length_cons, Nat.pow_succ]
    omega

theorem leAt_lt (bs : List UInt8) (off n : Nat) : leAt bs off n < 256 ^ n := by
  refine Nat.lt_of_lt_of_le (le_lt _) (Nat.pow_le_pow_right (by decide) ?_)
  rw [at_length]
  omega

theorem nextPower2_spec (n : Nat) (h : n ≤ 65536) : Holds (Utility.ilNextPower2 40 n) (fun p => (p == n) = pow2 n) := by
  obtain ⟨p, ⟨⟨k, hk⟩, hle, hmin⟩, e⟩ := Utility.C58_next_power2_partial n (by omega)
  refine ⟨p, e 40 (by decide), ?_⟩
  show (p == n) = pow2 n
  rw [Bool.eq_iff_iff]
  unfold pow2
  simp only [beq_iff_eq]
  constructor
  · intro hp
    rw [← hp, hk, Nat.log2_two_pow]
  · intro hn
    have := hmin n.log2 (by omega)
    omega

end DevIL.Detect
