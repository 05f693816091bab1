import Verif.Model.Games
import Verif.Spec.Games
import Verif.Lemmas.DetectT
/-! Lemmas for the loaders of small formats. -/
set_option autoImplicit false
namespace DevIL.Games

open DevIL.Lump (SEEK_SET SEEK_CUR SEEK_END)
open DevIL.Detect DevIL.DetectSpec DevIL.GamesSpec DevIL.Image

variable {σ : Type}

/-- More of what the input functions do. -/
structure Laws2 (o : Ops σ) (At : σ → List UInt8 → Nat → Prop) : Prop extends Laws o At where
  seekAbs : ∀ {s all p} (q : Nat), At s all p → q ≤ all.length → Holds (o.seek s (q : Int) SEEK_SET) (fun r => At r.2 all q)
  seekPos : ∀ {s all p} (off : Int), At s all p → 0 ≤ off → Holds (o.seek s off SEEK_SET) (fun r => ∃ q, At r.2 all q)
  tellAt : ∀ {s all p}, At s all p → p ≤ all.length → o.tell s = p
  read0 : ∀ {s all p} (n : Nat), At s all p → Holds (o.read s 0 n) (fun r => r.1 = [] ∧ r.2.1 = 0 ∧ At r.2.2 all p)
  len : ∀ {s all p}, At s all p → all.length < 2147483648
  getcEnd : ∀ {s all p}, At s all p → all.length ≤ p → Holds (o.getc s) (fun r => r.1 = none ∧ ∃ q, all.length ≤ q + 1 ∧ At r.2 all q)

theorem fileLaws2 : Laws2 fileOps FileAt where
  toLaws := fileLaws
  seekAbs := by
    rintro s all p q ⟨rfl, hst, rfl, hl⟩ hq
    refine Holds.pure ?_
    show FileAt (Cache.iSeekRFile s q SEEK_SET).2 _ _
    rw [seek_set _ _ hst, if_neg (by omega)]
    exact ⟨rfl, hst, by simp, hl⟩
  seekPos := by
    rintro s all p off ⟨rfl, hst, rfl, hl⟩ hq
    refine Holds.pure ?_
    show ∃ q, FileAt (Cache.iSeekRFile s off SEEK_SET).2 _ q
    rw [seek_set _ _ hst, if_neg (by omega)]
    exact ⟨_, rfl, hst, rfl, hl⟩
  tellAt := by
    rintro s all p ⟨rfl, hst, rfl, hl⟩ hp
    exact u32_of_lt (by omega)
  read0 := by
    rintro s all p n ⟨rfl, hst, rfl, hl⟩
    refine Holds.pure ⟨?_, ?_, rfl, hst, ?_, hl⟩ <;> simp [Cache.fread]
  len := by
    rintro s all p ⟨rfl, hst, rfl, hl⟩
    exact hl
  getcEnd := by
    rintro s all p ⟨rfl, hst, rfl, hl⟩ hp
    refine Holds.pure ?_
    unfold Cache.fgetc
    rw [List.getElem?_eq_none hp]
    exact ⟨rfl, s.pos, by omega, rfl, hst, rfl, hl⟩

theorem lumpLaws2 : Laws2 lumpOps LumpAt where
  toLaws := lumpLaws
  seekAbs := by
    rintro l all p q ⟨hg, rfl, rfl, hl⟩ hq
    have hs := hg.size
    show Holds (Lump.seek l q SEEK_SET) _
    unfold Lump.seek Lump.seekTo
    simp only [SEEK_SET]
    rw [if_pos trivial, if_neg (by unfold Lump.toInt; split <;> omega)]
    have e : Lump.ofInt (q : Int) = q := by unfold Lump.ofInt; omega
    exact ⟨_, rfl, ⟨hg.size, by show Lump.ofInt (q : Int) ≤ l.size; rw [e]; omega, hg.lt, hg.ne⟩, rfl, e, hl⟩
  seekPos := by
    rintro l all p off ⟨hg, rfl, rfl, hl⟩ ho
    have hs := hg.size
    show Holds (Lump.seek l off SEEK_SET) _
    unfold Lump.seek Lump.seekTo
    simp only [SEEK_SET]
    rw [if_pos trivial]
    split
    · exact ⟨_, rfl, _, hg, rfl, rfl, hl⟩
    · rename_i hc
      have e : Lump.toInt l.size = l.size := by unfold Lump.toInt; rw [if_pos (by omega)]
      rw [e] at hc
      refine ⟨_, rfl, _, ⟨hg.size, ?_, hg.lt, hg.ne⟩, rfl, rfl, hl⟩
      show Lump.ofInt off ≤ l.size
      unfold Lump.ofInt
      omega
  tellAt := by
    rintro l all p ⟨hg, rfl, hp, hl⟩ _
    exact hp
  read0 := by
    rintro l all p n ⟨hg, rfl, rfl, hl⟩
    have e2 := Lump.read_spec hg 0 n
    have ha : Lump.avail l 0 n = 0 := by unfold Lump.avail; simp [u32]
    rw [ha] at e2
    refine ⟨_, by show (Lump.read l 0 n >>= _) = _; rw [e2]; rfl, rfl, rfl, hg, rfl, rfl, hl⟩
  len := by
    rintro l all p ⟨hg, rfl, hp, hl⟩
    exact hl
  getcEnd := by
    rintro l all p ⟨hg, rfl, rfl, hl⟩ hp
    have := hg.pos
    have hs := hg.size
    exact ⟨_, Lump.getc_end hg (by omega), rfl, l.size - 1, by omega, ⟨hg.size, Nat.sub_le _ _, hg.lt, hg.ne⟩, rfl, rfl, hl⟩

variable {o : Ops σ} {At : σ → List UInt8 → Nat → Prop}

theorem put_eq (dst g : List UInt8) (h : g.length ≤ dst.length) : memcpy dst 0 g 0 g.length = .ok (g ++ dst.drop g.length) := by
  unfold memcpy
  rw [if_pos (by omega), if_pos (by omega)]
  simp

/-- Reading into a block. -/
theorem into_spec (L : Laws2 o At) {s : σ} {all : List UInt8} {p : Nat} (dst : List UInt8) (size number : Nat) (h : At s all p)
    (hs : 0 < size) (hlt : size * number < 4294967296) (hd : size * number ≤ dst.length) :
    Holds (into o s dst size number) (fun r => r.1 = (at_ all p (size * number)).length / size ∧
      r.2.1 = at_ all p (size * number) ++ dst.drop (at_ all p (size * number)).length ∧
      At r.2.2 all (p + (at_ all p (size * number)).length)) := by
  refine (L.read size number h hs hlt).bind (fun r hr => ?_)
  obtain ⟨h1, h2, h3⟩ := hr
  have hlen : r.1.length ≤ dst.length := by rw [h1, at_length]; omega
  show Holds (memcpy dst 0 r.1 0 r.1.length >>= fun d => pure (r.2.1, d, r.2.2)) _
  rw [put_eq _ _ hlen, bind_ok]
  rw [h1] at h2 h3
  refine Holds.pure ⟨h2, by show r.1 ++ _ = _; rw [h1], h3⟩

theorem into_len {s : σ} {all : List UInt8} {p : Nat} (L : Laws2 o At) (dst : List UInt8) (size number : Nat) (h : At s all p)
    (hlt : size * number < 4294967296) (hd : size * number ≤ dst.length) :
    Holds (into o s dst size number) (fun r => r.2.1.length = dst.length ∧ ∃ q, At r.2.2 all q) := by
  by_cases hs : size = 0
  · subst hs
    refine (L.read0 number h).bind (fun r hr => ?_)
    obtain ⟨h1, h2, h3⟩ := hr
    show Holds (memcpy dst 0 r.1 0 r.1.length >>= fun d => pure (r.2.1, d, r.2.2)) _
    rw [put_eq dst r.1 (by rw [h1]; simp), bind_ok]
    exact Holds.pure ⟨by rw [h1]; simp, _, h3⟩
  · refine (into_spec L dst size number h (by omega) hlt hd).mono (fun r hr => ⟨?_, _, hr.2.2⟩)
    rw [hr.2.1]
    simp only [List.length_append, List.length_drop, at_length]
    omega

/-- Reading a whole block of bytes. -/
theorem into_full (L : Laws2 o At) {s : σ} {all : List UInt8} {p : Nat} (dst : List UInt8) (size number : Nat) (h : At s all p)
    (hs : 0 < size) (hlt : size * number < 4294967296) (hd : size * number = dst.length) (hfit : p + size * number ≤ all.length) :
    Holds (into o s dst size number) (fun r => r.1 = number ∧ r.2.1 = at_ all p (size * number) ∧ At r.2.2 all (p + size * number)) := by
  refine (into_spec L dst size number h hs hlt (by omega)).mono (fun r hr => ?_)
  have hl : (at_ all p (size * number)).length = size * number := by rw [at_length]; omega
  rw [hl] at hr
  refine ⟨by rw [hr.1, Nat.mul_div_cancel_left _ hs], ?_, hr.2.2⟩
  rw [hr.2.1, List.drop_of_length_le (by omega), List.append_nil]

/-- The position after a header without gaps, also when the input ends in it. -/
theorem head_pos (L : Laws o At) (junk : Nat → UInt8) (all : List UInt8) (fs : List Fld) :
    ∀ (s : σ) (p : Nat), At s all p → p ≤ all.length → (∀ f ∈ fs, ∃ size number, f = .rd size number ∧ 0 < size ∧ size * number < 4294967296) →
    Holds (head o junk fs s) (fun r => At r.2 all (min (p + start fs fs.length) all.length)) := by
  induction fs with
  | nil =>
    intro s p h hp _
    refine Holds.pure ?_
    have e : min (p + start [] ([] : List Fld).length) all.length = p := by simp [start]; omega
    rw [e]; exact h
  | cons f fs ih =>
    intro s p h hp hok
    obtain ⟨size, number, rfl, hs, hlt⟩ := hok f List.mem_cons_self
    refine (L.read size number h hs hlt).bind (fun r hr => ?_)
    have hl : r.1.length = min (size * number) (all.length - p) := by rw [hr.1, at_length]
    refine (ih r.2.2 _ hr.2.2 (by omega) (fun f hf => hok f (List.mem_cons_of_mem _ hf))).bind (fun t ht => Holds.pure ?_)
    have e : min (p + start (Fld.rd size number :: fs) (Fld.rd size number :: fs).length) all.length
        = min (p + r.1.length + start fs fs.length) all.length := by
      rw [List.length_cons, start_succ, hl]
      show min (p + (size * number + _)) _ = _
      omega
    rw [e]; exact ht

/-! ### The image made by `ilTexImage` -/

theorem tex_len (junk : Nat → UInt8) (w h k f : Nat) : (tex junk w h k f).data.length = (tex junk w h k f).size := by
  unfold tex
  exact alloc_length _ _

theorem tex_lt (junk : Nat → UInt8) (w h k f : Nat) : (tex junk w h k f).size < 4294967296 := u32_lt _

theorem tex_fields (junk : Nat → UInt8) (w h k f : Nat) (hw : 0 < w) (hh : 0 < h) (hk : 0 < k) (hfit : w * h * k < 4294967296) :
    let m := tex junk w h k f
    m.width = w ∧ m.height = h ∧ m.depth = 1 ∧ m.bpp = k ∧ m.bpc = 1 ∧ m.format = f ∧ m.type = IL_UNSIGNED_BYTE ∧ m.Consistent ∧
      m.size = w * h * k := by
  have a : ∀ n, 0 < n → atLeast1 n = n := fun n h => by unfold atLeast1; rw [if_neg (by omega)]
  have hb : Utility.ilGetBpcType IL_UNSIGNED_BYTE = 1 := by decide
  have h1 : w * k ≤ w * h * k := Nat.mul_le_mul_right k (Nat.le_mul_of_pos_right w hh)
  have e1 : w * k * h = w * h * k := Nat.mul_right_comm w k h
  have ew : u32 (w * k) = w * k := u32_of_lt (by omega)
  have eh : u32 (w * k * h) = w * h * k := by rw [e1, u32_of_lt hfit]
  have eh' : u32 (w * h * k) = w * h * k := u32_of_lt hfit
  have hsz : (tex junk w h k f).size = w * h * k := by
    simp only [tex, geometry, a w hw, a h hh, a 1 (by decide), hb, Nat.mul_one, ew, eh, eh']
  have hpl : (tex junk w h k f).plane = w * h * k := by
    simp only [tex, geometry, a w hw, a h hh, a 1 (by decide), hb, Nat.mul_one, ew, eh]
  have hbp : (tex junk w h k f).bps = w * k := by
    simp only [tex, geometry, a w hw, a h hh, a 1 (by decide), hb, Nat.mul_one, ew]
  have hww : (tex junk w h k f).width = w := a w hw
  have hhh : (tex junk w h k f).height = h := a h hh
  have hc : (tex junk w h k f).bpc = 1 := hb
  have hbb : (tex junk w h k f).bpp = k := rfl
  refine ⟨hww, hhh, rfl, rfl, hb, rfl, rfl, ⟨?_, ?_, ?_, tex_len junk w h k f⟩, hsz⟩
  · rw [hbp, hww, hbb, hc, Nat.mul_one]
  · rw [hpl, hww, hbb, hc, hhh, Nat.mul_one, e1]
  · rw [hsz, hww, hbb, hc, hhh, Nat.mul_one, e1]; exact (Nat.mul_one _).symm

/-- An image with a block of the right size shows what the block holds. -/
theorem shows_tex (junk : Nat → UInt8) (w h k f : Nat) (hw : 0 < w) (hh : 0 < h) (hk : 0 < k) (hfit : w * h * k < 4294967296)
    (d : List UInt8) (hd : d.length = w * h * k) (px : Nat → Nat → Nat → Option UInt8)
    (hpx : ∀ x y c, x < w → y < h → c < k → d[(y * w + x) * k + c]? = px x y c) :
    Shows { tex junk w h k f with data := d, origin := IL_ORIGIN_UPPER_LEFT } w h k f px := by
  obtain ⟨h1, h2, h3, h4, h5, h6, h7, h8, h9⟩ := tex_fields junk w h k f hw hh hk hfit
  have hc := h8
  refine ⟨h1, h2, h3, h4, h5, h6, h7, rfl, ⟨hc.1, hc.2.1, hc.2.2.1, by show d.length = _; rw [hd]; exact h9.symm⟩, fun x y c hx hy hcc => ?_⟩
  have e : (({ tex junk w h k f with data := d, origin := IL_ORIGIN_UPPER_LEFT } : Img)).px x y 0 c = d[(y * w + x) * k + c]? := by
    show d[((0 * (tex junk w h k f).height + y) * (tex junk w h k f).width + x) * ((tex junk w h k f).bpp * (tex junk w h k f).bpc) + c]? = _
    rw [h1, h4, h5, Nat.zero_mul, Nat.zero_add, Nat.mul_one]
  rw [e]
  refine ⟨hpx x y c hx hy hcc, ?_⟩
  rw [← hpx x y c hx hy hcc]
  have hlt : (y * w + x) * k + c < d.length := by
    rw [hd]
    have a1 : y * w + x + 1 ≤ w * h := by
      have : (y + 1) * w ≤ h * w := Nat.mul_le_mul_right w hy
      rw [Nat.add_mul, Nat.one_mul, Nat.mul_comm h w] at this
      omega
    have a2 : (y * w + x + 1) * k ≤ w * h * k := Nat.mul_le_mul_right k a1
    rw [Nat.add_mul, Nat.one_mul] at a2
    omega
  rw [List.getElem?_eq_getElem hlt]
  rfl

theorem pix_lt {w h k x y c : Nat} (hx : x < w) (hy : y < h) (hc : c < k) : (y * w + x) * k + c < w * h * k := by
  have a1 : y * w + x + 1 ≤ w * h := by
    have : (y + 1) * w ≤ h * w := Nat.mul_le_mul_right w hy
    rw [Nat.add_mul, Nat.one_mul, Nat.mul_comm h w] at this
    omega
  have a2 : (y * w + x + 1) * k ≤ w * h * k := Nat.mul_le_mul_right k a1
  rw [Nat.add_mul, Nat.one_mul] at a2
  omega

theorem at_get (all : List UInt8) (p n i : Nat) (h : i < n) : (at_ all p n)[i]? = all[p + i]? := by
  unfold at_
  rw [List.getElem?_take, if_pos h, List.getElem?_drop]

/-! ### The functions of the API -/

theorem loadF {ρ : Type} {v : Cache.S → C (Bool × ρ × Cache.S)} {bs : List UInt8} {P : Bool → ρ → Prop} {s : Cache.S}
    (hd : s.data = bs) (hp : s.pos = 0) (hl : bs.length < 2147483648)
    (h : ∀ t, FileAt t bs 0 → Holds (v t) (fun r => P r.1 r.2.1 ∧ ∃ q, FileAt r.2.2 bs q)) :
    ∃ ok r s', ilLoadF v s = .ok (ok, r, s') ∧ P ok r ∧ s'.data = bs ∧ s'.pos = 0 := by
  subst hd
  have h0 := input_at s hp hl
  have h1 : Cache.iTellRFile (Cache.iSetInputFile s s.data s.pos) = 0 := fileLaws.tell h0
  obtain ⟨r, e, hP, q, hq⟩ := h _ h0
  refine ⟨r.1, r.2.1, (Cache.iSeekRFile r.2.2 (Lump.toInt 0) SEEK_SET).2, ?_, hP, ?_⟩
  · unfold ilLoadF
    simp only [h1]
    rw [e, bind_ok]
    rfl
  · obtain ⟨hd, hst, -, -⟩ := hq
    have e : (Cache.iSeekRFile r.2.2 (Lump.toInt 0) SEEK_SET).2 = { r.2.2 with pos := 0 } := by
      rw [show Lump.toInt 0 = 0 from rfl, seek_set _ _ hst, if_neg (by omega)]
      rfl
    rw [e]
    exact ⟨hd, rfl⟩

theorem loadL {ρ : Type} {v : Lump.R → C (Bool × ρ × Lump.R)} {bs : List UInt8} {P : Bool → ρ → Prop}
    (h0 : 0 < bs.length) (hl : bs.length < 2147483648)
    (h : ∀ t, LumpAt t bs 0 → Holds (v t) (fun r => P r.1 r.2.1 ∧ ∃ q, LumpAt r.2.2 bs q)) :
    ∃ ok r, ilLoadL v bs bs.length = .ok (ok, r) ∧ P ok r := by
  obtain ⟨r, e, hP, -⟩ := h _ (lump_at bs hl h0)
  refine ⟨r.1, r.2.1, ?_, hP⟩
  unfold ilLoadL
  rw [e, bind_ok]
  rfl

/-! ### FTX -/

theorem fle_lt (L : Laws o At) (junk : Nat → UInt8) {all : List UInt8} {fs : List Fld} {s : σ} {p : Nat} (h : At s all p) (hok : ∀ f ∈ fs, f.Ok) :
    Holds (head o junk fs s) (fun r => (∃ q, At r.2 all q) ∧ (p + start fs fs.length ≤ all.length → At r.2 all (p + start fs fs.length)) ∧
      (∀ i f, fs[i]? = some f → p + start fs i + f.width ≤ all.length → fld r.1 i = f.bytes all (p + start fs i)) ∧
      ∀ i f, fs[i]? = some f → fle r.1 i < 256 ^ f.width) := by
  obtain ⟨r, e, h1, h2, h3⟩ := head_spec L junk all fs s p h hok
  obtain ⟨r', e', h4, h5⟩ := head_width L junk all fs s p h hok
  have : r' = r := by
    have := e'.symm.trans e
    cases this; rfl
  subst this
  exact ⟨r', e, h1, h2, h3, fun i f hi => Nat.lt_of_lt_of_le (le_lt _) (Nat.pow_le_pow_right (by decide) (h5 i f hi))⟩

theorem ftx_spec (L : Laws2 o At) (junk : Nat → UInt8) {s : σ} {bs : List UInt8} (hs : At s bs 0) :
    Holds (iLoadFtxInternal o junk s) (fun r => Ftx bs r.1 r.2.1 ∧ ∃ q, At r.2.2 bs q) := by
  unfold iLoadFtxInternal Ftx
  refine (fle_lt L.toLaws junk hs (fs := [u32f, u32f, u32f]) (by decide)).bind (fun r hr => ?_)
  obtain ⟨⟨q, hq⟩, hpos, hf, -⟩ := hr
  obtain ⟨h, t⟩ := r
  simp only at hq hpos hf ⊢
  -- any file
  have any : Holds (into o t (tex junk (fle h 0) (fle h 1) 4 IL_RGBA).data 1 (tex junk (fle h 0) (fle h 1) 4 IL_RGBA).size)
      (fun r => r.2.1.length = (tex junk (fle h 0) (fle h 1) 4 IL_RGBA).size ∧ (∃ q, At r.2.2 bs q)) := by
    refine (into_len L _ _ _ hq (by rw [Nat.one_mul]; exact tex_lt _ _ _ _ _) (by rw [Nat.one_mul, tex_len])).mono (fun r hr => ?_)
    rw [tex_len] at hr
    exact hr
  by_cases hc : 12 ≤ bs.length ∧ 0 < leAt bs 0 4 ∧ 0 < leAt bs 4 4 ∧ leAt bs 0 4 * leAt bs 4 4 * 4 < 2 ^ 32
  · obtain ⟨h12, hw, hh, hfit⟩ := hc
    have e0 : fle h 0 = leAt bs 0 4 := by
      have := hf 0 u32f rfl (by show 0 + 0 + 4 ≤ _; omega)
      show le (fld h 0) = _
      rw [this]; rfl
    have e1 : fle h 1 = leAt bs 4 4 := by
      have := hf 1 u32f rfl (by show 0 + 4 + 4 ≤ _; omega)
      show le (fld h 1) = _
      rw [this]; rfl
    have hat : At t bs 12 := hpos (by show 0 + 12 ≤ _; omega)
    rw [e0, e1] at any ⊢
    generalize leAt bs 0 4 = w at *
    generalize leAt bs 4 4 = h' at *
    obtain ⟨h1, h2, h3, h4, h5, h6, h7, h8, h9⟩ := tex_fields junk w h' 4 IL_RGBA hw hh (by decide) hfit
    have sp := into_spec L (tex junk w h' 4 IL_RGBA).data 1 (tex junk w h' 4 IL_RGBA).size hat (by decide)
      (by rw [Nat.one_mul]; exact tex_lt _ _ _ _ _) (by rw [Nat.one_mul, tex_len])
    obtain ⟨r, e, hr1, hr2, hr3⟩ := sp
    obtain ⟨r', e', hl, -⟩ := any
    have : r' = r := by
      have := e'.symm.trans e
      cases this; rfl
    subst this
    refine Holds.bind (P := fun r'' => r'' = r') ⟨r', e, rfl⟩ (fun r'' hr'' => ?_)
    subst hr''
    rw [Nat.one_mul, Nat.div_one, at_length, h9] at hr1
    rw [Nat.one_mul] at hr2 hr3
    have key : r''.1 = w * h' * 4 ↔ 12 + w * h' * 4 ≤ bs.length := by omega
    show Holds (if r''.1 ≠ (tex junk w h' 4 IL_RGBA).size then _ else _) _
    refine Holds.ite (fun hn => ?_) (fun hn => ?_)
    · refine Holds.pure ⟨⟨hl, fun _ _ _ _ => ⟨⟨fun h => (by simp at h), fun h => absurd ((key.mpr h).trans h9.symm) hn⟩, fun h => (by simp at h)⟩⟩, _, hr3⟩
    · have hle : 12 + w * h' * 4 ≤ bs.length := key.mp (by omega)
      refine Holds.pure ⟨⟨hl, fun _ _ _ _ => ⟨⟨fun _ => hle, fun _ => rfl⟩, fun _ => ⟨?_, rfl⟩⟩⟩, _, hr3⟩
      refine shows_tex junk w h' 4 IL_RGBA hw hh (by decide) hfit r''.2.1 (by rw [hl, h9]) _ (fun x y c hx hy hcc => ?_)
      have hlt := pix_lt hx hy hcc
      rw [hr2, h9, List.getElem?_append_left (by rw [at_length]; omega), at_get _ _ _ _ hlt]
      congr 1
      omega
  · refine any.bind (fun r hr => ?_)
    show Holds (if r.1 ≠ _ then _ else _) _
    refine Holds.ite (fun _ => ?_) (fun _ => ?_)
    all_goals exact Holds.pure ⟨⟨hr.1, fun a b c d => absurd ⟨a, b, c, d⟩ hc⟩, hr.2⟩

end DevIL.Games
