import Verif.Lemmas.Psd
set_option autoImplicit false
namespace DevIL.Psd
open DevIL.Games DevIL.Detect DevIL.Image DevIL.DetectSpec DevIL.DpxSpec DevIL.PsdSpec DevIL.Dpx
open DevIL.Lump (SEEK_CUR)

variable {σ : Type} {o : Ops σ} {At : σ → List UInt8 → Nat → Prop}

/-! ### Numbers -/

theorem le_leBytes (n v : Nat) (h : v < 256 ^ n) : le (leBytes n v) = v := by
  induction n generalizing v with
  | zero => simp [leBytes, le] at *; omega
  | succ n ih =>
    have h' : v / 256 < 256 ^ n := by
      rw [Nat.pow_succ] at h
      exact Nat.div_lt_of_lt_mul (by omega)
    simp only [leBytes, le, ih _ h']
    rw [UInt8.toNat_ofNat']
    omega

@[simp] theorem num_length (n v : Nat) : (num n v).length = n := by simp [num]

theorem be_num (n v : Nat) (h : v < 256 ^ n) : be (num n v) = v := by
  unfold be num
  rw [List.reverse_reverse, le_leBytes n v h]

theorem next_num {bs : List UInt8} {p n v : Nat} (h : Next bs p (num n v)) (hv : v < 256 ^ n) : beAt bs p n = v := by
  unfold beAt
  have : at_ bs p (num n v).length = num n v := h
  rw [num_length] at this
  rw [this, be_num n v hv]

theorem Next.le {bs : List UInt8} {p : Nat} {g : List UInt8} (h : Next bs p g) (h0 : 0 < g.length) : p + g.length ≤ bs.length := by
  rcases h.fit with h | h
  · exact h
  · rw [h] at h0; cases h0

/-! ### Resources -/

theorem same_next {d : List UInt8} {cs : List UInt8} {i : Nat} (h : Next d i cs) : same d cs i = .ok true := by
  induction cs generalizing i with
  | nil => rfl
  | cons c cs ih =>
    obtain ⟨hl, e⟩ := List.getElem?_eq_some_iff.mp h.head
    unfold same
    rw [rd_of_lt hl, bind_ok, if_pos e]
    exact ih h.tail

theorem sub32_of {a b : Nat} (ha : a < 4294967296) (h : b ≤ a) : sub32 a b = a - b := by
  unfold sub32 u32
  have : a + 4294967296 - b = (a - b) + 4294967296 := by omega
  rw [this, Nat.add_mod_right, Nat.mod_eq_of_lt (by omega)]

theorem res_length (r : Resource) : r.bytes.length = 11 + (r.name.length + (r.name.length + 1) % 2) + (r.data.length + r.data.length % 2) := by
  simp only [Resource.bytes, List.length_append, List.length_cons, List.length_nil, List.length_replicate, num_length]
  omega

theorem resStep_ok {d : List UInt8} {t : Res} (r : Resource) (rest : List UInt8) (hr : r.Ok) (hn : Next d t.off (r.bytes ++ rest)) (hfit : t.off + (r.bytes ++ rest).length ≤ d.length)
    (hs : t.size = (r.bytes ++ rest).length) (hlt : t.size < 4294967296) :
    resStep d t = .ok ⟨t.off + r.bytes.length, rest.length, none⟩ := by
  have hb := hn.left
  have hlen := res_length r
  unfold Resource.bytes at hb
  obtain ⟨hid, hname, hdata⟩ := hr
  have p5 := hb.right
  have hb4 := hb.left
  have p4 := hb4.right
  have hb3 := hb4.left
  have p3 := hb3.right
  have hb2 := hb3.left
  have p2 := hb2.right
  have p1 := hb2.left
  simp only [List.length_append, List.length_cons, List.length_nil, List.length_replicate, num_length] at p2 p3 p4 p5 hs hfit
  unfold resStep
  rw [same_next p1, bind_ok]
  simp only [Bool.not_true, Bool.false_eq_true, if_false]
  have e2 : rdN d (t.off + 4) 2 = .ok (num 2 r.id) := by
    rw [rdN_ok (by omega)]
    have : at_ d (t.off + (0 + 1 + 1 + 1 + 1)) (num 2 r.id).length = num 2 r.id := p2
    rw [num_length] at this
    exact congrArg _ this
  rw [e2, bind_ok]
  obtain ⟨hl6, e6⟩ := List.getElem?_eq_some_iff.mp p3.head
  have hl6' : t.off + 6 < d.length := by omega
  have e6' : rd d (t.off + 6) = .ok (UInt8.ofNat r.name.length) := by
    rw [rd_of_lt hl6']
    exact congrArg _ e6
  rw [e6', bind_ok]
  have hnn : (UInt8.ofNat r.name.length).toNat = r.name.length := by rw [UInt8.toNat_ofNat']; omega
  simp only [hnn]
  have hpad : (if r.name.length % 2 = 1 then r.name.length else r.name.length + 1) = r.name.length + (r.name.length + 1) % 2 := by split <;> omega
  rw [hpad]
  generalize hnm : r.name.length + (r.name.length + 1) % 2 = nm at *
  have e4 : rdN d (t.off + 7 + nm) 4 = .ok (num 4 r.data.length) := by
    rw [rdN_ok (by omega)]
    have : at_ d (t.off + (0 + 1 + 1 + 1 + 1 + 2 + (nm + 1))) (num 4 r.data.length).length = num 4 r.data.length := p4
    rw [num_length] at this
    rw [show t.off + 7 + nm = t.off + (0 + 1 + 1 + 1 + 1 + 2 + (nm + 1)) by omega]
    exact congrArg _ this
  rw [e4, bind_ok]
  simp only [be_num 4 r.data.length (by omega)]
  have hleft : sub32 t.size (11 + nm) = r.data.length + r.data.length % 2 + rest.length := by rw [sub32_of hlt (by omega)]; omega
  rw [hleft]
  have hev : (if r.data.length % 2 = 1 then u32 (r.data.length + 1) else r.data.length) = r.data.length + r.data.length % 2 := by
    split
    · rw [u32_of_lt (by omega)]; omega
    · omega
  rw [if_neg (by omega), hev]
  have hgo : (if be (num 2 r.id) = 0x040F then rdN d (t.off + 7 + nm + 4) r.data.length else pure []) =
      .ok (if be (num 2 r.id) = 0x040F then at_ d (t.off + 7 + nm + 4) r.data.length else []) := by
    split
    · rw [rdN_ok (by omega)]
    · rfl
  rw [hgo, bind_ok, sub32_of (by omega) (by omega)]
  show Except.ok _ = Except.ok _
  congr 2 <;> omega

theorem resources_ok (rs : List Resource) (hrs : ∀ r ∈ rs, r.Ok) (hlt : (rs.flatMap Resource.bytes).length < 4294967296) :
    ParseResources (rs.flatMap Resource.bytes) (rs.flatMap Resource.bytes).length = .ok true := by
  have key := Holds.while (c := fun t : Res => t.done.isNone && decide (t.size > 13)) (f := resStep (rs.flatMap Resource.bytes))
    (fun t => t.done = none ∧ ∃ qs : List Resource, (∀ r ∈ qs, r.Ok) ∧ Next (rs.flatMap Resource.bytes) t.off (qs.flatMap Resource.bytes) ∧
      t.off + (qs.flatMap Resource.bytes).length ≤ (rs.flatMap Resource.bytes).length ∧ t.size = (qs.flatMap Resource.bytes).length)
    (fun t => t.size) (fun t ht hc => ?_) ((rs.flatMap Resource.bytes).length + 1) ⟨0, (rs.flatMap Resource.bytes).length, none⟩
    ⟨rfl, rs, hrs, next_drop (r := []) (by simp), Nat.le_of_eq (Nat.zero_add _), rfl⟩ (by show (rs.flatMap Resource.bytes).length < _; omega)
  · obtain ⟨t, e, ⟨hd, -⟩, -⟩ := key
    unfold ParseResources
    rw [e, bind_ok, hd]
    rfl
  · obtain ⟨hd, qs, hok, hn, hfit, hsz⟩ := ht
    have h13 : 13 < t.size := by simp [hd] at hc; exact hc
    cases qs with
    | nil => rw [hsz] at h13; simp at h13
    | cons r qs =>
      rw [List.flatMap_cons] at hn hfit hsz
      have := resStep_ok r _ (hok r List.mem_cons_self) hn hfit hsz (by omega)
      rw [this]
      refine Holds.ok ⟨⟨rfl, qs, fun r h => hok r (List.mem_cons_of_mem _ h), hn.right, ?_, rfl⟩, ?_⟩
      · show t.off + r.bytes.length + _ ≤ _
        rw [List.length_append] at hfit; omega
      · show (qs.flatMap Resource.bytes).length < t.size
        rw [hsz, List.length_append, res_length]; omega

/-! ### Sections -/

theorem u32f_at (L : Laws2 o At) (junk : Nat → UInt8) {s : σ} {bs : List UInt8} {p v : Nat} (h : At s bs p) (hn : Next bs p (num 4 v)) (hv : v < 4294967296) :
    Holds (head o junk [u32f] s) (fun r => fbe r.1 0 = v ∧ At r.2 bs (p + 4)) := by
  have hfit : p + 4 ≤ bs.length := by have := Next.le hn (by simp); simpa using this
  refine (head_spec L.toLaws junk bs [u32f] s p h (by decide)).mono (fun r hr => ⟨?_, hr.2.1 hfit⟩)
  have := hr.2.2 0 u32f rfl hfit
  show be (fld r.1 0) = v
  rw [this]
  exact next_num hn hv

theorem u16_at (L : Laws2 o At) (junk : Nat → UInt8) {s : σ} {bs : List UInt8} {p v : Nat} (h : At s bs p) (hn : Next bs p (num 2 v)) (hv : v < 65536) :
    Holds (head o junk [u16] s) (fun r => fbe r.1 0 = v ∧ At r.2 bs (p + 2)) := by
  have hfit : p + 2 ≤ bs.length := by have := Next.le hn (by simp); simpa using this
  refine (head_spec L.toLaws junk bs [u16] s p h (by decide)).mono (fun r hr => ⟨?_, hr.2.1 hfit⟩)
  have := hr.2.2 0 u16 rfl hfit
  show be (fld r.1 0) = v
  rw [this]
  exact next_num hn hv

theorem section_length (g : List UInt8) : (section_ g).length = 4 + g.length := by simp [section_]

theorem skip_ok (L : Laws2 o At) (junk : Nat → UInt8) {s : σ} {bs g : List UInt8} {p : Nat} (h : At s bs p) (hn : Next bs p (section_ g)) :
    Holds (skipSection o junk s) (fun t => At t bs (p + (section_ g).length)) := by
  have hfit := Next.le hn (by rw [section_length]; omega)
  rw [section_length] at hfit ⊢
  have hl := L.len h
  refine (u32f_at L junk h hn.left (by omega)).bind (fun r hr => ?_)
  simp only [hr.1]
  have : Lump.toInt g.length = g.length := by unfold Lump.toInt; rw [if_pos (by omega)]
  refine (L.seekCur (Lump.toInt g.length) hr.2).bind (fun t ht => Holds.pure ?_)
  exact ht.2 _ (by rw [this]; omega) hfit

theorem section_ok (L : Laws2 o At) (junk : Nat → UInt8) {s : σ} {bs g : List UInt8} {p : Nat} (h : At s bs p) (hn : Next bs p (section_ g)) :
    Holds (readSection o junk s) (fun t => t.1 = some g ∧ At t.2 bs (p + (section_ g).length)) := by
  have hfit := Next.le hn (by rw [section_length]; omega)
  rw [section_length] at hfit ⊢
  have hl := L.len h
  refine (u32f_at L junk h hn.left (by omega)).bind (fun r hr => ?_)
  simp only [hr.1]
  refine (into_full L (alloc junk g.length) 1 g.length hr.2 (by decide) (by omega) (by rw [alloc_length]; omega) (by omega)).bind (fun t ht => ?_)
  obtain ⟨h1, h2, h3⟩ := ht
  have hg : at_ bs (p + 4) g.length = g := by have := hn.right; rw [num_length] at this; exact this
  refine Holds.ite (fun hc => absurd h1 hc) (fun _ => Holds.pure ⟨?_, ?_⟩)
  · show some t.2.1 = some g
    rw [h2, Nat.one_mul, hg]
  · rw [Nat.one_mul, Nat.add_assoc] at h3
    exact h3

theorem compression_ok (L : Laws2 o At) (junk : Nat → UInt8) {s : σ} {bs : List UInt8} {p c : Nat} (h : At s bs p) (hn : Next bs p (num 2 c)) (hc : c < 256) :
    Holds (compression o junk s) (fun t => t.1 = decide (c ≠ 0) ∧ At t.2 bs (p + 2)) := by
  refine (u16_at L junk h hn (by omega)).bind (fun r hr => Holds.pure ⟨?_, hr.2⟩)
  show decide (fbe r.1 0 % 256 ≠ 0) = _
  rw [hr.1, Nat.mod_eq_of_lt hc]

/-! ### The header -/

theorem head_ok (L : Laws2 o At) (junk : Nat → UInt8) {s : σ} {bs : List UInt8} (d : Doc) (hd : d.Ok) (h : At s bs 0) (hn : Next bs 0 d.head)
    (hdepth : d.depth = 8 ∨ d.depth = 16) (hm : d.mode < 65536) :
    Holds (head o junk [arr 4, u16, arr 6, u16, u32f, u32f, u16, u16] s) (fun r => iCheckPsd r.1 = true ∧ fbe r.1 3 = d.channels ∧ fbe r.1 4 = d.height ∧
      fbe r.1 5 = d.width ∧ fbe r.1 6 = d.depth ∧ fbe r.1 7 = d.mode ∧ At r.2 bs 26) := by
  have hfit : 26 ≤ bs.length := by
    have := Next.le hn (by simp [Doc.head])
    simpa [Doc.head] using this
  obtain ⟨h1, h2, h3, h4⟩ := hd
  unfold Doc.head at hn
  have p8 := hn.right; have q7 := hn.left
  have p7 := q7.right; have q6 := q7.left
  have p6 := q6.right; have q5 := q6.left
  have p5 := q5.right; have q4 := q5.left
  have p4 := q4.right; have q3 := q4.left
  have p3 := q3.right; have q2 := q3.left
  have p2 := q2.right; have p1 := q2.left
  simp only [List.length_append, List.length_cons, List.length_nil, List.length_replicate, num_length] at p2 p3 p4 p5 p6 p7 p8
  refine (head_spec L.toLaws junk bs [arr 4, u16, arr 6, u16, u32f, u32f, u16, u16] s 0 h (by decide)).mono (fun r hr => ?_)
  obtain ⟨-, hp, hf⟩ := hr
  have f0 : fld r.1 0 = [0x38, 0x42, 0x50, 0x53] := (hf 0 (arr 4) rfl (by show 0 + 0 + 4 ≤ _; omega)).trans p1
  have f1 : fbe r.1 1 = 1 := (congrArg be (hf 1 u16 rfl (by show 0 + 4 + 2 ≤ _; omega))).trans (next_num p2 (by decide))
  have f2 : fld r.1 2 = List.replicate 6 0 := (hf 2 (arr 6) rfl (by show 0 + 6 + 6 ≤ _; omega)).trans p3
  have f3 : fbe r.1 3 = d.channels := (congrArg be (hf 3 u16 rfl (by show 0 + 12 + 2 ≤ _; omega))).trans (next_num p4 (by omega))
  have f4 : fbe r.1 4 = d.height := (congrArg be (hf 4 u32f rfl (by show 0 + 14 + 4 ≤ _; omega))).trans (next_num p5 (by omega))
  have f5 : fbe r.1 5 = d.width := (congrArg be (hf 5 u32f rfl (by show 0 + 18 + 4 ≤ _; omega))).trans (next_num p6 (by omega))
  have f6 : fbe r.1 6 = d.depth := (congrArg be (hf 6 u16 rfl (by show 0 + 22 + 2 ≤ _; omega))).trans (next_num p7 (by omega))
  have f7 : fbe r.1 7 = d.mode := (congrArg be (hf 7 u16 rfl (by show 0 + 24 + 2 ≤ _; omega))).trans (next_num p8 (by omega))
  refine ⟨?_, f3, f4, f5, f6, f7, hp (by show 0 + 26 ≤ _; omega)⟩
  unfold iCheckPsd
  rw [f0, f1, f2, f3, f4, f5, f6]
  have a1 : ¬ (d.channels < 1) := by omega
  have a2 : ¬ (d.channels > 24) := by omega
  have a3 : ¬ (d.height < 1) := by omega
  have a4 : ¬ (d.width < 1) := by omega
  rcases hdepth with e | e <;> rw [e] <;> simp [a1, a2, a3, a4]

end DevIL.Psd
