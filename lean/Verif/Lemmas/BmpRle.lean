import Verif.Lemmas.BmpRead
import Verif.Spec.BmpRle
/-! What the rounds of the decoders of run-length encoded bitmaps do. -/
set_option autoImplicit false
namespace DevIL.Bmp
open DevIL.Lump DevIL.Endian DevIL.Image DevIL.Utility DevIL.Load
open DevIL.Targa (Loaded)
open DevIL.Pcx (readByte)

/-! ### One round -/

/-- The decoder's locals for a place. -/
structure Rel (w h : Nat) (c : Cur) (s : L) : Prop where
  off : s.off = c.y * w + c.x
  eol : s.eol = (c.y + 1) * w
  len : s.data.length = h * w
  x : c.x ≤ w
  pic : ∀ x y v, x < w → y < h → c.pic x y = some v → s.data[y * w + x]? = some v
  ok : s.failed = false

theorem splice_get {d o : List UInt8} {q : Nat} (h : q + o.length ≤ d.length) (i : Nat) :
    (splice d q o)[i]? = if q ≤ i ∧ i < q + o.length then o[i - q]? else d[i]? := by
  unfold splice
  have ht : (d.take q).length = q := by rw [List.length_take]; omega
  by_cases h1 : i < q
  · rw [List.getElem?_append_left (by omega), List.getElem?_take, if_pos h1, if_neg (by omega)]
  · rw [List.getElem?_append_right (by omega), ht]
    by_cases h2 : i < q + o.length
    · rw [List.getElem?_append_left (by omega), if_pos (by omega)]
    · rw [List.getElem?_append_right (by omega), List.getElem?_drop, if_neg (by omega)]
      congr 1
      omega

theorem Rel.put {w h : Nat} {c : Cur} {s : L} (r : Rel w h c s) {vs : List UInt8} {inp : R} (hy : c.y < h) (hx : c.x + vs.length ≤ w) :
    Rel w h (c.put vs) { s with off := s.off + vs.length, data := splice s.data s.off vs, inp := inp } := by
  have hle : c.y * w + w ≤ h * w := by rw [← Nat.succ_mul]; exact Nat.mul_le_mul_right _ hy
  have hfit : s.off + vs.length ≤ s.data.length := by rw [r.off, r.len]; omega
  refine ⟨?_, r.eol, by rw [splice_length hfit]; exact r.len, hx, ?_, r.ok⟩
  · show s.off + vs.length = c.y * w + (c.x + vs.length)
    rw [r.off]; omega
  · intro x y v hxw hyh hp
    show (splice s.data s.off vs)[y * w + x]? = some v
    rw [splice_get hfit]
    have hp' : (if y = c.y ∧ c.x ≤ x ∧ x < c.x + vs.length then vs[x - c.x]? else c.pic x y) = some v := hp
    by_cases hin : y = c.y ∧ c.x ≤ x ∧ x < c.x + vs.length
    · rw [if_pos hin] at hp'
      obtain ⟨e, h1, h2⟩ := hin
      subst e
      rw [if_pos (by rw [r.off]; omega), r.off, ← hp']
      congr 1
      omega
    · rw [if_neg hin] at hp'
      rw [if_neg, r.pic x y v hxw hyh hp']
      rintro ⟨h1, h2⟩
      rw [r.off] at h1 h2
      apply hin
      have hyy : y = c.y := by
        have e1 : (y * w + x) / w = y := idx_div hxw
        have e2 : (y * w + x) / w = c.y := by
          have : y * w + x = c.y * w + (y * w + x - c.y * w) := by omega
          rw [this]
          exact idx_div (by omega)
        omega
      subst hyy
      omega

theorem At.read2 {l : R} {a b : UInt8} {rest : List UInt8} (h : At l (a :: b :: rest)) : read2 l = .ok (some (a, b), adv l 2) := by
  unfold Bmp.read2
  rw [At.read (bs := [a, b]) h rfl (by decide), bind_ok]
  rfl

theorem At.readByte {l : R} {a : UInt8} {rest : List UInt8} (h : At l (a :: rest)) : readByte l = .ok (some a, adv l 1) := by
  unfold Pcx.readByte
  rw [At.read (bs := [a]) h rfl (by decide), bind_ok]
  rfl

/-- Padding. -/
theorem padByte_spec {l : R} {odd : Bool} {k : Nat} {fill : UInt8} {rest : List UInt8} (hk : k = if odd then 1 else 0) (h : At l (List.replicate k fill ++ rest))
    {s : L} (hs : s.inp = l) (hf : s.failed = false) : padByte odd s = .ok { s with inp := adv l k } := by
  unfold padByte
  cases odd with
  | false =>
    rw [if_neg (by decide)] at hk
    subst hk
    rw [if_neg (by decide), pure_eq_ok, adv_zero, ← hs]
  | true =>
    rw [if_pos rfl] at hk
    subst hk
    rw [if_pos rfl, hs, At.readByte (a := fill) (rest := rest) h, bind_ok]
    rfl

theorem escape_spec {w h : Nat} {c : Cur} {s : L} (r : Rel w h c s) (hlt : h * w < 4294967296) {rest : List UInt8} {dx dy : UInt8}
    (ha : At s.inp ([dx, dy] ++ rest)) (hf : c.y + dy.toNat < h ∧ c.x + dx.toNat ≤ w) :
    ∃ s', escape w (h * w) 2 s = .ok s' ∧ Rel w h (Code.exec true c (.delta dx dy)) s' ∧ s'.inp = adv s.inp 2 := by
  have hle : (c.y + dy.toNat) * w + w ≤ h * w := by rw [← Nat.succ_mul]; exact Nat.mul_le_mul_right _ hf.1
  rw [Nat.add_mul] at hle
  unfold escape
  rw [if_neg (by decide), if_neg (by decide), At.read2 ha, bind_ok]
  dsimp only
  rw [u32_of_lt (show dy.toNat * w < 4294967296 by omega), u32_of_lt (by omega)]
  refine ⟨_, rfl, ⟨?_, ?_, r.len, hf.2, r.pic, r.ok⟩, rfl⟩
  · show s.off + (dx.toNat + dy.toNat * w) = (c.y + dy.toNat) * w + (c.x + dx.toNat)
    rw [r.off, Nat.add_mul]; omega
  · show s.eol + dy.toNat * w = (c.y + dy.toNat + 1) * w
    rw [r.eol]; grind

theorem u8_ofNat {n : Nat} (h : n ≤ 255) : (UInt8.ofNat n).toNat = n := by
  simp only [UInt8.toNat_ofNat']
  omega

theorem step8_spec {w h : Nat} {c : Cur} {s : L} (r : Rel w h c s) (hlt : h * w < 4294967296) {code : Code} {rest : List UInt8}
    (ha : At s.inp (code.bytes false ++ rest)) (hok : code.Ok false) (hf : code.Fits false w h c) :
    ∃ s', step8 w (h * w) s = .ok s' ∧ Rel w h (code.exec false c) s' ∧ At s'.inp rest := by
  have hadv := At.adv ha
  unfold step8
  cases code with
  | run n v =>
    have hle : c.y * w + w ≤ h * w := by rw [← Nat.succ_mul]; exact Nat.mul_le_mul_right _ hf.1
    have hfit := hf.2
    rw [At.read2 (a := UInt8.ofNat n) (b := v) (rest := rest) ha, bind_ok]
    dsimp only
    have hn0 : UInt8.ofNat n ≠ 0 := by
      intro e
      have := congrArg UInt8.toNat e
      rw [u8_ofNat hok.2] at this
      have h0 : (0 : UInt8).toNat = 0 := rfl
      have := hok.1
      omega
    have hoff := r.off
    have hlen := r.len
    rw [if_neg hn0, u8_ofNat hok.2, Nat.min_eq_left (by omega), fill_splice (by omega), bind_ok]
    have hp : (Code.run n v).pixels false = List.replicate n v := by
      show (List.range n).map (fun _ => v) = _
      rw [List.map_const', List.length_range]
    refine ⟨_, rfl, ?_, hadv⟩
    have := r.put (vs := (Code.run n v).pixels false) (inp := adv s.inp 2) hf.1 (by rw [hp, List.length_replicate]; exact hfit)
    rw [hp, List.length_replicate] at this
    show Rel w h (c.put ((Code.run n v).pixels false)) _
    rw [hp]
    exact this
  | lit vs fill =>
    have hle : c.y * w + w ≤ h * w := by rw [← Nat.succ_mul]; exact Nat.mul_le_mul_right _ hf.1
    have hfit := hf.2
    have hoff := r.off
    have hlen := r.len
    have hvl : (UInt8.ofNat vs.length).toNat = vs.length := u8_ofNat hok.2.1
    have h3 := hok.1
    have ha' : At s.inp (0 :: UInt8.ofNat vs.length :: (litBytes false vs fill ++ rest)) := ha
    have ha2 : At (adv s.inp 2) (vs ++ (List.replicate (vs.length % 2) fill ++ rest)) := by
      have := At.adv (bs := [0, UInt8.ofNat vs.length]) (rest := litBytes false vs fill ++ rest) ha'
      have e : litBytes false vs fill ++ rest = vs ++ (List.replicate (vs.length % 2) fill ++ rest) := by
        show (vs ++ List.replicate (vs.length % 2) fill) ++ rest = _
        rw [List.append_assoc]
      rw [e] at this
      exact this
    rw [At.read2 ha', bind_ok]
    dsimp only
    rw [if_pos rfl, hvl, if_neg (by omega), Nat.min_eq_left (by omega), At.readAt ha2 (by omega) (by omega) (by omega), bind_ok]
    dsimp only
    rw [if_neg (by decide)]
    rw [padByte_spec (odd := decide (vs.length % 2 = 1)) (s := { s with off := s.off + vs.length, data := s.data.take s.off ++ (vs ++ s.data.drop (s.off + vs.length)), inp := adv (adv s.inp 2) vs.length })
      (l := adv (adv s.inp 2) vs.length) (k := vs.length % 2) (fill := fill) (rest := rest) (by
      by_cases e : vs.length % 2 = 1
      · rw [decide_eq_true e, if_pos rfl, e]
      · rw [decide_eq_false e, if_neg (by decide)]; omega) (At.adv ha2) rfl r.ok]
    refine ⟨_, rfl, ?_, ?_⟩
    · exact r.put (vs := vs) (inp := adv (adv (adv s.inp 2) vs.length) (vs.length % 2)) hf.1 hfit
    · have := At.adv (At.adv ha2)
      rw [List.length_replicate] at this
      exact this
  | eol =>
    rw [At.read2 (a := 0) (b := 0) (rest := rest) ha, bind_ok]
    refine ⟨_, rfl, ⟨?_, ?_, r.len, Nat.zero_le _, r.pic, r.ok⟩, hadv⟩
    · show s.eol = (c.y + 1) * w + 0
      exact r.eol
    · show s.eol + w = (c.y + 1 + 1) * w
      rw [r.eol, ← Nat.succ_mul]
  | delta dx dy =>
    have ha' : At s.inp (0 :: 2 :: ([dx, dy] ++ rest)) := ha
    rw [At.read2 ha', bind_ok]
    dsimp only
    rw [if_pos rfl, if_pos (by decide)]
    have r2 : Rel w h c { s with inp := adv s.inp 2 } := ⟨r.off, r.eol, r.len, r.x, r.pic, r.ok⟩
    have ha2 : At (adv s.inp 2) ([dx, dy] ++ rest) := At.adv (bs := [0, 2]) ha'
    obtain ⟨s', e, h1, h2⟩ := escape_spec r2 hlt ha2 hf
    refine ⟨s', e, h1, ?_⟩
    rw [h2]
    exact At.adv ha2

/-! ### Four bits -/

theorem pack_length (vs : List UInt8) : (pack vs).length = (vs.length + 1) / 2 := by
  induction vs using pack.induct with
  | case1 => rfl
  | case2 a => simp [pack]
  | case3 a b t ih =>
    show (pack t).length + 1 = (t.length + 1 + 1 + 1) / 2
    omega

theorem pack_get (vs : List UInt8) (h16 : ∀ v ∈ vs, v.toNat < 16) : ∀ i v, vs[i]? = some v →
    ∃ b, (pack vs)[i / 2]? = some b ∧ UInt8.ofNat (if i % 2 = 0 then b.toNat / 16 else b.toNat % 16) = v := by
  induction vs using pack.induct with
  | case1 => intro i v h; simp at h
  | case2 a =>
    intro i v h
    have ha := h16 a (by simp)
    have hi : i = 0 := by
      have := (List.getElem?_eq_some_iff.1 h).1
      simp at this; exact this
    subst hi
    have e : a = v := by simpa using h
    subst e
    refine ⟨_, rfl, ?_⟩
    rw [if_pos rfl, u8_ofNat (by omega)]
    rw [Nat.mul_div_cancel _ (by decide)]
    exact UInt8.ofNat_toNat
  | case3 a b t ih =>
    intro i v h
    have ha := h16 a (by simp)
    have hb := h16 b (by simp)
    match i, h with
    | 0, h =>
      have e : a = v := by simpa using h
      subst e
      refine ⟨_, rfl, ?_⟩
      rw [if_pos rfl, u8_ofNat (by omega), show (a.toNat * 16 + b.toNat) / 16 = a.toNat by omega]
      exact UInt8.ofNat_toNat
    | 1, h =>
      have e : b = v := by simpa using h
      subst e
      refine ⟨_, rfl, ?_⟩
      rw [if_neg (by decide), u8_ofNat (by omega), show (a.toNat * 16 + b.toNat) % 16 = b.toNat by omega]
      exact UInt8.ofNat_toNat
    | i + 2, h =>
      obtain ⟨x, h1, h2⟩ := ih (fun v hv => h16 v (by simp [hv])) i v (by simpa using h)
      refine ⟨x, ?_, ?_⟩
      · rw [show (i + 2) / 2 = i / 2 + 1 by omega]
        exact h1
      · rw [show (i + 2) % 2 = i % 2 by omega]
        exact h2

/-- Literal four-bit pixels. -/
theorem nibbles_spec {s : L} {vs rest : List UInt8} (h16 : ∀ v ∈ vs, v.toNat < 16) (ha : At s.inp (pack vs ++ rest)) (hf : s.failed = false)
    (hfit : s.off + vs.length ≤ s.data.length) :
    ∃ b, nibbles vs.length s = .ok ({ s with off := s.off + vs.length, data := splice s.data s.off vs, inp := adv s.inp (pack vs).length }, b) := by
  unfold nibbles
  have hpl := pack_length vs
  have key := loopN_inv (n := vs.length) (s := (s, (0 : UInt8)))
    (I := fun i (t : L × UInt8) => t.1 = { s with off := s.off + i, data := splice s.data s.off (vs.take i), inp := adv s.inp ((i + 1) / 2) } ∧
      (i % 2 = 1 → (pack vs)[i / 2]? = some t.2))
    (f := nibble) ?_ ?_
  · obtain ⟨t, h1, h2, _⟩ := key
    refine ⟨t.2, ?_⟩
    rw [List.take_length, ← hpl] at h2
    rw [h1, ← h2]
  · refine ⟨?_, by omega⟩
    rw [List.take_zero, splice_nil]
    show s = _
    rw [show (0 + 1) / 2 = 0 from rfl, adv_zero]
    rfl
  · rintro i ⟨t1, t2⟩ hi ⟨e1, e2⟩
    unfold nibble
    dsimp only at e1 e2 ⊢
    obtain ⟨b, hb1, hb2⟩ := pack_get vs h16 i _ (List.getElem?_eq_getElem hi)
    have hlt : i / 2 < (pack vs).length := (List.getElem?_eq_some_iff.1 hb1).1
    have hsl : (vs.take i).length = i := by rw [List.length_take]; omega
    have hread : (if i % 2 = 0 then readByte t1.inp else pure (some t2, t1.inp)) = (.ok (some b, adv s.inp ((i + 1 + 1) / 2)) : C _) := by
      by_cases hev : i % 2 = 0
      · rw [if_pos hev, e1]
        have hat : At (adv s.inp (i / 2)) (b :: ((pack vs).drop (i / 2 + 1) ++ rest)) := by
          have : At s.inp ((pack vs).take (i / 2) ++ (b :: ((pack vs).drop (i / 2 + 1) ++ rest))) := by
            rw [← List.cons_append, ← (List.getElem?_eq_some_iff.1 hb1).2, ← List.drop_eq_getElem_cons hlt, ← List.append_assoc, List.take_append_drop]
            exact ha
          have := At.adv this
          rw [List.length_take, Nat.min_eq_left (by omega)] at this
          exact this
        show readByte (adv s.inp ((i + 1) / 2)) = _
        rw [show (i + 1) / 2 = i / 2 by omega, At.readByte hat, adv_adv, show i / 2 + 1 = (i + 1 + 1) / 2 by omega]
      · rw [if_neg hev, e1, show (i + 1 + 1) / 2 = (i + 1) / 2 by omega]
        have := e2 (by omega)
        rw [hb1] at this
        rw [Option.some.inj this]
        rfl
    rw [if_neg (by rw [e1, hf]; decide), hread, bind_ok]
    dsimp only
    rw [hb2, e1]
    dsimp only
    rw [wr_splice (by rw [splice_length (by rw [hsl]; omega)]; omega), bind_ok, pure_eq_ok]
    refine ⟨_, rfl, ?_, ?_⟩
    · dsimp only
      have := splice_splice (d := s.data) (q := s.off) (o := vs.take i) (o' := [vs[i]]) (by omega)
      rw [hsl] at this
      rw [this, List.take_succ_eq_append_getElem hi]
      rfl
    · intro ho
      rw [show (i + 1) / 2 = i / 2 by omega]
      exact hb1

theorem step4_spec {w h : Nat} {c : Cur} {s : L} (r : Rel w h c s) (hlt : h * w < 4294967296) {code : Code} {rest : List UInt8}
    (ha : At s.inp (code.bytes true ++ rest)) (hok : code.Ok true) (hf : code.Fits true w h c) :
    ∃ s', step4 w (h * w) s = .ok s' ∧ Rel w h (code.exec true c) s' ∧ At s'.inp rest := by
  have hadv := At.adv ha
  unfold step4
  cases code with
  | run n v =>
    have hle : c.y * w + w ≤ h * w := by rw [← Nat.succ_mul]; exact Nat.mul_le_mul_right _ hf.1
    have hfit := hf.2
    rw [At.read2 (a := UInt8.ofNat n) (b := v) (rest := rest) ha, bind_ok]
    dsimp only
    have hn0 : UInt8.ofNat n ≠ 0 := by
      intro e
      have := congrArg UInt8.toNat e
      rw [u8_ofNat hok.2] at this
      have h0 : (0 : UInt8).toNat = 0 := rfl
      have := hok.1
      omega
    have hoff := r.off
    have hlen := r.len
    have hpl : ((Code.run n v).pixels true).length = n := by
      show ((List.range n).map _).length = n
      rw [List.length_map, List.length_range]
    rw [if_neg hn0, u8_ofNat hok.2, Nat.min_eq_left (by omega)]
    have key : loopN n (fun i d => wr d (s.off + i) (UInt8.ofNat (if i % 2 = 0 then v.toNat / 16 else v.toNat % 16))) s.data =
        .ok (splice s.data s.off ((Code.run n v).pixels true)) := by
      obtain ⟨t, e, ht⟩ := loopN_inv (n := n) (s := s.data)
        (f := fun i d => wr d (s.off + i) (UInt8.ofNat (if i % 2 = 0 then v.toNat / 16 else v.toNat % 16)))
        (fun k t => t = splice s.data s.off ((List.range k).map (nib v))) (by simp) (by
          rintro k t hk rfl
          have hkl : ((List.range k).map (nib v)).length = k := by simp
          refine ⟨_, wr_splice (by rw [splice_length (by rw [hkl]; omega)]; omega), ?_⟩
          have := splice_splice (d := s.data) (q := s.off) (o := (List.range k).map (nib v)) (o' := [nib v k]) (by omega)
          rw [hkl] at this
          rw [List.range_succ, List.map_append]
          exact this)
      rw [e, ht]
      rfl
    rw [key, bind_ok]
    refine ⟨_, rfl, ?_, hadv⟩
    have := r.put (vs := (Code.run n v).pixels true) (inp := adv s.inp 2) hf.1 (by rw [hpl]; exact hfit)
    rw [hpl] at this
    exact this
  | lit vs fill =>
    have hle : c.y * w + w ≤ h * w := by rw [← Nat.succ_mul]; exact Nat.mul_le_mul_right _ hf.1
    have hfit := hf.2
    have hoff := r.off
    have hlen := r.len
    have hvl : (UInt8.ofNat vs.length).toNat = vs.length := u8_ofNat hok.2.1
    have h3 := hok.1
    have ha' : At s.inp (0 :: UInt8.ofNat vs.length :: (litBytes true vs fill ++ rest)) := ha
    have ha2 : At (adv s.inp 2) (pack vs ++ (List.replicate ((pack vs).length % 2) fill ++ rest)) := by
      have := At.adv (bs := [0, UInt8.ofNat vs.length]) (rest := litBytes true vs fill ++ rest) ha'
      have e : litBytes true vs fill ++ rest = pack vs ++ (List.replicate ((pack vs).length % 2) fill ++ rest) := by
        show (pack vs ++ List.replicate ((pack vs).length % 2) fill) ++ rest = _
        rw [List.append_assoc]
      rw [e] at this
      exact this
    rw [At.read2 ha', bind_ok]
    dsimp only
    rw [if_pos rfl, hvl, if_neg (by omega), Nat.min_eq_left (by omega)]
    obtain ⟨b, hn⟩ := nibbles_spec (s := { s with inp := adv s.inp 2 }) (hok.2.2 rfl) ha2 r.ok (by show s.off + _ ≤ s.data.length; omega)
    rw [hn, bind_ok]
    dsimp only
    have hpl := pack_length vs
    rw [if_neg (by rw [r.ok]; decide), padByte_spec (odd := decide (vs.length % 4 = 1 ∨ vs.length % 4 = 2))
      (s := { s with off := s.off + vs.length, data := splice s.data s.off vs, inp := adv (adv s.inp 2) (pack vs).length })
      (l := adv (adv s.inp 2) (pack vs).length) (k := (pack vs).length % 2) (fill := fill) (rest := rest) (by
      by_cases e : vs.length % 4 = 1 ∨ vs.length % 4 = 2
      · rw [decide_eq_true e, if_pos rfl]; omega
      · rw [decide_eq_false e, if_neg (by decide)]; omega) (At.adv ha2) rfl r.ok]
    refine ⟨_, rfl, ?_, ?_⟩
    · exact r.put (vs := vs) (inp := adv (adv (adv s.inp 2) (pack vs).length) ((pack vs).length % 2)) hf.1 hfit
    · have := At.adv (At.adv ha2)
      rw [List.length_replicate] at this
      exact this
  | eol =>
    rw [At.read2 (a := 0) (b := 0) (rest := rest) ha, bind_ok]
    refine ⟨_, rfl, ⟨?_, ?_, r.len, Nat.zero_le _, r.pic, r.ok⟩, hadv⟩
    · show s.eol = (c.y + 1) * w + 0
      exact r.eol
    · show s.eol + w = (c.y + 1 + 1) * w
      rw [r.eol, ← Nat.succ_mul]
  | delta dx dy =>
    have ha' : At s.inp (0 :: 2 :: ([dx, dy] ++ rest)) := ha
    rw [At.read2 ha', bind_ok]
    dsimp only
    rw [if_pos rfl, if_pos (by decide)]
    have r2 : Rel w h c { s with inp := adv s.inp 2 } := ⟨r.off, r.eol, r.len, r.x, r.pic, r.ok⟩
    have ha2 : At (adv s.inp 2) ([dx, dy] ++ rest) := At.adv (bs := [0, 2]) ha'
    obtain ⟨s', e, h1, h2⟩ := escape_spec r2 hlt ha2 hf
    refine ⟨s', e, h1, ?_⟩
    rw [h2]
    exact At.adv ha2

/-! ### All codes -/

/-- What both decoders do with a code. -/
abbrev stepOf (four : Bool) : Nat → Nat → L → C L := if four then step4 else step8

theorem step_spec {four : Bool} {w h : Nat} {c : Cur} {s : L} (r : Rel w h c s) (hlt : h * w < 4294967296) {code : Code} {rest : List UInt8}
    (ha : At s.inp (code.bytes four ++ rest)) (hok : code.Ok four) (hf : code.Fits four w h c) :
    ∃ s', stepOf four w (h * w) s = .ok s' ∧ Rel w h (code.exec four c) s' ∧ At s'.inp rest := by
  cases four
  · exact step8_spec r hlt ha hok hf
  · exact step4_spec r hlt ha hok hf

/-- After the last pixel no code sets one. -/
theorem exec_over {four : Bool} {w h : Nat} (cs : List Code) : ∀ c : Cur, c.x ≤ w → h * w ≤ c.y * w + c.x → Fits four w h c cs →
    (cs.foldl (Code.exec four) c).pic = c.pic := by
  induction cs with
  | nil => intro c _ _ _; rfl
  | cons code cs ih =>
    intro c hx ho hf
    obtain ⟨hok, hfit, hrest⟩ := hf
    rw [List.foldl_cons]
    have nope : ∀ n, 1 ≤ n → c.y < h → c.x + n ≤ w → False := by
      intro n h1 hy hxn
      have hle : c.y * w + w ≤ h * w := by rw [← Nat.succ_mul]; exact Nat.mul_le_mul_right _ hy
      omega
    cases code with
    | run n v => exact (nope n hok.1 hfit.1 hfit.2).elim
    | lit vs f => exact (nope vs.length (by have := hok.1; omega) hfit.1 hfit.2).elim
    | eol =>
      refine ih _ (Nat.zero_le _) ?_ hrest
      show h * w ≤ (c.y + 1) * w + 0
      rw [Nat.succ_mul]; omega
    | delta dx dy =>
      refine ih _ hfit.2 ?_ hrest
      show h * w ≤ (c.y + dy.toNat) * w + (c.x + dx.toNat)
      rw [Nat.add_mul]; omega

theorem step_done {four : Bool} {w size : Nat} {s : L} {rest : List UInt8} (ha : At s.inp ([0, 1] ++ rest)) :
    stepOf four w size s = .ok { s with off := size, inp := adv s.inp 2 } := by
  cases four
  · show step8 w size s = _
    unfold step8
    rw [At.read2 (a := 0) (b := 1) (rest := rest) ha, bind_ok]
    rfl
  · show step4 w size s = _
    unfold step4
    rw [At.read2 (a := 0) (b := 1) (rest := rest) ha, bind_ok]
    rfl

theorem codes_spec {four : Bool} {w h : Nat} (hlt : h * w < 4294967296) {rest : List UInt8} (cs : List Code) : ∀ (c : Cur) (s : L) (fuel : Nat),
    Rel w h c s → Fits four w h c cs → At s.inp (cs.flatMap (Code.bytes four) ++ ([0, 1] ++ rest)) → cs.length + 2 ≤ fuel →
    ∃ s', whileF (fun s : L => !s.failed && decide (s.off < h * w)) (stepOf four w (h * w)) fuel s = .ok s' ∧ s'.failed = false ∧
      s'.data.length = h * w ∧
      ∀ x y v, x < w → y < h → (cs.foldl (Code.exec four) c).pic x y = some v → s'.data[y * w + x]? = some v := by
  induction cs with
  | nil =>
    intro c s fuel r _ ha hfuel
    obtain ⟨f, rfl⟩ : ∃ f, fuel = f + 2 := ⟨fuel - 2, by simp at hfuel; omega⟩
    unfold whileF
    by_cases ho : s.off < h * w
    · rw [if_pos (by simp [r.ok, ho]), step_done (rest := rest) (by simpa using ha), bind_ok]
      unfold whileF
      rw [if_neg (by simp)]
      exact ⟨_, rfl, r.ok, r.len, r.pic⟩
    · rw [if_neg (by simp [ho])]
      exact ⟨_, rfl, r.ok, r.len, r.pic⟩
  | cons code cs ih =>
    intro c s fuel r hf ha hfuel
    obtain ⟨f, rfl⟩ : ∃ f, fuel = f + 1 := ⟨fuel - 1, by simp at hfuel; omega⟩
    unfold whileF
    by_cases ho : s.off < h * w
    · rw [List.flatMap_cons, List.append_assoc] at ha
      obtain ⟨s1, e1, r1, a1⟩ := step_spec r hlt ha hf.1 hf.2.1
      rw [if_pos (by simp [r.ok, ho]), e1, bind_ok]
      exact ih _ s1 f r1 hf.2.2 a1 (by simp at hfuel; omega)
    · rw [if_neg (by simp [ho])]
      rw [exec_over (four := four) (w := w) (h := h) (code :: cs) c r.x (by rw [← r.off]; omega) hf]
      exact ⟨_, rfl, r.ok, r.len, r.pic⟩

end DevIL.Bmp
