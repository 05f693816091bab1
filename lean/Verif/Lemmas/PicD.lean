import Verif.Lemmas.PicC
set_option autoImplicit false
namespace DevIL.Pic
open DevIL.Games DevIL.Detect DevIL.Image DevIL.DetectSpec DevIL.PicSpec DevIL.Dpx
open DevIL.PsdSpec (num)
open DevIL.Psd (EofLaw num_length)

variable {σ : Type} {o : Ops σ} {At : σ → List UInt8 → Nat → Prop}

/-! ### The header and the list of packets -/

/-- The fields of the header. -/
def fields : List Fld := [u32f, u32f, arr 80, arr 4, u16, u16, u32f, u16, u16]

theorem header_length {note ratio : List UInt8} {w h : Nat} (hn : note.length = 84) (hr : ratio.length = 8) : (header note w h ratio).length = 104 := by
  simp only [header, List.length_append, num_length, List.length_cons, List.length_nil, hn, hr]

theorem header_ok (L : Laws2 o At) (junk : Nat → UInt8) {bs note ratio : List UInt8} {w h : Nat} {s : σ} (hA : At s bs 0) (hn : note.length = 84) (hr : ratio.length = 8)
    (hw : 0 < w ∧ w < 65536) (hh : 0 < h ∧ h < 65536) (hN : Next bs 0 (header note w h ratio)) :
    Holds (head o junk fields s) (fun r => iCheckPic r.1 = true ∧ fbe r.1 4 = w ∧ fbe r.1 5 = h ∧ At r.2 bs 104) := by
  have hl := Psd.Next.le hN (by rw [header_length hn hr]; decide)
  rw [header_length hn hr] at hl
  refine (head_spec L.toLaws junk bs fields s 0 hA (by decide)).mono (fun r hr' => ?_)
  obtain ⟨-, h2, h3⟩ := hr'
  have n5 := hN.left
  have n4 := n5.left
  have n3 := n4.left
  have n2 := n3.left
  have n1 := n2.left
  have a3 := n3.right
  have a4 := n4.right
  have a5 := n5.right
  simp only [List.length_append, num_length, hn, List.length_cons, List.length_nil] at a3 a4 a5
  have f0 : fbe r.1 0 = 0x5380F634 := by
    show be (fld r.1 0) = _
    rw [h3 0 u32f rfl (by show 0 + 0 + 4 ≤ _; omega)]
    exact Psd.next_num n1 (by decide)
  have f3 : fld r.1 3 = [0x50, 0x49, 0x43, 0x54] := by
    rw [h3 3 (arr 4) rfl (by show 0 + 88 + 4 ≤ _; omega)]
    exact a3
  have f4 : fbe r.1 4 = w := by
    show be (fld r.1 4) = _
    rw [h3 4 u16 rfl (by show 0 + 92 + 2 ≤ _; omega)]
    exact Psd.next_num a4 (by have := hw.2; omega)
  have f5 : fbe r.1 5 = h := by
    show be (fld r.1 5) = _
    rw [h3 5 u16 rfl (by show 0 + 94 + 2 ≤ _; omega)]
    exact Psd.next_num a5 (by have := hh.2; omega)
  refine ⟨?_, f4, f5, h2 (by show 0 + 104 ≤ _; omega)⟩
  unfold iCheckPic
  rw [f0, f3, f4, f5]
  have : w ≠ 0 := by omega
  have : h ≠ 0 := by omega
  simp [*]

theorem chanStep_ok (L : Laws2 o At) (E : EofLaw o At) {bs : List UInt8} {t : Chans σ} {p : Nat} {c : UInt8} {q : Packet} (h : At t.inp bs p) (hn : Next bs p [c, q.size, q.type, q.chan])
    (hlt : p + 4 < bs.length) : Holds (chanStep o t) (fun r => r.list = t.list ++ [toChan q] ∧ r.more = decide (c ≠ 0) ∧ r.ok = true ∧ At r.inp bs (p + 4)) := by
  unfold chanStep
  refine (getb_full L.toLaws h hn.head).bind (fun r1 g1 => ?_)
  obtain ⟨v1, s1⟩ := r1; obtain ⟨rfl, g1⟩ := g1
  refine (getb_full L.toLaws g1 hn.tail.head).bind (fun r2 g2 => ?_)
  obtain ⟨v2, s2⟩ := r2; obtain ⟨rfl, g2⟩ := g2
  refine (getb_full L.toLaws g2 hn.tail.tail.head).bind (fun r3 g3 => ?_)
  obtain ⟨v3, s3⟩ := r3; obtain ⟨rfl, g3⟩ := g3
  refine (getb_full L.toLaws g3 hn.tail.tail.tail.head).bind (fun r4 g4 => ?_)
  obtain ⟨v4, s4⟩ := r4; obtain ⟨rfl, g4⟩ := g4
  simp only at g4 ⊢
  obtain ⟨e1, e2⟩ := E g4 (by omega) (by omega)
  rw [e1, if_neg (by simp; omega)]
  exact Holds.pure ⟨rfl, rfl, rfl, e2⟩

theorem listBytes_length (ps : List Packet) : (listBytes ps).length = 4 * ps.length := by
  induction ps with
  | nil => rfl
  | cons p ps ih =>
    cases ps with
    | nil => rfl
    | cons q ps => simp only [listBytes, List.length_cons] at ih ⊢; omega

theorem list_ok (L : Laws2 o At) (E : EofLaw o At) {bs : List UInt8} (ps : List Packet) : ∀ (fuel : Nat) (t : Chans σ) (p : Nat), ps ≠ [] → t.more = true → At t.inp bs p →
    Next bs p (listBytes ps) → p + (listBytes ps).length < bs.length → ps.length < fuel →
    Holds (whileF (fun t : Chans σ => t.more) (chanStep o) fuel t) (fun r => r.list = t.list ++ ps.map toChan ∧ r.ok = true ∧ At r.inp bs (p + (listBytes ps).length)) := by
  induction ps with
  | nil => intro _ _ _ h; exact absurd rfl h
  | cons q qs ih =>
    intro fuel t p _ hm h hn hlt hf
    obtain ⟨fuel, rfl⟩ : ∃ n, fuel = n + 2 := ⟨fuel - 2, by simp at hf; omega⟩
    unfold whileF
    rw [if_pos hm]
    cases qs with
    | nil =>
      refine (chanStep_ok L E h hn hlt).bind (fun r hr => ?_)
      obtain ⟨h1, h2, h3, h4⟩ := hr
      unfold whileF
      rw [if_neg (by rw [h2]; decide)]
      exact Holds.pure ⟨h1, h3, h4⟩
    | cons q' qs =>
      have hn1 : Next bs p ([1, q.size, q.type, q.chan] ++ listBytes (q' :: qs)) := hn
      have hlt' : p + (4 + (listBytes (q' :: qs)).length) < bs.length := by
        have : (listBytes (q :: q' :: qs)).length = 4 + (listBytes (q' :: qs)).length := by rw [listBytes_length, listBytes_length]; simp only [List.length_cons]; omega
        omega
      refine (chanStep_ok L E h hn1.left (by omega)).bind (fun r hr => ?_)
      obtain ⟨h1, h2, h3, h4⟩ := hr
      refine (ih (fuel + 1) r (p + 4) (by simp) (by rw [h2]; decide) h4 hn1.right (by omega) (by simp at hf ⊢; omega)).mono (fun u hu => ⟨?_, hu.2.1, ?_⟩)
      · rw [hu.1, h1, List.append_assoc]; rfl
      · have := hu.2.2
        rw [listBytes_length] at this ⊢
        simp only [List.length_cons] at this ⊢
        rw [show p + 4 * (qs.length + 1 + 1) = p + 4 + 4 * (qs.length + 1) by omega]
        exact this

/-! ### Loading -/

theorem body_pos {d : Doc} (hd : d.Ok) : 0 < (d.rows.flatMap (fun r => r.flatMap Part.bytes)).length := by
  have h1 := hd.rows
  have h2 := hd.height.1
  cases hr : d.rows with
  | nil => rw [hr] at h1; simp at h1; omega
  | cons r rs =>
    have hrow := hd.parts r (by rw [hr]; exact List.mem_cons_self)
    have hs := hd.some
    cases hp : d.packets with
    | nil => exact absurd hp hs
    | cons q qs =>
      rw [hp] at hrow
      cases r with
      | nil => exact hrow.elim
      | cons t ts =>
        have := part_bytes_pos hrow.1.stored (List.length_pos_iff.mpr (hd.comps q (by rw [hp]; exact List.mem_cons_self))) (by rw [hrow.1.width]; exact hd.width.1)
        simp only [List.flatMap_cons, List.length_append]
        omega

theorem alpha_any (ps : List Packet) : ((ps.map toChan).any (fun c => decide (c.chan &&& 0x10 ≠ 0)) = true) ↔ ∃ p ∈ ps, 3 ∈ compsOf p.chan := by
  rw [List.any_map, List.any_eq_true]
  constructor
  · rintro ⟨p, hp, h⟩
    exact ⟨p, hp, (alpha_iff _).mp (of_decide_eq_true h)⟩
  · rintro ⟨p, hp, h⟩
    exact ⟨p, hp, decide_eq_true ((alpha_iff _).mpr h)⟩

theorem whole_fit {w h b : Nat} (hw : w < 32768) (hh : h < 32768) (hb : b ≤ 4) : w * h * b < 4294967296 := by
  have : w * h ≤ 32767 * 32767 := Nat.mul_le_mul (by omega) (by omega)
  have : w * h * b ≤ 32767 * 32767 * 4 := Nat.mul_le_mul this hb
  omega

/-- The number of bytes of a pixel. -/
def depthOf (d : Doc) : Nat := if (d.packets.map toChan).any (fun c => decide (c.chan &&& 0x10 ≠ 0)) then 4 else 3

theorem comps_depth (d : Doc) : ∀ q ∈ d.packets, ∀ i ∈ compsOf q.chan, i < depthOf d := by
  intro q hq i hi
  unfold depthOf
  have h4 := compsOf_lt hi
  by_cases h : (d.packets.map toChan).any (fun c => decide (c.chan &&& 0x10 ≠ 0)) = true
  · rw [if_pos h]; exact h4
  · rw [if_neg h]
    have : i ≠ 3 := fun e => h ((alpha_any _).mpr ⟨q, hq, e ▸ hi⟩)
    omega

/-- Up to the rows, everything goes well. -/
theorem upto_rows (L : Laws2 o At) (E : EofLaw o At) (junk : Nat → UInt8) {fuel : Nat} (cur : Loaded) (d : Doc) (hd : d.Ok) (hf : d.bytes.length < fuel) {s : σ} (hA : At s d.bytes 0)
    {Q : Bool × Loaded × σ → Prop}
    (hQ : ∀ s1, At s1 d.bytes (104 + (listBytes d.packets).length) → ∃ t, readScanlines o junk fuel d.width d.height (depthOf d) (d.packets.map toChan)
        ⟨(tex junk d.width d.height (depthOf d) IL_RGBA).data, s1, true⟩ = t ∧
        Holds (do
          let t ← t
          pure (t.ok, (({ tex junk d.width d.height (depthOf d) IL_RGBA with origin := IL_ORIGIN_LOWER_LEFT, data := t.data }, none) : Loaded), t.inp)) Q) :
    Holds (iLoadPicInternal o junk fuel cur s) Q := by
  have hbp := body_pos hd
  have hhl := header_length (w := d.width) (h := d.height) hd.note hd.ratio
  have hbl : d.bytes.length = 104 + ((listBytes d.packets).length + (d.rows.flatMap (fun r => r.flatMap Part.bytes)).length) := by
    unfold Doc.bytes
    rw [List.length_append, List.length_append, hhl]
  have hN : Next d.bytes 0 (header d.note d.width d.height d.ratio ++ (listBytes d.packets ++ d.rows.flatMap (fun r => r.flatMap Part.bytes))) := next_drop (r := []) (by rw [List.append_nil]; rfl)
  have hN2 := hN.right
  rw [hhl] at hN2
  unfold iLoadPicInternal
  refine (header_ok L junk hA hd.note hd.ratio ⟨hd.width.1, by have := hd.width.2; omega⟩ ⟨hd.height.1, by have := hd.height.2; omega⟩ hN.left).bind (fun r hr => ?_)
  obtain ⟨hh, s0⟩ := r
  obtain ⟨h1, h2, h3, h4⟩ := hr
  simp only at h1 h2 h3 h4 ⊢
  rw [if_neg (by rw [h1]; decide)]
  refine (list_ok L E d.packets fuel ⟨[], s0, true, true⟩ 104 hd.some rfl h4 (by simpa using hN2.left) (by omega) (by
    have := listBytes_length d.packets
    omega)).bind (fun r hr => ?_)
  obtain ⟨r1, r2, r3⟩ := hr
  rw [if_neg (by rw [r2]; decide), r1, h2, h3]
  have w1 : wide d.width = d.width := if_pos hd.width.2
  have w2 : wide d.height = d.height := if_pos hd.height.2
  have w3 : short d.width = d.width := if_pos hd.width.2
  have w4 : short d.height = d.height := if_pos hd.height.2
  obtain ⟨t, e, ht⟩ := hQ r.inp r3
  simp only [List.nil_append]
  rw [w1, w2, w3, w4]
  unfold depthOf at e ht
  rw [← e] at ht
  exact ht

theorem load_ok (L : Laws2 o At) (E : EofLaw o At) (junk : Nat → UInt8) {fuel : Nat} (cur : Loaded) (d : Doc) (hd : d.Ok) (hf : d.bytes.length < fuel) (hb : depthOf d = 4 ∨ d.height = 1)
    (hone : ∀ r ∈ d.rows, ∀ t ∈ r, t.Ones) {s : σ} (hA : At s d.bytes 0) :
    Holds (iLoadPicInternal o junk fuel cur s) (fun r => (r.1 = true ∧ r.2.1.2 = none ∧ r.2.1.1.format = IL_RGBA ∧ Shows r.2.1.1 d (depthOf d)) ∧ ∃ q, At r.2.2 d.bytes q) := by
  refine upto_rows L E junk cur d hd hf hA (fun s1 h1 => ⟨_, rfl, ?_⟩)
  have hd4 : depthOf d ≤ 4 ∧ 0 < depthOf d := by unfold depthOf; split <;> decide
  have hfit := whole_fit hd.width.2 hd.height.2 hd4.1
  obtain ⟨m1, m2, m3, m4, m5, m6, m7, m8, m9⟩ := tex_fields junk d.width d.height (depthOf d) IL_RGBA hd.width.1 hd.height.1 hd4.2 hfit
  have hN : Next d.bytes 0 ((header d.note d.width d.height d.ratio ++ listBytes d.packets) ++ d.rows.flatMap (fun r => r.flatMap Part.bytes)) :=
    next_drop (r := []) (by rw [List.append_nil, List.append_assoc]; rfl)
  have hN2 := hN.right
  rw [List.length_append, header_length hd.note hd.ratio, Nat.zero_add] at hN2
  refine (rows_ok L E junk hf d hd (depthOf d) hb hone (comps_depth d) ⟨(tex junk d.width d.height (depthOf d) IL_RGBA).data, s1, true⟩ rfl h1 hN2 (by
    show (tex junk d.width d.height (depthOf d) IL_RGBA).data.length = _
    rw [tex_len, m9])).bind (fun r hr => Holds.pure ?_)
  obtain ⟨r1, r2, r3, r4⟩ := hr
  refine ⟨⟨r2, rfl, rfl, ⟨m1, m2, m3, m4, m5, m7, rfl, ⟨m8.1, m8.2.1, m8.2.2.1, ?_⟩, fun x y i v hx hy hv => ?_⟩⟩, r3⟩
  · show r.data.length = _
    rw [r1]; exact m8.2.2.2
  · have := (r4 x y i v hx hy hv).2
    show r.data[((0 * _ + (d.height - 1 - y)) * (tex junk d.width d.height (depthOf d) IL_RGBA).width + x) * ((tex junk d.width d.height (depthOf d) IL_RGBA).bpp * (tex junk d.width d.height (depthOf d) IL_RGBA).bpc) + i]? = _
    rw [m1, m4, m5, Nat.mul_one, Nat.zero_mul, Nat.zero_add]
    exact this

end DevIL.Pic
