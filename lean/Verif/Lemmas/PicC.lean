import Verif.Lemmas.PicB
set_option autoImplicit false
namespace DevIL.Pic
open DevIL.Games DevIL.Detect DevIL.Image DevIL.DetectSpec DevIL.PicSpec DevIL.Dpx
open DevIL.PsdSpec (num)
open DevIL.Psd (EofLaw num_length)

variable {σ : Type} {o : Ops σ} {At : σ → List UInt8 → Nat → Prop}

/-! ### A row -/

theorem part_pixels {k : Nat} {t : Part} (h : t.Stored k) : ∀ p ∈ t.pixels, p.length = k := by
  cases t with
  | plain px => exact h
  | mixed seqs =>
    intro p hp
    obtain ⟨q, hq, hp⟩ := List.mem_flatMap.mp hp
    exact seq_pixels (h q hq) p hp
  | pure runs =>
    intro p hp
    obtain ⟨q, hq, hp⟩ := List.mem_flatMap.mp hp
    rw [(List.mem_replicate.mp hp).2]
    exact (h q hq).2.2

theorem part_bytes_pos {k : Nat} {t : Part} (h : t.Stored k) (hk : 0 < k) (hw : 0 < t.pixels.length) : 0 < t.bytes.length := by
  cases t with
  | plain px =>
    cases px with
    | nil => simp [Part.pixels] at hw
    | cons p ps =>
      have : p.length = k := h p List.mem_cons_self
      simp only [Part.bytes, List.flatten_cons, List.length_append]
      omega
  | mixed seqs =>
    cases seqs with
    | nil => simp [Part.pixels] at hw
    | cons p ps =>
      have := seq_bytes_pos p
      simp only [Part.bytes, List.flatMap_cons, List.length_append]
      omega
  | pure runs =>
    cases runs with
    | nil => simp [Part.pixels] at hw
    | cons p ps => simp [Part.bytes]

/-- A packet as the loader has it. -/
def toChan (p : Packet) : Chan := ⟨p.size, p.type, p.chan⟩

/-- A row painted. -/
def rowPaint (b a : Nat) : List Part → List Packet → List UInt8 → List UInt8
  | t :: ts, p :: ps, d => rowPaint b a ts ps (paint b (compsOf p.chan) a t.pixels d)
  | _, _, d => d

theorem rowPaint_length (b a : Nat) (ts : List Part) (ps : List Packet) (d : List UInt8) : (rowPaint b a ts ps d).length = d.length := by
  induction ts generalizing ps d with
  | nil => cases ps <;> rfl
  | cons t ts ih =>
    cases ps with
    | nil => rfl
    | cons p ps => rw [rowPaint, ih, paint_length]

theorem ones_eq {runs : List (Nat × List UInt8)} (h : ∀ r ∈ runs, r.1 = 1) :
    (Part.pure runs).bytes = (runs.map Prod.snd).flatMap (fun v => 1 :: v) ∧ (Part.pure runs).pixels = runs.map Prod.snd := by
  induction runs with
  | nil => exact ⟨rfl, rfl⟩
  | cons r rs ih =>
    obtain ⟨i1, i2⟩ := ih (fun r hr => h r (List.mem_cons_of_mem _ hr))
    have := h r List.mem_cons_self
    obtain ⟨n, v⟩ := r
    simp only at this
    subst this
    simp only [Part.bytes, Part.pixels] at i1 i2
    refine ⟨?_, ?_⟩
    · simp only [Part.bytes, List.flatMap_cons, i1, List.map_cons]; rfl
    · simp only [Part.pixels, List.flatMap_cons, i2, List.map_cons]; rfl

theorem scanline_ok (L : Laws2 o At) (E : EofLaw o At) {bs : List UInt8} (junk : Nat → UInt8) {w b a fuel : Nat} (hf : bs.length < fuel) (ts : List Part) :
    ∀ (ps : List Packet) (status : Bool) (t : Scan σ) (p : Nat), Row w ts ps → (∀ t ∈ ts, t.Ones) → (∀ q ∈ ps, compsOf q.chan ≠ [] ∧ ∀ i ∈ compsOf q.chan, i < b) →
      (status = true ∨ ps ≠ []) → At t.inp bs p → Next bs p (ts.flatMap Part.bytes) → a + w * b ≤ t.data.length →
    Holds (readScanline o junk fuel w b a (ps.map toChan) status t)
      (fun r => r.data = rowPaint b a ts ps t.data ∧ r.ok = true ∧ At r.inp bs (p + (ts.flatMap Part.bytes).length)) := by
  induction ts with
  | nil =>
    intro ps status t p hrow _ _ hst h _ _
    cases ps with
    | nil => exact Holds.pure ⟨rfl, hst.resolve_right (fun h => h rfl), by simpa using h⟩
    | cons p ps => exact hrow.elim
  | cons q qs ih =>
    intro ps status t p hrow hone hps _ h hn ha
    cases ps with
    | nil => exact hrow.elim
    | cons c cs =>
      obtain ⟨hq, hrow'⟩ := hrow
      obtain ⟨hc0, hcb⟩ := hps c List.mem_cons_self
      rw [List.flatMap_cons] at hn
      rw [List.map_cons]
      unfold readScanline
      have key : Holds (if (toChan c).type &&& 0x0F = 0 then readRaw o w (offs (toChan c).chan) b a { t with ok := true }
          else if (toChan c).type &&& 0x0F = 1 then readPure o fuel w (offs (toChan c).chan) b a { t with ok := true }
          else if (toChan c).type &&& 0x0F = 2 then readMixed o junk fuel w (offs (toChan c).chan) b a { t with ok := true }
          else pure { t with ok := status } : C (Scan σ))
          (fun r => r.data = paint b (compsOf c.chan) a q.pixels t.data ∧ r.ok = true ∧ At r.inp bs (p + q.bytes.length)) := by
        have hk : (toChan c).type &&& 0x0F = q.kind := hq.kind
        rw [hk, show offs (toChan c).chan = compsOf c.chan from offs_eq _]
        cases q with
        | plain px =>
          rw [if_pos (show (Part.plain px).kind = 0 from rfl)]
          exact readRaw_ok L E _ px hq.width hcb hc0 { t with ok := true } h rfl hn.left hq.stored ha
        | mixed seqs =>
          rw [if_neg (show ¬ (Part.mixed seqs).kind = 0 from (by decide : ¬ (2 : UInt8) = 0)), if_neg (show ¬ (Part.mixed seqs).kind = 1 from (by decide : ¬ (2 : UInt8) = 1)),
            if_pos (show (Part.mixed seqs).kind = 2 from rfl)]
          exact readMixed_ok L E junk hc0 hcb seqs { t with ok := true } hq.stored rfl h hn.left hq.width ha hf
        | pure runs =>
          rw [if_neg (show ¬ (Part.pure runs).kind = 0 from (by decide : ¬ (1 : UInt8) = 0)), if_pos (show (Part.pure runs).kind = 1 from rfl)]
          obtain ⟨e1, e2⟩ := ones_eq (hone _ List.mem_cons_self)
          have hw := hq.width
          have hn1 := hn.left
          rw [e2] at hw
          rw [e1] at hn1
          rw [e1, e2]
          refine readPure_ok L E hc0 hcb _ { t with ok := true } (fun v hv => ?_) rfl h hn1 hw ha hf
          obtain ⟨r, hr, rfl⟩ := List.mem_map.mp hv
          exact (hq.stored r hr).2.2
      refine key.bind (fun r hr => ?_)
      obtain ⟨h1, h2, h3⟩ := hr
      rw [if_neg (by simp [h2])]
      refine (ih cs true r _ hrow' (fun t ht => hone t (List.mem_cons_of_mem _ ht)) (fun q hq => hps q (List.mem_cons_of_mem _ hq)) (.inl rfl) h3 hn.right (by rw [h1, paint_length]; exact ha)).mono
        (fun s hs => ⟨?_, hs.2.1, ?_⟩)
      · rw [hs.1, h1]; rfl
      · rw [List.flatMap_cons, List.length_append, ← Nat.add_assoc]; exact hs.2.2

/-- A component that no packet has stays as it was, and so do other pixels. -/
theorem rowPaint_keep (b a w : Nat) (ts : List Part) : ∀ (ps : List Packet) (d : List UInt8) (q : Nat), Row w ts ps →
    (∀ p ∈ ps, ∀ i ∈ compsOf p.chan, ∀ x < w, q ≠ a + x * b + i) → (rowPaint b a ts ps d)[q]? = d[q]? := by
  induction ts with
  | nil => intro ps d q _ _; cases ps <;> rfl
  | cons t ts ih =>
    intro ps d q hrow hq
    cases ps with
    | nil => rfl
    | cons p ps =>
      rw [rowPaint, ih ps _ q hrow.2 (fun p hp => hq p (List.mem_cons_of_mem _ hp)), paint_out _ _ _ _ _ _ (fun x i hx hi => hq p List.mem_cons_self i hi x (by rw [← hrow.1.width]; exact hx))]

theorem rowPaint_get (b a w : Nat) (ts : List Part) : ∀ (ps : List Packet) (d : List UInt8) (k j i x : Nat) (p : Packet) (part : Part) (px : List UInt8), Row w ts ps →
    (∀ q ∈ ps, ∀ i ∈ compsOf q.chan, i < b) → a + w * b ≤ d.length → ps[k]? = some p → ts[k]? = some part → (compsOf p.chan)[j]? = some i → part.pixels[x]? = some px →
    (∀ (k' : Nat) (p' : Packet), k < k' → ps[k']? = some p' → i ∉ compsOf p'.chan) → (rowPaint b a ts ps d)[a + x * b + i]? = px[j]? := by
  induction ts with
  | nil => intro ps d k j i x p part px _ _ _ _ ht; simp at ht
  | cons t ts ih =>
    intro ps d k j i x p part px hrow hb ha hp ht hj hx hlast
    cases ps with
    | nil => simp at hp
    | cons c cs =>
      rw [rowPaint]
      have hb' : ∀ q ∈ cs, ∀ i ∈ compsOf q.chan, i < b := fun q hq => hb q (List.mem_cons_of_mem _ hq)
      cases k with
      | zero =>
        simp only [List.getElem?_cons_zero, Option.some.injEq] at hp ht
        subst hp ht
        have hi : i < b := hb c List.mem_cons_self i (List.mem_of_getElem? hj)
        rw [rowPaint_keep b a w ts cs _ _ hrow.2 (fun p' hp' i' hi' x' hx' e => ?_)]
        · exact paint_in b _ a _ d (compsOf_nodup _) (hb c List.mem_cons_self) (part_pixels hrow.1.stored) hx hj (by rw [hrow.1.width]; exact ha)
        · obtain ⟨k', hk'⟩ := List.getElem?_of_mem hp'
          have hi'' := hb' p' hp' i' hi'
          have e' : b * x + i = b * x' + i' := by rw [Nat.mul_comm b x, Nat.mul_comm b x']; omega
          have : i = i' := by
            have := congrArg (· % b) e'
            simp only [Nat.mul_add_mod, Nat.mod_eq_of_lt hi, Nat.mod_eq_of_lt hi''] at this
            exact this
          subst this
          exact hlast (k' + 1) p' (by omega) (by simpa using hk') hi'
      | succ k =>
        exact ih cs _ k j i x p part px hrow.2 hb' (by rw [paint_length]; exact ha) (by simpa using hp) (by simpa using ht) hj hx
          (fun k' p' hk hp' => hlast (k' + 1) p' (by omega) (by simpa using hp'))

/-! ### All rows -/

theorem base_eq {h b r w : Nat} (hb : b = 4 ∨ h = 1) (hr : r < h) : (h - 1 - r) * w * 4 = (h - 1 - r) * w * b := by
  rcases hb with rfl | rfl
  · rfl
  · rw [show 1 - 1 - r = 0 by omega]; simp

theorem rows_ok (L : Laws2 o At) (E : EofLaw o At) {bs : List UInt8} (junk : Nat → UInt8) {fuel : Nat} (hf : bs.length < fuel) (d : Doc) (hd : d.Ok) (b : Nat) (hb : b = 4 ∨ d.height = 1)
    (hone : ∀ r ∈ d.rows, ∀ t ∈ r, t.Ones) (hcb : ∀ q ∈ d.packets, ∀ i ∈ compsOf q.chan, i < b) (t : Scan σ) {p : Nat} (hok : t.ok = true) (h : At t.inp bs p)
    (hn : Next bs p (d.rows.flatMap (fun r => r.flatMap Part.bytes))) (hl : t.data.length = d.width * d.height * b) :
    Holds (readScanlines o junk fuel d.width d.height b (d.packets.map toChan) t)
      (fun r => r.data.length = t.data.length ∧ r.ok = true ∧ (∃ q, At r.inp bs q) ∧
        ∀ x y i v, x < d.width → y < d.height → d.Value x y i v → i < b ∧ r.data[((d.height - 1 - y) * d.width + x) * b + i]? = some v) := by
  unfold readScanlines
  refine (Holds.loop (fun r s => s.data.length = t.data.length ∧ s.ok = true ∧ At s.inp bs (p + ((d.rows.take r).flatMap (fun r => r.flatMap Part.bytes)).length) ∧
    ∀ x y i v, x < d.width → y < r → d.Value x y i v → i < b ∧ s.data[((d.height - 1 - y) * d.width + x) * b + i]? = some v)
    ⟨rfl, hok, by simpa using h, fun x y i v _ hy => absurd hy (Nat.not_lt_zero _)⟩ (fun r s hr hs => ?_)).mono (fun r hr => ⟨hr.1, hr.2.1, ⟨_, hr.2.2.1⟩, fun x y i v hx hy hv => hr.2.2.2 x y i v hx hy hv⟩)
  obtain ⟨h1, h2, h3, h4⟩ := hs
  have hrr : r < d.rows.length := by rw [hd.rows]; exact hr
  have hrow : d.rows[r]? = some d.rows[r] := List.getElem?_eq_getElem hrr
  have hmem := List.getElem_mem hrr
  have hn' := Hdr.next_flat _ d.rows hn hrow
  have hbase : (d.height - 1 - r) * d.width * b + d.width * b ≤ d.width * d.height * b := by
    rw [← Nat.add_mul, Nat.mul_comm d.width d.height]
    refine Nat.mul_le_mul_right _ ?_
    rw [← Nat.succ_mul]
    exact Nat.mul_le_mul_right _ (by omega)
  rw [if_neg (by simp [h2]), base_eq hb hr]
  refine (scanline_ok L E junk hf d.rows[r] d.packets false s _ (hd.parts _ hmem) (hone _ hmem) (fun q hq => ⟨hd.comps q hq, hcb q hq⟩) (.inr hd.some) h3 hn' (by omega)).mono (fun u hu => ?_)
  obtain ⟨u1, u2, u3⟩ := hu
  refine ⟨by rw [u1, rowPaint_length, h1], u2, ?_, fun x y i v hx hy hv => ?_⟩
  · rw [take_succ_of hrow, List.flatMap_append, List.length_append, List.flatMap_singleton, ← Nat.add_assoc]
    exact u3
  · rcases Nat.lt_succ_iff_lt_or_eq.mp hy with hy' | rfl
    · obtain ⟨hi, hg⟩ := h4 x y i v hx hy' hv
      refine ⟨hi, ?_⟩
      rw [u1, rowPaint_keep _ _ d.width _ _ _ _ (hd.parts _ hmem) (fun q hq k hk x' hx' e => ?_)]
      · exact hg
      · have hkb := hcb q hq k hk
        have a1 : ((d.height - 1 - r) * d.width + x') * b + k < ((d.height - 1 - r) * d.width + x' + 1) * b := by rw [Nat.add_mul _ 1]; omega
        have a2 : ((d.height - 1 - r) * d.width + x' + 1) * b ≤ (d.height - 1 - y) * d.width * b := by
          refine Nat.mul_le_mul_right _ ?_
          have : (d.height - 1 - r + 1) * d.width ≤ (d.height - 1 - y) * d.width := Nat.mul_le_mul_right _ (by omega)
          rw [Nat.add_mul] at this
          omega
        rw [Nat.add_mul] at e a1
        omega
    · obtain ⟨row, k, j, q, part, px, e1, e2, e3, e4, e5, e6, e7⟩ := hv
      rw [hrow] at e1
      obtain rfl := Option.some.inj e1
      refine ⟨hcb q (List.mem_of_getElem? e2) i (List.mem_of_getElem? e4), ?_⟩
      have := rowPaint_get b ((d.height - 1 - y) * d.width * b) d.width _ d.packets s.data k j i x q part px (hd.parts _ hmem) hcb (by omega) e2 e3 e4 e5 e7
      rw [u1, Nat.add_mul, this, e6]

end DevIL.Pic
