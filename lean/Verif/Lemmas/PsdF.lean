import Verif.Lemmas.PsdE
set_option autoImplicit false
namespace DevIL.Psd
open DevIL.Games DevIL.Detect DevIL.Image DevIL.DetectSpec DevIL.DpxSpec DevIL.PsdSpec DevIL.Dpx
open DevIL.Hdr (next_flat)

variable {σ : Type} {o : Ops σ} {At : σ → List UInt8 → Nat → Prop}

theorem scaled_full : ∀ v : Fin 256, scaled 255 255 v = v := by decide +kernel

/-- Solid alpha times a value is the value. -/
theorem times_solid (v : List UInt8) (hv : v.length = 1) : timesAlpha 1 [255] v = v := by
  match v, hv with
  | [b], _ =>
    unfold timesAlpha
    have e1 : le [255] = 255 := rfl
    have e2 : le [b] = b.toNat := by simp [le]
    have := scaled_full ⟨b.toNat, b.toNat_lt⟩
    simp only at this
    rw [e1, e2, show 256 ^ 1 - 1 = 255 by rfl, this]
    simp [leBytes]

theorem chanLen_ok (L : Laws2 o At) (junk : Nat → UInt8) {s : σ} {bs : List UInt8} {P : Nat} (hs : At s bs P) (h chans : Nat) (hfit : P + 2 * (h * chans) ≤ bs.length) :
    Holds (chanLen o junk h chans s) (fun t => At t bs (P + 2 * (h * chans))) := by
  have hl := L.len hs
  have hu : u32 (h * chans) = h * chans := u32_of_lt (by omega)
  unfold chanLen
  rw [hu]
  refine (into_full L (alloc junk (h * chans * 2)) 2 (h * chans) hs (by decide) (by omega) (by rw [alloc_length]; omega) hfit).bind (fun r hr => ?_)
  obtain ⟨h1, -, h3⟩ := hr
  refine Holds.ite (fun hc => absurd h1 hc) (fun _ => ?_)
  rw [if_neg (by simp)]
  exact Holds.pure h3

/-- The channels of a compressed picture, with or without alpha. -/
theorem packed_data (L : Laws2 o At) (junk : Nat → UInt8) (fuel : Nat) {pre table rest : List UInt8} {css : List (List Code)} {s : σ}
    (hf : (pre ++ (table ++ css.flatMap chanBytes ++ rest)).length < fuel)
    (hs : At s (pre ++ (table ++ css.flatMap chanBytes ++ rest)) pre.length) (w h k f mode all : Nat) (hw : 0 < w) (hh : 0 < h) (hk : numChan mode = k ∨ (mode = 3 ∧ k = 4))
    (hfit : w * h * k < 4294967296) (ht : table.length = 2 * (h * all)) (hcn : css.length = k) (hcs : ∀ cs ∈ css, Codes cs (h * w)) :
    Holds (PsdGetData o junk fuel w h mode k all true (texOf junk w h k f (typeFor 1)) s) (fun r =>
      (r.1 = true ↔ True) ∧ r.2.1.length = (texOf junk w h k f (typeFor 1)).size ∧ (∃ q, At r.2.2 (pre ++ (table ++ css.flatMap chanBytes ++ rest)) q) ∧
      (r.1 = true → Shows3 { texOf junk w h k f (typeFor 1) with data := r.2.1, origin := IL_ORIGIN_UPPER_LEFT } w h 1 k 1 f (typeFor 1) (fun x y _ i => packedPx w css x y i))) := by
  have hk0 : 0 < k := by
    rcases hk with hk | hk
    · rw [← hk]; unfold numChan; split <;> decide
    · omega
  have hfit' : w * h * (k * 1) < 4294967296 := by rw [Nat.mul_one]; exact hfit
  obtain ⟨g1, g2, g3, g4, g5, g6, g7⟩ := texOf_fields junk w h k f 1 hw hh hk0 (.inl rfl) hfit'
  have hsh := fun d => shows_stored junk w h k f 1 hw hh hk0 (.inl rfl) hfit' (d0 := (texOf junk w h k f (typeFor 1)).data) (d := d) (planes := planesOf css)
  have hT : Next (pre ++ (table ++ css.flatMap chanBytes ++ rest)) pre.length (table ++ css.flatMap chanBytes ++ rest) := next_drop (r := []) (by simp)
  have hC : Next (pre ++ (table ++ css.flatMap chanBytes ++ rest)) (pre.length + 2 * (h * all)) (css.flatMap chanBytes) := by
    rw [← ht]; exact hT.left.right
  have hle : pre.length + 2 * (h * all) ≤ (pre ++ (table ++ css.flatMap chanBytes ++ rest)).length := by simp only [List.length_append]; omega
  generalize pre ++ (table ++ css.flatMap chanBytes ++ rest) = bs at *
  generalize texOf junk w h k f (typeFor 1) = m at *
  have hwh : u32 (w * h) = h * w := by
    rw [Nat.mul_comm h w]
    refine u32_of_lt ?_
    have : w * h ≤ w * h * k := Nat.le_mul_of_pos_right _ hk0
    omega
  have hnt : ¬ (m.type = IL_UNSIGNED_SHORT) := by rw [g5]; decide
  have hf2 : h * (w * k) < 4294967296 := by rw [show h * (w * k) = w * h * k by simp only [Nat.mul_comm, Nat.mul_left_comm, Nat.mul_assoc]]; exact hfit
  have hpl : ∀ c, c < k → (planesOf css c).length = h * w := fun c hc => by
    unfold planesOf
    rw [List.getD_eq_getElem?_getD, List.getElem?_eq_getElem (by omega)]
    exact (hcs _ (List.getElem_mem _)).out
  rw [Nat.mul_one] at g4 g6 g7
  refine Holds.mono (P := fun r : Bool × List UInt8 × σ => r.1 = true ∧ (∃ q, At r.2.2 bs q) ∧ Stored 1 k (h * w) k (planesOf css) m.data r.2.1) ?_ (fun r hr => ?_)
  · unfold PsdGetData
    rw [g2] at g3 g7
    rw [Nat.mul_one, hwh] at g7
    simp only [g1, g2, g3, hwh, hnt, Nat.mul_one, Bool.not_true, Bool.false_eq_true, and_false, if_false]
    refine (chanLen_ok L junk hs h all hle).bind (fun t hat => ?_)
    have hnc : numChan mode ≤ k := by
      rcases hk with hk | hk
      · omega
      · rw [hk.1, hk.2]; decide
    refine (pack_loop L fuel hf css (numChan mode) hnc (by omega) hw hh hf2 hcs hC ⟨m.data, alloc junk (h * w), t, true⟩ hat rfl g4 (alloc_length _ _)).bind (fun r hr => ?_)
    obtain ⟨h1, h2, h3, h4⟩ := hr
    simp only [h1, Bool.not_true, Bool.false_eq_true, if_false]
    rcases hk with hk | ⟨rfl, rfl⟩
    · rw [hk] at h4
      rw [if_neg (by rw [← hk]; unfold numChan; split <;> omega)]
      exact Holds.pure ⟨rfl, ⟨_, h2⟩, h4⟩
    · have hn3 : numChan 3 = 3 := rfl
      rw [hn3] at h2 h4 ⊢
      rw [if_pos (by omega)]
      refine (spread_spec (k := 1) (fun _ _ => [255]) r.ch r.data (by decide) hw (by decide) hf2 (by omega) (by rw [h4.len]) (fun _ _ _ _ => rfl)).bind (fun d1 hd1 => ?_)
      obtain ⟨cs, hcc⟩ : ∃ cs, css[3]? = some cs := ⟨_, List.getElem?_eq_getElem (by omega)⟩
      have hCC := hcs cs (List.mem_of_getElem? hcc)
      have hnx : Next bs (pre.length + 2 * (h * all) + ((css.take 3).flatMap chanBytes).length) (chanBytes cs) := next_flat chanBytes css hC hcc
      have h43 : loopN (4 - 3) (fun _ t => packChan o fuel (h * w) h (w * 4) 4 3 (timesAlpha 1) t) { r with data := d1 } =
          packChan o fuel (h * w) h (w * 4) 4 3 (timesAlpha 1) { r with data := d1 } := by
        show (packChan o fuel (h * w) h (w * 4) 4 3 (timesAlpha 1) { r with data := d1 } >>= fun s => pure s) = _
        cases packChan o fuel (h * w) h (w * 4) 4 3 (timesAlpha 1) { r with data := d1 } <;> rfl
      have key : Holds (packChan o fuel (h * w) h (w * 4) 4 3 (timesAlpha 1) { r with data := d1 }) (fun q => q.ok = true ∧ (∃ p, At q.inp bs p) ∧ Stored 1 4 (h * w) 4 (planesOf css) m.data q.data) := by
        unfold packChan
        simp only [h1, Bool.not_true, Bool.false_eq_true, if_false]
        refine (unpack_ok L (Nat.mul_pos hh hw) (by have := Nat.mul_le_mul_left h (Nat.le_mul_of_pos_right w hk0); omega) cs hCC fuel hf r.ch h3 h2 hnx).bind (fun q hq => ?_)
        obtain ⟨q1, q2, q3⟩ := hq
        rw [if_neg (by simp [q1])]
        have hql : q.ch.length = h * w := by rw [q2, hCC.out]
        have hpl3 : planesOf css 3 = q.ch := by
          unfold planesOf
          rw [q2, List.getD_eq_getElem?_getD, hcc]
          rfl
        refine (spread_spec (k := 1) (timesAlpha 1) q.ch d1 (by decide) hw (by decide) hf2 (by omega) (by rw [hd1.1, h4.len])
          (fun a b _ _ => by unfold timesAlpha; rw [leBytes_length])).bind (fun d2 hd2 => Holds.pure ⟨rfl, ⟨_, q3⟩, by rw [hd2.1, hd1.1, h4.len], fun i hi hlt => ?_, fun i _ h => absurd h (by omega)⟩)
        have hi4 : i / 4 < h * w := Nat.div_lt_of_lt_mul (by rw [Nat.mul_comm]; exact hi)
        show comp 1 d2 i = _
        rw [hd2.2 i hi, hd1.2 i hi]
        by_cases h3' : i % 4 = 3
        · rw [if_pos h3', if_pos h3', h3', hpl3]
          have hcl : (comp 1 q.ch (i / 4)).length = 1 := comp_length (by rw [hql]; omega)
          rw [times_solid _ hcl]
          match hv : comp 1 q.ch (i / 4), hcl with
          | [b], _ => rfl
        · rw [if_neg h3', if_neg h3']
          exact h4.comps i hi (by omega)
      rw [← h43, h1] at key
      exact key.bind (fun q hq => Holds.pure hq)
  · obtain ⟨r1, r3, r4⟩ := hr
    refine ⟨⟨fun _ => trivial, fun _ => r1⟩, by rw [r4.len, g6, Nat.mul_one], r3, fun _ => ?_⟩
    exact hsh r.2.1 r4 (fun c hc => by rw [hpl c hc, Nat.mul_one]) (packedPx w css) (fun x y i hx hy hi => by
      rw [Nat.div_one, Nat.mod_one, Nat.mul_one]
      rfl)

theorem packed_file (L : Laws2 o At) (junk : Nat → UInt8) (fuel : Nat) (d : Doc) (hd : d.Ok) (table rest : List UInt8) (css : List (List Code)) {s : σ}
    (hs : At s (d.before 1 ++ (table ++ css.flatMap chanBytes ++ rest)) 0) (hf : (d.before 1 ++ (table ++ css.flatMap chanBytes ++ rest)).length < fuel) (cur : Loaded)
    {k f : Nat} (hdepth : d.depth = 8) (hop : d.Opaque k f ∨ d.Alpha k f) (hfit : d.width * d.height * k < 4294967296) (ht : table.length = 2 * (d.height * d.channels))
    (hcn : css.length = k) (hcs : ∀ cs ∈ css, Codes cs (d.height * d.width)) :
    Holds (iLoadPsdInternal o junk fuel cur s) (fun r => Result True d.width d.height k 1 f (packedPx d.width css) r.1 r.2.1 ∧
      ∃ q, At r.2.2 (d.before 1 ++ (table ++ css.flatMap chanBytes ++ rest)) q) := by
  refine plain_start L junk fuel d hd 1 (by decide) _ hs cur (.inl rfl) hdepth hop _ (fun t ht' hlt => ?_)
  refine image_of junk fuel d.mode k d.channels true d.resources hd.resources hlt
    (packed_data L junk fuel hf ht' d.width d.height k f d.mode d.channels hd.width.1 hd.height.1 ?_ hfit ht hcn hcs)
  rcases hop with (⟨a, rfl, -⟩ | ⟨a, -, rfl, -⟩) | ⟨a, -, rfl, -⟩
  · exact .inl (by rw [a]; rfl)
  · exact .inl (by rw [a]; rfl)
  · exact .inr ⟨a, rfl⟩

end DevIL.Psd
