import Verif.Lemmas.Colour
import Verif.Props.Image
/-! Loops of the functions that change bytes one by one, of the noise and of the histogram. -/
set_option autoImplicit false
namespace DevIL.Colour
open Utility

/-- A loop that changes every cell by a function of the cell. -/
theorem mapLoop {d : List UInt8} {n : Nat} (hn : n = d.length) (f : UInt8 → UInt8) (g : Nat → List UInt8 → C (List UInt8))
    (hg : ∀ i d' v, i < n → d'.length = n → d'[i]? = some v → g i d' = .ok (d'.set i (f v))) : loopN n g d = .ok (d.map f) := by
  subst hn
  have key : ∀ k, k ≤ d.length → loopN k g d = .ok ((d.take k).map f ++ d.drop k) := by
    intro k
    induction k with
    | zero => intro _; simp
    | succ k ih =>
      intro hk
      rw [loopN_succ, ih (by omega), bind_ok]
      have hv : ((d.take k).map f ++ d.drop k)[k]? = some d[k] := by
        rw [List.getElem?_append_right (by simp; omega), List.getElem?_drop, List.getElem?_eq_getElem (by simp; omega)]
        congr 2
        simp; omega
      rw [hg k _ _ (by omega) (by simp; omega) hv]
      congr 1
      rw [List.set_append_right _ _ (by simp; omega)]
      have e : k - ((d.take k).map f).length = 0 := by simp; omega
      rw [e, List.drop_eq_getElem_cons (by omega), List.set_cons_zero, List.take_succ_eq_append_getElem (by omega), List.map_append,
        List.append_assoc]
      rfl
  have := key d.length (Nat.le_refl _)
  simpa using this

theorem byteLoop (d : List UInt8) (f : UInt8 → UInt8) : loopN d.length (fun i d => rd d i >>= fun v => wr d i (f v)) d = .ok (d.map f) := by
  refine mapLoop rfl f _ fun i d' v hi hl hv => ?_
  simp only [rd_eq_ok.mpr hv, bind_ok]
  rw [wr_of_lt (by omega)]

theorem mix_loop {mix : UInt8 → UInt8 → C Int} {f : UInt8 → Int} (h : ∀ v, mix 127 v = .ok (f v)) (d : List UInt8) :
    iIntExtImg mix d.length (List.replicate d.length 127) d = .ok (d.map fun v => clamp (f v)) := by
  unfold iIntExtImg
  refine mapLoop rfl _ _ fun i d' v hi hl hv => ?_
  rw [rd_of_lt (by simpa using hi)]
  simp only [List.getElem_replicate, bind_ok, rd_eq_ok.mpr hv, h]
  rw [wr_of_lt (by omega)]

theorem new_image (junk : Nat → UInt8) {m : Img} (hm : m.Whole) :
    ∃ g, Image.ilNewImage junk m.width m.height m.depth m.bpp m.bpc = .ok (some g) ∧ g.size = m.size ∧ g.data.length = m.size := by
  have hp : ¬(m.bpp = 0 ∨ m.bpp > 4) := by
    have h1 := hm.bppF
    have h2 := hm.bpp0
    unfold ilGetBppFormat at h1
    repeat' split at h1
    all_goals omega
  have hb : ilGetBpcType (ilGetTypeBpc m.bpc) = m.bpc := by
    have h1 := hm.bpcT
    have h2 := hm.bpc0
    unfold ilGetBpcType at h1
    split at h1
    · rw [h1]; rfl
    · split at h1
      · rw [h1]; rfl
      · split at h1
        · rw [h1]; rfl
        · split at h1
          · rw [h1]; rfl
          · omega
  have hs := hm.cons.2.2.1
  have hf := hm.fits
  have h0 := hm.w0
  have h1 := hm.h0
  have h2 := hm.d0
  have ew : max m.width 1 = m.width := by omega
  have eh : max m.height 1 = m.height := by omega
  have ed : max m.depth 1 = m.depth := by omega
  obtain ⟨g, e, c, hw, hh, hd, hbp, hbc, _⟩ := Image.C14_geometry_partial junk m.width m.height m.depth m.bpp (ilGetFormatBpp m.bpp) (ilGetTypeBpc m.bpc) none
    (by rw [hb]; exact Nat.ne_of_gt hm.bpc0) (by rw [hb, ew, eh, ed, ← hs]; exact hf) (fun _ h => by cases h)
  have sz : g.size = m.size := by rw [c.2.2.1, hw, hh, hd, hbp, hbc, hb, ew, eh, ed, hs]
  refine ⟨g, ?_, sz, by rw [c.2.2.2, sz]⟩
  unfold Image.ilNewImage
  rw [if_neg hp, e]

/-! ### Noise -/

/-- The number in some bytes, the lowest first. -/
def leNum (l : List UInt8) : Nat := l.foldr (fun b n => b.toNat + 256 * n) 0

theorem getN_at {k : Nat} (hk : k = 1 ∨ k = 2) {A c B : List UInt8} (hc : c.length = k) : getN k A.length (A ++ (c ++ B)) = .ok (leNum c) := by
  rcases hk with rfl | rfl
  · match c, hc with
    | [u], _ =>
      unfold getN
      rw [loopN_succ, loopN_zero, bind_ok, Nat.add_zero]
      simp only [List.cons_append, List.nil_append]
      rw [rd0, bind_ok]
      simp [leNum, pure, Except.pure]
  · match c, hc with
    | [u, v], _ =>
      unfold getN
      rw [loopN_succ, loopN_succ, loopN_zero, bind_ok, Nat.add_zero]
      simp only [List.cons_append, List.nil_append]
      rw [rd0, bind_ok, pure_eq_ok, bind_ok, rd1, bind_ok]
      simp [leNum, pure, Except.pure, Nat.mul_comm]

theorem putN_at {k v : Nat} (hk : k = 1 ∨ k = 2) {A c B : List UInt8} (hc : c.length = k) (hv : v < 256 ^ k) :
    ∃ c', putN k A.length v (A ++ (c ++ B)) = .ok (A ++ (c' ++ B)) ∧ c'.length = k ∧ leNum c' = v := by
  rcases hk with rfl | rfl
  · match c, hc with
    | [u], _ =>
      refine ⟨[UInt8.ofNat v], ?_, rfl, ?_⟩
      · unfold putN
        rw [loopN_succ, loopN_zero, bind_ok, Nat.add_zero]
        simp only [List.cons_append, List.nil_append]
        rw [wr0]
        simp
      · simp [leNum]; omega
  · match c, hc with
    | [u, w], _ =>
      refine ⟨[UInt8.ofNat v, UInt8.ofNat (v / 256)], ?_, rfl, ?_⟩
      · unfold putN
        rw [loopN_succ, loopN_succ, loopN_zero, bind_ok, Nat.add_zero]
        simp only [List.cons_append, List.nil_append]
        rw [wr0, bind_ok, wr1]
        simp
      · simp [leNum]; omega

/-- The new value of a component: the sum, limited to what a component can hold. -/
def limited (k : Nat) (v : Int) : Int := max 0 (min (256 ^ k - 1) v)

theorem leNum_lt (l : List UInt8) : leNum l < 256 ^ l.length := by
  induction l with
  | nil => decide
  | cons b t ih =>
    have := b.toNat_lt
    simp only [leNum, List.foldr_cons, List.length_cons, Nat.pow_succ] at *
    omega

theorem noisyN_spec {k v : Nat} {val : Int} (hk : k = 1 ∨ k = 2) (hv : v < 256 ^ k) :
    ∃ r, noisyN k v val = .ok r ∧ r < 256 ^ k ∧ (r : Int) = limited k (v + val) := by
  unfold noisyN limited
  rcases hk with rfl | rfl
  · refine ⟨noisy 255 v val, by simp [pure, Except.pure], ?_⟩
    unfold noisy
    rw [Int.max_def, Int.min_def]
    split
    · refine ⟨by decide, ?_⟩; split <;> split <;> omega
    · split
      · refine ⟨by decide, ?_⟩; split <;> split <;> omega
      · refine ⟨by omega, ?_⟩; split <;> split <;> omega
  · refine ⟨noisy 65535 v val, by simp [pure, Except.pure], ?_⟩
    unfold noisy
    rw [Int.max_def, Int.min_def]
    split
    · refine ⟨by decide, ?_⟩; split <;> split <;> omega
    · split
      · refine ⟨by decide, ?_⟩; split <;> split <;> omega
      · refine ⟨by omega, ?_⟩; split <;> split <;> omega

theorem noisePixel_spec {k bpp i : Nat} {val : Int} {P c Q : List UInt8} (hk : k = 1 ∨ k = 2) (hP : P.length = i * k) (hc : c.length = bpp * k) :
    ∃ c', noisePixel k bpp i val (P ++ (c ++ Q)) = .ok (P ++ (c' ++ Q)) ∧ c'.length = bpp * k ∧
      ∀ j, j < bpp → (leNum (chunk k j c') : Int) = limited k (leNum (chunk k j c) + val) := by
  obtain ⟨t, b', e, h, l, r⟩ := chunksIn (k := k) (n := bpp) id (fun _ a b => (leNum b : Int) = limited k (leNum a + val))
    (fun c d => do
      let v ← getN k ((i + c) * k) d
      let v ← noisyN k v val
      putN k ((i + c) * k) v d) (P ++ (c ++ Q)) P Q c rfl hc (by
      intro p t A a B hp ht hA ha
      have ht' : t = (P ++ A) ++ (a ++ B) := by rw [show t = P ++ (A ++ (a ++ B)) from ht]; simp
      have hi : (i + p) * k = (P ++ A).length := by rw [List.length_append, hP, hA, Nat.add_mul]
      have hlt := leNum_lt a
      rw [ha] at hlt
      obtain ⟨n, en, ln, rn⟩ := noisyN_spec (val := val) hk hlt
      obtain ⟨a', ea, la, ra⟩ := putN_at (A := P ++ A) (B := B) hk ha ln
      refine ⟨(P ++ A) ++ (a' ++ B), a', ?_, ?_, la, by rw [ra]; exact rn⟩
      · rw [hi, ht', getN_at hk ha, bind_ok, en, bind_ok, ea]
      · simp)
  refine ⟨b', ?_, l, r⟩
  unfold noisePixel
  rw [e]
  exact congrArg _ h

theorem noiseLoop_spec {k N bpp factor : Nat} (rand : Nat → Nat) (mask : Option (List UInt8)) {d : List UInt8} (hk : k = 1 ∨ k = 2) (hb : 0 < bpp)
    (hl : d.length = N * (bpp * k)) (hf0 : 0 < factor) (hf : factor < 2 ^ 31) (hm : ∀ r, mask = some r → N ≤ r.length) :
    ∃ s, noiseLoop k (N * bpp) bpp factor rand mask d = .ok s ∧ s.1.length = d.length ∧
      ∀ p, p < N → ((∃ r, mask = some r ∧ r[p]? = some 0) ∧ chunk (bpp * k) p s.1 = chunk (bpp * k) p d) ∨
        ((∀ r, mask = some r → r[p]? ≠ some 0) ∧ ∃ val : Int, -(factor : Int) ≤ val ∧ val < factor ∧
          ∀ j, j < bpp → (leNum (chunk k j (chunk (bpp * k) p s.1)) : Int) = limited k (leNum (chunk k j (chunk (bpp * k) p d)) + val)) := by
  have hu : u32 (factor + factor) = factor + factor := u32_of_lt (by omega)
  obtain ⟨t, e, l, r⟩ := chunks (k := bpp * k) (n := N) (S := List UInt8 × Nat) Prod.fst
    (fun p c c' => ((∃ r, mask = some r ∧ r[p]? = some 0) ∧ c' = c) ∨
        ((∀ r, mask = some r → r[p]? ≠ some 0) ∧ ∃ val : Int, -(factor : Int) ≤ val ∧ val < factor ∧
          ∀ j, j < bpp → (leNum (chunk k j c') : Int) = limited k (leNum (chunk k j c) + val)))
    (fun q s =>
      inRegion mask (q * bpp / bpp) >>= fun inside =>
      if inside then
        if u32 (factor + factor) = 0 then .error .overflow
        else do
          let val : Int := (rand s.2 % u32 (factor + factor) : Nat) - (factor : Int)
          let d ← noisePixel k bpp (q * bpp) val s.1
          pure (d, s.2 + 1)
      else pure s) (d, 0) hl (by
      intro p t A c B hp ht hA hc
      rw [Nat.mul_div_cancel _ hb, hu]
      have key : (inRegion mask p = .ok true ∧ ∀ r, mask = some r → r[p]? ≠ some 0) ∨
          (inRegion mask p = .ok false ∧ ∃ r, mask = some r ∧ r[p]? = some 0) := by
        cases mask with
        | none => exact Or.inl ⟨rfl, fun r h => by cases h⟩
        | some r =>
          have hr := hm r rfl
          have hget : r[p]? = some r[p] := List.getElem?_eq_getElem (by omega)
          unfold inRegion
          simp only [rd_of_lt (show p < r.length by omega), bind_ok]
          by_cases h0 : r[p] = 0
          · exact Or.inr ⟨by rw [h0]; rfl, r, rfl, by rw [hget, h0]⟩
          · refine Or.inl ⟨by rw [show (r[p] != 0) = true by simpa using h0]; rfl, fun r' h => ?_⟩
            cases h
            rw [hget]
            exact fun h => h0 (Option.some.inj h)
      rcases key with ⟨inside, hn⟩ | ⟨outside, hn⟩
      · have hlt : rand t.2 % (factor + factor) < factor + factor := Nat.mod_lt _ (by omega)
        obtain ⟨c', e, lc, rc⟩ := noisePixel_spec (i := p * bpp) (val := (rand t.2 % (factor + factor) : Nat) - (factor : Int)) (P := A) (Q := B) hk
          (by rw [hA, Nat.mul_assoc]) hc
        refine ⟨(A ++ (c' ++ B), t.2 + 1), c', ?_, rfl, lc, Or.inr ⟨hn, _, ?_, ?_, rc⟩⟩
        · rw [inside, bind_ok, if_pos rfl, if_neg (by omega), ht]
          simp only [e, bind_ok]
          rfl
        · omega
        · omega
      · refine ⟨t, c, ?_, ht, hc, Or.inl ⟨hn, rfl⟩⟩
        rw [outside]
        rfl)
  refine ⟨t, ?_, by rw [hl]; exact l, r⟩
  unfold noiseLoop
  rw [forStep_mul hb]
  exact e

/-! ### Histogram -/

theorem histogram_spec {n : Nat} {lum : List UInt8} (hl : n ≤ lum.length) (hn : n < 2 ^ 32) :
    ∃ h, histogram n lum = .ok h ∧ h.length = 256 ∧ ∀ v : UInt8, h[v.toNat]? = some ((lum.take n).count v) := by
  unfold histogram
  obtain ⟨t, e, l, r⟩ := loopN_inv (n := n) (f := fun i h => do
      let v ← rd lum i
      let c ← rd h v.toNat
      wr h v.toNat (u32 (c + 1))) (s := List.replicate 256 0)
    (fun k h => h.length = 256 ∧ ∀ v : UInt8, h[v.toNat]? = some ((lum.take k).count v)) ⟨List.length_replicate, fun v => by
      rw [List.getElem?_replicate, if_pos v.toNat_lt]; rfl⟩ (by
      rintro k h hk ⟨lh, ih⟩
      have hlt := (lum[k]'(by omega)).toNat_lt
      have hcnt : (lum.take k).count (lum[k]'(by omega)) ≤ k := Nat.le_trans List.count_le_length (by rw [List.length_take]; omega)
      refine ⟨h.set (lum[k]'(by omega)).toNat ((lum.take k).count (lum[k]'(by omega)) + 1), ?_, by simpa using lh, fun v => ?_⟩
      · rw [rd_of_lt (show k < lum.length by omega), bind_ok, rd_eq_ok.mpr (ih _), bind_ok, wr_of_lt (by omega), u32_of_lt (by omega)]
      · rw [List.take_succ_eq_append_getElem (by omega), List.count_append, List.count_singleton]
        by_cases hv : lum[k]'(by omega) = v
        · subst hv
          rw [List.getElem?_set_self (by omega)]
          simp
        · rw [List.getElem?_set_ne (fun h => hv (UInt8.toNat_inj.mp h)), ih]
          simp [hv])
  exact ⟨t, e, l, r⟩

/-- The number of the first `n` pixels that are darker than `v`. -/
def darker (n : Nat) (lum : List UInt8) (v : Nat) : Nat := (lum.take n).countP (fun u => u.toNat < v)

theorem darker_le (n : Nat) (lum : List UInt8) (v : Nat) : darker n lum v ≤ n :=
  Nat.le_trans List.countP_le_length (by rw [List.length_take]; omega)

theorem countP_succ (l : List UInt8) (j : Nat) (hj : j < 256) :
    l.countP (fun u => u.toNat < j + 1) = l.countP (fun u => u.toNat < j) + l.count (UInt8.ofNat j) := by
  induction l with
  | nil => rfl
  | cons a t ih =>
    rw [List.countP_cons, List.countP_cons, List.count_cons, ih]
    have ha := a.toNat_lt
    have : (a == UInt8.ofNat j) = decide (a.toNat = j) := by
      rw [Bool.eq_iff_iff]
      simp only [beq_iff_eq, decide_eq_true_eq]
      rw [← UInt8.toNat_inj, UInt8.toNat_ofNat']
      omega
    rw [this]
    by_cases h1 : a.toNat = j
    · simp [h1]; omega
    · by_cases h2 : a.toNat < j
      · simp [h1, h2, Nat.lt_succ_of_lt h2]; omega
      · simp [h1, h2, show ¬ a.toNat < j + 1 by omega]

theorem sumHist_spec {n : Nat} {lum : List UInt8} {h : List Nat} (hn0 : 0 < n) (hn : n < 2 ^ 32) (hl : h.length = 256)
    (hh : ∀ v : UInt8, h[v.toNat]? = some ((lum.take n).count v)) :
    ∃ s, sumHist n h = .ok s ∧ s.length = 256 ∧ ∀ v, v < 256 → s[v]? = some (u32 (darker n lum v * 256) / n) := by
  have inner : ∀ i, i ≤ 256 → loopN i (fun j sum => rd h j >>= fun v => pure (u32 (sum + v))) 0 = .ok (darker n lum i) := by
    intro i
    induction i with
    | zero => intro _; simp [darker]
    | succ j ih =>
      intro hj
      rw [loopN_succ, ih (by omega), bind_ok]
      have := hh (UInt8.ofNat j)
      rw [UInt8.toNat_ofNat', Nat.mod_eq_of_lt (by omega)] at this
      rw [rd_eq_ok.mpr this, bind_ok]
      have e : darker n lum (j + 1) = darker n lum j + (lum.take n).count (UInt8.ofNat j) := countP_succ _ _ (by omega)
      have := darker_le n lum (j + 1)
      rw [u32_of_lt (by omega), e]; rfl
  unfold sumHist
  obtain ⟨t, e, l, r⟩ := loopN_inv (n := 256) (f := fun i s => do
      let sum ← loopN i (fun j sum => rd h j >>= fun v => pure (u32 (sum + v))) 0
      if n = 0 then .error .overflow
      else wr s i (u32 (sum * 256) / n)) (s := List.replicate 256 0)
    (fun k s => s.length = 256 ∧ ∀ v, v < k → s[v]? = some (u32 (darker n lum v * 256) / n)) ⟨List.length_replicate, fun v h => absurd h (Nat.not_lt_zero _)⟩ (by
      rintro k s hk ⟨ls, is⟩
      refine ⟨s.set k (u32 (darker n lum k * 256) / n), ?_, by simpa using ls, fun v hv => ?_⟩
      · rw [inner k (by omega), bind_ok, if_neg (by omega), wr_of_lt (by omega)]
      · by_cases h : k = v
        · subst h
          rw [List.getElem?_set_self (by omega)]
        · rw [List.getElem?_set_ne h, is v (by omega)])
  exact ⟨t, e, l, r⟩

/-- The new value of a component of a pixel of luminance `old`. -/
def stretched (mul : UInt8 → Nat → Nat → Nat) (n : Nat) (lum : List UInt8) (old v : UInt8) : UInt8 :=
  UInt8.ofNat (min 255 (mul v (u32 (darker n lum old.toNat * 256) / n) old.toNat))

theorem equalOne_spec {mul : UInt8 → Nat → Nat → Nat} {n comps i : Nat} {lum : List UInt8} {s : List Nat} {A c B : List UInt8} {old : UInt8}
    (hs : ∀ v, v < 256 → s[v]? = some (u32 (darker n lum v * 256) / n)) (hi : lum[i]? = some old) (h0 : old ≠ 0)
    (hc : c.length = comps) (hc0 : 0 < comps) :
    ∃ c', equalOne mul s lum comps i A.length (A ++ (c ++ B)) = .ok (A ++ (c' ++ B)) ∧ c'.length = comps ∧
      ∀ b, b < comps → c'[b]? = if b < (if 3 ≤ comps then 3 else 1) then c[b]?.map (stretched mul n lum old) else c[b]? := by
  have ho : old.toNat ≠ 0 := fun h => h0 (UInt8.toNat_inj.mp h)
  have hst : ∀ v, stretch mul (u32 (darker n lum old.toNat * 256) / n) old.toNat v = .ok (stretched mul n lum old v) := by
    intro v
    unfold stretch stretched
    rw [if_neg ho]; rfl
  unfold equalOne
  rw [rd_eq_ok.mpr hi, bind_ok, rd_eq_ok.mpr (hs old.toNat old.toNat_lt), bind_ok]
  by_cases h3 : 3 ≤ comps
  · obtain ⟨x, y, z, t, rfl⟩ := three (c := c) (by omega)
    simp only [List.cons_append]
    rw [rd0, bind_ok, hst, bind_ok, if_pos h3, rd1, bind_ok, hst, bind_ok, rd2, bind_ok, hst, bind_ok, wr0, bind_ok, wr1, bind_ok, wr2]
    refine ⟨stretched mul n lum old x :: stretched mul n lum old y :: stretched mul n lum old z :: t, rfl, by simpa using hc, fun b hb => ?_⟩
    rw [if_pos h3]
    match b with
    | 0 => rfl
    | 1 => rfl
    | 2 => rfl
    | b + 3 => rw [if_neg (by omega)]; rfl
  · match c, hc with
    | x :: t, hc =>
      simp only [List.cons_append]
      rw [rd0, bind_ok, hst, bind_ok, if_neg h3, wr0]
      refine ⟨stretched mul n lum old x :: t, rfl, by simpa using hc, fun b hb => ?_⟩
      rw [if_neg h3]
      match b with
      | 0 => rfl
      | b + 1 => rw [if_neg (by omega)]; rfl
    | [], hc => simp at hc; omega

end DevIL.Colour
