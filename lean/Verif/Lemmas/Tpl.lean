import Verif.Model.Tpl
import Verif.Spec.Tpl
import Verif.Lemmas.Rot
import Verif.Lemmas.Rotate
/-! TPL files: the tiles. -/
set_option autoImplicit false
namespace DevIL.Tpl
open DevIL.Games DevIL.Detect DevIL.Image DevIL.DetectSpec DevIL.TplSpec
open DevIL.Lump (SEEK_SET SEEK_CUR)
open DevIL.Rotate (loopN_fails)

/-- A move to a place inside the file succeeds. -/
def SeekOk {σ : Type} (o : Ops σ) (At : σ → List UInt8 → Nat → Prop) : Prop :=
  ∀ {s all p} (q : Nat), At s all p → q ≤ all.length → Holds (o.seek s (q : Int) SEEK_SET) (fun r => r.1 = true ∧ At r.2 all q)

theorem fileSeek : SeekOk fileOps FileAt := by
  rintro s all p q ⟨rfl, hst, rfl, hl⟩ hq
  refine Holds.pure ?_
  show (Cache.iSeekRFile s q SEEK_SET).1 = true ∧ FileAt (Cache.iSeekRFile s q SEEK_SET).2 _ _
  rw [seek_set _ _ hst, if_neg (by omega)]
  exact ⟨rfl, rfl, hst, by simp, hl⟩

theorem lumpSeek : SeekOk lumpOps LumpAt := by
  rintro l all p q ⟨hg, rfl, rfl, hl⟩ hq
  have hs := hg.size
  show Holds (Lump.seek l q SEEK_SET) _
  unfold Lump.seek Lump.seekTo
  simp only [SEEK_SET]
  rw [if_pos trivial, if_neg (by unfold Lump.toInt; split <;> omega)]
  have e : Lump.ofInt (q : Int) = q := by unfold Lump.ofInt; omega
  exact ⟨_, rfl, rfl, ⟨hg.size, by show Lump.ofInt (q : Int) ≤ l.size; rw [e]; omega, hg.lt, hg.ne⟩, rfl, e, hl⟩

variable {σ : Type} {o : Ops σ} {At : σ → List UInt8 → Nat → Prop}

/-- What a row of a tile must do: it reads eight bytes, and it changes only the pixels of the tile in its row. -/
def RowOk (At : σ → List UInt8 → Nat → Prop) (bs : List UInt8) (tw w h bpp L : Nat) (val : Nat → Nat → Nat → Option UInt8) (row : Nat → Nat → List UInt8 × σ → C (List UInt8 × σ)) : Prop :=
  ∀ x y p d s, x % tw = 0 → x < w → y < h → At s bs p → p + 8 ≤ bs.length → d.length = L →
    Holds (row (u32 (w * bpp * y + bpp * x)) x (d, s)) (fun t => At t.2 bs (p + 8) ∧ t.1.length = L ∧
      (∀ j c, j < tw → x + j < w → c < bpp → t.1[(y * w + (x + j)) * bpp + c]? = val p j c) ∧
      ∀ x2 y2 c, x2 < w → y2 < h → c < bpp → (y2 ≠ y ∨ x2 / tw ≠ x / tw) → t.1[(y2 * w + x2) * bpp + c]? = d[(y2 * w + x2) * bpp + c]?)

/-- The pixels read so far. -/
def Before (tw ty tx yb x y : Nat) : Prop := y / 4 < ty ∨ (y / 4 = ty ∧ (x / tw < tx ∨ (x / tw = tx ∧ y % 4 < yb)))

theorem tiles_spec (L : Laws2 o At) {bs : List UInt8} {tw w h bpp n off : Nat} {val : Nat → Nat → Nat → Option UInt8} {row : Nat → Nat → List UInt8 × σ → C (List UInt8 × σ)}
    (ht : 0 < tw) (R : RowOk At bs tw w h bpp n val row) {d : List UInt8} {s : σ} (hA : At s bs off) (hd : d.length = n) (hfit : off + tilesOf 4 h * tilesOf tw w * 32 ≤ bs.length) :
    Holds (tiles o tw 4 8 w h (w * bpp) bpp row (d, s)) (fun t => t.1.length = n ∧ (∃ q, At t.2 bs q) ∧
      ∀ x y c, x < w → y < h → c < bpp → t.1[(y * w + x) * bpp + c]? = val (off + ((y / 4) * tilesOf tw w + x / tw) * 32 + (y % 4) * 8) (x % tw) c) := by
  let V := fun x y c => val (off + ((y / 4) * tilesOf tw w + x / tw) * 32 + (y % 4) * 8) (x % tw) c
  let Dn := fun ty tx yb (t : List UInt8 × σ) => t.1.length = n ∧ ∀ x y c, x < w → y < h → c < bpp → Before tw ty tx yb x y → t.1[(y * w + x) * bpp + c]? = V x y c
  have hcol : ∀ x, x < w → x / tw < tilesOf tw w := by
    intro x hx
    unfold tilesOf
    rw [Nat.div_lt_iff_lt_mul ht]
    have := Nat.div_add_mod (w + (tw - 1)) tw
    have := Nat.mod_lt (w + (tw - 1)) ht
    rw [Nat.mul_comm]; omega
  have hin : ∀ k, k < tilesOf tw w → k * tw < w := by
    intro k hk
    unfold tilesOf at hk
    have h1 := Nat.div_mul_le_self (w + (tw - 1)) tw
    have h2 : (k + 1) * tw ≤ (w + (tw - 1)) / tw * tw := Nat.mul_le_mul_right _ hk
    rw [Nat.succ_mul] at h2; omega
  unfold tiles
  rw [forStep_pos (by decide)]
  have key := loopN_inv (f := fun k => (fun y t => forStep 0 w tw (fun x t => loopN 4 (fun yb t =>
      if h ≤ y + yb then do
        let (_, s) ← o.seek t.2 8 SEEK_CUR
        pure (t.1, s)
      else row (u32 (w * bpp * (y + yb) + bpp * x)) x t) t) t) (0 + k * 4)) (n := (h - 0 + (4 - 1)) / 4) (s := (d, s))
    (fun ty t => At t.2 bs (off + ty * tilesOf tw w * 32) ∧ Dn ty 0 0 t)
    ⟨by rw [Nat.zero_mul, Nat.zero_mul]; exact hA, hd, fun x y c _ _ _ hb => by unfold Before at hb; generalize x / tw = g at hb; omega⟩
    (by
      rintro ty t hty ⟨hA1, hD⟩
      have hty : ty < tilesOf 4 h := hty
      simp only [Nat.zero_add]
      rw [forStep_pos ht]
      have inner := loopN_inv (f := fun k => (fun x t => loopN 4 (fun yb t =>
          if h ≤ ty * 4 + yb then do
            let (_, s) ← o.seek t.2 8 SEEK_CUR
            pure (t.1, s)
          else row (u32 (w * bpp * (ty * 4 + yb) + bpp * x)) x t) t) (0 + k * tw)) (n := (w - 0 + (tw - 1)) / tw) (s := t)
        (fun tx t => At t.2 bs (off + (ty * tilesOf tw w + tx) * 32) ∧ Dn ty tx 0 t) ⟨hA1, hD⟩
        (by
          rintro tx t htx ⟨hA2, hD2⟩
          have htx : tx < tilesOf tw w := htx
          simp only [Nat.zero_add]
          have hp : (ty * tilesOf tw w + tx + 1) * 32 ≤ tilesOf 4 h * tilesOf tw w * 32 := by
            refine Nat.mul_le_mul_right _ ?_
            have := Nat.mul_le_mul_right (tilesOf tw w) (show ty + 1 ≤ tilesOf 4 h from hty)
            rw [Nat.succ_mul] at this; omega
          have rows := loopN_inv (f := fun yb t => if h ≤ ty * 4 + yb then do
                let (_, s) ← o.seek t.2 8 SEEK_CUR
                pure (t.1, s)
              else row (u32 (w * bpp * (ty * 4 + yb) + bpp * (tx * tw))) (tx * tw) t) (n := 4) (s := t)
            (fun yb t => At t.2 bs (off + (ty * tilesOf tw w + tx) * 32 + yb * 8) ∧ Dn ty tx yb t) ⟨hA2, hD2⟩
            (by
              rintro yb ⟨d1, s1⟩ hyb ⟨hA3, hl3, hD3⟩
              simp only [] at hA3 hl3 hD3 ⊢
              by_cases hy : h ≤ ty * 4 + yb
              · rw [if_pos hy]
                obtain ⟨⟨b, s2⟩, e, -, h2⟩ := L.seekCur 8 hA3
                rw [e, bind_ok]
                refine ⟨_, rfl, ?_, hl3, fun x y c hx hy' hc hb => hD3 x y c hx hy' hc (by unfold Before at hb ⊢; omega)⟩
                exact h2 _ (by omega) (by omega)
              · rw [if_neg hy]
                obtain ⟨⟨d2, s2⟩, e, h1, h2, h3, h4⟩ := R (tx * tw) (ty * 4 + yb) _ d1 s1 (by rw [Nat.mul_mod_left]) (hin tx htx) (by omega) hA3 (by omega) hl3
                refine ⟨_, e, ?_, h2, fun x y c hx hy' hc hb => ?_⟩
                · simp only [] at h1 ⊢
                  rw [Nat.succ_mul, ← Nat.add_assoc]; exact h1
                · simp only [] at h3 h4 ⊢
                  rw [Nat.mul_div_cancel _ ht] at h4
                  by_cases hh : y = ty * 4 + yb ∧ x / tw = tx
                  · obtain ⟨rfl, hx2⟩ := hh
                    have hdm := Nat.div_add_mod x tw
                    have hm := Nat.mod_lt x ht
                    rw [hx2, Nat.mul_comm] at hdm
                    have := h3 (x % tw) c hm (by omega) hc
                    rw [hdm] at this
                    rw [this]
                    show _ = val _ _ _
                    have e1 : (ty * 4 + yb) / 4 = ty := by omega
                    have e2 : (ty * 4 + yb) % 4 = yb := by omega
                    rw [e1, e2, hx2]
                  · rw [h4 x y c hx hy' hc (by omega)]
                    exact hD3 x y c hx hy' hc (by unfold Before at hb ⊢; omega))
          obtain ⟨t', e, h1, h2, h3⟩ := rows
          refine ⟨t', e, ?_, h2, fun x y c hx hy hc hb => h3 x y c hx hy hc (by unfold Before at hb ⊢; omega)⟩
          rw [← Nat.add_assoc, Nat.add_mul _ 1, ← Nat.add_assoc]
          exact h1)
      obtain ⟨t', e, h1, h2, h3⟩ := inner
      refine ⟨t', e, ?_, h2, fun x y c hx hy hc hb => h3 x y c hx hy hc ?_⟩
      · rw [Nat.succ_mul]; exact h1
      · have := hcol x hx
        show Before tw ty (tilesOf tw w) 0 x y
        unfold Before at hb ⊢; generalize x / tw = g at hb this ⊢; omega)
  obtain ⟨t, e, h1, h2, h3⟩ := key
  refine ⟨t, e, h2, ⟨_, h1⟩, fun x y c hx hy hc => h3 x y c hx hy hc ?_⟩
  unfold Before; omega

/-- Tiles whose rows keep something true keep it true. -/
theorem tiles_safe (I : List UInt8 × σ → Prop) {tw th pad w h bps bpp : Nat} {row : Nat → Nat → List UInt8 × σ → C (List UInt8 × σ)} (ht : 0 < tw) (hh : 0 < th)
    (hk : ∀ t, I t → Holds (o.seek t.2 pad SEEK_CUR) (fun r => I (t.1, r.2)))
    (hr : ∀ x y t, x % tw = 0 → x < w → y < h → I t → Holds (row (u32 (bps * y + bpp * x)) x t) I) {t : List UInt8 × σ} (h0 : I t) :
    Holds (tiles o tw th pad w h bps bpp row t) I := by
  unfold tiles
  rw [forStep_pos hh]
  refine loopN_inv (fun _ => I) h0 (fun ky t _ ht1 => ?_)
  rw [forStep_pos ht]
  refine loopN_inv (fun _ => I) ht1 (fun kx t hkx ht2 => ?_)
  refine loopN_inv (fun _ => I) ht2 (fun yb t _ ht3 => ?_)
  split
  · obtain ⟨⟨b, s⟩, e, h1⟩ := hk t ht3
    rw [e, bind_ok]
    exact ⟨_, rfl, h1⟩
  · refine hr _ _ t (by rw [Nat.zero_add, Nat.mul_mod_left]) ?_ (by omega) ht3
    have h1 := Nat.div_mul_le_self (w - 0 + (tw - 1)) tw
    have h2 : (kx + 1) * tw ≤ (w - 0 + (tw - 1)) / tw * tw := Nat.mul_le_mul_right _ hkx
    rw [Nat.succ_mul] at h2; omega

/-- Tiles fail when the last row of the last tile does. -/
theorem tiles_fails (I : List UInt8 × σ → Prop) {err : Fault} {tw th pad w h bps bpp : Nat} {row : Nat → Nat → List UInt8 × σ → C (List UInt8 × σ)} (ht : 0 < tw) (hh : 0 < th)
    (hw : 0 < w) (hh0 : 0 < h) (hk : ∀ t, I t → Holds (o.seek t.2 pad SEEK_CUR) (fun r => I (t.1, r.2)))
    (hr : ∀ x y t, x % tw = 0 → x < w → y < h → I t → Holds (row (u32 (bps * y + bpp * x)) x t) I ∨ row (u32 (bps * y + bpp * x)) x t = .error err)
    (hl : ∀ t, I t → row (u32 (bps * (h - 1) + bpp * ((w - 1) / tw * tw))) ((w - 1) / tw * tw) t = .error err) {t : List UInt8 × σ} (h0 : I t) :
    tiles o tw th pad w h bps bpp row t = .error err := by
  have hin : ∀ k, k < (w - 0 + (tw - 1)) / tw → k * tw < w := by
    intro k hk
    have h1 := Nat.div_mul_le_self (w - 0 + (tw - 1)) tw
    have h2 : (k + 1) * tw ≤ (w - 0 + (tw - 1)) / tw * tw := Nat.mul_le_mul_right _ hk
    rw [Nat.succ_mul] at h2; omega
  have hlast : ∀ t n, 0 < t → 0 < n → (n - 1) / t < (n - 0 + (t - 1)) / t := by
    intro t n h1 h2
    rw [show n - 0 + (t - 1) = n - 1 + t by omega, Nat.add_div_right _ h1]
    omega
  have one : ∀ ky kx yb t, kx < (w - 0 + (tw - 1)) / tw → I t →
      (∃ t', (if h ≤ ky + yb then do
        let (_, s) ← o.seek t.2 (pad : Int) SEEK_CUR
        pure (t.1, s)
      else row (u32 (bps * (ky + yb) + bpp * (0 + kx * tw))) (0 + kx * tw) t) = Except.ok t' ∧ I t') ∨ (if h ≤ ky + yb then do
        let (_, s) ← o.seek t.2 (pad : Int) SEEK_CUR
        pure (t.1, s)
      else row (u32 (bps * (ky + yb) + bpp * (0 + kx * tw))) (0 + kx * tw) t) = .error err := by
    intro ky kx yb t hkx hI
    split
    · obtain ⟨⟨b, s⟩, e, h1⟩ := hk t hI
      rw [e, bind_ok]
      exact .inl ⟨_, rfl, h1⟩
    · rcases hr (0 + kx * tw) (ky + yb) t (by rw [Nat.zero_add, Nat.mul_mod_left]) (by rw [Nat.zero_add]; exact hin kx hkx) (by omega) hI with ⟨t', e, h1⟩ | e
      · exact .inl ⟨t', e, h1⟩
      · exact .inr e
  have many : ∀ {n : Nat} {f : Nat → List UInt8 × σ → C (List UInt8 × σ)} {t : List UInt8 × σ}, I t → (∀ k t, k < n → I t → (∃ t', f k t = .ok t' ∧ I t') ∨ f k t = .error err) →
      (∃ t', loopN n f t = .ok t' ∧ I t') ∨ loopN n f t = .error err := by
    intro n f t hI hs
    induction n with
    | zero => exact .inl ⟨t, rfl, hI⟩
    | succ n ih =>
      rw [loopN_succ]
      rcases ih (fun k t hk => hs k t (by omega)) with ⟨t', e, h1⟩ | e
      · rw [e, bind_ok]; exact hs n t' (by omega) h1
      · rw [e]; exact .inr rfl
  unfold tiles
  rw [forStep_pos hh]
  refine loopN_fails I h0 (fun ky t hky hI => ?_) (hlast th h hh hh0) (fun t hI => ?_)
  · simp only []
    rw [forStep_pos ht]
    exact many hI (fun kx t hkx hI => many hI (fun yb t _ hI => one _ _ _ _ hkx hI))
  · simp only []
    rw [forStep_pos ht]
    refine loopN_fails I hI (fun kx t hkx hI => many hI (fun yb t _ hI => one _ _ _ _ hkx hI)) (hlast tw w ht hw) (fun t hI => ?_)
    have hm := Nat.mod_lt (h - 1) hh
    have hdm := Nat.div_add_mod (h - 1) th
    rw [Nat.mul_comm] at hdm
    refine loopN_fails I hI (fun yb t _ hI => one _ _ _ _ (hlast tw w ht hw) hI) hm (fun t hI => ?_)
    rw [if_neg (by omega), show 0 + (h - 1) / th * th + (h - 1) % th = h - 1 by omega, Nat.zero_add]
    exact hl t hI

end DevIL.Tpl
