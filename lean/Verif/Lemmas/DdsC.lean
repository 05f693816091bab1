import Verif.Lemmas.DdsB
/-! DDS files with DXT data, ATI1N and 3Dc blocks. -/
set_option autoImplicit false
namespace DevIL.Dds

open DevIL.Detect DevIL.DetectSpec DevIL.DdsSpec DevIL.Image DevIL.Games DevIL.GamesSpec

variable {σ : Type} {o : Ops σ} {At : σ → List UInt8 → Nat → Prop}

/-- Which format of DXT data a code stands for. -/
def dxtFmt (f : PF) : Nat := if f = .dxt1 then IL_DXT1 else if f = .dxt3 then IL_DXT3 else IL_DXT5

theorem dec135 {f : PF} (hf : f = .dxt1 ∨ f = .dxt3 ∨ f = .dxt5) (hh : Hd) (w h d : Nat) (m : Img) (c : List UInt8) :
    ddsDecompress hh f w h d m c = (Dxt.DdsDecompress m (dxtFmt f) c >>= fun p => pure (true, p)) := by
  rcases hf with rfl | rfl | rfl <;> rfl

theorem dec2 (hh : Hd) (w h d : Nat) (m : Img) (c : List UInt8) :
    ddsDecompress hh .dxt2 w h d m c = (Dxt.DdsDecompress m IL_DXT3 c >>= fun p => correctPreMult m.size p >>= fun p => pure (true, p)) := rfl

theorem dec4 (hh : Hd) (w h d : Nat) (m : Img) (c : List UInt8) :
    ddsDecompress hh .dxt4 w h d m c = (Dxt.DdsDecompress m IL_DXT5 c >>= fun p => correctPreMult m.size p >>= fun p => pure (false, p)) := rfl

theorem dxt_load (L : Laws2 o At) (junk : Nat → UInt8) (cube : Hd → σ → C (Bool × List Img × σ)) (cur : Img) {t : σ} {bs : List UInt8} {w h : Nat}
    {cc : List UInt8} {f : PF} (hs : At t bs 0) (H : Header bs w h) (K : Code bs cc) (hwh : w * h < 2 ^ 27)
    (hcc : (cc = [68, 88, 84, 49] ∧ f = .dxt1) ∨ (cc = [68, 88, 84, 51] ∧ f = .dxt3) ∨ (cc = [68, 88, 84, 53] ∧ f = .dxt5))
    (hsize : Declares bs (DxtSpec.bytes (Dxt.bsize (dxtFmt f)) w h 1)) :
    Holds (iLoadDdsInternal o junk cube cur t) (fun r => ((128 + DxtSpec.bytes (Dxt.bsize (dxtFmt f)) w h 1 ≤ bs.length → r.1 = true ∧ ∃ m, r.2.1 = [m] ∧
        Dxt.ilDxtcDataToSurface junk (surf junk bs w h (dxtFmt f) (Dxt.bsize (dxtFmt f))) =
          .ok (true, { surf junk bs w h (dxtFmt f) (Dxt.bsize (dxtFmt f)) with img := m })) ∧
      (bs.length < 128 + DxtSpec.bytes (Dxt.bsize (dxtFmt f)) w h 1 → r.1 = false ∧ r.2.1 = [cur])) ∧ ∃ q, At r.2.2 bs q) := by
  have hk : imageKind (hdOf bs) f = (4, IL_RGBA, IL_UNSIGNED_BYTE) := by rcases hcc with h | h | h <;> (rw [h.2]; rfl)
  refine block_load L junk cube cur hs H K hwh (by unfold Dxt.bsize; split <;> decide) (f := f) ?_ ?_ ?_ hsize (fun hl => ?_)
  · intro area blocks
    rcases hcc with ⟨rfl, rfl⟩ | ⟨rfl, rfl⟩ | ⟨rfl, rfl⟩ <;> rfl
  · rcases hcc with h | h | h <;> (rw [h.2]; decide)
  · rcases hcc with h | h | h <;> (rw [h.2]; decide)
  · have hfm : dxtFmt f = IL_DXT1 ∨ dxtFmt f = IL_DXT3 ∨ dxtFmt f = IL_DXT5 := by
      rcases hcc with h | h | h <;> (rw [h.2]; decide)
    obtain ⟨p, e, -, g⟩ := dxt_image junk H.w0 H.h0 hwh hfm hl
    rw [hk]
    refine ⟨p, fun fl li => ?_, g⟩
    rw [dec135 (by rcases hcc with h | h | h <;> simp [h.2])]
    dsimp only
    rw [e]
    rfl

/-! ### Premultiplied alpha -/

/-- What becomes of a component. -/
def unmul (c a : UInt8) : UInt8 := if a ≠ 0 then divide c a else c

theorem premult {d : List UInt8} {N : Nat} (hd : d.length = N * 4) :
    ∃ d', correctPreMult (N * 4) d = .ok d' ∧ d'.length = N * 4 ∧ ∀ j, j < N → d'[j * 4 + 3]? = d[j * 4 + 3]? ∧
      ∀ c, c < 3 → d'[j * 4 + c]? = some (unmul (d.getD (j * 4 + c) 0) (d.getD (j * 4 + 3) 0)) := by
  unfold correctPreMult
  rw [forStep_mul (by decide)]
  have hg : ∀ (d : List UInt8) (t u : Nat) (a : UInt8), t < d.length → (d.set t a)[u]? = if t = u then some a else d[u]? := by
    intro d t u a ht
    by_cases e : t = u
    · subst e; rw [if_pos rfl, List.getElem?_set_self ht]
    · rw [if_neg e, List.getElem?_set_ne e]
  have key := Holds.loop (n := N) (s := d)
    (f := fun k d => do
      let a ← rd d (k * 4 + 3)
      if a ≠ 0 then do
        let r ← rd d (k * 4)
        let d ← wr d (k * 4) (divide r a)
        let g ← rd d (k * 4 + 1)
        let d ← wr d (k * 4 + 1) (divide g a)
        let b ← rd d (k * 4 + 2)
        wr d (k * 4 + 2) (divide b a)
      else pure d)
    (fun j (s : List UInt8) => s.length = N * 4 ∧ (∀ t, j * 4 ≤ t → s[t]? = d[t]?) ∧ ∀ i, i < j → s[i * 4 + 3]? = d[i * 4 + 3]? ∧
      ∀ c, c < 3 → s[i * 4 + c]? = some (unmul (d.getD (i * 4 + c) 0) (d.getD (i * 4 + 3) 0)))
    ⟨hd, fun _ _ => rfl, fun i h => absurd h (by omega)⟩ (fun j s hj hI => ?_)
  · obtain ⟨r, e, hl, hk, hI⟩ := key
    exact ⟨r, e, hl, fun j hj => hI j hj⟩
  · obtain ⟨h1, h2, h3⟩ := hI
    have hD : ∀ c, c < 4 → s[j * 4 + c]? = some (d.getD (j * 4 + c) 0) := fun c hc => by
      rw [h2 _ (by omega), List.getD_eq_getElem?_getD, List.getElem?_eq_getElem (by omega)]; rfl
    have r0 : rd s (j * 4 + 3) = .ok (d.getD (j * 4 + 3) 0) := rd_eq_ok.mpr (hD 3 (by decide))
    rw [r0, bind_ok]
    refine Holds.ite (fun ha => ?_) (fun ha => ?_)
    · rw [rd_eq_ok.mpr (show s[j * 4]? = some (d.getD (j * 4) 0) from hD 0 (by decide)), bind_ok, wr_of_lt (by omega), bind_ok,
        rd_eq_ok.mpr (show (s.set (j * 4) _)[j * 4 + 1]? = some (d.getD (j * 4 + 1) 0) by
          rw [hg _ _ _ _ (by omega), if_neg (by omega)]; exact hD 1 (by decide)), bind_ok, wr_of_lt (by simp; omega), bind_ok,
        rd_eq_ok.mpr (show ((s.set (j * 4) _).set (j * 4 + 1) _)[j * 4 + 2]? = some (d.getD (j * 4 + 2) 0) by
          rw [hg _ _ _ _ (by simp; omega), if_neg (by omega), hg _ _ _ _ (by omega), if_neg (by omega)]; exact hD 2 (by decide)), bind_ok,
        wr_of_lt (by simp; omega)]
      have G : ∀ (a b c : UInt8) (u : Nat), (((s.set (j * 4) a).set (j * 4 + 1) b).set (j * 4 + 2) c)[u]? =
          if j * 4 + 2 = u then some c else if j * 4 + 1 = u then some b else if j * 4 = u then some a else s[u]? := by
        intro a b c u
        rw [hg _ _ _ _ (by simp; omega), hg _ _ _ _ (by simp; omega), hg _ _ _ _ (by omega)]
      refine Holds.ok ⟨by simp [h1], fun t ht => ?_, fun i hi => ?_⟩
      · rw [G, if_neg (by omega), if_neg (by omega), if_neg (by omega)]
        exact h2 t (by omega)
      · by_cases hij : i = j
        · subst hij
          refine ⟨?_, fun c hc => ?_⟩
          · rw [G, if_neg (by omega), if_neg (by omega), if_neg (by omega)]
            exact h2 _ (by omega)
          · unfold unmul
            rw [if_pos ha, G]
            obtain rfl | rfl | rfl : c = 0 ∨ c = 1 ∨ c = 2 := by omega
            · rw [if_neg (by omega), if_neg (by omega), if_pos (by omega)]; rfl
            · rw [if_neg (by omega), if_pos rfl]
            · rw [if_pos rfl]
        · obtain ⟨g1, g2⟩ := h3 i (by omega)
          refine ⟨?_, fun c hc => ?_⟩
          · rw [G, if_neg (by omega), if_neg (by omega), if_neg (by omega)]; exact g1
          · rw [G, if_neg (by omega), if_neg (by omega), if_neg (by omega)]; exact g2 c hc
    · refine Holds.pure ⟨h1, fun t ht => h2 t (by omega), fun i hi => ?_⟩
      by_cases hij : i = j
      · subst hij
        refine ⟨h2 _ (by omega), fun c hc => ?_⟩
        unfold unmul
        rw [if_neg ha]
        exact hD c (by omega)
      · exact h3 i (by omega)

/-- Files with premultiplied alpha: `f2` has the blocks of DXT3, `f4` those of DXT5. -/
theorem premult_load (L : Laws2 o At) (junk : Nat → UInt8) (cube : Hd → σ → C (Bool × List Img × σ)) (cur : Img) {t : σ} {bs : List UInt8} {w h : Nat}
    {cc : List UInt8} {f : PF} {fm : Nat} {ok : Bool} (hs : At t bs 0) (H : Header bs w h) (K : Code bs cc) (hwh : w * h < 2 ^ 27)
    (hcc : (cc = [68, 88, 84, 50] ∧ f = .dxt2 ∧ fm = IL_DXT3 ∧ ok = true) ∨ (cc = [68, 88, 84, 52] ∧ f = .dxt4 ∧ fm = IL_DXT5 ∧ ok = false))
    (hsize : Declares bs (DxtSpec.bytes 16 w h 1)) :
    Holds (iLoadDdsInternal o junk cube cur t) (fun r => ((128 + DxtSpec.bytes 16 w h 1 ≤ bs.length → r.1 = ok ∧ ∃ m, r.2.1 = [m] ∧
        ∃ q, Dxt.ilDxtcDataToSurface junk (surf junk bs w h fm 16) = .ok (true, { surf junk bs w h fm 16 with img := q }) ∧
          Shows m w h 4 IL_RGBA (fun x y c => (q.px x y 0 c).bind fun v => if c = 3 then some v else (q.px x y 0 3).map (unmul v))) ∧
      (bs.length < 128 + DxtSpec.bytes 16 w h 1 → r.1 = false ∧ r.2.1 = [cur])) ∧ ∃ q, At r.2.2 bs q) := by
  have hk : imageKind (hdOf bs) f = (4, IL_RGBA, IL_UNSIGNED_BYTE) := by rcases hcc with h | h <;> (rw [h.2.1]; rfl)
  refine block_load L junk cube cur hs H K hwh (by decide) (f := f) ?_ ?_ ?_ hsize (fun hl => ?_)
  · intro area blocks
    rcases hcc with ⟨rfl, rfl, -⟩ | ⟨rfl, rfl, -⟩ <;> rfl
  · rcases hcc with h | h <;> (rw [h.2.1]; decide)
  · rcases hcc with h | h <;> (rw [h.2.1]; decide)
  · have hfm : fm = IL_DXT1 ∨ fm = IL_DXT3 ∨ fm = IL_DXT5 := by
      rcases hcc with h | h <;> (rw [h.2.2.1]; decide)
    have hb : Dxt.bsize fm = 16 := by rcases hcc with h | h <;> (rw [h.2.2.1]; decide)
    obtain ⟨p, e, lp, g⟩ := dxt_image junk H.w0 H.h0 hwh hfm (by rw [hb]; exact hl)
    rw [hb] at e g
    obtain ⟨p', e', lp', gp⟩ := premult lp
    obtain ⟨-, -, -, -, f9, -⟩ := texN_fields junk w h 4 IL_RGBA H.w0 H.h0 (by decide) (by omega)
    rw [hk]
    refine ⟨p', fun fl li => ?_, ⟨_, g, ?_⟩⟩
    · rcases hcc with ⟨-, rfl, rfl, rfl⟩ | ⟨-, rfl, rfl, rfl⟩
      · rw [dec2]
        dsimp only
        rw [e, bind_ok, f9, e']
        rfl
      · rw [dec4]
        dsimp only
        rw [e, bind_ok, f9, e']
        rfl
    · dsimp only
      rw [texN_eq]
      refine shows_tex junk w h 4 IL_RGBA H.w0 H.h0 (by decide) (by omega) p' lp' _ (fun x y c hx hy hc => ?_)
      have hpx : ∀ c, c < 4 → (({ texN junk w h 1 4 IL_RGBA IL_UNSIGNED_BYTE with data := p } : Img)).px x y 0 c = p[(y * w + x) * 4 + c]? := by
        intro c hc
        have hsh := shows_tex junk w h 4 IL_RGBA H.w0 H.h0 (by decide) (by omega) p lp (fun x y c => p[(y * w + x) * 4 + c]?) (fun _ _ _ _ _ _ => rfl)
        exact (hsh.px x y c hx hy hc).1
      have hj : y * w + x < w * h := by
        have := pix_lt (k := 1) (c := 0) hx hy (by decide)
        omega
      obtain ⟨g1, g2⟩ := gp _ hj
      have hD : ∀ c, c < 4 → p[(y * w + x) * 4 + c]? = some (p.getD ((y * w + x) * 4 + c) 0) := fun c hc => by
        rw [List.getD_eq_getElem?_getD, List.getElem?_eq_getElem (by omega)]; rfl
      rw [hpx c hc, hpx 3 (by decide), hD c hc, hD 3 (by decide)]
      by_cases h3 : c = 3
      · subst h3
        rw [g1, hD 3 (by decide)]
        rfl
      · rw [g2 c (by omega)]
        simp [h3]

end DevIL.Dds
