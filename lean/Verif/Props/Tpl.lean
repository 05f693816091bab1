import Verif.Lemmas.TplC
import Verif.Props.Games
import Verif.Lemmas.Dpx
/-! TPL textures: C227 (grey and RGB565 textures), C228 (safety). -/
set_option autoImplicit false
namespace DevIL.Tpl
open DevIL.Games DevIL.Detect DevIL.Image DevIL.DetectSpec DevIL.TplSpec DevIL.GamesSpec
open DevIL.Lump (SEEK_SET SEEK_CUR)
open DevIL.Rotate (loopN_fails)

/-- A program for the textures with a palette and the compressed ones. -/
abbrev Other (σ : Type) := Nat → Nat → Img → σ → C (Bool × Img × σ)

/-- Loading from an open file and from memory. -/
def Loads (junk : Nat → UInt8) (oF : Other Cache.S) (oL : Other Lump.R) (cur : Img) (bs : List UInt8) (P : Bool → List Img → Prop) : Prop :=
  Both (iLoadTplInternal fileOps junk oF cur) (iLoadTplInternal lumpOps junk oL cur) bs P

/-- Loading from an open file and from memory runs into this fault. -/
def Fails (junk : Nat → UInt8) (oF : Other Cache.S) (oL : Other Lump.R) (cur : Img) (bs : List UInt8) (e : Fault) : Prop :=
  ilLoadF (iLoadTplInternal fileOps junk oF cur) (opened bs 0) = .error e ∧ ilLoadL (iLoadTplInternal lumpOps junk oL cur) bs bs.length = .error e

section
variable {σ : Type} {o : Ops σ} {At : σ → List UInt8 → Nat → Prop}

theorem blank_fields (junk : Nat → UInt8) (w h k f : Nat) (hw : 0 < w) (hh : 0 < h) (hk : 0 < k) (hfit : w * h * k < 4294967296) :
    (blank junk w h k f).width = w ∧ (blank junk w h k f).height = h ∧ (blank junk w h k f).bps = w * k ∧ (blank junk w h k f).bpp = k ∧ (blank junk w h k f).data.length = w * h * k ∧
      (blank junk w h k f).size = w * h * k := by
  obtain ⟨h1, h2, h3, h4, h5, h6, h7, h8, h9⟩ := tex_fields junk w h k f hw hh hk hfit
  refine ⟨h1, h2, ?_, h4, ?_, h9⟩
  · show (tex junk w h k f).bps = _
    rw [h8.1, h1, h4, h5, Nat.mul_one]
  · show (tex junk w h k f).data.length = _
    rw [tex_len, h9]

theorem blank_shows (junk : Nat → UInt8) (w h k f : Nat) (hw : 0 < w) (hh : 0 < h) (hk : 0 < k) (hfit : w * h * k < 4294967296) (d : List UInt8) (hd : d.length = w * h * k)
    (px : Nat → Nat → Nat → Option UInt8) (hpx : ∀ x y c, x < w → y < h → c < k → d[(y * w + x) * k + c]? = px x y c) :
    Shows { blank junk w h k f with data := d } w h k f px := by
  obtain ⟨h1, h2, h3, h4, h5, h6, h7, h8, h9, h10⟩ := Dpx.geo_shows w h 1 k f f IL_UNSIGNED_BYTE 1 hw hh (by decide) hk (by decide) (by decide) (by rw [Nat.mul_one, Nat.mul_one]; exact hfit) d
    (by rw [Nat.mul_one, Nat.mul_one]; exact hd) (fun x y _ c => px x y c) (by
      intro x y z c hx hy hz hc
      obtain rfl : z = 0 := by omega
      rw [Nat.mul_one] at hc ⊢
      rw [Nat.zero_mul, Nat.zero_add]
      exact hpx x y c hx hy hc)
  exact ⟨h1, h2, h3, h4, h5, h6, h7, h8, h9, fun x y c hx hy hc => h10 x y 0 c hx hy (by decide) (by rw [Nat.mul_one]; exact hc)⟩

theorem grey_run (L : Laws2 o At) (S : SeekOk o At) (junk : Nat → UInt8) (other : Other σ) (cur : Img) {bs : List UInt8} {w h off : Nat} (T : Tex bs w h 1 off)
    (hfit : off + tilesOf 4 h * tilesOf 8 w * 32 ≤ bs.length) {s : σ} (hA : At s bs 0) :
    Holds (iLoadTplInternal o junk other cur s) (fun r => (r.1 = true ∧ ∃ m, r.2.1 = [m] ∧ Shows m w h 1 IL_LUMINANCE (fun x y _ => bs[place 8 1 w off x y]?)) ∧ ∃ q, At r.2.2 bs q) := by
  have hwh : w * h * 1 < 4294967296 := by
    have h1 := beAt_lt2 bs (headAt bs + 2) 2
    have h2 := beAt_lt2 bs (headAt bs) 2
    rw [T.width] at h1
    rw [T.height] at h2
    have : w * h ≤ 65535 * 65535 := Nat.mul_le_mul (by omega) (by omega)
    omega
  obtain ⟨s', hA', e⟩ := load_eq L S junk other cur T (by decide) (bpp := 1) (format := IL_LUMINANCE) rfl hA
  obtain ⟨b1, b2, b3, b4, b5, -⟩ := blank_fields junk w h 1 IL_LUMINANCE T.w0 T.h0 (by decide) hwh
  obtain ⟨⟨d, s2⟩, e2, h1, h2, h3⟩ := tiles_spec L (by decide) (rowI8_ok L hwh) hA' b5 hfit
  rw [e]
  unfold decode
  rw [if_neg (by decide), if_pos rfl, b1, b2, b3, b4, e2, bind_ok]
  refine Holds.pure ⟨⟨rfl, _, rfl, blank_shows junk w h 1 _ T.w0 T.h0 (by decide) hwh d h1 _ (fun x y c hx hy hc => ?_)⟩, h2⟩
  rw [h3 x y c hx hy hc]
  unfold place
  rw [Nat.mul_one]

theorem rgb_run (L : Laws2 o At) (S : SeekOk o At) (junk : Nat → UInt8) (other : Other σ) (cur : Img) {bs : List UInt8} {w h off : Nat} (T : Tex bs w h 4 off) (hwh : w * h * 3 < 4294967296)
    (hfit : off + tilesOf 4 h * tilesOf 4 w * 32 ≤ bs.length) {s : σ} (hA : At s bs 0) :
    Holds (iLoadTplInternal o junk other cur s) (fun r => (r.1 = true ∧ ∃ m, r.2.1 = [m] ∧ Shows m w h 3 IL_RGB (fun x y c => some (rgb565 (beAt bs (place 4 2 w off x y) 2) c))) ∧ ∃ q, At r.2.2 bs q) := by
  obtain ⟨s', hA', e⟩ := load_eq L S junk other cur T (by decide) (bpp := 3) (format := IL_RGB) rfl hA
  obtain ⟨b1, b2, b3, b4, b5, -⟩ := blank_fields junk w h 3 IL_RGB T.w0 T.h0 (by decide) hwh
  obtain ⟨⟨d, s2⟩, e2, h1, h2, h3⟩ := tiles_spec L (by decide) (row565_ok L junk hwh) hA' b5 hfit
  rw [e]
  unfold decode
  rw [if_neg (by decide), if_neg (by decide), if_neg (by decide), if_neg (by decide), if_pos rfl, b1, b2, b3, b4, e2, bind_ok]
  exact Holds.pure ⟨⟨rfl, _, rfl, blank_shows junk w h 3 _ T.w0 T.h0 (by decide) hwh d h1 _ (fun x y c hx hy hc => h3 x y c hx hy hc)⟩, h2⟩

theorem safe_run (L : Laws2 o At) (S : SeekOk o At) (junk : Nat → UInt8) (other : Other σ) (cur : Img) {bs : List UInt8} {w h fmt off : Nat} (T : Tex bs w h fmt off) (hf : fmt = 1 ∨ fmt = 4)
    (hwh : w * h * 3 < 4294967296) {s : σ} (hA : At s bs 0) :
    Holds (iLoadTplInternal o junk other cur s) (fun r => (r.1 = true ∧ ∃ m, r.2.1 = [m] ∧ m.data.length = m.size) ∧ ∃ q, At r.2.2 bs q) := by
  have hwh1 : w * h * 1 < 4294967296 := by omega
  rcases hf with rfl | rfl
  · obtain ⟨s', hA', e⟩ := load_eq L S junk other cur T (by decide) (bpp := 1) (format := IL_LUMINANCE) rfl hA
    obtain ⟨b1, b2, b3, b4, b5, b6⟩ := blank_fields junk w h 1 IL_LUMINANCE T.w0 T.h0 (by decide) hwh1
    obtain ⟨⟨d, s2⟩, e2, h1, h2⟩ := tiles_safe (o := o) (Kept At bs (w * h * 1)) (tw := 8) (th := 4) (pad := 8) (w := w) (h := h) (bps := w * 1) (bpp := 1) (row := rowI8 o w) (by decide) (by decide)
      (kept_seek L 8) (fun x y t _ hx hy hI => rowI8_safe L hwh1 hx hy t hI) (t := ((blank junk w h 1 IL_LUMINANCE).data, s')) ⟨b5, _, hA'⟩
    rw [e]
    unfold decode
    rw [if_neg (by decide), if_pos rfl, b1, b2, b3, b4, e2, bind_ok]
    exact Holds.pure ⟨⟨rfl, _, rfl, by show d.length = (blank junk w h 1 IL_LUMINANCE).size; rw [b6]; exact h1⟩, h2⟩
  · obtain ⟨s', hA', e⟩ := load_eq L S junk other cur T (by decide) (bpp := 3) (format := IL_RGB) rfl hA
    obtain ⟨b1, b2, b3, b4, b5, b6⟩ := blank_fields junk w h 3 IL_RGB T.w0 T.h0 (by decide) hwh
    obtain ⟨⟨d, s2⟩, e2, h1, h2⟩ := tiles_safe (o := o) (Kept At bs (w * h * 3)) (tw := 4) (th := 4) (pad := 8) (w := w) (h := h) (bps := w * 3) (bpp := 3) (row := row565 o junk w) (by decide) (by decide)
      (kept_seek L 8) (fun x y t _ hx hy hI => row565_safe L junk hwh hx hy t hI) (t := ((blank junk w h 3 IL_RGB).data, s')) ⟨b5, _, hA'⟩
    rw [e]
    unfold decode
    rw [if_neg (by decide), if_neg (by decide), if_neg (by decide), if_neg (by decide), if_pos rfl, b1, b2, b3, b4, e2, bind_ok]
    exact Holds.pure ⟨⟨rfl, _, rfl, by show d.length = (blank junk w h 3 IL_RGB).size; rw [b6]; exact h1⟩, h2⟩

/-- A row of pairs of pixels succeeds, or it leaves the block; and it does when one of its stores is outside. -/
theorem pairs_fail (L : Laws2 o At) {bs : List UInt8} {n w x N : Nat} {i j : Nat → Nat} (f g : UInt8 → UInt8) (t : List UInt8 × σ) (hI : Kept At bs n t) :
    let c : C (List UInt8 × σ) := loopN N (fun k t => do
      let (b, s) ← getb o t.2
      if w ≤ x + 2 * k then pure (t.1, s)
      else do
        let d ← wr t.1 (i k) (f b)
        let d ← wr d (j k) (g b)
        pure (d, s)) t
    (Holds c (Kept At bs n) ∨ c = .error .oobWrite) ∧ (∀ k, k < N → x + 2 * k < w → n ≤ j k → c = .error .oobWrite) := by
  intro c
  have turn := fun k t hI => pair_turn (o := o) L (bs := bs) (n := n) (w := w) (x := x) (k := k) (i := i k) (j := j k) (f := f) (g := g) t hI
  constructor
  · by_cases hc : c = .error .oobWrite
    · exact .inr hc
    · left
      have : ∀ N, Holds (loopN N (fun k t => do
          let (b, s) ← getb o t.2
          if w ≤ x + 2 * k then pure (t.1, s)
          else do
            let d ← wr t.1 (i k) (f b)
            let d ← wr d (j k) (g b)
            pure (d, s)) t) (Kept At bs n) ∨ loopN N (fun k t => do
          let (b, s) ← getb o t.2
          if w ≤ x + 2 * k then pure (t.1, s)
          else do
            let d ← wr t.1 (i k) (f b)
            let d ← wr d (j k) (g b)
            pure (d, s)) t = .error .oobWrite := by
        intro N
        induction N with
        | zero => exact .inl ⟨t, rfl, hI⟩
        | succ N ih =>
          rw [loopN_succ]
          rcases ih with ⟨t', e, h1⟩ | e
          · rw [e, bind_ok]; exact (turn N t' h1).1
          · rw [e]; exact .inr rfl
      rcases this N with h | h
      · exact h
      · exact absurd h hc
  · intro k hk hx hn
    exact loopN_fails (Kept At bs n) hI (fun k t _ hI => (turn k t hI).1) hk (fun t hI => (turn k t hI).2 hx hn)

theorem u32_ge {a n : Nat} (h : n ≤ a) (ha : a < 4294967296) : n ≤ u32 a := by rw [u32_of_lt ha]; exact h

theorem nibbles_fail (L : Laws2 o At) {bs : List UInt8} {w h th δ : Nat} (hw : 0 < w) (hh : 0 < h) (hth : 0 < th) (hwh : w * h * 1 + 16 < 4294967296) (hδ : δ = 2 ∨ (δ = 1 ∧ w % 2 = 1))
    (t : List UInt8 × σ) (hI : Kept At bs (w * h * 1) t) :
    tiles o 8 th 8 w h (w * 1) 1 (fun off x t => loopN 4 (fun k t => do
      let (b, s) ← getb o t.2
      if w ≤ x + 2 * k then pure (t.1, s)
      else do
        let d ← wr t.1 (u32 (off + 2 * k)) (high b)
        let d ← wr d (u32 (off + 2 * k + δ)) (low b)
        pure (d, s)) t) t = .error .oobWrite := by
  refine tiles_fails (Kept At bs (w * h * 1)) (by decide) hth hw hh (kept_seek L 8) (fun x y t hx0 hx hy hI => ?_) (fun t hI => ?_) hI
  · exact (pairs_fail L (i := fun k => u32 (u32 (w * 1 * y + 1 * x) + 2 * k)) (j := fun k => u32 (u32 (w * 1 * y + 1 * x) + 2 * k + δ)) high low t hI).1
  · have hlt := idx_lt (k := 1) (c := 0) (show w - 1 < w by omega) (show h - 1 < h by omega) (by decide)
    have e : (h - 1) * w + w = w * h := by
      rw [← Nat.succ_mul, show (h - 1).succ = h by omega, Nat.mul_comm]
    refine (pairs_fail L (i := fun k => u32 (u32 (w * 1 * (h - 1) + 1 * ((w - 1) / 8 * 8)) + 2 * k)) (j := fun k => u32 (u32 (w * 1 * (h - 1) + 1 * ((w - 1) / 8 * 8)) + 2 * k + δ)) high low t hI).2
      ((w - 1) % 8 / 2) (by omega) (by omega) ?_
    show _ ≤ u32 (u32 _ + _ + _)
    rw [off_eq, u32_of_lt (show ((h - 1) * w + (w - 1) / 8 * 8) * 1 < 4294967296 by omega)]
    refine u32_ge ?_ (by omega)
    omega

theorem bytes_turn (L : Laws2 o At) {bs : List UInt8} {n w x k i j : Nat} (t : List UInt8 × σ) (hI : Kept At bs n t) :
    let c : C (List UInt8 × σ) := if w ≤ x + 2 * k then do
        let (_, s) ← o.seek t.2 2 SEEK_CUR
        pure (t.1, s)
      else do
        let (a, s) ← getb o t.2
        let d ← wr t.1 i a
        let (b, s) ← getb o s
        let d ← wr d j b
        pure (d, s)
    ((∃ t', c = .ok t' ∧ Kept At bs n t') ∨ c = .error .oobWrite) ∧ (x + 2 * k < w → n ≤ j → c = .error .oobWrite) := by
  intro c
  obtain ⟨d, s⟩ := t
  by_cases hw : w ≤ x + 2 * k
  · have hc : c = (do
        let (_, s) ← o.seek s 2 SEEK_CUR
        pure (d, s)) := if_pos hw
    obtain ⟨⟨b, s2⟩, e, h1⟩ := kept_seek L 2 _ hI
    simp only [] at e h1
    rw [hc, e, bind_ok]
    exact ⟨.inl ⟨_, rfl, h1⟩, fun h => by omega⟩
  · have hc : c = (do
        let (a, s) ← getb o s
        let d ← wr d i a
        let (b, s) ← getb o s
        let d ← wr d j b
        pure (d, s)) := if_neg hw
    obtain ⟨⟨a, s2⟩, e, h1⟩ := kept_getb L _ hI
    simp only [] at e h1
    rw [hc, e, bind_ok]
    simp only []
    have hl : d.length = n := h1.1
    by_cases hi : i < n
    · obtain ⟨⟨b, s3⟩, e3, h3, h4⟩ := kept_getb L (d.set i a, s2) (n := n) (bs := bs) ⟨by simpa using hl, h1.2⟩
      simp only [] at e3 h3 h4
      rw [wr_of_lt (by omega), bind_ok, e3, bind_ok]
      simp only []
      by_cases hj : j < n
      · rw [wr_of_lt (by omega), bind_ok]
        exact ⟨.inl ⟨_, rfl, by simpa using hl, h4⟩, fun _ h => by omega⟩
      · rw [wr_of_ge (by omega)]
        exact ⟨.inr rfl, fun _ _ => rfl⟩
    · rw [wr_of_ge (by omega)]
      exact ⟨.inr rfl, fun _ _ => rfl⟩

theorem bytes_fail (L : Laws2 o At) {bs : List UInt8} {w h : Nat} (hw : 0 < w) (hh : 0 < h) (hwh : w * h * 1 + 16 < 4294967296) (hodd : w % 2 = 1) (t : List UInt8 × σ)
    (hI : Kept At bs (w * h * 1) t) : tiles o 4 4 8 w h (w * 1) 1 (rowIA8 o w) t = .error .oobWrite := by
  refine tiles_fails (Kept At bs (w * h * 1)) (by decide) (by decide) hw hh (kept_seek L 8) (fun x y t hx0 hx hy hI => ?_) (fun t hI => ?_) hI
  · unfold rowIA8
    have : ∀ N, Holds (loopN N (fun k t =>
        if w ≤ x + 2 * k then do
          let (_, s) ← o.seek t.2 2 SEEK_CUR
          pure (t.1, s)
        else do
          let (a, s) ← getb o t.2
          let d ← wr t.1 (u32 (u32 (w * 1 * y + 1 * x) + 2 * k)) a
          let (b, s) ← getb o s
          let d ← wr d (u32 (u32 (w * 1 * y + 1 * x) + 2 * k + 1)) b
          pure (d, s)) t) (Kept At bs (w * h * 1)) ∨ loopN N (fun k t =>
        if w ≤ x + 2 * k then do
          let (_, s) ← o.seek t.2 2 SEEK_CUR
          pure (t.1, s)
        else do
          let (a, s) ← getb o t.2
          let d ← wr t.1 (u32 (u32 (w * 1 * y + 1 * x) + 2 * k)) a
          let (b, s) ← getb o s
          let d ← wr d (u32 (u32 (w * 1 * y + 1 * x) + 2 * k + 1)) b
          pure (d, s)) t = .error .oobWrite := by
      intro N
      induction N with
      | zero => exact .inl ⟨t, rfl, hI⟩
      | succ N ih =>
        rw [loopN_succ]
        rcases ih with ⟨t', e, h1⟩ | e
        · rw [e, bind_ok]; exact (bytes_turn L t' h1).1
        · rw [e]; exact .inr rfl
    exact this 2
  · have hlt := idx_lt (k := 1) (c := 0) (show w - 1 < w by omega) (show h - 1 < h by omega) (by decide)
    have e : (h - 1) * w + w = w * h := by
      rw [← Nat.succ_mul, show (h - 1).succ = h by omega, Nat.mul_comm]
    unfold rowIA8
    rw [off_eq, u32_of_lt (show ((h - 1) * w + (w - 1) / 4 * 4) * 1 < 4294967296 by omega)]
    refine loopN_fails (Kept At bs (w * h * 1)) (k := (w - 1) % 4 / 2) hI (fun k t _ hI => (bytes_turn L t hI).1) (by omega) (fun t hI => (bytes_turn L t hI).2 (by omega) (u32_ge ?_ ?_))
    · omega
    · omega

/-- The textures that leave the block. -/
def Outside (w fmt : Nat) : Prop := fmt = 0 ∨ ((fmt = 2 ∨ fmt = 3) ∧ w % 2 = 1)

theorem fail_run (L : Laws2 o At) (S : SeekOk o At) (junk : Nat → UInt8) (other : Other σ) (cur : Img) {bs : List UInt8} {w h fmt off : Nat} (T : Tex bs w h fmt off) (hf : Outside w fmt)
    {s : σ} (hA : At s bs 0) : iLoadTplInternal o junk other cur s = .error .oobWrite := by
  have hwh : w * h * 1 + 16 < 4294967296 := by
    have h1 := beAt_lt2 bs (headAt bs + 2) 2
    have h2 := beAt_lt2 bs (headAt bs) 2
    rw [T.width] at h1
    rw [T.height] at h2
    have : w * h ≤ 65535 * 65535 := Nat.mul_le_mul (by omega) (by omega)
    omega
  have go : ∀ format, kindOf fmt = some (1, format) → (∀ s', At s' bs off → decode o junk fmt (blank junk w h 1 format) s' = .error .oobWrite) →
      iLoadTplInternal o junk other cur s = .error .oobWrite := by
    intro format hk hd
    obtain ⟨s', hA', e⟩ := load_eq L S junk other cur T (by unfold Outside at hf; omega) hk hA
    rw [e, hd s' hA']
    rfl
  rcases hf with rfl | ⟨rfl | rfl, ho⟩
  · refine go _ rfl (fun s' hA' => ?_)
    obtain ⟨b1, b2, b3, b4, b5, -⟩ := blank_fields junk w h 1 IL_LUMINANCE T.w0 T.h0 (by decide) (by omega)
    unfold decode
    rw [if_pos rfl, b1, b2, b3, b4]
    exact nibbles_fail L T.w0 T.h0 (by decide) hwh (.inl rfl) _ ⟨b5, _, hA'⟩
  · refine go _ rfl (fun s' hA' => ?_)
    obtain ⟨b1, b2, b3, b4, b5, -⟩ := blank_fields junk w h 1 IL_LUMINANCE_ALPHA T.w0 T.h0 (by decide) (by omega)
    unfold decode
    rw [if_neg (by decide), if_neg (by decide), if_pos rfl, b1, b2, b3, b4]
    exact nibbles_fail L T.w0 T.h0 (by decide) hwh (.inr ⟨rfl, ho⟩) _ ⟨b5, _, hA'⟩
  · refine go _ rfl (fun s' hA' => ?_)
    obtain ⟨b1, b2, b3, b4, b5, -⟩ := blank_fields junk w h 1 IL_LUMINANCE_ALPHA T.w0 T.h0 (by decide) (by omega)
    unfold decode
    rw [if_neg (by decide), if_neg (by decide), if_neg (by decide), if_pos rfl, b1, b2, b3, b4]
    exact bytes_fail L T.w0 T.h0 hwh ho _ ⟨b5, _, hA'⟩

end

/-! ### The properties -/

/-- **C227**, grey: a TPL file with one texture of eight bits per pixel and all its data loads, from a file and from memory, into one image of the size in its header, and every pixel is the byte at its
place in the tiles, whatever was in the memory of the image. -/
theorem C227_grey (junk : Nat → UInt8) (oF : Other Cache.S) (oL : Other Lump.R) (cur : Img) (bs : List UInt8) (w h off : Nat) (hl : bs.length < 2147483648) (T : Tex bs w h 1 off)
    (hfit : off + tilesOf 4 h * tilesOf 8 w * 32 ≤ bs.length) :
    Loads junk oF oL cur bs (fun ok ms => ok = true ∧ ∃ m, ms = [m] ∧ Shows m w h 1 IL_LUMINANCE (fun x y _ => bs[place 8 1 w off x y]?)) :=
  both (by have := T.long; omega) hl (fun _ ht => grey_run fileLaws2 fileSeek junk oF cur T hfit ht) (fun _ ht => grey_run lumpLaws2 lumpSeek junk oL cur T hfit ht)

/-- **C227**, RGB565: a TPL file with one texture of 16 bits per pixel without alpha and all its data loads into one image of the size in its header, and the red, green and blue of every pixel are the
three parts of the number at its place in the tiles, each as eight bits. -/
theorem C227_rgb (junk : Nat → UInt8) (oF : Other Cache.S) (oL : Other Lump.R) (cur : Img) (bs : List UInt8) (w h off : Nat) (hl : bs.length < 2147483648) (T : Tex bs w h 4 off)
    (hwh : w * h * 3 < 4294967296) (hfit : off + tilesOf 4 h * tilesOf 4 w * 32 ≤ bs.length) :
    Loads junk oF oL cur bs (fun ok ms => ok = true ∧ ∃ m, ms = [m] ∧ Shows m w h 3 IL_RGB (fun x y c => some (rgb565 (beAt bs (place 4 2 w off x y) 2) c))) :=
  both (by have := T.long; omega) hl (fun _ ht => rgb_run fileLaws2 fileSeek junk oF cur T hwh hfit ht) (fun _ ht => rgb_run lumpLaws2 lumpSeek junk oL cur T hwh hfit ht)

/-- **C228**, in part: a TPL file with one texture of eight bits per pixel, or of 16 without alpha, loads without any fault however short its data are, and the block of the image has the size the image
reports.  What is missing are the other formats, which the loader stores wrongly, files with several textures, and headers that are cut off. -/
theorem C228_safe_partial (junk : Nat → UInt8) (oF : Other Cache.S) (oL : Other Lump.R) (cur : Img) (bs : List UInt8) (w h fmt off : Nat) (hl : bs.length < 2147483648) (T : Tex bs w h fmt off)
    (hf : fmt = 1 ∨ fmt = 4) (hwh : w * h * 3 < 4294967296) :
    Loads junk oF oL cur bs (fun ok ms => ok = true ∧ ∃ m, ms = [m] ∧ m.data.length = m.size) :=
  both (by have := T.long; omega) hl (fun _ ht => safe_run fileLaws2 fileSeek junk oF cur T hf hwh ht) (fun _ ht => safe_run lumpLaws2 lumpSeek junk oL cur T hf hwh ht)

/-- **C228 violated**: every TPL texture of four bits per pixel, and every one with alpha of four or eight bits beside the grey and an odd width, makes the loader store beyond the block of the image. -/
theorem C228_violated_outside (junk : Nat → UInt8) (oF : Other Cache.S) (oL : Other Lump.R) (cur : Img) (bs : List UInt8) (w h fmt off : Nat) (hl : bs.length < 2147483648) (T : Tex bs w h fmt off)
    (hf : Outside w fmt) : Fails junk oF oL cur bs .oobWrite := by
  have h0 : 0 < bs.length := by have := T.long; omega
  refine ⟨?_, ?_⟩
  · have := fail_run fileLaws2 fileSeek junk oF cur T hf (input_at (opened bs 0) rfl hl)
    unfold ilLoadF
    simp only []
    rw [this]
    rfl
  · have := fail_run lumpLaws2 lumpSeek junk oL cur T hf (lump_at bs hl h0)
    unfold ilLoadL
    simp only []
    rw [this]
    rfl

/-! ### Cases that meet the hypotheses -/

/-- A texture of 9 by 2 pixels: its header is at 20 and its data, or what there is of them, at 40. -/
def sample (fmt : UInt8) (data : List UInt8) : List UInt8 :=
  [0, 0x20, 0xAF, 0x30, 0, 0, 0, 1, 0, 0, 0, 12, 0, 0, 0, 20, 0, 0, 0, 0, 0, 2, 0, 9, 0, 0, 0, fmt, 0, 0, 0, 40, 0, 0, 0, 0, 0, 0, 0, 0] ++ data

/-- The header of the sample. -/
theorem sample_tex (fmt : UInt8) (data : List UInt8) : Tex (sample fmt data) 9 2 fmt.toNat 40 := by
  have hl : (sample fmt data).length = 40 + data.length := by simp [sample]; omega
  have hh : headAt (sample fmt data) = 20 := rfl
  refine ⟨by omega, rfl, rfl, rfl, by rw [hh]; omega, by rw [hh]; rfl, by rw [hh]; rfl, ?_, by rw [hh]; rfl, by omega, by decide, by decide, ?_⟩
  · rw [hh]
    simp [sample, beAt, at_, be, le]
  · rw [hh, show beAt (sample fmt data) (20 + 12) 4 = 0 from rfl]
    omega

set_option maxRecDepth 8000 in
example (junk : Nat → UInt8) (oF : Other Cache.S) (oL : Other Lump.R) (cur : Img) : Loads junk oF oL cur (sample 1 (List.replicate 64 7)) (fun ok ms => ok = true ∧ ∃ m, ms = [m] ∧
    Shows m 9 2 1 IL_LUMINANCE (fun x y _ => (sample 1 (List.replicate 64 7))[place 8 1 9 40 x y]?)) :=
  C227_grey junk oF oL cur _ 9 2 40 (by decide) (sample_tex 1 _) (by decide)

set_option maxRecDepth 8000 in
example (junk : Nat → UInt8) (oF : Other Cache.S) (oL : Other Lump.R) (cur : Img) : Loads junk oF oL cur (sample 4 (List.replicate 96 7)) (fun ok ms => ok = true ∧ ∃ m, ms = [m] ∧
    Shows m 9 2 3 IL_RGB (fun x y c => some (rgb565 (beAt (sample 4 (List.replicate 96 7)) (place 4 2 9 40 x y) 2) c))) :=
  C227_rgb junk oF oL cur _ 9 2 40 (by decide) (sample_tex 4 _) (by decide) (by decide)

set_option maxRecDepth 8000 in
example (junk : Nat → UInt8) (oF : Other Cache.S) (oL : Other Lump.R) (cur : Img) : Loads junk oF oL cur (sample 4 [1, 2, 3]) (fun ok ms => ok = true ∧ ∃ m, ms = [m] ∧ m.data.length = m.size) :=
  C228_safe_partial junk oF oL cur _ 9 2 4 40 (by decide) (sample_tex 4 _) (.inr rfl) (by decide)

example (junk : Nat → UInt8) (oF : Other Cache.S) (oL : Other Lump.R) (cur : Img) : Fails junk oF oL cur (sample 0 []) .oobWrite :=
  C228_violated_outside junk oF oL cur _ 9 2 0 40 (by decide) (sample_tex 0 _) (.inl rfl)

example (junk : Nat → UInt8) (oF : Other Cache.S) (oL : Other Lump.R) (cur : Img) : Fails junk oF oL cur (sample 3 [1, 2]) .oobWrite :=
  C228_violated_outside junk oF oL cur _ 9 2 3 40 (by decide) (sample_tex 3 _) (.inr ⟨.inr rfl, rfl⟩)

end DevIL.Tpl
