import Verif.Model.RawData
import Verif.Model.Dpx
import Verif.Spec.Dpx
import Verif.Lemmas.GamesG
set_option autoImplicit false
namespace DevIL.Dpx
open DevIL.Games DevIL.Detect DevIL.Image DevIL.DetectSpec DevIL.DpxSpec
open DevIL.Lump (SEEK_SET)

/-! ### The image made by `ilTexImage`, in general -/

theorem geo_size (w h d k f t b : Nat) (hw : 0 < w) (hh : 0 < h) (hd : 0 < d) (hk : 0 < k) (hb : 0 < b) (ht : Utility.ilGetBpcType t = b)
    (hfit : w * h * d * (k * b) < 4294967296) :
    let g := geometry w h d k f t []
    g.width = w ∧ g.height = h ∧ g.depth = d ∧ g.bpp = k ∧ g.bpc = b ∧ g.bps = w * k * b ∧ g.plane = w * k * b * h ∧
      g.size = w * k * b * h * d ∧ w * k * b * h * d = w * h * d * (k * b) := by
  have a : ∀ n, 0 < n → atLeast1 n = n := fun n h => by unfold atLeast1; rw [if_neg (by omega)]
  have e : w * k * b * h * d = w * h * d * (k * b) := by
    simp only [Nat.mul_comm, Nat.mul_left_comm, Nat.mul_assoc]
  have h1 : w * k * b * h ≤ w * k * b * h * d := Nat.le_mul_of_pos_right _ hd
  have h2 : w * k * b ≤ w * k * b * h := Nat.le_mul_of_pos_right _ hh
  have h3 : w * k ≤ w * k * b := Nat.le_mul_of_pos_right _ hb
  have e1 : u32 (w * k) = w * k := u32_of_lt (by omega)
  have e2 : u32 (w * k * b) = w * k * b := u32_of_lt (by omega)
  have e3 : u32 (w * k * b * h) = w * k * b * h := u32_of_lt (by omega)
  have e4 : u32 (w * k * b * h * d) = w * k * b * h * d := u32_of_lt (by omega)
  simp only [geometry, a w hw, a h hh, a d hd, ht, e1, e2, e3, e4]
  exact ⟨trivial, trivial, trivial, trivial, trivial, trivial, trivial, trivial, e⟩

/-- An image of that geometry with a block of the right size shows what the block holds. -/
theorem geo_shows (w h d k f f' t b : Nat) (hw : 0 < w) (hh : 0 < h) (hd : 0 < d) (hk : 0 < k) (hb : 0 < b) (ht : Utility.ilGetBpcType t = b)
    (hfit : w * h * d * (k * b) < 4294967296) (data : List UInt8) (hl : data.length = w * h * d * (k * b)) (px : Nat → Nat → Nat → Nat → Option UInt8)
    (hpx : ∀ x y z c, x < w → y < h → z < d → c < k * b → data[((z * h + y) * w + x) * (k * b) + c]? = px x y z c) :
    Shows3 { geometry w h d k f t [] with data := data, origin := IL_ORIGIN_UPPER_LEFT, format := f' } w h d k b f' t px := by
  obtain ⟨h1, h2, h3, h4, h5, h6, h7, h8, h9⟩ := geo_size w h d k f t b hw hh hd hk hb ht hfit
  refine ⟨h1, h2, h3, h4, h5, rfl, rfl, rfl, ⟨?_, ?_, ?_, ?_⟩, fun x y z c hx hy hz hc => ?_⟩
  · show (geometry w h d k f t []).bps = (geometry w h d k f t []).width * (geometry w h d k f t []).bpp * (geometry w h d k f t []).bpc
    rw [h1, h4, h5, h6]
  · show (geometry w h d k f t []).plane = (geometry w h d k f t []).width * (geometry w h d k f t []).bpp * (geometry w h d k f t []).bpc *
      (geometry w h d k f t []).height
    rw [h1, h2, h4, h5, h7]
  · show (geometry w h d k f t []).size = (geometry w h d k f t []).width * (geometry w h d k f t []).bpp * (geometry w h d k f t []).bpc *
      (geometry w h d k f t []).height * (geometry w h d k f t []).depth
    rw [h1, h2, h3, h4, h5, h8]
  · show data.length = (geometry w h d k f t []).size
    rw [h8, hl, h9]
  · have e : (({ geometry w h d k f t [] with data := data, origin := IL_ORIGIN_UPPER_LEFT, format := f' } : Img)).px x y z c
        = data[((z * h + y) * w + x) * (k * b) + c]? := by
      show data[((z * (geometry w h d k f t []).height + y) * (geometry w h d k f t []).width + x) *
        ((geometry w h d k f t []).bpp * (geometry w h d k f t []).bpc) + c]? = _
      rw [h1, h2, h4, h5]
    rw [e]
    refine ⟨hpx x y z c hx hy hz hc, ?_⟩
    rw [← hpx x y z c hx hy hz hc]
    have q1 : z * h + y < h * d := by
      have : z * h + h ≤ d * h := by rw [← Nat.succ_mul]; exact Nat.mul_le_mul_right h hz
      rw [Nat.mul_comm h d]; omega
    have q2 : (z * h + y) * w + x < w * (h * d) := by
      have : (z * h + y) * w + w ≤ (h * d) * w := by rw [← Nat.succ_mul]; exact Nat.mul_le_mul_right w q1
      rw [Nat.mul_comm w]; omega
    have q3 : ((z * h + y) * w + x) * (k * b) + c < w * h * d * (k * b) := by
      have : ((z * h + y) * w + x) * (k * b) + k * b ≤ (w * (h * d)) * (k * b) := by
        rw [← Nat.succ_mul]; exact Nat.mul_le_mul_right _ q2
      rw [Nat.mul_assoc w h d]; omega
    rw [List.getElem?_eq_getElem (by rw [hl]; exact q3)]
    rfl

variable {σ : Type} {o : Ops σ} {At : σ → List UInt8 → Nat → Prop}

theorem get_at (bs : List UInt8) (p n i : Nat) (h : i < n) : (at_ bs p n)[i]? = bs[p + i]? := by
  unfold at_
  rw [List.getElem?_take_of_lt h, List.getElem?_drop]

/-! ### Raw data -/

theorem raw_size (w h d k : Nat) (hk : k < 256) : u32 (u32 (u32 (w * h) * d) * k) ≤ (geometry w h d k 0 IL_UNSIGNED_BYTE []).size := by
  have hb : Utility.ilGetBpcType IL_UNSIGNED_BYTE = 1 := by decide
  by_cases hz : w = 0 ∨ h = 0 ∨ d = 0
  · have : u32 (u32 (u32 (w * h) * d) * k) = 0 := by
      rcases hz with rfl | rfl | rfl <;> simp [u32]
    omega
  · have a : ∀ n, n ≠ 0 → atLeast1 n = n := fun n h => by unfold atLeast1; rw [if_neg h]
    simp only [geometry, a w (by omega), a h (by omega), a d (by omega), hb, Nat.mul_one]
    unfold u32
    simp only [Nat.mod_mul_mod, Nat.mod_mod]
    rw [show w * h * d * k = w * k * h * d by simp only [Nat.mul_comm, Nat.mul_left_comm, Nat.mul_assoc]]

theorem raw_spec (junk : Nat → UInt8) (w h d k : Nat) (hk : k < 256) (cur : Img) {s : σ} {rest : List UInt8} {Q : σ → Prop} (hq : Q s)
    (hread : ∀ n, n < 4294967296 → Holds (o.read s n 1) (fun r => r.1 = rest.take n ∧ r.2.1 = (if n = 0 then 0 else r.1.length / n) ∧ Q r.2.2)) :
    Holds (RawData.iLoadDataInternal o junk w h d k (some cur) s) (fun r => RawData rest w h d k cur r.1 r.2.1 ∧ Q r.2.2) := by
  unfold RawData.iLoadDataInternal
  refine Holds.ite (fun hc => Holds.pure ⟨⟨fun _ => ⟨rfl, rfl⟩, fun f hf => ?_⟩, hq⟩) (fun hc => ?_)
  · rcases hc with hc | ⟨h1, h2, h3⟩
    · cases hc
    · unfold rawFormat at hf
      rw [if_neg h1, if_neg h2, if_neg h3] at hf
      cases hf
  · have hk3 : k = 1 ∨ k = 3 ∨ k = 4 := by
      by_cases h1 : k = 1
      · exact .inl h1
      · by_cases h3 : k = 3
        · exact .inr (.inl h3)
        · by_cases h4 : k = 4
          · exact .inr (.inr h4)
          · exact absurd (.inr ⟨h1, h3, h4⟩) hc
    have hfmt : rawFormat k = some (RawData.dataFormat k) := by
      rcases hk3 with rfl | rfl | rfl <;> rfl
    have hsz := raw_size w h d k hk
    generalize hn : u32 (u32 (u32 (w * h) * d) * k) = n at hsz ⊢
    have hnlt : n < 4294967296 := by rw [← hn]; exact u32_lt _
    have hdl : (RawData.dataTex junk w h d k).data.length = (geometry w h d k 0 IL_UNSIGNED_BYTE []).size := alloc_length _ _
    have hinto : Holds (into o s (RawData.dataTex junk w h d k).data n 1) (fun r => r.1 = (if n = 0 then 0 else (rest.take n).length / n) ∧
        r.2.1 = rest.take n ++ (RawData.dataTex junk w h d k).data.drop (rest.take n).length ∧ Q r.2.2) := by
      refine (hread n hnlt).bind (fun r hr => ?_)
      obtain ⟨h1, h2, h3⟩ := hr
      show Holds (memcpy _ 0 r.1 0 r.1.length >>= fun d => pure (r.2.1, d, r.2.2)) _
      have hle : r.1.length ≤ (RawData.dataTex junk w h d k).data.length := by
        rw [h1, hdl, List.length_take]; omega
      rw [put_eq _ _ hle, bind_ok]
      exact Holds.pure ⟨by rw [h2, h1], by rw [h1], h3⟩
    refine hinto.bind (fun r hr => ?_)
    obtain ⟨n', data, t⟩ := r
    obtain ⟨h1, h2, h3⟩ := hr
    simp only [] at h1 h2 h3 ⊢
    have hlen : data.length = (RawData.dataTex junk w h d k).size := by
      show data.length = (geometry w h d k 0 IL_UNSIGNED_BYTE []).size
      rw [h2, List.length_append, List.length_drop, hdl, List.length_take]
      omega
    have hexact : 0 < w → 0 < h → 0 < d → w * h * d * k < 2 ^ 32 → n = w * h * d * k ∧ 0 < n ∧ (geometry w h d k 0 IL_UNSIGNED_BYTE []).size = n := by
      intro a b c e
      have hk0 : 0 < k := by omega
      obtain ⟨-, -, -, -, -, -, -, g1, g2⟩ := geo_size w h d k 0 IL_UNSIGNED_BYTE 1 a b c hk0 (by decide) (by decide) (by rw [Nat.mul_one]; exact e)
      have hnn : n = w * h * d * k := by
        rw [← hn]
        unfold u32
        simp only [Nat.mod_mul_mod, Nat.mod_mod]
        exact Nat.mod_eq_of_lt e
      exact ⟨hnn, by rw [hnn]; exact Nat.mul_pos (Nat.mul_pos (Nat.mul_pos a b) c) hk0, by rw [g1, g2, hnn, Nat.mul_one]⟩
    refine Holds.ite (fun hc => Holds.pure ⟨⟨fun e => (by rw [hfmt] at e; cases e), fun f hf => ⟨_, rfl, hlen, fun a b c e => ⟨?_, fun h => (by cases h)⟩⟩⟩, h3⟩)
      (fun hc => Holds.pure ⟨⟨fun e => (by rw [hfmt] at e; cases e), fun f hf => ⟨_, rfl, hlen, fun a b c e => ⟨?_, fun _ => ?_⟩⟩⟩, h3⟩)
    · obtain ⟨e1, e2, e3⟩ := hexact a b c e
      refine ⟨fun h => (by cases h), fun h => absurd ?_ hc⟩
      rw [h1, if_neg (by omega), List.length_take, Nat.min_eq_left (by omega), Nat.div_self e2]
    · obtain ⟨e1, e2, e3⟩ := hexact a b c e
      refine ⟨fun _ => ?_, fun _ => rfl⟩
      rw [h1, if_neg (by omega), List.length_take] at hc
      rw [← e1]
      rcases Nat.lt_or_ge rest.length n with hlt | hge
      · rw [Nat.min_eq_right (by omega), Nat.div_eq_of_lt hlt] at hc
        exact absurd hc (by decide)
      · exact hge
    · obtain ⟨e1, e2, e3⟩ := hexact a b c e
      have hge : n ≤ rest.length := by
        rw [h1, if_neg (by omega), List.length_take] at hc
        rcases Nat.lt_or_ge rest.length n with hlt | hge
        · rw [Nat.min_eq_right (by omega), Nat.div_eq_of_lt hlt] at hc
          exact absurd hc (by decide)
        · exact hge
      have hdata : data = rest.take n := by
        rw [h2, List.drop_of_length_le (by rw [hdl, List.length_take]; omega), List.append_nil]
      rw [hfmt] at hf
      cases hf
      refine geo_shows w h d k 0 (RawData.dataFormat k) IL_UNSIGNED_BYTE 1 a b c (by omega) (by decide) (by decide) (by rw [Nat.mul_one]; exact e) data
        (by rw [hdata, List.length_take, Nat.mul_one]; omega) _ (fun x y z i hx hy hz hi => ?_)
      rw [Nat.mul_one] at hi ⊢
      have q1 : z * h + y < d * h := by
        have : z * h + h ≤ d * h := by rw [← Nat.succ_mul]; exact Nat.mul_le_mul_right h hz
        omega
      have q2 : (z * h + y) * w + x < (d * h) * w := by
        have : (z * h + y) * w + w ≤ (d * h) * w := by rw [← Nat.succ_mul]; exact Nat.mul_le_mul_right w q1
        omega
      have q3 : ((z * h + y) * w + x) * k + i < n := by
        have : ((z * h + y) * w + x) * k + k ≤ ((d * h) * w) * k := by rw [← Nat.succ_mul]; exact Nat.mul_le_mul_right _ q2
        rw [e1, show w * h * d * k = d * h * w * k by simp only [Nat.mul_comm, Nat.mul_left_comm, Nat.mul_assoc]]
        omega
      rw [hdata, List.getElem?_take_of_lt q3]

end DevIL.Dpx
