import Verif.Model.Ktx
import Verif.Spec.Ktx
import Verif.Lemmas.Games
import Verif.Lemmas.Pcd
/-! KTX textures. -/
set_option autoImplicit false
namespace DevIL.Ktx
open DevIL.Games DevIL.Detect DevIL.Image DevIL.DetectSpec DevIL.KtxSpec
open DevIL.Lump (SEEK_SET SEEK_CUR)

variable {σ : Type} {o : Ops σ} {At : σ → List UInt8 → Nat → Prop}

theorem into_all (L : Laws2 o At) (dst : List UInt8) {bs : List UInt8} {s : σ} {p n : Nat} (hA : At s bs p) (hd : dst.length = n) (hin : p + n ≤ bs.length) :
    ∃ s', into o s dst 1 n = .ok (n, at_ bs p n, s') ∧ At s' bs (p + n) := by
  have := L.len hA
  obtain ⟨⟨k, d, s'⟩, e, h1, h2, h3⟩ := into_full L dst 1 n hA (by decide) (by omega) (by omega) (by omega)
  simp only [Nat.one_mul] at h1 h2 h3
  subst h1 h2
  exact ⟨s', e, h3⟩

/-- The numbers of the header. -/
theorem head_fields (L : Laws2 o At) (junk : Nat → UInt8) {bs : List UInt8} {s : σ} (hA : At s bs 12) (hl : 64 ≤ bs.length) :
    ∃ h s', head o junk headFields s = .ok (h, s') ∧ At s' bs 64 ∧ ∀ i, i < 13 → fle h i = leAt bs (12 + 4 * i) 4 := by
  obtain ⟨⟨h, s'⟩, e, -, p, v⟩ := head_spec L.toLaws junk bs headFields s 12 hA (by decide)
  have st : start headFields headFields.length = 52 := by decide
  rw [st] at p
  have big : ∀ i, i < 13 → start headFields i = 4 * i := by decide
  have big2 : ∀ i, i < 13 → headFields[i]? = some u32f := by
    intro i hi
    show (List.replicate 13 u32f)[i]? = _
    rw [List.getElem?_replicate, if_pos hi]
  refine ⟨h, s', e, p (by omega), fun i hi => ?_⟩
  unfold fle
  rw [v i u32f (big2 i hi) (by rw [big i hi]; show 12 + 4 * i + 4 ≤ _; omega), big i hi]
  rfl

/-- One number. -/
theorem number (L : Laws2 o At) (junk : Nat → UInt8) {bs : List UInt8} {s : σ} {p : Nat} (hA : At s bs p) (hl : p + 4 ≤ bs.length) :
    ∃ h s', head o junk [u32f] s = .ok (h, s') ∧ At s' bs (p + 4) ∧ fle h 0 = leAt bs p 4 := by
  obtain ⟨⟨h, s'⟩, e, -, q, v⟩ := head_spec L.toLaws junk bs [u32f] s p hA (by decide)
  have st : start [u32f] [u32f].length = 4 := by decide
  rw [st] at q
  refine ⟨h, s', e, q hl, ?_⟩
  unfold fle
  rw [v 0 u32f rfl (by show p + 0 + 4 ≤ _; omega)]
  rfl

/-- The rows that are filled up. -/
theorem rows_spec (L : Laws2 o At) {bs : List UInt8} {base bps pad H : Nat} (hb : 0 < bps) (hpad : pad < 4) (hin : base + H * (bps + pad) ≤ bs.length) :
    ∀ (n y : Nat) (d : List UInt8) (s : σ), y + n = H → d.length = H * bps → At s bs (base + y * (bps + pad)) →
      (∀ i, i < y * bps → d[i]? = bs[base + i / bps * (bps + pad) + i % bps]?) →
      Holds (rows o bps pad n y d s) (fun r => r.1 = true ∧ r.2.1.length = H * bps ∧ (∀ i, i < H * bps → r.2.1[i]? = bs[base + i / bps * (bps + pad) + i % bps]?) ∧ At r.2.2 bs (base + H * (bps + pad))) := by
  intro n
  induction n with
  | zero =>
    intro y d s hy hd hA hp
    obtain rfl : y = H := by omega
    exact Holds.pure ⟨rfl, hd, hp, hA⟩
  | succ n ih =>
    intro y d s hy hd hA hp
    have hlen := L.len hA
    have e1 := Nat.mul_le_mul_right (bps + pad) (show y + 1 ≤ H by omega)
    have e2 := Nat.mul_le_mul_right bps (show y + 1 ≤ H by omega)
    rw [Nat.add_mul, Nat.one_mul] at e1 e2
    rw [rows]
    refine (into_spec L _ 1 bps hA (by decide) (by omega) (by rw [List.length_drop]; omega)).bind (fun r hr => ?_)
    obtain ⟨k, r, s1⟩ := r
    obtain ⟨h1, h2, A1⟩ := hr
    simp only [] at h1 h2 A1 ⊢
    have hl : (at_ bs (base + y * (bps + pad)) (1 * bps)).length = bps := by rw [at_length]; omega
    rw [hl] at h1 h2 A1
    rw [Nat.div_one] at h1
    rw [Nat.one_mul] at h2 hl
    rw [if_neg (by rw [h1]; exact fun h => h rfl)]
    refine (L.seekCur (Lump.toInt pad) A1).bind (fun t ht => ?_)
    have A2 := ht.2 (base + (y + 1) * (bps + pad)) (by unfold Lump.toInt; rw [if_pos (by omega), Nat.add_mul]; omega) (by rw [Nat.add_mul]; omega)
    have ht : (d.take (y * bps)).length = y * bps := by rw [List.length_take]; omega
    refine ih (y + 1) _ _ (by omega) ?_ A2 ?_
    · rw [h2]
      simp only [List.length_append, List.length_drop, hl, ht]
      omega
    · intro i hi
      rw [Nat.add_mul, Nat.one_mul] at hi
      rw [h2]
      by_cases hc : i < y * bps
      · rw [List.getElem?_append_left (by omega), List.getElem?_take, if_pos hc, hp i hc]
      · obtain ⟨j, rfl⟩ : ∃ j, i = y * bps + j := ⟨i - y * bps, by omega⟩
        have hj : j < bps := by omega
        rw [List.getElem?_append_right (by omega), ht, Nat.add_sub_cancel_left, List.getElem?_append_left (by omega), Pcd.at_get hj,
          Nat.mul_comm y bps, Nat.mul_add_div hb, Nat.div_eq_of_lt hj, Nat.mul_add_mod, Nat.mod_eq_of_lt hj, Nat.add_zero]

/-- The rows, whatever the bytes are. -/
theorem rows_any (L : Laws2 o At) {bs : List UInt8} {bps pad H : Nat} (hb : H * bps < 4294967296) :
    ∀ (n y : Nat) (d : List UInt8) (s : σ), y + n ≤ H → d.length = H * bps → (∃ q, At s bs q) →
      Holds (rows o bps pad n y d s) (fun r => r.2.1.length = H * bps ∧ ∃ q, At r.2.2 bs q) := by
  intro n
  induction n with
  | zero => intro y d s _ hd hA; exact Holds.pure ⟨hd, hA⟩
  | succ n ih =>
    intro y d s hy hd hA
    obtain ⟨q, hA⟩ := hA
    have e2 := Nat.mul_le_mul_right bps (show y + 1 ≤ H by omega)
    rw [Nat.add_mul, Nat.one_mul] at e2
    rw [rows]
    refine (into_len L _ 1 bps hA (by omega) (by rw [List.length_drop]; omega)).bind (fun r hr => ?_)
    obtain ⟨k, r, s1⟩ := r
    obtain ⟨h1, q1, A1⟩ := hr
    simp only [] at h1 A1 ⊢
    have hd' : (d.take (y * bps) ++ r).length = H * bps := by
      rw [List.length_append, List.length_take, h1, List.length_drop]
      omega
    split
    · exact Holds.pure ⟨hd', _, A1⟩
    · exact (L.seekCur (Lump.toInt pad) A1).bind (fun t ht => ih (y + 1) _ _ (by omega) hd' ht.1)

/-- One level. -/
theorem level_spec (L : Laws2 o At) (junk : Nat → UInt8) {bs : List UInt8} {w h k f p v g : Nat} (hv : v = h ∨ w * k % 4 = 0) (hw : 0 < w) (hh : 0 < h) (hk : 0 < k) (hsz : leAt bs p 4 = h * pitch w k) (hin : p + 4 + h * pitch w k ≤ bs.length) {s : σ} (hA : At s bs p) :
    Holds (level o junk v g (tex junk w h k f) s) (fun r => r.1 = 0 ∧ r.2.1.origin = g ∧ GamesSpec.Shows { r.2.1 with origin := IL_ORIGIN_UPPER_LEFT } w h k f (fun x y c => bs[p + 4 + y * pitch w k + (x * k + c)]?) ∧ At r.2.2 bs (p + 4 + h * pitch w k)) := by
  have hlen := L.len hA
  have hwk := Nat.mul_pos hw hk
  have e1 : w * h * k = h * (w * k) := by rw [Nat.mul_comm w h, Nat.mul_assoc]
  have pad : pitch w k = w * k + (3 - (w * k + 3) % 4) := by unfold pitch; omega
  have e2 : h * pitch w k = h * (w * k) + (3 - (w * k + 3) % 4) * h := by rw [pad, Nat.mul_add, Nat.mul_comm h (3 - _)]
  have hfit : w * h * k < 4294967296 := by rw [e1]; omega
  obtain ⟨m1, m2, -, m4, m5, -, -, m8, m9⟩ := tex_fields junk w h k f hw hh hk hfit
  have mb : (tex junk w h k f).bps = w * k := by rw [m8.1, m1, m4, m5, Nat.mul_one]
  have ml : (tex junk w h k f).data.length = h * (w * k) := by rw [tex_len, m9, e1]
  have m9' : (tex junk w h k f).size = h * (w * k) := by rw [m9, e1]
  obtain ⟨hd, s1, n1, A1, v1⟩ := number L junk hA (by omega)
  have fin : ∀ d : List UInt8, d.length = h * (w * k) → (∀ i, i < h * (w * k) → d[i]? = bs[p + 4 + i / (w * k) * pitch w k + i % (w * k)]?) →
      GamesSpec.Shows { tex junk w h k f with data := d, origin := IL_ORIGIN_UPPER_LEFT } w h k f (fun x y c => bs[p + 4 + y * pitch w k + (x * k + c)]?) := by
    intro d hd hpx
    refine shows_tex junk w h k f hw hh hk hfit d (by rw [hd, e1]) _ (fun x y c hx hy hc => ?_)
    have hj : x * k + c < w * k := by
      have := Nat.mul_le_mul_right k (show x + 1 ≤ w from hx)
      rw [Nat.add_mul] at this
      omega
    have hlt := pix_lt hx hy hc
    rw [e1] at hlt
    rw [hpx _ hlt]
    rw [show (y * w + x) * k + c = w * k * y + (x * k + c) by rw [Nat.add_mul, Nat.mul_assoc, Nat.mul_comm y (w * k)]; omega,
      Nat.mul_add_div hwk, Nat.div_eq_of_lt hj, Nat.mul_add_mod, Nat.mod_eq_of_lt hj, Nat.add_zero]
    rfl
  unfold level
  rw [n1, bind_ok]
  simp only []
  rw [if_neg (by rw [mb, m2, m9', v1, hsz, ← e2, u32_of_lt (by omega)]; exact fun h => h rfl)]
  split
  · rename_i h4
    rw [mb] at h4
    have hp0 : pitch w k = w * k := by rw [pad]; omega
    have hin' : p + 4 + (tex junk w h k f).size ≤ bs.length := by rw [hp0] at hin; rw [m9']; exact hin
    obtain ⟨s2, i1, A2⟩ := into_all L (tex junk w h k f).data A1 (tex_len _ _ _ _ _) hin'
    rw [i1, bind_ok]
    simp only []
    rw [if_neg (fun h => h rfl)]
    refine Holds.pure ⟨rfl, rfl, ?_, by rw [hp0, ← m9']; exact A2⟩
    refine fin _ (by rw [at_length, m9']; rw [m9'] at hin'; omega) (fun i hi => ?_)
    rw [Pcd.at_get (by rw [m9']; exact hi), hp0]
    congr 1
    have := Nat.div_add_mod i (w * k)
    rw [Nat.mul_comm] at this
    omega
  · rename_i h4
    rw [mb] at h4
    obtain rfl : v = h := hv.resolve_right h4
    rw [pad] at hin
    have R := rows_spec L hwk (pad := 3 - (w * k + 3) % 4) (H := v) (by omega) hin v 0 (tex junk w v k f).data s1 (by omega) ml (by rw [Nat.zero_mul]; exact A1) (fun i hi => by omega)
    rw [← mb] at R
    refine R.bind (fun r hr => ?_)
    rw [mb] at hr
    obtain ⟨ok, d, s2⟩ := r
    obtain ⟨rfl, q1, q2, q3⟩ := hr
    simp only [] at q1 q2 q3 ⊢
    rw [if_neg (by decide)]
    exact Holds.pure ⟨rfl, rfl, fin d q1 (fun i hi => by rw [q2 i hi, pad]), by rw [pad]; exact q3⟩

end DevIL.Ktx
