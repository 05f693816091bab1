import Verif.Lemmas.TplB
/-! TPL files: the headers. -/
set_option autoImplicit false
namespace DevIL.Tpl
open DevIL.Games DevIL.Detect DevIL.Image DevIL.DetectSpec DevIL.TplSpec
open DevIL.Lump (SEEK_SET SEEK_CUR)

variable {σ : Type} {o : Ops σ} {At : σ → List UInt8 → Nat → Prop}

theorem toInt_small {n : Nat} (h : n < 2147483648) : Lump.toInt n = n := by
  unfold Lump.toInt
  rw [if_pos h]

theorem power_ok {n : Nat} (h : n ≤ 65536) (hp : ∃ k, n = 2 ^ k) : Utility.ilNextPower2 40 n = .ok n := by
  obtain ⟨p, e, h1⟩ := nextPower2_spec n h
  obtain ⟨k, rfl⟩ := hp
  have : pow2 (2 ^ k) = true := by unfold pow2; rw [Nat.log2_two_pow]; exact beq_self_eq_true _
  rw [this] at h1
  rw [e, eq_of_beq h1]

theorem sides_ok {wrap w h : Nat} (hw : w ≤ 65536) (hh : h ≤ 65536) (hp : wrap = 1 ∨ wrap = 2 → (∃ k, w = 2 ^ k) ∧ ∃ k, h = 2 ^ k) : sidesOk wrap w h = .ok true := by
  unfold sidesOk
  split
  · rename_i hc
    rw [power_ok hw (hp hc).1, bind_ok, power_ok hh (hp hc).2, bind_ok, decide_eq_true ⟨rfl, rfl⟩]
    rfl
  · rfl

/-- The image before the tiles are read. -/
def blank (junk : Nat → UInt8) (w h bpp format : Nat) : Img := { tex junk w h bpp format with origin := IL_ORIGIN_UPPER_LEFT }

/-- What the loader does with one texture. -/
theorem load_eq (L : Laws2 o At) (S : SeekOk o At) (junk : Nat → UInt8) (other : Nat → Nat → Img → σ → C (Bool × Img × σ)) (cur : Img) {bs : List UInt8} {w h fmt off bpp format : Nat}
    (T : Tex bs w h fmt off) (hf : fmt ≤ 6) (hk : kindOf fmt = some (bpp, format)) {s : σ} (hA : At s bs 0) :
    ∃ s', At s' bs off ∧ iLoadTplInternal o junk other cur s = (do
      let (d, s) ← decode o junk fmt (blank junk w h bpp format) s'
      pure (true, [{ blank junk w h bpp format with data := d }], s)) := by
  have hlen := L.len hA
  have hlong := T.long
  have hin := T.inside
  have hbeg := T.begins
  obtain ⟨⟨g0, s1⟩, e1, -, p1, v1⟩ := head_spec L.toLaws junk bs [u32f, u32f, u32f] s 0 hA (by decide)
  have p1 : At s1 bs 12 := p1 (by show 0 + 12 ≤ _; omega)
  have m0 : fbe g0 0 = 0x0020AF30 := by unfold fbe; rw [v1 0 u32f rfl (by show 0 + 0 + 4 ≤ _; omega)]; exact T.magic
  have m1 : fbe g0 1 = 1 := by unfold fbe; rw [v1 1 u32f rfl (by show 0 + 4 + 4 ≤ _; omega)]; exact T.count
  have m2 : fbe g0 2 = 12 := by unfold fbe; rw [v1 2 u32f rfl (by show 0 + 8 + 4 ≤ _; omega)]; exact T.size
  obtain ⟨⟨b2, s2⟩, e2, -, p2⟩ := S 12 p1 (by omega)
  obtain ⟨⟨g1, s3⟩, e3, -, p3, v3⟩ := head_spec L.toLaws junk bs [u32f, u32f] s2 12 p2 (by decide)
  have p3 : At s3 bs 20 := p3 (by show 12 + 8 ≤ _; omega)
  have n0 : fbe g1 0 = headAt bs := by unfold fbe; rw [v3 0 u32f rfl (by show 12 + 0 + 4 ≤ _; omega)]; rfl
  obtain ⟨⟨b4, s4⟩, e4, o4, p4⟩ := S (headAt bs) p3 (by omega)
  obtain ⟨⟨g2, s5⟩, e5, -, p5, v5⟩ := head_spec L.toLaws junk bs [u16, u16] s4 (headAt bs) p4 (by decide)
  have p5 : At s5 bs (headAt bs + 4) := p5 (by show _ + 4 ≤ _; omega)
  have q0 : fbe g2 0 = h := by unfold fbe; rw [v5 0 u16 rfl (by show _ + 0 + 2 ≤ _; omega)]; exact T.height
  have q1 : fbe g2 1 = w := by unfold fbe; rw [v5 1 u16 rfl (by show _ + 2 + 2 ≤ _; omega)]; exact T.width
  obtain ⟨⟨g3, s6⟩, e6, -, p6, v6⟩ := head_spec L.toLaws junk bs [u32f, u32f, u32f, u32f] s5 (headAt bs + 4) p5 (by decide)
  have p6 : At s6 bs (headAt bs + 4 + 16) := p6 (by show _ + 16 ≤ _; omega)
  have r0 : fbe g3 0 = fmt := by unfold fbe; rw [v6 0 u32f rfl (by show headAt bs + 4 + 0 + 4 ≤ _; omega)]; exact T.format
  have r1 : fbe g3 1 = off := by unfold fbe; rw [v6 1 u32f rfl (by show headAt bs + 4 + 4 + 4 ≤ _; omega)]; exact T.data
  have r2 : fbe g3 2 = beAt bs (headAt bs + 12) 4 := by unfold fbe; rw [v6 2 u32f rfl (by show headAt bs + 4 + 8 + 4 ≤ _; omega)]; rfl
  obtain ⟨⟨b7, s7⟩, e7, o7, p7⟩ := S off p6 T.begins
  have hw : w ≤ 65536 := by have := beAt_lt2 bs (headAt bs + 2) 2; rw [T.width] at this; omega
  have hh : h ≤ 65536 := by have := beAt_lt2 bs (headAt bs) 2; rw [T.height] at this; omega
  have hw0 := T.w0
  have hh0 := T.h0
  simp only [] at o4 o7 p2 p4 p7
  refine ⟨s7, p7, ?_⟩
  unfold iLoadTplInternal
  rw [e1, bind_ok]
  simp only []
  rw [m0, m1, m2, if_neg (by decide), L.tellAt p1 (by omega)]
  unfold textures texture
  rw [show Lump.toInt (u32 (12 + 0 * 8)) = ((12 : Nat) : Int) from rfl, e2, bind_ok]
  simp only []
  rw [e3, bind_ok]
  simp only []
  rw [n0, toInt_small (by omega), e4, bind_ok]
  simp only [o4]
  rw [if_neg (by decide), e5, bind_ok]
  simp only [q0, q1]
  rw [if_neg (by omega), e6, bind_ok]
  simp only [r0, r1, r2]
  rw [sides_ok hw hh T.wrap, bind_ok, if_neg (by decide), toInt_small (by omega), e7, bind_ok]
  simp only [o7]
  rw [if_neg (by decide), hk]
  simp only []
  rw [if_pos hf]
  show _ = (decode o junk fmt (blank junk w h bpp format) s7 >>= _)
  unfold blank
  cases decode o junk fmt { tex junk w h bpp format with origin := IL_ORIGIN_UPPER_LEFT } s7 with
  | error z => rfl
  | ok r => rfl

end DevIL.Tpl
