import Verif.Model.Clear
/-! Lemmas about clearing an image. -/
set_option autoImplicit false
namespace DevIL.Clear
open Utility

/-- The last value stored in element `s`. -/
def final : List (Nat × Chan) → Nat → Option Chan
  | [], _ => none
  | (k, ch) :: r, s => match final r s with
    | some c => some c
    | none => if k = s then some ch else none

theorem runStores_spec (enc : Chan → List UInt8) (bpc n : Nat) (he : ∀ ch, (enc ch).length = bpc) :
    ∀ (l : List (Nat × Chan)) (b : List UInt8), b.length = n → (∀ p ∈ l, p.1 * bpc + bpc ≤ n) →
      ∃ b' : List UInt8, runStores enc bpc l b = .ok b' ∧ b'.length = n ∧
        ∀ s j, j < bpc → b'[s * bpc + j]? = match final l s with
          | some ch => (enc ch)[j]?
          | none => b[s * bpc + j]? := by
  intro l
  induction l with
  | nil => intro b hl _; exact ⟨b, rfl, hl, fun _ _ _ => rfl⟩
  | cons p r ih =>
    intro b hl hp
    obtain ⟨k, ch⟩ := p
    have hk := hp (k, ch) (by simp)
    simp only at hk
    obtain ⟨b1, e1, l1, g1⟩ := memcpy_get (dst := b) (dOff := k * bpc) (src := enc ch) (sOff := 0) (n := bpc)
      (by rw [he]; omega) (by omega)
    obtain ⟨b2, e2, l2, g2⟩ := ih b1 (by omega) (fun q hq => hp q (by simp [hq]))
    refine ⟨b2, by simp only [runStores, e1, bind_ok, e2], l2, fun s j hj => ?_⟩
    rw [g2 s j hj]
    simp only [final]
    cases hf : final r s with
    | some c => rfl
    | none =>
      simp only
      rw [g1]
      by_cases hks : k = s
      · subst hks
        rw [if_pos rfl, if_pos (by omega)]
        simp only
        congr 1; omega
      · rw [if_neg hks, if_neg]
        rintro ⟨h1, h2⟩
        obtain ⟨q, hq⟩ : ∃ q, s * bpc + j = k * bpc + q := ⟨s * bpc + j - k * bpc, by omega⟩
        exact hks ((idx_inj hj (by omega) hq).1.symm)

/-- The painting loops: byte `c*bpc+j` of every pixel becomes byte `c*bpc+j` of the colour. -/
theorem paint_spec (m : Img) (colours : List UInt8) (N : Nat)
    (ht : m.type = IL_BYTE ∨ m.type = IL_UNSIGNED_BYTE ∨ m.type = IL_SHORT ∨ m.type = IL_UNSIGNED_SHORT ∨ m.type = IL_INT ∨
      m.type = IL_UNSIGNED_INT ∨ m.type = IL_FLOAT ∨ m.type = IL_DOUBLE)
    (hbpc : m.bpc = ilGetBpcType m.type) (hb0 : 0 < m.bpc) (hp0 : 0 < m.bpp)
    (hsz : m.size = N * (m.bpp * m.bpc)) (hl : m.data.length = m.size) (hc : m.bpp * m.bpc ≤ colours.length) :
    ∃ d' : List UInt8, paint m colours = .ok d' ∧ d'.length = m.data.length ∧
      ∀ p j, p < N → j < m.bpp * m.bpc → d'[p * (m.bpp * m.bpc) + j]? = colours[j]? := by
  have hk0 : 0 < m.bpp * m.bpc := Nat.mul_pos hp0 hb0
  have hu : Upd (fun b => forStep 0 (m.bpp * m.bpc) m.bpc (fun c b => forStep c m.size (m.bpp * m.bpc) (fun i b =>
      memcpy b i colours (if ilGetBpcType m.type = 1 then c else c / m.bpc * ilGetBpcType m.type) (ilGetBpcType m.type)) b) b)
      m.data (fun _ => False)
      (fun i => ∃ c, c < m.bpp ∧ ∃ p, p < N ∧ (c * m.bpc + p * (m.bpp * m.bpc) ≤ i ∧ i < c * m.bpc + p * (m.bpp * m.bpc) + m.bpc))
      (fun i => colours[i % (m.bpp * m.bpc)]?) := by
    have inner : ∀ c, c < m.bpp → Upd (fun b => forStep (c * m.bpc) m.size (m.bpp * m.bpc) (fun i b =>
        memcpy b i colours (if ilGetBpcType m.type = 1 then c * m.bpc else c * m.bpc / m.bpc * ilGetBpcType m.type)
          (ilGetBpcType m.type)) b) m.data (fun _ => False)
        (fun i => ∃ p, p < N ∧ (c * m.bpc + p * (m.bpp * m.bpc) ≤ i ∧ i < c * m.bpc + p * (m.bpp * m.bpc) + m.bpc))
        (fun i => colours[i % (m.bpp * m.bpc)]?) := by
      intro c hcc
      rw [← hbpc]
      have hclt : c * m.bpc + m.bpc ≤ m.bpp * m.bpc := by
        rw [← Nat.succ_mul]; exact Nat.mul_le_mul_right _ hcc
      have hoff : (if m.bpc = 1 then c * m.bpc else c * m.bpc / m.bpc * m.bpc) = c * m.bpc := by
        rw [Nat.mul_div_cancel _ hb0]; simp
      rw [hoff]
      have hcount : (m.size - c * m.bpc + (m.bpp * m.bpc - 1)) / (m.bpp * m.bpc) = N := by
        rw [hsz]
        by_cases hN : N = 0
        · subst hN; rw [Nat.zero_mul, Nat.zero_sub, Nat.zero_add]; exact Nat.div_eq_of_lt (by omega)
        · have hle : m.bpp * m.bpc ≤ N * (m.bpp * m.bpc) := Nat.le_mul_of_pos_left _ (by omega)
          rw [show N * (m.bpp * m.bpc) - c * m.bpc + (m.bpp * m.bpc - 1) =
            N * (m.bpp * m.bpc) + (m.bpp * m.bpc - 1 - c * m.bpc) by omega]
          exact idx_div (by omega)
      have := Upd.loopW (n := N) (d0 := m.data) (v := fun i => colours[i % (m.bpp * m.bpc)]?)
        (R := fun p i => c * m.bpc + p * (m.bpp * m.bpc) ≤ i ∧ i < c * m.bpc + p * (m.bpp * m.bpc) + m.bpc)
        (body := fun p b => memcpy b (c * m.bpc + p * (m.bpp * m.bpc)) colours (c * m.bpc) m.bpc) (fun p hp => by
          refine memcpy_upd (by omega) ?_ ?_
          · have : (p + 1) * (m.bpp * m.bpc) ≤ N * (m.bpp * m.bpc) := Nat.mul_le_mul_right _ hp
            rw [Nat.succ_mul] at this
            omega
          · intro i h1 h2
            obtain ⟨q, rfl⟩ : ∃ q, i = p * (m.bpp * m.bpc) + (c * m.bpc + q) := ⟨i - (p * (m.bpp * m.bpc) + c * m.bpc), by omega⟩
            rw [idx_mod (by omega)]
            congr 1; omega)
      refine this.congr (fun d _ => ?_) (fun _ h => h) (fun _ _ => Iff.rfl) (fun _ _ _ => rfl)
      rw [forStep_pos hk0, hcount]
    have := Upd.loopW (n := m.bpp) (d0 := m.data) inner
    refine this.congr (fun d _ => ?_) (fun _ h => h) (fun _ _ => Iff.rfl) (fun _ _ _ => rfl)
    rw [forStep_mul hb0]
  obtain ⟨d', e, l, s⟩ := hu.apply
  refine ⟨d', by unfold paint; simp only [if_pos ht]; exact e, l, fun p j hp hj => ?_⟩
  have hlt : p * (m.bpp * m.bpc) + j < m.data.length := by rw [hl, hsz]; exact idx_lt hp hj
  rw [(s _ hlt).1, idx_mod hj]
  refine ⟨j / m.bpc, (Nat.div_lt_iff_lt_mul hb0).mpr hj, p, hp, ?_⟩
  have := Nat.div_add_mod' j m.bpc
  have := Nat.mod_lt j hb0
  omega

end DevIL.Clear
