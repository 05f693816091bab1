import Verif.Props.Gif
/-! Where decoding goes wrong. -/
set_option autoImplicit false
namespace DevIL.Gif
open DevIL.Lump DevIL.GifSpec DevIL.Image DevIL.Utility

/-- The first pixel decides. -/
theorem first_code {size : Nat} (hs : 2 ≤ size ∧ size ≤ 8) {lone : Bool} {px : List UInt8} {blocks : List (List UInt8)} (hp : GifSpec.Holds size lone px blocks) (hpx : px ≠ []) :
    ∃ F, ∀ fuel, F ≤ fuel → ∀ {k : Job} {tail : List UInt8} {junk : Junk} {data buf : List UInt8} {l : R}, 0 < k.h → buf.length = 257 →
      At l (UInt8.ofNat size :: (blockBytes blocks ++ tail)) → ∃ c rest z, px = UInt8.ofNat c :: rest ∧ c < 2 ^ size ∧ z.slot = 2 ^ size + 2 ∧
        (∀ e, restart k c z (startS junk k.base data) = .error e → GifGetData fuel junk k data buf l = .error e) ∧
        (restart k c z (startS junk k.base data) = .ok none → ∃ b' l', GifGetData fuel junk k data buf l = .ok (false, data, b', l')) := by
  obtain ⟨hbo, cs, pad, hc, hbits, hpad⟩ := hp
  have h256 : 2 ^ size ≤ 2 ^ 8 := Nat.pow_le_pow_right (by omega) hs.2
  have h4 : 2 ^ 2 ≤ 2 ^ size := Nat.pow_le_pow_right (by omega) hs.1
  refine ⟨cs.length + 1, fun fuel hfuel k tail junk data buf l hh hb hl => ?_⟩
  obtain ⟨fuel, rfl⟩ : ∃ f, fuel = f + 1 := ⟨fuel - 1, by omega⟩
  have hsz : (UInt8.ofNat size).toNat = size := by simp; omega
  have hadv := At.adv_cons hl
  have hfeeds : Feeds (startZ size buf (adv l 1)).src (bitsOfCodes ((codeBits (roots size).length, clearCode size) :: cs) ++ pad) tail := by
    refine ⟨blocks.flatten, by show 0 ≤ 8; omega, ⟨0, blocks, rfl, by show 0 + 0 ≤ _; omega, hb, hbo, hadv, by simp⟩, ?_⟩
    rw [hbits, bitsOfCodes_cons, codeBits_roots hs.1]
    simp [startZ, byteBits, GifSpec.bitsOf]
  obtain ⟨src, e, hf⟩ := get_spec (z := startZ size buf (adv l 1)) (by rw [roots_length]; omega) (by rw [roots_length]; omega) (by rw [roots_length]; show 2 ^ size < _; omega)
    (by rw [codeBits_roots hs.1]; rfl) hfeeds
  obtain ⟨c, src', rest, cs', e1, e2, e3, _⟩ := skipClears_spec hs cs (z := { startZ size buf (adv l 1) with cur := size + 1, slot := (startZ size buf (adv l 1)).newcodes, top := 2 ^ (size + 1), src := src }) (fuel := fuel) hc hpx ⟨⟨rfl, rfl, rfl⟩, rfl, rfl, rfl⟩ hf (by omega)
  have key : GifGetData (fuel + 1) junk k data buf l = (restart k c { startZ size buf (adv l 1) with src := src' } (startS junk k.base data) >>= fun r =>
      (match r with
        | none => pure (false, data, { startZ size buf (adv l 1) with src := src' })
        | some s => dataLoop k size fuel { startZ size buf (adv l 1) with src := src' } s) >>= fun r => pure (r.1, r.2.1, r.2.2.src.buf, r.2.2.src.inp)) := by
    unfold GifGetData
    rw [At.getc hl, bind_ok]
    dsimp only
    rw [if_neg (by rw [UInt8.lt_iff_toNat_lt, UInt8.lt_iff_toNat_lt, hsz]; show ¬ (size < 2 ∨ 9 < size); omega), hsz]
    conv => lhs; unfold dataLoop
    rw [e, bind_ok]
    dsimp only
    rw [if_neg (by show ¬ (2 ^ size = 2 ^ size + 1 ∨ k.h ≤ 0); omega), if_pos (show clearCode size = (startZ size buf (adv l 1)).clear from rfl)]
    rw [e1, bind_ok]
    dsimp only
    rw [if_neg (by show ¬ c = 2 ^ size + 1; omega)]
    show ((restart k c { startZ size buf (adv l 1) with src := src' } (startS junk k.base data) >>= _) >>= _) = _
    rw [bind_assoc]
    congr 1
  refine ⟨c, rest, { startZ size buf (adv l 1) with src := src' }, e3, e2, rfl, ?_, ?_⟩
  · intro er h
    rw [key, h]
    rfl
  · intro h
    rw [key, h]
    exact ⟨_, _, rfl⟩

end DevIL.Gif
