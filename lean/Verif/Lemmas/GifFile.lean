import Verif.Lemmas.GifLzw
import Verif.Spec.GifFile
import Verif.Lemmas.Load
/-! Lemmas about the parts of a GIF file around the data. -/
set_option autoImplicit false
namespace DevIL.Gif
open DevIL.Lump DevIL.GifSpec DevIL.Image DevIL.Utility

/-! ### Streams -/

theorem at_eof {l : R} {b : UInt8} {rest : List UInt8} (h : At l (b :: rest)) : eof l = false := by
  have hl := h.len
  rw [List.length_cons] at hl
  unfold eof
  rw [if_pos (by have := h.good.ne; omega)]
  simp; omega

theorem at_seek {l : R} {bs rest : List UInt8} (h : At l (bs ++ rest)) : seek l bs.length SEEK_CUR = .ok (true, adv l bs.length) := by
  have hl := h.len
  rw [List.length_append] at hl
  have h1 := h.good.lt
  have h2 := h.good.pos
  have e : ofInt ((l.pos : Int) + (bs.length : Int)) = l.pos + bs.length := by unfold ofInt; omega
  unfold seek seekTo
  rw [if_neg (by decide), if_pos rfl, e, if_neg (by omega), bind_ok]
  rfl

theorem at_back {l : R} {b : UInt8} {rest : List UInt8} (h : At l (b :: rest)) : seek (adv l 1) (-1) SEEK_CUR = .ok (true, l) := by
  have hl := h.len
  have h1 := h.good.lt
  have h2 := h.good.pos
  have e : ofInt (((adv l 1).pos : Int) + (-1)) = l.pos := by unfold ofInt; rw [adv_pos]; omega
  unfold seek seekTo
  rw [if_neg (by decide), if_pos rfl, e, if_neg (by rw [adv_size]; omega), bind_ok]
  rfl

/-! ### Extensions -/

theorem skipBlocks_spec {blocks : List (List UInt8)} : ∀ {fuel : Nat} {l : R} {b : UInt8} {tail : List UInt8}, BlocksOk blocks → At l (blockBytes blocks ++ 0 :: b :: tail) →
    blocks.length < fuel → ∃ l', skipBlocks fuel l = .ok (true, l') ∧ At l' (b :: tail) := by
  induction blocks with
  | nil =>
    intro fuel l b tail _ h hf
    obtain ⟨fuel, rfl⟩ : ∃ f, fuel = f + 1 := ⟨fuel - 1, by omega⟩
    have h' : At l (0 :: b :: tail) := h
    refine ⟨adv l 1, ?_, h'.adv_cons⟩
    unfold skipBlocks
    rw [h'.getc, bind_ok]
    dsimp only
    have hs := at_seek (bs := []) h'.adv_cons
    rw [show ((0 : UInt8).toNat : Int) = (([] : List UInt8).length : Int) from rfl, hs, bind_ok]
    simp
  | cons x blocks ih =>
    intro fuel l b tail hb h hf
    rw [List.length_cons] at hf
    obtain ⟨fuel, rfl⟩ : ∃ f, fuel = f + 1 := ⟨fuel - 1, by omega⟩
    obtain ⟨h1, h2⟩ := hb x (by simp)
    have hx : 0 < x.length := List.length_pos_iff.mpr h1
    have h' : At l (UInt8.ofNat x.length :: (x ++ (blockBytes blocks ++ 0 :: b :: tail))) := by
      simpa [blockBytes] using h
    have hn : (UInt8.ofNat x.length).toNat = x.length := by simp; omega
    have h3 := h'.adv_cons.adv
    obtain ⟨l', e, ha⟩ := ih (fuel := fuel) (fun y hy => hb y (by simp [hy])) h3 (by omega)
    refine ⟨l', ?_, ha⟩
    have hne : eof (adv (adv l 1) x.length) = false := by
      cases blocks with
      | nil => exact at_eof h3
      | cons y t => exact at_eof (b := UInt8.ofNat y.length) (rest := y ++ (blockBytes t ++ 0 :: b :: tail)) (by simpa [blockBytes] using h3)
    unfold skipBlocks
    rw [h'.getc, bind_ok]
    dsimp only
    rw [hn, at_seek h'.adv_cons, bind_ok]
    dsimp only
    rw [if_pos ⟨by rw [hne]; rfl, by intro h0; rw [h0] at hn; simp at hn; omega⟩, e]

/-- The extension in the form of the loader. -/
def gfxOf (c : Option (UInt8 × BitVec 16 × UInt8)) : Option Gfx := c.map fun c => ⟨c.1, c.2.1.toNat, c.2.2⟩

theorem blocks_le (blocks : List (List UInt8)) : blocks.length ≤ (blockBytes blocks).length := by
  induction blocks with
  | nil => simp
  | cons x t ih =>
    rw [show blockBytes (x :: t) = UInt8.ofNat x.length :: x ++ blockBytes t from rfl]
    simp only [List.length_append, List.length_cons]
    omega

theorem SkipExtensions_spec {big : Bool} {junk : Nat → UInt8} {es : List Ext} : ∀ {fuel : Nat} {c : Option (UInt8 × BitVec 16 × UInt8)} {l : R} {b : UInt8} {tail : List UInt8},
    (∀ e ∈ es, e.Ok) → b ≠ 0x21 → At l (es.flatMap Ext.bytes ++ b :: tail) → (es.flatMap Ext.bytes).length < fuel →
    ∃ l', SkipExtensions big junk fuel (gfxOf c) l = .ok (true, gfxOf (es.foldl Ext.note c), l') ∧
      At l' (b :: tail) := by
  induction es with
  | nil =>
    intro fuel c l b tail _ hb h hf
    obtain ⟨fuel, rfl⟩ : ∃ f, fuel = f + 1 := ⟨fuel - 1, by omega⟩
    have h' : At l (b :: tail) := h
    refine ⟨l, ?_, h'⟩
    unfold SkipExtensions
    rw [h'.getc, bind_ok]
    dsimp only
    rw [if_pos hb, at_back h', bind_ok]
    rfl
  | cons x es ih =>
    intro fuel c l b tail he hb h hf
    rw [List.flatMap_cons, List.length_append] at hf
    have hne : ∀ {l'}, At l' (es.flatMap Ext.bytes ++ b :: tail) → eof l' = false := by
      intro l' ha
      cases es with
      | nil => exact at_eof ha
      | cons y t =>
        cases y with
        | control p d t' => exact at_eof (b := 0x21) (by rw [List.flatMap_cons] at ha; exact ha)
        | other p d => exact at_eof (b := 0x21) (by rw [List.flatMap_cons] at ha; exact ha)
    cases x with
    | control p d t =>
      have hlen : (Ext.control p d t).bytes.length = 8 := rfl
      obtain ⟨fuel, rfl⟩ : ∃ f, fuel = f + 1 := ⟨fuel - 1, by omega⟩
      have h0 : At l (0x21 :: 0xF9 :: 4 :: p :: (leBytes 2 d.toNat ++ t :: 0 :: (es.flatMap Ext.bytes ++ b :: tail))) := by
        simpa [Ext.bytes] using h
      have h1 := h0.adv_cons
      have h2 := h1.adv_cons
      have h3 := h2.adv_cons
      have h4 := h3.adv_cons
      have h5 := h4.adv
      rw [show (leBytes 2 d.toNat).length = 2 from rfl] at h5
      have h6 := h5.adv_cons
      have h7 := h6.adv_cons
      obtain ⟨l', e, ha⟩ := ih (fuel := fuel) (c := some (p, d, t)) (fun y hy => he y (by simp [hy])) hb h7 (by omega)
      refine ⟨l', ?_, ha⟩
      unfold SkipExtensions
      rw [h0.getc, bind_ok]
      dsimp only
      rw [if_neg (by decide), h1.getc, bind_ok]
      dsimp only
      rw [if_pos rfl]
      unfold readGfx
      rw [h2.getb, bind_ok]
      dsimp only
      rw [h3.getb, bind_ok]
      dsimp only
      rw [h4.getLittleUShort, bind_ok]
      dsimp only
      rw [h5.getb, bind_ok]
      dsimp only
      rw [h6.getb, bind_ok]
      dsimp only
      rw [pure_eq_ok, bind_ok]
      dsimp only
      rw [hne h7]
      exact e
    | other label blocks =>
      have hok := he (.other label blocks) (by simp)
      have hlen : (Ext.other label blocks).bytes.length = (blockBytes blocks).length + 3 := by simp [Ext.bytes]
      have hbl := blocks_le blocks
      obtain ⟨fuel, rfl⟩ : ∃ f, fuel = f + 1 := ⟨fuel - 1, by omega⟩
      have h0 : At l (0x21 :: label :: (blockBytes blocks ++ 0 :: (es.flatMap Ext.bytes ++ b :: tail))) := by
        simpa [Ext.bytes] using h
      have h1 := h0.adv_cons
      have h2 := h1.adv_cons
      have hsk : ∃ l', skipBlocks fuel (adv (adv l 1) 1) = .ok (true, l') ∧ At l' (es.flatMap Ext.bytes ++ b :: tail) := by
        cases es with
        | nil => exact skipBlocks_spec hok.2 h2 (by omega)
        | cons y t =>
          cases y with
          | control p d t' => exact skipBlocks_spec (b := 0x21) hok.2 (by rw [List.flatMap_cons] at h2; exact h2) (by omega)
          | other p d => exact skipBlocks_spec (b := 0x21) hok.2 (by rw [List.flatMap_cons] at h2; exact h2) (by omega)
      obtain ⟨l1, e1, ha1⟩ := hsk
      obtain ⟨l', e, ha⟩ := ih (fuel := fuel) (c := c) (fun y hy => he y (by simp [hy])) hb ha1 (by omega)
      refine ⟨l', ?_, ha⟩
      unfold SkipExtensions
      rw [h0.getc, bind_ok]
      dsimp only
      rw [if_neg (by decide), h1.getc, bind_ok]
      dsimp only
      rw [if_neg hok.1, e1, bind_ok]
      dsimp only
      rw [if_neg (by decide), hne ha1]
      exact e

/-! ### Colour tables -/

theorem tableSize_le (f : UInt8) : tableSize f ≤ 768 := by
  unfold tableSize
  split
  · have : 2 ^ (f.toNat % 8 + 1) ≤ 2 ^ 8 := Nat.pow_le_pow_right (by omega) (by omega)
    omega
  · omega

/-- The palette a table gives: its bytes and what is left in its block. -/
theorem iGetPalette_spec {junk : Nat → UInt8} {info : UInt8} {t tail : List UInt8} {l : R} (hi : info.toNat / 128 % 2 = 1) (ht : t.length = tableSize info) (h : At l (t ++ tail)) :
    ∃ more, iGetPalette junk info none l = .ok (some ⟨t ++ more, t.length, IL_PAL_RGB24⟩, adv l t.length) := by
  have hle := tableSize_le info
  have hsz : tableSize info = 2 ^ (info.toNat % 8 + 1) * 3 := by unfold tableSize; rw [if_pos hi, Nat.mul_comm]
  refine ⟨(alloc junk 768).drop t.length, ?_⟩
  unfold iGetPalette
  dsimp only
  rw [Nat.add_zero, if_neg (by omega)]
  unfold keepPal
  rw [pure_eq_ok, bind_ok, At.readAt h (by omega) (by omega) (by rw [alloc_length]; omega), bind_ok]
  dsimp only
  rw [if_neg (by simp), ← hsz, ht]
  simp

end DevIL.Gif
