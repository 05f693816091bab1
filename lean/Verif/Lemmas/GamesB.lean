import Verif.Lemmas.Games
/-! LIF and PXR. -/
set_option autoImplicit false
namespace DevIL.Games

open DevIL.Lump (SEEK_SET SEEK_CUR SEEK_END)
open DevIL.Detect DevIL.DetectSpec DevIL.GamesSpec DevIL.Image

variable {σ : Type} {o : Ops σ} {At : σ → List UInt8 → Nat → Prop}

theorem Holds.same {α : Type} {c : C α} {P Q : α → Prop} (h1 : Holds c P) (h2 : Holds c Q) : Holds c (fun a => P a ∧ Q a) := by
  obtain ⟨a, e, p⟩ := h1
  obtain ⟨b, e', q⟩ := h2
  have : b = a := by
    have := e'.symm.trans e
    cases this; rfl
  subst this
  exact ⟨b, e, p, q⟩

/-- A single block read with `iread(p, w*h, 1)` fits the image. -/
theorem tex_one (junk : Nat → UInt8) (w h f : Nat) (hw : w < 4294967296) : u32 (w * h) ≤ (tex junk w h 1 f).size := by
  have hb : Utility.ilGetBpcType IL_UNSIGNED_BYTE = 1 := by decide
  have e : (tex junk w h 1 f).size = u32 (u32 (atLeast1 w * atLeast1 h)) := by
    have hw' : atLeast1 w < 4294967296 := by unfold atLeast1; split <;> omega
    simp only [tex, geometry, hb, Nat.mul_one, u32_of_lt hw', show atLeast1 1 = 1 from rfl]
  rw [e, u32_of_lt (u32_lt _)]
  by_cases h0 : w = 0 ∨ h = 0
  · have : w * h = 0 := by rcases h0 with h | h <;> simp [h]
    rw [this]; exact Nat.zero_le _
  · unfold atLeast1
    rw [if_neg (by omega), if_neg (by omega)]

theorem map_loop (d : List UInt8) (n : Nat) (hn : n = d.length) (f : UInt8 → UInt8) :
    loopN n (fun i d => do let b ← rd d i; wr d i (f b)) d = .ok (d.map f) := by
  subst hn
  have key : ∀ k, k ≤ d.length → loopN k (fun i d => do let b ← rd d i; wr d i (f b)) d = .ok ((d.take k).map f ++ d.drop k) := by
    intro k
    induction k with
    | zero => intro _; simp
    | succ k ih =>
      intro hk
      rw [loopN_succ, ih (by omega), bind_ok]
      have hlt : k < ((d.take k).map f ++ d.drop k).length := by simp; omega
      have hv : ((d.take k).map f ++ d.drop k)[k] = d[k] := by
        rw [List.getElem_append_right (by simp), List.getElem_drop]
        congr 1
        simp; omega
      rw [rd_of_lt hlt, hv, bind_ok, wr_of_lt hlt]
      congr 1
      rw [List.set_append_right _ _ (by simp)]
      have e : k - ((d.take k).map f).length = 0 := by simp; omega
      rw [e, List.drop_eq_getElem_cons (by omega), List.set_cons_zero, List.take_succ_eq_append_getElem (by omega), List.map_append,
        List.append_assoc]
      rfl
  have := key d.length (Nat.le_refl _)
  simpa using this

theorem lif_spec (L : Laws2 o At) (junk : Nat → UInt8) {s : σ} {bs : List UInt8} (hs : At s bs 0) :
    Holds (iLoadLifInternal o junk s) (fun r => Lif bs r.1 r.2.1 ∧ ∃ q, At r.2.2 bs q) := by
  unfold iLoadLifInternal Lif
  refine (fle_lt L.toLaws junk hs (fs := [arr 8, u32f, u32f, u32f, u32f, u32f, u32f, u32f, u32f, u32f]) (by decide)).bind (fun r hr => ?_)
  obtain ⟨⟨q, hq⟩, hpos, hf, hlt⟩ := hr
  obtain ⟨h, t⟩ := r
  have hw32 : fle h 3 < 4294967296 := hlt 3 u32f rfl
  simp only at hq hpos hf ⊢
  have fit := tex_one junk (fle h 3) (fle h 4) IL_COLOUR_INDEX hw32
  -- any file
  have any : Holds (into o t (tex junk (fle h 3) (fle h 4) 1 IL_COLOUR_INDEX).data (u32 (fle h 3 * fle h 4)) 1)
      (fun r => r.2.1.length = (tex junk (fle h 3) (fle h 4) 1 IL_COLOUR_INDEX).size ∧ (∃ q, At r.2.2 bs q)) := by
    refine (into_len L _ _ _ hq (by rw [Nat.mul_one]; exact u32_lt _) (by rw [Nat.mul_one, tex_len]; exact fit)).mono (fun r hr => ?_)
    rw [tex_len] at hr
    exact hr
  have pal1024 : ∀ {t : σ} {q : Nat}, At t bs q → Holds (into o t (alloc junk 1024) 1 1024) (fun r =>
      r.1 = (at_ bs q 1024).length ∧ (q + 1024 ≤ bs.length → r.2.1 = at_ bs q 1024) ∧ ∃ q, At r.2.2 bs q) := by
    intro t q hq
    refine (into_spec L (alloc junk 1024) 1 1024 hq (by decide) (by decide) (by simp)).mono (fun r hr => ⟨?_, fun hfit => ?_, _, hr.2.2⟩)
    · rw [hr.1, Nat.div_one, Nat.one_mul]
    · have hl : (at_ bs q 1024).length = 1024 := by rw [at_length]; omega
      rw [hr.2.1, Nat.one_mul, hl, List.drop_of_length_le (by simp), List.append_nil]
  by_cases hc : 44 ≤ bs.length ∧ 0 < leAt bs 16 4 ∧ 0 < leAt bs 20 4 ∧ leAt bs 16 4 * leAt bs 20 4 < 2 ^ 32
  · obtain ⟨h12, hw, hh, hfit⟩ := hc
    have e0 : fle h 3 = leAt bs 16 4 := by
      have := hf 3 u32f rfl (by show 0 + 16 + 4 ≤ _; omega)
      show le (fld h 3) = _
      rw [this]; rfl
    have e1 : fle h 4 = leAt bs 20 4 := by
      have := hf 4 u32f rfl (by show 0 + 20 + 4 ≤ _; omega)
      show le (fld h 4) = _
      rw [this]; rfl
    have hat : At t bs 44 := hpos (by show 0 + 44 ≤ _; omega)
    rw [e0, e1] at any fit ⊢
    generalize leAt bs 16 4 = w at *
    generalize leAt bs 20 4 = h' at *
    have hpw : 0 < w * h' := Nat.mul_pos hw hh
    have hfit1 : w * h' * 1 < 4294967296 := by omega
    obtain ⟨h1, h2, h3, h4, h5, h6, h7, h8, h9⟩ := tex_fields junk w h' 1 IL_COLOUR_INDEX hw hh (by decide) hfit1
    rw [u32_of_lt hfit] at any ⊢
    have sp := into_spec L (tex junk w h' 1 IL_COLOUR_INDEX).data (w * h') 1 hat hpw
      (by omega) (by rw [tex_len]; omega)
    refine (Holds.same sp any).bind (fun r hr => ?_)
    obtain ⟨⟨hr1, hr2, hr3⟩, hl, -⟩ := hr
    rw [Nat.mul_one] at hr1 hr2 hr3
    rw [at_length] at hr1
    have hn1 : r.1 = 1 ↔ 44 + w * h' ≤ bs.length := by
      rw [hr1]
      constructor
      · intro h
        by_cases hlt : 44 + w * h' ≤ bs.length
        · exact hlt
        · rw [Nat.div_eq_of_lt (by omega)] at h
          omega
      · intro h
        rw [Nat.min_eq_left (by omega), Nat.div_self hpw]
    show Holds (if r.1 ≠ 1 then _ else _) _
    refine Holds.ite (fun hn => ?_) (fun hn => ?_)
    · refine Holds.pure ⟨⟨hl, fun _ _ _ _ => ⟨⟨fun h => (by simp at h), fun h => absurd (hn1.mpr (by omega)) hn⟩, fun h => (by simp at h)⟩⟩, _, hr3⟩
    · have hle : 44 + w * h' ≤ bs.length := hn1.mp (by omega)
      have hlen : (at_ bs 44 (w * h')).length = w * h' := by rw [at_length]; omega
      rw [hlen] at hr2 hr3
      rw [List.drop_of_length_le (by rw [tex_len]; omega), List.append_nil] at hr2
      refine (pal1024 hr3).bind (fun r' hr' => ?_)
      obtain ⟨hp1, hp2, hp3⟩ := hr'
      rw [at_length] at hp1
      show Holds (if r'.1 ≠ 1024 then _ else _) _
      refine Holds.ite (fun hn => ?_) (fun hn => ?_)
      · refine Holds.pure ⟨⟨hl, fun _ _ _ _ => ⟨⟨fun h => (by simp at h), fun h => absurd (by omega) hn⟩, fun h => (by simp at h)⟩⟩, hp3⟩
      · have hle2 : 44 + w * h' + 1024 ≤ bs.length := by omega
        show Holds (loopN (tex junk w h' 1 IL_COLOUR_INDEX).size (fun i d => rd d i >>= fun b => wr d i (b + 1)) r.2.1 >>= _) _
        rw [map_loop r.2.1 _ hl.symm (· + 1), bind_ok]
        refine Holds.pure ⟨⟨by show (List.map _ _).length = _; rw [List.length_map]; exact hl, fun _ _ _ _ => ⟨⟨fun _ => hle2, fun _ => rfl⟩, fun _ => ⟨?_, ?_⟩⟩⟩, hp3⟩
        · refine shows_tex junk w h' 1 IL_COLOUR_INDEX hw hh (by decide) hfit1 _ (by rw [List.length_map, hl, h9]) _ (fun x y c hx hy hcc => ?_)
          have hlt := pix_lt hx hy hcc
          rw [Nat.mul_one] at hlt
          have hc0 : c = 0 := by omega
          subst hc0
          rw [List.getElem?_map, hr2, at_get _ _ _ _ (by omega)]
          show _ = Option.map _ _
          congr 2
          omega
        · show some (⟨r'.2.1, 1024, IL_PAL_RGBA32⟩ : Pal) = _
          rw [hp2 hle2, at_length, Nat.min_eq_left (by omega)]
  · refine any.bind (fun r hr => ?_)
    show Holds (if r.1 ≠ 1 then _ else _) _
    refine Holds.ite (fun _ => ?_) (fun _ => ?_)
    · exact Holds.pure ⟨⟨hr.1, fun a b c d => absurd ⟨a, b, c, d⟩ hc⟩, hr.2⟩
    · obtain ⟨q, hq⟩ := hr.2
      refine (pal1024 hq).bind (fun r' hr' => ?_)
      show Holds (if r'.1 ≠ 1024 then _ else _) _
      refine Holds.ite (fun _ => ?_) (fun _ => ?_)
      · exact Holds.pure ⟨⟨hr.1, fun a b c d => absurd ⟨a, b, c, d⟩ hc⟩, hr'.2.2⟩
      · show Holds (loopN (tex junk (fle h 3) (fle h 4) 1 IL_COLOUR_INDEX).size (fun i d => rd d i >>= fun b => wr d i (b + 1)) r.2.1 >>= _) _
        rw [map_loop r.2.1 _ hr.1.symm (· + 1), bind_ok]
        exact Holds.pure ⟨⟨by show (List.map _ _).length = _; rw [List.length_map]; exact hr.1, fun a b c d => absurd ⟨a, b, c, d⟩ hc⟩, hr'.2.2⟩

/-! ### PXR -/

theorem getc_full (L : Laws o At) {s : σ} {bs : List UInt8} {p : Nat} (h : At s bs p) {b : UInt8} (hb : bs[p]? = some b) :
    Holds (o.getc s) (fun r => r.1 = some b ∧ At r.2 bs (p + 1)) := by
  have hp : p < bs.length := by
    rcases Nat.lt_or_ge p bs.length with h | h
    · exact h
    · rw [List.getElem?_eq_none h] at hb; cases hb
  refine (L.getc h).mono (fun r hr => ?_)
  obtain ⟨h1, h2⟩ := hr.2 hp
  exact ⟨by rw [h1, hb], h2⟩

/-- Loading any bytes as PXR is safe. -/
theorem pxr_safe (L : Laws2 o At) (junk : Nat → UInt8) (cur : Loaded) (hcur : cur.1.data.length = cur.1.size) {s : σ} {bs : List UInt8} {p : Nat} (hs : At s bs p) :
    Holds (iLoadPxrInternal o junk cur s) (fun r => r.2.1.1.data.length = r.2.1.1.size ∧ ∃ q, At r.2.2 bs q) := by
  unfold iLoadPxrInternal
  refine (L.seekPos 416 hs (by decide)).bind (fun r hr => ?_)
  obtain ⟨q, hq⟩ := hr
  refine (head_spec L.toLaws junk bs [u16, u16] _ q hq (by decide)).bind (fun r hr => ?_)
  obtain ⟨⟨q, hq⟩, -, -⟩ := hr
  obtain ⟨h, t⟩ := r
  refine (L.seekPos 424 hq (by decide)).bind (fun r hr => ?_)
  obtain ⟨q, hq⟩ := hr
  refine (L.getc hq).bind (fun r hr => ?_)
  obtain ⟨q, hq⟩ := hr.1
  obtain ⟨b, t⟩ := r
  simp only []
  split
  · exact Holds.pure ⟨hcur, q, hq⟩
  · rename_i k f _
    refine (L.seekPos 1024 hq (by decide)).bind (fun r hr => ?_)
    obtain ⟨q, hq⟩ := hr
    refine (into_len L _ _ _ hq (by rw [Nat.one_mul]; exact tex_lt _ _ _ _ _) (by rw [Nat.one_mul, tex_len])).bind (fun r hr => ?_)
    rw [tex_len] at hr
    exact Holds.pure ⟨hr.1, hr.2⟩

theorem pxr_spec (L : Laws2 o At) (junk : Nat → UInt8) (cur : Loaded) {s : σ} {bs : List UInt8} {p : Nat} (hs : At s bs p) (hlen : 1024 ≤ bs.length)
    {b : UInt8} (hb : bs[424]? = some b) {k f : Nat} (hk : pxrKind b = some (k, f)) (hw : 0 < leAt bs 418 2) (hh : 0 < leAt bs 416 2)
    (hfit : leAt bs 418 2 * leAt bs 416 2 * k < 2 ^ 32) (hall : 1024 + leAt bs 418 2 * leAt bs 416 2 * k ≤ bs.length) :
    Holds (iLoadPxrInternal o junk cur s) (fun r => r.1 = true ∧ r.2.1.2 = none ∧
      Shows r.2.1.1 (leAt bs 418 2) (leAt bs 416 2) k f (fun x y c => bs[1024 + (y * leAt bs 418 2 + x) * k + c]?) ∧ ∃ q, At r.2.2 bs q) := by
  unfold iLoadPxrInternal
  refine (L.seekAbs 416 hs (by omega)).bind (fun r hr => ?_)
  refine (head_spec L.toLaws junk bs [u16, u16] _ 416 hr (by decide)).bind (fun r hr => ?_)
  obtain ⟨⟨q, hq⟩, -, hf⟩ := hr
  obtain ⟨h, t⟩ := r
  have e0 : fle h 0 = leAt bs 416 2 := by
    have := hf 0 u16 rfl (by show 416 + 0 + 2 ≤ _; omega)
    show le (fld h 0) = _
    rw [this]; rfl
  have e1 : fle h 1 = leAt bs 418 2 := by
    have := hf 1 u16 rfl (by show 416 + 2 + 2 ≤ _; omega)
    show le (fld h 1) = _
    rw [this]; rfl
  refine (L.seekAbs 424 hq (by omega)).bind (fun r hr => ?_)
  refine (getc_full L.toLaws hr hb).bind (fun r hr => ?_)
  obtain ⟨c, t⟩ := r
  obtain ⟨rfl, hat⟩ := hr
  have hkf : pxrFormat b = some (k, f) := hk
  simp only [hkf, e0, e1]
  generalize leAt bs 418 2 = w at *
  generalize leAt bs 416 2 = h' at *
  have hk0 : 0 < k := by
    unfold pxrKind at hk
    split at hk
    · cases hk; decide
    · split at hk
      · cases hk; decide
      · split at hk
        · cases hk; decide
        · cases hk
  obtain ⟨h1, h2, h3, h4, h5, h6, h7, h8, h9⟩ := tex_fields junk w h' k f hw hh hk0 hfit
  refine (L.seekAbs 1024 hat (by omega)).bind (fun r hr => ?_)
  refine (into_full L _ _ _ hr (by decide) (by rw [Nat.one_mul]; exact tex_lt _ _ _ _ _) (by rw [Nat.one_mul, tex_len]) (by rw [h9]; omega)).bind (fun r hr => ?_)
  obtain ⟨-, hr2, hr3⟩ := hr
  rw [Nat.one_mul, h9] at hr2
  refine Holds.pure ⟨rfl, rfl, ?_, _, hr3⟩
  refine shows_tex junk w h' k f hw hh hk0 hfit r.2.1 (by rw [hr2, at_length]; omega) _ (fun x y c hx hy hcc => ?_)
  have hlt := pix_lt hx hy hcc
  rw [hr2, at_get _ _ _ _ hlt]
  congr 1
  omega

end DevIL.Games
