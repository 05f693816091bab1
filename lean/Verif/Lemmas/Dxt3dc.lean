import Verif.Lemmas.DxtSaveE
import Verif.Hoare
/-! Lemmas about the 3Dc compressor. -/
set_option autoImplicit false
namespace DevIL.DxtSave
open DevIL.Image DevIL.Lump DevIL.Dxt DevIL.Conv DevIL.ConvImage DevIL.DxtSpec

/-- A loop in which step `m` fails, and every other step fails the same way or keeps the invariant. -/
theorem loop_fails {σ : Type} {F : Nat → σ → C σ} {f : Fault} (I : Nat → σ → Prop) {n m : Nat} {s : σ} (h0 : I 0 s)
    (hs : ∀ k t, k < n → I k t → F k t = .error f ∨ Holds (F k t) (I (k + 1))) (hm : m < n) (hf : ∀ t, I m t → F m t = .error f) :
    loopN n F s = .error f := by
  have key : ∀ k, k ≤ n → (loopN k F s = .error f ∨ (k ≤ m ∧ Holds (loopN k F s) (I k))) := by
    intro k
    induction k with
    | zero => exact fun _ => .inr ⟨Nat.zero_le _, ⟨s, rfl, h0⟩⟩
    | succ k ih =>
      intro hk
      rw [loopN_succ]
      rcases ih (by omega) with e | ⟨hle, t, e, ht⟩
      · rw [e]; exact .inl rfl
      · rw [e, bind_ok]
        by_cases hkm : k = m
        · subst hkm
          exact .inl (hf t ht)
        · rcases hs k t (by omega) ht with e | h
          · exact .inl e
          · exact .inr ⟨by omega, h⟩
  rcases key n (Nat.le_refl _) with h | h
  · exact h
  · omega

/-- Reads past the end are all that goes wrong. -/
def RdOnly {α : Type} (c : C α) : Prop := c = .error .oobRead ∨ ∃ a, c = .ok a

theorem RdOnly.bind {α β : Type} {c : C α} {g : α → C β} (h : RdOnly c) (hg : ∀ a, RdOnly (g a)) : RdOnly (c >>= g) := by
  rcases h with h | ⟨a, h⟩
  · rw [h]; exact .inl rfl
  · rw [h, bind_ok]; exact hg a

theorem RdOnly.rd {β : Type} (d : List β) (i : Nat) : RdOnly (rd d i) := by
  by_cases h : i < d.length
  · exact .inr ⟨_, rd_of_lt h⟩
  · refine .inl ?_
    unfold DevIL.rd
    rw [List.getElem?_eq_none (by omega)]

theorem RdOnly.loop {σ : Type} {F : Nat → σ → C σ} (h : ∀ k s, RdOnly (F k s)) (n : Nat) (s : σ) : RdOnly (loopN n F s) := by
  induction n with
  | zero => exact .inr ⟨s, rfl⟩
  | succ n ih => rw [loopN_succ]; exact ih.bind (fun a => h n a)

theorem get3dc_rdOnly (d : List UInt8) (base w h xp yp ch : Nat) : RdOnly (Get3DcBlock d base w h xp yp ch) := by
  unfold Get3DcBlock
  refine RdOnly.bind (RdOnly.loop (fun y s => ?_) _ _) (fun s => .inr ⟨_, rfl⟩)
  exact RdOnly.bind (RdOnly.loop (fun x b => RdOnly.bind (RdOnly.rd _ _) (fun v => .inr ⟨_, rfl⟩)) _ _) (fun b => .inr ⟨_, rfl⟩)

/-- The fourth row of a block is outside of the data. -/
theorem get3dc_fails {d : List UInt8} {base w h xp yp ch : Nat} (hl : d.length ≤ base + (2 * (yp * w + xp) + ch + 3 * (2 * w))) :
    Get3DcBlock d base w h xp yp ch = .error .oobRead := by
  unfold Get3DcBlock
  have hfail : ∀ s : List UInt8 × Nat, s.2 = 2 * (yp * w + xp) + ch + 3 * (2 * w) → (do
      let blk ← loopN 4 (fun x blk => do
        let v ← rd d (base + (if x < w ∧ 3 < h then s.2 + 2 * x else s.2))
        pure (blk ++ [v])) s.1
      pure (blk, s.2 + 2 * w) : C (List UInt8 × Nat)) = .error .oobRead := by
    intro s hs
    rw [loop_fails (f := .oobRead) (fun _ _ => True) (m := 0) trivial (fun k t _ _ => ?_) (by decide) (fun t _ => ?_)]
    · rfl
    · rcases RdOnly.bind (RdOnly.rd d (base + (if k < w ∧ 3 < h then s.2 + 2 * k else s.2))) (g := fun v => pure (t ++ [v])) (fun v => .inr ⟨_, rfl⟩) with e | ⟨a, e⟩
      · exact .inl e
      · exact .inr ⟨a, e, trivial⟩
    · have hx : (if 0 < w ∧ 3 < h then s.2 + 2 * 0 else s.2) = s.2 := by split <;> omega
      rw [hx]
      unfold rd
      rw [List.getElem?_eq_none (by omega)]
      rfl
  rw [loop_fails (f := .oobRead) (fun k s => s.2 = 2 * (yp * w + xp) + ch + k * (2 * w)) (m := 3) (by show _ = _; omega) (fun k t hk ht => ?_) (by decide) hfail]
  · rfl
  · have hr : RdOnly (loopN 4 (fun x blk => do
        let v ← rd d (base + (if x < w ∧ k < h then t.2 + 2 * x else t.2))
        pure (blk ++ [v])) t.1) :=
      RdOnly.loop (fun x b => RdOnly.bind (RdOnly.rd _ _) (fun v => .inr ⟨_, rfl⟩)) _ _
    rcases hr with e | ⟨a, e⟩
    · rw [e]; exact .inl rfl
    · rw [e, bind_ok]
      refine .inr ⟨_, rfl, ?_⟩
      show t.2 + 2 * w = _
      rw [ht, Nat.add_mul k 1 (2 * w)]
      omega

/-- A block all of which is inside of the data. -/
theorem get3dc_ok {d : List UInt8} {base w h xp yp ch : Nat} (hx : xp + 4 ≤ w) (hy : yp + 4 ≤ h) (hc : ch < 2) (hl : base + 2 * (w * h) ≤ d.length) :
    ∃ b, Get3DcBlock d base w h xp yp ch = .ok b := by
  unfold Get3DcBlock
  have h4 : (yp + 4) * w ≤ h * w := Nat.mul_le_mul_right _ hy
  rw [Nat.mul_comm h w, Nat.add_mul] at h4
  obtain ⟨s, e, _⟩ := Holds.loop (f := fun y s => do
    let blk ← loopN 4 (fun x blk => do
      let v ← rd d (base + (if x < w ∧ y < h then s.2 + 2 * x else s.2))
      pure (blk ++ [v])) s.1
    pure (blk, s.2 + 2 * w)) (fun k (s : List UInt8 × Nat) => s.2 = 2 * (yp * w + xp) + ch + k * (2 * w)) (n := 4) (s := (([] : List UInt8), 2 * (yp * w + xp) + ch))
    (by show _ = _; omega) (fun k t hk ht => by
      have hk3 : k * (2 * w) ≤ 3 * (2 * w) := Nat.mul_le_mul_right _ (by omega)
      refine Holds.bind (Holds.loop (fun _ _ => True) trivial (fun x b hx4 _ => ?_)) (fun b _ => ⟨_, rfl, ?_⟩)
      · exact Holds.bind (Holds.rd (by
          split <;> (rw [ht]; omega))) (fun v _ => ⟨_, rfl, trivial⟩)
      · show t.2 + 2 * w = _
        rw [ht, Nat.add_mul k 1 (2 * w)]
        omega)
  exact ⟨s.1, by rw [e]; rfl⟩

theorem to88_ok (junk : Nat → UInt8) {m : Img} (h : Picture m) (hn : m.format ≠ IL_LUMINANCE) (hna : m.format ≠ IL_LUMINANCE_ALPHA) :
    ∃ d, CompressTo88 junk m = .ok d ∧ d.length = m.depth * (m.width * m.height * 2) := by
  obtain ⟨r, g, b, hl, hr, hg, hb, lr, lg, lb⟩ := h.cases
  obtain ⟨hs, hf, h0⟩ := h.size
  have e1 : (m.size + (m.bpp - 1)) / m.bpp = pixels m := by
    rw [hs, Nat.add_comm, Nat.add_mul_div_right _ _ h0, Nat.div_eq_of_lt (by omega), Nat.zero_add]
  have e2 : u32 (m.width * m.height * 2 * m.depth) = pixels m * 2 := by
    rw [show m.width * m.height * 2 * m.depth = pixels m * 2 by unfold pixels; grind, u32_of_lt (by omega)]
  have e3 : m.depth * (m.width * m.height * 2) = pixels m * 2 := by unfold pixels; grind
  unfold CompressTo88
  rw [if_neg (by simp only [hn, hna, or_self, not_false_eq_true]), hl, e2, e3]
  dsimp only
  rw [e1]
  obtain ⟨d, e, hd⟩ := Holds.loop (f := fun j d => do
      let g ← rd m.data (j * m.bpp + g)
      let d ← wr d (2 * j) g
      let r ← rd m.data (j * m.bpp + r)
      wr d (2 * j + 1) r) (fun _ (d : List UInt8) => d.length = pixels m * 2) (n := pixels m) (s := alloc junk (pixels m * 2)) (by simp [alloc]) (fun k t hk ht => by
    refine Holds.bind (Holds.rd (in_data h hk lg)) (fun v _ => Holds.bind (Holds.wr (by omega)) (fun t1 h1 => Holds.bind (Holds.rd (in_data h hk lr)) (fun v2 _ => ?_)))
    exact Holds.mono (Holds.wr (by omega)) (fun t2 h2 => by omega))
  exact ⟨d, e, hd⟩

theorem each_rdOnly {m : Img} {f : Nat → Nat → Nat → C (List WOp)} (h : ∀ z y x, RdOnly (f z y x)) (z0 y0 : Nat) (s : List WOp) :
    RdOnly (loopN z0 (fun y s => forStep 0 m.width 4 (fun x s => do let o ← f y0 (4 * y) x; pure (s ++ o)) s) s) :=
  RdOnly.loop (fun y s => by rw [for4]; exact RdOnly.loop (fun x s => (h _ _ _).bind (fun o => .inr ⟨_, rfl⟩)) _ _) _ _

theorem each_fails {m : Img} {f : Nat → Nat → Nat → C (List WOp)} (h : ∀ z y x, RdOnly (f z y x)) {z y x : Nat} (hz : z < m.depth)
    (hy : y < (m.height + 3) / 4) (hx : x < (m.width + 3) / 4) (hf : f z (4 * y) (4 * x) = .error .oobRead) : eachBlk m f = .error .oobRead := by
  have ro : ∀ {α : Type} {c : C α}, RdOnly c → c = .error .oobRead ∨ Holds c (fun _ => True) := by
    intro α c hc
    rcases hc with e | ⟨a, e⟩
    · exact .inl e
    · exact .inr ⟨a, e, trivial⟩
  unfold eachBlk
  have hrow : ∀ z y s, RdOnly (forStep 0 m.width 4 (fun x s => do let o ← f z y x; pure (s ++ o)) s : C (List WOp)) := fun z y s => by
    rw [for4]; exact RdOnly.loop (fun x s => (h _ _ _).bind (fun o => .inr ⟨_, rfl⟩)) _ _
  have hplane : ∀ z s, RdOnly (forStep 0 m.height 4 (fun y s => forStep 0 m.width 4 (fun x s => do let o ← f z y x; pure (s ++ o)) s) s : C (List WOp)) := fun z s => by
    rw [for4]; exact RdOnly.loop (fun y s => hrow _ _ _) _ _
  refine loop_fails (fun _ _ => True) (m := z) trivial (fun k t _ _ => ro (hplane k t)) hz (fun t _ => ?_)
  rw [for4]
  refine loop_fails (fun _ _ => True) (m := y) trivial (fun k t _ _ => ro (hrow _ _ t)) hy (fun t _ => ?_)
  rw [for4]
  refine loop_fails (fun _ _ => True) (m := x) trivial (fun k t _ _ => ro ((h _ _ _).bind (fun o => .inr ⟨_, rfl⟩))) hx (fun t _ => ?_)
  rw [hf]
  rfl

end DevIL.DxtSave
