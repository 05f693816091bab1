import Verif.Lemmas.Ico
import Verif.Props.Tpl
import Verif.Props.Dds
/-! Windows icons: what is read, and the image of an icon. -/
set_option autoImplicit false
namespace DevIL.Ico
open DevIL.Games DevIL.Detect DevIL.Image DevIL.DetectSpec DevIL.IcoSpec
open DevIL.GamesSpec (Shows)
open DevIL.Lump (SEEK_SET SEEK_CUR)
open DevIL.Psd (EofLaw)

theorem ofInt_nat {n : Nat} (h : n < 4294967296) : Lump.ofInt (n : Int) = n := by unfold Lump.ofInt; omega

theorem toInt_nat {n : Nat} (h : n < 2147483648) : Lump.toInt n = (n : Int) := by unfold Lump.toInt; rw [if_pos h]

theorem half {h : Nat} : ((2 * h : Nat) : Int).tdiv 2 = (h : Int) := by
  rw [Int.tdiv_eq_ediv_of_nonneg (by omega)]
  omega

/-! ### The image -/

/-- A pixel of an icon that was read. -/
def iconPx (i : Icon) (b w x y q : Nat) : Option UInt8 :=
  if b = 32 then i.data[y * rowBytes w 32 + 4 * x + q]?
  else if b = 24 then if q = 3 then some (alphaAt i.mask (rowBytes w 1) x y) else i.data[y * rowBytes w 24 + 3 * x + q]?
  else palPx i b w x y q

theorem convert_spec (junk : Nat → UInt8) {i : Icon} {b w h fuel : Nat} (hiw : i.w = (w : Int)) (hih : i.h = ((2 * h : Nat) : Int)) (hib : i.bits = (b : Int)) (hk : b = 1 ∨ b = 4 ∨ b = 8 ∨ b = 24 ∨ b = 32)
    (hw : 0 < w) (hh : 0 < h) (hs : w * h < 2 ^ 26) (hf : w * h < fuel) (hd : i.data.length = rowBytes w b * h) (hm : i.mask.length = rowBytes w 1 * h) (hp : b ≤ 8 → i.pal.length = 4 * 2 ^ b) :
    ∃ m, convert junk fuel i = .ok (some m) ∧ ShowsUp m w h 4 IL_BGRA (iconPx i b w) := by
  have hwl : w ≤ w * h := Nat.le_mul_of_pos_right _ hh
  have hhl : h ≤ w * h := Nat.le_mul_of_pos_left _ hw
  have h2 : (2 : Nat) ^ 26 = 67108864 := by decide
  have hwb : w * b ≤ w * 32 := Nat.mul_le_mul_left _ (by omega)
  obtain ⟨h1, -, -, -, -, -, -, -, h9⟩ := tex_fields junk w h 4 IL_BGRA hw hh (by decide) (by omega)
  have hsz : (tex junk w h 4 IL_BGRA).size = 4 * (w * h) := by rw [h9, Nat.mul_comm]
  have hlen : (tex junk w h 4 IL_BGRA).data.length = 4 * (w * h) := by rw [tex_len, hsz]
  have go : ∃ s', run (4 * (w * h)) (if b = 24 then step24 i w (padding w b) (padding w 1) else if b = 32 then step32 i else stepPal i b w (padding w b) (padding w 1)) fuel
      ⟨(tex junk w h 4 IL_BGRA).data, 0, 0, 128, 0, 0⟩ = .ok s' ∧ s'.d.length = 4 * (w * h) ∧
      ∀ x' y', x' < w → y' < h → Px s'.d (y' * w + x') (iconPx i b w x' y') := by
    by_cases b24 : b = 24
    · subst b24
      obtain ⟨s', e, l, p, -⟩ := run_spec hw (S24 w) _ (fun x y s S => S.j) (turn24 (by omega) hd hm) fuel 0 0 ⟨(tex junk w h 4 IL_BGRA).data, 0, 0, 128, 0, 0⟩ hw (.inl hh)
        ⟨by simp, by simp, rfl, by simp, rfl⟩ hlen (by omega)
      exact ⟨s', by rw [if_pos rfl]; exact e, l, fun x' y' a c => p x' y' a c (by omega)⟩
    · by_cases b32 : b = 32
      · subst b32
        obtain ⟨s', e, l, p, -⟩ := run_spec hw (fun x y s => s.j = 4 * (y * w + x) ∧ s.k = s.j) _ (fun x y s S => S.1) (turn32 hd) fuel 0 0 ⟨(tex junk w h 4 IL_BGRA).data, 0, 0, 128, 0, 0⟩ hw (.inl hh)
          ⟨by simp, rfl⟩ hlen (by omega)
        exact ⟨s', by rw [if_neg (by decide), if_pos rfl]; exact e, l, fun x' y' a c => p x' y' a c (by omega)⟩
      · obtain ⟨s', e, l, p, -⟩ := run_spec hw (SPal b w) _ (fun x y s S => S.j) (turnPal (by omega) (by omega) hd hm (hp (by omega))) fuel 0 0 ⟨(tex junk w h 4 IL_BGRA).data, 0, 0, 128, 0, 0⟩ hw (.inl hh)
          ⟨by simp, by simp, rfl, by simp, rfl, by simp⟩ hlen (by omega)
        refine ⟨s', by rw [if_neg b24, if_neg b32]; exact e, l, fun x' y' a c => ?_⟩
        have := p x' y' a c (by omega)
        intro q hq
        rw [this q hq]
        unfold iconPx
        rw [if_neg b32, if_neg b24]
  obtain ⟨s', e, l, p⟩ := go
  refine ⟨{ tex junk w h 4 IL_BGRA with data := s'.d }, ?_, rfl, ?_⟩
  · unfold convert
    rw [if_neg (by rw [hib]; omega), hiw, hih, hib, half, ofInt_nat (by omega), ofInt_nat (by omega), Int.toNat_natCast]
    show (run (tex junk w h 4 IL_BGRA).size _ fuel _ >>= _) = _
    rw [← hsz] at e
    rw [e]
    rfl
  · refine Tpl.blank_shows junk w h 4 IL_BGRA hw hh (by decide) (by omega) s'.d (by rw [l, Nat.mul_comm]) _ (fun x y c hx hy hc => ?_)
    rw [Nat.mul_comm (y * w + x)]
    exact p x y hx hy c hc

/-! ### The bytes of the icon -/

theorem at_get {bs : List UInt8} {p n i : Nat} (h : i < n) : (at_ bs p n)[i]? = bs[p + i]? := by
  unfold at_
  rw [List.getElem?_take_of_lt h, List.getElem?_drop]

theorem icon_px {bs : List UInt8} {p w h b x y c : Nat} {i : Icon} (hk : b = 1 ∨ b = 4 ∨ b = 8 ∨ b = 24 ∨ b = 32) (hd : i.data = at_ bs (pixels p b) (rowBytes w b * h))
    (hm : i.mask = at_ bs (maskAt p w h b) (rowBytes w 1 * h)) (hp : b ≤ 8 → i.pal = at_ bs (p + 40) (4 * 2 ^ b)) (hx : x < w) (hy : y < h) (hc : c < 4) :
    iconPx i b w x y c = pixel bs p w h b x y c := by
  have r1 : (y + 1) * rowBytes w b ≤ h * rowBytes w b := Nat.mul_le_mul_right _ hy
  rw [Nat.succ_mul, Nat.mul_comm h] at r1
  have a1 : (y + 1) * rowBytes w 1 ≤ h * rowBytes w 1 := Nat.mul_le_mul_right _ hy
  rw [Nat.succ_mul, Nat.mul_comm h] at a1
  have ha : alphaAt i.mask (rowBytes w 1) x y = if masked bs p w h b x y then 0 else 255 := by
    unfold alphaAt masked
    have : x / 8 < rowBytes w 1 := by unfold rowBytes; omega
    rw [hm, at_get (by omega), ← Nat.add_assoc]
  unfold iconPx pixel
  by_cases b32 : b = 32
  · subst b32
    have : rowBytes w 32 = 4 * w := by unfold rowBytes; omega
    rw [if_pos rfl, if_pos rfl, hd, at_get (by omega)]
    congr 1
    omega
  · rw [if_neg b32, if_neg b32]
    by_cases b24 : b = 24
    · subst b24
      have : 3 * w ≤ rowBytes w 24 := by unfold rowBytes; omega
      rw [if_pos rfl, if_pos rfl, ha]
      by_cases c3 : c = 3
      · rw [if_pos c3, if_pos c3]
      · rw [if_neg c3, if_neg c3, hd, at_get (by omega)]
        congr 1
        omega
    · rw [if_neg b24, if_neg b24]
      unfold palPx
      rw [ha]
      by_cases c3 : c = 3
      · rw [if_pos c3, if_pos c3]
      · rw [if_neg c3, if_neg c3]
        have hrow : x * b / 8 < rowBytes w b := by
          have : x * b + b ≤ w * b := by rw [← Nat.succ_mul]; exact Nat.mul_le_mul_right _ hx
          unfold rowBytes
          generalize x * b = q at *
          generalize w * b = r at *
          omega
        have hix : indexOf i.data b (rowBytes w b) x y = index bs p w b x y := by
          unfold indexOf index
          rw [hd, at_get (by omega), ← Nat.add_assoc]
        have hlt : index bs p w b x y < 2 ^ b := Nat.mod_lt _ (Nat.two_pow_pos b)
        rw [hix, hp (by omega), at_get (by omega)]
        congr 1
        omega

/-! ### Reading -/

variable {σ : Type} {o : Ops σ} {At : σ → List UInt8 → Nat → Prop}

theorem row_ok {w b : Nat} (h : w * b + 7 < 2147483648) : row (w : Int) (b : Int) = .ok (rowBytes w b) := by
  unfold row
  have hq : (w : Int) * (b : Int) = ((w * b : Nat) : Int) := by push_cast; rfl
  rw [hq]
  unfold rowBytes
  generalize w * b = q at h
  have f1 : fits ((q : Nat) : Int) = true := by unfold fits; rw [decide_eq_true (by omega), decide_eq_true (by omega)]; rfl
  have f2 : fits ((q : Nat) + 7 : Int) = true := by unfold fits; rw [decide_eq_true (by omega), decide_eq_true (by omega)]; rfl
  rw [f1, f2]
  have e1 : ((q : Int) + 7).tdiv 8 = (((q + 7) / 8 : Nat) : Int) := by rw [Int.tdiv_eq_ediv_of_nonneg (by omega)]; omega
  have e2 : ((((q + 7) / 8 : Nat) : Int)).tmod 4 = (((q + 7) / 8 % 4 : Nat) : Int) := by rw [Int.tmod_eq_emod_of_nonneg (by omega)]; omega
  have e3 : (4 - (((q + 7) / 8 % 4 : Nat) : Int)).tmod 4 = (((4 - (q + 7) / 8 % 4) % 4 : Nat) : Int) := by rw [Int.tmod_eq_emod_of_nonneg (by omega)]; omega
  rw [if_neg (by decide), e1]
  show Except.ok (u32 (Lump.ofInt _ + Lump.ofInt _)) = _
  rw [e2, e3, ofInt_nat (by omega), ofInt_nat (by omega), u32_of_lt (by omega)]
  exact congrArg Except.ok (by omega)

/-- A block that is there, or not. -/
theorem block_spec (L : Laws2 o At) (junk : Nat → UInt8) {bs : List UInt8} {p n : Nat} {s : σ} (hA : At s bs p) (hp : p ≤ bs.length) (hn : n < 4294967296) :
    Holds (block o junk n s) (fun r => (∃ q, At r.2 bs q) ∧ (p + n ≤ bs.length → r.1 = some (at_ bs p n) ∧ At r.2 bs (p + n)) ∧ (bs.length < p + n → r.1 = none)) := by
  unfold block
  refine (into_spec L (alloc junk n) 1 n hA (by decide) (by omega) (by rw [alloc_length]; omega)).bind (fun r hr => ?_)
  obtain ⟨k, d, s1⟩ := r
  obtain ⟨h1, h2, h3⟩ := hr
  simp only [] at h1 h2 h3 ⊢
  rw [Nat.one_mul] at h1 h2 h3
  rw [Nat.div_one] at h1
  have hl := at_length bs p n
  by_cases g : p + n ≤ bs.length
  · have hl : (at_ bs p n).length = n := by omega
    rw [hl] at h1 h2 h3
    rw [List.drop_of_length_le (by rw [alloc_length]), List.append_nil] at h2
    rw [if_neg (by omega)]
    exact Holds.pure ⟨⟨_, h3⟩, fun _ => ⟨by rw [h2], h3⟩, fun h => absurd h (by omega)⟩
  · rw [if_pos (by omega)]
    exact Holds.pure ⟨⟨_, h3⟩, fun h => absurd h g, fun _ => rfl⟩

theorem low_spec (L : Laws2 o At) (junk : Nat → UInt8) {bs : List UInt8} {p b : Nat} {s : σ} (hA : At s bs p) (hp : p ≤ bs.length) (v : Nat) (u : Int) (hb : b < 8) (h0 : 0 < v) (h16 : v ≤ 16)
    (he : (if u = 0 then (if (b : Int) = 1 then 2 else if (b : Int) = 4 then 16 else 0) else u) = (v : Int)) :
    Holds (palette o junk (b : Int) u s) (fun r => (∃ q, At r.2 bs q) ∧ (p + 4 * v ≤ bs.length → r.1 = some (at_ bs p (4 * v)) ∧ At r.2 bs (p + 4 * v)) ∧
      (bs.length < p + 4 * v → r.1 = none)) := by
  unfold palette
  rw [if_pos (by omega), he]
  simp only []
  have f1 : fits ((v : Int) * 4) = true := by unfold fits; rw [decide_eq_true (by omega), decide_eq_true (by omega)]; rfl
  rw [f1, if_neg (by decide), if_neg (by omega), show ((v : Int) * 4).toNat = 4 * v by omega]
  refine (into_spec L (alloc junk (4 * v)) (4 * v) 1 hA (by omega) (by omega) (by rw [alloc_length]; omega)).bind (fun r hr => ?_)
  obtain ⟨k, d, s1⟩ := r
  obtain ⟨h1, h2, h3⟩ := hr
  simp only [] at h1 h2 h3 ⊢
  rw [Nat.mul_one] at h1 h2 h3
  have hl := at_length bs p (4 * v)
  by_cases g : p + 4 * v ≤ bs.length
  · have hl : (at_ bs p (4 * v)).length = 4 * v := by omega
    rw [hl] at h1 h2 h3
    rw [Nat.div_self (by omega)] at h1
    rw [List.drop_of_length_le (by rw [alloc_length]), List.append_nil] at h2
    rw [if_neg (by omega)]
    exact Holds.pure ⟨⟨_, h3⟩, fun _ => ⟨by rw [h2], h3⟩, fun h => absurd h (by omega)⟩
  · rw [Nat.div_eq_of_lt (by omega)] at h1
    rw [if_pos (by omega)]
    exact Holds.pure ⟨⟨_, h3⟩, fun h => absurd h g, fun _ => rfl⟩

theorem palette_spec (L : Laws2 o At) (junk : Nat → UInt8) {bs : List UInt8} {p b used : Nat} {s : σ} (hA : At s bs p) (hp : p ≤ bs.length) (hk : b = 1 ∨ b = 4 ∨ b = 8 ∨ b = 24 ∨ b = 32)
    (hu : b < 8 → used = 0 ∨ used = 2 ^ b) :
    Holds (palette o junk (b : Int) (used : Int) s) (fun r => (∃ q, At r.2 bs q) ∧ (p + 4 * colours b ≤ bs.length → r.1 = some (at_ bs p (4 * colours b)) ∧ At r.2 bs (p + 4 * colours b)) ∧
      (bs.length < p + 4 * colours b → r.1 = none)) := by
  rcases hk with rfl | rfl | rfl | rfl | rfl
  · exact low_spec L junk hA hp 2 _ (by decide) (by decide) (by decide) (by rcases hu (by decide) with rfl | rfl <;> decide)
  · exact low_spec L junk hA hp 16 _ (by decide) (by decide) (by decide) (by rcases hu (by decide) with rfl | rfl <;> decide)
  · unfold palette
    rw [if_neg (by decide), if_pos (by decide), show 4 * colours 8 = 1024 by decide]
    have := block_spec L junk hA hp (n := 1024) (by decide)
    exact this
  · unfold palette
    rw [if_neg (by decide), if_neg (by decide)]
    exact Holds.pure ⟨⟨_, hA⟩, fun _ => ⟨by simp [at_, colours], hA⟩, fun h => absurd h (by rw [show colours 24 = 0 by decide]; omega)⟩
  · unfold palette
    rw [if_neg (by decide), if_neg (by decide)]
    exact Holds.pure ⟨⟨_, hA⟩, fun _ => ⟨by simp [at_, colours], hA⟩, fun h => absurd h (by rw [show colours 32 = 0 by decide]; omega)⟩

/-- An icon as it lies in the file. -/
def iconAt (bs : List UInt8) (p w h b : Nat) : Icon :=
  ⟨(w : Int), ((2 * h : Nat) : Int), (b : Int), at_ bs (p + 40) (4 * colours b), at_ bs (pixels p b) (rowBytes w b * h), at_ bs (maskAt p w h b) (rowBytes w 1 * h)⟩

theorem row_small {w h b : Nat} (hb : b ≤ 32) (hw : 0 < w) (hh : 0 < h) (hs : w * h < 2 ^ 26) : w * b + 7 < 2147483648 ∧ rowBytes w b * h < 2147483648 ∧ h < 2 ^ 26 := by
  have hwl : w ≤ w * h := Nat.le_mul_of_pos_right _ hh
  have hhl : h ≤ w * h := Nat.le_mul_of_pos_left _ hw
  have h2 : (2 : Nat) ^ 26 = 67108864 := by decide
  have hwb : w * b ≤ w * 32 := Nat.mul_le_mul_left _ (by omega)
  have hr : rowBytes w b ≤ 4 * w := by unfold rowBytes; omega
  have : rowBytes w b * h ≤ 4 * w * h := Nat.mul_le_mul_right _ hr
  rw [Nat.mul_assoc] at this
  refine ⟨?_, by omega, by omega⟩
  generalize w * b = q at *
  by_cases g : w ≤ 67108863
  · omega
  · omega

theorem body_gen (L : Laws2 o At) (junk : Nat → UInt8) {bs : List UInt8} {p w h b v : Nat} {used : Int} {s : σ}
    (hpal : Holds (palette o junk (b : Int) used s) (fun r => (∃ q, At r.2 bs q) ∧ (p + 40 + 4 * v ≤ bs.length → r.1 = some (at_ bs (p + 40) (4 * v)) ∧ At r.2 bs (p + 40 + 4 * v)) ∧
      (bs.length < p + 40 + 4 * v → r.1 = none)))
    (r1 : w * b + 7 < 2147483648) (r2 : rowBytes w b * h < 2147483648) (r3 : h < 2 ^ 26) (a1 : w * 1 + 7 < 2147483648) (a2 : rowBytes w 1 * h < 2147483648) :
    Holds (readBody o junk (w : Int) ((2 * h : Nat) : Int) (b : Int) used s) (fun r => (∃ q, At r.2 bs q) ∧
      (p + 40 + 4 * v + rowBytes w b * h + rowBytes w 1 * h ≤ bs.length → r.1 = some ⟨(w : Int), ((2 * h : Nat) : Int), (b : Int), at_ bs (p + 40) (4 * v), at_ bs (p + 40 + 4 * v) (rowBytes w b * h),
        at_ bs (p + 40 + 4 * v + rowBytes w b * h) (rowBytes w 1 * h)⟩) ∧ (bs.length < p + 40 + 4 * v + rowBytes w b * h + rowBytes w 1 * h → r.1 = none)) := by
  unfold readBody
  refine hpal.bind (fun r hr => ?_)
  obtain ⟨pal, s1⟩ := r
  obtain ⟨g0, g1, g2⟩ := hr
  simp only [] at g0 g1 g2 ⊢
  by_cases hc : p + 40 + 4 * v ≤ bs.length
  · obtain ⟨rfl, A1⟩ := g1 hc
    simp only []
    have row1 := row_ok (w := w) (b := 1) a1
    rw [row_ok r1, bind_ok, show ((1 : Int)) = ((1 : Nat) : Int) by rfl, row1, bind_ok, half, ofInt_nat (by omega), u32_of_lt (n := rowBytes w b * h) (by omega), u32_of_lt (n := rowBytes w 1 * h) (by omega)]
    refine (block_spec L junk A1 hc (n := rowBytes w b * h) (by omega)).bind (fun r hr => ?_)
    obtain ⟨d, s2⟩ := r
    obtain ⟨d0, d1, d2⟩ := hr
    simp only [] at d0 d1 d2 ⊢
    by_cases hc2 : p + 40 + 4 * v + rowBytes w b * h ≤ bs.length
    · obtain ⟨rfl, A2⟩ := d1 hc2
      simp only []
      refine (block_spec L junk A2 hc2 (n := rowBytes w 1 * h) (by omega)).bind (fun r hr => ?_)
      obtain ⟨m, s3⟩ := r
      obtain ⟨m0, m1, m2⟩ := hr
      simp only [] at m0 m1 m2 ⊢
      by_cases hc3 : p + 40 + 4 * v + rowBytes w b * h + rowBytes w 1 * h ≤ bs.length
      · obtain ⟨rfl, A3⟩ := m1 hc3
        exact Holds.pure ⟨m0, fun _ => rfl, fun h => absurd h (by omega)⟩
      · obtain rfl := m2 (by omega)
        exact Holds.pure ⟨m0, fun h => absurd h (by omega), fun _ => rfl⟩
    · obtain rfl := d2 (by omega)
      exact Holds.pure ⟨d0, fun h => absurd h (by omega), fun _ => rfl⟩
  · obtain rfl := g2 (by omega)
    exact Holds.pure ⟨g0, fun h => absurd h (by omega), fun _ => rfl⟩

theorem body_spec (L : Laws2 o At) (junk : Nat → UInt8) {bs : List UInt8} {p w h b used : Nat} {s : σ} (hA : At s bs (p + 40)) (hp : p + 40 ≤ bs.length)
    (hk : b = 1 ∨ b = 4 ∨ b = 8 ∨ b = 24 ∨ b = 32) (hu : b < 8 → used = 0 ∨ used = 2 ^ b) (hw : 0 < w) (hh : 0 < h) (hs : w * h < 2 ^ 26) :
    Holds (readBody o junk (w : Int) ((2 * h : Nat) : Int) (b : Int) (used : Int) s) (fun r => (∃ q, At r.2 bs q) ∧
      (ends p w h b ≤ bs.length → r.1 = some (iconAt bs p w h b)) ∧ (bs.length < ends p w h b → r.1 = none)) := by
  obtain ⟨r1, r2, r3⟩ := row_small (b := b) (by omega) hw hh hs
  obtain ⟨a1, a2, -⟩ := row_small (b := 1) (by omega) hw hh hs
  exact body_gen L junk (palette_spec L junk hA hp hk hu) r1 r2 r3 a1 a2

theorem bytes40 {bs : List UInt8} {p : Nat} (h : leAt bs p 4 = 40) (hp : p + 4 ≤ bs.length) : at_ bs (p + 1) 3 = [0, 0, 0] := by
  have h1 : at_ bs p 4 = [40, 0, 0, 0] := Dds.le_inj4 (by rw [at_length]; omega) rfl h
  have h2 : at_ bs (p + 1) 3 = (at_ bs p 4).drop 1 := by
    unfold at_
    rw [List.drop_take, List.drop_drop]
  rw [h2, h1]
  rfl

theorem icon_head (L : Laws2 o At) (E : EofLaw o At) (junk : Nat → UInt8) {bs : List UInt8} {p q : Nat} {s : σ} (hA : At s bs q) (hsz : leAt bs p 4 = 40) (hr : p + 40 < bs.length)
    {P : Option Icon × σ → Prop} (h : ∀ s', At s' bs (p + 40) →
      Holds (readBody o junk (Lump.toInt (leAt bs (p + 4) 4)) (Lump.toInt (leAt bs (p + 8) 4)) (toInt16 (leAt bs (p + 14) 2)) (Lump.toInt (leAt bs (p + 32) 4)) s') P) : Holds (readIcon o junk p s) P := by
  have hl := L.len hA
  unfold readIcon
  rw [toInt_nat (by omega)]
  refine (L.seekAbs p hA (by omega)).bind (fun r A1 => ?_)
  obtain ⟨u1, s1⟩ := r
  simp only [] at A1 ⊢
  refine (L.getc A1).bind (fun r hr => ?_)
  obtain ⟨u2, s2⟩ := r
  obtain ⟨-, A2⟩ := hr
  obtain ⟨-, A2⟩ := A2 (by omega)
  simp only [] at A2 ⊢
  refine (into_spec L (alloc junk 3) 3 1 A2 (by decide) (by decide) (by rw [alloc_length])).bind (fun r hr => ?_)
  obtain ⟨u3, t, s3⟩ := r
  obtain ⟨-, ht, A3⟩ := hr
  simp only [] at ht A3 ⊢
  have ht3 : at_ bs (p + 1) (3 * 1) = [0, 0, 0] := bytes40 hsz (by omega)
  rw [ht3, List.drop_of_length_le (by rw [alloc_length]; decide), List.append_nil] at ht
  rw [ht, if_neg (by decide)]
  refine (L.seekAbs p A3 (by omega)).bind (fun r A4 => ?_)
  obtain ⟨u4, s4⟩ := r
  simp only [] at A4 ⊢
  refine (head_spec L.toLaws junk bs headFields s4 p A4 (by decide)).bind (fun r hr => ?_)
  obtain ⟨hd, s5⟩ := r
  obtain ⟨-, p1, v1⟩ := hr
  have A5 := p1 (by show p + 40 ≤ bs.length; omega)
  have m1 : fle hd 1 = leAt bs (p + 4) 4 := by unfold fle; rw [v1 1 u32f rfl (by show p + 4 + 4 ≤ bs.length; omega)]; rfl
  have m2 : fle hd 2 = leAt bs (p + 8) 4 := by unfold fle; rw [v1 2 u32f rfl (by show p + 8 + 4 ≤ bs.length; omega)]; rfl
  have m4 : fle hd 4 = leAt bs (p + 14) 2 := by unfold fle; rw [v1 4 u16 rfl (by show p + 14 + 2 ≤ bs.length; omega)]; rfl
  have m9 : fle hd 9 = leAt bs (p + 32) 4 := by unfold fle; rw [v1 9 u32f rfl (by show p + 32 + 4 ≤ bs.length; omega)]; rfl
  simp only []
  have A5 : At s5 bs (p + 40) := A5
  obtain ⟨e1, e2⟩ := E A5 (by omega) (by omega)
  rw [decide_eq_false (by omega)] at e1
  rw [e1, if_neg (by decide), m1, m2, m4, m9]
  exact h _ e2

theorem icon_spec (L : Laws2 o At) (E : EofLaw o At) (junk : Nat → UInt8) {bs : List UInt8} {p w h b q : Nat} {s : σ} (hA : At s bs q) (H : Head bs p w h b) :
    Holds (readIcon o junk p s) (fun r => (∃ q, At r.2 bs q) ∧ (ends p w h b ≤ bs.length → r.1 = some (iconAt bs p w h b)) ∧ (bs.length < ends p w h b → r.1 = none)) := by
  have hl := L.len hA
  have hr := H.room
  refine icon_head L E junk hA H.size hr (fun s5 A5 => ?_)
  rw [H.width, H.height, H.bits]
  have hk := H.kind
  obtain ⟨r1, r2, r3⟩ := row_small (b := 1) (by omega) H.w0 H.h0 H.small
  have h2 : (2 : Nat) ^ 26 = 67108864 := by decide
  rw [toInt_nat (n := w) (by omega), toInt_nat (n := 2 * h) (by omega), show toInt16 b = (b : Int) by unfold toInt16; rw [if_pos (by omega)]]
  by_cases h8 : b < 8
  · have hu := H.used h8
    have hs : 2 ^ b ≤ 2 ^ 8 := Nat.pow_le_pow_right (by decide) (by omega)
    rw [toInt_nat (n := leAt bs (p + 32) 4) (by rcases hu with g | g <;> rw [g] <;> omega)]
    exact body_spec L junk A5 (by omega) hk (fun _ => hu) H.w0 H.h0 H.small
  · have : ∀ u u' : Int, readBody o junk (w : Int) ((2 * h : Nat) : Int) (b : Int) u s5 = readBody o junk (w : Int) ((2 * h : Nat) : Int) (b : Int) u' s5 := by
      intro u u'
      unfold readBody palette
      have hb : ¬ ((b : Int) < 8) := by omega
      simp only [if_neg hb]
    rw [this _ ((0 : Nat) : Int)]
    exact body_spec L junk A5 (by omega) hk (fun g => absurd g h8) H.w0 H.h0 H.small

end DevIL.Ico
