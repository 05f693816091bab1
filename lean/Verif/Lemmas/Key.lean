import Verif.Model.Key
import Verif.Props.ConvImage
/-! Proofs about the key colour. -/
set_option autoImplicit false
namespace DevIL.Key
open Utility Conv Channels ConvImage

theorem readComp_ok {k i : Nat} {src : List UInt8} (hk : 0 < k) (h : i * k + k ≤ src.length) :
    ∃ v, (comps k src)[i]? = some v ∧ readComp k src i = .ok v := by
  refine ⟨_, comps_get ?_, ?_⟩
  · rw [Nat.lt_div_iff_mul_lt hk]
    have : k * i = i * k := Nat.mul_comm _ _
    omega
  · unfold readComp
    rw [if_pos h]
    rfl

/-- All three components of pixel `p` are zero. -/
def Black (type k : Nat) (src : List UInt8) (p : Nat) : Bool :=
  (List.range 3).all fun c => (((comps k src)[p * 3 + c]?).map (zeroVal type)).getD false

theorem same_ok {type k p : Nat} {src : List UInt8} (hk : 0 < k) (h : (p * 3 + 2) * k + k ≤ src.length) :
    same type k src (p * 3) = .ok (Black type k src p) := by
  have hb : ∀ c, c < 3 → (p * 3 + c) * k + k ≤ src.length := by
    intro c hc
    have : (p * 3 + c) * k ≤ (p * 3 + 2) * k := Nat.mul_le_mul_right _ (by omega)
    omega
  obtain ⟨v0, c0, r0⟩ := readComp_ok hk (hb 0 (by omega))
  obtain ⟨v1, c1, r1⟩ := readComp_ok hk (hb 1 (by omega))
  obtain ⟨v2, c2, r2⟩ := readComp_ok hk (hb 2 (by omega))
  unfold same
  rw [loopN_succ, loopN_succ, loopN_succ, loopN_zero]
  simp only [bind_ok, r0, r1, r2, pure_eq_ok, Bool.true_and]
  congr 1
  unfold Black
  simp only [show List.range 3 = [0, 1, 2] from rfl, List.all_cons, List.all_nil, c0, c1, c2, Option.map_some,
    Option.getD_some, Bool.and_true, Bool.and_assoc]

/-- The bytes of the keyed image. -/
def keyVal (type k : Nat) (src : List UInt8) (i : Nat) : Option UInt8 :=
  addVal k (if Black type k src (i / k / 4) then fun _ => 0 else alphaWord type) src i

theorem keyVal_at {type k p c b : Nat} {src : List UInt8} (hc : c < 4) (hb : b < k) :
    keyVal type k src ((p * 4 + c) * k + b) =
      if c = 3 then some ((if Black type k src p then fun _ => 0 else alphaWord type : Nat → UInt8) b)
      else src[(p * 3 + c) * k + b]? := by
  unfold keyVal
  rw [addVal_at hc hb, idx_div hb, idx_div hc]

theorem key_spec {type N k : Nat} {src d : List UInt8} (hk : 0 < k) (hs : N * 3 * k ≤ src.length)
    (hd : d.length = N * 4 * k) :
    ∃ d', loopN N (keyRound type k src) d = .ok d' ∧ d'.length = d.length ∧
      ∀ i, i < d.length → d'[i]? = keyVal type k src i := by
  have hb : ∀ p c, p < N → c < 4 → (p * 4 + c) * k + k ≤ d.length := by
    intro p c hp hc
    have := idx_lt (idx_lt hp hc) (by omega : k - 1 < k)
    omega
  have hb' : ∀ p c, p < N → c < 3 → (p * 3 + c) * k + k ≤ src.length := by
    intro p c hp hc
    have := idx_lt (idx_lt hp hc) (by omega : k - 1 < k)
    omega
  have hu : Upd (fun b => loopN N (fun p b => keyRound type k src p b) b) d (fun _ => False)
      (fun x => ∃ p, p < N ∧ (Slot k (p * 4 + 0) x ∨ Slot k (p * 4 + 1) x ∨ Slot k (p * 4 + 2) x ∨ Slot k (p * 4 + 3) x))
      (keyVal type k src) := by
    refine Upd.loopW fun p hp => ?_
    have u0 := copyComp_upd (v := keyVal type k src) (hb' p 0 hp (by omega)) (hb p 0 hp (by omega))
      (fun c hc => keyVal_at (by omega) hc)
    have u1 := copyComp_upd (v := keyVal type k src) (hb' p 1 hp (by omega)) (hb p 1 hp (by omega))
      (fun c hc => keyVal_at (by omega) hc)
    have u2 := copyComp_upd (v := keyVal type k src) (hb' p 2 hp (by omega)) (hb p 2 hp (by omega))
      (fun c hc => keyVal_at (by omega) hc)
    have u3 := putComp_upd (v := keyVal type k src) (word := if Black type k src p then fun _ => 0 else alphaWord type)
      (hb p 3 hp (by omega)) (fun c hc => keyVal_at (by omega) hc)
    have hsm := same_ok (type := type) hk (hb' p 2 hp (by omega))
    refine (u0.seq (u1.seq (u2.seq u3 (fun _ _ h => h.elim)) (fun _ _ h => by simp at h)) (fun _ _ h => by simp at h)).congr
      (fun b _ => ?_) (fun _ h => by simp at h) (fun _ _ => Iff.rfl) (fun _ _ _ => rfl)
    unfold keyRound
    simp only [hsm, bind_ok]
    rfl
  obtain ⟨d', e, l, s⟩ := hu.apply
  refine ⟨d', e, l, fun i hi => (s i hi).1 ?_⟩
  have h1 : i / k < N * 4 := (Nat.div_lt_iff_lt_mul hk).mpr (by omega)
  have e := Nat.div_add_mod' (i / k) 4
  refine ⟨i / k / 4, by omega, ?_⟩
  simp only [slot_iff hk]
  omega

/-- Two buffers that agree on a component. -/
theorem comps_eq {k i i' : Nat} {d d' : List UInt8} (hk : 0 < k) (h : i * k + k ≤ d.length) (h' : i' * k + k ≤ d'.length)
    (hb : ∀ b, b < k → d'[i' * k + b]? = d[i * k + b]?) : (comps k d')[i']? = (comps k d)[i]? := by
  have lt : ∀ {j : Nat} {l : List UInt8}, j * k + k ≤ l.length → j < l.length / k := by
    intro j l hl
    rw [Nat.lt_div_iff_mul_lt hk]
    have : k * j = j * k := Nat.mul_comm _ _
    omega
  rw [comps_get (lt h), comps_get (lt h')]
  congr 2
  apply List.ext_getElem?
  intro b
  rw [List.getElem?_take, List.getElem?_take]
  split
  · rw [List.getElem?_drop, List.getElem?_drop]
    exact hb b (by assumption)
  · rfl

theorem leBytes_get (k v b : Nat) (hb : b < k) : (leBytes k v)[b]? = some (UInt8.ofNat (v / 256 ^ b)) := by
  induction k generalizing v b with
  | zero => omega
  | succ k ih =>
    cases b with
    | zero => simp [leBytes]
    | succ b =>
      rw [leBytes, List.getElem?_cons_succ, ih _ _ (by omega), Nat.div_div_eq_div_mul, Nat.pow_succ, Nat.mul_comm]

/-- A component whose bytes are those of a number. -/
theorem comps_val {k i v : Nat} {d : List UInt8} (hk : 0 < k) (h : i * k + k ≤ d.length) (hv : v < 256 ^ k)
    (hb : ∀ b, b < k → d[i * k + b]? = some (UInt8.ofNat (v / 256 ^ b))) : (comps k d)[i]? = some v := by
  rw [comps_eq (d := leBytes k v) (i := 0) hk (by simp) h (fun b hb' => by
    rw [hb b hb', Nat.zero_mul, Nat.zero_add, leBytes_get _ _ _ hb'])]
  rw [comps_get (by rw [leBytes_length, Nat.div_self hk]; exact Nat.one_pos)]
  rw [Nat.zero_mul, List.drop_zero, List.take_of_length_le (by simp), leVal_leBytes _ _ hv]

theorem alphaWord_opaque {t b : Nat} (ht : t ∈ opaqueTypes) (hb : b < ilGetBpcType t) :
    alphaWord t b = UInt8.ofNat (opaqueOf t / 256 ^ b) := by
  have : ∀ t ∈ opaqueTypes, ∀ b : Fin 8, b.val < ilGetBpcType t → alphaWord t b.val = UInt8.ofNat (opaqueOf t / 256 ^ b.val) := by
    decide
  have h8 : ∀ t ∈ opaqueTypes, ilGetBpcType t ≤ 8 := by decide
  exact this t ht ⟨b, by have := h8 t ht; omega⟩ hb

theorem opaque_lt {t : Nat} (ht : t ∈ opaqueTypes) : opaqueOf t < 256 ^ ilGetBpcType t := by
  revert t; decide

/-- The image `ilAddAlphaKey` makes. -/
theorem addKey {junk : Nat → UInt8} {m : Img} (hm : Plain m) (h3 : m.format = IL_RGB ∨ m.format = IL_BGR)
    (hh : m.type ≠ IL_HALF) (hd : m.depth = 1) (h4 : 4 * m.size < 2 ^ 32) :
    ∃ m', ilAddAlphaKey junk m = .ok (some m') ∧ Plain m' ∧ SameDims m m' ∧ m'.type = m.type ∧
      m'.format = (if m.format = IL_RGB then IL_RGBA else IL_BGRA) ∧
      ∀ x y, x < m.width → y < m.height →
        (∀ c, c < 3 → cval m' x y 0 c = cval m x y 0 c) ∧
        (Black m.type m.bpc m.data (y * m.width + x) = true → cval m' x y 0 3 = some 0) ∧
        (Black m.type m.bpc m.data (y * m.width + x) = false → m.type ∈ opaqueTypes →
          cval m' x y 0 3 = some (opaqueOf m.type)) := by
  have hk := hm.bpc0
  have hb3 : m.bpp = 3 := by
    rw [hm.bpp]
    rcases h3 with h | h <;> rw [h] <;> rfl
  have hsz := hm.size
  rw [pixels, hd, hb3, Nat.one_mul] at hsz
  have hbps : m.bps = m.width * 3 * m.bpc := by rw [hm.cons.1, hb3]
  have e0 : m.bps * m.height = m.height * m.width * 3 * m.bpc := by rw [hbps]; grind
  have hfit := hm.fits
  have e1 : u32 (m.bps * m.height) / m.bpc = m.height * m.width * 3 := by
    rw [e0, u32_of_lt (by rw [← hsz]; exact hfit), Nat.mul_div_cancel _ hk]
  have hA : 3 * (m.height * m.width * 4 * m.bpc) = 4 * m.size := by rw [hsz]; grind
  have e2 : u32 (4 * m.bpc * m.width * m.height) = m.height * m.width * 4 * m.bpc := by
    rw [show 4 * m.bpc * m.width * m.height = m.height * m.width * 4 * m.bpc by grind]
    exact u32_of_lt (by omega)
  have hN : (m.height * m.width * 3 + 2) / 3 = m.height * m.width := by omega
  obtain ⟨d', e, l, s⟩ := key_spec (type := m.type) (N := m.height * m.width) (k := m.bpc) (src := m.data)
    (d := alloc junk (m.height * m.width * 4 * m.bpc)) hk (by rw [hm.cons.2.2.2, hsz]; exact Nat.le_refl _) (by simp)
  rw [alloc_length] at l s
  have hW : m.width * m.bpc * 4 ≤ m.height * m.width * 4 * m.bpc := by
    have := Nat.le_mul_of_pos_left (m.width * 4 * m.bpc) hm.h0
    have e : m.height * (m.width * 4 * m.bpc) = m.height * m.width * 4 * m.bpc := by grind
    have e' : m.width * m.bpc * 4 = m.width * 4 * m.bpc := by grind
    omega
  have g1 : u32 (m.width * m.bpc * 4) = m.width * m.bpc * 4 := u32_of_lt (by omega)
  have g2 : m.width * m.bpc * 4 * m.height = m.height * m.width * 4 * m.bpc := by grind
  have g3 : u32 (m.height * m.width * 4 * m.bpc) = m.height * m.width * 4 * m.bpc := u32_of_lt (by omega)
  refine ⟨withBpp m 4 (if m.format = IL_RGB then IL_RGBA else IL_BGRA) d', ?_, ?_, ⟨rfl, rfl, rfl, rfl⟩, rfl, rfl,
    fun x y hx hy => ?_⟩
  · unfold ilAddAlphaKey
    rw [if_neg (by omega), caseBpc_of hm.type hh, ← hm.bpc]
    simp only [e1, e2, hN]
    refine (congrArg (fun t => t >>= _) e).trans ?_
    rcases h3 with h | h <;> simp only [h] <;> rfl
  · refine ⟨⟨?_, ?_, ?_, ?_⟩, ?_, hm.w0, hm.h0, hm.d0, hm.type, hm.bpc, ?_, ?_⟩
    · simp only [withBpp, g1]; grind
    · simp only [withBpp, g1, g2, g3]; grind
    · simp only [withBpp, g1, g2, g3, hd, Nat.mul_one]; grind
    · simp only [withBpp, g1, g2, g3, hd, Nat.mul_one, l]
    · simp only [withBpp, g1, g2, g3, hd, Nat.mul_one]; omega
    · simp only [withBpp]; split <;> decide
    · simp only [withBpp]; split <;> rfl
  · have hp : y * m.width + x < m.height * m.width := idx_lt hy hx
    have hin : ∀ c, c < 4 → ((y * m.width + x) * 4 + c) * m.bpc + m.bpc ≤ d'.length := by
      intro c hc
      have := idx_lt (idx_lt hp hc) (by omega : m.bpc - 1 < m.bpc)
      omega
    have hin3 : ∀ c, c < 3 → ((y * m.width + x) * 3 + c) * m.bpc + m.bpc ≤ m.data.length := by
      intro c hc
      have := idx_lt (idx_lt hp hc) (by omega : m.bpc - 1 < m.bpc)
      rw [hm.cons.2.2.2, hsz]
      omega
    have key : ∀ c b, c < 4 → b < m.bpc → d'[((y * m.width + x) * 4 + c) * m.bpc + b]? =
        if c = 3 then some ((if Black m.type m.bpc m.data (y * m.width + x) then fun _ => 0 else alphaWord m.type : Nat → UInt8) b)
        else m.data[((y * m.width + x) * 3 + c) * m.bpc + b]? := by
      intro c b hc hb
      rw [s _ (idx_lt (idx_lt hp hc) hb), keyVal_at hc hb]
    have hcv : ∀ c, cval (withBpp m 4 (if m.format = IL_RGB then IL_RGBA else IL_BGRA) d') x y 0 c =
        (comps m.bpc d')[(y * m.width + x) * 4 + c]? := by
      intro c
      unfold cval
      simp only [withBpp, Nat.zero_mul, Nat.zero_add]
    refine ⟨fun c hc => ?_, fun hB => ?_, fun hB ht => ?_⟩
    · rw [hcv]
      unfold cval
      rw [hb3, Nat.zero_mul, Nat.zero_add]
      exact comps_eq hk (hin3 c hc) (hin c (by omega)) (fun b hb => by rw [key c b (by omega) hb, if_neg (by omega)])
    · rw [hcv]
      refine comps_val hk (hin 3 (by omega)) (Nat.pow_pos (by omega)) (fun b hb => ?_)
      rw [key 3 b (by omega) hb, if_pos rfl, if_pos hB, Nat.zero_div]
      rfl
    · rw [hcv]
      refine comps_val hk (hin 3 (by omega)) (by rw [hm.bpc]; exact opaque_lt ht) (fun b hb => ?_)
      rw [key 3 b (by omega) hb, if_pos rfl, hB, if_neg (by decide), alphaWord_opaque ht (by rw [← hm.bpc]; exact hb)]

end DevIL.Key
