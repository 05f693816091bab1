import Verif.Model.Sgi
import Verif.Lemmas.Load
import Verif.Lemmas.Pcx
/-! Facts about the SGI model: big-endian numbers, planes, scan lines. -/
set_option autoImplicit false
namespace DevIL.Lump
open DevIL.Endian

theorem At.getBigUShort {l : R} {s : BitVec 16} {rest : List UInt8} {big : Bool} {junk : Nat → UInt8}
    (h : At l ((leBytes 2 s.toNat).reverse ++ rest)) : GetBigUShort big junk l = .ok (s, Lump.adv l 2) := by
  unfold GetBigUShort
  rw [readObj_ok h.1 (by simp) h.2]
  simp only [bind_ok, pure_eq_ok, objVal]
  congr 2
  have e : BitVec.ofNat 16 (leVal (leBytes 2 s.toNat)) = s := by rw [leVal_leBytes 2 _ s.isLt]; simp
  cases big
  · simp only [Bool.false_eq_true, if_false]
    rw [← swap16_bytes, leVal_leBytes 2 _ (iSwapUShort s).isLt]
    simp [swap16_swap]
  · simpa using e

theorem At.getBigUInt {l : R} {s : BitVec 32} {rest : List UInt8} {big : Bool} {junk : Nat → UInt8}
    (h : At l ((leBytes 4 s.toNat).reverse ++ rest)) : GetBigUInt big junk l = .ok (s, Lump.adv l 4) := by
  unfold GetBigUInt
  rw [readObj_ok h.1 (by simp) h.2]
  simp only [bind_ok, pure_eq_ok, objVal]
  congr 2
  have e : BitVec.ofNat 32 (leVal (leBytes 4 s.toNat)) = s := by rw [leVal_leBytes 4 _ s.isLt]; simp
  cases big
  · simp only [Bool.false_eq_true, if_false]
    rw [← swap32_bytes, leVal_leBytes 4 _ (iSwapUInt s).isLt]
    simp [swap32_swap]
  · simpa using e

theorem saveBigUShort_eq (big : Bool) (s : BitVec 16) : SaveBigUShort big s = (leBytes 2 s.toNat).reverse := by
  unfold SaveBigUShort objBytes
  cases big <;> simp [swap16_bytes]

theorem saveBigUInt_eq (big : Bool) (s : BitVec 32) : SaveBigUInt big s = (leBytes 4 s.toNat).reverse := by
  unfold SaveBigUInt objBytes
  cases big <;> simp [swap32_bytes]

theorem keeps_getBigUInt {l : R} {big : Bool} {junk : Nat → UInt8} (h : Good l) : Keeps (GetBigUInt big junk l) l := by
  obtain ⟨a, l', e, hg, hd⟩ := keeps_readObj (junk := junk) h 4
  unfold GetBigUInt
  rw [e]
  exact ⟨_, l', rfl, hg, hd⟩

theorem holds_getBigUInt {l : R} {big : Bool} {junk : Nat → UInt8} (h : Good l) :
    Holds (GetBigUInt big junk l) (fun r => Good r.2 ∧ r.2.data = l.data) := by
  obtain ⟨a, l', e, g⟩ := keeps_getBigUInt (big := big) (junk := junk) h
  exact ⟨(a, l'), e, g⟩

end DevIL.Lump

namespace DevIL.Sgi
open DevIL.Lump DevIL.Endian DevIL.Image DevIL.Utility DevIL.Load
open DevIL.Pcx (readByte readByte_ok)

/-- A loop over every `k`-th position from `c` on. -/
theorem forStep_stride {σ : Type} {c k n : Nat} (hc : c < k) (f : Nat → σ → C σ) (s : σ) :
    forStep c (n * k) k f s = loopN n (fun i => f (i * k + c)) s := by
  rw [forStep_pos (by omega)]
  have : (n * k - c + (k - 1)) / k = n := by
    cases n with
    | zero =>
      rw [Nat.zero_mul, Nat.zero_sub, Nat.zero_add, Nat.div_eq_of_lt (by omega)]
    | succ n =>
      rw [Nat.succ_mul, show n * k + k - c + (k - 1) = (n + 1) * k + (k - 1 - c) by rw [Nat.succ_mul]; omega]
      exact idx_div (by omega)
  rw [this]
  congr 1
  funext i
  rw [Nat.add_comm]

/-- The plane `c` of a block of `n` pixels. -/
def plane (data : List UInt8) (n k c : Nat) : List UInt8 := (List.range n).map fun i => data[i * k + c]?.getD 0

@[simp] theorem plane_length (data : List UInt8) (n k c : Nat) : (plane data n k c).length = n := by simp [plane]

/-- The planes one after the other. -/
def planes (data : List UInt8) (n k : Nat) : List UInt8 := (List.range k).flatMap (plane data n k)

theorem planes_length (data : List UInt8) (n k : Nat) : (planes data n k).length = k * n := by
  unfold planes
  rw [List.length_flatMap]
  simp only [plane_length, List.map_const', List.length_range, List.sum_replicate_nat]

theorem planeBytes_spec {data : List UInt8} {n k : Nat} (hl : data.length = n * k) :
    planeBytes k (n * k) data = .ok (planes data n k) := by
  unfold planeBytes
  obtain ⟨t, e, ht⟩ := loopN_inv (n := k) (s := ([] : List UInt8))
    (f := fun c o => forStep c (n * k) k (fun i o => do let b ← rd data i; pure (o ++ [b])) o)
    (fun c o => o = (List.range c).flatMap (plane data n k)) (by simp) (by
      rintro c o hc rfl
      rw [forStep_stride hc]
      obtain ⟨t, e, ht⟩ := loopN_inv (n := n) (s := (List.range c).flatMap (plane data n k))
        (f := fun i o => do let b ← rd data (i * k + c); pure (o ++ [b]))
        (fun i o => o = (List.range c).flatMap (plane data n k) ++ (List.range i).map fun i => data[i * k + c]?.getD 0) (by simp) (by
          rintro i o hi rfl
          have : i * k + c < data.length := by rw [hl]; exact idx_lt hi hc
          refine ⟨_, by rw [rd_of_lt this]; rfl, ?_⟩
          rw [List.range_succ, List.map_append, List.append_assoc]
          simp [this])
      refine ⟨t, e, ?_⟩
      rw [ht, List.range_succ, List.flatMap_append]
      simp [plane])
  rw [e, ht]
  rfl

/-- Planes that were written are read back into pixels. -/
theorem readPlanes_spec {data d : List UInt8} {n k : Nat} {l : R} {rest : List UInt8} (hl : data.length = n * k) (hd : d.length = n * k)
    (a : At l (planes data n k ++ rest)) : readPlanes k (n * k) d l = .ok ⟨data, adv l (k * n), false⟩ := by
  unfold readPlanes
  have split : ∀ c, c < k → planes data n k = (List.range c).flatMap (plane data n k) ++ (plane data n k c ++ ((List.range' (c + 1) (k - (c + 1))).flatMap (plane data n k))) := by
    intro c hc
    unfold planes
    rw [List.range_eq_range', show k = c + (1 + (k - (c + 1))) by omega, ← List.range'_append, ← List.range'_append]
    simp only [List.flatMap_append, List.range_eq_range']
    rw [show c + (1 + (k - (c + 1))) = k by omega]
    simp [Nat.add_comm]
  obtain ⟨t, e, ht⟩ := loopN_inv (n := k) (s := (⟨d, l, false⟩ : S))
    (f := fun c s => forStep c (n * k) k byteStep s)
    (fun c s => s.failed = false ∧ s.inp = adv l (c * n) ∧ s.data.length = n * k ∧ ∀ j b, j < n → b < c → s.data[j * k + b]? = data[j * k + b]?)
    ⟨rfl, by simp, hd, fun _ _ _ h => by omega⟩ (by
      rintro c ⟨sd, si, sf⟩ hc ⟨h1, h2, h3, h4⟩
      dsimp only at h1 h2 h3 h4
      subst h1 h2
      rw [forStep_stride hc]
      have a2 : At (adv l (c * n)) (plane data n k c ++ ((List.range' (c + 1) (k - (c + 1))).flatMap (plane data n k) ++ rest)) := by
        rw [split c hc, List.append_assoc, List.append_assoc] at a
        have := a.adv
        rw [List.length_flatMap] at this
        simpa only [plane_length, List.map_const', List.length_range, List.sum_replicate_nat] using this
      obtain ⟨t, e, ht⟩ := loopN_inv (n := n) (s := (⟨sd, adv l (c * n), false⟩ : S))
        (f := fun i => byteStep (i * k + c))
        (fun i s => s.failed = false ∧ s.inp = adv l (c * n + i) ∧ s.data.length = n * k ∧
          (∀ j b, j < n → b < c → s.data[j * k + b]? = data[j * k + b]?) ∧ ∀ j, j < i → s.data[j * k + c]? = data[j * k + c]?)
        ⟨rfl, rfl, h3, h4, fun _ h => by omega⟩ (by
          rintro i ⟨sd', si', sf'⟩ hi ⟨g1, g2, g3, g4, g5⟩
          dsimp only at g1 g2 g3 g4 g5
          subst g1 g2
          have hlt : i * k + c < n * k := idx_lt hi hc
          have a3 : ∃ r, At (adv l (c * n + i)) (data[i * k + c] :: r) := by
            have hp : plane data n k c = (plane data n k c).take i ++ (data[i * k + c] :: (plane data n k c).drop (i + 1)) := by
              rw [← List.take_append_drop i (plane data n k c)]
              congr 1
              · simp
              · rw [List.take_append_drop, List.drop_eq_getElem_cons (by simpa using hi)]
                congr 1
                simp [plane, hl, hlt]
            rw [hp, List.append_assoc] at a2
            have := a2.adv
            rw [List.length_take, plane_length, Nat.min_eq_left (by omega), adv_adv] at this
            exact ⟨_, this⟩
          obtain ⟨r, a3⟩ := a3
          refine ⟨⟨sd'.set (i * k + c) data[i * k + c], adv l (c * n + i + 1), false⟩, ?_, rfl, rfl, by simpa using g3, ?_, ?_⟩
          · unfold byteStep
            dsimp only
            rw [if_neg (by simp), readByte_ok a3, bind_ok]
            dsimp only
            rw [wr_of_lt (by omega), adv_adv]
            rfl
          · intro j b hj hb
            dsimp only
            rw [List.getElem?_set, if_neg]
            · exact g4 j b hj hb
            · intro he
              have := (idx_inj hc (by omega) he).2
              omega
          · intro j hj
            dsimp only
            rw [List.getElem?_set]
            by_cases hji : j = i
            · subst hji
              rw [if_pos rfl, if_pos (by omega), List.getElem?_eq_getElem (by omega)]
            · rw [if_neg]
              · exact g5 j (by omega)
              · intro he
                exact hji (idx_inj hc hc he).1.symm)
      refine ⟨t, e, ht.1, ?_, ht.2.2.1, ?_⟩
      · rw [ht.2.1, Nat.succ_mul]
      · intro j b hj hb
        by_cases hbc : b = c
        · subst hbc
          exact ht.2.2.2.2 j hj
        · exact ht.2.2.2.1 j b hj (by omega))
  rw [e]
  obtain ⟨h1, h2, h3, h4⟩ := ht
  have : t.data = data := by
    apply List.ext_getElem?
    intro j
    by_cases hj : j < n * k
    · have hk : 0 < k := by
        rcases Nat.eq_zero_or_pos k with h | h
        · rw [h] at hj; simp at hj
        · exact h
      have e1 : j = (j / k) * k + j % k := by rw [Nat.mul_comm]; exact (Nat.div_add_mod j k).symm
      rw [e1]
      exact h4 _ _ (by rw [Nat.div_lt_iff_lt_mul hk]; exact hj) (Nat.mod_lt _ hk)
    · rw [List.getElem?_eq_none (by omega), List.getElem?_eq_none (by omega)]
  cases t
  dsimp only at h1 h2 this
  rw [h1, h2, this]

/-- The bytes of the header of an unsigned 8-bit image without a name. -/
theorem header_bytes (big rle : Bool) (t : Img) (ht : t.type = IL_UNSIGNED_BYTE) :
    ∃ ops, header big rle none t = .ok ops ∧ ops.flatMap WOp.bytes = (leBytes 2 474).reverse ++ ((if rle then 1 else 0) :: (1 ::
      ((leBytes 2 (if t.format = IL_LUMINANCE ∨ t.format = IL_COLOUR_INDEX then 2 else 3)).reverse ++ ((leBytes 2 (t.width % 65536)).reverse ++
      ((leBytes 2 (t.height % 65536)).reverse ++ ((leBytes 2 (t.bpp % 65536)).reverse ++ ((leBytes 4 0).reverse ++ ((leBytes 4 255).reverse ++
      ((leBytes 4 0).reverse ++ (List.replicate 80 0 ++ ((leBytes 4 0).reverse ++ List.replicate 404 0))))))))))) := by
  refine ⟨_, rfl, ?_⟩
  have hs : ∀ v, (short big v).bytes = (leBytes 2 (v % 65536)).reverse := fun v => by
    rw [short, WOp.bytes, saveBigUShort_eq, List.take_of_length_le (by simp), BitVec.toNat_ofNat]
  have hi : ∀ v, (int big v).bytes = (leBytes 4 (BitVec.ofInt 32 v).toNat).reverse := fun v => by
    rw [int, WOp.bytes, saveBigUInt_eq, List.take_of_length_le (by simp)]
  have hz : ∀ n, (List.replicate n (WOp.putc 0)).flatMap WOp.bytes = List.replicate n 0 := fun n => by
    induction n with
    | zero => rfl
    | succ n ih => rw [List.replicate_succ, List.flatMap_cons, ih]; rfl
  have hp : (padding big).flatMap WOp.bytes = List.replicate 404 0 := by
    have : ∀ n, (List.replicate n (WOp.write (SaveLittleUInt big 0) 4 1)).flatMap WOp.bytes = List.replicate (4 * n) 0 := fun n => by
      induction n with
      | zero => rfl
      | succ n ih =>
        rw [List.replicate_succ, List.flatMap_cons, ih, Nat.mul_succ, Nat.add_comm, ← List.replicate_append_replicate]
        congr 1
        rw [saveLittleUInt_eq]
        rfl
    exact this 101
  have hr : range big t.type = [int big 0, int big 255] := by rw [ht]; rfl
  have hty : typeByte t.type = [.putc 1] := by rw [ht]; rfl
  rw [hr, hty]
  simp only [List.flatMap_append, List.flatMap_cons, List.flatMap_nil, hs, hi, hz, hp, List.append_nil, List.append_assoc]
  have e2 : (if t.format = IL_LUMINANCE ∨ t.format = IL_COLOUR_INDEX then 2 else 3) % 65536 =
      (if t.format = IL_LUMINANCE ∨ t.format = IL_COLOUR_INDEX then 2 else 3) := by split <;> rfl
  rw [e2]
  simp only [WOp.bytes, List.cons_append, List.nil_append]
  rfl

/-- Reading a header of 8-bit components whose smallest value is 0; what nothing looks at is arbitrary. -/
theorem head_any {big : Bool} {junk : Nat → UInt8} {l : R} {rest m1 m2 name m4 pad : List UInt8} {st : UInt8} {dim x y z : BitVec 16}
    (l1 : m1.length = 4) (l2 : m2.length = 4) (l3 : name.length = 80) (l4 : m4.length = 4) (l5 : pad.length = 404)
    (a : At l ((leBytes 2 474).reverse ++ (st :: (1 :: ((leBytes 2 dim.toNat).reverse ++ ((leBytes 2 x.toNat).reverse ++
      ((leBytes 2 y.toNat).reverse ++ ((leBytes 2 z.toNat).reverse ++ ((leBytes 4 0).reverse ++ (m1 ++
      (m2 ++ (name ++ (m4 ++ (pad ++ rest)))))))))))))) :
    iGetSgiHead big junk l = .ok (⟨474, st.toNat, 1, dim.toNat, x.toNat, y.toNat, z.toNat, 0⟩, adv l 512) ∧ At (adv l 512) rest := by
  have a1 := a.adv
  simp only [List.length_reverse, leBytes_length] at a1
  have a2 := a1.adv_cons
  have a3 := a2.adv_cons
  have a4 := a3.adv
  have a5 := a4.adv
  have a6 := a5.adv
  have a7 := a6.adv
  have a8 := a7.adv
  have a9 := a8.adv
  have a10 := a9.adv
  have a11 := a10.adv
  have a12 := a11.adv
  have a13 := a12.adv
  simp only [List.length_reverse, leBytes_length, l1, l2, l3, l4, l5, adv_adv] at a2 a3 a4 a5 a6 a7 a8 a9 a10 a11 a12 a13
  refine ⟨?_, a13⟩
  have any : ∀ {m r : List UInt8} {l : R}, m.length = 4 → At l (m ++ r) → ∃ v, GetBigUInt big junk l = .ok (v, adv l 4) := by
    intro m r l hm a
    have e := leBytes_leVal m.reverse
    have hlt := leVal_lt m.reverse
    rw [List.length_reverse, hm] at e hlt
    refine ⟨BitVec.ofNat 32 (leVal m.reverse), At.getBigUInt (rest := r) ?_⟩
    rw [BitVec.toNat_ofNat, Nat.mod_eq_of_lt hlt, e, List.reverse_reverse]
    exact a
  unfold iGetSgiHead
  rw [At.getBigUShort (s := 474#16) a, bind_ok]
  dsimp only
  rw [a1.getb, bind_ok]
  dsimp only
  rw [adv_adv, a2.getb, bind_ok]
  dsimp only
  rw [adv_adv, a3.getBigUShort, bind_ok]
  dsimp only
  rw [adv_adv, a4.getBigUShort, bind_ok]
  dsimp only
  rw [adv_adv, a5.getBigUShort, bind_ok]
  dsimp only
  rw [adv_adv, a6.getBigUShort, bind_ok]
  dsimp only
  rw [adv_adv, At.getBigUInt (s := 0#32) a7, bind_ok]
  dsimp only
  obtain ⟨_, e⟩ := any l1 a8
  rw [adv_adv, e, bind_ok]
  dsimp only
  obtain ⟨_, e⟩ := any l2 a9
  rw [adv_adv, e, bind_ok]
  dsimp only
  rw [adv_adv, At.read (bs := name) a10 l3 (by decide), bind_ok]
  dsimp only
  obtain ⟨_, e⟩ := any l4 a11
  rw [l3, adv_adv, e, bind_ok]
  dsimp only
  rw [adv_adv, At.read (bs := pad) a12 l5 (by decide), bind_ok]
  dsimp only
  rw [l5, adv_adv]
  rfl

/-- Reading the header of a saved image. -/
theorem head_spec {big : Bool} {junk : Nat → UInt8} {l : R} {rest : List UInt8} {st : UInt8} {dim x y z : BitVec 16}
    (a : At l ((leBytes 2 474).reverse ++ (st :: (1 :: ((leBytes 2 dim.toNat).reverse ++ ((leBytes 2 x.toNat).reverse ++
      ((leBytes 2 y.toNat).reverse ++ ((leBytes 2 z.toNat).reverse ++ ((leBytes 4 0).reverse ++ ((leBytes 4 255).reverse ++
      ((leBytes 4 0).reverse ++ (List.replicate 80 0 ++ ((leBytes 4 0).reverse ++ (List.replicate 404 0 ++ rest)))))))))))))) :
    iGetSgiHead big junk l = .ok (⟨474, st.toNat, 1, dim.toNat, x.toNat, y.toNat, z.toNat, 0⟩, adv l 512) ∧ At (adv l 512) rest :=
  head_any (by simp) (by simp) (by simp only [List.length_replicate]) (by simp) (by simp only [List.length_replicate]) a

end DevIL.Sgi
