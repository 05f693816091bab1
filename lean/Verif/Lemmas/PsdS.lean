import Verif.Lemmas.PsdH
import Verif.Props.SgiRle
set_option autoImplicit false
namespace DevIL.Psd
open DevIL.Games DevIL.Detect DevIL.Image DevIL.DetectSpec DevIL.DpxSpec DevIL.PsdSpec DevIL.Dpx
open DevIL.Lump (WOp output)

/-! ### Planes -/

/-- The planes of `n` pixels of `k` components of `b` bytes, with the bytes of each component turned around. -/
def bodyOf (b n k : Nat) (data : List UInt8) : List UInt8 := (List.range k).flatMap (fun c => (List.range n).flatMap (fun p => (comp b data (p * k + c)).reverse))

theorem comp_fit {b n k : Nat} {data : List UInt8} (hl : data.length = n * k * b) {p c : Nat} (hp : p < n) (hc : c < k) : (p * k + c) * b + b ≤ data.length := by
  have h1 : p * k + k ≤ n * k := by rw [← Nat.succ_mul]; exact Nat.mul_le_mul_right k hp
  rw [← Nat.succ_mul, hl]
  exact Nat.mul_le_mul_right b (by omega)

theorem plane_len {b n k : Nat} {data : List UInt8} (hl : data.length = n * k * b) {c : Nat} (hc : c < k) :
    ((List.range n).flatMap (fun p => (comp b data (p * k + c)).reverse)).length = n * b :=
  Sgi.flatMap_len n (fun p hp => by rw [List.length_reverse, comp_length (comp_fit hl hp hc)])

theorem body_length {b n k : Nat} {data : List UInt8} (hl : data.length = n * k * b) : (bodyOf b n k data).length = k * (n * b) :=
  Sgi.flatMap_len k (fun _ hc => plane_len hl hc)

theorem body_get {b n k : Nat} {data : List UInt8} (hl : data.length = n * k * b) {c p j : Nat} (hc : c < k) (hp : p < n) (hj : j < b) :
    (bodyOf b n k data)[(c * n + p) * b + j]? = data[(p * k + c) * b + (b - 1 - j)]? := by
  have hin : p * b + j < n * b := by
    have : p * b + b ≤ n * b := by rw [← Nat.succ_mul]; exact Nat.mul_le_mul_right b hp
    omega
  rw [show (c * n + p) * b + j = c * (n * b) + (p * b + j) by rw [Nat.add_mul, Nat.mul_assoc, Nat.add_assoc]]
  unfold bodyOf
  have hcl := comp_length (comp_fit hl hp hc)
  rw [Sgi.flatMap_get (c := n * b) hin k (fun _ hc => plane_len hl hc) hc,
    Sgi.flatMap_get (c := b) hj n (fun p hp => by rw [List.length_reverse, comp_length (comp_fit hl hp hc)]) hp, List.getElem?_reverse (by rw [hcl]; exact hj), hcl]
  exact get_at _ _ _ _ (by omega)

theorem fcongr {α β : Type} {l : List α} {f g : α → List β} (h : ∀ x ∈ l, f x = g x) : l.flatMap f = l.flatMap g := by
  rw [List.flatMap_def, List.flatMap_def, List.map_congr_left h]

theorem planes_eq {n k : Nat} {data : List UInt8} (hl : data.length = n * k) : Sgi.planes data n k = bodyOf 1 n k data := by
  unfold Sgi.planes bodyOf
  refine fcongr (fun c hc => ?_)
  have hc := List.mem_range.mp hc
  unfold Sgi.plane
  rw [← List.flatMap_singleton' ((List.range n).map _), List.flatMap_map]
  refine fcongr (fun p hp => ?_)
  have hp := List.mem_range.mp hp
  have := comp_fit (b := 1) (data := data) (by rw [Nat.mul_one]; exact hl) hp hc
  rw [one_comp (by omega), List.getElem?_eq_getElem (by omega)]
  rfl

theorem short_bytes (v : Nat) (h : v < 65536) : (Sgi.short false v).bytes = num 2 v := by
  show (Endian.SaveBigUShort false (BitVec.ofNat 16 v)).take (2 * 1) = _
  rw [Lump.saveBigUShort_eq, BitVec.toNat_ofNat, Nat.mod_eq_of_lt (by omega), List.take_of_length_le (by simp)]
  rfl

theorem int_bytes (v : Nat) (h : v < 4294967296) : (Sgi.int false (v : Int)).bytes = num 4 v := by
  show (Endian.SaveBigUInt false (BitVec.ofInt 32 (v : Int))).take (4 * 1) = _
  rw [Lump.saveBigUInt_eq, List.take_of_length_le (by simp)]
  have : (BitVec.ofInt 32 (v : Int)).toNat = v := by
    rw [BitVec.toNat_ofInt]
    omega
  rw [this]
  rfl

theorem num_le {v : List UInt8} (h : v.length = 2) : num 2 (le v) = v.reverse := by
  match v, h with
  | [a, b], _ =>
    have e : le [a, b] = leVal [a, b] := rfl
    rw [e]
    unfold num
    exact congrArg List.reverse (leBytes_leVal [a, b])

theorem le_lt {v : List UInt8} (h : v.length = 2) : le v < 65536 := by
  match v, h with
  | [a, b], _ =>
    have ha := a.toNat_lt
    have hb := b.toNat_lt
    show a.toNat + 256 * (b.toNat + 256 * 0) < 65536
    omega

theorem planeShorts_spec {n k : Nat} {data : List UInt8} (hl : data.length = n * k * 2) :
    ∃ ops, planeShorts k (n * k) data = .ok ops ∧ output ops = bodyOf 2 n k data := by
  have key : Holds (planeShorts k (n * k) data) (fun ops => output ops = (List.range k).flatMap (fun c => (List.range n).flatMap (fun p => (comp 2 data (p * k + c)).reverse))) := by
    unfold planeShorts
    refine Holds.loop (fun c ops => output ops = (List.range c).flatMap (fun c => (List.range n).flatMap (fun p => (comp 2 data (p * k + c)).reverse))) rfl (fun c ops hc ho => ?_)
    rw [Sgi.forStep_stride hc]
    rw [List.range_succ, List.flatMap_append, List.flatMap_singleton, ← ho]
    refine Holds.loop (fun i o' => output o' = output ops ++ (List.range i).flatMap (fun p => (comp 2 data (p * k + c)).reverse)) (by simp) (fun i o' hi ho' => ?_)
    have hf := comp_fit hl hi hc
    have hcl : (comp 2 data (i * k + c)).length = 2 := comp_length hf
    rw [rdN_ok hf, bind_ok]
    refine Holds.pure ?_
    rw [List.range_succ, List.flatMap_append, List.flatMap_singleton, ← List.append_assoc, ← ho']
    show output (o' ++ [Sgi.short false (le (comp 2 data (i * k + c)))]) = _
    unfold output
    rw [List.flatMap_append, List.flatMap_singleton, short_bytes _ (le_lt hcl), num_le hcl]
  obtain ⟨ops, e, h⟩ := key
  exact ⟨ops, e, h⟩

/-! ### Rows -/

theorem topDown_spec (junk : Nat → UInt8) {q : Img} (hc : q.Consistent) (hd : q.depth = 1) (h32 : q.size < 4294967296) :
    ∃ t, topDown junk q = .ok t ∧ t.length = q.size ∧ ∀ x y i, x < q.width → y < q.height → i < q.bpp * q.bpc →
      t[(y * q.width + x) * (q.bpp * q.bpc) + i]? = q.px x (if q.origin = IL_ORIGIN_LOWER_LEFT then q.height - 1 - y else y) 0 i := by
  unfold topDown
  by_cases ho : q.origin = IL_ORIGIN_LOWER_LEFT
  · rw [if_pos ho]
    rw [Manip.C16_flipped_copy junk q hc (by omega)]
    obtain ⟨m', e, s, _, hp⟩ := Manip.C16_flip q hc (by omega)
    rw [e, bind_ok]
    refine ⟨m'.data, rfl, by rw [s.2, hc.2.2.2], fun x y b hx hy hb' => ?_⟩
    have key := hp x (q.height - 1 - y) 0 b ⟨hx, by omega, by rw [hd]; decide, hb'⟩
    rw [show q.height - 1 - (q.height - 1 - y) = y by omega] at key
    rw [if_pos ho, ← key]
    unfold Img.px
    have e1 : m'.width = q.width := by rw [s.1]
    have e2 : m'.height = q.height := by rw [s.1]
    have e3 : m'.bpp = q.bpp := by rw [s.1]
    have e4 : m'.bpc = q.bpc := by rw [s.1]
    rw [e1, e2, e3, e4, Nat.zero_mul, Nat.zero_add]
  · rw [if_neg ho]
    refine ⟨q.data, rfl, hc.2.2.2, fun x y b _ _ _ => ?_⟩
    rw [if_neg ho]
    unfold Img.px
    rw [Nat.zero_mul, Nat.zero_add]

/-! ### The file -/

/-- The document that is written for an image. -/
def docOf (m : Img) (mode : Nat) (colours : List UInt8) : Doc := ⟨m.bpp, m.height, m.width, m.bpc * 8, mode, colours, [], []⟩

theorem output_append (a b : List WOp) : output (a ++ b) = output a ++ output b := by unfold output; rw [List.flatMap_append]

theorem output_putc (l : List UInt8) : output (l.map .putc) = l := by
  unfold output
  induction l with
  | nil => rfl
  | cons a l ih => rw [List.map_cons, List.flatMap_cons, ih]; rfl

theorem save_body (junk : Nat → UInt8) {m : Img} (hc : m.Consistent) (hd : m.depth = 1) (h32 : m.size < 4294967296) (hb : m.bpc = 1 ∨ m.bpc = 2) :
    ∃ d ops, topDown junk m = .ok d ∧ ((if m.bpc = 1 then do
          let b ← Sgi.planeBytes m.bpp m.plane d
          pure (b.map .putc)
        else planeShorts m.bpp (m.plane / 2) d) : C (List WOp)) = .ok ops ∧
      (output ops).length = m.size ∧ ∀ x y i, x < m.width → y < m.height → i < m.bpp * m.bpc →
        plainPx m.width m.height m.bpc (output ops) x y i = m.px x (if m.origin = IL_ORIGIN_LOWER_LEFT then m.height - 1 - y else y) 0 i := by
  obtain ⟨d, e, hl, hp⟩ := topDown_spec junk hc hd h32
  have hsz : m.size = m.height * m.width * m.bpp * m.bpc := by
    rw [hc.2.2.1, hd, Nat.mul_one]; simp only [Nat.mul_comm, Nat.mul_left_comm, Nat.mul_assoc]
  have hpl : m.plane = m.height * m.width * m.bpp * m.bpc := by
    rw [hc.2.1]; simp only [Nat.mul_comm, Nat.mul_left_comm, Nat.mul_assoc]
  have hlen : d.length = m.height * m.width * m.bpp * m.bpc := by rw [hl, hsz]
  have key : ∃ ops, ((if m.bpc = 1 then do
          let b ← Sgi.planeBytes m.bpp m.plane d
          pure (b.map .putc)
        else planeShorts m.bpp (m.plane / 2) d) : C (List WOp)) = .ok ops ∧ output ops = bodyOf m.bpc (m.height * m.width) m.bpp d := by
    rcases hb with hb | hb
    · rw [if_pos hb]
      have h1 : d.length = m.height * m.width * m.bpp := by rw [hlen, hb, Nat.mul_one]
      have h2 : m.plane = m.height * m.width * m.bpp := by rw [hpl, hb, Nat.mul_one]
      rw [h2, Sgi.planeBytes_spec h1, bind_ok]
      refine ⟨_, rfl, ?_⟩
      rw [output_putc, planes_eq h1, hb]
    · rw [if_neg (by omega)]
      have h1 : d.length = m.height * m.width * m.bpp * 2 := by rw [hlen, hb]
      have h2 : m.plane / 2 = m.height * m.width * m.bpp := by rw [hpl, hb, Nat.mul_div_cancel _ (by decide)]
      rw [h2]
      obtain ⟨ops, e, ho⟩ := planeShorts_spec h1
      exact ⟨ops, e, by rw [ho, hb]⟩
  obtain ⟨ops, eo, ho⟩ := key
  refine ⟨d, ops, e, eo, by rw [ho, body_length hlen, hsz]; simp only [Nat.mul_comm, Nat.mul_left_comm, Nat.mul_assoc], fun x y i hx hy hi => ?_⟩
  have hb0 : 0 < m.bpc := by omega
  have hmk : i % m.bpc < m.bpc := Nat.mod_lt _ hb0
  have hpp : y * m.width + x < m.height * m.width := by
    have : y * m.width + m.width ≤ m.height * m.width := by rw [← Nat.succ_mul]; exact Nat.mul_le_mul_right _ hy
    omega
  rw [← hp x y i hx hy hi, ho]
  unfold plainPx
  rw [show (i / m.bpc * m.height + y) * m.width + x = i / m.bpc * (m.height * m.width) + (y * m.width + x) by rw [Nat.add_mul, Nat.mul_assoc, Nat.add_assoc],
    body_get hlen (Nat.div_lt_of_lt_mul (by rw [Nat.mul_comm]; exact hi)) hpp (by omega)]
  congr 1
  have := Nat.div_add_mod i m.bpc
  rw [show m.bpc - 1 - (m.bpc - 1 - i % m.bpc) = i % m.bpc by omega, Nat.add_mul, Nat.mul_assoc, Nat.add_assoc, Nat.mul_comm (i / m.bpc), this]

/-- Saving an image that needs no conversion. -/
theorem save_ok (junk : Nat → UInt8) {m : Img} (conv : Option Img) (pal : Option Pal) (hc : m.Consistent) (hd : m.depth = 1) (h32 : m.size < 4294967296)
    (hw : m.width < 4294967296) (hh : m.height < 4294967296) (hk : m.bpp < 65536) (hb : m.bpc = 1 ∨ m.bpc = 2)
    (hwant : wanted m = (m.format, m.type)) {mode : Nat} (hmode : modeOf m.format = some mode) (hml : mode < 65536)
    (hpal : mode = 2 → ∃ p, pal = some p ∧ p.size = 768 ∧ p.data.length = 768) :
    ∃ ops body, iSavePsdInternal junk m conv pal = .ok (true, ops) ∧
      output ops = (docOf m mode (if mode = 2 then bodyOf 1 256 3 ((pal.map Pal.data).getD []) else [])).before 0 ++ body ∧ body.length = m.size ∧
      ∀ x y i, x < m.width → y < m.height → i < m.bpp * m.bpc →
        plainPx m.width m.height m.bpc body x y i = m.px x (if m.origin = IL_ORIGIN_LOWER_LEFT then m.height - 1 - y else y) 0 i := by
  obtain ⟨d, bops, e1, e2, e3, e4⟩ := save_body junk hc hd h32 hb
  have hcm : ∃ cm, colourTable mode pal = .ok (true, cm) ∧
      output cm = section_ (if mode = 2 then bodyOf 1 256 3 ((pal.map Pal.data).getD []) else []) := by
    unfold colourTable
    by_cases h2 : mode = 2
    · obtain ⟨p, rfl, hp1, hp2⟩ := hpal h2
      rw [if_pos h2, if_pos h2]
      have : palPlanes p = .ok (Sgi.planes p.data 256 3) := by
        have h := Sgi.planeBytes_spec (data := p.data) (n := 256) (k := 3) hp2
        unfold palPlanes
        rw [hp1]
        exact h
      simp only [this, bind_ok]
      refine ⟨_, rfl, ?_⟩
      have hl : (bodyOf 1 256 3 p.data).length = 768 := by rw [body_length (by rw [hp2])]
      have e768 : (Sgi.int false 768).bytes = num 4 768 := int_bytes 768 (by decide)
      have ho : ∀ (w : WOp) (l : List WOp), output (w :: l) = w.bytes ++ output l := fun w l => by unfold output; rw [List.flatMap_cons]
      rw [ho, e768, output_putc, planes_eq (by rw [hp2])]
      unfold section_
      show _ = num 4 (bodyOf 1 256 3 p.data).length ++ _
      rw [hl]
      rfl
    · rw [if_neg h2, if_neg h2]
      exact ⟨_, rfl, rfl⟩
  obtain ⟨cm, ecm, hcm⟩ := hcm
  have hhead : output [WOp.write [56, 66, 80, 83] 1 4, Sgi.short false 1, Sgi.int false 0, Sgi.short false 0, Sgi.short false m.bpp,
      Sgi.int false m.height, Sgi.int false m.width, Sgi.short false (m.bpc * 8), Sgi.short false mode] = (docOf m mode []).head := by
    show [56, 66, 80, 83] ++ ((Sgi.short false 1).bytes ++ ((Sgi.int false ((0 : Nat) : Int)).bytes ++ ((Sgi.short false 0).bytes ++ ((Sgi.short false m.bpp).bytes ++
      ((Sgi.int false m.height).bytes ++ ((Sgi.int false m.width).bytes ++ ((Sgi.short false (m.bpc * 8)).bytes ++ ((Sgi.short false mode).bytes ++ [])))))))) = _
    rw [short_bytes 1 (by decide), int_bytes 0 (by decide), short_bytes 0 (by decide), short_bytes _ hk, int_bytes _ hh, int_bytes _ hw, short_bytes _ (by omega), short_bytes _ hml]
    unfold Doc.head docOf
    simp only [List.append_assoc, List.append_nil]
    rfl
  unfold iSavePsdInternal
  simp only [hwant, if_true, hmode]
  rw [ecm, bind_ok]
  simp only [Bool.not_true, Bool.false_eq_true, if_false]
  rw [e1, bind_ok]
  have fin : ∀ a : List WOp, ((if m.bpc = 1 then do
          let b ← Sgi.planeBytes m.bpp m.plane d
          pure (true, a ++ b.map .putc)
        else do
          let b ← planeShorts m.bpp (m.plane / 2) d
          pure (true, a ++ b)) : C (Bool × List WOp)) = .ok (true, a ++ bops) := by
    intro a
    by_cases h1 : m.bpc = 1
    · rw [if_pos h1] at e2 ⊢
      cases hpb : Sgi.planeBytes m.bpp m.plane d with
      | error f => rw [hpb] at e2; cases e2
      | ok b =>
        rw [hpb, bind_ok] at e2
        have : b.map WOp.putc = bops := by injection e2
        rw [bind_ok, this]
        rfl
    · rw [if_neg h1] at e2 ⊢
      rw [e2, bind_ok]
      rfl
  rw [fin]
  refine ⟨_, output bops, rfl, ?_, e3, e4⟩
  rw [output_append, output_append, output_append, hcm]
  congr 1
  have hd2 : (docOf m mode (if mode = 2 then bodyOf 1 256 3 ((pal.map Pal.data).getD []) else [])).head = (docOf m mode []).head := rfl
  have hz : output [Sgi.int false 0, Sgi.int false 0, Sgi.short false 0] = section_ [] ++ (section_ [] ++ num 2 0) := by
    show (Sgi.int false ((0 : Nat) : Int)).bytes ++ ((Sgi.int false ((0 : Nat) : Int)).bytes ++ ((Sgi.short false 0).bytes ++ [])) = _
    rw [int_bytes 0 (by decide), short_bytes 0 (by decide)]
    rfl
  have ha : output ([WOp.write [56, 66, 80, 83] 1 4, Sgi.short false 1, Sgi.int false 0, Sgi.short false 0, Sgi.short false m.bpp,
      Sgi.int false m.height, Sgi.int false m.width] ++ [Sgi.short false (m.bpc * 8)] ++ [Sgi.short false mode]) = (docOf m mode []).head := hhead
  unfold Doc.before
  rw [hd2, ha, hz]
  simp only [List.append_assoc]
  rfl

end DevIL.Psd
