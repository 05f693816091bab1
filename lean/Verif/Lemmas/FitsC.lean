import Verif.Lemmas.FitsB
set_option autoImplicit false
namespace DevIL.Fits
open DevIL.Games DevIL.Detect DevIL.Image DevIL.DetectSpec DevIL.FitsSpec
open DevIL.Psd (EofLaw)

variable {σ : Type} {o : Ops σ} {At : σ → List UInt8 → Nat → Prop}

/-! ### The samples -/

/-- What the byte `j` of a sample at `p` is, if the input may end: what was in memory. -/
def byteAt (junk : Nat → UInt8) (bs : List UInt8) (p j : Nat) : UInt8 := (bs[p + j]?).getD (junk j)

theorem filled_get (junk : Nat → UInt8) (bs : List UInt8) (p b j : Nat) (hj : j < b) :
    ((at_ bs p b) ++ (alloc junk b).drop (at_ bs p b).length)[j]? = some (byteAt junk bs p j) := by
  unfold byteAt
  by_cases h : j < (at_ bs p b).length
  · rw [List.getElem?_append_left h, Dpx.get_at bs p b j hj]
    have h' : p + j < bs.length := by rw [at_length] at h; omega
    rw [List.getElem?_eq_getElem h']
    rfl
  · have h' : bs.length ≤ p + j := by rw [at_length] at h; omega
    rw [List.getElem?_append_right (by omega), List.getElem?_eq_none h', List.getElem?_drop, show (at_ bs p b).length + (j - (at_ bs p b).length) = j by omega]
    simp [alloc, hj]

theorem at_end (bs : List UInt8) (p q n : Nat) (hp : bs.length ≤ p) (hq : bs.length ≤ q) : at_ bs p n = at_ bs q n := by
  have h1 : at_ bs p n = [] := List.length_eq_zero_iff.mp (by rw [at_length]; omega)
  have h2 : at_ bs q n = [] := List.length_eq_zero_iff.mp (by rw [at_length]; omega)
  rw [h1, h2]

/-- Samples `0` to `k` are in the block. -/
structure Stored (At : σ → List UInt8 → Nat → Prop) (junk : Nat → UInt8) (bs : List UInt8) (off b n k : Nat) (t : List UInt8 × σ) : Prop where
  len : t.1.length = n * b
  pos : At t.2 bs (min (off + k * b) bs.length)
  val : ∀ i c, i < k → c < b → t.1[i * b + c]? = some (byteAt junk bs (off + i * b) (b - 1 - c))

theorem sample_ok (L : Laws2 o At) {junk : Nat → UInt8} {bs : List UInt8} {off b n k : Nat} {t : List UInt8 × σ} (h0 : 0 < b) (hb : b ≤ 8) (hk : k < n)
    (h : Stored At junk bs off b n k t) : Holds (sample o junk b k t) (Stored At junk bs off b n (k + 1)) := by
  unfold sample
  refine (L.read b 1 h.pos h0 (by omega)).bind (fun r hr => ?_)
  obtain ⟨g, _, s⟩ := r
  obtain ⟨h1, -, h3⟩ := hr
  simp only [Nat.mul_one] at h1 h3 ⊢
  have hg : g = at_ bs (off + k * b) b := by
    rw [h1]
    by_cases hc : off + k * b ≤ bs.length
    · rw [Nat.min_eq_left hc]
    · exact at_end _ _ _ _ (by omega) (by omega)
  have hlen : ((g ++ (alloc junk b).drop g.length).reverse).length = b := by
    have : g.length ≤ b := by rw [hg, at_length]; omega
    simp only [List.length_reverse, List.length_append, List.length_drop, alloc_length]
    omega
  have hm : (k + 1) * b ≤ n * b := Nat.mul_le_mul_right _ hk
  rw [Nat.succ_mul] at hm
  obtain ⟨d', e, l, v⟩ := memcpy_get (dst := t.1) (src := (g ++ (alloc junk b).drop g.length).reverse) (dOff := k * b) (sOff := 0) (n := b) (by omega) (by rw [h.len]; exact hm)
  rw [e, bind_ok]
  refine Holds.pure ⟨by rw [← h.len]; exact l, ?_, fun i c hi hc => ?_⟩
  · have : min (off + k * b) bs.length + g.length = min (off + (k + 1) * b) bs.length := by rw [hg, at_length, Nat.succ_mul]; omega
    rw [← this]
    exact h3
  · show d'[i * b + c]? = _
    rw [v]
    rcases Nat.lt_succ_iff_lt_or_eq.mp hi with hi | rfl
    · have : (i + 1) * b ≤ k * b := Nat.mul_le_mul_right _ hi
      rw [Nat.succ_mul] at this
      rw [if_neg (by omega)]
      exact h.val i c hi hc
    · rw [if_pos (by omega), show 0 + (i * b + c - i * b) = c by omega, List.getElem?_reverse (by rw [List.length_reverse] at hlen; omega)]
      rw [List.length_reverse] at hlen
      rw [hlen, hg]
      exact filled_get junk bs _ b (b - 1 - c) (by omega)

theorem samples_ok (L : Laws2 o At) {junk : Nat → UInt8} {bs : List UInt8} {off b n : Nat} {data : List UInt8} {s : σ} (h0 : 0 < b) (hb : b ≤ 8) (hd : data.length = n * b)
    (ho : off ≤ bs.length) (hA : At s bs off) : Holds (loopN n (sample o junk b) (data, s)) (Stored At junk bs off b n n) := by
  refine Holds.loop (fun k t => Stored At junk bs off b n k t) ⟨hd, ?_, fun i c hi => by omega⟩ (fun k t hk h => sample_ok L h0 hb hk h)
  rw [Nat.zero_mul, Nat.add_zero, Nat.min_eq_left ho]
  exact hA

/-! ### The image -/

theorem bpc_int {b type : Nat} (h : intType b = some type) : Utility.ilGetBpcType type = b ∧ 0 < b ∧ b ≤ 8 := by
  rcases intType_cases h with ⟨rfl, rfl⟩ | ⟨rfl, rfl⟩ | ⟨rfl, rfl⟩ <;> decide

theorem tex_size (junk : Nat → UInt8) {d : Doc} {b type : Nat} (hd : d.Header b) (ht : intType b = some type) :
    (texOf junk (d.dim 0) (d.dim 1) (d.dim 2) type).size = d.total b ∧ (texOf junk (d.dim 0) (d.dim 1) (d.dim 2) type).data.length = d.total b := by
  obtain ⟨h1, h2, -⟩ := bpc_int ht
  have hfit := hd.fit
  obtain ⟨-, -, -, -, -, -, -, h8, h9⟩ := Dpx.geo_size (d.dim 0) (d.dim 1) (d.dim 2) 1 IL_LUMINANCE type b (dim_pos hd.pos 0) (dim_pos hd.pos 1) (dim_pos hd.pos 2) (by decide) h2 h1 (by rw [Nat.one_mul]; omega)
  rw [h9, Nat.one_mul] at h8
  exact ⟨h8, by unfold texOf; rw [alloc_length]; exact h8⟩

theorem shows_of (junk : Nat → UInt8) {d : Doc} {b type : Nat} (hd : d.Header b) (ht : intType b = some type) {data : List UInt8} (hl : data.length = d.total b)
    (body : List UInt8) (hv : ∀ i c, i < d.dim 0 * d.dim 1 * d.dim 2 → c < b → data[i * b + c]? = body[i * b + (b - 1 - c)]?) :
    Shows { texOf junk (d.dim 0) (d.dim 1) (d.dim 2) type with data := data } { d with body := body } b type := by
  obtain ⟨e1, e2, -⟩ := bpc_int ht
  have hfit := hd.fit
  obtain ⟨h1, h2, h3, h4, h5, h6, h7, h8, h9⟩ := Dpx.geo_size (d.dim 0) (d.dim 1) (d.dim 2) 1 IL_LUMINANCE type b (dim_pos hd.pos 0) (dim_pos hd.pos 1) (dim_pos hd.pos 2) (by decide) e2 e1 (by rw [Nat.one_mul]; omega)
  have hsz := (tex_size junk hd ht).1
  refine ⟨h1, h2, h3, h4, h5, rfl, rfl, rfl, ⟨?_, ?_, ?_, ?_⟩, fun x y z c hx hy hz hc => ?_⟩
  · show (geometry (d.dim 0) (d.dim 1) (d.dim 2) 1 IL_LUMINANCE type []).bps = (geometry (d.dim 0) (d.dim 1) (d.dim 2) 1 IL_LUMINANCE type []).width * (geometry (d.dim 0) (d.dim 1) (d.dim 2) 1 IL_LUMINANCE type []).bpp * (geometry (d.dim 0) (d.dim 1) (d.dim 2) 1 IL_LUMINANCE type []).bpc
    rw [h1, h4, h5, h6]
  · show (geometry (d.dim 0) (d.dim 1) (d.dim 2) 1 IL_LUMINANCE type []).plane = (geometry (d.dim 0) (d.dim 1) (d.dim 2) 1 IL_LUMINANCE type []).width * (geometry (d.dim 0) (d.dim 1) (d.dim 2) 1 IL_LUMINANCE type []).bpp * (geometry (d.dim 0) (d.dim 1) (d.dim 2) 1 IL_LUMINANCE type []).bpc *
      (geometry (d.dim 0) (d.dim 1) (d.dim 2) 1 IL_LUMINANCE type []).height
    rw [h1, h2, h4, h5, h7]
  · show (geometry (d.dim 0) (d.dim 1) (d.dim 2) 1 IL_LUMINANCE type []).size = (geometry (d.dim 0) (d.dim 1) (d.dim 2) 1 IL_LUMINANCE type []).width * (geometry (d.dim 0) (d.dim 1) (d.dim 2) 1 IL_LUMINANCE type []).bpp * (geometry (d.dim 0) (d.dim 1) (d.dim 2) 1 IL_LUMINANCE type []).bpc *
      (geometry (d.dim 0) (d.dim 1) (d.dim 2) 1 IL_LUMINANCE type []).height * (geometry (d.dim 0) (d.dim 1) (d.dim 2) 1 IL_LUMINANCE type []).depth
    rw [h1, h2, h3, h4, h5, h8]
  · show data.length = (texOf junk (d.dim 0) (d.dim 1) (d.dim 2) type).size
    rw [hsz, hl]
  · have e : (({ texOf junk (d.dim 0) (d.dim 1) (d.dim 2) type with data := data } : Img)).px x y z c = data[((z * d.dim 1 + y) * d.dim 0 + x) * b + c]? := by
      show data[((z * (geometry (d.dim 0) (d.dim 1) (d.dim 2) 1 IL_LUMINANCE type []).height + y) * (geometry (d.dim 0) (d.dim 1) (d.dim 2) 1 IL_LUMINANCE type []).width + x) *
        ((geometry (d.dim 0) (d.dim 1) (d.dim 2) 1 IL_LUMINANCE type []).bpp * (geometry (d.dim 0) (d.dim 1) (d.dim 2) 1 IL_LUMINANCE type []).bpc) + c]? = _
      rw [h1, h2, h4, h5, Nat.one_mul]
    rw [e]
    have hx : x < d.dim 0 := hx
    have hy : y < d.dim 1 := hy
    have hz : z < d.dim 2 := hz
    refine hv _ _ ?_ hc
    have q1 : z * d.dim 1 + y < d.dim 1 * d.dim 2 := by
      have : z * d.dim 1 + d.dim 1 ≤ d.dim 2 * d.dim 1 := by rw [← Nat.succ_mul]; exact Nat.mul_le_mul_right _ hz
      rw [Nat.mul_comm (d.dim 1)]; omega
    have : (z * d.dim 1 + y) * d.dim 0 + d.dim 0 ≤ (d.dim 1 * d.dim 2) * d.dim 0 := by rw [← Nat.succ_mul]; exact Nat.mul_le_mul_right _ q1
    rw [Nat.mul_assoc, Nat.mul_comm (d.dim 0)]; omega

/-! ### Loading -/

theorem numPix_ok {d : Doc} {b : Nat} (hd : d.Header b) (hb : 0 < b) : numPix (d.dim 0) (d.dim 1) (d.dim 2) = .ok (d.dim 0 * d.dim 1 * d.dim 2) := by
  have := dim_le (dim_pos hd.pos 0) (dim_pos hd.pos 1) (dim_pos hd.pos 2) hb hd.fit
  unfold numPix
  rw [if_neg (by omega), if_neg (by omega)]
  rfl

/-- Samples of two and four bytes: loading never looks whether they are there. -/
theorem load_words (L : Laws2 o At) (E : EofLaw o At) (junk : Nat → UInt8) (norm : Nat → List UInt8 → Nat → UInt8) (cur : Loaded) {d : Doc} {b type : Nat} (hd : d.Header b)
    (ht : intType b = some type) (hb : b ≠ 1) {bs tail : List UInt8} (hbs : bs = d.header ++ tail) (h0 : tail ≠ []) {fuel : Nat} (hf : bs.length < fuel) {s : σ} (hA : At s bs 0) :
    Holds (iLoadFitsInternal o junk norm fuel cur s) (fun r => (r.1 = true ∧ r.2.1.2 = none ∧ ∃ data, r.2.1.1 = { texOf junk (d.dim 0) (d.dim 1) (d.dim 2) type with data := data } ∧
      data.length = d.total b ∧ ∀ i c, i < d.dim 0 * d.dim 1 * d.dim 2 → c < b → data[i * b + c]? = some ((tail[i * b + (b - 1 - c)]?).getD (junk (b - 1 - c)))) ∧ ∃ q, At r.2.2 bs q) := by
  obtain ⟨e1, e2, e3⟩ := bpc_int ht
  obtain ⟨t1, t2⟩ := tex_size junk hd ht
  unfold iLoadFitsInternal
  refine (getHead_ok L E hd.toCards ht hbs h0 hf hA).bind (fun r hr => ?_)
  obtain ⟨v, s'⟩ := r
  obtain ⟨h1, h2⟩ := hr
  simp only at h1 h2
  subst h1
  simp only
  rw [numPix_ok hd e2, bind_ok]
  have n1 : type ≠ IL_UNSIGNED_BYTE := by rcases intType_cases ht with ⟨rfl, rfl⟩ | ⟨rfl, rfl⟩ | ⟨rfl, rfl⟩ <;> first | exact absurd rfl hb | decide
  have n2 : ¬ (type = IL_FLOAT ∨ type = IL_DOUBLE) := by rcases intType_cases ht with ⟨rfl, rfl⟩ | ⟨rfl, rfl⟩ | ⟨rfl, rfl⟩ <;> decide
  rw [if_neg n1]
  have hle : d.header.length ≤ bs.length := by rw [hbs, List.length_append]; omega
  refine (samples_ok L (n := d.dim 0 * d.dim 1 * d.dim 2) e2 e3 t2 hle h2).bind (fun t hT => ?_)
  obtain ⟨data, s2⟩ := t
  simp only
  rw [if_neg n2]
  refine Holds.pure ⟨⟨rfl, rfl, data, rfl, hT.len, fun i c hi hc => ?_⟩, _, hT.pos⟩
  rw [hT.val i c hi hc]
  unfold byteAt
  rw [hbs, List.getElem?_append_right (by omega), show d.header.length + i * b + (b - 1 - c) - d.header.length = i * b + (b - 1 - c) by omega]

/-- Samples of one byte: loading succeeds exactly if they are there. -/
theorem load_bytes (L : Laws2 o At) (E : EofLaw o At) (junk : Nat → UInt8) (norm : Nat → List UInt8 → Nat → UInt8) (cur : Loaded) {d : Doc} (hd : d.Header 1)
    {bs tail : List UInt8} (hbs : bs = d.header ++ tail) (h0 : tail ≠ []) {fuel : Nat} (hf : bs.length < fuel) {s : σ} (hA : At s bs 0) :
    Holds (iLoadFitsInternal o junk norm fuel cur s) (fun r => (r.1 = decide (d.total 1 ≤ tail.length) ∧ r.2.1.2 = none ∧
      ∃ data, r.2.1.1 = { texOf junk (d.dim 0) (d.dim 1) (d.dim 2) IL_UNSIGNED_BYTE with data := data } ∧
      data.length = d.total 1 ∧ (d.total 1 ≤ tail.length → data = tail.take (d.total 1))) ∧ ∃ q, At r.2.2 bs q) := by
  have ht : intType 1 = some IL_UNSIGNED_BYTE := rfl
  obtain ⟨t1, t2⟩ := tex_size junk hd ht
  unfold iLoadFitsInternal
  refine (getHead_ok L E hd.toCards ht hbs h0 hf hA).bind (fun r hr => ?_)
  obtain ⟨v, s'⟩ := r
  obtain ⟨h1, h2⟩ := hr
  simp only at h1 h2
  subst h1
  simp only
  rw [numPix_ok hd (by decide), bind_ok, if_pos trivial, t1]
  have hfit : d.total 1 < 2147483648 := hd.fit
  refine (into_spec L _ 1 (d.total 1) h2 (by decide) (by omega) (by rw [t2]; omega)).bind (fun r hr => ?_)
  obtain ⟨k, data, s2⟩ := r
  obtain ⟨g1, g2, g3⟩ := hr
  simp only [Nat.one_mul, Nat.div_one] at g1 g2 g3 ⊢
  have hat : at_ bs d.header.length (d.total 1) = tail.take (d.total 1) := by
    unfold at_
    rw [hbs, List.drop_left]
  rw [hat] at g1 g2
  refine Holds.pure ⟨⟨?_, rfl, data, rfl, ?_, fun h => ?_⟩, _, g3⟩
  · show decide (k = d.total 1) = _
    rw [g1, List.length_take]
    congr 1
    rw [eq_iff_iff]
    omega
  · rw [g2, List.length_append, List.length_drop, t2, List.length_take]
    omega
  · rw [g2, List.drop_of_length_le (by rw [t2, List.length_take]; omega), List.append_nil]

end DevIL.Fits
