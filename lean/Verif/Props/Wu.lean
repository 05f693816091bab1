import Verif.Lemmas.WuC
/-! C217 to C219: reducing the colours of a picture to a palette. -/
set_option autoImplicit false
namespace DevIL.Wu
open DevIL.WuSpec

section
variable {F : Type} [LinearOrder F]

/-- **C217**: reducing a picture of `n` pixels (red, green, blue) to `K` colours ends, gives every pixel an index below `K`, and makes each entry of the palette that a pixel has the average of
the pixels that have it, whatever the floats and the memory were. -/
theorem C217_averages (fl : Fl F) (junk : Nat → UInt8) (data : List UInt8) (n K : Nat) (hd : data.length = 3 * n) (hn : n ≤ 8421504) (hK0 : 1 ≤ K) (hK : K ≤ 256) :
    ∃ new pal m, iQuantizeImage fl junk data n K = .ok (new, pal, m) ∧ m ≤ K ∧ new.length = n ∧ (∀ x ∈ new, x.toNat < m) ∧ pal.length = 768 ∧ Averages data new pal n := by
  obtain ⟨new, pal, m, e, -, h2, h3, h4, h5, h6, -⟩ := quantize_averages (fl := fl) junk hd (by omega) hK0 hK
  exact ⟨new, pal, m, e, h2, h3, h5, h4, h6⟩

example : ([10, 20, 30, 200, 100, 50] : List UInt8).length = 3 * 2 ∧ 2 ≤ 8421504 ∧ 1 ≤ 2 ∧ 2 ≤ 256 := by decide

theorem sumAt_all {idx : List UInt8} {n : Nat} {k : UInt8} {f : Nat → Int} {a : Int} (h : ∀ i, i < n → idx[i]? = some k ∧ f i = a) : sumAt idx n k f = n * a := by
  unfold sumAt
  rw [sum_congr (g := fun _ => a), sum_const]
  intro i hi
  rw [if_pos (h i hi).1, (h i hi).2]

/-- **C217**, further: pixels of one colour get one index, and a picture of one colour keeps it. -/
theorem C217_solid (fl : Fl F) (junk : Nat → UInt8) (data : List UInt8) (n K : Nat) (hd : data.length = 3 * n) (hn : n ≤ 8421504) (hK0 : 1 ≤ K) (hK : K ≤ 256) :
    ∃ new pal m, iQuantizeImage fl junk data n K = .ok (new, pal, m) ∧
      (∀ i j, i < n → j < n → (∀ c, c < 3 → comp data c i = comp data c j) → new[i]? = new[j]?) ∧
      ((∀ i j c, i < n → j < n → c < 3 → comp data c i = comp data c j) →
        ∀ i c, i < n → c < 3 → ∃ k v, new[i]? = some k ∧ pal[3 * k.toNat + (2 - c)]? = some v ∧ (v.toNat : Int) = comp data c i) := by
  obtain ⟨new, pal, m, e, -, h2, h3, h4, h5, h6, h7, -⟩ := quantize_averages (fl := fl) junk hd (by omega) hK0 hK
  have same : ∀ i j, i < n → j < n → (∀ c, c < 3 → comp data c i = comp data c j) → new[i]? = new[j]? := fun i j hi hj h => h7 i j hi hj (fun c hc => by
    have := h c hc
    unfold comp at this
    unfold pl
    omega)
  refine ⟨new, pal, m, e, same, fun h i c hi hc => ?_⟩
  have hk : new[i]? = some new[i] := List.getElem?_eq_getElem (by omega)
  obtain ⟨v, hv, hq⟩ := h6 i _ c hi hk hc
  refine ⟨_, v, hk, hv, ?_⟩
  have hall : ∀ j, j < n → new[j]? = some new[i] := fun j hj => by rw [same j i hj hi (fun c hc => h j i c hj hi hc)]; exact hk
  unfold count at hq
  rw [sumAt_all (a := comp data c i) (fun j hj => ⟨hall j hj, h j i c hj hi hc⟩), sumAt_all (a := 1) (fun j hj => ⟨hall j hj, rfl⟩), Int.mul_one, Int.mul_ediv_cancel_left _ (by omega)] at hq
  exact hq

example : ([10, 20, 30, 10, 20, 30] : List UInt8).length = 3 * 2 ∧ ∀ c, c < 3 → comp [10, 20, 30, 10, 20, 30] c 0 = comp [10, 20, 30, 10, 20, 30] c 1 := by decide

/-- **C218**, partial: reducing the colours of a picture has no fault, and it ends, for up to 8421504 pixels. -/
theorem C218_safe_partial (fl : Fl F) (junk : Nat → UInt8) (data : List UInt8) (n K : Nat) (hd : data.length = 3 * n) (hn : n ≤ 8421504) (hK0 : 1 ≤ K) (hK : K ≤ 256) :
    C.Safe (iQuantizeImage fl junk data n K) := by
  obtain ⟨new, pal, m, e, -⟩ := quantize_averages (fl := fl) junk hd (by omega) hK0 hK
  exact ⟨_, e⟩

/-- **C218** fails: in every white picture of more pixels the sum of a component is more than an `ILint` holds. -/
theorem C218_violated_white (fl : Fl F) (junk : Nat → UInt8) (n K : Nat) (hn : 8421505 ≤ n) : iQuantizeImage fl junk (List.replicate (3 * n) 255) n K = .error .overflow := by
  unfold iQuantizeImage
  rw [Hist3d_white hn, bind_error]

example : ∃ n, 8421505 ≤ n := ⟨8421505, Nat.le_refl _⟩

/-- **C219**, partial: what an index of a pixel refers to is set: `v` is determined by the pixels, not by what was in the memory. -/
theorem C219_used_partial (fl : Fl F) (junk : Nat → UInt8) (data : List UInt8) (n K : Nat) (hd : data.length = 3 * n) (hn : n ≤ 8421504) (hK0 : 1 ≤ K) (hK : K ≤ 256) :
    ∃ new pal m, iQuantizeImage fl junk data n K = .ok (new, pal, m) ∧
      ∀ i k, i < n → new[i]? = some k → ∀ c, c < 3 → ∃ v, pal[3 * k.toNat + (2 - c)]? = some v ∧ (v.toNat : Int) * count new n k ≤ sumAt new n k (comp data c) ∧
        sumAt new n k (comp data c) < ((v.toNat : Int) + 1) * count new n k := by
  obtain ⟨new, pal, m, e, -, h2, h3, h4, h5, h6, -⟩ := quantize_averages (fl := fl) junk hd (by omega) hK0 hK
  refine ⟨new, pal, m, e, fun i k hi hk c hc => ?_⟩
  obtain ⟨v, hv, hq⟩ := h6 i k c hi hk hc
  have hpos : 0 < count new n k := by
    have h01 : ∀ j, j < n → (0 : Int) ≤ if new[j]? = some k then 1 else 0 := fun j _ => by
      by_cases x : new[j]? = some k
      · rw [if_pos x]; decide
      · rw [if_neg x]; decide
    have a := sum_mono (n := i + 1) (m := n) (f := fun j => if new[j]? = some k then (1 : Int) else 0) (by omega) h01
    rw [sum_succ, if_pos hk] at a
    have b := sum_nonneg (n := i) (f := fun j => if new[j]? = some k then (1 : Int) else 0) (fun j hj => h01 j (by omega))
    show 0 < sumTo n (fun j => if new[j]? = some k then (1 : Int) else 0)
    omega
  refine ⟨v, hv, ?_, ?_⟩
  · rw [hq]
    exact Int.ediv_mul_le _ (by omega)
  · rw [hq]
    exact Int.lt_ediv_add_one_mul_self _ hpos

/-- **C219** fails: the palette has 256 entries, and those from `K` on are whatever was in the memory. -/
theorem C219_violated_leftovers (fl : Fl F) (junk : Nat → UInt8) (data : List UInt8) (n K : Nat) (hd : data.length = 3 * n) (hn : n ≤ 8421504) (hK0 : 1 ≤ K) (hK : K ≤ 256) :
    ∃ new pal m, iQuantizeImage fl junk data n K = .ok (new, pal, m) ∧ pal.length = 768 ∧ ∀ j, 3 * K ≤ j → j < 768 → pal[j]? = some (junk j) := by
  obtain ⟨new, pal, m, e, -, h2, h3, h4, h5, h6, h7, h8⟩ := quantize_averages (fl := fl) junk hd (by omega) hK0 hK
  exact ⟨new, pal, m, e, h4, h8⟩

example : 3 * 16 ≤ 700 ∧ 700 < 768 := by decide

end
end DevIL.Wu
