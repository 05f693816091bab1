import Verif.Lemmas.PsdB
set_option autoImplicit false
namespace DevIL.Psd
open DevIL.Games DevIL.Detect DevIL.Image DevIL.DetectSpec DevIL.DpxSpec DevIL.PsdSpec DevIL.Dpx

variable {σ : Type} {o : Ops σ} {At : σ → List UInt8 → Nat → Prop}

theorem copied_length (a b : List UInt8) : (copied a b).length = b.length := by unfold copied; simp

/-- What stands in the data after the channels `0 … c - 1` of `planes` have been stored: component `q` of pixel `p` is that of `planes q`.  The others are
as they were in `d0`. -/
structure Stored (k bpp n c : Nat) (planes : Nat → List UInt8) (d0 d : List UInt8) : Prop where
  len : d.length = n * bpp * k
  comps : ∀ i, i < n * bpp → i % bpp < c → comp k d i = (comp k (planes (i % bpp)) (i / bpp)).reverse
  keep : ∀ i, i < n * bpp → c ≤ i % bpp → comp k d i = comp k d0 i

theorem stored_step {k rows w bpp c : Nat} {planes : Nat → List UInt8} {ch d0 d : List UInt8} (hk : 0 < k) (hw : 0 < w) (hc : c < bpp)
    (hfit : rows * (w * bpp) < 4294967296) (hch : rows * w * k ≤ ch.length) (hst : Stored k bpp (rows * w) c planes d0 d)
    (he : ∀ i, i < rows * w → comp k ch i = comp k (planes c) i) :
    Holds (spread k rows (w * bpp) bpp c copied ch d) (fun d' => Stored k bpp (rows * w) (c + 1) planes d0 d') := by
  refine (spread_spec copied ch d hk hw hc hfit hch hst.len (fun a b _ hb => by rw [copied_length]; exact hb)).mono (fun d' hd => ⟨by rw [hd.1, hst.len], fun i hi hlt => ?_, fun i hi hge => ?_⟩)
  · rw [hd.2 i hi]
    split
    · rename_i h
      have : i / bpp < rows * w := Nat.div_lt_of_lt_mul (by rw [Nat.mul_comm]; exact hi)
      rw [h, ← he _ this]
      rfl
    · exact hst.comps i hi (by omega)
  · rw [hd.2 i hi, if_neg (by omega)]
    exact hst.keep i hi (by omega)

/-- Channels that are not compressed. -/
theorem raw_loop (L : Laws2 o At) {bs : List UInt8} {P k rows w bpp : Nat} (m : Nat) (hm : m ≤ bpp) (hk : 0 < k) (hw : 0 < w) (hr : 0 < rows)
    (hfit : rows * (w * bpp) * k < 4294967296) (t : Chan σ) (hat : At t.inp bs P) (hok : t.ok = true) (hP : P ≤ bs.length)
    (hd : t.data.length = rows * w * bpp * k) (hch : t.ch.length = rows * w * k) :
    Holds (loopN m (fun c t => rawChan o k (rows * w * k) rows (w * bpp) bpp c copied t) t) (fun r =>
      (r.ok = true ↔ P + m * (rows * w * k) ≤ bs.length) ∧ (∃ q, At r.inp bs q) ∧ r.data.length = rows * w * bpp * k ∧ r.ch.length = rows * w * k ∧
      (r.ok = true → At r.inp bs (P + m * (rows * w * k)) ∧ Stored k bpp (rows * w) m (fun c => at_ bs (P + c * (rows * w * k)) (rows * w * k)) t.data r.data)) := by
  generalize hn : rows * w * k = n at *
  have hn0 : 0 < n := by rw [← hn]; exact Nat.mul_pos (Nat.mul_pos hr hw) hk
  refine Holds.loop (fun c (r : Chan σ) => (r.ok = true ↔ P + c * n ≤ bs.length) ∧ (∃ q, At r.inp bs q) ∧ r.data.length = rows * w * bpp * k ∧ r.ch.length = n ∧
      (r.ok = true → At r.inp bs (P + c * n) ∧ Stored k bpp (rows * w) c (fun c => at_ bs (P + c * n) n) t.data r.data))
    ⟨by simp [hok, hP], ⟨_, hat⟩, hd, hch, fun _ => ⟨by simpa using hat, hd, fun i _ h => absurd h (by omega), fun _ _ _ => rfl⟩⟩ (fun c r hc hr => ?_)
  obtain ⟨h1, ⟨q, hq⟩, h3, h4, h5⟩ := hr
  have hsucc : (c + 1) * n = c * n + n := Nat.succ_mul c n
  unfold rawChan
  by_cases hrk : r.ok = true
  · simp only [hrk, Bool.not_true, Bool.false_eq_true, if_false]
    obtain ⟨h6, h7⟩ := h5 hrk
    have hb0 : 0 < bpp := by omega
    have e1 : rows * (w * bpp) * k = n * bpp := by rw [← hn]; simp only [Nat.mul_comm, Nat.mul_left_comm, Nat.mul_assoc]
    have hnb : n ≤ n * bpp := Nat.le_mul_of_pos_right n hb0
    have hfit2 : rows * (w * bpp) < 4294967296 := by
      have := Nat.le_mul_of_pos_right (rows * (w * bpp)) hk
      omega
    refine (into_spec L r.ch n 1 h6 hn0 (by omega) (by omega)).bind (fun t ht => ?_)
    obtain ⟨g1, g2, g3⟩ := ht
    rw [Nat.mul_one] at g1 g2 g3
    have hl : (at_ bs (P + c * n) n).length = min n (bs.length - (P + c * n)) := at_length _ _ _
    have hcl : t.2.1.length = n := by rw [g2, List.length_append, List.length_drop, h4]; omega
    refine Holds.ite (fun hne => Holds.pure ?_) (fun he => ?_)
    · have : ¬ (P + (c + 1) * n ≤ bs.length) := by
        intro hle
        apply hne
        rw [g1, hl, Nat.min_eq_left (by omega), Nat.div_self hn0]
      exact ⟨⟨fun h => (by cases h), fun h => absurd h this⟩, ⟨_, g3⟩, h3, hcl, fun h => (by cases h)⟩
    · have hfull : P + c * n + n ≤ bs.length := by
        rcases Nat.lt_or_ge (bs.length - (P + c * n)) n with hlt | hge
        · rw [g1, hl, Nat.min_eq_right (by omega), Nat.div_eq_of_lt hlt] at he
          exact absurd he (by decide)
        · omega
      have hfl : (at_ bs (P + c * n) n).length = n := by rw [hl]; omega
      rw [hfl, List.drop_of_length_le (by omega), List.append_nil] at g2
      refine (stored_step (planes := fun c => at_ bs (P + c * n) n) (ch := t.2.1) hk hw (by omega) hfit2 (by omega) h7 (fun i _ => by rw [g2])).bind (fun d' hd' => Holds.pure ?_)
      rw [hfl] at g3
      refine ⟨⟨fun _ => by omega, fun _ => rfl⟩, ⟨_, g3⟩, hd'.len, hcl, fun _ => ⟨?_, hd'⟩⟩
      rw [hsucc, ← Nat.add_assoc]
      exact g3
  · have hf : r.ok = false := by simpa using hrk
    simp only [hf, Bool.not_false, if_true]
    refine Holds.pure ⟨⟨fun h => absurd h hrk, fun h => absurd (h1.mpr (by omega)) hrk⟩, ⟨q, hq⟩, h3, h4, fun h => absurd h hrk⟩

/-- What is stored, byte by byte. -/
theorem stored_px {k bpp w h : Nat} {planes : Nat → List UInt8} {d0 d : List UInt8} (hk : 0 < k) (hw : 0 < w) (hb : 0 < bpp)
    (hst : Stored k bpp (h * w) bpp planes d0 d) (hpl : ∀ c, c < bpp → (planes c).length = h * w * k) (x y i : Nat) (hx : x < w) (hy : y < h) (hi : i < bpp * k) :
    d[(y * w + x) * (bpp * k) + i]? = (planes (i / k))[(y * w + x) * k + (k - 1 - i % k)]? := by
  have hp : y * w + x < h * w := by
    have : y * w + w ≤ h * w := by rw [← Nat.succ_mul]; exact Nat.mul_le_mul_right w hy
    omega
  generalize y * w + x = p at *
  have hc : i / k < bpp := Nat.div_lt_of_lt_mul (by rw [Nat.mul_comm]; exact hi)
  have hmk : i % k < k := Nat.mod_lt _ hk
  have hidx : p * bpp + i / k < h * w * bpp := by
    have : p * bpp + bpp ≤ h * w * bpp := by rw [← Nat.succ_mul]; exact Nat.mul_le_mul_right bpp hp
    omega
  have hm : (p * bpp + i / k) % bpp = i / k := by rw [Nat.mul_comm, Nat.mul_add_mod, Nat.mod_eq_of_lt hc]
  have hq : (p * bpp + i / k) / bpp = p := by rw [Nat.mul_comm, Nat.mul_add_div hb, Nat.div_eq_of_lt hc, Nat.add_zero]
  have := hst.comps _ hidx (by rw [hm]; exact hc)
  rw [hm, hq] at this
  have hpk : p * k + k ≤ h * w * k := by rw [← Nat.succ_mul]; exact Nat.mul_le_mul_right k hp
  have e := congrArg (fun l => l[i % k]?) this
  have hcl : (comp k (planes (i / k)) p).length = k := comp_length (by rw [hpl _ hc]; exact hpk)
  rw [List.getElem?_reverse (by rw [hcl]; exact hmk), hcl] at e
  have e1 : (comp k d (p * bpp + i / k))[i % k]? = d[(p * bpp + i / k) * k + i % k]? := get_at _ _ _ _ hmk
  have e2 : (comp k (planes (i / k)) p)[k - 1 - i % k]? = (planes (i / k))[p * k + (k - 1 - i % k)]? := get_at _ _ _ _ (by omega)
  rw [e1, e2] at e
  rw [← e]
  congr 1
  have := Nat.div_add_mod i k
  rw [Nat.add_mul, Nat.mul_assoc, Nat.add_assoc, Nat.mul_comm (i / k) k, this]

end DevIL.Psd
