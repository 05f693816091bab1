import Verif.Lemmas.Dpx
set_option autoImplicit false
namespace DevIL.Dpx
open DevIL.Games DevIL.Detect DevIL.Image DevIL.DetectSpec DevIL.DpxSpec
open DevIL.Lump (SEEK_SET)

variable {σ : Type} {o : Ops σ} {At : σ → List UInt8 → Nat → Prop}

/-! ### The header -/

theorem read1 (L : Laws2 o At) {s : σ} {bs : List UInt8} {p : Nat} (n : Nat) (h : At s bs p) (hn : 0 < n) (hlt : n < 4294967296) (hfit : p + n ≤ bs.length) :
    Holds (o.read s n 1) (fun r => r.2.1 = 1 ∧ At r.2.2 bs (p + n)) := by
  refine (L.read n 1 h hn (by omega)).mono (fun r hr => ?_)
  have hl : r.1.length = n := by rw [hr.1, at_length]; omega
  exact ⟨by rw [hr.2.1, hl, Nat.div_self hn], by rw [← hl]; exact hr.2.2⟩

theorem header_spec (L : Laws2 o At) (junk : Nat → UInt8) {s : σ} {bs : List UInt8} (hs : At s bs 0) (hl : 1664 ≤ bs.length) :
    Holds (getHeader o junk s) (fun r => r.1 = some ⟨beAt bs 772 4, beAt bs 776 4, beAt bs 800 1, beAt bs 803 1, beAt bs 804 2, beAt bs 808 4⟩ ∧
      At r.2 bs 1664) := by
  unfold getHeader
  refine (head_spec L.toLaws junk bs fileA s 0 hs (by decide)).bind (fun r hr => ?_)
  have h1 : At r.2 bs 460 := hr.2.1 (by show 0 + 460 ≤ _; omega)
  refine (read1 L 200 h1 (by decide) (by decide) (by omega)).bind (fun r hr => ?_)
  obtain ⟨h2, h3⟩ := hr
  refine Holds.ite (fun h => absurd h2 h) (fun _ => ?_)
  refine (head_spec L.toLaws junk bs middle _ _ h3 (by decide +kernel)).bind (fun r hr => ?_)
  obtain ⟨-, h4, hf⟩ := hr
  have em : start middle middle.length = 928 := by decide +kernel
  rw [em] at h4
  have h4 : At r.2 bs 1588 := h4 (by omega)
  refine (read1 L 32 h4 (by decide) (by decide) (by omega)).bind (fun r' hr => ?_)
  obtain ⟨h5, h6⟩ := hr
  refine Holds.ite (fun h => absurd h5 h) (fun _ => ?_)
  refine (head_spec L.toLaws junk bs last _ _ h6 (by decide)).bind (fun r'' hr => ?_)
  have h7 : At r''.2 bs 1664 := hr.2.1 (by show 1588 + 32 + 44 ≤ _; omega)
  refine Holds.pure ⟨?_, h7⟩
  have e : ∀ i n f, middle[i]? = some f → start middle i = n → 660 + n + f.width ≤ bs.length → fbe r.1 i = be (f.bytes bs (660 + n)) := by
    intro i n f a b c
    show be (fld r.1 i) = _
    rw [hf i f a (by rw [b]; exact c), b]
  have c4 : fbe r.1 4 = beAt bs 772 4 := e 4 112 u32f rfl (by decide +kernel) (by show 660 + 112 + 4 ≤ _; omega)
  have c5 : fbe r.1 5 = beAt bs 776 4 := e 5 116 u32f rfl (by decide +kernel) (by show 660 + 116 + 4 ≤ _; omega)
  have c11 : fbe r.1 11 = beAt bs 800 1 := e 11 140 .getc rfl (by decide +kernel) (by show 660 + 140 + 1 ≤ _; omega)
  have c14 : fbe r.1 14 = beAt bs 803 1 := e 14 143 .getc rfl (by decide +kernel) (by show 660 + 143 + 1 ≤ _; omega)
  have c15 : fbe r.1 15 = beAt bs 804 2 := e 15 144 u16 rfl (by decide +kernel) (by show 660 + 144 + 2 ≤ _; omega)
  have c17 : fbe r.1 17 = beAt bs 808 4 := e 17 148 u32f rfl (by decide +kernel) (by show 660 + 148 + 4 ≤ _; omega)
  rw [c4, c5, c11, c14, c15, c17]

theorem be_one {bs : List UInt8} {p : Nat} {b : UInt8} (h : bs[p]? = some b) : beAt bs p 1 = b.toNat := by
  obtain ⟨hp, e⟩ := List.getElem?_eq_some_iff.mp h
  unfold beAt
  rw [at_one hp, e]
  rfl

theorem kind_of {bs : List UInt8} {k f : Nat} (h : (bs[800]?).bind dpxKind = some (k, f)) :
    kind (beAt bs 800 1) = some (f, k) ∧ ((k = 1 ∧ f = IL_LUMINANCE) ∨ (k = 3 ∧ f = IL_RGB) ∨ (k = 4 ∧ f = IL_RGBA)) := by
  cases e : bs[800]? with
  | none => rw [e] at h; cases h
  | some b =>
    rw [e, Option.bind_some] at h
    rw [be_one e]
    unfold dpxKind at h
    unfold kind
    split at h
    · rename_i hb; subst hb; cases h
      exact ⟨rfl, .inl ⟨rfl, rfl⟩⟩
    · split at h
      · rename_i hb; subst hb; cases h
        exact ⟨rfl, .inr (.inl ⟨rfl, rfl⟩)⟩
      · split at h
        · rename_i hb; subst hb; cases h
          exact ⟨rfl, .inr (.inr ⟨rfl, rfl⟩)⟩
        · cases h

theorem toInt_of {bs : List UInt8} {n : Nat} (h : n ≤ bs.length) (hl : bs.length < 2147483648) : Lump.toInt n = n := by
  unfold Lump.toInt; rw [if_pos (by omega)]

/-! ### Whole bytes -/

/-- The picture of a file with whole bytes for each component: as if each took one. -/
theorem bytes_spec (L : Laws2 o At) (junk : Nat → UInt8) (cur : Loaded) {s : σ} {bs : List UInt8} (hs : At s bs 0) {k f : Nat} {bits : UInt8}
    (hh : DpxHead bs k f bits) (hb : bits = 8 ∨ bits = 16 ∨ bits = 32) (hfit : dpxWidth bs * dpxHeight bs * k < 4294967296) :
    Holds (iLoadDpxInternal o junk cur s) (fun r => (∃ q, At r.2.2 bs q) ∧
      (r.1 = true ↔ dpxData bs + dpxWidth bs * dpxHeight bs * k ≤ bs.length) ∧
      (r.1 = true → r.2.1.2 = none ∧ Shows3 r.2.1.1 (dpxWidth bs) (dpxHeight bs) 1 k 1 f IL_UNSIGNED_BYTE
        (fun x y _ c => bs[dpxData bs + (y * dpxWidth bs + x) * k + c]?))) := by
  obtain ⟨hlong, hkind, hbits, hw, hht, hin⟩ := hh
  obtain ⟨hkd, hk3⟩ := kind_of hkind
  have hl := L.len hs
  have hk0 : 0 < k := by omega
  unfold iLoadDpxInternal
  refine (header_spec L junk hs hlong).bind (fun r hr => ?_)
  obtain ⟨h, t⟩ := r
  obtain ⟨e, ht⟩ := hr
  simp only [] at e ht
  subst e
  show Holds (picture o junk cur _ t) _
  unfold picture
  simp only []
  rw [hkd]
  change 0 < beAt bs 772 4 at hw
  change 0 < beAt bs 776 4 at hht
  change beAt bs 808 4 ≤ bs.length at hin
  unfold dpxWidth dpxHeight dpxData at *
  generalize beAt bs 772 4 = w at *
  generalize beAt bs 776 4 = ht' at *
  generalize hoff : beAt bs 808 4 = off at *
  rw [toInt_of hin hl]
  refine (L.seekAbs off ht hin).bind (fun r hr => ?_)
  simp only []
  rw [if_pos (by rw [be_one hbits]; rcases hb with rfl | rfl | rfl <;> decide)]
  have hf1 : w * ht' * 1 * (k * 1) < 4294967296 := by simpa using hfit
  obtain ⟨-, -, -, -, -, -, -, g8, g9⟩ := geo_size w ht' 1 k f IL_UNSIGNED_BYTE 1 hw hht (by decide) hk0 (by decide) (by decide) hf1
  have hsz : (geometry w ht' 1 k f IL_UNSIGNED_BYTE []).size = w * ht' * k := by rw [g8, g9]; simp
  have hpos : 0 < w * ht' * k := Nat.mul_pos (Nat.mul_pos hw hht) hk0
  have hdl : (texOf junk w ht' k f IL_UNSIGNED_BYTE).data.length = w * ht' * k := by
    show (alloc junk (geometry w ht' 1 k f IL_UNSIGNED_BYTE []).size).length = _
    rw [alloc_length, hsz]
  have hsz' : (texOf junk w ht' k f IL_UNSIGNED_BYTE).size = w * ht' * k := hsz
  refine (into_spec L _ _ 1 hr (by rw [hsz']; exact hpos) (by rw [hsz']; omega) (by rw [hsz']; omega)).bind (fun r hr => ?_)
  obtain ⟨n, d, u⟩ := r
  obtain ⟨e1, e2, e3⟩ := hr
  simp only [Nat.mul_one, hsz'] at e1 e2 e3
  refine Holds.pure ⟨⟨_, e3⟩, ?_, ?_⟩
  · show decide (n = 1) = true ↔ _
    rw [decide_eq_true_iff, e1, at_length]
    rcases Nat.lt_or_ge (bs.length - off) (w * ht' * k) with hc | hc
    · rw [Nat.min_eq_right (by omega), Nat.div_eq_of_lt hc]
      exact ⟨fun h => absurd h (by decide), fun h => by omega⟩
    · rw [Nat.min_eq_left (by omega), Nat.div_self hpos]
      exact ⟨fun _ => by omega, fun _ => rfl⟩
  · intro hn
    have hn : n = 1 := of_decide_eq_true hn
    have hc : w * ht' * k ≤ bs.length - off := by
      rw [e1, at_length] at hn
      rcases Nat.lt_or_ge (bs.length - off) (w * ht' * k) with hc | hc
      · rw [Nat.min_eq_right (by omega), Nat.div_eq_of_lt hc] at hn
        exact absurd hn (by decide)
      · exact hc
    have hd : d = at_ bs off (w * ht' * k) := by
      rw [e2, List.drop_of_length_le (by rw [hdl, at_length]; omega), List.append_nil]
    refine ⟨rfl, geo_shows w ht' 1 k f f IL_UNSIGNED_BYTE 1 hw hht (by decide) hk0 (by decide) (by decide) hf1 d
      (by rw [hd, at_length, Nat.mul_one, Nat.mul_one]; omega) _ (fun x y z c hx hy hz hcc => ?_)⟩
    rw [Nat.mul_one] at hcc ⊢
    have hz0 : z = 0 := by omega
    subst hz0
    rw [Nat.zero_mul, Nat.zero_add, hd, get_at, ← Nat.add_assoc]
    have q2 : y * w + x < ht' * w := by
      have : y * w + w ≤ ht' * w := by rw [← Nat.succ_mul]; exact Nat.mul_le_mul_right w hy
      omega
    have : (y * w + x) * k + k ≤ (ht' * w) * k := by rw [← Nat.succ_mul]; exact Nat.mul_le_mul_right _ q2
    rw [Nat.mul_comm w ht']
    omega

end DevIL.Dpx
