import Verif.Model.Channels
/-! Lemmas on channel swaps and alpha. -/
set_option autoImplicit false
namespace DevIL.Channels

/-- The bytes of component `j`. -/
def Slot (k j i : Nat) : Prop := j * k ≤ i ∧ i < j * k + k

theorem slot_iff {k j i : Nat} (hk : 0 < k) : Slot k j i ↔ i / k = j := by
  unfold Slot
  rw [Nat.div_eq_iff hk]
  constructor
  · rintro ⟨h1, h2⟩; exact ⟨h1, by omega⟩
  · rintro ⟨h1, h2⟩; exact ⟨h1, by omega⟩

theorem slot_idx {k j i : Nat} (h : Slot k j i) : ∃ c, c < k ∧ i = j * k + c :=
  ⟨i - j * k, by have := h.1; have := h.2; omega, by have := h.1; omega⟩

theorem copyComp_upd {k i j : Nat} {src d0 : List UInt8} {v : Nat → Option UInt8} (hs : i * k + k ≤ src.length)
    (hd : j * k + k ≤ d0.length) (hv : ∀ c, c < k → v (j * k + c) = src[i * k + c]?) :
    Upd (copyComp k src i j) d0 (fun _ => False) (Slot k j) v := by
  have h : Upd (fun b => copyComp k src i j b) d0 (fun _ => False) (fun x => ∃ c, c < k ∧ x = j * k + c) v := by
    refine Upd.loopW fun c hc => ?_
    have hlt : i * k + c < src.length := by omega
    refine (Upd.wr (k := j * k + c) (x := src[i * k + c]) (by omega) ?_).congr ?_ (fun _ h => h) (fun _ _ => Iff.rfl)
      (fun _ _ _ => rfl)
    · rw [hv c hc, List.getElem?_eq_getElem hlt]
    · intro d _
      rw [rd_of_lt hlt, bind_ok]
  refine h.congr (fun _ _ => rfl) (fun _ h => h) (fun x _ => ⟨?_, slot_idx⟩) (fun _ _ _ => rfl)
  rintro ⟨c, hc, rfl⟩
  exact ⟨by omega, by omega⟩

theorem putComp_upd {k j : Nat} {word : Nat → UInt8} {d0 : List UInt8} {v : Nat → Option UInt8}
    (hd : j * k + k ≤ d0.length) (hv : ∀ c, c < k → v (j * k + c) = some (word c)) :
    Upd (putComp k word j) d0 (fun _ => False) (Slot k j) v := by
  have h : Upd (fun b => putComp k word j b) d0 (fun _ => False) (fun x => ∃ c, c < k ∧ x = j * k + c) v := by
    refine Upd.loopW fun c hc => ?_
    exact Upd.wr (k := j * k + c) (by omega) (hv c hc)
  refine h.congr (fun _ _ => rfl) (fun _ h => h) (fun x _ => ⟨?_, slot_idx⟩) (fun _ _ _ => rfl)
  rintro ⟨c, hc, rfl⟩
  exact ⟨by omega, by omega⟩

theorem swapOne_upd {a c : Nat} {d0 : List UInt8} {v : Nat → Option UInt8} (ha : a < d0.length) (hc : c < d0.length)
    (hne : a ≠ c) (va : v a = d0[c]?) (vc : v c = d0[a]?) :
    Upd (fun b => rd b a >>= fun x => rd b c >>= fun y => wr b a y >>= fun b => wr b c x) d0
      (fun i => i = a ∨ i = c) (fun i => i = a ∨ i = c) v := by
  intro d hl hu
  have e1 : rd d a = .ok d0[a] := by rw [rd_eq_ok, hu a (.inl rfl), List.getElem?_eq_getElem ha]
  have e2 : rd d c = .ok d0[c] := by rw [rd_eq_ok, hu c (.inr rfl), List.getElem?_eq_getElem hc]
  refine ⟨(d.set a d0[c]).set c d0[a], ?_, by simp [hl], fun i hi => ⟨?_, ?_⟩⟩
  · show (rd d a >>= _) = _
    rw [e1, bind_ok, e2, bind_ok, wr_of_lt (by omega), bind_ok, wr_of_lt (by simp; omega)]
  · rintro (rfl | rfl)
    · rw [List.getElem?_set_ne (fun h => hne h.symm), List.getElem?_set_self (by omega), va,
        List.getElem?_eq_getElem hc]
    · rw [List.getElem?_set_self (by simp; omega), vc, List.getElem?_eq_getElem ha]
  · intro h
    rw [not_or] at h
    rw [List.getElem?_set_ne (fun e => h.2 e.symm), List.getElem?_set_ne (fun e => h.1 e.symm)]

theorem swapComp_upd {k i j : Nat} {d0 : List UInt8} {v : Nat → Option UInt8} (hne : i ≠ j) (hi : i * k + k ≤ d0.length)
    (hj : j * k + k ≤ d0.length) (vi : ∀ c, c < k → v (i * k + c) = d0[j * k + c]?)
    (vj : ∀ c, c < k → v (j * k + c) = d0[i * k + c]?) :
    Upd (swapComp k i j) d0 (fun x => Slot k i x ∨ Slot k j x) (fun x => Slot k i x ∨ Slot k j x) v := by
  have hdis : ∀ c c', c < k → c' < k → i * k + c ≠ j * k + c' := fun c c' hc hc' e => hne (idx_inj hc hc' e).1
  have h : Upd (fun b => swapComp k i j b) d0 (fun x => ∃ c, c < k ∧ (x = i * k + c ∨ x = j * k + c))
      (fun x => ∃ c, c < k ∧ (x = i * k + c ∨ x = j * k + c)) v := by
    refine Upd.loop (fun c hc => ?_) ?_
    · exact swapOne_upd (by omega) (by omega) (hdis c c hc hc) (vi c hc) (vj c hc)
    · rintro a c x hac hc _ (rfl | rfl) (e | e)
      · omega
      · exact hdis c a hc (by omega) e
      · exact hdis a c (by omega) hc e.symm
      · omega
  have hiff : ∀ x, (∃ c, c < k ∧ (x = i * k + c ∨ x = j * k + c)) ↔ (Slot k i x ∨ Slot k j x) := by
    intro x
    constructor
    · rintro ⟨c, hc, rfl | rfl⟩
      · exact .inl ⟨by omega, by omega⟩
      · exact .inr ⟨by omega, by omega⟩
    · rintro (h | h)
      · obtain ⟨c, hc, e⟩ := slot_idx h; exact ⟨c, hc, .inl e⟩
      · obtain ⟨c, hc, e⟩ := slot_idx h; exact ⟨c, hc, .inr e⟩
  exact h.congr (fun _ _ => rfl) (fun x h => (hiff x).mp h) (fun x _ => hiff x) (fun _ _ _ => rfl)

/-- Where byte `i` comes from when components 0 and 2 of every pixel of `n` components of `k` bytes are exchanged. -/
def swapIdx (n k i : Nat) : Nat := if i / k % n = 0 then i + 2 * k else if i / k % n = 2 then i - 2 * k else i

theorem swapIdx_at {n k p c b : Nat} (hc : c < n) (hb : b < k) (_hn : 3 ≤ n) :
    swapIdx n k ((p * n + c) * k + b) = (p * n + (if c = 0 then 2 else if c = 2 then 0 else c)) * k + b := by
  have e1 : ((p * n + c) * k + b) / k = p * n + c := idx_div hb
  have e2 : (p * n + c) % n = c := idx_mod hc
  unfold swapIdx
  rw [e1, e2]
  split
  · rename_i h
    subst h
    rw [Nat.add_zero, Nat.add_mul]; omega
  · split
    · rename_i h h2
      subst h2
      rw [Nat.add_mul, Nat.add_zero]; omega
    · rfl

theorem swapIdx_lt {n k i N : Nat} (hk : 0 < k) (hn : 3 ≤ n) (hi : i < N * n * k) : swapIdx n k i < N * n * k := by
  have h1 : i / k < N * n := (Nat.div_lt_iff_lt_mul hk).mpr hi
  have h2 : i / k / n < N := (Nat.div_lt_iff_lt_mul (by omega)).mpr h1
  have e : i = (i / k / n * n + i / k % n) * k + i % k := by rw [Nat.div_add_mod', Nat.div_add_mod']
  have hm : i / k % n < n := Nat.mod_lt _ (by omega)
  rw [e, swapIdx_at hm (Nat.mod_lt _ hk) hn]
  refine idx_lt (idx_lt h2 ?_) (Nat.mod_lt _ hk)
  split
  · omega
  · split <;> omega

theorem swap_spec {N n k : Nat} {d : List UInt8} (hk : 0 < k) (hn : 3 ≤ n) (hl : N * n * k ≤ d.length) :
    ∃ d', loopN N (fun p b => swapComp k (p * n) (p * n + 2) b) d = .ok d' ∧ d'.length = d.length ∧
      ∀ i, d'[i]? = if i < N * n * k then d[swapIdx n k i]? else d[i]? := by
  have hb : ∀ p c, p < N → c < n → (p * n + c) * k + k ≤ d.length := by
    intro p c hp hc
    have := idx_lt (idx_lt hp hc) (by omega : k - 1 < k)
    omega
  have hu : Upd (fun b => loopN N (fun p b => swapComp k (p * n) (p * n + 2) b) b) d
      (fun x => ∃ p, p < N ∧ (Slot k (p * n) x ∨ Slot k (p * n + 2) x))
      (fun x => ∃ p, p < N ∧ (Slot k (p * n) x ∨ Slot k (p * n + 2) x)) (fun i => d[swapIdx n k i]?) := by
    refine Upd.loop (fun p hp => ?_) ?_
    · refine swapComp_upd (by omega) (hb p 0 hp (by omega)) (hb p 2 hp (by omega)) (fun c hc => ?_) (fun c hc => ?_)
      · have := swapIdx_at (p := p) (n := n) (c := 0) (by omega) hc hn
        rw [Nat.add_zero] at this
        rw [this]; rfl
      · rw [swapIdx_at (by omega) hc hn]; rfl
    · rintro p q x hpq hq _ h1 h2
      rw [slot_iff hk, slot_iff hk] at h1 h2
      have aux : ∀ c c', c < n → c' < n → p * n + c ≠ q * n + c' := fun c c' hc hc' e => by
        have := (idx_inj hc hc' e).1; omega
      have a1 := aux 0 0 (by omega) (by omega)
      have a2 := aux 0 2 (by omega) (by omega)
      have a3 := aux 2 0 (by omega) (by omega)
      omega
  obtain ⟨d', e, l, s⟩ := hu.apply
  refine ⟨d', e, l, fun i => ?_⟩
  by_cases hi : i < d.length
  · by_cases hr : ∃ p, p < N ∧ (Slot k (p * n) i ∨ Slot k (p * n + 2) i)
    · rw [(s i hi).1 hr, if_pos]
      obtain ⟨p, hp, h | h⟩ := hr
      · obtain ⟨c, hc, e⟩ := slot_idx h
        rw [e]
        have := idx_lt (idx_lt hp (by omega : 0 < n)) hc
        rwa [Nat.add_zero] at this
      · obtain ⟨c, hc, e⟩ := slot_idx h
        rw [e]
        exact idx_lt (idx_lt hp (by omega : 2 < n)) hc
    · rw [(s i hi).2 hr]
      split
      · rename_i hlt
        have h1 : i / k < N * n := (Nat.div_lt_iff_lt_mul hk).mpr hlt
        have h2 : i / k / n < N := (Nat.div_lt_iff_lt_mul (by omega)).mpr h1
        have e := Nat.div_add_mod' (i / k) n
        have n0 : ¬ (i / k % n = 0) := fun h0 => hr ⟨_, h2, .inl ((slot_iff hk).mpr (by omega))⟩
        have n2 : ¬ (i / k % n = 2) := fun h0 => hr ⟨_, h2, .inr ((slot_iff hk).mpr (by omega))⟩
        unfold swapIdx
        rw [if_neg n0, if_neg n2]
      · rfl
  · rw [List.getElem?_eq_none (by omega), if_neg (by omega), List.getElem?_eq_none (by omega)]

theorem swapIdx_invol {n k i : Nat} (hk : 0 < k) (hn : 3 ≤ n) : swapIdx n k (swapIdx n k i) = i := by
  have e : i = (i / k / n * n + i / k % n) * k + i % k := by rw [Nat.div_add_mod', Nat.div_add_mod']
  have hm : i / k % n < n := Nat.mod_lt _ (by omega)
  have hb : i % k < k := Nat.mod_lt _ hk
  rw [e, swapIdx_at hm hb hn, swapIdx_at _ hb hn]
  · congr 3
    by_cases h0 : i / k % n = 0
    · simp [h0]
    · by_cases h2 : i / k % n = 2
      · simp [h2]
      · simp [h0, h2]
  · split
    · omega
    · split <;> omega

/-- Where the alpha-adding loop takes byte `i` of the result from. -/
def addVal (k : Nat) (word : Nat → UInt8) (src : List UInt8) (i : Nat) : Option UInt8 :=
  if i / k % 4 = 3 then some (word (i % k)) else src[(i / k / 4 * 3 + i / k % 4) * k + i % k]?

theorem addVal_at {k p c b : Nat} {word : Nat → UInt8} {src : List UInt8} (hc : c < 4) (hb : b < k) :
    addVal k word src ((p * 4 + c) * k + b) = if c = 3 then some (word b) else src[(p * 3 + c) * k + b]? := by
  unfold addVal
  rw [idx_div hb, idx_mod hc, idx_div hc, idx_mod hb]

theorem add_spec {N k : Nat} {word : Nat → UInt8} {src d : List UInt8} (hk : 0 < k) (hs : N * 3 * k ≤ src.length)
    (hd : d.length = N * 4 * k) :
    ∃ d', loopN N (fun p b => do
        let b ← copyComp k src (p * 3) (p * 4) b
        let b ← copyComp k src (p * 3 + 1) (p * 4 + 1) b
        let b ← copyComp k src (p * 3 + 2) (p * 4 + 2) b
        putComp k word (p * 4 + 3) b) d = .ok d' ∧ d'.length = d.length ∧
      ∀ i, i < d.length → d'[i]? = addVal k word src i := by
  have hb : ∀ p c, p < N → c < 4 → (p * 4 + c) * k + k ≤ d.length := by
    intro p c hp hc
    have := idx_lt (idx_lt hp hc) (by omega : k - 1 < k)
    omega
  have hb' : ∀ p c, p < N → c < 3 → (p * 3 + c) * k + k ≤ src.length := by
    intro p c hp hc
    have := idx_lt (idx_lt hp hc) (by omega : k - 1 < k)
    omega
  have hu : Upd (fun b => loopN N (fun p b => do
        let b ← copyComp k src (p * 3) (p * 4) b
        let b ← copyComp k src (p * 3 + 1) (p * 4 + 1) b
        let b ← copyComp k src (p * 3 + 2) (p * 4 + 2) b
        putComp k word (p * 4 + 3) b) b) d (fun _ => False)
      (fun x => ∃ p, p < N ∧ (Slot k (p * 4 + 0) x ∨ Slot k (p * 4 + 1) x ∨ Slot k (p * 4 + 2) x ∨ Slot k (p * 4 + 3) x))
      (addVal k word src) := by
    refine Upd.loopW fun p hp => ?_
    have u0 := copyComp_upd (v := addVal k word src) (hb' p 0 hp (by omega)) (hb p 0 hp (by omega))
      (fun c hc => addVal_at (by omega) hc)
    have u1 := copyComp_upd (v := addVal k word src) (hb' p 1 hp (by omega)) (hb p 1 hp (by omega))
      (fun c hc => addVal_at (by omega) hc)
    have u2 := copyComp_upd (v := addVal k word src) (hb' p 2 hp (by omega)) (hb p 2 hp (by omega))
      (fun c hc => addVal_at (by omega) hc)
    have u3 := putComp_upd (v := addVal k word src) (word := word) (hb p 3 hp (by omega))
      (fun c hc => addVal_at (by omega) hc)
    exact (u0.seq (u1.seq (u2.seq u3 (fun _ _ h => h.elim)) (fun _ _ h => by simp at h)) (fun _ _ h => by simp at h)).congr
      (fun _ _ => rfl) (fun _ h => by simp at h) (fun _ _ => Iff.rfl) (fun _ _ _ => rfl)
  obtain ⟨d', e, l, s⟩ := hu.apply
  refine ⟨d', e, l, fun i hi => (s i hi).1 ?_⟩
  have h1 : i / k < N * 4 := (Nat.div_lt_iff_lt_mul hk).mpr (by omega)
  have e := Nat.div_add_mod' (i / k) 4
  refine ⟨i / k / 4, by omega, ?_⟩
  simp only [slot_iff hk]
  omega

/-- Where the alpha-removing loop takes byte `i` of the result from. -/
def remIdx (k i : Nat) : Nat := (i / k / 3 * 4 + i / k % 3) * k + i % k

theorem remIdx_at {k p c b : Nat} (hc : c < 3) (hb : b < k) : remIdx k ((p * 3 + c) * k + b) = (p * 4 + c) * k + b := by
  unfold remIdx
  rw [idx_div hb, idx_mod hc, idx_div hc, idx_mod hb]

theorem rem_spec {N k : Nat} {src d : List UInt8} (hk : 0 < k) (hs : N * 4 * k ≤ src.length)
    (hd : d.length = N * 3 * k) :
    ∃ d', loopN N (fun p b => do
        let b ← copyComp k src (p * 4) (p * 3) b
        let b ← copyComp k src (p * 4 + 1) (p * 3 + 1) b
        copyComp k src (p * 4 + 2) (p * 3 + 2) b) d = .ok d' ∧ d'.length = d.length ∧
      ∀ i, i < d.length → d'[i]? = src[remIdx k i]? := by
  have hb : ∀ p c, p < N → c < 3 → (p * 3 + c) * k + k ≤ d.length := by
    intro p c hp hc
    have := idx_lt (idx_lt hp hc) (by omega : k - 1 < k)
    omega
  have hb' : ∀ p c, p < N → c < 3 → (p * 4 + c) * k + k ≤ src.length := by
    intro p c hp hc
    have := idx_lt (idx_lt hp (by omega : c < 4)) (by omega : k - 1 < k)
    omega
  have hu : Upd (fun b => loopN N (fun p b => do
        let b ← copyComp k src (p * 4) (p * 3) b
        let b ← copyComp k src (p * 4 + 1) (p * 3 + 1) b
        copyComp k src (p * 4 + 2) (p * 3 + 2) b) b) d (fun _ => False)
      (fun x => ∃ p, p < N ∧ (Slot k (p * 3 + 0) x ∨ Slot k (p * 3 + 1) x ∨ Slot k (p * 3 + 2) x))
      (fun i => src[remIdx k i]?) := by
    refine Upd.loopW fun p hp => ?_
    have hv : ∀ q, q < 3 → ∀ c, c < k → (fun i => src[remIdx k i]?) ((p * 3 + q) * k + c) = src[(p * 4 + q) * k + c]? := by
      intro q hq c hc
      show src[remIdx k _]? = _
      rw [remIdx_at hq hc]
    have u0 := copyComp_upd (v := fun i => src[remIdx k i]?) (hb' p 0 hp (by omega)) (hb p 0 hp (by omega)) (hv 0 (by omega))
    have u1 := copyComp_upd (v := fun i => src[remIdx k i]?) (hb' p 1 hp (by omega)) (hb p 1 hp (by omega)) (hv 1 (by omega))
    have u2 := copyComp_upd (v := fun i => src[remIdx k i]?) (hb' p 2 hp (by omega)) (hb p 2 hp (by omega)) (hv 2 (by omega))
    exact (u0.seq (u1.seq u2 (fun _ _ h => h.elim)) (fun _ _ h => by simp at h)).congr
      (fun _ _ => rfl) (fun _ h => by simp at h) (fun _ _ => Iff.rfl) (fun _ _ _ => rfl)
  obtain ⟨d', e, l, s⟩ := hu.apply
  refine ⟨d', e, l, fun i hi => (s i hi).1 ?_⟩
  have h1 : i / k < N * 3 := (Nat.div_lt_iff_lt_mul hk).mpr (by omega)
  have e := Nat.div_add_mod' (i / k) 3
  refine ⟨i / k / 3, by omega, ?_⟩
  simp only [slot_iff hk]
  omega

end DevIL.Channels
