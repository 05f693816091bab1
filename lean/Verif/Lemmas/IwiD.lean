import Verif.Lemmas.Iwi
import Verif.Lemmas.DetectK
import Verif.Lemmas.DxtSave
/-! IWI files: pixels of four bits per component, and safety. -/
set_option autoImplicit false
namespace DevIL.Iwi

open DevIL.Detect DevIL.DetectSpec DevIL.DdsSpec DevIL.IwiSpec DevIL.Image DevIL.Games DevIL.GamesSpec
open DevIL.Dds (texN halve side_pos side_zero halve_side side_le texN_fields texN_eq)

variable {σ : Type} {o : Ops σ} {At : σ → List UInt8 → Nat → Prop}

/-- What a component becomes: half of a byte, times 16. -/
def half (v : UInt8) (c : Nat) : UInt8 := if c % 2 = 0 then v &&& 0xF0 else (v &&& 0x0F) <<< 4

theorem set_ne {l : List UInt8} {i j : Nat} (v : UInt8) (h : i ≠ j) : (l.set i v)[j]? = l[j]? := List.getElem?_set_ne h

theorem set_eq {l : List UInt8} {i : Nat} (v : UInt8) (h : i < l.length) : (l.set i v)[i]? = some v := by rw [List.getElem?_set_self h]

/-- Four components are taken from two bytes. -/
theorem nibbles_spec {n : Nat} {c d : List UInt8} (hc : 2 * n ≤ c.length) (hd : 4 * n ≤ d.length) :
    Holds (nibbles (4 * n) c d) (fun r => r.length = d.length ∧ ∀ j, j < 4 * n → r[j]? = (c[j / 2]?).map (fun v => half v j)) := by
  unfold nibbles
  rw [DevIL.DxtSave.for4, show (4 * n + 3) / 4 = n by omega]
  refine Holds.loop (fun k (r : List UInt8) => r.length = d.length ∧ ∀ j, j < 4 * k → r[j]? = (c[j / 2]?).map (fun v => half v j)) ⟨rfl, fun j h => by omega⟩ (fun k t hk ht => ?_)
  obtain ⟨h1, h2⟩ := ht
  have l0 : 4 * k / 2 < c.length := by omega
  have l1 : 4 * k / 2 + 1 < c.length := by omega
  rw [rd_of_lt l0, bind_ok, rd_of_lt l1, bind_ok, wr_of_lt (by omega), bind_ok, wr_of_lt (by rw [List.length_set]; omega), bind_ok,
    wr_of_lt (by rw [List.length_set, List.length_set]; omega), bind_ok, wr_of_lt (by rw [List.length_set, List.length_set, List.length_set]; omega)]
  refine Holds.pure ⟨by simp [h1], fun j hj => ?_⟩
  rcases Nat.lt_or_ge j (4 * k) with hlt | hge
  · rw [set_ne _ (by omega), set_ne _ (by omega), set_ne _ (by omega), set_ne _ (by omega)]
    exact h2 j hlt
  · obtain rfl | rfl | rfl | rfl : j = 4 * k ∨ j = 4 * k + 1 ∨ j = 4 * k + 2 ∨ j = 4 * k + 3 := by omega
    · rw [set_ne _ (by omega), set_ne _ (by omega), set_ne _ (by omega), set_eq _ (by omega), List.getElem?_eq_getElem l0]
      show _ = some (half _ _)
      unfold half
      rw [if_pos (by omega)]
    · rw [set_ne _ (by omega), set_ne _ (by omega), set_eq _ (by simp; omega), show (4 * k + 1) / 2 = 4 * k / 2 by omega, List.getElem?_eq_getElem l0]
      show _ = some (half _ _)
      unfold half
      rw [if_neg (by omega)]
    · rw [set_ne _ (by omega), set_eq _ (by simp; omega), show (4 * k + 2) / 2 = 4 * k / 2 + 1 by omega, List.getElem?_eq_getElem l1]
      show _ = some (half _ _)
      unfold half
      rw [if_pos (by omega)]
    · rw [set_eq _ (by simp; omega), show (4 * k + 3) / 2 = 4 * k / 2 + 1 by omega, List.getElem?_eq_getElem l1]
      show _ = some (half _ _)
      unfold half
      rw [if_neg (by omega)]

/-- A level with four bits per component. -/
theorem reads_half (L : Laws2 o At) (junk : Nat → UInt8) {bs : List UInt8} {w h : Nat} (hw : 0 < w) (hh : 0 < h) (hfit : w * h * 4 < 2147483648) (i : Nat) :
    Reads o At junk bs 3 (blank junk 3 w h i) (plainBytes 2 w h i) (fun p m => Shows m (side w i) (side h i) 4 IL_BGRA
      (fun x y c => (bs[p + ((y * side w i + x) * 2 + c / 2)]?).map (fun v => half v c))) := by
  have hle : side w i * side h i * 4 ≤ w * h * 4 := Nat.mul_le_mul_right _ (Nat.mul_le_mul (side_le hw i) (side_le hh i))
  have p1 := side_pos w i
  have p2 := side_pos h i
  unfold blank plainBytes
  show Reads o At junk bs 3 (texN junk (side w i) (side h i) 1 4 IL_BGRA IL_UNSIGNED_BYTE) _ _
  generalize side w i = a at *
  generalize side h i = b at *
  intro s p hs hpl
  obtain ⟨f1, f2, -, -, f5, f6⟩ := texN_fields junk a b 4 IL_BGRA p1 p2 (by decide) (by omega)
  have e : readLevel o junk 3 (texN junk a b 1 4 IL_BGRA IL_UNSIGNED_BYTE) s = (do
      let (n, c, s) ← into o s (alloc junk (a * b * 2)) 1 (a * b * 2)
      if n ≠ a * b * 2 then pure (false, alloc junk (a * b * 4), s)
      else do
        let d ← nibbles (4 * (a * b)) c (alloc junk (a * b * 4))
        pure (true, d, s)) := by
    unfold readLevel
    rw [if_neg (by decide), f1, f2, f5, f6, u32_of_lt (show a * b * 2 < 4294967296 by omega)]
    have : upTo (a * b * 4) = 4 * (a * b) := by unfold upTo; rw [if_pos (by omega), Nat.mul_comm]
    rw [this]
    rfl
  rw [e]
  refine (into_spec L (alloc junk (a * b * 2)) 1 (a * b * 2) hs (by decide) (by omega) (by rw [alloc_length, Nat.one_mul])).bind (fun r hr => ?_)
  obtain ⟨n, c, t⟩ := r
  obtain ⟨r1, r2, r3⟩ := hr
  simp only at r1 r2 r3 ⊢
  rw [Nat.one_mul, Nat.div_one] at r1
  rw [Nat.one_mul] at r2 r3
  by_cases hfit' : p + a * b * 2 ≤ bs.length
  · have hlen : (at_ bs p (a * b * 2)).length = a * b * 2 := by rw [at_length]; omega
    rw [hlen] at r1 r2 r3
    rw [List.drop_of_length_le (by rw [alloc_length]), List.append_nil] at r2
    subst r1 r2
    rw [if_neg (by simp)]
    refine (nibbles_spec (n := a * b) (by omega) (by rw [alloc_length]; omega)).bind (fun d hd => ?_)
    obtain ⟨d1, d2⟩ := hd
    rw [alloc_length] at d1
    refine Holds.pure ⟨fun _ => ⟨rfl, ?_, r3⟩, fun h => by omega, _, r3⟩
    show Shows { texN junk a b 1 4 IL_BGRA IL_UNSIGNED_BYTE with data := d } _ _ _ _ _
    rw [texN_eq]
    refine shows_tex junk a b 4 IL_BGRA p1 p2 (by decide) (by omega) _ d1 _ (fun x y c hx hy hc => ?_)
    have := pix_lt hx hy hc
    rw [d2 _ (by omega), show ((y * a + x) * 4 + c) / 2 = (y * a + x) * 2 + c / 2 by omega, at_get _ _ _ _ (by omega)]
    refine congrArg (fun f => Option.map f _) (funext fun v => ?_)
    unfold half
    rw [show ((y * a + x) * 4 + c) % 2 = c % 2 by omega]
  · have hlen : (at_ bs p (a * b * 2)).length < a * b * 2 := by rw [at_length]; omega
    rw [if_pos (by omega)]
    exact Holds.pure ⟨fun h => absurd h hfit', fun _ => rfl, _, r3⟩

/-! ### Safety -/

theorem mod4 (n : Nat) : u32 (4 * n) = 4 * (n % 1073741824) := by unfold u32; omega

theorem texN_size4 (junk : Nat → UInt8) (a b f : Nat) (ha : 0 < a) (hb : 0 < b) :
    (texN junk a b 1 4 f IL_UNSIGNED_BYTE).size = u32 (4 * (a * b)) := by
  show u32 (u32 (u32 (u32 (atLeast1 a * 4) * 1) * atLeast1 b) * atLeast1 1) = _
  have h1 : atLeast1 a = a := by unfold atLeast1; rw [if_neg (by omega)]
  have h2 : atLeast1 b = b := by unfold atLeast1; rw [if_neg (by omega)]
  rw [h1, h2, show atLeast1 1 = 1 from rfl, Nat.mul_one, Nat.mul_one]
  unfold u32
  rw [Nat.mod_mod, Nat.mod_mod, Nat.mod_mul_mod, show a * 4 * b = 4 * (a * b) by rw [Nat.mul_comm a 4, Nat.mul_assoc]]

/-- Reading a level without compression is safe. -/
theorem readLevel_safe (L : Laws2 o At) (junk : Nat → UInt8) {bs : List UInt8} {fmt a b : Nat} (hf : ¬ (fmt = 11 ∨ fmt = 12 ∨ fmt = 13)) (hk : fmt = 1 ∨ fmt = 2 ∨ fmt = 3 ∨ fmt = 4) (ha : 0 < a) (hb : 0 < b) {s : σ} {p : Nat} (hs : At s bs p) :
    Holds (readLevel o junk fmt (texN junk a b 1 (kindOf fmt).1 (kindOf fmt).2 IL_UNSIGNED_BYTE) s) (fun r =>
      r.2.1.length = (texN junk a b 1 (kindOf fmt).1 (kindOf fmt).2 IL_UNSIGNED_BYTE).size ∧ ∃ q, At r.2.2 bs q) := by
  have hlen : ∀ k f, (texN junk a b 1 k f IL_UNSIGNED_BYTE).data.length = (texN junk a b 1 k f IL_UNSIGNED_BYTE).size := fun k f => by
    show (alloc junk _).length = _
    rw [alloc_length]; rfl
  have hsz : ∀ k f, (texN junk a b 1 k f IL_UNSIGNED_BYTE).size < 4294967296 := fun k f => Nat.mod_lt _ (by decide)
  by_cases h3 : fmt = 3
  · subst h3
    show Holds (readLevel o junk 3 (texN junk a b 1 4 IL_BGRA IL_UNSIGNED_BYTE) s) (fun r => r.2.1.length = (texN junk a b 1 4 IL_BGRA IL_UNSIGNED_BYTE).size ∧ _)
    have w1 : (texN junk a b 1 4 IL_BGRA IL_UNSIGNED_BYTE).width = a := by show atLeast1 a = a; unfold atLeast1; rw [if_neg (by omega)]
    have w2 : (texN junk a b 1 4 IL_BGRA IL_UNSIGNED_BYTE).height = b := by show atLeast1 b = b; unfold atLeast1; rw [if_neg (by omega)]
    have hs4 := (texN_size4 junk a b IL_BGRA ha hb).trans (mod4 _)
    have hl4 := hlen 4 IL_BGRA
    generalize texN junk a b 1 4 IL_BGRA IL_UNSIGNED_BYTE = m at *
    have e : readLevel o junk 3 m s = (do
        let (n, c, s) ← into o s (alloc junk (u32 (a * b * 2))) 1 (u32 (a * b * 2))
        if n ≠ u32 (a * b * 2) then pure (false, m.data, s)
        else do
          let d ← nibbles (upTo m.size) c m.data
          pure (true, d, s)) := by
      unfold readLevel
      rw [if_neg (by decide), w1, w2]
      rfl
    rw [e]
    have hu : u32 (a * b * 2) < 4294967296 := u32_lt _
    have hge : 2 * (a * b % 1073741824) ≤ u32 (a * b * 2) := by unfold u32; omega
    generalize u32 (a * b * 2) = z at *
    generalize a * b % 1073741824 = y at *
    refine (into_len L (alloc junk z) 1 z hs (by omega) (by rw [alloc_length, Nat.one_mul])).bind (fun r hr => ?_)
    obtain ⟨n, c, t⟩ := r
    obtain ⟨r1, r2⟩ := hr
    rw [alloc_length] at r1
    simp only at r1 r2 ⊢
    split
    · exact Holds.pure ⟨hl4, r2⟩
    · have hu4 : ∃ q, upTo m.size = 4 * q ∧ q ≤ y := by
        unfold upTo
        split
        · exact ⟨y, hs4, Nat.le_refl _⟩
        · exact ⟨0, rfl, Nat.zero_le _⟩
      obtain ⟨q, hq, hqy⟩ := hu4
      rw [hq]
      refine (nibbles_spec (n := q) (by omega) (by omega)).bind (fun d hd => ?_)
      exact Holds.pure ⟨hd.1.trans hl4, r2⟩
  · have hl' := hlen (kindOf fmt).1 (kindOf fmt).2
    have hs' := hsz (kindOf fmt).1 (kindOf fmt).2
    generalize texN junk a b 1 (kindOf fmt).1 (kindOf fmt).2 IL_UNSIGNED_BYTE = m at *
    unfold readLevel
    rw [if_pos (by omega)]
    refine (into_len L m.data 1 m.size hs (by omega) (by omega)).bind (fun r hr => ?_)
    exact Holds.pure ⟨hr.1.trans hl', hr.2⟩

theorem readAll_safe (L : Laws2 o At) (junk : Nat → UInt8) {bs : List UInt8} {fmt : Nat} (hf : ¬ (fmt = 11 ∨ fmt = 12 ∨ fmt = 13)) (hk : fmt = 1 ∨ fmt = 2 ∨ fmt = 3 ∨ fmt = 4)
    (todo : List Img) (ht : ∀ m ∈ todo, ∃ a b, 0 < a ∧ 0 < b ∧ m = texN junk a b 1 (kindOf fmt).1 (kindOf fmt).2 IL_UNSIGNED_BYTE) :
    ∀ (done : List Img) (s : σ) (p : Nat), At s bs p → (∀ m ∈ done, m.data.length = m.size) →
      Holds (readAll o junk fmt todo done s) (fun r => (∀ m ∈ r.2.1, m.data.length = m.size) ∧ ∃ q, At r.2.2 bs q) := by
  induction todo with
  | nil =>
    intro done s p hs hd
    exact Holds.pure ⟨hd, p, hs⟩
  | cons m ms ih =>
    intro done s p hs hd
    unfold readAll
    obtain ⟨a, b, ha, hb, hm⟩ := ht m (List.mem_cons_self ..)
    have := readLevel_safe L junk hf hk ha hb (bs := bs) hs
    rw [← hm] at this
    refine this.bind (fun r hr => ?_)
    obtain ⟨ok, d, t⟩ := r
    obtain ⟨h1, q, h2⟩ := hr
    simp only at h1 h2 ⊢
    have hd' : ∀ m' ∈ { m with data := d } :: done, m'.data.length = m'.size := by
      intro m' hm'
      rcases List.mem_cons.1 hm' with rfl | h
      · exact h1
      · exact hd m' h
    split
    · exact ih (fun m' h' => ht m' (List.mem_cons_of_mem _ h')) _ t q h2 hd'
    · refine Holds.pure ⟨fun m' hm' => ?_, q, h2⟩
      rcases List.mem_append.1 hm' with h | h
      · obtain ⟨a, b, -, -, e⟩ := ht m' (List.mem_cons_of_mem _ (List.mem_reverse.1 h))
        rw [e]
        show (alloc junk _).length = _
        rw [alloc_length]; rfl
      · exact hd' m' h

/-- Loading a file without compression is safe. -/
theorem load_safe (L : Laws2 o At) (junk : Nat → UInt8) (cur : Img) (hcur : cur.data.length = cur.size) {s : σ} {bs : List UInt8} (hs : At s bs 0) (h5 : 5 ≤ bs.length)
    (hf : ¬ (leAt bs 4 1 = 11 ∨ leAt bs 4 1 = 12 ∨ leAt bs 4 1 = 13)) :
    Holds (iLoadIwiInternal o junk cur s) (fun r => (∀ m ∈ r.2.1, m.data.length = m.size) ∧ ∃ q, At r.2.2 bs q) := by
  unfold iLoadIwiInternal
  have hw := head_width L.toLaws junk bs [u32f, .getc, .getc, u16, u16, .skip 18] s 0 hs (by decide)
  have hv := head_spec L.toLaws junk bs [u32f, .getc, .getc, u16, u16, .skip 18] s 0 hs (by decide)
  obtain ⟨r, e, ⟨q, hq⟩, hw⟩ := hw
  obtain ⟨r', e', -, -, F⟩ := hv
  rw [e] at e'
  cases e'
  rw [e, bind_ok]
  have h1 : fle r.1 1 = leAt bs 4 1 := congrArg le (F 1 _ rfl (by show 4 + 1 ≤ _; omega))
  have l3 : fle r.1 3 < 65536 := by
    have : (fld r.1 3).length ≤ 2 := hw 3 _ rfl
    exact Nat.lt_of_lt_of_le (le_lt _) (Nat.pow_le_pow_right (by decide) this)
  have l4 : fle r.1 4 < 65536 := by
    have : (fld r.1 4).length ≤ 2 := hw 4 _ rfl
    exact Nat.lt_of_lt_of_le (le_lt _) (Nat.pow_le_pow_right (by decide) this)
  obtain ⟨ok, hok⟩ := iwi_total l3 l4
  obtain ⟨hd, s1⟩ := r
  simp only at hq h1 l3 l4 hok ⊢
  rw [hok, bind_ok]
  cases ok with
  | false =>
    rw [if_pos (by decide)]
    refine Holds.pure ⟨fun m hm => ?_, q, hq⟩
    rw [List.mem_singleton.1 hm]
    exact hcur
  | true =>
    rw [if_neg (by decide)]
    have hz : 0 < fle hd 3 ∧ 0 < fle hd 4 ∧ (fle hd 1 = 1 ∨ fle hd 1 = 2 ∨ fle hd 1 = 3 ∨ fle hd 1 = 4) := by
      obtain ⟨pw, e1, -⟩ := nextPower2_spec (fle hd 3) (by omega)
      obtain ⟨ph, e3, -⟩ := nextPower2_spec (fle hd 4) (by omega)
      unfold iCheckIwi at hok
      rw [e1, bind_ok, e3, bind_ok] at hok
      rw [← h1] at hf
      split at hok
      · cases hok
      · split at hok
        · cases hok
        · rename_i hz
          split at hok
          · cases hok
          · split at hok
            · cases hok
            · rename_i hx
              simp at hz hx
              omega
    obtain ⟨z3, z4, zf⟩ := hz
    rw [blanks_eq junk _ _ _ _ z3 z4 l3, bind_ok]
    refine readAll_safe L junk (by rw [h1]; exact hf) zf _ (fun m hm => ?_) [] s1 q hq (fun m hm => by cases hm)
    obtain ⟨i, -, rfl⟩ := List.mem_map.1 (List.mem_reverse.1 hm)
    exact ⟨_, _, side_pos _ i, side_pos _ i, rfl⟩

/-! ### Sizes -/

theorem half_eq (v : UInt8) (c : Nat) : half v c = UInt8.ofNat (16 * nibble v c) := by
  unfold half nibble
  have h1 : ∀ n : Fin 256, (UInt8.ofNat n.1) &&& 0xF0 = UInt8.ofNat (16 * ((UInt8.ofNat n.1).toNat / 16)) := by decide +kernel
  have h2 : ∀ n : Fin 256, ((UInt8.ofNat n.1) &&& 0x0F) <<< 4 = UInt8.ofNat (16 * ((UInt8.ofNat n.1).toNat % 16)) := by decide +kernel
  have e : UInt8.ofNat v.toNat = v := UInt8.ofNat_toNat
  split
  · have := h1 ⟨v.toNat, v.toNat_lt⟩
    rw [e] at this
    exact this
  · have := h2 ⟨v.toNat, v.toNat_lt⟩
    rw [e] at this
    exact this

theorem log2_mono {a b : Nat} (h : a ≤ b) : Nat.log2 a ≤ Nat.log2 b := by
  rw [Nat.log2_eq_log_two, Nat.log2_eq_log_two]
  exact Nat.log_mono_right h

theorem levels_eq (w h : Nat) : levels w h = max (Nat.log2 w) (Nat.log2 h) + 1 := by
  unfold levels
  rcases Nat.le_total w h with hle | hle
  · have := log2_mono hle
    rw [Nat.max_eq_right hle, Nat.max_eq_right this]
  · have := log2_mono hle
    rw [Nat.max_eq_left hle, Nat.max_eq_left this]

theorem count_eq {w h : Nat} {mips : Bool} (hg : mips = true → Nat.log2 w = Nat.log2 h) : count w h mips = number w h mips := by
  unfold count number
  cases mips with
  | false => rfl
  | true =>
    rw [if_pos rfl, if_pos rfl, levels_eq, hg rfl]
    omega

theorem side_pow {a i : Nat} : side (2 ^ a) i = 2 ^ (a - i) := by
  unfold side
  rcases Nat.le_total i a with h | h
  · rw [Nat.pow_div h (by decide)]
    have : 0 < 2 ^ (a - i) := Nat.pos_of_ne_zero (by simp)
    omega
  · rw [Nat.sub_eq_zero_of_le h]
    have : 2 ^ a / 2 ^ i ≤ 1 := by
      have h1 : 2 ^ a ≤ 2 ^ i := Nat.pow_le_pow_right (by decide) h
      exact (Nat.div_le_div_right h1).trans (by rw [Nat.div_self (Nat.pos_of_ne_zero (by simp))])
    omega

/-- The bytes that the loader takes for a level are those of its blocks. -/
theorem coded_bytes {fmt dxt : Nat} (hp : Coded fmt dxt) {a b : Nat} (h : (2 ≤ a ∧ 2 ≤ b) ∨ (a ≤ 2 ∧ b ≤ 2)) :
    max (2 ^ a * 2 ^ b / (if fmt = 11 then 2 else 1)) (Dxt.bsize dxt) = DxtSpec.bytes (Dxt.bsize dxt) (2 ^ a) (2 ^ b) 1 := by
  unfold DxtSpec.bytes
  rcases h with ⟨ha, hb⟩ | ⟨ha, hb⟩
  · obtain ⟨u, rfl⟩ := Nat.exists_eq_add_of_le ha
    obtain ⟨v, rfl⟩ := Nat.exists_eq_add_of_le hb
    rw [Nat.pow_add, Nat.pow_add]
    have p1 : 0 < 2 ^ u := Nat.pos_of_ne_zero (by simp)
    have p2 : 0 < 2 ^ v := Nat.pos_of_ne_zero (by simp)
    have p3 := Nat.mul_pos p1 p2
    rw [show (2 ^ 2 * 2 ^ u + 3) / 4 = 2 ^ u by omega, show (2 ^ 2 * 2 ^ v + 3) / 4 = 2 ^ v by omega, Nat.mul_mul_mul_comm]
    generalize 2 ^ u * 2 ^ v = n at *
    rcases hp with ⟨rfl, rfl⟩ | ⟨rfl, rfl⟩ | ⟨rfl, rfl⟩
    · show max (2 ^ 2 * 2 ^ 2 * n / 2) 8 = n * 1 * 8; omega
    · show max (2 ^ 2 * 2 ^ 2 * n / 1) 16 = n * 1 * 16; omega
    · show max (2 ^ 2 * 2 ^ 2 * n / 1) 16 = n * 1 * 16; omega
  · have ha' : a = 0 ∨ a = 1 ∨ a = 2 := by omega
    have hb' : b = 0 ∨ b = 1 ∨ b = 2 := by omega
    rcases hp with ⟨rfl, rfl⟩ | ⟨rfl, rfl⟩ | ⟨rfl, rfl⟩ <;> rcases ha' with rfl | rfl | rfl <;> rcases hb' with rfl | rfl | rfl <;> rfl

end DevIL.Iwi
