import Verif.Lemmas.Ktx
import Verif.Lemmas.Blp
/-! KTX textures: the whole loader, and whatever the bytes are. -/
set_option autoImplicit false
namespace DevIL.Ktx
open DevIL.Games DevIL.Detect DevIL.Image DevIL.DetectSpec DevIL.KtxSpec
open DevIL.Lump (SEEK_SET SEEK_CUR)

variable {σ : Type} {o : Ops σ} {At : σ → List UInt8 → Nat → Prop}

theorem tex_half (junk : Nat → UInt8) (k f a b : Nat) : tex junk a b k f = tex junk (max 1 a) (max 1 b) k f := by
  have e : ∀ n, atLeast1 (max 1 n) = atLeast1 n := fun n => by rw [Blp.at1, Blp.at1]; omega
  unfold tex geometry
  simp only [e]

/-- The loader with a good header, up to the keys. -/
theorem load_keys (L : Laws2 o At) (junk : Nat → UInt8) (other : List (List UInt8) → Nat → σ → C (Bool × List Img × σ)) (fuel : Nat) (cur : Img) {bs : List UInt8} {w h k f : Nat} (H : Header bs w h k f) (hfit : w * h * k < 4294967296) (hk : 0 < k) {s : σ} (hA : At s bs 0) :
    ∃ s', At s' bs 64 ∧ iLoadKtxInternal o junk other fuel cur s = (iKtxKeyValueData o junk fuel (leAt bs 60 4) s' >>= fun r => match r.1 with
      | none => pure (false, [cur], r.2)
      | some origin => levels o junk k f origin (leAt bs 56 4) w h (tex junk w h k f) r.2 >>= fun t =>
          if t.1 = 0 then pure (true, t.2.1, t.2.2) else if t.1 = 1 then pure (false, t.2.1.take 1, t.2.2) else pure (false, t.2.1, t.2.2)) := by
  have hl := H.all
  obtain ⟨s1, e1, A1⟩ := into_all L (alloc junk 12) (n := 12) hA (alloc_length _ _) (by omega)
  obtain ⟨hd, s2, e2, A2, v⟩ := head_fields L junk A1 hl
  obtain ⟨m1, m2, -⟩ := tex_fields junk w h k f H.w0 H.h0 hk hfit
  have hf : format (fle hd 3) = some (k, f) := by rw [v 3 (by decide)]; exact H.format
  have hf0 : fle hd 3 ≠ 0 := by
    intro h0
    rw [h0] at hf
    exact absurd hf (by unfold format; simp)
  refine ⟨s2, A2, ?_⟩
  unfold iLoadKtxInternal
  rw [e1, bind_ok]
  simp only []
  rw [if_neg (fun h => h rfl), e2, bind_ok]
  simp only []
  rw [if_neg (by rw [v 0 (by decide), H.sig]; rintro (h | h); exact h rfl; exact h H.endian), if_neg (by rw [v 2 (by decide)]; exact fun h => h H.typeSize),
    if_neg (by rw [v 9 (by decide), v 10 (by decide)]; rintro (h | h); exact h H.array; exact h H.faces), v 12 (by decide)]
  congr 1
  funext r
  obtain ⟨og, s3⟩ := r
  cases og with
  | none => rfl
  | some origin =>
    simp only []
    rw [if_neg hf0, hf]
    simp only []
    rw [if_neg (by rw [v 1 (by decide)]; intro h; have := H.type; simp only [Nat.reduceMul, Nat.reduceAdd] at h; omega), if_neg (by rw [v 1 (by decide)]; exact fun h => h H.type), v 6 (by decide), v 7 (by decide), v 11 (by decide)]
    simp only [Nat.reduceMul, Nat.reduceAdd, H.width, H.height, m1, m2]

/-- A word of the data. -/
theorem word_spec {kv : List UInt8} {p : Nat} (h : p + 4 ≤ kv.length) : word kv p = .ok (leAt kv p 4) := by
  have e : at_ kv p 4 = [kv[p], kv[p + 1], kv[p + 2], kv[p + 3]] := by
    refine List.ext_getElem? (fun i => ?_)
    by_cases hi : i < 4
    · rw [Pcd.at_get hi]
      match i, hi with
      | 0, _ => simp
      | 1, _ => simp
      | 2, _ => simp
      | 3, _ => simp
    · rw [List.getElem?_eq_none (by rw [at_length]; omega), List.getElem?_eq_none (by simp; omega)]
  unfold word leAt
  rw [e, rd_of_lt (by omega), bind_ok, rd_of_lt (by omega), bind_ok, rd_of_lt (by omega), bind_ok, rd_of_lt (by omega), bind_ok]
  simp only [le]
  show Except.ok _ = _
  congr 1
  omega

theorem keys_hang {kv : List UInt8} (h4 : 4 ≤ kv.length) (h0 : leAt kv 0 4 = 0) : ∀ (fuel origin : Nat), keys kv fuel 0 origin = .error .hang := by
  intro fuel
  induction fuel with
  | zero => intro origin; rfl
  | succ f ih =>
    intro origin
    rw [keys, if_pos (by omega), word_spec (by omega), bind_ok, h0, if_neg (by decide)]
    exact ih origin

theorem keys_short {kv : List UInt8} (h0 : 0 < kv.length) (h4 : kv.length < 4) (f origin : Nat) : keys kv (f + 1) 0 origin = .error .oobRead := by
  rw [keys, if_pos h0]
  unfold word
  rw [rd_of_lt (by omega), bind_ok]
  by_cases h1 : kv.length = 1
  · rw [rd_of_ge (by omega)]; rfl
  rw [rd_of_lt (by omega), bind_ok]
  by_cases h2 : kv.length = 2
  · rw [rd_of_ge (by omega)]; rfl
  rw [rd_of_lt (by omega), bind_ok, rd_of_ge (by omega)]
  rfl

/-- The data of the keys. -/
theorem data_spec (L : Laws2 o At) (junk : Nat → UInt8) (fuel : Nat) {bs : List UInt8} {s : σ} {p n : Nat} (hA : At s bs p) (hn : 0 < n) (hin : p + n ≤ bs.length) {e : Fault} (hk : keys (at_ bs p n) fuel 0 IL_ORIGIN_UPPER_LEFT = .error e) :
    iKtxKeyValueData o junk fuel n s = .error e := by
  obtain ⟨s1, e1, -⟩ := into_all L (alloc junk n) hA (alloc_length _ _) hin
  unfold iKtxKeyValueData
  rw [if_neg (by omega), e1, bind_ok]
  simp only []
  rw [if_neg (fun h => h rfl), hk]
  rfl

theorem level_any (L : Laws2 o At) (junk : Nat → UInt8) {bs : List UInt8} {w h k f v origin : Nat} (hw : 0 < w) (hh : 0 < h) (hk : 0 < k) (hfit : w * h * k < 4294967296) (hv : v ≤ h) {s : σ} (hA : ∃ q, At s bs q) :
    Holds (level o junk v origin (tex junk w h k f) s) (fun r => r.2.1.data.length = r.2.1.size ∧ ∃ q, At r.2.2 bs q) := by
  obtain ⟨q, hA⟩ := hA
  obtain ⟨m1, m2, -, m4, m5, -, -, m8, m9⟩ := tex_fields junk w h k f hw hh hk hfit
  have e1 : w * h * k = h * (w * k) := by rw [Nat.mul_comm w h, Nat.mul_assoc]
  have mb : (tex junk w h k f).bps = w * k := by rw [m8.1, m1, m4, m5, Nat.mul_one]
  have ml := tex_len junk w h k f
  have ms : (tex junk w h k f).size = h * (tex junk w h k f).bps := by rw [m9, e1, mb]
  unfold level
  refine (head_spec L.toLaws junk bs [u32f] s q hA (by decide)).bind (fun r hr => ?_)
  obtain ⟨q1, A1⟩ := hr.1
  simp only []
  split
  · exact Holds.pure ⟨ml, _, A1⟩
  split
  · refine (into_len L (tex junk w h k f).data 1 (tex junk w h k f).size A1 (by rw [m9]; omega) (by rw [ml]; omega)).bind (fun t ht => ?_)
    obtain ⟨n, d, s2⟩ := t
    obtain ⟨h1, h2⟩ := ht
    simp only [] at h1 h2 ⊢
    split
    · exact Holds.pure ⟨by show d.length = (tex junk w h k f).size; rw [h1, ml], h2⟩
    · exact Holds.pure ⟨by show d.length = (tex junk w h k f).size; rw [h1, ml], h2⟩
  · refine (rows_any L (H := h) (by rw [← ms, m9]; omega) v 0 _ r.2 (by omega) (by rw [ml, ms]) ⟨_, A1⟩).bind (fun t ht => ?_)
    obtain ⟨n, d, s2⟩ := t
    obtain ⟨h1, h2⟩ := ht
    simp only [] at h1 h2 ⊢
    split
    · exact Holds.pure ⟨by show d.length = (tex junk w h k f).size; rw [h1, ms], h2⟩
    · exact Holds.pure ⟨by show d.length = (tex junk w h k f).size; rw [h1, ms], h2⟩

theorem levels_any (L : Laws2 o At) (junk : Nat → UInt8) {bs : List UInt8} {k f origin : Nat} (hk : 0 < k) :
    ∀ (n w h : Nat) (s : σ), max 1 w * max 1 h * k < 4294967296 → (∃ q, At s bs q) →
      Holds (levels o junk k f origin n w h (tex junk w h k f) s) (fun r => (∀ m ∈ r.2.1, m.data.length = m.size) ∧ ∃ q, At r.2.2 bs q) := by
  intro n
  induction n with
  | zero => intro w h s hfit hA; exact Holds.pure ⟨fun m hm => by rw [List.mem_singleton.1 hm]; exact tex_len _ _ _ _ _, hA⟩
  | succ n ih =>
    intro w h s hfit hA
    rw [levels, tex_half]
    refine (level_any L junk (w := max 1 w) (h := max 1 h) (by omega) (by omega) hk hfit (v := h) (by omega) hA).bind (fun r hr => ?_)
    obtain ⟨c, m, s1⟩ := r
    obtain ⟨h1, h2⟩ := hr
    simp only [] at h1 h2 ⊢
    split
    · exact Holds.pure ⟨fun m' hm => by rw [List.mem_singleton.1 hm]; exact h1, h2⟩
    · have hf : max 1 (w / 2) * max 1 (h / 2) * k < 4294967296 := by
        have := Nat.mul_le_mul_right k (Nat.mul_le_mul (show max 1 (w / 2) ≤ max 1 w by omega) (show max 1 (h / 2) ≤ max 1 h by omega))
        omega
      refine (ih _ _ s1 hf h2).bind (fun t ht => ?_)
      obtain ⟨c, ms, s2⟩ := t
      obtain ⟨t1, t2⟩ := ht
      simp only [] at t1 t2 ⊢
      refine Holds.pure ⟨fun m' hm => ?_, t2⟩
      rcases List.mem_cons.1 hm with rfl | hm
      · exact h1
      · exact t1 m' hm

theorem format_pos {x k f : Nat} (h : format x = some (k, f)) : 0 < k ∧ k ≤ 4 := by
  unfold format at h
  repeat' split at h
  all_goals first | cases h; exact ⟨by decide, by decide⟩ | cases h

theorem load_any (L : Laws2 o At) (junk : Nat → UInt8) (other : List (List UInt8) → Nat → σ → C (Bool × List Img × σ)) (fuel : Nat) (cur : Img) {bs : List UInt8} (h64 : 64 ≤ bs.length) (hkv : leAt bs 60 4 = 0) (hfit : max 1 (leAt bs 36 4) * max 1 (leAt bs 40 4) * 4 < 4294967296)
    (hcur : cur.data.length = cur.size) (hoth : ∀ h g s, (∃ q, At s bs q) → Holds (other h g s) (fun r => (∀ m ∈ r.2.1, m.data.length = m.size) ∧ ∃ q, At r.2.2 bs q)) {s : σ} (hA : At s bs 0) :
    Holds (iLoadKtxInternal o junk other fuel cur s) (fun r => (∀ m ∈ r.2.1, m.data.length = m.size) ∧ ∃ q, At r.2.2 bs q) := by
  have one : ∀ (s : σ), (∃ q, At s bs q) → Holds (pure (false, [cur], s) : C (Bool × List Img × σ)) (fun r => (∀ m ∈ r.2.1, m.data.length = m.size) ∧ ∃ q, At r.2.2 bs q) :=
    fun s hA => Holds.pure ⟨fun m' h => by rw [List.mem_singleton.1 h]; exact hcur, hA⟩
  obtain ⟨s1, e1, A1⟩ := into_all L (alloc junk 12) (n := 12) hA (alloc_length _ _) (by omega)
  obtain ⟨hd, s2, e2, A2, v⟩ := head_fields L junk A1 h64
  unfold iLoadKtxInternal
  rw [e1, bind_ok]
  simp only []
  rw [if_neg (fun h => h rfl), e2, bind_ok]
  simp only []
  split
  · exact one _ ⟨_, A2⟩
  split
  · exact one _ ⟨_, A2⟩
  split
  · exact one _ ⟨_, A2⟩
  have ek : iKtxKeyValueData o junk fuel (fle hd 12) s2 = .ok (some IL_ORIGIN_UPPER_LEFT, s2) := by
    unfold iKtxKeyValueData
    rw [if_pos (by rw [v 12 (by decide)]; exact hkv)]
    rfl
  rw [ek, bind_ok]
  simp only []
  split
  · exact hoth _ _ _ ⟨_, A2⟩
  split
  · exact one _ ⟨_, A2⟩
  · rename_i k f hf
    obtain ⟨k0, k4⟩ := format_pos hf
    split
    · exact hoth _ _ _ ⟨_, A2⟩
    split
    · exact one _ ⟨_, A2⟩
    · rw [v 6 (by decide), v 7 (by decide)]
      simp only [Nat.reduceMul, Nat.reduceAdd]
      have hf4 : max 1 (leAt bs 36 4) * max 1 (leAt bs 40 4) * k < 4294967296 := by
        have := Nat.mul_le_mul_left (max 1 (leAt bs 36 4) * max 1 (leAt bs 40 4)) k4
        omega
      rw [tex_half]
      obtain ⟨m1, m2, -⟩ := tex_fields junk (max 1 (leAt bs 36 4)) (max 1 (leAt bs 40 4)) k f (by omega) (by omega) k0 hf4
      rw [m1, m2]
      refine (levels_any L junk k0 _ (max 1 (leAt bs 36 4)) (max 1 (leAt bs 40 4)) s2 (by rw [show ∀ n, max 1 (max 1 n) = max 1 n by omega, show ∀ n, max 1 (max 1 n) = max 1 n by omega]; exact hf4) ⟨_, A2⟩).bind (fun t ht => ?_)
      obtain ⟨c, ms, s3⟩ := t
      obtain ⟨t1, t2⟩ := ht
      simp only [] at t1 t2 ⊢
      split
      · exact Holds.pure ⟨t1, t2⟩
      split
      · exact Holds.pure ⟨fun m hm => t1 m (List.mem_of_mem_take hm), t2⟩
      · exact Holds.pure ⟨t1, t2⟩

theorem side_le {n : Nat} (hn : 0 < n) (i : Nat) : side n i ≤ n := by
  have := Nat.div_le_self n (2 ^ i)
  unfold side
  omega

/-- All levels. -/
theorem levels_spec (L : Laws2 o At) (junk : Nat → UInt8) {bs : List UInt8} {b w h k f g N : Nat} (hk : 0 < k) (S : Stored bs b w h k N) (hv : ∀ i, i < N → 0 < h / 2 ^ i ∨ side w i * k % 4 = 0) :
    ∀ (n i : Nat) (s : σ), 0 < n → i + n = N → At s bs (place b w h k i) →
      Holds (levels o junk k f g n (w / 2 ^ i) (h / 2 ^ i) (tex junk (w / 2 ^ i) (h / 2 ^ i) k f) s) (fun r => r.1 = 0 ∧ r.2.1.length = n ∧
        (∀ j m, r.2.1[j]? = some m → m.origin = g ∧ GamesSpec.Shows { m with origin := IL_ORIGIN_UPPER_LEFT } (side w (i + j)) (side h (i + j)) k f (fun x y c => bs[place b w h k (i + j) + 4 + y * pitch (side w (i + j)) k + (x * k + c)]?)) ∧ ∃ q, At r.2.2 bs q) := by
  intro n
  induction n with
  | zero => intro i s h0; exact absurd h0 (by decide)
  | succ n ih =>
    intro i s _ hi hA
    obtain ⟨t1, t2⟩ := S i (by omega)
    have hp : place b w h k (i + 1) = place b w h k i + 4 + side h i * pitch (side w i) k := rfl
    rw [hp] at t2
    rw [levels, tex_half]
    obtain ⟨⟨c, m, s1⟩, e, r1, r0, r2, A1⟩ := level_spec L junk (w := side w i) (h := side h i) (k := k) (f := f) (v := h / 2 ^ i) (g := g) (by
      rcases hv i (by omega) with h1 | h1
      · left; unfold side; omega
      · exact .inr h1) (by unfold side; omega) (by unfold side; omega) hk t1 t2 hA
    simp only [] at r1 r0 r2 A1
    subst r1
    rw [show tex junk (max 1 (w / 2 ^ i)) (max 1 (h / 2 ^ i)) k f = tex junk (side w i) (side h i) k f from rfl, e, bind_ok]
    simp only []
    by_cases hn : n = 0
    · rw [if_pos (.inr hn)]
      subst hn
      refine Holds.pure ⟨rfl, rfl, fun j m' hj => ?_, _, A1⟩
      match j, hj with
      | 0, hj => cases hj; exact ⟨r0, r2⟩
      | j + 1, hj => cases hj
    · rw [if_neg (by rintro (h | h); exact h rfl; exact hn h), Nat.div_div_eq_div_mul, Nat.div_div_eq_div_mul, ← Nat.pow_succ]
      refine (ih (i + 1) s1 (by omega) (by omega) (by rw [hp]; exact A1)).bind (fun t ht => ?_)
      obtain ⟨c, ms, s2⟩ := t
      obtain ⟨rfl, q2, q3, q4⟩ := ht
      simp only [] at q2 q3 q4 ⊢
      refine Holds.pure ⟨rfl, by show ms.length + 1 = n + 1; rw [q2], fun j m' hj => ?_, q4⟩
      match j, hj with
      | 0, hj => cases hj; exact ⟨r0, r2⟩
      | j + 1, hj =>
        have := q3 j m' hj
        rw [show i + (j + 1) = i + 1 + j by omega]
        exact this

theorem keys_other {kv : List UInt8} {pos n f g : Nat} (hp : pos < kv.length) (hw : word kv pos = .ok n) (hn : 22 ≤ n) (hs : same kv (pos + 4) [75, 84, 88, 111, 114, 105, 101, 110, 116, 97, 116, 105, 111, 110] = .ok false) :
    keys kv (f + 1) pos g = keys kv f (u32 (pos + n)) g := by
  rw [keys, if_pos hp, hw, bind_ok, if_pos hn, hs]
  rfl

theorem keys_hit {kv : List UInt8} {pos n f g : Nat} {c : UInt8} (hp : pos < kv.length) (hw : word kv pos = .ok n) (hn : 22 ≤ n) (hs : same kv (pos + 4) [75, 84, 88, 111, 114, 105, 101, 110, 116, 97, 116, 105, 111, 110] = .ok true)
    (hc : rd kv (pos + 25) = .ok c) : keys kv (f + 1) pos g = keys kv f (u32 (pos + n)) (if c = 100 then IL_ORIGIN_UPPER_LEFT else if c = 117 then IL_ORIGIN_LOWER_LEFT else g) := by
  rw [keys, if_pos hp, hw, bind_ok, if_pos hn, hs, bind_ok]
  simp only [if_true]
  rw [hc]
  rfl

theorem keys_orientation (down : Bool) (f : Nat) : keys (orientation down) (f + 3) 0 IL_ORIGIN_UPPER_LEFT = .ok (if down then IL_ORIGIN_UPPER_LEFT else IL_ORIGIN_LOWER_LEFT) := by
  have w0 : ∀ down, leAt (orientation down) 0 4 = 23 := by decide
  have w1 : ∀ down, leAt (orientation down) 23 4 = (if down then 6569300 else 7683412) := by decide
  have l : (orientation down).length = 28 := rfl
  have s0 : same (orientation down) 4 [75, 84, 88, 111, 114, 105, 101, 110, 116, 97, 116, 105, 111, 110] = .ok true := rfl
  have s1 : same (orientation down) 27 [75, 84, 88, 111, 114, 105, 101, 110, 116, 97, 116, 105, 111, 110] = .ok false := rfl
  have r0 : rd (orientation down) 25 = .ok (if down then 100 else 117) := rfl
  have n1 : 22 ≤ (if down then 6569300 else 7683412) := by cases down <;> decide
  have n2 : ¬ u32 (23 + (if down then 6569300 else 7683412)) < 28 := by
    rw [u32_of_lt (by cases down <;> decide)]
    cases down <;> decide
  rw [keys_hit (by rw [l]; decide) ((word_spec (by rw [l]; decide)).trans (by rw [w0])) (by decide) s0 r0, show u32 (0 + 23) = 23 by decide,
    keys_other (by rw [l]; decide) ((word_spec (by rw [l]; decide)).trans (by rw [w1])) n1 s1]
  rw [keys, if_neg (by rw [l]; exact n2)]
  cases down <;> rfl

/-- The data of the keys, if they can be read. -/
theorem data_ok (L : Laws2 o At) (junk : Nat → UInt8) (fuel : Nat) {bs : List UInt8} {s : σ} {p n g : Nat} (hA : At s bs p) (hn : 0 < n) (hin : p + n ≤ bs.length) (hk : keys (at_ bs p n) fuel 0 IL_ORIGIN_UPPER_LEFT = .ok g) :
    ∃ s', iKtxKeyValueData o junk fuel n s = .ok (some g, s') ∧ At s' bs (p + n) := by
  obtain ⟨s1, e1, A1⟩ := into_all L (alloc junk n) hA (alloc_length _ _) hin
  refine ⟨s1, ?_, A1⟩
  unfold iKtxKeyValueData
  rw [if_neg (by omega), e1, bind_ok]
  simp only []
  rw [if_neg (fun h => h rfl), hk]
  rfl

end DevIL.Ktx
