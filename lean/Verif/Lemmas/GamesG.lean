import Verif.Lemmas.GamesF
/-! Loading any bytes as a Doom picture. -/
set_option autoImplicit false
namespace DevIL.Games

open DevIL.Lump (SEEK_SET SEEK_CUR SEEK_END)
open DevIL.Detect DevIL.DetectSpec DevIL.GamesSpec DevIL.Image

variable {σ : Type} {o : Ops σ} {At : σ → List UInt8 → Nat → Prop}

theorem read_one (L : Laws o At) {s : σ} {bs : List UInt8} {p : Nat} (h : At s bs p) :
    Holds (o.read s 1 1) (fun r => (r.1 = [] ∧ At r.2.2 bs p) ∨ (∃ b, r.1 = [b]) ∧ p < bs.length ∧ At r.2.2 bs (p + 1)) := by
  refine (L.read 1 1 h (by decide) (by decide)).mono (fun r hr => ?_)
  obtain ⟨h1, -, h3⟩ := hr
  rw [Nat.one_mul] at h1
  by_cases hp : p < bs.length
  · right
    rw [at_one hp] at h1
    rw [h1] at h3
    exact ⟨⟨_, h1⟩, hp, h3⟩
  · left
    have : at_ bs p 1 = [] := List.eq_nil_of_length_eq_zero (by rw [at_length]; omega)
    rw [this] at h1
    rw [h1] at h3
    exact ⟨h1, h3⟩

/-- Room for every row that is written. -/
def Room (w : Nat) (height : Int) (n : Nat) : Prop := ∀ y : Nat, (y : Int) < height → ∀ x, x < w → y * w + x < n

theorem doomRow_safe (L : Laws o At) {bs : List UInt8} {w col top : Nat} {height : Int} (hcol : col < w) {n : Nat} (hr : Room w height n) (row : Nat)
    (s : DoomS σ) (p : Nat) (hat : At s.inp bs p) (hd : s.data.length = n) :
    Holds (doomRow o w height col top row s) (fun t => (∃ q, p ≤ q ∧ At t.inp bs q) ∧ t.data.length = n) := by
  unfold doomRow
  by_cases hf : s.fin.isSome
  · rw [if_pos hf]
    exact Holds.pure ⟨⟨p, Nat.le_refl _, hat⟩, hd⟩
  · rw [if_neg hf]
    refine (read_one L hat).bind (fun r hr' => ?_)
    obtain ⟨g, k, u⟩ := r
    rcases hr' with ⟨rfl, hu⟩ | ⟨⟨b, rfl⟩, hp, hu⟩
    · exact Holds.pure ⟨⟨_, Nat.le_refl _, hu⟩, hd⟩
    · simp only []
      by_cases hin : ((row + top : Nat) : Int) < height
      · rw [if_pos hin, wr_of_lt (by rw [hd]; exact hr _ hin _ hcol), bind_ok]
        exact Holds.pure ⟨⟨_, Nat.le_succ _, hu⟩, by simp [hd]⟩
      · rw [if_neg hin]
        exact Holds.pure ⟨⟨_, Nat.le_succ _, hu⟩, hd⟩

theorem doomPost_safe (L : Laws o At) {bs : List UInt8} {w col : Nat} {height : Int} (hcol : col < w) {n : Nat} (hr : Room w height n)
    (s : DoomS σ) (p : Nat) (hat : At s.inp bs p) (hd : s.data.length = n) :
    Holds (doomPost o w height col s) (fun t => (∃ q, At t.inp bs q ∧ (t.fin.isSome ∨ p < q ∧ p < bs.length)) ∧ t.data.length = n) := by
  unfold doomPost
  refine (read_one L hat).bind (fun r hr' => ?_)
  obtain ⟨g, k, u⟩ := r
  rcases hr' with ⟨rfl, hu⟩ | ⟨⟨b, rfl⟩, hp, hu⟩
  · exact Holds.pure ⟨⟨_, hu, Or.inl rfl⟩, hd⟩
  simp only []
  by_cases hb : b = 255
  · rw [if_pos hb]
    exact Holds.pure ⟨⟨_, hu, Or.inl rfl⟩, hd⟩
  rw [if_neg hb]
  refine (read_one L hu).bind (fun r hr' => ?_)
  obtain ⟨g, k, u⟩ := r
  rcases hr' with ⟨rfl, hu⟩ | ⟨⟨c, rfl⟩, hp2, hu⟩
  · exact Holds.pure ⟨⟨_, hu, Or.inl rfl⟩, hd⟩
  simp only []
  refine (read_one L hu).bind (fun r hr' => ?_)
  obtain ⟨g, k, u⟩ := r
  rcases hr' with ⟨rfl, hu⟩ | ⟨⟨e, rfl⟩, hp3, hu⟩
  · exact Holds.pure ⟨⟨_, hu, Or.inl rfl⟩, hd⟩
  simp only []
  refine (Holds.loop (n := c.toNat) (f := doomRow o w height col b.toNat) (s := { s with inp := u })
    (fun _ (t : DoomS σ) => (∃ q, p < q ∧ At t.inp bs q) ∧ t.data.length = n) ⟨⟨_, by omega, hu⟩, hd⟩ (fun i t _ ht => ?_)).bind (fun t ht => ?_)
  · obtain ⟨⟨q, hq, ha⟩, hl⟩ := ht
    refine (doomRow_safe L hcol hr i t q ha hl).mono (fun v hv => ?_)
    obtain ⟨⟨q', hq', ha'⟩, hl'⟩ := hv
    exact ⟨⟨q', by omega, ha'⟩, hl'⟩
  · obtain ⟨⟨q, hq, ha⟩, hl⟩ := ht
    by_cases hf : t.fin.isSome
    · rw [if_pos hf]
      exact Holds.pure ⟨⟨q, ha, Or.inl hf⟩, hl⟩
    · rw [if_neg hf]
      refine (read_one L ha).bind (fun r hr' => ?_)
      obtain ⟨g, k, u⟩ := r
      rcases hr' with ⟨rfl, hu⟩ | ⟨⟨c, rfl⟩, hp2, hu⟩
      · exact Holds.pure ⟨⟨_, hu, Or.inr ⟨hq, hp⟩⟩, hl⟩
      · exact Holds.pure ⟨⟨_, hu, Or.inr ⟨by omega, hp⟩⟩, hl⟩

theorem doomPosts_safe (L : Laws o At) {bs : List UInt8} {w col : Nat} {height : Int} (hcol : col < w) {n : Nat} (hr : Room w height n) (k : Nat) :
    ∀ (s : DoomS σ) (p fuel : Nat), At s.inp bs p → bs.length - p < k → s.data.length = n → k + 1 < fuel →
    Holds (whileF (fun s : DoomS σ => !s.fin.isSome) (doomPost o w height col) fuel s) (fun t => (∃ q, At t.inp bs q) ∧ t.data.length = n) := by
  induction k with
  | zero => intro s p fuel _ h; omega
  | succ k ih =>
    intro s p fuel hat hk hd hfuel
    cases fuel with
    | zero => omega
    | succ fuel =>
    unfold whileF
    by_cases hf : s.fin.isSome
    · rw [if_neg (by simp [hf])]
      exact Holds.ok ⟨⟨p, hat⟩, hd⟩
    · rw [if_pos (by simp [hf])]
      refine (doomPost_safe L hcol hr s p hat hd).bind (fun t ht => ?_)
      obtain ⟨⟨q, ha, h⟩, hl⟩ := ht
      rcases h with h | ⟨h1, h2⟩
      · cases fuel with
        | zero => omega
        | succ fuel =>
          unfold whileF
          rw [if_neg (by simp [h])]
          exact Holds.ok ⟨⟨q, ha⟩, hl⟩
      · exact ih t q fuel ha (by omega) hl (by omega)

/-- Any bytes, when every place can be sought. -/
theorem doom_safe (L : Laws2 o At) (junk : Nat → UInt8) (table : List UInt8) (htab : table.length = 768) (fuel : Nat) {s : σ} {bs : List UInt8}
    (hseek : ∀ {s : σ} {p : Nat} (off : Int), At s bs p → Holds (o.seek s off SEEK_SET) (fun r => ∃ q, At r.2 bs q))
    (hs : At s bs 0) (hfuel : bs.length + 2 < fuel) :
    Holds (iLoadDoomInternal o junk table false fuel s) (fun r => r.2.1.1.data.length = r.2.1.1.size ∧ ∃ q, At r.2.2 bs q) := by
  unfold iLoadDoomInternal
  refine (fle_lt L.toLaws junk hs (fs := [u16, u16, u16, u16]) (by decide)).bind (fun r hr => ?_)
  obtain ⟨⟨q, hq⟩, -, -, hlt⟩ := hr
  obtain ⟨g, t⟩ := r
  have l0 : fle g 0 < 65536 := hlt 0 u16 rfl
  have l1 : fle g 1 < 65536 := hlt 1 u16 rfl
  simp only []
  rw [table_copy junk table htab, bind_ok]
  generalize hw : fle g 0 = w at *
  generalize hh : fle g 1 = h at *
  -- every row has its place
  have room : Room (short w).toNat (short h) (tex junk (Lump.ofInt (short w)) (Lump.ofInt (short h)) 1 IL_COLOUR_INDEX).size := by
    intro y hy x hx
    have hwp : 0 < short w := by omega
    have hhp : 0 < short h := by omega
    have bw : short w < 32768 := by unfold short; split <;> omega
    have bh : short h < 32768 := by unfold short; split <;> omega
    have e1 : Lump.ofInt (short w) = (short w).toNat := by unfold Lump.ofInt; omega
    have e2 : Lump.ofInt (short h) = (short h).toNat := by unfold Lump.ofInt; omega
    have hm : (short w).toNat * (short h).toNat ≤ 32768 * 32768 := Nat.mul_le_mul (by omega) (by omega)
    rw [e1, e2, (tex_fields junk (short w).toNat (short h).toNat 1 IL_COLOUR_INDEX (by omega) (by omega) (by decide) (by omega)).2.2.2.2.2.2.2.2, Nat.mul_one]
    exact row_lt hx (by omega)
  generalize tex junk (Lump.ofInt (short w)) (Lump.ofInt (short h)) 1 IL_COLOUR_INDEX = m at *
  refine (Holds.loop (fun _ (t : DoomS σ) => (∃ q, At t.inp bs q) ∧ t.data.length = m.size) ⟨⟨q, hq⟩, by simp⟩ (fun col t hcol ht => ?_)).bind (fun r hr => ?_)
  · obtain ⟨⟨q, ha⟩, hl⟩ := ht
    unfold doomCol
    by_cases hf : t.fin.isSome
    · rw [if_pos hf]
      exact Holds.pure ⟨⟨q, ha⟩, hl⟩
    · rw [if_neg hf]
      refine (head_spec L.toLaws junk bs [u32f] _ q ha (by decide)).bind (fun r hr => ?_)
      obtain ⟨⟨q2, hq2⟩, -⟩ := hr
      refine (hseek _ hq2).bind (fun r' hr' => ?_)
      obtain ⟨q3, hq3⟩ := hr'
      refine (doomPosts_safe L.toLaws hcol room (bs.length + 1) { t with inp := r'.2 } q3 fuel hq3 (by omega) hl (by omega)).bind (fun u hu => ?_)
      by_cases hf2 : u.fin = some false
      · rw [if_pos hf2]
        exact Holds.pure hu
      · rw [if_neg hf2]
        obtain ⟨⟨q4, hq4⟩, hl4⟩ := hu
        refine (hseek _ hq4).bind (fun r hr => ?_)
        exact Holds.pure ⟨hr, hl4⟩
  · by_cases hf : r.fin.isSome
    · rw [if_pos hf]
      exact Holds.pure ⟨hr.2, hr.1⟩
    · rw [if_neg hf]
      unfold doomEnd
      rw [if_neg (by simp)]
      exact Holds.pure ⟨hr.2, hr.1⟩

theorem file_seek {s : Cache.S} {bs : List UInt8} {p : Nat} (off : Int) (h : FileAt s bs p) :
    Holds (fileOps.seek s off SEEK_SET) (fun r => ∃ q, FileAt r.2 bs q) := by
  obtain ⟨rfl, hst, rfl, hl⟩ := h
  refine Holds.pure ?_
  show ∃ q, FileAt (Cache.iSeekRFile s off SEEK_SET).2 _ q
  rw [seek_set _ _ hst]
  split
  · exact ⟨_, rfl, hst, rfl, hl⟩
  · exact ⟨_, rfl, hst, rfl, hl⟩

end DevIL.Games
