import Verif.Lemmas.GamesE
/-! MDL and WAL. -/
set_option autoImplicit false
namespace DevIL.Games

open DevIL.Lump (SEEK_SET SEEK_CUR SEEK_END)
open DevIL.Detect DevIL.DetectSpec DevIL.GamesSpec DevIL.Image

variable {σ : Type} {o : Ops σ} {At : σ → List UInt8 → Nat → Prop}

theorem toInt_nat {n : Nat} (h : n < 2147483648) : Lump.toInt n = (n : Int) := by
  unfold Lump.toInt; rw [if_pos h]

theorem fle_eq {h : List (List UInt8)} {i : Nat} {bs : List UInt8} {p n : Nat} (e : fld h i = at_ bs p n) : fle h i = leAt bs p n := by
  show le (fld h i) = _
  rw [e]; rfl

/-- A picture read in one go at an offset. -/
theorem into_one (L : Laws2 o At) {s : σ} {bs : List UInt8} {p : Nat} (dst : List UInt8) (n : Nat) (h : At s bs p) (h0 : 0 < n)
    (hd : n = dst.length) (hfit : p + n ≤ bs.length) :
    Holds (into o s dst n 1) (fun r => r.1 = 1 ∧ r.2.1 = at_ bs p n ∧ At r.2.2 bs (p + n)) := by
  have hlen := L.len h
  have := into_full L dst n 1 h h0 (by omega) (by omega) (by omega)
  rwa [Nat.mul_one] at this

theorem mdl_spec (L : Laws2 o At) (junk : Nat → UInt8) (cur : Loaded) {s : σ} {bs : List UInt8} (hs : At s bs 0) (hlen : 192 ≤ bs.length)
    (h0 : leAt bs 0 4 = 0x54534449) (h1 : leAt bs 4 4 = 10) (hnum : leAt bs 180 4 = 1) (T : Nat) (hT : leAt bs 184 4 = T) (hT0 : T ≠ 0)
    (hD : leAt bs 188 4 ≠ 0) (hT1 : T + 80 ≤ bs.length) (w h p : Nat) (hw : leAt bs (T + 68) 4 = w) (hh : leAt bs (T + 72) 4 = h)
    (hp : leAt bs (T + 76) 4 = p) (hp0 : p ≠ 0) (hw0 : 0 < w) (hh0 : 0 < h) (hall : p + w * h + 768 ≤ bs.length) :
    Holds (iLoadMdlInternal o junk cur s) (fun r => r.1 = true ∧ HasPal r.2.1.2 (at_ bs (p + w * h) 768) IL_PAL_RGB24 ∧
      r.2.1.1.origin = IL_ORIGIN_LOWER_LEFT ∧
      Shows { r.2.1.1 with origin := IL_ORIGIN_UPPER_LEFT } w h 1 IL_COLOUR_INDEX (fun x y _ => bs[p + (y * w + x)]?) ∧ ∃ q, At r.2.2 bs q) := by
  have hl31 := L.len hs
  unfold iLoadMdlInternal
  refine (head_spec L.toLaws junk bs [u32f, u32f] _ 0 hs (by decide)).bind (fun r hr => ?_)
  obtain ⟨-, hpos, hf⟩ := hr
  obtain ⟨g, t⟩ := r
  have ht : At t bs 8 := hpos (by show 0 + 8 ≤ _; omega)
  have e0 : fle g 0 = leAt bs 0 4 := fle_eq (hf 0 u32f rfl (by show 0 + 0 + 4 ≤ _; omega))
  have e1 : fle g 1 = leAt bs 4 4 := fle_eq (hf 1 u32f rfl (by show 0 + 4 + 4 ≤ _; omega))
  simp only [e0, e1, h0, h1]
  rw [if_neg (by decide)]
  refine (L.seekCur 172 ht).bind (fun r hr => ?_)
  obtain ⟨b, t⟩ := r
  have ht : At t bs 180 := hr.2 180 (by omega) (by omega)
  refine (head_spec L.toLaws junk bs [u32f, u32f, u32f] _ 180 ht (by decide)).bind (fun r hr => ?_)
  obtain ⟨-, hpos, hf⟩ := hr
  obtain ⟨g, t⟩ := r
  have ht : At t bs 192 := hpos (by show 180 + 12 ≤ _; omega)
  have e0 : fle g 0 = leAt bs 180 4 := fle_eq (hf 0 u32f rfl (by show 180 + 0 + 4 ≤ _; omega))
  have e1 : fle g 1 = leAt bs 184 4 := fle_eq (hf 1 u32f rfl (by show 180 + 4 + 4 ≤ _; omega))
  have e2 : fle g 2 = leAt bs 188 4 := fle_eq (hf 2 u32f rfl (by show 180 + 8 + 4 ≤ _; omega))
  simp only [e0, e1, e2, hnum, hT]
  rw [if_neg (by omega), toInt_nat (by omega)]
  refine (L.seekAbs T ht (by omega)).bind (fun r hr => ?_)
  obtain ⟨b, t⟩ := r
  have ht : At t bs T := hr
  rw [show (1 : Nat) = 0 + 1 from rfl, loopN_succ, loopN_zero, bind_ok]
  refine Holds.bind (P := fun r : MdlS σ => (∃ q, At r.inp bs q) ∧ r.failed = false ∧
    r.base = some ({ tex junk w h 1 IL_COLOUR_INDEX with data := at_ bs p (w * h) }, some ⟨at_ bs (p + w * h) 768, 768, IL_PAL_RGB24⟩)) ?_ (fun r hr => ?_)
  · rw [if_neg (by simp)]
    unfold mdlStep
    refine (L.read 1 64 ht (by decide) (by decide)).bind (fun r hr => ?_)
    obtain ⟨a1, a2, a3⟩ := hr
    obtain ⟨g, n, t⟩ := r
    have hl64 : g.length = 64 := by rw [show g = at_ bs T 64 from a1, at_length]; omega
    have hn : n = 64 := by rw [show n = g.length / 1 from a2, hl64]
    have ht : At t bs (T + 64) := by have : At t bs (T + g.length) := a3; rwa [hl64] at this
    subst hn
    simp only []
    rw [if_neg (by simp)]
    refine (head_spec L.toLaws junk bs [u32f, u32f, u32f, u32f] _ (T + 64) ht (by decide)).bind (fun r hr => ?_)
    obtain ⟨-, hpos, hf⟩ := hr
    obtain ⟨g, t⟩ := r
    have ht : At t bs (T + 80) := hpos (by show T + 64 + 16 ≤ _; omega)
    have e1 : fle g 1 = leAt bs (T + 68) 4 := fle_eq (hf 1 u32f rfl (by show T + 64 + 4 + 4 ≤ _; omega))
    have e2 : fle g 2 = leAt bs (T + 72) 4 := fle_eq (hf 2 u32f rfl (by show T + 64 + 8 + 4 ≤ _; omega))
    have e3 : fle g 3 = leAt bs (T + 76) 4 := fle_eq (hf 3 u32f rfl (by show T + 64 + 12 + 4 ≤ _; omega))
    have etell : o.tell t = T + 80 := L.tellAt ht (by omega)
    simp only [e1, e2, e3, etell, hw, hh, hp]
    rw [if_neg hp0, toInt_nat (n := p) (by omega), toInt_nat (n := T + 80) (by omega), u32_of_lt (n := w * h) (by omega)]
    obtain ⟨f1, f2, f3, f4, f5, f6, f7, f8, f9⟩ := tex_fields junk w h 1 IL_COLOUR_INDEX hw0 hh0 (by decide) (by omega)
    have hdl : w * h = (tex junk w h 1 IL_COLOUR_INDEX).data.length := by rw [tex_len, f9, Nat.mul_one]
    have hwh : 0 < w * h := Nat.mul_pos hw0 hh0
    refine (L.seekAbs p ht (by omega)).bind (fun r hr => ?_)
    refine (into_one L _ (w * h) hr hwh hdl (by omega)).bind (fun r hr => ?_)
    obtain ⟨n, d, t⟩ := r
    obtain ⟨c1, c2, c3⟩ := hr
    simp only at c1 c2
    subst c1 c2
    simp only []
    rw [if_neg (by simp)]
    refine (into_full L (alloc junk 768) 1 768 c3 (by decide) (by decide) (by rw [alloc_length]) (by omega)).bind (fun r hr => ?_)
    obtain ⟨n, d, t⟩ := r
    obtain ⟨c1, c2, c3⟩ := hr
    simp only at c1 c2
    subst c1 c2
    simp only []
    rw [if_neg (by simp)]
    refine (L.seekAbs (T + 80) c3 (by omega)).bind (fun r hr => ?_)
    exact Holds.pure ⟨⟨_, hr⟩, rfl, rfl⟩
  · obtain ⟨c1, c2, c3⟩ := hr
    rw [c2, c3]
    refine Holds.pure ⟨rfl, ?_, rfl, ?_, c1⟩
    · show some _ = some _
      rw [at_length, Nat.min_eq_left (by omega)]
    · refine shows_tex junk w h 1 IL_COLOUR_INDEX hw0 hh0 (by decide) (by omega) _ (by rw [at_length]; omega) _ (fun x y c hx hy hcc => ?_)
      have hc0 : c = 0 := by omega
      subst hc0
      rw [Nat.mul_one, Nat.add_zero, at_get _ _ _ _ (row_lt hx hy)]

/-- One mipmap is read. -/
theorem walRead_spec (L : Laws2 o At) {bs : List UInt8} (g : List (List UInt8)) (i : Nat) (s : WalS σ) (m : Mip) (p q : Nat) (hat : At s.inp bs q)
    (hf : s.failed = false) (hm : s.mips[i]? = some m) (hp : fle g (3 + (i + 1)) = p) (h0 : 0 < m.img.width * m.img.height)
    (hd : m.img.data.length = m.img.width * m.img.height) (hfit : p + m.img.width * m.img.height ≤ bs.length) :
    Holds (walRead o g i s) (fun t => (∃ q, At t.inp bs q) ∧ t.failed = false ∧
      t.mips = s.mips.set i { m with img := { m.img with data := at_ bs p (m.img.width * m.img.height) } }) := by
  have hl31 := L.len hat
  unfold walRead
  rw [hf, if_neg (by simp), hp, toInt_nat (by omega)]
  refine (L.seekAbs p hat (by omega)).bind (fun r hr => ?_)
  obtain ⟨b, t⟩ := r
  simp only []
  rw [rd_of_some hm, bind_ok, u32_of_lt (by omega)]
  refine (into_one L m.img.data (m.img.width * m.img.height) hr h0 hd.symm hfit).bind (fun r hr => ?_)
  obtain ⟨n, d, t⟩ := r
  obtain ⟨c1, c2, c3⟩ := hr
  simp only at c1 c2
  subst c1 c2
  exact Holds.pure ⟨⟨_, c3⟩, by simp, rfl⟩

theorem wal_spec (L : Laws2 o At) (junk : Nat → UInt8) (table : List UInt8) (htab : table.length = 768) {s : σ} {bs : List UInt8} (hs : At s bs 0)
    (hlen : 100 ≤ bs.length) (w h p p1 p2 p3 : Nat) (hw : leAt bs 32 4 = w) (hh : leAt bs 36 4 = h) (hp : leAt bs 40 4 = p) (hp1 : leAt bs 44 4 = p1)
    (hp2 : leAt bs 48 4 = p2) (hp3 : leAt bs 52 4 = p3) (hw8 : 8 ≤ w) (hh8 : 8 ≤ h) (hall : p + w * h ≤ bs.length)
    (hall1 : p1 + (w / 2) * (h / 2) ≤ bs.length) (hall2 : p2 + (w / 4) * (h / 4) ≤ bs.length) (hall3 : p3 + (w / 8) * (h / 8) ≤ bs.length) :
    Holds (iLoadWalInternal o junk table s) (fun r => r.1 = true ∧ HasPal r.2.1.2 table IL_PAL_RGB24 ∧
      Shows r.2.1.1 w h 1 IL_COLOUR_INDEX (fun x y _ => bs[p + (y * w + x)]?) ∧
      (∃ m1 m2 m3 : Mip, r.2.2.1 = [m1, m2, m3] ∧
        Shows m1.img (w / 2) (h / 2) 1 IL_COLOUR_INDEX (fun x y _ => bs[p1 + (y * (w / 2) + x)]?) ∧
        Shows m2.img (w / 4) (h / 4) 1 IL_COLOUR_INDEX (fun x y _ => bs[p2 + (y * (w / 4) + x)]?) ∧
        Shows m3.img (w / 8) (h / 8) 1 IL_COLOUR_INDEX (fun x y _ => bs[p3 + (y * (w / 8) + x)]?) ∧
        (∀ m ∈ [m1, m2, m3], m.palette = none ∧ m.palSize = 768)) ∧
      ∃ q, At r.2.2.2 bs q) := by
  have hl31 := L.len hs
  unfold iLoadWalInternal
  refine (head_spec L.toLaws junk bs [arr 32, u32f, u32f, u32f, u32f, u32f, u32f, arr 32, u32f, u32f, u32f] _ 0 hs (by decide)).bind (fun r hr => ?_)
  obtain ⟨⟨q, hq⟩, -, hf⟩ := hr
  obtain ⟨g, t⟩ := r
  have e1 : fle g 1 = w := (fle_eq (hf 1 u32f rfl (by show 0 + 32 + 4 ≤ _; omega))).trans hw
  have e2 : fle g 2 = h := (fle_eq (hf 2 u32f rfl (by show 0 + 36 + 4 ≤ _; omega))).trans hh
  have e3 : fle g 3 = p := (fle_eq (hf 3 u32f rfl (by show 0 + 40 + 4 ≤ _; omega))).trans hp
  have e4 : fle g 4 = p1 := (fle_eq (hf 4 u32f rfl (by show 0 + 44 + 4 ≤ _; omega))).trans hp1
  have e5 : fle g 5 = p2 := (fle_eq (hf 5 u32f rfl (by show 0 + 48 + 4 ≤ _; omega))).trans hp2
  have e6 : fle g 6 = p3 := (fle_eq (hf 6 u32f rfl (by show 0 + 52 + 4 ≤ _; omega))).trans hp3
  simp only [e1, e2, e3]
  have d4 : ∀ n, n / 2 / 2 = n / 4 := fun n => by omega
  have d8 : ∀ n, n / 4 / 2 = n / 8 := fun n => by omega
  have mono : ∀ a b c d : Nat, a ≤ b → c ≤ d → a * c ≤ b * d := fun a b c d => Nat.mul_le_mul
  rw [d4, d4, d8, d8, table_copy junk table htab, bind_ok, toInt_nat (n := p) (by omega), u32_of_lt (n := w * h) (by omega)]
  have tf := fun (a b : Nat) (ha : 0 < a) (hb : 0 < b) (hf : a * b ≤ bs.length) => tex_fields junk a b 1 IL_COLOUR_INDEX ha hb (by decide) (by omega)
  have sh : ∀ (a b q : Nat), 0 < a → 0 < b → q + a * b ≤ bs.length →
      Shows { tex junk a b 1 IL_COLOUR_INDEX with data := at_ bs q (a * b), origin := IL_ORIGIN_UPPER_LEFT } a b 1 IL_COLOUR_INDEX (fun x y _ => bs[q + (y * a + x)]?) := by
    intro a b q ha hb hq
    refine shows_tex junk a b 1 IL_COLOUR_INDEX ha hb (by decide) (by omega) _ (by rw [at_length]; omega) _ (fun x y c hx hy hcc => ?_)
    have hc0 : c = 0 := by omega
    subst hc0
    rw [Nat.mul_one, Nat.add_zero, at_get _ _ _ _ (row_lt hx hy)]
  have mf : ∀ (a b q : Nat), 0 < a → 0 < b → q + a * b ≤ bs.length → 0 < (walMip junk a b).img.width * (walMip junk a b).img.height ∧
      (walMip junk a b).img.data.length = (walMip junk a b).img.width * (walMip junk a b).img.height ∧
      (walMip junk a b).img.width * (walMip junk a b).img.height = a * b := by
    intro a b q ha hb hq
    obtain ⟨f1, f2, -, -, -, -, -, -, f9⟩ := tf a b ha hb (by omega)
    have g1 : (walMip junk a b).img.width = a := f1
    have g2 : (walMip junk a b).img.height = b := f2
    have g3 : (walMip junk a b).img.data.length = a * b := by
      show (tex junk a b 1 IL_COLOUR_INDEX).data.length = _
      rw [tex_len, f9, Nat.mul_one]
    rw [g1, g2, g3]
    exact ⟨Nat.mul_pos ha hb, rfl, rfl⟩
  have hdl : w * h = (tex junk w h 1 IL_COLOUR_INDEX).data.length := by
    rw [tex_len, (tf w h (by omega) (by omega) (by omega)).2.2.2.2.2.2.2.2, Nat.mul_one]
  refine (L.seekAbs p hq (by omega)).bind (fun r hr => ?_)
  refine (into_one L _ (w * h) hr (Nat.mul_pos (by omega) (by omega)) hdl hall).bind (fun r hr => ?_)
  obtain ⟨n, d, t⟩ := r
  obtain ⟨c1, c2, c3⟩ := hr
  simp only at c1 c2
  subst c1 c2
  simp only []
  rw [if_neg (by simp)]
  obtain ⟨a1, a2, a3⟩ := mf (w / 2) (h / 2) p1 (by omega) (by omega) hall1
  obtain ⟨b1, b2, b3⟩ := mf (w / 4) (h / 4) p2 (by omega) (by omega) hall2
  obtain ⟨c1, c2, c4⟩ := mf (w / 8) (h / 8) p3 (by omega) (by omega) hall3
  refine Holds.bind (P := fun r : WalS σ => (∃ q, At r.inp bs q) ∧ r.failed = false ∧ r.mips =
    [{ walMip junk (w / 2) (h / 2) with img := { (walMip junk (w / 2) (h / 2)).img with data := at_ bs p1 (w / 2 * (h / 2)) } },
     { walMip junk (w / 4) (h / 4) with img := { (walMip junk (w / 4) (h / 4)).img with data := at_ bs p2 (w / 4 * (h / 4)) } },
     { walMip junk (w / 8) (h / 8) with img := { (walMip junk (w / 8) (h / 8)).img with data := at_ bs p3 (w / 8 * (h / 8)) } }]) ?_ (fun r hr => ?_)
  · generalize walMip junk (w / 2) (h / 2) = m1 at *
    generalize walMip junk (w / 4) (h / 4) = m2 at *
    generalize walMip junk (w / 8) (h / 8) = m3 at *
    rw [show (3 : Nat) = 0 + 1 + 1 + 1 from rfl, loopN_succ, loopN_succ, loopN_succ, loopN_zero, bind_ok]
    refine (Holds.bind ((Holds.bind (walRead_spec L g 0 ⟨[m1, m2, m3], t, false⟩ m1 p1 _ c3 rfl rfl e4 a1 a2 (by omega)) (fun u hu => ?_)
      : Holds _ (fun r : WalS σ => (∃ q, At r.inp bs q) ∧ r.failed = false ∧ r.mips =
        [{ m1 with img := { m1.img with data := at_ bs p1 (w / 2 * (h / 2)) } }, { m2 with img := { m2.img with data := at_ bs p2 (w / 4 * (h / 4)) } }, m3])))
      (fun u hu => ?_))
    · obtain ⟨⟨q, hq⟩, u2, u3⟩ := hu
      rw [a3] at u3
      refine (walRead_spec L g 1 u m2 p2 _ hq u2 (by rw [u3]; rfl) e5 b1 b2 (by omega)).mono (fun v hv => ?_)
      refine ⟨hv.1, hv.2.1, ?_⟩
      rw [hv.2.2, u3, b3]; rfl
    · obtain ⟨⟨q, hq⟩, u2, u3⟩ := hu
      refine (walRead_spec L g 2 u m3 p3 _ hq u2 (by rw [u3]; rfl) e6 c1 c2 (by omega)).mono (fun v hv => ?_)
      refine ⟨hv.1, hv.2.1, ?_⟩
      rw [hv.2.2, u3, c4]; rfl
  · obtain ⟨u1, u2, u3⟩ := hr
    rw [u2, if_neg (by simp), u3]
    refine Holds.pure ⟨rfl, ?_, sh w h p (by omega) (by omega) hall, ⟨_, _, _, rfl, sh _ _ p1 (by omega) (by omega) hall1,
      sh _ _ p2 (by omega) (by omega) hall2, sh _ _ p3 (by omega) (by omega) hall3, ?_⟩, u1⟩
    · show some _ = some _
      rw [htab]
    · intro m hm
      simp only [List.mem_cons, List.not_mem_nil, or_false] at hm
      rcases hm with rfl | rfl | rfl <;> exact ⟨rfl, rfl⟩

end DevIL.Games
