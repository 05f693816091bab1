import Verif.Model.Rot
import Verif.Lemmas.Iwi
import Verif.Lemmas.PsdG
import Verif.Lemmas.Scitex
import Verif.Props.Dxt
import Verif.Lemmas.PsdB
/-! ROT files: the chunks. -/
set_option autoImplicit false
namespace DevIL.Rot
open DevIL.Games DevIL.Detect DevIL.Image DevIL.DetectSpec DevIL.RotSpec DevIL.GamesSpec
open DevIL.Psd (EofLaw)
open DevIL.Dds (texN texN_fields level_image LevelAt)

variable {σ : Type} {o : Ops σ} {At : σ → List UInt8 → Nat → Prop}

theorem at_stop {bs : List UInt8} {p n : Nat} (h : bs.length ≤ p) : at_ bs p n = [] := by
  apply List.eq_nil_of_length_eq_zero
  rw [at_length]; omega

theorem at_min (bs : List UInt8) (p n : Nat) : at_ bs (min p bs.length) n = at_ bs p n := by
  rcases Nat.le_total p bs.length with h | h
  · rw [Nat.min_eq_left h]
  · rw [Nat.min_eq_right h, at_stop (Nat.le_refl _), at_stop h]

/-- Where reading fields ends. -/
theorem head_pos (L : Laws o At) (junk : Nat → UInt8) {bs : List UInt8} (fs : List Fld) : ∀ (s : σ) (p : Nat), At s bs p → p ≤ bs.length →
    (∀ f ∈ fs, ∃ a b, f = Fld.rd a b ∧ 0 < a ∧ a * b < 4294967296) →
    Holds (head o junk fs s) (fun r => At r.2 bs (min (p + start fs fs.length) bs.length)) := by
  induction fs with
  | nil => intro s p h hp _; exact Holds.pure (by show At s bs (min (p + 0) _); rw [Nat.add_zero, Nat.min_eq_left hp]; exact h)
  | cons f fs ih =>
    intro s p h hp hf
    obtain ⟨a, b, rfl, ha, hab⟩ := hf f List.mem_cons_self
    unfold head
    refine (L.read a b h ha hab).bind (fun r hr => ?_)
    obtain ⟨g, m, s1⟩ := r
    obtain ⟨h1, -, h3⟩ := hr
    simp only [] at h1 h3 ⊢
    have hl : g.length = min (a * b) (bs.length - p) := by rw [h1, at_length]
    refine (ih s1 _ h3 (by omega) (fun f hf' => hf f (List.mem_cons_of_mem _ hf'))).bind (fun r hr => Holds.pure ?_)
    simp only [] at hr ⊢
    have e : start (Fld.rd a b :: fs) (Fld.rd a b :: fs).length = a * b + start fs fs.length := by
      simp [start, Fld.width]
    rw [e]
    have : min (p + (a * b + start fs fs.length)) bs.length = min (p + g.length + start fs fs.length) bs.length := by omega
    rw [this]
    exact hr

theorem Holds.both {α : Type} {c : C α} {P Q : α → Prop} (h1 : Holds c P) (h2 : Holds c Q) : Holds c (fun r => P r ∧ Q r) := by
  obtain ⟨a, e, p⟩ := h1
  obtain ⟨b, e', q⟩ := h2
  rw [e] at e'
  cases e'
  exact ⟨a, e, p, q⟩

/-- An array after reading. -/
def over (bs : List UInt8) (p : Nat) (old : List UInt8) : List UInt8 := at_ bs p 4 ++ old.drop (at_ bs p 4).length

theorem over_full {bs : List UInt8} {p : Nat} {old : List UInt8} (h : p + 4 ≤ bs.length) (hl : old.length = 4) : over bs p old = at_ bs p 4 := by
  unfold over
  rw [List.drop_of_length_le (by rw [at_length]; omega), List.append_nil]

theorem over_length {bs : List UInt8} {p : Nat} {old : List UInt8} (hl : old.length = 4) : (over bs p old).length = 4 := by
  unfold over
  have := at_length bs p 4
  rw [List.length_append, List.length_drop]; omega

theorem tag_spec (L : Laws2 o At) (junk : Nat → UInt8) {bs : List UInt8} {p : Nat} {form name : List UInt8} {s : σ} (h : At s bs p) (hp : p ≤ bs.length) (lf : form.length = 4) (ln : name.length = 4) :
    Holds (tag o junk form name s) (fun r => r.1 = over bs p form ∧ (p + 8 ≤ bs.length → r.2.1 = beAt bs (p + 4) 4) ∧ r.2.2.1 = over bs (p + 8) name ∧
      At r.2.2.2 bs (min (p + 12) bs.length)) := by
  unfold tag
  refine (into_spec L form 1 4 h (by decide) (by decide) (by omega)).bind (fun r hr => ?_)
  obtain ⟨n, form', s1⟩ := r
  obtain ⟨-, h2, h3⟩ := hr
  simp only [Nat.one_mul] at h2 h3 ⊢
  have l1 := at_length bs p 4
  refine (Holds.both (head_spec L.toLaws junk bs [u32f] s1 _ h3 (by decide)) (head_pos L.toLaws junk [u32f] s1 _ h3 (by omega)
    (by intro f hf; simp only [List.mem_cons, List.not_mem_nil, or_false] at hf; exact ⟨4, 1, hf, by decide, by decide⟩))).bind (fun r hr => ?_)
  obtain ⟨hd, s2⟩ := r
  obtain ⟨⟨-, -, h5⟩, h6⟩ := hr
  simp only [] at h5 h6 ⊢
  have st : start [u32f] [u32f].length = 4 := rfl
  rw [st] at h6
  have : min (p + (at_ bs p 4).length + 4) bs.length = min (p + 8) bs.length := by omega
  rw [this] at h6
  refine (into_spec L name 1 4 h6 (by decide) (by decide) (by omega)).bind (fun r hr => Holds.pure ?_)
  obtain ⟨n', name', s3⟩ := r
  obtain ⟨-, h7, h8⟩ := hr
  simp only [Nat.one_mul] at h7 h8 ⊢
  rw [at_min] at h7 h8
  have l2 := at_length bs (p + 8) 4
  refine ⟨h2, fun hl => ?_, h7, ?_⟩
  · have e := h5 0 u32f rfl (by show p + (at_ bs p 4).length + 0 + 4 ≤ _; omega)
    unfold fbe
    rw [e]
    show be (at_ bs (p + (at_ bs p 4).length + 0) 4) = _
    rw [show p + (at_ bs p 4).length + 0 = p + 4 by omega]
    rfl
  · rw [show min (p + 12) bs.length = min (p + 8) bs.length + (at_ bs (p + 8) 4).length by omega]
    exact h8

/-- The four numbers of a level. -/
theorem nums_spec (L : Laws2 o At) (junk : Nat → UInt8) {bs : List UInt8} {p : Nat} {s : σ} (h : At s bs p) (hp : p ≤ bs.length) :
    Holds (head o junk [u32f, u32f, u32f, u32f] s) (fun r => At r.2 bs (min (p + 16) bs.length) ∧
      (p + 16 ≤ bs.length → fle r.1 1 = leAt bs (p + 4) 4 ∧ fle r.1 2 = leAt bs (p + 8) 4 ∧ fle r.1 3 = leAt bs (p + 12) 4)) := by
  refine (Holds.both (head_spec L.toLaws junk bs [u32f, u32f, u32f, u32f] s _ h (by decide)) (head_pos L.toLaws junk [u32f, u32f, u32f, u32f] s _ h (by omega)
    (by intro f hf; simp only [List.mem_cons, List.not_mem_nil, or_false, or_self] at hf; exact ⟨4, 1, hf, by decide, by decide⟩))).mono (fun r hr => ?_)
  obtain ⟨⟨-, -, h5⟩, h6⟩ := hr
  refine ⟨h6, fun hl => ?_⟩
  have e1 := h5 1 u32f rfl (by show p + 4 + 4 ≤ _; omega)
  have e2 := h5 2 u32f rfl (by show p + 8 + 4 ≤ _; omega)
  have e3 := h5 3 u32f rfl (by show p + 12 + 4 ≤ _; omega)
  unfold fle
  rw [e1, e2, e3]
  exact ⟨rfl, rfl, rfl⟩

/-- The image of a level is what the blocks at `p` show. -/
def Shown (junk : Nat → UInt8) (bs : List UInt8) (dxt p w h : Nat) (m : Img) : Prop :=
  m.origin = IL_ORIGIN_LOWER_LEFT ∧ LevelAt junk bs dxt p w h { m with origin := IL_ORIGIN_UPPER_LEFT }

theorem comp_eq {w h : Nat} (hw : 0 < w) (hh : 0 < h) (hwh : w * h < 2 ^ 27) : compSize 16 w h = DxtSpec.bytes 16 w h 1 ∧ 0 < DxtSpec.bytes 16 w h 1 ∧ DxtSpec.bytes 16 w h 1 < 4294967296 := by
  have h1 : w * 1 ≤ w * h := Nat.mul_le_mul_left w hh
  have h2 : 1 * h ≤ w * h := Nat.mul_le_mul_right h hw
  have hb : (w + 3) / 4 * ((h + 3) / 4) ≤ w * h := Nat.mul_le_mul (by omega) (by omega)
  have hp : 0 < (w + 3) / 4 * ((h + 3) / 4) := Nat.mul_pos (by omega) (by omega)
  unfold compSize DxtSpec.bytes
  rw [u32_of_lt (show w + 3 < 4294967296 by omega), u32_of_lt (show h + 3 < 4294967296 by omega), u32_of_lt (show (w + 3) / 4 * ((h + 3) / 4) < 4294967296 by omega), Nat.mul_one,
    u32_of_lt (by omega)]
  omega

/-- The data of a level. -/
theorem data_spec (L : Laws2 o At) (junk : Nat → UInt8) {bs : List UInt8} {fmt dxt p w h size comp : Nat} {s : σ} (hc : Coded fmt dxt) (hA : At s bs p) (hwh : w * h < 2 ^ 27)
    (hw1 : w < 4294967293) (hh1 : h < 4294967293) :
    Holds (levelData o junk fmt size (tex junk w h 4 IL_RGBA) w h comp s) (fun r =>
      (r.1 = true → 0 < w ∧ 0 < h ∧ size = DxtSpec.bytes 16 w h 1 ∧ p + size ≤ bs.length ∧ r.2.2.1 = size ∧ Shown junk bs dxt p w h r.2.1 ∧ At r.2.2.2 bs (p + size)) ∧
      (0 < w → 0 < h → size = DxtSpec.bytes 16 w h 1 → p + size ≤ bs.length → r.1 = true) ∧ (∃ q, At r.2.2.2 bs q) ∧ r.2.1.data.length = r.2.1.size) := by
  have hk : ¬ fmt = 1024 ∧ ¬ fmt = 1028 := by rcases hc with ⟨rfl, -⟩ | ⟨rfl, -⟩ <;> decide
  have hx : (if fmt = 1028 then IL_DXT1 else if fmt = 1029 then IL_DXT3 else IL_DXT5) = dxt := by rcases hc with ⟨rfl, rfl⟩ | ⟨rfl, rfl⟩ <;> decide
  have hbs : Dxt.bsize dxt = 16 := by rcases hc with ⟨-, rfl⟩ | ⟨-, rfl⟩ <;> decide
  have hd : dxt = IL_DXT1 ∨ dxt = IL_DXT3 ∨ dxt = IL_DXT5 := by rcases hc with ⟨-, rfl⟩ | ⟨-, rfl⟩ <;> simp
  unfold levelData
  rw [if_neg hk.1, hx, if_neg hk.2]
  simp only []
  by_cases h0 : w = 0 ∨ h = 0
  · have e0 : compSize 16 w h = 0 := by
      unfold compSize
      rw [u32_of_lt (show w + 3 < 4294967296 by omega), u32_of_lt (show h + 3 < 4294967296 by omega)]
      rcases h0 with rfl | rfl
      · rw [show (0 + 3) / 4 = 0 from rfl, Nat.zero_mul]; rfl
      · rw [show (0 + 3) / 4 = 0 from rfl, Nat.mul_zero]; rfl
    rw [e0]
    by_cases hs : 0 ≠ size
    · rw [if_pos hs]
      exact Holds.pure ⟨fun (h : false = true) => absurd h (by decide), fun _ _ => by omega, ⟨_, hA⟩, tex_len ..⟩
    · rw [if_neg hs]
      refine Holds.bind (P := fun r => r.1 = 0 ∧ ∃ q, At r.2.2 bs q) ?_ (fun r hr => ?_)
      · unfold into
        refine (L.read0 1 hA).bind (fun r hr => ?_)
        obtain ⟨g, n, s1⟩ := r
        obtain ⟨h1, h2, h3⟩ := hr
        simp only [] at h1 h2 h3 ⊢
        subst h1 h2
        exact ⟨_, rfl, rfl, _, h3⟩
      · obtain ⟨n, c, s1⟩ := r
        obtain ⟨h1, h2⟩ := hr
        simp only [] at h1 h2
        subst h1
        rw [if_pos (show (0 : Nat) ≠ 1 by decide)]
        exact Holds.pure ⟨fun (h : false = true) => absurd h (by decide), fun _ _ => by omega, h2, tex_len ..⟩
  · obtain ⟨ce, c0, c1⟩ := comp_eq (w := w) (h := h) (by omega) (by omega) hwh
    rw [ce]
    by_cases hs : DxtSpec.bytes 16 w h 1 ≠ size
    · rw [if_pos hs]
      exact Holds.pure ⟨fun (h : false = true) => absurd h (by decide), fun _ _ h => absurd h.symm hs, ⟨_, hA⟩, tex_len ..⟩
    · rw [if_neg hs]
      have hs : size = DxtSpec.bytes 16 w h 1 := by omega
      rw [← hs] at c0 c1 ⊢
      refine (into_spec L (alloc junk size) size 1 hA c0 (by omega) (by rw [alloc_length]; omega)).bind (fun r hr => ?_)
      obtain ⟨n, c, s1⟩ := r
      obtain ⟨h1, h2, h3⟩ := hr
      simp only [Nat.mul_one] at h1 h2 h3 ⊢
      have hl := at_length bs p size
      by_cases hfit : p + size ≤ bs.length
      · have hl : (at_ bs p size).length = size := by omega
        rw [hl, Nat.div_self c0] at h1
        rw [hl, List.drop_of_length_le (by rw [alloc_length]), List.append_nil] at h2
        rw [hl] at h3
        obtain ⟨d, e1, e2⟩ := level_image junk (bs := bs) (p := p) (w := w) (h := h) (fmt := dxt) (by omega) (by omega) hwh hd (by rw [hbs, ← hs]; exact hfit)
        rw [hbs, ← hs] at e1
        have e1 : Dxt.DdsDecompress (tex junk w h 4 IL_RGBA) dxt c = .ok d := by rw [h2]; exact e1
        rw [if_neg (by omega), e1, bind_ok]
        have hlen : d.length = (tex junk w h 4 IL_RGBA).size := by
          obtain ⟨m0, -, -, -, h4, h5⟩ := id e2
          obtain ⟨q, g, S, -⟩ := Dxt.surface junk (s := ⟨m0, dxt, at_ bs p (DxtSpec.bytes (Dxt.bsize dxt) w h 1)⟩) h4 hd
          rw [h5] at g
          cases g
          exact S.consistent.2.2.2
        exact Holds.pure ⟨fun _ => ⟨by omega, by omega, trivial, hfit, rfl, ⟨rfl, e2⟩, h3⟩, fun _ _ _ _ => rfl, ⟨_, h3⟩, hlen⟩
      · have hl : (at_ bs p size).length < size := by omega
        rw [Nat.div_eq_of_lt hl] at h1
        rw [if_pos (by omega)]
        exact Holds.pure ⟨fun (h : false = true) => absurd h (by decide), fun _ _ _ h => absurd h hfit, ⟨_, h3⟩, tex_len ..⟩

/-! ### The loop -/

/-- What the theorems need of the sides in the head. -/
structure Sides (W H : Nat) : Prop where
  w0 : 0 < W
  h0 : 0 < H
  area : W * H < 2 ^ 27

theorem Sides.le {W H w h : Nat} (S : Sides W H) (hw : w ≤ W) (hh : h ≤ H) : w * h < 2 ^ 27 ∧ w < 4294967293 ∧ h < 4294967293 := by
  have := S.area
  have h1 : w * h ≤ W * H := Nat.mul_le_mul hw hh
  have h2 : W * 1 ≤ W * H := Nat.mul_le_mul_left W S.h0
  have h3 : 1 * H ≤ W * H := Nat.mul_le_mul_right H S.w0
  omega

def Blocks (ms : List Img) : Prop := ∀ m ∈ ms, m.data.length = m.size

/-- One round, whatever the bytes are. -/
theorem one_gen (L : Laws2 o At) (junk : Nat → UInt8) {bs : List UInt8} {fmt dxt W H p c : Nat} {t : St σ} (hc : Coded fmt dxt) (S : Sides W H) (hA : At t.inp bs p) (hp : p ≤ bs.length)
    (lf : t.form.length = 4) (ln : t.name.length = 4) (hcomp : t.comp = some c) :
    Holds (one o junk fmt W H t) (fun r => r.2.form.length = 4 ∧ r.2.name.length = 4 ∧ (∃ c', r.2.comp = some c') ∧ (∃ q, At r.2.inp bs q) ∧ (Blocks t.imgs → Blocks r.2.imgs) ∧
      (r.1 = none → p + 28 + leAt bs (p + 24) 4 ≤ bs.length ∧ At r.2.inp bs (p + 28 + leAt bs (p + 24) 4)) ∧ (over bs p t.form = FORM → r.1 ≠ some true)) := by
  unfold one
  refine (tag_spec L junk hA hp lf ln).bind (fun r hr => ?_)
  obtain ⟨form, n, name, s1⟩ := r
  obtain ⟨h1, -, h2, h3⟩ := hr
  simp only [] at h1 h2 h3 ⊢
  have lf' : form.length = 4 := by rw [h1]; exact over_length lf
  have ln' : name.length = 4 := by rw [h2]; exact over_length ln
  have nn : ∀ (b : Bool) (x : Prop), (some b = (none : Option Bool)) → x := fun b x h => by cases h
  by_cases hf : form ≠ FORM
  · rw [if_pos hf]
    exact Holds.pure ⟨lf', ln', ⟨_, hcomp⟩, ⟨_, h3⟩, fun h => h, nn _ _, fun h => absurd (h1.trans h) hf⟩
  rw [if_neg hf]
  by_cases hn : name ≠ MLVL
  · rw [if_pos hn]
    exact Holds.pure ⟨lf', ln', ⟨_, hcomp⟩, ⟨_, h3⟩, fun h => h, nn _ _, fun _ => by simp⟩
  rw [if_neg hn]
  refine (nums_spec L junk h3 (by omega)).bind (fun r hr => ?_)
  obtain ⟨hd, s2⟩ := r
  obtain ⟨h4, h5⟩ := hr
  simp only [] at h4 h5 ⊢
  by_cases hs : fle hd 1 > W ∨ fle hd 2 > H
  · rw [if_pos hs]
    exact Holds.pure ⟨lf', ln', ⟨_, hcomp⟩, ⟨_, h4⟩, fun h => h, nn _ _, fun _ => by simp⟩
  rw [if_neg hs, hcomp]
  simp only []
  by_cases hz : fle hd 3 > c
  · rw [if_pos hz]
    exact Holds.pure ⟨lf', ln', ⟨_, rfl⟩, ⟨_, h4⟩, fun h => h, nn _ _, fun _ => by simp⟩
  rw [if_neg hz]
  obtain ⟨a1, a2, a3⟩ := S.le (w := fle hd 1) (h := fle hd 2) (by omega) (by omega)
  refine (data_spec L junk (size := fle hd 3) (comp := c) hc h4 a1 a2 a3).bind (fun r hr => Holds.pure ?_)
  obtain ⟨ok, m, c', s3⟩ := r
  obtain ⟨d1, d2, d3, d4⟩ := hr
  simp only [] at d1 d2 d3 d4 ⊢
  refine ⟨lf', ln', ⟨_, rfl⟩, d3, fun hb m' hm => ?_, fun hno => ?_, fun _ => ?_⟩
  · rcases List.mem_append.mp hm with hm | hm
    · exact hb m' hm
    · rw [List.mem_singleton.mp hm]; exact d4
  · cases ok with
    | false => exact absurd hno (by simp)
    | true =>
      obtain ⟨b1, b2, b3, b4, -, -, b5⟩ := d1 rfl
      have hpos := (comp_eq b1 b2 a1).2.1
      rw [← b3] at hpos
      have e := (h5 (by omega)).2.2
      rw [show min (p + 12) bs.length + 12 = p + 24 by omega] at e
      rw [← e]
      rw [show min (min (p + 12) bs.length + 16) bs.length = p + 28 by omega] at b4 b5
      exact ⟨b4, b5⟩
  · cases ok <;> simp

/-- A round over a complete level. -/
theorem one_ok (L : Laws2 o At) (junk : Nat → UInt8) {bs : List UInt8} {fmt dxt W H p c w h : Nat} {t : St σ} (hc : Coded fmt dxt) (S : Sides W H) (hA : At t.inp bs p)
    (lf : t.form.length = 4) (ln : t.name.length = 4) (hcomp : t.comp = some c) (f1 : at_ bs p 4 = FORM) (f2 : at_ bs (p + 8) 4 = MLVL) (f3 : leAt bs (p + 16) 4 = w) (f4 : leAt bs (p + 20) 4 = h)
    (f5 : leAt bs (p + 24) 4 = DxtSpec.bytes 16 w h 1) (w0 : 0 < w) (h0 : 0 < h) (hw : w ≤ W) (hh : h ≤ H) (hle : DxtSpec.bytes 16 w h 1 ≤ c) (hfit : p + 28 + DxtSpec.bytes 16 w h 1 ≤ bs.length) :
    Holds (one o junk fmt W H t) (fun r => r.1 = none ∧ r.2.form = FORM ∧ r.2.name.length = 4 ∧ r.2.comp = some (DxtSpec.bytes 16 w h 1) ∧ At r.2.inp bs (p + 28 + DxtSpec.bytes 16 w h 1) ∧
      ∃ m, r.2.imgs = t.imgs ++ [m] ∧ Shown junk bs dxt (p + 28) w h m) := by
  unfold one
  refine (tag_spec L junk hA (by omega) lf ln).bind (fun r hr => ?_)
  obtain ⟨form, n, name, s1⟩ := r
  obtain ⟨h1, -, h2, h3⟩ := hr
  simp only [] at h1 h2 h3 ⊢
  rw [over_full (by omega) lf, f1] at h1
  rw [over_full (by omega) ln, f2] at h2
  rw [Nat.min_eq_left (by omega)] at h3
  subst h1 h2
  rw [if_neg (by simp), if_neg (by simp)]
  refine (nums_spec L junk h3 (by omega)).bind (fun r hr => ?_)
  obtain ⟨hd, s2⟩ := r
  obtain ⟨h4, h5⟩ := hr
  obtain ⟨e1, e2, e3⟩ := h5 (by omega)
  simp only [Nat.add_assoc, Nat.reduceAdd] at h4 e1 e2 e3 ⊢
  rw [f3] at e1
  rw [f4] at e2
  rw [f5] at e3
  rw [Nat.min_eq_left (by omega)] at h4
  rw [e1, e2, e3, if_neg (by omega), hcomp]
  simp only []
  rw [if_neg (by omega)]
  obtain ⟨a1, a2, a3⟩ := S.le hw hh
  refine (data_spec L junk (size := DxtSpec.bytes 16 w h 1) (comp := c) hc h4 a1 a2 a3).bind (fun r hr => Holds.pure ?_)
  obtain ⟨ok, m, c', s3⟩ := r
  obtain ⟨d1, d2, -, -⟩ := hr
  simp only [] at d1 d2 ⊢
  have := d2 w0 h0 trivial (by omega)
  subst this
  obtain ⟨-, -, -, -, b5, b6, b7⟩ := d1 rfl
  refine ⟨rfl, trivial, rfl, by rw [b5], ?_, m, rfl, b6⟩
  rw [← Nat.add_assoc]
  exact b7

/-- A round over something that is not a chunk. -/
theorem one_stop (L : Laws2 o At) (junk : Nat → UInt8) {bs : List UInt8} {fmt W H p : Nat} {t : St σ} (hA : At t.inp bs p) (hp : p + 4 ≤ bs.length) (lf : t.form.length = 4) (ln : t.name.length = 4)
    (hf : at_ bs p 4 ≠ FORM) : Holds (one o junk fmt W H t) (fun r => r.1 = some (decide (t.imgs ≠ [])) ∧ r.2.imgs = t.imgs ∧ ∃ q, At r.2.inp bs q) := by
  unfold one
  refine (tag_spec L junk hA (by omega) lf ln).bind (fun r hr => ?_)
  obtain ⟨form, n, name, s1⟩ := r
  obtain ⟨h1, -, h2, h3⟩ := hr
  simp only [] at h1 h2 h3 ⊢
  rw [over_full (by omega) lf] at h1
  rw [if_pos (by rw [h1]; exact hf)]
  exact Holds.pure ⟨rfl, rfl, _, h3⟩

/-! ### Levels in the file -/

theorem at_mid {a b c : List UInt8} (bs : List UInt8) {p n : Nat} (e : bs = a ++ (b ++ c)) (ha : a.length = p) (hb : b.length = n) : at_ bs p n = b := by
  unfold at_
  rw [e, List.drop_left' ha, List.take_left' hb]

theorem le4_length (n : Nat) : (le4 n).length = 4 := leBytes_length _ _

theorem le_le4 {n : Nat} (h : n < 4294967296) : le (le4 n) = n := Psd.le_leBytes 4 n h

theorem level_length (l : Level) : l.bytes.length = 28 + l.data.length := by
  unfold Level.bytes
  simp only [List.length_append, List.length_reverse, le4_length]
  show 4 + 4 + 4 + (4 + 4 + 4 + 4) + _ = _
  omega

/-- The fields of a level. -/
theorem level_at {pre post : List UInt8} (l : Level) (bs : List UInt8) (e : bs = pre ++ (l.bytes ++ post)) (hw : l.w < 4294967296) (hh : l.h < 4294967296) (hd : l.data.length < 4294967296) :
    at_ bs pre.length 4 = FORM ∧ at_ bs (pre.length + 8) 4 = MLVL ∧ leAt bs (pre.length + 16) 4 = l.w ∧ leAt bs (pre.length + 20) 4 = l.h ∧
      leAt bs (pre.length + 24) 4 = l.data.length ∧ at_ bs (pre.length + 28) l.data.length = l.data := by
  have fl : FORM.length = 4 := rfl
  have ml : MLVL.length = 4 := rfl
  unfold Level.bytes at e
  refine ⟨?_, ?_, ?_, ?_, ?_, ?_⟩
  · exact at_mid (a := pre) (b := FORM) (c := (le4 (l.data.length + 20)).reverse ++ MLVL ++ (le4 l.number ++ le4 l.w ++ le4 l.h ++ le4 l.data.length) ++ l.data ++ post) bs
      (by rw [e]; simp only [List.append_assoc]) rfl rfl
  · exact at_mid (a := pre ++ FORM ++ (le4 (l.data.length + 20)).reverse) (b := MLVL) (c := (le4 l.number ++ le4 l.w ++ le4 l.h ++ le4 l.data.length) ++ l.data ++ post) bs
      (by rw [e]; simp only [List.append_assoc]) (by simp only [List.length_append, List.length_reverse, le4_length, fl]) rfl
  · have := at_mid (a := pre ++ FORM ++ (le4 (l.data.length + 20)).reverse ++ MLVL ++ le4 l.number) (b := le4 l.w) (c := le4 l.h ++ le4 l.data.length ++ l.data ++ post) (p := pre.length + 16) bs
      (by rw [e]; simp only [List.append_assoc]) (by simp only [List.length_append, List.length_reverse, le4_length, fl, ml]) (le4_length _)
    unfold leAt
    rw [this, le_le4 hw]
  · have := at_mid (a := pre ++ FORM ++ (le4 (l.data.length + 20)).reverse ++ MLVL ++ le4 l.number ++ le4 l.w) (b := le4 l.h) (c := le4 l.data.length ++ l.data ++ post) (p := pre.length + 20) bs
      (by rw [e]; simp only [List.append_assoc]) (by simp only [List.length_append, List.length_reverse, le4_length, fl, ml]) (le4_length _)
    unfold leAt
    rw [this, le_le4 hh]
  · have := at_mid (a := pre ++ FORM ++ (le4 (l.data.length + 20)).reverse ++ MLVL ++ le4 l.number ++ le4 l.w ++ le4 l.h) (b := le4 l.data.length) (c := l.data ++ post) (p := pre.length + 24) bs
      (by rw [e]; simp only [List.append_assoc]) (by simp only [List.length_append, List.length_reverse, le4_length, fl, ml]) (le4_length _)
    unfold leAt
    rw [this, le_le4 hd]
  · exact at_mid (a := pre ++ FORM ++ (le4 (l.data.length + 20)).reverse ++ MLVL ++ le4 l.number ++ le4 l.w ++ le4 l.h ++ le4 l.data.length) (b := l.data) (c := post) (p := pre.length + 28) bs
      (by rw [e]; simp only [List.append_assoc]) (by simp only [List.length_append, List.length_reverse, le4_length, fl, ml]) rfl

theorem bytes_mono {w h W H : Nat} (hw : w ≤ W) (hh : h ≤ H) : DxtSpec.bytes 16 w h 1 ≤ DxtSpec.bytes 16 W H 1 := by
  unfold DxtSpec.bytes
  rw [Nat.mul_one, Nat.mul_one]
  exact Nat.mul_le_mul_right 16 (Nat.mul_le_mul (by omega) (by omega))

theorem shown_data {junk : Nat → UInt8} {bs : List UInt8} {dxt p w h : Nat} {m : Img} {data : List UInt8} (hb : Dxt.bsize dxt = 16) (hd : data.length = DxtSpec.bytes 16 w h 1)
    (e : at_ bs p data.length = data) (hs : Shown junk bs dxt p w h m) : Shown junk data dxt 0 w h m := by
  obtain ⟨h1, m0, h2, h3, h4, h5, h6⟩ := hs
  have e' : at_ bs p (DxtSpec.bytes (Dxt.bsize dxt) w h 1) = at_ data 0 (DxtSpec.bytes (Dxt.bsize dxt) w h 1) := by
    rw [hb, ← hd, e]
    unfold at_
    rw [List.drop_zero, List.take_length]
  rw [e'] at h5 h6
  exact ⟨h1, m0, h2, h3, h4, h5, h6⟩

/-- A complete level, and the loop goes on. -/
theorem round (L : Laws2 o At) (junk : Nat → UInt8) {bs pre post : List UInt8} {fmt dxt W H c : Nat} {t : St σ} {l : Level} (hc : Coded fmt dxt) (S : Sides W H) (e : bs = pre ++ (l.bytes ++ post))
    (hA : At t.inp bs pre.length) (lf : t.form.length = 4) (ln : t.name.length = 4) (hcomp : t.comp = some c) (w0 : 0 < l.w) (h0 : 0 < l.h) (hw : l.w ≤ W) (hh : l.h ≤ H)
    (hd : l.data.length = DxtSpec.bytes 16 l.w l.h 1) (hle : l.data.length ≤ c) :
    Holds (one o junk fmt W H t) (fun r => r.1 = none ∧ r.2.form = FORM ∧ r.2.name.length = 4 ∧ r.2.comp = some l.data.length ∧ At r.2.inp bs (pre ++ l.bytes).length ∧
      ∃ m, r.2.imgs = t.imgs ++ [m] ∧ Shown junk l.data dxt 0 l.w l.h m) := by
  have hb : Dxt.bsize dxt = 16 := by rcases hc with ⟨-, rfl⟩ | ⟨-, rfl⟩ <;> decide
  obtain ⟨a1, a2, a3⟩ := S.le hw hh
  have hsz := comp_eq w0 h0 a1
  obtain ⟨f1, f2, f3, f4, f5, f6⟩ := level_at l bs e (by omega) (by omega) (by omega)
  have hlen : bs.length = pre.length + (28 + l.data.length + post.length) := by rw [e, List.length_append, List.length_append, level_length]
  refine (one_ok L junk hc S hA lf ln hcomp f1 f2 f3 f4 (by rw [f5, hd]) w0 h0 hw hh (by omega) (by omega)).mono (fun r hr => ?_)
  obtain ⟨r1, r2, r3, r4, r5, m, r6, r7⟩ := hr
  refine ⟨r1, r2, r3, by rw [r4, hd], ?_, m, r6, shown_data hb hd f6 r7⟩
  rw [List.length_append, level_length, hd, ← Nat.add_assoc]
  exact r5

/-- Images that show these levels. -/
def ShowsAll (junk : Nat → UInt8) (dxt : Nat) (ls : List Level) (ms : List Img) : Prop :=
  ms.length = ls.length ∧ ∀ (i : Nat) l m, ls[i]? = some l → ms[i]? = some m → Shown junk l.data dxt 0 l.w l.h m

theorem flat_cons (l : Level) (ls : List Level) (r : List UInt8) : ((l :: ls).map Level.bytes).flatten ++ r = l.bytes ++ ((ls.map Level.bytes).flatten ++ r) := by
  rw [List.map_cons, List.flatten_cons, List.append_assoc]

theorem levels_ok (L : Laws2 o At) (E : EofLaw o At) (junk : Nat → UInt8) {fmt dxt W H : Nat} (hc : Coded fmt dxt) (S : Sides W H) (ls : List Level) :
    ∀ (fuel : Nat) (bs pre rest : List UInt8) (c w h : Nat) (t : St σ), ls.length < fuel → bs = pre ++ ((ls.map Level.bytes).flatten ++ rest) → At t.inp bs pre.length → t.form.length = 4 →
      t.name.length = 4 → t.comp = some c → DxtSpec.bytes 16 w h 1 ≤ c → w ≤ W → h ≤ H → Descend (fun w h => DxtSpec.bytes 16 w h 1) w h ls → Rest rest → (ls = [] → rest ≠ [] ∧ t.imgs ≠ []) →
      Holds (levels o junk fmt W H fuel t) (fun r => r.1 = true ∧ (∃ ms, r.2.1 = t.imgs ++ ms ∧ ShowsAll junk dxt ls ms) ∧ ∃ q, At r.2.2 bs q) := by
  induction ls with
  | nil =>
    intro fuel bs pre rest c w h t hf e hA lf ln _ _ _ _ _ hr hne
    obtain ⟨fuel, rfl⟩ : ∃ k, fuel = k + 1 := ⟨fuel - 1, by rw [List.length_nil] at hf; omega⟩
    obtain ⟨n1, n2⟩ := hne rfl
    rcases hr with rfl | ⟨r1, r2⟩
    · exact absurd rfl n1
    have e : bs = pre ++ rest := by rw [e]; rfl
    have hat : at_ bs pre.length 4 = rest.take 4 := by unfold at_; rw [e, List.drop_left]
    unfold levels
    refine (one_stop L junk hA (by rw [e, List.length_append]; omega) lf ln (by rw [hat]; exact r2)).bind (fun r hr => ?_)
    obtain ⟨b, t'⟩ := r
    obtain ⟨h1, h2, h3⟩ := hr
    simp only [] at h1 h2 h3
    subst h1
    refine Holds.pure ⟨decide_eq_true n2, ⟨[], by rw [List.append_nil]; exact h2, rfl, fun i l m hl => by cases hl⟩, h3⟩
  | cons l ls ih =>
    intro fuel bs pre rest c w h t hf e hA lf ln hcomp hle hW hH hd hr _
    obtain ⟨fuel, rfl⟩ : ∃ k, fuel = k + 1 := ⟨fuel - 1, by omega⟩
    obtain ⟨d1, d2, d3, d4, d5, d6⟩ := hd
    have d5 : l.data.length = DxtSpec.bytes 16 l.w l.h 1 := d5
    rw [flat_cons] at e
    have hmono := bytes_mono d2 d4
    unfold levels
    refine (round L junk hc S e hA lf ln hcomp d1 d3 (by omega) (by omega) d5 (by omega)).bind (fun r hr' => ?_)
    obtain ⟨b, t'⟩ := r
    obtain ⟨r1, r2, r3, r4, r5, m, r6, r7⟩ := hr'
    simp only [] at r1 r2 r3 r4 r5 r6
    subst r1
    have e' : bs = (pre ++ l.bytes) ++ ((ls.map Level.bytes).flatten ++ rest) := by rw [e, List.append_assoc]
    have hpos : 0 < bs.length := by rw [e]; simp only [List.length_append, level_length]; omega
    have hlen : bs.length = (pre ++ l.bytes).length + ((ls.map Level.bytes).flatten ++ rest).length := by rw [e', List.length_append]
    obtain ⟨e1, e2⟩ := E r5 (by omega) hpos
    simp only []
    have one_ : ∀ ms, ShowsAll junk dxt ls ms → ShowsAll junk dxt (l :: ls) (m :: ms) := by
      rintro ms ⟨q1, q2⟩
      refine ⟨by simp [q1], fun i l' m' hl hm => ?_⟩
      cases i with
      | zero => cases hl; cases hm; exact r7
      | succ i => exact q2 i l' m' (by simpa using hl) (by simpa using hm)
    by_cases hend : bs.length ≤ (pre ++ l.bytes).length
    · rw [decide_eq_true hend] at e1
      rw [if_pos e1]
      have : ls = [] := by
        cases ls with
        | nil => rfl
        | cons l' ls =>
          have := level_length l'
          rw [flat_cons] at hlen
          simp only [List.length_append] at hlen hend
          omega
      subst this
      exact Holds.pure ⟨rfl, ⟨[m], r6, one_ [] ⟨rfl, fun i l m hl => by cases hl⟩⟩, _, e2⟩
    · rw [decide_eq_false hend] at e1
      rw [if_neg (by rw [e1]; decide)]
      refine (ih fuel bs (pre ++ l.bytes) rest l.data.length l.w l.h { t' with inp := (o.eof t'.inp).2 } (by rw [List.length_cons] at hf; omega) e' e2 (by rw [r2]; rfl) r3 r4 (by rw [d5])
        (by omega) (by omega) d6 hr (fun h0 => ⟨fun hr0 => ?_, ?_⟩)).mono (fun r hr => ?_)
      · subst h0 hr0
        exact hend (by rw [hlen]; simp)
      · show t'.imgs ≠ []
        rw [r6]; simp
      · obtain ⟨h1, ⟨ms, h2, h3⟩, h4⟩ := hr
        refine ⟨h1, ⟨m :: ms, ?_, one_ ms h3⟩, h4⟩
        rw [h2]
        show t'.imgs ++ ms = _
        rw [r6, List.append_assoc]
        rfl

theorem levels_any (L : Laws2 o At) (E : EofLaw o At) (junk : Nat → UInt8) {fmt dxt W H : Nat} (hc : Coded fmt dxt) (S : Sides W H) {bs : List UInt8} (hpos : 0 < bs.length) (fuel : Nat) :
    ∀ (p c : Nat) (t : St σ), p ≤ bs.length → bs.length - p < fuel → At t.inp bs p → t.form.length = 4 → t.name.length = 4 → t.comp = some c → Blocks t.imgs →
      Holds (levels o junk fmt W H fuel t) (fun r => Blocks r.2.1 ∧ ∃ q, At r.2.2 bs q) := by
  induction fuel with
  | zero => intro p c t _ h; omega
  | succ fuel ih =>
    intro p c t hp hf hA lf ln hcomp hb
    unfold levels
    refine (one_gen L junk hc S hA hp lf ln hcomp).bind (fun r hr => ?_)
    obtain ⟨b, t'⟩ := r
    obtain ⟨r1, r2, ⟨c', r3⟩, r4, r5, r6, -⟩ := hr
    simp only [] at r1 r2 r3 r4 r5 r6
    cases b with
    | some b => exact Holds.pure ⟨r5 hb, r4⟩
    | none =>
      obtain ⟨q1, q2⟩ := r6 rfl
      obtain ⟨e1, e2⟩ := E q2 q1 hpos
      simp only []
      by_cases hend : (o.eof t'.inp).1 = true
      · rw [if_pos hend]
        exact Holds.pure ⟨r5 hb, _, e2⟩
      · rw [if_neg hend]
        exact ih _ c' { t' with inp := (o.eof t'.inp).2 } q1 (by omega) e2 r1 r2 r3 (r5 hb)

theorem over_prefix {bs : List UInt8} {p : Nat} {w : List UInt8} (hw : w.length = 4) (h : at_ bs p 4 <+: w) : over bs p w = w := by
  obtain ⟨t, ht⟩ := h
  have : w.drop (at_ bs p 4).length = t := by
    conv_lhs => rw [← ht]
    exact List.drop_left
  unfold over
  rw [this, ht]

theorem levels_cut (L : Laws2 o At) (E : EofLaw o At) (junk : Nat → UInt8) {fmt dxt W H : Nat} (hc : Coded fmt dxt) (S : Sides W H) (l : Level) (j : Nat) (hj : j < l.bytes.length) (ls : List Level) :
    ∀ (fuel : Nat) (bs pre : List UInt8) (c w h : Nat) (t : St σ), ls.length < fuel → bs = pre ++ ((ls.map Level.bytes).flatten ++ l.bytes.take j) → At t.inp bs pre.length → t.form = FORM →
      t.name.length = 4 → t.comp = some c → DxtSpec.bytes 16 w h 1 ≤ c → w ≤ W → h ≤ H → Descend (fun w h => DxtSpec.bytes 16 w h 1) w h (ls ++ [l]) → (ls ≠ [] → 0 < j) →
      Holds (levels o junk fmt W H fuel t) (fun r => r.1 = false ∧ ∃ q, At r.2.2 bs q) := by
  induction ls with
  | nil =>
    intro fuel bs pre c w h t hf e hA lf ln hcomp _ hW hH hd _
    obtain ⟨fuel, rfl⟩ : ∃ k, fuel = k + 1 := ⟨fuel - 1, by rw [List.length_nil] at hf; omega⟩
    have e : bs = pre ++ l.bytes.take j := by rw [e]; rfl
    obtain ⟨d1, d2, d3, d4, d5, -⟩ := hd
    have d5 : l.data.length = DxtSpec.bytes 16 l.w l.h 1 := d5
    obtain ⟨a1, a2, a3⟩ := S.le (w := l.w) (h := l.h) (by omega) (by omega)
    have hsz := comp_eq d1 d3 a1
    have hlen : bs.length = pre.length + j := by rw [e, List.length_append, List.length_take]; omega
    have slice : ∀ q n, q + n ≤ j → at_ bs (pre.length + q) n = at_ (pre ++ l.bytes) (pre.length + q) n := by
      intro q n hq
      unfold at_
      rw [e, ← List.drop_drop, ← List.drop_drop, List.drop_left, List.drop_left, List.drop_take, List.take_take, Nat.min_eq_left (by omega)]
    obtain ⟨-, -, -, -, f5, -⟩ := level_at (pre := pre) (post := []) l (pre ++ l.bytes) (by rw [List.append_nil]) (by omega) (by omega) (by omega)
    unfold levels
    refine (one_gen L junk hc S hA (by omega) (by rw [lf]; rfl) ln hcomp).bind (fun r hr => ?_)
    obtain ⟨b, t'⟩ := r
    obtain ⟨-, -, -, r4, -, r6, r7⟩ := hr
    simp only [] at r4 r6 r7
    have hform : over bs pre.length t.form = FORM := by
      rw [lf]
      refine over_prefix rfl ?_
      have : at_ bs pre.length 4 = (l.bytes.take j).take 4 := by unfold at_; rw [e, List.drop_left]
      rw [this, List.take_take, Nat.min_comm, ← List.take_take]
      have : l.bytes.take 4 = FORM := rfl
      rw [this]
      exact List.take_prefix _ _
    have hno := r7 hform
    cases b with
    | some b =>
      cases b with
      | true => exact absurd rfl hno
      | false => exact Holds.pure ⟨rfl, r4⟩
    | none =>
      exfalso
      obtain ⟨q1, -⟩ := r6 rfl
      have : leAt bs (pre.length + 24) 4 = l.data.length := by
        unfold leAt
        rw [slice 24 4 (by omega)]
        exact f5
      rw [this] at q1
      rw [level_length] at hj
      omega
  | cons l' ls ih =>
    intro fuel bs pre c w h t hf e hA lf ln hcomp hle hW hH hd hj0
    obtain ⟨fuel, rfl⟩ : ∃ k, fuel = k + 1 := ⟨fuel - 1, by omega⟩
    obtain ⟨d1, d2, d3, d4, d5, d6⟩ := hd
    have d5 : l'.data.length = DxtSpec.bytes 16 l'.w l'.h 1 := d5
    rw [flat_cons] at e
    have hmono := bytes_mono d2 d4
    have hj0 := hj0 (by simp)
    unfold levels
    refine (round L junk hc S e hA (by rw [lf]; rfl) ln hcomp d1 d3 (by omega) (by omega) d5 (by omega)).bind (fun r hr' => ?_)
    obtain ⟨b, t'⟩ := r
    obtain ⟨r1, r2, r3, r4, r5, m, r6, r7⟩ := hr'
    simp only [] at r1 r2 r3 r4 r5 r6
    subst r1
    have e' : bs = (pre ++ l'.bytes) ++ ((ls.map Level.bytes).flatten ++ l.bytes.take j) := by rw [e, List.append_assoc]
    have hpos : 0 < bs.length := by rw [e]; simp only [List.length_append, level_length]; omega
    have hlen : bs.length = (pre ++ l'.bytes).length + ((ls.map Level.bytes).flatten.length + j) := by
      rw [e', List.length_append (as := pre ++ l'.bytes), List.length_append (as := (ls.map Level.bytes).flatten), List.length_take, Nat.min_eq_left (by omega)]
    obtain ⟨e1, e2⟩ := E r5 (by omega) hpos
    simp only []
    rw [decide_eq_false (by omega)] at e1
    rw [if_neg (by rw [e1]; decide)]
    exact ih fuel bs (pre ++ l'.bytes) l'.data.length l'.w l'.h { t' with inp := (o.eof t'.inp).2 } (by rw [List.length_cons] at hf; omega) e' e2 r2 r3 r4 (by rw [d5])
        (by omega) (by omega) d6 (fun _ => hj0)

end DevIL.Rot
