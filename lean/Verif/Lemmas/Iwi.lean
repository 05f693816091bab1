import Verif.Model.Iwi
import Verif.Spec.Iwi
import Verif.Lemmas.DdsM
import Verif.Lemmas.DetectV
import Verif.Lemmas.GamesF
import Mathlib.Data.Nat.Log
/-! IWI files: the levels. -/
set_option autoImplicit false
namespace DevIL.Iwi

open DevIL.Detect DevIL.DetectSpec DevIL.DdsSpec DevIL.IwiSpec DevIL.Image DevIL.Games DevIL.GamesSpec
open DevIL.Dds (texN halve side_pos side_zero halve_side side_le texN_fields texN_eq level_image LevelAt)

variable {σ : Type} {o : Ops σ} {At : σ → List UInt8 → Nat → Prop}

theorem side_halve (n i : Nat) (h : 2 ≤ n) : side (halve n) i = side n (i + 1) := by
  unfold halve side
  rw [Nat.pow_succ', ← Nat.div_div_eq_div_mul, if_neg (by omega)]

theorem log_halve (n : Nat) (h : 2 ≤ n) : Nat.log2 n = Nat.log2 (halve n) + 1 := by
  unfold halve
  rw [if_neg (by omega), Nat.log2_eq_log_two, Nat.log2_eq_log_two, Nat.log_div_base]
  have : 0 < Nat.log 2 n := Nat.log_pos (by decide) h
  omega

/-- The sizes of the mipmaps: down to the level on which the shorter side is 1. -/
theorem mipSizes_eq (fuel w h : Nat) (hw : 0 < w) (hh : 0 < h) (hf : w < 2 ^ fuel) :
    mipSizes (fuel + 1) w h = .ok ((List.range (min (Nat.log2 w) (Nat.log2 h))).map (fun i => (side w (i + 1), side h (i + 1)))) := by
  induction fuel generalizing w h with
  | zero => rw [Nat.pow_zero] at hf; omega
  | succ fuel ih =>
    unfold mipSizes
    by_cases hc : w ≠ 1 ∧ h ≠ 1
    · rw [if_pos hc]
      have e1 : halve w = w / 2 := by unfold halve; rw [if_neg (by omega)]
      have e2 : halve h = h / 2 := by unfold halve; rw [if_neg (by omega)]
      rw [ih (halve w) (halve h) (by omega) (by omega) (by rw [Nat.pow_succ] at hf; omega), bind_ok, log_halve w (by omega), log_halve h (by omega),
        show ∀ a b, min (a + 1) (b + 1) = min a b + 1 from fun a b => by omega, List.range_succ_eq_map, List.map_cons, List.map_map]
      have s1 : side w 1 = halve w := by rw [← side_halve w 0 (by omega)]; exact side_zero (by omega)
      have s2 : side h 1 = halve h := by rw [← side_halve h 0 (by omega)]; exact side_zero (by omega)
      rw [s1, s2]
      refine congrArg (fun l => Except.ok ((halve w, halve h) :: l)) (List.map_congr_left (fun i _ => ?_))
      show (side (halve w) (i + 1), side (halve h) (i + 1)) = (side w (i + 1 + 1), side h (i + 1 + 1))
      rw [side_halve w _ (by omega), side_halve h _ (by omega)]
    · rw [if_neg hc]
      have : min (Nat.log2 w) (Nat.log2 h) = 0 := by
        by_cases h1 : w = 1
        · rw [h1]; rfl
        · have h2 : h = 1 := by by_contra h2; exact hc ⟨h1, h2⟩
          rw [h2]; exact Nat.min_zero _
      rw [this]
      rfl

/-- The levels that the loader looks for. -/
def count (w h : Nat) (mips : Bool) : Nat := if mips then min (Nat.log2 w) (Nat.log2 h) + 1 else 1

/-- Level `i` before its data are read. -/
def blank (junk : Nat → UInt8) (fmt w h i : Nat) : Img := texN junk (side w i) (side h i) 1 (kindOf fmt).1 (kindOf fmt).2 IL_UNSIGNED_BYTE

theorem blanks_eq (junk : Nat → UInt8) (fmt w h : Nat) (mips : Bool) (hw : 0 < w) (hh : 0 < h) (hf : w < 65536) :
    blanks junk fmt w h mips = .ok ((List.range (count w h mips)).map (blank junk fmt w h)) := by
  unfold blanks count
  cases mips with
  | false =>
    rw [if_neg (by decide), if_neg (by decide)]
    show Except.ok _ = _
    simp only [List.map_cons, List.map_nil, List.range_one]
    unfold blank
    rw [side_zero hw, side_zero hh]
  | true =>
    rw [if_pos rfl, if_pos rfl, mipSizes_eq 16 w h hw hh hf, bind_ok, List.range_succ_eq_map, List.map_cons, List.map_cons, List.map_map, List.map_map]
    unfold blank
    rw [side_zero hw, side_zero hh]
    rfl

/-- Reading a level of `need` bytes: it succeeds exactly if they are there. -/
def Reads (o : Ops σ) (At : σ → List UInt8 → Nat → Prop) (junk : Nat → UInt8) (bs : List UInt8) (fmt : Nat) (m : Img) (need : Nat) (good : Nat → Img → Prop) : Prop :=
  ∀ s p, At s bs p → p ≤ bs.length → Holds (readLevel o junk fmt m s) (fun r => (p + need ≤ bs.length → r.1 = true ∧ good p { m with data := r.2.1 } ∧ At r.2.2 bs (p + need)) ∧
    (bs.length < p + need → r.1 = false) ∧ ∃ q, At r.2.2 bs q)

theorem sum_drop (bytes : Nat → Nat) (k i : Nat) (h : i < k) :
    (((List.range (k + 1)).drop (i + 1)).map bytes).sum = (((List.range k).drop (i + 1)).map bytes).sum + bytes k := by
  rw [List.range_succ, List.drop_append, List.length_range, show i + 1 - k = 0 by omega, List.drop_zero, List.map_append, List.sum_append]
  simp

/-- All levels, one after the other. -/
theorem readAll_spec (junk : Nat → UInt8) {bs : List UInt8} {fmt : Nat} {lev : Nat → Img} {need : Nat → Nat} {good : Nat → Nat → Img → Prop} (k : Nat)
    (hr : ∀ i, i < k → Reads o At junk bs fmt (lev i) (need i) (good i)) : ∀ (done : List Img) (s : σ) (p : Nat), At s bs p → p ≤ bs.length →
    Holds (readAll o junk fmt ((List.range k).map lev).reverse done s) (fun r =>
      (p + ((List.range k).map need).sum ≤ bs.length → r.1 = true ∧ r.2.1.length = k + done.length ∧ r.2.1.drop k = done ∧
        ∀ i m, i < k → r.2.1[i]? = some m → good i (p + (((List.range k).drop (i + 1)).map need).sum) m) ∧
      (bs.length < p + ((List.range k).map need).sum → r.1 = false) ∧ ∃ q, At r.2.2 bs q) := by
  induction k with
  | zero =>
    intro done s p hs hp
    exact Holds.pure ⟨fun _ => ⟨rfl, by simp, rfl, fun i m h => absurd h (by omega)⟩, fun h => by simp at h; omega, p, hs⟩
  | succ k ih =>
    intro done s p hs hp
    have e : ((List.range (k + 1)).map lev).reverse = lev k :: ((List.range k).map lev).reverse := by rw [List.range_succ, List.map_append, List.reverse_append]; rfl
    have es : ((List.range (k + 1)).map need).sum = need k + ((List.range k).map need).sum := by rw [List.range_succ, List.map_append, List.sum_append]; simp; omega
    rw [e, es]
    unfold readAll
    refine (hr k (by omega) s p hs hp).bind (fun r hr' => ?_)
    obtain ⟨ok, d, t⟩ := r
    obtain ⟨h1, h2, q, h3⟩ := hr'
    simp only at h1 h2 h3 ⊢
    by_cases hle : p + need k ≤ bs.length
    · obtain ⟨a, b, c⟩ := h1 hle
      subst a
      rw [if_pos rfl]
      refine (ih (fun i hi => hr i (by omega)) ({ lev k with data := d } :: done) t (p + need k) c hle).mono (fun r hr'' => ?_)
      obtain ⟨g1, g2, g3⟩ := hr''
      refine ⟨fun h => ?_, fun h => g2 (by omega), g3⟩
      obtain ⟨f1, f2, f3, f4⟩ := g1 (by omega)
      refine ⟨f1, by rw [f2]; simp; omega, ?_, fun i m hi hm => ?_⟩
      · rw [← List.drop_drop, f3]; rfl
      · rcases Nat.lt_or_ge i k with hik | hik
        · rw [sum_drop _ _ _ hik, show ∀ a b c : Nat, a + (b + c) = a + c + b from fun a b c => by omega]
          exact f4 i m hik hm
        · have hik : i = k := by omega
          subst hik
          have : r.2.1[i]? = some { lev i with data := d } := by
            have := congrArg (fun l => l[0]?) f3
            simpa using this
          rw [this] at hm
          cases hm
          rw [List.drop_of_length_le (by simp)]
          exact b
    · rw [h2 (by omega), if_neg (by decide)]
      exact Holds.pure ⟨fun h => by omega, fun _ => rfl, q, h3⟩

/-- Loading, if the levels are as they should be. -/
theorem load_spec (L : Laws2 o At) (junk : Nat → UInt8) (cur : Img) {s : σ} {bs : List UInt8} (hs : At s bs 0) {fmt w h : Nat} {mips : Bool} (H : Header bs fmt w h mips)
    (hfmt : ([11, 12, 13].contains fmt = true ∧ pow2 w = true ∧ pow2 h = true) ∨ [1, 2, 3, 4].contains fmt = true)
    {need : Nat → Nat} {good : Nat → Nat → Img → Prop} (hr : ∀ i, i < count w h mips → Reads o At junk bs fmt (blank junk fmt w h i) (need i) (good i)) :
    Holds (iLoadIwiInternal o junk cur s) (fun r =>
      ((fileBytes need (count w h mips) ≤ bs.length → r.1 = true ∧ r.2.1.length = count w h mips ∧
        ∀ (i : Nat) m, r.2.1[i]? = some m → good i (levelAt need (count w h mips) i) m) ∧
      (bs.length < fileBytes need (count w h mips) → r.1 = false)) ∧ ∃ q, At r.2.2 bs q) := by
  have hl := H.len
  unfold iLoadIwiInternal
  refine (head_spec L.toLaws junk bs _ s 0 hs (by decide)).bind (fun r hr' => ?_)
  obtain ⟨-, hat, F⟩ := hr'
  have h28 : At r.2 bs 28 := hat (by show 0 + 28 ≤ _; omega)
  have h0 : fld r.1 0 = at_ bs 0 4 := F 0 _ rfl (by show 0 + 4 ≤ _; omega)
  have h1 : fle r.1 1 = fmt := (congrArg le (F 1 _ rfl (by show 4 + 1 ≤ _; omega))).trans H.fmt
  have h2 : fle r.1 2 = leAt bs 5 1 := congrArg le (F 2 _ rfl (by show 5 + 1 ≤ _; omega))
  have h3 : fle r.1 3 = w := (congrArg le (F 3 _ rfl (by show 6 + 2 ≤ _; omega))).trans H.width
  have h4 : fle r.1 4 = h := (congrArg le (F 4 _ rfl (by show 8 + 2 ≤ _; omega))).trans H.height
  have hw := H.w0
  have hh := H.h0
  have hw' : w < 65536 := by rw [← H.width]; exact leAt_lt bs 6 2
  have hh' : h < 65536 := by rw [← H.height]; exact leAt_lt bs 8 2
  have h00 : fle r.1 0 = 0x06695749 ∨ fle r.1 0 = 0x05695749 := by
    have e : fle r.1 0 = le (at_ bs 0 4) := congrArg le h0
    rcases H.magic with g | g <;> (rw [e, g]; decide)
  have hc : iCheckIwi r.1 = .ok true := by
    obtain ⟨pw, e1, e2⟩ := nextPower2_spec w (by omega)
    obtain ⟨ph, e3, e4⟩ := nextPower2_spec h (by omega)
    unfold iCheckIwi
    rw [h1, h3, h4, e1, bind_ok, e3, bind_ok, if_neg (by rcases h00 with g | g <;> (rw [g]; decide)), if_neg (by simp; omega)]
    have e2 : (w != pw) = !pow2 w := by rw [← e2]; unfold bne; rw [Bool.beq_comm]
    have e4 : (h != ph) = !pow2 h := by rw [← e4]; unfold bne; rw [Bool.beq_comm]
    rw [e2, e4]
    rcases hfmt with ⟨c, p1, p2⟩ | c
    · rw [p1, p2, if_neg (by simp), if_neg (by simp at c ⊢; omega)]; rfl
    · rw [if_neg (by simp at c ⊢; omega), if_neg (by simp at c ⊢; omega)]; rfl
  obtain ⟨hd, s1⟩ := r
  simp only at h28 h0 h1 h2 h3 h4 h00 hc ⊢
  rw [hc, bind_ok, if_neg (by decide), h1, h2, h3, h4, ← H.flags, blanks_eq junk fmt w h mips hw hh hw', bind_ok]
  refine (readAll_spec junk (count w h mips) hr [] s1 28 h28 hl).mono (fun r hr' => ?_)
  obtain ⟨g1, g2, g3⟩ := hr'
  refine ⟨⟨fun h => ?_, fun h => g2 h⟩, g3⟩
  obtain ⟨f1, f2, f3, f4⟩ := g1 h
  refine ⟨f1, by rw [f2]; rfl, fun i m hm => f4 i m ?_ hm⟩
  by_contra hne
  rw [List.getElem?_eq_none (by rw [f2]; simp; omega)] at hm
  cases hm

/-! ### The levels -/

/-- A level without compression. -/
theorem reads_plain (L : Laws2 o At) (junk : Nat → UInt8) {bs : List UInt8} {fmt k f w h : Nat} (hp : Plain fmt k f) (hw : 0 < w) (hh : 0 < h) (hfit : w * h * k < 4294967296) (i : Nat) :
    Reads o At junk bs fmt (blank junk fmt w h i) (plainBytes k w h i) (fun p m => Shows m (side w i) (side h i) k f (fun x y c => bs[p + ((y * side w i + x) * k + c)]?)) := by
  have hk : kindOf fmt = (k, f) := by rcases hp with ⟨rfl, rfl, rfl⟩ | ⟨rfl, rfl, rfl⟩ | ⟨rfl, rfl, rfl⟩ <;> rfl
  have hk0 : 0 < k := by rcases hp with ⟨rfl, rfl, rfl⟩ | ⟨rfl, rfl, rfl⟩ | ⟨rfl, rfl, rfl⟩ <;> decide
  have hf : fmt = 1 ∨ fmt = 2 ∨ fmt = 4 := by rcases hp with h | h | h <;> simp [h.1]
  have hle : side w i * side h i * k ≤ w * h * k := Nat.mul_le_mul_right _ (Nat.mul_le_mul (side_le hw i) (side_le hh i))
  have p1 := side_pos w i
  have p2 := side_pos h i
  unfold blank plainBytes
  rw [hk]
  dsimp only
  generalize side w i = a at *
  generalize side h i = b at *
  intro s p hs hpl
  obtain ⟨f1, f2, -, -, f5, f6⟩ := texN_fields junk a b k f p1 p2 hk0 (by omega)
  have e : readLevel o junk fmt (texN junk a b 1 k f IL_UNSIGNED_BYTE) s = (do
      let (n, d, s) ← into o s (alloc junk (a * b * k)) 1 (a * b * k)
      pure (decide (n = a * b * k), d, s)) := by
    unfold readLevel
    rw [if_pos hf, f5, f6]
  rw [e]
  refine (into_spec L (alloc junk (a * b * k)) 1 (a * b * k) hs (by decide) (by omega) (by rw [alloc_length, Nat.one_mul])).bind (fun r hr => ?_)
  obtain ⟨r1, r2, r3⟩ := hr
  rw [Nat.one_mul, Nat.div_one] at r1
  rw [Nat.one_mul] at r2 r3
  by_cases hfit' : p + a * b * k ≤ bs.length
  · have hlen : (at_ bs p (a * b * k)).length = a * b * k := by rw [at_length]; omega
    rw [hlen] at r1 r2 r3
    rw [List.drop_of_length_le (by rw [alloc_length]), List.append_nil] at r2
    refine Holds.pure ⟨fun _ => ⟨decide_eq_true r1, ?_, r3⟩, fun h => by omega, _, r3⟩
    show Shows { texN junk a b 1 k f IL_UNSIGNED_BYTE with data := r.2.1 } _ _ _ _ _
    rw [texN_eq, r2]
    refine shows_tex junk a b k f p1 p2 hk0 (by omega) _ hlen _ (fun x y c hx hy hc => ?_)
    exact at_get _ _ _ _ (pix_lt hx hy hc)
  · have hlen : (at_ bs p (a * b * k)).length < a * b * k := by rw [at_length]; omega
    exact Holds.pure ⟨fun h => absurd h hfit', fun _ => decide_eq_false (by omega), _, r3⟩

/-- A level with compression, if the loader takes the right number of bytes for it. -/
theorem reads_coded (L : Laws2 o At) (junk : Nat → UInt8) {bs : List UInt8} {fmt dxt w h : Nat} (hp : Coded fmt dxt) (hw : 0 < w) (hh : 0 < h) (hfit : w * h < 2 ^ 27) (i : Nat)
    (hs : max (side w i * side h i / (if fmt = 11 then 2 else 1)) (Dxt.bsize dxt) = levelBytes (Dxt.bsize dxt) w h i) :
    Reads o At junk bs fmt (blank junk fmt w h i) (levelBytes (Dxt.bsize dxt) w h i) (fun p m => LevelAt junk bs dxt p (side w i) (side h i) m) := by
  have hd : dxt = IL_DXT1 ∨ dxt = IL_DXT3 ∨ dxt = IL_DXT5 := by rcases hp with h | h | h <;> simp [h.2]
  have hle : side w i * side h i ≤ w * h := Nat.mul_le_mul (side_le hw i) (side_le hh i)
  have p1 := side_pos w i
  have p2 := side_pos h i
  have hk : kindOf fmt = (4, IL_RGBA) := by rcases hp with ⟨rfl, rfl⟩ | ⟨rfl, rfl⟩ | ⟨rfl, rfl⟩ <;> rfl
  have hx : (if fmt = 11 then IL_DXT1 else if fmt = 12 then IL_DXT3 else IL_DXT5) = dxt := by rcases hp with ⟨rfl, rfl⟩ | ⟨rfl, rfl⟩ | ⟨rfl, rfl⟩ <;> rfl
  unfold levelBytes at *
  unfold blank
  rw [hk]
  dsimp only
  generalize side w i = a at *
  generalize side h i = b at *
  intro s p hat hpl
  obtain ⟨f1, f2, -, -, f5, f6⟩ := texN_fields junk a b 4 IL_RGBA p1 p2 (by decide) (by omega)
  have hbl : DxtSpec.bytes (Dxt.bsize dxt) a b 1 < 4294967296 := by
    rw [← hs]
    have : a * b / (if fmt = 11 then 2 else 1) ≤ a * b := Nat.div_le_self _ _
    have h2 : Dxt.bsize dxt ≤ 16 := by unfold Dxt.bsize; split <;> decide
    omega
  have hsz : (if fmt = 3 then u32 (a * b * 2) else if fmt = 11 then max (u32 (a * b) / 2) 8 else max (u32 (a * b)) 16) = DxtSpec.bytes (Dxt.bsize dxt) a b 1 := by
    rw [← hs, u32_of_lt (show a * b < 4294967296 by omega)]
    rcases hp with ⟨rfl, rfl⟩ | ⟨rfl, rfl⟩ | ⟨rfl, rfl⟩
    · rfl
    · show max (a * b) 16 = max (a * b / 1) 16; rw [Nat.div_one]
    · show max (a * b) 16 = max (a * b / 1) 16; rw [Nat.div_one]
  have e : readLevel o junk fmt (texN junk a b 1 4 IL_RGBA IL_UNSIGNED_BYTE) s = (do
      let (n, c, s) ← into o s (alloc junk (DxtSpec.bytes (Dxt.bsize dxt) a b 1)) 1 (DxtSpec.bytes (Dxt.bsize dxt) a b 1)
      if n ≠ DxtSpec.bytes (Dxt.bsize dxt) a b 1 then pure (false, (texN junk a b 1 4 IL_RGBA IL_UNSIGNED_BYTE).data, s)
      else do
        let d ← Dxt.DdsDecompress (texN junk a b 1 4 IL_RGBA IL_UNSIGNED_BYTE) dxt c
        pure (true, d, s)) := by
    unfold readLevel
    have h3 : fmt ≠ 3 := by rcases hp with ⟨rfl, rfl⟩ | ⟨rfl, rfl⟩ | ⟨rfl, rfl⟩ <;> decide
    rw [if_neg (by rcases hp with ⟨rfl, rfl⟩ | ⟨rfl, rfl⟩ | ⟨rfl, rfl⟩ <;> decide), f1, f2, hsz]
    simp only [hx, h3, if_false]
  rw [e]
  generalize hn : DxtSpec.bytes (Dxt.bsize dxt) a b 1 = n at *
  refine (into_spec L (alloc junk n) 1 n hat (by decide) (by omega) (by rw [alloc_length, Nat.one_mul])).bind (fun r hr => ?_)
  obtain ⟨r1, r2, r3⟩ := hr
  rw [Nat.one_mul, Nat.div_one] at r1
  rw [Nat.one_mul] at r2 r3
  by_cases hfit' : p + n ≤ bs.length
  · have hlen : (at_ bs p n).length = n := by rw [at_length]; omega
    rw [hlen] at r1 r2 r3
    rw [List.drop_of_length_le (by rw [alloc_length]), List.append_nil] at r2
    obtain ⟨r1', c, t⟩ := r
    simp only at r1 r2 r3 ⊢
    subst r1 r2
    obtain ⟨d, e1, e2⟩ := level_image junk (bs := bs) (p := p) p1 p2 (by omega) hd (by rw [hn]; exact hfit')
    rw [hn] at e1
    rw [if_neg (by simp), e1, bind_ok]
    exact Holds.pure ⟨fun _ => ⟨rfl, e2, r3⟩, fun h => by omega, _, r3⟩
  · have hlen : (at_ bs p n).length < n := by rw [at_length]; omega
    obtain ⟨r1', c, t⟩ := r
    simp only at r1 r2 r3 ⊢
    rw [if_pos (by omega)]
    exact Holds.pure ⟨fun h => absurd h hfit', fun _ => rfl, _, r3⟩

end DevIL.Iwi
