import Verif.Model.Blp
import Verif.Spec.Blp
import Verif.Lemmas.Games
import Verif.Lemmas.Pcd
/-! BLP2: the levels. -/
set_option autoImplicit false
namespace DevIL.Blp
open DevIL.Games DevIL.Detect DevIL.Image DevIL.DetectSpec DevIL.BlpSpec
open DevIL.Lump (SEEK_SET SEEK_CUR)

variable {σ : Type} {o : Ops σ} {At : σ → List UInt8 → Nat → Prop}

theorem side_pos {n : Nat} (h : 0 < n) : ∀ i, 0 < side n i
  | 0 => h
  | _ + 1 => by unfold side; omega

theorem side_le {n : Nat} (h : 0 < n) : ∀ i, side n i ≤ n
  | 0 => Nat.le_refl _
  | i + 1 => by have := side_le h i; unfold side; omega

theorem at1 (n : Nat) : atLeast1 n = max 1 n := by unfold atLeast1; split <;> omega

theorem mk_half (junk : Nat → UInt8) (k f a b : Nat) : mk junk k f a b = mk junk k f (max 1 a) (max 1 b) := by
  have e : ∀ n, atLeast1 (max 1 n) = atLeast1 n := fun n => by rw [at1, at1]; omega
  unfold mk tex geometry
  simp only [e]

/-- The fields of the header. -/
theorem head_fields (L : Laws2 o At) (junk : Nat → UInt8) {bs : List UInt8} {s : σ} (hA : At s bs 0) (hl : 148 ≤ bs.length) :
    ∃ h s', head o junk headFields s = .ok (h, s') ∧ At s' bs 148 ∧ fld h 0 = at_ bs 0 4 ∧ fle h 1 = leAt bs 4 4 ∧ fle h 2 = leAt bs 8 1 ∧ fle h 3 = leAt bs 9 1 ∧ fle h 4 = leAt bs 10 1 ∧ fle h 5 = leAt bs 11 1 ∧
      fle h 6 = leAt bs 12 4 ∧ fle h 7 = leAt bs 16 4 ∧ (∀ i, i < 16 → off h i = place bs i) ∧ ∀ i, i < 16 → len h i = BlpSpec.length bs i := by
  obtain ⟨⟨h, s'⟩, e, -, p, v⟩ := head_spec L.toLaws junk bs headFields s 0 hA (by decide)
  have st : start headFields headFields.length = 148 := by decide
  rw [st] at p
  have big2 : ∀ i, i < 32 → start headFields (8 + i) = 20 + 4 * i := by decide
  have big : ∀ i, i < 32 → headFields[8 + i]? = some u32f ∧ start headFields (8 + i) = 20 + 4 * i := fun i hi => ⟨by
    unfold headFields
    rw [List.getElem?_append_right (by simp)]
    show (List.replicate 32 u32f)[8 + i - 8]? = _
    rw [Nat.add_sub_cancel_left, List.getElem?_replicate, if_pos hi], big2 i hi⟩
  have val : ∀ i, i < 32 → fle h (8 + i) = leAt bs (20 + 4 * i) 4 := by
    intro i hi
    obtain ⟨b1, b2⟩ := big i hi
    unfold fle
    rw [v (8 + i) u32f b1 (by rw [b2]; show 0 + (20 + 4 * i) + 4 ≤ _; omega), b2, Nat.zero_add]
    rfl
  refine ⟨h, s', e, by have := p (by omega); rwa [Nat.zero_add] at this, v 0 (arr 4) rfl (by show 0 + 0 + 4 ≤ _; omega), ?_, ?_, ?_, ?_, ?_, ?_, ?_, fun i hi => val i (by omega), fun i hi => ?_⟩
  · unfold fle; rw [v 1 u32f rfl (by show 0 + 4 + 4 ≤ _; omega)]; rfl
  · unfold fle; rw [v 2 .getc rfl (by show 0 + 8 + 1 ≤ _; omega)]; rfl
  · unfold fle; rw [v 3 .getc rfl (by show 0 + 9 + 1 ≤ _; omega)]; rfl
  · unfold fle; rw [v 4 .getc rfl (by show 0 + 10 + 1 ≤ _; omega)]; rfl
  · unfold fle; rw [v 5 .getc rfl (by show 0 + 11 + 1 ≤ _; omega)]; rfl
  · unfold fle; rw [v 6 u32f rfl (by show 0 + 12 + 4 ≤ _; omega)]; rfl
  · unfold fle; rw [v 7 u32f rfl (by show 0 + 16 + 4 ≤ _; omega)]; rfl
  · unfold len
    rw [show 24 + i = 8 + (16 + i) by omega, val (16 + i) (by omega)]
    unfold BlpSpec.length
    rw [show 20 + 4 * (16 + i) = 84 + 4 * i by omega]

/-- The levels after the first. -/
theorem chain_spec {bs : List UInt8} {bits w h n : Nat} (T : Texture bs bits w h n) (hd : List (List UInt8)) (h5 : fle hd 5 = leAt bs 11 1) (ho : ∀ i, i < 16 → off hd i = place bs i) (hn : ∀ i, i < 16 → len hd i = BlpSpec.length bs i)
    (make : Nat → Nat → Img) (hmake : ∀ a b, make a b = make (max 1 a) (max 1 b)) (level : Nat → Nat → Img → σ → C (Bool × Img × σ)) (G : Nat → Img → Prop) (hG : ∀ i m, G i m → m.width = side w i ∧ m.height = side h i)
    (hlev : ∀ i, i < n → ∀ s, (∃ q, At s bs q) → Holds (level (place bs i) (BlpSpec.length bs i) (make (side w i) (side h i)) s) (fun r => r.1 = true ∧ G i r.2.1 ∧ ∃ q, At r.2.2 bs q)) :
    ∀ (d i : Nat) (last : Img) (s : σ), i + 1 + d = n → G i last → (∃ q, At s bs q) →
      Holds (chain make level hd (15 - i) (i + 1) last s) (fun r => r.1 = true ∧ r.2.1.length = d ∧ (∀ j m, r.2.1[j]? = some m → G (i + 1 + j) m) ∧ ∃ q, At r.2.2 bs q) := by
  intro d
  have n16 := T.n16
  induction d with
  | zero =>
    intro i last s hi hl hA
    obtain ⟨g1, g2⟩ := hG i last hl
    have base : Holds (pure (true, [], s) : C (Bool × List Img × σ)) (fun r => r.1 = true ∧ r.2.1.length = 0 ∧ (∀ j m, r.2.1[j]? = some m → G (i + 1 + j) m) ∧ ∃ q, At r.2.2 bs q) :=
      Holds.pure ⟨rfl, rfl, fun j m hj => by simp at hj, hA⟩
    by_cases h16 : i = 15
    · subst h16
      exact base
    · obtain ⟨k, hk⟩ : ∃ k, 15 - i = k + 1 := ⟨14 - i, by omega⟩
      rw [hk, chain, if_pos]
      · exact base
      · rw [g1, g2, h5, ho (i + 1) (by omega), show i + 1 = n by omega]
        have := T.last
        rw [show n - 1 = i by omega] at this
        exact this.resolve_left (by omega)
  | succ d ih =>
    intro i last s hi hl hA
    obtain ⟨g1, g2⟩ := hG i last hl
    obtain ⟨m1, m2, m3⟩ := T.more i (by omega)
    obtain ⟨k, hk⟩ : ∃ k, 15 - i = k + 1 := ⟨14 - i, by omega⟩
    have hk' : k = 15 - (i + 1) := by omega
    rw [hk, chain, if_neg (by rw [g1, g2, h5, ho (i + 1) (by omega)]; rintro (h | h | h); exacts [m1 h, m2 h, m3 h]), g1, g2, ho (i + 1) (by omega), hn (i + 1) (by omega), hmake]
    refine (hlev (i + 1) (by omega) s hA).bind (fun r hr => ?_)
    obtain ⟨ok, m, s1⟩ := r
    obtain ⟨rfl, r2, r3⟩ := hr
    simp only [] at r2 r3 ⊢
    rw [if_neg (by decide), hk']
    refine (ih (i + 1) m s1 (by omega) r2 r3).bind (fun r hr => ?_)
    obtain ⟨ok, ms, s2⟩ := r
    obtain ⟨rfl, q2, q3, q4⟩ := hr
    simp only [] at q2 q3 q4 ⊢
    refine Holds.pure ⟨rfl, by show (m :: ms).length = _; rw [List.length_cons, q2], fun j m' hj => ?_, q4⟩
    cases j with
    | zero => cases hj; exact r2
    | succ j =>
      have := q3 j m' hj
      rwa [show i + 1 + 1 + j = i + 1 + (j + 1) by omega] at this

theorem levels_spec {bs : List UInt8} {bits w h n : Nat} (T : Texture bs bits w h n) (hd : List (List UInt8)) (h5 : fle hd 5 = leAt bs 11 1) (h6 : fle hd 6 = w) (h7 : fle hd 7 = h) (ho : ∀ i, i < 16 → off hd i = place bs i)
    (hn : ∀ i, i < 16 → len hd i = BlpSpec.length bs i)
    (make : Nat → Nat → Img) (hmake : ∀ a b, make a b = make (max 1 a) (max 1 b)) (level : Nat → Nat → Img → σ → C (Bool × Img × σ)) (G : Nat → Img → Prop) (hG : ∀ i m, G i m → m.width = side w i ∧ m.height = side h i)
    (hlev : ∀ i, i < n → ∀ s, (∃ q, At s bs q) → Holds (level (place bs i) (BlpSpec.length bs i) (make (side w i) (side h i)) s) (fun r => r.1 = true ∧ G i r.2.1 ∧ ∃ q, At r.2.2 bs q)) {s : σ} (hA : ∃ q, At s bs q) :
    Holds (levels make level hd s) (fun r => r.1 = true ∧ r.2.1.length = n ∧ (∀ j m, r.2.1[j]? = some m → G j m) ∧ ∃ q, At r.2.2 bs q) := by
  have n1 := T.n1
  unfold levels
  rw [h6, h7, ho 0 (by decide), hn 0 (by decide)]
  refine (hlev 0 (by omega) s hA).bind (fun r hr => ?_)
  obtain ⟨ok, m, s1⟩ := r
  obtain ⟨rfl, r2, r3⟩ := hr
  simp only [] at r2 r3 ⊢
  rw [if_neg (by decide)]
  refine (chain_spec T hd h5 ho hn make hmake level G hG hlev (n - 1) 0 m s1 (by omega) r2 r3).bind (fun r hr => ?_)
  obtain ⟨ok, ms, s2⟩ := r
  obtain ⟨rfl, q2, q3, q4⟩ := hr
  simp only [] at q2 q3 q4 ⊢
  refine Holds.pure ⟨rfl, by show (m :: ms).length = _; rw [List.length_cons, q2]; omega, fun j m' hj => ?_, q4⟩
  cases j with
  | zero => cases hj; exact r2
  | succ j =>
    have := q3 j m' hj
    rwa [show 0 + 1 + j = j + 1 by omega] at this

theorem mk_fields (junk : Nat → UInt8) (w h k f : Nat) (hw : 0 < w) (hh : 0 < h) (hk : 0 < k) (hfit : w * h * k < 4294967296) :
    (mk junk k f w h).width = w ∧ (mk junk k f w h).height = h ∧ (mk junk k f w h).size = w * h * k ∧ (mk junk k f w h).data.length = w * h * k ∧ (mk junk k f w h).bps = w * k := by
  obtain ⟨h1, h2, -, h4, h5, -, -, h8, h9⟩ := tex_fields junk w h k f hw hh hk hfit
  refine ⟨h1, h2, h9, ?_, ?_⟩
  · show (tex junk w h k f).data.length = _
    rw [tex_len, h9]
  · show (tex junk w h k f).bps = _
    rw [h8.1, h1, h4, h5, Nat.mul_one]

theorem seek_to (L : Laws2 o At) {bs : List UInt8} {s : σ} {p off : Nat} (hA : At s bs p) (hoff : off ≤ bs.length) : Holds (o.seek s (Lump.toInt off) SEEK_SET) (fun r => At r.2 bs off) := by
  have := L.len hA
  rw [show Lump.toInt off = (off : Int) by unfold Lump.toInt; rw [if_pos (by omega)]]
  exact L.seekAbs off hA hoff

theorem level0_spec (L : Laws2 o At) (junk : Nat → UInt8) {bs : List UInt8} {w h off : Nat} (hw : 0 < w) (hh : 0 < h) (hfit : w * h * 4 < 2147483648) (hin : off + w * h ≤ bs.length) {s : σ} (hA : ∃ q, At s bs q) :
    Holds (level0 o off (w * h) (mk junk 1 IL_COLOUR_INDEX w h) s) (fun r => r.1 = true ∧ GamesSpec.Shows r.2.1 w h 1 IL_COLOUR_INDEX (fun x y _ => bs[off + (y * w + x)]?) ∧ ∃ q, At r.2.2 bs q) := by
  obtain ⟨q, hA⟩ := hA
  obtain ⟨-, -, m3, m4, -⟩ := mk_fields junk w h 1 IL_COLOUR_INDEX hw hh (by decide) (by omega)
  have m3' : (mk junk 1 IL_COLOUR_INDEX w h).size = w * h := by rw [m3, Nat.mul_one]
  unfold level0
  rw [if_neg (by rw [m3']; exact fun h => h rfl), m3']
  refine (seek_to L hA (by omega)).bind (fun r A1 => ?_)
  refine (into_spec L _ 1 (w * h) A1 (by decide) (by omega) (by rw [m4]; omega)).bind (fun r hr => ?_)
  obtain ⟨n, d, s2⟩ := r
  obtain ⟨h1, h2, A2⟩ := hr
  simp only [] at h1 h2 A2 ⊢
  have hl : (at_ bs off (1 * (w * h))).length = w * h := by rw [at_length]; omega
  rw [hl] at h1 h2
  rw [List.drop_of_length_le (by rw [m4]; omega), List.append_nil, Nat.one_mul] at h2
  subst h2
  rw [Nat.div_one] at h1
  refine Holds.pure ⟨by rw [h1]; exact decide_eq_true rfl, ?_, _, A2⟩
  suffices sh : GamesSpec.Shows { mk junk 1 IL_COLOUR_INDEX w h with data := at_ bs off (w * h) } w h 1 IL_COLOUR_INDEX (fun x y _ => bs[off + (y * w + x)]?) by
    dsimp only at sh
    rw [m3'] at sh
    exact sh
  refine shows_tex junk w h 1 IL_COLOUR_INDEX hw hh (by decide) (by omega) _ (by rw [Nat.one_mul] at hl; rw [hl, Nat.mul_one]) (fun x y _ => bs[off + (y * w + x)]?) (fun x y c hx hy hc => ?_)
  have : y * w + x < w * h := by
    have := Nat.mul_le_mul_left w (show y + 1 ≤ h from hy)
    rw [Nat.mul_comm y w]
    rw [Nat.mul_add] at this
    omega
  rw [show (y * w + x) * 1 + c = y * w + x by omega, Pcd.at_get this]

/-- The colours. -/
theorem colours_spec {pal b d : List UInt8} {n : Nat} (hp : pal.length = 1024) (hb : n ≤ b.length) (hd : d.length = n * 4) :
    ∃ d', colours pal b n d = .ok d' ∧ d'.length = n * 4 ∧ ∀ j c, j < n → c < 3 → d'[j * 4 + c]? = (do let v ← b[j]?; pal[v.toNat * 4 + c]?) := by
  have key := loopN_inv (n := n) (s := d) (I := fun i (t : List UInt8) => t.length = n * 4 ∧ ∀ j c, j < i → c < 3 → t[j * 4 + c]? = (do let v ← b[j]?; pal[v.toNat * 4 + c]?))
    (f := fun j d => do
      let v ← rd b j
      let x ← rd pal (v.toNat * 4)
      let d ← wr d (j * 4) x
      let x ← rd pal (v.toNat * 4 + 1)
      let d ← wr d (j * 4 + 1) x
      let x ← rd pal (v.toNat * 4 + 2)
      wr d (j * 4 + 2) x) ⟨hd, fun j c hj => absurd hj (by omega)⟩ (by
    intro i t hi ⟨h1, h2⟩
    have i1 : i < b.length := by omega
    have hv := b[i].toNat_lt
    refine ⟨_, by
      rw [rd_of_lt i1, bind_ok, rd_of_lt (by omega), bind_ok, wr_of_lt (by omega), bind_ok, rd_of_lt (by omega), bind_ok, wr_of_lt (by rw [List.length_set]; omega), bind_ok, rd_of_lt (by omega), bind_ok,
        wr_of_lt (by rw [List.length_set, List.length_set]; omega)], by simp only [List.length_set]; exact h1, fun j c hj hc => ?_⟩
    by_cases hji : j = i
    · subst hji
      rw [List.getElem?_eq_getElem i1]
      show _ = pal[b[j].toNat * 4 + c]?
      rw [List.getElem?_eq_getElem (l := pal) (by omega)]
      rcases (show c = 0 ∨ c = 1 ∨ c = 2 by omega) with rfl | rfl | rfl
      · rw [List.getElem?_set_ne (by omega), List.getElem?_set_ne (by omega), Nat.add_zero, List.getElem?_set_self (by omega)]; rfl
      · rw [List.getElem?_set_ne (by omega), List.getElem?_set_self (by rw [List.length_set]; omega)]
      · rw [List.getElem?_set_self (by rw [List.length_set, List.length_set]; omega)]
    · rw [List.getElem?_set_ne (by omega), List.getElem?_set_ne (by omega), List.getElem?_set_ne (by omega)]
      exact h2 j c (by omega) hc)
  obtain ⟨d', e, h1, h2⟩ := key
  exact ⟨d', e, h1, h2⟩

/-- The alpha. -/
theorem alphas_spec {b d : List UInt8} {w h : Nat} (hw : 0 < w) (hb : (w * h + 7) / 8 ≤ b.length) (hd : d.length = w * h * 4) :
    ∃ d', alphas b w h (w * 4) d = .ok d' ∧ d'.length = w * h * 4 ∧ (∀ x y, x < w → y < h → d'[(y * w + x) * 4 + 3]? = (b[((h - 1 - y) * w + x) / 8]?).map (fun v => if v.toNat.testBit (((h - 1 - y) * w + x) % 8) then (255 : UInt8) else 0)) ∧
      ∀ j c, c < 3 → d'[j * 4 + c]? = d[j * 4 + c]? := by
  have lt : ∀ i, i < w * h → i / w < h ∧ i % w < w := fun i hi => ⟨Nat.div_lt_of_lt_mul hi, Nat.mod_lt _ hw⟩
  have pos : ∀ i, i < w * h → w * 4 * (h - 1 - i / w) + i % w * 4 + 3 = ((h - 1 - i / w) * w + i % w) * 4 + 3 := fun i _ => by
    rw [Nat.mul_comm (w * 4), ← Nat.mul_assoc, Nat.add_mul]
  have key := loopN_inv (n := w * h) (s := d) (I := fun i (t : List UInt8) => t.length = w * h * 4 ∧ (∀ x y, x < w → y < h → (h - 1 - y) * w + x < i → t[(y * w + x) * 4 + 3]? =
      (b[((h - 1 - y) * w + x) / 8]?).map (fun v => if v.toNat.testBit (((h - 1 - y) * w + x) % 8) then (255 : UInt8) else 0)) ∧ ∀ j c, c < 3 → t[j * 4 + c]? = d[j * 4 + c]?)
    (f := fun i d => do
      let v ← rd b (i / 8)
      wr d (w * 4 * (h - 1 - i / w) + i % w * 4 + 3) (if v.toNat.testBit (i % 8) then 255 else 0)) ⟨hd, fun x y _ _ hi => absurd hi (by omega), fun _ _ _ => rfl⟩ (by
    intro i t hi ⟨h1, h2, h3⟩
    obtain ⟨l1, l2⟩ := lt i hi
    have i1 : i / 8 < b.length := by omega
    have hidx : (h - 1 - i / w) * w + i % w < w * h := by
      have := Nat.mul_le_mul_right w (show h - 1 - i / w + 1 ≤ h from by have h1 := Nat.sub_le (h - 1) (i / w); have h2 : 0 < h := Nat.lt_of_le_of_lt (Nat.zero_le _) l1; generalize h - 1 - i / w = z at h1; omega)
      rw [Nat.add_mul, Nat.mul_comm h w] at this
      omega
    refine ⟨_, by rw [rd_of_lt i1, bind_ok, pos i hi, wr_of_lt (by omega)], by rw [List.length_set]; exact h1, fun x y hx hy hxy => ?_, fun j c hc => ?_⟩
    · by_cases he : (h - 1 - y) * w + x = i
      · have e1 : i / w = h - 1 - y := by rw [← he, Nat.mul_comm, Nat.mul_add_div hw, Nat.div_eq_of_lt hx, Nat.add_zero]
        have e2 : i % w = x := by rw [← he, Nat.mul_comm, Nat.mul_add_mod, Nat.mod_eq_of_lt hx]
        have e3 : h - 1 - i / w = y := by omega
        rw [he, ← e2, ← e3, List.getElem?_set_self (by omega), List.getElem?_eq_getElem i1]
        rfl
      · rw [List.getElem?_set_ne]
        · exact h2 x y hx hy (by omega)
        · intro hbad
          have hq : (h - 1 - i / w) * w + i % w = y * w + x := by omega
          have e1 : h - 1 - i / w = y := by
            have := congrArg (· / w) hq
            simp only [Nat.mul_comm _ w, Nat.mul_add_div hw, Nat.div_eq_of_lt hx, Nat.div_eq_of_lt l2] at this
            omega
          have e2 : i % w = x := by
            have := congrArg (· % w) hq
            simp only [Nat.mul_comm _ w, Nat.mul_add_mod, Nat.mod_eq_of_lt hx, Nat.mod_eq_of_lt l2] at this
            exact this
          apply he
          rw [show h - 1 - y = i / w by omega, ← e2, Nat.mul_comm]
          exact Nat.div_add_mod i w
    · rw [List.getElem?_set_ne (by omega)]
      exact h3 j c hc)
  obtain ⟨d', e, h1, h2, h3⟩ := key
  refine ⟨d', e, h1, fun x y hx hy => h2 x y hx hy ?_, h3⟩
  have := Nat.mul_le_mul_right w (show h - 1 - y + 1 ≤ h by omega)
  rw [Nat.add_mul, Nat.mul_comm h w] at this
  omega

/-- What is loaded as the pixel of a level with one bit of alpha. -/
def seen (bs : List UInt8) (w h off x y c : Nat) : Option UInt8 :=
  if c < 3 then do
    let v ← bs[off + (y * w + x)]?
    bs[148 + v.toNat * 4 + c]?
  else (bs[if ((h - 1 - y) * w + x) / 8 < max 1 (w * h / 8) then off + w * h + ((h - 1 - y) * w + x) / 8 else off + ((h - 1 - y) * w + x) / 8]?).map
    (fun v => if v.toNat.testBit (((h - 1 - y) * w + x) % 8) then 255 else 0)

theorem level1_spec (L : Laws2 o At) (junk : Nat → UInt8) {bs : List UInt8} {w h off : Nat} (hw : 0 < w) (hh : 0 < h) (hfit : w * h * 4 < 2147483648) (hin : off + (w * h + max 1 (w * h / 8)) ≤ bs.length) (hp : 1172 ≤ bs.length) {s : σ} (hA : ∃ q, At s bs q) :
    Holds (level1 o junk (at_ bs 148 1024) off (w * h + max 1 (w * h / 8)) (mk junk 4 IL_BGRA w h) s) (fun r => r.1 = true ∧ GamesSpec.Shows r.2.1 w h 4 IL_BGRA (seen bs w h off) ∧ ∃ q, At r.2.2 bs q) := by
  obtain ⟨q, hA⟩ := hA
  have hwh : 0 < w * h := Nat.mul_pos hw hh
  obtain ⟨m1, m2, m3, m4, m5⟩ := mk_fields junk w h 4 IL_BGRA hw hh (by decide) (by omega)
  unfold level1
  simp only []
  rw [m1, m2, m3, m5, u32_of_lt (n := w * h) (by omega), show (if w * h / 8 = 0 then 1 else w * h / 8) = max 1 (w * h / 8) by split <;> omega, show w * h * 4 / 4 = w * h by omega, u32_of_lt (n := w * h + _) (by omega),
    if_neg (fun h => h rfl)]
  generalize ha : max 1 (w * h / 8) = a at hin ⊢
  have a1 : 0 < a := by omega
  have a2 : a ≤ w * h := by omega
  refine (seek_to L hA (by omega)).bind (fun r A1 => ?_)
  refine (into_spec L _ (w * h) 1 A1 hwh (by omega) (by rw [alloc_length]; omega)).bind (fun r hr => ?_)
  obtain ⟨n, b, s2⟩ := r
  obtain ⟨h1, h2, A2⟩ := hr
  simp only [] at h1 h2 A2 ⊢
  have hl : (at_ bs off (w * h * 1)).length = w * h := by rw [at_length]; omega
  rw [hl] at h1 h2 A2
  rw [List.drop_of_length_le (by rw [alloc_length]), List.append_nil, Nat.mul_one] at h2
  rw [Nat.mul_one] at hl
  subst h2
  rw [if_neg (by rw [h1, Nat.div_self hwh]; exact fun h => h rfl)]
  have hpl : (at_ bs 148 1024).length = 1024 := by rw [at_length]; omega
  obtain ⟨d1, e1, l1, v1⟩ := colours_spec (pal := at_ bs 148 1024) (b := at_ bs off (w * h)) (d := (mk junk 4 IL_BGRA w h).data) (n := w * h) hpl (by rw [hl]) m4
  rw [e1, bind_ok]
  refine (into_spec L _ a 1 A2 a1 (by omega) (by rw [hl]; omega)).bind (fun r hr => ?_)
  obtain ⟨n3, b3, s3⟩ := r
  obtain ⟨h1', h2', A3⟩ := hr
  simp only [] at h1' h2' A3 ⊢
  have hl3 : (at_ bs (off + w * h) (a * 1)).length = a := by rw [at_length]; omega
  rw [hl3] at h1' h2' A3
  rw [if_neg (by rw [h1', Nat.div_self a1]; exact fun h => h rfl)]
  have hl3' : b3.length = w * h := by rw [h2', List.length_append, List.length_drop, hl, hl3]; omega
  obtain ⟨d2, e2, l2, v2, w2⟩ := alphas_spec (b := b3) (d := d1) hw (h := h) (by rw [hl3']; omega) l1
  rw [e2, bind_ok]
  refine Holds.pure ⟨rfl, ?_, _, A3⟩
  suffices sh : GamesSpec.Shows { mk junk 4 IL_BGRA w h with data := d2 } w h 4 IL_BGRA (seen bs w h off) by
    dsimp only at sh
    rw [m1, m2, m3, m5] at sh
    exact sh
  refine shows_tex junk w h 4 IL_BGRA hw hh (by decide) (by omega) d2 l2 (seen bs w h off) (fun x y c hx hy hc => ?_)
  have hxy : y * w + x < w * h := by
    have := Nat.mul_le_mul_left w (show y + 1 ≤ h from hy)
    rw [Nat.mul_comm y w]
    rw [Nat.mul_add] at this
    omega
  unfold seen
  by_cases h3 : c < 3
  · rw [if_pos h3, w2 _ c h3, v1 _ c hxy h3, Pcd.at_get hxy]
    cases bs[off + (y * w + x)]? with
    | none => rfl
    | some v =>
      have := v.toNat_lt
      show (at_ bs 148 1024)[v.toNat * 4 + c]? = bs[148 + v.toNat * 4 + c]?
      rw [Pcd.at_get (by omega), Nat.add_assoc]
  · obtain rfl : c = 3 := by omega
    rw [if_neg h3, v2 x y hx hy, ha]
    have hi : (h - 1 - y) * w + x < w * h := by
      have := Nat.mul_le_mul_right w (show h - 1 - y + 1 ≤ h by omega)
      rw [Nat.add_mul, Nat.mul_comm h w] at this
      omega
    generalize (h - 1 - y) * w + x = i at hi
    congr 1
    rw [h2']
    by_cases hia : i / 8 < a
    · rw [if_pos hia, List.getElem?_append_left (by rw [hl3]; exact hia), Nat.mul_one, Pcd.at_get hia]
    · rw [if_neg hia, List.getElem?_append_right (by rw [hl3]; omega), hl3, List.getElem?_drop, show a + (i / 8 - a) = i / 8 by omega, Pcd.at_get (by omega)]

end DevIL.Blp
