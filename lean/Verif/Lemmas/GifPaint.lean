import Verif.Lemmas.GifLoad
import Verif.Lemmas.GifRows
/-! Where the pixels of a frame go. -/
set_option autoImplicit false
namespace DevIL.Gif
open DevIL.Lump DevIL.GifSpec DevIL.Image DevIL.Utility

/-- The place of pixel number `n`. -/
def posOf (k : Job) (n : Nat) : Nat := k.base + n / k.w * k.stride + n % k.w

theorem paintOne_other {k : Job} {n q : Nat} {c : UInt8} {d : List UInt8} (h : posOf k n ≠ q) : (paintOne k n c d)[q]? = d[q]? := by
  unfold paintOne
  split
  · rfl
  · exact List.getElem?_set_ne h

theorem paint_other {k : Job} {q : Nat} (px : List UInt8) : ∀ {n : Nat} {d : List UInt8}, (∀ m, n ≤ m → m < n + px.length → posOf k m ≠ q) → (paint k n px d)[q]? = d[q]? := by
  induction px with
  | nil => intro n d _; rfl
  | cons c t ih =>
    intro n d h
    rw [List.length_cons] at h
    rw [paint, ih (fun m h1 h2 => h m (by omega) (by omega)), paintOne_other (h n (by omega) (by omega))]

theorem posOf_inj {k : Job} (hw : 0 < k.w) (hs : k.w ≤ k.stride) {a b : Nat} (h : posOf k a = posOf k b) : a = b := by
  unfold posOf at h
  have ha := Nat.mod_lt a hw
  have hb := Nat.mod_lt b hw
  have h1 := Nat.div_add_mod a k.w
  have h2 := Nat.div_add_mod b k.w
  have hq : a / k.w = b / k.w := by
    by_contra hne
    rcases Nat.lt_or_gt_of_ne hne with hlt | hlt
    · have : (a / k.w + 1) * k.stride ≤ b / k.w * k.stride := Nat.mul_le_mul_right _ hlt
      rw [Nat.add_one_mul] at this
      omega
    · have : (b / k.w + 1) * k.stride ≤ a / k.w * k.stride := Nat.mul_le_mul_right _ hlt
      rw [Nat.add_one_mul] at this
      omega
  rw [hq] at h h1
  omega

theorem paint_get {k : Job} (hw : 0 < k.w) (hs : k.w ≤ k.stride) (px : List UInt8) : ∀ {n m : Nat} {d : List UInt8} {c : UInt8}, px[m]? = some c → posOf k (n + m) < d.length →
    (paint k n px d)[posOf k (n + m)]? = if skips k.gfx c.toNat then d[posOf k (n + m)]? else some (UInt8.ofNat (c.toNat + k.pal)) := by
  induction px with
  | nil => intro n m d c h; simp at h
  | cons x t ih =>
    intro n m d c h hd
    rw [paint]
    cases m with
    | zero =>
      simp only [List.getElem?_cons_zero, Option.some.injEq] at h
      subst h
      rw [paint_other]
      · rw [Nat.add_zero] at hd ⊢
        unfold paintOne
        split
        · rfl
        · exact List.getElem?_set_self hd
      · intro m h1 h2 he
        have := posOf_inj hw hs he
        omega
    | succ m =>
      rw [List.getElem?_cons_succ] at h
      have := ih (n := n + 1) (d := paintOne k n x d) h (by rw [paintOne_length, show n + 1 + m = n + (m + 1) by omega]; exact hd)
      rw [show n + 1 + m = n + (m + 1) by omega] at this
      rw [this, paintOne_other (fun he => by have := posOf_inj hw hs he; omega)]

theorem skips_around {s : Still} {c : UInt8} (h : skips (gfxOf (lastControl s.exts)) c.toNat = true) : s.around = c := by
  unfold Still.around Still.transparent
  unfold skips at h
  cases hc : lastControl s.exts with
  | none => rw [hc] at h; simp [gfxOf] at h
  | some g =>
    obtain ⟨p, d, t⟩ := g
    rw [hc] at h
    simp only [gfxOf, Option.map_some, Bool.and_eq_true, decide_eq_true_eq, Gfx.hasTransparent] at h
    obtain ⟨⟨_, h1⟩, h2⟩ := h
    simp only [h2, if_true, Option.getD_some]
    exact UInt8.toNat_inj.mp h1

theorem room_of {s : Still} (ok : s.StartOk) (hi : s.Inside) {d : List UInt8} (hd : d.length = s.width.toNat * s.height.toNat) : Room (jobOf s) d := by
  obtain ⟨h1, h2⟩ := hi
  obtain ⟨h3, h4⟩ := ok.frame
  refine ⟨h3, h4, ?_⟩
  show s.x.toNat + s.y.toNat * s.width.toNat + (s.h.toNat - 1) * s.width.toNat + s.w.toNat ≤ d.length
  have : (s.y.toNat + (s.h.toNat - 1) + 1) * s.width.toNat ≤ s.height.toNat * s.width.toNat := Nat.mul_le_mul_right _ (by omega)
  rw [Nat.add_one_mul, Nat.add_mul] at this
  rw [hd, Nat.mul_comm s.width.toNat]
  omega

/-- The pixels of the frame on the screen. -/
theorem painted {s : Still} (ok : s.StartOk) (hi : s.Inside) {px d : List UInt8} (hp : px.length = s.w.toNat * s.h.toNat) (hd : d = List.replicate (s.width.toNat * s.height.toNat) s.around) :
    (∀ x y, x < s.w.toNat → y < s.h.toNat → (paint (jobOf s) 0 px d)[(s.y.toNat + y) * s.width.toNat + (s.x.toNat + x)]? = px[y * s.w.toNat + x]?) ∧
    (∀ x y, x < s.width.toNat → y < s.height.toNat → (x < s.x.toNat ∨ s.x.toNat + s.w.toNat ≤ x ∨ y < s.y.toNat ∨ s.y.toNat + s.h.toNat ≤ y) →
      (paint (jobOf s) 0 px d)[y * s.width.toNat + x]? = some s.around) := by
  obtain ⟨i1, i2⟩ := hi
  obtain ⟨hw, hh⟩ := ok.frame
  have hlen : d.length = s.width.toNat * s.height.toNat := by rw [hd]; simp
  have hin : ∀ x y, x < s.width.toNat → y < s.height.toNat → y * s.width.toNat + x < s.width.toNat * s.height.toNat := by
    intro x y hx hy
    have : (y + 1) * s.width.toNat ≤ s.height.toNat * s.width.toNat := Nat.mul_le_mul_right _ hy
    rw [Nat.add_one_mul] at this
    rw [Nat.mul_comm s.width.toNat]
    omega
  have hval : ∀ q, q < s.width.toNat * s.height.toNat → d[q]? = some s.around := by
    intro q hq
    rw [hd, List.getElem?_replicate, if_pos hq]
  constructor
  · intro x y hx hy
    have hidx : y * s.w.toNat + x < px.length := by
      have : (y + 1) * s.w.toNat ≤ s.h.toNat * s.w.toNat := Nat.mul_le_mul_right _ hy
      rw [Nat.add_one_mul] at this
      rw [hp, Nat.mul_comm s.w.toNat]
      omega
    have hpos : posOf (jobOf s) (0 + (y * s.w.toNat + x)) = (s.y.toNat + y) * s.width.toNat + (s.x.toNat + x) := by
      unfold posOf jobOf
      dsimp only
      rw [Nat.zero_add, Nat.mul_comm y, Nat.mul_add_div hw, Nat.mul_add_mod, Nat.div_eq_of_lt hx, Nat.mod_eq_of_lt hx, Nat.add_zero, Nat.add_mul]
      omega
    have hq := hin (s.x.toNat + x) (s.y.toNat + y) (by omega) (by omega)
    have := paint_get (k := jobOf s) hw (by show s.w.toNat ≤ s.width.toNat; omega) px (n := 0) (m := y * s.w.toNat + x) (d := d) (c := px[y * s.w.toNat + x]) (by simp [hidx])
      (by rw [hpos]; omega)
    rw [hpos] at this
    rw [this]
    split
    · rename_i hsk
      rw [hval _ hq, skips_around hsk]
      simp [hidx]
    · simp [hidx, jobOf]
  · intro x y hx hy hout
    rw [paint_other, hval _ (hin x y hx hy)]
    intro m _ hm he
    rw [Nat.zero_add, hp] at hm
    unfold posOf jobOf at he
    dsimp only at he
    have h1 : m / s.w.toNat < s.h.toNat := Nat.div_lt_of_lt_mul hm
    have h2 := Nat.mod_lt m hw
    generalize m / s.w.toNat = r at *
    generalize m % s.w.toNat = c at *
    have hxy : (s.y.toNat + r) * s.width.toNat + (s.x.toNat + c) = y * s.width.toNat + x := by rw [Nat.add_mul]; omega
    have hy' : s.y.toNat + r = y := by
      by_contra hne
      rcases Nat.lt_or_gt_of_ne hne with hlt | hlt
      · have : (s.y.toNat + r + 1) * s.width.toNat ≤ y * s.width.toNat := Nat.mul_le_mul_right _ hlt
        rw [Nat.add_one_mul] at this
        omega
      · have : (y + 1) * s.width.toNat ≤ (s.y.toNat + r) * s.width.toNat := Nat.mul_le_mul_right _ hlt
        rw [Nat.add_one_mul] at this
        omega
    rw [hy'] at hxy
    omega

end DevIL.Gif
