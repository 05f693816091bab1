import Verif.Lemmas.Copy
/-! The calls that change or copy images keep the invariant. -/
set_option autoImplicit false
namespace DevIL.Copy
open DevIL.Stack
open DevIL.Utility

theorem memcpy_whole (junk : Nat → UInt8) {n : Nat} {src : List UInt8} (h : n ≤ src.length) : memcpy (alloc junk n) 0 src 0 n = .ok (src.take n) := by
  unfold memcpy
  rw [if_pos (by omega), if_pos (by simp [alloc])]
  simp [alloc]

theorem atLeast1_eq (n : Nat) : Image.atLeast1 n = max n 1 := by unfold Image.atLeast1; split <;> omega

/-- The size of the geometry computed from the fields of a proper image is that image's, and so is the rest. -/
theorem geometry_of {m : Img} (c : m.Consistent) (pos : 0 < m.width ∧ 0 < m.height ∧ 0 < m.depth) (ht : m.bpc = ilGetBpcType m.type)
    (hz : m.bpc ≠ 0) (fits : m.size < 2 ^ 32) (d : List UInt8) :
    Image.geometry m.width m.height m.depth m.bpp m.format m.type d = { m with data := d, origin := IL_ORIGIN_LOWER_LEFT } := by
  obtain ⟨c1, c2, c3, c4⟩ := c
  rw [← c1] at c2 c3
  rw [← c2] at c3
  have le1 : ∀ {a b : Nat}, 0 < b → a ≤ a * b := fun {a b} hb => Nat.le_mul_of_pos_right a hb
  have f3 : m.plane < 2 ^ 32 := Nat.lt_of_le_of_lt (by rw [c3]; exact le1 pos.2.2) fits
  have f2 : m.bps < 2 ^ 32 := Nat.lt_of_le_of_lt (by rw [c2]; exact le1 pos.2.1) f3
  have f1 : m.width * m.bpp < 2 ^ 32 := Nat.lt_of_le_of_lt (by rw [c1]; exact le1 (by omega)) f2
  have a1 : Image.atLeast1 m.width = m.width := by rw [atLeast1_eq]; omega
  have a2 : Image.atLeast1 m.height = m.height := by rw [atLeast1_eq]; omega
  have a3 : Image.atLeast1 m.depth = m.depth := by rw [atLeast1_eq]; omega
  unfold Image.geometry
  simp only [a1, a2, a3, ← ht]
  rw [u32_of_lt f1, ← c1, u32_of_lt f2, ← c2, u32_of_lt f3, ← c3, u32_of_lt fits]

/-- The geometry that proper arguments give. -/
theorem geometry_whole {w h d bpp f t : Nat} {data : List UInt8} (ok : TexOk w h d bpp t data) (b : List UInt8)
    (hb : b.length = (Image.geometry w h d bpp f t []).size) :
    (blank { Image.geometry w h d bpp f t [] with data := b }).Whole ∧ (Image.geometry w h d bpp f t []).size ≤ data.length ∧
      (Image.geometry w h d bpp f t []).size = max w 1 * bpp * ilGetBpcType t * max h 1 * max d 1 := by
  obtain ⟨ht, hfit, hl⟩ := ok
  have le1 : ∀ {a b : Nat}, 0 < b → a ≤ a * b := fun {a b} hb => Nat.le_mul_of_pos_right a hb
  have s4 : max w 1 * bpp * ilGetBpcType t * max h 1 < 2 ^ 32 := Nat.lt_of_le_of_lt (le1 (by omega)) hfit
  have s3 : max w 1 * bpp * ilGetBpcType t < 2 ^ 32 := Nat.lt_of_le_of_lt (le1 (by omega)) s4
  have s2 : max w 1 * bpp < 2 ^ 32 := Nat.lt_of_le_of_lt (le1 (by omega)) s3
  have e : Image.geometry w h d bpp f t [] = { width := max w 1, height := max h 1, depth := max d 1, bpp := bpp, bpc := ilGetBpcType t, bps := max w 1 * bpp * ilGetBpcType t, plane := max w 1 * bpp * ilGetBpcType t * max h 1, size := max w 1 * bpp * ilGetBpcType t * max h 1 * max d 1, format := f, type := t, origin := IL_ORIGIN_LOWER_LEFT, data := [] } := by
    unfold Image.geometry
    simp only [atLeast1_eq]
    rw [u32_of_lt s2, u32_of_lt s3, u32_of_lt s4, u32_of_lt hfit]
  rw [e] at hb ⊢
  refine ⟨⟨⟨rfl, rfl, rfl, hb⟩, ⟨?_, ?_, ?_⟩, ⟨rfl, ht⟩, hfit, ?_, ?_, ?_, ?_⟩, hl, rfl⟩
  · show 0 < max w 1; omega
  · show 0 < max h 1; omega
  · show 0 < max d 1; omega
  all_goals simp [blank]

/-- `ilTexImage_` on the bound image, up to the copying of the pixels. -/
theorem tex_spec (junk : Nat → UInt8) {y : Sys} (G : Good y) {c : Nat} (hc : y.base.cur = some c) {n : Node}
    (hn : y.base.heap[c]? = some (Cell.live n)) (w h d bpp f t : Nat) (src : Src) :
    ∃ hp, hp.length = y.base.heap.length ∧ hp[c]? = some (Cell.live ⟨n.payload + 1, none, none, none, none⟩) ∧
      (∀ (i : Nat) (k : Node), i ≠ c → hp[i]? = some (Cell.live k) → y.base.heap[i]? = some (Cell.live k)) ∧
      Inv { y.base with heap := hp } [] ∧ Tidy { y.base with heap := hp } [] ∧
      (∀ m, m ≠ y.base.curName → Same y.base { y.base with heap := hp } m) ∧
      ilTexImage_ junk y c w h d bpp f t src =
        (do let b ← fill junk (setH y hp) src (Image.geometry w h d bpp f t []).size
            pure (setC (setH y hp) c (blank { Image.geometry w h d bpp f t [] with data := b }))) := by
  obtain ⟨h1, h2, h3, h4, e1, e2, e3, e4, at_c, len, sub, I', T', S'⟩ := clear_spec G.inv G.tidy hc hn (n.payload + 1)
  have hlt := (List.getElem?_eq_some_iff.mp at_c).1
  refine ⟨h4.set c (.live ⟨n.payload + 1, none, none, none, none⟩), by simp [len], List.getElem?_set_self hlt, ?_, I', T', S', ?_⟩
  · intro i k hi hk
    rw [List.getElem?_set_ne (Ne.symm hi)] at hk
    exact sub i k hi hk
  · have hl : load h4 c = .ok n := by simp [load, at_c]
    have hs : store h4 c ⟨n.payload + 1, none, none, none, none⟩ = .ok (h4.set c (.live ⟨n.payload + 1, none, none, none, none⟩)) := by
      simp [store, at_c]
    simp only [ilTexImage_, e1, e2, e3, e4, bind_ok, initImage, setH, hl, hs]

theorem tex_ne {y : Sys} {c : Nat} {n : Node} {hp : Heap} (hn : y.base.heap[c]? = some (Cell.live n))
    (h : hp[c]? = some (Cell.live ⟨n.payload + 1, none, none, none, none⟩)) : hp[c]? ≠ y.base.heap[c]? := by
  rw [h, hn]
  intro e
  simp only [Option.some.injEq, Cell.live.injEq] at e
  have := congrArg Node.payload e
  simp at this

/-- `ilTexImage` with pixels of the caller. -/
theorem tex_ext (junk : Nat → UInt8) {y : Sys} (G : Good y) {w h d bpp f t : Nat} {data : List UInt8} (ok : TexOk w h d bpp t data) :
    ∃ c y', y.base.cur = some c ∧ ilTexImage junk y w h d bpp f t (.ext data) = .ok y' ∧ Good y' ∧ Bare y' c ∧
      y'.base.cur = y.base.cur ∧ y'.base.curName = y.base.curName ∧ y'.base.stack = y.base.stack ∧ y'.base.free = y.base.free ∧
      y'.cont c = blank { Image.geometry w h d bpp f t [] with data := data.take (Image.geometry w h d bpp f t []).size } ∧
      ∀ m, m ≠ y.base.curName → SameC y y' m := by
  obtain ⟨c, n, hc, hn, -⟩ := write_spec G.inv 0
  obtain ⟨hp, -, hat, -, I', T', S', e⟩ := tex_spec junk G hc hn w h d bpp f t (.ext data)
  obtain ⟨-, hs, -⟩ := geometry_whole (f := f) ok (List.replicate (Image.geometry w h d bpp f t []).size 0) (by simp)
  have W := (geometry_whole (f := f) ok (data.take (Image.geometry w h d bpp f t []).size) (by rw [List.length_take]; omega)).1
  refine ⟨c, setC (setH y hp) c (blank { Image.geometry w h d bpp f t [] with data := data.take (Image.geometry w h d bpp f t []).size }), hc, ?_,
    G.setC I' T' c W, ⟨_, hat⟩, rfl, rfl, rfl, rfl, by simp [setC], fun m hm => SameC.setC (S' m hm) (tex_ne hn hat)⟩
  simp only [ilTexImage, curObj, hc, bind_ok, e, fill, memcpy_whole junk hs, pure_eq_ok]

/-- `ilTexImageSurface` with pixels of the caller. -/
theorem surface_ext (junk : Nat → UInt8) {y : Sys} (G : Good y) {w h d bpp f t : Nat} {data : List UInt8} (ok : TexOk w h d bpp t data) :
    ∃ c n y', y.base.cur = some c ∧ y.base.heap[c]? = some (Cell.live n) ∧ ilTexImageSurface junk y w h d bpp f t (.ext data) = .ok y' ∧ Good y' ∧
      y'.base.heap[c]? = some (Cell.live { n with payload := n.payload + 1 }) ∧
      y'.base.cur = y.base.cur ∧ y'.base.curName = y.base.curName ∧ y'.base.stack = y.base.stack ∧ y'.base.free = y.base.free ∧
      y'.cont c = { blank { Image.geometry w h d bpp f t [] with data := data.take (Image.geometry w h d bpp f t []).size, origin := (y.cont c).img.origin } with
        cubeFlags := (y.cont c).cubeFlags } ∧
      (∀ m, m ≠ y.base.curName → SameC y y' m) ∧ (∀ i, i ≠ c → y'.base.heap[i]? = y.base.heap[i]? ∧ y'.cont i = y.cont i) := by
  obtain ⟨c, n, hc, hn, -⟩ := write_spec G.inv 0
  obtain ⟨c', n', hc', hn', -, I', T', S'⟩ := write_spec G.inv (n.payload + 1)
  rw [hc] at hc'; cases hc'
  rw [hn] at hn'; cases hn'
  have hlt := (List.getElem?_eq_some_iff.mp hn).1
  obtain ⟨-, hs, -⟩ := geometry_whole (f := f) ok (List.replicate (Image.geometry w h d bpp f t []).size 0) (by simp)
  have W := (geometry_whole (f := f) ok (data.take (Image.geometry w h d bpp f t []).size) (by rw [List.length_take]; omega)).1
  have hself : (y.base.heap.set c (.live { n with payload := n.payload + 1 }))[c]? = some (Cell.live { n with payload := n.payload + 1 }) :=
    List.getElem?_set_self hlt
  refine ⟨c, n, setC ⟨{ y.base with heap := y.base.heap.set c (.live { n with payload := n.payload + 1 }) }, y.cont⟩ c
    { blank { Image.geometry w h d bpp f t [] with data := data.take (Image.geometry w h d bpp f t []).size, origin := (y.cont c).img.origin } with
        cubeFlags := (y.cont c).cubeFlags }, hc, hn, ?_,
    G.setC I' (T' G.tidy) c ⟨W.1, W.2, W.3, W.4, W.5, W.6, W.7, W.8⟩, hself, rfl, rfl, rfl, rfl, by simp [setC], fun m hm => SameC.setC (S' m hm) ?_,
    fun i hi => ⟨List.getElem?_set_ne (Ne.symm hi), by simp [setC, hi]⟩⟩
  · have l1 : load y.base.heap c = .ok n := by simp [load, hn]
    have s1 : store y.base.heap c ⟨n.payload + 1, none, none, none, none⟩ =
      .ok (y.base.heap.set c (.live ⟨n.payload + 1, none, none, none, none⟩)) := by simp only [store, hn]
    have g2 : (y.base.heap.set c (.live ⟨n.payload + 1, none, none, none, none⟩))[c]? = some (Cell.live ⟨n.payload + 1, none, none, none, none⟩) :=
      List.getElem?_set_self hlt
    have l2 : load (y.base.heap.set c (.live ⟨n.payload + 1, none, none, none, none⟩)) c = .ok ⟨n.payload + 1, none, none, none, none⟩ := by
      simp only [load, g2]
    have s2 : ∀ k, store (y.base.heap.set c (.live ⟨n.payload + 1, none, none, none, none⟩)) c k = .ok (y.base.heap.set c (.live k)) := by
      intro k; simp only [store, g2, List.set_set]
    simp only [ilTexImageSurface, curObj, hc, bind_ok, ilTexImageSurface_, l1, initImage, s1, fill, memcpy_whole junk hs, setC, setH, l2, s2, pure_eq_ok,
      if_true, Except.ok.injEq, Sys.mk.injEq, true_and]
    funext a
    by_cases ha : a = c <;> simp [ha, blank]
  · show (y.base.heap.set c (.live { n with payload := n.payload + 1 }))[c]? ≠ _
    rw [hself, hn]
    intro e
    simp only [Option.some.injEq, Cell.live.injEq] at e
    have := congrArg Node.payload e
    simp at this

/-- Any proper call is safe and keeps the invariant. -/
theorem step_good (junk : Nat → UInt8) {y : Sys} (G : Good y) (o : Op) (v : o.Valid y) : ∃ y', step junk y o = .ok y' ∧ Good y' := by
  have errI : ∀ e, Inv { y.base with errs := e } [] ∧ Tidy { y.base with errs := e } [] := fun e =>
    ⟨⟨G.inv.wf, G.inv.nf, G.inv.zero, G.inv.used, G.inv.le, G.inv.free, G.inv.cur⟩, ⟨G.tidy.nil, G.tidy.noLeak, G.tidy.nodup, G.tidy.free⟩⟩
  cases o with
  | gen k =>
    simp only [step, ilGenImages, Stack.ilGenImages]
    by_cases hk : k < 1
    · rw [if_pos hk]
      exact ⟨_, rfl, G.sync (errI _).1 (errI _).2⟩
    · rw [if_neg hk, if_neg G.inv.ne_nil]
      obtain ⟨ns, s', L', e, _, I', _, _, _, _, t, _⟩ := genLoop_spec k y.base [] G.inv
      have T' := (t G.tidy).1
      have := T'.nil; subst this
      rw [e]
      exact ⟨_, rfl, G.sync I' T'⟩
  | bind n =>
    obtain ⟨s', e, I', l, f, t, _⟩ := bind_spec G.inv n
    exact ⟨sync junk y s', by simp only [step, ilBindImage, e, bind_ok, pure_eq_ok], G.sync I' (t G.tidy v)⟩
  | delete ns =>
    obtain ⟨s', e, I', l, f, t, _⟩ := deleteLoop_spec ns y.base [] G.inv
    exact ⟨sync junk y s', by simp only [step, ilDeleteImages, Stack.ilDeleteImages, if_neg G.inv.ne_nil, e, bind_ok, pure_eq_ok],
      G.sync I' (t G.tidy)⟩
  | active l k =>
    obtain ⟨b, s', e, I', st, fr, hp, _, t⟩ := active_inv (l := l) G.inv k
    refine ⟨sync junk y s', ?_, G.sync I' (t G.tidy)⟩
    simp only [step, ilActive, e, bind_ok, pure_eq_ok]; rfl
  | createSub ty k =>
    obtain ⟨r, s', e, I', st, fr, _, _, t, _⟩ := createSub_spec G.inv ty k
    refine ⟨sync junk y s', ?_, G.sync I' (t G.tidy)⟩
    simp only [step, ilCreateSubImage, e, bind_ok, pure_eq_ok]; rfl
  | change x =>
    obtain ⟨c, n, hc, hn, -⟩ := write_spec G.inv 0
    obtain ⟨c', n', hc', hn', e, I', T', -⟩ := write_spec G.inv n.payload.succ
    rw [hc] at hc'; cases hc'
    rw [hn] at hn'; cases hn'
    have hl : load y.base.heap c = .ok n := by simp [load, hn]
    exact ⟨_, by simp only [step, change, curObj, hc, bind_ok, hl, e, pure_eq_ok], G.setC I' (T' G.tidy) c v⟩
  | tex w h d bpp f t data =>
    obtain ⟨c, y', -, e, G', -⟩ := tex_ext junk G (f := f) v
    exact ⟨y', e, G'⟩
  | surface w h d bpp f t data =>
    obtain ⟨c, n, y', -, -, e, G', -⟩ := surface_ext junk G (f := f) v
    exact ⟨y', e, G'⟩

/-- Copying the attributes onto an image that has just been made. -/
theorem copyAttrC_blank {c : Content} (W : c.Whole) (d : Img) (hd : d.data = c.img.data) : copyAttrC (blank d) c = .ok c.copied := by
  obtain ⟨-, -, -, -, wp, wa, wr, wn⟩ := W
  obtain ⟨img, pal, ps, pt, anim, as, prof, prs, dxtc, df, ds, dur, cf, ox, oy⟩ := c
  simp only at hd wp wa wr wn
  unfold copyAttrC
  simp only [blank, Option.isSome_none, Bool.false_eq_true, if_false]
  have e1 : ∀ a, anim = some a → as ≠ 0 ∧ copyBlk a as = .ok a := fun a ha => by
    obtain ⟨h1, h2⟩ := wa a ha
    exact ⟨h2, by simp [copyBlk, ← h1]⟩
  have e2 : ∀ a, prof = some a → copyBlk a prs = .ok a := fun a ha => by simp [copyBlk, ← wr a ha]
  have e3 : ∀ a, pal = some a → copyBlk a ps = .ok a := fun a ha => by simp [copyBlk, ← wp a ha]
  rcases anim with _ | a <;> rcases prof with _ | b <;> rcases pal with _ | d
  all_goals
    simp only [Option.some.injEq, forall_eq', reduceCtorEq, false_implies, implies_true, forall_const] at e1 e2 e3 wn
    simp [e1, e2, e3, wn, Content.copied, hd]

theorem closeField_none {rec : Heap → Nat → C Heap} {h : Heap} {p : Nat} {get : Node → Option Nat} {clr : Node → Node} {n : Node}
    (hn : h[p]? = some (Cell.live n)) (hg : get n = none) : closeField rec p get clr h = .ok h := by
  simp [closeField, load, hn, hg]

theorem copied_whole {c : Content} (W : c.Whole) : c.copied.Whole := ⟨W.1, W.2, W.3, W.4, W.5, W.6, W.7, W.8⟩

/-- The heart of both copying functions: `ilTexImage` and `ilCopyImageAttr` with an image that belongs to another name. -/
theorem copyFrom_spec (junk : Nat → UInt8) {y : Sys} (G : Good y) {c : Nat} (hc : y.base.cur = some c) {src q s : Nat}
    (hsrc : src ≠ y.base.curName) (hq : y.base.stack[src]? = some (some q)) (hr : Reach y.base.heap q s) :
    ∃ y', copyFrom junk y c c s = .ok y' ∧ Good y' ∧ Bare y' c ∧ y'.cont c = (y.cont s).copied ∧
      y'.base.cur = y.base.cur ∧ y'.base.curName = y.base.curName ∧ y'.base.stack = y.base.stack ∧ y'.base.free = y.base.free ∧
      (∀ m, m ≠ y.base.curName → SameC y y' m) ∧ s ≠ c := by
  obtain ⟨c', n, hc', hn, -⟩ := write_spec G.inv 0
  rw [hc] at hc'; cases hc'
  obtain ⟨k, hk⟩ := hr.live G.inv.wf (roots_pos hq)
  have W := G.whole s
  obtain ⟨hp, -, hat, -, I', T', S', e⟩ := tex_spec junk G hc hn (y.cont s).img.width (y.cont s).img.height (y.cont s).img.depth (y.cont s).img.bpp
    (y.cont s).img.format (y.cont s).img.type (.obj s k.payload)
  have hsp : hp[s]? = some (Cell.live k) := by rw [← hk]; exact ((S' src hsrc q hq).2 s hr).1
  have hsc : s ≠ c := by
    intro h
    rw [h] at hsp hk
    exact tex_ne hn hat (hsp.trans hk.symm)
  have g := geometry_of W.consistent W.pos W.type.1 W.type.2 W.fits ([] : List UInt8)
  have gs : (Image.geometry (y.cont s).img.width (y.cont s).img.height (y.cont s).img.depth (y.cont s).img.bpp
    (y.cont s).img.format (y.cont s).img.type []).size = (y.cont s).img.size := by rw [g]
  have hl := W.consistent.2.2.2
  have hf : fill junk (setH y hp) (.obj s k.payload) (y.cont s).img.size = .ok (y.cont s).img.data := by
    have : load hp s = .ok k := by simp [load, hsp]
    simp only [fill, setH, this, bind_ok, if_true]
    rw [memcpy_whole junk (by omega), ← hl, List.take_length]
  have e0 : load y.base.heap s = .ok k := by simp [load, hk]
  refine ⟨setC (setH y hp) c (y.cont s).copied, ?_, G.setC I' T' c (copied_whole W), ⟨_, hat⟩, by simp [setC], rfl, rfl, rfl, rfl,
    fun m hm => SameC.setC (S' m hm) (tex_ne hn hat), hsc⟩
  simp only [copyFrom, e0, bind_ok, e, gs, hf, pure_eq_ok]
  simp only [ilCopyImageAttr, setC, setH]
  rw [closeField_none hat rfl]
  simp only [bind_ok]
  rw [closeField_none hat rfl]
  simp only [bind_ok]
  rw [closeField_none hat rfl]
  simp only [bind_ok]
  rw [closeField_none hat rfl]
  have : load hp s = .ok k := by simp [load, hsp]
  simp only [bind_ok, this, if_true, if_neg hsc]
  rw [copyAttrC_blank W]
  rotate_left
  · rfl
  simp only [bind_ok, pure_eq_ok, Except.ok.injEq, Sys.mk.injEq, true_and]
  funext a
  by_cases ha : a = c <;> simp [ha]

end DevIL.Copy
