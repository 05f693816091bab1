import Verif.Lemmas.CopyB
/-! The copying functions on reachable states. -/
set_option autoImplicit false
namespace DevIL.Copy
open DevIL.Stack
open DevIL.Utility

theorem not_free {y : Sys} (G : Good y) {n q : Nat} (h : y.base.stack[n]? = some (some q)) : n ∉ y.base.free :=
  fun hf => G.tidy.free n hf ⟨q, h⟩

/-- The bound image belongs to the bound name. -/
theorem cur_root {y : Sys} (G : Good y) : ∃ c q, y.base.cur = some c ∧ y.base.stack[y.base.curName]? = some (some q) ∧ Reach y.base.heap q c := by
  obtain ⟨c, q, h1, h2, h3⟩ := G.inv.cur
  rcases h3 with h3 | h3
  · exact ⟨c, q, h1, h3, h2⟩
  · cases h3

theorem curName_eq {y : Sys} (G : Good y) : ilGetCurName y = y.base.curName := by
  obtain ⟨c, q, h1, -, -⟩ := cur_root G
  unfold ilGetCurName
  rw [if_neg]
  rintro (h | h)
  · rw [h1] at h; cases h
  · exact G.inv.ne_nil h

theorem bindC (junk : Nat → UInt8) {y : Sys} (G : Good y) {n : Nat} (hf : n ∉ y.base.free) :
    ∃ y', ilBindImage junk y n = .ok y' ∧ Good y' ∧ (∀ m, SameC y y' m) ∧ y'.base.curName = n ∧ y'.base.stack[n]? = some y'.base.cur ∧
      y'.base.free = y.base.free := by
  obtain ⟨s', e, I', l, f, t, S, hn, hs⟩ := bind_spec G.inv n
  exact ⟨sync junk y s', by simp only [ilBindImage, e, bind_ok, pure_eq_ok], G.sync I' (t G.tidy hf), fun m => SameC.sync G (S m), hn, hs, f⟩

/-- Binding a name that has an image. -/
theorem bindC_old (junk : Nat → UInt8) {y : Sys} (G : Good y) {n q : Nat} (h : y.base.stack[n]? = some (some q)) :
    ∃ y', ilBindImage junk y n = .ok y' ∧ Good y' ∧ (∀ m, SameC y y' m) ∧ y'.base.curName = n ∧ y'.base.cur = some q ∧
      y'.base.stack[n]? = some (some q) := by
  obtain ⟨y', e, G', S, hn, hs, -⟩ := bindC junk G (not_free G h)
  have := ((S n).1 q h).1
  exact ⟨y', e, G', S, hn, Option.some.inj (hs.symm.trans this), this⟩

/-- The part of `ilCopyImage` before the copying. -/
theorem copy_start (junk : Nat → UInt8) {y : Sys} (G : Good y) (h0 : y.base.curName ≠ 0) {src q p dest : Nat}
    (hq : y.base.stack[src]? = some (some q)) (hp : y.base.stack[y.base.curName]? = some (some p)) (hd : y.base.cur = some dest) :
    ∃ y2, Good y2 ∧ (∀ m, SameC y y2 m) ∧ y2.base.curName = y.base.curName ∧ y2.base.cur = some p ∧
      y2.base.stack[src]? = some (some q) ∧ ilCopyImage junk y src = (do let y' ← copyFrom junk y2 p dest q; pure (true, y')) := by
  obtain ⟨y1, e1, G1, S1, n1, c1, q1⟩ := bindC_old junk G hq
  have p1 := ((S1 y.base.curName).1 p hp).1
  obtain ⟨y2, e2, G2, S2, n2, c2, p2⟩ := bindC_old junk G1 p1
  refine ⟨y2, G2, fun m => (S1 m).trans (S2 m), n2, c2, ((S2 src).1 q q1).1, ?_⟩
  unfold ilCopyImage
  simp only [hd, curName_eq G, if_neg h0, e1, bind_ok, curObj, c1, e2, c2]

theorem copy_spec (junk : Nat → UInt8) {y : Sys} (G : Good y) (hb : AtBase y) (h0 : y.base.curName ≠ 0) {src q : Nat}
    (hq : y.base.stack[src]? = some (some q)) (hne : src ≠ y.base.curName) :
    ∃ c y', y.base.cur = some c ∧ ilCopyImage junk y src = .ok (true, y') ∧ Good y' ∧ Bare y' c ∧ y'.cont c = (y.cont q).copied ∧
      y'.base.cur = some c ∧ y'.base.curName = y.base.curName ∧ AtBase y' ∧ (∀ m, m ≠ y.base.curName → SameC y y' m) := by
  obtain ⟨c, r, hc, hr, -⟩ := cur_root G
  have hb' : y.base.stack[y.base.curName]? = some (some c) := by rw [hb, hc]
  obtain ⟨y2, G2, S2, n2, c2, q2, e⟩ := copy_start junk G h0 hq hb' hc
  obtain ⟨y3, e3, G3, b3, k3, c3, n3, st3, -, S3, -⟩ := copyFrom_spec junk G2 c2 (by rw [n2]; exact hne) q2 .refl
  have hat : AtBase y3 := by
    unfold AtBase
    rw [c3, n3, st3, n2, c2]
    exact ((S2 _).1 c hb').1
  refine ⟨c, y3, hc, by rw [e, e3]; rfl, G3, b3, ?_, by rw [c3, c2], by rw [n3, n2], hat, fun m hm => (S2 m).trans (S3 m (by rw [n2]; exact hm))⟩
  rw [k3, (S2 src).2 q hq q .refl]

/-- `ilCopyImage` when no name, or name 0, is bound. -/
theorem copy_zero (junk : Nat → UInt8) {y : Sys} (G : Good y) (h0 : y.base.curName = 0) (src : Nat) :
    ilCopyImage junk y src = .ok (false, err y IL_ILLEGAL_OPERATION) := by
  obtain ⟨c, q, hc, -, -⟩ := cur_root G
  unfold ilCopyImage
  simp [hc, curName_eq G, h0]

theorem Good.err {y : Sys} (G : Good y) (e : Nat) : Good (err y e) :=
  ⟨⟨G.inv.wf, G.inv.nf, G.inv.zero, G.inv.used, G.inv.le, G.inv.free, G.inv.cur⟩, ⟨G.tidy.nil, G.tidy.noLeak, G.tidy.nodup, G.tidy.free⟩, G.whole⟩

theorem Reachable.good {junk : Nat → UInt8} {y : Sys} (h : Reachable junk y) : Good y := by
  induction h with
  | start => exact Good.init junk
  | call o _ v e ih =>
    obtain ⟨y', e', G'⟩ := step_good junk ih o v
    rw [e] at e'; cases e'; exact G'
  | copy src q _ hb hq hne e ih =>
    rename_i y y' b _
    by_cases h0 : y.base.curName = 0
    · rw [copy_zero junk ih h0] at e
      cases e; exact ih.err _
    · obtain ⟨c, y'', -, e', G', -⟩ := copy_spec junk ih hb h0 hq hne
      rw [e] at e'; cases e'; exact G'

/-- Copying an image onto itself. -/
theorem self_copy (junk : Nat → UInt8) {y : Sys} (G : Good y) (h0 : y.base.curName ≠ 0) :
    ilCopyImage junk y y.base.curName = .error .useAfterFree := by
  obtain ⟨c, p, hc, hp, -⟩ := cur_root G
  obtain ⟨y2, G2, S2, n2, c2, q2, e⟩ := copy_start junk G h0 hp hp hc
  obtain ⟨c', n, hc', hn, -⟩ := write_spec G2.inv 0
  rw [c2] at hc'; cases hc'
  obtain ⟨hp', len, hat, -, -, -, -, et⟩ := tex_spec junk G2 c2 hn (y2.cont p).img.width (y2.cont p).img.height (y2.cont p).img.depth (y2.cont p).img.bpp
    (y2.cont p).img.format (y2.cont p).img.type (.obj p n.payload)
  have l : load y2.base.heap p = .ok n := by simp [load, hn]
  have l' : load hp' p = .ok ⟨n.payload + 1, none, none, none, none⟩ := by simp [load, hat]
  rw [e]
  simp only [copyFrom, l, bind_ok, et, fill, setH, l']
  rw [if_neg (by omega)]
  rfl

/-- Everything below an object whose pointers are gone is gone, when nothing is lost. -/
theorem subs_freed {h h' : Heap} {r : Nat → Nat} (w : WF h [] r) (nl : NoLeak h' [] [] r) {p : Nat} (hp : kids h' p = [])
    (sub : ∀ (i : Nat) (k : Node), i ≠ p → h'[i]? = some (Cell.live k) → h[i]? = some (Cell.live k)) {x : Nat} (hr : Reach h p x) (hne : x ≠ p) :
    ¬ Live h' x := by
  induction hr with
  | refl => exact absurd rfl hne
  | step hri hmem ih =>
    rename_i i t
    intro hl
    have hk := List.count_pos_iff.mpr hmem
    have hil : i < h.length := by
      unfold kids at hmem
      split at hmem
      · rename_i n hn; exact (List.getElem?_eq_some_iff.mp hn).1
      · cases hmem
    have hu := w.uniq t
    unfold cnt at hu
    have hle := le_sumTo (fun i => if i ∈ ([] : List Nat) then 0 else (kids h i).count t) hil
    simp only [List.not_mem_nil, if_false] at hle hu
    have hpos := nl t hl (by simp)
    unfold cnt at hpos
    simp only [List.not_mem_nil, if_false] at hpos
    obtain ⟨j, hj, hjp⟩ := sumTo_pos (n := h'.length) (f := fun i => (kids h' i).count t) (by omega)
    have hmj := List.count_pos_iff.mp hjp
    have hjne : j ≠ p := by intro e; rw [e, hp] at hmj; cases hmj
    have hlj : ∃ k, h'[j]? = some (Cell.live k) := by
      unfold kids at hmj
      split at hmj
      · rename_i n hn; exact ⟨n, hn⟩
      · cases hmj
    obtain ⟨k, hk'⟩ := hlj
    have hjo := sub j k hjne hk'
    have hkj : kids h j = kids h' j := by unfold kids; rw [hjo, hk']
    by_cases hji : j = i
    · subst hji
      exact ih hjne ⟨k, hk'⟩
    · have := two_le_sumTo (f := fun i => (kids h i).count t) hil (List.getElem?_eq_some_iff.mp hjo).1 (fun e => hji e.symm) hk
        (by show 0 < (kids h j).count t; rw [hkj]; exact hjp)
      omega

/-- Copying while a sub-image is selected. -/
theorem sub_copy (junk : Nat → UInt8) {y : Sys} (G : Good y) (hb : ¬ AtBase y) (h0 : y.base.curName ≠ 0) {src q : Nat}
    (hq : y.base.stack[src]? = some (some q)) :
    ilCopyImage junk y src = .error .useAfterFree := by
  by_cases hne : src = y.base.curName
  · rw [hne]; exact self_copy junk G h0
  obtain ⟨d, p, hd, hp, hr⟩ := cur_root G
  have hdp : d ≠ p := by
    intro e; apply hb; unfold AtBase; rw [hp, hd, e]
  obtain ⟨y2, G2, S2, n2, c2, q2, e⟩ := copy_start junk G h0 hq hp hd
  have hr2 := ((S2 _).1 p hp |>.2 d hr).2
  obtain ⟨c', n, hc', hn, -⟩ := write_spec G2.inv 0
  rw [c2] at hc'; cases hc'
  obtain ⟨k, hk⟩ := Reach.refl.live G2.inv.wf (roots_pos q2)
  have W := G2.whole q
  obtain ⟨hp', len, hat, hsub, I', T', S', et⟩ := tex_spec junk G2 c2 hn (y2.cont q).img.width (y2.cont q).img.height (y2.cont q).img.depth
    (y2.cont q).img.bpp (y2.cont q).img.format (y2.cont q).img.type (.obj q k.payload)
  have hsp : hp'[q]? = some (Cell.live k) := by rw [← hk]; exact ((S' src (by rw [n2]; exact hne) q q2).2 q .refl).1
  have hl := W.consistent.2.2.2
  have gs : (Image.geometry (y2.cont q).img.width (y2.cont q).img.height (y2.cont q).img.depth (y2.cont q).img.bpp
    (y2.cont q).img.format (y2.cont q).img.type []).size = (y2.cont q).img.size := by
    rw [geometry_of W.consistent W.pos W.type.1 W.type.2 W.fits ([] : List UInt8)]
  have l0 : load y2.base.heap q = .ok k := by simp [load, hk]
  have l1 : load hp' q = .ok k := by simp [load, hsp]
  have hf : fill junk (setH y2 hp') (.obj q k.payload) (y2.cont q).img.size = .ok (y2.cont q).img.data := by
    simp only [fill, setH, l1, bind_ok, if_true]
    rw [memcpy_whole junk (by omega), ← hl, List.take_length]
  have hfr := subs_freed G2.inv.wf T'.noLeak (by unfold kids; rw [hat]; rfl) hsub hr2 hdp
  have hlen : d < hp'.length := by
    have h1 := (hr2.live G2.inv.wf (roots_pos ((S2 _).1 p hp).1)).lt
    omega
  have lf : load hp' d = .error .useAfterFree := by
    unfold load
    cases hx : hp'[d]? with
    | none => rw [List.getElem?_eq_none_iff] at hx; omega
    | some x =>
      cases x with
      | live n => exact absurd ⟨n, hx⟩ hfr
      | freed => rfl
  rw [e]
  simp only [copyFrom, l0, bind_ok, et, gs, hf, pure_eq_ok]
  simp only [ilCopyImageAttr, setC, setH, closeField, lf]
  rfl

/-- `ilCloneCurImage` on a reachable state. -/
theorem clone_spec (junk : Nat → UInt8) {y : Sys} (G : Good y) :
    ∃ c id p y3, y.base.cur = some c ∧ ilCloneCurImage junk y = .ok (id, { y3 with base := { y3.base with cur := some c } }) ∧ id ≠ 0 ∧
      ¬ SlotLive y.base id ∧ y3.base.stack[id]? = some (some p) ∧ Good y3 ∧ Bare y3 p ∧ y3.cont p = (y.cont c).copied ∧ y3.base.cur = some p ∧
      y3.base.curName = id ∧ (∀ m, m ≠ id → SameC y y3 m) := by
  obtain ⟨c, q, hc, hq, hr⟩ := cur_root G
  obtain ⟨ns, s1, L', eg, hl, I1, pos, -, -, -, t1, S1, -⟩ := genLoop_spec 1 y.base [] G.inv
  obtain ⟨T1, hnew, -⟩ := t1 G.tidy
  have := T1.nil; subst this
  obtain ⟨id, rfl⟩ : ∃ id, ns = [id] := by
    match ns, hl with
    | [id], _ => exact ⟨id, rfl⟩
  obtain ⟨hns, hnf⟩ := hnew id (by simp)
  have hid : id ≠ 0 := by have := pos id (by simp); omega
  have hne : y.base.curName ≠ id := fun h => hns ⟨q, h ▸ hq⟩
  have G1 := G.sync (junk := junk) I1 T1
  obtain ⟨y2, e2, G2, S2, n2, c2, -⟩ := bindC junk G1 (n := id) hnf
  have SC : ∀ m, m ≠ id → SameC y y2 m := fun m hm => (SameC.sync G (S1 m (by simpa using hm))).trans (S2 m)
  obtain ⟨p, r, hp, hpr, -⟩ := cur_root G2
  obtain ⟨hq2, hr2⟩ := (SC _ hne).1 q hq
  obtain ⟨y3, e3, G3, b3, k3, c3, n3, st3, -, S3, -⟩ := copyFrom_spec junk G2 hp (by rw [n2]; exact hne) hq2 (hr2 c hr).2
  refine ⟨c, id, p, y3, hc, ?_, hid, hns, by rw [st3, c2, hp], G3, b3, by rw [k3, (SC _ hne).2 q hq c hr], by rw [c3, hp], by rw [n3, n2],
    fun m hm => (SC m hm).trans (S3 m (by rw [n2]; exact hm))⟩
  have eg' : Stack.ilGenImages y.base 1 = .ok ([id], s1) := by
    unfold Stack.ilGenImages
    rw [if_neg (by omega), if_neg G.inv.ne_nil, eg]
  unfold ilCloneCurImage
  simp only [hc, ilGenImages, eg', bind_ok, pure_eq_ok, rd, List.getElem?_cons_zero, if_neg hid, e2, curObj, hp, e3]

theorem bind_ok_inv {α β : Type} {x : C α} {f : α → C β} {b : β} (h : (x >>= f) = .ok b) : ∃ a, x = .ok a ∧ f a = .ok b := by
  cases x with
  | error e => cases h
  | ok a => exact ⟨a, rfl, h⟩

/-- A closed object is freed. -/
theorem close_freed {fuel : Nat} {h h' : Heap} {p : Nat} (e : close fuel h p = .ok h') : h'[p]? = some Cell.freed := by
  cases fuel with
  | zero => cases e
  | succ fuel =>
    unfold close at e
    obtain ⟨_, _, e⟩ := bind_ok_inv e
    obtain ⟨_, _, e⟩ := bind_ok_inv e
    obtain ⟨_, _, e⟩ := bind_ok_inv e
    obtain ⟨_, _, e⟩ := bind_ok_inv e
    unfold free at e
    split at e
    · rename_i hx
      cases e
      exact List.getElem?_set_self (List.getElem?_eq_some_iff.mp hx).1
    all_goals cases e

/-- Deleting a name that is not bound frees its object, whatever image is bound. -/
theorem delete_other {s : Stack.Sys} (I : Inv s []) {n q : Nat} (h0 : n ≠ 0) (hn : n ≠ s.curName) (hq : s.stack[n]? = some (some q)) (x : Option Nat) :
    ∃ s', Stack.ilDeleteImages { s with cur := x } [n] = .ok s' ∧ s'.cur = x ∧ s'.heap[q]? = some Cell.freed := by
  obtain ⟨s1, e1, -⟩ := delete1_spec I n
  have hu : n < s.lastUsed := by
    rcases Nat.lt_or_ge n s.lastUsed with h | h
    · exact h
    · exact absurd ⟨q, hq⟩ (I.used n h)
  have hlt := (List.getElem?_eq_some_iff.mp hq).1
  have h00 : 0 < s.stack.length := by omega
  unfold delete1 at e1
  rw [if_pos ⟨by omega, hu⟩] at e1
  simp only [rd, hq, bind_ok, List.getElem?_eq_getElem h00] at e1
  rw [if_neg (fun h => h.elim hn h0)] at e1
  obtain ⟨h', ec, e1⟩ := bind_ok_inv e1
  refine ⟨{ s with heap := h', stack := s.stack.set n none, free := n :: s.free, cur := x }, ?_, rfl, close_freed ec⟩
  unfold Stack.ilDeleteImages deleteLoop deleteLoop delete1
  rw [if_neg I.ne_nil, if_pos ⟨by omega, hu⟩]
  simp only [rd, hq, bind_ok, List.getElem?_eq_getElem h00]
  rw [if_neg (fun h => h.elim hn h0)]
  simp only [ec, bind_ok, wr_of_lt hlt, pure_eq_ok]

end DevIL.Copy
