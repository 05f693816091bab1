import Verif.Lemmas.CopyC
/-! Properties C147 (copying an image), C148 (cloning the bound image) and C149 (giving an image new contents). -/
set_option autoImplicit false
namespace DevIL.Copy
open DevIL.Stack (Reach Heap Cell Node Link SlotLive)
open DevIL.Utility

/-! ### Histories to show that the theorems are about something -/

instance (w h d bpp t : Nat) (data : List UInt8) : Decidable (TexOk w h d bpp t data) := by unfold TexOk; infer_instance

/-- Whether a call other than `change` is proper. -/
def properB (y : Sys) : Op → Bool
  | .bind n => decide (n ∉ y.base.free)
  | .change _ => false
  | .tex w h d bpp _ t data => decide (TexOk w h d bpp t data)
  | .surface w h d bpp _ t data => decide (TexOk w h d bpp t data)
  | _ => true

/-- A history of proper calls. -/
def trail (junk : Nat → UInt8) (y : Sys) : List Op → Option Sys
  | [] => some y
  | o :: os =>
    if properB y o then
      match step junk y o with
      | .ok y' => trail junk y' os
      | .error _ => none
    else none

theorem reach_trail {junk : Nat → UInt8} (os : List Op) (y y' : Sys) (R : Reachable junk y) (e : trail junk y os = some y') : Reachable junk y' := by
  induction os generalizing y with
  | nil => cases e; exact R
  | cons o os ih =>
    unfold trail at e
    split at e
    · rename_i hv
      split at e
      · rename_i y1 h1
        refine ih y1 (.call o R ?_ h1) e
        cases o <;> simp_all [properB, Op.Valid]
      · cases e
    · cases e

/-- A reachable state with the property `P`, found by running calls. -/
theorem reach_any {junk : Nat → UInt8} (os : List Op) (P : Sys → Bool) (h : (trail junk (initial junk) os).any P = true) :
    ∃ y, Reachable junk y ∧ P y = true := by
  cases e : trail junk (initial junk) os with
  | none => rw [e] at h; cases h
  | some y => rw [e] at h; exact ⟨y, reach_trail os _ _ .start e, h⟩

/-- Name 2 is a picture of two pixels with a mipmap, name 3 one of one pixel; name 3 is bound. -/
def history : List Op :=
  [.bind 2, .tex 2 1 1 3 IL_RGB IL_UNSIGNED_BYTE [1, 2, 3, 4, 5, 6], .createSub IL_SUB_MIPMAP 1, .bind 3,
    .tex 1 1 1 1 IL_LUMINANCE IL_UNSIGNED_BYTE [7], .createSub IL_SUB_MIPMAP 1]

/-! ### C147: copying an image -/

/-- **C147 (partial).** In every state a program can reach, when the bound image is not name 0 and none of its sub-images is selected, `ilCopyImage` with the name of
another image succeeds; the same image is bound; its geometry, pixels, palette, profile, animation data and so on are those of the source; and all other images,
including the source, with all their sub-images are what they were.  Missing: the sub-images and the compressed data of the source (`C147_violated_subimages`),
the bound image itself as the source (`C147_violated_self`), a selected sub-image as the target (`C147_violated_selected`). -/
theorem C147_copy_partial (junk : Nat → UInt8) (y : Sys) (R : Reachable junk y) (hb : AtBase y) (h0 : ilGetCurName y ≠ 0) (src q : Nat)
    (hq : y.base.stack[src]? = some (some q)) (hne : src ≠ ilGetCurName y) :
    ∃ c y', y.base.cur = some c ∧ ilCopyImage junk y src = .ok (true, y') ∧ y'.base.cur = some c ∧ ilGetCurName y' = ilGetCurName y ∧
      y'.cont c = (y.cont q).copied ∧ ∀ m, m ≠ ilGetCurName y → Untouched y y' m := by
  have G := R.good
  rw [curName_eq G] at h0 hne ⊢
  obtain ⟨c, y', hc, e, G', -, k, c', n', -, S⟩ := copy_spec junk G hb h0 hq hne
  exact ⟨c, y', hc, e, c', by rw [curName_eq G', n'], k, fun m hm => (S m hm).untouched⟩

/-- Copying name 2 onto name 3. -/
example : ∃ y, Reachable (fun _ => 0) y ∧
    decide (y.base.stack[y.base.curName]? = some y.base.cur ∧ ilGetCurName y = 3 ∧ y.base.stack[2]? = some (some 2) ∧
      (y.cont 2).img.data = [1, 2, 3, 4, 5, 6] ∧ (y.base.cur.map (fun c => (y.cont c).img.data)) = some [7]) = true :=
  reach_any history _ (by decide +kernel)

/-- **C147, violated.** The copy has no sub-images, whatever the source has, and no compressed data; here the source has a mipmap. -/
theorem C147_violated_subimages (junk : Nat → UInt8) (y : Sys) (R : Reachable junk y) (hb : AtBase y) (h0 : ilGetCurName y ≠ 0) (src q : Nat)
    (hq : y.base.stack[src]? = some (some q)) (hne : src ≠ ilGetCurName y) :
    ∃ c y', ilCopyImage junk y src = .ok (true, y') ∧ y'.base.cur = some c ∧ Bare y' c ∧ (y'.cont c).dxtc = none := by
  have G := R.good
  rw [curName_eq G] at h0 hne
  obtain ⟨c, y', hc, e, G', b, k, c', -⟩ := copy_spec junk G hb h0 hq hne
  exact ⟨c, y', e, c', b, by rw [k]; rfl⟩

example : ∃ y, Reachable (fun _ => 0) y ∧
    decide (y.base.stack[y.base.curName]? = some y.base.cur ∧ ilGetCurName y = 3 ∧ y.base.stack[2]? = some (some 2) ∧
      (match y.base.heap[2]? with | some (Cell.live n) => n.mips.isSome | _ => false) = true) = true :=
  reach_any history _ (by decide +kernel)

/-- **C147, violated.** Copying the bound image onto itself reads the pixels after they have been freed, in every state. -/
theorem C147_violated_self (junk : Nat → UInt8) (y : Sys) (R : Reachable junk y) (h0 : ilGetCurName y ≠ 0) :
    ilCopyImage junk y (ilGetCurName y) = .error .useAfterFree := by
  have G := R.good
  rw [curName_eq G] at h0 ⊢
  exact self_copy junk G h0

/-- **C147, violated.** Copying an image while a sub-image of the target is selected writes to the sub-image after it has been freed, in every state. -/
theorem C147_violated_selected (junk : Nat → UInt8) (y : Sys) (R : Reachable junk y) (hb : ¬ AtBase y) (h0 : ilGetCurName y ≠ 0) (src q : Nat)
    (hq : y.base.stack[src]? = some (some q)) : ilCopyImage junk y src = .error .useAfterFree := by
  have G := R.good
  rw [curName_eq G] at h0
  exact sub_copy junk G hb h0 hq

/-- The mipmap of name 3 is selected. -/
example : ∃ y, Reachable (fun _ => 0) y ∧
    decide (y.base.stack[y.base.curName]? ≠ some y.base.cur ∧ ilGetCurName y = 3 ∧ y.base.stack[2]? = some (some 2)) = true :=
  reach_any (history ++ [.active .mip 1]) _ (by decide +kernel)

/-- **C147, image 0.** When name 0 is bound, `ilCopyImage` fails with `IL_ILLEGAL_OPERATION` and changes nothing else. -/
theorem C147_zero_partial (junk : Nat → UInt8) (y : Sys) (R : Reachable junk y) (h0 : ilGetCurName y = 0) (src : Nat) :
    ∃ y', ilCopyImage junk y src = .ok (false, y') ∧ y'.base.errs = IL_ILLEGAL_OPERATION :: y.base.errs ∧ y'.base.cur = y.base.cur ∧
      y'.base.curName = y.base.curName ∧ ∀ m, Untouched y y' m := by
  have G := R.good
  rw [curName_eq G] at h0
  exact ⟨_, copy_zero junk G h0 src, rfl, rfl, rfl, fun m q hq => ⟨hq, fun x _ => ⟨rfl, rfl⟩⟩⟩

example : ∃ y, Reachable (fun _ => 0) y ∧ decide (ilGetCurName y = 0) = true := reach_any [.bind 0] _ (by decide +kernel)

/-! ### C148: cloning the bound image -/

/-- **C148 (partial).** In every state a program can reach, `ilCloneCurImage` returns a name other than 0 that had no image; this name now has an image with the contents
of the bound image, the same image is bound, and all images there were are what they were.  Missing: sub-images and compressed data, as for C147; and the bound name
is not what it was (`C148_violated_name`). -/
theorem C148_clone_partial (junk : Nat → UInt8) (y : Sys) (R : Reachable junk y) :
    ∃ c id p y', y.base.cur = some c ∧ ilCloneCurImage junk y = .ok (id, y') ∧ id ≠ 0 ∧ ¬ SlotLive y.base id ∧ y'.base.stack[id]? = some (some p) ∧
      y'.cont p = (y.cont c).copied ∧ y'.base.cur = some c ∧ ∀ m, SlotLive y.base m → Untouched y y' m := by
  obtain ⟨c, id, p, y3, hc, e, h0, hn, hs, G3, b, k, hcur, n3, S⟩ := clone_spec junk R.good
  refine ⟨c, id, p, _, hc, e, h0, hn, hs, k, rfl, fun m hm => ?_⟩
  exact (S m (fun h => hn (h ▸ hm))).untouched

/-- **C148, violated.** After `ilCloneCurImage` the library reports the name of the clone as the bound one, while calls work on the original. -/
theorem C148_violated_name (junk : Nat → UInt8) (y : Sys) (R : Reachable junk y) :
    ∃ c id p y', y.base.cur = some c ∧ ilCloneCurImage junk y = .ok (id, y') ∧ ilGetCurName y' = id ∧ ilGetCurName y ≠ id ∧
      y'.base.stack[id]? = some (some p) ∧ y'.base.cur = some c ∧ c ≠ p := by
  have G := R.good
  obtain ⟨c, id, p, y3, hc, e, h0, hn, hs, G3, b, k, hcur, n3, S⟩ := clone_spec junk G
  obtain ⟨c', q, hc', hq, hr⟩ := cur_root G
  rw [hc] at hc'; cases hc'
  have hne : y.base.curName ≠ id := fun h => hn (h ▸ ⟨q, hq⟩)
  refine ⟨c, id, p, _, hc, e, ?_, by rw [curName_eq G]; exact hne, hs, rfl, ?_⟩
  · unfold ilGetCurName
    rw [if_neg]
    · exact n3
    · rintro (h | h)
      · cases h
      · exact G3.inv.ne_nil h
  · intro hcp
    obtain ⟨h1, h2⟩ := (S _ hne).1 q hq
    have hr' := (h2 c hr).2
    have e1 := Stack.Reach.unique G3.inv.wf (roots_pos h1) (roots_pos hs) hr' (hcp ▸ .refl)
    subst e1
    have hu := G3.inv.wf.uniq q
    have : 2 ≤ Stack.roots y3.base.stack [] q := by
      have := Stack.count_set y3.base.stack id (some q) none q hs
      have h3 : (y3.base.stack.set id none)[y.base.curName]? = some (some q) := by rw [List.getElem?_set_ne (Ne.symm hne)]; exact h1
      have h4 : 0 < (y3.base.stack.set id none).count (some q) := List.count_pos_iff.mpr (List.mem_of_getElem? h3)
      simp only [Stack.roots]
      simp at this
      omega
    unfold Stack.cnt at hu
    omega

/-- **C148, violated.** Deleting the original after it has been cloned leaves the bound image pointing to freed memory: every later call that changes the bound image
uses it. -/
theorem C148_violated_delete (junk : Nat → UInt8) (y : Sys) (R : Reachable junk y) (hb : AtBase y) (h0 : ilGetCurName y ≠ 0) :
    ∃ id y' y'', ilCloneCurImage junk y = .ok (id, y') ∧ ilDeleteImages junk y' [ilGetCurName y] = .ok y'' ∧
      (∀ x, change y'' x = .error .useAfterFree) ∧ (∀ w h d bpp f t src, ilTexImage junk y'' w h d bpp f t src = .error .useAfterFree) := by
  have G := R.good
  rw [curName_eq G] at h0 ⊢
  obtain ⟨c, id, p, y3, hc, e, -, hn, hs, G3, b, k, hcur, n3, S⟩ := clone_spec junk G
  have hq : y.base.stack[y.base.curName]? = some (some c) := by rw [hb, hc]
  have hne : y.base.curName ≠ id := fun h => hn (h ▸ ⟨c, hq⟩)
  have h1 := ((S _ hne).1 c hq).1
  obtain ⟨s', e', hcur', hf⟩ := delete_other G3.inv h0 (by rw [n3]; exact hne) h1 (some c)
  have hl : Stack.load s'.heap c = .error .useAfterFree := by simp [Stack.load, hf]
  refine ⟨id, _, sync junk { y3 with base := { y3.base with cur := some c } } s', e, by simp only [ilDeleteImages, e', bind_ok, pure_eq_ok], ?_, ?_⟩
  · intro x
    simp only [change, curObj, sync, hcur', bind_ok, hl]; rfl
  · intro w h d bpp f t src
    simp only [ilTexImage, curObj, sync, hcur', bind_ok, ilTexImage_, closeLink, hl]; rfl

example : ∃ y, Reachable (fun _ => 0) y ∧ decide (y.base.stack[y.base.curName]? = some y.base.cur ∧ ilGetCurName y = 3) = true :=
  reach_any history _ (by decide +kernel)

/-! ### C149: giving an image new contents -/

/-- **C149.** In every state a program can reach, every proper call is safe and leads to a state in which all images are proper. -/
theorem C149_safe (junk : Nat → UInt8) (y : Sys) (R : Reachable junk y) (o : Op) (v : o.Valid y) :
    ∃ y', step junk y o = .ok y' ∧ Reachable junk y' ∧ ∀ m q : Nat, y'.base.stack[m]? = some (some q) → ∀ x, Reach y'.base.heap q x → (y'.cont x).Whole := by
  obtain ⟨y', e, G'⟩ := step_good junk R.good o v
  exact ⟨y', e, .call o R v e, fun _ _ _ x _ => G'.whole x⟩

/-- **C149.** `ilTexImage` with proper arguments gives the bound image the dimensions, the format and the pixels of the call and the lower left as origin; it has no
palette, no sub-images and nothing else; the same image is bound; all other images are what they were. -/
theorem C149_tex (junk : Nat → UInt8) (y : Sys) (R : Reachable junk y) (w h d bpp f t : Nat) (data : List UInt8) (ok : TexOk w h d bpp t data) :
    ∃ c y', y.base.cur = some c ∧ ilTexImage junk y w h d bpp f t (.ext data) = .ok y' ∧ y'.base.cur = some c ∧ ilGetCurName y' = ilGetCurName y ∧
      Bare y' c ∧ (y'.cont c).img.Consistent ∧ (y'.cont c).img.width = max w 1 ∧ (y'.cont c).img.height = max h 1 ∧ (y'.cont c).img.depth = max d 1 ∧
      (y'.cont c).img.bpp = bpp ∧ (y'.cont c).img.bpc = ilGetBpcType t ∧ (y'.cont c).img.format = f ∧ (y'.cont c).img.type = t ∧
      (y'.cont c).img.origin = IL_ORIGIN_LOWER_LEFT ∧
      (y'.cont c).img.data = data.take (max w 1 * bpp * ilGetBpcType t * max h 1 * max d 1) ∧ (y'.cont c).pal = none ∧ (y'.cont c).profile = none ∧
      (y'.cont c).anim = none ∧ (y'.cont c).dxtc = none ∧ ∀ m, m ≠ ilGetCurName y → Untouched y y' m := by
  have G := R.good
  obtain ⟨c, y', hc, e, G', b, c', n', -, -, k, S⟩ := tex_ext junk G (f := f) ok
  have hs := (geometry_whole (f := f) ok (List.replicate (Image.geometry w h d bpp f t []).size 0) (by simp)).2.2
  have W := (G'.whole c).consistent
  rw [k] at W
  refine ⟨c, y', hc, e, by rw [c', hc], by rw [curName_eq G, curName_eq G', n'], b, by rw [k]; exact W, ?_, ?_, ?_, ?_, ?_, ?_, ?_, ?_, ?_, ?_, ?_, ?_, ?_,
    fun m hm => (S m (by rw [← curName_eq G]; exact hm)).untouched⟩
  all_goals rw [k]
  all_goals first | rfl | exact atLeast1_eq _ | (rw [← hs]; rfl)

/-- **C149.** `ilTexImageSurface` with proper arguments does the same, but the bound image keeps its sub-images, its origin and its cube-map flags. -/
theorem C149_surface (junk : Nat → UInt8) (y : Sys) (R : Reachable junk y) (w h d bpp f t : Nat) (data : List UInt8) (ok : TexOk w h d bpp t data) :
    ∃ c n v y', y.base.cur = some c ∧ ilTexImageSurface junk y w h d bpp f t (.ext data) = .ok y' ∧ y'.base.cur = some c ∧
      ilGetCurName y' = ilGetCurName y ∧ y.base.heap[c]? = some (.live n) ∧ y'.base.heap[c]? = some (.live { n with payload := v }) ∧
      (y'.cont c).img.Consistent ∧ (y'.cont c).img.width = max w 1 ∧ (y'.cont c).img.height = max h 1 ∧ (y'.cont c).img.depth = max d 1 ∧
      (y'.cont c).img.bpp = bpp ∧ (y'.cont c).img.bpc = ilGetBpcType t ∧ (y'.cont c).img.format = f ∧ (y'.cont c).img.type = t ∧
      (y'.cont c).img.origin = (y.cont c).img.origin ∧ (y'.cont c).cubeFlags = (y.cont c).cubeFlags ∧
      (y'.cont c).img.data = data.take (max w 1 * bpp * ilGetBpcType t * max h 1 * max d 1) ∧ (y'.cont c).pal = none ∧
      (∀ m, m ≠ ilGetCurName y → Untouched y y' m) ∧
      (∀ i, i ≠ c → y'.base.heap[i]? = y.base.heap[i]? ∧ y'.cont i = y.cont i) := by
  have G := R.good
  obtain ⟨c, n, y', hc, hn, e, G', hat, c', n', -, -, k, S, F⟩ := surface_ext junk G (f := f) ok
  have hs := (geometry_whole (f := f) ok (List.replicate (Image.geometry w h d bpp f t []).size 0) (by simp)).2.2
  have W := (G'.whole c).consistent
  rw [k] at W
  refine ⟨c, n, n.payload + 1, y', hc, e, by rw [c', hc], by rw [curName_eq G, curName_eq G', n'], hn, hat, by rw [k]; exact W, ?_, ?_, ?_, ?_, ?_, ?_, ?_, ?_, ?_, ?_, ?_,
    fun m hm => (S m (by rw [← curName_eq G]; exact hm)).untouched, F⟩
  all_goals rw [k]
  all_goals first | rfl | exact atLeast1_eq _ | (rw [← hs]; rfl)

/-- Two pixels of three bytes. -/
example : TexOk 2 1 1 3 IL_UNSIGNED_BYTE [1, 2, 3, 4, 5, 6] := by decide

end DevIL.Copy
