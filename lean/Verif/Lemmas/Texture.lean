import Verif.Model.Texture
import Verif.Lemmas.Games
/-! Reading a file and reading the same bytes further on in another file. -/
set_option autoImplicit false
namespace DevIL.Texture
open DevIL.Detect DevIL.Games DevIL.Image DevIL.Dds
open DevIL.Lump (SEEK_SET SEEK_CUR)

/-- The second file has `pre` and then `body`, the bytes of the first; it was given to the loader behind `pre`, and both are at the same byte. -/
structure Sim (pre body : List UInt8) (s t : Cache.S) : Prop where
  data : t.data = pre ++ s.data
  pos : t.pos = pre.length + s.pos
  start : s.start = 0 ∧ t.start = pre.length ∧ s.data = body

/-- Both programs end with related results, or run into the same fault. -/
def Same {α β : Type} (R : α → β → Prop) (c : C α) (d : C β) : Prop := (∃ a b, c = .ok a ∧ d = .ok b ∧ R a b) ∨ ∃ e, c = .error e ∧ d = .error e

theorem Same.pure {α β : Type} {R : α → β → Prop} {a : α} {b : β} (h : R a b) : Same R (pure a) (pure b) := .inl ⟨a, b, rfl, rfl, h⟩

theorem Same.bind {α β α' β' : Type} {R : α → β → Prop} {Q : α' → β' → Prop} {c : C α} {d : C β} {f : α → C α'} {g : β → C β'} (h : Same R c d) (hf : ∀ a b, R a b → Same Q (f a) (g b)) :
    Same Q (c >>= f) (d >>= g) := by
  rcases h with ⟨a, b, rfl, rfl, h⟩ | ⟨e, rfl, rfl⟩
  · exact hf a b h
  · exact .inr ⟨e, rfl, rfl⟩

theorem Same.refl {α : Type} (c : C α) : Same Eq c c := by
  cases c with
  | ok a => exact .inl ⟨a, a, rfl, rfl, rfl⟩
  | error e => exact .inr ⟨e, rfl, rfl⟩

theorem Same.loop {α β : Type} {R : α → β → Prop} {f : Nat → α → C α} {g : Nat → β → C β} (hs : ∀ i a b, R a b → Same R (f i a) (g i b)) (n : Nat) {a : α} {b : β} (h : R a b) :
    Same R (loopN n f a) (loopN n g b) := by
  induction n with
  | zero => exact .pure h
  | succ n ih =>
    rw [loopN_succ, loopN_succ]
    exact ih.bind (fun a b h => hs n a b h)

section
variable {pre body : List UInt8}

theorem sim_read {s t : Cache.S} (h : Sim pre body s t) (size n : Nat) :
    Same (fun r r' => r.1 = r'.1 ∧ r.2.1 = r'.2.1 ∧ Sim pre body r.2.2 r'.2.2) (fileOps.read s size n) (fileOps.read t size n) := by
  have e : t.data.drop t.pos = s.data.drop s.pos := by rw [h.data, h.pos, List.drop_append, List.drop_of_length_le (by omega), Nat.add_sub_cancel_left]; rfl
  refine .pure ⟨?_, ?_, ?_⟩
  · simp only [Cache.fread, e]
  · simp only [Cache.fread, e]
  · constructor
    · exact h.data
    · show t.pos + _ = _ + (s.pos + _)
      rw [e, h.pos, Nat.add_assoc]
    · exact h.start

theorem sim_getc {s t : Cache.S} (h : Sim pre body s t) : Same (fun r r' => r.1 = r'.1 ∧ Sim pre body r.2 r'.2) (fileOps.getc s) (fileOps.getc t) := by
  have e : t.data[t.pos]? = s.data[s.pos]? := by rw [h.data, h.pos, List.getElem?_append_right (by omega), Nat.add_sub_cancel_left]
  refine .pure ?_
  unfold Cache.fgetc
  rw [e]
  split
  · exact ⟨rfl, h.data, by show t.pos + 1 = _ + (s.pos + 1); rw [h.pos]; omega, h.start⟩
  · exact ⟨rfl, h⟩

theorem sim_skip {s t : Cache.S} (h : Sim pre body s t) (n : Nat) : Same (fun r r' => Sim pre body r.2 r'.2) (fileOps.seek s n SEEK_CUR) (fileOps.seek t n SEEK_CUR) := by
  refine .pure ?_
  rw [seek_cur, seek_cur, if_neg (by omega), if_neg (by omega)]
  exact ⟨h.data, by show ((t.pos : Int) + n).toNat = _ + ((s.pos : Int) + n).toNat; rw [h.pos]; omega, h.start⟩

theorem sim_head (junk : Nat → UInt8) (fs : List Fld) : ∀ {s t : Cache.S}, Sim pre body s t → Same (fun r r' => r.1 = r'.1 ∧ Sim pre body r.2 r'.2) (head fileOps junk fs s) (head fileOps junk fs t) := by
  induction fs with
  | nil => intro s t h; exact .pure ⟨rfl, h⟩
  | cons f fs ih =>
    intro s t h
    cases f with
    | rd size n =>
      refine (sim_read h size n).bind (fun a b hab => ?_)
      obtain ⟨g, k, s⟩ := a
      obtain ⟨g', k', t⟩ := b
      obtain ⟨rfl, rfl, h⟩ := hab
      refine (ih h).bind (fun a b hab => ?_)
      obtain ⟨a, s⟩ := a
      obtain ⟨b, t⟩ := b
      obtain ⟨rfl, h⟩ := hab
      exact .pure ⟨rfl, h⟩
    | getc =>
      refine (sim_getc h).bind (fun a b hab => ?_)
      obtain ⟨g, s⟩ := a
      obtain ⟨g', t⟩ := b
      obtain ⟨rfl, h⟩ := hab
      refine (ih h).bind (fun a b hab => ?_)
      obtain ⟨a, s⟩ := a
      obtain ⟨b, t⟩ := b
      obtain ⟨rfl, h⟩ := hab
      exact .pure ⟨rfl, h⟩
    | skip n =>
      refine (sim_skip h n).bind (fun a b hab => ?_)
      obtain ⟨g, s⟩ := a
      obtain ⟨g', t⟩ := b
      refine (ih hab).bind (fun a b hab => ?_)
      obtain ⟨a, s⟩ := a
      obtain ⟨b, t⟩ := b
      obtain ⟨rfl, h⟩ := hab
      exact .pure ⟨rfl, h⟩

theorem sim_into {s t : Cache.S} (h : Sim pre body s t) (buf : List UInt8) (size n : Nat) :
    Same (fun r r' => r.1 = r'.1 ∧ r.2.1 = r'.2.1 ∧ Sim pre body r.2.2 r'.2.2) (into fileOps s buf size n) (into fileOps t buf size n) := by
  unfold into
  refine (sim_read h size n).bind (fun a b hab => ?_)
  obtain ⟨g, k, s⟩ := a
  obtain ⟨g', k', t⟩ := b
  obtain ⟨rfl, rfl, h⟩ := hab
  refine (Same.refl _).bind (fun a b hab => ?_)
  subst hab
  exact .pure ⟨rfl, rfl, h⟩

/-- The states of the loop over the rows. -/
def SimRows (pre body : List UInt8) (r r' : Rows Cache.S) : Prop := r.data = r'.data ∧ r.t = r'.t ∧ r.failed = r'.failed ∧ Sim pre body r.inp r'.inp

theorem sim_row (bps : Nat) {r r' : Rows Cache.S} (h : SimRows pre body r r') : Same (SimRows pre body) (readRow fileOps bps r) (readRow fileOps bps r') := by
  obtain ⟨d, t, s, f⟩ := r
  obtain ⟨d', t', s', f'⟩ := r'
  obtain ⟨h1, h2, h3, h4⟩ := h
  simp only [] at h1 h2 h3 h4
  subst h1 h2 h3
  unfold readRow
  simp only []
  split
  · exact .pure ⟨rfl, rfl, rfl, h4⟩
  · refine (sim_read h4 1 bps).bind (fun a b hab => ?_)
    obtain ⟨g, k, s⟩ := a
    obtain ⟨g', k', t⟩ := b
    obtain ⟨rfl, rfl, h⟩ := hab
    refine (Same.refl _).bind (fun a b hab => ?_)
    subst hab
    simp only []
    split
    · exact .pure ⟨rfl, rfl, rfl, h⟩
    · exact .pure ⟨rfl, rfl, rfl, h⟩

theorem sim_data (junk : Nat → UInt8) (h : Hd) (x : Bool) (w ht d : Nat) {s t : Cache.S} (hs : Sim pre body s t) :
    Same (fun r r' => r.1 = r'.1 ∧ Sim pre body r.2 r'.2) (readData fileOps junk h x w ht d s) (readData fileOps junk h x w ht d t) := by
  unfold readData
  split
  · refine (sim_into hs _ 1 _).bind (fun a b hab => ?_)
    obtain ⟨g, k, s⟩ := a
    obtain ⟨g', k', t⟩ := b
    obtain ⟨rfl, rfl, h⟩ := hab
    simp only []
    split
    · exact .pure ⟨rfl, h⟩
    · exact .pure ⟨rfl, h⟩
  · simp only []
    generalize (if x = true then h.linear else u32 (w * h.bits) / 8) = bps
    split
    · exact .pure ⟨rfl, hs⟩
    · refine (Same.loop (R := SimRows pre body) (fun _ a b hab => Same.loop (fun _ a b hab => sim_row bps hab) _ hab) _ (a := ⟨_, _, s, _⟩) (b := ⟨_, _, t, _⟩) ⟨rfl, rfl, rfl, hs⟩).bind (fun a b hab => ?_)
      obtain ⟨h1, h2, h3, h4⟩ := hab
      rw [h3, h1]
      split
      · exact .pure ⟨rfl, h4⟩
      · exact .pure ⟨rfl, h4⟩

/-- The states of the loop over the mipmaps. -/
def SimMips (pre body : List UInt8) (r r' : MipS Cache.S) : Prop := r.w = r'.w ∧ r.h = r'.h ∧ r.d = r'.d ∧ r.linear = r'.linear ∧ r.mips = r'.mips ∧ r.failed = r'.failed ∧ Sim pre body r.inp r'.inp

theorem sim_mip (junk : Nat → UInt8) (h : Hd) (f : PF) {r r' : MipS Cache.S} (hr : SimMips pre body r r') : Same (SimMips pre body) (mipStep fileOps junk h f r) (mipStep fileOps junk h f r') := by
  obtain ⟨w, ht, d, l, m, s, fl⟩ := r
  obtain ⟨w', ht', d', l', m', s', fl'⟩ := r'
  obtain ⟨h1, h2, h3, h4, h5, h6, h7⟩ := hr
  simp only [] at h1 h2 h3 h4 h5 h6 h7
  subst h1 h2 h3 h4 h5 h6
  unfold mipStep
  simp only []
  split
  · exact .pure ⟨rfl, rfl, rfl, rfl, rfl, rfl, h7⟩
  · refine (Same.refl _).bind (fun a b hab => ?_)
    subst hab
    cases a with
    | none => exact .pure ⟨rfl, rfl, rfl, rfl, rfl, rfl, h7⟩
    | some q =>
      simp only []
      refine (sim_data junk _ _ _ _ _ h7).bind (fun a b hab => ?_)
      obtain ⟨c, s⟩ := a
      obtain ⟨c', t⟩ := b
      obtain ⟨rfl, h⟩ := hab
      cases c with
      | none => exact .pure ⟨rfl, rfl, rfl, rfl, rfl, rfl, h⟩
      | some c =>
        simp only []
        refine (Same.refl _).bind (fun a b hab => ?_)
        subst hab
        obtain ⟨ok, p⟩ := a
        cases ok
        · exact .pure ⟨rfl, rfl, rfl, rfl, rfl, rfl, h⟩
        · exact .pure ⟨rfl, rfl, rfl, rfl, rfl, rfl, h⟩

theorem sim_mips (junk : Nat → UInt8) (h : Hd) (f : PF) (w ht d : Nat) {s t : Cache.S} (hs : Sim pre body s t) :
    Same (fun r r' => r.1 = r'.1 ∧ Sim pre body r.2 r'.2) (readMipmaps fileOps junk h f w ht d s) (readMipmaps fileOps junk h f w ht d t) := by
  unfold readMipmaps
  refine (Same.loop (R := SimMips pre body) (fun _ a b hab => sim_mip junk h f hab) _ (a := ⟨_, _, _, _, _, s, _⟩) (b := ⟨_, _, _, _, _, t, _⟩) ⟨rfl, rfl, rfl, rfl, rfl, rfl, hs⟩).bind (fun a b hab => ?_)
  obtain ⟨h1, h2, h3, h4, h5, h6, h7⟩ := hab
  rw [h6, h5]
  split
  · exact .pure ⟨rfl, h7⟩
  · exact .pure ⟨rfl, h7⟩

/-- The same result and the same images. -/
def SimOut (pre body : List UInt8) {ρ : Type} (r r' : Bool × ρ × Cache.S) : Prop := r.1 = r'.1 ∧ r.2.1 = r'.2.1 ∧ Sim pre body r.2.2 r'.2.2

theorem sim_dx10 (junk : Nat → UInt8) (h : Hd) (block : Nat) (cur : Img) {s t : Cache.S} (hs : Sim pre body s t) :
    Same (SimOut pre body) (loadDx10 fileOps junk h block cur s) (loadDx10 fileOps junk h block cur t) := by
  unfold loadDx10
  refine (sim_head junk _ hs).bind (fun a b hab => ?_)
  obtain ⟨e, s⟩ := a
  obtain ⟨e', t⟩ := b
  obtain ⟨rfl, hs⟩ := hab
  simp only []
  split
  · exact .pure ⟨rfl, rfl, hs⟩
  · refine (sim_data junk _ _ _ _ _ hs).bind (fun a b hab => ?_)
    obtain ⟨c, s⟩ := a
    obtain ⟨c', t⟩ := b
    obtain ⟨rfl, hs⟩ := hab
    cases c with
    | none => exact .pure ⟨rfl, rfl, hs⟩
    | some c =>
      simp only []
      cases dx10Kind (fixSize h block) (fle e 0) with
      | none => exact .pure ⟨rfl, rfl, hs⟩
      | some k =>
        obtain ⟨k, f, ty⟩ := k
        refine (Same.refl _).bind (fun a b hab => ?_)
        subst hab
        exact .pure ⟨rfl, rfl, hs⟩

theorem sim_surface (junk : Nat → UInt8) (h : Hd) (f : PF) (cur : Img) {s t : Cache.S} (hs : Sim pre body s t) :
    Same (SimOut pre body) (loadSurface fileOps junk h f cur s) (loadSurface fileOps junk h f cur t) := by
  unfold loadSurface
  simp only []
  refine (sim_data junk _ _ _ _ _ hs).bind (fun a b hab => ?_)
  obtain ⟨c, s⟩ := a
  obtain ⟨c', t⟩ := b
  obtain ⟨rfl, hs⟩ := hab
  cases c with
  | none => exact .pure ⟨rfl, rfl, hs⟩
  | some c =>
    simp only []
    refine (Same.refl _).bind (fun a b hab => ?_)
    subst hab
    obtain ⟨ok, p⟩ := a
    cases ok
    · exact .pure ⟨rfl, rfl, hs⟩
    · refine (sim_mips junk _ _ _ _ _ hs).bind (fun a b hab => ?_)
      obtain ⟨m, s⟩ := a
      obtain ⟨m', t⟩ := b
      obtain ⟨rfl, hs⟩ := hab
      cases m with
      | none => exact .pure ⟨rfl, rfl, hs⟩
      | some m => exact .pure ⟨rfl, rfl, hs⟩

theorem sim_dds (junk : Nat → UInt8) (cube : Hd → Cache.S → C (Bool × List Img × Cache.S)) (hc : ∀ h s t, Sim pre body s t → Same (SimOut pre body) (cube h s) (cube h t)) (cur : Img) {s t : Cache.S}
    (hs : Sim pre body s t) : Same (SimOut pre body) (iLoadDdsInternal fileOps junk cube cur s) (iLoadDdsInternal fileOps junk cube cur t) := by
  unfold iLoadDdsInternal
  refine (sim_head junk _ hs).bind (fun a b hab => ?_)
  obtain ⟨e, s⟩ := a
  obtain ⟨e', t⟩ := b
  obtain ⟨rfl, hs⟩ := hab
  simp only []
  split
  · exact .pure ⟨rfl, rfl, hs⟩
  · split
    · exact .pure ⟨rfl, rfl, hs⟩
    · split
      · exact hc _ _ _ hs
      · split
        · exact sim_dx10 junk _ _ _ hs
        · exact sim_surface junk _ _ _ hs

/-- Loading the whole file: the results are the same, and the second file ends up behind `pre`. -/
theorem sim_load {ρ : Type} {v : Cache.S → C (Bool × ρ × Cache.S)} (hv : ∀ s t, Sim pre body s t → Same (SimOut pre body) (v s) (v t)) (hp : pre.length = 48) {s t : Cache.S}
    (hs : s.data = body ∧ s.pos = 0) (ht : t.data = pre ++ body ∧ t.pos = 0) :
    Same (fun r r' => r.1 = r'.1 ∧ r.2.1 = r'.2.1 ∧ r'.2.2.data = pre ++ body ∧ r'.2.2.pos = 48) (ilLoadF v s) (ilLoadTextureF v t) := by
  obtain ⟨d, p, st, u, c, z, cp, cs, cr⟩ := s
  obtain ⟨d', p', st', u', c', z', cp', cs', cr'⟩ := t
  simp only [] at hs ht
  obtain ⟨rfl, rfl⟩ := hs
  obtain ⟨rfl, rfl⟩ := ht
  have hS : Sim pre d (⟨d, 0, 0, u, c, z, cp, cs, cr⟩ : Cache.S) ⟨pre ++ d, 48, 48, u', c', z', cp', cs', cr'⟩ := ⟨rfl, by rw [hp]; rfl, rfl, by rw [hp], rfl⟩
  have key := hv _ _ hS
  have e2 : ilLoadTextureF v ⟨pre ++ d, 0, st', u', c', z', cp', cs', cr'⟩ = (do
      let (b, r, s) ← v ⟨pre ++ d, 48, 48, u', c', z', cp', cs', cr'⟩
      pure (b, r, (Cache.iSeekRFile (Cache.iSeekRFile s 48 SEEK_SET).2 0 SEEK_SET).2)) := by
    unfold ilLoadTextureF ilLoadF
    simp only [bind_assoc, pure_bind]
    rfl
  rw [e2]
  unfold ilLoadF
  refine key.bind (fun a b hab => ?_)
  obtain ⟨h1, h2, h3⟩ := hab
  refine .pure ⟨h1, h2, ?_⟩
  have hst := h3.start.2.1
  have hda : b.2.2.data = pre ++ d := by rw [h3.data, h3.start.2.2]
  rw [hp] at hst
  unfold Cache.iSeekRFile
  simp [SEEK_SET, hst, hda]

end

end DevIL.Texture
