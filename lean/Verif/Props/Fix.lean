import Verif.Spec.Fix
import Verif.Props.ConvImage
import Verif.Props.Stack
/-! Property C111: the settings for loaded images are applied to every part of the loaded image. -/
set_option autoImplicit false
namespace DevIL.Fix
open DevIL.Stack (Link Heap Chain Cell)

theorem mem_ch {l : Link} {h : Heap} {p q : Nat} {n : Stack.Node} (he : Ends h) (hn : h[p]? = some (Cell.live n)) : q ∈ ch l h p ↔ Along l h p q := by
  obtain ⟨c, hc⟩ := he p n hn l
  rw [ch_eq hc]
  constructor
  · exact fun h => ⟨c, hc, h⟩
  · rintro ⟨d, hd, h⟩
    rwa [chain_unique hc hd]

theorem along_live {l : Link} {h : Heap} {p q : Nat} (ha : Along l h p q) : ∃ n, h[q]? = some (Cell.live n) := by
  obtain ⟨c, hc, hq⟩ := ha
  exact (chain_mem hc hq).1

theorem mem_visits {h : Heap} {r q : Nat} (he : Ends h) (hr : ∃ n, h[r]? = some (Cell.live n)) : q ∈ visits h r ↔ Part h r q := by
  obtain ⟨n, hn⟩ := hr
  unfold visits Part
  simp only [List.mem_flatMap]
  constructor
  · rintro ⟨i, hi, f, hf, k, hk, hq⟩
    have hi := (mem_ch he hn).mp hi
    obtain ⟨n1, hn1⟩ := along_live hi
    have hf := (mem_ch he hn1).mp hf
    obtain ⟨n2, hn2⟩ := along_live hf
    have hk := (mem_ch he hn2).mp hk
    obtain ⟨n3, hn3⟩ := along_live hk
    exact ⟨i, f, k, hi, hf, hk, (mem_ch he hn3).mp hq⟩
  · rintro ⟨i, f, k, hi, hf, hk, hq⟩
    obtain ⟨n1, hn1⟩ := along_live hi
    obtain ⟨n2, hn2⟩ := along_live hf
    obtain ⟨n3, hn3⟩ := along_live hk
    exact ⟨i, (mem_ch he hn).mpr hi, f, (mem_ch he hn1).mpr hf, k, (mem_ch he hn2).mpr hk, (mem_ch he hn3).mpr hq⟩

theorem atImg_self {s : S} {r : Nat} (h : s.sys.cur = some r) : atImg s r = s := by
  obtain ⟨sys, pix⟩ := s
  simp only at h
  simp [atImg, ← h]

theorem fixCur_off {a : Settings} {conv : Nat → Nat → List Img → C (Bool × List Img)} (ha : a.off) (s : S) (c : Nat) : ilFixCur a conv (atImg s c) = .ok (true, atImg s c) := by
  obtain ⟨h1, h2, h3, h4⟩ := ha
  simp [ilFixCur, atImg, fixOrigin, fixType, fixFormat, fixPal, h1, h2, h3, h4]

/-- **C111 (nothing set).**  With the settings off a load into the bound image delivers exactly what the loader made.  Missing here and below: loads into a selected sub-image, see `C111_violated_sub`. -/
theorem C111_off_partial {a : Settings} {conv : Nat → Nat → List Img → C (Bool × List Img)} (ha : a.off) {s : S} {r : Nat} (hb : Bound s r) : ilFixImage a conv s = .ok (true, s) := by
  rw [fixImage_eq hb.name hb.cur hb.ends hb.live]
  have key : ∀ (vs : List Nat) (s : S), ∃ t, seq a conv vs s = .ok (true, t) ∧ atImg t r = atImg s r := by
    intro vs
    induction vs with
    | nil => intro s; exact ⟨s, rfl, rfl⟩
    | cons v vs ih =>
      intro s
      obtain ⟨t, e, h⟩ := ih (atImg s v)
      refine ⟨t, ?_, h⟩
      simp only [seq]
      rw [fixCur_off ha]
      exact e
  obtain ⟨t, e, h⟩ := key (visits s.sys.heap r) s
  rw [e]
  simp only [bind_ok, Bool.not_true, Bool.false_eq_true, if_false]
  rw [h, atImg_self hb.cur]
  rfl

/-- What turning over one image does, if need be. -/
def turned (a : Settings) (m m' : Img) : Prop :=
  m.SameShape m' ∧ m'.origin = a.originMode ∧ ∀ o, IsOrigin o → ∀ x y z b, m.In x y z b → m'.view (some o) x y z b = m.view (some o) x y z b

theorem turned_self {a : Settings} {m : Img} (h : m.origin = a.originMode) : turned a m m := ⟨⟨rfl, rfl⟩, h, fun _ _ _ _ _ _ _ => rfl⟩

theorem fix_one {a : Settings} {conv : Nat → Nat → List Img → C (Bool × List Img)} (ha : a.onlyOrigin) (s : S) (c : Nat) (hm : Turnable (s.pix c)) :
    ∃ m', ilFixCur a conv (atImg s c) = .ok (true, { atImg s c with pix := fun p => if p = c then m' else s.pix p }) ∧ turned a (s.pix c) m' ∧ (s.pix c).origin ≠ a.originMode ∨
      ilFixCur a conv (atImg s c) = .ok (true, atImg s c) ∧ (s.pix c).origin = a.originMode := by
  obtain ⟨h1, h0, h2, h3, h4⟩ := ha
  by_cases ho : a.originMode = (s.pix c).origin
  · refine ⟨s.pix c, Or.inr ⟨?_, ho.symm⟩⟩
    simp [ilFixCur, atImg, fixOrigin, fixType, fixFormat, fixPal, h1, h2, h3, h4, ho]
  · obtain ⟨m', e, sh, o, p⟩ := Manip.C16_flip _ hm.cons hm.fits
    have hoo : m'.origin = a.originMode := by
      rw [o]
      have h5 := hm.origin
      unfold IsOrigin at h5 h0
      rcases h5 with h5 | h5 <;> rcases h0 with h0 | h0 <;> rw [h5] at ho ⊢ <;> rw [h0] at ho ⊢ <;> first | rfl | exact absurd rfl ho
    refine ⟨m', Or.inl ⟨?_, ⟨sh, hoo, ?_⟩, fun e => ho e.symm⟩⟩
    · simp only [ilFixCur, atImg, fixOrigin, h1, true_and, if_pos ho, flip, e, bind_ok, pure_eq_ok]
      simp [fixType, fixFormat, fixPal, h2, h3, h4]
    · intro o' ho' x y z b hin
      have hh : m'.height = (s.pix c).height := by rw [sh.1]
      unfold Img.view
      simp only
      rw [hoo, hh]
      have hx : ∀ y, y < (s.pix c).height → m'.px x ((s.pix c).height - 1 - y) z b = (s.pix c).px x y z b := fun y hy => p x y z b ⟨hin.1, hy, hin.2.2.1, hin.2.2.2⟩
      have hy := hin.2.1
      by_cases h6 : o' = a.originMode
      · rw [if_pos h6, if_neg (fun e => ho (h6.symm.trans e))]
        have := hx ((s.pix c).height - 1 - y) (by omega)
        rw [show (s.pix c).height - 1 - ((s.pix c).height - 1 - y) = y by omega] at this
        exact this
      · rw [if_neg h6, if_pos ?_]
        · exact hx y hy
        · have h5 := hm.origin
          unfold IsOrigin at h5 h0 ho'
          rcases h5 with h5 | h5 <;> rcases h0 with h0 | h0 <;> rcases ho' with h7 | h7 <;> rw [h7] at h6 ⊢ <;> rw [h5] at ho ⊢ <;> rw [h0] at ho h6 <;> first | rfl | exact absurd rfl ho | exact absurd rfl h6

/-- **C111 (origin).**  With only `IL_ORIGIN_SET` enabled the fix succeeds; every image, face, layer and mipmap of the loaded image has the origin asked for and shows the same picture, and nothing else is changed. -/
theorem C111_origin_partial {a : Settings} {conv : Nat → Nat → List Img → C (Bool × List Img)} (ha : a.onlyOrigin) {s : S} {r : Nat} (hb : Bound s r) (hm : ∀ q, Part s.sys.heap r q → Turnable (s.pix q)) :
    ∃ s', ilFixImage a conv s = .ok (true, s') ∧ s'.sys = s.sys ∧
      (∀ q, Part s.sys.heap r q → (s.pix q).SameShape (s'.pix q) ∧ (s'.pix q).origin = a.originMode ∧
        ∀ o, IsOrigin o → ∀ x y z b, (s.pix q).In x y z b → (s'.pix q).view (some o) x y z b = (s.pix q).view (some o) x y z b) ∧
      (∀ q, ¬ Part s.sys.heap r q → s'.pix q = s.pix q) := by
  rw [fixImage_eq hb.name hb.cur hb.ends hb.live]
  have key : ∀ (vs : List Nat) (t : S), (∀ q ∈ vs, Turnable (s.pix q)) → (∀ q, t.pix q = s.pix q ∨ turned a (s.pix q) (t.pix q)) →
      ∃ u, seq a conv vs t = .ok (true, u) ∧ (atImg u r).sys = (atImg t r).sys ∧ (∀ q, t.pix q = u.pix q ∨ turned a (s.pix q) (u.pix q)) ∧ (∀ q ∈ vs, turned a (s.pix q) (u.pix q)) ∧ (∀ q, q ∉ vs → u.pix q = t.pix q) := by
    intro vs
    induction vs with
    | nil => intro t _ _; exact ⟨t, rfl, rfl, fun q => Or.inl rfl, fun q hq => by simp at hq, fun q _ => rfl⟩
    | cons v vs ih =>
      intro t hv ht
      simp only [seq]
      have step : ∃ t1, ilFixCur a conv (atImg t v) = .ok (true, t1) ∧ (atImg t1 r).sys = (atImg t r).sys ∧ turned a (s.pix v) (t1.pix v) ∧ (∀ q, q ≠ v → t1.pix q = t.pix q) := by
        rcases ht v with h | h
        · obtain ⟨m', ⟨e, h2, h3⟩ | ⟨e, h2⟩⟩ := fix_one (conv := conv) ha t v (h ▸ hv v List.mem_cons_self)
          · exact ⟨_, e, rfl, by simpa [h] using h2, fun q hq => by simp [hq]⟩
          · exact ⟨_, e, rfl, by rw [show (atImg t v).pix v = s.pix v from h]; exact turned_self (h ▸ h2), fun q hq => rfl⟩
        · refine ⟨atImg t v, ?_, rfl, h, fun q _ => rfl⟩
          obtain ⟨h1, h0, h2, h3, h4⟩ := ha
          simp [ilFixCur, atImg, fixOrigin, fixType, fixFormat, fixPal, h1, h2, h3, h4, h.2.1]
      obtain ⟨t1, e1, y1, d1, k1⟩ := step
      rw [e1]
      simp only [bind_ok, Bool.not_true, Bool.false_eq_true, if_false]
      obtain ⟨u, e2, y2, w2, d2, k2⟩ := ih t1 (fun q hq => hv q (List.mem_cons_of_mem _ hq)) (fun q => by
        by_cases hq : q = v
        · subst hq; exact Or.inr d1
        · rw [k1 q hq]; exact ht q)
      refine ⟨u, e2, y2.trans y1, fun q => ?_, fun q hq => ?_, fun q hq => ?_⟩
      · by_cases hq : q = v
        · subst hq
          rcases w2 q with h | h
          · right; rw [← h]; exact d1
          · exact Or.inr h
        · rw [← k1 q hq]; exact w2 q
      · by_cases hqv : q ∈ vs
        · exact d2 q hqv
        · rcases List.mem_cons.mp hq with h | h
          · subst h; rw [k2 q hqv]; exact d1
          · exact absurd h hqv
      · have h1 : q ≠ v := fun e => hq (e ▸ List.mem_cons_self)
        rw [k2 q (fun h => hq (List.mem_cons_of_mem _ h)), k1 q h1]
  obtain ⟨u, e, y, -, d, k⟩ := key (visits s.sys.heap r) s (fun q hq => hm q ((mem_visits hb.ends hb.live).mp hq)) (fun q => Or.inl rfl)
  refine ⟨atImg u r, ?_, ?_, fun q hq => d q ((mem_visits hb.ends hb.live).mpr hq), fun q hq => k q (fun h => hq ((mem_visits hb.ends hb.live).mp h))⟩
  · rw [e]; rfl
  · rw [y, atImg_self hb.cur]

theorem chain_head {l : Link} {h : Heap} {fuel p : Nat} {c : List Nat} (e : chain l h fuel p = .ok c) : ∃ t, c = p :: t := by
  cases fuel with
  | zero => cases e
  | succ k =>
    simp only [chain, bind, Except.bind] at e
    split at e
    · cases e
    split at e
    · cases e; exact ⟨_, rfl⟩
    · split at e
      · cases e
      · cases e; exact ⟨_, rfl⟩

theorem convert_spec {conv : Nat → Nat → List Img → C (Bool × List Img)} (hconv : IsConversion conv) {df dt : Nat} {s t : S} {c : Nat} (hc : s.sys.cur = some c) (e : convert conv df dt s = .ok (true, t)) :
    ((t.pix c).format = df ∧ (t.pix c).type = dt) ∧ ∀ p, (t.pix p).origin = (s.pix p).origin ∧ (t.pix p = s.pix p ∨ (t.pix p).format = df ∧ (t.pix p).type = dt) := by
  unfold convert at e
  rw [hc] at e
  simp only [bind, Except.bind] at e
  split at e
  · cases e
  rename_i ps hps
  split at e
  · cases e
  rename_i x hx
  obtain ⟨b, ms⟩ := x
  cases e
  obtain ⟨h1, h2, h3⟩ := hconv _ _ _ _ hx
  have hlen : ms.length = ps.length := by have := congrArg List.length h1; simpa using this
  obtain ⟨rest, rfl⟩ := chain_head hps
  constructor
  · simp only [setAll, List.idxOf_cons_self]
    cases hm : ms[0]? with
    | none =>
      have := List.getElem?_eq_none_iff.mp hm
      simp only [List.length_cons] at hlen
      omega
    | some m => exact h2 m hm
  · intro p
    simp only [setAll]
    cases hm : ms[(c :: rest).idxOf p]? with
    | none => exact ⟨rfl, Or.inl rfl⟩
    | some m =>
      simp only [Option.getD_some]
      have hlt : (c :: rest).idxOf p < (c :: rest).length := by rw [← hlen]; exact (List.getElem?_eq_some_iff.mp hm).1
      have hold : ((c :: rest).map s.pix)[(c :: rest).idxOf p]? = some (s.pix p) := by
        rw [List.getElem?_map, List.getElem?_eq_getElem hlt, List.getElem_idxOf]
        rfl
      constructor
      · have := congrArg (·[(c :: rest).idxOf p]?) h1
        rw [List.getElem?_map, List.getElem?_map, hm, hold] at this
        simpa using this
      · rcases h3 _ m hm with h | h
        · rw [hold] at h
          exact Or.inl (Option.some.inj h).symm
        · exact Or.inr h

theorem flip_asked {a : Settings} {s t : S} {c : Nat} (h0 : a.originSet = true → IsOrigin a.originMode) (hm : IsOrigin (s.pix c).origin) (h : fixOrigin a s c = .ok t) :
    (a.originSet = true → (t.pix c).origin = a.originMode) ∧ (∀ p, (Asked a (s.pix p) → Asked a (t.pix p)) ∧ (IsOrigin (s.pix p).origin → IsOrigin (t.pix p).origin)) := by
  unfold fixOrigin at h
  split at h
  · rename_i hc
    unfold flip at h
    cases e : Manip.ilFlipImage (s.pix c) with
    | error x => rw [e] at h; cases h
    | ok m' =>
      rw [e] at h
      cases h
      have ho : m'.origin = (if (s.pix c).origin = IL_ORIGIN_LOWER_LEFT then IL_ORIGIN_UPPER_LEFT else IL_ORIGIN_LOWER_LEFT) ∧ m'.format = (s.pix c).format ∧ m'.type = (s.pix c).type := by
        unfold Manip.ilFlipImage at e
        simp only [bind, Except.bind] at e
        split at e
        · cases e
        · cases e; exact ⟨rfl, rfl, rfl⟩
      have hoo : m'.origin = a.originMode := by
        rw [ho.1]
        have h1 := h0 hc.1
        have h2 := hc.2
        unfold IsOrigin at h1 hm
        rcases hm with h5 | h5 <;> rcases h1 with h1 | h1 <;> rw [h5] at h2 ⊢ <;> rw [h1] at h2 ⊢ <;> first | rfl | exact absurd rfl h2
      refine ⟨fun _ => by simpa using hoo, fun p => ?_⟩
      by_cases hp : p = c
      · subst hp
        simp only [if_true]
        refine ⟨fun hA => ⟨fun _ => hoo, ?_, ?_, ?_⟩, fun _ => by rw [hoo]; exact h0 hc.1⟩
        · rw [ho.2.2]; exact hA.type
        · rw [ho.2.1]; exact hA.format
        · rw [ho.2.1]; exact hA.palette
      · simp [hp]
  · rename_i hc
    cases h
    exact ⟨fun hs => Decidable.byContradiction fun e => hc ⟨hs, fun e' => e e'.symm⟩, fun p => ⟨id, id⟩⟩

/-- One `ilFixCur` that succeeds. -/
theorem fixCur_asked {a : Settings} {conv : Nat → Nat → List Img → C (Bool × List Img)} (hconv : IsConversion conv) (h0 : a.originSet = true → IsOrigin a.originMode) {s t : S} {c : Nat}
    (hc : s.sys.cur = some c) (hm : ∀ p, IsOrigin (s.pix p).origin) (h : ilFixCur a conv s = .ok (true, t)) :
    Asked a (t.pix c) ∧ (∀ p, Asked a (s.pix p) → Asked a (t.pix p)) ∧ ∀ p, IsOrigin (t.pix p).origin := by
  obtain ⟨c', s1, b2, s2, hc', h1, h2, h3⟩ := fixCur_cases h
  rw [hc] at hc'
  cases hc'
  rcases h3 with ⟨-, h3, -⟩ | ⟨rfl, b3, s3, h3, h4⟩
  · cases h3
  rcases h4 with ⟨-, h4, -⟩ | ⟨rfl, h4⟩
  · cases h4
  obtain ⟨o1, k1⟩ := flip_asked h0 (hm c) h1
  have c1 : s1.sys.cur = some c := by rw [fixOrigin_sys h1, hc]
  have c2 : s2.sys.cur = some c := by rw [fixType_sys h2, c1]
  have c3 : s3.sys.cur = some c := by rw [fixFormat_sys h3, c2]
  have r2 : (a.typeSet = true → (s2.pix c).type = a.typeMode) ∧ ∀ p, (s2.pix p).origin = (s1.pix p).origin ∧ (Asked a (s1.pix p) → Asked a (s2.pix p)) := by
    unfold fixType at h2
    split at h2
    · rename_i hcd
      obtain ⟨q1, q2⟩ := convert_spec hconv c1 h2
      refine ⟨fun _ => q1.2, fun p => ⟨(q2 p).1, fun hA => ?_⟩⟩
      rcases (q2 p).2 with e | e
      · rw [e]; exact hA
      · exact ⟨fun hh => by rw [(q2 p).1]; exact hA.origin hh, fun _ _ => e.2, fun _ hh => by rw [hcd.1] at hh; (cases hh), fun _ _ hh => by rw [hcd.1] at hh; (cases hh)⟩
    · rename_i hcd
      cases h2
      exact ⟨fun hh => Decidable.byContradiction fun e => hcd ⟨hh, fun e' => e e'.symm⟩, fun p => ⟨rfl, id⟩⟩
  have r3 : (a.typeSet = true → (s3.pix c).type = a.typeMode) ∧ (a.formatSet = true → (s3.pix c).format = a.formatMode) ∧ ∀ p, (s3.pix p).origin = (s2.pix p).origin ∧ (Asked a (s2.pix p) → Asked a (s3.pix p)) := by
    unfold fixFormat at h3
    split at h3
    · rename_i hcd
      obtain ⟨q1, q2⟩ := convert_spec hconv c2 h3
      refine ⟨fun hh => by rw [q1.2]; exact r2.1 hh, fun _ => q1.1, fun p => ⟨(q2 p).1, fun hA => ?_⟩⟩
      rcases (q2 p).2 with e | e
      · rw [e]; exact hA
      · exact ⟨fun hh => by rw [(q2 p).1]; exact hA.origin hh, fun hh _ => by rw [e.2]; exact r2.1 hh, fun _ _ _ => e.1, fun _ hh => by rw [hcd.1] at hh; (cases hh)⟩
    · rename_i hcd
      cases h3
      exact ⟨r2.1, fun hh => Decidable.byContradiction fun e => hcd ⟨hh, fun e' => e e'.symm⟩, fun p => ⟨rfl, id⟩⟩
  have r4 : (a.originSet = true → (s3.pix c).origin = a.originMode) := fun hh => by rw [(r3.2.2 c).1, (r2.2 c).1]; exact o1 hh
  have hor : ∀ p, IsOrigin (s3.pix p).origin := fun p => by rw [(r3.2.2 p).1, (r2.2 p).1]; exact (k1 p).2 (hm p)
  have hch : ∀ p, Asked a (s.pix p) → Asked a (s3.pix p) := fun p hA => (r3.2.2 p).2 ((r2.2 p).2 ((k1 p).1 hA))
  unfold fixPal at h4
  split at h4
  · rename_i hcd
    obtain ⟨q1, q2⟩ := convert_spec hconv c3 h4
    have hno : a.formatSet = true → a.formatMode ≠ IL_COLOUR_INDEX → False := fun hh hn => hn ((r3.2.1 hh).symm.trans hcd.1)
    have done : ∀ p, (t.pix p).format = IL_BGR → (a.originSet = true → (t.pix p).origin = a.originMode) → Asked a (t.pix p) := fun p e ho =>
      ⟨ho, fun _ hh => absurd (hh hcd.2) (fun hx => hno hx.1 hx.2), fun hf _ hh => absurd (hh hcd.2) (fun hx => hno hf hx), fun _ _ _ => by rw [e]; decide⟩
    refine ⟨done c q1.1 (fun hh => by rw [(q2 c).1]; exact r4 hh), fun p hA => ?_, fun p => by rw [(q2 p).1]; exact hor p⟩
    rcases (q2 p).2 with e | e
    · rw [e]; exact hch p hA
    · exact done p e.1 (fun hh => by rw [(q2 p).1]; exact (hch p hA).origin hh)
  · rename_i hcd
    cases h4
    exact ⟨⟨r4, fun hh _ => r3.1 hh, fun hh _ _ => r3.2.1 hh, fun hh _ _ e => hcd ⟨e, hh⟩⟩, hch, hor⟩

/-- **C111 (all settings).**  When the fix returns true, every image, face, layer and mipmap of the loaded image has the origin, the component type and the format that are asked for, and, with `IL_CONV_PAL`, no palette. -/
theorem C111_asked_partial {a : Settings} {conv : Nat → Nat → List Img → C (Bool × List Img)} (hconv : IsConversion conv) (h0 : a.originSet = true → IsOrigin a.originMode) {s t : S} {r : Nat} (hb : Bound s r)
    (hm : ∀ p, IsOrigin (s.pix p).origin) (h : ilFixImage a conv s = .ok (true, t)) : ∀ q, Part s.sys.heap r q → Asked a (t.pix q) := by
  rw [fixImage_eq hb.name hb.cur hb.ends hb.live] at h
  have key : ∀ (vs : List Nat) (s t : S), (∀ p, IsOrigin (s.pix p).origin) → seq a conv vs s = .ok (true, t) → (∀ q ∈ vs, Asked a (t.pix q)) ∧ (∀ p, Asked a (s.pix p) → Asked a (t.pix p)) := by
    intro vs
    induction vs with
    | nil => intro s t _ h; cases h; exact ⟨fun q hq => by simp at hq, fun _ => id⟩
    | cons v vs ih =>
      intro s t hm h
      simp only [seq] at h
      cases h1 : ilFixCur a conv (atImg s v) with
      | error e => rw [h1] at h; cases h
      | ok x =>
        obtain ⟨b, s1⟩ := x
        rw [h1] at h
        simp only [bind_ok] at h
        cases b with
        | false => simp only [Bool.not_false, if_true] at h; cases h
        | true =>
          simp only [Bool.not_true, Bool.false_eq_true, if_false] at h
          obtain ⟨a1, a2, a3⟩ := fixCur_asked hconv h0 (s := atImg s v) rfl hm h1
          obtain ⟨b1, b2⟩ := ih s1 t a3 h
          refine ⟨fun q hq => ?_, fun p hp => b2 p (a2 p hp)⟩
          rcases List.mem_cons.mp hq with e | e
          · subst e; exact b2 q a1
          · exact b1 q e
  cases h1 : seq a conv (visits s.sys.heap r) s with
  | error e => rw [h1] at h; cases h
  | ok x =>
    obtain ⟨b, u⟩ := x
    rw [h1] at h
    simp only [bind_ok] at h
    cases b with
    | false => simp only [Bool.not_false, if_true] at h; cases h
    | true =>
      simp only [Bool.not_true, Bool.false_eq_true, if_false] at h
      cases h
      exact fun q hq => (key _ _ _ hm h1).1 q ((mem_visits hb.ends hb.live).mpr hq)

/-- After any history of calls, `ilBindImage` leaves an image bound in the sense of these theorems. -/
theorem bound_reachable (ops : List Stack.Op) (tr : List (Stack.Op × List Nat)) (sys : Stack.Sys) (h : Stack.run Stack.initial ops = .ok (tr, sys)) (n : Nat) (pix : Nat → Img) :
    ∃ sys' r, Stack.ilBindImage sys n = .ok sys' ∧ Bound ⟨sys', pix⟩ r := by
  obtain ⟨⟨L, I⟩, _⟩ := Stack.inv_of_run h
  obtain ⟨s', e, I', _, _, _, _, h1, h2⟩ := Stack.bind_spec I n
  obtain ⟨c, _, h3, _⟩ := I'.cur
  rw [h3] at h2
  refine ⟨s', c, e, by rw [h1]; exact h2, h3, ?_, ?_⟩
  · refine I'.wf.live c ?_
    have := Stack.root_pos (L := L) h2
    unfold Stack.cnt
    omega
  · intro p m hp l
    exact Chain.exists (l := l) I'.wf (s'.heap.length + 1) p (by omega) ⟨m, hp⟩

theorem fast_keeps {m m' : Img} {k : Nat} (h : Channels.fastSwap m k = .ok (some m')) : m'.origin = m.origin ∧ m'.type = m.type := by
  unfold Channels.fastSwap at h
  split at h
  · cases h
  · simp only [bind, Except.bind] at h
    split at h
    · cases h
    · cases h; exact ⟨rfl, rfl⟩

theorem convertChain_spec {fl : Conv.FloatOps} {j : ConvImage.Junk} {df dt : Nat} (ms : List Img) : ∀ ms', ConvImage.convertChain fl j df dt ms = .ok (true, ms') →
    ms'.map (·.origin) = ms.map (·.origin) ∧ ∀ m ∈ ms', m.format = df ∧ m.type = dt := by
  induction ms with
  | nil => intro ms' h; cases h; exact ⟨rfl, by simp⟩
  | cons m rest ih =>
    intro ms' h
    simp only [ConvImage.convertChain, bind, Except.bind] at h
    split at h
    · cases h
    rename_i r hr
    split at h
    · cases h
    rename_i m1
    split at h
    · cases h
    rename_i q hq
    obtain ⟨b, q⟩ := q
    cases h
    obtain ⟨h1, h2⟩ := ih q hq
    have h3 : m1.origin = m.origin ∧ m1.format = df ∧ m1.type = dt := by
      unfold ConvImage.iConvertImage at hr
      split at hr
      · cases hr
      split at hr
      · cases hr
      simp only [bind, Except.bind] at hr
      split at hr
      · cases hr
      split at hr
      · cases hr
      · cases hr; exact ⟨rfl, rfl, rfl⟩
    refine ⟨by simp [h1, h3.1], fun x hx => ?_⟩
    rcases List.mem_cons.mp hx with e | e
    · subst e; exact h3.2
    · exact h2 x e

/-- `ilConvertImage` is such a conversion, for images without palettes. -/
theorem convert_isConversion (fl : Conv.FloatOps) (j : ConvImage.Junk) : IsConversion (ConvImage.ilConvertImage fl j) := by
  intro df dt ms ms' h
  cases ms with
  | nil => cases h
  | cons m rest =>
    simp only [ConvImage.ilConvertImage] at h
    split at h
    · rename_i hc
      cases h
      refine ⟨rfl, fun x hx => ?_, fun i x hx => Or.inl hx⟩
      cases hx
      exact ⟨hc.1.symm, hc.2.symm⟩
    · simp only [bind, Except.bind] at h
      split at h
      · cases h
      rename_i r hr
      split at h
      · rename_i m1
        cases h
        have h3 : m1.origin = m.origin ∧ m1.type = dt := by
          unfold ConvImage.tryFast at hr
          split at hr
          · rename_i hd
            unfold Channels.iFastConvert at hr
            rw [hd]
            split at hr
            · split at hr
              · exact fast_keeps hr
              · cases hr
            · split at hr
              · split at hr
                · exact fast_keeps hr
                · cases hr
              · cases hr
          · cases hr
        refine ⟨by simp [h3.1], fun x hx => ?_, fun i x hx => ?_⟩
        · cases hx; exact ⟨rfl, h3.2⟩
        · cases i with
          | zero => cases hx; exact Or.inr ⟨rfl, h3.2⟩
          | succ i => exact Or.inl (by simpa using hx)
      · obtain ⟨h1, h2⟩ := convertChain_spec _ _ h
        exact ⟨h1, fun x hx => h2 x (List.mem_of_getElem? hx), fun i x hx => Or.inr (h2 x (List.mem_of_getElem? hx))⟩

theorem chain_sound {l : Link} {h : Heap} (fuel : Nat) : ∀ {p : Nat} {c : List Nat}, chain l h fuel p = .ok c → Chain l h p c := by
  induction fuel with
  | zero => intro p c e; cases e
  | succ k ih =>
    intro p c e
    simp only [chain, Stack.load, bind, Except.bind] at e
    split at e
    · cases e
    rename_i n hn
    have hn' : h[p]? = some (Cell.live n) := by
      split at hn
      · rename_i h1; cases hn; exact h1
      · cases hn
      · cases hn
    split at e
    · rename_i hg; cases e; exact .last hn' hg
    · rename_i q hg
      split at e
      · cases e
      · rename_i r hr; cases e; exact .cons hn' hg (ih hr)

/-- Two pages, at the addresses 0 and 1, and a mipmap of the second, at 2; image 0 is bound, and the current image is at `cur`. -/
def pages (cur : Nat) : Stack.Sys := ⟨[.live ⟨0, some 1, none, none, none⟩, .live ⟨0, none, none, some 2, none⟩, .live ⟨0, none, none, none, none⟩, .live ⟨0, none, none, none, none⟩], [some 0], 1, [], some cur, 0, []⟩

/-- A picture of two rows. -/
def twoRows : Img := { width := 1, height := 2, depth := 1, bpp := 1, bpc := 1, bps := 1, plane := 2, size := 2, format := IL_LUMINANCE, type := IL_UNSIGNED_BYTE, origin := IL_ORIGIN_LOWER_LEFT, data := [7, 8] }

theorem pages_bound (pix : Nat → Img) : Bound ⟨pages 0, pix⟩ 0 := by
  refine ⟨rfl, rfl, ⟨_, rfl⟩, fun p n hp l => ?_⟩
  have : p < 4 := (List.getElem?_eq_some_iff.mp hp).1
  have h4 : p = 0 ∨ p = 1 ∨ p = 2 ∨ p = 3 := by omega
  rcases h4 with rfl | rfl | rfl | rfl <;> cases l <;> exact ⟨_, chain_sound 5 rfl⟩

-- the hypotheses are met: the pages and the mipmap are turned over, another image is not
example : Bound ⟨pages 0, fun _ => twoRows⟩ 0 ∧ Turnable twoRows ∧ ∃ s', ilFixImage ⟨true, IL_ORIGIN_UPPER_LEFT, false, 0, false, 0, false⟩ (fun _ _ ms => .ok (true, ms)) ⟨pages 0, fun _ => twoRows⟩ = .ok (true, s') ∧
    (s'.pix 0).data = [8, 7] ∧ (s'.pix 1).data = [8, 7] ∧ (s'.pix 2).data = [8, 7] ∧ (s'.pix 3).data = [7, 8] :=
  ⟨pages_bound _, ⟨⟨by decide, by decide, by decide, by decide⟩, by decide, Or.inl rfl⟩, _, rfl, by decide +kernel, by decide +kernel, by decide +kernel, by decide +kernel⟩

/-- **C111 is false when a sub-image is selected**: a load into the second page leaves that page as the loader made it, turns over the first page instead, and selects it. -/
theorem C111_violated_sub : ∃ s', ilFixImage ⟨true, IL_ORIGIN_UPPER_LEFT, false, 0, false, 0, false⟩ (fun _ _ ms => .ok (true, ms)) ⟨pages 1, fun _ => twoRows⟩ = .ok (true, s') ∧
    s'.pix 1 = twoRows ∧ (s'.pix 0).data = [8, 7] ∧ s'.sys.cur = some 0 :=
  ⟨_, rfl, by decide +kernel, by decide +kernel, by decide +kernel⟩

/-- An opaque page and one with alpha. -/
def mixed (p : Nat) : Img :=
  if p = 0 then { width := 1, height := 1, depth := 1, bpp := 3, bpc := 1, bps := 3, plane := 3, size := 3, format := IL_RGB, type := IL_UNSIGNED_BYTE, origin := IL_ORIGIN_LOWER_LEFT, data := [1, 2, 3] }
  else { width := 1, height := 1, depth := 1, bpp := 4, bpc := 1, bps := 4, plane := 4, size := 4, format := IL_RGBA, type := IL_UNSIGNED_BYTE, origin := IL_ORIGIN_LOWER_LEFT, data := [4, 5, 6, 7] }

/-- **Asking for a component type changes the format of other pages**: with `IL_TYPE_SET` the second page loses its alpha, because the first has none. -/
theorem C111_violated_type : ∃ s', ilFixImage ⟨false, 0, true, IL_UNSIGNED_SHORT, false, 0, false⟩ (ConvImage.ilConvertImage ConvImage.zeroFloats ⟨fun _ => 0, fun _ => 0⟩) ⟨pages 0, mixed⟩ = .ok (true, s') ∧
    (s'.pix 1).format = IL_RGB ∧ (s'.pix 1).type = IL_UNSIGNED_SHORT ∧ (s'.pix 1).data.length = 6 ∧ (s'.pix 2).format = IL_RGBA :=
  ⟨_, rfl, by decide +kernel, by decide +kernel, by decide +kernel, by decide +kernel⟩

end DevIL.Fix
