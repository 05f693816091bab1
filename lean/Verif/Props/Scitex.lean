import Verif.Lemmas.Scitex
import Verif.Lemmas.Fits
import Verif.Props.Iwi
/-! Scitex files: C210 (complete files are decoded), C211 (files that are cut off), C212 (safety). -/
set_option autoImplicit false
namespace DevIL.Scitex
open DevIL.Games DevIL.Detect DevIL.Image DevIL.DetectSpec DevIL.ScitexSpec DevIL.GamesSpec
open DevIL.PnmSpec (IsNumber number)
open DevIL.Sun (Laws3 lumpLaws3)
open DevIL.Iwi (Both.mono)
open DevIL.Pic (bind_err loop_first)

/-- Loading from an open file and from memory. -/
def Loads (junk : Nat → UInt8) (num : Num) (cur : Img) (bs : List UInt8) (P : Bool → Img → Prop) : Prop :=
  Both (iLoadScitexInternal fileOps junk num cur) (iLoadScitexInternal lumpOps junk num cur) bs P

/-- Loading from an open file and from memory runs into this fault. -/
def Fails (junk : Nat → UInt8) (num : Num) (cur : Img) (bs : List UInt8) (e : Fault) : Prop :=
  ilLoadF (iLoadScitexInternal fileOps junk num cur) (opened bs 0) = .error e ∧ ilLoadL (iLoadScitexInternal lumpOps junk num cur) bs bs.length = .error e

section
variable {σ : Type} {o : Ops σ} {At : σ → List UInt8 → Nat → Prop}

/-- Behind the header. -/
def body (o : Ops σ) (junk : Nat → UInt8) (n w h : Nat) (s : σ) : C (Bool × Img × σ) :=
  if n = 3 then do
    let m := tex junk w h 3 IL_RGB
    let (ok, d, s) ← lines o junk w (h * 3) 0 m.data s
    if ok then pure (true, { m with data := d, origin := IL_ORIGIN_UPPER_LEFT }, s) else pure (false, { m with data := d }, s)
  else do
    let m := tex junk w h 1 IL_LUMINANCE
    let (d, s) ← grey o w h m.data s
    pure (true, { m with data := d, origin := IL_ORIGIN_UPPER_LEFT }, s)

theorem to_body (L : Laws2 o At) (junk : Nat → UInt8) (num : Num) (cur : Img) {s : σ} {bs : List UInt8} {n w h : Nat} (hA : At s bs 0) (hl : 2048 ≤ bs.length)
    (e : parsed num bs = some (n, w, h)) : ∃ s', At s' bs 2048 ∧ iLoadScitexInternal o junk num cur s = body o junk n w h s' := by
  obtain ⟨⟨hd, s1⟩, e1, h1, q, hq⟩ := head_parsed L.toLaws junk num hA (by omega)
  simp only [] at h1 hq
  obtain ⟨⟨b, s2⟩, e2, h2⟩ := L.seekAbs 2048 hq hl
  refine ⟨s2, h2, ?_⟩
  unfold iLoadScitexInternal
  rw [e1, bind_ok]
  simp only [h1, e]
  have e2 : o.seek s1 2048 Lump.SEEK_SET = .ok (b, s2) := e2
  rw [e2, bind_ok]
  rfl

theorem tex_length (junk : Nat → UInt8) {w h k f : Nat} (hw : 0 < w) (hh : 0 < h) (hk : 0 < k) (hfit : w * h * k < 4294967296) : (tex junk w h k f).data.length = w * h * k := by
  obtain ⟨-, -, -, -, -, -, -, h8, h9⟩ := tex_fields junk w h k f hw hh hk hfit
  rw [h8.2.2.2, h9]

theorem fits {n w h : Nat} {bs : List UInt8} (hn : n = 3 ∨ n = 1) (hw : 0 < w) (hh : 0 < h) (hf : fileBytes n w h ≤ bs.length) (hl : bs.length < 2147483648) :
    w * h * n < 4294967296 ∧ w < 2147483648 ∧ h < 2147483648 := by
  have hst := stride_le w
  have hf : 2048 + (h * n - 1) * stride w + w ≤ bs.length := hf
  have h1 : 1 ≤ h * n := Nat.mul_pos hh (by omega)
  have h2 : (h * n - 1) * w ≤ (h * n - 1) * stride w := Nat.mul_le_mul_left _ hst.1
  rw [Nat.sub_mul, Nat.one_mul] at h2
  have h3 : h * n * w = w * h * n := by rw [Nat.mul_comm, Nat.mul_assoc]
  have h4 : h * 1 * 1 ≤ h * n * w := Nat.mul_le_mul (Nat.mul_le_mul_left h (by omega)) hw
  omega

theorem load_ok (L : Laws2 o At) (junk : Nat → UInt8) (num : Num) (cur : Img) {s : σ} {bs : List UInt8} {n w h : Nat} (hA : At s bs 0) (S : num.Sound)
    (H : Header num bs n w h) (hf : fileBytes n w h ≤ bs.length) :
    Holds (iLoadScitexInternal o junk num cur s) (fun r => (r.1 = true ∧ Shows r.2.1 w h n (format n) (fun x y c => bs[lineAt n w y c + x]?)) ∧ ∃ q, At r.2.2 bs q) := by
  have hn : n = 3 ∨ n = 1 := by rcases H.model with h | h <;> omega
  obtain ⟨hfit, hw, hh⟩ := fits hn H.w0 H.h0 hf (L.len hA)
  obtain ⟨s', hA', e⟩ := to_body L junk num cur hA H.len (header_parsed S H hw hh)
  rw [e]
  unfold body
  rcases hn with rfl | rfl
  · rw [if_pos rfl]
    refine (lines_ok L junk hfit (h * 3) 0 _ s' (by omega) ⟨tex_length junk H.w0 H.h0 (by decide) hfit, fun y c x _ hy => by omega⟩
      (fun _ => by rw [Nat.zero_mul]; exact hA') ⟨_, hA'⟩ hf).bind (fun r hr => ?_)
    obtain ⟨ok, d, s2⟩ := r
    obtain ⟨h1, h2, h3⟩ := hr
    simp only [] at h1 h2 h3
    subst h1
    refine Holds.pure ⟨⟨rfl, ?_⟩, h3⟩
    exact shows_tex junk w h 3 IL_RGB H.w0 H.h0 (by decide) hfit d h2.1 _ (fun x y c hx hy hc => h2.2 y c x hc (by omega) hx)
  · rw [if_neg (by decide)]
    rw [Nat.mul_one] at hfit
    refine (grey_ok L (by have := tex_length (f := IL_LUMINANCE) junk H.w0 H.h0 (k := 1) (by decide) (by omega); rwa [Nat.mul_one] at this) hfit H.h0 hA' hf).bind (fun r hr => ?_)
    obtain ⟨d, s2⟩ := r
    obtain ⟨⟨h1, h2⟩, h3⟩ := hr
    refine Holds.pure ⟨⟨rfl, ?_⟩, h3⟩
    refine shows_tex junk w h 1 IL_LUMINANCE H.w0 H.h0 (by decide) (by omega) d (by simpa using h1) _ (fun x y c hx hy hc => ?_)
    obtain rfl : c = 0 := by omega
    rw [Nat.mul_one, Nat.add_zero]
    exact h2 y x hy hx

end

/-! ### C210 -/

/-- **C210.** Every complete Scitex CT file in grey or in red, green and blue is loaded: the image has the sides of the header, and component `c` of the pixel in column `x` and row `y`, from
the top left, is byte `x` of line `c` of row `y`.  The padding of lines with an odd number of pixels is left out. -/
theorem C210_complete (junk : Nat → UInt8) (num : Num) (S : num.Sound) (cur : Img) (bs : List UInt8) (hl : bs.length < 2147483648) {n w h : Nat} (H : Header num bs n w h)
    (hf : fileBytes n w h ≤ bs.length) : Loads junk num cur bs (fun ok m => ok = true ∧ Shows m w h n (format n) (fun x y c => bs[lineAt n w y c + x]?)) :=
  both (by have := H.len; omega) hl (fun _ h => load_ok fileLaws2 junk num cur h S H hf) (fun _ h => load_ok lumpLaws2 junk num cur h S H hf)

/-- A C library that reads numerals. -/
def libc : Num :=
  let f := fun (t : List UInt8) => number ((t.dropWhile (fun c => c == 32)).takeWhile Pnm.isdigit)
  ⟨fun _ => true, f, f⟩

theorem libc_sound : libc.Sound := by
  intro t v ht _
  obtain ⟨a, b, ds, rfl, hd, rfl⟩ := ht
  have h1 : ∀ n, ((List.replicate n (32 : UInt8) ++ ds ++ List.replicate b 32).dropWhile (fun c : UInt8 => c == 32)) = ds ++ List.replicate b 32 := by
    intro n
    induction n with
    | zero =>
      refine Fits.dropWhile_none (fun c t e => ?_)
      match ds, hd.1, e with
      | d :: ds', _, e =>
        obtain ⟨rfl, -⟩ := List.cons.inj e
        simpa using Fits.digit_ne (Fits.digit_first hd rfl) (by decide)
    | succ n ih => rw [List.replicate_succ, List.cons_append, List.cons_append, List.dropWhile_cons_of_pos (by decide), ih]
  have h2 : (ds ++ List.replicate b (32 : UInt8)).takeWhile Pnm.isdigit = ds := by
    rw [List.takeWhile_append_of_pos (fun d hd' => by have := hd.2 d hd'; simp [Pnm.isdigit, this])]
    cases b with
    | zero => exact List.append_nil _
    | succ b => rw [List.replicate_succ, List.takeWhile_cons_of_neg (by decide), List.append_nil]
  have e : number (((List.replicate a (32 : UInt8) ++ ds ++ List.replicate b 32).dropWhile (fun c : UInt8 => c == 32)).takeWhile Pnm.isdigit) = number ds := by rw [h1, h2]
  exact ⟨e, e⟩

/-- A header. -/
def headOf (n model : UInt8) (hgt wid : List UInt8) : List UInt8 :=
  List.replicate 80 32 ++ [67, 84] ++ List.replicate 942 0 ++ [0, n, 0, model] ++ List.replicate 28 49 ++ hgt ++ wid ++ List.replicate 968 0

/-- Twelve bytes with a number at the end. -/
def wide (ds : List UInt8) : List UInt8 := List.replicate (12 - ds.length) 32 ++ ds

theorem wide_numeral {ds : List UInt8} (h : IsNumber ds) : Numeral (wide ds) (number ds) := ⟨12 - ds.length, 0, ds, by simp [wide], h, rfl⟩

theorem take_drop {l a b c : List UInt8} {p n : Nat} (e : l = a ++ (b ++ c)) (ha : a.length = p) (hb : b.length = n) : at_ l p n = b := by
  unfold at_
  rw [e, List.drop_left' ha, List.take_left' hb]

theorem head_header {n : Nat} {model : UInt8} {dh dw p : List UInt8} (hm : (n = 3 ∧ model = 7) ∨ (n = 1 ∧ model = 8)) (hh : IsNumber dh) (hw : IsNumber dw) (lh : dh.length ≤ 12) (lw : dw.length ≤ 12)
    (h0 : 0 < number dh) (w0 : 0 < number dw) : Header libc (headOf (UInt8.ofNat n) model (wide dh) (wide dw) ++ p) n (number dw) (number dh) := by
  have wl : ∀ d : List UInt8, d.length ≤ 12 → (wide d).length = 12 := fun d h => by unfold wide; rw [List.length_append, List.length_replicate]; omega
  have l1 := wl dh lh
  have l2 := wl dw lw
  have key : ∀ {a b c : List UInt8} {p' k : Nat}, headOf (UInt8.ofNat n) model (wide dh) (wide dw) ++ p = a ++ (b ++ c) → a.length = p' → b.length = k →
      at_ (headOf (UInt8.ofNat n) model (wide dh) (wide dw) ++ p) p' k = b := fun e h1 h2 => take_drop e h1 h2
  have a80 : at_ (headOf (UInt8.ofNat n) model (wide dh) (wide dw) ++ p) 80 2 = [67, 84] :=
    key (a := List.replicate 80 32) (b := [67, 84]) (c := List.replicate 942 0 ++ [0, UInt8.ofNat n, 0, model] ++ List.replicate 28 49 ++ wide dh ++ wide dw ++ List.replicate 968 0 ++ p)
      (by simp only [headOf, List.append_assoc]) (List.length_replicate ..) rfl
  have a1024 : at_ (headOf (UInt8.ofNat n) model (wide dh) (wide dw) ++ p) 1024 1 = [0] :=
    key (a := List.replicate 80 32 ++ [67, 84] ++ List.replicate 942 0) (b := [0]) (c := [UInt8.ofNat n, 0, model] ++ List.replicate 28 49 ++ wide dh ++ wide dw ++ List.replicate 968 0 ++ p)
      (by simp only [headOf, List.append_assoc, List.cons_append, List.nil_append]) (by simp only [List.length_append, List.length_replicate, List.length_cons, List.length_nil]) rfl
  have a1025 : at_ (headOf (UInt8.ofNat n) model (wide dh) (wide dw) ++ p) 1025 1 = [UInt8.ofNat n] :=
    key (a := List.replicate 80 32 ++ [67, 84] ++ List.replicate 942 0 ++ [0]) (b := [UInt8.ofNat n]) (c := [0, model] ++ List.replicate 28 49 ++ wide dh ++ wide dw ++ List.replicate 968 0 ++ p)
      (by simp only [headOf, List.append_assoc, List.cons_append, List.nil_append]) (by simp only [List.length_append, List.length_replicate, List.length_cons, List.length_nil]) rfl
  have a1026 : at_ (headOf (UInt8.ofNat n) model (wide dh) (wide dw) ++ p) 1026 2 = [0, model] :=
    key (a := List.replicate 80 32 ++ [67, 84] ++ List.replicate 942 0 ++ [0, UInt8.ofNat n]) (b := [0, model]) (c := List.replicate 28 49 ++ wide dh ++ wide dw ++ List.replicate 968 0 ++ p)
      (by simp only [headOf, List.append_assoc, List.cons_append, List.nil_append]) (by simp only [List.length_append, List.length_replicate, List.length_cons, List.length_nil]) rfl
  have a1056 : at_ (headOf (UInt8.ofNat n) model (wide dh) (wide dw) ++ p) 1056 12 = wide dh :=
    key (a := List.replicate 80 32 ++ [67, 84] ++ List.replicate 942 0 ++ [0, UInt8.ofNat n, 0, model] ++ List.replicate 28 49) (b := wide dh) (c := wide dw ++ List.replicate 968 0 ++ p)
      (by simp only [headOf, List.append_assoc, List.cons_append, List.nil_append]) (by simp only [List.length_append, List.length_replicate, List.length_cons, List.length_nil]) l1
  have a1068 : at_ (headOf (UInt8.ofNat n) model (wide dh) (wide dw) ++ p) 1068 12 = wide dw :=
    key (a := List.replicate 80 32 ++ [67, 84] ++ List.replicate 942 0 ++ [0, UInt8.ofNat n, 0, model] ++ List.replicate 28 49 ++ wide dh) (b := wide dw) (c := List.replicate 968 0 ++ p)
      (by simp only [headOf, List.append_assoc, List.cons_append, List.nil_append]) (by simp only [List.length_append, List.length_replicate, List.length_cons, List.length_nil, l1]) l2
  refine ⟨?_, a80, ?_, ?_, ?_, rfl, rfl, by rw [a1056]; exact wide_numeral hh, by rw [a1068]; exact wide_numeral hw, w0, h0⟩
  · simp only [headOf, List.length_append, List.length_replicate, List.length_cons, List.length_nil, l1, l2]
    omega
  · unfold leAt; rw [a1024]; decide
  · unfold leAt; rw [a1025]
    rcases hm with ⟨rfl, -⟩ | ⟨rfl, -⟩ <;> decide
  · rw [a1026]
    rcases hm with ⟨rfl, rfl⟩ | ⟨rfl, rfl⟩
    · exact .inl ⟨rfl, rfl⟩
    · exact .inr ⟨rfl, rfl⟩

theorem head_length {n model : UInt8} {dh dw : List UInt8} (lh : dh.length ≤ 12) (lw : dw.length ≤ 12) : (headOf n model (wide dh) (wide dw)).length = 2048 := by
  have wl : ∀ d : List UInt8, d.length ≤ 12 → (wide d).length = 12 := fun d h => by unfold wide; rw [List.length_append, List.length_replicate]; omega
  simp only [headOf, List.length_append, List.length_replicate, List.length_cons, List.length_nil, wl _ lh, wl _ lw]

/-- The hypotheses are met: a picture of 3 by 2 pixels in red, green and blue; each line has a byte of padding but the last. -/
example (junk : Nat → UInt8) (cur : Img) (p : List UInt8) (hp : p.length = 23) : Loads junk libc cur (headOf 3 7 (wide [50]) (wide [51]) ++ p) (fun ok m =>
    ok = true ∧ m.width = 3 ∧ m.height = 2 ∧ m.px 1 1 0 2 = p[21]?) := by
  have hlen : (headOf 3 7 (wide [50]) (wide [51]) ++ p).length = 2071 := by rw [List.length_append, hp, head_length (by decide) (by decide)]
  have H : Header libc (headOf 3 7 (wide [50]) (wide [51]) ++ p) 3 3 2 :=
    head_header (n := 3) (dh := [50]) (dw := [51]) (.inl ⟨rfl, rfl⟩) (by unfold IsNumber; decide) (by unfold IsNumber; decide) (by decide) (by decide) (by decide) (by decide)
  refine Both.mono (C210_complete junk libc libc_sound cur _ (by omega) H (by rw [hlen]; decide)) (fun ok m hr => ⟨hr.1, hr.2.width, hr.2.height, ?_⟩)
  rw [(hr.2.px 1 1 2 (by decide) (by decide) (by decide)).1, List.getElem?_append_right (by rw [head_length (by decide) (by decide)]; decide), head_length (by decide) (by decide)]
  rfl

/-! ### C211 -/

/-- **C211 (part): red, green and blue.** If pixels are missing in a file of a picture at least two pixels wide, loading fails.  Missing: grey pictures and those one pixel wide from memory,
see the violations, and files that end within the header's 2048 bytes. -/
theorem C211_colour_partial (junk : Nat → UInt8) (num : Num) (S : num.Sound) (cur : Img) (bs : List UInt8) (hl : bs.length < 2147483648) {w h : Nat} (H : Header num bs 3 w h) (hw : 2 ≤ w)
    (hfit : w * h * 3 < 4294967296) (hcut : bs.length < fileBytes 3 w h) : Loads junk num cur bs (fun ok _ => ok = false) := by
  have hh0 := H.h0
  have hb : w < 2147483648 ∧ h < 2147483648 := by
    have h1 : w * 1 ≤ w * h := Nat.mul_le_mul_left w hh0
    have h2 : 2 * h ≤ w * h := Nat.mul_le_mul_right h hw
    omega
  have main : ∀ {σ : Type} {o : Ops σ} {At : σ → List UInt8 → Nat → Prop}, Laws2 o At → ∀ s, At s bs 0 →
      Holds (iLoadScitexInternal o junk num cur s) (fun r => r.1 = false ∧ ∃ q, At r.2.2 bs q) := by
    intro σ o At L s hA
    obtain ⟨s', hA', e⟩ := to_body L junk num cur hA H.len (header_parsed S H hb.1 hb.2)
    rw [e]
    unfold body
    rw [if_pos rfl]
    have := lines_cut L junk hw hfit (h * 3 - 1) 0 (tex junk w h 3 IL_RGB).data s' (by omega) (tex_length junk H.w0 H.h0 (by decide) hfit)
      (by rw [Nat.zero_mul]; exact ⟨fun _ => hA', _, hA', fun h => by have := H.len; omega⟩) hcut
    rw [show h * 3 - 1 + 1 = h * 3 by omega] at this
    refine this.bind (fun r hr => ?_)
    obtain ⟨ok, d, s2⟩ := r
    obtain ⟨h1, h2, h3⟩ := hr
    simp only [] at h1 h3
    subst h1
    exact Holds.pure ⟨rfl, h3⟩
  exact both (by have := H.len; omega) hl (fun s h => main fileLaws2 s h) (fun s h => main lumpLaws2 s h)

/-- The hypotheses are met: the last byte of the picture above is missing. -/
example (junk : Nat → UInt8) (cur : Img) (p : List UInt8) (hp : p.length = 22) : Loads junk libc cur (headOf 3 7 (wide [50]) (wide [51]) ++ p) (fun ok _ => ok = false) := by
  have hlen : (headOf 3 7 (wide [50]) (wide [51]) ++ p).length = 2070 := by rw [List.length_append, hp, head_length (by decide) (by decide)]
  have H : Header libc (headOf 3 7 (wide [50]) (wide [51]) ++ p) 3 3 2 :=
    head_header (n := 3) (dh := [50]) (dw := [51]) (.inl ⟨rfl, rfl⟩) (by unfold IsNumber; decide) (by unfold IsNumber; decide) (by decide) (by decide) (by decide) (by decide)
  exact C211_colour_partial junk libc libc_sound cur _ (by omega) H (by decide) (by decide) (by rw [hlen]; decide)

/-- **C211 is violated: grey pictures.** However many pixels of a grey picture are missing, loading reports success. -/
theorem C211_violated_grey (junk : Nat → UInt8) (num : Num) (S : num.Sound) (cur : Img) (bs : List UInt8) (hl : bs.length < 2147483648) {w h : Nat} (H : Header num bs 1 w h)
    (hw : w < 2147483648) (hh : h < 2147483648) (hfit : w * h < 4294967296) : Loads junk num cur bs (fun ok m => ok = true ∧ m.width = w ∧ m.height = h) := by
  have main : ∀ {σ : Type} {o : Ops σ} {At : σ → List UInt8 → Nat → Prop}, Laws2 o At → ∀ s, At s bs 0 →
      Holds (iLoadScitexInternal o junk num cur s) (fun r => (r.1 = true ∧ r.2.1.width = w ∧ r.2.1.height = h) ∧ ∃ q, At r.2.2 bs q) := by
    intro σ o At L s hA
    obtain ⟨s', hA', e⟩ := to_body L junk num cur hA H.len (header_parsed S H hw hh)
    rw [e]
    unfold body
    rw [if_neg (by decide)]
    obtain ⟨t1, t2, -⟩ := tex_fields junk w h 1 IL_LUMINANCE H.w0 H.h0 (by decide) (by omega)
    refine (grey_any L (by have := tex_length (f := IL_LUMINANCE) junk H.w0 H.h0 (k := 1) (by decide) (by omega); rwa [Nat.mul_one] at this) hfit hA').bind (fun r hr => ?_)
    exact Holds.pure ⟨⟨rfl, t1, t2⟩, hr.2⟩
  exact both (by have := H.len; omega) hl (fun s h => main fileLaws2 s h) (fun s h => main lumpLaws2 s h)

/-- The hypotheses are met: a picture of 50 by 2 pixels, none of which is there. -/
example (junk : Nat → UInt8) (cur : Img) : Loads junk libc cur (headOf 1 8 (wide [50]) (wide [53, 48]) ++ []) (fun ok m => ok = true ∧ m.width = 50 ∧ m.height = 2) :=
  C211_violated_grey junk libc libc_sound cur _ (by rw [List.append_nil, head_length (by decide) (by decide)]; decide)
    (head_header (n := 1) (dh := [50]) (dw := [53, 48]) (.inr ⟨rfl, rfl⟩) (by unfold IsNumber; decide) (by unfold IsNumber; decide) (by decide) (by decide) (by decide) (by decide))
    (by decide) (by decide) (by decide)

/-- **C211 is violated: one pixel wide.** A picture in red, green and blue that is one pixel wide and ends behind any line, before its padding, is loaded from memory with success: at the end
of a lump, `igetc` goes back by a byte, and the last line is read again and again. -/
theorem C211_violated_narrow (junk : Nat → UInt8) (num : Num) (S : num.Sound) (cur : Img) (bs : List UInt8) (hl : bs.length < 2147483648) {h : Nat} (H : Header num bs 3 1 h)
    (hfit : h * 3 < 4294967296) (hodd : bs.length % 2 = 1) : ∃ m, ilLoadL (iLoadScitexInternal lumpOps junk num cur) bs bs.length = .ok (true, m) := by
  have hlen := H.len
  have : ∃ ok m, ilLoadL (iLoadScitexInternal lumpOps junk num cur) bs bs.length = .ok (ok, m) ∧ ok = true := by
    refine loadL (P := fun ok _ => ok = true) (by omega) hl (fun s hA => ?_)
    obtain ⟨s', hA', e⟩ := to_body lumpLaws2 junk num cur hA H.len (header_parsed S H (by decide) (by omega))
    rw [e]
    unfold body
    rw [if_pos rfl]
    refine (lines_narrow lumpLaws3 junk (h := h) hodd (by omega) (h * 3) 0 (tex junk 1 h 3 IL_RGB).data s' 2048 (by omega) (tex_length junk H.w0 H.h0 (by decide) (by omega))
      hA' (by omega) (by decide)).bind (fun r hr => ?_)
    obtain ⟨ok, d, s2⟩ := r
    obtain ⟨h1, h3⟩ := hr
    simp only [] at h1 h3
    subst h1
    exact Holds.pure ⟨rfl, h3⟩
  obtain ⟨ok, m, e, rfl⟩ := this
  exact ⟨m, e⟩

/-- The hypotheses are met: a single byte of a picture of 1 by 5 pixels. -/
example (junk : Nat → UInt8) (cur : Img) (b : UInt8) : fileBytes 3 1 5 = 2077 ∧
    ∃ m, ilLoadL (iLoadScitexInternal lumpOps junk libc cur) (headOf 3 7 (wide [53]) (wide [49]) ++ [b]) (headOf 3 7 (wide [53]) (wide [49]) ++ [b]).length = .ok (true, m) := by
  have hlen : (headOf 3 7 (wide [53]) (wide [49]) ++ [b]).length = 2049 := by rw [List.length_append, head_length (by decide) (by decide)]; rfl
  exact ⟨rfl, C211_violated_narrow junk libc libc_sound cur _ (by omega) (head_header (n := 3) (dh := [53]) (dw := [49]) (.inl ⟨rfl, rfl⟩) (by unfold IsNumber; decide) (by unfold IsNumber; decide)
    (by decide) (by decide) (by decide) (by decide)) (by decide) (by omega)⟩

/-! ### C212 -/

/-- **C212 (part).** Whatever the C library makes of the texts and whatever the bytes are, if there are 2048 bytes and the sizes found in the header give fewer than 2^32 bytes of pixels,
loading touches only memory it owns and leaves an image whose block has the size it reports.  Missing: larger sizes, see the violation, and shorter files. -/
theorem C212_safe_partial (junk : Nat → UInt8) (num : Num) (cur : Img) (hcur : cur.data.length = cur.size) (bs : List UInt8) (h0 : 2048 ≤ bs.length) (hl : bs.length < 2147483648)
    (hfit : num.width (at_ bs 1068 12) * num.height (at_ bs 1056 12) * 3 < 4294967296) : Loads junk num cur bs (fun _ m => m.data.length = m.size) := by
  have main : ∀ {σ : Type} {o : Ops σ} {At : σ → List UInt8 → Nat → Prop}, Laws2 o At → ∀ s, At s bs 0 →
      Holds (iLoadScitexInternal o junk num cur s) (fun r => r.2.1.data.length = r.2.1.size ∧ ∃ q, At r.2.2 bs q) := by
    intro σ o At L s hA
    match hp : parsed num bs with
    | none =>
      unfold iLoadScitexInternal
      refine (head_parsed L.toLaws junk num hA (by omega)).bind (fun r hr => ?_)
      obtain ⟨hd, s1⟩ := r
      obtain ⟨h1, h2⟩ := hr
      simp only [] at h1 h2
      rw [hp] at h1
      subst h1
      exact Holds.pure ⟨hcur, h2⟩
    | some (n, w, h) =>
      obtain ⟨hn, ew, eh, hw, hh⟩ := parsed_some hp
      rw [← ew, ← eh] at hfit
      obtain ⟨s', hA', e⟩ := to_body L junk num cur hA h0 hp
      rw [e]
      unfold body
      rcases hn with rfl | rfl
      · rw [if_pos rfl]
        obtain ⟨-, -, -, -, -, -, -, -, h9⟩ := tex_fields junk w h 3 IL_RGB hw hh (by decide) hfit
        refine (lines_any L junk hfit (h * 3) 0 (tex junk w h 3 IL_RGB).data s' (by omega) (tex_length junk hw hh (by decide) hfit) ⟨_, hA'⟩).bind (fun r hr => ?_)
        obtain ⟨ok, d, s2⟩ := r
        cases ok with
        | true => exact Holds.pure ⟨hr.1.trans h9.symm, hr.2⟩
        | false => exact Holds.pure ⟨hr.1.trans h9.symm, hr.2⟩
      · rw [if_neg (by decide)]
        obtain ⟨-, -, -, -, -, -, -, -, h9⟩ := tex_fields junk w h 1 IL_LUMINANCE hw hh (by decide) (by omega)
        refine (grey_any L (by have := tex_length (f := IL_LUMINANCE) junk hw hh (k := 1) (by decide) (by omega); rwa [Nat.mul_one] at this) (by omega) hA').bind (fun r hr => ?_)
        refine Holds.pure ⟨?_, hr.2⟩
        rw [Nat.mul_one] at h9
        exact hr.1.trans h9.symm
  exact both (by omega) hl (fun s h => main fileLaws2 s h) (fun s h => main lumpLaws2 s h)

/-- The hypotheses are met: a header without a picture. -/
example (junk : Nat → UInt8) (p : List UInt8) (hp : p.length < 1000) : Loads junk libc before.1 (headOf 3 7 (wide [57, 57]) (wide [51, 52]) ++ p) (fun _ m => m.data.length = m.size) := by
  have H : Header libc (headOf 3 7 (wide [57, 57]) (wide [51, 52]) ++ p) 3 34 99 :=
    head_header (n := 3) (dh := [57, 57]) (dw := [51, 52]) (.inl ⟨rfl, rfl⟩) (by unfold IsNumber; decide) (by unfold IsNumber; decide) (by decide) (by decide) (by decide) (by decide)
  refine C212_safe_partial junk libc before.1 rfl _ H.len (by rw [List.length_append, head_length (by decide) (by decide)]; omega) ?_
  rw [(libc_sound _ _ H.height (by decide)).1, (libc_sound _ _ H.width (by decide)).2]
  decide

/-- **C212 is violated: large sizes.** If the number of pixels of a grey picture, computed with 32 bits, is smaller than a line of which there are enough bytes, then the first line is
written beyond the block of the image. -/
theorem C212_violated_size (junk : Nat → UInt8) (num : Num) (S : num.Sound) (cur : Img) (bs : List UInt8) (hl : bs.length < 2147483648) {w h : Nat} (H : Header num bs 1 w h)
    (hw : w < 2147483648) (hh : h < 2147483648) (hsz : w * h % 4294967296 < min w (bs.length - 2048)) : Fails junk num cur bs .oobWrite := by
  have hw0 := H.w0
  have hh0 := H.h0
  have len : (tex junk w h 1 IL_LUMINANCE).data.length = w * h % 4294967296 := by
    have a : ∀ n, 0 < n → atLeast1 n = n := fun n h => by unfold atLeast1; rw [if_neg (by omega)]
    have hb : Utility.ilGetBpcType IL_UNSIGNED_BYTE = 1 := by decide
    rw [Games.tex_len]
    simp only [tex, geometry, a w hw0, a h hh0, a 1 (by decide), hb, Nat.mul_one]
    rw [u32_of_lt (n := w) (by omega), u32_of_lt (n := w) (by omega)]
    unfold u32
    rw [Nat.mod_mod]
  have main : ∀ {σ : Type} {o : Ops σ} {At : σ → List UInt8 → Nat → Prop}, Laws2 o At → ∀ s, At s bs 0 → iLoadScitexInternal o junk num cur s = .error .oobWrite := by
    intro σ o At L s hA
    obtain ⟨s', hA', e⟩ := to_body L junk num cur hA H.len (header_parsed S H hw hh)
    rw [e]
    unfold body
    rw [if_neg (by decide)]
    have : grey o w h (tex junk w h 1 IL_LUMINANCE).data s' = .error .oobWrite := by
      unfold grey
      refine loop_first hh0 (bind_err (L.read 1 w hA' (by decide) (by omega)) (fun r hr => ?_))
      obtain ⟨g, m, s1⟩ := r
      obtain ⟨h1, -, -⟩ := hr
      simp only [] at h1 ⊢
      have hg : g.length = min w (bs.length - 2048) := by rw [h1, at_length, Nat.one_mul]
      rw [Nat.zero_mul, u32_of_lt (by decide)]
      unfold memcpy
      rw [if_pos (by omega), if_neg (by rw [len]; omega)]
      rfl
    simp only [this]
    rfl
  refine ⟨?_, ?_⟩
  · have := main fileLaws2 _ (input_at (opened bs 0) rfl hl)
    unfold ilLoadF
    simp only []
    rw [this]
    rfl
  · unfold ilLoadL
    rw [main lumpLaws2 _ (lump_at bs hl (by have := H.len; omega))]
    rfl

/-- The hypotheses are met: 65536 by 65536 pixels and a single byte. -/
example (junk : Nat → UInt8) (cur : Img) (b : UInt8) : Fails junk libc cur (headOf 1 8 (wide [54, 53, 53, 51, 54]) (wide [54, 53, 53, 51, 54]) ++ [b]) .oobWrite := by
  have hlen : (headOf 1 8 (wide [54, 53, 53, 51, 54]) (wide [54, 53, 53, 51, 54]) ++ [b]).length = 2049 := by rw [List.length_append, head_length (by decide) (by decide)]; rfl
  refine C212_violated_size junk libc libc_sound cur _ (by omega) (head_header (n := 1) (dh := [54, 53, 53, 51, 54]) (dw := [54, 53, 53, 51, 54]) (.inr ⟨rfl, rfl⟩) (by unfold IsNumber; decide)
    (by unfold IsNumber; decide) (by decide) (by decide) (by decide) (by decide)) (by decide) (by decide) ?_
  rw [hlen]
  decide

end DevIL.Scitex
