import Verif.Model.Image
/-! Properties C14 (image geometry) and C68 (failed `ilTexImage`). -/
set_option autoImplicit false
namespace DevIL

/-! ### Specification -/

/-- The reported geometry is consistent and the block behind `ilGetData` has exactly the reported size. -/
def Img.Consistent (m : Img) : Prop :=
  m.bps = m.width * m.bpp * m.bpc ∧ m.plane = m.width * m.bpp * m.bpc * m.height ∧
  m.size = m.width * m.bpp * m.bpc * m.height * m.depth ∧ m.data.length = m.size

namespace Image
open Utility

/-- **C14 (partial).** When the data size of the requested image, `width*bpp*bpc*height*depth` with 0 read as 1,
is below 2^32, `ilTexImage` with a known type and a source block of at least that size (or NULL) succeeds; the
image reports the requested dimensions and has a consistent geometry; a source block is copied.  Missing: sizes
from 2^32 on (`C14_violated`). -/
theorem C14_geometry_partial (junk : Nat → UInt8) (w h d bpp format type : Nat) (src : Option (List UInt8))
    (ht : ilGetBpcType type ≠ 0)
    (hfit : max w 1 * bpp * ilGetBpcType type * max h 1 * max d 1 < 2 ^ 32)
    (hsrc : ∀ s, src = some s → max w 1 * bpp * ilGetBpcType type * max h 1 * max d 1 ≤ s.length) :
    ∃ m, ilInitImage junk w h d bpp format type src = .ok (some m) ∧ m.Consistent ∧
      m.width = max w 1 ∧ m.height = max h 1 ∧ m.depth = max d 1 ∧ m.bpp = bpp ∧
      m.bpc = ilGetBpcType type ∧ m.format = format ∧ m.type = type ∧
      (∀ s, src = some s → m.data = s.take m.size) := by
  have a1 : ∀ n, atLeast1 n = max n 1 := by intro n; unfold atLeast1; split <;> omega
  have le1 : ∀ {a b : Nat}, 0 < b → a ≤ a * b := fun {a b} hb => Nat.le_mul_of_pos_right a hb
  have hW : 0 < max w 1 := by omega
  have hH : 0 < max h 1 := by omega
  have hD : 0 < max d 1 := by omega
  have hC : 0 < ilGetBpcType type := by omega
  have s4 : max w 1 * bpp * ilGetBpcType type * max h 1 < 2 ^ 32 := Nat.lt_of_le_of_lt (le1 hD) hfit
  have s3 : max w 1 * bpp * ilGetBpcType type < 2 ^ 32 := Nat.lt_of_le_of_lt (le1 hH) s4
  have s2 : max w 1 * bpp < 2 ^ 32 := Nat.lt_of_le_of_lt (le1 hC) s3
  have e2 : u32 (max w 1 * bpp) = max w 1 * bpp := u32_of_lt s2
  have e3 : u32 (max w 1 * bpp * ilGetBpcType type) = max w 1 * bpp * ilGetBpcType type := u32_of_lt s3
  have e4 : u32 (max w 1 * bpp * ilGetBpcType type * max h 1) = max w 1 * bpp * ilGetBpcType type * max h 1 :=
    u32_of_lt s4
  have e5 : u32 (max w 1 * bpp * ilGetBpcType type * max h 1 * max d 1) =
    max w 1 * bpp * ilGetBpcType type * max h 1 * max d 1 := u32_of_lt hfit
  unfold ilInitImage
  rw [if_neg ht]
  cases src with
  | none =>
    refine ⟨_, rfl, ?_⟩
    simp only [geometry, a1, e2, e3, e4, e5, Img.Consistent, alloc_length]
    simp
  | some s =>
    have hs := hsrc s rfl
    have hmem : memcpy (alloc junk (geometry w h d bpp format type []).size) 0 s 0 (geometry w h d bpp format type []).size =
        .ok (s.take (geometry w h d bpp format type []).size) := by
      unfold memcpy
      rw [if_pos (by simp only [geometry, a1, e2, e3, e4, e5]; omega), if_pos (by simp)]
      have : (alloc junk (geometry w h d bpp format type []).size).drop (geometry w h d bpp format type []).size = [] :=
        List.drop_eq_nil_of_le (by simp)
      simp [this]
    refine ⟨{ geometry w h d bpp format type [] with data := s.take (geometry w h d bpp format type []).size }, ?_, ?_⟩
    · simp only [hmem, bind_ok, pure_eq_ok]
    · refine ⟨⟨?_, ?_, ?_, ?_⟩, ?_, ?_, ?_, rfl, rfl, rfl, rfl, ?_⟩
      · simp only [geometry, a1, e2, e3]
      · simp only [geometry, a1, e2, e3, e4]
      · simp only [geometry, a1, e2, e3, e4, e5]
      · simp only [geometry, a1, e2, e3, e4, e5, List.length_take]
        omega
      · simp only [geometry, a1]
      · simp only [geometry, a1]
      · simp only [geometry, a1]
      · intro t ht; cases ht; rfl

/-- A non-trivial instance: a 640x480 RGBA image of 16-bit components, one slice (depth 0). -/
example : max 640 1 * 4 * ilGetBpcType IL_UNSIGNED_SHORT * max 480 1 * max 0 1 < 2 ^ 32 ∧
    ilGetBpcType IL_UNSIGNED_SHORT ≠ 0 := by decide

/-- The full claim C14 is false: `ilTexImage(65536, 65536, 1, 1, IL_LUMINANCE, IL_UNSIGNED_BYTE, NULL)` succeeds and
the image reports those dimensions with a data size of 0 bytes. -/
theorem C14_violated (junk : Nat → UInt8) :
    ∃ m, ilInitImage junk 65536 65536 1 1 IL_LUMINANCE IL_UNSIGNED_BYTE none = .ok (some m) ∧
      m.width = 65536 ∧ m.height = 65536 ∧ m.size = 0 ∧ m.data = [] ∧ ¬ m.Consistent := by
  refine ⟨{ geometry 65536 65536 1 1 IL_LUMINANCE IL_UNSIGNED_BYTE [] with data := [] }, rfl, rfl, rfl, rfl, rfl, ?_⟩
  rintro ⟨_, h, _⟩
  revert h
  decide

/-- **C14 (rejection).** A type that is not one of the nine component types is refused. -/
theorem C14_unknown_type_refused (junk : Nat → UInt8) (w h d bpp format type : Nat) (src : Option (List UInt8))
    (ht : type ∉ [IL_BYTE, IL_UNSIGNED_BYTE, IL_SHORT, IL_UNSIGNED_SHORT, IL_INT, IL_UNSIGNED_INT, IL_FLOAT, IL_DOUBLE, IL_HALF]) :
    ilInitImage junk w h d bpp format type src = .ok none := by
  unfold ilInitImage
  rw [if_pos]
  · rfl
  · unfold ilGetBpcType
    simp only [List.mem_cons, List.not_mem_nil, or_false, not_or] at ht
    obtain ⟨h1, h2, h3, h4, h5, h6, h7, h8, h9⟩ := ht
    rw [if_neg (fun h => h.elim h1 h2), if_neg (fun h => h.elim h3 (fun h => h.elim h4 h9)),
      if_neg (fun h => h.elim h5 (fun h => h.elim h6 h7)), if_neg h8]

/-! ### C68 -/

/-- The image can be used: its data pointer does not point to freed memory. -/
def Ptr.Usable : Ptr → Prop
  | .dangling => False
  | _ => True

/-- **C68 (partial).** On an image whose data pointer is not stale, `ilTexImage` with one of the nine component
types never frees anything twice and never leaves the data pointer stale, whether or not the allocation succeeds.
Missing: unknown component types (`C68_violated`). -/
theorem C68_texImage_leaves_usable_partial (p : Ptr) (hp : p.Usable) (allocOk : Bool) (junk : Nat → UInt8)
    (w h d bpp format type : Nat) (ht : ilGetBpcType type ≠ 0) :
    ∃ b p', texImagePtr p allocOk junk w h d bpp format type = .ok (b, p') ∧ p'.Usable ∧
      (b = true ↔ allocOk = true) := by
  cases p with
  | dangling => exact hp.elim
  | null => cases allocOk <;> simp [texImagePtr, ht, Ptr.Usable]
  | block x => cases allocOk <;> simp [texImagePtr, ht, Ptr.Usable]

/-- **C68 (violated).** Whatever the image and the other arguments, `ilTexImage` with an unknown component type on an
image that has data returns false and leaves the data pointer stale; the next `ilTexImage` on it, with any
arguments, frees the block a second time. -/
theorem C68_violated (x : List UInt8) (allocOk : Bool) (junk : Nat → UInt8) (w h d bpp format type : Nat)
    (ht : ilGetBpcType type = 0) :
    texImagePtr (.block x) allocOk junk w h d bpp format type = .ok (false, .dangling) ∧
    ∀ w' h' d' bpp' format' type', texImagePtr .dangling allocOk junk w' h' d' bpp' format' type' = .error .doubleFree := by
  constructor
  · simp [texImagePtr, ht]
  · intros; rfl

example : ilGetBpcType 0 = 0 := by decide

end Image
end DevIL
