import Verif.Model.CHeader
import Verif.Spec.CHeader
/-! C223 and C224: saving a picture as C source. -/
set_option autoImplicit false
namespace DevIL.CHeader
open DevIL.CHeaderSpec

theorem readAll_append (s : Reader) (a b : List Nat) : readAll s (a ++ b) = (readAll s a).bind (fun s => readAll s b) := by
  induction a generalizing s with
  | nil => rfl
  | cons c t ih =>
    rw [List.cons_append, readAll, readAll]
    cases readChar s c with
    | none => rfl
    | some s' => exact ih s'

theorem read_digit (done : List Nat) (cur : Option Nat) {d : Nat} (hd : d < 10) (h : cur ≠ some 0) : readChar ⟨done, cur, false⟩ (48 + d) = some ⟨done, some (cur.getD 0 * 10 + d), false⟩ := by
  unfold readChar
  rw [if_neg (by simp [blank]; omega), if_neg (by omega), if_pos (by omega), if_neg (by simp; exact h)]
  simp

theorem read_blank (done : List Nat) (c : Nat) (h : blank c = true) : readChar ⟨done, none, false⟩ c = some ⟨done, none, false⟩ := by
  unfold readChar
  rw [if_pos h]
  rfl

theorem read_num (done : List Nat) {v : Nat} (hv : v < 256) : readAll ⟨done, none, false⟩ (num v) = some ⟨done, some v, false⟩ := by
  have hb := read_blank done 32 rfl
  unfold num
  by_cases h1 : v < 10
  · rw [if_pos h1]
    simp only [readAll, hb, Option.bind_some]
    rw [read_digit done none h1 (by simp)]
    simp
  · rw [if_neg h1]
    by_cases h2 : v < 100
    · rw [if_pos h2]
      simp only [readAll, hb, Option.bind_some]
      rw [read_digit done none (by omega) (by simp), Option.bind_some, read_digit _ _ (by omega) (by simp; omega), Option.bind_some]
      simp
      omega
    · rw [if_neg h2]
      simp only [readAll, hb, Option.bind_some]
      rw [read_digit done none (by omega) (by simp), Option.bind_some, read_digit _ _ (by omega) (by simp; omega), Option.bind_some, read_digit _ _ (by omega) (by simp; omega), Option.bind_some]
      simp
      omega

/-- What the format has before the number is white space. -/
def Blanks (pre : List Nat) : Prop := ∀ done, readAll ⟨done, none, false⟩ pre = some ⟨done, none, false⟩

theorem blanks_nil : Blanks [] := fun _ => rfl
theorem blanks_space : Blanks [32] := fun done => by unfold readAll; rw [read_blank done 32 rfl]; rfl

theorem read_comma (done : List Nat) (v : Nat) : readChar ⟨done, some v, false⟩ 44 = some ⟨done ++ [v], none, false⟩ := rfl

/-- A line that is not the last. -/
theorem line_full {pre : List Nat} (hp : Blanks pre) (data : List UInt8) (i : Nat) (k j : Nat) (hj : i + j + k < data.length) (hu : data.length < 4294967296) :
    ∃ t, line pre data data.length i k j = .ok t ∧ ∀ done, readAll ⟨done, none, false⟩ t = some ⟨done ++ ((data.drop (i + j)).take k).map UInt8.toNat, none, false⟩ := by
  induction k generalizing j with
  | zero => exact ⟨[], rfl, fun done => by simp [readAll]⟩
  | succ k ih =>
    obtain ⟨t, e, ht⟩ := ih (j + 1) (by omega)
    have hr : i + j < data.length := by omega
    have hu' : u32 (i + j) = i + j := by unfold u32; omega
    refine ⟨pre ++ num data[i + j].toNat ++ 44 :: t, ?_, fun done => ?_⟩
    · unfold line
      rw [hu', rd_of_lt hr, bind_ok, if_neg (by omega), e, bind_ok, pure_eq_ok]
    · rw [List.append_assoc, readAll_append, hp, Option.bind_some, readAll_append, read_num done data[i + j].toNat_lt, Option.bind_some]
      show (readChar _ 44).bind _ = _
      rw [read_comma, Option.bind_some, ht, List.drop_eq_getElem_cons hr, List.take_succ_cons, List.map_cons, List.append_assoc, List.singleton_append, Nat.add_assoc]

/-- The last line. -/
theorem line_last {pre : List Nat} (hp : Blanks pre) (data : List UInt8) (i : Nat) (k j : Nat) (h1 : i + j < data.length) (h2 : data.length ≤ i + j + k) (hu : data.length < 4294967296) :
    ∃ t, line pre data data.length i k j = .ok t ∧
      ∀ done, ∃ v, readAll ⟨done, none, false⟩ t = some ⟨done ++ ((data.drop (i + j)).dropLast).map UInt8.toNat, some v, false⟩ ∧ (data.drop (i + j)).getLast? = some (UInt8.ofNat v) ∧ v < 256 := by
  induction k generalizing j with
  | zero => omega
  | succ k ih =>
    have hu' : u32 (i + j) = i + j := by unfold u32; omega
    by_cases hl : data.length - 1 ≤ i + j
    · refine ⟨pre ++ num data[i + j].toNat, ?_, fun done => ⟨data[i + j].toNat, ?_, ?_, data[i + j].toNat_lt⟩⟩
      · unfold line
        rw [hu', rd_of_lt h1, bind_ok, if_pos hl, pure_eq_ok]
      · rw [readAll_append, hp, Option.bind_some, read_num done data[i + j].toNat_lt, List.drop_eq_getElem_cons h1, List.drop_eq_nil_of_le (by omega)]
        simp
      · rw [List.drop_eq_getElem_cons h1, List.drop_eq_nil_of_le (by omega)]
        simp
    · obtain ⟨t, e, ht⟩ := ih (j + 1) (by omega) (by omega)
      refine ⟨pre ++ num data[i + j].toNat ++ 44 :: t, ?_, fun done => ?_⟩
      · unfold line
        rw [hu', rd_of_lt h1, bind_ok, if_neg hl, e, bind_ok, pure_eq_ok]
      · obtain ⟨v, hv, hlast, hv'⟩ := ht (done ++ [data[i + j].toNat])
        have hne : data.drop (i + j + 1) ≠ [] := by
          intro h
          have := congrArg List.length h
          rw [List.length_drop, List.length_nil] at this
          omega
        refine ⟨v, ?_, ?_, hv'⟩
        · rw [List.append_assoc, readAll_append, hp, Option.bind_some, readAll_append, read_num done data[i + j].toNat_lt, Option.bind_some]
          show (readChar _ 44).bind _ = _
          rw [read_comma, Option.bind_some, hv, List.drop_eq_getElem_cons h1, List.dropLast_cons_of_ne_nil hne, List.map_cons, List.append_assoc, List.singleton_append, Nat.add_assoc]
        · rw [List.drop_eq_getElem_cons h1, List.getLast?_cons_of_ne_nil hne]
          exact hlast

theorem take_drop_map (data : List UInt8) (i : Nat) : (data.drop i).map UInt8.toNat = ((data.drop i).take 14).map UInt8.toNat ++ (data.drop (i + 14)).map UInt8.toNat := by
  rw [← List.map_append, ← List.drop_drop, List.take_append_drop]

/-- All lines. -/
theorem rows_spec {pre : List Nat} (hp : Blanks pre) (data : List UInt8) (hu : data.length + 14 < 4294967296) (fuel i : Nat) (hi : i < data.length) (hf : data.length ≤ i + fuel) :
    ∃ t, rows pre data data.length (fuel + 1) i = .ok t ∧
      ∀ done, (readAll ⟨done, none, false⟩ t).map (fun s => s.done ++ s.cur.toList) = some (done ++ (data.drop i).map UInt8.toNat) := by
  induction fuel generalizing i with
  | zero => omega
  | succ fuel ih =>
    have hu' : u32 (i + 14) = i + 14 := by unfold u32; omega
    have htab : ∀ done t, readAll ⟨done, none, false⟩ (9 :: t) = readAll ⟨done, none, false⟩ t := fun done t => by
      rw [readAll, read_blank done 9 rfl, Option.bind_some]
    by_cases hlast : data.length ≤ i + 14
    · obtain ⟨l, e, hl⟩ := line_last hp data i 14 0 (by omega) (by omega) (by omega)
      refine ⟨9 :: l ++ 10 :: [], ?_, fun done => ?_⟩
      · rw [rows, if_pos hi, e, bind_ok, hu', rows, if_neg (by omega), pure_eq_ok, bind_ok, pure_eq_ok]
      · obtain ⟨v, hv, hl', hv'⟩ := hl done
        rw [List.cons_append, htab, readAll_append, hv, Option.bind_some]
        show ((readChar _ 10).bind _).map _ = _
        have : readChar ⟨done ++ ((data.drop (i + 0)).dropLast).map UInt8.toNat, some v, false⟩ 10 = some ⟨done ++ ((data.drop (i + 0)).dropLast).map UInt8.toNat, some v, true⟩ := rfl
        rw [this, Option.bind_some]
        simp only [readAll, Option.map_some, Option.toList_some, Nat.add_zero]
        rw [Nat.add_zero] at hl'
        have hd : data.drop i = (data.drop i).dropLast ++ [UInt8.ofNat v] := by
          obtain ⟨ys, hy⟩ := List.getLast?_eq_some_iff.mp hl'
          rw [hy, List.dropLast_concat]
        have hm : (data.drop i).map UInt8.toNat = (data.drop i).dropLast.map UInt8.toNat ++ [v] := by
          rw [congrArg (List.map UInt8.toNat) hd, List.map_append, List.map_cons, List.map_nil, UInt8.toNat_ofNat', Nat.mod_eq_of_lt (by omega)]
        rw [hm, List.append_assoc]
    · obtain ⟨l, e, hl⟩ := line_full hp data i 14 0 (by omega) (by omega)
      obtain ⟨r, er, hr⟩ := ih (i + 14) (by omega) (by omega)
      refine ⟨9 :: l ++ 10 :: r, ?_, fun done => ?_⟩
      · rw [rows, if_pos hi, e, bind_ok, hu', er, bind_ok, pure_eq_ok]
      · rw [List.cons_append, htab, readAll_append, hl done, Option.bind_some, readAll, read_blank _ 10 rfl, Option.bind_some, hr, Nat.add_zero, List.append_assoc, ← take_drop_map]

theorem rows_values {pre : List Nat} (hp : Blanks pre) (data : List UInt8) (hu : data.length + 14 < 4294967296) :
    ∃ t, rows pre data data.length (data.length + 1) 0 = .ok t ∧ values t = some (data.map UInt8.toNat) := by
  by_cases h : 0 < data.length
  · obtain ⟨t, e, ht⟩ := rows_spec hp data hu data.length 0 h (by omega)
    refine ⟨t, e, ?_⟩
    have := ht []
    rw [List.nil_append, List.drop_zero] at this
    exact this
  · have : data = [] := List.length_eq_zero_iff.mp (by omega)
    subst this
    exact ⟨[], rfl, rfl⟩

/-- **C223**: the array in the file lists exactly the bytes of the picture, in order, as a compiler reads them; and so does the array of the palette, which is there exactly when there is a
palette. -/
theorem C223_text (conv : Img → Option (List UInt8)) (img : Img) (d : List UInt8) (hd : d = img.data ∧ img.bpc ≤ 1 ∨ img.bpc > 1 ∧ conv img = some d) (h1 : d.length + 14 < 4294967296)
    (h2 : img.pal.length + 14 < 4294967296) :
    ∃ f, save conv img = .ok (some f) ∧ values f.text = some (d.map UInt8.toNat) ∧ f.width = img.width ∧ f.height = img.height ∧ f.depth = img.depth ∧ f.bpp = img.bpp ∧ f.format = img.format ∧
      (f.pal = none ↔ img.pal = [] ∨ img.palType = 0x400) ∧ ∀ n t p, f.pal = some (n, t, p) → n = img.pal.length ∧ t = img.palType ∧ values p = some (img.pal.map UInt8.toNat) := by
  have hdata : (if img.bpc > 1 then conv img else some img.data) = some d := by
    rcases hd with ⟨rfl, h⟩ | ⟨h, e⟩
    · rw [if_neg (by omega)]
    · rw [if_pos h, e]
  obtain ⟨t, e, ht⟩ := rows_values blanks_nil d h1
  obtain ⟨p, ep, htp⟩ := rows_values blanks_space img.pal h2
  unfold save
  simp only []
  rw [hdata]
  simp only []
  rw [e, bind_ok]
  by_cases hp : img.pal.length ≠ 0 ∧ img.palType ≠ 0x400
  · rw [if_pos hp, ep, bind_ok, pure_eq_ok, bind_ok, pure_eq_ok]
    refine ⟨_, rfl, ht, rfl, rfl, rfl, rfl, rfl, ⟨fun h => (by cases h), fun h => ?_⟩, fun n t p h => ?_⟩
    · rcases h with h | h
      · rw [h] at hp; exact absurd rfl hp.1
      · exact absurd h hp.2
    · cases h
      exact ⟨rfl, rfl, htp⟩
  · rw [if_neg hp, pure_eq_ok, bind_ok, pure_eq_ok]
    refine ⟨_, rfl, ht, rfl, rfl, rfl, rfl, rfl, ⟨fun _ => ?_, fun _ => rfl⟩, fun n t p h => (by cases h)⟩
    by_cases h0 : img.pal.length = 0
    · exact .inl (List.length_eq_zero_iff.mp h0)
    · exact .inr (by omega)

/-- A picture of two pixels with a palette of one colour. -/
def sample : Img := ⟨2, 1, 1, 1, 1, 0x1401, 0x1900, [0, 255], [1, 22, 133], 0x401⟩

example : (sample.data = sample.data ∧ sample.bpc ≤ 1) ∧ sample.data.length + 14 < 4294967296 ∧ sample.pal.length + 14 < 4294967296 := by decide
example : (save (fun _ => none) sample).map (fun f => f.map (fun f => f.text)) = .ok (some [9, 32, 32, 32, 48, 44, 32, 50, 53, 53, 10]) := by rfl

/-- **C224**, partial: for pictures of bytes the array has as many bytes as the header says. -/
theorem C224_size_partial (conv : Img → Option (List UInt8)) (img : Img) (hb : img.bpc = 1) (ht : typeSize img.type = 1) (hl : img.data.length = img.width * img.height * img.depth * img.bpp * img.bpc)
    (h1 : img.data.length + 14 < 4294967296) (h2 : img.pal.length + 14 < 4294967296) :
    ∃ f vs, save conv img = .ok (some f) ∧ values f.text = some vs ∧ vs.length = f.width * f.height * f.depth * f.bpp * typeSize f.type ∧ f.type = img.type := by
  obtain ⟨t, e, htx⟩ := rows_values blanks_nil img.data h1
  obtain ⟨f, ef, hf, a1, a2, a3, a4, -⟩ := C223_text conv img img.data (.inl ⟨rfl, by omega⟩) h1 h2
  have htype : f.type = img.type := by
    unfold save at ef
    simp only [] at ef
    rw [if_neg (by omega)] at ef
    simp only [] at ef
    obtain ⟨p, ep, -⟩ := rows_values blanks_space img.pal h2
    rw [e, bind_ok] at ef
    by_cases hp : img.pal.length ≠ 0 ∧ img.palType ≠ 0x400
    · rw [if_pos hp, ep, bind_ok, pure_eq_ok, bind_ok, pure_eq_ok] at ef
      cases ef
      rfl
    · rw [if_neg hp, pure_eq_ok, bind_ok, pure_eq_ok] at ef
      cases ef
      rfl
  refine ⟨f, _, ef, hf, ?_, htype⟩
  rw [List.length_map, hl, a1, a2, a3, a4, htype, ht, hb]

example : sample.bpc = 1 ∧ typeSize sample.type = 1 ∧ sample.data.length = sample.width * sample.height * sample.depth * sample.bpp * sample.bpc := by decide

/-- **C224** fails: for every picture of wider components the data are converted to bytes, and the header gives the type they had before. -/
theorem C224_violated_wide (conv : Img → Option (List UInt8)) (img : Img) (d : List UInt8) (hb : img.bpc > 1) (ht : typeSize img.type = img.bpc) (hc : conv img = some d)
    (hl : d.length = img.width * img.height * img.depth * img.bpp) (hpos : 0 < d.length) (h1 : d.length + 14 < 4294967296) (h2 : img.pal = []) :
    ∃ f vs, save conv img = .ok (some f) ∧ values f.text = some vs ∧ vs.length < f.width * f.height * f.depth * f.bpp * typeSize f.type := by
  obtain ⟨t, e, htx⟩ := rows_values blanks_nil d h1
  refine ⟨⟨img.bpp, img.width, img.height, img.depth, img.type, img.format, t, none⟩, _, ?_, htx, ?_⟩
  · unfold save
    simp only []
    rw [if_pos hb, hc]
    simp only []
    rw [e, bind_ok, if_neg (by rw [h2]; simp), pure_eq_ok, bind_ok, pure_eq_ok]
  · rw [List.length_map, ht, ← hl]
    exact (Nat.lt_mul_iff_one_lt_right hpos).mpr hb

/-- A picture of one pixel of 16 bits. -/
example : let img : Img := ⟨1, 1, 1, 1, 2, 0x1403, 0x1909, [1, 2], [], 0x400⟩
    img.bpc > 1 ∧ typeSize img.type = img.bpc ∧ [2].length = img.width * img.height * img.depth * img.bpp := by decide

end DevIL.CHeader
