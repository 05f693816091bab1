import Verif.Model.Fits
import Verif.Spec.Fits
import Verif.Lemmas.Pnm
import Verif.Lemmas.PicE
import Verif.Lemmas.Dpx
set_option autoImplicit false
namespace DevIL.Fits
open DevIL.Games DevIL.Detect DevIL.Image DevIL.DetectSpec DevIL.FitsSpec
open DevIL.PnmSpec (IsNumber number)
open DevIL.Psd (EofLaw)

/-! ### Numbers in cards -/

theorem dropWhile_none {α : Type} {f : α → Bool} {l : List α} (h : ∀ a t, l = a :: t → f a = false) : l.dropWhile f = l := by
  cases l with
  | nil => rfl
  | cons a t => rw [List.dropWhile_cons_of_neg (by rw [h a t rfl]; decide)]

theorem digit_first {ds : List UInt8} (h : IsNumber ds) {a : UInt8} {t : List UInt8} (e : ds = a :: t) : 48 ≤ a ∧ a ≤ 57 := h.2 a (by rw [e]; exact List.mem_cons_self)

theorem digit_ne {a c : UInt8} (h : 48 ≤ a ∧ a ≤ 57) (hc : c < 48) : a ≠ c := by
  rintro rfl
  exact absurd h.1 (by simpa using hc)

theorem val_number (ds : List UInt8) : Pnm.val ds = number ds := by
  have := Pnm.val_eq ds 0
  rw [Nat.zero_mul, Nat.zero_add] at this
  exact this

theorem digits_all {ds : List UInt8} (h : IsNumber ds) : ds.takeWhile Pnm.isdigit = ds := by
  have := List.takeWhile_append_of_pos (p := Pnm.isdigit) (l₁ := ds) (l₂ := []) (fun d hd => by have := h.2 d hd; simp [Pnm.isdigit, this])
  simpa using this

theorem atoi_number {ds : List UInt8} (h : IsNumber ds) (hv : number ds < 2147483648) : atoi ds = .ok (number ds) := by
  have e : ds.dropWhile isspace = ds := by
    refine dropWhile_none (fun a t e => ?_)
    have := digit_first h e
    unfold isspace
    rw [Bool.or_eq_false_iff]
    refine ⟨by simpa using digit_ne this (by decide), ?_⟩
    rw [Bool.and_eq_false_iff]
    right
    have := this.1
    simp only [decide_eq_false_iff_not, UInt8.le_iff_toNat_le] at this ⊢
    have a13 : (13 : UInt8).toNat = 13 := rfl
    have a48 : (48 : UInt8).toNat = 48 := rfl
    omega
  unfold atoi
  simp only [e]
  cases hd : ds with
  | nil => exact absurd hd h.1
  | cons a t =>
    have ha := digit_first h hd
    have h45 : (a == 45) = false := by simpa using digit_ne ha (by decide)
    have h43 : ¬ a = 43 := digit_ne ha (by decide)
    rw [← hd]
    have hh : ds.head? = some a := by rw [hd]; rfl
    rw [hh]
    have e45 : ((some a : Option UInt8) == some 45) = false := h45
    simp only [e45, Option.some.injEq, h43, or_self, Bool.false_eq_true, if_false]
    rw [digits_all h, val_number, if_neg (by omega)]
    rfl

/-- The bytes of a card with a number, taken apart. -/
theorem cardInt_at {w8 ds note : List UInt8} (hw : w8.length = 8) (h : IsNumber ds) (hl : ds.length ≤ 20) (hv : number ds < 2147483648) :
    cardInt (w8 ++ [61, 32] ++ List.replicate (20 - ds.length) 32 ++ ds ++ note) = .ok (some (number ds : Int)) := by
  have e8 : rd (w8 ++ [61, 32] ++ List.replicate (20 - ds.length) 32 ++ ds ++ note) 8 = .ok 61 := by
    rw [rd_of_lt (by simp; omega)]
    congr 1
    have : (w8 ++ [61, 32] ++ List.replicate (20 - ds.length) 32 ++ ds ++ note)[8]? = some 61 := by
      simp only [List.append_assoc]
      rw [List.getElem?_append_right (by omega), hw]
      rfl
    exact (List.getElem?_eq_some_iff.mp this).2
  have e9 : ((w8 ++ [61, 32] ++ List.replicate (20 - ds.length) 32 ++ ds ++ note).drop 9).take 21 = List.replicate (21 - ds.length) 32 ++ ds := by
    have : (w8 ++ [61, 32] ++ List.replicate (20 - ds.length) 32 ++ ds ++ note) = (w8 ++ [61]) ++ ((List.replicate (21 - ds.length) 32 ++ ds) ++ note) := by
      rw [show 21 - ds.length = 20 - ds.length + 1 by omega, List.replicate_succ]
      simp [List.append_assoc]
    rw [this, List.drop_left' (by simp; omega), List.take_left' (by simp; omega)]
  have e10 : (List.replicate (21 - ds.length) 32 ++ ds).dropWhile (fun c : UInt8 => c == 32 || c == 0) = ds := by
    have : ∀ n, (List.replicate n (32 : UInt8) ++ ds).dropWhile (fun c : UInt8 => c == 32 || c == 0) = ds.dropWhile (fun c : UInt8 => c == 32 || c == 0) := by
      intro n
      induction n with
      | zero => rfl
      | succ n ih => rw [List.replicate_succ, List.cons_append, List.dropWhile_cons_of_pos (by decide), ih]
    rw [this]
    refine dropWhile_none (fun a t e => ?_)
    have := digit_first h e
    rw [Bool.or_eq_false_iff]
    exact ⟨by simpa using digit_ne this (by decide), by simpa using digit_ne this (by decide)⟩
  unfold cardInt
  rw [rd_of_lt (i := 7) (by simp; omega), bind_ok, e8, bind_ok, if_neg (by simp)]
  simp only [e9, e10]
  rw [if_neg h.1, atoi_number h hv]
  rfl

/-! ### Cards -/

theorem first_length {note : List UInt8} (h : note.length = 50) : (first note).length = 80 := by
  have : (first note).length = 30 + note.length := by
    unfold first
    simp only [List.length_append, List.length_replicate]
    rfl
  omega

theorem num_length {n : Num} {v : Nat} (h : n.Is v) {k : String} (hk : (word k).length = 8) : (n.bytes k).length = 80 := by
  have := h.fit
  have h2 : (text "= ").length = 2 := rfl
  unfold Num.bytes
  simp only [List.length_append, List.length_replicate, hk, h2, h.note]
  omega

theorem num_int {n : Num} {v : Nat} (h : n.Is v) {k : String} (hk : (word k).length = 8) (hv : v < 2147483648) : cardInt (n.bytes k) = .ok (some (v : Int)) := by
  have := cardInt_at (note := n.note) hk h.digits h.fit (by rw [h.val]; exact hv)
  rw [h.val] at this
  exact this

theorem card_first (h : Head) (note : List UInt8) : card h (first note) = .ok (.go, { h with simple := true }) := rfl

theorem card_bitpix {h : Head} (hs : h.simple = true) {n : Num} {v : Nat} (hn : n.Is v) (h0 : 0 < v) (hv : v < 2147483648) :
    card h (n.bytes "BITPIX") = .ok (.go, { h with bits := v }) := by
  have e : card h (n.bytes "BITPIX") = (if !h.simple then pure (.fail, h)
    else do
      let v ← cardInt (n.bytes "BITPIX")
      match v with
      | none => pure (.fail, h)
      | some v => if v = 0 then pure (.fail, { h with bits := v }) else pure (.go, { h with bits := v })) := rfl
  rw [e, hs, num_int hn rfl hv]
  show (if (v : Int) = 0 then _ else _) = _
  rw [if_neg (by omega)]
  rfl

theorem card_naxis {h : Head} {n : Num} {v : Nat} (hn : n.Is v) (h1 : 1 ≤ v) (h3 : v ≤ 3) :
    card h (n.bytes "NAXIS") = .ok (.go, { h with axes := some (v : Int) }) := by
  have e : card h (n.bytes "NAXIS") = (do
      let v ← cardInt (n.bytes "NAXIS")
      match v with
      | none => pure (.fail, h)
      | some v => if v < 1 ∨ v > 3 then pure (.fail, { h with axes := some v }) else pure (.go, { h with axes := some v })) := rfl
  rw [e, num_int hn rfl (by omega)]
  show (if (v : Int) < 1 ∨ (v : Int) > 3 then _ else _) = _
  rw [if_neg (by omega)]
  rfl

theorem card_axis1 {h : Head} {n : Num} {v a : Nat} (ha : h.axes = some (a : Int)) (h1 : 1 ≤ a) (hn : n.Is v) (hv : v < 2147483648) :
    card h (n.bytes "NAXIS1") = .ok (.go, { h with width := some (v : Int) }) := by
  have e : card h (n.bytes "NAXIS1") = (do
      let k ← use h.axes
      if k = 0 then pure (.fail, h)
      else do
        let v ← cardInt (n.bytes "NAXIS1")
        match v with
        | none => pure (.fail, h)
        | some v => pure (.go, { h with width := some v })) := rfl
  rw [e, ha, num_int hn rfl hv]
  show (if (a : Int) = 0 then _ else _) = _
  rw [if_neg (by omega)]
  rfl

theorem card_axis2 {h : Head} {n : Num} {v a : Nat} (ha : h.axes = some (a : Int)) (h1 : 2 ≤ a) (hn : n.Is v) (hv : v < 2147483648) :
    card h (n.bytes "NAXIS2") = .ok (.go, { h with height := some (v : Int) }) := by
  have e : card h (n.bytes "NAXIS2") = (do
      let k ← use h.axes
      if k = 0 ∨ k = 1 then pure (.fail, h)
      else do
        let v ← cardInt (n.bytes "NAXIS2")
        match v with
        | none => pure (.fail, h)
        | some v => pure (.go, { h with height := some v })) := rfl
  rw [e, ha, num_int hn rfl hv]
  show (if (a : Int) = 0 ∨ (a : Int) = 1 then _ else _) = _
  rw [if_neg (by omega)]
  rfl

theorem card_axis3 {h : Head} {n : Num} {v a : Nat} (ha : h.axes = some (a : Int)) (h1 : 3 ≤ a) (hn : n.Is v) (hv : v < 2147483648) :
    card h (n.bytes "NAXIS3") = .ok (.go, { h with depth := some (v : Int) }) := by
  have e : card h (n.bytes "NAXIS3") = (do
      let k ← use h.axes
      if k < 3 then pure (.fail, h)
      else do
        let v ← cardInt (n.bytes "NAXIS3")
        match v with
        | none => pure (.fail, h)
        | some v => pure (.go, { h with depth := some v })) := rfl
  rw [e, ha, num_int hn rfl hv]
  show (if (a : Int) < 3 then _ else _) = _
  rw [if_neg (by omega)]
  rfl

theorem starts_not {c w : List UInt8} (h : ¬ (w <+: c)) : starts c w = false := by
  unfold starts
  rw [Bool.eq_false_iff]
  intro e
  exact h (List.prefix_iff_eq_take.mpr (eq_of_beq e).symm)

theorem card_other {h : Head} {c : List UInt8} (hc : Other c) : card h c = .ok (.go, h) := by
  have a : ∀ k ∈ ["END", "SIMPLE", "BITPIX", "NAXIS", "NAXIS1", "NAXIS2", "NAXIS3"], starts c (text k ++ [32]) = false := fun k hk => starts_not (hc.2 k hk)
  have a1 : starts c wEnd = false := a "END" (by simp)
  have a2 : starts c wSimple = false := a "SIMPLE" (by simp)
  have a3 : starts c wBitpix = false := a "BITPIX" (by simp)
  have a4 : starts c wNaxis = false := a "NAXIS" (by simp)
  have a5 : starts c (wAxis 49) = false := a "NAXIS1" (by simp)
  have a6 : starts c (wAxis 50) = false := a "NAXIS2" (by simp)
  have a7 : starts c (wAxis 51) = false := a "NAXIS3" (by simp)
  unfold card
  simp only [a1, a2, a3, a4, a5, a6, a7, Bool.false_eq_true, if_false]
  rfl

theorem card_last (h : Head) : card h last = .ok (.stop, h) := rfl

/-! ### A sequence of cards -/

/-- The cards of the list lead from one header to the other. -/
def Runs : Head → List (List UInt8) → Head → Prop
  | h, [], h' => h = h'
  | h, c :: cs, h' => c.length = 80 ∧ ∃ h1, card h c = .ok (.go, h1) ∧ Runs h1 cs h'

theorem Runs.append {cs ds : List (List UInt8)} : ∀ {h h1 h2 : Head}, Runs h cs h1 → Runs h1 ds h2 → Runs h (cs ++ ds) h2 := by
  induction cs with
  | nil => rintro h h1 h2 rfl b; exact b
  | cons c cs ih =>
    rintro h h1 h2 ⟨hl, h', e, a⟩ b
    exact ⟨hl, h', e, ih a b⟩

theorem runs_others {l : List (List UInt8)} (hl : ∀ c ∈ l, Other c) (h : Head) : Runs h l h := by
  induction l with
  | nil => rfl
  | cons c l ih => exact ⟨(hl c List.mem_cons_self).1, h, card_other (hl c List.mem_cons_self), ih (fun c hc => hl c (List.mem_cons_of_mem _ hc))⟩

theorem runs_length {l : List (List UInt8)} : ∀ {h h' : Head}, Runs h l h' → l.flatten.length = 80 * l.length := by
  induction l with
  | nil => intros; rfl
  | cons c l ih =>
    rintro h h' ⟨hl, h1, -, a⟩
    rw [List.flatten_cons, List.length_append, hl, ih a, List.length_cons]
    omega

end DevIL.Fits
