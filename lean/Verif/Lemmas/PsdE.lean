import Verif.Lemmas.PsdD
import Verif.Lemmas.HdrLoad
set_option autoImplicit false
namespace DevIL.Psd
open DevIL.Games DevIL.Detect DevIL.Image DevIL.DetectSpec DevIL.DpxSpec DevIL.PsdSpec DevIL.Dpx
open DevIL.Hdr (next_flat)

variable {σ : Type} {o : Ops σ} {At : σ → List UInt8 → Nat → Prop}

/-! ### Codes -/

theorem put_next {ch g : List UInt8} {i : Nat} (h : i + g.length ≤ ch.length) :
    ∃ c', memcpy ch i g 0 g.length = .ok c' ∧ c'.length = ch.length ∧ c'.take (i + g.length) = ch.take i ++ g := by
  obtain ⟨c', e, hl, hg⟩ := memcpy_get (dst := ch) (src := g) (dOff := i) (sOff := 0) (n := g.length) (by omega) h
  refine ⟨c', e, hl, List.ext_getElem? (fun j => ?_)⟩
  rcases Nat.lt_or_ge j (i + g.length) with hj | hj
  · rw [List.getElem?_take_of_lt hj, hg]
    rcases Nat.lt_or_ge j i with h1 | h1
    · rw [if_neg (by omega), List.getElem?_append_left (by rw [List.length_take]; omega), List.getElem?_take_of_lt h1]
    · rw [if_pos (by omega), List.getElem?_append_right (by rw [List.length_take]; omega), List.length_take, Nat.min_eq_left (by omega)]
      congr 1; omega
  · rw [List.getElem?_eq_none (by rw [List.length_take]; omega), List.getElem?_eq_none (by rw [List.length_append, List.length_take]; omega)]

theorem packStep_ok (L : Laws2 o At) {bs : List UInt8} {p size : Nat} (c : Code) (hc : c.Ok) (t : Pack σ) (hat : At t.inp bs p) (hn : Next bs p c.bytes) (hr : t.res = 0)
    (hl : t.ch.length = size) (hi : t.i + c.out.length ≤ size) (hsz : size < 4294967296) :
    Holds (packStep o true size t) (fun r => r.res = 0 ∧ r.i = t.i + c.out.length ∧ r.ch.length = size ∧ r.ch.take r.i = t.ch.take t.i ++ c.out ∧ At r.inp bs (p + c.bytes.length)) := by
  unfold packStep
  cases c with
  | lit g =>
    obtain ⟨h1, h2⟩ : 1 ≤ g.length ∧ g.length ≤ 128 := hc
    have hhead : bs[p]? = some (UInt8.ofNat (g.length - 1)) := Next.head (g := g) hn
    have htail : Next bs (p + 1) g := Next.tail hn
    refine (getb_full L.toLaws hat hhead).bind (fun r hr' => ?_)
    obtain ⟨b, s⟩ := r
    obtain ⟨rfl, hs⟩ := hr'
    have hb : (UInt8.ofNat (g.length - 1)).toNat = g.length - 1 := by rw [UInt8.toNat_ofNat']; omega
    simp only [hb]
    have hi' : t.i + g.length ≤ size := hi
    have hu : u32 (t.i + (g.length - 1)) = t.i + (g.length - 1) := u32_of_lt (by omega)
    rw [if_pos (by omega), if_neg (by rw [hu]; omega), show g.length - 1 + 1 = g.length by omega]
    have hfit := Next.le htail (by omega)
    refine (L.read g.length 1 hs (by omega) (by omega)).bind (fun r hr' => ?_)
    obtain ⟨got, n, s⟩ := r
    obtain ⟨g1, g2, g3⟩ := hr'
    simp only [] at g1 g2 g3 ⊢
    have hg : got = g := by rw [g1, Nat.mul_one]; exact htail
    subst hg
    obtain ⟨c', e, hl', ht⟩ := put_next (ch := t.ch) (g := got) (i := t.i) (by omega)
    rw [e, bind_ok]
    have hn1 : n = 1 := by rw [g2]; exact Nat.div_self (by omega)
    rw [if_neg (by omega)]
    refine Holds.pure ⟨rfl, rfl, by show c'.length = size; rw [hl', hl], ht, ?_⟩
    show At s bs (p + (got.length + 1))
    rw [show p + (got.length + 1) = p + 1 + got.length by omega]
    exact g3
  | rep n v =>
    obtain ⟨h1, h2⟩ : 2 ≤ n ∧ n ≤ 128 := hc
    have hhead : bs[p]? = some (UInt8.ofNat (257 - n)) := Next.head (g := [v]) hn
    have hnext : bs[p + 1]? = some v := Next.head (g := []) (Next.tail hn)
    refine (getb_full L.toLaws hat hhead).bind (fun r hr' => ?_)
    obtain ⟨b, s⟩ := r
    obtain ⟨rfl, hs⟩ := hr'
    have hb : (UInt8.ofNat (257 - n)).toNat = 257 - n := by rw [UInt8.toNat_ofNat']; omega
    simp only [hb]
    have hi' : t.i + n ≤ size := by
      have : (Code.rep n v).out.length = n := List.length_replicate
      omega
    rw [if_neg (by omega), if_pos (by omega)]
    refine (getc_full L.toLaws hs hnext).bind (fun r hr' => ?_)
    obtain ⟨x, s⟩ := r
    obtain ⟨rfl, hs⟩ := hr'
    simp only []
    rw [show 257 - (257 - n) = n by omega]
    have hu : u32 (t.i + n) = t.i + n := u32_of_lt (by omega)
    rw [if_neg (by rw [hu]; omega)]
    obtain ⟨c', e, hl', ht⟩ := put_next (ch := t.ch) (g := List.replicate n v) (i := t.i) (by rw [List.length_replicate]; omega)
    rw [List.length_replicate] at e ht
    rw [e, bind_ok]
    refine Holds.pure ⟨rfl, ?_, by show c'.length = size; rw [hl', hl], ht, hs⟩
    show t.i + n = t.i + (List.replicate n v).length
    rw [List.length_replicate]
  | nop =>
    have hhead : bs[p]? = some 128 := Next.head (g := []) hn
    refine (getb_full L.toLaws hat hhead).bind (fun r hr' => ?_)
    obtain ⟨b, s⟩ := r
    obtain ⟨rfl, hs⟩ := hr'
    have hb : (128 : UInt8).toNat = 128 := rfl
    simp only [hb]
    rw [if_neg (by decide), if_neg (by decide)]
    refine Holds.pure ⟨hr, rfl, hl, ?_, hs⟩
    show t.ch.take t.i = _
    exact (List.append_nil _).symm

theorem out_pos {c : Code} (hc : c.Ok) (h : c.out.length = 0) : c = .nop := by
  cases c with
  | lit g => exact absurd h (by have : 1 ≤ g.length := hc.1; show g.length ≠ 0; omega)
  | rep n v => exact absurd h (by have : 2 ≤ n := hc.1; show (List.replicate n v).length ≠ 0; rw [List.length_replicate]; omega)
  | nop => rfl

theorem unpack_go (L : Laws2 o At) {bs : List UInt8} {size : Nat} (hsz : size < 4294967296) (cs : List Code) (hok : ∀ c ∈ cs, c.Ok) (hlast : ∀ c, cs.getLast? = some c → c ≠ .nop)
    (fuel : Nat) (hf : cs.length < fuel) (t : Pack σ) (p : Nat) (hat : At t.inp bs p) (hn : Next bs p (cs.flatMap Code.bytes)) (hr : t.res = 0) (hl : t.ch.length = size)
    (hi : t.i + (cs.flatMap Code.out).length = size) :
    Holds (whileF (fun t : Pack σ => decide (t.res = 0) && decide (t.i < size)) (packStep o true size) fuel t) (fun r => r.res = 0 ∧ r.ch = t.ch.take t.i ++ cs.flatMap Code.out ∧
      At r.inp bs (p + (cs.flatMap Code.bytes).length)) := by
  induction cs generalizing fuel t p with
  | nil =>
    obtain ⟨fuel, rfl⟩ : ∃ m, fuel = m + 1 := ⟨fuel - 1, by simp at hf; omega⟩
    unfold whileF
    simp only [List.flatMap_nil, List.length_nil, Nat.add_zero] at hi ⊢
    rw [if_neg (by simp [hi])]
    refine Holds.ok ⟨hr, ?_, hat⟩
    rw [List.take_of_length_le (by omega), List.append_nil]
  | cons c cs ih =>
    obtain ⟨fuel, rfl⟩ : ∃ m, fuel = m + 1 := ⟨fuel - 1, by simp at hf; omega⟩
    rw [List.flatMap_cons] at hn hi
    rw [List.length_append] at hi
    have hlt : t.i < size := by
      rcases Nat.lt_or_ge t.i size with h | h
      · exact h
      · exfalso
        have hz : ((c :: cs).flatMap Code.out).length = 0 := by rw [List.flatMap_cons, List.length_append]; omega
        cases hg : (c :: cs).getLast? with
        | none => simp at hg
        | some l =>
          have hm : l ∈ c :: cs := List.mem_of_getLast? hg
          refine hlast l hg (out_pos (hok l hm) ?_)
          have hle : l.out.length ≤ ((c :: cs).flatMap Code.out).length := by
            obtain ⟨a, b, e⟩ := List.append_of_mem hm
            rw [e, List.flatMap_append, List.flatMap_cons, List.length_append, List.length_append]; omega
          omega
    unfold whileF
    rw [if_pos (by simp [hr, hlt])]
    refine (packStep_ok L c (hok c List.mem_cons_self) t hat hn.left hr hl (by omega) hsz).bind (fun r h => ?_)
    obtain ⟨h1, h2, h3, h4, h5⟩ := h
    have hlast' : ∀ x, cs.getLast? = some x → x ≠ .nop := by
      intro x hx
      refine hlast x ?_
      rw [List.getLast?_cons, hx]
      rfl
    refine (ih (fun x h => hok x (List.mem_cons_of_mem _ h)) hlast' fuel (by simp at hf; omega) r _ h5 hn.right h1 h3 (by omega)).mono (fun q hq => ⟨hq.1, ?_, ?_⟩)
    · rw [hq.2.1, h4, List.flatMap_cons, List.append_assoc]
    · rw [List.flatMap_cons, List.length_append, ← Nat.add_assoc]
      exact hq.2.2

theorem code_le (cs : List Code) : cs.length ≤ (cs.flatMap Code.bytes).length := by
  induction cs with
  | nil => simp
  | cons c cs ih =>
    rw [List.flatMap_cons, List.length_append, List.length_cons]
    have : 1 ≤ c.bytes.length := by cases c <;> simp [Code.bytes]
    omega

/-- A channel. -/
theorem unpack_ok (L : Laws2 o At) {bs : List UInt8} {size p : Nat} (h0 : 0 < size) (hsz : size < 4294967296) (cs : List Code) (hc : Codes cs size) (fuel : Nat) (hf : bs.length < fuel) (ch : List UInt8)
    (hl : ch.length = size) {s : σ} (hat : At s bs p) (hn : Next bs p (cs.flatMap Code.bytes)) :
    Holds (unpack o true fuel size ch s) (fun r => r.res = 0 ∧ r.ch = cs.flatMap Code.out ∧ At r.inp bs (p + (cs.flatMap Code.bytes).length)) := by
  have hcl : cs.length ≤ bs.length := by
    have := code_le cs
    have hne : cs ≠ [] := by rintro rfl; have := hc.out; simp at this; omega
    have := List.length_pos_iff.mpr hne
    have := Next.le hn (by omega)
    omega
  unfold unpack
  refine (unpack_go L hsz cs hc.ok hc.last fuel (by omega) ⟨0, ch, s, 0⟩ p hat hn rfl hl (by rw [hc.out]; exact Nat.zero_add _)).mono (fun r hr => ⟨hr.1, ?_, hr.2.2⟩)
  rw [hr.2.1]
  rfl

/-! ### Channels -/

/-- The channels as planes. -/
def planesOf (css : List (List Code)) (c : Nat) : List UInt8 := chanOut (css.getD c [])

theorem pack_loop (L : Laws2 o At) {bs : List UInt8} {P rows w bpp : Nat} (fuel : Nat) (hf : bs.length < fuel) (css : List (List Code)) (m : Nat) (hm : m ≤ bpp) (hlen : m ≤ css.length)
    (hw : 0 < w) (hr : 0 < rows) (hfit : rows * (w * bpp) < 4294967296) (hcs : ∀ cs ∈ css, Codes cs (rows * w)) (hn : Next bs P (css.flatMap chanBytes)) (t : Chan σ) (hat : At t.inp bs P)
    (hok : t.ok = true) (hd : t.data.length = rows * w * bpp) (hch : t.ch.length = rows * w) :
    Holds (loopN m (fun c t => packChan o fuel (rows * w) rows (w * bpp) bpp c copied t) t) (fun r => r.ok = true ∧ At r.inp bs (P + ((css.take m).flatMap chanBytes).length) ∧
      r.ch.length = rows * w ∧ Stored 1 bpp (rows * w) m (planesOf css) t.data r.data) := by
  refine Holds.loop (fun c (r : Chan σ) => r.ok = true ∧ At r.inp bs (P + ((css.take c).flatMap chanBytes).length) ∧ r.ch.length = rows * w ∧ Stored 1 bpp (rows * w) c (planesOf css) t.data r.data)
    ⟨hok, by simpa using hat, hch, by rw [hd, Nat.mul_one], fun i _ h => absurd h (by omega), fun _ _ _ => rfl⟩ (fun c r hc hr' => ?_)
  obtain ⟨h1, h2, h3, h4⟩ := hr'
  have hb0 : 0 < bpp := by omega
  have hrw : rows * w ≤ rows * (w * bpp) := Nat.mul_le_mul_left _ (Nat.le_mul_of_pos_right w hb0)
  have hrw0 : 0 < rows * w := Nat.mul_pos hr hw
  obtain ⟨cs, hcc⟩ : ∃ cs, css[c]? = some cs := ⟨_, List.getElem?_eq_getElem (by omega)⟩
  have hC := hcs cs (List.mem_of_getElem? hcc)
  unfold packChan
  simp only [h1, Bool.not_true, Bool.false_eq_true, if_false]
  have hnx : Next bs (P + ((css.take c).flatMap chanBytes).length) (chanBytes cs) := next_flat chanBytes css hn hcc
  refine (unpack_ok L hrw0 (by omega) cs hC fuel hf r.ch h3 h2 hnx).bind (fun q hq => ?_)
  obtain ⟨q1, q2, q3⟩ := hq
  rw [if_neg (by simp [q1])]
  have hql : q.ch.length = rows * w := by rw [q2, hC.out]
  have hpl : planesOf css c = q.ch := by
    unfold planesOf
    rw [q2, List.getD_eq_getElem?_getD, hcc]
    rfl
  refine (stored_step (k := 1) (planes := planesOf css) (ch := q.ch) (by decide) hw (by omega) hfit (by omega) h4 (fun i _ => by rw [hpl])).bind (fun d' hd' => Holds.pure ⟨rfl, ?_, hql, hd'⟩)
  show At q.inp bs _
  rw [List.take_succ, hcc, List.flatMap_append, List.length_append, ← Nat.add_assoc]
  simpa [chanBytes] using q3

end DevIL.Psd
