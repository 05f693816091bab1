import Verif.Lemmas.PicD
import Verif.Lemmas.SunB
set_option autoImplicit false
namespace DevIL.Pic
open DevIL.Games DevIL.Detect DevIL.Image DevIL.DetectSpec DevIL.PicSpec DevIL.Dpx
open DevIL.PsdSpec (num)
open DevIL.Psd (EofLaw num_length)
open DevIL.Sun (Laws3)

variable {σ : Type} {o : Ops σ} {At : σ → List UInt8 → Nat → Prop}

/-! ### Any rows -/

/-- What holds after reading: the block has its size, and as long as all goes well the position is in the input. -/
def Fine (At : σ → List UInt8 → Nat → Prop) (bs : List UInt8) (n p : Nat) (r : Scan σ) : Prop :=
  r.data.length = n ∧ ∃ q, At r.inp bs q ∧ (r.ok = true → p ≤ q ∧ q ≤ bs.length)

theorem memcpy_few (d : List UInt8) (a : Nat) (g : List UInt8) (h : a < d.length) (hg : g.length ≤ 1) : Holds (memcpy d a g 0 g.length) (fun r => r.length = d.length) := by
  match g, hg with
  | [], _ =>
    unfold memcpy
    simp only [List.length_nil, Nat.add_zero, Nat.le_refl, if_true]
    rw [if_pos (by omega)]
    refine Holds.ok ?_
    simp
  | [c], _ =>
    rw [List.length_singleton, memcpy_one d a c h]
    exact Holds.ok (List.length_set ..)

theorem readPx_safe (L : Laws2 o At) {bs : List UInt8} {a : Nat} (off : List Nat) (t : Scan σ) {p : Nat} (h : At t.inp bs p) (hp : p ≤ bs.length) (ha : ∀ i ∈ off, a + i < t.data.length) :
    Holds (readPx o off a t) (Fine At bs t.data.length p) := by
  induction off generalizing t p with
  | nil => exact Holds.pure ⟨rfl, p, h, fun _ => ⟨Nat.le_refl _, hp⟩⟩
  | cons j js ih =>
    unfold readPx
    refine (L.read 1 1 h (by decide) (by decide)).bind (fun r hr => ?_)
    obtain ⟨g, n, s⟩ := r
    obtain ⟨h1, h2, h3⟩ := hr
    simp only at h1 h2 h3 ⊢
    have hg : g.length = min 1 (bs.length - p) := by rw [h1, at_length]
    refine (memcpy_few t.data (a + j) g (ha j List.mem_cons_self) (by omega)).bind (fun d hd => ?_)
    refine Holds.ite (fun _ => Holds.pure ⟨hd, _, h3, fun h => by cases h⟩) (fun _ => ?_)
    refine (ih ⟨d, s, true⟩ h3 (by omega) (fun i hi => by show _ < d.length; rw [hd]; exact ha i (List.mem_cons_of_mem _ hi))).mono (fun r hr => ?_)
    obtain ⟨r1, q, r2, r3⟩ := hr
    exact ⟨r1.trans hd, q, r2, fun e => ⟨by have := (r3 e).1; omega, (r3 e).2⟩⟩

theorem readCol_safe (L : Laws2 o At) {bs : List UInt8} (n : Nat) {s : σ} {p : Nat} (h : At s bs p) (hp : p ≤ bs.length) :
    Holds (readCol o n s) (fun r => ∃ q, At r.2 bs q ∧ p ≤ q ∧ q ≤ bs.length) := by
  induction n generalizing s p with
  | zero => exact Holds.pure ⟨p, h, Nat.le_refl _, hp⟩
  | succ n ih =>
    unfold readCol
    refine (L.read 1 1 h (by decide) (by decide)).bind (fun r hr => ?_)
    obtain ⟨g, m, s'⟩ := r
    obtain ⟨h1, h2, h3⟩ := hr
    simp only at h1 h2 h3 ⊢
    have hg : g.length = min 1 (bs.length - p) := by rw [h1, at_length]
    refine Holds.ite (fun _ => Holds.pure ⟨_, h3, by omega, by omega⟩) (fun _ => ?_)
    refine (ih h3 (by omega)).bind (fun r hr => Holds.pure ?_)
    obtain ⟨q, r1, r2, r3⟩ := hr
    exact ⟨q, r1, by omega, r3⟩

theorem readPxs_safe (L : Laws2 o At) {bs : List UInt8} {a b n : Nat} (off : List Nat) {f : Nat → Scan σ → C (Scan σ)} (ho : ∀ i ∈ off, i < b)
    (hf : ∀ i t p, i < n → At t.inp bs p → p ≤ bs.length → t.ok = true →
      (∃ s, At s bs p ∧ f i t = .ok { t with inp := s, ok := false }) ∨ ∃ s, At s bs p ∧ f i t = readPx o off (a + i * b) { t with inp := s })
    (hf' : ∀ i t, t.ok = false → f i t = .ok t)
    (t : Scan σ) {p : Nat} (h : At t.inp bs p) (hp : p ≤ bs.length) (ha : a + n * b ≤ t.data.length) : Holds (loopN n f t) (Fine At bs t.data.length p) := by
  refine Holds.loop (fun _ r => Fine At bs t.data.length p r) ⟨rfl, p, h, fun _ => ⟨Nat.le_refl _, hp⟩⟩ (fun i r hi hr => ?_)
  obtain ⟨r1, q, r2, r3⟩ := hr
  cases hok : r.ok with
  | false => rw [hf' i r hok]; exact Holds.ok ⟨r1, q, r2, fun e => by rw [hok] at e; cases e⟩
  | true =>
    obtain ⟨q1, q2⟩ := r3 hok
    rcases hf i r q hi r2 q2 hok with ⟨s, hs, e⟩ | ⟨s, hs, e⟩
    · rw [e]; exact Holds.ok ⟨r1, q, hs, fun e => by cases e⟩
    · rw [e]
      refine (readPx_safe L off { r with inp := s } hs q2 (fun k hk => ?_)).mono (fun u hu => ?_)
      · show _ < r.data.length
        have := ho k hk
        have : (i + 1) * b ≤ n * b := Nat.mul_le_mul_right _ hi
        rw [Nat.add_mul] at this
        omega
      · obtain ⟨u1, v, u2, u3⟩ := hu
        exact ⟨u1.trans r1, v, u2, fun e => ⟨by have := (u3 e).1; omega, (u3 e).2⟩⟩

theorem readRaw_safe (L : Laws2 o At) (E : EofLaw o At) {bs : List UInt8} (h0 : 0 < bs.length) {a b w : Nat} (off : List Nat) (ho : ∀ i ∈ off, i < b)
    (t : Scan σ) {p : Nat} (h : At t.inp bs p) (hp : p ≤ bs.length) (ha : a + w * b ≤ t.data.length) : Holds (readRaw o w off b a t) (Fine At bs t.data.length p) := by
  refine readPxs_safe L off ho (fun i t p hi hA hle hok => ?_) (fun i t hok => by rw [hok]; rfl) t h hp ha
  obtain ⟨e1, e2⟩ := E hA hle h0
  simp only [hok, Bool.not_true, Bool.false_eq_true, if_false]
  by_cases he : bs.length ≤ p
  · left
    refine ⟨_, e2, ?_⟩
    rw [e1, if_pos (decide_eq_true he)]; rfl
  · right
    refine ⟨_, e2, ?_⟩
    rw [e1, if_neg (by simpa using he)]

/-- What holds after a sequence. -/
def FineR (At : σ → List UInt8 → Nat → Prop) (bs : List UInt8) (n w p : Nat) (r : Runs σ) : Prop :=
  r.i = r.px ∧ r.px ≤ w ∧ Fine At bs n p r.scan

theorem longRun_safe (L : Laws2 o At) (E : EofLaw o At) (junk : Nat → UInt8) {bs : List UInt8} (h0 : 0 < bs.length) {c : UInt8} {s : σ} {p : Nat} (h : At s bs p) (hp : p ≤ bs.length) :
    Holds (longRun o junk c s) (fun r => ∃ q, At r.2 bs q ∧ p ≤ q ∧ q ≤ bs.length) := by
  unfold longRun
  refine Holds.ite (fun _ => ?_) (fun _ => Holds.pure ⟨p, h, Nat.le_refl _, hp⟩)
  refine (head_pos L.toLaws junk bs [u16] s p h hp (by
    intro f hf
    rw [List.mem_singleton.mp hf]
    exact ⟨2, 1, rfl, by decide, by decide⟩)).bind (fun r hr => ?_)
  obtain ⟨g, s'⟩ := r
  simp only at hr ⊢
  obtain ⟨e1, e2⟩ := E hr (Nat.min_le_right _ _) h0
  have hq : p ≤ min (p + start [u16] ([u16] : List Fld).length) bs.length := by omega
  exact Holds.ite (fun _ => Holds.pure ⟨_, e2, hq, Nat.min_le_right _ _⟩) (fun _ => Holds.pure ⟨_, e2, hq, Nat.min_le_right _ _⟩)

theorem mixedStep_safe (L : Laws2 o At) (E : EofLaw o At) {bs : List UInt8} (h0 : 0 < bs.length) (junk : Nat → UInt8) {w b a : Nat} {off : List Nat} (ho : ∀ i ∈ off, i < b) {t : Runs σ} {p : Nat}
    (hi : t.i = t.px) (hw : t.px ≤ w) (h : At t.scan.inp bs p) (hp : p ≤ bs.length) (ha : a + w * b ≤ t.scan.data.length) :
    Holds (mixedStep o junk w off b a t) (FineR At bs t.scan.data.length w (p + 1)) := by
  unfold mixedStep
  obtain ⟨e1, e2⟩ := E h hp h0
  simp only []
  rw [e1]
  refine Holds.ite (fun _ => Holds.pure ⟨hi, hw, rfl, p, e2, fun e => by cases e⟩) (fun he => ?_)
  have hlt : p < bs.length := by simpa using he
  refine (getc_full L.toLaws e2 (List.getElem?_eq_getElem hlt)).bind (fun r hr => ?_)
  obtain ⟨c, s⟩ := r
  obtain ⟨h1, h2⟩ := hr
  simp only at h1 h2
  subst h1
  simp only
  refine Holds.ite (fun _ => ?_) (fun _ => ?_)
  · unfold repSeq
    refine (longRun_safe L E junk h0 h2 hlt).bind (fun r hr => ?_)
    obtain ⟨count, s1⟩ := r
    obtain ⟨q, h3, q1, q2⟩ := hr
    simp only at h3 ⊢
    cases count with
    | none => exact Holds.pure ⟨hi, hw, rfl, q, h3, fun e => by cases e⟩
    | some n =>
      refine Holds.ite (fun _ => Holds.pure ⟨hi, hw, rfl, q, h3, fun e => by cases e⟩) (fun hfit => ?_)
      refine (readCol_safe L off.length h3 q2).bind (fun r hr => ?_)
      obtain ⟨col, s2⟩ := r
      obtain ⟨q', h4, q3, q4⟩ := hr
      simp only at h4 ⊢
      cases col with
      | none => exact Holds.pure ⟨hi, hw, rfl, q', h4, fun e => by cases e⟩
      | some col =>
        have hm : (t.px + n) * b ≤ w * b := Nat.mul_le_mul_right _ (by omega)
        rw [Nat.add_mul] at hm
        simp only []
        rw [putPxs_ok (a := a + t.px * b) (b := b) off col n t.scan.data (fun k d => by rw [Nat.add_mul, ← Nat.add_assoc]) ho (by omega), bind_ok]
        exact Holds.pure ⟨by show t.i + (n : Int) = _; rw [hi]; push_cast; rfl, by show t.px + n ≤ w; omega, paint_length .., q', h4, fun _ => ⟨by omega, q4⟩⟩
  · unfold rawSeq
    simp only []
    refine Holds.ite (fun _ => Holds.pure ⟨hi, hw, rfl, _, h2, fun e => by cases e⟩) (fun hfit => ?_)
    have hm : (t.px + (bs[p].toNat + 1)) * b ≤ w * b := Nat.mul_le_mul_right _ (by omega)
    rw [Nat.add_mul] at hm
    refine (readPxs_safe L (a := a + t.px * b) (b := b) (n := bs[p].toNat + 1) off ho (fun i t' q hi' hA hle hok => .inr ⟨t'.inp, hA, ?_⟩) (fun i t' hok => by rw [hok]; rfl)
      ⟨t.scan.data, s, true⟩ h2 hlt (by simp only []; omega)).bind (fun r hr => ?_)
    · rw [if_neg (by simp [hok]), Nat.add_mul, ← Nat.add_assoc]
    · exact Holds.pure ⟨by show t.i + ((bs[p].toNat + 1 : Nat) : Int) = _; rw [hi]; push_cast; rfl, by show t.px + _ ≤ w; omega, hr⟩

theorem mixed_safe (L : Laws2 o At) (E : EofLaw o At) {bs : List UInt8} (h0 : 0 < bs.length) (junk : Nat → UInt8) {w b a n : Nat} {off : List Nat} (ho : ∀ i ∈ off, i < b) (ha : a + w * b ≤ n) (p0 : Nat) :
    ∀ (fuel : Nat) (t : Runs σ) (p : Nat), t.i = t.px → t.px ≤ w → t.scan.data.length = n → At t.scan.inp bs p → (t.scan.ok = true → p0 ≤ p ∧ p ≤ bs.length) → bs.length - p + 1 < fuel →
    Holds (whileF (fun t : Runs σ => t.scan.ok && decide (t.i < w)) (mixedStep o junk w off b a) fuel t) (fun r => Fine At bs n p0 r.scan) := by
  intro fuel
  induction fuel with
  | zero => intro t p _ _ _ _ _ h; omega
  | succ fuel ih =>
    intro t p hi hw hn h hp hf
    unfold whileF
    refine Holds.ite (fun hc => ?_) (fun _ => Holds.ok ⟨hn, p, h, hp⟩)
    have hok : t.scan.ok = true := (Bool.and_eq_true_iff.mp hc).1
    obtain ⟨p1, p2⟩ := hp hok
    refine (mixedStep_safe L E h0 junk ho hi hw h p2 (by omega)).bind (fun r hr => ?_)
    obtain ⟨r1, r2, r3, q, r4, r5⟩ := hr
    cases hrok : r.scan.ok with
    | true =>
      obtain ⟨q1, q2⟩ := r5 hrok
      exact ih r q r1 r2 (r3.trans hn) r4 (fun _ => ⟨by omega, q2⟩) (by omega)
    | false =>
      obtain ⟨fuel, rfl⟩ : ∃ m, fuel = m + 1 := ⟨fuel - 1, by omega⟩
      unfold whileF
      rw [if_neg (by simp [hrok])]
      exact Holds.ok ⟨r3.trans hn, q, r4, fun e => by rw [hrok] at e; cases e⟩

theorem readMixed_safe (L : Laws2 o At) (E : EofLaw o At) {bs : List UInt8} (h0 : 0 < bs.length) (junk : Nat → UInt8) {a b w fuel : Nat} (off : List Nat) (ho : ∀ i ∈ off, i < b)
    (t : Scan σ) {p : Nat} (h : At t.inp bs p) (hp : p ≤ bs.length) (ha : a + w * b ≤ t.data.length) (hf : bs.length + 1 < fuel) :
    Holds (readMixed o junk fuel w off b a t) (Fine At bs t.data.length p) := by
  unfold readMixed
  refine (mixed_safe L E h0 junk ho ha p fuel ⟨0, 0, t⟩ p rfl (Nat.zero_le _) rfl h (fun _ => ⟨Nat.le_refl _, hp⟩) (by omega)).bind (fun r hr => Holds.pure hr)

theorem scanline_safe (L : Laws2 o At) (E : EofLaw o At) {bs : List UInt8} (h0 : 0 < bs.length) (junk : Nat → UInt8) {w b a fuel : Nat} (hf : bs.length + 1 < fuel) (cs : List Chan) :
    ∀ (status : Bool) (t : Scan σ) (p : Nat), (∀ c ∈ cs, c.type &&& 0x0F ≠ 1 ∧ ∀ i ∈ compsOf c.chan, i < b) → At t.inp bs p → p ≤ bs.length → a + w * b ≤ t.data.length →
    Holds (readScanline o junk fuel w b a cs status t) (Fine At bs t.data.length p) := by
  induction cs with
  | nil => intro status t p _ h hp _; exact Holds.pure ⟨rfl, p, h, fun _ => ⟨Nat.le_refl _, hp⟩⟩
  | cons c cs ih =>
    intro status t p hcs h hp ha
    obtain ⟨hc1, hc2⟩ := hcs c List.mem_cons_self
    unfold readScanline
    refine Holds.bind (P := Fine At bs t.data.length p) ?_ (fun r hr => ?_)
    · rw [if_neg hc1, offs_eq]
      refine Holds.ite (fun _ => readRaw_safe L E h0 _ hc2 { t with ok := true } h hp ha) (fun _ => ?_)
      refine Holds.ite (fun _ => readMixed_safe L E h0 junk _ hc2 { t with ok := true } h hp ha hf) (fun _ => ?_)
      exact Holds.pure ⟨rfl, p, h, fun _ => ⟨Nat.le_refl _, hp⟩⟩
    · obtain ⟨r1, q, r2, r3⟩ := hr
      refine Holds.ite (fun hn => Holds.pure ⟨r1, q, r2, r3⟩) (fun hn => ?_)
      have hok : r.ok = true := by simpa using hn
      obtain ⟨q1, q2⟩ := r3 hok
      refine (ih true r q (fun c hc => hcs c (List.mem_cons_of_mem _ hc)) r2 q2 (by omega)).mono (fun u hu => ?_)
      obtain ⟨u1, v, u2, u3⟩ := hu
      exact ⟨u1.trans r1, v, u2, fun e => ⟨by have := (u3 e).1; omega, (u3 e).2⟩⟩

theorem scanlines_safe (L : Laws2 o At) (E : EofLaw o At) {bs : List UInt8} (h0 : 0 < bs.length) (junk : Nat → UInt8) {w h fuel : Nat} (hf : bs.length + 1 < fuel) (cs : List Chan)
    (hcs : ∀ c ∈ cs, c.type &&& 0x0F ≠ 1) (t : Scan σ) {p : Nat} (hA : At t.inp bs p) (hp : p ≤ bs.length) (hfit : w * h * 4 ≤ t.data.length) :
    Holds (readScanlines o junk fuel w h 4 cs t) (Fine At bs t.data.length p) := by
  unfold readScanlines
  refine Holds.loop (fun _ r => Fine At bs t.data.length p r) ⟨rfl, p, hA, fun _ => ⟨Nat.le_refl _, hp⟩⟩ (fun i r hi hr => ?_)
  obtain ⟨r1, q, r2, r3⟩ := hr
  refine Holds.ite (fun _ => Holds.pure ⟨r1, q, r2, r3⟩) (fun hn => ?_)
  obtain ⟨q1, q2⟩ := r3 (by simpa using hn)
  have hb : ((h - 1 - i) * w + w) * 4 ≤ w * h * 4 := by
    refine Nat.mul_le_mul_right _ ?_
    rw [← Nat.succ_mul, Nat.mul_comm w h]
    exact Nat.mul_le_mul_right _ (by omega)
  refine (scanline_safe L E h0 junk hf cs false r q (fun c hc => ⟨hcs c hc, fun i hi => compsOf_lt hi⟩) r2 q2 (by rw [r1]; omega)).mono (fun u hu => ?_)
  obtain ⟨u1, v, u2, u3⟩ := hu
  exact ⟨u1.trans r1, v, u2, fun e => ⟨by have := (u3 e).1; omega, (u3 e).2⟩⟩

/-! ### Any list of packets -/

theorem chanStep_any (L : Laws2 o At) (E : EofLaw o At) {bs : List UInt8} {t : Chans σ} {p : Nat} {c s' t' n' : UInt8} (h : At t.inp bs p) (hn : Next bs p [c, s', t', n']) :
    Holds (chanStep o t) (fun r => r.list = t.list ++ [⟨s', t', n'⟩] ∧ r.ok = decide (p + 4 < bs.length) ∧ r.more = (decide (p + 4 < bs.length) && decide (c ≠ 0)) ∧ At r.inp bs (p + 4)) := by
  have hle := Psd.Next.le hn (by simp)
  simp only [List.length_cons, List.length_nil] at hle
  unfold chanStep
  refine (getb_full L.toLaws h hn.head).bind (fun r1 g1 => ?_)
  obtain ⟨v1, s1⟩ := r1; obtain ⟨rfl, g1⟩ := g1
  refine (getb_full L.toLaws g1 hn.tail.head).bind (fun r2 g2 => ?_)
  obtain ⟨v2, s2⟩ := r2; obtain ⟨rfl, g2⟩ := g2
  refine (getb_full L.toLaws g2 hn.tail.tail.head).bind (fun r3 g3 => ?_)
  obtain ⟨v3, s3⟩ := r3; obtain ⟨rfl, g3⟩ := g3
  refine (getb_full L.toLaws g3 hn.tail.tail.tail.head).bind (fun r4 g4 => ?_)
  obtain ⟨v4, s4⟩ := r4; obtain ⟨rfl, g4⟩ := g4
  simp only at g4 ⊢
  obtain ⟨e1, e2⟩ := E g4 (by omega) (by omega)
  rw [e1]
  by_cases he : bs.length ≤ p + 1 + 1 + 1 + 1
  · rw [if_pos (decide_eq_true he), show decide (p + 4 < bs.length) = false from decide_eq_false (by omega)]
    exact Holds.pure ⟨rfl, rfl, rfl, e2⟩
  · rw [if_neg (by simpa using he), show decide (p + 4 < bs.length) = true from decide_eq_true (by omega), Bool.true_and]
    exact Holds.pure ⟨rfl, rfl, rfl, e2⟩

theorem list_any (L : Laws2 o At) (E : EofLaw o At) {bs : List UInt8} : ∀ (fuel : Nat) (t : Chans σ) (p : Nat) (ps : List Packet), t.more = true → At t.inp bs p →
    packetsOf (bs.drop p) = some ps → bs.length - p + 1 < fuel →
    Holds (whileF (fun t : Chans σ => t.more) (chanStep o) fuel t) (fun r => r.list = t.list ++ ps.map toChan ∧ ∃ q, At r.inp bs q ∧ q ≤ bs.length) := by
  intro fuel
  induction fuel with
  | zero => intro t p ps _ _ _ h; omega
  | succ fuel ih =>
    intro t p ps hm h hps hf
    unfold whileF
    rw [if_pos hm]
    match hd : bs.drop p, hps with
    | c :: s :: t' :: n :: r, hps =>
      have hn : Next bs p [c, s, t', n] := next_drop (r := r) hd
      have hr : r = bs.drop (p + 4) := by
        have := congrArg (List.drop 4) hd
        rw [List.drop_drop] at this
        exact this.symm
      have hle := Psd.Next.le hn (by simp)
      simp only [List.length_cons, List.length_nil] at hle
      refine (chanStep_any L E h hn).bind (fun u hu => ?_)
      obtain ⟨u1, u2, u3, u4⟩ := hu
      unfold packetsOf at hps
      by_cases hc : c = 0
      · rw [if_pos hc] at hps
        obtain rfl := Option.some.inj hps
        obtain ⟨fuel, rfl⟩ : ∃ m, fuel = m + 1 := ⟨fuel - 1, by omega⟩
        unfold whileF
        rw [if_neg (by rw [u3]; simp [hc])]
        exact Holds.ok ⟨u1, _, u4, by omega⟩
      · rw [if_neg hc] at hps
        cases hp' : packetsOf r with
        | none => rw [hp'] at hps; cases hps
        | some ps' =>
          rw [hp'] at hps
          obtain rfl := Option.some.inj hps
          have hlt : p + 4 < bs.length := by
            rcases Nat.lt_or_ge (p + 4) bs.length with hlt | hge
            · exact hlt
            · rw [hr, List.drop_of_length_le hge] at hp'
              cases hp'
          refine (ih u (p + 4) ps' (by rw [u3]; simp [hlt, hc]) u4 (by rw [← hr]; exact hp') (by omega)).mono (fun v hv => ?_)
          exact ⟨by rw [hv.1, u1, List.append_assoc]; rfl, hv.2⟩

theorem short_wide {v : Nat} (hv : v < 65536) : short v = 0 ∨ (short v = v ∧ wide v = v ∧ v < 32768) := by
  unfold short wide
  by_cases h : v < 32768
  · right; rw [if_pos h, if_pos h]; exact ⟨rfl, rfl, h⟩
  · left; rw [if_neg h]

theorem be_lt (l : List UInt8) : be l < 256 ^ l.length := by
  unfold be
  rw [← List.length_reverse]
  generalize l.reverse = m
  induction m with
  | nil => decide
  | cons b m ih =>
    have := b.toNat_lt
    simp only [le, List.length_cons, Nat.pow_succ]
    omega

theorem load_safe (L : Laws2 o At) (E : EofLaw o At) (junk : Nat → UInt8) {fuel : Nat} (cur : Loaded) {bs : List UInt8} (hl : 104 ≤ bs.length) (hf : bs.length + 1 < fuel) {ps : List Packet}
    (hps : packetsOf (bs.drop 104) = some ps) (hal : ∃ p ∈ ps, 3 ∈ compsOf p.chan) (hno : ∀ p ∈ ps, p.type &&& 0x0F ≠ 1) {s : σ} (hA : At s bs 0) :
    Holds (iLoadPicInternal o junk fuel cur s) (fun r => (r.2.1 = cur ∨ (r.2.1.2 = none ∧ r.2.1.1.data.length = r.2.1.1.size)) ∧ ∃ q, At r.2.2 bs q) := by
  unfold iLoadPicInternal
  refine (head_spec L.toLaws junk bs fields s 0 hA (by decide)).bind (fun r hr => ?_)
  obtain ⟨hh, s0⟩ := r
  obtain ⟨-, h2, h3⟩ := hr
  simp only at h2 h3 ⊢
  have hA1 := h2 (by show 0 + 104 ≤ _; omega)
  refine Holds.ite (fun _ => Holds.pure ⟨.inl rfl, _, hA1⟩) (fun _ => ?_)
  refine (list_any L E fuel ⟨[], s0, true, true⟩ 104 ps rfl hA1 hps (by omega)).bind (fun u hu => ?_)
  obtain ⟨u1, q, u2, u3⟩ := hu
  refine Holds.ite (fun _ => Holds.pure ⟨.inl rfl, _, u2⟩) (fun _ => ?_)
  have f4 : fbe hh 4 < 65536 := by
    show be (fld hh 4) < _
    rw [h3 4 u16 rfl (by show 0 + 92 + 2 ≤ _; omega)]
    refine Nat.lt_of_lt_of_le (be_lt _) (show _ ≤ 256 ^ 2 from Nat.pow_le_pow_right (by decide) ?_)
    show (at_ bs _ 2).length ≤ 2
    rw [at_length]; omega
  have f5 : fbe hh 5 < 65536 := by
    show be (fld hh 5) < _
    rw [h3 5 u16 rfl (by show 0 + 94 + 2 ≤ _; omega)]
    refine Nat.lt_of_lt_of_le (be_lt _) (show _ ≤ 256 ^ 2 from Nat.pow_le_pow_right (by decide) ?_)
    show (at_ bs _ 2).length ≤ 2
    rw [at_length]; omega
  have ha : (u.list.any fun c => decide (c.chan &&& 0x10 ≠ 0)) = true := by
    rw [u1, List.nil_append]
    exact (alpha_any ps).mpr hal
  simp only [ha, if_true]
  refine (scanlines_safe L E (by omega) junk (w := short (fbe hh 4)) (h := short (fbe hh 5)) hf u.list (fun c hc => ?_)
    ⟨(tex junk (wide (fbe hh 4)) (wide (fbe hh 5)) 4 IL_RGBA).data, u.inp, true⟩ u2 u3 ?_).bind (fun r hr => ?_)
  · rw [u1, List.nil_append] at hc
    obtain ⟨p, hp, rfl⟩ := List.mem_map.mp hc
    exact hno p hp
  · show _ ≤ (tex junk _ _ 4 IL_RGBA).data.length
    rcases short_wide f4 with e | ⟨e1, e2, e3⟩
    · rw [e, Nat.zero_mul, Nat.zero_mul]; exact Nat.zero_le _
    · rcases short_wide f5 with e | ⟨g1, g2, g3⟩
      · rw [e, Nat.mul_zero, Nat.zero_mul]; exact Nat.zero_le _
      · rw [e1, e2, g1, g2]
        by_cases z : 0 < fbe hh 4 ∧ 0 < fbe hh 5
        · rw [tex_len, (tex_fields junk _ _ 4 IL_RGBA z.1 z.2 (by decide) (whole_fit e3 g3 (by decide))).2.2.2.2.2.2.2.2]
        · have : fbe hh 4 * fbe hh 5 = 0 := by
            rcases Nat.eq_zero_or_pos (fbe hh 4) with h | h
            · rw [h, Nat.zero_mul]
            · rw [show fbe hh 5 = 0 by omega, Nat.mul_zero]
          rw [this, Nat.zero_mul]; exact Nat.zero_le _
  · obtain ⟨r1, v, r2, -⟩ := hr
    refine Holds.pure ⟨.inr ⟨rfl, ?_⟩, v, r2⟩
    show r.data.length = _
    rw [r1]
    exact tex_len ..

/-! ### A list of packets that is cut off in a file -/

theorem getb_stop (L : Laws3 o At false) {s : σ} {bs : List UInt8} {p : Nat} (h : At s bs p) (hp : p ≤ bs.length) : Holds (getb o s) (fun r => At r.2 bs (min (p + 1) bs.length)) := by
  rcases Nat.lt_or_ge p bs.length with hlt | hge
  · refine (getb_full L.toLaws2.toLaws h (List.getElem?_eq_getElem hlt)).mono (fun r hr => ?_)
    rw [Nat.min_eq_left hlt]; exact hr.2
  · refine (L.getcStop h hge).bind (fun r hr => Holds.pure ?_)
    rw [show min (p + 1) bs.length = p by omega]
    exact hr.2.1 rfl

theorem list_cut (L : Laws3 o At false) (E : EofLaw o At) {bs : List UInt8} (h0 : 0 < bs.length) : ∀ (fuel : Nat) (t : Chans σ) (p : Nat), t.more = true → At t.inp bs p → p ≤ bs.length →
    packetsOf (bs.drop p) = none → bs.length - p + 1 < fuel →
    Holds (whileF (fun t : Chans σ => t.more) (chanStep o) fuel t) (fun r => r.ok = false ∧ ∃ q, At r.inp bs q) := by
  intro fuel
  induction fuel with
  | zero => intro t p _ _ _ _ h; omega
  | succ fuel ih =>
    intro t p hm h hp hps hf
    unfold whileF
    rw [if_pos hm]
    have few : bs.length < p + 4 → Holds (chanStep o t >>= whileF (fun t : Chans σ => t.more) (chanStep o) fuel) (fun r => r.ok = false ∧ ∃ q, At r.inp bs q) := by
      intro hlt
      have : Holds (chanStep o t) (fun r => r.ok = false ∧ r.more = false ∧ ∃ q, At r.inp bs q) := by
        unfold chanStep
        refine (getb_stop L h hp).bind (fun r1 g1 => ?_)
        refine (getb_stop L g1 (Nat.min_le_right _ _)).bind (fun r2 g2 => ?_)
        refine (getb_stop L g2 (Nat.min_le_right _ _)).bind (fun r3 g3 => ?_)
        refine (getb_stop L g3 (Nat.min_le_right _ _)).bind (fun r4 g4 => ?_)
        obtain ⟨e1, e2⟩ := E g4 (Nat.min_le_right _ _) h0
        simp only []
        rw [e1, if_pos (decide_eq_true (by omega))]
        exact Holds.pure ⟨rfl, rfl, _, e2⟩
      refine this.bind (fun r hr => ?_)
      obtain ⟨fuel, rfl⟩ : ∃ m, fuel = m + 1 := ⟨fuel - 1, by omega⟩
      unfold whileF
      rw [if_neg (by rw [hr.2.1]; decide)]
      exact Holds.ok ⟨hr.1, hr.2.2⟩
    have hlen : (bs.drop p).length = bs.length - p := List.length_drop
    match hd : bs.drop p, hps with
    | [], _ => rw [hd] at hlen; simp at hlen; exact few (by omega)
    | [_], _ => rw [hd] at hlen; simp at hlen; exact few (by omega)
    | [_, _], _ => rw [hd] at hlen; simp at hlen; exact few (by omega)
    | [_, _, _], _ => rw [hd] at hlen; simp at hlen; exact few (by omega)
    | c :: s :: t' :: n :: r, hps =>
      have hn : Next bs p [c, s, t', n] := next_drop (r := r) hd
      have hr : r = bs.drop (p + 4) := by
        have := congrArg (List.drop 4) hd
        rw [List.drop_drop] at this
        exact this.symm
      have hle := Psd.Next.le hn (by simp)
      simp only [List.length_cons, List.length_nil] at hle
      refine (chanStep_any L.toLaws2 E h hn).bind (fun u hu => ?_)
      obtain ⟨u1, u2, u3, u4⟩ := hu
      unfold packetsOf at hps
      by_cases hc : c = 0
      · rw [if_pos hc] at hps; cases hps
      · rw [if_neg hc] at hps
        have hr' : packetsOf r = none := by
          cases hp' : packetsOf r with
          | none => rfl
          | some x => rw [hp'] at hps; cases hps
        by_cases hlt : p + 4 < bs.length
        · exact ih u (p + 4) (by rw [u3]; simp [hlt, hc]) u4 hle (by rw [← hr]; exact hr') (by omega)
        · obtain ⟨fuel, rfl⟩ : ∃ m, fuel = m + 1 := ⟨fuel - 1, by omega⟩
          unfold whileF
          rw [if_neg (by rw [u3]; simp [hlt])]
          exact Holds.ok ⟨by rw [u2]; simp [hlt], _, u4⟩

theorem load_cut (L : Laws3 o At false) (E : EofLaw o At) (junk : Nat → UInt8) {fuel : Nat} (cur : Loaded) {bs : List UInt8} (hl : 104 ≤ bs.length) (hf : bs.length + 1 < fuel)
    (hps : packetsOf (bs.drop 104) = none) {s : σ} (hA : At s bs 0) :
    Holds (iLoadPicInternal o junk fuel cur s) (fun r => (r.1 = false ∧ r.2.1 = cur) ∧ ∃ q, At r.2.2 bs q) := by
  unfold iLoadPicInternal
  refine (head_spec L.toLaws2.toLaws junk bs fields s 0 hA (by decide)).bind (fun r hr => ?_)
  obtain ⟨hh, s0⟩ := r
  obtain ⟨-, h2, h3⟩ := hr
  simp only at h2 h3 ⊢
  have hA1 := h2 (by show 0 + 104 ≤ _; omega)
  refine Holds.ite (fun _ => Holds.pure ⟨⟨rfl, rfl⟩, _, hA1⟩) (fun _ => ?_)
  refine (list_cut L E (by omega) fuel ⟨[], s0, true, true⟩ 104 rfl hA1 hl hps (by omega)).bind (fun u hu => ?_)
  rw [if_pos (by rw [hu.1]; rfl)]
  exact Holds.pure ⟨⟨rfl, rfl⟩, hu.2⟩

end DevIL.Pic
