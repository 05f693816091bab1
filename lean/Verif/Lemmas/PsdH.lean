import Verif.Lemmas.PsdG
set_option autoImplicit false
namespace DevIL.Psd
open DevIL.Games DevIL.Detect DevIL.Image DevIL.DetectSpec DevIL.DpxSpec DevIL.PsdSpec DevIL.Dpx

variable {σ : Type} {o : Ops σ} {At : σ → List UInt8 → Nat → Prop}

/-! ### Alpha that is not compressed -/

/-- The alpha of a pixel in the file, times what was in memory. -/
def alphaPx (junk : Nat → UInt8) (w h : Nat) (body : List UInt8) (x y i : Nat) : Option UInt8 :=
  if i = 3 then (plainPx w h 1 body x y 3).map (fun v => UInt8.ofNat (scaled 255 (junk ((y * w + x) * 4 + 3)).toNat v.toNat)) else plainPx w h 1 body x y i

theorem one_comp {d : List UInt8} {i : Nat} (h : i < d.length) : comp 1 d i = [d[i]] := by
  unfold comp
  rw [Nat.mul_one]
  exact Detect.at_one h

theorem alloc_getD (junk : Nat → UInt8) (n i : Nat) (h : i < n) : (alloc junk n)[i]? = some (junk i) := by
  unfold alloc
  rw [List.getElem?_map, List.getElem?_range h]
  rfl

theorem alpha_data (L : Laws2 o At) (junk : Nat → UInt8) (fuel : Nat) {pre body : List UInt8} {s : σ} (hs : At s (pre ++ body) pre.length) (w h : Nat)
    (hw : 0 < w) (hh : 0 < h) (hfit : w * h * 4 < 4294967296) :
    Holds (PsdGetData o junk fuel w h 3 4 4 false (texOf junk w h 4 IL_RGBA (typeFor 1)) s) (fun r =>
      (r.1 = true ↔ w * h * 4 ≤ body.length) ∧ r.2.1.length = (texOf junk w h 4 IL_RGBA (typeFor 1)).size ∧ (∃ q, At r.2.2 (pre ++ body) q) ∧
      (r.1 = true → Shows3 { texOf junk w h 4 IL_RGBA (typeFor 1) with data := r.2.1, origin := IL_ORIGIN_UPPER_LEFT } w h 1 4 1 IL_RGBA (typeFor 1)
        (fun x y _ i => alphaPx junk w h body x y i))) := by
  obtain ⟨g1, g2, g3, g4, g5, g6, g7⟩ := texOf_fields junk w h 4 IL_RGBA 1 hw hh (by decide) (.inl rfl) (by simpa using hfit)
  have hjunk : (texOf junk w h 4 IL_RGBA (typeFor 1)).data = alloc junk (h * w * 4) := by
    show alloc junk (texOf junk w h 4 IL_RGBA (typeFor 1)).size = _
    rw [g6, Nat.mul_one]
  have hsh := fun d (hl : d.length = h * w * 4) => geo_shows w h 1 4 IL_RGBA IL_RGBA (typeFor 1) 1 hw hh (by decide) (by decide) (by decide) (by decide)
    (by simpa using hfit) d (by rw [hl, Nat.mul_comm h w]; omega) (fun x y _ i => alphaPx junk w h body x y i)
  have hsh : ∀ d, d.length = h * w * 4 → _ → Shows3 { texOf junk w h 4 IL_RGBA (typeFor 1) with data := d, origin := IL_ORIGIN_UPPER_LEFT } w h 1 4 1 IL_RGBA (typeFor 1)
        (fun x y _ i => alphaPx junk w h body x y i) := hsh
  generalize texOf junk w h 4 IL_RGBA (typeFor 1) = m at *
  simp only [Nat.mul_one] at g4 g6 g7
  have hwh : w * h = h * w := Nat.mul_comm w h
  have hf2 : h * (w * 4) * 1 < 4294967296 := by rw [Nat.mul_one, ← Nat.mul_assoc, ← hwh]; exact hfit
  unfold PsdGetData
  rw [g2] at g3 g7
  rw [Nat.mul_one] at g7
  have hn3 : numChan 3 = 3 := rfl
  simp only [g1, g2, g3, g7, hn3, Nat.mul_one, Bool.not_false, Bool.false_eq_true, false_and, if_false, if_true]
  have hrl := raw_loop L (P := pre.length) (rows := h) (k := 1) (bpp := 4) 3 (by decide) (by decide) hw hh hf2 ⟨m.data, alloc junk (h * w), s, true⟩ hs rfl (by simp) (by rw [g4, Nat.mul_one])
    (by rw [alloc_length, Nat.mul_one])
  simp only [Nat.mul_one] at hrl
  refine hrl.bind (fun r hr => ?_)
  obtain ⟨h1, ⟨q, hq⟩, h3, h4, h5⟩ := hr
  generalize hn : h * w = n at *
  have hn0 : 0 < n := by rw [← hn]; exact Nat.mul_pos hh hw
  show Holds ((rawChan o 1 n h (w * 4) 4 3 (timesAlpha 1) r >>= fun s => pure s) >>= _) _
  unfold rawChan
  by_cases hrk : r.ok = true
  · obtain ⟨h6, h7⟩ := h5 hrk
    simp only [hrk, Bool.not_true, Bool.false_eq_true, if_false]
    have hle := h1.mp hrk
    refine Holds.bind (P := fun q : Chan σ => (q.ok = true ↔ w * h * 4 ≤ body.length) ∧ q.data.length = n * 4 ∧ (∃ p, At q.inp (pre ++ body) p) ∧
      (q.ok = true → ∀ i, i < n * 4 → comp 1 q.data i = if i % 4 = 3 then timesAlpha 1 (comp 1 (alloc junk (n * 4)) i) (comp 1 (at_ (pre ++ body) (pre.length + 3 * n) n) (i / 4))
        else comp 1 (at_ (pre ++ body) (pre.length + i % 4 * n) n) (i / 4))) ?_ (fun q hq => ?_)
    · refine Holds.bind ?_ (fun s hs => Holds.pure hs)
      refine (into_spec L r.ch n 1 h6 hn0 (by omega) (by omega)).bind (fun t ht => ?_)
      obtain ⟨e1, e2, e3⟩ := ht
      rw [Nat.mul_one] at e1 e2 e3
      have hl : (at_ (pre ++ body) (pre.length + 3 * n) n).length = min n ((pre ++ body).length - (pre.length + 3 * n)) := at_length _ _ _
      have hll : (pre ++ body).length = pre.length + body.length := List.length_append
      refine Holds.ite (fun hne => Holds.pure ⟨⟨fun h => (by cases h), fun hle => absurd ?_ hne⟩, h3, ⟨_, e3⟩, fun h => (by cases h)⟩) (fun he => ?_)
      · rw [e1, hl, Nat.min_eq_left (by omega), Nat.div_self hn0]
      · have hfull : pre.length + 3 * n + n ≤ (pre ++ body).length := by
          rcases Nat.lt_or_ge ((pre ++ body).length - (pre.length + 3 * n)) n with hlt | hge
          · rw [e1, hl, Nat.min_eq_right (by omega), Nat.div_eq_of_lt hlt] at he
            exact absurd he (by decide)
          · omega
        have hfl : (at_ (pre ++ body) (pre.length + 3 * n) n).length = n := by rw [hl]; omega
        rw [hfl, List.drop_of_length_le (by omega), List.append_nil] at e2
        have hsp := spread_spec (k := 1) (rows := h) (w := w) (bpp := 4) (c := 3) (timesAlpha 1) t.2.1 r.data (by decide) hw (by decide) (by omega) (by rw [e2, hfl]; omega) (by rw [h3]; omega)
          (fun a b _ _ => by unfold timesAlpha; rw [leBytes_length])
        rw [hn] at hsp
        refine hsp.bind (fun d' hd' => Holds.pure ⟨⟨fun _ => by omega, fun _ => rfl⟩, by rw [hd'.1, h3], ⟨_, e3⟩, fun _ i hi => ?_⟩)
        show comp 1 d' i = _
        rw [hd'.2 i hi]
        by_cases hm : i % 4 = 3
        · rw [if_pos hm, if_pos hm, h7.keep i hi (by omega), e2, hjunk]
        · rw [if_neg hm, if_neg hm, h7.comps i hi (by omega)]
          have hi4 : i / 4 < n := by omega
          have hb : pre.length + (i % 4 + 1) * n ≤ (pre ++ body).length := by
            have := Nat.mul_le_mul_right n (show i % 4 + 1 ≤ 4 by omega)
            omega
          rw [Nat.succ_mul] at hb
          have : i / 4 < (at_ (pre ++ body) (pre.length + i % 4 * n) n).length := by rw [at_length]; omega
          rw [one_comp this]
          rfl
    · obtain ⟨q1, q2, q3, q4⟩ := hq
      refine Holds.pure ⟨q1, by show q.data.length = m.size; rw [q2, g6], q3, fun hok => ?_⟩
      have fin := hsh q.data q2 (fun x y z i hx hy hz hi => ?_)
      · simp only [g1, g2] at fin
        exact fin
      have hcmp := q4 hok
      have hz0 : z = 0 := by omega
      have hle4 := q1.mp hok
      have hp : y * w + x < n := by
        have : y * w + w ≤ h * w := by rw [← Nat.succ_mul]; exact Nat.mul_le_mul_right w hy
        omega
      have hi4 : i < 4 := by omega
      have hidx : (y * w + x) * 4 + i < n * 4 := by omega
      have hc := hcmp _ hidx
      rw [show ((y * w + x) * 4 + i) % 4 = i by omega, show ((y * w + x) * 4 + i) / 4 = y * w + x by omega] at hc
      rw [hz0, Nat.zero_mul, Nat.zero_add, show 4 * 1 = 4 from rfl]
      have hlq : (y * w + x) * 4 + i < q.data.length := by omega
      rw [one_comp hlq] at hc
      rw [List.getElem?_eq_getElem hlq]
      have hbyte := plain_bytes w h 1 pre body (.inl rfl) x y i hx hy
      rw [Nat.div_one, Nat.mod_one, Nat.mul_one, Nat.mul_one, hn] at hbyte
      have hlp : ∀ c, c < 4 → (at_ (pre ++ body) (pre.length + c * n) n).length = n := by
        intro c hc
        rw [at_length, List.length_append]
        have := Nat.mul_le_mul_right n (show c + 1 ≤ 4 by omega)
        rw [Nat.succ_mul] at this
        omega
      unfold alphaPx
      by_cases h3i : i = 3
      · subst h3i
        rw [if_pos rfl] at hc ⊢
        have hlj : (y * w + x) * 4 + 3 < (alloc junk (n * 4)).length := by rw [alloc_length]; exact hidx
        have hl3 : y * w + x < (at_ (pre ++ body) (pre.length + 3 * n) n).length := by rw [hlp 3 (by decide)]; exact hp
        rw [one_comp hlj, one_comp hl3] at hc
        rw [← hbyte, show y * w + x + (1 - 1 - 0) = y * w + x by omega, List.getElem?_eq_getElem hl3, Option.map_some]
        have ej : (alloc junk (n * 4))[(y * w + x) * 4 + 3] = junk ((y * w + x) * 4 + 3) := by
          have := alloc_getD junk (n * 4) _ hidx
          rw [List.getElem?_eq_getElem hlj] at this
          exact Option.some.inj this
        rw [ej] at hc
        have := (List.cons.inj hc).1
        rw [this]
        congr 2
      · rw [if_neg h3i] at hc ⊢
        have hl3 : y * w + x < (at_ (pre ++ body) (pre.length + i * n) n).length := by rw [hlp i hi4]; exact hp
        rw [one_comp hl3] at hc
        rw [← hbyte, show y * w + x + (1 - 1 - 0) = y * w + x by omega, List.getElem?_eq_getElem hl3, (List.cons.inj hc).1]
  · have hf : r.ok = false := by simpa using hrk
    simp only [hf, Bool.not_false, if_true]
    have hll : (pre ++ body).length = pre.length + body.length := List.length_append
    have hno : ¬ (w * h * 4 ≤ body.length) := fun hle => hrk (h1.mpr (by omega))
    exact Holds.pure ⟨⟨fun h => (by cases (hf.symm.trans h)), fun h => absurd h hno⟩, by show r.data.length = m.size; rw [h3, g6], ⟨q, hq⟩, fun h => (by cases (hf.symm.trans h))⟩

theorem alpha_file (L : Laws2 o At) (junk : Nat → UInt8) (fuel : Nat) (d : Doc) (hd : d.Ok) (body : List UInt8) {s : σ} (hs : At s (d.before 0 ++ body) 0) (cur : Loaded)
    (hdepth : d.depth = 8) (hop : d.Alpha 4 IL_RGBA) (hfit : d.width * d.height * 4 < 4294967296) :
    Holds (iLoadPsdInternal o junk fuel cur s) (fun r => Result (d.width * d.height * 4 ≤ body.length) d.width d.height 4 1 IL_RGBA (alphaPx junk d.width d.height body) r.1 r.2.1 ∧
      ∃ q, At r.2.2 (d.before 0 ++ body) q) := by
  refine plain_start L junk fuel d hd 0 (by decide) body hs cur (.inl rfl) hdepth (.inr hop) _ (fun t ht hlt => ?_)
  rw [hop.1, hop.2.1]
  exact image_of junk fuel 3 4 4 false d.resources hd.resources hlt (alpha_data L junk fuel ht d.width d.height hd.width.1 hd.height.1 hfit)

/-! ### CMYK -/

theorem blacken3_ok (key d : List UInt8) (n : Nat) (hk : n ≤ key.length) (hd : d.length = n * 3) :
    Holds (blacken3 (n * 3) key d) (fun d' => d'.length = n * 3 ∧ ∀ p c, p < n → c < 3 → d'[p * 3 + c]? = (d[p * 3 + c]?).bind (fun a => (key[p]?).map (timesK a))) := by
  unfold blacken3
  rw [forStep_mul (by decide)]
  refine Holds.bind (P := fun t : List UInt8 × Nat => t.2 = n ∧ t.1.length = n * 3 ∧ ∀ p c, p < n → c < 3 →
    t.1[p * 3 + c]? = if p < n then (d[p * 3 + c]?).bind (fun a => (key[p]?).map (timesK a)) else d[p * 3 + c]?) ?_ (fun r hr => Holds.pure ⟨hr.2.1, fun p c hp hc => ?_⟩)
  · refine Holds.loop (fun k (t : List UInt8 × Nat) => t.2 = k ∧ t.1.length = n * 3 ∧ ∀ p c, p < n → c < 3 →
      t.1[p * 3 + c]? = if p < k then (d[p * 3 + c]?).bind (fun a => (key[p]?).map (timesK a)) else d[p * 3 + c]?)
      ⟨rfl, hd, fun p c _ _ => by rw [if_neg (by omega)]⟩ (fun k t hk' ht => ?_)
    obtain ⟨h1, h2, h3⟩ := ht
    have g : ∀ c, (hc : c < 3) → ∀ (hl : k * 3 + c < t.1.length), some (timesK t.1[k * 3 + c] key[k]) = (d[k * 3 + c]?).bind (fun a => (key[k]?).map (timesK a)) := by
      intro c hc hl
      have := h3 k c hk' hc
      rw [if_neg (by omega)] at this
      rw [← this, List.getElem?_eq_getElem hl, List.getElem?_eq_getElem (by omega)]
      rfl
    have g0 := g 0 (by decide) (by omega)
    have g1 := g 1 (by decide) (by omega)
    have g2 := g 2 (by decide) (by omega)
    rw [h1, rd_of_lt (by omega), bind_ok, rd_of_lt (by omega), bind_ok, wr_of_lt (by omega), bind_ok, rd_of_lt (by rw [List.length_set]; omega), bind_ok,
      wr_of_lt (by rw [List.length_set]; omega), bind_ok, rd_of_lt (by rw [List.length_set, List.length_set]; omega), bind_ok,
      wr_of_lt (by rw [List.length_set, List.length_set]; omega), bind_ok]
    simp only [List.getElem_set, show ¬ (k * 3 = k * 3 + 1) by omega, show ¬ (k * 3 = k * 3 + 2) by omega, show ¬ (k * 3 + 1 = k * 3 + 2) by omega, if_false]
    refine Holds.pure ⟨rfl, by simp [h2], fun p c hp hc => ?_⟩
    show ((((t.1.set (k * 3) _).set (k * 3 + 1) _).set (k * 3 + 2) _))[p * 3 + c]? = _
    simp only [List.getElem?_set, List.length_set]
    by_cases hpk : p = k
    · subst hpk
      rw [if_pos (Nat.lt_succ_self p)]
      have h0 : c = 0 ∨ c = 1 ∨ c = 2 := by omega
      rcases h0 with rfl | rfl | rfl
      · rw [if_neg (by omega), if_neg (by omega), if_pos (by omega), if_pos (by omega)]; exact g0
      · rw [if_neg (by omega), if_pos (by omega), if_pos (by omega)]; exact g1
      · rw [if_pos (by omega), if_pos (by omega)]; exact g2
    · rw [if_neg (by omega), if_neg (by omega), if_neg (by omega), h3 p c hp hc]
      by_cases hlt : p < k
      · rw [if_pos hlt, if_pos (by omega)]
      · rw [if_neg hlt, if_neg (by omega)]
  · rw [hr.2.2 p c hp hc, if_pos hp]

theorem cmyk_file (L : Laws2 o At) (junk : Nat → UInt8) (fuel : Nat) (d : Doc) (hd : d.Ok) (body : List UInt8) {s : σ} (hs : At s (d.before 0 ++ body) 0) (cur : Loaded)
    (hdepth : d.depth = 8) (hmode : d.mode = 4) (hch : d.channels = 4) (hfit : d.width * d.height * 3 < 4294967296) (hfull : d.width * d.height * 4 ≤ body.length) :
    Holds (iLoadPsdInternal o junk fuel cur s) (fun r => Result True d.width d.height 3 1 IL_RGB (blackPx d.width d.height body) r.1 r.2.1 ∧
      ∃ q, At r.2.2 (d.before 0 ++ body) q) := by
  have hn : Next (d.before 0 ++ body) 0 (d.before 0) := next_drop (r := body) (by simp)
  have hbody : (d.before 0 ++ body).length = (d.before 0).length + body.length := List.length_append
  have hplen : (d.before 0).length = 26 + (section_ d.colours).length + (section_ (d.resources.flatMap Resource.bytes)).length + (section_ d.layers).length + 2 := by
    simp only [Doc.before, Doc.head, List.length_append, List.length_cons, List.length_nil, List.length_replicate, num_length]
  have hlen := L.len hs
  have hraw := fun (t : σ) (ht : At t (d.before 0 ++ body) (d.before 0).length) =>
    plain_raw L junk fuel ht d.width d.height 3 IL_RGB 1 4 4 hd.width.1 hd.height.1 rfl (.inl rfl) (by simpa using hfit)
  have hbytes := fun x y i hx hy => plain_bytes d.width d.height 1 (d.before 0) body (.inl rfl) x y i hx hy
  generalize hpre : d.before 0 = pre at *
  have hn : Next (pre ++ body) 0 (d.head ++ section_ d.colours ++ section_ (d.resources.flatMap Resource.bytes) ++ section_ d.layers ++ num 2 0) := by
    have e : d.head ++ section_ d.colours ++ section_ (d.resources.flatMap Resource.bytes) ++ section_ d.layers ++ num 2 0 = pre := hpre
    rw [e]; exact hn
  have p5 := hn.right; have q4 := hn.left
  have p4 := q4.right; have q3 := q4.left
  have p3 := q3.right; have q2 := q3.left
  have p2 := q2.right; have p1 := q2.left
  have hh : d.head.length = 26 := by simp [Doc.head]
  simp only [List.length_append, hh, Nat.zero_add] at p2 p3 p4 p5
  unfold iLoadPsdInternal
  refine (head_ok L junk d hd hs p1 (by omega) (by omega)).bind (fun r hr => ?_)
  obtain ⟨hd', t⟩ := r
  obtain ⟨h1, h2, h3, h4, h5, h6, h7⟩ := hr
  simp only [] at h1 h2 h3 h4 h5 h6 h7 ⊢
  rw [h1]
  simp only [Bool.not_true, Bool.false_eq_true, if_false]
  rw [if_neg (by omega), if_neg (by omega), if_pos (by omega)]
  unfold readCMYK
  refine (skip_ok L junk h7 p2).bind (fun t ht => ?_)
  refine (section_ok L junk ht p3).bind (fun r hr => ?_)
  obtain ⟨res, t⟩ := r
  obtain ⟨hres, ht⟩ := hr
  simp only [] at hres
  subst hres
  refine (skip_ok L junk ht p4).bind (fun t ht => ?_)
  refine (compression_ok L junk ht p5 (by decide)).bind (fun r hr => ?_)
  obtain ⟨packed, t⟩ := r
  obtain ⟨hpk, ht⟩ := hr
  simp only [] at hpk ht
  subst hpk
  have hty : typeOf (fbe hd' 6) = some (typeFor 1) := by rw [h5, hdepth]; rfl
  simp only [hty, h2, h3, h4, hch, Nat.reduceSub, if_true]
  rw [if_neg (by omega)]
  have hrl : (d.resources.flatMap Resource.bytes).length < 4294967296 := by rw [section_length, section_length, section_length] at hplen; omega
  rw [← hplen] at ht
  have w0 := hd.width.1
  have h0 := hd.height.1
  obtain ⟨f1, f2, f3, f4, f5, f6, f7⟩ := texOf_fields junk d.width d.height 3 IL_RGB 1 w0 h0 (by decide) (.inl rfl) (by simpa using hfit)
  have fw : (texOf junk d.width d.height 3 IL_RGB (typeFor 1)).width = d.width ∧ (texOf junk d.width d.height 3 IL_RGB (typeFor 1)).height = d.height := by
    obtain ⟨a, b, -⟩ := geo_size d.width d.height 1 3 IL_RGB (typeFor 1) 1 w0 h0 (by decide) (by decide) (by decide) (by decide) (by simpa using hfit)
    exact ⟨a, b⟩
  show Holds (PsdGetData o junk fuel d.width d.height 4 3 4 false (texOf junk d.width d.height 3 IL_RGB (typeFor 1)) t >>= _) _
  refine (hraw t ht).bind (fun r hr => ?_)
  obtain ⟨ok, dt, t⟩ := r
  obtain ⟨r1, r2, -, r4⟩ := hr
  have hok : ok = true := r1.mpr (by omega)
  subst hok
  obtain ⟨a1, a2⟩ := r4 rfl
  simp only [] at a1 a2 r2
  have hsz : d.width * d.height * (3 * 1) = 3 * (d.height * d.width) := by rw [Nat.mul_comm d.width]; omega
  rw [hsz] at a1
  have hwh : u32 (d.width * d.height * 1) = d.height * d.width := by rw [Nat.mul_one, u32_of_lt (by omega), Nat.mul_comm]
  have hsh := fun dd (hl : dd.length = d.height * d.width * 3) => geo_shows d.width d.height 1 3 IL_RGB IL_RGB (typeFor 1) 1 w0 h0 (by decide) (by decide) (by decide) (by decide)
    (by simpa using hfit) dd (by rw [hl, Nat.mul_comm d.height]; omega) (fun x y _ i => blackPx d.width d.height body x y i)
  have hsh : ∀ dd, dd.length = d.height * d.width * 3 → _ → Shows3 { texOf junk d.width d.height 3 IL_RGB (typeFor 1) with data := dd, origin := IL_ORIGIN_UPPER_LEFT } d.width d.height 1 3 1
      IL_RGB (typeFor 1) (fun x y _ i => blackPx d.width d.height body x y i) := hsh
  have hbuf : u32 (1 * d.width * d.height) = d.height * d.width := by rw [Nat.one_mul, u32_of_lt (by omega), Nat.mul_comm]
  show Holds (GetSingleChannel o fuel d.width d.height (texOf junk d.width d.height 3 IL_RGB (typeFor 1)).bpc false
    (alloc junk (u32 ((texOf junk d.width d.height 3 IL_RGB (typeFor 1)).bpc * (texOf junk d.width d.height 3 IL_RGB (typeFor 1)).width * (texOf junk d.width d.height 3 IL_RGB (typeFor 1)).height))) t >>= _) _
  rw [f2, fw.1, fw.2, hbuf]
  generalize texOf junk d.width d.height 3 IL_RGB (typeFor 1) = m at *
  unfold GetSingleChannel
  simp only [Bool.not_false, if_true]
  rw [hwh]
  have hcm := Nat.mul_comm d.width d.height
  generalize hnn : d.height * d.width = n at *
  have hn0 : 0 < n := by rw [← hnn]; exact Nat.mul_pos h0 w0
  refine Holds.bind (P := fun r : Bool × List UInt8 × σ => r.1 = true ∧ r.2.1 = at_ (pre ++ body) (pre.length + 3 * n) n ∧ ∃ q, At r.2.2 (pre ++ body) q) ?_ (fun r hr => ?_)
  · refine (into_full L (alloc junk n) n 1 a1 hn0 (by omega) (by rw [alloc_length]; omega) (by omega)).bind (fun r hr => Holds.pure ⟨?_, ?_, _, hr.2.2⟩)
    · show decide (r.1 = 1) = true
      rw [hr.1]; rfl
    · show r.2.1 = _
      rw [hr.2.1, Nat.mul_one]
  · obtain ⟨okk, key, u⟩ := r
    obtain ⟨b1, b2, b3⟩ := hr
    simp only [] at b1 b2 b3
    subst b1
    simp only [Bool.not_true, Bool.false_eq_true, if_false]
    have hkl : key.length = n := by rw [b2, at_length]; omega
    show Holds (blacken3 m.size key dt >>= _) _
    rw [f6, Nat.mul_one]
    refine (blacken3_ok key dt n (by omega) (by omega)).bind (fun dd hdd => ?_)
    rw [resources_ok d.resources hd.resources hrl, bind_ok]
    refine Holds.pure ⟨⟨⟨fun _ => trivial, fun _ => rfl⟩, hdd.1, fun _ => ⟨rfl, ?_⟩⟩, b3⟩
    have fin := hsh dd hdd.1 (fun x y z i hx hy hz hi => ?_)
    · simp only [f2, f6, fw.1, fw.2, Nat.mul_one] at fin
      exact fin
    have hz0 : z = 0 := by omega
    have hp : y * d.width + x < n := by
      have : y * d.width + d.width ≤ d.height * d.width := by rw [← Nat.succ_mul]; exact Nat.mul_le_mul_right _ hy
      omega
    rw [hz0, Nat.zero_mul, Nat.zero_add, show 3 * 1 = 3 from rfl, hdd.2 _ i hp (by omega)]
    unfold blackPx
    have e3 := hbytes x y 3 hx hy
    have ei := stored_px (k := 1) (bpp := 3) (w := d.width) (h := d.height) (by decide) w0 (by decide) (by rw [hnn]; exact a2)
      (fun c hc => by
        have := Nat.mul_le_mul_right n (show c + 1 ≤ 3 by omega)
        rw [Nat.succ_mul] at this
        simp only [Nat.mul_one]
        rw [at_length]; omega) x y i hx hy hi
    have e2 := hbytes x y i hx hy
    simp only [Nat.div_one, Nat.mod_one, Nat.mul_one] at e3 ei e2
    rw [ei, b2]
    have e4 : y * d.width + x + (1 - 1 - 0) = y * d.width + x := by omega
    rw [e4] at e3 e2 ⊢
    rw [e3, e2]
    rfl

end DevIL.Psd
