import Verif.Lemmas.PsdC
set_option autoImplicit false
namespace DevIL.Psd
open DevIL.Games DevIL.Detect DevIL.Image DevIL.DetectSpec DevIL.DpxSpec DevIL.PsdSpec DevIL.Dpx

variable {σ : Type} {o : Ops σ} {At : σ → List UInt8 → Nat → Prop}

theorem bpc_typeFor {b : Nat} (hb : b = 1 ∨ b = 2) : Utility.ilGetBpcType (typeFor b) = b := by
  rcases hb with rfl | rfl <;> decide

/-- The fields of the new image that the loader uses. -/
theorem texOf_fields (junk : Nat → UInt8) (w h k f b : Nat) (hw : 0 < w) (hh : 0 < h) (hk : 0 < k) (hb : b = 1 ∨ b = 2) (hfit : w * h * (k * b) < 4294967296) :
    let m := texOf junk w h k f (typeFor b)
    m.bpp = k ∧ m.bpc = b ∧ m.bps / m.bpc = w * k ∧ m.data.length = h * w * k * b ∧ m.type = typeFor b ∧ m.size = h * w * k * b ∧ u32 (w * h * m.bpc) = h * w * b := by
  have hb0 : 0 < b := by omega
  obtain ⟨-, -, -, h4, h5, h6, -, h8, h9⟩ := geo_size w h 1 k f (typeFor b) b hw hh (by decide) hk hb0 (bpc_typeFor hb) (by rw [Nat.mul_one]; exact hfit)
  have e : w * h * 1 * (k * b) = h * w * k * b := by rw [Nat.mul_one, Nat.mul_comm w h, Nat.mul_assoc (h * w)]
  refine ⟨h4, h5, ?_, ?_, rfl, by show (geometry w h 1 k f (typeFor b) []).size = _; rw [h8, h9, e], ?_⟩
  · show (geometry w h 1 k f (typeFor b) []).bps / (geometry w h 1 k f (typeFor b) []).bpc = _
    rw [h5, h6, Nat.mul_div_cancel _ hb0]
  · show (alloc junk (geometry w h 1 k f (typeFor b) []).size).length = _
    rw [alloc_length, h8, h9, e]
  · show u32 (w * h * (geometry w h 1 k f (typeFor b) []).bpc) = _
    rw [h5, Nat.mul_comm h w]
    refine u32_of_lt ?_
    have : w * h * b ≤ w * h * (k * b) := Nat.mul_le_mul_left _ (Nat.le_mul_of_pos_left b hk)
    omega

theorem shows_stored (junk : Nat → UInt8) (w h k f b : Nat) (hw : 0 < w) (hh : 0 < h) (hk : 0 < k) (hb : b = 1 ∨ b = 2) (hfit : w * h * (k * b) < 4294967296)
    {planes : Nat → List UInt8} {d0 d : List UInt8} (hst : Stored b k (h * w) k planes d0 d) (hpl : ∀ c, c < k → (planes c).length = h * w * b) (px : Nat → Nat → Nat → Option UInt8)
    (hpx : ∀ x y i, x < w → y < h → i < k * b → (planes (i / b))[(y * w + x) * b + (b - 1 - i % b)]? = px x y i) :
    Shows3 { texOf junk w h k f (typeFor b) with data := d, origin := IL_ORIGIN_UPPER_LEFT } w h 1 k b f (typeFor b) (fun x y _ i => px x y i) := by
  have hb0 : 0 < b := by omega
  have := geo_shows w h 1 k f f (typeFor b) b hw hh (by decide) hk hb0 (bpc_typeFor hb) (by rw [Nat.mul_one]; exact hfit) d
    (by rw [hst.len, Nat.mul_one, Nat.mul_comm w h, Nat.mul_assoc (h * w)]) (fun x y _ i => px x y i) (fun x y z i hx hy hz hi => by
      have hz0 : z = 0 := by omega
      rw [hz0, Nat.zero_mul, Nat.zero_add, stored_px hb0 hw hk hst hpl x y i hx hy hi]
      exact hpx x y i hx hy hi)
  exact this

/-- What the theorems say of a picture: whether it is accepted, and what it shows. -/
def Result (good : Prop) (w h k b f : Nat) (px : Nat → Nat → Nat → Option UInt8) (ok : Bool) (r : Img × Option Pal) : Prop :=
  (ok = true ↔ good) ∧ r.1.data.length = r.1.size ∧ (ok = true → r.2 = none ∧ Shows3 r.1 w h 1 k b f (typeFor b) (fun x y _ i => px x y i))

theorem plain_bytes (w h b : Nat) (pre body : List UInt8) (hb : b = 1 ∨ b = 2) (x y i : Nat) (hx : x < w) (hy : y < h) :
    (at_ (pre ++ body) (pre.length + i / b * (h * w * b)) (h * w * b))[(y * w + x) * b + (b - 1 - i % b)]? = plainPx w h b body x y i := by
  have hb0 : 0 < b := by omega
  have hp : y * w + x < h * w := by
    have : y * w + w ≤ h * w := by rw [← Nat.succ_mul]; exact Nat.mul_le_mul_right w hy
    omega
  have hlt : (y * w + x) * b + (b - 1 - i % b) < h * w * b := by
    have : (y * w + x) * b + b ≤ h * w * b := by rw [← Nat.succ_mul]; exact Nat.mul_le_mul_right b hp
    omega
  rw [get_at _ _ _ _ hlt, Nat.add_assoc, List.getElem?_append_right (by omega), Nat.add_sub_cancel_left]
  unfold plainPx
  congr 1
  have : ((i / b * h + y) * w + x) * b = i / b * (h * w * b) + (y * w + x) * b := by
    simp only [Nat.add_mul, Nat.mul_assoc, Nat.add_assoc]
  omega

/-- The channels of a picture that is not compressed and has no more of them than components. -/
theorem plain_raw (L : Laws2 o At) (junk : Nat → UInt8) (fuel : Nat) {pre body : List UInt8} {s : σ} (hs : At s (pre ++ body) pre.length) (w h k f b mode all : Nat)
    (hw : 0 < w) (hh : 0 < h) (hk : numChan mode = k) (hb : b = 1 ∨ b = 2) (hfit : w * h * (k * b) < 4294967296) :
    Holds (PsdGetData o junk fuel w h mode k all false (texOf junk w h k f (typeFor b)) s) (fun r =>
      (r.1 = true ↔ w * h * (k * b) ≤ body.length) ∧ r.2.1.length = h * w * k * b ∧ (∃ q, At r.2.2 (pre ++ body) q) ∧
      (r.1 = true → At r.2.2 (pre ++ body) (pre.length + w * h * (k * b)) ∧
        Stored b k (h * w) k (fun c => at_ (pre ++ body) (pre.length + c * (h * w * b)) (h * w * b)) (texOf junk w h k f (typeFor b)).data r.2.1)) := by
  have hk0 : 0 < k := by rw [← hk]; unfold numChan; split <;> decide
  have hb0 : 0 < b := by omega
  obtain ⟨g1, g2, g3, g4, g5, g6, g7⟩ := texOf_fields junk w h k f b hw hh hk0 hb hfit
  generalize texOf junk w h k f (typeFor b) = m at *
  have hsz : k * (h * w * b) = w * h * (k * b) := by simp only [Nat.mul_comm, Nat.mul_left_comm, Nat.mul_assoc]
  have hf2 : h * (w * k) * b < 4294967296 := by
    rw [show h * (w * k) * b = w * h * (k * b) by simp only [Nat.mul_comm, Nat.mul_left_comm, Nat.mul_assoc]]; exact hfit
  unfold PsdGetData
  rw [g2] at g3 g7
  simp only [g1, g2, g3, g7, hk, Nat.sub_self, loopN_zero, Bool.not_false, Bool.false_eq_true, false_and, if_false, if_true]
  refine (raw_loop L (P := pre.length) (rows := h) k (Nat.le_refl k) hb0 hw hh hf2 _ hs rfl (by simp) g4 (by rw [alloc_length])).bind (fun r hr => ?_)
  rw [bind_ok]
  refine Holds.pure ⟨?_, hr.2.2.1, hr.2.1, fun h => ?_⟩
  · rw [hr.1, List.length_append, hsz]
    omega
  · have := hr.2.2.2.2 h
    rw [hsz] at this
    exact this

theorem plain_data (L : Laws2 o At) (junk : Nat → UInt8) (fuel : Nat) {pre body : List UInt8} {s : σ} (hs : At s (pre ++ body) pre.length) (w h k f b mode all : Nat)
    (hw : 0 < w) (hh : 0 < h) (hk : numChan mode = k) (hb : b = 1 ∨ b = 2) (hfit : w * h * (k * b) < 4294967296) :
    Holds (PsdGetData o junk fuel w h mode k all false (texOf junk w h k f (typeFor b)) s) (fun r =>
      (r.1 = true ↔ w * h * (k * b) ≤ body.length) ∧ r.2.1.length = (texOf junk w h k f (typeFor b)).size ∧ (∃ q, At r.2.2 (pre ++ body) q) ∧
      (r.1 = true → Shows3 { texOf junk w h k f (typeFor b) with data := r.2.1, origin := IL_ORIGIN_UPPER_LEFT } w h 1 k b f (typeFor b) (fun x y _ i => plainPx w h b body x y i))) := by
  have hk0 : 0 < k := by rw [← hk]; unfold numChan; split <;> decide
  have hb0 : 0 < b := by omega
  have g6 := (texOf_fields junk w h k f b hw hh hk0 hb hfit).2.2.2.2.2.1
  have hsz : k * (h * w * b) = w * h * (k * b) := by simp only [Nat.mul_comm, Nat.mul_left_comm, Nat.mul_assoc]
  refine (plain_raw L junk fuel hs w h k f b mode all hw hh hk hb hfit).mono (fun r hr => ?_)
  obtain ⟨r1, r2, r3, r4⟩ := hr
  refine ⟨r1, by rw [r2, g6], r3, fun hok => ?_⟩
  refine shows_stored junk w h k f b hw hh hk0 hb hfit (r4 hok).2 (fun c hc => ?_) (plainPx w h b body) (fun x y i hx hy hi => plain_bytes w h b pre body hb x y i hx hy)
  have h1 : w * h * (k * b) ≤ body.length := r1.mp hok
  have : (c + 1) * (h * w * b) ≤ k * (h * w * b) := Nat.mul_le_mul_right _ hc
  rw [Nat.succ_mul] at this
  rw [at_length, List.length_append]
  omega

/-- From the channels to the picture. -/
theorem image_of (junk : Nat → UInt8) (fuel mode k all : Nat) (packed : Bool) (rs : List Resource) (hrs : ∀ r ∈ rs, r.Ok) (hlt : (rs.flatMap Resource.bytes).length < 4294967296)
    {w h b f : Nat} {s : σ} {bs : List UInt8} {good : Prop} {px : Nat → Nat → Nat → Option UInt8}
    (hd : Holds (PsdGetData o junk fuel w h mode k all packed (texOf junk w h k f (typeFor b)) s) (fun r =>
      (r.1 = true ↔ good) ∧ r.2.1.length = (texOf junk w h k f (typeFor b)).size ∧ (∃ q, At r.2.2 bs q) ∧
      (r.1 = true → Shows3 { texOf junk w h k f (typeFor b) with data := r.2.1, origin := IL_ORIGIN_UPPER_LEFT } w h 1 k b f (typeFor b) (fun x y _ i => px x y i)))) :
    Holds (readImage o junk fuel mode k all packed (rs.flatMap Resource.bytes) (texOf junk w h k f (typeFor b)) w h s) (fun r =>
      Result good w h k b f px r.1 r.2.1 ∧ ∃ q, At r.2.2 bs q) := by
  unfold readImage
  refine hd.bind (fun r hr => ?_)
  obtain ⟨ok, d, t⟩ := r
  obtain ⟨r1, r2, r3, r4⟩ := hr
  cases ok with
  | false => exact Holds.pure ⟨⟨r1, r2, fun h => (by cases h)⟩, r3⟩
  | true =>
    show Holds (ParseResources _ _ >>= _) _
    rw [resources_ok rs hrs hlt, bind_ok]
    exact Holds.pure ⟨⟨r1, r2, fun _ => ⟨rfl, r4 rfl⟩⟩, r3⟩

/-- Everything before the picture, in modes 1 and 3. -/
theorem plain_start (L : Laws2 o At) (junk : Nat → UInt8) (fuel : Nat) (d : Doc) (hd : d.Ok) (comp : Nat) (hcomp : comp < 256) (body : List UInt8) {s : σ}
    (hs : At s (d.before comp ++ body) 0) (cur : Loaded) {b k f : Nat} (hb : b = 1 ∨ b = 2) (hdepth : d.depth = 8 * b) (hop : d.Opaque k f ∨ d.Alpha k f) (Q : Bool × Loaded × σ → Prop)
    (next : ∀ t, At t (d.before comp ++ body) (d.before comp).length → (d.resources.flatMap Resource.bytes).length < 4294967296 →
      Holds (readImage o junk fuel d.mode k d.channels (decide (comp ≠ 0)) (d.resources.flatMap Resource.bytes) (texOf junk d.width d.height k f (typeFor b))
        d.width d.height t) Q) :
    Holds (iLoadPsdInternal o junk fuel cur s) Q := by
  have hn : Next (d.before comp ++ body) 0 (d.before comp) := next_drop (r := body) (by simp)
  generalize hbs : d.before comp ++ body = bs at *
  have hplen : (d.before comp).length = 26 + (section_ d.colours).length + (section_ (d.resources.flatMap Resource.bytes)).length + (section_ d.layers).length + 2 := by
    simp only [Doc.before, Doc.head, List.length_append, List.length_cons, List.length_nil, List.length_replicate, num_length]
  have hle : (d.before comp).length ≤ bs.length := by rw [← hbs]; simp
  rw [hplen] at hle next
  have hlen := L.len hs
  unfold Doc.before at hn
  have p5 := hn.right; have q4 := hn.left
  have p4 := q4.right; have q3 := q4.left
  have p3 := q3.right; have q2 := q3.left
  have p2 := q2.right; have p1 := q2.left
  have hh : d.head.length = 26 := by simp [Doc.head]
  simp only [List.length_append, hh, Nat.zero_add] at p2 p3 p4 p5
  have hm : d.mode = 1 ∨ d.mode = 3 := by rcases hop with (h | h) | h; exact .inl h.1; exact .inr h.1; exact .inr h.1
  unfold iLoadPsdInternal
  refine (head_ok L junk d hd hs p1 (by omega) (by omega)).bind (fun r hr => ?_)
  obtain ⟨hd', t⟩ := r
  obtain ⟨h1, h2, h3, h4, h5, h6, h7⟩ := hr
  simp only [] at h1 h2 h3 h4 h5 h6 h7 ⊢
  rw [h1]
  simp only [Bool.not_true, Bool.false_eq_true, if_false]
  rw [if_pos (by omega)]
  unfold readPlain
  refine (skip_ok L junk h7 p2).bind (fun t ht => ?_)
  refine (section_ok L junk ht p3).bind (fun r hr => ?_)
  obtain ⟨res, t⟩ := r
  obtain ⟨hres, ht⟩ := hr
  simp only [] at hres
  subst hres
  refine (skip_ok L junk ht p4).bind (fun t ht => ?_)
  refine (compression_ok L junk ht p5 hcomp).bind (fun r hr => ?_)
  obtain ⟨packed, t⟩ := r
  obtain ⟨hpk, ht⟩ := hr
  simp only [] at hpk
  subst hpk
  have hty : typeOf (fbe hd' 6) = some (typeFor b) := by
    rw [h5, hdepth]
    rcases hb with rfl | rfl <;> rfl
  simp only [hty]
  have hrl : (d.resources.flatMap Resource.bytes).length < 4294967296 := by rw [section_length, section_length, section_length] at hle; omega
  have := next t ht hrl
  rw [h2, h3, h4, h6]
  rcases hop with (⟨a, rfl, rfl⟩ | ⟨a, c, rfl, rfl⟩) | ⟨a, c, rfl, rfl⟩
  · rw [if_pos a]
    rw [a] at this
    exact this
  · rw [if_neg (by omega), if_neg (by omega), c]
    rw [a, c] at this
    exact this
  · rw [if_neg (by omega), if_neg (by omega), c]
    rw [a, c] at this
    exact this

theorem plain_file (L : Laws2 o At) (junk : Nat → UInt8) (fuel : Nat) (d : Doc) (hd : d.Ok) (body : List UInt8) {s : σ} (hs : At s (d.before 0 ++ body) 0) (cur : Loaded)
    {b k f : Nat} (hb : b = 1 ∨ b = 2) (hdepth : d.depth = 8 * b) (hop : d.Opaque k f) (hfit : d.width * d.height * (k * b) < 4294967296) :
    Holds (iLoadPsdInternal o junk fuel cur s) (fun r => Result (d.width * d.height * (k * b) ≤ body.length) d.width d.height k b f (plainPx d.width d.height b body) r.1 r.2.1 ∧
      ∃ q, At r.2.2 (d.before 0 ++ body) q) := by
  refine plain_start L junk fuel d hd 0 (by decide) body hs cur hb hdepth (.inl hop) _ (fun t ht hlt => ?_)
  refine image_of junk fuel d.mode k d.channels false d.resources hd.resources hlt (plain_data L junk fuel ht d.width d.height k f b d.mode d.channels hd.width.1 hd.height.1 ?_ hb hfit)
  rcases hop with ⟨a, rfl, -⟩ | ⟨a, -, rfl, -⟩ <;> rw [a] <;> rfl

end DevIL.Psd
