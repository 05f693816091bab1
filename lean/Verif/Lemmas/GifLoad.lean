import Verif.Lemmas.GifFile
/-! What loading a GIF file with one picture comes to. -/
set_option autoImplicit false
namespace DevIL.Gif
open DevIL.Lump DevIL.GifSpec DevIL.Image DevIL.Utility

/-- Adding the transparent colour to a palette. -/
theorem ConvertTransparent_spec {junk : Nat → UInt8} {p : Pal} {n : Nat} {t : UInt8} (hn : 0 < n) (hs : p.size = 3 * n) (hl : p.size ≤ p.data.length) :
    ∃ d, ConvertTransparent junk (some p) t = .ok (some ⟨d, 4 * n, IL_PAL_RGBA32⟩) ∧ d.length = 4 * n ∧
      ∀ i, i < n → (∀ c, c < 3 → d[4 * i + c]? = p.data[3 * i + c]?) ∧ d[4 * i + 3]? = some (if i = t.toNat then 0 else 255) := by
  obtain ⟨d, e, hd, hi⟩ := loopN_inv (n := n) (s := alloc junk (4 * n)) (f := fun k d => do
        let r ← rd p.data (3 * k)
        let d ← wr d (4 * k) r
        let g ← rd p.data (3 * k + 1)
        let d ← wr d (4 * k + 1) g
        let b ← rd p.data (3 * k + 2)
        let d ← wr d (4 * k + 2) b
        wr d (4 * k + 3) (if k = t.toNat then 0 else 255))
    (fun k d => d.length = 4 * n ∧ ∀ i, i < k → (∀ c, c < 3 → d[4 * i + c]? = p.data[3 * i + c]?) ∧ d[4 * i + 3]? = some (if i = t.toNat then 0 else 255))
    ⟨alloc_length _ _, fun i hi => by omega⟩ (by
      rintro k d hk ⟨hd, hi⟩
      have h0 : 3 * k < p.data.length := by omega
      have h1 : 3 * k + 1 < p.data.length := by omega
      have h2 : 3 * k + 2 < p.data.length := by omega
      refine ⟨(((d.set (4 * k) p.data[3 * k]).set (4 * k + 1) p.data[3 * k + 1]).set (4 * k + 2) p.data[3 * k + 2]).set (4 * k + 3) (if k = t.toNat then 0 else 255), ?_, ?_, ?_⟩
      · rw [rd_of_lt h0, bind_ok, wr_of_lt (by omega), bind_ok, rd_of_lt h1, bind_ok, wr_of_lt (by simp; omega), bind_ok, rd_of_lt h2, bind_ok, wr_of_lt (by simp; omega), bind_ok,
          wr_of_lt (by simp; omega)]
      · simp [hd]
      · intro i hik
        by_cases h : i = k
        · subst h
          refine ⟨fun c hc => ?_, ?_⟩
          · rw [List.getElem?_set_ne (by omega)]
            match c, hc with
            | 0, _ => rw [List.getElem?_set_ne (by omega), List.getElem?_set_ne (by omega), Nat.add_zero, List.getElem?_set_self (by omega)]; simp [h0]
            | 1, _ => rw [List.getElem?_set_ne (by omega), List.getElem?_set_self (by simp; omega)]; simp [h1]
            | 2, _ => rw [List.getElem?_set_self (by simp; omega)]; simp [h2]
          · rw [List.getElem?_set_self (by simp; omega)]
        · obtain ⟨a, b⟩ := hi i (by omega)
          refine ⟨fun c hc => ?_, ?_⟩
          · rw [List.getElem?_set_ne (by omega), List.getElem?_set_ne (by omega), List.getElem?_set_ne (by omega), List.getElem?_set_ne (by omega)]
            exact a c hc
          · rw [List.getElem?_set_ne (by omega), List.getElem?_set_ne (by omega), List.getElem?_set_ne (by omega), List.getElem?_set_ne (by omega)]
            exact b)
  refine ⟨d, ?_, hd, hi⟩
  unfold ConvertTransparent
  dsimp only
  rw [if_neg (by omega), hs, show (3 * n + 2) / 3 = n by omega, show 3 * n / 3 * 4 = 4 * n by omega, e, bind_ok]
  rfl

theorem table_facts {s : Still} (h : s.StartOk) : ∃ n, 0 < n ∧ s.table.length = 3 * n := by
  have key : ∀ f : UInt8, ∃ n, tableSize f = 3 * n := by
    intro f
    unfold tableSize
    split
    · exact ⟨_, rfl⟩
    · exact ⟨0, rfl⟩
  unfold Still.table
  split
  · rename_i h0
    obtain ⟨n, e⟩ := key s.flags
    exact ⟨n, by omega, by rw [h.local_, e]⟩
  · rename_i h0
    obtain ⟨n, e⟩ := key s.info
    have := h.table
    exact ⟨n, by omega, by rw [h.global, e]⟩

theorem control_spec {junk : Nat → UInt8} {s : Still} (hs : s.StartOk) {f : Frame} {p : Pal} (hp : f.pal = some p) (h1 : p.type = IL_PAL_RGB24) (h2 : p.size = s.table.length)
    (h3 : p.data.take p.size = s.table) (hd : f.duration = 0) :
    ∃ p', control junk (gfxOf (lastControl s.exts)) f = .ok (some { f with pal := some p', duration := s.duration }) ∧ s.Colours p' := by
  obtain ⟨n, hn, htab⟩ := table_facts hs
  unfold control Still.Colours Still.duration Still.transparent
  cases hc : lastControl s.exts with
  | none =>
    refine ⟨p, ?_, h1, h2, h3⟩
    simp only [gfxOf, Option.map_none]
    rw [← hp, ← hd]
    rfl
  | some c =>
    obtain ⟨pk, dl, t⟩ := c
    simp only [gfxOf, Option.map_some]
    unfold Gfx.hasTransparent
    dsimp only
    by_cases ht : pk.toNat % 2 = 1
    · have hlen : p.size ≤ p.data.length := by
        have := congrArg List.length h3
        rw [List.length_take] at this
        omega
      obtain ⟨d, e, e1, e2⟩ := ConvertTransparent_spec (junk := junk) (p := p) (t := t) hn (by omega) hlen
      refine ⟨⟨d, 4 * n, IL_PAL_RGBA32⟩, ?_, ?_⟩
      · rw [if_pos (by simpa using ht), hp, e, bind_ok]
        rfl
      · rw [if_pos ht]
        dsimp only
        refine ⟨rfl, by omega, e1, fun i hi => ⟨fun c hc => ?_, (e2 i (by omega)).2⟩⟩
        rw [(e2 i (by omega)).1 c hc, ← h3, List.getElem?_take_of_lt (by omega)]
    · refine ⟨p, ?_, ?_⟩
      · rw [if_neg (by simpa using ht)]
        rw [← hp]
        rfl
      · rw [if_neg ht]
        exact ⟨h1, h2, h3⟩

/-- The header. -/
theorem readHead_spec {big : Bool} {junk : Nat → UInt8} {l : R} {v info bg aspect : UInt8} {w h : BitVec 16} {tail : List UInt8}
    (hat : At l ([71, 73, 70, 56, v, 97] ++ (leBytes 2 w.toNat ++ (leBytes 2 h.toNat ++ info :: bg :: aspect :: tail)))) :
    ∃ l', readHead big junk l = .ok (⟨[71, 73, 70, 56, v, 97], w.toNat, h.toNat, info, bg⟩, l') ∧ At l' tail := by
  have h1 := hat.adv
  rw [show ([71, 73, 70, 56, v, 97] : List UInt8).length = 6 from rfl] at h1
  have h2 := h1.adv
  rw [show (leBytes 2 w.toNat).length = 2 from rfl] at h2
  have h3 := h2.adv
  rw [show (leBytes 2 h.toNat).length = 2 from rfl] at h3
  have h4 := h3.adv_cons
  have h5 := h4.adv_cons
  have h6 := h5.adv_cons
  refine ⟨_, ?_, h6⟩
  unfold readHead
  rw [At.readAt hat rfl (by omega) (by rw [alloc_length]; exact Nat.le_refl 6), bind_ok]
  dsimp only
  rw [show ([71, 73, 70, 56, v, 97] : List UInt8).length = 6 from rfl, h1.getLittleUShort, bind_ok]
  dsimp only
  rw [h2.getLittleUShort, bind_ok]
  dsimp only
  rw [h3.getb, bind_ok]
  dsimp only
  rw [h4.getb, bind_ok]
  dsimp only
  rw [h5.getb, bind_ok]
  dsimp only
  rw [List.take_zero, List.nil_append, List.drop_eq_nil_of_le (by rw [alloc_length]), List.append_nil]
  rfl

theorem readDesc_spec {big : Bool} {junk : Nat → UInt8} {l : R} {x y w h : BitVec 16} {f : UInt8} {tail : List UInt8}
    (hat : At l (leBytes 2 x.toNat ++ (leBytes 2 y.toNat ++ (leBytes 2 w.toNat ++ (leBytes 2 h.toNat ++ f :: tail))))) :
    ∃ l', readDesc big junk l = .ok (⟨x.toNat, y.toNat, w.toNat, h.toNat, f⟩, l') ∧ At l' tail := by
  have h1 := hat.adv
  rw [show (leBytes 2 x.toNat).length = 2 from rfl] at h1
  have h2 := h1.adv
  rw [show (leBytes 2 y.toNat).length = 2 from rfl] at h2
  have h3 := h2.adv
  rw [show (leBytes 2 w.toNat).length = 2 from rfl] at h3
  have h4 := h3.adv
  rw [show (leBytes 2 h.toNat).length = 2 from rfl] at h4
  refine ⟨_, ?_, h4.adv_cons⟩
  unfold readDesc
  rw [hat.getLittleUShort, bind_ok]
  dsimp only
  rw [h1.getLittleUShort, bind_ok]
  dsimp only
  rw [h2.getLittleUShort, bind_ok]
  dsimp only
  rw [h3.getLittleUShort, bind_ok]
  dsimp only
  rw [h4.getb, bind_ok]
  rfl

theorem goodSig_spec {v : UInt8} (h : v = 55 ∨ v = 57) : goodSig [71, 73, 70, 56, v, 97] = true := by
  rcases h with rfl | rfl <;> rfl

/-- The global colour table. -/
theorem globalPal_spec {junk : Nat → UInt8} {info : UInt8} {t tail : List UInt8} {l : R} (ht : t.length = tableSize info) (h : At l (t ++ tail)) :
    ∃ p, globalPal junk info l = .ok (true, p, adv l t.length) ∧
      (0 < tableSize info → ∃ p', p = some p' ∧ p'.type = IL_PAL_RGB24 ∧ p'.size = t.length ∧ p'.data.take p'.size = t) := by
  unfold globalPal
  by_cases hi : info.toNat / 128 % 2 = 1
  · obtain ⟨more, e⟩ := iGetPalette_spec (junk := junk) hi ht h
    refine ⟨_, by rw [if_pos hi, e, bind_ok]; rfl, fun _ => ⟨_, rfl, rfl, rfl, by simp⟩⟩
  · have h0 : tableSize info = 0 := by unfold tableSize; rw [if_neg hi]
    refine ⟨none, by rw [if_neg hi, ht, h0]; rfl, fun h => by omega⟩

/-- The palette of the frame. -/
theorem framePal_spec {junk : Nat → UInt8} {s : Still} (hs : s.StartOk) {g : Option Gfx} {gp : Option Pal} {tail : List UInt8} {l : R} (h : At l (s.localTable ++ tail))
    (hg : 0 < tableSize s.info → ∃ p', gp = some p' ∧ p'.type = IL_PAL_RGB24 ∧ p'.size = s.globalTable.length ∧ p'.data.take p'.size = s.globalTable) :
    ∃ p l', framePal junk g gp s.flags none l = .ok (some p, 0, l') ∧ At l' tail ∧ p.type = IL_PAL_RGB24 ∧ p.size = s.table.length ∧ p.data.take p.size = s.table := by
  unfold framePal
  by_cases hi : s.flags.toNat / 128 % 2 = 1
  · obtain ⟨more, e⟩ := iGetPalette_spec (junk := junk) hi hs.local_ h
    have h0 : 0 < tableSize s.flags := by unfold tableSize; rw [if_pos hi]; positivity
    have ht : s.table = s.localTable := by unfold Still.table; rw [if_pos h0]
    refine ⟨⟨s.localTable ++ more, s.localTable.length, IL_PAL_RGB24⟩, _, ?_, h.adv, rfl, by rw [ht], ?_⟩
    · rw [if_pos hi]
      dsimp only
      rw [show (if disposalOf g = 1 then (none : Option Frame).bind (·.pal) else none) = none by split <;> rfl, e, bind_ok]
      rfl
    · rw [ht]; simp
  · have h0 : tableSize s.flags = 0 := by unfold tableSize; rw [if_neg hi]
    have ht : s.table = s.globalTable := by unfold Still.table; rw [if_neg (by omega)]
    have hl : s.localTable = [] := List.length_eq_zero_iff.mp (by rw [hs.local_, h0])
    have htab := hs.table
    obtain ⟨p', rfl, p1, p2, p3⟩ := hg (by omega)
    have hlen := congrArg List.length p3
    rw [List.length_take] at hlen
    have hsz : 0 < p'.size := by rw [p2, hs.global]; omega
    refine ⟨⟨p'.data.take p'.size, p'.size, p'.type⟩, l, ?_, by rw [hl] at h; exact h, p1, by rw [ht]; exact p2, by rw [ht, List.take_take, Nat.min_self]; exact p3⟩
    rw [if_neg hi]
    unfold iCopyPalette
    dsimp only
    rw [if_neg (by omega), if_pos (by omega), pure_eq_ok, bind_ok]
    rfl

/-- The job of decoding the frame. -/
def jobOf (s : Still) : Job :=
  ⟨gfxOf (lastControl s.exts), s.x.toNat + s.y.toNat * s.width.toNat, s.w.toNat, s.h.toNat, s.width.toNat, 0⟩

theorem backdrop_eq (s : Still) : backdrop (gfxOf (lastControl s.exts)) s.background = s.around := by
  unfold backdrop Still.around Still.transparent
  cases lastControl s.exts with
  | none => rfl
  | some c =>
    simp only [gfxOf, Option.map_some]
    unfold Gfx.hasTransparent
    dsimp only
    by_cases h : c.1.toNat % 2 = 1 <;> simp [h]

/-- The last byte, after the pixels. -/
theorem trailer_spec {fuel : Nat} {big : Bool} {junk : Nat → UInt8} {jz : Junk} {global : Option Pal} {bg : UInt8} {s : G} {rest : List UInt8} (h : At s.inp (0x3B :: rest))
    (hg : s.gfx = none) (hf : 1 < fuel) :
    ∃ l', imagesLoop big junk jz global bg fuel s = lastly junk { s with inp := l' } := by
  obtain ⟨fuel, rfl⟩ : ∃ f, fuel = f + 1 := ⟨fuel - 1, by omega⟩
  obtain ⟨l', e, ha⟩ := SkipExtensions_spec (big := big) (junk := junk) (es := []) (fuel := fuel) (c := none) (l := s.inp) (by simp) (by decide) h (by simp; omega)
  refine ⟨adv l' 1, ?_⟩
  unfold imagesLoop
  rw [at_eof h, if_neg (by decide), hg]
  rw [show gfxOf none = none from rfl] at e
  rw [e, bind_ok]
  dsimp only
  rw [if_neg (by decide), ha.getb, bind_ok]
  dsimp only
  rw [if_pos (by decide)]
  simp only [List.foldl_nil, show gfxOf none = none from rfl, ← hg]

/-- Loading a file comes to decoding the pixels of its frame. -/
theorem load_start {s : Still} (ok : s.StartOk) {big : Bool} {junk : Nat → UInt8} {jz : Junk} {buf : List UInt8} {l : R} {b : UInt8} {tail : List UInt8}
    (h : At l (s.start ++ b :: tail)) {fuel : Nat} (hf : s.start.length < fuel) :
    ∃ (m : Img) (l1 : R), m.Consistent ∧ m.width = s.width.toNat ∧ m.height = s.height.toNat ∧ m.depth = 1 ∧ m.bpp = 1 ∧ m.bpc = 1 ∧ m.bps = s.width.toNat ∧
      m.size = s.width.toNat * s.height.toNat ∧ m.format = IL_COLOUR_INDEX ∧ m.type = IL_UNSIGNED_BYTE ∧ m.origin = IL_ORIGIN_UPPER_LEFT ∧
      m.data = List.replicate m.size (s.around) ∧ At l1 (b :: tail) ∧
      (∀ e, GifGetData fuel jz (jobOf s) m.data buf l1 = .error e → iLoadGifInternal (fuel + 1) big junk jz buf l = .error e) ∧
      (∀ d b' l', GifGetData fuel jz (jobOf s) m.data buf l1 = .ok (false, d, b', l') → ∃ fs l'', iLoadGifInternal (fuel + 1) big junk jz buf l = .ok (false, fs, l'')) ∧
      (∀ d b' l' rest, GifGetData fuel jz (jobOf s) m.data buf l1 = .ok (true, d, b', l') → At l' (0 :: 0x3B :: rest) →
        ∃ p l'', s.Colours p ∧ iLoadGifInternal (fuel + 1) big junk jz buf l =
          (straighten junk s.flags { img := { m with data := d }, pal := some p, offX := s.x.toNat, offY := s.y.toNat, duration := s.duration } >>= fun f => pure (true, [f], l''))) := by
  have hlen : (s.exts.flatMap Ext.bytes).length + 2 < s.start.length := by
    unfold Still.start
    simp only [List.length_append, List.length_cons, List.length_nil, leBytes_length]
    omega
  have h0 : At l ([71, 73, 70, 56, s.version, 97] ++ (leBytes 2 s.width.toNat ++ (leBytes 2 s.height.toNat ++ s.info :: s.background :: s.aspect ::
      (s.globalTable ++ (s.exts.flatMap Ext.bytes ++ 0x2C :: (leBytes 2 s.x.toNat ++ (leBytes 2 s.y.toNat ++ (leBytes 2 s.w.toNat ++ (leBytes 2 s.h.toNat ++ s.flags ::
      (s.localTable ++ b :: tail)))))))))) := by
    unfold Still.start at h
    simpa using h
  obtain ⟨l1, e1, h1⟩ := readHead_spec (big := big) (junk := junk) h0
  obtain ⟨gp, e2, hgp⟩ := globalPal_spec (junk := junk) ok.global h1
  have h2 := h1.adv
  obtain ⟨l2, e3, h3⟩ := SkipExtensions_spec (big := big) (junk := junk) (fuel := fuel) (c := none) ok.exts (by decide) h2 (by omega)
  have h4 := h3.adv_cons
  obtain ⟨l3, e5, h5⟩ := readDesc_spec (big := big) (junk := junk) h4
  have hne5 : eof l3 = false := by
    cases ht : s.localTable with
    | nil => rw [ht] at h5; exact at_eof h5
    | cons x t => rw [ht] at h5; exact at_eof h5
  have hne2 : eof (adv l1 s.globalTable.length) = false := by
    cases ht : s.exts with
    | nil => rw [ht] at h2; exact at_eof h2
    | cons y t =>
      rw [ht, List.flatMap_cons] at h2
      cases y with
      | control p d t' => exact at_eof (b := 0x21) h2
      | other p d => exact at_eof (b := 0x21) h2
  obtain ⟨p0, l4, e6, h6, p1, p2, p3⟩ := framePal_spec (junk := junk) ok (g := gfxOf (lastControl s.exts)) h5 hgp
  have hw := s.width.isLt
  have hh := s.height.isLt
  have hfit : s.width.toNat * 1 * s.height.toNat < 4294967296 := by
    rw [Nat.mul_one]
    have : s.width.toNat * s.height.toNat ≤ 65535 * 65535 := Nat.mul_le_mul (by omega) (by omega)
    omega
  obtain ⟨m0, em, mc, f1, f2, f3, f4, f5, f6, f7, f8, f9, f10⟩ := Load.init8 junk (bpp := 1) IL_COLOUR_INDEX ok.screen.1 ok.screen.2 hfit
  rw [Nat.mul_one] at f8 f9 f10
  have key : iLoadGifInternal (fuel + 1) big junk jz buf l =
      (oneImage fuel junk jz (gfxOf (lastControl s.exts)) gp ⟨s.x.toNat, s.y.toNat, s.w.toNat, s.h.toNat, s.flags⟩ none
        { img := { m0 with origin := IL_ORIGIN_UPPER_LEFT, data := List.replicate m0.size (s.around) }, pal := none, offX := 0, offY := 0, duration := 0 } buf l3 >>= fun q =>
        if !q.1 then pure (false, [q.2.1], q.2.2.2)
        else imagesLoop big junk jz gp s.background fuel { done := [], cur := q.2.1, none_ := false, old := s.flags, gfx := none, buf := q.2.2.1, inp := q.2.2.2 }) := by
    unfold iLoadGifInternal
    rw [e1, bind_ok]
    dsimp only
    rw [goodSig_spec ok.version, if_neg (by decide), em, bind_ok]
    dsimp only
    rw [e2, bind_ok]
    dsimp only
    rw [if_neg (by decide)]
    conv => lhs; unfold imagesLoop
    dsimp only
    rw [hne2, if_neg (by decide)]
    rw [show gfxOf none = none from rfl] at e3
    rw [e3, bind_ok]
    dsimp only
    rw [if_neg (by decide), h3.getb, bind_ok]
    dsimp only
    rw [if_neg (by decide), e5, bind_ok]
    dsimp only
    rw [hne5, if_neg (by decide)]
    unfold openFrame
    rw [if_pos rfl, pure_eq_ok, bind_ok]
    dsimp only
    rw [show s.exts.foldl Ext.note none = lastControl s.exts from rfl, List.getLast?_nil, backdrop_eq]
    rfl
  refine ⟨{ m0 with origin := IL_ORIGIN_UPPER_LEFT, data := List.replicate m0.size (s.around) }, l4, ?_, f1, f2, f3, f4, f5, f8, f9, f6, f7, rfl, rfl, h6, ?_, ?_, ?_⟩
  · exact ⟨mc.1, mc.2.1, mc.2.2.1, List.length_replicate⟩
  · intro e he
    dsimp only at he
    have he : GifGetData fuel jz ⟨gfxOf (lastControl s.exts), s.x.toNat + s.y.toNat * m0.width, s.w.toNat, s.h.toNat, m0.width, 0⟩
        (List.replicate m0.size (s.around)) buf l4 = .error e := by rw [f1]; exact he
    rw [key]
    unfold oneImage
    dsimp only
    rw [e6, bind_ok]
    dsimp only
    rw [he]
    rfl
  · intro d b' l' he
    dsimp only at he
    have he : GifGetData fuel jz ⟨gfxOf (lastControl s.exts), s.x.toNat + s.y.toNat * m0.width, s.w.toNat, s.h.toNat, m0.width, 0⟩
        (List.replicate m0.size (s.around)) buf l4 = .ok (false, d, b', l') := by rw [f1]; exact he
    rw [key]
    unfold oneImage
    dsimp only
    rw [e6, bind_ok]
    dsimp only
    rw [he]
    rw [bind_ok]
    dsimp only
    rw [if_pos (by decide), pure_eq_ok, bind_ok]
    exact ⟨_, _, rfl⟩
  · intro d b' l' rest he hat
    obtain ⟨p', ec, hcol⟩ := control_spec (junk := junk) ok (f := { img := { m0 with origin := IL_ORIGIN_UPPER_LEFT, data := d }, pal := some p0, offX := s.x.toNat, offY := s.y.toNat, duration := 0 }) rfl p1 p2 p3 rfl
    dsimp only at he
    have he : GifGetData fuel jz ⟨gfxOf (lastControl s.exts), s.x.toNat + s.y.toNat * m0.width, s.w.toNat, s.h.toNat, m0.width, 0⟩
        (List.replicate m0.size (s.around)) buf l4 = .ok (true, d, b', l') := by rw [f1]; exact he
    rw [key]
    unfold oneImage
    dsimp only
    rw [e6, bind_ok]
    dsimp only
    rw [he]
    rw [bind_ok]
    dsimp only
    rw [if_neg (by decide), ec, bind_ok]
    dsimp only
    unfold terminator
    rw [hat.getc, bind_ok]
    dsimp only
    rw [if_neg (by decide), pure_eq_ok, bind_ok]
    dsimp only
    rw [pure_eq_ok, bind_ok]
    dsimp only
    rw [if_neg (by decide)]
    obtain ⟨l', e⟩ := trailer_spec (big := big) (junk := junk) (jz := jz) (global := gp) (bg := s.background) (fuel := fuel) (s :=
      { done := [], cur := { img := { m0 with origin := IL_ORIGIN_UPPER_LEFT, data := d }, pal := some p', offX := s.x.toNat, offY := s.y.toNat, duration := s.duration },
        none_ := false, old := s.flags, gfx := none, buf := b', inp := adv l' 1 }) hat.adv_cons rfl (by omega)
    refine ⟨p', l', hcol, ?_⟩
    rw [e]
    rfl

end DevIL.Gif
