import Verif.Props.SgiRle
import Verif.Props.Rle
/-! Saving run-length encoded SGI files: C87. -/
set_option autoImplicit false
namespace DevIL.Sgi
open DevIL.Lump DevIL.Endian DevIL.Image DevIL.Utility DevIL.Load
open DevIL.Rle (Packets sgiHeader headerOf Distinct)

/-- Packets with SGI headers are a line. -/
theorem packets_line {o px : List UInt8} (h : Packets sgiHeader 1 o px) : Line o px := by
  induction h with
  | nil => exact .nil
  | raw h n vs s out hh h0 hl _ ih =>
    have hb := h.toNat_lt
    unfold sgiHeader at hh
    simp only [Prod.mk.injEq, decide_eq_false_iff_not] at hh
    have e : h = UInt8.ofNat (128 + vs.length) := by
      apply UInt8.toNat_inj.mp
      rw [ofNat_toNat' (by omega)]
      omega
    rw [e]
    exact .raw vs s out (by omega) (by omega) ih
  | run h n v s out hh h0 hl _ ih =>
    unfold sgiHeader at hh
    simp only [Prod.mk.injEq, decide_eq_true_eq] at hh
    obtain ⟨b, rfl⟩ : ∃ b, v = [b] := List.length_eq_one_iff.mp hl
    have e : h = UInt8.ofNat n := by
      apply UInt8.toNat_inj.mp
      rw [ofNat_toNat' (by omega)]
      omega
    have e2 : (List.replicate n [b]).flatten = List.replicate n b := by
      clear hh e h0 hl
      induction n with
      | zero => rfl
      | succ n ih => rw [List.replicate_succ, List.flatten_cons, ih]; rfl
    rw [e, e2]
    exact .run n b s out (by omega) (by omega) ih

/-- A line without equal neighbours is encoded as a line of the format and a zero byte, in at most twice its length and one byte. -/
theorem compress_line {line : List UInt8} {w : Nat} (hw : 0 < w) (hw2 : w < 2147483648) (hl : line.length = w)
    (hd : ∀ i, i + 1 < w → line[i]? ≠ line[i + 1]?) (dest : List UInt8) (hdl : dest.length = w * 2 + 1) :
    ∃ s d, Rle.ilRleCompressLine line 0 w 1 dest 0 true = .ok (d, s.length + 1) ∧ d.take (s.length + 1) = s ++ [0] ∧ d.length = dest.length ∧
      Line s line ∧ s.length ≤ w * 2 := by
  have hdist : Distinct line 0 1 w := by
    intro i hi
    have h1 := hd i hi
    intro e
    apply h1
    unfold Rle.slice at e
    have e' := congrArg (fun l : List UInt8 => l[0]?) e
    simp only [List.getElem?_take, List.getElem?_drop] at e'
    simpa using e'
  have hslack : w * 1 + w / 126 + (if w = 0 then 0 else if w = 1 then 1 else 2) ≤ w * 2 := by
    split
    · omega
    · split <;> omega
  obtain ⟨o, e, pk, hlen⟩ := Rle.loop_spec (data := line) (bpp := 1) (sgi := true) (by decide) (by decide) (w + 1) ⟨0, 0, w, 0, dest⟩ (Nat.lt_succ_self w) hw2
    hdist (by simp [hl]) (by show 0 + w * 1 + w / 126 + (if w = 0 then 0 else if w = 1 then 1 else 2) ≤ dest.length; omega)
  dsimp only at e pk hlen
  have hol : o.length ≤ w * 2 := Nat.le_trans hlen hslack
  have hsl : Rle.slice line 0 (w * 1) = line := by
    unfold Rle.slice
    rw [List.drop_zero, List.take_of_length_le (by omega)]
  rw [hsl] at pk
  refine ⟨o, splice dest 0 (o ++ [0]), ?_, ?_, splice_length (by simp; omega), packets_line pk, hol⟩
  · unfold Rle.ilRleCompressLine
    rw [e, bind_ok]
    simp only [if_true]
    rw [wr_splice (by rw [splice_length (by omega)]; omega), bind_ok, splice_splice (by omega)]
    simp
  · have := splice_take (d := dest) (q := 0) (o := o ++ [0]) (by omega)
    simpa using this

/-- What the encoder makes of all lines: line `y` of plane `c` is number `c * h + y`. -/
theorem rleLines_spec (junk : Nat → UInt8) {d : List UInt8} {w h k : Nat} (hw : 0 < w) (hw2 : w < 2147483648) (hl : d.length = w * h * k)
    (h32 : w * h * k < 4294967296)
    (hd : ∀ c y x, c < k → y < h → x + 1 < w → d[(y * w + x) * k + c]? ≠ d[(y * w + (x + 1)) * k + c]?) :
    ∃ lines, rleLines junk d w h k (w * k) = .ok lines ∧ lines.length = k * h ∧
      ∀ c y, c < k → y < h → ∃ s, lines[c * h + y]? = some (s ++ [0]) ∧ s.length ≤ w * 2 ∧
        Line s ((List.range w).map fun x => d[(y * w + x) * k + c]?.getD 0) := by
  show Holds _ _
  unfold rleLines
  refine Holds.loop (fun (c : Nat) (o : List (List UInt8)) => o.length = c * h ∧ ∀ c' y, c' < c → y < h → ∃ s, o[c' * h + y]? = some (s ++ [0]) ∧ s.length ≤ w * 2 ∧
        Line s ((List.range w).map fun x => d[(y * w + x) * k + c']?.getD 0)) ⟨by simp, fun _ _ h => by omega⟩ ?_
  rintro c o hc ⟨ho, hp⟩
  refine Holds.mono (Holds.loop (fun (y : Nat) (o : List (List UInt8)) => o.length = c * h + y ∧
      (∀ c' y, c' < c → y < h → ∃ s, o[c' * h + y]? = some (s ++ [0]) ∧ s.length ≤ w * 2 ∧
        Line s ((List.range w).map fun x => d[(y * w + x) * k + c']?.getD 0)) ∧
      ∀ y', y' < y → ∃ s, o[c * h + y']? = some (s ++ [0]) ∧ s.length ≤ w * 2 ∧
        Line s ((List.range w).map fun x => d[(y' * w + x) * k + c]?.getD 0)) ⟨ho, hp, fun _ h => by omega⟩ ?_) ?_
  · rintro y o hy ⟨ho, hp, hq⟩
    have hrow : Holds (loopN w (fun j dd => do
        let b ← rd d (u32 (y * (w * k) + c + j * k))
        wr dd j b) (alloc junk w)) (fun l => l = (List.range w).map fun x => d[(y * w + x) * k + c]?.getD 0) := by
      refine Holds.mono (Holds.loop (fun (j : Nat) (l : List UInt8) => l.length = w ∧ ∀ x, x < j → l[x]? = some (d[(y * w + x) * k + c]?.getD 0))
        ⟨alloc_length _ _, fun _ h => by omega⟩ ?_) ?_
      · rintro j l hj ⟨h1, h2⟩
        have hidx : y * (w * k) + c + j * k = (y * w + j) * k + c := by grind
        have hlt : (y * w + j) * k + c < w * h * k := idx_lt (by rw [Nat.mul_comm w h]; exact idx_lt hy hj) hc
        rw [hidx, u32_of_lt (by omega), rd_of_lt (by omega), bind_ok]
        refine Holds.mono (Holds.wr (by omega)) (fun l' hl' => ⟨by rw [hl'.1, h1], fun x hx => ?_⟩)
        rw [hl'.2, List.getElem?_set]
        by_cases hxj : x = j
        · subst hxj
          rw [if_pos rfl, if_pos (by omega), List.getElem?_eq_getElem (by omega)]
          rfl
        · rw [if_neg (by omega)]
          exact h2 x (by omega)
      · rintro l ⟨h1, h2⟩
        apply List.ext_getElem?
        intro x
        by_cases hx : x < w
        · rw [h2 x hx, List.getElem?_map, List.getElem?_range hx]
          rfl
        · rw [List.getElem?_eq_none (by omega), List.getElem?_eq_none (by simp; omega)]
    refine Holds.bind hrow (fun line hline => ?_)
    have hgl : ∀ x, x < w → line[x]? = d[(y * w + x) * k + c]? := by
      intro x hx
      have hlt : (y * w + x) * k + c < w * h * k := idx_lt (by rw [Nat.mul_comm w h]; exact idx_lt hy hx) hc
      rw [hline, List.getElem?_map, List.getElem?_range hx]
      simp only [Option.map_some]
      rw [List.getElem?_eq_getElem (by omega)]
      rfl
    obtain ⟨s, dd, e, hdt, hdl, hln, hsl⟩ := compress_line hw hw2 (line := line) (by rw [hline]; simp) (fun i hi => by
      rw [hgl i (by omega), hgl (i + 1) hi]
      exact hd c y i hc hy hi) (alloc junk (w * 2 + 1)) (alloc_length _ _)
    rw [e, bind_ok]
    dsimp only
    rw [if_neg (by rw [hdl, alloc_length]; omega), hdt]
    refine Holds.pure ⟨by simp [ho]; omega, ?_, ?_⟩
    · intro c' y' hc' hy'
      obtain ⟨s', h1, h2⟩ := hp c' y' hc' hy'
      refine ⟨s', ?_, h2⟩
      rw [List.getElem?_append_left (List.getElem?_eq_some_iff.mp h1).1]
      exact h1
    · intro y' hy'
      by_cases hyy : y' = y
      · subst hyy
        refine ⟨s, ?_, hsl, ?_⟩
        · rw [List.getElem?_append_right (by omega), ho]
          simp
        · rw [← hline]; exact hln
      · obtain ⟨s', h1, h2⟩ := hq y' (by omega)
        refine ⟨s', ?_, h2⟩
        rw [List.getElem?_append_left (List.getElem?_eq_some_iff.mp h1).1]
        exact h1
  · rintro o ⟨ho, hp, hq⟩
    refine ⟨by rw [ho, Nat.succ_mul], fun c' y hc' hy => ?_⟩
    by_cases hcc : c' = c
    · subst hcc; exact hq y hy
    · exact hp c' y (by omega) hy

theorem starts_eq (lines : List (List UInt8)) : ∀ b, b + lines.flatten.length < 4294967296 →
    starts b lines = (List.range lines.length).map fun k => b + (lines.take k).flatten.length := by
  induction lines with
  | nil => intro b _; rfl
  | cons l ls ih =>
    intro b hb
    rw [List.flatten_cons, List.length_append] at hb
    unfold starts
    rw [u32_of_lt (by omega), ih (b + l.length) (by omega), List.length_cons, List.range_succ_eq_map, List.map_cons, List.map_map]
    simp only [List.take_zero, List.flatten_nil, List.length_nil, Nat.add_zero]
    congr 1
    apply List.map_congr_left
    intro k _
    simp only [Function.comp, List.take_succ_cons, List.flatten_cons, List.length_append]
    omega

/-- Going back to `h.length` and writing `t` over what stands there. -/
theorem put_over {h old t rest : List UInt8} (hl : old.length = t.length) {p : Nat} (hp : p = h.length) :
    OutFile.put ⟨h ++ (old ++ rest), p⟩ t = ⟨(h ++ t) ++ rest, (h ++ t).length⟩ := by
  subst hp
  unfold OutFile.put
  dsimp only
  rw [List.take_left' rfl, ← hl, ← List.append_assoc h old rest, List.drop_left' (by simp), List.length_append, hl]

theorem be32_table (f : Nat → Nat) (n : Nat) : ((List.range n).map f).flatMap be32 = (List.range n).flatMap fun k => beBytes 4 (f k) := by
  rw [List.flatMap_map]
  rfl

/-! ## C87 -/

/-- The bytes in the output, given that the encoder made `lines`, and where the output stands afterwards. -/
theorem rle_output (big : Bool) (junk : Nat → UInt8) (t cur : Img) (conv : Option Img) (hm : Savable t)
    (hconv : (if converts cur then conv else some cur) = some t) {d : List UInt8} (hd : bottomUp junk cur.origin t = .ok d)
    {lines : List (List UInt8)} (hl : rleLines junk d t.width t.height t.bpp (t.width * t.bpp) = .ok lines) (hn : lines.length = t.height * t.bpp)
    (hs : 512 + 8 * (t.height * t.bpp) + lines.flatten.length < 2147483648) :
    ∃ ops dim misc, iSaveSgiInternal big junk true none cur conv = .ok (some ops) ∧ 0 < dim ∧ dim < 65536 ∧ misc.length = 496 ∧
      OutFile.run ⟨[], 0⟩ ops = ⟨beBytes 2 474 ++ [1, 1] ++ beBytes 2 dim ++ beBytes 2 t.width ++ beBytes 2 t.height ++ beBytes 2 t.bpp ++ [0, 0, 0, 0] ++ misc ++
        (List.range (t.height * t.bpp)).flatMap (fun k => beBytes 4 (512 + 8 * (t.height * t.bpp) + (lines.take k).flatten.length)) ++
        (List.range (t.height * t.bpp)).flatMap (fun k => beBytes 4 (lines[k]?.getD []).length) ++ lines.flatten, 512 + 8 * (t.height * t.bpp)⟩ := by
  obtain ⟨hops, eh, hb⟩ := header_bytes big true t hm.type
  have hbps : t.bps = t.width * t.bpp := by rw [hm.cons.1, hm.bpc, Nat.mul_one]
  have hdim : (if t.format = IL_LUMINANCE ∨ t.format = IL_COLOUR_INDEX then 2 else 3) < 65536 ∧
      0 < (if t.format = IL_LUMINANCE ∨ t.format = IL_COLOUR_INDEX then 2 else 3) := by split <;> decide
  generalize hdm : (if t.format = IL_LUMINANCE ∨ t.format = IL_COLOUR_INDEX then 2 else 3) = dim at hb hdim
  have hb3 := hm.bpp3
  have hw := hm.w
  have hh := hm.h
  rw [Nat.mod_eq_of_lt hw, Nat.mod_eq_of_lt hh, Nat.mod_eq_of_lt (show t.bpp < 65536 by omega)] at hb
  generalize hN : t.height * t.bpp = N at *
  have hlen : (hops.flatMap WOp.bytes).length = 512 := by
    rw [hb]
    simp only [List.length_append, List.length_reverse, leBytes_length, List.length_cons, List.length_replicate]
  have hstarts : (starts (512 + 8 * N) lines).flatMap be32 = (List.range N).flatMap fun k => beBytes 4 (512 + 8 * N + (lines.take k).flatten.length) := by
    rw [starts_eq lines (512 + 8 * N) (by omega), be32_table, hn]
  have hlens : (lines.flatMap fun l => be32 l.length) = (List.range N).flatMap fun k => beBytes 4 (lines[k]?.getD []).length := by
    rw [← hn, ← be32_table, ← List.flatMap_map (f := fun l : List UInt8 => l.length)]
    congr 1
    apply List.ext_getElem?
    intro k
    by_cases hk : k < lines.length
    · simp [hk]
    · simp [hk]
  have l1 := flatMap_len (f := fun k => beBytes 4 (512 + 8 * N + (lines.take k).flatten.length)) (c := 4) N (fun k _ => by simp [beBytes])
  have l2 := flatMap_len (f := fun k => beBytes 4 (lines[k]?.getD []).length) (c := 4) N (fun k _ => by simp [beBytes])
  have hout : output (lines.map fun l => WOp.write l 1 l.length) = lines.flatten := by
    unfold output
    rw [List.flatMap_map, List.flatMap_def]
    congr 1
    conv => rhs; rw [← List.map_id lines]
    apply List.map_congr_left
    intro l _
    show l.take (1 * l.length) = l
    rw [Nat.one_mul, List.take_length]
  refine ⟨hops ++ ([.write (alloc junk (N * 4)) 4 N, .write (List.replicate (N * 4) 0) 4 N] ++ lines.map (fun l => .write l 1 l.length) ++
    [.seek (toInt 512) SEEK_SET, .write ((starts (512 + 8 * N) lines).flatMap be32) 4 N, .write (lines.flatMap fun l => be32 l.length) 4 N]),
    dim, (leBytes 4 255).reverse ++ ((leBytes 4 0).reverse ++ (List.replicate 80 0 ++ ((leBytes 4 0).reverse ++ List.replicate 404 0))), ?_, hdim.2, hdim.1,
    by simp only [List.length_append, List.length_reverse, leBytes_length, List.length_replicate], ?_⟩
  · unfold iSaveSgiInternal
    rw [hconv]
    simp only [hm.bpc, decide_true, Bool.and_true]
    rw [eh, bind_ok, hd, bind_ok, if_pos trivial, hlen, hbps]
    unfold rleOps
    rw [hl, bind_ok, hN]
    rfl
  · have hplain : ∀ op ∈ hops ++ ([.write (alloc junk (N * 4)) 4 N, .write (List.replicate (N * 4) 0) 4 N] ++ lines.map (fun l => WOp.write l 1 l.length)), Plain op := by
      intro op hop
      rcases List.mem_append.mp hop with hop | hop
      · exact header_plain hm.type eh op hop
      · rcases List.mem_append.mp hop with hop | hop
        · simp only [List.mem_cons, List.not_mem_nil, or_false] at hop
          rcases hop with rfl | rfl
          · show (alloc junk (N * 4)).length = 4 * N
            rw [alloc_length, Nat.mul_comm]
          · show (List.replicate (N * 4) (0 : UInt8)).length = 4 * N
            rw [List.length_replicate, Nat.mul_comm]
        · obtain ⟨l, _, rfl⟩ := List.mem_map.mp hop
          show l.length = 1 * l.length
          rw [Nat.one_mul]
    rw [← List.append_assoc, OutFile.run, List.foldl_append]
    have e1 := file_output _ hplain
    unfold OutFile.run at e1
    rw [e1]
    have e2 : output (hops ++ ([.write (alloc junk (N * 4)) 4 N, .write (List.replicate (N * 4) 0) 4 N] ++ lines.map (fun l => WOp.write l 1 l.length))) =
        hops.flatMap WOp.bytes ++ (alloc junk (N * 4) ++ (List.replicate (N * 4) 0 ++ lines.flatten)) := by
      unfold output at hout ⊢
      rw [List.flatMap_append, List.flatMap_append, hout, List.flatMap_cons, List.flatMap_cons, List.flatMap_nil]
      have w4 : ∀ b : List UInt8, b.length = N * 4 → (WOp.write b 4 N).bytes = b := by
        intro b hb
        show b.take (4 * N) = b
        rw [List.take_of_length_le (by omega)]
      rw [w4 _ (alloc_length _ _), w4 _ List.length_replicate, List.append_nil, List.append_assoc]
    rw [e2]
    generalize hT1 : (starts (512 + 8 * N) lines).flatMap be32 = T1 at *
    generalize hT2 : (lines.flatMap fun l => be32 l.length) = T2 at *
    rw [← hstarts] at l1 ⊢
    rw [← hlens] at l2 ⊢
    simp only [List.foldl_cons, List.foldl_nil]
    have e3 : ∀ f : OutFile, OutFile.step f (.seek (toInt 512) SEEK_SET) = { f with pos := 512 } := fun f => rfl
    rw [e3]
    have e4 : ∀ (f : OutFile) (T : List UInt8), T.length = N * 4 → OutFile.step f (.write T 4 N) = f.put T := by
      intro f T hT
      show f.put (T.take (4 * N)) = f.put T
      rw [List.take_of_length_le (by omega)]
    rw [e4 _ _ l1, put_over (by rw [alloc_length, l1]) hlen.symm, e4 _ _ l2, put_over (by rw [List.length_replicate, l2]) rfl, hb]
    have e5 : [(0 : UInt8), 0, 0, 0] = (leBytes 4 0).reverse := rfl
    rw [e5]
    unfold beBytes
    simp only [List.append_assoc, List.cons_append, List.nil_append, if_true]
    rw [OutFile.mk.injEq]
    refine ⟨rfl, ?_⟩
    simp only [List.length_append, List.length_reverse, leBytes_length, List.length_cons, List.length_replicate, l1, l2]
    omega

theorem flatten_le (lines : List (List UInt8)) (c : Nat) (h : ∀ l ∈ lines, l.length ≤ c) : lines.flatten.length ≤ lines.length * c := by
  induction lines with
  | nil => simp
  | cons l ls ih =>
    rw [List.flatten_cons, List.length_append, List.length_cons, Nat.succ_mul]
    have := h l (by simp)
    have := ih (fun l hl => h l (by simp [hl]))
    omega

/-- The round trip, and where the output stands behind the tables. -/
theorem rle_common (big big' : Bool) (junk junk' : Nat → UInt8) (m : Img) (conv : Option Img) (hm : Savable m)
    (hsize : 512 + m.height * m.bpp * (2 * m.width + 9) < 2147483648)
    (hne : ∀ x y c, x + 1 < m.width → y < m.height → c < m.bpp → m.px x y 0 c ≠ m.px (x + 1) y 0 c) :
    ∃ ops, iSaveSgiInternal big junk true none m conv = .ok (some ops) ∧
    (OutFile.run ⟨[], 0⟩ ops).pos = 512 + 8 * (m.height * m.bpp) ∧ (OutFile.run ⟨[], 0⟩ ops).pos < (OutFile.run ⟨[], 0⟩ ops).data.length ∧
    ∃ m' l, iLoadSgiInternal big' junk' (open_ (OutFile.run ⟨[], 0⟩ ops).data (OutFile.run ⟨[], 0⟩ ops).data.length) = .ok (true, some m', l) ∧ m'.Consistent ∧
      m'.width = m.width ∧ m'.height = m.height ∧ m'.depth = 1 ∧ m'.bpp = m.bpp ∧ m'.bpc = 1 ∧ m'.format = m.format ∧ m'.type = m.type ∧
      m'.origin = IL_ORIGIN_LOWER_LEFT ∧
      ∀ x y c, x < m.width → y < m.height → c < m.bpp →
        m'.px x y 0 c = m.px x (if m.origin = IL_ORIGIN_UPPER_LEFT then m.height - 1 - y else y) 0 c := by
  have hfit := hm.fits
  have hsz := hm.size
  have hw := hm.w
  have hw0 := hm.w0
  have hh := hm.h
  have hh0 := hm.h0
  have hconv : (if converts m then conv else some m) = some m := by rw [hm.converts]; rfl
  obtain ⟨d, ed, ld, pd⟩ := bottomUp_spec junk hm.cons hm.depth hm.bpc (by rw [hsz]; omega) m.origin
  have hflip : ∀ y, y < m.height → (if m.origin = IL_ORIGIN_UPPER_LEFT then m.height - 1 - y else y) < m.height := by
    intro y hy
    split <;> omega
  obtain ⟨lines, el, hn, hlines⟩ := rleLines_spec junk (d := d) (w := m.width) (h := m.height) (k := m.bpp) hw0 (by omega) (by rw [ld, hsz]) (by omega) (by
    intro c y x hc hy hx
    rw [pd x y c (by omega) hy hc, pd (x + 1) y c hx hy hc]
    exact hne x _ c hx (hflip y hy) hc)
  have hn' : lines.length = m.height * m.bpp := by rw [hn, Nat.mul_comm]
  have hget : ∀ k, k < lines.length → ∃ s, lines[k]? = some (s ++ [0]) ∧ s.length ≤ m.width * 2 := by
    intro k hk
    have hc : k / m.height < m.bpp := by rw [Nat.div_lt_iff_lt_mul hh0]; omega
    obtain ⟨s, h1, h2, _⟩ := hlines (k / m.height) (k % m.height) hc (Nat.mod_lt _ hh0)
    rw [Nat.div_add_mod'] at h1
    exact ⟨s, h1, h2⟩
  have htot : lines.flatten.length ≤ m.height * m.bpp * (2 * m.width + 1) := by
    rw [← hn']
    apply flatten_le
    intro l hl
    obtain ⟨k, hk, rfl⟩ := List.mem_iff_getElem.mp hl
    obtain ⟨s, h1, h2⟩ := hget k hk
    rw [List.getElem?_eq_getElem hk, Option.some.injEq] at h1
    rw [h1, List.length_append]
    simp
    omega
  have hsum : m.height * m.bpp * (2 * m.width + 9) = 8 * (m.height * m.bpp) + m.height * m.bpp * (2 * m.width + 1) := by grind
  obtain ⟨ops, dim, misc, e1, hd0, hd1, hmisc, e2⟩ := rle_output big junk m m conv hm hconv ed el hn' (by omega)
  have hpos : 0 < lines.flatten.length := by
    have hk : 0 < lines.length := by
      rw [hn']
      have := hm.bpp3
      exact Nat.mul_pos hh0 (by omega)
    obtain ⟨s, h1, _⟩ := hget 0 hk
    cases hl : lines with
    | nil => rw [hl] at hk; simp at hk
    | cons a as =>
      rw [hl] at h1
      simp only [List.getElem?_cons_zero, Option.some.injEq] at h1
      rw [h1]
      simp only [List.flatten_cons, List.length_append, List.length_cons]
      omega
  refine ⟨ops, e1, ?_⟩
  rw [e2]
  dsimp only
  have l1 := flatMap_len (f := fun k => beBytes 4 (512 + 8 * (m.height * m.bpp) + (lines.take k).flatten.length)) (c := 4) (m.height * m.bpp) (fun k _ => by simp [beBytes])
  have l2 := flatMap_len (f := fun k => beBytes 4 (lines[k]?.getD []).length) (c := 4) (m.height * m.bpp) (fun k _ => by simp [beBytes])
  generalize hfile : beBytes 2 474 ++ [1, 1] ++ beBytes 2 dim ++ beBytes 2 m.width ++ beBytes 2 m.height ++ beBytes 2 m.bpp ++ [0, 0, 0, 0] ++ misc ++
        (List.range (m.height * m.bpp)).flatMap (fun k => beBytes 4 (512 + 8 * (m.height * m.bpp) + (lines.take k).flatten.length)) ++
        (List.range (m.height * m.bpp)).flatMap (fun k => beBytes 4 (lines[k]?.getD []).length) ++ lines.flatten = file
  generalize hpre : beBytes 2 474 ++ [1, 1] ++ beBytes 2 dim ++ beBytes 2 m.width ++ beBytes 2 m.height ++ beBytes 2 m.bpp ++ [0, 0, 0, 0] ++ misc ++
        (List.range (m.height * m.bpp)).flatMap (fun k => beBytes 4 (512 + 8 * (m.height * m.bpp) + (lines.take k).flatten.length)) ++
        (List.range (m.height * m.bpp)).flatMap (fun k => beBytes 4 (lines[k]?.getD []).length) = pre
  have hprel : pre.length = 512 + 8 * (m.height * m.bpp) := by
    have hl : ∀ k n, (beBytes k n).length = k := fun k n => by simp [beBytes]
    rw [← hpre]
    simp only [List.length_append, hl, l1, l2, hmisc, List.length_cons, List.length_nil]
    omega
  have hfl : file.length = 512 + 8 * (m.height * m.bpp) + lines.flatten.length := by
    rw [← hfile, hpre, List.length_append, hprel]
  have rf : RleFile file m.width m.height m.bpp (fun c y => (List.range m.width).map fun x => d[(y * m.width + x) * m.bpp + c]?.getD 0) dim misc lines.flatten
      (fun k => 512 + 8 * (m.height * m.bpp) + (lines.take k).flatten.length) (fun k => (lines[k]?.getD []).length) := by
    refine ⟨hd0, hd1, hw0, hw, hh0, hh, hm.bpp3, hmisc, hfile.symm, ?_, by omega, ?_, ?_⟩
    · have : m.width * m.height * m.bpp = m.height * m.bpp * m.width := by grind
      have : m.height * m.bpp * m.width ≤ m.height * m.bpp * (2 * m.width + 9) := Nat.mul_le_mul_left _ (by omega)
      omega
    · intro k hk
      obtain ⟨s, h1, h2⟩ := hget k (by omega)
      rw [h1]
      simp
      omega
    · intro c y hc hy
      obtain ⟨s, h1, h2, h3⟩ := hlines c y hc hy
      rw [Nat.add_comm y]
      refine ⟨by simp, s, h3, by simp [h1], ?_⟩
      have hk : c * m.height + y < lines.length := (List.getElem?_eq_some_iff.mp h1).1
      have hsplit : lines.flatten = (lines.take (c * m.height + y)).flatten ++ (s ++ ([0] ++ (lines.drop (c * m.height + y + 1)).flatten)) := by
        conv => lhs; rw [← List.take_append_drop (c * m.height + y) lines]
        rw [List.flatten_append, List.drop_eq_getElem_cons hk, List.flatten_cons]
        rw [List.getElem?_eq_getElem hk, Option.some.injEq] at h1
        rw [h1, List.append_assoc]
      have : file = (pre ++ (lines.take (c * m.height + y)).flatten) ++ (s ++ ([0] ++ (lines.drop (c * m.height + y + 1)).flatten)) := by
        rw [← hfile, hpre, List.append_assoc, ← hsplit]
      rw [this, List.drop_left' (by rw [List.length_append, hprel])]
      exact List.prefix_append _ _
  refine ⟨rfl, by omega, ?_⟩
  obtain ⟨m', l, e3, hcons, f1, f2, f3, f4, f5, f6, f7, f8, f9⟩ := C86_rle_file_partial big' junk' file _ _ _ _ _ _ _ _ _ rf
  refine ⟨m', l, e3, hcons, f1, f2, f3, f4, f5, ?_, by rw [f6, hm.type], f7, ?_⟩
  · rw [f8]
    rcases hm.kind with h | h | h <;> rw [h.1, h.2] <;> rfl
  · intro x y c hx hy hc
    have hlt : (y * m.width + x) * m.bpp + c < d.length := by
      rw [ld, hsz, Nat.mul_comm m.width]
      exact idx_lt (idx_lt hy hx) hc
    rw [f9 x y c hx hy hc, ← pd x y c hx hy hc, List.getElem?_map, List.getElem?_range hx]
    simp only [Option.map_some]
    rw [List.getElem?_eq_getElem hlt]
    rfl

/-- **C87 (partial).** With run-length encoding switched on, an image that SGI can hold as it is (`Savable`), whose file cannot reach 2 GiB,
and in which no two neighbouring pixels of a row have an equal channel, is saved successfully; loading the saved file yields an image of the
same size, format and type whose pixels are those saved, with the bottom row first.  Missing: rows with equal neighbours, for which the claim
is false (`C87_violated`), and images that must first be converted (`C87_violated_conversion`). -/
theorem C87_rle_round_trip_partial (big big' : Bool) (junk junk' : Nat → UInt8) (m : Img) (conv : Option Img) (hm : Savable m)
    (hsize : 512 + m.height * m.bpp * (2 * m.width + 9) < 2147483648)
    (hne : ∀ x y c, x + 1 < m.width → y < m.height → c < m.bpp → m.px x y 0 c ≠ m.px (x + 1) y 0 c) :
    ∃ ops, iSaveSgiInternal big junk true none m conv = .ok (some ops) ∧
    ∃ m' l, iLoadSgiInternal big' junk' (open_ (OutFile.run ⟨[], 0⟩ ops).data (OutFile.run ⟨[], 0⟩ ops).data.length) = .ok (true, some m', l) ∧ m'.Consistent ∧
      m'.width = m.width ∧ m'.height = m.height ∧ m'.depth = 1 ∧ m'.bpp = m.bpp ∧ m'.bpc = 1 ∧ m'.format = m.format ∧ m'.type = m.type ∧
      m'.origin = IL_ORIGIN_LOWER_LEFT ∧
      ∀ x y c, x < m.width → y < m.height → c < m.bpp →
        m'.px x y 0 c = m.px x (if m.origin = IL_ORIGIN_UPPER_LEFT then m.height - 1 - y else y) 0 c := by
  obtain ⟨ops, e, _, _, h⟩ := rle_common big big' junk junk' m conv hm hsize hne
  exact ⟨ops, e, h⟩

/-- An RGB image of three by two pixels without equal neighbours. -/
def rgb32 : Img := ⟨3, 2, 1, 3, 1, 9, 18, 18, IL_RGB, IL_UNSIGNED_BYTE, IL_ORIGIN_UPPER_LEFT, [1, 2, 3, 4, 5, 6, 7, 8, 9, 3, 2, 1, 6, 5, 4, 9, 8, 7]⟩

example : Savable rgb32 ∧ 512 + rgb32.height * rgb32.bpp * (2 * rgb32.width + 9) < 2147483648 :=
  ⟨⟨⟨rfl, rfl, rfl, rfl⟩, rfl, rfl, rfl, Or.inr (Or.inl ⟨rfl, rfl⟩), by decide, by decide, by decide, by decide, by decide⟩, by decide⟩

example : ∀ x, x < 2 → ∀ y, y < 2 → ∀ c, c < 3 → rgb32.px x y 0 c ≠ rgb32.px (x + 1) y 0 c := by decide

set_option maxRecDepth 20000 in
/-- **C87 (violated).** Saving a grey image of two equal pixels reads behind the end of the row. -/
theorem C87_violated : iSaveSgiInternal false (fun _ => 0) true none ⟨2, 1, 1, 1, 1, 2, 2, 2, IL_LUMINANCE, IL_UNSIGNED_BYTE, IL_ORIGIN_LOWER_LEFT, [5, 5]⟩ none =
    .error .oobRead := by rfl

/-- **C87 (violated).** If the image must be converted and the conversion fails, saving with run-length encoding dereferences a null pointer
instead of reporting the failure. -/
theorem C87_violated_conversion (big : Bool) (junk : Nat → UInt8) (name : Option (List UInt8)) (m : Img) (hm : converts m = true) :
    iSaveSgiInternal big junk true name m none = .error .nullDeref := by
  unfold iSaveSgiInternal
  rw [hm]
  rfl

example : converts { rgb32 with format := IL_BGR } = true := by decide

end DevIL.Sgi
