/-! What a Netpbm file is: the header of plain words, and its comments. -/
set_option autoImplicit false
namespace DevIL.PnmSpec

/-- What may stand between two words of the header: a space, a line feed, or a comment up to the end of its line. -/
inductive Item where
  | space
  | newline
  | comment (text : List UInt8)
  deriving DecidableEq

/-- Its bytes. -/
def Item.bytes : Item → List UInt8
  | .space => [32]
  | .newline => [10]
  | .comment t => 35 :: t ++ [10]

/-- A comment has no line feed in it. -/
def Item.Ok : Item → Prop
  | .comment t => 10 ∉ t
  | _ => True

/-- The bytes of a gap between two words. -/
def gap (g : List Item) : List UInt8 := g.flatMap Item.bytes

/-- A number in decimal digits. -/
def IsNumber (ds : List UInt8) : Prop := ds ≠ [] ∧ ∀ d ∈ ds, 48 ≤ d ∧ d ≤ 57

/-- The number that digits denote: the last digit counts once, the one before it ten times, and so on. -/
def number : List UInt8 → Nat
  | [] => 0
  | d :: ds => (d.toNat - 48) * 10 ^ ds.length + number ds

/-- The header of a file with the magic number `P` and `magic`: width, height, largest value; one white-space byte `last` ends it. -/
def header (magic : UInt8) (g1 : List Item) (w : List UInt8) (g2 : List Item) (h : List UInt8) (g3 : List Item) (m : List UInt8)
    (last : UInt8) : List UInt8 :=
  [80, magic] ++ gap g1 ++ w ++ gap g2 ++ h ++ gap g3 ++ m ++ [last]

/-- The parts of a header that the library reads as they are meant: words are shorter than 180 characters and separated, and the largest
value follows the height after one item and perhaps spaces. -/
structure Fits (g1 : List Item) (w : List UInt8) (g2 : List Item) (h : List UInt8) (g3 : List Item) (m : List UInt8) : Prop where
  gaps : ∀ i ∈ g1 ++ g2 ++ g3, i.Ok
  g1 : g1 ≠ []
  g2 : g2 ≠ []
  g3 : ∃ i n, g3 = i :: List.replicate n .space
  wn : IsNumber w
  hn : IsNumber h
  mn : IsNumber m
  wl : w.length < 180
  hl : h.length < 180
  ml : m.length < 180

/-- A blank within a line. -/
def Blank (c : UInt8) : Prop := c = 32 ∨ c = 9 ∨ c = 13 ∨ c = 11 ∨ c = 12

instance (c : UInt8) : Decidable (Blank c) := by unfold Blank; infer_instance

/-- `Row vs bs`: the text `bs` gives the numbers `vs`, separated by blanks. -/
inductive Row : List UInt8 → List UInt8 → Prop where
  | nil : Row [] []
  | last (d : List UInt8) (v : UInt8) : IsNumber d → number d = v.toNat → Row [v] d
  | cons (d s : List UInt8) (v : UInt8) (vs bs : List UInt8) : IsNumber d → number d = v.toNat → s ≠ [] → (∀ c ∈ s, Blank c) → Row vs bs →
      Row (v :: vs) (d ++ s ++ bs)

/-- A line of a text file, without its line feed: a comment, or numbers (and blanks in front of them), shorter than 180 bytes. -/
def Line (vs bs : List UInt8) : Prop :=
  bs.length < 180 ∧ ((vs = [] ∧ ∃ t, bs = 35 :: t ∧ 0 ∉ t ∧ 10 ∉ t) ∨
    ∃ lead row, bs = lead ++ row ∧ (∀ c ∈ lead, Blank c) ∧ (lead ≠ [] → vs ≠ []) ∧ Row vs row)

/-- `Body vs bs`: the text `bs` gives the numbers `vs` line by line; anything may follow the line with the last of them. -/
def Body (vs bs : List UInt8) : Prop :=
  ∃ (fs : List (List UInt8 × List UInt8)) (lv lb rest : List UInt8), (∀ f ∈ fs, Line f.1 f.2) ∧ Line lv lb ∧ lv ≠ [] ∧
    (rest = [] ∨ ∃ r, rest = 10 :: r) ∧ vs = fs.flatMap (·.1) ++ lv ∧ bs = fs.flatMap (fun f => f.2 ++ [10]) ++ lb ++ rest

end DevIL.PnmSpec
