import Verif.Model.Enums
/-! Specification for recognising the type of a file by its contents: the signatures and headers of the formats, by byte
offsets.  Nothing here refers to the model of the library. -/
set_option autoImplicit false
namespace DevIL.DetectSpec

/-- The number stored in some bytes, least significant byte first. -/
def le : List UInt8 → Nat
  | [] => 0
  | b :: bs => b.toNat + 256 * le bs

/-- The number stored in some bytes, most significant byte first. -/
def be (bs : List UInt8) : Nat := le bs.reverse

/-- The `n` bytes at an offset. -/
def at_ (bs : List UInt8) (off n : Nat) : List UInt8 := (bs.drop off).take n

/-- The number in the `n` bytes at an offset, least significant byte first. -/
def leAt (bs : List UInt8) (off n : Nat) : Nat := le (at_ bs off n)

/-- The number in the `n` bytes at an offset, most significant byte first. -/
def beAt (bs : List UInt8) (off n : Nat) : Nat := be (at_ bs off n)

/-- A number of 16 or 32 bits read as two's complement is at least 1. -/
def positive (bits n : Nat) : Bool := decide (0 < n) && decide (n < 2 ^ (bits - 1))

/-- The small letter of a letter. -/
def lower (b : UInt8) : UInt8 := if 65 ≤ b ∧ b ≤ 90 then b + 32 else b

/-- The bytes at an offset spell a text, whatever the case of the letters (the text is given in small letters). -/
def spells (bs : List UInt8) (off : Nat) (t : List UInt8) : Bool := (at_ bs off t.length).map lower == t

/-- The bytes at an offset are these. -/
def has (bs : List UInt8) (off : Nat) (t : List UInt8) : Bool := at_ bs off t.length == t

/-- A power of two. -/
def pow2 (n : Nat) : Bool := n == 2 ^ n.log2

/-- A text in which every character may follow a carriage return. -/
def crText : List UInt8 → List UInt8 → Bool
  | [], _ => true
  | _ :: _, [] => false
  | c :: cs, b :: bs =>
    if b = 13 then
      match bs with
      | [] => false
      | b :: bs => b == c && crText cs bs
    else b == c && crText cs bs

/-- What the C library says about the decimal numbers of a Scitex header: whether `atof` of a text is positive, and
whether the whole number in a text is not zero. -/
structure Dec where
  pos : List UInt8 → Bool
  int : List UInt8 → Bool
  trunc : List UInt8 → Bool

/-- The formats that can be told from the contents of a file. -/
inductive Fmt where
  | jpg | dds | png | bmp | blp | exr | gif | hdr | icns | ilbm | iwi | jp2 | lif | mdl | mp3 | pcx | pic | pnm | psd | psp
  | sgi | scitex | sun | tif | tpl | vtf | xpm | tga
  deriving DecidableEq

/-- The constant of a format. -/
def Fmt.code : Fmt → Nat
  | .jpg => IL_JPG | .dds => IL_DDS | .png => IL_PNG | .bmp => IL_BMP | .blp => IL_BLP | .exr => IL_EXR | .gif => IL_GIF
  | .hdr => IL_HDR | .icns => IL_ICNS | .ilbm => IL_ILBM | .iwi => IL_IWI | .jp2 => IL_JP2 | .lif => IL_LIF | .mdl => IL_MDL
  | .mp3 => IL_MP3 | .pcx => IL_PCX | .pic => IL_PIC | .pnm => IL_PNM | .psd => IL_PSD | .psp => IL_PSP | .sgi => IL_SGI
  | .scitex => IL_SCITEX | .sun => IL_SUN | .tif => IL_TIF | .tpl => IL_TPL | .vtf => IL_VTF | .xpm => IL_XPM | .tga => IL_TGA

/-- The bytes carry the signature of a format.  (Targa files have none.) -/
def Fmt.sig : Fmt → List UInt8 → Bool
  | .jpg, bs => has bs 0 [0xFF, 0xD8]
  | .dds, bs => has bs 0 [0x44, 0x44, 0x53, 0x20]                                     -- "DDS "
  | .png, bs => has bs 0 [0x89, 0x50, 0x4E, 0x47, 0x0D, 0x0A, 0x1A, 0x0A]             -- "\x89PNG\r\n\x1a\n"
  | .bmp, bs => has bs 0 [0x42, 0x4D]                                                 -- "BM"
  | .blp, bs => has bs 0 [0x42, 0x4C, 0x50, 0x32]                                     -- "BLP2"
  | .exr, bs => has bs 0 [0x76, 0x2F, 0x31, 0x01]
  | .gif, bs => spells bs 0 [0x67, 0x69, 0x66, 0x38, 0x37, 0x61] || spells bs 0 [0x67, 0x69, 0x66, 0x38, 0x39, 0x61]  -- "gif87a", "gif89a"
  | .hdr, bs => spells bs 0 [0x23, 0x3F, 0x72, 0x61, 0x64, 0x69, 0x61, 0x6E, 0x63, 0x65]  -- "#?radiance"
      || spells bs 0 [0x23, 0x3F, 0x72, 0x67, 0x62, 0x65]                             -- "#?rgbe"
  | .icns, bs => has bs 0 [0x69, 0x63, 0x6E, 0x73]                                    -- "icns"
  | .ilbm, bs => has bs 0 [0x46, 0x4F, 0x52, 0x4D]                                    -- "FORM"
  | .iwi, bs => has bs 0 [0x49, 0x57, 0x69, 0x06] || has bs 0 [0x49, 0x57, 0x69, 0x05]  -- "IWi"
  | .jp2, bs => has bs 4 [0x6A, 0x50, 0x20, 0x20]                                     -- "jP  " after four bytes
  | .lif, bs => spells bs 0 [0x77, 0x69, 0x6C, 0x6C, 0x79, 0x20, 0x37, 0x00]          -- "willy 7"
  | .mdl, bs => has bs 0 [0x49, 0x44, 0x53, 0x54]                                     -- "IDST"
  | .mp3, bs => has bs 0 [0x49, 0x44, 0x33]                                           -- "ID3"
  | .pcx, bs => has bs 0 [10] && has bs 2 [1]
  | .pic, bs => has bs 0 [0x53, 0x80, 0xF6, 0x34]
  | .pnm, bs => has bs 0 [0x50] && (decide (0x31 ≤ leAt bs 1 1) && decide (leAt bs 1 1 ≤ 0x37))  -- "P1" to "P7"
  | .psd, bs => has bs 0 [0x38, 0x42, 0x50, 0x53]                                     -- "8BPS"
  | .psp, bs => spells bs 0 [0x70, 0x61, 0x69, 0x6E, 0x74, 0x20, 0x73, 0x68, 0x6F, 0x70, 0x20, 0x70, 0x72, 0x6F, 0x20, 0x69,
      0x6D, 0x61, 0x67, 0x65, 0x20, 0x66, 0x69, 0x6C, 0x65, 0x0A, 0x1A, 0x00]         -- "paint shop pro image file\n\x1a"
  | .sgi, bs => has bs 0 [0x01, 0xDA]
  | .scitex, bs => has bs 80 [0x43, 0x54]                                             -- "CT" after 80 bytes
  | .sun, bs => has bs 0 [0x59, 0xA6, 0x6A, 0x95]
  | .tif, bs => has bs 0 [0x49, 0x49, 0x2A, 0x00] || has bs 0 [0x4D, 0x4D, 0x00, 0x2A]  -- "II*", "MM*"
  | .tpl, bs => has bs 0 [0x00, 0x20, 0xAF, 0x30]
  | .vtf, bs => has bs 0 [0x56, 0x54, 0x46, 0x00]                                     -- "VTF"
  | .xpm, bs => crText [0x2F, 0x2A, 0x20, 0x58, 0x50, 0x4D, 0x20, 0x2A, 0x2F] bs      -- "/* XPM */"
  | .tga, _ => true

/-- The number of bytes up to the end of the last header field that matters. -/
def Fmt.need : Fmt → Nat
  | .dds => 80 | .bmp => 54 | .blp => 20 | .iwi => 10 | .lif => 16 | .mdl => 8 | .mp3 => 5 | .pcx => 68 | .pic => 96
  | .psd => 24 | .psp => 36 | .sgi => 12 | .scitex => 1080 | .sun => 32 | .tpl => 12 | .vtf => 63 | .tga => 18
  | _ => 12

/-- The fields of the header that follow the signature make sense. -/
def Fmt.header (dec : Dec) : Fmt → List UInt8 → Bool
  | .dds, bs => (leAt bs 4 4 == 124 || has bs 4 [0x44, 0x44, 0x53, 0x20]) && leAt bs 76 4 == 32
      && leAt bs 12 4 != 0 && leAt bs 16 4 != 0
  | .bmp, bs =>
      -- the header of Windows
      (leAt bs 14 4 == 40 && leAt bs 22 4 != 0 && positive 32 (leAt bs 18 4) && !(positive 16 (leAt bs 26 2) && leAt bs 26 2 != 1)
        && decide (leAt bs 30 4 ≤ 3) && !(leAt bs 30 4 == 3 && leAt bs 28 2 != 16 && leAt bs 28 2 != 32)
        && [1, 4, 8, 16, 24, 32].contains (leAt bs 28 2))
      -- the header of OS/2
      || (decide (26 ≤ leAt bs 10 4) && decide (12 ≤ leAt bs 14 4) && leAt bs 22 2 == 1 && leAt bs 18 2 != 0 && leAt bs 20 2 != 0
        && [1, 4, 8, 24].contains (leAt bs 24 2))
  | .blp, bs => decide (leAt bs 4 4 ≤ 1) && [1, 2].contains (leAt bs 8 1) && [0, 1, 8].contains (leAt bs 9 1)
      && [0, 1, 7, 8].contains (leAt bs 10 1) && leAt bs 12 4 != 0 && leAt bs 16 4 != 0
  | .exr, bs => leAt bs 4 4 == 0x2 || leAt bs 4 4 == 0x202
  | .ilbm, bs => has bs 8 [0x50, 0x42, 0x4D, 0x20] || has bs 8 [0x49, 0x4C, 0x42, 0x4D]  -- "PBM ", "ILBM"
  | .iwi, bs => leAt bs 6 2 != 0 && leAt bs 8 2 != 0
      && (if [0x0B, 0x0C, 0x0D].contains (leAt bs 4 1) then pow2 (leAt bs 6 2) && pow2 (leAt bs 8 2)
          else [1, 2, 3, 4].contains (leAt bs 4 1))
  | .lif, bs => leAt bs 8 4 == 260 && leAt bs 12 4 == 50
  | .mdl, bs => leAt bs 4 4 == 10
  | .mp3, bs => leAt bs 3 1 == 3 || leAt bs 4 1 == 4
  | .pcx, bs => ([0, 2, 5].contains (leAt bs 1 1) || leAt bs 14 2 == 3 || leAt bs 14 2 == 4)
      && (decide (leAt bs 3 1 < 8)
        -- the row length is the width, rounded up to an even number
        || (let w : Int := (leAt bs 8 2 : Int) - leAt bs 4 2 + 1
            decide ((leAt bs 66 2 : Int) = if w % 2 = 1 then w + 1 else w)))
  | .pic, bs => has bs 88 [0x50, 0x49, 0x43, 0x54] && beAt bs 92 2 != 0 && beAt bs 94 2 != 0  -- "PICT"
  | .psd, bs => beAt bs 4 2 == 1 && has bs 6 [0, 0, 0, 0, 0, 0] && decide (1 ≤ beAt bs 12 2) && decide (beAt bs 12 2 ≤ 24)
      && beAt bs 14 4 != 0 && beAt bs 18 4 != 0 && [1, 8, 16].contains (beAt bs 22 2)
  | .psp, bs => decide (3 ≤ leAt bs 32 2) && decide (leAt bs 32 2 ≤ 5) && leAt bs 34 2 == 0
  | .sgi, bs => [0, 1].contains (leAt bs 2 1) && leAt bs 3 1 != 0 && beAt bs 4 2 != 0 && beAt bs 6 2 != 0 && beAt bs 8 2 != 0
      && beAt bs 10 2 != 0
  | .scitex, bs => decide (leAt bs 1024 1 ≤ 1)
      && ((beAt bs 1026 2 == 7 && leAt bs 1025 1 == 3) || (beAt bs 1026 2 == 8 && leAt bs 1025 1 == 1))
      && dec.pos (at_ bs 1028 14) && dec.pos (at_ bs 1042 14) && dec.int (at_ bs 1056 12) && dec.trunc (at_ bs 1068 12)
  | .sun, bs => beAt bs 4 4 != 0 && beAt bs 8 4 != 0 && [1, 8, 24, 32].contains (beAt bs 12 4) && decide (beAt bs 20 4 ≤ 3)
      && decide (beAt bs 24 4 ≤ 1) && !(beAt bs 24 4 == 1 && beAt bs 28 4 == 0)
      && !((beAt bs 12 4 == 1 || beAt bs 12 4 == 32) && beAt bs 20 4 == 2)
  | .tpl, bs => beAt bs 4 4 != 0 && beAt bs 8 4 == 12
  | .vtf, bs => leAt bs 4 4 == 7 && decide (leAt bs 8 4 ≤ 4) && [64, 80, 96, 104].contains (leAt bs 12 4)
      && leAt bs 16 2 != 0 && leAt bs 18 2 != 0 && pow2 (leAt bs 16 2) && pow2 (leAt bs 18 2)
      -- the small version of the image
      && (leAt bs 61 1 == 0 || leAt bs 62 1 == 0 || (pow2 (leAt bs 61 1) && pow2 (leAt bs 62 1)))
      && decide (leAt bs 61 1 ≤ 16) && decide (leAt bs 62 1 ≤ 16)
      && decide (leAt bs 61 1 ≤ leAt bs 16 2) && decide (leAt bs 62 1 ≤ leAt bs 18 2)
      && (leAt bs 57 4 == 13 || leAt bs 57 4 == 0xFFFFFFFF)
  | .tga, bs => leAt bs 12 2 != 0 && leAt bs 14 2 != 0 && [8, 15, 16, 24, 32].contains (leAt bs 16 1)
      && leAt bs 17 1 / 16 % 2 == 0 && [0, 1, 2, 3, 9, 10, 11].contains (leAt bs 2 1)
  | _, _ => true

/-- The bytes are a file of this format, as far as its signature and its header tell. -/
def Fmt.is (dec : Dec) (f : Fmt) (bs : List UInt8) : Bool := f.sig bs && f.header dec bs

/-- The order in which the formats are tried. -/
def order : List Fmt := [.jpg, .dds, .png, .bmp, .blp, .exr, .gif, .hdr, .icns, .ilbm, .iwi, .jp2, .lif, .mdl, .mp3, .pcx,
  .pic, .pnm, .psd, .psp, .sgi, .scitex, .sun, .tif, .tpl, .vtf, .xpm, .tga]

/-- The type of a file: the first format in the order that it has; 0 (`IL_TYPE_UNKNOWN`) if there is none. -/
def typeOf (dec : Dec) (fs : List Fmt) (bs : List UInt8) : Nat :=
  match fs.find? (fun f => f.is dec bs) with
  | some f => f.code
  | none => IL_TYPE_UNKNOWN

/-- No header is cut short by the end of the bytes: there are at least 54, and as many as the header of every format
needs whose signature the bytes carry. -/
def Complete (bs : List UInt8) : Prop := 54 ≤ bs.length ∧ ∀ f : Fmt, f.sig bs = true → f.need ≤ bs.length

end DevIL.DetectSpec
