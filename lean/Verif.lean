import Verif.Core
import Verif.Props.Error
import Verif.Props.Utility
import Verif.Props.States
import Verif.Props.Stack
import Verif.Props.StackMore
import Verif.Props.Image
import Verif.Props.Manip
import Verif.Props.Block
import Verif.Props.Clear
import Verif.Props.Convert
import Verif.Props.Types
import Verif.Props.Half
import Verif.Props.Channels
import Verif.Props.ConvImage
import Verif.Props.Geometry
import Verif.Props.Lump
import Verif.Props.Endian
import Verif.Props.Bits
import Verif.Props.Pal
import Verif.Props.Raw
import Verif.Props.Rle
import Verif.Props.Targa
import Verif.Props.TargaLoad
import Verif.Props.TargaSave
import Verif.Props.Wbmp
import Verif.Props.Pcx
import Verif.Props.Ilu
import Verif.Props.Register
import Verif.Props.Blit
import Verif.Props.Sgi
import Verif.Props.SgiRle
import Verif.Props.SgiSave
import Verif.Props.SgiCut
import Verif.Props.Bmp
import Verif.Props.BmpRead
import Verif.Props.BmpRle
import Verif.Props.BmpSave
import Verif.Props.BmpCut
import Verif.Props.SaveL
import Verif.Props.Dxt
import Verif.Props.DxtFlip
import Verif.Props.DxtAlpha
import Verif.Model.Pnm
import Verif.Spec.Pnm
import Verif.Lemmas.Pnm
import Verif.Lemmas.PnmText
import Verif.Lemmas.PnmSave
import Verif.Lemmas.PnmFuel
import Verif.Lemmas.PnmBits
import Verif.Props.Pnm
import Verif.Model.Gif
import Verif.Spec.Gif
import Verif.Spec.GifFile
import Verif.Lemmas.GifBits
import Verif.Lemmas.GifLzw
import Verif.Lemmas.GifFile
import Verif.Lemmas.GifLoad
import Verif.Lemmas.GifRows
import Verif.Lemmas.GifPaint
import Verif.Lemmas.GifBad
import Verif.Lemmas.GifSafe
import Verif.Props.Gif
import Verif.Props.GifBad
import Verif.Model.Canvas
import Verif.Props.Canvas
import Verif.Model.Scale
import Verif.Lemmas.Scale
import Verif.Props.Scale
import Verif.Model.PalFile
import Verif.Lemmas.PalFile
import Verif.Spec.PalFile
import Verif.Props.PalFile
import Verif.Model.SaveFile
import Verif.Props.SaveFile
import Verif.Spec.Cache
import Verif.Model.Cache
import Verif.Lemmas.Cache
import Verif.Props.Cache
import Verif.Model.Fix
import Verif.Lemmas.Fix
import Verif.Spec.Fix
import Verif.Props.Fix
import Verif.Spec.Detect
import Verif.Model.Detect
import Verif.Lemmas.Detect
import Verif.Lemmas.DetectV
import Verif.Lemmas.DetectW
import Verif.Lemmas.DetectK
import Verif.Lemmas.DetectT
import Verif.Props.Detect
import Verif.Spec.Games
import Verif.Model.Games
import Verif.Lemmas.Games
import Verif.Lemmas.GamesB
import Verif.Lemmas.GamesC
import Verif.Lemmas.GamesD
import Verif.Lemmas.GamesE
import Verif.Lemmas.GamesF
import Verif.Lemmas.GamesG
import Verif.Props.Games
import Verif.Spec.Ilut
import Verif.Spec.IluMisc
import Verif.Model.Ilut
import Verif.Model.IluMisc
import Verif.Lemmas.Ilut
import Verif.Props.Ilut
import Verif.Props.IluMisc
import Verif.Spec.Hdr
import Verif.Model.Hdr
import Verif.Lemmas.Hdr
import Verif.Lemmas.HdrRead
import Verif.Lemmas.HdrHead
import Verif.Lemmas.HdrLoad
import Verif.Lemmas.HdrSave
import Verif.Lemmas.HdrSafe
import Verif.Props.Hdr
import Verif.Model.Colour
import Verif.Spec.Colour
import Verif.Lemmas.Colour
import Verif.Lemmas.Tone
import Verif.Props.Colour
import Verif.Props.Tone
import Verif.Props.Dds
import Verif.Props.Copy
import Verif.Model.DxtSave
import Verif.Spec.DxtSave
import Verif.Lemmas.DxtSave
import Verif.Lemmas.DxtSaveB
import Verif.Lemmas.DxtSaveC
import Verif.Lemmas.DxtSaveD
import Verif.Lemmas.DxtSaveE
import Verif.Lemmas.Dxt3dc
import Verif.Props.DxtSave
import Verif.Props.Dxt3dc
import Verif.Model.Filter
import Verif.Spec.Filter
import Verif.Lemmas.Filter
import Verif.Lemmas.FilterB
import Verif.Props.Filter
import Verif.Model.Sun
import Verif.Spec.Sun
import Verif.Lemmas.Sun
import Verif.Lemmas.SunB
import Verif.Props.Sun
import Verif.Model.Key
import Verif.Lemmas.Key
import Verif.Props.Key
import Verif.Model.RawData
import Verif.Model.Dpx
import Verif.Spec.Dpx
import Verif.Lemmas.Dpx
import Verif.Lemmas.DpxB
import Verif.Lemmas.DpxC
import Verif.Props.Dpx
import Verif.Model.Psd
import Verif.Spec.Psd
import Verif.Lemmas.Psd
import Verif.Lemmas.PsdB
import Verif.Lemmas.PsdC
import Verif.Lemmas.PsdD
import Verif.Lemmas.PsdE
import Verif.Lemmas.PsdF
import Verif.Lemmas.PsdG
import Verif.Lemmas.PsdH
import Verif.Lemmas.PsdS
import Verif.Props.Psd
import Verif.Props.Pic
import Verif.Props.Fits
import Verif.Props.DdsSave
import Verif.Props.DdsMip
import Verif.Props.Iwi
import Verif.Props.StackReg
import Verif.Props.Scitex
import Verif.Props.Rot
import Verif.Props.Dcx
import Verif.Props.Wu
import Verif.Props.Rotate
import Verif.Props.CHeader
import Verif.Props.Neu
import Verif.Props.Tpl
import Verif.Props.Icns
import Verif.Props.Texture
import Verif.Props.Ico
import Verif.Props.Pcd
import Verif.Props.Mp3
import Verif.Props.Blp
import Verif.Props.Ktx
import Verif.Props.Iff
import Verif.Props.Utx
