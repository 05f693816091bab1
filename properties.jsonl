{"id": "C01", "title": "Error queue is LIFO", "statement": "ilGetError returns the pending errors newest first, one per call, and IL_NO_ERROR once all have been returned; an error that was recorded while at most 31 others were pending is never lost, duplicated or reordered.", "quantifier": "every history of ilSetError/ilGetError calls in which at most 32 errors are pending at any time", "why_tests_cant": "the claim ranges over all interleavings of failing calls and reads; a test samples a few histories", "anchors": [{"file": "DevIL/src-IL/src/il_error.cpp", "symbols": ["ilSetError", "ilGetError"]}]}
{"id": "C02", "title": "Error queue overflow keeps the newest 32", "statement": "However many errors are recorded without being read, reading never touches memory outside the 32-entry store, the first ilGetError returns the newest error, and exactly min(n,32) reads drain n unread errors; the errors returned are the newest 32 in LIFO order.", "quantifier": "every history, of any length, of recording and reading errors", "why_tests_cant": "overflow only shows after 33+ unread errors and its effect depends on the whole history", "anchors": [{"file": "DevIL/src-IL/src/il_error.cpp", "symbols": ["ilSetError", "ilGetError"]}]}
{"id": "C03", "title": "Generated image names are fresh", "statement": "Every name ilGenImages writes to the caller's array is non-zero, names no image that was live before the call, and the names written by one call are pairwise distinct.", "quantifier": "every history of ilGenImages/ilBindImage/ilDeleteImages after ilInit", "why_tests_cant": "name recycling makes freshness depend on the complete history of deletions and binds", "anchors": [{"file": "DevIL/src-IL/src/il_stack.cpp", "symbols": ["ilGenImages", "ilDeleteImages", "ilBindImage", "FreeNames"]}]}
{"id": "C04", "title": "ilIsImage is exact", "statement": "ilIsImage(n) is true exactly for the names that have been created (generated or bound) since they were last deleted.", "quantifier": "every history of generate/bind/delete calls and every name", "why_tests_cant": "a set-membership claim over all histories", "anchors": [{"file": "DevIL/src-IL/src/il_stack.cpp", "symbols": ["ilIsImage", "ilGenImages", "ilBindImage", "ilDeleteImages"]}]}
{"id": "C05", "title": "The bound image is always alive", "statement": "After ilInit the currently bound image always exists: no sequence of generate, bind and delete calls leaves the library operating on a freed image; deleting the bound image rebinds image 0.", "quantifier": "every history of generate/bind/delete calls", "why_tests_cant": "use-after-free needs a particular history; tests see it only if they hit it and the allocator misbehaves", "anchors": [{"file": "DevIL/src-IL/src/il_stack.cpp", "symbols": ["ilBindImage", "ilDeleteImages", "ilGenImages", "ilGetCurName"]}]}
{"id": "C06", "title": "No image is freed twice and none leaks", "statement": "Along any history each image object is freed at most once, and every image object that has been allocated and not freed is reachable through its name.", "quantifier": "every history of generate/bind/delete calls", "why_tests_cant": "double frees and leaks are properties of the allocation history, invisible to functional tests", "anchors": [{"file": "DevIL/src-IL/src/il_stack.cpp", "symbols": ["ilDeleteImages", "ilCloseImage", "ilGenImages"]}]}
{"id": "C07", "title": "Other images are untouched", "statement": "Generating, binding or deleting names never changes the contents of an image whose name is not one of those deleted.", "quantifier": "every history and every pair of distinct names", "why_tests_cant": "frame properties quantify over all the state not mentioned by the call", "anchors": [{"file": "DevIL/src-IL/src/il_stack.cpp", "symbols": ["ilGenImages", "ilBindImage", "ilDeleteImages"]}]}
{"id": "C08", "title": "Selecting sub-images is exact or a no-op", "statement": "ilActiveImage/ilActiveMipmap/ilActiveFace/ilActiveLayer(n) select precisely the n-th element of the corresponding chain, or, when there is none, return false, record IL_ILLEGAL_OPERATION and leave the selection unchanged.", "quantifier": "every chain length and every index", "why_tests_cant": "chains are unbounded linked lists", "anchors": [{"file": "DevIL/src-IL/src/il_stack.cpp", "symbols": ["ilActiveMipmap", "ilActiveImage", "ilActiveFace", "ilActiveLayer"]}]}
{"id": "C09", "title": "Enable/disable/query agree", "statement": "After ilEnable(m) (ilDisable(m)) ilIsEnabled(m) is true (false) and every other mode reads as before; an unknown mode changes nothing and records IL_INVALID_ENUM.", "quantifier": "every state, every mode value of the enum type", "why_tests_cant": "the frame half ranges over all states and all other modes", "anchors": [{"file": "DevIL/src-IL/src/il_states.cpp", "symbols": ["ilEnable", "ilDisable", "ilIsEnabled", "ilAble"]}]}
{"id": "C10", "title": "Attribute push/pop restores the state", "statement": "After ilPushAttrib, any number of state-changing calls and the matching ilPopAttrib, every attribute reads as it did before the push; nesting works to the documented depth; overflow and underflow are reported and change nothing.", "quantifier": "every state, every mask, every nested balanced sequence of pushes, pops and state changes", "why_tests_cant": "unbounded nesting of arbitrary call sequences", "anchors": [{"file": "DevIL/src-IL/src/il_states.cpp", "symbols": ["ilPushAttrib", "ilPopAttrib"]}]}
{"id": "C11", "title": "Integer state set/get", "statement": "If ilSetInteger(m,v) records no error then ilGetInteger(m) returns v and no other integer mode changes; if v is not one of the values documented for m the call changes nothing and records an error.", "quantifier": "every state, every mode, every 32-bit value", "why_tests_cant": "2^32 values times all states", "anchors": [{"file": "DevIL/src-IL/src/il_states.cpp", "symbols": ["ilSetInteger", "ilGetIntegerv", "iGetInt"]}]}
{"id": "C12", "title": "Origin/format/type functions validate", "statement": "ilOriginFunc/ilFormatFunc/ilTypeFunc accept exactly the documented enums, make them readable through ilGetInteger, and otherwise change nothing.", "quantifier": "every 32-bit enum value and every state", "why_tests_cant": "the set of rejected values is the whole 32-bit space minus a few", "anchors": [{"file": "DevIL/src-IL/src/il_states.cpp", "symbols": ["ilOriginFunc", "ilFormatFunc", "ilTypeFunc", "ilCompressFunc"]}]}
{"id": "C13", "title": "Hints select exactly one policy", "statement": "ilHint(target,mode) sets the policy of the given target to the given documented mode, leaves other targets alone and rejects anything else.", "quantifier": "every state and every pair of 32-bit enums", "why_tests_cant": "frame and rejection quantify over all states and values", "anchors": [{"file": "DevIL/src-IL/src/il_states.cpp", "symbols": ["ilHint", "iGetHint"]}]}
{"id": "C14", "title": "Image geometry is consistent", "statement": "Whenever ilTexImage succeeds, the image reports the requested dimensions (0 read as 1), bytes per scan line = width*bpp*bpc, plane = scanline*height, data = plane*depth, and the pixel buffer really has that many bytes.", "quantifier": "every width, height, depth, bytes-per-pixel and type", "why_tests_cant": "32-bit overflow needs dimensions no test allocates", "anchors": [{"file": "DevIL/src-IL/src/il_devil.cpp", "symbols": ["ilTexImage", "ilTexImage_", "ilInitImage"]}]}
{"id": "C15", "title": "Geometry is invariant under image operations", "statement": "Resizing, converting, flipping, mirroring, swapping colours, adding or removing alpha keep the relation between the reported geometry and the real buffer size, in any order.", "quantifier": "every sequence of these operations on every image", "why_tests_cant": "an invariant over unbounded operation sequences", "anchors": [{"file": "DevIL/src-IL/src/il_convert.cpp", "symbols": ["ilConvertImage", "ilAddAlpha", "ilRemoveAlpha", "ilSwapColours"]}, {"file": "DevIL/src-IL/src/il_devil.cpp", "symbols": ["ilResizeImage"]}]}
{"id": "C16", "title": "Flip reverses the rows", "statement": "Flipping moves row r of every slice to row height-1-r, leaves the pixels inside a row alone, and flipping twice is the identity.", "quantifier": "every image (width, height, depth, pixel size, content)", "why_tests_cant": "all sizes including odd heights and all contents", "anchors": [{"file": "DevIL/src-IL/src/il_manip.cpp", "symbols": ["iFlipBuffer", "iFlipNewBuffer", "ilFlipImage"]}]}
{"id": "C17", "title": "Mirror reverses the columns", "statement": "Mirroring moves pixel x of every row to width-1-x with its components in order, and mirroring twice is the identity.", "quantifier": "every image of every supported component size", "why_tests_cant": "all sizes and contents", "anchors": [{"file": "DevIL/src-IL/src/il_manip.cpp", "symbols": ["iMirror"]}]}
{"id": "C18", "title": "ilCopyPixels returns the clipped block", "statement": "Reading a block delivers at position (x,y,z) of the caller's buffer the pixel (x+xoff,y+yoff,z+zoff) of the image for all positions inside the image, leaves the remainder of the caller's buffer alone, and never reads outside the image or writes outside the caller's buffer.", "quantifier": "every image and every block position and size", "why_tests_cant": "memory-safety claims range over all offsets and sizes", "anchors": [{"file": "DevIL/src-IL/src/il_manip.cpp", "symbols": ["ilCopyPixels", "ilCopyPixels1D", "ilCopyPixels2D", "ilCopyPixels3D"]}]}
{"id": "C19", "title": "ilSetPixels writes exactly the clipped block", "statement": "Writing a block changes exactly the image pixels covered by the (possibly negative) offset and size, to the caller's values, and nothing else; reading the same block back returns the written values.", "quantifier": "every image, every signed offset, every size, every source block", "why_tests_cant": "clipping has many boundary combinations over unbounded sizes", "anchors": [{"file": "DevIL/src-IL/src/il_manip.cpp", "symbols": ["ilSetPixels", "ilSetPixels1D", "ilSetPixels2D", "ilSetPixels3D"]}]}
{"id": "C20", "title": "Fast channel swap is an involution", "statement": "Converting RGB<->BGR or RGBA<->BGRA in place exchanges exactly the first and third component of every pixel; converting back restores the image; other format pairs are refused and leave the data alone.", "quantifier": "every buffer of every length and component type", "why_tests_cant": "all buffer contents and lengths", "anchors": [{"file": "DevIL/src-IL/src/il_fastconv.cpp", "symbols": ["iFastConvert"]}]}
{"id": "C21", "title": "Channel conversion preserves components", "statement": "Converting between RGB, RGBA, BGR and BGRA delivers each pixel's red, green and blue unchanged in the destination order, its alpha unchanged when both have one and fully opaque when the source has none.", "quantifier": "every pixel buffer and every pair of these formats", "why_tests_cant": "all contents, lengths and twelve format pairs", "anchors": [{"file": "DevIL/src-IL/src/il_convbuff.cpp", "symbols": ["ilConvertBuffer"]}]}
{"id": "C22", "title": "Conversion never leaves its buffers", "statement": "Format conversion never reads outside the source buffer or writes outside the destination buffer.", "quantifier": "every pair of formats, every component type, every buffer of whole pixels", "why_tests_cant": "an out-of-bounds access of a few bytes rarely crashes a test", "anchors": [{"file": "DevIL/src-IL/src/il_convbuff.cpp", "symbols": ["ilConvertBuffer"]}]}
{"id": "C23", "title": "Luminance weighs colours, not positions", "statement": "The luminance of a pixel depends on its red, green and blue values and not on whether they are stored in RGB or BGR order.", "quantifier": "every pixel and every colour format", "why_tests_cant": "all pixel values", "anchors": [{"file": "DevIL/src-IL/src/il_convbuff.cpp", "symbols": ["ilConvertBuffer"]}]}
{"id": "C24", "title": "Type widening is lossless", "statement": "Converting integer components to a wider integer type and back returns the original image; widening maps 0 to 0 and full scale to full scale; widening and narrowing preserve order.", "quantifier": "every component value of every integer type and every buffer", "why_tests_cant": "2^32 component values and all lengths", "anchors": [{"file": "DevIL/src-IL/src/il_convbuff.cpp", "symbols": ["iSwitchTypes"]}]}
{"id": "C25", "title": "Type conversion initialises its result", "statement": "Every byte of the buffer produced by a component-type conversion is a function of the input.", "quantifier": "every pair of component types and every buffer", "why_tests_cant": "uninitialised memory is usually zero in tests", "anchors": [{"file": "DevIL/src-IL/src/il_convbuff.cpp", "symbols": ["iSwitchTypes"]}]}
{"id": "C26", "title": "Adding then removing alpha is the identity", "statement": "ilAddAlpha leaves every colour component unchanged and makes every pixel opaque; ilRemoveAlpha drops exactly the alpha; doing both restores the image.", "quantifier": "every RGB/BGR image of every type and size", "why_tests_cant": "all sizes and contents, including component sizes above one byte", "anchors": [{"file": "DevIL/src-IL/src/il_convert.cpp", "symbols": ["ilAddAlpha", "ilRemoveAlpha"]}]}
{"id": "C27", "title": "Alpha replacement touches only alpha", "statement": "ilSetAlpha sets the alpha of every pixel and changes no colour component.", "quantifier": "every image and value", "why_tests_cant": "frame property over all pixels", "anchors": [{"file": "DevIL/src-IL/src/il_manip.cpp", "symbols": ["ilSetAlpha", "ilGetAlpha"]}]}
{"id": "C28", "title": "Half-float conversion round-trips", "statement": "Every 16-bit half value converted to a float and back is unchanged.", "quantifier": "all 65536 half values", "why_tests_cant": "rounding edge cases (denormals, infinities, NaNs) are easily missed", "anchors": [{"file": "DevIL/src-IL/src/il_manip.cpp", "symbols": ["ilHalfToFloat", "ilFloatToHalf"]}]}
{"id": "C29", "title": "Palette conversion preserves colours", "statement": "Converting a palette between its six layouts keeps the number of entries and every entry's red, green and blue; alpha is preserved between layouts that have it and opaque when the source has none.", "quantifier": "every palette of every size and every pair of layouts", "why_tests_cant": "36 layout pairs times all contents", "anchors": [{"file": "DevIL/src-IL/src/il_pal.cpp", "symbols": ["iConvertPal", "ilConvertPal"]}]}
{"id": "C30", "title": "Paletted pixels show their palette entry", "statement": "Converting a colour-indexed image to RGB(A)/BGR(A) gives every pixel the colour of its palette entry and never reads outside the palette.", "quantifier": "every palette, every index buffer", "why_tests_cant": "a malformed index reads past the palette without visible failure", "anchors": [{"file": "DevIL/src-IL/src/il_convert.cpp", "symbols": ["iConvertPalette"]}]}
{"id": "C31", "title": "Luminance to colour index is exact", "statement": "Converting a luminance image to colour index yields an image in which every pixel's palette entry is the original grey.", "quantifier": "every luminance image", "why_tests_cant": "all contents", "anchors": [{"file": "DevIL/src-IL/src/il_convert.cpp", "symbols": ["iConvertImage"]}]}
{"id": "C32", "title": "Reading a lump stays inside the lump", "statement": "Whatever sequence of reads, seeks and single-byte reads a loader performs on a memory lump, no byte outside the lump is accessed.", "quantifier": "every lump and every sequence of read/getc/seek operations with every argument", "why_tests_cant": "memory safety over unbounded operation sequences", "anchors": [{"file": "DevIL/src-IL/src/il_files.cpp", "symbols": ["iReadLump", "iSeekRLump", "iGetcLump", "iTellRLump", "iEofLump"]}]}
{"id": "C33", "title": "A lump reads like a file", "statement": "Sequential reads from a lump return consecutive bytes of it, the position is the number of bytes consumed, a short read happens only at the end, and seek/tell agree.", "quantifier": "every lump and every sequence of reads and seeks", "why_tests_cant": "refinement over unbounded histories", "anchors": [{"file": "DevIL/src-IL/src/il_files.cpp", "symbols": ["iReadLump", "iSeekRLump", "iTellRLump"]}]}
{"id": "C34", "title": "Writing a lump stays inside the lump", "statement": "Saving to a caller buffer of Size bytes never writes outside it, whatever sequence of writes, putc and seeks the saver performs.", "quantifier": "every buffer size and every operation sequence", "why_tests_cant": "a heap overflow need not be visible", "anchors": [{"file": "DevIL/src-IL/src/il_files.cpp", "symbols": ["iWriteLump", "iPutcLump", "iSeekWLump"]}]}
{"id": "C35", "title": "The dry run reports the real size", "statement": "ilDetermineSize returns exactly the number of bytes the corresponding save writes.", "quantifier": "every image", "why_tests_cant": "a one-byte discrepancy only matters to callers that allocate exactly", "anchors": [{"file": "DevIL/src-IL/src/il_size.cpp", "symbols": ["ilDetermineSize", "iSizeSeek", "iSizePutc", "iSizeWrite"]}, {"file": "DevIL/src-IL/src/il_targa.cpp", "symbols": ["iTargaSize"]}]}
{"id": "C36", "title": "Endian helpers round-trip", "statement": "Saving a 16/32-bit value little- or big-endian and reading it with the matching function returns it; the in-place byte swaps are involutions for every width.", "quantifier": "every value", "why_tests_cant": "2^32..2^64 values", "anchors": [{"file": "DevIL/src-IL/src/il_endian.cpp", "symbols": ["iSwapUShort", "iSwapUInt", "iSwapDouble", "GetLittleUInt", "SaveLittleUInt", "GetBigUShort", "SaveBigUShort"]}]}
{"id": "C37", "title": "Bit reader delivers the bits in order", "statement": "Reading n one-bit items from a bit file delivers the next n bits of the file, most significant first, regardless of how the reads are grouped.", "quantifier": "every file and every grouping of reads", "why_tests_cant": "all lengths and groupings", "anchors": [{"file": "DevIL/src-IL/src/il_bits.cpp", "symbols": ["bread", "bfile", "breadVal"]}]}
{"id": "C38", "title": "RAW save/load round-trips", "statement": "An image saved in the RAW format and loaded again has the same width, height, depth, bytes per pixel, component size and pixel data.", "quantifier": "every image", "why_tests_cant": "all sizes and contents", "anchors": [{"file": "DevIL/src-IL/src/il_raw.cpp", "symbols": ["iSaveRawInternal", "iLoadRawInternal"]}]}
{"id": "C39", "title": "TGA save/load round-trips", "statement": "A true-colour or grey image saved uncompressed as TGA and loaded again shows the same picture.", "quantifier": "every image below 65536x65536, both origins", "why_tests_cant": "all sizes, contents and origins", "anchors": [{"file": "DevIL/src-IL/src/il_targa.cpp", "symbols": ["iSaveTargaInternal", "iLoadTargaInternal", "iReadUnmapTga", "iReadBwTga"]}]}
{"id": "C40", "title": "TGA run-length decoding is safe", "statement": "Decoding any byte stream as RLE TGA data terminates, never writes outside the image and never reads outside the stream.", "quantifier": "every byte stream and image size", "why_tests_cant": "adversarial streams", "anchors": [{"file": "DevIL/src-IL/src/il_targa.cpp", "symbols": ["iUncompressTgaData"]}]}
{"id": "C41", "title": "Run-length encoding round-trips", "statement": "Decoding the run-length encoding of any scan line returns the scan line; the reported length is the number of bytes produced; the encoder never reads outside its input.", "quantifier": "every scan line of every length and pixel size", "why_tests_cant": "all contents", "anchors": [{"file": "DevIL/src-IL/src/il_rle.cpp", "symbols": ["ilRleCompressLine", "ilRleCompress"]}, {"file": "DevIL/src-IL/include/il_rle.h", "symbols": ["CountDiffPixels", "CountSamePixels", "GetPix"]}]}
{"id": "C42", "title": "PCX scan lines round-trip", "statement": "Decoding the PCX encoding of any scan line returns the scan line, for any number of planes and any width.", "quantifier": "every scan line, width and number of planes", "why_tests_cant": "run-length boundaries (63) and escape bytes over all contents", "anchors": [{"file": "DevIL/src-IL/src/il_pcx.cpp", "symbols": ["encLine", "encput", "iUncompressPcx"]}]}
{"id": "C43", "title": "PCX decoding is safe", "statement": "Decoding any byte stream as PCX data never writes outside the scan line or the image.", "quantifier": "every byte stream and header accepted by the header check", "why_tests_cant": "adversarial files", "anchors": [{"file": "DevIL/src-IL/src/il_pcx.cpp", "symbols": ["iUncompressPcx", "iUncompressSmall", "iCheckPcx"]}]}
{"id": "C44", "title": "SGI verbatim images round-trip", "statement": "An 8-bit image saved as uncompressed SGI and loaded again has the same pixels in the same places.", "quantifier": "every image size, channel count and content", "why_tests_cant": "all sizes and contents", "anchors": [{"file": "DevIL/src-IL/src/il_sgi.cpp", "symbols": ["iSaveSgiInternal", "iReadNonRleSgi", "iNewSgi"]}]}
{"id": "C45", "title": "SGI run-length decoding is safe", "statement": "Decoding any SGI scan line never writes outside the line buffer.", "quantifier": "every byte stream", "why_tests_cant": "adversarial files", "anchors": [{"file": "DevIL/src-IL/src/il_sgi.cpp", "symbols": ["iGetScanLine"]}]}
{"id": "C46", "title": "BMP rows round-trip", "statement": "A BGR or palette image saved as BMP and loaded again has the same pixels; each stored row is padded to four bytes.", "quantifier": "every image size and content", "why_tests_cant": "all widths modulo four, all contents", "anchors": [{"file": "DevIL/src-IL/src/il_bmp.cpp", "symbols": ["iSaveBitmapInternal", "ilReadUncompBmp"]}]}
{"id": "C47", "title": "BMP run-length decoding is safe", "statement": "Decoding any byte stream as BMP RLE8 or RLE4 never writes outside the image.", "quantifier": "every byte stream and image size", "why_tests_cant": "adversarial files with delta escapes", "anchors": [{"file": "DevIL/src-IL/src/il_bmp.cpp", "symbols": ["ilReadRLE8Bmp", "ilReadRLE4Bmp"]}]}
{"id": "C48", "title": "WBMP integers and bits round-trip", "statement": "The multi-byte integers of WBMP encode every 32-bit value and decode to the same value; packed rows decode to the packed pixels.", "quantifier": "all 2^32 values; every row width and content", "why_tests_cant": "full 32-bit domain", "anchors": [{"file": "DevIL/src-IL/src/il_wbmp.cpp", "symbols": ["WbmpPutMultibyte", "WbmpGetMultibyte", "iSaveWbmpInternal", "iLoadWbmpInternal"]}]}
{"id": "C49", "title": "Negative is an involution", "statement": "iluNegative replaces every component by its complement; applying it twice restores the image.", "quantifier": "every image of every component size", "why_tests_cant": "all contents", "anchors": [{"file": "DevIL/src-ILU/src/ilu_manip.cpp", "symbols": ["iluNegative"]}]}
{"id": "C50", "title": "Alpha inversion inverts every pixel's alpha", "statement": "iluInvertAlpha complements the alpha of every pixel and leaves the colours alone; twice is the identity.", "quantifier": "every image with alpha", "why_tests_cant": "an error on the last pixels is easily overlooked", "anchors": [{"file": "DevIL/src-ILU/src/ilu_manip.cpp", "symbols": ["iluInvertAlpha"]}]}
{"id": "C51", "title": "Crop returns the requested rectangle", "statement": "iluCrop yields the image whose pixel (x,y) is the original pixel (x+xoff,y+yoff), for every rectangle it accepts, without reading outside the image.", "quantifier": "every image and rectangle", "why_tests_cant": "all offsets and sizes", "anchors": [{"file": "DevIL/src-ILU/src/ilu_manip.cpp", "symbols": ["iluCrop", "iluCrop2D"]}]}
{"id": "C52", "title": "Image comparison is equality", "statement": "iluCompareImages returns true exactly when two images have the same dimensions, layout and pixels, and leaves the binding unchanged.", "quantifier": "every pair of images", "why_tests_cant": "all pairs", "anchors": [{"file": "DevIL/src-ILU/src/ilu_manip.cpp", "symbols": ["iluCompareImages", "iluCompareImage"]}]}
{"id": "C53", "title": "Colour counting counts distinct colours", "statement": "iluColoursUsed returns the number of distinct colours in the image and stays inside its buffers.", "quantifier": "every image", "why_tests_cant": "all contents", "anchors": [{"file": "DevIL/src-ILU/src/ilu_manip.cpp", "symbols": ["iluColoursUsed"]}]}
{"id": "C54", "title": "Mipmap chain halves down to one", "statement": "iluBuildMipmaps terminates with a chain in which every level halves each dimension (not below one) and the last level is 1x1x1.", "quantifier": "every image size", "why_tests_cant": "all sizes", "anchors": [{"file": "DevIL/src-ILU/src/ilu_mipmap.cpp", "symbols": ["iluBuildMipmaps", "iBuildMipmaps"]}]}
{"id": "C55", "title": "Registered handlers are found and unique", "statement": "After registering a loader for an extension it is the one called for that extension; registering again does not create a second handler; removing it removes it.", "quantifier": "every history of register/remove calls and every extension", "why_tests_cant": "list manipulation over unbounded histories", "anchors": [{"file": "DevIL/src-IL/src/il_register.cpp", "symbols": ["ilRegisterLoad", "ilRemoveLoad", "iRegisterLoad"]}]}
{"id": "C56", "title": "File type is decided by the extension", "statement": "ilTypeFromExt depends only on the text after the last dot, ignores case, and returns unknown for anything else.", "quantifier": "every file name", "why_tests_cant": "unbounded strings", "anchors": [{"file": "DevIL/src-IL/src/il_io.cpp", "symbols": ["ilTypeFromExt"]}, {"file": "DevIL/src-IL/src/il_internal.cpp", "symbols": ["iGetExtension", "iCheckExtension"]}]}
{"id": "C57", "title": "Format and type tables agree", "statement": "The functions that give a format's component count and a type's component size are mutually consistent on every documented enum and reject every other value.", "quantifier": "every 32-bit enum value", "why_tests_cant": "rejection over the whole 32-bit space", "anchors": [{"file": "DevIL/src-IL/src/il_utility.cpp", "symbols": ["ilGetBppFormat", "ilGetFormatBpp", "ilGetBpcType", "ilGetTypeBpc", "ilGetBppPal", "ilGetPalBaseType"]}]}
{"id": "C58", "title": "Next power of two", "statement": "ilNextPower2(n) returns the least power of two not below n and terminates.", "quantifier": "every 32-bit value", "why_tests_cant": "termination for every input", "anchors": [{"file": "DevIL/src-IL/src/il_utility.cpp", "symbols": ["ilNextPower2"]}]}
{"id": "C59", "title": "NTSC clamp", "statement": "ilClampNTSC puts every component in 16..235, leaves values already in range alone and is idempotent.", "quantifier": "every image", "why_tests_cant": "all contents", "anchors": [{"file": "DevIL/src-IL/src/il_manip.cpp", "symbols": ["ilClampNTSC"]}]}
{"id": "C60", "title": "Clearing paints every pixel", "statement": "ilClearImage gives every pixel of the image the clear colour expressed in the image's format.", "quantifier": "every image and clear colour", "why_tests_cant": "all sizes", "anchors": [{"file": "DevIL/src-IL/src/il_devil.cpp", "symbols": ["ilClearImage", "ilClearImage_", "iGetClear"]}]}
{"id": "C61", "title": "Blit copies exactly the visible rectangle", "statement": "ilBlit/ilOverlayImage replace exactly the destination pixels covered by the visible part of the source (blending disabled), never touch other pixels and never access memory outside either image.", "quantifier": "every pair of images, every signed destination offset, every source rectangle", "why_tests_cant": "clipping corner cases over all sizes", "anchors": [{"file": "DevIL/src-IL/src/il_devil.cpp", "symbols": ["ilBlit", "ilOverlayImage"]}]}
{"id": "C62", "title": "Integer square root", "statement": "The library's integer square root never reads outside its table for any 32-bit argument and is the exact floor square root for arguments below 289.", "quantifier": "every 32-bit value", "why_tests_cant": "safety over the full 32-bit range", "anchors": [{"file": "DevIL/src-IL/src/il_internal.cpp", "symbols": ["iSqrt"]}]}
{"id": "C63", "title": "Memory swap exchanges two buffers", "statement": "Swapping two disjoint buffers of the same size exchanges their contents, for every size including those that are not a multiple of the internal block size.", "quantifier": "every pair of equally long buffers", "why_tests_cant": "all lengths and block remainders", "anchors": [{"file": "DevIL/src-IL/src/il_utility.cpp", "symbols": ["iMemSwap"]}]}
{"id": "C64", "title": "Image queries report the image", "statement": "ilGetInteger of each image query returns the corresponding attribute of the bound image, and does not change any state.", "quantifier": "every image, every query mode, every state", "why_tests_cant": "all attribute combinations", "anchors": [{"file": "DevIL/src-IL/src/il_states.cpp", "symbols": ["iGetIntegervImage", "ilGetIntegerv"]}]}
{"id": "C65", "title": "Created sub-images can be selected", "statement": "After ilCreateSubImage(type, n) with n > 0 returned n, the matching selection call (ilActiveImage, ilActiveMipmap, ilActiveLayer) succeeds for every index up to n and fails beyond.", "quantifier": "every history of calls, every n > 0, every index", "why_tests_cant": "the chain length is unbounded and the history before the call matters (old chains are closed first)", "anchors": [{"file": "DevIL/src-IL/src/il_stack.cpp", "symbols": ["ilCreateSubImage", "ilActiveImage", "ilActiveMipmap", "ilActiveLayer"]}]}
{"id": "C66", "title": "ilShutDown releases every image exactly once", "statement": "After any history, ilShutDown frees every image object exactly once and leaves no usable name; nothing is freed twice, and the library does not keep using a freed image.", "quantifier": "every history of calls before ilShutDown", "why_tests_cant": "histories are unbounded; leaks and stale pointers depend on the order of gen, bind, delete and sub-image calls", "anchors": [{"file": "DevIL/src-IL/src/il_stack.cpp", "symbols": ["ilShutDown", "ilCloseImage"]}]}
{"id": "C67", "title": "Binding any image name stays inside the name table", "statement": "ilBindImage(n) grows the name table so that entry n lies inside the allocated block, for every 32-bit name n.", "quantifier": "every image name", "why_tests_cant": "the byte count wraps only for names beyond 2^29, out of reach of a test machine", "anchors": [{"file": "DevIL/src-IL/src/il_stack.cpp", "symbols": ["iEnlargeStack", "ilRecalloc", "ilBindImage"]}]}
{"id": "C68", "title": "A failed ilTexImage leaves the image usable", "statement": "When ilTexImage fails, the image still has no data or valid data: later calls on it neither read freed memory nor free it again.", "quantifier": "every image state, every argument, success or failure of the allocation", "why_tests_cant": "the failure path needs a bad type or exhausted memory followed by another call", "anchors": [{"file": "DevIL/src-IL/src/il_devil.cpp", "symbols": ["ilTexImage", "ilTexImage_", "ilInitImage"]}]}
{"id": "C69", "title": "Grey and alpha conversions", "statement": "Converting a luminance buffer to a colour format repeats the luminance in red, green and blue; luminance and alpha are kept wherever source and destination both have them; an alpha-only buffer becomes black with its alpha.", "quantifier": "every buffer, length and component type", "why_tests_cant": "all contents and lengths of every format pair", "anchors": [{"file": "DevIL/src-IL/src/il_convbuff.cpp", "symbols": ["ilConvertBuffer"]}]}
{"id": "C70", "title": "Float to half rounding is to nearest", "statement": "A float in the range of the normal half numbers converts to a half of the same sign that differs from it by at most half a unit in the half's last place, including when rounding carries into the exponent; values rounding past the largest half, larger ones and infinities become infinity; NaNs stay NaNs; floats from 2^-25 up to the normal range become the nearest half denormal of their sign.", "quantifier": "every float of magnitude 2^-25 or more, infinities and NaNs", "why_tests_cant": "half a billion inputs; carries only at exponent boundaries", "anchors": [{"file": "DevIL/src-IL/src/il_manip.cpp", "symbols": ["ilFloatToHalf"]}]}
{"id": "C71", "title": "Colour swap exchanges red and blue", "statement": "ilSwapColours exchanges the first and third component of every pixel of an RGB, BGR, RGBA or BGRA image and gives it the matching format, so that every pixel keeps its colour.", "quantifier": "every image of these formats, every component type and every size", "why_tests_cant": "all sizes, depths and contents", "anchors": [{"file": "DevIL/src-IL/src/il_convert.cpp", "symbols": ["ilSwapColours"]}]}
{"id": "C72", "title": "Conversion treats every image of a chain alike", "statement": "ilConvertImage converts the current image and all images that follow it in its chain to the requested format and type, or reports failure and leaves all of them as they were.", "quantifier": "every chain of images, of any length and contents, and every format and type", "why_tests_cant": "chains of any length mixed in format, and failures at any position", "anchors": [{"file": "DevIL/src-IL/src/il_convert.cpp", "symbols": ["ilConvertImage", "iConvertImage"]}, {"file": "DevIL/src-IL/src/il_fastconv.cpp", "symbols": ["iFastConvert"]}]}
{"id": "C73", "title": "Alpha extraction returns every pixel's alpha", "statement": "ilGetAlpha returns, in pixel order, the alpha of every pixel in the requested component type, and full alpha for every pixel of an image without alpha.", "quantifier": "every image, format, component type and pixel", "why_tests_cant": "all contents, sizes and formats", "anchors": [{"file": "DevIL/src-IL/src/il_manip.cpp", "symbols": ["ilGetAlpha"]}]}
{"id": "C74", "title": "Saving to memory equals saving to a file", "statement": "After a save by a format that writes its output sequentially, the caller's buffer starts with exactly the bytes the same save would put into a file, cut off at the buffer's size; the rest of the buffer is untouched and the reported position is the number of bytes stored.", "quantifier": "every sequence of writes and single-byte writes, every buffer size", "why_tests_cant": "buffers of every size relative to the output, including ones that end in the middle of a write", "anchors": [{"file": "DevIL/src-IL/src/il_files.cpp", "symbols": ["iWriteLump", "iPutcLump", "ilGetLumpPos"]}]}
{"id": "C75", "title": "Loading arbitrary bytes is memory-safe (RAW)", "statement": "Loading any non-empty byte string as a RAW image neither reads outside the string nor writes outside the new image, and a successful load leaves a pixel block of exactly the size the image reports.", "quantifier": "every byte string below 4 GiB", "why_tests_cant": "every header and every length, including dimensions whose product wraps around 32 bits", "anchors": [{"file": "DevIL/src-IL/src/il_raw.cpp", "symbols": ["iLoadRawInternal"]}, {"file": "DevIL/src-IL/src/il_files.cpp", "symbols": ["iReadLump", "iGetcLump"]}]}
{"id": "C76", "title": "Colour-indexed images convert to grey and alpha", "statement": "Converting a colour-indexed image to luminance, luminance-alpha or alpha gives every pixel the grey of its palette entry and the entry's alpha (opaque if the palette has none), for every palette layout and image depth.", "quantifier": "every index image, every palette layout", "why_tests_cant": "tables indexed by entry overflow silently; only some layouts misbehave", "anchors": [{"file": "DevIL/src-IL/src/il_convert.cpp", "symbols": ["iConvertPalette"]}]}
{"id": "C77", "title": "Loading arbitrary bytes is memory-safe (TGA)", "statement": "Loading any non-empty byte string as a TGA image neither reads outside the string nor writes outside the image, and afterwards the current image still owns a pixel block of exactly the size it reports.", "quantifier": "every byte string below 4 GiB, every previous current image", "why_tests_cant": "every header, including dimensions whose product wraps around 32 bits", "anchors": [{"file": "DevIL/src-IL/src/il_targa.cpp", "symbols": ["iLoadTargaInternal", "iGetTgaHead", "iCheckTarga", "iReadColMapTga", "iReadUnmapTga", "iReadBwTga", "i16BitTarga", "iUncompressTgaData"]}]}
{"id": "C78", "title": "TGA run-length decoding is correct", "statement": "Decoding a sequence of run and raw packets as the TGA format defines them gives exactly the pixels the packets stand for.", "quantifier": "every packet sequence that fills the image", "why_tests_cant": "all packet sizes and mixtures", "anchors": [{"file": "DevIL/src-IL/src/il_targa.cpp", "symbols": ["iUncompressTgaData"]}]}
{"id": "C79", "title": "A truncated TGA file is not reported as loaded", "statement": "If a TGA file ends before all announced pixels have been read, loading it reports failure.", "quantifier": "every truncated file", "why_tests_cant": "every cut point of every file", "anchors": [{"file": "DevIL/src-IL/src/il_targa.cpp", "symbols": ["iLoadTargaInternal", "iReadUnmapTga", "iReadBwTga", "iUncompressTgaData"]}]}
{"id": "C80", "title": "Loading arbitrary bytes is memory-safe (WBMP)", "statement": "Loading any byte sequence as a WBMP image never reads or writes memory outside the buffers it owns and terminates, whatever dimensions the header announces.", "quantifier": "every byte sequence, every announced width and height", "why_tests_cant": "multi-byte header numbers reach any 32-bit value; only some dimensions break the size computation", "anchors": [{"file": "DevIL/src-IL/src/il_wbmp.cpp", "symbols": ["ilLoadWbmp", "ilLoadWbmpL", "iLoadWbmpInternal", "WbmpGetMultibyte"]}, {"file": "DevIL/src-IL/src/il_bits.cpp", "symbols": ["bread"]}]}
{"id": "C81", "title": "A WBMP image loads from memory as it does from a file", "statement": "Loading a WBMP image from a memory block gives the same result as loading a file with the same bytes, whatever was loaded before.", "quantifier": "every WBMP image and every history of earlier loads", "why_tests_cant": "depends on hidden state left by earlier loads", "anchors": [{"file": "DevIL/src-IL/src/il_wbmp.cpp", "symbols": ["ilLoadWbmpL", "iLoadWbmpInternal"]}, {"file": "DevIL/src-IL/src/il_bits.cpp", "symbols": ["bfile"]}]}
{"id": "C82", "title": "A truncated WBMP file is not reported as loaded", "statement": "If a WBMP file ends before all announced pixels have been read, loading it reports failure.", "quantifier": "every truncated file", "why_tests_cant": "every cut point of every file", "anchors": [{"file": "DevIL/src-IL/src/il_wbmp.cpp", "symbols": ["iLoadWbmpInternal"]}, {"file": "DevIL/src-IL/src/il_bits.cpp", "symbols": ["bread"]}]}
{"id": "C83", "title": "What a load delivers depends only on the file", "statement": "Two loads of the same file that both report success leave equal pixels and equal palettes, whatever memory the process had used before.", "quantifier": "every file of every supported format, every earlier content of the allocated memory", "why_tests_cant": "uninitialised memory is usually zero in a test process; only the contents of fresh allocations distinguish the runs", "anchors": [{"file": "DevIL/src-IL/src/il_pcx.cpp", "symbols": ["iUncompressPcx"]}]}
{"id": "C84", "title": "Documented extensions have their documented type", "statement": "For every file type, a file name with an extension the public header documents for that type, in any mixture of case and with any path before it, is given that type by ilTypeFromExt.", "quantifier": "every file name and every documented extension", "why_tests_cant": "unbounded names; each extension in every mixture of case", "anchors": [{"file": "DevIL/src-IL/src/il_io.cpp", "symbols": ["ilTypeFromExt"]}, {"file": "DevIL/include/IL/il.h", "symbols": ["IL_CHEAD", "IL_DCX"]}]}
{"id": "C85", "title": "Loading any bytes as SGI is safe", "statement": "Loading any byte string as an SGI image from memory never reads or writes outside the buffers involved and always ends; if it reports success, the resulting image's recorded sizes agree with its dimensions and with its buffer.", "quantifier": "every byte string, every earlier content of freshly allocated memory", "why_tests_cant": "the counts and offsets in the header and tables are attacker-chosen; tests sample a few files", "anchors": [{"file": "DevIL/src-IL/src/il_sgi.cpp", "symbols": ["iLoadSgiInternal", "iReadRleSgi", "iGetScanLine", "iReadNonRleSgi", "iNewSgi"]}]}
{"id": "C86", "title": "Run-length encoded SGI files decode to the pixels they describe", "statement": "If a file has a valid SGI header announcing run-length encoding with one byte per channel, offset and length tables, and for every channel of every row a sequence of packets at its offset that describes exactly one row, then loading it succeeds and every channel of every pixel is the one its packets describe.", "quantifier": "every valid header, every image size, every sequence of packets and every placement of the rows in the file", "why_tests_cant": "packet boundaries, shared rows and table contents combine without bound", "anchors": [{"file": "DevIL/src-IL/src/il_sgi.cpp", "symbols": ["iReadRleSgi", "iGetScanLine"]}]}
{"id": "C87", "title": "Saving run-length encoded SGI images loses nothing", "statement": "With run-length encoding of SGI files switched on, saving an 8-bit grey, RGB or RGBA image succeeds without touching memory outside its buffers, and loading the saved file yields an image of the same size and format with the same pixels.", "quantifier": "every image size up to 65535 by 65535 and every pixel content", "why_tests_cant": "the encoder's behaviour depends on every run and literal stretch of every row", "anchors": [{"file": "DevIL/src-IL/src/il_sgi.cpp", "symbols": ["iSaveSgiInternal", "iSaveRleSgi"]}, {"file": "DevIL/src-IL/src/il_rle.cpp", "symbols": ["ilRleCompressLine"]}]}
{"id": "C88", "title": "A save returns the number of bytes it has written", "statement": "Saving to memory or to an open file returns the number of bytes written to the caller's buffer or file, whatever has been saved before in the same program; asking for the required size returns the same number.", "quantifier": "every earlier sequence of saves, every buffer size and image", "why_tests_cant": "the result depends on the history of outputs selected by earlier calls", "anchors": [{"file": "DevIL/src-IL/src/il_targa.cpp", "symbols": ["ilSaveTargaL"]}, {"file": "DevIL/src-IL/src/il_sgi.cpp", "symbols": ["ilSaveSgiL", "ilSaveSgiF"]}, {"file": "DevIL/src-IL/src/il_files.cpp", "symbols": ["iSetOutputLump", "iSetOutputFile", "iSetOutputFake"]}, {"file": "DevIL/src-IL/src/il_size.cpp", "symbols": ["ilDetermineSize"]}]}
{"id": "C89", "title": "Loading arbitrary bytes as a Windows bitmap is memory safe", "statement": "Loading any byte sequence as BMP terminates, touches no memory outside the buffers it owns, and leaves the current image and its palette owning exactly the bytes they report, whether it succeeds or not.", "quantifier": "every byte sequence, every content of uninitialised memory, both byte orders", "why_tests_cant": "header fields, data offset, bit masks and palette counts are all under the control of the file", "anchors": [{"file": "DevIL/src-IL/src/il_bmp.cpp", "symbols": ["iLoadBitmapInternal", "ilReadUncompBmp", "ilReadRLE8Bmp", "ilReadRLE4Bmp", "iGetOS2Bmp"]}]}
{"id": "C90", "title": "Uncompressed Windows bitmaps decode to the stored pixels", "statement": "If a file has a valid Windows bitmap header without compression and contains its palette and every row, loading it succeeds and yields an image of the announced size, with the origin given by the sign of the height, whose every pixel is the stored one (padding skipped, leftmost pixel in the highest bits, channels under their masks as the high bits of a byte) and whose palette is the stored one.", "quantifier": "every size, bit depth (1, 4, 8, 16, 24, 32), orientation, palette, mask, content and byte order of the host", "why_tests_cant": "row padding, bit packing and masks interact with every width", "anchors": [{"file": "DevIL/src-IL/src/il_bmp.cpp", "symbols": ["iLoadBitmapInternal", "ilReadUncompBmp"]}, {"file": "DevIL/src-IL/include/il_bmp.h", "symbols": ["GetShiftFromMask"]}]}
{"id": "C92", "title": "Saving into an open file leaves what stands before it alone", "statement": "Saving an image into a file that is already open and positioned behind other data changes no byte in front of that position, and what it writes stands from that position on.", "quantifier": "every content of the file, every position, every image", "why_tests_cant": "earlier contents and positions are unbounded, and savers that seek use absolute positions", "anchors": [{"file": "DevIL/src-IL/src/il_bmp.cpp", "symbols": ["ilSaveBmpF", "iSaveBitmapInternal"]}, {"file": "DevIL/src-IL/src/il_sgi.cpp", "symbols": ["ilSaveSgiF"]}, {"file": "DevIL/src-IL/src/il_files.cpp", "symbols": ["iSetOutputFile"]}]}
{"id": "C91", "title": "Run-length encoded Windows bitmaps decode to what their codes say", "statement": "If a file has a valid Windows bitmap header with RLE8 or RLE4 compression, contains its palette and, from the announced offset, a sequence of codes (runs, literal pixels, ends of line, moves) that stays inside the image and ends with the end-of-bitmap code, loading it succeeds and yields an image of the announced size, with the origin given by the sign of the height and the stored palette, in which every pixel has the value that the last code covering it says, and 0 if no code covers it.", "quantifier": "every size, orientation, palette, sequence of codes and byte order of the host", "why_tests_cant": "sequences of codes are unbounded, and moves and line ends interact with every width", "anchors": [{"file": "DevIL/src-IL/src/il_bmp.cpp", "symbols": ["iLoadBitmapInternal", "ilReadRLE8Bmp", "ilReadRLE4Bmp"]}]}
{"id": "C93", "title": "A truncated SGI or BMP file is not reported as loaded", "statement": "If a BMP file ends before its last pixel (uncompressed, or within one of its run-length codes), or an SGI file before its last value, within its tables or within a line, loading it does not return IL_TRUE.", "quantifier": "every file with a valid header, every point at which it is cut, every content of uninitialised memory", "why_tests_cant": "A test cuts a few files at a few places; the claim is about every cut of every file.", "anchors": [{"file": "DevIL/src-IL/src/il_bmp.cpp", "symbols": ["iLoadBitmapInternal", "ilReadUncompBmp", "ilReadRLE8Bmp", "ilReadRLE4Bmp"]}, {"file": "DevIL/src-IL/src/il_sgi.cpp", "symbols": ["iLoadSgiInternal", "iReadRleSgi", "iReadNonRleSgi", "iGetScanLine"]}]}
{"id": "C94", "title": "Decoding DXT data gives the colours the format defines", "statement": "ilDxtcDataToSurface on an image with complete DXT1, DXT3 or DXT5 data makes it an RGBA image of the same dimensions in which every pixel has the colour and alpha that the format assigns to its code in its 4x4 block, up to rounding.", "quantifier": "every width, height and depth whose pixels fit 32-bit sizes (also those that are not multiples of four), every block content, every content of uninitialised memory", "why_tests_cant": "Blocks have 2^64 or 2^128 contents and images any size; a test decodes a few.", "anchors": [{"file": "DevIL/src-IL/src/il_dds.cpp", "symbols": ["ilDxtcDataToSurface", "DecompressDXT1", "DecompressDXT3", "DecompressDXT5", "DxtcReadColor", "DxtcReadColors"]}]}
{"id": "C95", "title": "Flipping DXT data flips the image", "statement": "ilFlipSurfaceDxtcData on DXT1, DXT3 or DXT5 data of an image gives data that decodes to the same image with its rows in the opposite order; flipping twice gives the original data back.", "quantifier": "every width, height and depth, every block content", "why_tests_cant": "The bits of a block are rearranged without decoding; agreement with decoding must hold for all 2^128 blocks and all sizes.", "anchors": [{"file": "DevIL/src-IL/src/il_dds.cpp", "symbols": ["ilFlipSurfaceDxtcData", "iFlipColorBlock", "iFlipSimpleAlphaBlock", "iFlipComplexAlphaBlock", "iComplexAlphaHelper"]}]}
{"id": "C96", "title": "Inverting the alpha of DXT data inverts exactly the alpha", "statement": "ilInvertSurfaceDxtcDataAlpha on DXT3 or DXT5 data gives data that decodes to the same colours and to alpha 255 - a wherever the original decodes to alpha a; doing it twice gives the original data back.", "quantifier": "every width, height and depth, every block content", "why_tests_cant": "The codes are remapped without decoding; the claim is about all 2^128 blocks.", "anchors": [{"file": "DevIL/src-IL/src/il_dds.cpp", "symbols": ["ilInvertSurfaceDxtcDataAlpha", "iInvertDxt3Alpha", "iInvertDxt5Alpha"]}]}
{"id": "C97", "title": "PGM and PPM files load as the picture they describe", "statement": "Loading a PGM or PPM file, plain or binary, whose header and pixels follow the format gives an image with the file's width, height and number of channels, top row first, whose bytes are the values in the file.", "quantifier": "every width, height and maximum value, every way of writing the header with blanks, line ends and comments, every pixel content", "why_tests_cant": "Headers can be laid out in unboundedly many ways and pixels are arbitrary; tests use files written by one program.", "anchors": [{"file": "DevIL/src-IL/src/il_pnm.cpp", "symbols": ["iLoadPnmInternal", "ilReadAsciiPpm", "ilReadBinaryPpm", "ilReadBitPbm", "iGetWord"]}]}
{"id": "C98", "title": "A saved PNM file loads back as the saved image", "statement": "Saving an image as PNM (plain or binary) and loading the file gives the image converted to RGB or luminance with its top row first.", "quantifier": "every image whose conversion to bytes is defined, both modes, both origins, every number of pixels", "why_tests_cant": "Plain files wrap lines depending on all values; a round trip test covers a few images.", "anchors": [{"file": "DevIL/src-IL/src/il_pnm.cpp", "symbols": ["iSavePnmInternal", "iLoadPnmInternal"]}]}
{"id": "C99", "title": "No PNM file makes the library fault or hang", "statement": "Loading a PNM file from memory, whatever its bytes, ends, reads and writes only memory the library owns, reports a truncated file as a failure and leaves a usable current image.", "quantifier": "every sequence of bytes", "why_tests_cant": "Robustness against all inputs cannot be sampled.", "anchors": [{"file": "DevIL/src-IL/src/il_pnm.cpp", "symbols": ["iLoadPnmInternal", "ilReadAsciiPpm", "ilReadBinaryPpm", "ilReadBitPbm", "iGetWord"]}]}
{"id": "C100", "title": "Bitmaps (PBM) have the right pixels black", "statement": "Loading a PBM file gives a luminance image in which exactly the pixels with a 1 in the file are black, the others white; padding bits at row ends are ignored.", "quantifier": "every width and height, every bit pattern, plain and binary files", "why_tests_cant": "All bit patterns and all widths modulo eight matter.", "anchors": [{"file": "DevIL/src-IL/src/il_pnm.cpp", "symbols": ["ilReadBitPbm", "ilReadAsciiPpm"]}]}
{"id": "C101", "title": "A GIF picture is loaded as the picture the file describes", "statement": "Loading a GIF file with one frame gives an image of the size of the screen whose pixels are the coded ones, interlaced rows in their place, with the transparent or background colour around the frame, the frame's colour table as palette, alpha 0 for the transparent colour, and the frame's duration.", "quantifier": "every screen and frame size and position, every colour table, every list of extensions, every LZW coding of every list of pixels, every division into data blocks", "why_tests_cant": "The LZW decoder keeps a dictionary that depends on the whole history of codes; a wrong code width or dictionary entry shows only for particular histories.", "anchors": [{"file": "DevIL/src-IL/src/il_gif.cpp", "symbols": ["iLoadGifInternal", "GetImages", "GifGetData", "get_next_code", "iGetPalette", "SkipExtensions", "RemoveInterlace", "ConvertTransparent"]}]}
{"id": "C102", "title": "No GIF file makes the loader touch memory it does not own", "statement": "Whatever the bytes of a GIF file, loading it reads and writes only memory of the loader, and ends.", "quantifier": "every byte sequence, every previous content of memory", "why_tests_cant": "The harmful files are rare among all files, and the outcome depends on what memory contained.", "anchors": [{"file": "DevIL/src-IL/src/il_gif.cpp", "symbols": ["GetImages", "GifGetData", "get_next_code"]}]}
{"id": "C103", "title": "Enlarging the canvas keeps the picture and clears the border", "statement": "iluEnlargeCanvas(w, h, d) makes the current image w by h by d with the same format, type and origin; the old picture stands unchanged at the place iluImageParameter(ILU_PLACEMENT, ...) names, and every other pixel has the clear colour.", "quantifier": "all images, all larger sizes, all five placements, all clear colours and origin modes", "why_tests_cant": "The result depends on every size, placement, component width and origin at once; tests cover a handful of pictures with one-byte components", "anchors": [{"file": "DevIL/src-ILU/src/ilu_manip.cpp", "symbols": ["iluEnlargeCanvas"]}, {"file": "DevIL/src-IL/src/il_devil.cpp", "symbols": ["ilTexImage", "ilClearImage", "ilSetPixels"]}]}
{"id": "C104", "title": "Scaling takes every new pixel from the right place", "statement": "iluScale(w, h, d) with the nearest filter makes the current image w by h by d with the same format, type and origin, and each new pixel is a copy of an old pixel whose position is less than one pixel from the exact one; enlarging by a whole factor repeats every pixel exactly. No other filter reads outside the image.", "quantifier": "all images, all new sizes, all roundings of the host's floating point arithmetic", "why_tests_cant": "Positions come from a single-precision quotient and a double-precision division; whether any of the 2^48 pairs of sizes lands outside the image cannot be sampled", "anchors": [{"file": "DevIL/src-ILU/src/ilu_scale.cpp", "symbols": ["iluScale", "iluScale_", "iluScale1D_"]}, {"file": "DevIL/src-ILU/src/ilu_scale2d.cpp", "symbols": ["iluScale2D_", "iluScale2DNear_", "iluScale2DLinear_"]}, {"file": "DevIL/src-ILU/src/ilu_scale3d.cpp", "symbols": ["iluScale3D_"]}]}
{"id": "C105", "title": "A palette saved to a text palette file loads back", "statement": "For every image with a palette of 1 to 256 colours in any of the six palette layouts: the text palette file that ilSavePal writes, loaded with ilLoadPal, gives a palette of 256 colours whose first colours have exactly the red, green and blue components of the saved ones, in order, and whose other colours are black. More generally every text palette file whose lines end in line feeds gives exactly its colours.", "quantifier": "every palette of 1 to 256 colours in every layout; every text palette file with line-feed line ends", "why_tests_cant": "There are 256^768 palettes in six layouts; the words of the file are found by a character-wise scanner whose behaviour depends on every separator.", "anchors": [{"file": "DevIL/src-IL/src/il_pal.cpp", "symbols": ["ilSaveJascPal", "ilLoadJascPal", "iFgetw", "ilConvertPal"]}]}
{"id": "C106", "title": "Saving a palette does not change the image", "statement": "For every image with a palette: after ilSavePal has written the palette to a text palette file, the image has the palette that it had before.", "quantifier": "every palette in every layout", "why_tests_cant": "The damage is to in-memory state that no file comparison shows, and it depends on the layout of the palette.", "anchors": [{"file": "DevIL/src-IL/src/il_pal.cpp", "symbols": ["ilSaveJascPal", "ilConvertPal"]}]}
{"id": "C107", "title": "No palette file makes the loader fault or hang", "statement": "For every file: ilLoadPal on it returns, without reading or writing outside its blocks, and what it returns was read from that file.", "quantifier": "every file", "why_tests_cant": "The number of files is infinite; the defects need a particular count, particular line ends or a particular history of opened files.", "anchors": [{"file": "DevIL/src-IL/src/il_pal.cpp", "symbols": ["ilLoadJascPal", "iFgetw", "ilLoadActPal"]}, {"file": "DevIL/src-IL/src/il_files.cpp", "symbols": ["iReadFile", "iSetInputFile"]}]}
{"id": "C108", "title": "With overwriting disabled, saves leave existing files alone", "statement": "While IL_FILE_OVERWRITE is disabled, no sequence of ilSave, ilSaveImage, ilSavePal and ilSaveData calls, with whatever types, names, images and settings, changes a file that exists and that the process can read; a save by type to such a file returns IL_FALSE. In either mode no save changes a file other than the one it names.", "quantifier": "every sequence of saves, every name and type, every disk, every content the savers write", "why_tests_cant": "The check is repeated in every one of nineteen savers and must come before each opening; a test tries some formats on some disks.", "anchors": [{"file": "DevIL/src-IL/src/il_io.cpp", "symbols": ["ilSave", "ilSaveImage"]}, {"file": "DevIL/src-IL/src/il_internal.cpp", "symbols": ["iFileExists"]}, {"file": "DevIL/src-IL/src/il_bmp.cpp", "symbols": ["ilSaveBmp"]}, {"file": "DevIL/src-IL/src/il_pal.cpp", "symbols": ["ilSavePal", "ilSaveJascPal"]}, {"file": "DevIL/src-IL/src/il_header.cpp", "symbols": ["ilSaveCHeader"]}, {"file": "DevIL/src-IL/src/il_files.cpp", "symbols": ["iDefaultOpenW"]}]}
{"id": "C109", "title": "The value a save returns tells what it did to the file", "statement": "When a save to a named file returns IL_TRUE the file contains exactly what the saver of the format wrote; when it returns IL_FALSE the file is as it was.", "quantifier": "every name, type, image, disk and prior history of saves", "why_tests_cant": "The failures that matter depend on permissions, on the format and on where the previous save went.", "anchors": [{"file": "DevIL/src-IL/src/il_io.cpp", "symbols": ["ilSave", "ilSaveImage"]}, {"file": "DevIL/src-IL/src/il_mng.cpp", "symbols": ["ilSaveMng", "ilSaveMngF", "iSaveMngInternal"]}, {"file": "DevIL/src-IL/src/il_rawdata.cpp", "symbols": ["ilSaveData"]}, {"file": "DevIL/src-IL/src/il_files.cpp", "symbols": ["iDefaultOpenW"]}]}
{"id": "C110", "title": "Reading ahead does not change what is read", "statement": "Loaders that read ahead (BMP, PCX, DCX, HDR, PSD, SGI and Targa do when the hint IL_MEM_SPEED_HINT is IL_FASTEST) get the same bytes, counts and positions from a file, and leave it at the same position, as without reading ahead, whatever size the cache has.", "quantifier": "every file, every cache size, every sequence of reads, seeks and queries, every memory content", "why_tests_cant": "Whether a read crosses a boundary of the cache depends on its size, the position and everything read before; a test exercises one alignment.", "anchors": [{"file": "DevIL/src-IL/src/il_files.cpp", "symbols": ["iPreCache", "iUnCache", "iGetcFile", "iReadFile", "iSeekRFile", "iTellRFile", "iEofFile", "iDefaultEof"]}]}
{"id": "C111", "title": "The settings for loaded images reach every part of the image", "statement": "A load applies IL_ORIGIN_SET, IL_TYPE_SET, IL_FORMAT_SET and IL_CONV_PAL to every image, face, layer and mipmap of what it loaded, and to nothing else: with only the origin asked for every part gets that origin and shows the same picture; with nothing asked for nothing changes; when the load succeeds every part has the origin, type and format asked for.", "quantifier": "every structure of pages, faces, layers and mipmaps, every content, every combination of settings", "why_tests_cant": "The traversal selects each part anew from the bound image through four nested loops; a test has one small structure.", "anchors": [{"file": "DevIL/src-IL/src/il_convert.cpp", "symbols": ["ilFixImage", "ilFixCur", "ilConvertImage"]}, {"file": "DevIL/src-IL/src/il_stack.cpp", "symbols": ["ilActiveImage", "ilActiveFace", "ilActiveLayer", "ilActiveMipmap", "ilBindImage"]}, {"file": "DevIL/src-IL/src/il_manip.cpp", "symbols": ["ilFlipImage"]}]}
{"id": "C112", "title": "Asking for the type of an open file leaves it where it is", "statement": "ilDetermineTypeF and ilIsValidF only look: whatever the file contains, they end, read nothing outside the bytes of the file, and leave the file at the position where it was, so that it can be loaded afterwards.", "quantifier": "every file, of every length, at every position; every type asked about", "why_tests_cant": "Twenty-nine tests seek back and forth by header lengths that depend on the bytes read; a test looks at a few whole files from their beginning.", "anchors": [{"file": "DevIL/src-IL/src/il_io.cpp", "symbols": ["ilDetermineTypeF", "ilDetermineTypeL", "ilIsValidF", "ilIsValidL"]}, {"file": "DevIL/src-IL/src/il_files.cpp", "symbols": ["iSetInputFile", "iSeekRFile", "iTellRFile", "iSeekRLump"]}, {"file": "DevIL/src-IL/src/il_bmp.cpp", "symbols": ["iIsValidBmp", "iCheckBmp", "iCheckOS2"]}, {"file": "DevIL/src-IL/src/il_pcx.cpp", "symbols": ["iCheckPcx"]}, {"file": "DevIL/src-IL/src/il_targa.cpp", "symbols": ["iCheckTarga"]}, {"file": "DevIL/src-IL/src/il_ktx.cpp", "symbols": ["iIsValidKtx"]}]}
{"id": "C113", "title": "The type of a file is what its contents say", "statement": "ilDetermineTypeF returns the first type, in the order of the tests, whose signature and header the bytes of the file have, and IL_TYPE_UNKNOWN if there is none; ilIsValidF says whether they have those of one type. Neither depends on anything but the bytes.", "quantifier": "every content of a file; every one of 28 formats", "why_tests_cant": "The answer is a decision over all byte strings; headers overlap in their fields, and uninitialised memory gives the right answer most of the time.", "anchors": [{"file": "DevIL/src-IL/src/il_io.cpp", "symbols": ["ilDetermineTypeF", "ilDetermineTypeL", "ilIsValidF", "ilIsValidL"]}, {"file": "DevIL/src-IL/src/il_files.cpp", "symbols": ["iSetInputFile", "iSeekRFile", "iTellRFile", "iSeekRLump"]}, {"file": "DevIL/src-IL/src/il_bmp.cpp", "symbols": ["iIsValidBmp", "iCheckBmp", "iCheckOS2"]}, {"file": "DevIL/src-IL/src/il_pcx.cpp", "symbols": ["iCheckPcx"]}, {"file": "DevIL/src-IL/src/il_targa.cpp", "symbols": ["iCheckTarga"]}, {"file": "DevIL/src-IL/src/il_ktx.cpp", "symbols": ["iIsValidKtx"]}]}
{"id": "C114", "title": "Memory and files are recognised alike", "statement": "ilDetermineTypeL on the bytes of a file gives the type that ilDetermineTypeF gives for the file.", "quantifier": "every byte string", "why_tests_cant": "The two functions are separate chains of tests over separate input functions; they differ on rare contents.", "anchors": [{"file": "DevIL/src-IL/src/il_io.cpp", "symbols": ["ilDetermineTypeF", "ilDetermineTypeL", "ilIsValidF", "ilIsValidL"]}, {"file": "DevIL/src-IL/src/il_files.cpp", "symbols": ["iSetInputFile", "iSeekRFile", "iTellRFile", "iSeekRLump"]}, {"file": "DevIL/src-IL/src/il_bmp.cpp", "symbols": ["iIsValidBmp", "iCheckBmp", "iCheckOS2"]}, {"file": "DevIL/src-IL/src/il_pcx.cpp", "symbols": ["iCheckPcx"]}, {"file": "DevIL/src-IL/src/il_targa.cpp", "symbols": ["iCheckTarga"]}, {"file": "DevIL/src-IL/src/il_ktx.cpp", "symbols": ["iIsValidKtx"]}]}
{"id": "C115", "title": "FTX and LIF files are loaded whole or refused", "statement": "Loading any bytes as an FTX or a LIF file, from a file or from memory, ends without an access outside memory and leaves an image whose pixel block has the size it reports. If the header is complete and declares a picture that is not empty and takes less than 4 GiB, loading succeeds exactly when the file holds all of its pixels (and its palette), and the image then has exactly these pixels and this palette. The file is at its beginning afterwards.", "quantifier": "every non-empty sequence of bytes below 2 GiB, in a file and in memory; every content of fresh memory", "why_tests_cant": "All lengths against all declared sizes; a reader that misses a short read shows old memory, which looks right in most tests.", "anchors": [{"file": "DevIL/src-IL/src/il_ftx.cpp", "symbols": ["iLoadFtxInternal"]}, {"file": "DevIL/src-IL/src/il_lif.cpp", "symbols": ["iLoadLifInternal", "iGetLifHead"]}, {"file": "DevIL/src-IL/src/il_files.cpp", "symbols": ["iread", "iseek", "igetc", "itell"]}, {"file": "DevIL/src-IL/src/il_devil.cpp", "symbols": ["ilTexImage", "ilInitImage"]}]}
{"id": "C116", "title": "PIX files decode to the pixels of their runs", "statement": "Loading bytes as a PIX file never accesses memory outside the image, succeeds exactly when the runs stand for all the pixels, and shows these pixels.", "quantifier": "every list of runs, every size of picture, every place where the file may end", "why_tests_cant": "Runs may have any lengths and need not end with a row or with the picture; tests use files that a program wrote.", "anchors": [{"file": "DevIL/src-IL/src/il_pix.cpp", "symbols": ["iLoadPixInternal", "iGetPixHead", "iCheckPix"]}, {"file": "DevIL/src-IL/src/il_files.cpp", "symbols": ["iread", "iseek", "igetc", "itell"]}, {"file": "DevIL/src-IL/src/il_devil.cpp", "symbols": ["ilTexImage", "ilInitImage"]}]}
{"id": "C117", "title": "PXR files show their pixels or are refused", "statement": "Loading bytes as a PXR file never accesses memory outside the image; it succeeds exactly when the file holds all its pixels, and shows them.", "quantifier": "every sequence of bytes, every one of the three pixel formats", "why_tests_cant": "All lengths against all declared sizes; old memory in place of missing pixels looks like a picture.", "anchors": [{"file": "DevIL/src-IL/src/il_pxr.cpp", "symbols": ["iLoadPxrInternal"]}, {"file": "DevIL/src-IL/src/il_files.cpp", "symbols": ["iread", "iseek", "igetc", "itell"]}, {"file": "DevIL/src-IL/src/il_devil.cpp", "symbols": ["ilTexImage", "ilInitImage"]}]}
{"id": "C118", "title": "All textures of an MDL file are loaded", "statement": "Loading an MDL file gives an image for each of its textures, with its pixels and palette.", "quantifier": "every number of textures, every placement of the tables in the file", "why_tests_cant": "Offsets in the file place tables and pixels anywhere; chains of images are built by hand.", "anchors": [{"file": "DevIL/src-IL/src/il_mdl.cpp", "symbols": ["iLoadMdlInternal"]}, {"file": "DevIL/src-IL/src/il_files.cpp", "symbols": ["iread", "iseek", "igetc", "itell"]}, {"file": "DevIL/src-IL/src/il_devil.cpp", "symbols": ["ilTexImage", "ilInitImage"]}]}
{"id": "C119", "title": "WAL files show a texture and its mipmaps, or are refused", "statement": "Loading a WAL file gives the picture and its three mipmaps, each with its pixels and with the palette of the game; a file that is not complete is refused without a fault.", "quantifier": "every size of the texture, every placement of the four pictures, every place where the file may end", "why_tests_cant": "Errors on the way out free a chain of images; a test of complete files never gets there.", "anchors": [{"file": "DevIL/src-IL/src/il_wal.cpp", "symbols": ["iLoadWalInternal"]}, {"file": "DevIL/src-IL/src/il_stack.cpp", "symbols": ["ilCloseImage"]}, {"file": "DevIL/src-IL/src/il_files.cpp", "symbols": ["iread", "iseek", "igetc", "itell"]}, {"file": "DevIL/src-IL/src/il_devil.cpp", "symbols": ["ilTexImage", "ilInitImage"]}]}
{"id": "C120", "title": "Doom pictures decode to the pixels of their posts", "statement": "Loading a Doom picture shows in every column the pixels of its posts at their rows and the transparent colour elsewhere, with the palette of the game or converted by it; loading never accesses memory outside the image or the input.", "quantifier": "every number of columns, every list of posts, overlapping or past the last row; every sequence of bytes for safety", "why_tests_cant": "Columns are found through a table of offsets that may point anywhere; posts may overlap and leave the picture.", "anchors": [{"file": "DevIL/src-IL/src/il_doom.cpp", "symbols": ["iLoadDoomInternal", "ilLoadDoomFlat"]}, {"file": "DevIL/src-IL/src/il_files.cpp", "symbols": ["iread", "iseek", "igetc", "itell"]}, {"file": "DevIL/src-IL/src/il_devil.cpp", "symbols": ["ilTexImage", "ilInitImage"]}]}
{"id": "C121", "title": "CUT files decode to the pixels of their rows", "statement": "Loading a CUT file shows the pixels of its rows of runs and literal bytes, and never writes outside the image; a file that is not complete is refused.", "quantifier": "every list of rows of pieces, every size of picture", "why_tests_cant": "Runs may have any lengths and need not end with a row or with the picture.", "anchors": [{"file": "DevIL/src-IL/src/il_cut.cpp", "symbols": ["iLoadCutInternal"]}, {"file": "DevIL/src-IL/src/il_files.cpp", "symbols": ["iread", "iseek", "igetc", "itell"]}, {"file": "DevIL/src-IL/src/il_devil.cpp", "symbols": ["ilTexImage", "ilInitImage"]}]}
{"id": "C122", "title": "Doom flats are loaded whole or refused", "statement": "ilLoadDoomFlatF and ilLoadDoomFlatL (without IL_CONV_PAL) succeed exactly when there are at least 4096 bytes, and then show the first 4096 as 64 rows of 64 pixels with the palette of the game; on any bytes they end without a fault and leave an image whose block has the size it reports.", "quantifier": "every non-empty sequence of bytes below 2 GiB, in a file and in memory; every content of fresh memory; every palette table", "why_tests_cant": "All lengths of the input.", "anchors": [{"file": "DevIL/src-IL/src/il_doom.cpp", "symbols": ["iLoadDoomFlatInternal"]}, {"file": "DevIL/src-IL/src/il_files.cpp", "symbols": ["iread", "iseek", "igetc", "itell"]}, {"file": "DevIL/src-IL/src/il_devil.cpp", "symbols": ["ilTexImage", "ilInitImage"]}]}
{"id": "C123", "title": "Switches of the toolkit read as they were last set", "statement": "After any history of calls, a documented ILUT switch reads, through ilutIsEnabled, ilutIsDisabled and ilutGetBoolean, as the value last given to it by ilutEnable, ilutDisable, ilutSetInteger or ilutInit since the last push or pop; reading changes nothing; for any other mode the functions refuse, record ILUT_INVALID_ENUM and change nothing else.", "quantifier": "every history of calls of the ILUT state functions, every mode", "why_tests_cant": "Interleavings of all calls on all modes; a test sets one switch and reads it back.", "anchors": [{"file": "DevIL/src-ILUT/src/ilut_states.cpp", "symbols": ["ilutEnable", "ilutDisable", "ilutAble", "ilutIsEnabled", "ilutIsDisabled", "ilutGetBoolean"]}]}
{"id": "C124", "title": "Integers of the toolkit read as they were last accepted", "statement": "After any history of calls, ilutGetInteger reports for every integer mode the value last accepted for it since the last push or pop; a value out of the documented range is refused with an error and changes nothing.", "quantifier": "every history of calls of the ILUT state functions, every mode and every 32-bit value", "why_tests_cant": "Interleavings of all calls on all modes and the whole range of values.", "anchors": [{"file": "DevIL/src-ILUT/src/ilut_states.cpp", "symbols": ["ilutSetInteger", "ilutGetInteger", "ilutGetIntegerv", "ilutD3D8MipFunc"]}]}
{"id": "C125", "title": "Pushing and popping toolkit settings keeps and restores them", "statement": "No history of ILUT calls accesses memory outside the stack of settings. ilutPushAttrib leaves every setting as it is; the matching ilutPopAttrib brings back what was in force at the push; ilutInit makes the settings and the level those of the start.", "quantifier": "every history of calls, properly nested or not, every mask", "why_tests_cant": "Depths up to 31 and all interleavings.", "anchors": [{"file": "DevIL/src-ILUT/src/ilut_states.cpp", "symbols": ["ilutPushAttrib", "ilutPopAttrib", "ilutDefaultStates"]}, {"file": "DevIL/src-ILUT/src/ilut_main.cpp", "symbols": ["ilutInit"]}]}
{"id": "C126", "title": "Scaling filter and placement are those last accepted", "statement": "After any history of iluImageParameter and iluGetInteger calls the filter reported and in force is the last one accepted, and so is the placement; undocumented parameters and values are refused with ILU_INVALID_ENUM and change nothing else.", "quantifier": "every history of calls, every parameter and value", "why_tests_cant": "All histories and the whole range of both arguments.", "anchors": [{"file": "DevIL/src-ILU/src/ilu_states.cpp", "symbols": ["iluImageParameter", "iluGetInteger", "iluGetIntegerv"]}]}
{"id": "C127", "title": "Error texts are those of the error, in the language chosen", "statement": "iluErrorString returns for every number a text without a fault: the documented text of the error in the language last accepted by iluSetLanguage (English at first), and for a number without a text a text that does not say that there was no error.", "quantifier": "every history of iluSetLanguage calls, every number", "why_tests_cant": "Every number and every history; eight languages times 27 texts are not in any test.", "anchors": [{"file": "DevIL/src-ILU/src/ilu_error.cpp", "symbols": ["iluErrorString", "iluSetLanguage", "iluErrorStrings", "iluLibErrorStrings", "iluMiscErrorStrings"]}, {"file": "DevIL/src-ILU/src/ilu_main.cpp", "symbols": ["iluInit"]}]}
{"id": "C128", "title": "Operations work in the region last set", "statement": "After any history of iluRegionfv, iluRegioniv and operations on images, an operation works in the polygon last set if all its points are in the image, and on the whole image otherwise; no freed or foreign memory is accessed.", "quantifier": "every history of calls, every list of points, every size of image", "why_tests_cant": "Interleavings of the two functions decide which pointer is stale.", "anchors": [{"file": "DevIL/src-ILU/src/ilu_region.cpp", "symbols": ["iluRegionfv", "iluRegioniv", "iScanFill", "BuildEdgeList", "MakeEdgeRec"]}]}
{"id": "C129", "title": "iluGenImage and iluLoadImage make a new image", "statement": "iluGenImage returns a name that did not exist, makes the image and binds it; iluLoadImage returns such a name whose image holds the file, or 0; all other images stay as they are; iluDeleteImage removes the image.", "quantifier": "every history of calls on image names before, every contents of the file", "why_tests_cant": "The effect on all other images after all histories.", "anchors": [{"file": "DevIL/src-ILU/src/ilu_utilities.cpp", "symbols": ["iluGenImage", "iluDeleteImage"]}, {"file": "DevIL/src-ILU/src/ilu_main.cpp", "symbols": ["iluLoadImage"]}, {"file": "DevIL/src-IL/src/il_stack.cpp", "symbols": ["ilGenImages", "ilBindImage", "ilDeleteImages"]}]}
{"id": "C130", "title": "Radiance pictures load as they are meant", "statement": "For every Radiance file - a header that begins with #?RADIANCE, or with #?RGBE and a first line of at least three characters, any further lines, an empty line and the dimensions -Y height +X width, both not zero - whose scan lines are run-length coded in any division into runs and single bytes, loading succeeds, from a file and from memory, and gives an image of three floats per pixel, top row first, in which each pixel is what its four bytes mean.", "quantifier": "every list of header lines, every pair of dimensions with a picture below 4 GiB and a width below 65536, every division of every channel of every scan line into pieces, every pixel", "why_tests_cant": "The number of ways to divide a scan line into runs and literals is exponential in its width; a test tries the few an encoder happens to make.", "anchors": [{"file": "DevIL/src-IL/src/il_hdr.cpp", "symbols": ["iLoadHdrInternal", "iGetHdrHead", "iCheckHdr", "ReadScanline"]}]}
{"id": "C131", "title": "A picture saved as Radiance comes back", "statement": "Saving an image as a Radiance file and loading the file again gives an image of the same size, upright, in which every pixel is what remains of the original pixel after it is turned into four bytes of red, green, blue and exponent.", "quantifier": "every image, every size, origin, every pixel", "why_tests_cant": "The encoder looks for runs with a window; a wrong boundary shows only for particular byte sequences, of which there are 256 to the power of the width.", "anchors": [{"file": "DevIL/src-IL/src/il_hdr.cpp", "symbols": ["iSaveHdrInternal", "RGBE_WriteHeader", "RGBE_WriteBytes_RLE", "RGBE_WritePixels", "ReadScanline"]}]}
{"id": "C132", "title": "Radiance files cannot corrupt memory", "statement": "Loading any bytes as a Radiance file ends, without access outside a buffer and without use of unset values, and a file that ends before its last pixel is not reported as loaded.", "quantifier": "every sequence of bytes", "why_tests_cant": "Malformed files are unbounded in number; a test shows the absence of a crash for those it tries.", "anchors": [{"file": "DevIL/src-IL/src/il_hdr.cpp", "symbols": ["iLoadHdrInternal", "iGetHdrHead", "ReadScanline"]}]}
{"id": "C133", "title": "Sepia is a change of each colour by itself", "statement": "iluSepia on an image of unsigned bytes with red, green and blue, in either order and with or without alpha, gives every pixel the three sepia tones of its own red, green and blue; alpha, the size and the rest stay.  Other images are refused.", "quantifier": "every image, every pixel, both channel orders", "why_tests_cant": "The colours of an image are 2 to the power of its bits; a test looks at a few pixels of a few formats, and a swapped channel or a missed format shows only where it is tried.", "anchors": [{"file": "DevIL/src-ILU/src/ilu_filter.cpp", "symbols": ["iluSepia"]}]}
{"id": "C134", "title": "Alien colours", "statement": "iluAlienify gives the red of every pixel the value of its blue and leaves green, blue and alpha, whatever the order of the channels and the type of the components; other formats are refused.", "quantifier": "every image, every pixel, both channel orders, all types", "why_tests_cant": "The colours of an image are 2 to the power of its bits; a test looks at a few pixels of a few formats, and a swapped channel or a missed format shows only where it is tried.", "anchors": [{"file": "DevIL/src-ILU/src/ilu_filter.cpp", "symbols": ["iluAlienify", "iIdentity"]}]}
{"id": "C135", "title": "Saturation moves colours between grey and themselves", "statement": "iluSaturate4f with weights that are not negative and sum to at most 1 and a saturation s from 0 to 1 changes every component c of a pixel of weighted luminance L to (1 - s) L + s c, whatever the order of the channels: with s = 1 the image stays, with s = 0 it becomes grey.  If it cannot be done the result is IL_FALSE.", "quantifier": "every image, every pixel, both channel orders, all weights and saturations", "why_tests_cant": "The colours of an image are 2 to the power of its bits; a test looks at a few pixels of a few formats, and a swapped channel or a missed format shows only where it is tried.", "anchors": [{"file": "DevIL/src-ILU/src/ilu_filter.cpp", "symbols": ["iluSaturate4f", "iApplyMatrix"]}]}
{"id": "C136", "title": "Replacing a colour replaces this colour", "statement": "iluReplaceColour gives the new colour to exactly those pixels that are within the tolerance of the clear colour, whatever the format, also with tolerance 0.", "quantifier": "every image, every pixel, all colours and tolerances", "why_tests_cant": "The colours of an image are 2 to the power of its bits; a test looks at a few pixels of a few formats, and a swapped channel or a missed format shows only where it is tried.", "anchors": [{"file": "DevIL/src-ILU/src/ilu_manip.cpp", "symbols": ["iluReplaceColour"]}]}
{"id": "C137", "title": "Scaling colours and alpha", "statement": "iluScaleColours multiplies the red, green and blue of every pixel or palette entry by their factors and limits them to the range of the component; iluScaleAlpha does so for alpha.  Images of unsigned bytes are accepted.", "quantifier": "every image and palette, every pixel, all factors", "why_tests_cant": "The colours of an image are 2 to the power of its bits; a test looks at a few pixels of a few formats, and a swapped channel or a missed format shows only where it is tried.", "anchors": [{"file": "DevIL/src-ILU/src/ilu_filter.cpp", "symbols": ["iluScaleColours", "iluScaleAlpha"]}]}
{"id": "C138", "title": "Contrast", "statement": "iluContrast with the contrast a changes every component v to (1 - a) 127 + a v, scaled to the range of the type and limited to it, so that a brighter component never becomes darker than a darker one for positive a; a = 1 changes nothing.", "quantifier": "every image, every component, all contrasts", "why_tests_cant": "The colours of an image are 2 to the power of its bits; a test looks at a few pixels of a few formats, and a swapped channel or a missed format shows only where it is tried.", "anchors": [{"file": "DevIL/src-ILU/src/ilu_filter.cpp", "symbols": ["iluContrast", "iIntExtImg"]}]}
{"id": "C139", "title": "Gamma correction", "statement": "iluGammaCorrect maps every component, or every palette entry, by one increasing function that keeps black and white; gamma 1 changes nothing.", "quantifier": "every image, every component, all types", "why_tests_cant": "The colours of an image are 2 to the power of its bits; a test looks at a few pixels of a few formats, and a swapped channel or a missed format shows only where it is tried.", "anchors": [{"file": "DevIL/src-ILU/src/ilu_filter.cpp", "symbols": ["iluGammaCorrect"]}]}
{"id": "C140", "title": "Noise stays within its bounds", "statement": "iluNoisify adds to all components of a pixel one random number of absolute value at most the tolerance times half the range, limits the result to the range of the type, and touches no pixel outside the region.", "quantifier": "every image, every pixel, all sequences of random numbers, all regions", "why_tests_cant": "The random numbers are a sequence of unbounded length; a test sees one sequence.", "anchors": [{"file": "DevIL/src-ILU/src/ilu_noise.cpp", "symbols": ["iluNoisify"]}]}
{"id": "C141", "title": "Equalizing spreads the brightness", "statement": "iluEqualize gives a pixel the brightness 256 D / N, where D of the N pixels are darker than it, by multiplying its colour components with one factor, and keeps alpha; of a colour-indexed image it treats the palette so.", "quantifier": "every image, every pixel", "why_tests_cant": "The brightness of each pixel depends on all the others; a test tries a few images, hardly one with more than 16 million pixels.", "anchors": [{"file": "DevIL/src-ILU/src/ilu_manip.cpp", "symbols": ["iluEqualize"]}]}
{"id": "C142", "title": "DDS pictures without compression", "statement": "A DDS file whose channels are given by masks, loaded from a file or from memory, gives an image of the declared size in which every component of every pixel is the one its mask selects, on the scale from 0 to 255; if pixels are missing the loader fails and the bound image stays.", "quantifier": "every file without compression, every mask of up to eight bits, every pixel", "why_tests_cant": "The files are unbounded and the header has many fields; a test loads a few pictures of a few formats.", "anchors": [{"file": "DevIL/src-IL/src/il_dds.cpp", "symbols": ["iLoadDdsInternal", "DecompressARGB", "GetBitsFromMask", "ReadData", "AllocImage"]}]}
{"id": "C143", "title": "DDS pictures with DXT compression", "statement": "A DDS file with the blocks of DXT1 to DXT5 is loaded with the declared size; every pixel has the colour and the alpha its block chooses, and for DXT2 and DXT4, whose colours are stored multiplied by alpha, the colour before the multiplication.  If blocks are missing the loader fails and the bound image stays.", "quantifier": "every file, every block, every pixel", "why_tests_cant": "The files are unbounded and the header has many fields; a test loads a few pictures of a few formats.", "anchors": [{"file": "DevIL/src-IL/src/il_dds.cpp", "symbols": ["iLoadDdsInternal", "DecompressDXT1", "DecompressDXT2", "DecompressDXT3", "DecompressDXT4", "DecompressDXT5", "CorrectPreMult"]}]}
{"id": "C144", "title": "DDS pictures with ATI1N, 3Dc and RXGB blocks", "statement": "A DDS file with ATI1N blocks is loaded as luminance, one with 3Dc blocks as a map of unit vectors, one with RXGB blocks as colours; every pixel has the values the bits of its block choose, also in volumes.", "quantifier": "every file, every block, every pixel", "why_tests_cant": "The files are unbounded and the header has many fields; a test loads a few pictures of a few formats.", "anchors": [{"file": "DevIL/src-IL/src/il_dds.cpp", "symbols": ["DecompressAti1n", "Decompress3Dc", "DecompressRXGB"]}, {"file": "DevIL/src-IL/src/il_internal.cpp", "symbols": ["iSqrt"]}]}
{"id": "C145", "title": "DDS pictures with wide components", "statement": "A DDS file with 16-bit numbers, floats or ten-bit numbers is loaded with exactly these numbers in their channels; channels that the file does not have are 1.", "quantifier": "every file, every pixel", "why_tests_cant": "The files are unbounded and the header has many fields; a test loads a few pictures of a few formats.", "anchors": [{"file": "DevIL/src-IL/src/il_dds.cpp", "symbols": ["DecompressFloat", "DecompressARGB16", "Check16BitComponents", "iCompFormatToChannelCount"]}]}
{"id": "C146", "title": "Files that are not DDS pictures are refused", "statement": "Bytes that are not a DDS file, or have an unknown compression, or do not have the declared pixels, are refused: the loader fails, touches no memory outside its buffers, and the bound image stays.", "quantifier": "all sequences of bytes", "why_tests_cant": "The files are unbounded and the header has many fields; a test loads a few pictures of a few formats.", "anchors": [{"file": "DevIL/src-IL/src/il_dds.cpp", "symbols": ["iLoadDdsInternal", "iGetDdsHead", "iCheckDds", "DecodePixelFormat", "ReadData"]}]}
{"id": "C147", "title": "ilCopyImage copies an image onto the bound one", "statement": "ilCopyImage with the name of an existing image gives the bound image, or its selected sub-image, all contents of that image, its sub-images included; the source and all other images stay what they are, and no freed memory is used.  When name 0 is bound, it fails and changes nothing.", "quantifier": "every state a program can reach that does not bind deleted names again, every source", "why_tests_cant": "The effect depends on the whole history of names, sub-images and copies; a test runs a few histories.", "anchors": [{"file": "DevIL/src-IL/src/il_devil.cpp", "symbols": ["ilCopyImage", "ilCopyImageAttr", "ilTexImage_", "ilInitImage"]}, {"file": "DevIL/src-IL/src/il_stack.cpp", "symbols": ["ilBindImage", "ilCloseImage", "ilGetCurName"]}]}
{"id": "C148", "title": "ilCloneCurImage makes a copy under a new name", "statement": "ilCloneCurImage returns a new name whose image has all contents of the bound image; the bound image and the bound name stay what they are, all other images too, and the clone and the original live independently of each other.", "quantifier": "every state a program can reach that does not bind deleted names again", "why_tests_cant": "The effect depends on the whole history of names, sub-images and copies; a test runs a few histories.", "anchors": [{"file": "DevIL/src-IL/src/il_devil.cpp", "symbols": ["ilCloneCurImage", "ilCopyImageAttr", "ilTexImage_"]}, {"file": "DevIL/src-IL/src/il_stack.cpp", "symbols": ["ilGenImages", "ilBindImage", "ilDeleteImages"]}]}
{"id": "C149", "title": "ilTexImage and ilTexImageSurface", "statement": "In every state a program can reach, a proper call of the image table, of ilTexImage or of ilTexImageSurface is safe.  ilTexImage gives the bound image the size, format and pixels of the call and removes its sub-images and everything else; ilTexImageSurface keeps the sub-images, the origin and the cube-map flags.  All other images stay what they are.", "quantifier": "every state a program can reach that does not bind deleted names again, all proper arguments", "why_tests_cant": "The effect depends on the whole history of names, sub-images and copies; a test runs a few histories.", "anchors": [{"file": "DevIL/src-IL/src/il_devil.cpp", "symbols": ["ilTexImage", "ilTexImage_", "ilTexImageSurface", "ilTexImageSurface_", "ilInitImage"]}]}
{"id": "C150", "title": "The size ilGetDXTCData announces and returns", "statement": "For a picture of unsigned bytes with colours, ilGetDXTCData(NULL, 0, Format) is the number of bytes of its blocks of 4x4 pixels; a call with a buffer writes at most the size of the buffer, from its start, leaves the rest alone, and returns how many bytes it has written.", "quantifier": "every picture of unsigned bytes, the formats DXT1, DXT3 and DXT5, every buffer that is not empty", "why_tests_cant": "The result of a block depends on all of its sixteen pixels; a test compresses a few pictures.", "anchors": [{"file": "DevIL/src-IL/src/il_dds-save.cpp", "symbols": ["ilGetDXTCData", "Compress"]}]}
{"id": "C151", "title": "Alpha survives DXT5 up to a tenth of the range in its block", "statement": "A picture of unsigned bytes compressed by ilSurfaceToDxtcData(IL_DXT5) and decompressed by ilDxtcDataToSurface has the same size and stands upright; each alpha differs from the old one by at most a tenth of the range of alphas in its block of 4x4 pixels, plus rounding; the lowest and highest alpha of the block, 0 and 255 are exact.", "quantifier": "every picture of unsigned bytes with colours, every pixel", "why_tests_cant": "The result of a block depends on all of its sixteen pixels; a test compresses a few pictures.", "anchors": [{"file": "DevIL/src-IL/src/il_dds-save.cpp", "symbols": ["ilGetDXTCData", "Compress", "GetAlphaBlock", "ChooseAlphaEndpoints", "GenAlphaBitMask"]}, {"file": "DevIL/src-IL/src/il_dds.cpp", "symbols": ["ilSurfaceToDxtcData", "ilDxtcDataToSurface", "DecompressDXT5"]}]}
{"id": "C152", "title": "Alpha survives DXT3", "statement": "After compression to DXT3 and decompression each alpha is the nearest of the sixteen alphas of the format.", "quantifier": "every picture of unsigned bytes with colours, every pixel", "why_tests_cant": "The result of a block depends on all of its sixteen pixels; a test compresses a few pictures.", "anchors": [{"file": "DevIL/src-IL/src/il_dds-save.cpp", "symbols": ["Compress", "GetAlphaBlock"]}, {"file": "DevIL/src-IL/src/il_dds.cpp", "symbols": ["ilSurfaceToDxtcData", "ilDxtcDataToSurface", "DecompressDXT3"]}]}
{"id": "C153", "title": "Transparency survives DXT1", "statement": "After compression to DXT1 and decompression a pixel is transparent if its alpha was below 128, and opaque otherwise, whatever the colours of its block.", "quantifier": "every picture of unsigned bytes with colours, every pixel", "why_tests_cant": "The result of a block depends on all of its sixteen pixels; a test compresses a few pictures.", "anchors": [{"file": "DevIL/src-IL/src/il_dds-save.cpp", "symbols": ["Compress", "CorrectEndDXT1", "GenBitMask"]}, {"file": "DevIL/src-IL/src/il_dds.cpp", "symbols": ["ilSurfaceToDxtcData", "ilDxtcDataToSurface", "DecompressDXT1"]}]}
{"id": "C154", "title": "Colours survive DXT compression", "statement": "After compression to DXT1, DXT3 or DXT5 and decompression, the pixels of a block with at most two colours have these colours, up to the rounding of the format (red and blue 4, green 6).", "quantifier": "every picture of unsigned bytes with colours, every pixel, each of the formats", "why_tests_cant": "The result of a block depends on all of its sixteen pixels; a test compresses a few pictures.", "anchors": [{"file": "DevIL/src-IL/src/il_dds-save.cpp", "symbols": ["CompressTo565", "As16Bit", "GetBlock", "ChooseEndpoints", "GenBitMask"]}, {"file": "DevIL/src-IL/src/il_dds.cpp", "symbols": ["ilSurfaceToDxtcData", "ilDxtcDataToSurface", "DxtcReadColor", "DxtcReadColors"]}]}
{"id": "C155", "title": "ilCompressDXT compresses the data it is given", "statement": "ilCompressDXT returns the compressed form of the RGBA data passed to it, with the width, height and depth passed to it.", "quantifier": "all data and sizes, every current image", "why_tests_cant": "The result of a block depends on all of its sixteen pixels; a test compresses a few pictures.", "anchors": [{"file": "DevIL/src-IL/src/il_dds-save.cpp", "symbols": ["ilCompressDXT"]}]}
{"id": "C156", "title": "Compression to 3Dc is safe", "statement": "Compressing a picture to 3Dc touches no memory outside of the picture and its buffers, writes 16 bytes for each block, and keeps the values of the picture.", "quantifier": "every picture of unsigned bytes", "why_tests_cant": "The result of a block depends on all of its sixteen pixels; a test compresses a few pictures.", "anchors": [{"file": "DevIL/src-IL/src/il_dds-save.cpp", "symbols": ["CompressTo88", "Get3DcBlock", "Compress"]}]}
{"id": "C157", "title": "Pixelizing gives every block its average", "statement": "iluPixelize(PixSize) on an image of unsigned bytes gives each component of each pixel of the region the mean of that component in its block of PixSize^3 pixels, without the fraction; PixSize 0 counts as 1, and with 1 nothing changes.", "quantifier": "every image of bytes, every region, every size of blocks", "why_tests_cant": "A block or a neighbourhood can hold any values and lie at any edge; a test filters a few pictures.", "anchors": [{"file": "DevIL/src-ILU/src/ilu_filter.cpp", "symbols": ["iluPixelize"]}]}
{"id": "C158", "title": "Pixelizing of wide components", "statement": "iluPixelize works on images whose components have 16, 32 or 64 bits as it does on those of bytes, with a region or without.", "quantifier": "every such image without a region, every size of blocks", "why_tests_cant": "A block or a neighbourhood can hold any values and lie at any edge; a test filters a few pictures.", "anchors": [{"file": "DevIL/src-ILU/src/ilu_filter.cpp", "symbols": ["iluPixelize"]}]}
{"id": "C159", "title": "3x3 filters are weighted sums and stay in memory", "statement": "iluConvolution, the blurs, the relief and the edge detectors read no memory outside of the image; each component becomes |sum / Scale + Bias|, at most 255, of the nine components around it with the weights of the matrix, where pixels outside repeat the edge.", "quantifier": "every image of bytes, every matrix of small weights, every scale and bias", "why_tests_cant": "A block or a neighbourhood can hold any values and lie at any edge; a test filters a few pictures.", "anchors": [{"file": "DevIL/src-ILU/src/ilu_filter.cpp", "symbols": ["filter", "iluConvolution", "iluEmboss", "iluEdgeDetectE", "iluEdgeDetectP", "iluEdgeDetectS", "iluBlurAvg", "iluBlurGaussian"]}]}
{"id": "C160", "title": "Blurring leaves an image of one colour as it is", "statement": "iluBlurAvg and iluBlurGaussian, with whatever number of passes, leave an image of one colour as it is.", "quantifier": "every image of bytes with one colour", "why_tests_cant": "A block or a neighbourhood can hold any values and lie at any edge; a test filters a few pictures.", "anchors": [{"file": "DevIL/src-ILU/src/ilu_filter.cpp", "symbols": ["iluBlurAvg", "iluBlurGaussian"]}]}
{"id": "C161", "title": "Edge detection turns an image of one colour black", "statement": "iluEdgeDetectP and iluEdgeDetectS turn an image of one colour black.", "quantifier": "every image of bytes with one colour", "why_tests_cant": "A block or a neighbourhood can hold any values and lie at any edge; a test filters a few pictures.", "anchors": [{"file": "DevIL/src-ILU/src/ilu_filter.cpp", "symbols": ["iluEdgeDetectP", "iluEdgeDetectS"]}]}
{"id": "C162", "title": "Pixelizing keeps to the region and makes blocks uniform", "statement": "iluPixelize on an image of unsigned bytes touches no memory outside of it, keeps its geometry, changes no pixel outside of the region, makes the pixels of the region in one block equal, and lets no block depend on another.", "quantifier": "every image of bytes, every region, every size of blocks", "why_tests_cant": "A block or a neighbourhood can hold any values and lie at any edge; a test filters a few pictures.", "anchors": [{"file": "DevIL/src-ILU/src/ilu_filter.cpp", "symbols": ["iluPixelize"]}]}
{"id": "C163", "title": "Uncompressed Sun rasters load exactly", "statement": "Loading an uncompressed Sun raster file of 8 bits without a colour map, or of 24 bits, whose pixels are all there, succeeds from a file or from memory; the image has the size of the header, row 0 at the top, and each pixel has the bytes the file stores for it, where rows are padded to an even number of bytes and the type of the file tells the order of the components.", "quantifier": "every such file below 2 GiB, every size of picture below 4 GiB", "why_tests_cant": "A file can have any size, contents and end; a test loads a few sample pictures.", "anchors": [{"file": "DevIL/src-IL/src/il_sun.cpp", "symbols": ["iLoadSunInternal"]}]}
{"id": "C164", "title": "Colour-mapped Sun rasters load with their colours", "statement": "Loading an uncompressed Sun raster file of 8 bits with a colour map gives an image whose pixels have the colours of the map; the map stores all reds, then all greens, then all blues.", "quantifier": "every such file below 2 GiB", "why_tests_cant": "A file can have any size, contents and end; a test loads a few sample pictures.", "anchors": [{"file": "DevIL/src-IL/src/il_sun.cpp", "symbols": ["iLoadSunInternal"]}]}
{"id": "C165", "title": "Compressed Sun rasters load exactly", "statement": "Loading a run-length encoded Sun raster file of 8 or 24 bits gives every pixel the value the runs stand for.", "quantifier": "every such file below 2 GiB", "why_tests_cant": "A file can have any size, contents and end; a test loads a few sample pictures.", "anchors": [{"file": "DevIL/src-IL/src/il_sun.cpp", "symbols": ["iLoadSunInternal", "iSunGetRle"]}]}
{"id": "C166", "title": "Sun rasters of 32 bits load exactly", "statement": "Loading a Sun raster file of 32 bits per pixel gives every pixel the colour the file stores for it.", "quantifier": "every such file below 2 GiB", "why_tests_cant": "A file can have any size, contents and end; a test loads a few sample pictures.", "anchors": [{"file": "DevIL/src-IL/src/il_sun.cpp", "symbols": ["iLoadSunInternal"]}]}
{"id": "C167", "title": "Loading any bytes as Sun raster stays in memory and ends", "statement": "Loading any sequence of bytes as a Sun raster file ends, touches no memory outside of the blocks allocated, and leaves an image whose pixel block and palette have the sizes it reports.", "quantifier": "every sequence of bytes from 32 bytes to 2 GiB, every previous image", "why_tests_cant": "A file can have any size, contents and end; a test loads a few sample pictures.", "anchors": [{"file": "DevIL/src-IL/src/il_sun.cpp", "symbols": ["iLoadSunInternal", "iSunGetRle"]}, {"file": "DevIL/src-IL/src/il_bits.cpp", "symbols": ["bread"]}]}
{"id": "C168", "title": "Sun rasters that are cut off are refused", "statement": "Loading a Sun raster file that ends before its colour map or its pixels do fails.", "quantifier": "every such file", "why_tests_cant": "A file can have any size, contents and end; a test loads a few sample pictures.", "anchors": [{"file": "DevIL/src-IL/src/il_sun.cpp", "symbols": ["iLoadSunInternal", "iSunGetRle"]}]}
{"id": "C169", "title": "Sun rasters of 1 bit load exactly, from a file or from memory", "statement": "Loading a Sun raster file of 1 bit per pixel, from a file or from memory, gives every pixel the colour number its bit tells, the most significant bit first; rows are padded to 16 bits.", "quantifier": "every such file below 2 GiB", "why_tests_cant": "A file can have any size, contents and end; a test loads a few sample pictures.", "anchors": [{"file": "DevIL/src-IL/src/il_sun.cpp", "symbols": ["iLoadSunInternal"]}, {"file": "DevIL/src-IL/src/il_bits.cpp", "symbols": ["bfile", "bread"]}]}
{"id": "C170", "title": "The key colour decides which pixels become transparent", "statement": "With IL_USE_KEY_COLOUR enabled, converting an RGB or BGR image to a format with alpha makes exactly the pixels of the colour given to ilKeyColour transparent and all others opaque, and keeps red, green and blue.", "quantifier": "every key colour, every image and its frames, every component type", "why_tests_cant": "The result must hold for every pixel value, type, size and history of calls; a test converts a few images.", "anchors": [{"file": "DevIL/src-IL/src/il_convert.cpp", "symbols": ["ilKeyColour", "ilAddAlphaKey", "ilConvertImage"]}]}
{"id": "C171", "title": "A failed conversion leaves the image as it was", "statement": "If ilConvertImage fails, the current image has the size, format, type and pixels it had before.", "quantifier": "every image, every requested format and type, with and without the key colour", "why_tests_cant": "The result must hold for every pixel value, type, size and history of calls; a test converts a few images.", "anchors": [{"file": "DevIL/src-IL/src/il_convert.cpp", "symbols": ["ilConvertImage", "ilAddAlphaKey"]}]}
{"id": "C172", "title": "ilModAlpha gives every pixel the alpha asked for", "statement": "After ilModAlpha every pixel of the current image has the alpha given, and its colours unchanged.", "quantifier": "every image, every alpha from 0 to 1", "why_tests_cant": "The result must hold for every pixel value, type, size and history of calls; a test converts a few images.", "anchors": [{"file": "DevIL/src-IL/src/il_manip.cpp", "symbols": ["ilModAlpha"]}]}
{"id": "C173", "title": "ilApplyPal gives the image the colours of a palette", "statement": "ilApplyPal makes the current image colour-indexed with the palette of the file, each pixel having a closest colour of it; if it fails the image is left as it was.", "quantifier": "every image and every palette file", "why_tests_cant": "The result must hold for every pixel value, type, size and history of calls; a test converts a few images.", "anchors": [{"file": "DevIL/src-IL/src/il_pal.cpp", "symbols": ["ilApplyPal"]}]}
{"id": "C174", "title": "ilSetPal copies the palette", "statement": "ilSetPal gives the current image a copy of the palette passed to it, or removes the palette if there is none in it, and touches no freed memory.", "quantifier": "every palette, every current image or none", "why_tests_cant": "The result must hold for every pixel value, type, size and history of calls; a test converts a few images.", "anchors": [{"file": "DevIL/src-IL/src/il_pal.cpp", "symbols": ["ilSetPal"]}]}
{"id": "C175", "title": "iluSwapColours exchanges the order of red and blue", "statement": "iluSwapColours on an RGB, BGR, RGBA or BGRA image stores the same colours in the other order, whatever was called before.", "quantifier": "every such image, every history of calls", "why_tests_cant": "The result must hold for every pixel value, type, size and history of calls; a test converts a few images.", "anchors": [{"file": "DevIL/src-ILU/src/ilu_manip.cpp", "symbols": ["iluSwapColours"]}]}
{"id": "C176", "title": "Raw data is loaded as the caller describes it", "statement": "ilLoadData, ilLoadDataF and ilLoadDataL read exactly width*height*depth*bytes-per-pixel bytes from the current position and show them slice after slice, row after row from the top, as luminance, RGB or RGBA; with fewer bytes they fail; with another number of bytes per pixel they fail and leave the image alone; they never touch memory outside the image.", "quantifier": "every file or block of memory, every position, every dimensions and number of bytes per pixel", "why_tests_cant": "The result must hold for every sequence of bytes, every size and every position; a test loads a few files.", "anchors": [{"file": "DevIL/src-IL/src/il_rawdata.cpp", "symbols": ["ilLoadData", "ilLoadDataF", "ilLoadDataL", "iLoadDataInternal"]}]}
{"id": "C177", "title": "Loading from an open file leaves it where it was", "statement": "After ilLoadF with any format the position of the file is the one it had before the call.", "quantifier": "every format, every file, every position", "why_tests_cant": "The result must hold for every sequence of bytes, every size and every position; a test loads a few files.", "anchors": [{"file": "DevIL/src-IL/src/il_rawdata.cpp", "symbols": ["ilLoadDataF"]}, {"file": "DevIL/src-IL/src/il_files.cpp", "symbols": ["iSetInputFile", "iSeekRFile", "iTellRFile"]}]}
{"id": "C178", "title": "A DPX file of eight bits is loaded pixel by pixel", "statement": "A file with a DPX header whose first picture has eight bits for each component is loaded with success exactly if all its pixels are in the file, and the image shows them, from a file or from memory.", "quantifier": "every such file below 2 GiB with a picture below 4 GiB", "why_tests_cant": "The result must hold for every sequence of bytes, every size and every position; a test loads a few files.", "anchors": [{"file": "DevIL/src-IL/src/il_dpx.cpp", "symbols": ["iLoadDpxInternal", "DpxGetFileInfo", "DpxGetImageInfo", "GetImageElement", "DpxGetImageOrient"]}]}
{"id": "C179", "title": "A DPX file of ten, sixteen or thirty-two bits keeps its values", "statement": "Loading a DPX file with more than eight bits for each component gives an image of a wider type whose components stand for the values in the file: the lowest for the lowest, the highest for the highest.", "quantifier": "every such file, every pixel", "why_tests_cant": "The result must hold for every sequence of bytes, every size and every position; a test loads a few files.", "anchors": [{"file": "DevIL/src-IL/src/il_dpx.cpp", "symbols": ["iLoadDpxInternal"]}]}
{"id": "C180", "title": "A DPX file is not loaded upside down", "statement": "The image of a DPX file has its rows in the order that the orientation of the header says.", "quantifier": "every file, every orientation", "why_tests_cant": "The result must hold for every sequence of bytes, every size and every position; a test loads a few files.", "anchors": [{"file": "DevIL/src-IL/src/il_dpx.cpp", "symbols": ["iLoadDpxInternal", "DpxGetImageInfo"]}]}
{"id": "C181", "title": "No DPX file makes the library touch memory that is not its own", "statement": "Loading any sequence of bytes as DPX ends, without reading or writing outside the blocks the library owns.", "quantifier": "every sequence of bytes", "why_tests_cant": "The result must hold for every sequence of bytes, every size and every position; a test loads a few files.", "anchors": [{"file": "DevIL/src-IL/src/il_dpx.cpp", "symbols": ["iLoadDpxInternal"]}, {"file": "DevIL/src-IL/src/il_files.cpp", "symbols": ["iSeekRLump"]}]}
{"id": "C182", "title": "A DPX file that is cut off is refused", "statement": "Loading a DPX file that ends before the last pixel of its picture fails.", "quantifier": "every such file", "why_tests_cant": "The result must hold for every sequence of bytes, every size and every position; a test loads a few files.", "anchors": [{"file": "DevIL/src-IL/src/il_dpx.cpp", "symbols": ["iLoadDpxInternal"]}]}
{"id": "C183", "title": "A Photoshop file without compression is loaded pixel by pixel", "statement": "A well-formed PSD file without compression, grey or RGB of 8 or 16 bits or with a palette, with any resources and layers, is loaded with success exactly if all its pixels are in the file; the image then shows them, and has the palette of the file, from a file or from memory.", "quantifier": "every such document, every pixel, every palette size", "why_tests_cant": "The result must hold for every sequence of bytes, every size and every position; a test loads a few files.", "anchors": [{"file": "DevIL/src-IL/src/il_psd.cpp", "symbols": ["iLoadPsdInternal", "ReadGrey", "ReadRGB", "ReadIndexed", "PsdGetData", "ParseResources"]}]}
{"id": "C184", "title": "A Photoshop file with run-lengths is decoded", "statement": "A well-formed PSD file of 8 bits with run-length compression, grey, RGB, RGBA or with a palette, is loaded with success and the image shows what the codes stand for, however the channels are cut into codes.", "quantifier": "every such document, every sequence of codes for each channel", "why_tests_cant": "The result must hold for every sequence of bytes, every size and every position; a test loads a few files.", "anchors": [{"file": "DevIL/src-IL/src/il_psd.cpp", "symbols": ["ReadCompressedChannel", "GetCompChanLen", "PsdGetData"]}]}
{"id": "C185", "title": "The alpha of a Photoshop file without compression is loaded", "statement": "Loading a PSD file without compression with four channels gives an RGBA image whose four components are those of the file.", "quantifier": "every such document, every pixel", "why_tests_cant": "The result must hold for every sequence of bytes, every size and every position; a test loads a few files.", "anchors": [{"file": "DevIL/src-IL/src/il_psd.cpp", "symbols": ["ReadRGB", "PsdGetData", "ubyte_to_float", "float_to_ubyte"]}]}
{"id": "C186", "title": "No Photoshop file makes the library touch memory that is not its own", "statement": "Loading any sequence of bytes as PSD ends, without reading or writing outside the blocks the library owns.", "quantifier": "every sequence of bytes", "why_tests_cant": "The result must hold for every sequence of bytes, every size and every position; a test loads a few files.", "anchors": [{"file": "DevIL/src-IL/src/il_psd.cpp", "symbols": ["iLoadPsdInternal", "ReadCompressedChannel", "GetSingleChannel", "ParseResources", "GetCompChanLen"]}]}
{"id": "C187", "title": "A Photoshop file that is cut off is refused", "statement": "Loading a PSD file that ends before the last pixel fails.", "quantifier": "every such file, from a file or from memory", "why_tests_cant": "The result must hold for every sequence of bytes, every size and every position; a test loads a few files.", "anchors": [{"file": "DevIL/src-IL/src/il_psd.cpp", "symbols": ["PsdGetData", "ReadCompressedChannel"]}, {"file": "DevIL/src-IL/src/il_files.cpp", "symbols": ["iGetcLump"]}]}
{"id": "C188", "title": "A CMYK Photoshop file is loaded as the colours its inks make", "statement": "Loading a PSD file with the channels of cyan, magenta, yellow and black, each the lighter the higher, gives RGB components that are the product of ink and black on the scale from 0 to 255; a fifth channel is alpha.", "quantifier": "every such document, every pixel", "why_tests_cant": "The result must hold for every sequence of bytes, every size and every position; a test loads a few files.", "anchors": [{"file": "DevIL/src-IL/src/il_psd.cpp", "symbols": ["ReadCMYK", "GetSingleChannel"]}]}
{"id": "C189", "title": "An opaque image saved as Photoshop file and loaded again is the same picture", "statement": "ilSave with IL_PSD of an image of one slice, grey or RGB of 8 or 16 bits or with a palette of 256 colours, whatever its origin, succeeds, and loading what was written gives an image with the same dimensions, format, type, palette and pixels.", "quantifier": "every such image below 2 GiB, both origins", "why_tests_cant": "The result must hold for every sequence of bytes, every size and every position; a test loads a few files.", "anchors": [{"file": "DevIL/src-IL/src/il_psd.cpp", "symbols": ["iSavePsdInternal", "iLoadPsdInternal"]}, {"file": "DevIL/src-IL/src/il_manip.cpp", "symbols": ["iGetFlipped"]}]}
{"id": "C190", "title": "Any image that ilSave takes for a Photoshop file comes back", "statement": "If ilSave with IL_PSD reports success, loading the file gives an image with the same pixels: with alpha, with palettes of any size, with several slices; if it reports failure nothing has been written.", "quantifier": "every image", "why_tests_cant": "The result must hold for every sequence of bytes, every size and every position; a test loads a few files.", "anchors": [{"file": "DevIL/src-IL/src/il_psd.cpp", "symbols": ["iSavePsdInternal"]}]}
{"id": "C191", "title": "A Softimage PIC with alpha is decoded", "statement": "A well-formed PIC file one of whose packets holds alpha and whose packets are stored as they are or with mixed run-lengths, each for any of the components, is loaded with success as RGBA and the image shows the pixels the packets stand for, from a file or from memory.", "quantifier": "every such document: every list of packets, every cut into sequences, every pixel", "why_tests_cant": "The result must hold for every sequence of bytes, every size and every position; a test loads a few files.", "anchors": [{"file": "DevIL/src-IL/src/il_pic.cpp", "symbols": ["iLoadPicInternal", "readScanlines", "readScanline", "channelReadRaw", "channelReadMixed"]}]}
{"id": "C192", "title": "An opaque Softimage PIC is decoded", "statement": "A well-formed PIC file without alpha is loaded with success as RGB and the image shows its pixels.", "quantifier": "every such document", "why_tests_cant": "The result must hold for every sequence of bytes, every size and every position; a test loads a few files.", "anchors": [{"file": "DevIL/src-IL/src/il_pic.cpp", "symbols": ["iLoadPicInternal", "readScanlines"]}]}
{"id": "C193", "title": "Pure run-lengths in a Softimage PIC are decoded", "statement": "A well-formed PIC file with packets stored with pure run-lengths is loaded with success and the image shows the pixels the runs stand for.", "quantifier": "every such document", "why_tests_cant": "The result must hold for every sequence of bytes, every size and every position; a test loads a few files.", "anchors": [{"file": "DevIL/src-IL/src/il_pic.cpp", "symbols": ["channelReadPure"]}]}
{"id": "C194", "title": "No Softimage PIC makes the library hang or touch memory that is not its own", "statement": "Loading any sequence of bytes as PIC ends, without reading or writing outside the blocks the library owns; the image is left alone or has a block of the size it reports.", "quantifier": "every sequence of bytes", "why_tests_cant": "The result must hold for every sequence of bytes, every size and every position; a test loads a few files.", "anchors": [{"file": "DevIL/src-IL/src/il_pic.cpp", "symbols": ["iLoadPicInternal", "readScanline", "channelReadMixed"]}, {"file": "DevIL/src-IL/src/il_files.cpp", "symbols": ["iGetcLump"]}]}
{"id": "C195", "title": "A FITS file of whole numbers is decoded", "statement": "A well-formed FITS file of whole numbers of 8, 16 or 32 bits with one to three axes, less than 2 GiB of samples, any other cards in the header and anything behind the samples is loaded with success, from a file or from memory, as a luminance image of that type whose samples are those of the file.", "quantifier": "every such document: every header, every size, every sample", "why_tests_cant": "The result must hold for every sequence of bytes, every size and every position; a test loads a few files.", "anchors": [{"file": "DevIL/src-IL/src/il_fits.cpp", "symbols": ["iLoadFitsInternal", "iGetFitsHead", "GetCardImage", "GetCardInt"]}]}
{"id": "C196", "title": "A FITS file that is cut off is refused", "statement": "Loading a FITS file with a well-formed header but not all of its samples fails.", "quantifier": "every such header and every shorter body", "why_tests_cant": "The result must hold for every sequence of bytes, every size and every position; a test loads a few files.", "anchors": [{"file": "DevIL/src-IL/src/il_fits.cpp", "symbols": ["iLoadFitsInternal"]}, {"file": "DevIL/src-IL/src/il_endian.cpp", "symbols": ["GetBigShort", "GetBigInt"]}]}
{"id": "C197", "title": "No FITS file makes the library hang or touch memory that is not its own", "statement": "Loading any sequence of bytes as FITS ends, without undefined behaviour; the image is left alone or has a block of the size it reports.", "quantifier": "every sequence of bytes", "why_tests_cant": "The result must hold for every sequence of bytes, every size and every position; a test loads a few files.", "anchors": [{"file": "DevIL/src-IL/src/il_fits.cpp", "symbols": ["iLoadFitsInternal", "iGetFitsHead", "GetCardImage"]}]}
{"id": "C198", "title": "Saving as DDS and loading shows what compressing and decompressing shows", "statement": "Saving an image of one slice with unsigned bytes as DDS with the format DXT1, DXT3 or DXT5 succeeds, leaves the image as it was and writes 128 bytes and the blocks; loading the file, from a file or from memory, gives an RGBA image of the same size whose pixels are exactly those that ilSurfaceToDxtcData followed by ilDxtcDataToSurface give.", "quantifier": "every such image of fewer than 2^27 pixels, each of the three formats", "why_tests_cant": "The result must hold for every picture, every size and every position; a test saves a few pictures.", "anchors": [{"file": "DevIL/src-IL/src/il_dds-save.cpp", "symbols": ["iSaveDdsInternal", "WriteHeader", "Compress"]}, {"file": "DevIL/src-IL/src/il_dds.cpp", "symbols": ["iLoadDdsInternal"]}]}
{"id": "C199", "title": "What is left of transparency in a DDS file", "statement": "An image that is saved as DDS and loaded again has the size it had and, at each pixel, an alpha that is: with DXT1 0 below 128 and 255 otherwise, with DXT3 that of the four leading bits, with DXT5 at most a tenth of the range of alphas in its block (plus rounding) away and exact at the ends of it.", "quantifier": "every such image of fewer than 2^27 pixels, every pixel", "why_tests_cant": "The result must hold for every picture, every size and every position; a test saves a few pictures.", "anchors": [{"file": "DevIL/src-IL/src/il_dds-save.cpp", "symbols": ["iSaveDdsInternal", "Compress"]}, {"file": "DevIL/src-IL/src/il_dds.cpp", "symbols": ["iLoadDdsInternal"]}]}
{"id": "C200", "title": "Every compression format that can be set can be saved", "statement": "With each of the formats ilSetInteger(IL_DXTC_FORMAT, ...) takes, saving an image as DDS succeeds, or fails without output, and leaves the image as it was.", "quantifier": "every image of unsigned bytes, every format", "why_tests_cant": "The result must hold for every picture, every size and every position; a test saves a few pictures.", "anchors": [{"file": "DevIL/src-IL/src/il_dds-save.cpp", "symbols": ["iSaveDdsInternal", "WriteHeader", "Compress"]}]}
{"id": "C201", "title": "A DDS file has the pixels of the active image", "statement": "Saving as DDS writes the size and the pixels of the image that is active, also after ilActiveImage or ilActiveMipmap.", "quantifier": "every pair of images", "why_tests_cant": "The result must hold for every picture, every size and every position; a test saves a few pictures.", "anchors": [{"file": "DevIL/src-IL/src/il_dds-save.cpp", "symbols": ["iSaveDdsInternal", "WriteHeader"]}]}
{"id": "C202", "title": "A DDS file with mipmaps is loaded level by level", "statement": "A complete DDS file with n levels of DXT1, DXT3 or DXT5 blocks is loaded as an image with n - 1 mipmaps; the sides of each level are half of those of the level before, at least 1, and each level shows what ilDxtcDataToSurface makes of its own blocks. If blocks are missing, loading fails and the bound image is left as it was.", "quantifier": "every such file, any number of levels", "why_tests_cant": "The result must hold for every picture, every size and every position; a test saves a few pictures.", "anchors": [{"file": "DevIL/src-IL/src/il_dds.cpp", "symbols": ["iLoadDdsInternal", "ReadMipmaps", "ReadData"]}]}
{"id": "C203", "title": "Saving as DDS keeps mipmaps", "statement": "Saving an image with its mipmaps as DDS with DXT1, DXT3 or DXT5 succeeds and changes none of them; the file is loaded with as many levels, and each of them shows exactly what ilSurfaceToDxtcData followed by ilDxtcDataToSurface shows for it.", "quantifier": "every chain of mipmaps of which each has half the sides of the one before (at least 1), any number of levels", "why_tests_cant": "The result must hold for every picture, every size and every position; a test saves a few pictures.", "anchors": [{"file": "DevIL/src-IL/src/il_dds-save.cpp", "symbols": ["iSaveDdsInternal", "WriteHeader", "Compress"]}, {"file": "DevIL/src-IL/src/il_dds.cpp", "symbols": ["iLoadDdsInternal", "ReadMipmaps"]}]}
{"id": "C204", "title": "An IWI file without compression is loaded exactly", "statement": "An Infinity Ward image (IWI) without mipmaps whose pixels have a byte for each component (BGRA, BGR or alpha) is loaded, from a file or from memory, exactly if all its pixels are there; the image has the sides and the format of the header and every component of every pixel, from the top left.", "quantifier": "every such file of fewer than 2^32 bytes of pixels, every pixel", "why_tests_cant": "The result must hold for every file, every size and every pixel; a test loads a few files.", "anchors": [{"file": "DevIL/src-IL/src/il_iwi.cpp", "symbols": ["iLoadIwiInternal", "IwiReadImage", "IwiGetFormat"]}]}
{"id": "C205", "title": "An IWI file with mipmaps is loaded level by level", "statement": "An IWI file with mipmaps holds the levels from a single pixel up to the picture, each side half of that of the next level and at least 1. If it is complete it is loaded with all of them, and each level shows its own pixels; otherwise loading fails.", "quantifier": "every such file, any sides and so any number of levels", "why_tests_cant": "The result must hold for every file, every size and every pixel; a test loads a few files.", "anchors": [{"file": "DevIL/src-IL/src/il_iwi.cpp", "symbols": ["iLoadIwiInternal", "IwiInitMipmaps", "IwiReadImage"]}]}
{"id": "C206", "title": "Compressed IWI files show what ilDxtcDataToSurface makes of their blocks", "statement": "An IWI file of DXT1, DXT3 or DXT5 data whose sides are powers of two is loaded exactly if all its blocks are there, and each level shows what ilDxtcDataToSurface makes of its own blocks.", "quantifier": "every such file, any sides and number of levels", "why_tests_cant": "The result must hold for every file, every size and every pixel; a test loads a few files.", "anchors": [{"file": "DevIL/src-IL/src/il_iwi.cpp", "symbols": ["iLoadIwiInternal", "IwiReadImage"]}, {"file": "DevIL/src-IL/src/il_dds.cpp", "symbols": ["DecompressDXT1", "DecompressDXT3", "DecompressDXT5"]}]}
{"id": "C207", "title": "IWI pixels with four bits per component use the whole range", "statement": "An IWI file with four bits per component is loaded exactly if all its pixels are there, and a component of the largest value, 15, becomes 255.", "quantifier": "every such file, every pixel and component", "why_tests_cant": "The result must hold for every file, every size and every pixel; a test loads a few files.", "anchors": [{"file": "DevIL/src-IL/src/il_iwi.cpp", "symbols": ["iLoadIwiInternal", "IwiReadImage"]}]}
{"id": "C208", "title": "Loading IWI never touches memory it does not own", "statement": "Whatever the bytes are, loading them as IWI ends, touches only memory the library owns, and leaves images whose memory has the size they report.", "quantifier": "every sequence of bytes, from a file or from memory", "why_tests_cant": "The result must hold for every file, every size and every pixel; a test loads a few files.", "anchors": [{"file": "DevIL/src-IL/src/il_iwi.cpp", "symbols": ["iLoadIwiInternal", "IwiInitMipmaps", "IwiReadImage", "iGetIwiHead"]}]}
{"id": "C209", "title": "Registering a number of images, faces or mipmaps makes exactly that many selectable", "statement": "After ilRegisterNumImages, ilRegisterNumFaces or ilRegisterMipNum with a number n, exactly n further images, faces or mipmaps of the bound image can be selected with ilActiveImage, ilActiveFace or ilActiveMipmap; what was there before is gone.", "quantifier": "every history of calls, every n", "why_tests_cant": "A test makes a few calls with a few numbers; the property ranges over every history before and every number.", "anchors": [{"file": "DevIL/src-IL/src/il_register.cpp", "symbols": ["ilRegisterNumImages", "ilRegisterNumFaces", "ilRegisterMipNum"]}, {"file": "DevIL/src-IL/src/il_stack.cpp", "symbols": ["ilActiveImage", "ilActiveFace", "ilActiveMipmap"]}]}
{"id": "C210", "title": "A complete Scitex file is loaded exactly", "statement": "A complete Scitex continuous tone file in grey or in red, green and blue is loaded, from a file or from memory, as an image with the sides of the header whose pixels are, from the top left, those of the lines: one line for each component of each row, padded to an even length.", "quantifier": "every complete file, every side, every pixel and component; every C library that reads numerals with blanks around them", "why_tests_cant": "The result must hold for every file, every size and every pixel; a test loads a few files.", "anchors": [{"file": "DevIL/src-IL/src/il_scitex.cpp", "symbols": ["iLoadScitexInternal", "iGetScitexHead", "iCheckScitex"]}]}
{"id": "C211", "title": "A Scitex file that is cut off is not loaded as if it were complete", "statement": "If pixels are missing at the end of a Scitex file, loading it reports failure.", "quantifier": "every file, wherever it ends behind the header, from a file or from memory", "why_tests_cant": "The result must hold for every file, every size and every pixel; a test loads a few files.", "anchors": [{"file": "DevIL/src-IL/src/il_scitex.cpp", "symbols": ["iLoadScitexInternal"]}]}
{"id": "C212", "title": "Loading Scitex never touches memory it does not own", "statement": "Whatever the bytes are, loading them as Scitex ends, touches only memory the library owns, and leaves an image whose memory has the size it reports.", "quantifier": "every sequence of bytes of at least 2048 bytes, whatever atoi and atof say", "why_tests_cant": "The result must hold for every file, every size and every pixel; a test loads a few files.", "anchors": [{"file": "DevIL/src-IL/src/il_scitex.cpp", "symbols": ["iLoadScitexInternal", "iGetScitexHead", "iCheckScitex"]}]}
{"id": "C213", "title": "A complete ROT file is loaded with all its levels", "statement": "A complete Relic texture with DXT3 or DXT5 data is loaded, from a file or from memory, with as many images as the file has levels, and each image has the sides of its level and shows what its own blocks decompress to, from the lower left.", "quantifier": "every complete file, every number of levels, each at most as large as the one before, every content", "why_tests_cant": "The result must hold for every file, every size and every number of levels; a test loads a few files.", "anchors": [{"file": "DevIL/src-IL/src/il_rot.cpp", "symbols": ["iLoadRotInternal"]}, {"file": "DevIL/src-IL/src/il_dds.cpp", "symbols": ["DecompressDXT3", "DecompressDXT5"]}]}
{"id": "C214", "title": "A ROT file that is cut off is not loaded as if it were complete", "statement": "If a Relic texture with DXT3 or DXT5 data ends within a level, or has no level at all, loading it reports failure.", "quantifier": "every file, wherever within a level it ends, every number of levels before it, from a file or from memory", "why_tests_cant": "The result must hold for every file, every size and every number of levels; a test loads a few files.", "anchors": [{"file": "DevIL/src-IL/src/il_rot.cpp", "symbols": ["iLoadRotInternal"]}, {"file": "DevIL/src-IL/src/il_dds.cpp", "symbols": ["DecompressDXT3", "DecompressDXT5"]}]}
{"id": "C215", "title": "Loading ROT is safe", "statement": "Whatever the bytes are, loading them as a Relic texture ends, touches only memory the library owns, uses no value before it is set, and leaves images whose memory has the size they report.", "quantifier": "every sequence of bytes of at least 40 bytes, from a file or from memory", "why_tests_cant": "The result must hold for every file, every size and every number of levels; a test loads a few files.", "anchors": [{"file": "DevIL/src-IL/src/il_rot.cpp", "symbols": ["iLoadRotInternal"]}, {"file": "DevIL/src-IL/src/il_dds.cpp", "symbols": ["DecompressDXT3", "DecompressDXT5"]}]}
{"id": "C216", "title": "DCX files are loaded or refused, and never with undefined results", "statement": "Whatever the bytes are, loading them as a DCX file either gives the pages or reports failure and leaves the image as it was; it decides by nothing that has not been set and touches only memory the library owns.", "quantifier": "every sequence of bytes, every number of pages, from a file or from memory", "why_tests_cant": "The result must hold for every file and every table of pages; a test loads a few files.", "anchors": [{"file": "DevIL/src-IL/src/il_dcx.cpp", "symbols": ["iLoadDcxInternal", "iIsValidDcx", "iGetDcxHead", "iUncompressDcx"]}]}
{"id": "C217", "title": "Reducing the colours replaces each pixel by the average of its group", "statement": "Converting a picture of up to 8421504 pixels to colour indices with at most K colours (Wu's method) gives each pixel an index below K; each palette entry that a pixel has is, in each component, the average rounded down of all pixels that have it; pixels of one colour get one index, and a picture of one colour keeps it exactly.", "quantifier": "every picture of at most 8421504 RGB pixels, every number of colours from 1 to 256, every result of the float calculations, every content of fresh memory", "why_tests_cant": "The result must hold for every picture, every number of colours and every rounding of the floats; a test reduces a few pictures.", "anchors": [{"file": "DevIL/src-IL/src/il_quantizer.cpp", "symbols": ["iQuantizeImage", "Hist3d", "M3d", "Vol", "Bottom", "Top", "Maximize", "Cut", "Mark"]}, {"file": "DevIL/src-IL/src/il_convert.cpp", "symbols": ["iConvertImage"]}]}
{"id": "C218", "title": "Reducing the colours has no undefined behaviour", "statement": "Converting any picture to colour indices (Wu's method) ends, stays within the memory the library owns and does no arithmetic whose result is undefined.", "quantifier": "every picture, every number of colours from 1 to 256, every result of the float calculations", "why_tests_cant": "The result must hold for every picture, every number of colours and every rounding of the floats; a test reduces a few pictures.", "anchors": [{"file": "DevIL/src-IL/src/il_quantizer.cpp", "symbols": ["iQuantizeImage", "Hist3d", "M3d", "Vol", "Bottom", "Top", "Maximize", "Cut", "Mark"]}, {"file": "DevIL/src-IL/src/il_convert.cpp", "symbols": ["iConvertImage"]}]}
{"id": "C219", "title": "Every entry of a palette made by reducing colours is set", "statement": "The palette of a picture converted to colour indices (Wu's method) depends on the picture only, in each of its 256 entries.", "quantifier": "every picture, every number of colours from 1 to 256, every content of fresh memory", "why_tests_cant": "The result must hold for every picture, every number of colours and every rounding of the floats; a test reduces a few pictures.", "anchors": [{"file": "DevIL/src-IL/src/il_quantizer.cpp", "symbols": ["iQuantizeImage", "Hist3d", "M3d", "Vol", "Bottom", "Top", "Maximize", "Cut", "Mark"]}, {"file": "DevIL/src-IL/src/il_convert.cpp", "symbols": ["iConvertImage"]}]}
{"id": "C220", "title": "Rotating by 90 or 270 degrees turns every picture", "statement": "Rotating a picture by 90 or 270 degrees gives a picture with width and height exchanged in which every pixel is where a turn by a quarter or three quarters puts it; both together give the picture back; only memory of the two pictures is touched.", "quantifier": "every width, height, number of components and content of the picture, every type of component", "why_tests_cant": "The result must hold for every size and content of the picture; a test turns a few pictures, most of them square.", "anchors": [{"file": "DevIL/src-ILU/src/ilu_rotate.cpp", "symbols": ["iluRotate", "iluRotate_"]}]}
{"id": "C221", "title": "Rotating by 180 degrees turns every picture", "statement": "Rotating a picture by 180 degrees puts the pixel of row y and column x into row h-1-y and column w-1-x.", "quantifier": "every width, height, number of components and content of the picture", "why_tests_cant": "The result must hold for every size and content of the picture; a test turns a few pictures, most of them square.", "anchors": [{"file": "DevIL/src-ILU/src/ilu_rotate.cpp", "symbols": ["iluRotate", "iluRotate_"]}]}
{"id": "C222", "title": "Rotating by any other angle stays within the pictures", "statement": "Rotating a picture by an angle that is not a multiple of 90 degrees touches only the memory of the two pictures; each pixel of the result is the pixel of the source at the calculated place if that is inside the source, and has the clear colour otherwise.", "quantifier": "every picture, every size of the result, every result of the float calculations", "why_tests_cant": "The result must hold for every size and content of the picture; a test turns a few pictures, most of them square.", "anchors": [{"file": "DevIL/src-ILU/src/ilu_rotate.cpp", "symbols": ["iluRotate", "iluRotate_"]}]}
{"id": "C223", "title": "A picture saved as a C header reads back as its bytes", "statement": "The array in a saved C header lists, as a C compiler reads it, exactly the bytes of the picture in order, with no number octal and no comma missing; the same holds for the palette, which is there exactly when the picture has one; width, height, depth, components and format are those of the picture.", "quantifier": "every picture, every palette, every length up to the limits of 32-bit numbers", "why_tests_cant": "The text must read back for every picture; a test compares a few files.", "anchors": [{"file": "DevIL/src-IL/src/il_header.cpp", "symbols": ["ilSaveCHeader"]}]}
{"id": "C224", "title": "The type in a saved C header is the type of its array", "statement": "The number of bytes in the array of a saved C header is the product of the width, height, depth, components and size of the type that the header states.", "quantifier": "every picture and type of component", "why_tests_cant": "The text must read back for every picture; a test compares a few files.", "anchors": [{"file": "DevIL/src-IL/src/il_header.cpp", "symbols": ["ilSaveCHeader"]}]}
{"id": "C225", "title": "Reducing the colours with NeuQuant ends and stays within its memory", "statement": "Converting a picture to colour indices with the NeuQuant method (IL_QUANTIZATION_MODE set to IL_NEU_QUANT, or saving as WBMP) ends, reads and writes only the picture and its own tables, and does no undefined arithmetic.", "quantifier": "every picture, every number of colours from 1 to 256, every sampling factor, every content of fresh memory", "why_tests_cant": "The result must hold for every picture, palette size and sampling factor; a test reduces a few pictures, most of them large.", "anchors": [{"file": "DevIL/src-IL/src/il_neuquant.cpp", "symbols": ["iNeuQuant", "initnet", "learn", "contest", "altersingle", "alterneigh", "unbiasnet", "inxbuild", "inxsearch"]}, {"file": "DevIL/src-IL/src/il_convert.cpp", "symbols": ["iConvertPalette", "iConvertImage"]}, {"file": "DevIL/src-IL/src/il_wbmp.cpp", "symbols": ["iSaveWbmpInternal"]}]}
{"id": "C226", "title": "NeuQuant gives each pixel the nearest colour of its palette", "statement": "After converting a picture to colour indices with the NeuQuant method, each pixel has the number of a colour of the palette, and no colour of the palette has a smaller sum of absolute differences of the components to the pixel than that one.", "quantifier": "every picture, every number of colours from 1 to 256, every sampling factor, every content of fresh memory", "why_tests_cant": "The result must hold for every picture, palette size and sampling factor; a test reduces a few pictures, most of them large.", "anchors": [{"file": "DevIL/src-IL/src/il_neuquant.cpp", "symbols": ["iNeuQuant", "initnet", "learn", "contest", "altersingle", "alterneigh", "unbiasnet", "inxbuild", "inxsearch"]}, {"file": "DevIL/src-IL/src/il_convert.cpp", "symbols": ["iConvertPalette", "iConvertImage"]}, {"file": "DevIL/src-IL/src/il_wbmp.cpp", "symbols": ["iSaveWbmpInternal"]}]}
{"id": "C227", "title": "Grey and RGB565 TPL textures load pixel for pixel", "statement": "A TPL file with one texture of eight bits of grey, or of RGB565, and all its data loads, from a file and from memory, into one image of the size in its header, with the origin at the upper left; every pixel comes from its place in the tiles of the texture, and five and six bits are widened to eight by repeating their upper bits.", "quantifier": "every size of the texture, every place of the header and the data, every content, every previous content of memory", "why_tests_cant": "The place of a pixel depends on the size of the texture, the size of the tiles and the format, and tiles at the edges are cut; a test loads a few textures whose sides are multiples of the tiles.", "anchors": [{"file": "DevIL/src-IL/src/il_tpl.cpp", "symbols": ["iLoadTplInternal", "ilLoadTpl", "ilLoadTplF", "ilLoadTplL"]}]}
{"id": "C228", "title": "Loading a TPL texture stays within its memory", "statement": "Loading a TPL file never reads or writes outside the file's bytes and the image's block, whatever the format of the texture and however much of the file is there, and the block has the size that the image reports.", "quantifier": "every TPL file, every format, every size, every amount of data", "why_tests_cant": "The place of a pixel depends on the size of the texture, the size of the tiles and the format, and tiles at the edges are cut; a test loads a few textures whose sides are multiples of the tiles.", "anchors": [{"file": "DevIL/src-IL/src/il_tpl.cpp", "symbols": ["iLoadTplInternal", "ilLoadTpl", "ilLoadTplF", "ilLoadTplL"]}]}
{"id": "C229", "title": "An Apple icon and its mask load as one RGBA picture", "statement": "An ICNS file with the 24-bit colours of an icon of 128, 48, 32 or 16 columns and its 8-bit mask, in either order, loads, from a file and from memory, into one RGBA image of that size: every pixel has the colours of the icon, whether they are packed or not, and the mask as its alpha.", "quantifier": "every size of icon, every content, every division into packets, both orders, every previous content of memory", "why_tests_cant": "The place of a byte in the packed data depends on all packets before it, and packets may end anywhere; a test loads a few icons, all of them well formed.", "anchors": [{"file": "DevIL/src-IL/src/il_icns.cpp", "symbols": ["iLoadIcnsInternal", "iIcnsReadData", "ilLoadIcns", "ilLoadIcnsF", "ilLoadIcnsL"]}]}
{"id": "C230", "title": "Loading an Apple icon stays within its memory and ends", "statement": "Loading an ICNS file never reads or writes outside the file's bytes, the block made for an entry and the blocks of the images, ends for every file, and every image has a block of the size it reports.", "quantifier": "every ICNS file, every amount of data in an entry, every size an entry claims", "why_tests_cant": "The place of a byte in the packed data depends on all packets before it, and packets may end anywhere; a test loads a few icons, all of them well formed.", "anchors": [{"file": "DevIL/src-IL/src/il_icns.cpp", "symbols": ["iLoadIcnsInternal", "iIcnsReadData", "ilLoadIcns", "ilLoadIcnsF", "ilLoadIcnsL"]}]}
{"id": "C231", "title": "A Total War texture is the DDS picture behind its first 48 bytes", "statement": "Loading a texture gives the result and the images that loading the bytes behind its first 48 as a DDS file gives, from a file and from memory, and an open file is left where it was.", "quantifier": "every content of the first 48 bytes, every content of the rest, valid or not, every previous content of memory", "why_tests_cant": "The DDS loader must behave the same wherever in a file it starts, for every header and every kind of compression; a test compares a few textures.", "anchors": [{"file": "DevIL/src-IL/src/il_texture.cpp", "symbols": ["ilLoadTexture", "ilLoadTextureF", "ilLoadTextureL"]}, {"file": "DevIL/src-IL/src/il_dds.cpp", "symbols": ["iLoadDdsInternal"]}]}
{"id": "C232", "title": "All icons of a Windows icon file load with their colours and transparency", "statement": "A file of Windows icons, each a bitmap of 1, 4, 8, 24 or 32 bits per pixel with a header of 40 bytes and as many colours in its palette as its bits can count, loads, from a file and from memory, into as many images as the directory has entries and in that order: every image is BGRA, has the icon's size, and every pixel has the blue, green and red of the file; its alpha is that of the file with 32 bits, and otherwise 0 where the mask is set and 255 where it is not.", "quantifier": "every number of icons, all sizes with fewer than 2^26 pixels, the five depths in any mixture, every place of the icons in the file, every previous content of memory", "why_tests_cant": "Where a pixel's bits lie depends on the width, the bits per pixel, the padding of rows, the palette and the offsets of all icons; a test loads a few icons of usual sizes.", "anchors": [{"file": "DevIL/src-IL/src/il_icon.cpp", "symbols": ["iLoadIconInternal", "ilLoadIcon", "ilLoadIconF", "ilLoadIconL"]}]}
{"id": "C233", "title": "Loading a Windows icon file stays within its memory, ends, and reports what it did", "statement": "Loading a file of Windows icons never reads or writes outside the file's bytes, the blocks made for its icons and the blocks of the images, ends for every file, and either succeeds with the images of the file or fails and leaves the bound image as it was.", "quantifier": "every file, every header an icon may have, every offset, every length at which the file may end", "why_tests_cant": "Where a pixel's bits lie depends on the width, the bits per pixel, the padding of rows, the palette and the offsets of all icons; a test loads a few icons of usual sizes.", "anchors": [{"file": "DevIL/src-IL/src/il_icon.cpp", "symbols": ["iLoadIconInternal", "ilLoadIcon", "ilLoadIconF", "ilLoadIconL"]}]}
{"id": "C234", "title": "A Photo CD file loads as the picture that was chosen", "statement": "A Photo CD file that is long enough loads, from a file and from memory, as the chosen one of its three plain pictures: the image is RGB, has that picture's size, every pixel is made of the luminance and the two chrominances that the file has for it, and the origin is what the file's orientation says.", "quantifier": "the three pictures, every content of the file, every way to make colours of luminance and chrominance, every previous content of memory", "why_tests_cant": "A Photo CD file has half a million bytes and a fixed layout; a test compares a few pictures by eye, in which a shift by one byte is hard to see, and files may end anywhere.", "anchors": [{"file": "DevIL/src-IL/src/il_pcd.cpp", "symbols": ["iLoadPcdInternal", "ilLoadPcd", "ilLoadPcdF", "ilLoadPcdL"]}]}
{"id": "C235", "title": "Loading a Photo CD file is safe and succeeds exactly for files that are long enough", "statement": "Loading a Photo CD file never reads or writes outside its rows and the image's block, whatever the file and the chosen picture; it succeeds exactly if the number of the picture is 0, 1 or 2 and the file is long enough; if it fails, the bound image is as it was, or has the size of the picture and a block of that size.", "quantifier": "every file of at least one byte, every number of a picture, files and memory", "why_tests_cant": "A Photo CD file has half a million bytes and a fixed layout; a test compares a few pictures by eye, in which a shift by one byte is hard to see, and files may end anywhere.", "anchors": [{"file": "DevIL/src-IL/src/il_pcd.cpp", "symbols": ["iLoadPcdInternal", "ilLoadPcd", "ilLoadPcdF", "ilLoadPcdL"]}]}
{"id": "C236", "title": "Loading an MP3 file gives the picture of its tag", "statement": "An MP3 file with an ID3 tag of version 2.3 or 2.4 that has a JPEG or PNG picture loads, from a file and from memory, as that picture: what the loader of that format makes of the bytes from exactly where the picture begins, whatever other frames come first. A picture of another type is refused and the bound image is as it was.", "quantifier": "every number and content of frames before the picture, every description, every behaviour of the loaders of JPEG and PNG, files and memory", "why_tests_cant": "Tags hold any number of frames of any sizes, with counts a damaged or hostile file chooses freely; a test has a few tags written by one program.", "anchors": [{"file": "DevIL/src-IL/src/il_mp3.cpp", "symbols": ["iLoadMp3Internal", "iFindMp3Pic", "iGetMp3Head", "iCheckMp3", "GetSynchInt", "ilLoadMp3", "ilLoadMp3F", "ilLoadMp3L"]}]}
{"id": "C237", "title": "Loading an MP3 file is safe and ends", "statement": "Loading any bytes as an MP3 file ends, and reads and writes only inside the loader's arrays, provided the loaders of JPEG and PNG do; if none of these is run, the bound image is as it was.", "quantifier": "every file of at least one byte, files and memory", "why_tests_cant": "Tags hold any number of frames of any sizes, with counts a damaged or hostile file chooses freely; a test has a few tags written by one program.", "anchors": [{"file": "DevIL/src-IL/src/il_mp3.cpp", "symbols": ["iLoadMp3Internal", "iFindMp3Pic", "iGetMp3Head", "iCheckMp3", "GetSynchInt", "ilLoadMp3", "ilLoadMp3F", "ilLoadMp3L"]}]}
{"id": "C238", "title": "Loading a BLP2 texture with a palette gives all its levels", "statement": "A BLP2 texture with a palette and no alpha loads, from a file and from memory, as all its levels: the first as the image and the others as its mipmaps, each half as wide and high as the one before but at least one pixel, with the numbers of the colours the file has for that level, the file's palette, and the first row at the top.", "quantifier": "every size, every number of levels from one to sixteen, all places and contents of the levels, files and memory", "why_tests_cant": "Textures have any size, up to sixteen levels and places and lengths that a damaged or hostile file chooses freely; a test has a few textures written by one program.", "anchors": [{"file": "DevIL/src-IL/src/il_blp.cpp", "symbols": ["iLoadBlpInternal", "iGetBlp2Head", "iCheckBlp2", "ilLoadBlp", "ilLoadBlpF", "ilLoadBlpL"]}]}
{"id": "C239", "title": "Loading a BLP2 texture with one bit of alpha gives its colours and alpha", "statement": "A BLP2 texture with a palette and one bit of alpha loads, from a file and from memory, as all its levels, each pixel with its colour of the palette and its bit of alpha as fully opaque or fully transparent.", "quantifier": "every size, every number of levels from one to sixteen, all places and contents of the levels, files and memory", "why_tests_cant": "Textures have any size, up to sixteen levels and places and lengths that a damaged or hostile file chooses freely; a test has a few textures written by one program.", "anchors": [{"file": "DevIL/src-IL/src/il_blp.cpp", "symbols": ["iLoadBlpInternal", "iGetBlp2Head", "iCheckBlp2", "ilLoadBlp", "ilLoadBlpF", "ilLoadBlpL"]}]}
{"id": "C240", "title": "Loading a BLP2 texture is safe", "statement": "Loading any bytes as a BLP2 texture ends, reads only the bytes given and writes only inside the image's blocks, provided the loaders of compressed textures and of BLP1 do; every image that results has a block of its size.", "quantifier": "every file, every header, every place and length of a level, files and memory", "why_tests_cant": "Textures have any size, up to sixteen levels and places and lengths that a damaged or hostile file chooses freely; a test has a few textures written by one program.", "anchors": [{"file": "DevIL/src-IL/src/il_blp.cpp", "symbols": ["iLoadBlpInternal", "iGetBlp2Head", "iCheckBlp2", "ilLoadBlp", "ilLoadBlpF", "ilLoadBlpL"]}]}
{"id": "C241", "title": "Loading a KTX texture gives the picture it stores", "statement": "A KTX texture of unsigned bytes that is not compressed loads, from a file and from memory, as its levels: each with the size, the format and the pixels that the file has for it, without the bytes that fill up its rows.", "quantifier": "every size, each of the four formats, every number of levels and every content, files and memory", "why_tests_cant": "Textures have any size, format and number of levels, and keys and lengths that a damaged or hostile file chooses freely; a test has a few textures written by one program.", "anchors": [{"file": "DevIL/src-IL/src/il_ktx.cpp", "symbols": ["iLoadKtxInternal", "iKtxKeyValueData", "iKtxReadMipmaps", "ilLoadKtx", "ilLoadKtxF", "ilLoadKtxL"]}]}
{"id": "C242", "title": "Loading a KTX texture is safe and ends", "statement": "Loading any bytes as a KTX texture ends, reads only inside its blocks and writes only inside the image's, provided the loader of compressed textures does; every image that results has a block of its size.", "quantifier": "every file, every header, every content of the keys and levels, files and memory", "why_tests_cant": "Textures have any size, format and number of levels, and keys and lengths that a damaged or hostile file chooses freely; a test has a few textures written by one program.", "anchors": [{"file": "DevIL/src-IL/src/il_ktx.cpp", "symbols": ["iLoadKtxInternal", "iKtxKeyValueData", "iKtxReadMipmaps", "ilLoadKtx", "ilLoadKtxF", "ilLoadKtxL"]}]}
{"id": "C243", "title": "A tile of a Maya IFF picture gives its pixels to the image", "statement": "Loading a tile of a Maya IFF picture puts every pixel of the tile, with its components in the order red, green, blue and alpha, at its place in the image and changes no other pixel, however the tile is packed or if it is not.", "quantifier": "every size of the picture, every place and size of the tile, every content and every way to pack it", "why_tests_cant": "A tile has any place and size, and its channels can be packed in very many ways; a damaged or hostile file chooses every byte and corner freely. A test has a few pictures of one program.", "anchors": [{"file": "DevIL/src-IL/src/il_iff.cpp", "symbols": ["iLoadIffInternal", "iff_decompress_tile_rle", "iff_decompress_rle", "iffReadUncompressedTile"]}]}
{"id": "C244", "title": "Loading a tile of a Maya IFF picture is safe and ends", "statement": "Loading any bytes as a tile of a Maya IFF picture ends, reads only inside the tile's bytes and writes only inside the image's block.", "quantifier": "every size of the picture, every corner of the tile and every content", "why_tests_cant": "A tile has any place and size, and its channels can be packed in very many ways; a damaged or hostile file chooses every byte and corner freely. A test has a few pictures of one program.", "anchors": [{"file": "DevIL/src-IL/src/il_iff.cpp", "symbols": ["iLoadIffInternal", "iff_decompress_tile_rle", "iff_decompress_rle", "iffReadUncompressedTile"]}]}
{"id": "C245", "title": "Compact numbers of Unreal packages are read as they were written", "statement": "When a texture package is loaded, every number of up to 31 bits and a sign that it has in the compact form is read as that number, and exactly its bytes are read, so that what follows is read from its place.", "quantifier": "every number with a magnitude below 2147483648, and whatever follows it", "why_tests_cant": "There are four billion numbers and as many sequences of up to five bytes, and a package chooses each of them freely; a test has the numbers of a few packages.", "anchors": [{"file": "DevIL/src-IL/src/il_utx.cpp", "symbols": ["UtxReadCompactInteger"]}]}
{"id": "C246", "title": "Reading a compact number of an Unreal package is safe and ends", "statement": "Reading any bytes as a compact number ends after at most five bytes and calculates only with numbers that an int can hold.", "quantifier": "every sequence of bytes, also one that ends early", "why_tests_cant": "There are four billion numbers and as many sequences of up to five bytes, and a package chooses each of them freely; a test has the numbers of a few packages.", "anchors": [{"file": "DevIL/src-IL/src/il_utx.cpp", "symbols": ["UtxReadCompactInteger"]}]}
