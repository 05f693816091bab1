# Formal model of DevIL in Lean 4 — design

The source in /repo (DentonW/DevIL, pinned) is read as text.  Nothing is compiled
or run.  Everything below is about the Lean model; the tie to the C++ is the
citation (`file:lines`) on every definition.

## Conventions of the model

* A C function becomes a total computable Lean function.  A function that
  mutates through a pointer returns the new value.
* `C α = Except Fault α` is the result of C code: `ok` or an explicit
  *undefined-behaviour/ hang outcome* (`oobRead`, `oobWrite`, `useAfterFree`,
  `doubleFree`, `nullDeref`, `hang`, ...).  "Safe" always means "the outcome is
  not a `Fault`".
* A buffer is a `List` of elements (bytes, or 16/32-bit words where the code
  casts the pointer).  `rd`/`wr` check the index against the length and yield a
  `Fault` outside it.  A freshly `malloc`ed buffer is an *arbitrary* list of the
  requested length (`junk`), so "every byte is initialised" is "the result does
  not depend on `junk`".
* Loops are `loopN n body` / `forStep start stop step body` (a step of 0 with
  work left is `hang`).
* 32-bit unsigned arithmetic is `Nat` with an explicit `u32` (mod 2^32) wherever
  the code can wrap and the property cares; otherwise the theorem states the
  no-wrap precondition.  Bit-level code uses `BitVec`.
* Specifications live beside the property theorems (`Spec` namespaces/files) and
  do not mention the model's helpers.
* When the unchanged code violates a property, the negation is proved with a
  concrete witness (suffix `_violated` / `_counterexample`) and the part that
  does hold is proved under the suffix `_partial`.

## Trusted base

Lean 4.33.0's kernel; the axioms `propext`, `Classical.choice`, `Quot.sound`
(no others; no `native_decide`, `bv_decide`, no own axioms); the faithfulness
of the hand transcription, which the citations are there to let a reader check.
Assumed about the platform: little-endian, two's complement, 8-bit bytes,
32-bit `int`, IEEE-754 floats (only their bit patterns are modelled; floating
point arithmetic is not, except where stated), allocation succeeds unless the
model has an explicit failure argument.  Not modelled: threads, the C library's
file layer (`fopen`...), third-party codecs (libpng, libjpeg, libtiff, jasper,
lcms, OpenEXR, libmng, squish), ILUT's window-system back ends.

## Plan per property

| id | modelled | how proved |
|----|----------|-----------|
| C01 | il_error.cpp stack (array of 32 + index) | refinement to a list stack, induction over the history |
| C02 | same | invariant `-1 <= top <= 31`; drain count; the "newest 32 in order" half is false (the shift loop stops one short): witness + partial |
| C03 | il_stack.cpp name table, free list, heap of image objects | invariant over histories; false when a deleted name is re-bound: witness + partial |
| C04 | same | refinement to a set of live names |
| C05 | same, heap with explicit freed objects | invariant |
| C06 | same | no double free: invariant; no leak: false after re-binding a deleted name, witness + partial |
| C07 | same | frame lemma per operation, induction |
| C08 | image chains as lists | induction on the chain |
| C09 | il_states.cpp `ilAble`/`ilIsEnabled` | case analysis over modes, all states |
| C10 | `ilPushAttrib`/`ilPopAttrib` | induction over balanced histories |
| C11 | `ilSetInteger`/`ilGetIntegerv` | case analysis; modes whose check uses `||` accept everything: witness + partial |
| C12 | origin/format/type functions | case analysis |
| C13 | `ilHint` | case analysis |
| C14 | `ilInitImage`, `ilTexImage_` with 32-bit arithmetic | direct; false when the product overflows 2^32: witness + partial |
| C15 | the image operations | invariant over operation lists |
| C16 | `iFlipBuffer`, `iFlipNewBuffer` as memcpy loops | loop invariant; involution from the row specification |
| C17 | `iMirror` | loop invariant |
| C18 | `ilCopyPixels1D/2D/3D` | loop invariant, safety and content |
| C19 | `ilSetPixels1D/2D/3D` | loop invariant, safety and content |
| C20 | `iFastConvert` | loop invariant |
| C21 | `ilConvertBuffer` colour arms | loop invariant per arm |
| C22 | all arms | safety by loop invariant; RGB->ALPHA and LUMINANCE_ALPHA->ALPHA violate it: witness + partial |
| C23 | luminance arms with an abstract weighting | arm equality; BGR(A)->LUMINANCE_ALPHA violate it: witness + partial |
| C24 | `iSwitchTypes` integer arms | bit-vector algebra, map over buffers |
| C25 | `iSwitchTypes` with junk | independence of junk; equal-size signed/unsigned pairs violate it: witness + partial |
| C26 | `ilAddAlpha`, `ilRemoveAlpha` | loop invariants, round trip; witness for component size > 1 |
| C27 | `ilSetAlpha` | loop invariant |
| C28 | `ilHalfToFloat`, `ilFloatToHalf` on bit patterns | case analysis on exponent with bit-vector/arith lemmas |
| C29 | `iConvertPal` | loop invariant per arm |
| C30 | `iConvertPalette` colour arms | loop invariant; witness for an index past the palette |
| C31 | `iConvertImage` luminance arm | direct |
| C32-C34 | il_files.cpp lump functions with 32-bit arithmetic | invariant over operation lists; negative `IL_SEEK_SET` witness |
| C35 | il_size.cpp fakes; `iTargaSize` | refinement fake-writer = real writer; TGA size differs: witness |
| C36 | il_endian.cpp | bit-vector algebra; `iSwapDouble` witness |
| C37 | il_bits.cpp `bread` | induction over bits |
| C38 | il_raw.cpp | byte-level round trip |
| C39 | il_targa.cpp | byte-level round trip; upper-left witness |
| C40 | `iUncompressTgaData` | loop invariant + termination measure |
| C41 | il_rle | induction; the run packet copies one byte too many: witness + partial |
| C42 | PCX encoder/decoder | induction over the line |
| C43 | PCX decoder | invariant |
| C44 | SGI verbatim | permutation round trip |
| C45 | SGI RLE | witness of overflow + partial |
| C46 | BMP rows | byte-level round trip |
| C47 | BMP RLE8/RLE4 | invariant |
| C48 | WBMP | induction / arithmetic |
| C49 | `iluNegative` | map + involution |
| C50 | `iluInvertAlpha` | witness + partial |
| C51 | `iluCrop2D` | loop invariant, witness |
| C52 | `iluCompareImage` | decision logic |
| C53 | `iluColoursUsed` | counting lemma, witness |
| C54 | `iBuildMipmaps` | well-founded recursion |
| C55 | il_register.cpp lists | invariant; head-duplicate witness |
| C56 | `iGetExtension`, `ilTypeFromExt` | string lemma |
| C57 | il_utility.cpp tables | decision logic |
| C58 | `ilNextPower2` | arithmetic; non-termination witness |
| C59 | `ilClampNTSC` | loop invariant |
| C60 | `ilClearImage_` | loop invariant |
| C61 | `ilBlit`/`ilOverlayImage` | loop invariant |
| C62 | `iSqrt` with its table | whole-table decision plus shift arithmetic |
| C63 | `iMemSwap` block loop plus remainder | induction on blocks |
| C64 | `iGetIntegervImage` | case analysis; palette base type and palette size queries are wrong: witness |
| C65 | Model/Stack.lean: chain building and walking on a heap of image objects | chain lemma by induction on n; negation for mipmaps and layers |
| C66 | Model/Stack.lean: closeAll over the table | ownership-count invariant; negation for the stale iCurImage |
| C67 | Model/StackSize.lean: 32-bit size arithmetic of the growth loop | induction on the number of rounds; negation above 2^29-1024 |
| C68 | life of `Image->Data` (null / live block / dangling) through `ilTexImage_` | case analysis; counterexample for the unknown type |
| C69 | `ilConvertBuffer` on component lists | channel specification `chan`, loop lemma per arm |
| C70 | bit-level model of `ilFloatToHalf` | bit arithmetic on sign, exponent, mantissa |
| C71 | ilSwapColours (il_convert.cpp 444-559) | loop invariant over pixels; fails for several slices |
| C72 | ilConvertImage over a list of images | induction over the chain; counterexamples for the fast path and failures |
| C73 | ilGetAlpha for the image's own type (il_manip.cpp 866-958) | strided-loop lemma; counterexamples for half and float |
| C74 | write-lump state machine over arbitrary operation sequences | induction over the operations against a reference output file |
| C75 | `iLoadRawInternal` over the lump reader | chain of reads, each keeps the reader within the lump; the block is as long as its size field even when the product wraps |
| C76 | `Palette.iConvertPalette` | pixel loop invariants; violations by evaluation |
| C77 | `iLoadTargaInternal` over the lump reader | safety triples for each part; negation for dimensions whose size wraps |
| C78 | `iUncompressTgaData` against an inductive definition of packet streams | induction over the packets |
| C79 | `iLoadTargaInternal` | the result of the reader is dropped: two counterexamples |
| C80 | `iLoadWbmpInternal` over the lump reader and the bit reader | safety triples; negation for dimensions whose product wraps |
| C81 | the file handle used by the bit reader is a parameter of the model | negation: without an earlier file load the memory load fails |
| C82 | `iLoadWbmpInternal` | the result of the bit reader is dropped: counterexample |
| C83 | the PCX loader with the contents of fresh blocks as a parameter | violated: two loads of one version-0 file with different fresh memory give different palettes |
| C84 | the comparisons of ilTypeFromExt in order, the documented table copied from the header | C56 reduces every name to its lower-case extension; the table is finite |
| C85 | iGetSgiHead, iCheckSgi, both readers and the assembly of planes | verbatim files: Hoare triple over the reading loops; the encoded reader is violated, by concrete files |
| C86 | iReadRleSgi with its tables, iGetScanLine packet by packet, the assembly into pixels | induction over the packets of a row, loop invariants over rows, planes and pixels |
| C87 | iSaveRleSgi and the seek back to its tables, in the model of an output file | the saved bytes are a file in the sense of C86 |
| C88 | the selected output (none, file, closed file, memory, dry run) and the wrapper functions around a saver | C74 for the memory, C35 for the dry run; state machine over histories |
| C89 | the whole BMP loader, Windows and OS/2 headers, all bit depths and compressions, on the lump reader | Hoare-style induction over rows and codes with the block length and input position as invariant; violations for negative offsets, wrapping sizes, unrepresentable heights |
| C90 | the same loader; an independent function from file bytes to samples | induction over rows and bytes with the filled prefix of the block as invariant; violations for small palettes, big-endian hosts, wide masks, gaps, short OS/2 files |
| C92 | savers as sequences of write and seek calls on a reference file with a position | induction over the calls; violation for BMP, which stores its size at an absolute position |
| C91 | `Model/Bmp.lean`: both decoders, code by code; `Spec/BmpRle.lean`: what codes and their bytes mean | refinement: a relation between the decoder's offsets and the cursor of the specification is kept by every code; induction over the codes |
| C93 | the loaders of `Model/Bmp.lean` and `Model/Sgi.lean` on arbitrary bytes | partial correctness: how far the input has been read if no read failed (`Post.lean`); for codes and lines, induction over the specification's codes; violations for offsets beyond the end |
| C94 | il_dds.cpp DXT decoders on the compressed bytes | loop invariants over blocks to a pointwise formula, compared with a separate description of the formats; green, blue (DXT1) and the transparent colour are wrong: witnesses + partial |
| C95 | il_dds.cpp flip functions | pointwise formula for the flipped bytes, composed with the decoder's; heights that are not multiples of four: witness + partial |
| C96 | il_dds.cpp alpha inversion | digit-wise characterisation of the remapped codes; symmetry of the rounding |
| C97 | Model/Pnm: the header reader, the text and the binary loader on a lump of memory | from a header grammar (Spec/Pnm) by induction over gaps, lines and pixels |
| C98 | Model/Pnm: the saver as a list of output operations and the loader | composition of the layout theorem of the saver with C97 |
| C99 | Model/Pnm with faults as outcomes and fuel for the loops that read until a character comes | proved for P4 files with a proper header; the rest is false: concrete files that fault, or hang for every fuel, and the fault of every truncated binary file |
| C100 | Model/Pnm: the bit loop | every bit lands at its pixel (induction over rows and bytes), with black and white exchanged: the violation is universal |
| C101 | `Model/Gif.lean`: the loader, statement by statement; `Spec/Gif.lean`, `Spec/GifFile.lean`: what a GIF file says | induction over the code sequence with an invariant that relates the decoder's tables to the encoder's dictionary |
| C102 | as C101, with checked memory accesses and uninitialised tables | invariant of the decoding loop, with the number of unread bits as measure; concrete files for the violations |
| C103 | iluEnlargeCanvas with its placement arithmetic, the copy of the old picture, ilTexImage, ilClearImage and ilSetPixels | composition of the theorems on copying, initialising, clearing and blitting |
| C104 | iluScale and the loops of the nearest and linear filters, over an abstract floating point arithmetic with relative error 2^-24 and 2^-53 | error analysis in natural numbers, then a four-fold loop of element copies |
| C105 | ilSaveJascPal, ilLoadJascPal and iFgetw over the bytes of the file (Model/PalFile.lean). | Induction over the colours; the scanner is related to words separated by single spaces and line feeds; decimal printing and reading are inverse. |
| C106 | ilSaveJascPal with the palette fields of the image as they are saved, changed and put back. | Proved for RGB palettes; false of the other layouts: the block is put back but its type and size are not. |
| C107 | ilLoadJascPal and iFgetw with fuel for the inner loops; ilLoadActPal with the input handle that it inherits. | Proved for files of printing characters and line feeds without huge or negative numbers; false of DOS line ends, of a huge count and of Adobe palettes. |
| C108 | A disk of named files with permissions; the functions that save to a named file, with what each saver writes as a parameter (Model/SaveFile.lean). | Case analysis of every path to an opening, then induction over the sequence of calls. |
| C109 | As for C108, with the output the write functions point to. | Proved for savers that do not fail after the file was opened; false of MNG, whose saver always fails after it emptied the file, and of ilSaveData, which never writes to the file. |
| C110 | The reading functions on a stdio file with their cache variables (Model/Cache.lean); a separate reader of a list of bytes (Spec/Cache.lean). | Refinement: an invariant relates the cache to the logical position; induction over the requests. False at the end of the file, where the cache delivers uninitialised memory, and for files loaded from a later position. |
| C111 | ilFixImage on the heap of image objects of Model/Stack.lean with the contents of each object (Model/Fix.lean); ilConvertImage as in Model/ConvImage.lean. | The nested loops are shown equal to ilFixCur on the list of parts, in order; then an invariant over that list. False of a load into a selected sub-image; asking for a type also changes the format of later pages. |
| C112 | All iIsValid… functions over the file model of Model/Cache.lean and the lump model (Model/Detect.lean); ilIsValid…F with its seek back. | Laws of the input functions, proved of files and of lumps; every test is shown to end and to keep the file; the position after it is 0. False for a position other than 0, which is doubled. |
| C113 | As C112; the specification (Spec/Detect.lean) gives signatures and headers by byte offset, format by format. | Each test is shown equal to the specification by reading off the fields (head_spec); then induction over the chain of tests. False of files that end within a header, of files not at their beginning, of KTX files; and some Targa files are PCX files to it. |
| C114 | As C113, with the lump model for memory. | Both chains equal the specification for their order; the orders agree unless bytes have both headers. False of bytes that are an SGI and a Scitex file. |
| C115 | The loader of the format, function by function, over files and over memory (Model/Games.lean); the specification gives the format by byte offsets (Spec/Games.lean). | Laws of the input functions (Lemmas/Games.lean: files and memory obey them); the block after a read is the bytes of the file followed by what it held; arithmetic of pixel offsets. LIF: the loop that adds one to every index, by induction. |
| C116 | The loader of the format, function by function, over files and over memory (Model/Games.lean); the specification gives the format by byte offsets (Spec/Games.lean). | Induction over the runs with the invariant that the block begins with the pixels so far. False of runs that go past the last pixel: they write outside the block. |
| C117 | The loader of the format, function by function, over files and over memory (Model/Games.lean); the specification gives the format by byte offsets (Spec/Games.lean). | Safety for all bytes from the laws of the input functions; complete files by offsets. False of short files: they are reported as loaded and show old memory. |
| C118 | The loader of the format, function by function, over files and over memory (Model/Games.lean); the specification gives the format by byte offsets (Spec/Games.lean). | The first texture by offsets. False of a second one: the pointer to the next image is null when it is used. |
| C119 | The loader of the format, function by function, over files and over memory (Model/Games.lean); the specification gives the format by byte offsets (Spec/Games.lean). | Each of the four pictures by its offset. False of the mipmaps' palettes, which are cleared after they are set, and of short files: the clean-up closes images that it has already closed. |
| C120 | The loader of the format, function by function, over files and over memory (Model/Games.lean); the specification gives the format by byte offsets (Spec/Games.lean). | Induction over the posts of a column and over the columns, with the picture as a function of column and row; termination and safety for all bytes in a file by the position, which grows with every post. False with IL_CONV_PAL, for negative offsets in memory, and for flats loaded by name. |
| C121 | The loader of the format, function by function, over files and over memory (Model/Games.lean); the specification gives the format by byte offsets (Spec/Games.lean). | Rows turned into the tokens the loop meets (pieces, ends of rows); induction over the tokens. False of runs past the last pixel and of short files. |
| C122 | The loader of the format, function by function, over files and over memory (Model/Games.lean); the specification gives the format by byte offsets (Spec/Games.lean). | As C115. |
| C123 | The state machine of ilut_states.cpp: a stack of 32 records, a position, an error queue (Model/Ilut.lean); what a history says about a switch (Spec/Ilut.lean). | Every call but push and pop changes the current record by a pure function (Lemmas/Ilut.lean); induction over the history. |
| C124 | As C123. | As C123. False of ILUT_GL_GEN_S3TC, which reads another switch, and of ILUT_S3TC_FORMAT, whose refused values set the largest texture width. |
| C125 | As C123. | Invariant of the position; the levels below the current one are not written, by induction over nested histories. False of the push, which copies four settings only, and of ilutInit, which keeps the level. |
| C126 | The two settings and the error queue (Model/IluMisc.lean). | One step against the documented ranges, then induction over the history. |
| C127 | The three tables of languages and the three pointers; texts are named by language and index, the English ones are spelled out (Model/IluMisc.lean). | Induction over the history with the invariant that the three pointers are of the language chosen; bounds of the indices. False of four languages, of calls before iluInit and of unlisted errors. |
| C128 | The two pointers with a memory of live and freed blocks; iScanFill as far as the choice of points and the accesses to the array of edges (Model/IluMisc.lean). | Induction over histories of one of the two functions. False of histories with both (double free, use after free) and of negative coordinates. |
| C129 | The two functions over the model of the image table (Model/Stack.lean, Model/IluMisc.lean). | The specifications of ilGenImages, ilBindImage and ilDeleteImages in every reachable state. False of iluLoadImage, which does not bind the new image and overwrites the one that is bound. |
| C130 | Model/Hdr.lean: header text, scan lines of both styles, rows; the conversion between floats and four bytes is a parameter | induction over the pieces of a channel, over channels, over rows; header by induction over its text |
| C131 | Model/Hdr.lean: the writer, with the run finder and the literal writer as loops | invariants of the run finder; what is written is a list of pieces that stands for the bytes; then C130 |
| C132 | Model/Hdr.lean: reads at the end of the input, unset dimensions, shifts | measure on pixels left and bytes left; counterexamples by evaluation |
| C133 | Model/Colour.lean: the loop over pixels of both orders; the weighted sums are a parameter | a lemma on loops over pieces of a buffer: each step changes its own piece; then by format |
| C134 | Model/Colour.lean: the matrix and the stores between the reads | as C133; counterexample for 16 bits |
| C135 | Model/Colour.lean: matrix and loops, over an abstract arithmetic; instantiated with rational numbers | as C133, with ring identities; the result for the other order is proved as well and differs from the claim |
| C136 | Model/Colour.lean: the three loops; the integer square root | as C133; counterexamples by evaluation and by general theorems |
| C137 | Model/Colour.lean: the test of the type, the loops over pixels and palette entries; the products are a parameter | as C133; the refusal by evaluation of the test |
| C138 | Model/Colour.lean: the grey image and the loop over bytes; the product is a parameter | induction over the loop; counterexample for 16 bits |
| C139 | Model/Colour.lean: the table and the loops; for gamma 1 the table is computed with rounded arithmetic of 53 and 24 digits | the 256 entries of the table by evaluation in the kernel, the loop by induction; counterexamples for 16 and 32 bits |
| C140 | Model/Colour.lean: the loop with the state of the generator; components of k bytes | nested loops over pieces; the bound of the remainder; counterexamples for 32 bits |
| C141 | Model/Colour.lean: histogram, sums, loop over pixels; the luminance of the pixels and the product are parameters | invariant of the histogram: it counts; sums count the darker pixels; loop over pieces; the first black pixel faults |
| C142 | Model/Dds.lean: the header, the decoding of the format, reading, the image, the loop over pixels | the header by the laws of input; the loop by induction; shifts and masks as division and remainder; counterexamples by evaluation |
| C143 | Model/Dds.lean over Model/Dxt.lean | the loader is reduced to the decoder of C94; the correction by induction; the refusal of DXT4 for all files |
| C144 | Model/Dds.lean: the loops over blocks and rows, the table of square roots | each step sets its own positions; the square root by its table; counterexamples by evaluation |
| C145 | Model/Dds.lean: the copies and the loops that fill | as C144; counterexamples for ten bits |
| C146 | Model/Dds.lean | case analysis of the header for all bytes; counterexample: a header that declares fewer bytes than the blocks have |
| C147 | Model/Copy.lean: the image table of Model/Stack.lean with the contents of every object and a version of its block of pixels | an invariant of all reachable states: table well formed, nothing lost, all images proper; the copy refines the assignment of the contents |
| C148 | Model/Copy.lean | as C147; the wrong name and the dangling image are shown for all states |
| C149 | Model/Copy.lean | as C147; the closing of the four lists of sub-images by the specification of ilCloseImage |
| C150 | Model/DxtSave.lean: compression of a picture to blocks and the calls around it; Model/Dxt.lean: the decoder | the blocks are written one after the other; the writer for memory of C74; the result for buffers that are too small is shown to be wrong for all pictures |
| C151 | Model/DxtSave.lean: compression of a picture to blocks and the calls around it; Model/Dxt.lean: the decoder | composition of the compressor with the decoder proved for C94 |
| C152 | Model/DxtSave.lean: compression of a picture to blocks and the calls around it; Model/Dxt.lean: the decoder | as C151; rounding down is shown for all pixels |
| C153 | Model/DxtSave.lean: compression of a picture to blocks and the calls around it; Model/Dxt.lean: the decoder | as C151; the order of the two colours of a block decides which of them the decoder mixes |
| C154 | Model/DxtSave.lean: compression of a picture to blocks and the calls around it; Model/Dxt.lean: the decoder | the strongest and the weakest colour of a block are stored, and a stored colour is the closest to itself; blocks whose colours have the same length are shown to lose all but one |
| C155 | Model/DxtSave.lean: compression of a picture to blocks and the calls around it; Model/Dxt.lean: the decoder | shown to be false for all data: the result is that of the current image |
| C156 | Model/DxtSave.lean: compression of a picture to blocks and the calls around it; Model/Dxt.lean: the decoder | bounds of the four rows of a block; the failures are shown for all pictures of a height that is not a multiple of 4 and for all luminance pictures |
| C157 | Model/Filter.lean: block averages and 3x3 filters | the loops over a block are a sum over the list of its values; the writes are a disjoint update per block |
| C158 | Model/Filter.lean: block averages and 3x3 filters | shown to be false for every such image |
| C159 | Model/Filter.lean: block averages and 3x3 filters | a table of offsets for each part of the image; the read past the end is shown for every image of three rows or more |
| C160 | Model/Filter.lean: block averages and 3x3 filters | from C159; shown to be false for every such image |
| C161 | Model/Filter.lean: block averages and 3x3 filters | from C159, and the combination of two passes for all bytes |
| C162 | Model/Filter.lean: block averages and 3x3 filters | as C157 |
| C163 | Model/Sun.lean: the Sun raster loader | an invariant over the rows: those read so far are right, and the input stands at the next |
| C164 | Model/Sun.lean: the Sun raster loader | as C163; that the palette is wrong is shown for every map whose second red is not its first green |
| C165 | Model/Sun.lean: the Sun raster loader | induction over the pieces of a row, then over the rows; a run across rows refutes the rest |
| C166 | Model/Sun.lean: the Sun raster loader | shown to be false for every such file of more than one pixel |
| C167 | Model/Sun.lean: the Sun raster loader | invariants over rows and bits; a measure for the loop over runs that also covers the end of the input |
| C168 | Model/Sun.lean: the Sun raster loader | proved within the colour map; shown to be false for every file of 24 bits |
| C169 | Model/Sun.lean: the Sun raster loader | the position in bits as an invariant; refusal from memory is shown for every file |
| C170 | Model/Key.lean: the key colour in ilConvertImage | pixel by pixel for black; that the key is ignored is shown for every key and image |
| C171 | Model/Key.lean: the key colour in ilConvertImage | case analysis over the ways the call ends; refuted with the key colour enabled |
| C172 | Model/Key.lean: ilModAlpha | the conversion theorem of C21, then an invariant over the pixels; refuted for every image that has alpha |
| C173 | Model/Key.lean: the guard of ilApplyPal | case analysis; the guard is shown to refuse every image |
| C174 | Model/Key.lean: ilSetPal | the copy is the palette; refuted without an image and for the image's own palette |
| C175 | Model/Key.lean: iluSwapColours | the conversion theorem of C21; refuted for every image if no toolkit function was called before |
| C176 | Model/RawData.lean: the loader of raw data | one read of known size; the products wrap around alike in the size of the block and of the read |
| C177 | Model/Games.lean: the wrapper ilLoad...F that all loaders share; Model/Cache.lean: positions | for every loader that only reads; refuted for every position but 0 |
| C178 | Model/Dpx.lean: the DPX loader | field by field through the header, then one read |
| C179 | Model/Dpx.lean: the loops over words | invariant over the pixels, the bits of a word by arithmetic; refuted for white without alpha and for sixteen and thirty-two bits |
| C180 | Model/Dpx.lean: the DPX loader | from C178; refuted for every picture stored from the bottom to the top |
| C181 | Model/Dpx.lean: the DPX loader; Model/Lump.lean: seeking in memory | for whole headers with data inside the file and not ten bits; refuted by two small files |
| C182 | Model/Dpx.lean: the DPX loader | from C178 for eight bits; refuted for every file of ten bits that ends with its header |
| C183 | Model/Psd.lean: the PSD loader | section by section, induction over the resources, invariant over channels and pixels |
| C184 | Model/Psd.lean: the decoder | induction over the codes of a channel, invariant over the channels |
| C185 | Model/Psd.lean: the PSD loader, with float arithmetic made exact | colours proved; alpha refuted for every file if memory is zero, and for 16 bits |
| C186 | Model/Psd.lean: the PSD loader | for uncompressed opaque documents; refuted by four small files |
| C187 | Model/Psd.lean: the PSD loader | from C183 and C185 for uncompressed files; refuted for run-lengths in memory |
| C188 | Model/Psd.lean: ReadCMYK | exact formula for 8 bits and four channels; refuted for white and for the fifth channel |
| C189 | Model/Psd.lean: the PSD saver and loader | the written bytes are a well-formed document whose pixels are those of the image; then C183 |
| C190 | Model/Psd.lean: the PSD saver and loader | colours with alpha proved; refuted for alpha, for small palettes, for several slices and for grey with alpha |
| C191 | Model/Pic.lean: the PIC loader | invariant over rows, packets and sequences: what the bytes read so far stand for is in the image |
| C192 | Model/Pic.lean: the PIC loader | pixels proved for one row; refuted for all files of four rows or more and for the format of all others |
| C193 | Model/Pic.lean: the PIC loader | proved for runs of one pixel; refuted for every row of 2 to 255 equal pixels |
| C194 | Model/Pic.lean: the PIC loader | for any header and body behind a list of packets with alpha; refuted for lists cut off in memory |
| C195 | Model/Fits.lean: the FITS loader | the card loop run over the cards of the document; invariant over the samples |
| C196 | Model/Fits.lean: the FITS loader | proved for 8 bits; refuted for every file of 16 or 32 bits |
| C197 | Model/Fits.lean: the FITS loader | no hang and no read outside a block for any bytes, no fault for well-formed headers; refuted for headers without NAXIS and for 2^30 samples of 32 bits |
| C198 | Model/DdsSave.lean: the DDS saver; Model/Dds.lean: the loader | the header written is a header in the sense of the specification; the blocks are those of the compressor, and decoding depends only on them |
| C199 | Model/DdsSave.lean and Model/Dds.lean | C198 and the theorems about compression, C151 to C153 |
| C200 | Model/DdsSave.lean: the DDS saver | proved for DXT1, DXT3 and DXT5; refuted for DXT2 and DXT4 and every image |
| C201 | Model/DdsSave.lean: the DDS saver | proved if the first image is active; refuted for every larger active image |
| C202 | Model/Dds.lean: the DDS loader | invariant over the levels; the last sentence is refuted for every file that misses only mipmaps |
| C203 | Model/DdsSave.lean and Model/Dds.lean | induction over the levels for the saver; C202 for the loader |
| C204 | Model/Iwi.lean: the IWI loader | reading a level succeeds exactly if its bytes are there; induction over the levels |
| C205 | Model/Iwi.lean: the IWI loader | induction over the levels if both sides have as many binary digits; refuted for all other sides: the loop ends when the shorter side is 1 |
| C206 | Model/Iwi.lean: the IWI loader; Model/Dxt.lean: the decompressors | as C205; the sizes the loader computes are those of the blocks if both sides are at least 4 or both at most 4; refuted for a flat picture |
| C207 | Model/Iwi.lean: the IWI loader | proved with 16 times the component; the last part is refuted for every file |
| C208 | Model/Iwi.lean: the IWI loader | invariant over the levels for all formats without compression; refuted for a compressed picture |
| C209 | Model/StackReg.lean: the three functions over the heap of Model/Stack | induction over the number of new images, on the heap invariant of C01; refuted for mipmaps: the new ones are chained as images |
| C210 | Model/Scitex.lean: the Scitex loader | induction over the lines; what atoi and atof say is a parameter with a hypothesis on numerals |
| C211 | Model/Scitex.lean: the Scitex loader | induction over the lines for colour pictures at least two pixels wide; refuted for every grey picture, and from memory for pictures one pixel wide |
| C212 | Model/Scitex.lean: the Scitex loader | invariant over the lines if the sizes give fewer than 2^32 bytes; refuted where the product of the sides wraps around |
| C213 | Model/Rot.lean: the ROT loader | induction over the levels; the decompression is the one of C94 |
| C214 | Model/Rot.lean: the ROT loader | induction over the levels |
| C215 | Model/Rot.lean: the ROT loader | invariant over the levels for DXT3 and DXT5 and pictures of fewer than 2^27 pixels; refuted for every file without compression or with DXT1 data |
| C216 | Model/Dcx.lean: the DCX loader up to the first use of the header | induction over the table of pages: files without signature and cut tables are refused; refuted for every file with a complete table and for every longer table |
| C217 | Model/Wu.lean: histogram, cumulative moments, cutting, marking, the tables; floats are any function to a linear order | invariants: the arrays are the sums over pixels, the boxes a partition of the cells; a measure for the loop that cuts; inclusion and exclusion for the sums over a box |
| C218 | Model/Wu.lean: additions of ILint are checked | as C217 up to 8421504 pixels; refuted for every larger white picture, where the sums overflow |
| C219 | Model/Wu.lean: palette, tag and tables begin as what was in the memory | entries that pixels have are determined by the pixels; refuted for the entries beyond the number of colours, for every picture |
| C220 | Model/Rotate.lean: the loops over the picture with their 32-bit offsets | nested loop invariants: the places are distinct; square pictures are proved; refuted for every picture that is not square, where a pixel goes outside |
| C221 | Model/Rotate.lean | nested loop invariants: the rows are exchanged but not mirrored; refuted for every picture with a row that does not read the same from both ends |
| C222 | Model/Rotate.lean: SrcX and SrcY are any functions | nested loop invariants |
| C223 | Model/CHeader.lean: the characters written by the loops; Spec/CHeader.lean: a reader of C initialisers | induction over the lines: the reader's state after a line |
| C224 | Model/CHeader.lean | pictures of bytes are proved; refuted for every picture of wider components, whose data are converted to bytes |
| C225 | Model/Neu.lean: the learning with its 32-bit integers, the index and the search | invariants of the network (colours, frequencies and biases stay in range) through the three nested loops; proved from 503 pixels on that have 100 pixels for each unit of the sampling factor; refuted for every picture with fewer than 100 pixels for each unit of the sampling factor, and for every picture of 100 to 243 pixels that is sampled in full |
| C226 | Model/Neu.lean; Spec/Neu.lean: the distance, and what a nearest colour is | the index is a sorting by one component (selection sort invariant); the search from any starting place leaves out only colours that are farther, by the sorting; pictures large enough for C225 |
| C227 | Model/Tpl.lean: the headers, the loops over tiles, rows and pixels | an invariant over tiles, rows and pixels that says which pixels have been read; Spec/Tpl.lean gives the place of a pixel in closed form |
| C228 | Model/Tpl.lean: all formats without a palette and without compression | proved for grey and RGB565 textures, however short the data; refuted for every texture of four bits, and every grey texture with alpha and an odd width: the last row of the last tile stores beyond the block |
| C229 | Model/Icns.lean: the head, the entries, the packed and the plain colours, the masks (built without JPEG 2000) | an invariant over the three components says what a run of packets has stored; Spec/Icns.lean says what packed bytes mean |
| C230 | Model/Icns.lean: the loop over entries with fuel, running out of which is the fault hang | proved for writes: no file makes the loader write outside, and images are whole when it ends; refuted for reads, for every icon whose packed bytes run out, and for ending, for every file whose first entry is unknown and claims a size of zero |
| C231 | Model/Texture.lean on top of Model/Dds.lean | a simulation between the two runs of the whole DDS loader: both read the same bytes, so both end with the same result or the same fault; refuted for memory, for every texture, and for the position of the file |
| C232 | Model/Ico.lean: the directory, the headers, palettes, pixels and masks, and the three loops over pixels (built without libpng) | an invariant over columns and rows for each loop says which bytes and which bit of the mask come next; induction over the directory |
| C233 | Model/Ico.lean: as for C232, the loops over pixels with fuel, running out of which is the fault hang | proved for files that end before their icons do; refuted with files for a palette that is too short (read outside), no columns (no end), 16 bits per pixel (success without an image), and for every file with an empty directory (the same) |
| C234 | Model/Pcd.lean: the seeks, the pairs of rows, the orientation; the conversion of colours, computed with doubles, is a parameter | an invariant over the pixels of a row and induction over pairs of rows show what is loaded: the picture one byte late, because the seek back after the orientation is one byte short; so every file in which that matters refutes the property |
| C235 | Model/Pcd.lean, as for C234 | positions are followed through seeks that may fail; a file that is too short for the seek cannot hold the rows of the picture either |
| C236 | Model/Mp3.lean: the tag, the loop over frames, the type and the description; the loaders of JPEG and PNG are parameters | induction over the frames before the picture and over the strings; tags of version 2.4 are all refused, because the check compares the minor version with 4, which refutes that half |
| C237 | Model/Mp3.lean, as for C236; the loop over frames has a budget of turns | induction over the budget shows that nothing is written outside a block; a type of 65 bytes without an end makes the loader read beyond its array, and a frame of 4294967286 bytes leads back to itself |
| C238 | Model/Blp.lean: the header, its check, the palette and the loops over levels and pixels; compressed textures and BLP1 are a parameter | induction over the levels, with the size of the level before as invariant |
| C239 | Model/Blp.lean, as for C238, with the loops over the colours and the alpha | induction over the levels and the pixels; textures of eight or more pixels whose number is no multiple of eight are all refused, which refutes the rest |
| C240 | Model/Blp.lean, as for C238; the loaders of compressed textures and of BLP1 are parameters | induction over the levels for complete headers, places below 2^31 and sizes that fit in 32 bits; a level at 2^31 or beyond makes the loader read outside the memory given, which refutes the claim for memory |
| C241 | Model/Ktx.lean: the header, the keys, the levels and the rows; compressed textures and those of halves are a parameter | induction over the levels and the rows, for textures without keys or with that of the orientation; a texture with the number 0 of levels, which has one, and a mipmap of less than half a row are loaded as whatever was in memory, which refutes these cases |
| C242 | Model/Ktx.lean, as for C241; the loop over the keys has a budget of turns | induction over the levels and the rows for textures without keys; a key of no bytes makes the loader go on for ever, and less than four bytes of keys make it read beyond them, which refutes the rest |
| C243 | Model/Iff.lean: unpacking a channel and a tile, tiles that are not packed, copying to the image; the chunks around them are left out | induction over the packets, the rows and the tiles, for packed tiles with alpha; a tile that is not packed comes out with bytes of other pixels, and packed tiles without alpha are not loaded, which refutes those cases |
| C244 | Model/Iff.lean, as for C243 | induction over the turns of the unpacking and the tiles: only reads beyond the content are possible for tiles in the image; a packet that is cut off, a single pixel that is not packed, and a tile that is not in the image refute the rest |
| C245 | Model/Utx.lean: the loop over up to five bytes; the tables and textures of a package are left out | induction over the bytes of the number: what is read so far is the lowest bits of the magnitude |
| C246 | Model/Utx.lean, as for C245 | induction over the turns: a calculation can leave the numbers of an int only if the fifth byte has just one of its five bits set, the highest, and the number is negative; one such number refutes the rest |

## What is modelled and what is not

<!-- generated: coverage -->

Of 1326 functions the scan finds, 622 are modelled at least in part.  "In part" means what the comment of the
definition says: mostly the component types or branches that are left out, and floating-point arithmetic.

| file | modelled, at least in part | not modelled |
|------|------|------|
| il_alloc.cpp | ialloc, ifree, icalloc, DefaultAllocFunc, DefaultFreeFunc | vec_malloc, ivec_align_buffer, ilResetMemory, ilSetMemory |
| il_bits.cpp | bfile, bseek, bread, breadVal | bclose, btell |
| il_blp.cpp | iGetBlp2Head, iIsValidBlp2, iCheckBlp2, iLoadBlpInternal | ilIsValidBlp, ilIsValidBlpF, ilIsValidBlpL, ilLoadBlp, ilLoadBlpF, ilLoadBlpL, iGetBlp1Head, iCheckBlp1, iLoadBlp1 |
| il_bmp.cpp | iGetBmpHead, iGetOS2Head, iIsValidBmp, iCheckBmp, iCheckOS2, iLoadBitmapInternal, ilReadUncompBmp, ilReadRLE8Bmp, ilReadRLE4Bmp, iGetOS2Bmp, ilSaveBmp, ilSaveBmpF, ilSaveBmpL, iSaveBitmapInternal | ilIsValidBmp, ilIsValidBmpF, ilIsValidBmpL, ilLoadBmp, ilLoadBmpF, ilLoadBmpL |
| il_convbuff.cpp | ilConvertBuffer, iSwitchTypes | — |
| il_convert.cpp | iConvertPalette, iConvertImage, ilConvertImage, ilSwapColours, ilAddAlpha, ilKeyColour, ilAddAlphaKey, ilRemoveAlpha, ilFixCur, ilFixImage | — |
| il_cut.cpp | iLoadCutInternal | ilLoadCut, ilLoadCutF, ilLoadCutL |
| il_dcx.cpp | iGetDcxHead, iIsValidDcx, ilLoadDcxL, iLoadDcxInternal, iUncompressDcx | ilIsValidDcx, ilIsValidDcxF, ilIsValidDcxL, iCheckDcx, ilLoadDcx, ilLoadDcxF, iUncompressDcxSmall |
| il_dds-save.cpp | ilSaveDds, iSaveDdsInternal, WriteHeader, ilGetDXTCData, Mul8Bit, As16Bit, CompressTo565, CompressTo88, CompressToRXGB, Compress, GetBlock, Get3DcBlock, ShortToColor888, GenBitMask, GenAlphaBitMask, Distance, ChooseEndpoints, ChooseAlphaEndpoints, CorrectEndDXT1, ilCompressDXT | ilSaveDdsF, ilSaveDdsL, GetCubemapInfo, GetAlphaBlock, ShortToColor565, Color565ToShort, Color888ToShort, RMSAlpha, PreMult |
| il_dds.cpp | ilIsValidDdsF, ilIsValidDdsL, iGetDdsHead, iIsValidDds, iCheckDds, iCheckDxt10, Check16BitComponents, iCompFormatToBpp, iCompFormatToBpc, iCompFormatToChannelCount, iLoadDdsInternal, DecodePixelFormat, AdjustVolumeTexture, ReadData, AllocImage, DdsDecompress, ReadMipmaps, DxtcReadColors, DxtcReadColor, DecompressDXT3, DecompressDXT5, Decompress3Dc, DecompressAti1n, DecompressRXGB, iConvFloat16ToFloat32, DecompressFloat, CorrectPreMult, DecompressARGB, CountBitsFromMask, DecompressARGB16, GetBitsFromMask, ilDxtcDataToSurface, ilSurfaceToDxtcData, ilTexImageDxtc, iFlipColorBlock, iFlipSimpleAlphaBlock, iComplexAlphaHelper, iFlipComplexAlphaBlock, iFlipDxt1, iFlipDxt3, iFlipDxt5, ilFlipSurfaceDxtcData, iInvertDxt3Alpha, iInvertDxt5Alpha, ilInvertSurfaceDxtcDataAlpha, DecompressDXT1 | ilIsValidDds, iGetDXT10Head, ilLoadDds, ilLoadDdsF, ilLoadDdsL, iLoadDdsCubemapInternal, BitsPerPixel, DecompressDXT2, DecompressDXT4, iConvG16R16ToFloat32, iConvR16ToFloat32, DecompressARGBDX10, ilGetDxtcData, ilFreeSurfaceDxtcData, ilFreeImageDxtcData, ilDxtcDataToImage, ilImageToDxtcData, iFlip3dc |
| il_devil.cpp | ilInitImage, ilNewImage, ilTexImage, ilTexImage_, ilTexImageSurface, ilTexImageSurface_, ilClearColour, ilGetClear, ilClearImage, ilClearImage_, ilOverlayImage, ilBlit, ilCopyImageAttr, ilCopyImage, ilCloneCurImage, ilResizeImage | ilNewImageFull, ilSetData, ilTexSubImage_, ilGetData, ilGetPalette, iCopySubImage, iCopySubImages, ilCopyImage_ |
| il_doom.cpp | iLoadDoomInternal, ilLoadDoomFlat, iLoadDoomFlatInternal | ilLoadDoom, ilLoadDoomF, ilLoadDoomL, ilLoadDoomFlatF, ilLoadDoomFlatL |
| il_dpx.cpp | DpxGetFileInfo, GetImageElement, DpxGetImageInfo, DpxGetImageOrient, iLoadDpxInternal | ilLoadDpx, ilLoadDpxF, ilLoadDpxL |
| il_endian.cpp | iSwapUShort, iSwapShort, iSwapUInt, iSwapInt, iSwapFloat, iSwapDouble, GetLittleUShort, GetLittleShort, GetLittleUInt, GetLittleInt, GetLittleFloat, GetLittleDouble, GetBigUShort, GetBigShort, GetBigUInt, GetBigInt, GetBigFloat, GetBigDouble, SaveLittleUShort, SaveLittleShort, SaveLittleUInt, SaveLittleInt, SaveLittleFloat, SaveLittleDouble, SaveBigUShort, SaveBigShort, SaveBigUInt, SaveBigInt, SaveBigFloat, SaveBigDouble | EndianSwapData |
| il_error.cpp | ilSetError, ilGetError | — |
| il_exr.cpp | iGetExrHead, iIsValidExr, iCheckExr, ilSaveExr, ilSaveExrL | ilIsValidExr, ilIsValidExrF, ilIsValidExrL, ilIStream, read, tellg, seekg, clear, ilLoadExr, ilLoadExrF, ilLoadExrL, iLoadExrInternal, ilOStream, write, tellp, seekp, ilSaveExrF, iSaveExrInternal |
| il_fastconv.cpp | iFastConvert | — |
| il_files.cpp | iDefaultGetc, iDefaultRead, iDefaultWTell, iDefaultOpenW, iDefaultCloseW, iDefaultPutc, iDefaultWrite, ilSetWrite, iSetInputFile, iSetInputLump, iSetOutputLump, ilGetLumpPos, ilprintf, ipad, iEofFile, iEofLump, iGetcFile, iGetcLump, iReadFile, iReadLump, iPreCache, iUnCache, iSeekRFile, iSeekRLump, iTellRFile, iTellRLump, iGetFile, iPutcLump, iWriteFile, iWriteLump, iSeekWLump, iTellWFile, iTellWLump | iPreserveReadFuncs, iRestoreReadFuncs, iPreserveWriteFuncs, iRestoreWriteFuncs, iDefaultOpenR, iDefaultCloseR, iDefaultEof, iDefaultRSeek, iDefaultWSeek, iDefaultRTell, ilResetRead, ilResetWrite, ilSetRead, iSetOutputFile, iSetOutputFake, iGetLump, iPutcFile, iSeekWFile |
| il_fits.cpp | iGetFitsHead, iCheckFits, iLoadFitsInternal, GetCardImage, GetCardInt | ilIsValidFits, ilIsValidFitsF, ilIsValidFitsL, iIsValidFits, ilLoadFits, ilLoadFitsF, ilLoadFitsL |
| il_ftx.cpp | ilLoadFtxF, ilLoadFtxL, iLoadFtxInternal | ilLoadFtx |
| il_gif.cpp | iIsValidGif, iLoadGifInternal, iGetPalette, GetImages, SkipExtensions, get_next_code, GifGetData, RemoveInterlace, ConvertTransparent | ilIsValidGif, ilIsValidGifF, ilIsValidGifL, ilLoadGif, ilLoadGifF, ilLoadGifL, cleanUpGifLoadState |
| il_hdr.cpp | iGetHdrHead, iIsValidHdr, iCheckHdr, iLoadHdrInternal, ReadScanline, ilSaveHdr, RGBE_WriteHeader, RGBE_WritePixels, RGBE_WriteBytes_RLE, iSaveHdrInternal | ilIsValidHdr, ilIsValidHdrF, ilIsValidHdrL, ilLoadHdr, ilLoadHdrF, ilLoadHdrL, ilSaveHdrF, ilSaveHdrL |
| il_header.cpp | ilSaveCHeader | — |
| il_icns.cpp | iIsValidIcns, iLoadIcnsInternal, iIcnsReadData | ilIsValidIcns, ilIsValidIcnsF, ilIsValidIcnsL, ilLoadIcns, ilLoadIcnsF, ilLoadIcnsL |
| il_icon.cpp | iLoadIconInternal | ilLoadIcon, ilLoadIconF, ilLoadIconL, iLoadIconPNG, ico_png_read, ico_png_error_func, ico_png_warn_func, ico_readpng_init, ico_readpng_get_image, ico_readpng_cleanup |
| il_iff.cpp | iLoadIffInternal, iffReadUncompressedTile, iff_decompress_tile_rle, iff_decompress_rle | ilLoadIff, ilLoadIffF, ilLoadIffL, iff_begin_read_chunk, iff_end_read_chunk, iff_read_data |
| il_ilbm.cpp | iIsValidIlbm, isLBM | ilIsValidIlbm, ilIsValidIlbmF, ilIsValidIlbmL, ilLoadIlbm, ilLoadIlbmF, ilLoadIlbmL, iLoadIlbmInternal, iSDL_SwapBE16, iSDL_SwapBE32, load_ilbm |
| il_internal.cpp | iCheckExtension, iGetExtension, iFileExists, iFgets, iSqrt | ilStrDup, ilStrLen, ilCharStrLen |
| il_io.cpp | ilTypeFromExt, ilDetermineTypeF, ilDetermineTypeL, ilSave, ilSaveImage | WideFromMultiByte, ilDetermineType, ilIsValid, ilIsValidF, ilIsValidL, ilLoad, ilLoadF, ilLoadL, ilLoadImage, ilSaveF, ilSaveL |
| il_iwi.cpp | iGetIwiHead, iIsValidIwi, iCheckIwi, iLoadIwiInternal, IwiGetFormat, IwiInitMipmaps, IwiReadImage | ilIsValidIwi, ilIsValidIwiF, ilIsValidIwiL, ilLoadIwi, ilLoadIwiF, ilLoadIwiL |
| il_jp2.cpp | iIsValidJp2, ilSaveJp2 | ilIsValidJp2, ilIsValidJp2F, ilIsValidJp2L, ilLoadJp2, ilLoadJp2F, ilLoadJp2L, ilLoadJp2LInternal, iLoadJp2Internal, iJp2_file_read, iJp2_file_write, iJp2_file_seek, iJp2_file_close, iJp2ReadStream, jas_stream_initbuf, jas_stream_create, jas_stream_destroy, iJp2WriteStream, ilSaveJp2F, ilSaveJp2L, Jp2ConvertData, iSaveJp2Internal |
| il_jpeg.cpp | iGetJpgHead, iCheckJpg, iIsValidJpeg, ilSaveJpeg | ilIsValidJpeg, ilIsValidJpegF, ilIsValidJpegL, ExitErrorHandle, OutputMsg, ilLoadJpeg, ilLoadJpegF, ilLoadJpegL, iJpegErrorExit, iLoadJpegInternal, ilSaveJpegF, ilSaveJpegL, iSaveJpegInternal, ilLoadFromJpegStruct, ilSaveFromJpegStruct |
| il_ktx.cpp | iIsValidKtx, iLoadKtxInternal, iKtxKeyValueData, iKtxReadMipmaps | ilIsValidKtx, ilIsValidKtxF, ilIsValidKtxL, ilLoadKtx, ilLoadKtxF, ilLoadKtxL |
| il_lif.cpp | iGetLifHead, iIsValidLif, iCheckLif, iLoadLifInternal | ilIsValidLif, ilIsValidLifF, ilIsValidLifL, ilLoadLif, ilLoadLifF, ilLoadLifL |
| il_manip.cpp | ilFloatToHalf, ilHalfToFloat, iFlipBuffer, iFlipNewBuffer, ilFlipImage, iGetFlipped, iMirror, ilCopyPixels1D, ilCopyPixels2D, ilCopyPixels3D, ilCopyPixels, ilSetPixels1D, ilSetPixels2D, ilSetPixels3D, ilSetPixels, ilGetAlpha, ilSetAlpha, ilModAlpha, ilClampNTSC | ilFloatToHalfOverflow, ilDefaultImage |
| il_mdl.cpp | iIsValidMdl, iLoadMdlInternal | ilIsValidMdl, ilIsValidMdlF, ilIsValidMdlL, ilLoadMdl, ilLoadMdlF, ilLoadMdlL |
| il_mng.cpp | ilSaveMng, ilSaveMngF | mymngalloc, mymngfree, mymngopenstream, mymngopenstreamwrite, mymngclosestream, mymngreadstream, mymngwritedata, mymngprocessheader, mymnggetcanvasline, mymnggetticks, mymngrefresh, mymngsettimer, mymngerror, ilLoadMng, ilLoadMngF, ilLoadMngL, iLoadMngInternal, ilSaveMngL, iSaveMngInternal |
| il_mp3.cpp | GetSynchInt, iGetMp3Head, iIsValidMp3, iCheckMp3, iFindMp3Pic, iLoadMp3Internal | ilIsValidMp3, ilIsValidMp3F, ilIsValidMp3L, ilLoadMp3, ilLoadMp3F, ilLoadMp3L |
| il_neuquant.cpp | initnet, unbiasnet, inxbuild, inxsearch, contest, altersingle, alterneigh, learn, iNeuQuant | — |
| il_pal.cpp | ilLoadJascPal, iFgetw, ilSavePal, ilSaveJascPal, ilLoadActPal, iCopyPalette, iConvertPal, ilConvertPal, ilSetPal, ilApplyPal | ilLoadPal, ilLoadHaloPal, ilLoadColPal, ilLoadPltPal, iCopyPal, sort_func |
| il_pcd.cpp | iLoadPcdInternal | ilLoadPcd, ilLoadPcdF, ilLoadPcdL, YCbCr2RGB |
| il_pcx.cpp | iGetPcxHead, iIsValidPcx, iCheckPcx, iLoadPcxInternal, iUncompressPcx, iUncompressSmall, ilSavePcx, ilSavePcxF, ilSavePcxL, iSavePcxInternal, encput, encLine | ilIsValidPcx, ilIsValidPcxF, ilIsValidPcxL, ilLoadPcx, ilLoadPcxF, ilLoadPcxL |
| il_pic.cpp | iGetPicHead, iIsValidPic, iCheckPic, iLoadPicInternal, readScanlines, readScanline, channelReadRaw, channelReadPure, channelReadMixed | ilIsValidPic, ilIsValidPicF, ilIsValidPicL, ilLoadPic, ilLoadPicF, ilLoadPicL |
| il_pix.cpp | iGetPixHead, iCheckPix, iLoadPixInternal | iIsValidPix, ilLoadPix, ilLoadPixF, ilLoadPixL |
| il_png.cpp | iIsValidPng, ilSavePng | ilIsValidPng, ilIsValidPngF, ilIsValidPngL, ilLoadPng, ilLoadPngF, ilLoadPngL, iLoadPngInternal, png_read, png_error_func, png_warn_func, readpng_init, readpng_get_image, readpng_cleanup, ilSavePngF, ilSavePngL, png_write, flush_data, iSavePngInternal |
| il_pnm.cpp | iIsValidPnm, iCheckPnm, iLoadPnmInternal, ilReadAsciiPpm, ilReadBinaryPpm, ilReadBitPbm, ilReadPam, DecodeTupleType, iGetWord, ilSavePnm, iSavePnmInternal, PbmMaximize | ilIsValidPnm, ilIsValidPnmF, ilIsValidPnmL, ilLoadPnm, ilLoadPnmF, ilLoadPnmL, ilSavePnmF, ilSavePnmL |
| il_psd.cpp | ubyte_to_float, ushort_to_float, float_to_ubyte, float_to_ushort, iGetPsdHead, iIsValidPsd, iCheckPsd, iLoadPsdInternal, ReadGrey, ReadIndexed, ReadRGB, ReadCMYK, GetCompChanLen, ReadCompressedChannel, PsdGetData, ParseResources, GetSingleChannel, ilSavePsd, iSavePsdInternal | ilIsValidPsd, ilIsValidPsdF, ilIsValidPsdL, ilLoadPsd, ilLoadPsdF, ilLoadPsdL, ReadPsd, ilSavePsdF, ilSavePsdL |
| il_psp.cpp | iGetPspHead, iIsValidPsp, iCheckPsp | ilIsValidPsp, ilIsValidPspF, ilIsValidPspL, ilLoadPsp, ilLoadPspF, ilLoadPspL, iLoadPspInternal, ReadGenAttributes, ParseChunks, ReadLayerBlock, ReadAlphaBlock, GetChannel, UncompRLE, ReadPalette, AssembleImage, Cleanup |
| il_pxr.cpp | iLoadPxrInternal | ilLoadPxr, ilLoadPxrF, ilLoadPxrL |
| il_quantizer.cpp | Hist3d, M3d, Vol, Bottom, Top, Var, Maximize, Cut, Mark, iQuantizeImage | n2 |
| il_raw.cpp | iLoadRawInternal, ilSaveRaw, iSaveRawInternal | ilLoadRaw, ilLoadRawF, ilLoadRawL, ilSaveRawF, ilSaveRawL |
| il_rawdata.cpp | ilLoadData, ilLoadDataF, ilLoadDataL, iLoadDataInternal, ilSaveData | — |
| il_register.cpp | ilRegisterLoad, ilRegisterSave, ilRemoveLoad, iRegisterLoad, iRegisterSave, ilRegisterNumFaces, ilRegisterMipNum, ilRegisterNumImages | ilRemoveSave, ilRemoveRegistered, ilRegisterOrigin, ilRegisterFormat, ilRegisterType, ilRegisterPal, ilSetDuration |
| il_rle.cpp | ilRleCompressLine, ilRleCompress | — |
| il_rot.cpp | iLoadRotInternal | ilLoadRot, ilLoadRotF, ilLoadRotL |
| il_scitex.cpp | iGetScitexHead, iIsValidScitex, iCheckScitex, iLoadScitexInternal | ilIsValidScitex, ilIsValidScitexF, ilIsValidScitexL, ilLoadScitex, ilLoadScitexF, ilLoadScitexL |
| il_sgi.cpp | iGetSgiHead, iIsValidSgi, iCheckSgi, iLoadSgiInternal, iReadRleSgi, iGetScanLine, iReadNonRleSgi, sgiSwitchData, iNewSgi, ilSaveSgi, ilSaveSgiF, ilSaveSgiL, iSaveSgiInternal, iSaveRleSgi | ilIsValidSgi, ilIsValidSgiF, ilIsValidSgiL, ilLoadSgi, ilLoadSgiF, ilLoadSgiL, DetermineSgiType |
| il_size.cpp | iSizeSeek, iSizeTell, iSizePutc, iSizeWrite, ilDetermineSize | — |
| il_stack.cpp | ilGenImages, ilGenImage, ilBindImage, ilDeleteImages, ilDeleteImage, ilIsImage, ilCloseImage, ilIsValidPal, ilClosePal, iGetBaseImage, ilActiveMipmap, ilActiveImage, ilActiveFace, ilActiveLayer, ilCreateSubImage, ilGetCurName, ilGetCurImage, ilSetCurImage, ilReplaceCurImage, ilRecalloc, ilShutDownInternal, iEnlargeStack, ilRemoveRegisteredInternal, ilInit, ilShutDown, iSetImage0, iBindImageTemp | — |
| il_states.cpp | ilDefaultStates, ilEnable, ilDisable, ilAble, ilIsEnabled, ilIsDisabled, ilGetBooleanv, ilGetBoolean, iGetActiveNum, ilGetIntegerv, iGetIntegervImage, ilGetInteger, ilOriginFunc, ilFormatFunc, ilTypeFunc, ilCompressFunc, ilPushAttrib, ilPopAttrib, ilHint, iGetHint, ilSetString, ilSetInteger | ilGetString, iClipString, iGetString, iGetInt |
| il_sun.cpp | iGetSunHead, iCheckSun, iIsValidSun, iLoadSunInternal, iSunGetRle | ilIsValidSun, ilIsValidSunF, ilIsValidSunL, ilLoadSun, ilLoadSunF, ilLoadSunL |
| il_targa.cpp | iGetTgaHead, iIsValidTarga, iCheckTarga, iLoadTargaInternal, iReadColMapTga, iReadUnmapTga, iReadBwTga, iUncompressTgaData, i16BitTarga, ilSaveTarga, ilSaveTargaF, ilSaveTargaL, iSaveTargaInternal, iTargaSize | ilIsValidTga, ilIsValidTgaF, ilIsValidTgaL, ilLoadTarga, ilLoadTargaF, ilLoadTargaL, iGetDateTime |
| il_texture.cpp | ilLoadTextureF, ilLoadTextureL | ilLoadTexture |
| il_tiff.cpp | ilisValidTiffFunc, ilSaveTiff, ilSaveTiffL | ilisValidTiffExtension, ilIsValidTiff, ilIsValidTiffF, ilIsValidTiffL, ilLoadTiff, ilLoadTiffF, ilLoadTiffL, warningHandler, errorHandler, iLoadTiffInternal, iTIFFOpen, ilSaveTiffF, iSaveTiffInternal, iMakeString |
| il_tpl.cpp | iGetTplHead, iIsValidTpl, iCheckTpl, ilLoadTpl, ilLoadTplF, ilLoadTplL, iLoadTplInternal, TplGetIndexImage | ilIsValidTpl, ilIsValidTplF, ilIsValidTplL |
| il_utility.cpp | ilGetBppFormat, ilGetFormatBpp, ilGetBpcType, ilGetTypeBpc, ilGetBppPal, ilGetPalBaseType, ilNextPower2, iMemSwap | — |
| il_utx.cpp | UtxReadCompactInteger | ilLoadUtx, ilLoadUtxF, ilLoadUtxL, GetUtxHead, CheckUtxHead, GetUtxName, GetUtxNameTable, ChangeObjectReference, GetUtxExportTable, GetUtxImportTable, UtxFormatToDevIL, UtxFormatToBpp, iLoadUtxInternal |
| il_vtf.cpp | iGetVtfHead, iIsValidVtf, iCheckVtf, CheckDimensions, ilSaveVtf | ilIsValidVtf, ilIsValidVtfF, ilIsValidVtfL, ilLoadVtf, ilLoadVtfF, ilLoadVtfL, iLoadVtfInternal, GetFaceFlag, VtfInitFacesMipmaps, VtfInitMipmaps, ilSaveVtfF, ilSaveVtfL, iSaveVtfInternal |
| il_wal.cpp | iLoadWalInternal | ilLoadWal, ilLoadWalF, ilLoadWalL |
| il_wbmp.cpp | iLoadWbmpInternal, WbmpGetMultibyte, WbmpPutMultibyte, ilSaveWbmp, iSaveWbmpInternal | ilLoadWbmp, ilLoadWbmpF, ilLoadWbmpL, ilSaveWbmpF, ilSaveWbmpL |
| il_xpm.cpp | iIsValidXpm, XpmGetsInternal | ilIsValidXpm, ilIsValidXpmF, ilIsValidXpmL, ilLoadXpm, ilLoadXpmF, ilLoadXpmL, XpmHash, XpmCreateHashTable, XpmDestroyHashTable, XpmInsertEntry, XpmGetEntry, XpmGets, XpmGetInt, XpmPredefCol, XpmGetColour, iLoadXpmInternal |
| src-IL/src: other files (number of functions) | — | altivec_common.cpp (2), altivec_typeconversion.cpp (10), il_dicom.cpp (17), il_exr.c (12), il_main.cpp (1), il_nvidia.cpp (2), il_profiles.cpp (1), il_squish.cpp (1), il_utx.c (18), il_wdp.cpp (17) |
| il_bmp.h | GetShiftFromMask | — |
| il_rle.h | GetPix, CountDiffPixels, CountSamePixels | — |
| ilu_error.cpp | iluErrorString, iluSetLanguage | — |
| ilu_filter.cpp | iluPixelize, Filter, iluEdgeDetectP, iluEdgeDetectS, iluBlurAvg, iluBlurGaussian, iluEmboss, iluEdgeDetectE, iluScaleAlpha, iluScaleColours, iluGammaCorrect, iApplyMatrix, iIdentity, iluSaturate4f, iluAlienify, iIntExtImg, iluContrast, iluConvolution, iluSepia | iluSaturate1f, iluSharpen |
| ilu_main.cpp | iluInit, iluLoadImage | DllMain |
| ilu_manip.cpp | iluCrop2D, iluCrop3D, iluCrop, iluEnlargeCanvas, iluInvertAlpha, iluNegative, iluSwapColours, iluColoursUsed, iluCompareImage, iluReplaceColour, iluEqualize | iluFlipImage, iluMirror, iluWave, iluEqualize2 |
| ilu_mipmap.cpp | iBuildMipmaps, iluBuildMipmaps | — |
| ilu_noise.cpp | iluNoisify | — |
| ilu_region.cpp | iluRegionfv, iluRegioniv, InsertEdge, yNext, MakeEdgeRec, BuildEdgeList, BuildActiveList, FillScan, DeleteAfter, UpdateActiveList, ResortActiveList, iScanFill | — |
| ilu_rotate.cpp | iluRotate_ | iluRotate, iluRotate3D, iluRotate3D_ |
| ilu_scale.cpp | iluScale, iluScale_, iluScale1D_ | iluEnlargeImage |
| ilu_scale2d.cpp | iluScale2D_, iluScale2DNear_, iluScale2DLinear_ | iluScale2DBilinear_ |
| ilu_scale3d.cpp | iluScale3D_ | iluScale3DNear_, iluScale3DLinear_ |
| ilu_states.cpp | iluGetIntegerv, iluGetInteger, iluImageParameter | iluGetString |
| ilu_utilities.cpp | iluDeleteImage, iluGenImage | iluGetImageInfo |
| src-ILU/src: other files (number of functions) | — | ilu_filter_rcg.cpp (13), ilu_internal.cpp (3), ilu_scaling.cpp (5) |
| ilut_main.cpp | ilutInit | DllMain, GccMain |
| ilut_states.cpp | ilutDefaultStates, ilutD3D8MipFunc, ilutGetString, ilutEnable, ilutDisable, ilutAble, ilutIsEnabled, ilutIsDisabled, ilutGetBooleanv, ilutGetBoolean, ilutGetIntegerv, ilutGetInteger, ilutSetInteger, ilutPushAttrib, ilutPopAttrib | ilutRenderer |
| src-ILUT/src: other files (number of functions) | — | ilut_allegro.cpp (3), ilut_directx.cpp (16), ilut_directx10.cpp (10), ilut_directx9.cpp (23), ilut_directxm.cpp (12), ilut_opengl.cpp (23), ilut_sdlsurface.cpp (4), ilut_win32.cpp (17), ilut_x11.cpp (14) |

<!-- end: coverage -->

## Where the code violates a property

<!-- generated: violations -->

* `C02_overflow_keeps_newest_violated`: The full statement of **C02** (`the newest 32 in LIFO order`) is false of the code: the shift loop at il_error.cpp:32 stops one element short, so the 33rd unread error makes the second-newest one disappear and duplicates its predecessor.
* `C03_violated`: The full claim C03 is false: after `ilGenImages(1)`, `ilDeleteImages(2)`, `ilBindImage(2)`, name 2 exists and `ilGenImages(1)` returns it; and with one more deletion before, one call returns the same name twice.
* `C06_faces_leak_violated`: `ilCloseImage` of an image that has both faces and mipmaps (a cube map with mipmaps, as the DDS loader builds) leaves the mipmaps allocated and unreachable: line 225 of il_stack.cpp clears `Mipmaps` instead of `Faces`.
* `C06_leak_violated`: A history that leaks: after binding the deleted name 2 and deleting nothing else, `ilGenImages` overwrites its slot; the former object (address 3) is live and reachable from no name.
* `C07_violated`: The full claim is false: with name 2 deleted and bound again, `ilGenImages(1)` replaces the image of name 2, losing its contents (here the value 9 written to it).
* `C100_violated_dense`: , as the format allows and other programs write it, is refused.
* `C100_violated_plain`: `1 0` means black and white.
* `C100_violated_polarity`: No pixel of a P4 file gets the shade the format gives it.
* `C100_violated_space`: is refused: the byte is taken for a blank of the header.
* `C100_violated_truncated`: is reported as loaded; the loader shows the row as white, as if its bits were set.
* `C101_violated_interlaced_part`: A file with an interlaced frame that has fewer rows than the screen is loaded with rows in the wrong place: of the two rows of the frame, coloured 1 and 2, the second should be row 1 of the image, which has the background colour instead.
* `C101_violated_one_pixel`: No GIF file whose frame is a single pixel can be loaded, however it is coded: the result is `IL_FALSE`.
* `C102_violated_frame_outside`: Every GIF file whose frame begins below the screen makes the loader write behind the image: the loader does not compare the frame with the screen. The heap gets pixels of the file's choice at an offset of the file's choice.
* `C102_violated_uninitialised`: The loader follows entries of the code table that it has not written: with this file, whose frame is the screen, it reads wherever the uninitialised entry 15 points to.
* `C103_violated_index`: The pixels of a colour-indexed image are replaced by whatever was in memory, even when the canvas is not enlarged at all.
* `C103_violated_mode`: With `IL_ORIGIN_SET` enabled and an origin mode other than the image's origin, the picture is turned upside down.
* `C103_violated_wide`: A pixel with components of 16 bits, put at the right of a row of two, is shifted by half a pixel: it covers the second half of the left pixel and the first half of the right one.
* `C104_violated_double`: for double components: nothing is copied, and the new pixels are whatever was in the memory.
* `C104_violated_linear`: by the linear filter: doubling the width of a one-pixel image reads the pixel after the last one. The quotients are powers of two, so that exact arithmetic is what the host does.
* `C106_violated_layout`: after it is saved, the second colour of the image has the alpha of the first one as its red component.
* `C107_violated_act`: the loader opens the file but reads the one that was opened last by something else. When there was none it reads through a null handle; when it is closed, through a freed one; and when it is still open, the palette is what that file says, whatever the named file `d` says.
* `C107_violated_count`: a file that claims 1431655766 colours makes the loader write after the end of its block.
* `C107_violated_hang`: loading a well-formed palette file with DOS line ends never returns.
* `C109_violated_data`: whatever the image and the name, it never changes the disk; on a file that exists it returns `IL_TRUE` when the last save was to memory, and crashes when there was none or when it was to a file.
* `C109_violated_mng`: with overwriting enabled, saving to an existing file with that extension destroys it and fails. When nothing was saved before, or the last save was to a file, the program crashes instead, and the file is lost as well.
* `C10_push_format_specific_violated`: C10 is false for masks with `IL_FORMAT_SPECIFIC_BIT` (in particular `IL_ALL_ATTRIB_BITS`): in the default state the format-specific strings are NULL and `ilPushAttrib` passes them to `strdup`.
* `C110_violated_end`: of a file with two bytes, the cache delivers four, the last two of which are what the memory contained, and says that all were read.
* `C110_violated_eof`: **Asking whether the end is reached moves** in a file that is loaded from a later position.
* `C110_violated_start`: after one byte has been read through the cache at position 5, the file is at 11 instead of 6.
* `C111_violated_sub`: a load into the second page leaves that page as the loader made it, turns over the first page instead, and selects it.
* `C111_violated_type`: **Asking for a component type changes the format of other pages**: with `IL_TYPE_SET` the second page loses its alpha, because the first has none.
* `C112_violated_moves`: a test of a file at position 8 leaves it at position 16. (The position is taken from the beginning of the file, but seeking to it counts from where the file was.)
* `C113_violated_inside`: a PNG file after one other byte is not recognised when the file is at its first byte.
* `C113_violated_ktx`: no file at all is recognised as one, although there is a test for them.
* `C113_violated_short`: a GIF file of 43 bytes is recognised as one if the memory of the library contains zeros, but taken for a bitmap if it happens to contain the header of one.
* `C113_violated_targa`: the bytes are those of a Targa file, but PCX files are recognised by so little that the file is taken for one. (The code tests the resolution where it should test the version.)
* `C114_violated_scitex`: of bytes that are both an SGI and a Scitex file: SGI from a file, Scitex from memory.
* `C116_violated_overflow`: is false in general: a picture of one pixel with a run of two writes outside the block, from a file and from memory.
* `C117_violated_truncated`: is false in general: the same file without any of its pixels is reported as loaded, and its pixel is whatever the memory held (0 or 1 here).
* `C118_violated_second`: is false in general: with a second texture, the program follows a null pointer.
* `C119_violated_palette`: is false in general: of a complete file, no mipmap has a palette although each says it has one of 768 bytes.
* `C119_violated_truncated`: is false in general: when the pixels are missing, images that have been freed are used again.
* `C11_cubeflags_reports_error_violated`: An error report does not mean "nothing changed": `ilSetInteger(IL_IMAGE_CUBEFLAGS, v)` stores `v` and then records `IL_INVALID_PARAM`, for every `v` (the `break` of il_states.cpp:1094).
* `C11_rejection_violated`: The full rejection claim is false: e.g. `ilSetInteger(IL_DXTC_FORMAT, 12345)`, `ilSetInteger(IL_PCD_PICNUM, 77)`, `ilSetInteger(IL_PNG_ALPHA_INDEX, -9)` are accepted silently (il_states.cpp:1104, 1128, 1134 test with `||`).
* `C120_violated_column`: is false in memory: a column offset that is negative makes the program read before the block.
* `C120_violated_conv`: is false with `IL_CONV_PAL`: the second and third byte of every pixel are what the memory held (0 or 1 here), not what the palette says.
* `C120_violated_flat`: is false for a flat loaded by name: `ilLoadDoomFlat` reads its file as a picture with columns, and makes one pixel of it.
* `C121_violated_overflow`: is false in general: a picture of one pixel with a run of two writes outside the block.
* `C121_violated_truncated`: is false in general: a header of 127 by 1 pixels without any data is reported as loaded.
* `C124_violated_format`: The full claim C124 is false: `ilutSetInteger(ILUT_S3TC_FORMAT, 5)` is not refused but sets the largest texture width to 5, because the case has no `break` (line 272).
* `C124_violated_gen`: The full claim C124 is false: after `ilutSetInteger(ILUT_GL_GEN_S3TC, 1)` the mode reads 0, because line 231 reports the switch `ILUT_GL_USE_S3TC` instead.
* `C125_violated_init`: The full claim C125 is false: `ilutInit` does not return to the outermost level: after a push and `ilutInit`, a pop restores the settings of before instead of recording an underflow.
* `C125_violated_push`: The full claim C125 is false: a push with all attribute bits does not keep the settings in force. After `ilutInit` and `ilutPushAttrib(ILUT_ALL_ATTRIB_BITS)` the largest texture width reads 0 instead of 256, because only four of the settings are copied to the new level (lines 357-364).
* `C127_violated_init`: The full claim C127 is false: before `iluInit` the pointers are NULL and `iluErrorString` reads through them, whatever the number.
* `C127_violated_order`: The full claim C127 is false: after `iluSetLanguage(ILU_GERMAN)` the texts are Spanish; Japanese, Spanish and French are also exchanged, because the arrays of ilu_error.cpp:30-61 list the languages in another order than the constants of ilu.h:79-86.
* `C127_violated_unlisted`: The full claim C127 is false: `ILUT_NOT_SUPPORTED` (0x550), which the toolkit records, has the text "no error".
* `C128_violated_freed`: The full claim C128 is false: after `iluRegionfv` and then `iluRegioniv` an operation that uses the region reads the freed points of the first.
* `C128_violated_mixed`: The full claim C128 is false: `iluRegioniv`, then `iluRegionfv` twice frees the first region twice, because `RegionPointsi` is not reset (lines 25-28, 35-36).
* `C128_violated_negative`: The full claim C128 is false: a point above the image is not refused, and the array of edges is accessed before its beginning (only the upper bounds are tested, line 247).
* `C129_violated_load`: The full claim C129 is false: with image 2 bound and holding 5, `iluLoadImage` of a file whose contents are 9 returns the new name 3, but image 3 does not hold them and image 2 is overwritten: the new image is never bound (ilu_main.cpp:61-65).
* `C131_violated_marker`: is false in general: a picture of one pixel that is stored as (2, 2, 200, 136), which is what red 2.0, green 2.0, blue 200.0 become, is taken for the beginning of a run-length scan line; the pixel that is loaded is (255, 255, 255, 255).
* `C132_violated_dims`: is false in general: without dimensions in the header, the program uses variables it never set.
* `C132_violated_ones`: is false in general: a picture whose first four bytes are 1, 1, 1, 5 makes the program read before its buffer; with 1, 1, 1, 0 it never ends (in the model, it shifts by 32, which is undefined).
* `C132_violated_truncated`: is false in general: a file that ends after its header is reported as loaded, with a pixel that is not in it.
* `C134_violated_short`: The pixel of 16 bits per component with red 0x0201, green 0x0403 and blue 0x0605 should become 0x0605, 0x0403, 0x0605; but the bytes are taken for components, and green becomes 0x0603.
* `C135_violated_bgr`: For pixels that begin with blue the weights of red and of blue are exchanged, whatever the image is.
* `C135_violated_format`: For every other format an error is recorded, nothing is done, and the result is `IL_TRUE`.
* `C135_violated_orders`: The same red seen in the two orders: with all the weight on red and saturation 0, the pixel red 10, green 20, blue 30 becomes the grey 10 if it is kept as `IL_RGB` and the grey 30 if it is kept as `IL_BGR`.
* `C135_violated_short`: A pixel of 16 bits per component, red 0x0201, green 0x0403 and blue 0x0605, with all the weight on red and saturation 0: the components become 0x0101, 0x0401 and 0x0404 and not 0x0201 each.
* `C136_violated_bgr`: For pixels that begin with blue, blue is compared with the red of the clear colour and red with its blue.
* `C136_violated_exact`: With the tolerance 0 nothing is replaced, although some pixels have the clear colour.
* `C136_violated_luminance`: A luminance equal to the clear colour, replaced with the colour red 1, green 2, blue 3, becomes 3: the blue alone counts.
* `C136_violated_red`: The clear colour is pure red, the new colour pure green, the tolerance 1/255: a red pixel of `IL_BGR` stays, and a blue one becomes green.
* `C137_violated_bytes`: No image with unsigned bytes, the usual type, can be scaled: every one that is not colour-indexed is refused, by both functions.
* `C137_violated_half`: Of an image with luminance and alpha, in signed bytes, `iluScaleColours` scales the first half alone.
* `C138_violated_short`: With 16 bits per component and contrast 2 (for which the arithmetic is exact) 255 stays 255, and the brighter 256 becomes 0.
* `C139_violated_short`: With gamma 1 and 16 bits per component, 0x0102 becomes 0x0101.
* `C139_violated_white`: Whatever gamma is, a component of 32 bits whose highest byte is 255 becomes a `float` that is no unsigned 32-bit number, and to convert it is undefined: any image that begins with such a component, as white does.
* `C140_violated_division`: 32 bits per component and the tolerance 1, for which `factor` is 2147483648: a division by 0.
* `C140_violated_int`: 32 bits per component: the component 0x80000000, to which 0 is to be added, becomes 0.
* `C141_violated_black`: Any image that is not colour-indexed and has a black pixel: a number that is not a number is converted to an integer, which is undefined.
* `C141_violated_large`: Whenever 2^24 pixels are darker than a pixel, that is, in an image of more than 16 million pixels, the pixel becomes black: the number of darker pixels times 256 is reduced modulo 2^32.
* `C141_violated_palette`: Palettes: the entries are taken at the distance of one byte, so that the grey entries 10, 20 and 40 of a palette of three components do not become the greys 0, 85 and 170: the bytes 3 and 4 become 255 and 85, and all later ones stay. This with the exact `v * new / old`.
* `C141_violated_read`: Palettes: an image with fewer pixels than its palette has entries is read past its end.
* `C142_violated_16`: Complete pictures of 16 bits a pixel with alpha, of 8 bits a pixel with colours, and of 8 bits with luminance and alpha make the loader read memory behind the pixels.
* `C142_violated_last`: The last pixel of a picture of 32 bits a pixel without alpha is that of the pixel before: the file has the colour 5, 6, 7 there and the image 1, 2, 3.
* `C142_violated_white`: White of R5G6B5 is not white in the image: its components are 248, 252 and 248.
* `C143_violated_dxt4`: No DXT4 picture is ever loaded: the loader says it failed, for every complete file.
* `C143_violated_opaque`: As DXT2 the same opaque white pixels are black: 255 * 256 / 255 is 256, which is stored as 0.
* `C144_violated_rxgb`: In RXGB pictures (DXT5 blocks with red in the place of alpha) white is not white: green is 252 and blue 248.
* `C144_violated_volume`: A volume of two slices of 4 by 1 pixels, with all its blocks, makes the loader write behind the image: after each slice it goes on four rows below.
* `C145_violated_ten`: A pixel of A2B10G10R10 (red in the lowest ten bits) that is red and opaque becomes blue and transparent.
* `C145_violated_ten_rgb`: The same masks without the alpha flag make the loader write behind the image.
* `C146_violated_declared`: A DXT3 file that declares fewer bytes than its blocks have makes the loader read memory behind what it has read.
* `C147_violated_selected`: Copying an image while a sub-image of the target is selected writes to the sub-image after it has been freed, in every state.
* `C147_violated_self`: Copying the bound image onto itself reads the pixels after they have been freed, in every state.
* `C147_violated_subimages`: The copy has no sub-images, whatever the source has, and no compressed data; here the source has a mipmap.
* `C148_violated_delete`: Deleting the original after it has been cloned leaves the bound image pointing to freed memory: every later call that changes the bound image uses it.
* `C148_violated_name`: After `ilCloneCurImage` the library reports the name of the clone as the bound one, while calls work on the original.
* `C14_violated`: The full claim C14 is false: `ilTexImage(65536, 65536, 1, 1, IL_LUMINANCE, IL_UNSIGNED_BYTE, NULL)` succeeds and the image reports those dimensions with a data size of 0 bytes.
* `C150_violated_small`: The result is the full size although only the size of the buffer was written, for every picture and every such buffer.
* `C152_violated_nearest`: Wherever the last four bits of an alpha are above `7` by more than the first four are, the alpha is not rounded to the nearest: the next of the sixteen alphas is closer.
* `C154_violated_flag`: A red pixel beside a blue one: only two colours, and so fit for a block of any of the formats. After compression both pixels are red.
* `C154_violated_strength`: In a block whose colours are all of the same strength, every pixel comes back with the colour of the upper left one.
* `C155_violated_current`: Whatever the data and its size, `ilCompressDXT` compresses the current image, with its own size.
* `C156_violated_luminance`: All values of a luminance picture are lost: the buffer that is compressed holds zeros.
* `C156_violated_luminance_alpha`: Every such picture is written past the end of a buffer.
* `C156_violated_rows`: Every such picture with colours is read past its end.
* `C157_violated_large`: The sum of a block is kept in 32 bits: a white picture of 4105 times 4105 becomes black when it is made one block.
* `C158_violated_region`: Without a region, `iluPixelize` never succeeds on an image whose components have two, four or eight bytes: the region's mask is used although there is none.
* `C159_violated_all`: So do both blurs, for one pass or more, the relief, and the three edge detectors.
* `C159_violated_neighbour`: A filter that should show the lower right neighbour of every pixel shows the lower left one.
* `C159_violated_outside`: Every 3x3 filter of an image of bytes with three rows or more reads past the end of the image; so does that of a single row of three columns or more.
* `C15_violated_remove`: the reported size is that of both slices, the data that of one.
* `C15_violated_resize`: the format is still RGB, so the number of components no longer is that of the format.
* `C160_violated_brighter`: Blurring should leave an image of one colour as it is. But on two rows, both blurs make every component of such an image brighter by one, except in the first and the last column; on three rows or more they read past its end (`C159_violated_all`).
* `C161_violated_bright`: Edge detection should turn an image of one colour black. But on two rows, when that colour has a component of 182 or more, the detectors convert a number above 255 to a byte, which is undefined: in the first column the two passes are not black but the image itself. On three rows or more they read past the end (`C159_violated_all`).
* `C164_violated_map`: is false for every map of which the second byte is not that of the first green: the green of colour 0 in the palette is the red of colour 1 in the file.
* `C165_violated_across`: is false in general: two by two pixels of the value 7, stored as one run of four. The run ends with the first row; the second row is white, and loading succeeds.
* `C166_violated_rest`: is false for every file of 32 bits per pixel: loading succeeds, but after the first pixel every byte of the image is what happened to be in the memory (`junk`), whatever the file has.
* `C167_violated_size`: is false in general: a header of 2^31 by 2 pixels of 8 bits and one more byte writes outside the block, which has no bytes.
* `C168_violated_cut`: is false for every file of 24 bits per pixel, compressed or not: wherever it ends after the header, it is reported as loaded.
* `C169_violated_memory`: is false from memory when no file has been opened before: every file of 1 bit per pixel is refused, and the image is as before.
* `C170_violated_frames`: only the current image gets the key.
* `C170_violated_ignored`: what `ilKeyColour` is given makes no difference to any later conversion.
* `C170_violated_slices`: only the first slice is copied, and the conversion reads beyond the new buffer.
* `C170_violated_white`: the black pixel becomes transparent, and the white one stays opaque.
* `C171_violated_key`: a conversion to a format that does not exist fails, and the image has become an RGBA image.
* `C172_violated_alpha`: nothing is changed, whatever the alpha.
* `C173_violated_always`: no palette file and no image make the call succeed.
* `C174_violated_own`: it is freed and then copied.
* `C174_violated_unbound`: the current image is used without a check, whatever the palette.
* `C175_violated_closed`: 
* `C175_violated_first`: for every image, a null pointer is followed.
* `C175_violated_other`: the call is refused for every current image.
* `C177_violated_elsewhere`: whatever the format, loading from a file that is not at its beginning leaves it at twice its position: the position is taken from the beginning of the file, and returned to from the beginning of the picture.
* `C179_violated_white`: white is not white: in every such picture without alpha, of any size, where all ten bits of a component are set the loaded value is 65532, and not the highest.
* `C179_violated_wide`: a picture of sixteen or thirty-two bits for each component is always loaded as one of bytes, if there are enough of them: its first bytes, each taken for a component.
* `C180_violated_bottom`: a picture from the bottom to the top is loaded upside down, whatever its size: the image says that its first row is the top row, and has the row of the file that is the bottom one there.
* `C181_violated_offset`: every file whose picture of whole bytes is said to begin at 2^31 or beyond makes the loader read outside the memory it is given.
* `C181_violated_size`: a file of 1668 bytes with a large picture of ten bits makes the loader write outside the block of the image: its size wraps around to 2 bytes.
* `C182_violated_ten`: every file of ten bits that ends where its picture should begin, of any size, is loaded with success; the values are what was in memory before: with zeros there all high bytes are 0, with 255 they are 255.
* `C185_violated_transparent`: if the memory that the image gets is zero, then every pixel is transparent, whatever the file and whatever its alpha.
* `C185_violated_wide`: of sixteen bits of alpha the bytes are exchanged, even if the memory is such that the value would be kept.
* `C186_violated_resource`: a resource whose name does not fit is read from behind the block of the resources.
* `C186_violated_run`: bytes as they are, one more than there are pixels, are written behind the block, from a file and from memory. For the black channel of CMYK nothing is compared at all.
* `C186_violated_table`: a document with run-lengths that ends in the table of the lengths makes the loader read from NULL.
* `C187_violated_memory`: a document with run-lengths that stops after the first of three pixels is refused from a file, but loaded from memory, where the last byte is read again and again.
* `C188_violated_alpha`: a picture with a fifth channel depends on what was in memory before: with zero there the solid white pixel is black.
* `C188_violated_white`: where there is no ink at all (each of the four is 255) every picture of this kind is not white, but 254.
* `C18_violated_line`: The claim fails for the top row of the second slice: the top row of the first slice is delivered.
* `C18_violated_offset`: The claim fails for an offset beyond the image: a 1x2 block at column 5 of the 4x3 image is written past the end of a caller's buffer of exactly the reported size, and with room there it is read past the end of the image.
* `C18_violated_slab`: The claim fails for two slices clipped in `x`: the second slice is delivered at the wrong place (position 2 of a block whose second slice starts at 4).
* `C190_violated_alpha`: saved with alpha and loaded with memory that is zero, every image comes back transparent.
* `C190_violated_grey_alpha`: grey with alpha is refused, whatever the image, but not before 24 bytes have been written.
* `C190_violated_palette`: an image with a palette of two colours is saved, but 768 bytes of palette are announced and six written, so that it cannot be loaded.
* `C190_violated_slices`: of several slices only the first is saved, and success is reported.
* `C192_violated_format`: even the pictures that are loaded have the format for four components and three bytes per pixel.
* `C192_violated_rows`: every opaque picture of four rows or more, however it is stored, makes the loader write behind the block of the image, already with its first pixel.
* `C193_violated_run`: a row of two to 255 equal pixels, stored as one pure run, makes the loader write behind the block of the image.
* `C194_violated_memory`: if in memory only the first byte of the list of packets is there, and it is not 0, loading never ends.
* `C196_violated_words`: every file of 16- or 32-bit samples with at least one byte of samples is loaded with success, however few there are: the missing ones are what happens to be on the stack.
* `C197_violated_axes`: a header without NAXIS makes the loader use numbers it never set: `sizeof(Header)` in its `memset` is the size of a pointer.
* `C197_violated_size`: a header for 2^30 samples of 32 bits or more (fewer than 2^31), followed by at least one byte, makes the loader write past the end of the block, because the size of the block is computed modulo 2^32 and the samples are counted without.
* `C19_violated_origin`: With an enabled origin mode other than the image's, writing one pixel turns the whole image upside down and does not change its origin flag.
* `C19_violated_row`: A block of two rows at row -1: row 0 of the image is covered by the block's second row and gets its first one. A block of three rows at row -3 lies wholly outside and yet row 0 is overwritten.
* `C19_violated_wide`: A block overhanging on the left and wider than the image: image column 3 is covered by the block (its column 4) and is not written.
* `C200_violated_premultiplied`: With these formats, which `ilSetInteger` takes, saving fails for every picture, after the header has been written; and a picture that is stored from the bottom up is left upside down.
* `C201_violated_active`: If another image of the list is active, the header has the size of it but the blocks are those of the first: whenever the active image is larger, so that it needs more blocks, saving reports success and the file cannot be loaded.
* `C202_violated_missing`: For every file whose first level is complete and a mipmap is not, the loader reports a failure, but the bound image has been replaced by the first level.
* `C205_violated_oblong`: For every complete file with mipmaps of a picture one side of which has more binary digits than the other, loading reports success, but there are too few levels, and the image shows bytes that begin before its own: those of smaller levels.
* `C206_violated_flat`: For a picture of 8 by 2 pixels the loader takes memory for one block only, and then reads behind it.
* `C207_violated_range`: In every complete file without mipmaps, a component with the largest value, 15, becomes 240, not 255: nothing that is loaded is opaque or white.
* `C208_violated_flat`: see `wide`.
* `C209_violated_mipmaps`: After any history of calls, `ilRegisterMipNum(num)` returns true as well, but however large `num` is, `ilActiveMipmap(k)` then succeeds only for `k ≤ 1`: the further images are linked as images, not as mipmaps.
* `C211_violated_grey`: However many pixels of a grey picture are missing, loading reports success.
* `C211_violated_narrow`: A picture in red, green and blue that is one pixel wide and ends behind any line, before its padding, is loaded from memory with success: at the end of a lump, `igetc` goes back by a byte, and the last line is read again and again.
* `C212_violated_size`: If the number of pixels of a grey picture, computed with 32 bits, is smaller than a line of which there are enough bytes, then the first line is written beyond the block of the image.
* `C215_violated_unset`: For every file without compression or with DXT1 data whose first level is not larger than the picture, the loader compares the size of the level with a number that has not been set.
* `C216_violated_table`: For every file with the signature and more than 1024 places of pages, the loader writes behind its array.
* `C216_violated_unset`: For every file with the signature and a table of up to 1023 pages, the first of them below 2^31, whatever the pages are, the loader decides by a number that has never been set: it never reads the depth of the pixels.
* `C218_violated_white`: fails: in every white picture of more pixels the sum of a component is more than an `ILint` holds.
* `C219_violated_leftovers`: fails: the palette has 256 entries, and those from `K` on are whatever was in the memory.
* `C21_violated_half`: the alpha added to an `IL_HALF` pixel is 0xFFFF, a NaN, not 1.0.
* `C21_violated_signed`: the alpha added to an `IL_SHORT` pixel is 0xFFFF, i.e. -1, not the largest value.
* `C220_violated_quarter`: fails: turning any picture that is not square by a quarter writes outside the new picture.
* `C220_violated_three`: fails: and so does turning by three quarters.
* `C221_violated_half`: fails: turning by half mirrors instead, and is not a turn as soon as a row does not read the same from both ends.
* `C224_violated_wide`: fails: for every picture of wider components the data are converted to bytes, and the header gives the type they had before.
* `C225_violated_small`: for every picture with fewer than 100 pixels for each unit of the sampling factor (fewer than 1500 pixels with the default factor of 15), but enough to be sampled at all, the reduction divides by zero.
* `C225_violated_stride`: for every picture of 100 to 243 pixels that is sampled in full, or of 200 to 243 with a factor of 2, the reduction reads outside the pixels.
* `C228_violated_outside`: every TPL texture of four bits per pixel, and every one with alpha of four or eight bits beside the grey and an odd width, makes the loader store beyond the block of the image.
* `C22_violated_la_alpha`: pixel `i` reads component `2*i + 3`, which for the last pixel is past the end of the source (il_convbuff.cpp:1746-1747).
* `C22_violated_large`: for 357913942 RGB pixels (1 GB, whose RGBA size still fits 32 bits) the byte count `NumPix * BpcDest * 4 / 3` wraps to 2 and the first pixel is written past the end of the block (il_convbuff.cpp:190).
* `C22_violated_rgb_alpha`: the block is allocated for the alpha image and cleared for the length of the RGB image, so every such conversion writes past its end (il_convbuff.cpp:415-417).
* `C230_violated_hang`: a file whose first entry is of a kind the loader does not know and claims no bytes at all is never done with: the loader goes back to it for ever.
* `C230_violated_short`: every file whose first entry is an icon with too few packed bytes makes the loader read beyond the block it made for them.
* `C231_violated_memory`: no texture loads from memory: the loader of DDS files is given the first 48 bytes, too, so that whatever follows them the bound image is what it was.
* `C231_violated_position`: an open file from whose beginning a texture was loaded is never left there.
* `C233_violated_empty`: a file whose directory is empty is loaded with success, though no image comes of it.
* `C233_violated_hang`: an icon without columns is never loaded: the loop over its pixels does not end.
* `C233_violated_palette`: an icon with fewer colours than its pixels use is read beyond its palette.
* `C233_violated_passed`: an icon of 16 bits is loaded with success, though no image comes of it.
* `C234_violated_shifted`: whenever a component of the file's picture differs from that one byte later, the file loads with success, but not as the file's picture.
* `C236_violated_v24`: every file with a tag of version 2.4 is refused, whatever pictures it has, although the code has a branch for the sizes of that version.
* `C237_violated_hang`: a first frame of another kind that claims 4294967286 bytes, which is -10 as a signed number, leads the loader back to itself, for ever.
* `C237_violated_long`: a picture whose type has no end within 65 bytes makes the loader read beyond the array it collects the type in.
* `C239_violated_refused`: every such texture of at least eight pixels whose number is no multiple of eight is refused, because the loader rounds the bytes of alpha down.
* `C23_violated_grey`: the 8-bit grey 35 becomes 34.
* `C23_violated_la`: BGR and BGRA pixels are weighted as if they were RGB (il_convbuff.cpp:1007, 1311), so pure red gets the luminance of blue.
* `C23_violated_rounding`: the floats are summed in storage order, so the colour (4, 136, 234) has luminance 115 stored as RGB and 114 stored as BGR.
* `C23_violated_uint`: the float sum of a white `IL_UNSIGNED_INT` RGB pixel is 2^32, which does not fit `ILuint` (il_convbuff.cpp:325-327).
* `C240_violated_place`: a texture without alpha whose first level has a place of 2^31 or more makes the loader read outside the memory it was given.
* `C241_violated_levels`: a texture that says that there are no levels, which by the format means that it has one and the others are to be made from it, loads with success, but as what was in the memory of the image, whatever it stores.
* `C241_violated_rows`: of a texture of one row with a mipmap whose row has to be filled up, the mipmap is never read: it is whatever was in the memory of the image.
* `C242_violated_hang`: a texture whose first key has no bytes is never loaded to the end, however many turns the loader may take.
* `C242_violated_read`: with one, two or three bytes of keys the loader reads beyond them.
* `C243_violated_plain`: fails for tiles that are not packed: the loader means to turn the order of the bytes of each pixel, but copies bytes to other pixels. Two pixels, stored with alpha first, come out as neither order has them.
* `C243_violated_rgb`: fails for packed tiles of pictures without alpha: the loader gives up, whatever the tile is.
* `C244_violated_corner`: fails for tiles that are not in the image: any packed tile in the last row that goes beyond the right side is written outside the block.
* `C244_violated_pixel`: fails for a single pixel that is not packed: a byte is written behind it, whatever the pixel is.
* `C244_violated_read`: fails for bytes that end in a packet: what the packet says is read beyond them.
* `C246_violated_least`: fails for the least number of an `int`: its magnitude is taken for the number itself, which is then multiplied by -1 beyond what an `int` can hold.
* `C24_violated_mixed_order`: 100 < 200 as unsigned bytes, but 200 becomes a negative short.
* `C24_violated_signed_full_scale`: the largest signed byte, 127, becomes 0x7F7F = 32639, not 32767.
* `C25_violated_sign_pairs`: the result is what the fresh block held, so nothing of the input survives.
* `C26_violated_depth`: `ilAddAlpha` converts one slice only, but declares the size of all of them: the image is larger than its buffer.
* `C26_violated_signed`: the alpha added to signed bytes is 255, that is, -1.
* `C26_violated_wide`: `ilRemoveAlpha` takes the size in bytes for a number of components and reads past the image.
* `C27_violated_half`: the call succeeds and changes nothing, whatever the alpha.
* `C27_violated_uint`: the scaled alpha is converted to an `ILushort`, which is undefined for 0.5.
* `C28_violated_negative_zero`: it comes back as positive zero, because the branch for tiny floats returns 0 without the sign (il_manip.cpp:60).
* `C29_violated_large`: three quarters of the size are computed in single precision; for 5592407 entries the result is one byte short and the conversion writes past its block.
* `C29_violated_ragged`: the last, incomplete entry is read past its end.
* `C30_violated_outside`: the palette is read past its end.
* `C31_violated_wide`: the bytes of the components become indices of their own, so the reported size is half of the data, and the pixel at the right is the high byte of the left one.
* `C32_violated_empty`: C32 fails: an empty lump is not checked at all.
* `C32_violated_negative_seek`: C32 fails: seeking to a negative absolute offset is accepted, and the next read leaves the lump.
* `C33_violated_getc_at_end`: C33 fails: a single-byte read at the end of the lump moves the position back, so that the last byte is delivered again.
* `C33_violated_negative_seek`: C33 fails: an absolute seek before the start succeeds.
* `C34_violated_zero_size`: C34 fails: a caller that passes a buffer with `Size = 0` gets an unbounded write.
* `C35_violated_seek`: C35 fails: a seek beyond the end counts in the dry run although nothing is written there.
* `C35_violated_targa`: The size reported for an uncompressed Targa file is one byte less than the file.
* `C36_violated_double`: C36 fails for doubles: the swap neither reverses the bytes nor undoes itself; it overwrites one half with the mirror image of the other.
* `C36_violated_double_always`: Whatever the double, its first four bytes are lost.
* `C37_violated_after_end`: C37 fails after the end of the file: a read that comes back empty-handed rewinds the current byte, and the next read delivers its bits a second time.
* `C37_violated_seek`: C37 fails after a seek: seeking to bit 0 and reading delivers bit 0 of the byte read before (the stale 0x01), and then the first bit of the file; the first two bits of the file are 1 and 0.
* `C37_violated_value`: C37 fails for `breadVal`: it returns the number of bits instead of their value (here the bits are 1010).
* `C39_violated_upper_left`: Every such image comes back upside down: the rows are written in reverse order *and* the file says that the first row is the top one.
* `C40_violated_large`: A 42966x49981 image of two bytes per pixel and a stream of 50 MB: the sum of the position and the length of the last packet wraps to 0, passes the check, and the packet is written past the end.
* `C41_violated_content`: The line 5 5 7 8, followed by 9: the last packet holds 9, not 8, and the first two bytes are followed by one that is not a header.
* `C41_violated_length`: With more bytes behind the line, one more byte is written than reported.
* `C41_violated_read`: Two equal one-byte pixels: the encoder reads past the end of the line.
* `C42_violated_palette`: A colour-indexed image with 256 palette entries of red, green, blue and alpha is saved as a file of more than 4294967040 bytes: the padding is counted from the size of the unconverted palette.
* `C42_violated_two_components`: An image of grey and alpha is saved, but the file is refused when it is loaded.
* `C42_violated_wide`: The file the library writes for such an image is refused when it is loaded: the padded row length 65536 does not fit the 16-bit field.
* `C43_violated_empty`: A header whose last column precedes its first by one announces no columns and no bytes per row. The image gets one column all the same, and is filled from an empty scan line.
* `C43_violated_planes`: Four planes of one bit with rows of one byte for an image of nine columns: the ninth column is taken from outside the scan line.
* `C43_violated_wrap`: A header whose last row and column precede its first by two announces 4294967295 rows and columns; the size of the block wraps to one byte, and the second pixel is stored outside it.
* `C44_violated_long_name`: After it has tested a file whose name has 81 characters, saving writes more than four thousand million bytes.
* `C44_violated_name`: After the library has tested whether the file `a.sgi` is an SGI file, saving reads behind the end of that name.
* `C44_violated_signed`: An image of signed bytes is saved with a header that is one byte too short, and cannot be loaded again.
* `C44_violated_slices`: Of an image of two slices, the loaded image has the wrong components: 1, 4, 2 in place of 1, 2, 3.
* `C44_violated_wide`: Saving an image whose width is a multiple of 65536 succeeds; the bytes are refused by the loader.
* `C45_violated`: A count is not compared with the room that is left: a line of one pixel whose data say "two pixels" is written outside a block that holds just the line.
* `C46_violated_alpha`: An image with alpha, which is saved as it is, comes back without: one BGRA pixel.
* `C46_violated_no_palette`: A colour-indexed image without a palette is saved with a header that announces 256 colours, and cannot be loaded again.
* `C46_violated_slices`: Only the first slice of a volume is saved, and the call reports success.
* `C47_violated_colours`: The number of colours times four overflows.
* `C47_violated_offset`: A negative data offset moves the input in front of its first byte, and reading there is outside the block.
* `C49_violated_double`: The negative of an image of `double` components is reported as done, but is the image itself.
* `C49_violated_float`: The negative of the `float` 1.0 (bytes 0, 0, 128, 63) has the bytes 255, 255, 127, 192, which is -3.9999998.
* `C49_violated_region_palette`: With a region and a palette of two colours, the region's mask of one pixel is read outside its bounds.
* `C50_violated_half`: Alpha of type `IL_HALF` is never inverted, though success is reported.
* `C50_violated_last`: In an image of one RGBA pixel no alpha is inverted.
* `C51_violated_depth`: Cropping slices 2 and 3 of four gives no such image: the depth asked for is reduced by the offset.
* `C51_violated_index`: Cropping a colour-indexed image gives uninitialised pixels.
* `C51_violated_origin`: With the origin mode set to the opposite of the image's origin, the top row is asked for and the bottom row is given.
* `C51_violated_outside`: A rectangle of the image's size placed one row down is accepted, and read from outside the image.
* `C51_violated_slices`: Cropping an image of two slices leaves the second slice uninitialised: it is whatever the new block held.
* `C51_violated_wide`: Cropping the second of two 16-bit pixels gives a pixel made of the halves of both.
* `C52_violated_palette`: A black and a white image, each one pixel with colour 0 of its palette, compare as the same.
* `C53_violated_nine`: Nine different grey pixels make `iluColoursUsed` write behind its array of nine blocks.
* `C53_violated_two_components`: The last pixel of an image of luminance and alpha is read beyond its end.
* `C53_violated_wide`: A single pixel of 16-bit luminance 258 counts as two colours.
* `C54_violated_failing`: When the scaling of a later level fails, success is reported for a chain that does not reach 1 by 1 by 1.
* `C55_violated_again`: The handler registered last is not the one called, although registering it reported success.
* `C55_violated_remove`: Registered twice, the first handler of all gets a second entry: after it is removed, the second handler is called.
* `C58_next_power2_hangs`: For every 32-bit `n` above `2^31` the loop never ends: the accumulator wraps to 0 and stays.
* `C58_next_power2_violated`: The full C58 is false.
* `C60_violated_half`: Clearing an image of half-float components does nothing.
* `C60_violated_index`: Clearing a colour-indexed image installs a palette entry made of uninitialised memory, not the clear colour.
* `C60_violated_luminance`: A luminance image is filled with the clear colour's alpha instead of its luminance.
* `C60_violated_luminance_alpha`: A 1x1 luminance-alpha image, byte components: the luminance component also gets the alpha.
* `C61_violated_before`: Laid one pixel to the left of the first row, it is written outside the destination.
* `C61_violated_beyond`: An image laid beyond the right edge is written outside the destination, though none of it is visible.
* `C61_violated_failure`: When the source cannot be converted, the destination is left upside down and the source is left bound.
* `C61_violated_negative`: An image laid one pixel to the left of the second row changes the last pixel of the row above it.
* `C61_violated_source`: A rectangle that reaches out of the source is read outside it.
* `C61_violated_wide`: With 16-bit components, an overlay of the whole source copies half of its bytes.
* `C64_palette_base_type_violated`: `IL_PALETTE_BASE_TYPE` is wrong for every palette type but the two BGRA-like ones: the `switch` at il_states.cpp:653-667 has no `break`s, so e.g. an RGB palette reports `IL_BGRA`.
* `C64_palette_size_violated`: `ilGetInteger(IL_PALETTE_SIZE)` is not implemented although il.h:422 defines it: it always records `IL_INVALID_ENUM` and returns 0.
* `C65_created_mipmaps_violated`: After any history, `ilCreateSubImage(IL_SUB_MIPMAP, num)` also returns `num > 0`, but `ilActiveMipmap(k)` then succeeds only for `k ≤ 1`, however large `num` was: the further images hang off the first mipmap as `Next` images. Likewise for layers.
* `C66_stale_bound_image_violated`: `ilShutDown` leaves the bound image pointing to the freed object: the next call that works on it, before a new `ilInit`, uses freed memory. (Disciplined histories.)
* `C67_violated`: For every name from `2^29 - 1024` up to `2^32 - 2049`, the byte size passed to the allocator has wrapped around and `ilBindImage` reads its table outside the block.
* `C68_violated`: Whatever the image and the other arguments, `ilTexImage` with an unknown component type on an image that has data returns false and leaves the data pointer stale; the next `ilTexImage` on it, with any arguments, frees the block a second time.
* `C71_violated_depth`: only the first slice is swapped, but the image is declared BGR.
* `C72_violated_failure`: the call reports failure with the first frame converted.
* `C72_violated_fast`: converting an animation from RGB to BGR converts the current frame only.
* `C72_violated_same`: the later frames are not looked at.
* `C73_violated_float`: all bytes are 0xFF, which is not the float 1.0 (00 00 80 3F) but a NaN.
* `C73_violated_half`: what is returned are the unset contents of the allocated block.
* `C76_violated_32`: the table of three luminance factors is read at index 3.
* `C76_violated_alpha`: the alpha table holds one byte per entry but is read at twice the index.
* `C76_violated_slices`: room is made for one slice only.
* `C77_violated_16bit`: Loading this 22-byte file reads past the end of the pixel block: the number of bytes of the image wraps around to 4, but all 2147483650 pixels are converted.
* `C79_violated_rle`: A run-length Targa file that ends in the middle of its data is reported as loaded; after the end, the last byte is read again and again.
* `C79_violated_truncated`: A Targa file that ends after its header is reported as loaded; the pixels of the image are whatever the memory held.
* `C80_violated_large`: Loading this file of nine bytes writes past the end of the pixel block.
* `C81_violated_no_handle`: As long as the library has not read from a file, no WBMP image can be loaded from memory: every byte string is refused. (A file with the same contents is loaded, see C48.)
* `C82_violated_truncated`: A WBMP file that ends after its header is reported as loaded; its pixels are whatever the memory held.
* `C83_violated_pcx`: Two loads of the same one-pixel file of version 0 both succeed, with different palettes: the palette of the current image is left as it was allocated.
* `C84_violated`: `a.h` and `a.dcx` have no type although `IL_CHEAD` and `IL_DCX` document these extensions, and `a.iff` is not `IL_ILBM`.
* `C85_violated_16bit`: A 16-bit file of one pixel gives an image of two slices whose components are one byte wide, and whose type says two bytes.
* `C85_violated_count`: A line that holds more than its image is wide is written outside the block.
* `C85_violated_offset`: A table entry of `0xffffffff` moves the input in front of its first byte, and reading there is outside the block.
* `C85_violated_planes`: Of 16-bit files with three planes the planes 0, 2 and 4 are used: two of them outside the array of planes. (The lines of this file have the count where the loader looks for it.)
* `C86_violated_16bit`: The loader looks for the count in the high byte and refuses the file.
* `C87_violated`: Saving a grey image of two equal pixels reads behind the end of the row.
* `C87_violated_conversion`: If the image must be converted and the conversion fails, saving with run-length encoding dereferences a null pointer instead of reporting the failure.
* `C88_violated_sgi_rle`: Saving any image as in C87 as run-length encoded SGI returns less than the number of bytes in the file: the lines of pixels are not counted.
* `C88_violated_targa`: A second save to memory by `ilSaveTargaL`, of the same image to a buffer of any size that holds it, returns 0, which the caller has to take for a failure, although all bytes are in the buffer; the first save can come in any state in which the function has an output to ask.
* `C88_violated_targa_first`: As the first save of a program, `ilSaveTargaL` calls a null pointer; after a save to a named file it uses the closed file.
* `C89_violated_height`: The least height has no absolute value.
* `C89_violated_masks`: With bit fields, an offset below 12 places the masks in front of the file.
* `C89_violated_offset`: The same offset in an uncompressed bitmap.
* `C89_violated_wrap`: A one-bit image of 2^30 columns and four rows: the size of the block wraps to nothing, and the first pixel is stored outside it.
* `C90_violated_gap`: With a gap of four bytes between the masks and the pixels, the masks are read from the wrong place: a blue pixel loads as a green one.
* `C90_violated_host`: On a big-endian host a blue pixel of sixteen bits loads as something else.
* `C90_violated_palette`: A complete four-bit bitmap whose palette has two colours does not load: sixteen are read in any case.
* `C90_violated_short`: A one-pixel OS/2 bitmap, complete in its thirty bytes, does not load: the Windows header is read first, and its 54 bytes are not there to go back over.
* `C90_violated_wide`: A mask of ten bits: a pixel with three quarters of full blue (0x300 of 0x3FF) loads with none.
* `C91_violated_palette`: A complete file of four bits whose palette has one colour does not load: sixteen are read in any case.
* `C91_violated_skipped`: A pixel that no code sets has whatever was in memory: the same file gives two images.
* `C92_violated`: Saving a bitmap behind eight bytes of an open file overwrites four of them: the size is stored at an absolute position. What stands behind the eight bytes is not a bitmap with its size either.
* `C93_violated_offset`: A file that ends long before the place where its pixels are announced is reported as loaded (from memory): the refused seek is not noticed, and what follows the header is taken for the pixels.
* `C93_violated_sgi_offset`: A run-length encoded file that ends long before the place its offset table names is reported as loaded (from memory): the refused seek is not noticed, and the line is read from where the reader happens to be.
* `C94_violated_black`: A transparent pixel of a DXT1 block stands for black; DevIL stores a mixture of the two colours of the block, here white.
* `C94_violated_blue`: Pure blue in a DXT1 block stands for blue 255; DevIL decodes 248, because the low bits are taken from red.
* `C94_violated_green`: A colour whose six bits of green are 32 stands for green 130; DevIL decodes 132, because the bits are repeated at the wrong place (`g << 2 | g >> 3`).
* `C95_violated`: for heights that are not multiples of four: the rows of a block that are not part of the image are flipped into it. Here the lower pixel of an image of height 2 is black, but after flipping the compressed data the upper pixel is not.
* `C97_violated_comment`: `P5 1 1`, `# c`, `255`, and a pixel is refused.
* `C97_violated_newline`: 
* `C97_violated_sixteen`: One grey pixel of two bytes with the largest value 65535 loads as an image that says it has components of two bytes but has one byte in all, the first one.
* `C97_violated_sixteen_text`: a grey pixel is refused (four bytes are expected for it), and the current image is left with bytes that were never written.
* `C97_violated_tab`: `P5`, 1, 1 and 255, separated by tabs, are read as one word and the file is refused.
* `C98_violated_sixteen`: A white pixel is written as 255 255 255 of 65535, which is all but black.
* `C99_violated_blank`: the loader looks for a number behind the end of its buffer.
* `C99_violated_hang`: on the four bytes `P6`, line feed, line feed in memory.
* `C99_violated_line`: is terminated behind the end of its buffer.
* `C99_violated_number`: makes `atoi` undefined.
* `C99_violated_pam`: leaves the library with a current image that has been freed.
* `C99_violated_repeated`: The second of two pixels is missing; the last digit of the first is read again.
* `C99_violated_truncated`: If fewer bytes follow the header of a binary PGM or PPM file than the pixels need, the loader frees the current image and then uses it.
* `C99_violated_values`: is written past the end of the pixels.
* `C99_violated_word`: is terminated behind the end of its buffer.

<!-- end: violations -->

## Axioms of the property theorems

<!-- generated: axioms -->

* `Classical.choice, Quot.sound, propext` (468 theorems): C02_drain_count_partial, C03_generated_names_fresh_partial, C03_violated, C04_is_image_exact, C05_bound_image_alive, C05_bind_and_delete_current, C06_never_freed_twice, C06_no_leak_partial, C06_leak_violated, C07_others_untouched, C07_generate_untouched_partial, C07_violated, C08_active_exact, C10_push_pop_restores, C10_push_pop_completes_partial, C10_position_in_bounds, C10_history_safe_partial, C10_push_selects, C10_push_clears_errors_and_hints, C11_set_then_get, C11_rejects_undocumented_partial, C13_hints, C15_partial, C16_flip, C16_flip_twice, C16_flipped_copy, C17_mirror, C17_mirror_twice, C18_copyPixels_partial, C19_setPixels_partial, C19_read_back_partial, C20_swap, C20_back, C21_image_partial, C21_channels_partial, C22_in_bounds_partial, C22_violated_rgb_alpha, C23_weights_partial, C23_order_partial, C23_defined, C24_lossless, C24_end_points_partial, C24_order_partial, C25_initialised_partial, C25_violated_sign_pairs, C26_add_partial, C26_remove_partial, C26_roundtrip_partial, C27_set_partial, C28_roundtrip_partial, C29_convert_partial, C30_colours_partial, C31_grey_partial, C31_violated_wide, C32_in_bounds_partial, C33_like_a_file_partial, C34_in_bounds_partial, C35_dry_run_partial, C35_dry_run_plain, C35_raw, C35_violated_targa, C36_saved_bytes, C36_round_trip, C36_swap_partial, C36_violated_double_always, C37_bits_in_order_partial, C37_grouping, C38_round_trip, C39_round_trip_partial, C39_violated_upper_left, C39_palette_partial, C40_safe_partial, C40_violated_large, C41_line_partial, C41_round_trip_partial, C42_round_trip_partial, C42_palette_partial, C42_violated_wide, C42_violated_palette, C42_violated_two_components, C43_safe_partial, C44_round_trip_partial, C44_converted_partial, C44_violated_wide, C44_violated_long_name, C45_line_partial, C45_wellformed_partial, C46_bgr_partial, C46_palette_partial, C46_converted_partial, C46_layout, C47_safe_partial, C48_numbers, C48_round_trip, C49_negative_partial, C49_twice_partial, C49_palette, C49_region_partial, C50_alpha_partial, C51_crop_partial, C52_compare_partial, C53_count_partial, C53_small_or_large_partial, C54_chain, C54_failing, C55_history_partial, C55_register_partial, C55_at_most_two_partial, C56_only_extension, C56_known, C56_check, C57_bpp_of_format, C57_bpc_of_type, C57_bpp_of_palette, C57_format_of_bpp, C57_palette_base, C58_next_power2_hangs, C58_next_power2_violated, C59_clamp, C59_idempotent, C60_clear_partial, C61_blit_partial, C61_overlay_partial, C63_memswap, C65_created_next_selectable, C65_created_mipmaps_violated, C66_shutdown_safe, C66_shutdown_releases_all_partial, C66_stale_bound_image_violated, C67_bind_in_table_partial, C67_violated, C69_grey_and_alpha, C70_nearest, C70_overflow, C70_nan, C70_denormal, C71_swap_partial, C72_chain_partial, C73_get_partial, C73_opaque, C74_memory_is_file_prefix, C75_raw_safe, C76_grey_partial, C76_alpha_partial, C77_safe_partial, C77_violated_16bit, C78_decodes, C80_safe_partial, C80_violated_large, C84_documented_partial, C85_verbatim_partial, C86_rle_file_partial, C87_rle_round_trip_partial, C88_memory_partial, C88_size_partial, C88_file_partial, C88_violated_targa, C88_violated_sgi_rle, C89_safe_partial, C90_pixels_partial, C90_fields_partial, C91_decode_partial, C93_bmp_partial, C93_rle_partial, C93_sgi_partial, C93_sgi_rle_partial, C94_dxt3_partial, C94_dxt5_partial, C94_dxt1_partial, C94_violated_green, C94_violated_blue, C94_violated_black, C95_flip_partial, C95_flip_twice, C95_violated, C96_invert, C96_invert_twice, C97_binary_partial, C97_text_partial, C98_round_trip_partial, C99_bitmap_partial, C99_violated_truncated, C100_geometry_partial, C100_violated_polarity, C100_violated_plain, C100_violated_dense, C100_violated_truncated, C101_picture_partial, C101_violated_one_pixel, C101_violated_interlaced_part, C102_violated_frame_outside, C102_violated_uninitialised, C102_pixels_partial, C103_enlarge_partial, C104_scale_partial, C105_load, C105_roundtrip, C106_save_partial, C106_violated_layout, C107_safe_partial, C107_violated_act, C109_returned_partial, C110_same_partial, C111_off_partial, C111_origin_partial, C111_asked_partial, C112_determine_keeps_partial, C112_valid_keeps_partial, C113_type_by_contents_partial, C113_signature_partial, C113_valid_partial, C113_violated_ktx, C113_violated_targa, C114_same_partial, C114_violated_scitex, C115_ftx, C115_lif, C116_pix_partial, C117_pxr_partial, C118_mdl_partial, C119_wal_partial, C119_violated_palette, C120_doom_partial, C120_doom_safe_partial, C121_cut_partial, C122_flat, C123_switches, C124_integers_partial, C124_refused_partial, C125_safe, C125_restores, C125_push_keeps_partial, C126_parameters, C127_language_partial, C128_region_i_partial, C128_region_f_partial, C129_gen_image_partial, C129_load_fails_partial, C130_load, C131_roundtrip_partial, C131_flat_partial, C132_safe_partial, C132_refused_partial, C133_sepia, C134_alien_partial, C135_saturation_partial, C135_one_partial, C135_zero_partial, C135_violated_bgr, C135_violated_orders, C135_violated_short, C136_replace_partial, C136_violated_bgr, C137_alpha_partial, C138_contrast_partial, C138_one_partial, C139_one_partial, C139_palette_one_partial, C139_table_partial, C139_violated_white, C140_noise_partial, C141_equalize_partial, C141_violated_black, C141_violated_large, C142_plain_partial, C143_dxt1_partial, C143_dxt3_partial, C143_dxt5_partial, C143_dxt2_partial, C143_violated_dxt4, C144_ati1n_partial, C144_3dc_partial, C145_wide_partial, C146_header_partial, C146_code_partial, C147_copy_partial, C147_violated_subimages, C147_violated_self, C147_violated_selected, C147_zero_partial, C148_clone_partial, C148_violated_name, C148_violated_delete, C149_safe, C149_tex, C149_surface, C150_size_partial, C150_violated_small, C151_dxt5_alpha, C152_dxt3_alpha_partial, C152_violated_nearest, C153_dxt1_alpha, C154_extreme_partial, C154_extreme1_partial, C154_uniform_partial, C154_violated_strength, C154_violated_flag, C155_violated_current, C155_same_partial, C156_safe_partial, C156_violated_rows, C156_violated_luminance_alpha, C156_violated_luminance, C157_average_partial, C157_one, C157_violated_large, C159_rows_partial, C160_violated_brighter, C161_violated_bright, C161_black_partial, C162_blocks, C162_local, C163_grey, C163_colour, C164_index_partial, C164_violated_map, C165_grey_partial, C165_colour_partial, C166_one_partial, C166_violated_rest, C167_any_partial, C168_map_partial, C168_violated_cut, C169_bits_partial, C169_violated_memory, C170_black_partial, C172_mod_partial, C174_set_partial, C175_swap_partial, C176_file, C176_memory, C176_named, C178_eight, C179_alpha_partial, C179_high_partial, C179_violated_white, C179_violated_wide, C180_top_partial, C180_violated_bottom, C181_whole_partial, C181_violated_offset, C182_eight_partial, C182_violated_ten, C183_plain, C183_palette, C184_packed, C184_palette, C185_colours_partial, C185_violated_transparent, C186_plain_partial, C187_plain_partial, C188_product_partial, C188_violated_white, C189_plain, C189_palette, C190_colours_partial, C190_violated_alpha, C190_violated_grey_alpha, C191_alpha, C192_partial, C192_violated_rows, C192_violated_format, C193_partial, C193_violated_run, C194_partial, C194_cut_partial, C194_violated_memory, C195_whole, C196_cut_partial, C196_violated_words, C197_any_partial, C197_header_partial, C197_violated_axes, C197_violated_size, C198_saved, C199_alpha, C200_formats_partial, C200_violated_premultiplied, C201_base_partial, C201_violated_active, C202_levels_partial, C202_violated_missing, C203_mipmaps, C204_plain, C205_partial, C205_violated_oblong, C206_partial, C207_partial, C207_violated_range, C208_partial, C209_images_and_faces_partial, C209_violated_mipmaps, C210_complete, C211_colour_partial, C211_violated_grey, C211_violated_narrow, C212_safe_partial, C212_violated_size, C213_levels, C214_cut, C215_safe_partial, C215_violated_unset, C216_refused_partial, C216_violated_unset, C216_violated_table, C217_averages, C217_solid, C218_safe_partial, C218_violated_white, C219_used_partial, C219_violated_leftovers, C220_quarters_partial, C220_back_partial, C221_half_partial, C221_violated_half, C222_any, C223_text, C224_size_partial, C224_violated_wide, C225_safe_partial, C225_violated_small, C225_violated_stride, C226_nearest_partial, C227_grey, C227_rgb, C228_safe_partial, C228_violated_outside, C229_icon, C229_mask_first, C230_writes_partial, C230_violated_hang, C230_violated_short, C231_file_partial, C231_violated_memory, C231_violated_position, C232_icons, C233_safe_partial, C233_violated_empty, C233_violated_palette, C233_violated_hang, C233_violated_passed, C234_picture_partial, C234_violated_shifted, C235_safe, C236_picture_partial, C236_other_partial, C236_violated_v24, C237_safe_partial, C237_violated_long, C237_violated_hang, C238_palette, C239_alpha_partial, C239_violated_refused, C240_safe_partial, C240_violated_place, C241_picture_partial, C241_violated_rows, C241_violated_levels, C242_safe_partial, C242_violated_hang, C242_violated_read, C243_tile_partial, C243_picture_partial, C244_safe_partial, C244_picture_partial, C244_violated_corner, C245_compact, C246_any_partial
* `propext` (166 theorems): C02_overflow_keeps_newest_violated, C06_faces_leak_violated, C10_push_format_specific_violated, C14_unknown_type_refused, C18_violated_offset, C18_violated_slab, C18_violated_line, C19_violated_wide, C19_violated_row, C19_violated_origin, C20_refused, C21_violated_half, C21_violated_signed, C22_violated_la_alpha, C23_violated_rounding, C23_violated_la, C23_violated_uint, C23_violated_grey, C24_violated_signed_full_scale, C24_violated_mixed_order, C26_violated_signed, C27_violated_uint, C27_violated_half, C28_violated_negative_zero, C29_violated_ragged, C30_violated_outside, C32_violated_negative_seek, C32_violated_empty, C33_violated_getc_at_end, C33_violated_negative_seek, C34_violated_zero_size, C36_violated_double, C37_violated_after_end, C37_violated_value, C37_violated_seek, C41_violated_read, C41_violated_length, C41_violated_content, C45_violated, C51_violated_outside, C51_violated_wide, C51_violated_slices, C51_violated_index, C51_violated_origin, C51_violated_depth, C52_missing_partial, C52_violated_palette, C53_violated_nine, C53_violated_two_components, C53_violated_wide, C55_violated_remove, C55_violated_again, C59_refused, C60_violated_luminance, C60_violated_luminance_alpha, C60_violated_index, C60_violated_half, C61_violated_negative, C61_violated_before, C61_violated_beyond, C61_violated_source, C61_violated_wide, C61_violated_failure, C68_violated, C72_violated_fast, C72_violated_same, C72_violated_failure, C73_violated_half, C73_violated_float, C76_violated_32, C76_violated_alpha, C76_violated_slices, C81_violated_no_handle, C82_violated_truncated, C84_violated, C88_violated_targa_first, C98_violated_sixteen, C103_refuses, C103_violated_wide, C103_violated_index, C103_violated_mode, C108_protected, C108_others, C108_limit_unreadable, C109_violated_mng, C109_violated_data, C110_violated_end, C110_violated_start, C110_violated_eof, C111_violated_sub, C111_violated_type, C112_violated_moves, C113_violated_short, C113_violated_inside, C116_violated_overflow, C117_violated_truncated, C118_violated_second, C120_violated_conv, C120_violated_column, C120_violated_flat, C124_violated_gen, C124_violated_format, C125_violated_push, C125_violated_init, C127_violated_init, C127_violated_unlisted, C128_violated_mixed, C128_violated_freed, C128_violated_negative, C129_violated_load, C131_violated_marker, C132_violated_ones, C132_violated_dims, C132_violated_truncated, C133_sepia_refused, C134_refused, C134_violated_short, C135_violated_format, C136_violated_exact, C136_violated_red, C136_violated_luminance, C137_violated_bytes, C137_violated_half, C138_violated_short, C139_violated_short, C140_none, C140_violated_int, C140_violated_division, C141_violated_palette, C141_violated_read, C141_refused, C142_violated_last, C142_violated_16, C142_violated_white, C143_violated_opaque, C144_violated_volume, C144_violated_rxgb, C145_violated_ten, C145_violated_ten_rgb, C146_violated_declared, C159_violated_neighbour, C160_none_partial, C165_violated_across, C167_violated_size, C170_violated_ignored, C170_violated_white, C170_violated_frames, C170_violated_slices, C171_kept_partial, C171_violated_key, C172_violated_alpha, C174_violated_own, C175_violated_first, C175_violated_closed, C175_violated_other, C176_unbound, C181_violated_size, C185_violated_wide, C186_violated_run, C186_violated_table, C186_violated_resource, C187_violated_memory, C188_violated_alpha, C243_violated_plain, C244_violated_read, C246_violated_least
* `Quot.sound, propext` (107 theorems): C01_error_queue_is_lifo, C02_overflow_safe, C02_newest_first_partial, C09_enable_disable, C10_overflow_underflow, C11_rejection_violated, C11_cubeflags_reports_error_violated, C12_mode_functions, C14_geometry_partial, C15_violated_remove, C15_violated_resize, C22_violated_large, C26_violated_wide, C26_violated_depth, C29_violated_large, C43_violated_empty, C43_violated_planes, C43_violated_wrap, C44_violated_signed, C44_violated_slices, C44_violated_name, C46_violated_alpha, C46_violated_slices, C46_violated_no_palette, C47_violated_offset, C47_violated_colours, C49_violated_double, C49_violated_float, C49_violated_region_palette, C50_violated_last, C50_violated_half, C56_no_period, C56_check_no_period, C57_type_of_bpc, C58_next_power2_partial, C62_isqrt_safe, C62_isqrt_exact_below_289, C64_image_queries, C64_palette_base_type_violated, C64_palette_size_violated, C68_texImage_leaves_usable_partial, C71_violated_depth, C79_violated_truncated, C79_violated_rle, C83_violated_pcx, C85_violated_count, C85_violated_offset, C85_violated_planes, C85_violated_16bit, C86_violated_16bit, C87_violated, C87_violated_conversion, C89_violated_offset, C89_violated_masks, C89_violated_wrap, C89_violated_height, C90_violated_palette, C90_violated_host, C90_violated_wide, C90_violated_gap, C90_violated_short, C92_in_place_partial, C92_violated, C91_violated_skipped, C91_violated_palette, C93_violated_offset, C93_violated_sgi_offset, C97_violated_tab, C97_violated_comment, C97_violated_newline, C97_violated_sixteen, C97_violated_sixteen_text, C99_violated_hang, C99_violated_values, C99_violated_word, C99_violated_line, C99_violated_blank, C99_violated_number, C99_violated_repeated, C99_violated_pam, C100_violated_space, C104_violated_double, C107_violated_hang, C107_violated_count, C108_reports, C119_violated_truncated, C121_violated_overflow, C121_violated_truncated, C127_violated_order, C137_palette_partial, C137_limit_partial, C150_stored_partial, C158_violated_region, C159_violated_outside, C159_violated_all, C173_kept_partial, C173_violated_always, C177_beginning_partial, C177_violated_elsewhere, C190_violated_palette, C190_violated_slices, C206_violated_flat, C208_violated_flat, C220_violated_quarter, C220_violated_three, C243_violated_rgb, C244_violated_pixel
* no axioms (6 theorems): C14_violated, C35_violated_seek, C54_violated_failing, C104_violated_linear, C139_ends_partial, C174_violated_unbound

<!-- end: axioms -->
