{
 "C47": "Safe for every run-length encoded bitmap whose header keeps the data offset non-negative, the height representable and the colour count small. Other headers are violations: reads in front of the file, integer overflow.",
 "C89": "Safe for every file of at least 54 bytes with a Sane header. Violations: negative data offset, masks in front of the file, wrapping size, height without absolute value. Missing: files shorter than the header.",
 "C90": "Full decoding for all six bit depths and for bit fields with masks of at most eight bits directly in front of the pixels. Violations: small 4-bit palettes, big-endian hosts, wider masks, a gap after the masks, short OS/2 files.",
 "C46": "Round trip for BGR and colour-indexed images with any palette layout, for converted images, and the padded layout of the file. Violations: BGRA loses alpha, volumes lose slices, indexed images without a palette cannot be loaded again.",
 "C92": "Proved for savers that never seek; BMP violates it.",
 "C91": "Decoding for every sequence of codes that stays inside the image. Violations: pixels no code sets hold old memory; RLE4 files with fewer than 16 colours do not load.",
 "C93": "Proved for uncompressed bitmaps, run-length encoded bitmaps cut within a code, and both kinds of SGI file. Violations: data or line offsets beyond the end of the file are not noticed when loading from memory."
}