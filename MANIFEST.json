{
 "claims": [
  {
   "property": "C01",
   "status": "proved",
   "theorems": [
    "DevIL.Error.C01_error_queue_is_lifo"
   ],
   "note": ""
  },
  {
   "property": "C02",
   "status": "partial",
   "theorems": [
    "DevIL.Error.C02_overflow_keeps_newest_violated",
    "DevIL.Error.C02_overflow_safe",
    "DevIL.Error.C02_drain_count_partial",
    "DevIL.Error.C02_newest_first_partial"
   ],
   "note": "Proved in part. C02_drain_count_partial: Missing from C02: *which* errors beyond the newest come back after an overflow (`C02_overflow_keeps_newest_violated`). False of the code, with a witness: C02_overflow_keeps_newest_violated: The full statement of C02 (`the newest 32 in LIFO order`) is false of the code: the shift loop at il_error.cpp:32 stops one element short, so the 33rd unread error makes the second-newest one disappear and duplicates its predecessor."
  },
  {
   "property": "C03",
   "status": "partial",
   "theorems": [
    "DevIL.Stack.C03_generated_names_fresh_partial",
    "DevIL.Stack.C03_violated"
   ],
   "note": "Proved in part. C03_generated_names_fresh_partial: Missing: histories that bind a deleted name (`C03_violated`). False of the code, with a witness: C03_violated: The full claim C03 is false: after `ilGenImages(1)`, `ilDeleteImages(2)`, `ilBindImage(2)`, name 2 exists and `ilGenImages(1)` returns it; and with one more deletion before, one call returns the same name twice."
  },
  {
   "property": "C04",
   "status": "proved",
   "theorems": [
    "DevIL.Stack.C04_is_image_exact"
   ],
   "note": ""
  },
  {
   "property": "C05",
   "status": "proved",
   "theorems": [
    "DevIL.Stack.C05_bound_image_alive",
    "DevIL.Stack.C05_bind_and_delete_current"
   ],
   "note": ""
  },
  {
   "property": "C06",
   "status": "partial",
   "theorems": [
    "DevIL.Stack.C06_never_freed_twice",
    "DevIL.Stack.C06_no_leak_partial",
    "DevIL.Stack.C06_leak_violated",
    "DevIL.Stack.C06_faces_leak_violated"
   ],
   "note": "Proved in part. C06_no_leak_partial: Missing: histories that bind a deleted name (`C06_leak_violated`) and images with faces, which only file loaders make (`C06_faces_leak_violated`). False of the code, with a witness: C06_leak_violated: A history that leaks: after binding the deleted name 2 and deleting nothing else, `ilGenImages` overwrites its slot; the former object (address 3) is live and reachable from no name. C06_faces_leak_violated: `ilCloseImage` of an image that has both faces and mipmaps (a cube map with mipmaps, as the DDS loader builds) leaves the mipmaps allocated and unreachable: line 225 of il_stack.cpp clears `Mipmaps` instead of `Faces`."
  },
  {
   "property": "C07",
   "status": "partial",
   "theorems": [
    "DevIL.Stack.C07_others_untouched",
    "DevIL.Stack.C07_generate_untouched_partial",
    "DevIL.Stack.C07_violated"
   ],
   "note": "Proved in part. C07_generate_untouched_partial: Missing: histories that bind a deleted name (`C07_violated`). False of the code, with a witness: C07_violated: The full claim is false: with name 2 deleted and bound again, `ilGenImages(1)` replaces the image of name 2, losing its contents (here the value 9 written to it)."
  },
  {
   "property": "C08",
   "status": "proved",
   "theorems": [
    "DevIL.Stack.C08_active_exact"
   ],
   "note": ""
  },
  {
   "property": "C09",
   "status": "proved",
   "theorems": [
    "DevIL.States.C09_enable_disable"
   ],
   "note": ""
  },
  {
   "property": "C10",
   "status": "partial",
   "theorems": [
    "DevIL.States.C10_push_pop_restores",
    "DevIL.States.C10_push_pop_completes_partial",
    "DevIL.States.C10_push_format_specific_violated",
    "DevIL.States.C10_overflow_underflow",
    "DevIL.States.C10_position_in_bounds",
    "DevIL.States.C10_history_safe_partial",
    "DevIL.States.C10_push_selects",
    "DevIL.States.C10_push_clears_errors_and_hints"
   ],
   "note": "Proved in part. C10_push_pop_completes_partial: Missing: masks with that bit, see `C10_push_format_specific_violated`. False of the code, with a witness: C10_push_format_specific_violated: C10 is false for masks with `IL_FORMAT_SPECIFIC_BIT` (in particular `IL_ALL_ATTRIB_BITS`): in the default state the format-specific strings are NULL and `ilPushAttrib` passes them to `strdup`."
  },
  {
   "property": "C11",
   "status": "partial",
   "theorems": [
    "DevIL.States.C11_set_then_get",
    "DevIL.States.C11_rejects_undocumented_partial",
    "DevIL.States.C11_rejection_violated",
    "DevIL.States.C11_cubeflags_reports_error_violated"
   ],
   "note": "Proved in part. C11_rejects_undocumented_partial: Missing: `IL_DXTC_FORMAT`, `IL_PCD_PICNUM`, `IL_PNG_ALPHA_INDEX`, see `C11_rejection_violated`. False of the code, with a witness: C11_rejection_violated: The full rejection claim is false: e.g. `ilSetInteger(IL_DXTC_FORMAT, 12345)`, `ilSetInteger(IL_PCD_PICNUM, 77)`, `ilSetInteger(IL_PNG_ALPHA_INDEX, -9)` are accepted silently (il_states.cpp:1104, 1128, 1134 test with `||`). C11_cubeflags_reports_error_violated: An error report does not mean \"nothing changed\": `ilSetInteger(IL_IMAGE_CUBEFLAGS, v)` stores `v` and then records `IL_INVALID_PARAM`, for every `v` (the `break` of il_states.cpp:1094)."
  },
  {
   "property": "C12",
   "status": "proved",
   "theorems": [
    "DevIL.States.C12_mode_functions"
   ],
   "note": ""
  },
  {
   "property": "C13",
   "status": "proved",
   "theorems": [
    "DevIL.States.C13_hints"
   ],
   "note": ""
  },
  {
   "property": "C14",
   "status": "partial",
   "theorems": [
    "DevIL.Image.C14_geometry_partial",
    "DevIL.Image.C14_violated",
    "DevIL.Image.C14_unknown_type_refused"
   ],
   "note": "Proved in part. C14_geometry_partial: Missing: sizes from 2^32 on (`C14_violated`). False of the code, with a witness: C14_violated: The full claim C14 is false: `ilTexImage(65536, 65536, 1, 1, IL_LUMINANCE, IL_UNSIGNED_BYTE, NULL)` succeeds and the image reports those dimensions with a data size of 0 bytes."
  },
  {
   "property": "C15",
   "status": "partial",
   "theorems": [
    "DevIL.ConvImage.C15_partial",
    "DevIL.ConvImage.C15_violated_remove",
    "DevIL.ConvImage.C15_violated_resize"
   ],
   "note": "Proved in part. C15_partial: Missing: the calls that `Allowed` excludes; for adding and removing alpha on several slices and for resizing to another number of components it is false (`C15_violated_*`). False of the code, with a witness: C15_violated_remove: C15 fails when alpha is removed from an image of several slices: the reported size is that of both slices, the data that of one. C15_violated_resize: C15 fails when the number of components is changed by resizing: the format is still RGB, so the number of components no longer is that of the format."
  },
  {
   "property": "C16",
   "status": "proved",
   "theorems": [
    "DevIL.Manip.C16_flip",
    "DevIL.Manip.C16_flip_twice",
    "DevIL.Manip.C16_flipped_copy"
   ],
   "note": ""
  },
  {
   "property": "C17",
   "status": "proved",
   "theorems": [
    "DevIL.Manip.C17_mirror",
    "DevIL.Manip.C17_mirror_twice"
   ],
   "note": ""
  },
  {
   "property": "C18",
   "status": "partial",
   "theorems": [
    "DevIL.Manip.C18_copyPixels_partial",
    "DevIL.Manip.C18_violated_offset",
    "DevIL.Manip.C18_violated_slab",
    "DevIL.Manip.C18_violated_line"
   ],
   "note": "Proved in part. C18_copyPixels_partial: Missing, because false (`C18_violated_offset`, `C18_violated_slab`, `C18_violated_line`): offsets beyond the image, several slices clipped in x or y, and single top rows of other slices. False of the code, with a witness: C18_violated_offset: The claim fails for an offset beyond the image: a 1x2 block at column 5 of the 4x3 image is written past the end of a caller's buffer of exactly the reported size, and with room there it is read past the end of the image. C18_violated_slab: The claim fails for two slices clipped in `x`: the second slice is delivered at the wrong place (position 2 of a block whose second slice starts at 4). C18_violated_line: The claim fails for the top row of the second slice: the top row of the first slice is delivered."
  },
  {
   "property": "C19",
   "status": "partial",
   "theorems": [
    "DevIL.Manip.C19_setPixels_partial",
    "DevIL.Manip.C19_violated_wide",
    "DevIL.Manip.C19_violated_row",
    "DevIL.Manip.C19_violated_origin",
    "DevIL.Manip.C19_read_back_partial"
   ],
   "note": "Proved in part. C19_setPixels_partial: Missing, because false (`C19_violated_*`): a block that overhangs the left, top or front side (`AxisOk`) while larger than the image, blocks ending at image row 0 or 1 (slice 0 or 1) that do not start there, and an enabled origin mode different from the image's. False of the code, with a witness: C19_violated_wide: A block overhanging on the left and wider than the image: image column 3 is covered by the block (its column 4) and is not written. C19_violated_row: A block of two rows at row -1: row 0 of the image is covered by the block's second row and gets its first one. A block of three rows at row -3 lies wholly outside and yet row 0 is overwritten. C19_violated_origin: With an enabled origin mode other than the image's, writing one pixel turns the whole image upside down and does not change its origin flag."
  },
  {
   "property": "C20",
   "status": "proved",
   "theorems": [
    "DevIL.Channels.C20_swap",
    "DevIL.Channels.C20_back",
    "DevIL.Channels.C20_refused"
   ],
   "note": ""
  },
  {
   "property": "C21",
   "status": "partial",
   "theorems": [
    "DevIL.ConvImage.C21_image_partial",
    "DevIL.Conv.C21_channels_partial",
    "DevIL.Conv.C21_violated_half",
    "DevIL.Conv.C21_violated_signed"
   ],
   "note": "Proved in part. C21_image_partial: Missing: the opaque alpha for signed and half-float components, where it is false (`C21_violated_*`). C21_channels_partial: Missing (and false, see below): opacity for `IL_HALF` and the signed types. The bound excludes buffers for which the byte count of the result, times three, does not fit 32 bits (see `C22_violated_large`). False of the code, with a witness: C21_violated_half: C21 fails for half-floats: the alpha added to an `IL_HALF` pixel is 0xFFFF, a NaN, not 1.0. C21_violated_signed: C21 fails for signed components: the alpha added to an `IL_SHORT` pixel is 0xFFFF, i.e. -1, not the largest value."
  },
  {
   "property": "C22",
   "status": "partial",
   "theorems": [
    "DevIL.Conv.C22_in_bounds_partial",
    "DevIL.Conv.C22_violated_rgb_alpha",
    "DevIL.Conv.C22_violated_la_alpha",
    "DevIL.Conv.C22_violated_large"
   ],
   "note": "Proved in part. C22_in_bounds_partial: Missing (and false, see below): RGB to alpha, luminance-alpha to alpha, and buffers so large that the byte count computed for the allocation wraps. Formats the library does not know are refused, so `f` and `g` range over all numbers; colour-indexed sources are not modelled here (C30). False of the code, with a witness: C22_violated_rgb_alpha: C22 fails for RGB to alpha: the block is allocated for the alpha image and cleared for the length of the RGB image, so every such conversion writes past its end (il_convbuff.cpp:415-417). C22_violated_la_alpha: C22 fails for luminance-alpha to alpha: pixel `i` reads component `2*i + 3`, which for the last pixel is past the end of the source (il_convbuff.cpp:1746-1747). C22_violated_large: C22 fails for large images: for 357913942 RGB pixels (1 GB, whose RGBA size still fits 32 bits) the byte count `NumPix * BpcDest * 4 / 3` wraps to 2 and the first pixel is written past the end of the block (il_convbuff.cpp:190)."
  },
  {
   "property": "C23",
   "status": "partial",
   "theorems": [
    "DevIL.Conv.C23_weights_partial",
    "DevIL.Conv.C23_order_partial",
    "DevIL.Conv.C23_defined",
    "DevIL.Conv.C23_violated_rounding",
    "DevIL.Conv.C23_violated_la",
    "DevIL.Conv.C23_violated_uint",
    "DevIL.Conv.C23_violated_grey"
   ],
   "note": "False of the code, with a witness: C23_violated_rounding: C23 fails exactly by rounding: the floats are summed in storage order, so the colour (4, 136, 234) has luminance 115 stored as RGB and 114 stored as BGR. C23_violated_la: C23 fails for luminance-alpha: BGR and BGRA pixels are weighted as if they were RGB (il_convbuff.cpp:1007, 1311), so pure red gets the luminance of blue. C23_violated_uint: C23 is undefined for 32-bit white: the float sum of a white `IL_UNSIGNED_INT` RGB pixel is 2^32, which does not fit `ILuint` (il_convbuff.cpp:325-327). C23_violated_grey: C23: grey is not kept exactly: the 8-bit grey 35 becomes 34."
  },
  {
   "property": "C24",
   "status": "partial",
   "theorems": [
    "DevIL.Conv.C24_lossless",
    "DevIL.Conv.C24_end_points_partial",
    "DevIL.Conv.C24_order_partial",
    "DevIL.Conv.C24_violated_signed_full_scale",
    "DevIL.Conv.C24_violated_mixed_order"
   ],
   "note": "Proved in part. C24_end_points_partial: Missing (and false): full scale of the signed types. C24_order_partial: Missing (and false): signed to unsigned and back. False of the code, with a witness: C24_violated_signed_full_scale: C24 fails at the full scale of signed types: the largest signed byte, 127, becomes 0x7F7F = 32639, not 32767. C24_violated_mixed_order: C24 fails for the order between unsigned and signed types: 100 < 200 as unsigned bytes, but 200 becomes a negative short."
  },
  {
   "property": "C25",
   "status": "partial",
   "theorems": [
    "DevIL.Conv.C25_initialised_partial",
    "DevIL.Conv.C25_violated_sign_pairs"
   ],
   "note": "Proved in part. C25_initialised_partial: Missing (and false): types that differ only in signedness. False of the code, with a witness: C25_violated_sign_pairs: C25 fails for every pair of types that differ only in signedness: the result is what the fresh block held, so nothing of the input survives."
  },
  {
   "property": "C26",
   "status": "partial",
   "theorems": [
    "DevIL.Channels.C26_add_partial",
    "DevIL.Channels.C26_remove_partial",
    "DevIL.Channels.C26_roundtrip_partial",
    "DevIL.Channels.C26_violated_wide",
    "DevIL.Channels.C26_violated_depth",
    "DevIL.Channels.C26_violated_signed"
   ],
   "note": "Proved in part. C26_add_partial: Missing (and false): images of several slices; opaque alpha for signed types; half. C26_remove_partial: Missing (and false): components of more than one byte; images of several slices. C26_roundtrip_partial: Missing (and false): larger components; several slices. False of the code, with a witness: C26_violated_wide: C26 fails for components of more than one byte: `ilRemoveAlpha` takes the size in bytes for a number of components and reads past the image. C26_violated_depth: C26 fails for images of several slices: `ilAddAlpha` converts one slice only, but declares the size of all of them: the image is larger than its buffer. C26_violated_signed: C26 fails for signed types: the alpha added to signed bytes is 255, that is, -1."
  },
  {
   "property": "C27",
   "status": "partial",
   "theorems": [
    "DevIL.ConvImage.C27_set_partial",
    "DevIL.ConvImage.C27_violated_uint",
    "DevIL.ConvImage.C27_violated_half"
   ],
   "note": "Proved in part. C27_set_partial: Missing: the value of the alpha for signed components, 32-bit integer and half-float components, where it is false (`C27_violated_*`). False of the code, with a witness: C27_violated_uint: C27 fails for 32-bit integers: the scaled alpha is converted to an `ILushort`, which is undefined for 0.5. C27_violated_half: C27 fails for half floats: the call succeeds and changes nothing, whatever the alpha."
  },
  {
   "property": "C28",
   "status": "partial",
   "theorems": [
    "DevIL.Half.C28_roundtrip_partial",
    "DevIL.Half.C28_violated_negative_zero"
   ],
   "note": "Proved in part. C28_roundtrip_partial: Missing (and false): negative zero. False of the code, with a witness: C28_violated_negative_zero: C28 fails for negative zero: it comes back as positive zero, because the branch for tiny floats returns 0 without the sign (il_manip.cpp:60)."
  },
  {
   "property": "C29",
   "status": "partial",
   "theorems": [
    "DevIL.Palette.C29_convert_partial",
    "DevIL.Palette.C29_violated_ragged",
    "DevIL.Palette.C29_violated_large"
   ],
   "note": "Proved in part. C29_convert_partial: Missing (and false): palettes of more than 2^24/12 entries, and sizes that are no multiple of the entry size. False of the code, with a witness: C29_violated_ragged: C29 fails for a size that is no multiple of the entry size: the last, incomplete entry is read past its end. C29_violated_large: C29 fails for large palettes: three quarters of the size are computed in single precision; for 5592407 entries the result is one byte short and the conversion writes past its block."
  },
  {
   "property": "C30",
   "status": "partial",
   "theorems": [
    "DevIL.Palette.C30_colours_partial",
    "DevIL.Palette.C30_violated_outside"
   ],
   "note": "Proved in part. C30_colours_partial: Missing (and false): indices outside the palette (`C30_violated_outside`), images of 2^30 or more pixels, palettes of more than 2^24/12 entries, index images of more than one byte per component; see C76 for the grey formats. False of the code, with a witness: C30_violated_outside: C30 fails for an index outside the palette: the palette is read past its end."
  },
  {
   "property": "C31",
   "status": "partial",
   "theorems": [
    "DevIL.Palette.C31_grey_partial",
    "DevIL.Palette.C31_violated_wide"
   ],
   "note": "Proved in part. C31_grey_partial: Missing (and false): luminance of more than one byte per component (`C31_violated_wide`). False of the code, with a witness: C31_violated_wide: C31 fails for 16-bit luminance: the bytes of the components become indices of their own, so the reported size is half of the data, and the pixel at the right is the high byte of the left one."
  },
  {
   "property": "C32",
   "status": "partial",
   "theorems": [
    "DevIL.Lump.C32_in_bounds_partial",
    "DevIL.Lump.C32_violated_negative_seek",
    "DevIL.Lump.C32_violated_empty"
   ],
   "note": "Proved in part. C32_in_bounds_partial: Missing: absolute seeks to a negative offset, `INT_MIN` from the end, and the empty lump (see the violations). False of the code, with a witness: C32_violated_negative_seek: C32 fails: seeking to a negative absolute offset is accepted, and the next read leaves the lump. C32_violated_empty: C32 fails: an empty lump is not checked at all."
  },
  {
   "property": "C33",
   "status": "partial",
   "theorems": [
    "DevIL.Lump.C33_like_a_file_partial",
    "DevIL.Lump.C33_violated_getc_at_end",
    "DevIL.Lump.C33_violated_negative_seek"
   ],
   "note": "Proved in part. C33_like_a_file_partial: Missing: single-byte reads at the end and absolute seeks before the start (see the violations). False of the code, with a witness: C33_violated_getc_at_end: C33 fails: a single-byte read at the end of the lump moves the position back, so that the last byte is delivered again. C33_violated_negative_seek: C33 fails: an absolute seek before the start succeeds."
  },
  {
   "property": "C34",
   "status": "partial",
   "theorems": [
    "DevIL.Lump.C34_in_bounds_partial",
    "DevIL.Lump.C34_violated_zero_size"
   ],
   "note": "Proved in part. C34_in_bounds_partial: Missing: `Size = 0`, which the code takes to mean \"unbounded\" (see the violation). False of the code, with a witness: C34_violated_zero_size: C34 fails: a caller that passes a buffer with `Size = 0` gets an unbounded write."
  },
  {
   "property": "C35",
   "status": "partial",
   "theorems": [
    "DevIL.Lump.C35_dry_run_partial",
    "DevIL.Lump.C35_violated_seek",
    "DevIL.Lump.C35_dry_run_plain",
    "DevIL.Raw.C35_raw",
    "DevIL.Targa.C35_violated_targa"
   ],
   "note": "Proved in part. C35_dry_run_partial: Missing: seeks beyond what has been written (see the violation), files of 4 GiB or more, and TGA, for which `ilDetermineSize` does not use the dry run at all (see `C35_violated_targa`). False of the code, with a witness: C35_violated_seek: C35 fails: a seek beyond the end counts in the dry run although nothing is written there. C35_violated_targa: C35 is violated for Targa. The size reported for an uncompressed Targa file is one byte less than the file."
  },
  {
   "property": "C36",
   "status": "partial",
   "theorems": [
    "DevIL.Endian.C36_saved_bytes",
    "DevIL.Endian.C36_round_trip",
    "DevIL.Endian.C36_swap_partial",
    "DevIL.Endian.C36_violated_double",
    "DevIL.Endian.C36_violated_double_always"
   ],
   "note": "Proved in part. C36_swap_partial: Missing: the 64-bit swap, which loses half of its argument (see the violation). False of the code, with a witness: C36_violated_double: C36 fails for doubles: the swap neither reverses the bytes nor undoes itself; it overwrites one half with the mirror image of the other. C36_violated_double_always: Whatever the double, its first four bytes are lost."
  },
  {
   "property": "C37",
   "status": "partial",
   "theorems": [
    "DevIL.Bits.C37_bits_in_order_partial",
    "DevIL.Bits.C37_grouping",
    "DevIL.Bits.C37_violated_after_end",
    "DevIL.Bits.C37_violated_value",
    "DevIL.Bits.C37_violated_seek"
   ],
   "note": "Proved in part. C37_bits_in_order_partial: Missing: reads after the end of the file, `breadVal` and seeks (see the violations). False of the code, with a witness: C37_violated_after_end: C37 fails after the end of the file: a read that comes back empty-handed rewinds the current byte, and the next read delivers its bits a second time. C37_violated_value: C37 fails for `breadVal`: it returns the number of bits instead of their value (here the bits are 1010). C37_violated_seek: C37 fails after a seek: seeking to bit 0 and reading delivers bit 0 of the byte read before (the stale 0x01), and then the first bit of the file; the first two bits of the file are 1 and 0."
  },
  {
   "property": "C38",
   "status": "proved",
   "theorems": [
    "DevIL.Raw.C38_round_trip"
   ],
   "note": ""
  },
  {
   "property": "C39",
   "status": "partial",
   "theorems": [
    "DevIL.Targa.C39_round_trip_partial",
    "DevIL.Targa.C39_violated_upper_left",
    "DevIL.Targa.C39_palette_partial"
   ],
   "note": "Proved in part. C39_round_trip_partial: Missing: images with the origin in the upper left corner (see below), run-length encoding (see C41), palettes. C39_palette_partial: Missing: the upper left origin, run-length encoding, and the other palette layouts, which the saver converts (see C28). False of the code, with a witness: C39_violated_upper_left: C39 is violated for the upper left origin. Every such image comes back upside down: the rows are written in reverse order *and* the file says that the first row is the top one."
  },
  {
   "property": "C40",
   "status": "partial",
   "theorems": [
    "DevIL.Targa.C40_safe_partial",
    "DevIL.Targa.C40_violated_large"
   ],
   "note": "Proved in part. C40_safe_partial: Missing, and false: images of more than 2^32 - 512 bytes, see `C40_violated_large`. False of the code, with a witness: C40_violated_large: C40 is violated for images that almost fill 32 bits. A 42966x49981 image of two bytes per pixel and a stream of 50 MB: the sum of the position and the length of the last packet wraps to 0, passes the check, and the packet is written past the end."
  },
  {
   "property": "C41",
   "status": "partial",
   "theorems": [
    "DevIL.Rle.C41_line_partial",
    "DevIL.Rle.C41_violated_read",
    "DevIL.Rle.C41_violated_length",
    "DevIL.Rle.C41_violated_content",
    "DevIL.Targa.C41_round_trip_partial"
   ],
   "note": "Proved in part. C41_line_partial: Missing: lines with equal neighbours, for which the encoder is wrong, see below. False of the code, with a witness: C41_violated_read: C41 is violated for lines with runs (1). Two equal one-byte pixels: the encoder reads past the end of the line. C41_violated_length: C41 is violated for lines with runs (2). With more bytes behind the line, one more byte is written than reported. C41_violated_content: C41 is violated for lines with runs (3). The line 5 5 7 8, followed by 9: the last packet holds 9, not 8, and the first two bytes are followed by one that is not a header."
  },
  {
   "property": "C42",
   "status": "partial",
   "theorems": [
    "DevIL.Pcx.C42_round_trip_partial",
    "DevIL.Pcx.C42_palette_partial",
    "DevIL.Pcx.C42_violated_wide",
    "DevIL.Pcx.C42_violated_palette",
    "DevIL.Pcx.C42_violated_two_components"
   ],
   "note": "Proved in part. C42_round_trip_partial: Missing: formats that are converted before saving, and (false, see below) 65535 columns and two-component images. C42_palette_partial: Missing: palettes that are converted, and (false, see below) palettes of more than 768 bytes. False of the code, with a witness: C42_violated_wide: C42 is violated for 65535 columns. The file the library writes for such an image is refused when it is loaded: the padded row length 65536 does not fit the 16-bit field. C42_violated_palette: C42 is violated for palettes of four-byte entries. A colour-indexed image with 256 palette entries of red, green, blue and alpha is saved as a file of more than 4294967040 bytes: the padding is counted from the size of the unconverted palette. C42_violated_two_components: C42 is violated for two components. An image of grey and alpha is saved, but the file is refused when it is loaded."
  },
  {
   "property": "C43",
   "status": "partial",
   "theorems": [
    "DevIL.Pcx.C43_safe_partial",
    "DevIL.Pcx.C43_violated_empty",
    "DevIL.Pcx.C43_violated_planes",
    "DevIL.Pcx.C43_violated_wrap"
   ],
   "note": "Proved in part. C43_safe_partial: Missing, and false: other headers, see below. False of the code, with a witness: C43_violated_empty: A header whose last column precedes its first by one announces no columns and no bytes per row. The image gets one column all the same, and is filled from an empty scan line. C43_violated_planes: Four planes of one bit with rows of one byte for an image of nine columns: the ninth column is taken from outside the scan line. C43_violated_wrap: A header whose last row and column precede its first by two announces 4294967295 rows and columns; the size of the block wraps to one byte, and the second pixel is stored outside it."
  },
  {
   "property": "C44",
   "status": "partial",
   "theorems": [
    "DevIL.Sgi.C44_round_trip_partial",
    "DevIL.Sgi.C44_converted_partial",
    "DevIL.Sgi.C44_violated_signed",
    "DevIL.Sgi.C44_violated_slices",
    "DevIL.Sgi.C44_violated_wide",
    "DevIL.Sgi.C44_violated_name",
    "DevIL.Sgi.C44_violated_long_name"
   ],
   "note": "Proved in part. C44_round_trip_partial: Missing, and false: see the violations below. False of the code, with a witness: C44_violated_signed: An image of signed bytes is saved with a header that is one byte too short, and cannot be loaded again. C44_violated_slices: Of an image of two slices, the loaded image has the wrong components: 1, 4, 2 in place of 1, 2, 3. C44_violated_wide: Saving an image whose width is a multiple of 65536 succeeds; the bytes are refused by the loader. C44_violated_name: After the library has tested whether the file `a.sgi` is an SGI file, saving reads behind the end of that name. C44_violated_long_name: After it has tested a file whose name has 81 characters, saving writes more than four thousand million bytes."
  },
  {
   "property": "C45",
   "status": "partial",
   "theorems": [
    "DevIL.Sgi.C45_line_partial",
    "DevIL.Sgi.C45_violated",
    "DevIL.Sgi.C45_wellformed_partial"
   ],
   "note": "Proved in part. C45_line_partial: Missing, and false: that nothing is written behind the end of the line, see `C45_violated`. False of the code, with a witness: C45_violated: A count is not compared with the room that is left: a line of one pixel whose data say \"two pixels\" is written outside a block that holds just the line."
  },
  {
   "property": "C46",
   "status": "partial",
   "theorems": [
    "DevIL.Bmp.C46_bgr_partial",
    "DevIL.Bmp.C46_palette_partial",
    "DevIL.Bmp.C46_converted_partial",
    "DevIL.Bmp.C46_layout",
    "DevIL.Bmp.C46_violated_alpha",
    "DevIL.Bmp.C46_violated_slices",
    "DevIL.Bmp.C46_violated_no_palette"
   ],
   "note": "Round trip for BGR and colour-indexed images with any palette layout, for converted images, and the padded layout of the file. Violations: BGRA loses alpha, volumes lose slices, indexed images without a palette cannot be loaded again."
  },
  {
   "property": "C47",
   "status": "partial",
   "theorems": [
    "DevIL.Bmp.C47_safe_partial",
    "DevIL.Bmp.C47_violated_offset",
    "DevIL.Bmp.C47_violated_colours"
   ],
   "note": "Safe for every run-length encoded bitmap whose header keeps the data offset non-negative, the height representable and the colour count small. Other headers are violations: reads in front of the file, integer overflow."
  },
  {
   "property": "C48",
   "status": "proved",
   "theorems": [
    "DevIL.Wbmp.C48_numbers",
    "DevIL.Wbmp.C48_round_trip"
   ],
   "note": ""
  },
  {
   "property": "C49",
   "status": "partial",
   "theorems": [
    "DevIL.Ilu.C49_negative_partial",
    "DevIL.Ilu.C49_twice_partial",
    "DevIL.Ilu.C49_palette",
    "DevIL.Ilu.C49_region_partial",
    "DevIL.Ilu.C49_violated_double",
    "DevIL.Ilu.C49_violated_float",
    "DevIL.Ilu.C49_violated_region_palette"
   ],
   "note": "Proved in part. C49_negative_partial: Missing, because false: components of eight bytes; and the complement of a `float` is not its negative (`C49_violated_double`, `C49_violated_float`). False of the code, with a witness: C49_violated_double: The negative of an image of `double` components is reported as done, but is the image itself. C49_violated_float: The negative of the `float` 1.0 (bytes 0, 0, 128, 63) has the bytes 255, 255, 127, 192, which is -3.9999998. C49_violated_region_palette: With a region and a palette of two colours, the region's mask of one pixel is read outside its bounds."
  },
  {
   "property": "C50",
   "status": "partial",
   "theorems": [
    "DevIL.Ilu.C50_alpha_partial",
    "DevIL.Ilu.C50_violated_last",
    "DevIL.Ilu.C50_violated_half"
   ],
   "note": "Proved in part. C50_alpha_partial: Missing, because false: the last pixels of the image. False of the code, with a witness: C50_violated_last: In an image of one RGBA pixel no alpha is inverted. C50_violated_half: Alpha of type `IL_HALF` is never inverted, though success is reported."
  },
  {
   "property": "C51",
   "status": "partial",
   "theorems": [
    "DevIL.Ilu.C51_crop_partial",
    "DevIL.Ilu.C51_violated_outside",
    "DevIL.Ilu.C51_violated_wide",
    "DevIL.Ilu.C51_violated_slices",
    "DevIL.Ilu.C51_violated_index",
    "DevIL.Ilu.C51_violated_origin",
    "DevIL.Ilu.C51_violated_depth"
   ],
   "note": "Proved in part. C51_crop_partial: Missing, because false: rectangles that reach outside, larger components, several slices, palettes, and an origin mode other than the image's origin. False of the code, with a witness: C51_violated_outside: A rectangle of the image's size placed one row down is accepted, and read from outside the image. C51_violated_wide: Cropping the second of two 16-bit pixels gives a pixel made of the halves of both. C51_violated_slices: Cropping an image of two slices leaves the second slice uninitialised: it is whatever the new block held. C51_violated_index: Cropping a colour-indexed image gives uninitialised pixels. C51_violated_origin: With the origin mode set to the opposite of the image's origin, the top row is asked for and the bottom row is given. C51_violated_depth: Cropping slices 2 and 3 of four gives no such image: the depth asked for is reduced by the offset."
  },
  {
   "property": "C52",
   "status": "partial",
   "theorems": [
    "DevIL.Ilu.C52_compare_partial",
    "DevIL.Ilu.C52_missing_partial",
    "DevIL.Ilu.C52_violated_palette"
   ],
   "note": "Proved in part. C52_compare_partial: Missing, because false: the palettes are not compared. False of the code, with a witness: C52_violated_palette: A black and a white image, each one pixel with colour 0 of its palette, compare as the same."
  },
  {
   "property": "C53",
   "status": "partial",
   "theorems": [
    "DevIL.Ilu.C53_count_partial",
    "DevIL.Ilu.C53_small_or_large_partial",
    "DevIL.Ilu.C53_violated_nine",
    "DevIL.Ilu.C53_violated_two_components",
    "DevIL.Ilu.C53_violated_wide"
   ],
   "note": "Proved in part. C53_count_partial: Missing, because false: the other images. False of the code, with a witness: C53_violated_nine: Nine different grey pixels make `iluColoursUsed` write behind its array of nine blocks. C53_violated_two_components: The last pixel of an image of luminance and alpha is read beyond its end. C53_violated_wide: A single pixel of 16-bit luminance 258 counts as two colours."
  },
  {
   "property": "C54",
   "status": "partial",
   "theorems": [
    "DevIL.Ilu.C54_chain",
    "DevIL.Ilu.C54_failing",
    "DevIL.Ilu.C54_violated_failing"
   ],
   "note": "False of the code, with a witness: C54_violated_failing: When the scaling of a later level fails, success is reported for a chain that does not reach 1 by 1 by 1."
  },
  {
   "property": "C55",
   "status": "partial",
   "theorems": [
    "DevIL.Register.C55_history_partial",
    "DevIL.Register.C55_register_partial",
    "DevIL.Register.C55_at_most_two_partial",
    "DevIL.Register.C55_violated_remove",
    "DevIL.Register.C55_violated_again"
   ],
   "note": "Proved in part. C55_history_partial: Missing, because false: registering again. False of the code, with a witness: C55_violated_remove: Registered twice, the first handler of all gets a second entry: after it is removed, the second handler is called. C55_violated_again: The handler registered last is not the one called, although registering it reported success."
  },
  {
   "property": "C56",
   "status": "proved",
   "theorems": [
    "DevIL.Register.C56_only_extension",
    "DevIL.Register.C56_no_period",
    "DevIL.Register.C56_known",
    "DevIL.Register.C56_check",
    "DevIL.Register.C56_check_no_period"
   ],
   "note": ""
  },
  {
   "property": "C57",
   "status": "proved",
   "theorems": [
    "DevIL.Utility.C57_bpp_of_format",
    "DevIL.Utility.C57_bpc_of_type",
    "DevIL.Utility.C57_bpp_of_palette",
    "DevIL.Utility.C57_format_of_bpp",
    "DevIL.Utility.C57_type_of_bpc",
    "DevIL.Utility.C57_palette_base"
   ],
   "note": ""
  },
  {
   "property": "C58",
   "status": "partial",
   "theorems": [
    "DevIL.Utility.C58_next_power2_partial",
    "DevIL.Utility.C58_next_power2_hangs",
    "DevIL.Utility.C58_next_power2_violated"
   ],
   "note": "False of the code, with a witness: C58_next_power2_violated: The full C58 is false."
  },
  {
   "property": "C59",
   "status": "proved",
   "theorems": [
    "DevIL.Manip.C59_clamp",
    "DevIL.Manip.C59_idempotent",
    "DevIL.Manip.C59_refused"
   ],
   "note": ""
  },
  {
   "property": "C60",
   "status": "partial",
   "theorems": [
    "DevIL.Clear.C60_clear_partial",
    "DevIL.Clear.C60_violated_luminance",
    "DevIL.Clear.C60_violated_luminance_alpha",
    "DevIL.Clear.C60_violated_index",
    "DevIL.Clear.C60_violated_half"
   ],
   "note": "Proved in part. C60_clear_partial: Missing, because false (`C60_violated_*`): luminance, byte and float luminance-alpha, colour index, half. False of the code, with a witness: C60_violated_luminance: A luminance image is filled with the clear colour's alpha instead of its luminance. C60_violated_luminance_alpha: A 1x1 luminance-alpha image, byte components: the luminance component also gets the alpha. C60_violated_index: Clearing a colour-indexed image installs a palette entry made of uninitialised memory, not the clear colour. C60_violated_half: Clearing an image of half-float components does nothing."
  },
  {
   "property": "C61",
   "status": "partial",
   "theorems": [
    "DevIL.Blit.C61_blit_partial",
    "DevIL.Blit.C61_overlay_partial",
    "DevIL.Blit.C61_violated_negative",
    "DevIL.Blit.C61_violated_before",
    "DevIL.Blit.C61_violated_beyond",
    "DevIL.Blit.C61_violated_source",
    "DevIL.Blit.C61_violated_wide",
    "DevIL.Blit.C61_violated_failure"
   ],
   "note": "Proved in part. C61_blit_partial: Missing, because false: negative positions, positions beyond the destination, rectangles reaching out of the source, and larger components. False of the code, with a witness: C61_violated_negative: An image laid one pixel to the left of the second row changes the last pixel of the row above it. C61_violated_before: Laid one pixel to the left of the first row, it is written outside the destination. C61_violated_beyond: An image laid beyond the right edge is written outside the destination, though none of it is visible. C61_violated_source: A rectangle that reaches out of the source is read outside it. C61_violated_wide: With 16-bit components, an overlay of the whole source copies half of its bytes. C61_violated_failure: When the source cannot be converted, the destination is left upside down and the source is left bound."
  },
  {
   "property": "C62",
   "status": "proved",
   "theorems": [
    "DevIL.Utility.C62_isqrt_safe",
    "DevIL.Utility.C62_isqrt_exact_below_289"
   ],
   "note": ""
  },
  {
   "property": "C63",
   "status": "proved",
   "theorems": [
    "DevIL.Utility.C63_memswap"
   ],
   "note": ""
  },
  {
   "property": "C64",
   "status": "partial",
   "theorems": [
    "DevIL.States.C64_image_queries",
    "DevIL.States.C64_palette_base_type_violated",
    "DevIL.States.C64_palette_size_violated"
   ],
   "note": "False of the code, with a witness: C64_palette_base_type_violated: `IL_PALETTE_BASE_TYPE` is wrong for every palette type but the two BGRA-like ones: the `switch` at il_states.cpp:653-667 has no `break`s, so e.g. an RGB palette reports `IL_BGRA`. C64_palette_size_violated: `ilGetInteger(IL_PALETTE_SIZE)` is not implemented although il.h:422 defines it: it always records `IL_INVALID_ENUM` and returns 0."
  },
  {
   "property": "C65",
   "status": "partial",
   "theorems": [
    "DevIL.Stack.C65_created_next_selectable",
    "DevIL.Stack.C65_created_mipmaps_violated"
   ],
   "note": "False of the code, with a witness: C65_created_mipmaps_violated: C65 (mipmaps and layers, violated). After any history, `ilCreateSubImage(IL_SUB_MIPMAP, num)` also returns `num > 0`, but `ilActiveMipmap(k)` then succeeds only for `k ≤ 1`, however large `num` was: the further images hang off the first mipmap as `Next` images. Likewise for layers."
  },
  {
   "property": "C66",
   "status": "partial",
   "theorems": [
    "DevIL.Stack.C66_shutdown_safe",
    "DevIL.Stack.C66_shutdown_releases_all_partial",
    "DevIL.Stack.C66_stale_bound_image_violated"
   ],
   "note": "Proved in part. C66_shutdown_releases_all_partial: Missing: histories that bind a deleted name, for which the object lost by `ilGenImages` (`C06_leak_violated`) stays allocated. False of the code, with a witness: C66_stale_bound_image_violated: C66 (stale bound image, violated). `ilShutDown` leaves the bound image pointing to the freed object: the next call that works on it, before a new `ilInit`, uses freed memory. (Disciplined histories.)"
  },
  {
   "property": "C67",
   "status": "partial",
   "theorems": [
    "DevIL.StackSize.C67_bind_in_table_partial",
    "DevIL.StackSize.C67_violated"
   ],
   "note": "Proved in part. C67_bind_in_table_partial: Missing: the names from `2^29 - 1024` on (`C67_violated`). False of the code, with a witness: C67_violated: For every name from `2^29 - 1024` up to `2^32 - 2049`, the byte size passed to the allocator has wrapped around and `ilBindImage` reads its table outside the block."
  },
  {
   "property": "C68",
   "status": "partial",
   "theorems": [
    "DevIL.Image.C68_texImage_leaves_usable_partial",
    "DevIL.Image.C68_violated"
   ],
   "note": "Proved in part. C68_texImage_leaves_usable_partial: Missing: unknown component types (`C68_violated`). False of the code, with a witness: C68_violated: Whatever the image and the other arguments, `ilTexImage` with an unknown component type on an image that has data returns false and leaves the data pointer stale; the next `ilTexImage` on it, with any arguments, frees the block a second time."
  },
  {
   "property": "C69",
   "status": "proved",
   "theorems": [
    "DevIL.Conv.C69_grey_and_alpha"
   ],
   "note": ""
  },
  {
   "property": "C70",
   "status": "proved",
   "theorems": [
    "DevIL.Half.C70_nearest",
    "DevIL.Half.C70_overflow",
    "DevIL.Half.C70_nan",
    "DevIL.Half.C70_denormal"
   ],
   "note": ""
  },
  {
   "property": "C71",
   "status": "partial",
   "theorems": [
    "DevIL.Channels.C71_swap_partial",
    "DevIL.Channels.C71_violated_depth"
   ],
   "note": "Proved in part. C71_swap_partial: Missing (and false): images of several slices. False of the code, with a witness: C71_violated_depth: C71 fails for images of several slices: only the first slice is swapped, but the image is declared BGR."
  },
  {
   "property": "C72",
   "status": "partial",
   "theorems": [
    "DevIL.ConvImage.C72_chain_partial",
    "DevIL.ConvImage.C72_violated_fast",
    "DevIL.ConvImage.C72_violated_same",
    "DevIL.ConvImage.C72_violated_failure"
   ],
   "note": "Proved in part. C72_chain_partial: Missing: a current image that already has the requested type, where it is false (`C72_violated_fast`, `C72_violated_same`), and conversions that fail for a later image (`C72_violated_failure`). False of the code, with a witness: C72_violated_fast: C72 fails on the fast path: converting an animation from RGB to BGR converts the current frame only. C72_violated_same: C72 fails when the current frame already has the format: the later frames are not looked at. C72_violated_failure: C72 fails when a later frame cannot be converted: the call reports failure with the first frame converted."
  },
  {
   "property": "C73",
   "status": "partial",
   "theorems": [
    "DevIL.ConvImage.C73_get_partial",
    "DevIL.ConvImage.C73_opaque",
    "DevIL.ConvImage.C73_violated_half",
    "DevIL.ConvImage.C73_violated_float"
   ],
   "note": "Proved in part. C73_get_partial: Missing: images without alpha (`C73_opaque`) and half floats, where it is false. False of the code, with a witness: C73_violated_half: C73 fails for half floats: what is returned are the unset contents of the allocated block. C73_violated_float: C73 fails for floats without alpha: all bytes are 0xFF, which is not the float 1.0 (00 00 80 3F) but a NaN."
  },
  {
   "property": "C74",
   "status": "proved",
   "theorems": [
    "DevIL.Lump.C74_memory_is_file_prefix"
   ],
   "note": ""
  },
  {
   "property": "C75",
   "status": "proved",
   "theorems": [
    "DevIL.Raw.C75_raw_safe"
   ],
   "note": ""
  },
  {
   "property": "C76",
   "status": "partial",
   "theorems": [
    "DevIL.Palette.C76_grey_partial",
    "DevIL.Palette.C76_alpha_partial",
    "DevIL.Palette.C76_violated_32",
    "DevIL.Palette.C76_violated_alpha",
    "DevIL.Palette.C76_violated_slices"
   ],
   "note": "Proved in part. C76_grey_partial: Missing (and false): 32-bit palettes (`C76_violated_32`) and several slices (`C76_violated_slices`). C76_alpha_partial: Missing (and false): palettes with alpha (`C76_violated_alpha`). False of the code, with a witness: C76_violated_32: C76 fails for every 32-bit palette: the table of three luminance factors is read at index 3. C76_violated_alpha: C76 fails for palettes with alpha: the alpha table holds one byte per entry but is read at twice the index. C76_violated_slices: C76 fails for images of several slices: room is made for one slice only."
  },
  {
   "property": "C77",
   "status": "partial",
   "theorems": [
    "DevIL.Targa.C77_safe_partial",
    "DevIL.Targa.C77_violated_16bit"
   ],
   "note": "Proved in part. C77_safe_partial: Missing, and false: larger dimensions, see `C77_violated_16bit`. False of the code, with a witness: C77_violated_16bit: C77 is violated for large dimensions. Loading this 22-byte file reads past the end of the pixel block: the number of bytes of the image wraps around to 4, but all 2147483650 pixels are converted."
  },
  {
   "property": "C78",
   "status": "proved",
   "theorems": [
    "DevIL.Targa.C78_decodes"
   ],
   "note": ""
  },
  {
   "property": "C79",
   "status": "partial",
   "theorems": [
    "DevIL.Targa.C79_violated_truncated",
    "DevIL.Targa.C79_violated_rle"
   ],
   "note": "False of the code, with a witness: C79_violated_truncated: C79 is violated (1). A Targa file that ends after its header is reported as loaded; the pixels of the image are whatever the memory held. C79_violated_rle: C79 is violated (2). A run-length Targa file that ends in the middle of its data is reported as loaded; after the end, the last byte is read again and again."
  },
  {
   "property": "C80",
   "status": "partial",
   "theorems": [
    "DevIL.Wbmp.C80_safe_partial",
    "DevIL.Wbmp.C80_violated_large"
   ],
   "note": "Proved in part. C80_safe_partial: Missing (and false): larger dimensions. False of the code, with a witness: C80_violated_large: C80 is violated for large dimensions. Loading this file of nine bytes writes past the end of the pixel block."
  },
  {
   "property": "C81",
   "status": "partial",
   "theorems": [
    "DevIL.Wbmp.C81_violated_no_handle"
   ],
   "note": "False of the code, with a witness: C81_violated_no_handle: C81 is violated. As long as the library has not read from a file, no WBMP image can be loaded from memory: every byte string is refused. (A file with the same contents is loaded, see C48.)"
  },
  {
   "property": "C82",
   "status": "partial",
   "theorems": [
    "DevIL.Wbmp.C82_violated_truncated"
   ],
   "note": "False of the code, with a witness: C82_violated_truncated: C82 is violated. A WBMP file that ends after its header is reported as loaded; its pixels are whatever the memory held."
  },
  {
   "property": "C83",
   "status": "partial",
   "theorems": [
    "DevIL.Pcx.C83_violated_pcx"
   ],
   "note": "False of the code, with a witness: C83_violated_pcx: Two loads of the same one-pixel file of version 0 both succeed, with different palettes: the palette of the current image is left as it was allocated."
  },
  {
   "property": "C84",
   "status": "partial",
   "theorems": [
    "DevIL.Register.C84_documented_partial",
    "DevIL.Register.C84_violated"
   ],
   "note": "Proved in part. C84_documented_partial: Missing, because false: `.h`, `.dcx` and `.iff`. False of the code, with a witness: C84_violated: `a.h` and `a.dcx` have no type although `IL_CHEAD` and `IL_DCX` document these extensions, and `a.iff` is not `IL_ILBM`."
  },
  {
   "property": "C85",
   "status": "partial",
   "theorems": [
    "DevIL.Sgi.C85_verbatim_partial",
    "DevIL.Sgi.C85_violated_count",
    "DevIL.Sgi.C85_violated_offset",
    "DevIL.Sgi.C85_violated_planes",
    "DevIL.Sgi.C85_violated_16bit"
   ],
   "note": "Proved in part. C85_verbatim_partial: Missing, and false: run-length encoded bytes, see the violations. False of the code, with a witness: C85_violated_count: A line that holds more than its image is wide is written outside the block. C85_violated_offset: A table entry of `0xffffffff` moves the input in front of its first byte, and reading there is outside the block. C85_violated_planes: Of 16-bit files with three planes the planes 0, 2 and 4 are used: two of them outside the array of planes. (The lines of this file have the count where the loader looks for it.) C85_violated_16bit: A 16-bit file of one pixel gives an image of two slices whose components are one byte wide, and whose type says two bytes."
  },
  {
   "property": "C86",
   "status": "partial",
   "theorems": [
    "DevIL.Sgi.C86_rle_file_partial",
    "DevIL.Sgi.C86_violated_16bit"
   ],
   "note": "Proved in part. C86_rle_file_partial: Missing: files of 16-bit values, see `C86_violated_16bit`. False of the code, with a witness: C86_violated_16bit: The loader looks for the count in the high byte and refuses the file."
  },
  {
   "property": "C87",
   "status": "partial",
   "theorems": [
    "DevIL.Sgi.C87_rle_round_trip_partial",
    "DevIL.Sgi.C87_violated",
    "DevIL.Sgi.C87_violated_conversion"
   ],
   "note": "Proved in part. C87_rle_round_trip_partial: Missing: rows with equal neighbours, for which the claim is false (`C87_violated`), and images that must first be converted (`C87_violated_conversion`). False of the code, with a witness: C87_violated: Saving a grey image of two equal pixels reads behind the end of the row. C87_violated_conversion: If the image must be converted and the conversion fails, saving with run-length encoding dereferences a null pointer instead of reporting the failure."
  },
  {
   "property": "C88",
   "status": "partial",
   "theorems": [
    "DevIL.SaveL.C88_memory_partial",
    "DevIL.SaveL.C88_size_partial",
    "DevIL.SaveL.C88_file_partial",
    "DevIL.SaveL.C88_violated_targa",
    "DevIL.SaveL.C88_violated_targa_first",
    "DevIL.SaveL.C88_violated_sgi_rle"
   ],
   "note": "Proved in part. C88_memory_partial: Missing: savers that seek (`C88_violated_sgi_rle`) and the three other functions (`C88_violated_targa`). False of the code, with a witness: C88_violated_targa: A second save to memory by `ilSaveTargaL`, of the same image to a buffer of any size that holds it, returns 0, which the caller has to take for a failure, although all bytes are in the buffer; the first save can come in any state in which the function has an output to ask. C88_violated_targa_first: As the first save of a program, `ilSaveTargaL` calls a null pointer; after a save to a named file it uses the closed file. C88_violated_sgi_rle: Saving any image as in C87 as run-length encoded SGI returns less than the number of bytes in the file: the lines of pixels are not counted."
  },
  {
   "property": "C89",
   "status": "partial",
   "theorems": [
    "DevIL.Bmp.C89_safe_partial",
    "DevIL.Bmp.C89_violated_offset",
    "DevIL.Bmp.C89_violated_masks",
    "DevIL.Bmp.C89_violated_wrap",
    "DevIL.Bmp.C89_violated_height"
   ],
   "note": "Safe for every file of at least 54 bytes with a Sane header. Violations: negative data offset, masks in front of the file, wrapping size, height without absolute value. Missing: files shorter than the header."
  },
  {
   "property": "C90",
   "status": "partial",
   "theorems": [
    "DevIL.Bmp.C90_pixels_partial",
    "DevIL.Bmp.C90_fields_partial",
    "DevIL.Bmp.C90_violated_palette",
    "DevIL.Bmp.C90_violated_host",
    "DevIL.Bmp.C90_violated_wide",
    "DevIL.Bmp.C90_violated_gap",
    "DevIL.Bmp.C90_violated_short"
   ],
   "note": "Full decoding for all six bit depths and for bit fields with masks of at most eight bits directly in front of the pixels. Violations: small 4-bit palettes, big-endian hosts, wider masks, a gap after the masks, short OS/2 files."
  },
  {
   "property": "C92",
   "status": "partial",
   "theorems": [
    "DevIL.Bmp.C92_in_place_partial",
    "DevIL.Bmp.C92_violated"
   ],
   "note": "Proved for savers that never seek; BMP violates it."
  },
  {
   "property": "C91",
   "status": "partial",
   "theorems": [
    "DevIL.Bmp.C91_decode_partial",
    "DevIL.Bmp.C91_violated_skipped",
    "DevIL.Bmp.C91_violated_palette"
   ],
   "note": "Decoding for every sequence of codes that stays inside the image. Violations: pixels no code sets hold old memory; RLE4 files with fewer than 16 colours do not load."
  },
  {
   "property": "C93",
   "status": "partial",
   "theorems": [
    "DevIL.Bmp.C93_bmp_partial",
    "DevIL.Bmp.C93_rle_partial",
    "DevIL.Bmp.C93_violated_offset",
    "DevIL.Sgi.C93_sgi_partial",
    "DevIL.Sgi.C93_sgi_rle_partial",
    "DevIL.Sgi.C93_violated_sgi_offset"
   ],
   "note": "Proved for uncompressed bitmaps, run-length encoded bitmaps cut within a code, and both kinds of SGI file. Violations: data or line offsets beyond the end of the file are not noticed when loading from memory."
  },
  {
   "property": "C94",
   "status": "partial",
   "theorems": [
    "DevIL.Dxt.C94_dxt3_partial",
    "DevIL.Dxt.C94_dxt5_partial",
    "DevIL.Dxt.C94_dxt1_partial",
    "DevIL.Dxt.C94_violated_green",
    "DevIL.Dxt.C94_violated_blue",
    "DevIL.Dxt.C94_violated_black"
   ],
   "note": "Proved in part. C94_dxt3_partial: Missing: green is not exact (`C94_violated_green`). C94_dxt5_partial: Missing: green is not exact (`C94_violated_green`). C94_dxt1_partial: Missing: green and blue are not exact (`C94_violated_green`, `C94_violated_blue`), and transparent pixels are not black (`C94_violated_black`). False of the code, with a witness: C94_violated_green: C94 is violated: green. A colour whose six bits of green are 32 stands for green 130; DevIL decodes 132, because the bits are repeated at the wrong place (`g << 2 | g >> 3`). C94_violated_blue: C94 is violated: blue. Pure blue in a DXT1 block stands for blue 255; DevIL decodes 248, because the low bits are taken from red. C94_violated_black: C94 is violated: black. A transparent pixel of a DXT1 block stands for black; DevIL stores a mixture of the two colours of the block, here white."
  },
  {
   "property": "C95",
   "status": "partial",
   "theorems": [
    "DevIL.Dxt.C95_flip_partial",
    "DevIL.Dxt.C95_flip_twice",
    "DevIL.Dxt.C95_violated"
   ],
   "note": "Proved in part. C95_flip_partial: Missing: other heights (`C95_violated`). False of the code, with a witness: C95_violated: C95 is violated for heights that are not multiples of four: the rows of a block that are not part of the image are flipped into it. Here the lower pixel of an image of height 2 is black, but after flipping the compressed data the upper pixel is not."
  },
  {
   "property": "C96",
   "status": "proved",
   "theorems": [
    "DevIL.Dxt.C96_invert",
    "DevIL.Dxt.C96_invert_twice"
   ],
   "note": ""
  },
  {
   "property": "C97",
   "status": "partial",
   "theorems": [
    "DevIL.Pnm.C97_binary_partial",
    "DevIL.Pnm.C97_text_partial",
    "DevIL.Pnm.C97_violated_tab",
    "DevIL.Pnm.C97_violated_comment",
    "DevIL.Pnm.C97_violated_newline",
    "DevIL.Pnm.C97_violated_sixteen",
    "DevIL.Pnm.C97_violated_sixteen_text"
   ],
   "note": "Proved in part. C97_binary_partial: Missing (and false, see below): tabs, a comment or an empty line before the largest value, values above 255. C97_text_partial: Missing (and false, see below): values above 255, lines of 180 bytes or more, lines that are blank but not empty, and what holds for binary files. False of the code, with a witness: C97_violated_tab: C97 fails for tabs. `P5`, 1, 1 and 255, separated by tabs, are read as one word and the file is refused. C97_violated_comment: C97 fails for a comment line before the largest value: `P5 1 1`, `# c`, `255`, and a pixel is refused. C97_violated_newline: C97 fails for an empty line before the largest value. C97_violated_sixteen: C97 fails for 16-bit binary files. One grey pixel of two bytes with the largest value 65535 loads as an image that says it has components of two bytes but has one byte in all, the first one. C97_violated_sixteen_text: C97 fails for 16-bit plain files: a grey pixel is refused (four bytes are expected for it), and the current image is left with bytes that were never written."
  },
  {
   "property": "C98",
   "status": "partial",
   "theorems": [
    "DevIL.Pnm.C98_round_trip_partial",
    "DevIL.Pnm.C98_violated_sixteen"
   ],
   "note": "Proved in part. C98_round_trip_partial: Missing: colour-indexed and alpha images, images above some 140 million pixels; for 16-bit components it is false (see below). False of the code, with a witness: C98_violated_sixteen: C98 fails for 16-bit components. A white pixel is written as 255 255 255 of 65535, which is all but black."
  },
  {
   "property": "C99",
   "status": "partial",
   "theorems": [
    "DevIL.Pnm.C99_bitmap_partial",
    "DevIL.Pnm.C99_violated_truncated",
    "DevIL.Pnm.C99_violated_hang",
    "DevIL.Pnm.C99_violated_values",
    "DevIL.Pnm.C99_violated_word",
    "DevIL.Pnm.C99_violated_line",
    "DevIL.Pnm.C99_violated_blank",
    "DevIL.Pnm.C99_violated_number",
    "DevIL.Pnm.C99_violated_repeated",
    "DevIL.Pnm.C99_violated_pam"
   ],
   "note": "Proved in part. C99_bitmap_partial: Missing: the other types, for which it is false (see below). False of the code, with a witness: C99_violated_truncated: C99 fails for every truncated binary file. If fewer bytes follow the header of a binary PGM or PPM file than the pixels need, the loader frees the current image and then uses it. C99_violated_hang: C99 fails: the loader never ends on the four bytes `P6`, line feed, line feed in memory. C99_violated_values: C99 fails: a line with more values than the image has is written past the end of the pixels. C99_violated_word: C99 fails: a word of 180 characters is terminated behind the end of its buffer. C99_violated_line: C99 fails: a line of 180 characters is terminated behind the end of its buffer. C99_violated_blank: C99 fails: in a line with nothing but a space the loader looks for a number behind the end of its buffer. C99_violated_number: C99 fails: a dimension that is no `int` makes `atoi` undefined. C99_violated_repeated: C99 fails: a truncated plain file in memory is reported as loaded. The second of two pixels is missing; the last digit of the first is read again. C99_violated_pam: C99 fails: a truncated PAM file leaves the library with a current image that has been freed."
  },
  {
   "property": "C100",
   "status": "partial",
   "theorems": [
    "DevIL.Pnm.C100_geometry_partial",
    "DevIL.Pnm.C100_violated_polarity",
    "DevIL.Pnm.C100_violated_plain",
    "DevIL.Pnm.C100_violated_dense",
    "DevIL.Pnm.C100_violated_space",
    "DevIL.Pnm.C100_violated_truncated"
   ],
   "note": "Proved in part. C100_geometry_partial: Missing: the right shades, and files whose first byte is a space, for which the claim is false (see below). False of the code, with a witness: C100_violated_polarity: C100 fails: black and white are exchanged in every bitmap. No pixel of a P4 file gets the shade the format gives it. C100_violated_plain: C100 fails: the same in a plain bitmap. `1 0` means black and white. C100_violated_dense: C100 fails: a plain bitmap without blanks between the digits, as the format allows and other programs write it, is refused. C100_violated_space: C100 fails: a bitmap whose first eight pixels are the bits of a space is refused: the byte is taken for a blank of the header. C100_violated_truncated: C100 fails: a bitmap whose second row is missing is reported as loaded; the loader shows the row as white, as if its bits were set."
  },
  {
   "property": "C101",
   "status": "partial",
   "theorems": [
    "DevIL.Gif.C101_picture_partial",
    "DevIL.Gif.C101_violated_one_pixel",
    "DevIL.Gif.C101_violated_interlaced_part"
   ],
   "note": "Proved in part. C101_picture_partial: Missing: files in which a clear code is followed by fewer than two codes for pixels (`C101_violated_one_pixel`), interlaced frames that are not the whole screen (`C101_violated_interlaced_part`) and files with several frames. False of the code, with a witness: C101_violated_one_pixel: C101 is violated. No GIF file whose frame is a single pixel can be loaded, however it is coded: the result is `IL_FALSE`. C101_violated_interlaced_part: C101 is violated. A file with an interlaced frame that has fewer rows than the screen is loaded with rows in the wrong place: of the two rows of the frame, coloured 1 and 2, the second should be row 1 of the image, which has the background colour instead."
  },
  {
   "property": "C102",
   "status": "partial",
   "theorems": [
    "DevIL.Gif.C102_violated_frame_outside",
    "DevIL.Gif.C102_violated_uninitialised",
    "DevIL.Gif.C102_pixels_partial"
   ],
   "note": "Proved in part. C102_pixels_partial: Missing: the table is not initialised (`C102_violated_uninitialised`), and frames are not compared with the image (`C102_violated_frame_outside`). False of the code, with a witness: C102_violated_frame_outside: C102 is violated. Every GIF file whose frame begins below the screen makes the loader write behind the image: the loader does not compare the frame with the screen. The heap gets pixels of the file's choice at an offset of the file's choice. C102_violated_uninitialised: C102 is violated. The loader follows entries of the code table that it has not written: with this file, whose frame is the screen, it reads wherever the uninitialised entry 15 points to."
  },
  {
   "property": "C103",
   "status": "partial",
   "theorems": [
    "DevIL.Ilu.C103_enlarge_partial",
    "DevIL.Ilu.C103_refuses",
    "DevIL.Ilu.C103_violated_wide",
    "DevIL.Ilu.C103_violated_index",
    "DevIL.Ilu.C103_violated_mode"
   ],
   "note": "Proved in part. C103_enlarge_partial: Missing, because false: components larger than a byte when columns are added on the left (`C103_violated_wide`), colour-indexed images (`C103_violated_index`), luminance images, for which clearing is wrong (C60), and an origin mode other than the image's origin (`C103_violated_mode`); several slices of a single row (C18). False of the code, with a witness: C103_violated_wide: C103 is violated. A pixel with components of 16 bits, put at the right of a row of two, is shifted by half a pixel: it covers the second half of the left pixel and the first half of the right one. C103_violated_index: C103 is violated. The pixels of a colour-indexed image are replaced by whatever was in memory, even when the canvas is not enlarged at all. C103_violated_mode: C103 is violated. With `IL_ORIGIN_SET` enabled and an origin mode other than the image's origin, the picture is turned upside down."
  },
  {
   "property": "C104",
   "status": "partial",
   "theorems": [
    "DevIL.Scale.C104_scale_partial",
    "DevIL.Scale.C104_violated_linear",
    "DevIL.Scale.C104_violated_double"
   ],
   "note": "Proved in part. C104_scale_partial: Missing: the other filters; double components (`C104_violated_double`), sides of 2^24 and more, where single precision does not tell columns apart. With `ILU_LINEAR` an image cannot be enlarged safely (`C104_violated_linear`). False of the code, with a witness: C104_violated_linear: C104 violated by the linear filter: doubling the width of a one-pixel image reads the pixel after the last one. The quotients are powers of two, so that exact arithmetic is what the host does. C104_violated_double: C104 violated for double components: nothing is copied, and the new pixels are whatever was in the memory."
  },
  {
   "property": "C105",
   "status": "proved",
   "theorems": [
    "DevIL.PalFile.C105_load",
    "DevIL.PalFile.C105_roundtrip"
   ],
   "note": ""
  },
  {
   "property": "C106",
   "status": "partial",
   "theorems": [
    "DevIL.PalFile.C106_save_partial",
    "DevIL.PalFile.C106_violated_layout"
   ],
   "note": "False of the code, with a witness: C106_violated_layout: C106 is false of a palette with alpha: after it is saved, the second colour of the image has the alpha of the first one as its red component."
  },
  {
   "property": "C107",
   "status": "partial",
   "theorems": [
    "DevIL.PalFile.C107_safe_partial",
    "DevIL.PalFile.C107_violated_hang",
    "DevIL.PalFile.C107_violated_count",
    "DevIL.PalFile.C107_violated_act"
   ],
   "note": "False of the code, with a witness: C107_violated_hang: C107 is false: loading a well-formed palette file with DOS line ends never returns. C107_violated_count: C107 is false: a file that claims 1431655766 colours makes the loader write after the end of its block. C107_violated_act: C107 is false of Adobe palettes: the loader opens the file but reads the one that was opened last by something else. When there was none it reads through a null handle; when it is closed, through a freed one; and when it is still open, the palette is what that file says, whatever the named file `d` says."
  },
  {
   "property": "C108",
   "status": "proved",
   "theorems": [
    "DevIL.SaveFile.C108_protected",
    "DevIL.SaveFile.C108_others",
    "DevIL.SaveFile.C108_reports",
    "DevIL.SaveFile.C108_limit_unreadable"
   ],
   "note": ""
  },
  {
   "property": "C109",
   "status": "partial",
   "theorems": [
    "DevIL.SaveFile.C109_returned_partial",
    "DevIL.SaveFile.C109_violated_mng",
    "DevIL.SaveFile.C109_violated_data"
   ],
   "note": "False of the code, with a witness: C109_violated_mng: C109 is false of MNG files: with overwriting enabled, saving to an existing file with that extension destroys it and fails. When nothing was saved before, or the last save was to a file, the program crashes instead, and the file is lost as well. C109_violated_data: C109 is false of `ilSaveData`: whatever the image and the name, it never changes the disk; on a file that exists it returns `IL_TRUE` when the last save was to memory, and crashes when there was none or when it was to a file."
  },
  {
   "property": "C110",
   "status": "partial",
   "theorems": [
    "DevIL.Cache.C110_same_partial",
    "DevIL.Cache.C110_violated_end",
    "DevIL.Cache.C110_violated_start",
    "DevIL.Cache.C110_violated_eof"
   ],
   "note": "False of the code, with a witness: C110_violated_end: C110 is false at the end of the file: of a file with two bytes, the cache delivers four, the last two of which are what the memory contained, and says that all were read. C110_violated_start: C110 is false of a file that is loaded from a later position: after one byte has been read through the cache at position 5, the file is at 11 instead of 6. C110_violated_eof: Asking whether the end is reached moves in a file that is loaded from a later position."
  },
  {
   "property": "C111",
   "status": "partial",
   "theorems": [
    "DevIL.Fix.C111_off_partial",
    "DevIL.Fix.C111_origin_partial",
    "DevIL.Fix.C111_asked_partial",
    "DevIL.Fix.C111_violated_sub",
    "DevIL.Fix.C111_violated_type"
   ],
   "note": "Proved in part. C111_off_partial: Missing here and below: loads into a selected sub-image, see `C111_violated_sub`. False of the code, with a witness: C111_violated_sub: C111 is false when a sub-image is selected: a load into the second page leaves that page as the loader made it, turns over the first page instead, and selects it. C111_violated_type: Asking for a component type changes the format of other pages: with `IL_TYPE_SET` the second page loses its alpha, because the first has none."
  },
  {
   "property": "C112",
   "status": "partial",
   "theorems": [
    "DevIL.Detect.C112_determine_keeps_partial",
    "DevIL.Detect.C112_valid_keeps_partial",
    "DevIL.Detect.C112_violated_moves"
   ],
   "note": "Proved in part. C112_determine_keeps_partial: Missing: other positions, for which it is false (`C112_violated_moves`). False of the code, with a witness: C112_violated_moves: C112 is false elsewhere in a file: a test of a file at position 8 leaves it at position 16. (The position is taken from the beginning of the file, but seeking to it counts from where the file was.)"
  },
  {
   "property": "C113",
   "status": "partial",
   "theorems": [
    "DevIL.Detect.C113_type_by_contents_partial",
    "DevIL.Detect.C113_signature_partial",
    "DevIL.Detect.C113_valid_partial",
    "DevIL.Detect.C113_violated_short",
    "DevIL.Detect.C113_violated_inside",
    "DevIL.Detect.C113_violated_ktx",
    "DevIL.Detect.C113_violated_targa"
   ],
   "note": "Proved in part. C113_type_by_contents_partial: Missing: files that end within a header, and files that are not at their beginning, for which it is false (`C113_violated_short`, `C113_violated_inside`); and KTX (`C113_violated_ktx`). False of the code, with a witness: C113_violated_short: C113 is false of short files: a GIF file of 43 bytes is recognised as one if the memory of the library contains zeros, but taken for a bitmap if it happens to contain the header of one. C113_violated_inside: C113 is false within a file: a PNG file after one other byte is not recognised when the file is at its first byte. C113_violated_ktx: C113 is false of KTX files: no file at all is recognised as one, although there is a test for them. C113_violated_targa: C113 misleads for Targa files: the bytes are those of a Targa file, but PCX files are recognised by so little that the file is taken for one. (The code tests the resolution where it should test the version.)"
  },
  {
   "property": "C114",
   "status": "partial",
   "theorems": [
    "DevIL.Detect.C114_same_partial",
    "DevIL.Detect.C114_violated_scitex"
   ],
   "note": "Proved in part. C114_same_partial: Missing: bytes that are both an SGI and a Scitex file, for which it is false (`C114_violated_scitex`); and bytes that end within a header. False of the code, with a witness: C114_violated_scitex: C114 is false of bytes that are both an SGI and a Scitex file: SGI from a file, Scitex from memory."
  },
  {
   "property": "C115",
   "status": "proved",
   "theorems": [
    "DevIL.Games.C115_ftx",
    "DevIL.Games.C115_lif"
   ],
   "note": ""
  },
  {
   "property": "C116",
   "status": "partial",
   "theorems": [
    "DevIL.Games.C116_pix_partial",
    "DevIL.Games.C116_violated_overflow"
   ],
   "note": "Proved in part. C116_pix_partial: Missing: a run that goes on past the last pixel, for which it is false (`C116_violated_overflow`). False of the code, with a witness: C116_violated_overflow: C116 is false in general: a picture of one pixel with a run of two writes outside the block, from a file and from memory."
  },
  {
   "property": "C117",
   "status": "partial",
   "theorems": [
    "DevIL.Games.C117_pxr_partial",
    "DevIL.Games.C117_violated_truncated"
   ],
   "note": "Proved in part. C117_pxr_partial: Missing: a file that ends before its last pixel must not be reported as loaded, which is false (`C117_violated_truncated`). False of the code, with a witness: C117_violated_truncated: C117 is false in general: the same file without any of its pixels is reported as loaded, and its pixel is whatever the memory held (0 or 1 here)."
  },
  {
   "property": "C118",
   "status": "partial",
   "theorems": [
    "DevIL.Games.C118_mdl_partial",
    "DevIL.Games.C118_violated_second"
   ],
   "note": "Proved in part. C118_mdl_partial: Missing: more textures, for which it is false (`C118_violated_second`). False of the code, with a witness: C118_violated_second: C118 is false in general: with a second texture, the program follows a null pointer."
  },
  {
   "property": "C119",
   "status": "partial",
   "theorems": [
    "DevIL.Games.C119_wal_partial",
    "DevIL.Games.C119_violated_palette",
    "DevIL.Games.C119_violated_truncated"
   ],
   "note": "Proved in part. C119_wal_partial: Missing: the mipmaps' palette (`C119_violated_palette`), and files that are not complete (`C119_violated_truncated`). False of the code, with a witness: C119_violated_palette: C119 is false in general: of a complete file, no mipmap has a palette although each says it has one of 768 bytes. C119_violated_truncated: C119 is false in general: when the pixels are missing, images that have been freed are used again."
  },
  {
   "property": "C120",
   "status": "partial",
   "theorems": [
    "DevIL.Games.C120_doom_partial",
    "DevIL.Games.C120_doom_safe_partial",
    "DevIL.Games.C120_violated_conv",
    "DevIL.Games.C120_violated_column",
    "DevIL.Games.C120_violated_flat"
   ],
   "note": "Proved in part. C120_doom_partial: Missing: `IL_CONV_PAL` (`C120_violated_conv`), columns before the beginning of the file (`C120_violated_column`). C120_doom_safe_partial: Missing: memory, for which it is false (`C120_violated_column`). False of the code, with a witness: C120_violated_conv: C120 is false with `IL_CONV_PAL`: the second and third byte of every pixel are what the memory held (0 or 1 here), not what the palette says. C120_violated_column: C120 is false in memory: a column offset that is negative makes the program read before the block. C120_violated_flat: C120 is false for a flat loaded by name: `ilLoadDoomFlat` reads its file as a picture with columns, and makes one pixel of it."
  },
  {
   "property": "C121",
   "status": "partial",
   "theorems": [
    "DevIL.Games.C121_cut_partial",
    "DevIL.Games.C121_violated_overflow",
    "DevIL.Games.C121_violated_truncated"
   ],
   "note": "Proved in part. C121_cut_partial: Missing: a run that goes on past the last pixel (`C121_violated_overflow`), a file that ends too early (`C121_violated_truncated`). False of the code, with a witness: C121_violated_overflow: C121 is false in general: a picture of one pixel with a run of two writes outside the block. C121_violated_truncated: C121 is false in general: a header of 127 by 1 pixels without any data is reported as loaded."
  },
  {
   "property": "C122",
   "status": "proved",
   "theorems": [
    "DevIL.Games.C122_flat"
   ],
   "note": ""
  },
  {
   "property": "C123",
   "status": "proved",
   "theorems": [
    "DevIL.Ilut.C123_switches"
   ],
   "note": ""
  },
  {
   "property": "C124",
   "status": "partial",
   "theorems": [
    "DevIL.Ilut.C124_integers_partial",
    "DevIL.Ilut.C124_refused_partial",
    "DevIL.Ilut.C124_violated_gen",
    "DevIL.Ilut.C124_violated_format"
   ],
   "note": "Proved in part. C124_integers_partial: Missing: `ILUT_GL_GEN_S3TC` (`C124_violated_gen`) and histories that give `ILUT_S3TC_FORMAT` a value it does not take (`C124_violated_format`). False of the code, with a witness: C124_violated_gen: The full claim C124 is false: after `ilutSetInteger(ILUT_GL_GEN_S3TC, 1)` the mode reads 0, because line 231 reports the switch `ILUT_GL_USE_S3TC` instead. C124_violated_format: The full claim C124 is false: `ilutSetInteger(ILUT_S3TC_FORMAT, 5)` is not refused but sets the largest texture width to 5, because the case has no `break` (line 272)."
  },
  {
   "property": "C125",
   "status": "partial",
   "theorems": [
    "DevIL.Ilut.C125_safe",
    "DevIL.Ilut.C125_restores",
    "DevIL.Ilut.C125_push_keeps_partial",
    "DevIL.Ilut.C125_violated_push",
    "DevIL.Ilut.C125_violated_init"
   ],
   "note": "Proved in part. C125_push_keeps_partial: Missing: the other settings (`C125_violated_push`). False of the code, with a witness: C125_violated_push: The full claim C125 is false: a push with all attribute bits does not keep the settings in force. After `ilutInit` and `ilutPushAttrib(ILUT_ALL_ATTRIB_BITS)` the largest texture width reads 0 instead of 256, because only four of the settings are copied to the new level (lines 357-364). C125_violated_init: The full claim C125 is false: `ilutInit` does not return to the outermost level: after a push and `ilutInit`, a pop restores the settings of before instead of recording an underflow."
  },
  {
   "property": "C126",
   "status": "proved",
   "theorems": [
    "DevIL.IluMisc.C126_parameters"
   ],
   "note": ""
  },
  {
   "property": "C127",
   "status": "partial",
   "theorems": [
    "DevIL.IluMisc.C127_language_partial",
    "DevIL.IluMisc.C127_violated_order",
    "DevIL.IluMisc.C127_violated_init",
    "DevIL.IluMisc.C127_violated_unlisted"
   ],
   "note": "Proved in part. C127_language_partial: Missing: the other four languages (`C127_violated_order`), calls before `iluInit` (`C127_violated_init`) and errors without a text (`C127_violated_unlisted`). False of the code, with a witness: C127_violated_order: The full claim C127 is false: after `iluSetLanguage(ILU_GERMAN)` the texts are Spanish; Japanese, Spanish and French are also exchanged, because the arrays of ilu_error.cpp:30-61 list the languages in another order than the constants of ilu.h:79-86. C127_violated_init: The full claim C127 is false: before `iluInit` the pointers are NULL and `iluErrorString` reads through them, whatever the number. C127_violated_unlisted: The full claim C127 is false: `ILUT_NOT_SUPPORTED` (0x550), which the toolkit records, has the text \"no error\"."
  },
  {
   "property": "C128",
   "status": "partial",
   "theorems": [
    "DevIL.IluMisc.C128_region_i_partial",
    "DevIL.IluMisc.C128_region_f_partial",
    "DevIL.IluMisc.C128_violated_mixed",
    "DevIL.IluMisc.C128_violated_freed",
    "DevIL.IluMisc.C128_violated_negative"
   ],
   "note": "Proved in part. C128_region_i_partial: Missing: programs that also use `iluRegionfv` (`C128_violated_mixed`, `C128_violated_freed`), negative coordinates (`C128_violated_negative`), and how the mask is made from the points. False of the code, with a witness: C128_violated_mixed: The full claim C128 is false: `iluRegioniv`, then `iluRegionfv` twice frees the first region twice, because `RegionPointsi` is not reset (lines 25-28, 35-36). C128_violated_freed: The full claim C128 is false: after `iluRegionfv` and then `iluRegioniv` an operation that uses the region reads the freed points of the first. C128_violated_negative: The full claim C128 is false: a point above the image is not refused, and the array of edges is accessed before its beginning (only the upper bounds are tested, line 247)."
  },
  {
   "property": "C129",
   "status": "partial",
   "theorems": [
    "DevIL.IluMisc.C129_gen_image_partial",
    "DevIL.IluMisc.C129_load_fails_partial",
    "DevIL.IluMisc.C129_violated_load"
   ],
   "note": "Proved in part. C129_gen_image_partial: Missing: `iluLoadImage` (`C129_violated_load`). False of the code, with a witness: C129_violated_load: The full claim C129 is false: with image 2 bound and holding 5, `iluLoadImage` of a file whose contents are 9 returns the new name 3, but image 3 does not hold them and image 2 is overwritten: the new image is never bound (ilu_main.cpp:61-65)."
  },
  {
   "property": "C130",
   "status": "proved",
   "theorems": [
    "DevIL.Hdr.C130_load"
   ],
   "note": ""
  },
  {
   "property": "C131",
   "status": "partial",
   "theorems": [
    "DevIL.Hdr.C131_roundtrip_partial",
    "DevIL.Hdr.C131_flat_partial",
    "DevIL.Hdr.C131_violated_marker"
   ],
   "note": "False of the code, with a witness: C131_violated_marker: C131 is false in general: a picture of one pixel that is stored as (2, 2, 200, 136), which is what red 2.0, green 2.0, blue 200.0 become, is taken for the beginning of a run-length scan line; the pixel that is loaded is (255, 255, 255, 255)."
  },
  {
   "property": "C132",
   "status": "partial",
   "theorems": [
    "DevIL.Hdr.C132_safe_partial",
    "DevIL.Hdr.C132_refused_partial",
    "DevIL.Hdr.C132_violated_ones",
    "DevIL.Hdr.C132_violated_dims",
    "DevIL.Hdr.C132_violated_truncated"
   ],
   "note": "Proved in part. C132_safe_partial: Missing: bytes 1, 1, 1 (`C132_violated_ones`), and a header without the dimensions (`C132_violated_dims`); and the pixels of a file that ends before its last pixel are invented (`C132_violated_truncated`). False of the code, with a witness: C132_violated_ones: C132 is false in general: a picture whose first four bytes are 1, 1, 1, 5 makes the program read before its buffer; with 1, 1, 1, 0 it never ends (in the model, it shifts by 32, which is undefined). C132_violated_dims: C132 is false in general: without dimensions in the header, the program uses variables it never set. C132_violated_truncated: C132 is false in general: a file that ends after its header is reported as loaded, with a pixel that is not in it."
  },
  {
   "property": "C133",
   "status": "proved",
   "theorems": [
    "DevIL.Colour.C133_sepia",
    "DevIL.Colour.C133_sepia_refused"
   ],
   "note": ""
  },
  {
   "property": "C134",
   "status": "partial",
   "theorems": [
    "DevIL.Colour.C134_alien_partial",
    "DevIL.Colour.C134_refused",
    "DevIL.Colour.C134_violated_short"
   ],
   "note": "Proved in part. C134_alien_partial: Missing, because false: components of more than one byte (`C134_violated_short`). False of the code, with a witness: C134_violated_short: C134 violated. The pixel of 16 bits per component with red 0x0201, green 0x0403 and blue 0x0605 should become 0x0605, 0x0403, 0x0605; but the bytes are taken for components, and green becomes 0x0603."
  },
  {
   "property": "C135",
   "status": "partial",
   "theorems": [
    "DevIL.Colour.C135_saturation_partial",
    "DevIL.Colour.C135_one_partial",
    "DevIL.Colour.C135_zero_partial",
    "DevIL.Colour.C135_violated_bgr",
    "DevIL.Colour.C135_violated_orders",
    "DevIL.Colour.C135_violated_format",
    "DevIL.Colour.C135_violated_short"
   ],
   "note": "Proved in part. C135_saturation_partial: Missing, because false: pixels that begin with blue (`C135_violated_bgr`), formats that are refused (`C135_violated_format`), components of more than one byte (`C135_violated_short`). False of the code, with a witness: C135_violated_bgr: C135 violated. For pixels that begin with blue the weights of red and of blue are exchanged, whatever the image is. C135_violated_orders: C135 violated. The same red seen in the two orders: with all the weight on red and saturation 0, the pixel red 10, green 20, blue 30 becomes the grey 10 if it is kept as `IL_RGB` and the grey 30 if it is kept as `IL_BGR`. C135_violated_format: C135 violated. For every other format an error is recorded, nothing is done, and the result is `IL_TRUE`. C135_violated_short: C135 violated. A pixel of 16 bits per component, red 0x0201, green 0x0403 and blue 0x0605, with all the weight on red and saturation 0: the components become 0x0101, 0x0401 and 0x0404 and not 0x0201 each."
  },
  {
   "property": "C136",
   "status": "partial",
   "theorems": [
    "DevIL.Colour.C136_replace_partial",
    "DevIL.Colour.C136_violated_exact",
    "DevIL.Colour.C136_violated_bgr",
    "DevIL.Colour.C136_violated_red",
    "DevIL.Colour.C136_violated_luminance"
   ],
   "note": "Proved in part. C136_replace_partial: Missing, because false: tolerance 0 (`C136_violated_exact`), pixels that begin with blue (`C136_violated_bgr`), luminance (`C136_violated_luminance`). False of the code, with a witness: C136_violated_exact: C136 violated. With the tolerance 0 nothing is replaced, although some pixels have the clear colour. C136_violated_bgr: C136 violated. For pixels that begin with blue, blue is compared with the red of the clear colour and red with its blue. C136_violated_red: C136 violated. The clear colour is pure red, the new colour pure green, the tolerance 1/255: a red pixel of `IL_BGR` stays, and a blue one becomes green. C136_violated_luminance: C136 violated. A luminance equal to the clear colour, replaced with the colour red 1, green 2, blue 3, becomes 3: the blue alone counts."
  },
  {
   "property": "C137",
   "status": "partial",
   "theorems": [
    "DevIL.Colour.C137_violated_bytes",
    "DevIL.Colour.C137_palette_partial",
    "DevIL.Colour.C137_alpha_partial",
    "DevIL.Colour.C137_violated_half",
    "DevIL.Colour.C137_limit_partial"
   ],
   "note": "Proved in part. C137_palette_partial: Missing, because false: images that are not colour-indexed (`C137_violated_bytes`). C137_alpha_partial: Missing, because false: images of other types (`C137_violated_bytes`). False of the code, with a witness: C137_violated_bytes: C137 violated. No image with unsigned bytes, the usual type, can be scaled: every one that is not colour-indexed is refused, by both functions. C137_violated_half: C137 violated. Of an image with luminance and alpha, in signed bytes, `iluScaleColours` scales the first half alone."
  },
  {
   "property": "C138",
   "status": "partial",
   "theorems": [
    "DevIL.Colour.C138_contrast_partial",
    "DevIL.Colour.C138_one_partial",
    "DevIL.Colour.C138_violated_short"
   ],
   "note": "Proved in part. C138_contrast_partial: Missing, because false: components of more than one byte (`C138_violated_short`). False of the code, with a witness: C138_violated_short: C138 violated. With 16 bits per component and contrast 2 (for which the arithmetic is exact) 255 stays 255, and the brighter 256 becomes 0."
  },
  {
   "property": "C139",
   "status": "partial",
   "theorems": [
    "DevIL.Colour.C139_one_partial",
    "DevIL.Colour.C139_palette_one_partial",
    "DevIL.Colour.C139_table_partial",
    "DevIL.Colour.C139_ends_partial",
    "DevIL.Colour.C139_violated_short",
    "DevIL.Colour.C139_violated_white"
   ],
   "note": "Proved in part. C139_one_partial: Missing, because false: 16 and 32 bits per component (`C139_violated_short`, `C139_violated_white`). False of the code, with a witness: C139_violated_short: C139 violated. With gamma 1 and 16 bits per component, 0x0102 becomes 0x0101. C139_violated_white: C139 violated. Whatever gamma is, a component of 32 bits whose highest byte is 255 becomes a `float` that is no unsigned 32-bit number, and to convert it is undefined: any image that begins with such a component, as white does."
  },
  {
   "property": "C140",
   "status": "partial",
   "theorems": [
    "DevIL.Colour.C140_noise_partial",
    "DevIL.Colour.C140_none",
    "DevIL.Colour.C140_violated_int",
    "DevIL.Colour.C140_violated_division"
   ],
   "note": "Proved in part. C140_noise_partial: Missing, because false: 32 bits per component (`C140_violated_int`, `C140_violated_division`). False of the code, with a witness: C140_violated_int: C140 violated. 32 bits per component: the component 0x80000000, to which 0 is to be added, becomes 0. C140_violated_division: C140 violated. 32 bits per component and the tolerance 1, for which `factor` is 2147483648: a division by 0."
  },
  {
   "property": "C141",
   "status": "partial",
   "theorems": [
    "DevIL.Colour.C141_equalize_partial",
    "DevIL.Colour.C141_violated_black",
    "DevIL.Colour.C141_violated_large",
    "DevIL.Colour.C141_violated_palette",
    "DevIL.Colour.C141_violated_read",
    "DevIL.Colour.C141_refused"
   ],
   "note": "Proved in part. C141_equalize_partial: Missing, because false: black pixels (`C141_violated_black`), more pixels (`C141_violated_large`), palettes (`C141_violated_palette`). False of the code, with a witness: C141_violated_black: C141 violated. Any image that is not colour-indexed and has a black pixel: a number that is not a number is converted to an integer, which is undefined. C141_violated_large: C141 violated. Whenever 2^24 pixels are darker than a pixel, that is, in an image of more than 16 million pixels, the pixel becomes black: the number of darker pixels times 256 is reduced modulo 2^32. C141_violated_palette: C141 violated. Palettes: the entries are taken at the distance of one byte, so that the grey entries 10, 20 and 40 of a palette of three components do not become the greys 0, 85 and 170: the bytes 3 and 4 become 255 and 85, and all later ones stay. This with the exact `v * new / old`. C141_violated_read: C141 violated. Palettes: an image with fewer pixels than its palette has entries is read past its end."
  },
  {
   "property": "C142",
   "status": "partial",
   "theorems": [
    "DevIL.Dds.C142_plain_partial",
    "DevIL.Dds.C142_violated_last",
    "DevIL.Dds.C142_violated_16",
    "DevIL.Dds.C142_violated_white"
   ],
   "note": "Proved in part. C142_plain_partial: Missing: not every number of bytes for a pixel works - see `Safe` and the violations below. False of the code, with a witness: C142_violated_last: C142, violated. The last pixel of a picture of 32 bits a pixel without alpha is that of the pixel before: the file has the colour 5, 6, 7 there and the image 1, 2, 3. C142_violated_16: C142, violated. Complete pictures of 16 bits a pixel with alpha, of 8 bits a pixel with colours, and of 8 bits with luminance and alpha make the loader read memory behind the pixels. C142_violated_white: C142, violated. White of R5G6B5 is not white in the image: its components are 248, 252 and 248."
  },
  {
   "property": "C143",
   "status": "partial",
   "theorems": [
    "DevIL.Dds.C143_dxt1_partial",
    "DevIL.Dds.C143_dxt3_partial",
    "DevIL.Dds.C143_dxt5_partial",
    "DevIL.Dds.C143_dxt2_partial",
    "DevIL.Dds.C143_violated_dxt4",
    "DevIL.Dds.C143_violated_opaque"
   ],
   "note": "Proved in part. C143_dxt1_partial: Missing: green and blue are not exact, and transparent pixels are not black (C94). C143_dxt3_partial: Missing: green is not exact (C94). C143_dxt5_partial: Missing: green is not exact (C94). C143_dxt2_partial: Missing: a colour that is as great as alpha (`C143_violated_opaque`). False of the code, with a witness: C143_violated_dxt4: C143, violated. No DXT4 picture is ever loaded: the loader says it failed, for every complete file. C143_violated_opaque: C143, violated. As DXT2 the same opaque white pixels are black: 255 * 256 / 255 is 256, which is stored as 0."
  },
  {
   "property": "C144",
   "status": "partial",
   "theorems": [
    "DevIL.Dds.C144_ati1n_partial",
    "DevIL.Dds.C144_3dc_partial",
    "DevIL.Dds.C144_violated_volume",
    "DevIL.Dds.C144_violated_rxgb"
   ],
   "note": "Proved in part. C144_ati1n_partial: Missing: volumes (`C144_violated_volume`). C144_3dc_partial: Missing: volumes (`C144_violated_volume`). False of the code, with a witness: C144_violated_volume: C144, violated. A volume of two slices of 4 by 1 pixels, with all its blocks, makes the loader write behind the image: after each slice it goes on four rows below. C144_violated_rxgb: C144, violated. In RXGB pictures (DXT5 blocks with red in the place of alpha) white is not white: green is 252 and blue 248."
  },
  {
   "property": "C145",
   "status": "partial",
   "theorems": [
    "DevIL.Dds.C145_wide_partial",
    "DevIL.Dds.C145_violated_ten",
    "DevIL.Dds.C145_violated_ten_rgb"
   ],
   "note": "Proved in part. C145_wide_partial: Missing: 16-bit floats, and the formats of ten bits (`C145_violated_ten`). False of the code, with a witness: C145_violated_ten: C145, violated. A pixel of A2B10G10R10 (red in the lowest ten bits) that is red and opaque becomes blue and transparent. C145_violated_ten_rgb: C145, violated. The same masks without the alpha flag make the loader write behind the image."
  },
  {
   "property": "C146",
   "status": "partial",
   "theorems": [
    "DevIL.Dds.C146_header_partial",
    "DevIL.Dds.C146_code_partial",
    "DevIL.Dds.C146_violated_declared"
   ],
   "note": "Proved in part. C146_header_partial: Missing: shorter files, whose header is completed with whatever the memory holds; and files whose header is right are not always safe (`C146_violated_declared`). False of the code, with a witness: C146_violated_declared: C146, violated. A DXT3 file that declares fewer bytes than its blocks have makes the loader read memory behind what it has read."
  },
  {
   "property": "C147",
   "status": "partial",
   "theorems": [
    "DevIL.Copy.C147_copy_partial",
    "DevIL.Copy.C147_violated_subimages",
    "DevIL.Copy.C147_violated_self",
    "DevIL.Copy.C147_violated_selected",
    "DevIL.Copy.C147_zero_partial"
   ],
   "note": "Proved in part. C147_copy_partial: Missing: the sub-images and the compressed data of the source (`C147_violated_subimages`), the bound image itself as the source (`C147_violated_self`), a selected sub-image as the target (`C147_violated_selected`). False of the code, with a witness: C147_violated_subimages: C147, violated. The copy has no sub-images, whatever the source has, and no compressed data; here the source has a mipmap. C147_violated_self: C147, violated. Copying the bound image onto itself reads the pixels after they have been freed, in every state. C147_violated_selected: C147, violated. Copying an image while a sub-image of the target is selected writes to the sub-image after it has been freed, in every state."
  },
  {
   "property": "C148",
   "status": "partial",
   "theorems": [
    "DevIL.Copy.C148_clone_partial",
    "DevIL.Copy.C148_violated_name",
    "DevIL.Copy.C148_violated_delete"
   ],
   "note": "Proved in part. C148_clone_partial: Missing: sub-images and compressed data, as for C147; and the bound name is not what it was (`C148_violated_name`). False of the code, with a witness: C148_violated_name: C148, violated. After `ilCloneCurImage` the library reports the name of the clone as the bound one, while calls work on the original. C148_violated_delete: C148, violated. Deleting the original after it has been cloned leaves the bound image pointing to freed memory: every later call that changes the bound image uses it."
  },
  {
   "property": "C149",
   "status": "proved",
   "theorems": [
    "DevIL.Copy.C149_safe",
    "DevIL.Copy.C149_tex",
    "DevIL.Copy.C149_surface"
   ],
   "note": ""
  },
  {
   "property": "C150",
   "status": "partial",
   "theorems": [
    "DevIL.DxtSave.C150_size_partial",
    "DevIL.DxtSave.C150_stored_partial",
    "DevIL.DxtSave.C150_violated_small"
   ],
   "note": "Proved in part. C150_size_partial: Missing: see the violations. False of the code, with a witness: C150_violated_small: C150 is violated: a buffer that is too small. The result is the full size although only the size of the buffer was written, for every picture and every such buffer."
  },
  {
   "property": "C151",
   "status": "proved",
   "theorems": [
    "DevIL.DxtSave.C151_dxt5_alpha"
   ],
   "note": ""
  },
  {
   "property": "C152",
   "status": "partial",
   "theorems": [
    "DevIL.DxtSave.C152_dxt3_alpha_partial",
    "DevIL.DxtSave.C152_violated_nearest"
   ],
   "note": "Proved in part. C152_dxt3_alpha_partial: Missing: the nearest of the sixteen alphas; see the violation. False of the code, with a witness: C152_violated_nearest: C152 is violated: rounding. Wherever the last four bits of an alpha are above `7` by more than the first four are, the alpha is not rounded to the nearest: the next of the sixteen alphas is closer."
  },
  {
   "property": "C153",
   "status": "proved",
   "theorems": [
    "DevIL.DxtSave.C153_dxt1_alpha"
   ],
   "note": ""
  },
  {
   "property": "C154",
   "status": "partial",
   "theorems": [
    "DevIL.DxtSave.C154_extreme_partial",
    "DevIL.DxtSave.C154_extreme1_partial",
    "DevIL.DxtSave.C154_uniform_partial",
    "DevIL.DxtSave.C154_violated_strength",
    "DevIL.DxtSave.C154_violated_flag"
   ],
   "note": "Proved in part. C154_extreme_partial: Missing: the colours between, and blocks with different colours of the same strength; see the violation. False of the code, with a witness: C154_violated_strength: C154 is violated: colours of the same strength. In a block whose colours are all of the same strength, every pixel comes back with the colour of the upper left one. C154_violated_flag: A red pixel beside a blue one: only two colours, and so fit for a block of any of the formats. After compression both pixels are red."
  },
  {
   "property": "C155",
   "status": "partial",
   "theorems": [
    "DevIL.DxtSave.C155_violated_current",
    "DevIL.DxtSave.C155_same_partial"
   ],
   "note": "Proved in part. C155_same_partial: Missing: any other current image. False of the code, with a witness: C155_violated_current: C155 is violated: the data is ignored. Whatever the data and its size, `ilCompressDXT` compresses the current image, with its own size."
  },
  {
   "property": "C156",
   "status": "partial",
   "theorems": [
    "DevIL.DxtSave.C156_safe_partial",
    "DevIL.DxtSave.C156_violated_rows",
    "DevIL.DxtSave.C156_violated_luminance_alpha",
    "DevIL.DxtSave.C156_violated_luminance"
   ],
   "note": "Proved in part. C156_safe_partial: Missing: all other pictures, see the violations. False of the code, with a witness: C156_violated_rows: C156 is violated: heights that are not multiples of 4. Every such picture with colours is read past its end. C156_violated_luminance_alpha: C156 is violated: luminance with alpha. Every such picture is written past the end of a buffer. C156_violated_luminance: C156 is violated: luminance. All values of a luminance picture are lost: the buffer that is compressed holds zeros."
  },
  {
   "property": "C157",
   "status": "partial",
   "theorems": [
    "DevIL.Filter.C157_average_partial",
    "DevIL.Filter.C157_one",
    "DevIL.Filter.C157_violated_large"
   ],
   "note": "Proved in part. C157_average_partial: Missing, because false (`C157_violated_large`): blocks so large that the sum could pass 2^32. False of the code, with a witness: C157_violated_large: C157 violated. The sum of a block is kept in 32 bits: a white picture of 4105 times 4105 becomes black when it is made one block."
  },
  {
   "property": "C158",
   "status": "partial",
   "theorems": [
    "DevIL.Filter.C158_violated_region"
   ],
   "note": "False of the code, with a witness: C158_violated_region: C158 violated. Without a region, `iluPixelize` never succeeds on an image whose components have two, four or eight bytes: the region's mask is used although there is none."
  },
  {
   "property": "C159",
   "status": "partial",
   "theorems": [
    "DevIL.Filter.C159_violated_outside",
    "DevIL.Filter.C159_violated_all",
    "DevIL.Filter.C159_rows_partial",
    "DevIL.Filter.C159_violated_neighbour"
   ],
   "note": "Proved in part. C159_rows_partial: Missing: all other heights, and the weight of the lower right neighbour. False of the code, with a witness: C159_violated_outside: C159 violated. Every 3x3 filter of an image of bytes with three rows or more reads past the end of the image; so does that of a single row of three columns or more. C159_violated_all: C159 violated. So do both blurs, for one pass or more, the relief, and the three edge detectors. C159_violated_neighbour: C159 violated. A filter that should show the lower right neighbour of every pixel shows the lower left one."
  },
  {
   "property": "C160",
   "status": "partial",
   "theorems": [
    "DevIL.Filter.C160_violated_brighter",
    "DevIL.Filter.C160_none_partial"
   ],
   "note": "Proved in part. C160_none_partial: Missing, because false: any pass. False of the code, with a witness: C160_violated_brighter: C160 violated. Blurring should leave an image of one colour as it is. But on two rows, both blurs make every component of such an image brighter by one, except in the first and the last column; on three rows or more they read past its end (`C159_violated_all`)."
  },
  {
   "property": "C161",
   "status": "partial",
   "theorems": [
    "DevIL.Filter.C161_violated_bright",
    "DevIL.Filter.C161_black_partial"
   ],
   "note": "Proved in part. C161_black_partial: Missing, because false: all else. False of the code, with a witness: C161_violated_bright: C161 violated. Edge detection should turn an image of one colour black. But on two rows, when that colour has a component of 182 or more, the detectors convert a number above 255 to a byte, which is undefined: in the first column the two passes are not black but the image itself. On three rows or more they read past the end (`C159_violated_all`)."
  },
  {
   "property": "C162",
   "status": "proved",
   "theorems": [
    "DevIL.Filter.C162_blocks",
    "DevIL.Filter.C162_local"
   ],
   "note": ""
  },
  {
   "property": "C163",
   "status": "proved",
   "theorems": [
    "DevIL.Sun.C163_grey",
    "DevIL.Sun.C163_colour"
   ],
   "note": ""
  },
  {
   "property": "C164",
   "status": "partial",
   "theorems": [
    "DevIL.Sun.C164_index_partial",
    "DevIL.Sun.C164_violated_map"
   ],
   "note": "Proved in part. C164_index_partial: Missing: that the colours of the palette are those of the map, which is false (`C164_violated_map`): the map has all the reds, then all the greens, then all the blues, but the palette is said to have the three components of a colour together. False of the code, with a witness: C164_violated_map: C164 is false for every map of which the second byte is not that of the first green: the green of colour 0 in the palette is the red of colour 1 in the file."
  },
  {
   "property": "C165",
   "status": "partial",
   "theorems": [
    "DevIL.Sun.C165_grey_partial",
    "DevIL.Sun.C165_colour_partial",
    "DevIL.Sun.C165_violated_across"
   ],
   "note": "Proved in part. C165_grey_partial: Missing: runs that go on into the next row (`C165_violated_across`). False of the code, with a witness: C165_violated_across: C165 is false in general: two by two pixels of the value 7, stored as one run of four. The run ends with the first row; the second row is white, and loading succeeds."
  },
  {
   "property": "C166",
   "status": "partial",
   "theorems": [
    "DevIL.Sun.C166_one_partial",
    "DevIL.Sun.C166_violated_rest"
   ],
   "note": "Proved in part. C166_one_partial: Missing: every larger picture, for which it is false (`C166_violated_rest`). False of the code, with a witness: C166_violated_rest: C166 is false for every file of 32 bits per pixel: loading succeeds, but after the first pixel every byte of the image is what happened to be in the memory (`junk`), whatever the file has."
  },
  {
   "property": "C167",
   "status": "partial",
   "theorems": [
    "DevIL.Sun.C167_any_partial",
    "DevIL.Sun.C167_violated_size"
   ],
   "note": "Proved in part. C167_any_partial: Missing: larger pictures, for which it is false (`C167_violated_size`), and input that ends in the header. False of the code, with a witness: C167_violated_size: C167 is false in general: a header of 2^31 by 2 pixels of 8 bits and one more byte writes outside the block, which has no bytes."
  },
  {
   "property": "C168",
   "status": "partial",
   "theorems": [
    "DevIL.Sun.C168_map_partial",
    "DevIL.Sun.C168_violated_cut"
   ],
   "note": "Proved in part. C168_map_partial: Missing: files that end within the pixels, for which it is false (`C168_violated_cut`). False of the code, with a witness: C168_violated_cut: C168 is false for every file of 24 bits per pixel, compressed or not: wherever it ends after the header, it is reported as loaded."
  },
  {
   "property": "C169",
   "status": "partial",
   "theorems": [
    "DevIL.Sun.C169_bits_partial",
    "DevIL.Sun.C169_violated_memory"
   ],
   "note": "Proved in part. C169_bits_partial: Missing: loading from memory when no file has been opened before (`C169_violated_memory`). False of the code, with a witness: C169_violated_memory: C169 is false from memory when no file has been opened before: every file of 1 bit per pixel is refused, and the image is as before."
  },
  {
   "property": "C170",
   "status": "partial",
   "theorems": [
    "DevIL.Key.C170_black_partial",
    "DevIL.Key.C170_violated_ignored",
    "DevIL.Key.C170_violated_white",
    "DevIL.Key.C170_violated_frames",
    "DevIL.Key.C170_violated_slices"
   ],
   "note": "Proved in part. C170_black_partial: Missing (and false): every other key colour; opaque alpha for signed types; images of several slices and later frames. False of the code, with a witness: C170_violated_ignored: C170 fails for every key colour: what `ilKeyColour` is given makes no difference to any later conversion. C170_violated_white: C170 fails for white: the black pixel becomes transparent, and the white one stays opaque. C170_violated_frames: C170 fails for later frames: only the current image gets the key. C170_violated_slices: C170 fails for several slices: only the first slice is copied, and the conversion reads beyond the new buffer."
  },
  {
   "property": "C171",
   "status": "partial",
   "theorems": [
    "DevIL.Key.C171_kept_partial",
    "DevIL.Key.C171_violated_key"
   ],
   "note": "Proved in part. C171_kept_partial: Missing (and false): with it enabled; with later frames (`C72_violated_failure`). False of the code, with a witness: C171_violated_key: C171 fails with the key colour enabled: a conversion to a format that does not exist fails, and the image has become an RGBA image."
  },
  {
   "property": "C172",
   "status": "partial",
   "theorems": [
    "DevIL.Key.C172_mod_partial",
    "DevIL.Key.C172_violated_alpha"
   ],
   "note": "Proved in part. C172_mod_partial: Missing (and false): images that have an alpha channel; signed and half components. False of the code, with a witness: C172_violated_alpha: C172 fails for every image that has an alpha channel already: nothing is changed, whatever the alpha."
  },
  {
   "property": "C173",
   "status": "partial",
   "theorems": [
    "DevIL.Key.C173_kept_partial",
    "DevIL.Key.C173_violated_always"
   ],
   "note": "Proved in part. C173_kept_partial: Missing (and false): that the image gets the palette. False of the code, with a witness: C173_violated_always: C173 fails for every image: no palette file and no image make the call succeed."
  },
  {
   "property": "C174",
   "status": "partial",
   "theorems": [
    "DevIL.Key.C174_set_partial",
    "DevIL.Key.C174_violated_unbound",
    "DevIL.Key.C174_violated_own"
   ],
   "note": "Proved in part. C174_set_partial: Missing (and false): no image bound; NULL; the palette of the current image itself. False of the code, with a witness: C174_violated_unbound: C174 fails without an image: the current image is used without a check, whatever the palette. C174_violated_own: C174 fails for the image's own palette: it is freed and then copied."
  },
  {
   "property": "C175",
   "status": "partial",
   "theorems": [
    "DevIL.Key.C175_swap_partial",
    "DevIL.Key.C175_violated_first",
    "DevIL.Key.C175_violated_closed",
    "DevIL.Key.C175_violated_other"
   ],
   "note": "Proved in part. C175_swap_partial: Missing (and false): no toolkit function before; an image closed since; one of a single component. False of the code, with a witness: C175_violated_first: C175 fails if no toolkit function was called before: for every image, a null pointer is followed. C175_violated_closed: C175 fails if the image the toolkit looked at last was closed since. C175_violated_other: C175 fails if that image has a single component: the call is refused for every current image."
  },
  {
   "property": "C176",
   "status": "proved",
   "theorems": [
    "DevIL.Dpx.C176_file",
    "DevIL.Dpx.C176_memory",
    "DevIL.Dpx.C176_named",
    "DevIL.Dpx.C176_unbound"
   ],
   "note": ""
  },
  {
   "property": "C177",
   "status": "partial",
   "theorems": [
    "DevIL.Dpx.C177_beginning_partial",
    "DevIL.Dpx.C177_violated_elsewhere"
   ],
   "note": "Proved in part. C177_beginning_partial: Missing: a file at another position (`C177_violated_elsewhere`). False of the code, with a witness: C177_violated_elsewhere: C177 violated: whatever the format, loading from a file that is not at its beginning leaves it at twice its position: the position is taken from the beginning of the file, and returned to from the beginning of the picture."
  },
  {
   "property": "C178",
   "status": "proved",
   "theorems": [
    "DevIL.Dpx.C178_eight"
   ],
   "note": ""
  },
  {
   "property": "C179",
   "status": "partial",
   "theorems": [
    "DevIL.Dpx.C179_alpha_partial",
    "DevIL.Dpx.C179_high_partial",
    "DevIL.Dpx.C179_violated_white",
    "DevIL.Dpx.C179_violated_wide"
   ],
   "note": "Proved in part. C179_high_partial: Missing: the lowest bits (`C179_violated_white`), and pictures of sixteen or thirty-two bits (`C179_violated_wide`). False of the code, with a witness: C179_violated_white: C179 violated: white is not white: in every such picture without alpha, of any size, where all ten bits of a component are set the loaded value is 65532, and not the highest. C179_violated_wide: C179 violated: a picture of sixteen or thirty-two bits for each component is always loaded as one of bytes, if there are enough of them: its first bytes, each taken for a component."
  },
  {
   "property": "C180",
   "status": "partial",
   "theorems": [
    "DevIL.Dpx.C180_top_partial",
    "DevIL.Dpx.C180_violated_bottom"
   ],
   "note": "Proved in part. C180_top_partial: Missing: other orientations (`C180_violated_bottom`). False of the code, with a witness: C180_violated_bottom: C180 violated: a picture from the bottom to the top is loaded upside down, whatever its size: the image says that its first row is the top row, and has the row of the file that is the bottom one there."
  },
  {
   "property": "C181",
   "status": "partial",
   "theorems": [
    "DevIL.Dpx.C181_whole_partial",
    "DevIL.Dpx.C181_violated_offset",
    "DevIL.Dpx.C181_violated_size"
   ],
   "note": "Proved in part. C181_whole_partial: Missing: shorter files; files with another offset (`C181_violated_offset`); ten bits (`C181_violated_size`). False of the code, with a witness: C181_violated_offset: C181 violated: every file whose picture of whole bytes is said to begin at 2^31 or beyond makes the loader read outside the memory it is given. C181_violated_size: C181 violated: a file of 1668 bytes with a large picture of ten bits makes the loader write outside the block of the image: its size wraps around to 2 bytes."
  },
  {
   "property": "C182",
   "status": "partial",
   "theorems": [
    "DevIL.Dpx.C182_eight_partial",
    "DevIL.Dpx.C182_violated_ten"
   ],
   "note": "Proved in part. C182_eight_partial: Missing: ten bits (`C182_violated_ten`). False of the code, with a witness: C182_violated_ten: C182 violated: every file of ten bits that ends where its picture should begin, of any size, is loaded with success; the values are what was in memory before: with zeros there all high bytes are 0, with 255 they are 255."
  },
  {
   "property": "C183",
   "status": "proved",
   "theorems": [
    "DevIL.Psd.C183_plain",
    "DevIL.Psd.C183_palette"
   ],
   "note": ""
  },
  {
   "property": "C184",
   "status": "proved",
   "theorems": [
    "DevIL.Psd.C184_packed",
    "DevIL.Psd.C184_palette"
   ],
   "note": ""
  },
  {
   "property": "C185",
   "status": "partial",
   "theorems": [
    "DevIL.Psd.C185_colours_partial",
    "DevIL.Psd.C185_violated_transparent",
    "DevIL.Psd.C185_violated_wide"
   ],
   "note": "Proved in part. C185_colours_partial: Missing: alpha (`C185_violated_transparent`), sixteen bits (`C185_violated_wide`). False of the code, with a witness: C185_violated_transparent: C185 violated: if the memory that the image gets is zero, then every pixel is transparent, whatever the file and whatever its alpha. C185_violated_wide: C185 violated: of sixteen bits of alpha the bytes are exchanged, even if the memory is such that the value would be kept."
  },
  {
   "property": "C186",
   "status": "partial",
   "theorems": [
    "DevIL.Psd.C186_plain_partial",
    "DevIL.Psd.C186_violated_run",
    "DevIL.Psd.C186_violated_table",
    "DevIL.Psd.C186_violated_resource"
   ],
   "note": "Proved in part. C186_plain_partial: Missing: run-lengths that do not fit (`C186_violated_run`), files that end before the lengths (`C186_violated_table`), resources that do not fit (`C186_violated_resource`). False of the code, with a witness: C186_violated_run: C186 violated: bytes as they are, one more than there are pixels, are written behind the block, from a file and from memory. For the black channel of CMYK nothing is compared at all. C186_violated_table: C186 violated: a document with run-lengths that ends in the table of the lengths makes the loader read from NULL. C186_violated_resource: C186 violated: a resource whose name does not fit is read from behind the block of the resources."
  },
  {
   "property": "C187",
   "status": "partial",
   "theorems": [
    "DevIL.Psd.C187_plain_partial",
    "DevIL.Psd.C187_violated_memory"
   ],
   "note": "Proved in part. C187_plain_partial: Missing: run-lengths (`C187_violated_memory`), files that end before the pixels. False of the code, with a witness: C187_violated_memory: C187 violated: a document with run-lengths that stops after the first of three pixels is refused from a file, but loaded from memory, where the last byte is read again and again."
  },
  {
   "property": "C188",
   "status": "partial",
   "theorems": [
    "DevIL.Psd.C188_product_partial",
    "DevIL.Psd.C188_violated_white",
    "DevIL.Psd.C188_violated_alpha"
   ],
   "note": "Proved in part. C188_product_partial: Missing: divided by 255 (`C188_violated_white`), sixteen bits, five channels (`C188_violated_alpha`). False of the code, with a witness: C188_violated_white: C188 violated: where there is no ink at all (each of the four is 255) every picture of this kind is not white, but 254. C188_violated_alpha: C188 violated: a picture with a fifth channel depends on what was in memory before: with zero there the solid white pixel is black."
  },
  {
   "property": "C189",
   "status": "proved",
   "theorems": [
    "DevIL.Psd.C189_plain",
    "DevIL.Psd.C189_palette"
   ],
   "note": ""
  },
  {
   "property": "C190",
   "status": "partial",
   "theorems": [
    "DevIL.Psd.C190_colours_partial",
    "DevIL.Psd.C190_violated_alpha",
    "DevIL.Psd.C190_violated_palette",
    "DevIL.Psd.C190_violated_slices",
    "DevIL.Psd.C190_violated_grey_alpha"
   ],
   "note": "Proved in part. C190_colours_partial: Missing: its alpha (`C190_violated_alpha`), palettes of fewer than 256 colours (`C190_violated_palette`), several slices (`C190_violated_slices`), other formats (`C190_violated_grey_alpha`). False of the code, with a witness: C190_violated_alpha: C190 violated: saved with alpha and loaded with memory that is zero, every image comes back transparent. C190_violated_palette: C190 violated: an image with a palette of two colours is saved, but 768 bytes of palette are announced and six written, so that it cannot be loaded. C190_violated_slices: C190 violated: of several slices only the first is saved, and success is reported. C190_violated_grey_alpha: C190 violated: grey with alpha is refused, whatever the image, but not before 24 bytes have been written."
  },
  {
   "property": "C191",
   "status": "proved",
   "theorems": [
    "DevIL.Pic.C191_alpha"
   ],
   "note": ""
  },
  {
   "property": "C192",
   "status": "partial",
   "theorems": [
    "DevIL.Pic.C192_partial",
    "DevIL.Pic.C192_violated_rows",
    "DevIL.Pic.C192_violated_format"
   ],
   "note": "Proved in part. C192_partial: Missing: more rows (`C192_violated_rows`) and the right format (`C192_violated_format`). False of the code, with a witness: C192_violated_rows: C192 violated: every opaque picture of four rows or more, however it is stored, makes the loader write behind the block of the image, already with its first pixel. C192_violated_format: C192 violated: even the pictures that are loaded have the format for four components and three bytes per pixel."
  },
  {
   "property": "C193",
   "status": "partial",
   "theorems": [
    "DevIL.Pic.C193_partial",
    "DevIL.Pic.C193_violated_run"
   ],
   "note": "Proved in part. C193_partial: Missing: longer runs, which is false (`C193_violated_run`). False of the code, with a witness: C193_violated_run: C193 violated: a row of two to 255 equal pixels, stored as one pure run, makes the loader write behind the block of the image."
  },
  {
   "property": "C194",
   "status": "partial",
   "theorems": [
    "DevIL.Pic.C194_partial",
    "DevIL.Pic.C194_cut_partial",
    "DevIL.Pic.C194_violated_memory"
   ],
   "note": "Proved in part. C194_partial: Missing: opaque pictures (`C192_violated_rows`), pure run-lengths (`C193_violated_run`), lists of packets that are cut off in memory (`C194_violated_memory`), files that end in the header. False of the code, with a witness: C194_violated_memory: C194 violated: if in memory only the first byte of the list of packets is there, and it is not 0, loading never ends."
  },
  {
   "property": "C195",
   "status": "proved",
   "theorems": [
    "DevIL.Fits.C195_whole"
   ],
   "note": ""
  },
  {
   "property": "C196",
   "status": "partial",
   "theorems": [
    "DevIL.Fits.C196_cut_partial",
    "DevIL.Fits.C196_violated_words"
   ],
   "note": "Proved in part. C196_cut_partial: Missing: files of 16 and 32 bits, for which it is false (`C196_violated_words`), and files without any sample. False of the code, with a witness: C196_violated_words: C196 is violated: every file of 16- or 32-bit samples with at least one byte of samples is loaded with success, however few there are: the missing ones are what happens to be on the stack."
  },
  {
   "property": "C197",
   "status": "partial",
   "theorems": [
    "DevIL.Fits.C197_any_partial",
    "DevIL.Fits.C197_header_partial",
    "DevIL.Fits.C197_violated_axes",
    "DevIL.Fits.C197_violated_size"
   ],
   "note": "Proved in part. C197_any_partial: Missing: the absence of the other faults, which is false (`C197_violated_axes`, `C197_violated_size`). False of the code, with a witness: C197_violated_axes: C197 is violated: a header without NAXIS makes the loader use numbers it never set: `sizeof(Header)` in its `memset` is the size of a pointer. C197_violated_size: C197 is violated: a header for 2^30 samples of 32 bits or more (fewer than 2^31), followed by at least one byte, makes the loader write past the end of the block, because the size of the block is computed modulo 2^32 and the samples are counted without."
  },
  {
   "property": "C198",
   "status": "proved",
   "theorems": [
    "DevIL.DdsSave.C198_saved"
   ],
   "note": ""
  },
  {
   "property": "C199",
   "status": "proved",
   "theorems": [
    "DevIL.DdsSave.C199_alpha"
   ],
   "note": ""
  },
  {
   "property": "C200",
   "status": "partial",
   "theorems": [
    "DevIL.DdsSave.C200_formats_partial",
    "DevIL.DdsSave.C200_violated_premultiplied"
   ],
   "note": "Proved in part. C200_formats_partial: Missing: DXT2 and DXT4, see the violation. False of the code, with a witness: C200_violated_premultiplied: C200 is violated: DXT2 and DXT4. With these formats, which `ilSetInteger` takes, saving fails for every picture, after the header has been written; and a picture that is stored from the bottom up is left upside down."
  },
  {
   "property": "C201",
   "status": "partial",
   "theorems": [
    "DevIL.DdsSave.C201_base_partial",
    "DevIL.DdsSave.C201_violated_active"
   ],
   "note": "Proved in part. C201_base_partial: Missing: see the violation. False of the code, with a witness: C201_violated_active: C201 is violated: size and pixels of different images. If another image of the list is active, the header has the size of it but the blocks are those of the first: whenever the active image is larger, so that it needs more blocks, saving reports success and the file cannot be loaded."
  },
  {
   "property": "C202",
   "status": "partial",
   "theorems": [
    "DevIL.DdsSave.C202_levels_partial",
    "DevIL.DdsSave.C202_violated_missing"
   ],
   "note": "Proved in part. C202_levels_partial: Missing: the other formats, and what is left in the bound image then, see the violation. False of the code, with a witness: C202_violated_missing: C202 is violated: mipmaps that are missing. For every file whose first level is complete and a mipmap is not, the loader reports a failure, but the bound image has been replaced by the first level."
  },
  {
   "property": "C203",
   "status": "proved",
   "theorems": [
    "DevIL.DdsSave.C203_mipmaps"
   ],
   "note": ""
  },
  {
   "property": "C204",
   "status": "proved",
   "theorems": [
    "DevIL.Iwi.C204_plain"
   ],
   "note": ""
  },
  {
   "property": "C205",
   "status": "partial",
   "theorems": [
    "DevIL.Iwi.C205_partial",
    "DevIL.Iwi.C205_violated_oblong"
   ],
   "note": "Proved in part. C205_partial: Missing: all other sides, see the violation. False of the code, with a witness: C205_violated_oblong: C205 is violated: sides of different lengths. For every complete file with mipmaps of a picture one side of which has more binary digits than the other, loading reports success, but there are too few levels, and the image shows bytes that begin before its own: those of smaller levels."
  },
  {
   "property": "C206",
   "status": "partial",
   "theorems": [
    "DevIL.Iwi.C206_partial",
    "DevIL.Iwi.C206_violated_flat"
   ],
   "note": "Proved in part. C206_partial: Missing: all other sides, see the violation, and pictures of 2^27 pixels or more. False of the code, with a witness: C206_violated_flat: C206 is violated: flat pictures. For a picture of 8 by 2 pixels the loader takes memory for one block only, and then reads behind it."
  },
  {
   "property": "C207",
   "status": "partial",
   "theorems": [
    "DevIL.Iwi.C207_partial",
    "DevIL.Iwi.C207_violated_range"
   ],
   "note": "Proved in part. C207_partial: Missing: the full range, see the violation; with mipmaps, sides with different numbers of binary digits; and pictures of 512 MiB or more. False of the code, with a witness: C207_violated_range: C207 is violated: the brightest component. In every complete file without mipmaps, a component with the largest value, 15, becomes 240, not 255: nothing that is loaded is opaque or white."
  },
  {
   "property": "C208",
   "status": "partial",
   "theorems": [
    "DevIL.Iwi.C208_partial",
    "DevIL.Iwi.C208_violated_flat"
   ],
   "note": "Proved in part. C208_partial: Missing: compressed pictures (see the violation), and files of less than five bytes. False of the code, with a witness: C208_violated_flat: C208 is violated: compressed pictures: see `wide`."
  },
  {
   "property": "C209",
   "status": "partial",
   "theorems": [
    "DevIL.Stack.C209_images_and_faces_partial",
    "DevIL.Stack.C209_violated_mipmaps"
   ],
   "note": "Proved in part. C209_images_and_faces_partial: Missing: histories with these calls themselves, and mipmaps, see the violation. False of the code, with a witness: C209_violated_mipmaps: C209 is violated: mipmaps. After any history of calls, `ilRegisterMipNum(num)` returns true as well, but however large `num` is, `ilActiveMipmap(k)` then succeeds only for `k ≤ 1`: the further images are linked as images, not as mipmaps."
  },
  {
   "property": "C210",
   "status": "proved",
   "theorems": [
    "DevIL.Scitex.C210_complete"
   ],
   "note": ""
  },
  {
   "property": "C211",
   "status": "partial",
   "theorems": [
    "DevIL.Scitex.C211_colour_partial",
    "DevIL.Scitex.C211_violated_grey",
    "DevIL.Scitex.C211_violated_narrow"
   ],
   "note": "Proved in part. C211_colour_partial: Missing: grey pictures and those one pixel wide from memory, see the violations, and files that end within the header's 2048 bytes. False of the code, with a witness: C211_violated_grey: C211 is violated: grey pictures. However many pixels of a grey picture are missing, loading reports success. C211_violated_narrow: C211 is violated: one pixel wide. A picture in red, green and blue that is one pixel wide and ends behind any line, before its padding, is loaded from memory with success: at the end of a lump, `igetc` goes back by a byte, and the last line is read again and again."
  },
  {
   "property": "C212",
   "status": "partial",
   "theorems": [
    "DevIL.Scitex.C212_safe_partial",
    "DevIL.Scitex.C212_violated_size"
   ],
   "note": "Proved in part. C212_safe_partial: Missing: larger sizes, see the violation, and shorter files. False of the code, with a witness: C212_violated_size: C212 is violated: large sizes. If the number of pixels of a grey picture, computed with 32 bits, is smaller than a line of which there are enough bytes, then the first line is written beyond the block of the image."
  },
  {
   "property": "C213",
   "status": "proved",
   "theorems": [
    "DevIL.Rot.C213_levels"
   ],
   "note": ""
  },
  {
   "property": "C214",
   "status": "proved",
   "theorems": [
    "DevIL.Rot.C214_cut"
   ],
   "note": ""
  },
  {
   "property": "C215",
   "status": "partial",
   "theorems": [
    "DevIL.Rot.C215_safe_partial",
    "DevIL.Rot.C215_violated_unset"
   ],
   "note": "Proved in part. C215_safe_partial: Missing: the other two formats, see the violation, and larger pictures. False of the code, with a witness: C215_violated_unset: C215 is violated: the other formats. For every file without compression or with DXT1 data whose first level is not larger than the picture, the loader compares the size of the level with a number that has not been set."
  },
  {
   "property": "C216",
   "status": "partial",
   "theorems": [
    "DevIL.Dcx.C216_refused_partial",
    "DevIL.Dcx.C216_violated_unset",
    "DevIL.Dcx.C216_violated_table"
   ],
   "note": "Proved in part. C216_refused_partial: Missing: all other files, see the violations. False of the code, with a witness: C216_violated_unset: C216 is violated: every file. For every file with the signature and a table of up to 1023 pages, the first of them below 2^31, whatever the pages are, the loader decides by a number that has never been set: it never reads the depth of the pixels. C216_violated_table: C216 is violated: long tables. For every file with the signature and more than 1024 places of pages, the loader writes behind its array."
  },
  {
   "property": "C217",
   "status": "proved",
   "theorems": [
    "DevIL.Wu.C217_averages",
    "DevIL.Wu.C217_solid"
   ],
   "note": ""
  },
  {
   "property": "C218",
   "status": "partial",
   "theorems": [
    "DevIL.Wu.C218_safe_partial",
    "DevIL.Wu.C218_violated_white"
   ],
   "note": "False of the code, with a witness: C218_violated_white: C218 fails: in every white picture of more pixels the sum of a component is more than an `ILint` holds."
  },
  {
   "property": "C219",
   "status": "partial",
   "theorems": [
    "DevIL.Wu.C219_used_partial",
    "DevIL.Wu.C219_violated_leftovers"
   ],
   "note": "False of the code, with a witness: C219_violated_leftovers: C219 fails: the palette has 256 entries, and those from `K` on are whatever was in the memory."
  },
  {
   "property": "C220",
   "status": "partial",
   "theorems": [
    "DevIL.Rotate.C220_quarters_partial",
    "DevIL.Rotate.C220_back_partial",
    "DevIL.Rotate.C220_violated_quarter",
    "DevIL.Rotate.C220_violated_three"
   ],
   "note": "False of the code, with a witness: C220_violated_quarter: C220 fails: turning any picture that is not square by a quarter writes outside the new picture. C220_violated_three: C220 fails: and so does turning by three quarters."
  },
  {
   "property": "C221",
   "status": "partial",
   "theorems": [
    "DevIL.Rotate.C221_half_partial",
    "DevIL.Rotate.C221_violated_half"
   ],
   "note": "False of the code, with a witness: C221_violated_half: C221 fails: turning by half mirrors instead, and is not a turn as soon as a row does not read the same from both ends."
  },
  {
   "property": "C222",
   "status": "proved",
   "theorems": [
    "DevIL.Rotate.C222_any"
   ],
   "note": ""
  },
  {
   "property": "C223",
   "status": "proved",
   "theorems": [
    "DevIL.CHeader.C223_text"
   ],
   "note": ""
  },
  {
   "property": "C224",
   "status": "partial",
   "theorems": [
    "DevIL.CHeader.C224_size_partial",
    "DevIL.CHeader.C224_violated_wide"
   ],
   "note": "False of the code, with a witness: C224_violated_wide: C224 fails: for every picture of wider components the data are converted to bytes, and the header gives the type they had before."
  },
  {
   "property": "C225",
   "status": "partial",
   "theorems": [
    "DevIL.Neu.C225_safe_partial",
    "DevIL.Neu.C225_violated_small",
    "DevIL.Neu.C225_violated_stride"
   ],
   "note": "Proved in part. C225_safe_partial: Missing: smaller pictures, see the violations below. False of the code, with a witness: C225_violated_small: C225 violated: for every picture with fewer than 100 pixels for each unit of the sampling factor (fewer than 1500 pixels with the default factor of 15), but enough to be sampled at all, the reduction divides by zero. C225_violated_stride: C225 violated: for every picture of 100 to 243 pixels that is sampled in full, or of 200 to 243 with a factor of 2, the reduction reads outside the pixels."
  },
  {
   "property": "C226",
   "status": "partial",
   "theorems": [
    "DevIL.Neu.C226_nearest_partial"
   ],
   "note": "Proved in part. C226_nearest_partial: Missing: smaller pictures, for which the reduction fails (`C225_violated_small`, `C225_violated_stride`)."
  },
  {
   "property": "C227",
   "status": "proved",
   "theorems": [
    "DevIL.Tpl.C227_grey",
    "DevIL.Tpl.C227_rgb"
   ],
   "note": ""
  },
  {
   "property": "C228",
   "status": "partial",
   "theorems": [
    "DevIL.Tpl.C228_safe_partial",
    "DevIL.Tpl.C228_violated_outside"
   ],
   "note": "False of the code, with a witness: C228_violated_outside: C228 violated: every TPL texture of four bits per pixel, and every one with alpha of four or eight bits beside the grey and an odd width, makes the loader store beyond the block of the image."
  },
  {
   "property": "C229",
   "status": "proved",
   "theorems": [
    "DevIL.Icns.C229_icon",
    "DevIL.Icns.C229_mask_first"
   ],
   "note": ""
  },
  {
   "property": "C230",
   "status": "partial",
   "theorems": [
    "DevIL.Icns.C230_writes_partial",
    "DevIL.Icns.C230_violated_hang",
    "DevIL.Icns.C230_violated_short"
   ],
   "note": "False of the code, with a witness: C230_violated_hang: C230 violated: a file whose first entry is of a kind the loader does not know and claims no bytes at all is never done with: the loader goes back to it for ever. C230_violated_short: C230 violated: every file whose first entry is an icon with too few packed bytes makes the loader read beyond the block it made for them."
  },
  {
   "property": "C231",
   "status": "partial",
   "theorems": [
    "DevIL.Texture.C231_file_partial",
    "DevIL.Texture.C231_violated_memory",
    "DevIL.Texture.C231_violated_position"
   ],
   "note": "False of the code, with a witness: C231_violated_memory: C231 violated: no texture loads from memory: the loader of DDS files is given the first 48 bytes, too, so that whatever follows them the bound image is what it was. C231_violated_position: C231 violated: an open file from whose beginning a texture was loaded is never left there."
  },
  {
   "property": "C232",
   "status": "proved",
   "theorems": [
    "DevIL.Ico.C232_icons"
   ],
   "note": ""
  },
  {
   "property": "C233",
   "status": "partial",
   "theorems": [
    "DevIL.Ico.C233_safe_partial",
    "DevIL.Ico.C233_violated_empty",
    "DevIL.Ico.C233_violated_palette",
    "DevIL.Ico.C233_violated_hang",
    "DevIL.Ico.C233_violated_passed"
   ],
   "note": "False of the code, with a witness: C233_violated_empty: C233 violated: a file whose directory is empty is loaded with success, though no image comes of it. C233_violated_palette: C233 violated: an icon with fewer colours than its pixels use is read beyond its palette. C233_violated_hang: C233 violated: an icon without columns is never loaded: the loop over its pixels does not end. C233_violated_passed: C233 violated: an icon of 16 bits is loaded with success, though no image comes of it."
  },
  {
   "property": "C234",
   "status": "partial",
   "theorems": [
    "DevIL.Pcd.C234_picture_partial",
    "DevIL.Pcd.C234_violated_shifted"
   ],
   "note": "Proved in part. C234_picture_partial: Missing: the picture itself, which is not what is loaded; see the violation. False of the code, with a witness: C234_violated_shifted: C234 violated: whenever a component of the file's picture differs from that one byte later, the file loads with success, but not as the file's picture."
  },
  {
   "property": "C235",
   "status": "proved",
   "theorems": [
    "DevIL.Pcd.C235_safe"
   ],
   "note": ""
  },
  {
   "property": "C236",
   "status": "partial",
   "theorems": [
    "DevIL.Mp3.C236_picture_partial",
    "DevIL.Mp3.C236_other_partial",
    "DevIL.Mp3.C236_violated_v24"
   ],
   "note": "False of the code, with a witness: C236_violated_v24: C236 violated: every file with a tag of version 2.4 is refused, whatever pictures it has, although the code has a branch for the sizes of that version."
  },
  {
   "property": "C237",
   "status": "partial",
   "theorems": [
    "DevIL.Mp3.C237_safe_partial",
    "DevIL.Mp3.C237_violated_long",
    "DevIL.Mp3.C237_violated_hang"
   ],
   "note": "False of the code, with a witness: C237_violated_long: C237 violated: a picture whose type has no end within 65 bytes makes the loader read beyond the array it collects the type in. C237_violated_hang: C237 violated: a first frame of another kind that claims 4294967286 bytes, which is -10 as a signed number, leads the loader back to itself, for ever."
  },
  {
   "property": "C238",
   "status": "proved",
   "theorems": [
    "DevIL.Blp.C238_palette"
   ],
   "note": ""
  },
  {
   "property": "C239",
   "status": "partial",
   "theorems": [
    "DevIL.Blp.C239_alpha_partial",
    "DevIL.Blp.C239_violated_refused"
   ],
   "note": "False of the code, with a witness: C239_violated_refused: C239 violated: every such texture of at least eight pixels whose number is no multiple of eight is refused, because the loader rounds the bytes of alpha down."
  },
  {
   "property": "C240",
   "status": "partial",
   "theorems": [
    "DevIL.Blp.C240_safe_partial",
    "DevIL.Blp.C240_violated_place"
   ],
   "note": "False of the code, with a witness: C240_violated_place: C240 violated: a texture without alpha whose first level has a place of 2^31 or more makes the loader read outside the memory it was given."
  },
  {
   "property": "C241",
   "status": "partial",
   "theorems": [
    "DevIL.Ktx.C241_picture_partial",
    "DevIL.Ktx.C241_violated_rows",
    "DevIL.Ktx.C241_violated_levels"
   ],
   "note": "False of the code, with a witness: C241_violated_rows: C241 violated: of a texture of one row with a mipmap whose row has to be filled up, the mipmap is never read: it is whatever was in the memory of the image. C241_violated_levels: C241 violated: a texture that says that there are no levels, which by the format means that it has one and the others are to be made from it, loads with success, but as what was in the memory of the image, whatever it stores."
  },
  {
   "property": "C242",
   "status": "partial",
   "theorems": [
    "DevIL.Ktx.C242_safe_partial",
    "DevIL.Ktx.C242_violated_hang",
    "DevIL.Ktx.C242_violated_read"
   ],
   "note": "False of the code, with a witness: C242_violated_hang: C242 violated: a texture whose first key has no bytes is never loaded to the end, however many turns the loader may take. C242_violated_read: C242 violated: with one, two or three bytes of keys the loader reads beyond them."
  },
  {
   "property": "C243",
   "status": "partial",
   "theorems": [
    "DevIL.Iff.C243_tile_partial",
    "DevIL.Iff.C243_picture_partial",
    "DevIL.Iff.C243_violated_plain",
    "DevIL.Iff.C243_violated_rgb"
   ],
   "note": "False of the code, with a witness: C243_violated_plain: C243 fails for tiles that are not packed: the loader means to turn the order of the bytes of each pixel, but copies bytes to other pixels. Two pixels, stored with alpha first, come out as neither order has them. C243_violated_rgb: C243 fails for packed tiles of pictures without alpha: the loader gives up, whatever the tile is."
  },
  {
   "property": "C244",
   "status": "partial",
   "theorems": [
    "DevIL.Iff.C244_safe_partial",
    "DevIL.Iff.C244_picture_partial",
    "DevIL.Iff.C244_violated_read",
    "DevIL.Iff.C244_violated_pixel",
    "DevIL.Iff.C244_violated_corner"
   ],
   "note": "False of the code, with a witness: C244_violated_read: C244 fails for bytes that end in a packet: what the packet says is read beyond them. C244_violated_pixel: C244 fails for a single pixel that is not packed: a byte is written behind it, whatever the pixel is. C244_violated_corner: C244 fails for tiles that are not in the image: any packed tile in the last row that goes beyond the right side is written outside the block."
  },
  {
   "property": "C245",
   "status": "proved",
   "theorems": [
    "DevIL.Utx.C245_compact"
   ],
   "note": ""
  },
  {
   "property": "C246",
   "status": "partial",
   "theorems": [
    "DevIL.Utx.C246_any_partial",
    "DevIL.Utx.C246_violated_least"
   ],
   "note": "False of the code, with a witness: C246_violated_least: C246 fails for the least number of an `int`: its magnitude is taken for the number itself, which is then multiplied by -1 beyond what an `int` can hold."
  }
 ]
}