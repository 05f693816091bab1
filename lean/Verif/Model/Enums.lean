import Verif.Core
/-! Enum constants of include/IL/il.h, transcribed verbatim (line numbers of il.h). -/
namespace DevIL

/-- il.h:118 -/
abbrev IL_FALSE : Nat := 0
/-- il.h:119 -/
abbrev IL_TRUE : Nat := 1
/-- il.h:123 -/
abbrev IL_COLOUR_INDEX : Nat := 0x1900
/-- il.h:124 -/
abbrev IL_COLOR_INDEX : Nat := 0x1900
/-- il.h:125 -/
abbrev IL_ALPHA : Nat := 0x1906
/-- il.h:126 -/
abbrev IL_RGB : Nat := 0x1907
/-- il.h:127 -/
abbrev IL_RGBA : Nat := 0x1908
/-- il.h:128 -/
abbrev IL_BGR : Nat := 0x80E0
/-- il.h:129 -/
abbrev IL_BGRA : Nat := 0x80E1
/-- il.h:130 -/
abbrev IL_LUMINANCE : Nat := 0x1909
/-- il.h:131 -/
abbrev IL_LUMINANCE_ALPHA : Nat := 0x190A
/-- il.h:134 -/
abbrev IL_BYTE : Nat := 0x1400
/-- il.h:135 -/
abbrev IL_UNSIGNED_BYTE : Nat := 0x1401
/-- il.h:136 -/
abbrev IL_SHORT : Nat := 0x1402
/-- il.h:137 -/
abbrev IL_UNSIGNED_SHORT : Nat := 0x1403
/-- il.h:138 -/
abbrev IL_INT : Nat := 0x1404
/-- il.h:139 -/
abbrev IL_UNSIGNED_INT : Nat := 0x1405
/-- il.h:140 -/
abbrev IL_FLOAT : Nat := 0x1406
/-- il.h:141 -/
abbrev IL_DOUBLE : Nat := 0x140A
/-- il.h:142 -/
abbrev IL_HALF : Nat := 0x140B
/-- il.h:155 -/
abbrev IL_VENDOR : Nat := 0x1F00
/-- il.h:156 -/
abbrev IL_LOAD_EXT : Nat := 0x1F01
/-- il.h:157 -/
abbrev IL_SAVE_EXT : Nat := 0x1F02
/-- il.h:164 -/
abbrev IL_VERSION_1_8_0 : Nat := 1
/-- il.h:165 -/
abbrev IL_VERSION : Nat := 180
/-- il.h:169 -/
abbrev IL_ORIGIN_BIT : Nat := 0x00000001
/-- il.h:170 -/
abbrev IL_FILE_BIT : Nat := 0x00000002
/-- il.h:171 -/
abbrev IL_PAL_BIT : Nat := 0x00000004
/-- il.h:172 -/
abbrev IL_FORMAT_BIT : Nat := 0x00000008
/-- il.h:173 -/
abbrev IL_TYPE_BIT : Nat := 0x00000010
/-- il.h:174 -/
abbrev IL_COMPRESS_BIT : Nat := 0x00000020
/-- il.h:175 -/
abbrev IL_LOADFAIL_BIT : Nat := 0x00000040
/-- il.h:176 -/
abbrev IL_FORMAT_SPECIFIC_BIT : Nat := 0x00000080
/-- il.h:177 -/
abbrev IL_ALL_ATTRIB_BITS : Nat := 0x000FFFFF
/-- il.h:181 -/
abbrev IL_PAL_NONE : Nat := 0x0400
/-- il.h:182 -/
abbrev IL_PAL_RGB24 : Nat := 0x0401
/-- il.h:183 -/
abbrev IL_PAL_RGB32 : Nat := 0x0402
/-- il.h:184 -/
abbrev IL_PAL_RGBA32 : Nat := 0x0403
/-- il.h:185 -/
abbrev IL_PAL_BGR24 : Nat := 0x0404
/-- il.h:186 -/
abbrev IL_PAL_BGR32 : Nat := 0x0405
/-- il.h:187 -/
abbrev IL_PAL_BGRA32 : Nat := 0x0406
/-- il.h:191 -/
abbrev IL_TYPE_UNKNOWN : Nat := 0x0000
/-- il.h:192 -/
abbrev IL_BMP : Nat := 0x0420
/-- il.h:193 -/
abbrev IL_CUT : Nat := 0x0421
/-- il.h:194 -/
abbrev IL_DOOM : Nat := 0x0422
/-- il.h:195 -/
abbrev IL_DOOM_FLAT : Nat := 0x0423
/-- il.h:196 -/
abbrev IL_ICO : Nat := 0x0424
/-- il.h:197 -/
abbrev IL_JPG : Nat := 0x0425
/-- il.h:198 -/
abbrev IL_JFIF : Nat := 0x0425
/-- il.h:199 -/
abbrev IL_ILBM : Nat := 0x0426
/-- il.h:200 -/
abbrev IL_PCD : Nat := 0x0427
/-- il.h:201 -/
abbrev IL_PCX : Nat := 0x0428
/-- il.h:202 -/
abbrev IL_PIC : Nat := 0x0429
/-- il.h:203 -/
abbrev IL_PNG : Nat := 0x042A
/-- il.h:204 -/
abbrev IL_PNM : Nat := 0x042B
/-- il.h:205 -/
abbrev IL_SGI : Nat := 0x042C
/-- il.h:206 -/
abbrev IL_TGA : Nat := 0x042D
/-- il.h:207 -/
abbrev IL_TIF : Nat := 0x042E
/-- il.h:208 -/
abbrev IL_CHEAD : Nat := 0x042F
/-- il.h:209 -/
abbrev IL_RAW : Nat := 0x0430
/-- il.h:210 -/
abbrev IL_MDL : Nat := 0x0431
/-- il.h:211 -/
abbrev IL_WAL : Nat := 0x0432
/-- il.h:212 -/
abbrev IL_LIF : Nat := 0x0434
/-- il.h:213 -/
abbrev IL_MNG : Nat := 0x0435
/-- il.h:214 -/
abbrev IL_JNG : Nat := 0x0435
/-- il.h:215 -/
abbrev IL_GIF : Nat := 0x0436
/-- il.h:216 -/
abbrev IL_DDS : Nat := 0x0437
/-- il.h:217 -/
abbrev IL_DCX : Nat := 0x0438
/-- il.h:218 -/
abbrev IL_PSD : Nat := 0x0439
/-- il.h:219 -/
abbrev IL_EXIF : Nat := 0x043A
/-- il.h:220 -/
abbrev IL_PSP : Nat := 0x043B
/-- il.h:221 -/
abbrev IL_PIX : Nat := 0x043C
/-- il.h:222 -/
abbrev IL_PXR : Nat := 0x043D
/-- il.h:223 -/
abbrev IL_XPM : Nat := 0x043E
/-- il.h:224 -/
abbrev IL_HDR : Nat := 0x043F
/-- il.h:225 -/
abbrev IL_ICNS : Nat := 0x0440
/-- il.h:226 -/
abbrev IL_JP2 : Nat := 0x0441
/-- il.h:227 -/
abbrev IL_EXR : Nat := 0x0442
/-- il.h:228 -/
abbrev IL_WDP : Nat := 0x0443
/-- il.h:229 -/
abbrev IL_VTF : Nat := 0x0444
/-- il.h:230 -/
abbrev IL_WBMP : Nat := 0x0445
/-- il.h:231 -/
abbrev IL_SUN : Nat := 0x0446
/-- il.h:232 -/
abbrev IL_IFF : Nat := 0x0447
/-- il.h:233 -/
abbrev IL_TPL : Nat := 0x0448
/-- il.h:234 -/
abbrev IL_FITS : Nat := 0x0449
/-- il.h:235 -/
abbrev IL_DICOM : Nat := 0x044A
/-- il.h:236 -/
abbrev IL_IWI : Nat := 0x044B
/-- il.h:237 -/
abbrev IL_BLP : Nat := 0x044C
/-- il.h:238 -/
abbrev IL_FTX : Nat := 0x044D
/-- il.h:239 -/
abbrev IL_ROT : Nat := 0x044E
/-- il.h:240 -/
abbrev IL_TEXTURE : Nat := 0x044F
/-- il.h:241 -/
abbrev IL_DPX : Nat := 0x0450
/-- il.h:242 -/
abbrev IL_UTX : Nat := 0x0451
/-- il.h:243 -/
abbrev IL_MP3 : Nat := 0x0452
/-- il.h:244 -/
abbrev IL_KTX : Nat := 0x0453
/-- il.h:245 -/
abbrev IL_SCITEX : Nat := 0x0454
/-- il.h:248 -/
abbrev IL_JASC_PAL : Nat := 0x0475
/-- il.h:252 -/
abbrev IL_NO_ERROR : Nat := 0x0000
/-- il.h:253 -/
abbrev IL_INVALID_ENUM : Nat := 0x0501
/-- il.h:254 -/
abbrev IL_OUT_OF_MEMORY : Nat := 0x0502
/-- il.h:255 -/
abbrev IL_FORMAT_NOT_SUPPORTED : Nat := 0x0503
/-- il.h:256 -/
abbrev IL_INTERNAL_ERROR : Nat := 0x0504
/-- il.h:257 -/
abbrev IL_INVALID_VALUE : Nat := 0x0505
/-- il.h:258 -/
abbrev IL_ILLEGAL_OPERATION : Nat := 0x0506
/-- il.h:259 -/
abbrev IL_ILLEGAL_FILE_VALUE : Nat := 0x0507
/-- il.h:260 -/
abbrev IL_INVALID_FILE_HEADER : Nat := 0x0508
/-- il.h:261 -/
abbrev IL_INVALID_PARAM : Nat := 0x0509
/-- il.h:262 -/
abbrev IL_COULD_NOT_OPEN_FILE : Nat := 0x050A
/-- il.h:263 -/
abbrev IL_INVALID_EXTENSION : Nat := 0x050B
/-- il.h:264 -/
abbrev IL_FILE_ALREADY_EXISTS : Nat := 0x050C
/-- il.h:265 -/
abbrev IL_OUT_FORMAT_SAME : Nat := 0x050D
/-- il.h:266 -/
abbrev IL_STACK_OVERFLOW : Nat := 0x050E
/-- il.h:267 -/
abbrev IL_STACK_UNDERFLOW : Nat := 0x050F
/-- il.h:268 -/
abbrev IL_INVALID_CONVERSION : Nat := 0x0510
/-- il.h:269 -/
abbrev IL_BAD_DIMENSIONS : Nat := 0x0511
/-- il.h:270 -/
abbrev IL_FILE_READ_ERROR : Nat := 0x0512
/-- il.h:271 -/
abbrev IL_FILE_WRITE_ERROR : Nat := 0x0512
/-- il.h:273 -/
abbrev IL_LIB_GIF_ERROR : Nat := 0x05E1
/-- il.h:274 -/
abbrev IL_LIB_JPEG_ERROR : Nat := 0x05E2
/-- il.h:275 -/
abbrev IL_LIB_PNG_ERROR : Nat := 0x05E3
/-- il.h:276 -/
abbrev IL_LIB_TIFF_ERROR : Nat := 0x05E4
/-- il.h:277 -/
abbrev IL_LIB_MNG_ERROR : Nat := 0x05E5
/-- il.h:278 -/
abbrev IL_LIB_JP2_ERROR : Nat := 0x05E6
/-- il.h:279 -/
abbrev IL_LIB_EXR_ERROR : Nat := 0x05E7
/-- il.h:280 -/
abbrev IL_UNKNOWN_ERROR : Nat := 0x05FF
/-- il.h:284 -/
abbrev IL_ORIGIN_SET : Nat := 0x0600
/-- il.h:285 -/
abbrev IL_ORIGIN_LOWER_LEFT : Nat := 0x0601
/-- il.h:286 -/
abbrev IL_ORIGIN_UPPER_LEFT : Nat := 0x0602
/-- il.h:287 -/
abbrev IL_ORIGIN_MODE : Nat := 0x0603
/-- il.h:291 -/
abbrev IL_FORMAT_SET : Nat := 0x0610
/-- il.h:292 -/
abbrev IL_FORMAT_MODE : Nat := 0x0611
/-- il.h:293 -/
abbrev IL_TYPE_SET : Nat := 0x0612
/-- il.h:294 -/
abbrev IL_TYPE_MODE : Nat := 0x0613
/-- il.h:298 -/
abbrev IL_FILE_OVERWRITE : Nat := 0x0620
/-- il.h:299 -/
abbrev IL_FILE_MODE : Nat := 0x0621
/-- il.h:303 -/
abbrev IL_CONV_PAL : Nat := 0x0630
/-- il.h:307 -/
abbrev IL_DEFAULT_ON_FAIL : Nat := 0x0632
/-- il.h:311 -/
abbrev IL_USE_KEY_COLOUR : Nat := 0x0635
/-- il.h:312 -/
abbrev IL_USE_KEY_COLOR : Nat := 0x0635
/-- il.h:313 -/
abbrev IL_BLIT_BLEND : Nat := 0x0636
/-- il.h:317 -/
abbrev IL_SAVE_INTERLACED : Nat := 0x0639
/-- il.h:318 -/
abbrev IL_INTERLACE_MODE : Nat := 0x063A
/-- il.h:322 -/
abbrev IL_QUANTIZATION_MODE : Nat := 0x0640
/-- il.h:323 -/
abbrev IL_WU_QUANT : Nat := 0x0641
/-- il.h:324 -/
abbrev IL_NEU_QUANT : Nat := 0x0642
/-- il.h:325 -/
abbrev IL_NEU_QUANT_SAMPLE : Nat := 0x0643
/-- il.h:326 -/
abbrev IL_MAX_QUANT_INDEXS : Nat := 0x0644
/-- il.h:327 -/
abbrev IL_MAX_QUANT_INDICES : Nat := 0x0644
/-- il.h:331 -/
abbrev IL_FASTEST : Nat := 0x0660
/-- il.h:332 -/
abbrev IL_LESS_MEM : Nat := 0x0661
/-- il.h:333 -/
abbrev IL_DONT_CARE : Nat := 0x0662
/-- il.h:334 -/
abbrev IL_MEM_SPEED_HINT : Nat := 0x0665
/-- il.h:335 -/
abbrev IL_USE_COMPRESSION : Nat := 0x0666
/-- il.h:336 -/
abbrev IL_NO_COMPRESSION : Nat := 0x0667
/-- il.h:337 -/
abbrev IL_COMPRESSION_HINT : Nat := 0x0668
/-- il.h:341 -/
abbrev IL_NVIDIA_COMPRESS : Nat := 0x0670
/-- il.h:342 -/
abbrev IL_SQUISH_COMPRESS : Nat := 0x0671
/-- il.h:346 -/
abbrev IL_SUB_NEXT : Nat := 0x0680
/-- il.h:347 -/
abbrev IL_SUB_MIPMAP : Nat := 0x0681
/-- il.h:348 -/
abbrev IL_SUB_LAYER : Nat := 0x0682
/-- il.h:352 -/
abbrev IL_COMPRESS_MODE : Nat := 0x0700
/-- il.h:353 -/
abbrev IL_COMPRESS_NONE : Nat := 0x0701
/-- il.h:354 -/
abbrev IL_COMPRESS_RLE : Nat := 0x0702
/-- il.h:355 -/
abbrev IL_COMPRESS_LZO : Nat := 0x0703
/-- il.h:356 -/
abbrev IL_COMPRESS_ZLIB : Nat := 0x0704
/-- il.h:360 -/
abbrev IL_TGA_CREATE_STAMP : Nat := 0x0710
/-- il.h:361 -/
abbrev IL_JPG_QUALITY : Nat := 0x0711
/-- il.h:362 -/
abbrev IL_PNG_INTERLACE : Nat := 0x0712
/-- il.h:363 -/
abbrev IL_TGA_RLE : Nat := 0x0713
/-- il.h:364 -/
abbrev IL_BMP_RLE : Nat := 0x0714
/-- il.h:365 -/
abbrev IL_SGI_RLE : Nat := 0x0715
/-- il.h:366 -/
abbrev IL_TGA_ID_STRING : Nat := 0x0717
/-- il.h:367 -/
abbrev IL_TGA_AUTHNAME_STRING : Nat := 0x0718
/-- il.h:368 -/
abbrev IL_TGA_AUTHCOMMENT_STRING : Nat := 0x0719
/-- il.h:369 -/
abbrev IL_PNG_AUTHNAME_STRING : Nat := 0x071A
/-- il.h:370 -/
abbrev IL_PNG_TITLE_STRING : Nat := 0x071B
/-- il.h:371 -/
abbrev IL_PNG_DESCRIPTION_STRING : Nat := 0x071C
/-- il.h:372 -/
abbrev IL_TIF_DESCRIPTION_STRING : Nat := 0x071D
/-- il.h:373 -/
abbrev IL_TIF_HOSTCOMPUTER_STRING : Nat := 0x071E
/-- il.h:374 -/
abbrev IL_TIF_DOCUMENTNAME_STRING : Nat := 0x071F
/-- il.h:375 -/
abbrev IL_TIF_AUTHNAME_STRING : Nat := 0x0720
/-- il.h:376 -/
abbrev IL_JPG_SAVE_FORMAT : Nat := 0x0721
/-- il.h:377 -/
abbrev IL_CHEAD_HEADER_STRING : Nat := 0x0722
/-- il.h:378 -/
abbrev IL_PCD_PICNUM : Nat := 0x0723
/-- il.h:379 -/
abbrev IL_PNG_ALPHA_INDEX : Nat := 0x0724
/-- il.h:380 -/
abbrev IL_JPG_PROGRESSIVE : Nat := 0x0725
/-- il.h:381 -/
abbrev IL_VTF_COMP : Nat := 0x0726
/-- il.h:385 -/
abbrev IL_DXTC_FORMAT : Nat := 0x0705
/-- il.h:386 -/
abbrev IL_DXT1 : Nat := 0x0706
/-- il.h:387 -/
abbrev IL_DXT2 : Nat := 0x0707
/-- il.h:388 -/
abbrev IL_DXT3 : Nat := 0x0708
/-- il.h:389 -/
abbrev IL_DXT4 : Nat := 0x0709
/-- il.h:390 -/
abbrev IL_DXT5 : Nat := 0x070A
/-- il.h:391 -/
abbrev IL_DXT_NO_COMP : Nat := 0x070B
/-- il.h:392 -/
abbrev IL_KEEP_DXTC_DATA : Nat := 0x070C
/-- il.h:393 -/
abbrev IL_DXTC_DATA_FORMAT : Nat := 0x070D
/-- il.h:394 -/
abbrev IL_3DC : Nat := 0x070E
/-- il.h:395 -/
abbrev IL_RXGB : Nat := 0x070F
/-- il.h:396 -/
abbrev IL_ATI1N : Nat := 0x0710
/-- il.h:397 -/
abbrev IL_DXT1A : Nat := 0x0711
/-- il.h:400 -/
abbrev IL_CUBEMAP_POSITIVEX : Nat := 0x00000400
/-- il.h:401 -/
abbrev IL_CUBEMAP_NEGATIVEX : Nat := 0x00000800
/-- il.h:402 -/
abbrev IL_CUBEMAP_POSITIVEY : Nat := 0x00001000
/-- il.h:403 -/
abbrev IL_CUBEMAP_NEGATIVEY : Nat := 0x00002000
/-- il.h:404 -/
abbrev IL_CUBEMAP_POSITIVEZ : Nat := 0x00004000
/-- il.h:405 -/
abbrev IL_CUBEMAP_NEGATIVEZ : Nat := 0x00008000
/-- il.h:406 -/
abbrev IL_SPHEREMAP : Nat := 0x00010000
/-- il.h:410 -/
abbrev IL_VERSION_NUM : Nat := 0x0DE2
/-- il.h:411 -/
abbrev IL_IMAGE_WIDTH : Nat := 0x0DE4
/-- il.h:412 -/
abbrev IL_IMAGE_HEIGHT : Nat := 0x0DE5
/-- il.h:413 -/
abbrev IL_IMAGE_DEPTH : Nat := 0x0DE6
/-- il.h:414 -/
abbrev IL_IMAGE_SIZE_OF_DATA : Nat := 0x0DE7
/-- il.h:415 -/
abbrev IL_IMAGE_BPP : Nat := 0x0DE8
/-- il.h:416 -/
abbrev IL_IMAGE_BYTES_PER_PIXEL : Nat := 0x0DE8
/-- il.h:418 -/
abbrev IL_IMAGE_BITS_PER_PIXEL : Nat := 0x0DE9
/-- il.h:419 -/
abbrev IL_IMAGE_FORMAT : Nat := 0x0DEA
/-- il.h:420 -/
abbrev IL_IMAGE_TYPE : Nat := 0x0DEB
/-- il.h:421 -/
abbrev IL_PALETTE_TYPE : Nat := 0x0DEC
/-- il.h:422 -/
abbrev IL_PALETTE_SIZE : Nat := 0x0DED
/-- il.h:423 -/
abbrev IL_PALETTE_BPP : Nat := 0x0DEE
/-- il.h:424 -/
abbrev IL_PALETTE_NUM_COLS : Nat := 0x0DEF
/-- il.h:425 -/
abbrev IL_PALETTE_BASE_TYPE : Nat := 0x0DF0
/-- il.h:426 -/
abbrev IL_NUM_FACES : Nat := 0x0DE1
/-- il.h:427 -/
abbrev IL_NUM_IMAGES : Nat := 0x0DF1
/-- il.h:428 -/
abbrev IL_NUM_MIPMAPS : Nat := 0x0DF2
/-- il.h:429 -/
abbrev IL_NUM_LAYERS : Nat := 0x0DF3
/-- il.h:430 -/
abbrev IL_ACTIVE_IMAGE : Nat := 0x0DF4
/-- il.h:431 -/
abbrev IL_ACTIVE_MIPMAP : Nat := 0x0DF5
/-- il.h:432 -/
abbrev IL_ACTIVE_LAYER : Nat := 0x0DF6
/-- il.h:433 -/
abbrev IL_ACTIVE_FACE : Nat := 0x0E00
/-- il.h:434 -/
abbrev IL_CUR_IMAGE : Nat := 0x0DF7
/-- il.h:435 -/
abbrev IL_IMAGE_DURATION : Nat := 0x0DF8
/-- il.h:436 -/
abbrev IL_IMAGE_PLANESIZE : Nat := 0x0DF9
/-- il.h:437 -/
abbrev IL_IMAGE_BPC : Nat := 0x0DFA
/-- il.h:438 -/
abbrev IL_IMAGE_OFFX : Nat := 0x0DFB
/-- il.h:439 -/
abbrev IL_IMAGE_OFFY : Nat := 0x0DFC
/-- il.h:440 -/
abbrev IL_IMAGE_CUBEFLAGS : Nat := 0x0DFD
/-- il.h:441 -/
abbrev IL_IMAGE_ORIGIN : Nat := 0x0DFE
/-- il.h:442 -/
abbrev IL_IMAGE_CHANNELS : Nat := 0x0DFF
/-- il.h:497 -/
abbrev IL_SEEK_SET : Nat := 0
/-- il.h:498 -/
abbrev IL_SEEK_CUR : Nat := 1
/-- il.h:499 -/
abbrev IL_SEEK_END : Nat := 2

end DevIL
