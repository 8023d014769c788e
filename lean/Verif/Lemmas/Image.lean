import Verif.Lemmas.Demo

/-!
# An image of the machine that has read core.fth

The wordlist, the number base and the memory from 5184 on, as `VM.new demoCfg 30 10000 1024 65536` leaves them. They are written down
here because running all of `VM.new` is too much for the kernel; examples use them as a concrete machine.
-/

namespace Verif

/-- Action, parameter field and does-part of every word. -/
def imageWords : List (Prim × Nat × Nat) := [
   (.core .noop, 1048, 0), (.core .noop, 1064, 0), (.core .exit, 1080, 0), (.core .lit, 1096, 0),
   (.core .flit, 1112, 0), (.core .sQuoteRt, 1128, 0), (.core .branch, 1144, 0), (.core .zeroBranch, 1160, 0),
   (.core .doRt, 1176, 0), (.core .qdoRt, 1192, 0), (.core .loopRt, 1208, 0), (.core .plusLoopRt, 1224, 0),
   (.core .unloop, 1240, 0), (.core .leave, 1256, 0), (.core .i, 1272, 0), (.core .j, 1288, 0),
   (.core .toR, 1304, 0), (.core .rFrom, 1320, 0), (.core .rFetch, 1336, 0), (.core .twoToR, 1352, 0),
   (.core .twoRFrom, 1368, 0), (.core .twoRFetch, 1384, 0), (.core .compileComma, 1400, 0),
   (.core .postponeRt, 1424, 0), (.core .doesRt, 1440, 0), (.core .execute, 1456, 0), (.core .dup, 1472, 0),
   (.core .drop, 1488, 0), (.core .swap, 1504, 0), (.core .over, 1520, 0), (.core .nip, 1536, 0),
   (.core .depth, 1552, 0), (.core .checkStacks, 1568, 0), (.core .zeroLess, 1584, 0), (.core .equals, 1600, 0),
   (.core .lessThan, 1616, 0), (.core .invert, 1632, 0), (.core .and, 1648, 0), (.core .or, 1664, 0),
   (.core .xor, 1680, 0), (.core .lshift, 1696, 0), (.core .rshift, 1712, 0), (.core .onePlus, 1728, 0),
   (.core .oneMinus, 1744, 0), (.core .minus, 1760, 0), (.core .plus, 1776, 0), (.core .star, 1792, 0),
   (.core .slashMod, 1808, 0), (.core .cellPlus, 1824, 0), (.core .cells, 1840, 0), (.core .fetch, 1856, 0),
   (.core .store, 1872, 0), (.core .charPlus, 1888, 0), (.core .here, 1904, 0), (.core .allot, 1920, 0),
   (.core .aligned, 1936, 0), (.core .align, 1952, 0), (.core .cFetch, 1968, 0), (.core .cStore, 1984, 0),
   (.core .move, 2000, 0), (.core .base, 2016, 0), (.core .immediate, 2040, 0), (.core .compileOnly, 2064, 0),
   (.core .paren, 2080, 0), (.core .backslash, 2096, 0), (.core .leftBracket, 2112, 0),
   (.core .bracketTick, 2128, 0), (.core .bracketChar, 2144, 0), (.core .semicolon, 2160, 0),
   (.core .immIf, 2176, 0), (.core .immElse, 2192, 0), (.core .immThen, 2208, 0), (.core .immCase, 2224, 0),
   (.core .immOf, 2240, 0), (.core .immEndof, 2256, 0), (.core .immEndcase, 2272, 0), (.core .immBegin, 2288, 0),
   (.core .immWhile, 2304, 0), (.core .immRepeat, 2320, 0), (.core .immUntil, 2336, 0), (.core .immAgain, 2352, 0),
   (.core .clearLabels, 2368, 0), (.core .immLabel, 2384, 0), (.core .immGoto, 2400, 0), (.core .immCall, 2416, 0),
   (.core .immRecurse, 2432, 0), (.core .immDo, 2448, 0), (.core .immQdo, 2464, 0), (.core .immLoop, 2480, 0),
   (.core .immPlusLoop, 2496, 0), (.core .postpone, 2512, 0), (.core .does, 2528, 0), (.core .pTrue, 2544, 0),
   (.core .pFalse, 2560, 0), (.core .zeroEquals, 2576, 0), (.core .zeroEquals, 2592, 0),
   (.core .zeroGreater, 2608, 0), (.core .zeroNotEquals, 2624, 0), (.core .greaterThan, 2640, 0),
   (.core .notEquals, 2656, 0), (.core .within, 2672, 0), (.core .rot, 2688, 0), (.core .minusRot, 2704, 0),
   (.core .pick, 2720, 0), (.core .twoDup, 2736, 0), (.core .twoDrop, 2752, 0), (.core .twoSwap, 2768, 0),
   (.core .twoOver, 2784, 0), (.core .slash, 2800, 0), (.core .mod, 2816, 0), (.core .abs, 2832, 0),
   (.core .negate, 2848, 0), (.core .parseWord, 2872, 0), (.core .char, 2888, 0), (.core .skip, 2904, 0),
   (.core .parse, 2920, 0), (.core .colon, 2936, 0), (.core .constant, 2952, 0), (.core .create, 2968, 0),
   (.core .tick, 2984, 0), (.core .toBody, 3000, 0), (.core .toName, 3016, 0), (.core .rightBracket, 3032, 0),
   (.core .comma, 3048, 0), (.core .marker, 3064, 0), (.core .handlerStore, 3080, 0), (.core .error, 3096, 0),
   (.core .dotError, 3112, 0), (.core .clearError, 3128, 0), (.core .clearStacks, 3144, 0),
   (.core .reset, 3160, 0), (.core .abort, 3176, 0), (.core .compiling, 3200, 0), (.core .tokenEmpty, 3224, 0),
   (.core .dotToken, 3240, 0), (.core .storeToken, 3256, 0), (.core .compileToken, 3280, 0),
   (.core .interpretToken, 3304, 0), (.core .sourceId, 3328, 0), (.core .setSourceId, 3352, 0),
   (.core .sourceIdx, 3376, 0), (.core .setSourceIdx, 3400, 0), (.core .bye, 3416, 0), (.core .pause, 3432, 0),
   (.core .activate, 3448, 0), (.core .me, 3464, 0), (.core .suspend, 3480, 0), (.core .resume, 3496, 0),
   (.out .emit, 3512, 0), (.out .type, 3528, 0), (.out .sQuote, 3544, 0), (.out .dotQuote, 3560, 0),
   (.out .dotParen, 3576, 0), (.out .dotR, 3592, 0), (.out .fdotR, 3608, 0), (.out .flushOutput, 3632, 0),
   (.tool .words, 3648, 0), (.tool .dotWord, 3664, 0), (.tool .dotBacktrace, 3688, 0), (.tool .dotS, 3704, 0),
   (.tool .dotMemory, 3720, 0), (.tool .setXtime, 3736, 0), (.tool .dotXtime, 3752, 0),
   (.tool .clearXtime, 3768, 0), (.tool .dotInput, 3784, 0), (.tool .flushToErr, 3808, 0), (.env .maxN, 3824, 0),
   (.env .maxU, 3840, 0), (.env .mtime, 3856, 0), (.env .utime, 3872, 0), (.flt .fconstant, 3896, 0),
   (.flt .floatPlus, 3912, 0), (.flt .floats, 3928, 0), (.flt .faligned, 3944, 0), (.flt .falign, 3960, 0),
   (.flt .pi, 3976, 0), (.flt .fstore, 3992, 0), (.flt .ffetch, 4008, 0), (.flt .fabs, 4024, 0),
   (.flt .fsin, 4040, 0), (.flt .fcos, 4056, 0), (.flt .ftan, 4072, 0), (.flt .fsincos, 4088, 0),
   (.flt .fasin, 4104, 0), (.flt .facos, 4120, 0), (.flt .fatan, 4136, 0), (.flt .fatan2, 4152, 0),
   (.flt .fsqrt, 4168, 0), (.flt .fdrop, 4184, 0), (.flt .fdup, 4200, 0), (.flt .fswap, 4216, 0),
   (.flt .fnip, 4232, 0), (.flt .fover, 4248, 0), (.flt .frot, 4264, 0), (.flt .fpick, 4280, 0),
   (.flt .sToF, 4296, 0), (.flt .fToS, 4312, 0), (.flt .fplus, 4328, 0), (.flt .fminus, 4344, 0),
   (.flt .fstar, 4360, 0), (.flt .fslash, 4376, 0), (.flt .fpowf, 4392, 0), (.flt .fproximate, 4408, 0),
   (.flt .fZeroLess, 4424, 0), (.flt .fZeroEquals, 4440, 0), (.flt .fLess, 4456, 0), (.flt .fmin, 4472, 0),
   (.flt .fmax, 4488, 0), (.flt .floor, 4504, 0), (.flt .fround, 4520, 0), (.flt .fceil, 4536, 0),
   (.flt .fnegate, 4552, 0), (.unit .meter, 4568, 0), (.unit .mm, 4584, 0), (.unit .um, 4600, 0),
   (.unit .deg, 4616, 0), (.unit .rad, 4632, 0), (.unit .hr, 4648, 0), (.unit .minute, 4664, 0),
   (.unit .sec, 4680, 0), (.unit .msec, 4696, 0), (.unit .usec, 4712, 0), (.unit .mmPerMin, 4728, 0),
   (.unit .mmPerSec, 4744, 0), (.unit .umPerMsec, 4760, 0), (.unit .rpm, 4776, 0), (.unit .hertz, 4792, 0),
   (.unit .hertz, 4808, 0), (.file .fileSize, 4832, 0), (.file .filePosition, 4856, 0),
   (.file .closeFile, 4880, 0), (.file .createFile, 4904, 0), (.file .deleteFile, 4928, 0),
   (.file .openFile, 4952, 0), (.file .readFile, 4976, 0), (.file .writeFile, 5000, 0),
   (.file .resizeFile, 5024, 0), (.file .repositionFile, 5048, 0), (.load .openSource, 5072, 0),
   (.load .closeSource, 5096, 0), (.load .dotSourcePath, 5120, 0), (.load .loadLine, 5144, 0),
   (.load .dotSourceLine, 5168, 0), (.core .nest, 5184, 0), (.core .nest, 5232, 0), (.core .pConst, 5280, 0),
   (.core .nest, 5304, 0), (.core .nest, 5352, 0), (.core .nest, 5464, 0), (.core .nest, 5520, 0),
   (.core .nest, 5592, 0), (.core .nest, 5632, 0), (.core .nest, 5688, 0), (.core .nest, 5744, 0),
   (.core .nest, 5824, 0), (.core .nest, 5912, 0), (.core .nest, 5952, 0), (.core .nest, 5992, 0),
   (.core .nest, 6032, 0), (.core .nest, 6088, 0), (.core .nest, 6128, 0), (.core .nest, 6176, 0),
   (.core .nest, 6248, 0), (.core .nest, 6312, 0), (.core .nest, 6376, 0), (.core .nest, 6448, 0),
   (.core .nest, 6520, 0), (.core .nest, 6608, 0), (.core .nest, 6696, 0), (.core .nest, 6720, 0),
   (.core .nest, 6784, 0), (.core .nest, 6984, 0), (.core .nest, 7064, 0), (.core .nest, 7144, 0),
   (.core .nest, 7272, 0), (.core .nest, 7328, 0), (.core .nest, 7376, 0), (.core .nest, 7424, 0),
   (.core .nest, 7480, 0), (.core .nest, 7576, 0), (.core .nest, 7640, 0), (.core .nest, 7712, 0),
   (.core .nest, 7800, 0), (.core .nest, 7888, 0), (.core .nest, 7976, 0), (.core .nest, 8064, 0),
   (.core .nest, 8104, 0), (.core .pVar, 8144, 0), (.core .pVar, 8168, 0), (.core .nest, 8448, 0),
   (.core .pVar, 8496, 0), (.core .nest, 8520, 0), (.core .nest, 8584, 0), (.core .nest, 8632, 0),
   (.core .nest, 8768, 0), (.core .nest, 8880, 0), (.core .nest, 9000, 0), (.core .nest, 9240, 0),
   (.core .nest, 9312, 0), (.core .pConst, 9376, 0), (.core .nest, 9400, 0), (.core .nest, 9448, 0),
   (.core .nest, 9488, 0), (.core .nest, 9536, 0), (.core .nest, 9640, 0), (.core .nest, 9768, 0),
   (.core .pConst, 9904, 0), (.core .pConst, 9928, 0), (.core .pConst, 9952, 0), (.core .nest, 9976, 0),
   (.core .nest, 10008, 0), (.core .nest, 10072, 0), (.core .doesAction, 10184, 8024),
   (.core .doesAction, 10224, 8024), (.core .pVar, 10264, 0), (.core .nest, 10560, 0), (.core .nest, 10760, 0),
   (.core .nest, 10984, 0), (.core .pVar, 11144, 0), (.core .nest, 11176, 0), (.core .nest, 11336, 0),
   (.core .nest, 11544, 0), (.core .nest, 11608, 0), (.core .unmark, 11704, 0)]

/-- Memory, 64 bytes in each number. -/
def imageRows : List Nat := [
  0x200000000000000030000000000002f3200000000000000020000000000000002000000000000002e00000000000000020000000000000003,
  0x30000006563617073000000000000000500000000000000200000000000006c6200000000000000020000000000000002000000000000006c,
  0x680000000000000000000000000000000300007365636170730000000000000006000000000000000200000000000000940000000000000020,
  0x6900000000000014f8000000000000000600000000000000f6000000000000002a000000000000153800000000000000070000000000000062,
  0x200000000000000f6000000000000009900000000000000000000000000000003000000000000002e00000000000000010000000000000002,
  0xf6000000000000009a00000000000000070000000000000003000000000000000000000000000000030000000000002e660000000000000002,
  0x6c616d696365640000000000000007000000000000000200000000000000f80000000000000032000000000000003f00000000000000010000000000000002,
  0x30000000000786568000000000000000300000000000000020000000000000033000000000000003c000000000000000a0000000000000003,
  0x32000000000000003c0000000000002e68000000000000000200000000000000020000000000000033000000000000003c0000000000000010,
  0x722e68000000000000000300000000000000020000000000000033000000000000003c00000000000000f800000000000000fc000000000000001c,
  0x33000000000000003c0000000000000011000000000000009900000000000000fc00000000000000100000000000000032000000000000003c,
  0x3d3e00000000000000020000000000000002000000000000002400000000000000620000000000003d3c00000000000000020000000000000002,
  0x200000000000000cd00000000000000be0000000000003e660000000000000002000000000000000200000000000000240000000000000023,
  0x40000000000000002000000000000001a00000000000017b00000000000000007000000000000001a000000007075643f0000000000000004,
  0xa0000000000000003000000000000726300000000000000020000000000000002000000000000001d000000000000001c000000006b637574,
  0xac0000000000000001000000000000000300000000000000350000000000002c66000000000000000200000000000000020000000000000094,
  0x320000000000000030000000000000001a00000000000040320000000000000002000000000000000200000000000000b00000000000000036,
  0x33000000000000001d000000000000001c0000000000002132000000000000000200000000000000020000000000000032000000000000001c,
  0x650000000000000032000000000000001a000000000000212b0000000000000002000000000000000200000000000000330000000000000030,
  0x300000000000000350000000000002c32000000000000000200000000000000020000000000000033000000000000001c000000000000002d,
  0x68000000000078616d000000000000000300000000000000020000000000000107000000000000003600000000000000310000000000000002,
  0x2000000000000001b00000000000019b80000000000000006000000000000001e00000000000019b000000000000000070000000000000023,
  0x6000000000000001b0000000000001a0800000000000000070000000000000023000000000000006800000000006e696d0000000000000003,
  0x2c6300000000000000020000000000000002000000737261686300000000000000050000000000000002000000000000001e0000000000001a10,
  0x6c6c696600000000000000040000000000000002000000000000003a0000000000000036000000000000000100000000000000030000000000000035,
  0x11000000000000001c00000000000000100000000000001b2000000000000000070000000000000060000000000000001a000000000000001c,
  0x3a000000000000002d000000000000000e00000000000000680000000000001b10000000000000000800000000000000000000000000000003,
  0x500000000000000020000000000000069000000000000001b0000000000001b2800000000000000060000000000001ae0000000000000000a,
  0x1c000000000000002d00000000000000010000000000000003000000000000001c0000000000000039000000000000001a000000746e756f63,
  0x11000000000000001c000000000000002c0000000000000010000000000000001a00676e697274732f00000000000000070000000000000002,
  0x10f000000000000001500000000000000130000646e6570706100000000000000060000000000000002000000000000001c000000000000002d,
  0x2d00000000000000390000000000000010000000000000001a0000000000000014000000000000003b000000000000001c000000000000002d,
  0x30000000000000076656c62616972617600000000000000080000000000000002000000000000003a0000000000000011,
  0x20000000000000033000000000000001c000000000000005c0000000000006e6f00000000000000020000000000000002000000000000007b,
  0x6c61726574696c000000000000000700000000000000020000000000000033000000000000001c000000000000005d000000000066666f0000000000000003,
  0x1c6c61726574696c3200000000000000080000000000000002000000000000007b000000000000001700000000000000030000000000000003,
  0x7b000000000000001700000000000000030000000000000003000000000000007b000000000000001700000000000000030000000000000003,
  0x200000000000001050000000000000017000000000000000400000000000000036c61726574696c6600000000000000080000000000000002,
  0x106000000000000000200000000000000180000000000000109000000000000007600000000000000746e6174736e6f63320000000000000009,
  0x7b00000000000000000000000000000003000000000000007600000000000000656c6261697261763200000000000000090000000000000002,
  0x7600000000000000656c6261697261766600000000000000090000000000000002000000000000007b00000000000000000000000000000003,
  0x200000000000000ad0000000000000002000000000000001800000000000001050000000000000000000000000000000400000000000000ae,
  0x20000000000000018000000000000002d000000000000007b000000000000001d00000000000000760000646c6569662b0000000000000006,
  0x100000000000000030000000000000076000000726566656400000000000000050000000000000002000000000000002d0000000000000032,
  0x407265666564000000000000000600000000000000020000000000000019000000000000003200000000000000020000000000000018000000000000007b,
  0x20000000000000033000000000000007800002172656665640000000000000006000000000000000200000000000000320000000000000078,
  0x6269740000000000000003000000000000000000000000626974230000000000000004,
  0x0,
  0x0,
  0x0,
  0x656372756f730000000000000006000000000000000000000000000000000000000000000000000000000000000000000000000000000000000000000000,
  0x3000000000000000000000000006e693e000000000000000300000000000000020000000000000032000000000000011f0000000000000120,
  0x600000000000000020000000000000037000000000000002d0000000000000200000000000000000300000000000000350000000000646170,
  0x3000000726168633e00000000000000050000000000000002000000000000001c000000000000002d000000000000001d000073646e756f62,
  0x240000000000000064000000000000007f000000000000000300000000000000f5000000000000001a0000000000000025000000000000007f,
  0x657079745f00000000000000050000000000000002000000000000005f0000000000000003000000000000001b00000000000022280000000000000007,
  0x940000000000000125000000000000010f00000000000022900000000000000007000000000000002700000000000000680000000000000124,
  0x680000000000000124000000706d75645f00000000000000050000000000000002000000000000006900000000000022480000000000000006,
  0x600000000000000fe00000000000000030000000000000003000000000000010f000000000000230800000000000000070000000000000027,
  0x1c0000000000000068000000000000012400000000706d756400000000000000040000000000000002000000000000006900000000000022b8,
  0x300000000000000fe00000000000000040000000000000003000000000000001a00000000000023f800000000000000070000000000000023,
  0xf6000000000000012700000000000000680000000000000008000000000000000300000000000000f60000000000000094000000000000003a,
  0x69000000000000233000000000000000060000000000000104000000000000002d0000000000000126000000000000006800000000000000f6,
  0x87000000000000003500000000000000730000000000000072000000000000001a0000000064726f7700000000000000040000000000000002,
  0x14000000000000001900000000000000120000000000000013000000656d697478000000000000000500000000000000020000000000000035,
  0x8f0000000000646f6e00000000000000030000000000000000726f74617265706f0000000000000008000000000000000200000000000000a1,
  0x2000000000000012c000000000000009000000000746c61680000000000000004000000000000000200000000000024b80000000000000006,
  0x74656700000000000000030000000000000002000000000000008f0000000000000092000000000000009100000000706f74730000000000000004,
  0x9100000000000025400000000000000006000000000000008f000000000000257800000000000000070000000000000032000000000000001a,
  0x910000000000000032000000000000001a00657361656c6572000000000000000700000000000000020000000000000033000000000000001c,
  0x60000000000000033000000000000001c00000000000000000000000000000003000000000000260800000000000000070000000000000022,
  0x1d00000000000000a800000000000000a8000000000000736d00000000000000020000000000000002000000000000001b0000000000002610,
  0x8f000000000000269000000000000000070000000000000023000000000000006700000000000000020000000000000003000000000000002c,
  0x3000000000000000000000000006f2f7200000000000000030000000000000002000000000000006900000000000026300000000000000006,
  0x200000000006e6962000000000000000300000000000000020000000000772f720000000000000003000000000000000100000000006f2f77,
  0x200000000000000020000000000000003000000000000008c000000000000008a00000000007475706e692d657661735f000000000000000b,
  0x27a0000000000000000700000000000000220000000000000002000000000000000300007475706e692d65726f747365725f000000000000000e,
  0x706e692d65766173000000000000000a0000000000000002000000000000008300000000000027a80000000000000006000000000000008b000000000000008d,
  0x1f5800000000000001370000007475706e692d65726f74736572000000000000000d0000000000001f5800000000000001360000000000007475,
  0x10000000000000006b636174732d6372730000000000000009,
  0x0,
  0x0,
  0x0,
  0x656372756f732d65766173000000000000000b00000000000000000000000000000000000000000000000000000000000000000000000000000000,
  0x29e000000000000000070000000000000062000000000000001d0000000000000106000000000000013a000000000000008c000000000000008a,
  0x13a000000000000003100000000000000f300000000000000330000000000000030000000000000013a000000000000001a000000000000002a,
  0x2d65726f74736572000000000000000e0000000000000002000000000000008300000000000029e800000000000000060000000000000107000000000000002d,
  0x6200000000000000000000000000000003000000000000001a000000000000001b0000000000000106000000000000013a0000656372756f73,
  0xf300000000000000330000000000000030000000000000013a000000000000002b000000000000001a0000000000002ac00000000000000007,
  0x2ac80000000000000006000000000000008b000000000000008d0000000000000106000000000000002d000000000000013a0000000000000031,
  0x5e0000000000000085000000000000007000007475706e692d657461756c617665000000000000000e00000000000000020000000000000083,
  0x6000000000000002000000000000000880000000000002b48000000000000000700000000000000840000000000002b680000000000000007,
  0x6e696c2d64616f6c000000000000000a00000000000000020000000000002ae80000000000000006000000000000002000000000000000890000000000002b58,
  0x700000000000000f1000000000000008a656c69662d656372756f732d64616f6c000000000000001000000000000000000000000000002365,
  0x3000000000000009b000000000000013d000000000000008d00000000000000000000000000000003000000000000001b0000000000002c28,
  0x80000000000000002000000000000001b0000000000002ba800000000000000060000000000000108000000000000013e0000000000000001,
  0x13b0000000000002cf80000000000000007000000000000005f00000000000000e900000000000001320000000000000068646564756c636e69,
  0x13e00000000000000010000000000000003000000000000001700000000000000410000000000000003000000000000008b00000000000000ee,
  0x830000000000002d00000000000000000600000000000000ef000000000000013c000000000000008a000000000000013f0000000000000033,
  0x140000000000000010f000000000000012900000000000000200000000000000003006564756c636e6900000000000000070000000000000002,
  0x2d98000000000000000700000000000000f1000000000000001a000000000000008a0000000000005c5c00000000000000020000000000000002,
  0x1420000006b726f772d0000000000000005000000000000000200000000000000690000000000002d600000000000000006000000000000001b,
  0x13c000000000000012c0000000000000137000000000000012000000000000000a4000000000000011300000000000001250000000000000100,
  0xce00000000000000b5000000000000014000000000000000b0000000000000012e00000000000000fc000000000000014100000000000000e6,
  0x10500000000000000c5000000000000013200000000000000fb00000000000000f800000000000000c200000000000000f600000000000000b4,
  0xd900000000000000f0000000000000013e000000000000010300000000000001280000000000000133000000000000013d0000000000000107,
  0x11f0000000000000139000000000000009b00000000000000fa0000000000000109000000000000002200000000000001290000000000000114,
  0xb9000000000000012d00000000000000fe000000000000012a000000000000011c0000000000000059000000000000010100000000000000d2,
  0x106000000000000012100000000000000ee000000000000011b00000000000000d1000000000000013b0000000000000138000000000000013f,
  0xd50000000000000135000000000000014200000000000000d80000000000000072000000000000012300000000000000760000000000000117]

/-- The machine. -/
def image : VM := { VM.blank 1024 65536 with
  ds := { bytes := fun a => if a < 5184 then (if a = 1032 then 10 else 0) else BitVec.ofNat 8 ((imageRows.getD ((a - 5184) / 64) 0) >>> (8 * ((a - 5184) % 64)))
          start := 1024, cap := 65536, len := 11200 }
  wl := { words := imageWords.map fun e => { Word.new e.1 .word 0 e.2.1 with doer := e.2.2 }
          buckets := fun _ => 0, tempBuckets := fun _ => 0, last := 323 }
  refs := { lit := 3, flit := 4, exit := 2, zeroBranch := 7, branch := 6, doRt := 8, qdoRt := 9, loopRt := 10, plusLoopRt := 11, sQuote := 5, type := 149, over := 29, equal := 34, drop := 27, postponeRt := 23, toR := 16, doesRt := 24 } }

/-- The numbers of some words. -/
def imageIx (name : String) : Nat := ([
   ("*", 46), ("/", 108), ("emit", 148), ("2dup", 104), (">", 98), ("1+", 42), ("2drop", 105), ("invert", 36),
   ("<", 35), ("dup", 26), ("swap", 28), ("over", 29), ("cell+", 48), ("@", 50), ("!", 51), ("rot", 101),
   ("+", 45), ("here", 53), ("cells", 49), ("allot", 54), ("nip", 30), ("drop", 27), ("0>", 96), (">r", 16),
   ("r>", 17), ("i", 14), ("c!", 58), ("c@", 57), ("-", 44), ("2>r", 19), ("2r@", 21), ("move", 59), ("2r>", 20),
   ("true", 92), ("false", 93), ("source-id", 138), ("source-idx", 140), ("source-idx!", 141), ("source-id!", 139),
   ("1-", 43), ("abort", 131), ("leave", 13), ("2*", 243), ("2/", 244), ("space", 246), ("spaces", 247),
   ("<=", 255), (">=", 256), ("?dup", 258), ("tuck", 259), ("cr", 260), ("2@", 262), ("2!", 263), ("+!", 264),
   ("2,", 265), ("max", 266), ("min", 267), ("c,", 269), ("fill", 270), ("count", 271), ("/string", 272),
   ("append", 273), ("on", 275), ("off", 276), ("save-source", 315), ("restore-source", 316), ("src-stack", 314),
   ("pause", 143), ("me", 145), ("=", 34), ("get", 303), ("release", 304), ("branch", 6), ("0branch", 7),
   ("exit", 2), ("lit", 3), ("2constant", 280), ("+field", 283), ("defer", 284), ("create", 118), ("_does", 24),
   ("execute", 25), (",", 123), ("noop", 1), ("evaluate-input", 317),
   ("parse-word", 112), ("token-empty?", 133), ("not", 94), ("compiling?", 132), ("compile-token", 136),
   ("interpret-token", 137), ("?stacks", 32), ("load-source-file", 319), ("included", 320), ("load-line#", 318),
   ("load-line", 241), ("flush-output", 155), ("open-file", 233), ("0=", 95), ("open-source", 238), ("[", 65),
   ("_postpone", 23), ("close-source", 239), ("r/o", 306)].lookup name).getD 0

end Verif
