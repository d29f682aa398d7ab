/-!
# The interface of the library

The function declarations of the two public headers and the function definitions of the two source files
(generated from the text of /repo by `tools/gen_symbols.py`).
-/
namespace WB

/-- Functions declared in `include/WBMatrix/WBMatrix.h`, with line numbers. -/
def declaredLib : List (String × Nat) := [
  ("SetRandSeed", 19), ("initM4", 24), ("randM4", 25), ("identityM4", 26),
  ("printM4", 27), ("printbitM4", 28), ("copyM4", 29), ("isequalM4", 30),
  ("isinvertM4", 31), ("invsM4", 32), ("readbitM4", 33), ("flipbitM4", 34),
  ("setbitM4", 35), ("initV4", 37), ("randV4", 38), ("printV4", 39),
  ("isequalV4", 40), ("VecAddVecV4", 41), ("affineU4", 43), ("xorU4", 44),
  ("HWU4", 45), ("MatMulVecM4", 47), ("MatMulNumM4", 48), ("MatMulMatM4", 49),
  ("MatAddMatM4", 50), ("MattransM4", 51), ("genMatpairM4", 53), ("genaffinepairM4", 54),
  ("affinemixM4", 55), ("initM8", 61), ("randM8", 62), ("identityM8", 63),
  ("printM8", 64), ("printbitM8", 65), ("copyM8", 66), ("isequalM8", 67),
  ("isinvertM8", 68), ("invsM8", 69), ("readbitM8", 70), ("flipbitM8", 71),
  ("setbitM8", 72), ("initV8", 74), ("randV8", 75), ("printV8", 76),
  ("isequalV8", 77), ("VecAddVecV8", 78), ("affineU8", 80), ("xorU8", 81),
  ("HWU8", 82), ("printU8", 83), ("MatMulVecM8", 85), ("MatMulNumM8", 86),
  ("MatMulMatM8", 87), ("MatAddMatM8", 88), ("MattransM8", 89), ("genMatpairM8", 91),
  ("genaffinepairM8", 92), ("affinemixM8", 93), ("initM16", 99), ("randM16", 100),
  ("identityM16", 101), ("printM16", 102), ("printbitM16", 103), ("copyM16", 104),
  ("isequalM16", 105), ("isinvertM16", 106), ("invsM16", 107), ("readbitM16", 108),
  ("flipbitM16", 109), ("setbitM16", 110), ("initV16", 112), ("randV16", 113),
  ("printV16", 114), ("isequalV16", 115), ("VecAddVecV16", 116), ("affineU16", 118),
  ("xorU16", 119), ("HWU16", 120), ("printU16", 121), ("MatAddMatM16", 122),
  ("MatMulVecM16", 123), ("MatMulNumM16", 124), ("MatMulMatM16", 125), ("MattransM16", 126),
  ("genMatpairM16", 128), ("genaffinepairM16", 129), ("affinemixM16", 130), ("initM32", 136),
  ("randM32", 137), ("identityM32", 138), ("printM32", 139), ("printbitM32", 140),
  ("copyM32", 141), ("isequalM32", 142), ("isinvertM32", 143), ("invsM32", 144),
  ("readbitM32", 145), ("flipbitM32", 146), ("setbitM32", 147), ("initV32", 149),
  ("randV32", 150), ("printV32", 151), ("isequalV32", 152), ("VecAddVecV32", 153),
  ("affineU32", 155), ("xorU32", 156), ("HWU32", 157), ("printU32", 158),
  ("MatMulVecM32", 160), ("MatMulNumM32", 161), ("MatMulMatM32", 162), ("MatAddMatM32", 163),
  ("MattransM32", 164), ("genMatpairM32", 166), ("genaffinepairM32", 167), ("affinemixM32", 168),
  ("MatrixcomM8to32", 169), ("VectorcomV8to32", 170), ("affinecomM8to32", 171), ("initM64", 177),
  ("randM64", 178), ("identityM64", 179), ("printM64", 180), ("printbitM64", 181),
  ("copyM64", 182), ("isequalM64", 183), ("isinvertM64", 184), ("invsM64", 185),
  ("readbitM64", 186), ("flipbitM64", 187), ("setbitM64", 188), ("initV64", 190),
  ("randV64", 191), ("printV64", 192), ("isequalV64", 193), ("VecAddVecV64", 194),
  ("affineU64", 196), ("xorU64", 197), ("HWU64", 198), ("printU64", 199),
  ("MatMulVecM64", 201), ("MatMulNumM64", 202), ("MatMulMatM64", 203), ("MattransM64", 204),
  ("MatAddMatM64", 206), ("genMatpairM64", 207), ("genaffinepairM64", 208), ("affinemixM64", 209),
  ("MatrixcomM16to64", 211), ("VectorcomV16to64", 212), ("affinecomM16to64", 213), ("MatrixcomM8to64", 214),
  ("VectorcomV8to64", 215), ("affinecomM8to64", 216), ("initM128", 222), ("randM128", 223),
  ("identityM128", 224), ("printM128", 225), ("printbitM128", 226), ("copyM128", 227),
  ("isequalM128", 228), ("isinvertM128", 229), ("invsM128", 230), ("readbitM128", 231),
  ("flipbitM128", 232), ("setbitM128", 233), ("initV128", 235), ("randV128", 236),
  ("printV128", 237), ("affineU128", 239), ("xorU128", 240), ("HWU128", 241),
  ("printU128", 242), ("isequalV128", 243), ("VecAddVecV128", 244), ("MatMulVecM128", 246),
  ("MatMulMatM128", 247), ("MattransM128", 248), ("MatAddMatM128", 250), ("genMatpairM128", 251),
  ("genaffinepairM128", 252), ("affinemixM128", 253), ("MatrixcomM32to128", 255), ("VectorcomV32to128", 256),
  ("affinecomM32to128", 257), ("MatrixcomM8to128", 258), ("VectorcomV8to128", 259), ("affinecomM8to128", 260),
  ("MatrixcomM16to128", 261), ("VectorcomV16to128", 262), ("affinecomM16to128", 263), ("initM256", 269),
  ("randM256", 270), ("identityM256", 271), ("printM256", 272), ("printbitM256", 273),
  ("copyM256", 274), ("isequalM256", 275), ("isinvertM256", 276), ("invsM256", 277),
  ("readbitM256", 278), ("flipbitM256", 279), ("setbitM256", 280), ("initV256", 282),
  ("randV256", 283), ("printV256", 284), ("affineU256", 286), ("xorU256", 287),
  ("HWU256", 288), ("printU256", 289), ("isequalV256", 290), ("VecAddVecV256", 291),
  ("MatMulVecM256", 293), ("MatMulMatM256", 294), ("MattransM256", 295), ("MatAddMatM256", 297),
  ("genMatpairM256", 298), ("genaffinepairM256", 299), ("affinemixM256", 300)]

/-- Functions declared in `include/WBMatrix/random.h`, with line numbers. -/
def declaredRandom : List (String × Nat) := [
  ("permuteQPR", 6), ("InitRandom", 7), ("cus_random", 8)]

/-- The names. -/
def declared : List String := (declaredLib ++ declaredRandom).map (·.1)

/-- Functions defined in `src/WBMatrix/WBMatrix.c`, with line numbers. -/
def definedLib : List (String × Nat) := [
  ("SetRandSeed", 42), ("initM4", 47), ("initM8", 55), ("initM16", 63),
  ("initM32", 71), ("initM64", 79), ("initM128", 87), ("initM256", 96),
  ("initV4", 107), ("initV8", 111), ("initV16", 115), ("initV32", 119),
  ("initV64", 123), ("initV128", 127), ("initV256", 132), ("randM4", 139),
  ("randM8", 148), ("randM16", 157), ("randM32", 166), ("randM64", 175),
  ("randM128", 187), ("randM256", 202), ("identityM4", 223), ("identityM8", 231),
  ("identityM16", 239), ("identityM32", 247), ("identityM64", 255), ("identityM128", 263),
  ("identityM256", 277), ("randV4", 309), ("randV8", 314), ("randV16", 319),
  ("randV32", 324), ("randV64", 329), ("randV128", 335), ("randV256", 345),
  ("printM4", 361), ("printM8", 369), ("printM16", 377), ("printM32", 385),
  ("printM64", 393), ("printM128", 401), ("printM256", 410), ("printV4", 421),
  ("printV8", 425), ("printV16", 429), ("printV32", 433), ("printV64", 437),
  ("printV128", 441), ("printV256", 446), ("copyM4", 453), ("copyM8", 461),
  ("copyM16", 469), ("copyM32", 477), ("copyM64", 485), ("copyM128", 493),
  ("copyM256", 502), ("isequalM4", 513), ("isequalM8", 522), ("isequalM16", 531),
  ("isequalM32", 540), ("isequalM64", 549), ("isequalM128", 558), ("isequalM256", 568),
  ("isequalV4", 580), ("isequalV8", 585), ("isequalV16", 590), ("isequalV32", 595),
  ("isequalV64", 600), ("isequalV128", 605), ("isequalV256", 611), ("readbitM4", 619),
  ("readbitM8", 624), ("readbitM16", 629), ("readbitM32", 634), ("readbitM64", 639),
  ("readbitM128", 644), ("readbitM256", 657), ("flipbitM4", 680), ("flipbitM8", 684),
  ("flipbitM16", 688), ("flipbitM32", 692), ("flipbitM64", 696), ("flipbitM128", 700),
  ("flipbitM256", 711), ("setbitM4", 730), ("setbitM8", 735), ("setbitM16", 740),
  ("setbitM32", 745), ("setbitM64", 750), ("setbitM128", 755), ("setbitM256", 760),
  ("isinvertM4", 765), ("isinvertM8", 809), ("isinvertM16", 853), ("isinvertM32", 897),
  ("isinvertM64", 941), ("isinvertM128", 985), ("isinvertM256", 1071), ("invsM4", 1263),
  ("invsM8", 1319), ("invsM16", 1375), ("invsM32", 1431), ("invsM64", 1487),
  ("invsM128", 1543), ("invsM256", 1673), ("affineU4", 2011), ("affineU8", 2018),
  ("affineU16", 2025), ("affineU32", 2032), ("affineU64", 2039), ("affineU128", 2046),
  ("xorU4", 2055), ("xorU8", 2060), ("xorU16", 2065), ("xorU32", 2073),
  ("xorU64", 2081), ("xorU128", 2089), ("xorU256", 2096), ("HWU4", 2103),
  ("HWU8", 2107), ("HWU16", 2111), ("HWU32", 2116), ("HWU64", 2121),
  ("HWU128", 2126), ("printU8", 2130), ("printU16", 2134), ("printU32", 2138),
  ("printU64", 2142), ("printU128", 2146), ("printU256", 2151), ("printbitM4", 2158),
  ("printbitM8", 2175), ("printbitM16", 2192), ("printbitM32", 2209), ("printbitM64", 2226),
  ("printbitM128", 2243), ("VecAddVecV4", 2267), ("VecAddVecV8", 2271), ("VecAddVecV16", 2275),
  ("VecAddVecV32", 2279), ("VecAddVecV64", 2283), ("VecAddVecV128", 2287), ("VecAddVecV256", 2292),
  ("MatMulNumM4", 2299), ("MatMulNumM8", 2309), ("MatMulNumM16", 2319), ("MatMulNumM32", 2329),
  ("MatMulNumM64", 2339), ("MatMulVecM4", 2349), ("MatMulVecM8", 2358), ("MatMulVecM16", 2367),
  ("MatMulVecM32", 2376), ("MatMulVecM64", 2385), ("MatMulVecM128", 2394), ("MatMulVecM256", 2412),
  ("genMatpairM4", 2450), ("genMatpairM8", 2607), ("genMatpairM16", 2764), ("genMatpairM32", 2921),
  ("genMatpairM64", 3078), ("genMatpairM128", 3235), ("genMatpairM256", 3564), ("genaffinepairM4", 4340),
  ("genaffinepairM8", 4346), ("genaffinepairM16", 4352), ("genaffinepairM32", 4358), ("genaffinepairM64", 4364),
  ("genaffinepairM128", 4370), ("MatrixcomM8to32", 4376), ("VectorcomV8to32", 4407), ("affinecomM8to32", 4416),
  ("MatrixcomM16to64", 4421), ("VectorcomV16to64", 4452), ("affinecomM16to64", 4461), ("MatrixcomM8to64", 4466),
  ("VectorcomV8to64", 4521), ("affinecomM8to64", 4534), ("MatrixcomM32to128", 4539), ("VectorcomV32to128", 4570),
  ("affinecomM32to128", 4580), ("MatrixcomM8to128", 4585), ("VectorcomV8to128", 4688), ("affinecomM8to128", 4710),
  ("MatrixcomM16to128", 4715), ("VectorcomV16to128", 4770), ("affinecomM16to128", 4784), ("MattransM4", 4789),
  ("MattransM8", 4809), ("MattransM16", 4830), ("MattransM32", 4852), ("MattransM64", 4875),
  ("MattransM128", 4899), ("MattransM256", 4933), ("MatAddMatM4", 4997), ("MatAddMatM8", 5005),
  ("MatAddMatM16", 5013), ("MatAddMatM32", 5021), ("MatAddMatM64", 5029), ("MatAddMatM128", 5037),
  ("MatAddMatM256", 5046), ("MatMulMatM4", 5056), ("MatMulMatM8", 5070), ("MatMulMatM16", 5084),
  ("MatMulMatM32", 5098), ("MatMulMatM64", 5112), ("MatMulMatM128", 5126), ("MatMulMatM256", 5149),
  ("affinemixM4", 5192), ("affinemixM8", 5198), ("affinemixM16", 5204), ("affinemixM32", 5210),
  ("affinemixM64", 5216), ("affinemixM128", 5222)]

/-- Functions defined in `src/WBMatrix/random.c`, with line numbers. -/
def definedRandom : List (String × Nat) := [
  ("permuteQPR", 6), ("InitRandom", 15), ("cus_random", 22)]

/-- The names. -/
def defined : List String := (definedLib ++ definedRandom).map (·.1)

end WB
