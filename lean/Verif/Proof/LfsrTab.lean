/-!
# Certificates about the shift register of `LowMCMethod_text.cpp`

Generated by `tools/gen_lfsr.py`; checked in `Proof/Lfsr.lean`.
-/
namespace WB.lowmc

/-- Bits of polynomials: the `k`-th takes `2 ^ 79` to `2 ^ k`. -/
def basisTab : List Nat := [
  0x80002004002000401000,
  0x40001002001000200800,
  0x20000801000800100400,
  0x10000400800400080200,
  0x8000200400200040100,
  0x4000100200100020080,
  0x2000080100080010040,
  0x1000040080040008020,
  0x800020040020004010,
  0x400010020010002008,
  0x200008010008001004,
  0x100004008004000802,
  0x80002004002000401,
  0x40001002001000200,
  0x20000801000800100,
  0x10000400800400080,
  0x8000200400200040,
  0x4000100200100020,
  0x2000080100080010,
  0x1000040080040008,
  0x800020040020004,
  0x400010020010002,
  0x200008010008001,
  0x100004008004000,
  0x80002004002000,
  0x40001002001000,
  0x20000801000800,
  0x10000400800400,
  0x8000200400200,
  0x4000100200100,
  0x2000080100080,
  0x1000040080040,
  0x800020040020,
  0x400010020010,
  0x200008010008,
  0x100004008004,
  0x80002004002,
  0x40001002001,
  0x20000801000,
  0x10000400800,
  0x8000200400,
  0x4000100200,
  0x2000080100,
  0x1000040080,
  0x800020040,
  0x400010020,
  0x200008010,
  0x100004008,
  0x80002004,
  0x40001002,
  0x20000801,
  0x10000400,
  0x8000200,
  0x4000100,
  0x2000080,
  0x1000040,
  0x800020,
  0x400010,
  0x200008,
  0x100004,
  0x80002,
  0x40001,
  0x20000,
  0x10000,
  0x8000,
  0x4000,
  0x2000,
  0x1000,
  0x800,
  0x400,
  0x200,
  0x100,
  0x80,
  0x40,
  0x20,
  0x10,
  0x8,
  0x4,
  0x2,
  0x1]

/-- Bits of the polynomials `x ^ (2 ^ k)` modulo the one of the register, `k ≤ 80`. -/
def chainTab : List Nat := [
  0x2,
  0x4,
  0x10,
  0x100,
  0x10000,
  0x100000000,
  0x10000000000000000,
  0x4c0a0251c0962001040,
  0x52fb05987d77c1a91973,
  0xdfc102bbb9514a6c917,
  0x1b785c20d60f95fce0d9,
  0xed1195299b12b9d2bdd5,
  0x56f0083a6ea969f515bb,
  0x4a6265a4646c7d32c697,
  0xaa38058930d52fbf0dab,
  0x21cb814ee5a148ef8823,
  0x3334d6191d000fb1f660,
  0xa405fd704d36f03f8954,
  0xa43fd53736abbdb7d942,
  0xd08fc48d68459a059a45,
  0x15e173ebbfb3f5bed756,
  0x23762387c0992a87d16b,
  0xa69d07fcd352b73c4436,
  0xea1f5687b6060a63f152,
  0x7b0cead56e487c41eb1d,
  0x84eeb1a06675e64fdded,
  0x7f11b24b248e52fccd2f,
  0x271520168c037fabdba5,
  0xf083d2a11b642f30a94d,
  0x1b0a22eb73f685fc7d33,
  0xa00285e7ac36ef333338,
  0xe757dd1e421948549b4f,
  0xae5b9c678ab23beca19d,
  0xcc0e1c87e34968bdce7d,
  0x3b7df3a2fdd4df7150b1,
  0xe194615f6650fed40deb,
  0x8ba72fc506fd6fafc46d,
  0x8005b7df539c193b7963,
  0x9287fedfde1ba1dda1ba,
  0x68882c8062d116a0a031,
  0x1c46fefce56f75b7ca4f,
  0xaee73ee685ee930e073d,
  0x4f32479a0ed71f4feb7d,
  0xfb7fc1832a776c51241d,
  0xd63c365a00cff4be528b,
  0xf5d446856f063200c50f,
  0x4e827c1d6a7d9b2dc860,
  0xb4a5848ec40176e0aec1,
  0x61115344d6d8448a479e,
  0xb5937a6e9de69ac42169,
  0xbc53a6758738b27629aa,
  0x34169428f4377510c2af,
  0xb881efb97978c7d1d7ff,
  0x567bb9b4f36a78e71d86,
  0x524ca626b8219af77eb8,
  0xc7c1eac3b10c7227a80a,
  0x8372476854e72a2cfe97,
  0x1cf916a8b42119fa8a64,
  0xa388c4c9d62e062ef50a,
  0xff80a162725f0a35cce5,
  0xa9eeaf3bff62b4330aec,
  0x9436fc8a8bbee213ccef,
  0xdbe546b72e6494cbea3a,
  0x341adc2695c31b2181c2,
  0x865b3b7c49746bf7e0bb,
  0x874b0c5c2c55782ccc69,
  0xd2ec665a5a3350cc0440,
  0x17394adae4a3adf44068,
  0x58a14d1398f897478c1c,
  0x2654da562002e5ff0823,
  0xdf3e9fb17106abd5b2a4,
  0xb19de193876032c232fd,
  0x6ddab286f06882328b8f,
  0x34269ce822520f01493d,
  0xefe7178897b25db531fe,
  0xda0fb97a902548273f5,
  0x8254302788a5ee0657bf,
  0x3280c3526235d2a6334e,
  0x3452ad3ab7e0b2a8d53a,
  0xe3e8cba3f0b8425f48bb,
  0x2]

/-- For every prime factor `p` of `2 ^ 80 - 1` the number `(2 ^ 80 - 1) / p` and an inverse of
`x ^ ((2 ^ 80 - 1) / p) + 1`. -/
def cofTab : List (Nat × Nat) := [
  (402975273204876391568725, 0x84af4b4000ca59a94615),
  (241785163922925834941235, 0xb3638d92d8743d158833),
  (109902347237693561336925, 0x5995672ac6bd2d400489),
  (71113283506742892629775, 0xf4c544f18b707617c751),
  (38997607084342876603425, 0x26dbb0423895fe2b6835),
  (29485995600356809139175, 0x4f9204fdf10733ea913e),
  (4703991516010230251775, 0x8f38010568220764b9d3),
  (19599646886636552175, 0x540bad0ae0209f080d09),
  (282574488338175, 0x39ed9f7bcf318c3f7130)]

end WB.lowmc
