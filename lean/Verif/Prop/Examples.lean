import Verif.Spec

/-!
# Concrete objects used by the examples that accompany the property theorems
-/
namespace WB
open Matrix

/-- A little-endian machine with non-zero stack garbage. -/
def exEnv : Env := ⟨.little, fun w k => BitVec.ofNat w (k * 37 + 11)⟩

/-- A big-endian machine with non-zero stack garbage. -/
def exEnvBE : Env := ⟨.big, fun w k => BitVec.ofNat w (k * 37 + 11)⟩

/-- Some state of the globals: the clock ticks once every three readings. -/
def exWorld : World := ⟨5, 17, 23, fun k => BitVec.ofNat 32 (1700000000 + k / 3), 0, []⟩

set_option maxRecDepth 20000

/-- A concrete invertible, non-symmetric `4×4` matrix (ones on the diagonal and just right of it). -/
def exA4 : M4 := #v[0xc, 0x6, 0x3, 0x1]
/-- A concrete `4×4` matrix. -/
def exB4 : M4 := #v[0x4, 0x0, 0xf, 0xd]
/-- A concrete vector of length 4. -/
def exX4 : V4 := 0x1

/-- A concrete invertible, non-symmetric `8×8` matrix (ones on the diagonal and just right of it). -/
def exA8 : M8 := #v[0xc0, 0x60, 0x30, 0x18, 0xc, 0x6, 0x3, 0x1]
/-- A concrete `8×8` matrix. -/
def exB8 : M8 := #v[0x94, 0xd0, 0x3f, 0xcd, 0x9, 0x99, 0x15, 0xb4]
/-- A concrete vector of length 8. -/
def exX8 : V8 := 0xf1

/-- A concrete invertible, non-symmetric `16×16` matrix (ones on the diagonal and just right of it). -/
def exA16 : M16 := #v[0xc000, 0x6000, 0x3000, 0x1800, 0xc00, 0x600, 0x300, 0x180, 0xc0, 0x60, 0x30, 0x18, 0xc, 0x6, 0x3, 0x1]
/-- A concrete `16×16` matrix. -/
def exB16 : M16 := #v[0x8e94, 0x31d0, 0x63f, 0x60cd, 0xc09, 0xa199, 0x7415, 0x8eb4, 0x1191, 0x4268, 0xa822, 0x3572, 0xc630, 0xd87e, 0x1bdf, 0xc381]
/-- A concrete vector of length 16. -/
def exX16 : V16 := 0xdef1

/-- A concrete invertible, non-symmetric `32×32` matrix (ones on the diagonal and just right of it). -/
def exA32 : M32 := #v[0xc0000000, 0x60000000, 0x30000000, 0x18000000, 0xc000000, 0x6000000, 0x3000000, 0x1800000, 0xc00000, 0x600000, 0x300000, 0x180000, 0xc0000, 0x60000, 0x30000, 0x18000, 0xc000, 0x6000, 0x3000, 0x1800, 0xc00, 0x600, 0x300, 0x180, 0xc0, 0x60, 0x30, 0x18, 0xc, 0x6, 0x3, 0x1]
/-- A concrete `32×32` matrix. -/
def exB32 : M32 := #v[0xd0c18e94, 0x3a1831d0, 0x4743063f, 0x8e860cd, 0xa11d0c09, 0xd423a199, 0x1a847415, 0x63508eb4, 0x6c6a1191, 0xd8d4268, 0xe1b1a822, 0xfc363572, 0x1f86c630, 0xa3f0d87e, 0x947e1bdf, 0x928fc381, 0x7251f96d, 0x4e4a3e2f, 0x89c946a4, 0xd1392996, 0x3a27248e, 0xe744e519, 0xfce89d71, 0x5f9d1180, 0x6bf3a033, 0xed7e763c, 0x9dafcc2c, 0x13b5fb0b, 0x2276bc2b, 0x44ed4ad, 0x2089d979, 0x8411389d]
/-- A concrete vector of length 32. -/
def exX32 : V32 := 0x9abcdef1

/-- A concrete invertible, non-symmetric `64×64` matrix (ones on the diagonal and just right of it). -/
def exA64 : M64 := #v[0xc000000000000000, 0x6000000000000000, 0x3000000000000000, 0x1800000000000000, 0xc00000000000000, 0x600000000000000, 0x300000000000000, 0x180000000000000, 0xc0000000000000, 0x60000000000000, 0x30000000000000, 0x18000000000000, 0xc000000000000, 0x6000000000000, 0x3000000000000, 0x1800000000000, 0xc00000000000, 0x600000000000, 0x300000000000, 0x180000000000, 0xc0000000000, 0x60000000000, 0x30000000000, 0x18000000000, 0xc000000000, 0x6000000000, 0x3000000000, 0x1800000000, 0xc00000000, 0x600000000, 0x300000000, 0x180000000, 0xc0000000, 0x60000000, 0x30000000, 0x18000000, 0xc000000, 0x6000000, 0x3000000, 0x1800000, 0xc00000, 0x600000, 0x300000, 0x180000, 0xc0000, 0x60000, 0x30000, 0x18000, 0xc000, 0x6000, 0x3000, 0x1800, 0xc00, 0x600, 0x300, 0x180, 0xc0, 0x60, 0x30, 0x18, 0xc, 0x6, 0x3, 0x1]
/-- A concrete `64×64` matrix. -/
def exB64 : M64 := #v[0xf86c6a11d0c18e94, 0x3f0d8d423a1831d0, 0x47e1b1a84743063f, 0x28fc363508e860cd, 0x251f86c6a11d0c09, 0xe4a3f0d8d423a199, 0x9c947e1b1a847415, 0x13928fc363508eb4, 0xa27251f86c6a1191, 0x744e4a3f0d8d4268, 0xce89c947e1b1a822, 0xf9d13928fc363572, 0xbf3a27251f86c630, 0xd7e744e4a3f0d87e, 0xdafce89c947e1bdf, 0x3b5f9d13928fc381, 0x276bf3a27251f96d, 0x44ed7e744e4a3e2f, 0x89dafce89c946a4, 0x4113b5f9d1392996, 0x82276bf3a27248e, 0x21044ed7e744e519, 0x42089dafce89d71, 0xa084113b5f9d1180, 0x341082276bf3a033, 0x6821044ed7e763c, 0x20d042089dafcc2c, 0xe41a084113b5fb0b, 0xdc8341082276bc2b, 0xdb906821044ed4ad, 0x3b720d042089d979, 0xe76e41a08411389d, 0x5cedc8341082236a, 0x7e1b1a84743067e7, 0x8fc363508e8608f1, 0x51f86c6a11d0c544, 0x4a3f0d8d423a1d20, 0xc947e1b1a847465c, 0x3928fc363508edc5, 0x27251f86c6a118fe, 0x44e4a3f0d8d425e0, 0xe89c947e1b1a82e6, 0x9d13928fc363566b, 0xf3a27251f86c6d2b, 0x7e744e4a3f0d8ad3, 0xafce89c947e1b642, 0xb5f9d13928fc3e70, 0x76bf3a27251f8e64, 0x4ed7e744e4a3f9d9, 0x89dafce89c947779, 0x113b5f9d13928606, 0x82276bf3a2725bd2, 0x1044ed7e744e40ae, 0x42089dafce89c3bd, 0x84113b5f9d1324d, 0x41082276bf3a2cf7, 0x6821044ed7e748a5, 0xd042089dafce42e, 0x41a084113b5f9036, 0xc8341082276bfe38, 0xb906821044ed7065, 0xb720d042089da144, 0x76e41a084113bafc, 0xcedc83410822793d]
/-- A concrete vector of length 64. -/
def exX64 : V64 := 0x123456789abcdef1

/-- A concrete invertible, non-symmetric `128×128` matrix (ones on the diagonal and just right of it). -/
def exA128 : M128 := #v[#v[0xc000000000000000, 0x0], #v[0x6000000000000000, 0x0], #v[0x3000000000000000, 0x0], #v[0x1800000000000000, 0x0], #v[0xc00000000000000, 0x0], #v[0x600000000000000, 0x0], #v[0x300000000000000, 0x0], #v[0x180000000000000, 0x0], #v[0xc0000000000000, 0x0], #v[0x60000000000000, 0x0], #v[0x30000000000000, 0x0], #v[0x18000000000000, 0x0], #v[0xc000000000000, 0x0], #v[0x6000000000000, 0x0], #v[0x3000000000000, 0x0], #v[0x1800000000000, 0x0], #v[0xc00000000000, 0x0], #v[0x600000000000, 0x0], #v[0x300000000000, 0x0], #v[0x180000000000, 0x0], #v[0xc0000000000, 0x0], #v[0x60000000000, 0x0], #v[0x30000000000, 0x0], #v[0x18000000000, 0x0], #v[0xc000000000, 0x0], #v[0x6000000000, 0x0], #v[0x3000000000, 0x0], #v[0x1800000000, 0x0], #v[0xc00000000, 0x0], #v[0x600000000, 0x0], #v[0x300000000, 0x0], #v[0x180000000, 0x0], #v[0xc0000000, 0x0], #v[0x60000000, 0x0], #v[0x30000000, 0x0], #v[0x18000000, 0x0], #v[0xc000000, 0x0], #v[0x6000000, 0x0], #v[0x3000000, 0x0], #v[0x1800000, 0x0], #v[0xc00000, 0x0], #v[0x600000, 0x0], #v[0x300000, 0x0], #v[0x180000, 0x0], #v[0xc0000, 0x0], #v[0x60000, 0x0], #v[0x30000, 0x0], #v[0x18000, 0x0], #v[0xc000, 0x0], #v[0x6000, 0x0], #v[0x3000, 0x0], #v[0x1800, 0x0], #v[0xc00, 0x0], #v[0x600, 0x0], #v[0x300, 0x0], #v[0x180, 0x0], #v[0xc0, 0x0], #v[0x60, 0x0], #v[0x30, 0x0], #v[0x18, 0x0], #v[0xc, 0x0], #v[0x6, 0x0], #v[0x3, 0x0], #v[0x1, 0x8000000000000000], #v[0x0, 0xc000000000000000], #v[0x0, 0x6000000000000000], #v[0x0, 0x3000000000000000], #v[0x0, 0x1800000000000000], #v[0x0, 0xc00000000000000], #v[0x0, 0x600000000000000], #v[0x0, 0x300000000000000], #v[0x0, 0x180000000000000], #v[0x0, 0xc0000000000000], #v[0x0, 0x60000000000000], #v[0x0, 0x30000000000000], #v[0x0, 0x18000000000000], #v[0x0, 0xc000000000000], #v[0x0, 0x6000000000000], #v[0x0, 0x3000000000000], #v[0x0, 0x1800000000000], #v[0x0, 0xc00000000000], #v[0x0, 0x600000000000], #v[0x0, 0x300000000000], #v[0x0, 0x180000000000], #v[0x0, 0xc0000000000], #v[0x0, 0x60000000000], #v[0x0, 0x30000000000], #v[0x0, 0x18000000000], #v[0x0, 0xc000000000], #v[0x0, 0x6000000000], #v[0x0, 0x3000000000], #v[0x0, 0x1800000000], #v[0x0, 0xc00000000], #v[0x0, 0x600000000], #v[0x0, 0x300000000], #v[0x0, 0x180000000], #v[0x0, 0xc0000000], #v[0x0, 0x60000000], #v[0x0, 0x30000000], #v[0x0, 0x18000000], #v[0x0, 0xc000000], #v[0x0, 0x6000000], #v[0x0, 0x3000000], #v[0x0, 0x1800000], #v[0x0, 0xc00000], #v[0x0, 0x600000], #v[0x0, 0x300000], #v[0x0, 0x180000], #v[0x0, 0xc0000], #v[0x0, 0x60000], #v[0x0, 0x30000], #v[0x0, 0x18000], #v[0x0, 0xc000], #v[0x0, 0x6000], #v[0x0, 0x3000], #v[0x0, 0x1800], #v[0x0, 0xc00], #v[0x0, 0x600], #v[0x0, 0x300], #v[0x0, 0x180], #v[0x0, 0xc0], #v[0x0, 0x60], #v[0x0, 0x30], #v[0x0, 0x18], #v[0x0, 0xc], #v[0x0, 0x6], #v[0x0, 0x3], #v[0x0, 0x1]]
/-- A concrete `128×128` matrix. -/
def exB128 : M128 := #v[#v[0x1082276bf3a27251, 0xf86c6a11d0c18e94], #v[0x821044ed7e744e4a, 0x3f0d8d423a1831d0], #v[0xd042089dafce89c9, 0x47e1b1a84743063f], #v[0x1a084113b5f9d139, 0x28fc363508e860cd], #v[0x8341082276bf3a27, 0x251f86c6a11d0c09], #v[0x906821044ed7e744, 0xe4a3f0d8d423a199], #v[0x720d042089dafce8, 0x9c947e1b1a847415], #v[0x6e41a084113b5f9d, 0x13928fc363508eb4], #v[0xedc8341082276bf3, 0xa27251f86c6a1191], #v[0x9db906821044ed7e, 0x744e4a3f0d8d4268], #v[0x73b720d042089daf, 0xce89c947e1b1a822], #v[0x2e76e41a084113b5, 0xf9d13928fc363572], #v[0x5cedc8341082276, 0xbf3a27251f86c630], #v[0xc0b9db906821044e, 0xd7e744e4a3f0d87e], #v[0x18173b720d042089, 0xdafce89c947e1bdf], #v[0x302e76e41a08411, 0x3b5f9d13928fc381], #v[0xc0605cedc8341082, 0x276bf3a27251f96d], #v[0x980c0b9db9068210, 0x44ed7e744e4a3e2f], #v[0x73018173b720d042, 0x89dafce89c946a4], #v[0xce60302e76e41a08, 0x4113b5f9d1392996], #v[0x39cc0605cedc8341, 0x82276bf3a27248e], #v[0xe73980c0b9db9068, 0x21044ed7e744e519], #v[0x7ce73018173b720d, 0x42089dafce89d71], #v[0xaf9ce60302e76e41, 0xa084113b5f9d1180], #v[0x15f39cc0605cedc8, 0x341082276bf3a033], #v[0x82be73980c0b9db9, 0x6821044ed7e763c], #v[0xf057ce73018173b7, 0x20d042089dafcc2c], #v[0x3e0af9ce60302e76, 0xe41a084113b5fb0b], #v[0xa7c15f39cc0605ce, 0xdc8341082276bc2b], #v[0x94f82be73980c0b9, 0xdb906821044ed4ad], #v[0xd29f057ce7301817, 0x3b720d042089d979], #v[0xfa53e0af9ce60302, 0xe76e41a08411389d], #v[0x7f4a7c15f39cc060, 0x5cedc8341082236a], #v[0x42089dafce89c94, 0x7e1b1a84743067e7], #v[0xa084113b5f9d1392, 0x8fc363508e8608f1], #v[0x341082276bf3a272, 0x51f86c6a11d0c544], #v[0x6821044ed7e744e, 0x4a3f0d8d423a1d20], #v[0x20d042089dafce89, 0xc947e1b1a847465c], #v[0xe41a084113b5f9d1, 0x3928fc363508edc5], #v[0xdc8341082276bf3a, 0x27251f86c6a118fe], #v[0xdb906821044ed7e7, 0x44e4a3f0d8d425e0], #v[0x3b720d042089dafc, 0xe89c947e1b1a82e6], #v[0xe76e41a084113b5f, 0x9d13928fc363566b], #v[0x5cedc8341082276b, 0xf3a27251f86c6d2b], #v[0xb9db906821044ed, 0x7e744e4a3f0d8ad3], #v[0x8173b720d042089d, 0xafce89c947e1b642], #v[0x302e76e41a084113, 0xb5f9d13928fc3e70], #v[0x605cedc83410822, 0x76bf3a27251f8e64], #v[0x80c0b9db90682104, 0x4ed7e744e4a3f9d9], #v[0x3018173b720d0420, 0x89dafce89c947779], #v[0xe60302e76e41a084, 0x113b5f9d13928606], #v[0x9cc0605cedc83410, 0x82276bf3a2725bd2], #v[0x73980c0b9db90682, 0x1044ed7e744e40ae], #v[0xce73018173b720d0, 0x42089dafce89c3bd], #v[0xf9ce60302e76e41a, 0x84113b5f9d1324d], #v[0x5f39cc0605cedc83, 0x41082276bf3a2cf7], #v[0x2be73980c0b9db90, 0x6821044ed7e748a5], #v[0x57ce73018173b72, 0xd042089dafce42e], #v[0xe0af9ce60302e76e, 0x41a084113b5f9036], #v[0x7c15f39cc0605ced, 0xc8341082276bfe38], #v[0x4f82be73980c0b9d, 0xb906821044ed7065], #v[0x29f057ce73018173, 0xb720d042089da144], #v[0xa53e0af9ce60302e, 0x76e41a084113bafc], #v[0xf4a7c15f39cc0605, 0xcedc83410822793d], #v[0xfe94f82be73980c0, 0xb9db906821045ed6], #v[0x84113b5f9d13928, 0xfc363508e860d7c8], #v[0x41082276bf3a2725, 0x1f86c6a11d0c09ec], #v[0x6821044ed7e744e4, 0xa3f0d8d423a19297], #v[0xd042089dafce89c, 0x947e1b1a84742272], #v[0x41a084113b5f9d13, 0x928fc363508e9496], #v[0xc8341082276bf3a2, 0x7251f86c6a11c3e4], #v[0xb906821044ed7e74, 0x4e4a3f0d8d4229aa], #v[0xb720d042089dafce, 0x89c947e1b1a85302], #v[0x76e41a084113b5f9, 0xd13928fc36351c3a], #v[0xcedc8341082276bf, 0x3a27251f86c6b478], #v[0xb9db906821044ed7, 0xe744e4a3f0d8c1d9], #v[0x173b720d042089da, 0xfce89c947e1b0c15], #v[0x2e76e41a084113b, 0x5f9d13928fc3747a], #v[0x605cedc834108227, 0x6bf3a27251f87baf], #v[0xc0b9db906821044, 0xed7e744e4a3f15ef], #v[0x18173b720d04208, 0x9dafce89c947f8b0], #v[0x60302e76e41a0841, 0x13b5f9d13928e594], #v[0xcc0605cedc834108, 0x2276bf3a272505c3], #v[0x3980c0b9db906821, 0x44ed7e744e4b91a], #v[0xe73018173b720d04, 0x2089dafce89c8fef], #v[0x9ce60302e76e41a0, 0x84113b5f9d138eb5], #v[0xf39cc0605cedc834, 0x1082276bf3a26eb4], #v[0xbe73980c0b9db906, 0x821044ed7e7453d8], #v[0x57ce73018173b720, 0xd042089dafce9788], #v[0xaf9ce60302e76e4, 0x1a084113b5f9cfcb], #v[0xc15f39cc0605cedc, 0x8341082276bf2582], #v[0xf82be73980c0b9db, 0x906821044ed7c71e], #v[0x9f057ce73018173b, 0x720d042089daddf9], #v[0x53e0af9ce60302e7, 0x6e41a084113b7e57], #v[0x4a7c15f39cc0605c, 0xedc8341082274976], #v[0xe94f82be73980c0b, 0x9db906821044ce3c], #v[0xfd29f057ce730181, 0x73b720d04208b9ae], #v[0x1082276bf3a27251, 0xf86c6a11d0c1aa57], #v[0x821044ed7e744e4a, 0x3f0d8d423a181457], #v[0xd042089dafce89c9, 0x47e1b1a847432070], #v[0x1a084113b5f9d139, 0x28fc363508e847d6], #v[0x8341082276bf3a27, 0x251f86c6a11d2bc2], #v[0x906821044ed7e744, 0xe4a3f0d8d4238926], #v[0x720d042089dafce8, 0x9c947e1b1a845d42], #v[0x6e41a084113b5f9d, 0x13928fc36350a4c7], #v[0xedc8341082276bf3, 0xa27251f86c6a3ac2], #v[0x9db906821044ed7e, 0x744e4a3f0d8d69df], #v[0x73b720d042089daf, 0xce89c947e1b184fd], #v[0x2e76e41a084113b5, 0xf9d13928fc361899], #v[0x5cedc8341082276, 0xbf3a27251f86e8cb], #v[0xc0b9db906821044e, 0xd7e744e4a3f0f791], #v[0x18173b720d042089, 0xdafce89c947e2b38], #v[0x302e76e41a08411, 0x3b5f9d13928ff262], #v[0xc0605cedc8341082, 0x276bf3a27251c98e], #v[0x980c0b9db9068210, 0x44ed7e744e4a0dc8], #v[0x73018173b720d042, 0x89dafce89c9744b], #v[0xce60302e76e41a08, 0x4113b5f9d1391c6d], #v[0x39cc0605cedc8341, 0x82276bf3a271065], #v[0xe73980c0b9db9068, 0x21044ed7e744d2c6], #v[0x7ce73018173b720d, 0x42089dafce8abc6], #v[0xaf9ce60302e76e41, 0xa084113b5f9d2bd3], #v[0x15f39cc0605cedc8, 0x341082276bf39b40], #v[0x82be73980c0b9db9, 0x6821044ed7e4e6b], #v[0xf057ce73018173b7, 0x20d042089daff593], #v[0x3e0af9ce60302e76, 0xe41a084113b5c5c0], #v[0xa7c15f39cc0605ce, 0xdc83410822768230], #v[0x94f82be73980c0b9, 0xdb906821044ee9e2], #v[0xd29f057ce7301817, 0x3b720d042089e5fe]]
/-- A concrete vector of length 128. -/
def exX128 : V128 := #v[0xa5a55a5a0ff0f00f, 0x123456789abcdef1]

/-- A concrete invertible, non-symmetric `256×256` matrix (ones on the diagonal and just right of it). -/
def exA256 : M256 := #v[#v[0xc000000000000000, 0x0, 0x0, 0x0], #v[0x6000000000000000, 0x0, 0x0, 0x0], #v[0x3000000000000000, 0x0, 0x0, 0x0], #v[0x1800000000000000, 0x0, 0x0, 0x0], #v[0xc00000000000000, 0x0, 0x0, 0x0], #v[0x600000000000000, 0x0, 0x0, 0x0], #v[0x300000000000000, 0x0, 0x0, 0x0], #v[0x180000000000000, 0x0, 0x0, 0x0], #v[0xc0000000000000, 0x0, 0x0, 0x0], #v[0x60000000000000, 0x0, 0x0, 0x0], #v[0x30000000000000, 0x0, 0x0, 0x0], #v[0x18000000000000, 0x0, 0x0, 0x0], #v[0xc000000000000, 0x0, 0x0, 0x0], #v[0x6000000000000, 0x0, 0x0, 0x0], #v[0x3000000000000, 0x0, 0x0, 0x0], #v[0x1800000000000, 0x0, 0x0, 0x0], #v[0xc00000000000, 0x0, 0x0, 0x0], #v[0x600000000000, 0x0, 0x0, 0x0], #v[0x300000000000, 0x0, 0x0, 0x0], #v[0x180000000000, 0x0, 0x0, 0x0], #v[0xc0000000000, 0x0, 0x0, 0x0], #v[0x60000000000, 0x0, 0x0, 0x0], #v[0x30000000000, 0x0, 0x0, 0x0], #v[0x18000000000, 0x0, 0x0, 0x0], #v[0xc000000000, 0x0, 0x0, 0x0], #v[0x6000000000, 0x0, 0x0, 0x0], #v[0x3000000000, 0x0, 0x0, 0x0], #v[0x1800000000, 0x0, 0x0, 0x0], #v[0xc00000000, 0x0, 0x0, 0x0], #v[0x600000000, 0x0, 0x0, 0x0], #v[0x300000000, 0x0, 0x0, 0x0], #v[0x180000000, 0x0, 0x0, 0x0], #v[0xc0000000, 0x0, 0x0, 0x0], #v[0x60000000, 0x0, 0x0, 0x0], #v[0x30000000, 0x0, 0x0, 0x0], #v[0x18000000, 0x0, 0x0, 0x0], #v[0xc000000, 0x0, 0x0, 0x0], #v[0x6000000, 0x0, 0x0, 0x0], #v[0x3000000, 0x0, 0x0, 0x0], #v[0x1800000, 0x0, 0x0, 0x0], #v[0xc00000, 0x0, 0x0, 0x0], #v[0x600000, 0x0, 0x0, 0x0], #v[0x300000, 0x0, 0x0, 0x0], #v[0x180000, 0x0, 0x0, 0x0], #v[0xc0000, 0x0, 0x0, 0x0], #v[0x60000, 0x0, 0x0, 0x0], #v[0x30000, 0x0, 0x0, 0x0], #v[0x18000, 0x0, 0x0, 0x0], #v[0xc000, 0x0, 0x0, 0x0], #v[0x6000, 0x0, 0x0, 0x0], #v[0x3000, 0x0, 0x0, 0x0], #v[0x1800, 0x0, 0x0, 0x0], #v[0xc00, 0x0, 0x0, 0x0], #v[0x600, 0x0, 0x0, 0x0], #v[0x300, 0x0, 0x0, 0x0], #v[0x180, 0x0, 0x0, 0x0], #v[0xc0, 0x0, 0x0, 0x0], #v[0x60, 0x0, 0x0, 0x0], #v[0x30, 0x0, 0x0, 0x0], #v[0x18, 0x0, 0x0, 0x0], #v[0xc, 0x0, 0x0, 0x0], #v[0x6, 0x0, 0x0, 0x0], #v[0x3, 0x0, 0x0, 0x0], #v[0x1, 0x8000000000000000, 0x0, 0x0], #v[0x0, 0xc000000000000000, 0x0, 0x0], #v[0x0, 0x6000000000000000, 0x0, 0x0], #v[0x0, 0x3000000000000000, 0x0, 0x0], #v[0x0, 0x1800000000000000, 0x0, 0x0], #v[0x0, 0xc00000000000000, 0x0, 0x0], #v[0x0, 0x600000000000000, 0x0, 0x0], #v[0x0, 0x300000000000000, 0x0, 0x0], #v[0x0, 0x180000000000000, 0x0, 0x0], #v[0x0, 0xc0000000000000, 0x0, 0x0], #v[0x0, 0x60000000000000, 0x0, 0x0], #v[0x0, 0x30000000000000, 0x0, 0x0], #v[0x0, 0x18000000000000, 0x0, 0x0], #v[0x0, 0xc000000000000, 0x0, 0x0], #v[0x0, 0x6000000000000, 0x0, 0x0], #v[0x0, 0x3000000000000, 0x0, 0x0], #v[0x0, 0x1800000000000, 0x0, 0x0], #v[0x0, 0xc00000000000, 0x0, 0x0], #v[0x0, 0x600000000000, 0x0, 0x0], #v[0x0, 0x300000000000, 0x0, 0x0], #v[0x0, 0x180000000000, 0x0, 0x0], #v[0x0, 0xc0000000000, 0x0, 0x0], #v[0x0, 0x60000000000, 0x0, 0x0], #v[0x0, 0x30000000000, 0x0, 0x0], #v[0x0, 0x18000000000, 0x0, 0x0], #v[0x0, 0xc000000000, 0x0, 0x0], #v[0x0, 0x6000000000, 0x0, 0x0], #v[0x0, 0x3000000000, 0x0, 0x0], #v[0x0, 0x1800000000, 0x0, 0x0], #v[0x0, 0xc00000000, 0x0, 0x0], #v[0x0, 0x600000000, 0x0, 0x0], #v[0x0, 0x300000000, 0x0, 0x0], #v[0x0, 0x180000000, 0x0, 0x0], #v[0x0, 0xc0000000, 0x0, 0x0], #v[0x0, 0x60000000, 0x0, 0x0], #v[0x0, 0x30000000, 0x0, 0x0], #v[0x0, 0x18000000, 0x0, 0x0], #v[0x0, 0xc000000, 0x0, 0x0], #v[0x0, 0x6000000, 0x0, 0x0], #v[0x0, 0x3000000, 0x0, 0x0], #v[0x0, 0x1800000, 0x0, 0x0], #v[0x0, 0xc00000, 0x0, 0x0], #v[0x0, 0x600000, 0x0, 0x0], #v[0x0, 0x300000, 0x0, 0x0], #v[0x0, 0x180000, 0x0, 0x0], #v[0x0, 0xc0000, 0x0, 0x0], #v[0x0, 0x60000, 0x0, 0x0], #v[0x0, 0x30000, 0x0, 0x0], #v[0x0, 0x18000, 0x0, 0x0], #v[0x0, 0xc000, 0x0, 0x0], #v[0x0, 0x6000, 0x0, 0x0], #v[0x0, 0x3000, 0x0, 0x0], #v[0x0, 0x1800, 0x0, 0x0], #v[0x0, 0xc00, 0x0, 0x0], #v[0x0, 0x600, 0x0, 0x0], #v[0x0, 0x300, 0x0, 0x0], #v[0x0, 0x180, 0x0, 0x0], #v[0x0, 0xc0, 0x0, 0x0], #v[0x0, 0x60, 0x0, 0x0], #v[0x0, 0x30, 0x0, 0x0], #v[0x0, 0x18, 0x0, 0x0], #v[0x0, 0xc, 0x0, 0x0], #v[0x0, 0x6, 0x0, 0x0], #v[0x0, 0x3, 0x0, 0x0], #v[0x0, 0x1, 0x8000000000000000, 0x0], #v[0x0, 0x0, 0xc000000000000000, 0x0], #v[0x0, 0x0, 0x6000000000000000, 0x0], #v[0x0, 0x0, 0x3000000000000000, 0x0], #v[0x0, 0x0, 0x1800000000000000, 0x0], #v[0x0, 0x0, 0xc00000000000000, 0x0], #v[0x0, 0x0, 0x600000000000000, 0x0], #v[0x0, 0x0, 0x300000000000000, 0x0], #v[0x0, 0x0, 0x180000000000000, 0x0], #v[0x0, 0x0, 0xc0000000000000, 0x0], #v[0x0, 0x0, 0x60000000000000, 0x0], #v[0x0, 0x0, 0x30000000000000, 0x0], #v[0x0, 0x0, 0x18000000000000, 0x0], #v[0x0, 0x0, 0xc000000000000, 0x0], #v[0x0, 0x0, 0x6000000000000, 0x0], #v[0x0, 0x0, 0x3000000000000, 0x0], #v[0x0, 0x0, 0x1800000000000, 0x0], #v[0x0, 0x0, 0xc00000000000, 0x0], #v[0x0, 0x0, 0x600000000000, 0x0], #v[0x0, 0x0, 0x300000000000, 0x0], #v[0x0, 0x0, 0x180000000000, 0x0], #v[0x0, 0x0, 0xc0000000000, 0x0], #v[0x0, 0x0, 0x60000000000, 0x0], #v[0x0, 0x0, 0x30000000000, 0x0], #v[0x0, 0x0, 0x18000000000, 0x0], #v[0x0, 0x0, 0xc000000000, 0x0], #v[0x0, 0x0, 0x6000000000, 0x0], #v[0x0, 0x0, 0x3000000000, 0x0], #v[0x0, 0x0, 0x1800000000, 0x0], #v[0x0, 0x0, 0xc00000000, 0x0], #v[0x0, 0x0, 0x600000000, 0x0], #v[0x0, 0x0, 0x300000000, 0x0], #v[0x0, 0x0, 0x180000000, 0x0], #v[0x0, 0x0, 0xc0000000, 0x0], #v[0x0, 0x0, 0x60000000, 0x0], #v[0x0, 0x0, 0x30000000, 0x0], #v[0x0, 0x0, 0x18000000, 0x0], #v[0x0, 0x0, 0xc000000, 0x0], #v[0x0, 0x0, 0x6000000, 0x0], #v[0x0, 0x0, 0x3000000, 0x0], #v[0x0, 0x0, 0x1800000, 0x0], #v[0x0, 0x0, 0xc00000, 0x0], #v[0x0, 0x0, 0x600000, 0x0], #v[0x0, 0x0, 0x300000, 0x0], #v[0x0, 0x0, 0x180000, 0x0], #v[0x0, 0x0, 0xc0000, 0x0], #v[0x0, 0x0, 0x60000, 0x0], #v[0x0, 0x0, 0x30000, 0x0], #v[0x0, 0x0, 0x18000, 0x0], #v[0x0, 0x0, 0xc000, 0x0], #v[0x0, 0x0, 0x6000, 0x0], #v[0x0, 0x0, 0x3000, 0x0], #v[0x0, 0x0, 0x1800, 0x0], #v[0x0, 0x0, 0xc00, 0x0], #v[0x0, 0x0, 0x600, 0x0], #v[0x0, 0x0, 0x300, 0x0], #v[0x0, 0x0, 0x180, 0x0], #v[0x0, 0x0, 0xc0, 0x0], #v[0x0, 0x0, 0x60, 0x0], #v[0x0, 0x0, 0x30, 0x0], #v[0x0, 0x0, 0x18, 0x0], #v[0x0, 0x0, 0xc, 0x0], #v[0x0, 0x0, 0x6, 0x0], #v[0x0, 0x0, 0x3, 0x0], #v[0x0, 0x0, 0x1, 0x8000000000000000], #v[0x0, 0x0, 0x0, 0xc000000000000000], #v[0x0, 0x0, 0x0, 0x6000000000000000], #v[0x0, 0x0, 0x0, 0x3000000000000000], #v[0x0, 0x0, 0x0, 0x1800000000000000], #v[0x0, 0x0, 0x0, 0xc00000000000000], #v[0x0, 0x0, 0x0, 0x600000000000000], #v[0x0, 0x0, 0x0, 0x300000000000000], #v[0x0, 0x0, 0x0, 0x180000000000000], #v[0x0, 0x0, 0x0, 0xc0000000000000], #v[0x0, 0x0, 0x0, 0x60000000000000], #v[0x0, 0x0, 0x0, 0x30000000000000], #v[0x0, 0x0, 0x0, 0x18000000000000], #v[0x0, 0x0, 0x0, 0xc000000000000], #v[0x0, 0x0, 0x0, 0x6000000000000], #v[0x0, 0x0, 0x0, 0x3000000000000], #v[0x0, 0x0, 0x0, 0x1800000000000], #v[0x0, 0x0, 0x0, 0xc00000000000], #v[0x0, 0x0, 0x0, 0x600000000000], #v[0x0, 0x0, 0x0, 0x300000000000], #v[0x0, 0x0, 0x0, 0x180000000000], #v[0x0, 0x0, 0x0, 0xc0000000000], #v[0x0, 0x0, 0x0, 0x60000000000], #v[0x0, 0x0, 0x0, 0x30000000000], #v[0x0, 0x0, 0x0, 0x18000000000], #v[0x0, 0x0, 0x0, 0xc000000000], #v[0x0, 0x0, 0x0, 0x6000000000], #v[0x0, 0x0, 0x0, 0x3000000000], #v[0x0, 0x0, 0x0, 0x1800000000], #v[0x0, 0x0, 0x0, 0xc00000000], #v[0x0, 0x0, 0x0, 0x600000000], #v[0x0, 0x0, 0x0, 0x300000000], #v[0x0, 0x0, 0x0, 0x180000000], #v[0x0, 0x0, 0x0, 0xc0000000], #v[0x0, 0x0, 0x0, 0x60000000], #v[0x0, 0x0, 0x0, 0x30000000], #v[0x0, 0x0, 0x0, 0x18000000], #v[0x0, 0x0, 0x0, 0xc000000], #v[0x0, 0x0, 0x0, 0x6000000], #v[0x0, 0x0, 0x0, 0x3000000], #v[0x0, 0x0, 0x0, 0x1800000], #v[0x0, 0x0, 0x0, 0xc00000], #v[0x0, 0x0, 0x0, 0x600000], #v[0x0, 0x0, 0x0, 0x300000], #v[0x0, 0x0, 0x0, 0x180000], #v[0x0, 0x0, 0x0, 0xc0000], #v[0x0, 0x0, 0x0, 0x60000], #v[0x0, 0x0, 0x0, 0x30000], #v[0x0, 0x0, 0x0, 0x18000], #v[0x0, 0x0, 0x0, 0xc000], #v[0x0, 0x0, 0x0, 0x6000], #v[0x0, 0x0, 0x0, 0x3000], #v[0x0, 0x0, 0x0, 0x1800], #v[0x0, 0x0, 0x0, 0xc00], #v[0x0, 0x0, 0x0, 0x600], #v[0x0, 0x0, 0x0, 0x300], #v[0x0, 0x0, 0x0, 0x180], #v[0x0, 0x0, 0x0, 0xc0], #v[0x0, 0x0, 0x0, 0x60], #v[0x0, 0x0, 0x0, 0x30], #v[0x0, 0x0, 0x0, 0x18], #v[0x0, 0x0, 0x0, 0xc], #v[0x0, 0x0, 0x0, 0x6], #v[0x0, 0x0, 0x0, 0x3], #v[0x0, 0x0, 0x0, 0x1]]
/-- A concrete `256×256` matrix. -/
def exB256 : M256 := #v[#v[0x9e3779b97f4a7c15, 0xf39cc0605cedc834, 0x1082276bf3a27251, 0xf86c6a11d0c18e94], #v[0x13c6ef372fe94f82, 0xbe73980c0b9db906, 0x821044ed7e744e4a, 0x3f0d8d423a1831d0], #v[0x278dde6e5fd29f0, 0x57ce73018173b720, 0xd042089dafce89c9, 0x47e1b1a84743063f], #v[0x4f1bbcdcbfa53e, 0xaf9ce60302e76e4, 0x1a084113b5f9d139, 0x28fc363508e860cd], #v[0x9e3779b97f4a7, 0xc15f39cc0605cedc, 0x8341082276bf3a27, 0x251f86c6a11d0c09], #v[0x13c6ef372fe94, 0xf82be73980c0b9db, 0x906821044ed7e744, 0xe4a3f0d8d423a199], #v[0x278dde6e5fd2, 0x9f057ce73018173b, 0x720d042089dafce8, 0x9c947e1b1a847415], #v[0x4f1bbcdcbfa, 0x53e0af9ce60302e7, 0x6e41a084113b5f9d, 0x13928fc363508eb4], #v[0x9e3779b97f, 0x4a7c15f39cc0605c, 0xedc8341082276bf3, 0xa27251f86c6a1191], #v[0x13c6ef372f, 0xe94f82be73980c0b, 0x9db906821044ed7e, 0x744e4a3f0d8d4268], #v[0x278dde6e5, 0xfd29f057ce730181, 0x73b720d042089daf, 0xce89c947e1b1a822], #v[0x4f1bbcdc, 0xbfa53e0af9ce6030, 0x2e76e41a084113b5, 0xf9d13928fc363572], #v[0x9e3779b, 0x97f4a7c15f39cc06, 0x5cedc8341082276, 0xbf3a27251f86c630], #v[0x13c6ef3, 0x72fe94f82be73980, 0xc0b9db906821044e, 0xd7e744e4a3f0d87e], #v[0x278dde, 0x6e5fd29f057ce730, 0x18173b720d042089, 0xdafce89c947e1bdf], #v[0x4f1bb, 0xcdcbfa53e0af9ce6, 0x302e76e41a08411, 0x3b5f9d13928fc381], #v[0x9e37, 0x79b97f4a7c15f39c, 0xc0605cedc8341082, 0x276bf3a27251f96d], #v[0x13c6, 0xef372fe94f82be73, 0x980c0b9db9068210, 0x44ed7e744e4a3e2f], #v[0x278, 0xdde6e5fd29f057ce, 0x73018173b720d042, 0x89dafce89c946a4], #v[0x4f, 0x1bbcdcbfa53e0af9, 0xce60302e76e41a08, 0x4113b5f9d1392996], #v[0x9, 0xe3779b97f4a7c15f, 0x39cc0605cedc8341, 0x82276bf3a27248e], #v[0x1, 0x3c6ef372fe94f82b, 0xe73980c0b9db9068, 0x21044ed7e744e519], #v[0x0, 0x278dde6e5fd29f05, 0x7ce73018173b720d, 0x42089dafce89d71], #v[0x0, 0x4f1bbcdcbfa53e0, 0xaf9ce60302e76e41, 0xa084113b5f9d1180], #v[0x0, 0x9e3779b97f4a7c, 0x15f39cc0605cedc8, 0x341082276bf3a033], #v[0x0, 0x13c6ef372fe94f, 0x82be73980c0b9db9, 0x6821044ed7e763c], #v[0x0, 0x278dde6e5fd29, 0xf057ce73018173b7, 0x20d042089dafcc2c], #v[0x0, 0x4f1bbcdcbfa5, 0x3e0af9ce60302e76, 0xe41a084113b5fb0b], #v[0x0, 0x9e3779b97f4, 0xa7c15f39cc0605ce, 0xdc8341082276bc2b], #v[0x0, 0x13c6ef372fe, 0x94f82be73980c0b9, 0xdb906821044ed4ad], #v[0x0, 0x278dde6e5f, 0xd29f057ce7301817, 0x3b720d042089d979], #v[0x0, 0x4f1bbcdcb, 0xfa53e0af9ce60302, 0xe76e41a08411389d], #v[0x0, 0x9e3779b9, 0x7f4a7c15f39cc060, 0x5cedc8341082236a], #v[0x278dde6e5fd29f05, 0x7ce73018173b720d, 0x42089dafce89c94, 0x7e1b1a84743067e7], #v[0x4f1bbcdcbfa53e0, 0xaf9ce60302e76e41, 0xa084113b5f9d1392, 0x8fc363508e8608f1], #v[0x9e3779b97f4a7c, 0x15f39cc0605cedc8, 0x341082276bf3a272, 0x51f86c6a11d0c544], #v[0x13c6ef372fe94f, 0x82be73980c0b9db9, 0x6821044ed7e744e, 0x4a3f0d8d423a1d20], #v[0x278dde6e5fd29, 0xf057ce73018173b7, 0x20d042089dafce89, 0xc947e1b1a847465c], #v[0x4f1bbcdcbfa5, 0x3e0af9ce60302e76, 0xe41a084113b5f9d1, 0x3928fc363508edc5], #v[0x9e3779b97f4, 0xa7c15f39cc0605ce, 0xdc8341082276bf3a, 0x27251f86c6a118fe], #v[0x13c6ef372fe, 0x94f82be73980c0b9, 0xdb906821044ed7e7, 0x44e4a3f0d8d425e0], #v[0x278dde6e5f, 0xd29f057ce7301817, 0x3b720d042089dafc, 0xe89c947e1b1a82e6], #v[0x4f1bbcdcb, 0xfa53e0af9ce60302, 0xe76e41a084113b5f, 0x9d13928fc363566b], #v[0x9e3779b9, 0x7f4a7c15f39cc060, 0x5cedc8341082276b, 0xf3a27251f86c6d2b], #v[0x13c6ef37, 0x2fe94f82be73980c, 0xb9db906821044ed, 0x7e744e4a3f0d8ad3], #v[0x278dde6, 0xe5fd29f057ce7301, 0x8173b720d042089d, 0xafce89c947e1b642], #v[0x4f1bbc, 0xdcbfa53e0af9ce60, 0x302e76e41a084113, 0xb5f9d13928fc3e70], #v[0x9e377, 0x9b97f4a7c15f39cc, 0x605cedc83410822, 0x76bf3a27251f8e64], #v[0x13c6e, 0xf372fe94f82be739, 0x80c0b9db90682104, 0x4ed7e744e4a3f9d9], #v[0x278d, 0xde6e5fd29f057ce7, 0x3018173b720d0420, 0x89dafce89c947779], #v[0x4f1, 0xbbcdcbfa53e0af9c, 0xe60302e76e41a084, 0x113b5f9d13928606], #v[0x9e, 0x3779b97f4a7c15f3, 0x9cc0605cedc83410, 0x82276bf3a2725bd2], #v[0x13, 0xc6ef372fe94f82be, 0x73980c0b9db90682, 0x1044ed7e744e40ae], #v[0x2, 0x78dde6e5fd29f057, 0xce73018173b720d0, 0x42089dafce89c3bd], #v[0x0, 0x4f1bbcdcbfa53e0a, 0xf9ce60302e76e41a, 0x84113b5f9d1324d], #v[0x0, 0x9e3779b97f4a7c1, 0x5f39cc0605cedc83, 0x41082276bf3a2cf7], #v[0x0, 0x13c6ef372fe94f8, 0x2be73980c0b9db90, 0x6821044ed7e748a5], #v[0x0, 0x278dde6e5fd29f, 0x57ce73018173b72, 0xd042089dafce42e], #v[0x0, 0x4f1bbcdcbfa53, 0xe0af9ce60302e76e, 0x41a084113b5f9036], #v[0x0, 0x9e3779b97f4a, 0x7c15f39cc0605ced, 0xc8341082276bfe38], #v[0x0, 0x13c6ef372fe9, 0x4f82be73980c0b9d, 0xb906821044ed7065], #v[0x0, 0x278dde6e5fd, 0x29f057ce73018173, 0xb720d042089da144], #v[0x0, 0x4f1bbcdcbf, 0xa53e0af9ce60302e, 0x76e41a084113bafc], #v[0x0, 0x9e3779b97, 0xf4a7c15f39cc0605, 0xcedc83410822793d], #v[0x0, 0x13c6ef372, 0xfe94f82be73980c0, 0xb9db906821045ed6], #v[0x4f1bbcdcbfa53e0a, 0xf9ce60302e76e41a, 0x84113b5f9d13928, 0xfc363508e860d7c8], #v[0x9e3779b97f4a7c1, 0x5f39cc0605cedc83, 0x41082276bf3a2725, 0x1f86c6a11d0c09ec], #v[0x13c6ef372fe94f8, 0x2be73980c0b9db90, 0x6821044ed7e744e4, 0xa3f0d8d423a19297], #v[0x278dde6e5fd29f, 0x57ce73018173b72, 0xd042089dafce89c, 0x947e1b1a84742272], #v[0x4f1bbcdcbfa53, 0xe0af9ce60302e76e, 0x41a084113b5f9d13, 0x928fc363508e9496], #v[0x9e3779b97f4a, 0x7c15f39cc0605ced, 0xc8341082276bf3a2, 0x7251f86c6a11c3e4], #v[0x13c6ef372fe9, 0x4f82be73980c0b9d, 0xb906821044ed7e74, 0x4e4a3f0d8d4229aa], #v[0x278dde6e5fd, 0x29f057ce73018173, 0xb720d042089dafce, 0x89c947e1b1a85302], #v[0x4f1bbcdcbf, 0xa53e0af9ce60302e, 0x76e41a084113b5f9, 0xd13928fc36351c3a], #v[0x9e3779b97, 0xf4a7c15f39cc0605, 0xcedc8341082276bf, 0x3a27251f86c6b478], #v[0x13c6ef372, 0xfe94f82be73980c0, 0xb9db906821044ed7, 0xe744e4a3f0d8c1d9], #v[0x278dde6e, 0x5fd29f057ce73018, 0x173b720d042089da, 0xfce89c947e1b0c15], #v[0x4f1bbcd, 0xcbfa53e0af9ce603, 0x2e76e41a084113b, 0x5f9d13928fc3747a], #v[0x9e3779, 0xb97f4a7c15f39cc0, 0x605cedc834108227, 0x6bf3a27251f87baf], #v[0x13c6ef, 0x372fe94f82be7398, 0xc0b9db906821044, 0xed7e744e4a3f15ef], #v[0x278dd, 0xe6e5fd29f057ce73, 0x18173b720d04208, 0x9dafce89c947f8b0], #v[0x4f1b, 0xbcdcbfa53e0af9ce, 0x60302e76e41a0841, 0x13b5f9d13928e594], #v[0x9e3, 0x779b97f4a7c15f39, 0xcc0605cedc834108, 0x2276bf3a272505c3], #v[0x13c, 0x6ef372fe94f82be7, 0x3980c0b9db906821, 0x44ed7e744e4b91a], #v[0x27, 0x8dde6e5fd29f057c, 0xe73018173b720d04, 0x2089dafce89c8fef], #v[0x4, 0xf1bbcdcbfa53e0af, 0x9ce60302e76e41a0, 0x84113b5f9d138eb5], #v[0x0, 0x9e3779b97f4a7c15, 0xf39cc0605cedc834, 0x1082276bf3a26eb4], #v[0x0, 0x13c6ef372fe94f82, 0xbe73980c0b9db906, 0x821044ed7e7453d8], #v[0x0, 0x278dde6e5fd29f0, 0x57ce73018173b720, 0xd042089dafce9788], #v[0x0, 0x4f1bbcdcbfa53e, 0xaf9ce60302e76e4, 0x1a084113b5f9cfcb], #v[0x0, 0x9e3779b97f4a7, 0xc15f39cc0605cedc, 0x8341082276bf2582], #v[0x0, 0x13c6ef372fe94, 0xf82be73980c0b9db, 0x906821044ed7c71e], #v[0x0, 0x278dde6e5fd2, 0x9f057ce73018173b, 0x720d042089daddf9], #v[0x0, 0x4f1bbcdcbfa, 0x53e0af9ce60302e7, 0x6e41a084113b7e57], #v[0x0, 0x9e3779b97f, 0x4a7c15f39cc0605c, 0xedc8341082274976], #v[0x0, 0x13c6ef372f, 0xe94f82be73980c0b, 0x9db906821044ce3c], #v[0x0, 0x278dde6e5, 0xfd29f057ce730181, 0x73b720d04208b9ae], #v[0x9e3779b97f4a7c15, 0xf39cc0605cedc834, 0x1082276bf3a27251, 0xf86c6a11d0c1aa57], #v[0x13c6ef372fe94f82, 0xbe73980c0b9db906, 0x821044ed7e744e4a, 0x3f0d8d423a181457], #v[0x278dde6e5fd29f0, 0x57ce73018173b720, 0xd042089dafce89c9, 0x47e1b1a847432070], #v[0x4f1bbcdcbfa53e, 0xaf9ce60302e76e4, 0x1a084113b5f9d139, 0x28fc363508e847d6], #v[0x9e3779b97f4a7, 0xc15f39cc0605cedc, 0x8341082276bf3a27, 0x251f86c6a11d2bc2], #v[0x13c6ef372fe94, 0xf82be73980c0b9db, 0x906821044ed7e744, 0xe4a3f0d8d4238926], #v[0x278dde6e5fd2, 0x9f057ce73018173b, 0x720d042089dafce8, 0x9c947e1b1a845d42], #v[0x4f1bbcdcbfa, 0x53e0af9ce60302e7, 0x6e41a084113b5f9d, 0x13928fc36350a4c7], #v[0x9e3779b97f, 0x4a7c15f39cc0605c, 0xedc8341082276bf3, 0xa27251f86c6a3ac2], #v[0x13c6ef372f, 0xe94f82be73980c0b, 0x9db906821044ed7e, 0x744e4a3f0d8d69df], #v[0x278dde6e5, 0xfd29f057ce730181, 0x73b720d042089daf, 0xce89c947e1b184fd], #v[0x4f1bbcdc, 0xbfa53e0af9ce6030, 0x2e76e41a084113b5, 0xf9d13928fc361899], #v[0x9e3779b, 0x97f4a7c15f39cc06, 0x5cedc8341082276, 0xbf3a27251f86e8cb], #v[0x13c6ef3, 0x72fe94f82be73980, 0xc0b9db906821044e, 0xd7e744e4a3f0f791], #v[0x278dde, 0x6e5fd29f057ce730, 0x18173b720d042089, 0xdafce89c947e2b38], #v[0x4f1bb, 0xcdcbfa53e0af9ce6, 0x302e76e41a08411, 0x3b5f9d13928ff262], #v[0x9e37, 0x79b97f4a7c15f39c, 0xc0605cedc8341082, 0x276bf3a27251c98e], #v[0x13c6, 0xef372fe94f82be73, 0x980c0b9db9068210, 0x44ed7e744e4a0dc8], #v[0x278, 0xdde6e5fd29f057ce, 0x73018173b720d042, 0x89dafce89c9744b], #v[0x4f, 0x1bbcdcbfa53e0af9, 0xce60302e76e41a08, 0x4113b5f9d1391c6d], #v[0x9, 0xe3779b97f4a7c15f, 0x39cc0605cedc8341, 0x82276bf3a271065], #v[0x1, 0x3c6ef372fe94f82b, 0xe73980c0b9db9068, 0x21044ed7e744d2c6], #v[0x0, 0x278dde6e5fd29f05, 0x7ce73018173b720d, 0x42089dafce8abc6], #v[0x0, 0x4f1bbcdcbfa53e0, 0xaf9ce60302e76e41, 0xa084113b5f9d2bd3], #v[0x0, 0x9e3779b97f4a7c, 0x15f39cc0605cedc8, 0x341082276bf39b40], #v[0x0, 0x13c6ef372fe94f, 0x82be73980c0b9db9, 0x6821044ed7e4e6b], #v[0x0, 0x278dde6e5fd29, 0xf057ce73018173b7, 0x20d042089daff593], #v[0x0, 0x4f1bbcdcbfa5, 0x3e0af9ce60302e76, 0xe41a084113b5c5c0], #v[0x0, 0x9e3779b97f4, 0xa7c15f39cc0605ce, 0xdc83410822768230], #v[0x0, 0x13c6ef372fe, 0x94f82be73980c0b9, 0xdb906821044ee9e2], #v[0x0, 0x278dde6e5f, 0xd29f057ce7301817, 0x3b720d042089e5fe], #v[0x0, 0x4f1bbcdcb, 0xfa53e0af9ce60302, 0xe76e41a084117b5e], #v[0x0, 0x9e3779b9, 0x7f4a7c15f39cc060, 0x5cedc83410826669], #v[0x278dde6e5fd29f05, 0x7ce73018173b720d, 0x42089dafce89c94, 0x7e1b1a84743021a0], #v[0x4f1bbcdcbfa53e0, 0xaf9ce60302e76e41, 0xa084113b5f9d1392, 0x8fc363508e864f7e], #v[0x9e3779b97f4a7c, 0x15f39cc0605cedc8, 0x341082276bf3a272, 0x51f86c6a11d0859f], #v[0x13c6ef372fe94f, 0x82be73980c0b9db9, 0x6821044ed7e744e, 0x4a3f0d8d423a5d2b], #v[0x278dde6e5fd29, 0xf057ce73018173b7, 0x20d042089dafce89, 0xc947e1b1a8470523], #v[0x4f1bbcdcbfa5, 0x3e0af9ce60302e76, 0xe41a084113b5f9d1, 0x3928fc363508af52], #v[0x9e3779b97f4, 0xa7c15f39cc0605ce, 0xdc8341082276bf3a, 0x27251f86c6a1554d], #v[0x13c6ef372fe, 0x94f82be73980c0b9, 0xdb906821044ed7e7, 0x44e4a3f0d8d46af3], #v[0x278dde6e5f, 0xd29f057ce7301817, 0x3b720d042089dafc, 0xe89c947e1b1ace11], #v[0x4f1bbcdcb, 0xfa53e0af9ce60302, 0xe76e41a084113b5f, 0x9d13928fc3631bf4], #v[0x9e3779b9, 0x7f4a7c15f39cc060, 0x5cedc8341082276b, 0xf3a27251f86c2680], #v[0x13c6ef37, 0x2fe94f82be73980c, 0xb9db906821044ed, 0x7e744e4a3f0dc0e8], #v[0x278dde6, 0xe5fd29f057ce7301, 0x8173b720d042089d, 0xafce89c947e1ff6d], #v[0x4f1bbc, 0xdcbfa53e0af9ce60, 0x302e76e41a084113, 0xb5f9d13928fc79d7], #v[0x9e377, 0x9b97f4a7c15f39cc, 0x605cedc83410822, 0x76bf3a27251fd7c7], #v[0x13c6e, 0xf372fe94f82be739, 0x80c0b9db90682104, 0x4ed7e744e4a3a2fa], #v[0x278d, 0xde6e5fd29f057ce7, 0x3018173b720d0420, 0x89dafce89c942d5e], #v[0x4f1, 0xbbcdcbfa53e0af9c, 0xe60302e76e41a084, 0x113b5f9d1392dba9], #v[0x9e, 0x3779b97f4a7c15f3, 0x9cc0605cedc83410, 0x82276bf3a2720469], #v[0x13, 0xc6ef372fe94f82be, 0x73980c0b9db90682, 0x1044ed7e744e1c85], #v[0x2, 0x78dde6e5fd29f057, 0xce73018173b720d0, 0x42089dafce899ea2], #v[0x0, 0x4f1bbcdcbfa53e0a, 0xf9ce60302e76e41a, 0x84113b5f9d1603a], #v[0x0, 0x9e3779b97f4a7c1, 0x5f39cc0605cedc83, 0x41082276bf3a7d64], #v[0x0, 0x13c6ef372fe94f8, 0x2be73980c0b9db90, 0x6821044ed7e71f96], #v[0x0, 0x278dde6e5fd29f, 0x57ce73018173b72, 0xd042089dafcb439], #v[0x0, 0x4f1bbcdcbfa53, 0xe0af9ce60302e76e, 0x41a084113b5fc0c9], #v[0x0, 0x9e3779b97f4a, 0x7c15f39cc0605ced, 0xc8341082276bacb3], #v[0x0, 0x13c6ef372fe9, 0x4f82be73980c0b9d, 0xb906821044ed1e3e], #v[0x0, 0x278dde6e5fd, 0x29f057ce73018173, 0xb720d042089dce4b], #v[0x0, 0x4f1bbcdcbf, 0xa53e0af9ce60302e, 0x76e41a084113d73b], #v[0x0, 0x9e3779b97, 0xf4a7c15f39cc0605, 0xcedc8341082212be], #v[0x0, 0x13c6ef372, 0xfe94f82be73980c0, 0xb9db906821042b95], #v[0x4f1bbcdcbfa53e0a, 0xf9ce60302e76e41a, 0x84113b5f9d13928, 0xfc363508e860a1cf], #v[0x9e3779b97f4a7c1, 0x5f39cc0605cedc83, 0x41082276bf3a2725, 0x1f86c6a11d0c7f23], #v[0x13c6ef372fe94f8, 0x2be73980c0b9db90, 0x6821044ed7e744e4, 0xa3f0d8d423a1ea0c], #v[0x278dde6e5fd29f, 0x57ce73018173b72, 0xd042089dafce89c, 0x947e1b1a84745a39], #v[0x4f1bbcdcbfa53, 0xe0af9ce60302e76e, 0x41a084113b5f9d13, 0x928fc363508eeda9], #v[0x9e3779b97f4a, 0x7c15f39cc0605ced, 0xc8341082276bf3a2, 0x7251f86c6a11bc33], #v[0x13c6ef372fe9, 0x4f82be73980c0b9d, 0xb906821044ed7e74, 0x4e4a3f0d8d425459], #v[0x278dde6e5fd, 0x29f057ce73018173, 0xb720d042089dafce, 0x89c947e1b1a828d1], #v[0x4f1bbcdcbf, 0xa53e0af9ce60302e, 0x76e41a084113b5f9, 0xd13928fc3635780d], #v[0x9e3779b97, 0xf4a7c15f39cc0605, 0xcedc8341082276bf, 0x3a27251f86c6d327], #v[0x13c6ef372, 0xfe94f82be73980c0, 0xb9db906821044ed7, 0xe744e4a3f0d8a7b2], #v[0x278dde6e, 0x5fd29f057ce73018, 0x173b720d042089da, 0xfce89c947e1b6e6e], #v[0x4f1bbcd, 0xcbfa53e0af9ce603, 0x2e76e41a084113b, 0x5f9d13928fc31515], #v[0x9e3779, 0xb97f4a7c15f39cc0, 0x605cedc834108227, 0x6bf3a27251f81bc8], #v[0x13c6ef, 0x372fe94f82be7398, 0xc0b9db906821044, 0xed7e744e4a3f748c], #v[0x278dd, 0xe6e5fd29f057ce73, 0x18173b720d04208, 0x9dafce89c9479bd3], #v[0x4f1b, 0xbcdcbfa53e0af9ce, 0x60302e76e41a0841, 0x13b5f9d1392887f3], #v[0x9e3, 0x779b97f4a7c15f39, 0xcc0605cedc834108, 0x2276bf3a272562ac], #v[0x13c, 0x6ef372fe94f82be7, 0x3980c0b9db906821, 0x44ed7e744e4dd61], #v[0x27, 0x8dde6e5fd29f057c, 0xe73018173b720d04, 0x2089dafce89ceb84], #v[0x4, 0xf1bbcdcbfa53e0af, 0x9ce60302e76e41a0, 0x84113b5f9d1313ea], #v[0x0, 0x9e3779b97f4a7c15, 0xf39cc0605cedc834, 0x1082276bf3a2f083], #v[0x0, 0x13c6ef372fe94f82, 0xbe73980c0b9db906, 0x821044ed7e74ca0b], #v[0x0, 0x278dde6e5fd29f0, 0x57ce73018173b720, 0xd042089dafce0c7b], #v[0x0, 0x4f1bbcdcbfa53e, 0xaf9ce60302e76e4, 0x1a084113b5f9561c], #v[0x0, 0x9e3779b97f4a7, 0xc15f39cc0605cedc, 0x8341082276bfb2bd], #v[0x0, 0x13c6ef372fe94, 0xf82be73980c0b9db, 0x906821044ed76d55], #v[0x0, 0x278dde6e5fd2, 0x9f057ce73018173b, 0x720d042089da7762], #v[0x0, 0x4f1bbcdcbfa, 0x53e0af9ce60302e7, 0x6e41a084113bd298], #v[0x0, 0x9e3779b97f, 0x4a7c15f39cc0605c, 0xedc834108227e571], #v[0x0, 0x13c6ef372f, 0xe94f82be73980c0b, 0x9db9068210447d7f], #v[0x0, 0x278dde6e5, 0xfd29f057ce730181, 0x73b720d042080c2d], #v[0x9e3779b97f4a7c15, 0xf39cc0605cedc834, 0x1082276bf3a27251, 0xf86c6a11d0c11d90], #v[0x13c6ef372fe94f82, 0xbe73980c0b9db906, 0x821044ed7e744e4a, 0x3f0d8d423a18a558], #v[0x278dde6e5fd29f0, 0x57ce73018173b720, 0xd042089dafce89c9, 0x47e1b1a84743902b], #v[0x4f1bbcdcbfa53e, 0xaf9ce60302e76e4, 0x1a084113b5f9d139, 0x28fc363508e8f75d], #v[0x9e3779b97f4a7, 0xc15f39cc0605cedc, 0x8341082276bf3a27, 0x251f86c6a11d953d], #v[0x13c6ef372fe94, 0xf82be73980c0b9db, 0x906821044ed7e744, 0xe4a3f0d8d4233b31], #v[0x278dde6e5fd2, 0x9f057ce73018173b, 0x720d042089dafce8, 0x9c947e1b1a84e871], #v[0x4f1bbcdcbfa, 0x53e0af9ce60302e7, 0x6e41a084113b5f9d, 0x13928fc363501354], #v[0x9e3779b97f, 0x4a7c15f39cc0605c, 0xedc8341082276bf3, 0xa27251f86c6a8eb5], #v[0x13c6ef372f, 0xe94f82be73980c0b, 0x9db906821044ed7e, 0x744e4a3f0d8de2c0], #v[0x278dde6e5, 0xfd29f057ce730181, 0x73b720d042089daf, 0xce89c947e1b10ad6], #v[0x4f1bbcdc, 0xbfa53e0af9ce6030, 0x2e76e41a084113b5, 0xf9d13928fc369122], #v[0x9e3779b, 0x97f4a7c15f39cc06, 0x5cedc8341082276, 0xbf3a27251f866364], #v[0x13c6ef3, 0x72fe94f82be73980, 0xc0b9db906821044e, 0xd7e744e4a3f07fb6], #v[0x278dde, 0x6e5fd29f057ce730, 0x18173b720d042089, 0xdafce89c947eb21b], #v[0x4f1bb, 0xcdcbfa53e0af9ce6, 0x302e76e41a08411, 0x3b5f9d13928f69c1], #v[0x9e37, 0x79b97f4a7c15f39c, 0xc0605cedc8341082, 0x276bf3a272515429], #v[0x13c6, 0xef372fe94f82be73, 0x980c0b9db9068210, 0x44ed7e744e4a92e7], #v[0x278, 0xdde6e5fd29f057ce, 0x73018173b720d042, 0x89dafce89c9e870], #v[0x4f, 0x1bbcdcbfa53e0af9, 0xce60302e76e41a08, 0x4113b5f9d13999c6], #v[0x9, 0xe3779b97f4a7c15f, 0x39cc0605cedc8341, 0x82276bf3a2797fa], #v[0x1, 0x3c6ef372fe94f82b, 0xe73980c0b9db9068, 0x21044ed7e7445031], #v[0x0, 0x278dde6e5fd29f05, 0x7ce73018173b720d, 0x42089dafce82ad5], #v[0x0, 0x4f1bbcdcbfa53e0, 0xaf9ce60302e76e41, 0xa084113b5f9da460], #v[0x0, 0x9e3779b97f4a7c, 0x15f39cc0605cedc8, 0x341082276bf31bd7], #v[0x0, 0x13c6ef372fe94f, 0x82be73980c0b9db9, 0x6821044ed7ecf14], #v[0x0, 0x278dde6e5fd29, 0xf057ce73018173b7, 0x20d042089daf7398], #v[0x0, 0x4f1bbcdcbfa5, 0x3e0af9ce60302e76, 0xe41a084113b5471b], #v[0x0, 0x9e3779b97f4, 0xa7c15f39cc0605ce, 0xdc83410822767fbf], #v[0x0, 0x13c6ef372fe, 0x94f82be73980c0b9, 0xdb906821044e15a5], #v[0x0, 0x278dde6e5f, 0xd29f057ce7301817, 0x3b720d0420891efd], #v[0x0, 0x4f1bbcdcb, 0xfa53e0af9ce60302, 0xe76e41a08411fe9d], #v[0x0, 0x9e3779b9, 0x7f4a7c15f39cc060, 0x5cedc8341082e0ee], #v[0x278dde6e5fd29f05, 0x7ce73018173b720d, 0x42089dafce89c94, 0x7e1b1a847430aaef], #v[0x4f1bbcdcbfa53e0, 0xaf9ce60302e76e41, 0xa084113b5f9d1392, 0x8fc363508e86c765], #v[0x9e3779b97f4a7c, 0x15f39cc0605cedc8, 0x341082276bf3a272, 0x51f86c6a11d00d54], #v[0x13c6ef372fe94f, 0x82be73980c0b9db9, 0x6821044ed7e744e, 0x4a3f0d8d423ad694], #v[0x278dde6e5fd29, 0xf057ce73018173b7, 0x20d042089dafce89, 0xc947e1b1a8479374], #v[0x4f1bbcdcbfa5, 0x3e0af9ce60302e76, 0xe41a084113b5f9d1, 0x3928fc3635083a21], #v[0x9e3779b97f4, 0xa7c15f39cc0605ce, 0xdc8341082276bf3a, 0x27251f86c6a1c91e], #v[0x13c6ef372fe, 0x94f82be73980c0b9, 0xdb906821044ed7e7, 0x44e4a3f0d8d4f644], #v[0x278dde6e5f, 0xd29f057ce7301817, 0x3b720d042089dafc, 0xe89c947e1b1a53ce], #v[0x4f1bbcdcb, 0xfa53e0af9ce60302, 0xe76e41a084113b5f, 0x9d13928fc363891f], #v[0x9e3779b9, 0x7f4a7c15f39cc060, 0x5cedc8341082276b, 0xf3a27251f86cb17b], #v[0x13c6ef37, 0x2fe94f82be73980c, 0xb9db906821044ed, 0x7e744e4a3f0d5007], #v[0x278dde6, 0xe5fd29f057ce7301, 0x8173b720d042089d, 0xafce89c947e16e8a], #v[0x4f1bbc, 0xdcbfa53e0af9ce60, 0x302e76e41a084113, 0xb5f9d13928fcd734], #v[0x9e377, 0x9b97f4a7c15f39cc, 0x605cedc83410822, 0x76bf3a27251f6424], #v[0x13c6e, 0xf372fe94f82be739, 0x80c0b9db90682104, 0x4ed7e744e4a3141d], #v[0x278d, 0xde6e5fd29f057ce7, 0x3018173b720d0420, 0x89dafce89c9498b1], #v[0x4f1, 0xbbcdcbfa53e0af9c, 0xe60302e76e41a084, 0x113b5f9d13926752], #v[0x9e, 0x3779b97f4a7c15f3, 0x9cc0605cedc83410, 0x82276bf3a272bb82], #v[0x13, 0xc6ef372fe94f82be, 0x73980c0b9db90682, 0x1044ed7e744ea65a], #v[0x2, 0x78dde6e5fd29f057, 0xce73018173b720d0, 0x42089dafce892715], #v[0x0, 0x4f1bbcdcbfa53e0a, 0xf9ce60302e76e41a, 0x84113b5f9d1c969], #v[0x0, 0x9e3779b97f4a7c1, 0x5f39cc0605cedc83, 0x41082276bf3ad517], #v[0x0, 0x13c6ef372fe94f8, 0x2be73980c0b9db90, 0x6821044ed7e7b0c1], #v[0x0, 0x278dde6e5fd29f, 0x57ce73018173b72, 0xd042089dafc1e86], #v[0x0, 0x4f1bbcdcbfa53, 0xe0af9ce60302e76e, 0x41a084113b5f6502], #v[0x0, 0x9e3779b97f4a, 0x7c15f39cc0605ced, 0xc8341082276b09a8], #v[0x0, 0x13c6ef372fe9, 0x4f82be73980c0b9d, 0xb906821044ed8271], #v[0x0, 0x278dde6e5fd, 0x29f057ce73018173, 0xb720d042089d51cc]]
/-- A concrete vector of length 256. -/
def exX256 : V256 := #v[0xb5c3a17d9e2f6048, 0x1357fdb9eca86420, 0xa5a55a5a0ff0f00f, 0x123456789abcdef1]

theorem exA4_clean : CleanM4 exA4 := by decide +kernel
theorem exB4_clean : CleanM4 exB4 := by decide +kernel

end WB
