import Verif.Proof.SeedRows

/-!
# Random matrices as functions of the seed; an invertible and a singular one for each size

Generated by `tools/gen_c58.py`.
-/
namespace WB
open Matrix

set_option maxRecDepth 100000

theorem idx_bad : (seedIdx 1#32).toNat = 4127001161 := by decide +kernel
theorem off_bad : (seedOff 1#32).toNat = 3620975907 := by decide +kernel

/-! ## 4 -/

/-- The matrix that `randM4` stores after seeding with `s`. -/
def gen4 (s : BitVec 32) : M4 :=
  Vector.ofFn fun i => ((drawS s i) &&& 0x0f).setWidth 8

theorem randM4_gen (M : M4) (w : World) :
    randM4 M w = .ok (gen4 (seedOf w), w.seeded.adv 4) := by
  rw [randM4_run]; rfl

theorem gen4_rows {s : BitVec 32} {i o : Nat} (hi : (seedIdx s).toNat = i)
    (ho : (seedOff s).toNat = o) : RowsAre (mat4 (gen4 s)) (drawN i o) := by
  refine rowsS (by norm_num) _ _ ?_
  intro i t ht
  have h15 : (0x0f#32).getLsbD t = true := by
    have : t = 0 ∨ t = 1 ∨ t = 2 ∨ t = 3 := by omega
    rcases this with rfl | rfl | rfl | rfl <;> rfl
  simp only [gen4, Fin.getElem_fin, Vector.getElem_ofFn, BitVec.getLsbD_setWidth, BitVec.getLsbD_and]
  rw [← drawS_toNat hi ho]
  simp [show t < 8 by omega, h15, BitVec.testBit_toNat]

theorem gen4_good : IsUnit (mat4 (gen4 0#32)) := by
  refine isUnit_of_check (gen4_rows (i := 631179142) (o := 821919473) (by decide +kernel)
    (by decide +kernel)) (bs := [
    0x8, 0x1, 0xe, 0xb]) rfl ?_
  decide +kernel

theorem gen4_bad : ¬ IsUnit (mat4 (gen4 1#32)) := by
  refine not_isUnit_of_check (gen4_rows idx_bad off_bad) 0x2 1 (by norm_num) (by decide +kernel) ?_
  decide +kernel

/-! ## 8 -/

/-- The matrix that `randM8` stores after seeding with `s`. -/
def gen8 (s : BitVec 32) : M8 :=
  Vector.ofFn fun i => (drawS s i).setWidth 8

theorem randM8_gen (M : M8) (w : World) :
    randM8 M w = .ok (gen8 (seedOf w), w.seeded.adv 8) := by
  rw [randM8_run]; rfl

theorem gen8_rows {s : BitVec 32} {i o : Nat} (hi : (seedIdx s).toNat = i)
    (ho : (seedOff s).toNat = o) : RowsAre (mat8 (gen8 s)) (drawN i o) := by
  refine rowsS (by norm_num) _ _ ?_
  intro i t ht
  simp only [gen8, Fin.getElem_fin, Vector.getElem_ofFn, BitVec.getLsbD_setWidth]
  rw [← drawS_toNat hi ho]
  simp [show t < 8 by omega, BitVec.testBit_toNat]

theorem gen8_good : IsUnit (mat8 (gen8 2#32)) := by
  refine isUnit_of_check (gen8_rows (i := 1729565357) (o := 2559446949) (by decide +kernel)
    (by decide +kernel)) (bs := [
    0x3e, 0xe2, 0x39, 0x50, 0x83, 0x5, 0xd5, 0xa0]) rfl ?_
  decide +kernel

theorem gen8_bad : ¬ IsUnit (mat8 (gen8 1#32)) := by
  refine not_isUnit_of_check (gen8_rows idx_bad off_bad) 0x24 5 (by norm_num) (by decide +kernel) ?_
  decide +kernel

/-! ## 16 -/

/-- The matrix that `randM16` stores after seeding with `s`. -/
def gen16 (s : BitVec 32) : M16 :=
  Vector.ofFn fun i => (drawS s i).setWidth 16

theorem randM16_gen (M : M16) (w : World) :
    randM16 M w = .ok (gen16 (seedOf w), w.seeded.adv 16) := by
  rw [randM16_run]; rfl

theorem gen16_rows {s : BitVec 32} {i o : Nat} (hi : (seedIdx s).toNat = i)
    (ho : (seedOff s).toNat = o) : RowsAre (mat16 (gen16 s)) (drawN i o) := by
  refine rowsS (by norm_num) _ _ ?_
  intro i t ht
  simp only [gen16, Fin.getElem_fin, Vector.getElem_ofFn, BitVec.getLsbD_setWidth]
  rw [← drawS_toNat hi ho]
  simp [show t < 16 by omega, BitVec.testBit_toNat]

theorem gen16_good : IsUnit (mat16 (gen16 3#32)) := by
  refine isUnit_of_check (gen16_rows (i := 2028806348) (o := 1932299950) (by decide +kernel)
    (by decide +kernel)) (bs := [
    0xcd85, 0xa2b6, 0x18f1, 0xe643, 0x71fe, 0x81c0, 0xea5c, 0xf525, 0xc515, 0x70c5, 0x5bd9, 0x6822, 0xf923,
    0xc0ca, 0x7be8, 0xd4ee]) rfl ?_
  decide +kernel

theorem gen16_bad : ¬ IsUnit (mat16 (gen16 1#32)) := by
  refine not_isUnit_of_check (gen16_rows idx_bad off_bad) 0x2dc5 13 (by norm_num) (by decide +kernel) ?_
  decide +kernel

/-! ## 32 -/

/-- The matrix that `randM32` stores after seeding with `s`. -/
def gen32 (s : BitVec 32) : M32 :=
  Vector.ofFn fun i => drawS s i

theorem randM32_gen (M : M32) (w : World) :
    randM32 M w = .ok (gen32 (seedOf w), w.seeded.adv 32) := by
  rw [randM32_run]; rfl

theorem gen32_rows {s : BitVec 32} {i o : Nat} (hi : (seedIdx s).toNat = i)
    (ho : (seedOff s).toNat = o) : RowsAre (mat32 (gen32 s)) (drawN i o) := by
  refine rowsS (by norm_num) _ _ ?_
  intro i t ht
  simp only [gen32, Fin.getElem_fin, Vector.getElem_ofFn]
  rw [← drawS_toNat hi ho, BitVec.testBit_toNat]

theorem gen32_good : IsUnit (mat32 (gen32 0#32)) := by
  refine isUnit_of_check (gen32_rows (i := 631179142) (o := 821919473) (by decide +kernel)
    (by decide +kernel)) (bs := [
    0xf57ef808, 0xe52d7b34, 0x88b41218, 0x498317e2, 0x6a758a72, 0xa2f230aa, 0x9a3b5bba, 0xff927edc,
    0xf03edc85, 0x9fe3c6b7, 0x6e7812cd, 0xf6b15f34, 0xfa1eb021, 0xd9229544, 0xff3459a0, 0x964b5166,
    0x2e5c6e2d, 0x921f8c5c, 0xd8fa76b8, 0xaf8cfd97, 0x2789b515, 0x1e88a54a, 0x174b4a54, 0x29160d7a,
    0x75064d61, 0x20abfbc3, 0xd500bd5e, 0xaff1f132, 0x1a2d8d5e, 0x8e22c23, 0xd840b648, 0x520b23ef]) rfl ?_
  decide +kernel

theorem gen32_bad : ¬ IsUnit (mat32 (gen32 1#32)) := by
  refine not_isUnit_of_check (gen32_rows idx_bad off_bad) 0x5bf03810 30 (by norm_num) (by decide +kernel) ?_
  decide +kernel

/-! ## 64 -/

/-- The matrix that `randM64` stores after seeding with `s`. -/
def gen64 (env : Env) (s : BitVec 32) : M64 :=
  Vector.ofFn fun i => wordS env s i

theorem randM64_gen (env : Env) (M : M64) (w : World) :
    randM64 env M w = .ok (gen64 env (seedOf w), w.seeded.adv 128) := by
  rw [randM64_run, gen64]
  refine congrArg (fun A => Except.ok (A, w.seeded.adv 128)) (congrArg Vector.ofFn ?_)
  funext i
  rw [seeded_word env w i 0, Nat.add_zero]

/-- Row `k` on natural numbers. -/
noncomputable def row64 (be : Bool) (i o k : Nat) : Nat := wordN be i o k

theorem gen64_rows (env : Env) {s : BitVec 32} {i o : Nat} {be : Bool}
    (h : ∀ k, (wordS env s k).toNat = wordN be i o k) : RowsAre (mat64 (gen64 env s)) (row64 be i o) := by
  refine rowsS (by norm_num) _ _ ?_
  intro i t ht
  simp only [gen64, Fin.getElem_fin, Vector.getElem_ofFn, row64]
  rw [← h, BitVec.testBit_toNat]

theorem gen64_good (env : Env) : IsUnit (mat64 (gen64 env 11#32)) := by
  obtain ⟨be, h⟩ := wordS_cases env (s := 11#32) (i := 2718863443) (o := 3962955020) (by decide +kernel)
    (by decide +kernel)
  cases be
  · refine isUnit_of_check (gen64_rows env h) (bs := [
    0x6a0370cfddd166e4, 0x5ef70195147cd305, 0x503b45ffba68b72e, 0xf8c61d5cf3f513df, 0x77903cf7ca2a79a1,
    0x79bb023aa065e1f, 0x5db1bd754f130ac3, 0xc60feb7ed611238c, 0x158dfc3b71277a12, 0xb9ff73cc76a31275,
    0xdcd04273dd6d9d41, 0xf465f55ef3154015, 0xc648cad9efd820f2, 0x65d11edf04432840, 0xff96408d93dfa5a7,
    0xe4bf710cd481ca74, 0x27cdf0fcbd2ff81e, 0x8b11123dbebc46f9, 0x23af74728f245592, 0x9fd7874673b38236,
    0x7df48cdbe3d989e, 0xa0ab6dc069631482, 0x3afdfef5b979f2c4, 0xe70fd8eb850ecb56, 0x47c9087b9def6534,
    0xedad3f572b1ec070, 0xfc868bee2575773d, 0xe0c5ae8f1ade51d9, 0xeb9be3739933e2cd, 0x40307b5a85b87430,
    0x8eff5b0f72f66c56, 0xffa1d7b406f53afb, 0xb8a4c00a8d7f679c, 0xe80c1f92e7f0188a, 0xee2c7e4d66a8039c,
    0x80e20e776ddbd1a4, 0x826bbbd063a8c4db, 0xddb2739c47fcf3ea, 0xfc279f92db9c9a15, 0x7e4c2b4aabce6d9e,
    0xaabf58be36e7419b, 0x4e85dcc9e882852e, 0x1419730e317bbaab, 0xcbfa566775b7a9b3, 0x5c025870d96c2964,
    0xbbf19e25cdbe143, 0x2520b50c393a1c67, 0x4b9437b4ef8bf4b, 0x7be26f6843b29c54, 0x4bdd43a72b8a87cc,
    0x77b5ada4baeee5c7, 0xac3eb4668842c923, 0x38e66da751ee8745, 0x28c7adcb2af9cb1f, 0xd439d979202c94c,
    0xa72063abf9d82868, 0x7095d08cfb3d5c24, 0x7516cac1274192b0, 0x972c407ef2571999, 0x76aae200c5915378,
    0x9849ef7ca842af93, 0xb5096f978a79bcb, 0x77ff5aeae97a5eee, 0xa5fe72bf1cb1c89b]) rfl ?_
    decide +kernel
  · refine isUnit_of_check (gen64_rows env h) (bs := [
    0xb8a4c00a8d7f679c, 0xe80c1f92e7f0188a, 0xee2c7e4d66a8039c, 0x80e20e776ddbd1a4, 0x826bbbd063a8c4db,
    0xddb2739c47fcf3ea, 0xfc279f92db9c9a15, 0x7e4c2b4aabce6d9e, 0xaabf58be36e7419b, 0x4e85dcc9e882852e,
    0x1419730e317bbaab, 0xcbfa566775b7a9b3, 0x5c025870d96c2964, 0xbbf19e25cdbe143, 0x2520b50c393a1c67,
    0x4b9437b4ef8bf4b, 0x7be26f6843b29c54, 0x4bdd43a72b8a87cc, 0x77b5ada4baeee5c7, 0xac3eb4668842c923,
    0x38e66da751ee8745, 0x28c7adcb2af9cb1f, 0xd439d979202c94c, 0xa72063abf9d82868, 0x7095d08cfb3d5c24,
    0x7516cac1274192b0, 0x972c407ef2571999, 0x76aae200c5915378, 0x9849ef7ca842af93, 0xb5096f978a79bcb,
    0x77ff5aeae97a5eee, 0xa5fe72bf1cb1c89b, 0x6a0370cfddd166e4, 0x5ef70195147cd305, 0x503b45ffba68b72e,
    0xf8c61d5cf3f513df, 0x77903cf7ca2a79a1, 0x79bb023aa065e1f, 0x5db1bd754f130ac3, 0xc60feb7ed611238c,
    0x158dfc3b71277a12, 0xb9ff73cc76a31275, 0xdcd04273dd6d9d41, 0xf465f55ef3154015, 0xc648cad9efd820f2,
    0x65d11edf04432840, 0xff96408d93dfa5a7, 0xe4bf710cd481ca74, 0x27cdf0fcbd2ff81e, 0x8b11123dbebc46f9,
    0x23af74728f245592, 0x9fd7874673b38236, 0x7df48cdbe3d989e, 0xa0ab6dc069631482, 0x3afdfef5b979f2c4,
    0xe70fd8eb850ecb56, 0x47c9087b9def6534, 0xedad3f572b1ec070, 0xfc868bee2575773d, 0xe0c5ae8f1ade51d9,
    0xeb9be3739933e2cd, 0x40307b5a85b87430, 0x8eff5b0f72f66c56, 0xffa1d7b406f53afb]) rfl ?_
    decide +kernel

theorem gen64_bad (env : Env) : ¬ IsUnit (mat64 (gen64 env 1#32)) := by
  obtain ⟨be, h⟩ := wordS_cases env idx_bad off_bad
  refine not_isUnit_of_check (gen64_rows env h) 0xa4cccf2585a86e00
    63 (by norm_num) (by decide +kernel) ?_
  cases be <;> decide +kernel

/-! ## 128 -/

/-- The matrix that `randM128` stores after seeding with `s`. -/
def gen128 (env : Env) (s : BitVec 32) : M128 :=
  Vector.ofFn fun i => #v[wordS env s (2 * i), wordS env s (2 * i + 1)]

theorem randM128_gen (env : Env) (M : M128) (w : World) :
    randM128 env M w = .ok (gen128 env (seedOf w), w.seeded.adv 512) := by
  rw [randM128_run, gen128]
  refine congrArg (fun A => Except.ok (A, w.seeded.adv 512)) (congrArg Vector.ofFn ?_)
  funext i
  rw [show 4 * i.val = 2 * (2 * i.val) by ring]
  rw [seeded_word env w (2 * i.val) 0, seeded_word env w (2 * i.val) 1, Nat.add_zero]

/-- Row `k` on natural numbers. -/
noncomputable def row128 (be : Bool) (i o k : Nat) : Nat := 18446744073709551616 * (wordN be i o (2 * k)) + wordN be i o (2 * k + 1)

theorem gen128_rows (env : Env) {s : BitVec 32} {i o : Nat} {be : Bool}
    (h : ∀ k, (wordS env s k).toNat = wordN be i o k) : RowsAre (mat128 (gen128 env s)) (row128 be i o) := by
  refine rowsW (by norm_num) _ _ ?_
  intro k
  unfold row128
  rw [← h (2 * k.val), ← h (2 * k.val + 1), ← catW2]
  simp only [gen128, Fin.getElem_fin, Vector.getElem_ofFn]
  rfl

theorem gen128_good (env : Env) : IsUnit (mat128 (gen128 env 2#32)) := by
  obtain ⟨be, h⟩ := wordS_cases env (s := 2#32) (i := 1729565357) (o := 2559446949) (by decide +kernel)
    (by decide +kernel)
  cases be
  · refine isUnit_of_check (gen128_rows env h) (bs := [
    0xa33823ea855163a777fa4a2b8e4bcb10, 0xf57443aa371842b472c496d4cd7e33af,
    0x61ffbb8ae1e133bf67a0886c393b610e, 0x419e271289f3b116aa60dfe73b4ebb05,
    0x3672a6da1907b09956f4163c1ed430b1, 0x853509225420f49f937c11a5b3cd2539,
    0xd72497fada5be9c0879761648e0afa1e, 0x3cd2f7f6f61c9b9dce625634414f2a28,
    0x20b77f7f0a2bb75eb1a53658fd3317c2, 0x5b84aff926e402d7a2f113598b9e47b0,
    0x28ef366747a7a767a1f32a16a3f2abdb, 0x7c1ee57030b0ce7d81991929c5503069,
    0xb50f77319e76480abdafa5e2fca274f6, 0x535349e2397d8b1b5eb92f4eaeea4eb, 0xe8e0c304ece2d0be3c3cfcd9b6e77a66,
    0xb3a8817b318a7b629f5e44026349d4f3, 0x4d95bd64a0774383464e7998f9a4de66,
    0xd7baec27a3e745b187ecc5a62983b6cb, 0x66edf113c817403d3948e8845956d06, 0xc1dfd93754facbf2355356edda138b,
    0x8bb2afef16e2b8649dbb7dbe93b92339, 0xbfceaed026847e45fe075fba51fe2712,
    0x2d02fb9c5919228269b844fa14a1d9e2, 0xbefaa5b13e61a84787309a5b3efed998,
    0x17cd21c7e84044d085f9f751c6bf4dda, 0xb025daa20f0528e19c2313ef3d59ec19,
    0x81fa7b24f07ad9878039e61f0c3dd3e5, 0x7b572be2c348d62dc6640e089bc47787,
    0xa07cd8c0476feacb69528caf87435363, 0x90b0757d143e3033a742e9f6017a07c8,
    0x704b4ba518dc734509f0e3e793506bb2, 0x4527916e090fed0fc247ef47c52c963a,
    0xc20d8e9a33bde8352dd9f0075bc5db0a, 0x7367063609115228fca79a90c109dbfe,
    0x3b8a92748ad7299c754657a6aa941102, 0x6fa8c6c5ec87da406cec872cbb64c5d0,
    0xa02958e496276525ca3aa66a5f6df83a, 0x40d449f926cd0d55094309069ec7cb2e,
    0x5b064f7c425817296f4b8e7f4cfa390a, 0xd15460efcf2bab3b43ccf058616d31d9,
    0x290528bc85ef6a7dbbde5dbacb30aea9, 0xe8e3818ffad1e6fcec6997c1e80c29e6,
    0xa2533c66643e494638a345890f91c0a2, 0x9ec9fc319175eb5cfca43aa17072d260,
    0x5c087bcaf31da244f4dc747ee569f7da, 0x3ad74c29a764c59f9e59cec5a0163709,
    0xb9deb9c49ee9393c64ca1141cd5c949a, 0x542866f4b0115c0ea9f1b2644359b545,
    0xbc0d437314e550d2b2cb59cb743b288f, 0xecf43b36003c4335eee94d00cbd64c93,
    0x844fbc6dac156b93da3cf18e55ae84c6, 0x8439eec81a0594c6830437c7c8a5695a,
    0x80618f1538fa9f384e5a4839b97744fa, 0x4d00b74973d002a21ee49e10a80dfa, 0x8acc1a13d1156a3ae8249227f3efcc8d,
    0x2f6f5a7508c182bb4296a1526df62cc3, 0xbe6740cc98e56faf2487e9562355df68,
    0xab5d4bcadd13dba8a64a26637f6eef90, 0xfb76dd71405c88a329583ae2d6a4fe67,
    0x59147a9c5eec1534a2c023e4fc75d826, 0xec9225c0b864a5e04db22e1ad607e896,
    0x7d4d981e0d14091acdbb9851c06a0036, 0x3f0a1f07f282ddc25eddfa27dac990d6,
    0x55a8074858a1a8cc3f574718accee62e, 0x8fdcb4bd219b98717a23af7a112a49db,
    0x6215f8ca7cf49ddb0fe2ab238d441c0b, 0x4935736121830af5b61d9dd8d80e4974,
    0x52d7409d02767f434449a15602545c9d, 0x89558eb5d780f07590e97cdc35330bf0,
    0x44703c78f2beb4dd5105c5db2358c9dd, 0xf6bfc810214b8d8e77612869d0ea20ac,
    0x845ee028b247ace8c2fb758c5767c9b0, 0x393499f6bef42e492ca8a6f5f60dc6c4,
    0x2732d56ae5c817e3af9671802faec58f, 0xfcd36628173119f32bc28e9bd189338e,
    0x1ee86cd4f697c166b58be5ff9767688d, 0x6b1e9427eb6bac8a7841902b1082dc8a,
    0x45335f632a45e714acb8a3291600efdc, 0x868030ac8de088e5305c520a2e2d653e,
    0x5845544c1248e0d59e9752a1aefd88de, 0xfc246525459549f0d7e96a2e8bc88da7,
    0xadca1f64eb3f9e6484a70a73d00e20ad, 0x25c1f4124240de26612446259963d465,
    0x1e4f96e6291a064eeedd121fa0eab10b, 0xebdc215e9374714dab777ad129c5634e,
    0xee4f46ca24feb04255bcaf800623c8d9, 0x6919683d234fde16122f5dd57823276e,
    0xbbd682433c29a78309d40e106bd9db6d, 0xfa3134ba7945ba2a5185572b075a14d5,
    0x87de8aa610d430a564e2a9981924ee7f, 0x96a39402c297afa725d2ec4070399b06,
    0x9039dc2acca296f56ab9c5a34aa360cf, 0xa596a3844ab4baee217ad3ca1192eb0f, 0xa1ae2f0c77cbbe50490769abb12c4fc,
    0xc062e17f663c3c2c5f4e3650c4cd7bd8, 0x4eda4d2c00dc4de551ae4d1bd8419dc8,
    0x829a3cd2b609a6d11ab2381a75403a40, 0xc7a07ad8054e441feba00abeb7c98da1,
    0x32a65f05f1358c54acd611fdc19f1ed5, 0x752d80c3d71bbd4c0efc569d80f7eaa0,
    0xd9fa7c568884ddb54da97eb09d92dec3, 0xda563a2ccefb582e7367f33cfe9181c6,
    0xfa5e1fce32d914089e9a28c5187ba64a, 0x359f9e49f9cc153b6cd895dd8087a8d0,
    0x7f2022fe080e21a697a8d4d390737714, 0xaa0ca60d30286035421c338026a9ee1d,
    0x46b5d5243a63db1907643412d467cf1a, 0x930174e73912bd1ee266ee41214e5bbc,
    0x762b24365fba708bc7cd6703d3392a47, 0xb61a4d4a8b467bdde7a1e17d4c76ddba,
    0x881f66208d217c5eaed6c637e608f8f1, 0xd4360d9799a61dd9cff4af6e354e4dad,
    0x5580027b23a236b097119601934f0814, 0x358a8f45c2af3cfab1c23dd93b0ad9e8,
    0xc5528d6aa9aef3e1b7c1be45f9fdf4f9, 0x98c6803d0405682db8deb4d995cd9545,
    0xc725b599643666f21b23cfc87077aafa, 0xb5851aa2fc2d025458e26159adb4dafb,
    0xdebc7b3a2d709d7244a9be83aea7a3cd, 0xb2b199a3f259479456d5eef3e69854f0,
    0x386551b9a7457b803015752027573a6f, 0xe5f938f232715bd839f15e4c53ff57eb,
    0xc22cab7f489b9c1b0bfcf28f09b92284, 0xf12a17e04d042b80abf4955839394fea,
    0xfe41f610e337e5424de04ecc93342427, 0xe412b29fb9f4b4e1a45d19d1b767fa3b,
    0xa73734172a17a09eeaec6c35de0af029, 0x5c56d51feaf8fe5db933c2ca6a024407]) rfl ?_
    decide +kernel
  · refine isUnit_of_check (gen128_rows env h) (bs := [
    0xc20d8e9a33bde8352dd9f0075bc5db0a, 0x7367063609115228fca79a90c109dbfe,
    0x3b8a92748ad7299c754657a6aa941102, 0x6fa8c6c5ec87da406cec872cbb64c5d0,
    0xa02958e496276525ca3aa66a5f6df83a, 0x40d449f926cd0d55094309069ec7cb2e,
    0x5b064f7c425817296f4b8e7f4cfa390a, 0xd15460efcf2bab3b43ccf058616d31d9,
    0x290528bc85ef6a7dbbde5dbacb30aea9, 0xe8e3818ffad1e6fcec6997c1e80c29e6,
    0xa2533c66643e494638a345890f91c0a2, 0x9ec9fc319175eb5cfca43aa17072d260,
    0x5c087bcaf31da244f4dc747ee569f7da, 0x3ad74c29a764c59f9e59cec5a0163709,
    0xb9deb9c49ee9393c64ca1141cd5c949a, 0x542866f4b0115c0ea9f1b2644359b545,
    0xbc0d437314e550d2b2cb59cb743b288f, 0xecf43b36003c4335eee94d00cbd64c93,
    0x844fbc6dac156b93da3cf18e55ae84c6, 0x8439eec81a0594c6830437c7c8a5695a,
    0x80618f1538fa9f384e5a4839b97744fa, 0x4d00b74973d002a21ee49e10a80dfa, 0x8acc1a13d1156a3ae8249227f3efcc8d,
    0x2f6f5a7508c182bb4296a1526df62cc3, 0xbe6740cc98e56faf2487e9562355df68,
    0xab5d4bcadd13dba8a64a26637f6eef90, 0xfb76dd71405c88a329583ae2d6a4fe67,
    0x59147a9c5eec1534a2c023e4fc75d826, 0xec9225c0b864a5e04db22e1ad607e896,
    0x7d4d981e0d14091acdbb9851c06a0036, 0x3f0a1f07f282ddc25eddfa27dac990d6,
    0x55a8074858a1a8cc3f574718accee62e, 0xa33823ea855163a777fa4a2b8e4bcb10,
    0xf57443aa371842b472c496d4cd7e33af, 0x61ffbb8ae1e133bf67a0886c393b610e,
    0x419e271289f3b116aa60dfe73b4ebb05, 0x3672a6da1907b09956f4163c1ed430b1,
    0x853509225420f49f937c11a5b3cd2539, 0xd72497fada5be9c0879761648e0afa1e,
    0x3cd2f7f6f61c9b9dce625634414f2a28, 0x20b77f7f0a2bb75eb1a53658fd3317c2,
    0x5b84aff926e402d7a2f113598b9e47b0, 0x28ef366747a7a767a1f32a16a3f2abdb,
    0x7c1ee57030b0ce7d81991929c5503069, 0xb50f77319e76480abdafa5e2fca274f6, 0x535349e2397d8b1b5eb92f4eaeea4eb,
    0xe8e0c304ece2d0be3c3cfcd9b6e77a66, 0xb3a8817b318a7b629f5e44026349d4f3,
    0x4d95bd64a0774383464e7998f9a4de66, 0xd7baec27a3e745b187ecc5a62983b6cb, 0x66edf113c817403d3948e8845956d06,
    0xc1dfd93754facbf2355356edda138b, 0x8bb2afef16e2b8649dbb7dbe93b92339, 0xbfceaed026847e45fe075fba51fe2712,
    0x2d02fb9c5919228269b844fa14a1d9e2, 0xbefaa5b13e61a84787309a5b3efed998,
    0x17cd21c7e84044d085f9f751c6bf4dda, 0xb025daa20f0528e19c2313ef3d59ec19,
    0x81fa7b24f07ad9878039e61f0c3dd3e5, 0x7b572be2c348d62dc6640e089bc47787,
    0xa07cd8c0476feacb69528caf87435363, 0x90b0757d143e3033a742e9f6017a07c8,
    0x704b4ba518dc734509f0e3e793506bb2, 0x4527916e090fed0fc247ef47c52c963a,
    0x829a3cd2b609a6d11ab2381a75403a40, 0xc7a07ad8054e441feba00abeb7c98da1,
    0x32a65f05f1358c54acd611fdc19f1ed5, 0x752d80c3d71bbd4c0efc569d80f7eaa0,
    0xd9fa7c568884ddb54da97eb09d92dec3, 0xda563a2ccefb582e7367f33cfe9181c6,
    0xfa5e1fce32d914089e9a28c5187ba64a, 0x359f9e49f9cc153b6cd895dd8087a8d0,
    0x7f2022fe080e21a697a8d4d390737714, 0xaa0ca60d30286035421c338026a9ee1d,
    0x46b5d5243a63db1907643412d467cf1a, 0x930174e73912bd1ee266ee41214e5bbc,
    0x762b24365fba708bc7cd6703d3392a47, 0xb61a4d4a8b467bdde7a1e17d4c76ddba,
    0x881f66208d217c5eaed6c637e608f8f1, 0xd4360d9799a61dd9cff4af6e354e4dad,
    0x5580027b23a236b097119601934f0814, 0x358a8f45c2af3cfab1c23dd93b0ad9e8,
    0xc5528d6aa9aef3e1b7c1be45f9fdf4f9, 0x98c6803d0405682db8deb4d995cd9545,
    0xc725b599643666f21b23cfc87077aafa, 0xb5851aa2fc2d025458e26159adb4dafb,
    0xdebc7b3a2d709d7244a9be83aea7a3cd, 0xb2b199a3f259479456d5eef3e69854f0,
    0x386551b9a7457b803015752027573a6f, 0xe5f938f232715bd839f15e4c53ff57eb,
    0xc22cab7f489b9c1b0bfcf28f09b92284, 0xf12a17e04d042b80abf4955839394fea,
    0xfe41f610e337e5424de04ecc93342427, 0xe412b29fb9f4b4e1a45d19d1b767fa3b,
    0xa73734172a17a09eeaec6c35de0af029, 0x5c56d51feaf8fe5db933c2ca6a024407,
    0x8fdcb4bd219b98717a23af7a112a49db, 0x6215f8ca7cf49ddb0fe2ab238d441c0b,
    0x4935736121830af5b61d9dd8d80e4974, 0x52d7409d02767f434449a15602545c9d,
    0x89558eb5d780f07590e97cdc35330bf0, 0x44703c78f2beb4dd5105c5db2358c9dd,
    0xf6bfc810214b8d8e77612869d0ea20ac, 0x845ee028b247ace8c2fb758c5767c9b0,
    0x393499f6bef42e492ca8a6f5f60dc6c4, 0x2732d56ae5c817e3af9671802faec58f,
    0xfcd36628173119f32bc28e9bd189338e, 0x1ee86cd4f697c166b58be5ff9767688d,
    0x6b1e9427eb6bac8a7841902b1082dc8a, 0x45335f632a45e714acb8a3291600efdc,
    0x868030ac8de088e5305c520a2e2d653e, 0x5845544c1248e0d59e9752a1aefd88de,
    0xfc246525459549f0d7e96a2e8bc88da7, 0xadca1f64eb3f9e6484a70a73d00e20ad,
    0x25c1f4124240de26612446259963d465, 0x1e4f96e6291a064eeedd121fa0eab10b,
    0xebdc215e9374714dab777ad129c5634e, 0xee4f46ca24feb04255bcaf800623c8d9,
    0x6919683d234fde16122f5dd57823276e, 0xbbd682433c29a78309d40e106bd9db6d,
    0xfa3134ba7945ba2a5185572b075a14d5, 0x87de8aa610d430a564e2a9981924ee7f,
    0x96a39402c297afa725d2ec4070399b06, 0x9039dc2acca296f56ab9c5a34aa360cf,
    0xa596a3844ab4baee217ad3ca1192eb0f, 0xa1ae2f0c77cbbe50490769abb12c4fc, 0xc062e17f663c3c2c5f4e3650c4cd7bd8,
    0x4eda4d2c00dc4de551ae4d1bd8419dc8]) rfl ?_
    decide +kernel

theorem gen128_bad (env : Env) : ¬ IsUnit (mat128 (gen128 env 1#32)) := by
  obtain ⟨be, h⟩ := wordS_cases env idx_bad off_bad
  refine not_isUnit_of_check (gen128_rows env h) 0x28dc101b994de9b1e6094412591f25af
    125 (by norm_num) (by decide +kernel) ?_
  cases be <;> decide +kernel

/-! ## 256 -/

/-- The matrix that `randM256` stores after seeding with `s`. -/
def gen256 (env : Env) (s : BitVec 32) : M256 :=
  Vector.ofFn fun i => #v[wordS env s (4 * i), wordS env s (4 * i + 1), wordS env s (4 * i + 2), wordS env s (4 * i + 3)]

theorem randM256_gen (env : Env) (M : M256) (w : World) :
    randM256 env M w = .ok (gen256 env (seedOf w), w.seeded.adv 2048) := by
  rw [randM256_run, gen256]
  refine congrArg (fun A => Except.ok (A, w.seeded.adv 2048)) (congrArg Vector.ofFn ?_)
  funext i
  rw [show 8 * i.val = 2 * (4 * i.val) by ring]
  rw [seeded_word env w (4 * i.val) 0, seeded_word env w (4 * i.val) 1, seeded_word env w (4 * i.val) 2, seeded_word env w (4 * i.val) 3, Nat.add_zero]

/-- Row `k` on natural numbers. -/
noncomputable def row256 (be : Bool) (i o k : Nat) : Nat := 18446744073709551616 * (18446744073709551616 * (18446744073709551616 * (wordN be i o (4 * k)) + wordN be i o (4 * k + 1)) + wordN be i o (4 * k + 2)) + wordN be i o (4 * k + 3)

theorem gen256_rows (env : Env) {s : BitVec 32} {i o : Nat} {be : Bool}
    (h : ∀ k, (wordS env s k).toNat = wordN be i o k) : RowsAre (mat256 (gen256 env s)) (row256 be i o) := by
  refine rowsW (by norm_num) _ _ ?_
  intro k
  unfold row256
  rw [← h (4 * k.val), ← h (4 * k.val + 1), ← h (4 * k.val + 2), ← h (4 * k.val + 3), ← catW4]
  simp only [gen256, Fin.getElem_fin, Vector.getElem_ofFn]
  rfl

theorem gen256_good (env : Env) : IsUnit (mat256 (gen256 env 0#32)) := by
  obtain ⟨be, h⟩ := wordS_cases env (s := 0#32) (i := 631179142) (o := 821919473) (by decide +kernel)
    (by decide +kernel)
  cases be
  · refine isUnit_of_check (gen256_rows env h) (bs := [
    0xa4e78f6f3c8ede8535c89bf7f2263ef9be0ad47597ea6dfefdc7451d718b2263,
    0xa34cce05e16d2c1dcbd24646a3a323a1909a73d9dfd7ea9de8a178befc05b4db,
    0x261aba6abbb1a108511eaa081142f7606abdab1e05caf26d1f52f47aa6ce6025,
    0x25173c4077327642ca15f7be494df268effdfc806ad4aa4e4cfc8bc7c9329276,
    0xa93d6cef39f30e6017ae6f0b85bf4b38fc6c1e246b3619066f87cb07fc613ca8,
    0x50f9f8e6c2626f9795674cc0c1dc4f4547c5184974890e075115cdf071c75ced,
    0xac1b55723a41a2e331726cf4954d672541d31adc71db502bb1a96fb62b50e8,
    0x14ad20b840b80e3d68de9134273df0d320ffaedd227849abad4933822cc2c91,
    0x6ef1e5442a066b0efffc9caadb97f65b3b2595ff8e64ecd95c7448f0c4e02dfb,
    0xb69d11a6d373c3622e7b3398d9b0817fe0f2541d1d2d32dab58203a92fbe1c38,
    0x1bf42f50ce6a4a38531b2fb555d8849662204ba5db50d537f4962a21d6f9fe42,
    0x9b7ea9683116718b638f38bfbcec805ebfaf563028dc272b47356ca7b77689bf,
    0xe82e48d4d3157a711c605eb45714035715a476a21dbd2e79658f7fdfba8751cb,
    0xeff30a697d4e9409640904ac27461161ec4cf87932e742228dbe66d3e1dbc62c,
    0x97bb303226c415e6f18c0979d74bc0bd1b048112805e183779b31987c258f494,
    0xd0b8548b8f17f608b5c6aba46c9a02eb68f91f4310ec51bcd405c42ab1a01b8d,
    0x75f321cfef4e65597fcc64dc314397729ef7f393fa63e56f80068002ccc53afd,
    0x14425a4c87e95d2c0c7c35fb0688f46d132061238e617d6e88eb351c65198e8c,
    0x824c9436855353358dc08c4806dd23d68faa652a9413fb44feb2a866545f32de,
    0x90d01020b26eef6ffc55673308594fe786a9395d15d306c22d3a0dc79fe437da,
    0x1e4e799bfe037d8b4e1aa2b2604d3fc09d8b1245332721f6c949d07a8a1c0956,
    0xaf54d3a303bf07da7928af3cf320e8c8b0f89910bd89fed8b50d77939914d81,
    0x2cedbf47ced14071ced0bbe2990e675356853a7c65a4129ebd34a19d055e77a9,
    0x601df28347b13e000ea078a80e206c3bdd66b1d24c5f85d19bbd881462b2f702,
    0x253e08917a2a8a3ae2795f3f8d9bbe7101f1b42e3e653177b514c23a1827e7ec,
    0xb013b3fe8dac1c65ed13b75c1579c40252b69241fd3a20ca953be12306a30304,
    0xe751cebd6781e6f71e9a9291507fdab0a83afcf6578ce8ec12a5e71be5be7ffc,
    0x9d3b910c0438c9ff1b852f2ec6ff763d89ce5c9e315be8dd90ad4ffe565cdf08,
    0xec347f3869b61a45a89c8c7dfce627fb664eb16aea50a4f40697793f683f3867,
    0x26c1018f7b800c4319dcd0be7288dc276cd878d7069fd19d54682d88a88aee5c,
    0xf83c8c6c6de37236380a8796ef0f48d89c66948fd55628fa17cf9efd8cf3a34,
    0xb33333be86f35bc69d9d51aa207f0b853f920b8a3d71de25388bae5be5a22c11,
    0x21e6ccb4cc88147585c290716a443daff95e823dacd169bff6015d3cfb9e2382,
    0x861273c580973bf2696145b14949df98818b9ac54f718498e77de8f14268db18,
    0x469a96fad0787533963af69bd8f4dc88c7592a7536891a3c42c2971d920d1f92,
    0x1d32970203b1a386456581e2ec27850006819dcff99e34c942bfa5932bcafd14,
    0xc8284953e9a7331e9170930fd4bd0d2948f43e3f5b514a7a4dbba7aafea99ff5,
    0x1a6801329d2b4a94460fd4067aeac6eca9175e18a4a0307dc2014cf75098f8e,
    0x9a73ba9a2ad92488a49a9b16c2601ddda6da2510bb1b4afc87e48e8dcb49febc,
    0x28d78e4f877fc26d76ebf0dd7161a61b03f76137635b4ae96d4d6575e9da936d,
    0x87920fa23faeef64ba85df3ae31c077b2d48b0bc74e9860ad5e64c9f620cbd83,
    0xfe4690e6d41e1c129152a060082511e7fc1ecbb5bd628e07614013eebdade373,
    0x828d2b03590674df50557d6cbdc2d33363d4498fe40a33b5691daa56787db9a2,
    0xb8bf0868d1d9e0021427a914d105dbee0b547ff53c5db4607b5d8a14c796e4db,
    0xb6f30354635ebc9116c985ec04e1e59a8b6fd5591ba918bdc88b6baed84e4292,
    0x7ed72185bd801816f4da30ab608459476f485b2a205667c6886a7ab7417082dc,
    0x5bb6107aabdb773c238b60b143c2fede4bbdb73b5bc5d4289be9b13a81ae2e8a,
    0xd3d98e367f28c543f1819d37077052cfda5b2dfe42d9ccdc13a09dde00206e2,
    0x636bbe1d3b8b420677edf49b1fe84117f1b75d591fcaf787d718ee25dfb4915,
    0x353731b1b52ee097fac0f26cc3a995d073bf0761f59306a4bc18bfecd27d2e5e,
    0x6b997c185f5d74c56c8f29896f6efbcb0da5e6e15a0501d70dbdc47d345a32e2,
    0xffe1fadb6d714cf28b96acda8e32f8f7b90ff747f9c4a879e1a0f751234f2fcb,
    0x375e371dce1aa8f8e1ab41862509fa96dd4e9bb14130e302564883277f8b254d,
    0xb32ff188a2d27d96d434599f9ec2babe372091d05f81909565ca9f750dda6c28,
    0x764c468ce7e18a547850500c5bf668448c70e63d7292ec9881c12b799275aa0e,
    0x58c1c58d644eccfc990aafe0cac250fcada0eccafe7ae563261f820f6d4dbd61,
    0x2fd231fee0967381ac1205ca46b2a5219316bdbf1a7ae0e36f12c677a19f04d2,
    0x512971f564f9e7b05b8718cc90490fb055dd52b08e532dd912d3774aa8ee701e,
    0xcc237d3c553ae1f0ab5b1459297e22837b5b64297cb8cdc6db39f560096df393,
    0x4f7e9d3663ece5f6b97e35734a3361fc15c2f053fdadcdabd692173e511f6fb,
    0xbc7992d673ba34affdd3076c2d8d7fa9c5ec281948db6b3460d0450f6fa39f1c,
    0x27a57551387f77162c2003ba3d01eae36bf16f964743711dadf413ffd7450e52,
    0x2b2d5bef46598b36b8f10db17b0ebe5dca1761cc331ba69a2053d25286a41d24,
    0x7819fd8b301e24a90f7ca6bf518bc7d54285e114668e4c997d2c1c58bf5fa052,
    0x2690116dd31909a0bfea9a21b41c345071f21f2ddc834219fd20f696e9b90bd5,
    0xe685f785d64f8442ea56a18548d902944df7ca4275920e5fdac7981f1c66960f,
    0xebf9ac68f1cc52a5bb947325feccedf8547b50f277ef4077577d2652779584a0,
    0x61bfaff42ca2dca05217fd4ea1b53eda8c58a2faae20b6bef7b7692613e8d60b,
    0xaacde979c0950908f77f5b63d85747ca9de0f3e0e4267098541c904fdba1fa19,
    0x3d3cbfc206757d4263583a98435b513aa525e66f6414a944a2460a71fe4b8998,
    0xa0d0b456b031d7c1c489294ab2db164ec32b8a293c24a4dd6b8d4cdebe8d7a6f,
    0xadae34932608643d41bfd5aabce6bd1e076eceabf6cf3920f0028601c9e6f3f6,
    0xacec7285f2ee066ce3eea37969532bf5ff052c9ff9f906ff508ac1fdadc319,
    0x2288c144d47f29dbf4b581ab4183c51c543fef0c20d3348b09d6a82e33f13e0,
    0xd4cc36e695f81a798e574dee372e1a4da8140bbd3964ec85fedfd7935540cef7,
    0x959aaf3c71245a6ead856dc487c4963cd332292c96612ad9c6032e034bb50ba2,
    0xceb5e1431162b2cfd61cf3651c9d0edc888b5e6a732131795fb8c77998f314fc,
    0x29aa2b442031f84d5789edec809c25bd98e208ae38a71ca4d2aab86e9b860937,
    0x9da66215c322b9a32434487302f35de40c8d0644bdb9f3d72adfdbcd8147c5b7,
    0xa8417110b93b96554e1e4b961a87401bfffe9d4292b65d076bf02d144c46e44b,
    0x5886a88a9e9005564296e42d0ab1aa13d41183bd76c4a6feb28f32c136089ca4,
    0x9ebe5219e3679ac5868bda2fe2de7e1c78fdf5b30d8afcb543f2c1fbeea5380f,
    0x3ee34b53728c6ec0ea137e15eb30577f9ff9caa74c33532d9826008f14921178,
    0xf8498482f87f86d77818f58388a6cd900e0b7613465162f4282f4f3abea6fe25,
    0x62ddaa91754c65277a51ea854182fd9d9f134d5030079521a86d0ccbad514fe7,
    0xe8853b882b3624282c629a0c6cfb8f3ba659098c90c5c7c707627b65297a9625,
    0xf932171563a22c1166000eae8b0bfcc95ba4e4295e5c07484eaa8cb7217047b8,
    0x99527ac2a8e576489fbff802b5684b056463ba6fc0590bc0c750eb14fe0f07dd,
    0x57131376c78b9e1aef6f626f9b0705f8dcd195dd093bc400067282b3ff0c5a38,
    0x8eb7b243e161dda3016b18ed2fe4b8c644d27282e1785ab2cbac31801d29e1c2,
    0x33571137d17e80d4e480d44a28cbbc8a0904bf0ccd8650674dcfc9d617c94f9a,
    0xe086bb44d02dfb91273aac24e996c308de1f2a84ff041f39bc081c339b7e6d54,
    0xf482b2ee15030dafd9330df0eb2aa889afbdcb18c973a16727f5c8274e4527b9,
    0xb0eba0894ca2bf6ce20ae292abd62c844c7a289479c17e056e1d9cdcf4feabb,
    0x25719287b0ac0e0d16fb12a720f8fe1864dbb5bda0743e43ade157caafe4c4a4,
    0xe57bd3d1dde217fe775ab5df245f258468317ba4ce08ceb69d719f1b5fb6d006,
    0x81d881b8702232aa541d98d77e551582181e321b1fa3465878d84d6ed4c72981,
    0xcd6d885119c3031231d82d7ac2b90b1ce197c3c620fe7f82fde76ea9546f66ec,
    0xedaca87043a6814c37ad99496e7baf8fddb5bc8bfe88075f1a4a547f5ade2d14,
    0xf5769d0015d08ccec70d20172f738931d941a903122948a5850d78fffe2cfef2,
    0x3c9c5e111362ce3bc05e192f007b1906b3363de495dde26c2bf689bcf18fb6e2,
    0x41e8c49769d8cbf24900ca8c681c111655b2f0b7ebac47feb36b140076275198,
    0x3f3858e579ea2d02cad3f40918d93b51d553036ecf7763a7ecc4e45dc564c51a,
    0x38f9fe4e6dc8e09c17793caa9621d76ef7e34570964bf4141822fbe190bdb837,
    0x58ca4af5c9c0c291c18c8e4f51e551329ccdc4831597a63fb8a6a8192cbeb5c3,
    0x2cd62b855d82d5783894521b0db186e4ccf1d196a89c67b0ea28536d4d4b0b24,
    0x4b9ecdc29a5c04cea3cae77d3600fbe0fb4ad3467d3cce699d007012fda169a8,
    0x6e4a1dc293231e2569a65f0408f0e4ca978c34cc6d26cc149b215ed5c356dbdd,
    0xc41dff6d33607819316755b72ffbbb50d726677c9ec16a03c45a79e31326b830,
    0x1cf2fcd8026847e616e13732269da500cbae1db61248b01f299bf56694fa4e03,
    0x1bdbc79327f284f058ef8c61d60274977e5d474ccb87fe014df8599ee2c0621b,
    0x2fa707f5f56b1c374689fb611d4e4e053b887cdbe428c270294bb06f1d025dfc,
    0x3765a1d1b1b74b59757c0fe99d4152d3f912cacc35eb3c31c33d59b810501389,
    0x2729d6330a755f4f68795d51648bb4bdc28d635aaba4e90da1328ec2c0079a60,
    0x56630d8ec21fc2d1448092d04883061e8d8d5e2fa94245d0f1dc91a1d0c2782a,
    0x2147bc0eba22e3ffb54b02efbf14fcb3aa67061fbdc07fe9d1c9f874b1ebd172,
    0xf8fdb4a77bf6d3b936b1cabf4150b6ede8b93dcc7d03241998ec9895c7eef579,
    0xbb04cb1198a7419f6c28f9a7c39195a0bb062431af4f0bb507e585a91e52198a,
    0x790894f2fb175b40afbb11b06173fd7762b85978e64bfd0c3eba0657c58c83a9,
    0x685aa47ef381a651c91c65275f102f65262f5077f57198a4fb5b20149bd37580,
    0x6c86ec9ddb020a7dda9e164f503cb6e6306b8516dcd6fda5dde0bd3018139f03,
    0x9d61db26bf557a97d1b68f257f2c91ec78ebd2f6078d2c116636c873c336b085,
    0x384ed5831b61b99eda7b9c560c923c2515c851c81de7be18af2f2be5cb3d6c8b,
    0xf015c4fc198e6282532bccbff94e2de134a9098f7da75dc4edda6feb5338a5ba,
    0xe01648b5034d1f68d5ffc37bf253f11ac4f86857ff85aff181dad04f1f670562,
    0x316babefd88eeb417a2b674344864f7091656176ec192a5042c05b5296aeddd1,
    0x55b628e502aa9e0b8036f9654761e0400380f174a1951469d8f6515bd54aad14,
    0x24453947a6f80cf44089c1d987f02f19f0b55c7bb5d3bbf242ad52b1c1ddf479,
    0xbb90650661f1bb9c4b13750b96a506ca4a300cc52e90ad8031860784db01cf92,
    0x29921fe22ff09b32679dd3867be58dca10d87386cd3fe0f338d587c2b15b732,
    0x540d41b10954df341fc39ba5c11a0ab924d41ea9f8a934ac02d3d34464e35b36,
    0xbf307bf7b3a58e89db50ef3d0a8201f87376fbce1ca648ffc9f769e4ed1290e7,
    0x559a2aae39f8430ee2fbc615a5067d42bf8c7cc41d345f9841f8da75f8056f11,
    0x2e4ddf09b3d35c47bfd138ab751eb00a2679100fe6d235b4dc140ef9528e62a8,
    0x53249b724904eb811466d532b9d569da0dece6edf59c3f36ad3db308cb246ee,
    0xd72601876e99a93868c66cd0add3373ae9b8077380f630082bd59bc3bff729f3,
    0x500b6586de6ea95b5b8149d26fb2a445f2498bbb22a63961b18960201be43cad,
    0xb09d4bff158b93b440f49d6dc32e2e4a99862ee567fc2d242489d7ef0c193be8,
    0x32ce8d3f39c0a60d5edd7472db0112e4a52bd74a65af471cddd8ea121058225d,
    0xae37ecb1cb2df5768ce02f159975737301e408cdcd5ee12b9caf6b17ef762994,
    0xaadb74dc5293f7f82e9e703e90fa418a8f5d058de3bd1803492bbf541450c3d9,
    0x816dd43becee9a76a20fe9cb8d6d1fec53a603fa4c75e5533dd933ffcf2708f7,
    0xde6322bed3a7177a2121b296964d1c49c28f23a2308ef3e29f4ac81997f07b2d,
    0x167c5a7316c79262d585545deef13979ec5e09d895780ae399f606c504fd5766,
    0x75c639e425aa094f5c4e39aa03483c58236f25b87d3f9f1ded66f0cc31b9396c,
    0xf409ec41c58a4421c18a32bfac329df2c171afdcdb75f2c8646ded6cd1ecf89a,
    0xc7ee4a56f96c111c1883c04014fc944730fdf4447eba42e3343c2419089a45,
    0xd887c078fdddd845ea933c7d0b13c82e09dbe4c0dcd0b9e489675f9c6d103742,
    0xc4a174e4b5dc7d3834afa770172d0543a9611fbc936fe6403ef82bf6343b8c14,
    0x29b5c90400bafa82ea236a56a565058c1e8467b6cc6af0eb69acd863f303ddfa,
    0x184579ec228abed0a8f2352f4ba3d94939e57c9cc9265d0483a836569e881a38,
    0xb7fe9683d21eefd1279a32280236ed25f68aabdefaa68a50947d5ac7ffeabfa6,
    0x265ae413d118a35549652f02e483013ade8ba9125dcf1e47631cb2252adfbede,
    0xfef6422570839b7143ecde181ddf9272f1eee9cd25b4758b4c16ed9f5698099b,
    0x1355c2da7b8b2a2a5a47ee3035cfbed5a68065d60d866aa6c7786472576eb1b1,
    0xf10a8c1fb724b3c71e6bdc03677f9a3dd39a7eee609f88b618d4da921835ac06,
    0x78b2ccbf7380c62faab3fa4845c677efcc8f382e0865421fe03c99b349fe8eeb,
    0x4fa9cb078aa1c9dfa94f86064810aaab82313ec81fa22ad71c301793fc134dcb,
    0xc659d18e948e47d58487a8531b536588a92ff5583afd09a79babcec22735f6ec,
    0xe735f793b80f934905d4415ec0d0574826ef4f30e85985a997e5880a35822e5a,
    0xdf6c21b7f0ee7a09eae1e3e7e4f0e7fcbc018c4f3032978b4e96cb12757fbad5,
    0xed24e70c20f8ea66baa463404cb5ecc479201ea93de4d9a5d0c4e1d95f94dfb0,
    0x58fa543a5a45735127763646e809832c32c5d675796db78ae851c37eeee20674,
    0x5f72a8a0932a6cc611b9037f31b6b9891deb319cc9c2895d6f0ce279da6007ae,
    0xb508e642b266349d8b5583594f20a49dbd870fe60f7a38c87de051875aabb1c0,
    0x5c76948b20494602374822bee0759b0b8957273a22cffd201a17b3b3452fa628,
    0x3a3e563e6d8ea8387f84306d9f34b02786479e56a3957ac2abb2d8e95407aa00,
    0xde971764db46a700246d16eae7564f34f5e965e1be2c99b9e68f4a13dabc696c,
    0xd7d848d6379d213f066046ab0949616190d3fe4176728380c9667fe0cdce63b0,
    0x5c0d21999315cf2f463739235f0c353e6c0f26bedb6211130c46bcc9eb9516fa,
    0xc39a5d3ce4447335fa618a869c667e66b0d1d9699247b570bc17e6bee6645a8f,
    0x8c8e0d3ea3afe3cd50888e3194db035c78faa2b60aad6073657be5b8c0cac4e1,
    0x9f4fe7993858071a3abaefb4b7530a9d35262f2d87e81fdea100e665fc96d9f3,
    0xacde34665c2e4886b25e3c022d89e66b725f6f7ca57cea9419c20fb008eb7317,
    0x88fcf2751e3997bbefa0bcbd5b643cdede04d943be621454e523dff24d2154f6,
    0xf662ace586fe06200a62b9c017fbe12cf9633c9ed6894e31931363dc53231b4f,
    0x1f272bdee457984db454a9eecd14c96d7ef279d730af8d5a20e35709c86a6c4d,
    0x84558f248e3cc8003f6f29dff90385caa1c79141e7abfefe2e4bbadaca124b94,
    0xd31bb39c81cf8715297100e9a2f336b35cf572a2f680edd9b0b9e60d491c39b9,
    0x731f3580b91dfd8129bd8d867bc5806fe6f810754c83736097c1dbe60592773b,
    0x99afe20a07d2d99f6dd4df5ad626d49483052e7cb0a706283528935d215235dc,
    0x6438a482d43a967951fee4e827335bf7c8122c5093590b8e8b979498b21df4d6,
    0x67ca7b2845a151b93e1910c89240751425e841e18f591309d1563830aee0e567,
    0x2a833d8699db204fa5ff162d54c7fbadfa20fb156522532b7fbb02a3019cdb94,
    0x5df46e0d66f588f2be9cf81fbd7392bec9497e3da742f96ad58fd1ecc5c05db8,
    0x91d3ec25169c13ad3604551770115c5f9101a2849e9387aec024ca3a21bfeacf,
    0xe05bc88758a29ca2f3b5b1f46e805e8d9cc8aa54fefe29679b5c3e17af896cdd,
    0x32546e4d14d6e8b3ea69a0af19687701fff30cd5e9376893c5a2e61f0c7d9690,
    0x8aa987a9c280f85de6baa3d2fd128518eee511d878189b8695a405c1de245334,
    0x1b4bf64d212b821092f0d6e43cd82603685b84e104bf615956231240b33315aa,
    0x21d427dd947a527d3062ef07efcd242926620f350fe486dd57c366a658f8fe4e,
    0x76de64889032189464ad33287165e41f5011b4a11dc886f75782e79e7ae1d842,
    0xbee63bbfdfb694a09a40e5e4839ff05dbfc381242809fe1a0423bf454c31d3db,
    0x68696337f09b09177ba33641777c3863d89af4be0219b3e2b14fcd5cb6545219,
    0x555388b7349b3207be6f836b48a235b5887e3c468270b0d6cadd372e5fb23f07,
    0x1f571898cfdf59c7d3d528b0bea8bc202790e1cab590a8510298d9c7c834724b,
    0xbba1829a6060a6e6fbaa517193fd80d942ae8c9dba0e591edbcc662a5df81cab,
    0x677be9ee48fa3d9c2c4b63356672923ca035c05faf4a02472802c90b86a3a2da,
    0x2156ca71c0c2504635393c9799a13b26c9eb13c06bde49fec6e406acedc8515e,
    0x7aa966597e280f5babaab1fb135015c75c30891697ae8b63648b6bfbf9ba80aa,
    0x782df7af8f4fae72feee26086710807395d0ef6ca08a6db60ed5431ff6a54f33,
    0x36bd8e8ddf2dd7a469e30b77b5b65fe22553be03e646fbacedd611db73e70a1f,
    0x475b265eeec4a4d40c14a7dd20908f6ad23b3aa2b3510152153ecd1b33b62a92,
    0x26ed99bcc6f1714a52228d5e0ba25620892d855d0ee4e1960d2b5b82c9fa7510,
    0x7d65c539f7adea7c8438dbb86cc22544ed715f8297032c1d6742546fb037a992,
    0xa04e8b1e6041889c5a085eaa406cee342ecd33392b6580846e44ac46fd4757de,
    0xf1bd30c49fe2c23f8796fbd754adc9fa0f8f70e976bb1bd629d49106ac74c876,
    0x977640c2dca2c3b4998947726ac096bc228020ccbfc0cfa3c6466a9b8e61abe5,
    0x82d5559a0915a10dcef6040be65e67e28301eab009dac1b60184514d07c2ac4c,
    0xd00d11f7b33e55f0af5269654fb59a70397790d569c4bc7f274a1aa3c81d0707,
    0x3f47e1bdd3af7fb0e5cccc4f7909f38606d78783fa0dfafa54152a67e1bf9fb8,
    0xb2b2105ff7f6576f5c408d22696234931f28f71143e7f3e9004c720d02eba38b,
    0x7619ecffef106595eaddd5674d224f70525ee443adf8726c42aa5daf63a8ac0e,
    0x8d0cc2e91ad73e762099a8c6d710c0d75759622011f702d53fc3effbe32621f5,
    0x25eb153b256a3850c34eb912f89eb1f5a0b7c5f044349d3569ba15717c15ae1f,
    0xa120c66bedbe646323585b976629b3cf596a2ac6a09fc9be5bd3cee03a103740,
    0x5a28440461e23ea4ddeebc6f0a667db1e9f1705c4defee0dcd28e27a87549a16,
    0x4c814aef64e2791ba1b159d23dec8b466c6528baaa559e1b159d888071dbeeb7,
    0x41fb3f3cf8377d97d015e53becfa2fc0d68f272059763d25bd2c008d24148be3,
    0x7f35a99e2d3e6fa984721b4b784a179b5dfc076108c0aa12f129c1136e8a30d1,
    0x10c53de9a17b640dec0ee66ed8fa879338e7f7c7e85e163df95f33e543c0462b,
    0xd87767f15b95e85563723d104ed5c74e6e81b8592e27312f2339611e8e7c9c2d,
    0x159af70436dffa1223ce013c91195927493b80a92fa961e32346a540d02f9eaa,
    0xd4a6a7947a51bc6545e62392bb9cdb717a9bcbe03404ab7cc89aa92352939f45,
    0x38959db19078039b1b9749d0abe0647d2669e3bd3a54c858d7c6928e61289ab4,
    0xc4580a0f3982e11e828e53e4c15c88611460de04e462b67aca57d08bf2a6dd54,
    0x37f9d431a0df4c950ebff8ec5f8eff3c2d5ae5783d72f1cd895154f4f323c7f6,
    0xf25c8bee788fea6efb14d3e84df841869ad42178c7ec3593b753089b238fb58a,
    0x5250cbade3e4d047b1e9c57739d96944d1d925ae4b2263df4513b7719516c526,
    0x3525db92fb367745427d0b189b066ea7b69ce5eefe3ae557afa59a65a19f83ea,
    0x9db3189c2587f1773d9e12dacfd45bda5fb028bad36f026c249433c626afd692,
    0xa877f05b5e55a6f17766e81856c989e0361ed9a0b882eff4c523e89427534cf8,
    0x7abb2411bacfaf996ffcfff5b78ebf142871e4ebaafc5daf03f1f1b05ffa93f7,
    0x608594edf36a36e85af094dcf5df29f6b169d921d4f6ae0b41d14fc773452ca8,
    0x4d6e67f9ca53a03ebef0305c735d585c8a48b37bc8ea5eed5df6f327f660fc6,
    0x1628b7a7aacae9b8e980cfc1a15b829b3803e2601edca27c1791c8e07ad1379f,
    0xbc75b87a3297d71ff7b12e3c2d1d9d7692a4ec0ad67550b3104b08fe070fe226,
    0xb12f28a79c3a4203ee434b7e0dc4c3dafd58421115662004b12926d545fb7500,
    0x97bbecd259321d2b913388b5c680572641fe277b01482cce7d396509ce27ca5b,
    0x4202faf38ea9f06626eb257714bc8af4d3786c9fecb1b22a463a440d95b0adf9,
    0x5633fb0e0009580d9311cbf09f1f78398a50788b4ef758d37c5d4cfad26c78b5,
    0x17ece5c604507be4aa4bd5d618ae7ecde0faf89f148e373ed96f8338f8ef3db9,
    0xcb7b70fadcc96fe164c8afc61e68e9088a2dddf56f46dbfda8c139c7f93ec028,
    0x748b73b3087195068df8c3398ea9de36d8580468c72ded0dc5d9afa1555d2819,
    0xd64a17b45c9c23c4fb5e499ac0a2cea8709126a390dad677956afad8072db9b9,
    0x3f493c4f483a133531d3cae43c7486e7862b474ec3d561e6a52471f7152c73f1,
    0xe870d3c2283736828d66f9c41d325bdc6eaf0c5f30408210563ba0ca5903db80,
    0x38abe28799903f9fe314a4d33104a8d8570839a58e2975e971f43c879b61a9f1,
    0xd056bec58a781a5af54a5217c667d3ed77c2048d0fc25aafe1655b082efc5919,
    0x87b24de87d14cfebc12666fe9a52f8c94cbee6a8ad2e4d87ceef5bd1d298822b,
    0x2ee620ed7895ec26378ceb39e0a5c7ec6672609991545c36501250091f28c0e9,
    0x5411cbb60271cda2ef911dee2d3dcb55f12d8f5c256d81eb3d247002d82e0a1d,
    0x70bf3cd330cfff6db2fd16af1f61128fd6eba33d53645fe319143542bed97fe1,
    0x393435a0e664700a085f72be3bf346d6b2219561dfbb68dd4a6e802103cb167e,
    0x2fa05149b49c27641d4fe7fe2c305032c9662a7af7dce0568f9a0c08ff58cf6c,
    0x40f00b0852214640b0f746fcc2571228e3b9a70fc2aec07e7885c3f8e85085f1]) rfl ?_
    decide +kernel
  · refine isUnit_of_check (gen256_rows env h) (bs := [
    0x21e6ccb4cc88147585c290716a443daff95e823dacd169bff6015d3cfb9e2382,
    0x861273c580973bf2696145b14949df98818b9ac54f718498e77de8f14268db18,
    0x469a96fad0787533963af69bd8f4dc88c7592a7536891a3c42c2971d920d1f92,
    0x1d32970203b1a386456581e2ec27850006819dcff99e34c942bfa5932bcafd14,
    0xc8284953e9a7331e9170930fd4bd0d2948f43e3f5b514a7a4dbba7aafea99ff5,
    0x1a6801329d2b4a94460fd4067aeac6eca9175e18a4a0307dc2014cf75098f8e,
    0x9a73ba9a2ad92488a49a9b16c2601ddda6da2510bb1b4afc87e48e8dcb49febc,
    0x28d78e4f877fc26d76ebf0dd7161a61b03f76137635b4ae96d4d6575e9da936d,
    0x87920fa23faeef64ba85df3ae31c077b2d48b0bc74e9860ad5e64c9f620cbd83,
    0xfe4690e6d41e1c129152a060082511e7fc1ecbb5bd628e07614013eebdade373,
    0x828d2b03590674df50557d6cbdc2d33363d4498fe40a33b5691daa56787db9a2,
    0xb8bf0868d1d9e0021427a914d105dbee0b547ff53c5db4607b5d8a14c796e4db,
    0xb6f30354635ebc9116c985ec04e1e59a8b6fd5591ba918bdc88b6baed84e4292,
    0x7ed72185bd801816f4da30ab608459476f485b2a205667c6886a7ab7417082dc,
    0x5bb6107aabdb773c238b60b143c2fede4bbdb73b5bc5d4289be9b13a81ae2e8a,
    0xd3d98e367f28c543f1819d37077052cfda5b2dfe42d9ccdc13a09dde00206e2,
    0x636bbe1d3b8b420677edf49b1fe84117f1b75d591fcaf787d718ee25dfb4915,
    0x353731b1b52ee097fac0f26cc3a995d073bf0761f59306a4bc18bfecd27d2e5e,
    0x6b997c185f5d74c56c8f29896f6efbcb0da5e6e15a0501d70dbdc47d345a32e2,
    0xffe1fadb6d714cf28b96acda8e32f8f7b90ff747f9c4a879e1a0f751234f2fcb,
    0x375e371dce1aa8f8e1ab41862509fa96dd4e9bb14130e302564883277f8b254d,
    0xb32ff188a2d27d96d434599f9ec2babe372091d05f81909565ca9f750dda6c28,
    0x764c468ce7e18a547850500c5bf668448c70e63d7292ec9881c12b799275aa0e,
    0x58c1c58d644eccfc990aafe0cac250fcada0eccafe7ae563261f820f6d4dbd61,
    0x2fd231fee0967381ac1205ca46b2a5219316bdbf1a7ae0e36f12c677a19f04d2,
    0x512971f564f9e7b05b8718cc90490fb055dd52b08e532dd912d3774aa8ee701e,
    0xcc237d3c553ae1f0ab5b1459297e22837b5b64297cb8cdc6db39f560096df393,
    0x4f7e9d3663ece5f6b97e35734a3361fc15c2f053fdadcdabd692173e511f6fb,
    0xbc7992d673ba34affdd3076c2d8d7fa9c5ec281948db6b3460d0450f6fa39f1c,
    0x27a57551387f77162c2003ba3d01eae36bf16f964743711dadf413ffd7450e52,
    0x2b2d5bef46598b36b8f10db17b0ebe5dca1761cc331ba69a2053d25286a41d24,
    0x7819fd8b301e24a90f7ca6bf518bc7d54285e114668e4c997d2c1c58bf5fa052,
    0xa4e78f6f3c8ede8535c89bf7f2263ef9be0ad47597ea6dfefdc7451d718b2263,
    0xa34cce05e16d2c1dcbd24646a3a323a1909a73d9dfd7ea9de8a178befc05b4db,
    0x261aba6abbb1a108511eaa081142f7606abdab1e05caf26d1f52f47aa6ce6025,
    0x25173c4077327642ca15f7be494df268effdfc806ad4aa4e4cfc8bc7c9329276,
    0xa93d6cef39f30e6017ae6f0b85bf4b38fc6c1e246b3619066f87cb07fc613ca8,
    0x50f9f8e6c2626f9795674cc0c1dc4f4547c5184974890e075115cdf071c75ced,
    0xac1b55723a41a2e331726cf4954d672541d31adc71db502bb1a96fb62b50e8,
    0x14ad20b840b80e3d68de9134273df0d320ffaedd227849abad4933822cc2c91,
    0x6ef1e5442a066b0efffc9caadb97f65b3b2595ff8e64ecd95c7448f0c4e02dfb,
    0xb69d11a6d373c3622e7b3398d9b0817fe0f2541d1d2d32dab58203a92fbe1c38,
    0x1bf42f50ce6a4a38531b2fb555d8849662204ba5db50d537f4962a21d6f9fe42,
    0x9b7ea9683116718b638f38bfbcec805ebfaf563028dc272b47356ca7b77689bf,
    0xe82e48d4d3157a711c605eb45714035715a476a21dbd2e79658f7fdfba8751cb,
    0xeff30a697d4e9409640904ac27461161ec4cf87932e742228dbe66d3e1dbc62c,
    0x97bb303226c415e6f18c0979d74bc0bd1b048112805e183779b31987c258f494,
    0xd0b8548b8f17f608b5c6aba46c9a02eb68f91f4310ec51bcd405c42ab1a01b8d,
    0x75f321cfef4e65597fcc64dc314397729ef7f393fa63e56f80068002ccc53afd,
    0x14425a4c87e95d2c0c7c35fb0688f46d132061238e617d6e88eb351c65198e8c,
    0x824c9436855353358dc08c4806dd23d68faa652a9413fb44feb2a866545f32de,
    0x90d01020b26eef6ffc55673308594fe786a9395d15d306c22d3a0dc79fe437da,
    0x1e4e799bfe037d8b4e1aa2b2604d3fc09d8b1245332721f6c949d07a8a1c0956,
    0xaf54d3a303bf07da7928af3cf320e8c8b0f89910bd89fed8b50d77939914d81,
    0x2cedbf47ced14071ced0bbe2990e675356853a7c65a4129ebd34a19d055e77a9,
    0x601df28347b13e000ea078a80e206c3bdd66b1d24c5f85d19bbd881462b2f702,
    0x253e08917a2a8a3ae2795f3f8d9bbe7101f1b42e3e653177b514c23a1827e7ec,
    0xb013b3fe8dac1c65ed13b75c1579c40252b69241fd3a20ca953be12306a30304,
    0xe751cebd6781e6f71e9a9291507fdab0a83afcf6578ce8ec12a5e71be5be7ffc,
    0x9d3b910c0438c9ff1b852f2ec6ff763d89ce5c9e315be8dd90ad4ffe565cdf08,
    0xec347f3869b61a45a89c8c7dfce627fb664eb16aea50a4f40697793f683f3867,
    0x26c1018f7b800c4319dcd0be7288dc276cd878d7069fd19d54682d88a88aee5c,
    0xf83c8c6c6de37236380a8796ef0f48d89c66948fd55628fa17cf9efd8cf3a34,
    0xb33333be86f35bc69d9d51aa207f0b853f920b8a3d71de25388bae5be5a22c11,
    0x81d881b8702232aa541d98d77e551582181e321b1fa3465878d84d6ed4c72981,
    0xcd6d885119c3031231d82d7ac2b90b1ce197c3c620fe7f82fde76ea9546f66ec,
    0xedaca87043a6814c37ad99496e7baf8fddb5bc8bfe88075f1a4a547f5ade2d14,
    0xf5769d0015d08ccec70d20172f738931d941a903122948a5850d78fffe2cfef2,
    0x3c9c5e111362ce3bc05e192f007b1906b3363de495dde26c2bf689bcf18fb6e2,
    0x41e8c49769d8cbf24900ca8c681c111655b2f0b7ebac47feb36b140076275198,
    0x3f3858e579ea2d02cad3f40918d93b51d553036ecf7763a7ecc4e45dc564c51a,
    0x38f9fe4e6dc8e09c17793caa9621d76ef7e34570964bf4141822fbe190bdb837,
    0x58ca4af5c9c0c291c18c8e4f51e551329ccdc4831597a63fb8a6a8192cbeb5c3,
    0x2cd62b855d82d5783894521b0db186e4ccf1d196a89c67b0ea28536d4d4b0b24,
    0x4b9ecdc29a5c04cea3cae77d3600fbe0fb4ad3467d3cce699d007012fda169a8,
    0x6e4a1dc293231e2569a65f0408f0e4ca978c34cc6d26cc149b215ed5c356dbdd,
    0xc41dff6d33607819316755b72ffbbb50d726677c9ec16a03c45a79e31326b830,
    0x1cf2fcd8026847e616e13732269da500cbae1db61248b01f299bf56694fa4e03,
    0x1bdbc79327f284f058ef8c61d60274977e5d474ccb87fe014df8599ee2c0621b,
    0x2fa707f5f56b1c374689fb611d4e4e053b887cdbe428c270294bb06f1d025dfc,
    0x3765a1d1b1b74b59757c0fe99d4152d3f912cacc35eb3c31c33d59b810501389,
    0x2729d6330a755f4f68795d51648bb4bdc28d635aaba4e90da1328ec2c0079a60,
    0x56630d8ec21fc2d1448092d04883061e8d8d5e2fa94245d0f1dc91a1d0c2782a,
    0x2147bc0eba22e3ffb54b02efbf14fcb3aa67061fbdc07fe9d1c9f874b1ebd172,
    0xf8fdb4a77bf6d3b936b1cabf4150b6ede8b93dcc7d03241998ec9895c7eef579,
    0xbb04cb1198a7419f6c28f9a7c39195a0bb062431af4f0bb507e585a91e52198a,
    0x790894f2fb175b40afbb11b06173fd7762b85978e64bfd0c3eba0657c58c83a9,
    0x685aa47ef381a651c91c65275f102f65262f5077f57198a4fb5b20149bd37580,
    0x6c86ec9ddb020a7dda9e164f503cb6e6306b8516dcd6fda5dde0bd3018139f03,
    0x9d61db26bf557a97d1b68f257f2c91ec78ebd2f6078d2c116636c873c336b085,
    0x384ed5831b61b99eda7b9c560c923c2515c851c81de7be18af2f2be5cb3d6c8b,
    0xf015c4fc198e6282532bccbff94e2de134a9098f7da75dc4edda6feb5338a5ba,
    0xe01648b5034d1f68d5ffc37bf253f11ac4f86857ff85aff181dad04f1f670562,
    0x316babefd88eeb417a2b674344864f7091656176ec192a5042c05b5296aeddd1,
    0x55b628e502aa9e0b8036f9654761e0400380f174a1951469d8f6515bd54aad14,
    0x24453947a6f80cf44089c1d987f02f19f0b55c7bb5d3bbf242ad52b1c1ddf479,
    0x2690116dd31909a0bfea9a21b41c345071f21f2ddc834219fd20f696e9b90bd5,
    0xe685f785d64f8442ea56a18548d902944df7ca4275920e5fdac7981f1c66960f,
    0xebf9ac68f1cc52a5bb947325feccedf8547b50f277ef4077577d2652779584a0,
    0x61bfaff42ca2dca05217fd4ea1b53eda8c58a2faae20b6bef7b7692613e8d60b,
    0xaacde979c0950908f77f5b63d85747ca9de0f3e0e4267098541c904fdba1fa19,
    0x3d3cbfc206757d4263583a98435b513aa525e66f6414a944a2460a71fe4b8998,
    0xa0d0b456b031d7c1c489294ab2db164ec32b8a293c24a4dd6b8d4cdebe8d7a6f,
    0xadae34932608643d41bfd5aabce6bd1e076eceabf6cf3920f0028601c9e6f3f6,
    0xacec7285f2ee066ce3eea37969532bf5ff052c9ff9f906ff508ac1fdadc319,
    0x2288c144d47f29dbf4b581ab4183c51c543fef0c20d3348b09d6a82e33f13e0,
    0xd4cc36e695f81a798e574dee372e1a4da8140bbd3964ec85fedfd7935540cef7,
    0x959aaf3c71245a6ead856dc487c4963cd332292c96612ad9c6032e034bb50ba2,
    0xceb5e1431162b2cfd61cf3651c9d0edc888b5e6a732131795fb8c77998f314fc,
    0x29aa2b442031f84d5789edec809c25bd98e208ae38a71ca4d2aab86e9b860937,
    0x9da66215c322b9a32434487302f35de40c8d0644bdb9f3d72adfdbcd8147c5b7,
    0xa8417110b93b96554e1e4b961a87401bfffe9d4292b65d076bf02d144c46e44b,
    0x5886a88a9e9005564296e42d0ab1aa13d41183bd76c4a6feb28f32c136089ca4,
    0x9ebe5219e3679ac5868bda2fe2de7e1c78fdf5b30d8afcb543f2c1fbeea5380f,
    0x3ee34b53728c6ec0ea137e15eb30577f9ff9caa74c33532d9826008f14921178,
    0xf8498482f87f86d77818f58388a6cd900e0b7613465162f4282f4f3abea6fe25,
    0x62ddaa91754c65277a51ea854182fd9d9f134d5030079521a86d0ccbad514fe7,
    0xe8853b882b3624282c629a0c6cfb8f3ba659098c90c5c7c707627b65297a9625,
    0xf932171563a22c1166000eae8b0bfcc95ba4e4295e5c07484eaa8cb7217047b8,
    0x99527ac2a8e576489fbff802b5684b056463ba6fc0590bc0c750eb14fe0f07dd,
    0x57131376c78b9e1aef6f626f9b0705f8dcd195dd093bc400067282b3ff0c5a38,
    0x8eb7b243e161dda3016b18ed2fe4b8c644d27282e1785ab2cbac31801d29e1c2,
    0x33571137d17e80d4e480d44a28cbbc8a0904bf0ccd8650674dcfc9d617c94f9a,
    0xe086bb44d02dfb91273aac24e996c308de1f2a84ff041f39bc081c339b7e6d54,
    0xf482b2ee15030dafd9330df0eb2aa889afbdcb18c973a16727f5c8274e4527b9,
    0xb0eba0894ca2bf6ce20ae292abd62c844c7a289479c17e056e1d9cdcf4feabb,
    0x25719287b0ac0e0d16fb12a720f8fe1864dbb5bda0743e43ade157caafe4c4a4,
    0xe57bd3d1dde217fe775ab5df245f258468317ba4ce08ceb69d719f1b5fb6d006,
    0xdf6c21b7f0ee7a09eae1e3e7e4f0e7fcbc018c4f3032978b4e96cb12757fbad5,
    0xed24e70c20f8ea66baa463404cb5ecc479201ea93de4d9a5d0c4e1d95f94dfb0,
    0x58fa543a5a45735127763646e809832c32c5d675796db78ae851c37eeee20674,
    0x5f72a8a0932a6cc611b9037f31b6b9891deb319cc9c2895d6f0ce279da6007ae,
    0xb508e642b266349d8b5583594f20a49dbd870fe60f7a38c87de051875aabb1c0,
    0x5c76948b20494602374822bee0759b0b8957273a22cffd201a17b3b3452fa628,
    0x3a3e563e6d8ea8387f84306d9f34b02786479e56a3957ac2abb2d8e95407aa00,
    0xde971764db46a700246d16eae7564f34f5e965e1be2c99b9e68f4a13dabc696c,
    0xd7d848d6379d213f066046ab0949616190d3fe4176728380c9667fe0cdce63b0,
    0x5c0d21999315cf2f463739235f0c353e6c0f26bedb6211130c46bcc9eb9516fa,
    0xc39a5d3ce4447335fa618a869c667e66b0d1d9699247b570bc17e6bee6645a8f,
    0x8c8e0d3ea3afe3cd50888e3194db035c78faa2b60aad6073657be5b8c0cac4e1,
    0x9f4fe7993858071a3abaefb4b7530a9d35262f2d87e81fdea100e665fc96d9f3,
    0xacde34665c2e4886b25e3c022d89e66b725f6f7ca57cea9419c20fb008eb7317,
    0x88fcf2751e3997bbefa0bcbd5b643cdede04d943be621454e523dff24d2154f6,
    0xf662ace586fe06200a62b9c017fbe12cf9633c9ed6894e31931363dc53231b4f,
    0x1f272bdee457984db454a9eecd14c96d7ef279d730af8d5a20e35709c86a6c4d,
    0x84558f248e3cc8003f6f29dff90385caa1c79141e7abfefe2e4bbadaca124b94,
    0xd31bb39c81cf8715297100e9a2f336b35cf572a2f680edd9b0b9e60d491c39b9,
    0x731f3580b91dfd8129bd8d867bc5806fe6f810754c83736097c1dbe60592773b,
    0x99afe20a07d2d99f6dd4df5ad626d49483052e7cb0a706283528935d215235dc,
    0x6438a482d43a967951fee4e827335bf7c8122c5093590b8e8b979498b21df4d6,
    0x67ca7b2845a151b93e1910c89240751425e841e18f591309d1563830aee0e567,
    0x2a833d8699db204fa5ff162d54c7fbadfa20fb156522532b7fbb02a3019cdb94,
    0x5df46e0d66f588f2be9cf81fbd7392bec9497e3da742f96ad58fd1ecc5c05db8,
    0x91d3ec25169c13ad3604551770115c5f9101a2849e9387aec024ca3a21bfeacf,
    0xe05bc88758a29ca2f3b5b1f46e805e8d9cc8aa54fefe29679b5c3e17af896cdd,
    0x32546e4d14d6e8b3ea69a0af19687701fff30cd5e9376893c5a2e61f0c7d9690,
    0x8aa987a9c280f85de6baa3d2fd128518eee511d878189b8695a405c1de245334,
    0x1b4bf64d212b821092f0d6e43cd82603685b84e104bf615956231240b33315aa,
    0x21d427dd947a527d3062ef07efcd242926620f350fe486dd57c366a658f8fe4e,
    0x76de64889032189464ad33287165e41f5011b4a11dc886f75782e79e7ae1d842,
    0xbb90650661f1bb9c4b13750b96a506ca4a300cc52e90ad8031860784db01cf92,
    0x29921fe22ff09b32679dd3867be58dca10d87386cd3fe0f338d587c2b15b732,
    0x540d41b10954df341fc39ba5c11a0ab924d41ea9f8a934ac02d3d34464e35b36,
    0xbf307bf7b3a58e89db50ef3d0a8201f87376fbce1ca648ffc9f769e4ed1290e7,
    0x559a2aae39f8430ee2fbc615a5067d42bf8c7cc41d345f9841f8da75f8056f11,
    0x2e4ddf09b3d35c47bfd138ab751eb00a2679100fe6d235b4dc140ef9528e62a8,
    0x53249b724904eb811466d532b9d569da0dece6edf59c3f36ad3db308cb246ee,
    0xd72601876e99a93868c66cd0add3373ae9b8077380f630082bd59bc3bff729f3,
    0x500b6586de6ea95b5b8149d26fb2a445f2498bbb22a63961b18960201be43cad,
    0xb09d4bff158b93b440f49d6dc32e2e4a99862ee567fc2d242489d7ef0c193be8,
    0x32ce8d3f39c0a60d5edd7472db0112e4a52bd74a65af471cddd8ea121058225d,
    0xae37ecb1cb2df5768ce02f159975737301e408cdcd5ee12b9caf6b17ef762994,
    0xaadb74dc5293f7f82e9e703e90fa418a8f5d058de3bd1803492bbf541450c3d9,
    0x816dd43becee9a76a20fe9cb8d6d1fec53a603fa4c75e5533dd933ffcf2708f7,
    0xde6322bed3a7177a2121b296964d1c49c28f23a2308ef3e29f4ac81997f07b2d,
    0x167c5a7316c79262d585545deef13979ec5e09d895780ae399f606c504fd5766,
    0x75c639e425aa094f5c4e39aa03483c58236f25b87d3f9f1ded66f0cc31b9396c,
    0xf409ec41c58a4421c18a32bfac329df2c171afdcdb75f2c8646ded6cd1ecf89a,
    0xc7ee4a56f96c111c1883c04014fc944730fdf4447eba42e3343c2419089a45,
    0xd887c078fdddd845ea933c7d0b13c82e09dbe4c0dcd0b9e489675f9c6d103742,
    0xc4a174e4b5dc7d3834afa770172d0543a9611fbc936fe6403ef82bf6343b8c14,
    0x29b5c90400bafa82ea236a56a565058c1e8467b6cc6af0eb69acd863f303ddfa,
    0x184579ec228abed0a8f2352f4ba3d94939e57c9cc9265d0483a836569e881a38,
    0xb7fe9683d21eefd1279a32280236ed25f68aabdefaa68a50947d5ac7ffeabfa6,
    0x265ae413d118a35549652f02e483013ade8ba9125dcf1e47631cb2252adfbede,
    0xfef6422570839b7143ecde181ddf9272f1eee9cd25b4758b4c16ed9f5698099b,
    0x1355c2da7b8b2a2a5a47ee3035cfbed5a68065d60d866aa6c7786472576eb1b1,
    0xf10a8c1fb724b3c71e6bdc03677f9a3dd39a7eee609f88b618d4da921835ac06,
    0x78b2ccbf7380c62faab3fa4845c677efcc8f382e0865421fe03c99b349fe8eeb,
    0x4fa9cb078aa1c9dfa94f86064810aaab82313ec81fa22ad71c301793fc134dcb,
    0xc659d18e948e47d58487a8531b536588a92ff5583afd09a79babcec22735f6ec,
    0xe735f793b80f934905d4415ec0d0574826ef4f30e85985a997e5880a35822e5a,
    0x38959db19078039b1b9749d0abe0647d2669e3bd3a54c858d7c6928e61289ab4,
    0xc4580a0f3982e11e828e53e4c15c88611460de04e462b67aca57d08bf2a6dd54,
    0x37f9d431a0df4c950ebff8ec5f8eff3c2d5ae5783d72f1cd895154f4f323c7f6,
    0xf25c8bee788fea6efb14d3e84df841869ad42178c7ec3593b753089b238fb58a,
    0x5250cbade3e4d047b1e9c57739d96944d1d925ae4b2263df4513b7719516c526,
    0x3525db92fb367745427d0b189b066ea7b69ce5eefe3ae557afa59a65a19f83ea,
    0x9db3189c2587f1773d9e12dacfd45bda5fb028bad36f026c249433c626afd692,
    0xa877f05b5e55a6f17766e81856c989e0361ed9a0b882eff4c523e89427534cf8,
    0x7abb2411bacfaf996ffcfff5b78ebf142871e4ebaafc5daf03f1f1b05ffa93f7,
    0x608594edf36a36e85af094dcf5df29f6b169d921d4f6ae0b41d14fc773452ca8,
    0x4d6e67f9ca53a03ebef0305c735d585c8a48b37bc8ea5eed5df6f327f660fc6,
    0x1628b7a7aacae9b8e980cfc1a15b829b3803e2601edca27c1791c8e07ad1379f,
    0xbc75b87a3297d71ff7b12e3c2d1d9d7692a4ec0ad67550b3104b08fe070fe226,
    0xb12f28a79c3a4203ee434b7e0dc4c3dafd58421115662004b12926d545fb7500,
    0x97bbecd259321d2b913388b5c680572641fe277b01482cce7d396509ce27ca5b,
    0x4202faf38ea9f06626eb257714bc8af4d3786c9fecb1b22a463a440d95b0adf9,
    0x5633fb0e0009580d9311cbf09f1f78398a50788b4ef758d37c5d4cfad26c78b5,
    0x17ece5c604507be4aa4bd5d618ae7ecde0faf89f148e373ed96f8338f8ef3db9,
    0xcb7b70fadcc96fe164c8afc61e68e9088a2dddf56f46dbfda8c139c7f93ec028,
    0x748b73b3087195068df8c3398ea9de36d8580468c72ded0dc5d9afa1555d2819,
    0xd64a17b45c9c23c4fb5e499ac0a2cea8709126a390dad677956afad8072db9b9,
    0x3f493c4f483a133531d3cae43c7486e7862b474ec3d561e6a52471f7152c73f1,
    0xe870d3c2283736828d66f9c41d325bdc6eaf0c5f30408210563ba0ca5903db80,
    0x38abe28799903f9fe314a4d33104a8d8570839a58e2975e971f43c879b61a9f1,
    0xd056bec58a781a5af54a5217c667d3ed77c2048d0fc25aafe1655b082efc5919,
    0x87b24de87d14cfebc12666fe9a52f8c94cbee6a8ad2e4d87ceef5bd1d298822b,
    0x2ee620ed7895ec26378ceb39e0a5c7ec6672609991545c36501250091f28c0e9,
    0x5411cbb60271cda2ef911dee2d3dcb55f12d8f5c256d81eb3d247002d82e0a1d,
    0x70bf3cd330cfff6db2fd16af1f61128fd6eba33d53645fe319143542bed97fe1,
    0x393435a0e664700a085f72be3bf346d6b2219561dfbb68dd4a6e802103cb167e,
    0x2fa05149b49c27641d4fe7fe2c305032c9662a7af7dce0568f9a0c08ff58cf6c,
    0x40f00b0852214640b0f746fcc2571228e3b9a70fc2aec07e7885c3f8e85085f1,
    0xbee63bbfdfb694a09a40e5e4839ff05dbfc381242809fe1a0423bf454c31d3db,
    0x68696337f09b09177ba33641777c3863d89af4be0219b3e2b14fcd5cb6545219,
    0x555388b7349b3207be6f836b48a235b5887e3c468270b0d6cadd372e5fb23f07,
    0x1f571898cfdf59c7d3d528b0bea8bc202790e1cab590a8510298d9c7c834724b,
    0xbba1829a6060a6e6fbaa517193fd80d942ae8c9dba0e591edbcc662a5df81cab,
    0x677be9ee48fa3d9c2c4b63356672923ca035c05faf4a02472802c90b86a3a2da,
    0x2156ca71c0c2504635393c9799a13b26c9eb13c06bde49fec6e406acedc8515e,
    0x7aa966597e280f5babaab1fb135015c75c30891697ae8b63648b6bfbf9ba80aa,
    0x782df7af8f4fae72feee26086710807395d0ef6ca08a6db60ed5431ff6a54f33,
    0x36bd8e8ddf2dd7a469e30b77b5b65fe22553be03e646fbacedd611db73e70a1f,
    0x475b265eeec4a4d40c14a7dd20908f6ad23b3aa2b3510152153ecd1b33b62a92,
    0x26ed99bcc6f1714a52228d5e0ba25620892d855d0ee4e1960d2b5b82c9fa7510,
    0x7d65c539f7adea7c8438dbb86cc22544ed715f8297032c1d6742546fb037a992,
    0xa04e8b1e6041889c5a085eaa406cee342ecd33392b6580846e44ac46fd4757de,
    0xf1bd30c49fe2c23f8796fbd754adc9fa0f8f70e976bb1bd629d49106ac74c876,
    0x977640c2dca2c3b4998947726ac096bc228020ccbfc0cfa3c6466a9b8e61abe5,
    0x82d5559a0915a10dcef6040be65e67e28301eab009dac1b60184514d07c2ac4c,
    0xd00d11f7b33e55f0af5269654fb59a70397790d569c4bc7f274a1aa3c81d0707,
    0x3f47e1bdd3af7fb0e5cccc4f7909f38606d78783fa0dfafa54152a67e1bf9fb8,
    0xb2b2105ff7f6576f5c408d22696234931f28f71143e7f3e9004c720d02eba38b,
    0x7619ecffef106595eaddd5674d224f70525ee443adf8726c42aa5daf63a8ac0e,
    0x8d0cc2e91ad73e762099a8c6d710c0d75759622011f702d53fc3effbe32621f5,
    0x25eb153b256a3850c34eb912f89eb1f5a0b7c5f044349d3569ba15717c15ae1f,
    0xa120c66bedbe646323585b976629b3cf596a2ac6a09fc9be5bd3cee03a103740,
    0x5a28440461e23ea4ddeebc6f0a667db1e9f1705c4defee0dcd28e27a87549a16,
    0x4c814aef64e2791ba1b159d23dec8b466c6528baaa559e1b159d888071dbeeb7,
    0x41fb3f3cf8377d97d015e53becfa2fc0d68f272059763d25bd2c008d24148be3,
    0x7f35a99e2d3e6fa984721b4b784a179b5dfc076108c0aa12f129c1136e8a30d1,
    0x10c53de9a17b640dec0ee66ed8fa879338e7f7c7e85e163df95f33e543c0462b,
    0xd87767f15b95e85563723d104ed5c74e6e81b8592e27312f2339611e8e7c9c2d,
    0x159af70436dffa1223ce013c91195927493b80a92fa961e32346a540d02f9eaa,
    0xd4a6a7947a51bc6545e62392bb9cdb717a9bcbe03404ab7cc89aa92352939f45]) rfl ?_
    decide +kernel

theorem gen256_bad (env : Env) : ¬ IsUnit (mat256 (gen256 env 1#32)) := by
  obtain ⟨be, h⟩ := wordS_cases env idx_bad off_bad
  refine not_isUnit_of_check (gen256_rows env h) 0x430ba33daf5c81f3cd0ee2e3975ad4ba204b63a1a8cb9413d4b966b0875df188
    254 (by norm_num) (by decide +kernel) ?_
  cases be <;> decide +kernel

end WB
