import Verif.Proof.SM4Rounds

/-!
# Decryption and modes of operation of `sm4.c` (helper lemmas)
-/
namespace WB.sm4
open SM4

variable {W : Nat}

/-! ## Bytes and blocks -/

theorem byte_word (b0 b1 b2 b3 : BitVec 8) :
    byte (word b0 b1 b2 b3) 0 = b0 ∧ byte (word b0 b1 b2 b3) 1 = b1 ∧ byte (word b0 b1 b2 b3) 2 = b2 ∧
      byte (word b0 b1 b2 b3) 3 = b3 := by
  unfold byte
  refine ⟨?_, ?_, ?_, ?_⟩
  · apply BitVec.eq_of_getLsbD_eq
    intro i hi
    rw [BitVec.getLsbD_extractLsb', getLsbD_word, show 24 - 8 * 0 = 24 from rfl, if_neg (show ¬ 24 + i < 8 by omega), if_neg (show ¬ 24 + i < 16 by omega), if_neg (show ¬ 24 + i < 24 by omega)]
    simp [hi]
  · apply BitVec.eq_of_getLsbD_eq
    intro i hi
    rw [BitVec.getLsbD_extractLsb', getLsbD_word, show 24 - 8 * 1 = 16 from rfl, if_neg (show ¬ 16 + i < 8 by omega), if_neg (show ¬ 16 + i < 16 by omega), if_pos (show 16 + i < 24 by omega)]
    simp [hi]
  · apply BitVec.eq_of_getLsbD_eq
    intro i hi
    rw [BitVec.getLsbD_extractLsb', getLsbD_word, show 24 - 8 * 2 = 8 from rfl, if_neg (show ¬ 8 + i < 8 by omega), if_pos (show 8 + i < 16 by omega)]
    simp [hi]
  · apply BitVec.eq_of_getLsbD_eq
    intro i hi
    rw [BitVec.getLsbD_extractLsb', getLsbD_word, show 24 - 8 * 3 = 0 from rfl, if_pos (show 0 + i < 8 by omega)]
    simp [hi]

theorem word_byte (x : BitVec 32) : word (byte x 0) (byte x 1) (byte x 2) (byte x 3) = x := by
  unfold byte
  apply BitVec.eq_of_getLsbD_eq
  intro i hi
  rw [getLsbD_word]
  simp only [BitVec.getLsbD_extractLsb']
  by_cases h1 : i < 8
  · simp [h1]
  · by_cases h2 : i < 16
    · simp [h1, h2, show i - 8 < 8 by omega, show 8 + (i - 8) = i by omega]
    · by_cases h3 : i < 24
      · simp [h1, h2, h3, show i - 16 < 8 by omega, show 16 + (i - 16) = i by omega]
      · simp [h1, h2, h3, show i - 24 < 8 by omega, show 24 + (i - 24) = i by omega]

theorem byte_xor (x y : BitVec 32) (k : Nat) : byte (x ^^^ y) k = byte x k ^^^ byte y k := by
  unfold byte
  apply BitVec.eq_of_getLsbD_eq
  intro i hi
  simp [hi]

attribute [local irreducible] S byte word L L' tau

theorem byte_load (m : Nat → BitVec 8) (off k : Nat) (hk : k < 16) : (load m off).byte k = m (off + k) := by
  unfold Block.byte load
  have e : k = 4 * (k / 4) + k % 4 := by omega
  have h4 : k / 4 < 4 := by omega
  have hm : k % 4 < 4 := by omega
  generalize k / 4 = a at *
  generalize k % 4 = b at *
  subst e
  obtain rfl | rfl | rfl | rfl : a = 0 ∨ a = 1 ∨ a = 2 ∨ a = 3 := by omega
  all_goals
    obtain rfl | rfl | rfl | rfl : b = 0 ∨ b = 1 ∨ b = 2 ∨ b = 3 := by omega
  all_goals first
    | exact (byte_word _ _ _ _).1
    | exact (byte_word _ _ _ _).2.1
    | exact (byte_word _ _ _ _).2.2.1
    | exact (byte_word _ _ _ _).2.2.2

theorem block_ext {s t : Block} (h : ∀ k, k < 16 → s.byte k = t.byte k) : s = t := by
  have w : ∀ x y : BitVec 32, byte x 0 = byte y 0 → byte x 1 = byte y 1 → byte x 2 = byte y 2 →
      byte x 3 = byte y 3 → x = y := by
    intro x y h0 h1 h2 h3
    rw [← word_byte x, ← word_byte y, h0, h1, h2, h3]
  obtain ⟨a, b, c, d⟩ := s
  obtain ⟨a', b', c', d'⟩ := t
  have e0 : a = a' := w _ _ (h 0 (by omega)) (h 1 (by omega)) (h 2 (by omega)) (h 3 (by omega))
  have e1 : b = b' := w _ _ (h 4 (by omega)) (h 5 (by omega)) (h 6 (by omega)) (h 7 (by omega))
  have e2 : c = c' := w _ _ (h 8 (by omega)) (h 9 (by omega)) (h 10 (by omega)) (h 11 (by omega))
  have e3 : d = d' := w _ _ (h 12 (by omega)) (h 13 (by omega)) (h 14 (by omega)) (h 15 (by omega))
  rw [e0, e1, e2, e3]

theorem load_of_bytes {m : Nat → BitVec 8} {off : Nat} {s : Block} (h : ∀ k, k < 16 → m (off + k) = s.byte k) :
    load m off = s :=
  block_ext fun k hk => by rw [byte_load m off k hk, h k hk]

theorem byte_add (s t : Block) (k : Nat) : (s.add t).byte k = s.byte k ^^^ t.byte k := by
  unfold Block.byte Block.add
  rw [← byte_xor]
  congr 1
  split <;> simp_all

/-! ## The Feistel structure -/

theorem round_inv (rk : BitVec 32) (s : Block) : (round rk (round rk s).reverse).reverse = s := by
  obtain ⟨a, b, c, d⟩ := s
  simp only [round, Block.reverse, Block.mk.injEq, true_and, and_true]
  rw [BitVec.xor_comm d c, BitVec.xor_comm (c ^^^ d) b, ← BitVec.xor_assoc, BitVec.xor_assoc, BitVec.xor_self,
    BitVec.xor_zero]

theorem reverse_reverse (s : Block) : s.reverse.reverse = s := rfl

theorem rounds_inv (rk : Nat → BitVec 32) (m : Nat) (s : Block) :
    ∀ n, n ≤ m → rounds (fun i => rk (m - 1 - i)) n (rounds rk m s).reverse = (rounds rk (m - n) s).reverse := by
  intro n
  induction n with
  | zero => intro _; rfl
  | succ n ih =>
    intro h
    rw [rounds, ih (by omega)]
    obtain ⟨k, hk⟩ : ∃ k, m - n = k + 1 := ⟨m - n - 1, by omega⟩
    rw [hk, show m - 1 - n = k by omega, show m - (n + 1) = k by omega, rounds]
    have := round_inv (rk k) (rounds rk k s)
    rw [← reverse_reverse (round (rk k) (round (rk k) (rounds rk k s)).reverse), this]

theorem crypt_crypt (rk : Nat → BitVec 32) (s : Block) : crypt (fun i => rk (31 - i)) (crypt rk s) = s := by
  unfold crypt
  have := rounds_inv rk 32 s 32 (by omega)
  rw [show (fun i => rk (31 - i)) = fun i => rk (32 - 1 - i) from rfl, this]
  rfl

theorem rounds_congr {rk rk' : Nat → BitVec 32} {n : Nat} (h : ∀ i, i < n → rk i = rk' i) (s : Block) :
    rounds rk n s = rounds rk' n s := by
  induction n with
  | zero => rfl
  | succ n ih => rw [rounds, rounds, ih (fun i hi => h i (by omega)), h n (by omega)]

theorem decrypt_encrypt (mk s : Block) : decrypt mk (encrypt mk s) = s := crypt_crypt _ s

theorem encrypt_decrypt (mk s : Block) : encrypt mk (decrypt mk s) = s := by
  have := crypt_crypt (fun i => roundKey mk (31 - i)) s
  unfold encrypt decrypt
  have e : ∀ t, crypt (fun i => roundKey mk (31 - (31 - i))) t = crypt (roundKey mk) t := by
    intro t
    unfold crypt
    rw [rounds_congr (rk' := roundKey mk)]
    intro i hi
    rw [show 31 - (31 - i) = i by omega]
  rw [← e]
  exact this

/-! ## Key set-up -/

theorem sm4_setkey_enc_ok (hW : 32 ≤ W) (env : Env) (key : Vector (BitVec 8) 16) (ctx : sm4_context W) :
    Ok (sm4_setkey_enc env key ctx) (fun c => c.mode = 1 ∧ Keys c.sk (roundKey (load (bytes key) 0))) := by
  unfold sm4_setkey_enc
  refine Ok.bind (sm4_setkey_ok hW env key _) ?_
  intro sk hsk
  rw [Ok.pure_iff]
  exact ⟨rfl, hsk⟩

theorem sm4_setkey_dec_ok (hW : 32 ≤ W) (env : Env) (key : Vector (BitVec 8) 16) (ctx : sm4_context W) :
    Ok (sm4_setkey_dec env key ctx)
      (fun c => c.mode = 1 ∧ Keys c.sk (fun i => roundKey (load (bytes key) 0) (31 - i))) := by
  unfold sm4_setkey_dec
  refine Ok.bind (sm4_setkey_ok hW env key _) ?_
  intro sk0 hsk
  rw [Ok.bind_iff]
  refine Ok.forUp (fun i sk => ∀ j, (hj : j < 32) →
    low sk[j] = roundKey (load (bytes key) 0) (if j < i ∨ 31 - j < i then 31 - j else j)) (by omega) ?_ ?_ ?_
  · intro j hj
    rw [if_neg (by omega)]
    exact hsk j hj
  · intro i sk _ hi h
    simp only [rd_ok sk _ (show i < 32 by omega), rd_ok sk _ (show 31 - i < 32 by omega), C_pure_bind,
      wr_ok sk _ _ (show i < 32 by omega), wr_ok (sk.set i sk[31 - i]) _ _ (show 31 - i < 32 by omega), Ok.ok_iff]
    intro j hj
    rw [Vector.getElem_set]
    by_cases c1 : 31 - i = j
    · rw [if_pos c1, h i (by omega), if_neg (by omega), if_pos (by omega)]
      congr 1; omega
    · rw [if_neg c1, Vector.getElem_set]
      by_cases c2 : i = j
      · subst c2
        rw [if_pos rfl, h (31 - i) (by omega), if_neg (by omega), if_pos (by omega)]
      · rw [if_neg c2, h j hj]
        by_cases c3 : j < i ∨ 31 - j < i
        · rw [if_pos c3, if_pos (by omega)]
        · rw [if_neg c3, if_neg (by omega)]
  · intro sk h
    rw [Ok.pure_iff]
    refine ⟨rfl, fun i hi => ?_⟩
    rw [h i hi, if_pos (by omega)]

/-! ## Modes -/

theorem bytes_ext {N : Nat} {a b : Vector (BitVec 8) N} : (∀ j, bytes a j = bytes b j) ↔ a = b := by
  constructor
  · intro h
    ext i hi
    have := h i
    simp only [bytes, Vector.getElem?_eq_getElem hi, Option.getD_some] at this
    rw [this]
  · rintro rfl _; rfl

theorem bytes_lt {N : Nat} (a : Vector (BitVec 8) N) {j : Nat} (h : j < N) : bytes a j = a[j] := by
  simp [bytes, h]

theorem bytes_ge {N : Nat} (a : Vector (BitVec 8) N) {j : Nat} (h : N ≤ j) : bytes a j = 0 := by
  simp [bytes, h]

/-- A block written at `out`. -/
def stored (m : Nat → BitVec 8) (out : Nat) (s : Block) (j : Nat) : BitVec 8 :=
  if out ≤ j ∧ j < out + 16 then s.byte (j - out) else m j

theorem one_round_bytes (hW : 32 ≤ W) (env : Env) (sk : Vector (BitVec W) 32) (rk : Nat → BitVec 32)
    (hk : Keys sk rk) {N : Nat} (mem : Vector (BitVec 8) N) (inp out : Nat) (hi : inp + 16 ≤ N) (ho : out + 16 ≤ N) :
    Ok (sm4_one_round env sk mem inp out)
      (fun mem' => ∀ j, bytes mem' j = stored (bytes mem) out (crypt rk (load (bytes mem) inp)) j) := by
  refine (sm4_one_round_ok hW env sk rk hk mem inp out hi ho).mono ?_
  intro mem' h j
  unfold stored
  by_cases hj : j < N
  · rw [bytes_lt _ hj, bytes_lt _ hj, h j hj]
  · rw [bytes_ge _ (by omega), bytes_ge _ (by omega), if_neg (by omega)]

/-- `n` blocks written from `out` on. -/
def storedN (m : Nat → BitVec 8) (out n : Nat) (s : Nat → Block) (j : Nat) : BitVec 8 :=
  if out ≤ j ∧ j < out + 16 * n then (s ((j - out) / 16)).byte ((j - out) % 16) else m j

theorem storedN_zero (m : Nat → BitVec 8) (out : Nat) (s : Nat → Block) (j : Nat) : storedN m out 0 s j = m j := by
  unfold storedN; rw [if_neg (by omega)]

theorem storedN_succ (m : Nat → BitVec 8) (out n : Nat) (s : Nat → Block) (j : Nat) :
    stored (storedN m out n s) (out + 16 * n) (s n) j = storedN m out (n + 1) s j := by
  unfold stored storedN
  by_cases c : out + 16 * n ≤ j ∧ j < out + 16 * n + 16
  · rw [if_pos c, if_pos (by omega), show (j - out) / 16 = n by omega,
      show (j - out) % 16 = j - (out + 16 * n) by omega]
  · rw [if_neg c]
    by_cases c2 : out ≤ j ∧ j < out + 16 * n
    · rw [if_pos c2, if_pos (by omega)]
    · rw [if_neg c2, if_neg (by omega)]

/-- The input and the output buffer of `n` blocks are the same or do not overlap. -/
def NoOverlap (inp out n : Nat) : Prop := inp = out ∨ inp + 16 * n ≤ out ∨ out + 16 * n ≤ inp

theorem storedN_load (m : Nat → BitVec 8) (inp out n k : Nat) (s : Nat → Block) (hk : k < n)
    (h : NoOverlap inp out n) : load (storedN m out k s) (inp + 16 * k) = load m (inp + 16 * k) := by
  refine load_of_bytes ?_
  intro i hi
  rw [byte_load m _ _ hi]
  unfold storedN
  rw [if_neg]
  unfold NoOverlap at h
  omega

theorem load_congr {m m' : Nat → BitVec 8} (h : ∀ j, m j = m' j) (off : Nat) : load m off = load m' off := by
  rw [funext h]

theorem crypt_ecb_ok (hW : 32 ≤ W) (env : Env) (ctx : sm4_context W) (rk : Nat → BitVec 32) (hk : Keys ctx.sk rk)
    (mode length : Int) {N : Nat} (mem : Vector (BitVec 8) N) (inp out : Nat) (hi : inp + 16 * blocks length ≤ N)
    (ho : out + 16 * blocks length ≤ N) (hno : NoOverlap inp out (blocks length)) :
    Ok (sm4_crypt_ecb env ctx mode length mem inp out) (fun mem' => ∀ j,
      bytes mem' j = storedN (bytes mem) out (blocks length) (fun b => crypt rk (load (bytes mem) (inp + 16 * b))) j) := by
  unfold sm4_crypt_ecb
  refine Ok.forUp (fun n m => ∀ j,
      bytes m j = storedN (bytes mem) out n (fun b => crypt rk (load (bytes mem) (inp + 16 * b))) j) (by omega) ?_ ?_ ?_
  · intro j; rw [storedN_zero]
  · intro n m _ hn h
    refine (one_round_bytes hW env ctx.sk rk hk m (inp + 16 * n) (out + 16 * n) (by omega) (by omega)).mono ?_
    intro m' h' j
    rw [h' j, ← storedN_succ, load_congr h, storedN_load _ _ _ _ _ _ hn hno]
    unfold stored
    rw [h j]
  · intro m h; exact h

/-- The loop `for (i = 0; i < 16; i++) output[i] = input[i] ^ iv[i];`. -/
theorem xor_loop {N : Nat} (iv : Vector (BitVec 8) 16) (mem : Vector (BitVec 8) N) (inp out : Nat)
    (hi : inp + 16 ≤ N) (ho : out + 16 ≤ N) (hno : NoOverlap inp out 1) :
    Ok (forUp 0 16 mem fun i mem => do wr mem (out + i) ((← rd mem (inp + i)) ^^^ (← rd iv i)))
      (fun mem' => ∀ j, bytes mem' j =
        stored (bytes mem) out ((load (bytes mem) inp).add (load (bytes iv) 0)) j) := by
  refine Ok.forUp (fun i m => ∀ j, bytes m j =
    if out ≤ j ∧ j < out + i then bytes mem (inp + (j - out)) ^^^ bytes iv (j - out) else bytes mem j)
    (by omega) ?_ ?_ ?_
  · intro j; rw [if_neg (by omega)]
  · intro i m _ hlt h
    rw [rd_ok m _ (show inp + i < N by omega), C_pure_bind, rd_ok iv _ hlt, C_pure_bind,
      wr_ok m _ _ (show out + i < N by omega), Ok.ok_iff]
    intro j
    have e : m[inp + i] = bytes mem (inp + i) := by
      rw [← bytes_lt m (show inp + i < N by omega), h]
      unfold NoOverlap at hno
      rw [if_neg (by omega)]
    by_cases c : out + i = j
    · subst c
      rw [bytes_lt _ (by omega), Vector.getElem_set_self, if_pos (by omega), e,
        show out + i - out = i by omega, bytes_lt iv hlt]
    · by_cases hj : j < N
      · rw [bytes_lt _ hj, Vector.getElem_set_ne _ _ c, ← bytes_lt m hj, h j]
        by_cases c2 : out ≤ j ∧ j < out + i
        · rw [if_pos c2, if_pos (by omega)]
        · rw [if_neg c2, if_neg (by omega)]
      · rw [bytes_ge _ (by omega), if_neg (by omega), bytes_ge _ (by omega)]
  · intro m h j
    rw [h j]
    unfold stored
    by_cases c : out ≤ j ∧ j < out + 16
    · rw [if_pos c, if_pos c, byte_add, byte_load _ _ _ (by omega), byte_load _ _ _ (by omega), Nat.zero_add]
    · rw [if_neg c, if_neg c]

theorem memcpy_loop {N : Nat} (mem : Vector (BitVec 8) N) (src : Nat) (hs : src + 16 ≤ N)
    (dst : Vector (BitVec 8) 16) :
    Ok (memcpy16 mem src dst) (fun d => load (bytes d) 0 = load (bytes mem) src) := by
  unfold memcpy16
  refine Ok.forUp (fun i d => ∀ j, j < i → bytes d j = bytes mem (src + j)) (by omega) (by omega) ?_ ?_
  · intro i d _ hi h
    rw [rd_ok mem _ (show src + i < N by omega), C_pure_bind, wr_ok d _ _ hi, Ok.ok_iff]
    intro j hj
    rw [bytes_lt _ (show j < 16 by omega), Vector.getElem_set]
    by_cases c : i = j
    · subst c; rw [if_pos rfl, bytes_lt _ (by omega)]
    · rw [if_neg c, ← bytes_lt d (show j < 16 by omega), h j (by omega)]
  · intro d h
    refine load_of_bytes ?_
    intro k hk
    rw [Nat.zero_add, h k hk, byte_load _ _ _ hk]

theorem storedN_mem {m : Nat → BitVec 8} {out n : Nat} {s : Nat → Block} {m' : Nat → BitVec 8}
    (h : ∀ j, m' j = storedN m out n s j) {b k : Nat} (hb : b < n) (hk : k < 16) :
    m' (out + 16 * b + k) = (s b).byte k := by
  rw [h]
  unfold storedN
  rw [if_pos (by omega), show (out + 16 * b + k - out) / 16 = b by omega,
    show (out + 16 * b + k - out) % 16 = k by omega]

theorem stored_load_same (m : Nat → BitVec 8) (out : Nat) (s : Block) : load (stored m out s) out = s := by
  refine load_of_bytes ?_
  intro k hk
  unfold stored
  rw [if_pos (by omega), show out + k - out = k by omega]

theorem stored_stored (m : Nat → BitVec 8) (out : Nat) (s t : Block) (j : Nat) :
    stored (stored m out s) out t j = stored m out t j := by
  unfold stored
  by_cases c : out ≤ j ∧ j < out + 16
  · rw [if_pos c, if_pos c]
  · rw [if_neg c, if_neg c, if_neg c]

theorem stored_congr {m m' : Nat → BitVec 8} (h : ∀ j, m j = m' j) (out : Nat) (s : Block) (j : Nat) :
    stored m out s j = stored m' out s j := by
  rw [funext h]

theorem NoOverlap.one {inp out n k : Nat} (h : NoOverlap inp out n) (hk : k < n) :
    NoOverlap (inp + 16 * k) (out + 16 * k) 1 := by
  unfold NoOverlap at *; omega

theorem crypt_cbc_enc_ok (hW : 32 ≤ W) (env : Env) (ctx : sm4_context W) (rk : Nat → BitVec 32) (hk : Keys ctx.sk rk)
    (length : Int) (iv : Vector (BitVec 8) 16) {N : Nat} (mem : Vector (BitVec 8) N) (inp out : Nat)
    (hi : inp + 16 * blocks length ≤ N)
    (ho : out + 16 * blocks length ≤ N) (hno : NoOverlap inp out (blocks length)) :
    Ok (sm4_crypt_cbc env ctx SM4_ENCRYPT length iv mem inp out) (fun p =>
      (∀ j, bytes p.1 j = storedN (bytes mem) out (blocks length)
        (fun b => chain (crypt rk) (load (bytes iv) 0) (fun b => load (bytes mem) (inp + 16 * b)) (b + 1)) j) ∧
      load (bytes p.2) 0 =
        chain (crypt rk) (load (bytes iv) 0) (fun b => load (bytes mem) (inp + 16 * b)) (blocks length)) := by
  unfold sm4_crypt_cbc
  rw [if_pos rfl]
  generalize hc : (fun b => chain (crypt rk) (load (bytes iv) 0)
    (fun b => load (bytes mem) (inp + 16 * b)) b) = ch
  have hch : ∀ b, chain (crypt rk) (load (bytes iv) 0) (fun b => load (bytes mem) (inp + 16 * b)) b = ch b :=
    fun b => congrFun hc b
  have hstep : ∀ b, ch (b + 1) = crypt rk ((load (bytes mem) (inp + 16 * b)).add (ch b)) := by
    intro b; rw [← hch, ← hch]; rfl
  simp only [hch]
  refine Ok.forUp (fun n p => (∀ j, bytes p.1 j = storedN (bytes mem) out n (fun b => ch (b + 1)) j) ∧
    load (bytes p.2) 0 = ch n) (by omega) ?_ ?_ ?_
  · refine ⟨fun j => (storedN_zero ..).symm, ?_⟩
    rw [← hch]; rfl
  · rintro n ⟨m, v⟩ _ hn ⟨h, hv⟩
    simp only at h hv ⊢
    refine Ok.bind (xor_loop v m (inp + 16 * n) (out + 16 * n) (by omega) (by omega) (hno.one hn)) ?_
    intro m1 h1
    refine Ok.bind (one_round_bytes hW env ctx.sk rk hk m1 (out + 16 * n) (out + 16 * n) (by omega) (by omega)) ?_
    intro m2 h2
    refine Ok.bind (memcpy_loop m2 (out + 16 * n) (by omega) v) ?_
    intro v' hv'
    rw [Ok.pure_iff]
    have key : crypt rk (load (bytes m1) (out + 16 * n)) = ch (n + 1) := by
      rw [load_congr h1, stored_load_same, load_congr h, storedN_load _ _ _ _ _ _ hn hno, hv, hstep]
    have hm2 : ∀ j, bytes m2 j = storedN (bytes mem) out (n + 1) (fun b => ch (b + 1)) j := by
      intro j
      rw [h2 j, key, stored_congr h1, stored_stored, stored_congr h, storedN_succ (s := fun b => ch (b + 1))]
    refine ⟨hm2, ?_⟩
    rw [hv']
    refine load_of_bytes ?_
    intro k hk'
    exact storedN_mem hm2 (by omega) hk'
  · intro p h; exact h

theorem crypt_cbc_dec_ok (hW : 32 ≤ W) (env : Env) (ctx : sm4_context W) (rk : Nat → BitVec 32) (hk : Keys ctx.sk rk)
    (mode : Int) (hm : mode ≠ SM4_ENCRYPT)
    (length : Int) (iv : Vector (BitVec 8) 16) {N : Nat} (mem : Vector (BitVec 8) N) (inp out : Nat)
    (hi : inp + 16 * blocks length ≤ N)
    (ho : out + 16 * blocks length ≤ N) (hno : NoOverlap inp out (blocks length)) :
    Ok (sm4_crypt_cbc env ctx mode length iv mem inp out) (fun p =>
      (∀ j, bytes p.1 j = storedN (bytes mem) out (blocks length)
        (fun b => (crypt rk (load (bytes mem) (inp + 16 * b))).add
          (if b = 0 then load (bytes iv) 0 else load (bytes mem) (inp + 16 * (b - 1)))) j) ∧
      load (bytes p.2) 0 = if blocks length = 0 then load (bytes iv) 0
        else load (bytes mem) (inp + 16 * (blocks length - 1))) := by
  unfold sm4_crypt_cbc
  rw [if_neg hm, Ok.bind_iff]
  refine Ok.forUp (fun n p => (∀ j, bytes p.1 j = storedN (bytes mem) out n
        (fun b => (crypt rk (load (bytes mem) (inp + 16 * b))).add
          (if b = 0 then load (bytes iv) 0 else load (bytes mem) (inp + 16 * (b - 1)))) j) ∧
      load (bytes p.2.1) 0 = if n = 0 then load (bytes iv) 0
        else load (bytes mem) (inp + 16 * (n - 1))) (by omega) ?_ ?_ ?_
  · exact ⟨fun j => (storedN_zero ..).symm, rfl⟩
  · rintro n ⟨m, v, t⟩ _ hn ⟨h, hv⟩
    simp only at h hv ⊢
    refine Ok.bind (memcpy_loop m (inp + 16 * n) (by omega) t) ?_
    intro t' ht'
    refine Ok.bind (one_round_bytes hW env ctx.sk rk hk m (inp + 16 * n) (out + 16 * n) (by omega) (by omega)) ?_
    intro m1 h1
    refine Ok.bind (xor_loop v m1 (out + 16 * n) (out + 16 * n) (by omega) (by omega) (.inl rfl)) ?_
    intro m2 h2
    have hcopy := memcpy_loop t' 0 (by omega) v
    unfold memcpy16 at hcopy
    simp only [Nat.zero_add] at hcopy
    refine Ok.bind hcopy ?_
    intro v' hv'
    rw [Ok.pure_iff]
    have e1 : load (bytes m) (inp + 16 * n) = load (bytes mem) (inp + 16 * n) := by
      rw [load_congr h, storedN_load _ _ _ _ _ _ hn hno]
    refine ⟨?_, ?_⟩
    · intro j
      rw [h2 j, stored_congr h1, stored_stored, load_congr h1, stored_load_same, e1, hv, stored_congr h,
        ← storedN_succ]
    · simp only
      rw [hv', ht', e1, if_neg (by omega), Nat.add_sub_cancel]
  · rintro ⟨m, v, t⟩ h
    rw [Ok.pure_iff]
    exact h

end WB.sm4
