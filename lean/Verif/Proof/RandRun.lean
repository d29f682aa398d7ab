import Verif.Proof.Random
import Verif.Model.M256

/-!
# Exact results of the random functions (helper lemmas)
-/
namespace WB

theorem CM_bind_run {α β : Type} {x : CM α} {f : α → CM β} {w w' : World} {a : α}
    (h : x w = .ok (a, w')) : (x >>= f) w = f a w' := by
  show (x w >>= fun r => f r.1 r.2) = _
  rw [h]; rfl

theorem liftC_run {α : Type} {x : C α} {a : α} (w : World) (h : x = .ok a) :
    liftC x w = .ok (a, w) := by rw [h]; rfl

/-- World after `k` draws. -/
def World.adv (w : World) (k : Nat) : World := { w with m_index := w.m_index + BitVec.ofNat 32 k }

/-- The `k`-th next value. -/
def World.draw (w : World) (k : Nat) : BitVec 32 :=
  WB.draw w.m_intermediateOffset (w.m_index + BitVec.ofNat 32 k)

theorem adv_adv (w : World) (a b : Nat) : (w.adv a).adv b = w.adv (a + b) := by
  unfold World.adv
  simp only [BitVec.ofNat_add, BitVec.add_assoc]

theorem adv_zero (w : World) : w.adv 0 = w := by
  unfold World.adv
  simp

theorem draw_adv (w : World) (a b : Nat) : (w.adv a).draw b = w.draw (a + b) := by
  unfold World.adv World.draw
  simp only [BitVec.ofNat_add, BitVec.add_assoc]

theorem cus_random_run' (w : World) : cus_random w = .ok (w.draw 0, w.adv 1) := by
  rw [cus_random_run]
  unfold World.draw World.adv
  simp

theorem draw_ne {w : World} {i j : Nat} (hij : i < j) (hd : j - i < 2 ^ 32) :
    w.draw i ≠ w.draw j := by
  intro h
  have h1 := draw_inj h
  have : BitVec.ofNat 32 i = BitVec.ofNat 32 j := by simpa using h1
  have := congrArg BitVec.toNat this
  simp at this
  omega

/-- Filling the rows one after the other. -/
theorem fillRun {R : Type} {n k : Nat} (g : World → R) (body : Nat → Vector R n → CM (Vector R n))
    (hbody : ∀ i (hi : i < n) (M : Vector R n) w, body i M w = .ok (M.set i (g w), w.adv k))
    (M : Vector R n) (w : World) :
    forUp 0 n M body w = .ok (Vector.ofFn fun i => g (w.adv (k * i)), w.adv (k * n)) := by
  have key : OkM (forUp 0 n M body) w (fun M' w' =>
      M' = (Vector.ofFn fun i => g (w.adv (k * i))) ∧ w' = w.adv (k * n)) := by
    refine OkM.forUp (fun i M' w' => (∀ r (h : r < n), r < i → M'[r] = g (w.adv (k * r))) ∧
      w' = w.adv (k * i)) (Nat.zero_le _) ⟨fun r _ h => by omega, (adv_zero w).symm⟩ ?_ ?_
    · rintro i M' w' - hi ⟨h, rfl⟩
      unfold OkM
      rw [hbody i hi, Ok.ok_iff]
      refine ⟨fun r hr hlt => ?_, by rw [adv_adv]; rfl⟩
      rw [Vector.getElem_set]
      split
      · rename_i e; subst e; rfl
      · exact h r hr (by omega)
    · rintro M' w' ⟨h, hw⟩
      refine ⟨Vector.ext fun r hr => ?_, hw⟩
      rw [h r hr hr, Vector.getElem_ofFn]
  obtain ⟨⟨M', w'⟩, h, rfl, rfl⟩ := key
  exact h

/-! ## 64-bit words from two draws -/

/-- The word whose sub-word 1 is `a` and whose sub-word 0 is `b`. -/
def pair64 (env : Env) (a b : BitVec 32) : BitVec 64 := stRes env (stRes env (0 : BitVec 64) 1 a) 0 b

theorem off_cases (env : Env) :
    (env.cellOff 64 32 1 = 32 ∧ env.cellOff 64 32 0 = 0) ∨
    (env.cellOff 64 32 1 = 0 ∧ env.cellOff 64 32 0 = 32) := by
  unfold Env.cellOff
  cases env.endian <;> simp

theorem pair64_eq (env : Env) (x : BitVec 64) (a b : BitVec 32) :
    stRes env (stRes env x 1 a) 0 b = pair64 env a b := by
  unfold pair64
  apply BitVec.eq_of_getLsbD_eq
  intro i hi
  rw [stRes_bit _ _ _ _ _ hi (by norm_num), stRes_bit _ _ _ _ _ hi (by norm_num),
    stRes_bit _ _ _ _ _ hi (by norm_num), stRes_bit _ _ _ _ _ hi (by norm_num)]
  rcases off_cases env with ⟨h1, h0⟩ | ⟨h1, h0⟩ <;> rw [h1, h0] <;> split <;> try rfl
  all_goals rename_i hn; rw [if_pos (by omega), if_pos (by omega)]

/-- The two sub-words can be read back. -/
theorem pair64_inj {env : Env} {a b a' b' : BitVec 32} (h : pair64 env a b = pair64 env a' b') :
    a = a' ∧ b = b' := by
  have hb : ∀ i, i < 64 → (pair64 env a b).getLsbD i = (pair64 env a' b').getLsbD i := by
    intro i _; rw [h]
  unfold pair64 at hb
  constructor
  · apply BitVec.eq_of_getLsbD_eq
    intro i hi
    rcases off_cases env with ⟨h1, h0⟩ | ⟨h1, h0⟩
    · have := hb (i + 32) (by omega)
      simp only [stRes_bit _ _ _ _ _ (show i + 32 < 64 by omega) (show 32 ≤ 64 by norm_num), h1, h0] at this
      rw [if_neg (by omega), if_pos (by omega), if_neg (by omega), if_pos (by omega)] at this
      simpa using this
    · have := hb i (by omega)
      simp only [stRes_bit _ _ _ _ _ (show i < 64 by omega) (show 32 ≤ 64 by norm_num), h1, h0] at this
      rw [if_neg (by omega), if_pos (by omega), if_neg (by omega), if_pos (by omega)] at this
      simpa using this
  · apply BitVec.eq_of_getLsbD_eq
    intro i hi
    rcases off_cases env with ⟨h1, h0⟩ | ⟨h1, h0⟩
    · have := hb i (by omega)
      simp only [stRes_bit _ _ _ _ _ (show i < 64 by omega) (show 32 ≤ 64 by norm_num), h1, h0] at this
      rw [if_pos (by omega), if_pos (by omega)] at this
      simpa using this
    · have := hb (i + 32) (by omega)
      simp only [stRes_bit _ _ _ _ _ (show i + 32 < 64 by omega) (show 32 ≤ 64 by norm_num), h1, h0] at this
      rw [if_pos (by omega), if_pos (by omega)] at this
      simpa using this

/-- Word number `q` of a row drawn from `w`. -/
def World.word (env : Env) (w : World) (q : Nat) : BitVec 64 :=
  pair64 env (w.draw (2 * q)) (w.draw (2 * q + 1))

theorem st32 (env : Env) (x : BitVec 64) {k : Nat} (hk : k < 2) (r : BitVec 32) :
    env.stSub x k r = .ok (stRes env x k r) := stSub_res _ _ _ _ (by omega)

theorem pairStepV {l q : Nat} {γ : Type} (env : Env) (hq : q < l) (x : Vector (BitVec 64) l)
    (F : Vector (BitVec 64) l → CM γ) (w : World) :
    (do let r ← cus_random
        let x ← liftC do wr x q (← env.stSub (← rd x q) 1 r)
        let r ← cus_random
        let x ← liftC do wr x q (← env.stSub (← rd x q) 0 r)
        F x : CM γ) w = F (x.set q (w.word env 0)) (w.adv 2) := by
  rw [CM_bind_run (cus_random_run' w), CM_bind_run (liftC_run _ (by
    rw [rd_ok _ _ hq, C_pure_bind, st32 _ _ (by omega), C_pure_bind, wr_ok _ _ _ hq])),
    CM_bind_run (cus_random_run' _), CM_bind_run (liftC_run _ (by
    rw [rd_ok _ _ hq, C_pure_bind, st32 _ _ (by omega), C_pure_bind, wr_ok _ _ _ hq]))]
  rw [adv_adv, draw_adv]
  congr 1
  rw [Vector.getElem_set_self, pair64_eq, Vector.set_set]
  rfl

theorem pairStepM {n l i q : Nat} {γ : Type} (env : Env) (hi : i < n) (hq : q < l)
    (M : Vector (Vector (BitVec 64) l) n) (x : Vector (BitVec 64) l)
    (F : Vector (Vector (BitVec 64) l) n → CM γ) (w : World) :
    (do let r ← cus_random
        let M' ← liftC do wr2 (M.set i x) i q (← env.stSub (← rd2 (M.set i x) i q) 1 r)
        let r ← cus_random
        let M' ← liftC do wr2 M' i q (← env.stSub (← rd2 M' i q) 0 r)
        F M' : CM γ) w = F (M.set i (x.set q (w.word env 0))) (w.adv 2) := by
  rw [CM_bind_run (cus_random_run' w), CM_bind_run (liftC_run _ (by
    rw [rd2_ok _ _ _ hi hq, C_pure_bind, st32 _ _ (by omega), C_pure_bind, wr2_ok _ _ _ _ hi hq])),
    CM_bind_run (cus_random_run' _), CM_bind_run (liftC_run _ (by
    rw [rd2_ok _ _ _ hi hq, C_pure_bind, st32 _ _ (by omega), C_pure_bind, wr2_ok _ _ _ _ hi hq]))]
  rw [adv_adv, draw_adv]
  congr 1
  simp only [Vector.getElem_set_self, Vector.set_set, pair64_eq]
  rfl

theorem pairStepV_last {l q : Nat} (env : Env) (hq : q < l) (x : Vector (BitVec 64) l) (w : World) :
    (do let r ← cus_random
        let x ← liftC do wr x q (← env.stSub (← rd x q) 1 r)
        let r ← cus_random
        liftC do wr x q (← env.stSub (← rd x q) 0 r) : CM _) w =
      .ok (x.set q (w.word env 0), w.adv 2) := by
  have := pairStepV env hq x pure w
  simp only [bind_pure] at this
  exact this

theorem pairStepM_last {n l i q : Nat} (env : Env) (hi : i < n) (hq : q < l)
    (M : Vector (Vector (BitVec 64) l) n) (x : Vector (BitVec 64) l) (w : World) :
    (do let r ← cus_random
        let M' ← liftC do wr2 (M.set i x) i q (← env.stSub (← rd2 (M.set i x) i q) 1 r)
        let r ← cus_random
        liftC do wr2 M' i q (← env.stSub (← rd2 M' i q) 0 r) : CM _) w =
      .ok (M.set i (x.set q (w.word env 0)), w.adv 2) := by
  have := pairStepM env hi hq M x pure w
  simp only [bind_pure] at this
  exact this

/-! ## Seeding -/

/-- World after `reseed`. -/
def World.seeded (w : World) : World :=
  { w with
    randseed := w.randseed + 1#32, now := w.now + 1
    m_index := seedIdx (seedOf w), m_intermediateOffset := seedOff (seedOf w) }

theorem reseed_run' (w : World) : reseed w = .ok ((), w.seeded) := reseed_run w

/-! ## The sizes -/

theorem randM4_run (M : M4) (w : World) : randM4 M w =
    .ok (Vector.ofFn fun i => ((w.seeded.draw i) &&& 0x0f).setWidth 8, w.seeded.adv 4) := by
  unfold randM4
  rw [CM_bind_run (reseed_run' w), fillRun (k := 1) (fun w => ((w.draw 0) &&& 0x0f).setWidth 8)]
  · simp only [draw_adv, Nat.one_mul, Nat.add_zero]
  · intro i hi M w
    rw [CM_bind_run (cus_random_run' w)]
    exact liftC_run _ (wr_ok _ _ _ hi)

theorem randV4_run (V : V4) (w : World) : randV4 V w =
    .ok (((w.seeded.draw 0) &&& 0x0f).setWidth 8, w.seeded.adv 1) := by
  unfold randV4
  rw [CM_bind_run (reseed_run' w), CM_bind_run (cus_random_run' _)]
  rfl

theorem randM8_run (M : M8) (w : World) : randM8 M w =
    .ok (Vector.ofFn fun i => (w.seeded.draw i).setWidth 8, w.seeded.adv 8) := by
  unfold randM8
  rw [CM_bind_run (reseed_run' w), fillRun (k := 1) (fun w => (w.draw 0).setWidth 8)]
  · simp only [draw_adv, Nat.one_mul, Nat.add_zero]
  · intro i hi M w
    rw [CM_bind_run (cus_random_run' w)]
    exact liftC_run _ (wr_ok _ _ _ hi)

theorem randV8_run (V : V8) (w : World) : randV8 V w =
    .ok ((w.seeded.draw 0).setWidth 8, w.seeded.adv 1) := by
  unfold randV8
  rw [CM_bind_run (reseed_run' w), CM_bind_run (cus_random_run' _)]
  rfl

theorem randM16_run (M : M16) (w : World) : randM16 M w =
    .ok (Vector.ofFn fun i => (w.seeded.draw i).setWidth 16, w.seeded.adv 16) := by
  unfold randM16
  rw [CM_bind_run (reseed_run' w), fillRun (k := 1) (fun w => (w.draw 0).setWidth 16)]
  · simp only [draw_adv, Nat.one_mul, Nat.add_zero]
  · intro i hi M w
    rw [CM_bind_run (cus_random_run' w)]
    exact liftC_run _ (wr_ok _ _ _ hi)

theorem randV16_run (V : V16) (w : World) : randV16 V w =
    .ok ((w.seeded.draw 0).setWidth 16, w.seeded.adv 1) := by
  unfold randV16
  rw [CM_bind_run (reseed_run' w), CM_bind_run (cus_random_run' _)]
  rfl

theorem randM32_run (M : M32) (w : World) : randM32 M w =
    .ok (Vector.ofFn fun i => (w.seeded.draw i), w.seeded.adv 32) := by
  unfold randM32
  rw [CM_bind_run (reseed_run' w), fillRun (k := 1) (fun w => (w.draw 0))]
  · simp only [draw_adv, Nat.one_mul, Nat.add_zero]
  · intro i hi M w
    rw [CM_bind_run (cus_random_run' w)]
    exact liftC_run _ (wr_ok _ _ _ hi)

theorem randV32_run (V : V32) (w : World) : randV32 V w =
    .ok ((w.seeded.draw 0), w.seeded.adv 1) := by
  unfold randV32
  rw [CM_bind_run (reseed_run' w), cus_random_run']

theorem randM64_run (env : Env) (M : M64) (w : World) : randM64 env M w =
    .ok (Vector.ofFn fun i => (w.seeded.adv (2 * i)).word env 0, w.seeded.adv 128) := by
  unfold randM64
  rw [CM_bind_run (reseed_run' w), fillRun (k := 2) (fun w => w.word env 0)]
  intro i hi M w
  rw [CM_bind_run (cus_random_run' w), CM_bind_run (liftC_run _ (by
    rw [rd_ok _ _ hi, C_pure_bind, st32 _ _ (by omega), C_pure_bind, wr_ok _ _ _ hi])),
    CM_bind_run (cus_random_run' _)]
  rw [liftC_run _ (by
    rw [rd_ok _ _ hi, C_pure_bind, st32 _ _ (by omega), C_pure_bind, wr_ok _ _ _ hi])]
  rw [adv_adv, draw_adv]
  simp only [Vector.getElem_set_self, Vector.set_set, pair64_eq]
  rfl

theorem randV64_run (env : Env) (V : V64) (w : World) : randV64 env V w =
    .ok (w.word env 0, w.adv 2) := by
  unfold randV64
  rw [CM_bind_run (cus_random_run' w), CM_bind_run (liftC_run _ (st32 _ _ (by omega) _)),
    CM_bind_run (cus_random_run' _), liftC_run _ (st32 _ _ (by omega) _), adv_adv, draw_adv,
    pair64_eq]
  rfl

theorem word_adv (env : Env) (w : World) (a b : Nat) : (w.adv (2 * a)).word env b = w.word env (a + b) := by
  unfold World.word
  rw [draw_adv, draw_adv]
  congr 2 <;> ring

theorem word_adv2 (env : Env) (w : World) : (w.adv 2).word env 0 = w.word env 1 := word_adv env w 1 0
theorem word_adv4 (env : Env) (w : World) : (w.adv 4).word env 0 = w.word env 2 := word_adv env w 2 0
theorem word_adv6 (env : Env) (w : World) : (w.adv 6).word env 0 = w.word env 3 := word_adv env w 3 0

theorem rowStep128 {n i : Nat} (env : Env) (hi : i < n) (M : Vector (Vector (BitVec 64) 2) n)
    (w : World) :
    (do
    let r ← cus_random
    let M ← liftC do wr2 M i 0 (← env.stSub (← rd2 M i 0) 1 r)
    let r ← cus_random
    let M ← liftC do wr2 M i 0 (← env.stSub (← rd2 M i 0) 0 r)
    let r ← cus_random
    let M ← liftC do wr2 M i 1 (← env.stSub (← rd2 M i 1) 1 r)
    let r ← cus_random
    let M ← liftC do wr2 M i 1 (← env.stSub (← rd2 M i 1) 0 r)
    pure M : CM _) w = .ok (M.set i #v[w.word env 0, w.word env 1], w.adv 4) := by
  have h0 : M = M.set i M[i] := by simp
  rw [h0, Vector.set_set]
  refine (pairStepM env hi (show 0 < 2 by omega) M _ _ _).trans ?_
  refine (pairStepM_last env hi (show 1 < 2 by omega) M _ _).trans ?_
  simp only [adv_adv]
  refine congrArg (fun x => Except.ok (M.set i x hi, w.adv 4)) ?_
  refine Vector.ext fun q hq => ?_
  have hq' : q = 0 ∨ q = 1 := by omega
  rcases hq' with rfl | rfl <;> simp [word_adv2]

theorem randM128_run (env : Env) (M : M128) (w : World) : randM128 env M w =
    .ok (Vector.ofFn fun i => #v[(w.seeded.adv (4 * i)).word env 0, (w.seeded.adv (4 * i)).word env 1], w.seeded.adv 512) := by
  unfold randM128
  rw [CM_bind_run (reseed_run' w), fillRun (k := 4) (fun w => #v[w.word env 0, w.word env 1])]
  intro i hi M w
  exact rowStep128 env hi M w

theorem randV128_run (env : Env) (V : V128) (w : World) : randV128 env V w =
    .ok (#v[w.seeded.word env 0, w.seeded.word env 1], w.seeded.adv 4) := by
  unfold randV128
  rw [CM_bind_run (reseed_run' w)]
  refine (pairStepV env (show 0 < 2 by omega) _ _ _).trans ?_
  refine (pairStepV_last env (show 1 < 2 by omega) _ _).trans ?_
  simp only [adv_adv]
  refine congrArg (fun x => Except.ok (x, w.seeded.adv 4)) ?_
  refine Vector.ext fun q hq => ?_
  have hq' : q = 0 ∨ q = 1 := by omega
  rcases hq' with rfl | rfl <;> simp [word_adv2]

theorem rowStep256 {n i : Nat} (env : Env) (hi : i < n) (M : Vector (Vector (BitVec 64) 4) n)
    (w : World) :
    (do
    let r ← cus_random
    let M ← liftC do wr2 M i 0 (← env.stSub (← rd2 M i 0) 1 r)
    let r ← cus_random
    let M ← liftC do wr2 M i 0 (← env.stSub (← rd2 M i 0) 0 r)
    let r ← cus_random
    let M ← liftC do wr2 M i 1 (← env.stSub (← rd2 M i 1) 1 r)
    let r ← cus_random
    let M ← liftC do wr2 M i 1 (← env.stSub (← rd2 M i 1) 0 r)
    let r ← cus_random
    let M ← liftC do wr2 M i 2 (← env.stSub (← rd2 M i 2) 1 r)
    let r ← cus_random
    let M ← liftC do wr2 M i 2 (← env.stSub (← rd2 M i 2) 0 r)
    let r ← cus_random
    let M ← liftC do wr2 M i 3 (← env.stSub (← rd2 M i 3) 1 r)
    let r ← cus_random
    let M ← liftC do wr2 M i 3 (← env.stSub (← rd2 M i 3) 0 r)
    pure M : CM _) w = .ok (M.set i #v[w.word env 0, w.word env 1, w.word env 2, w.word env 3], w.adv 8) := by
  have h0 : M = M.set i M[i] := by simp
  rw [h0, Vector.set_set]
  refine (pairStepM env hi (show 0 < 4 by omega) M _ _ _).trans ?_
  refine (pairStepM env hi (show 1 < 4 by omega) M _ _ _).trans ?_
  refine (pairStepM env hi (show 2 < 4 by omega) M _ _ _).trans ?_
  refine (pairStepM_last env hi (show 3 < 4 by omega) M _ _).trans ?_
  simp only [adv_adv]
  refine congrArg (fun x => Except.ok (M.set i x hi, w.adv 8)) ?_
  refine Vector.ext fun q hq => ?_
  have hq' : q = 0 ∨ q = 1 ∨ q = 2 ∨ q = 3 := by omega
  rcases hq' with rfl | rfl | rfl | rfl <;> simp [word_adv2, word_adv4, word_adv6]

theorem randM256_run (env : Env) (M : M256) (w : World) : randM256 env M w =
    .ok (Vector.ofFn fun i => #v[(w.seeded.adv (8 * i)).word env 0, (w.seeded.adv (8 * i)).word env 1, (w.seeded.adv (8 * i)).word env 2, (w.seeded.adv (8 * i)).word env 3], w.seeded.adv 2048) := by
  unfold randM256
  rw [CM_bind_run (reseed_run' w), fillRun (k := 8) (fun w => #v[w.word env 0, w.word env 1, w.word env 2, w.word env 3])]
  intro i hi M w
  exact rowStep256 env hi M w

theorem randV256_run (env : Env) (V : V256) (w : World) : randV256 env V w =
    .ok (#v[w.seeded.word env 0, w.seeded.word env 1, w.seeded.word env 2, w.seeded.word env 3], w.seeded.adv 8) := by
  unfold randV256
  rw [CM_bind_run (reseed_run' w)]
  refine (pairStepV env (show 0 < 4 by omega) _ _ _).trans ?_
  refine (pairStepV env (show 1 < 4 by omega) _ _ _).trans ?_
  refine (pairStepV env (show 2 < 4 by omega) _ _ _).trans ?_
  refine (pairStepV_last env (show 3 < 4 by omega) _ _).trans ?_
  simp only [adv_adv]
  refine congrArg (fun x => Except.ok (x, w.seeded.adv 8)) ?_
  refine Vector.ext fun q hq => ?_
  have hq' : q = 0 ∨ q = 1 ∨ q = 2 ∨ q = 3 := by omega
  rcases hq' with rfl | rfl | rfl | rfl <;> simp [word_adv2, word_adv4, word_adv6]

end WB
