import Verif.Proof.AESEnc

/-!
# `computeTables` called repeatedly, and under strict ISO C (helper lemmas)
-/
namespace WB.aes
open AES (State)

/-- `shiftRows` applied `n` times. -/
def shiftRowsN (s : State) : Nat → State
  | 0 => s
  | n + 1 => AES.shiftRows (shiftRowsN s n)

/-- The round keys found in `expandedKey` after `n` calls of `computeTables`. -/
def keySeq (k : Nat → State) (n r : Nat) : State := if r < 10 then shiftRowsN (k r) n else k r

theorem computeTablesLoop_ok (env : Env) {lib : Lib} (hl : LibOk lib) (k : Nat → State) (T : Tables)
    (ek : Vector (BitVec 8) 176) (hk : KeyOk k ek) (n : Nat) (w : World) :
    OkM (computeTablesLoop env lib n T ek) w (fun p _ => KeyOk (keySeq k n) p.2 ∧
      ∀ m, n = m + 1 → ∃ M N, TablesOk (keySeq k m) M N p.1) := by
  unfold computeTablesLoop
  refine OkM.forUp (fun n p _ => KeyOk (keySeq k n) p.2 ∧ ∀ m, n = m + 1 → ∃ M N, TablesOk (keySeq k m) M N p.1)
    (by omega) ⟨?_, by omega⟩ ?_ (fun p w h => h)
  · intro r hr
    rw [hk r hr]
    unfold keySeq
    split <;> rfl
  · rintro i ⟨T, ek⟩ w - - ⟨h, -⟩
    refine (computeTables_ok env hl (keySeq k i) T ek h w).mono ?_
    rintro ⟨T', ek'⟩ w' ⟨ht, hk'⟩
    refine ⟨?_, ?_⟩
    · intro r hr
      rw [hk' r hr]
      unfold keySeq
      by_cases c : r < 10
      · rw [if_pos c, if_pos c, if_pos c]; rfl
      · rw [if_neg c, if_neg c, if_neg c]
    · rintro m hm
      obtain rfl : i = m := by omega
      exact ht

theorem shiftRows4 (s : State) : AES.shiftRows (AES.shiftRows (AES.shiftRows (AES.shiftRows s))) = s := by
  apply vec_ext
  intro x hx
  rw [sr_get _ hx, sr_get _ (by omega), sr_get _ (by omega), sr_get _ (by omega)]
  congr 1
  omega

theorem shiftRowsN_four (s : State) (q : Nat) : shiftRowsN s (4 * q) = s := by
  induction q with
  | zero => rfl
  | succ q ih =>
    rw [show 4 * (q + 1) = 4 * q + 1 + 1 + 1 + 1 by omega]
    show AES.shiftRows (AES.shiftRows (AES.shiftRows (AES.shiftRows (shiftRowsN s (4 * q))))) = s
    rw [shiftRows4, ih]

theorem shiftRowsN_mod (s : State) (n : Nat) : shiftRowsN s n = shiftRowsN s (n % 4) := by
  have h : ∀ t a, shiftRowsN s (a + t) = shiftRowsN (shiftRowsN s a) t := by
    intro t a
    induction t with
    | zero => rfl
    | succ t ih => exact congrArg AES.shiftRows ih
  conv => lhs; rw [← Nat.div_add_mod n 4, h, shiftRowsN_four]

/-! ## Strict shifts -/

theorem foldlM_err {σ : Type} (f : σ → Nat → C σ) (e : Fault) (l : List Nat)
    (h : ∀ i ∈ l, ∀ s, (∃ s', f s i = .ok s') ∨ f s i = .error e) (hx : ∃ i ∈ l, ∀ s, f s i = .error e) (s : σ) :
    l.foldlM f s = .error e := by
  induction l generalizing s with
  | nil => obtain ⟨i, hi, -⟩ := hx; cases hi
  | cons a l ih =>
    rw [List.foldlM_cons]
    obtain ⟨s', hs⟩ | hs := h a (List.mem_cons_self ..) s
    · rw [hs, C_pure_bind]
      refine ih (fun i hi => h i (List.mem_cons_of_mem _ hi)) ?_ s'
      obtain ⟨i, hi, he⟩ := hx
      rcases List.mem_cons.1 hi with rfl | hi
      · rw [he] at hs; cases hs
      · exact ⟨i, hi, he⟩
    · rw [hs]; rfl

/-- An execution that either succeeds or overflows. -/
def OkOr {α : Type} (x : C α) : Prop := (∃ a, x = .ok a) ∨ x = .error .overflow

theorem OkOr.ok {α : Type} (a : α) : OkOr (.ok a : C α) := .inl ⟨a, rfl⟩

theorem OkOr.bind {α β : Type} {x : C α} {f : α → C β} (hx : OkOr x) (hf : ∀ a, OkOr (f a)) : OkOr (x >>= f) := by
  obtain ⟨a, rfl⟩ | rfl := hx
  · exact hf a
  · exact .inr rfl

theorem shlInt_or (s : Bool) (v : BitVec 32) (k : Nat) : OkOr (shlInt s v k) := by
  unfold shlInt
  split
  · exact .inr rfl
  · exact .inl ⟨_, rfl⟩

theorem wr2_or {α : Type} {n m : Nat} (a : Vector (Vector α m) n) {i j : Nat} (hi : i < n) (hj : j < m) (v : α) :
    OkOr (wr2 a i j v) := by
  unfold wr2
  rw [rd_ok _ _ hi, C_pure_bind, wr_ok _ _ _ hj, C_pure_bind, wr_ok _ _ _ hi]
  exact .ok _

theorem tyiEntry_or (s : Bool) (x : Nat) (hx : x < 256) (t : Vector (Vector (BitVec 32) 256) 4) :
    OkOr (tyiEntry s x t) := by
  unfold tyiEntry
  rw [gMul_eq, C_pure_bind, gMul_eq, C_pure_bind]
  simp only
  generalize BitVec.setWidth 32 (gfMul 27 2 (BitVec.ofNat 8 x)) = g2
  generalize BitVec.setWidth 32 (gfMul 27 3 (BitVec.ofNat 8 x)) = g3
  refine OkOr.bind (shlInt_or _ _ _) fun _ => OkOr.bind (shlInt_or _ _ _) fun _ => OkOr.bind (shlInt_or _ _ _) fun _ => ?_
  refine OkOr.bind (wr2_or _ (by omega) hx _) fun _ => ?_
  refine OkOr.bind (shlInt_or _ _ _) fun _ => OkOr.bind (shlInt_or _ _ _) fun _ => OkOr.bind (shlInt_or _ _ _) fun _ => ?_
  refine OkOr.bind (wr2_or _ (by omega) hx _) fun _ => ?_
  refine OkOr.bind (shlInt_or _ _ _) fun _ => OkOr.bind (shlInt_or _ _ _) fun _ => OkOr.bind (shlInt_or _ _ _) fun _ => ?_
  refine OkOr.bind (wr2_or _ (by omega) hx _) fun _ => ?_
  refine OkOr.bind (shlInt_or _ _ _) fun _ => OkOr.bind (shlInt_or _ _ _) fun _ => OkOr.bind (shlInt_or _ _ _) fun _ => ?_
  exact wr2_or _ (by omega) hx _

theorem shl_64 : shlInt true (BitVec.setWidth 32 (gfMul 27 2 (BitVec.ofNat 8 64))) 24 = .error .overflow := by
  decide +kernel

theorem tyiEntry_64 (t : Vector (Vector (BitVec 32) 256) 4) : tyiEntry true 64 t = .error .overflow := by
  unfold tyiEntry
  rw [gMul_eq, C_pure_bind, gMul_eq, C_pure_bind, shl_64]
  rfl

theorem fillTyi_row (t : Vector (Vector (BitVec 32) 256) 4) :
    (forUp 0 256 t fun x t => tyiEntry true x t) = .error .overflow := by
  unfold forUp
  refine foldlM_err (fun t x => tyiEntry true x t) _ _ ?_ ⟨64, ?_, tyiEntry_64⟩ t
  · intro x hx t
    exact tyiEntry_or true x (by rw [List.mem_range'_1] at hx; omega) t
  · rw [List.mem_range'_1]; omega

theorem fillTyi_strict (t : Vector (Vector (BitVec 32) 256) 4) : fillTyi true t = .error .overflow := by
  unfold fillTyi
  simp only [fillTyi_row]
  rfl

theorem computeTables_strict (env : Env) (lib : Lib) (T : Tables) (ek : Vector (BitVec 8) 176) (w : World) :
    computeTables true env lib T ek w = .error .overflow := by
  unfold computeTables
  rw [fillTyi_strict]
  rfl

end WB.aes
