import Verif.Proof.SM4Modes

/-!
# Which buffers `sm4_crypt_ecb` touches (helper lemmas)
-/
namespace WB.sm4
open SM4

variable {W : Nat}

theorem rd_err {α : Type} {n : Nat} (a : Vector α n) {i : Nat} (h : n ≤ i) : rd a i = .error .oob := by
  unfold rd; rw [dif_neg (by omega)]

theorem wr_err {α : Type} {n : Nat} (a : Vector α n) {i : Nat} (h : n ≤ i) (v : α) : wr a i v = .error .oob := by
  unfold wr; rw [dif_neg (by omega)]

theorem GET_err {N : Nat} (b : Vector (BitVec 8) N) (i : Nat) (h : N ≤ i + 3) :
    (GET_ULONG_BE b i : C (BitVec W)) = .error .oob := by
  unfold GET_ULONG_BE
  by_cases h0 : N ≤ i
  · rw [rd_err b h0, C_error_bind]
  rw [rd_ok b i (by omega), C_pure_bind]
  by_cases h1 : N ≤ i + 1
  · rw [rd_err b h1, C_error_bind]
  rw [rd_ok b (i + 1) (by omega), C_pure_bind]
  by_cases h2 : N ≤ i + 2
  · rw [rd_err b h2, C_error_bind]
  rw [rd_ok b (i + 2) (by omega), C_pure_bind, rd_err b h, C_error_bind]

theorem PUT_err {N : Nat} (n : BitVec W) (b : Vector (BitVec 8) N) (i : Nat) (h : N ≤ i + 3) :
    PUT_ULONG_BE n b i = .error .oob := by
  unfold PUT_ULONG_BE
  by_cases h0 : N ≤ i
  · rw [wr_err b h0, C_error_bind]
  rw [wr_ok b i _ (by omega), C_pure_bind]
  by_cases h1 : N ≤ i + 1
  · rw [wr_err _ h1, C_error_bind]
  rw [wr_ok _ (i + 1) _ (by omega), C_pure_bind]
  by_cases h2 : N ≤ i + 2
  · rw [wr_err _ h2, C_error_bind]
  rw [wr_ok _ (i + 2) _ (by omega), C_pure_bind, wr_err _ h]

/-- Either outcome, if the first statement succeeds. -/
theorem err_of_Ok {α β : Type} {x : C α} {P : α → Prop} {f : α → C β} {e : Fault} (h : Ok x P)
    (hf : ∀ a, P a → f a = .error e) : (x >>= f) = .error e := by
  obtain ⟨a, rfl, ha⟩ := h
  rw [C_pure_bind, hf a ha]

theorem one_round_err (hW : 32 ≤ W) (env : Env) (sk : Vector (BitVec W) 32) {N : Nat} (mem : Vector (BitVec 8) N)
    (inp out : Nat) (h : N < inp + 16 ∨ N < out + 16) : sm4_one_round env sk mem inp out = .error .oob := by
  unfold sm4_one_round
  by_cases h0 : N ≤ inp + 3
  · rw [GET_err mem _ h0, C_error_bind]
  rw [GET_ok mem _ (by omega), C_pure_bind, wr_ok _ _ _ (by omega), C_pure_bind]
  by_cases h1 : N ≤ inp + 4 + 3
  · rw [GET_err mem _ h1, C_error_bind]
  rw [GET_ok mem _ (by omega), C_pure_bind, wr_ok _ _ _ (by omega), C_pure_bind]
  by_cases h2 : N ≤ inp + 8 + 3
  · rw [GET_err mem _ h2, C_error_bind]
  rw [GET_ok mem _ (by omega), C_pure_bind, wr_ok _ _ _ (by omega), C_pure_bind]
  by_cases h3 : N ≤ inp + 12 + 3
  · rw [GET_err mem _ h3, C_error_bind]
  rw [GET_ok mem _ (by omega), C_pure_bind, wr_ok _ _ _ (by omega), C_pure_bind]
  refine err_of_Ok (P := fun _ => True) ?_ ?_
  · refine Ok.forUp (fun _ _ => True) (by omega) trivial ?_ (fun _ _ => trivial)
    intro i u _ hi _
    rw [rd_ok u i (by omega), C_pure_bind, rd_ok u (i + 1) (by omega), C_pure_bind, rd_ok u (i + 2) (by omega),
      C_pure_bind, rd_ok u (i + 3) (by omega), C_pure_bind, rd_ok sk i hi, C_pure_bind]
    refine Ok.bind (sm4F_ok hW env _ _ _ _ _) ?_
    intro y _
    rw [wr_ok _ _ _ (by omega), Ok.ok_iff]
    trivial
  intro u _
  have ho : N < out + 16 := by omega
  rw [rd_ok u 35 (by omega), C_pure_bind]
  by_cases c0 : N ≤ out + 3
  · rw [PUT_err _ mem _ c0, C_error_bind]
  refine err_of_Ok (PUT_ok _ mem out (by omega)) ?_
  intro m1 _
  rw [rd_ok u 34 (by omega), C_pure_bind]
  by_cases c1 : N ≤ out + 4 + 3
  · rw [PUT_err _ m1 _ c1, C_error_bind]
  refine err_of_Ok (PUT_ok _ m1 _ (by omega)) ?_
  intro m2 _
  rw [rd_ok u 33 (by omega), C_pure_bind]
  by_cases c2 : N ≤ out + 8 + 3
  · rw [PUT_err _ m2 _ c2, C_error_bind]
  refine err_of_Ok (PUT_ok _ m2 _ (by omega)) ?_
  intro m3 _
  rw [rd_ok u 32 (by omega), C_pure_bind, PUT_err _ m3 _ (by omega)]

theorem ecb_some (hW : 32 ≤ W) (env : Env) (ctx : sm4_context W) {N : Nat} (inp out : Nat) :
    ∀ (k : Nat) (mem : Vector (BitVec 8) N), inp + 16 * k ≤ N → out + 16 * k ≤ N →
    Ok (forUp 0 k mem fun n mem => sm4_one_round env ctx.sk mem (inp + 16 * n) (out + 16 * n)) (fun _ => True) := by
  intro k mem hi ho
  refine Ok.forUp (fun _ _ => True) (by omega) trivial ?_ (fun _ _ => trivial)
  intro n m _ hn _
  exact (sm4_one_round_ok hW env ctx.sk (fun i => if h : i < 32 then low ctx.sk[i] else 0)
    (fun i hi => by simp only [hi, dite_true]) m _ _ (by omega) (by omega)).mono (fun _ _ => trivial)

theorem ecb_err (hW : 32 ≤ W) (env : Env) (ctx : sm4_context W) (mode length : Int) {N : Nat}
    (mem : Vector (BitVec 8) N) (inp out : Nat) (h0 : 0 < blocks length)
    (h : N < inp + 16 * blocks length ∨ N < out + 16 * blocks length) :
    sm4_crypt_ecb env ctx mode length mem inp out = .error .oob := by
  unfold sm4_crypt_ecb
  generalize blocks length = n at *
  -- the first block that does not fit
  have hk : ∃ k, k < n ∧ (inp + 16 * k ≤ N ∧ out + 16 * k ≤ N ∨ k = 0) ∧
      (N < inp + 16 * k + 16 ∨ N < out + 16 * k + 16) := by
    induction n with
    | zero => omega
    | succ n ih =>
      by_cases c : inp + 16 * n ≤ N ∧ out + 16 * n ≤ N
      · exact ⟨n, by omega, Or.inl c, by omega⟩
      · by_cases hn : n = 0
        · exact ⟨0, by omega, Or.inr rfl, by omega⟩
        · obtain ⟨k, h1, h2, h3⟩ := ih (by omega) (by omega)
          exact ⟨k, by omega, h2, h3⟩
  obtain ⟨k, hkn, hb, hf⟩ := hk
  have step : ∀ m : Vector (BitVec 8) N,
      (forUp k n m fun n mem => sm4_one_round env ctx.sk mem (inp + 16 * n) (out + 16 * n)) = .error .oob := by
    intro m
    rw [forUp_split k (k + 1) n (by omega) (by omega)]
    have : (forUp k (k + 1) m fun n mem => sm4_one_round env ctx.sk mem (inp + 16 * n) (out + 16 * n)) =
        .error .oob := by
      unfold forUp
      rw [show k + 1 - k = 1 by omega]
      simp only [List.range'_one, List.foldlM_cons]
      rw [one_round_err hW env ctx.sk m _ _ hf, C_error_bind]
    rw [this, C_error_bind]
  by_cases k0 : k = 0
  · subst k0; exact step mem
  · rw [forUp_split 0 k n (by omega) (by omega)]
    exact err_of_Ok (ecb_some hW env ctx inp out k mem (by omega) (by omega)) (fun m _ => step m)

end WB.sm4
