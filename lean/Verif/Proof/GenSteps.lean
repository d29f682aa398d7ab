import Verif.Proof.Steps

/-!
# The pivot steps of `genMatpair` (helper lemmas)
-/
namespace WB
open Matrix

variable {n t : Nat} {α : Type} {O : Ops α} {m : α → Mat n} {G : α → Prop} {lo hi : Nat}

/-- `tempMat`, `Mat_inv` row addition with its trail entry. -/
def genAdd (O : Ops α) (i : Nat) (s : GenSt α t) (j : Nat) : C (GenSt α t) := do
  let tempMat ← O.addP i s.tempMat j
  let Mat_inv ← O.addF s.Mat_inv j i
  GenSt.record { s with tempMat, Mat_inv } 1 j i

/-- One iteration of the outer forward loop of `genMatpairM*`. -/
def genStep (n : Nat) (O : Ops α) (i : Nat) (s : GenSt α t) : CM (GenSt α t) := do
  if ← liftC (O.test i s.tempMat i) then
    liftC <| forUp (i + 1) n s fun j s => do
      if ← O.test i s.tempMat j then
        let tempMat ← O.addP i s.tempMat j
        let Mat_inv ← O.addF s.Mat_inv j i
        GenSt.record { s with tempMat, Mat_inv } 1 j i
      else pure s
  else
    let (s, flag) ← liftC <| forBrk (i + 1) n (s, true) fun j (s, flag) => do
      if ← O.test i s.tempMat j then
        let tempMat ← O.swpP i s.tempMat i j
        let Mat_inv ← O.swpF s.Mat_inv i j
        let s ← GenSt.record { s with tempMat, Mat_inv } 0 j i
        pure (.stop (s, false))
      else pure (.next (s, flag))
    if flag then
      let s := { s with invertible := false }
      if i < n - 1 then
        let r ← cus_random
        let s ← liftC do
          let p := i + 1 + (← umod r (BitVec.ofNat 32 (n - 1 - i))).toNat
          let tempMat ← O.swpP i s.tempMat p i
          let Mat_inv ← O.swpF s.Mat_inv p i
          GenSt.record { s with tempMat, Mat_inv } 0 p i
        forUp (i + 1) n s fun t s => do
          let r ← cus_random
          liftC do
            if (← umod r 2) != 0 then
              let tempMat ← O.addP i s.tempMat t
              let Mat_inv ← O.addF s.Mat_inv t i
              GenSt.record { s with tempMat, Mat_inv } 1 t i
            else pure s
      else pure s
    else
      liftC <| forUp (i + 1) n s fun k s => do
        if ← O.test i s.tempMat k then
          let tempMat ← O.addP i s.tempMat k
          let Mat_inv ← O.addF s.Mat_inv k i
          GenSt.record { s with tempMat, Mat_inv } 1 k i
        else pure s

/-- The variant of `genStep` without the guard `if(i < n - 1)`. -/
def genStepNG (n : Nat) (O : Ops α) (i : Nat) (s : GenSt α t) : CM (GenSt α t) := do
  if ← liftC (O.test i s.tempMat i) then
    liftC <| forUp (i + 1) n s fun j s => do
      if ← O.test i s.tempMat j then
        let tempMat ← O.addP i s.tempMat j
        let Mat_inv ← O.addF s.Mat_inv j i
        GenSt.record { s with tempMat, Mat_inv } 1 j i
      else pure s
  else
    let (s, flag) ← liftC <| forBrk (i + 1) n (s, true) fun j (s, flag) => do
      if ← O.test i s.tempMat j then
        let tempMat ← O.swpP i s.tempMat i j
        let Mat_inv ← O.swpF s.Mat_inv i j
        let s ← GenSt.record { s with tempMat, Mat_inv } 0 j i
        pure (.stop (s, false))
      else pure (.next (s, flag))
    if flag then
      let s := { s with invertible := false }
      let r ← cus_random
      let s ← liftC do
        let p := i + 1 + (← umod r (BitVec.ofNat 32 (n - 1 - i))).toNat
        let tempMat ← O.swpP i s.tempMat p i
        let Mat_inv ← O.swpF s.Mat_inv p i
        GenSt.record { s with tempMat, Mat_inv } 0 p i
      forUp (i + 1) n s fun t s => do
        let r ← cus_random
        liftC do
          if (← umod r 2) != 0 then
            let tempMat ← O.addP i s.tempMat t
            let Mat_inv ← O.addF s.Mat_inv t i
            GenSt.record { s with tempMat, Mat_inv } 1 t i
          else pure s
    else
      liftC <| forUp (i + 1) n s fun k s => do
        if ← O.test i s.tempMat k then
          let tempMat ← O.addP i s.tempMat k
          let Mat_inv ← O.addF s.Mat_inv k i
          GenSt.record { s with tempMat, Mat_inv } 1 k i
        else pure s

theorem genStepNG_eq {i : Nat} (h : i < n - 1) (s : GenSt α t) :
    genStepNG n O i s = genStep n O i s := by
  unfold genStepNG genStep
  simp only [h, if_true]

/-- The inner loop of the recorded backward pass of `genMatpairM*`. -/
def genBack (O : Ops α) (i : Nat) (s : GenSt α t) : C (GenSt α t) :=
  forDown i 0 s fun j s => do
    if ← O.test i s.tempMat j then
      let tempMat ← O.addB i s.tempMat j
      let Mat_inv ← O.addF s.Mat_inv j i
      GenSt.record { s with tempMat, Mat_inv } 1 j i
    else pure s

/-- One iteration of the replay loop of `genMatpairM*`. -/
def replayStep (O : Ops α) (trail : Vector (Vector (BitVec 8) 3) t) (j : Nat) (A : α) : C α := do
  if (← rd2 trail j 0) != 0 then
    O.addF A (← rd2 trail j 1).toNat (← rd2 trail j 2).toNat
  else
    O.swpF A (← rd2 trail j 1).toNat (← rd2 trail j 2).toNat

/-! ## Meaning of the trail -/

/-- A trail entry is a row operation on two different rows. -/
def entryOK (n : Nat) (e : Vector (BitVec 8) 3) : Prop :=
  e[1].toNat < n ∧ e[2].toNat < n ∧ e[1].toNat ≠ e[2].toNat

/-- The elementary matrix of a trail entry. -/
def entryMat (n : Nat) (e : Vector (BitVec 8) 3) : Mat n :=
  if h : e[1].toNat < n ∧ e[2].toNat < n then
    if e[0] ≠ 0 then eAdd ⟨_, h.1⟩ ⟨_, h.2⟩ else eSwap ⟨_, h.1⟩ ⟨_, h.2⟩
  else 1

/-- Product of the first `k` entries. -/
def trailProd (n : Nat) (tr : Vector (Vector (BitVec 8) 3) t) : Nat → Mat n
  | 0 => 1
  | k + 1 => trailProd n tr k * (if h : k < t then entryMat n tr[k] else 1)

theorem entryMat_sq {e : Vector (BitVec 8) 3} (h : entryOK n e) :
    entryMat n e * entryMat n e = 1 := by
  unfold entryMat
  rw [dif_pos ⟨h.1, h.2.1⟩]
  split
  · exact eAdd_sq (fun e' => h.2.2 (Fin.mk.inj e'))
  · exact eSwap_sq _ _

theorem trailProd_congr {tr tr' : Vector (Vector (BitVec 8) 3) t} {k : Nat}
    (h : ∀ i (hi : i < t), i < k → tr'[i] = tr[i]) : trailProd n tr' k = trailProd n tr k := by
  induction k with
  | zero => rfl
  | succ k ih =>
    simp only [trailProd]
    rw [ih (fun i hi hk => h i hi (by omega))]
    split
    · rename_i hk
      rw [h k hk (by omega)]
    · rfl

/-- The trail describes how to undo the accumulated row operations. -/
def TrailOK (m : α → Mat n) (s : GenSt α t) : Prop :=
  (∀ k (h : k < t), k < s.times → entryOK n s.trail[k]) ∧
    trailProd n s.trail s.times * m s.Mat_inv = 1

theorem record_spec (hn : n ≤ 256) {s s0 : GenSt α t} (op : BitVec 8) (a b : Fin n)
    (hab : a ≠ b) (ht : s0.times < t) (hT : TrailOK m s0)
    (h1 : s.trail = s0.trail) (h2 : s.times = s0.times)
    (h3 : m s.Mat_inv = (if op ≠ 0 then eAdd a b else eSwap a b) * m s0.Mat_inv) :
    Ok (GenSt.record s op a b) (fun s' => s'.tempMat = s.tempMat ∧ s'.Mat_inv = s.Mat_inv ∧
      s'.invertible = s.invertible ∧ s'.times = s0.times + 1 ∧ TrailOK m s') := by
  have ht' : s.times < t := by omega
  have hne : a.val ≠ b.val := fun e => hab (Fin.ext e)
  obtain ⟨hE, hP⟩ := hT
  unfold GenSt.record
  simp only [Ok.bind_iff, Ok_wr2, Ok.pure_iff]
  refine ⟨ht', by omega, ht', by omega, ht', by omega, ?_⟩
  refine ⟨by trivial, by trivial, by trivial, by rw [h2], ?_⟩
  have ha : (BitVec.ofNat 8 a.val).toNat = a.val := by
    simp; have := a.2; omega
  have hb : (BitVec.ofNat 8 b.val).toNat = b.val := by
    simp; have := b.2; omega
  have hmat : ∀ e : Vector (BitVec 8) 3, e[0] = op → e[1] = BitVec.ofNat 8 a.val →
      e[2] = BitVec.ofNat 8 b.val → entryOK n e ∧
      entryMat n e = (if op ≠ 0 then eAdd a b else eSwap a b) := by
    intro e e0 e1 e2
    have h1 : e[1].toNat = a.val := by rw [e1, ha]
    have h2 : e[2].toNat = b.val := by rw [e2, hb]
    refine ⟨⟨by rw [h1]; exact a.2, by rw [h2]; exact b.2, by rw [h1, h2]; exact hne⟩, ?_⟩
    unfold entryMat
    rw [dif_pos ⟨by rw [h1]; exact a.2, by rw [h2]; exact b.2⟩]
    simp only [e0, h1, h2]
  refine ⟨?_, ?_⟩
  · intro k hk hkt
    simp only [Vector.getElem_set]
    by_cases hks : s.times = k
    · subst hks
      simp only [if_true]
      exact (hmat _ (by simp) (by simp) (by simp)).1
    · simp only [hks, if_false, h1]
      exact hE k hk (by simp only at hkt; omega)
  · simp only [trailProd]
    rw [dif_pos ht']
    rw [trailProd_congr (tr := s0.trail)]
    · rw [show ∀ (v : Vector (Vector (BitVec 8) 3) t) x, (v.set s.times x)[s.times] = x by
        intro v x; simp]
      rw [(hmat _ (by simp) (by simp) (by simp)).2, h3, h2]
      generalize hX : (if op ≠ 0 then eAdd a b else eSwap a b) = X
      have hXX : X * X = 1 := by
        rw [← hX]; split
        · exact eAdd_sq hab
        · exact eSwap_sq _ _
      calc trailProd n s0.trail s0.times * X * (X * m s0.Mat_inv)
          = trailProd n s0.trail s0.times * (X * X) * m s0.Mat_inv := by
            simp only [Matrix.mul_assoc]
        _ = 1 := by rw [hXX, Matrix.mul_one, hP]
    · intro i hi hik
      have : s.times ≠ i := by omega
      simp [this, h1]

theorem replayStep_spec (hO : OpsOK n O m G lo hi) {tr : Vector (Vector (BitVec 8) 3) t}
    {k : Nat} (hk : k < t) (hE : entryOK n tr[k]) (A : α) :
    Ok (replayStep O tr k A) (fun A' => m A' = entryMat n tr[k] * m A ∧ (G A → G A')) := by
  unfold replayStep
  simp only [Ok.bind_iff, Ok_rd2]
  refine ⟨hk, by omega, ?_⟩
  unfold entryMat
  rw [dif_pos ⟨hE.1, hE.2.1⟩]
  have hne : (⟨_, hE.1⟩ : Fin n) ≠ ⟨_, hE.2.1⟩ := fun e => hE.2.2 (Fin.mk.inj e)
  by_cases h0 : tr[k][0] = 0
  · simp only [h0, bne_self_eq_false, Bool.false_eq_true, if_false, Ok.bind_iff, Ok_rd2]
    refine ⟨hk, by omega, hk, by omega, ?_⟩
    refine (hO.swpF ⟨_, hE.1⟩ ⟨_, hE.2.1⟩ A hne).mono ?_
    rintro A' ⟨h1, h2⟩
    refine ⟨?_, h2⟩
    rw [h1, swapR_eq]; simp
  · have : (tr[k][0] != 0) = true := by simpa using h0
    simp only [this, if_true, Ok.bind_iff, Ok_rd2]
    refine ⟨hk, by omega, hk, by omega, ?_⟩
    refine (hO.addF ⟨_, hE.1⟩ ⟨_, hE.2.1⟩ A hne).mono ?_
    rintro A' ⟨h1, h2⟩
    refine ⟨?_, h2⟩
    rw [h1, addR_eq, if_pos h0]

/-- The replay loop rebuilds the inverse of the accumulated matrix. -/
theorem replay_spec (hO : OpsOK n O m G lo hi) {s : GenSt α t} (hT : TrailOK m s)
    (hle : s.times ≤ t) {A : α} (hA : m A = 1) (hG : G A) :
    Ok (forDown s.times 0 A fun j A => replayStep O s.trail j A)
      (fun A' => m A' * m s.Mat_inv = 1 ∧ G A') := by
  refine Ok.forDown (fun k A' => trailProd n s.trail k * m A' = trailProd n s.trail s.times ∧ G A')
    (Nat.zero_le _) ⟨by rw [hA, Matrix.mul_one], hG⟩ ?_ ?_
  · rintro k A' - hk ⟨hP, hg⟩
    have hkt : k < t := by omega
    have hE := hT.1 k hkt hk
    refine (replayStep_spec hO hkt hE A').mono ?_
    rintro A'' ⟨h1, h2⟩
    refine ⟨?_, h2 hg⟩
    rw [h1, ← hP]
    simp only [trailProd, dif_pos hkt, Matrix.mul_assoc]
  · rintro A' ⟨hP, hg⟩
    refine ⟨?_, hg⟩
    simp only [trailProd, Matrix.one_mul] at hP
    rw [hP]; exact hT.2

/-! ## Invariants -/

/-- Only the index of the generator advances. -/
def OnlyIndex (w w' : World) : Prop := ∃ k, w' = { w with m_index := k }

theorem OnlyIndex.refl (w : World) : OnlyIndex w w := ⟨w.m_index, rfl⟩

theorem OnlyIndex.trans {w w' w'' : World} (h : OnlyIndex w w') (h' : OnlyIndex w' w'') :
    OnlyIndex w w'' := by
  obtain ⟨k, rfl⟩ := h
  obtain ⟨k', rfl⟩ := h'
  exact ⟨k', rfl⟩

theorem OkM_random {w : World} {Q : BitVec 32 → World → Prop}
    (h : ∀ r w', OnlyIndex w w' → Q r w') : OkM cus_random w Q :=
  OkM_cus_random w Q (fun r => h r _ ⟨_, rfl⟩)

/-- Nothing more is drawn while no pivot is missing. -/
def DrawW (w0 : World) (s : GenSt α t) (w : World) : Prop :=
  OnlyIndex w0 w ∧ (s.invertible = true → w = w0)

theorem DrawW.refl {s : GenSt α t} (w : World) : DrawW w s w := ⟨OnlyIndex.refl w, fun _ => rfl⟩

theorem OkM.withEq {β : Type} {x : CM β} {w : World} {Q : β → World → Prop} (h : OkM x w Q) :
    OkM x w (fun r w' => x w = .ok (r, w') ∧ Q r w') := by
  obtain ⟨⟨r, w'⟩, hr, hq⟩ := h
  exact ⟨(r, w'), hr, hr, hq⟩

theorem TrailOK.det {s : GenSt α t} (h : TrailOK m s) : (m s.Mat_inv).det = 1 := by
  have := congrArg Matrix.det h.2
  rw [det_mul, det_one] at this
  rcases z2_cases (m s.Mat_inv).det with h0 | h1
  · rw [h0, mul_zero] at this; exact absurd this (by decide)
  · exact h1

/-- Part of the invariant that does not mention the pivot column. -/
def genJ (m : α → Mat n) (G : α → Prop) (A0 : α) (i : Nat) (k : Nat) (s : GenSt α t) : Prop :=
  s.times ≤ k ∧ TrailOK m s ∧ m s.tempMat = m s.Mat_inv * m A0 ∧ G s.Mat_inv ∧
    (s.invertible = true → Diag i (m s.tempMat)) ∧
    (s.invertible = false → (m A0).det = 0)

/-- Invariant of the forward pass of `genMatpairM*`. -/
def genInv (m : α → Mat n) (G : α → Prop) (A0 : α) (i : Nat) (s : GenSt α t) : Prop :=
  Tri i (m s.tempMat) ∧ genJ m G A0 i (fwdOps n i) s

theorem genJ_mono {A0 : α} {i k k' : Nat} {s : GenSt α t} (h : genJ m G A0 i k s)
    (hk : k ≤ k') : genJ m G A0 i k' s :=
  ⟨Nat.le_trans h.1 hk, h.2⟩

theorem genAdd_spec (hO : OpsOK n O m G lo hi) (hn : n ≤ 256) (ht : t = n * n) (A0 : α)
    {i j : Nat} (hlo : lo ≤ i) (hhi : i < hi) (hin : i < n) (hj : j < n) (hij : i < j)
    {k : Nat} (hk : k < n * n) {s : GenSt α t} (hJ : genJ m G A0 i k s)
    (hT : Tri i (m s.tempMat)) :
    Ok (do
        let tempMat ← O.addP i s.tempMat j
        let Mat_inv ← O.addF s.Mat_inv j i
        GenSt.record { s with tempMat, Mat_inv } 1 j i)
      (fun s' => m s'.tempMat = addR ⟨j, hj⟩ ⟨i, hin⟩ (m s.tempMat) ∧
        genJ m G A0 i (k + 1) s' ∧ s'.invertible = s.invertible) := by
  obtain ⟨h1, h2, h3, h4, h5, h6⟩ := hJ
  have hne : (⟨j, hj⟩ : Fin n) ≠ ⟨i, hin⟩ := by
    intro e; have := congrArg Fin.val e; simp at this; omega
  refine Ok.bind (hO.addP ⟨i, hin⟩ ⟨j, hj⟩ s.tempMat hlo hhi hij hT) ?_
  rintro A' ⟨hA, -⟩
  refine Ok.bind (hO.addF ⟨j, hj⟩ ⟨i, hin⟩ s.Mat_inv hne) ?_
  rintro B' ⟨hB, hG⟩
  refine (record_spec hn (s := { s with tempMat := A', Mat_inv := B' }) (s0 := s) 1 ⟨j, hj⟩ ⟨i, hin⟩ hne (by omega) h2 rfl rfl ?_).mono ?_
  · simp only; rw [hB, addR_eq]; simp
  · rintro s' ⟨e1, e2, e3, e4, hTr⟩
    refine ⟨by rw [e1]; exact hA, ⟨by omega, hTr, ?_, ?_, ?_, fun hv => h6 (by rw [← e3]; exact hv)⟩, e3⟩
    · rw [e1, e2]; simp only; rw [hA, hB, h3, addR_mul]
    · rw [e2]; exact hG h4
    · intro hv
      rw [e1]; simp only; rw [hA]
      rw [e3] at hv
      exact (h5 hv).addR (Nat.le_of_lt hij)

theorem genSwp_spec (hO : OpsOK n O m G lo hi) (hn : n ≤ 256) (ht : t = n * n) (A0 : α)
    {i j a b : Nat} (hlo : lo ≤ i) (hhi : i < hi) (hin : i < n) (hj : j < n) (hij : i < j)
    (hab : (a = i ∧ b = j) ∨ (a = j ∧ b = i))
    {k : Nat} (hk : k < n * n) {s : GenSt α t} (hJ : genJ m G A0 i k s)
    (hT : Tri i (m s.tempMat)) :
    Ok (do
        let tempMat ← O.swpP i s.tempMat a b
        let Mat_inv ← O.swpF s.Mat_inv a b
        GenSt.record { s with tempMat, Mat_inv } 0 j i)
      (fun s' => m s'.tempMat = swapR ⟨i, hin⟩ ⟨j, hj⟩ (m s.tempMat) ∧
        genJ m G A0 i (k + 1) s' ∧ s'.invertible = s.invertible) := by
  obtain ⟨h1, h2, h3, h4, h5, h6⟩ := hJ
  have hne : (⟨j, hj⟩ : Fin n) ≠ ⟨i, hin⟩ := by
    intro e; have := congrArg Fin.val e; simp at this; omega
  have hsym : ∀ (x y : Fin n) (A : Mat n), swapR x y A = swapR y x A := by
    intro x y A; unfold swapR; rw [Equiv.swap_comm]
  have e1 : Ok (O.swpP i s.tempMat a b)
      (fun A' => m A' = swapR ⟨i, hin⟩ ⟨j, hj⟩ (m s.tempMat)) := by
    rcases hab with ⟨rfl, rfl⟩ | ⟨rfl, rfl⟩
    · exact (hO.swpP ⟨a, hin⟩ ⟨a, hin⟩ ⟨b, hj⟩ s.tempMat hlo hhi (Nat.le_refl _)
        (Nat.le_of_lt hij) hne.symm hT).mono (fun A' h => h.1)
    · refine (hO.swpP ⟨b, hin⟩ ⟨a, hj⟩ ⟨b, hin⟩ s.tempMat hlo hhi
        (Nat.le_of_lt hij) (Nat.le_refl _) hne hT).mono (fun A' h => ?_)
      rw [h.1, hsym]
  have e2 : Ok (O.swpF s.Mat_inv a b)
      (fun A' => m A' = swapR ⟨j, hj⟩ ⟨i, hin⟩ (m s.Mat_inv) ∧ (G s.Mat_inv → G A')) := by
    rcases hab with ⟨rfl, rfl⟩ | ⟨rfl, rfl⟩
    · refine (hO.swpF ⟨a, hin⟩ ⟨b, hj⟩ s.Mat_inv hne.symm).mono (fun A' h => ⟨?_, h.2⟩)
      rw [h.1, hsym]
    · exact hO.swpF ⟨a, hj⟩ ⟨b, hin⟩ s.Mat_inv hne
  refine Ok.bind e1 ?_
  intro A' hA
  refine Ok.bind e2 ?_
  rintro B' ⟨hB, hG⟩
  refine (record_spec hn (s := { s with tempMat := A', Mat_inv := B' }) (s0 := s) 0 ⟨j, hj⟩ ⟨i, hin⟩ hne (by omega) h2 rfl rfl ?_).mono ?_
  · simp only; rw [hB, swapR_eq]; simp
  · rintro s' ⟨e1, e2, e3, e4, hTr⟩
    refine ⟨by rw [e1]; exact hA, ⟨by omega, hTr, ?_, ?_, ?_, fun hv => h6 (by rw [← e3]; exact hv)⟩, e3⟩
    · rw [e1, e2]; simp only; rw [hA, hB, h3, swapR_mul, hsym]
    · rw [e2]; exact hG h4
    · intro hv
      rw [e1]; simp only; rw [hA]
      rw [e3] at hv
      exact (h5 hv).swapR (Nat.le_of_lt hij) (Nat.le_refl _)

theorem genStep_spec (hO : OpsOK n O m G lo hi) (hn : n ≤ 256) (ht : t = n * n) (A0 : α)
    {i : Nat} (hlo : lo ≤ i) (hhi : i < hi) (hin : i < n) {s : GenSt α t} {w0 w : World}
    (hI : genInv m G A0 i s) (hw : DrawW w0 s w) :
    OkM (genStep n O i s) w (fun s' w' => genInv m G A0 (i + 1) s' ∧ DrawW w0 s' w') := by
  obtain ⟨hT, hJ⟩ := hI
  let fi : Fin n := ⟨i, hin⟩
  have hroom := fwdOps_room hin
  -- the elimination loop below pivot `i`
  have helim : ∀ k (s : GenSt α t), k + (n - 1 - i) ≤ fwdOps n (i + 1) → genJ m G A0 i k s →
      Tri i (m s.tempMat) → m s.tempMat fi fi = 1 →
      Ok (forUp (i + 1) n s fun j s => do
        if ← O.test i s.tempMat j then
          let tempMat ← O.addP i s.tempMat j
          let Mat_inv ← O.addF s.Mat_inv j i
          GenSt.record { s with tempMat, Mat_inv } 1 j i
        else pure s) (fun s' => genInv m G A0 (i + 1) s' ∧ s'.invertible = s.invertible) := by
    intro k s hk hJ hT h1
    have hk' : fwdOps n (i + 1) ≤ n * n := fwdOps_le hin
    refine (elim_spec (fun s : GenSt α t => m s.tempMat)
      (fun k s' => genJ m G A0 i k s' ∧ s'.invertible = s.invertible)
      (fun j s => O.test i s.tempMat j)
      (fun j s => do
        let tempMat ← O.addP i s.tempMat j
        let Mat_inv ← O.addF s.Mat_inv j i
        GenSt.record { s with tempMat, Mat_inv } 1 j i) fi (n * n)
      (fun s j hj => hO.test fi ⟨j, hj⟩ s.tempMat hlo hhi) ?_
      (fun k s h => ⟨genJ_mono h.1 (Nat.le_succ _), h.2⟩) (Nat.le_trans hk hk') ⟨hJ, rfl⟩ hT
      (Or.inl h1)).mono ?_
    · intro k s j hj hij hk hJ hT
      exact (genAdd_spec hO hn ht A0 hlo hhi hin hj hij hk hJ.1 hT).mono
        (fun s' h => ⟨h.1, h.2.1, h.2.2.trans hJ.2⟩)
    · rintro s' ⟨hT', ⟨hJ', hv'⟩, hii⟩
      refine ⟨⟨hT', genJ_mono ⟨hJ'.1, hJ'.2.1, hJ'.2.2.1, hJ'.2.2.2.1, ?_, hJ'.2.2.2.2.2⟩ hk⟩, hv'⟩
      intro hv
      exact Diag.succ (i := fi) (hJ'.2.2.2.2.1 hv) (hii.trans h1)
  unfold genStep
  rw [OkM.bind_iff, OkM.liftC_iff]
  refine (hO.test fi fi s.tempMat hlo hhi).mono ?_
  intro b hb
  by_cases hbt : b = true
  · simp only [hbt, if_true]
    rw [OkM.liftC_iff]
    refine (helim _ s (by simp only [fwdOps]; omega) hJ hT (hb.1 hbt)).mono ?_
    intro s' h'
    exact ⟨h'.1, hw.1, fun h => hw.2 (h'.2 ▸ h)⟩
  · simp only [hbt]
    have h0 : m s.tempMat fi fi = 0 := z2_ne_one.1 (fun h => hbt (hb.2 h))
    simp only [Bool.false_eq_true, if_false]
    rw [OkM.bind_iff, OkM.liftC_iff]
    have := search_spec (fun s : GenSt α t => m s.tempMat)
      (fun k s' => genJ m G A0 i k s' ∧ s'.invertible = s.invertible)
      (fun j s => O.test i s.tempMat j)
      (fun j s => do
        let tempMat ← O.swpP i s.tempMat i j
        let Mat_inv ← O.swpF s.Mat_inv i j
        GenSt.record { s with tempMat, Mat_inv } 0 j i) fi (n * n)
      (fun s j hj => hO.test fi ⟨j, hj⟩ s.tempMat hlo hhi) ?_ (k := fwdOps n i) (by omega)
      ⟨hJ, rfl⟩ hT h0
    · simp only [bind_assoc] at this
      refine this.mono ?_
      rintro ⟨s', flag⟩ ⟨hT', htrue, hfalse⟩
      cases flag
      · obtain ⟨⟨hJ', hv'⟩, h1⟩ := hfalse rfl
        simp only [Bool.false_eq_true, if_false]
        rw [OkM.liftC_iff]
        refine (helim _ s' (by simp only [fwdOps]; omega) hJ' hT' h1).mono ?_
        intro s'' h''
        exact ⟨h''.1, hw.1, fun h => hw.2 (hv' ▸ h''.2 ▸ h)⟩
      · obtain ⟨⟨hJ', -⟩, hz⟩ := htrue rfl
        simp only [if_true]
        have hd0 : (m A0).det = 0 := by
          have := det_zero_of_no_pivot fi hT' hz
          rwa [hJ'.2.2.1, det_mul, hJ'.2.1.det, one_mul] at this
        replace hw := hw.1
        have hJs : genJ m G A0 i (fwdOps n i) { s' with invertible := false } :=
          ⟨hJ'.1, hJ'.2.1, hJ'.2.2.1, hJ'.2.2.2.1, fun h => by simp at h, fun _ => hd0⟩
        have hTs : Tri (i + 1) (m s'.tempMat) := by
          intro r c hc hr
          by_cases h : c.val < i
          · exact hT' r c h hr
          · have : c = fi := Fin.ext (by simp only [fi]; omega)
            subst this
            exact hz r (by simp only [fi] at hr ⊢; omega)
        rw [OkM.ite_iff]
        constructor
        · intro hi1
          rw [OkM.bind_iff]
          refine OkM_random ?_
          intro r w1 hw1
          rw [OkM.bind_iff, OkM.liftC_iff, Ok.bind_iff]
          have hd : BitVec.ofNat 32 (n - 1 - i) ≠ 0#32 := by
            intro e
            have := congrArg BitVec.toNat e
            simp at this; omega
          have hdn : (BitVec.ofNat 32 (n - 1 - i)).toNat = n - 1 - i := by simp; omega
          unfold umod
          rw [if_neg hd, Ok.ok_iff]
          have hq : (r.umod (BitVec.ofNat 32 (n - 1 - i))).toNat < n - 1 - i := by
            rw [BitVec.umod_eq, BitVec.toNat_umod, hdn]
            exact Nat.mod_lt _ (by omega)
          generalize (r.umod (BitVec.ofNat 32 (n - 1 - i))).toNat = q at hq ⊢
          refine (genSwp_spec hO hn ht A0 hlo hhi hin (j := i + 1 + q) (by omega) (by omega)
            (Or.inr ⟨rfl, rfl⟩) (by omega) hJs hT').mono ?_
          rintro s1 ⟨hm1, hJ1, hv1⟩
          refine OkM.forUp (fun j s w' => genJ m G A0 i (fwdOps n i + 1 + (j - (i + 1))) s ∧
              s.invertible = false ∧ Tri i (m s.tempMat) ∧
              (∀ r : Fin n, i ≤ r.val → m s.tempMat r fi = 0) ∧ OnlyIndex w0 w')
            (by omega) ?_ ?_ ?_
          · refine ⟨by simpa using hJ1, hv1, ?_, ?_, hw.trans hw1⟩
            · rw [hm1]; exact hT'.swapR (Nat.le_refl i) (by show i ≤ i + 1 + q; omega)
            · intro r hr
              rw [hm1]; simp only [swapR]
              refine hz _ ?_
              rw [Equiv.swap_apply_def]
              split
              · simp only [fi]; omega
              · split
                · simp only [fi]; omega
                · simpa [fi] using hr
          · rintro j s2 w2 hj1 hj2 ⟨hJ2, hv2, hT2, hz2, hw2⟩
            rw [OkM.bind_iff]
            refine OkM_random ?_
            intro r w3 hw3
            rw [OkM.liftC_iff, Ok.bind_iff, if_neg (by decide : (2 : BitVec 32) ≠ 0#32),
              Ok.ok_iff]
            have hk2 : fwdOps n i + 1 + (j + 1 - (i + 1)) =
              fwdOps n i + 1 + (j - (i + 1)) + 1 := by omega
            rw [Ok.ite_iff]
            constructor
            · intro _
              refine (genAdd_spec hO hn ht A0 hlo hhi hin hj2 (by omega) (by omega) hJ2
                hT2).mono ?_
              rintro s3 ⟨hm3, hJ3, hv3⟩
              refine ⟨by rw [hk2]; exact hJ3, hv3.trans hv2, ?_, ?_, hw2.trans hw3⟩
              · rw [hm3]; exact hT2.addR rfl (by simp only; omega)
              · intro r hr
                rw [hm3]; simp only [addR]
                split
                · rw [hz2 _ (by simp only; omega), hz2 _ (Nat.le_refl _), add_zero]
                · exact hz2 r hr
            · intro _
              rw [Ok.pure_iff]
              exact ⟨by rw [hk2]; exact genJ_mono hJ2 (Nat.le_succ _), hv2, hT2, hz2,
                hw2.trans hw3⟩
          · rintro s2 w2 ⟨hJ2, hv2, hT2, hz2, hw2⟩
            refine ⟨⟨?_, ?_⟩, hw2, fun h => by rw [hv2] at h; simp at h⟩
            · intro r c hc hr
              by_cases h : c.val < i
              · exact hT2 r c h hr
              · have : c = fi := Fin.ext (by simp only [fi]; omega)
                subst this
                exact hz2 r (by simp only [fi] at hr ⊢; omega)
            · refine genJ_mono ⟨hJ2.1, hJ2.2.1, hJ2.2.2.1, hJ2.2.2.2.1, ?_, fun _ => hd0⟩
                (by simp only [fwdOps]; omega)
              intro hv; rw [hv2] at hv; simp at hv
        · intro _
          rw [OkM.pure_iff]
          refine ⟨⟨hTs, genJ_mono ⟨hJs.1, hJs.2.1, hJs.2.2.1, hJs.2.2.2.1, ?_, fun _ => hd0⟩
            (by simp only [fwdOps]; omega)⟩, hw, fun h => by simp at h⟩
          intro h; simp at h
    · intro k s j hj hij hk hJ hT
      exact (genSwp_spec hO hn ht A0 hlo hhi hin hj hij (Or.inl ⟨rfl, rfl⟩) hk hJ.1 hT).mono
        (fun s' h => ⟨h.1, h.2.1, h.2.2.trans hJ.2⟩)

/-- Invariant of the recorded backward pass. -/
def genBackInv (m : α → Mat n) (G : α → Prop) (i : Nat) (s : GenSt α t) : Prop :=
  s.times ≤ bwdOps n i ∧ TrailOK m s ∧ G s.Mat_inv

theorem genBack_spec (hO : OpsOK n O m G lo hi) (hn : n ≤ 256) (ht : t = n * n)
    {i : Nat} (hlo : lo ≤ i) (hhi : i < hi) (hin : i < n) {s : GenSt α t}
    (hI : genBackInv m G (i + 1) s) : Ok (genBack O i s) (genBackInv m G i) := by
  let fi : Fin n := ⟨i, hin⟩
  obtain ⟨hk, hT, hG⟩ := hI
  have hb := bwdOps_succ hin
  have hb2 := bwdOps_le (Nat.le_of_lt hin)
  have hne : ∀ j (hj : j < n), j < i → (⟨j, hj⟩ : Fin n) ≠ fi := by
    intro j hj hij e; have := congrArg Fin.val e; simp [fi] at this; omega
  refine (back_spec (fun s : GenSt α t => m s.tempMat)
    (fun k s => s.times ≤ k ∧ TrailOK m s ∧ G s.Mat_inv)
    (fun j s => O.test i s.tempMat j)
    (fun j s => do
      let tempMat ← O.addB i s.tempMat j
      let Mat_inv ← O.addF s.Mat_inv j i
      GenSt.record { s with tempMat, Mat_inv } 1 j i) fi (n * n) False
    (fun s j hj => hO.test fi ⟨j, hj⟩ s.tempMat hlo hhi) ?_
    (fun k s h => ⟨Nat.le_succ_of_le h.1, h.2⟩) (k := bwdOps n (i + 1))
    (by simp only [fi]; omega) ⟨hk, hT, hG⟩ (fun h => h.elim)).mono ?_
  · rintro k s j hj hij hk ⟨h1, h2, h3⟩
    refine Ok.bind (hO.addB fi ⟨j, hj⟩ s.tempMat hlo hhi hij) ?_
    intro A' _
    refine Ok.bind (hO.addF ⟨j, hj⟩ fi s.Mat_inv (hne j hj hij)) ?_
    rintro B' ⟨hB, hg⟩
    refine (record_spec hn (s := { s with tempMat := A', Mat_inv := B' }) (s0 := s) 1 ⟨j, hj⟩ fi (hne j hj hij) (by omega) h2 rfl rfl ?_).mono ?_
    · simp only; rw [hB, addR_eq]; simp
    · rintro s' ⟨e1, e2, e3, e4, hTr⟩
      exact ⟨⟨by omega, hTr, by rw [e2]; exact hg h3⟩, fun h => h.elim⟩
  · rintro s' ⟨⟨h1, h2, h3⟩, -⟩
    exact ⟨by simp only [fi] at h1; omega, h2, h3⟩

theorem genBackInv_init {A0 : α} {s : GenSt α t} (h : genInv m G A0 n s) :
    genBackInv m G n s :=
  ⟨by rw [bwdOps_top]; exact h.2.1, h.2.2.1, h.2.2.2.2.1⟩

/-- When no pivot was missing the plain backward pass can start. -/
theorem backInv_of_gen {A0 : α} {s : GenSt α t} (h : genInv m G A0 n s)
    (hv : s.invertible = true) :
    (m A0).det = 1 ∧ backInv m G ((m A0).det = 1) A0 n (s.tempMat, s.Mat_inv) := by
  obtain ⟨hT, hk, hTr, hmul, hG, hD, -⟩ := h
  have hd : (m s.tempMat).det = 1 := det_one_of_tri hT (fun i => hD hv i i.2)
  refine ⟨?_, backInv_init ⟨hT, hmul, hTr.det, hG⟩⟩
  rw [hmul, det_mul, hTr.det, one_mul] at hd
  exact hd

/-- A missing pivot means that the drawn matrix is singular. -/
theorem singular_of_gen {A0 : α} {s : GenSt α t} (h : genInv m G A0 n s)
    (hv : s.invertible = false) : (m A0).det = 0 := h.2.2.2.2.2.2 hv

end WB
