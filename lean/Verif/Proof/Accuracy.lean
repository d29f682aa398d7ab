import Verif.Model.Accuracy
import Verif.Proof.Print
import Verif.Prop.C08
import Verif.Prop.C09
import Verif.Prop.C15
import Verif.Prop.C19
import Verif.Prop.C22

/-!
# The accuracy test (helper lemmas)
-/
namespace WB.accuracy
open Matrix

/-- The characters of some strings. -/
def chars (l : List String) : List Char := (l.map String.toList).flatten

/-- The block prints the strings `l` and leaves `flag` alone. -/
def Prints (l : List String) (x : Int → CM Int) : Prop :=
  ∀ flag w, OkM (x flag) w (fun f w' => f = flag ∧ w'.out = w.out ++ chars l)

theorem chars_append (a b : List String) : chars (a ++ b) = chars a ++ chars b := by
  unfold chars; simp

theorem Prints.seq {a b : List String} {x y : Int → CM Int} (hx : Prints a x) (hy : Prints b y) :
    Prints (a ++ b) (fun flag => x flag >>= y) := by
  intro flag w
  refine OkM.bind (hx flag w) ?_
  rintro f w1 ⟨rfl, h1⟩
  refine (hy f w1).mono ?_
  rintro g w2 ⟨rfl, h2⟩
  refine ⟨rfl, ?_⟩
  rw [h2, h1, chars_append, List.append_assoc]

theorem Prints.nil : Prints [] (fun flag => pure flag) := by
  intro flag w
  rw [OkM.pure_iff]
  exact ⟨rfl, by simp [chars]⟩

/-- A text without conversions is printed as it is. -/
theorem fmtOut_plain : ∀ (l : List Char), l.contains '%' = false → fmtOut l [] = .ok l
  | [], _ => rfl
  | c :: l, h => by
    rw [List.contains_cons, Bool.or_eq_false_iff] at h
    have hc : c ≠ '%' := by rintro rfl; simp at h
    have ih := fmtOut_plain l h.2
    rw [fmtOut]
    · rw [ih]; rfl
    all_goals intros; simp_all

theorem printf_plain {s : String} (h : s.toList.contains '%' = false) (w : World) :
    OkM (printf s []) w (fun _ w' => w'.out = w.out ++ s.toList) :=
  ⟨_, printf_run w (fmtOut_plain _ h), rfl⟩

theorem Prints.printf {s : String} (h : s.toList.contains '%' = false) {l : List String} {x : Int → CM Int}
    (hx : Prints l x) : Prints (s :: l) (fun flag => do WB.printf s []; x flag) := by
  intro flag w
  refine OkM.bind (printf_plain h w) ?_
  intro _ w1 h1
  refine (hx flag w1).mono ?_
  rintro f w2 ⟨rfl, h2⟩
  refine ⟨rfl, ?_⟩
  rw [h2, h1]
  simp [chars]

theorem report_true {p e : String} (h : p.toList.contains '%' = false) : Prints [p] (report p e true) := by
  intro flag w
  unfold report
  rw [if_pos rfl]
  refine OkM.bind (printf_plain h w) ?_
  intro _ w1 h1
  rw [OkM.pure_iff]
  exact ⟨rfl, by rw [h1]; simp [chars]⟩

theorem report_false {p e : String} (h : e.toList.contains '%' = false) (flag : Int) (w : World) :
    OkM (report p e false flag) w (fun f w' => f = 0 ∧ w'.out = w.out ++ chars [e]) := by
  unfold report
  rw [if_neg (by decide)]
  refine OkM.bind (printf_plain h w) ?_
  intro _ w1 h1
  rw [OkM.pure_iff]
  exact ⟨rfl, by rw [h1]; simp [chars]⟩

theorem lift_step {α β : Type} {x : C α} {a : α} {f : α → CM β} {w : World} {Q : β → World → Prop} (h : x = .ok a)
    (hf : OkM (f a) w Q) : OkM (liftC x >>= f) w Q := by
  rw [OkM.bind_iff, OkM.liftC_iff]
  exact ⟨a, h, hf⟩

/-- A loop whose body never leaves it and never prints. -/
theorem iterStop_next {σ : Type} {f : Nat → σ → CM (Step Unit σ)}
    (hf : ∀ i s w, OkM (f i s) w (fun r w' => (∃ s', r = .next s') ∧ w'.out = w.out)) :
    ∀ (l : List Nat) (s : σ) (w : World),
      OkM (iterStop f l s) w (fun r w' => (∃ s', r = .next s') ∧ w'.out = w.out)
  | [], s, w => by
    rw [iterStop, OkM.pure_iff]
    exact ⟨⟨s, rfl⟩, rfl⟩
  | i :: l, s, w => by
    rw [iterStop]
    refine OkM.bind (hf i s w) ?_
    rintro r w1 ⟨⟨s', rfl⟩, h1⟩
    refine (iterStop_next hf l s' w1).mono ?_
    rintro r w2 ⟨h2, h3⟩
    exact ⟨h2, h3.trans h1⟩

theorem loop_prints {σ : Type} {p e : String} (hp : p.toList.contains '%' = false) (s : σ)
    {f : Nat → σ → CM (Step Unit σ)}
    (hf : ∀ i s w, OkM (f i s) w (fun r w' => (∃ s', r = .next s') ∧ w'.out = w.out)) :
    Prints [p] (fun flag => do
      let r ← forRet (ρ := Unit) 0 TEST s f
      reportLoop p e r flag) := by
  intro flag w
  refine OkM.bind (iterStop_next hf _ s w) ?_
  rintro r w1 ⟨⟨s', rfl⟩, h1⟩
  refine (report_true hp flag w1).mono ?_
  rintro g w2 ⟨rfl, h2⟩
  exact ⟨rfl, by rw [h2, h1]⟩

/-- What the proofs need to know about the functions of one width: `mt` and `vc` are the matrix and the vector an
object stands for, `gm` and `gv` hold of the objects without stray bits. -/
structure Good {σ ν : Type} {n : Nat} (L : Lib σ ν) (mt : σ → Matrix (Fin n) (Fin n) (ZMod 2))
    (vc : ν → Fin n → ZMod 2) (gm : σ → Prop) (gv : ν → Prop) : Prop where
  injM : ∀ A B, gm A → gm B → mt A = mt B → A = B
  injV : ∀ x y, gv x → gv y → vc x = vc y → x = y
  initM : ∀ A, ∃ B, L.initM A = .ok B ∧ mt B = 0 ∧ gm B
  identityM : ∀ A, ∃ B, L.identityM A = .ok B ∧ mt B = 1 ∧ gm B
  setbitM : ∀ A (i : Fin n), gm A → ∃ B, L.setbitM A (i.val : Int) (i.val : Int) 1 = .ok B ∧
    (∀ r c, mt B r c = if r = i ∧ c = i then 1 else mt A r c) ∧ gm B
  readbitM : ∀ A (i : Fin n), L.readbitM A (i.val : Int) (i.val : Int) = .ok (if mt A i i = 1 then 1 else 0)
  flipbitM : ∀ A (i : Fin n), gm A → ∃ B, L.flipbitM A (i.val : Int) (i.val : Int) = .ok B ∧
    (∀ r c, mt B r c = if r = i ∧ c = i then mt A r c + 1 else mt A r c) ∧ gm B
  isequalM : ∀ A, L.isequalM A A = .ok 1
  isequalV : ∀ x, L.isequalV x x = .ok 1
  randM : ∀ A w, OkM (L.randM A) w (fun A w' => gm A ∧ w'.out = w.out)
  randV : ∀ x w, OkM (L.randV x) w (fun x w' => gv x ∧ w'.out = w.out)
  gen : ∀ A B w, OkM (L.genMatpairM A B) w (fun p w' => mt p.1 * mt p.2 = 1 ∧ mt p.2 * mt p.1 = 1 ∧
    L.isinvertM p.1 = .ok 1 ∧ L.isinvertM p.2 = .ok 1 ∧ (∀ X, L.invsM p.1 X = .ok p.2) ∧
    gm p.1 ∧ gm p.2 ∧ w'.out = w.out)
  mulV : ∀ A x z, ∃ y, L.MatMulVecM A x z = .ok y ∧ vc y = (mt A).mulVec (vc x) ∧ gv y
  mulM : ∀ A B Z, gm B → ∃ D, L.MatMulMatM A B Z = .ok D ∧ mt D = mt A * mt B ∧ gm D

variable {σ ν : Type} {n : Nat} {L : Lib σ ν} {mt : σ → Matrix (Fin n) (Fin n) (ZMod 2)}
  {vc : ν → Fin n → ZMod 2} {gm : σ → Prop} {gv : ν → Prop}

theorem bitTest_ok (G : Good L mt vc gm gv) {p e : String} (hp : p.toList.contains '%' = false) (m1 m2 m3 : σ) :
    Prints [p] (bitTest L n p e m1 m2 m3) := by
  intro flag w
  unfold bitTest
  rw [OkM.bind_iff, OkM.liftC_iff]
  suffices h : Ok _ (fun ok => ok = true) by
    refine h.mono ?_
    rintro ok rfl
    exact report_true hp flag w
  obtain ⟨A, hA, mA, gA⟩ := G.initM m1
  obtain ⟨I, hI, mI, gI⟩ := G.identityM m2
  obtain ⟨Z, hZ, mZ, gZ⟩ := G.initM m3
  rw [hA, C_pure_bind, hI, C_pure_bind, hZ, C_pure_bind, Ok.bind_iff]
  refine Ok.forUp (fun k B => gm B ∧ ∀ r c, mt B r c = if r = c ∧ r.val < k then 1 else 0) (Nat.zero_le _)
    ⟨gA, fun r c => by rw [mA]; simp⟩ ?_ ?_
  · rintro i B - hi ⟨gB, hB⟩
    obtain ⟨D, hD, mD, gD⟩ := G.setbitM B ⟨i, hi⟩ gB
    refine ⟨D, hD, gD, fun r c => ?_⟩
    rw [mD, hB]
    simp only [Fin.ext_iff]
    split_ifs <;> first | rfl | (exfalso; omega)
  rintro B ⟨gB, hB⟩
  have eB : B = I := G.injM _ _ gB gI (by
    rw [mI]
    ext r c
    rw [hB, Matrix.one_apply]
    simp [r.2])
  subst eB
  rw [G.isequalM, C_pure_bind, Ok.bind_iff]
  refine Ok.forBrk (fun _ f => f = 1) (fun _ => False) (Nat.zero_le _) rfl ?_ ?_ (fun _ h => h.elim)
  · rintro i f - hi rfl
    have := G.readbitM B ⟨i, hi⟩
    rw [mI, Matrix.one_apply_eq, if_pos rfl] at this
    rw [show L.readbitM B (i : Int) (i : Int) = .ok 1 from this, C_pure_bind]
    refine ⟨_, rfl, ?_⟩
    exact rfl
  rintro f rfl
  rw [Ok.bind_iff]
  refine Ok.forUp (fun k D => gm D ∧ ∀ r c, mt D r c = if r = c ∧ ¬ r.val < k then 1 else 0) (Nat.zero_le _)
    ⟨gB, fun r c => by rw [mI, Matrix.one_apply]; simp⟩ ?_ ?_
  · rintro i D - hi ⟨gD, hD⟩
    obtain ⟨E, hE, mE, gE⟩ := G.flipbitM D ⟨i, hi⟩ gD
    refine ⟨E, hE, gE, fun r c => ?_⟩
    rw [mE, hD]
    simp only [Fin.ext_iff]
    split_ifs <;> first | rfl | (exfalso; omega) | decide
  rintro D ⟨gD, hD⟩
  have eD : D = Z := G.injM _ _ gD gZ (by
    rw [mZ]
    ext r c
    rw [hD]
    simp [r.2])
  subst eD
  rw [G.isequalM]
  exact ⟨true, rfl, rfl⟩

theorem numTest_ok [BEq ν] [LawfulBEq ν] (G : Good L mt vc gm gv) (f : σ → ν → C ν)
    (hf : ∀ A x, ∃ y, f A x = .ok y ∧ vc y = (mt A).mulVec (vc x) ∧ gv y) {p e : String}
    (hp : p.toList.contains '%' = false) (x : ν) (hx : gv x) (m1 m2 : σ) :
    Prints [p] (numTest L f x p e m1 m2) := by
  refine loop_prints hp _ ?_
  rintro i ⟨m1, m2⟩ w
  refine OkM.bind (G.gen m1 m2 w) ?_
  rintro ⟨A, B⟩ w1 ⟨-, hBA, -, -, -, -, -, hw⟩
  obtain ⟨y, hy, ey, -⟩ := hf A x
  obtain ⟨z, hz, ez, gz⟩ := hf B y
  have : z = x := G.injV _ _ gz hx (by rw [ez, ey, Matrix.mulVec_mulVec, hBA, Matrix.one_mulVec])
  subst this
  refine lift_step (by rw [hy, C_pure_bind, hz]) ?_
  rw [if_neg (by simp), OkM.pure_iff]
  exact ⟨⟨_, rfl⟩, hw⟩

theorem vecTest_ok (G : Good L mt vc gm gv) {p e : String} (hp : p.toList.contains '%' = false)
    (m1 m2 : σ) (v1 v2 v3 : ν) : Prints [p] (vecTest L p e m1 m2 v1 v2 v3) := by
  refine loop_prints hp _ ?_
  rintro i ⟨m1, m2, v1, v2, v3⟩ w
  refine OkM.bind (G.gen m1 m2 w) ?_
  rintro ⟨A, B⟩ w1 ⟨-, hBA, -, -, -, -, -, hw⟩
  refine OkM.bind (G.randV v1 w1) ?_
  rintro x w2 ⟨gx, hw2⟩
  obtain ⟨y, hy, ey, -⟩ := G.mulV A x v2
  obtain ⟨z, hz, ez, gz⟩ := G.mulV B y v3
  have : z = x := G.injV _ _ gz gx (by rw [ez, ey, Matrix.mulVec_mulVec, hBA, Matrix.one_mulVec])
  subst this
  refine lift_step (hy) ?_
  refine lift_step (hz) ?_
  refine lift_step (G.isequalV z) ?_
  rw [if_neg (by decide), OkM.pure_iff]
  exact ⟨⟨_, rfl⟩, hw2.trans hw⟩

theorem matTest_ok (G : Good L mt vc gm gv) {p e : String} (hp : p.toList.contains '%' = false)
    (m1 m2 m3 : σ) (v1 v2 v3 v4 : ν) : Prints [p] (matTest L p e m1 m2 m3 v1 v2 v3 v4) := by
  refine loop_prints hp _ ?_
  rintro i ⟨m1, m2, m3, v1, v2, v3, v4⟩ w
  refine OkM.bind (G.randM m1 w) ?_
  rintro A w1 ⟨gA, hw1⟩
  refine OkM.bind (G.randM m2 w1) ?_
  rintro B w2 ⟨gB, hw2⟩
  refine OkM.bind (G.randV v1 w2) ?_
  rintro x w3 ⟨gx, hw3⟩
  obtain ⟨y, hy, ey, -⟩ := G.mulV A x v2
  obtain ⟨z, hz, ez, gz⟩ := G.mulV B y v3
  obtain ⟨D, hD, eD, -⟩ := G.mulM B A m3 gA
  obtain ⟨u, hu, eu, gu⟩ := G.mulV D x v4
  have : u = z := G.injV _ _ gu gz (by rw [ez, ey, eu, eD, Matrix.mulVec_mulVec])
  subst this
  refine lift_step (hy) ?_
  refine lift_step (hz) ?_
  refine lift_step (hD) ?_
  refine lift_step (hu) ?_
  refine lift_step (G.isequalV u) ?_
  rw [if_neg (by decide), OkM.pure_iff]
  exact ⟨⟨_, rfl⟩, hw3.trans (hw2.trans hw1)⟩

theorem invTest_ok (G : Good L mt vc gm gv) {p e : String} (hp : p.toList.contains '%' = false)
    (m1 m2 m3 m4 m5 : σ) : Prints [p] (invTest L p e m1 m2 m3 m4 m5) := by
  intro flag w
  unfold invTest
  obtain ⟨I, hI, mI, gI⟩ := G.identityM m4
  refine lift_step (hI) ?_
  refine loop_prints hp _ ?_ flag w
  rintro i ⟨m1, m2, m3, m5⟩ w
  refine OkM.bind (G.gen m1 m2 w) ?_
  rintro ⟨A, B⟩ w1 ⟨hAB, -, iA, iB, hinv, gA, gB, hw⟩
  obtain ⟨D, hD, eD, gD⟩ := G.mulM A B m3 gB
  have : D = I := G.injM _ _ gD gI (by rw [eD, hAB, mI])
  subst this
  refine lift_step (iA) ?_
  rw [if_neg (by decide)]
  refine lift_step (iB) ?_
  rw [if_neg (by decide)]
  refine lift_step (hD) ?_
  refine lift_step (G.isequalM D) ?_
  rw [if_neg (by decide)]
  refine lift_step (hinv m5) ?_
  refine lift_step (G.isequalM B) ?_
  rw [if_neg (by decide), OkM.pure_iff]
  exact ⟨⟨_, rfl⟩, hw⟩

/-- What the proofs need to know about the affine functions of one width; `gf` holds of affine maps without
stray bits. -/
structure GoodA {α ν : Type} (L : AffLib α ν) (gf : α → Prop) (gv : ν → Prop) : Prop where
  gen : ∀ f g w, OkM (L.genaffinepairM f g) w (fun p w' => gf p.1 ∧ gf p.2 ∧
    (∀ x z1 z2, gv x → ∃ y, L.affineU p.1 x z1 = .ok y ∧ L.affineU p.2 y z2 = .ok x) ∧ w'.out = w.out)
  mix : ∀ f g m, gf f → gf g → ∃ h, L.affinemixM f g m = .ok h ∧
    ∀ x y z1 z2 z3 z, L.affineU g x z1 = .ok y → L.affineU f y z2 = .ok z → L.affineU h x z3 = .ok z

variable {α : Type} {gf : α → Prop} {LA : AffLib α ν}

theorem affTest_ok [BEq ν] [LawfulBEq ν] (G : GoodA LA gf gv) {p e : String} (hp : p.toList.contains '%' = false)
    (x : ν) (hx : gv x) (a1 a2 : α) (u2 u3 : ν) : Prints [p] (affTest LA x p e a1 a2 u2 u3) := by
  intro flag w
  unfold affTest
  refine OkM.bind (G.gen a1 a2 w) ?_
  rintro ⟨f, g⟩ w1 ⟨-, -, h, hw⟩
  obtain ⟨y, h1, h2⟩ := h x u2 u3 hx
  simp only
  refine lift_step (h1) ?_
  refine lift_step (h2) ?_
  rw [beq_self_eq_true]
  refine (report_true hp flag w1).mono ?_
  rintro _ w2 ⟨rfl, h2⟩
  exact ⟨rfl, by rw [h2, hw]⟩

theorem mixTest_ok [BEq ν] [LawfulBEq ν] (G : GoodA LA gf gv) {p e : String} (hp : p.toList.contains '%' = false)
    (x : ν) (hx : gv x) (a1 a2 a3 a4 a5 : α) (u2 u4 u5 : ν) :
    Prints [p] (mixTest LA x p e a1 a2 a3 a4 a5 u2 u4 u5) := by
  intro flag w
  unfold mixTest
  refine OkM.bind (G.gen a1 a2 w) ?_
  rintro ⟨f, g⟩ w1 ⟨-, gg, hfg, hw⟩
  refine OkM.bind (G.gen a3 a4 w1) ?_
  rintro ⟨f', g'⟩ w2 ⟨gf', -, hfg', hw'⟩
  obtain ⟨y, h1, h2⟩ := hfg x u2 u2 hx
  obtain ⟨t, h3, h4⟩ := hfg' x u4 u5 hx
  obtain ⟨m, hm, hmix⟩ := G.mix f' g a5 gf' gg
  simp only
  refine lift_step (h1) ?_
  refine lift_step (hm) ?_
  refine lift_step (hmix y x u2 u4 u4 t h2 h3) ?_
  refine lift_step (h4) ?_
  rw [beq_self_eq_true]
  refine (report_true hp flag w2).mono ?_
  rintro _ w3 ⟨rfl, h5⟩
  exact ⟨rfl, by rw [h5, hw', hw]⟩

end WB.accuracy
