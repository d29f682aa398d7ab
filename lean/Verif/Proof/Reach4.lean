import Verif.Proof.SeedWit

/-!
# The rows of a random 4x4 matrix as a function of the seed, on natural numbers
-/
namespace WB
open Matrix

/-- Passes on the value of a number (forced by the recursor). -/
noncomputable def forceN {α : Type} (x : Nat) (f : Nat → α) : α :=
  @Nat.rec (fun _ => α) (f 0) (fun y _ => f (Nat.succ y)) x

theorem forceN_eq {α : Type} (x : Nat) (f : Nat → α) : forceN x f = f x := by
  cases x <;> rfl

/-- The 16 bits of the rows of the matrix drawn from the seed `s`, first row first. -/
noncomputable def keyN (s : Nat) : Nat :=
  forceN (permN (Nat.mod (Nat.add (permN s) 0x682f0161) 4294967296)) fun i =>
  forceN (permN (Nat.mod (Nat.add (permN (Nat.mod (Nat.succ s) 4294967296)) 0x46790905) 4294967296)) fun o =>
    Nat.add (Nat.mul (Nat.add (Nat.mul (Nat.add (Nat.mul (Nat.mod (drawN i o 0) 16) 16)
      (Nat.mod (drawN i o 1) 16)) 16) (Nat.mod (drawN i o 2) 16)) 16) (Nat.mod (drawN i o 3) 16)

/-- `n` seeds of 20 bits each, whose matrices are `k`, `k + 1`, … -/
noncomputable def checkRow (n : Nat) : Nat → Nat → Bool :=
  @Nat.rec (fun _ => Nat → Nat → Bool) (fun _ _ => true)
    (fun _ ih k v => @Bool.rec (fun _ => Bool) false
      (forceN (Nat.div v 1048576) fun v' => forceN (Nat.succ k) fun k' => ih k' v')
      (Nat.beq (forceN (Nat.mod v 1048576) keyN) k)) n

noncomputable def checkTab (k : Nat) (t : List Nat) : Bool :=
  @List.rec Nat (fun _ => Nat → Bool) (fun _ => true)
    (fun v _ ih k => @Bool.rec (fun _ => Bool) false (forceN (Nat.add k 256) ih) (checkRow 256 k v)) t k

end WB
