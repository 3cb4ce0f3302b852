import Verif.Base.Bits

/-!
# FIPS 202, section 3: KECCAK-p[1600, n_r]

Transcribed from FIPS 202 sections 3.1 (state), 3.2 (step mappings, Algorithms 1-6) and 3.3 (Algorithm 7), for
the width b = 1600, i.e. w = 64 and l = 6.  Everything is on bits; nothing here refers to the model of the
code.  Index arithmetic on `x`, `y` is modulo 5 and on `z` modulo 64 (arithmetic of `Fin 5` and `Fin 64`).
-/

namespace Spec.KeccakP

/-- Section 3.1.1: the state array `A[x, y, z]`. -/
abbrev StateArray := Fin 5 → Fin 5 → Fin 64 → Bool

/-- Section 3.1.2: `A[x, y, z] = S[w(5y + x) + z]`. -/
def toArray (S : Bits) : StateArray := fun x y z => S.getD (64 * (5 * y.val + x.val) + z.val) false

/-- Section 3.1.3: `S = Plane(0) || ... || Plane(4)`, `Plane(j) = Lane(0, j) || ... || Lane(4, j)`,
`Lane(i, j) = A[i, j, 0] || ... || A[i, j, 63]`. -/
def toString (A : StateArray) : Bits :=
  (List.finRange 5).flatMap fun j => (List.finRange 5).flatMap fun i => (List.finRange 64).map (A i j)

/-- Algorithm 1, step 1: `C[x, z]`. -/
def C (A : StateArray) (x : Fin 5) (z : Fin 64) : Bool :=
  A x 0 z ^^ A x 1 z ^^ A x 2 z ^^ A x 3 z ^^ A x 4 z

/-- Algorithm 1, step 2: `D[x, z] = C[x-1, z] xor C[x+1, z-1]`. -/
def D (A : StateArray) (x : Fin 5) (z : Fin 64) : Bool := C A (x - 1) z ^^ C A (x + 1) (z - 1)

/-- Algorithm 1: θ. -/
def theta (A : StateArray) : StateArray := fun x y z => A x y z ^^ D A x z

/-- The value of `(x, y)` at step `t` of Algorithm 2: first `(1, 0)`, then `(y, 2x + 3y)`. -/
def rhoPos : Nat → Fin 5 × Fin 5
  | 0 => (1, 0)
  | t + 1 => ((rhoPos t).2, 2 * (rhoPos t).1 + 3 * (rhoPos t).2)

/-- Algorithm 2, the array `A'` after the first `t` iterations of step 3 (before the first one only
`A'[0, 0, z]` is set; the other entries are given the value 0 here). -/
def rhoSteps (A : StateArray) : Nat → StateArray
  | 0 => fun x y z => if x = 0 ∧ y = 0 then A x y z else false
  | t + 1 => fun x y z =>
      if (x, y) = rhoPos t then A x y (z - Fin.ofNat 64 ((t + 1) * (t + 2) / 2)) else rhoSteps A t x y z

/-- Algorithm 2: ρ. -/
def rho (A : StateArray) : StateArray := rhoSteps A 24

/-- Algorithm 3: π. -/
def pi (A : StateArray) : StateArray := fun x y z => A (x + 3 * y) x z

/-- Algorithm 4: χ. -/
def chi (A : StateArray) : StateArray :=
  fun x y z => A x y z ^^ ((A (x + 1) y z ^^ true) && A (x + 2) y z)

/-- One iteration of step 3 of Algorithm 5 (`R = 0 || R`, feedback of `R[8]` into bits 0, 4, 5 and 6, and
truncation to 8 bits). -/
def rcStep (R : Bits) : Bits :=
  let R := false :: R
  let f := R.getD 8 false
  [R.getD 0 false ^^ f, R.getD 1 false, R.getD 2 false, R.getD 3 false, R.getD 4 false ^^ f,
   R.getD 5 false ^^ f, R.getD 6 false ^^ f, R.getD 7 false]

/-- Algorithm 5: `rc(t)`. -/
def rc (t : Nat) : Bool :=
  if t % 255 = 0 then true
  else (Nat.repeat rcStep (t % 255) [true, false, false, false, false, false, false, false]).getD 0 false

/-- Algorithm 6, steps 2-3: `RC[2^j - 1] = rc(j + 7 i_r)` for `j = 0..l`, all other bits are 0. -/
def RC (ir : Nat) (z : Fin 64) : Bool :=
  (List.range 7).any fun j => z.val == 2 ^ j - 1 && rc (j + 7 * ir)

/-- Algorithm 6: ι. -/
def iota (A : StateArray) (ir : Nat) : StateArray :=
  fun x y z => if x = 0 ∧ y = 0 then A x y z ^^ RC ir z else A x y z

/-- Section 3.3: `Rnd(A, i_r) = ι(χ(π(ρ(θ(A)))), i_r)`. -/
def Rnd (A : StateArray) (ir : Nat) : StateArray := iota (chi (pi (rho (theta A)))) ir

/-- Algorithm 7, steps 1-2: rounds `i_r = 12 + 2l - n_r .. 12 + 2l - 1` with `l = 6`. -/
def rounds (nr : Nat) (A : StateArray) : StateArray := (List.range' (24 - nr) nr).foldl Rnd A

/-- Algorithm 7: KECCAK-p[1600, n_r], for `n_r ≤ 24`. -/
def keccakP (nr : Nat) (S : Bits) : Bits := toString (rounds nr (toArray S))

/-- Section 3.4: KECCAK-f[1600] = KECCAK-p[1600, 24]. -/
def keccakF : Bits → Bits := keccakP 24

end Spec.KeccakP
