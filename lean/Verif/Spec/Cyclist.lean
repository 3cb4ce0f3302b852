import Verif.Base.Bytes

/-!
# The Cyclist mode of operation and Xoodyak

Transcribed from "Xoodyak, a lightweight cryptographic scheme" (ToSC 2020/S1), Algorithms 2 and 3 (Cyclist[f, Rhash,
Rkin, Rkout, lratchet]), with the parameters of Xoodyak: f = Xoodoo[12] on 48 bytes, Rhash = 16, Rkin = 44, Rkout = 24,
lratchet = 16.  Nothing here refers to the model of the code.  Functions that consume a string work on the list of
its blocks.
-/

namespace Spec.Cyclist

/-- The state of a Cyclist object: the state of `f`, the phase (up or down) and the mode (keyed or hash). -/
structure St where
  s : Bytes
  up : Bool
  keyed : Bool

/-- The lengths of the blocks into which a string of `len` bytes is cut: all `n` bytes except the last one, which may be
shorter; there is at least one block. -/
def blockLengths (n len : Nat) : List Nat :=
  (List.range (max 1 ((len + n - 1) / n))).map fun i => min n (len - n * i)

/-- `Split(X, n)`: the blocks of `X`. -/
def split (X : Bytes) (n : Nat) : List Bytes :=
  (List.range (max 1 ((X.length + n - 1) / n))).map fun i => (X.drop (n * i)).take n

/-- `Rabsorb`. -/
def Rabsorb (S : St) : Nat := if S.keyed then 44 else 16

/-- `Rsqueeze`. -/
def Rsqueeze (S : St) : Nat := if S.keyed then 24 else 16

/-- `DOWN(Xi, cD)`: `s = s xor (Xi || 01 || 00^* || (cD if keyed else cD & 01))`, all on 48 bytes. -/
def down (S : St) (Xi : Bytes) (cD : Byte) : St :=
  { S with
    s := List.zipWith (· ^^^ ·) S.s
      (Xi ++ [1] ++ List.replicate (48 - Xi.length - 2) 0 ++ [if S.keyed then cD else cD &&& 1])
    up := false }

/-- `UP(|Yi|, cU)`: `s = f(s xor (00^* || cU))` in keyed mode, `s = f(s)` in hash mode; returns the first `|Yi|` bytes. -/
def goUp (f : Bytes → Bytes) (S : St) (n : Nat) (cU : Byte) : St × Bytes :=
  let s := f (if S.keyed then List.zipWith (· ^^^ ·) S.s (List.replicate 47 0 ++ [cU]) else S.s)
  ({ S with s := s, up := true }, s.take n)

/-- The loop of `ABSORBANY`: the domain byte goes with the first block only. -/
def absorbBlocks (f : Bytes → Bytes) : St → List Bytes → Byte → St
  | S, [], _ => S
  | S, Xi :: Xs, cD => absorbBlocks f (down (if S.up then S else (goUp f S 0 0).1) Xi cD) Xs 0

/-- `ABSORBANY(X, r, cD)`. -/
def absorbAny (f : Bytes → Bytes) (S : St) (X : Bytes) (r : Nat) (cD : Byte) : St :=
  absorbBlocks f S (split X r) cD

/-- `ABSORBKEY(K, id, counter)`. -/
def absorbKey (f : Bytes → Bytes) (S : St) (K id counter : Bytes) : St :=
  let S := { S with keyed := true }
  if K = [] then S
  else
    let S := absorbAny f S (K ++ id ++ [BitVec.ofNat 8 id.length]) 44 0x02
    if counter = [] then S else absorbAny f S counter 1 0x00

/-- The loop of `CRYPT`. -/
def cryptBlocks (f : Bytes → Bytes) (decrypt : Bool) : St → List Bytes → Byte → St × Bytes
  | S, [], _ => (S, [])
  | S, Ii :: Is, cU =>
    let u := goUp f S Ii.length cU
    let Oi := List.zipWith (· ^^^ ·) Ii u.2
    let r := cryptBlocks f decrypt (down u.1 (if decrypt then Oi else Ii) 0) Is 0
    (r.1, Oi ++ r.2)

/-- `CRYPT(I, decrypt)`. -/
def crypt (f : Bytes → Bytes) (S : St) (I : Bytes) (decrypt : Bool) : St × Bytes :=
  cryptBlocks f decrypt S (split I 24) 0x80

/-- The loop of `SQUEEZEANY`, over the lengths of the blocks after the first one. -/
def squeezeBlocks (f : Bytes → Bytes) : St → List Nat → St × Bytes
  | S, [] => (S, [])
  | S, n :: ns =>
    let u := goUp f (down S [] 0) n 0
    let r := squeezeBlocks f u.1 ns
    (r.1, u.2 ++ r.2)

/-- `SQUEEZEANY(l, cU)`. -/
def squeezeAny (f : Bytes → Bytes) (S : St) (l : Nat) (cU : Byte) : St × Bytes :=
  let ns := blockLengths (Rsqueeze S) l
  let u := goUp f S ns.head! cU
  let r := squeezeBlocks f u.1 ns.tail
  (r.1, u.2 ++ r.2)

/-- `CYCLIST(K, id, counter)`. -/
def cyclist (f : Bytes → Bytes) (K id counter : Bytes) : St :=
  let S : St := ⟨List.replicate 48 0, true, false⟩
  if K = [] then S else absorbKey f S K id counter

/-- The operations of the interface. -/
inductive Op where
  | absorb (X : Bytes)
  | encrypt (P : Bytes)
  | decrypt (C : Bytes)
  | squeeze (l : Nat)
  | squeezeKey (l : Nat)
  | ratchet

/-- One operation: the new state and the output (empty if the operation returns nothing). -/
def step (f : Bytes → Bytes) (S : St) : Op → St × Bytes
  | .absorb X => (absorbAny f S X (Rabsorb S) 0x03, [])
  | .encrypt P => crypt f S P false
  | .decrypt C => crypt f S C true
  | .squeeze l => squeezeAny f S l 0x40
  | .squeezeKey l => squeezeAny f S l 0x20
  | .ratchet =>
    let r := squeezeAny f S 16 0x10
    (absorbAny f r.1 r.2 (Rabsorb r.1) 0x00, [])

/-- A sequence of operations: the final state and the outputs. -/
def run (f : Bytes → Bytes) (S : St) : List Op → St × List Bytes
  | [] => (S, [])
  | op :: ops =>
    let r := step f S op
    let r' := run f r.1 ops
    (r'.1, r.2 :: r'.2)

end Spec.Cyclist
