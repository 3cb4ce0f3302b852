import Verif.Model.KeccakArmv6mU
import Verif.Proofs.KeccakArmv6mLoop

/-! ## the rounds of the ARMv6-M assembly with two states are those of the C code for 32 bits -/

namespace KeccakP1600.Arm6U

open Inplace32 (rol32 Half Effect order1)
open Arm32 (set r1 r2 r3 r4 r5 r6 r7 r8 r9 r10 r11 r12 lr)
open Arm6 (Aba0 Aba1 Abe0 Abe1 Abi0 Abi1 Abo0 Abo1 Abu0 Abu1 Aga0 Aga1 Age0 Age1 Agi0 Agi1 Ago0 Ago1 Agu0 Agu1 Aka0 Aka1 Ake0
  Ake1 Aki0 Aki1 Ako0 Ako1 Aku0 Aku1 Ama0 Ama1 Ame0 Ame1 Ami0 Ami1 Amo0 Amo1 Amu0 Amu1 Asa0 Asa1 Ase0 Ase1 Asi0 Asi1 Aso0 Aso1
  Asu0 Asu1)

/-- the registers, the state that is read, the state that is written, and the words on the stack -/
structure F where
  r : Nat → Word
  I : Words
  O : Words
  D : Nat → Word

namespace F

def ldr (d x : Nat) (f : F) : F := { f with r := set f.r d (f.I (Fin.ofNat 50 x)) }
def str (d x : Nat) (f : F) : F := { f with O := put f.O (Fin.ofNat 50 x) (f.r d) }
def ldrSp (d i : Nat) (f : F) : F := { f with r := set f.r d (f.D i) }
def strSp (d i : Nat) (f : F) : F := { f with D := set f.D i (f.r d) }
def mov (d n : Nat) (f : F) : F := { f with r := set f.r d (f.r n) }
def movi (d i : Nat) (f : F) : F := { f with r := set f.r d (BitVec.ofNat 32 i) }
def eor (d n k : Nat) (f : F) : F := { f with r := set f.r d (f.r n ^^^ f.r k) }
/-- `eor` with the operands exchanged -/
def eorC (d n k : Nat) (f : F) : F := { f with r := set f.r d (f.r k ^^^ f.r n) }
/-- `bic` with the operands exchanged -/
def bicC (d n k : Nat) (f : F) : F := { f with r := set f.r d (~~~ f.r k &&& f.r n) }
/-- `rors` with the rotation of the C code -/
def rors (d k : Nat) (f : F) : F :=
  { f with r := set f.r d (if 0 < (f.r k).toNat % 256 ∧ (f.r k).toNat % 256 < 32 then rol32 (f.r d) (32 - (f.r k).toNat % 256)
      else (f.r d).rotateRight ((f.r k).toNat % 256)) }

def te0m (oD p n : Nat) (f : F) : F := strSp n oD (eorC n n p (rors n r4 f))
def te1m (oD p n : Nat) (f : F) : F := strSp n oD (eorC n n p f)
def te0r (rD p n : Nat) (f : F) : F := mov rD n (eorC n n p (rors n r4 f))
def te1r (rD p n : Nat) (f : F) : F := mov rD n (eorC n n p f)
def ldrD (orD fD : Nat) (f : F) : F := if fD ≠ 0 then mov r6 orD f else ldrSp r6 orD f
def rot (b rt : Nat) (f : F) : F := if rt ≠ 0 then rors b r6 (movi r6 (32 - rt) f) else f
def xor5 (d b g k m s : Nat) (f : F) : F :=
  eor d d r6 (ldr r6 s (eor d d r6 (ldr r6 m (eor d d r6 (ldr r6 k (eor d d r6 (ldr r6 g (ldr d b f))))))))
def trp1 (b ofS orD fD rt : Nat) (f : F) : F := rot b rt (eor b b r6 (ldrD orD fD (ldr b ofS f)))
def trp5e (s0 d0 f0 t0 s1 d1 f1 t1 s2 d2 f2 t2 s3 d3 f3 t3 s4 d4 f4 t4 : Nat) (f : F) : F :=
  trp1 r5 s4 d4 f4 t4 (trp1 r4 s3 d3 f3 t3 (trp1 r3 s2 d2 f2 t2 (trp1 r2 s1 d1 f1 t1 (trp1 r1 s0 d0 f0 t0 f))))
def trp5o (s0 d0 f0 t0 s1 d1 f1 t1 s2 d2 f2 t2 s3 d3 f3 t3 s4 d4 f4 t4 : Nat) (f : F) : F :=
  trp1 r3 s2 d2 f2 t2 (trp1 r2 s1 d1 f1 t1 (trp1 r1 s0 d0 f0 t0 (trp1 r5 s4 d4 f4 t4 (trp1 r4 s3 d3 f3 t3 f))))
def chi0 (a b c : Nat) (f : F) : F := eorC r6 r6 a (bicC r6 r6 b (mov r6 c f))
def chi1 (a b c : Nat) (f : F) : F := eorC c c a (bicC c c b f)
def addRc (a : Nat) (T c : Word) (f : F) : F := eor a a r4 { f with r := set (set f.r r1 T) r4 c }
/-- the first four words of a row of five -/
def chio4 (o : Nat) (f : F) : F :=
  str r4 (o + 2) (chi1 r2 r3 r4 (str r5 (o + 4) (chi1 r3 r4 r5 (str r6 (o + 6) (chi0 r4 r5 r1 (str r6 (o + 8) (chi0 r5 r1 r2 f)))))))
def chio5 (o : Nat) (f : F) : F := str r3 (o + 0) (chi1 r1 r2 r3 (chio4 o f))
def chio5i (o : Nat) (T c : Word) (f : F) : F := str r3 (o + 0) (addRc r3 T c (chi1 r1 r2 r3 (chio4 o f)))

def theta (f : F) : F :=
  let f := movi r4 31 f
  let f := xor5 r1 Abe1 Age1 Ake1 Ame1 Ase1 f
  let f := xor5 r2 Abu0 Agu0 Aku0 Amu0 Asu0 f
  let f := mov r6 r1 f
  let f := te0r r8 r2 r6 f
  let f := xor5 r3 Abi1 Agi1 Aki1 Ami1 Asi1 f
  let f := te1m mDo1 r3 r2 f
  let f := xor5 r2 Aba0 Aga0 Aka0 Ama0 Asa0 f
  let f := te0r r10 r2 r3 f
  let f := xor5 r3 Abo1 Ago1 Ako1 Amo1 Aso1 f
  let f := te1m mDu1 r3 r2 f
  let f := xor5 r2 Abe0 Age0 Ake0 Ame0 Ase0 f
  let f := te0r r12 r2 r3 f
  let f := xor5 r3 Abu1 Agu1 Aku1 Amu1 Asu1 f
  let f := te1r r9 r3 r2 f
  let f := xor5 r2 Abi0 Agi0 Aki0 Ami0 Asi0 f
  let f := te0m mDo0 r2 r3 f
  let f := xor5 r3 Aba1 Aga1 Aka1 Ama1 Asa1 f
  let f := te1r r11 r3 r2 f
  let f := xor5 r2 Abo0 Ago0 Ako0 Amo0 Aso0 f
  let f := te0m mDu0 r2 r3 f
  te1r lr r1 r2 f
def rest1 (T c0 c1 : Word) (f : F) : F :=
  let f := trp5e Abi0 r12 1 31 Ago1 mDo1 0 28 Aku1 mDu1 0 20 Ama1 r9 1 21 Ase0 r10 1 1 f
  let f := chio5 Asa0 f
  let f := trp5o Abi1 lr 1 31 Ago0 mDo0 0 27 Aku0 mDu0 0 19 Ama0 r8 1 20 Ase1 r11 1 1 f
  let f := chio5 Asa1 f
  let f := trp5e Abu1 mDu1 0 14 Aga0 r8 1 18 Ake0 r10 1 5 Ami1 lr 1 8 Aso0 mDo0 0 28 f
  let f := chio5 Ama0 f
  let f := trp5o Abu0 mDu0 0 13 Aga1 r9 1 18 Ake1 r11 1 5 Ami0 r12 1 7 Aso1 mDo1 0 28 f
  let f := chio5 Ama1 f
  let f := trp5e Abe1 r11 1 1 Agi0 r12 1 3 Ako1 mDo1 0 13 Amu0 mDu0 0 4 Asa0 r8 1 9 f
  let f := chio5 Aka0 f
  let f := trp5o Abe0 r10 1 0 Agi1 lr 1 3 Ako0 mDo0 0 12 Amu1 mDu1 0 4 Asa1 r9 1 9 f
  let f := chio5 Aka1 f
  let f := trp5e Abo0 mDo0 0 14 Agu0 mDu0 0 10 Aka1 r9 1 2 Ame1 r11 1 23 Asi1 lr 1 31 f
  let f := chio5 Aga0 f
  let f := trp5o Abo1 mDo1 0 14 Agu1 mDu1 0 10 Aka0 r8 1 1 Ame0 r10 1 22 Asi0 r12 1 30 f
  let f := chio5 Aga1 f
  let f := trp5e Aba0 r8 1 0 Age0 r10 1 22 Aki1 lr 1 22 Amo1 mDo1 0 11 Asu0 mDu0 0 7 f
  let f := chio5i Aba0 T c0 f
  let f := trp5o Aba1 r9 1 0 Age1 r11 1 22 Aki0 r12 1 21 Amo0 mDo0 0 10 Asu1 mDu1 0 7 f
  chio5i Aba1 T c1 f
def rest2 (T c0 c1 : Word) (f : F) : F :=
  let f := trp5e Abi0 r12 1 31 Ago1 mDo1 0 28 Aku1 mDu1 0 20 Ama1 r9 1 21 Ase0 r10 1 1 f
  let f := chio5 Asa0 f
  let f := trp5e Abi1 lr 1 31 Ago0 mDo0 0 27 Aku0 mDu0 0 19 Ama0 r8 1 20 Ase1 r11 1 1 f
  let f := chio5 Asa1 f
  let f := trp5e Abu1 mDu1 0 14 Aga0 r8 1 18 Ake0 r10 1 5 Ami1 lr 1 8 Aso0 mDo0 0 28 f
  let f := chio5 Ama0 f
  let f := trp5e Abu0 mDu0 0 13 Aga1 r9 1 18 Ake1 r11 1 5 Ami0 r12 1 7 Aso1 mDo1 0 28 f
  let f := chio5 Ama1 f
  let f := trp5e Abe1 r11 1 1 Agi0 r12 1 3 Ako1 mDo1 0 13 Amu0 mDu0 0 4 Asa0 r8 1 9 f
  let f := chio5 Aka0 f
  let f := trp5e Abe0 r10 1 0 Agi1 lr 1 3 Ako0 mDo0 0 12 Amu1 mDu1 0 4 Asa1 r9 1 9 f
  let f := chio5 Aka1 f
  let f := trp5e Abo0 mDo0 0 14 Agu0 mDu0 0 10 Aka1 r9 1 2 Ame1 r11 1 23 Asi1 lr 1 31 f
  let f := chio5 Aga0 f
  let f := trp5e Abo1 mDo1 0 14 Agu1 mDu1 0 10 Aka0 r8 1 1 Ame0 r10 1 22 Asi0 r12 1 30 f
  let f := chio5 Aga1 f
  let f := trp5e Aba0 r8 1 0 Age0 r10 1 22 Aki1 lr 1 22 Amo1 mDo1 0 11 Asu0 mDu0 0 7 f
  let f := chio5i Aba0 T c0 f
  let f := trp5e Aba1 r9 1 0 Age1 r11 1 22 Aki0 r12 1 21 Amo0 mDo0 0 10 Asu1 mDu1 0 7 f
  chio5i Aba1 T c1 f

/-- the effect of theta, where it is found -/
def effectOf (f : F) : Effect := ⟨f.r 8, f.r 9, f.r 10, f.r 11, f.r 12, f.r 14, f.D 50, f.D 51, f.D 52, f.D 53⟩

set_option maxRecDepth 20000 in
theorem theta_eq (f : F) : (theta f).I = f.I ∧ effectOf (theta f) = Inplace32.effect0 (Inplace32.load f.I) := ⟨rfl, rfl⟩

set_option maxRecDepth 20000 in
theorem rest1_eq (T c0 c1 : Word) (f : F) : (rest1 T c0 c1 f).I = f.I ∧ (rest1 T c0 c1 f).r r1 = T ∧
    (rest1 T c0 c1 f).O = Inplace32.store (order1 (Inplace32.rest0 (effectOf f) c0 c1 (Inplace32.load f.I))) := by
  refine ⟨rfl, rfl, ?_⟩
  funext i
  fin_cases i <;> rfl

set_option maxRecDepth 20000 in
theorem rest2_eq (T c0 c1 : Word) (f : F) : (rest2 T c0 c1 f).I = f.I ∧ (rest2 T c0 c1 f).r r1 = T ∧
    (rest2 T c0 c1 f).O = Inplace32.store (order1 (Inplace32.rest0 (effectOf f) c0 c1 (Inplace32.load f.I))) := by
  refine ⟨rfl, rfl, ?_⟩
  funext i
  fin_cases i <;> rfl

/-- a round, from one state to the other -/
theorem round1_O (T c0 c1 : Word) (f : F) : (rest1 T c0 c1 (theta f)).O = Inplace32.roundC c0 c1 f.I := by
  rw [(rest1_eq T c0 c1 (theta f)).2.2, (theta_eq f).1, (theta_eq f).2]
  have h := Inplace32.round0_eq c0 c1 (Inplace32.load f.I)
  rw [Inplace32.store_load] at h
  exact h

theorem round2_O (T c0 c1 : Word) (f : F) : (rest2 T c0 c1 (theta f)).O = Inplace32.roundC c0 c1 f.I := by
  rw [(rest2_eq T c0 c1 (theta f)).2.2, (theta_eq f).1, (theta_eq f).2]
  have h := Inplace32.round0_eq c0 c1 (Inplace32.load f.I)
  rw [Inplace32.store_load] at h
  exact h

end F

/-! ### the machine of the program, over the one above -/

/-- the stack: a state, and above it the words on the stack, of which `mRC` is `T` -/
def stack (W : Words) (D : Nat → Word) (T : Word) : Nat → Word :=
  fun i => if i < 50 then W (Fin.ofNat 50 i) else if i = mRC then T else D i

/-- the three pointers -/
structure P3 where
  p0 : Ptr
  p5 : Ptr
  p7 : Ptr

/-- the machine, where the state that is read is on the stack if `b` -/
def lift (ok b : Bool) (f : F) (T : Word) (P : P3) : M :=
  ⟨f.r, if b then f.O else f.I, stack (if b then f.I else f.O) f.D T, P.p0, P.p5, P.p7, ok⟩

theorem set_stack (W : Words) (D : Nat → Word) (T : Word) (x : Nat) (v : Word) (h : x < 50) :
    set (stack W D T) x v = stack (put W (Fin.ofNat 50 x) v) D T := by
  funext i
  simp only [Arm32.set, stack, put]
  by_cases e : i = x
  · subst e
    rw [if_pos rfl, if_pos h, if_pos rfl]
  · rw [if_neg e]
    by_cases hi : i < 50
    · rw [if_pos hi, if_pos hi, if_neg]
      intro hc
      have := congrArg Fin.val hc
      simp only [Fin.ofNat, Nat.mod_eq_of_lt hi, Nat.mod_eq_of_lt h] at this
      exact e this
    · rw [if_neg hi, if_neg hi]

theorem set_stackD (W : Words) (D : Nat → Word) (T : Word) (x : Nat) (v : Word) (h : 50 ≤ x) (h' : x ≠ mRC) :
    set (stack W D T) x v = stack W (set D x v) T := by
  funext i
  simp only [Arm32.set, stack]
  by_cases e : i = x
  · subst e
    rw [if_pos rfl, if_neg (by omega), if_neg h', if_pos rfl]
  · simp only [if_neg e]

theorem set_stackT (W : Words) (D : Nat → Word) (T v : Word) : set (stack W D T) mRC v = stack W D v := by
  funext i
  simp only [Arm32.set, stack]
  by_cases e : i = mRC
  · subst e
    rw [if_pos rfl, if_neg (by decide), if_pos rfl]
  · simp only [if_neg e]

theorem ldr_in (ok b : Bool) (f : F) (T : Word) (P : P3) (d off x : Nat) (h : off + x < 50) :
    ldr d ⟨b, off⟩ x (lift ok b f T P) = lift ok b (f.ldr d (off + x)) T P := by
  unfold ldr F.ldr lift
  dsimp only
  rw [decide_eq_true h, show stack (if b = true then f.I else f.O) f.D T (off + x) = (if b = true then f.I else f.O) (Fin.ofNat 50 (off + x))
    from by rw [stack, if_pos h]]
  cases b <;> rfl

theorem str_out (ok b : Bool) (f : F) (T : Word) (P : P3) (d off x : Nat) (h : off + x < 50) :
    str d ⟨!b, off⟩ x (lift ok b f T P) = lift ok b (f.str d (off + x)) T P := by
  unfold str F.str lift
  dsimp only
  rw [decide_eq_true h, set_stack _ _ _ _ _ h]
  cases b <;> rfl

/-- `f` acts as `g`, moving the pointers from `P` to `P'`; all accesses are inside the states and the table if `v` -/
def Lifts (b : Bool) (T : Word) (v : Bool) (P P' : P3) (f : M → M) (g : F → F) : Prop :=
  ∀ fl ok, f (lift ok b fl T P) = lift (v && ok) b (g fl) T P'

theorem Lifts.comp {b : Bool} {T : Word} {v v' : Bool} {P P' P'' : P3} {f f' : M → M} {g g' : F → F} (h : Lifts b T v P P' f g)
    (k : Lifts b T v' P' P'' f' g') : Lifts b T (v' && v) P P'' (fun m => f' (f m)) (fun m => g' (g m)) := fun fl ok => by
  show f' (f _) = _
  rw [h, k, Bool.and_assoc]

section
variable (b : Bool) (T : Word) (P : P3)

theorem mov_l (d n : Nat) : Lifts b T true P P (mov d n) (F.mov d n) := fun _ _ => rfl
theorem movi_l (d n : Nat) : Lifts b T true P P (movi d n) (F.movi d n) := fun _ _ => rfl
theorem eor_l (d n k : Nat) : Lifts b T true P P (eor d n k) (F.eor d n k) := fun _ _ => rfl
theorem eorC_l (d n k : Nat) : Lifts b T true P P (eor d n k) (F.eorC d n k) := fun f ok => by
  rw [F.eorC, BitVec.xor_comm]; rfl
theorem bic_l (d n k : Nat) : Lifts b T true P P (bic d n k) (F.bicC d n k) := fun f ok => by
  rw [F.bicC, BitVec.and_comm]; rfl
theorem rors_l (d k : Nat) : Lifts b T true P P (rors d k) (F.rors d k) := fun f ok => by
  unfold F.rors
  split
  · rename_i h
    rw [← Arm32.ror_eq _ _ (show 0 < 32 - (f.r k).toNat % 256 by omega) (by omega),
      show 32 - (32 - (f.r k).toNat % 256) = (f.r k).toNat % 256 by omega]
    rfl
  · rfl
theorem ldrSp_l (d i : Nat) (h : 50 ≤ i) (h' : i ≠ mRC) : Lifts b T true P P (ldrSp d i) (F.ldrSp d i) := fun f ok => by
  unfold ldrSp F.ldrSp lift
  dsimp only
  rw [show stack (if b = true then f.I else f.O) f.D T i = f.D i by rw [stack, if_neg (by omega), if_neg h']]
  rfl
theorem strSp_l (d i : Nat) (h : 50 ≤ i) (h' : i ≠ mRC) : Lifts b T true P P (strSp d i) (F.strSp d i) := fun f ok => by
  unfold strSp F.strSp lift
  dsimp only
  rw [set_stackD _ _ _ _ _ h h']
  rfl
theorem te0m_l (oD p n : Nat) (h : 50 ≤ oD) (h' : oD ≠ mRC) : Lifts b T true P P (te0m oD p n) (F.te0m oD p n) :=
  ((rors_l b T P n r4).comp (eorC_l b T P n n p)).comp (strSp_l b T P n oD h h')
theorem te1m_l (oD p n : Nat) (h : 50 ≤ oD) (h' : oD ≠ mRC) : Lifts b T true P P (te1m oD p n) (F.te1m oD p n) :=
  (eorC_l b T P n n p).comp (strSp_l b T P n oD h h')
theorem te0r_l (d p n : Nat) : Lifts b T true P P (te0r d p n) (F.te0r d p n) :=
  ((rors_l b T P n r4).comp (eorC_l b T P n n p)).comp (mov_l b T P d n)
theorem te1r_l (d p n : Nat) : Lifts b T true P P (te1r d p n) (F.te1r d p n) :=
  (eorC_l b T P n n p).comp (mov_l b T P d n)

/-- where the effect of theta may be: in a register, or in a word on the stack -/
def InD (d fD : Nat) : Prop := fD ≠ 0 ∨ (50 ≤ d ∧ d ≠ mRC)

instance (d fD : Nat) : Decidable (InD d fD) := inferInstanceAs (Decidable (_ ∨ _))

theorem ldrD_l (d fD : Nat) (h : InD d fD) : Lifts b T true P P (ldrD d fD) (F.ldrD d fD) := fun f ok => by
  unfold ldrD F.ldrD
  by_cases e : fD ≠ 0
  · rw [if_pos e, if_pos e]; rfl
  · rw [if_neg e, if_neg e]
    obtain h | h := h
    · exact absurd h e
    · exact ldrSp_l b T P r6 d h.1 h.2 f ok
theorem rot_l (d rt : Nat) : Lifts b T true P P (rot d rt) (F.rot d rt) := fun f ok => by
  unfold rot F.rot
  split
  · exact ((movi_l b T P r6 (32 - rt)).comp (rors_l b T P d r6)) f ok
  · rfl
theorem chi0_l (a c d : Nat) : Lifts b T true P P (chi0 a c d) (F.chi0 a c d) :=
  ((mov_l b T P r6 d).comp (bic_l b T P r6 r6 c)).comp (eorC_l b T P r6 r6 a)
theorem chi1_l (a c d : Nat) : Lifts b T true P P (chi1 a c d 0xFF) (F.chi1 a c d) :=
  (bic_l b T P d d c).comp (eorC_l b T P d d a)

theorem addRc_l (a iota : Nat) (h : iota ≠ 0xFF) :
    Lifts b T (Arm6.rc (T.toNat + iota)).isSome P P (addRc a iota) (F.addRc a T ((Arm6.rc (T.toNat + iota)).getD 0)) := fun f ok => by
  have e : ldrSp r1 mRC (lift ok b f T P) = lift ok b { f with r := set f.r r1 T } T P := by
    unfold ldrSp lift
    dsimp only
    rw [show stack (if b = true then f.I else f.O) f.D T mRC = T by rw [stack, if_neg (by decide), if_pos rfl]]
  rw [addRc, if_pos h]
  simp only
  rw [e]
  rfl

theorem chi1i_l (a c d iota : Nat) (h : iota ≠ 0xFF) :
    Lifts b T (Arm6.rc (T.toNat + iota)).isSome P P (chi1 a c d iota)
      (fun f => F.addRc d T ((Arm6.rc (T.toNat + iota)).getD 0) (F.chi1 a c d f)) := by
  have h :=
  ((bic_l b T P d d c).comp (eorC_l b T P d d a)).comp (addRc_l b T P d iota h)
  simp only [Bool.and_true] at h
  exact h

end

/-! #### one round in the loop -/

namespace U1

/-- the pointers, in the round -/
def at1 (b : Bool) (p0 p7 : Nat) : P3 := ⟨⟨b, p0⟩, ⟨b, 30⟩, ⟨!b, p7⟩⟩

section
variable (b : Bool) (T : Word)

theorem ldr0_l (d off x p7 : Nat) (h : off + x < 50) :
    Lifts b T true (at1 b off p7) (at1 b off p7) (fun m => ldr d m.p0 x m) (F.ldr d (off + x)) := fun f ok => ldr_in ok b f T _ d off x h
theorem ldr5_l (d x p0 p7 : Nat) (h : 30 ≤ x) (h' : x < 50) :
    Lifts b T true (at1 b p0 p7) (at1 b p0 p7) (fun m => ldr d m.p5 (x - Ama0) m) (F.ldr d x) := fun f ok => by
  have := ldr_in ok b f T (at1 b p0 p7) d 30 (x - Ama0) (by show 30 + (x - 30) < 50; omega)
  rw [show 30 + (x - Ama0) = x from show 30 + (x - 30) = x by omega] at this
  exact this
theorem str7_l (d off x p0 : Nat) (h : off + x < 50) :
    Lifts b T true (at1 b p0 off) (at1 b p0 off) (fun m => str d m.p7 x m) (F.str d (off + x)) := fun f ok => str_out ok b f T _ d off x h

theorem addR7_l (p0 : Nat) : Lifts b T true (at1 b p0 0) (at1 b p0 30) (addR7 Ama0) id := fun f ok => by
  unfold addR7
  rw [show XoodooArm.add32 (lift ok b f T (at1 b p0 0)).p7.off Ama0 = 30 from show XoodooArm.add32 0 30 = 30 by decide]
  rfl
theorem subR7_l (p0 : Nat) : Lifts b T true (at1 b p0 30) (at1 b p0 0) (subR7 Ama0) id := fun f ok => by
  unfold subR7
  rw [show XoodooArm.sub32 (lift ok b f T (at1 b p0 30)).p7.off Ama0 = 0 from show XoodooArm.sub32 30 30 = 0 by decide]
  rfl
theorem addR0_l (p7 : Nat) : Lifts b T true (at1 b 0 p7) (at1 b 30 p7) (addR0 Ama0) id := fun f ok => by
  unfold addR0
  rw [show XoodooArm.add32 (lift ok b f T (at1 b 0 p7)).p0.off Ama0 = 30 from show XoodooArm.add32 0 30 = 30 by decide]
  rfl
theorem subR0_l (p7 : Nat) : Lifts b T true (at1 b 30 p7) (at1 b 0 p7) (subR0 Ama0) id := fun f ok => by
  unfold subR0
  rw [show XoodooArm.sub32 (lift ok b f T (at1 b 30 p7)).p0.off Ama0 = 0 from show XoodooArm.sub32 30 30 = 0 by decide]
  rfl
theorem setR5_l (ok : Bool) (f : F) (q : Ptr) : setR5 (lift ok b f T ⟨⟨b, 0⟩, q, ⟨!b, 0⟩⟩) = lift ok b f T (at1 b 0 0) := by
  unfold setR5
  rw [show XoodooArm.add32 Ama0 (lift ok b f T ⟨⟨b, 0⟩, q, ⟨!b, 0⟩⟩).p0.off = 30 from show XoodooArm.add32 30 0 = 30 by decide]
  rfl

theorem xor5_l (d c g k m s : Nat) (hc : c < 50) (hg : g < 50) (hk : k < 50) (hm : 30 ≤ m) (hm' : m < 50) (hs : 30 ≤ s) (hs' : s < 50) :
    Lifts b T true (at1 b 0 0) (at1 b 0 0) (xor5 d c g k m s) (F.xor5 d c g k m s) := by
  have h := ldr0_l b T d 0 c 0 (by omega)
  have h := h.comp (ldr0_l b T r6 0 g 0 (by omega))
  have h := h.comp (eor_l b T _ d d r6)
  have h := h.comp (ldr0_l b T r6 0 k 0 (by omega))
  have h := h.comp (eor_l b T _ d d r6)
  have h := h.comp (ldr5_l b T r6 m 0 0 hm hm')
  have h := h.comp (eor_l b T _ d d r6)
  have h := h.comp (ldr5_l b T r6 s 0 0 hs hs')
  have h := h.comp (eor_l b T _ d d r6)
  simp only [Nat.zero_add] at h
  exact h

theorem trp1_l (c off x d fD rt p7 : Nat) (h : off + x < 50) (hd : InD d fD) :
    Lifts b T true (at1 b off p7) (at1 b off p7) (trp1 c x d fD rt) (F.trp1 c (off + x) d fD rt) :=
  (((ldr0_l b T c off x p7 h).comp (ldrD_l b T _ d fD hd)).comp (eor_l b T _ c c r6)).comp (rot_l b T _ c rt)

theorem trp1_h (c x d fD rt p7 : Nat) (h : 30 ≤ x) (h' : x < 50) (hd : InD d fD) :
    Lifts b T true (at1 b 30 p7) (at1 b 30 p7) (trp1 c (x - Ama0) d fD rt) (F.trp1 c x d fD rt) := by
  have := trp1_l b T c 30 (x - Ama0) d fD rt p7 (by show 30 + (x - 30) < 50; omega) hd
  rw [show 30 + (x - Ama0) = x from show 30 + (x - 30) = x by omega] at this
  exact this

theorem trp1_0 (c x d fD rt p7 : Nat) (h : x < 50) (hd : InD d fD) :
    Lifts b T true (at1 b 0 p7) (at1 b 0 p7) (trp1 c x d fD rt) (F.trp1 c x d fD rt) := by
  have := trp1_l b T c 0 x d fD rt p7 (by omega) hd
  rw [Nat.zero_add] at this
  exact this

/-- what the parameters of `trp5e` and `trp5o` satisfy -/
def Ok5 (s0 d0 f0 s1 d1 f1 s2 d2 f2 s3 d3 f3 s4 d4 f4 : Nat) : Prop :=
  (s0 < 50 ∧ s1 < 50 ∧ s2 < 50 ∧ 30 ≤ s3 ∧ s3 < 50 ∧ 30 ≤ s4 ∧ s4 < 50) ∧ InD d0 f0 ∧ InD d1 f1 ∧ InD d2 f2 ∧ InD d3 f3 ∧ InD d4 f4

instance (s0 d0 f0 s1 d1 f1 s2 d2 f2 s3 d3 f3 s4 d4 f4 : Nat) : Decidable (Ok5 s0 d0 f0 s1 d1 f1 s2 d2 f2 s3 d3 f3 s4 d4 f4) :=
  inferInstanceAs (Decidable (_ ∧ _))

theorem trp5e_l (p7 s0 d0 f0 t0 s1 d1 f1 t1 s2 d2 f2 t2 s3 d3 f3 t3 s4 d4 f4 t4 : Nat)
    (h : Ok5 s0 d0 f0 s1 d1 f1 s2 d2 f2 s3 d3 f3 s4 d4 f4) :
    Lifts b T true (at1 b 0 p7) (at1 b 30 p7) (trp5e s0 d0 f0 t0 s1 d1 f1 t1 s2 d2 f2 t2 s3 d3 f3 t3 s4 d4 f4 t4)
      (F.trp5e s0 d0 f0 t0 s1 d1 f1 t1 s2 d2 f2 t2 s3 d3 f3 t3 s4 d4 f4 t4) := by
  obtain ⟨⟨h0, h1, h2, h3, h3', h4, h4'⟩, e0, e1, e2, e3, e4⟩ := h
  exact (((((trp1_0 b T r1 s0 d0 f0 t0 p7 h0 e0).comp (trp1_0 b T r2 s1 d1 f1 t1 p7 h1 e1)).comp
    (trp1_0 b T r3 s2 d2 f2 t2 p7 h2 e2)).comp (addR0_l b T p7)).comp (trp1_h b T r4 s3 d3 f3 t3 p7 h3 h3' e3)).comp
    (trp1_h b T r5 s4 d4 f4 t4 p7 h4 h4' e4)

theorem trp5o_l (p7 s0 d0 f0 t0 s1 d1 f1 t1 s2 d2 f2 t2 s3 d3 f3 t3 s4 d4 f4 t4 : Nat)
    (h : Ok5 s0 d0 f0 s1 d1 f1 s2 d2 f2 s3 d3 f3 s4 d4 f4) :
    Lifts b T true (at1 b 30 p7) (at1 b 0 p7) (trp5o s0 d0 f0 t0 s1 d1 f1 t1 s2 d2 f2 t2 s3 d3 f3 t3 s4 d4 f4 t4)
      (F.trp5o s0 d0 f0 t0 s1 d1 f1 t1 s2 d2 f2 t2 s3 d3 f3 t3 s4 d4 f4 t4) := by
  obtain ⟨⟨h0, h1, h2, h3, h3', h4, h4'⟩, e0, e1, e2, e3, e4⟩ := h
  exact (((((trp1_h b T r4 s3 d3 f3 t3 p7 h3 h3' e3).comp (trp1_h b T r5 s4 d4 f4 t4 p7 h4 h4' e4)).comp (subR0_l b T p7)).comp
    (trp1_0 b T r1 s0 d0 f0 t0 p7 h0 e0)).comp (trp1_0 b T r2 s1 d1 f1 t1 p7 h1 e1)).comp (trp1_0 b T r3 s2 d2 f2 t2 p7 h2 e2)

theorem chio4_l (p0 off o : Nat) (h : off + o + 8 < 50) :
    Lifts b T true (at1 b p0 off) (at1 b p0 off)
      (fun m => chio1 (o + 2) r2 r3 r4 0xFF 1 (chio1 (o + 4) r3 r4 r5 0xFF 1 (chio1 (o + 6) r4 r5 r1 0xFF 0 (chio1 (o + 8) r5 r1 r2 0xFF 0 m))))
      (F.chio4 (off + o)) := by
  have h' := (chi0_l b T (at1 b p0 off) r5 r1 r2).comp (str7_l b T r6 off (o + 8) p0 (by omega))
  have h' := (h'.comp (chi0_l b T _ r4 r5 r1)).comp (str7_l b T r6 off (o + 6) p0 (by omega))
  have h' := (h'.comp (chi1_l b T _ r3 r4 r5)).comp (str7_l b T r5 off (o + 4) p0 (by omega))
  have h' := (h'.comp (chi1_l b T _ r2 r3 r4)).comp (str7_l b T r4 off (o + 2) p0 (by omega))
  exact h'

theorem chio5_l (p0 off o : Nat) (h : off + o + 8 < 50) :
    Lifts b T true (at1 b p0 off) (at1 b p0 off) (chio5 o 0xFF) (F.chio5 (off + o)) :=
  ((chio4_l b T p0 off o h).comp (chi1_l b T _ r1 r2 r3)).comp (str7_l b T r3 off (o + 0) p0 (by omega))

theorem chio5i_l (p0 off o iota : Nat) (h : off + o + 8 < 50) (hi : iota ≠ 0xFF) :
    Lifts b T (Arm6.rc (T.toNat + iota)).isSome (at1 b p0 off) (at1 b p0 off) (chio5 o iota)
      (F.chio5i (off + o) T ((Arm6.rc (T.toNat + iota)).getD 0)) := by
  have h := ((chio4_l b T p0 off o h).comp (chi1i_l b T _ r1 r2 r3 iota hi)).comp (str7_l b T r3 off (o + 0) p0 (by omega))
  rw [Bool.and_true, Bool.true_and] at h
  exact h

set_option maxRecDepth 20000 in
theorem theta_l (ok : Bool) (f : F) (q : Ptr) : theta (lift ok b f T ⟨⟨b, 0⟩, q, ⟨!b, 0⟩⟩) = lift ok b (F.theta f) T (at1 b 0 0) := by
  have h := xor5_l b T r1 Abe1 Age1 Ake1 Ame1 Ase1 (by decide) (by decide) (by decide) (by decide) (by decide) (by decide) (by decide)
  have h := h.comp (xor5_l b T r2 Abu0 Agu0 Aku0 Amu0 Asu0 (by decide) (by decide) (by decide) (by decide) (by decide) (by decide) (by decide))
  have h := h.comp (mov_l b T _ r6 r1)
  have h := h.comp (te0r_l b T _ r8 r2 r6)
  have h := h.comp (xor5_l b T r3 Abi1 Agi1 Aki1 Ami1 Asi1 (by decide) (by decide) (by decide) (by decide) (by decide) (by decide) (by decide))
  have h := h.comp (te1m_l b T _ mDo1 r3 r2 (by decide) (by decide))
  have h := h.comp (xor5_l b T r2 Aba0 Aga0 Aka0 Ama0 Asa0 (by decide) (by decide) (by decide) (by decide) (by decide) (by decide) (by decide))
  have h := h.comp (te0r_l b T _ r10 r2 r3)
  have h := h.comp (xor5_l b T r3 Abo1 Ago1 Ako1 Amo1 Aso1 (by decide) (by decide) (by decide) (by decide) (by decide) (by decide) (by decide))
  have h := h.comp (te1m_l b T _ mDu1 r3 r2 (by decide) (by decide))
  have h := h.comp (xor5_l b T r2 Abe0 Age0 Ake0 Ame0 Ase0 (by decide) (by decide) (by decide) (by decide) (by decide) (by decide) (by decide))
  have h := h.comp (te0r_l b T _ r12 r2 r3)
  have h := h.comp (xor5_l b T r3 Abu1 Agu1 Aku1 Amu1 Asu1 (by decide) (by decide) (by decide) (by decide) (by decide) (by decide) (by decide))
  have h := h.comp (te1r_l b T _ r9 r3 r2)
  have h := h.comp (xor5_l b T r2 Abi0 Agi0 Aki0 Ami0 Asi0 (by decide) (by decide) (by decide) (by decide) (by decide) (by decide) (by decide))
  have h := h.comp (te0m_l b T _ mDo0 r2 r3 (by decide) (by decide))
  have h := h.comp (xor5_l b T r3 Aba1 Aga1 Aka1 Ama1 Asa1 (by decide) (by decide) (by decide) (by decide) (by decide) (by decide) (by decide))
  have h := h.comp (te1r_l b T _ r11 r3 r2)
  have h := h.comp (xor5_l b T r2 Abo0 Ago0 Ako0 Amo0 Aso0 (by decide) (by decide) (by decide) (by decide) (by decide) (by decide) (by decide))
  have h := h.comp (te0m_l b T _ mDu0 r2 r3 (by decide) (by decide))
  have h := h.comp (te1r_l b T _ lr r1 r2)
  have e := h (F.movi r4 31 f) ok
  rw [← setR5_l b T _ _ q] at e
  exact e

set_option maxRecDepth 20000 in
theorem rest_l :
    Lifts b T ((Arm6.rc (T.toNat + 4)).isSome && (Arm6.rc (T.toNat + 0)).isSome) (at1 b 0 0) (at1 b 0 0) rest
      (F.rest1 T ((Arm6.rc (T.toNat + 0)).getD 0) ((Arm6.rc (T.toNat + 4)).getD 0)) := by
  have h := addR7_l b T 0
  have h := h.comp (trp5e_l b T 30 Abi0 r12 1 31 Ago1 mDo1 0 28 Aku1 mDu1 0 20 Ama1 r9 1 21 Ase0 r10 1 1 (by decide))
  have h := h.comp (chio5_l b T 30 30 (Asa0 - Ama0) (by decide))
  have h := h.comp (trp5o_l b T 30 Abi1 lr 1 31 Ago0 mDo0 0 27 Aku0 mDu0 0 19 Ama0 r8 1 20 Ase1 r11 1 1 (by decide))
  have h := h.comp (chio5_l b T 0 30 (Asa1 - Ama0) (by decide))
  have h := h.comp (trp5e_l b T 30 Abu1 mDu1 0 14 Aga0 r8 1 18 Ake0 r10 1 5 Ami1 lr 1 8 Aso0 mDo0 0 28 (by decide))
  have h := h.comp (chio5_l b T 30 30 (Ama0 - Ama0) (by decide))
  have h := h.comp (trp5o_l b T 30 Abu0 mDu0 0 13 Aga1 r9 1 18 Ake1 r11 1 5 Ami0 r12 1 7 Aso1 mDo1 0 28 (by decide))
  have h := h.comp (chio5_l b T 0 30 (Ama1 - Ama0) (by decide))
  have h := h.comp (subR7_l b T 0)
  have h := h.comp (trp5e_l b T 0 Abe1 r11 1 1 Agi0 r12 1 3 Ako1 mDo1 0 13 Amu0 mDu0 0 4 Asa0 r8 1 9 (by decide))
  have h := h.comp (chio5_l b T 30 0 Aka0 (by decide))
  have h := h.comp (trp5o_l b T 0 Abe0 r10 1 0 Agi1 lr 1 3 Ako0 mDo0 0 12 Amu1 mDu1 0 4 Asa1 r9 1 9 (by decide))
  have h := h.comp (chio5_l b T 0 0 Aka1 (by decide))
  have h := h.comp (trp5e_l b T 0 Abo0 mDo0 0 14 Agu0 mDu0 0 10 Aka1 r9 1 2 Ame1 r11 1 23 Asi1 lr 1 31 (by decide))
  have h := h.comp (chio5_l b T 30 0 Aga0 (by decide))
  have h := h.comp (trp5o_l b T 0 Abo1 mDo1 0 14 Agu1 mDu1 0 10 Aka0 r8 1 1 Ame0 r10 1 22 Asi0 r12 1 30 (by decide))
  have h := h.comp (chio5_l b T 0 0 Aga1 (by decide))
  have h := h.comp (trp5e_l b T 0 Aba0 r8 1 0 Age0 r10 1 22 Aki1 lr 1 22 Amo1 mDo1 0 11 Asu0 mDu0 0 7 (by decide))
  have h := h.comp (chio5i_l b T 30 0 Aba0 0 (by decide) (by decide))
  have h := h.comp (trp5o_l b T 0 Aba1 r9 1 0 Age1 r11 1 22 Aki0 r12 1 21 Amo0 mDo0 0 10 Asu1 mDu1 0 7 (by decide))
  have h := h.comp (chio5i_l b T 0 0 Aba1 4 (by decide) (by decide))
  simp only [Bool.and_true, Bool.true_and] at h
  exact h

/-- the round: the other state becomes the result, and `r1` the pointer to the constants -/
theorem round_l (f : F) (q : Ptr) (c0 c1 : Word) (h0 : Arm6.rc (T.toNat + 0) = some c0) (h1 : Arm6.rc (T.toNat + 4) = some c1) :
    ∃ f' : F, round (lift true b f T ⟨⟨b, 0⟩, q, ⟨!b, 0⟩⟩) = lift true b f' T (at1 b 0 0) ∧ f'.r r1 = T ∧
      f'.O = Inplace32.roundC c0 c1 f.I :=
  ⟨F.rest1 T c0 c1 (F.theta f), by rw [round, theta_l, rest_l, h0, h1]; rfl, (F.rest1_eq T c0 c1 _).2.1, F.round1_O T c0 c1 f⟩

/-- with a pointer to the constants outside of the table -/
theorem round_none (ok : Bool) (f : F) (q : Ptr) (h : Arm6.rc (T.toNat + 4) = none) :
    (round (lift ok b f T ⟨⟨b, 0⟩, q, ⟨!b, 0⟩⟩)).ok = false := by
  rw [round, theta_l, rest_l, h]; rfl

end

end U1

/-! #### two rounds in the loop -/

namespace U2

/-- the pointers, in the round -/
def at2 (q : Ptr) : P3 := ⟨⟨false, 0⟩, q, ⟨false, 30⟩⟩

/-- the parameter `stkIn` -/
def stkIn (b : Bool) : Nat := if b then 1 else 0

section
variable (b : Bool) (T : Word) (q : Ptr)

theorem load_l (d x : Nat) (h : x < 50) : Lifts b T true (at2 q) (at2 q) (load d (stkIn b) x) (F.ldr d x) := fun f ok => by
  unfold load
  cases b
  · rw [if_neg (by decide)]
    split
    · rename_i hx
      have hx : 30 ≤ x := hx
      have := ldr_in ok false f T (at2 q) d 30 (x - Ama0) (by show 30 + (x - 30) < 50; omega)
      rw [show 30 + (x - Ama0) = x from show 30 + (x - 30) = x by omega] at this
      exact this
    · have := ldr_in ok false f T (at2 q) d 0 x (by omega)
      rw [Nat.zero_add] at this
      exact this
  · rw [if_pos (by decide)]
    have := ldr_in ok true f T (at2 q) d 0 x (by omega)
    rw [Nat.zero_add] at this
    exact this

theorem store_l (d x : Nat) (h : x < 50) : Lifts b T true (at2 q) (at2 q) (store d (stkIn b) x) (F.str d x) := fun f ok => by
  unfold store
  cases b
  · rw [if_pos (by decide)]
    have := str_out ok false f T (at2 q) d 0 x (by omega)
    rw [Nat.zero_add] at this
    exact this
  · rw [if_neg (by decide)]
    split
    · rename_i hx
      have hx : 30 ≤ x := hx
      have := str_out ok true f T (at2 q) d 30 (x - Ama0) (by show 30 + (x - 30) < 50; omega)
      rw [show 30 + (x - Ama0) = x from show 30 + (x - 30) = x by omega] at this
      exact this
    · have := str_out ok true f T (at2 q) d 0 x (by omega)
      rw [Nat.zero_add] at this
      exact this

theorem xor5_l (d c g k m s : Nat) (hc : c < 50) (hg : g < 50) (hk : k < 50) (hm : m < 50) (hs : s < 50) :
    Lifts b T true (at2 q) (at2 q) (xor5 (stkIn b) d c g k m s) (F.xor5 d c g k m s) := by
  have h := load_l b T q d c hc
  have h := h.comp (load_l b T q r6 g hg)
  have h := h.comp (eor_l b T _ d d r6)
  have h := h.comp (load_l b T q r6 k hk)
  have h := h.comp (eor_l b T _ d d r6)
  have h := h.comp (load_l b T q r6 m hm)
  have h := h.comp (eor_l b T _ d d r6)
  have h := h.comp (load_l b T q r6 s hs)
  have h := h.comp (eor_l b T _ d d r6)
  exact h

theorem trp1_l (c x d fD rt : Nat) (h : x < 50) (hd : InD d fD) :
    Lifts b T true (at2 q) (at2 q) (trp1 (stkIn b) c x d fD rt) (F.trp1 c x d fD rt) :=
  (((load_l b T q c x h).comp (ldrD_l b T _ d fD hd)).comp (eor_l b T _ c c r6)).comp (rot_l b T _ c rt)

theorem trp5_l (s0 d0 f0 t0 s1 d1 f1 t1 s2 d2 f2 t2 s3 d3 f3 t3 s4 d4 f4 t4 : Nat)
    (h : U1.Ok5 s0 d0 f0 s1 d1 f1 s2 d2 f2 s3 d3 f3 s4 d4 f4) :
    Lifts b T true (at2 q) (at2 q) (trp5 (stkIn b) s0 d0 f0 t0 s1 d1 f1 t1 s2 d2 f2 t2 s3 d3 f3 t3 s4 d4 f4 t4)
      (F.trp5e s0 d0 f0 t0 s1 d1 f1 t1 s2 d2 f2 t2 s3 d3 f3 t3 s4 d4 f4 t4) := by
  obtain ⟨⟨h0, h1, h2, h3, h3', h4, h4'⟩, e0, e1, e2, e3, e4⟩ := h
  exact ((((trp1_l b T q r1 s0 d0 f0 t0 h0 e0).comp (trp1_l b T q r2 s1 d1 f1 t1 h1 e1)).comp
    (trp1_l b T q r3 s2 d2 f2 t2 h2 e2)).comp (trp1_l b T q r4 s3 d3 f3 t3 h3' e3)).comp (trp1_l b T q r5 s4 d4 f4 t4 h4' e4)

theorem chio4_l (o : Nat) (h : o + 8 < 50) :
    Lifts b T true (at2 q) (at2 q)
      (fun m => chio1 (stkIn b) (o + 2) r2 r3 r4 0xFF 1 (chio1 (stkIn b) (o + 4) r3 r4 r5 0xFF 1 (chio1 (stkIn b) (o + 6) r4 r5 r1 0xFF 0
        (chio1 (stkIn b) (o + 8) r5 r1 r2 0xFF 0 m)))) (F.chio4 o) := by
  have h' := (chi0_l b T (at2 q) r5 r1 r2).comp (store_l b T q r6 (o + 8) (by omega))
  have h' := (h'.comp (chi0_l b T _ r4 r5 r1)).comp (store_l b T q r6 (o + 6) (by omega))
  have h' := (h'.comp (chi1_l b T _ r3 r4 r5)).comp (store_l b T q r5 (o + 4) (by omega))
  have h' := (h'.comp (chi1_l b T _ r2 r3 r4)).comp (store_l b T q r4 (o + 2) (by omega))
  exact h'

theorem chio5_l (o : Nat) (h : o + 8 < 50) : Lifts b T true (at2 q) (at2 q) (chio5 (stkIn b) o 0xFF) (F.chio5 o) :=
  ((chio4_l b T q o h).comp (chi1_l b T _ r1 r2 r3)).comp (store_l b T q r3 (o + 0) (by omega))

theorem chio5i_l (o iota : Nat) (h : o + 8 < 50) (hi : iota ≠ 0xFF) :
    Lifts b T (Arm6.rc (T.toNat + iota)).isSome (at2 q) (at2 q) (chio5 (stkIn b) o iota)
      (F.chio5i o T ((Arm6.rc (T.toNat + iota)).getD 0)) := by
  have h := ((chio4_l b T q o h).comp (chi1i_l b T _ r1 r2 r3 iota hi)).comp (store_l b T q r3 (o + 0) (by omega))
  rw [Bool.and_true, Bool.true_and] at h
  exact h

set_option maxRecDepth 20000 in
theorem theta_l : Lifts b T true (at2 q) (at2 q) (theta (stkIn b)) F.theta := by
  have h := movi_l b T (at2 q) r4 31
  have h := h.comp (xor5_l b T q r1 Abe1 Age1 Ake1 Ame1 Ase1 (by decide) (by decide) (by decide) (by decide) (by decide))
  have h := h.comp (xor5_l b T q r2 Abu0 Agu0 Aku0 Amu0 Asu0 (by decide) (by decide) (by decide) (by decide) (by decide))
  have h := h.comp (mov_l b T (at2 q) r6 r1)
  have h := h.comp (te0r_l b T _ r8 r2 r6)
  have h := h.comp (xor5_l b T q r3 Abi1 Agi1 Aki1 Ami1 Asi1 (by decide) (by decide) (by decide) (by decide) (by decide))
  have h := h.comp (te1m_l b T _ mDo1 r3 r2 (by decide) (by decide))
  have h := h.comp (xor5_l b T q r2 Aba0 Aga0 Aka0 Ama0 Asa0 (by decide) (by decide) (by decide) (by decide) (by decide))
  have h := h.comp (te0r_l b T _ r10 r2 r3)
  have h := h.comp (xor5_l b T q r3 Abo1 Ago1 Ako1 Amo1 Aso1 (by decide) (by decide) (by decide) (by decide) (by decide))
  have h := h.comp (te1m_l b T _ mDu1 r3 r2 (by decide) (by decide))
  have h := h.comp (xor5_l b T q r2 Abe0 Age0 Ake0 Ame0 Ase0 (by decide) (by decide) (by decide) (by decide) (by decide))
  have h := h.comp (te0r_l b T _ r12 r2 r3)
  have h := h.comp (xor5_l b T q r3 Abu1 Agu1 Aku1 Amu1 Asu1 (by decide) (by decide) (by decide) (by decide) (by decide))
  have h := h.comp (te1r_l b T _ r9 r3 r2)
  have h := h.comp (xor5_l b T q r2 Abi0 Agi0 Aki0 Ami0 Asi0 (by decide) (by decide) (by decide) (by decide) (by decide))
  have h := h.comp (te0m_l b T _ mDo0 r2 r3 (by decide) (by decide))
  have h := h.comp (xor5_l b T q r3 Aba1 Aga1 Aka1 Ama1 Asa1 (by decide) (by decide) (by decide) (by decide) (by decide))
  have h := h.comp (te1r_l b T _ r11 r3 r2)
  have h := h.comp (xor5_l b T q r2 Abo0 Ago0 Ako0 Amo0 Aso0 (by decide) (by decide) (by decide) (by decide) (by decide))
  have h := h.comp (te0m_l b T _ mDu0 r2 r3 (by decide) (by decide))
  have h := h.comp (te1r_l b T _ lr r1 r2)
  exact h

set_option maxRecDepth 20000 in
theorem rest_l (iota : Nat) (hi : iota + 4 < 0xFF) :
    Lifts b T ((Arm6.rc (T.toNat + (iota + 4))).isSome && (Arm6.rc (T.toNat + (iota + 0))).isSome) (at2 q) (at2 q)
      (rest (stkIn b) iota) (F.rest2 T ((Arm6.rc (T.toNat + (iota + 0))).getD 0) ((Arm6.rc (T.toNat + (iota + 4))).getD 0)) := by
  have h := trp5_l b T q Abi0 r12 1 31 Ago1 mDo1 0 28 Aku1 mDu1 0 20 Ama1 r9 1 21 Ase0 r10 1 1 (by decide)
  have h := h.comp (chio5_l b T q Asa0 (by decide))
  have h := h.comp (trp5_l b T q Abi1 lr 1 31 Ago0 mDo0 0 27 Aku0 mDu0 0 19 Ama0 r8 1 20 Ase1 r11 1 1 (by decide))
  have h := h.comp (chio5_l b T q Asa1 (by decide))
  have h := h.comp (trp5_l b T q Abu1 mDu1 0 14 Aga0 r8 1 18 Ake0 r10 1 5 Ami1 lr 1 8 Aso0 mDo0 0 28 (by decide))
  have h := h.comp (chio5_l b T q Ama0 (by decide))
  have h := h.comp (trp5_l b T q Abu0 mDu0 0 13 Aga1 r9 1 18 Ake1 r11 1 5 Ami0 r12 1 7 Aso1 mDo1 0 28 (by decide))
  have h := h.comp (chio5_l b T q Ama1 (by decide))
  have h := h.comp (trp5_l b T q Abe1 r11 1 1 Agi0 r12 1 3 Ako1 mDo1 0 13 Amu0 mDu0 0 4 Asa0 r8 1 9 (by decide))
  have h := h.comp (chio5_l b T q Aka0 (by decide))
  have h := h.comp (trp5_l b T q Abe0 r10 1 0 Agi1 lr 1 3 Ako0 mDo0 0 12 Amu1 mDu1 0 4 Asa1 r9 1 9 (by decide))
  have h := h.comp (chio5_l b T q Aka1 (by decide))
  have h := h.comp (trp5_l b T q Abo0 mDo0 0 14 Agu0 mDu0 0 10 Aka1 r9 1 2 Ame1 r11 1 23 Asi1 lr 1 31 (by decide))
  have h := h.comp (chio5_l b T q Aga0 (by decide))
  have h := h.comp (trp5_l b T q Abo1 mDo1 0 14 Agu1 mDu1 0 10 Aka0 r8 1 1 Ame0 r10 1 22 Asi0 r12 1 30 (by decide))
  have h := h.comp (chio5_l b T q Aga1 (by decide))
  have h := h.comp (trp5_l b T q Aba0 r8 1 0 Age0 r10 1 22 Aki1 lr 1 22 Amo1 mDo1 0 11 Asu0 mDu0 0 7 (by decide))
  have h := h.comp (chio5i_l b T q Aba0 (iota + 0) (by decide) (by omega))
  have h := h.comp (trp5_l b T q Aba1 r9 1 0 Age1 r11 1 22 Aki0 r12 1 21 Amo0 mDo0 0 10 Asu1 mDu1 0 7 (by decide))
  have h := h.comp (chio5i_l b T q Aba1 (iota + 4) (by decide) (by omega))
  simp only [Bool.and_true, Bool.true_and] at h
  exact h

theorem kround_l (f : F) (iota : Nat) (c0 c1 : Word) (hi : iota + 4 < 0xFF) (h0 : Arm6.rc (T.toNat + (iota + 0)) = some c0)
    (h1 : Arm6.rc (T.toNat + (iota + 4)) = some c1) :
    ∃ f' : F, kround (stkIn b) iota (lift true b f T (at2 q)) = lift true b f' T (at2 q) ∧ f'.r r1 = T ∧
      f'.O = Inplace32.roundC c0 c1 f.I :=
  ⟨F.rest2 T c0 c1 (F.theta f), by rw [kround, theta_l, rest_l b T q iota hi, h0, h1]; rfl, (F.rest2_eq T c0 c1 _).2.1,
    F.round2_O T c0 c1 f⟩

/-- with a pointer to the constants outside of the table -/
theorem kround_none (ok : Bool) (f : F) (iota : Nat) (hi : iota + 4 < 0xFF) (h : Arm6.rc (T.toNat + (iota + 4)) = none) :
    ∃ f', kround (stkIn b) iota (lift ok b f T (at2 q)) = lift false b f' T (at2 q) :=
  ⟨_, by rw [kround, theta_l, rest_l b T q iota hi, h]; rfl⟩

end

end U2

end KeccakP1600.Arm6U
