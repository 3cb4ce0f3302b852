import Verif.Model.KeccakNeon
import Verif.Proofs.KeccakArmv8Rounds
import Verif.Proofs.XoodooArmFull

/-!
The rounds of the ARMv7-A NEON implementation in assembly are those of the reference implementation.
-/

namespace KeccakNeon

open KeccakP1600 (Lane Lanes rstep lane bytesOfLanes lanesOfBytes)
open KeccakP1600.Opt64 (run)
open KeccakP1600.Ref (rol64)
open Avx512Asm (col rest rstep_of)
open Armv8Asm (sriElem sri_eq chi_comm)

/-- The register that has a lane of the state. -/
def reg (i : Nat) : Nat := [0, 2, 4, 6, 8, 1, 3, 5, 7, 9, 10, 12, 14, 16, 18, 11, 13, 15, 17, 19, 20, 21, 22, 23, 24].getD i 0

/-- The state in the registers. -/
def lanesOf (m : M) : Lanes := fun i => m.d (reg i.val)

/-! ### Instructions -/

theorem add_sri (x : Lane) : sriElem (x + x) x 63 = rol64 x 1 := by
  rw [← sri_eq]
  congr 1
  apply BitVec.eq_of_toNat_eq
  rw [BitVec.toNat_add, BitVec.toNat_shiftLeft, Nat.shiftLeft_eq]
  congr 1
  omega

theorem shl_sri (x : Lane) (k : Nat) (h0 : 0 < k) (h : k < 64) : sriElem (x <<< k) x (64 - k) = rol64 x k := by
  have e : (x <<< k) &&& ~~~ (BitVec.allOnes 64 >>> (64 - k)) = x <<< k := by
    apply BitVec.eq_of_getLsbD_eq
    intro i hi
    rw [BitVec.getLsbD_and, BitVec.getLsbD_not, BitVec.getLsbD_ushiftRight, BitVec.getLsbD_allOnes, BitVec.getLsbD_shiftLeft]
    by_cases hk : i < k
    · simp [hk]
    · have : ¬ (64 - k + i < 64) := by omega
      simp [hi, this]
  rw [sriElem, e, Simd.or_shift_eq x k h0 h, KeccakP1600.Opt64.rol64_eq x k (by omega)]

theorem vext_rol (x : Lane) (k : Nat) (h0 : 0 < k) (h : k < 64) : (x >>> (64 - k)) ||| (x <<< k) = rol64 x k := by
  rw [BitVec.or_comm, Simd.or_shift_eq x k h0 h, KeccakP1600.Opt64.rol64_eq x k (by omega)]

theorem step {f : M → Option M} {g : M → Option M} {m m1 : M} {r : Option M} (h1 : f m = some m1) (h2 : g m1 = r) : (f m >>= g) = r := by
  rw [h1, Option.bind_eq_bind, Option.bind_some, h2]

theorem vld1D_ok (n : Nat) (m : M) (a : Nat) (h : m.r0 = a) (ha : a % 8 = 0 ∧ a + 8 ≤ 200) :
    vld1D n m = some (m.set n (m.s (a / 8))) := by
  subst h
  exact if_pos ha

theorem vst1D_ok (n : Nat) (m : M) (a : Nat) (h : m.r0 = a) (ha : a % 8 = 0 ∧ a + 8 ≤ 200) :
    vst1D n m = some (m.put (a / 8) (m.d n)) := by
  subst h
  exact if_pos ha

theorem vld1Q_ok (n : Nat) (m : M) (a : Nat) (h : m.r0 = a) (ha : a % 16 = 0 ∧ a + 16 ≤ 200) :
    vld1Q n m = some ((m.set (2 * n) (m.s (a / 8))).set (2 * n + 1) (m.s (a / 8 + 1))) := by
  subst h
  exact if_pos ha

theorem vst1Q_ok (n : Nat) (m : M) (a : Nat) (h : m.r0 = a) (ha : a % 16 = 0 ∧ a + 16 ≤ 200) :
    vst1Q n m = some ((m.put (a / 8) (m.d (2 * n))).put (a / 8 + 1) (m.d (2 * n + 1))) := by
  subst h
  exact if_pos ha

/-- Registers loaded from consecutive lanes. -/
def loaded : List Nat → Nat → M → M
  | [], _, m => m
  | n :: ns, a, m => loaded ns (a + 1) (addR0 8 (m.set n (m.s a)))

/-- Registers stored to consecutive lanes. -/
def stored : List Nat → Nat → M → M
  | [], _, m => m
  | n :: ns, a, m => stored ns (a + 1) (addR0 8 (m.put a (m.d n)))

theorem loads_eq : ∀ (ns : List Nat) (a : Nat) (m : M), m.r0 = 8 * a → a + ns.length ≤ 25 → loads ns m = some (loaded ns a m) := by
  intro ns
  induction ns with
  | nil => intro a m _ _; rfl
  | cons n ns ih =>
    intro a m h hl
    rw [List.length_cons] at hl
    rw [loads, vld1D_ok n m (8 * a) h (by omega), Option.bind_eq_bind, Option.bind_some, show 8 * a / 8 = a by omega]
    exact ih (a + 1) _ (show m.r0 + 8 = _ by omega) (by omega)

theorem stores_eq : ∀ (ns : List Nat) (a : Nat) (m : M), m.r0 = 8 * a → a + ns.length ≤ 25 → stores ns m = some (stored ns a m) := by
  intro ns
  induction ns with
  | nil => intro a m _ _; rfl
  | cons n ns ih =>
    intro a m h hl
    rw [List.length_cons] at hl
    rw [stores, vst1D_ok n m (8 * a) h (by omega), Option.bind_eq_bind, Option.bind_some, show 8 * a / 8 = a by omega]
    exact ih (a + 1) _ (show m.r0 + 8 = _ by omega) (by omega)

/-! ### Theta -/

theorem prepTheta_eq (m : M) (h0 : m.r0 = 0) : ∃ m', prepTheta m = some m' ∧ m'.r0 = 0 ∧ m'.r1 = m.r1 ∧
    (m'.d 26 = col (lanesOf m) 0 ∧ m'.d 27 = col (lanesOf m) 1 ∧ m'.d 28 = col (lanesOf m) 2 ∧ m'.d 29 = col (lanesOf m) 3 ∧
      m'.d 25 = col (lanesOf m) 4) ∧
    (∀ i : Fin 25, i.val ≠ 4 → i.val ≠ 9 → lanesOf m' i = lanesOf m i) ∧
    (m'.s 0 = m.d 24 ∧ m'.s 2 = m.d 8 ∧ m'.s 3 = m.d 9 ∧ m'.s 4 = m.d 18 ∧ m'.s 5 = m.d 19) := by
  obtain ⟨d, s, r0, r1⟩ := m
  subst h0
  refine ⟨_, step (vst1Q_ok 12 _ 0 rfl (by decide)) (step (vst1Q_ok 4 _ 16 rfl (by decide)) (step (vst1Q_ok 9 _ 32 rfl (by decide)) rfl)), ?_⟩
  refine ⟨rfl, rfl, ⟨?_, ?_, ?_, ?_, ?_⟩, ?_, rfl, rfl, rfl, rfl, rfl⟩
  · show (d 0 ^^^ d 10) ^^^ (d 1 ^^^ d 11) ^^^ d 20 = d 0 ^^^ d 1 ^^^ d 10 ^^^ d 11 ^^^ d 20
    ac_rfl
  · show (d 2 ^^^ d 12) ^^^ (d 3 ^^^ d 13) ^^^ d 21 = d 2 ^^^ d 3 ^^^ d 12 ^^^ d 13 ^^^ d 21
    ac_rfl
  · show (d 4 ^^^ d 14) ^^^ (d 5 ^^^ d 15) ^^^ d 22 = d 4 ^^^ d 5 ^^^ d 14 ^^^ d 15 ^^^ d 22
    ac_rfl
  · show (d 6 ^^^ d 16) ^^^ (d 7 ^^^ d 17) ^^^ d 23 = d 6 ^^^ d 7 ^^^ d 16 ^^^ d 17 ^^^ d 23
    ac_rfl
  · show (d 8 ^^^ d 18) ^^^ (d 9 ^^^ d 19) ^^^ d 24 = d 8 ^^^ d 9 ^^^ d 18 ^^^ d 19 ^^^ d 24
    ac_rfl
  · intro i h4 h9
    fin_cases i <;> first | rfl | exact absurd rfl h4 | exact absurd rfl h9

/-- The lanes before "Apply Theta", some of which are in memory. -/
def source (m : M) : Lanes := fun i =>
  match i.val with
  | 24 => m.s 0 | 4 => m.s 2 | 9 => m.s 3 | 14 => m.s 4 | 19 => m.s 5
  | j => m.d (reg j)

/-- The parities of the columns before "Apply Theta". -/
def par (m : M) : Fin 5 → Lane := fun x => m.d ([26, 27, 28, 29, 25].getD x.val 0)

theorem applyTheta_eq (m : M) (h0 : m.r0 = 0) : ∃ m', applyTheta m = some m' ∧ m'.r0 = 0 ∧ m'.r1 = m.r1 ∧
    ∀ x y : Fin 5, lanesOf m' (lane x y) = source m (lane x y) ^^^ rol64 (par m (x + 1)) 1 ^^^ par m (x + 4) := by
  obtain ⟨d, s, r0, r1⟩ := m
  subst h0
  refine ⟨_, step (vld1Q_ok 12 _ 0 rfl (by decide)) (step (vld1Q_ok 4 _ 16 rfl (by decide)) (step (vld1Q_ok 9 _ 32 rfl (by decide)) rfl)), ?_⟩
  refine ⟨rfl, rfl, fun x y => ?_⟩
  rw [← add_sri]
  fin_cases x <;> fin_cases y <;> exact (BitVec.xor_assoc _ _ _).symm

theorem theta_eq (m : M) (h0 : m.r0 = 0) : ∃ m', ((prepTheta m).bind applyTheta) = some m' ∧ m'.r0 = 0 ∧ m'.r1 = m.r1 ∧
    ∀ x y : Fin 5, lanesOf m' (lane x y) =
      lanesOf m (lane x y) ^^^ rol64 (col (lanesOf m) (x + 1)) 1 ^^^ col (lanesOf m) (x + 4) := by
  obtain ⟨m1, e1, z1, c1, ⟨p0, p1, p2, p3, p4⟩, hl, s0, s2, s3, s4, s5⟩ := prepTheta_eq m h0
  obtain ⟨m2, e2, z2, c2, h2⟩ := applyTheta_eq m1 z1
  refine ⟨m2, by rw [e1, Option.bind_some, e2], z2, c2.trans c1, fun x y => ?_⟩
  have hp : par m1 = col (lanesOf m) := by
    funext x
    fin_cases x
    · exact p0
    · exact p1
    · exact p2
    · exact p3
    · exact p4
  have hs : source m1 = lanesOf m := by
    funext i
    fin_cases i <;> first
      | exact s0 | exact s2 | exact s3 | exact s4 | exact s5
      | exact hl _ (by decide) (by decide)
  rw [h2, hp, hs]

/-! ### The other steps -/

theorem rot1_d (dst src rot : Nat) (m : M) (j : Nat) (h : j ≠ dst) : (rot1 dst src rot m).d j = m.d j := by
  unfold rot1
  split
  · exact if_neg h
  · exact if_neg h

theorem rot2_d (dst src rot : Nat) (m : M) (j : Nat) (h : j ≠ dst) : (rot2 dst src rot m).d j = m.d j := by
  unfold rot2
  split
  · exact if_neg h
  · rfl

/-- The two instructions of a rotation, the second one in a state where the destination is what the first one has made it. -/
theorem rot2_dst (dst src rot : Nat) (m m' : M) (h0 : 0 < rot) (h : rot < 64) (e : m'.d dst = (rot1 dst src rot m).d dst)
    (es : m'.d src = m.d src) : (rot2 dst src rot m').d dst = rol64 (m.d src) rot := by
  unfold rot1 at e
  unfold rot2
  by_cases hr : rot % 8 ≠ 0
  · rw [if_pos hr] at e ⊢
    rw [show (vshlD dst src rot m).d dst = m.d src <<< rot from if_pos rfl] at e
    rw [show (vsriD dst src (64 - rot) m').d dst = sriElem (m'.d dst) (m'.d src) (64 - rot) from if_pos rfl, e, es]
    exact shl_sri _ _ h0 h
  · rw [if_neg hr] at e ⊢
    rw [show (vextD dst src src (8 - rot / 8) m).d dst = (m.d src >>> (8 * (8 - rot / 8))) ||| (m.d src <<< (64 - 8 * (8 - rot / 8))) from if_pos rfl,
      show 8 * (8 - rot / 8) = 64 - rot by omega, show 64 - (64 - rot) = rot by omega] at e
    rw [e]
    exact vext_rol _ _ h0 h

/-- The four destinations differ and are not sources. -/
def Fits (ds ss : List Nat) : Prop := ds.Nodup ∧ ∀ d ∈ ds, d ∉ ss

instance (ds ss : List Nat) : Decidable (Fits ds ss) := inferInstanceAs (Decidable (_ ∧ _))

/-- The registers after four rotations. -/
def rolled (d1 s1 r1 d2 s2 r2 d3 s3 r3 d4 s4 r4 : Nat) (g : Nat → Lane) : Nat → Lane := fun j =>
  if j = d1 then rol64 (g s1) r1 else if j = d2 then rol64 (g s2) r2 else if j = d3 then rol64 (g s3) r3
  else if j = d4 then rol64 (g s4) r4 else g j

theorem rhoPi4_d (d1 s1 r1 d2 s2 r2 d3 s3 r3 d4 s4 r4 : Nat) (m : M) (hf : Fits [d1, d2, d3, d4] [s1, s2, s3, s4])
    (h1 : 0 < r1 ∧ r1 < 64) (h2 : 0 < r2 ∧ r2 < 64) (h3 : 0 < r3 ∧ r3 < 64) (h4 : 0 < r4 ∧ r4 < 64) :
    (rhoPi4 d1 s1 r1 d2 s2 r2 d3 s3 r3 d4 s4 r4 m).d = rolled d1 s1 r1 d2 s2 r2 d3 s3 r3 d4 s4 r4 m.d := by
  obtain ⟨hn, hs⟩ := hf
  simp only [List.nodup_cons, List.mem_cons, List.not_mem_nil, or_false, not_or, List.nodup_nil, not_false_eq_true, and_true] at hn
  simp only [List.mem_cons, List.not_mem_nil, or_false, not_or, forall_eq_or_imp, forall_eq] at hs
  obtain ⟨⟨n12, n13, n14⟩, ⟨n23, n24⟩, n34⟩ := hn
  obtain ⟨⟨a11, a12, a13, a14⟩, ⟨a21, a22, a23, a24⟩, ⟨a31, a32, a33, a34⟩, ⟨a41, a42, a43, a44⟩⟩ := hs
  funext j
  unfold rhoPi4 rolled
  dsimp only
  by_cases j1 : j = d1
  · subst j1
    rw [if_pos rfl, rot2_d _ _ _ _ _ n14, rot2_d _ _ _ _ _ n13, rot2_d _ _ _ _ _ n12, rot2_dst _ _ _ m _ h1.1 h1.2]
    · rw [rot1_d _ _ _ _ _ n14, rot1_d _ _ _ _ _ n13, rot1_d _ _ _ _ _ n12]
    · rw [rot1_d _ _ _ _ _ (Ne.symm a41), rot1_d _ _ _ _ _ (Ne.symm a31), rot1_d _ _ _ _ _ (Ne.symm a21), rot1_d _ _ _ _ _ (Ne.symm a11)]
  rw [if_neg j1]
  by_cases j2 : j = d2
  · subst j2
    rw [if_pos rfl, rot2_d _ _ _ _ _ n24, rot2_d _ _ _ _ _ n23]
    rw [rot2_dst _ _ _ (rot1 d1 s1 r1 m) _ h2.1 h2.2, rot1_d _ _ _ _ _ (Ne.symm a12)]
    · rw [rot2_d _ _ _ _ _ j1, rot1_d _ _ _ _ _ n24, rot1_d _ _ _ _ _ n23]
    · rw [rot2_d _ _ _ _ _ (Ne.symm a12), rot1_d _ _ _ _ _ (Ne.symm a42), rot1_d _ _ _ _ _ (Ne.symm a32), rot1_d _ _ _ _ _ (Ne.symm a22)]
  rw [if_neg j2]
  by_cases j3 : j = d3
  · subst j3
    rw [if_pos rfl, rot2_d _ _ _ _ _ n34]
    rw [rot2_dst _ _ _ (rot1 d2 s2 r2 (rot1 d1 s1 r1 m)) _ h3.1 h3.2, rot1_d _ _ _ _ _ (Ne.symm a23), rot1_d _ _ _ _ _ (Ne.symm a13)]
    · rw [rot2_d _ _ _ _ _ j2, rot2_d _ _ _ _ _ j1, rot1_d _ _ _ _ _ n34]
    · rw [rot2_d _ _ _ _ _ (Ne.symm a23), rot2_d _ _ _ _ _ (Ne.symm a13), rot1_d _ _ _ _ _ (Ne.symm a43), rot1_d _ _ _ _ _ (Ne.symm a33)]
  rw [if_neg j3]
  by_cases j4 : j = d4
  · subst j4
    rw [if_pos rfl]
    rw [rot2_dst _ _ _ (rot1 d3 s3 r3 (rot1 d2 s2 r2 (rot1 d1 s1 r1 m))) _ h4.1 h4.2, rot1_d _ _ _ _ _ (Ne.symm a34), rot1_d _ _ _ _ _ (Ne.symm a24),
      rot1_d _ _ _ _ _ (Ne.symm a14)]
    · rw [rot2_d _ _ _ _ _ j3, rot2_d _ _ _ _ _ j2, rot2_d _ _ _ _ _ j1]
    · rw [rot2_d _ _ _ _ _ (Ne.symm a34), rot2_d _ _ _ _ _ (Ne.symm a24), rot2_d _ _ _ _ _ (Ne.symm a14), rot1_d _ _ _ _ _ (Ne.symm a44)]
  rw [if_neg j4, rot2_d _ _ _ _ _ j4, rot2_d _ _ _ _ _ j3, rot2_d _ _ _ _ _ j2, rot2_d _ _ _ _ _ j1, rot1_d _ _ _ _ _ j4, rot1_d _ _ _ _ _ j3,
    rot1_d _ _ _ _ _ j2, rot1_d _ _ _ _ _ j1]

theorem rot1_r (dst src rot : Nat) (m : M) : (rot1 dst src rot m).r0 = m.r0 ∧ (rot1 dst src rot m).r1 = m.r1 := by
  unfold rot1; split <;> exact ⟨rfl, rfl⟩

theorem rot2_r (dst src rot : Nat) (m : M) : (rot2 dst src rot m).r0 = m.r0 ∧ (rot2 dst src rot m).r1 = m.r1 := by
  unfold rot2; split <;> exact ⟨rfl, rfl⟩

theorem rhoPi4_r (d1 s1 r1 d2 s2 r2 d3 s3 r3 d4 s4 r4 : Nat) (m : M) :
    (rhoPi4 d1 s1 r1 d2 s2 r2 d3 s3 r3 d4 s4 r4 m).r0 = m.r0 ∧ (rhoPi4 d1 s1 r1 d2 s2 r2 d3 s3 r3 d4 s4 r4 m).r1 = m.r1 := by
  unfold rhoPi4
  simp only [rot1_r, rot2_r, and_self]

theorem rhoPi_r (m : M) : (rhoPi m).r0 = m.r0 ∧ (rhoPi m).r1 = m.r1 := by
  unfold rhoPi
  simp only [rhoPi4_r]
  exact ⟨rfl, rfl⟩

theorem rhoPi_lane (m : M) : ∀ x y : Fin 5, lanesOf (rhoPi m) (lane x y) =
    rol64 (lanesOf m (lane (x + 3 * y) x)) (KeccakP1600.Ref.rhoOffsets.getD (lane (x + 3 * y) x).val 0) := by
  intro x y
  unfold lanesOf rhoPi
  dsimp only
  rw [rhoPi4_d _ _ _ _ _ _ _ _ _ _ _ _ _ (by decide) (by decide) (by decide) (by decide) (by decide),
    rhoPi4_d _ _ _ _ _ _ _ _ _ _ _ _ _ (by decide) (by decide) (by decide) (by decide) (by decide),
    rhoPi4_d _ _ _ _ _ _ _ _ _ _ _ _ _ (by decide) (by decide) (by decide) (by decide) (by decide),
    rhoPi4_d _ _ _ _ _ _ _ _ _ _ _ _ _ (by decide) (by decide) (by decide) (by decide) (by decide),
    rhoPi4_d _ _ _ _ _ _ _ _ _ _ _ _ _ (by decide) (by decide) (by decide) (by decide) (by decide),
    rhoPi4_d _ _ _ _ _ _ _ _ _ _ _ _ _ (by decide) (by decide) (by decide) (by decide) (by decide)]
  fin_cases x <;> fin_cases y <;> rfl

theorem chiPlanes_lane (m : M) : ∀ x y : Fin 5, y.val < 4 → lanesOf (chiPlanes m) (lane x y) =
    lanesOf m (lane x y) ^^^ (~~~ lanesOf m (lane (x + 1) y) &&& lanesOf m (lane (x + 2) y)) := by
  intro x y hy
  fin_cases y
  · fin_cases x <;> exact chi_comm _ _ _
  · fin_cases x <;> exact chi_comm _ _ _
  · fin_cases x <;> exact chi_comm _ _ _
  · fin_cases x <;> exact chi_comm _ _ _
  · exact absurd hy (by decide)

theorem chiPlanes_s (m : M) (x : Fin 5) : lanesOf (chiPlanes m) (lane x 4) = lanesOf m (lane x 4) := by
  fin_cases x <;> rfl

theorem chiPlanes_r (m : M) : (chiPlanes m).r0 = m.r0 ∧ (chiPlanes m).r1 = m.r1 := ⟨rfl, rfl⟩

theorem chiIota_eq (m : M) (rc : Lane) (h : m.r1 % 8 = 0) (hrc : roundConstants[m.r1 / 8]? = some rc) :
    ∃ m', chiIota m = some m' ∧ m'.r0 = m.r0 ∧ m'.r1 = m.r1 + 8 ∧
    (∀ x : Fin 5, lanesOf m' (lane x 4) = lanesOf m (lane x 4) ^^^ (~~~ lanesOf m (lane (x + 1) 4) &&& lanesOf m (lane (x + 2) 4))) ∧
    (∀ x y : Fin 5, y.val < 4 → lanesOf m' (lane x y) = if x = 0 ∧ y = 0 then lanesOf m (lane x y) ^^^ rc else lanesOf m (lane x y)) := by
  have key : ∀ k : M, k.r1 = m.r1 → vld1Rc 30 k = some { k.set 30 rc with r1 := m.r1 + 8 } := by
    intro k hk
    unfold vld1Rc
    rw [hk, if_pos h, hrc]
    rfl
  refine ⟨_, step (key _ rfl) rfl, rfl, rfl, fun x => ?_, fun x y hy => ?_⟩
  · fin_cases x <;> exact chi_comm _ _ _
  · fin_cases y
    · fin_cases x <;> rfl
    · fin_cases x <;> rfl
    · fin_cases x <;> rfl
    · fin_cases x <;> rfl
    · exact absurd hy (by decide)

/-- Behind the table there is no constant. -/
theorem chiIota_none (m : M) (h : m.r1 = 192) : chiIota m = none := by
  have key : ∀ k : M, k.r1 = 192 → vld1Rc 30 k = none := by
    intro k hk
    unfold vld1Rc
    rw [hk]
    rfl
  unfold chiIota
  dsimp only
  rw [key]
  · rfl
  · exact h

theorem round_eq (m : M) (rc : Lane) (h0 : m.r0 = 0) (h : m.r1 % 8 = 0) (hrc : roundConstants[m.r1 / 8]? = some rc) :
    ∃ m', keccakRound m = some m' ∧ m'.r0 = 0 ∧ m'.r1 = m.r1 + 8 ∧ lanesOf m' = rstep rc (lanesOf m) := by
  obtain ⟨m1, e1, z1, c1, h1⟩ := theta_eq m h0
  have hr1 : (chiPlanes (rhoPi m1)).r1 = m.r1 := by rw [(chiPlanes_r _).2, (rhoPi_r _).2, c1]
  obtain ⟨m2, e2, z2, c2, h2, h3⟩ := chiIota_eq (chiPlanes (rhoPi m1)) rc (by rw [hr1]; exact h) (by rw [hr1]; exact hrc)
  refine ⟨m2, ?_, by rw [z2, (chiPlanes_r _).1, (rhoPi_r _).1, z1], by rw [c2, hr1], ?_⟩
  · unfold keccakRound
    simp only [Option.bind_eq_bind]
    rw [← Option.bind_assoc, e1, Option.bind_some, e2]
  · refine rstep_of rc (lanesOf m) (fun i => rol64 (lanesOf m1 i) (KeccakP1600.Ref.rhoOffsets.getD i.val 0)) _ (fun x y => ?_) (fun x y => ?_)
    · rw [h1]
    · unfold rest
      dsimp only
      rw [← rhoPi_lane, ← rhoPi_lane, ← rhoPi_lane]
      by_cases hy : y.val < 4
      · rw [h3 x y hy, chiPlanes_lane _ x y hy]
      · obtain rfl : y = 4 := Fin.ext (by show y.val = 4; omega)
        rw [h2, chiPlanes_s, chiPlanes_s, chiPlanes_s, if_neg (fun hc => absurd hc.2 (by decide))]

theorem constant_eq (i : Nat) (hi : i < 24) : roundConstants[8 * i / 8]? = some (KeccakP1600.Ref.roundConstants.getD i 0) := by
  have h : ∀ i : Fin 24, roundConstants[8 * i.val / 8]? = some (KeccakP1600.Ref.roundConstants.getD i.val 0) := by decide +kernel
  exact h ⟨i, hi⟩

theorem roundLoop_eq : ∀ (n fuel i : Nat) (m : M), n < fuel → i + (n + 1) ≤ 24 → m.r0 = 0 → m.r1 = 8 * i →
    ∃ m', roundLoop fuel (n + 1) m = some m' ∧ m'.r0 = 0 ∧ lanesOf m' = run i (n + 1) (lanesOf m) := by
  intro n
  induction n with
  | zero =>
    intro fuel i m hf hi h0 h1
    obtain ⟨fuel, rfl⟩ : ∃ f, fuel = f + 1 := ⟨fuel - 1, by omega⟩
    obtain ⟨m', e, z, _, hl⟩ := round_eq m _ h0 (by omega) (by rw [h1]; exact constant_eq i (by omega))
    refine ⟨m', ?_, z, hl⟩
    rw [roundLoop, e, Option.bind_eq_bind, Option.bind_some]
    rfl
  | succ n ih =>
    intro fuel i m hf hi h0 h1
    obtain ⟨fuel, rfl⟩ : ∃ f, fuel = f + 1 := ⟨fuel - 1, by omega⟩
    obtain ⟨m', e, z, c, hl⟩ := round_eq m _ h0 (by omega) (by rw [h1]; exact constant_eq i (by omega))
    obtain ⟨m2, h3, z2, h4⟩ := ih fuel (i + 1) m' (by omega) (by omega) z (by rw [c, h1]; omega)
    refine ⟨m2, ?_, z2, ?_⟩
    · rw [roundLoop, e, Option.bind_eq_bind, Option.bind_some]
      simp only
      rw [XoodooArm.sub32_eq (by omega) (by omega), Nat.add_sub_cancel, if_pos (by omega), ← h3]
    · rw [h4, hl, Nat.add_comm (n + 1) 1, KeccakP1600.Opt64.run_add i 1]
      rfl

/-! ### Loads and stores -/

theorem loadState_eq (d : Nat → Lane) (st : Bytes) (r1 : Nat) :
    ∃ m, loadState ⟨d, memOf st, 0, r1⟩ = some m ∧ m.r0 = 0 ∧ m.r1 = r1 ∧ lanesOf m = lanesOfBytes st := by
  refine ⟨_, step (loads_eq _ 0 _ rfl (by decide)) (step (vld1Q_ok 10 _ 160 rfl (by decide)) (step (vld1Q_ok 11 _ 176 rfl (by decide))
    (step (vld1D_ok 24 _ 192 rfl (by decide)) rfl))), ?_⟩
  refine ⟨Nat.sub_self 192, rfl, ?_⟩
  funext i
  fin_cases i <;> rfl

theorem storeState_eq (m : M) (h0 : m.r0 = 0) : ∃ m', storeState m = some m' ∧ (fun i : Fin 25 => m'.s i.val) = lanesOf m := by
  obtain ⟨d, s, r0, r1⟩ := m
  subst h0
  refine ⟨_, step (stores_eq _ 0 _ rfl (by decide)) (step (vst1Q_ok 10 _ 160 rfl (by decide)) (step (vst1Q_ok 11 _ 176 rfl (by decide))
    (vst1D_ok 24 _ 192 rfl (by decide)))), ?_⟩
  funext i
  fin_cases i <;> rfl

theorem permute_eq (d : Nat → Lane) (st : Bytes) (nr : Nat) (h0 : 0 < nr) (hnr : nr ≤ 24) :
    permute d st (8 * (24 - nr)) nr = some (KeccakP1600.Ref.permuteNrounds nr st) := by
  obtain ⟨m, h1, z, c, h2⟩ := loadState_eq d st (8 * (24 - nr))
  obtain ⟨n, rfl⟩ : ∃ n, nr = n + 1 := ⟨nr - 1, by omega⟩
  obtain ⟨m', h3, z', h4⟩ := roundLoop_eq n (2 ^ 32) (24 - (n + 1)) m (by omega) (by omega) z c
  obtain ⟨m2, h5, h6⟩ := storeState_eq m' z'
  unfold permute
  simp only [Option.bind_eq_bind]
  rw [h1, Option.bind_some, h3, Option.bind_some, h5, Option.bind_some, h6, h4, h2, KeccakP1600.Opt64.run_onWords]
  rfl

theorem permuteNrounds_eq (d : Nat → Lane) (st : Bytes) (nr : Nat) (h0 : 0 < nr) (hnr : nr ≤ 24) :
    permuteNrounds d st nr = some (KeccakP1600.Ref.permuteNrounds nr st) := by
  rw [← permute_eq d st nr h0 hnr, permuteNrounds]
  rw [if_neg (by omega), show 192 - nr * 2 ^ 3 = 8 * (24 - nr) by omega]

end KeccakNeon
