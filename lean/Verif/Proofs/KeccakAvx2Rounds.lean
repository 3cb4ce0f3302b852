import Verif.Model.KeccakAvx2Asm
import Verif.Spec.Avx2Layout
import Verif.Proofs.X86Bytes
import Verif.Proofs.PyFIPS202

/-!
The rounds of the AVX2 implementation in assembly are those of the reference implementation.
-/

namespace Avx2Asm

open KeccakP1600 (Lane Lanes rstep lane forall_fin25 wordOfBytes bytesOfWord bytesOfLanes)
open KeccakP1600.Opt64 (run run_add)
open X86

theorem mk_congr {a b c d a' b' c' d' : Lane} (h0 : a = a') (h1 : b = b') (h2 : c = c') (h3 : d = d') :
    Ymm.mk a b c d = Ymm.mk a' b' c' d' := by rw [h0, h1, h2, h3]

/-! ### Instructions on doublewords -/

theorem halves (a : Lane) : ((a >>> 32).setWidth 32 ++ a.setWidth 32 : BitVec (32 + 32)) = a := by
  apply BitVec.eq_of_getLsbD_eq
  intro i hi
  rw [BitVec.getLsbD_append]
  split
  · rename_i h; simp [BitVec.getLsbD_setWidth, h]
  · rename_i h
    rw [BitVec.getLsbD_setWidth, BitVec.getLsbD_ushiftRight, show 32 + (i - 32) = i by omega]
    have : i - 32 < 32 := by omega
    simp [this]

theorem dwords (lo hi : Lane) : (dword lo hi 1 ++ dword lo hi 0 : BitVec (32 + 32)) = lo ∧
    (dword lo hi 3 ++ dword lo hi 2 : BitVec (32 + 32)) = hi := by
  constructor
  · apply BitVec.eq_of_getLsbD_eq
    intro i hi
    unfold dword
    rw [BitVec.getLsbD_append]
    split
    · rename_i h
      rw [BitVec.getLsbD_setWidth, BitVec.getLsbD_ushiftRight, BitVec.getLsbD_append]
      simp [h, show i < 64 by omega]
    · rename_i h
      rw [BitVec.getLsbD_setWidth, BitVec.getLsbD_ushiftRight, BitVec.getLsbD_append, show 32 * (1 % 4) + (i - 32) = i by omega]
      have : i - 32 < 32 := by omega
      simp [this, show i < 64 by omega]
  · apply BitVec.eq_of_getLsbD_eq
    intro i hi
    unfold dword
    rw [BitVec.getLsbD_append]
    split
    · rename_i h
      rw [BitVec.getLsbD_setWidth, BitVec.getLsbD_ushiftRight, BitVec.getLsbD_append]
      simp [h]
    · rename_i h
      rw [BitVec.getLsbD_setWidth, BitVec.getLsbD_ushiftRight, BitVec.getLsbD_append, show 32 * (3 % 4) + (i - 32) = 64 + i by omega]
      have : i - 32 < 32 := by omega
      simp [this]

theorem vpshufd_4e (a : Ymm) : vpshufd 0b01001110 a = ⟨a.q1, a.q0, a.q3, a.q2⟩ := by
  obtain ⟨q0, q1, q2, q3⟩ := a
  have e : ∀ lo hi : Lane, ∀ k, dword lo hi k = dword lo hi (k % 4) := by intro lo hi k; unfold dword; rw [Nat.mod_mod]
  unfold vpshufd
  simp only
  rw [e q0 q1 (_ / 4 ^ (2 * 0 + 1)), e q0 q1 (_ / 4 ^ (2 * 0)), e q0 q1 (_ / 4 ^ (2 * 1 + 1)), e q0 q1 (_ / 4 ^ (2 * 1)),
    e q2 q3 (_ / 4 ^ (2 * 0 + 1)), e q2 q3 (_ / 4 ^ (2 * 0)), e q2 q3 (_ / 4 ^ (2 * 1 + 1)), e q2 q3 (_ / 4 ^ (2 * 1))]
  exact mk_congr (dwords q0 q1).2 (dwords q0 q1).1 (dwords q2 q3).2 (dwords q2 q3).1

theorem vpblendd_03 (b a : Ymm) : vpblendd 0b00000011 b a = ⟨b.q0, a.q1, a.q2, a.q3⟩ :=
  mk_congr (halves b.q0) (halves a.q1) (halves a.q2) (halves a.q3)

theorem vpblendd_0c (b a : Ymm) : vpblendd 0b00001100 b a = ⟨a.q0, b.q1, a.q2, a.q3⟩ :=
  mk_congr (halves a.q0) (halves b.q1) (halves a.q2) (halves a.q3)

theorem vpblendd_30 (b a : Ymm) : vpblendd 0b00110000 b a = ⟨a.q0, a.q1, b.q2, a.q3⟩ :=
  mk_congr (halves a.q0) (halves a.q1) (halves b.q2) (halves a.q3)

theorem vpblendd_c0 (b a : Ymm) : vpblendd 0b11000000 b a = ⟨a.q0, a.q1, a.q2, b.q3⟩ :=
  mk_congr (halves a.q0) (halves a.q1) (halves a.q2) (halves b.q3)

theorem vpsrldq_8 (a : Ymm) : vpsrldq 8 a = ⟨a.q1, 0, a.q3, 0⟩ := by
  have e1 : ∀ lo hi : Lane, ((hi ++ lo) >>> 64).setWidth 64 = hi := by
    intro lo hi
    apply BitVec.eq_of_getLsbD_eq
    intro i h
    rw [BitVec.getLsbD_setWidth, BitVec.getLsbD_ushiftRight, BitVec.getLsbD_append, if_neg (by omega), Nat.add_sub_cancel_left]
    simp [h]
  have e2 : ∀ lo hi : Lane, (((hi ++ lo) >>> 64) >>> 64).setWidth 64 = (0 : Lane) := by
    intro lo hi
    apply BitVec.eq_of_getLsbD_eq
    intro i h
    simp
  exact mk_congr (e1 a.q0 a.q1) (e2 a.q0 a.q1) (e1 a.q2 a.q3) (e2 a.q2 a.q3)

/-! ### The state in registers -/

/-- The words of the registers, in the order in which they are stored. -/
def word (s : Regs) : Nat → Lane
  | 0 => s.y0.q0 | 1 => s.y1.q0 | 2 => s.y1.q1 | 3 => s.y1.q2 | 4 => s.y1.q3
  | 5 => s.y2.q0 | 6 => s.y2.q1 | 7 => s.y2.q2 | 8 => s.y2.q3
  | 9 => s.y3.q0 | 10 => s.y3.q1 | 11 => s.y3.q2 | 12 => s.y3.q3
  | 13 => s.y4.q0 | 14 => s.y4.q1 | 15 => s.y4.q2 | 16 => s.y4.q3
  | 17 => s.y5.q0 | 18 => s.y5.q1 | 19 => s.y5.q2 | 20 => s.y5.q3
  | 21 => s.y6.q0 | 22 => s.y6.q1 | 23 => s.y6.q2 | _ => s.y6.q3

/-- The lanes in the usual order. -/
def lanesOf (s : Regs) : Lanes := fun i => word s (Avx2Layout.place i.val)

theorem rol1 (a : Lane) : (a >>> 63) ||| (a + a) = KeccakP1600.Ref.rol64 a 1 := by
  rw [← Py202.Numpy.rol_or a 1 (by decide), BitVec.or_comm]
  congr 1
  apply BitVec.eq_of_toNat_eq
  rw [BitVec.toNat_add, BitVec.toNat_shiftLeft, Nat.shiftLeft_eq, Nat.pow_one, Nat.mul_two]

/-- Rotations of the four quadwords. -/
def rot (c0 c1 c2 c3 : Nat) (a : Ymm) : Ymm :=
  ⟨KeccakP1600.Ref.rol64 a.q0 c0, KeccakP1600.Ref.rol64 a.q1 c1, KeccakP1600.Ref.rol64 a.q2 c2, KeccakP1600.Ref.rol64 a.q3 c3⟩

theorem rol1_eq (a : Ymm) : vpor (vpaddq a a) (vpsrlq 63 a) = rot 1 1 1 1 a ∧ vpor (vpsrlq 63 a) (vpaddq a a) = rot 1 1 1 1 a :=
  ⟨mk_congr (rol1 _) (rol1 _) (rol1 _) (rol1 _),
   mk_congr ((BitVec.or_comm _ _).trans (rol1 _)) ((BitVec.or_comm _ _).trans (rol1 _))
    ((BitVec.or_comm _ _).trans (rol1 _)) ((BitVec.or_comm _ _).trans (rol1 _))⟩

theorem rot_eq (c0 c1 c2 c3 : Nat) (h0 : c0 < 64) (h1 : c1 < 64) (h2 : c2 < 64) (h3 : c3 < 64) (a : Ymm) :
    vpor (vpsllvq ⟨BitVec.ofNat 64 c0, BitVec.ofNat 64 c1, BitVec.ofNat 64 c2, BitVec.ofNat 64 c3⟩ a)
      (vpsrlvq ⟨BitVec.ofNat 64 (64 - c0), BitVec.ofNat 64 (64 - c1), BitVec.ofNat 64 (64 - c2), BitVec.ofNat 64 (64 - c3)⟩ a) =
    rot c0 c1 c2 c3 a := by
  have e : ∀ (x : Lane) c, c < 64 → (x >>> (BitVec.ofNat 64 (64 - c)).toNat) ||| (x <<< (BitVec.ofNat 64 c).toNat) =
      KeccakP1600.Ref.rol64 x c := by
    intro x c h
    rw [BitVec.toNat_ofNat, BitVec.toNat_ofNat, Nat.mod_eq_of_lt (by omega), Nat.mod_eq_of_lt (by omega), BitVec.or_comm,
      Py202.Numpy.rol_or x c h]
  exact mk_congr (e _ _ h0) (e _ _ h1) (e _ _ h2) (e _ _ h3)

/-- The state after theta, in the registers that the next part uses. -/
theorem rhoPi_eq (s : Regs) (d : Ymm) : rhoPi 96 96 s d = some
    { y0 := s.y0
      y8 := rot 44 43 21 14 (vpxor d s.y6)
      y9 := rot 1 62 28 27 (vpxor d s.y1)
      y10 := vpermq 0b10001101 (rot 3 18 36 41 s.y2)
      y11 := vpermq 0b10001101 (rot 45 6 56 39 (vpxor d s.y3))
      y12 := vpermq 0b00011011 (rot 10 61 55 8 (vpxor d s.y4))
      y13 := vpermq 0b01110010 (rot 2 15 25 20 (vpxor d s.y5)) } := by
  simp only [← rot_eq 44 43 21 14 (by decide) (by decide) (by decide) (by decide),
    ← rot_eq 1 62 28 27 (by decide) (by decide) (by decide) (by decide),
    ← rot_eq 3 18 36 41 (by decide) (by decide) (by decide) (by decide),
    ← rot_eq 45 6 56 39 (by decide) (by decide) (by decide) (by decide),
    ← rot_eq 10 61 55 8 (by decide) (by decide) (by decide) (by decide),
    ← rot_eq 2 15 25 20 (by decide) (by decide) (by decide) (by decide)]
  rfl

/-- Four copies of a word. -/
def rep4 (w : Lane) : Ymm := ⟨w, w, w, w⟩

theorem columns (s : Regs) : vpxor (vpxor s.y6 s.y4) (vpxor s.y1 (vpxor s.y3 s.y5)) =
    ⟨KeccakP1600.Ref.thetaC (lanesOf s) 1, KeccakP1600.Ref.thetaC (lanesOf s) 2, KeccakP1600.Ref.thetaC (lanesOf s) 3,
      KeccakP1600.Ref.thetaC (lanesOf s) 4⟩ := by
  have e := KeccakP1600.thetaC_eq (lanesOf s)
  refine mk_congr ((e 1).trans ?_).symm ((e 2).trans ?_).symm ((e 3).trans ?_).symm ((e 4).trans ?_).symm
  · show 0#64 ^^^ s.y1.q0 ^^^ s.y6.q0 ^^^ s.y4.q0 ^^^ s.y3.q0 ^^^ s.y5.q0 = s.y5.q0 ^^^ s.y3.q0 ^^^ s.y1.q0 ^^^ (s.y4.q0 ^^^ s.y6.q0)
    rw [BitVec.zero_xor]; ac_rfl
  · show 0#64 ^^^ s.y1.q1 ^^^ s.y3.q1 ^^^ s.y6.q1 ^^^ s.y5.q1 ^^^ s.y4.q1 = s.y5.q1 ^^^ s.y3.q1 ^^^ s.y1.q1 ^^^ (s.y4.q1 ^^^ s.y6.q1)
    rw [BitVec.zero_xor]; ac_rfl
  · show 0#64 ^^^ s.y1.q2 ^^^ s.y4.q2 ^^^ s.y5.q2 ^^^ s.y6.q2 ^^^ s.y3.q2 = s.y5.q2 ^^^ s.y3.q2 ^^^ s.y1.q2 ^^^ (s.y4.q2 ^^^ s.y6.q2)
    rw [BitVec.zero_xor]; ac_rfl
  · show 0#64 ^^^ s.y1.q3 ^^^ s.y5.q3 ^^^ s.y3.q3 ^^^ s.y4.q3 ^^^ s.y6.q3 = s.y5.q3 ^^^ s.y3.q3 ^^^ s.y1.q3 ^^^ (s.y4.q3 ^^^ s.y6.q3)
    rw [BitVec.zero_xor]; ac_rfl

theorem column0 (s : Regs) (w : Lane) (h : s.y0 = rep4 w) :
    vpxor (vpermq 0b01001110 (vpxor s.y2 ⟨s.y2.q1, s.y2.q0, s.y2.q3, s.y2.q2⟩))
      (vpxor s.y0 (vpxor s.y2 ⟨s.y2.q1, s.y2.q0, s.y2.q3, s.y2.q2⟩)) = rep4 (KeccakP1600.Ref.thetaC (lanesOf s) 0) := by
  have e : KeccakP1600.Ref.thetaC (lanesOf s) 0 = w ^^^ s.y2.q0 ^^^ s.y2.q1 ^^^ s.y2.q2 ^^^ s.y2.q3 := by
    refine (KeccakP1600.thetaC_eq (lanesOf s) 0).trans ?_
    show 0#64 ^^^ s.y0.q0 ^^^ s.y2.q2 ^^^ s.y2.q0 ^^^ s.y2.q3 ^^^ s.y2.q1 = _
    rw [BitVec.zero_xor, h]
    show w ^^^ s.y2.q2 ^^^ s.y2.q0 ^^^ s.y2.q3 ^^^ s.y2.q1 = _
    ac_rfl
  rw [e, h]
  refine mk_congr ?_ ?_ ?_ ?_
  · show s.y2.q1 ^^^ s.y2.q0 ^^^ w ^^^ (s.y2.q3 ^^^ s.y2.q2) = _
    ac_rfl
  · show s.y2.q0 ^^^ s.y2.q1 ^^^ w ^^^ (s.y2.q2 ^^^ s.y2.q3) = _
    ac_rfl
  · show s.y2.q3 ^^^ s.y2.q2 ^^^ w ^^^ (s.y2.q1 ^^^ s.y2.q0) = _
    ac_rfl
  · show s.y2.q2 ^^^ s.y2.q3 ^^^ w ^^^ (s.y2.q0 ^^^ s.y2.q1) = _
    ac_rfl

theorem theta_eq (s : Regs) (w : Lane) (h : s.y0 = rep4 w) : theta s =
    ({ s with
        y0 := vpxor (rep4 (KeccakP1600.Ref.thetaD (lanesOf s) 0)) s.y0
        y2 := vpxor (rep4 (KeccakP1600.Ref.thetaD (lanesOf s) 0)) s.y2 },
      ⟨KeccakP1600.Ref.thetaD (lanesOf s) 1, KeccakP1600.Ref.thetaD (lanesOf s) 2, KeccakP1600.Ref.thetaD (lanesOf s) 3,
        KeccakP1600.Ref.thetaD (lanesOf s) 4⟩) := by
  have h1 := columns s
  have h2 := column0 s w h
  unfold theta
  simp only [vpshufd_4e, vpblendd_03, vpblendd_c0, h1, h2, (rol1_eq _).1, (rol1_eq _).2]
  rfl

/-- The state before chi, from that before the round. -/
def mid (d : Nat → Lane) (s : Regs) : Mid :=
  let dv : Ymm := ⟨d 1, d 2, d 3, d 4⟩
  { y0 := vpxor (rep4 (d 0)) s.y0
    y8 := rot 44 43 21 14 (vpxor dv s.y6)
    y9 := rot 1 62 28 27 (vpxor dv s.y1)
    y10 := vpermq 0b10001101 (rot 3 18 36 41 (vpxor (rep4 (d 0)) s.y2))
    y11 := vpermq 0b10001101 (rot 45 6 56 39 (vpxor dv s.y3))
    y12 := vpermq 0b00011011 (rot 10 61 55 8 (vpxor dv s.y4))
    y13 := vpermq 0b01110010 (rot 2 15 25 20 (vpxor dv s.y5)) }

theorem round_eq0 (r10 : Nat) (rc : Ymm) (hrc : quads iotas r10 = some rc) (s : Regs) (w : Lane) (h : s.y0 = rep4 w) : round 96 96 r10 s =
    some (let t := chi (mid (KeccakP1600.Ref.thetaD (lanesOf s)) s); { t with y0 := vpxor rc t.y0 }) := by
  unfold round
  simp only [theta_eq s w h, rhoPi_eq, hrc, Option.bind_eq_bind, Option.bind_some]
  rfl

theorem chi_lane (d : Nat → Lane) (s : Regs) (w : Lane) (h : s.y0 = rep4 w) : ∀ x y : Fin 5, lanesOf (chi (mid d s)) (lane x y) =
    KeccakP1600.bl d (lanesOf s) x y ^^^ (~~~ KeccakP1600.bl d (lanesOf s) (x + 1) y &&& KeccakP1600.bl d (lanesOf s) (x + 2) y) := by
  obtain ⟨y0, y1, y2, y3, y4, y5, y6⟩ := s
  simp only at h
  subst h
  intro x y
  unfold chi
  simp only [vpblendd_0c, vpblendd_30, vpblendd_c0, vpsrldq_8]
  fin_cases x <;> fin_cases y <;> first | rfl | exact BitVec.xor_comm _ _

theorem chi_uniform (d : Nat → Lane) (s : Regs) (w : Lane) (h : s.y0 = rep4 w) : (chi (mid d s)).y0 = rep4 (lanesOf (chi (mid d s)) 0) := by
  obtain ⟨y0, y1, y2, y3, y4, y5, y6⟩ := s
  simp only at h
  subst h
  rfl

theorem iotas_eq (i : Nat) (hi : i < 24) : quads iotas (32 * i) = some (rep4 (KeccakP1600.Ref.roundConstants.getD i 0)) := by
  interval_cases i <;> rfl

/-- The first register holds four copies of a lane. -/
def Ok (s : Regs) : Prop := s.y0 = rep4 (lanesOf s 0)

theorem round_eq (i : Nat) (hi : i < 24) (s : Regs) (h : Ok s) :
    ∃ s', round 96 96 (32 * i) s = some s' ∧ Ok s' ∧ lanesOf s' = run i 1 (lanesOf s) := by
  refine ⟨_, round_eq0 _ _ (iotas_eq i hi) s _ h, ?_, ?_⟩
  · show vpxor _ _ = _
    rw [chi_uniform _ s _ h]
    rfl
  · show _ = rstep _ _
    generalize KeccakP1600.Ref.roundConstants.getD i 0 = rc
    funext j
    revert j
    apply forall_fin25
    intro x y
    rw [KeccakP1600.rstep_lane, ← chi_lane _ s _ h]
    fin_cases x <;> fin_cases y <;> rfl

theorem keccakF1600_eq : ∀ (n fuel i : Nat) (s : Regs), i + (n + 1) ≤ 24 → n < fuel → Ok s →
    ∃ s', keccakF1600 96 96 fuel (32 * i) (n + 1) s = some s' ∧ Ok s' ∧ lanesOf s' = run i (n + 1) (lanesOf s) := by
  intro n
  induction n with
  | zero =>
    intro fuel i s hi hf h
    obtain ⟨fuel, rfl⟩ : ∃ f, fuel = f + 1 := ⟨fuel - 1, by omega⟩
    obtain ⟨s1, h1, h2, h3⟩ := round_eq i (by omega) s h
    refine ⟨s1, ?_, h2, h3⟩
    rw [keccakF1600, h1, Option.bind_eq_bind, Option.bind_some]
    exact if_neg (by decide)
  | succ n ih =>
    intro fuel i s hi hf h
    obtain ⟨fuel, rfl⟩ : ∃ f, fuel = f + 1 := ⟨fuel - 1, by omega⟩
    obtain ⟨s1, h1, h2, h3⟩ := round_eq i (by omega) s h
    obtain ⟨s2, h4, h5, h6⟩ := ih fuel (i + 1) s1 (by omega) (by omega) h2
    refine ⟨s2, ?_, h5, ?_⟩
    · have e : (2 ^ 32 + (n + 1 + 1) - 1) % 2 ^ 32 = n + 1 := by omega
      rw [keccakF1600, h1, Option.bind_eq_bind, Option.bind_some]
      show (if (2 ^ 32 + (n + 1 + 1) - 1) % 2 ^ 32 ≠ 0 then _ else _) = _
      rw [e, if_pos (by omega), ← h4, Nat.mul_add]
    · rw [h6, h3, Nat.add_comm (n + 1) 1, run_add i 1 (n + 1)]

/-! ### Loads and stores -/

theorem length_view (st : Bytes) : (Avx2Layout.view st).length = 200 := by
  rw [Avx2Layout.view, List.length_map, List.length_range]

theorem getD_view (st : Bytes) (j : Nat) (hj : j < 200) :
    (Avx2Layout.view st).getD j 0 = st.getD (8 * Avx2Layout.place (j / 8) + j % 8) 0 := by
  rw [Avx2Layout.view, List.getD_eq_getElem?_getD, List.getElem?_map, List.getElem?_range hj]
  rfl

theorem place_lt : ∀ i : Fin 25, Avx2Layout.place i.val < 25 := by decide

theorem place_inj : ∀ i j : Fin 25, Avx2Layout.place i.val = Avx2Layout.place j.val → i = j := by decide

theorem lane_view (st : Bytes) (i : Fin 25) :
    KeccakP1600.lanesOfBytes (Avx2Layout.view st) i = wordOfBytes (st.drop (8 * Avx2Layout.place i.val)) := by
  apply KeccakP1600.lane_ext
  intro k hk
  rw [KeccakP1600.lanesOfBytes, KeccakP1600.byteOf_wordOfBytes _ _ hk, KeccakP1600.byteOf_wordOfBytes _ _ hk]
  have e := getD_view st (i.val * 8 + k) (by omega)
  rw [show (i.val * 8 + k) / 8 = i.val by omega, show (i.val * 8 + k) % 8 = k by omega] at e
  simp only [List.getD_eq_getElem?_getD, List.getElem?_drop] at e ⊢
  exact e

/-- The four words of the memory at `a`. -/
def ymmAt (m : Bytes) (a : Nat) : Ymm :=
  ⟨wordOfBytes (m.drop a), wordOfBytes (m.drop (a + 8)), wordOfBytes (m.drop (a + 16)), wordOfBytes (m.drop (a + 24))⟩

theorem load_ok (m : Bytes) (a : Nat) (h : a + 32 ≤ m.length) : load m a = some (ymmAt m a) := by
  rw [load, rd64_ok m a (by omega), rd64_ok m (a + 8) (by omega), rd64_ok m (a + 16) (by omega), rd64_ok m (a + 24) (by omega)]
  rfl

theorem broadcast_ok (m : Bytes) (a : Nat) (h : a + 8 ≤ m.length) : vpbroadcastq m a = some (rep4 (wordOfBytes (m.drop a))) := by
  rw [vpbroadcastq, rd64_ok m a h]
  rfl

theorem loadState_eq (st : Bytes) (h : st.length = 200) :
    ∃ s, loadState st = some s ∧ Ok s ∧ lanesOf s = KeccakP1600.lanesOfBytes (Avx2Layout.view st) := by
  unfold loadState
  rw [broadcast_ok st 0 (by omega), load_ok st (8+32*0) (by omega), load_ok st (8+32*1) (by omega), load_ok st (8+32*2) (by omega),
    load_ok st (8+32*3) (by omega), load_ok st (8+32*4) (by omega), load_ok st (8+32*5) (by omega)]
  refine ⟨_, rfl, rfl, ?_⟩
  funext i
  rw [lane_view]
  fin_cases i <;> rfl

/-- The bytes of a register. -/
def bytes4 (y : Ymm) : Bytes := bytesOfWord y.q0 ++ bytesOfWord y.q1 ++ bytesOfWord y.q2 ++ bytesOfWord y.q3

theorem length_bytes4 (y : Ymm) : (bytes4 y).length = 32 := by
  simp only [bytes4, List.length_append, KeccakP1600.length_bytesOfWord]

theorem store_ok (y : Ymm) (a : Nat) (m : Bytes) (h : a + 32 ≤ m.length) : store y a m = some (Bytes.setAt m a (bytes4 y)) := by
  have hl := KeccakP1600.length_bytesOfWord
  unfold store
  simp only [Option.bind_eq_bind]
  rw [wr64_ok _ _ _ (by omega), Option.bind_some, wr64_ok _ _ _ (by rw [Bytes.length_setAt]; omega), Option.bind_some,
    wr64_ok _ _ _ (by rw [Bytes.length_setAt, Bytes.length_setAt]; omega), Option.bind_some,
    wr64_ok _ _ _ (by rw [Bytes.length_setAt, Bytes.length_setAt, Bytes.length_setAt]; omega)]
  have h1 : a + 8 = a + (bytesOfWord y.q0).length := by rw [hl]
  have h2 : a + 16 = a + (bytesOfWord y.q0 ++ bytesOfWord y.q1).length := by rw [List.length_append, hl, hl]
  have h3 : a + 24 = a + (bytesOfWord y.q0 ++ bytesOfWord y.q1 ++ bytesOfWord y.q2).length := by
    rw [List.length_append, List.length_append, hl, hl, hl]
  rw [h1, Bytes.setAt_append, h2, Bytes.setAt_append, h3, Bytes.setAt_append]
  rfl

/-- The words of the registers as they are in memory. -/
def stored (s : Regs) : Bytes :=
  bytesOfWord s.y0.q0 ++ bytes4 s.y1 ++ bytes4 s.y2 ++ bytes4 s.y3 ++ bytes4 s.y4 ++ bytes4 s.y5 ++ bytes4 s.y6

theorem stored_eq (s : Regs) : stored s = bytesOfLanes fun i => word s i.val := by
  unfold stored bytes4 bytesOfLanes
  generalize bytesOfWord = g
  simp only [List.finRange_succ, List.finRange_zero, List.map_cons, List.map_nil, List.flatMap_cons, List.flatMap_nil,
    List.append_nil, List.append_assoc]
  rfl

theorem length_stored (s : Regs) : (stored s).length = 200 := by rw [stored_eq, KeccakP1600.length_bytesOfLanes]

theorem saveState_eq (s : Regs) (st : Bytes) (h : st.length = 200) : saveState s st = some (stored s) := by
  have hl := length_bytes4
  have hw := KeccakP1600.length_bytesOfWord
  have e : ∀ (y : Ymm) (p : Bytes) (a : Nat), a = 0 + p.length → a + 32 ≤ 200 →
      store y a (Bytes.setAt st 0 p) = some (Bytes.setAt st 0 (p ++ bytes4 y)) := by
    intro y p a ha hb
    rw [store_ok y a _ (by rw [Bytes.length_setAt]; omega), ha, Bytes.setAt_append]
  unfold saveState
  simp only [Option.bind_eq_bind]
  rw [wr64_ok _ _ _ (by omega), Option.bind_some, e _ _ _ (by rw [hw]) (by decide), Option.bind_some,
    e _ _ _ (by rw [List.length_append, hw, hl]) (by decide), Option.bind_some,
    e _ _ _ (by simp only [List.length_append, hw, hl]) (by decide), Option.bind_some,
    e _ _ _ (by simp only [List.length_append, hw, hl]) (by decide), Option.bind_some,
    e _ _ _ (by simp only [List.length_append, hw, hl]) (by decide), Option.bind_some,
    e _ _ _ (by simp only [List.length_append, hw, hl]) (by decide)]
  congr 1
  exact Plane512.setAt_all _ _ (by rw [h]; exact length_stored s)

theorem view_stored (s : Regs) : Avx2Layout.view (stored s) = bytesOfLanes (lanesOf s) := by
  apply List.ext_getElem?
  intro j
  rw [KeccakP1600.getElem?_bytesOfLanes]
  split
  · rename_i hj
    rw [Avx2Layout.view, List.getElem?_map, List.getElem?_range hj, stored_eq, Option.map_some, List.getD_eq_getElem?_getD,
      KeccakP1600.getElem?_bytesOfLanes]
    have hp := place_lt ⟨j / 8, by omega⟩
    simp only at hp
    rw [dif_pos (by omega)]
    simp only [Option.getD_some]
    rw [show (8 * Avx2Layout.place (j / 8) + j % 8) % 8 = j % 8 by omega]
    show some (KeccakP1600.byteOf (word s ((8 * Avx2Layout.place (j / 8) + j % 8) / 8)) _) = _
    rw [show (8 * Avx2Layout.place (j / 8) + j % 8) / 8 = Avx2Layout.place (j / 8) by omega]
    rfl
  · rename_i hj
    exact List.getElem?_eq_none (by rw [length_view]; omega)

theorem permute_eq (n : Nat) (hn : n < 24) (st : Bytes) (h : st.length = 200) :
    ∃ t, permute st (32 * (24 - (n + 1))) (n + 1) = some t ∧ t.length = 200 ∧
      Avx2Layout.view t = KeccakP1600.Ref.permuteNrounds (n + 1) (Avx2Layout.view st) := by
  obtain ⟨s, h1, h2, h3⟩ := loadState_eq st h
  obtain ⟨s', h4, h5, h6⟩ := keccakF1600_eq n (2 ^ 32) (24 - (n + 1)) s (by omega) (by omega) h2
  refine ⟨stored s', ?_, length_stored s', ?_⟩
  · rw [permute, h1, Option.bind_eq_bind, Option.bind_some, h4, Option.bind_some, saveState_eq s' st h]
  · rw [view_stored, h6, h3, KeccakP1600.Opt64.run_onWords]
    rfl

theorem permute24_eq (st : Bytes) (h : st.length = 200) : ∃ t, permute24 st = some t ∧ t.length = 200 ∧
    Avx2Layout.view t = KeccakP1600.Ref.permuteNrounds 24 (Avx2Layout.view st) := permute_eq 23 (by decide) st h

theorem permute12_eq (st : Bytes) (h : st.length = 200) : ∃ t, permute12 st = some t ∧ t.length = 200 ∧
    Avx2Layout.view t = KeccakP1600.Ref.permuteNrounds 12 (Avx2Layout.view st) := permute_eq 11 (by decide) st h

theorem permuteNrounds_eq (nr : Nat) (h0 : 0 < nr) (hnr : nr ≤ 24) (st : Bytes) (h : st.length = 200) :
    ∃ t, permuteNrounds st nr = some t ∧ t.length = 200 ∧
      Avx2Layout.view t = KeccakP1600.Ref.permuteNrounds nr (Avx2Layout.view st) := by
  obtain ⟨n, rfl⟩ : ∃ n, nr = n + 1 := ⟨nr - 1, by omega⟩
  have := permute_eq n (by omega) st h
  unfold permuteNrounds
  simp only
  rw [if_pos (by omega), show 24 * 4 * 8 - (n + 1) * 2 ^ (2 + 3) = 32 * (24 - (n + 1)) by omega]
  exact this

/-- With no round at all the first constant is read after the end of the table. -/
theorem permuteNrounds_zero (st : Bytes) : permuteNrounds st 0 = none := by
  unfold permuteNrounds permute
  simp only
  rw [if_pos (by decide)]
  rcases loadState st with _ | s
  · rfl
  · rw [Option.bind_eq_bind, Option.bind_some, keccakF1600, round]
    have e : quads iotas (24 * 4 * 8 - 0 * 2 ^ (2 + 3)) = none := rfl
    simp only [rhoPi_eq, e]
    rfl

end Avx2Asm
