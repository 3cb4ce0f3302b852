import Verif.Model.XoodooTimes4Neon
import Verif.Proofs.XoodooNeon
import Verif.Proofs.XoodooArm
import Verif.Proofs.XoodooSimd

/-!
The permutation of the NEON implementation of four instances of Xoodoo.
-/

namespace XoodooTimes4Neon

open Xoodoo (Lane Lanes rotl32 bytesOfLanes lanesOfBytes)
open Simd32
open XoodooSimd (refPerm)

/-- The state of instance `l` in the registers. -/
def inst (g : Regs) (l : Fin 4) : Xoodoo.Opt.V :=
  ⟨g.q0 l, g.q1 l, g.q2 l, g.q3 l, g.q4 l, g.q5 l, g.q6 l, g.q7 l, g.q8 l, g.q9 l, g.q10 l, g.q11 l⟩

/-- The same between `rho_w` and `chi`. -/
def instW (g : Regs) (l : Fin 4) : Xoodoo.Opt.V :=
  ⟨g.q0 l, g.q1 l, g.q2 l, g.q3 l, g.q7 l, g.q4 l, g.q5 l, g.q6 l, g.q12 l, g.q13 l, g.q14 l, g.q15 l⟩

/-- The same between `chi` and `rho_e`. -/
def instC (g : Regs) (l : Fin 4) : Xoodoo.Opt.V :=
  ⟨g.q0 l, g.q1 l, g.q2 l, g.q3 l, g.q12 l, g.q13 l, g.q14 l, g.q15 l, g.q8 l, g.q9 l, g.q10 l, g.q4 l⟩

theorem ror_eq (a : Lane) (n : Nat) (h0 : 0 < n) (h1 : n < 32) : a.rotateRight n = rotl32 a (32 - n) := by
  rw [← XoodooSimd.rotl32_eq a (32 - n) (by omega) (by omega), show 32 - (32 - n) = n by omega, BitVec.rotateRight_def, Nat.mod_eq_of_lt h1,
    BitVec.or_comm]

/-- What `theta` does with a column parity. -/
def effect (x : Lane) : Lane := x.rotateRight 27 ^^^ (x.rotateRight 27).rotateRight 23

theorem effect_eq (x : Lane) : effect x = rotl32 x 5 ^^^ rotl32 x 14 := by
  unfold effect
  rw [ror_eq x 27 (by decide) (by decide), ror_eq _ 23 (by decide) (by decide)]
  congr 1
  rw [← XoodooSimd.rotateLeft_eq _ _ (by decide) (by decide), ← XoodooSimd.rotateLeft_eq _ _ (by decide) (by decide),
    ← XoodooSimd.rotateLeft_eq _ _ (by decide) (by decide)]
  exact XoodooArm.rol_rol x 5 9

theorem rol_of_sri (m : Vec 4) (l : Fin 4) (i j : Nat) (hi : 0 < i) (hj : i + j = 32) (h0 : 0 < j) :
    vsri (slli m i) m j l = rotl32 (m l) i := XoodooNeon.sri_shl (m l) i j hi hj h0

/-- `theta` with the rotations as in the code. -/
def thetaS (v : Xoodoo.Opt.V) : Xoodoo.Opt.V :=
  let e3 := effect (v.a03 ^^^ v.a13 ^^^ v.a23)
  let e0 := effect (v.a00 ^^^ v.a10 ^^^ v.a20)
  let e1 := effect (v.a01 ^^^ v.a11 ^^^ v.a21)
  let e2 := effect (v.a02 ^^^ v.a12 ^^^ v.a22)
  ⟨v.a00 ^^^ e3, v.a01 ^^^ e0, v.a02 ^^^ e1, v.a03 ^^^ e2, v.a10 ^^^ e3, v.a11 ^^^ e0, v.a12 ^^^ e1, v.a13 ^^^ e2,
    v.a20 ^^^ e3, v.a21 ^^^ e0, v.a22 ^^^ e1, v.a23 ^^^ e2⟩

theorem theta_inst (g : Regs) (l : Fin 4) : inst (theta g) l = Xoodoo.Opt.theta (inst g l) := by
  have h : inst (theta g) l = thetaS (inst g l) := by fin_cases l <;> rfl
  rw [h]
  simp only [thetaS, effect_eq]
  rfl

theorem rhoW_inst (g : Regs) (l : Fin 4) : instW (rhoW g) l = Xoodoo.Opt.rhoWest (inst g l) := by
  have h : instW (rhoW g) l = ⟨g.q0 l, g.q1 l, g.q2 l, g.q3 l, g.q7 l, g.q4 l, g.q5 l, g.q6 l, (g.q8 l).rotateRight 21,
      vsri (slli g.q9 11) g.q9 21 l, vsri (slli g.q10 11) g.q10 21 l, vsri (slli g.q11 11) g.q11 21 l⟩ := by fin_cases l <;> rfl
  rw [h, ror_eq _ 21 (by decide) (by decide)]
  simp only [rol_of_sri _ l 11 21 (by decide) (by decide) (by decide)]
  rfl

theorem chi_inst (rc : Lane) (g : Regs) (l : Fin 4) : instC (chi rc g) l = Xoodoo.Opt.chi (Xoodoo.Opt.iota rc (instW g l)) := by
  have h : instC (chi rc g) l =
      let a00 := g.q0 l ^^^ rc
      ⟨a00 ^^^ (g.q12 l &&& ~~~ g.q7 l), g.q1 l ^^^ (g.q13 l &&& ~~~ g.q4 l), g.q2 l ^^^ (g.q14 l &&& ~~~ g.q5 l), g.q3 l ^^^ (g.q15 l &&& ~~~ g.q6 l),
        g.q7 l ^^^ (a00 &&& ~~~ g.q12 l), g.q4 l ^^^ (g.q1 l &&& ~~~ g.q13 l), g.q5 l ^^^ (g.q2 l &&& ~~~ g.q14 l), g.q6 l ^^^ (g.q3 l &&& ~~~ g.q15 l),
        (g.q7 l &&& ~~~ a00) ^^^ g.q12 l, (g.q4 l &&& ~~~ g.q1 l) ^^^ g.q13 l, (g.q5 l &&& ~~~ g.q2 l) ^^^ g.q14 l, (g.q6 l &&& ~~~ g.q3 l) ^^^ g.q15 l⟩ := rfl
  have c1 := fun a b c : Lane => (Xoodoo.Opt.chi_col a b c).1
  have c2 := fun a b c : Lane => (Xoodoo.Opt.chi_col a b c).2
  rw [h]
  simp only [c1] at c2
  simp only [Xoodoo.Opt.chi, Xoodoo.Opt.iota, instW, c1, c2]
  rw [BitVec.xor_comm (_ &&& _), BitVec.xor_comm (_ &&& _), BitVec.xor_comm (_ &&& _), BitVec.xor_comm (_ &&& _)]
  simp only [BitVec.and_comm]

theorem rhoE_inst (g : Regs) (l : Fin 4) : inst (rhoE g) l = Xoodoo.Opt.rhoEast (instC g l) := by
  have h : inst (rhoE g) l = ⟨g.q0 l, g.q1 l, g.q2 l, g.q3 l, vsri (slli g.q12 1) g.q12 31 l, vsri (slli g.q13 1) g.q13 31 l,
      vsri (slli g.q14 1) g.q14 31 l, vsri (slli g.q15 1) g.q15 31 l, vsri (slli g.q10 8) g.q10 24 l, vsri (slli g.q4 8) g.q4 24 l,
      (g.q8 l).rotateRight 24, vsri (slli g.q9 8) g.q9 24 l⟩ := by fin_cases l <;> rfl
  rw [h, ror_eq _ 24 (by decide) (by decide)]
  simp only [rol_of_sri _ l 1 31 (by decide) (by decide) (by decide), rol_of_sri _ l 8 24 (by decide) (by decide) (by decide)]
  rfl

theorem round_inst (rc : Lane) (g : Regs) (l : Fin 4) : inst (round rc g) l = Xoodoo.Opt.round rc (inst g l) := by
  rw [round, rhoE_inst, chi_inst, rhoW_inst, theta_inst]
  rfl

/-! ### Memory -/

theorem vldm_st {mem : Bytes} (hm : mem.length = 48 * 4) (p : Nat) (hp : p < 12) : vldm 0 mem (16 * p) = some fun l => wd mem (p * 4 + l.val) := by
  unfold vldm
  rw [if_pos (by omega), show 16 * p = 4 * (p * 4) by omega]
  exact loadRow hm p hp

theorem vstm_st {mem : Bytes} (hm : mem.length = 48 * 4) (p : Nat) (hp : p < 12) (v : Vec 4) :
    ∃ mem', vstm 0 mem (16 * p) v = some mem' ∧ SUpd 4 mem mem' p (p + 1) (fun k _ _ => v.at k) := by
  unfold vstm
  rw [if_pos (by omega), show 16 * p = 4 * (p * 4) by omega]
  exact storeRow hm p hp v

/-- The registers after `vldm12`. -/
def loaded (mem : Bytes) (g : Regs) : Regs :=
  let r : Nat → Vec 4 := fun p l => wd mem (p * 4 + l.val)
  { g with q0 := r 0, q1 := r 1, q2 := r 2, q3 := r 3, q4 := r 4, q5 := r 5, q6 := r 6, q7 := r 7, q8 := r 8, q9 := r 9, q10 := r 10, q11 := r 11 }

theorem vldm12_ok {mem : Bytes} (hm : mem.length = 48 * 4) (g : Regs) : vldm12 mem g = some (loaded mem g) := by
  unfold vldm12
  simp only [Option.bind_eq_bind]
  rw [vldm_st hm 0 (by omega), Option.bind_some, vldm_st hm 1 (by omega), Option.bind_some, vldm_st hm 2 (by omega), Option.bind_some,
    vldm_st hm 3 (by omega), Option.bind_some, vldm_st hm 4 (by omega), Option.bind_some, vldm_st hm 5 (by omega), Option.bind_some,
    vldm_st hm 6 (by omega), Option.bind_some, vldm_st hm 7 (by omega), Option.bind_some, vldm_st hm 8 (by omega), Option.bind_some,
    vldm_st hm 9 (by omega), Option.bind_some, vldm_st hm 10 (by omega), Option.bind_some, vldm_st hm 11 (by omega), Option.bind_some]
  rfl

theorem loaded_view (mem : Bytes) (g : Regs) (l : Fin 4) : view 4 mem l.val = bytesOfLanes (Xoodoo.Opt.vars2State (inst (loaded mem g) l)) := by
  rw [view_eq]
  congr 1
  funext p
  fin_cases p <;> rfl

/-- The register stored in row `p`. -/
def Regs.row (g : Regs) (p : Nat) : Vec 4 :=
  match p with
  | 0 => g.q0 | 1 => g.q1 | 2 => g.q2 | 3 => g.q3 | 4 => g.q4 | 5 => g.q5 | 6 => g.q6 | 7 => g.q7 | 8 => g.q8 | 9 => g.q9 | 10 => g.q10 | _ => g.q11

theorem vstm12_ok {mem : Bytes} (hm : mem.length = 48 * 4) (g : Regs) :
    ∃ mem', vstm12 mem g = some mem' ∧ mem'.length = mem.length ∧
      ∀ l : Fin 4, view 4 mem' l.val = bytesOfLanes (Xoodoo.Opt.vars2State (inst g l)) := by
  have e : vstm12 mem g = seq (fun p mem => vstm 0 mem (16 * p) (g.row p)) [0, 1, 2, 3, 4, 5, 6, 7, 8, 9, 10, 11] mem := by
    simp only [vstm12, seq, Simd.seq, List.foldlM_cons, List.foldlM_nil, Regs.row, Nat.reduceMul, bind_pure]
  obtain ⟨mem', h1, h2⟩ := seq_inv (fun p mem => vstm 0 mem (16 * p) (g.row p))
    (fun p m => SUpd 4 mem m 0 p (fun k p _ => (g.row p).at k)) 1 12 0 12
    [0, 1, 2, 3, 4, 5, 6, 7, 8, 9, 10, 11] (by rfl) (by omega)
    (fun p m hp h => by
      obtain ⟨m', h1, h2⟩ := vstm_st (h.len.trans hm) p (by omega) (g.row p)
      refine ⟨m', h1, h.trans (h2.congr fun k _ p' x h3 h4 => ?_) (by omega) (by omega)⟩
      obtain rfl : p' = p := by omega
      rfl) mem (SUpd.refl _ _ _)
  refine ⟨mem', e.trans h1, h2.len, fun l => ?_⟩
  rw [view_eq]
  congr 1
  funext p
  rw [h2.lane l.val l.isLt, if_pos (by omega), Vec.at, dif_pos l.isLt]
  fin_cases p <;> rfl

theorem permuteAll_ok (g : Regs) (p : PlSnPFallback.Perm) (mem : Bytes) (hm : mem.length = 48 * 4) :
    ∃ mem', permuteAll g p mem = some mem' ∧ mem'.length = mem.length ∧ ∀ k < 4, view 4 mem' k = refPerm p (view 4 mem k) := by
  have h12 : ∃ mem', permute12 g mem = some mem' ∧ mem'.length = mem.length ∧ ∀ k < 4, view 4 mem' k = Xoodoo.Ref.permute12 (view 4 mem k) := by
    obtain ⟨mem', h3, h4, h5⟩ := vstm12_ok hm (round 0x00000012 <| round 0x000001A0 <| round 0x000000F0 <| round 0x00000380 <| round 0x0000002C <|
      round 0x00000060 <| round 0x00000014 <| round 0x00000120 <| round 0x000000D0 <| round 0x000003C0 <| round 0x00000038 <|
      round 0x00000058 <| loaded mem g)
    refine ⟨mem', ?_, h4, fun k hk => ?_⟩
    · unfold permute12
      rw [vldm12_ok hm g]
      exact h3
    · rw [h5 ⟨k, hk⟩]
      simp only [round_inst]
      rw [loaded_view mem g ⟨k, hk⟩]
      show _ = bytesOfLanes (Xoodoo.Ref.onWords 12 (lanesOfBytes (bytesOfLanes _)))
      rw [Xoodoo.lanesOfBytes_bytesOfLanes, ← Xoodoo.Opt.permute12_eq]
      rfl
  have h6 : ∃ mem', permute6 g mem = some mem' ∧ mem'.length = mem.length ∧ ∀ k < 4, view 4 mem' k = Xoodoo.Ref.permute6 (view 4 mem k) := by
    obtain ⟨mem', h3, h4, h5⟩ := vstm12_ok hm (round 0x00000012 <| round 0x000001A0 <| round 0x000000F0 <| round 0x00000380 <| round 0x0000002C <|
      round 0x00000060 <| loaded mem g)
    refine ⟨mem', ?_, h4, fun k hk => ?_⟩
    · unfold permute6
      rw [vldm12_ok hm g]
      exact h3
    · rw [h5 ⟨k, hk⟩]
      simp only [round_inst]
      rw [loaded_view mem g ⟨k, hk⟩]
      show _ = bytesOfLanes (Xoodoo.Ref.onWords 6 (lanesOfBytes (bytesOfLanes _)))
      rw [Xoodoo.lanesOfBytes_bytesOfLanes, ← Xoodoo.Opt.permute6_eq]
      rfl
  cases p
  · exact h12
  · exact h12
  · exact h6
  · exact h12

end XoodooTimes4Neon
