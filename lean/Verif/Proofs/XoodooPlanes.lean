import Verif.Model.XoodooPlanes
import Verif.Proofs.XoodooSimdRounds
import Verif.Proofs.XoodooBytes
import Mathlib.Tactic.IntervalCases
import Mathlib.Tactic.FinCases

/-!
The rounds on planes do to the twelve lanes what the reference rounds do.
-/

namespace XoodooPlanes

open Xoodoo (Lane Lanes wordOfBytes rotl32)
open Simd32 (Vec)

theorem rol_eq (isa : Isa) (a : Vec 4) (o : Nat) (h0 : 0 < o) (h1 : o < 32) : rol isa a o = fun l => rotl32 (a l) o := by
  funext l
  cases isa
  · exact XoodooSimd.rotl32_eq _ o h0 h1
  · exact XoodooSimd.rotateLeft_eq _ o h0 h1
  · exact XoodooSimd.rotateLeft_eq _ o h0 h1

theorem shuffle_eq (a : Vec 4) : shuffleEpi32 a 0x93 = fun l => a (l + 3) := by
  funext l; fin_cases l <;> rfl

theorem rhoEast2_eq (a : Vec 4) : Simd32.shuffleEpi8 a rhoEast2 = fun l => rotl32 (a (l + 2)) 8 := by
  funext l
  apply Xoodoo.lane_ext
  intro k hk
  rw [XoodooSimd.byteOf_rotl8 _ _ hk, Simd32.shuffleEpi8, Xoodoo.byteOf_wordOfBytes _ _ hk]
  fin_cases l <;> (interval_cases k <;> rfl)

theorem ternary_xor (a b c : Vec 4) : Simd32.ternarylogic a b c 0x96 = fun l => a l ^^^ b l ^^^ c l :=
  funext fun l => XoodooSimd.ternary_xor a b c l

theorem ternary_chi (a b c : Vec 4) : Simd32.ternarylogic a b c 0xD2 = fun l => a l ^^^ (~~~ b l &&& c l) :=
  funext fun l => XoodooSimd.ternary_chi a b c l

/-- The registers as the variables of the plain implementation. -/
def toV (s : Planes) : Xoodoo.Opt.V :=
  ⟨s.a0 0, s.a0 1, s.a0 2, s.a0 3, s.a1 0, s.a1 1, s.a1 2, s.a1 3, s.a2 0, s.a2 1, s.a2 2, s.a2 3⟩

theorem ternary_xor' (a b c : Vec 4) : Simd32.ternarylogic a b c 0x96 = Simd32.xor (Simd32.xor a b) c := ternary_xor a b c

theorem ternary_xor'' (a b c : Vec 4) : Simd32.ternarylogic a b c 0x96 = Simd32.xor a (Simd32.xor b c) :=
  (ternary_xor a b c).trans (funext fun _ => BitVec.xor_assoc _ _ _)

theorem ternary_chi' (a b c : Vec 4) : Simd32.ternarylogic a b c 0xD2 = Simd32.xor a (Simd32.andnot b c) := ternary_chi a b c

theorem round512_eq (rc : Lane) (s : Planes) : round512 rc s = round128 .avx512 rc s := by
  simp only [round512, round128, ternary_xor' s.a0 s.a1 s.a2, ternary_chi']
  simp only [ternary_xor'']

theorem round_eq (isa : Isa) (rc : Lane) (s : Planes) : round isa rc s = round128 isa rc s := by
  cases isa
  · rfl
  · rfl
  · exact round512_eq rc s

theorem set_rc (a : Vec 4) (rc : Lane) : Simd32.xor a (setEpi32 0 0 0 rc) = fun l => if l = 0 then a 0 ^^^ rc else a l := by
  funext l
  fin_cases l
  · rfl
  · exact BitVec.xor_zero
  · exact BitVec.xor_zero
  · exact BitVec.xor_zero

theorem toV_round (isa : Isa) (rc : Lane) (s : Planes) : toV (round isa rc s) = Xoodoo.Opt.round rc (toV s) := by
  rw [round_eq]
  simp only [round128, rol_eq isa _ _ (show 0 < 5 by decide) (by decide), rol_eq isa _ _ (show 0 < 14 by decide) (by decide),
    rol_eq isa _ _ (show 0 < 11 by decide) (by decide), rol_eq isa _ _ (show 0 < 1 by decide) (by decide), shuffle_eq, rhoEast2_eq, set_rc]
  rfl

theorem vars2State_eq (s : Planes) : vars2State s = Xoodoo.Opt.vars2State (toV s) := by
  funext i; fin_cases i <;> rfl

theorem toV_eq (s : Planes) : toV s = Xoodoo.Opt.state2Vars (vars2State s) := rfl

theorem vars2State_state2Vars (A : Lanes) : vars2State (state2Vars A) = A := by
  funext i; fin_cases i <;> rfl

theorem vars_round (isa : Isa) (rc : Lane) (s : Planes) : vars2State (round isa rc s) = Xoodoo.Ref.round rc (vars2State s) := by
  rw [vars2State_eq, toV_round, toV_eq, Xoodoo.Opt.round_eq, Xoodoo.Opt.vars2State_state2Vars]

theorem vars_rounds6 (isa : Isa) (s : Planes) : vars2State (rounds6 isa s) = Xoodoo.Ref.onWords 6 (vars2State s) := by
  simp only [rounds6, vars_round]; rfl

theorem vars_rounds12 (isa : Isa) (s : Planes) : vars2State (rounds12 isa s) = Xoodoo.Ref.onWords 12 (vars2State s) := by
  simp only [rounds12, vars_round]; rfl

theorem vars_loop (isa : Isa) (n a : Nat) (s : Planes) :
    vars2State (KeccakP1600.loopFrom (fun i s => round isa (Xoodoo.RC.getD i 0) s) a n s) =
      KeccakP1600.loopFrom (fun i A => Xoodoo.Ref.round (Xoodoo.RC.getD i 0) A) a n (vars2State s) := by
  induction n generalizing a s with
  | zero => rfl
  | succ n ih => rw [KeccakP1600.loopFrom, KeccakP1600.loopFrom, ih, vars_round]

theorem permuteNrounds_eq (isa : Isa) (nr : Nat) (A : Lanes) : permuteNrounds isa nr A = Xoodoo.Ref.onWords nr A := by
  rw [permuteNrounds, Xoodoo.Ref.onWords]
  split
  · rw [vars_loop, vars2State_state2Vars]
  · rw [vars2State_state2Vars]

theorem permute6_eq (isa : Isa) (A : Lanes) : permute6 isa A = Xoodoo.Ref.onWords 6 A := by
  rw [permute6, vars_rounds6, vars2State_state2Vars]

theorem permute12_eq (isa : Isa) (A : Lanes) : permute12 isa A = Xoodoo.Ref.onWords 12 A := by
  rw [permute12, vars_rounds12, vars2State_state2Vars]

/-! ### Byte access -/

open Xoodoo (bytesOfLanes lanesOfBytes length_bytesOfLanes bytesOfLanes_lanesOfBytes)
open Xoodoo.Opt (addFirst_eq addWords addWords_eq addPart_eq xorFirst_eq xorWords xorWords_eq shiftOut_eq slice_word slice_take memSet_eq
  getLane_some)
open Xoodoo (slice_bytesOfLanes)

theorem addBytes_eq (A : Lanes) (d : Bytes) (offset length : Nat) (h : offset + length ≤ 48) (hd : length ≤ d.length) :
    ∃ A', addBytes A d offset length = some A' ∧
      bytesOfLanes A' = Bytes.xorAt (bytesOfLanes A) offset (d.take length) := by
  rw [addBytes]
  obtain ⟨A1, k, L, hk, hL, e1, e2⟩ := addFirst_eq A d offset length h hd
  simp only [Option.bind_eq_bind]
  rw [e1]
  simp only [Option.bind_some]
  by_cases hz : length = k
  · subst hz
    have e3 : addWords (length + 1) A1 L (d.drop length) (length - length) = some (A1, L, d.drop length, 0) := by
      rw [addWords, Nat.sub_self, if_neg (by omega)]
    refine ⟨A1, ?_, e2⟩
    rw [e3]
    simp
  · have hL : L * 4 = offset + k := by omega
    obtain ⟨A2, e3, e4⟩ := addWords_eq (length + 1) A1 L (d.drop k) (length - k) (by omega) (by omega)
      (by simp; omega)
    rw [e3]
    simp only [Option.bind_some, List.drop_drop]
    have hl : (d.take k).length = k := by simp; omega
    rw [e2, hL, show offset + k = offset + (d.take k).length by rw [hl], Bytes.xorAt_append, ← List.take_add] at e4
    generalize hm : k + (length - k) / 4 * 4 = m at *
    generalize hr : (length - k) % 4 = r at *
    have hmr : m + r = length := by omega
    split
    · rename_i hpos
      have hl2 : ((d.drop m).take r).length = r := by simp; omega
      obtain ⟨A3, e5, e6⟩ := addPart_eq A2 (L + (length - k) / 4) 0 ((d.drop m).take r) (by omega) (by omega)
      refine ⟨A3, ?_, ?_⟩
      · rw [SnP.readBuf_some (by simp; omega)]
        exact e5
      · have hl3 : (d.take m).length = m := by simp; omega
        rw [e6, e4, Nat.add_zero, show (L + (length - k) / 4) * 4 = offset + (d.take m).length by rw [hl3]; omega,
          Bytes.xorAt_append, ← List.take_add, hmr]
    · rename_i hpos
      refine ⟨A2, rfl, ?_⟩
      rw [e4, show m = length by omega]

theorem overwriteBytes_eq (A : Lanes) (d : Bytes) (offset length : Nat) (h : offset + length ≤ 48)
    (hd : length ≤ d.length) :
    ∃ A', overwriteBytes A d offset length = some A' ∧
      bytesOfLanes A' = Bytes.setAt (bytesOfLanes A) offset (d.take length) := by
  refine ⟨lanesOfBytes (Bytes.setAt (bytesOfLanes A) offset (d.take length)), ?_, memSet_eq _ _ _⟩
  rw [overwriteBytes, SnP.readBuf_some hd]
  simp only [Option.bind_eq_bind, Option.bind_some]
  rw [if_pos h]

theorem extractAndAddBytes_eq (A : Lanes) (d : Bytes) (offset length : Nat) (h : offset + length ≤ 48)
    (hd : length ≤ d.length) :
    extractAndAddBytes A d offset length =
      some (Bytes.xor (d.take length) (Bytes.slice (bytesOfLanes A) offset length)) := by
  rw [extractAndAddBytes]
  obtain ⟨k, L, hk, hL, e1⟩ := xorFirst_eq A d offset length h hd
  simp only [Option.bind_eq_bind]
  rw [e1]
  simp only [Option.bind_some]
  by_cases hz : length = k
  · subst hz
    have e3 : xorWords A (length + 1) L (d.drop length) (length - length) = some ([], L, d.drop length, 0) := by
      rw [xorWords, Nat.sub_self, if_neg (by omega)]
    rw [e3]
    simp
  · have hL : L * 4 = offset + k := by omega
    rw [xorWords_eq A (length + 1) L (d.drop k) (length - k) (by omega) (by omega) (by simp; omega)]
    simp only [Option.bind_some, List.drop_drop]
    have hA := length_bytesOfLanes A
    have hl : (d.take k).length = k := by simp; omega
    have e2 : Bytes.xor (d.take k) (Bytes.slice (bytesOfLanes A) offset k) ++
        Bytes.xor ((d.drop k).take ((length - k) / 4 * 4))
          (Bytes.slice (bytesOfLanes A) (L * 4) ((length - k) / 4 * 4)) =
        Bytes.xor (d.take (k + (length - k) / 4 * 4))
          (Bytes.slice (bytesOfLanes A) offset (k + (length - k) / 4 * 4)) := by
      rw [hL, List.take_add, ← Relaned.slice_append (bytesOfLanes A), Relaned.xor_append _ _ _ _ ?_]
      rw [hl, Bytes.length_slice_of_le (by omega)]
    rw [e2]
    generalize hm : k + (length - k) / 4 * 4 = m at *
    generalize hr : (length - k) % 4 = r at *
    have hmr : m + r = length := by omega
    split
    · rename_i hpos
      have hl2 : ((d.drop m).take r).length = r := by simp; omega
      have hlm : (d.take m).length = m := by simp; omega
      have := shiftOut_eq ((d.drop m).take r) (A ⟨L + (length - k) / 4, by omega⟩) 0 (by omega)
      rw [Nat.zero_mul, BitVec.ushiftRight_zero] at this
      rw [getLane_some (by omega), SnP.readBuf_some (by simp; omega)]
      simp only [Option.bind_some, Option.some.injEq]
      rw [this, ← slice_bytesOfLanes A _ _ _ (by omega), hl2]
      simp only [Nat.add_zero]
      rw [show (L + (length - k) / 4) * 4 = offset + m by omega, ← hmr, List.take_add,
        ← Relaned.slice_append (bytesOfLanes A), Relaned.xor_append _ _ _ _ ?_]
      rw [hlm, Bytes.length_slice_of_le (by omega)]
    · rename_i hpos
      rw [show m = length by omega]

end XoodooPlanes
