import Verif.Proofs.XoodooTimes4NeonLanes
import Verif.Props.XoodooSimd
import Verif.Props.PlSnP

/-!
# Property C70: the ARMv7-A NEON implementation of four instances of Xoodoo in assembly

`XoodooTimes4Neon` is a model of `Xoodoo-times4-ARMv7A.s` up to the fast loops of Xoofff, instruction by instruction.  The specifications are `Spec/PlSnP.lean` (the
documentation of parallel states) and `Spec/Xoodoo.lean`.
-/

namespace XoodooTimes4Neon

open PlSpec (Independent)
open PlSnPFallback (ofPar Perm)
open XoodooSimd (refPerm)
open Simd32 (view Vec wd)

/-- C70: the functions act as documented on four independent states, whatever is in the NEON registers and whatever the addresses of the buffers are. -/
theorem C70_independent (g : Regs) (A : Addr) : Independent (impl g A) 48 refPerm (view 4) := impl_ok g A

/-- C70: the permutation functions compute Xoodoo with 12 and with 6 rounds on each of the four states. -/
theorem C70_permute (g : Regs) (st : Bytes) (h : st.length = 192) :
    (∃ st', permute12 g st = some st' ∧ st'.length = 192 ∧ ∀ k < 4, Bits.ofBytes (view 4 st' k) = Spec.Xoodoo.xoodoo 12 (Bits.ofBytes (view 4 st k))) ∧
    (∃ st', permute6 g st = some st' ∧ st'.length = 192 ∧ ∀ k < 4, Bits.ofBytes (view 4 st' k) = Spec.Xoodoo.xoodoo 6 (Bits.ofBytes (view 4 st k))) := by
  constructor
  · obtain ⟨st', e, l, v⟩ := permuteAll_ok g .r12 st h
    exact ⟨st', e, l.trans h, fun k hk => by rw [v k hk]; exact (XoodooSimd.C47_permutations _ (by simp)).1.2⟩
  · obtain ⟨st', e, l, v⟩ := permuteAll_ok g .r6 st h
    exact ⟨st', e, l.trans h, fun k hk => by rw [v k hk]; exact (XoodooSimd.C47_permutations _ (by simp)).2.2⟩

/-- C70: eight and sixteen states by the fallback layer (`PlSnP-Fallback.inc`) over this implementation. -/
theorem C70_fallback (g : Regs) (A : Addr) :
    (∃ v, Independent (ofPar (impl g A) 8) 48 refPerm v) ∧ (∃ v, Independent (ofPar (impl g A) 16) 48 refPerm v) :=
  ⟨PlSnPFallback.C41_parallel 8 (C70_independent g A) (Nat.zero_lt_succ 3) (Nat.zero_lt_succ 15) (by decide : (4 : Nat) ∣ 8),
    PlSnPFallback.C41_parallel 16 (C70_independent g A) (Nat.zero_lt_succ 3) (Nat.zero_lt_succ 15) (by decide : (4 : Nat) ∣ 16)⟩

/-- The registers `q4`, ..., `q7` (`d8`, ..., `d15`) are the same: the procedure call standard for the ARM architecture requires it of every function. -/
def Preserved (g g' : Regs) : Prop := g'.q4 = g.q4 ∧ g'.q5 = g.q5 ∧ g'.q6 = g.q6 ∧ g'.q7 = g.q7

/-- The lane `p` of the four blocks of 12 lanes of the data, as a NEON register. -/
def blockLane (data : Bytes) (p : Nat) : Vec 4 := fun l => Xoodoo.wordOfBytes (data.drop (48 * l.val + 4 * p))

theorem blockLane_eq (data : Bytes) (p : Nat) : blockLane data p = row data 12 p := by
  funext l
  simp only [blockLane, row, wd]
  congr 2
  omega

/-- C70, negative: when 12 lanes are added from four consecutive blocks at a multiple of 4, `Xoodootimes4_AddLanesAll` returns with lanes 6, 10, 1 and 5 of the data in the
registers `q4`, ..., `q7`, whatever they contained at the call. -/
theorem C70_clobbers (base : Nat) (hb : base % 4 = 0) (g : Regs) (st data : Bytes) (hs : st.length = 192) (hd : 192 ≤ data.length) :
    ∃ g' st', addLanes base g st data 12 12 = some (g', st') ∧ g'.q4 = blockLane data 6 ∧ g'.q5 = blockLane data 10 ∧ g'.q6 = blockLane data 1 ∧
      g'.q7 = blockLane data 5 := by
  obtain ⟨g', st', e, _, a, b, c, d, hg⟩ := addFull_ok hb (mem := st) hs hd g
  refine ⟨g', st', ?_, ?_⟩
  · unfold addLanes
    rw [if_pos ⟨rfl, rfl, hb⟩]
    exact e
  · simp only [blockLane_eq]
    rw [hg]
    exact ⟨rfl, rfl, rfl, rfl⟩

/-- C70, negative: the registers are not preserved in general. -/
theorem C70_registers_fails :
    ¬ ∀ (base : Nat) (g g' : Regs) (st st' data : Bytes) (lc lo : Nat), st.length = 192 → lc * 4 ≤ 48 → 4 * (lo * 4) < 2 ^ 32 →
      PlSpec.InBuf 4 (lo * 4) (lc * 4) data → addLanes base g st data lc lo = some (g', st') → Preserved g g' := by
  intro h
  let z : Vec 4 := Simd32.set1 0
  let g : Regs := ⟨z, z, z, z, z, z, z, z, z, z, z, z, z, z, z, z⟩
  obtain ⟨g', st', e, h4, _⟩ := C70_clobbers 0 rfl g (Bytes.zeros 192) (List.replicate 192 0xFF) (by decide +kernel) (by decide +kernel)
  have := (h 0 g g' _ _ _ 12 12 (by decide +kernel) (by decide) (by decide)
    (show ∀ k < 4, k * (12 * 4) + 12 * 4 ≤ (List.replicate 192 (0xFF : Byte)).length by decide +kernel) e).1
  rw [h4] at this
  have h0 := congrFun this 0
  revert h0
  show ¬ (blockLane (List.replicate 192 0xFF) 6 0 = (0 : BitVec 32))
  decide +kernel

/-- C70, partial: the registers are preserved by `Xoodootimes4_AddLanesAll` in the other cases.  What is missing is the case of `C70_clobbers`, in which they are not. -/
theorem C70_registers_partial (base : Nat) (g : Regs) (st data : Bytes) (lc lo : Nat) (hs : st.length = 192) (h12 : lc * 4 ≤ 48) (h32 : 4 * (lo * 4) < 2 ^ 32)
    (hd : PlSpec.InBuf 4 (lo * 4) (lc * 4) data) (hc : ¬ (lc = 12 ∧ lo = 12 ∧ base % 4 = 0)) :
    ∃ g' st', addLanes base g st data lc lo = some (g', st') ∧ Preserved g g' := by
  have ha := Simd32.Acc.of h32 hd
  obtain ⟨s, e, _, q0, q1, hg⟩ := addLoop_ok g (mem := st) hs (by omega) ha (fun p hp q => get_ok base ha hp q)
  refine ⟨s.g, s.st, ?_, ?_⟩
  · unfold addLanes
    rw [if_neg (by omega), e]
    rfl
  · rw [hg]
    exact ⟨rfl, rfl, rfl, rfl⟩

/-! ## Concrete cases -/

/-- Registers with some contents. -/
def someRegs : Regs :=
  let v : Nat → Vec 4 := fun i l => BitVec.ofNat 32 (1000 * i + l.val)
  ⟨v 0, v 1, v 2, v 3, v 4, v 5, v 6, v 7, v 8, v 9, v 10, v 11, v 12, v 13, v 14, v 15⟩

-- both kinds of addresses
example : Independent (impl someRegs ⟨8, 16, 24⟩) 48 refPerm (view 4) := C70_independent _ _
example : Independent (impl someRegs ⟨9, 16, 26⟩) 48 refPerm (view 4) := C70_independent _ _

-- adding 20 bytes at offset 5 of the third state
example : ∃ mem', (impl someRegs ⟨9, 16, 26⟩).addBytes (Bytes.zeros 192) 2 (List.replicate 20 0xFF) 5 = some mem' ∧
    view 4 mem' 0 = view 4 (Bytes.zeros 192) 0 ∧ view 4 mem' 3 = view 4 (Bytes.zeros 192) 3 ∧ (view 4 mem' 2).getD 4 0 = 0 ∧ (view 4 mem' 2).getD 5 0 = 0xFF ∧
    (view 4 mem' 2).getD 24 0 = 0xFF ∧ (view 4 mem' 2).getD 25 0 = 0 := by
  obtain ⟨mem', e, _, h1, h2⟩ := (C70_independent someRegs ⟨9, 16, 26⟩).addBytes (Bytes.zeros 192) (by decide +kernel) 2 (by decide) (List.replicate 20 0xFF) 5 (by decide)
  refine ⟨mem', e, h2 0 (by decide) (by decide), h2 3 (by decide) (by decide), ?_⟩
  rw [h1]
  decide +kernel

-- twelve lanes from four consecutive blocks at a multiple of 4, which are transposed
example : ∃ mem', (impl someRegs ⟨8, 16, 24⟩).addLanesAll (Bytes.zeros 192) ((List.range 192).map (BitVec.ofNat 8)) 12 12 = some mem' ∧
    (view 4 mem' 0).getD 47 0 = 47 ∧ (view 4 mem' 1).getD 0 0 = 48 ∧ (view 4 mem' 2).getD 23 0 = 119 ∧ (view 4 mem' 3).getD 46 0 = 190 := by
  obtain ⟨mem', e, _, h⟩ := (C70_independent someRegs ⟨8, 16, 24⟩).addLanesAll (Bytes.zeros 192) (by decide +kernel)
    ((List.range 192).map (BitVec.ofNat 8)) 12 12 (by decide) (by decide)
    (show ∀ k < 4, k * (12 * 4) + 12 * 4 ≤ ((List.range 192).map (BitVec.ofNat 8)).length by decide +kernel)
  refine ⟨mem', e, ?_⟩
  rw [h 0 (by decide), h 1 (by decide), h 2 (by decide), h 3 (by decide)]
  decide +kernel

-- the registers are preserved when the data is not at a multiple of 4
example : ∃ g' st', addLanes 9 someRegs (Bytes.zeros 192) (List.replicate 192 0xFF) 12 12 = some (g', st') ∧ Preserved someRegs g' :=
  C70_registers_partial 9 someRegs _ _ 12 12 (by decide +kernel) (by decide) (by decide)
    (show ∀ k < 4, k * (12 * 4) + 12 * 4 ≤ (List.replicate 192 (0xFF : Byte)).length by decide +kernel) (by decide)

-- and otherwise not
example : ∃ g' st', addLanes 8 someRegs (Bytes.zeros 192) (List.replicate 192 0xFF) 12 12 = some (g', st') ∧ g'.q4 0 = 0xFFFFFFFF ∧ someRegs.q4 0 = 4000 := by
  obtain ⟨g', st', e, h4, _⟩ := C70_clobbers 8 rfl someRegs (Bytes.zeros 192) (List.replicate 192 0xFF) (by decide +kernel) (by decide +kernel)
  exact ⟨g', st', e, by rw [h4]; decide +kernel, by decide +kernel⟩

-- both permutations
example := C70_permute someRegs (List.replicate 192 0x5A) (by decide +kernel)

end XoodooTimes4Neon
