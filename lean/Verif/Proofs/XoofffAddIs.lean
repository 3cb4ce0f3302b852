import Verif.Model.XoofffSimd
import Verif.Proofs.Simd32Mem
import Verif.Proofs.FarfalleModes

/-!
# `AddIs` of the SIMD files for Xoofff
-/

namespace XoofffSimd

open Xoodoo (Lane byteOf)
open Simd32

/-- What the body of a loop does to `output`: its first `step` bytes are added to those of `input`. -/
def Adds (step : Nat) (body : Bytes → Bytes → Option Bytes) : Prop :=
  ∀ output input : Bytes, step ≤ output.length → step ≤ input.length →
    body output input = some (Bytes.xor (output.take step) (input.take step) ++ output.drop step)

theorem addLoop_eq {step : Nat} {body : Bytes → Bytes → Option Bytes} (h : Adds step body) : ∀ (fuel n : Nat) (t s : Bytes),
    n ≤ t.length → n ≤ s.length → addLoop step body fuel t s n = Farfalle.xorLoop step fuel t s n
  | 0, _, _, _, _, _ => rfl
  | fuel + 1, n, t, s, ht, hs => by
    unfold addLoop Farfalle.xorLoop
    split
    · rename_i hn
      have hl : (Bytes.xor (t.take step) (s.take step)).length = step := by
        rw [Bytes.length_xor, List.length_take, List.length_take]; omega
      rw [h t s (by omega) (by omega)]
      simp only [Option.bind_eq_bind, Option.bind_some]
      rw [SnP.readBuf_some (by omega : step ≤ t.length), SnP.readBuf_some (by omega : step ≤ s.length), Option.bind_some,
        Option.bind_some, List.drop_left' hl, List.take_left' hl,
        addLoop_eq h fuel (n - step) _ _ (by rw [List.length_drop]; omega) (by rw [List.length_drop]; omega)]
    · rfl

/-- The target of `Adds`, byte by byte. -/
theorem adds_ext {step : Nat} {output input r : Bytes} (ho : step ≤ output.length) (hi : step ≤ input.length)
    (hl : r.length = output.length) (h : ∀ q, r.getD q 0 = if q < step then input.getD q 0 ^^^ output.getD q 0 else output.getD q 0) :
    r = Bytes.xor (output.take step) (input.take step) ++ output.drop step := by
  have hx : (Bytes.xor (output.take step) (input.take step)).length = step := by
    rw [Bytes.length_xor, List.length_take, List.length_take]; omega
  refine bytes_ext (by rw [List.length_append, hx, List.length_drop]; omega) fun q hq => ?_
  rw [h q, List.getD_eq_getElem?_getD (l := _ ++ _)]
  split
  · rename_i hs
    rw [List.getElem?_append_left (by omega)]
    simp only [Bytes.xor, List.getElem?_zipWith, List.getElem?_take, if_pos hs, List.getD_eq_getElem?_getD]
    rw [List.getElem?_eq_getElem (by omega : q < output.length), List.getElem?_eq_getElem (by omega : q < input.length)]
    exact BitVec.xor_comm _ _
  · rw [List.getElem?_append_right (by omega), List.getElem?_drop, hx, show step + (q - step) = q by omega,
      List.getD_eq_getElem?_getD]

/-- A register added to memory. -/
theorem addVec_ok {n : Nat} (o input buf : Bytes) (i : Nat) (hb : 4 * i + 4 * n ≤ buf.length) :
    ∃ buf', storeVec buf (4 * i) (Simd32.xor (fun l : Fin n => wd input (i + l.val)) fun l => wd o (i + l.val)) = some buf' ∧
      buf'.length = buf.length ∧
      ∀ q, buf'.getD q 0 = if 4 * i ≤ q ∧ q < 4 * (i + n) then input.getD q 0 ^^^ o.getD q 0 else buf.getD q 0 := by
  obtain ⟨buf', e, h⟩ := storeVec_ok buf i (Simd32.xor (fun l : Fin n => wd input (i + l.val)) fun l => wd o (i + l.val)) hb
  refine ⟨buf', e, h.len, fun q => ?_⟩
  rw [h.byte q]
  split
  · rw [Vec.at, dif_pos (by omega)]
    show byteOf (wd input (i + (q / 4 - i)) ^^^ wd o (i + (q / 4 - i))) (q % 4) = _
    rw [Xoodoo.byteOf_xor, byteOf_wd _ _ _ (by omega), byteOf_wd _ _ _ (by omega),
      show 4 * (i + (q / 4 - i)) + q % 4 = q by omega]
  · rfl

theorem add32_ok : Adds 32 add32 := by
  intro o s ho hs
  obtain ⟨b, e, l, h⟩ := addVec_ok (n := 8) o s o 0 (by omega)
  unfold add32
  simp only [Option.bind_eq_bind]
  rw [loadVec_ok 8 s 0 (by omega), Option.bind_some, loadVec_ok 8 o 0 (by omega), Option.bind_some, e]
  refine congrArg some (adds_ext ho hs l fun q => ?_)
  rw [h]
  split <;> split <;> first | rfl | omega

theorem add128'_ok : Adds 128 add128' := by
  intro o s ho hs
  obtain ⟨b1, e1, l1, h1⟩ := addVec_ok (n := 16) o s o 0 (by omega)
  obtain ⟨b2, e2, l2, h2⟩ := addVec_ok (n := 16) o s b1 16 (by omega)
  unfold add128'
  simp only [Option.bind_eq_bind]
  rw [loadVec_ok 16 s 0 (by omega), Option.bind_some, loadVec_ok 16 s 16 (by omega), Option.bind_some, loadVec_ok 16 o 0 (by omega),
    Option.bind_some, loadVec_ok 16 o 16 (by omega), Option.bind_some, e1, Option.bind_some, e2]
  refine congrArg some (adds_ext ho hs (by omega) fun q => ?_)
  rw [h2, h1]
  repeat' split
  all_goals first | rfl | omega

theorem add128_ok : Adds 128 add128 := by
  intro o s ho hs
  obtain ⟨b1, e1, l1, h1⟩ := addVec_ok (n := 8) o s o 0 (by omega)
  obtain ⟨b2, e2, l2, h2⟩ := addVec_ok (n := 8) o s b1 8 (by omega)
  obtain ⟨b3, e3, l3, h3⟩ := addVec_ok (n := 8) o s b2 16 (by omega)
  obtain ⟨b4, e4, l4, h4⟩ := addVec_ok (n := 8) o s b3 24 (by omega)
  unfold add128
  simp only [Option.bind_eq_bind]
  rw [loadVec_ok 8 s 0 (by omega), Option.bind_some, loadVec_ok 8 s 8 (by omega), Option.bind_some, loadVec_ok 8 s 16 (by omega),
    Option.bind_some, loadVec_ok 8 s 24 (by omega), Option.bind_some, loadVec_ok 8 o 0 (by omega), Option.bind_some,
    loadVec_ok 8 o 8 (by omega), Option.bind_some, loadVec_ok 8 o 16 (by omega), Option.bind_some, loadVec_ok 8 o 24 (by omega),
    Option.bind_some, e1, Option.bind_some, e2, Option.bind_some, e3, Option.bind_some, e4]
  refine congrArg some (adds_ext ho hs (by omega) fun q => ?_)
  rw [h4, h3, h2, h1]
  repeat' split
  all_goals first | rfl | omega

theorem addIs_ok {big : Bytes → Bytes → Option Bytes} (hb : Adds 128 big) (t s : Bytes) (n : Nat) (ht : (n + 7) / 8 ≤ t.length)
    (hs : (n + 7) / 8 ≤ s.length) : addIs big t s n = Farfalle.addIs t s n := by
  rw [Farfalle.addIs_eq t s n ht hs]
  have h0 := Nat.div_mul_le_self (n / 8) 128
  generalize hm0 : n / 8 / 128 * 128 = m0 at h0
  have h1 := Nat.div_mul_le_self (n / 8 - m0) 32
  generalize hm1 : (n / 8 - m0) / 32 * 32 = m1 at h1
  have h2 := Nat.div_mul_le_self (n / 8 - m0 - m1) 8
  generalize hm2 : (n / 8 - m0 - m1) / 8 * 8 = m2 at h2
  have hx : Bytes.xor (t.take m0) (s.take m0) ++ Bytes.xor ((t.drop m0).take m1) ((s.drop m0).take m1) ++
      Bytes.xor (((t.drop m0).drop m1).take m2) (((s.drop m0).drop m1).take m2) ++
      Bytes.xor ((((t.drop m0).drop m1).drop m2).take (n / 8 - m0 - m1 - m2)) ((((s.drop m0).drop m1).drop m2).take (n / 8 - m0 - m1 - m2)) =
      Bytes.xor (t.take (n / 8)) (s.take (n / 8)) := by
    conv_rhs => rw [show n / 8 = m0 + m1 + m2 + (n / 8 - m0 - m1 - m2) by omega]
    simp only [List.take_add]
    simp only [Bytes.xor, List.drop_drop]
    rw [List.zipWith_append (by simp only [List.length_append, List.length_take, List.length_drop]; omega),
      List.zipWith_append (by simp only [List.length_append, List.length_take, List.length_drop]; omega),
      List.zipWith_append (by simp only [List.length_take]; omega)]
  unfold addIs
  simp only [Option.bind_eq_bind]
  rw [addLoop_eq hb _ _ t s (by omega) (by omega), Farfalle.xorLoop_eq 128 (by omega) _ _ t s (by omega) (by omega) (by omega),
    Option.bind_some]
  simp only [hm0]
  rw [addLoop_eq add32_ok _ _ _ _ (by rw [List.length_drop]; omega) (by rw [List.length_drop]; omega),
    Farfalle.xorLoop_eq 32 (by omega) _ _ _ _ (by omega) (by rw [List.length_drop]; omega) (by rw [List.length_drop]; omega),
    Option.bind_some]
  simp only [hm1]
  rw [Farfalle.xorLoop_eq 8 (by omega) _ _ _ _ (by omega) (by simp only [List.length_drop]; omega)
    (by simp only [List.length_drop]; omega), Option.bind_some]
  simp only [hm2]
  rw [Farfalle.xorLoop_eq 1 (by omega) _ _ _ _ (by omega) (by simp only [List.length_drop]; omega)
    (by simp only [List.length_drop]; omega), Option.bind_some]
  simp only [List.drop_drop] at hx
  simp only [Nat.div_one, Nat.mul_one, Farfalle.head?_drop, List.drop_drop, hx]
  rw [show m0 + m1 + m2 + (n / 8 - m0 - m1 - m2) = n / 8 by omega]

end XoofffSimd
