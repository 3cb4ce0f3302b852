import Verif.Proofs.KeccakAvx2Bytes

/-!
The fast absorption loops of the AVX2 implementation in assembly.
-/

namespace Avx2Asm

open KeccakP1600 (Lane Lanes wordOfBytes bytesOfWord bytesOfLanes)
open Avx2Layout (place view)
open X86

theorem gather_on (m : Bytes) (a : Nat) (d : Lane) (h : a + 8 ≤ m.length) :
    gather1 m a ALLON d = some (wordOfBytes (m.drop a)) ∧ gather1 m a (BitVec.allOnes 64) d = some (wordOfBytes (m.drop a)) :=
  ⟨rd64_ok m a h, rd64_ok m a h⟩

theorem gather_off (m : Bytes) (a : Nat) (d : Lane) : gather1 m a 0 d = some d := rfl

theorem gather_eq (mask : Ymm) (m : Bytes) (base a b c d : Nat) (w x y z : Lane)
    (h0 : gather1 m (base + a) mask.q0 0 = some w) (h1 : gather1 m (base + b) mask.q1 0 = some x)
    (h2 : gather1 m (base + c) mask.q2 0 = some y) (h3 : gather1 m (base + d) mask.q3 0 = some z) :
    vpgatherdq mask m base [a, b, c, d] zero = some ⟨w, x, y, z⟩ := by
  show (gather1 m (base + a) mask.q0 0).bind (fun w => (gather1 m (base + b) mask.q1 0).bind fun x =>
    (gather1 m (base + c) mask.q2 0).bind fun y => (gather1 m (base + d) mask.q3 0).bind fun z => some (Ymm.mk w x y z)) = _
  rw [h0, h1, h2, h3]; rfl

/-- Addition of a block of `n` lanes. -/
def AddsBlock (n : Nat) (addBlock : Bytes → Nat → Regs → Option Regs) : Prop :=
  ∀ (data : Bytes) (rdx : Nat) (s : Regs), rdx + n * 8 ≤ data.length → Ok s → ∃ s', addBlock data rdx s = some s' ∧ Ok s' ∧
    bytesOfLanes (lanesOf s') = Bytes.xorAt (bytesOfLanes (lanesOf s)) 0 ((data.drop rdx).take (n * 8))

theorem addBlock21_eq : AddsBlock 21 addBlock21 := by
  intro data rdx s h hs
  have on : ∀ k, k < 21 → gather1 data (rdx + k * 8) ALLON 0 = some (wordOfBytes (data.drop (rdx + 8 * k))) := fun k hk => by
    rw [(gather_on data _ 0 (by omega)).1, Nat.mul_comm]
  have on' : ∀ k, k < 21 → gather1 data (rdx + k * 8) (BitVec.allOnes 64) 0 = some (wordOfBytes (data.drop (rdx + 8 * k))) := fun k hk => by
    rw [(gather_on data _ 0 (by omega)).2, Nat.mul_comm]
  have off : ∀ k, gather1 data (rdx + k * 8) 0 0 = some 0 := fun k => rfl
  unfold addBlock21 map2 map3 map4 map5 map6
  rw [broadcast_ok _ _ (by omega), load_ok _ _ (by omega),
    gather_eq ones data rdx _ _ _ _ _ _ _ _ (on' 10 (by decide)) (on' 20 (by decide)) (on' 5 (by decide)) (on' 15 (by decide)),
    gather_eq mask3_21 data rdx _ _ _ _ _ _ _ _ (on 16 (by decide)) (on 7 (by decide)) (off 23) (on 14 (by decide)),
    gather_eq mask4_21 data rdx _ _ _ _ _ _ _ _ (on 11 (by decide)) (off 22) (on 8 (by decide)) (on 19 (by decide)),
    gather_eq mask5_21 data rdx _ _ _ _ _ _ _ _ (off 21) (on 17 (by decide)) (on 13 (by decide)) (on 9 (by decide)),
    gather_eq mask6_21 data rdx _ _ _ _ _ _ _ _ (on 6 (by decide)) (on 12 (by decide)) (on 18 (by decide)) (off 24)]
  refine ⟨_, rfl, ?_, ?_⟩
  · show vpxor (rep4 _) s.y0 = rep4 (s.y0.q0 ^^^ _)
    rw [hs]; rfl
  · apply bytes_xor _ _ _ _ _ h
    intro i
    fin_cases i <;> first | rfl | exact BitVec.xor_zero

theorem addBlock17_eq : AddsBlock 17 addBlock17 := by
  intro data rdx s h hs
  have on : ∀ k, k < 17 → gather1 data (rdx + k * 8) ALLON 0 = some (wordOfBytes (data.drop (rdx + 8 * k))) := fun k hk => by
    rw [(gather_on data _ 0 (by omega)).1, Nat.mul_comm]
  have off : ∀ k, gather1 data (rdx + k * 8) 0 0 = some 0 := fun k => rfl
  unfold addBlock17 map2 map3 map4 map5 map6
  rw [broadcast_ok _ _ (by omega), load_ok _ _ (by omega),
    gather_eq mask2_17 data rdx _ _ _ _ _ _ _ _ (on 10 (by decide)) (off 20) (on 5 (by decide)) (on 15 (by decide)),
    gather_eq mask3_17 data rdx _ _ _ _ _ _ _ _ (on 16 (by decide)) (on 7 (by decide)) (off 23) (on 14 (by decide)),
    gather_eq mask4_17 data rdx _ _ _ _ _ _ _ _ (on 11 (by decide)) (off 22) (on 8 (by decide)) (off 19),
    gather_eq mask5_17 data rdx _ _ _ _ _ _ _ _ (off 21) (off 17) (on 13 (by decide)) (on 9 (by decide)),
    gather_eq mask6_17 data rdx _ _ _ _ _ _ _ _ (on 6 (by decide)) (on 12 (by decide)) (off 18) (off 24)]
  refine ⟨_, rfl, ?_, ?_⟩
  · show vpxor (rep4 _) s.y0 = rep4 (s.y0.q0 ^^^ _)
    rw [hs]; rfl
  · apply bytes_xor _ _ _ _ _ h
    intro i
    fin_cases i <;> first | rfl | exact BitVec.xor_zero

theorem regLoop_eq (nr : Nat) (h1 : nr < 24) (n : Nat) (hn : 0 < n) (addBlock : Bytes → Nat → Regs → Option Regs) (ha : AddsBlock n addBlock)
    (data : Bytes) : ∀ (fuel rdx rcx : Nat) (s : Regs), rcx < fuel → rdx + (rcx + n) * 8 ≤ data.length → Ok s →
      ∃ s', regLoop n addBlock (32 * (24 - (nr + 1))) (nr + 1) data fuel rdx rcx s = some (s', rdx + (rcx + n) / n * (n * 8)) ∧
        bytesOfLanes (lanesOf s') =
          SnP.absorbBlocks (KeccakP1600.Ref.permuteNrounds (nr + 1)) (n * 8) ((rcx + n) / n) (bytesOfLanes (lanesOf s)) (data.drop rdx) := by
  intro fuel
  induction fuel with
  | zero => intro rdx rcx s h; omega
  | succ fuel ih =>
    intro rdx rcx s hf hd hs
    obtain ⟨s1, e1, o1, b1⟩ := ha data rdx s (by rw [Nat.add_mul] at hd; omega) hs
    obtain ⟨s2, e2, o2, b2⟩ := keccakF1600_eq nr (2 ^ 32) (24 - (nr + 1)) s1 (by omega) (by omega) o1
    have b3 : bytesOfLanes (lanesOf s2) = KeccakP1600.Ref.permuteNrounds (nr + 1) (bytesOfLanes (lanesOf s1)) := by
      rw [b2, KeccakP1600.Opt64.run_onWords, KeccakP1600.Ref.permuteNrounds, KeccakP1600.lanesOfBytes_bytesOfLanes]
    rw [regLoop, e1, Option.bind_eq_bind, Option.bind_some]
    simp only [Option.bind_eq_bind]
    rw [e2, Option.bind_some]
    by_cases hc : rcx ≥ n
    · have hq : (rcx + n) / n = (rcx - n + n) / n + 1 := by rw [Nat.add_div_right _ hn, Nat.sub_add_cancel hc]
      have hmul : (rcx + n) * 8 = (rcx - n + n) * 8 + n * 8 := by rw [← Nat.add_mul, Nat.sub_add_cancel hc]
      obtain ⟨s3, e3, b4⟩ := ih (rdx + n * 8) (rcx - n) s2 (by omega) (by omega) o2
      refine ⟨s3, ?_, ?_⟩
      · rw [if_pos hc, e3, hq, Nat.add_mul _ 1, Nat.one_mul, Nat.add_assoc, Nat.add_comm (n * 8)]
      · rw [b4, b3, b1, hq, SnP.absorbBlocks, List.drop_drop]
    · have hq : (rcx + n) / n = 1 := by rw [Nat.add_div_right _ hn, Nat.div_eq_of_lt (by omega)]
      refine ⟨s2, ?_, ?_⟩
      · rw [if_neg hc, hq, Nat.one_mul]
      · rw [b3, b1, hq, SnP.absorbBlocks, SnP.absorbBlocks]

theorem lanesAddLoop_eq (st0 data : Bytes) (pos n : Nat) (hn : n ≤ 25) (hd : pos + n * 8 ≤ data.length) :
    ∀ (fuel k : Nat) (t : Bytes), n - k < fuel → k < n → Written .xor st0 (data.drop pos) 0 (k * 8) t →
      ∃ t', lanesAddLoop data fuel t (pos + k * 8) (k * 8) (n - k) = some (t', pos + n * 8) ∧ Written .xor st0 (data.drop pos) 0 (n * 8) t' := by
  intro fuel
  induction fuel with
  | zero => intro k t h; omega
  | succ fuel ih =>
    intro k t hf hk hw
    have hp := phys_lt (k * 8) (by omega)
    have e0 : phys (0 + k * 8) = 8 * place (k * 8 / 8) := by rw [Nat.zero_add, phys, Nat.mul_mod_left]; rfl
    have hdl : k * 8 + 8 ≤ (data.drop pos).length := by rw [List.length_drop]; omega
    have hs := hw.step 8 (by decide) (by omega) (by omega) hdl
    rw [lanesAddLoop, rd64_ok _ _ (by omega), quad_map _ (by omega) (by omega)]
    simp only [Option.bind_eq_bind, Option.bind_some]
    rw [rd64_ok _ _ (by rw [hw.1]; omega), Option.bind_some, ← List.drop_drop]
    have := wr64_op .xor t (data.drop pos) (8 * place (k * 8 / 8)) (k * 8) (by rw [hw.1]; omega) hdl
    rw [show wordOfBytes (t.drop (8 * place (k * 8 / 8))) ^^^ wordOfBytes ((data.drop pos).drop (k * 8)) =
      Op.on .xor (wordOfBytes (t.drop (8 * place (k * 8 / 8)))) (wordOfBytes ((data.drop pos).drop (k * 8))) from rfl, this, Option.bind_some,
      sub64_eq (by omega) (by omega)]
    rw [e0, show k * 8 + 8 = (k + 1) * 8 by omega] at hs
    by_cases hc : n - k - 1 ≠ 0
    · obtain ⟨t', e1, e2⟩ := ih (k + 1) _ (by omega) (by omega) hs
      refine ⟨t', ?_, e2⟩
      rw [if_pos hc, ← e1, Nat.sub_sub, Nat.add_assoc, show k * 8 + 8 = (k + 1) * 8 by omega]
    · refine ⟨_, ?_, by rwa [show n = k + 1 by omega]⟩
      rw [if_neg hc, show pos + k * 8 + 8 = pos + n * 8 by omega]

theorem memLoop_eq (permute : Bytes → Option Bytes) (f : Bytes → Bytes)
    (hp : ∀ s : Bytes, s.length = 200 → ∃ t, permute s = some t ∧ t.length = 200 ∧ view t = f (view s)) (n : Nat) (h0 : 0 < n) (hn : n ≤ 25)
    (data : Bytes) : ∀ (fuel : Nat) (st : Bytes) (rdx rcx : Nat), rcx < fuel → n ≤ rcx → rdx + rcx * 8 ≤ data.length → st.length = 200 →
      ∃ t, memLoop permute n data fuel st rdx rcx = some (t, rdx + rcx / n * (n * 8)) ∧ t.length = 200 ∧
        view t = SnP.absorbBlocks f (n * 8) (rcx / n) (view st) (data.drop rdx) := by
  intro fuel
  induction fuel with
  | zero => intro st rdx rcx h; omega
  | succ fuel ih =>
    intro st rdx rcx hf hc hd hs
    have hmul : rcx * 8 = (rcx - n) * 8 + n * 8 := by rw [← Nat.add_mul, Nat.sub_add_cancel hc]
    obtain ⟨t1, e1, hw⟩ := lanesAddLoop_eq st data rdx n hn (by omega) 26 0 st (by omega) h0
      (by rw [Nat.zero_mul]; exact written_zero .xor st _ hs 0)
    rw [Nat.zero_mul, Nat.add_zero, Nat.sub_zero] at e1
    obtain ⟨t2, e2, l2, v2⟩ := hp t1 hw.1
    have v1 : view t1 = Bytes.xorAt (view st) 0 ((data.drop rdx).take (n * 8)) := hw.2
    have hq : rcx / n = (rcx - n) / n + 1 := Nat.div_eq_sub_div h0 hc
    rw [memLoop]
    simp only
    rw [e1]
    simp only [Option.bind_eq_bind, Option.bind_some]
    rw [e2, Option.bind_some]
    by_cases hc' : rcx - n ≥ n
    · obtain ⟨t3, e3, l3, v3⟩ := ih t2 (rdx + n * 8) (rcx - n) (by omega) hc' (by omega) l2
      refine ⟨t3, ?_, l3, ?_⟩
      · rw [if_pos hc', e3, hq, Nat.add_mul _ 1, Nat.one_mul, Nat.add_assoc, Nat.add_comm (n * 8)]
      · rw [v3, v2, v1, hq, SnP.absorbBlocks, List.drop_drop]
    · have hz : (rcx - n) / n = 0 := Nat.div_eq_of_lt (by omega)
      refine ⟨t2, ?_, l2, ?_⟩
      · rw [if_neg hc', hq, hz, Nat.zero_add, Nat.one_mul]
      · rw [v2, v1, hq, hz, SnP.absorbBlocks, SnP.absorbBlocks]

theorem fastLoop_eq (nr : Nat) (h1 : nr < 24) (permute : Bytes → Option Bytes)
    (hp : ∀ s : Bytes, s.length = 200 → ∃ t, permute s = some t ∧ t.length = 200 ∧ view t = KeccakP1600.Ref.permuteNrounds (nr + 1) (view s))
    (st : Bytes) (hs : st.length = 200) (n : Nat) (h0 : 0 < n) (hn : n ≤ 25) (data : Bytes) :
    ∃ t, fastLoop (32 * (24 - (nr + 1))) (nr + 1) permute st n data = some (t, data.length / (n * 8) * (n * 8)) ∧ t.length = 200 ∧
      view t = SnP.absorbBlocks (KeccakP1600.Ref.permuteNrounds (nr + 1)) (n * 8) (data.length / (n * 8)) (view st) data := by
  have hdiv : data.length / (n * 8) = data.length / 2 ^ 3 / n := by rw [Nat.mul_comm, Nat.div_div_eq_div_mul]; rfl
  have h8 : data.length / 2 ^ 3 * 8 ≤ data.length := Nat.div_mul_le_self _ _
  rw [hdiv, fastLoop]
  simp only [Option.bind_eq_bind]
  generalize data.length / 2 ^ 3 = rcx at *
  -- with the state in the registers
  have reg : ∀ addBlock, AddsBlock n addBlock → n ≤ rcx →
      ∃ t, ((loadState st).bind fun s => (regLoop n addBlock (32 * (24 - (nr + 1))) (nr + 1) data (rcx - n + 1) 0 (rcx - n) s).bind fun x =>
        (saveState x.1 st).bind fun t => some (t, x.2)) = some (t, rcx / n * (n * 8)) ∧ t.length = 200 ∧
      view t = SnP.absorbBlocks (KeccakP1600.Ref.permuteNrounds (nr + 1)) (n * 8) (rcx / n) (view st) data := by
    intro addBlock ha hc
    obtain ⟨s, e1, o1, l1⟩ := loadState_eq st hs
    obtain ⟨s', e2, b2⟩ := regLoop_eq nr h1 n h0 addBlock ha data (rcx - n + 1) 0 (rcx - n) s (by omega)
      (by rw [Nat.sub_add_cancel hc]; omega) o1
    rw [Nat.sub_add_cancel hc, Nat.zero_add] at e2
    rw [Nat.sub_add_cancel hc, List.drop_zero, l1, KeccakP1600.bytesOfLanes_lanesOfBytes _ (length_view st)] at b2
    refine ⟨stored s', ?_, length_stored s', by rw [view_stored, b2]⟩
    rw [e1, Option.bind_some, e2, Option.bind_some, saveState_eq _ _ hs, Option.bind_some]
  by_cases hc : rcx < n
  · rw [if_pos hc, Nat.div_eq_of_lt hc]
    exact ⟨st, by rw [Nat.zero_mul], hs, by rw [SnP.absorbBlocks]⟩
  · rw [if_neg hc]
    by_cases h21 : n = 21
    · subst h21
      rw [if_pos rfl]
      exact reg _ addBlock21_eq (by omega)
    · rw [if_neg h21]
      by_cases h17 : n = 17
      · subst h17
        rw [if_pos rfl]
        exact reg _ addBlock17_eq (by omega)
      · rw [if_neg h17]
        obtain ⟨t, e, l, v⟩ := memLoop_eq permute _ hp n h0 hn data (rcx + 1) st 0 rcx (by omega) (by omega) (by omega) hs
        rw [Nat.zero_add] at e
        exact ⟨t, e, l, v⟩

end Avx2Asm
