import Verif.Proofs.KeccakAvx512Bytes

/-!
The fast absorption loops of the AVX-512 implementation in assembly.
-/

namespace Avx512Asm

open KeccakP1600 (Lane Lanes wordOfBytes bytesOfWord bytesOfLanes)
open X86

/-- Addition of a block of `n` lanes. -/
def AddsBlock (n : Nat) (addBlock : Bytes → Nat → Regs → Option Regs) : Prop :=
  ∀ (data : Bytes) (rdx : Nat) (s : Regs), rdx + n * 8 ≤ data.length → ∃ s', addBlock data rdx s = some s' ∧
    bytesOfLanes (lanesOf s') = Bytes.xorAt (bytesOfLanes (lanesOf s)) 0 ((data.drop rdx).take (n * 8))

theorem load5 (data : Bytes) (a : Nat) (h : a + 40 ≤ data.length) :
    Plane512.maskzLoad k6 data a = some fun i => if i.val < 5 then wordOfBytes (data.drop (a + 8 * i.val)) else 0 :=
  Plane512.load_ok 5 data a (by omega)

theorem load1 (data : Bytes) (a : Nat) (h : a + 8 ≤ data.length) :
    Plane512.maskzLoad k1 data a = some fun i => if i.val < 1 then wordOfBytes (data.drop (a + 8 * i.val)) else 0 :=
  Plane512.load_ok 1 data a (by omega)

theorem merge2 (data : Bytes) (a : Nat) (h : a + 16 ≤ data.length) (z : Zmm) :
    loadMerge k2 data a z = some fun i => if i.val = 1 then wordOfBytes (data.drop (a + 8 * i.val)) else z i := by
  have hk : ∀ i : Fin 8, k2.testBit i.val = decide (i.val = 1) := by decide
  unfold loadMerge
  rw [Plane512.maskzLoad_ok]
  · show some _ = _
    congr 1
    funext i
    unfold Plane512.maskBlend
    simp only [hk, decide_eq_true_eq]
    split <;> rfl
  · intro i hi
    rw [hk] at hi
    have := of_decide_eq_true hi
    omega

theorem addBlock21_eq : AddsBlock 21 addBlock21 := by
  intro data rdx s h
  unfold addBlock21
  rw [load5 _ _ (by omega), load5 _ _ (by omega), load5 _ _ (by omega), load5 _ _ (by omega), load1 _ _ (by omega)]
  refine ⟨_, rfl, ?_⟩
  apply bytes_xor _ _ _ _ _ h
  intro i
  fin_cases i <;> first | rfl | exact BitVec.xor_zero

theorem addBlock17_eq : AddsBlock 17 addBlock17 := by
  intro data rdx s h
  unfold addBlock17
  rw [load5 _ _ (by omega), load5 _ _ (by omega), load5 _ _ (by omega), load1 _ _ (by omega)]
  simp only [Option.bind_eq_bind, Option.bind_some]
  rw [merge2 _ _ (by omega)]
  refine ⟨_, rfl, ?_⟩
  apply bytes_xor _ _ _ _ _ h
  intro i
  fin_cases i <;> first | rfl | exact BitVec.xor_zero

theorem regLoop_eq (nr : Nat) (h1 : nr < 12) (n : Nat) (hn : 0 < n) (addBlock : Bytes → Nat → Regs → Option Regs) (ha : AddsBlock n addBlock)
    (data : Bytes) : ∀ (fuel rdx rcx : Nat) (s : Regs), rcx < fuel → rdx + (rcx + n) * 8 ≤ data.length →
      ∃ s', regLoop n addBlock (8 * (24 - 2 * (nr + 1))) (nr + 1) data fuel rdx rcx s = some (s', rdx + (rcx + n) / n * (n * 8)) ∧
        bytesOfLanes (lanesOf s') =
          SnP.absorbBlocks (KeccakP1600.Ref.permuteNrounds (2 * (nr + 1))) (n * 8) ((rcx + n) / n) (bytesOfLanes (lanesOf s)) (data.drop rdx) := by
  intro fuel
  induction fuel with
  | zero => intro rdx rcx s h; omega
  | succ fuel ih =>
    intro rdx rcx s hf hd
    obtain ⟨s1, e1, b1⟩ := ha data rdx s (by rw [Nat.add_mul] at hd; omega)
    obtain ⟨s2, e2, b2⟩ := keccakF1600_eq nr (2 ^ 32) (24 - 2 * (nr + 1)) s1 (by omega) (by omega)
    have b3 : bytesOfLanes (lanesOf s2) = KeccakP1600.Ref.permuteNrounds (2 * (nr + 1)) (bytesOfLanes (lanesOf s1)) := by
      rw [b2, KeccakP1600.Opt64.run_onWords, KeccakP1600.Ref.permuteNrounds, KeccakP1600.lanesOfBytes_bytesOfLanes]
    rw [regLoop, e1, Option.bind_eq_bind, Option.bind_some]
    simp only [Option.bind_eq_bind]
    rw [e2, Option.bind_some]
    by_cases hc : rcx ≥ n
    · have hq : (rcx + n) / n = (rcx - n + n) / n + 1 := by rw [Nat.add_div_right _ hn, Nat.sub_add_cancel hc]
      have hmul : (rcx + n) * 8 = (rcx - n + n) * 8 + n * 8 := by rw [← Nat.add_mul, Nat.sub_add_cancel hc]
      obtain ⟨s3, e3, b4⟩ := ih (rdx + n * 8) (rcx - n) s2 (by omega) (by omega)
      refine ⟨s3, ?_, ?_⟩
      · rw [if_pos hc, e3, hq, Nat.add_mul _ 1, Nat.one_mul, Nat.add_assoc, Nat.add_comm (n * 8)]
      · rw [b4, b3, b1, hq, SnP.absorbBlocks, List.drop_drop]
    · have hq : (rcx + n) / n = 1 := by rw [Nat.add_div_right _ hn, Nat.div_eq_of_lt (by omega)]
      refine ⟨s2, ?_, ?_⟩
      · rw [if_neg hc, hq, Nat.one_mul]
      · rw [b3, b1, hq, SnP.absorbBlocks, SnP.absorbBlocks]

theorem lanesAddLoop_eq (st0 data : Bytes) (pos n : Nat) (hn : n ≤ 25) (hd : pos + n * 8 ≤ data.length) :
    ∀ (fuel k : Nat) (t : Bytes), n - k < fuel → k < n → Written .xor st0 (data.drop pos) 0 (k * 8) t →
      ∃ t', lanesAddLoop data fuel t (pos + k * 8) (k * 8) (n - k) = some (t', pos + n * 8) ∧ Written .xor st0 (data.drop pos) 0 (n * 8) t' := by
  intro fuel
  induction fuel with
  | zero => intro k t h; omega
  | succ fuel ih =>
    intro k t hf hk hw
    have hdl : k * 8 + 8 ≤ (data.drop pos).length := by rw [List.length_drop]; omega
    have hs := hw.step 8 hdl
    rw [Nat.zero_add] at hs
    rw [lanesAddLoop, rd64_ok _ _ (by omega)]
    simp only [Option.bind_eq_bind, Option.bind_some]
    rw [rd64_ok _ _ (by rw [hw.1]; omega), Option.bind_some, ← List.drop_drop]
    have := wr64_op .xor t (data.drop pos) (k * 8) (k * 8) (by rw [hw.1]; omega) hdl
    rw [show wordOfBytes (t.drop (k * 8)) ^^^ wordOfBytes ((data.drop pos).drop (k * 8)) =
      Op.on .xor (wordOfBytes (t.drop (k * 8))) (wordOfBytes ((data.drop pos).drop (k * 8))) from rfl, this, Option.bind_some,
      sub64_eq (by omega) (by omega)]
    rw [show k * 8 + 8 = (k + 1) * 8 by omega] at hs
    by_cases hc : n - k - 1 ≠ 0
    · obtain ⟨t', e1, e2⟩ := ih (k + 1) _ (by omega) (by omega) hs
      refine ⟨t', ?_, e2⟩
      rw [if_pos hc, ← e1, Nat.sub_sub, Nat.add_assoc, show k * 8 + 8 = (k + 1) * 8 by omega]
    · refine ⟨_, ?_, by rwa [show n = k + 1 by omega]⟩
      rw [if_neg hc, show pos + k * 8 + 8 = pos + n * 8 by omega]

theorem memLoop_eq (permute : Bytes → Option Bytes) (f : Bytes → Bytes)
    (hp : ∀ s : Bytes, s.length = 200 → permute s = some (f s)) (hf : ∀ s : Bytes, s.length = 200 → (f s).length = 200) (n : Nat) (h0 : 0 < n)
    (hn : n ≤ 25) (data : Bytes) : ∀ (fuel : Nat) (st : Bytes) (rdx rcx : Nat), rcx < fuel → n ≤ rcx → rdx + rcx * 8 ≤ data.length →
      st.length = 200 → memLoop permute n data fuel st rdx rcx =
        some (SnP.absorbBlocks f (n * 8) (rcx / n) st (data.drop rdx), rdx + rcx / n * (n * 8)) := by
  intro fuel
  induction fuel with
  | zero => intro st rdx rcx h; omega
  | succ fuel ih =>
    intro st rdx rcx hfu hc hd hs
    have hmul : rcx * 8 = (rcx - n) * 8 + n * 8 := by rw [← Nat.add_mul, Nat.sub_add_cancel hc]
    obtain ⟨t1, e1, hw⟩ := lanesAddLoop_eq st data rdx n hn (by omega) 26 0 st (by omega) h0
      (by rw [Nat.zero_mul]; exact written_zero .xor st _ hs 0)
    rw [Nat.zero_mul, Nat.add_zero, Nat.sub_zero] at e1
    have v1 : t1 = Bytes.xorAt st 0 ((data.drop rdx).take (n * 8)) := hw.2
    have hq : rcx / n = (rcx - n) / n + 1 := Nat.div_eq_sub_div h0 hc
    rw [memLoop]
    simp only
    rw [e1]
    simp only [Option.bind_eq_bind, Option.bind_some]
    rw [hp t1 hw.1, Option.bind_some]
    by_cases hc' : rcx - n ≥ n
    · rw [if_pos hc', ih (f t1) (rdx + n * 8) (rcx - n) (by omega) hc' (by omega) (hf t1 hw.1), hq, Nat.add_mul _ 1, Nat.one_mul, Nat.add_assoc,
        Nat.add_comm (n * 8), SnP.absorbBlocks, List.drop_drop, v1]
    · have hz : (rcx - n) / n = 0 := Nat.div_eq_of_lt (by omega)
      rw [if_neg hc', hq, hz, Nat.zero_add, Nat.one_mul, SnP.absorbBlocks, SnP.absorbBlocks, v1]

theorem fastLoop_eq (nr : Nat) (h1 : nr < 12) (permute : Bytes → Option Bytes)
    (hp : ∀ s : Bytes, s.length = 200 → permute s = some (KeccakP1600.Ref.permuteNrounds (2 * (nr + 1)) s))
    (st : Bytes) (hs : st.length = 200) (n : Nat) (h0 : 0 < n) (hn : n ≤ 25) (data : Bytes) :
    fastLoop (8 * (24 - 2 * (nr + 1))) (nr + 1) permute st n data =
      some (SnP.absorbBlocks (KeccakP1600.Ref.permuteNrounds (2 * (nr + 1))) (n * 8) (data.length / (n * 8)) st data,
        data.length / (n * 8) * (n * 8)) := by
  have hdiv : data.length / (n * 8) = data.length / 2 ^ 3 / n := by rw [Nat.mul_comm, Nat.div_div_eq_div_mul]; rfl
  have h8 : data.length / 2 ^ 3 * 8 ≤ data.length := Nat.div_mul_le_self _ _
  have hlen : ∀ s : Bytes, s.length = 200 → (KeccakP1600.Ref.permuteNrounds (2 * (nr + 1)) s).length = 200 := fun s _ =>
    KeccakP1600.length_bytesOfLanes _
  rw [hdiv, fastLoop]
  simp only [Option.bind_eq_bind]
  generalize data.length / 2 ^ 3 = rcx at *
  -- with the state in the registers
  have reg : ∀ addBlock, AddsBlock n addBlock → n ≤ rcx →
      ((loadState st).bind fun s => (regLoop n addBlock (8 * (24 - 2 * (nr + 1))) (nr + 1) data (rcx - n + 1) 0 (rcx - n) s).bind fun x =>
        (saveState x.1 st).bind fun t => some (t, x.2)) =
      some (SnP.absorbBlocks (KeccakP1600.Ref.permuteNrounds (2 * (nr + 1))) (n * 8) (rcx / n) st data, rcx / n * (n * 8)) := by
    intro addBlock ha hc
    obtain ⟨s, e1, l1⟩ := loadState_eq st hs
    obtain ⟨s', e2, b2⟩ := regLoop_eq nr h1 n h0 addBlock ha data (rcx - n + 1) 0 (rcx - n) s (by omega)
      (by rw [Nat.sub_add_cancel hc]; omega)
    rw [Nat.sub_add_cancel hc, Nat.zero_add] at e2
    rw [Nat.sub_add_cancel hc, List.drop_zero, l1, KeccakP1600.bytesOfLanes_lanesOfBytes _ hs] at b2
    rw [e1, Option.bind_some, e2, Option.bind_some, saveState_eq _ _ hs, Option.bind_some, b2]
  by_cases hc : rcx < n
  · rw [if_pos hc, Nat.div_eq_of_lt hc, Nat.zero_mul, SnP.absorbBlocks]
  · rw [if_neg hc]
    by_cases h21 : n = 21
    · subst h21
      rw [if_pos rfl]
      exact reg _ addBlock21_eq (by omega)
    · rw [if_neg h21]
      by_cases h17 : n = 17
      · subst h17
        rw [if_pos rfl]
        exact reg _ addBlock17_eq (by omega)
      · rw [if_neg h17]
        have := memLoop_eq permute _ hp hlen n h0 hn data (rcx + 1) st 0 rcx (by omega) (by omega) (by omega) hs
        rwa [Nat.zero_add] at this

end Avx512Asm
