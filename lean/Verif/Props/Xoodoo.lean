import Verif.Proofs.XoodooBytes

/-!
# Properties C38, C39, C40 and C42 for the Xoodoo implementations

The reference implementation keeps the state as 48 bytes, the optimised one as 12 words (`bytesOfLanes` is the
byte array they represent).  The specification works on bit strings of length 384.
-/

namespace Xoodoo

/-- C42 (reference): the permutation functions are Xoodoo[nr], bit for bit, for every state and every number of
rounds from 0 to 12. -/
theorem C42_ref (s : Bytes) (hs : s.length = 48) :
    (∀ nr, nr ≤ 12 → (Ref.permuteNrounds nr s).length = 48 ∧
      Bits.ofBytes (Ref.permuteNrounds nr s) = Spec.Xoodoo.xoodoo nr (Bits.ofBytes s)) ∧
    Ref.permute6 s = Ref.permuteNrounds 6 s ∧ Ref.permute12 s = Ref.permuteNrounds 12 s := by
  refine ⟨fun nr h => ⟨length_bytesOfLanes _, ?_⟩, rfl, rfl⟩
  rw [Ref.permuteNrounds, ofBytes_bytesOfLanes, arr_onWords _ _ h, arr_lanesOfBytes]
  rfl

/-- C42: the optimised permutation functions do to the represented byte array what the reference functions do,
for every state; for `Xoodoo_Permute_Nrounds` with every number of rounds (also those above 12). -/
theorem C42 (A : Lanes) :
    (∀ nr, bytesOfLanes (Opt.permuteNrounds nr A) = Ref.permuteNrounds nr (bytesOfLanes A)) ∧
    bytesOfLanes (Opt.permute6 A) = Ref.permute6 (bytesOfLanes A) ∧
    bytesOfLanes (Opt.permute12 A) = Ref.permute12 (bytesOfLanes A) := by
  refine ⟨fun nr => ?_, ?_, ?_⟩
  · rw [Opt.permuteNrounds_eq, Ref.permuteNrounds, lanesOfBytes_bytesOfLanes]
  · rw [Opt.permute6_eq, Ref.permute6, Ref.permuteNrounds, lanesOfBytes_bytesOfLanes]
  · rw [Opt.permute12_eq, Ref.permute12, Ref.permuteNrounds, lanesOfBytes_bytesOfLanes]

/-- C42: the optimised permutation functions are Xoodoo[nr]. -/
theorem C42_spec (A : Lanes) :
    (∀ nr, nr ≤ 12 → Bits.ofBytes (bytesOfLanes (Opt.permuteNrounds nr A)) =
      Spec.Xoodoo.xoodoo nr (Bits.ofBytes (bytesOfLanes A))) ∧
    Bits.ofBytes (bytesOfLanes (Opt.permute6 A)) = Spec.Xoodoo.xoodoo 6 (Bits.ofBytes (bytesOfLanes A)) ∧
    Bits.ofBytes (bytesOfLanes (Opt.permute12 A)) = Spec.Xoodoo.xoodoo 12 (Bits.ofBytes (bytesOfLanes A)) := by
  obtain ⟨h1, h2, h3⟩ := C42 A
  have hr := (C42_ref (bytesOfLanes A) (length_bytesOfLanes A)).1
  refine ⟨fun nr h => ?_, ?_, ?_⟩
  · rw [h1, (hr nr h).2]
  · rw [h2, Ref.permute6, (hr 6 (by decide)).2]
  · rw [h3, Ref.permute12, (hr 12 (by decide)).2]

/-- C39: bit `z` of entry `i` of the table `RC` is bit `z` of the round constant of the specification, computed
there from its polynomial definition. -/
theorem C39_xoodoo : ∀ i : Fin 12, ∀ z : Fin 32,
    (RC.getD i.val 0).getLsbD z.val = (Spec.Xoodoo.roundConstant i.val).testBit z.val := RC_bits

/-- C38: Xoodoo[nr] is a bijection on bit strings of length 384. -/
theorem C38_spec (nr : Nat) :
    (∀ S : Bits, S.length = 384 → (Spec.Xoodoo.xoodoo nr S).length = 384) ∧
    (∀ S T : Bits, S.length = 384 → T.length = 384 → Spec.Xoodoo.xoodoo nr S = Spec.Xoodoo.xoodoo nr T → S = T) ∧
    (∀ T : Bits, T.length = 384 → ∃ S : Bits, S.length = 384 ∧ Spec.Xoodoo.xoodoo nr S = T) := by
  refine ⟨fun S _ => length_toString _, ?_, ?_⟩
  · intro S T hS hT h
    have h := congrArg Spec.Xoodoo.toArray h
    simp only [Spec.Xoodoo.xoodoo, toArray_toString] at h
    have h := Spec.Xoodoo.rounds_injective nr h
    rw [← toString_toArray S hS, ← toString_toArray T hT, h]
  · intro T hT
    obtain ⟨A, hA⟩ := (Spec.Xoodoo.rounds_bijective nr).2 (Spec.Xoodoo.toArray T)
    refine ⟨Spec.Xoodoo.toString A, length_toString _, ?_⟩
    rw [Spec.Xoodoo.xoodoo, toArray_toString, hA, toString_toArray T hT]

/-- C38: the reference functions permute the set of 48-byte states. -/
theorem C38_ref (nr : Nat) (hnr : nr ≤ 12) :
    (∀ s t : Bytes, s.length = 48 → t.length = 48 → Ref.permuteNrounds nr s = Ref.permuteNrounds nr t → s = t) ∧
    (∀ t : Bytes, t.length = 48 → ∃ s : Bytes, s.length = 48 ∧ Ref.permuteNrounds nr s = t) := by
  obtain ⟨_, h2, h3⟩ := C38_spec nr
  refine ⟨?_, ?_⟩
  · intro s t hs ht e
    have e := congrArg Bits.ofBytes e
    rw [((C42_ref s hs).1 nr hnr).2, ((C42_ref t ht).1 nr hnr).2] at e
    exact Bits.ofBytes_injective (h2 _ _ (by simp [hs]) (by simp [ht]) e)
  · intro t ht
    obtain ⟨S, hS, e⟩ := h3 (Bits.ofBytes t) (by simp [ht])
    rw [← toString_toArray S hS, ← arr_unarr (Spec.Xoodoo.toArray S), ← ofBytes_bytesOfLanes,
      ← ((C42_ref _ (length_bytesOfLanes _)).1 nr hnr).2] at e
    exact ⟨_, length_bytesOfLanes _, Bits.ofBytes_injective e⟩

/-- C38: the optimised functions are bijections on states. -/
theorem C38_opt :
    (∀ nr, nr ≤ 12 → Function.Bijective (Opt.permuteNrounds nr)) ∧ Function.Bijective Opt.permute6 ∧
      Function.Bijective Opt.permute12 := by
  have key : ∀ nr, nr ≤ 12 → Function.Bijective (Ref.onWords nr) := by
    intro nr h
    refine ⟨fun A B e => ?_, fun B => ?_⟩
    · apply arr_injective
      apply Spec.Xoodoo.rounds_injective nr
      rw [← arr_onWords A nr h, ← arr_onWords B nr h, e]
    · obtain ⟨S, hS⟩ := (Spec.Xoodoo.rounds_bijective nr).2 (arr B)
      refine ⟨unarr S, arr_injective ?_⟩
      rw [arr_onWords _ nr h, arr_unarr, hS]
  refine ⟨fun nr h => ?_, ?_, ?_⟩
  · rw [show Opt.permuteNrounds nr = Ref.onWords nr from funext (Opt.permuteNrounds_eq nr)]; exact key nr h
  · rw [show Opt.permute6 = Ref.onWords 6 from funext Opt.permute6_eq]; exact key 6 (by decide)
  · rw [show Opt.permute12 = Ref.onWords 12 from funext Opt.permute12_eq]; exact key 12 (by decide)

/-- C40, reference implementation of Xoodoo: the state is the byte array. -/
theorem C40_ref : Ref.access.Implements 48 (fun s => s.length = 48) id where
  length := fun _ h => h
  init := ⟨List.length_replicate, rfl⟩
  addByte := by
    intro s b o hs ho
    have h1 : s[o]? = some s[o] := List.getElem?_eq_getElem (by omega)
    refine ⟨_, by change Ref.addByte s b o = _; rw [Ref.addByte, h1]; rfl, by simpa using hs, ?_⟩
    rw [KeccakP1600.Ref.set_eq_xorAt s o _ b h1]
    have := Bytes.updated_xorAt s o 1 [b] (by simp)
    refine ⟨this.1, fun j hj => ?_⟩
    rw [id, show Bytes.xorAt s o [b] = Bytes.xorAt s o ([b].take 1) from rfl, this.2 j hj]
    split
    · rename_i hj; rw [show j - o = 0 by omega]; rfl
    · rfl
  addBytes := by
    intro s d o len hs h hd
    refine ⟨_, KeccakP1600.Ref.addBytes_loop d o len 0 s (by omega) (by omega), by simpa using hs, ?_⟩
    exact Bytes.updated_xorAt s o len d hd
  overwriteBytes := by
    intro s d o len hs h hd
    have hl : (d.take len).length = len := by simp; omega
    have e := KeccakP1600.Ref.overwrite_eq s (d.take len) o (by rw [hl]; omega)
    rw [hl] at e
    refine ⟨Bytes.setAt s o (d.take len), ?_, by simpa using hs, Bytes.updated_setAt s o len d hd⟩
    change Ref.overwriteBytes s d o len = _
    rw [Ref.overwriteBytes, SnP.readBuf_some hd]
    simp only [Option.bind_eq_bind, Option.bind_some]
    rw [if_pos (by omega), e]
  overwriteWithZeroes := by
    intro s n hs h
    have e := KeccakP1600.Ref.overwrite_eq s (List.replicate n 0) 0 (by simp; omega)
    refine ⟨Bytes.setAt s 0 (List.replicate n 0), ?_, by simpa using hs, Bytes.updated_zeroes s n⟩
    change Ref.overwriteWithZeroes s n = _
    rw [Ref.overwriteWithZeroes, if_pos (by omega), ← e]
    simp
  extractBytes := by
    intro s o len hs h
    refine ⟨_, ?_, Bytes.slice_spec s o len (by omega)⟩
    change Ref.extractBytes s o len = _
    rw [Ref.extractBytes, SnP.readBuf_some (by simp; omega)]
    rfl
  extractAndAddBytes := by
    intro s d o len hs h hd
    refine ⟨_, ?_, Bytes.xor_slice_spec s d o len (by omega) hd⟩
    refine (KeccakP1600.Ref.extractAndAdd_loop s d o len 0 [] (by omega) (by omega)).trans ?_
    simp [Bytes.slice]

/-- C40, optimised implementation of Xoodoo: the 48 bytes of the 12 words, in order. -/
theorem C40_opt : Opt.access.Implements 48 (fun _ => True) bytesOfLanes where
  length := fun A _ => length_bytesOfLanes A
  init := ⟨trivial, bytesOfLanes_zero⟩
  addByte := by
    intro A b o _ ho
    obtain ⟨A', e1, e2⟩ := Opt.addByte_eq A b o ho
    refine ⟨A', e1, trivial, ?_⟩
    have := Bytes.updated_xorAt (bytesOfLanes A) o 1 [b] (by simp)
    rw [e2]
    refine ⟨this.1, fun j hj => ?_⟩
    rw [show Bytes.xorAt (bytesOfLanes A) o [b] = Bytes.xorAt (bytesOfLanes A) o ([b].take 1) from rfl, this.2 j hj]
    split
    · rename_i hj; rw [show j - o = 0 by omega]; rfl
    · rfl
  addBytes := by
    intro A d o len _ h hd
    obtain ⟨A', e1, e2⟩ := Opt.addBytes_eq A d o len h hd
    exact ⟨A', e1, trivial, by rw [e2]; exact Bytes.updated_xorAt _ _ _ _ hd⟩
  overwriteBytes := by
    intro A d o len _ h hd
    obtain ⟨A', e1, e2⟩ := Opt.overwriteBytes_eq A d o len h hd
    exact ⟨A', e1, trivial, by rw [e2]; exact Bytes.updated_setAt _ _ _ _ hd⟩
  overwriteWithZeroes := by
    intro A n _ h
    obtain ⟨A', e1, e2⟩ := Opt.overwriteWithZeroes_eq A n h
    exact ⟨A', e1, trivial, by rw [e2]; exact Bytes.updated_zeroes _ _⟩
  extractBytes := by
    intro A o len _ h
    refine ⟨_, ?_, Bytes.slice_spec (bytesOfLanes A) o len (by rw [length_bytesOfLanes]; exact h)⟩
    change Opt.extractBytes A o len = _
    rw [Opt.extractBytes, if_pos h]
  extractAndAddBytes := by
    intro A d o len _ h hd
    exact ⟨_, Opt.extractAndAddBytes_eq A d o len h hd,
      Bytes.xor_slice_spec (bytesOfLanes A) d o len (by rw [length_bytesOfLanes]; exact h) hd⟩

/-- The states of the optimised implementation represent all byte arrays, each exactly once. -/
theorem C40_opt_view :
    (∀ A B, bytesOfLanes A = bytesOfLanes B → A = B) ∧ ∀ s : Bytes, s.length = 48 → ∃ A, bytesOfLanes A = s := by
  refine ⟨fun A B h => ?_, fun s hs => ⟨lanesOfBytes s, bytesOfLanes_lanesOfBytes s hs⟩⟩
  rw [← lanesOfBytes_bytesOfLanes A, h, lanesOfBytes_bytesOfLanes]

-- the hypotheses are met by the state with bytes 0, 1, .., 47
example : ((List.range 48).map (BitVec.ofNat 8)).length = 48 := by decide

-- an access that straddles three lanes: 7 bytes at offset 3
example (A : Lanes) (d : Bytes) (h : d.length = 7) :
    ∃ A', Opt.addBytes A d 3 7 = some A' ∧
      (bytesOfLanes A).Updated (bytesOfLanes A') 3 7 fun i x => x ^^^ d.getD i 0 := by
  obtain ⟨A', h1, _, h2⟩ := C40_opt.addBytes A d 3 7 trivial (by decide) (by omega)
  exact ⟨A', h1, h2⟩

end Xoodoo
