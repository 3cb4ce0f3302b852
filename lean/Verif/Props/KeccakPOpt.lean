import Verif.Proofs.KeccakPFast
import Verif.Props.Concrete

/-!
# Properties C37, C38, C39, C40, C43 for the compact and the optimised 64-bit implementations

`Opt64.Cfg` ranges over the compile-time options: lane complementing or not, and the unrolling.  `E0` and `C0` are
the values found in the uninitialised local variables of the C functions.  `Opt64.view k A` is the byte array
represented by the state `A`: six lanes are stored complemented under lane complementing.
-/

namespace KeccakP1600

/-! ## C40 -/

/-- C40, reference implementation: the state is the byte array. -/
theorem C40_ref : Ref.access.Implements 200 (fun s => s.length = 200) id where
  length := fun _ h => h
  init := ⟨List.length_replicate, rfl⟩
  addByte := by
    intro s b o hs ho
    have h1 : s[o]? = some s[o] := List.getElem?_eq_getElem (by omega)
    refine ⟨_, by change Ref.addByte s b o = _; rw [Ref.addByte, h1]; rfl, by simpa using hs, ?_⟩
    rw [Ref.set_eq_xorAt s o _ b h1]
    have := Bytes.updated_xorAt s o 1 [b] (by simp)
    refine ⟨this.1, fun j hj => ?_⟩
    rw [id, show Bytes.xorAt s o [b] = Bytes.xorAt s o ([b].take 1) from rfl, this.2 j hj]
    split
    · rename_i hj; rw [show j - o = 0 by omega]; rfl
    · rfl
  addBytes := by
    intro s d o len hs h hd
    refine ⟨_, Ref.addBytes_loop d o len 0 s (by omega) (by omega), by simpa using hs, ?_⟩
    exact Bytes.updated_xorAt s o len d hd
  overwriteBytes := by
    intro s d o len hs h hd
    have hl : (d.take len).length = len := by simp; omega
    have e := Ref.overwrite_eq s (d.take len) o (by rw [hl]; omega)
    rw [hl] at e
    refine ⟨Bytes.setAt s o (d.take len), ?_, by simpa using hs, Bytes.updated_setAt s o len d hd⟩
    change Ref.overwriteBytes s d o len = _
    rw [Ref.overwriteBytes, SnP.readBuf_some hd]
    simp only [Option.bind_eq_bind, Option.bind_some]
    rw [if_pos (by omega), e]
  overwriteWithZeroes := by
    intro s n hs h
    have e := Ref.overwrite_eq s (List.replicate n 0) 0 (by simp; omega)
    refine ⟨Bytes.setAt s 0 (List.replicate n 0), ?_, by simpa using hs, Bytes.updated_zeroes s n⟩
    change Ref.overwriteWithZeroes s n = _
    rw [Ref.overwriteWithZeroes, if_pos (by omega), ← e]
    simp
  extractBytes := by
    intro s o len hs h
    refine ⟨_, ?_, Bytes.slice_spec s o len (by omega)⟩
    change Ref.extractBytes s o len = _
    rw [Ref.extractBytes, SnP.readBuf_some (by simp; omega)]
    rfl
  extractAndAddBytes := by
    intro s d o len hs h hd
    refine ⟨_, ?_, Bytes.xor_slice_spec s d o len (by omega) hd⟩
    refine (Ref.extractAndAdd_loop s d o len 0 [] (by omega) (by omega)).trans ?_
    simp [Bytes.slice]

/-- C40, compact implementation. -/
theorem C40_compact : Compact.access.Implements 200 (fun _ => True) bytesOfLanes :=
  Compact.ops_sound.implements (by decide) length_bytesOfLanes Compact.access rfl rfl rfl rfl bytesOfLanes_zero
    Compact.addByte_eq fun A n h => by
      obtain ⟨A', h1, h2⟩ := memWrite_some (A := A) (o := 0) (d := List.replicate n 0) (by simp; omega)
      exact ⟨A', h1, h2⟩

/-- C40, optimised 64-bit implementation, with and without lane complementing. -/
theorem C40_opt64 (k : Opt64.Cfg) : (Opt64.access k).Implements 200 (fun _ => True) (Opt64.view k) :=
  (Opt64.ops_sound k).implements (by decide) (Opt64.length_view k) (Opt64.access k) rfl rfl rfl rfl
    (by
      change Opt64.view k (Opt64.initState k) = _
      rw [Opt64.view, Opt64.plain_initState]; exact bytesOfLanes_zero)
    (Opt64.addByte_eq k) (Opt64.overwriteWithZeroes_eq k)

/-! ## C37 -/

/-- The states of the optimised implementation represent all byte arrays, each exactly once. -/
theorem C40_opt64_view (k : Opt64.Cfg) :
    (∀ A B, Opt64.view k A = Opt64.view k B → A = B) ∧ ∀ s : Bytes, s.length = 200 → ∃ A, Opt64.view k A = s := by
  refine ⟨fun A B h => ?_, fun s hs => ⟨Opt64.plain k (lanesOfBytes s), ?_⟩⟩
  · have := congrArg lanesOfBytes h
    rw [Opt64.view, Opt64.view, lanesOfBytes_bytesOfLanes, lanesOfBytes_bytesOfLanes] at this
    rw [← Opt64.plain_plain k A, this, Opt64.plain_plain]
  · rw [Opt64.view, Opt64.plain_plain, bytesOfLanes_lanesOfBytes s hs]

theorem Opt64.view_of_rep (k : Cfg) (nr : Nat) (v : V) (A : Lanes)
    (h : rep k v = run (24 - nr) nr (plain k A)) :
    view k (copyToState v) = Ref.permuteNrounds nr (view k A) := by
  rw [view, ← rep_plain, h, run_onWords, Ref.permuteNrounds, view, lanesOfBytes_bytesOfLanes]

theorem Opt64.view_permuteNrounds (k : Cfg) (E0 : V) (C0 : C5) (A : Lanes) (nr : Nat) (hnr : nr ≤ 24) :
    view k (permuteNrounds k E0 C0 A nr) = Ref.permuteNrounds nr (view k A) := by
  refine view_of_rep k nr _ A ?_
  rw [roundsN_rep k nr hnr, rep_plain, copyToState_copyFromState]

theorem Opt64.view_permute24 (k : Cfg) (E0 : V) (C0 : C5) (A : Lanes) :
    view k (permute24 k E0 C0 A) = Ref.permuteNrounds 24 (view k A) := by
  refine view_of_rep k 24 _ A ?_
  rw [rounds24_rep k, rep_plain, copyToState_copyFromState]

theorem Opt64.view_permute12 (k : Cfg) (E0 : V) (C0 : C5) (A : Lanes) :
    view k (permute12 k E0 C0 A) = Ref.permuteNrounds 12 (view k A) := by
  refine view_of_rep k 12 _ A ?_
  rw [rounds12_rep k, rep_plain, copyToState_copyFromState]

/-- C37, optimised 64-bit implementation: for all compile-time options and whatever is in the uninitialised
variables, the three permutation functions are KECCAK-p[1600, nr] of FIPS 202 on the byte array represented by
the state. -/
theorem C37_opt64 (k : Opt64.Cfg) (E0 : Opt64.V) (C0 : Opt64.C5) (A : Lanes) :
    (∀ nr, nr ≤ 24 → Bits.ofBytes (Opt64.view k (Opt64.permuteNrounds k E0 C0 A nr)) =
      Spec.KeccakP.keccakP nr (Bits.ofBytes (Opt64.view k A))) ∧
    Bits.ofBytes (Opt64.view k (Opt64.permute24 k E0 C0 A)) =
      Spec.KeccakP.keccakP 24 (Bits.ofBytes (Opt64.view k A)) ∧
    Bits.ofBytes (Opt64.view k (Opt64.permute12 k E0 C0 A)) =
      Spec.KeccakP.keccakP 12 (Bits.ofBytes (Opt64.view k A)) := by
  have hl := Opt64.length_view k A
  refine ⟨fun nr h => ?_, ?_, ?_⟩
  · rw [Opt64.view_permuteNrounds k E0 C0 A nr h, (C37_ref nr h _ hl).2]
  · rw [Opt64.view_permute24, (C37_ref 24 (by decide) _ hl).2]
  · rw [Opt64.view_permute12, (C37_ref 12 (by decide) _ hl).2]

/-- C37, compact implementation: the permutation functions are defined (the loops end) and are
KECCAK-p[1600, nr] of FIPS 202.  `nr = 0` is excluded: see `C37_compact_zero`. -/
theorem C37_compact (A : Lanes) :
    (∀ nr, 0 < nr → nr ≤ 24 → ∃ B, Compact.permuteNrounds A nr = some B ∧
      Bits.ofBytes (bytesOfLanes B) = Spec.KeccakP.keccakP nr (Bits.ofBytes (bytesOfLanes A))) ∧
    (∃ B, Compact.permute24 A = some B ∧
      Bits.ofBytes (bytesOfLanes B) = Spec.KeccakP.keccakP 24 (Bits.ofBytes (bytesOfLanes A))) ∧
    (∃ B, Compact.permute12 A = some B ∧
      Bits.ofBytes (bytesOfLanes B) = Spec.KeccakP.keccakP 12 (Bits.ofBytes (bytesOfLanes A))) := by
  have hl := length_bytesOfLanes A
  have key : ∀ nr, nr ≤ 24 → Bits.ofBytes (bytesOfLanes (Ref.onWords Ref.roundConstants Ref.rhoOffsets A nr)) =
      Spec.KeccakP.keccakP nr (Bits.ofBytes (bytesOfLanes A)) := by
    intro nr h
    rw [← (C37_ref nr h _ hl).2, Ref.permuteNrounds, lanesOfBytes_bytesOfLanes]
  exact ⟨fun nr h0 h => ⟨_, Compact.permuteNrounds_eq A nr h0 h, key nr h⟩,
    ⟨_, Compact.permute24_eq A, key 24 (by decide)⟩, ⟨_, Compact.permute12_eq A, key 12 (by decide)⟩⟩

/-- With `nr = 0` the `do ... while (--round != 0)` loop of the compact implementation performs 256 rounds (the
counter is an 8-bit integer), where the other implementations perform none. -/
theorem C37_compact_zero (A : Lanes) :
    ∃ rcs : List Lane, rcs.length = 256 ∧
      Compact.permuteNrounds A 0 = some (rcs.foldl (fun A rc => rstep rc A) A) := by
  rw [Compact.permuteNrounds, Compact.permuteNroundsLFSR]
  generalize Compact.skip _ _ = L
  have h : (256 : Nat) % 256 = (BitVec.ofNat 8 0).toNat := by simp
  generalize BitVec.ofNat 8 0 = r at h ⊢
  have key := Compact.loop_all 256 L A r 256 (Nat.le_refl _) (by omega) (Nat.le_refl _) h
  generalize Compact.loop 256 A L r = o at key ⊢
  exact key

/-! ## C43 -/

/-- C43: the fast loops return the number of bytes in whole blocks and leave the state that repeated addition of a
block and permutation gives; any number of lanes from 1 to 25, all data. -/
theorem C43_opt64 (k : Opt64.Cfg) (E0 : Opt64.V) (C0 : Opt64.C5) (A : Lanes) (n : Nat) (h0 : 0 < n) (hn : n ≤ 25)
    (data : Bytes) :
    (∃ B, Opt64.fastLoopAbsorb24 k E0 C0 A n data = some (B, data.length / (n * 8) * (n * 8)) ∧
      Opt64.view k B = SnP.absorbBlocks (Ref.permuteNrounds 24) (n * 8) (data.length / (n * 8)) (Opt64.view k A) data) ∧
    (∃ B, Opt64.fastLoopAbsorb12 k E0 C0 A n data = some (B, data.length / (n * 8) * (n * 8)) ∧
      Opt64.view k B = SnP.absorbBlocks (Ref.permuteNrounds 12) (n * 8) (data.length / (n * 8)) (Opt64.view k A) data) := by
  have e : data.length - data.length % (n * 8) = data.length / (n * 8) * (n * 8) := by
    have := Nat.div_add_mod' data.length (n * 8); omega
  refine ⟨?_, ?_⟩
  · obtain ⟨s', h1, h2⟩ := Opt64.fastLoop_eq k (Opt64.rounds24 k) (Ref.permuteNrounds 24)
      (fun s => Opt64.view_of_rep k 24 _ _ (by rw [Opt64.rounds24_rep k, Opt64.rep_plain])) n h0 hn data
      (data.length + 1) ⟨Opt64.copyFromState A, E0, C0⟩ 0 data.length (by omega) (by omega)
    refine ⟨Opt64.copyToState s'.A, by rw [Opt64.fastLoopAbsorb24, h1, ← e]; rfl, ?_⟩
    rw [h2]; simp [Opt64.copyToState_copyFromState]
  · obtain ⟨s', h1, h2⟩ := Opt64.fastLoop_eq k (Opt64.rounds12 k) (Ref.permuteNrounds 12)
      (fun s => Opt64.view_of_rep k 12 _ _ (by rw [Opt64.rounds12_rep k, Opt64.rep_plain])) n h0 hn data
      (data.length + 1) ⟨Opt64.copyFromState A, E0, C0⟩ 0 data.length (by omega) (by omega)
    refine ⟨Opt64.copyToState s'.A, by rw [Opt64.fastLoopAbsorb12, h1, ← e]; rfl, ?_⟩
    rw [h2]; simp [Opt64.copyToState_copyFromState]

/-! ## The implementations as SnP for the modes -/

/-- The compact implementation seen through its byte array (it has no fast loop). -/
def Compact.snp (nr : Nat) : SnP where
  width := 200
  permute := fun s => ((permuteNrounds (lanesOfBytes s) nr).map bytesOfLanes).getD s
  fast := none

theorem Compact.computes (nr : Nat) (h0 : 0 < nr) (hnr : nr ≤ 24) : Computes (Compact.snp nr) nr := by
  have key : ∀ s : Bytes, s.length = 200 → (Compact.snp nr).permute s = Ref.permuteNrounds nr s := by
    intro s _
    change ((permuteNrounds (lanesOfBytes s) nr).map bytesOfLanes).getD s = _
    rw [permuteNrounds_eq _ nr h0 hnr]; rfl
  refine ⟨⟨fun s hs => ?_, fun F hF => by cases hF⟩, rfl, fun s hs => ?_⟩
  · rw [key s hs]; exact (C37_ref nr hnr s hs).1
  · rw [key s hs]; exact ((C37_ref nr hnr s hs).2).symm

/-- The optimised implementation seen through its byte array, with the 24-round functions. -/
def Opt64.snp24 (k : Cfg) (E0 : V) (C0 : C5) : SnP where
  width := 200
  permute := fun s => view k (permute24 k E0 C0 (plain k (lanesOfBytes s)))
  fast := some fun s n data =>
    ((fastLoopAbsorb24 k E0 C0 (plain k (lanesOfBytes s)) n data).map fun r => (view k r.1, r.2)).getD (s, 0)

/-- The optimised implementation seen through its byte array, with the 12-round functions. -/
def Opt64.snp12 (k : Cfg) (E0 : V) (C0 : C5) : SnP where
  width := 200
  permute := fun s => view k (permute12 k E0 C0 (plain k (lanesOfBytes s)))
  fast := some fun s n data =>
    ((fastLoopAbsorb12 k E0 C0 (plain k (lanesOfBytes s)) n data).map fun r => (view k r.1, r.2)).getD (s, 0)

theorem Opt64.view_ofBytes (k : Cfg) (s : Bytes) (hs : s.length = 200) : view k (plain k (lanesOfBytes s)) = s := by
  rw [view, plain_plain, bytesOfLanes_lanesOfBytes s hs]

theorem absorbBlocks_congr {f g : Bytes → Bytes} (hfg : ∀ s : Bytes, s.length = 200 → f s = g s)
    (hg : ∀ s : Bytes, s.length = 200 → (g s).length = 200) (b : Nat) : ∀ n s d, s.length = 200 →
    SnP.absorbBlocks f b n s d = SnP.absorbBlocks g b n s d := by
  intro n
  induction n with
  | zero => intros; rfl
  | succ n ih =>
    intro s d hs
    have hx : (Bytes.xorAt s 0 (d.take b)).length = 200 := by simpa using hs
    rw [SnP.absorbBlocks, SnP.absorbBlocks, hfg _ hx, ih _ _ (hg _ hx)]

/-- C43 and C37 together: the optimised implementation, with its fast loop, computes KECCAK-f[1600]. -/
theorem Opt64.computes24 (k : Cfg) (E0 : V) (C0 : C5) : Computes (snp24 k E0 C0) 24 := by
  have key : ∀ s : Bytes, s.length = 200 → (snp24 k E0 C0).permute s = Ref.permuteNrounds 24 s := by
    intro s hs
    change view k (permute24 k E0 C0 (plain k (lanesOfBytes s))) = _
    rw [view_permute24, view_ofBytes k s hs]
  have hL : (snp24 k E0 C0).laneBytes = 8 := by simp [SnP.laneBytes, snp24]
  have hlen : ∀ s : Bytes, s.length = 200 → (Ref.permuteNrounds 24 s).length = 200 :=
    fun s hs => (C37_ref 24 (by decide) s hs).1
  refine ⟨⟨fun s hs => by rw [key s hs]; exact hlen s hs, ?_⟩, rfl, fun s hs => ?_⟩
  · intro F hF s n data hs h0 hn
    have hn' : n * 8 ≤ 200 := by rw [hL] at hn; exact hn
    have h0' : 0 < n * 8 := by rw [hL] at h0; exact h0
    cases hF
    obtain ⟨B, h1, h2⟩ := (C43_opt64 k E0 C0 (plain k (lanesOfBytes s)) n (by omega) (by omega) data).1
    change ((fastLoopAbsorb24 k E0 C0 (plain k (lanesOfBytes s)) n data).map fun r => (view k r.1, r.2)).getD (s, 0) = _
    rw [h1, hL]
    simp only [Option.map_some, Option.getD_some]
    rw [h2, view_ofBytes k s hs, absorbBlocks_congr key hlen _ _ _ _ hs]
  · rw [key s hs]; exact ((C37_ref 24 (by decide) s hs).2).symm

/-- The same for the 12-round functions. -/
theorem Opt64.computes12 (k : Cfg) (E0 : V) (C0 : C5) : Computes (snp12 k E0 C0) 12 := by
  have key : ∀ s : Bytes, s.length = 200 → (snp12 k E0 C0).permute s = Ref.permuteNrounds 12 s := by
    intro s hs
    change view k (permute12 k E0 C0 (plain k (lanesOfBytes s))) = _
    rw [view_permute12, view_ofBytes k s hs]
  have hL : (snp12 k E0 C0).laneBytes = 8 := by simp [SnP.laneBytes, snp12]
  have hlen : ∀ s : Bytes, s.length = 200 → (Ref.permuteNrounds 12 s).length = 200 :=
    fun s hs => (C37_ref 12 (by decide) s hs).1
  refine ⟨⟨fun s hs => by rw [key s hs]; exact hlen s hs, ?_⟩, rfl, fun s hs => ?_⟩
  · intro F hF s n data hs h0 hn
    have hn' : n * 8 ≤ 200 := by rw [hL] at hn; exact hn
    have h0' : 0 < n * 8 := by rw [hL] at h0; exact h0
    cases hF
    obtain ⟨B, h1, h2⟩ := (C43_opt64 k E0 C0 (plain k (lanesOfBytes s)) n (by omega) (by omega) data).2
    change ((fastLoopAbsorb12 k E0 C0 (plain k (lanesOfBytes s)) n data).map fun r => (view k r.1, r.2)).getD (s, 0) = _
    rw [h1, hL]
    simp only [Option.map_some, Option.getD_some]
    rw [h2, view_ofBytes k s hs, absorbBlocks_congr key hlen _ _ _ _ hs]
  · rw [key s hs]; exact ((C37_ref 12 (by decide) s hs).2).symm

/-- C38 for the optimised and the compact implementation: bijective on the states of the implementation. -/
theorem C38_opt64 (k : Opt64.Cfg) (E0 : Opt64.V) (C0 : Opt64.C5) (nr : Nat) (hnr : nr ≤ 24) :
    (∀ A B, Opt64.permuteNrounds k E0 C0 A nr = Opt64.permuteNrounds k E0 C0 B nr → A = B) ∧
    ∀ B, ∃ A, Opt64.permuteNrounds k E0 C0 A nr = B := by
  obtain ⟨i, s⟩ := C38_ref nr hnr
  obtain ⟨vi, vs⟩ := C40_opt64_view k
  refine ⟨fun A B h => vi A B (i _ _ (Opt64.length_view k A) (Opt64.length_view k B) ?_), fun B => ?_⟩
  · rw [← Opt64.view_permuteNrounds k E0 C0 A nr hnr, ← Opt64.view_permuteNrounds k E0 C0 B nr hnr, h]
  · obtain ⟨t, ht, e⟩ := s (Opt64.view k B) (Opt64.length_view k B)
    obtain ⟨A, hA⟩ := vs t ht
    exact ⟨A, vi _ _ (by rw [Opt64.view_permuteNrounds k E0 C0 A nr hnr, hA, e])⟩

/-! ## C39 -/

/-- C39: the tables of the optimised implementation and the values produced on the fly by the compact one are those
of the reference implementation (hence, by `C39_tables`, those of FIPS 202).  The compact implementation moves the
lane at `piLane[i-1]` (lane 1 for `i = 0`) to `piLane[i]`, rotated by `rotationConstants[i]`. -/
theorem C39_opt64 : Opt64.roundConstants = Ref.roundConstants ∧
    (∀ i : Fin 24, (Compact.getNextRoundConstant (Compact.skip i.val 0x01)).1 = Ref.roundConstants.getD i.val 0) ∧
    (∀ i : Fin 24, Compact.rotationConstants.getD i.val 0 =
      Ref.rhoOffsets.getD (if i.val = 0 then 1 else (Compact.piLane.getD (i.val - 1) 0).val) 0) :=
  ⟨rfl, by decide +kernel, by decide⟩

/-! ## Concrete cases -/

-- one lane of data through the fast loop, with a non-zero remainder of 3 bytes
example (E0 : Opt64.V) (C0 : Opt64.C5) (A : Lanes) :
    ∃ B, Opt64.fastLoopAbsorb24 ⟨true, .u6⟩ E0 C0 A 1 (List.replicate 19 0xA5) = some (B, 16) ∧
      Opt64.view ⟨true, .u6⟩ B = Ref.permuteNrounds 24 (Bytes.xorAt (Ref.permuteNrounds 24
        (Bytes.xorAt (Opt64.view ⟨true, .u6⟩ A) 0 (List.replicate 8 0xA5))) 0 (List.replicate 8 0xA5)) :=
  (C43_opt64 ⟨true, .u6⟩ E0 C0 A 1 (by decide) (by decide) (List.replicate 19 0xA5)).1

-- SHA3-256 over the lane complemented implementation
example (E0 : Opt64.V) (C0 : Opt64.C5) :
    ∃ o, KeccakHash.SHA3_256 (Opt64.snp24 ⟨true, .full⟩ E0 C0) [0x61, 0x62, 0x63] = some (0, o) ∧
    Bits.ofBytes o = Spec.SHA3 Spec.KeccakP.keccakF 256 (Bits.ofBytes [0x61, 0x62, 0x63]) :=
  (C10 (Opt64.computes24 _ E0 C0) _ 0).2.1

-- byte access with an unaligned offset, across a complemented lane
example : ∃ A, (Opt64.access ⟨true, .full⟩).addBytes (Opt64.access ⟨true, .full⟩).init [1, 2, 3, 4, 5] 6 5 = some A ∧
    (Opt64.view ⟨true, .full⟩ A).getD 9 0 = 4 := by
  obtain ⟨A, h1, _, h2⟩ := (C40_opt64 ⟨true, .full⟩).addBytes (Opt64.access ⟨true, .full⟩).init [1, 2, 3, 4, 5] 6 5
    trivial (by decide) (by decide)
  refine ⟨A, h1, ?_⟩
  have h3 := h2.2 9 (by rw [Opt64.length_view]; decide)
  rw [h3, (C40_opt64 ⟨true, .full⟩).init.2]
  decide

end KeccakP1600
