import Verif.Proofs.LaneBytes
import Verif.Spec.ByteArray

/-!
The byte access functions of the portable Keccak-p[1600] implementations on 64-bit lanes.
-/

namespace Bytes

theorem getD_xorAt (s : Bytes) (off : Nat) (d : Bytes) (j : Nat) (h : j < s.length) :
    (xorAt s off d).getD j 0 = s.getD j 0 ^^^ (if off ≤ j then d.getD (j - off) 0 else 0) := by
  rw [List.getD_eq_getElem?_getD, getElem?_xorAt, List.getD_eq_getElem?_getD (l := s), List.getElem?_eq_getElem h]
  rfl

theorem getD_setAt (s : Bytes) (off : Nat) (d : Bytes) (j : Nat) (h : j < s.length) :
    (setAt s off d).getD j 0 = if off ≤ j ∧ j < off + d.length then d.getD (j - off) 0 else s.getD j 0 := by
  rw [List.getD_eq_getElem?_getD, getElem?_setAt, List.getD_eq_getElem?_getD (l := s), List.getElem?_eq_getElem h]
  rfl

theorem updated_xorAt (s : Bytes) (off len : Nat) (d : Bytes) (h : len ≤ d.length) :
    s.Updated (xorAt s off (d.take len)) off len fun i x => x ^^^ d.getD i 0 := by
  refine ⟨length_xorAt _ _ _, fun j hj => ?_⟩
  rw [getD_xorAt _ _ _ _ hj]
  simp only [List.getD_eq_getElem?_getD, List.getElem?_take]
  by_cases h1 : off ≤ j
  · by_cases h2 : j - off < len
    · have : off ≤ j ∧ j < off + len := by omega
      simp [h1, h2, this]
    · have : ¬ (off ≤ j ∧ j < off + len) := by omega
      rw [if_neg this]; simp [h1, h2]
  · have : ¬ (off ≤ j ∧ j < off + len) := by omega
    rw [if_neg this]; simp [h1]

theorem updated_setAt (s : Bytes) (off len : Nat) (d : Bytes) (h : len ≤ d.length) :
    s.Updated (setAt s off (d.take len)) off len fun i _ => d.getD i 0 := by
  refine ⟨length_setAt _ _ _, fun j hj => ?_⟩
  rw [getD_setAt _ _ _ _ hj]
  have e : (d.take len).length = len := by simp; omega
  rw [e]
  split
  · rename_i h1
    simp only [List.getD_eq_getElem?_getD, List.getElem?_take]
    rw [if_pos (by omega)]
  · rfl

theorem updated_zeroes (s : Bytes) (n : Nat) :
    s.Updated (setAt s 0 (List.replicate n 0)) 0 n fun _ _ => 0 := by
  refine ⟨length_setAt _ _ _, fun j hj => ?_⟩
  rw [getD_setAt _ _ _ _ hj, List.length_replicate]
  split
  · rename_i h1
    rw [List.getD_eq_getElem?_getD, List.getElem?_eq_getElem (by simp; omega)]; simp
  · rfl

theorem slice_spec (s : Bytes) (off len : Nat) (h : off + len ≤ s.length) :
    (slice s off len).length = len ∧ ∀ i, i < len → (slice s off len).getD i 0 = s.getD (off + i) 0 := by
  refine ⟨length_slice_of_le h, fun i hi => ?_⟩
  rw [List.getD_eq_getElem?_getD, getElem?_slice, if_pos hi, ← List.getD_eq_getElem?_getD]

theorem xor_slice_spec (s d : Bytes) (off len : Nat) (h : off + len ≤ s.length) (hd : len ≤ d.length) :
    (xor (d.take len) (slice s off len)).length = len ∧
    ∀ i, i < len → (xor (d.take len) (slice s off len)).getD i 0 = d.getD i 0 ^^^ s.getD (off + i) 0 := by
  have h1 := length_slice_of_le h
  refine ⟨by rw [length_xor, h1, List.length_take]; omega, fun i hi => ?_⟩
  rw [List.getD_eq_getElem?_getD, xor, List.getElem?_zipWith, List.getElem?_take, if_pos hi, getElem?_slice,
    if_pos hi, List.getElem?_eq_getElem (show i < d.length by omega),
    List.getElem?_eq_getElem (show off + i < s.length by omega)]
  simp only [List.getD_eq_getElem?_getD, List.getElem?_eq_getElem (show i < d.length by omega),
    List.getElem?_eq_getElem (show off + i < s.length by omega)]
  rfl

end Bytes

namespace SnP

theorem readBuf_some {d : Bytes} {n : Nat} (h : n ≤ d.length) : readBuf d n = some (d.take n) := by
  simp [readBuf, h]

end SnP

namespace Relaned

/-- Functions on lanes that are right on the view give right byte access functions. -/
structure OpsSound {σ : Type} (L width : Nat) (view : σ → Bytes) (ops : LaneOps σ) : Prop where
  add : WSound L width view Bytes.xorAt ops.addLanes ops.addBytesInLane
  overwrite : WSound L width view Bytes.setAt ops.overwriteLanes ops.overwriteBytesInLane
  extractLanes : ∀ s n, n * L ≤ width → ops.extractLanes s n = some (Bytes.slice (view s) 0 (n * L))
  extractIn : ∀ s p o len, 0 < len → o + len ≤ L → p * L + o + len ≤ width →
      ops.extractBytesInLane s p o len = some (Bytes.slice (view s) (p * L + o) len)
  extractAndAddLanes : ∀ s d n, n * L ≤ width → n * L ≤ d.length →
      ops.extractAndAddLanes s d n = some (Bytes.xor (d.take (n * L)) (Bytes.slice (view s) 0 (n * L)))
  extractAndAddIn : ∀ s p d o len, 0 < len → o + len ≤ L → p * L + o + len ≤ width → len ≤ d.length →
      ops.extractAndAddBytesInLane s p d o len =
        some (Bytes.xor (d.take len) (Bytes.slice (view s) (p * L + o) len))

/-- Functions that act on the view as `xorAt`, `setAt` and `slice` do implement the byte array. -/
theorem _root_.Access.implements_of {σ : Type} {width : Nat} {view : σ → Bytes} (hlen : ∀ s, (view s).length = width)
    (a : Access σ) (h1 : ∀ s d o len, o + len ≤ width → len ≤ d.length →
      ∃ s', a.addBytes s d o len = some s' ∧ view s' = Bytes.xorAt (view s) o (d.take len))
    (h2 : ∀ s d o len, o + len ≤ width → len ≤ d.length →
      ∃ s', a.overwriteBytes s d o len = some s' ∧ view s' = Bytes.setAt (view s) o (d.take len))
    (h3 : ∀ s o len, o + len ≤ width → a.extractBytes s o len = some (Bytes.slice (view s) o len))
    (h4 : ∀ s d o len, o + len ≤ width → len ≤ d.length →
      a.extractAndAddBytes s d o len = some (Bytes.xor (d.take len) (Bytes.slice (view s) o len)))
    (h5 : view a.init = List.replicate width 0)
    (h6 : ∀ s b offset, offset < width →
      ∃ s', a.addByte s b offset = some s' ∧ view s' = Bytes.xorAt (view s) offset [b])
    (h7 : ∀ s n, n ≤ width →
      ∃ s', a.overwriteWithZeroes s n = some s' ∧ view s' = Bytes.setAt (view s) 0 (List.replicate n 0)) :
    a.Implements width (fun _ => True) view where
  length := fun s _ => hlen s
  init := ⟨trivial, h5⟩
  addByte := by
    intro s b offset _ h
    obtain ⟨s', e1, e2⟩ := h6 s b offset h
    refine ⟨s', e1, trivial, ?_⟩
    rw [e2]
    have := Bytes.updated_xorAt (view s) offset 1 [b] (by simp)
    refine ⟨this.1, fun j hj => ?_⟩
    rw [show Bytes.xorAt (view s) offset [b] = Bytes.xorAt (view s) offset ([b].take 1) from rfl, this.2 j hj]
    split
    · rename_i hj; rw [show j - offset = 0 by omega]; rfl
    · rfl
  addBytes := by
    intro s d o len _ h hd
    obtain ⟨s', e1, e2⟩ := h1 s d o len h hd
    exact ⟨s', e1, trivial, by rw [e2]; exact Bytes.updated_xorAt _ _ _ _ hd⟩
  overwriteBytes := by
    intro s d o len _ h hd
    obtain ⟨s', e1, e2⟩ := h2 s d o len h hd
    exact ⟨s', e1, trivial, by rw [e2]; exact Bytes.updated_setAt _ _ _ _ hd⟩
  overwriteWithZeroes := by
    intro s n _ h
    obtain ⟨s', e1, e2⟩ := h7 s n h
    exact ⟨s', e1, trivial, by rw [e2]; exact Bytes.updated_zeroes _ _⟩
  extractBytes := fun s o len _ h =>
    ⟨_, h3 s o len h, Bytes.slice_spec (view s) o len (by rw [hlen]; exact h)⟩
  extractAndAddBytes := fun s d o len _ h hd =>
    ⟨_, h4 s d o len h hd, Bytes.xor_slice_spec (view s) d o len (by rw [hlen]; exact h) hd⟩

/-- The four macros of SnP-Relaned.h implement the byte array. -/
theorem OpsSound.implements {σ : Type} {L width : Nat} {view : σ → Bytes} {ops : LaneOps σ} (hL : 0 < L)
    (S : OpsSound L width view ops) (hlen : ∀ s, (view s).length = width) (a : Access σ)
    (h1 : a.addBytes = addBytes L ops) (h2 : a.overwriteBytes = overwriteBytes L ops)
    (h3 : a.extractBytes = extractBytes L ops) (h4 : a.extractAndAddBytes = extractAndAddBytes L ops)
    (h5 : view a.init = List.replicate width 0)
    (h6 : ∀ s b offset, offset < width →
      ∃ s', a.addByte s b offset = some s' ∧ view s' = Bytes.xorAt (view s) offset [b])
    (h7 : ∀ s n, n ≤ width →
      ∃ s', a.overwriteWithZeroes s n = some s' ∧ view s' = Bytes.setAt (view s) 0 (List.replicate n 0)) :
    a.Implements width (fun _ => True) view :=
  Access.implements_of hlen a
    (fun s d o len h hd => by rw [h1]; exact writeBytes_eq hL S.add Bytes.xorAt_nil Bytes.xorAt_append s d o len h hd)
    (fun s d o len h hd => by
      rw [h2]; exact writeBytes_eq hL S.overwrite Bytes.setAt_nil Bytes.setAt_append s d o len h hd)
    (fun s o len h => by rw [h3, extractBytes_eq hL ops s (view s) (S.extractLanes s) (S.extractIn s) o len h])
    (fun s d o len h hd => by
      rw [h4, extractAndAddBytes_eq hL ops s (view s) (hlen s) (S.extractAndAddLanes s) (S.extractAndAddIn s) d o len
        h hd])
    h5 h6 h7

end Relaned

namespace KeccakP1600

theorem getLane_some {A : Lanes} {i : Nat} (h : i < 25) : getLane A i = some (A ⟨i, h⟩) := by simp [getLane, h]

theorem setLane_some {A : Lanes} {i : Nat} (h : i < 25) (w : Lane) : setLane A i w = some (put A ⟨i, h⟩ w) := by
  simp [setLane, h]

theorem readLane_some {d : Bytes} {i : Nat} (h : i * 8 + 8 ≤ d.length) :
    readLane d i = some (wordOfBytes (d.drop (i * 8))) := by
  rw [readLane, SnP.readBuf_some (by simp; omega)]
  simp [wordOfBytes_take]

theorem memWrite_some {A : Lanes} {o : Nat} {d : Bytes} (h : o + d.length ≤ 200) :
    ∃ A', memWrite A o d = some A' ∧ bytesOfLanes A' = Bytes.setAt (bytesOfLanes A) o d := by
  refine ⟨_, by rw [memWrite, if_pos h], ?_⟩
  rw [bytesOfLanes_lanesOfBytes]
  simp [length_bytesOfLanes]

theorem memXor_some {A : Lanes} {o : Nat} {d : Bytes} (h : o + d.length ≤ 200) :
    ∃ A', memXor A o d = some A' ∧ bytesOfLanes A' = Bytes.xorAt (bytesOfLanes A) o d := by
  refine ⟨_, by rw [memXor, if_pos h], ?_⟩
  rw [bytesOfLanes_lanesOfBytes]
  simp [length_bytesOfLanes]

theorem memRead_some {A : Lanes} {o n : Nat} (h : o + n ≤ 200) :
    memRead A o n = some (Bytes.slice (bytesOfLanes A) o n) := by simp [memRead, h]

/-- `output[i] = input[i] ^ state[i]`, lane by lane. -/
theorem xorOut_eq (A : Lanes) (input : Bytes) : ∀ n i, (i + n) * 8 ≤ 200 → (i + n) * 8 ≤ input.length →
    Opt64.xorOut A input i n =
      some (Bytes.xor (Bytes.slice input (i * 8) (n * 8)) (Bytes.slice (bytesOfLanes A) (i * 8) (n * 8))) := by
  intro n
  induction n with
  | zero => intro i _ _; simp [Opt64.xorOut, Bytes.slice, Bytes.xor]
  | succ n ih =>
    intro i h1 h2
    rw [Opt64.xorOut, readLane_some (by omega), getLane_some (by omega), ih (i + 1) (by omega) (by omega)]
    simp only [Option.bind_eq_bind, Option.bind_some, Option.some.injEq]
    have e0 : (n + 1) * 8 = 8 + n * 8 := by omega
    have e1 : (i + 1) * 8 = i * 8 + 8 := by omega
    rw [e0, e1, ← Relaned.slice_append, ← Relaned.slice_append (bytesOfLanes A)]
    have l1 : (Bytes.slice input (i * 8) 8).length = 8 := Bytes.length_slice_of_le (by omega)
    have l2 : (Bytes.slice (bytesOfLanes A) (i * 8) 8).length = 8 :=
      Bytes.length_slice_of_le (by rw [length_bytesOfLanes]; omega)
    rw [← Relaned.xor_append _ _ _ _ (by rw [l1, l2])]
    congr 1
    have := slice_bytesOfLanes A ⟨i, by omega⟩ 0 8 (by omega)
    simp only [Nat.add_zero] at this
    rw [this]
    apply List.ext_getElem?; intro k
    rw [Bytes.xor, List.getElem?_zipWith, Bytes.getElem?_slice, Bytes.getElem?_slice, getElem?_bytesOfWord]
    split
    · rename_i hk
      rw [List.getElem?_eq_getElem (by omega), Nat.zero_add, getElem?_bytesOfWord, if_pos hk, byteOf_xor,
        byteOf_wordOfBytes _ _ hk, List.getD_eq_getElem?_getD, List.getElem?_drop,
        List.getElem?_eq_getElem (by omega)]
      rfl
    · rfl

namespace Compact

theorem shiftOut_eq (d : Bytes) : ∀ (w : Lane) (o : Nat), o + d.length ≤ 8 →
    shiftOut (w >>> (o * 8)) d = Bytes.xor d (Bytes.slice (bytesOfWord w) o d.length) := by
  induction d with
  | nil => intro w o _; simp [shiftOut, Bytes.xor]
  | cons b d ih =>
    intro w o h
    simp only [List.length_cons] at h
    have e : (w >>> (o * 8)) >>> 8 = w >>> ((o + 1) * 8) := by
      rw [← BitVec.shiftRight_add, show o * 8 + 8 = (o + 1) * 8 by omega]
    rw [shiftOut, e, ih w (o + 1) (by omega)]
    have hb : ∀ v : Lane, (v &&& 0xFF).setWidth 8 = byteOf v 0 := by
      intro v
      apply byte_ext; intro t ht
      have hc : ∀ k : Fin 8, (0xFF : Lane).getLsbD k.val = true := by decide
      rw [getLsbD_byteOf _ _ _ ht]
      simp only [BitVec.getLsbD_setWidth, ht, decide_true, Bool.true_and, BitVec.getLsbD_and,
        hc ⟨t, ht⟩, Bool.and_true, Nat.mul_zero, Nat.zero_add]
    rw [hb, byteOf_shiftRight, Nat.add_zero]
    have hs : Bytes.slice (bytesOfWord w) o (d.length + 1)
        = byteOf w o :: Bytes.slice (bytesOfWord w) (o + 1) d.length := by
      apply List.ext_getElem?; intro k
      cases k with
      | zero => rw [Bytes.getElem?_slice, if_pos (by omega), Nat.add_zero, getElem?_bytesOfWord, if_pos (by omega)]; rfl
      | succ k =>
        rw [Bytes.getElem?_slice, List.getElem?_cons_succ, Bytes.getElem?_slice,
          show o + (k + 1) = o + 1 + k by omega]
        split
        · rw [if_pos (by omega)]
        · rw [if_neg (by omega)]
    rw [List.length_cons, hs]
    rfl

theorem ops_sound : Relaned.OpsSound 8 200 bytesOfLanes ops where
  add := {
    lanes := by
      intro A d n h hd
      obtain ⟨A', h1, h2⟩ := memXor_some (A := A) (o := 0) (d := d.take (n * 8)) (by simp; omega)
      refine ⟨A', ?_, h2⟩
      change Compact.addLanes A d n = _
      rw [addLanes, SnP.readBuf_some hd]; exact h1
    inLane := by
      intro A p d o len h0 h1 h2 hd
      obtain ⟨A', h3, h4⟩ := memXor_some (A := A) (o := p * 8 + o) (d := d.take len) (by simp; omega)
      refine ⟨A', ?_, h4⟩
      change Compact.addBytesInLane A p d o len = _
      rw [addBytesInLane, SnP.readBuf_some hd]; exact h3 }
  overwrite := {
    lanes := by
      intro A d n h hd
      obtain ⟨A', h1, h2⟩ := memWrite_some (A := A) (o := 0) (d := d.take (n * 8)) (by simp; omega)
      refine ⟨A', ?_, h2⟩
      change Compact.overwriteLanes A d n = _
      rw [overwriteLanes, SnP.readBuf_some hd]; exact h1
    inLane := by
      intro A p d o len h0 h1 h2 hd
      obtain ⟨A', h3, h4⟩ := memWrite_some (A := A) (o := p * 8 + o) (d := d.take len) (by simp; omega)
      refine ⟨A', ?_, h4⟩
      change Compact.overwriteBytesInLane A p d o len = _
      rw [overwriteBytesInLane, SnP.readBuf_some hd]; exact h3 }
  extractLanes := fun A n h => memRead_some (by omega)
  extractIn := fun A p o len _ _ h => memRead_some h
  extractAndAddLanes := by
    intro A d n h hd
    change Opt64.xorOut A d 0 n = _
    rw [xorOut_eq A d n 0 (by omega) (by omega)]
    simp [Bytes.slice]
  extractAndAddIn := by
    intro A p d o len h0 h1 h2 hd
    change Compact.extractAndAddBytesInLane A p d o len = _
    rw [extractAndAddBytesInLane, getLane_some (by omega), SnP.readBuf_some hd]
    simp only [Option.bind_eq_bind, Option.bind_some]
    have : o * 8 < 64 := by omega
    rw [if_pos this]
    simp only [Option.bind_some, Option.some.injEq]
    have hl : (d.take len).length = len := by simp; omega
    rw [shiftOut_eq _ _ _ (by rw [hl]; exact h1), hl, slice_bytesOfLanes A ⟨p, by omega⟩ o len h1]

theorem addByte_eq (A : Lanes) (b : Byte) (offset : Nat) (h : offset < 200) :
    ∃ A', addByte A b offset = some A' ∧ bytesOfLanes A' = Bytes.xorAt (bytesOfLanes A) offset [b] := by
  refine ⟨_, by rw [addByte, getLane_some (by omega)]; exact setLane_some (by omega) _, ?_⟩
  rw [bytesOfLanes_put_xor, xorAt_shift _ _ (offset % 8) [b] _ (by simp; omega)]
  · simp only []
    rw [show offset / 8 * 8 + offset % 8 = offset by omega]
  · intro k hk
    rw [byteOf_shiftLeft _ _ _ hk]
    split
    · rw [byteOf_setWidth]
      split
      · rename_i h1; rw [h1]; rfl
      · rw [List.getD_eq_getElem?_getD, List.getElem?_eq_none (by simp; omega)]; rfl
    · rfl

end Compact

namespace Opt64

/-- The lanes represented by the lanes in memory. -/
def plain (k : Cfg) (A : Lanes) : Lanes := fun i => if isComp k i.val then ~~~ A i else A i

/-- The byte array represented by a state: lanes 1, 2, 8, 12, 17 and 20 are complemented under lane complementing. -/
def view (k : Cfg) (A : Lanes) : Bytes := bytesOfLanes (plain k A)

theorem isComp_comp (k : Cfg) (i : Fin 25) : isComp k i.val = (k.lc && comp i) := by
  unfold isComp
  cases k.lc
  · rfl
  · revert i; decide

theorem plain_eq (k : Cfg) (A : Lanes) : plain k A = if k.lc then unc A else A := by
  funext i
  unfold plain
  rw [isComp_comp]
  cases k.lc <;> rfl

theorem plain_plain (k : Cfg) (A : Lanes) : plain k (plain k A) = A := by
  rw [plain_eq, plain_eq]
  split
  · exact unc_unc A
  · rfl

theorem rep_plain (k : Cfg) (V : V) : rep k V = plain k (copyToState V) := by rw [plain_eq]; rfl

theorem length_view (k : Cfg) (A : Lanes) : (view k A).length = 200 := length_bytesOfLanes _

/-- complement the bytes of the complemented lanes -/
def uncB (k : Cfg) (s : Bytes) : Bytes := s.mapIdx fun j b => if isComp k (j / 8) then ~~~ b else b

theorem view_uncB (k : Cfg) (A : Lanes) : view k A = uncB k (bytesOfLanes A) := by
  apply List.ext_getElem?; intro j
  rw [view, uncB, List.getElem?_mapIdx, getElem?_bytesOfLanes, getElem?_bytesOfLanes]
  split
  · rename_i h
    simp only [plain, Option.map_some, Option.some.injEq]
    split
    · exact byteOf_not _ _ (by omega)
    · rfl
  · rfl

theorem uncB_xorAt (k : Cfg) (s : Bytes) (o : Nat) (d : Bytes) :
    uncB k (Bytes.xorAt s o d) = Bytes.xorAt (uncB k s) o d := by
  have h8 : ∀ a b : Byte, ~~~ (a ^^^ b) = ~~~ a ^^^ b := by
    intro a b; ext i hi; simp
  apply List.ext_getElem?; intro j
  simp only [uncB, List.getElem?_mapIdx, Bytes.getElem?_xorAt]
  cases s[j]? with
  | none => rfl
  | some b =>
    simp only [Option.map_some, Option.some.injEq]
    by_cases h : isComp k (j / 8)
    · simp only [h, if_true]; exact h8 _ _
    · simp only [h]; rfl

theorem plain_put_xor (k : Cfg) (A : Lanes) (i : Fin 25) (w : Lane) :
    plain k (put A i (A i ^^^ w)) = put (plain k A) i (plain k A i ^^^ w) := by
  have h8 : ∀ a b : Lane, ~~~ (a ^^^ b) = ~~~ a ^^^ b := by
    intro a b; ext i hi; simp
  funext j
  simp only [plain, put]
  by_cases hj : j = i
  · subst hj
    simp only [if_true]
    split
    · exact h8 _ _
    · rfl
  · simp only [hj, if_false]

theorem plain_put (k : Cfg) (A : Lanes) (i : Fin 25) (w : Lane) :
    plain k (put A i (if isComp k i.val then ~~~ w else w)) = put (plain k A) i w := by
  funext j
  simp only [plain, put]
  by_cases hj : j = i
  · subst hj
    simp only [if_true]
    split <;> simp
  · simp only [hj, if_false]

theorem addBytesInLane_eq (k : Cfg) (A : Lanes) (p : Nat) (d : Bytes) (o len : Nat) (h0 : 0 < len) (h1 : o + len ≤ 8)
    (h2 : p * 8 + o + len ≤ 200) (hd : len ≤ d.length) :
    ∃ A', addBytesInLane A p d o len = some A' ∧ view k A' = Bytes.xorAt (view k A) (p * 8 + o) (d.take len) := by
  have hp : p < 25 := by omega
  have hl : (d.take len).length = len := by simp; omega
  have key : ∀ w : Lane, (∀ j, j < 8 → byteOf w j = (d.take len).getD j 0) →
      view k (put A ⟨p, hp⟩ (A ⟨p, hp⟩ ^^^ (w <<< (o * 8)))) = Bytes.xorAt (view k A) (p * 8 + o) (d.take len) := by
    intro w hw
    rw [view, plain_put_xor, bytesOfLanes_put_xor, xorAt_shift _ _ o (d.take len) _ (by rw [hl]; exact h1)]
    · rfl
    · intro j hj
      rw [byteOf_shiftLeft _ _ _ hj]
      split
      · exact hw _ (by omega)
      · rfl
  rw [addBytesInLane, if_neg (by omega), SnP.readBuf_some hd, getLane_some hp]
  simp only [Option.bind_eq_bind, Option.bind_some]
  by_cases hl1 : len = 1
  · rw [if_pos hl1]
    try simp only [Option.bind_some]
    rw [if_pos (by omega)]
    refine ⟨_, setLane_some hp _, key _ ?_⟩
    intro j hj
    rw [byteOf_setWidth]
    split
    · rename_i hj0; rw [hj0]
    · rw [List.getD_eq_getElem?_getD, List.getElem?_eq_none (by omega)]; rfl
  · rw [if_neg hl1, if_pos (by omega)]
    try simp only [Option.bind_some]
    rw [if_pos (by omega)]
    exact ⟨_, setLane_some hp _, key _ fun j hj => byteOf_wordOfBytes _ _ hj⟩

theorem slice8 (d : Bytes) (i : Nat) (h : i * 8 + 8 ≤ d.length) :
    bytesOfWord (wordOfBytes (d.drop (i * 8))) = Bytes.slice d (i * 8) 8 := by
  rw [← wordOfBytes_take, bytesOfWord_wordOfBytes _ (by simp; omega)]
  rfl

theorem xorLanes_eq (k : Cfg) (d : Bytes) : ∀ n i A, (i + n) * 8 ≤ 200 → (i + n) * 8 ≤ d.length →
    ∃ A', xorLanes d i n A = some A' ∧ view k A' = Bytes.xorAt (view k A) (i * 8) (Bytes.slice d (i * 8) (n * 8)) := by
  intro n
  induction n with
  | zero => intro i A _ _; exact ⟨A, rfl, by simp [Bytes.slice]⟩
  | succ n ih =>
    intro i A h1 h2
    have hi : i < 25 := by omega
    rw [xorLanes, loopM, readLane_some (by omega), getLane_some hi]
    simp only [Option.bind_eq_bind, Option.bind_some]
    rw [setLane_some hi]
    simp only [Option.bind_some]
    obtain ⟨A', e1, e2⟩ := ih (i + 1) (put A ⟨i, hi⟩ (A ⟨i, hi⟩ ^^^ wordOfBytes (d.drop (i * 8)))) (by omega) (by omega)
    refine ⟨A', e1, ?_⟩
    rw [e2, view, plain_put_xor, bytesOfLanes_put_xor, slice8 _ _ (by omega)]
    have l1 : (Bytes.slice d (i * 8) 8).length = 8 := Bytes.length_slice_of_le (by omega)
    have e3 : (i + 1) * 8 = i * 8 + (Bytes.slice d (i * 8) 8).length := by rw [l1]; omega
    simp only []
    conv => lhs; rw [e3]
    rw [Bytes.xorAt_append, l1, Relaned.slice_append, show 8 + n * 8 = (n + 1) * 8 by omega]
    rfl

theorem addLanesLoop_eq (k : Cfg) (d : Bytes) (L n : Nat) (hn : 0 < n) (hL : L * 8 ≤ 200) (hd : L * 8 ≤ d.length)
    (S : Bytes) : ∀ fuel i A, L < fuel + i → i ≤ L → view k A = Bytes.xorAt S 0 (d.take (i * 8)) →
    ∃ i' A', addLanesLoop d L n fuel i A = some (i', A') ∧ i' ≤ L ∧ L < i' + n ∧
      view k A' = Bytes.xorAt S 0 (d.take (i' * 8)) := by
  intro fuel
  induction fuel with
  | zero => intro i A h h'; omega
  | succ fuel ih =>
    intro i A hf hi hv
    rw [addLanesLoop]
    split
    · rename_i h
      obtain ⟨A', e1, e2⟩ := xorLanes_eq k d n i A (by omega) (by omega)
      rw [e1]
      refine ih (i + n) A' (by omega) (by omega) ?_
      rw [e2, hv]
      have e3 : i * 8 = 0 + (d.take (i * 8)).length := by simp; omega
      conv => lhs; rw [show Bytes.xorAt (Bytes.xorAt S 0 (d.take (i * 8))) (i * 8) = Bytes.xorAt (Bytes.xorAt S 0 (d.take (i * 8))) (0 + (d.take (i * 8)).length) by rw [← e3]]
      rw [Bytes.xorAt_append, Bytes.slice, ← List.take_add, show i * 8 + n * 8 = (i + n) * 8 by omega]
    · exact ⟨i, A, rfl, hi, by omega, hv⟩

theorem addLanes_eq (k : Cfg) (A : Lanes) (d : Bytes) (n : Nat) (h : n * 8 ≤ 200) (hd : n * 8 ≤ d.length) :
    ∃ A', addLanes A d n = some A' ∧ view k A' = Bytes.xorAt (view k A) 0 (d.take (n * 8)) := by
  obtain ⟨i1, A1, e1, l1, _, v1⟩ := addLanesLoop_eq k d n 8 (by omega) h hd (view k A) (n + 1) 0 A (by omega) (by omega)
    (by simp)
  obtain ⟨i2, A2, e2, l2, _, v2⟩ := addLanesLoop_eq k d n 4 (by omega) h hd (view k A) (n + 1) i1 A1 (by omega) l1 v1
  obtain ⟨i3, A3, e3, l3, l3', v3⟩ := addLanesLoop_eq k d n 2 (by omega) h hd (view k A) (n + 1) i2 A2 (by omega) l2 v2
  rw [addLanes, e1]
  simp only [Option.bind_eq_bind, Option.bind_some]
  rw [e2]
  simp only [Option.bind_some]
  rw [e3]
  simp only [Option.bind_some]
  split
  · obtain ⟨A', e4, v4⟩ := xorLanes_eq k d 1 i3 A3 (by omega) (by omega)
    refine ⟨A', e4, ?_⟩
    have e5 : i3 * 8 = 0 + (d.take (i3 * 8)).length := by simp; omega
    rw [v4, v3]
    conv => lhs; rw [show Bytes.xorAt (Bytes.xorAt (view k A) 0 (d.take (i3 * 8))) (i3 * 8) = Bytes.xorAt (Bytes.xorAt (view k A) 0 (d.take (i3 * 8))) (0 + (d.take (i3 * 8)).length) by rw [← e5]]
    rw [Bytes.xorAt_append, Bytes.slice, ← List.take_add, show i3 * 8 + 1 * 8 = n * 8 by omega]
  · refine ⟨A3, rfl, ?_⟩
    rw [v3, show i3 = n by omega]

theorem uncB_setAt (k : Cfg) (s : Bytes) (p o : Nat) (d : Bytes) (h : o + d.length ≤ 8) :
    uncB k (Bytes.setAt s (p * 8 + o) (if isComp k p then d.map fun b => ~~~ b else d)) =
      Bytes.setAt (uncB k s) (p * 8 + o) d := by
  apply List.ext_getElem?; intro j
  simp only [uncB, List.getElem?_mapIdx, Bytes.getElem?_setAt]
  have hlen : (if isComp k p then d.map fun b => ~~~ b else d).length = d.length := by split <;> simp
  cases s[j]? with
  | none => rfl
  | some b =>
    simp only [Option.map_some, Option.some.injEq, hlen]
    by_cases hj : p * 8 + o ≤ j ∧ j < p * 8 + o + d.length
    · have e : j / 8 = p := by omega
      rw [if_pos hj, if_pos hj, e]
      split
      · rename_i hc
        rw [List.getD_eq_getElem?_getD, List.getElem?_map, List.getD_eq_getElem?_getD,
          List.getElem?_eq_getElem (by omega)]
        simp
      · rfl
    · rw [if_neg hj, if_neg hj]

theorem overwriteBytesInLane_eq (k : Cfg) (A : Lanes) (p : Nat) (d : Bytes) (o len : Nat) (h1 : o + len ≤ 8)
    (h2 : p * 8 + o + len ≤ 200) (hd : len ≤ d.length) :
    ∃ A', overwriteBytesInLane k A p d o len = some A' ∧
      view k A' = Bytes.setAt (view k A) (p * 8 + o) (d.take len) := by
  have hl : (d.take len).length = len := by simp; omega
  have e : overwriteBytesInLane k A p d o len =
      memWrite A (p * 8 + o) (if isComp k p then (d.take len).map fun b => ~~~ b else d.take len) := by
    rw [overwriteBytesInLane, SnP.readBuf_some hd]
    simp only [Option.bind_eq_bind, Option.bind_some]
    split <;> rfl
  obtain ⟨A', e1, e2⟩ := memWrite_some (A := A) (o := p * 8 + o)
    (d := if isComp k p then (d.take len).map fun b => ~~~ b else d.take len) (by split <;> simp <;> omega)
  refine ⟨A', by rw [e, e1], ?_⟩
  rw [view_uncB, e2, uncB_setAt k _ p o _ (by rw [hl]; exact h1), view_uncB]

theorem overwriteLoop_eq (k : Cfg) (d : Bytes) : ∀ n i A, (i + n) * 8 ≤ 200 → (i + n) * 8 ≤ d.length →
    ∃ A', loopM (fun i A => do
      let w ← readLane d i
      setLane A i (if isComp k i then ~~~ w else w)) i n A = some A' ∧
      view k A' = Bytes.setAt (view k A) (i * 8) (Bytes.slice d (i * 8) (n * 8)) := by
  intro n
  induction n with
  | zero => intro i A _ _; exact ⟨A, rfl, by simp [Bytes.slice]⟩
  | succ n ih =>
    intro i A h1 h2
    have hi : i < 25 := by omega
    rw [loopM, readLane_some (by omega)]
    simp only [Option.bind_eq_bind, Option.bind_some]
    rw [setLane_some hi]
    simp only [Option.bind_some]
    obtain ⟨A', e1, e2⟩ := ih (i + 1) (put A ⟨i, hi⟩ (if isComp k i then ~~~ wordOfBytes (d.drop (i * 8))
      else wordOfBytes (d.drop (i * 8)))) (by omega) (by omega)
    refine ⟨A', e1, ?_⟩
    have e3 := plain_put k A ⟨i, hi⟩ (wordOfBytes (d.drop (i * 8)))
    simp only [] at e3
    rw [e2, view, e3, bytesOfLanes_put, slice8 _ _ (by omega)]
    have l1 : (Bytes.slice d (i * 8) 8).length = 8 := Bytes.length_slice_of_le (by omega)
    have e3 : (i + 1) * 8 = i * 8 + (Bytes.slice d (i * 8) 8).length := by rw [l1]; omega
    simp only []
    conv => lhs; rw [e3]
    rw [Bytes.setAt_append, l1, Relaned.slice_append, show 8 + n * 8 = (n + 1) * 8 by omega]
    rfl

theorem view_plain (k : Cfg) (hk : k.lc = false) (A : Lanes) : view k A = bytesOfLanes A := by
  rw [view, plain_eq, if_neg (by simp [hk])]

theorem overwriteLanes_eq (k : Cfg) (A : Lanes) (d : Bytes) (n : Nat) (h : n * 8 ≤ 200) (hd : n * 8 ≤ d.length) :
    ∃ A', overwriteLanes k A d n = some A' ∧ view k A' = Bytes.setAt (view k A) 0 (d.take (n * 8)) := by
  rw [overwriteLanes]
  split
  · obtain ⟨A', e1, e2⟩ := overwriteLoop_eq k d n 0 A (by omega) (by omega)
    refine ⟨A', e1, ?_⟩
    rw [e2]; simp [Bytes.slice]
  · rename_i hk
    rw [SnP.readBuf_some hd]
    obtain ⟨A', e1, e2⟩ := memWrite_some (A := A) (o := 0) (d := d.take (n * 8)) (by simp; omega)
    refine ⟨A', e1, ?_⟩
    rw [view_plain k (by simpa using hk), view_plain k (by simpa using hk), e2]

theorem zeroLoop_eq (k : Cfg) : ∀ n i A, (i + n) * 8 ≤ 200 →
    ∃ A', loopM (fun i A => setLane A i (if isComp k i then ~~~ 0 else 0)) i n A = some A' ∧
      view k A' = Bytes.setAt (view k A) (i * 8) (List.replicate (n * 8) 0) := by
  intro n
  induction n with
  | zero => intro i A _; exact ⟨A, rfl, by simp⟩
  | succ n ih =>
    intro i A h1
    have hi : i < 25 := by omega
    rw [loopM, setLane_some hi]
    simp only [Option.bind_eq_bind, Option.bind_some]
    obtain ⟨A', e1, e2⟩ := ih (i + 1) (put A ⟨i, hi⟩ (if isComp k i then ~~~ 0 else 0)) (by omega)
    refine ⟨A', e1, ?_⟩
    have e3 := plain_put k A ⟨i, hi⟩ 0
    simp only [] at e3
    rw [e2, view, e3, bytesOfLanes_put, show bytesOfWord 0 = List.replicate 8 0 by decide]
    have e3 : (i + 1) * 8 = i * 8 + (List.replicate 8 (0 : Byte)).length := by simp; omega
    simp only []
    conv => lhs; rw [e3]
    rw [Bytes.setAt_append, List.replicate_append_replicate, show 8 + n * 8 = (n + 1) * 8 by omega]
    rfl

theorem overwriteWithZeroes_eq (k : Cfg) (A : Lanes) (n : Nat) (h : n ≤ 200) :
    ∃ A', overwriteWithZeroes k A n = some A' ∧ view k A' = Bytes.setAt (view k A) 0 (List.replicate n 0) := by
  rw [overwriteWithZeroes]
  split
  · obtain ⟨A1, e1, v1⟩ := zeroLoop_eq k (n / 8) 0 A (by omega)
    rw [e1]
    simp only [Option.bind_eq_bind, Option.bind_some]
    split
    · have e3 : (List.replicate (n % 8) (if isComp k (n / 8) then 0xFF else 0) : Bytes) =
          if isComp k (n / 8) then (List.replicate (n % 8) (0 : Byte)).map fun b => ~~~ b
          else List.replicate (n % 8) (0 : Byte) := by
        split
        · rw [List.map_replicate]; rfl
        · rfl
      obtain ⟨A', e4, e5⟩ := memWrite_some (A := A1) (o := n / 8 * 8)
        (d := List.replicate (n % 8) (if isComp k (n / 8) then 0xFF else 0)) (by simp; omega)
      refine ⟨A', e4, ?_⟩
      have e6 := uncB_setAt k (bytesOfLanes A1) (n / 8) 0 (List.replicate (n % 8) (0 : Byte)) (by simp; omega)
      rw [view_uncB, e5, e3, ← Nat.add_zero (n / 8 * 8), e6, ← view_uncB, v1]
      have e7 : n / 8 * 8 + 0 = 0 * 8 + (List.replicate (n / 8 * 8) (0 : Byte)).length := by simp
      conv => lhs; rw [e7]
      rw [Bytes.setAt_append, List.replicate_append_replicate, show n / 8 * 8 + n % 8 = n by omega]
    · refine ⟨A1, rfl, ?_⟩
      rw [v1, show n / 8 * 8 = n by omega]
  · rename_i hk
    obtain ⟨A', e1, e2⟩ := memWrite_some (A := A) (o := 0) (d := List.replicate n 0) (by simp; omega)
    refine ⟨A', e1, ?_⟩
    rw [view_plain k (by simpa using hk), view_plain k (by simpa using hk), e2]

theorem getElem?_notLane (d : Bytes) (i : Nat) (h : i * 8 + 8 ≤ d.length) :
    ∃ d', notLane d i = some d' ∧ d'.length = d.length ∧
      ∀ j, d'[j]? = d[j]?.map fun b => if j / 8 = i then ~~~ b else b := by
  refine ⟨_, by rw [notLane, readLane_some h]; rfl, Bytes.length_setAt _ _ _, fun j => ?_⟩
  rw [Bytes.getElem?_setAt]
  cases hj : d[j]? with
  | none => rfl
  | some b =>
    simp only [Option.map_some, Option.some.injEq, length_bytesOfWord]
    by_cases e : j / 8 = i
    · have e3 : j - i * 8 < 8 := by omega
      rw [if_pos e, if_pos (by omega), List.getD_eq_getElem?_getD, getElem?_bytesOfWord, if_pos e3, byteOf_not _ _ e3,
        byteOf_wordOfBytes _ _ e3, List.getD_eq_getElem?_getD, List.getElem?_drop,
        show i * 8 + (j - i * 8) = j by omega, hj]
      rfl
    · rw [if_neg e, if_neg (by omega)]

/-- `d` is `d0` with the bytes of the lanes selected by `f` complemented. -/
def Comp (d0 : Bytes) (f : Nat → Bool) (d : Bytes) : Prop :=
  d.length = d0.length ∧ ∀ j, d[j]? = d0[j]?.map fun b => if f (j / 8) then ~~~ b else b

theorem Comp.step {d0 d : Bytes} {f : Nat → Bool} (h : Comp d0 f d) (i : Nat) (hi : i * 8 + 8 ≤ d0.length)
    (hf : f i = false) : ∃ d', notLane d i = some d' ∧ Comp d0 (fun x => f x || x == i) d' := by
  obtain ⟨d', e1, e2, e3⟩ := getElem?_notLane d i (by rw [h.1]; exact hi)
  refine ⟨d', e1, by rw [e2, h.1], fun j => ?_⟩
  rw [e3, h.2, Option.map_map]
  congr 1
  funext b
  by_cases hj : j / 8 = i
  · simp [hj, hf]
  · have : (j / 8 == i) = false := by simp [hj]
    simp [hj]

theorem Comp.done {d0 d : Bytes} {f g : Nat → Bool} (h : Comp d0 f d) {n : Nat} (hn : d0.length = n * 8)
    (hfg : ∀ x, x < n → f x = g x) : Comp d0 g d := by
  refine ⟨h.1, fun j => ?_⟩
  rw [h.2]
  by_cases hj : j < d0.length
  · rw [hfg (j / 8) (by omega)]
  · rw [List.getElem?_eq_none (by omega)]; rfl

theorem isComp_lc {k : Cfg} (h : k.lc = true) (x : Nat) : isComp k x =
    (x == 1 || x == 2 || x == 8 || x == 12 || x == 17 || x == 20) := by simp [isComp, h]

theorem ne_beq {x n m : Nat} (h : x < n) (hn : n ≤ m) : (x == m) = false := by
  simp; omega

theorem complementOutput_eq (k : Cfg) (n : Nat) (d : Bytes) (hd : d.length = n * 8) :
    ∃ d', complementOutput k n d = some d' ∧ Comp d (isComp k) d' := by
  have h0 : Comp d (fun _ => false) d := ⟨rfl, fun j => by simp⟩
  unfold complementOutput
  split
  swap
  · rename_i hk
    refine ⟨d, rfl, h0.done hd fun x _ => ?_⟩
    have : k.lc = false := by simpa using hk
    simp [isComp, this]
  rename_i hk
  split
  swap
  · refine ⟨d, rfl, h0.done hd fun x hx => ?_⟩
    have a := fun m hm => ne_beq (m := m) hx hm
    rw [isComp_lc hk, a 1 (by omega), a 2 (by omega), a 8 (by omega), a 12 (by omega), a 17 (by omega), a 20 (by omega)]; rfl
  obtain ⟨d1, e1, h1⟩ := h0.step 1 (by omega) rfl
  rw [e1]
  simp only [Option.bind_eq_bind, Option.bind_some]
  split
  swap
  · refine ⟨d1, rfl, h1.done hd fun x hx => ?_⟩
    have a := fun m hm => ne_beq (m := m) hx hm
    rw [isComp_lc hk, a 2 (by omega), a 8 (by omega), a 12 (by omega), a 17 (by omega), a 20 (by omega)]; simp
  obtain ⟨d2, e2, h2⟩ := h1.step 2 (by omega) rfl
  rw [e2]
  simp only [Option.bind_some]
  split
  swap
  · refine ⟨d2, rfl, h2.done hd fun x hx => ?_⟩
    have a := fun m hm => ne_beq (m := m) hx hm
    rw [isComp_lc hk, a 8 (by omega), a 12 (by omega), a 17 (by omega), a 20 (by omega)]; simp
  obtain ⟨d3, e3, h3⟩ := h2.step 8 (by omega) rfl
  rw [e3]
  simp only [Option.bind_some]
  split
  swap
  · refine ⟨d3, rfl, h3.done hd fun x hx => ?_⟩
    have a := fun m hm => ne_beq (m := m) hx hm
    rw [isComp_lc hk, a 12 (by omega), a 17 (by omega), a 20 (by omega)]; simp
  obtain ⟨d4, e4, h4⟩ := h3.step 12 (by omega) rfl
  rw [e4]
  simp only [Option.bind_some]
  split
  swap
  · refine ⟨d4, rfl, h4.done hd fun x hx => ?_⟩
    have a := fun m hm => ne_beq (m := m) hx hm
    rw [isComp_lc hk, a 17 (by omega), a 20 (by omega)]; simp
  obtain ⟨d5, e5, h5⟩ := h4.step 17 (by omega) rfl
  rw [e5]
  simp only [Option.bind_some]
  split
  swap
  · refine ⟨d5, rfl, h5.done hd fun x hx => ?_⟩
    have a := fun m hm => ne_beq (m := m) hx hm
    rw [isComp_lc hk, a 20 (by omega)]; simp
  obtain ⟨d6, e6, h6⟩ := h5.step 20 (by omega) rfl
  refine ⟨d6, e6, h6.done hd fun x hx => ?_⟩
  rw [isComp_lc hk]; simp

theorem extractLanes_eq (k : Cfg) (A : Lanes) (n : Nat) (h : n * 8 ≤ 200) :
    extractLanes k A n = some (Bytes.slice (view k A) 0 (n * 8)) := by
  rw [extractLanes, memRead_some (by omega)]
  simp only [Option.bind_eq_bind, Option.bind_some]
  obtain ⟨d', e1, e2, e3⟩ := complementOutput_eq k n (Bytes.slice (bytesOfLanes A) 0 (n * 8))
    (Bytes.length_slice_of_le (by rw [length_bytesOfLanes]; omega))
  rw [e1]
  congr 1
  apply List.ext_getElem?; intro j
  rw [e3, view_uncB, Bytes.getElem?_slice, Bytes.getElem?_slice, uncB, List.getElem?_mapIdx,
    Nat.zero_add]
  by_cases hj : j < n * 8
  · rw [if_pos hj, if_pos hj]
  · rw [if_neg hj, if_neg hj]; rfl

theorem extractAndAddLanes_eq (k : Cfg) (A : Lanes) (d : Bytes) (n : Nat) (h : n * 8 ≤ 200) (hd : n * 8 ≤ d.length) :
    extractAndAddLanes k A d n = some (Bytes.xor (d.take (n * 8)) (Bytes.slice (view k A) 0 (n * 8))) := by
  rw [extractAndAddLanes, xorOut_eq A d n 0 (by omega) (by omega)]
  simp only [Option.bind_eq_bind, Option.bind_some]
  have l1 : (Bytes.slice d (0 * 8) (n * 8)).length = n * 8 := Bytes.length_slice_of_le (by omega)
  have l2 : (Bytes.slice (bytesOfLanes A) (0 * 8) (n * 8)).length = n * 8 :=
    Bytes.length_slice_of_le (by rw [length_bytesOfLanes]; omega)
  obtain ⟨d', e1, e2, e3⟩ := complementOutput_eq k n
    (Bytes.xor (Bytes.slice d (0 * 8) (n * 8)) (Bytes.slice (bytesOfLanes A) (0 * 8) (n * 8)))
    (by rw [Bytes.length_xor, l1, l2]; omega)
  rw [e1]
  congr 1
  apply List.ext_getElem?; intro j
  rw [e3, view_uncB]
  simp only [Bytes.xor, List.getElem?_zipWith, Bytes.getElem?_slice, uncB, List.getElem?_mapIdx, List.getElem?_take,
    Nat.zero_mul, Nat.zero_add]
  have h8 : ∀ a b : Byte, ~~~ (a ^^^ b) = a ^^^ ~~~ b := by
    intro a b; ext i hi; simp
  by_cases hj : j < n * 8
  · simp only [if_pos hj]
    cases d[j]? with
    | none => rfl
    | some a =>
      cases (bytesOfLanes A)[j]? with
      | none => rfl
      | some b =>
        simp only [Option.map_some, Option.some.injEq]
        split
        · exact h8 a b
        · rfl
  · simp only [if_neg hj]; rfl

theorem extractBytesInLane_eq (k : Cfg) (A : Lanes) (p o len : Nat) (h0 : 0 < len) (h1 : o + len ≤ 8)
    (h2 : p * 8 + o + len ≤ 200) :
    extractBytesInLane k A p o len = some (Bytes.slice (view k A) (p * 8 + o) len) := by
  have hp : p < 25 := by omega
  rw [extractBytesInLane, getLane_some hp]
  simp only [Option.bind_eq_bind, Option.bind_some]
  rw [if_pos h1, view, slice_bytesOfLanes (plain k A) ⟨p, hp⟩ o len h1]
  rfl

theorem extractAndAddBytesInLane_eq (k : Cfg) (A : Lanes) (p : Nat) (d : Bytes) (o len : Nat) (h0 : 0 < len)
    (h1 : o + len ≤ 8) (h2 : p * 8 + o + len ≤ 200) (hd : len ≤ d.length) :
    extractAndAddBytesInLane k A p d o len =
      some (Bytes.xor (d.take len) (Bytes.slice (view k A) (p * 8 + o) len)) := by
  have hp : p < 25 := by omega
  rw [extractAndAddBytesInLane, getLane_some hp, SnP.readBuf_some hd]
  simp only [Option.bind_eq_bind, Option.bind_some]
  rw [if_pos h1, view, slice_bytesOfLanes (plain k A) ⟨p, hp⟩ o len h1]
  rfl

theorem ops_sound (k : Cfg) : Relaned.OpsSound 8 200 (view k) (ops k) where
  add := ⟨fun A d n h hd => addLanes_eq k A d n h hd,
    fun A p d o len h0 h1 h2 hd => addBytesInLane_eq k A p d o len h0 h1 h2 hd⟩
  overwrite := ⟨fun A d n h hd => overwriteLanes_eq k A d n h hd,
    fun A p d o len _ h1 h2 hd => overwriteBytesInLane_eq k A p d o len h1 h2 hd⟩
  extractLanes := extractLanes_eq k
  extractIn := extractBytesInLane_eq k
  extractAndAddLanes := extractAndAddLanes_eq k
  extractAndAddIn := extractAndAddBytesInLane_eq k

theorem plain_initState (k : Cfg) : plain k (initState k) = fun _ => 0 := by
  rw [plain_eq]
  unfold initState
  cases k.lc
  · rfl
  · funext i; fin_cases i <;> decide

theorem addByte_eq (k : Cfg) (A : Lanes) (b : Byte) (offset : Nat) (h : offset < 200) :
    ∃ A', addByte A b offset = some A' ∧ view k A' = Bytes.xorAt (view k A) offset [b] := by
  obtain ⟨A', h1, h2⟩ := memXor_some (A := A) (o := offset) (d := [b]) (by simp; omega)
  exact ⟨A', h1, by rw [view_uncB, h2, uncB_xorAt, ← view_uncB]⟩

end Opt64

theorem bytesOfLanes_zero : bytesOfLanes (fun _ => 0) = List.replicate 200 0 := by decide +kernel

namespace Ref

theorem set_eq_xorAt (s : Bytes) (o : Nat) (a b : Byte) (h : s[o]? = some a) :
    s.set o (a ^^^ b) = Bytes.xorAt s o [b] := by
  apply List.ext_getElem?; intro j
  rw [List.getElem?_set, Bytes.getElem?_xorAt]
  have ho := (List.getElem?_eq_some_iff.1 h).1
  by_cases hj : o = j
  · subst hj
    rw [if_pos rfl, if_pos ho, h]
    simp
  · rw [if_neg hj]
    cases s[j]? with
    | none => rfl
    | some c =>
      simp only [Option.map_some, Option.some.injEq]
      by_cases h1 : o ≤ j
      · rw [if_pos h1, List.getD_eq_getElem?_getD, List.getElem?_eq_none (by simp; omega)]; simp
      · rw [if_neg h1]; simp

theorem addBytes_loop (d : Bytes) (o : Nat) : ∀ n i s, o + i + n ≤ s.length → i + n ≤ d.length →
    loopM (fun i s => do
      let d ← d[i]?
      let a ← s[o + i]?
      some (s.set (o + i) (a ^^^ d))) i n s = some (Bytes.xorAt s (o + i) (Bytes.slice d i n)) := by
  intro n
  induction n with
  | zero => intro i s _ _; simp [loopM, Bytes.slice]
  | succ n ih =>
    intro i s h1 h2
    rw [loopM, List.getElem?_eq_getElem (show i < d.length by omega),
      List.getElem?_eq_getElem (show o + i < s.length by omega)]
    simp only [Option.bind_eq_bind, Option.bind_some]
    rw [set_eq_xorAt s (o + i) _ _ (List.getElem?_eq_getElem (by omega))]
    rw [show o + i = o + i from rfl]
    have := ih (i + 1) (Bytes.xorAt s (o + i) [d[i]]) (by rw [Bytes.length_xorAt]; omega) (by omega)
    simp only [Option.bind_eq_bind] at this
    rw [this]
    congr 1
    rw [show o + (i + 1) = o + i + [d[i]].length by simp; omega, Bytes.xorAt_append]
    congr 1
    apply List.ext_getElem?; intro j
    cases j with
    | zero => rw [Bytes.getElem?_slice, if_pos (by omega), List.getElem?_eq_getElem (show i + 0 < d.length by omega)]; rfl
    | succ j =>
      rw [List.singleton_append, List.getElem?_cons_succ, Bytes.getElem?_slice, Bytes.getElem?_slice,
        show i + 1 + j = i + (j + 1) by omega]
      by_cases hj : j < n
      · rw [if_pos hj, if_pos (by omega)]
      · rw [if_neg hj, if_neg (by omega)]

theorem extractAndAdd_loop (s d : Bytes) (o : Nat) : ∀ n i out, o + i + n ≤ s.length → i + n ≤ d.length →
    loopM (fun i output => do
      let d ← d[i]?
      let a ← s[o + i]?
      some (output ++ [d ^^^ a])) i n out =
      some (out ++ Bytes.xor (Bytes.slice d i n) (Bytes.slice s (o + i) n)) := by
  intro n
  induction n with
  | zero => intro i out _ _; simp [loopM, Bytes.slice, Bytes.xor]
  | succ n ih =>
    intro i out h1 h2
    rw [loopM, List.getElem?_eq_getElem (show i < d.length by omega),
      List.getElem?_eq_getElem (show o + i < s.length by omega)]
    simp only [Option.bind_eq_bind, Option.bind_some]
    have := ih (i + 1) (out ++ [d[i] ^^^ s[o + i]]) (by omega) (by omega)
    simp only [Option.bind_eq_bind] at this
    rw [this, List.append_assoc]
    congr 2
    have e : ∀ (l : Bytes) (i : Nat) (h : i < l.length), Bytes.slice l i (n + 1) = l[i] :: Bytes.slice l (i + 1) n := by
      intro l i h
      rw [Bytes.slice, List.drop_eq_getElem_cons h, List.take_succ_cons]; rfl
    rw [e d i (by omega), e s (o + i) (by omega)]
    rfl

theorem overwrite_eq (s d : Bytes) (o : Nat) (h : o + d.length ≤ s.length) :
    s.take o ++ d ++ s.drop (o + d.length) = Bytes.setAt s o d := by
  apply List.ext_getElem?; intro j
  rw [Bytes.getElem?_setAt, List.append_assoc]
  by_cases h1 : j < o
  · rw [List.getElem?_append_left (by simp; omega), List.getElem?_take, if_pos h1,
      List.getElem?_eq_getElem (by omega), Option.map_some, if_neg (by omega)]
  · rw [List.getElem?_append_right (by simp; omega)]
    have e : (s.take o).length = o := by simp; omega
    rw [e]
    by_cases h2 : j < o + d.length
    · rw [List.getElem?_append_left (by omega), List.getElem?_eq_getElem (show j < s.length by omega),
        Option.map_some, if_pos (by omega), List.getD_eq_getElem?_getD, List.getElem?_eq_getElem (by omega)]
      rfl
    · rw [List.getElem?_append_right (by omega), List.getElem?_drop,
        show o + d.length + (j - o - d.length) = j by omega]
      cases s[j]? with
      | none => rfl
      | some b => rw [Option.map_some, if_neg (by omega)]

end Ref

end KeccakP1600
