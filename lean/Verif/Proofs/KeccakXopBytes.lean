import Verif.Proofs.KeccakXop
import Verif.Proofs.ByteAccess

/-!
The byte access functions of the XOP implementation.
-/

namespace Xop

open KeccakP1600 (Lane Lanes put bytesOfLanes)

theorem addBytesInLane_opt (A : Lanes) (p : Nat) (d : Bytes) (o len : Nat) :
    addBytesInLane A p d o len = KeccakP1600.Opt64.addBytesInLane A p d o len := by
  unfold addBytesInLane KeccakP1600.Opt64.addBytesInLane partialLane shiftLane
  split
  · rfl
  · cases SnP.readBuf d len with
    | none => rfl
    | some d =>
      by_cases h1 : len = 1
      · by_cases h3 : o * 8 < 64 <;> simp [h1, h3]
      · by_cases h2 : len ≤ 8 <;> by_cases h3 : o * 8 < 64 <;> simp [h1, h2, h3]

theorem addLanesLoop_opt (d : Bytes) (n m : Nat) : ∀ fuel i A,
    addLanesLoop d n m fuel i A = KeccakP1600.Opt64.addLanesLoop d n m fuel i A := by
  intro fuel
  induction fuel with
  | zero => intros; rfl
  | succ fuel ih =>
    intro i A
    rw [addLanesLoop, KeccakP1600.Opt64.addLanesLoop]
    simp only [ih]
    rfl

theorem addLanes_opt (A : Lanes) (d : Bytes) (n : Nat) : addLanes A d n = KeccakP1600.Opt64.addLanes A d n := by
  unfold addLanes KeccakP1600.Opt64.addLanes
  simp only [addLanesLoop_opt]
  rfl

theorem extractAndAddLanesFrom_opt (A : Lanes) (d : Bytes) : ∀ n i,
    extractAndAddLanesFrom A d i n = KeccakP1600.Opt64.xorOut A d i n := by
  intro n
  induction n with
  | zero => intros; rfl
  | succ n ih => intro i; rw [extractAndAddLanesFrom, KeccakP1600.Opt64.xorOut]; simp only [ih]

/-- The configuration without lane complementing. -/
abbrev k0 : KeccakP1600.Opt64.Cfg := ⟨false, .full⟩

theorem view_k0 (A : Lanes) : KeccakP1600.Opt64.view k0 A = bytesOfLanes A := KeccakP1600.Opt64.view_plain k0 rfl A

theorem addBytes_eq (A : Lanes) (d : Bytes) (o len : Nat) (h : o + len ≤ 200) (hd : len ≤ d.length) :
    ∃ A', addBytes A d o len = some A' ∧ bytesOfLanes A' = Bytes.xorAt (bytesOfLanes A) o (d.take len) := by
  have e1 : addLanes = KeccakP1600.Opt64.addLanes := by funext A d n; exact addLanes_opt A d n
  have e2 : addBytesInLane = KeccakP1600.Opt64.addBytesInLane := by funext A p d o len; exact addBytesInLane_opt A p d o len
  obtain ⟨A', h1, h2⟩ := Relaned.writeBytes_eq (by decide) (KeccakP1600.Opt64.ops_sound k0).add Bytes.xorAt_nil
    Bytes.xorAt_append A d o len h hd
  rw [view_k0, view_k0] at h2
  refine ⟨A', ?_, h2⟩
  rw [addBytes, e1, e2]
  exact h1

theorem extractAndAddBytesInLane_eq (A : Lanes) (p : Nat) (d : Bytes) (o len : Nat) (h1 : o + len ≤ 8)
    (h2 : p * 8 + o + len ≤ 200) (h0 : 0 < len) (hd : len ≤ d.length) :
    extractAndAddBytesInLane A p d o len = some (Bytes.xor (d.take len) (Bytes.slice (bytesOfLanes A) (p * 8 + o) len)) := by
  have hp : p < 25 := by omega
  have hl : (KeccakP1600.bytesOfWord (A ⟨p, hp⟩)).length = 8 := KeccakP1600.length_bytesOfWord _
  have := KeccakP1600.Ref.extractAndAdd_loop (KeccakP1600.bytesOfWord (A ⟨p, hp⟩)) d o len 0 [] (by omega) (by omega)
  rw [extractAndAddBytesInLane, KeccakP1600.getLane_some hp, Option.bind_eq_bind, Option.bind_some, this]
  have e := KeccakP1600.slice_bytesOfLanes A ⟨p, hp⟩ o len h1
  simp only at e
  rw [e]
  simp [Bytes.slice]

theorem extractAndAddLanes_eq (A : Lanes) (d : Bytes) (n : Nat) (h : n * 8 ≤ 200) (hd : n * 8 ≤ d.length) :
    extractAndAddLanes A d n = some (Bytes.xor (d.take (n * 8)) (Bytes.slice (bytesOfLanes A) 0 (n * 8))) := by
  rw [extractAndAddLanes, extractAndAddLanesFrom_opt, KeccakP1600.xorOut_eq A d n 0 (by omega) (by omega)]
  simp [Bytes.slice]

theorem extractAndAddBytes_eq (A : Lanes) (d : Bytes) (o len : Nat) (h : o + len ≤ 200) (hd : len ≤ d.length) :
    Relaned.extractAndAddBytes 8 ops A d o len = some (Bytes.xor (d.take len) (Bytes.slice (bytesOfLanes A) o len)) :=
  Relaned.extractAndAddBytes_eq (by decide) ops A (bytesOfLanes A) (KeccakP1600.length_bytesOfLanes A)
    (fun d n h1 h2 => extractAndAddLanes_eq A d n h1 h2)
    (fun p d o len h0 h1 h2 h3 => extractAndAddBytesInLane_eq A p d o len h1 h2 h0 h3) d o len h hd

end Xop
