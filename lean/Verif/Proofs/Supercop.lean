import Verif.Model.Supercop
import Verif.Spec.XoodyakAead
import Verif.Proofs.XoodyakSession

/-!
# Lemmas about the SUPERCOP interface
-/

namespace Supercop

open Spec.Cyclist (St)
open Xoodyak (ofSt call_eq initialize_eq)

theorem readBuf_self {p : Bytes} {n : Nat} (h : p.length = n) : readBuf p n = some p := by
  rw [readBuf, if_pos (by omega), ← h, List.take_length]

theorem setAt_zero (p d : Bytes) (h : d.length ≤ p.length) : p.setAt 0 d = d ++ p.drop d.length := by
  refine List.ext_getElem? fun i => ?_
  rw [Bytes.getElem?_setAt, List.getElem?_append]
  by_cases hi : i < d.length
  · rw [if_pos hi, List.getElem?_eq_getElem (by omega), List.getElem?_eq_getElem hi]
    simp [hi]
  · rw [if_neg hi, List.getElem?_drop, show d.length + (i - d.length) = i by omega]
    simp [hi]

theorem writeBuf_zero {p d : Bytes} (h : d.length ≤ p.length) : writeBuf p 0 d = some (d ++ p.drop d.length) := by
  rw [writeBuf, if_pos (by omega), setAt_zero p d h]

/-- two consecutive writes -/
theorem writeBuf_two {p d e : Bytes} (h : d.length + e.length ≤ p.length) :
    (writeBuf p 0 d).bind (fun p => writeBuf p d.length e) = some (d ++ e ++ p.drop (d.length + e.length)) := by
  rw [writeBuf, if_pos (by omega), Option.bind_some, writeBuf, if_pos (by simpa using h)]
  have := Bytes.setAt_append p 0 d e
  rw [Nat.zero_add] at this
  rw [this, setAt_zero p (d ++ e) (by simpa using h), List.length_append]

variable {f : Bytes → Bytes}

theorem squeeze16 (hf : ∀ s : Bytes, s.length = 48 → (f s).length = 48) (S : St) (hS : S.s.length = 48) :
    (Spec.Cyclist.step f S (.squeeze 16)).2.length = 16 := by
  have h : Spec.Cyclist.blockLengths (Spec.Cyclist.Rsqueeze S) 16 = [16] := by
    rw [Spec.Cyclist.Rsqueeze]; cases S.keyed <;> rfl
  have h2 := (Xoodyak.length_goUp hf S hS 16 0x40)
  simp only [Spec.Cyclist.step, Spec.Cyclist.squeezeAny, h, List.head!, List.tail, Spec.Cyclist.squeezeBlocks,
    List.append_nil]
  simp only [Spec.Cyclist.goUp] at h2 ⊢
  rw [List.length_take, h2]
  rfl

/-- The object that `start` gives has 48 bytes, and the code represents it. -/
theorem setup_eq (hf : ∀ s : Bytes, s.length = 48 → (f s).length = 48) (full round3 : Bool) (k npub ad : Bytes)
    (hk : k.length = 16) (hn : npub.length = 16) :
    (setup f full round3 k npub).bind (fun i => Xoodyak.absorb f full i ad) =
        some (ofSt (Spec.XoodyakAead.start f round3 k npub ad)) ∧
      (Spec.XoodyakAead.start f round3 k npub ad).s.length = 48 := by
  have key : ∀ (S : St) (X : Bytes), S.s.length = 48 →
      Xoodyak.absorb f full (ofSt S) X = some (ofSt (Spec.Cyclist.step f S (.absorb X)).1) ∧
        (Spec.Cyclist.step f S (.absorb X)).1.s.length = 48 := by
    intro S X hS
    obtain ⟨h1, h2, -⟩ := call_eq hf full S hS (.absorb X)
    rw [Xoodyak.call, Option.map_eq_some_iff] at h1
    obtain ⟨i, h3, h4⟩ := h1
    rw [Prod.mk.injEq] at h4
    rw [h3, h4.1]
    exact ⟨rfl, h2⟩
  rw [setup, KEYBYTES, NPUBBYTES, readBuf_self hk, readBuf_self hn]
  simp only [Option.bind_eq_bind, Option.bind_some]
  cases round3
  · obtain ⟨h1, h2⟩ := initialize_eq hf full k [] [] (Or.inr (by simp; omega))
    obtain ⟨h3, h4⟩ := key _ npub h2
    obtain ⟨h5, h6⟩ := key _ ad h4
    simp only [Bool.false_eq_true, if_false, h1, Option.bind_some, h3, h5]
    exact ⟨rfl, h6⟩
  · obtain ⟨h1, h2⟩ := initialize_eq hf full k npub [] (Or.inr (by omega))
    obtain ⟨h5, h6⟩ := key _ ad h2
    simp only [if_true, h1, Option.bind_some, h5]
    exact ⟨rfl, h6⟩

/-- The two parts of the output of the specification. -/
theorem encrypt_parts (hf : ∀ s : Bytes, s.length = 48 → (f s).length = 48) (round3 : Bool) (k npub ad P : Bytes)
    (h48 : (Spec.XoodyakAead.start f round3 k npub ad).s.length = 48) :
    Spec.XoodyakAead.encrypt f round3 k npub ad P =
        (Spec.Cyclist.crypt f (Spec.XoodyakAead.start f round3 k npub ad) P false).2 ++
          (Spec.Cyclist.step f (Spec.Cyclist.crypt f (Spec.XoodyakAead.start f round3 k npub ad) P false).1
            (.squeeze 16)).2 ∧
      (Spec.Cyclist.crypt f (Spec.XoodyakAead.start f round3 k npub ad) P false).2.length = P.length ∧
      (Spec.Cyclist.step f (Spec.Cyclist.crypt f (Spec.XoodyakAead.start f round3 k npub ad) P false).1
        (.squeeze 16)).2.length = 16 := by
  refine ⟨?_, (Spec.Cyclist.crypt_inverse hf false _ h48 P).1, squeeze16 hf _ ?_⟩
  · rw [Spec.XoodyakAead.encrypt]
    simp only [Spec.Cyclist.run, List.flatten_cons, List.flatten_nil, List.append_nil]
    rfl
  · exact (call_eq hf true _ h48 (.encrypt P)).2.1

end Supercop
