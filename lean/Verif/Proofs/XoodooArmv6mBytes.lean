import Verif.Proofs.XoodooArmv6mFull

/-!
Access to the bytes of the state, and `Xoofff_AddIs`, in the ARMv6-M assembly.
-/

namespace XoodooArm6

open Xoodoo (Lane bytesOfWord byteOf)
open Simd32 (wd loadWord storeWord)
open X86 (Op opAt length_opAt getD_opAt opAt_nil opAt_append ext_getD mixOf outOf mixOf_eq outOf_eq slice_one wr8_ok)
open Armv8Asm (setAt_mix slice_zero)
open XoodooPlanes (storeWord_eq)
open XoodooArm (Wr sub32 add32 sub32_eq blockLoop blockLoop_eq add_sub32 ldrb strb ldrb_ok ld_ok bytesOfWord_mix bytesOfWord_out unlessZero
  unlessZero_eq added addBits)

/-! ### The loops -/

/-- `h k` is the state when the bytes from `k` on are done. -/
theorem downLoop_eq {σ : Type} (byte : σ → Nat → Option σ) (h : Nat → σ) (r : Nat) (hr : r < 2 ^ 32)
    (hb : ∀ k, k < r → byte (h (k + 1)) k = some (h k)) :
    ∀ (fuel n : Nat), n < fuel → n < r → downLoop byte fuel (h (n + 1)) n = some (h 0) := by
  intro fuel
  induction fuel with
  | zero => intro n hf; omega
  | succ fuel ih =>
    intro n hf hn
    rw [downLoop, hb n hn, Option.bind_eq_bind, Option.bind_some]
    by_cases hc : n < 1
    · rw [if_pos hc, show n = 0 by omega]
    · obtain ⟨n, rfl⟩ : ∃ k, n = k + 1 := ⟨n - 1, by omega⟩
      rw [if_neg hc, sub32_eq (by omega) (by omega), Nat.add_sub_cancel]
      exact ih n (by omega) (by omega)

/-- A byte before the ones that are done. -/
theorem opAt_cons (op : Op) (t : Bytes) (a : Nat) (y : Byte) (ys : Bytes) :
    opAt op (opAt op t (a + 1) ys) a [y] = opAt op t a (y :: ys) := by
  apply ext_getD (by simp)
  intro j hj
  simp only [length_opAt] at hj
  rw [getD_opAt _ _ _ _ _ (by simpa using hj), getD_opAt _ _ _ _ _ hj, getD_opAt _ _ _ _ _ hj]
  simp only [List.length_cons, List.length_nil]
  by_cases h1 : j = a
  · subst h1
    rw [if_pos (by omega), if_neg (by omega), if_pos (by omega), Nat.sub_self]
    rfl
  · rw [if_neg (by omega)]
    by_cases h2 : a ≤ j ∧ j < a + (ys.length + 1)
    · rw [if_pos (by omega), if_pos h2, show j - a = (j - (a + 1)) + 1 by omega]
      rfl
    · rw [if_neg (by omega), if_neg h2]

theorem slice_cons (e : Bytes) (i n : Nat) (h : i < e.length) : Bytes.slice e i (n + 1) = e.getD i 0 :: Bytes.slice e (i + 1) n := by
  have := Relaned.slice_append e i 1 n
  rw [slice_one e i h] at this
  rw [Nat.add_comm n 1, ← this]
  rfl

theorem stages_eq {σ : Type} (op : Op) (t e : Bytes) (b len : Nat) (he : e.length = len) (hlen : len < 2 ^ 32) (mk : Bytes → Nat → σ)
    (skip : Bool) (word : σ → Option σ) (byte : σ → Nat → Option σ)
    (hw : skip = false → ∀ X i, X.length = t.length → i % 4 = 0 → i + 4 ≤ len →
      word (mk X i) = some (mk (opAt op X (b + i) (Bytes.slice e i 4)) (i + 4)))
    (hb : ∀ X i k, X.length = t.length → i + k < len → byte (mk X i) k = some (mk (opAt op X (b + i + k) [e.getD (i + k) 0]) i)) :
    ∃ i, stages skip word byte (mk t 0) len = some (mk (opAt op t b e) i) := by
  have app : ∀ i k, i + k ≤ len → opAt op (opAt op t b (Bytes.slice e 0 i)) (b + i) (Bytes.slice e i k) = opAt op t b (Bytes.slice e 0 (i + k)) := by
    intro i k h
    have := opAt_append op t b (Bytes.slice e 0 i) (Bytes.slice e i k)
    rw [Bytes.length_slice_of_le (by omega)] at this
    rw [this, ← Relaned.slice_append e 0 i k, Nat.zero_add]
  have hall : Bytes.slice e 0 len = e := by rw [slice_zero, ← he, List.take_length]
  have h0 : opAt op t b (Bytes.slice e 0 0) = t := by
    rw [show Bytes.slice e 0 0 = [] from rfl, opAt_nil]
  -- the bytes after the first `i`, which are a multiple of 4
  have key : ∀ i, i < len → downLoop byte (2 ^ 32) (mk (opAt op t b (Bytes.slice e 0 i)) i) (len - i - 1) = some (mk (opAt op t b e) i) := by
    intro i hi
    have hd := downLoop_eq byte
      (fun k => mk (opAt op (opAt op t b (Bytes.slice e 0 i)) (b + i + k) (Bytes.slice e (i + k) (len - i - k))) i) (len - i) (by omega)
      (fun k hk => by
        rw [hb _ _ _ (by simp) (by omega), show b + i + (k + 1) = b + i + k + 1 from rfl, opAt_cons, show i + (k + 1) = i + k + 1 from rfl,
          show len - i - k = len - i - (k + 1) + 1 by omega, slice_cons _ _ _ (by omega)])
      (2 ^ 32) (len - i - 1) (by omega) (by omega)
    rw [show len - i - 1 + 1 = len - i by omega, Nat.sub_self] at hd
    simp only [Nat.add_zero, Nat.sub_zero] at hd
    rw [app i (len - i) (by omega), show i + (len - i) = len by omega, hall, show ∀ x, Bytes.slice e x 0 = [] from fun x => rfl, opAt_nil] at hd
    exact hd
  have hloop : (n : Nat) → (skip = false → n = len % 4) → (n = len ∨ n = len % 4) →
      (do let n := add32 (sub32 n 4) 4
          if n = 0 then some (mk (opAt op t b (Bytes.slice e 0 (len - n))) (len - n))
          else downLoop byte (2 ^ 32) (mk (opAt op t b (Bytes.slice e 0 (len - n))) (len - n)) (sub32 n 1)) =
        some (mk (opAt op t b e) (len - n)) := by
    intro n _ hn
    have en : add32 (sub32 n 4) 4 = n := by unfold add32 sub32; omega
    simp only [en]
    by_cases h : n = 0
    · rw [if_pos h, h, Nat.sub_zero, hall]
    · rw [if_neg h, sub32_eq (by omega) (by omega)]
      have := key (len - n) (by omega)
      rwa [show len - (len - n) - 1 = n - 1 by omega] at this
  unfold stages
  by_cases hc : len < 4 ∨ skip
  · refine ⟨0, ?_⟩
    rw [if_pos hc]
    have := hloop len (fun h => by simp only [h, Bool.false_eq_true, or_false] at hc; exact (Nat.mod_eq_of_lt hc).symm) (Or.inl rfl)
    have en : add32 (sub32 len 4) 4 = len := by unfold add32 sub32; omega
    simp only [en, Nat.sub_self, h0] at this
    simp only [Option.bind_eq_bind, Option.bind_some, en]
    exact this
  · refine ⟨len - len % 4, ?_⟩
    have hskip : skip = false := by
      cases skip
      · rfl
      · exact absurd (Or.inr rfl) hc
    rw [if_neg hc]
    have hl : ∀ (fuel n i : Nat), n < fuel → i + n = len → i % 4 = 0 →
        blockLoop 4 word fuel (mk (opAt op t b (Bytes.slice e 0 i)) i) n =
          some (mk (opAt op t b (Bytes.slice e 0 (len - n % 4))) (len - n % 4), sub32 (n % 4) 4) := by
      intro fuel
      induction fuel with
      | zero => intro n i hf; omega
      | succ fuel ih =>
        intro n i hf hi h4
        rw [blockLoop]
        by_cases h : n < 4
        · rw [if_pos h, Nat.mod_eq_of_lt h, show len - n = i by omega]
        · rw [if_neg h, hw hskip _ i (by simp) h4 (by omega), Option.bind_eq_bind, Option.bind_some, sub32_eq (by omega) (by omega), app _ _ (by omega),
            ih (n - 4) (i + 4) (by omega) (by omega) (by omega), ← Nat.mod_eq_sub_mod (by omega)]
    have e1 := hl (2 ^ 32) len 0 hlen (by omega) rfl
    rw [h0] at e1
    rw [e1]
    have := hloop (len % 4) (fun _ => rfl) (Or.inr rfl)
    have en : add32 (sub32 (len % 4) 4) 4 = len % 4 := by unfold add32 sub32; omega
    simp only [en] at this
    simp only [Option.bind_eq_bind, Option.bind_some, en]
    exact this

/-! ### The functions -/

theorem aligned_or {a0 a1 : Nat} {p q : Nat} (h : unaligned (addr a0 p ||| addr a1 q) = false) : (a0 + p) % 4 = 0 ∧ (a1 + q) % 4 = 0 := by
  rw [unaligned_or, unaligned_addr, unaligned_addr, Bool.or_eq_false_iff] at h
  simp only [decide_eq_false_iff_not, ne_eq, Decidable.not_not] at h
  exact h

theorem slice_take (d : Bytes) (i n len : Nat) (h : i + n ≤ len) : Bytes.slice (d.take len) i n = Bytes.slice d i n := by
  rw [Bytes.slice, Bytes.slice, List.drop_take, List.take_take, Nat.min_eq_left (by omega)]

theorem getD_take (d : Bytes) (i len : Nat) (h : i < len) : (d.take len).getD i 0 = d.getD i 0 := by
  rw [List.getD_eq_getElem?_getD, List.getElem?_take, if_pos h, ← List.getD_eq_getElem?_getD]

theorem addWord_ok (a0 a1 : Nat) (d st : Bytes) (a j : Nat) (h0 : (a0 + a) % 4 = 0) (h1 : (a1 + j) % 4 = 0) (h : a + 4 ≤ st.length)
    (hd : j + 4 ≤ d.length) : addWord a0 a1 d ⟨st, a, j⟩ = some ⟨Bytes.xorAt st a (Bytes.slice d j 4), a + 4, j + 4⟩ := by
  unfold addWord
  dsimp only
  rw [ldw_eq h0, ldw_eq h1, ld_ok _ _ h, ld_ok _ _ hd]
  simp only [Option.bind_eq_bind, Option.bind_some]
  rw [stw_eq h0, storeWord_eq _ _ _ h, bytesOfWord_mix, setAt_mix _ _ _ _ _ hd]
  rfl

theorem addBytes_eq (a0 a1 : Nat) (s d : Bytes) (hs : s.length = 48) (o len : Nat) (h : o + len ≤ 48) (hd : len ≤ d.length) :
    addBytes a0 a1 s d o len = some (Bytes.xorAt s o (d.take len)) := by
  obtain ⟨i, e⟩ := stages_eq .xor s (d.take len) o len (by rw [List.length_take]; omega) (by omega) (fun X i => (⟨X, o + i, i⟩ : Wr))
    (unaligned (addr a0 o ||| addr a1 0)) (addWord a0 a1 d) (addOne d)
    (fun hk X i hX h4 hi => by
      obtain ⟨h1, h2⟩ := aligned_or hk
      rw [addWord_ok _ _ _ _ _ _ (by omega) (by omega) (by omega) (by omega), slice_take _ _ _ _ hi, Nat.add_assoc]
      rfl)
    (fun X i k hX hi => by
      unfold addOne
      dsimp only
      rw [ldrb_ok _ _ (by omega), ldrb_ok _ _ (by omega), getD_take _ _ _ hi]
      simp only [Option.bind_eq_bind, Option.bind_some]
      exact congrArg (·.bind fun st => some (⟨st, o + i, i⟩ : Wr)) (wr8_ok .xor X (o + i + k) (d.getD (i + k) 0) (by omega)))
  unfold addBytes
  rw [Nat.add_zero] at e
  dsimp only
  rw [e]
  rfl

theorem overwriteBytes_eq (a0 a1 : Nat) (s d : Bytes) (hs : s.length = 48) (o len : Nat) (h : o + len ≤ 48) (hd : len ≤ d.length) :
    overwriteBytes a0 a1 s d o len = some (Bytes.setAt s o (d.take len)) := by
  obtain ⟨i, e⟩ := stages_eq .mov s (d.take len) o len (by rw [List.length_take]; omega) (by omega) (fun X i => (⟨X, o + i, i⟩ : Wr))
    (unaligned (addr a0 o ||| addr a1 0)) (overwriteWord a0 a1 d) (overwriteOne d)
    (fun hk X i hX h4 hi => by
      obtain ⟨h1, h2⟩ := aligned_or hk
      unfold overwriteWord
      dsimp only
      rw [ldw_eq (by omega), ld_ok _ _ (by omega)]
      simp only [Option.bind_eq_bind, Option.bind_some]
      rw [stw_eq (by omega), storeWord_eq _ _ _ (by omega), bytesOfWord_out, outOf_eq _ _ _ (by omega), slice_take _ _ _ _ hi, Option.bind_some,
        Nat.add_assoc]
      rfl)
    (fun X i k hX hi => by
      unfold overwriteOne
      dsimp only
      rw [ldrb_ok _ _ (by omega), getD_take _ _ _ hi]
      simp only [Option.bind_eq_bind, Option.bind_some]
      exact congrArg (·.bind fun st => some (⟨st, o + i, i⟩ : Wr)) (wr8_ok .mov X (o + i + k) (d.getD (i + k) 0) (by omega)))
  unfold overwriteBytes
  rw [Nat.add_zero] at e
  dsimp only
  rw [e]
  rfl

theorem extractBytes_eq (a0 a1 : Nat) (s out : Bytes) (hs : s.length = 48) (o len : Nat) (h : o + len ≤ 48) (hd : len ≤ out.length) :
    extractBytes a0 a1 s out o len = some (Bytes.setAt out 0 (Bytes.slice s o len)) := by
  obtain ⟨i, e⟩ := stages_eq .mov out (Bytes.slice s o len) 0 len (Bytes.length_slice_of_le (by omega)) (by omega)
    (fun X i => (⟨X, o + i, i⟩ : Wr)) (unaligned (addr a0 o ||| addr a1 0)) (extractWord a0 a1 s) (extractOne s)
    (fun hk X i hX h4 hi => by
      obtain ⟨h1, h2⟩ := aligned_or hk
      unfold extractWord
      dsimp only
      rw [ldw_eq (by omega), ld_ok _ _ (by omega)]
      simp only [Option.bind_eq_bind, Option.bind_some]
      rw [stw_eq (by omega), storeWord_eq _ _ _ (by omega), bytesOfWord_out, outOf_eq _ _ _ (by omega), Option.bind_some, Nat.zero_add,
        Nat.add_assoc, show Bytes.slice (Bytes.slice s o len) i 4 = Bytes.slice s (o + i) 4 by
          rw [Bytes.slice, Bytes.slice, Bytes.slice, List.drop_take, List.take_take, List.drop_drop, Nat.min_eq_left (by omega)]]
      rfl)
    (fun X i k hX hi => by
      unfold extractOne
      dsimp only
      rw [ldrb_ok _ _ (by omega), X86.getD_slice _ _ _ _ hi, Nat.zero_add, ← Nat.add_assoc]
      simp only [Option.bind_eq_bind, Option.bind_some]
      exact congrArg (·.bind fun st => some (⟨st, o + i, i⟩ : Wr)) (wr8_ok .mov X (i + k) (s.getD (o + i + k) 0) (by omega)))
  unfold extractBytes
  rw [Nat.add_zero] at e
  dsimp only
  rw [e]
  rfl

theorem extractAndAddBytes_eq (a0 a1 a2 : Nat) (s d out : Bytes) (hs : s.length = 48) (o len : Nat) (h : o + len ≤ 48) (hd : len ≤ d.length)
    (ho : len ≤ out.length) :
    extractAndAddBytes a0 a1 a2 s d out o len = some (Bytes.setAt out 0 (Bytes.xor (d.take len) (Bytes.slice s o len))) := by
  have hsl : ∀ i n, i + n ≤ len → Bytes.slice (mixOf s d o 0 len) i n = mixOf s d (o + i) i n := by
    intro i n hi
    have e1 := X86.mixOf_add s d o 0 i (n + (len - i - n))
    have e2 := X86.mixOf_add s d (o + i) i n (len - i - n)
    rw [Nat.zero_add, show i + (n + (len - i - n)) = len by omega] at e1
    have hm : ∀ a j n, (mixOf s d a j n).length = n := fun a j n => by simp [mixOf]
    rw [← e1, ← e2, Bytes.slice, List.drop_left' (hm _ _ _), List.take_left' (hm _ _ _)]
  obtain ⟨i, e⟩ := stages_eq .mov out (mixOf s d o 0 len) 0 len (by simp [mixOf]) (by omega)
    (fun X i => (⟨X, o + i, i, i⟩ : Ea)) (unaligned (addr a0 o ||| addr a1 0 ||| addr a2 0)) (extractAddWord a0 a1 a2 s d) (extractAddOne s d)
    (fun hk X i hX h4 hi => by
      rw [unaligned_or, Bool.or_eq_false_iff, unaligned_addr] at hk
      obtain ⟨h1, h2⟩ := aligned_or hk.1
      have h3 : (a2 + 0) % 4 = 0 := by simpa using hk.2
      unfold extractAddWord
      dsimp only
      rw [ldw_eq (by omega), ldw_eq (by omega), ld_ok _ _ (by omega), ld_ok _ _ (by omega)]
      simp only [Option.bind_eq_bind, Option.bind_some]
      rw [stw_eq (by omega), storeWord_eq _ _ _ (by omega), bytesOfWord_mix, Option.bind_some, Nat.zero_add, hsl i 4 hi, Nat.add_assoc]
      rfl)
    (fun X i k hX hi => by
      unfold extractAddOne
      dsimp only
      have hg : (mixOf s d o 0 len).getD (i + k) 0 = s.getD (o + i + k) 0 ^^^ d.getD (i + k) 0 := by
        rw [mixOf, List.getD_eq_getElem?_getD, List.getElem?_map, List.getElem?_range hi, Nat.add_assoc]
        simp
      rw [ldrb_ok _ _ (by omega), ldrb_ok _ _ (by omega), hg, Nat.zero_add]
      simp only [Option.bind_eq_bind, Option.bind_some]
      exact congrArg (·.bind fun st => some (⟨st, o + i, i, i⟩ : Ea))
        (wr8_ok .mov X (i + k) (s.getD (o + i + k) 0 ^^^ d.getD (i + k) 0) (by omega)))
  unfold extractAndAddBytes
  rw [Nat.add_zero] at e
  dsimp only
  rw [e, ← mixOf_eq _ _ _ _ (by omega) hd]
  rfl

theorem zeroBytes_eq (r0 : Nat) : ∀ (fuel n : Nat) (X : Bytes), n < fuel → 0 < n → n < 2 ^ 32 → r0 + n ≤ X.length →
    zeroBytes fuel X r0 n = some (Bytes.setAt X r0 (List.replicate n 0)) := by
  intro fuel
  induction fuel with
  | zero => intro n X hf; omega
  | succ fuel ih =>
    intro n X hf h0 h32 hl
    obtain ⟨n, rfl⟩ : ∃ m, n = m + 1 := ⟨n - 1, by omega⟩
    rw [zeroBytes, sub32_eq (by omega) h32, Nat.add_sub_cancel]
    rw [strb_ok _ _ _ (by omega), Option.bind_eq_bind, Option.bind_some]
    by_cases h : n = 0
    · rw [if_neg (by omega), h]
      rfl
    · rw [if_pos h, ih n _ (by omega) (by omega) (by omega) (by rw [Bytes.length_setAt]; omega)]
      congr 1
      apply ext_getD (by simp)
      intro j hj
      simp only [Bytes.length_setAt] at hj
      refine (getD_opAt .mov (Bytes.setAt X (r0 + n) [0]) r0 (List.replicate n 0) j (by rw [Bytes.length_setAt]; exact hj)).trans ?_
      refine Eq.trans ?_ (getD_opAt .mov X r0 (List.replicate (n + 1) 0) j hj).symm
      have e := getD_opAt .mov X (r0 + n) [0] j hj
      rw [show (Bytes.setAt X (r0 + n) [0]).getD j 0 = _ from e]
      have z : ∀ k i, (List.replicate k (0 : Byte)).getD i 0 = 0 := by
        intro k i
        rw [List.getD_eq_getElem?_getD, List.getElem?_replicate]
        split <;> rfl
      simp only [List.length_replicate, List.length_cons, List.length_nil, z, Op.on]
      by_cases c1 : r0 ≤ j ∧ j < r0 + n
      · rw [if_pos c1, if_pos (by omega)]
      · rw [if_neg c1]
        by_cases c2 : j = r0 + n
        · subst c2
          rw [if_pos (by omega), if_pos (by omega), Nat.sub_self]
          rfl
        · rw [if_neg (by omega), if_neg (by omega)]

theorem overwriteWithZeroes_eq (a0 : Nat) (ha : a0 % 4 = 0) (s : Bytes) (hs : s.length = 48) (n : Nat) (h : n ≤ 48) :
    overwriteWithZeroes a0 s n = some (Bytes.setAt s 0 (List.replicate n 0)) := by
  have key : ∀ k i, Bytes.setAt (Bytes.setAt s 0 (List.replicate i 0)) i (List.replicate k 0) = Bytes.setAt s 0 (List.replicate (i + k) 0) := fun k i => by
    have e := Bytes.setAt_append s 0 (List.replicate i 0) (List.replicate k 0)
    rwa [List.length_replicate, Nat.zero_add, List.replicate_append_replicate] at e
  have hl : ∀ i, (Bytes.setAt s 0 (List.replicate i (0 : Byte))).length = 48 := fun i => by rw [Bytes.length_setAt, hs]
  have e1 : ∀ n, n ≤ 12 → unlessZero (fun st r0 => stw a0 st r0 0) 4 s 0 n = some (Bytes.setAt s 0 (List.replicate (4 * n) 0), 4 * n) := by
    have hz : ∀ (fuel n i : Nat), n < fuel → 0 < n → i % 4 = 0 → i + 4 * n ≤ 48 →
        XoodooArm.zeroLoop (fun st r0 => stw a0 st r0 0) 4 fuel (Bytes.setAt s 0 (List.replicate i 0)) i n =
          some (Bytes.setAt s 0 (List.replicate (i + 4 * n) 0), i + 4 * n) := by
      intro fuel
      induction fuel with
      | zero => intro n i hf; omega
      | succ fuel ih =>
        intro n i hf h0 h4 hi
        obtain ⟨n, rfl⟩ : ∃ m, n = m + 1 := ⟨n - 1, by omega⟩
        rw [XoodooArm.zeroLoop, stw_eq (by omega), storeWord_eq _ _ _ (by rw [hl]; omega),
          show bytesOfWord 0 = List.replicate 4 0 from by decide, key 4 i, Option.bind_eq_bind, Option.bind_some, sub32_eq (by omega) (by omega),
          Nat.add_sub_cancel]
        by_cases h : n = 0
        · rw [if_neg (by omega), h, Nat.zero_add, Nat.mul_one]
        · rw [if_pos h, ih n (i + 4) (by omega) (by omega) (by omega) (by omega), show i + 4 + 4 * n = i + 4 * (n + 1) by omega]
    intro n hn
    unfold unlessZero
    by_cases h : n = 0
    · rw [if_pos h, h, Nat.mul_zero, List.replicate_zero, Bytes.setAt_nil]
    · have := hz (2 ^ 32) n 0 (by omega) (by omega) rfl (by omega)
      rw [List.replicate_zero, Bytes.setAt_nil, Nat.zero_add] at this
      rw [if_neg h, this]
  unfold overwriteWithZeroes
  rw [e1 (n / 4) (by omega), Option.bind_eq_bind, Option.bind_some]
  by_cases hc : n % 4 = 0
  · rw [if_pos hc, show 4 * (n / 4) = n by omega]
  · rw [if_neg hc, zeroBytes_eq _ _ _ _ (by omega) (by omega) (by omega) (by rw [hl]; omega), key, show 4 * (n / 4) + n % 4 = n by omega]

/-! ### `Xoofff_AddIs` -/

theorem add2Words_ok (a0 a1 : Nat) (d st : Bytes) (a j : Nat) (h0 : (a0 + a) % 4 = 0) (h1 : (a1 + j) % 4 = 0) (h : a + 8 ≤ st.length)
    (hd : j + 8 ≤ d.length) : add2Words a0 a1 d ⟨st, a, j⟩ = some ⟨Bytes.xorAt st a (Bytes.slice d j 8), a + 8, j + 8⟩ := by
  unfold add2Words
  dsimp only
  rw [ldw_eq (p := a + 0) h0, ldw_eq (p := a + 4) (by omega), ldw_eq h1, ldw_eq (p := j + 4) (by omega), ld_ok st (a + 0) (by omega), ld_ok st (a + 4) (by omega), ld_ok d j (by omega),
    ld_ok d (j + 4) (by omega)]
  simp only [Option.bind_eq_bind, Option.bind_some, Nat.add_zero]
  rw [stw_eq h0, storeWord_eq _ _ _ (by omega)]
  simp only [Option.bind_some]
  rw [stw_eq (by omega), storeWord_eq _ _ _ (by rw [Bytes.length_setAt]; omega)]
  simp only [Option.bind_some, bytesOfWord_mix]
  have hm : (mixOf st d a j 4).length = 4 := by simp [mixOf]
  have e := Bytes.setAt_append st a (mixOf st d a j 4) (mixOf st d (a + 4) (j + 4) 4)
  rw [hm, X86.mixOf_add] at e
  rw [e, setAt_mix _ _ _ _ _ hd]

theorem add4Words_ok (a0 a1 : Nat) (d st : Bytes) (a j : Nat) (h0 : (a0 + a) % 4 = 0) (h1 : (a1 + j) % 4 = 0) (h : a + 16 ≤ st.length)
    (hd : j + 16 ≤ d.length) : add4Words a0 a1 d ⟨st, a, j⟩ = some ⟨Bytes.xorAt st a (Bytes.slice d j 16), a + 16, j + 16⟩ := by
  have e := Bytes.xorAt_append st a (Bytes.slice d j 8) (Bytes.slice d (j + 8) 8)
  rw [Bytes.length_slice_of_le (by omega), Relaned.slice_append] at e
  rw [add4Words, add2Words_ok _ _ _ _ _ _ h0 h1 (by omega) (by omega), Option.bind_eq_bind, Option.bind_some,
    add2Words_ok _ _ _ _ _ _ (by omega) (by omega) (by rw [Bytes.length_xorAt]; omega) (by omega), e]

theorem addIs_run (a0 a1 : Nat) (t s : Bytes) (n : Nat) (ht : (n + 7) / 8 ≤ t.length) (hs : (n + 7) / 8 ≤ s.length) (h32 : n < 2 ^ 32) :
    addIs a0 a1 t s n = if n % 8 = 0 then some (Bytes.xorAt t 0 (Bytes.slice s 0 (n / 8)))
      else addBits s ⟨Bytes.xorAt t 0 (Bytes.slice s 0 (n / 8)), n / 8, n / 8⟩ (n % 8) := by
  have hl : ∀ i, (Bytes.xorAt t 0 (Bytes.slice s 0 i)).length = t.length := fun i => Bytes.length_xorAt ..
  let f : Nat → Wr := fun i => ⟨Bytes.xorAt t 0 (Bytes.slice s 0 (i / 8)), i / 8, i / 8⟩
  have had : ∀ i k, i + k ≤ s.length → Bytes.xorAt (Bytes.xorAt t 0 (Bytes.slice s 0 i)) i (Bytes.slice s i k) =
      Bytes.xorAt t 0 (Bytes.slice s 0 (i + k)) := fun i k h => by
    have e := added t s 0 i k h
    rwa [Nat.zero_add] at e
  have b1 : ∀ i, i + 8 ≤ n → XoodooArm.addOne s (f i) = some (f (i + 8)) := fun i hi => by
    show XoodooArm.addOne s ⟨_, i / 8, i / 8⟩ = some ⟨Bytes.xorAt t 0 (Bytes.slice s 0 ((i + 8) / 8)), (i + 8) / 8, (i + 8) / 8⟩
    rw [XoodooArm.addOne_ok _ _ _ _ (by rw [hl]; omega) (by omega), had _ _ (by omega), show (i + 8) / 8 = i / 8 + 1 by omega]
  have f0 : f 0 = ⟨t, 0, 0⟩ := by
    show (⟨Bytes.xorAt t 0 [], _, _⟩ : Wr) = _
    rw [Bytes.xorAt_nil]
  have fd : ∀ m, n % 8 = 0 → m = 0 → (f (n - m)).st = Bytes.xorAt t 0 (Bytes.slice s 0 (n / 8)) := fun m _ h => by
    rw [h, Nat.sub_zero]
  -- the bytes that are left
  have tail : ∀ k, k ≤ n → k % 8 = n % 8 → addIsBytes s (f (n - k)) k = if n % 8 = 0 then some (Bytes.xorAt t 0 (Bytes.slice s 0 (n / 8)))
      else addBits s ⟨Bytes.xorAt t 0 (Bytes.slice s 0 (n / 8)), n / 8, n / 8⟩ (n % 8) := by
    intro k hk h8
    unfold addIsBytes
    rw [blockLoop_eq 8 (by decide) _ f n h32 b1 (2 ^ 32) k (n - k) (by omega) (by omega), Option.bind_eq_bind, Option.bind_some]
    dsimp only
    rw [add_sub32 (Nat.mod_lt _ (by decide)) (by decide), h8]
    by_cases c4 : n % 8 = 0
    · rw [if_pos c4, if_pos c4, c4, Nat.sub_zero]
    · rw [if_neg c4, if_neg c4]
      show addBits s ⟨Bytes.xorAt t 0 (Bytes.slice s 0 ((n - n % 8) / 8)), (n - n % 8) / 8, (n - n % 8) / 8⟩ _ = _
      rw [show (n - n % 8) / 8 = n / 8 by omega]
  unfold addIs
  cases hu : unaligned (addr a0 0 ||| addr a1 0) with
  | true =>
    rw [if_pos rfl, ← f0]
    have := tail n (Nat.le_refl _) rfl
    rwa [Nat.sub_self] at this
  | false =>
    obtain ⟨h0, h1⟩ := aligned_or hu
    rw [if_neg (by decide), ← f0, show 16 * 8 = 128 from rfl, show 4 * 8 = 32 from rfl]
    have b16 : ∀ (fuel m i : Nat), m < fuel → i + m = n → i % 128 = 0 →
        blockLoop 128 (add4Words a0 a1 s) fuel (f i) m = some (f (n - m % 128), sub32 (m % 128) 128) := by
      intro fuel
      induction fuel with
      | zero => intro m i hf; omega
      | succ fuel ih =>
        intro m i hf hi h4
        rw [blockLoop]
        by_cases h : m < 128
        · rw [if_pos h, Nat.mod_eq_of_lt h, show n - m = i by omega]
        · have b : add4Words a0 a1 s (f i) = some (f (i + 128)) := by
            show add4Words a0 a1 s ⟨_, i / 8, i / 8⟩ = some ⟨Bytes.xorAt t 0 (Bytes.slice s 0 ((i + 128) / 8)), (i + 128) / 8, (i + 128) / 8⟩
            rw [add4Words_ok _ _ _ _ _ _ (by omega) (by omega) (by rw [hl]; omega) (by omega), had _ _ (by omega),
              show (i + 128) / 8 = i / 8 + 16 by omega]
          rw [if_neg h, b, Option.bind_eq_bind, Option.bind_some, sub32_eq (by omega) (by omega), ih (m - 128) (i + 128) (by omega) (by omega) (by omega),
            ← Nat.mod_eq_sub_mod (by omega)]
    have b4 : ∀ (fuel m i : Nat), m < fuel → i + m = n → i % 32 = 0 →
        blockLoop 32 (addWord a0 a1 s) fuel (f i) m = some (f (n - m % 32), sub32 (m % 32) 32) := by
      intro fuel
      induction fuel with
      | zero => intro m i hf; omega
      | succ fuel ih =>
        intro m i hf hi h4
        rw [blockLoop]
        by_cases h : m < 32
        · rw [if_pos h, Nat.mod_eq_of_lt h, show n - m = i by omega]
        · have b : addWord a0 a1 s (f i) = some (f (i + 32)) := by
            show addWord a0 a1 s ⟨_, i / 8, i / 8⟩ = some ⟨Bytes.xorAt t 0 (Bytes.slice s 0 ((i + 32) / 8)), (i + 32) / 8, (i + 32) / 8⟩
            rw [addWord_ok _ _ _ _ _ _ (by omega) (by omega) (by rw [hl]; omega) (by omega), had _ _ (by omega),
              show (i + 32) / 8 = i / 8 + 4 by omega]
          rw [if_neg h, b, Option.bind_eq_bind, Option.bind_some, sub32_eq (by omega) (by omega), ih (m - 32) (i + 32) (by omega) (by omega) (by omega),
            ← Nat.mod_eq_sub_mod (by omega)]
    rw [b16 (2 ^ 32) n 0 h32 (by omega) rfl, Option.bind_eq_bind, Option.bind_some]
    dsimp only
    rw [add_sub32 (Nat.mod_lt _ (by decide)) (by decide)]
    by_cases c2 : n % 128 = 0
    · rw [if_pos c2, if_pos (by omega), fd _ (by omega) c2]
    rw [if_neg c2, b4 (2 ^ 32) (n % 128) (n - n % 128) (by omega) (by omega) (by omega), Option.bind_some]
    dsimp only
    rw [add_sub32 (Nat.mod_lt _ (by decide)) (by decide)]
    by_cases c3 : n % 128 % 32 = 0
    · rw [if_pos c3, if_pos (by omega), fd _ (by omega) c3]
    rw [if_neg c3]
    exact tail (n % 128 % 32) (by omega) (by omega)

theorem addIs_eq (a0 a1 : Nat) (t s : Bytes) (n : Nat) (ht : (n + 7) / 8 ≤ t.length) (hs : (n + 7) / 8 ≤ s.length) (h32 : n < 2 ^ 32) :
    addIs a0 a1 t s n = Farfalle.addIs t s n := by
  rw [addIs_run a0 a1 t s n ht hs h32, ← XoodooArm.addIs_run t s n ht hs h32, XoodooArm.addIs_eq t s n ht hs h32]

end XoodooArm6
