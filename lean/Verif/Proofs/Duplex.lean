import Verif.Model.Duplex
import Verif.Spec.Duplex
import Verif.Proofs.BitsLemmas
import Verif.Proofs.SpongeSpec
import Verif.Base.Tactics

/-!
Helper lemmas for the duplex construction.
-/

namespace Spec.Duplex

theorem length_xorBits (a b : Bits) : (xorBits a b).length = min a.length b.length := by simp [xorBits]

theorem getD_xorBits {a b : Bits} (h : a.length = b.length) (j : Nat) :
    (xorBits a b).getD j false = Bool.xor (a.getD j false) (b.getD j false) := by
  unfold xorBits
  simp only [List.getD_eq_getElem?_getD, List.getElem?_zipWith]
  by_cases hj : j < a.length
  · have hj' : j < b.length := by omega
    simp [hj, hj']
  · have hj' : ¬ j < b.length := by omega
    simp [List.getElem?_eq_none (Nat.le_of_not_lt hj), List.getElem?_eq_none (Nat.le_of_not_lt hj')]

theorem ext_getD {a b : Bits} (h : a.length = b.length) (h' : ∀ j, j < a.length → a.getD j false = b.getD j false) :
    a = b := by
  apply List.ext_getElem h
  intro j h1 h2
  have := h' j h1
  simpa [List.getD_eq_getElem?_getD, h1, h2] using this

theorem getD_append (a b : Bits) (j : Nat) :
    (a ++ b).getD j false = if j < a.length then a.getD j false else b.getD (j - a.length) false := by
  simp only [List.getD_eq_getElem?_getD, List.getElem?_append]
  split <;> rfl

theorem getD_replicate (n j : Nat) : (List.replicate n false).getD j false = false := by
  simp only [List.getD_eq_getElem?_getD, List.getElem?_replicate]
  split <;> rfl

theorem getD_singleton (x : Bool) (j : Nat) : [x].getD j false = (if j = 0 then x else false) := by
  cases j <;> simp

theorem getD_ge {a : Bits} {j : Nat} (h : a.length ≤ j) : a.getD j false = false := by
  simp [List.getD_eq_getElem?_getD, List.getElem?_eq_none h]

theorem getD_take (a : Bits) (n j : Nat) : (a.take n).getD j false = if j < n then a.getD j false else false := by
  simp only [List.getD_eq_getElem?_getD, List.getElem?_take]
  split <;> rfl

theorem getD_drop (a : Bits) (n j : Nat) : (a.drop n).getD j false = a.getD (n + j) false := by
  simp only [List.getD_eq_getElem?_getD, List.getElem?_drop]

theorem getD_ofBytes (s : Bytes) (j : Nat) :
    (Bits.ofBytes s).getD j false = (s.getD (j / 8) 0).getLsbD (j % 8) := by
  induction s generalizing j with
  | nil => simp
  | cons x s ih =>
    rw [Bits.ofBytes_cons, getD_append, Bits.length_ofByte]
    by_cases h : j < 8
    · have h0 : j / 8 = 0 := by omega
      have h1 : j % 8 = j := by omega
      rw [if_pos h, h0, h1]
      simp [Bits.ofByte, List.getD_eq_getElem?_getD, h]
    · rw [if_neg h, ih]
      have h0 : j / 8 = (j - 8) / 8 + 1 := by omega
      have h1 : j % 8 = (j - 8) % 8 := by omega
      rw [h0, h1]
      simp

/-- Bits of a byte string after adding bytes at an offset. -/
theorem getD_xorAt (s : Bytes) (off : Nat) (d : Bytes) (h : off + d.length ≤ s.length) (j : Nat) :
    (Bits.ofBytes (Bytes.xorAt s off d)).getD j false =
      Bool.xor ((Bits.ofBytes s).getD j false)
        (if 8 * off ≤ j then (Bits.ofBytes d).getD (j - 8 * off) false else false) := by
  have e1 : ∀ t : Bytes, t.getD (j / 8) 0 = t[j / 8]?.getD 0 := fun t => List.getD_eq_getElem?_getD ..
  rw [getD_ofBytes, getD_ofBytes, e1, e1, Bytes.getElem?_xorAt]
  by_cases hj : j / 8 < s.length
  · rw [List.getElem?_eq_getElem hj]
    simp only [Option.map_some, Option.getD_some, BitVec.getLsbD_xor]
    congr 1
    by_cases ho : off ≤ j / 8
    · rw [if_pos ho, if_pos (by omega), getD_ofBytes]
      have a1 : (j - 8 * off) / 8 = j / 8 - off := by omega
      have a2 : (j - 8 * off) % 8 = j % 8 := by omega
      rw [a1, a2]
    · rw [if_neg ho, if_neg (by omega)]
      simp
  · rw [List.getElem?_eq_none (by omega)]
    simp only [Option.map_none, Option.getD_none]
    split
    · rw [getD_ge (a := Bits.ofBytes d) (by rw [Bits.length_ofBytes]; omega)]; simp
    · simp

theorem getD_setAt (s : Bytes) (off : Nat) (d : Bytes) (h : off + d.length ≤ s.length) (j : Nat) :
    (Bits.ofBytes (Bytes.setAt s off d)).getD j false =
      if 8 * off ≤ j ∧ j < 8 * (off + d.length) then (Bits.ofBytes d).getD (j - 8 * off) false
      else (Bits.ofBytes s).getD j false := by
  have e1 : ∀ t : Bytes, t.getD (j / 8) 0 = t[j / 8]?.getD 0 := fun t => List.getD_eq_getElem?_getD ..
  rw [getD_ofBytes, getD_ofBytes s, e1, e1, Bytes.getElem?_setAt]
  by_cases hj : j / 8 < s.length
  · rw [List.getElem?_eq_getElem hj]
    simp only [Option.map_some, Option.getD_some]
    by_cases ho : off ≤ j / 8 ∧ j / 8 < off + d.length
    · rw [if_pos ho, if_pos (by omega), getD_ofBytes]
      have a1 : (j - 8 * off) / 8 = j / 8 - off := by omega
      have a2 : (j - 8 * off) % 8 = j % 8 := by omega
      rw [a1, a2]
    · rw [if_neg ho, if_neg (by omega)]
  · rw [List.getElem?_eq_none (by omega), if_neg (by omega)]
    rfl

/-! ### The duplexing-sponge lemma -/

/-- The state of the duplex object. -/
def st (b : Nat) (f : Bits → Bits) (r : Nat) : List Bits → Bits
  | [] => List.replicate b false
  | σ :: older => f (xorBits (st b f r older) ((σ ++ pad101 r σ.length) ++ List.replicate (b - r) false))

theorem pad101_short {r n : Nat} (h : n + 2 ≤ r) :
    pad101 r n = [true] ++ List.replicate (r - 2 - n) false ++ [true] := by
  unfold pad101
  have : ((-(n : Int) - 2) % (r : Int)).toNat = r - 2 - n := by
    have h1 : (-(n : Int) - 2) % (r : Int) = (r : Int) - 2 - n := by
      have h2 : (-(n : Int) - 2) = ((r : Int) - 2 - n) + r * (-1) := by ring
      rw [h2, Int.add_mul_emod_self_left, Int.emod_eq_of_lt (by omega) (by omega)]
    rw [h1]; omega
  rw [this]

theorem pad101_mod {r n m : Nat} (h : n % r = m % r) : pad101 r n = pad101 r m := by
  unfold pad101
  have : (-(n : Int) - 2) % (r : Int) = (-(m : Int) - 2) % (r : Int) := by
    have h1 : (n : Int) = r * ((n / r : Nat) : Int) + ((n % r : Nat) : Int) := by
      exact_mod_cast (Nat.div_add_mod n r).symm
    have h2 : (m : Int) = r * ((m / r : Nat) : Int) + ((m % r : Nat) : Int) := by
      exact_mod_cast (Nat.div_add_mod m r).symm
    have h3 : (-(n : Int) - 2) = (-(m : Int) - 2) + r * (((m / r : Nat) : Int) - ((n / r : Nat) : Int)) := by
      rw [h] at h1
      rw [Int.mul_sub]
      generalize (r : Int) * ((n / r : Nat) : Int) = x at *
      generalize (r : Int) * ((m / r : Nat) : Int) = y at *
      omega
    rw [h3, Int.add_mul_emod_self_left]
  rw [this]

/-- All inputs of the history are short enough. -/
def Short (r : Nat) (hist : List Bits) : Prop := ∀ σ ∈ hist, σ.length + 2 ≤ r

theorem length_block {r : Nat} {σ : Bits} (h : σ.length + 2 ≤ r) : (σ ++ pad101 r σ.length).length = r := by
  rw [pad101_short h]; simp; omega

theorem length_padded {r : Nat} : ∀ {hist : List Bits}, Short r hist → (padded r hist).length = hist.length * r
  | [], _ => by simp [padded]
  | σ :: older, h => by
    have h1 : Short r older := fun x hx => h x (List.mem_cons_of_mem _ hx)
    rw [padded, List.length_append, length_padded h1, length_block (h σ (List.mem_cons_self ..)), List.length_cons,
      Nat.succ_mul]

theorem blocks_append {r : Nat} (hr : 0 < r) (x : Bits) : ∀ (k : Nat) (a : Bits), a.length = k * r →
    blocks r (a ++ x) = blocks r a ++ blocks r x := by
  intro k
  induction k with
  | zero =>
    intro a h
    have : a = [] := List.eq_nil_of_length_eq_zero (by omega)
    subst this
    rw [List.nil_append, Sponge.blocks_nil r [] hr, List.nil_append]
  | succ k ih =>
    intro a h
    rw [Nat.succ_mul] at h
    rw [Sponge.blocks_cons r hr (a ++ x) (by simp; omega), Sponge.blocks_cons r hr a (by omega),
      List.take_append_of_le_length (by omega), List.drop_append_of_le_length (by omega),
      ih _ (by rw [List.length_drop]; omega), List.cons_append]

theorem blocks_one {r : Nat} (hr : 0 < r) {x : Bits} (h : x.length = r) : blocks r x = [x] := by
  rw [Sponge.blocks_cons r hr x (by omega), ← h, List.take_length, List.drop_length,
    Sponge.blocks_nil _ [] (by simp; omega)]

theorem st_eq {b : Nat} {f : Bits → Bits} {r : Nat} (hr : 0 < r) : ∀ {hist : List Bits}, Short r hist →
    absorb f (b - r) (List.replicate b false) (blocks r (padded r hist)) = st b f r hist
  | [], _ => by
    rw [padded, Sponge.blocks_nil _ [] (by simpa using hr)]; rfl
  | σ :: older, h => by
    have h1 : Short r older := fun x hx => h x (List.mem_cons_of_mem _ hx)
    have h2 := length_block (h σ (List.mem_cons_self ..))
    rw [padded, blocks_append hr _ _ _ (length_padded h1), blocks_one hr h2, st, ← st_eq hr h1]
    unfold absorb
    rw [List.foldl_append]
    rfl

theorem length_st {b : Nat} {f : Bits → Bits} {r : Nat} (hrb : r ≤ b)
    (hf : ∀ x : Bits, x.length = b → (f x).length = b) : ∀ {hist : List Bits}, Short r hist →
    (st b f r hist).length = b
  | [], _ => by simp [st]
  | σ :: older, h => by
    have h1 : Short r older := fun x hx => h x (List.mem_cons_of_mem _ hx)
    have h2 := length_block (h σ (List.mem_cons_self ..))
    rw [st]
    apply hf
    rw [length_xorBits, length_st hrb hf h1, List.length_append, h2, List.length_replicate]
    omega

/-- The duplexing-sponge lemma. -/
theorem block_eq {b : Nat} {f : Bits → Bits} {r : Nat} (hr : 0 < r) (hrb : r ≤ b)
    (hf : ∀ x : Bits, x.length = b → (f x).length = b) : ∀ {hist : List Bits}, Short r hist →
    block b f r hist = (st b f r hist).take r
  | [], _ => by simp [block, st, hrb]
  | σ :: older, h => by
    have h1 : Short r older := fun x hx => h x (List.mem_cons_of_mem _ hx)
    have hl := length_st hrb hf h
    rw [block, sponge]
    have e : padded r older ++ σ ++ pad101 r (padded r older ++ σ).length = padded r (σ :: older) := by
      rw [padded, List.append_assoc]
      congr 2
      apply pad101_mod
      rw [List.length_append, length_padded h1, Nat.mul_comm, Nat.mul_add_mod]
    rw [e, st_eq hr h, squeeze, Nat.div_self hr]
    show (List.flatMap _ [0, 1]).take r = _
    rw [List.flatMap_cons, List.take_append_of_le_length]
    · show List.take r (List.take r (st b f r (σ :: older))) = _
      rw [List.take_take, Nat.min_self]
    · show r ≤ (List.take r (st b f r (σ :: older))).length
      rw [List.length_take, hl]; omega

theorem exists_bytes : ∀ (n : Nat) (x : Bits), x.length = 8 * n → ∃ s : Bytes, s.length = n ∧ Bits.ofBytes s = x
  | 0, x, h => ⟨[], rfl, by
      have : x = [] := List.eq_nil_of_length_eq_zero (by omega)
      rw [this]; rfl⟩
  | n + 1, x, h => by
    obtain ⟨s, h1, h2⟩ := exists_bytes n (x.drop 8) (by rw [List.length_drop]; omega)
    refine ⟨BitVec.ofNat 8 (Bits.toNat (x.take 8)) :: s, by simp [h1], ?_⟩
    rw [Bits.ofBytes_cons, h2, Bits.ofByte_ofNat _ (by rw [List.length_take]; omega), List.take_append_drop]

theorem length_f {P : SnP} (hP : P.Valid) {f : Bits → Bits}
    (hf : ∀ s : Bytes, s.length = P.width → f (Bits.ofBytes s) = Bits.ofBytes (P.permute s)) (x : Bits)
    (h : x.length = 8 * P.width) : (f x).length = 8 * P.width := by
  obtain ⟨s, h1, rfl⟩ := exists_bytes _ x h
  rw [hf s h1, Bits.length_ofBytes, hP.permute_len s h1]

end Spec.Duplex
