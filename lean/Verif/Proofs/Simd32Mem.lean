import Verif.Model.Interleaved32
import Verif.Proofs.XoodooBytes

/-!
Loads and stores of words and registers, as changes of the words of a buffer.
-/

namespace Simd32

open Xoodoo (Lane Lanes wordOfBytes bytesOfWord byteOf)

/-- The 32-bit word `i` of a buffer. -/
def wd (buf : Bytes) (i : Nat) : Lane := wordOfBytes (buf.drop (4 * i))

theorem byteOf_wd (buf : Bytes) (i k : Nat) (hk : k < 4) : byteOf (wd buf i) k = buf.getD (4 * i + k) 0 := by
  rw [wd, Xoodoo.byteOf_wordOfBytes _ _ hk]
  simp [List.getD_eq_getElem?_getD, List.getElem?_drop]

theorem wd_drop (buf : Bytes) (a i : Nat) : wd (buf.drop (4 * a)) i = wd buf (a + i) := by
  unfold wd; rw [List.drop_drop, ← Nat.mul_add]

theorem loadWord_ok (buf : Bytes) (i : Nat) (h : 4 * i + 4 ≤ buf.length) : loadWord buf (4 * i) = some (wd buf i) := by
  unfold loadWord SnP.readBuf wd
  rw [if_pos (by rw [List.length_drop]; omega), Option.map_some, Xoodoo.wordOfBytes_take]

theorem wordOfBytes_drop_take (b : Bytes) (n i : Nat) (h : 4 * i + 4 ≤ n) :
    wordOfBytes ((b.take n).drop (4 * i)) = wordOfBytes (b.drop (4 * i)) := by
  apply Xoodoo.lane_ext
  intro k hk
  rw [Xoodoo.byteOf_wordOfBytes _ _ hk, Xoodoo.byteOf_wordOfBytes _ _ hk]
  simp only [List.getD_eq_getElem?_getD, List.getElem?_drop, List.getElem?_take]
  rw [if_pos (by omega)]

theorem loadVec_ok (n : Nat) (buf : Bytes) (i : Nat) (h : 4 * i + 4 * n ≤ buf.length) :
    loadVec n buf (4 * i) = some fun l => wd buf (i + l.val) := by
  unfold loadVec SnP.readBuf
  rw [if_pos (by rw [List.length_drop]; omega), Option.map_some]
  congr 1
  funext l
  rw [wordOfBytes_drop_take _ _ _ (by omega), List.drop_drop, ← Nat.mul_add]; rfl

/-- `buf'` is `buf` with the `n` words from word `i` on replaced by `v`. -/
structure Stored (buf buf' : Bytes) (i n : Nat) (v : Nat → Lane) : Prop where
  len : buf'.length = buf.length
  byte : ∀ q, buf'.getD q 0 = if 4 * i ≤ q ∧ q < 4 * (i + n) then byteOf (v (q / 4 - i)) (q % 4) else buf.getD q 0

theorem Stored.wd {buf buf' : Bytes} {i n : Nat} {v : Nat → Lane} (h : Stored buf buf' i n v) (j : Nat) :
    wd buf' j = if i ≤ j ∧ j < i + n then v (j - i) else wd buf j := by
  apply Xoodoo.lane_ext
  intro k hk
  rw [byteOf_wd _ _ _ hk, h.byte]
  by_cases hj : i ≤ j ∧ j < i + n
  · rw [if_pos (by omega), if_pos hj, show (4 * j + k) / 4 = j by omega, show (4 * j + k) % 4 = k by omega]
  · rw [if_neg (by omega), if_neg hj, byteOf_wd _ _ _ hk]

theorem getD_setAt (s : Bytes) (off : Nat) (d : Bytes) (q : Nat) (h : off + d.length ≤ s.length) :
    (Bytes.setAt s off d).getD q 0 = if off ≤ q ∧ q < off + d.length then d.getD (q - off) 0 else s.getD q 0 := by
  rw [List.getD_eq_getElem?_getD, Bytes.getElem?_setAt]
  split
  · rename_i hq
    rw [List.getElem?_eq_getElem (by omega)]
    rfl
  · simp [List.getD_eq_getElem?_getD]

theorem getD_bytesOfWord (w : Lane) (k : Nat) (hk : k < 4) : (bytesOfWord w).getD k 0 = byteOf w k := by
  rw [List.getD_eq_getElem?_getD, Xoodoo.getElem?_bytesOfWord, if_pos hk]; rfl

theorem length_bytesOfVec {n : Nat} (v : Vec n) : (bytesOfVec v).length = 4 * n := by
  unfold bytesOfVec
  rw [List.length_flatMap]
  simp [Xoodoo.length_bytesOfWord, Nat.mul_comm]

theorem getD_bytesOfVec {n : Nat} (v : Vec n) (q : Nat) (hq : q < 4 * n) :
    (bytesOfVec v).getD q 0 = byteOf (v.at (q / 4)) (q % 4) := by
  have e : q = q / 4 * 4 + q % 4 := by omega
  rw [List.getD_eq_getElem?_getD]
  conv => lhs; rw [e]
  rw [bytesOfVec, KeccakP1600.getElem?_flatMap_const _ _ 4 (fun i => Xoodoo.length_bytesOfWord _) _ _ (by omega)]
  have hl : q / 4 < n := by omega
  rw [List.getElem?_eq_getElem (show q / 4 < (List.finRange n).length by simpa using hl)]
  simp only [List.getElem_finRange, Option.bind_some, Xoodoo.getElem?_bytesOfWord]
  rw [if_pos (by omega), Vec.at, dif_pos hl]
  rfl

theorem storeWord_ok (buf : Bytes) (i : Nat) (w : Lane) (h : 4 * i + 4 ≤ buf.length) :
    ∃ buf', storeWord buf (4 * i) w = some buf' ∧ Stored buf buf' i 1 (fun _ => w) := by
  have hl : 4 * i + (bytesOfWord w).length ≤ buf.length := by rw [Xoodoo.length_bytesOfWord]; omega
  refine ⟨_, by unfold storeWord SnP.overwriteBytes; rw [if_pos hl], by simp, fun q => ?_⟩
  rw [getD_setAt _ _ _ _ hl, Xoodoo.length_bytesOfWord]
  by_cases hq : 4 * i ≤ q ∧ q < 4 * i + 4
  · rw [if_pos hq, if_pos (by omega), getD_bytesOfWord _ _ (by omega), show q - 4 * i = q % 4 by omega]
  · rw [if_neg hq, if_neg (by omega)]

theorem storeVec_ok {n : Nat} (buf : Bytes) (i : Nat) (v : Vec n) (h : 4 * i + 4 * n ≤ buf.length) :
    ∃ buf', storeVec buf (4 * i) v = some buf' ∧ Stored buf buf' i n v.at := by
  have hl : 4 * i + (bytesOfVec v).length ≤ buf.length := by rw [length_bytesOfVec]; omega
  refine ⟨_, by unfold storeVec SnP.overwriteBytes; rw [if_pos hl], by simp, fun q => ?_⟩
  rw [getD_setAt _ _ _ _ hl, length_bytesOfVec]
  by_cases hq : 4 * i ≤ q ∧ q < 4 * i + 4 * n
  · rw [if_pos hq, if_pos (by omega), getD_bytesOfVec _ _ (by omega), show (q - 4 * i) / 4 = q / 4 - i by omega,
      show (q - 4 * i) % 4 = q % 4 by omega]
  · rw [if_neg hq, if_neg (by omega)]

/-- A loop, with an invariant. -/
theorem foldlM_inv {σ : Type} (f : Nat → σ → Option σ) (I : Nat → σ → Prop) (step b : Nat)
    (hf : ∀ p s, p + step ≤ b → I p s → ∃ s', f p s = some s' ∧ I (p + step) s') :
    ∀ (n a : Nat) (s : σ), a + step * n ≤ b → I a s →
      ∃ s', (List.range' a n step).foldlM (fun s i => f i s) s = some s' ∧ I (a + step * n) s' := by
  intro n
  induction n with
  | zero => intro a s _ h; exact ⟨s, rfl, h⟩
  | succ n ih =>
    intro a s hb h
    rw [Nat.mul_succ] at hb
    obtain ⟨s1, h1, h2⟩ := hf a s (by omega) h
    obtain ⟨s2, h3, h4⟩ := ih (a + step) s1 (by omega) h2
    refine ⟨s2, ?_, ?_⟩
    · rw [List.range'_succ, List.foldlM_cons, h1]
      exact h3
    · rw [Nat.mul_succ, Nat.add_comm (step * n), ← Nat.add_assoc]; exact h4

theorem forTo_inv {σ : Type} (f : Nat → σ → Option σ) (I : Nat → σ → Prop) (b : Nat)
    (hf : ∀ p s, p < b → I p s → ∃ s', f p s = some s' ∧ I (p + 1) s') (a : Nat) (s : σ) (hab : a ≤ b) (h : I a s) :
    ∃ s', forTo f a b s = some s' ∧ I b s' := by
  obtain ⟨s', h1, h2⟩ := foldlM_inv f I 1 b (fun p s hp => hf p s (by omega)) (b - a) a s (by omega) h
  refine ⟨s', h1, ?_⟩
  rwa [show a + 1 * (b - a) = b by omega] at h2

theorem seq_inv {σ : Type} (f : Nat → σ → Option σ) (I : Nat → σ → Prop) (step b a n : Nat) (l : List Nat)
    (hl : l = List.range' a n step) (hb : a + step * n ≤ b)
    (hf : ∀ p s, p + step ≤ b → I p s → ∃ s', f p s = some s' ∧ I (p + step) s') (s : σ) (h : I a s) :
    ∃ s', seq f l s = some s' ∧ I (a + step * n) s' := by
  subst hl
  exact foldlM_inv f I step b hf n a s hb h

/-- Byte `j` of state `k` of `N` interleaved ones, as an index in the memory. -/
def pos (N k j : Nat) : Nat := 4 * (j / 4 * N + k) + j % 4

/-- State `k` of `N` interleaved ones. -/
def view (N : Nat) (mem : Bytes) (k : Nat) : Bytes := (List.range 48).map fun j => mem.getD (pos N k j) 0

@[simp] theorem length_view (N : Nat) (mem : Bytes) (k : Nat) : (view N mem k).length = 48 := by simp [view]

theorem getD_view (N : Nat) (mem : Bytes) (k j : Nat) (hj : j < 48) : (view N mem k).getD j 0 = mem.getD (pos N k j) 0 := by
  unfold view
  rw [List.getD_eq_getElem?_getD, List.getElem?_map, List.getElem?_range hj]; rfl

theorem bytes_ext {a b : Bytes} (hl : a.length = b.length) (h : ∀ j < a.length, a.getD j 0 = b.getD j 0) : a = b := by
  apply List.ext_getElem hl
  intro j h1 h2
  have := h j h1
  rwa [List.getD_eq_getElem?_getD, List.getD_eq_getElem?_getD, List.getElem?_eq_getElem h1, List.getElem?_eq_getElem h2] at this

theorem getD_bytesOfLanes (A : Lanes) (j : Nat) (hj : j < 48) :
    (Xoodoo.bytesOfLanes A).getD j 0 = byteOf (A ⟨j / 4, by omega⟩) (j % 4) := by
  rw [List.getD_eq_getElem?_getD, Xoodoo.getElem?_bytesOfLanes, dif_pos hj]; rfl

theorem view_eq (N : Nat) (mem : Bytes) (k : Nat) :
    view N mem k = Xoodoo.bytesOfLanes fun p => wd mem (p.val * N + k) := by
  apply bytes_ext (by rw [length_view, Xoodoo.length_bytesOfLanes])
  intro j hj
  rw [length_view] at hj
  rw [getD_view _ _ _ _ hj, getD_bytesOfLanes _ _ hj, byteOf_wd _ _ _ (by omega)]
  rfl

/-- `pos` is injective. -/
theorem pos_inj {N k k' j j' : Nat} (hk : k < N) (hk' : k' < N) (h : pos N k j = pos N k' j') : k = k' ∧ j = j' := by
  unfold pos at h
  have h1 : j / 4 * N + k = j' / 4 * N + k' := by omega
  have h2 : j % 4 = j' % 4 := by omega
  have h3 : (j / 4 * N + k) % N = (j' / 4 * N + k') % N := by rw [h1]
  rw [Nat.mul_comm, Nat.mul_add_mod, Nat.mul_comm, Nat.mul_add_mod, Nat.mod_eq_of_lt hk, Nat.mod_eq_of_lt hk'] at h3
  subst h3
  have h4 : j / 4 * N = j' / 4 * N := by omega
  have h5 := Nat.eq_of_mul_eq_mul_right (by omega) h4
  omega

end Simd32
