import Verif.Proofs.SimdState
import Verif.Proofs.Avx512Rounds

/-!
The lane functions and the permutations of the AVX-512 implementations.
-/

namespace Avx512

open KeccakP1600 (Lane byteOf bytesOfLanes lanesOfBytes)
open Simd
open PlSnPFallback (Perm)

variable {N lo lc m w : Nat}

/-- The indices with which `m = N * w` words are accessed: `w` consecutive lanes of the `N` states. -/
def IdxOk (N m lo : Nat) (idx : Nat → BitVec 32) : Prop := ∀ i < m, idx i = BitVec.ofNat 32 (i % N * lo + i / N)

theorem toNat_idx {x : Nat} (h : x < 2 ^ 31) : (BitVec.ofNat 32 x).toNat = x ∧ (BitVec.ofNat 32 x).msb = false := by
  have e : (BitVec.ofNat 32 x).toNat = x := by rw [BitVec.toNat_ofNat, Nat.mod_eq_of_lt (by omega)]
  exact ⟨e, by rw [BitVec.msb_eq_decide, e]; simp; omega⟩

section

variable {idx : Nat → BitVec 32} (hidx : IdxOk N m lo idx) (hN : 0 < N) (hm : m = N * w) (hw : w ≤ 4)

include hidx hN hm hw

theorem idx_ok {buf : Bytes} (ha : Acc N lo lc buf) (p : Nat) (hp : p + w ≤ lc) (i : Nat) (hi : i < m) :
    i % N < N ∧ i / N < w ∧ (idx i).toNat = i % N * lo + i / N ∧ (idx i).msb = false ∧ 8 * (p + (i % N * lo + i / N)) + 8 ≤ buf.length := by
  have h1 : i % N < N := Nat.mod_lt _ hN
  have h2 : i / N < w := by rw [Nat.div_lt_iff_lt_mul hN, Nat.mul_comm]; omega
  have h3 := ha.small _ h1
  have h4 := inBuf_word ha.inBuf _ h1
  rw [Nat.mul_comm lo] at h3
  obtain ⟨h5, h6⟩ := toNat_idx (x := i % N * lo + i / N) (by omega)
  rw [hidx i hi]
  exact ⟨h1, h2, h5, h6, by omega⟩

theorem gather_eq {data : Bytes} (ha : Acc N lo lc data) (p : Nat) (hp : p + w ≤ lc) :
    gather m idx data (8 * p) = some fun i => wd data (i.val % N * lo + (p + i.val / N)) := by
  have h := idx_ok hidx hN hm hw ha p hp
  unfold gather
  rw [if_pos fun i => by
    obtain ⟨h1, h2, h3, h4, h5⟩ := h i.val i.isLt
    rw [h3]; exact ⟨h4, by omega⟩]
  congr 1
  funext i
  rw [(h i.val i.isLt).2.2.1, ← Nat.mul_add]
  unfold wd
  congr 3; omega

theorem scatter_upd {out : Bytes} (ha : Acc N lo lc out) (hlo : lc ≤ lo) (p : Nat) (hp : p + w ≤ lc) (v : Vec m) {g : Nat → Nat → Lane}
    (hv : ∀ i : Fin m, v i = g (i.val % N) (p + i.val / N)) :
    ∃ out', scatter out (8 * p) idx v = some out' ∧ OUpd lo out out' 0 N p (p + w) g := by
  have h := idx_ok hidx hN hm hw ha p hp
  have key : ∃ out', scatter out (8 * p) idx v = some out' ∧ (out'.length = out.length ∧ ∀ q, out'.getD q 0 =
      if (q / 8 / lo < N ∧ p ≤ q / 8 % lo) ∧ (q / 8 % lo - p) * N + q / 8 / lo < m then byteOf (g (q / 8 / lo) (q / 8 % lo)) (q % 8) else out.getD q 0) := by
    unfold scatter
    refine seq_inv (fun i buf => if (idx i).msb = true then none else storeWord buf (8 * p + 8 * (idx i).toNat) (v.at i))
      (fun i o => o.length = out.length ∧ ∀ q, o.getD q 0 =
        if (q / 8 / lo < N ∧ p ≤ q / 8 % lo) ∧ (q / 8 % lo - p) * N + q / 8 / lo < i then byteOf (g (q / 8 / lo) (q / 8 % lo)) (q % 8) else out.getD q 0)
      1 m 0 m (List.range m) (List.range_eq_range' ..) (by omega) ?_ out ⟨rfl, fun q => by rw [if_neg fun h => Nat.not_lt_zero _ h.2]⟩ |>.imp ?_
    · rintro i o hi ⟨ol, ob⟩
      obtain ⟨h1, h2, h3, h4, h5⟩ := h i (by omega)
      simp only [h4, Bool.false_eq_true, if_false, h3]
      rw [← Nat.mul_add]
      obtain ⟨o', e, st⟩ := storeWord_ok o (p + (i % N * lo + i / N)) (v.at i) (by rw [ol]; exact h5)
      refine ⟨o', e, st.len.trans ol, fun q => ?_⟩
      rw [st.byte, ob]
      have hdm := Nat.div_add_mod i N
      have hi2 := cell_iff (lo := lo) (k := i % N) (p := p + i / N) (n := 1) (x := q / 8) (by omega)
      have hr1 : ∀ r c, r < N → p ≤ c → (c - p) * N + r = i → r = i % N ∧ c = p + i / N := by
        intro r c hr hc he
        have e1 : i % N = r := by rw [← he, Nat.mul_comm, Nat.mul_add_mod, Nat.mod_eq_of_lt hr]
        have e2 : i / N = c - p := by rw [← he, Nat.mul_comm, Nat.mul_add_div hN, Nat.div_eq_of_lt hr, Nat.add_zero]
        exact ⟨e1.symm, by omega⟩
      generalize q / 8 / lo = r at hi2 ⊢
      generalize q / 8 % lo = c at hi2 ⊢
      by_cases hc : r = i % N ∧ c = p + i / N
      · have h6 := hi2.mpr (by omega)
        rw [if_pos (by omega), if_pos]
        · rw [Vec.at, dif_pos (show i < m by omega), hv]
          obtain ⟨rfl, rfl⟩ := hc
          rfl
        · rw [hc.1, hc.2]
          refine ⟨⟨h1, Nat.le_add_right _ _⟩, ?_⟩
          rw [Nat.add_sub_cancel_left, Nat.mul_comm, hdm]; exact Nat.lt_succ_self i
      · rw [if_neg (by intro h6; have := hi2.mp (by omega); omega)]
        congr 1
        refine propext (and_congr_right fun hr => ?_)
        have : (c - p) * N + r ≠ i := fun he => hc (hr1 r c hr.1 hr.2 he)
        omega
    · intro o ho
      rw [Nat.one_mul, Nat.zero_add] at ho
      exact ho
  obtain ⟨out', e, hl, hb⟩ := key
  refine ⟨out', e, hl, fun q => ?_⟩
  rw [hb]
  congr 1
  apply propext
  generalize q / 8 / lo = r
  generalize q / 8 % lo = c
  constructor
  · rintro ⟨⟨h1, h2⟩, h3⟩
    refine ⟨⟨Nat.zero_le _, h1⟩, h2, ?_⟩
    by_contra hc
    have : w * N ≤ (c - p) * N := Nat.mul_le_mul_right _ (by omega)
    rw [hm, Nat.mul_comm N] at h3; omega
  · rintro ⟨⟨-, h1⟩, h2, h3⟩
    refine ⟨⟨h1, h2⟩, ?_⟩
    have : (c - p + 1) * N ≤ w * N := Nat.mul_le_mul_right _ (by omega)
    rw [Nat.add_mul, Nat.one_mul] at this
    rw [hm, Nat.mul_comm N]; omega

end

/-! ### Registers of several lanes -/

section

variable (hN : 0 < N) (hm : m = N * w)

include hN hm

theorem rows_le {mem : Bytes} (hl : mem.length = 200 * N) {p : Nat} (hp : p + w ≤ 25) : 8 * (p * N) + 8 * m ≤ mem.length := by
  have : (p + w) * N ≤ 25 * N := Nat.mul_le_mul_right _ hp
  rw [Nat.add_mul, Nat.mul_comm w, ← hm] at this; omega

theorem loadRows {mem : Bytes} (hl : mem.length = 200 * N) {p : Nat} (hp : p + w ≤ 25) :
    loadVec m mem (8 * (p * N)) = some fun i => wd mem ((p + i.val / N) * N + i.val % N) := by
  rw [loadVec_ok m mem (p * N) (rows_le hN hm hl hp)]
  congr 1
  funext i
  have := Nat.div_add_mod i.val N
  rw [Nat.add_mul, Nat.mul_comm (i.val / N), Nat.add_assoc, this]

theorem storeRows {mem : Bytes} (hl : mem.length = 200 * N) {p : Nat} (hp : p + w ≤ 25) (v : Vec m) {g : Nat → Nat → Lane → Lane}
    (hv : ∀ i : Fin m, v i = g (i.val % N) (p + i.val / N) (wd mem ((p + i.val / N) * N + i.val % N))) :
    ∃ mem', storeVec mem (8 * (p * N)) v = some mem' ∧ SUpd N mem mem' p (p + w) g := by
  obtain ⟨mem', h1, h2⟩ := storeVec_ok mem (p * N) v (rows_le hN hm hl hp)
  refine ⟨mem', h1, h2.len, fun k hk p' => ?_⟩
  rw [h2.wd]
  by_cases hc : p ≤ p' ∧ p' < p + w
  · obtain ⟨d, rfl⟩ : ∃ d, p' = p + d := ⟨p' - p, by omega⟩
    have hd : (d + 1) * N ≤ w * N := Nat.mul_le_mul_right _ (by omega)
    rw [Nat.mul_comm w, ← hm, Nat.add_mul, Nat.one_mul] at hd
    have e : (p + d) * N + k - p * N = d * N + k := by rw [Nat.add_mul]; omega
    have e1 : (d * N + k) % N = k := by rw [Nat.mul_comm, Nat.mul_add_mod, Nat.mod_eq_of_lt hk]
    have e2 : (d * N + k) / N = d := by rw [Nat.mul_comm, Nat.mul_add_div hN, Nat.div_eq_of_lt hk, Nat.add_zero]
    rw [if_pos (by rw [Nat.add_mul]; omega), if_pos hc, e, Vec.at, dif_pos (by omega), hv]
    simp only [e1, e2]
  · rw [if_neg hc, if_neg]
    intro h3
    apply hc
    constructor
    · by_contra h4
      have : (p' + 1) * N ≤ p * N := Nat.mul_le_mul_right _ (by omega)
      rw [Nat.add_mul] at this; omega
    · by_contra h4
      have : (p + w) * N ≤ p' * N := Nat.mul_le_mul_right _ (by omega)
      rw [Nat.add_mul, Nat.mul_comm w, ← hm] at this; omega

end

/-! ### The lane functions -/

variable (f : File)

theorem n_pos : 0 < f.n := by cases f <;> decide
theorem n_lt : f.n < 256 := by cases f <;> decide
theorem g_pos : 0 < f.g := by cases f <;> decide
theorem n_mul_g : 8 = f.n * f.g := by cases f <;> rfl
theorem g_le : f.g ≤ 4 := by cases f <;> decide

theorem index_ok (lo : Nat) : IdxOk f.n f.n lo (index f lo) := by
  intro i hi
  cases f <;> simp only [File.n] at hi ⊢ <;> interval_cases i <;> simp [index, setEpi32]

theorem index512_ok (lo : Nat) : IdxOk f.n 8 lo (index512 f lo) := by
  intro i hi
  cases f <;> simp only [File.n] at hi ⊢ <;> interval_cases i <;> simp [index, index512, setEpi32]

theorem single_at (p : Nat) : 8 * f.n * p = 8 * (p * f.n) := by rw [Nat.mul_assoc, Nat.mul_comm f.n]

theorem wide_at {p : Nat} (hp : p % f.g = 0) : 64 * (p / f.g) = 8 * (p * f.n) := by
  cases f <;> simp only [File.g, File.n] at hp ⊢ <;> omega

theorem overLanes_inv (fw f1 : Nat → Bytes → Option Bytes) (I : Nat → Bytes → Prop) (lc : Nat)
    (hfw : ∀ p m, p % f.g = 0 → p + f.g ≤ lc → I p m → ∃ m', fw p m = some m' ∧ I (p + f.g) m')
    (hf : ∀ p m, p + 1 ≤ lc → I p m → ∃ m', f1 p m = some m' ∧ I (p + 1) m') (m : Bytes) (h : I 0 m) :
    ∃ m', overLanes f fw f1 lc m = some m' ∧ I lc m' := by
  have key : ∀ p m, p + f.g ≤ lc → (p % f.g = 0 ∧ I p m) → ∃ m', fw p m = some m' ∧ ((p + f.g) % f.g = 0 ∧ I (p + f.g) m') := by
    rintro p m hp ⟨h1, h2⟩
    obtain ⟨m', e, i⟩ := hfw p m h1 hp h2
    exact ⟨m', e, by rw [Nat.add_mod_right]; exact h1, i⟩
  unfold overLanes
  by_cases h16 : lc ≥ 16
  · rw [if_pos h16]
    obtain ⟨m1, e1, -, i1⟩ : ∃ m', seq fw f.first m = some m' ∧ (16 % f.g = 0 ∧ I 16 m') := by
      cases f
      · exact seq_inv fw (fun p m => p % 4 = 0 ∧ I p m) 4 lc 0 4 _ rfl (by omega) key m ⟨rfl, h⟩
      · exact seq_inv fw (fun p m => p % 2 = 0 ∧ I p m) 2 lc 0 8 _ rfl (by omega) key m ⟨rfl, h⟩
      · exact seq_inv fw (fun p m => p % 1 = 0 ∧ I p m) 1 lc 0 16 _ rfl (by omega) key m ⟨rfl, h⟩
    simp only [Option.bind_eq_bind]
    rw [e1, Option.bind_some]
    by_cases h20 : lc ≥ 20
    · rw [if_pos h20]
      obtain ⟨m2, e2, -, i2⟩ : ∃ m', seq fw f.second m1 = some m' ∧ (20 % f.g = 0 ∧ I 20 m') := by
        cases f
        · exact seq_inv fw (fun p m => p % 4 = 0 ∧ I p m) 4 lc 16 1 _ rfl (by omega) key m1 ⟨rfl, i1⟩
        · exact seq_inv fw (fun p m => p % 2 = 0 ∧ I p m) 2 lc 16 2 _ rfl (by omega) key m1 ⟨rfl, i1⟩
        · exact seq_inv fw (fun p m => p % 1 = 0 ∧ I p m) 1 lc 16 4 _ rfl (by omega) key m1 ⟨rfl, i1⟩
      rw [e2, Option.bind_some]
      exact forTo_inv f1 I lc hf 20 m2 (by omega) i2
    · rw [if_neg h20]
      exact forTo_inv f1 I lc hf 16 m1 (by omega) i1
  · rw [if_neg h16]
    exact forTo_inv f1 I lc hf 0 m (by omega) h

variable {data mem out input : Bytes} {p : Nat}

/-- Load, gather, store. -/
theorem add_upd {idx : Nat → BitVec 32} (hidx : IdxOk N m lo idx) (hN : 0 < N) (hm : m = N * w) (hw : w ≤ 4) (hl : mem.length = 200 * N)
    (h25 : lc ≤ 25) (ha : Acc N lo lc data) (hp : p + w ≤ lc) :
    ∃ mem', ((loadVec m mem (8 * (p * N))).bind fun s => (gather m idx data (8 * p)).bind fun d => storeVec mem (8 * (p * N)) (Simd.xor s d)) =
      some mem' ∧ SUpd N mem mem' p (p + w) (fun k p x => x ^^^ wd data (k * lo + p)) := by
  rw [loadRows hN hm hl (by omega), Option.bind_some, gather_eq hidx hN hm hw ha p hp, Option.bind_some]
  exact storeRows hN hm hl (by omega) _ fun i => rfl

theorem set_upd {idx : Nat → BitVec 32} (hidx : IdxOk N m lo idx) (hN : 0 < N) (hm : m = N * w) (hw : w ≤ 4) (hl : mem.length = 200 * N)
    (h25 : lc ≤ 25) (ha : Acc N lo lc data) (hp : p + w ≤ lc) :
    ∃ mem', ((gather m idx data (8 * p)).bind fun d => storeVec mem (8 * (p * N)) d) =
      some mem' ∧ SUpd N mem mem' p (p + w) (fun k p _ => wd data (k * lo + p)) := by
  rw [gather_eq hidx hN hm hw ha p hp, Option.bind_some]
  exact storeRows hN hm hl (by omega) _ fun i => rfl

theorem ext_upd {idx : Nat → BitVec 32} (hidx : IdxOk N m lo idx) (hN : 0 < N) (hm : m = N * w) (hw : w ≤ 4) (hl : mem.length = 200 * N)
    (h25 : lc ≤ 25) (hlo : lc ≤ lo) (ha : Acc N lo lc out) (hp : p + w ≤ lc) :
    ∃ out', ((loadVec m mem (8 * (p * N))).bind fun s => scatter out (8 * p) idx s) = some out' ∧
      OUpd lo out out' 0 N p (p + w) (fun k p => wd mem (p * N + k)) := by
  rw [loadRows hN hm hl (by omega), Option.bind_some]
  exact scatter_upd hidx hN hm hw ha hlo p hp _ (g := fun k p => wd mem (p * N + k)) fun i => rfl

theorem exa_upd {idx : Nat → BitVec 32} (hidx : IdxOk N m lo idx) (hN : 0 < N) (hm : m = N * w) (hw : w ≤ 4) (hl : mem.length = 200 * N)
    (h25 : lc ≤ 25) (hlo : lc ≤ lo) (hi : Acc N lo lc input) (ha : Acc N lo lc out) (hp : p + w ≤ lc) :
    ∃ out', ((loadVec m mem (8 * (p * N))).bind fun s => (gather m idx input (8 * p)).bind fun d => scatter out (8 * p) idx (Simd.xor s d)) =
      some out' ∧ OUpd lo out out' 0 N p (p + w) (fun k p => wd input (k * lo + p) ^^^ wd mem (p * N + k)) := by
  rw [loadRows hN hm hl (by omega), Option.bind_some, gather_eq hidx hN hm hw hi p hp, Option.bind_some]
  exact scatter_upd hidx hN hm hw ha hlo p hp _ (g := fun k p => wd input (k * lo + p) ^^^ wd mem (p * N + k)) fun i => BitVec.xor_comm _ _

theorem addLanesAll_upd (hm : mem.length = 200 * f.n) (h25 : lc ≤ 25) (ha : Acc f.n lo lc data) :
    ∃ mem', addLanesAll f mem data lc lo = some mem' ∧ SUpd f.n mem mem' 0 lc (fun k p x => x ^^^ wd data (k * lo + p)) :=
  overLanes_inv f _ _ (fun p m => SUpd f.n mem m 0 p (fun k p x => x ^^^ wd data (k * lo + p))) lc
    (fun p m h0 hp h => by
      obtain ⟨m', h1, h2⟩ := add_upd (index512_ok f lo) (n_pos f) (n_mul_g f) (g_le f) (h.len.trans hm) h25 ha hp
      refine ⟨m', ?_, h.trans h2 (by omega) (by omega)⟩
      rw [← wide_at f h0] at h1; exact h1)
    (fun p m hp h => by
      obtain ⟨m', h1, h2⟩ := add_upd (index_ok f lo) (n_pos f) (Nat.mul_one _).symm (by omega) (h.len.trans hm) h25 ha hp
      refine ⟨m', ?_, h.trans h2 (by omega) (by omega)⟩
      rw [← single_at f] at h1; exact h1) mem (SUpd.refl _ _ _)

theorem overwriteLanesAll_upd (hm : mem.length = 200 * f.n) (h25 : lc ≤ 25) (ha : Acc f.n lo lc data) :
    ∃ mem', overwriteLanesAll f mem data lc lo = some mem' ∧ SUpd f.n mem mem' 0 lc (fun k p _ => wd data (k * lo + p)) :=
  overLanes_inv f _ _ (fun p m => SUpd f.n mem m 0 p (fun k p _ => wd data (k * lo + p))) lc
    (fun p m h0 hp h => by
      obtain ⟨m', h1, h2⟩ := set_upd (index512_ok f lo) (n_pos f) (n_mul_g f) (g_le f) (h.len.trans hm) h25 ha hp
      refine ⟨m', ?_, h.trans h2 (by omega) (by omega)⟩
      rw [← wide_at f h0] at h1; exact h1)
    (fun p m hp h => by
      obtain ⟨m', h1, h2⟩ := set_upd (index_ok f lo) (n_pos f) (Nat.mul_one _).symm (by omega) (h.len.trans hm) h25 ha hp
      refine ⟨m', ?_, h.trans h2 (by omega) (by omega)⟩
      rw [← single_at f] at h1; exact h1) mem (SUpd.refl _ _ _)

theorem extractLanesAll_upd (hm : mem.length = 200 * f.n) (h25 : lc ≤ 25) (hlo : lc ≤ lo) (ha : Acc f.n lo lc out) :
    ∃ out', extractLanesAll f mem out lc lo = some out' ∧ OUpd lo out out' 0 f.n 0 lc (fun k p => wd mem (p * f.n + k)) :=
  overLanes_inv f _ _ (fun p m => OUpd lo out m 0 f.n 0 p (fun k p => wd mem (p * f.n + k))) lc
    (fun p m h0 hp h => by
      obtain ⟨m', h1, h2⟩ := ext_upd (index512_ok f lo) (n_pos f) (n_mul_g f) (g_le f) hm h25 hlo (ha.congr h.len) hp
      refine ⟨m', ?_, h.cols h2 (by omega) (by omega)⟩
      rw [← wide_at f h0] at h1; exact h1)
    (fun p m hp h => by
      obtain ⟨m', h1, h2⟩ := ext_upd (index_ok f lo) (n_pos f) (Nat.mul_one _).symm (by omega) hm h25 hlo (ha.congr h.len) hp
      refine ⟨m', ?_, h.cols h2 (by omega) (by omega)⟩
      rw [← single_at f] at h1; exact h1) out (OUpd.refl _ _ _ _ _)

theorem extractAndAddLanesAll_upd (hm : mem.length = 200 * f.n) (h25 : lc ≤ 25) (hlo : lc ≤ lo) (hi : Acc f.n lo lc input)
    (ha : Acc f.n lo lc out) :
    ∃ out', extractAndAddLanesAll f mem input out lc lo = some out' ∧
      OUpd lo out out' 0 f.n 0 lc (fun k p => wd input (k * lo + p) ^^^ wd mem (p * f.n + k)) :=
  overLanes_inv f _ _ (fun p m => OUpd lo out m 0 f.n 0 p (fun k p => wd input (k * lo + p) ^^^ wd mem (p * f.n + k))) lc
    (fun p m h0 hp h => by
      obtain ⟨m', h1, h2⟩ := exa_upd (index512_ok f lo) (n_pos f) (n_mul_g f) (g_le f) hm h25 hlo hi (ha.congr h.len) hp
      refine ⟨m', ?_, h.cols h2 (by omega) (by omega)⟩
      rw [← wide_at f h0] at h1; exact h1)
    (fun p m hp h => by
      obtain ⟨m', h1, h2⟩ := exa_upd (index_ok f lo) (n_pos f) (Nat.mul_one _).symm (by omega) hm h25 hlo hi (ha.congr h.len) hp
      refine ⟨m', ?_, h.cols h2 (by omega) (by omega)⟩
      rw [← single_at f] at h1; exact h1) out (OUpd.refl _ _ _ _ _)

/-! ### The permutations -/

theorem copyFromState2rounds_ok (hm : mem.length = 200 * N) :
    ∃ A, copyFromState2rounds N mem = some A ∧ ∀ l : Fin N, bytesOfLanes (lanesOf (fun v => v l) (ren2 A)) = view N mem l.val := by
  have h : ∀ p < 25, loadVec N mem (8 * N * p) = some fun l => wd mem (p * N + l.val) := fun p hp => by
    rw [show 8 * N * p = 8 * (p * N) by rw [Nat.mul_assoc, Nat.mul_comm N]]; exact loadRow hm p hp
  let g : Nat → Vec N := fun p l => wd mem (p * N + l.val)
  refine ⟨⟨g 0, g 16, g 7, g 23, g 14, g 20, g 11, g 2, g 18, g 9, g 15, g 6, g 22, g 13, g 4, g 10, g 1, g 17, g 8, g 24, g 5, g 21, g 12, g 3,
    g 19⟩, ?_, fun l => ?_⟩
  · unfold copyFromState2rounds
    simp only [Option.bind_eq_bind, h, Option.bind_some, Nat.reduceLT]
    rfl
  · rw [view_eq]
    congr 1
    funext p
    rw [lanesOf_get]
    fin_cases p <;> rfl

/-- A `PermuteAll` function; `nm` is the naming of the variables that `copyFromState` fills. -/
theorem permute_ok {R nm : V (Vec N) → V (Vec N)} {n : Nat} (hR : ∀ (l : Fin N) s, lanesOf (fun v => v l) (R s) =
    KeccakP1600.Opt64.run (24 - n) n (lanesOf (fun v => v l) (nm s))) {cp : Bytes → Option (V (Vec N))}
    (hcp : ∃ A, cp mem = some A ∧ ∀ l : Fin N, bytesOfLanes (lanesOf (fun v => v l) (nm A)) = view N mem l.val)
    (hm : mem.length = 200 * N) :
    ∃ mem', ((cp mem).bind fun A => copyToState mem (R A)) = some mem' ∧ mem'.length = mem.length ∧
      ∀ k < N, view N mem' k = KeccakP1600.Ref.permuteNrounds n (view N mem k) := by
  obtain ⟨A, h1, h2⟩ := hcp
  obtain ⟨mem', h3, h4, h5⟩ := copyToState_ok hm (R A)
  refine ⟨mem', by rw [h1, Option.bind_some, h3], h4, fun k hk => ?_⟩
  rw [h5 ⟨k, hk⟩, hR, ← h2 ⟨k, hk⟩]
  show _ = bytesOfLanes (KeccakP1600.Ref.onWords _ _ (lanesOfBytes (bytesOfLanes _)) n)
  rw [KeccakP1600.lanesOfBytes_bytesOfLanes]; rfl

theorem permuteAll_ok (unr : Unrolling) (p : Perm) (mem : Bytes) (hm : mem.length = 200 * f.n) :
    ∃ mem', permuteAll f unr p mem = some mem' ∧ mem'.length = mem.length ∧
      ∀ k < f.n, view f.n mem' k = PlSnPFallback.keccak p (view f.n mem k) := by
  cases p
  · exact permute_ok (nm := id) (n := 24) (fun l s => rounds24_ok (ops_ok l) unr s) (copyFromState_ok hm) hm
  · exact permute_ok (nm := id) (n := 12) (fun l s => rounds12_ok (ops_ok l) unr s) (copyFromState_ok hm) hm
  · exact permute_ok (nm := ren2) (n := 6) (fun l s => rounds6_ok (ops_ok l) s) (copyFromState2rounds_ok hm) hm
  · exact permute_ok (nm := id) (n := 4) (fun l s => rounds4_ok (ops_ok l) s) (copyFromState_ok hm) hm

theorem impl_ok (unr : Unrolling) : PlSpec.Independent (impl f unr) 200 PlSnPFallback.keccak (view f.n) :=
  independent_of (N := f.n) (n_lt f) rfl rfl rfl rfl rfl rfl rfl rfl rfl rfl
    (fun _ _ _ _ hm h25 ha => addLanesAll_upd f hm h25 ha) (fun _ _ _ _ hm h25 ha => overwriteLanesAll_upd f hm h25 ha)
    (fun _ _ _ _ hm h25 hlo ha => extractLanesAll_upd f hm h25 hlo ha)
    (fun _ _ _ _ _ hm h25 hlo hi ha => extractAndAddLanesAll_upd f hm h25 hlo hi ha) (permuteAll_ok f unr)

end Avx512
