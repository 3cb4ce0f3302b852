import Verif.Proofs.Simd32Lanes
import Verif.Proofs.XoodooSimdRounds
import Verif.Proofs.Interleaved32
import Verif.Props.PlSnP
import Mathlib.Tactic.IntervalCases

/-!
What the SIMD implementations have in common, in terms of the interleaved states: accesses through the pointers of the lane functions,
`State2Vars`, `Vars2State`, the permutations, and the byte functions.
-/

namespace Simd32

open Xoodoo (Lane Lanes wordOfBytes bytesOfWord byteOf bytesOfLanes lanesOfBytes)
open PlSpec (InBuf Changed)
open PlSnPFallback (Perm)
open XoodooSimd

variable {N lo lc : Nat} {buf : Bytes}

/-- The buffer can be accessed through the pointers of a lane function. -/
structure Acc (N lo lc : Nat) (buf : Bytes) : Prop where
  small : ∀ k < N, lo * k * 4 < 2 ^ 32
  inBuf : InBuf N (lo * 4) (lc * 4) buf

theorem Acc.congr {buf buf' : Bytes} (h : Acc N lo lc buf) (hl : buf'.length = buf.length) : Acc N lo lc buf' :=
  ⟨h.small, fun k hk => by rw [hl]; exact h.inBuf k hk⟩

theorem Acc.of (h : N * (lo * 4) < 2 ^ 32) (hb : InBuf N (lo * 4) (lc * 4) buf) : Acc N lo lc buf := by
  refine ⟨fun k hk => ?_, hb⟩
  have h1 : k * (lo * 4) ≤ N * (lo * 4) := Nat.mul_le_mul_right _ (by omega)
  rw [← Nat.mul_assoc] at h1
  rw [Nat.mul_comm lo k]; omega


theorem Acc.load0 (h : Acc N lo lc buf) (hN : 0 < N) {p : Nat} (hp : p < lc) :
    loadWord buf (4 * p) = some (wd buf (0 * lo + p)) := by
  have := inBuf_word h.inBuf 0 hN
  rw [Nat.zero_mul, Nat.zero_add, loadWord_ok _ _ (by omega)]

theorem Acc.load (h : Acc N lo lc buf) {k : Nat} (hk : k < N) {p : Nat} (hp : p < lc) :
    loadWord buf (ptr lo k + 4 * p) = some (wd buf (k * lo + p)) := by
  have := inBuf_word h.inBuf k hk
  rw [ptr_eq lo k (h.small k hk), ← Nat.mul_add, loadWord_ok _ _ (by omega)]

theorem Acc.loadVec0 (h : Acc N lo lc buf) (hN : 0 < N) {p n : Nat} (hp : p + n ≤ lc) :
    loadVec n buf (4 * p) = some fun l => wd buf (0 * lo + (p + l.val)) := by
  have := inBuf_word h.inBuf 0 hN
  rw [Nat.zero_mul, loadVec_ok _ _ _ (by omega)]
  simp only [Nat.zero_add]

theorem Acc.loadVec (h : Acc N lo lc buf) {k : Nat} (hk : k < N) {p n : Nat} (hp : p + n ≤ lc) :
    loadVec n buf (ptr lo k + 4 * p) = some fun l => wd buf (k * lo + (p + l.val)) := by
  have := inBuf_word h.inBuf k hk
  rw [ptr_eq lo k (h.small k hk), ← Nat.mul_add, loadVec_ok _ _ _ (by omega)]
  simp only [Nat.add_assoc]

theorem Acc.store (h : Acc N lo lc buf) (hlo : lc ≤ lo) {k : Nat} (hk : k < N) {p : Nat} (hp : p < lc) {w : Lane} {f : Nat → Nat → Lane}
    (hf : w = f k p) : ∃ buf', storeWord buf (ptr lo k + 4 * p) w = some buf' ∧ OUpd lo buf buf' k (k + 1) p (p + 1) f := by
  have := inBuf_word h.inBuf k hk
  rw [ptr_eq lo k (h.small k hk), ← Nat.mul_add]
  obtain ⟨b, h1, h2⟩ := storeWord_ok buf (k * lo + p) w (by omega)
  refine ⟨b, h1, OUpd.of_stored h2 (by omega) fun j hj => ?_⟩
  obtain rfl : j = 0 := by omega
  exact hf

theorem Acc.store0 (h : Acc N lo lc buf) (hlo : lc ≤ lo) (hN : 0 < N) {p : Nat} (hp : p < lc) {w : Lane} {f : Nat → Nat → Lane}
    (hf : w = f 0 p) : ∃ buf', storeWord buf (4 * p) w = some buf' ∧ OUpd lo buf buf' 0 1 p (p + 1) f := by
  have e := ptr_eq lo 0 (h.small 0 hN)
  have := h.store hlo hN hp hf
  rwa [e, Nat.zero_mul, Nat.mul_zero, Nat.zero_add] at this

theorem Acc.storeVec (h : Acc N lo lc buf) (hlo : lc ≤ lo) {k : Nat} (hk : k < N) {p n : Nat} (hp : p + n ≤ lc) {v : Vec n}
    {f : Nat → Nat → Lane} (hf : ∀ l : Fin n, v l = f k (p + l.val)) :
    ∃ buf', storeVec buf (ptr lo k + 4 * p) v = some buf' ∧ OUpd lo buf buf' k (k + 1) p (p + n) f := by
  have := inBuf_word h.inBuf k hk
  rw [ptr_eq lo k (h.small k hk), ← Nat.mul_add]
  obtain ⟨b, h1, h2⟩ := storeVec_ok buf (k * lo + p) v (by omega)
  refine ⟨b, h1, OUpd.of_stored h2 (by omega) fun j hj => ?_⟩
  rw [← hf ⟨j, hj⟩, Vec.at, dif_pos hj]

theorem Acc.storeVec0 (h : Acc N lo lc buf) (hlo : lc ≤ lo) (hN : 0 < N) {p n : Nat} (hp : p + n ≤ lc) {v : Vec n}
    {f : Nat → Nat → Lane} (hf : ∀ l : Fin n, v l = f 0 (p + l.val)) :
    ∃ buf', Simd32.storeVec buf (4 * p) v = some buf' ∧ OUpd lo buf buf' 0 1 p (p + n) f := by
  have e := ptr_eq lo 0 (h.small 0 hN)
  have := h.storeVec hlo hN hp hf
  rwa [e, Nat.zero_mul, Nat.mul_zero, Nat.zero_add] at this

/-! ### The permutations -/

theorem reg_ok {mem : Bytes} (hm : mem.length = 48 * N) (p : Nat) (hp : p < 12) :
    reg N mem p = some fun l => wd mem (p * N + l.val) := by
  have e : 4 * N * p = 4 * (p * N) := by rw [Nat.mul_assoc, Nat.mul_comm N]
  rw [reg, e]; exact loadRow hm p hp

/-- The lanes of a state kept in variables, given by the projection, after `State2Vars`. -/
theorem state2Vars_ok {mem : Bytes} (hm : mem.length = 48 * N) :
    ∃ s : Vars (Vec N), state2Vars mem = some s ∧ ∀ l : Fin N, bytesOfLanes (lanesOf (fun v => v l) s) = view N mem l.val := by
  let r : Nat → Vec N := fun p l => wd mem (p * N + l.val)
  refine ⟨⟨![r 0, r 1, r 2, r 3], ![r 4, r 5, r 6, r 7], ![r 8, r 9, r 10, r 11]⟩, ?_, fun l => ?_⟩
  · unfold state2Vars
    simp only [Option.bind_eq_bind]
    rw [reg_ok hm 0 (by omega), Option.bind_some, reg_ok hm 1 (by omega), Option.bind_some, reg_ok hm 2 (by omega), Option.bind_some,
      reg_ok hm 3 (by omega), Option.bind_some, reg_ok hm 4 (by omega), Option.bind_some, reg_ok hm 5 (by omega), Option.bind_some,
      reg_ok hm 6 (by omega), Option.bind_some, reg_ok hm 7 (by omega), Option.bind_some, reg_ok hm 8 (by omega), Option.bind_some,
      reg_ok hm 9 (by omega), Option.bind_some, reg_ok hm 10 (by omega), Option.bind_some, reg_ok hm 11 (by omega), Option.bind_some]
  · rw [view_eq]
    congr 1
    funext p
    fin_cases p <;> rfl

theorem state2Vars2_ok {mem : Bytes} (hm : mem.length = 48 * N) :
    ∃ s : Vars (Vec N), state2Vars2 mem = some s ∧ ∀ l : Fin N,
      bytesOfLanes (Xoodoo.Opt.vars2State (toV (fun v => v l) ![2, 3, 0, 1] ![0, 1, 2, 3] s)) = view N mem l.val := by
  let r : Nat → Vec N := fun p l => wd mem (p * N + l.val)
  refine ⟨⟨![r 0, r 1, r 2, r 3], ![r 6, r 7, r 4, r 5], ![r 8, r 9, r 10, r 11]⟩, ?_, fun l => ?_⟩
  · unfold state2Vars2
    simp only [Option.bind_eq_bind]
    rw [reg_ok hm 0 (by omega), Option.bind_some, reg_ok hm 1 (by omega), Option.bind_some, reg_ok hm 2 (by omega), Option.bind_some,
      reg_ok hm 3 (by omega), Option.bind_some, reg_ok hm 4 (by omega), Option.bind_some, reg_ok hm 5 (by omega), Option.bind_some,
      reg_ok hm 6 (by omega), Option.bind_some, reg_ok hm 7 (by omega), Option.bind_some, reg_ok hm 8 (by omega), Option.bind_some,
      reg_ok hm 9 (by omega), Option.bind_some, reg_ok hm 10 (by omega), Option.bind_some, reg_ok hm 11 (by omega), Option.bind_some]
  · rw [view_eq]
    congr 1
    funext p
    fin_cases p <;> rfl

theorem lanesOf_get {α : Type} (f : α → Lane) (s : Vars α) (p : Fin 12) : lanesOf f s p = f (s.get p.val) := by
  fin_cases p <;> rfl

theorem vars2State_ok {mem : Bytes} (hm : mem.length = 48 * N) (A : Vars (Vec N)) :
    ∃ mem', vars2State mem A = some mem' ∧ mem'.length = mem.length ∧
      ∀ l : Fin N, view N mem' l.val = bytesOfLanes (lanesOf (fun v => v l) A) := by
  obtain ⟨mem', h1, h2⟩ := seq_inv (fun p mem => storeVec mem (4 * N * p) (A.get p))
    (fun p m => SUpd N mem m 0 p (fun k p _ => (A.get p).at k)) 1 12 0 12
    [0, 1, 2, 3, 4, 5, 6, 7, 8, 9, 10, 11] (by rfl) (by omega)
    (fun p m hp h => by
      have e : 4 * N * p = 4 * (p * N) := by rw [Nat.mul_assoc, Nat.mul_comm N]
      obtain ⟨m', h1, h2⟩ := storeRow (h.len.trans hm) p (by omega) (A.get p)
      refine ⟨m', by rw [e]; exact h1, h.trans (h2.congr fun k _ p' x h3 h4 => ?_) (by omega) (by omega)⟩
      obtain rfl : p' = p := by omega
      rfl) mem (SUpd.refl _ _ _)
  refine ⟨mem', h1, h2.len, fun l => ?_⟩
  rw [view_eq]
  congr 1
  funext p
  rw [lanesOf_get, h2.lane l.val l.isLt, if_pos (by omega), Vec.at, dif_pos l.isLt]

section
variable {R : (Fin 4 → Fin 4) → (Fin 4 → Fin 4) → (Fin 4 → Fin 4) → Lane → Vars (Vec N) → Vars (Vec N)}

theorem permute12_ok (hR : ∀ l : Fin N, RoundOk (fun v : Vec N => v l) R) {mem : Bytes} (hm : mem.length = 48 * N) :
    ∃ mem', permute12 R mem = some mem' ∧ mem'.length = mem.length ∧
      ∀ k < N, view N mem' k = Xoodoo.Ref.permute12 (view N mem k) := by
  obtain ⟨A, h1, h2⟩ := state2Vars_ok hm
  obtain ⟨mem', h3, h4, h5⟩ := vars2State_ok hm (rounds12 R A)
  refine ⟨mem', ?_, h4, fun k hk => ?_⟩
  · unfold permute12
    simp only [Option.bind_eq_bind]
    rw [h1, Option.bind_some, h3]
  · rw [h5 ⟨k, hk⟩, rounds12_eq (hR _), ← h2 ⟨k, hk⟩]
    show _ = bytesOfLanes (Xoodoo.Ref.onWords 12 (lanesOfBytes (bytesOfLanes _)))
    rw [Xoodoo.lanesOfBytes_bytesOfLanes]

theorem permute6_ok (hR : ∀ l : Fin N, RoundOk (fun v : Vec N => v l) R) {mem : Bytes} (hm : mem.length = 48 * N) :
    ∃ mem', permute6 R mem = some mem' ∧ mem'.length = mem.length ∧
      ∀ k < N, view N mem' k = Xoodoo.Ref.permute6 (view N mem k) := by
  obtain ⟨A, h1, h2⟩ := state2Vars2_ok hm
  obtain ⟨mem', h3, h4, h5⟩ := vars2State_ok hm (rounds6 R A)
  refine ⟨mem', ?_, h4, fun k hk => ?_⟩
  · unfold permute6
    simp only [Option.bind_eq_bind]
    rw [h1, Option.bind_some, h3]
  · rw [h5 ⟨k, hk⟩, rounds6_eq (hR _), ← h2 ⟨k, hk⟩]
    show _ = bytesOfLanes (Xoodoo.Ref.onWords 6 (lanesOfBytes (bytesOfLanes _)))
    rw [Xoodoo.lanesOfBytes_bytesOfLanes]

end

/-! ### The byte functions -/

open Interleaved32 (Upd)

theorem changed_of_upd {i : Nat} (hi : i < N) {mem mem' : Bytes} {a b : Nat} {g : Nat → Byte → Byte}
    (h : Upd N i mem mem' a b g) (s : Bytes) (hl : s.length = 48)
    (hs : ∀ j < 48, s.getD j 0 = if a ≤ j ∧ j < b then g j ((view N mem i).getD j 0) else (view N mem i).getD j 0) :
    Changed (view N) N mem mem' i s := by
  constructor
  · apply bytes_ext (by rw [length_view, hl])
    intro j hj
    rw [length_view] at hj
    rw [hs j hj, getD_view _ _ _ _ hj, getD_view _ _ _ _ hj, h.byte i hi]
    by_cases hc : a ≤ j ∧ j < b
    · rw [if_pos ⟨rfl, hc⟩, if_pos hc]
    · rw [if_neg (fun h => hc h.2), if_neg hc]
  · intro k hk hne
    apply bytes_ext (by rw [length_view, length_view])
    intro j hj
    rw [length_view] at hj
    rw [getD_view _ _ _ _ hj, getD_view _ _ _ _ hj, h.byte k hk, if_neg (fun h => hne h.1)]

theorem getD_xorAt_off (s : Bytes) (off : Nat) (d : Bytes) (j : Nat) (hj : j < s.length) :
    (Bytes.xorAt s off d).getD j 0 = if off ≤ j ∧ j < off + d.length then s.getD j 0 ^^^ d.getD (j - off) 0 else s.getD j 0 := by
  by_cases h : off ≤ j ∧ j < off + d.length
  · rw [if_pos h]
    simp [List.getD_eq_getElem?_getD, Bytes.getElem?_xorAt, List.getElem?_eq_getElem hj, h.1]
  · rw [if_neg h]
    by_cases h1 : off ≤ j
    · have : d[j - off]? = none := List.getElem?_eq_none (by omega)
      simp [List.getD_eq_getElem?_getD, Bytes.getElem?_xorAt, List.getElem?_eq_getElem hj, this]
    · simp [List.getD_eq_getElem?_getD, Bytes.getElem?_xorAt, List.getElem?_eq_getElem hj, h1]

theorem getD_xor (a b : Bytes) (j : Nat) (ha : j < a.length) (hb : j < b.length) :
    (Bytes.xor a b).getD j 0 = a.getD j 0 ^^^ b.getD j 0 := by
  simp [Bytes.xor, List.getD_eq_getElem?_getD, List.getElem?_zipWith, List.getElem?_eq_getElem ha, List.getElem?_eq_getElem hb]

theorem view_zeros (k n : Nat) : view N (Bytes.zeros n) k = Bytes.zeros 48 := by
  apply bytes_ext (by simp)
  intro j hj
  rw [length_view] at hj
  rw [getD_view _ _ _ _ hj, Interleaved32.getD_zeros, Interleaved32.getD_zeros]

theorem bytesFrom_view (mem : Bytes) (i off len : Nat) (h : off + len ≤ 48) :
    Interleaved32.bytesFrom (fun j => mem.getD (pos N i j) 0) off len = Bytes.slice (view N mem i) off len := by
  symm
  apply Interleaved32.bytesFrom_ext (Bytes.length_slice_of_le (by simpa using h))
  intro j hj
  rw [getD_slice, if_pos hj, getD_view _ _ _ _ (by omega)]

theorem strided_congr {p q : Nat → Bytes} {s n : Nat} {out : Bytes} (h : ∀ k < n, p k = q k) :
    PlSpec.strided p s n out = PlSpec.strided q s n out := by
  induction n with
  | zero => rfl
  | succ n ih => rw [PlSpec.strided, PlSpec.strided, ih (fun k hk => h k (by omega)), h n (by omega)]

/-- The documented behaviour of a SIMD implementation whose byte functions are those of `Interleaved32`, from what its lane functions and
permutations do. -/
theorem independent_of {I : PlSnPFallback.Par} {F : Perm → Bytes → Bytes} (hN : N < 256) (hpar : I.par = N) (hsize : I.size = 48 * N) (hlane : I.lane = 4)
    (h1 : I.initAll = Interleaved32.initAll) (h2 : I.addByte = Interleaved32.addByte N) (h3 : I.addBytes = Interleaved32.addBytes N)
    (h4 : I.overwriteBytes = Interleaved32.overwriteBytes N) (h5 : I.overwriteWithZeroes = Interleaved32.overwriteWithZeroes N)
    (h6 : I.extractBytes = Interleaved32.extractBytes N) (h7 : I.extractAndAddBytes = Interleaved32.extractAndAddBytes N)
    (hadd : ∀ (mem data : Bytes) (lc lo : Nat), mem.length = 48 * N → lc ≤ 12 → Acc N lo lc data →
      ∃ mem', I.addLanesAll mem data lc lo = some mem' ∧ SUpd N mem mem' 0 lc (fun k p x => x ^^^ wd data (k * lo + p)))
    (hset : ∀ (mem data : Bytes) (lc lo : Nat), mem.length = 48 * N → lc ≤ 12 → Acc N lo lc data →
      ∃ mem', I.overwriteLanesAll mem data lc lo = some mem' ∧ SUpd N mem mem' 0 lc (fun k p _ => wd data (k * lo + p)))
    (hext : ∀ (mem out : Bytes) (lc lo : Nat), mem.length = 48 * N → lc ≤ 12 → lc ≤ lo → Acc N lo lc out →
      ∃ out', I.extractLanesAll mem out lc lo = some out' ∧ OUpd lo out out' 0 N 0 lc (fun k p => wd mem (p * N + k)))
    (hexa : ∀ (mem input out : Bytes) (lc lo : Nat), mem.length = 48 * N → lc ≤ 12 → lc ≤ lo → Acc N lo lc input → Acc N lo lc out →
      ∃ out', I.extractAndAddLanesAll mem input out lc lo = some out' ∧
        OUpd lo out out' 0 N 0 lc (fun k p => wd input (k * lo + p) ^^^ wd mem (p * N + k)))
    (hperm : ∀ (p : Perm) (mem : Bytes), mem.length = 48 * N → ∃ mem', I.permuteAll p mem = some mem' ∧ mem'.length = mem.length ∧
      ∀ k < N, view N mem' k = F p (view N mem k)) :
    PlSpec.Independent I 48 F (view N) := by
  have hpiece : ∀ (mem : Bytes) (lc : Nat), lc ≤ 12 → ∀ k, ∀ p < lc, ∀ r < 4,
      (Bytes.slice (view N mem k) 0 (lc * 4)).getD (4 * p + r) 0 = byteOf (wd mem (p * N + k)) r := by
    intro mem lc hlc k p hp r hr
    rw [getD_slice, if_pos (by omega), Nat.zero_add, getD_view _ _ _ _ (by omega), byteOf_wd _ _ _ hr]
    unfold pos
    rw [show (4 * p + r) / 4 = p by omega, show (4 * p + r) % 4 = r by omega]
  constructor
  · intro mem _ k _; exact length_view _ _ _
  · intro mem hm
    refine ⟨_, by rw [h1]; rfl, by simpa using hm, fun k _ => view_zeros _ _⟩
  · intro mem hm i hi b off ho
    rw [hpar] at hi ⊢; rw [hsize] at hm ⊢; rw [h2]
    obtain ⟨mem', e, u⟩ := Interleaved32.addByte_upd hN hi hm b off ho
    refine ⟨mem', e, u.len.trans hm, changed_of_upd hi u _ (by simp) fun j hj => ?_⟩
    rw [getD_xorAt_off _ _ _ _ (by simpa using hj)]
    by_cases hc : off ≤ j ∧ j < off + 1
    · rw [if_pos (by simpa using hc), if_pos hc, show j - off = 0 by omega]; rfl
    · rw [if_neg (by simpa using hc), if_neg hc]
  · intro mem hm i hi data off ho
    rw [hpar] at hi ⊢; rw [hsize] at hm ⊢; rw [h3]
    obtain ⟨mem', e, u⟩ := Interleaved32.addBytes_upd hN hi hm data off ho
    exact ⟨mem', e, u.len.trans hm, changed_of_upd hi u _ (by simp) fun j hj => getD_xorAt_off _ _ _ _ (by simpa using hj)⟩
  · intro mem hm data lc lo hlc hsm hb
    rw [hpar, hlane] at hsm hb; rw [hpar, hlane]; rw [hlane] at hlc; rw [hsize] at hm ⊢
    obtain ⟨mem', e, u⟩ := hadd mem data lc lo hm (by omega) (Acc.of hsm hb)
    exact ⟨mem', e, u.len.trans hm, fun k hk => u.view_add hk⟩
  · intro mem hm i hi data off ho
    rw [hpar] at hi ⊢; rw [hsize] at hm ⊢; rw [h4]
    obtain ⟨mem', e, u⟩ := Interleaved32.overwriteBytes_upd hN hi hm data off ho
    exact ⟨mem', e, u.len.trans hm, changed_of_upd hi u _ (by simp) fun j hj => getD_setAt _ _ _ _ (by simpa using ho)⟩
  · intro mem hm data lc lo hlc hsm hb
    rw [hpar, hlane] at hsm hb; rw [hpar, hlane]; rw [hlane] at hlc; rw [hsize] at hm ⊢
    obtain ⟨mem', e, u⟩ := hset mem data lc lo hm (by omega) (Acc.of hsm hb)
    exact ⟨mem', e, u.len.trans hm, fun k hk => u.view_set hk hlc (hb k hk)⟩
  · intro mem hm i hi n hn
    rw [hpar] at hi ⊢; rw [hsize] at hm ⊢; rw [h5]
    obtain ⟨mem', e, u⟩ := Interleaved32.overwriteWithZeroes_upd hN hi hm n hn
    refine ⟨mem', e, u.len.trans hm, changed_of_upd hi u _ (by simp) fun j hj => ?_⟩
    rw [getD_setAt _ _ _ _ (by simpa using hn), Interleaved32.getD_zeros]
    simp
  · intro mem hm p
    rw [hsize] at hm ⊢; rw [hpar]
    obtain ⟨mem', e, hl, hv⟩ := hperm p mem hm
    exact ⟨mem', e, hl.trans hm, hv⟩
  · intro mem hm i hi off len ho
    rw [hpar] at hi; rw [hsize] at hm; rw [h6, Interleaved32.extractBytes_eq hN hi hm off len ho, bytesFrom_view _ _ _ _ ho]
  · intro mem hm out lc lo hlc hsm hlo hb
    rw [hpar, hlane] at hsm hb; rw [hpar, hlane]; rw [hlane] at hlc; rw [hsize] at hm
    obtain ⟨out', e, u⟩ := hext mem out lc lo hm (by omega) hlo (Acc.of hsm hb)
    rw [e]
    refine congrArg some ?_
    rcases Nat.eq_zero_or_pos lo with h0 | h0
    · obtain rfl : lc = 0 := by omega
      rw [strided_nil _ (fun k => by simp [Bytes.slice])]
      apply bytes_ext u.len
      intro q _
      rw [u.byte, if_neg (by omega)]
    · exact u.strided _ (fun k => Bytes.length_slice_of_le (by simpa using hlc)) hlo h0 hb (fun k _ p hp r hr => hpiece mem lc (by omega) k p hp r hr)
  · intro mem hm i hi input off ho
    rw [hpar] at hi; rw [hsize] at hm; rw [h7, Interleaved32.extractAndAddBytes_eq hN hi hm input off ho]
    have hl : (Bytes.slice (view N mem i) off input.length).length = input.length := Bytes.length_slice_of_le (by simpa using ho)
    refine congrArg some (Interleaved32.bytesFrom_ext (by rw [Bytes.length_xor, hl, Nat.min_self]) fun j hj => ?_).symm
    rw [getD_xor _ _ _ hj (by rw [hl]; exact hj), getD_slice, if_pos hj, getD_view _ _ _ _ (by omega), show off + j - off = j by omega]
  · intro mem hm input out lc lo hlc hsm hlo hbi hb
    rw [hpar, hlane] at hsm hb hbi; rw [hpar, hlane]; rw [hlane] at hlc; rw [hsize] at hm
    obtain ⟨out', e, u⟩ := hexa mem input out lc lo hm (by omega) hlo (Acc.of hsm hbi) (Acc.of hsm hb)
    rw [e]
    refine congrArg some ?_
    rcases Nat.eq_zero_or_pos lo with h0 | h0
    · obtain rfl : lc = 0 := by omega
      rw [strided_nil _ (fun k => by simp [Bytes.slice, Bytes.xor])]
      apply bytes_ext u.len
      intro q _
      rw [u.byte, if_neg (by omega)]
    · have hl : ∀ k, (Bytes.slice (view N mem k) 0 (lc * 4)).length = lc * 4 := fun k => Bytes.length_slice_of_le (by simpa using hlc)
      have hli : ∀ k < N, (Bytes.slice input (k * (lo * 4)) (lc * 4)).length = lc * 4 := fun k hk => Bytes.length_slice_of_le (hbi k hk)
      -- the pieces, also for the instances that do not exist
      let piece : Nat → Bytes := fun k => if k < N then
        Bytes.xor (Bytes.slice input (k * (lo * 4)) (lc * 4)) (Bytes.slice (view N mem k) 0 (lc * 4)) else Bytes.slice (view N mem k) 0 (lc * 4)
      rw [u.strided piece (fun k => ?_) hlo h0 hb (fun k hk p hp r hr => ?_)]
      · exact strided_congr fun k hk => if_pos hk
      · simp only [piece]
        split
        · rename_i hk; rw [Bytes.length_xor, hl, hli k hk, Nat.min_self]
        · exact hl k
      · simp only [piece]
        rw [if_pos hk, getD_xor _ _ _ (by rw [hli k hk]; omega) (by rw [hl]; omega), hpiece mem lc (by omega) k p hp r hr, getD_slice,
          if_pos (by omega), Xoodoo.byteOf_xor, byteOf_wd input _ _ hr]
        have e : k * (lo * 4) = 4 * (k * lo) := by rw [← Nat.mul_assoc, Nat.mul_comm]
        rw [e, Nat.mul_add, Nat.add_assoc]

end Simd32
