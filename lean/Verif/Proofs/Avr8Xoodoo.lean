import Verif.Model.Avr8Xoodoo
import Verif.Proofs.Avr8Keccak
import Verif.Proofs.XoodooArm
import Verif.Proofs.XoodooBytes

/-!
The permutation in the AVR8 assembly of Xoodoo: lemmas.
-/

namespace Avr8.Xoodoo

open _root_.Xoodoo (Lane Lanes)
open XoodooArm (mk mk_eta mk_congr eff theta_mk rhoWest_mk rhoEast_mk chi_mk iota_mk rol_xor rol_rol rol_zero getLsbD_rol)

/-! ## Lanes -/

/-- The byte with an index. -/
def B4.get (v : B4) : Nat → Byte
  | 0 => v.b0 | 1 => v.b1 | 2 => v.b2 | _ => v.b3

/-- The lane in four bytes. -/
def B4.val (v : B4) : Lane := v.b3 ++ (v.b2 ++ (v.b1 ++ v.b0 : BitVec 16) : BitVec 24)

theorem bit_val (v : B4) (i : Nat) (hi : i < 32) : v.val.getLsbD i = (v.get (i / 8)).getLsbD (i % 8) := by
  unfold B4.val
  rw [BitVec.getLsbD_append, BitVec.getLsbD_append, BitVec.getLsbD_append]
  by_cases h1 : i < 8
  · rw [if_pos (by omega), if_pos (by omega), if_pos h1, show i / 8 = 0 by omega, show i % 8 = i by omega]; rfl
  · by_cases h2 : i < 16
    · rw [if_pos (by omega), if_pos (by omega), if_neg h1, show i / 8 = 1 by omega, show i % 8 = i - 8 by omega]; rfl
    · by_cases h3 : i < 24
      · rw [if_pos (by omega), if_neg h2, show i / 8 = 2 by omega, show i % 8 = i - 16 by omega]; rfl
      · rw [if_neg h3, show i / 8 = 3 by omega, show i % 8 = i - 24 by omega]; rfl

theorem val_ext {v : B4} {w : Lane} (h : ∀ k j, k < 4 → j < 8 → (v.get k).getLsbD j = w.getLsbD (8 * k + j)) : v.val = w := by
  apply BitVec.eq_of_getLsbD_eq
  intro i hi
  rw [bit_val _ _ hi, h _ _ (by omega) (by omega), show 8 * (i / 8) + i % 8 = i by omega]

theorem bit_get (v : B4) (k j : Nat) (hk : k < 4) (hj : j < 8) : v.val.getLsbD (8 * k + j) = (v.get k).getLsbD j := by
  rw [bit_val _ _ (by omega), show (8 * k + j) / 8 = k by omega, show (8 * k + j) % 8 = j by omega]

theorem val_eor (v w : B4) : (eor4 v w).val = v.val ^^^ w.val := by
  apply val_ext
  intro k j hk hj
  rw [BitVec.getLsbD_xor, bit_get _ _ _ hk hj, bit_get _ _ _ hk hj, ← BitVec.getLsbD_xor]
  interval_cases k <;> rfl

theorem val_and (v w : B4) : (and4 v w).val = v.val &&& w.val := by
  apply val_ext
  intro k j hk hj
  rw [BitVec.getLsbD_and, bit_get _ _ _ hk hj, bit_get _ _ _ hk hj, ← BitVec.getLsbD_and]
  interval_cases k <;> rfl

theorem val_com (v : B4) : (com4 v).val = ~~~ v.val := by
  apply val_ext
  intro k j hk hj
  have h : ∀ b : Byte, (~~~ b).getLsbD j = !b.getLsbD j := fun b => by rw [BitVec.getLsbD_not]; simp [hj]
  rw [BitVec.getLsbD_not, bit_get _ _ _ hk hj, decide_eq_true (by omega : 8 * k + j < 32), Bool.true_and, ← h]
  interval_cases k <;> rfl

theorem val_up (v : B4) : (up v).val = v.val.rotateLeft 8 := by
  apply val_ext
  intro k j hk hj
  rw [getLsbD_rol _ _ _ (by omega), show (8 * k + j + 32 - 8 % 32) % 32 = 8 * ((k + 3) % 4) + j by omega, bit_get _ _ _ (by omega) hj]
  interval_cases k <;> rfl

theorem up_down (v : B4) : up (down v) = v := rfl

theorem left1_byte (v : B4) (k : Nat) (hk : k < 4) : (left1 v).get k = v.get k <<< 1 ||| (if (v.get ((k + 3) % 4)).getLsbD 7 = true then 1 else 0) := by
  unfold left1 Keccak.rol
  interval_cases k
  · exact Keccak.adc_byte _ _
  all_goals rfl

theorem val_left1 (v : B4) : (left1 v).val = v.val.rotateLeft 1 := by
  apply val_ext
  intro k j hk hj
  rw [getLsbD_rol _ _ _ (by omega), left1_byte _ _ hk, Keccak.bit_left _ _ _ hj]
  split
  · rw [show (8 * k + j + 32 - 1 % 32) % 32 = 8 * ((k + 3) % 4) + 7 by omega, bit_get _ _ _ (by omega) (by omega)]
  · rw [show (8 * k + j + 32 - 1 % 32) % 32 = 8 * k + (j - 1) by omega, bit_get _ _ _ hk (by omega)]

theorem right1_byte (v : B4) (k : Nat) (hk : k < 4) : (right1 v).get k = v.get k >>> 1 ||| (if (v.get ((k + 1) % 4)).getLsbD 0 = true then 0x80 else 0) := by
  unfold right1 Keccak.ror
  interval_cases k
  case «3» => exact Keccak.ror_byte _ _
  all_goals rfl

theorem val_right1 (v : B4) : (right1 v).val = v.val.rotateLeft 31 := by
  apply val_ext
  intro k j hk hj
  rw [getLsbD_rol _ _ _ (by omega), right1_byte _ _ hk, Keccak.bit_right _ _ _ hj]
  split
  · rw [show (8 * k + j + 32 - 31 % 32) % 32 = 8 * ((k + 1) % 4) + 0 by omega, bit_get _ _ _ (by omega) (by omega)]
  · rw [show (8 * k + j + 32 - 31 % 32) % 32 = 8 * k + (j + 1) by omega, bit_get _ _ _ hk (by omega)]

theorem val_effect (c : B4) : (effect c).val = eff c.val := by
  simp only [effect, eff, val_up, val_right1, val_eor, val_left1, rol_xor, rol_rol, Nat.reduceAdd, Nat.reduceMod]
  rw [BitVec.xor_comm]

theorem val_west (a c : B4) : (west a c).val = (a.val ^^^ c.val).rotateLeft 11 := by
  simp only [west, val_up, val_eor, val_left1, rol_rol, Nat.reduceAdd, Nat.reduceMod]

/-! ## Rounds -/

/-- The lanes of the state. -/
def lanes (s : S) : Lanes :=
  mk s.a00.val s.a01.val s.a02.val s.a03.val s.a10.val s.a11.val s.a12.val s.a13.val s.a20.val s.a21.val s.a22.val s.a23.val

/-- The registers hold the parities. -/
def Ready (s : S) (c : C) : Prop :=
  c.c0.val = s.a00.val ^^^ s.a10.val ^^^ s.a20.val ∧ c.c1.val = s.a01.val ^^^ s.a11.val ^^^ s.a21.val ∧ c.c2.val = s.a02.val ^^^ s.a12.val ^^^ s.a22.val ∧
    c.c3.val = s.a03.val ^^^ s.a13.val ^^^ s.a23.val

theorem prepare_ready (s : S) : Ready s (prepare s) := by
  simp only [Ready, prepare, val_eor, and_self]

/-- The lanes with plane 0 in registers. -/
def lanesC (s : S) (c : C) : Lanes :=
  mk c.c0.val c.c1.val c.c2.val c.c3.val s.a10.val s.a11.val s.a12.val s.a13.val s.a20.val s.a21.val s.a22.val s.a23.val

theorem theta_lanes (s : S) (c : C) (h : Ready s c) : lanesC (theta s c).1 (theta s c).2 = _root_.Xoodoo.Ref.rhoWest (_root_.Xoodoo.Ref.theta (lanes s)) := by
  obtain ⟨h0, h1, h2, h3⟩ := h
  rw [lanes, theta_mk, rhoWest_mk, ← h0, ← h1, ← h2, ← h3, lanesC]
  simp only [theta, val_eor, val_effect, val_west]

theorem iota_lanes (k0 k1 : Byte) (s : S) (c : C) : lanesC s (iota k0 k1 c) = _root_.Xoodoo.Ref.iota (B4.mk k0 k1 0 0).val (lanesC s c) := by
  have h : ({ c.c0 with b0 := c.c0.b0 ^^^ k0, b1 := c.c0.b1 ^^^ k1 } : B4) = eor4 c.c0 ⟨k0, k1, 0, 0⟩ := by
    unfold eor4
    simp
  rw [lanesC, lanesC, iota_mk, iota, h, val_eor]

/-- Chi on a column, with the values that were just computed. -/
theorem chi_col (a b c : Lane) :
    ((~~~ c &&& (a ^^^ (~~~ b &&& c))) ^^^ b) = b ^^^ (~~~ c &&& a) ∧
    (((b ^^^ (~~~ c &&& a)) &&& ~~~ (a ^^^ (~~~ b &&& c))) ^^^ c) = c ^^^ (~~~ a &&& b) := by
  refine ⟨?_, ?_⟩ <;>
  · apply BitVec.eq_of_getLsbD_eq
    intro i hi
    simp only [BitVec.getLsbD_xor, BitVec.getLsbD_and, BitVec.getLsbD_not, hi, decide_true, Bool.true_and]
    cases a.getLsbD i <;> cases b.getLsbD i <;> cases c.getLsbD i <;> rfl

theorem chi_col' (a b c : Lane) :
    (b ^^^ (~~~ c &&& (a ^^^ (~~~ b &&& c)))) = b ^^^ (~~~ c &&& a) ∧
    ((~~~ (a ^^^ (~~~ b &&& c)) &&& (b ^^^ (~~~ c &&& a))) ^^^ c) = c ^^^ (~~~ a &&& b) ∧
    (c ^^^ (~~~ (a ^^^ (~~~ b &&& c)) &&& (b ^^^ (~~~ c &&& a)))) = c ^^^ (~~~ a &&& b) := by
  obtain ⟨h1, h2⟩ := chi_col a b c
  refine ⟨by rw [BitVec.xor_comm]; exact h1, by rw [BitVec.and_comm]; exact h2, by rw [BitVec.xor_comm, BitVec.and_comm]; exact h2⟩

/-- The four columns. -/
def chiAll (s : S) (c : C) : S × C :=
  let (s, c) := chi0 s c
  let (s, c) := chi2 s c
  let (s, c, v) := chi1 s c
  chi3 s c v

theorem chi_lanes (s : S) (c : C) : lanes (chiAll s c).1 = _root_.Xoodoo.Ref.rhoEast (_root_.Xoodoo.Ref.chi (lanesC s c)) ∧ Ready (chiAll s c).1 (chiAll s c).2 := by
  have e : lanes (chiAll s c).1 = _root_.Xoodoo.Ref.rhoEast (_root_.Xoodoo.Ref.chi (lanesC s c)) := by
    rw [lanesC, chi_mk, rhoEast_mk, lanes]
    simp only [chiAll, chi0, chi2, chi1, chi3, up_down, val_eor, val_and, val_com, val_up, val_left1, (chi_col _ _ _).1, (chi_col _ _ _).2, (chi_col' _ _ _).1,
      (chi_col' _ _ _).2.1, (chi_col' _ _ _).2.2]
  refine ⟨e, ?_⟩
  simp only [Ready, chiAll, chi0, chi2, chi1, chi3, up_down, val_eor]
  refine ⟨?_, ?_, ?_, ?_⟩
  all_goals first | exact True.intro | (simp only [BitVec.xor_assoc]; done) | ac_rfl

theorem constants_get (i : Nat) (h : i < 26) : constants[i]? = some (constants.getD i 0) := by
  rw [List.getD_eq_getElem?_getD, List.getElem?_eq_getElem (by exact h)]; rfl

/-- The constant of a round. -/
def rc (z : Nat) : Lane := (B4.mk (constants.getD z 0) (constants.getD (z + 1) 0) 0 0).val

theorem round_eq (s : S) (c : C) (z : Nat) (hz : z + 1 < 26) (h : Ready s c) : ∃ s' c', round s c z = some (s', c', z + 2) ∧ Ready s' c' ∧
    lanes s' = _root_.Xoodoo.Ref.round (rc z) (lanes s) := by
  let t := theta s c
  let i := iota (constants.getD z 0) (constants.getD (z + 1) 0) t.2
  obtain ⟨e, r⟩ := chi_lanes t.1 i
  refine ⟨(chiAll t.1 i).1, (chiAll t.1 i).2, ?_, r, ?_⟩
  · unfold round
    simp only [Option.bind_eq_bind]
    rw [constants_get _ (by omega), Option.bind_some, constants_get _ (by omega), Option.bind_some]
    rfl
  · rw [e, iota_lanes, theta_lanes s c h]
    rfl

theorem rc_eq : ∀ i, i < 12 → rc (2 * i) = _root_.Xoodoo.RC.getD i 0 := by decide

theorem last_eq : ∀ i, i < 12 → constants.getD (2 * i) 0 + 1 ≠ 0 := by decide

open KeccakP1600 (loopFrom)

theorem roundLoop_eq (n : Nat) (fuel i : Nat) (hi : i + n = 11) (s : S) (c : C) (h : Ready s c) : ∃ s', roundLoop (fuel + n + 1) s c (2 * i) = some s' ∧
    lanes s' = loopFrom (fun i a => _root_.Xoodoo.Ref.round (_root_.Xoodoo.RC.getD i 0) a) i (n + 1) (lanes s) := by
  induction n generalizing i s c with
  | zero =>
    obtain ⟨s1, c1, e1, -, l1⟩ := round_eq s c (2 * i) (by omega) h
    refine ⟨s1, ?_, ?_⟩
    · rw [roundLoop, e1]
      obtain rfl : i = 11 := by omega
      rfl
    · rw [l1, rc_eq _ (by omega)]; rfl
  | succ n ih =>
    obtain ⟨s1, c1, e1, h1, l1⟩ := round_eq s c (2 * i) (by omega) h
    obtain ⟨s2, e2, l2⟩ := ih (i + 1) (by omega) s1 c1 h1
    refine ⟨s2, ?_, ?_⟩
    · rw [← Nat.add_assoc, roundLoop, e1]
      show (constants[2 * i + 2]?).bind _ = _
      rw [constants_get _ (by omega), Option.bind_some, if_neg (by exact last_eq (i + 1) (by omega))]
      exact e2
    · rw [l2, l1, rc_eq _ (by omega)]; rfl

theorem permute_eq (s : S) (n : Nat) (h0 : 0 < n) (h : n ≤ 12) : ∃ s', permute s (24 - 2 * n) = some s' ∧ lanes s' = _root_.Xoodoo.Ref.onWords n (lanes s) := by
  obtain ⟨s2, e2, l2⟩ := roundLoop_eq (n - 1) (256 - n) (12 - n) (by omega) s _ (prepare_ready s)
  refine ⟨s2, ?_, ?_⟩
  · unfold permute
    rw [show 256 = 256 - n + (n - 1) + 1 by omega, show 24 - 2 * n = 2 * (12 - n) by omega]
    exact e2
  · rw [l2, show n - 1 + 1 = n by omega, _root_.Xoodoo.Ref.onWords, if_pos h]

theorem permuteNrounds_eq (s : S) (n : BitVec 16) (h0 : 0 < n.toNat) (h : n.toNat ≤ 12) : ∃ s', permuteNrounds s n = some s' ∧
    lanes s' = _root_.Xoodoo.Ref.onWords n.toNat (lanes s) := by
  obtain ⟨s', e, l⟩ := permute_eq s n.toNat h0 h
  refine ⟨s', ?_, l⟩
  have e1 : (n.setWidth 8 <<< 1 : Byte).toNat = 2 * n.toNat := by
    simp only [BitVec.toNat_shiftLeft, BitVec.toNat_setWidth, Nat.shiftLeft_eq]
    omega
  unfold permuteNrounds
  dsimp only
  rw [e1, if_pos (by omega), e]

theorem permute_zero (s : S) : permuteNrounds s 0 = none := by
  obtain ⟨s1, c1, e1, -⟩ := round_eq s _ 24 (by omega) (prepare_ready s)
  show roundLoop (255 + 1) s (prepare s) 24 = none
  rw [roundLoop, e1]
  rfl

/-! ## Bytes -/

theorem bytesOfWord_val (v : B4) : _root_.Xoodoo.bytesOfWord v.val = [v.b0, v.b1, v.b2, v.b3] := by
  have h : ∀ k, k < 4 → ((v.val >>> (8 * k)) &&& 0xFF).setWidth 8 = v.get k := by
    intro k hk
    apply BitVec.eq_of_getLsbD_eq
    intro j hj
    have h255 : ∀ j : Fin 8, (0xFF : Lane).getLsbD j.val = true := by decide
    rw [← bit_get _ _ _ hk hj]
    simp only [BitVec.getLsbD_setWidth, hj, decide_true, Bool.true_and, BitVec.getLsbD_and, BitVec.getLsbD_ushiftRight, h255 ⟨j, hj⟩, Bool.and_true]
  show [((v.val >>> (8 * 0)) &&& 0xFF).setWidth 8, ((v.val >>> (8 * 1)) &&& 0xFF).setWidth 8, ((v.val >>> (8 * 2)) &&& 0xFF).setWidth 8,
    ((v.val >>> (8 * 3)) &&& 0xFF).setWidth 8] = _
  rw [h 0 (by decide), h 1 (by decide), h 2 (by decide), h 3 (by decide)]
  rfl

theorem bytes_lanes (s : S) : bytes s = _root_.Xoodoo.bytesOfLanes (lanes s) := by
  have : _root_.Xoodoo.bytesOfLanes (lanes s) = [s.a00, s.a01, s.a02, s.a03, s.a10, s.a11, s.a12, s.a13, s.a20, s.a21, s.a22, s.a23].flatMap
      fun r => _root_.Xoodoo.bytesOfWord r.val := rfl
  rw [this, bytes]
  congr 1
  funext v
  rw [bytesOfWord_val]

theorem bytes_ofBytes (s : Bytes) (hs : s.length = 48) : bytes (ofBytes s) = s := by
  apply List.ext_getElem?
  intro i
  by_cases h : i < 48
  · have e : ∀ i, i < 48 → (bytes (ofBytes s))[i]? = some (s.getD i 0) := by
      intro i hi
      interval_cases i <;> rfl
    rw [e i h, List.getD_eq_getElem?_getD, List.getElem?_eq_getElem (by omega)]
    rfl
  · rw [List.getElem?_eq_none (by show 48 ≤ i; omega), List.getElem?_eq_none (by omega)]

theorem lanes_ofBytes (s : Bytes) (hs : s.length = 48) : lanes (ofBytes s) = _root_.Xoodoo.lanesOfBytes s := by
  conv_rhs => rw [← bytes_ofBytes s hs, bytes_lanes, _root_.Xoodoo.lanesOfBytes_bytesOfLanes]

end Avr8.Xoodoo
