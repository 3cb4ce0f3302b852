import Verif.Model.Avr8Keccak
import Verif.Proofs.KeccakAvx512Rounds
import Verif.Proofs.LaneBytes

/-!
The permutation in the compact AVR8 assembly of Keccak-p[1600]: lemmas.
-/

namespace Avr8.Keccak

open KeccakP1600 (Lane Lanes byteOf wordOfBytes getLsbD_byteOf byte_ext lane_ext byteOf_xor byteOf_not lane forall_fin25 rstep put)
open KeccakP1600.Ref (rol64)
open Avx512Asm (col)

theorem rep_seq {σ : Type} (body : σ → Option σ) (n : Nat) (f : Nat → σ) (h : ∀ i, i < n → body (f i) = some (f (i + 1))) :
    rep body n (f 0) = some (f n) := by
  induction n generalizing f with
  | zero => rfl
  | succ n ih =>
    rw [rep, h 0 (by omega), Option.bind_eq_bind, Option.bind_some]
    exact ih (fun i => f (i + 1)) fun i hi => h (i + 1) (by omega)

/-! ## Rotation -/

theorem bit_rol64 (w : Lane) (o z : Nat) (ho : o < 64) (hz : z < 64) : (rol64 w o).getLsbD z = w.getLsbD ((64 - o + z) % 64) := by
  have := KeccakP1600.getLsbD_rol64 w o ho ⟨z, hz⟩
  rw [this]
  congr 1
  simp [Fin.sub_def, Fin.ofNat, Nat.mod_eq_of_lt ho]

theorem rol64_rol64 (w : Lane) (a b : Nat) (ha : a < 64) (hb : b < 64) : rol64 (rol64 w a) b = rol64 w ((a + b) % 64) := by
  apply BitVec.eq_of_getLsbD_eq
  intro i hi
  rw [bit_rol64 _ _ _ hb hi, bit_rol64 _ _ _ ha (Nat.mod_lt _ (by decide)), bit_rol64 _ _ _ (Nat.mod_lt _ (by decide)) hi]
  congr 1
  omega

/-- The registers hold the lane. -/
def Holds (t : Nat → Byte) (w : Lane) : Prop := ∀ k, k < 8 → t k = byteOf w k

theorem adc_byte : ∀ (r : Byte) (c : Bool), (r <<< 1 ||| (if false = true then (1 : Byte) else (0 : Byte))) + (if c = true then (1 : Byte) else (0 : Byte)) =
    r <<< 1 ||| (if c = true then (1 : Byte) else (0 : Byte)) := by
  decide

theorem left1_byte (t : Nat → Byte) : ∀ k, k < 8 → left1 t k = t k <<< 1 ||| (if (t ((k + 7) % 8)).getLsbD 7 = true then 1 else 0) := by
  intro k hk
  unfold left1 rol
  interval_cases k
  · exact adc_byte _ _
  all_goals rfl

theorem bit_left (r : Byte) (c : Bool) (j : Nat) (hj : j < 8) :
    (r <<< 1 ||| (if c = true then 1 else 0)).getLsbD j = if j = 0 then c else r.getLsbD (j - 1) := by
  interval_cases j <;> cases c <;> simp

theorem left1_holds (t : Nat → Byte) (w : Lane) (h : Holds t w) : Holds (left1 t) (rol64 w 1) := by
  intro k hk
  rw [left1_byte t k hk, h k hk, h _ (Nat.mod_lt _ (by decide))]
  apply byte_ext
  intro j hj
  rw [bit_left _ _ _ hj, getLsbD_byteOf _ _ _ hj, getLsbD_byteOf _ _ _ (by decide), bit_rol64 _ _ _ (by decide) (by omega)]
  split
  · congr 1; omega
  · rw [getLsbD_byteOf _ _ _ (by omega)]; congr 1; omega

theorem ror_byte : ∀ (r : Byte) (c : Bool), (r >>> 1 ||| (if false = true then (0x80 : Byte) else (0 : Byte))) &&& 0x7F ||| (if c = true then (0x80 : Byte) else (0 : Byte)) =
    r >>> 1 ||| (if c = true then (0x80 : Byte) else (0 : Byte)) := by
  decide

theorem right1_byte (t : Nat → Byte) : ∀ k, k < 8 → right1 t k = t k >>> 1 ||| (if (t ((k + 1) % 8)).getLsbD 0 = true then 0x80 else 0) := by
  intro k hk
  unfold right1 ror
  interval_cases k
  case «7» => exact ror_byte _ _
  all_goals rfl

theorem bit_right (r : Byte) (c : Bool) (j : Nat) (hj : j < 8) :
    (r >>> 1 ||| (if c = true then 0x80 else 0)).getLsbD j = if j = 7 then c else r.getLsbD (j + 1) := by
  interval_cases j <;> cases c <;> simp

theorem right1_holds (t : Nat → Byte) (w : Lane) (h : Holds t w) : Holds (right1 t) (rol64 w 63) := by
  intro k hk
  rw [right1_byte t k hk, h k hk, h _ (Nat.mod_lt _ (by decide))]
  apply byte_ext
  intro j hj
  rw [bit_right _ _ _ hj, getLsbD_byteOf _ _ _ hj, getLsbD_byteOf _ _ _ (by decide), bit_rol64 _ _ _ (by decide) (by omega)]
  split
  · congr 1; omega
  · rw [getLsbD_byteOf _ _ _ (by omega)]; congr 1; omega

/-- The rotation that the counter `n` stands for. -/
def amount (n : Nat) : Nat := if n < 5 then n else 56 + n

theorem repeat_holds (f : (Nat → Byte) → Nat → Byte) (o : Nat) (ho : o < 64) (hf : ∀ t w, Holds t w → Holds (f t) (rol64 w o)) (n : Nat) (t : Nat → Byte) (w : Lane)
    (h : Holds t w) : Holds (Nat.repeat f n t) (rol64 w (n * o % 64)) := by
  induction n with
  | zero => rw [Nat.zero_mul]; exact h
  | succ n ih =>
    have := hf _ _ ih
    rw [rol64_rol64 _ _ _ (Nat.mod_lt _ (by decide)) ho, show (n * o % 64 + o) % 64 = (n + 1) * o % 64 by rw [Nat.succ_mul]; omega] at this
    exact this

theorem bitRot_holds (n : Nat) (hn : n < 8) (t : Nat → Byte) (w : Lane) (h : Holds t w) : Holds (bitRot (BitVec.ofNat 8 n) t) (rol64 w (amount n)) := by
  have l := fun n => repeat_holds left1 1 (by decide) left1_holds n t w h
  have r := fun n => repeat_holds right1 63 (by decide) right1_holds n t w h
  interval_cases n
  · exact l 0
  · exact l 1
  · exact l 2
  · exact l 3
  · exact l 4
  · exact r 3
  · exact r 2
  · exact r 1

/-! ## Lanes in memory -/

/-- The lane with the given bytes. -/
def word (f : Nat → Byte) : Lane := wordOfBytes ((List.range 8).map f)

theorem byteOf_word (f : Nat → Byte) (k : Nat) (hk : k < 8) : byteOf (word f) k = f k := by
  rw [word, KeccakP1600.byteOf_wordOfBytes _ _ hk, List.getD_eq_getElem?_getD, List.getElem?_map, List.getElem?_range hk]; rfl

/-- The lanes of the state. -/
def L (m : M) : Lanes := fun j => word fun k => m.a (8 * j.val + k)

/-- The lanes `C`. -/
def K (m : M) : Fin 5 → Lane := fun x => word fun k => m.c (8 * x.val + k)

/-- Theta is prepared. -/
def Ready (m : M) : Prop := ∀ x, K m x = col (L m) x

theorem byteOf_L (m : M) (j : Fin 25) (k : Nat) (hk : k < 8) : byteOf (L m j) k = m.a (8 * j.val + k) := byteOf_word _ _ hk

theorem byteOf_K (m : M) (x : Fin 5) (k : Nat) (hk : k < 8) : byteOf (K m x) k = m.c (8 * x.val + k) := byteOf_word _ _ hk

theorem byteOf_and (v w : Lane) (k : Nat) : byteOf (v &&& w) k = byteOf v k &&& byteOf w k := by
  apply byte_ext; intro t ht
  simp [getLsbD_byteOf _ _ _ ht]

theorem ldA_of (m : M) (i : Nat) (h : i < 200) : ldA m i = some (m.a i) := if_pos h
theorem ldC_of (m : M) (i : Nat) (h : i < 40) : ldC m i = some (m.c i) := if_pos h
theorem stA_of (m : M) (i : Nat) (r : Byte) (h : i < 200) : stA m i r = some ⟨fun j => if j = i then r else m.a j, m.c⟩ := if_pos h
theorem stC_of (m : M) (i : Nat) (r : Byte) (h : i < 40) : stC m i r = some ⟨m.a, fun j => if j = i then r else m.c j⟩ := if_pos h

/-! ## The first parities -/

theorem prepOne_eq (m : M) (i : Nat) (hi : i < 40) :
    prepOne (m, i, i) = some (⟨m.a, fun j => if j = i then m.a i ^^^ m.a (i + 40) ^^^ m.a (i + 80) ^^^ m.a (i + 120) ^^^ m.a (i + 160) else m.c j⟩, i + 1, i + 1) := by
  unfold prepOne
  simp only [Option.bind_eq_bind]
  rw [ldA_of _ _ (by omega), Option.bind_some, ldA_of _ _ (by omega), Option.bind_some, ldA_of _ _ (by omega), Option.bind_some, ldA_of _ _ (by omega), Option.bind_some,
    ldA_of _ _ (by omega), Option.bind_some, stC_of _ _ _ hi, Option.bind_some, show i + 40 + 40 + 40 - 119 = i + 1 by omega]

theorem prep_eq (m : M) : ∃ m', rep prepOne 40 (m, 0, 0) = some (m', 40, 40) ∧ m'.a = m.a ∧ Ready m' := by
  let g : Nat → Byte := fun i => m.a i ^^^ m.a (i + 40) ^^^ m.a (i + 80) ^^^ m.a (i + 120) ^^^ m.a (i + 160)
  have h := rep_seq prepOne 40 (fun i => ((⟨m.a, fun j => if j < i then g j else m.c j⟩ : M), i, i)) fun i hi => by
    rw [prepOne_eq _ _ hi]
    congr 3
    funext j
    by_cases e : j = i
    · subst e; simp [g]
    · have : j < i + 1 ↔ j < i := by omega
      simp [e, this]
  refine ⟨_, h, rfl, fun x => ?_⟩
  apply lane_ext
  intro k hk
  rw [byteOf_K _ _ _ hk]
  simp only [col, byteOf_xor, byteOf_L _ _ _ hk]
  have hx := x.isLt
  show (if 8 * x.val + k < 40 then g (8 * x.val + k) else _) = _
  rw [if_pos (by omega)]
  have e : ∀ y : Fin 5, m.a (8 * (lane x y).val + k) = m.a (8 * x.val + k + 40 * y.val) := fun y => congrArg _ (by simp only [lane]; omega)
  simp only [e]
  rfl

/-! ## Theta -/

theorem load8C_eq (m : M) (x : Fin 5) : ∃ t, load8C m (8 * x.val) = some t ∧ Holds t (K m x) := by
  have hx := x.isLt
  refine ⟨fun i => [m.c (8 * x.val), m.c (8 * x.val + 1), m.c (8 * x.val + 2), m.c (8 * x.val + 3), m.c (8 * x.val + 4), m.c (8 * x.val + 5), m.c (8 * x.val + 6),
    m.c (8 * x.val + 7)].getD i 0, ?_, ?_⟩
  · unfold load8C
    simp only [Option.bind_eq_bind]
    rw [ldC_of _ _ (by omega), Option.bind_some, ldC_of _ _ (by omega), Option.bind_some, ldC_of _ _ (by omega), Option.bind_some, ldC_of _ _ (by omega), Option.bind_some,
      ldC_of _ _ (by omega), Option.bind_some, ldC_of _ _ (by omega), Option.bind_some, ldC_of _ _ (by omega), Option.bind_some, ldC_of _ _ (by omega), Option.bind_some]
  · intro k hk
    rw [byteOf_K _ _ _ hk]
    interval_cases k <;> rfl

theorem xorOne_eq (t : Byte) (m : M) (y : Nat) (h : y < 200) : xorOne t m y = some ⟨fun j => if j = y then m.a y ^^^ t else m.a j, m.c⟩ := by
  unfold xorOne
  rw [ldA_of _ _ h, Option.bind_eq_bind, Option.bind_some, stA_of _ _ _ h]

theorem xorLane_eq (t : Nat → Byte) (m : M) (y : Nat) (h : y + 7 < 200) :
    xorLane t (m, y) = some (⟨fun j => if y ≤ j ∧ j < y + 8 then m.a j ^^^ t (j - y) else m.a j, m.c⟩, y + 40) := by
  unfold xorLane
  simp only [Option.bind_eq_bind]
  rw [xorOne_eq _ _ _ (by omega), Option.bind_some, xorOne_eq _ _ _ (by omega), Option.bind_some, xorOne_eq _ _ _ (by omega), Option.bind_some,
    xorOne_eq _ _ _ (by omega), Option.bind_some, xorOne_eq _ _ _ (by omega), Option.bind_some, xorOne_eq _ _ _ (by omega), Option.bind_some,
    xorOne_eq _ _ _ (by omega), Option.bind_some, xorOne_eq _ _ _ (by omega), Option.bind_some]
  congr 3
  funext j
  by_cases hj : y ≤ j ∧ j < y + 8
  · rw [if_pos hj]
    obtain ⟨k, hk, rfl⟩ : ∃ k, k < 8 ∧ j = y + k := ⟨j - y, by omega, by omega⟩
    rw [Nat.add_sub_cancel_left]
    interval_cases k <;> simp
  · dsimp only
    rw [if_neg hj, if_neg (by omega), if_neg (by omega), if_neg (by omega), if_neg (by omega), if_neg (by omega), if_neg (by omega), if_neg (by omega), if_neg (by omega)]

theorem xorLanes_eq (t : Nat → Byte) (m : M) (x : Fin 5) :
    rep (xorLane t) 5 (m, 8 * x.val) = some (⟨fun j => if j / 8 % 5 = x.val ∧ j < 200 then m.a j ^^^ t (j % 8) else m.a j, m.c⟩, 8 * x.val + 200) := by
  have hx := x.isLt
  have h := rep_seq (xorLane t) 5 (fun i => ((⟨fun j => if j / 8 % 5 = x.val ∧ j < 40 * i then m.a j ^^^ t (j % 8) else m.a j, m.c⟩ : M), 8 * x.val + 40 * i)) fun i hi => by
    rw [xorLane_eq _ _ _ (by omega), show 8 * x.val + 40 * i + 40 = 8 * x.val + 40 * (i + 1) by omega]
    congr 3
    funext j
    dsimp only
    by_cases hj : 8 * x.val + 40 * i ≤ j ∧ j < 8 * x.val + 40 * i + 8
    · rw [if_pos hj, if_neg (by omega), if_pos (by omega), show j - (8 * x.val + 40 * i) = j % 8 by omega]
    · rw [if_neg hj]
      by_cases hk : j / 8 % 5 = x.val ∧ j < 40 * i
      · rw [if_pos hk, if_pos (by omega)]
      · rw [if_neg hk, if_neg (by omega)]
  simp only [Nat.mul_zero, Nat.not_lt_zero, and_false, if_false, Nat.add_zero] at h
  exact h

theorem lane_div (x y : Fin 5) (k : Nat) (hk : k < 8) : (8 * (lane x y).val + k) / 8 % 5 = x.val ∧ 8 * (lane x y).val + k < 200 ∧ (8 * (lane x y).val + k) % 8 = k := by
  have hx := x.isLt
  have hy := y.isLt
  simp only [lane]
  omega

theorem thetaLane_eq (m : M) (p z x : Fin 5) : ∃ m', thetaLane m (8 * p.val) (8 * z.val) (8 * x.val) = some (m', 8 * x.val + 8) ∧ K m' = K m ∧
    ∀ x' y, L m' (lane x' y) = if x' = x then L m (lane x' y) ^^^ (rol64 (K m p) 1 ^^^ K m z) else L m (lane x' y) := by
  obtain ⟨t, e1, h1⟩ := load8C_eq m p
  obtain ⟨u, e2, h2⟩ := load8C_eq m z
  have h1 := left1_holds t _ h1
  refine ⟨⟨fun j => if j / 8 % 5 = x.val ∧ j < 200 then m.a j ^^^ (left1 t (j % 8) ^^^ u (j % 8)) else m.a j, m.c⟩, ?_, rfl, ?_⟩
  · unfold thetaLane
    simp only [Option.bind_eq_bind]
    rw [e1, Option.bind_some, e2, Option.bind_some, xorLanes_eq, Option.bind_some]
    simp only [show 8 * x.val + 200 - 192 = 8 * x.val + 8 by omega]
  · intro x' y
    apply lane_ext
    intro k hk
    obtain ⟨l1, l2, l3⟩ := lane_div x' y k hk
    rw [byteOf_L _ _ _ hk]
    dsimp only
    by_cases hx : x' = x
    · rw [if_pos ⟨by rw [l1, hx], l2⟩, if_pos hx, byteOf_xor, byteOf_xor, byteOf_L _ _ _ hk, ← h1 k hk, ← h2 k hk, l3]
    · rw [if_neg (by rw [l1]; intro h; exact hx (Fin.ext h.1)), if_neg hx, byteOf_L _ _ _ hk]

theorem thetaLoop_step (n c : Nat) (m : M) (x z y : Nat) (m' : M) (y' : Nat) (e : thetaLane m x z y = some (m', y')) : thetaLoop (n + 1) c m x z y =
    if c % 2 = 0 then (if c / 2 = 0x0B then thetaLoop n (c / 2) m' (x + 8) (z + 8 - 40) y' else thetaLoop n (c / 2) m' (x + 8 - 40) (z + 8) y')
    else if c / 2 = 0 then some (m', y') else thetaLoop n (c / 2) m' (x + 8) (z + 8) y' := by
  rw [thetaLoop, e]
  rfl

theorem theta_fuel (n : Nat) (m : M) : ∃ m', thetaLoop (n + 5) 0x16 m 8 32 0 = some (m', 40) ∧
    ∀ x y, L m' (lane x y) = L m (lane x y) ^^^ (rol64 (K m (x + 1)) 1 ^^^ K m (x + 4)) := by
  obtain ⟨m0, e0, k0, l0⟩ := thetaLane_eq m 1 4 0
  obtain ⟨m1, e1, k1, l1⟩ := thetaLane_eq m0 2 0 1
  obtain ⟨m2, e2, k2, l2⟩ := thetaLane_eq m1 3 1 2
  obtain ⟨m3, e3, k3, l3⟩ := thetaLane_eq m2 4 2 3
  obtain ⟨m4, e4, k4, l4⟩ := thetaLane_eq m3 0 3 4
  replace e0 : thetaLane m 8 32 0 = some (m0, 8) := e0
  replace e1 : thetaLane m0 16 0 8 = some (m1, 16) := e1
  replace e2 : thetaLane m1 24 8 16 = some (m2, 24) := e2
  replace e3 : thetaLane m2 32 16 24 = some (m3, 32) := e3
  replace e4 : thetaLane m3 0 24 32 = some (m4, 40) := e4
  refine ⟨m4, ?_, ?_⟩
  · refine (thetaLoop_step (n + 4) _ _ _ _ _ _ _ e0).trans ?_
    refine (if_pos (by decide)).trans ((if_pos (by decide)).trans ?_)
    refine (thetaLoop_step (n + 3) _ _ _ _ _ _ _ e1).trans ?_
    refine (if_neg (by decide)).trans ((if_neg (by decide)).trans ?_)
    refine (thetaLoop_step (n + 2) _ _ _ _ _ _ _ e2).trans ?_
    refine (if_neg (by decide)).trans ((if_neg (by decide)).trans ?_)
    refine (thetaLoop_step (n + 1) _ _ _ _ _ _ _ e3).trans ?_
    refine (if_pos (by decide)).trans ((if_neg (by decide)).trans ?_)
    refine (thetaLoop_step n _ _ _ _ _ _ _ e4).trans ?_
    exact (if_neg (by decide)).trans (if_pos (by decide))
  · intro x y
    rw [l4, l3, l2, l1, l0, k3, k2, k1, k0]
    fin_cases x <;> rfl

theorem theta_eq (m : M) : ∃ m', thetaLoop 256 0x16 m 8 32 0 = some (m', 40) ∧
    ∀ x y, L m' (lane x y) = L m (lane x y) ^^^ (rol64 (K m (x + 1)) 1 ^^^ K m (x + 4)) := theta_fuel 251 m

/-! ## Rho and pi -/

theorem load8A_eq (m : M) (j : Fin 25) : ∃ t, load8A m (8 * j.val) = some t ∧ Holds t (L m j) := by
  have hx := j.isLt
  refine ⟨fun i => [m.a (8 * j.val), m.a (8 * j.val + 1), m.a (8 * j.val + 2), m.a (8 * j.val + 3), m.a (8 * j.val + 4), m.a (8 * j.val + 5), m.a (8 * j.val + 6),
    m.a (8 * j.val + 7)].getD i 0, ?_, ?_⟩
  · unfold load8A
    simp only [Option.bind_eq_bind]
    rw [ldA_of _ _ (by omega), Option.bind_some, ldA_of _ _ (by omega), Option.bind_some, ldA_of _ _ (by omega), Option.bind_some, ldA_of _ _ (by omega), Option.bind_some,
      ldA_of _ _ (by omega), Option.bind_some, ldA_of _ _ (by omega), Option.bind_some, ldA_of _ _ (by omega), Option.bind_some, ldA_of _ _ (by omega), Option.bind_some]
  · intro k hk
    rw [byteOf_L _ _ _ hk]
    interval_cases k <;> rfl

theorem store8A_eq (m : M) (j : Fin 25) (t : Nat → Byte) (w : Lane) (h : Holds t w) : ∃ m', store8A m (8 * j.val) t = some m' ∧ L m' = put (L m) j w := by
  have hj := j.isLt
  refine ⟨⟨fun i => if 8 * j.val ≤ i ∧ i < 8 * j.val + 8 then t (i - 8 * j.val) else m.a i, m.c⟩, ?_, ?_⟩
  · unfold store8A
    simp only [Option.bind_eq_bind]
    rw [stA_of _ _ _ (by omega), Option.bind_some, stA_of _ _ _ (by omega), Option.bind_some, stA_of _ _ _ (by omega), Option.bind_some, stA_of _ _ _ (by omega),
      Option.bind_some, stA_of _ _ _ (by omega), Option.bind_some, stA_of _ _ _ (by omega), Option.bind_some, stA_of _ _ _ (by omega), Option.bind_some,
      stA_of _ _ _ (by omega)]
    congr 2
    funext i
    dsimp only
    by_cases hi : 8 * j.val ≤ i ∧ i < 8 * j.val + 8
    · rw [if_pos hi]
      obtain ⟨k, hk, rfl⟩ : ∃ k, k < 8 ∧ i = 8 * j.val + k := ⟨i - 8 * j.val, by omega, by omega⟩
      rw [Nat.add_sub_cancel_left]
      interval_cases k <;> simp
    · rw [if_neg hi, if_neg (by omega), if_neg (by omega), if_neg (by omega), if_neg (by omega), if_neg (by omega), if_neg (by omega), if_neg (by omega), if_neg (by omega)]
  · funext i
    apply lane_ext
    intro k hk
    rw [byteOf_L _ _ _ hk, put]
    dsimp only
    by_cases e : i = j
    · subst e
      rw [if_pos (by omega), if_pos rfl, ← h k hk, Nat.add_sub_cancel_left]
    · have : i.val ≠ j.val := fun h => e (Fin.ext h)
      rw [if_neg e, byteOf_L _ _ _ hk, if_neg (by omega)]

theorem bytes_eq (m : M) (j : Fin 25) (n : Nat) (hn : n < 8) (b : Nat → Byte) : ∃ b', rep (byteOne m) 8 (b, n, 8 * j.val) = some (b', n, 8 * j.val + 8) ∧
    Holds b' (rol64 (L m j) (8 * n)) := by
  have hj := j.isLt
  have h := rep_seq (byteOne m) 8 (fun i => ((fun k => if k < 8 ∧ (k + 8 - n) % 8 < i then m.a (8 * j.val + (k + 8 - n) % 8) else b k), (n + i) % 8, 8 * j.val + i)) fun i hi => by
    unfold byteOne
    simp only [Option.bind_eq_bind]
    rw [ldA_of _ _ (by omega), Option.bind_some, if_neg (by omega)]
    congr 2
    · funext k
      by_cases e : k = (n + i) % 8
      · rw [if_pos e, if_pos (by omega), show (k + 8 - n) % 8 = i by omega]
      · rw [if_neg e]
        by_cases e2 : k < 8 ∧ (k + 8 - n) % 8 < i
        · rw [if_pos e2, if_pos (by omega)]
        · rw [if_neg e2, if_neg (by omega)]
    · congr 1
      split <;> omega
  simp only [Nat.not_lt_zero, and_false, if_false, Nat.add_zero, Nat.mod_eq_of_lt hn] at h
  rw [show (n + 8) % 8 = n by omega] at h
  refine ⟨_, h, fun k hk => ?_⟩
  rw [if_pos (by omega), ← byteOf_L _ _ _ (Nat.mod_lt _ (by decide))]
  apply byte_ext
  intro t ht
  rw [getLsbD_byteOf _ _ _ ht, getLsbD_byteOf _ _ _ ht, bit_rol64 _ _ _ (by omega) (by omega)]
  congr 1
  omega

/-- A row of the table, with numbers: rotation by bits, rotation by bytes of the next lane, lane. -/
abbrev Row := Nat × Nat × Fin 25

def Row.ok (r : Row) : Prop := r.1 < 8 ∧ r.2.1 < 8

instance : DecidablePred Row.ok := fun _ => inferInstanceAs (Decidable (_ ∧ _))

def Row.toRow (r : Row) : Byte × Nat × Nat := (BitVec.ofNat 8 r.1, r.2.1, r.2.2.val * 8)

/-- The loop on lanes. -/
def lanesLoop : List Row → Lanes → Lane → Lanes
  | [], A, _ => A
  | r :: l, A, w => lanesLoop l (put A r.2.2 (rol64 w (amount r.1))) (rol64 (A r.2.2) (8 * r.2.1))

theorem rhoPiOne_eq (r : Row) (hr : r.ok) (m : M) (t b : Nat → Byte) (w : Lane) (h : Holds t w) : ∃ m' b', rhoPiOne r.toRow m t b = some (m', b') ∧
    L m' = put (L m) r.2.2 (rol64 w (amount r.1)) ∧ Holds b' (rol64 (L m r.2.2) (8 * r.2.1)) := by
  obtain ⟨b', e1, h1⟩ := bytes_eq m r.2.2 r.2.1 hr.2 b
  obtain ⟨m', e2, h2⟩ := store8A_eq m r.2.2 _ _ (bitRot_holds r.1 hr.1 t w h)
  refine ⟨m', b', ?_, h2, h1⟩
  unfold rhoPiOne Row.toRow
  simp only [Option.bind_eq_bind]
  rw [Nat.mul_comm r.2.2.val 8, e1, Option.bind_some]
  simp only [Nat.add_sub_cancel]
  rw [e2]
  rfl

theorem rhoPiLoop_eq (l : List Row) (r : Row) (hl : ∀ q ∈ l ++ [r], Row.ok q) (h1 : ∀ r ∈ l, 1 < r.2.2.val) (hr : r.2.2.val = 1) (m : M) (t b : Nat → Byte) (w : Lane) (h : Holds t w) :
    ∃ m', rhoPiLoop ((l ++ [r]).map Row.toRow) m t b = some m' ∧ L m' = lanesLoop (l ++ [r]) (L m) w := by
  induction l generalizing m t b w with
  | nil =>
    obtain ⟨m', b', e, g, -⟩ := rhoPiOne_eq r (hl r (by simp)) m t b w h
    refine ⟨m', ?_, g⟩
    rw [List.nil_append, List.map_cons, rhoPiLoop, e]
    exact if_pos (by show r.2.2.val * 8 - 8 = 0; rw [hr])
  | cons q l ih =>
    obtain ⟨m', b', e, g, g2⟩ := rhoPiOne_eq q (hl q (by simp)) m t b w h
    obtain ⟨m2, e2, g3⟩ := ih (fun r hr => hl r (by simp only [List.cons_append, List.mem_cons]; exact Or.inr hr)) (fun r hr => h1 r (List.mem_cons_of_mem _ hr)) m' b' b' _ g2
    have hq := h1 q (by simp)
    refine ⟨m2, ?_, ?_⟩
    · rw [List.cons_append, List.map_cons, rhoPiLoop, e]
      exact (if_neg (by show ¬ q.2.2.val * 8 - 8 = 0; omega)).trans e2
    · rw [g3, g]; rfl

def mk (a b : Nat) (i : Fin 25) : Row := (rotBit a, rotByte b, i)

/-- The rows except for the last. -/
def rows : List Row :=
  [mk 1 3 10, mk 3 6 7, mk 6 10 11, mk 10 15 17, mk 15 21 18, mk 21 28 3, mk 28 36 5, mk 36 45 16, mk 45 55 8, mk 55 2 21, mk 2 14 24, mk 14 27 4, mk 27 41 15, mk 41 56 23,
    mk 56 8 19, mk 8 25 13, mk 25 43 12, mk 43 62 2, mk 62 18 20, mk 18 39 14, mk 39 61 22, mk 61 20 9, mk 20 44 6]

theorem rows_eq : (rows ++ [mk 44 1 1]).map Row.toRow = rhoPiConstants := rfl

/-- Where the loop takes a lane from, and by how much it rotates it. -/
def walk : List Row → Fin 25 → Nat → Fin 25 → Fin 25 × Nat
  | [], _, _, j => (j, 0)
  | r :: l, s, c, j => if j = r.2.2 then (s, (c + amount r.1) % 64) else walk l r.2.2 (8 * r.2.1) j

theorem lanesLoop_put (l : List Row) (A : Lanes) (d : Fin 25) (v w : Lane) (j : Fin 25) (h : ∀ r ∈ l, r.2.2 ≠ d) :
    lanesLoop l (put A d v) w j = if j = d then v else lanesLoop l A w j := by
  induction l generalizing A w with
  | nil => rfl
  | cons r l ih =>
    have hr := h r (by simp)
    rw [lanesLoop, lanesLoop]
    have e : put (put A d v) r.2.2 (rol64 w (amount r.1)) = put (put A r.2.2 (rol64 w (amount r.1))) d v := by
      funext i
      unfold put
      by_cases h1 : i = r.2.2
      · subst h1; simp [hr]
      · simp [h1]
    rw [e, ih _ _ fun r hr => h r (List.mem_cons_of_mem _ hr)]
    rw [show put A d v r.2.2 = A r.2.2 from if_neg hr]

theorem amount_lt (n : Nat) (h : n < 8) : amount n < 64 := by unfold amount; split <;> omega

theorem lanesLoop_walk (l : List Row) (A : Lanes) (s : Fin 25) (c : Nat) (hc : c < 64) (j : Fin 25) (hl : ∀ r ∈ l, Row.ok r) (hd : (l.map fun r => r.2.2).Nodup) :
    lanesLoop l A (rol64 (A s) c) j = rol64 (A (walk l s c j).1) (walk l s c j).2 := by
  induction l generalizing s c with
  | nil => rfl
  | cons r l ih =>
    have hr := hl r (by simp)
    rw [List.map_cons, List.nodup_cons] at hd
    rw [lanesLoop, walk, lanesLoop_put _ _ _ _ _ _ fun q hq h => hd.1 (List.mem_map.2 ⟨q, hq, h⟩)]
    split
    · rw [rol64_rol64 _ _ _ hc (amount_lt _ hr.1)]
    · exact ih _ _ (by have := hr.2; omega) (fun r hr => hl r (List.mem_cons_of_mem _ hr)) hd.2

theorem lanesLoop_rows (A : Lanes) (x y : Fin 5) : lanesLoop (rows ++ [mk 44 1 1]) A (A 1) (lane x y) =
    rol64 (A (lane (x + 3 * y) x)) (KeccakP1600.Ref.rhoOffsets.getD (lane (x + 3 * y) x).val 0) := by
  have h := lanesLoop_walk (rows ++ [mk 44 1 1]) A 1 0 (by decide) (lane x y) (by decide) (by decide)
  have e : ∀ x y : Fin 5, walk (rows ++ [mk 44 1 1]) 1 0 (lane x y) = (lane (x + 3 * y) x, KeccakP1600.Ref.rhoOffsets.getD (lane (x + 3 * y) x).val 0) := by decide
  rw [e] at h
  exact h

theorem rhoPi_eq (m : M) (b : Nat → Byte) : ∃ t m', load8A m 8 = some t ∧ rhoPiLoop rhoPiConstants m t b = some m' ∧
    ∀ x y : Fin 5, L m' (lane x y) = rol64 (L m (lane (x + 3 * y) x)) (KeccakP1600.Ref.rhoOffsets.getD (lane (x + 3 * y) x).val 0) := by
  obtain ⟨t, e, h⟩ := load8A_eq m 1
  obtain ⟨m', e2, g⟩ := rhoPiLoop_eq rows (mk 44 1 1) (by decide)
    (by decide) rfl m t b _ h
  exact ⟨t, m', e, e2, fun x y => by rw [g, lanesLoop_rows]⟩

/-! ## Chi, iota and the parities -/

/-- Chi on bytes. -/
def chiB (a : Nat → Byte) (j : Nat) : Byte :=
  (~~~ a (j % 8 + 40 * (j / 40) + 8 * ((j / 8 % 5 + 1) % 5)) &&& a (j % 8 + 40 * (j / 40) + 8 * ((j / 8 % 5 + 2) % 5))) ^^^ a (j % 8 + 40 * (j / 40) + 8 * (j / 8 % 5))

theorem chiB_at (a : Nat → Byte) (z i x : Nat) (hz : z < 8) (hx : x < 5) : chiB a (z + 40 * i + 8 * x) =
    (~~~ a (z + 40 * i + 8 * ((x + 1) % 5)) &&& a (z + 40 * i + 8 * ((x + 2) % 5))) ^^^ a (z + 40 * i + 8 * x) := by
  unfold chiB
  rw [show (z + 40 * i + 8 * x) % 8 = z by omega, show (z + 40 * i + 8 * x) / 40 = i by omega, show (z + 40 * i + 8 * x) / 8 % 5 = x by omega]

theorem chiRow_eq (m : M) (k : Cs) (z i : Nat) (hz : z < 8) (hi : i < 5) : chiRow (m, k, z + 40 * i) = some
    (⟨fun j => if j % 8 = z ∧ j / 40 = i then chiB m.a j else m.a j, m.c⟩,
      ⟨k.c0 ^^^ chiB m.a (z + 40 * i + 8 * 0), k.c1 ^^^ chiB m.a (z + 40 * i + 8 * 1), k.c2 ^^^ chiB m.a (z + 40 * i + 8 * 2), k.c3 ^^^ chiB m.a (z + 40 * i + 8 * 3),
        k.c4 ^^^ chiB m.a (z + 40 * i + 8 * 4)⟩, z + 40 * (i + 1)) := by
  have e := fun x hx => chiB_at m.a z i x hz hx
  unfold chiRow
  simp only [Option.bind_eq_bind]
  rw [ldA_of _ _ (by omega), Option.bind_some, ldA_of _ _ (by omega), Option.bind_some, ldA_of _ _ (by omega), Option.bind_some, ldA_of _ _ (by omega), Option.bind_some,
    ldA_of _ _ (by omega), Option.bind_some, stA_of _ _ _ (by omega), Option.bind_some, stA_of _ _ _ (by omega), Option.bind_some, stA_of _ _ _ (by omega), Option.bind_some,
    stA_of _ _ _ (by omega), Option.bind_some, stA_of _ _ _ (by omega), Option.bind_some]
  rw [e 0 (by decide), e 1 (by decide), e 2 (by decide), e 3 (by decide), e 4 (by decide), show z + 40 * i + 40 = z + 40 * (i + 1) by omega]
  congr 3
  funext j
  dsimp only
  by_cases hj : j % 8 = z ∧ j / 40 = i
  · rw [if_pos hj]
    obtain ⟨x, hx, rfl⟩ : ∃ x, x < 5 ∧ j = z + 40 * i + 8 * x := ⟨j / 8 % 5, by omega, by omega⟩
    rw [e x hx]
    interval_cases x <;> simp
  · rw [if_neg hj, if_neg (by omega), if_neg (by omega), if_neg (by omega), if_neg (by omega), if_neg (by omega)]

/-- The xor of the first values. -/
def acc (g : Nat → Byte) : Nat → Byte
  | 0 => 0
  | n + 1 => acc g n ^^^ g n

theorem chiB_congr (a a' : Nat → Byte) (j : Nat) (h : ∀ j', j' % 8 = j % 8 → j' / 40 = j / 40 → a j' = a' j') : chiB a j = chiB a' j := by
  unfold chiB
  rw [h _ (by omega) (by omega), h _ (by omega) (by omega), h _ (by omega) (by omega)]

theorem chiRows_eq (m : M) (z : Nat) (hz : z < 8) : rep chiRow 5 (m, ⟨0, 0, 0, 0, 0⟩, z) = some
    (⟨fun j => if j % 8 = z ∧ j / 40 < 5 then chiB m.a j else m.a j, m.c⟩,
      ⟨acc (fun i => chiB m.a (z + 40 * i + 8 * 0)) 5, acc (fun i => chiB m.a (z + 40 * i + 8 * 1)) 5, acc (fun i => chiB m.a (z + 40 * i + 8 * 2)) 5,
        acc (fun i => chiB m.a (z + 40 * i + 8 * 3)) 5, acc (fun i => chiB m.a (z + 40 * i + 8 * 4)) 5⟩, z + 200) := by
  have h := rep_seq chiRow 5 (fun i => ((⟨fun j => if j % 8 = z ∧ j / 40 < i then chiB m.a j else m.a j, m.c⟩ : M),
      (⟨acc (fun i => chiB m.a (z + 40 * i + 8 * 0)) i, acc (fun i => chiB m.a (z + 40 * i + 8 * 1)) i, acc (fun i => chiB m.a (z + 40 * i + 8 * 2)) i,
        acc (fun i => chiB m.a (z + 40 * i + 8 * 3)) i, acc (fun i => chiB m.a (z + 40 * i + 8 * 4)) i⟩ : Cs), z + 40 * i)) fun i hi => by
    rw [chiRow_eq _ _ _ _ hz hi]
    dsimp only
    have g : ∀ j, j / 40 = i → chiB (fun j => if j % 8 = z ∧ j / 40 < i then chiB m.a j else m.a j) j = chiB m.a j := fun j hj =>
      chiB_congr _ _ _ fun j' _ h => if_neg (by omega)
    rw [g _ (by omega), g _ (by omega), g _ (by omega), g _ (by omega), g _ (by omega)]
    simp only [acc]
    congr 3
    funext j
    by_cases hj : j % 8 = z ∧ j / 40 = i
    · rw [if_pos hj, if_pos (by omega), g _ hj.2]
    · rw [if_neg hj]
      by_cases hk : j % 8 = z ∧ j / 40 < i
      · rw [if_pos hk, if_pos (by omega)]
      · rw [if_neg hk, if_neg (by omega)]
  simp only [Nat.not_lt_zero, and_false, if_false, Nat.mul_zero, Nat.add_zero, acc] at h
  exact h

/-- The state after chi and iota. -/
def fin (a : Nat → Byte) (p j : Nat) : Byte := if j < 8 then chiB a j ^^^ constants.getD (p + j) 0 else chiB a j

/-- The parities after chi and iota. -/
def par (a : Nat → Byte) (p j : Nat) : Byte :=
  if j < 8 then acc (fun i => chiB a (j + 40 * i)) 5 ^^^ constants.getD (p + j) 0 else acc (fun i => chiB a (j + 40 * i)) 5

theorem constants_get (i : Nat) (h : i < 194) : constants[i]? = some (constants.getD i 0) := by
  rw [List.getD_eq_getElem?_getD, List.getElem?_eq_getElem (by exact h)]; rfl

theorem chiSlices_eq (n : Nat) (hn : n ≤ 8) (m : M) (p : Nat) (hp : p + n ≤ 194) : rep chiSlice n (m, 0, 0, p) = some
    (⟨fun j => if j % 8 < n ∧ j < 200 then fin m.a p j else m.a j, fun j => if j % 8 < n ∧ j < 40 then par m.a p j else m.c j⟩, n, n, p + n) := by
  have h := rep_seq chiSlice n (fun z => ((⟨fun j => if j % 8 < z ∧ j < 200 then fin m.a p j else m.a j, fun j => if j % 8 < z ∧ j < 40 then par m.a p j else m.c j⟩ : M),
      z, z, p + z)) fun z hz' => by
    have hz : z < 8 := by omega
    unfold chiSlice
    simp only [Option.bind_eq_bind]
    rw [chiRows_eq _ _ hz, Option.bind_some]
    have g : ∀ j, j % 8 = z → chiB (fun j => if j % 8 < z ∧ j < 200 then fin m.a p j else m.a j) j = chiB m.a j := fun j hj =>
      chiB_congr _ _ _ fun j' h _ => if_neg (by omega)
    have g' : ∀ x, (fun i => chiB (fun j => if j % 8 < z ∧ j < 200 then fin m.a p j else m.a j) (z + 40 * i + 8 * x)) = fun i => chiB m.a (z + 8 * x + 40 * i) := fun x =>
      funext fun i => by rw [g _ (by omega), show z + 40 * i + 8 * x = z + 8 * x + 40 * i by omega]
    simp only [g', Nat.add_sub_cancel]
    rw [constants_get _ (by omega), Option.bind_some, ldA_of _ _ (by omega), Option.bind_some, stA_of _ _ _ (by omega), Option.bind_some, stC_of _ _ _ (by omega),
      Option.bind_some, stC_of _ _ _ (by omega), Option.bind_some, stC_of _ _ _ (by omega), Option.bind_some, stC_of _ _ _ (by omega), Option.bind_some,
      stC_of _ _ _ (by omega), Option.bind_some]
    dsimp only
    congr 3
    · funext j
      by_cases e : j = z
      · subst e
        rw [if_pos rfl, if_pos (by omega), if_pos (by omega), g _ (by omega), fin, if_pos hz]
      · rw [if_neg e]
        by_cases e2 : j % 8 = z ∧ j / 40 < 5
        · rw [if_pos e2, if_pos (by omega), g _ e2.1, fin, if_neg (by omega)]
        · rw [if_neg e2]
          by_cases e3 : j % 8 < z ∧ j < 200
          · rw [if_pos e3, if_pos (by omega)]
          · rw [if_neg e3, if_neg (by omega)]
    · funext j
      by_cases e : j % 8 = z ∧ j < 40
      · obtain ⟨x, hx, rfl⟩ : ∃ x, x < 5 ∧ j = z + 8 * x := ⟨j / 8, by omega, by omega⟩
        rw [if_pos (show (z + 8 * x) % 8 < z + 1 ∧ z + 8 * x < 40 by omega), par]
        by_cases h0 : x = 0
        · subst h0
          rw [if_neg (by omega), if_neg (by omega), if_neg (by omega), if_neg (by omega), if_pos (by omega), if_pos (by omega)]
          rfl
        · rw [if_neg (show ¬ z + 8 * x < 8 by omega)]
          interval_cases x
          · exact absurd rfl h0
          all_goals simp [Nat.add_assoc]
      · rw [if_neg (by omega), if_neg (by omega), if_neg (by omega), if_neg (by omega), if_neg (by omega)]
        by_cases e3 : j % 8 < z ∧ j < 40
        · rw [if_pos e3, if_pos (by omega)]
        · rw [if_neg e3, if_neg (by omega)]
  simp only [Nat.not_lt_zero, false_and, if_false, Nat.add_zero] at h
  exact h

/-- The constant at an offset. -/
def rc (p : Nat) : Lane := word fun k => constants.getD (p + k) 0

theorem byte_lane (m : M) (x y : Fin 5) (k : Nat) (hk : k < 8) : m.a (k + 40 * y.val + 8 * x.val) = byteOf (L m (lane x y)) k := by
  rw [byteOf_L _ _ _ hk]
  congr 1
  simp only [lane]
  omega

theorem chi_lane (m : M) (x y : Fin 5) (k : Nat) (hk : k < 8) : chiB m.a (k + 40 * y.val + 8 * x.val) =
    byteOf (L m (lane x y) ^^^ (~~~ L m (lane (x + 1) y) &&& L m (lane (x + 2) y))) k := by
  have e1 : (x + 1 : Fin 5).val = (x.val + 1) % 5 := Fin.val_add _ _
  have e2 : (x + 2 : Fin 5).val = (x.val + 2) % 5 := Fin.val_add _ _
  rw [chiB_at _ _ _ _ hk x.isLt, ← e1, ← e2, byte_lane _ _ _ _ hk, byte_lane _ _ _ _ hk, byte_lane _ _ _ _ hk, byteOf_xor, byteOf_and, byteOf_not _ _ hk, BitVec.xor_comm]

theorem chi_eq (m : M) (p : Nat) (hp : p + 8 ≤ 194) : ∃ m', rep chiSlice 8 (m, 0, 0, p) = some (m', 8, 8, p + 8) ∧ Ready m' ∧
    ∀ x y : Fin 5, L m' (lane x y) = if x = 0 ∧ y = 0 then (L m (lane x y) ^^^ (~~~ L m (lane (x + 1) y) &&& L m (lane (x + 2) y))) ^^^ rc p
      else L m (lane x y) ^^^ (~~~ L m (lane (x + 1) y) &&& L m (lane (x + 2) y)) := by
  have hl : ∀ x y : Fin 5, ∀ k, k < 8 → fin m.a p (k + 40 * y.val + 8 * x.val) =
      byteOf (if x = 0 ∧ y = 0 then (L m (lane x y) ^^^ (~~~ L m (lane (x + 1) y) &&& L m (lane (x + 2) y))) ^^^ rc p
        else L m (lane x y) ^^^ (~~~ L m (lane (x + 1) y) &&& L m (lane (x + 2) y))) k := by
    intro x y k hk
    unfold fin
    rw [chi_lane m x y k hk]
    by_cases h : x = 0 ∧ y = 0
    · obtain ⟨rfl, rfl⟩ := h
      rw [if_pos (by exact hk), if_pos ⟨rfl, rfl⟩, byteOf_xor _ (rc p), rc, byteOf_word _ _ hk]
      rfl
    · rw [if_neg h, if_neg]
      intro hc
      exact h ⟨Fin.ext (by show x.val = 0; omega), Fin.ext (by show y.val = 0; omega)⟩
  refine ⟨_, chiSlices_eq 8 (by decide) m p hp, ?_, ?_⟩
  rotate_left
  · intro x y
    apply lane_ext
    intro k hk
    obtain ⟨-, l2, l3⟩ := lane_div x y k hk
    rw [byteOf_L _ _ _ hk]
    dsimp only
    rw [if_pos ⟨by omega, l2⟩, ← hl x y k hk]
    congr 1
    simp only [lane]
    omega
  · intro x
    apply lane_ext
    intro k hk
    have hx := x.isLt
    rw [byteOf_K _ _ _ hk]
    simp only [col, byteOf_xor]
    rw [← byte_lane _ _ _ _ hk, ← byte_lane _ _ _ _ hk, ← byte_lane _ _ _ _ hk, ← byte_lane _ _ _ _ hk, ← byte_lane _ _ _ _ hk]
    dsimp only
    have e : ∀ y : Fin 5, (if (k + 40 * y.val + 8 * x.val) % 8 < 8 ∧ k + 40 * y.val + 8 * x.val < 200 then fin m.a p (k + 40 * y.val + 8 * x.val) else
        m.a (k + 40 * y.val + 8 * x.val)) = fin m.a p (8 * x.val + k + 40 * y.val) := fun y => by
      have hy := y.isLt
      rw [if_pos (by omega)]
      congr 1
      omega
    rw [e, e, e, e, e, if_pos (by omega)]
    unfold par fin
    simp only [acc]
    by_cases h8 : 8 * x.val + k < 8
    · rw [if_pos h8, if_pos (by exact h8), if_neg (by show ¬ 8 * x.val + k + 40 < 8; omega), if_neg (by show ¬ 8 * x.val + k + 80 < 8; omega),
        if_neg (by show ¬ 8 * x.val + k + 120 < 8; omega), if_neg (by show ¬ 8 * x.val + k + 160 < 8; omega), show (0 : Byte) = 0#8 from rfl, BitVec.zero_xor]
      show chiB m.a (8 * x.val + k) ^^^ chiB m.a (8 * x.val + k + 40) ^^^ chiB m.a (8 * x.val + k + 80) ^^^ chiB m.a (8 * x.val + k + 120) ^^^ chiB m.a (8 * x.val + k + 160) ^^^
          constants.getD (p + (8 * x.val + k)) 0#8 = chiB m.a (8 * x.val + k) ^^^ constants.getD (p + (8 * x.val + k)) 0#8 ^^^ chiB m.a (8 * x.val + k + 40) ^^^
          chiB m.a (8 * x.val + k + 80) ^^^ chiB m.a (8 * x.val + k + 120) ^^^ chiB m.a (8 * x.val + k + 160)
      ac_rfl
    · rw [if_neg h8, if_neg (by exact h8), if_neg (by show ¬ 8 * x.val + k + 40 < 8; omega), if_neg (by show ¬ 8 * x.val + k + 80 < 8; omega),
        if_neg (by show ¬ 8 * x.val + k + 120 < 8; omega), if_neg (by show ¬ 8 * x.val + k + 160 < 8; omega), show (0 : Byte) = 0#8 from rfl, BitVec.zero_xor]
      rfl

/-! ## The permutation -/

theorem round_eq (b : Nat → Byte) (m : M) (p : Nat) (hp : p + 8 ≤ 194) (h : Ready m) : ∃ m', round b m p = some (m', p + 8) ∧ Ready m' ∧ L m' = rstep (rc p) (L m) := by
  obtain ⟨m1, e1, h1⟩ := theta_eq m
  obtain ⟨t, m2, e2, e3, h2⟩ := rhoPi_eq m1 b
  obtain ⟨m3, e4, h3, h4⟩ := chi_eq m2 p hp
  refine ⟨m3, ?_, h3, ?_⟩
  · unfold round
    simp only [Option.bind_eq_bind]
    rw [e1, Option.bind_some]
    show (load8A m1 8).bind _ = _
    rw [e2, Option.bind_some, e3, Option.bind_some, e4, Option.bind_some]
  · refine Avx512Asm.rstep_of (rc p) (L m) (fun j => rol64 (L m1 j) (KeccakP1600.Ref.rhoOffsets.getD j.val 0)) (L m3) ?_ ?_
    · intro x y
      rw [h1, h, h, BitVec.xor_assoc]
    · intro x y
      rw [h4, h2, h2, h2]
      rfl

theorem rc_eq : ∀ i, i < 24 → rc (8 * i) = KeccakP1600.Ref.roundConstants.getD i 0 := by
  decide

theorem last_eq : ∀ i, i < 24 → constants.getD (8 * i) 0 + 1 ≠ 0 := by decide

open KeccakP1600.Opt64 (run run_add run_onWords)

theorem roundLoop_eq (b : Nat → Byte) (n : Nat) (fuel i : Nat) (hi : i + n = 23) (m : M) (h : Ready m) : ∃ m', roundLoop b (fuel + n + 1) m (8 * i) = some m' ∧
    L m' = run i (n + 1) (L m) := by
  induction n generalizing i m with
  | zero =>
    obtain ⟨m1, e1, -, l1⟩ := round_eq b m (8 * i) (by omega) h
    refine ⟨m1, ?_, ?_⟩
    · rw [roundLoop, e1]
      obtain rfl : i = 23 := by omega
      rfl
    · rw [l1, rc_eq _ (by omega)]; rfl
  | succ n ih =>
    obtain ⟨m1, e1, h1, l1⟩ := round_eq b m (8 * i) (by omega) h
    obtain ⟨m2, e2, l2⟩ := ih (i + 1) (by omega) m1 h1
    refine ⟨m2, ?_, ?_⟩
    · rw [← Nat.add_assoc, roundLoop, e1]
      show (constants[8 * i + 8]?).bind _ = _
      rw [constants_get _ (by omega), Option.bind_some, if_neg (by exact last_eq (i + 1) (by omega))]
      exact e2
    · rw [l2, l1, rc_eq _ (by omega)]; rfl

theorem permute_eq (b : Nat → Byte) (m : M) (n : Nat) (h0 : 0 < n) (h : n ≤ 24) : ∃ m', permute b m (192 - 8 * n) = some m' ∧
    L m' = KeccakP1600.Ref.onWords KeccakP1600.Ref.roundConstants KeccakP1600.Ref.rhoOffsets (L m) n := by
  obtain ⟨m1, e1, a1, h1⟩ := prep_eq m
  obtain ⟨m2, e2, l2⟩ := roundLoop_eq b (n - 1) (256 - n) (24 - n) (by omega) m1 h1
  refine ⟨m2, ?_, ?_⟩
  · unfold permute
    simp only [Option.bind_eq_bind]
    rw [e1, Option.bind_some]
    show roundLoop b 256 m1 (192 - 8 * n) = _
    rw [show 256 = 256 - n + (n - 1) + 1 by omega, show 192 - 8 * n = 8 * (24 - n) by omega]
    exact e2
  · have : L m1 = L m := by unfold L; rw [a1]
    rw [l2, this, show n - 1 + 1 = n by omega, run_onWords]

theorem nrounds_eq (n : BitVec 16) (h : n.toNat ≤ 24) : ((n.setWidth 8 <<< 1 <<< 1 <<< 1 : Byte)).toNat = 8 * n.toNat := by
  simp only [BitVec.toNat_shiftLeft, BitVec.toNat_setWidth, Nat.shiftLeft_eq]
  omega

theorem permuteNrounds_eq (b : Nat → Byte) (m : M) (n : BitVec 16) (h0 : 0 < n.toNat) (h : n.toNat ≤ 24) : ∃ m', permuteNrounds b m n = some m' ∧
    L m' = KeccakP1600.Ref.onWords KeccakP1600.Ref.roundConstants KeccakP1600.Ref.rhoOffsets (L m) n.toNat := by
  obtain ⟨m', e, l⟩ := permute_eq b m n.toNat h0 h
  refine ⟨m', ?_, l⟩
  unfold permuteNrounds
  dsimp only
  rw [nrounds_eq n h, if_pos (by omega), e]

theorem rep_add {σ : Type} (body : σ → Option σ) (a c : Nat) (s : σ) : rep body (a + c) s = (rep body a s).bind (rep body c) := by
  induction a generalizing s with
  | zero => rw [Nat.zero_add]; rfl
  | succ a ih =>
    rw [Nat.succ_add, rep, rep, Option.bind_eq_bind, Option.bind_assoc]
    congr 1
    funext s
    exact ih s

theorem permute_zero (b : Nat → Byte) (m : M) : permuteNrounds b m 0 = none := by
  have h : ∀ m, rep chiSlice 8 (m, 0, 0, 192) = none := by
    intro m
    rw [show 8 = 2 + 6 from rfl, rep_add, chiSlices_eq 2 (by decide) m 192 (by decide), Option.bind_some, rep]
    unfold chiSlice
    simp only [Option.bind_eq_bind]
    rw [chiRows_eq _ _ (by decide), Option.bind_some]
    rfl
  obtain ⟨m1, e1, -⟩ := prep_eq m
  obtain ⟨m2, e2, -⟩ := theta_eq m1
  obtain ⟨t, m3, e3, e4, -⟩ := rhoPi_eq m2 b
  have hr : round b m1 192 = none := by
    unfold round
    simp only [Option.bind_eq_bind]
    rw [e2, Option.bind_some]
    show (load8A m2 8).bind _ = _
    rw [e3, Option.bind_some, e4, Option.bind_some, h]
    rfl
  show permute b m 192 = none
  unfold permute
  rw [e1, Option.bind_eq_bind, Option.bind_some]
  show roundLoop b (255 + 1) m1 192 = none
  rw [roundLoop, hr]
  rfl

/-! ## Bytes -/

theorem L_ofBytes (s : Bytes) (c : Nat → Byte) : L (ofBytes s c) = KeccakP1600.lanesOfBytes s := by
  funext j
  apply lane_ext
  intro k hk
  rw [byteOf_L _ _ _ hk, KeccakP1600.lanesOfBytes, KeccakP1600.byteOf_wordOfBytes _ _ hk, List.getD_eq_getElem?_getD, List.getElem?_drop, Nat.mul_comm j.val 8]
  exact List.getD_eq_getElem?_getD ..

theorem bytes_L (m : M) : bytes m = KeccakP1600.bytesOfLanes (L m) := by
  apply List.ext_getElem?
  intro j
  rw [KeccakP1600.getElem?_bytesOfLanes, bytes, List.getElem?_map]
  by_cases h : j < 200
  · rw [dif_pos h, List.getElem?_range h, byteOf_L _ _ _ (Nat.mod_lt _ (by decide))]
    show some (m.a j) = some (m.a (8 * (j / 8) + j % 8))
    rw [show 8 * (j / 8) + j % 8 = j by omega]
  · rw [dif_neg h, List.getElem?_eq_none (by rw [List.length_range]; omega)]
    rfl

end Avr8.Keccak
