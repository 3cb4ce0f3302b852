import Verif.Model.Avr8Fast
import Verif.Proofs.Avr8Keccak

/-!
The permutation in the fast AVR8 assembly of Keccak-p[1600]: lemmas.
-/

namespace Avr8.Fast

open KeccakP1600 (Lane Lanes byteOf wordOfBytes getLsbD_byteOf byte_ext lane_ext byteOf_xor byteOf_not lane forall_fin25 rstep put)
open KeccakP1600.Ref (rol64)
open Avx512Asm (col)
open Avr8.Keccak hiding rotBit rotByte row rhoPiConstants rhoPiOne rhoPiLoop round roundLoop permute permuteNrounds permute24 permute12 prep_eq rhoPiOne_eq rhoPiLoop_eq
  rhoPi_eq round_eq roundLoop_eq permute_eq permuteNrounds_eq permute_zero rows_eq Row.toRow

/-! ## The first parities -/

theorem load8A_of (m : M) (p : Nat) (h : p + 7 < 200) : load8A m p =
    some fun i => [m.a p, m.a (p + 1), m.a (p + 2), m.a (p + 3), m.a (p + 4), m.a (p + 5), m.a (p + 6), m.a (p + 7)].getD i 0 := by
  unfold load8A
  simp only [Option.bind_eq_bind]
  rw [ldA_of _ _ (by omega), Option.bind_some, ldA_of _ _ (by omega), Option.bind_some, ldA_of _ _ (by omega), Option.bind_some, ldA_of _ _ (by omega), Option.bind_some,
    ldA_of _ _ (by omega), Option.bind_some, ldA_of _ _ (by omega), Option.bind_some, ldA_of _ _ (by omega), Option.bind_some, ldA_of _ _ (by omega), Option.bind_some]

theorem store8C_of (m : M) (p : Nat) (t : Nat → Byte) (h : p + 7 < 40) : store8C m p t = some ⟨m.a, fun i => if p ≤ i ∧ i < p + 8 then t (i - p) else m.c i⟩ := by
  unfold store8C
  simp only [Option.bind_eq_bind]
  rw [stC_of _ _ _ (by omega), Option.bind_some, stC_of _ _ _ (by omega), Option.bind_some, stC_of _ _ _ (by omega), Option.bind_some, stC_of _ _ _ (by omega),
    Option.bind_some, stC_of _ _ _ (by omega), Option.bind_some, stC_of _ _ _ (by omega), Option.bind_some, stC_of _ _ _ (by omega), Option.bind_some,
    stC_of _ _ _ (by omega)]
  congr 2
  funext i
  dsimp only
  by_cases hi : p ≤ i ∧ i < p + 8
  · rw [if_pos hi]
    obtain ⟨k, hk, rfl⟩ : ∃ k, k < 8 ∧ i = p + k := ⟨i - p, by omega, by omega⟩
    rw [Nat.add_sub_cancel_left]
    interval_cases k <;> simp
  · rw [if_neg hi, if_neg (by omega), if_neg (by omega), if_neg (by omega), if_neg (by omega), if_neg (by omega), if_neg (by omega), if_neg (by omega), if_neg (by omega)]

/-- The parity of a byte of a column. -/
def parity (a : Nat → Byte) (i : Nat) : Byte := a i ^^^ a (i + 40) ^^^ a (i + 80) ^^^ a (i + 120) ^^^ a (i + 160)

theorem prepLane_eq (m : M) (p : Nat) (h : p + 7 < 40) :
    prepLane (m, p, p) = some (⟨m.a, fun i => if p ≤ i ∧ i < p + 8 then parity m.a i else m.c i⟩, p + 8, p + 8) := by
  unfold prepLane xor8
  simp only [Option.bind_eq_bind]
  rw [load8A_of _ _ (by omega), Option.bind_some, load8A_of _ _ (by omega), Option.bind_some, Option.bind_some, load8A_of _ _ (by omega), Option.bind_some, Option.bind_some,
    load8A_of _ _ (by omega), Option.bind_some, Option.bind_some, load8A_of _ _ (by omega), Option.bind_some, Option.bind_some, store8C_of _ _ _ h, Option.bind_some]
  rw [show p + 8 + 32 + 8 + 32 + 8 + 32 + 8 + 32 + 8 - 160 = p + 8 by omega]
  congr 3
  funext i
  by_cases hi : p ≤ i ∧ i < p + 8
  · rw [if_pos hi, if_pos hi]
    obtain ⟨k, hk, rfl⟩ : ∃ k, k < 8 ∧ i = p + k := ⟨i - p, by omega, by omega⟩
    rw [Nat.add_sub_cancel_left]
    have e : ∀ c k, p + k + c = p + c + k := fun c k => by omega
    unfold parity
    simp only [e]
    interval_cases k <;> rfl
  · rw [if_neg hi, if_neg hi]

theorem prep_val (m : M) : rep prepLane 5 (m, 0, 0) = some (⟨m.a, fun j => if j < 40 then parity m.a j else m.c j⟩, 40, 40) := by
  have h := rep_seq prepLane 5 (fun i => ((⟨m.a, fun j => if j < 8 * i then parity m.a j else m.c j⟩ : M), 8 * i, 8 * i)) fun i hi => by
    rw [prepLane_eq _ _ (by omega)]
    congr 3
    funext j
    dsimp only
    by_cases h1 : j < 8 * i
    · rw [if_neg (by omega), if_pos h1, if_pos (by omega)]
    · by_cases h2 : j < 8 * i + 8
      · rw [if_pos ⟨by omega, h2⟩, if_pos (by omega)]
      · rw [if_neg (by omega), if_neg h1, if_neg (by omega)]
  exact h

theorem prep_eq (m : M) : ∃ m', rep prepLane 5 (m, 0, 0) = some (m', 40, 40) ∧ m'.a = m.a ∧ Ready m' := by
  refine ⟨_, prep_val m, rfl, fun x => ?_⟩
  apply lane_ext
  intro k hk
  rw [byteOf_K _ _ _ hk]
  simp only [col, byteOf_xor, byteOf_L _ _ _ hk]
  have hx := x.isLt
  rw [if_pos (by omega)]
  have e : ∀ y : Fin 5, m.a (8 * (lane x y).val + k) = m.a (8 * x.val + k + 40 * y.val) := fun y => congrArg _ (by simp only [lane]; omega)
  simp only [e]
  rfl

/-! ## Rho and pi -/

theorem bitJump_eq (n : Nat) (hn : n < 8) (t : Nat → Byte) : bitJump n t = some (bitRot (BitVec.ofNat 8 n) t) := by
  interval_cases n <;> rfl

theorem byteJump_eq (m : M) (n : Nat) (hn : n < 8) (b : Nat → Byte) (j : Fin 25) : ∃ b', byteJump m (n * 9) b (8 * j.val) = some (b', 8 * j.val + 8) ∧
    Holds b' (rol64 (L m j) (8 * n)) := by
  have hj := j.isLt
  have hb : ∀ l : List Nat, l.length = 8 → loadTo m l b (8 * j.val) = some ((fun i =>
      if i = l.getD 7 0 then m.a (8 * j.val + 7) else if i = l.getD 6 0 then m.a (8 * j.val + 6) else if i = l.getD 5 0 then m.a (8 * j.val + 5) else
      if i = l.getD 4 0 then m.a (8 * j.val + 4) else if i = l.getD 3 0 then m.a (8 * j.val + 3) else if i = l.getD 2 0 then m.a (8 * j.val + 2) else
      if i = l.getD 1 0 then m.a (8 * j.val + 1) else if i = l.getD 0 0 then m.a (8 * j.val) else b i), 8 * j.val + 8) := by
    intro l hl
    obtain ⟨x0, x1, x2, x3, x4, x5, x6, x7, rfl⟩ : ∃ x0 x1 x2 x3 x4 x5 x6 x7, l = [x0, x1, x2, x3, x4, x5, x6, x7] := by
      match l, hl with
      | [x0, x1, x2, x3, x4, x5, x6, x7], _ => exact ⟨x0, x1, x2, x3, x4, x5, x6, x7, rfl⟩
    simp only [loadTo, Option.bind_eq_bind]
    rw [ldA_of _ _ (by omega), Option.bind_some, ldA_of _ _ (by omega), Option.bind_some, ldA_of _ _ (by omega), Option.bind_some, ldA_of _ _ (by omega), Option.bind_some,
      ldA_of _ _ (by omega), Option.bind_some, ldA_of _ _ (by omega), Option.bind_some, ldA_of _ _ (by omega), Option.bind_some, ldA_of _ _ (by omega), Option.bind_some]
    rfl
  have hh : ∀ b' : Nat → Byte, (∀ k, k < 8 → b' k = m.a (8 * j.val + (k + 8 - n) % 8)) → Holds b' (rol64 (L m j) (8 * n)) := by
    intro b' h k hk
    rw [h k hk, ← byteOf_L _ _ _ (Nat.mod_lt _ (by decide))]
    apply byte_ext
    intro t ht
    rw [getLsbD_byteOf _ _ _ ht, getLsbD_byteOf _ _ _ ht, bit_rol64 _ _ _ (by omega) (by omega)]
    congr 1
    omega
  interval_cases n <;> refine ⟨_, hb _ rfl, hh _ ?_⟩ <;> intro k hk <;> interval_cases k <;> rfl

theorem stA_c (m m' : M) (i : Nat) (r : Byte) (h : stA m i r = some m') : m'.c = m.c := by
  unfold stA at h
  split at h
  · cases h; rfl
  · cases h

theorem store8A_c (m m' : M) (p : Nat) (t : Nat → Byte) (h : store8A m p t = some m') : m'.c = m.c := by
  unfold store8A at h
  simp only [Option.bind_eq_bind, Option.bind_eq_some_iff] at h
  obtain ⟨m0, h0, m1, h1, m2, h2, m3, h3, m4, h4, m5, h5, m6, h6, h7⟩ := h
  rw [stA_c _ _ _ _ h7, stA_c _ _ _ _ h6, stA_c _ _ _ _ h5, stA_c _ _ _ _ h4, stA_c _ _ _ _ h3, stA_c _ _ _ _ h2, stA_c _ _ _ _ h1, stA_c _ _ _ _ h0]

/-- A row of the table of the fast code. -/
def toRow (r : Row) : Nat × Nat × Nat := (r.1, r.2.1 * 9, r.2.2.val * 8)

theorem rhoPiOne_eq (r : Row) (hr : r.ok) (m : M) (t b : Nat → Byte) (w : Lane) (h : Holds t w) : ∃ m' b', rhoPiOne (toRow r) m t b = some (m', b') ∧ m'.c = m.c ∧
    L m' = put (L m) r.2.2 (rol64 w (amount r.1)) ∧ Holds b' (rol64 (L m r.2.2) (8 * r.2.1)) := by
  have h9 : (BitVec.ofNat 8 (r.2.1 * 9)).toNat = r.2.1 * 9 := by
    rw [BitVec.toNat_ofNat]; have := hr.2; omega
  obtain ⟨b', e1, h1⟩ := byteJump_eq m r.2.1 hr.2 (fun i => if i = 0 then BitVec.ofNat 8 (r.2.1 * 9) else b i) r.2.2
  obtain ⟨m', e2, h2⟩ := store8A_eq m r.2.2 _ _ (bitRot_holds r.1 hr.1 t w h)
  refine ⟨m', b', ?_, store8A_c _ _ _ _ e2, h2, h1⟩
  unfold rhoPiOne toRow
  simp only [Option.bind_eq_bind, if_true]
  rw [bitJump_eq _ hr.1, Option.bind_some, h9, Nat.mul_comm r.2.2.val 8, e1, Option.bind_some]
  simp only [Nat.add_sub_cancel]
  rw [e2]
  rfl

theorem rhoPiLoop_eq (l : List Row) (r : Row) (hl : ∀ q ∈ l ++ [r], Row.ok q) (h1 : ∀ r ∈ l, 1 < r.2.2.val) (hr : r.2.2.val = 1) (m : M) (t b : Nat → Byte) (w : Lane) (h : Holds t w) :
    ∃ m', rhoPiLoop ((l ++ [r]).map toRow) m t b = some m' ∧ m'.c = m.c ∧ L m' = lanesLoop (l ++ [r]) (L m) w := by
  induction l generalizing m t b w with
  | nil =>
    obtain ⟨m', b', e, c, g, -⟩ := rhoPiOne_eq r (hl r (by simp)) m t b w h
    refine ⟨m', ?_, c, g⟩
    rw [List.nil_append, List.map_cons, rhoPiLoop, e]
    exact if_pos (by show r.2.2.val * 8 - 8 = 0; rw [hr])
  | cons q l ih =>
    obtain ⟨m', b', e, c, g, g2⟩ := rhoPiOne_eq q (hl q (by simp)) m t b w h
    obtain ⟨m2, e2, c2, g3⟩ := ih (fun r hr => hl r (by simp only [List.cons_append, List.mem_cons]; exact Or.inr hr)) (fun r hr => h1 r (List.mem_cons_of_mem _ hr)) m' b' b' _ g2
    have hq := h1 q (by simp)
    refine ⟨m2, ?_, c2.trans c, ?_⟩
    · rw [List.cons_append, List.map_cons, rhoPiLoop, e]
      exact (if_neg (by show ¬ q.2.2.val * 8 - 8 = 0; omega)).trans e2
    · rw [g3, g]; rfl

theorem rows_eq : (rows ++ [mk 44 1 1]).map toRow = rhoPiConstants := rfl

theorem rhoPi_eq (m : M) (r : Byte) (b : Nat → Byte) : ∃ t m', load8A m 8 = some t ∧ rhoPiLoop rhoPiConstants (pushC m r) t b = some m' ∧ m'.c 0 = r ∧
    ∀ x y : Fin 5, L m' (lane x y) = rol64 (L m (lane (x + 3 * y) x)) (KeccakP1600.Ref.rhoOffsets.getD (lane (x + 3 * y) x).val 0) := by
  obtain ⟨t, e, h⟩ := load8A_eq m 1
  obtain ⟨m', e2, c, g⟩ := rhoPiLoop_eq rows (mk 44 1 1) (by decide)
    (by decide) rfl (pushC m r) t b _ h
  refine ⟨t, m', e, e2, ?_, fun x y => ?_⟩
  · rw [c]; rfl
  · rw [g]
    exact lanesLoop_rows (L m) x y

/-! ## The permutation -/

theorem pop_eq (base : BitVec 16) (p : Nat) (hp : p < 65536) :
    ((((base + BitVec.ofNat 16 p) >>> 8).setWidth 8 ++ (base + BitVec.ofNat 16 p).setWidth 8 : BitVec 16) - base).toNat = p := by
  have h : ∀ v : BitVec 16, ((v >>> 8).setWidth 8 ++ v.setWidth 8 : BitVec 16) = v := by
    intro v
    apply BitVec.eq_of_getLsbD_eq
    intro i hi
    rw [BitVec.getLsbD_append]
    split
    · next h => simp [h]
    · next h => 
      have : i - 8 < 8 := by omega
      have e : 8 + (i - 8) = i := by omega
      simp [this, e]
  rw [h, show base + BitVec.ofNat 16 p - base = BitVec.ofNat 16 p by rw [BitVec.add_comm]; exact BitVec.add_sub_cancel _ _, BitVec.toNat_ofNat]
  omega

/-- A round for any bytes in `C`. -/
theorem round_val (base : BitVec 16) (b : Nat → Byte) (m : M) (p : Nat) (hp : p + 8 ≤ 194) : ∃ (m' : M) (B : Lanes), round base b m p = some (m', p + 8) ∧ Ready m' ∧
    (∀ x y : Fin 5, B (lane x y) = rol64 (L m (lane (x + 3 * y) x) ^^^ (rol64 (K m (x + 3 * y + 1)) 1 ^^^ K m (x + 3 * y + 4)))
      (KeccakP1600.Ref.rhoOffsets.getD (lane (x + 3 * y) x).val 0)) ∧
    ∀ x y : Fin 5, L m' (lane x y) = if x = 0 ∧ y = 0 then (B (lane x y) ^^^ (~~~ B (lane (x + 1) y) &&& B (lane (x + 2) y))) ^^^ rc p
      else B (lane x y) ^^^ (~~~ B (lane (x + 1) y) &&& B (lane (x + 2) y)) := by
  obtain ⟨m1, e1, h1⟩ := theta_eq m
  obtain ⟨t, m2, e2, e3, c2, h2⟩ := rhoPi_eq m1 ((base + BitVec.ofNat 16 p).setWidth 8) b
  obtain ⟨m3, e4, h3, h4⟩ := chi_eq m2 p hp
  refine ⟨m3, L m2, ?_, h3, fun x y => ?_, h4⟩
  · unfold round
    simp only [Option.bind_eq_bind]
    rw [e1, Option.bind_some]
    show (load8A m1 8).bind _ = _
    rw [e2, Option.bind_some, e3, Option.bind_some, c2, pop_eq _ _ (by omega), e4, Option.bind_some]
  · rw [h2, h1]

theorem round_eq (base : BitVec 16) (b : Nat → Byte) (m : M) (p : Nat) (hp : p + 8 ≤ 194) (h : Ready m) : ∃ m', round base b m p = some (m', p + 8) ∧ Ready m' ∧
    L m' = rstep (rc p) (L m) := by
  obtain ⟨m3, B, e, h3, h2, h4⟩ := round_val base b m p hp
  refine ⟨m3, e, h3, ?_⟩
  refine Avx512Asm.rstep_of (rc p) (L m) (fun j => rol64 (L m j ^^^ (rol64 (K m (Fin.ofNat 5 (j.val % 5) + 1)) 1 ^^^ K m (Fin.ofNat 5 (j.val % 5) + 4)))
    (KeccakP1600.Ref.rhoOffsets.getD j.val 0)) (L m3) ?_ ?_
  · intro x y
    have e : Fin.ofNat 5 ((lane x y).val % 5) = x := by
      revert x y; decide
    rw [e, h, h, BitVec.xor_assoc]
  · intro x y
    have e : ∀ x y : Fin 5, Fin.ofNat 5 ((lane x y).val % 5) = x := by decide
    rw [h4, h2, h2, h2]
    unfold Avx512Asm.rest
    simp only [e]

open KeccakP1600.Opt64 (run run_add run_onWords)

theorem roundLoop_eq (base : BitVec 16) (b : Nat → Byte) (n : Nat) (fuel i : Nat) (hi : i + n = 23) (m : M) (h : Ready m) :
    ∃ m', roundLoop base b (fuel + n + 1) m (8 * i) = some m' ∧ L m' = run i (n + 1) (L m) := by
  induction n generalizing i m with
  | zero =>
    obtain ⟨m1, e1, -, l1⟩ := round_eq base b m (8 * i) (by omega) h
    refine ⟨m1, ?_, ?_⟩
    · rw [roundLoop, e1]
      obtain rfl : i = 23 := by omega
      rfl
    · rw [l1, rc_eq _ (by omega)]; rfl
  | succ n ih =>
    obtain ⟨m1, e1, h1, l1⟩ := round_eq base b m (8 * i) (by omega) h
    obtain ⟨m2, e2, l2⟩ := ih (i + 1) (by omega) m1 h1
    refine ⟨m2, ?_, ?_⟩
    · rw [← Nat.add_assoc, roundLoop, e1]
      show (constants[8 * i + 8]?).bind _ = _
      rw [constants_get _ (by omega), Option.bind_some, if_neg (by exact last_eq (i + 1) (by omega))]
      exact e2
    · rw [l2, l1, rc_eq _ (by omega)]; rfl

theorem permute_eq (base : BitVec 16) (b : Nat → Byte) (m : M) (n : Nat) (h0 : 0 < n) (h : n ≤ 24) : ∃ m', permute base b m (192 - 8 * n) = some m' ∧
    L m' = KeccakP1600.Ref.onWords KeccakP1600.Ref.roundConstants KeccakP1600.Ref.rhoOffsets (L m) n := by
  obtain ⟨m1, e1, a1, h1⟩ := prep_eq m
  obtain ⟨m2, e2, l2⟩ := roundLoop_eq base b (n - 1) (256 - n) (24 - n) (by omega) m1 h1
  refine ⟨m2, ?_, ?_⟩
  · unfold permute
    simp only [Option.bind_eq_bind]
    rw [e1, Option.bind_some]
    show roundLoop base b 256 m1 (192 - 8 * n) = _
    rw [show 256 = 256 - n + (n - 1) + 1 by omega, show 192 - 8 * n = 8 * (24 - n) by omega]
    exact e2
  · have : L m1 = L m := by unfold L; rw [a1]
    rw [l2, this, show n - 1 + 1 = n by omega, run_onWords]

theorem permuteNrounds_eq (base : BitVec 16) (b : Nat → Byte) (m : M) (n : BitVec 16) (h0 : 0 < n.toNat) (h : n.toNat ≤ 24) : ∃ m', permuteNrounds base b m n = some m' ∧
    L m' = KeccakP1600.Ref.onWords KeccakP1600.Ref.roundConstants KeccakP1600.Ref.rhoOffsets (L m) n.toNat := by
  obtain ⟨m', e, l⟩ := permute_eq base b m n.toNat h0 h
  refine ⟨m', ?_, l⟩
  unfold permuteNrounds
  dsimp only
  rw [nrounds_eq n h, if_pos (by omega), e]

theorem permute_zero (base : BitVec 16) (b : Nat → Byte) (m : M) : permuteNrounds base b m 0 = none := by
  have h : ∀ m, rep chiSlice 8 (m, 0, 0, 192) = none := by
    intro m
    rw [show 8 = 2 + 6 from rfl, rep_add, chiSlices_eq 2 (by decide) m 192 (by decide), Option.bind_some, rep]
    unfold chiSlice
    simp only [Option.bind_eq_bind]
    rw [chiRows_eq _ _ (by decide), Option.bind_some]
    rfl
  obtain ⟨m1, e1, -⟩ := prep_eq m
  obtain ⟨m2, e2, -⟩ := theta_eq m1
  obtain ⟨t, m3, e3, e4, c, -⟩ := rhoPi_eq m2 ((base + BitVec.ofNat 16 192).setWidth 8) b
  have hr : round base b m1 192 = none := by
    unfold round
    simp only [Option.bind_eq_bind]
    rw [e2, Option.bind_some]
    show (load8A m2 8).bind _ = _
    rw [e3, Option.bind_some, e4, Option.bind_some, c, pop_eq _ _ (by omega), h]
    rfl
  show permute base b m 192 = none
  unfold permute
  rw [e1, Option.bind_eq_bind, Option.bind_some]
  show roundLoop base b (255 + 1) m1 192 = none
  rw [roundLoop, hr]
  rfl

/-! ## Interrupts -/

theorem last_round (base : BitVec 16) (b : Nat → Byte) (m m' : M) (h : round base b m 184 = some (m', 192)) : roundLoop base b 256 m 184 = some m' := by
  show roundLoop base b (255 + 1) m 184 = some m'
  rw [roundLoop, h]
  rfl

theorem rol_zero (o : Nat) : rol64 (0#64) o = 0#64 := by
  unfold rol64
  simp

theorem pushC_pushC (m : M) (r q : Byte) : pushC (pushC m r) q = pushC m q := by
  unfold pushC
  congr 1
  funext j
  dsimp only
  split <;> rfl

theorem L_of_bytes (m m' : M) (h : bytes m = bytes m') : L m = L m' := by
  funext j
  apply lane_ext
  intro k hk
  have hj := j.isLt
  have e := congrArg (fun l => l[8 * j.val + k]?) h
  simp only [bytes, List.getElem?_map, List.getElem?_range (show 8 * j.val + k < 200 by omega), Option.map_some, Option.some.injEq] at e
  rw [byteOf_L _ _ _ hk, byteOf_L _ _ _ hk, e]

theorem interrupted (base : BitVec 16) (b : Nat → Byte) (m : M) (hm : ∀ i, m.a i = 0) (r : Byte) : ∃ m', permuteInterrupted base b m r 184 = some m' ∧
    L m' (lane 1 0) = rol64 (word fun k => if k = 0 then r else 0) 44 := by
  have hp : ∀ i, parity m.a i = 0 := fun i => by unfold parity; simp only [hm]; rfl
  obtain ⟨m', B, e, -, h2, h4⟩ := round_val base b (interrupt ⟨m.a, fun j => if j < 40 then parity m.a j else m.c j⟩ r) 184 (by decide)
  refine ⟨m', ?_, ?_⟩
  · unfold permuteInterrupted
    simp only [Option.bind_eq_bind]
    rw [prep_val, Option.bind_some]
    exact last_round _ _ _ _ e
  · have hL : ∀ j, L (interrupt ⟨m.a, fun j => if j < 40 then parity m.a j else m.c j⟩ r) j = 0 := fun j => by
      unfold L interrupt pushC
      simp only [hm]
      rfl
    have hK : ∀ x : Fin 5, K (interrupt ⟨m.a, fun j => if j < 40 then parity m.a j else m.c j⟩ r) x = if x = 0 then word fun k => if k = 0 then r else 0 else 0 := fun x => by
      apply lane_ext
      intro k hk
      have hx := x.isLt
      rw [byteOf_K _ _ _ hk]
      unfold interrupt pushC
      simp only [hp]
      by_cases h0 : x = 0
      · subst h0
        rw [if_pos rfl, byteOf_word _ _ hk]
        show (if 8 * 0 + k = 0 then r else if 8 * 0 + k < 40 then 0 else m.c (8 * 0 + k)) = _
        rw [Nat.mul_zero, Nat.zero_add, if_pos (show k < 40 by omega)]
      · have : x.val ≠ 0 := fun h => h0 (Fin.ext h)
        rw [if_neg h0, if_neg (by omega), if_pos (by omega)]
        interval_cases k <;> rfl
    have b1 := h2 1 0
    have b2 := h2 2 0
    have b3 := h2 3 0
    rw [hL, hK, hK] at b1 b2 b3
    have l := h4 1 0
    rw [if_neg (by decide), show (1 + 1 : Fin 5) = 2 by decide, show (1 + 2 : Fin 5) = 3 by decide, b1, b2, b3] at l
    rw [l]
    simp [rol_zero, KeccakP1600.Ref.rhoOffsets, lane]

/-- For the state 0 an interrupt that stores a 0 is as no interrupt. -/
theorem interrupted_zero (base : BitVec 16) (b : Nat → Byte) (m : M) (hm : ∀ i, m.a i = 0) : permuteInterrupted base b m 0 184 = permuteNrounds base b m 1 := by
  have hp : ∀ i, parity m.a i = 0 := fun i => by unfold parity; simp only [hm]; rfl
  show _ = permute base b m 184
  unfold permuteInterrupted permute
  simp only [Option.bind_eq_bind]
  rw [prep_val, Option.bind_some, Option.bind_some]
  congr 1
  unfold interrupt pushC
  congr 1
  funext j
  dsimp only
  by_cases h : j = 0
  · subst h; rw [if_pos rfl, if_pos (by decide), hp]
  · rw [if_neg h]

end Avr8.Fast
