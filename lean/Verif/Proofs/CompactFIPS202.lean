import Verif.Model.CompactFIPS202
import Verif.Proofs.LaneBytes
import Verif.Proofs.KeccakPOpt

/-!
The permutations of the standalone compact implementations are the one of the reference implementation.
-/

namespace Compact202

open KeccakP1600 (Lane Lanes loopFrom put loopM bytesOfLanes lanesOfBytes bytesOfWord byteOf)

/-! ## Loops -/

theorem bind_ok {α β : Type} {x : Option α} {a : α} {f : α → Option β} {r : Option β} (h1 : x = some a) (h2 : f a = r) :
    (x >>= f) = r := by
  subst h1; exact h2

theorem loopM_rel {σ τ : Type} (f : Nat → σ → Option σ) (g : Nat → τ → τ) (R : Nat → σ → τ → Prop) :
    ∀ (n a : Nat) (s : σ) (t : τ), R a s t →
      (∀ i s t, a ≤ i → i < a + n → R i s t → ∃ s', f i s = some s' ∧ R (i + 1) s' (g i t)) →
      ∃ s', loopM f a n s = some s' ∧ R (a + n) s' (loopFrom g a n t)
  | 0, _, s, _, h, _ => ⟨s, rfl, h⟩
  | n + 1, a, s, t, h, hs => by
    obtain ⟨s1, e1, r1⟩ := hs a s t (by omega) (by omega) h
    obtain ⟨s2, e2, r2⟩ := loopM_rel f g R n (a + 1) s1 (g a t) r1
      (fun i s t h1 h2 => hs i s t (by omega) (by omega))
    refine ⟨s2, ?_, ?_⟩
    · rw [loopM, e1]; exact e2
    · rw [show a + (n + 1) = a + 1 + n by omega]; exact r2

theorem loopM_inv {σ : Type} (f : Nat → σ → Option σ) (I : Nat → σ → Prop) (n a : Nat) (s : σ) (h : I a s)
    (hs : ∀ i s, a ≤ i → i < a + n → I i s → ∃ s', f i s = some s' ∧ I (i + 1) s') :
    ∃ s', loopM f a n s = some s' ∧ I (a + n) s' :=
  loopM_rel f (fun _ (u : Unit) => u) (fun i s _ => I i s) n a s () h
    (fun i s _ h1 h2 hr => hs i s h1 h2 hr)

/-- The body maps encoded values to encoded values. -/
theorem loopM_map {σ τ : Type} (E : τ → σ) (f : Nat → σ → Option σ) (g : Nat → τ → τ) (n a : Nat) (t : τ)
    (hs : ∀ i t, a ≤ i → i < a + n → f i (E t) = some (E (g i t))) :
    loopM f a n (E t) = some (E (loopFrom g a n t)) := by
  obtain ⟨s', e, r⟩ := loopM_rel f g (fun _ s t => s = E t) n a (E t) t rfl
    (by intro i s t h1 h2 hr; subst hr; exact ⟨_, hs i t h1 h2, rfl⟩)
  rw [e, r]

theorem loopFrom_inv {σ : Type} (g : Nat → σ → σ) (I : Nat → σ → Prop) :
    ∀ (n a : Nat) (s : σ), I a s → (∀ i s, a ≤ i → i < a + n → I i s → I (i + 1) (g i s)) → I (a + n) (loopFrom g a n s)
  | 0, _, _, h, _ => h
  | n + 1, a, s, h, hs => by
    rw [show a + (n + 1) = a + 1 + n by omega]
    exact loopFrom_inv g I n (a + 1) (g a s) (hs a s (by omega) (by omega) h)
      (fun i s h1 h2 => hs i s (by omega) (by omega))

/-! ## Accesses -/

theorem byteOf_or (v w : Lane) (k : Nat) : byteOf (v ||| w) k = byteOf v k ||| byteOf w k := by
  apply KeccakP1600.byte_ext; intro t ht
  simp [KeccakP1600.getLsbD_byteOf _ _ _ ht]

theorem byteOf_push (u : Lane) (b : Byte) (k : Nat) (hk : k < 8) :
    byteOf ((u <<< 8) ||| b.setWidth 64) k = if k = 0 then b else byteOf u (k - 1) := by
  have := KeccakP1600.byteOf_shiftLeft u 1 k hk
  simp only [Nat.one_mul] at this
  rw [byteOf_or, this, KeccakP1600.byteOf_setWidth]
  by_cases h : k = 0
  · subst h; simp
  · have : 1 ≤ k := by omega
    simp [h, this]

theorem load64_eq (s : Bytes) (p : Nat) (h : p + 8 ≤ s.length) (w : Lane)
    (hw : ∀ k < 8, s[p + k]? = some (byteOf w k)) : load64 s p = some w := by
  obtain ⟨u, e, hu⟩ := loopM_inv (fun k (u : Lane) => (s[p + (7 - k)]?).map fun b => (u <<< 8) ||| b.setWidth 64)
    (fun k (u : Lane) => ∀ j < k, byteOf u j = byteOf w (8 - k + j)) 8 0 0 (by intro j hj; omega) (by
      intro i u h1 h2 hi
      refine ⟨_, by rw [hw _ (by omega)]; rfl, ?_⟩
      intro j hj
      rw [byteOf_push _ _ _ (by omega)]
      split
      · subst j; congr 1; omega
      · rw [hi _ (by omega)]; congr 1; omega)
  rw [load64, e]
  congr 1
  apply KeccakP1600.lane_ext
  intro k hk
  rw [hu k hk]; congr 1; omega

theorem set_eq_setAt (s : Bytes) (p : Nat) (b : Byte) : s.set p b = Bytes.setAt s p [b] := by
  apply List.ext_getElem?; intro j
  rw [Bytes.getElem?_setAt, List.getElem?_set]
  by_cases h : p = j
  · subst h
    by_cases hl : p < s.length
    · simp [hl]
    · simp [hl]
  · have : ¬ (p ≤ j ∧ j < p + 1) := by omega
    rw [if_neg h]
    cases s[j]? <;> simp [this]

theorem set_eq_xorAt (s : Bytes) (p : Nat) (a b : Byte) (h : s[p]? = some a) : s.set p (a ^^^ b) = Bytes.xorAt s p [b] := by
  apply List.ext_getElem?; intro j
  rw [Bytes.getElem?_xorAt, List.getElem?_set]
  by_cases e : p = j
  · subst e
    have hl : p < s.length := by
      by_contra hc
      rw [List.getElem?_eq_none (by omega)] at h; cases h
    rw [List.getElem?_eq_getElem hl] at h
    simp only [Option.some.injEq] at h
    simp [hl, h]
  · rw [if_neg e]
    cases s[j]? with
    | none => rfl
    | some c =>
      by_cases h1 : p ≤ j
      · have h2 : (1 : Nat) ≤ j - p := by omega
        simp [h1, List.getD_eq_getElem?_getD, List.getElem?_eq_none (show [b].length ≤ j - p from h2)]
      · simp [h1]

theorem take_bytesOfWord_succ (u : Lane) (i : Nat) (hi : i < 8) :
    (bytesOfWord u).take (i + 1) = (bytesOfWord u).take i ++ [byteOf u i] := by
  rw [List.take_add_one, KeccakP1600.getElem?_bytesOfWord, if_pos hi]; rfl

theorem byte_shift (u : Lane) (i : Nat) : (u >>> (8 * i)).setWidth 8 = byteOf u i := rfl

theorem store64_eq (s : Bytes) (p : Nat) (u : Lane) (h : p + 8 ≤ s.length) :
    store64 s p u = some (Bytes.setAt s p (bytesOfWord u)) := by
  obtain ⟨st, e, h1, h2⟩ := loopM_inv (fun i (st : Bytes × Lane) =>
      if p + i < st.1.length then some (st.1.set (p + i) (st.2.setWidth 8), st.2 >>> 8) else none)
    (fun i st => st.1 = Bytes.setAt s p ((bytesOfWord u).take i) ∧ st.2 = u >>> (8 * i)) 8 0 (s, u)
    (by simp) (by
      rintro i ⟨s1, u1⟩ h1 h2 ⟨h3, h4⟩
      simp only at h3 h4
      subst h3 h4
      refine ⟨_, if_pos (by simp; omega), ?_, ?_⟩
      · simp only
        rw [byte_shift, set_eq_setAt, take_bytesOfWord_succ _ _ (by omega)]
        have := Bytes.setAt_append s p ((bytesOfWord u).take i) [byteOf u i]
        rw [List.length_take, KeccakP1600.length_bytesOfWord, Nat.min_eq_left (by omega)] at this
        exact this
      · simp only
        rw [← BitVec.shiftRight_add, Nat.mul_succ])
  rw [store64, e, Option.map_some, h1, List.take_of_length_le (by rw [KeccakP1600.length_bytesOfWord])]

theorem xor64_eq (s : Bytes) (p : Nat) (u : Lane) (h : p + 8 ≤ s.length) :
    xor64 s p u = some (Bytes.xorAt s p (bytesOfWord u)) := by
  obtain ⟨st, e, h1, h2⟩ := loopM_inv (fun i (st : Bytes × Lane) =>
      (st.1[p + i]?).map fun b => (st.1.set (p + i) (b ^^^ st.2.setWidth 8), st.2 >>> 8))
    (fun i st => st.1 = Bytes.xorAt s p ((bytesOfWord u).take i) ∧ st.2 = u >>> (8 * i)) 8 0 (s, u)
    (by simp) (by
      rintro i ⟨s1, u1⟩ h1 h2 ⟨h3, h4⟩
      simp only at h3 h4
      have hl : p + i < s1.length := by rw [h3]; simp; omega
      refine ⟨_, by rw [List.getElem?_eq_getElem hl]; rfl, ?_, ?_⟩
      · simp only
        rw [set_eq_xorAt _ _ _ _ (List.getElem?_eq_getElem hl), h4, byte_shift, take_bytesOfWord_succ _ _ (by omega), h3]
        have := Bytes.xorAt_append s p ((bytesOfWord u).take i) [byteOf u i]
        rw [List.length_take, KeccakP1600.length_bytesOfWord, Nat.min_eq_left (by omega)] at this
        exact this
      · simp only [h4]
        rw [← BitVec.shiftRight_add, Nat.mul_succ])
  rw [xor64, e, Option.map_some, h1, List.take_of_length_le (by rw [KeccakP1600.length_bytesOfWord])]

/-- Index of a lane. -/
def ix (i : Nat) : Fin 25 := Fin.ofNat 25 i

theorem ix_val {i : Nat} (h : i < 25) : (ix i).val = i := Nat.mod_eq_of_lt h

theorem load_lane (A : Lanes) {x y : Nat} (hx : x < 5) (hy : y < 5) :
    readLane (bytesOfLanes A) x y = some (A (ix (x + 5 * y))) := by
  apply load64_eq _ _ (by rw [KeccakP1600.length_bytesOfLanes]; omega)
  intro k hk
  rw [KeccakP1600.getElem?_bytesOfLanes, dif_pos (by omega)]
  congr 2
  · congr 1; apply Fin.ext; rw [ix_val (by omega)]; simp only; omega
  · omega

theorem write_lane (A : Lanes) {x y : Nat} (hx : x < 5) (hy : y < 5) (v : Lane) :
    writeLane (bytesOfLanes A) x y v = some (bytesOfLanes (put A (ix (x + 5 * y)) v)) := by
  rw [writeLane, store64_eq _ _ _ (by rw [KeccakP1600.length_bytesOfLanes]; omega), KeccakP1600.bytesOfLanes_put,
    ix_val (by omega), Nat.mul_comm 8]

theorem xor_lane (A : Lanes) {x y : Nat} (hx : x < 5) (hy : y < 5) (v : Lane) :
    xorLane (bytesOfLanes A) x y v = some (bytesOfLanes (put A (ix (x + 5 * y)) (A (ix (x + 5 * y)) ^^^ v))) := by
  rw [xorLane, xor64_eq _ _ _ (by rw [KeccakP1600.length_bytesOfLanes]; omega), KeccakP1600.bytesOfLanes_put_xor,
    ix_val (by omega), Nat.mul_comm 8]

theorem rol_eq (a : Lane) {o : Nat} (h0 : 0 < o) (h : o < 64) : rol a o = some (KeccakP1600.Ref.rol64 a o) := by
  rw [rol, if_pos ⟨h0, h⟩, KeccakP1600.Ref.rol64, if_pos (by omega)]

/-! ## The step mappings on lanes -/

namespace Pure

open KeccakP1600 (Ref.rol64)

def thetaC (A : Lanes) : Five := loopFrom (fun x C => put C (i5 x)
  (A (ix (x + 5 * 0)) ^^^ A (ix (x + 5 * 1)) ^^^ A (ix (x + 5 * 2)) ^^^ A (ix (x + 5 * 3)) ^^^ A (ix (x + 5 * 4)))) 0 5
  (fun _ => 0)

def thetaAdd (C : Five) (A : Lanes) : Lanes :=
  loopFrom (fun x A => loopFrom (fun y A => put A (ix (x + 5 * y)) (A (ix (x + 5 * y)) ^^^
    (C (i5 ((x + 4) % 5)) ^^^ KeccakP1600.Ref.rol64 (C (i5 ((x + 1) % 5))) 1))) 0 5 A) 0 5 A

def chiCopy (A : Lanes) (y : Nat) : Five := loopFrom (fun x T => put T (i5 x) (A (ix (x + 5 * y)))) 0 5 (fun _ => 0)

def chiWrite (T : Five) (y : Nat) (A : Lanes) : Lanes :=
  loopFrom (fun x A => put A (ix (x + 5 * y)) (T (i5 x) ^^^ (~~~ T (i5 ((x + 1) % 5)) &&& T (i5 ((x + 2) % 5))))) 0 5 A

def chi (A : Lanes) : Lanes := loopFrom (fun y A => chiWrite (chiCopy A y) y A) 0 5 A

def step (t : Nat) (w : Walk Lanes) : Walk Lanes :=
  let Y := (2 * w.x + 3 * w.y) % 5
  ⟨put w.s (ix (w.y + 5 * Y)) (KeccakP1600.Ref.rol64 w.cur (((t + 1) * (t + 2) / 2) % 64)), w.y, Y, 0, w.s (ix (w.y + 5 * Y))⟩

def rhoPi (A : Lanes) : Lanes := (loopFrom step 0 24 ⟨A, 1, 0, 0, A (ix 1)⟩).s

def iota (st : Lanes × Byte) : Lanes × Byte :=
  loopFrom (fun j st =>
    let r := KeccakP1600.Ref.lfsr86540 st.2
    (if r.1 then put st.1 0 (st.1 0 ^^^ ((1 : Lane) <<< (2 ^ j - 1))) else st.1, r.2)) 0 7 st

def round (st : Lanes × Byte) : Lanes × Byte := iota (chi (rhoPi (thetaAdd (thetaC st.1) st.1)), st.2)

theorem theta_lane (A : Lanes) : ∀ x y : Fin 5, thetaAdd (thetaC A) A (KeccakP1600.lane x y) =
    A (KeccakP1600.lane x y) ^^^
    (A (KeccakP1600.lane (x + 4) 0) ^^^ A (KeccakP1600.lane (x + 4) 1) ^^^ A (KeccakP1600.lane (x + 4) 2) ^^^
      A (KeccakP1600.lane (x + 4) 3) ^^^ A (KeccakP1600.lane (x + 4) 4) ^^^
      KeccakP1600.Ref.rol64 (A (KeccakP1600.lane (x + 1) 0) ^^^ A (KeccakP1600.lane (x + 1) 1) ^^^
        A (KeccakP1600.lane (x + 1) 2) ^^^ A (KeccakP1600.lane (x + 1) 3) ^^^ A (KeccakP1600.lane (x + 1) 4)) 1) := by
  intro x y
  fin_cases x <;> fin_cases y <;> rfl

theorem theta_eq (A : Lanes) : thetaAdd (thetaC A) A = KeccakP1600.Ref.theta A := by
  rw [← KeccakP1600.Compact.theta_eq]
  funext i
  revert i
  apply KeccakP1600.forall_fin25
  intro x y
  rw [theta_lane, KeccakP1600.Compact.theta_lane]

/-- The walk of pi. -/
def xy : Nat → Nat × Nat
  | 0 => (1, 0)
  | t + 1 => ((xy t).2, (2 * (xy t).1 + 3 * (xy t).2) % 5)

theorem xy_pi : ∀ t : Fin 24, ix ((xy (t.val + 1)).1 + 5 * (xy (t.val + 1)).2) = KeccakP1600.Compact.piLane.getD t.val 0 ∧
    ((t.val + 1) * (t.val + 2) / 2) % 64 = KeccakP1600.Compact.rotationConstants.getD t.val 0 ∧
    KeccakP1600.Compact.rotationConstants.getD t.val 0 ≠ 0 := by decide

theorem walk_eq : ∀ n t (B : Lanes) (c : Lane), t + n ≤ 24 →
    (loopFrom step t n ⟨B, (xy t).1, (xy t).2, 0, c⟩).s =
    (loopFrom (fun x st =>
      let BC0 := st.1 (KeccakP1600.Compact.piLane.getD x 0)
      (put st.1 (KeccakP1600.Compact.piLane.getD x 0)
        (KeccakP1600.Compact.rol64 st.2 (KeccakP1600.Compact.rotationConstants.getD x 0)), BC0)) t n (B, c)).1
  | 0, _, _, _, _ => rfl
  | n + 1, t, B, c, h => by
    obtain ⟨h1, h2, h3⟩ := xy_pi ⟨t, by omega⟩
    simp only at h1 h2 h3
    have e : step t ⟨B, (xy t).1, (xy t).2, 0, c⟩ = ⟨put B (KeccakP1600.Compact.piLane.getD t 0)
        (KeccakP1600.Compact.rol64 c (KeccakP1600.Compact.rotationConstants.getD t 0)), (xy (t + 1)).1, (xy (t + 1)).2, 0,
        B (KeccakP1600.Compact.piLane.getD t 0)⟩ := by
      rw [← h1, ← h2]
      rw [← h2] at h3
      simp only [step, KeccakP1600.Ref.rol64, if_pos h3]
      rfl
    rw [loopFrom, loopFrom, e]
    exact walk_eq n (t + 1) _ _ (by omega)

theorem rhoPi_eq (A : Lanes) : rhoPi A = KeccakP1600.Ref.pi (KeccakP1600.Ref.rho KeccakP1600.Ref.rhoOffsets A) := by
  rw [← KeccakP1600.Compact.rhoPi_eq]
  exact walk_eq 24 0 A (A (ix 1)) (by decide)

theorem chi_eq (A : Lanes) : chi A = KeccakP1600.Ref.chi A := by
  funext i
  revert i
  apply KeccakP1600.forall_fin25
  intro x y
  rw [KeccakP1600.chi_lane]
  fin_cases x <;> fin_cases y <;> rfl

theorem put_put (A : Lanes) (i : Fin 25) (v w : Lane) : put (put A i v) i w = put A i w := by
  funext j; simp only [put]; split <;> rfl

theorem iota_eq (A : Lanes) (L : Byte) :
    iota (A, L) = (put A 0 (A 0 ^^^ (KeccakP1600.Ref.initRoundConstant L).1), (KeccakP1600.Ref.initRoundConstant L).2) := by
  have key : ∀ n a (B : Lanes) (c : Lane) (L : Byte), B = put A 0 (A 0 ^^^ c) →
      loopFrom (fun j st =>
        let r := KeccakP1600.Ref.lfsr86540 st.2
        (if r.1 then put st.1 0 (st.1 0 ^^^ ((1 : Lane) <<< (2 ^ j - 1))) else st.1, r.2)) a n (B, L) =
      (fun st : Lane × Byte => (put A 0 (A 0 ^^^ st.1), st.2)) (loopFrom (fun j st =>
        let bitPosition := 2 ^ j - 1
        let r := KeccakP1600.Ref.lfsr86540 st.2
        (if r.1 then st.1 ^^^ ((1 : Lane) <<< bitPosition) else st.1, r.2)) a n (c, L)) := by
    intro n
    induction n with
    | zero => intro a B c L h; rw [h]; rfl
    | succ n ih =>
      intro a B c L h
      rw [loopFrom, loopFrom]
      apply ih
      subst h
      simp only
      split
      · rw [put_put]
        simp only [put, if_true, BitVec.xor_assoc]
      · rfl
  have h0 : A = put A 0 (A 0 ^^^ 0#64) := by
    funext j; simp only [put, BitVec.xor_zero]; split
    · rename_i h; rw [h]
    · rfl
  exact key 7 0 A 0 L h0

/-- The LFSR after some rounds. -/
def lf : Nat → Byte
  | 0 => 0x01
  | i + 1 => (KeccakP1600.Ref.initRoundConstant (lf i)).2

theorem rc_eq : ∀ i : Fin 24, (KeccakP1600.Ref.initRoundConstant (lf i.val)).1 =
    KeccakP1600.Ref.roundConstants.getD i.val 0 := by decide +kernel

theorem round_eq (A : Lanes) (i : Nat) (hi : i < 24) : round (A, lf i) =
    (KeccakP1600.Ref.round KeccakP1600.Ref.roundConstants KeccakP1600.Ref.rhoOffsets A i, lf (i + 1)) := by
  rw [round, iota_eq, theta_eq, rhoPi_eq, chi_eq]
  simp only
  rw [rc_eq ⟨i, hi⟩]
  rfl

theorem rounds_eq : ∀ n a A, a + n ≤ 24 → loopFrom (fun _ st => round st) a n (A, lf a) =
    (loopFrom (fun i A => KeccakP1600.Ref.round KeccakP1600.Ref.roundConstants KeccakP1600.Ref.rhoOffsets A i) a n A, lf (a + n))
  | 0, _, _, _ => rfl
  | n + 1, a, A, h => by
    rw [loopFrom, loopFrom, round_eq _ _ (by omega), rounds_eq n (a + 1) _ (by omega)]
    congr 2; omega

theorem all_eq (A : Lanes) : (loopFrom (fun _ st => round st) 0 24 (A, 0x01)).1 =
    KeccakP1600.Ref.onWords KeccakP1600.Ref.roundConstants KeccakP1600.Ref.rhoOffsets A 24 := by
  have := congrArg Prod.fst (rounds_eq 24 0 A (Nat.le_refl 24))
  unfold KeccakP1600.Ref.onWords
  exact this

end Pure

/-! ## The step mappings on bytes -/

theorem thetaC_eq (A : Lanes) : thetaC (bytesOfLanes A) = some (Pure.thetaC A) := by
  apply loopM_map id
  intro x C h1 h2
  rw [load_lane A (by omega) (by omega), load_lane A (by omega) (by omega), load_lane A (by omega) (by omega),
    load_lane A (by omega) (by omega), load_lane A (by omega) (by omega)]
  rfl

theorem thetaAdd_eq (C : Five) (A : Lanes) : thetaAdd C (bytesOfLanes A) = some (bytesOfLanes (Pure.thetaAdd C A)) := by
  apply loopM_map bytesOfLanes
  intro x A h1 h2
  rw [rol_eq _ (by omega) (by omega)]
  apply loopM_map bytesOfLanes
  intro y A h3 h4
  exact xor_lane A (by omega) (by omega) _

theorem theta_eq (A : Lanes) : theta (bytesOfLanes A) = some (bytesOfLanes (Pure.thetaAdd (Pure.thetaC A) A)) := by
  rw [theta, thetaC_eq, Option.bind_some, thetaAdd_eq]

theorem chi_eq (A : Lanes) : chi (bytesOfLanes A) = some (bytesOfLanes (Pure.chi A)) := by
  apply loopM_map bytesOfLanes
  intro y A h1 h2
  have h3 : chiCopy (bytesOfLanes A) y = some (Pure.chiCopy A y) := by
    apply loopM_map id
    intro x T h3 h4
    rw [load_lane A (by omega) (by omega)]
    rfl
  rw [h3, Option.bind_some]
  apply loopM_map bytesOfLanes
  intro x A h3 h4
  exact write_lane A (by omega) (by omega) _

/-- The rotation of step `t` is a legal one. -/
theorem rot_ok : ∀ t : Fin 24, 0 < ((t.val + 1) * (t.val + 2) / 2) % 64 := by decide

/-- Triangular numbers. -/
theorem tri_succ (t : Nat) : t * (t + 1) / 2 + (t + 1) = (t + 1) * (t + 2) / 2 := by
  have : (t + 1) * (t + 2) = t * (t + 1) + (t + 1) * 2 := by ring
  rw [this, Nat.add_mul_div_right _ _ (by omega)]

namespace Readable

theorem rhoPi_eq (A : Lanes) : rhoPi (bytesOfLanes A) = some (bytesOfLanes (Pure.rhoPi A)) := by
  obtain ⟨w, e, h1, -⟩ := loopM_rel rhoPiStep Pure.step
    (fun _ w v => w.s = bytesOfLanes v.s ∧ w.x = v.x ∧ w.y = v.y ∧ w.cur = v.cur ∧ v.x < 5 ∧ v.y < 5) 24 0
    ⟨bytesOfLanes A, 1, 0, 0, A (ix 1)⟩ ⟨A, 1, 0, 0, A (ix 1)⟩ ⟨rfl, rfl, rfl, rfl, Nat.lt_of_sub_eq_succ rfl, Nat.lt_of_sub_eq_succ rfl⟩ (by
      rintro t ⟨s, x, y, r, c⟩ ⟨B, x', y', r', c'⟩ h1 h2 ⟨h3, h4, h5, h6, h7, h8⟩
      simp only at h3 h4 h5 h6 h7 h8
      subst h3 h4 h5 h6
      have hY : (2 * x + 3 * y) % 5 < 5 := Nat.mod_lt _ (by decide)
      refine ⟨⟨bytesOfLanes (Pure.step t ⟨B, x, y, r', c⟩).s, y, (2 * x + 3 * y) % 5, 0,
        B (ix (y + 5 * ((2 * x + 3 * y) % 5)))⟩, ?_, rfl, rfl, rfl, rfl, h8, hY⟩
      have hr := rot_ok ⟨t, by omega⟩
      simp only at hr
      unfold rhoPiStep
      exact bind_ok (load_lane B h8 hY) (bind_ok (rol_eq _ hr (Nat.mod_lt _ (by decide))) (bind_ok (write_lane B h8 hY _) rfl)))
  have h0 : readLane (bytesOfLanes A) 1 0 = some (A (ix 1)) := load_lane A (by decide) (by decide)
  unfold rhoPi
  refine bind_ok h0 (bind_ok e ?_)
  rw [h1]
  rfl

theorem iota_eq (A : Lanes) (L : Byte) :
    iota (bytesOfLanes A, L) = some ((fun st : Lanes × Byte => (bytesOfLanes st.1, st.2)) (Pure.iota (A, L))) := by
  apply loopM_map (fun st : Lanes × Byte => (bytesOfLanes st.1, st.2)) _ _ 7 0 (A, L)
  rintro j ⟨A, L⟩ h1 h2
  have e : lfsr86540 L = KeccakP1600.Ref.lfsr86540 L := rfl
  simp only [e]
  split
  · have : ix (0 + 5 * 0) = 0 := rfl
    rw [xor_lane A (by omega) (by omega), Option.map_some, this]
  · rfl

theorem round_eq (st : Lanes × Byte) : round (bytesOfLanes st.1, st.2) =
    some ((fun st : Lanes × Byte => (bytesOfLanes st.1, st.2)) (Pure.round st)) := by
  unfold round
  exact bind_ok (theta_eq _) (bind_ok (rhoPi_eq _) (bind_ok (chi_eq _) (iota_eq _ _)))

theorem permute_eq (s : Bytes) (hs : s.length = 200) : permute s = some (KeccakP1600.Ref.permuteNrounds 24 s) := by
  have h := loopM_map (fun st : Lanes × Byte => (bytesOfLanes st.1, st.2)) (fun _ st => round st)
    (fun _ st => Pure.round st) 24 0 (lanesOfBytes s, 0x01) (fun i st _ _ => round_eq st)
  simp only [KeccakP1600.bytesOfLanes_lanesOfBytes s hs] at h
  rw [permute, h, Option.map_some]
  simp only
  rw [Pure.all_eq, KeccakP1600.Ref.permuteNrounds]

end Readable

namespace More

theorem lfsr_eq : ∀ R : Byte, lfsr86540 R = KeccakP1600.Ref.lfsr86540 R := by decide +kernel

theorem rhoPi_eq (A : Lanes) : rhoPi (bytesOfLanes A) = some (bytesOfLanes (Pure.rhoPi A)) := by
  obtain ⟨w, e, h1, -⟩ := loopM_rel rhoPiStep Pure.step
    (fun t w v => w.s = bytesOfLanes v.s ∧ w.x = v.x ∧ w.y = v.y ∧ w.cur = v.cur ∧ v.x < 5 ∧ v.y < 5 ∧
      w.r = t * (t + 1) / 2 % 2 ^ 32) 24 0
    ⟨bytesOfLanes A, 1, 0, 0, A (ix 1)⟩ ⟨A, 1, 0, 0, A (ix 1)⟩ ⟨rfl, rfl, rfl, rfl, Nat.lt_of_sub_eq_succ rfl, Nat.lt_of_sub_eq_succ rfl, rfl⟩ (by
      rintro t ⟨s, x, y, r, c⟩ ⟨B, x', y', r', c'⟩ h1 h2 ⟨h3, h4, h5, h6, h7, h8, h9⟩
      simp only at h3 h4 h5 h6 h7 h8 h9
      subst h3 h4 h5 h6
      have hY : (2 * x + 3 * y) % 5 < 5 := Nat.mod_lt _ (by decide)
      have hr := rot_ok ⟨t, by omega⟩
      simp only at hr
      have e1 : (r + (t + 1)) % 2 ^ 32 = (t + 1) * (t + 2) / 2 % 2 ^ 32 := by
        rw [h9, Nat.mod_add_mod, tri_succ]
      have e2 : (r + (t + 1)) % 2 ^ 32 % 64 = (t + 1) * (t + 2) / 2 % 64 := by
        rw [e1]; exact Nat.mod_mod_of_dvd _ (by decide)
      refine ⟨⟨bytesOfLanes (Pure.step t ⟨B, x, y, r', c⟩).s, y, (2 * x + 3 * y) % 5, (r + (t + 1)) % 2 ^ 32,
        B (ix (y + 5 * ((2 * x + 3 * y) % 5)))⟩, ?_, rfl, rfl, rfl, rfl, h8, hY, e1⟩
      have hrol := rol_eq c hr (Nat.mod_lt _ (by decide))
      rw [← e2] at hrol
      unfold rhoPiStep
      refine bind_ok (load_lane B h8 hY) (bind_ok hrol (bind_ok (write_lane B h8 hY _) ?_))
      simp only [e2, Pure.step])
  have h0 : readLane (bytesOfLanes A) 1 0 = some (A (ix 1)) := load_lane A (by decide) (by decide)
  unfold rhoPi
  refine bind_ok h0 (bind_ok e ?_)
  rw [h1]
  rfl

theorem iota_eq : iota = Readable.iota := by
  funext st
  have e : (fun j (st : Bytes × Byte) =>
      let r := lfsr86540 st.2
      if r.1 then (xorLane st.1 0 0 ((1 : Lane) <<< (2 ^ j - 1))).map fun s => (s, r.2) else some (st.1, r.2)) =
    (fun j (st : Bytes × Byte) =>
      let r := Readable.lfsr86540 st.2
      if r.1 then (xorLane st.1 0 0 ((1 : Lane) <<< (2 ^ j - 1))).map fun s => (s, r.2) else some (st.1, r.2)) := by
    funext j st
    rw [lfsr_eq]
    rfl
  unfold iota Readable.iota
  rw [e]

theorem round_eq (st : Lanes × Byte) : round (bytesOfLanes st.1, st.2) =
    some ((fun st : Lanes × Byte => (bytesOfLanes st.1, st.2)) (Pure.round st)) := by
  unfold round
  rw [iota_eq]
  exact bind_ok (theta_eq _) (bind_ok (rhoPi_eq _) (bind_ok (chi_eq _) (Readable.iota_eq _ _)))

theorem permute_eq (s : Bytes) (hs : s.length = 200) : permute s = some (KeccakP1600.Ref.permuteNrounds 24 s) := by
  have h := loopM_map (fun st : Lanes × Byte => (bytesOfLanes st.1, st.2)) (fun _ st => round st)
    (fun _ st => Pure.round st) 24 0 (lanesOfBytes s, 0x01)
    (fun i st _ _ => round_eq st)
  simp only [KeccakP1600.bytesOfLanes_lanesOfBytes s hs] at h
  rw [permute, h, Option.map_some]
  simp only
  rw [Pure.all_eq, KeccakP1600.Ref.permuteNrounds]

end More

/-! ## The permutation on words -/

namespace Tweet

/-- An array of words. -/
def enc (A : Lanes) : List Lane := (List.finRange 25).map A

theorem length_enc (A : Lanes) : (enc A).length = 25 := by rw [enc, List.length_map, List.length_finRange]

theorem get_enc (A : Lanes) {i : Nat} (h : i < 25) : (enc A)[i]? = some (A (ix i)) := by
  rw [enc, List.getElem?_map, List.getElem?_eq_getElem (by rw [List.length_finRange]; exact h), List.getElem_finRange,
    Option.map_some]
  congr 2
  apply Fin.ext
  rw [ix_val h]
  rfl

theorem set_enc (A : Lanes) {i : Nat} (h : i < 25) (v : Lane) : (enc A).set i v = enc (put A (ix i) v) := by
  apply List.ext_getElem?; intro j
  rw [List.getElem?_set]
  by_cases hj : j < 25
  · rw [get_enc _ hj, get_enc _ hj, length_enc, if_pos h]
    by_cases e : i = j
    · subst e; simp [put]
    · have : ix j ≠ ix i := by
        intro h'
        apply e
        rw [← ix_val h, ← ix_val hj, h']
      simp [e, put, this]
  · rw [List.getElem?_eq_none (by rw [length_enc]; omega), List.getElem?_eq_none (by rw [length_enc]; omega)]
    have : i ≠ j := by omega
    simp [this]

theorem wr_enc (A : Lanes) {i : Nat} (h : i < 25) (v : Lane) : wr (enc A) i v = some (enc (put A (ix i) v)) := by
  rw [wr, if_pos (by rw [length_enc]; exact h), set_enc A h]

theorem xr_enc (A : Lanes) {i : Nat} (h : i < 25) (v : Lane) : xr (enc A) i v = some (enc (put A (ix i) (A (ix i) ^^^ v))) := by
  rw [xr, get_enc A h, Option.map_some, set_enc A h]

/-- The column parities as this program computes them. -/
def parities (A : Lanes) (B : Five) : Five := loopFrom (fun i B => loopFrom (fun j B => put B (i5 i) (B (i5 i) ^^^ A (ix (i + 5 * j)))) 0 5
  (put B (i5 i) 0)) 0 5 B

theorem parities_eq (A : Lanes) (B : Five) : parities A B = Pure.thetaC A := by
  have h : ∀ x : Fin 5, parities A B x = 0#64 ^^^ A (KeccakP1600.lane x 0) ^^^ A (KeccakP1600.lane x 1) ^^^
      A (KeccakP1600.lane x 2) ^^^ A (KeccakP1600.lane x 3) ^^^ A (KeccakP1600.lane x 4) := by
    intro x; fin_cases x <;> rfl
  have h' : ∀ x : Fin 5, Pure.thetaC A x = A (KeccakP1600.lane x 0) ^^^ A (KeccakP1600.lane x 1) ^^^
      A (KeccakP1600.lane x 2) ^^^ A (KeccakP1600.lane x 3) ^^^ A (KeccakP1600.lane x 4) := by
    intro x; fin_cases x <;> rfl
  funext x
  rw [h, h', BitVec.zero_xor]

theorem thetaC_eq (A : Lanes) (B : Five) : thetaC (enc A) B = some (Pure.thetaC A) := by
  rw [← parities_eq A B]
  apply loopM_map id
  intro i B h1 h2
  apply loopM_map id
  intro j B h3 h4
  rw [get_enc A (by omega)]
  rfl

theorem thetaAdd_eq (C : Five) (A : Lanes) : thetaAdd C (enc A) = some (enc (Pure.thetaAdd C A)) := by
  apply loopM_map enc
  intro x A h1 h2
  rw [rol_eq _ (by omega) (by omega)]
  apply loopM_map enc
  intro y A h3 h4
  exact xr_enc A (by omega) _

theorem chiCopy_any (A : Lanes) (y : Nat) (C : Five) :
    loopFrom (fun x T => put T (i5 x) (A (ix (x + 5 * y)))) 0 5 C = Pure.chiCopy A y := by
  funext x
  fin_cases x <;> rfl

theorem chi_eq (A : Lanes) (B : Five) : ∃ B', chi (enc A, B) = some (enc (Pure.chi A), B') := by
  obtain ⟨w, e, h⟩ := loopM_rel (fun j (st : List Lane × Five) => do
      let B ← chiCopy st.1 j st.2
      let s ← chiWrite B j st.1
      some (s, B)) (fun y A => Pure.chiWrite (Pure.chiCopy A y) y A)
    (fun _ st A => st.1 = enc A) 5 0 (enc A, B) A rfl (by
      rintro y ⟨s, B⟩ A h1 h2 h3
      simp only at h3
      subst h3
      have h3 : chiCopy (enc A) y B = some (Pure.chiCopy A y) := by
        rw [← chiCopy_any A y B]
        apply loopM_map id
        intro x T h3 h4
        rw [get_enc A (by omega)]
        rfl
      have h4 : chiWrite (Pure.chiCopy A y) y (enc A) = some (enc (Pure.chiWrite (Pure.chiCopy A y) y A)) := by
        apply loopM_map enc
        intro x A h3 h4
        exact wr_enc A (by omega) _
      exact ⟨_, bind_ok h3 (bind_ok h4 rfl), rfl⟩)
  exact ⟨w.2, by rw [chi, e, ← show w.1 = enc (Pure.chi A) from h]⟩

theorem rhoPi_eq (A : Lanes) : rhoPi (enc A) = some (enc (Pure.rhoPi A)) := by
  obtain ⟨w, e, h1, -⟩ := loopM_rel rhoPiStep Pure.step
    (fun t w v => w.s = enc v.s ∧ w.x = v.x ∧ w.y = v.y ∧ w.cur = v.cur ∧ v.x < 5 ∧ v.y < 5 ∧
      w.r = t * (t + 1) / 2 % 2 ^ 8) 24 0
    ⟨enc A, 1, 0, 0, A (ix 1)⟩ ⟨A, 1, 0, 0, A (ix 1)⟩ ⟨rfl, rfl, rfl, rfl, Nat.lt_of_sub_eq_succ rfl, Nat.lt_of_sub_eq_succ rfl, rfl⟩ (by
      rintro t ⟨s, x, y, r, c⟩ ⟨B, x', y', r', c'⟩ h1 h2 ⟨h3, h4, h5, h6, h7, h8, h9⟩
      simp only at h3 h4 h5 h6 h7 h8 h9
      subst h3 h4 h5 h6
      have hY : (2 * x + 3 * y) % 5 < 5 := Nat.mod_lt _ (by decide)
      have hr := rot_ok ⟨t, by omega⟩
      simp only at hr
      have e1 : (r + (t + 1)) % 2 ^ 8 = (t + 1) * (t + 2) / 2 % 2 ^ 8 := by
        rw [h9, Nat.mod_add_mod, tri_succ]
      have e2 : (r + (t + 1)) % 2 ^ 8 % 64 = (t + 1) * (t + 2) / 2 % 64 := by
        rw [e1]; exact Nat.mod_mod_of_dvd _ (by decide)
      refine ⟨⟨enc (Pure.step t ⟨B, x, y, r', c⟩).s, y, (2 * x + 3 * y) % 5, (r + (t + 1)) % 2 ^ 8,
        B (ix (y + 5 * ((2 * x + 3 * y) % 5)))⟩, ?_, rfl, rfl, rfl, rfl, h8, hY, e1⟩
      have hrol := rol_eq c hr (Nat.mod_lt _ (by decide))
      rw [← e2] at hrol
      have hb : y + 5 * ((2 * x + 3 * y) % 5) < 25 := by omega
      unfold rhoPiStep
      refine bind_ok (get_enc B hb) (bind_ok hrol (bind_ok (wr_enc B hb _) ?_))
      simp only [e2, Pure.step])
  have h0 : (enc A)[1]? = some (A (ix 1)) := get_enc A (by decide)
  unfold rhoPi
  refine bind_ok h0 (bind_ok e ?_)
  rw [h1]
  rfl

theorem lfsr_eq : ∀ R : Byte, lfsr R = (KeccakP1600.Ref.lfsr86540 R).2 ∧
    ((lfsr R &&& 2) ≠ 0 ↔ (KeccakP1600.Ref.lfsr86540 R).1 = true) := by decide +kernel

theorem iota_eq (A : Lanes) (L : Byte) :
    iota (enc A, L) = some ((fun st : Lanes × Byte => (enc st.1, st.2)) (Pure.iota (A, L))) := by
  apply loopM_map (fun st : Lanes × Byte => (enc st.1, st.2)) _ _ 7 0 (A, L)
  rintro j ⟨A, L⟩ h1 h2
  obtain ⟨e1, e2⟩ := lfsr_eq L
  simp only
  by_cases h : (KeccakP1600.Ref.lfsr86540 L).1 = true
  · have e : ix 0 = 0 := rfl
    rw [if_pos (e2.2 h), if_pos h, xr_enc A (by omega), Option.map_some, e, e1]
  · rw [if_neg (fun h' => h (e2.1 h')), if_neg h, e1]

theorem round_eq (A : Lanes) (B : Five) (L : Byte) : ∃ B', round (enc A, B, L) =
    some (enc (Pure.round (A, L)).1, B', (Pure.round (A, L)).2) := by
  obtain ⟨B', h⟩ := chi_eq (Pure.rhoPi (Pure.thetaAdd (Pure.thetaC A) A)) (Pure.thetaC A)
  refine ⟨B', ?_⟩
  unfold round
  exact bind_ok (thetaC_eq _ _) (bind_ok (thetaAdd_eq _ _) (bind_ok (rhoPi_eq _) (bind_ok h (bind_ok (iota_eq _ _) rfl))))

theorem permute_eq (A : Lanes) : permute (enc A) =
    some (enc (KeccakP1600.Ref.onWords KeccakP1600.Ref.roundConstants KeccakP1600.Ref.rhoOffsets A 24)) := by
  obtain ⟨w, e, h1, -⟩ := loopM_rel (fun _ st => round st) (fun _ st => Pure.round st)
    (fun _ (w : List Lane × Five × Byte) (v : Lanes × Byte) => w.1 = enc v.1 ∧ w.2.2 = v.2) 24 0 (enc A, fun _ => 0, 1) (A, 0x01)
    ⟨rfl, rfl⟩ (by
      rintro i ⟨s, B, L⟩ ⟨A, L'⟩ _ _ ⟨h1, h2⟩
      simp only at h1 h2
      subst h1 h2
      obtain ⟨B', h⟩ := round_eq A B L
      exact ⟨_, h, rfl, rfl⟩)
  rw [permute, e, Option.map_some, h1, Pure.all_eq]

end Tweet

end Compact202
