import Verif.Proofs.Xoodyak

/-!
Lemmas: scripts of Xoodyak calls, and decryption against encryption in the specification.
-/

namespace Spec.Cyclist

theorem zipWith_xor_cancel (a b : Bytes) (h : a.length ≤ b.length) :
    List.zipWith (· ^^^ ·) (List.zipWith (· ^^^ ·) a b) b = a := by
  apply List.ext_getElem?; intro j
  rw [List.getElem?_zipWith, List.getElem?_zipWith]
  by_cases hj : j < a.length
  · rw [List.getElem?_eq_getElem hj, List.getElem?_eq_getElem (show j < b.length by omega)]
    simp [BitVec.xor_assoc]
  · rw [List.getElem?_eq_none (show a.length ≤ j by omega)]

/-- the states met by the specification are 48 bytes long -/
theorem length_down (S : St) (hS : S.s.length = 48) (Xi : Bytes) (h : Xi.length ≤ 46) (c : Byte) :
    (down S Xi c).s.length = 48 := by
  simp [down, hS]; omega

theorem length_goUp {f : Bytes → Bytes} (hf : ∀ s : Bytes, s.length = 48 → (f s).length = 48) (S : St)
    (hS : S.s.length = 48) (n : Nat) (c : Byte) : (goUp f S n c).1.s.length = 48 := by
  simp only [goUp]
  apply hf
  split
  · simp [hS]
  · exact hS

/-- processing the output in the other direction returns the input and the same state -/
theorem crypt_inverse_aux {f : Bytes → Bytes} (hf : ∀ s : Bytes, s.length = 48 → (f s).length = 48) (d : Bool) :
    ∀ (n : Nat) (I : Bytes), I.length ≤ n → ∀ (S : St) (c : Byte), S.s.length = 48 →
      (cryptBlocks f d S (split I 24) c).2.length = I.length ∧
      cryptBlocks f (!d) S (split (cryptBlocks f d S (split I 24) c).2 24) c =
        ((cryptBlocks f d S (split I 24) c).1, I) := by
  intro n
  induction n with
  | zero =>
    intro I hI S c hS
    have : I = [] := List.length_eq_zero_iff.1 (by omega)
    subst this
    rw [split_cons [] 24 (by decide)]
    simp only [List.take_nil, List.drop_nil, rest_nil, cryptBlocks, List.length_nil, List.zipWith_nil_left,
      List.append_nil]
    rw [split_cons [] 24 (by decide)]
    simp only [List.take_nil, List.drop_nil, rest_nil, cryptBlocks, List.length_nil, List.zipWith_nil_left,
      List.append_nil, true_and]
    cases d <;> rfl
  | succ n ih =>
    intro I hI S c hS
    have hd : (I.take 24).length ≤ 24 := by simp
    generalize hU : goUp f S (I.take 24).length c = U
    have hU1 : U.1.s.length = 48 := by rw [← hU]; exact length_goUp hf S hS _ _
    have hU2 : U.2.length = (I.take 24).length := by
      have : U.2 = U.1.s.take (I.take 24).length := by rw [← hU]; rfl
      rw [this, List.length_take, hU1]; omega
    generalize hO : List.zipWith (· ^^^ ·) (I.take 24) U.2 = O
    have hOl : O.length = (I.take 24).length := by rw [← hO, List.length_zipWith, hU2, Nat.min_self]
    have hcan : List.zipWith (· ^^^ ·) O U.2 = I.take 24 := by
      rw [← hO]; exact zipWith_xor_cancel _ _ (by omega)
    have hD : ∀ Z : Bytes, Z.length ≤ 24 → (down U.1 Z 0).s.length = 48 := fun Z h => length_down _ hU1 _ (by omega) 0
    generalize hD' : down U.1 (if d then O else I.take 24) 0 = D
    have hDl : D.s.length = 48 := by rw [← hD']; exact hD _ (by split <;> omega)
    have hDn : down U.1 (if (!d) = true then I.take 24 else O) 0 = D := by
      rw [← hD']; cases d <;> rfl
    -- the two directions on a string whose first block is O
    have hfwd : cryptBlocks f d S (split I 24) c =
        ((cryptBlocks f d D (rest (I.drop 24) 24) 0).1, O ++ (cryptBlocks f d D (rest (I.drop 24) 24) 0).2) := by
      rw [split_cons I 24 (by decide), cryptBlocks, hU]
      simp only [hO, hD']
    have hbwd : ∀ Z : Bytes, (I.length < 24 → Z = []) →
        cryptBlocks f (!d) S (split (O ++ Z) 24) c =
        ((cryptBlocks f (!d) D (rest Z 24) 0).1, I.take 24 ++ (cryptBlocks f (!d) D (rest Z 24) 0).2) := by
      intro Z hZ
      have h1 : (O ++ Z).take 24 = O := by
        by_cases h : I.length < 24
        · rw [hZ h, List.append_nil, List.take_of_length_le (by omega)]
        · rw [List.take_left' (by rw [hOl]; simp; omega)]
      have h2 : (O ++ Z).drop 24 = Z := by
        by_cases h : I.length < 24
        · rw [hZ h, List.append_nil, List.drop_eq_nil_of_le (by omega)]
        · rw [List.drop_left' (by rw [hOl]; simp; omega)]
      rw [split_cons _ 24 (by decide), h1, h2, cryptBlocks, hOl, hU]
      simp only [hcan, hDn]
    by_cases hr : I.drop 24 = []
    · rw [hr, rest_nil, cryptBlocks, List.append_nil] at hfwd
      have hI24 : I.take 24 = I := List.take_of_length_le (by
        have := congrArg List.length hr; simp at this; omega)
      have hb := hbwd [] (fun _ => rfl)
      rw [rest_nil, cryptBlocks, List.append_nil, List.append_nil] at hb
      rw [hfwd]
      exact ⟨by rw [hOl, hI24], by rw [hb, hI24]⟩
    · have hlen : 24 < I.length := by
        apply Nat.lt_of_not_le; intro h; exact hr (List.drop_eq_nil_of_le h)
      obtain ⟨i1, i2⟩ := ih (I.drop 24) (by simp; omega) D 0 hDl
      rw [rest, if_neg hr] at hfwd
      rw [hfwd]
      refine ⟨?_, ?_⟩
      · rw [List.length_append, i1, hOl]; simp; omega
      · have hne : (cryptBlocks f d D (split (I.drop 24) 24) 0).2 ≠ [] := by
          intro h; rw [h] at i1; simp at i1; omega
        rw [hbwd _ (by omega), rest, if_neg hne, i2, List.take_append_drop]

theorem crypt_inverse {f : Bytes → Bytes} (hf : ∀ s : Bytes, s.length = 48 → (f s).length = 48) (d : Bool) (S : St)
    (hS : S.s.length = 48) (I : Bytes) :
    (crypt f S I d).2.length = I.length ∧ crypt f S (crypt f S I d).2 (!d) = ((crypt f S I d).1, I) :=
  crypt_inverse_aux hf d I.length I (Nat.le_refl _) S 0x80 hS

end Spec.Cyclist

namespace Xoodyak

open Spec.Cyclist (St Op)

/-- A call of one of the functions of the interface, as a script of the specification names it. -/
def call (f : Bytes → Bytes) (full : Bool) (i : Inst) : Op → Option (Inst × Bytes)
  | .absorb X => (absorb f full i X).map fun i => (i, [])
  | .encrypt P => encrypt f full i P
  | .decrypt C => decrypt f full i C
  | .squeeze l => squeeze f full i l
  | .squeezeKey l => squeezeKey f full i l
  | .ratchet => (ratchet f full i).map fun i => (i, [])

/-- A sequence of calls: the final instance and what each call has written. -/
def run (f : Bytes → Bytes) (full : Bool) : Inst → List Op → Option (Inst × List Bytes)
  | i, [] => some (i, [])
  | i, op :: ops =>
    match call f full i op with
    | none => none
    | some (i, o) =>
      match run f full i ops with
      | none => none
      | some (i, os) => some (i, o :: os)

variable {f : Bytes → Bytes}

theorem call_eq (hf : ∀ s : Bytes, s.length = 48 → (f s).length = 48) (full : Bool) (S : St) (hS : S.s.length = 48)
    (op : Op) :
    call f full (ofSt S) op = some (ofSt (Spec.Cyclist.step f S op).1, (Spec.Cyclist.step f S op).2) ∧
      (Spec.Cyclist.step f S op).1.s.length = 48 ∧ (Spec.Cyclist.step f S op).1.keyed = S.keyed := by
  have hb := Rabsorb_bounds S
  cases op with
  | absorb X =>
    have h := absorbAny_eq hf full _ hb.1 hb.2 S hS X 0x03
    rw [call, absorb, ofSt_Rabsorb, h.1]
    exact ⟨rfl, h.2⟩
  | encrypt P => exact crypt_eq hf full false S hS P
  | decrypt P => exact crypt_eq hf full true S hS P
  | squeeze l => exact squeezeAny_eq hf full S hS l 0x40
  | squeezeKey l => exact squeezeAny_eq hf full S hS l 0x20
  | ratchet =>
    have h := squeezeAny_eq hf full S hS 16 0x10
    have hb' := Rabsorb_bounds (Spec.Cyclist.squeezeAny f S 16 0x10).1
    have h' := absorbAny_eq hf full _ hb'.1 hb'.2 _ h.2.1 (Spec.Cyclist.squeezeAny f S 16 0x10).2 0x00
    rw [call, ratchet, show lRatchet = 16 from rfl, h.1]
    simp only [Option.bind_eq_bind, Option.bind_some]
    rw [ofSt_Rabsorb, h'.1]
    exact ⟨rfl, h'.2.1, by rw [← h.2.2]; exact h'.2.2⟩

theorem run_eq (hf : ∀ s : Bytes, s.length = 48 → (f s).length = 48) (full : Bool) (ops : List Op) :
    ∀ S : St, S.s.length = 48 →
      run f full (ofSt S) ops = some (ofSt (Spec.Cyclist.run f S ops).1, (Spec.Cyclist.run f S ops).2) ∧
      (Spec.Cyclist.run f S ops).1.s.length = 48 ∧ (Spec.Cyclist.run f S ops).1.keyed = S.keyed := by
  induction ops with
  | nil => intro S hS; exact ⟨rfl, hS, rfl⟩
  | cons op ops ih =>
    intro S hS
    obtain ⟨h1, h2, h3⟩ := call_eq hf full S hS op
    obtain ⟨g1, g2, g3⟩ := ih _ h2
    rw [run, h1]
    simp only
    rw [g1]
    exact ⟨rfl, g2, by rw [← h3]; exact g3⟩

theorem initialize_eq (hf : ∀ s : Bytes, s.length = 48 → (f s).length = 48) (full : Bool) (K ID counter : Bytes)
    (h : K = [] ∨ K.length + ID.length ≤ 43) :
    initialize' f full K ID counter = some (ofSt (Spec.Cyclist.cyclist f K ID counter)) ∧
      (Spec.Cyclist.cyclist f K ID counter).s.length = 48 := by
  rw [initialize', Spec.Cyclist.cyclist]
  by_cases hK : K = []
  · subst hK; exact ⟨rfl, by simp⟩
  · have hl : K.length + ID.length ≤ 43 := by
      rcases h with h | h
      · exact absurd h hK
      · exact h
    simp only [if_neg hK]
    rw [if_pos (by simpa using hK)]
    exact absorbKey_eq hf full ⟨List.replicate 48 0, true, false⟩ (by simp) K ID counter hl

theorem initialize_none (full : Bool) (K ID counter : Bytes) (hK : K ≠ []) (h : 43 < K.length + ID.length) :
    initialize' f full K ID counter = none := by
  have hl : K.length ≠ 0 := by simpa using hK
  rw [initialize']
  simp only [if_pos hl]
  rw [absorbKey]
  simp only [if_pos hl]
  rw [if_neg (by unfold Rkin; omega)]

/-- the instances the code can be in: a 48-byte state, one of the phases, and the rates of one of the modes -/
structure WF (i : Inst) : Prop where
  len : i.state.length = 48
  phase : i.phase = PhaseUp ∨ i.phase = PhaseDown
  mode : i.mode = ModeHash ∧ i.Rabsorb = 16 ∧ i.Rsqueeze = 16 ∨ i.mode = ModeKeyed ∧ i.Rabsorb = 44 ∧ i.Rsqueeze = 24

theorem WF_ofSt (S : St) (hS : S.s.length = 48) : WF (ofSt S) := by
  obtain ⟨s, u, k⟩ := S
  refine ⟨hS, ?_, ?_⟩
  · cases u <;> simp [ofSt]
  · cases k <;> simp [ofSt, Spec.Cyclist.Rabsorb, Spec.Cyclist.Rsqueeze]

theorem WF.exists {i : Inst} (h : WF i) : ∃ S : St, S.s.length = 48 ∧ i = ofSt S := by
  obtain ⟨s, p, m, ra, rs⟩ := i
  obtain ⟨h1, h2, h3⟩ := h
  simp only at h1 h2 h3
  rcases h2 with h2 | h2 <;> rcases h3 with ⟨h3, h4, h5⟩ | ⟨h3, h4, h5⟩ <;> subst h2 <;> subst h3 <;> subst h4 <;> subst h5
  · exact ⟨⟨s, true, false⟩, h1, rfl⟩
  · exact ⟨⟨s, true, true⟩, h1, rfl⟩
  · exact ⟨⟨s, false, false⟩, h1, rfl⟩
  · exact ⟨⟨s, false, true⟩, h1, rfl⟩

end Xoodyak
