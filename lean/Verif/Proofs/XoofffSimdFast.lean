import Verif.Proofs.XoofffSimd

/-!
The parts of the four files with the functions for Xoofff: rolling, reduction, loads and stores.
-/

namespace XoofffSimd

open Xoodoo (Lane byteOf rotl32)
open Simd32
open XoodooSimd (Vars rolOr offsets rounds6 scatter_upd ternary_xor rotl32_eq rotateLeft_eq)

variable {N n : Nat}

/-! ### Sets of words -/

/-- The words in `P` were given the values `g`. -/
structure WSet (out o : Bytes) (P : Nat → Prop) (g : Nat → Lane) : Prop where
  len : o.length = out.length
  new : ∀ j, P j → wd o j = g j
  old : ∀ j, ¬ P j → wd o j = wd out j

variable {out o o2 : Bytes} {P Q : Nat → Prop} {g : Nat → Lane}

theorem WSet.refl (out : Bytes) (g : Nat → Lane) : WSet out out (fun _ => False) g := ⟨rfl, fun _ h => h.elim, fun _ _ => rfl⟩

theorem WSet.trans (h1 : WSet out o P g) (h2 : WSet o o2 Q g) : WSet out o2 (fun j => P j ∨ Q j) g := by
  refine ⟨h2.len.trans h1.len, fun j hj => ?_, fun j hj => ?_⟩
  · by_cases hq : Q j
    · exact h2.new j hq
    · rw [h2.old j hq]; exact h1.new j (hj.resolve_right hq)
  · rw [h2.old j fun h => hj (.inr h), h1.old j fun h => hj (.inl h)]

theorem WSet.of_stored {i : Nat} {v : Nat → Lane} (h : Stored out o i n v) (hv : ∀ j < n, v j = g (i + j)) :
    WSet out o (fun j => i ≤ j ∧ j < i + n) g := by
  refine ⟨h.len, fun j hj => ?_, fun j hj => ?_⟩
  · rw [h.wd, if_pos hj, hv _ (by omega), show i + (j - i) = j by omega]
  · rw [h.wd, if_neg hj]

theorem WSet.congr (h : WSet out o P g) (hp : ∀ j, P j ↔ Q j) : WSet out o Q g :=
  ⟨h.len, fun j hj => h.new j ((hp j).2 hj), fun j hj => h.old j fun hq => hj ((hp j).1 hq)⟩

/-- All the words of the rows `0`, ..., `N - 1`. -/
theorem WSet.rows (h : WSet out o (· < 12 * N) g) : OUpd 12 out o 0 N 0 12 fun r p => g (r * 12 + p) := by
  refine ⟨h.len, fun q => ?_⟩
  have e (b : Bytes) : b.getD q 0 = byteOf (wd b (q / 4)) (q % 4) := by
    rw [byteOf_wd _ _ _ (by omega), show 4 * (q / 4) + q % 4 = q by omega]
  rw [e o, e out]
  by_cases hq : q / 4 < 12 * N
  · rw [if_pos (by omega), h.new _ hq, show q / 4 / 12 * 12 + q / 4 % 12 = q / 4 by omega]
  · rw [if_neg (by omega), h.old _ hq]

theorem storeVec_set (v : Vec n) (i : Nat) (hl : 4 * i + 4 * n ≤ out.length) (hv : ∀ l : Fin n, v l = g (i + l.val)) :
    ∃ o, storeVec out (4 * i) v = some o ∧ WSet out o (fun j => i ≤ j ∧ j < i + n) g := by
  obtain ⟨o, e, u⟩ := storeVec_ok out i v hl
  refine ⟨o, e, WSet.of_stored u fun j hj => ?_⟩
  rw [Vec.at, dif_pos hj]; exact hv ⟨j, hj⟩

theorem storeWord_set (w : Lane) (i : Nat) (hl : 4 * i + 4 ≤ out.length) (hv : w = g i) :
    ∃ o, storeWord out (4 * i) w = some o ∧ WSet out o (· = i) g := by
  obtain ⟨o, e, u⟩ := storeWord_ok out i w hl
  refine ⟨o, e, (WSet.of_stored (g := g) u fun j hj => ?_).congr fun j => by omega⟩
  rw [show i + j = i by omega]; exact hv

/-- Storing the lanes selected by a mask. -/
theorem scatter_set (mask : Nat) (idx v : Vec n) (h1 : ∀ l : Fin n, 4 * (idx l).toNat + 4 ≤ out.length ∧ (idx l).toNat < 2 ^ 31)
    (hv : ∀ l : Fin n, mask.testBit l.val = true → v l = g (idx l).toNat) :
    ∃ o, scatter mask out 0 idx v = some o ∧ WSet out o (fun j => ∃ l : Fin n, mask.testBit l.val = true ∧ (idx l).toNat = j) g := by
  obtain ⟨o, e, u⟩ := seq_inv (fun i buf => if mask.testBit i then
      if (idx.at i).msb then none else storeWord buf (0 + 4 * (idx.at i).toNat) (v.at i) else some buf)
    (fun i o => WSet out o (fun j => ∃ l : Fin n, l.val < i ∧ mask.testBit l.val = true ∧ (idx l).toNat = j) g) 1 n 0 n (List.range n)
    List.range_eq_range' (by omega)
    (fun i o hi h => by
      have hn : i < n := by omega
      by_cases hm : mask.testBit i = true
      · have h1' := h1 ⟨i, hn⟩
        have hmsb : (idx.at i).msb = false := by
          rw [Vec.at, dif_pos hn, BitVec.msb_eq_false_iff_two_mul_lt]; omega
        obtain ⟨o', e, u⟩ := storeWord_set (out := o) (g := g) (v.at i) (idx.at i).toNat
          (by rw [h.len, Vec.at, dif_pos hn]; omega) (by rw [Vec.at, Vec.at, dif_pos hn, dif_pos hn]; exact hv ⟨i, hn⟩ hm)
        refine ⟨o', by rw [if_pos hm, hmsb, Nat.zero_add]; exact e, (h.trans u).congr fun j => ?_⟩
        constructor
        · rintro (⟨l, a, b⟩ | rfl)
          · exact ⟨l, by omega, b⟩
          · exact ⟨⟨i, hn⟩, by simp, hm, by rw [Vec.at, dif_pos hn]⟩
        · rintro ⟨l, a, b⟩
          by_cases hl : l.val < i
          · exact .inl ⟨l, hl, b⟩
          · obtain rfl : l = ⟨i, hn⟩ := Fin.ext (by simp; omega)
            refine .inr ?_
            rw [Vec.at, dif_pos hn]; exact b.2.symm
      · refine ⟨o, by rw [if_neg hm], h.congr fun j => ?_⟩
        constructor
        · rintro ⟨l, a, b⟩; exact ⟨l, by omega, b⟩
        · rintro ⟨l, a, b⟩
          refine ⟨l, ?_, b⟩
          by_contra hl
          obtain rfl : l = ⟨i, hn⟩ := Fin.ext (by simp; omega)
          exact hm b.1)
    out ((WSet.refl out g).congr fun j => by simp)
  refine ⟨o, e, u.congr fun j => ?_⟩
  constructor
  · rintro ⟨l, _, b⟩; exact ⟨l, b⟩
  · rintro ⟨l, b⟩; exact ⟨l, by have := l.isLt; omega, b⟩

theorem gather_words {k : Bytes} (hk : k.length = 48) (idx : Vec n) (h : ∀ l, (idx l).toNat < 12) :
    gather k 0 idx = some fun l => wd k (idx l).toNat := by
  unfold gather
  rw [if_pos]
  · refine congrArg some (funext fun l => ?_)
    rw [Nat.zero_add]; rfl
  · intro l
    have := h l
    exact ⟨by rw [BitVec.msb_eq_false_iff_two_mul_lt]; omega, by omega⟩

/-! ### Registers with consecutive words of a sequence -/

/-- The words `s c`, `s (c + 1)`, ... -/
def seqv (n : Nat) (s : Nat → Lane) (c : Nat) : Vec n := fun l => s (c + l.val)

/-- The registers before the rounds. -/
def target (n : Nat) (s : Nat → Lane) (t : Nat) : Vars (Vec n) :=
  ⟨![seqv n s t, seqv n s (t + 3), seqv n s (t + 6), seqv n s (t + 9)],
    ![seqv n s (t + 7), seqv n s (t + 10), seqv n s (t + 1), seqv n s (t + 4)],
    ![seqv n s (t + 2), seqv n s (t + 5), seqv n s (t + 8), seqv n s (t + 11)]⟩

theorem inp_target (s : Nat → Lane) (t : Nat) (p : Fin 12) (l : Fin n) : inp (target n s t) p l = s (t + l.val + pos p.val) := by
  have e (c : Nat) (hc : c = pos p.val) : seqv n s (t + c) l = s (t + l.val + pos p.val) := by
    rw [← hc, seqv]; congr 1; omega
  fin_cases p
  · exact e 0 rfl
  · exact e 3 rfl
  · exact e 6 rfl
  · exact e 9 rfl
  · exact e 1 rfl
  · exact e 4 rfl
  · exact e 7 rfl
  · exact e 10 rfl
  · exact e 2 rfl
  · exact e 5 rfl
  · exact e 8 rfl
  · exact e 11 rfl

section
variable {s : Nat → Lane}

theorem newc (hs : ∀ t, s (t + 12) = gc (s t) (s (t + 1)) (s (t + 2))) (t : Nat) :
    xor (seqv n s t) (xor (slli (seqv n s t) 13) (rolOr (seqv n s (t + 1)) 3)) = seqv n s (t + 12) := by
  funext l
  have := hs (t + l.val)
  rw [show t + l.val + 12 = t + 12 + l.val by omega, gc, ← rotl32_eq _ 3 (by omega) (by omega), show t + l.val + 1 = t + 1 + l.val by omega] at this
  exact this.symm

theorem newe (hs : ∀ t, s (t + 12) = ge (s t) (s (t + 1)) (s (t + 2))) (t : Nat) :
    xor (xor (xor (rolOr (seqv n s t) 5) (rolOr (seqv n s (t + 1)) 13)) (and (seqv n s (t + 2)) (seqv n s (t + 1)))) (set1 7) =
      seqv n s (t + 12) := by
  funext l
  have := hs (t + l.val)
  rw [show t + l.val + 12 = t + 12 + l.val by omega, ge, ← rotl32_eq _ 5 (by omega) (by omega), ← rotl32_eq _ 13 (by omega) (by omega),
    show t + l.val + 1 = t + 1 + l.val by omega, show t + l.val + 2 = t + 2 + l.val by omega] at this
  exact this.symm

theorem xor3c (a b : Vec n) (l : Fin n) : xor3 a (slli a 13) (roti b 3) l = gc (a l) (b l) 0 := by
  rw [xor3, ternary_xor, gc, BitVec.xor_assoc, ← rotateLeft_eq _ 3 (by omega) (by omega)]; rfl

theorem xor3e (a b c : Vec n) (l : Fin n) : xor (xor3 (roti a 5) (roti b 13) (and c b)) (set1 7) l = ge (a l) (b l) (c l) := by
  rw [Simd32.xor, xor3, ternary_xor, ge, ← rotateLeft_eq _ 5 (by omega) (by omega), ← rotateLeft_eq _ 13 (by omega) (by omega)]; rfl

theorem newc512 (hs : ∀ t, s (t + 12) = gc (s t) (s (t + 1)) (s (t + 2))) (t : Nat) :
    xor3 (seqv n s t) (slli (seqv n s t) 13) (roti (seqv n s (t + 1)) 3) = seqv n s (t + 12) := by
  funext l
  have := hs (t + l.val)
  rw [show t + l.val + 12 = t + 12 + l.val by omega, show t + l.val + 1 = t + 1 + l.val by omega] at this
  rw [xor3c]; exact this.symm

theorem newe512 (hs : ∀ t, s (t + 12) = ge (s t) (s (t + 1)) (s (t + 2))) (t : Nat) :
    xor (xor3 (roti (seqv n s t) 5) (roti (seqv n s (t + 1)) 13) (and (seqv n s (t + 2)) (seqv n s (t + 1)))) (set1 7) = seqv n s (t + 12) := by
  funext l
  have := hs (t + l.val)
  rw [show t + l.val + 12 = t + 12 + l.val by omega, show t + l.val + 1 = t + 1 + l.val by omega,
    show t + l.val + 2 = t + 2 + l.val by omega] at this
  rw [xor3e]; exact this.symm

end

/-! ### What the AVX-512 files share -/

theorem extract512_ok (hN : N * 48 < 2 ^ 32) (a : Vars (Vec N)) (hl : 48 * N ≤ out.length) :
    ∃ o, extract512 a out = some o ∧ OUpd 12 out o 0 N 0 12 fun r p => (a.get p).at r :=
  seq_inv (fun p o32 => scatter (2 ^ N - 1) o32 (4 * p) (offsets N 12) (a.get p))
    (fun p o => OUpd 12 out o 0 N 0 p fun r p => (a.get p).at r) 1 12 0 12 _ rfl (by omega)
    (fun p o hp h => by
      obtain ⟨o', e, u⟩ := scatter_upd ((acc12 hN hl).congr h.len) (by omega) p (by omega) (a.get p) (f := fun r p => (a.get p).at r)
        fun k => by rw [Vec.at, dif_pos k.isLt]
      exact ⟨o', e, h.cols u (by omega) (by omega)⟩) out (OUpd.refl _ _ _ _ _)

theorem addTo_ok (v : Vec 16) {x : Bytes} (hx : x.length = 48) :
    ∃ x', addTo v x = some x' ∧ x'.length = 48 ∧ ∀ p < 12, wd x' p = wd x p ^^^ v.at p := by
  have hm : ∀ i < 16, Nat.testBit 0x3F (i / 2) = true ↔ i < 12 := by decide
  have e0 : maskzLoad64 0x3F x 0 = some fun i => if Nat.testBit 0x3F (i.val / 2) then wd x i.val else 0 := by
    unfold maskzLoad64
    rw [if_pos]
    · refine congrArg some (funext fun i => ?_)
      rw [Nat.zero_add]; rfl
    · intro i hi
      have := (hm i.val i.isLt).1 hi
      omega
  obtain ⟨w, hw⟩ : ∃ w : Vec 16, w = xor v fun i => if Nat.testBit 0x3F (i.val / 2) then wd x i.val else 0 := ⟨_, rfl⟩
  have hw' : ∀ p < 12, w.at p = wd x p ^^^ v.at p := by
    intro p hp
    rw [hw, Vec.at, dif_pos (by omega), Simd32.xor, Vec.at, dif_pos (by omega), BitVec.xor_comm]
    show (if Nat.testBit 0x3F (p / 2) = true then wd x p else 0) ^^^ _ = _
    rw [if_pos ((hm p (by omega)).2 hp)]
  obtain ⟨x', e, u⟩ := seq_inv (fun i buf => if Nat.testBit 0x3F (i / 2) then storeWord buf (0 + 4 * i) (w.at i) else some buf)
    (fun i o => WSet x o (fun j => j < i ∧ j < 12) w.at) 1 16 0 16 (List.range 16) List.range_eq_range' (by omega)
    (fun i o hi h => by
      by_cases hm' : i < 12
      · obtain ⟨o', e, u⟩ := storeWord_set (out := o) (g := w.at) (w.at i) i (by rw [h.len]; omega) rfl
        exact ⟨o', by rw [if_pos ((hm i (by omega)).2 hm'), Nat.zero_add]; exact e, (h.trans u).congr fun j => by omega⟩
      · exact ⟨o, by rw [if_neg fun hc => hm' ((hm i (by omega)).1 hc)], h.congr fun j => by omega⟩)
    x ((WSet.refl x _).congr fun j => by simp)
  refine ⟨x', ?_, u.len.trans hx, fun p hp => by rw [u.new p (by omega), hw' p hp]⟩
  unfold addTo
  rw [e0, some_bind, ← hw]
  exact e

/-! ### Sums of the lanes of a register -/

theorem sum4 (v : Vec 4) : (v 0 ^^^ v 2) ^^^ (v 1 ^^^ v 3) = xorTo 4 v.at := by
  show _ = 0#32 ^^^ v 0 ^^^ v 1 ^^^ v 2 ^^^ v 3
  rw [BitVec.zero_xor]; ac_rfl

theorem sum8 (v : Vec 8) : ((v 0 ^^^ v 4) ^^^ (v 2 ^^^ v 6)) ^^^ ((v 1 ^^^ v 5) ^^^ (v 3 ^^^ v 7)) = xorTo 8 v.at := by
  show _ = 0#32 ^^^ v 0 ^^^ v 1 ^^^ v 2 ^^^ v 3 ^^^ v 4 ^^^ v 5 ^^^ v 6 ^^^ v 7
  rw [BitVec.zero_xor]; ac_rfl

theorem sum8' (v : Vec 8) : ((v 2 ^^^ v 6) ^^^ (v 0 ^^^ v 4)) ^^^ ((v 3 ^^^ v 7) ^^^ (v 1 ^^^ v 5)) = xorTo 8 v.at := by
  rw [← sum8]; ac_rfl

theorem sum16 (v : Vec 16) : (((v 0 ^^^ v 8) ^^^ (v 4 ^^^ v 12)) ^^^ ((v 2 ^^^ v 10) ^^^ (v 6 ^^^ v 14))) ^^^
    (((v 1 ^^^ v 9) ^^^ (v 5 ^^^ v 13)) ^^^ ((v 3 ^^^ v 11) ^^^ (v 7 ^^^ v 15))) = xorTo 16 v.at := by
  show _ = 0#32 ^^^ v 0 ^^^ v 1 ^^^ v 2 ^^^ v 3 ^^^ v 4 ^^^ v 5 ^^^ v 6 ^^^ v 7 ^^^ v 8 ^^^ v 9 ^^^ v 10 ^^^ v 11 ^^^ v 12 ^^^ v 13 ^^^ v 14 ^^^ v 15
  rw [BitVec.zero_xor]; ac_rfl

/-! ### AVX2, 8 states -/

namespace Avx2

/-- The registers hold 12 words. -/
def At (s : Nat → Lane) (t : Nat) (r : Roll) : Prop := r = ⟨seqv 8 s t, seqv 8 s (t + 4)⟩

section
variable (s : Nat → Lane) (t : Nat)

theorem sh01 : blendEpi32 (shuffleRight (seqv 8 s t) shuffleR_3) (shuffleRight (seqv 8 s (t + 4)) shuffleR_7) 0xE0 = seqv 8 s (t + 3) := by
  funext l; fin_cases l <;> rfl

theorem sh12 : insertEpi32 (shuffleRight (seqv 8 s t) shuffleR_1) (extractEpi32 (seqv 8 s (t + 3)) 5) 7 = seqv 8 s (t + 1) := by
  funext l; fin_cases l <;> rfl

theorem sh02 : blendEpi32 (shuffleRight2 (seqv 8 s (t + 4))) (shuffleRight2 (seqv 8 s (t + 12))) 0xC0 = seqv 8 s (t + 6) := by
  funext l; fin_cases l <;> rfl

theorem sh03 : blendEpi32 (shuffleRight (seqv 8 s (t + 6)) shuffleR_3) (shuffleRight (seqv 8 s (t + 12)) shuffleR_5) 0xF8 = seqv 8 s (t + 9) := by
  funext l; fin_cases l <;> rfl

theorem sh13 : insertEpi32 (shuffleRight (seqv 8 s (t + 3)) shuffleR_1) (extractEpi32 (seqv 8 s (t + 6)) 5) 7 = seqv 8 s (t + 4) := by
  funext l; fin_cases l <;> rfl

theorem sh10 : insertEpi32 (shuffleRight (seqv 8 s (t + 6)) shuffleR_1) (extractEpi32 (seqv 8 s (t + 12)) 2) 7 = seqv 8 s (t + 7) := by
  funext l; fin_cases l <;> rfl

theorem sh11 : insertEpi32 (shuffleRight (seqv 8 s (t + 9)) shuffleR_1) (extractEpi32 (seqv 8 s (t + 12)) 5) 7 = seqv 8 s (t + 10) := by
  funext l; fin_cases l <;> rfl

theorem sh20 : insertEpi32 (shuffleRight (seqv 8 s (t + 1)) shuffleR_1) (extractEpi32 (seqv 8 s (t + 3)) 6) 7 = seqv 8 s (t + 2) := by
  funext l; fin_cases l <;> rfl

theorem sh21 : insertEpi32 (shuffleRight (seqv 8 s (t + 4)) shuffleR_1) (extractEpi32 (seqv 8 s (t + 12)) 0) 7 = seqv 8 s (t + 5) := by
  funext l; fin_cases l <;> rfl

theorem sh22 : insertEpi32 (shuffleRight (seqv 8 s (t + 7)) shuffleR_1) (extractEpi32 (seqv 8 s (t + 12)) 3) 7 = seqv 8 s (t + 8) := by
  funext l; fin_cases l <;> rfl

theorem sh23 : insertEpi32 (shuffleRight (seqv 8 s (t + 10)) shuffleR_1) (extractEpi32 (seqv 8 s (t + 12)) 6) 7 = seqv 8 s (t + 11) := by
  funext l; fin_cases l <;> rfl

end

variable {s : Nat → Lane}

theorem rollc_ok (hs : ∀ t, s (t + 12) = gc (s t) (s (t + 1)) (s (t + 2))) (t : Nat) :
    rollc ⟨seqv 8 s t, seqv 8 s (t + 4)⟩ = (target 8 s t, ⟨seqv 8 s (t + 8), seqv 8 s (t + 12)⟩) := by
  unfold rollc
  simp only [sh01, sh12, newc hs, sh02, sh03, sh13, sh10, sh11, sh20, sh21, sh22, sh23, target]

theorem rolle_ok (hs : ∀ t, s (t + 12) = ge (s t) (s (t + 1)) (s (t + 2))) (t : Nat) :
    rolle ⟨seqv 8 s t, seqv 8 s (t + 4)⟩ = (target 8 s t, ⟨seqv 8 s (t + 8), seqv 8 s (t + 12)⟩) := by
  unfold rolle
  simp only [sh01, sh12, sh20, newe hs, sh02, sh03, sh13, sh10, sh11, sh21, sh22, sh23, target]

theorem fold_lo (x : Vars (Vec 8)) (p : Fin 8) : (fold x).1 p = xorTo 8 (x.get p.val).at := by
  fin_cases p
  · exact sum8 (x.a0 0)
  · exact sum8 (x.a0 1)
  · exact sum8' (x.a0 2)
  · exact sum8' (x.a0 3)
  · exact sum8 (x.a1 0)
  · exact sum8 (x.a1 1)
  · exact sum8' (x.a1 2)
  · exact sum8' (x.a1 3)

theorem fold_hi (x : Vars (Vec 8)) (p : Fin 4) : castLow (fold x).2 p = xorTo 8 (x.get (8 + p.val)).at := by
  fin_cases p
  · exact sum8 (x.a2 0)
  · exact sum8' (x.a2 1)
  · exact sum8 (x.a2 2)
  · exact sum8' (x.a2 3)

theorem reduce_ok (X : Vars (Vec 8)) (x : Bytes) (hx : x.length = 48) : ∃ x', reduce X x = some x' ∧ x'.length = 48 ∧
    ∀ p < 12, wd x' p = wd x p ^^^ xorTo 8 (X.get p).at := by
  obtain ⟨o1, e1, u1⟩ := storeVec_set (out := x) (g := fun p => wd x p ^^^ xorTo 8 (X.get p).at)
    (xor (fold X).1 fun l => wd x (0 + l.val)) 0 (by omega) fun l => by
      show (fold X).1 l ^^^ wd x (0 + l.val) = _
      rw [fold_lo, BitVec.xor_comm, Nat.zero_add]
  obtain ⟨o2, e2, u2⟩ := storeVec_set (out := o1) (g := fun p => wd x p ^^^ xorTo 8 (X.get p).at)
    (xor (castLow (fold X).2) fun l => wd x (8 + l.val)) 8 (by rw [u1.len]; omega) fun l => by
      show castLow (fold X).2 l ^^^ wd x (8 + l.val) = _
      rw [fold_hi, BitVec.xor_comm]
  have u := u1.trans u2
  refine ⟨o2, ?_, u.len.trans hx, fun p hp => u.new p (by omega)⟩
  unfold reduce
  rw [loadVec_ok 8 x 0 (by omega), some_bind, loadVec_ok 4 x 8 (by omega), some_bind, e1, some_bind]
  exact e2

theorem save_ok (s : Nat → Lane) (t : Nat) (r : Roll) (k : Bytes) (hk : k.length = 48) (hr : At s t r) :
    ∃ k', save r k = some k' ∧ k'.length = 48 ∧ ∀ p < 12, wd k' p = s (t + pos p) := by
  rw [At] at hr; subst hr
  obtain ⟨k', e, u⟩ := seq_inv (fun p k32 => storeWord k32 (4 * p) (saved ⟨seqv 8 s t, seqv 8 s (t + 4)⟩ p))
    (fun i o => WSet k o (· < i) fun p => s (t + pos p)) 1 12 0 12 [0, 1, 2, 3, 4, 5, 6, 7, 8, 9, 10, 11] rfl (by omega)
    (fun p o hp h => by
      obtain ⟨o', e, u⟩ := storeWord_set (out := o) (g := fun p => s (t + pos p)) (saved ⟨seqv 8 s t, seqv 8 s (t + 4)⟩ p) p
        (by rw [h.len]; omega) (by
          have : p < 12 := by omega
          interval_cases p <;> rfl)
      exact ⟨o', e, (h.trans u).congr fun j => by omega⟩)
    k ((WSet.refl k _).congr fun j => by simp)
  exact ⟨k', e, u.len.trans hk, fun p hp => u.new p (by omega)⟩

theorem load_ok (k : Bytes) (s : Nat → Lane) (hk : k.length = 48) (hs : ∀ p < 12, wd k p = s (pos p)) :
    ∃ r, load k = some r ∧ At s 0 r := by
  have h1 : ∀ l : Fin 8, ((ofList 8 [0, 4, 8, 1, 5, 9, 2, 6]) l).toNat < 12 := by decide
  have h2 : ∀ l : Fin 8, ((ofList 8 [5, 9, 2, 6, 10, 3, 7, 11]) l).toNat < 12 := by decide
  have g1 : ∀ l : Fin 8, pos ((ofList 8 [0, 4, 8, 1, 5, 9, 2, 6]) l).toNat = 0 + l.val := by decide
  have g2 : ∀ l : Fin 8, pos ((ofList 8 [5, 9, 2, 6, 10, 3, 7, 11]) l).toNat = 0 + 4 + l.val := by decide
  unfold load
  rw [gather_words hk _ h1, some_bind, gather_words hk _ h2, some_bind]
  refine ⟨_, rfl, ?_⟩
  rw [At]
  congr 1
  · funext l; rw [hs _ (h1 l), g1 l, seqv]
  · funext l; rw [hs _ (h2 l), g2 l, seqv]

/-- The transposition. -/
theorem transpose_ok (a0 a1 a2 a3 : Vec 8) :
    (∀ l : Fin 8, (transpose a0 a1 a2 a3).1 l = (![a0, a1, a2, a3] ⟨l.val % 4, by omega⟩).at (0 + 4 * (l.val / 4))) ∧
    (∀ l : Fin 8, (transpose a0 a1 a2 a3).2.1 l = (![a0, a1, a2, a3] ⟨l.val % 4, by omega⟩).at (1 + 4 * (l.val / 4))) ∧
    (∀ l : Fin 8, (transpose a0 a1 a2 a3).2.2.1 l = (![a0, a1, a2, a3] ⟨l.val % 4, by omega⟩).at (2 + 4 * (l.val / 4))) ∧
    (∀ l : Fin 8, (transpose a0 a1 a2 a3).2.2.2 l = (![a0, a1, a2, a3] ⟨l.val % 4, by omega⟩).at (3 + 4 * (l.val / 4))) :=
  ⟨fun l => by fin_cases l <;> rfl, fun l => by fin_cases l <;> rfl, fun l => by fin_cases l <;> rfl, fun l => by fin_cases l <;> rfl⟩

/-- Word `j` of the output. -/
def word (a : Vars (Vec 8)) (j : Nat) : Lane := (a.get (j % 12)).at (j / 12)

theorem store_lo {a : Vars (Vec 8)} {r : Nat} (hr : r < 4) {b0 b1 : Vec 8}
    (h0 : ∀ l : Fin 8, b0 l = (![a.a0 0, a.a0 1, a.a0 2, a.a0 3] ⟨l.val % 4, by omega⟩).at (r + 4 * (l.val / 4)))
    (h1 : ∀ l : Fin 8, b1 l = (![a.a1 0, a.a1 1, a.a1 2, a.a1 3] ⟨l.val % 4, by omega⟩).at (r + 4 * (l.val / 4))) {o : Bytes}
    (ho : 48 * 8 ≤ o.length) : ∃ o', storeVec o (4 * (r * 12 + 0)) (permute2x128 b0 b1 0x20) = some o' ∧
      WSet o o' (fun j => r * 12 + 0 ≤ j ∧ j < r * 12 + 0 + 8) (word a) := by
  refine storeVec_set _ _ (by omega) fun l => ?_
  have e1 : (r * 12 + 0 + l.val) % 12 = l.val := by omega
  have e2 : (r * 12 + 0 + l.val) / 12 = r := by omega
  rw [word, e1, e2]
  fin_cases l
  · exact h0 0
  · exact h0 1
  · exact h0 2
  · exact h0 3
  · exact h1 0
  · exact h1 1
  · exact h1 2
  · exact h1 3

theorem store_hi {a : Vars (Vec 8)} {r : Nat} (hr : r < 4) {b0 b1 : Vec 8}
    (h0 : ∀ l : Fin 8, b0 l = (![a.a0 0, a.a0 1, a.a0 2, a.a0 3] ⟨l.val % 4, by omega⟩).at (r + 4 * (l.val / 4)))
    (h1 : ∀ l : Fin 8, b1 l = (![a.a1 0, a.a1 1, a.a1 2, a.a1 3] ⟨l.val % 4, by omega⟩).at (r + 4 * (l.val / 4))) {o : Bytes}
    (ho : 48 * 8 ≤ o.length) : ∃ o', storeVec o (4 * ((r + 4) * 12 + 0)) (permute2x128 b0 b1 0x31) = some o' ∧
      WSet o o' (fun j => (r + 4) * 12 + 0 ≤ j ∧ j < (r + 4) * 12 + 0 + 8) (word a) := by
  refine storeVec_set _ _ (by omega) fun l => ?_
  have e1 : ((r + 4) * 12 + 0 + l.val) % 12 = l.val := by omega
  have e2 : ((r + 4) * 12 + 0 + l.val) / 12 = r + 4 := by omega
  rw [word, e1, e2]
  fin_cases l
  · exact h0 4
  · exact h0 5
  · exact h0 6
  · exact h0 7
  · exact h1 4
  · exact h1 5
  · exact h1 6
  · exact h1 7

theorem store_two {a : Vars (Vec 8)} {r : Nat} (hr : r < 4) {b2 : Vec 8}
    (h2 : ∀ l : Fin 8, b2 l = (![a.a2 0, a.a2 1, a.a2 2, a.a2 3] ⟨l.val % 4, by omega⟩).at (r + 4 * (l.val / 4))) {o : Bytes}
    (ho : 48 * 8 ≤ o.length) : ∃ o', storeu2 o (4 * ((r + 4) * 12 + 8)) (4 * (r * 12 + 8)) b2 = some o' ∧
      WSet o o' (fun j => (r * 12 + 8 ≤ j ∧ j < r * 12 + 8 + 4) ∨ ((r + 4) * 12 + 8 ≤ j ∧ j < (r + 4) * 12 + 8 + 4)) (word a) := by
  obtain ⟨o1, e1, u1⟩ := storeVec_set (out := o) (g := word a) (castLow b2) (r * 12 + 8) (by omega) fun l => by
    have e1 : (r * 12 + 8 + l.val) % 12 = 8 + l.val := by omega
    have e2 : (r * 12 + 8 + l.val) / 12 = r := by omega
    rw [word, e1, e2]
    fin_cases l
    · exact h2 0
    · exact h2 1
    · exact h2 2
    · exact h2 3
  obtain ⟨o2, e2, u2⟩ := storeVec_set (out := o1) (g := word a) (extractHigh b2) ((r + 4) * 12 + 8) (by rw [u1.len]; omega) fun l => by
    have e1 : ((r + 4) * 12 + 8 + l.val) % 12 = 8 + l.val := by omega
    have e2 : ((r + 4) * 12 + 8 + l.val) / 12 = r + 4 := by omega
    rw [word, e1, e2]
    fin_cases l
    · exact h2 4
    · exact h2 5
    · exact h2 6
    · exact h2 7
  refine ⟨o2, ?_, u1.trans u2⟩
  unfold storeu2
  rw [e1, some_bind]; exact e2

theorem extract_ok (a : Vars (Vec 8)) (out : Bytes) (hl : 48 * 8 ≤ out.length) :
    ∃ o, extract a out = some o ∧ OUpd 12 out o 0 8 0 12 fun r p => (a.get p).at r := by
  obtain ⟨p0, p1, p2, p3⟩ := transpose_ok (a.a0 0) (a.a0 1) (a.a0 2) (a.a0 3)
  obtain ⟨q0, q1, q2, q3⟩ := transpose_ok (a.a1 0) (a.a1 1) (a.a1 2) (a.a1 3)
  obtain ⟨r0, r1, r2, r3⟩ := transpose_ok (a.a2 0) (a.a2 1) (a.a2 2) (a.a2 3)
  unfold extract
  generalize transpose (a.a0 0) (a.a0 1) (a.a0 2) (a.a0 3) = T0 at p0 p1 p2 p3 ⊢
  generalize transpose (a.a1 0) (a.a1 1) (a.a1 2) (a.a1 3) = T1 at q0 q1 q2 q3 ⊢
  generalize transpose (a.a2 0) (a.a2 1) (a.a2 2) (a.a2 3) = T2 at r0 r1 r2 r3 ⊢
  obtain ⟨a00, a01, a02, a03⟩ := T0
  obtain ⟨a10, a11, a12, a13⟩ := T1
  obtain ⟨a20, a21, a22, a23⟩ := T2
  obtain ⟨o1, e1, u1⟩ := store_lo (r := 0) (by omega) p0 q0 hl
  obtain ⟨o2, e2, u2⟩ := store_hi (r := 0) (by omega) p0 q0 (o := o1) (by rw [u1.len]; exact hl)
  have u2 := u1.trans u2
  obtain ⟨o3, e3, u3⟩ := store_lo (r := 1) (by omega) p1 q1 (o := o2) (by rw [u2.len]; exact hl)
  have u3 := u2.trans u3
  obtain ⟨o4, e4, u4⟩ := store_hi (r := 1) (by omega) p1 q1 (o := o3) (by rw [u3.len]; exact hl)
  have u4 := u3.trans u4
  obtain ⟨o5, e5, u5⟩ := store_lo (r := 2) (by omega) p2 q2 (o := o4) (by rw [u4.len]; exact hl)
  have u5 := u4.trans u5
  obtain ⟨o6, e6, u6⟩ := store_hi (r := 2) (by omega) p2 q2 (o := o5) (by rw [u5.len]; exact hl)
  have u6 := u5.trans u6
  obtain ⟨o7, e7, u7⟩ := store_lo (r := 3) (by omega) p3 q3 (o := o6) (by rw [u6.len]; exact hl)
  have u7 := u6.trans u7
  obtain ⟨o8, e8, u8⟩ := store_hi (r := 3) (by omega) p3 q3 (o := o7) (by rw [u7.len]; exact hl)
  have u8 := u7.trans u8
  obtain ⟨o9, e9, u9⟩ := store_two (r := 0) (by omega) r0 (o := o8) (by rw [u8.len]; exact hl)
  have u9 := u8.trans u9
  obtain ⟨o10, e10, u10⟩ := store_two (r := 1) (by omega) r1 (o := o9) (by rw [u9.len]; exact hl)
  have u10 := u9.trans u10
  obtain ⟨o11, e11, u11⟩ := store_two (r := 2) (by omega) r2 (o := o10) (by rw [u10.len]; exact hl)
  have u11 := u10.trans u11
  obtain ⟨o12, e12, u12⟩ := store_two (r := 3) (by omega) r3 (o := o11) (by rw [u11.len]; exact hl)
  have u12 := u11.trans u12
  refine ⟨o12, ?_, ?_⟩
  · dsimp only at *
    rw [e1, some_bind, e2, some_bind, e3, some_bind, e4, some_bind, e5, some_bind, e6, some_bind, e7, some_bind, e8, some_bind, e9, some_bind,
      e10, some_bind, e11, some_bind]
    exact e12
  · have h := (u12.congr (Q := (· < 12 * 8)) fun j => by omega).rows
    refine ⟨h.len, fun q => ?_⟩
    rw [h.byte]
    split
    · have e1 : (q / 4 / 12 * 12 + q / 4 % 12) % 12 = q / 4 % 12 := by omega
      have e2 : (q / 4 / 12 * 12 + q / 4 % 12) / 12 = q / 4 / 12 := by omega
      rw [word, e1, e2]
    · rfl

end Avx2

theorem avx2_ok : FastOk avx2 Avx2.At where
  lanes := by omega
  small := by omega
  load := Avx2.load_ok
  rollc s t r hs hr := by
    rw [show r = _ from hr]
    show Avx2.At s (t + 8) (Avx2.rollc _).2 ∧ ∀ (p : Fin 12) (l : Fin 8), inp (Avx2.rollc _).1 p l = _
    rw [Avx2.rollc_ok hs]
    exact ⟨rfl, fun p l => inp_target s t p l⟩
  rolle s t r hs hr := by
    rw [show r = _ from hr]
    show Avx2.At s (t + 8) (Avx2.rolle _).2 ∧ ∀ (p : Fin 12) (l : Fin 8), inp (Avx2.rolle _).1 p l = _
    rw [Avx2.rolle_ok hs]
    exact ⟨rfl, fun p l => inp_target s t p l⟩
  rounds a l := by
    have h := XoodooSimd.rounds6_eq (XoodooSimd.round_ok (XoodooSimd.ops8_ok l)) a
    rw [inp_eq] at h; exact h
  reduce := Avx2.reduce_ok
  save := Avx2.save_ok
  extract := Avx2.extract_ok

/-! ### AVX-512, 16 states -/

namespace X16

/-- Lanes 4 to 15 hold 12 words. -/
def At (s : Nat → Lane) (t : Nat) (r : Vec 16) : Prop := ∀ i < 12, r.at (4 + i) = s (t + i)

section
variable (s : Nat → Lane) (t : Nat)

theorem sh01 : permutex2var (seqv 16 s t) oAllFrom3_4 (seqv 16 s (t + 12)) = seqv 16 s (t + 3) := by
  funext l; fin_cases l <;> rfl

theorem sh02 : permutex2var (seqv 16 s t) oAllFrom6_4 (seqv 16 s (t + 12)) = seqv 16 s (t + 6) := by
  funext l; fin_cases l <;> rfl

theorem sh03 : permutex2var (seqv 16 s t) oAllFrom9_4 (seqv 16 s (t + 12)) = seqv 16 s (t + 9) := by
  funext l; fin_cases l <;> rfl

theorem sh13 : permutex2var (seqv 16 s (t + 3)) oAllFrom1_7 (seqv 16 s (t + 12)) = seqv 16 s (t + 4) := by
  funext l; fin_cases l <;> rfl

theorem sh10 : permutex2var (seqv 16 s (t + 6)) oAllFrom1_10 (seqv 16 s (t + 12)) = seqv 16 s (t + 7) := by
  funext l; fin_cases l <;> rfl

theorem sh11 : permutex2var (seqv 16 s (t + 9)) oAllFrom1_13 (seqv 16 s (t + 12)) = seqv 16 s (t + 10) := by
  funext l; fin_cases l <;> rfl

theorem sh20 : permutex2var (seqv 16 s (t + 1)) oAllFrom1_5 (seqv 16 s (t + 12)) = seqv 16 s (t + 2) := by
  funext l; fin_cases l <;> rfl

theorem sh21 : permutex2var (seqv 16 s (t + 4)) oAllFrom1_8 (seqv 16 s (t + 12)) = seqv 16 s (t + 5) := by
  funext l; fin_cases l <;> rfl

theorem sh22 : permutex2var (seqv 16 s (t + 7)) oAllFrom1_11 (seqv 16 s (t + 12)) = seqv 16 s (t + 8) := by
  funext l; fin_cases l <;> rfl

theorem sh23 : permutex2var (seqv 16 s (t + 10)) oAllFrom1_14 (seqv 16 s (t + 12)) = seqv 16 s (t + 11) := by
  funext l; fin_cases l <;> rfl

end

variable {s : Nat → Lane}

theorem at_seqv (t : Nat) : At s (t + 16) (seqv 16 s (t + 12)) := by
  intro i hi
  rw [Vec.at, dif_pos (by omega), seqv]
  congr 1; simp only; omega

section
variable {t : Nat} {r : Vec 16} (h : At s t r)
include h

theorem low00 : ∀ i < 12, (permutexvar oshuffleR_4 r).at i = s (t + i) := by
  intro i hi
  rw [← h i hi]
  interval_cases i <;> rfl

theorem low12 : ∀ i < 11, (permutexvar oshuffleR_1 (permutexvar oshuffleR_4 r)).at i = s (t + 1 + i) := by
  intro i hi
  rw [show t + 1 + i = t + (i + 1) by omega, ← low00 h (i + 1) (by omega)]
  interval_cases i <;> rfl

theorem low20 : ∀ i < 10, (permutexvar oshuffleR_2 (permutexvar oshuffleR_4 r)).at i = s (t + 2 + i) := by
  intro i hi
  rw [show t + 2 + i = t + (i + 2) by omega, ← low00 h (i + 2) (by omega)]
  interval_cases i <;> rfl

end

theorem full00 {A R : Vec 16} {t : Nat} (hA : ∀ i < 12, A.at i = s (t + i)) (hR : ∀ i < 10, R.at i = s (t + 12 + i)) :
    permutex2var A oAllLow12_0 R = seqv 16 s t := by
  funext l
  fin_cases l
  · exact hA 0 (by decide)
  · exact hA 1 (by decide)
  · exact hA 2 (by decide)
  · exact hA 3 (by decide)
  · exact hA 4 (by decide)
  · exact hA 5 (by decide)
  · exact hA 6 (by decide)
  · exact hA 7 (by decide)
  · exact hA 8 (by decide)
  · exact hA 9 (by decide)
  · exact hA 10 (by decide)
  · exact hA 11 (by decide)
  · exact hR 0 (by decide)
  · exact hR 1 (by decide)
  · exact hR 2 (by decide)
  · exact hR 3 (by decide)

theorem full12 {A R : Vec 16} {t : Nat} (hA : ∀ i < 11, A.at i = s (t + 1 + i)) (hR : ∀ i < 10, R.at i = s (t + 12 + i)) :
    permutex2var A oAllLow11_0 R = seqv 16 s (t + 1) := by
  funext l
  fin_cases l
  · exact hA 0 (by decide)
  · exact hA 1 (by decide)
  · exact hA 2 (by decide)
  · exact hA 3 (by decide)
  · exact hA 4 (by decide)
  · exact hA 5 (by decide)
  · exact hA 6 (by decide)
  · exact hA 7 (by decide)
  · exact hA 8 (by decide)
  · exact hA 9 (by decide)
  · exact hA 10 (by decide)
  · exact hR 0 (by decide)
  · exact hR 1 (by decide)
  · exact hR 2 (by decide)
  · exact hR 3 (by decide)
  · exact hR 4 (by decide)

theorem full20 {A R : Vec 16} {t : Nat} (hA : ∀ i < 10, A.at i = s (t + 2 + i)) (hR : ∀ i < 10, R.at i = s (t + 12 + i)) :
    permutex2var A oAllLow10_0 R = seqv 16 s (t + 2) := by
  funext l
  fin_cases l
  · exact hA 0 (by decide)
  · exact hA 1 (by decide)
  · exact hA 2 (by decide)
  · exact hA 3 (by decide)
  · exact hA 4 (by decide)
  · exact hA 5 (by decide)
  · exact hA 6 (by decide)
  · exact hA 7 (by decide)
  · exact hA 8 (by decide)
  · exact hA 9 (by decide)
  · exact hR 0 (by decide)
  · exact hR 1 (by decide)
  · exact hR 2 (by decide)
  · exact hR 3 (by decide)
  · exact hR 4 (by decide)
  · exact hR 5 (by decide)

theorem rollc_ok (hs : ∀ t, s (t + 12) = gc (s t) (s (t + 1)) (s (t + 2))) (t : Nat) (r : Vec 16) (h : At s t r) :
    (rollc r).1 = target 16 s t ∧ At s (t + 16) (rollc r).2 := by
  have h1 := low00 h
  have h2 := low12 h
  have h3 : ∀ i < 10, (xor3 (permutexvar oshuffleR_4 r) (slli (permutexvar oshuffleR_4 r) 13)
      (roti (permutexvar oshuffleR_1 (permutexvar oshuffleR_4 r)) 3)).at i = s (t + 12 + i) := by
    intro i hi
    have h1 := h1 i (by omega)
    have h2 := h2 i (by omega)
    rw [Vec.at, dif_pos (by omega)] at h1 h2 ⊢
    rw [xor3c, h1, h2, show t + 12 + i = t + i + 12 by omega, hs, show t + 1 + i = t + i + 1 by omega]; rfl
  have e : rollc r = (target 16 s t, seqv 16 s (t + 12)) := by
    unfold rollc
    simp only [full00 h1 h3, full12 h2 h3, newc512 hs, sh01, sh02, sh03, sh13, sh10, sh11, sh20, sh21, sh22, sh23, target]
  rw [e]
  exact ⟨rfl, at_seqv t⟩

theorem rolle_ok (hs : ∀ t, s (t + 12) = ge (s t) (s (t + 1)) (s (t + 2))) (t : Nat) (r : Vec 16) (h : At s t r) :
    (rolle r).1 = target 16 s t ∧ At s (t + 16) (rolle r).2 := by
  have h1 := low00 h
  have h2 := low12 h
  have h3 := low20 h
  have h4 : ∀ i < 10, (xor (xor3 (roti (permutexvar oshuffleR_4 r) 5) (roti (permutexvar oshuffleR_1 (permutexvar oshuffleR_4 r)) 13)
      (and (permutexvar oshuffleR_2 (permutexvar oshuffleR_4 r)) (permutexvar oshuffleR_1 (permutexvar oshuffleR_4 r)))) (set1 7)).at i =
      s (t + 12 + i) := by
    intro i hi
    have h1 := h1 i (by omega)
    have h2 := h2 i (by omega)
    have h3 := h3 i (by omega)
    rw [Vec.at, dif_pos (by omega)] at h1 h2 h3 ⊢
    rw [xor3e, h1, h2, h3, show t + 12 + i = t + i + 12 by omega, hs, show t + 1 + i = t + i + 1 by omega,
      show t + 2 + i = t + i + 2 by omega]
  have e : rolle r = (target 16 s t, seqv 16 s (t + 12)) := by
    unfold rolle
    simp only [full00 h1 h4, full12 h2 h4, full20 h3 h4, newe512 hs, sh01, sh02, sh03, sh13, sh10, sh11, sh21, sh22, sh23, target]
  rw [e]
  exact ⟨rfl, at_seqv t⟩

theorem fold_at (x : Vars (Vec 16)) (p : Fin 12) : (fold x).at p.val = xorTo 16 (x.get p.val).at := by
  fin_cases p
  · exact sum16 (x.a0 0)
  · exact sum16 (x.a0 1)
  · exact sum16 (x.a0 2)
  · exact sum16 (x.a0 3)
  · exact sum16 (x.a1 0)
  · exact sum16 (x.a1 1)
  · exact sum16 (x.a1 2)
  · exact sum16 (x.a1 3)
  · exact sum16 (x.a2 0)
  · exact sum16 (x.a2 1)
  · exact sum16 (x.a2 2)
  · exact sum16 (x.a2 3)

theorem offs : ∀ l : Fin 16, (offsetsRoll l).toNat < 12 := by decide

theorem offs_pos : ∀ l : Fin 16, 4 ≤ l.val → 4 + pos (offsetsRoll l).toNat = l.val := by decide

theorem save_ok (s : Nat → Lane) (t : Nat) (r : Vec 16) (k : Bytes) (hk : k.length = 48) (hr : At s t r) :
    ∃ k', save r k = some k' ∧ k'.length = 48 ∧ ∀ p < 12, wd k' p = s (t + pos p) := by
  have hm : ∀ l : Fin 16, Nat.testBit 0xFFF0 l.val = true → 4 ≤ l.val := by decide
  obtain ⟨o, e, u⟩ := scatter_set (out := k) (g := fun p => s (t + pos p)) 0xFFF0 offsetsRoll r
    (fun l => by have := offs l; omega) fun l hl => by
      have h1 := offs_pos l (hm l hl)
      rw [← hr (pos (offsetsRoll l).toNat) (by have := l.isLt; omega), h1, Vec.at, dif_pos l.isLt]
  refine ⟨o, e, u.len.trans hk, fun p hp => u.new p ?_⟩
  have : ∀ p < 12, ∃ l : Fin 16, Nat.testBit 0xFFF0 l.val = true ∧ (offsetsRoll l).toNat = p := by decide
  exact this p hp

theorem load_ok (k : Bytes) (s : Nat → Lane) (hk : k.length = 48) (hs : ∀ p < 12, wd k p = s (pos p)) :
    ∃ r, load k = some r ∧ At s 0 r := by
  unfold load
  rw [gather_words hk _ offs]
  refine ⟨_, rfl, fun i hi => ?_⟩
  have h2 := offs_pos ⟨4 + i, by omega⟩ (by simp)
  rw [Vec.at, dif_pos (by omega), hs _ (offs _)]
  congr 1
  simp only at h2; omega

end X16

theorem x16_ok : FastOk (x16) X16.At where
  lanes := by omega
  small := by omega
  load := X16.load_ok
  rollc s t r hs hr := ⟨(X16.rollc_ok hs t r hr).2, fun p l => by
    show inp (X16.rollc r).1 p l = _
    rw [(X16.rollc_ok hs t r hr).1, inp_target]⟩
  rolle s t r hs hr := ⟨(X16.rolle_ok hs t r hr).2, fun p l => by
    show inp (X16.rolle r).1 p l = _
    rw [(X16.rolle_ok hs t r hr).1, inp_target]⟩
  rounds a l := by
    have h := XoodooSimd.rounds6_eq (XoodooSimd.round512_ok (XoodooSimd.ops512_ok l)) a
    rw [inp_eq] at h; exact h
  reduce X x hx := by
    obtain ⟨x', e, h1, h2⟩ := addTo_ok (X16.fold X) hx
    exact ⟨x', e, h1, fun p hp => by rw [h2 p hp, X16.fold_at X ⟨p, hp⟩]⟩
  save := X16.save_ok
  extract a out hl := extract512_ok (by omega) a hl

/-! ### AVX-512, 8 states -/

namespace Y8

/-- The registers hold 12 words. -/
def At (s : Nat → Lane) (t : Nat) (r : Roll) : Prop := r = ⟨seqv 8 s t, seqv 8 s (t + 4)⟩

section
variable (s : Nat → Lane) (t : Nat)

theorem sh01 : permutex2var (seqv 8 s t) oAllFrom3_4 (seqv 8 s (t + 4)) = seqv 8 s (t + 3) := by
  funext l; fin_cases l <;> rfl

theorem sh12 : permutex2var (seqv 8 s t) oAllFrom1_4 (seqv 8 s (t + 4)) = seqv 8 s (t + 1) := by
  funext l; fin_cases l <;> rfl

theorem sh02 : permutex2var (seqv 8 s (t + 4)) oAllFrom2_0 (seqv 8 s (t + 12)) = seqv 8 s (t + 6) := by
  funext l; fin_cases l <;> rfl

theorem sh03 : permutex2var (seqv 8 s (t + 6)) oAllFrom3_2 (seqv 8 s (t + 12)) = seqv 8 s (t + 9) := by
  funext l; fin_cases l <;> rfl

theorem sh13 : permutex2var (seqv 8 s (t + 3)) oAllFrom1_5 (seqv 8 s (t + 6)) = seqv 8 s (t + 4) := by
  funext l; fin_cases l <;> rfl

theorem sh10 : permutex2var (seqv 8 s (t + 6)) oAllFrom1_2 (seqv 8 s (t + 12)) = seqv 8 s (t + 7) := by
  funext l; fin_cases l <;> rfl

theorem sh11 : permutex2var (seqv 8 s (t + 9)) oAllFrom1_5 (seqv 8 s (t + 12)) = seqv 8 s (t + 10) := by
  funext l; fin_cases l <;> rfl

theorem sh20 : permutex2var (seqv 8 s (t + 1)) oAllFrom1_0 (seqv 8 s (t + 9)) = seqv 8 s (t + 2) := by
  funext l; fin_cases l <;> rfl

theorem sh20e : permutex2var (seqv 8 s t) oAllFrom2_4 (seqv 8 s (t + 4)) = seqv 8 s (t + 2) := by
  funext l; fin_cases l <;> rfl

theorem sh21 : permutex2var (seqv 8 s (t + 4)) oAllFrom1_0 (seqv 8 s (t + 12)) = seqv 8 s (t + 5) := by
  funext l; fin_cases l <;> rfl

theorem sh22 : permutex2var (seqv 8 s (t + 7)) oAllFrom1_3 (seqv 8 s (t + 12)) = seqv 8 s (t + 8) := by
  funext l; fin_cases l <;> rfl

theorem sh23 : permutex2var (seqv 8 s (t + 10)) oAllFrom1_6 (seqv 8 s (t + 12)) = seqv 8 s (t + 11) := by
  funext l; fin_cases l <;> rfl

end

variable {s : Nat → Lane}

theorem rollc_ok (hs : ∀ t, s (t + 12) = gc (s t) (s (t + 1)) (s (t + 2))) (t : Nat) (r : Roll) (h : At s t r) :
    (rollc r).1 = target 8 s t ∧ At s (t + 8) (rollc r).2 := by
  rw [At] at h; subst h
  have e : rollc ⟨seqv 8 s t, seqv 8 s (t + 4)⟩ = (target 8 s t, ⟨seqv 8 s (t + 8), seqv 8 s (t + 12)⟩) := by
    unfold rollc
    simp only [sh01, sh12, newc512 hs, sh02, sh03, sh13, sh10, sh11, sh20, sh21, sh22, sh23, target]
  rw [e]
  exact ⟨rfl, rfl⟩

theorem rolle_ok (hs : ∀ t, s (t + 12) = ge (s t) (s (t + 1)) (s (t + 2))) (t : Nat) (r : Roll) (h : At s t r) :
    (rolle r).1 = target 8 s t ∧ At s (t + 8) (rolle r).2 := by
  rw [At] at h; subst h
  have e : rolle ⟨seqv 8 s t, seqv 8 s (t + 4)⟩ = (target 8 s t, ⟨seqv 8 s (t + 8), seqv 8 s (t + 12)⟩) := by
    unfold rolle
    simp only [sh01, sh12, sh20e, newe512 hs, sh02, sh03, sh13, sh10, sh11, sh21, sh22, sh23, target]
  rw [e]
  exact ⟨rfl, rfl⟩

theorem fold_at (x : Vars (Vec 8)) (p : Fin 12) : (fold x).at p.val = xorTo 8 (x.get p.val).at := by
  fin_cases p
  · exact sum8 (x.a0 0)
  · exact sum8 (x.a0 1)
  · exact sum8 (x.a0 2)
  · exact sum8 (x.a0 3)
  · exact sum8 (x.a1 0)
  · exact sum8 (x.a1 1)
  · exact sum8 (x.a1 2)
  · exact sum8 (x.a1 3)
  · exact sum8 (x.a2 0)
  · exact sum8 (x.a2 1)
  · exact sum8 (x.a2 2)
  · exact sum8 (x.a2 3)

theorem save_ok (s : Nat → Lane) (t : Nat) (r : Roll) (k : Bytes) (hk : k.length = 48) (hr : At s t r) :
    ∃ k', save r k = some k' ∧ k'.length = 48 ∧ ∀ p < 12, wd k' p = s (t + pos p) := by
  rw [At] at hr; subst hr
  have h1 : ∀ l : Fin 8, ((ofList 8 [0, 4, 8, 1, 5, 9, 2, 6]) l).toNat < 12 := by decide
  have h2 : ∀ l : Fin 8, ((ofList 8 [0, 0, 0, 0, 10, 3, 7, 11]) l).toNat < 12 := by decide
  have g1 : ∀ l : Fin 8, pos ((ofList 8 [0, 4, 8, 1, 5, 9, 2, 6]) l).toNat = l.val := by decide
  have g2 : ∀ l : Fin 8, Nat.testBit 0xF0 l.val = true → pos ((ofList 8 [0, 0, 0, 0, 10, 3, 7, 11]) l).toNat = 4 + l.val := by decide
  obtain ⟨o1, e1, u1⟩ := scatter_set (out := k) (g := fun p => s (t + pos p)) 0xFF (ofList 8 [0, 4, 8, 1, 5, 9, 2, 6]) (seqv 8 s t)
    (fun l => by have := h1 l; omega) fun l _ => by rw [g1 l, seqv]
  obtain ⟨o2, e2, u2⟩ := scatter_set (out := o1) (g := fun p => s (t + pos p)) 0xF0 (ofList 8 [0, 0, 0, 0, 10, 3, 7, 11]) (seqv 8 s (t + 4))
    (fun l => by have := h2 l; rw [u1.len]; omega) fun l hl => by rw [g2 l hl, seqv, Nat.add_assoc]
  have u := u1.trans u2
  refine ⟨o2, ?_, u.len.trans hk, fun p hp => u.new p ?_⟩
  · unfold save
    rw [e1, some_bind]; exact e2
  · have : ∀ p < 12, (∃ l : Fin 8, Nat.testBit 0xFF l.val = true ∧ ((ofList 8 [0, 4, 8, 1, 5, 9, 2, 6]) l).toNat = p) ∨
      ∃ l : Fin 8, Nat.testBit 0xF0 l.val = true ∧ ((ofList 8 [0, 0, 0, 0, 10, 3, 7, 11]) l).toNat = p := by decide
    exact this p hp

theorem load_ok (k : Bytes) (s : Nat → Lane) (hk : k.length = 48) (hs : ∀ p < 12, wd k p = s (pos p)) :
    ∃ r, load k = some r ∧ At s 0 r := by
  have h1 : ∀ l : Fin 8, ((ofList 8 [0, 4, 8, 1, 5, 9, 2, 6]) l).toNat < 12 := by decide
  have h2 : ∀ l : Fin 8, ((ofList 8 [5, 9, 2, 6, 10, 3, 7, 11]) l).toNat < 12 := by decide
  have g1 : ∀ l : Fin 8, pos ((ofList 8 [0, 4, 8, 1, 5, 9, 2, 6]) l).toNat = 0 + l.val := by decide
  have g2 : ∀ l : Fin 8, pos ((ofList 8 [5, 9, 2, 6, 10, 3, 7, 11]) l).toNat = 0 + 4 + l.val := by decide
  unfold load
  rw [gather_words hk _ h1, some_bind, gather_words hk _ h2, some_bind]
  refine ⟨_, rfl, ?_⟩
  rw [At]
  congr 1
  · funext l; rw [hs _ (h1 l), g1 l, seqv]
  · funext l; rw [hs _ (h2 l), g2 l, seqv]

end Y8

theorem y8_ok : FastOk (y8) Y8.At where
  lanes := by omega
  small := by omega
  load := Y8.load_ok
  rollc s t r hs hr := ⟨(Y8.rollc_ok hs t r hr).2, fun p l => by
    show inp (Y8.rollc r).1 p l = _
    rw [(Y8.rollc_ok hs t r hr).1, inp_target]⟩
  rolle s t r hs hr := ⟨(Y8.rolle_ok hs t r hr).2, fun p l => by
    show inp (Y8.rolle r).1 p l = _
    rw [(Y8.rolle_ok hs t r hr).1, inp_target]⟩
  rounds a l := by
    have h := XoodooSimd.rounds6_eq (XoodooSimd.round512_ok (XoodooSimd.ops512_ok l)) a
    rw [inp_eq] at h; exact h
  reduce X x hx := by
    obtain ⟨x', e, h1, h2⟩ := addTo_ok (Y8.fold X) hx
    exact ⟨x', e, h1, fun p hp => by rw [h2 p hp, Y8.fold_at X ⟨p, hp⟩]⟩
  save := Y8.save_ok
  extract a out hl := extract512_ok (by omega) a hl

/-! ### AVX-512, 4 states -/

namespace Y4

/-- The registers hold 12 words. -/
def At (s : Nat → Lane) (t : Nat) (r : Roll) : Prop := r = ⟨seqv 4 s t, seqv 4 s (t + 4), seqv 4 s (t + 8)⟩

section
variable (s : Nat → Lane) (t : Nat)

theorem sh12 : permutex2var (seqv 4 s t) oAllFrom1_0 (seqv 4 s (t + 4)) = seqv 4 s (t + 1) := by
  funext l; fin_cases l <;> rfl

theorem sh01 : permutex2var (seqv 4 s t) oAllFrom3_0 (seqv 4 s (t + 4)) = seqv 4 s (t + 3) := by
  funext l; fin_cases l <;> rfl

theorem sh02 : permutex2var (seqv 4 s (t + 4)) oAllFrom2_0 (seqv 4 s (t + 8)) = seqv 4 s (t + 6) := by
  funext l; fin_cases l <;> rfl

theorem sh03 : permutex2var (seqv 4 s (t + 8)) oAllFrom1_0 (seqv 4 s (t + 12)) = seqv 4 s (t + 9) := by
  funext l; fin_cases l <;> rfl

theorem sh10 : permutex2var (seqv 4 s (t + 4)) oAllFrom3_0 (seqv 4 s (t + 8)) = seqv 4 s (t + 7) := by
  funext l; fin_cases l <;> rfl

theorem sh11 : permutex2var (seqv 4 s (t + 8)) oAllFrom2_0 (seqv 4 s (t + 12)) = seqv 4 s (t + 10) := by
  funext l; fin_cases l <;> rfl

theorem sh20 : permutex2var (seqv 4 s t) oAllFrom2_0 (seqv 4 s (t + 4)) = seqv 4 s (t + 2) := by
  funext l; fin_cases l <;> rfl

theorem sh21 : permutex2var (seqv 4 s (t + 4)) oAllFrom1_0 (seqv 4 s (t + 8)) = seqv 4 s (t + 5) := by
  funext l; fin_cases l <;> rfl

theorem sh23 : permutex2var (seqv 4 s (t + 8)) oAllFrom3_0 (seqv 4 s (t + 12)) = seqv 4 s (t + 11) := by
  funext l; fin_cases l <;> rfl

end

variable {s : Nat → Lane}

theorem rollc_ok (hs : ∀ t, s (t + 12) = gc (s t) (s (t + 1)) (s (t + 2))) (t : Nat) (r : Roll) (h : At s t r) :
    (rollc r).1 = target 4 s t ∧ At s (t + 4) (rollc r).2 := by
  rw [At] at h; subst h
  have e : rollc ⟨seqv 4 s t, seqv 4 s (t + 4), seqv 4 s (t + 8)⟩ = (target 4 s t, ⟨seqv 4 s (t + 4), seqv 4 s (t + 8), seqv 4 s (t + 12)⟩) := by
    unfold rollc
    simp only [sh01, sh12, newc512 hs, sh02, sh03, sh10, sh11, sh20, sh21, sh23, target]
  rw [e]
  exact ⟨rfl, rfl⟩

theorem rolle_ok (hs : ∀ t, s (t + 12) = ge (s t) (s (t + 1)) (s (t + 2))) (t : Nat) (r : Roll) (h : At s t r) :
    (rolle r).1 = target 4 s t ∧ At s (t + 4) (rolle r).2 := by
  rw [At] at h; subst h
  have e : rolle ⟨seqv 4 s t, seqv 4 s (t + 4), seqv 4 s (t + 8)⟩ = (target 4 s t, ⟨seqv 4 s (t + 4), seqv 4 s (t + 8), seqv 4 s (t + 12)⟩) := by
    unfold rolle
    simp only [sh01, sh12, sh20, newe512 hs, sh02, sh03, sh10, sh11, sh21, sh23, target]
  rw [e]
  exact ⟨rfl, rfl⟩

theorem fold_at (junk : Vec 4) (x : Vars (Vec 4)) (p : Fin 12) : (fold junk x).at p.val = xorTo 4 (x.get p.val).at := by
  fin_cases p
  · exact sum4 (x.a0 0)
  · exact sum4 (x.a0 1)
  · exact sum4 (x.a0 2)
  · exact sum4 (x.a0 3)
  · exact sum4 (x.a1 0)
  · exact sum4 (x.a1 1)
  · exact sum4 (x.a1 2)
  · exact sum4 (x.a1 3)
  · exact sum4 (x.a2 0)
  · exact sum4 (x.a2 1)
  · exact sum4 (x.a2 2)
  · exact sum4 (x.a2 3)

theorem offs0 : ∀ l : Fin 4, ((ofList 4 [0, 4, 8, 1]) l).toNat < 12 ∧ pos ((ofList 4 [0, 4, 8, 1]) l).toNat = l.val := by decide

theorem offs5 : ∀ l : Fin 4, ((ofList 4 [5, 9, 2, 6]) l).toNat < 12 ∧ pos ((ofList 4 [5, 9, 2, 6]) l).toNat = 4 + l.val := by decide

theorem offsa : ∀ l : Fin 4, ((ofList 4 [10, 3, 7, 11]) l).toNat < 12 ∧ pos ((ofList 4 [10, 3, 7, 11]) l).toNat = 8 + l.val := by decide

theorem save_ok (s : Nat → Lane) (t : Nat) (r : Roll) (k : Bytes) (hk : k.length = 48) (hr : At s t r) :
    ∃ k', save r k = some k' ∧ k'.length = 48 ∧ ∀ p < 12, wd k' p = s (t + pos p) := by
  rw [At] at hr; subst hr
  obtain ⟨o1, e1, u1⟩ := scatter_set (out := k) (g := fun p => s (t + pos p)) 0xF (ofList 4 [0, 4, 8, 1]) (seqv 4 s t)
    (fun l => by have := (offs0 l).1; omega) fun l _ => by rw [(offs0 l).2, seqv]
  obtain ⟨o2, e2, u2⟩ := scatter_set (out := o1) (g := fun p => s (t + pos p)) 0xF (ofList 4 [5, 9, 2, 6]) (seqv 4 s (t + 4))
    (fun l => by have := (offs5 l).1; rw [u1.len]; omega) fun l _ => by rw [(offs5 l).2, seqv, Nat.add_assoc]
  have u := u1.trans u2
  obtain ⟨o3, e3, u3⟩ := scatter_set (out := o2) (g := fun p => s (t + pos p)) 0xF (ofList 4 [10, 3, 7, 11]) (seqv 4 s (t + 8))
    (fun l => by have := (offsa l).1; rw [u.len]; omega) fun l _ => by rw [(offsa l).2, seqv, Nat.add_assoc]
  have u := u.trans u3
  refine ⟨o3, ?_, u.len.trans hk, fun p hp => u.new p ?_⟩
  · unfold save
    rw [e1, some_bind, e2, some_bind]; exact e3
  · have : ∀ p < 12, ((∃ l : Fin 4, Nat.testBit 0xF l.val = true ∧ ((ofList 4 [0, 4, 8, 1]) l).toNat = p) ∨
      ∃ l : Fin 4, Nat.testBit 0xF l.val = true ∧ ((ofList 4 [5, 9, 2, 6]) l).toNat = p) ∨
      ∃ l : Fin 4, Nat.testBit 0xF l.val = true ∧ ((ofList 4 [10, 3, 7, 11]) l).toNat = p := by decide
    exact this p hp

theorem load_ok (k : Bytes) (s : Nat → Lane) (hk : k.length = 48) (hs : ∀ p < 12, wd k p = s (pos p)) :
    ∃ r, load k = some r ∧ At s 0 r := by
  unfold load
  rw [gather_words hk _ fun l => (offs0 l).1, some_bind, gather_words hk _ fun l => (offs5 l).1, some_bind,
    gather_words hk _ fun l => (offsa l).1, some_bind]
  refine ⟨_, rfl, ?_⟩
  rw [At]
  congr 1
  · funext l; rw [hs _ (offs0 l).1, (offs0 l).2, seqv, Nat.zero_add]
  · funext l; rw [hs _ (offs5 l).1, (offs5 l).2, seqv, Nat.zero_add]
  · funext l; rw [hs _ (offsa l).1, (offsa l).2, seqv, Nat.zero_add]

end Y4

theorem y4_ok (junk : Vec 4) : FastOk (y4 junk) Y4.At where
  lanes := by omega
  small := by omega
  load := Y4.load_ok
  rollc s t r hs hr := ⟨(Y4.rollc_ok hs t r hr).2, fun p l => by
    show inp (Y4.rollc r).1 p l = _
    rw [(Y4.rollc_ok hs t r hr).1, inp_target]⟩
  rolle s t r hs hr := ⟨(Y4.rolle_ok hs t r hr).2, fun p l => by
    show inp (Y4.rolle r).1 p l = _
    rw [(Y4.rolle_ok hs t r hr).1, inp_target]⟩
  rounds a l := by
    have h := XoodooSimd.rounds6_eq (XoodooSimd.round512_ok (XoodooSimd.ops512_ok l)) a
    rw [inp_eq] at h; exact h
  reduce X x hx := by
    obtain ⟨x', e, h1, h2⟩ := addTo_ok (Y4.fold junk X) hx
    exact ⟨x', e, h1, fun p hp => by rw [h2 p hp, Y4.fold_at junk X ⟨p, hp⟩]⟩
  save := Y4.save_ok
  extract a out hl := extract512_ok (by omega) a hl

end XoofffSimd
