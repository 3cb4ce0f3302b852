import Verif.Proofs.XoodooArm
import Verif.Proofs.XoodooPlanesXoofff

/-!
The functions for Xoodyak and Xoofff of the ARM assembly do what the plain implementation does.
-/

namespace XoodooArm

open Xoodoo (Lane Lanes bytesOfLanes lanesOfBytes bytesOfWord)
open Simd32 (wd loadWord storeWord)
open XoofffSimd (words_ext wd_bytesOfLanes wd_take rc1 re1 P6)
open XoodooPlanes (wd_pad loadWord_ok storeWord_eq wd_other)

theorem sub32_eq {a b : Nat} (h : b ≤ a) (ha : a < 2 ^ 32) : sub32 a b = a - b := by unfold sub32; omega

/-- The 48 bytes held by the registers. -/
def B (g : Regs) : Bytes := bytesOfLanes (stm g)

theorem length_B (g : Regs) : (B g).length = 48 := Xoodoo.length_bytesOfLanes _

theorem B_permute12Asm (g : Regs) : B (permute12Asm g) = Xoodoo.Ref.permute12 (B g) := by
  rw [B, permute12Asm_eq, Xoodoo.Ref.permute12, Xoodoo.Ref.permuteNrounds, B, Xoodoo.lanesOfBytes_bytesOfLanes]

theorem wd_B (g : Regs) {p : Nat} (hp : p < 12) : wd (B g) p = stm g ⟨p, hp⟩ := wd_bytesOfLanes _ hp

theorem wd_next (d : Bytes) (p k : Nat) : wd (d.drop (p + 4)) k = wd (d.drop p) (1 + k) := by
  have := Simd32.wd_drop (d.drop p) 1 k
  rwa [List.drop_drop] at this

/-- Adding words of the input to registers. -/
theorem eorIn_ok (input : Bytes) : ∀ (rs : List Nat) (g : Regs) (p : Nat), (∀ r ∈ rs, 2 ≤ r) → rs.Nodup →
    p + 4 * rs.length ≤ input.length → ∃ g', eorIn input rs g p = some (g', p + 4 * rs.length) ∧
      ∀ q, 2 ≤ q → g' q = if q ∈ rs then g q ^^^ wd (input.drop p) (rs.idxOf q) else g q := by
  intro rs
  induction rs with
  | nil => intro g p _ _ _; exact ⟨g, rfl, fun q _ => by simp⟩
  | cons r rs ih =>
    intro g p h2 hn hl
    rw [List.length_cons] at hl
    have e : loadWord input p = some (wd (input.drop p) 0) := loadWord_ok input p 0 (by omega)
    obtain ⟨g', e1, e2⟩ := ih (eor r r 1 0 (set g 1 (wd (input.drop p) 0))) (p + 4) (fun x hx => h2 x (List.mem_cons_of_mem _ hx))
      (List.nodup_cons.1 hn).2 (by omega)
    refine ⟨g', ?_, fun q hq => ?_⟩
    · rw [eorIn, e, Option.bind_eq_bind, Option.bind_some, e1, List.length_cons]
      congr 2
      omega
    · have hr := h2 r List.mem_cons_self
      have r0 : ∀ x : Lane, x.rotateRight 0 = x := fun x => by rw [ror_eq x 0 (by omega)]; exact rol_zero x
      have hg : eor r r 1 0 (set g 1 (wd (input.drop p) 0)) q = if q = r then g q ^^^ wd (input.drop p) 0 else g q := by
        simp only [eor, get_set, r0, if_true]
        by_cases hqr : q = r
        · rw [if_pos hqr, if_pos hqr, if_neg (by omega), hqr]
        · rw [if_neg hqr, if_neg hqr, if_neg (by omega)]
      rw [e2 q hq, hg]
      by_cases hqr : q = r
      · subst hqr
        rw [if_neg (List.nodup_cons.1 hn).1, if_pos rfl, if_pos List.mem_cons_self, List.idxOf_cons_self]
      · rw [if_neg hqr]
        by_cases hm : q ∈ rs
        · rw [if_pos hm, if_pos (List.mem_cons_of_mem _ hm), wd_next, List.idxOf_cons_ne _ (Ne.symm hqr), Nat.add_comm]
        · rw [if_neg hm, if_neg (by simp [hqr, hm])]

theorem strWords_ok : ∀ (ws : List Lane) (out : Bytes) (p : Nat), p + 4 * ws.length ≤ out.length →
    strWords ws out p = some (Bytes.setAt out p (ws.flatMap bytesOfWord), p + 4 * ws.length) := by
  intro ws
  induction ws with
  | nil => intro out p _; simp [strWords, Bytes.setAt_nil]
  | cons w ws ih =>
    intro out p h
    rw [List.length_cons] at h
    rw [strWords, storeWord_eq _ _ _ (by omega), Option.bind_eq_bind, Option.bind_some, ih _ _ (by rw [Bytes.length_setAt]; omega),
      List.flatMap_cons, ← Bytes.setAt_append, Xoodoo.length_bytesOfWord, List.length_cons]
    congr 2
    omega

/-- The register of a lane. -/
def reg (i : Fin 12) : Nat := if i.val = 11 then 14 else i.val + 2

theorem stm_reg (g : Regs) (i : Fin 12) : stm g i = g (reg i) := by
  fin_cases i <;> rfl

theorem two_le_reg (i : Fin 12) : 2 ≤ reg i := by
  unfold reg
  split <;> omega

theorem reg_inj (i j : Fin 12) : reg i = reg j ↔ i = j := by
  rw [Fin.ext_iff]
  unfold reg
  split <;> split <;> omega

/-- `rs` are the registers of the first `n` lanes. -/
def Front (rs : List Nat) (n : Nat) : Prop :=
  (∀ r ∈ rs, 2 ≤ r) ∧ rs.Nodup ∧ rs.length = n ∧ ∀ i : Fin 12, (reg i ∈ rs ↔ i.val < n) ∧ (i.val < n → rs.idxOf (reg i) = i.val)

instance (rs : List Nat) (n : Nat) : Decidable (Front rs n) := by
  unfold Front
  infer_instance

theorem stm_eorIn (input : Bytes) {rs : List Nat} {n : Nat} (h : Front rs n) (g : Regs) (p : Nat)
    (hl : p + 4 * n ≤ input.length) : ∃ g', eorIn input rs g p = some (g', p + 4 * n) ∧
      ∀ i, stm g' i = stm g i ^^^ (if i.val < n then wd (input.drop p) i.val else 0) := by
  obtain ⟨h1, h2, rfl, h3⟩ := h
  obtain ⟨g', e1, e2⟩ := eorIn_ok input rs g p h1 h2 hl
  refine ⟨g', e1, fun i => ?_⟩
  rw [stm_reg, stm_reg, e2 _ (two_le_reg i)]
  by_cases hi : i.val < rs.length
  · rw [if_pos ((h3 i).1.2 hi), if_pos hi, (h3 i).2 hi]
  · rw [if_neg (fun hc => hi ((h3 i).1.1 hc)), if_neg hi]
    exact BitVec.xor_zero.symm

theorem stm_eorImm (j : Fin 12) (c : Lane) (g : Regs) (i : Fin 12) :
    stm (eorImm (reg j) (reg j) c g) i = stm g i ^^^ (if i = j then c else 0) := by
  rw [stm_reg, stm_reg, eorImm, get_set]
  by_cases h : i = j
  · subst h
    rw [if_pos rfl, if_pos rfl]
  · rw [if_neg (fun hc => h ((reg_inj i j).1 hc)), if_neg h]
    exact BitVec.xor_zero.symm

/-! ### Absorbing -/

theorem addBlock_ok {rs : List Nat} {n : Nat} (h : Front rs n) (hn : n < 12) (pad : Nat) (hpad : pad = reg ⟨n, hn⟩) (g : Regs) (X : Bytes) (p : Nat)
    (hl : p + 4 * n ≤ X.length) : ∃ g', eorIn X rs g p = some (g', p + 4 * n) ∧
      B (eorImm pad pad 1 g') = Bytes.xorAt (Bytes.xorAt (B g) 0 ((X.drop p).take (4 * n))) (4 * n) [1] := by
  obtain ⟨g', e1, e2⟩ := stm_eorIn X h g p hl
  refine ⟨g', e1, ?_⟩
  apply words_ext (length_B _) (by simp [length_B])
  intro q hq
  rw [wd_pad _ _ _ _ (length_B g) hq, wd_B _ hq, wd_B _ hq, hpad, stm_eorImm, e2]
  congr 1
  simp only [Fin.mk.injEq]

theorem absorbLoop_ok {rs : List Nat} {n : Nat} (h : Front rs n) (hn : n < 12) (h0 : 0 < n) (pad : Nat) (hpad : pad = reg ⟨n, hn⟩) (X : Bytes) :
    ∀ (fuel fuel' : Nat) (g : Regs) (p XLen : Nat), 4 * n ≤ XLen → p + XLen ≤ X.length → XLen < 2 ^ 32 → XLen < fuel → XLen < fuel' →
      ∃ g' X' k, Xoodyak.absorbFullBlocks Xoodoo.Ref.permute12 (4 * n) fuel (B g) (X.drop p) XLen = some (B g', X', k) ∧
        absorbLoop X rs pad (4 * n) fuel' g p (XLen - 4 * n) = some (g', sub32 k (4 * n)) ∧ k ≤ XLen := by
  intro fuel
  induction fuel with
  | zero => intro fuel' g p XLen _ _ _ h; omega
  | succ fuel ih =>
    intro fuel' g p XLen h1 h2 h3 h4 h5
    obtain ⟨fuel', rfl⟩ : ∃ f, fuel' = f + 1 := ⟨fuel' - 1, by omega⟩
    obtain ⟨g1, e1, e2⟩ := addBlock_ok h hn pad hpad (permute12Asm g) X p (by omega)
    have hl : (Xoodoo.Ref.permute12 (B g)).length = 48 := by rw [← B_permute12Asm, length_B]
    rw [B_permute12Asm] at e2
    have hd : ((X.drop p).take (4 * n)).length = 4 * n := by simp; omega
    rw [Xoodyak.absorbFullBlocks, SnP.readBuf_some (by rw [List.length_drop]; omega), absorbLoop, e1]
    simp only [Option.bind_eq_bind, Option.bind_some]
    rw [Xoodyak.addBytes_some (by rw [hl]; omega)]
    simp only [Option.bind_some]
    rw [Xoodyak.addByte_some (by rw [Bytes.length_xorAt, hl]; omega)]
    simp only [Option.bind_some]
    rw [show (0x01 : Byte) = 1 from rfl, ← e2, List.drop_drop]
    by_cases hc : XLen - 4 * n ≥ 4 * n
    · obtain ⟨g', X', k, i1, i2, i3⟩ := ih fuel' (eorImm pad pad 1 g1) (p + 4 * n) (XLen - 4 * n) hc (by omega) (by omega) (by omega) (by omega)
      rw [if_pos hc, if_neg (by omega), sub32_eq (by omega) (by omega)]
      exact ⟨g', X', k, i1, i2, by omega⟩
    · rw [if_neg hc, if_pos (by omega)]
      exact ⟨_, _, _, rfl, rfl, by omega⟩

theorem length_left {k r len : Nat} (hk : k ≤ len) (h : len < 2 ^ 32) (hr : r < 2 ^ 32) :
    sub32 len (add32 (sub32 k r) r) = len - k := by
  unfold sub32 add32
  omega

/-! ### Squeezing -/

theorem B_one (g : Regs) : B (eorImm 2 2 1 g) = Bytes.xorAt (B g) 0 [1] := by
  apply words_ext (length_B _) (by simp [length_B])
  intro p hp
  have := wd_pad (B g) [] 0 p (length_B g) hp
  rw [List.take_nil, Bytes.xorAt_nil, Nat.mul_zero] at this
  rw [this, wd_B _ hp, wd_B _ hp]
  refine (stm_eorImm 0 1 g ⟨p, hp⟩).trans ?_
  simp only [Nat.not_lt_zero, if_false, Fin.ext_iff]
  congr 1
  exact BitVec.xor_zero.symm

theorem take_B (g : Regs) {rs : List Nat} {n : Nat} (h : rs = ((List.finRange 12).take n).map reg) (hn : n ≤ 12) :
    (rs.map g).flatMap bytesOfWord = (B g).take (4 * n) := by
  have e : B g = ((List.finRange 12).map fun i => g (reg i)).flatMap bytesOfWord := by
    rw [B, bytesOfLanes, List.flatMap_map]
    congr 1
    funext i
    rw [stm_reg]
  rw [e, h, List.map_map]
  have h4 : ∀ l : List (Fin 12), ((l.map fun i => g (reg i)).flatMap bytesOfWord).length = 4 * l.length := fun l => by
    induction l with
    | nil => rfl
    | cons a l ih => rw [List.map_cons, List.flatMap_cons, List.length_append, ih, Xoodoo.length_bytesOfWord, List.length_cons]; omega
  conv => rhs; rw [← List.take_append_drop n (List.finRange 12), List.map_append, List.flatMap_append]
  refine (List.take_left' ?_).symm
  refine (h4 _).trans ?_
  rw [List.length_take, List.length_finRange]
  omega

theorem squeezeLoop_ok {rs : List Nat} {n : Nat} (h : rs = ((List.finRange 12).take n).map reg) (hn : n ≤ 12) (h0 : 0 < n) :
    ∀ (fuel fuel' : Nat) (g : Regs) (Y : Bytes) (p YLen : Nat), 4 * n ≤ YLen → p + YLen ≤ Y.length → YLen < 2 ^ 32 → YLen < fuel → YLen < fuel' →
      ∃ g' out k, Xoodyak.squeezeFullBlocks Xoodoo.Ref.permute12 (4 * n) fuel (B g) YLen = some (B g', out, k) ∧
        squeezeLoop rs (4 * n) fuel' g Y p (YLen - 4 * n) = some (g', Bytes.setAt Y p out, sub32 k (4 * n)) ∧ k ≤ YLen ∧ out.length = YLen - k := by
  intro fuel
  induction fuel with
  | zero => intro fuel' g Y p YLen _ _ _ h; omega
  | succ fuel ih =>
    intro fuel' g Y p YLen h1 h2 h3 h4 h5
    obtain ⟨fuel', rfl⟩ : ∃ f, fuel' = f + 1 := ⟨fuel' - 1, by omega⟩
    rw [Xoodyak.squeezeFullBlocks, Xoodyak.addByte_some (by rw [length_B]; omega), squeezeLoop]
    simp only [Option.bind_eq_bind, Option.bind_some]
    rw [show (0x01 : Byte) = 1 from rfl, ← B_one, ← B_permute12Asm]
    generalize permute12Asm (eorImm 2 2 1 g) = g1
    have hlen : (rs.map g1).length = n := by rw [List.length_map, h, List.length_map, List.length_take, List.length_finRange]; omega
    rw [Xoodyak.extractBytes_some (by rw [length_B]; omega), Option.bind_some, strWords_ok _ _ _ (by rw [hlen]; omega), Option.bind_some,
      if_neg (by omega), take_B g1 h hn, hlen]
    have hl : ((B g1).take (4 * n)).length = 4 * n := by rw [List.length_take, length_B]; omega
    have hsl : Bytes.slice (B g1) 0 (4 * n) = (B g1).take (4 * n) := by rw [Bytes.slice, List.drop_zero]
    by_cases hc : YLen - 4 * n ≥ 4 * n
    · obtain ⟨g', out, k, i1, i2, i3, i4⟩ := ih fuel' g1 (Bytes.setAt Y p ((B g1).take (4 * n))) (p + 4 * n) (YLen - 4 * n) hc
        (by rw [Bytes.length_setAt]; omega) (by omega) (by omega) (by omega)
      rw [if_pos hc, if_neg (by omega), sub32_eq (by omega) (by omega), i1, Option.bind_some]
      refine ⟨g', (B g1).take (4 * n) ++ out, k, ?_, ?_, by omega, by rw [List.length_append, hl, i4]; omega⟩
      · rw [hsl]
      · rw [i2]
        have := Bytes.setAt_append Y p ((B g1).take (4 * n)) out
        rw [hl] at this
        rw [this]
    · rw [if_neg hc, if_pos (by omega), hsl]
      exact ⟨g1, _, _, rfl, rfl, by omega, by rw [hl]; omega⟩

/-! ### Encrypting and decrypting -/

/-- The memory after the first `k` words of the output. -/
def written (mem : Bytes) (q : Nat) (ws : List Lane) : Bytes := Bytes.setAt mem q (ws.flatMap bytesOfWord)

theorem length_words (ws : List Lane) : (ws.flatMap bytesOfWord).length = 4 * ws.length := by
  induction ws with
  | nil => rfl
  | cons w ws ih => rw [List.flatMap_cons, List.length_append, ih, Xoodoo.length_bytesOfWord, List.length_cons]; omega

theorem written_nil (mem : Bytes) (q : Nat) : written mem q [] = mem := Bytes.setAt_nil mem q

theorem length_written (mem : Bytes) (q : Nat) (ws : List Lane) : (written mem q ws).length = mem.length := Bytes.length_setAt ..

theorem load_written (mem : Bytes) (p q k : Nat) (ws : List Lane) (hp : p + 4 * k + 4 ≤ mem.length)
    (hov : q + 4 * ws.length ≤ p + 4 * k ∨ p + 4 * k + 4 ≤ q) :
    loadWord (written mem q ws) (p + 4 * k) = some (wd (mem.drop p) k) := by
  rw [loadWord_ok _ _ _ (by rw [length_written]; exact hp), written, wd_other _ _ _ _ _ (by rw [length_words]; omega)]

theorem store_written (mem : Bytes) (q k : Nat) (ws : List Lane) (w : Lane) (hk : ws.length = k) (hq : q + 4 * k + 4 ≤ mem.length) :
    storeWord (written mem q ws) (q + 4 * k) w = some (written mem q (ws ++ [w])) := by
  rw [storeWord_eq _ _ _ (by rw [length_written]; omega), written, written, List.flatMap_append, ← Bytes.setAt_append, length_words, hk,
    List.flatMap_cons, List.flatMap_nil, List.append_nil]

theorem cryptBlock_run (dec : Bool) (g : Regs) (mem : Bytes) (p q : Nat) (hp : p + 24 ≤ mem.length) (hq : q + 24 ≤ mem.length)
    (hov : q ≤ p ∨ p + 24 ≤ q) : ∃ g', cryptBlock dec g mem p q =
        some (g', written mem q [g 2 ^^^ wd (mem.drop p) 0, g 3 ^^^ wd (mem.drop p) 1, g 4 ^^^ wd (mem.drop p) 2,
          g 5 ^^^ wd (mem.drop p) 3, g 6 ^^^ wd (mem.drop p) 4, g 7 ^^^ wd (mem.drop p) 5]) ∧
      ∀ i : Fin 12, stm g' i = if i.val < 6 then (if dec then wd (mem.drop p) i.val else stm g i ^^^ wd (mem.drop p) i.val) else stm g i := by
  have r0 : ∀ x : Lane, x.rotateRight 0 = x := fun x => by rw [ror_eq x 0 (by omega)]; exact rol_zero x
  have e0 : loadWord mem p = some (wd (mem.drop p) 0) := loadWord_ok mem p 0 (by omega)
  have e1 : loadWord mem (p + 4) = some (wd (mem.drop p) 1) := loadWord_ok mem p 1 (by omega)
  have s0 := fun w => store_written mem q 0 [] w rfl (by omega)
  rw [written_nil] at s0
  have e2 := fun a => load_written mem p q 2 [a] (by omega) (by simp only [List.length_cons, List.length_nil]; omega)
  have s1 := fun a w => store_written mem q 1 [a] w rfl (by omega)
  have e3 := fun a b => load_written mem p q 3 [a, b] (by omega) (by simp only [List.length_cons, List.length_nil]; omega)
  have s2 := fun a b w => store_written mem q 2 [a, b] w rfl (by omega)
  have e4 := fun a b c => load_written mem p q 4 [a, b, c] (by omega) (by simp only [List.length_cons, List.length_nil]; omega)
  have s3 := fun a b c w => store_written mem q 3 [a, b, c] w rfl (by omega)
  have e5 := fun a b c d => load_written mem p q 5 [a, b, c, d] (by omega) (by simp only [List.length_cons, List.length_nil]; omega)
  have s4 := fun a b c d w => store_written mem q 4 [a, b, c, d] w rfl (by omega)
  have s5 := fun a b c d e w => store_written mem q 5 [a, b, c, d, e] w rfl (by omega)
  simp only [Nat.mul_zero, Nat.add_zero, Nat.reduceMul, List.nil_append, List.cons_append] at s0 s1 s2 s3 s4 s5 e2 e3 e4 e5
  unfold cryptBlock
  simp only [Option.bind_eq_bind, e0, e1, s0, e2, s1, e3, s2, e4, s3, e5, s4, s5, Option.bind_some]
  generalize wd (mem.drop p) = W
  refine ⟨mov dec 7 1 (eor 7 7 1 0 (mov dec 6 0 (set (eor 6 6 0 0 (mov dec 5 1 (set (eor 5 5 1 0 (mov dec 4 0
        (set (eor 4 4 0 0 (mov dec 3 1 (set (eor 3 3 1 0 (mov dec 2 0 (eor 2 2 0 0 (set (set g 0 (W 0)) 1 (W 1))))) 0 (W 2)))) 1 (W 3)))) 0 (W 4))))
        1 (W 5)))), ?_, ?_⟩
  · cases dec <;> simp [mov, eor, set, r0]
  · intro i
    fin_cases i <;> cases dec <;> simp [stm, mov, eor, set, r0]

/-- The registers after the words of a block have been added. -/
def encrypted (g : Regs) (d : Bytes) : Regs := fun r => g r ^^^ (if 2 ≤ r ∧ r < 8 then wd d (r - 2) else 0)

theorem B_encrypted (g : Regs) (d : Bytes) (hd : 24 ≤ d.length) :
    B (eorImm 8 8 1 (encrypted g d)) = Bytes.xorAt (Bytes.xorAt (B g) 0 (d.take 24)) 24 [1] := by
  apply words_ext (length_B _) (by simp [length_B])
  intro q hq
  rw [wd_pad _ _ 6 _ (length_B g) hq, wd_B _ hq, wd_B _ hq]
  refine (stm_eorImm 6 1 (encrypted g d) ⟨q, hq⟩).trans ?_
  have e : stm (encrypted g d) ⟨q, hq⟩ = stm g ⟨q, hq⟩ ^^^ (if q < 6 then wd d q else 0) := by
    interval_cases q <;> rfl
  rw [e]
  congr 1
  exact if_congr (Fin.ext_iff) rfl rfl

theorem encrypted_words (g : Regs) (d : Bytes) (hd : 24 ≤ d.length) :
    [g 2 ^^^ wd d 0, g 3 ^^^ wd d 1, g 4 ^^^ wd d 2, g 5 ^^^ wd d 3, g 6 ^^^ wd d 4, g 7 ^^^ wd d 5].flatMap bytesOfWord =
      Bytes.xor (d.take 24) ((B g).take 24) := by
  have h := XoodooPlanes.take24_pad (B g) (d.take 24) (length_B g) (by rw [List.length_take]; omega)
  rw [← B_encrypted g d hd] at h
  rw [← h]
  exact (take_B (eorImm 8 8 1 (encrypted g d)) (rs := [2, 3, 4, 5, 6, 7]) (n := 6) (by decide) (by omega))

theorem cryptBlock_ok (dec : Bool) (g : Regs) (mem : Bytes) (p q : Nat) (hp : p + 24 ≤ mem.length) (hq : q + 24 ≤ mem.length)
    (hov : q ≤ p ∨ p + 24 ≤ q) : ∃ g', cryptBlock dec g mem p q =
        some (g', Bytes.setAt mem q (Bytes.xor ((mem.drop p).take 24) ((B g).take 24))) ∧
      B (eorImm 8 8 1 g') = Bytes.xorAt (Bytes.xorAt (B g) 0
        (if dec then Bytes.xor ((mem.drop p).take 24) ((B g).take 24) else (mem.drop p).take 24)) 24 [1] := by
  obtain ⟨g', e1, e2⟩ := cryptBlock_run dec g mem p q hp hq hov
  have hdl : 24 ≤ (mem.drop p).length := by rw [List.length_drop]; omega
  refine ⟨g', ?_, ?_⟩
  · rw [e1, written, encrypted_words _ _ hdl]
  · generalize mem.drop p = d at *
    have hl : ((B g).take 24).length = 24 := by rw [List.length_take, length_B]; rfl
    have hd : (d.take 24).length = 24 := by rw [List.length_take]; omega
    cases dec
    · rw [if_neg (by decide), ← B_encrypted g d hdl]
      apply words_ext (length_B _) (length_B _)
      intro k hk
      rw [wd_B _ hk, wd_B _ hk]
      refine (stm_eorImm 6 1 g' ⟨k, hk⟩).trans (Eq.trans ?_ (stm_eorImm 6 1 (encrypted g d) ⟨k, hk⟩).symm)
      rw [e2]
      congr 1
      interval_cases k <;> first | rfl | exact BitVec.xor_zero.symm
    · simp only [if_true]
      have hO : (Bytes.xor (d.take 24) ((B g).take 24)).length = 24 := by rw [Bytes.length_xor, hd, hl]; rfl
      have hw : ∀ k < 6, wd (Bytes.xor (d.take 24) ((B g).take 24)) k = wd d k ^^^ wd (B g) k := by
        intro k hk
        rw [XoodooPlanes.wd_xor' (by omega) (by omega), wd_take (by omega), wd_take (by omega)]
      generalize Bytes.xor (d.take 24) ((B g).take 24) = O at hO hw
      apply words_ext (length_B _) (by simp [length_B])
      intro k hk
      have e := wd_pad (B g) O 6 k (length_B g) hk
      rw [List.take_of_length_le (by omega)] at e
      rw [wd_B _ hk]
      refine (stm_eorImm 6 1 g' ⟨k, hk⟩).trans (Eq.trans ?_ e.symm)
      rw [e2, wd_B _ hk]
      refine congrArg₂ (· ^^^ ·) ?_ (if_congr Fin.ext_iff rfl rfl)
      by_cases h6 : k < 6
      · rw [if_pos h6, if_pos h6, if_pos rfl, hw k h6, wd_B _ hk, XoodooPlanes.xor_back]
      · rw [if_neg h6, if_neg h6]
        exact BitVec.xor_zero.symm

theorem cryptLoop_ok (dec : Bool) :
    ∀ (fuel fuel' : Nat) (g : Regs) (mem I : Bytes) (i o IOLen : Nat), 24 ≤ IOLen → i + IOLen ≤ mem.length → o + IOLen ≤ mem.length →
      IOLen < 2 ^ 32 → IOLen < fuel → IOLen < fuel' → (o ≤ i ∨ i + IOLen ≤ o) → (mem.drop i).take IOLen = I.take IOLen → IOLen ≤ I.length →
      ∃ g' out n, Xoodyak.cryptFull Xoodoo.Ref.permute12 dec fuel (B g) I IOLen = some (B g', out, n) ∧
        cryptLoop dec fuel' g mem i o (IOLen - 24) = some (g', Bytes.setAt mem o out, sub32 n 24) ∧ n ≤ IOLen ∧ out.length = IOLen - n := by
  have hf : ∀ s : Bytes, s.length = 48 → (Xoodoo.Ref.permute12 s).length = 48 := fun s _ => Xoodoo.length_bytesOfLanes _
  intro fuel
  induction fuel with
  | zero => intro fuel' g mem I i o IOLen _ _ _ _ h; omega
  | succ fuel ih =>
    intro fuel' g mem I i o IOLen h1 h2 h3 h4 h5 h6 hov hI hIl
    obtain ⟨fuel', rfl⟩ : ∃ f, fuel' = f + 1 := ⟨fuel' - 1, by omega⟩
    obtain ⟨g0, e1, e2⟩ := cryptBlock_ok dec (permute12Asm g) mem i o (by omega) (by omega) (by omega)
    have hd : (mem.drop i).take 24 = I.take 24 := by
      have := congrArg (List.take 24) hI
      rwa [List.take_take, List.take_take, Nat.min_eq_left h1] at this
    rw [B_permute12Asm, hd] at e1 e2
    generalize hO : Bytes.xor (I.take 24) ((Xoodoo.Ref.permute12 (B g)).take 24) = O at e1 e2
    have hOl : O.length = 24 := by
      rw [← hO, Bytes.length_xor, List.length_take, List.length_take, hf _ (length_B g)]; omega
    rw [XoodooPlanes.cryptFull_step hf dec fuel (B g) I O IOLen (by omega) (length_B g) hO, ← e2, cryptLoop, e1, Option.bind_eq_bind, Option.bind_some]
    generalize eorImm 8 8 1 g0 = g1
    by_cases hc : IOLen - 24 ≥ 24
    · have hI' : ((Bytes.setAt mem o O).drop (i + 24)).take (IOLen - 24) = (I.drop 24).take (IOLen - 24) := by
        apply List.ext_getElem?; intro j
        rw [List.getElem?_take, List.getElem?_take]
        by_cases hj : j < IOLen - 24
        · rw [if_pos hj, if_pos hj, List.getElem?_drop, List.getElem?_drop, Bytes.getElem?_setAt]
          have e := congrArg (fun l => l[24 + j]?) hI
          simp only [List.getElem?_take, if_pos (show 24 + j < IOLen by omega), List.getElem?_drop] at e
          rw [← e, ← Nat.add_assoc]
          cases mem[i + 24 + j]? with
          | none => rfl
          | some b => rw [Option.map_some, if_neg (by omega)]
        · rw [if_neg hj, if_neg hj]
      obtain ⟨g', out, n, i1, i2, i3, i4⟩ := ih fuel' g1 (Bytes.setAt mem o O) (I.drop 24) (i + 24) (o + 24) (IOLen - 24) hc
        (by rw [Bytes.length_setAt]; omega) (by rw [Bytes.length_setAt]; omega) (by omega) (by omega) (by omega) (by omega) hI'
        (by rw [List.length_drop]; omega)
      rw [if_pos hc, if_neg (by omega), sub32_eq (by omega) (by omega), i1, Option.bind_some]
      refine ⟨g', O ++ out, n, rfl, ?_, by omega, by rw [List.length_append, hOl, i4]; omega⟩
      have := Bytes.setAt_append mem o O out
      rw [hOl] at this
      rw [i2, this]
    · rw [if_neg hc, if_pos (by omega)]
      exact ⟨g1, O, _, rfl, rfl, by omega, by omega⟩

/-! ### Xoofff -/

open KeccakP1600 (put)
open Xoodoo (rotl32)

theorem rlo30 (ro ri : Nat) (g : Regs) : mRloXor ro ri ((6 * _r0).tmod 32) g = set g ro (g ri ^^^ (g ro).rotateLeft 30) :=
  mRloXor_eq _ _ _ 2 _ _ (by decide) (by decide) (by decide)

theorem rli31 (ro ri : Nat) (g : Regs) : mRliXor ro ri ((6 * _r0 + 1).tmod 32) g = set g ro (g ro ^^^ (g ri).rotateLeft 31) :=
  mRliXor_eq _ _ _ 1 _ _ (by decide) (by decide) (by decide)

theorem rli17 (ro ri : Nat) (g : Regs) : mRliXor ro ri ((6 * _r0 + _e1 + _w1).tmod 32) g = set g ro (g ro ^^^ (g ri).rotateLeft 17) :=
  mRliXor_eq _ _ _ 15 _ _ (by decide) (by decide) (by decide)

/-- The state after the rounds. -/
abbrev V (g : Regs) : Lanes := view 30 31 17 8 9 6 7 10 11 12 14 g

theorem accumulate_eq (g : Regs) (x : Lanes) (i : Fin 12) : accumulate g x i = x i ^^^ V g i := by
  unfold accumulate
  simp only [rlo30, rli31, rli17]
  fin_cases i <;> rfl

theorem addKey_list (g : Regs) (k : Lanes) : addKey g k = [k 0 ^^^ V g 0, k 1 ^^^ V g 1, k 2 ^^^ V g 2, k 3 ^^^ V g 3, k 4 ^^^ V g 4,
    k 5 ^^^ V g 5, k 6 ^^^ V g 6, k 7 ^^^ V g 7, k 8 ^^^ V g 8, k 9 ^^^ V g 9, k 10 ^^^ V g 10, k 11 ^^^ V g 11] := by
  unfold addKey
  simp only [rlo30, rli31, rli17]
  rfl

theorem addKey_eq (g : Regs) (k : Lanes) : addKey g k = (List.finRange 12).map fun i => k i ^^^ V g i := by
  have e : List.finRange 12 = [0, 1, 2, 3, 4, 5, 6, 7, 8, 9, 10, 11] := by decide
  rw [addKey_list]
  generalize V g = v
  rw [e]
  rfl

theorem view0 (g : Regs) : view 0 0 0 6 7 8 9 10 11 12 14 g = stm g := by
  funext i
  fin_cases i <;> exact rol_zero _

theorem stm_rollc (g : Regs) (k : Lanes) : bytesOfLanes (stm (rollc g k)) = rc1 (bytesOfLanes k) := by
  have h := XoodooPlanes.shifted XoofffSimd.shift_rc1 (XoodooPlanes.state2Vars k) (XoodooPlanes.state2Vars (stm (rollc g k)))
    (by funext l; fin_cases l <;> rfl) (by funext l; fin_cases l <;> rfl) (by
      intro l
      fin_cases l
      · rfl
      · rfl
      · rfl
      · show (k 0 ^^^ k 0 <<< 13) ^^^ (k 4).rotateRight (32 - 3) = k 0 ^^^ (k 0 <<< 13 ^^^ rotl32 (k 4) 3)
        rw [ror_eq _ _ (by omega), rotl32_eq_rol _ _ (by omega) (by omega), BitVec.xor_assoc])
  rwa [XoodooPlanes.B, XoodooPlanes.B, XoodooPlanes.vars2State_state2Vars, XoodooPlanes.vars2State_state2Vars] at h

theorem stm_rolle (g : Regs) (y : Lanes) : bytesOfLanes (stm (rolle g y)) = re1 (bytesOfLanes y) := by
  have h := XoodooPlanes.shifted XoofffSimd.shift_re1 (XoodooPlanes.state2Vars y) (XoodooPlanes.state2Vars (stm (rolle g y)))
    (by funext l; fin_cases l <;> rfl) (by funext l; fin_cases l <;> rfl) (by
      intro l
      fin_cases l
      · rfl
      · rfl
      · rfl
      · show (y 8 &&& y 4) ^^^ (y 0).rotateRight (32 - 5) ^^^ (y 4).rotateRight (32 - 13) ^^^ 7 =
          rotl32 (y 0) 5 ^^^ rotl32 (y 4) 13 ^^^ (y 8 &&& y 4) ^^^ 7
        rw [ror_eq _ _ (by omega), ror_eq _ _ (by omega), rotl32_eq_rol _ _ (by omega) (by omega), rotl32_eq_rol _ _ (by omega) (by omega)]
        ac_rfl)
  rwa [XoodooPlanes.B, XoodooPlanes.B, XoodooPlanes.vars2State_state2Vars, XoodooPlanes.vars2State_state2Vars] at h

theorem bytes_V (g : Regs) : bytesOfLanes (V (roundsX g)) = P6 (bytesOfLanes (stm g)) := by
  rw [V, roundsX_eq, view0, P6, Xoodoo.Ref.permute6, Xoodoo.Ref.permuteNrounds, Xoodoo.lanesOfBytes_bytesOfLanes]

theorem bytes_xor (x y : Lanes) : bytesOfLanes (fun i => x i ^^^ y i) = Bytes.xor (bytesOfLanes x) (bytesOfLanes y) := by
  apply words_ext (Xoodoo.length_bytesOfLanes _) (by rw [Bytes.length_xor, Xoodoo.length_bytesOfLanes, Xoodoo.length_bytesOfLanes]; rfl)
  intro p hp
  rw [XoofffSimd.wd_xor (Xoodoo.length_bytesOfLanes _) (Xoodoo.length_bytesOfLanes _) hp, wd_bytesOfLanes _ hp, wd_bytesOfLanes _ hp,
    wd_bytesOfLanes _ hp]

theorem compressLoop_ok {C : Farfalle.Cfg} (hw : C.width = 48) (hp : C.permute = P6) (hrc : C.rollc = Xoofff.rollc) (input : Bytes) :
    ∀ (fuel : Nat) (g : Regs) (x : Lanes) (p len : Nat), 48 ≤ len → p + len ≤ input.length → len < 2 ^ 32 → len < fuel →
      ∃ k' x', compressLoop input fuel g (stm g) x p (len - 48) = some (k', x', p + len / 48 * 48) ∧
        Farfalle.eat C (len / 48) (bytesOfLanes (stm g), bytesOfLanes x) (input.drop p) = (bytesOfLanes k', bytesOfLanes x') := by
  intro fuel
  induction fuel with
  | zero => intro g x p len _ _ _ h; omega
  | succ fuel ih =>
    intro g x p len h1 h2 h3 h4
    obtain ⟨g1, e1, e2⟩ := stm_eorIn input (rs := [2, 3, 4, 5, 6, 7, 8, 9, 10, 11, 12, 14]) (n := 12) (by decide) g p (by omega)
    have hb : bytesOfLanes (stm g1) = Bytes.xor (bytesOfLanes (stm g)) ((input.drop p).take 48) := by
      have hl : ((input.drop p).take 48).length = 48 := by rw [List.length_take, List.length_drop]; omega
      apply words_ext (Xoodoo.length_bytesOfLanes _) (by rw [Bytes.length_xor, Xoodoo.length_bytesOfLanes, hl]; rfl)
      intro q hq
      rw [XoofffSimd.wd_xor (Xoodoo.length_bytesOfLanes _) hl hq, wd_bytesOfLanes _ hq, wd_bytesOfLanes _ hq, wd_take (by omega), e2, if_pos hq]
    rw [compressLoop, e1, Option.bind_eq_bind, Option.bind_some]
    dsimp only
    generalize hr : rollc (roundsX g1) (stm g) = g2
    have hg2 : bytesOfLanes (stm g2) = rc1 (bytesOfLanes (stm g)) := by rw [← hr, stm_rollc]
    have hx2 : bytesOfLanes (accumulate (roundsX g1) x) =
        Bytes.xor (bytesOfLanes x) (P6 (Bytes.xor (bytesOfLanes (stm g)) ((input.drop p).take 48))) := by
      rw [← hb, ← bytes_V, ← bytes_xor]
      exact congrArg bytesOfLanes (funext fun i => accumulate_eq _ _ i)
    have he : Farfalle.eat C (len / 48) (bytesOfLanes (stm g), bytesOfLanes x) (input.drop p) =
        Farfalle.eat C ((len - 48) / 48) (bytesOfLanes (stm g2), bytesOfLanes (accumulate (roundsX g1) x)) (input.drop (p + 48)) := by
      rw [show len / 48 = (len - 48) / 48 + 1 by omega, Farfalle.eat, hw, hp, hg2, hx2, Farfalle.rc, hrc, List.drop_drop]
      rfl
    rw [he]
    by_cases hc : len - 48 ≥ 48
    · obtain ⟨k', x', i1, i2⟩ := ih g2 (accumulate (roundsX g1) x) (p + 48) (len - 48) hc (by omega) (by omega) (by omega)
      rw [if_neg (by omega), sub32_eq hc (by omega), i1]
      exact ⟨k', x', by rw [show p + 48 + (len - 48) / 48 * 48 = p + len / 48 * 48 by omega], i2⟩
    · rw [if_pos (by omega), show (len - 48) / 48 = 0 by omega]
      exact ⟨_, _, by rw [show p + len / 48 * 48 = p + 4 * 12 by omega], rfl⟩

theorem expandLoop_ok {C : Farfalle.Cfg} (hp : C.permute = P6) (hre : C.rolle = Xoofff.rolle) (k : Lanes) :
    ∀ (fuel : Nat) (g : Regs) (out : Bytes) (p len : Nat), 48 ≤ len → p + len ≤ out.length → len < 2 ^ 32 → len < fuel →
      ∃ y', expandLoop k fuel g (stm g) out p (len - 48) =
          some (y', Bytes.setAt out p (Farfalle.gen C (bytesOfLanes k) (len / 48) (bytesOfLanes (stm g))), p + len / 48 * 48) ∧
        Nat.repeat (Farfalle.re C) (len / 48) (bytesOfLanes (stm g)) = bytesOfLanes y' := by
  have hr : Farfalle.re C = re1 := by funext y; rw [Farfalle.re, hre]; rfl
  intro fuel
  induction fuel with
  | zero => intro g out p len _ _ _ h; omega
  | succ fuel ih =>
    intro g out p len h1 h2 h3 h4
    have hk : (addKey (roundsX g) k).length = 12 := by rw [addKey_eq]; rfl
    have hO : (addKey (roundsX g) k).flatMap bytesOfWord = Bytes.xor (bytesOfLanes k) (P6 (bytesOfLanes (stm g))) := by
      rw [← bytes_V, ← bytes_xor, addKey_eq, List.flatMap_map]; rfl
    rw [expandLoop, strWords_ok _ _ _ (by rw [hk]; omega), Option.bind_eq_bind, Option.bind_some, hO, hk]
    generalize hrl : rolle (roundsX g) (stm g) = g2
    have hg2 : bytesOfLanes (stm g2) = re1 (bytesOfLanes (stm g)) := by rw [← hrl, stm_rolle]
    have he : Farfalle.gen C (bytesOfLanes k) (len / 48) (bytesOfLanes (stm g)) =
        Bytes.xor (bytesOfLanes k) (P6 (bytesOfLanes (stm g))) ++ Farfalle.gen C (bytesOfLanes k) ((len - 48) / 48) (bytesOfLanes (stm g2)) := by
      rw [show len / 48 = (len - 48) / 48 + 1 by omega, Farfalle.gen, hp, hg2, hr]
    have hn : Nat.repeat (Farfalle.re C) (len / 48) (bytesOfLanes (stm g)) =
        Nat.repeat (Farfalle.re C) ((len - 48) / 48) (bytesOfLanes (stm g2)) := by
      rw [show len / 48 = 1 + (len - 48) / 48 by omega, XoofffSimd.repeat_add, hg2, hr]
      rfl
    have hl : (Bytes.xor (bytesOfLanes k) (P6 (bytesOfLanes (stm g)))).length = 48 := by
      rw [← bytes_V, ← bytes_xor, Xoodoo.length_bytesOfLanes]
    rw [he, hn]
    generalize Bytes.xor (bytesOfLanes k) (P6 (bytesOfLanes (stm g))) = O at hl
    by_cases hc : len - 48 ≥ 48
    · obtain ⟨y', i1, i2⟩ := ih g2 (Bytes.setAt out p O) (p + 48) (len - 48) hc
        (by rw [Bytes.length_setAt]; omega) (by omega) (by omega)
      rw [if_neg (by omega), sub32_eq hc (by omega), i1]
      refine ⟨y', ?_, i2⟩
      have := Bytes.setAt_append out p O (Farfalle.gen C (bytesOfLanes k) ((len - 48) / 48) (bytesOfLanes (stm g2)))
      rw [hl] at this
      rw [this, show p + 48 + (len - 48) / 48 * 48 = p + len / 48 * 48 by omega]
    · rw [if_pos (by omega), show (len - 48) / 48 = 0 by omega]
      refine ⟨_, ?_, rfl⟩
      rw [Farfalle.gen, List.append_nil, show p + len / 48 * 48 = p + 4 * 12 by omega]

end XoodooArm
