import Verif.Model.K12Rust
import Verif.Proofs.CompactSponge
import Verif.Proofs.SimdOps
import Verif.Proofs.SpongeAbs
import Verif.Proofs.KangarooTwelve

/-!
The standalone KangarooTwelve in Rust: the permutation and the function `F`.
-/

namespace K12Rust

open KeccakP1600 (Lane Lanes loopFrom put loopM bytesOfLanes lanesOfBytes)
open Compact202 (Five i5 ix ix_val bind_ok loopM_map loopM_rel loopM_inv Pure.thetaC Pure.thetaAdd Pure.chiCopy Pure.chiWrite Pure.chi)
open Compact202.Tweet (enc get_enc length_enc)
open Sponge (absorbAll squeezeAll finish padTail)

/-! ## The permutation -/

theorem wr_enc (A : Lanes) {i : Nat} (h : i < 25) (v : Lane) : wr (enc A) i v = some (enc (put A (ix i) v)) :=
  Compact202.Tweet.wr_enc A h v

theorem xr_enc (A : Lanes) {i : Nat} (h : i < 25) (v : Lane) : xr (enc A) i v = some (enc (put A (ix i) (A (ix i) ^^^ v))) := by
  rw [xr, get_enc A h, Option.bind_some, wr_enc A h]

theorem rot_eq (w : Lane) {r : Nat} (h0 : 0 < r) (h : r < 64) : w.rotateLeft r = KeccakP1600.Ref.rol64 w r := by
  rw [Simd.rotateLeft_eq w r h0 h, KeccakP1600.Ref.rol64, if_pos (by omega), KeccakP1600.Opt64.rol64]

theorem thetaC_eq (A : Lanes) : thetaC (enc A) (fun _ => 0) = some (Pure.thetaC A) := by
  apply loopM_map id
  intro i C h1 h2
  refine bind_ok (get_enc A (by omega)) (bind_ok (get_enc A (by omega)) (bind_ok (get_enc A (by omega))
    (bind_ok (get_enc A (by omega)) (bind_ok (get_enc A (by omega)) ?_))))
  simp only [Nat.mul_one, Nat.mul_zero, Nat.add_zero, id]

theorem thetaAdd_eq (C : Five) (A : Lanes) : thetaAdd C (enc A) = some (enc (Pure.thetaAdd C A)) := by
  apply loopM_map enc
  intro x A h1 h2
  apply loopM_map enc
  intro y A h3 h4
  simp only [Nat.mul_one]
  rw [xr_enc A (by omega), rot_eq _ (by omega) (by omega), Nat.mul_comm y 5]

theorem chiCopy_any (A : Lanes) (y : Nat) (C : Five) :
    loopFrom (fun x T => put T (i5 x) (A (ix (x + 5 * y)))) 0 5 C = Pure.chiCopy A y := by
  funext x
  fin_cases x <;> rfl

theorem chi_eq (A : Lanes) (C : Five) : chi (enc A) C = some (enc (Pure.chi A)) := by
  apply loopM_map enc
  intro y A h1 h2
  have h3 : chiCopy (enc A) (y * 5) C = some (Pure.chiCopy A y) := by
    rw [← chiCopy_any A y C]
    apply loopM_map id
    intro x T h3 h4
    show Option.map _ (enc A)[x * 1 + y * 5]? = _
    rw [get_enc A (by omega), Nat.mul_one, Nat.mul_comm y 5]
    rfl
  show (chiCopy (enc A) (y * 5) C).bind _ = _
  rw [h3, Option.bind_some]
  apply loopM_map enc
  intro x A h3 h4
  simp only [Nat.mul_one]
  rw [wr_enc A (by omega), Nat.mul_comm y 5]

theorem tables : ∀ t : Fin 24, PI[t.val]? = some (KeccakP1600.Compact.piLane.getD t.val 0).val ∧
    RHO[t.val]? = some (KeccakP1600.Compact.rotationConstants.getD t.val 0) ∧
    0 < KeccakP1600.Compact.rotationConstants.getD t.val 0 ∧ KeccakP1600.Compact.rotationConstants.getD t.val 0 < 64 := by decide

theorem ix_fin (i : Fin 25) : ix i.val = i := by
  apply Fin.ext; rw [ix_val i.isLt]

theorem rhoPiStep_eq (x : Nat) (hx : x < 24) (B : Lanes) (a : Lane) :
    rhoPiStep x (enc B) a = some (enc (put B (KeccakP1600.Compact.piLane.getD x 0)
      (KeccakP1600.Compact.rol64 a (KeccakP1600.Compact.rotationConstants.getD x 0))), B (KeccakP1600.Compact.piLane.getD x 0)) := by
  obtain ⟨h1, h2, h3, h4⟩ := tables ⟨x, hx⟩
  simp only at h1 h2 h3 h4
  unfold rhoPiStep
  refine bind_ok h1 (bind_ok (get_enc B (Fin.isLt _)) (bind_ok h2 (bind_ok (wr_enc B (Fin.isLt _) _) ?_)))
  rw [ix_fin, Simd.rotateLeft_eq a _ h3 h4, KeccakP1600.Compact.rol64, KeccakP1600.Opt64.rol64]

/-- The walk of the compact implementation. -/
def walk (x : Nat) (st : Lanes × Lane) : Lanes × Lane :=
  (put st.1 (KeccakP1600.Compact.piLane.getD x 0)
    (KeccakP1600.Compact.rol64 st.2 (KeccakP1600.Compact.rotationConstants.getD x 0)), st.1 (KeccakP1600.Compact.piLane.getD x 0))

theorem walk_eq (A : Lanes) : KeccakP1600.Compact.rhoPi A = (walk 23 (loopFrom walk 0 23 (A, A (ix 1)))).1 := by
  have h : KeccakP1600.Compact.rhoPi A = (loopFrom walk 0 24 (A, A (ix 1))).1 := rfl
  have h2 : ∀ (n a : Nat) (s : Lanes × Lane), loopFrom walk a (n + 1) s = walk (a + n) (loopFrom walk a n s) := by
    intro n
    induction n with
    | zero => intro a s; rfl
    | succ n ih => intro a s; rw [loopFrom, ih, loopFrom]; congr 1; omega
  rw [h, h2 23 0, Nat.zero_add]

theorem rhoPi_eq (A : Lanes) : rhoPi (enc A) = some (enc (KeccakP1600.Compact.rhoPi A)) := by
  have h0 : (enc A)[1]? = some (A (ix 1)) := get_enc A (by decide)
  have h1 := loopM_map (fun st : Lanes × Lane => (enc st.1, st.2)) (fun x (st : List Lane × Lane) => rhoPiStep x st.1 st.2)
    walk 23 0 (A, A (ix 1)) (fun i st _ h => rhoPiStep_eq i (by omega) st.1 st.2)
  unfold rhoPi
  refine bind_ok h0 (bind_ok h1 (bind_ok (rhoPiStep_eq 23 (by decide) _ _) ?_))
  rw [walk_eq]
  rfl

theorem rc_eq : ∀ i : Fin 12, RC[i.val]? = some (KeccakP1600.Ref.roundConstants.getD (12 + i.val) 0) := by decide

theorem round_eq (i : Nat) (hi : i < 12) (A : Lanes) : round i (enc A) =
    some (enc (KeccakP1600.Ref.round KeccakP1600.Ref.roundConstants KeccakP1600.Ref.rhoOffsets A (12 + i))) := by
  have h1 : iota (enc (Pure.chi (KeccakP1600.Compact.rhoPi (Pure.thetaAdd (Pure.thetaC A) A)))) i =
      some (enc (KeccakP1600.Ref.round KeccakP1600.Ref.roundConstants KeccakP1600.Ref.rhoOffsets A (12 + i))) := by
    have := rc_eq ⟨i, hi⟩
    simp only at this
    rw [iota, this, Option.bind_some, xr_enc _ (by decide), Compact202.Pure.theta_eq, KeccakP1600.Compact.rhoPi_eq,
      Compact202.Pure.chi_eq]
    rfl
  exact bind_ok (thetaC_eq A) (bind_ok (thetaAdd_eq _ _) (bind_ok (rhoPi_eq _) (bind_ok (chi_eq _ _) h1)))

theorem onLanes_eq (A : Lanes) : onLanes (enc A) =
    some (enc (KeccakP1600.Ref.onWords KeccakP1600.Ref.roundConstants KeccakP1600.Ref.rhoOffsets A 12)) := by
  have := loopM_map enc round
    (fun i A => KeccakP1600.Ref.round KeccakP1600.Ref.roundConstants KeccakP1600.Ref.rhoOffsets A (12 + i)) 12 0 A
    (fun i A _ h => round_eq i (by omega) A)
  rw [onLanes, this]
  rfl

theorem word_slice (s : Bytes) (i : Nat) : readU64 (Bytes.slice s i 8) = KeccakP1600.wordOfBytes (s.drop i) := by
  have h : ∀ j, j < 8 → (Bytes.slice s i 8).getD j 0 = (s.drop i).getD j 0 := by
    intro j hj
    rw [List.getD_eq_getElem?_getD, List.getD_eq_getElem?_getD, Bytes.getElem?_slice, if_pos hj, List.getElem?_drop]
  unfold readU64 KeccakP1600.wordOfBytes
  simp only [loopFrom]
  rw [h 0 (by decide), h 1 (by decide), h 2 (by decide), h 3 (by decide), h 4 (by decide), h 5 (by decide), h 6 (by decide),
    h 7 (by decide)]

/-- Write every lane. -/
theorem putAll (w : Nat → Lane) (A : Lanes) :
    loopFrom (fun x A => loopFrom (fun y A => put A (ix (x + y * 5)) (w (x + y * 5))) 0 5 A) 0 5 A = fun i => w i.val := by
  funext i
  fin_cases i <;> rfl

theorem load_eq (s : Bytes) (hs : s.length = 200) : load s = some (enc (lanesOfBytes s)) := by
  have h := loopM_map enc (fun x lanes => for5 5 (fun y lanes => (arrayRef s (8 * (x + y))).bind fun b => wr lanes (x + y) (readU64 b)) lanes)
    (fun x A => loopFrom (fun y A => put A (ix (x + y * 5)) (KeccakP1600.wordOfBytes (s.drop ((x + y * 5) * 8)))) 0 5 A) 5 0
    (fun _ => 0) (by
      intro x A h1 h2
      apply loopM_map enc
      intro y A h3 h4
      show (arrayRef s (8 * (x + y * 5))).bind _ = _
      rw [arrayRef, if_pos (by omega), Option.bind_some, wr_enc A (by omega), word_slice, Nat.mul_comm 8])
  rw [load, Compact202.Tweet.enc_zero, h, putAll (fun i => KeccakP1600.wordOfBytes (s.drop (i * 8)))]
  rfl

theorem store_eq (A : Lanes) (s : Bytes) (hs : s.length = 200) : store (enc A) s = some (bytesOfLanes A) := by
  have h := loopM_map bytesOfLanes (fun x s => for5 5 (fun y s => ((enc A)[x + y]?).bind fun w => copyFrom s (8 * (x + y)) 8 (writeU64 w)) s)
    (fun x B => loopFrom (fun y B => put B (ix (x + y * 5)) (A (ix (x + y * 5)))) 0 5 B) 5 0 (lanesOfBytes s) (by
      intro x B h1 h2
      apply loopM_map bytesOfLanes
      intro y B h3 h4
      show ((enc A)[x + y * 5]?).bind _ = _
      rw [get_enc A (by omega), Option.bind_some, copyFrom, if_pos ⟨by rw [KeccakP1600.length_bytesOfLanes]; omega, rfl⟩,
        KeccakP1600.bytesOfLanes_put, ix_val (by omega), Nat.mul_comm 8]
      rfl)
  rw [KeccakP1600.bytesOfLanes_lanesOfBytes s hs] at h
  rw [store, h, putAll (fun i => A (ix i))]
  congr 2
  funext i
  rw [ix_fin]

theorem permute_eq (s : Bytes) (hs : s.length = 200) : permute s = some (KeccakP1600.Ref.permuteNrounds 12 s) :=
  bind_ok (load_eq s hs) (bind_ok (onLanes_eq _) (store_eq _ s hs))

/-! ## The function `F` -/

/-- The reference permutation with 12 rounds as a byte machine. -/
abbrev P12 : SnP := KeccakP1600.Ref.snp 12

theorem P12_ok : KeccakP1600.Computes P12 12 := KeccakP1600.Ref.computes 12 (by decide)

theorem rate_eq : rateInBytes = 168 := rfl

theorem perm_ok : Compact202.Perm P12 permute := ⟨P12_ok.valid, rfl, permute_eq⟩

theorem permuteIf_eq (c : Bool) {s : Bytes} (hs : s.length = 200) : permuteIf c s = some (if c then P12.permute s else s) :=
  Compact202.permuteIf_eq perm_ok c hs

theorem xorByte_eq (s : Bytes) (p : Nat) (b : Byte) (h : p < s.length) : xorByte s p b = some (Bytes.xorAt s p [b]) := by
  rw [xorByte, List.getElem?_eq_getElem h, Option.bind_some, wr, if_pos h,
    Compact202.set_eq_xorAt _ _ _ _ (List.getElem?_eq_getElem h)]

theorem xorBlock_eq (input : Bytes) (p n : Nat) (s : Bytes) (hp : p + n ≤ input.length) (hn : n ≤ s.length) :
    xorBlock input p n s = some (Bytes.xorAt s 0 (Bytes.slice input p n)) := by
  obtain ⟨t, e, ht⟩ := loopM_inv (fun i s => (input[i + p]?).bind fun b => xorByte s i b)
    (fun i t => t = Bytes.xorAt s 0 ((Bytes.slice input p n).take i)) n 0 s (by simp) (by
      intro i t h1 h2 h3
      subst h3
      refine ⟨_, by rw [Nat.add_comm i p, List.getElem?_eq_getElem (by omega), Option.bind_some,
        xorByte_eq _ _ _ (by simp; omega)], ?_⟩
      rw [Compact202.take_slice_succ _ _ _ _ (by omega) (by omega)]
      have := Bytes.xorAt_append s 0 ((Bytes.slice input p n).take i) [input[p + i]]
      rw [List.length_take, Bytes.length_slice_of_le hp, Nat.min_eq_left (by omega), Nat.zero_add] at this
      exact this)
  rw [xorBlock, e, ht, List.take_of_length_le (by rw [Bytes.length_slice_of_le hp]; omega)]

/-- What the state and `blockSize` stand for: a full block is not yet permuted. -/
def view (s : Bytes) (b : Nat) : Bytes × Nat := if b = rateInBytes then (P12.permute s, 0) else (s, b)

theorem view_block (s m : Bytes) (h : m.length ≤ rateInBytes) :
    view (Bytes.xorAt s 0 m) m.length = absorbAll P12 rateInBytes (s, 0) m := by
  have hR := rate_eq
  unfold view
  by_cases h1 : m.length = rateInBytes
  · rw [if_pos h1, Sponge.absorbAll_fill _ _ _ _ (by rintro rfl; simp at h1; omega) (by omega)]
  · rw [if_neg h1, Sponge.absorbAll_lt _ _ _ _ (by omega), Nat.zero_add]

theorem absorb_ok (input : Bytes) : ∀ (fuel : Nat) (s : Bytes) (off b : Nat), input.length - off < fuel → s.length = 200 →
    b ≤ rateInBytes → off ≤ input.length → (off < input.length → b = rateInBytes) →
    view s b = absorbAll P12 rateInBytes (P12.init, 0) (input.take off) →
    ∃ s' b', absorb input fuel s off b = some (s', b') ∧ s'.length = 200 ∧ b' ≤ rateInBytes ∧
      view s' b' = absorbAll P12 rateInBytes (P12.init, 0) input := by
  have hR := rate_eq
  intro fuel
  induction fuel with
  | zero => intro s off b h; omega
  | succ fuel ih =>
    intro s off b hf hs hb ho hfull hv
    rw [absorb]
    by_cases h : off < input.length
    · rw [if_pos h]
      have hp : (P12.permute s).length = 200 := perm_ok.len hs
      obtain ⟨n, hn⟩ : ∃ n, min (input.length - off) rateInBytes = n := ⟨_, rfl⟩
      simp only [hn]
      have hx := xorBlock_eq input off n (P12.permute s) (by omega) (by omega)
      have hl : (Bytes.slice input off n).length = n := Bytes.length_slice_of_le (by omega)
      have hv2 := view_block (P12.permute s) (Bytes.slice input off n) (by omega)
      rw [hl] at hv2
      have h1 : view s b = (P12.permute s, 0) := if_pos (hfull h)
      have e : input.take (off + n) = input.take off ++ Bytes.slice input off n := by
        rw [List.take_add]; rfl
      obtain ⟨s', b', h2, h3⟩ := ih (Bytes.xorAt (P12.permute s) 0 (Bytes.slice input off n)) (off + n) n (by omega)
        (by rw [Bytes.length_xorAt, hp]) (by omega) (by omega) (by omega)
        (by rw [e, Sponge.absorbAll_append, ← hv, h1, hv2])
      exact ⟨s', b', bind_ok (perm_ok.eq s hs) (bind_ok hx h2), h3⟩
    · rw [if_neg h]
      rw [List.take_of_length_le (by omega)] at hv
      exact ⟨s, b, rfl, hs, hb, hv⟩

theorem squeeze_eq : ∀ (fuel : Nat) (s o : Bytes) (len : Nat), len < fuel → s.length = 200 →
    squeeze fuel s o len = some (o ++ (squeezeAll P12 rateInBytes len (s, 0)).2) := by
  have hR := rate_eq
  intro fuel
  induction fuel with
  | zero => intro s o len h; omega
  | succ fuel ih =>
    intro s o len hl hs
    rw [squeeze]
    by_cases h0 : len > 0
    · rw [if_pos h0]
      obtain ⟨n, hn⟩ : ∃ n, min len rateInBytes = n := ⟨_, rfl⟩
      simp only [hn]
      refine bind_ok (permuteIf_eq _ hs) ?_
      have hblock := Sponge.squeezeAll_block (P := P12) rateInBytes n s 0 (by omega) (by omega)
      have hsl : Bytes.slice s 0 n = s.take n := by simp [Bytes.slice]
      rw [Nat.zero_add, hsl] at hblock
      by_cases h2 : len - n > 0
      · have hnR : n = rateInBytes := by omega
        simp only [h2, decide_true, if_true]
        rw [ih _ _ _ (by omega) (perm_ok.len hs), List.append_assoc]
        obtain ⟨m, hm⟩ : ∃ m, len - n = m + 1 := ⟨len - n - 1, by omega⟩
        have e := Sponge.squeezeAll_add (P := P12) rateInBytes n (m + 1) (s, 0)
        rw [hblock] at e
        simp only at e
        rw [hnR, Sponge.squeezeAll_full _ _ (by omega)] at e
        rw [hm, show len = n + (m + 1) by omega, hnR, e]
      · have hn' : n = len := by omega
        obtain ⟨fu, rfl⟩ : ∃ fu, fuel = fu + 1 := ⟨fuel - 1, by omega⟩
        rw [squeeze, if_neg (by omega), ← hn', hblock]
    · have : len = 0 := by omega
      subst this
      rw [if_neg h0]
      simp only [squeezeAll, List.append_nil]

theorem copyFrom_zero (k n : Nat) (m : Bytes) (h : n ≤ k) (hm : m.length = n) :
    copyFrom (List.replicate k 0) 0 n m = some (Bytes.xorAt (List.replicate k 0) 0 m) := by
  rw [copyFrom, if_pos ⟨by rw [List.length_replicate]; omega, hm⟩]
  congr 1
  apply List.ext_getElem?; intro i
  rw [Bytes.getElem?_setAt, Bytes.getElem?_xorAt, List.getElem?_replicate]
  by_cases hi : i < k
  · rw [if_pos hi]
    by_cases h2 : i < m.length
    · simp [h2]
    · simp [h2, List.getElem?_eq_none (Nat.le_of_not_lt h2)]
  · rw [if_neg hi]; rfl

theorem F_eq (input : Bytes) (d : Byte) (n : Nat) (hn : n < 2 ^ 63) :
    F input d n = some (squeezeAll P12 rateInBytes n
      (finish P12 rateInBytes (absorbAll P12 rateInBytes (P12.init, 0) input) d, 0)).2 := by
  have hR := rate_eq
  obtain ⟨b, hb⟩ : ∃ b, min input.length rateInBytes = b := ⟨_, rfl⟩
  have hi : (List.replicate 200 0 : Bytes) = P12.init := rfl
  have hil : P12.init.length = 200 := by rw [← hi, List.length_replicate]
  have hlen : (input.take b).length = b := by rw [List.length_take]; omega
  have hcopy : copyFrom (List.replicate 200 0) 0 b (input.take b) = some (Bytes.xorAt P12.init 0 (input.take b)) := by
    rw [← hi]; exact copyFrom_zero 200 b _ (by omega) hlen
  have hv := view_block P12.init (input.take b) (by omega)
  rw [hlen] at hv
  obtain ⟨s', b', h1, h2, h3, h4⟩ := absorb_ok input (input.length + 1) (Bytes.xorAt P12.init 0 (input.take b)) b b (by omega)
    (by rw [Bytes.length_xorAt, hil]) (by omega) (by omega) (by omega) hv
  have hfin : (finish P12 rateInBytes (absorbAll P12 rateInBytes (P12.init, 0) input) d).length = 200 :=
    Sponge.finish_len P12_ok.valid _ _ (Sponge.absorbAll_len P12_ok.valid _ _ _ rfl) d
  have hvec : vec n = some () := by rw [vec, if_pos hn]
  generalize hA : absorbAll P12 rateInBytes (P12.init, 0) input = A at h4 hfin
  obtain ⟨S, i⟩ := A
  have hS : (if decide (b' = rateInBytes) = true then P12.permute s' else s') = S ∧ (if b' = rateInBytes then 0 else b') = i := by
    unfold view at h4
    by_cases h : b' = rateInBytes
    · rw [if_pos h] at h4; cases h4; exact ⟨if_pos (decide_eq_true h), if_pos h⟩
    · rw [if_neg h] at h4; cases h4; exact ⟨if_neg (by simpa using h), if_neg h⟩
  have hSl : S.length = 200 := by
    have := Sponge.absorbAll_len P12_ok.valid rateInBytes (P12.init, 0) input rfl
    rw [hA] at this; exact this
  have hil2 : i < rateInBytes := by
    have := Sponge.absorbAll_idx (P := P12) rateInBytes (P12.init, 0) input (by omega)
    rw [hA] at this; exact this
  have hx : (Bytes.xorAt S i [d]).length = 200 := by rw [Bytes.length_xorAt, hSl]
  have hx2 : (if decide ((d &&& 0x80) ≠ 0 ∧ i = rateInBytes - 1) = true then P12.permute (Bytes.xorAt S i [d])
      else Bytes.xorAt S i [d]).length = 200 := by
    split
    · exact perm_ok.len hx
    · exact hx
  have hq := squeeze_eq (n + 1) (finish P12 rateInBytes (S, i) d) [] n (by omega) hfin
  rw [List.nil_append] at hq
  have hpi := permuteIf_eq (decide (b' = rateInBytes)) h2
  rw [hS.1] at hpi
  unfold F
  simp only [hb]
  refine bind_ok hcopy (bind_ok h1 (bind_ok hpi ?_))
  rw [hS.2]
  refine bind_ok (xorByte_eq _ _ _ (by omega)) (bind_ok (permuteIf_eq _ hx) (bind_ok (xorByte_eq _ _ _ (by omega))
    (bind_ok (perm_ok.eq _ (by rw [Bytes.length_xorAt]; exact hx2)) (bind_ok hvec ?_))))
  have hfe : finish P12 rateInBytes (S, i) d = P12.permute (Bytes.xorAt (if decide ((d &&& 0x80) ≠ 0 ∧ i = rateInBytes - 1) = true
      then P12.permute (Bytes.xorAt S i [d]) else Bytes.xorAt S i [d]) (rateInBytes - 1) [0x80]) := by
    unfold finish
    simp only [Compact202.msb_iff, decide_eq_true_eq]
  rw [← hfe]
  exact hq

/-- `F` is TurboSHAKE with a capacity of 256 bits. -/
theorem F_turbo (m : Bytes) (d : Byte) (l : Bits) (hd : Bits.DelimitedBy l d) (n : Nat) (hn : n < 2 ^ 63) :
    ∃ o, F m d n = some o ∧ o.length = n ∧
      Bits.ofBytes o = Spec.TurboSHAKE (Spec.KeccakP.keccakP 12) 256 (Bits.ofBytes m) l (8 * n) :=
  ⟨_, F_eq m d n hn, Sponge.length_squeezeAll _ _ _,
    Sponge.machine_eq_spec P12_ok.valid (Spec.KeccakP.keccakP 12) P12_ok.permute (r := rateInBytes) (by decide) (by decide)
      m l d hd n⟩

/-! ## The tree -/

theorem digits_eq (x : Nat) (h0 : x ≠ 0) : (digits x).reverse = (Spec.base256 x).map (BitVec.ofNat 8) := by
  induction x using Nat.strongRecOn with
  | _ x ih =>
    rw [digits, if_neg h0, List.reverse_cons]
    by_cases h : x < 256
    · rw [Spec.base256_lt h, show x / 256 = 0 by omega, digits, if_pos rfl, Nat.mod_eq_of_lt h]; rfl
    · rw [Spec.base256_ge h, ih (x / 256) (by omega) (by omega), List.map_append]; rfl

theorem ofBytes_rightEncode (x : Nat) : Bits.ofBytes (rightEncode x) = Spec.length_encode x := by
  unfold rightEncode Spec.length_encode
  by_cases h : x = 0
  · subst h
    rw [digits, if_pos rfl, if_pos rfl]; decide
  · rw [if_neg h]
    simp only [digits_eq x h, List.length_map]
    rw [Bits.ofBytes_append, SP800185.ofBytes_map_ofNat, Bits.ofBytes_cons, SP800185.ofByte_ofNat_enc8]
    simp

theorem length_rightEncode {x : Nat} (h : x < 2 ^ 64) : 1 ≤ (rightEncode x).length ∧ (rightEncode x).length ≤ 9 := by
  unfold rightEncode
  simp only [List.length_append, List.length_singleton]
  by_cases h0 : x = 0
  · subst h0; rw [digits, if_pos rfl]; decide
  · rw [digits_eq x h0, List.length_map]
    have := (Spec.base256_length_le_iff x 8 (by omega)).2 (by omega)
    omega

theorem mapUpTo_ok {α : Type} (f : Nat → Option α) (g : Nat → α) (n : Nat) (h : ∀ i, i < n → f i = some (g i)) :
    mapUpTo f n = some ((List.range n).map g) := by
  induction n with
  | zero => rfl
  | succ n ih =>
    rw [mapUpTo]
    refine bind_ok (ih fun i hi => h i (by omega)) (bind_ok (h n (by omega)) ?_)
    rw [List.range_succ, List.map_append]; rfl

theorem getElem?_range_map {α : Type} (g : Nat → α) {n i : Nat} (h : i < n) : ((List.range n).map g)[i]? = some (g i) := by
  rw [List.getElem?_map, List.getElem?_range h]; rfl

theorem chunk_eq (S : Bytes) (i : Nat) (h : i * 8192 ≤ S.length) (hS : S.length < 2 ^ 63) :
    chunk S i = some (Bytes.slice S (i * 8192) 8192) := by
  have hB : B = 8192 := rfl
  unfold chunk
  rw [hB]
  refine bind_ok (show usize ((i + 1) * 8192) = some ((i + 1) * 8192) from if_pos (by omega)) ?_
  simp only
  rw [if_pos (by omega)]
  congr 1
  unfold Bytes.slice
  rcases Nat.le_total ((i + 1) * 8192) S.length with h1 | h1
  · rw [Nat.min_eq_left h1]; congr 1; omega
  · rw [Nat.min_eq_right h1, List.take_of_length_le (by rw [List.length_drop]), List.take_of_length_le (by rw [List.length_drop]; omega)]

theorem ofBytes_chunk (S : Bytes) (i : Nat) : Bits.ofBytes (Bytes.slice S (i * 8192) 8192) = Spec.ktChunk (Bits.ofBytes S) i := by
  unfold Bytes.slice Spec.ktChunk
  rw [← Bits.take_ofBytes, ← Bits.drop_ofBytes, show 8 * (i * 8192) = i * 65536 by omega]

theorem delim_leaf : Bits.DelimitedBy [true, true, false] 0x0B#8 := ⟨by decide, by decide⟩
theorem delim_single : Bits.DelimitedBy [true, true] 0x07#8 := ⟨by decide, by decide⟩
theorem delim_final : Bits.DelimitedBy [false, true] 0x06#8 := ⟨by decide, by decide⟩

/-- The chaining value of leaf `i`. -/
def cv (S : Bytes) (i : Nat) : Bytes :=
  (squeezeAll P12 rateInBytes 32 (finish P12 rateInBytes (absorbAll P12 rateInBytes (P12.init, 0)
    (Bytes.slice S ((i + 1) * 8192) 8192)) 0x0B#8, 0)).2

theorem cv_ok (S : Bytes) (i : Nat) : F (Bytes.slice S ((i + 1) * 8192) 8192) 0x0B#8 32 = some (cv S i) ∧ (cv S i).length = 32 ∧
    Bits.ofBytes (cv S i) =
      Spec.TurboSHAKE (Spec.KeccakP.keccakP 12) (2 * 128) (Spec.ktChunk (Bits.ofBytes S) (i + 1)) [true, true, false] (2 * 128) := by
  obtain ⟨o, h1, h2, h3⟩ := F_turbo (Bytes.slice S ((i + 1) * 8192) 8192) 0x0B#8 _ delim_leaf 32 (by omega)
  have h4 : F (Bytes.slice S ((i + 1) * 8192) 8192) 0x0B#8 32 = some (cv S i) := F_eq _ _ _ (by omega)
  rw [h4] at h1
  cases h1
  rw [ofBytes_chunk] at h3
  exact ⟨h4, h2, h3⟩

theorem ofBytes_flatten_map (g : Nat → Bytes) (t : Nat → Bits) (h : ∀ i, Bits.ofBytes (g i) = t i) (l : List Nat) :
    Bits.ofBytes (l.map g).flatten = l.flatMap t := by
  induction l with
  | nil => simp
  | cons i l ih => rw [List.map_cons, List.flatten_cons, Bits.ofBytes_append, ih, h, List.flatMap_cons]

theorem length_flatten_map (g : Nat → Bytes) (k : Nat) (h : ∀ i, (g i).length = k) (l : List Nat) :
    (l.map g).flatten.length = k * l.length := by
  induction l with
  | nil => simp
  | cons i l ih => rw [List.map_cons, List.flatten_cons, List.length_append, ih, h, List.length_cons, Nat.mul_succ, Nat.add_comm]

/-- The final node. -/
def node (S : Bytes) (n : Nat) : Bytes :=
  Bytes.slice S 0 8192 ++ [3, 0, 0, 0, 0, 0, 0, 0] ++ ((List.range (n - 1)).map (cv S)).flatten ++ rightEncode (n - 1) ++ [0xFF, 0xFF]

theorem length_node (S : Bytes) (n : Nat) (hn : n < 2 ^ 57) : (node S n).length < 2 ^ 63 := by
  have h1 := length_flatten_map (cv S) 32 (fun i => (cv_ok S i).2.1) (List.range (n - 1))
  have h2 := (length_rightEncode (x := n - 1) (by omega)).2
  have h3 : (Bytes.slice S 0 8192).length ≤ 8192 := by unfold Bytes.slice; rw [List.length_take]; omega
  unfold node
  simp only [List.length_append, List.length_cons, List.length_nil]
  rw [h1, List.length_range]
  omega

theorem node_spec (S : Bytes) : Bits.ofBytes (node S (Spec.ktChunks (Bits.ofBytes S))) =
    Spec.ktFinalNode (Spec.KeccakP.keccakP 12) 128 (Bits.ofBytes S) := by
  have e2 := ofBytes_chunk S 0
  rw [Nat.zero_mul] at e2
  have e3 : Bits.ofBytes [3, 0, 0, 0, 0, 0, 0, 0] = [true, true] ++ List.replicate 62 false := by decide
  have e4 : Bits.ofBytes [0xFF, 0xFF] = List.replicate 16 true := by decide
  unfold node Spec.ktFinalNode
  rw [Bits.ofBytes_append, Bits.ofBytes_append, Bits.ofBytes_append, Bits.ofBytes_append, e2, e3, e4, ofBytes_rightEncode,
    ofBytes_flatten_map (cv S) _ (fun i => (cv_ok S i).2.2)]

theorem tree_eq (S : Bytes) (n outLen : Nat) (h1 : 1 ≤ n) (hn : n < 2 ^ 57) :
    tree ((List.range n).map fun i => Bytes.slice S (i * 8192) 8192) n outLen = F (node S n) 0x06 outLen := by
  unfold tree
  refine bind_ok (mapUpTo_ok _ (cv S) _ ?_) (bind_ok (getElem?_range_map _ h1) (bind_ok (mapUpTo_ok _ (cv S) _ ?_) ?_))
  · intro i hi
    rw [getElem?_range_map _ (by omega), Option.bind_some]
    exact (cv_ok S i).1
  · intro i hi
    exact getElem?_range_map _ hi
  · have hl := length_node S n hn
    have e : Bytes.slice S (0 * 8192) 8192 = Bytes.slice S 0 8192 := by rw [Nat.zero_mul]
    rw [e]
    exact bind_ok (show vec (node S n).length = some () from if_pos hl) rfl

theorem kangarooTwelve_eq' (M C : Bytes) (outLen : Nat) (hC : C.length < 2 ^ 63)
    (hlen : M.length + C.length + (rightEncode C.length).length < 2 ^ 63) (ho : outLen < 2 ^ 63) :
    ∃ o, kangarooTwelve M C outLen = some o ∧ o.length = outLen ∧
      Bits.ofBytes o = Spec.KangarooTwelve (Spec.KeccakP.keccakP 12) 128 (Bits.ofBytes M) (Bits.ofBytes C) (8 * outLen) := by
  have hr := length_rightEncode (x := C.length) (by omega)
  obtain ⟨S, hSd⟩ : ∃ S, M ++ C ++ rightEncode C.length = S := ⟨_, rfl⟩
  have hSl : S.length = M.length + C.length + (rightEncode C.length).length := by
    rw [← hSd]; simp only [List.length_append]
  have hS : Spec.ktString (Bits.ofBytes M) (Bits.ofBytes C) = Bits.ofBytes S := by
    rw [← hSd, Bits.ofBytes_append, Bits.ofBytes_append, ofBytes_rightEncode]
    unfold Spec.ktString
    rw [Bits.length_ofBytes, Nat.mul_div_cancel_left _ (by omega)]
  obtain ⟨n, hn⟩ : ∃ n, Spec.ktChunks (Bits.ofBytes S) = n := ⟨_, rfl⟩
  have hn2 : n = (S.length + 8191) / 8192 := by
    rw [← hn]; unfold Spec.ktChunks; rw [Bits.length_ofBytes]; omega
  have hn3 : (S.length + 8192 - 1) / 8192 = n := by omega
  have hB : B = 8192 := rfl
  have hmap := mapUpTo_ok (chunk S) (fun i => Bytes.slice S (i * 8192) 8192) n
    (fun i hi => chunk_eq S i (by omega) (by omega))
  have h0 := getElem?_range_map (fun i => Bytes.slice S (i * 8192) 8192) (show 0 < n by omega)
  have key : ∀ r, (if n = 1 then (((List.range n).map fun i => Bytes.slice S (i * 8192) 8192)[0]?).bind fun s => F s 0x07 outLen
      else if n = 0 then none else tree ((List.range n).map fun i => Bytes.slice S (i * 8192) 8192) n outLen) = r →
      kangarooTwelve M C outLen = r := by
    intro r h
    unfold kangarooTwelve
    simp only [hSd]
    refine bind_ok (show vec S.length = some () from if_pos (by omega)) (bind_ok (show usize (S.length + B) = some (S.length + 8192)
      from if_pos (by omega)) ?_)
    simp only [hB, hn3]
    exact bind_ok hmap h
  unfold Spec.KangarooTwelve
  rw [hS, hn]
  by_cases h1 : n = 1
  · rw [if_pos (by omega)]
    obtain ⟨o, h2, h3, h4⟩ := F_turbo S 0x07#8 _ delim_single outLen ho
    refine ⟨o, key _ ?_, h3, h4⟩
    have e : Bytes.slice S (0 * 8192) 8192 = S := by
      unfold Bytes.slice
      rw [Nat.zero_mul, List.drop_zero, List.take_of_length_le (by omega)]
    rw [if_pos h1, h0, Option.bind_some, e]
    exact h2
  · rw [if_neg (by omega)]
    obtain ⟨o, h2, h3, h4⟩ := F_turbo (node S n) 0x06#8 _ delim_final outLen ho
    have hnode := node_spec S
    rw [hn] at hnode
    rw [hnode] at h4
    refine ⟨o, key _ ?_, h3, h4⟩
    rw [if_neg h1, if_neg (by omega), tree_eq S n outLen (by omega) (by omega)]
    exact h2

theorem kangarooTwelve_eq (M C : Bytes) (outLen : Nat) (hlen : M.length + C.length + 9 < 2 ^ 63) (ho : outLen < 2 ^ 63) :
    ∃ o, kangarooTwelve M C outLen = some o ∧ o.length = outLen ∧
      Bits.ofBytes o = Spec.KangarooTwelve (Spec.KeccakP.keccakP 12) 128 (Bits.ofBytes M) (Bits.ofBytes C) (8 * outLen) :=
  kangarooTwelve_eq' M C outLen (by omega)
    (by have := (length_rightEncode (x := C.length) (by omega)).2; omega) ho

end K12Rust
