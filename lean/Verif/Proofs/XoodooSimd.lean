import Verif.Proofs.Simd32State

/-!
The lanes functions of the SIMD implementations of several instances of Xoodoo, and their documented behaviour.
-/

namespace XoodooSimd

open Xoodoo (Lane)
open Simd32
open PlSnPFallback (Perm)

theorem overLanes_inv {σ : Type} (f : Nat → σ → Option σ) (I : Nat → σ → Prop) (lc : Nat)
    (hf : ∀ p m, p < lc → I p m → ∃ m', f p m = some m' ∧ I (p + 1) m') (m : σ) (h : I 0 m) :
    ∃ m', overLanes f lc m = some m' ∧ I lc m' := by
  unfold overLanes
  by_cases h12 : lc = 12
  · rw [if_pos h12]
    subst h12
    exact seq_inv f I 1 12 0 12 _ rfl (by omega) (fun p m hp => hf p m (by omega)) m h
  · rw [if_neg h12]
    exact forTo_inv f I lc hf 0 m (by omega) h

variable {N lo lc : Nat}

theorem mapM_some {α β : Type} (l : List α) (f : α → Option β) (g : α → β) (h : ∀ a ∈ l, f a = some (g a)) : l.mapM f = some (l.map g) := by
  induction l with
  | nil => rfl
  | cons a l ih =>
    rw [List.mapM_cons, h a (by simp), ih fun b hb => h b (by simp [hb])]
    rfl

theorem loadPtrs_eq {data : Bytes} (ha : Acc N lo lc data) (p : Nat) (hp : p < lc) :
    loadPtrs N data lo p = some fun l => wd data (l.val * lo + p) := by
  unfold loadPtrs
  simp only [Option.bind_eq_bind]
  rw [mapM_some _ _ (fun k => wd data (k * lo + p)) (fun k hk => ha.load (List.mem_range.mp hk) hp), Option.bind_some]
  refine congrArg some (funext fun l => ?_)
  simp [ofList, List.getD_eq_getElem?_getD]

theorem row_eq (N p : Nat) : 4 * N * p = 4 * (p * N) := by rw [Nat.mul_assoc, Nat.mul_comm N]

theorem xorReg_upd {mem : Bytes} (hm : mem.length = 48 * N) (p : Nat) (hp : p < 12) (v : Vec N) {d : Nat → Nat → Lane}
    (hd : ∀ k : Fin N, v k = d k.val p) :
    ∃ mem', xorReg mem p v = some mem' ∧ SUpd N mem mem' p (p + 1) (fun k p x => x ^^^ d k p) := by
  unfold xorReg
  simp only [Option.bind_eq_bind, row_eq]
  rw [reg_ok hm p hp, Option.bind_some]
  obtain ⟨mem', h1, h2⟩ := storeRow hm p hp (Simd32.xor (fun l : Fin N => wd mem (p * N + l.val)) v)
  refine ⟨mem', h1, h2.len, fun k hk p' => ?_⟩
  rw [h2.lane k hk]
  by_cases hc : p ≤ p' ∧ p' < p + 1
  · obtain rfl : p' = p := by omega
    rw [if_pos hc, if_pos hc, Vec.at, dif_pos hk, ← hd ⟨k, hk⟩]
    rfl
  · rw [if_neg hc, if_neg hc]

theorem set_upd {mem : Bytes} (hm : mem.length = 48 * N) (p : Nat) (hp : p < 12) (v : Vec N) {d : Nat → Nat → Lane}
    (hd : ∀ k : Fin N, v k = d k.val p) :
    ∃ mem', storeVec mem (4 * N * p) v = some mem' ∧ SUpd N mem mem' p (p + 1) (fun k p _ => d k p) := by
  rw [row_eq]
  obtain ⟨mem', h1, h2⟩ := storeRow hm p hp v
  refine ⟨mem', h1, h2.congr fun k hk p' x h3 h4 => ?_⟩
  obtain rfl : p' = p := by omega
  rw [Vec.at, dif_pos hk, ← hd ⟨k, hk⟩]

/-- A function that, for each lane, loads the words of the states with `get` and adds them to the register. -/
theorem add_upd {get : Nat → Option (Vec N)} {data mem : Bytes} (hm : mem.length = 48 * N) (h12 : lc ≤ 12)
    (hg : ∀ p < lc, get p = some fun l => wd data (l.val * lo + p)) :
    ∃ mem', overLanes (fun p mem => do let v ← get p; xorReg mem p v) lc mem = some mem' ∧
      SUpd N mem mem' 0 lc (fun k p x => x ^^^ wd data (k * lo + p)) :=
  overLanes_inv _ (fun p m => SUpd N mem m 0 p (fun k p x => x ^^^ wd data (k * lo + p))) lc
    (fun p m hp h => by
      obtain ⟨m', h1, h2⟩ := xorReg_upd (h.len.trans hm) p (by omega) (fun l : Fin N => wd data (l.val * lo + p))
        (d := fun k p => wd data (k * lo + p)) (fun k => rfl)
      refine ⟨m', ?_, h.trans h2 (by omega) (by omega)⟩
      simp only [Option.bind_eq_bind]
      rw [hg p hp, Option.bind_some, h1]) mem (SUpd.refl _ _ _)

theorem overwrite_upd {get : Nat → Option (Vec N)} {data mem : Bytes} (hm : mem.length = 48 * N) (h12 : lc ≤ 12)
    (hg : ∀ p < lc, get p = some fun l => wd data (l.val * lo + p)) :
    ∃ mem', overLanes (fun p mem => do let v ← get p; storeVec mem (4 * N * p) v) lc mem = some mem' ∧
      SUpd N mem mem' 0 lc (fun k p _ => wd data (k * lo + p)) :=
  overLanes_inv _ (fun p m => SUpd N mem m 0 p (fun k p _ => wd data (k * lo + p))) lc
    (fun p m hp h => by
      obtain ⟨m', h1, h2⟩ := set_upd (h.len.trans hm) p (by omega) (fun l : Fin N => wd data (l.val * lo + p))
        (d := fun k p => wd data (k * lo + p)) (fun k => rfl)
      refine ⟨m', ?_, h.trans h2 (by omega) (by omega)⟩
      simp only [Option.bind_eq_bind]
      rw [hg p hp, Option.bind_some, h1]) mem (SUpd.refl _ _ _)

/-! ### Output -/

theorem OUpd.rows_refl (out : Bytes) (k a b : Nat) (h : Nat → Nat → Lane) : OUpd lo out out k k a b h :=
  ⟨rfl, fun q => by rw [if_neg (by omega)]⟩

/-- Storing one word through each pointer. -/
theorem rows_upd {out : Bytes} (ha : Acc N lo lc out) (p : Nat) (f : Nat → Nat → Lane) (st : Nat → Bytes → Option Bytes)
    (hst : ∀ k < N, ∀ o, Acc N lo lc o → ∃ o', st k o = some o' ∧ OUpd lo o o' k (k + 1) p (p + 1) f) :
    ∃ out', (List.range N).foldlM (fun o k => st k o) out = some out' ∧ OUpd lo out out' 0 N p (p + 1) f := by
  have h := seq_inv st (fun k o => OUpd lo out o 0 k p (p + 1) f) 1 N 0 N (List.range N) List.range_eq_range' (by omega)
    (fun k o hk h => by
      obtain ⟨o', h1, h2⟩ := hst k (by omega) o (ha.congr h.len)
      exact ⟨o', h1, h.rows h2 (by omega) (by omega)⟩) out (OUpd.rows_refl _ _ _ _ _)
  rw [Nat.one_mul, Nat.zero_add] at h
  exact h

/-- A function that writes, for each lane, a word for each state. -/
theorem out_upd {out : Bytes} (ha : Acc N lo lc out) (f : Nat → Nat → Lane) (row : Nat → Bytes → Option Bytes)
    (hr : ∀ p < lc, ∀ o, Acc N lo lc o → ∃ o', row p o = some o' ∧ OUpd lo o o' 0 N p (p + 1) f) :
    ∃ out', overLanes row lc out = some out' ∧ OUpd lo out out' 0 N 0 lc f :=
  overLanes_inv row (fun p o => OUpd lo out o 0 N 0 p f) lc
    (fun p o hp h => by
      obtain ⟨o', h1, h2⟩ := hr p hp o (ha.congr h.len)
      exact ⟨o', h1, h.cols h2 (by omega) (by omega)⟩) out (OUpd.refl _ _ _ _ _)

theorem word_ok {mem : Bytes} (hm : mem.length = 48 * N) (p k : Nat) (hp : p < 12) (hk : k < N) :
    loadWord mem (4 * (N * p + k)) = some (wd mem (p * N + k)) := by
  have h : p * N + N ≤ 12 * N := by
    rw [← Nat.succ_mul]; exact Nat.mul_le_mul_right _ (by omega)
  rw [Nat.mul_comm N p, loadWord_ok _ _ (by omega)]

theorem extr4_upd {mem out : Bytes} (hm : mem.length = 48 * 4) (hlo : lc ≤ lo) (h12 : lc ≤ 12) (p : Nat) (hp : p < lc)
    (ha : Acc 4 lo lc out) :
    ∃ out', extr4 mem lo p out = some out' ∧ OUpd lo out out' 0 4 p (p + 1) (fun k p => wd mem (p * 4 + k)) := by
  unfold extr4
  simp only [Option.bind_eq_bind]
  rw [reg_ok hm p (by omega), Option.bind_some]
  refine rows_upd ha p _ (fun k o => storeWord o (ptr lo k + 4 * p) (extractEpi32 (fun l : Fin 4 => wd mem (p * 4 + l.val)) k))
    fun k hk o ho => ho.store hlo hk hp ?_
  rw [extractEpi32, Vec.at, dif_pos hk]

theorem extr8_upd {mem out : Bytes} (hm : mem.length = 48 * 8) (hlo : lc ≤ lo) (h12 : lc ≤ 12) (p : Nat) (hp : p < lc)
    (ha : Acc 8 lo lc out) :
    ∃ out', extr8 mem lo p out = some out' ∧ OUpd lo out out' 0 8 p (p + 1) (fun k p => wd mem (p * 8 + k)) := by
  unfold extr8
  refine rows_upd ha p _ (fun k o => (loadWord mem (4 * (8 * p + k))).bind fun w => storeWord o (ptr lo k + 4 * p) w)
    fun k hk o ho => ?_
  rw [word_ok hm p k (by omega) hk, Option.bind_some]
  exact ho.store hlo hk hp rfl

theorem extrXor_upd {mem input out : Bytes} (hm : mem.length = 48 * N) (hi : Acc N lo lc input) (hlo : lc ≤ lo) (h12 : lc ≤ 12) (p : Nat)
    (hp : p < lc) (ha : Acc N lo lc out) :
    ∃ out', extrXor N mem input lo p out = some out' ∧
      OUpd lo out out' 0 N p (p + 1) (fun k p => wd input (k * lo + p) ^^^ wd mem (p * N + k)) := by
  unfold extrXor
  refine rows_upd ha p _ (fun k o => (loadWord input (ptr lo k + 4 * p)).bind fun x => (loadWord mem (4 * (N * p + k))).bind fun w =>
    storeWord o (ptr lo k + 4 * p) (x ^^^ w)) fun k hk o ho => ?_
  rw [hi.load hk hp, Option.bind_some, word_ok hm p k (by omega) hk, Option.bind_some]
  exact ho.store hlo hk hp rfl

/-! ### Gather and scatter -/

theorem offsets_toNat {buf : Bytes} (h : Acc N lo lc buf) (l : Fin N) :
    (offsets N lo l).toNat = l.val * lo ∧ (offsets N lo l).msb = false := by
  have := h.small l.val l.isLt
  rw [Nat.mul_comm lo] at this
  have e : (offsets N lo l).toNat = l.val * lo := by
    rw [offsets, BitVec.toNat_ofNat, Nat.mod_eq_of_lt (by omega)]
  refine ⟨e, ?_⟩
  rw [BitVec.msb_eq_decide, e]
  simp only [decide_eq_false_iff_not]
  omega

theorem gather_eq {data : Bytes} (ha : Acc N lo lc data) (p : Nat) (hp : p < lc) :
    gather data (4 * p) (offsets N lo) = some fun l => wd data (l.val * lo + p) := by
  unfold gather
  rw [if_pos]
  · refine congrArg some (funext fun l => ?_)
    rw [(offsets_toNat ha l).1, ← Nat.mul_add, Nat.add_comm]
    rfl
  · intro l
    have := inBuf_word ha.inBuf l.val l.isLt
    rw [(offsets_toNat ha l).1]
    exact ⟨(offsets_toNat ha l).2, by omega⟩

theorem scatter_upd {out : Bytes} (ha : Acc N lo lc out) (hlo : lc ≤ lo) (p : Nat) (hp : p < lc) (v : Vec N) {f : Nat → Nat → Lane}
    (hf : ∀ k : Fin N, v k = f k.val p) :
    ∃ out', scatter (2 ^ N - 1) out (4 * p) (offsets N lo) v = some out' ∧ OUpd lo out out' 0 N p (p + 1) f := by
  unfold scatter
  refine rows_upd ha p f (fun k o => if (2 ^ N - 1).testBit k then
      if ((offsets N lo).at k).msb then none else storeWord o (4 * p + 4 * ((offsets N lo).at k).toNat) (v.at k)
    else some o) fun k hk o ho => ?_
  obtain ⟨h1, h2⟩ := offsets_toNat ha ⟨k, hk⟩
  have e : (offsets N lo).at k = offsets N lo ⟨k, hk⟩ := by rw [Vec.at, dif_pos hk]
  rw [if_pos (by simpa using hk), e, h2, if_neg (by simp), h1]
  obtain ⟨o', h3, h4⟩ := ho.store (w := v.at k) hlo hk hp (f := f) (by rw [Vec.at, dif_pos hk, hf])
  refine ⟨o', ?_, h4⟩
  rw [← h3, ptr_eq lo k (ha.small k hk), Nat.add_comm]

/-- The permutations of the functions `PermuteAll_12rounds` and `PermuteAll_6rounds`, in the terms of the reference code. -/
def refPerm : Perm → Bytes → Bytes
  | .r6 => Xoodoo.Ref.permute6
  | _ => Xoodoo.Ref.permute12

theorem permuteAll_ok {R : (Fin 4 → Fin 4) → (Fin 4 → Fin 4) → (Fin 4 → Fin 4) → Lane → Vars (Vec N) → Vars (Vec N)}
    (hR : ∀ l : Fin N, RoundOk (fun v : Vec N => v l) R) (p : Perm) (mem : Bytes) (hm : mem.length = 48 * N) :
    ∃ mem', permuteAll R p mem = some mem' ∧ mem'.length = mem.length ∧
      ∀ k < N, view N mem' k = refPerm p (view N mem k) := by
  cases p
  · exact permute12_ok hR hm
  · exact permute12_ok hR hm
  · exact permute6_ok hR hm
  · exact permute12_ok hR hm

theorem times4_ok (xop : Bool) : PlSpec.Independent (times4 xop) 48 refPerm (view 4) :=
  independent_of (N := 4) (by omega) rfl rfl rfl rfl rfl rfl rfl rfl rfl rfl
    (fun _ _ _ _ hm h12 ha => add_upd hm h12 fun p hp => loadPtrs_eq ha p hp)
    (fun _ _ _ _ hm h12 ha => overwrite_upd hm h12 fun p hp => loadPtrs_eq ha p hp)
    (fun _ _ _ _ hm h12 hlo ha => out_upd ha _ _ fun p hp o ho => extr4_upd hm hlo h12 p hp ho)
    (fun _ _ _ _ _ hm h12 hlo hi ha => out_upd ha _ _ fun p hp o ho => extrXor_upd hm hi hlo h12 p hp ho)
    (permuteAll_ok fun l => by
      cases xop
      · exact round_ok (ops4_ok l)
      · exact round_ok (ops4xop_ok l))

theorem times8_ok : PlSpec.Independent times8 48 refPerm (view 8) :=
  independent_of (N := 8) (by omega) rfl rfl rfl rfl rfl rfl rfl rfl rfl rfl
    (fun _ _ _ _ hm h12 ha => add_upd hm h12 fun p hp => loadPtrs_eq ha p hp)
    (fun _ _ _ _ hm h12 ha => overwrite_upd hm h12 fun p hp => loadPtrs_eq ha p hp)
    (fun _ _ _ _ hm h12 hlo ha => out_upd ha _ _ fun p hp o ho => extr8_upd hm hlo h12 p hp ho)
    (fun _ _ _ _ _ hm h12 hlo hi ha => out_upd ha _ _ fun p hp o ho => extrXor_upd hm hi hlo h12 p hp ho)
    (permuteAll_ok fun l => round_ok (ops8_ok l))

theorem avx512_ok (hN : N < 256) : PlSpec.Independent (avx512 N) 48 refPerm (view N) :=
  independent_of (N := N) hN rfl rfl rfl rfl rfl rfl rfl rfl rfl rfl
    (fun _ _ _ _ hm h12 ha => add_upd hm h12 fun p hp => gather_eq ha p hp)
    (fun _ _ _ _ hm h12 ha => overwrite_upd hm h12 fun p hp => gather_eq ha p hp)
    (fun mem _ _ _ hm h12 hlo ha => out_upd ha _ _ fun p hp o ho => by
      simp only [Option.bind_eq_bind]
      rw [reg_ok hm p (by omega), Option.bind_some]
      exact scatter_upd ho hlo p hp _ fun k => rfl)
    (fun mem input _ _ _ hm h12 hlo hi ha => out_upd ha _ _ fun p hp o ho => by
      simp only [Option.bind_eq_bind]
      rw [reg_ok hm p (by omega), Option.bind_some, gather_eq hi p hp, Option.bind_some]
      exact scatter_upd ho hlo p hp _ fun k => BitVec.xor_comm _ _)
    (permuteAll_ok fun l => round512_ok (ops512_ok l))

end XoodooSimd
