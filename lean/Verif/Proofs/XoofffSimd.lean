import Verif.Model.XoofffSimd
import Verif.Proofs.XoofffWords

/-!
The functions for Xoofff of the SIMD implementations, against the serial computation: what the loops do, given what each of the parts of one
file does.
-/

namespace XoofffSimd

open Xoodoo (Lane Lanes byteOf lanesOfBytes bytesOfLanes)
open Simd32
open XoodooSimd (Vars lanesOf toV offsets gather_eq)

variable {N : Nat}

/-- The register that holds word `p` before six rounds. -/
def inp {α : Type} (s : Vars α) : Fin 12 → α :=
  ![s.a0 0, s.a0 1, s.a0 2, s.a0 3, s.a1 2, s.a1 3, s.a1 0, s.a1 1, s.a2 0, s.a2 1, s.a2 2, s.a2 3]

theorem inp_eq {α : Type} (f : α → Lane) (s : Vars α) :
    Xoodoo.Opt.vars2State (toV f ![2, 3, 0, 1] ![0, 1, 2, 3] s) = fun p => f (inp s p) := by
  funext p; fin_cases p <;> rfl

/-- What the parts of one of the files do; `At s t r` says that the registers `r` hold the words of the sequence `s` that are needed from
position `t` on. -/
structure FastOk (F : Fast N) (At : (Nat → Lane) → Nat → F.Roll → Prop) : Prop where
  lanes : 0 < N
  small : N * 48 < 2 ^ 32
  load : ∀ (k : Bytes) (s : Nat → Lane), k.length = 48 → (∀ p < 12, wd k p = s (pos p)) → ∃ r, F.load k = some r ∧ At s 0 r
  rollc : ∀ (s : Nat → Lane) (t : Nat) (r : F.Roll), (∀ t, s (t + 12) = gc (s t) (s (t + 1)) (s (t + 2))) → At s t r →
    At s (t + N) (F.rollc r).2 ∧ ∀ (p : Fin 12) (l : Fin N), inp (F.rollc r).1 p l = s (t + l.val + pos p.val)
  rolle : ∀ (s : Nat → Lane) (t : Nat) (r : F.Roll), (∀ t, s (t + 12) = ge (s t) (s (t + 1)) (s (t + 2))) → At s t r →
    At s (t + N) (F.rolle r).2 ∧ ∀ (p : Fin 12) (l : Fin N), inp (F.rolle r).1 p l = s (t + l.val + pos p.val)
  rounds : ∀ (a : Vars (Vec N)) (l : Fin N), lanesOf (fun v => v l) (F.rounds a) = Xoodoo.Ref.onWords 6 fun p => inp a p l
  reduce : ∀ (X : Vars (Vec N)) (x : Bytes), x.length = 48 → ∃ x', F.reduce X x = some x' ∧ x'.length = 48 ∧
    ∀ p < 12, wd x' p = wd x p ^^^ xorTo N (X.get p).at
  save : ∀ (s : Nat → Lane) (t : Nat) (r : F.Roll) (k : Bytes), k.length = 48 → At s t r → ∃ k', F.save r k = some k' ∧ k'.length = 48 ∧
    ∀ p < 12, wd k' p = s (t + pos p)
  extract : ∀ (a : Vars (Vec N)) (out : Bytes), 48 * N ≤ out.length → ∃ o, F.extract a out = some o ∧
    OUpd 12 out o 0 N 0 12 fun r p => (a.get p).at r

/-! ### Loops -/

theorem doWhile_inv {σ : Type} {step : Nat → σ → Option σ} (I : Nat → σ → Prop) (hN : 0 < N) :
    ∀ (fuel len done : Nat) (s : σ), 48 * N ≤ len → len < 2 ^ 64 → len ≤ fuel →
      (∀ i s, done ≤ i → i < done + len / (48 * N) → I i s → ∃ s', step i s = some s' ∧ I (i + 1) s') → I done s →
      ∃ s', doWhile N step fuel len done s = some (s', len % (48 * N)) ∧ I (done + len / (48 * N)) s'
  | 0, len, done, s, h1, _, h3, _, _ => by omega
  | fuel + 1, len, done, s, h1, h2, h3, hf, hI => by
    have hd := Nat.div_eq_sub_div (by omega : 0 < 48 * N) h1
    obtain ⟨m, hm'⟩ : ∃ m, m = (len - 48 * N) / (48 * N) := ⟨_, rfl⟩
    rw [← hm'] at hd
    rw [hd] at hf ⊢
    have hm := Nat.mod_eq_sub_mod h1
    obtain ⟨s1, e1, i1⟩ := hf done s (by omega) (by omega) hI
    have hl : (len + 2 ^ 64 - 12 * 4 * N) % 2 ^ 64 = len - 48 * N := by omega
    unfold doWhile
    simp only [Option.bind_eq_bind]
    rw [e1, Option.bind_some, hl]
    by_cases hc : len - 48 * N ≥ 12 * 4 * N
    · rw [if_pos hc]
      obtain ⟨s', e, i⟩ := doWhile_inv I hN fuel (len - 48 * N) (done + 1) s1 (by omega) (by omega) (by omega)
        (fun i s ha hb => hf i s (by omega) (by rw [← hm'] at hb; omega)) i1
      refine ⟨s', ?_, ?_⟩
      · rw [e, hm]
      · rw [show done + (m + 1) = done + 1 + m by omega, hm']; exact i
    · rw [if_neg hc]
      refine ⟨s1, ?_, ?_⟩
      · rw [hm, Nat.mod_eq_of_lt (by omega : len - 48 * N < 48 * N)]
      · rw [hm', Nat.div_eq_of_lt (by omega : len - 48 * N < 48 * N)]; exact i1

/-! ### The parts that are common -/

theorem acc12 {buf : Bytes} (hN : N * 48 < 2 ^ 32) (hl : 48 * N ≤ buf.length) : Acc N 12 12 buf := by
  refine Acc.of (by omega) fun k hk => ?_
  have : (k + 1) * 48 ≤ N * 48 := Nat.mul_le_mul_right _ hk
  omega

theorem addInput_ok (a : Vars (Vec N)) {i32 : Bytes} (hN : N * 48 < 2 ^ 32) (hl : 48 * N ≤ i32.length) :
    ∃ a', addInput a i32 = some a' ∧ ∀ (p : Fin 12) (l : Fin N), inp a' p l = inp a p l ^^^ wd i32 (l.val * 12 + p.val) := by
  have h := acc12 hN hl
  unfold addInput
  simp only [Option.bind_eq_bind]
  rw [gather_eq h 0 (by omega), Option.bind_some, gather_eq h 1 (by omega), Option.bind_some, gather_eq h 2 (by omega), Option.bind_some,
    gather_eq h 3 (by omega), Option.bind_some, gather_eq h 4 (by omega), Option.bind_some, gather_eq h 5 (by omega), Option.bind_some,
    gather_eq h 6 (by omega), Option.bind_some, gather_eq h 7 (by omega), Option.bind_some, gather_eq h 8 (by omega), Option.bind_some,
    gather_eq h 9 (by omega), Option.bind_some, gather_eq h 10 (by omega), Option.bind_some, gather_eq h 11 (by omega), Option.bind_some]
  refine ⟨_, rfl, fun p l => ?_⟩
  fin_cases p <;> rfl

theorem accumulate_get (x a : Vars (Vec N)) (p : Fin 12) (l : Fin N) : (accumulate x a).get p.val l = x.get p.val l ^^^ a.get p.val l := by
  fin_cases p <;> rfl

theorem some_bind {α β : Type} (a : α) (f : α → Option β) : (some a >>= f) = f a := rfl

theorem addKey_ok (a : Vars (Vec N)) {k : Bytes} (hk : k.length = 48) :
    ∃ a', addKey a k = some a' ∧ ∀ (p : Fin 12) (l : Fin N), a'.get p.val l = a.get p.val l ^^^ wd k p.val := by
  unfold addKey
  rw [loadWord_ok k 0 (by omega), some_bind, loadWord_ok k 1 (by omega), some_bind, loadWord_ok k 2 (by omega),
    some_bind, loadWord_ok k 3 (by omega), some_bind, loadWord_ok k 4 (by omega), some_bind,
    loadWord_ok k 5 (by omega), some_bind, loadWord_ok k 6 (by omega), some_bind, loadWord_ok k 7 (by omega),
    some_bind, loadWord_ok k 8 (by omega), some_bind, loadWord_ok k 9 (by omega), some_bind,
    loadWord_ok k 10 (by omega), some_bind, loadWord_ok k 11 (by omega), some_bind]
  refine ⟨_, rfl, fun p l => ?_⟩
  fin_cases p <;> rfl

theorem wd_P6 (b : Bytes) (p : Fin 12) : wd (P6 b) p.val = Xoodoo.Ref.onWords 6 (fun q => wd b q.val) p := by
  rw [← lanesOfBytes_eq]
  exact wd_bytesOfLanes _ p.isLt

/-! ### Compression -/

section

variable {F : Fast N} {At : (Nat → Lane) → Nat → F.Roll → Prop} (h : FastOk F At)
include h

theorem compressBody_ok {k d : Bytes} (hk : k.length = 48) (i : Nat) (hd : 48 * (N * i) + 48 * N ≤ d.length) (s : CSt F)
    (h1 : At (sq rc1 k) (N * i) s.r) (h2 : ∀ (p : Fin 12) (l : Fin N), s.x.get p.val l = xorTo i fun j => inc k d (N * j + l.val) p.val) :
    ∃ s', compressBody F (d.drop (4 * (12 * N * i))) s = some s' ∧ At (sq rc1 k) (N * (i + 1)) s'.r ∧
      ∀ (p : Fin 12) (l : Fin N), s'.x.get p.val l = xorTo (i + 1) fun j => inc k d (N * j + l.val) p.val := by
  have hs := fun t => shift_rc1.step (k := k) t
  obtain ⟨a1, a2⟩ := h.rollc _ _ _ hs h1
  obtain ⟨a', e, a3⟩ := addInput_ok (F.rollc s.r).1 (i32 := d.drop (4 * (12 * N * i))) h.small
    (by rw [List.length_drop, Nat.mul_assoc 12]; omega)
  refine ⟨⟨(F.rollc s.r).2, accumulate s.x (F.rounds a')⟩, ?_, ?_, fun p l => ?_⟩
  · unfold compressBody
    simp only [Option.bind_eq_bind]
    rw [e, Option.bind_some]
  · rw [Nat.mul_succ]; exact a1
  · rw [accumulate_get, h2, xorTo]
    congr 1
    rw [← Simd32.lanesOf_get (fun v : Vec N => v l), h.rounds, inc, wd_P6]
    congr 1
    funext q
    have hb : (blk d (N * i + l.val)).length = 48 := by
      have := l.isLt
      rw [blk, List.length_take, List.length_drop]; omega
    rw [a3, a2, wd_xor (shift_rc1.length hk _) hb q.isLt, shift_rc1.word _ _ q.isLt]
    congr 1
    rw [wd_drop, blk, wd_take (by have := q.isLt; omega), show 48 * (N * i + l.val) = 4 * (12 * (N * i + l.val)) by omega, wd_drop, Nat.mul_assoc]
    congr 1; omega

variable {C : Farfalle.Cfg} (hw : C.width = 48) (hp : C.permute = P6) (hrc : C.rollc = Xoofff.rollc)
include hw hp hrc

/-- `CompressFastLoop` computes what the serial code does. -/
theorem compress_ok (fuel : Nat) {k x input : Bytes} (len : Nat) (hk : k.length = 48) (hx : x.length = 48) (h1 : 48 * N ≤ len)
    (hl : len ≤ input.length) (h64 : len < 2 ^ 64) (hf : len ≤ fuel) :
    compressFastLoop F fuel k x input len = some ((Farfalle.eat C (len / (48 * N) * N) (k, x) input).1,
      (Farfalle.eat C (len / (48 * N) * N) (k, x) input).2, len / (48 * N) * (48 * N)) := by
  obtain ⟨r, e0, hr⟩ := h.load k (sq rc1 k) hk fun p hp => by
    have := shift_rc1.word (k := k) 0 p hp
    rw [Nat.zero_add] at this; exact this
  have hle := Nat.div_mul_le_self len (48 * N)
  obtain ⟨s, e1, i1, i2⟩ := doWhile_inv (step := fun i s => compressBody F (input.drop (4 * (12 * N * i))) s)
    (fun i s => At (sq rc1 k) (N * i) s.r ∧ ∀ (p : Fin 12) (l : Fin N), s.x.get p.val l = xorTo i fun j => inc k input (N * j + l.val) p.val)
    h.lanes fuel len 0 ⟨r, zero⟩ h1 h64 hf
    (fun i s _ hi hI => compressBody_ok h hk i (by
      have : (i + 1) * (48 * N) ≤ len / (48 * N) * (48 * N) := Nat.mul_le_mul_right _ (by omega)
      rw [Nat.succ_mul, show i * (48 * N) = 48 * (N * i) by rw [Nat.mul_comm, Nat.mul_assoc]] at this
      omega) s hI.1 hI.2)
    ⟨hr, fun p l => by fin_cases p <;> rfl⟩
  rw [Nat.zero_add] at i1 i2
  obtain ⟨x', e2, hx', j2⟩ := h.reduce s.x x hx
  obtain ⟨k', e3, hk', j3⟩ := h.save _ _ _ k hk i1
  have hrc1 : Farfalle.rc C = rc1 := by funext k; rw [Farfalle.rc, hrc]; rfl
  obtain ⟨w1, w2⟩ := eat_words hw hp hrc hx (k := k) input (len / (48 * N) * N)
  have ek : k' = (Farfalle.eat C (len / (48 * N) * N) (k, x) input).1 := by
    rw [Farfalle.eat_fst, hrc1]
    refine words_ext hk' (shift_rc1.length hk _) fun p hp => ?_
    rw [j3 p hp, shift_rc1.word _ _ hp, Nat.mul_comm N]
  have ex : x' = (Farfalle.eat C (len / (48 * N) * N) (k, x) input).2 := by
    refine words_ext hx' w1 fun p hp => ?_
    rw [j2 p hp, w2 p hp, Nat.mul_comm (len / (48 * N)), ← xorTo_mul]
    congr 1
    refine xorTo_congr fun l hl => ?_
    rw [Vec.at, dif_pos hl]
    exact i2 ⟨p, hp⟩ ⟨l, hl⟩
  unfold compressFastLoop
  simp only [Option.bind_eq_bind]
  rw [e0, Option.bind_some, e1, Option.bind_some]
  simp only
  rw [e2, Option.bind_some, e3, Option.bind_some, ek, ex]
  refine congrArg some (Prod.ext rfl (Prod.ext rfl ?_))
  show (len + 2 ^ 64 - len % (48 * N)) % 2 ^ 64 = len / (48 * N) * (48 * N)
  have := Nat.div_add_mod len (48 * N)
  rw [Nat.mul_comm] at this
  omega

end

/-! ### Expansion -/

/-- Writing rows of a part of a buffer. -/
theorem OUpd.drop {out o : Bytes} {t n : Nat} {f : Nat → Nat → Lane} (hl : 48 * t ≤ out.length)
    (h : OUpd 12 (out.drop (48 * t)) o 0 n 0 12 f) {g : Nat → Nat → Lane} (hg : ∀ r < n, ∀ p < 12, f r p = g (t + r) p) :
    OUpd 12 out (out.take (48 * t) ++ o) t (t + n) 0 12 g := by
  have ht : (out.take (48 * t)).length = 48 * t := by rw [List.length_take]; omega
  refine ⟨by rw [List.length_append, ht, h.len, List.length_drop]; omega, fun q => ?_⟩
  by_cases hq : q < 48 * t
  · rw [List.getD_append _ _ _ _ (by omega), if_neg (by omega), List.getD_eq_getElem?_getD, List.getD_eq_getElem?_getD,
      List.getElem?_take_of_lt hq]
  · rw [List.getD_append_right _ _ _ _ (by omega), ht, h.byte, show (q - 48 * t) / 4 / 12 = q / 4 / 12 - t by omega,
      show (q - 48 * t) / 4 % 12 = q / 4 % 12 by omega, show (q - 48 * t) % 4 = q % 4 by omega]
    by_cases hc : q / 4 / 12 - t < n
    · rw [if_pos (by omega), if_pos (by omega), hg _ hc _ (by omega), show t + (q / 4 / 12 - t) = q / 4 / 12 by omega]
    · rw [if_neg (by omega), if_neg (by omega), List.getD_eq_getElem?_getD, List.getD_eq_getElem?_getD, List.getElem?_drop,
        show 48 * t + (q - 48 * t) = q by omega]

section

variable {F : Fast N} {At : (Nat → Lane) → Nat → F.Roll → Prop} (h : FastOk F At)
include h

theorem expandBody_ok {kRoll y : Bytes} (hk : kRoll.length = 48) (i : Nat) (s : ESt F) (hd : 48 * (N * i) + 48 * N ≤ s.out.length)
    (h1 : At (sq re1 y) (N * i) s.r) :
    ∃ s', expandBody F kRoll (4 * (12 * N * i)) s = some s' ∧ At (sq re1 y) (N * (i + 1)) s'.r ∧
      OUpd 12 s.out s'.out (N * i) (N * (i + 1)) 0 12 (outWord kRoll y) := by
  have hs := fun t => shift_re1.step (k := y) t
  obtain ⟨a1, a2⟩ := h.rolle _ _ _ hs h1
  obtain ⟨a', e, a3⟩ := addKey_ok (F.rounds (F.rolle s.r).1) hk
  have e4 : 4 * (12 * N * i) = 48 * (N * i) := by rw [Nat.mul_assoc]; omega
  obtain ⟨o, e5, u⟩ := h.extract a' (s.out.drop (48 * (N * i))) (by rw [List.length_drop]; omega)
  refine ⟨⟨(F.rolle s.r).2, s.out.take (48 * (N * i)) ++ o⟩, ?_, ?_, ?_⟩
  · unfold expandBody
    simp only [Option.bind_eq_bind]
    rw [e, Option.bind_some, e4, e5, Option.bind_some]
  · rw [Nat.mul_succ]; exact a1
  · rw [Nat.mul_succ]
    refine OUpd.drop (by omega) u fun r hr p hp => ?_
    rw [Vec.at, dif_pos hr, a3 ⟨p, hp⟩ ⟨r, hr⟩, outWord]
    congr 1
    rw [← Simd32.lanesOf_get (fun v : Vec N => v ⟨r, hr⟩) _ ⟨p, hp⟩, h.rounds, wd_P6 _ ⟨p, hp⟩]
    congr 1
    funext q
    rw [a2, shift_re1.word _ _ q.isLt]

variable {C : Farfalle.Cfg} (hp : C.permute = P6) (hre : C.rolle = Xoofff.rolle)
include hp hre

/-- `ExpandFastLoop` writes the blocks that the serial code does. -/
theorem expand_ok (fuel : Nat) {y kRoll output : Bytes} (len : Nat) (hk : kRoll.length = 48) (hy : y.length = 48) (h1 : 48 * N ≤ len)
    (hl : len ≤ output.length) (h64 : len < 2 ^ 64) (hf : len ≤ fuel) :
    expandFastLoop F fuel y kRoll output len = some (Nat.repeat (Farfalle.re C) (len / (48 * N) * N) y,
      Farfalle.gen C kRoll (len / (48 * N) * N) y ++ output.drop (len / (48 * N) * (48 * N)), len / (48 * N) * (48 * N)) := by
  obtain ⟨r, e0, hr⟩ := h.load y (sq re1 y) hy fun p hp => by
    have := shift_re1.word (k := y) 0 p hp
    rw [Nat.zero_add] at this; exact this
  have hle := Nat.div_mul_le_self len (48 * N)
  obtain ⟨s, e1, i1, i2⟩ := doWhile_inv (step := fun i s => expandBody F kRoll (4 * (12 * N * i)) s)
    (fun i s => At (sq re1 y) (N * i) s.r ∧ OUpd 12 output s.out 0 (N * i) 0 12 (outWord kRoll y))
    h.lanes fuel len 0 ⟨r, output⟩ h1 h64 hf
    (fun i s _ hi hI => by
      have : (i + 1) * (48 * N) ≤ len / (48 * N) * (48 * N) := Nat.mul_le_mul_right _ (by omega)
      rw [Nat.succ_mul, show i * (48 * N) = 48 * (N * i) by rw [Nat.mul_comm, Nat.mul_assoc]] at this
      obtain ⟨s', g1, g2, g3⟩ := expandBody_ok h hk (y := y) i s (by rw [hI.2.len]; omega) hI.1
      exact ⟨s', g1, g2, hI.2.rows g3 (by omega) (Nat.mul_le_mul_left _ (by omega))⟩)
    ⟨hr, ⟨rfl, fun q => by rw [if_neg (by omega)]⟩⟩
  rw [Nat.zero_add] at i1 i2
  obtain ⟨y', e3, hy', j3⟩ := h.save _ _ _ y hy i1
  have hr1 : Farfalle.re C = re1 := by funext k; rw [Farfalle.re, hre]; rfl
  have ey : y' = Nat.repeat (Farfalle.re C) (len / (48 * N) * N) y := by
    rw [hr1]
    refine words_ext hy' (shift_re1.length hy _) fun p hp => ?_
    rw [j3 p hp, shift_re1.word _ _ hp, Nat.mul_comm N]
  have hg := length_gen6 hp hk (len / (48 * N) * N) y
  have en : len / (48 * N) * (48 * N) = 48 * (len / (48 * N) * N) := by
    rw [← Nat.mul_assoc, Nat.mul_comm _ 48, Nat.mul_assoc]
  have ho : s.out = Farfalle.gen C kRoll (len / (48 * N) * N) y ++ output.drop (len / (48 * N) * (48 * N)) := by
    rw [en] at hle ⊢
    rw [Nat.mul_comm N] at i2
    generalize len / (48 * N) * N = m at hg i2 hle ⊢
    apply bytes_ext
    · rw [i2.len, List.length_append, hg, List.length_drop]; omega
    · intro q _
      rw [i2.byte]
      by_cases hq : q < 48 * m
      · rw [if_pos (by omega), List.getD_append _ _ _ _ (by omega), getD_gen hp hre hk _ _ _ hq]
      · rw [if_neg (by omega), List.getD_append_right _ _ _ _ (by omega), hg, List.getD_eq_getElem?_getD, List.getD_eq_getElem?_getD,
          List.getElem?_drop]
        congr 2; omega
  unfold expandFastLoop
  simp only [Option.bind_eq_bind]
  rw [e0, Option.bind_some, e1, Option.bind_some]
  simp only
  rw [e3, Option.bind_some, ey, ho]
  refine congrArg some (Prod.ext rfl (Prod.ext rfl ?_))
  show (len + 2 ^ 64 - len % (48 * N)) % 2 ^ 64 = len / (48 * N) * (48 * N)
  have := Nat.div_add_mod len (48 * N)
  rw [Nat.mul_comm] at this
  omega

end

end XoofffSimd
