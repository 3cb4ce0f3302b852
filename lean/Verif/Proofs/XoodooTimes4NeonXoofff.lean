import Verif.Model.XoodooTimes4NeonXoofff
import Verif.Proofs.XoodooTimes4Neon
import Verif.Proofs.XoodooNeonFull
import Verif.Proofs.XoofffSimd

/-!
The functions of Xoofff of the NEON implementation of four instances of Xoodoo.
-/

namespace XoodooTimes4Neon

open Xoodoo (Lane Lanes rotl32 byteOf)
open Simd32 hiding pos
open XoodooArm (sub32 sub32_eq)
open XoofffSimd (P6 pos sq rc1 re1 gc ge shift_rc1 shift_re1 inc blk xorTo outWord wd_P6 wd_xor wd_take words_ext)

/-! ### `AddIs` -/

theorem bitLoop_eq (c : Nat) (hc : 0 < c) (m : Nat) (hm : c % m = 0) (body : XoodooArm.Wr → Option XoodooArm.Wr) (f : Nat → XoodooArm.Wr) (n : Nat)
    (hb : ∀ i, i + c ≤ n → i % m = 0 → body (f i) = some (f (i + c))) :
    ∀ (fuel r i : Nat), r < fuel → i + r = n → i % m = 0 → bitLoop c body fuel (f i) r = some (f (n - r % c), r % c) := by
  intro fuel
  induction fuel with
  | zero => intro r i h; omega
  | succ fuel ih =>
    intro r i hf hr hi
    rw [bitLoop]
    by_cases h : r < c
    · rw [if_pos h, Nat.mod_eq_of_lt h, show n - r = i by omega]
    · rw [if_neg h, hb i (by omega) hi, Option.bind_eq_bind, Option.bind_some,
        ih (r - c) (i + c) (by omega) (by omega) (by rw [Nat.add_mod, hi, hm]; rfl), ← Nat.mod_eq_sub_mod (by omega)]

theorem vldm_at {base : Nat} (buf : Bytes) (a : Nat) (hb : (base + a) % 4 = 0) (h : a + 16 ≤ buf.length) :
    vldm base buf a = some fun l => wd (buf.drop a) (0 + l.val) := by
  have e := XoodooPlanes.load_ok 4 buf a 0 (by omega)
  rw [Nat.mul_zero, Nat.add_zero] at e
  rw [vldm, if_pos hb, e]

theorem vstm_at {base : Nat} (buf : Bytes) (a : Nat) (v : Vec 4) (hb : (base + a) % 4 = 0) (h : a + 16 ≤ buf.length) :
    vstm base buf a v = some (Bytes.setAt buf a (bytesOfVec v)) := by
  rw [vstm, if_pos hb, XoodooPlanes.storeVec_eq _ _ _ h]

theorem mix_xor (st d : Bytes) (a j : Nat) :
    bytesOfVec (n := 4) (xor (fun l => wd (st.drop a) (0 + l.val)) fun l => wd (d.drop j) (0 + l.val)) = X86.mixOf st d a j 16 :=
  XoodooNeon.vec_mix st d a j _ fun _ => rfl

theorem add16_ok {a0 a1 : Nat} (h0 : a0 % 4 = 0) (h1 : a1 % 4 = 0) (d st : Bytes) (a : Nat) (ha : a % 4 = 0) (h : a + 16 ≤ st.length) (hd : a + 16 ≤ d.length) :
    add16 a0 a1 d ⟨st, a, a⟩ = some ⟨Bytes.xorAt st a (Bytes.slice d a 16), a + 16, a + 16⟩ := by
  unfold add16
  dsimp only
  rw [vldm_at st a (by omega) h, vldm_at d a (by omega) hd]
  simp only [Option.bind_eq_bind, Option.bind_some]
  rw [vstm_at _ _ _ (by omega) h, Option.bind_some, mix_xor, Armv8Asm.setAt_mix _ _ _ _ _ hd]

theorem add48_ok {a0 a1 : Nat} (h0 : a0 % 4 = 0) (h1 : a1 % 4 = 0) (d st : Bytes) (a : Nat) (ha : a % 4 = 0) (h : a + 48 ≤ st.length) (hd : a + 48 ≤ d.length) :
    add48 a0 a1 d ⟨st, a, a⟩ = some ⟨Bytes.xorAt st a (Bytes.slice d a 48), a + 48, a + 48⟩ := by
  unfold add48 vldm3 vstm3
  dsimp only
  rw [vldm_at st a (by omega) (by omega), vldm_at st (a + 16) (by omega) (by omega), vldm_at st (a + 32) (by omega) (by omega),
    vldm_at d a (by omega) (by omega), vldm_at d (a + 16) (by omega) (by omega), vldm_at d (a + 32) (by omega) (by omega)]
  simp only [Option.bind_eq_bind, Option.bind_some]
  rw [vstm_at _ _ _ (by omega) (by omega), Option.bind_some, vstm_at _ _ _ (by omega) (by rw [Bytes.length_setAt]; omega), Option.bind_some,
    vstm_at _ _ _ (by omega) (by rw [Bytes.length_setAt, Bytes.length_setAt]; omega), Option.bind_some,
    mix_xor, mix_xor,
    mix_xor]
  have hm : ∀ n, (X86.mixOf st d a a n).length = n := fun n => by simp [X86.mixOf]
  have hs : ∀ k n, Bytes.setAt (Bytes.setAt st a (X86.mixOf st d a a k)) (a + k) (X86.mixOf st d (a + k) (a + k) n) =
      Bytes.setAt st a (X86.mixOf st d a a (k + n)) := fun k n => by
    have e := Bytes.setAt_append st a (X86.mixOf st d a a k) (X86.mixOf st d (a + k) (a + k) n)
    rwa [hm k, X86.mixOf_add] at e
  rw [hs 16 16, hs 32 16, Armv8Asm.setAt_mix _ _ _ _ _ hd]

theorem addIs_eq (a0 a1 : Nat) (t s : Bytes) (n : Nat) (ht : (n + 7) / 8 ≤ t.length) (hs : (n + 7) / 8 ≤ s.length) (h32 : n < 2 ^ 32) :
    addIs a0 a1 t s n = Farfalle.addIs t s n := by
  rw [← XoodooArm.addIs_eq t s n ht hs h32, XoodooArm.addIs_run t s n ht hs h32]
  have hl : ∀ i, (Bytes.xorAt t 0 (Bytes.slice s 0 i)).length = t.length := fun i => Bytes.length_xorAt ..
  let f : Nat → XoodooArm.Wr := fun i => ⟨Bytes.xorAt t 0 (Bytes.slice s 0 (i / 8)), i / 8, i / 8⟩
  have had : ∀ i k, i + k ≤ s.length → Bytes.xorAt (Bytes.xorAt t 0 (Bytes.slice s 0 i)) i (Bytes.slice s i k) =
      Bytes.xorAt t 0 (Bytes.slice s 0 (i + k)) := fun i k h => by
    have e := XoodooArm.added t s 0 i k h
    rwa [Nat.zero_add] at e
  have f0 : f 0 = ⟨t, 0, 0⟩ := by
    show (⟨Bytes.xorAt t 0 [], _, _⟩ : XoodooArm.Wr) = _
    rw [Bytes.xorAt_nil]
  have b4 : ∀ i, i + 32 ≤ n → i % 1 = 0 → XoodooArm.addWord s (f i) = some (f (i + 32)) := fun i hi _ => by
    show XoodooArm.addWord s ⟨_, i / 8, i / 8⟩ = some ⟨Bytes.xorAt t 0 (Bytes.slice s 0 ((i + 32) / 8)), (i + 32) / 8, (i + 32) / 8⟩
    rw [XoodooArm.addWord_ok _ _ _ _ (by rw [hl]; omega) (by omega), had _ _ (by omega), show (i + 32) / 8 = i / 8 + 4 by omega]
  have b1 : ∀ i, i + 8 ≤ n → i % 1 = 0 → XoodooArm.addOne s (f i) = some (f (i + 8)) := fun i hi _ => by
    show XoodooArm.addOne s ⟨_, i / 8, i / 8⟩ = some ⟨Bytes.xorAt t 0 (Bytes.slice s 0 ((i + 8) / 8)), (i + 8) / 8, (i + 8) / 8⟩
    rw [XoodooArm.addOne_ok _ _ _ _ (by rw [hl]; omega) (by omega), had _ _ (by omega), show (i + 8) / 8 = i / 8 + 1 by omega]
  have hv : ∃ r ≤ n, r % 8 = n % 8 ∧ addIsVec a0 a1 t s n = some (f (n - r), r) := by
    unfold addIsVec
    by_cases h : a0 % 4 = 0 ∧ a1 % 4 = 0
    · have b48 : ∀ i, i + 384 ≤ n → i % 32 = 0 → add48 a0 a1 s (f i) = some (f (i + 384)) := fun i hi h32 => by
        show add48 a0 a1 s ⟨_, i / 8, i / 8⟩ = some ⟨Bytes.xorAt t 0 (Bytes.slice s 0 ((i + 384) / 8)), (i + 384) / 8, (i + 384) / 8⟩
        rw [add48_ok h.1 h.2 _ _ _ (by omega) (by rw [hl]; omega) (by omega), had _ _ (by omega), show (i + 384) / 8 = i / 8 + 48 by omega]
      have b16 : ∀ i, i + 128 ≤ n → i % 32 = 0 → add16 a0 a1 s (f i) = some (f (i + 128)) := fun i hi h32 => by
        show add16 a0 a1 s ⟨_, i / 8, i / 8⟩ = some ⟨Bytes.xorAt t 0 (Bytes.slice s 0 ((i + 128) / 8)), (i + 128) / 8, (i + 128) / 8⟩
        rw [add16_ok h.1 h.2 _ _ _ (by omega) (by rw [hl]; omega) (by omega), had _ _ (by omega), show (i + 128) / 8 = i / 8 + 16 by omega]
      refine ⟨n % 384 % 128, by omega, by omega, ?_⟩
      rw [if_pos h, ← f0, bitLoop_eq 384 (by decide) 32 (by decide) _ f n b48 (2 ^ 32) n 0 h32 (by omega) (by omega), Option.bind_eq_bind,
        Option.bind_some]
      exact bitLoop_eq 128 (by decide) 32 (by decide) _ f n b16 (2 ^ 32) (n % 384) (n - n % 384) (by omega) (by omega) (by omega)
    · refine ⟨n, Nat.le_refl _, rfl, ?_⟩
      rw [if_neg h, Nat.sub_self, f0]
  obtain ⟨r, hr, h8, hv⟩ := hv
  unfold addIs
  rw [hv, Option.bind_eq_bind, Option.bind_some]
  dsimp only
  rw [bitLoop_eq 32 (by decide) 1 (by decide) _ f n b4 (2 ^ 32) r (n - r) (by omega) (by omega) (by omega), Option.bind_some]
  dsimp only
  rw [bitLoop_eq 8 (by decide) 1 (by decide) _ f n b1 (2 ^ 32) (r % 32) (n - r % 32) (by omega) (by omega) (by omega), Option.bind_some, show r % 32 % 8 = n % 8 by omega]
  show (if n % 8 = 0 then some (Bytes.xorAt t 0 (Bytes.slice s 0 ((n - n % 8) / 8))) else
    XoodooArm.addBits s ⟨Bytes.xorAt t 0 (Bytes.slice s 0 ((n - n % 8) / 8)), (n - n % 8) / 8, (n - n % 8) / 8⟩ (n % 8)) = _
  rw [show (n - n % 8) / 8 = n / 8 by omega]

/-! ### Memory -/

theorem vldm_words {base : Nat} (buf : Bytes) (i : Nat) (hb : base % 4 = 0) (h : 4 * i + 16 ≤ buf.length) :
    vldm base buf (4 * i) = some fun l => wd buf (i + l.val) := by
  rw [vldm, if_pos (by omega)]
  exact loadVec_ok 4 buf i h

theorem vstm_words {base : Nat} (buf : Bytes) (i : Nat) (v : Vec 4) (hb : base % 4 = 0) (h : 4 * i + 16 ≤ buf.length) :
    ∃ buf', vstm base buf (4 * i) v = some buf' ∧ Stored buf buf' i 4 v.at := by
  rw [vstm, if_pos (by omega)]
  exact storeVec_ok buf i v h

theorem vldm3_ok {base : Nat} (buf : Bytes) (i : Nat) (hb : base % 4 = 0) (h : 4 * i + 48 ≤ buf.length) :
    vldm3 base buf (4 * i) = some (fun l => wd buf (i + l.val), fun l => wd buf (i + 4 + l.val), fun l => wd buf (i + 8 + l.val)) := by
  unfold vldm3
  rw [show 4 * i + 16 = 4 * (i + 4) by omega, show 4 * i + 32 = 4 * (i + 8) by omega, vldm_words buf i hb (by omega),
    vldm_words buf (i + 4) hb (by omega), vldm_words buf (i + 8) hb (by omega)]
  rfl

/-- Word `p` of three registers. -/
def w3 (u v w : Vec 4) (p : Nat) : Lane := if p < 4 then u.at p else if p < 8 then v.at (p - 4) else w.at (p - 8)

theorem vstm3_ok {buf : Bytes} (hl : buf.length = 48) (u v w : Vec 4) :
    ∃ buf', vstm3 0 buf 0 u v w = some buf' ∧ buf'.length = 48 ∧ ∀ p < 12, wd buf' p = w3 u v w p := by
  obtain ⟨b1, e1, s1⟩ := vstm_words (base := 0) buf 0 u rfl (by omega)
  obtain ⟨b2, e2, s2⟩ := vstm_words (base := 0) b1 4 v rfl (by rw [s1.len]; omega)
  obtain ⟨b3, e3, s3⟩ := vstm_words (base := 0) b2 8 w rfl (by rw [s2.len, s1.len]; omega)
  refine ⟨b3, ?_, by rw [s3.len, s2.len, s1.len, hl], fun p hp => ?_⟩
  · unfold vstm3
    rw [show vstm 0 buf 0 u = _ from e1]
    simp only [Option.bind_eq_bind, Option.bind_some]
    rw [show vstm 0 b1 (0 + 16) v = _ from e2, Option.bind_some]
    exact e3
  · rw [s3.wd, s2.wd, s1.wd, w3]
    by_cases h1 : p < 4
    · rw [if_neg (by omega), if_neg (by omega), if_pos (by omega), if_pos h1, Nat.sub_zero]
    · by_cases h2 : p < 8
      · rw [if_neg (by omega), if_pos (by omega), if_neg h1, if_pos h2]
      · rw [if_pos (by omega), if_neg h1, if_neg h2]

/-! ### The states in the registers -/

theorem sixStar_row (g : Regs) (l : Fin 4) (p : Fin 12) : (sixStar g).row p.val l = Xoodoo.Ref.onWords 6 (fun q => g.row q.val l) p := by
  have e : ∀ h : Regs, (fun q : Fin 12 => h.row q.val l) = Xoodoo.Opt.vars2State (inst h l) := fun h => by
    funext q; fin_cases q <;> rfl
  rw [show (sixStar g).row p.val l = (fun q : Fin 12 => (sixStar g).row q.val l) p from rfl, e, e]
  simp only [sixStar, round_inst]
  rw [← Xoodoo.Opt.permute6_eq]
  rfl

/-- The registers `q4` to `q15`. -/
def Regs.src (g : Regs) (i : Nat) : Vec 4 :=
  match i with
  | 0 => g.q4 | 1 => g.q5 | 2 => g.q6 | 3 => g.q7 | 4 => g.q8 | 5 => g.q9 | 6 => g.q10 | 7 => g.q11 | 8 => g.q12 | 9 => g.q13 | 10 => g.q14 | _ => g.q15

theorem zipX_row (g : Regs) (p : Fin 12) (l : Fin 4) :
    (zipX g).row p.val l = g.src (3 * l.val + p.val / 4) ⟨p.val % 4, Nat.mod_lt _ (by decide)⟩ := by
  fin_cases p <;> fin_cases l <;> rfl

theorem untr_eq (a b c d : Vec 4) : untr a b c d =
    (![a 0, b 0, c 0, d 0], ![a 2, b 2, c 2, d 2], ![a 1, b 1, c 1, d 1], ![a 3, b 3, c 3, d 3]) := rfl

/-! ### Rolling -/

section

variable {s : Nat → Lane} {t : Nat}

theorem spread_eq (q3 : Vec 4) : spread (fun l => s (t + 3 * l.val)) (fun l => s (t + (3 * l.val + 1))) (fun l => s (t + (3 * l.val + 2))) q3
    (s (t + 12)) (s (t + 15)) (s (t + 13)) (s (t + 14)) =
    (fun l => s (t + (3 * l.val + 4)), fun l => s (t + (3 * l.val + 5)), fun l => s (t + (3 * l.val + 6)), fun l => s (t + (3 * l.val + 3))) := by
  refine Prod.ext ?_ (Prod.ext ?_ (Prod.ext ?_ ?_)) <;> funext l <;> fin_cases l <;> rfl

theorem seedC_eq (hs : ∀ t, s (t + 12) = gc (s t) (s (t + 1)) (s (t + 2))) :
    seedC (fun l => s (t + 3 * l.val)) (fun l => s (t + (3 * l.val + 1))) (fun l => s (t + (3 * l.val + 2))) =
    (s (t + 12), s (t + 15), s (t + 13), s (t + 14)) := by
  have h1 := hs t
  have h2 := hs (t + 1)
  have h3 := hs (t + 2)
  have h4 := hs (t + 3)
  simp only [Nat.add_assoc, Nat.reduceAdd, gc] at h1 h2 h3 h4
  rw [h1, h2, h3, h4]
  simp only [seedC, ror_eq _ 29 (by decide) (by decide), BitVec.xor_assoc]
  rfl

theorem seedE_eq (hs : ∀ t, s (t + 12) = ge (s t) (s (t + 1)) (s (t + 2))) :
    seedE (fun l => s (t + 3 * l.val)) (fun l => s (t + (3 * l.val + 1))) (fun l => s (t + (3 * l.val + 2))) =
    (s (t + 12), s (t + 15), s (t + 13), s (t + 14)) := by
  have h1 := hs t
  have h2 := hs (t + 1)
  have h3 := hs (t + 2)
  have h4 := hs (t + 3)
  simp only [Nat.add_assoc, Nat.reduceAdd, ge] at h1 h2 h3 h4
  have e : ∀ a b c : Lane, (b &&& c) ^^^ a.rotateRight 27 ^^^ b.rotateRight 19 ^^^ 7 = rotl32 a 5 ^^^ rotl32 b 13 ^^^ (c &&& b) ^^^ 7 := fun a b c => by
    rw [ror_eq _ 27 (by decide) (by decide), ror_eq _ 19 (by decide) (by decide), BitVec.and_comm c b]
    ac_rfl
  rw [h1, h2, h3, h4]
  simp only [seedE, e]
  rfl

/-- The words of a buffer are those of the sequence from `t` on. -/
def AtSeq (s : Nat → Lane) (t : Nat) (k : Bytes) : Prop := k.length = 48 ∧ ∀ p < 12, wd k p = s (t + pos p)

theorem AtSeq.load {k : Bytes} (h : AtSeq s t k) :
    vldm3 0 k 0 = some (fun l => s (t + 3 * l.val), fun l => s (t + (3 * l.val + 1)), fun l => s (t + (3 * l.val + 2))) := by
  have e := vldm3_ok (base := 0) k 0 rfl (Nat.le_of_eq h.1.symm)
  rw [Nat.mul_zero] at e
  rw [e]
  refine congrArg some (Prod.ext ?_ (Prod.ext ?_ ?_)) <;> funext l <;> dsimp only <;> rw [h.2 _ (by have := l.isLt; omega)] <;>
    congr 2 <;> have := l.isLt <;> unfold pos <;> omega

theorem AtSeq.save {k : Bytes} (h : AtSeq s t k) : ∃ k', vstm3 0 k 0 (fun l => s (t + (3 * l.val + 4))) (fun l => s (t + (3 * l.val + 5)))
    (fun l => s (t + (3 * l.val + 6))) = some k' ∧ AtSeq s (t + 4) k' := by
  obtain ⟨k', e1, e2, e3⟩ := vstm3_ok h.1 (fun l => s (t + (3 * l.val + 4))) (fun l => s (t + (3 * l.val + 5))) (fun l => s (t + (3 * l.val + 6)))
  refine ⟨k', e1, e2, fun p hp => ?_⟩
  rw [e3 p hp, w3]
  have hq : pos p = 3 * (p % 4) + p / 4 := rfl
  unfold Vec.at
  by_cases h1 : p < 4
  · rw [if_pos h1, dif_pos h1]
    exact congrArg s (show t + (3 * p + 4) = _ by omega)
  · by_cases h2 : p < 8
    · rw [if_neg h1, if_pos h2, dif_pos (by omega)]
      exact congrArg s (show t + (3 * (p - 4) + 5) = _ by omega)
    · rw [if_neg h1, if_neg h2, dif_pos (by omega)]
      exact congrArg s (show t + (3 * (p - 8) + 6) = _ by omega)

/-- Plane `y` of the state `i` steps further. -/
def plane (s : Nat → Lane) (t i : Nat) : Vec 4 := fun l => s (t + (3 * l.val + i))

theorem rollZipC_ok (hs : ∀ t, s (t + 12) = gc (s t) (s (t + 1)) (s (t + 2))) {k : Bytes} (h : AtSeq s t k) (g : Regs) :
    ∃ g' k', rollZipC g k = some (g', k') ∧ AtSeq s (t + 4) k' ∧ ∀ (p : Fin 12) (l : Fin 4),
      g'.row p.val l = s (t + l.val + pos p.val) ^^^ g.src (3 * l.val + p.val / 4) ⟨p.val % 4, Nat.mod_lt _ (by decide)⟩ := by
  obtain ⟨k', e1, e2⟩ := h.save
  refine ⟨zipX ⟨plane s t 4, plane s t 5, plane s t 6, plane s t 3, xor (plane s t 0) g.q4, xor (plane s t 1) g.q5, xor (plane s t 2) g.q6,
    xor (plane s t 1) g.q7, xor (plane s t 2) g.q8, xor (plane s t 3) g.q9, xor (plane s t 2) g.q10, xor (plane s t 3) g.q11, xor (plane s t 4) g.q12,
    xor (plane s t 3) g.q13, xor (plane s t 4) g.q14, xor (plane s t 5) g.q15⟩, k', ?_, e2, ?_⟩
  · unfold rollZipC
    rw [h.load]
    simp only [Option.bind_eq_bind, Option.bind_some]
    rw [seedC_eq hs]
    dsimp only
    rw [spread_eq]
    dsimp only
    rw [e1, Option.bind_some]
    rfl
  · intro p l
    rw [zipX_row]
    fin_cases p <;> fin_cases l <;> rfl

theorem rollZipE_ok (hs : ∀ t, s (t + 12) = ge (s t) (s (t + 1)) (s (t + 2))) {y : Bytes} (h : AtSeq s t y) (g : Regs) :
    ∃ g' y', rollZipE g y = some (g', y') ∧ AtSeq s (t + 4) y' ∧ ∀ (p : Fin 12) (l : Fin 4), g'.row p.val l = s (t + l.val + pos p.val) := by
  obtain ⟨y', e1, e2⟩ := h.save
  refine ⟨zipX ⟨plane s t 4, plane s t 5, plane s t 6, plane s t 3, plane s t 0, plane s t 1, plane s t 2, plane s t 1, plane s t 2, plane s t 3, plane s t 2,
    plane s t 3, plane s t 4, plane s t 3, plane s t 4, plane s t 5⟩, y', ?_, e2, ?_⟩
  · unfold rollZipE
    rw [h.load]
    simp only [Option.bind_eq_bind, Option.bind_some]
    rw [seedE_eq hs]
    dsimp only
    rw [spread_eq]
    dsimp only
    rw [e1, Option.bind_some]
    rfl
  · intro p l
    rw [zipX_row]
    fin_cases p <;> fin_cases l <;> rfl

end

end XoodooTimes4Neon
