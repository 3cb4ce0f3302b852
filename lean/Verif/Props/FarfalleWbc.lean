import Verif.Proofs.FarfalleWbcae
import Verif.Props.FarfalleAE

/-!
# Properties C34, C35 and C36: the wide block cipher on Kravatte and Xoofff

As for SANE, the two sides may run different builds `C`, `C'` of the same instance `P`.

The three claims speak of every length.  They hold up to `2^30` blocks of the permutation (214 GB for Kravatte, 51 GB for Xoofff).  For
more blocks `Split` shifts the `int` 1 by 31 positions or more, which is undefined: `C36_false`, `C34_false`.  Hence the suffix `_partial`.
-/

namespace Farfalle

variable {C C' : Cfg} {P : Spec.Farfalle.Par}

/-- The longest data for which the code is defined. -/
def SplitOk (P : Spec.Farfalle.Par) (n : Nat) : Prop := n + 10 ≤ 2 ^ 30 * P.b ∧ n + P.b + 9 < 2 ^ 64

/-- C36: for every length up to `2^30` blocks `Split` has no undefined operation, and the length `nL` of the left part is the one of the
specification: a multiple of 8, at most `n`, and so on. -/
theorem C36_partial (hC : Valid C) (hM : Matches C P) (n : Nat) (hn : SplitOk P n) :
    ∃ nL, wbcSplit C n = some nL ∧ Spec.Farfalle.IsSplit P.b 8 n nL := by
  obtain ⟨h1, h2⟩ := hn
  rw [hM.b] at h1 h2 ⊢
  exact wbcSplit_spec hC.width_pos n h1 h2

/-- The conditions of the specification of the split leave no choice, for blocks of whole bytes. -/
theorem IsSplit_unique {w n x y : Nat} (hw : 2 ≤ w) (hx : Spec.Farfalle.IsSplit (8 * w) 8 n x)
    (hy : Spec.Farfalle.IsSplit (8 * w) 8 n y) : x = y := by
  obtain ⟨x', rfl⟩ := hx.lane
  obtain ⟨y', rfl⟩ := hy.lane
  by_cases hs : n ≤ 2 * (8 * w) - (8 + 2)
  · have h1 := hx.small hs
    have h2 := hy.small hs
    omega
  · obtain ⟨u, q, h1, -, h3, h4, h5⟩ := hx.large (by omega)
    obtain ⟨u', q', g1, -, g3, g4, g5⟩ := hy.large (by omega)
    have hlx := hx.le
    have hly := hy.le
    have hb0 : 0 < 8 * w := by omega
    generalize 8 * w = b at *
    generalize 8 * x' = x at *
    generalize 8 * y' = y at *
    have key : ∀ (a p : Nat), a ≤ n → a + 8 = p * b → (n - a + 1) / b + p = (n + 9) / b := by
      intro a p ha hp
      have : n + 9 = (n - a + 1) + p * b := by omega
      rw [this, Nat.add_mul_div_right _ _ (by omega)]
    have e1 := key x q hlx h5
    have e2 := key y q' hly g5
    have hu : u = u' := by
      rcases Nat.lt_trichotomy u u' with h | h | h
      · have := Nat.pow_le_pow_right (show 2 > 0 by omega) (show u + 1 ≤ u' by omega)
        rw [Nat.pow_succ] at this
        omega
      · exact h
      · have := Nat.pow_le_pow_right (show 2 > 0 by omega) (show u' + 1 ≤ u by omega)
        rw [Nat.pow_succ] at this
        omega
    subst hu
    have : q = q' := by omega
    subst this
    omega

/-- C36 does not hold for every length: from `2^30` blocks on, `Split` executes `1 << 31` on an `int`. -/
theorem C36_false (hC : Valid C) (hM : Matches C P) (n : Nat) (h1 : 2 ^ 30 * P.b < n + 10) (h2 : n + P.b + 9 < 2 ^ 64) :
    wbcSplit C n = none := by
  rw [hM.b] at h1 h2
  exact wbcSplit_none n h1 hC.width_pos h2

/-- The instance holds the mask derived from the key, whatever it was used for since. -/
def Keyed (C : Cfg) (P : Spec.Farfalle.Par) (kv : Inst) (key : Bits) : Prop :=
  ∃ S, Rep C P kv S ∧ S.k = (Spec.Farfalle.Obj.start P key).k

/-- `Kravatte_WBC_Initialize`, `Kravatte_WBCAE_Initialize` (KravatteModes.h:164, 208) and those of Xoofff are `MaskDerivation`. -/
theorem Keyed.initialize (hC : Valid C) (hM : Matches C P) (kv : Inst) (hs : Sized C kv) (key : Bytes) (n : Nat)
    (hk : (n + 7) / 8 ≤ key.length) (hn : n < P.b) :
    ∃ kv', maskDerivation C kv key n = some (0, kv') ∧ Keyed C P kv' ((Bits.ofBytes key).take n) := by
  obtain ⟨kv', h1, h2⟩ := maskDerivation_spec hC hM kv hs key n hk hn
  exact ⟨kv', h1, _, h2, rfl⟩

/-- C34 for a length for which the code is defined: for any key, tweak and data, `Encipher` gives a ciphertext of the same length, the one
of the specification; `Decipher` of that gives back the data.  Both return 0 and leave instances with which one can go on. -/
theorem C34_partial (hC : Valid C) (hM : Matches C P) (hC' : Valid C') (hM' : Matches C' P) {kv kv' : Inst} {key : Bits}
    (h : Keyed C P kv key) (h' : Keyed C' P kv' key) (pt : Bytes) (n : Nat) (hn : (n + 7) / 8 ≤ pt.length) (hs : SplitOk P n)
    (hlt : n + 7 < 2 ^ 64) (w : Bytes) (wLen : Nat) (hw : (wLen + 7) / 8 ≤ w.length) (hc : Clean w wLen) :
    ∃ kv₁ kv₁' ct pt' nL, wbcEncipher C kv pt n w wLen = some (0, kv₁, ct) ∧ wbcDecipher C' kv' ct n w wLen = some (0, kv₁', pt') ∧
      Spec.Farfalle.IsSplit P.b 8 n nL ∧
      Holds ct (Spec.Farfalle.Wbc.encipher P (Spec.Farfalle.Obj.start P key).k ((Bits.ofBytes w).take wLen) nL
        ((Bits.ofBytes pt).take n)) ∧
      ct.length = (n + 7) / 8 ∧ Holds pt' ((Bits.ofBytes pt).take n) ∧ Keyed C P kv₁ key ∧ Keyed C' P kv₁' key := by
  obtain ⟨S, r, hk⟩ := h
  obtain ⟨S', r', hk'⟩ := h'
  obtain ⟨nL, s1, s2⟩ := C36_partial hC hM n hs
  obtain ⟨nL', s1', s2'⟩ := C36_partial hC' hM' n hs
  have hwid : C.width = C'.width := by have := hM.b; have := hM'.b; omega
  have : nL' = nL := by
    have hsame : wbcSplit C' n = wbcSplit C n := by rw [wbcSplit, wbcSplit, hwid]
    rw [hsame, s1] at s1'
    exact (Option.some.inj s1').symm
  subst this
  obtain ⟨kv₁, ct, S₁, g1, g2, g3, g4⟩ := wbcEncipher_spec hC hM r pt n _ hn hlt s1 s2.le s2.lane w wLen hw hc
  have hpl := length_take_ofBytes hn
  have hcl := length_encipher (P := P) S.k ((Bits.ofBytes w).take wLen) nL' ((Bits.ofBytes pt).take n)
  rw [hpl] at hcl
  have hct : ct.length = (n + 7) / 8 := by rw [g2.length, hcl]
  obtain ⟨kv₁', pt', S₁', j1, j2, j3, j4⟩ := wbcDecipher_spec hC' hM' r' ct n _ (by rw [hct]) hlt s1' s2.le s2.lane w wLen hw hc
  rw [hk', ← hk, show (Bits.ofBytes ct).take n = _ from (congrArg (fun z => (Bits.ofBytes ct).take z) hcl.symm).trans g2.take,
    decipher_encipher _ _ _ _ (by rw [hpl]; exact s2.le)] at j2
  exact ⟨kv₁, kv₁', ct, pt', nL', g1, j1, s2, hk ▸ g2, hct, j2, ⟨S₁, g3, g4.trans hk⟩, ⟨S₁', j3, j4.trans hk'⟩⟩

/-- C34, the other direction: every string of `n` bits is the ciphertext of what `Decipher` gives for it.  With `C34_partial`: for
every key and tweak, `Encipher` is a permutation of the strings of `n` bits (one to one since `Decipher` undoes it, onto by this). -/
theorem C34_onto_partial (hC : Valid C) (hM : Matches C P) (hC' : Valid C') (hM' : Matches C' P) {kv kv' : Inst} {key : Bits}
    (h : Keyed C P kv key) (h' : Keyed C' P kv' key) (ct : Bytes) (n : Nat) (hn : (n + 7) / 8 = ct.length) (hs : SplitOk P n)
    (hcl : Clean ct n) (hlt : n + 7 < 2 ^ 64) (w : Bytes) (wLen : Nat) (hw : (wLen + 7) / 8 ≤ w.length) (hc : Clean w wLen) :
    ∃ kv₁ kv₁' pt, wbcDecipher C' kv' ct n w wLen = some (0, kv₁', pt) ∧ pt.length = (n + 7) / 8 ∧ Clean pt n ∧
      wbcEncipher C kv pt n w wLen = some (0, kv₁, ct) ∧ Keyed C P kv₁ key ∧ Keyed C' P kv₁' key := by
  obtain ⟨S, r, hk⟩ := h
  obtain ⟨S', r', hk'⟩ := h'
  obtain ⟨nL, s1, s2⟩ := C36_partial hC hM n hs
  have hwid : C.width = C'.width := by have := hM.b; have := hM'.b; omega
  have s1' : wbcSplit C' n = some nL := by rw [← s1, wbcSplit, wbcSplit, hwid]
  obtain ⟨kv₁', pt, S₁', j1, j2, j3, j4⟩ := wbcDecipher_spec hC' hM' r' ct n _ (by omega) hlt s1' s2.le s2.lane w wLen hw hc
  have hctl := length_take_ofBytes (show (n + 7) / 8 ≤ ct.length by omega)
  have hdl := length_decipher (P := P) S'.k ((Bits.ofBytes w).take wLen) nL ((Bits.ofBytes ct).take n) (by rw [hctl]; exact s2.le)
  rw [hctl] at hdl
  have hpl : pt.length = (n + 7) / 8 := by rw [j2.length, hdl]
  obtain ⟨kv₁, ct', S₁, g1, g2, g3, g4⟩ := wbcEncipher_spec hC hM r pt n _ (by omega) hlt s1 s2.le s2.lane w wLen hw hc
  rw [hk, ← hk', show (Bits.ofBytes pt).take n = _ from (congrArg (fun z => (Bits.ofBytes pt).take z) hdl.symm).trans j2.take,
    encipher_decipher _ _ _ _ (by rw [hctl]; exact s2.le)] at g2
  have : ct' = ct := Bits.ofBytes_injective (by
    rw [show Bits.ofBytes ct' = _ from g2]
    exact (Clean.holds hcl hn).symm)
  subst this
  refine ⟨kv₁, kv₁', pt, j1, hpl, ?_, g1, ⟨S₁, g3, g4.trans hk⟩, ⟨S₁', j3, j4.trans hk'⟩⟩
  have := j2.clean
  rw [hdl] at this
  exact this

/-- C34 does not hold for every length: with `2^30` blocks or more `Encipher` and `Decipher` have undefined behaviour, whatever the
instance and the data. -/
theorem C34_false (hC : Valid C) (hM : Matches C P) (n : Nat) (h1 : 2 ^ 30 * P.b < n + 10) (h2 : n + P.b + 9 < 2 ^ 64) (kv : Inst)
    (data w : Bytes) (wLen : Nat) : wbcEncipher C kv data n w wLen = none ∧ wbcDecipher C kv data n w wLen = none := by
  constructor
  · rw [wbcEncipher, C36_false hC hM n h1 h2]; rfl
  · rw [wbcDecipher, C36_false hC hM n h1 h2]; rfl

/-- C35 for a length for which the code is defined: `Encipher` returns 0 and a ciphertext with 128 bits more; `Decipher` of that returns 0
and the plaintext. -/
theorem C35_partial (hC : Valid C) (hM : Matches C P) (hC' : Valid C') (hM' : Matches C' P) {kv kv' : Inst} {key : Bits}
    (h : Keyed C P kv key) (h' : Keyed C' P kv' key) (pt : Bytes) (n : Nat) (hn : (n + 7) / 8 + 16 ≤ pt.length)
    (hs : SplitOk P (n + 128)) (hlt : n + 128 + 7 < 2 ^ 64) (ad : Bytes) (adLen : Nat) (had : (adLen + 7) / 8 ≤ ad.length)
    (hc : Clean ad adLen) :
    ∃ kv₁ kv₁' ct pt₁ pt', wbcaeEncipher C kv pt n ad adLen = some (0, kv₁, ct, pt₁) ∧ ct.length = (n + 128 + 7) / 8 ∧ Clean ct (n + 128) ∧
      wbcaeDecipher C' kv' ct n ad adLen = some (0, kv₁', pt') ∧ (Bits.ofBytes pt').take n = (Bits.ofBytes pt).take n ∧
      Keyed C P kv₁ key ∧ Keyed C' P kv₁' key := by
  obtain ⟨S, r, hk⟩ := h
  obtain ⟨S', r', hk'⟩ := h'
  obtain ⟨nL, s1, s2⟩ := C36_partial hC hM (n + 128) hs
  have hwid : C.width = C'.width := by have := hM.b; have := hM'.b; omega
  have s1' : wbcSplit C' (n + 128) = some nL := by rw [← s1, wbcSplit, wbcSplit, hwid]
  obtain ⟨kv₁, ct, pt₁, S₁, g1, -, g2, g3, g4⟩ := wbcaeEncipher_spec hC hM r pt n hn hlt (fun _ => nL) s1 s2.le s2.lane ad adLen had hc
  have hpl := length_take_ofBytes (show (n + 7) / 8 ≤ pt.length by omega)
  have hml : ((Bits.ofBytes pt).take n ++ List.replicate Spec.Farfalle.Wbcae.t false).length = n + 128 := by
    rw [List.length_append, hpl, List.length_replicate]; rfl
  rw [Spec.Farfalle.Wbcae.wrap] at g2
  have hcl := length_encipher (P := P) S.k ((Bits.ofBytes ad).take adLen) nL
    ((Bits.ofBytes pt).take n ++ List.replicate Spec.Farfalle.Wbcae.t false)
  rw [hml] at hcl
  have hct : ct.length = (n + 128 + 7) / 8 := by rw [g2.length, hcl]
  obtain ⟨kv₁', c, pt', S₁', j1, j2, j3, j4⟩ := wbcaeDecipher_spec hC' hM' r' ct n (by rw [hct]) hlt (fun _ => nL) s1' s2.le s2.lane
    ad adLen had hc
  have hun : Spec.Farfalle.Wbcae.unwrap P (fun _ => nL) S'.k ((Bits.ofBytes ad).take adLen) ((Bits.ofBytes ct).take (n + 128)) =
      some ((Bits.ofBytes pt).take n) := by
    rw [show (Bits.ofBytes ct).take (n + 128) = _ from (congrArg (fun z => (Bits.ofBytes ct).take z) hcl.symm).trans g2.take]
    dsimp only [Spec.Farfalle.Wbcae.unwrap]
    rw [hk', ← hk, decipher_encipher _ _ _ _ (by rw [hml]; exact s2.le), hcl, show Spec.Farfalle.Wbcae.t = 128 from rfl,
      Nat.add_sub_cancel, List.drop_append_of_le_length (by omega), List.drop_of_length_le (by omega), List.nil_append, if_pos rfl,
      List.take_append_of_le_length (by omega), List.take_of_length_le (by omega)]
  rcases j2 with ⟨M, m1, m2, m3⟩ | ⟨m1, -, -⟩
  · rw [hun] at m1
    obtain rfl := Option.some.inj m1
    subst m2
    refine ⟨kv₁, kv₁', ct, pt₁, pt', g1, hct, ?_, j1, ?_, ⟨S₁, g3, g4.trans hk⟩, ⟨S₁', j3, j4.trans hk'⟩⟩
    · have := g2.clean
      rw [hcl] at this
      exact this
    · rw [m3.take_le (by rw [List.length_append, hpl]; omega), List.take_append_of_le_length (by omega), List.take_of_length_le (by omega)]
  · rw [hun] at m1; cases m1

/-- C35: for every ciphertext `Decipher` returns 0 or 1.  It returns 0 exactly if the last 128 of the `n + 128` deciphered bits are zero,
and then the buffer holds the deciphered bits; it returns 1 with a zeroed buffer otherwise. -/
theorem C35_reject_partial (hC : Valid C) (hM : Matches C P) {kv : Inst} {key : Bits} (h : Keyed C P kv key) (ct : Bytes) (n : Nat)
    (hn : (n + 128 + 7) / 8 ≤ ct.length) (hs : SplitOk P (n + 128)) (hlt : n + 128 + 7 < 2 ^ 64) (ad : Bytes) (adLen : Nat)
    (had : (adLen + 7) / 8 ≤ ad.length) (hc : Clean ad adLen) :
    ∃ kv₁ c pt nL, wbcaeDecipher C kv ct n ad adLen = some (c, kv₁, pt) ∧ Spec.Farfalle.IsSplit P.b 8 (n + 128) nL ∧ Keyed C P kv₁ key ∧
      let X := Spec.Farfalle.Wbc.decipher P (Spec.Farfalle.Obj.start P key).k ((Bits.ofBytes ad).take adLen) nL
        ((Bits.ofBytes ct).take (n + 128))
      if X.drop n = List.replicate 128 false then c = 0 ∧ Holds pt X else c = 1 ∧ pt = Bytes.zeros ((n + 128 + 7) / 8) := by
  obtain ⟨S, r, hk⟩ := h
  obtain ⟨nL, s1, s2⟩ := C36_partial hC hM (n + 128) hs
  obtain ⟨kv₁, c, pt, S₁, j1, j2, j3, j4⟩ := wbcaeDecipher_spec hC hM r ct n hn hlt (fun _ => nL) s1 s2.le s2.lane ad adLen had hc
  refine ⟨kv₁, c, pt, nL, j1, s2, ⟨S₁, j3, j4.trans hk⟩, ?_⟩
  rw [← hk]
  have hcl := length_take_ofBytes hn
  dsimp only [Spec.Farfalle.Wbcae.unwrap] at j2
  rw [hcl, show Spec.Farfalle.Wbcae.t = 128 from rfl, Nat.add_sub_cancel] at j2
  dsimp only
  generalize Spec.Farfalle.Wbc.decipher P S.k ((Bits.ofBytes ad).take adLen) nL ((Bits.ofBytes ct).take (n + 128)) = X at *
  by_cases hz : X.drop n = List.replicate 128 false
  · rw [if_pos hz]
    rw [if_pos hz] at j2
    rcases j2 with ⟨M, m1, m2, m3⟩ | ⟨m1, -, -⟩
    · obtain rfl := Option.some.inj m1
      rw [← hz, List.take_append_drop] at m3
      exact ⟨m2, m3⟩
    · cases m1
  · rw [if_neg hz]
    rw [if_neg hz] at j2
    rcases j2 with ⟨M, m1, -, -⟩ | ⟨-, m2, m3⟩
    · cases m1
    · exact ⟨m2, m3⟩

/-! ## The hypotheses can be met -/

/-- 21 bits of data on Kravatte, both sides keyed with 100 bits. -/
example : ∃ kv kv' key, Keyed (Kravatte.cfg (KeccakP1600.Ref.permuteNrounds 6) (Bytes.zeros 200) [.plSnP 4]) Spec.Kravatte.par kv key ∧
    Keyed (Kravatte.cfg (KeccakP1600.Ref.permuteNrounds 6) (Bytes.zeros 200) []) Spec.Kravatte.par kv' key ∧
    SplitOk Spec.Kravatte.par 21 ∧ SplitOk Spec.Kravatte.par (21 + 128) := by
  obtain ⟨v1, m1⟩ := kravatte_ok _ (C31_kravatte _ (.inl rfl)) _ (Bytes.length_zeros 200) [.plSnP 4] (by
    intro p hp
    simp only [List.mem_cons, List.not_mem_nil, or_false] at hp
    subst hp
    simp [PathOk])
  obtain ⟨v2, m2⟩ := kravatte_ok _ (C31_kravatte _ (.inl rfl)) _ (Bytes.length_zeros 200) [] (by simp)
  obtain ⟨kv, -, h⟩ := Keyed.initialize v1 m1 (blank 200) (by constructor <;> exact Bytes.length_zeros 200) (Bytes.zeros 13) 100
    (by simp) (by decide)
  obtain ⟨kv', -, h'⟩ := Keyed.initialize v2 m2 (blank 200) (by constructor <;> exact Bytes.length_zeros 200) (Bytes.zeros 13) 100
    (by simp) (by decide)
  exact ⟨kv, kv', _, h, h', by constructor <;> decide, by constructor <;> decide⟩

/-- `Split` of Kravatte for short and long data. -/
example : wbcSplit (Kravatte.cfg id (Bytes.zeros 200) []) 21 = some 8 ∧ wbcSplit (Kravatte.cfg id (Bytes.zeros 200) []) 100000 = some 49592 ∧
    wbcSplit (Kravatte.cfg id (Bytes.zeros 200) []) (2 ^ 30 * 1600) = none := by decide +kernel

/-- The lengths of `C36_false` and `C34_false` are 64-bit numbers. -/
example : 2 ^ 30 * Spec.Kravatte.par.b < 2 ^ 30 * 1600 + 10 ∧ 2 ^ 30 * 1600 + Spec.Kravatte.par.b + 9 < 2 ^ 64 ∧
    2 ^ 30 * Spec.Xoofff.par.b < 2 ^ 30 * 384 + 10 ∧ 2 ^ 30 * 384 + Spec.Xoofff.par.b + 9 < 2 ^ 64 := by decide

end Farfalle
