import Verif.Proofs.XoodooPlanesFull

/-!
The functions for Xoofff of the AVX-512 implementation of a single state do what the serial code does.
-/

namespace XoodooPlanes

open Xoodoo (Lane Lanes bytesOfLanes)
open Simd32 (Vec wd loadVec storeVec bytesOfVec)
open XoofffSimd (words_ext wd_take wd_xor rc1 re1 gc ge shift_rc1 shift_re1 P6)

/-- The registers after `load3`. -/
def planesOf (buf : Bytes) : Planes := ⟨fun l => wd buf (0 + l.val), fun l => wd buf (4 + l.val), fun l => wd buf (8 + l.val)⟩

theorem load3_ok (buf : Bytes) (h : 48 ≤ buf.length) : load3 buf = some (planesOf buf) := by
  have e1 : loadVec 4 buf 0 = some fun l => wd buf (0 + l.val) := load_ok 4 buf 0 0 (by omega)
  have e2 : loadVec 4 buf (4 * 4) = some fun l => wd buf (4 + l.val) := load_ok 4 buf 0 4 (by omega)
  have e3 : loadVec 4 buf (8 * 4) = some fun l => wd buf (8 + l.val) := load_ok 4 buf 0 8 (by omega)
  unfold load3
  simp only [Option.bind_eq_bind]
  rw [e1, Option.bind_some, e2, Option.bind_some, e3, Option.bind_some]
  rfl

theorem B_planesOf (buf : Bytes) (h : 48 ≤ buf.length) : B (planesOf buf) = buf.take 48 := by
  apply words_ext (length_B _) (by rw [List.length_take]; omega)
  intro p hp
  rw [wd_B _ hp, wd_take (by omega)]
  interval_cases p <;> rfl

theorem store3_ok (buf : Bytes) (o : Nat) (s : Planes) (h : o + 48 ≤ buf.length) : store3 buf o s = some (Bytes.setAt buf o (B s)) := by
  unfold store3
  simp only [Option.bind_eq_bind]
  rw [storeVec_eq _ _ _ (by omega), Option.bind_some, storeVec_eq _ _ _ (by rw [Bytes.length_setAt]; omega), Option.bind_some,
    storeVec_eq _ _ _ (by rw [Bytes.length_setAt, Bytes.length_setAt]; omega), B_eq, ← Bytes.setAt_append buf o (bytesOfVec s.a0),
    Simd32.length_bytesOfVec, ← Bytes.setAt_append _ _ (bytesOfVec s.a1), Simd32.length_bytesOfVec]

theorem B_xor3 (s t : Planes) : B (xor3 s t) = Bytes.xor (B s) (B t) := by
  apply words_ext (length_B _) (by rw [Bytes.length_xor, length_B, length_B]; rfl)
  intro p hp
  rw [wd_xor (length_B _) (length_B _) hp, wd_B _ hp, wd_B _ hp, wd_B _ hp]
  interval_cases p <;> rfl

/-- The words of a plane that moves up and of the one in which a new word is inserted. -/
theorem shifted {f : Bytes → Bytes} {g : Lane → Lane → Lane → Lane} (h : XoofffSimd.Shift f g) (r t : Planes)
    (h0 : t.a0 = r.a1) (h1 : t.a1 = r.a2) (h2 : ∀ l : Fin 4, t.a2 l = if l.val < 3 then r.a0.at (l.val + 1) else g (r.a0 0) (r.a1 0) (r.a2 0)) :
    B t = f (B r) := by
  apply words_ext (length_B _) (h.len _ (length_B _))
  have hs : ∀ q, (hq : q < 11) → wd (f (B r)) (4 * (q % 3) + q / 3) = vars2State r ⟨4 * ((q + 1) % 3) + (q + 1) / 3, by omega⟩ :=
    fun q hq => (h.shift (B r) q hq).trans (wd_B _ _)
  have hl : wd (f (B r)) 11 = g (r.a0 0) (r.a1 0) (r.a2 0) := by
    rw [h.last (B r), wd_B r (by omega : 0 < 12), wd_B r (by omega : 4 < 12), wd_B r (by omega : 8 < 12)]
    rfl
  intro p hp
  rw [wd_B _ hp]
  obtain ⟨t0, t1, t2⟩ := t
  subst h0 h1
  interval_cases p
  · exact (hs 0 (by omega)).symm
  · exact (hs 3 (by omega)).symm
  · exact (hs 6 (by omega)).symm
  · exact (hs 9 (by omega)).symm
  · exact (hs 1 (by omega)).symm
  · exact (hs 4 (by omega)).symm
  · exact (hs 7 (by omega)).symm
  · exact (hs 10 (by omega)).symm
  · exact (h2 0).trans (hs 2 (by omega)).symm
  · exact (h2 1).trans (hs 5 (by omega)).symm
  · exact (h2 2).trans (hs 8 (by omega)).symm
  · exact (h2 3).trans hl.symm

theorem insert_eq (a b : Vec 4) (l : Fin 4) : Simd32.permutex2var a rr b l = if l.val < 3 then a.at (l.val + 1) else b 0 := by
  fin_cases l <;> rfl

theorem B_rollc (r : Planes) : B (rollc r) = rc1 (B r) := by
  refine shifted shift_rc1 _ _ rfl rfl fun l => ?_
  refine (insert_eq _ _ l).trans ?_
  split
  · rfl
  · rw [ternary_xor, rol_eq _ _ _ (by omega) (by omega)]
    exact BitVec.xor_assoc ..

theorem B_rolle (r : Planes) : B (rolle r) = re1 (B r) := by
  refine shifted shift_re1 _ _ rfl rfl fun l => ?_
  refine (insert_eq _ _ l).trans ?_
  split
  · rfl
  · rw [Simd32.xor, ternary_xor, rol_eq _ _ _ (by omega) (by omega), rol_eq _ _ _ (by omega) (by omega)]
    rfl

theorem compressLoop_ok {C : Farfalle.Cfg} (hw : C.width = 48) (hp : C.permute = P6) (hrc : C.rollc = Xoofff.rollc) :
    ∀ (fuel : Nat) (r x : Planes) (input : Bytes) (len : Nat), 48 ≤ len → len ≤ input.length → len < 2 ^ 64 → len < fuel →
      ∃ r' x', compressLoop fuel r x input len = some (r', x', len % 48) ∧ Farfalle.eat C (len / 48) (B r, B x) input = (B r', B x') := by
  intro fuel
  induction fuel with
  | zero => intro r x input len _ _ _ h; omega
  | succ fuel ih =>
    intro r x input len h1 h2 h3 h4
    rw [compressLoop, load3_ok _ (by omega), Option.bind_eq_bind, Option.bind_some, sub64_eq h1 h3]
    have he : Farfalle.eat C (len / 48) (B r, B x) input =
        Farfalle.eat C ((len - 48) / 48) (B (rollc r), B (xor3 x (rounds6 .avx512 (xor3 r (planesOf input))))) (input.drop 48) := by
      rw [show len / 48 = (len - 48) / 48 + 1 by omega, Farfalle.eat, hw, hp, B_rollc, B_xor3, B_rounds6, B_xor3, B_planesOf _ (by omega),
        Farfalle.rc, hrc]
      rfl
    rw [he]
    by_cases hc : len - 48 ≥ 48
    · obtain ⟨r', x', i1, i2⟩ := ih (rollc r) (xor3 x (rounds6 .avx512 (xor3 r (planesOf input)))) (input.drop 48) (len - 48) hc
        (by rw [List.length_drop]; omega) (by omega) (by omega)
      rw [if_pos hc, i1]
      exact ⟨r', x', by rw [show (len - 48) % 48 = len % 48 by omega], i2⟩
    · rw [if_neg hc, show (len - 48) / 48 = 0 by omega]
      exact ⟨_, _, by rw [show len - 48 = len % 48 by omega], rfl⟩

theorem setAt_all {a b : Bytes} (h : a.length = b.length) : Bytes.setAt a 0 b = b := by
  apply List.ext_getElem?; intro j
  rw [Bytes.getElem?_setAt]
  by_cases hj : j < a.length
  · rw [List.getElem?_eq_getElem hj, List.getElem?_eq_getElem (by omega), Option.map_some, if_pos (by omega), Nat.sub_zero,
      List.getD_eq_getElem _ _ (by omega)]
  · rw [List.getElem?_eq_none (by omega), List.getElem?_eq_none (by omega)]; rfl

theorem compress_ok {C : Farfalle.Cfg} (hw : C.width = 48) (hp : C.permute = P6) (hrc : C.rollc = Xoofff.rollc) (k x input : Bytes) (len : Nat)
    (hk : k.length = 48) (hx : x.length = 48) (h1 : 48 ≤ len) (hl : len ≤ input.length) (h64 : len < 2 ^ 64) :
    compressFastLoop k x input len =
      some ((Farfalle.eat C (len / 48) (k, x) input).1, (Farfalle.eat C (len / 48) (k, x) input).2, len / 48 * 48) := by
  obtain ⟨r', x', i1, i2⟩ := compressLoop_ok hw hp hrc (len + 1) (planesOf k) (planesOf x) input len h1 hl h64 (by omega)
  rw [B_planesOf _ (by omega), B_planesOf _ (by omega), List.take_of_length_le (by omega), List.take_of_length_le (by omega)] at i2
  unfold compressFastLoop
  simp only [Option.bind_eq_bind]
  rw [load3_ok _ (by omega), Option.bind_some, load3_ok _ (by omega), Option.bind_some, i1, Option.bind_some, store3_ok _ _ _ (by omega),
    Option.bind_some, store3_ok _ _ _ (by omega), Option.bind_some, setAt_all (hk.trans (length_B _).symm),
    setAt_all (hx.trans (length_B _).symm), sub64_eq (Nat.mod_le _ _) h64, i2, show len - len % 48 = len / 48 * 48 by omega]

theorem expandLoop_ok {C : Farfalle.Cfg} (hp : C.permute = P6) (hre : C.rolle = Xoofff.rolle) (k : Planes) :
    ∀ (fuel : Nat) (r : Planes) (output : Bytes) (o len : Nat), 48 ≤ len → o + len ≤ output.length → len < 2 ^ 64 → len < fuel →
      ∃ r', expandLoop k fuel r output o len = some (r', Bytes.setAt output o (Farfalle.gen C (B k) (len / 48) (B r)), len % 48) ∧
        Nat.repeat (Farfalle.re C) (len / 48) (B r) = B r' := by
  have hr : Farfalle.re C = re1 := by funext y; rw [Farfalle.re, hre]; rfl
  intro fuel
  induction fuel with
  | zero => intro r output o len _ _ _ h; omega
  | succ fuel ih =>
    intro r output o len h1 h2 h3 h4
    have hl : (B (xor3 k (rounds6 .avx512 r))).length = 48 := length_B _
    have he : Farfalle.gen C (B k) (len / 48) (B r) =
        B (xor3 k (rounds6 .avx512 r)) ++ Farfalle.gen C (B k) ((len - 48) / 48) (B (rolle r)) := by
      rw [show len / 48 = (len - 48) / 48 + 1 by omega, Farfalle.gen, hp, B_rolle, B_xor3, B_rounds6, hr]
    have hn : Nat.repeat (Farfalle.re C) (len / 48) (B r) = Nat.repeat (Farfalle.re C) ((len - 48) / 48) (B (rolle r)) := by
      rw [show len / 48 = 1 + (len - 48) / 48 by omega, XoofffSimd.repeat_add, B_rolle, hr]
      rfl
    rw [expandLoop, store3_ok _ _ _ (by omega), Option.bind_eq_bind, Option.bind_some, sub64_eq h1 h3, he, hn]
    by_cases hc : len - 48 ≥ 48
    · obtain ⟨r', i1, i2⟩ := ih (rolle r) (Bytes.setAt output o (B (xor3 k (rounds6 .avx512 r)))) (o + 48) (len - 48) hc
        (by rw [Bytes.length_setAt]; omega) (by omega) (by omega)
      rw [if_pos hc, i1]
      refine ⟨r', ?_, i2⟩
      have := Bytes.setAt_append output o (B (xor3 k (rounds6 .avx512 r))) (Farfalle.gen C (B k) ((len - 48) / 48) (B (rolle r)))
      rw [hl] at this
      rw [this, show (len - 48) % 48 = len % 48 by omega]
    · rw [if_neg hc, show (len - 48) / 48 = 0 by omega]
      refine ⟨_, ?_, rfl⟩
      rw [show len - 48 = len % 48 by omega, Farfalle.gen, List.append_nil]

theorem setAt_front {a b : Bytes} (h : b.length ≤ a.length) : Bytes.setAt a 0 b = b ++ a.drop b.length := by
  apply List.ext_getElem?; intro j
  rw [Bytes.getElem?_setAt]
  by_cases hb : j < b.length
  · rw [List.getElem?_append_left hb, List.getElem?_eq_getElem hb, List.getElem?_eq_getElem (by omega), Option.map_some, if_pos (by omega),
      Nat.sub_zero, List.getD_eq_getElem _ _ hb]
  · rw [List.getElem?_append_right (by omega), List.getElem?_drop, show b.length + (j - b.length) = j by omega]
    cases a[j]? with
    | none => rfl
    | some c => rw [Option.map_some, if_neg (by omega)]

theorem expand_ok {C : Farfalle.Cfg} (hp : C.permute = P6) (hre : C.rolle = Xoofff.rolle) (y kRoll output : Bytes) (len : Nat)
    (hk : kRoll.length = 48) (hy : y.length = 48) (h1 : 48 ≤ len) (hl : len ≤ output.length) (h64 : len < 2 ^ 64) :
    expandFastLoop y kRoll output len = some (Nat.repeat (Farfalle.re C) (len / 48) y,
      Farfalle.gen C kRoll (len / 48) y ++ output.drop (len / 48 * 48), len / 48 * 48) := by
  obtain ⟨r', i1, i2⟩ := expandLoop_ok (C := C) hp hre (planesOf kRoll) (len + 1) (planesOf y) output 0 len h1 (by omega) h64 (by omega)
  rw [B_planesOf _ (by omega), List.take_of_length_le (by omega)] at i2
  rw [B_planesOf _ (by omega), B_planesOf _ (by omega), List.take_of_length_le (by omega), List.take_of_length_le (by omega)] at i1
  have hg := XoofffSimd.length_gen6 (C := C) hp hk (len / 48) y
  unfold expandFastLoop
  simp only [Option.bind_eq_bind]
  rw [load3_ok _ (by omega), Option.bind_some, load3_ok _ (by omega), Option.bind_some, i1, Option.bind_some, store3_ok _ _ _ (by omega),
    Option.bind_some, setAt_all (hy.trans (length_B _).symm), sub64_eq (Nat.mod_le _ _) h64, i2, setAt_front (by omega), hg,
    show 48 * (len / 48) = len / 48 * 48 by omega, show len - len % 48 = len / 48 * 48 by omega]

end XoodooPlanes
