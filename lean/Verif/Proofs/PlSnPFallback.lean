import Verif.Spec.PlSnP
import Mathlib.Tactic.Ring

/-! # Proofs about the fallback layer -/

namespace PlSnPFallback

open PlSpec

theorem le_stateOffset {size align : Nat} (h : 0 < align) : size ≤ stateOffset size align := by
  unfold stateOffset
  have := Nat.div_add_mod (size + (align - 1)) align
  have h2 := Nat.mod_lt (size + (align - 1)) h
  rw [Nat.mul_comm] at this
  omega

theorem dvd_stateOffset (size align : Nat) : align ∣ stateOffset size align := Dvd.intro_left _ rfl

theorem slice_setAt_same {m s : Bytes} {o n : Nat} (hs : s.length = n) (h : o + n ≤ m.length) :
    Bytes.slice (Bytes.setAt m o s) o n = s := by
  apply List.ext_getElem?; intro i
  rw [Bytes.getElem?_slice, Bytes.getElem?_setAt]
  by_cases hi : i < n
  · rw [if_pos hi, List.getElem?_eq_getElem (by omega : o + i < m.length), Option.map_some,
      if_pos ⟨by omega, by omega⟩, Nat.add_sub_cancel_left, List.getD_eq_getElem?_getD,
      List.getElem?_eq_getElem (by omega : i < s.length), Option.getD_some]
  · rw [if_neg hi, List.getElem?_eq_none (by omega)]

theorem slice_setAt_other {m s : Bytes} {o o' n : Nat} (h : o' + n ≤ o ∨ o + s.length ≤ o') :
    Bytes.slice (Bytes.setAt m o s) o' n = Bytes.slice m o' n := by
  apply List.ext_getElem?; intro i
  rw [Bytes.getElem?_slice, Bytes.getElem?_setAt, Bytes.getElem?_slice]
  by_cases hi : i < n
  · rw [if_pos hi, if_pos hi]
    cases m[o' + i]? with
    | none => rfl
    | some a => rw [Option.map_some, if_neg (by omega)]
  · rw [if_neg hi, if_neg hi]

theorem slot_disjoint {size off i j : Nat} (h : size ≤ off) (hij : i ≠ j) :
    j * off + size ≤ i * off ∨ i * off + size ≤ j * off := by
  rcases Nat.lt_or_gt_of_ne hij with h1 | h1
  · right
    have := Nat.mul_le_mul_right off (Nat.succ_le_of_lt h1)
    rw [Nat.succ_mul] at this; omega
  · left
    have := Nat.mul_le_mul_right off (Nat.succ_le_of_lt h1)
    rw [Nat.succ_mul] at this; omega

theorem slot_le {size off i n : Nat} (h : size ≤ off) (hi : i < n) : i * off + size ≤ n * off := by
  have := Nat.mul_le_mul_right off (Nat.succ_le_of_lt hi)
  rw [Nat.succ_mul] at this; omega

section
variable {size align : Nat}

/-- The object in slot `j`. -/
def slot (size align : Nat) (mem : Bytes) (j : Nat) : Bytes := Bytes.slice mem (j * stateOffset size align) size

theorem length_slot (ha : 0 < align) {mem : Bytes} {n j : Nat} (hm : mem.length = n * stateOffset size align)
    (hj : j < n) : (slot size align mem j).length = size :=
  Bytes.length_slice_of_le (by have := slot_le (le_stateOffset (size := size) ha) hj; omega)

theorem getState_eq (ha : 0 < align) {mem : Bytes} {n j : Nat} (hm : mem.length = n * stateOffset size align)
    (hj : j < n) : getState size align j mem = some (slot size align mem j) := by
  unfold getState
  rw [if_pos (by have := slot_le (le_stateOffset (size := size) ha) hj; omega)]
  rfl

theorem onState_eq (ha : 0 < align) {mem : Bytes} {n j : Nat} (hm : mem.length = n * stateOffset size align)
    (hj : j < n) {f : Bytes → Option Bytes} {s : Bytes} (hf : f (slot size align mem j) = some s)
    (hs : s.length = size) :
    ∃ mem', onState size align j f mem = some mem' ∧ mem'.length = mem.length ∧ slot size align mem' j = s ∧
      ∀ k, k ≠ j → slot size align mem' k = slot size align mem k := by
  refine ⟨Bytes.setAt mem (j * stateOffset size align) s, ?_, by simp, ?_, ?_⟩
  · unfold onState
    rw [getState_eq ha hm hj]
    simp only [Option.bind_eq_bind, Option.bind_some, hf]
  · exact slice_setAt_same hs (by have := slot_le (le_stateOffset (size := size) ha) hj; omega)
  · intro k hk
    exact slice_setAt_other (by rw [hs]; exact slot_disjoint (le_stateOffset ha) (Ne.symm hk))

theorem loop_eq (ha : 0 < align) (f : Bytes → Bytes → Option Bytes) (adv : Nat) (N : Nat)
    (R : Nat → Bytes → Bytes → Prop) : ∀ (n i : Nat) (data mem : Bytes), i + n = N →
    mem.length = N * stateOffset size align →
    (∀ j < n, ∀ s : Bytes, s.length = size → ∃ s', f s (data.drop (j * adv)) = some s' ∧ s'.length = size ∧
      R (i + j) s s') →
    ∃ mem', loop size align f adv i n data mem = some mem' ∧ mem'.length = mem.length ∧
      (∀ k < i, slot size align mem' k = slot size align mem k) ∧
      ∀ k, i ≤ k → k < N → R k (slot size align mem k) (slot size align mem' k)
  | 0, i, data, mem, hN, hm, h => ⟨mem, rfl, rfl, fun _ _ => rfl, fun k h1 h2 => by omega⟩
  | n + 1, i, data, mem, hN, hm, h => by
    obtain ⟨s', h1, h2, h3⟩ := h 0 (by omega) (slot size align mem i) (length_slot ha hm (by omega))
    rw [Nat.zero_mul, List.drop_zero] at h1
    obtain ⟨m1, e1, e2, e3, e4⟩ := onState_eq ha hm (show i < N by omega) (f := fun s => f s data) h1 h2
    obtain ⟨m2, g1, g2, g3, g4⟩ := loop_eq ha f adv N R n (i + 1) (data.drop adv) m1 (by omega) (by omega)
      (by
        intro j hj s hs
        have := h (j + 1) (by omega) s hs
        rw [Nat.succ_mul, Nat.add_comm, Nat.add_comm j 1, ← Nat.add_assoc] at this
        rwa [List.drop_drop])
    refine ⟨m2, ?_, by omega, ?_, ?_⟩
    · rw [loop]
      simp only [Option.bind_eq_bind, e1, Option.bind_some, g1]
    · intro k hk
      rw [g3 k (by omega), e4 k (by omega)]
    · intro k hk hkN
      by_cases hki : k = i
      · subst hki
        rw [g3 k (by omega), e3]; exact h3
      · have := g4 k (by omega) hkN
        rwa [e4 k hki] at this

theorem setAt_shift (s : Bytes) (a b : Nat) (d : Bytes) :
    Bytes.setAt s (a + b) d = s.take a ++ Bytes.setAt (s.drop a) b d := by
  apply List.ext_getElem?; intro i
  rw [Bytes.getElem?_setAt]
  by_cases hi : i < a
  · rw [List.getElem?_append]
    by_cases h2 : i < (s.take a).length
    · rw [if_pos h2, List.getElem?_take_of_lt hi]
      cases s[i]? with
      | none => rfl
      | some x => rw [Option.map_some, if_neg (by omega)]
    · rw [if_neg h2]
      have h3 : s.length ≤ i := by simp at h2; omega
      rw [List.getElem?_eq_none h3, List.getElem?_eq_none (by simp; omega)]; rfl
  · by_cases h2 : i < s.length
    · rw [List.getElem?_append_right (by simp; omega), Bytes.getElem?_setAt, List.getElem?_drop]
      have e : (s.take a).length = a := by simp; omega
      rw [e, show a + (i - a) = i by omega]
      cases s[i]? with
      | none => rfl
      | some x =>
        simp only [Option.map_some]
        congr 1
        by_cases h3 : a + b ≤ i ∧ i < a + b + d.length
        · rw [if_pos h3, if_pos (by omega), show i - (a + b) = i - a - b by omega]
        · rw [if_neg h3, if_neg (by omega)]
    · rw [List.getElem?_eq_none (by omega), List.getElem?_eq_none (by simp; omega)]; rfl

theorem length_strided (piece : Nat → Bytes) (stride : Nat) : ∀ (n : Nat) (out : Bytes),
    (strided piece stride n out).length = out.length
  | 0, _ => rfl
  | n + 1, out => by rw [strided, Bytes.length_setAt, length_strided piece stride n]

theorem strided_congr {p q : Nat → Bytes} {stride : Nat} : ∀ (n : Nat) (out : Bytes), (∀ k < n, p k = q k) →
    strided p stride n out = strided q stride n out
  | 0, _, _ => rfl
  | n + 1, out, h => by
    rw [strided, strided, strided_congr n out (fun k hk => h k (by omega)), h n (by omega)]

theorem strided_add (p : Nat → Bytes) (stride a : Nat) (out : Bytes) : ∀ b : Nat,
    strided p stride (a + b) out =
      (strided p stride a out).take (a * stride) ++
        strided (fun k => p (a + k)) stride b ((strided p stride a out).drop (a * stride))
  | 0 => (List.take_append_drop _ _).symm
  | b + 1 => by
    rw [← Nat.add_assoc, strided, strided_add p stride a out b, strided]
    by_cases h : a * stride ≤ (strided p stride a out).length
    · have e : ((strided p stride a out).take (a * stride)).length = a * stride := by simp; omega
      have := setAt_shift ((strided p stride a out).take (a * stride) ++
        strided (fun k => p (a + k)) stride b ((strided p stride a out).drop (a * stride))) (a * stride) (b * stride)
        (p (a + b))
      rw [show (a + b) * stride = a * stride + b * stride by ring, this, List.take_left' e, List.drop_left' e]
    · have h1 : (strided p stride a out).drop (a * stride) = [] := List.drop_eq_nil_of_le (by omega)
      have h2 : ∀ (q : Nat → Bytes) (n : Nat), strided q stride n [] = [] := fun q n =>
        List.length_eq_zero_iff.mp (by rw [length_strided]; rfl)
      have h3 : (strided p stride a out).length ≤ a * stride := by omega
      have := setAt_shift ((strided p stride a out)) (a * stride) (b * stride) (p (a + b))
      rw [h1, h2, List.append_nil, List.take_of_length_le h3,
        show (a + b) * stride = a * stride + b * stride by ring, this, h1, List.take_of_length_le h3]
      try rfl

theorem outLoop_eq (ha : 0 < align) (f : Bytes → Bytes → Bytes → Option Bytes) (B stride N : Nat) (mem : Bytes)
    (hm : mem.length = N * stateOffset size align) (input : Bytes) (piece : Nat → Bytes) (len : Nat) :
    ∀ (n i : Nat) (out : Bytes), i + n = N → InBuf (B * n) stride len out →
    (∀ j < n, ∀ out : Bytes, InBuf B stride len out →
      f (slot size align mem (i + j)) (input.drop (j * (B * stride))) out =
        some (strided (fun k => piece (B * j + k)) stride B out)) →
    outLoop size align f (B * stride) mem i n input out = some (strided piece stride (B * n) out) := by
  intro n
  induction n generalizing input piece with
  | zero => intro i out _ _ _; rfl
  | succ n ih =>
    intro i out hN hb hf
    have h0 := hf 0 (by omega) out (fun k hk => hb k (by rw [Nat.mul_succ]; omega))
    rw [Nat.zero_mul, List.drop_zero, Nat.mul_zero, Nat.add_zero] at h0
    simp only [Nat.zero_add] at h0
    have h1 := ih (input.drop (B * stride)) (fun k => piece (B + k)) (i + 1)
      ((strided piece stride B out).drop (B * stride)) (by omega)
      (by
        intro k hk
        have := hb (B + k) (by rw [Nat.mul_succ]; omega)
        rw [List.length_drop, length_strided]
        rw [Nat.add_mul] at this; omega)
      (by
        intro j hj out' hout
        have := hf (j + 1) (by omega) out' hout
        rw [List.drop_drop, show i + 1 + j = i + (j + 1) by omega,
          show B * stride + j * (B * stride) = (j + 1) * (B * stride) by ring, this]
        refine congrArg some (strided_congr B out' fun k _ => ?_)
        rw [Nat.mul_succ]; congr 1; omega)
    rw [outLoop]
    simp only [Option.bind_eq_bind]
    rw [getState_eq ha hm (by omega : i < N), Option.bind_some, h0, Option.bind_some, h1, Option.bind_some,
      show B * (n + 1) = B + B * n by ring, strided_add]

end

/-- A single-state implementation as a parallel one of degree 1. -/
def Single.toPar (S : Single) : Par where
  par := 1
  size := S.size
  align := S.align
  lane := S.lane
  initAll := S.init
  addByte s _ := S.addByte s
  addBytes s _ := S.addBytes s
  addLanesAll s data laneCount _ := do
    let x ← SnP.readBuf data (laneCount * S.lane % 2 ^ 32)
    S.addBytes s x 0
  overwriteBytes s _ := S.overwriteBytes s
  overwriteLanesAll s data laneCount _ := do
    let x ← SnP.readBuf data (laneCount * S.lane % 2 ^ 32)
    S.overwriteBytes s x 0
  overwriteWithZeroes s _ := S.overwriteWithZeroes s
  permuteAll p s :=
    match p with
    | .all => S.permute s
    | .r12 => S.permute12 s
    | .r6 => S.permuteN s 6
    | .r4 => S.permuteN s 4
  extractBytes s _ := S.extractBytes s
  extractLanesAll s out laneCount _ := do
    let x ← S.extractBytes s 0 (laneCount * S.lane % 2 ^ 32)
    store out x
  extractAndAddBytes s _ := S.extractAndAddBytes s
  extractAndAddLanesAll s input out laneCount _ := do
    let x ← SnP.readBuf input (laneCount * S.lane % 2 ^ 32)
    let y ← S.extractAndAddBytes s x 0
    store out y

theorem ofSingle_eq (S : Single) (T : Nat) : ofSingle S T = ofPar S.toPar T := by
  unfold ofSingle ofPar Single.toPar
  simp only [Nat.div_one]
  rfl

theorem readBuf_slice {data : Bytes} {n : Nat} (h : n ≤ data.length) :
    SnP.readBuf data n = some (Bytes.slice data 0 n) := by
  unfold SnP.readBuf; rw [if_pos h]; rfl

theorem store_eq {out x : Bytes} (h : x.length ≤ out.length) : store out x = some (Bytes.setAt out 0 x) := by
  unfold store SnP.overwriteBytes; rw [if_pos (by omega)]

theorem toPar_ok {S : Single} {w : Nat} {F : Perm → Bytes → Bytes} {view : Bytes → Bytes} (h : SingleOk S w F view)
    (hw : w < 2 ^ 32) : Independent S.toPar w F (fun mem _ => view mem) := by
  have one : ∀ {p : Nat → Prop}, p 0 → ∀ k < 1, p k := fun h0 k hk => by
    obtain rfl : k = 0 := by omega
    exact h0
  have chg : ∀ {m m' s : Bytes} {i : Nat}, i < 1 → view m' = s → Changed (fun mem _ => view mem) 1 m m' i s :=
    fun hi hs => ⟨hs, fun k hk hki => absurd hk (by omega)⟩
  refine
    { width := fun mem hm k _ => h.width mem hm
      initAll := fun mem hm => ?_
      addByte := fun mem hm i hi b off ho => ?_
      addBytes := fun mem hm i hi data off ho => ?_
      addLanesAll := fun mem hm data lc lo hlc _ hin => ?_
      overwriteBytes := fun mem hm i hi data off ho => ?_
      overwriteLanesAll := fun mem hm data lc lo hlc _ hin => ?_
      overwriteWithZeroes := fun mem hm i hi n hn => ?_
      permuteAll := fun mem hm p => ?_
      extractBytes := fun mem hm i hi off len ho => h.extractBytes mem hm off len ho
      extractLanesAll := fun mem hm out lc lo hlc _ _ hin => ?_
      extractAndAddBytes := fun mem hm i hi input off ho => h.extractAndAddBytes mem hm input off ho
      extractAndAddLanesAll := fun mem hm input out lc lo hlc _ _ hin hout => ?_ }
  · obtain ⟨m, h1, h2, h3⟩ := h.init mem hm
    exact ⟨m, h1, h2, fun _ _ => h3⟩
  · obtain ⟨m, h1, h2, h3⟩ := h.addByte mem hm b off ho
    exact ⟨m, h1, h2, chg hi h3⟩
  · obtain ⟨m, h1, h2, h3⟩ := h.addBytes mem hm data off ho
    exact ⟨m, h1, h2, chg hi h3⟩
  · have hlc' : lc * S.lane ≤ w := hlc
    have hd : lc * S.lane ≤ data.length := by have := hin 0 Nat.one_pos; simpa [Single.toPar] using this
    obtain ⟨m, h1, h2, h3⟩ := h.addBytes mem hm (Bytes.slice data 0 (lc * S.lane)) 0
      (by rw [Bytes.length_slice_of_le (by omega)]; omega)
    refine ⟨m, ?_, h2, one (by rw [h3, Nat.zero_mul]; rfl)⟩
    change (SnP.readBuf data (lc * S.lane % 2 ^ 32)).bind _ = _
    rw [Nat.mod_eq_of_lt (by omega), readBuf_slice hd, Option.bind_some, h1]
  · obtain ⟨m, h1, h2, h3⟩ := h.overwriteBytes mem hm data off ho
    exact ⟨m, h1, h2, chg hi h3⟩
  · have hlc' : lc * S.lane ≤ w := hlc
    have hd : lc * S.lane ≤ data.length := by have := hin 0 Nat.one_pos; simpa [Single.toPar] using this
    obtain ⟨m, h1, h2, h3⟩ := h.overwriteBytes mem hm (Bytes.slice data 0 (lc * S.lane)) 0
      (by rw [Bytes.length_slice_of_le (by omega)]; omega)
    refine ⟨m, ?_, h2, one (by rw [h3, Nat.zero_mul]; rfl)⟩
    change (SnP.readBuf data (lc * S.lane % 2 ^ 32)).bind _ = _
    rw [Nat.mod_eq_of_lt (by omega), readBuf_slice hd, Option.bind_some, h1]
  · obtain ⟨m, h1, h2, h3⟩ := h.overwriteWithZeroes mem hm n hn
    exact ⟨m, h1, h2, chg hi h3⟩
  · cases p
    · obtain ⟨m, h1, h2, h3⟩ := h.permute mem hm
      exact ⟨m, h1, h2, fun _ _ => h3⟩
    · obtain ⟨m, h1, h2, h3⟩ := h.permute12 mem hm
      exact ⟨m, h1, h2, fun _ _ => h3⟩
    · obtain ⟨m, h1, h2, h3⟩ := h.permute6 mem hm
      exact ⟨m, h1, h2, fun _ _ => h3⟩
    · obtain ⟨m, h1, h2, h3⟩ := h.permute4 mem hm
      exact ⟨m, h1, h2, fun _ _ => h3⟩
  · have hlc' : lc * S.lane ≤ w := hlc
    have hd : lc * S.lane ≤ out.length := by have := hin 0 Nat.one_pos; simpa [Single.toPar] using this
    change (S.extractBytes mem 0 (lc * S.lane % 2 ^ 32)).bind _ = _
    rw [Nat.mod_eq_of_lt (by omega), h.extractBytes mem hm 0 _ (by omega), Option.bind_some,
      store_eq (by rw [Bytes.length_slice_of_le (by rw [h.width mem hm]; omega)]; omega)]
    simp only [Single.toPar, strided, Nat.zero_mul]
  · have hlc' : lc * S.lane ≤ w := hlc
    have hd : lc * S.lane ≤ out.length := by have := hout 0 Nat.one_pos; simpa [Single.toPar] using this
    have hi : lc * S.lane ≤ input.length := by have := hin 0 Nat.one_pos; simpa [Single.toPar] using this
    have hl : (Bytes.slice input 0 (lc * S.lane)).length = lc * S.lane := Bytes.length_slice_of_le (by omega)
    change (SnP.readBuf input (lc * S.lane % 2 ^ 32)).bind _ = _
    rw [Nat.mod_eq_of_lt (by omega), readBuf_slice hi, Option.bind_some]
    change (S.extractAndAddBytes mem _ 0).bind _ = _
    rw [h.extractAndAddBytes mem hm _ 0 (by omega), Option.bind_some, hl,
      store_eq (by rw [Bytes.length_xor]; omega)]
    simp only [Single.toPar, strided, Nat.zero_mul]

/-- State `k` of the fallback: state `k % B` of the object in slot `k / B`. -/
def fallbackView (B : Par) (view : Bytes → Nat → Bytes) (mem : Bytes) (k : Nat) : Bytes :=
  view (slot B.size B.align mem (k / B.par)) (k % B.par)

theorem index_lt {B T k : Nat} (hB : 0 < B) (hd : B ∣ T) (hk : k < T) : k / B < T / B := by
  rw [Nat.div_lt_iff_lt_mul hB, Nat.div_mul_cancel hd]; exact hk

theorem slice_drop (data : Bytes) (a b n : Nat) : Bytes.slice (data.drop a) b n = Bytes.slice data (a + b) n := by
  unfold Bytes.slice; rw [List.drop_drop]

theorem chunk_lt {T B q k : Nat} (hd : B ∣ T) (hq : q < T / B) (hk : k < B) : B * q + k < T := by
  obtain ⟨c, rfl⟩ := hd
  have hB : 0 < B := by omega
  rw [Nat.mul_div_cancel_left c hB] at hq
  have := Nat.mul_le_mul_left B (Nat.succ_le_of_lt hq)
  rw [Nat.mul_succ] at this; omega

theorem InBuf.chunk {T B stride len q : Nat} {data : Bytes} (h : InBuf T stride len data) (hd : B ∣ T) (hq : q < T / B) :
    InBuf B stride len (data.drop (q * (B * stride))) := by
  intro k hk
  have := h (B * q + k) (chunk_lt hd hq hk)
  rw [List.length_drop]
  rw [Nat.add_mul, show B * q * stride = q * (B * stride) by ring] at this
  omega

section
variable {B : Par} {w : Nat} {F : Perm → Bytes → Bytes} {view : Bytes → Nat → Bytes} {T : Nat}

theorem changed_fallback (hB : 0 < B.par) (hd : B.par ∣ T) {mem mem' : Bytes} {i : Nat} {s : Bytes}
    (hc : Changed view B.par (slot B.size B.align mem (i / B.par)) (slot B.size B.align mem' (i / B.par)) (i % B.par) s)
    (ho : ∀ k, k ≠ i / B.par → slot B.size B.align mem' k = slot B.size B.align mem k) :
    Changed (fallbackView B view) T mem mem' i s := by
  refine ⟨hc.1, fun k hk hki => ?_⟩
  unfold fallbackView
  by_cases hq : k / B.par = i / B.par
  · rw [hq]
    refine hc.2 _ (Nat.mod_lt _ hB) fun hr => hki ?_
    rw [← Nat.div_add_mod k B.par, hq, hr, Nat.div_add_mod]
  · rw [ho _ hq]

theorem onState_fallback (hB : 0 < B.par) (ha : 0 < B.align) (hd : B.par ∣ T) {mem : Bytes}
    (hm : mem.length = (ofPar B T).size) {i : Nat} (hi : i < T) {f : Bytes → Option Bytes} {g : Bytes}
    (hf : ∃ s, f (slot B.size B.align mem (i / B.par)) = some s ∧ s.length = B.size ∧
      Changed view B.par (slot B.size B.align mem (i / B.par)) s (i % B.par) g) :
    ∃ mem', onState B.size B.align (i / B.par) f mem = some mem' ∧ mem'.length = (ofPar B T).size ∧
      Changed (fallbackView B view) T mem mem' i g := by
  obtain ⟨s, h1, h2, h3⟩ := hf
  obtain ⟨m, e1, e2, e3, e4⟩ := onState_eq ha hm (index_lt hB hd hi) h1 h2
  exact ⟨m, e1, e2.trans hm, changed_fallback hB hd (by rw [e3]; exact h3) e4⟩

theorem loop_fallback (hB : 0 < B.par) (ha : 0 < B.align) (hd : B.par ∣ T) {mem : Bytes}
    (hm : mem.length = (ofPar B T).size) (f : Bytes → Bytes → Option Bytes) (adv : Nat) (data : Bytes)
    (g : Nat → Bytes → Bytes)
    (hf : ∀ q < T / B.par, ∀ s : Bytes, s.length = B.size → ∃ s', f s (data.drop (q * adv)) = some s' ∧
      s'.length = B.size ∧ ∀ k < B.par, view s' k = g (B.par * q + k) (view s k)) :
    ∃ mem', loop B.size B.align f adv 0 (T / B.par) data mem = some mem' ∧ mem'.length = (ofPar B T).size ∧
      ∀ k < T, fallbackView B view mem' k = g k (fallbackView B view mem k) := by
  obtain ⟨m, e1, e2, -, e4⟩ := loop_eq ha f adv (T / B.par)
    (fun q s s' => ∀ k < B.par, view s' k = g (B.par * q + k) (view s k)) (T / B.par) 0 data mem
    (Nat.zero_add _) hm (by simpa using hf)
  refine ⟨m, e1, e2.trans hm, fun k hk => ?_⟩
  have := e4 (k / B.par) (Nat.zero_le _) (index_lt hB hd hk) (k % B.par) (Nat.mod_lt _ hB)
  rwa [Nat.div_add_mod] at this

theorem chunk_div {b q k : Nat} (hk : k < b) : (b * q + k) / b = q := by
  rw [Nat.mul_add_div (by omega), Nat.div_eq_of_lt hk, Nat.add_zero]

theorem chunk_mod {b q k : Nat} (hk : k < b) : (b * q + k) % b = k := by
  rw [Nat.mul_add_mod, Nat.mod_eq_of_lt hk]

theorem fallbackView_chunk {mem : Bytes} {q k : Nat} (hk : k < B.par) :
    fallbackView B view mem (B.par * q + k) = view (slot B.size B.align mem q) k := by
  unfold fallbackView; rw [chunk_div hk, chunk_mod hk]

theorem ofPar_ok (h : Independent B w F view) (hB : 0 < B.par) (ha : 0 < B.align) (hd : B.par ∣ T) :
    Independent (ofPar B T) w F (fallbackView B view) := by
  have hsl : ∀ {mem : Bytes}, mem.length = (ofPar B T).size → ∀ {q : Nat}, q < T / B.par →
    (slot B.size B.align mem q).length = B.size := fun hm _ hq => length_slot ha hm hq
  have hlt : ∀ {x : Nat}, 0 < T → T * x < 2 ^ 32 → B.par * x < 2 ^ 32 := fun h0 hx =>
    lt_of_le_of_lt (Nat.mul_le_mul_right _ (Nat.le_of_dvd h0 hd)) hx
  refine
    { width := fun mem hm k hk => h.width _ (hsl hm (index_lt hB hd hk)) _ (Nat.mod_lt _ hB)
      initAll := fun mem hm => ?_
      addByte := fun mem hm i hi b off ho => ?_
      addBytes := fun mem hm i hi data off ho => ?_
      addLanesAll := fun mem hm data lc lo hlc hlo hin => ?_
      overwriteBytes := fun mem hm i hi data off ho => ?_
      overwriteLanesAll := fun mem hm data lc lo hlc hlo hin => ?_
      overwriteWithZeroes := fun mem hm i hi n hn => ?_
      permuteAll := fun mem hm p => ?_
      extractBytes := fun mem hm i hi off len ho => ?_
      extractLanesAll := fun mem hm out lc lo hlc hlo hle hin => ?_
      extractAndAddBytes := fun mem hm i hi input off ho => ?_
      extractAndAddLanesAll := fun mem hm input out lc lo hlc hlo hle hin hout => ?_ }
  · exact loop_fallback hB ha hd hm (fun s _ => B.initAll s) 0 [] (fun _ _ => Bytes.zeros w)
      (fun q _ s hs => h.initAll s hs)
  · exact onState_fallback hB ha hd hm hi
      (h.addByte _ (hsl hm (index_lt hB hd hi)) _ (Nat.mod_lt _ hB) b off ho)
  · exact onState_fallback hB ha hd hm hi
      (h.addBytes _ (hsl hm (index_lt hB hd hi)) _ (Nat.mod_lt _ hB) data off ho)
  · change T * (lo * B.lane) < 2 ^ 32 at hlo
    by_cases h0 : T = 0
    · subst h0
      exact ⟨mem, by simp [ofPar, loop], hm, fun k hk => absurd hk (Nat.not_lt_zero _)⟩
    have hadv : B.par * lo * B.lane % 2 ^ 32 = B.par * (lo * B.lane) := by
      rw [Nat.mul_assoc, Nat.mod_eq_of_lt (hlt (Nat.pos_of_ne_zero h0) hlo)]
    change ∃ mem', loop B.size B.align _ (B.par * lo * B.lane % 2 ^ 32) 0 _ _ _ = _ ∧ _
    rw [hadv]
    refine loop_fallback hB ha hd hm (fun s data => B.addLanesAll s data lc lo) _ data
      (fun k s => Bytes.xorAt s 0 (Bytes.slice data (k * (lo * B.lane)) (lc * B.lane))) fun q hq s hs => ?_
    obtain ⟨s', e1, e2, e3⟩ := h.addLanesAll s hs (data.drop (q * (B.par * (lo * B.lane)))) lc lo hlc
      (hlt (Nat.pos_of_ne_zero h0) hlo) (InBuf.chunk hin hd hq)
    refine ⟨s', e1, e2, fun k hk => ?_⟩
    rw [e3 k hk, slice_drop, show q * (B.par * (lo * B.lane)) + k * (lo * B.lane) = (B.par * q + k) * (lo * B.lane) by ring]
  · exact onState_fallback hB ha hd hm hi
      (h.overwriteBytes _ (hsl hm (index_lt hB hd hi)) _ (Nat.mod_lt _ hB) data off ho)
  · change T * (lo * B.lane) < 2 ^ 32 at hlo
    by_cases h0 : T = 0
    · subst h0
      exact ⟨mem, by simp [ofPar, loop], hm, fun k hk => absurd hk (Nat.not_lt_zero _)⟩
    have hadv : B.par * lo * B.lane % 2 ^ 32 = B.par * (lo * B.lane) := by
      rw [Nat.mul_assoc, Nat.mod_eq_of_lt (hlt (Nat.pos_of_ne_zero h0) hlo)]
    change ∃ mem', loop B.size B.align _ (B.par * lo * B.lane % 2 ^ 32) 0 _ _ _ = _ ∧ _
    rw [hadv]
    refine loop_fallback hB ha hd hm (fun s data => B.overwriteLanesAll s data lc lo) _ data
      (fun k s => Bytes.setAt s 0 (Bytes.slice data (k * (lo * B.lane)) (lc * B.lane))) fun q hq s hs => ?_
    obtain ⟨s', e1, e2, e3⟩ := h.overwriteLanesAll s hs (data.drop (q * (B.par * (lo * B.lane)))) lc lo hlc
      (hlt (Nat.pos_of_ne_zero h0) hlo) (InBuf.chunk hin hd hq)
    refine ⟨s', e1, e2, fun k hk => ?_⟩
    rw [e3 k hk, slice_drop, show q * (B.par * (lo * B.lane)) + k * (lo * B.lane) = (B.par * q + k) * (lo * B.lane) by ring]
  · exact onState_fallback hB ha hd hm hi
      (h.overwriteWithZeroes _ (hsl hm (index_lt hB hd hi)) _ (Nat.mod_lt _ hB) n hn)
  · exact loop_fallback hB ha hd hm (fun s _ => B.permuteAll p s) 0 [] (fun _ s => F p s)
      (fun q _ s hs => h.permuteAll s hs p)
  · change (getState B.size B.align (i / B.par) mem).bind _ = _
    rw [getState_eq ha hm (index_lt hB hd hi), Option.bind_some]
    exact h.extractBytes _ (hsl hm (index_lt hB hd hi)) _ (Nat.mod_lt _ hB) off len ho
  · change T * (lo * B.lane) < 2 ^ 32 at hlo
    change outLoop B.size B.align _ (lo * B.lane * B.par % 2 ^ 32) mem 0 (T / B.par) [] out = _
    by_cases h0 : T = 0
    · subst h0; rw [Nat.zero_div]; rfl
    rw [Nat.mul_comm, Nat.mod_eq_of_lt (hlt (Nat.pos_of_ne_zero h0) hlo)]
    have := outLoop_eq ha (fun s _ out => B.extractLanesAll s out lc lo) B.par (lo * B.lane) (T / B.par) mem hm []
      (fun k => Bytes.slice (fallbackView B view mem k) 0 (lc * B.lane)) (lc * B.lane) (T / B.par) 0 out
      (Nat.zero_add _) (by rw [Nat.mul_div_cancel' hd]; exact hin) (by
        intro q hq out' hout
        rw [Nat.zero_add]
        refine (h.extractLanesAll _ (hsl hm hq) out' lc lo hlc (hlt (Nat.pos_of_ne_zero h0) hlo) hle hout).trans
          (congrArg some (strided_congr _ _ fun k hk => ?_))
        rw [fallbackView_chunk hk])
    rw [Nat.mul_div_cancel' hd] at this
    exact this
  · change (getState B.size B.align (i / B.par) mem).bind _ = _
    rw [getState_eq ha hm (index_lt hB hd hi), Option.bind_some]
    exact h.extractAndAddBytes _ (hsl hm (index_lt hB hd hi)) _ (Nat.mod_lt _ hB) input off ho
  · change T * (lo * B.lane) < 2 ^ 32 at hlo
    change outLoop B.size B.align _ (lo * B.lane * B.par % 2 ^ 32) mem 0 (T / B.par) input out = _
    by_cases h0 : T = 0
    · subst h0; rw [Nat.zero_div]; rfl
    rw [Nat.mul_comm, Nat.mod_eq_of_lt (hlt (Nat.pos_of_ne_zero h0) hlo)]
    have := outLoop_eq ha (fun s input out => B.extractAndAddLanesAll s input out lc lo) B.par (lo * B.lane)
      (T / B.par) mem hm input
      (fun k => Bytes.xor (Bytes.slice input (k * (lo * B.lane)) (lc * B.lane))
        (Bytes.slice (fallbackView B view mem k) 0 (lc * B.lane))) (lc * B.lane) (T / B.par) 0 out
      (Nat.zero_add _) (by rw [Nat.mul_div_cancel' hd]; exact hout) (by
        intro q hq out' hout'
        rw [Nat.zero_add]
        refine (h.extractAndAddLanesAll _ (hsl hm hq) _ out' lc lo hlc (hlt (Nat.pos_of_ne_zero h0) hlo) hle
          (InBuf.chunk hin hd hq) hout').trans (congrArg some (strided_congr _ _ fun k hk => ?_))
        rw [fallbackView_chunk hk, slice_drop,
          show q * (B.par * (lo * B.lane)) + k * (lo * B.lane) = (B.par * q + k) * (lo * B.lane) by ring])
    rw [Nat.mul_div_cancel' hd] at this
    exact this

end

theorem ofSingle_ok {S : Single} {w : Nat} {F : Perm → Bytes → Bytes} {view : Bytes → Bytes} {T : Nat}
    (h : SingleOk S w F view) (hw : w < 2 ^ 32) (ha : 0 < S.align) :
    Independent (ofSingle S T) w F (fun mem k => view (slot S.size S.align mem k)) := by
  have := ofPar_ok (T := T) (toPar_ok h hw) Nat.one_pos ha (one_dvd T)
  rw [ofSingle_eq]
  have e : fallbackView S.toPar (fun mem _ => view mem) = fun mem k => view (slot S.size S.align mem k) := by
    funext mem k
    unfold fallbackView
    change view (slot S.size S.align mem (k / 1)) = _
    rw [Nat.div_one]
  rwa [e] at this

end PlSnPFallback
