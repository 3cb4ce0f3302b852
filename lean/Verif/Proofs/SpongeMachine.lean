import Verif.Model.Sponge
import Verif.Base.Tactics

/-!
Helper lemmas: every sponge function is an iteration of a one-byte machine.
-/

namespace Sponge

variable (P : SnP)

/-- One byte of absorption on a (state, index) pair. -/
def absorbStep (r : Nat) (st : Bytes × Nat) (b : Byte) : Bytes × Nat :=
  let s := Bytes.xorAt st.1 st.2 [b]
  if st.2 + 1 = r then (P.permute s, 0) else (s, st.2 + 1)

/-- Absorb a string byte by byte. -/
def absorbAll (r : Nat) (st : Bytes × Nat) (m : Bytes) : Bytes × Nat :=
  m.foldl (absorbStep P r) st

/-- One byte of squeezing. -/
def squeezeStep (r : Nat) (st : Bytes × Nat) : (Bytes × Nat) × Byte :=
  let st := if st.2 = r then (P.permute st.1, 0) else st
  ((st.1, st.2 + 1), st.1.getD st.2 0)

/-- Squeeze `n` bytes one by one. -/
def squeezeAll (r : Nat) : Nat → Bytes × Nat → (Bytes × Nat) × Bytes
  | 0, st => (st, [])
  | n + 1, st =>
    let (st, b) := squeezeStep P r st
    let (st, out) := squeezeAll r n st
    (st, b :: out)

variable {P}

@[simp] theorem absorbAll_nil (r st) : absorbAll P r st [] = st := rfl

theorem absorbAll_append (r st a b) :
    absorbAll P r st (a ++ b) = absorbAll P r (absorbAll P r st a) b := by
  simp [absorbAll, List.foldl_append]

theorem absorbAll_cons (r st a b) :
    absorbAll P r st (a :: b) = absorbAll P r (absorbStep P r st a) b := rfl

/-- A piece that does not fill the block. -/
theorem absorbAll_lt (r : Nat) (s : Bytes) (idx : Nat) (d : Bytes) (h : idx + d.length < r) :
    absorbAll P r (s, idx) d = (Bytes.xorAt s idx d, idx + d.length) := by
  induction d generalizing s idx with
  | nil => simp
  | cons b d ih =>
    simp only [List.length_cons] at h
    rw [absorbAll_cons, absorbStep]
    simp only
    rw [if_neg (by omega), ih _ _ (by omega)]
    have := Bytes.xorAt_append s idx [b] d
    simp at this
    rw [this]; simp; omega

/-- A piece that exactly fills the block. -/
theorem absorbAll_fill (r : Nat) (s : Bytes) (idx : Nat) (d : Bytes) (h0 : d ≠ [])
    (h : idx + d.length = r) :
    absorbAll P r (s, idx) d = (P.permute (Bytes.xorAt s idx d), 0) := by
  obtain ⟨d', b, rfl⟩ : ∃ d' b, d = d' ++ [b] :=
    ⟨d.dropLast, d.getLast h0, (List.dropLast_concat_getLast h0).symm⟩
  simp only [List.length_append, List.length_singleton] at h
  rw [absorbAll_append, absorbAll_lt r s idx d' (by omega)]
  simp only [absorbAll, List.foldl_cons, List.foldl_nil, absorbStep]
  rw [if_pos (by omega), Bytes.xorAt_append]

theorem absorbAll_len (hP : P.Valid) (r : Nat) (st : Bytes × Nat) (d : Bytes)
    (h : st.1.length = P.width) : (absorbAll P r st d).1.length = P.width := by
  induction d generalizing st with
  | nil => simpa
  | cons b d ih =>
    rw [absorbAll_cons]
    apply ih
    simp only [absorbStep]
    split <;> simp [h, hP.permute_len]

theorem absorbAll_idx (r : Nat) (st : Bytes × Nat) (d : Bytes)
    (h : st.2 < r) : (absorbAll P r st d).2 < r := by
  induction d generalizing st with
  | nil => simpa
  | cons b d ih =>
    rw [absorbAll_cons]
    apply ih
    simp only [absorbStep]
    split <;> simp <;> omega

theorem absorbAll_idx_eq (r : Nat) (hr : 0 < r) (st : Bytes × Nat) (d : Bytes)
    (h : st.2 < r) : (absorbAll P r st d).2 = (st.2 + d.length) % r := by
  induction d generalizing st with
  | nil => simp [Nat.mod_eq_of_lt h]
  | cons b d ih =>
    rw [absorbAll_cons]
    simp only [absorbStep]
    split
    · rename_i h1
      rw [ih _ (by simpa using hr)]
      simp only [List.length_cons]
      have : st.2 + (d.length + 1) = d.length + r := by omega
      rw [this]; simp
    · rw [ih _ (by simp; omega)]
      simp only [List.length_cons]
      congr 1; omega

theorem absorbWhole_eq (hP : P.Valid) {r : Nat} (hr : 0 < r) (hrw : r ≤ P.width) :
    ∀ (fuel : Nat) (s cur : Bytes), cur.length < fuel → s.length = P.width →
    ∃ s' rest, absorbWhole P r fuel s cur = some (s', rest) ∧ rest.length < r ∧
      s'.length = P.width ∧ absorbAll P r (s, 0) cur = absorbAll P r (s', 0) rest ∧
      rest = cur.drop (cur.length / r * r) := by
  intro fuel
  induction fuel with
  | zero => intro s cur h; omega
  | succ fuel ih =>
    intro s cur hf hs
    rw [absorbWhole]
    by_cases h : cur.length ≥ r
    · rw [if_pos h]
      have hl : (cur.take r).length = r := by simp; omega
      simp only [SnP.readBuf, SnP.addBytes, h, if_true, hl, hs, Nat.zero_add, hrw,
        Option.bind_eq_bind, Option.bind_some]
      obtain ⟨s', rest, h1, h2, h3, h4, h5⟩ :=
        ih (P.permute (Bytes.xorAt s 0 (cur.take r))) (cur.drop r) (by simp; omega)
          (hP.permute_len _ (by simpa))
      refine ⟨s', rest, h1, h2, h3, ?_, ?_⟩
      · rw [← h4]
        conv_lhs => rw [← List.take_append_drop r cur]
        rw [absorbAll_append, absorbAll_fill r s 0 (cur.take r) (by
          intro h0; rw [h0] at hl; simp at hl; omega) (by omega)]
      · rw [h5]
        simp only [List.length_drop, List.drop_drop]
        congr 1
        obtain ⟨k, hk⟩ : ∃ k, cur.length = k + r := ⟨cur.length - r, by omega⟩
        rw [hk, Nat.add_sub_cancel, Nat.add_div_right _ hr, Nat.succ_mul]
        omega
    · rw [if_neg h]
      refine ⟨s, cur, rfl, by omega, hs, rfl, ?_⟩
      rw [Nat.div_eq_of_lt (by omega)]; simp

theorem absorbBlocks_eq (hP : P.Valid) {r : Nat} (hr : 0 < r) :
    ∀ (n : Nat) (s data : Bytes), s.length = P.width → n * r ≤ data.length →
      absorbAll P r (s, 0) data =
        absorbAll P r (SnP.absorbBlocks P.permute r n s data, 0) (data.drop (n * r)) ∧
      (SnP.absorbBlocks P.permute r n s data).length = P.width := by
  intro n
  induction n with
  | zero => intro s data hs _; simp [SnP.absorbBlocks, hs]
  | succ n ih =>
    intro s data hs hn
    rw [Nat.succ_mul] at hn
    have hl : (data.take r).length = r := by simp; omega
    obtain ⟨h1, h2⟩ := ih (P.permute (Bytes.xorAt s 0 (data.take r))) (data.drop r)
      (hP.permute_len _ (by simpa)) (by simp; omega)
    simp only [SnP.absorbBlocks]
    refine ⟨?_, h2⟩
    conv_lhs => rw [← List.take_append_drop r data]
    rw [absorbAll_append, absorbAll_fill r s 0 (data.take r) (by
      intro h0; rw [h0] at hl; simp at hl; omega) (by omega), h1]
    rw [List.drop_drop]
    congr 2
    rw [Nat.succ_mul]; omega

/-- The absorbing loop is the byte machine. -/
theorem absorbLoop_eq (hP : P.Valid) {r : Nat} (hr : 0 < r) (hrw : r ≤ P.width) :
    ∀ (fuel : Nat) (s : Bytes) (idx : Nat) (cur : Bytes), cur.length < fuel →
      s.length = P.width → idx < r →
      absorbLoop P r fuel s idx cur = some (absorbAll P r (s, idx) cur) := by
  intro fuel
  induction fuel with
  | zero => intro s idx cur h; omega
  | succ fuel ih =>
    intro s idx cur hf hs hi
    rw [absorbLoop]
    by_cases hc : 0 < cur.length
    · rw [if_pos hc]
      by_cases hw : idx = 0 ∧ cur.length ≥ r
      · rw [if_pos hw]
        obtain ⟨rfl, hw⟩ := hw
        have slow : (do
            let (s, cur) ← absorbWhole P r (cur.length + 1) s cur
            absorbLoop P r fuel s 0 cur) = some (absorbAll P r (s, 0) cur) := by
          obtain ⟨s', rest, h1, h2, h3, h4, h5⟩ :=
            absorbWhole_eq hP hr hrw (cur.length + 1) s cur (by omega) hs
          rw [h1]
          simp only [Option.bind_eq_bind, Option.bind_some]
          rw [ih _ _ _ (by omega) h3 (by omega), h4]
        split
        · rename_i F hF
          split
          · rename_i hlane
            have hlb : r / P.laneBytes * P.laneBytes = r := Nat.div_mul_cancel (Nat.dvd_of_mod_eq_zero hlane)
            have hfast := hP.fast_ok F hF s (r / P.laneBytes) cur hs (by omega) (by omega)
            rw [hlb] at hfast
            rw [hfast]
            simp only
            have hmul : cur.length / r * r ≤ cur.length := Nat.div_mul_le_self _ _
            have hpos : 0 < cur.length / r * r := by
              have : 1 ≤ cur.length / r := (Nat.one_le_div_iff hr).2 hw
              exact Nat.mul_pos (by omega) hr
            obtain ⟨h1, h2⟩ := absorbBlocks_eq hP hr (cur.length / r) s cur hs hmul
            rw [ih _ _ _ (by simp; omega) h2 hr, ← h1]
          · exact slow
        · exact slow
      · rw [if_neg hw]
        by_cases hp : cur.length > r - idx
        · have hl : (cur.take (r - idx)).length = r - idx := by simp; omega
          have hle : r - idx ≤ cur.length := by omega
          have hadd : idx + (r - idx) = r := by omega
          simp only [hp, if_true, SnP.readBuf, SnP.addBytes, hl, hs, hle, hadd, hrw,
            Option.bind_eq_bind, Option.bind_some]
          rw [ih _ _ _ (by simp; omega) (hP.permute_len _ (by simpa)) hr]
          conv_rhs => rw [← List.take_append_drop (r - idx) cur]
          rw [absorbAll_append, absorbAll_fill r s idx (cur.take (r - idx)) (by
            intro h0; rw [h0] at hl; simp at hl; omega) (by omega)]
        · have hb : idx + cur.length ≤ P.width := by omega
          simp only [hp, if_false, SnP.readBuf, SnP.addBytes, Nat.le_refl, if_true,
            List.take_length, hs, hb, Option.bind_eq_bind, Option.bind_some, List.drop_length]
          have hne : cur ≠ [] := by intro h0; simp [h0] at hc
          by_cases hfill : idx + cur.length = r
          · rw [if_pos hfill, ih _ _ _ (by simp; omega) (hP.permute_len _ (by simpa)) hr,
              absorbAll_fill r s idx cur hne hfill]
            rfl
          · rw [if_neg hfill, ih _ _ _ (by simp; omega) (by simpa) (by omega),
              absorbAll_lt r s idx cur (by omega)]
            rfl
    · rw [if_neg hc]
      have : cur = [] := by
        cases cur with
        | nil => rfl
        | cons => simp at hc
      subst this; rfl

/-! ### Squeezing -/

@[simp] theorem squeezeAll_zero (r st) : squeezeAll P r 0 st = (st, []) := rfl

theorem squeezeAll_succ (r n st) : squeezeAll P r (n + 1) st =
    ((squeezeAll P r n (squeezeStep P r st).1).1,
     (squeezeStep P r st).2 :: (squeezeAll P r n (squeezeStep P r st).1).2) := rfl

theorem squeezeAll_add (r m n st) : squeezeAll P r (m + n) st =
    ((squeezeAll P r n (squeezeAll P r m st).1).1,
     (squeezeAll P r m st).2 ++ (squeezeAll P r n (squeezeAll P r m st).1).2) := by
  induction m generalizing st with
  | zero => simp
  | succ m ih =>
    rw [Nat.succ_add, squeezeAll_succ, squeezeAll_succ, ih]
    simp

@[simp] theorem length_squeezeAll (r n st) : (squeezeAll P r n st).2.length = n := by
  induction n generalizing st with
  | zero => rfl
  | succ n ih => rw [squeezeAll_succ]; simp [ih]

theorem squeezeAll_inv (hP : P.Valid) (r n : Nat) (hr : 0 < r) (st : Bytes × Nat)
    (hs : st.1.length = P.width) (hi : st.2 ≤ r) :
    (squeezeAll P r n st).1.1.length = P.width ∧ (squeezeAll P r n st).1.2 ≤ r := by
  induction n generalizing st with
  | zero => exact ⟨hs, hi⟩
  | succ n ih =>
    rw [squeezeAll_succ]
    apply ih
    · simp only [squeezeStep]; split <;> simp [hs, hP.permute_len]
    · simp only [squeezeStep]; split
      · simp; omega
      · omega

/-- Within a block, squeezing is slicing. -/
theorem squeezeAll_block (r n : Nat) (s : Bytes) (idx : Nat) (h : idx + n ≤ r) (hs : r ≤ s.length) :
    squeezeAll P r n (s, idx) = ((s, idx + n), Bytes.slice s idx n) := by
  induction n generalizing idx with
  | zero => simp [Bytes.slice]
  | succ n ih =>
    rw [squeezeAll_succ]
    have hne : idx ≠ r := by omega
    simp only [squeezeStep, hne, if_false]
    rw [ih _ (by omega)]
    have h1 : idx < s.length := by omega
    simp only [Bytes.slice, Prod.mk.injEq, true_and]
    constructor
    · omega
    · rw [List.drop_eq_getElem_cons h1, List.take_succ_cons]
      simp [List.getD_eq_getElem?_getD, h1]

theorem squeezeAll_full (r n : Nat) (hr : 0 < r) (s : Bytes) :
    squeezeAll P r (n + 1) (s, r) = squeezeAll P r (n + 1) (P.permute s, 0) := by
  rw [squeezeAll_succ, squeezeAll_succ]
  have : squeezeStep P r (s, r) = squeezeStep P r (P.permute s, 0) := by
    have : ¬ (0 = r) := by omega
    simp [squeezeStep, this]
  rw [this]

theorem squeezeWhole_eq (hP : P.Valid) {r : Nat} (hr : 0 < r) (hrw : r ≤ P.width) :
    ∀ (fuel : Nat) (s : Bytes) (j : Nat), j < fuel → s.length = P.width →
    ∃ s', squeezeWhole P r fuel s j = some (s', (squeezeAll P r (j / r * r) (s, r)).2, j % r) ∧
      s'.length = P.width ∧ (squeezeAll P r (j / r * r) (s, r)).1 = (s', r) := by
  intro fuel
  induction fuel with
  | zero => intro s j h; omega
  | succ fuel ih =>
    intro s j hf hs
    rw [squeezeWhole]
    by_cases h : j ≥ r
    · rw [if_pos h]
      have hp := hP.permute_len s hs
      obtain ⟨s', h1, h2, h3⟩ := ih (P.permute s) (j - r) (by omega) hp
      simp only [SnP.extractBytes, Nat.zero_add, hp, hrw, if_true, Option.bind_eq_bind,
        Option.bind_some, h1]
      have hblk : squeezeAll P r r (s, r) = ((P.permute s, r), Bytes.slice (P.permute s) 0 r) := by
        obtain ⟨k, rfl⟩ : ∃ k, r = k + 1 := ⟨r - 1, by omega⟩
        rw [squeezeAll_full _ _ hr, squeezeAll_block _ _ _ _ (by omega) (by omega)]
        simp
      have hdiv : j / r * r = r + (j - r) / r * r := by
        obtain ⟨k, rfl⟩ : ∃ k, j = k + r := ⟨j - r, by omega⟩
        rw [Nat.add_sub_cancel, Nat.add_div_right _ hr, Nat.succ_mul]; omega
      have hmod : (j - r) % r = j % r := by
        obtain ⟨k, rfl⟩ : ∃ k, j = k + r := ⟨j - r, by omega⟩
        simp
      refine ⟨s', ?_, h2, ?_⟩
      · rw [hdiv, squeezeAll_add, hblk, hmod]
      · rw [hdiv, squeezeAll_add, hblk]; exact h3
    · rw [if_neg h]
      have : j / r = 0 := Nat.div_eq_of_lt (by omega)
      exact ⟨s, by simp [this, Nat.mod_eq_of_lt (by omega : j < r)], hs, by simp [this]⟩

/-- The squeezing loop is the byte machine. -/
theorem squeezeLoop_eq (hP : P.Valid) {r : Nat} (hr : 0 < r) (hrw : r ≤ P.width) :
    ∀ (fuel : Nat) (s : Bytes) (idx : Nat) (n : Nat), n < fuel →
      s.length = P.width → idx ≤ r →
      squeezeLoop P r fuel s idx n =
        some ((squeezeAll P r n (s, idx)).1.1, (squeezeAll P r n (s, idx)).1.2,
          (squeezeAll P r n (s, idx)).2) := by
  intro fuel
  induction fuel with
  | zero => intro s idx n h; omega
  | succ fuel ih =>
    intro s idx n hf hs hi
    rw [squeezeLoop]
    by_cases hn : 0 < n
    · rw [if_pos hn]
      by_cases hw : idx = r ∧ n ≥ r
      · rw [if_pos hw]
        obtain ⟨rfl, hw⟩ := hw
        obtain ⟨s', h1, h2, h3⟩ := squeezeWhole_eq hP hr hrw (n + 1) s n (by omega) hs
        have hlt : n % idx < idx := Nat.mod_lt _ hr
        simp only [h1, Option.bind_eq_bind, Option.bind_some]
        rw [ih _ _ _ (by omega) h2 (by omega)]
        simp only [Option.bind_some]
        have hsplit : n = n / idx * idx + n % idx := by
          rw [Nat.mul_comm]; exact (Nat.div_add_mod n idx).symm
        conv_rhs => rw [hsplit, squeezeAll_add, h3]
      · rw [if_neg hw]
        -- normalise the index
        have key : ∀ (s : Bytes) (idx : Nat), s.length = P.width → idx < r →
            (do
              let partialBlock := if n > r - idx then r - idx else n
              let out ← SnP.extractBytes s idx partialBlock
              let (s, idx, out') ← squeezeLoop P r fuel s (idx + partialBlock) (n - partialBlock)
              some (s, idx, out ++ out')) =
            some ((squeezeAll P r n (s, idx)).1.1, (squeezeAll P r n (s, idx)).1.2,
              (squeezeAll P r n (s, idx)).2) := by
          intro s idx hs hi
          generalize hp : (if n > r - idx then r - idx else n) = p
          have hp1 : p ≤ n ∧ idx + p ≤ r ∧ 0 < p := by
            split at hp <;> omega
          obtain ⟨hp1, hp2, hp3⟩ := hp1
          have hb : idx + p ≤ s.length := by omega
          simp only [SnP.extractBytes, hb, if_true, Option.bind_eq_bind, Option.bind_some]
          rw [ih _ _ _ (by omega) hs (by omega)]
          simp only [Option.bind_some]
          have hsplit : n = p + (n - p) := by omega
          conv_rhs => rw [hsplit, squeezeAll_add, squeezeAll_block _ _ _ _ hp2 (by omega)]
        by_cases hir : idx = r
        · subst hir
          simp only [if_true]
          rw [key _ _ (hP.permute_len _ hs) hr]
          obtain ⟨k, rfl⟩ : ∃ k, n = k + 1 := ⟨n - 1, by omega⟩
          rw [squeezeAll_full _ _ hr]
        · simp only [hir, if_false]
          exact key s idx hs (by omega)
    · rw [if_neg hn]
      have : n = 0 := by omega
      subst this; rfl

/-- The output loop of the one-call function is the byte machine started at index 0. -/
theorem outputLoop_eq (hP : P.Valid) {r : Nat} (hr : 0 < r) (hrw : r ≤ P.width) :
    ∀ (fuel : Nat) (s : Bytes) (n : Nat), n < fuel → s.length = P.width →
      outputLoop P r fuel s n = some (squeezeAll P r n (s, 0)).2 := by
  intro fuel
  induction fuel with
  | zero => intro s n h; omega
  | succ fuel ih =>
    intro s n hf hs
    rw [outputLoop]
    by_cases h : n > r
    · rw [if_pos h]
      simp only [SnP.extractBytes, Nat.zero_add, hs, hrw, if_true, Option.bind_eq_bind,
        Option.bind_some]
      rw [ih _ _ (by omega) (hP.permute_len _ hs)]
      simp only [Option.bind_some]
      obtain ⟨k, rfl⟩ : ∃ k, n = r + (k + 1) := ⟨n - r - 1, by omega⟩
      rw [squeezeAll_add, squeezeAll_block r r s 0 (by omega) (by omega)]
      simp only [Nat.zero_add]
      rw [squeezeAll_full _ _ hr]
      simp
    · rw [if_neg h]
      rw [squeezeAll_block _ _ _ _ (by omega) (by omega)]
      simp only [SnP.extractBytes]
      rw [if_pos (by omega)]

end Sponge
