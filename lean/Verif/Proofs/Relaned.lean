import Verif.Model.Relaned
import Verif.Base.Tactics

/-!
The macros of SnP-Relaned.h are correct whenever the functions they are given are.
-/

namespace Relaned

variable {σ : Type}

/-- `lanes` and `inLane` implement the byte-level write `W` (xor or overwrite) on the view of the state. -/
structure WSound (L width : Nat) (view : σ → Bytes) (W : Bytes → Nat → Bytes → Bytes)
    (lanes : σ → Bytes → Nat → Option σ) (inLane : σ → Nat → Bytes → Nat → Nat → Option σ) : Prop where
  lanes : ∀ s data n, n * L ≤ width → n * L ≤ data.length →
    ∃ s', lanes s data n = some s' ∧ view s' = W (view s) 0 (data.take (n * L))
  inLane : ∀ s p data o len, 0 < len → o + len ≤ L → p * L + o + len ≤ width → len ≤ data.length →
    ∃ s', inLane s p data o len = some s' ∧ view s' = W (view s) (p * L + o) (data.take len)

section
variable {L width : Nat} {view : σ → Bytes} {W : Bytes → Nat → Bytes → Bytes}
  {lanes : σ → Bytes → Nat → Option σ} {inLane : σ → Nat → Bytes → Nat → Nat → Option σ}
  (hL : 0 < L)
  (hin : ∀ s p data o len, 0 < len → o + len ≤ L → p * L + o + len ≤ width → len ≤ data.length →
    ∃ s', inLane s p data o len = some s' ∧ view s' = W (view s) (p * L + o) (data.take len))
  (S : WSound L width view W lanes inLane)
  (W_nil : ∀ s o, W s o [] = s) (W_append : ∀ s o d e, W (W s o d) (o + d.length) e = W s o (d ++ e))

include hL hin W_nil W_append in
theorem writeLoop_eq : ∀ (fuel : Nat) (s : σ) (p o : Nat) (data : Bytes) (len : Nat), len < fuel → o < L →
    p * L + o + len ≤ width → len ≤ data.length →
    ∃ s', writeLoop L inLane fuel s p o data len = some s' ∧ view s' = W (view s) (p * L + o) (data.take len) := by
  intro fuel
  induction fuel with
  | zero => intro s p o data len h; omega
  | succ fuel ih =>
    intro s p o data len hf ho hw hd
    unfold writeLoop
    by_cases h0 : len > 0
    · simp only [h0, if_true]
      generalize hb : (if L - o > len then len else L - o) = b
      have hb1 : 0 < b ∧ b ≤ len ∧ o + b ≤ L ∧ (b < len → o + b = L) := by
        split at hb <;> omega
      obtain ⟨b0, b1, b2, b3⟩ := hb1
      obtain ⟨s1, h1, h2⟩ := hin s p data o b b0 b2 (by omega) (by omega)
      rw [h1]
      have hw' : (p + 1) * L + 0 + (len - b) ≤ width ∨ len - b = 0 := by
        by_cases hlt : b < len
        · have := b3 hlt
          have e : (p + 1) * L = p * L + L := by rw [Nat.add_mul, Nat.one_mul]
          omega
        · omega
      by_cases hlt : b < len
      · have e : (p + 1) * L = p * L + L := by rw [Nat.add_mul, Nat.one_mul]
        have := b3 hlt
        obtain ⟨s2, h3, h4⟩ := ih s1 (p + 1) 0 (data.drop b) (len - b) (by omega) hL (by omega)
          (by simp; omega)
        refine ⟨s2, h3, ?_⟩
        have e2 : (p + 1) * L + 0 = p * L + o + (data.take b).length := by
          simp only [List.length_take]; omega
        rw [h4, h2, e2, W_append]
        congr 1
        rw [← List.take_add]
        congr 1; omega
      · have : len = b := by omega
        subst this
        refine ⟨s1, ?_, h2⟩
        cases fuel with
        | zero => omega
        | succ fuel => simp [writeLoop]
    · have : len = 0 := by omega
      subst this
      exact ⟨s, by simp, by simp [W_nil]⟩

include hL S W_nil W_append in
theorem writeBytes_eq (s : σ) (data : Bytes) (offset length : Nat) (hw : offset + length ≤ width)
    (hd : length ≤ data.length) :
    ∃ s', writeBytes L lanes inLane s data offset length = some s' ∧
      view s' = W (view s) offset (data.take length) := by
  unfold writeBytes
  split
  · rename_i h0
    subst h0
    have e := Nat.div_add_mod' length L
    have hm := Nat.mod_lt length hL
    obtain ⟨s1, h1, h2⟩ := S.lanes s data (length / L) (by omega) (by omega)
    rw [h1]
    simp only [Option.bind_eq_bind, Option.bind_some]
    split
    · obtain ⟨s2, h3, h4⟩ := S.inLane s1 (length / L) (data.drop (length / L * L)) 0 (length % L) (by omega)
        (by omega) (by omega) (by simp; omega)
      refine ⟨s2, h3, ?_⟩
      have e2 : length / L * L + 0 = 0 + (data.take (length / L * L)).length := by
        simp only [List.length_take]; omega
      rw [h4, h2, e2, W_append, ← List.take_add, e]
    · refine ⟨s1, rfl, ?_⟩
      rw [h2]
      congr 2
      omega
  · have e := Nat.div_add_mod' offset L
    obtain ⟨s', h1, h2⟩ := writeLoop_eq hL S.inLane W_nil W_append (length + 1) s (offset / L) (offset % L) data length
      (by omega) (Nat.mod_lt _ hL) (by omega) hd
    exact ⟨s', h1, by rw [h2, e]⟩

end

theorem slice_append (s : Bytes) (o m n : Nat) :
    Bytes.slice s o m ++ Bytes.slice s (o + m) n = Bytes.slice s o (m + n) := by
  simp only [Bytes.slice]
  rw [List.take_add, List.drop_drop]

theorem readLoop_eq {L width : Nat} (hL : 0 < L) (v : Bytes) (op : Nat → Nat → Nat → Option Bytes)
    (hop : ∀ p o len, 0 < len → o + len ≤ L → p * L + o + len ≤ width →
      op p o len = some (Bytes.slice v (p * L + o) len)) :
    ∀ (fuel p o len : Nat), len < fuel → o < L → p * L + o + len ≤ width →
    readLoop L op fuel p o len = some (Bytes.slice v (p * L + o) len) := by
  intro fuel
  induction fuel with
  | zero => intro p o len h; omega
  | succ fuel ih =>
    intro p o len hf ho hw
    unfold readLoop
    by_cases h0 : len > 0
    · simp only [h0, if_true]
      generalize hb : (if L - o > len then len else L - o) = b
      have hb1 : 0 < b ∧ b ≤ len ∧ o + b ≤ L ∧ (b < len → o + b = L) := by
        split at hb <;> omega
      obtain ⟨b0, b1, b2, b3⟩ := hb1
      rw [hop p o b b0 b2 (by omega)]
      by_cases hlt : b < len
      · have e : (p + 1) * L = p * L + L := by rw [Nat.add_mul, Nat.one_mul]
        have := b3 hlt
        simp only [Option.bind_eq_bind, Option.bind_some]
        rw [ih (p + 1) 0 (len - b) (by omega) hL (by omega)]
        simp only [Option.bind_some, Option.some.injEq]
        rw [show (p + 1) * L + 0 = p * L + o + b by omega, slice_append]
        congr 1; omega
      · have : len = b := by omega
        subst this
        cases fuel with
        | zero => omega
        | succ fuel => simp [readLoop]
    · have : len = 0 := by omega
      subst this
      simp [Bytes.slice]

theorem extractBytes_eq {L width : Nat} (hL : 0 < L) (ops : LaneOps σ) (s : σ) (v : Bytes)
    (h1 : ∀ n, n * L ≤ width → ops.extractLanes s n = some (Bytes.slice v 0 (n * L)))
    (h2 : ∀ p o len, 0 < len → o + len ≤ L → p * L + o + len ≤ width →
      ops.extractBytesInLane s p o len = some (Bytes.slice v (p * L + o) len))
    (offset length : Nat) (hw : offset + length ≤ width) :
    extractBytes L ops s offset length = some (Bytes.slice v offset length) := by
  unfold extractBytes
  split
  · rename_i h0
    subst h0
    have e := Nat.div_add_mod' length L
    have hm := Nat.mod_lt length hL
    rw [h1 _ (by omega)]
    simp only [Option.bind_eq_bind, Option.bind_some]
    split
    · rw [h2 _ _ _ (by omega) (by omega) (by omega)]
      simp only [Option.bind_some, Option.some.injEq]
      rw [show length / L * L + 0 = 0 + length / L * L by omega, slice_append, e]
    · congr 2; omega
  · have e := Nat.div_add_mod' offset L
    rw [readLoop_eq hL v _ h2 _ _ _ _ (by omega) (Nat.mod_lt _ hL) (by omega), e]

theorem xor_append (a b c d : Bytes) (h : a.length = b.length) :
    Bytes.xor a b ++ Bytes.xor c d = Bytes.xor (a ++ c) (b ++ d) := by
  simp [Bytes.xor, List.zipWith_append h]

theorem xorLoop_eq {L width : Nat} (hL : 0 < L) (v : Bytes) (hv : v.length = width)
    (op : Nat → Bytes → Nat → Nat → Option Bytes)
    (hop : ∀ p d o len, 0 < len → o + len ≤ L → p * L + o + len ≤ width → len ≤ d.length →
      op p d o len = some (Bytes.xor (d.take len) (Bytes.slice v (p * L + o) len))) :
    ∀ (fuel p o : Nat) (d : Bytes) (len : Nat), len < fuel → o < L → p * L + o + len ≤ width → len ≤ d.length →
    xorLoop L op fuel p o d len = some (Bytes.xor (d.take len) (Bytes.slice v (p * L + o) len)) := by
  intro fuel
  induction fuel with
  | zero => intro p o d len h; omega
  | succ fuel ih =>
    intro p o d len hf ho hw hd
    unfold xorLoop
    by_cases h0 : len > 0
    · simp only [h0, if_true]
      generalize hb : (if L - o > len then len else L - o) = b
      have hb1 : 0 < b ∧ b ≤ len ∧ o + b ≤ L ∧ (b < len → o + b = L) := by
        split at hb <;> omega
      obtain ⟨b0, b1, b2, b3⟩ := hb1
      rw [hop p d o b b0 b2 (by omega) (by omega)]
      by_cases hlt : b < len
      · have e : (p + 1) * L = p * L + L := by rw [Nat.add_mul, Nat.one_mul]
        have := b3 hlt
        simp only [Option.bind_eq_bind, Option.bind_some]
        rw [ih (p + 1) 0 (d.drop b) (len - b) (by omega) hL (by omega) (by simp; omega)]
        simp only [Option.bind_some, Option.some.injEq]
        rw [xor_append _ _ _ _ (by simp [Bytes.slice]; omega),
          show (p + 1) * L + 0 = p * L + o + b by omega, slice_append, ← List.take_add,
          show b + (len - b) = len by omega]
      · have : len = b := by omega
        subst this
        cases fuel with
        | zero => omega
        | succ fuel => simp [xorLoop]
    · have : len = 0 := by omega
      subst this
      simp [Bytes.slice, Bytes.xor]

theorem extractAndAddBytes_eq {L width : Nat} (hL : 0 < L) (ops : LaneOps σ) (s : σ) (v : Bytes)
    (hv : v.length = width)
    (h1 : ∀ d n, n * L ≤ width → n * L ≤ d.length →
      ops.extractAndAddLanes s d n = some (Bytes.xor (d.take (n * L)) (Bytes.slice v 0 (n * L))))
    (h2 : ∀ p d o len, 0 < len → o + len ≤ L → p * L + o + len ≤ width → len ≤ d.length →
      ops.extractAndAddBytesInLane s p d o len = some (Bytes.xor (d.take len) (Bytes.slice v (p * L + o) len)))
    (d : Bytes) (offset length : Nat) (hw : offset + length ≤ width) (hd : length ≤ d.length) :
    extractAndAddBytes L ops s d offset length =
      some (Bytes.xor (d.take length) (Bytes.slice v offset length)) := by
  unfold extractAndAddBytes
  split
  · rename_i h0
    subst h0
    have e := Nat.div_add_mod' length L
    have hm := Nat.mod_lt length hL
    rw [h1 _ _ (by omega) (by omega)]
    simp only [Option.bind_eq_bind, Option.bind_some]
    split
    · rw [h2 _ _ _ _ (by omega) (by omega) (by omega) (by simp; omega)]
      simp only [Option.bind_some, Option.some.injEq]
      rw [xor_append _ _ _ _ (by simp [Bytes.slice]; omega),
        show length / L * L + 0 = 0 + length / L * L by omega, slice_append, ← List.take_add, e]
    · have : length / L * L = length := by omega
      rw [this]
  · have e := Nat.div_add_mod' offset L
    rw [xorLoop_eq hL v hv _ h2 _ _ _ _ _ (by omega) (Nat.mod_lt _ hL) (by omega) hd, e]

end Relaned
