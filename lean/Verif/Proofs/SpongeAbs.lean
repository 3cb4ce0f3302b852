import Verif.Proofs.SpongeFun

/-!
Helper lemmas for the modes built on the sponge: instances in canonical form, determined by what has been
absorbed and how much has been squeezed.
-/

namespace Sponge

/-- The instance with rate `r` bytes that has absorbed `m`. -/
def absd (P : SnP) (r : Nat) (m : Bytes) : SpongeInst where
  state := (absorbAll P r (P.init, 0) m).1
  rate := 8 * r
  byteIOIndex := (absorbAll P r (P.init, 0) m).2
  squeezing := false

/-- The instance with rate `r` bytes that has absorbed `m` and the delimited suffix `d`, and from which `k`
bytes have been squeezed. -/
def sqd (P : SnP) (r : Nat) (m : Bytes) (d : Byte) (k : Nat) : SpongeInst where
  state := (squeezeAll P r k (finish P r (absorbAll P r (P.init, 0) m) d, 0)).1.1
  rate := 8 * r
  byteIOIndex := (squeezeAll P r k (finish P r (absorbAll P r (P.init, 0) m) d, 0)).1.2
  squeezing := true

/-- The first `n` bytes of output. -/
def out (P : SnP) (r : Nat) (m : Bytes) (d : Byte) (n : Nat) : Bytes :=
  (squeezeAll P r n (finish P r (absorbAll P r (P.init, 0) m) d, 0)).2

variable {P : SnP}

@[simp] theorem length_out (r m d n) : (out P r m d n).length = n := by simp [out]

@[simp] theorem absd_squeezing (r m) : (absd P r m).squeezing = false := rfl
@[simp] theorem sqd_squeezing (r m d k) : (sqd P r m d k).squeezing = true := rfl

theorem out_add (r m d k n) : out P r m d (k + n) = out P r m d k ++ (out P r m d (k + n)).drop k := by
  have : (out P r m d (k + n)).take k = out P r m d k := by
    unfold out
    rw [squeezeAll_add]
    simp
  conv_lhs => rw [← List.take_append_drop k (out P r m d (k + n)), this]

theorem out_take (r m d k n) (h : k ≤ n) : (out P r m d n).take k = out P r m d k := by
  obtain ⟨j, rfl⟩ : ∃ j, n = k + j := ⟨n - k, by omega⟩
  rw [out_add]; simp

theorem absd_WF (hP : P.Valid) {r : Nat} (hr : 0 < r) (hrw : r ≤ P.width) (m : Bytes) :
    WF P (absd P r m) := by
  have e : 8 * r / 8 = r := by omega
  have h := absorbAll_idx (P := P) r (P.init, 0) m hr
  exact ⟨absorbAll_len hP _ _ _ (by simp [SnP.init]), by simp [absd, e, hr], by simp [absd, e, hrw],
    by simp only [absd, e]; omega, fun _ => by simp only [absd, e]; omega⟩

theorem sqd_WF (hP : P.Valid) {r : Nat} (hr : 0 < r) (hrw : r ≤ P.width) (m : Bytes) (d k) :
    WF P (sqd P r m d k) := by
  have e : 8 * r / 8 = r := by omega
  have h1 : (finish P r (absorbAll P r (P.init, 0) m) d).length = P.width :=
    finish_len hP _ _ (absorbAll_len hP _ _ _ (by simp [SnP.init])) d
  obtain ⟨h2, h3⟩ := squeezeAll_inv hP r k hr (finish P r (absorbAll P r (P.init, 0) m) d, 0) h1
    (Nat.zero_le _)
  exact ⟨h2, by simp [sqd, e, hr], by simp [sqd, e, hrw], by simp only [sqd, e]; exact h3,
    fun h => by simp at h⟩

theorem spongeInit_absd {mem : SpongeInst} {rate capacity : BitVec 32} {r : Nat}
    (hb : badParams P rate capacity = false) (hr : rate.toNat = 8 * r) :
    spongeInit P mem rate capacity = (0, absd P r []) := by
  simp [spongeInit, hb, absd, hr]

theorem absorb_absd (hP : P.Valid) {r : Nat} (hr : 0 < r) (hrw : r ≤ P.width) (m x : Bytes) :
    absorb P (absd P r m) x = some (0, absd P r (m ++ x)) := by
  rw [absorb_eq hP (absd_WF hP hr hrw m) rfl]
  have e : 8 * r / 8 = r := by omega
  simp only [absd, e, absorbAll_append]

theorem lastFewBits_absd (hP : P.Valid) {r : Nat} (hr : 0 < r) (hrw : r ≤ P.width) (m : Bytes)
    (d : Byte) (hd : d ≠ 0) :
    absorbLastFewBits P (absd P r m) d = some (0, sqd P r m d 0) := by
  rw [lastFewBits_eq (absd_WF hP hr hrw m) hP rfl d hd]
  have e : 8 * r / 8 = r := by omega
  simp only [absd, sqd, e, squeezeAll_zero]

theorem squeeze_sqd (hP : P.Valid) {r : Nat} (hr : 0 < r) (hrw : r ≤ P.width) (m : Bytes)
    (d : Byte) (k n : Nat) :
    squeeze P (sqd P r m d k) n = some (0, sqd P r m d (k + n), (out P r m d (k + n)).drop k) := by
  rw [squeeze_eq hP (sqd_WF hP hr hrw m d k) rfl]
  have e : 8 * r / 8 = r := by omega
  simp only [sqd, out, e, squeezeAll_add]
  rw [List.drop_append_of_le_length (by simp)]
  simp

theorem squeeze_absd (hP : P.Valid) {r : Nat} (hr : 0 < r) (hrw : r ≤ P.width) (m : Bytes) (n : Nat) :
    squeeze P (absd P r m) n = some (0, sqd P r m 0x01 n, out P r m 0x01 n) := by
  rw [squeeze_absorbing rfl (lastFewBits_absd hP hr hrw m 0x01 (by decide)) rfl,
    squeeze_sqd hP hr hrw]
  simp

theorem sponge_out (hP : P.Valid) (hw : P.width * 8 < 2 ^ 32) {rate capacity : BitVec 32} {r : Nat}
    (hb : badParams P rate capacity = false) (hr : rate.toNat = 8 * r) (m : Bytes) (d : Byte)
    (hd : d ≠ 0) (n : Nat) :
    sponge P rate capacity m d n = some (0, out P r m d n) := by
  rw [sponge_eq hP hw hb m d hd n]
  have e : rate.toNat / 8 = r := by omega
  rw [e]; rfl

theorem out_spec (hP : P.Valid) (fb : Bits → Bits)
    (hf : ∀ s : Bytes, s.length = P.width → fb (Bits.ofBytes s) = Bits.ofBytes (P.permute s))
    {r : Nat} (hr : 0 < r) (hrw : r ≤ P.width) (m : Bytes) (l : Bits) (d : Byte)
    (hd : Bits.DelimitedBy l d) (n : Nat) :
    Bits.ofBytes (out P r m d n) =
      Spec.sponge (8 * P.width) fb (8 * r) (Bits.ofBytes m ++ l) (8 * n) :=
  machine_eq_spec hP fb hf hr hrw m l d hd n

theorem out_spec_bits (hP : P.Valid) (fb : Bits → Bits)
    (hf : ∀ s : Bytes, s.length = P.width → fb (Bits.ofBytes s) = Bits.ofBytes (P.permute s))
    {r : Nat} (hr : 0 < r) (hrw : r ≤ P.width) (m : Bytes) (l : Bits) (d : Byte)
    (hd : Bits.DelimitedBy l d) (n k : Nat) (hk : k ≤ 8 * n) :
    (Bits.ofBytes (out P r m d n)).take k =
      Spec.sponge (8 * P.width) fb (8 * r) (Bits.ofBytes m ++ l) k :=
  machine_eq_spec_bits hP fb hf hr hrw m l d hd n k hk

theorem absd_idx {r : Nat} (hr : 0 < r) (m : Bytes) : (absd P r m).byteIOIndex = m.length % r := by
  simp only [absd]
  rw [absorbAll_idx_eq r hr _ _ (by simpa)]; simp

/-- Moving the index of an absorbing instance forward is absorbing zero bytes. -/
theorem absorb_skip {r : Nat} (hr : 0 < r) (m : Bytes) (k : Nat)
    (hk : m.length % r + k < r) :
    { absd P r m with byteIOIndex := m.length % r + k } = absd P r (m ++ Bytes.zeros k) := by
  have hidx := absd_idx (P := P) hr m
  simp only [absd] at hidx ⊢
  rw [absorbAll_append]
  generalize absorbAll P r (P.init, 0) m = st at *
  obtain ⟨s, idx⟩ := st
  simp only at hidx
  subst hidx
  rw [absorbAll_lt _ _ _ _ (by simpa using hk)]
  simp [xorAt_zeros]

end Sponge
