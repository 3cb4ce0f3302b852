import Verif.Proofs.DuplexStep
import Verif.Spec.PRG

/-!
Helper lemmas for SpongePRG: the loops of the model do what the byte-by-byte specification says.
-/

namespace SpongePRG
open Duplex
open Spec.PRG (rho dup feedByte fetchByte)
open Spec.Duplex (trailing piece)

variable {P : SnP}

/-- The generator represents the abstract state. -/
structure GRep (P : SnP) (f : Bits → Bits) (s : Spec.Duplex.State) (i : DuplexInst) : Prop where
  rep : Rep P f s i
  rho_pos : 0 < rho i.rate
  q_lt : s.queue.length < 8 * rho i.rate
  q_nil : s.out < rho i.rate → s.queue = []

/-- The representation determines the instance. -/
theorem rep_unique {f : Bits → Bits} {s : Spec.Duplex.State} {i j : DuplexInst} (hi : Rep P f s i)
    (hj : Rep P f s j) (hr : i.rate = j.rate) : i = j := by
  have h1 : i.state = j.state := by
    apply Bits.ofBytes_injective
    apply Spec.Duplex.ext_getD
    · rw [Bits.length_ofBytes, Bits.length_ofBytes, hi.len, hj.len]
    · intro k _
      rw [hi.bits, hj.bits, hr]
  have h2 : i.byteInputIndex = j.byteInputIndex := by
    have := hi.inIdx; have := hj.inIdx; omega
  have h3 : i.byteOutputIndex = j.byteOutputIndex := hi.outIdx.trans hj.outIdx.symm
  cases i; cases j
  simp only at h1 h2 h3 hr
  rw [h1, h2, h3, hr]

theorem rhoInBytes_eq (hw : P.width ≤ 2 ^ 20) {i : DuplexInst} (h : Inv P i) : rhoInBytes i = rho i.rate := by
  have h1 := h.rate_ge; have h2 := h.rate_le
  unfold rhoInBytes rho
  rw [sub32_eq (by omega) (by omega)]

section
variable {f : Bits → Bits} {s : Spec.Duplex.State} {i : DuplexInst} (hw : P.width ≤ 2 ^ 20) (hP : P.Valid)
  (hf : ∀ s : Bytes, s.length = P.width → f (Bits.ofBytes s) = Bits.ofBytes (P.permute s))
include hw hP hf

/-- `Duplexing(0, 0, 0, 0, 0x01)`. -/
theorem dup_step (h : Rep P f s i) (_hrho : 0 < rho i.rate) :
    ∃ i', duplexing P i [] 0 0x01 = some (0, i', []) ∧ Rep P f (dup s) i' ∧ i'.rate = i.rate := by
  have h1 := h.rate_ge; have h4 := h.qle
  have htr : trailing 0x01 = [] := by decide
  obtain ⟨i', out, e1, e2, e3, e4⟩ := duplexing_step hw hP hf h [] (by simp) 0 0x01 (by
    intro _; right; rw [htr]; simp; omega)
  have hcond : (0x01 : Byte) ≠ 0 ∧ s.queue.length + 8 * ([] : Bytes).length + (trailing 0x01).length ≤ i.rate - 2 ∧
      0 ≤ (i.rate + 7) / 8 := ⟨by decide, by rw [htr]; simp; omega, by omega⟩
  simp only [Spec.Duplex.step] at e1 e2 e4
  rw [if_pos hcond] at e1 e2 e4
  have hout : out = [] := by
    have := congrArg List.length e4
    rw [Bits.length_ofBytes] at this
    unfold piece at this
    simp only [Nat.mul_zero, List.take_zero, List.length_append, List.length_nil, List.length_replicate] at this
    exact List.eq_nil_of_length_eq_zero (by omega)
  rw [hout] at e1
  refine ⟨i', e1, ?_, e3⟩
  simp only [htr, List.append_nil, Bits.ofBytes_nil] at e2
  exact e2

omit hP hf in
theorem feedPartial_ok (h : Rep P f s i) (x : Bytes) (hx : s.queue.length + 8 * x.length ≤ i.rate - 2) :
    ∃ i', feedPartialInput i x = some (0, i') ∧
      Rep P f { s with queue := s.queue ++ Bits.ofBytes x } i' ∧ i'.rate = i.rate := by
  have h2 := h.rate_le
  obtain ⟨i', h1, h2, h3⟩ := feed_step hw h x (by omega)
  unfold Spec.Duplex.enqueue at h1 h2
  rw [Bits.length_ofBytes, if_pos hx] at h1 h2
  exact ⟨i', h1, h2, h3⟩

omit hw hP hf in
/-- Feeding bytes that do not fill the block. -/
theorem foldl_feed_short (r : Nat) : ∀ (x : Bytes) (s : Spec.Duplex.State),
    s.queue.length + 8 * x.length < 8 * rho r →
    x.foldl (feedByte r) s = { s with queue := s.queue ++ Bits.ofBytes x }
  | [], s, _ => by simp
  | b :: x, s, h => by
    have hl : (b :: x).length = x.length + 1 := rfl
    rw [List.foldl_cons, show feedByte r s b = { s with queue := s.queue ++ Bits.ofByte b } by
      unfold feedByte
      simp only
      rw [if_neg (by rw [List.length_append, Bits.length_ofByte]; omega)],
      foldl_feed_short r x _ (by simp only [List.length_append, Bits.length_ofByte]; omega)]
    simp

omit hw hP hf in
/-- Feeding the bytes that complete the block. -/
theorem foldl_feed_full (r : Nat) : ∀ (x : Bytes) (s : Spec.Duplex.State), x ≠ [] →
    s.queue.length + 8 * x.length = 8 * rho r →
    x.foldl (feedByte r) s = dup { s with queue := s.queue ++ Bits.ofBytes x }
  | [], s, h, _ => absurd rfl h
  | [b], s, _, h => by
    simp only [List.length_singleton] at h
    simp only [List.foldl_cons, List.foldl_nil, feedByte]
    rw [if_pos (by rw [List.length_append, Bits.length_ofByte]; omega)]
    simp
  | b :: c :: x, s, _, h => by
    have hl : (b :: c :: x).length = x.length + 2 := rfl
    have hl' : (c :: x).length = x.length + 1 := rfl
    rw [List.foldl_cons, show feedByte r s b = { s with queue := s.queue ++ Bits.ofByte b } by
      unfold feedByte
      simp only
      rw [if_neg (by rw [List.length_append, Bits.length_ofByte]; omega)],
      foldl_feed_full r (c :: x) _ (by simp) (by simp only [List.length_append, Bits.length_ofByte]; omega)]
    simp

theorem feedLoop_eq : ∀ (fuel : Nat) (s : Spec.Duplex.State) (i : DuplexInst) (x : Bytes), Rep P f s i →
    0 < rho i.rate → s.queue.length < 8 * rho i.rate → x.length < fuel →
    ∃ i' rest pre, feedLoop P (rho i.rate) fuel i x = some (0, i', rest) ∧ x = pre ++ rest ∧
      Rep P f (pre.foldl (feedByte i.rate) s) i' ∧ i'.rate = i.rate ∧
      (pre.foldl (feedByte i.rate) s).queue.length + 8 * rest.length < 8 * rho i.rate
  | 0, _, _, _, _, _, _, h => absurd h (Nat.not_lt_zero _)
  | fuel + 1, s, i, x, h, hr, hq, hfuel => by
    have h1 := h.rate_ge; have h2 := h.rate_le; have h3 := h.inIdx
    have hrho : 8 * rho i.rate ≤ i.rate - 2 := by unfold rho; omega
    simp only [feedLoop]
    rw [sub32_eq (a := rho i.rate) (b := i.byteInputIndex) (by omega) (by omega)]
    by_cases hge : x.length ≥ rho i.rate - i.byteInputIndex
    · rw [if_pos hge]
      have htl : (x.take (rho i.rate - i.byteInputIndex)).length = rho i.rate - i.byteInputIndex := by
        rw [List.length_take]; omega
      simp only [SnP.readBuf]
      rw [if_pos hge]
      obtain ⟨i1, e1, r1, ra1⟩ := feedPartial_ok hw h (x.take (rho i.rate - i.byteInputIndex)) (by omega)
      obtain ⟨i2, e2, r2, ra2⟩ := dup_step hw hP hf r1 (by rw [ra1]; exact hr)
      have hfull := foldl_feed_full i.rate (x.take (rho i.rate - i.byteInputIndex)) s
        (by intro h0; rw [h0] at htl; simp at htl; omega) (by omega)
      rw [← hfull] at r2
      have hq2 : ((x.take (rho i.rate - i.byteInputIndex)).foldl (feedByte i.rate) s).queue.length = 0 := by
        rw [hfull]; rfl
      obtain ⟨i', rest, pre, e3, hx, r3, ra3, hq3⟩ := feedLoop_eq fuel _ i2
        (x.drop (rho i.rate - i.byteInputIndex)) r2 (by rw [ra2, ra1]; exact hr)
        (by rw [hq2, ra2, ra1]; omega) (by rw [List.length_drop]; omega)
      rw [ra2, ra1] at e3 r3 ra3 hq3
      refine ⟨i', rest, x.take (rho i.rate - i.byteInputIndex) ++ pre, ?_, ?_, ?_, ra3, ?_⟩
      · simp only [Option.bind_eq_bind, Option.bind_some, e1, e2]
        simpa using e3
      · rw [List.append_assoc, ← hx, List.take_append_drop]
      · rw [List.foldl_append]; exact r3
      · rw [List.foldl_append]; exact hq3
    · rw [if_neg hge]
      refine ⟨i, x, [], rfl, rfl, h, rfl, ?_⟩
      simp only [List.foldl_nil]
      omega

omit hw hP hf in
theorem rep_out (h : Rep P f s i) (o : Nat) (ho : o ≤ (i.rate + 7) / 8) :
    Rep P f { s with out := o } { i with byteOutputIndex := o } :=
  ⟨h.rate_ge, h.rate_le, h.short, h.len, h.bits, h.inIdx, h.qle, rfl, ho⟩

theorem feed_rep (h : GRep P f s i) (x : Bytes) :
    ∃ i', feed P i x = some (0, i') ∧ GRep P f (Spec.PRG.feed i.rate s x) i' ∧ i'.rate = i.rate := by
  have h1 := h.rep.rate_ge
  have hrho : 8 * rho i.rate ≤ i.rate - 2 := by unfold rho; omega
  obtain ⟨i1, rest, pre, e1, hx, r1, ra1, hq1⟩ := feedLoop_eq hw hP hf (x.length + 2) s i x h.rep h.rho_pos h.q_lt
    (by omega)
  obtain ⟨i2, e2, r2, ra2⟩ := feedPartial_ok hw r1 rest (by rw [ra1]; omega)
  have hs : x.foldl (feedByte i.rate) s = { pre.foldl (feedByte i.rate) s with
      queue := (pre.foldl (feedByte i.rate) s).queue ++ Bits.ofBytes rest } := by
    rw [hx, List.foldl_append, foldl_feed_short i.rate rest _ hq1]
  rw [← hs] at r2
  refine ⟨{ i2 with byteOutputIndex := rho i.rate }, ?_, ⟨rep_out r2 _ (by rw [ra2, ra1]; omega), ?_, ?_, ?_⟩, ?_⟩
  · unfold feed
    rw [rhoInBytes_eq hw h.rep.inv]
    simp only [Option.bind_eq_bind, e1, Option.bind_some, e2]
    simp
  · rw [ra2, ra1]; exact h.rho_pos
  · have e : (Spec.PRG.feed i.rate s x).queue = (x.foldl (feedByte i.rate) s).queue := rfl
    rw [ra2, ra1, e, hs]
    simp only [List.length_append, Bits.length_ofBytes]
    exact hq1
  · intro hlt
    simp only [ra2, ra1] at hlt
    exact absurd hlt (Nat.lt_irrefl _)
  · rw [ra2, ra1]

omit hw hP hf in
theorem fetch_add (b r : Nat) : ∀ (m n : Nat) (s : Spec.Duplex.State),
    Spec.PRG.fetch b f r s (m + n) = ((Spec.PRG.fetch b f r (Spec.PRG.fetch b f r s m).1 n).1,
      (Spec.PRG.fetch b f r s m).2 ++ (Spec.PRG.fetch b f r (Spec.PRG.fetch b f r s m).1 n).2)
  | 0, n, s => by simp [Spec.PRG.fetch]
  | m + 1, n, s => by
    rw [show m + 1 + n = (m + n) + 1 by omega]
    simp only [Spec.PRG.fetch]
    rw [fetch_add b r m n]
    simp

omit hw hP hf in
/-- Fetching bytes that are left in the block. -/
theorem fetch_within (b r : Nat) : ∀ (n : Nat) (s : Spec.Duplex.State), s.out + n ≤ rho r →
    Spec.PRG.fetch b f r s n = ({ s with out := s.out + n },
      ((Spec.Duplex.block b f r s.hist).drop (8 * s.out)).take (8 * n))
  | 0, s, _ => by simp [Spec.PRG.fetch]
  | n + 1, s, h => by
    simp only [Spec.PRG.fetch, fetchByte]
    rw [if_pos (by omega), fetch_within b r n _ (by simp only; omega)]
    simp only
    rw [show s.out + 1 + n = s.out + (n + 1) by omega, show 8 * (s.out + 1) = 8 * s.out + 8 by omega,
      show 8 * (n + 1) = 8 + 8 * n by omega, List.take_add, List.drop_drop]

omit hw hP hf in
/-- Fetching from a used-up block starts with a duplexing call. -/
theorem fetch_dup (b r : Nat) (n : Nat) (s : Spec.Duplex.State) (hr : 0 < rho r) (h : rho r ≤ s.out) (hn : 0 < n) :
    Spec.PRG.fetch b f r s n = Spec.PRG.fetch b f r (dup s) n := by
  obtain ⟨n, rfl⟩ : ∃ k, n = k + 1 := ⟨n - 1, by omega⟩
  simp only [Spec.PRG.fetch, fetchByte]
  rw [if_neg (show ¬ s.out < rho r by omega), if_pos (show (dup s).out < rho r from hr)]

/-- Extracting bytes that are left in the block. -/
theorem getFurther_step (h : Rep P f s i) (hq : s.queue = []) (n : Nat) (hn : s.out + n ≤ rho i.rate) :
    ∃ i' out, getFurtherOutput i n = some (0, i', out) ∧
      Rep P f (Spec.PRG.fetch (8 * P.width) f i.rate s n).1 i' ∧ i'.rate = i.rate ∧
      Bits.ofBytes out = (Spec.PRG.fetch (8 * P.width) f i.rate s n).2 := by
  have h1 := h.rate_ge; have h2 := h.rate_le
  have hrho : 8 * rho i.rate ≤ i.rate - 2 := by unfold rho; omega
  obtain ⟨i', out, e1, e2, e3, e4⟩ := further_step hw hP hf h n (by omega)
    ⟨fun _ => by omega, fun _ => by rw [hq]; simp⟩
  simp only [Spec.Duplex.step] at e1 e2 e4
  rw [if_pos (by omega)] at e1 e2 e4
  rw [fetch_within _ _ _ _ hn]
  refine ⟨i', out, e1, e2, e3, ?_⟩
  rw [e4]
  simp only [piece]
  rw [List.length_take, List.length_drop, length_block hP hf h,
    show 8 * n - min (8 * n) (i.rate - 8 * s.out) = 0 by omega]
  simp

theorem fetchLoop_eq : ∀ (fuel n : Nat) (s : Spec.Duplex.State) (i : DuplexInst), Rep P f s i →
    0 < rho i.rate → rho i.rate ≤ s.out ∧ s.queue.length < 8 * rho i.rate ∨ n = 0 ∧ s.queue = [] → n < fuel →
    ∃ i' out, fetchLoop P (rho i.rate) fuel i n = some (0, i', out) ∧
      Rep P f (Spec.PRG.fetch (8 * P.width) f i.rate s n).1 i' ∧ i'.rate = i.rate ∧
      Bits.ofBytes out = (Spec.PRG.fetch (8 * P.width) f i.rate s n).2 ∧
      (0 < n → (Spec.PRG.fetch (8 * P.width) f i.rate s n).1.queue = [])
  | 0, _, _, _, _, _, _, h => absurd h (Nat.not_lt_zero _)
  | fuel + 1, n, s, i, h, hr, hs, hfuel => by
    have h1 := h.rate_ge; have h2 := h.rate_le
    simp only [fetchLoop]
    by_cases hn : n > 0
    · rw [if_pos hn]
      have hs' : rho i.rate ≤ s.out := by rcases hs with hs | hs <;> omega
      obtain ⟨i1, e1, r1, ra1⟩ := dup_step hw hP hf h hr
      rw [fetch_dup _ _ _ _ hr hs' hn]
      have hk : (if rho i.rate ≤ n then rho i.rate else n) = min (rho i.rate) n := by
        split <;> omega
      have hpos : 0 < min (rho i.rate) n := by omega
      obtain ⟨i2, out, e2, r2, ra2, ho⟩ := getFurther_step hw hP hf r1 rfl (min (rho i.rate) n)
        (by rw [ra1]; simp only [dup]; omega)
      rw [ra1] at r2 ra2 ho
      have hw' := fetch_within (f := f) (8 * P.width) i.rate (min (rho i.rate) n) (dup s)
        (by simp only [dup]; omega)
      have hout2 : (Spec.PRG.fetch (8 * P.width) f i.rate (dup s) (min (rho i.rate) n)).1.out =
          min (rho i.rate) n := by
        rw [hw']; simp [dup]
      have hq2 : (Spec.PRG.fetch (8 * P.width) f i.rate (dup s) (min (rho i.rate) n)).1.queue = [] := by
        rw [hw']; rfl
      obtain ⟨i3, out', e3, r3, ra3, ho3, hq3⟩ := fetchLoop_eq fuel (n - min (rho i.rate) n) _ i2 r2
        (by rw [ra2]; exact hr) (by
          rw [ra2, hout2, hq2]
          by_cases hle : rho i.rate ≤ n
          · left; refine ⟨by omega, by simpa using hr⟩
          · right; exact ⟨by omega, rfl⟩) (by omega)
      rw [ra2] at e3 r3 ra3 ho3 hq3
      have hsplit := fetch_add (f := f) (8 * P.width) i.rate (min (rho i.rate) n) (n - min (rho i.rate) n) (dup s)
      rw [show min (rho i.rate) n + (n - min (rho i.rate) n) = n by omega] at hsplit
      rw [hsplit]
      refine ⟨i3, out ++ out', ?_, r3, ra3, ?_, ?_⟩
      · simp only [Option.bind_eq_bind, e1, Option.bind_some]
        rw [hk, e2]
        simp only [Option.bind_some, e3]
        simp
      · rw [Bits.ofBytes_append, ho, ho3]
      · intro _
        simp only
        by_cases hrest : 0 < n - min (rho i.rate) n
        · exact hq3 hrest
        · rw [show n - min (rho i.rate) n = 0 by omega]
          simp only [Spec.PRG.fetch]
          exact hq2
    · rw [if_neg hn]
      have : n = 0 := by omega
      subst this
      exact ⟨i, [], rfl, h, rfl, rfl, fun h => absurd h (Nat.lt_irrefl _)⟩

omit hw hP hf in
theorem fetch_queue (b r : Nat) : ∀ (n : Nat) (s : Spec.Duplex.State), s.queue = [] ∨ rho r ≤ s.out →
    (0 < n ∨ s.queue = []) → (Spec.PRG.fetch b f r s n).1.queue = []
  | 0, s, _, h => by simpa [Spec.PRG.fetch] using h
  | n + 1, s, h, _ => by
    simp only [Spec.PRG.fetch]
    have hq : (fetchByte b f r s).1.queue = [] := by
      unfold fetchByte
      simp only
      split
      · rcases h with h | h
        · exact h
        · omega
      · rfl
    exact fetch_queue b r n _ (Or.inl hq) (Or.inr hq)

theorem fetch_rep (h : GRep P f s i) (n : Nat) :
    ∃ i' out, fetch P i n = some (0, i', out) ∧ GRep P f (Spec.PRG.fetch (8 * P.width) f i.rate s n).1 i' ∧
      i'.rate = i.rate ∧ Bits.ofBytes out = (Spec.PRG.fetch (8 * P.width) f i.rate s n).2 := by
  have h1 := h.rep.rate_ge; have h2 := h.rep.rate_le
  have hrho : 8 * rho i.rate ≤ i.rate - 2 := by unfold rho; omega
  have hfin : ∀ i', Rep P f (Spec.PRG.fetch (8 * P.width) f i.rate s n).1 i' → i'.rate = i.rate →
      GRep P f (Spec.PRG.fetch (8 * P.width) f i.rate s n).1 i' := by
    intro i' hr hra
    have hcase : (0 < n ∨ s.queue = []) ∨ n = 0 := by omega
    rcases hcase with hcase | rfl
    · have hq := fetch_queue (f := f) (8 * P.width) i.rate n s (by
        by_cases ho : s.out < rho i.rate
        · exact Or.inl (h.q_nil ho)
        · exact Or.inr (by omega)) hcase
      refine ⟨hr, by rw [hra]; exact h.rho_pos, by rw [hra, hq]; simpa using h.rho_pos, fun _ => hq⟩
    · refine ⟨hr, by rw [hra]; exact h.rho_pos, by rw [hra]; exact h.q_lt, by rw [hra]; exact h.q_nil⟩
  unfold fetch
  rw [rhoInBytes_eq hw h.rep.inv]
  simp only
  rw [h.rep.outIdx]
  by_cases ho : s.out < rho i.rate
  · rw [if_pos ho, sub32_eq (by omega) (by omega)]
    have hk : (if rho i.rate - s.out ≤ n then rho i.rate - s.out else n) = min (rho i.rate - s.out) n := by
      split <;> omega
    have hq := h.q_nil ho
    obtain ⟨i1, out, e1, r1, ra1, ho1⟩ := getFurther_step hw hP hf h.rep hq (min (rho i.rate - s.out) n) (by omega)
    have hw' := fetch_within (f := f) (8 * P.width) i.rate (min (rho i.rate - s.out) n) s (by omega)
    obtain ⟨i2, out', e2, r2, ra2, ho2, hq2⟩ := fetchLoop_eq hw hP hf (n - min (rho i.rate - s.out) n + 1)
      (n - min (rho i.rate - s.out) n) _ i1 r1 (by rw [ra1]; exact h.rho_pos) (by
        rw [ra1, hw']
        simp only
        by_cases hle : rho i.rate - s.out ≤ n
        · left; rw [hq]; refine ⟨by omega, by simpa using h.rho_pos⟩
        · right; exact ⟨by omega, hq⟩) (by omega)
    rw [ra1] at e2 r2 ra2 ho2 hq2
    have hsplit := fetch_add (f := f) (8 * P.width) i.rate (min (rho i.rate - s.out) n)
      (n - min (rho i.rate - s.out) n) s
    rw [show min (rho i.rate - s.out) n + (n - min (rho i.rate - s.out) n) = n by omega] at hsplit
    rw [hsplit] at hfin ⊢
    refine ⟨i2, out ++ out', ?_, hfin i2 r2 ra2, ra2, ?_⟩
    · rw [hk, e1]
      simp only [Option.bind_eq_bind, Option.bind_some, e2]
      simp
    · rw [Bits.ofBytes_append, ho1, ho2]
  · rw [if_neg ho]
    obtain ⟨i2, out', e2, r2, ra2, ho2, hq2⟩ := fetchLoop_eq hw hP hf (n + 1) n s i h.rep h.rho_pos
      (Or.inl ⟨by omega, h.q_lt⟩) (by omega)
    exact ⟨i2, out', e2, hfin i2 r2 ra2, ra2, ho2⟩

theorem forget_rep (h : GRep P f s i) (hc : 8 * P.width - i.rate ≤ 8 * rho i.rate) :
    ∃ i', forget P i = some (0, i') ∧ GRep P f (Spec.PRG.forget (8 * P.width) f i.rate s) i' ∧
      i'.rate = i.rate := by
  have h1 := h.rep.rate_ge; have h2 := h.rep.rate_le
  have hrho : 8 * rho i.rate ≤ i.rate - 2 := by unfold rho; omega
  obtain ⟨i1, e1, r1, ra1⟩ := dup_step hw hP hf h.rep h.rho_pos
  obtain ⟨i2, e2, r2, ra2⟩ := overwriteZeroes_step hw hP hf r1 (rho i.rate) (by omega)
  rw [ra1] at e2 r2 ra2
  simp only [Spec.Duplex.step] at e2 r2
  rw [if_pos ⟨rfl, hrho⟩] at e2 r2
  unfold Spec.Duplex.enqueue at e2 r2
  have hbl : (Spec.Duplex.block (8 * P.width) f i.rate (dup s).hist).length = i.rate := by
    have := length_block hP hf r1
    rw [ra1] at this; exact this
  rw [if_pos (by simp only [dup, List.length_nil, List.length_take]; omega)] at e2 r2
  obtain ⟨i3, e3, r3, ra3⟩ := dup_step hw hP hf r2 (by rw [ra2]; exact h.rho_pos)
  rw [ra2] at ra3
  refine ⟨{ i3 with byteOutputIndex := rho i.rate }, ?_, ⟨rep_out r3 _ (by rw [ra3]; omega), ?_, ?_, ?_⟩, ra3⟩
  · unfold forget
    rw [rhoInBytes_eq hw h.rep.inv]
    simp only
    rw [u32_eq (by omega), sub32_eq (by omega) (by omega), if_neg (by omega), e1]
    simp only [Option.bind_eq_bind, Option.bind_some]
    rw [e2]
    simp only [Option.bind_some, e3]
    simp
  · simp only [ra3]; exact h.rho_pos
  · have e : (Spec.PRG.forget (8 * P.width) f i.rate s).queue = [] := rfl
    rw [e, ra3]
    have := h.rho_pos
    simp only [List.length_nil]; omega
  · intro hlt
    simp only [ra3] at hlt
    exact absurd hlt (Nat.lt_irrefl _)

end

end SpongePRG
