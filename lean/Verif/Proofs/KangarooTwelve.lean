import Verif.Model.KangarooTwelve
import Verif.Spec.KangarooTwelve
import Verif.Proofs.Tree
import Verif.Proofs.CShake
import Verif.Proofs.ParallelHash
import Verif.Props.KeccakHash

/-!
Helper lemmas for KangarooTwelve.
-/

namespace KT
open SP800185 (rateBytes rateBytes_eq)
open PlSnP Spec

variable {P : SnP}

theorem capBytes_eq {sec : Nat} (hsec : sec = 128 ∨ sec = 256) :
    rateBytes sec / 8 * 8 = rateBytes sec ∧ (leaf sec).rateInLanes * 8 = rateBytes sec ∧
    (leaf sec).cvLanes * 8 = capBytes sec ∧ 8 * capBytes sec = 2 * sec ∧
      capBytes sec ≤ rateBytes sec := by
  rcases hsec with rfl | rfl <;> decide

theorem leafOk (hw : P.width = 200) {sec : Nat} (hsec : sec = 128 ∨ sec = 256) : LeafOk P (leaf sec) := by
  refine ⟨?_, ?_, ?_, ?_, ?_, show (0x0B : Byte) ≠ 0 by decide, show ¬ 0x80#8 ≤ 0x0B by decide⟩
  · rcases hsec with rfl | rfl <;> decide
  · rw [hw]; rcases hsec with rfl | rfl <;> decide
  · show 0 < chunkSize; decide
  · show chunkSize % 8 = 0; decide
  · rcases hsec with rfl | rfl <;> decide

/-- An absorbing instance. -/
def ktabs (q f : SpongeInst) (L bn n sec : Nat) : KtInst :=
  { queueNode := q, finalNode := f, fixedOutputLength := L, blockNumber := bn, queueAbsorbedLen := n,
    phase := .absorbing, securityLevel := sec }

theorem nodeInit_eq (hw : P.width = 200) {sec : Nat} (hsec : sec = 128 ∨ sec = 256) (mem : SpongeInst) :
    nodeInit P sec mem = (0, Sponge.absd P (rateBytes sec) []) := by
  unfold nodeInit
  rw [(TurboSHAKE.init_iff hw mem (BitVec.ofNat 32 (2 * sec))).1
    (by rcases hsec with rfl | rfl <;> decide)]
  rcases hsec with rfl | rfl <;> rfl

/-! ### The encoding -/

theorem rightEncode_length_encode (v : BitVec 64) : Bits.ofBytes (rightEncode v) = length_encode v.toNat := by
  unfold rightEncode length_encode
  by_cases h : v = 0
  · subst h
    decide
  · have h0 : v.toNat ≠ 0 := by
      intro h'; exact h (BitVec.eq_of_toNat_eq (by simpa using h'))
    have hc := SP800185.countBytes_eq 8 v (by have := v.isLt; omega)
    rw [if_neg h] at hc
    simp only [hc, h0, if_false]
    rw [Bits.ofBytes_append, SP800185.encodeBytes_eq, SP800185.encN_base256, SP800185.ofBytes_map_ofNat,
      Bits.ofBytes_cons, SP800185.ofByte_ofNat_enc8]
    simp

theorem rightEncode_nat {x : Nat} (h : x < 2 ^ 64) :
    Bits.ofBytes (rightEncode (BitVec.ofNat 64 x)) = length_encode x := by
  rw [rightEncode_length_encode, BitVec.toNat_ofNat, Nat.mod_eq_of_lt h]

theorem countBytes_le (v : BitVec 64) : SP800185.countBytes 8 v ≤ 8 := by
  rw [SP800185.countBytes_eq 8 v (by have := v.isLt; omega)]
  split
  · omega
  · rw [← SP800185.encodeLen_eq]; exact (SP800185.encodeLen_le v).2

theorem length_rightEncode (v : BitVec 64) : (rightEncode v).length = SP800185.countBytes 8 v + 1 := by
  simp [rightEncode, SP800185.encodeBytes]

theorem rightEncode_ne_nil (v : BitVec 64) : rightEncode v ≠ [] := by simp [rightEncode]

/-! ### Update -/

section
variable (hP : P.Valid) (hw : P.width = 200) {sec : Nat} (hsec : sec = 128 ∨ sec = 256)

/-- The instance after absorbing `S`. -/
inductive KtOk (P : SnP) (sec L : Nat) (S : Bytes) : KtInst → Prop
  | first (q) (h : S.length ≤ 8192) :
    KtOk P sec L S (ktabs q (Sponge.absd P (rateBytes sec) S) L 0 S.length sec)
  | tree (F M q f n k) (hS : S = F ++ M) (hF : F.length = 8192) (hM : M ≠ [])
    (h : TreeOk P (rateBytes sec) 8192 0x0B#8 (capBytes sec) (F ++ 0x03#8 :: Bytes.zeros 7) M q f n k) :
    KtOk P sec L S (ktabs q f L ((k + 1) % 2 ^ 64) n sec)

include hP hw hsec

theorem updQueue_eq {m0 M : Bytes} {q f : SpongeInst} {n k L : Nat} (hn : n ≠ 0)
    (h : TreeOk P (rateBytes sec) 8192 0x0B#8 (capBytes sec) m0 M q f n k) (data : Bytes) :
    ∃ q' f' n' k' used rest, data = used ++ rest ∧
      updQueue P (ktabs q f L ((k + 1) % 2 ^ 64) n sec) data =
        some (0, ktabs q' f' L ((k' + 1) % 2 ^ 64) n' sec, rest) ∧
      TreeOk P (rateBytes sec) 8192 0x0B#8 (capBytes sec) m0 (M ++ used) q' f' n' k' ∧ (n' = 0 ∨ rest = []) := by
  obtain ⟨hr, hr2, -, hr64⟩ := rateBytes_eq hsec
  have hrw : rateBytes sec ≤ P.width := by omega
  have hlt := h.lt
  unfold updQueue ktabs fillLen chunkSize TurboSHAKE.absorb
  by_cases hd : data.length < 8192 - n
  · obtain ⟨q', h1, h2⟩ := h.more hP hr hrw hn data (by omega)
    have hne : n + data.length ≠ 8192 := by omega
    refine ⟨q', f, n + data.length, k, data, [], by simp, ?_, h2, Or.inr rfl⟩
    simp only [hd, if_true, SnP.readBuf, Nat.le_refl, List.take_length, Option.bind_eq_bind, Option.bind_some,
      h1, ne_eq, not_true_eq_false, if_false, hne, List.drop_length]
  · obtain ⟨q', q'', f', h1, h2, h3⟩ := h.full hP hr hrw (by decide) hn (data.take (8192 - n)) (by simp; omega)
    have he : n + (8192 - n) = 8192 := by omega
    have hle : 8192 - n ≤ data.length := by omega
    refine ⟨q'', f', 0, k + 1, data.take (8192 - n), data.drop (8192 - n), by simp, ?_, h3, Or.inl rfl⟩
    have h2' : closeLeaf P 0x0B (capBytes sec) q' f = some (0, q'', f') := h2
    simp only [hd, if_false, SnP.readBuf, hle, if_true, Option.bind_eq_bind, Option.bind_some,
      h1, ne_eq, not_true_eq_false, he, h2', Nat.mod_add_mod]

theorem updRest_eq {m0 : Bytes} {L : Nat} (fuel : Nat) : ∀ {M : Bytes} {q f : SpongeInst} {n k : Nat}
    (data : Bytes), TreeOk P (rateBytes sec) 8192 0x0B#8 (capBytes sec) m0 M q f n k → (n = 0 ∨ data = []) →
    data.length < fuel →
    ∃ q' f' n' k', updRest P fuel (ktabs q f L ((k + 1) % 2 ^ 64) n sec) data =
        some (0, ktabs q' f' L ((k' + 1) % 2 ^ 64) n' sec) ∧
      TreeOk P (rateBytes sec) 8192 0x0B#8 (capBytes sec) m0 (M ++ data) q' f' n' k' := by
  obtain ⟨hr, hr2, -, hr64⟩ := rateBytes_eq hsec
  have hrw : rateBytes sec ≤ P.width := by omega
  induction fuel with
  | zero => intro M q f n k data _ _ h; omega
  | succ fuel ih =>
    intro M q f n k data h h0 hf
    unfold updRest
    by_cases hd : 0 < data.length
    · have hn : n = 0 := by
        rcases h0 with h0 | h0
        · exact h0
        · subst h0; simp at hd
      subst hn
      rw [if_pos hd]
      simp only [ktabs, nodeInit_eq hw hsec, ne_eq, not_true_eq_false, if_false, chunkSize, TurboSHAKE.absorb]
      by_cases hl : data.length < 8192
      · obtain ⟨q', h1, h2⟩ := h.start hP hr hrw data hl
        obtain ⟨q2, f2, n2, k2, h3, h4⟩ := ih [] h2 (Or.inr rfl) (by simp; omega)
        refine ⟨q2, f2, n2, k2, ?_, by simpa using h4⟩
        have hne : data.length ≠ 8192 := by omega
        simp only [hl, if_true, SnP.readBuf, Nat.le_refl, List.take_length, Option.bind_eq_bind,
          Option.bind_some, h1, not_true_eq_false, if_false, hne, List.drop_length]
        exact h3
      · obtain ⟨q', q'', f', h1, h2, h3⟩ := h.startFull hP hr hrw (by decide) (data.take 8192) (by simp; omega)
          (by omega)
        obtain ⟨q2, f2, n2, k2, h4, h5⟩ := ih (data.drop 8192) h3 (Or.inl rfl) (by simp; omega)
        refine ⟨q2, f2, n2, k2, ?_, by simpa using h5⟩
        have hle : 8192 ≤ data.length := by omega
        have h2' : closeLeaf P 0x0B (capBytes sec) q' f = some (0, q'', f') := h2
        simp only [hl, if_false, SnP.readBuf, hle, if_true, Option.bind_eq_bind, Option.bind_some, h1,
          not_true_eq_false, h2', Nat.mod_add_mod]
        exact h4
    · rw [if_neg hd]
      have : data = [] := List.eq_nil_of_length_eq_zero (by omega)
      subst this
      exact ⟨q, f, n, k, rfl, by simpa using h⟩

variable (cfgs : Nat → List Cfg) (hcfg : ∀ cfg ∈ cfgs sec, CfgOk P (leaf sec) cfg)
include hcfg

/-- Nothing happens without data. -/
theorem updBlocks_nil {q : SpongeInst} {m : Bytes} {L bn n : Nat} (hbn : bn < 2 ^ 64) :
    updBlocks P cfgs (ktabs q (Sponge.absd P (rateBytes sec) m) L bn n sec) [] =
      some (0, ktabs q (Sponge.absd P (rateBytes sec) m) L bn n sec) := by
  obtain ⟨hr, hr2, -, hr64⟩ := rateBytes_eq hsec
  have hrw : rateBytes sec ≤ P.width := by omega
  obtain ⟨j, h1, h2⟩ := leafStages_eq hP (leafOk hw hsec) hr hrw (cfgs sec) hcfg m []
  have hj : j = 0 := by
    simp [leaf, chunkSize] at h1
    exact h1
  subst hj
  simp only [leafCVs, List.append_nil] at h2
  unfold updBlocks
  simp only [ktabs]
  rw [h2]
  simp only [Option.bind_eq_bind, Option.bind_some, Nat.add_zero, ne_eq, not_true_eq_false, if_false,
    Nat.mod_eq_of_lt hbn]
  simp [updRest]

theorem updBlocks_eq {m0 M : Bytes} {L : Nat} {q f : SpongeInst} {n k : Nat} (data : Bytes)
    (h : TreeOk P (rateBytes sec) 8192 0x0B#8 (capBytes sec) m0 M q f n k) (h0 : n = 0 ∨ data = []) :
    ∃ q' f' n' k', updBlocks P cfgs (ktabs q f L ((k + 1) % 2 ^ 64) n sec) data =
        some (0, ktabs q' f' L ((k' + 1) % 2 ^ 64) n' sec) ∧
      TreeOk P (rateBytes sec) 8192 0x0B#8 (capBytes sec) m0 (M ++ data) q' f' n' k' := by
  obtain ⟨hr, hr2, -, hr64⟩ := rateBytes_eq hsec
  have hrw : rateBytes sec ≤ P.width := by omega
  obtain ⟨-, e1, e2, -, -⟩ := capBytes_eq hsec
  have hL := leafOk hw hsec
  by_cases hn : n = 0
  · subst hn
    obtain ⟨j, f', h1, h2, h3⟩ := TreeOk.blocks (L := leaf sec) hP hL (cfgs sec) hcfg
      (m0 := m0) (M := M) (q := q) (f := f) (k := k)
      (by rw [e1, e2]; exact h) data
    rw [e1, e2] at h3
    obtain ⟨q2, f2, n2, k2, h4, h5⟩ := updRest_eq hP hw hsec (L := L)
      ((data.drop (j * 8192)).length + 1) (data.drop (j * 8192)) h3 (Or.inl rfl) (by omega)
    refine ⟨q2, f2, n2, k2, ?_, ?_⟩
    · unfold updBlocks
      simp only [ktabs]
      rw [h2]
      simp only [Option.bind_eq_bind, Option.bind_some, ne_eq, not_true_eq_false, if_false, Nat.mod_add_mod]
      have ek : k + 1 + j = k + j + 1 := by omega
      rw [ek]
      exact h4
    · have e : (leaf sec).blockLen = 8192 := rfl
      simpa [List.append_assoc, List.take_append_drop, e] using h5
  · have hd : data = [] := h0.resolve_left hn
    subst hd
    obtain ⟨m, rfl⟩ : ∃ m, f = Sponge.absd P (rateBytes sec) m := by
      obtain ⟨A, Q, -, -, -, h, -⟩ := h; exact ⟨_, h⟩
    exact ⟨q, _, n, k, updBlocks_nil hP hw hsec cfgs hcfg (Nat.mod_lt _ (by decide)), by simpa using h⟩

omit hcfg cfgs in
/-- Closing the first chunk. -/
theorem first_close (F : Bytes) (hF : F.length = 8192) :
    { Sponge.absd P (rateBytes sec) (F ++ [0x03#8]) with
      byteIOIndex := ((Sponge.absd P (rateBytes sec) (F ++ [0x03#8])).byteIOIndex + 7) / 8 * 8 } =
    Sponge.absd P (rateBytes sec) (F ++ 0x03#8 :: Bytes.zeros 7) := by
  obtain ⟨hr, -, -, -⟩ := rateBytes_eq hsec
  have hl : (F ++ [0x03#8]).length = 8193 := by simp [hF]
  have hi : ((Sponge.absd P (rateBytes sec) (F ++ [0x03#8])).byteIOIndex + 7) / 8 * 8 =
      (F ++ [0x03#8]).length % rateBytes sec + 7 := by
    rw [Sponge.absd_idx hr, hl]
    rcases hsec with rfl | rfl <;> decide
  rw [hi, Sponge.absorb_skip hr _ 7 (by rw [hl]; rcases hsec with rfl | rfl <;> decide)]
  simp

/-- `KangarooTwelve_Update`. -/
theorem ktUpdate_eq {L : Nat} {S : Bytes} {kt : KtInst} (h : KtOk P sec L S kt) (x : Bytes)
    (hlen : S.length + x.length < 2 ^ 76) :
    ∃ kt', ktUpdate P cfgs kt x = some (0, kt') ∧ KtOk P sec L (S ++ x) kt' := by
  obtain ⟨hr, hr2, -, hr64⟩ := rateBytes_eq hsec
  have hrw : rateBytes sec ≤ P.width := by omega
  cases h with
  | first q h =>
    by_cases hx : S.length + x.length ≤ 8192
    · have hfill : fillLen (ktabs q (Sponge.absd P (rateBytes sec) S) L 0 S.length sec) x.length = x.length := by
        unfold fillLen ktabs chunkSize
        simp only; split <;> omega
      refine ⟨_, ?_, KtOk.first q (by simpa using hx)⟩
      have hf : updFirst P (ktabs q (Sponge.absd P (rateBytes sec) S) L 0 S.length sec) x =
          some (0, ktabs q (Sponge.absd P (rateBytes sec) (S ++ x)) L 0 (S ++ x).length sec, []) := by
        unfold updFirst
        rw [hfill]
        simp [SnP.readBuf, TurboSHAKE.absorb, ktabs, Sponge.absorb_absd hP hr hrw]
      unfold ktUpdate
      rw [if_neg (by simp [ktabs]), if_pos (by simp [ktabs]), hf]
      simp only [Option.bind_eq_bind, Option.bind_some, ne_eq, not_true_eq_false, if_false]
      exact updBlocks_nil hP hw hsec cfgs hcfg (by decide)
    · have hfill : fillLen (ktabs q (Sponge.absd P (rateBytes sec) S) L 0 S.length sec) x.length =
          8192 - S.length := by
        unfold fillLen ktabs chunkSize
        simp only; split <;> omega
      have hF : (S ++ x.take (8192 - S.length)).length = 8192 := by simp; omega
      have hf : updFirst P (ktabs q (Sponge.absd P (rateBytes sec) S) L 0 S.length sec) x =
          some (0, ktabs q (Sponge.absd P (rateBytes sec) (S ++ x.take (8192 - S.length) ++ 0x03#8 :: Bytes.zeros 7))
            L ((0 + 1) % 2 ^ 64) 0 sec, x.drop (8192 - S.length)) := by
        unfold updFirst
        rw [hfill]
        have h1 : 8192 - S.length ≤ x.length := by omega
        have h2 : S.length + (8192 - S.length) = 8192 := by omega
        have h3 : x.length - (8192 - S.length) ≠ 0 := by omega
        have hcl := first_close hP hw hsec _ hF
        simp only [SnP.readBuf, h1, if_true, TurboSHAKE.absorb, ktabs, Sponge.absorb_absd hP hr hrw,
          Option.bind_eq_bind, Option.bind_some, ne_eq, not_true_eq_false, if_false, chunkSize, h2,
          List.length_drop, h3, not_false_eq_true, and_self]
        have hcl' : ({ Sponge.absd P (rateBytes sec) (S ++ x.take (8192 - S.length) ++ [0x03]) with
            byteIOIndex := ((Sponge.absd P (rateBytes sec)
              (S ++ x.take (8192 - S.length) ++ [0x03])).byteIOIndex + 7) / 8 * 8 } : SpongeInst) = _ := hcl
        rw [hcl']
        rfl
      obtain ⟨q', f', n', k', h1, h2⟩ := updBlocks_eq hP hw hsec cfgs hcfg (L := L)
        (x.drop (8192 - S.length))
        (treeOk_init (P := P) (r := rateBytes sec) (d := 0x0B#8) (cv := capBytes sec) (show 0 < 8192 by omega)
          (S ++ x.take (8192 - S.length) ++ 0x03#8 :: Bytes.zeros 7) q) (Or.inl rfl)
      refine ⟨_, ?_, KtOk.tree (S ++ x.take (8192 - S.length)) (x.drop (8192 - S.length)) q' f' n' k'
        (by simp) hF ?_ (by simpa using h2)⟩
      · unfold ktUpdate
        rw [if_neg (by simp [ktabs]), if_pos (by simp [ktabs]), hf]
        simp only [Option.bind_eq_bind, Option.bind_some, ne_eq, not_true_eq_false, if_false]
        exact h1
      · intro h
        have := congrArg List.length h
        simp at this
        omega
  | tree F M q f n k hS hF hM h =>
    have hlen' := h.length
    have hk : k + 1 < 2 ^ 64 := by
      have : S.length = 8192 + M.length := by rw [hS]; simp [hF]
      omega
    have hbn : (k + 1) % 2 ^ 64 ≠ 0 := by rw [Nat.mod_eq_of_lt hk]; omega
    by_cases hn : n = 0
    · subst hn
      obtain ⟨q', f', n', k', h1, h2⟩ := updBlocks_eq hP hw hsec cfgs hcfg (L := L) x h (Or.inl rfl)
      refine ⟨_, ?_, KtOk.tree F (M ++ x) q' f' n' k' (by simp [hS]) hF (by simp [hM]) h2⟩
      unfold ktUpdate
      rw [if_neg (by simp [ktabs]), if_neg (by simpa [ktabs] using hbn), if_neg (by simp [ktabs])]
      exact h1
    · obtain ⟨q1, f1, n1, k1, used, rest, h1, h2, h3, h4⟩ := updQueue_eq hP hw hsec (L := L) hn h x
      obtain ⟨q', f', n', k', h5, h6⟩ := updBlocks_eq hP hw hsec cfgs hcfg (L := L) rest h3 h4
      refine ⟨_, ?_, KtOk.tree F (M ++ x) q' f' n' k' (by simp [hS]) hF (by simp [hM])
        (by rw [h1, ← List.append_assoc]; exact h6)⟩
      unfold ktUpdate
      rw [if_neg (by simp [ktabs]), if_neg (by simpa [ktabs] using hbn), if_pos (by simpa [ktabs] using hn), h2]
      exact h5

/-! ### Final -/

omit hw hsec hcfg cfgs in
theorem finCount_eq {m q : _} {k L bn n r : Nat} (hr : 0 < r) (hrw : r ≤ P.width) (e4 : dec64 bn = k) :
    finCount P (ktabs q (Sponge.absd P r m) L bn n sec) = some (0, ktabs q (Sponge.absd P r
      (m ++ (rightEncode (BitVec.ofNat 64 k) ++ [0xFF, 0xFF]))) L k n sec) := by
  unfold finCount
  simp only [ktabs, Option.bind_eq_bind, Option.bind_some,
    TurboSHAKE.absorb, Sponge.absorb_absd hP hr hrw, e4]

omit hP hw hsec hcfg cfgs in
theorem finTree_of {kt kt' : KtInst} (h : finLeaf P kt = some (0, kt')) : finTree P kt = finCount P kt' := by
  unfold finTree
  rw [h]
  simp only [Option.bind_eq_bind, Option.bind_some, ne_eq, not_true_eq_false, if_false]

omit hP hw hsec hcfg cfgs in
theorem finLeaf_zero {kt : KtInst} (h : kt.queueAbsorbedLen = 0) : finLeaf P kt = some (0, kt) := by
  unfold finLeaf
  rw [if_neg (fun hh => hh h)]

omit hcfg cfgs in
theorem finTree_eq {m0 M : Bytes} {q f : SpongeInst} {n k L : Nat} (hk : k + 1 < 2 ^ 64)
    (h : TreeOk P (rateBytes sec) 8192 0x0B#8 (capBytes sec) m0 M q f n k) :
    ∃ q' bn', finTree P (ktabs q f L ((k + 1) % 2 ^ 64) n sec) =
        some (0, ktabs q' (Sponge.absd P (rateBytes sec) (m0 ++
          leafCVs P (rateBytes sec) 8192 0x0B#8 (capBytes sec)
            (ParallelHash.blocksOf M.length 8192) M ++
          (rightEncode (BitVec.ofNat 64 (ParallelHash.blocksOf M.length 8192)) ++ [0xFF, 0xFF]))) L bn' n sec) := by
  obtain ⟨hr, hr2, -, hr64⟩ := rateBytes_eq hsec
  have hrw : rateBytes sec ≤ P.width := by omega
  have hb := ParallelHash.blocksOf_eq h.length h.lt
  have e3 : ((k + 1) % 2 ^ 64 + 1) % 2 ^ 64 = (k + 2) % 2 ^ 64 := by omega
  have e4 : dec64 ((k + 1) % 2 ^ 64) = k := by unfold dec64; omega
  have e5 : dec64 ((k + 2) % 2 ^ 64) = k + 1 := by unfold dec64; omega
  generalize (k + 1) % 2 ^ 64 = bn at e3 e4 ⊢
  generalize (k + 2) % 2 ^ 64 = bn2 at e3 e5 ⊢
  rw [hb]
  by_cases hn : n = 0
  · subst hn
    refine ⟨q, k, ?_⟩
    rw [h.closed, if_pos rfl]
    rw [finTree_of (finLeaf_zero (by rfl))]
    exact finCount_eq hP hr hrw e4
  · obtain ⟨q', h1⟩ := h.close hP hr hrw (by decide) hn
    refine ⟨q', k + 1, ?_⟩
    rw [if_neg hn]
    have h1' : closeLeaf P 0x0B (capBytes sec) q f = _ := h1
    rw [finTree_of (show finLeaf P (ktabs q f L bn n sec) = some (0, ktabs q' (Sponge.absd P (rateBytes sec) (m0 ++
      leafCVs P (rateBytes sec) 8192 0x0B#8 (capBytes sec) (k + 1) M)) L bn2 n sec) by
      simp only [finLeaf, ktabs, ne_eq, hn, not_false_eq_true, if_true, Option.bind_eq_bind, Option.bind_some, h1', e3])]
    exact finCount_eq hP hr hrw e5

omit hcfg cfgs in
/-- The bytes absorbed by the final node and its domain byte. -/
theorem finNode_eq {L : Nat} {S : Bytes} {kt : KtInst} (h : KtOk P sec L S kt) (hlen : S.length < 2 ^ 76) :
    ∃ (m : Bytes) (d : Byte) (q : SpongeInst) (bn n : Nat), d ≠ 0 ∧
      finNode P kt = finSwitch P (ktabs q (Sponge.absd P (rateBytes sec) m) L bn n sec) d ∧
      ((S.length ≤ 8192 ∧ m = S ∧ d = 0x07#8) ∨
       (8192 < S.length ∧ d = 0x06#8 ∧ m = S.take 8192 ++ 0x03#8 :: Bytes.zeros 7 ++
          leafCVs P (rateBytes sec) 8192 0x0B#8 (capBytes sec)
            (ParallelHash.blocksOf (S.length - 8192) 8192) (S.drop 8192) ++
          (rightEncode (BitVec.ofNat 64 (ParallelHash.blocksOf (S.length - 8192) 8192)) ++ [0xFF, 0xFF]))) := by
  obtain ⟨hr, hr2, -, hr64⟩ := rateBytes_eq hsec
  have hrw : rateBytes sec ≤ P.width := by omega
  cases h with
  | first q h =>
    refine ⟨S, 0x07#8, q, 0, S.length, by decide, ?_, Or.inl ⟨h, rfl, rfl⟩⟩
    unfold finNode
    rw [if_pos (by simp only [ktabs])]
    exact congrArg _ (rfl : (0x07 : Byte) = 0x07#8)
  | tree F M q f n k hS hF hM h =>
    have hlen' := h.length
    have hlt := h.lt
    have hSl : S.length = 8192 + M.length := by rw [hS]; simp [hF]
    have hMl : M.length ≠ 0 := fun hh => hM (List.eq_nil_of_length_eq_zero hh)
    have hk : k + 1 < 2 ^ 64 := by omega
    have e1 : S.take 8192 = F := by rw [hS, ← hF, List.take_left]
    have e2 : S.drop 8192 = M := by rw [hS, ← hF, List.drop_left]
    have e3 : S.length - 8192 = M.length := by omega
    rw [e1, e2, e3]
    have hbn : (k + 1) % 2 ^ 64 ≠ 0 := by rw [Nat.mod_eq_of_lt hk]; omega
    obtain ⟨q', bn', hk⟩ := finTree_eq hP hw hsec (L := L) hk h
    refine ⟨_, 0x06#8, q', bn', n, by decide, ?_, Or.inr ⟨by omega, rfl, rfl⟩⟩
    unfold finNode
    rw [if_neg (by simpa [ktabs] using hbn), hk]
    simp only [Option.bind_eq_bind, Option.bind_some, ne_eq, not_true_eq_false, if_false]
    exact congrArg _ (rfl : (0x06 : Byte) = 0x06#8)

end

end KT
