import Verif.Model.KeccakP1600Ref32
import Verif.Proofs.LaneBytes

/-!
Bit interleaving: a lane as a word of its bits at even positions and a word of its bits at odd positions.
-/

namespace KeccakP1600

/-- The lane with the bits of `e` at even positions and those of `o` at odd positions. -/
def il (e o : Word) : Lane :=
  BitVec.ofNat 64 (Bits.toNat (List.ofFn fun i : Fin 64 =>
    if i.val % 2 = 0 then e.getLsbD (i.val / 2) else o.getLsbD (i.val / 2)))

theorem getLsbD_il (e o : Word) (i : Nat) (hi : i < 64) :
    (il e o).getLsbD i = if i % 2 = 0 then e.getLsbD (i / 2) else o.getLsbD (i / 2) := by
  rw [il, BitVec.getLsbD_ofNat, Bits.testBit_toNat, List.getD_eq_getElem?_getD, List.getElem?_ofFn]
  simp [hi]

theorem il_xor (a b c d : Word) : il (a ^^^ b) (c ^^^ d) = il a c ^^^ il b d := by
  apply BitVec.eq_of_getLsbD_eq; intro i hi
  simp only [BitVec.getLsbD_xor, getLsbD_il _ _ _ hi]
  split <;> rfl

theorem il_and (a b c d : Word) : il (a &&& b) (c &&& d) = il a c &&& il b d := by
  apply BitVec.eq_of_getLsbD_eq; intro i hi
  simp only [BitVec.getLsbD_and, getLsbD_il _ _ _ hi]
  split <;> rfl

theorem il_or (a b c d : Word) : il (a ||| b) (c ||| d) = il a c ||| il b d := by
  apply BitVec.eq_of_getLsbD_eq; intro i hi
  simp only [BitVec.getLsbD_or, getLsbD_il _ _ _ hi]
  split <;> rfl

theorem il_not (a b : Word) : il (~~~ a) (~~~ b) = ~~~ il a b := by
  apply BitVec.eq_of_getLsbD_eq; intro i hi
  have : i / 2 < 32 := by omega
  simp only [BitVec.getLsbD_not, getLsbD_il _ _ _ hi, hi, this, decide_true, Bool.true_and]
  split <;> rfl

theorem il_zero : il 0 0 = 0 := by decide +kernel

theorem il_injective {a b c d : Word} (h : il a b = il c d) : a = c ∧ b = d := by
  constructor <;> apply BitVec.eq_of_getLsbD_eq <;> intro i hi
  · have := congrArg (fun w => w.getLsbD (2 * i)) h
    simpa only [getLsbD_il _ _ (2 * i) (by omega), show 2 * i % 2 = 0 by omega, show 2 * i / 2 = i by omega, if_true]
      using this
  · have := congrArg (fun w => w.getLsbD (2 * i + 1)) h
    simpa only [getLsbD_il _ _ (2 * i + 1) (by omega), show ¬ (2 * i + 1) % 2 = 0 by omega,
      show (2 * i + 1) / 2 = i by omega, if_false] using this

/-- The 25 lanes that 50 words represent. -/
def lanes (A : Words) : Lanes := fun i => il (A ⟨i.val * 2 + 0, by omega⟩) (A ⟨i.val * 2 + 1, by omega⟩)

theorem lanes_injective : Function.Injective lanes := by
  intro A B h
  funext j
  have := il_injective (congrFun h ⟨j.val / 2, by omega⟩)
  rcases Nat.mod_two_eq_zero_or_one j.val with e | e
  · have ej : (⟨j.val / 2 * 2 + 0, by omega⟩ : Fin 50) = j := Fin.ext (by simp only; omega)
    rw [← ej]; exact this.1
  · have ej : (⟨j.val / 2 * 2 + 1, by omega⟩ : Fin 50) = j := Fin.ext (by simp only; omega)
    rw [← ej]; exact this.2

theorem lanes_put (A : Words) (p : Nat) (hp : p < 25) (e o : Word) :
    lanes (put (put A ⟨p * 2 + 0, by omega⟩ e) ⟨p * 2 + 1, by omega⟩ o) = put (lanes A) ⟨p, hp⟩ (il e o) := by
  funext i
  by_cases h : i = ⟨p, hp⟩
  · subst h
    simp [lanes, put]
  · have h' : i.val ≠ p := fun e => h (Fin.ext e)
    have h1 : ¬ (i.val * 2 + 0 = p * 2 + 0) := by omega
    have h2 : ¬ (i.val * 2 + 0 = p * 2 + 1) := by omega
    have h3 : ¬ (i.val * 2 + 1 = p * 2 + 0) := by omega
    have h4 : ¬ (i.val * 2 + 1 = p * 2 + 1) := by omega
    simp only [lanes, put, h, Fin.mk.injEq, h1, h2, h3, h4, if_false]

theorem lanes_zero : lanes (fun _ => 0) = fun _ => 0 := by
  funext i; exact il_zero

theorem getWord_some {A : Words} {i : Nat} (h : i < 50) : getWord A i = some (A ⟨i, h⟩) := by simp [getWord, h]

theorem setWord_some {A : Words} {i : Nat} (h : i < 50) (w : Word) : setWord A i w = some (put A ⟨i, h⟩ w) := by
  simp [setWord, h]

/-- The bytes that 50 words represent. -/
def view32 (A : Words) : Bytes := bytesOfLanes (lanes A)

theorem length_view32 (A : Words) : (view32 A).length = 200 := length_bytesOfLanes _

theorem getLsbD_append64 (h l : Word) (i : Nat) :
    (h ++ l : Lane).getLsbD i = if i < 32 then l.getLsbD i else h.getLsbD (i - 32) := by
  rw [show (h ++ l : Lane).getLsbD i = (h ++ l).getLsbD i from rfl, BitVec.getLsbD_append]

/-! ## bytes of the two halves of a lane -/

theorem getLsbD_word (b : Bytes) (j k : Nat) (hk : k < 32) :
    (Ref32.word b j).getLsbD k = (b.getD (j + k / 8) 0).getLsbD (k % 8) := by
  have hb : ∀ (v : Byte) n, 8 ≤ n → v.getLsbD n = false := fun v n hn => BitVec.getLsbD_of_ge v n hn
  simp only [Ref32.word, BitVec.getLsbD_or, BitVec.getLsbD_shiftLeft, BitVec.getLsbD_setWidth, hk, decide_true,
    Bool.true_and]
  have : k / 8 = 0 ∨ k / 8 = 1 ∨ k / 8 = 2 ∨ k / 8 = 3 := by omega
  rcases this with h | h | h | h
  · have e1 : k % 8 = k := by omega
    have c1 : k < 8 := by omega
    have c2 : k < 16 := by omega
    have c3 : k < 24 := by omega
    rw [h, e1]; simp [c1, c2, c3]
  · have e1 : k % 8 = k - 8 := by omega
    have c1 : ¬ k < 8 := by omega
    have c2 : k < 16 := by omega
    have c3 : k < 24 := by omega
    have c4 : k - 8 < 32 := by omega
    rw [h, e1, hb _ k (by omega)]; simp [c1, c2, c3, c4]
  · have e1 : k % 8 = k - 16 := by omega
    have c2 : ¬ k < 16 := by omega
    have c3 : k < 24 := by omega
    have c4 : k - 16 < 32 := by omega
    rw [h, e1, hb _ k (by omega), hb _ (k - 8) (by omega)]; simp [c2, c3, c4]
  · have e1 : k % 8 = k - 24 := by omega
    have c3 : ¬ k < 24 := by omega
    have c4 : k - 24 < 32 := by omega
    rw [h, e1, hb _ k (by omega), hb _ (k - 8) (by omega), hb _ (k - 16) (by omega)]; simp [c3, c4]

theorem append_word (b : Bytes) : (Ref32.word b 4 ++ Ref32.word b 0 : Lane) = wordOfBytes b := by
  apply BitVec.eq_of_getLsbD_eq; intro i hi
  rw [getLsbD_append64, getLsbD_wordOfBytes b ⟨i, hi⟩]
  split
  · rename_i h
    rw [getLsbD_word _ _ _ h]; simp
  · rename_i h
    rw [getLsbD_word _ _ _ (by omega), show 4 + (i - 32) / 8 = i / 8 by omega, show (i - 32) % 8 = i % 8 by omega]

theorem bytes_append (l h : Word) : Ref32.bytes l ++ Ref32.bytes h = bytesOfWord (h ++ l : Lane) := by
  have key : ∀ (w : Word) (v : Lane) (n m : Nat), n + 8 ≤ 32 → (∀ t, t < 8 → w.getLsbD (n + t) = v.getLsbD (m + t)) →
      ((w >>> n) &&& 0xFF).setWidth 8 = ((v >>> m) &&& 0xFF).setWidth 8 := by
    intro w v n m hn hwv
    apply byte_ext; intro t ht
    have c1 : ∀ k : Fin 8, (0xFF : Lane).getLsbD k.val = true := by decide
    have c2 : ∀ k : Fin 8, (0xFF : Word).getLsbD k.val = true := by decide
    simp only [BitVec.getLsbD_setWidth, ht, decide_true, Bool.true_and, BitVec.getLsbD_and,
      BitVec.getLsbD_ushiftRight, c1 ⟨t, ht⟩, c2 ⟨t, ht⟩, Bool.and_true]
    exact hwv t ht
  have lo : ∀ n, n + 8 ≤ 32 → ((l >>> n) &&& 0xFF).setWidth 8 = (((h ++ l : Lane) >>> n) &&& 0xFF).setWidth 8 := by
    intro n hn
    refine key _ _ _ _ hn fun t ht => ?_
    rw [getLsbD_append64, if_pos (by omega)]
  have hi : ∀ n, n + 8 ≤ 32 →
      ((h >>> n) &&& 0xFF).setWidth 8 = (((h ++ l : Lane) >>> (n + 32)) &&& 0xFF).setWidth 8 := by
    intro n hn
    refine key _ _ _ _ hn fun t ht => ?_
    rw [getLsbD_append64, if_neg (by omega), show n + 32 + t - 32 = n + t by omega]
  have e1 : ∀ w : Word, (w &&& 0xFF).setWidth 8 = ((w >>> 0) &&& 0xFF).setWidth 8 := by intro w; simp
  simp only [Ref32.bytes, List.cons_append, List.nil_append]
  rw [e1 l, e1 h, lo 0 (by omega), lo 8 (by omega), lo 16 (by omega), lo 24 (by omega), hi 0 (by omega),
    hi 8 (by omega), hi 16 (by omega), hi 24 (by omega)]
  rfl

/-- xoring bytes into one lane -/
theorem view32_xor {A A' : Words} {p o : Nat} {d : Bytes} (hp : p < 25) (ho : o + d.length ≤ 8)
    (h : lanes A' = put (lanes A) ⟨p, hp⟩
      (lanes A ⟨p, hp⟩ ^^^ wordOfBytes (Bytes.setAt (List.replicate 8 0) o d))) :
    view32 A' = Bytes.xorAt (view32 A) (p * 8 + o) d := by
  rw [view32, h, bytesOfLanes_put_xor]
  refine xorAt_shift _ p o d _ ho fun k hk => ?_
  rw [byteOf_wordOfBytes _ _ hk, List.getD_eq_getElem?_getD, Bytes.getElem?_setAt,
    List.getElem?_eq_getElem (by simpa using hk)]
  simp only [List.getElem_replicate, Option.map_some, Option.getD_some]
  by_cases h1 : o ≤ k
  · by_cases h2 : k < o + d.length
    · rw [if_pos ⟨h1, h2⟩, if_pos h1]
    · rw [if_neg (by omega), if_pos h1, List.getD_eq_getElem?_getD, List.getElem?_eq_none (by omega)]; rfl
  · rw [if_neg (by omega), if_neg h1]

/-- overwriting bytes of one lane -/
theorem view32_set {A A' : Words} {p o : Nat} {d : Bytes} (hp : p < 25) (ho : o + d.length ≤ 8)
    (h : lanes A' = put (lanes A) ⟨p, hp⟩ (wordOfBytes (Bytes.setAt (bytesOfWord (lanes A ⟨p, hp⟩)) o d))) :
    view32 A' = Bytes.setAt (view32 A) (p * 8 + o) d := by
  rw [view32, h, bytesOfLanes_put, bytesOfWord_wordOfBytes _ (by rw [Bytes.length_setAt, length_bytesOfWord]), view32]
  apply List.ext_getElem?; intro j
  rw [Bytes.getElem?_setAt, Bytes.getElem?_setAt, Bytes.length_setAt, length_bytesOfWord, getElem?_bytesOfLanes]
  by_cases hj : j < 200
  · rw [dif_pos hj]
    simp only [Option.map_some, Option.some.injEq]
    by_cases h1 : p * 8 ≤ j ∧ j < p * 8 + 8
    · rw [if_pos h1, List.getD_eq_getElem?_getD, Bytes.getElem?_setAt, getElem?_bytesOfWord, if_pos (by omega)]
      simp only [Option.map_some, Option.getD_some]
      by_cases h2 : o ≤ j - p * 8 ∧ j - p * 8 < o + d.length
      · rw [if_pos h2, if_pos (by omega), show j - p * 8 - o = j - (p * 8 + o) by omega]
      · rw [if_neg h2, if_neg (by omega)]
        have e1 : (⟨j / 8, by omega⟩ : Fin 25) = ⟨p, hp⟩ := Fin.ext (by simp only; omega)
        rw [e1, show j % 8 = j - p * 8 by omega]
    · rw [if_neg h1, if_neg (by omega)]
  · rw [dif_neg hj]; rfl

end KeccakP1600
