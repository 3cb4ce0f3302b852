import Verif.Proofs.ByteAccess

/-!
The fast absorption loop of the optimised 64-bit implementation.
-/

namespace KeccakP1600.Opt64

theorem view_addInput (k : Cfg) (v : V) (d : Bytes) (n : Nat) (hn : n ≤ 25) (hd : n * 8 ≤ d.length) :
    view k (copyToState (addInput v (fun i => wordOfBytes (d.drop (i * 8))) n)) =
      Bytes.xorAt (view k (copyToState v)) 0 (d.take (n * 8)) := by
  have h8 : ∀ a b : Lane, ~~~ (a ^^^ b) = ~~~ a ^^^ b := by
    intro a b; ext i hi; simp
  have e : plain k (copyToState (addInput v (fun i => wordOfBytes (d.drop (i * 8))) n)) = fun i =>
      if i.val < n then plain k (copyToState v) i ^^^ wordOfBytes (d.drop (i.val * 8))
      else plain k (copyToState v) i := by
    funext i
    have := addInput_lane v (fun i => wordOfBytes (d.drop (i * 8))) ⟨n, by omega⟩ i
    simp only [] at this
    simp only [plain, this]
    split
    · split
      · exact h8 _ _
      · rfl
    · rfl
  rw [view, e]
  apply List.ext_getElem?; intro j
  rw [Bytes.getElem?_xorAt, view, getElem?_bytesOfLanes, getElem?_bytesOfLanes]
  split
  · simp only [Option.map_some, Option.some.injEq]
    rw [if_pos (Nat.zero_le j), Nat.sub_zero, List.getD_eq_getElem?_getD, List.getElem?_take]
    by_cases hj : j / 8 < n
    · rw [if_pos hj, if_pos (by omega), byteOf_xor, byteOf_wordOfBytes _ _ (by omega), List.getD_eq_getElem?_getD,
        List.getElem?_drop, show j / 8 * 8 + j % 8 = j by omega]
    · rw [if_neg hj, if_neg (by omega)]; simp
  · rfl

theorem fastLoop_eq (k : Cfg) (rounds : St → St) (f : Bytes → Bytes)
    (hf : ∀ s, view k (copyToState (rounds s).A) = f (view k (copyToState s.A)))
    (n : Nat) (hn0 : 0 < n) (hn : n ≤ 25) (data : Bytes) : ∀ fuel s pos len, len < fuel →
    pos * 8 + len = data.length →
    ∃ s', fastLoop rounds n data fuel s pos len = some (s', len % (n * 8)) ∧
      view k (copyToState s'.A) = SnP.absorbBlocks f (n * 8) (len / (n * 8)) (view k (copyToState s.A))
        (data.drop (pos * 8)) := by
  intro fuel
  induction fuel with
  | zero => intro s pos len h; omega
  | succ fuel ih =>
    intro s pos len hlen hpos
    rw [fastLoop]
    split
    · rename_i hge
      have e1 : len / (n * 8) = (len - n * 8) / (n * 8) + 1 := by
        rw [← Nat.div_eq_sub_div (by omega) hge]
      have e2 : len % (n * 8) = (len - n * 8) % (n * 8) := Nat.mod_eq_sub_mod hge
      have e3 : (fun i => wordOfBytes (data.drop ((pos + i) * 8))) =
          fun i => wordOfBytes ((data.drop (pos * 8)).drop (i * 8)) := by
        funext i; rw [List.drop_drop, show (pos + i) * 8 = pos * 8 + i * 8 by omega]
      obtain ⟨s', h1, h2⟩ := ih (rounds { s with A := addInput s.A (fun i => wordOfBytes (data.drop ((pos + i) * 8))) n })
        (pos + n) (len - n * 8) (by omega) (by omega)
      refine ⟨s', by rw [e2]; exact h1, ?_⟩
      rw [h2, hf, e1, SnP.absorbBlocks]
      simp only []
      rw [e3, view_addInput k _ _ _ hn (by simp; omega), List.drop_drop,
        show (pos + n) * 8 = pos * 8 + n * 8 by omega]
    · rename_i hge
      refine ⟨s, by rw [Nat.mod_eq_of_lt (by omega)], ?_⟩
      rw [Nat.div_eq_of_lt (by omega), SnP.absorbBlocks]

end KeccakP1600.Opt64
