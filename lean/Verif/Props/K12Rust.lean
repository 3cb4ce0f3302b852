import Verif.Proofs.K12Rust
import Verif.Props.KangarooTwelve

/-!
# Property C54: the standalone KangarooTwelve in Rust

`Standalone/KangarooTwelve/Rust/k12.rs` shares no code with the library.  `none` is a panic, or a loop that does not end.
-/

namespace K12Rust

/-- C54: the permutation is KECCAK-p[1600, 12]. -/
theorem C54_permutation (s : Bytes) (hs : s.length = 200) :
    ∃ t, permute s = some t ∧ t.length = 200 ∧ Bits.ofBytes t = Spec.KeccakP.keccakP 12 (Bits.ofBytes s) :=
  ⟨_, permute_eq s hs, perm_ok.len hs, (P12_ok.permute s hs).symm⟩

/-- C54: `F` is TurboSHAKE128, for every delimited suffix and all lengths. -/
theorem C54_F (m : Bytes) (d : Byte) (l : Bits) (hd : Bits.DelimitedBy l d) (n : Nat) (hn : n < 2 ^ 63) :
    ∃ o, F m d n = some o ∧ o.length = n ∧
      Bits.ofBytes o = Spec.TurboSHAKE (Spec.KeccakP.keccakP 12) 256 (Bits.ofBytes m) l (8 * n) :=
  F_turbo m d l hd n hn

/-- C54: `right_encode` is `length_encode` of RFC 9861 for every number. -/
theorem C54_right_encode (x : Nat) : Bits.ofBytes (rightEncode x) = Spec.length_encode x := ofBytes_rightEncode x

/-- C54: `KangarooTwelve` is KT128 of RFC 9861. -/
theorem C54_KangarooTwelve (M C : Bytes) (n : Nat) (hlen : M.length + C.length + 9 < 2 ^ 63) (hn : n < 2 ^ 63) :
    ∃ o, kangarooTwelve M C n = some o ∧ o.length = n ∧
      Bits.ofBytes o = Spec.KangarooTwelve (Spec.KeccakP.keccakP 12) 128 (Bits.ofBytes M) (Bits.ofBytes C) (8 * n) :=
  kangarooTwelve_eq M C n hlen hn

/-- C54: the Rust code and the function `KT128` of the library return the same bytes, whatever the SnP and the parallel
implementations the library is built with. -/
theorem C54_agrees {P : SnP} (hP : KeccakP1600.Computes P 12) (cfgs : Nat → List PlSnP.Cfg)
    (hcfg : ∀ cfg ∈ cfgs 128, KT.CfgFits (Spec.KeccakP.keccakP 12) 128 cfg) (stack : KtInst)
    (M C : Bytes) (n : Nat) (hlen : M.length + C.length + 9 < 2 ^ 63) (hn : n < 2 ^ 63) (h0 : n ≠ 0) :
    KT.kangarooTwelve P cfgs stack 128 M n C = (kangarooTwelve M C n).map fun o => (0, o) := by
  obtain ⟨o, h1, -, h2⟩ := kangarooTwelve_eq M C n hlen hn
  obtain ⟨o', h3, h4⟩ := KT.C18_KT_one_call (sec := 128) hP.valid hP.width (Spec.KeccakP.keccakP 12)
    (fun s hs => hP.permute s (hs.trans hP.width.symm)) (Or.inl rfl) cfgs hcfg stack M C (by omega) (by omega) n h0
  have e : o' = o := Bits.ofBytes_injective (h4.trans h2.symm)
  rw [h1, ← e]
  exact h3

theorem bind_none {α β : Type} {x : Option α} {f : α → Option β} (h : ∀ a, f a = none) : (x >>= f) = none := by
  cases x with
  | none => rfl
  | some a => exact h a

theorem F_none (m : Bytes) (d : Byte) (n : Nat) (hn : 2 ^ 63 ≤ n) : F m d n = none := by
  unfold F
  refine bind_none fun _ => bind_none fun _ => bind_none fun _ => bind_none fun _ => bind_none fun _ => bind_none fun _ =>
    bind_none fun _ => ?_
  rw [show vec n = none from if_neg (by omega)]; rfl

/-- C54: the function returns exactly if the vectors it makes are not too large; otherwise it panics. -/
theorem C54_defined (M C : Bytes) (n : Nat) (hC : C.length < 2 ^ 63) :
    (∃ o, kangarooTwelve M C n = some o) ↔ M.length + C.length + (rightEncode C.length).length < 2 ^ 63 ∧ n < 2 ^ 63 := by
  have hl : (M ++ C ++ rightEncode C.length).length = M.length + C.length + (rightEncode C.length).length := by
    simp only [List.length_append]
  constructor
  · rintro ⟨o, h⟩
    by_contra hc
    rw [not_and_or] at hc
    have : kangarooTwelve M C n = none := by
      by_cases h1 : (M ++ C ++ rightEncode C.length).length < 2 ^ 63
      · have h2 : 2 ^ 63 ≤ n := by rw [hl] at h1; omega
        unfold kangarooTwelve
        refine bind_none fun _ => bind_none fun _ => bind_none fun Si => ?_
        split
        · cases Si[0]? with
          | none => rfl
          | some s => exact F_none s _ n h2
        split
        · rfl
        · unfold tree
          exact bind_none fun _ => bind_none fun _ => bind_none fun _ => bind_none fun _ => F_none _ _ n h2
      · unfold kangarooTwelve
        simp only
        rw [show vec (M ++ C ++ rightEncode C.length).length = none from if_neg h1]; rfl
    rw [this] at h; cases h
  · rintro ⟨h1, h2⟩
    obtain ⟨o, h, -⟩ := kangarooTwelve_eq' M C n (by omega) h1 h2
    exact ⟨o, h⟩

/-! ## Concrete cases -/

/-- The hypotheses of `C54_F` are met with a full block, with a suffix that has its last bit set, and with two blocks of output. -/
example : ∃ o, F (List.replicate 167 1) 0xFF 200 = some o ∧ o.length = 200 ∧
    Bits.ofBytes o = Spec.TurboSHAKE (Spec.KeccakP.keccakP 12) 256 (Bits.ofBytes (List.replicate 167 1))
      [true, true, true, true, true, true, true] 1600 :=
  C54_F _ _ _ ⟨by decide, by decide⟩ 200 (by decide)

example : rightEncode 12 = [12, 1] ∧ rightEncode 65538 = [1, 0, 2, 3] ∧ rightEncode 0 = [0] := by
  refine ⟨?_, ?_, ?_⟩ <;> (unfold rightEncode; repeat (unfold digits; simp))

/-- Several chunks: a message of 20000 bytes. -/
example : ∃ o, kangarooTwelve (List.replicate 20000 1) [2, 3] 32 = some o ∧ o.length = 32 ∧
    Bits.ofBytes o = Spec.KangarooTwelve (Spec.KeccakP.keccakP 12) 128 (Bits.ofBytes (List.replicate 20000 1))
      (Bits.ofBytes [2, 3]) 256 :=
  C54_KangarooTwelve _ _ 32 (by rw [List.length_replicate]; decide) (by decide)

end K12Rust
