import Verif.Proofs.FarfalleExpandCall
import Verif.Proofs.LaneBytes
import Verif.Proofs.XoodooBytes
import Verif.Spec.Farfalle

/-! The roll functions of Kravatte and Xoofff. -/

namespace Farfalle

open Sponge (repeat_succ')

/-- `RollOk` for a function that loads a list of words, iterates a step on it and stores it. -/
theorem rollOk_of {T : Type} {f : Bytes → Nat → Bytes × Bytes} {w off size : Nat} (ok : T → Prop) (step : T → T)
    (store : T → Bytes) (load : Bytes → T) (hoff : off + size = w) (hstep : ∀ t, ok t → ok (step t))
    (hok : ∀ x : Bytes, x.length = w → ok (load x)) (hlen : ∀ t, ok t → (store t).length = size)
    (hls : ∀ (x : Bytes) (t : T), x.length = w → ok t → load (Bytes.setAt x off (store t)) = t)
    (hsl : ∀ x : Bytes, x.length = w → store (load x) = x.drop off)
    (hf : ∀ (x : Bytes) (n : Nat), x.length = w → f x n = (Bytes.setAt x off (store (Nat.repeat step n (load x))),
      (List.range n).flatMap fun i => store (Nat.repeat step i (load x)))) : RollOk f w off size := by
  have hokn : ∀ (x : Bytes), x.length = w → ∀ n, ok (Nat.repeat step n (load x)) := by
    intro x hx n
    induction n with
    | zero => exact hok x hx
    | succ n ih => exact hstep _ ih
  have hset : ∀ (x d : Bytes), x.length = w → d.length = size → Bytes.setAt x off d = x.take off ++ d := by
    intro x d hx hd
    have h := take_setAt x d off (by omega)
    rwa [List.take_of_length_le (by rw [Bytes.length_setAt]; omega)] at h
  have hone : ∀ x : Bytes, x.length = w → (f x 1).1 = x.take off ++ store (step (load x)) := by
    intro x hx
    rw [hf x 1 hx]
    exact hset x _ hx (hlen _ (hstep _ (hok x hx)))
  have hiter : ∀ (x : Bytes), x.length = w → ∀ n,
      Nat.repeat (fun x => (f x 1).1) n x = x.take off ++ store (Nat.repeat step n (load x)) := by
    intro x hx n
    induction n with
    | zero =>
      change x = x.take off ++ store (load x)
      rw [hsl x hx, List.take_append_drop]
    | succ n ih =>
      change (f (Nat.repeat (fun x => (f x 1).1) n x) 1).1 = _
      have hl := hlen _ (hokn x hx n)
      have e : x.take off ++ store (Nat.repeat step n (load x)) = Bytes.setAt x off (store (Nat.repeat step n (load x))) :=
        (hset x _ hx hl).symm
      have hlw : (x.take off ++ store (Nat.repeat step n (load x))).length = w := by
        rw [e, Bytes.length_setAt, hx]
      rw [ih, hone _ hlw, List.take_append_of_le_length (by rw [List.length_take]; omega), List.take_take,
        Nat.min_self, e, hls x _ hx (hokn x hx n)]
      rfl
  refine ⟨hoff, ?_, ?_, ?_, ?_, ?_⟩
  · intro x hx
    rw [hf x 1 hx, Bytes.length_setAt, hx]
  · intro x hx
    rw [hone x hx, List.take_append_of_le_length (by rw [List.length_take]; omega), List.take_take, Nat.min_self]
  · intro x n hx
    rw [hiter x hx n, hf x n hx]
    exact hset x _ hx (hlen _ (hokn x hx n))
  · intro x n hx
    rw [hf x n hx]
    dsimp only
    induction n with
    | zero => simp
    | succ n ih =>
      rw [List.range_succ, List.flatMap_append, List.length_append, ih, Nat.succ_mul]
      simp [hlen _ (hokn x hx n)]
  · intro x n i hx hi
    rw [hiter x hx i, hf x n hx, List.drop_append, List.drop_of_length_le (by rw [List.length_take]; omega),
      List.nil_append, List.length_take, Nat.min_eq_left (by omega), Nat.sub_self, List.drop_zero]
    dsimp only
    have key : ∀ m, Bytes.slice ((List.range (i + 1 + m)).flatMap fun i => store (Nat.repeat step i (load x))) (i * size) size =
        store (Nat.repeat step i (load x)) := by
      intro m
      have hpre : ((List.range i).flatMap fun i => store (Nat.repeat step i (load x))).length = i * size := by
        clear hi
        induction i with
        | zero => simp
        | succ i ih =>
          rw [List.range_succ, List.flatMap_append, List.length_append, ih, Nat.succ_mul]
          simp [hlen _ (hokn x hx i)]
      rw [Nat.add_assoc, List.range_add, List.flatMap_append, Bytes.slice, List.drop_append,
        List.drop_of_length_le (by omega), hpre, Nat.sub_self, List.drop_zero, List.nil_append, Nat.add_comm 1 m,
        List.range_succ_eq_map, List.map_cons, List.flatMap_cons, Nat.add_zero]
      exact List.take_left' (hlen _ (hokn x hx i))
    have := key (n - (i + 1))
    rwa [show i + 1 + (n - (i + 1)) = n by omega] at this

end Farfalle

namespace Kravatte

open KeccakP1600 (Lane Lanes wordOfBytes bytesOfWord bytesOfLanes lanesOfBytes put length_bytesOfWord
  wordOfBytes_bytesOfWord bytesOfWord_wordOfBytes wordOfBytes_take arr lane)

def pack (l : List Lane) : Bytes := l.flatMap bytesOfWord

def unpack : Nat → Bytes → List Lane
  | 0, _ => []
  | m + 1, d => wordOfBytes d :: unpack m (d.drop 8)

theorem length_unpack : ∀ m d, (unpack m d).length = m
  | 0, _ => rfl
  | m + 1, d => by rw [unpack, List.length_cons, length_unpack m]

theorem length_pack (l : List Lane) : (pack l).length = 8 * l.length := by
  induction l with
  | nil => rfl
  | cons a l ih =>
    rw [pack, List.flatMap_cons, List.length_append, length_bytesOfWord, List.length_cons]
    unfold pack at ih; omega

theorem pack_unpack : ∀ m (d : Bytes), d.length = 8 * m → pack (unpack m d) = d
  | 0, d, h => by
    have : d = [] := List.eq_nil_of_length_eq_zero (by omega)
    subst this; rfl
  | m + 1, d, h => by
    have ih := pack_unpack m (d.drop 8) (by rw [List.length_drop]; omega)
    rw [unpack, pack, List.flatMap_cons]
    unfold pack at ih
    rw [ih, ← wordOfBytes_take, bytesOfWord_wordOfBytes _ (by rw [List.length_take]; omega), List.take_append_drop]

theorem unpack_pack : ∀ (l : List Lane), unpack l.length (pack l) = l
  | [] => rfl
  | a :: l => by
    have ih := unpack_pack l
    have hl : (bytesOfWord a).length = 8 := length_bytesOfWord a
    rw [List.length_cons, unpack, pack, List.flatMap_cons, List.drop_left' hl, ← wordOfBytes_take, List.take_left' hl,
      wordOfBytes_bytesOfWord]
    unfold pack at ih
    rw [ih]

theorem drop_setAt (x d : Bytes) (off : Nat) (h : off + d.length = x.length) : (Bytes.setAt x off d).drop off = d := by
  have h1 := Farfalle.take_setAt x d off (by omega)
  rw [List.take_of_length_le (by rw [Bytes.length_setAt]; omega)] at h1
  rw [h1, List.drop_append, List.drop_of_length_le (by rw [List.length_take]; omega), List.nil_append, List.length_take,
    Nat.min_eq_left (by omega), Nat.sub_self, List.drop_zero]

/-- One step of `Kravatte_Rollc` on the five words. -/
def stepc : List Lane → List Lane
  | [x0, x1, x2, x3, x4] => [x1, x2, x3, x4, rol64 x0 7 ^^^ x1 ^^^ (x1 >>> 3)]
  | l => l

/-- One step of `Kravatte_Rolle` on the ten words. -/
def stepe : List Lane → List Lane
  | [x0, x1, x2, x3, x4, x5, x6, x7, x8, x9] =>
    [x1, x2, x3, x4, x5, x6, x7, x8, x9, rol64 x0 7 ^^^ rol64 x1 18 ^^^ (x2 &&& (x1 >>> 1))]
  | l => l

theorem flatMap_range_succ {T : Type} (g : T → Bytes) (step : T → T) (t : T) (n : Nat) :
    (List.range (n + 1)).flatMap (fun i => g (Nat.repeat step i t)) =
      g t ++ (List.range n).flatMap fun i => g (Nat.repeat step i (step t)) := by
  rw [List.range_succ_eq_map, List.flatMap_cons, List.flatMap_map]
  congr 1
  apply List.flatMap_congr
  intro i _
  rw [Sponge.repeat_succ']

theorem rollcLoop_eq : ∀ (n : Nat) (x0 x1 x2 x3 x4 : Lane) (enc : Bytes),
    rollcLoop n x0 x1 x2 x3 x4 enc = (pack (Nat.repeat stepc n [x0, x1, x2, x3, x4]),
      enc ++ (List.range n).flatMap fun i => pack (Nat.repeat stepc i [x0, x1, x2, x3, x4])) := by
  intro n
  induction n with
  | zero => intros; simp [rollcLoop, pack, Nat.repeat, List.append_assoc]
  | succ n ih =>
    intro x0 x1 x2 x3 x4 enc
    rw [rollcLoop, ih, flatMap_range_succ, Sponge.repeat_succ', stepc]
    simp [pack, List.append_assoc]

theorem rolleLoop_eq : ∀ (n : Nat) (x0 x1 x2 x3 x4 x5 x6 x7 x8 x9 : Lane) (enc : Bytes),
    rolleLoop n x0 x1 x2 x3 x4 x5 x6 x7 x8 x9 enc = (pack (Nat.repeat stepe n [x0, x1, x2, x3, x4, x5, x6, x7, x8, x9]),
      enc ++ (List.range n).flatMap fun i => pack (Nat.repeat stepe i [x0, x1, x2, x3, x4, x5, x6, x7, x8, x9])) := by
  intro n
  induction n with
  | zero => intros; simp [rolleLoop, pack, Nat.repeat, List.append_assoc]
  | succ n ih =>
    intro x0 x1 x2 x3 x4 x5 x6 x7 x8 x9 enc
    rw [rolleLoop, ih, flatMap_range_succ, Sponge.repeat_succ', stepe]
    simp [pack, List.append_assoc]

theorem length_stepc (l : List Lane) : (stepc l).length = l.length := by
  unfold stepc; split <;> rfl

theorem length_stepe (l : List Lane) : (stepe l).length = l.length := by
  unfold stepe; split <;> rfl

theorem rollc_eq (x : Bytes) (n : Nat) : rollc x n = (Bytes.setAt x 160 (pack (Nat.repeat stepc n (unpack 5 (x.drop 160)))),
    (List.range n).flatMap fun i => pack (Nat.repeat stepc i (unpack 5 (x.drop 160)))) := by
  have e : [word x 20, word x 21, word x 22, word x 23, word x 24] = unpack 5 (x.drop 160) := by
    simp only [unpack, word, List.drop_drop]
  simp only [rollc, rollcLoop_eq, e, List.nil_append]

theorem rolle_eq (x : Bytes) (n : Nat) : rolle x n = (Bytes.setAt x 120 (pack (Nat.repeat stepe n (unpack 10 (x.drop 120)))),
    (List.range n).flatMap fun i => pack (Nat.repeat stepe i (unpack 10 (x.drop 120)))) := by
  have e : [word x 15, word x 16, word x 17, word x 18, word x 19, word x 20, word x 21, word x 22, word x 23, word x 24] =
      unpack 10 (x.drop 120) := by
    simp only [unpack, word, List.drop_drop]
  simp only [rolle, rolleLoop_eq, e, List.nil_append]

theorem rollc_ok : Farfalle.RollOk rollc 200 160 40 := by
  refine Farfalle.rollOk_of (fun l : List Lane => l.length = 5) stepc pack (fun x => unpack 5 (x.drop 160)) rfl
    (fun t h => by rw [length_stepc, h]) (fun x _ => length_unpack _ _) (fun t h => by rw [length_pack, h])
    (fun x t hx ht => ?_) (fun x hx => pack_unpack _ _ (by rw [List.length_drop, hx])) (fun x n _ => rollc_eq x n)
  rw [drop_setAt _ _ _ (by rw [length_pack, ht, hx])]
  have := unpack_pack t
  rwa [ht] at this

theorem rolle_ok : Farfalle.RollOk rolle 200 120 80 := by
  refine Farfalle.rollOk_of (fun l : List Lane => l.length = 10) stepe pack (fun x => unpack 10 (x.drop 120)) rfl
    (fun t h => by rw [length_stepe, h]) (fun x _ => length_unpack _ _) (fun t h => by rw [length_pack, h])
    (fun x t hx ht => ?_) (fun x hx => pack_unpack _ _ (by rw [List.length_drop, hx])) (fun x n _ => rolle_eq x n)
  rw [drop_setAt _ _ _ (by rw [length_pack, ht, hx])]
  have := unpack_pack t
  rwa [ht] at this

/-- `Valid` for Kravatte needs assumptions on the permutation and the parallel paths only. -/
theorem valid {permute : Bytes → Bytes} {junk : Bytes} {paths : List Farfalle.Path}
    (hp : ∀ s : Bytes, s.length = 200 → (permute s).length = 200) (hj : junk.length = 200)
    (hpaths : ∀ p ∈ paths, Farfalle.PathOk (cfg permute junk paths) p) : Farfalle.Valid (cfg permute junk paths) where
  width_pos := Nat.succ_pos 199
  permute_len := hp
  junk_len := hj
  rollc_ok := rollc_ok
  rolle_ok := rolle_ok
  paths_ok := hpaths

theorem setAt_lanes (A : Lanes) (a b : Fin 25) (v : Lane) (rest : Bytes) (h : b.val = a.val + 1) :
    Bytes.setAt (bytesOfLanes A) (a.val * 8) (bytesOfWord v ++ rest) =
      Bytes.setAt (bytesOfLanes (put A a v)) (b.val * 8) rest := by
  rw [KeccakP1600.bytesOfLanes_put, h, Nat.add_mul, Nat.one_mul]
  have := Bytes.setAt_append (bytesOfLanes A) (a.val * 8) (bytesOfWord v) rest
  rw [length_bytesOfWord] at this
  exact this.symm

theorem getLsbD_rol64 (a : Lane) (o : Nat) (h0 : o ≠ 0) (ho : o < 64) (z : Fin 64) :
    (rol64 a o).getLsbD z.val = a.getLsbD (z - Fin.ofNat 64 o).val := by
  rw [← KeccakP1600.getLsbD_rol64 a o ho z]
  unfold rol64 KeccakP1600.Ref.rol64
  rw [if_pos h0]
  have hz := z.isLt
  simp only [BitVec.getLsbD_or, BitVec.getLsbD_xor, BitVec.getLsbD_shiftLeft, BitVec.getLsbD_ushiftRight]
  by_cases h : z.val < o
  · simp [h]
  · have : a.getLsbD (64 - o + z.val) = false := BitVec.getLsbD_of_ge _ _ (by omega)
    simp [this]

/-- The five words rolled, as an array of lanes. -/
def lanesc (A : Lanes) : Lanes :=
  put (put (put (put (put A 20 (A 21)) 21 (A 22)) 22 (A 23)) 23 (A 24)) 24 (rol64 (A 20) 7 ^^^ A 21 ^^^ (A 21 >>> 3))

/-- The ten words rolled, as an array of lanes. -/
def lanese (A : Lanes) : Lanes :=
  put (put (put (put (put (put (put (put (put (put A 15 (A 16)) 16 (A 17)) 17 (A 18)) 18 (A 19)) 19 (A 20)) 20 (A 21))
    21 (A 22)) 22 (A 23)) 23 (A 24)) 24 (rol64 (A 15) 7 ^^^ rol64 (A 16) 18 ^^^ (A 17 &&& (A 16 >>> 1)))

theorem word_eq (x : Bytes) (i : Fin 25) : word x i.val = lanesOfBytes x i := rfl

theorem rollc_lanes (x : Bytes) (hx : x.length = 200) : (rollc x 1).1 = bytesOfLanes (lanesc (lanesOfBytes x)) := by
  have hb := KeccakP1600.bytesOfLanes_lanesOfBytes x hx
  simp only [rollc, rollcLoop, List.append_assoc]
  have w := word_eq x
  rw [show word x 20 = _ from w 20, show word x 21 = _ from w 21, show word x 22 = _ from w 22,
    show word x 23 = _ from w 23, show word x 24 = _ from w 24]
  rw [show Bytes.setAt x = Bytes.setAt (bytesOfLanes (lanesOfBytes x)) by rw [hb]]
  generalize lanesOfBytes x = A
  refine (setAt_lanes A 20 21 _ _ rfl).trans ?_
  refine (setAt_lanes _ 21 22 _ _ rfl).trans ?_
  refine (setAt_lanes _ 22 23 _ _ rfl).trans ?_
  refine (setAt_lanes _ 23 24 _ _ rfl).trans ?_
  rw [← KeccakP1600.bytesOfLanes_put]
  rfl

theorem rolle_lanes (x : Bytes) (hx : x.length = 200) : (rolle x 1).1 = bytesOfLanes (lanese (lanesOfBytes x)) := by
  have hb := KeccakP1600.bytesOfLanes_lanesOfBytes x hx
  simp only [rolle, rolleLoop, List.append_assoc]
  have w := word_eq x
  rw [show word x 15 = _ from w 15, show word x 16 = _ from w 16, show word x 17 = _ from w 17,
    show word x 18 = _ from w 18, show word x 19 = _ from w 19, show word x 20 = _ from w 20,
    show word x 21 = _ from w 21, show word x 22 = _ from w 22, show word x 23 = _ from w 23, show word x 24 = _ from w 24]
  rw [show Bytes.setAt x = Bytes.setAt (bytesOfLanes (lanesOfBytes x)) by rw [hb]]
  generalize lanesOfBytes x = A
  refine (setAt_lanes A 15 16 _ _ rfl).trans ?_
  refine (setAt_lanes _ 16 17 _ _ rfl).trans ?_
  refine (setAt_lanes _ 17 18 _ _ rfl).trans ?_
  refine (setAt_lanes _ 18 19 _ _ rfl).trans ?_
  refine (setAt_lanes _ 19 20 _ _ rfl).trans ?_
  refine (setAt_lanes _ 20 21 _ _ rfl).trans ?_
  refine (setAt_lanes _ 21 22 _ _ rfl).trans ?_
  refine (setAt_lanes _ 22 23 _ _ rfl).trans ?_
  refine (setAt_lanes _ 23 24 _ _ rfl).trans ?_
  rw [← KeccakP1600.bytesOfLanes_put]
  rfl

theorem getLsbD_shr (a : Lane) (n : Nat) (z : Fin 64) :
    (a >>> n).getLsbD z.val = if h : z.val + n < 64 then a.getLsbD (⟨z.val + n, h⟩ : Fin 64).val else false := by
  rw [BitVec.getLsbD_ushiftRight]
  split
  · rw [Nat.add_comm]
  · exact BitVec.getLsbD_of_ge _ _ (by omega)

theorem arr_lanesc (A : Lanes) : arr (lanesc A) = Spec.Kravatte.rollc (arr A) := by
  funext x y z
  have hnew : (lanesc A 24).getLsbD z.val = Spec.Kravatte.rollc (arr A) 4 4 z := by
    change (rol64 (A 20) 7 ^^^ A 21 ^^^ (A 21 >>> 3)).getLsbD z.val = _
    rw [BitVec.getLsbD_xor, BitVec.getLsbD_xor, getLsbD_rol64 _ _ (by omega) (by omega), getLsbD_shr]
    rfl
  fin_cases x <;> fin_cases y <;> first | rfl | exact hnew

theorem arr_lanese (A : Lanes) : arr (lanese A) = Spec.Kravatte.rolle (arr A) := by
  funext x y z
  have hnew : (lanese A 24).getLsbD z.val = Spec.Kravatte.rolle (arr A) 4 4 z := by
    change (rol64 (A 15) 7 ^^^ rol64 (A 16) 18 ^^^ (A 17 &&& (A 16 >>> 1))).getLsbD z.val = _
    rw [BitVec.getLsbD_xor, BitVec.getLsbD_xor, BitVec.getLsbD_and, getLsbD_rol64 _ _ (by omega) (by omega),
      getLsbD_rol64 _ _ (by omega) (by omega), getLsbD_shr]
    rfl
  fin_cases x <;> fin_cases y <;> first | rfl | exact hnew

theorem rollc_spec (x : Bytes) (hx : x.length = 200) :
    Bits.ofBytes (rollc x 1).1 = Spec.Kravatte.par.rollc (Bits.ofBytes x) := by
  rw [rollc_lanes x hx, KeccakP1600.ofBytes_bytesOfLanes, arr_lanesc, KeccakP1600.arr_lanesOfBytes]
  rfl

theorem rolle_spec (x : Bytes) (hx : x.length = 200) :
    Bits.ofBytes (rolle x 1).1 = Spec.Kravatte.par.rolle (Bits.ofBytes x) := by
  rw [rolle_lanes x hx, KeccakP1600.ofBytes_bytesOfLanes, arr_lanese, KeccakP1600.arr_lanesOfBytes]
  rfl

end Kravatte

namespace Xoofff

open Xoodoo (Lane Lanes wordOfBytes bytesOfWord bytesOfLanes lanesOfBytes rotl32 length_bytesOfWord
  wordOfBytes_bytesOfWord bytesOfWord_wordOfBytes arr lane)

/-- The bytes of an array of lanes, in the notation of the model. -/
theorem bytesOf_eq (A : Lanes) : bytesOf (A 0) (A 1) (A 2) (A 3) (A 4) (A 5) (A 6) (A 7) (A 8) (A 9) (A 10) (A 11) =
    bytesOfLanes A := by
  have h : List.finRange 12 = [0, 1, 2, 3, 4, 5, 6, 7, 8, 9, 10, 11] := by decide
  simp only [bytesOfLanes, h, bytesOf, List.flatMap_cons, List.flatMap_nil, List.append_nil, List.append_assoc]

/-- The array of twelve lanes. -/
def vec (a0 a1 a2 a3 a4 a5 a6 a7 a8 a9 a10 a11 : Lane) : Lanes
  | 0 => a0 | 1 => a1 | 2 => a2 | 3 => a3 | 4 => a4 | 5 => a5 | 6 => a6 | 7 => a7 | 8 => a8 | 9 => a9 | 10 => a10
  | 11 => a11

def stepc (A : Lanes) : Lanes :=
  vec (A 4) (A 5) (A 6) (A 7) (A 8) (A 9) (A 10) (A 11) (A 1) (A 2) (A 3) (A 0 ^^^ ((A 0 <<< 13) ^^^ rotl32 (A 4) 3))

def stepe (A : Lanes) : Lanes :=
  vec (A 4) (A 5) (A 6) (A 7) (A 8) (A 9) (A 10) (A 11) (A 1) (A 2) (A 3)
    (rotl32 (A 0) 5 ^^^ rotl32 (A 4) 13 ^^^ (A 8 &&& A 4) ^^^ 7)

theorem rollcLoop_eq : ∀ (n : Nat) (A : Lanes) (enc : Bytes),
    rollcLoop n (A 0) (A 1) (A 2) (A 3) (A 4) (A 5) (A 6) (A 7) (A 8) (A 9) (A 10) (A 11) enc =
      (bytesOfLanes (Nat.repeat stepc n A), enc ++ (List.range n).flatMap fun i => bytesOfLanes (Nat.repeat stepc i A)) := by
  intro n
  induction n with
  | zero => intro A enc; simp [rollcLoop, Nat.repeat, bytesOf_eq]
  | succ n ih =>
    intro A enc
    rw [rollcLoop, bytesOf_eq, Kravatte.flatMap_range_succ, Sponge.repeat_succ', ← List.append_assoc]
    exact ih (stepc A) _

theorem rolleLoop_eq : ∀ (n : Nat) (A : Lanes) (enc : Bytes),
    rolleLoop n (A 0) (A 1) (A 2) (A 3) (A 4) (A 5) (A 6) (A 7) (A 8) (A 9) (A 10) (A 11) enc =
      (bytesOfLanes (Nat.repeat stepe n A), enc ++ (List.range n).flatMap fun i => bytesOfLanes (Nat.repeat stepe i A)) := by
  intro n
  induction n with
  | zero => intro A enc; simp [rolleLoop, Nat.repeat, bytesOf_eq]
  | succ n ih =>
    intro A enc
    rw [rolleLoop, bytesOf_eq, Kravatte.flatMap_range_succ, Sponge.repeat_succ', ← List.append_assoc]
    exact ih (stepe A) _

theorem rollc_eq (x : Bytes) (n : Nat) : rollc x n = (bytesOfLanes (Nat.repeat stepc n (lanesOfBytes x)),
    (List.range n).flatMap fun i => bytesOfLanes (Nat.repeat stepc i (lanesOfBytes x))) := by
  rw [← List.nil_append ((List.range n).flatMap _)]
  exact rollcLoop_eq n (lanesOfBytes x) []

theorem rolle_eq (x : Bytes) (n : Nat) : rolle x n = (bytesOfLanes (Nat.repeat stepe n (lanesOfBytes x)),
    (List.range n).flatMap fun i => bytesOfLanes (Nat.repeat stepe i (lanesOfBytes x))) := by
  rw [← List.nil_append ((List.range n).flatMap _)]
  exact rolleLoop_eq n (lanesOfBytes x) []

theorem roll_ok {f : Bytes → Nat → Bytes × Bytes} {step : Lanes → Lanes}
    (hf : ∀ x n, f x n = (bytesOfLanes (Nat.repeat step n (lanesOfBytes x)),
      (List.range n).flatMap fun i => bytesOfLanes (Nat.repeat step i (lanesOfBytes x)))) : Farfalle.RollOk f 48 0 48 := by
  refine Farfalle.rollOk_of (fun _ : Lanes => True) step bytesOfLanes lanesOfBytes rfl (fun _ _ => trivial)
    (fun _ _ => trivial) (fun A _ => Xoodoo.length_bytesOfLanes A) (fun x A hx _ => ?_)
    (fun x hx => Xoodoo.bytesOfLanes_lanesOfBytes x hx) (fun x n hx => ?_)
  · rw [Farfalle.setAt_all _ _ (by rw [Xoodoo.length_bytesOfLanes, hx]), Xoodoo.lanesOfBytes_bytesOfLanes]
  · rw [hf, Farfalle.setAt_all _ _ (by rw [Xoodoo.length_bytesOfLanes, hx])]

/-- `Valid` for Xoofff needs assumptions on the permutation and the parallel paths only. -/
theorem valid {permute : Bytes → Bytes} {junk : Bytes} {paths : List Farfalle.Path}
    (hp : ∀ s : Bytes, s.length = 48 → (permute s).length = 48) (hj : junk.length = 48)
    (hpaths : ∀ p ∈ paths, Farfalle.PathOk (cfg permute junk paths) p) : Farfalle.Valid (cfg permute junk paths) where
  width_pos := Nat.succ_pos 47
  permute_len := hp
  junk_len := hj
  rollc_ok := roll_ok rollc_eq
  rolle_ok := roll_ok rolle_eq
  paths_ok := hpaths

theorem getLsbD_shl (a : Lane) (n : Nat) (z : Fin 32) :
    (a <<< n).getLsbD z.val = if h : n ≤ z.val then a.getLsbD (⟨z.val - n, by omega⟩ : Fin 32).val else false := by
  rw [BitVec.getLsbD_shiftLeft]
  have hz := z.isLt
  by_cases h : n ≤ z.val
  · simp [h, hz, Nat.not_lt.mpr h]
  · simp [h, Nat.lt_of_not_le h]

theorem seven_bits : ∀ z : Fin 32, (7 : Lane).getLsbD z.val = decide (z.val < 3) := by decide

theorem rollPlanes_new (S : Spec.Xoodoo.StateArray) (l : Fin 32 → Bool) (z : Fin 32) :
    Spec.Xoofff.rollPlanes S l 3 2 z = l z := by
  change l (z - 0) = _
  rw [Xoodoo.fin32_sub_zero]

theorem arr_stepc (A : Lanes) : arr (stepc A) = Spec.Xoofff.rollc (arr A) := by
  funext x y z
  have hz : z - 0 = z := Xoodoo.fin32_sub_zero z
  have hnew : (stepc A 11).getLsbD z.val = Spec.Xoofff.rollc (arr A) 3 2 z := by
    change (A 0 ^^^ ((A 0 <<< 13) ^^^ rotl32 (A 4) 3)).getLsbD z.val = _
    rw [BitVec.getLsbD_xor, BitVec.getLsbD_xor, Xoodoo.getLsbD_rotl32 _ _ (by omega) (by omega), getLsbD_shl]
    rw [Spec.Xoofff.rollc, rollPlanes_new, Bool.xor_assoc]
    rfl
  have hold : ∀ x : Fin 4, (arr A x 0 z) = (arr A x 0 (z - 0)) := fun x => by rw [hz]
  fin_cases x <;> fin_cases y <;> first | rfl | exact hnew | exact hold 1 | exact hold 2 | exact hold 3

theorem arr_stepe (A : Lanes) : arr (stepe A) = Spec.Xoofff.rolle (arr A) := by
  funext x y z
  have hz : z - 0 = z := Xoodoo.fin32_sub_zero z
  have hnew : (stepe A 11).getLsbD z.val = Spec.Xoofff.rolle (arr A) 3 2 z := by
    change (rotl32 (A 0) 5 ^^^ rotl32 (A 4) 13 ^^^ (A 8 &&& A 4) ^^^ 7).getLsbD z.val = _
    rw [BitVec.getLsbD_xor, BitVec.getLsbD_xor, BitVec.getLsbD_xor, BitVec.getLsbD_and,
      Xoodoo.getLsbD_rotl32 _ _ (by omega) (by omega), Xoodoo.getLsbD_rotl32 _ _ (by omega) (by omega), seven_bits]
    rw [Spec.Xoofff.rolle, rollPlanes_new]
    change (((arr A 0 0 (z - 5) ^^ arr A 0 1 (z - 13)) ^^ (arr A 0 2 z && arr A 0 1 z)) ^^ _) = _
    cases arr A 0 0 (z - 5) <;> cases arr A 0 1 (z - 13) <;> cases arr A 0 2 z <;> cases arr A 0 1 z <;> rfl
  have hold : ∀ x : Fin 4, (arr A x 0 z) = (arr A x 0 (z - 0)) := fun x => by rw [hz]
  fin_cases x <;> fin_cases y <;> first | rfl | exact hnew | exact hold 1 | exact hold 2 | exact hold 3

theorem rollc_spec (x : Bytes) : Bits.ofBytes (rollc x 1).1 = Spec.Xoofff.par.rollc (Bits.ofBytes x) := by
  rw [rollc_eq]
  change Bits.ofBytes (bytesOfLanes (stepc (lanesOfBytes x))) = _
  rw [Xoodoo.ofBytes_bytesOfLanes, arr_stepc, Xoodoo.arr_lanesOfBytes]
  rfl

theorem rolle_spec (x : Bytes) : Bits.ofBytes (rolle x 1).1 = Spec.Xoofff.par.rolle (Bits.ofBytes x) := by
  rw [rolle_eq]
  change Bits.ofBytes (bytesOfLanes (stepe (lanesOfBytes x))) = _
  rw [Xoodoo.ofBytes_bytesOfLanes, arr_stepe, Xoodoo.arr_lanesOfBytes]
  rfl

end Xoofff
