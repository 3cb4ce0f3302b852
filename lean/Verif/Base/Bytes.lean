/-
Byte buffers.  This file is common vocabulary for the model and the specifications:
bytes, xor of a buffer into another at an offset, overwriting, reading a slice.
-/

/-- A C `unsigned char` / `uint8_t`. -/
abbrev Byte := BitVec 8

/-- A byte buffer (C array with its length). -/
abbrev Bytes := List Byte

namespace Bytes

/-- `s` with the bytes `d` xored in, starting at index `off`
(bytes of `d` falling outside `s` are dropped: callers check the bounds). -/
def xorAt (s : Bytes) (off : Nat) (d : Bytes) : Bytes :=
  s.mapIdx fun i a => a ^^^ (if off ≤ i then d.getD (i - off) 0 else 0)

/-- `s` with the bytes `d` written over it, starting at index `off`. -/
def setAt (s : Bytes) (off : Nat) (d : Bytes) : Bytes :=
  s.mapIdx fun i a => if off ≤ i ∧ i < off + d.length then d.getD (i - off) 0 else a

/-- The `n` bytes of `s` starting at index `off`. -/
def slice (s : Bytes) (off n : Nat) : Bytes := (s.drop off).take n

/-- Bytewise exclusive or of two buffers. -/
def xor (a b : Bytes) : Bytes := List.zipWith (· ^^^ ·) a b

/-- `n` zero bytes. -/
def zeros (n : Nat) : Bytes := List.replicate n 0

@[simp] theorem length_xorAt (s : Bytes) (off : Nat) (d : Bytes) :
    (xorAt s off d).length = s.length := by simp [xorAt]

@[simp] theorem length_setAt (s : Bytes) (off : Nat) (d : Bytes) :
    (setAt s off d).length = s.length := by simp [setAt]

@[simp] theorem length_zeros (n : Nat) : (zeros n).length = n := by simp [zeros]

@[simp] theorem length_xor (a b : Bytes) : (xor a b).length = min a.length b.length := by
  simp [xor]

theorem length_slice (s : Bytes) (off n : Nat) :
    (slice s off n).length = min n (s.length - off) := by simp [slice]

theorem length_slice_of_le {s : Bytes} {off n : Nat} (h : off + n ≤ s.length) :
    (slice s off n).length = n := by rw [length_slice]; omega

theorem getElem?_xorAt (s : Bytes) (off : Nat) (d : Bytes) (i : Nat) :
    (xorAt s off d)[i]? =
      s[i]?.map (fun a => a ^^^ (if off ≤ i then d.getD (i - off) 0 else 0)) := by
  simp [xorAt, List.getElem?_mapIdx]

theorem getElem_xorAt (s : Bytes) (off : Nat) (d : Bytes) (i : Nat) (h : i < (xorAt s off d).length) :
    (xorAt s off d)[i] =
      s[i]'(by simpa using h) ^^^ (if off ≤ i then d.getD (i - off) 0 else 0) := by
  simp [xorAt]

theorem getElem?_setAt (s : Bytes) (off : Nat) (d : Bytes) (i : Nat) :
    (setAt s off d)[i]? =
      s[i]?.map (fun a => if off ≤ i ∧ i < off + d.length then d.getD (i - off) 0 else a) := by
  simp [setAt, List.getElem?_mapIdx]

theorem getElem?_slice (s : Bytes) (off n i : Nat) :
    (slice s off n)[i]? = if i < n then s[off + i]? else none := by
  simp [slice, List.getElem?_take, List.getElem?_drop]

@[simp] theorem xorAt_nil (s : Bytes) (off : Nat) : xorAt s off [] = s := by
  apply List.ext_getElem?; intro i
  rw [getElem?_xorAt]; cases s[i]? <;> simp

@[simp] theorem setAt_nil (s : Bytes) (off : Nat) : setAt s off [] = s := by
  apply List.ext_getElem?; intro i
  rw [getElem?_setAt]
  cases h : s[i]?
  · simp
  · simp; intros; omega

/-- Xoring two consecutive pieces is xoring their concatenation. -/
theorem xorAt_append (s : Bytes) (off : Nat) (d e : Bytes) :
    xorAt (xorAt s off d) (off + d.length) e = xorAt s off (d ++ e) := by
  apply List.ext_getElem?; intro i
  simp only [getElem?_xorAt]
  cases h : s[i]?
  · simp
  · simp only [Option.map_some, Option.some.injEq, List.getD_eq_getElem?_getD]
    by_cases h1 : off ≤ i
    · by_cases h2 : off + d.length ≤ i
      · have : ¬ (i - off < d.length) := by omega
        have e1 : i - off - d.length = i - (off + d.length) := by omega
        simp only [h1, h2, if_true]
        rw [List.getElem?_append_right (by omega), List.getElem?_eq_none (by omega : d.length ≤ i - off), e1]
        simp
      · simp only [h1, h2, if_true, if_false]
        rw [List.getElem?_append_left (by omega)]
        simp
    · have h2 : ¬ (off + d.length ≤ i) := by omega
      simp [h1, h2]

theorem xorAt_xorAt_comm (s : Bytes) (o1 o2 : Nat) (d e : Bytes) :
    xorAt (xorAt s o1 d) o2 e = xorAt (xorAt s o2 e) o1 d := by
  apply List.ext_getElem?; intro i
  simp only [getElem?_xorAt]
  cases s[i]?
  · simp
  · simp only [Option.map_some, Option.some.injEq]
    rw [BitVec.xor_assoc, BitVec.xor_assoc]
    congr 1
    exact BitVec.xor_comm _ _

/-- Writing two consecutive pieces is writing their concatenation. -/
theorem setAt_append (s : Bytes) (off : Nat) (d e : Bytes) :
    setAt (setAt s off d) (off + d.length) e = setAt s off (d ++ e) := by
  apply List.ext_getElem?; intro i
  simp only [getElem?_setAt]
  cases h : s[i]?
  · simp
  · simp only [Option.map_some, Option.some.injEq, List.getD_eq_getElem?_getD, List.length_append]
    by_cases h1 : off ≤ i
    · by_cases h2 : off + d.length ≤ i
      · have e1 : i - off - d.length = i - (off + d.length) := by omega
        by_cases h3 : i < off + d.length + e.length
        · have h4 : i < off + (d.length + e.length) := by omega
          rw [List.getElem?_append_right (by omega), e1]
          simp [h1, h2, h3, h4]
        · have h4 : ¬ i < off + (d.length + e.length) := by omega
          have h5 : ¬ i < off + d.length := by omega
          simp [h3, h4, h5]
      · rw [List.getElem?_append_left (by omega)]
        have h4 : i < off + (d.length + e.length) := by omega
        have h5 : i < off + d.length := by omega
        simp [h1, h2, h4, h5]
    · have h2 : ¬ (off + d.length ≤ i) := by omega
      simp [h1, h2]

end Bytes
