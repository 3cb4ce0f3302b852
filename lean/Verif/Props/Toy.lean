import Verif.Model.SnP

/-!
A small concrete SnP (width 25 bytes, as Keccak-p[200]; lane size 1 byte) with a fast loop, used in the
`example`s that show that the hypotheses of the theorems are met by non-trivial cases.
-/

namespace Toy

/-- rotate the state by one byte and add a constant to the first byte -/
def perm (s : Bytes) : Bytes := (s.drop 1 ++ s.take 1).mapIdx fun i b => if i = 0 then b + 0x35 else b

def snp : SnP where
  width := 25
  permute := perm
  fast := some fun s lanes data =>
    (SnP.absorbBlocks perm lanes (data.length / lanes) s data, data.length / lanes * lanes)

theorem snp_valid : snp.Valid where
  permute_len := by
    intro s hs
    have : s.length = 25 := hs
    simp only [snp, perm, List.length_mapIdx, List.length_append, List.length_drop, List.length_take]
    omega
  fast_ok := by
    intro F hF s lanes data _ _ _
    have hl : snp.laneBytes = 1 := by decide
    simp only [snp, Option.some.injEq] at hF
    rw [hl, Nat.mul_one, ← hF]
    rfl

end Toy
