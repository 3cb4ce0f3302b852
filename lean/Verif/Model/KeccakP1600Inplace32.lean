import Verif.Model.KeccakP1600Ref32

/-!
# Keccak-p[1600]: the 32-bit in-place bit-interleaved implementation

Models `lib/low/KeccakP-1600/plain-32bits-inplace/KeccakP-1600-inplace32BI.c`, little-endian code paths.  The rounds
work in place: the words of a lane are found at other positions after each round, and are back in their places after
four.  The text of the four rounds is transcribed statement by statement; the 50 macros `Aba0`, ..., `Asu1` (lines
971-1020), which stand for the words of the state, become the fields of `Half`.
-/

namespace KeccakP1600

namespace Inplace32

/-! ## bit interleaving -/

/-- `temp = (x ^ (x >> s)) & m;  x = x ^ temp ^ (temp << s);` (e.g. KeccakP-1600-inplace32BI.c:36). -/
def swap (s : Nat) (m x : Word) : Word :=
  let temp := (x ^^^ (x >>> s)) &&& m
  x ^^^ temp ^^^ (temp <<< s)

/-- `prepareToBitInterleaving`, one of the two words (KeccakP-1600-inplace32BI.c:35-39, 40-44). -/
def prepareTo (x : Word) : Word :=
  swap 8 0x0000FF00 (swap 4 0x00F000F0 (swap 2 0x0C0C0C0C (swap 1 0x22222222 x)))

/-- The words combined with or assigned to `even` and `odd` in `toBitInterleavingAndXOR`, `toBitInterleavingAndAND` and
`toBitInterleavingAndSet` (KeccakP-1600-inplace32BI.c:46-59). -/
def toBitInterleaving (low high : Word) : Word × Word :=
  let temp0 := prepareTo low
  let temp1 := prepareTo high
  ((temp0 &&& (0x0000FFFF : Word)) ||| (temp1 <<< 16), (temp0 >>> 16) ||| (temp1 &&& (0xFFFF0000 : Word)))

/-- `prepareFromBitInterleaving`, the swaps on one of the two words (KeccakP-1600-inplace32BI.c:68-71, 72-75). -/
def prepareFrom (x : Word) : Word :=
  swap 1 0x22222222 (swap 2 0x0C0C0C0C (swap 4 0x00F000F0 (swap 8 0x0000FF00 x)))

/-- `fromBitInterleaving` (KeccakP-1600-inplace32BI.c:62-80): `low` and `high`. -/
def fromBitInterleaving (even odd : Word) : Word × Word :=
  let temp0 := even
  let temp1 := odd
  let temp := (temp0 &&& (0x0000FFFF : Word)) ||| (temp1 <<< 16)
  let temp1 := (temp0 >>> 16) ||| (temp1 &&& (0xFFFF0000 : Word))
  let temp0 := temp
  (prepareFrom temp0, prepareFrom temp1)

/-! ## the permutation -/

/-- `KeccakF1600RoundConstants_int2` (KeccakP-1600-inplace32BI.c:434-461). -/
def roundConstants : List Word := [
  0x00000001, 0x00000000, 0x00000000, 0x00000089, 0x00000000, 0x8000008b, 0x00000000, 0x80008080,
  0x00000001, 0x0000008b, 0x00000001, 0x00008000, 0x00000001, 0x80008088, 0x00000001, 0x80000082,
  0x00000000, 0x0000000b, 0x00000000, 0x0000000a, 0x00000001, 0x00008082, 0x00000000, 0x00008003,
  0x00000001, 0x0000808b, 0x00000001, 0x8000000b, 0x00000001, 0x8000008a, 0x00000001, 0x80000081,
  0x00000000, 0x80000081, 0x00000000, 0x80000008, 0x00000000, 0x00000083, 0x00000000, 0x80008003,
  0x00000001, 0x80008088, 0x00000000, 0x80000088, 0x00000001, 0x00008000, 0x00000000, 0x80008082,
  0x000000FF]

/-- `ROL32(a, offset)` (KeccakP-1600-inplace32BI.c:31); all its uses have a constant offset from 1 to 31. -/
def rol32 (a : Word) (offset : Nat) : Word := (a <<< offset) ^^^ (a >>> (32 - offset))

/-- The words of the state under the names `Aba0`, ..., `Asu1` (KeccakP-1600-inplace32BI.c:970-1020). -/
structure Half where
  (Aba0 Aba1 Abe0 Abe1 Abi0 Abi1 Abo0 Abo1 Abu0 Abu1 : Word)
  (Aga0 Aga1 Age0 Age1 Agi0 Agi1 Ago0 Ago1 Agu0 Agu1 : Word)
  (Aka0 Aka1 Ake0 Ake1 Aki0 Aki1 Ako0 Ako1 Aku0 Aku1 : Word)
  (Ama0 Ama1 Ame0 Ame1 Ami0 Ami1 Amo0 Amo1 Amu0 Amu1 : Word)
  (Asa0 Asa1 Ase0 Ase1 Asi0 Asi1 Aso0 Aso1 Asu0 Asu1 : Word)

/-- `stateAsHalfLanes[0]`, ..., `stateAsHalfLanes[49]` (KeccakP-1600-inplace32BI.c:970-1020). -/
def load (A : Words) : Half :=
  ⟨A 0, A 1, A 2, A 3, A 4, A 5, A 6, A 7, A 8, A 9, A 10, A 11, A 12, A 13, A 14, A 15, A 16, A 17, A 18,
   A 19, A 20, A 21, A 22, A 23, A 24, A 25, A 26, A 27, A 28, A 29, A 30, A 31, A 32, A 33, A 34, A 35, A 36,
   A 37, A 38, A 39, A 40, A 41, A 42, A 43, A 44, A 45, A 46, A 47, A 48, A 49⟩

/-- `stateAsHalfLanes[0]`, ..., `stateAsHalfLanes[49]` (KeccakP-1600-inplace32BI.c:970-1020). -/
def store (S : Half) : Words := fun i =>
  [S.Aba0, S.Aba1, S.Abe0, S.Abe1, S.Abi0, S.Abi1, S.Abo0, S.Abo1, S.Abu0, S.Abu1, S.Aga0, S.Aga1, S.Age0,
   S.Age1, S.Agi0, S.Agi1, S.Ago0, S.Ago1, S.Agu0, S.Agu1, S.Aka0, S.Aka1, S.Ake0, S.Ake1, S.Aki0, S.Aki1,
   S.Ako0, S.Ako1, S.Aku0, S.Aku1, S.Ama0, S.Ama1, S.Ame0, S.Ame1, S.Ami0, S.Ami1, S.Amo0, S.Amo1, S.Amu0,
   S.Amu1, S.Asa0, S.Asa1, S.Ase0, S.Ase1, S.Asi0, S.Asi1, S.Aso0, S.Aso1, S.Asu0, S.Asu1].getD i.val 0

/-- `Da0`, ..., `Du1` (KeccakP-1600-inplace32BI.c:965-966). -/
structure Effect where
  (Da0 Da1 De0 De1 Di0 Di1 Do0 Do1 Du0 Du1 : Word)

/-- `KeccakRound0`, the theta effect (KeccakP-1600-inplace32BI.c:463-483). -/
def effect0 (S : Half) : Effect :=
  let ⟨Aba0, Aba1, Abe0, Abe1, Abi0, Abi1, Abo0, Abo1, Abu0, Abu1, Aga0, Aga1, Age0, Age1, Agi0, Agi1, Ago0, Ago1,
    Agu0, Agu1, Aka0, Aka1, Ake0, Ake1, Aki0, Aki1, Ako0, Ako1, Aku0, Aku1, Ama0, Ama1, Ame0, Ame1, Ami0, Ami1,
    Amo0, Amo1, Amu0, Amu1, Asa0, Asa1, Ase0, Ase1, Asi0, Asi1, Aso0, Aso1, Asu0, Asu1⟩ := S
  let Cx := Abu0 ^^^ Agu0 ^^^ Aku0 ^^^ Amu0 ^^^ Asu0
  let Du1 := Abe1 ^^^ Age1 ^^^ Ake1 ^^^ Ame1 ^^^ Ase1
  let Da0 := Cx ^^^ rol32 Du1 1
  let Cz := Abu1 ^^^ Agu1 ^^^ Aku1 ^^^ Amu1 ^^^ Asu1
  let Du0 := Abe0 ^^^ Age0 ^^^ Ake0 ^^^ Ame0 ^^^ Ase0
  let Da1 := Cz ^^^ Du0
  let Cw := Abi0 ^^^ Agi0 ^^^ Aki0 ^^^ Ami0 ^^^ Asi0
  let Do0 := Cw ^^^ rol32 Cz 1
  let Cy := Abi1 ^^^ Agi1 ^^^ Aki1 ^^^ Ami1 ^^^ Asi1
  let Do1 := Cy ^^^ Cx
  let Cx := Aba0 ^^^ Aga0 ^^^ Aka0 ^^^ Ama0 ^^^ Asa0
  let De0 := Cx ^^^ rol32 Cy 1
  let Cz := Aba1 ^^^ Aga1 ^^^ Aka1 ^^^ Ama1 ^^^ Asa1
  let De1 := Cz ^^^ Cw
  let Cy := Abo1 ^^^ Ago1 ^^^ Ako1 ^^^ Amo1 ^^^ Aso1
  let Di0 := Du0 ^^^ rol32 Cy 1
  let Cw := Abo0 ^^^ Ago0 ^^^ Ako0 ^^^ Amo0 ^^^ Aso0
  let Di1 := Du1 ^^^ Cw
  let Du0 := Cw ^^^ rol32 Cz 1
  let Du1 := Cy ^^^ Cx
  ⟨Da0, Da1, De0, De1, Di0, Di1, Do0, Do1, Du0, Du1⟩

/-- `KeccakRound0`, the rest (KeccakP-1600-inplace32BI.c:463, 485-586); `c0` and `c1` are the two words read
through `pRoundConstants`. -/
def rest0 (D : Effect) (c0 c1 : Word) (S : Half) : Half :=
  let ⟨Aba0, Aba1, Abe0, Abe1, Abi0, Abi1, Abo0, Abo1, Abu0, Abu1, Aga0, Aga1, Age0, Age1, Agi0, Agi1, Ago0, Ago1,
    Agu0, Agu1, Aka0, Aka1, Ake0, Ake1, Aki0, Aki1, Ako0, Ako1, Aku0, Aku1, Ama0, Ama1, Ame0, Ame1, Ami0, Ami1,
    Amo0, Amo1, Amu0, Amu1, Asa0, Asa1, Ase0, Ase1, Asi0, Asi1, Aso0, Aso1, Asu0, Asu1⟩ := S
  let ⟨Da0, Da1, De0, De1, Di0, Di1, Do0, Do1, Du0, Du1⟩ := D
  let Ba := Aba0 ^^^ Da0
  let Be := rol32 (Age0 ^^^ De0) 22
  let Bi := rol32 (Aki1 ^^^ Di1) 22
  let Bo := rol32 (Amo1 ^^^ Do1) 11
  let Bu := rol32 (Asu0 ^^^ Du0) 7
  let Aba0 := Ba ^^^ (~~~ Be &&& Bi)
  let Aba0 := Aba0 ^^^ c0
  let Age0 := Be ^^^ (~~~ Bi &&& Bo)
  let Aki1 := Bi ^^^ (~~~ Bo &&& Bu)
  let Amo1 := Bo ^^^ (~~~ Bu &&& Ba)
  let Asu0 := Bu ^^^ (~~~ Ba &&& Be)
  let Ba := Aba1 ^^^ Da1
  let Be := rol32 (Age1 ^^^ De1) 22
  let Bi := rol32 (Aki0 ^^^ Di0) 21
  let Bo := rol32 (Amo0 ^^^ Do0) 10
  let Bu := rol32 (Asu1 ^^^ Du1) 7
  let Aba1 := Ba ^^^ (~~~ Be &&& Bi)
  let Aba1 := Aba1 ^^^ c1
  let Age1 := Be ^^^ (~~~ Bi &&& Bo)
  let Aki0 := Bi ^^^ (~~~ Bo &&& Bu)
  let Amo0 := Bo ^^^ (~~~ Bu &&& Ba)
  let Asu1 := Bu ^^^ (~~~ Ba &&& Be)
  let Bi := rol32 (Aka1 ^^^ Da1) 2
  let Bo := rol32 (Ame1 ^^^ De1) 23
  let Bu := rol32 (Asi1 ^^^ Di1) 31
  let Ba := rol32 (Abo0 ^^^ Do0) 14
  let Be := rol32 (Agu0 ^^^ Du0) 10
  let Aka1 := Ba ^^^ (~~~ Be &&& Bi)
  let Ame1 := Be ^^^ (~~~ Bi &&& Bo)
  let Asi1 := Bi ^^^ (~~~ Bo &&& Bu)
  let Abo0 := Bo ^^^ (~~~ Bu &&& Ba)
  let Agu0 := Bu ^^^ (~~~ Ba &&& Be)
  let Bi := rol32 (Aka0 ^^^ Da0) 1
  let Bo := rol32 (Ame0 ^^^ De0) 22
  let Bu := rol32 (Asi0 ^^^ Di0) 30
  let Ba := rol32 (Abo1 ^^^ Do1) 14
  let Be := rol32 (Agu1 ^^^ Du1) 10
  let Aka0 := Ba ^^^ (~~~ Be &&& Bi)
  let Ame0 := Be ^^^ (~~~ Bi &&& Bo)
  let Asi0 := Bi ^^^ (~~~ Bo &&& Bu)
  let Abo1 := Bo ^^^ (~~~ Bu &&& Ba)
  let Agu1 := Bu ^^^ (~~~ Ba &&& Be)
  let Bu := rol32 (Asa0 ^^^ Da0) 9
  let Ba := rol32 (Abe1 ^^^ De1) 1
  let Be := rol32 (Agi0 ^^^ Di0) 3
  let Bi := rol32 (Ako1 ^^^ Do1) 13
  let Bo := rol32 (Amu0 ^^^ Du0) 4
  let Asa0 := Ba ^^^ (~~~ Be &&& Bi)
  let Abe1 := Be ^^^ (~~~ Bi &&& Bo)
  let Agi0 := Bi ^^^ (~~~ Bo &&& Bu)
  let Ako1 := Bo ^^^ (~~~ Bu &&& Ba)
  let Amu0 := Bu ^^^ (~~~ Ba &&& Be)
  let Bu := rol32 (Asa1 ^^^ Da1) 9
  let Ba := Abe0 ^^^ De0
  let Be := rol32 (Agi1 ^^^ Di1) 3
  let Bi := rol32 (Ako0 ^^^ Do0) 12
  let Bo := rol32 (Amu1 ^^^ Du1) 4
  let Asa1 := Ba ^^^ (~~~ Be &&& Bi)
  let Abe0 := Be ^^^ (~~~ Bi &&& Bo)
  let Agi1 := Bi ^^^ (~~~ Bo &&& Bu)
  let Ako0 := Bo ^^^ (~~~ Bu &&& Ba)
  let Amu1 := Bu ^^^ (~~~ Ba &&& Be)
  let Be := rol32 (Aga0 ^^^ Da0) 18
  let Bi := rol32 (Ake0 ^^^ De0) 5
  let Bo := rol32 (Ami1 ^^^ Di1) 8
  let Bu := rol32 (Aso0 ^^^ Do0) 28
  let Ba := rol32 (Abu1 ^^^ Du1) 14
  let Aga0 := Ba ^^^ (~~~ Be &&& Bi)
  let Ake0 := Be ^^^ (~~~ Bi &&& Bo)
  let Ami1 := Bi ^^^ (~~~ Bo &&& Bu)
  let Aso0 := Bo ^^^ (~~~ Bu &&& Ba)
  let Abu1 := Bu ^^^ (~~~ Ba &&& Be)
  let Be := rol32 (Aga1 ^^^ Da1) 18
  let Bi := rol32 (Ake1 ^^^ De1) 5
  let Bo := rol32 (Ami0 ^^^ Di0) 7
  let Bu := rol32 (Aso1 ^^^ Do1) 28
  let Ba := rol32 (Abu0 ^^^ Du0) 13
  let Aga1 := Ba ^^^ (~~~ Be &&& Bi)
  let Ake1 := Be ^^^ (~~~ Bi &&& Bo)
  let Ami0 := Bi ^^^ (~~~ Bo &&& Bu)
  let Aso1 := Bo ^^^ (~~~ Bu &&& Ba)
  let Abu0 := Bu ^^^ (~~~ Ba &&& Be)
  let Bo := rol32 (Ama1 ^^^ Da1) 21
  let Bu := rol32 (Ase0 ^^^ De0) 1
  let Ba := rol32 (Abi0 ^^^ Di0) 31
  let Be := rol32 (Ago1 ^^^ Do1) 28
  let Bi := rol32 (Aku1 ^^^ Du1) 20
  let Ama1 := Ba ^^^ (~~~ Be &&& Bi)
  let Ase0 := Be ^^^ (~~~ Bi &&& Bo)
  let Abi0 := Bi ^^^ (~~~ Bo &&& Bu)
  let Ago1 := Bo ^^^ (~~~ Bu &&& Ba)
  let Aku1 := Bu ^^^ (~~~ Ba &&& Be)
  let Bo := rol32 (Ama0 ^^^ Da0) 20
  let Bu := rol32 (Ase1 ^^^ De1) 1
  let Ba := rol32 (Abi1 ^^^ Di1) 31
  let Be := rol32 (Ago0 ^^^ Do0) 27
  let Bi := rol32 (Aku0 ^^^ Du0) 19
  let Ama0 := Ba ^^^ (~~~ Be &&& Bi)
  let Ase1 := Be ^^^ (~~~ Bi &&& Bo)
  let Abi1 := Bi ^^^ (~~~ Bo &&& Bu)
  let Ago0 := Bo ^^^ (~~~ Bu &&& Ba)
  let Aku0 := Bu ^^^ (~~~ Ba &&& Be)
  ⟨Aba0, Aba1, Abe0, Abe1, Abi0, Abi1, Abo0, Abo1, Abu0, Abu1, Aga0, Aga1, Age0, Age1, Agi0, Agi1, Ago0, Ago1,
   Agu0, Agu1, Aka0, Aka1, Ake0, Ake1, Aki0, Aki1, Ako0, Ako1, Aku0, Aku1, Ama0, Ama1, Ame0, Ame1, Ami0, Ami1,
   Amo0, Amo1, Amu0, Amu1, Asa0, Asa1, Ase0, Ase1, Asi0, Asi1, Aso0, Aso1, Asu0, Asu1⟩

/-- `KeccakRound0` (KeccakP-1600-inplace32BI.c:463-586). -/
def round0 (c0 c1 : Word) (S : Half) : Half := rest0 (effect0 S) c0 c1 S

/-- `KeccakRound1`, the theta effect (KeccakP-1600-inplace32BI.c:588-608). -/
def effect1 (S : Half) : Effect :=
  let ⟨Aba0, Aba1, Abe0, Abe1, Abi0, Abi1, Abo0, Abo1, Abu0, Abu1, Aga0, Aga1, Age0, Age1, Agi0, Agi1, Ago0, Ago1,
    Agu0, Agu1, Aka0, Aka1, Ake0, Ake1, Aki0, Aki1, Ako0, Ako1, Aku0, Aku1, Ama0, Ama1, Ame0, Ame1, Ami0, Ami1,
    Amo0, Amo1, Amu0, Amu1, Asa0, Asa1, Ase0, Ase1, Asi0, Asi1, Aso0, Aso1, Asu0, Asu1⟩ := S
  let Cx := Asu0 ^^^ Agu0 ^^^ Amu0 ^^^ Abu1 ^^^ Aku1
  let Du1 := Age1 ^^^ Ame0 ^^^ Abe0 ^^^ Ake1 ^^^ Ase1
  let Da0 := Cx ^^^ rol32 Du1 1
  let Cz := Asu1 ^^^ Agu1 ^^^ Amu1 ^^^ Abu0 ^^^ Aku0
  let Du0 := Age0 ^^^ Ame1 ^^^ Abe1 ^^^ Ake0 ^^^ Ase0
  let Da1 := Cz ^^^ Du0
  let Cw := Aki1 ^^^ Asi1 ^^^ Agi0 ^^^ Ami1 ^^^ Abi0
  let Do0 := Cw ^^^ rol32 Cz 1
  let Cy := Aki0 ^^^ Asi0 ^^^ Agi1 ^^^ Ami0 ^^^ Abi1
  let Do1 := Cy ^^^ Cx
  let Cx := Aba0 ^^^ Aka1 ^^^ Asa0 ^^^ Aga0 ^^^ Ama1
  let De0 := Cx ^^^ rol32 Cy 1
  let Cz := Aba1 ^^^ Aka0 ^^^ Asa1 ^^^ Aga1 ^^^ Ama0
  let De1 := Cz ^^^ Cw
  let Cy := Amo0 ^^^ Abo1 ^^^ Ako0 ^^^ Aso1 ^^^ Ago0
  let Di0 := Du0 ^^^ rol32 Cy 1
  let Cw := Amo1 ^^^ Abo0 ^^^ Ako1 ^^^ Aso0 ^^^ Ago1
  let Di1 := Du1 ^^^ Cw
  let Du0 := Cw ^^^ rol32 Cz 1
  let Du1 := Cy ^^^ Cx
  ⟨Da0, Da1, De0, De1, Di0, Di1, Do0, Do1, Du0, Du1⟩

/-- `KeccakRound1`, the rest (KeccakP-1600-inplace32BI.c:588, 610-711); `c0` and `c1` are the two words read
through `pRoundConstants`. -/
def rest1 (D : Effect) (c0 c1 : Word) (S : Half) : Half :=
  let ⟨Aba0, Aba1, Abe0, Abe1, Abi0, Abi1, Abo0, Abo1, Abu0, Abu1, Aga0, Aga1, Age0, Age1, Agi0, Agi1, Ago0, Ago1,
    Agu0, Agu1, Aka0, Aka1, Ake0, Ake1, Aki0, Aki1, Ako0, Ako1, Aku0, Aku1, Ama0, Ama1, Ame0, Ame1, Ami0, Ami1,
    Amo0, Amo1, Amu0, Amu1, Asa0, Asa1, Ase0, Ase1, Asi0, Asi1, Aso0, Aso1, Asu0, Asu1⟩ := S
  let ⟨Da0, Da1, De0, De1, Di0, Di1, Do0, Do1, Du0, Du1⟩ := D
  let Ba := Aba0 ^^^ Da0
  let Be := rol32 (Ame1 ^^^ De0) 22
  let Bi := rol32 (Agi1 ^^^ Di1) 22
  let Bo := rol32 (Aso1 ^^^ Do1) 11
  let Bu := rol32 (Aku1 ^^^ Du0) 7
  let Aba0 := Ba ^^^ (~~~ Be &&& Bi)
  let Aba0 := Aba0 ^^^ c0
  let Ame1 := Be ^^^ (~~~ Bi &&& Bo)
  let Agi1 := Bi ^^^ (~~~ Bo &&& Bu)
  let Aso1 := Bo ^^^ (~~~ Bu &&& Ba)
  let Aku1 := Bu ^^^ (~~~ Ba &&& Be)
  let Ba := Aba1 ^^^ Da1
  let Be := rol32 (Ame0 ^^^ De1) 22
  let Bi := rol32 (Agi0 ^^^ Di0) 21
  let Bo := rol32 (Aso0 ^^^ Do0) 10
  let Bu := rol32 (Aku0 ^^^ Du1) 7
  let Aba1 := Ba ^^^ (~~~ Be &&& Bi)
  let Aba1 := Aba1 ^^^ c1
  let Ame0 := Be ^^^ (~~~ Bi &&& Bo)
  let Agi0 := Bi ^^^ (~~~ Bo &&& Bu)
  let Aso0 := Bo ^^^ (~~~ Bu &&& Ba)
  let Aku0 := Bu ^^^ (~~~ Ba &&& Be)
  let Bi := rol32 (Asa1 ^^^ Da1) 2
  let Bo := rol32 (Ake1 ^^^ De1) 23
  let Bu := rol32 (Abi1 ^^^ Di1) 31
  let Ba := rol32 (Amo1 ^^^ Do0) 14
  let Be := rol32 (Agu0 ^^^ Du0) 10
  let Asa1 := Ba ^^^ (~~~ Be &&& Bi)
  let Ake1 := Be ^^^ (~~~ Bi &&& Bo)
  let Abi1 := Bi ^^^ (~~~ Bo &&& Bu)
  let Amo1 := Bo ^^^ (~~~ Bu &&& Ba)
  let Agu0 := Bu ^^^ (~~~ Ba &&& Be)
  let Bi := rol32 (Asa0 ^^^ Da0) 1
  let Bo := rol32 (Ake0 ^^^ De0) 22
  let Bu := rol32 (Abi0 ^^^ Di0) 30
  let Ba := rol32 (Amo0 ^^^ Do1) 14
  let Be := rol32 (Agu1 ^^^ Du1) 10
  let Asa0 := Ba ^^^ (~~~ Be &&& Bi)
  let Ake0 := Be ^^^ (~~~ Bi &&& Bo)
  let Abi0 := Bi ^^^ (~~~ Bo &&& Bu)
  let Amo0 := Bo ^^^ (~~~ Bu &&& Ba)
  let Agu1 := Bu ^^^ (~~~ Ba &&& Be)
  let Bu := rol32 (Ama1 ^^^ Da0) 9
  let Ba := rol32 (Age1 ^^^ De1) 1
  let Be := rol32 (Asi1 ^^^ Di0) 3
  let Bi := rol32 (Ako0 ^^^ Do1) 13
  let Bo := rol32 (Abu1 ^^^ Du0) 4
  let Ama1 := Ba ^^^ (~~~ Be &&& Bi)
  let Age1 := Be ^^^ (~~~ Bi &&& Bo)
  let Asi1 := Bi ^^^ (~~~ Bo &&& Bu)
  let Ako0 := Bo ^^^ (~~~ Bu &&& Ba)
  let Abu1 := Bu ^^^ (~~~ Ba &&& Be)
  let Bu := rol32 (Ama0 ^^^ Da1) 9
  let Ba := Age0 ^^^ De0
  let Be := rol32 (Asi0 ^^^ Di1) 3
  let Bi := rol32 (Ako1 ^^^ Do0) 12
  let Bo := rol32 (Abu0 ^^^ Du1) 4
  let Ama0 := Ba ^^^ (~~~ Be &&& Bi)
  let Age0 := Be ^^^ (~~~ Bi &&& Bo)
  let Asi0 := Bi ^^^ (~~~ Bo &&& Bu)
  let Ako1 := Bo ^^^ (~~~ Bu &&& Ba)
  let Abu0 := Bu ^^^ (~~~ Ba &&& Be)
  let Be := rol32 (Aka1 ^^^ Da0) 18
  let Bi := rol32 (Abe1 ^^^ De0) 5
  let Bo := rol32 (Ami0 ^^^ Di1) 8
  let Bu := rol32 (Ago1 ^^^ Do0) 28
  let Ba := rol32 (Asu1 ^^^ Du1) 14
  let Aka1 := Ba ^^^ (~~~ Be &&& Bi)
  let Abe1 := Be ^^^ (~~~ Bi &&& Bo)
  let Ami0 := Bi ^^^ (~~~ Bo &&& Bu)
  let Ago1 := Bo ^^^ (~~~ Bu &&& Ba)
  let Asu1 := Bu ^^^ (~~~ Ba &&& Be)
  let Be := rol32 (Aka0 ^^^ Da1) 18
  let Bi := rol32 (Abe0 ^^^ De1) 5
  let Bo := rol32 (Ami1 ^^^ Di0) 7
  let Bu := rol32 (Ago0 ^^^ Do1) 28
  let Ba := rol32 (Asu0 ^^^ Du0) 13
  let Aka0 := Ba ^^^ (~~~ Be &&& Bi)
  let Abe0 := Be ^^^ (~~~ Bi &&& Bo)
  let Ami1 := Bi ^^^ (~~~ Bo &&& Bu)
  let Ago0 := Bo ^^^ (~~~ Bu &&& Ba)
  let Asu0 := Bu ^^^ (~~~ Ba &&& Be)
  let Bo := rol32 (Aga1 ^^^ Da1) 21
  let Bu := rol32 (Ase0 ^^^ De0) 1
  let Ba := rol32 (Aki1 ^^^ Di0) 31
  let Be := rol32 (Abo1 ^^^ Do1) 28
  let Bi := rol32 (Amu1 ^^^ Du1) 20
  let Aga1 := Ba ^^^ (~~~ Be &&& Bi)
  let Ase0 := Be ^^^ (~~~ Bi &&& Bo)
  let Aki1 := Bi ^^^ (~~~ Bo &&& Bu)
  let Abo1 := Bo ^^^ (~~~ Bu &&& Ba)
  let Amu1 := Bu ^^^ (~~~ Ba &&& Be)
  let Bo := rol32 (Aga0 ^^^ Da0) 20
  let Bu := rol32 (Ase1 ^^^ De1) 1
  let Ba := rol32 (Aki0 ^^^ Di1) 31
  let Be := rol32 (Abo0 ^^^ Do0) 27
  let Bi := rol32 (Amu0 ^^^ Du0) 19
  let Aga0 := Ba ^^^ (~~~ Be &&& Bi)
  let Ase1 := Be ^^^ (~~~ Bi &&& Bo)
  let Aki0 := Bi ^^^ (~~~ Bo &&& Bu)
  let Abo0 := Bo ^^^ (~~~ Bu &&& Ba)
  let Amu0 := Bu ^^^ (~~~ Ba &&& Be)
  ⟨Aba0, Aba1, Abe0, Abe1, Abi0, Abi1, Abo0, Abo1, Abu0, Abu1, Aga0, Aga1, Age0, Age1, Agi0, Agi1, Ago0, Ago1,
   Agu0, Agu1, Aka0, Aka1, Ake0, Ake1, Aki0, Aki1, Ako0, Ako1, Aku0, Aku1, Ama0, Ama1, Ame0, Ame1, Ami0, Ami1,
   Amo0, Amo1, Amu0, Amu1, Asa0, Asa1, Ase0, Ase1, Asi0, Asi1, Aso0, Aso1, Asu0, Asu1⟩

/-- `KeccakRound1` (KeccakP-1600-inplace32BI.c:588-711). -/
def round1 (c0 c1 : Word) (S : Half) : Half := rest1 (effect1 S) c0 c1 S

/-- `KeccakRound2`, the theta effect (KeccakP-1600-inplace32BI.c:713-733). -/
def effect2 (S : Half) : Effect :=
  let ⟨Aba0, Aba1, Abe0, Abe1, Abi0, Abi1, Abo0, Abo1, Abu0, Abu1, Aga0, Aga1, Age0, Age1, Agi0, Agi1, Ago0, Ago1,
    Agu0, Agu1, Aka0, Aka1, Ake0, Ake1, Aki0, Aki1, Ako0, Ako1, Aku0, Aku1, Ama0, Ama1, Ame0, Ame1, Ami0, Ami1,
    Amo0, Amo1, Amu0, Amu1, Asa0, Asa1, Ase0, Ase1, Asi0, Asi1, Aso0, Aso1, Asu0, Asu1⟩ := S
  let Cx := Aku1 ^^^ Agu0 ^^^ Abu1 ^^^ Asu1 ^^^ Amu1
  let Du1 := Ame0 ^^^ Ake0 ^^^ Age0 ^^^ Abe0 ^^^ Ase1
  let Da0 := Cx ^^^ rol32 Du1 1
  let Cz := Aku0 ^^^ Agu1 ^^^ Abu0 ^^^ Asu0 ^^^ Amu0
  let Du0 := Ame1 ^^^ Ake1 ^^^ Age1 ^^^ Abe1 ^^^ Ase0
  let Da1 := Cz ^^^ Du0
  let Cw := Agi1 ^^^ Abi1 ^^^ Asi1 ^^^ Ami0 ^^^ Aki1
  let Do0 := Cw ^^^ rol32 Cz 1
  let Cy := Agi0 ^^^ Abi0 ^^^ Asi0 ^^^ Ami1 ^^^ Aki0
  let Do1 := Cy ^^^ Cx
  let Cx := Aba0 ^^^ Asa1 ^^^ Ama1 ^^^ Aka1 ^^^ Aga1
  let De0 := Cx ^^^ rol32 Cy 1
  let Cz := Aba1 ^^^ Asa0 ^^^ Ama0 ^^^ Aka0 ^^^ Aga0
  let De1 := Cz ^^^ Cw
  let Cy := Aso0 ^^^ Amo0 ^^^ Ako1 ^^^ Ago0 ^^^ Abo0
  let Di0 := Du0 ^^^ rol32 Cy 1
  let Cw := Aso1 ^^^ Amo1 ^^^ Ako0 ^^^ Ago1 ^^^ Abo1
  let Di1 := Du1 ^^^ Cw
  let Du0 := Cw ^^^ rol32 Cz 1
  let Du1 := Cy ^^^ Cx
  ⟨Da0, Da1, De0, De1, Di0, Di1, Do0, Do1, Du0, Du1⟩

/-- `KeccakRound2`, the rest (KeccakP-1600-inplace32BI.c:713, 735-836); `c0` and `c1` are the two words read
through `pRoundConstants`. -/
def rest2 (D : Effect) (c0 c1 : Word) (S : Half) : Half :=
  let ⟨Aba0, Aba1, Abe0, Abe1, Abi0, Abi1, Abo0, Abo1, Abu0, Abu1, Aga0, Aga1, Age0, Age1, Agi0, Agi1, Ago0, Ago1,
    Agu0, Agu1, Aka0, Aka1, Ake0, Ake1, Aki0, Aki1, Ako0, Ako1, Aku0, Aku1, Ama0, Ama1, Ame0, Ame1, Ami0, Ami1,
    Amo0, Amo1, Amu0, Amu1, Asa0, Asa1, Ase0, Ase1, Asi0, Asi1, Aso0, Aso1, Asu0, Asu1⟩ := S
  let ⟨Da0, Da1, De0, De1, Di0, Di1, Do0, Do1, Du0, Du1⟩ := D
  let Ba := Aba0 ^^^ Da0
  let Be := rol32 (Ake1 ^^^ De0) 22
  let Bi := rol32 (Asi0 ^^^ Di1) 22
  let Bo := rol32 (Ago0 ^^^ Do1) 11
  let Bu := rol32 (Amu1 ^^^ Du0) 7
  let Aba0 := Ba ^^^ (~~~ Be &&& Bi)
  let Aba0 := Aba0 ^^^ c0
  let Ake1 := Be ^^^ (~~~ Bi &&& Bo)
  let Asi0 := Bi ^^^ (~~~ Bo &&& Bu)
  let Ago0 := Bo ^^^ (~~~ Bu &&& Ba)
  let Amu1 := Bu ^^^ (~~~ Ba &&& Be)
  let Ba := Aba1 ^^^ Da1
  let Be := rol32 (Ake0 ^^^ De1) 22
  let Bi := rol32 (Asi1 ^^^ Di0) 21
  let Bo := rol32 (Ago1 ^^^ Do0) 10
  let Bu := rol32 (Amu0 ^^^ Du1) 7
  let Aba1 := Ba ^^^ (~~~ Be &&& Bi)
  let Aba1 := Aba1 ^^^ c1
  let Ake0 := Be ^^^ (~~~ Bi &&& Bo)
  let Asi1 := Bi ^^^ (~~~ Bo &&& Bu)
  let Ago1 := Bo ^^^ (~~~ Bu &&& Ba)
  let Amu0 := Bu ^^^ (~~~ Ba &&& Be)
  let Bi := rol32 (Ama0 ^^^ Da1) 2
  let Bo := rol32 (Abe0 ^^^ De1) 23
  let Bu := rol32 (Aki0 ^^^ Di1) 31
  let Ba := rol32 (Aso1 ^^^ Do0) 14
  let Be := rol32 (Agu0 ^^^ Du0) 10
  let Ama0 := Ba ^^^ (~~~ Be &&& Bi)
  let Abe0 := Be ^^^ (~~~ Bi &&& Bo)
  let Aki0 := Bi ^^^ (~~~ Bo &&& Bu)
  let Aso1 := Bo ^^^ (~~~ Bu &&& Ba)
  let Agu0 := Bu ^^^ (~~~ Ba &&& Be)
  let Bi := rol32 (Ama1 ^^^ Da0) 1
  let Bo := rol32 (Abe1 ^^^ De0) 22
  let Bu := rol32 (Aki1 ^^^ Di0) 30
  let Ba := rol32 (Aso0 ^^^ Do1) 14
  let Be := rol32 (Agu1 ^^^ Du1) 10
  let Ama1 := Ba ^^^ (~~~ Be &&& Bi)
  let Abe1 := Be ^^^ (~~~ Bi &&& Bo)
  let Aki1 := Bi ^^^ (~~~ Bo &&& Bu)
  let Aso0 := Bo ^^^ (~~~ Bu &&& Ba)
  let Agu1 := Bu ^^^ (~~~ Ba &&& Be)
  let Bu := rol32 (Aga1 ^^^ Da0) 9
  let Ba := rol32 (Ame0 ^^^ De1) 1
  let Be := rol32 (Abi1 ^^^ Di0) 3
  let Bi := rol32 (Ako1 ^^^ Do1) 13
  let Bo := rol32 (Asu1 ^^^ Du0) 4
  let Aga1 := Ba ^^^ (~~~ Be &&& Bi)
  let Ame0 := Be ^^^ (~~~ Bi &&& Bo)
  let Abi1 := Bi ^^^ (~~~ Bo &&& Bu)
  let Ako1 := Bo ^^^ (~~~ Bu &&& Ba)
  let Asu1 := Bu ^^^ (~~~ Ba &&& Be)
  let Bu := rol32 (Aga0 ^^^ Da1) 9
  let Ba := Ame1 ^^^ De0
  let Be := rol32 (Abi0 ^^^ Di1) 3
  let Bi := rol32 (Ako0 ^^^ Do0) 12
  let Bo := rol32 (Asu0 ^^^ Du1) 4
  let Aga0 := Ba ^^^ (~~~ Be &&& Bi)
  let Ame1 := Be ^^^ (~~~ Bi &&& Bo)
  let Abi0 := Bi ^^^ (~~~ Bo &&& Bu)
  let Ako0 := Bo ^^^ (~~~ Bu &&& Ba)
  let Asu0 := Bu ^^^ (~~~ Ba &&& Be)
  let Be := rol32 (Asa1 ^^^ Da0) 18
  let Bi := rol32 (Age1 ^^^ De0) 5
  let Bo := rol32 (Ami1 ^^^ Di1) 8
  let Bu := rol32 (Abo1 ^^^ Do0) 28
  let Ba := rol32 (Aku0 ^^^ Du1) 14
  let Asa1 := Ba ^^^ (~~~ Be &&& Bi)
  let Age1 := Be ^^^ (~~~ Bi &&& Bo)
  let Ami1 := Bi ^^^ (~~~ Bo &&& Bu)
  let Abo1 := Bo ^^^ (~~~ Bu &&& Ba)
  let Aku0 := Bu ^^^ (~~~ Ba &&& Be)
  let Be := rol32 (Asa0 ^^^ Da1) 18
  let Bi := rol32 (Age0 ^^^ De1) 5
  let Bo := rol32 (Ami0 ^^^ Di0) 7
  let Bu := rol32 (Abo0 ^^^ Do1) 28
  let Ba := rol32 (Aku1 ^^^ Du0) 13
  let Asa0 := Ba ^^^ (~~~ Be &&& Bi)
  let Age0 := Be ^^^ (~~~ Bi &&& Bo)
  let Ami0 := Bi ^^^ (~~~ Bo &&& Bu)
  let Abo0 := Bo ^^^ (~~~ Bu &&& Ba)
  let Aku1 := Bu ^^^ (~~~ Ba &&& Be)
  let Bo := rol32 (Aka0 ^^^ Da1) 21
  let Bu := rol32 (Ase0 ^^^ De0) 1
  let Ba := rol32 (Agi1 ^^^ Di0) 31
  let Be := rol32 (Amo0 ^^^ Do1) 28
  let Bi := rol32 (Abu0 ^^^ Du1) 20
  let Aka0 := Ba ^^^ (~~~ Be &&& Bi)
  let Ase0 := Be ^^^ (~~~ Bi &&& Bo)
  let Agi1 := Bi ^^^ (~~~ Bo &&& Bu)
  let Amo0 := Bo ^^^ (~~~ Bu &&& Ba)
  let Abu0 := Bu ^^^ (~~~ Ba &&& Be)
  let Bo := rol32 (Aka1 ^^^ Da0) 20
  let Bu := rol32 (Ase1 ^^^ De1) 1
  let Ba := rol32 (Agi0 ^^^ Di1) 31
  let Be := rol32 (Amo1 ^^^ Do0) 27
  let Bi := rol32 (Abu1 ^^^ Du0) 19
  let Aka1 := Ba ^^^ (~~~ Be &&& Bi)
  let Ase1 := Be ^^^ (~~~ Bi &&& Bo)
  let Agi0 := Bi ^^^ (~~~ Bo &&& Bu)
  let Amo1 := Bo ^^^ (~~~ Bu &&& Ba)
  let Abu1 := Bu ^^^ (~~~ Ba &&& Be)
  ⟨Aba0, Aba1, Abe0, Abe1, Abi0, Abi1, Abo0, Abo1, Abu0, Abu1, Aga0, Aga1, Age0, Age1, Agi0, Agi1, Ago0, Ago1,
   Agu0, Agu1, Aka0, Aka1, Ake0, Ake1, Aki0, Aki1, Ako0, Ako1, Aku0, Aku1, Ama0, Ama1, Ame0, Ame1, Ami0, Ami1,
   Amo0, Amo1, Amu0, Amu1, Asa0, Asa1, Ase0, Ase1, Asi0, Asi1, Aso0, Aso1, Asu0, Asu1⟩

/-- `KeccakRound2` (KeccakP-1600-inplace32BI.c:713-836). -/
def round2 (c0 c1 : Word) (S : Half) : Half := rest2 (effect2 S) c0 c1 S

/-- `KeccakRound3`, the theta effect (KeccakP-1600-inplace32BI.c:838-858). -/
def effect3 (S : Half) : Effect :=
  let ⟨Aba0, Aba1, Abe0, Abe1, Abi0, Abi1, Abo0, Abo1, Abu0, Abu1, Aga0, Aga1, Age0, Age1, Agi0, Agi1, Ago0, Ago1,
    Agu0, Agu1, Aka0, Aka1, Ake0, Ake1, Aki0, Aki1, Ako0, Ako1, Aku0, Aku1, Ama0, Ama1, Ame0, Ame1, Ami0, Ami1,
    Amo0, Amo1, Amu0, Amu1, Asa0, Asa1, Ase0, Ase1, Asi0, Asi1, Aso0, Aso1, Asu0, Asu1⟩ := S
  let Cx := Amu1 ^^^ Agu0 ^^^ Asu1 ^^^ Aku0 ^^^ Abu0
  let Du1 := Ake0 ^^^ Abe1 ^^^ Ame1 ^^^ Age0 ^^^ Ase1
  let Da0 := Cx ^^^ rol32 Du1 1
  let Cz := Amu0 ^^^ Agu1 ^^^ Asu0 ^^^ Aku1 ^^^ Abu1
  let Du0 := Ake1 ^^^ Abe0 ^^^ Ame0 ^^^ Age1 ^^^ Ase0
  let Da1 := Cz ^^^ Du0
  let Cw := Asi0 ^^^ Aki0 ^^^ Abi1 ^^^ Ami1 ^^^ Agi1
  let Do0 := Cw ^^^ rol32 Cz 1
  let Cy := Asi1 ^^^ Aki1 ^^^ Abi0 ^^^ Ami0 ^^^ Agi0
  let Do1 := Cy ^^^ Cx
  let Cx := Aba0 ^^^ Ama0 ^^^ Aga1 ^^^ Asa1 ^^^ Aka0
  let De0 := Cx ^^^ rol32 Cy 1
  let Cz := Aba1 ^^^ Ama1 ^^^ Aga0 ^^^ Asa0 ^^^ Aka1
  let De1 := Cz ^^^ Cw
  let Cy := Ago1 ^^^ Aso0 ^^^ Ako0 ^^^ Abo0 ^^^ Amo1
  let Di0 := Du0 ^^^ rol32 Cy 1
  let Cw := Ago0 ^^^ Aso1 ^^^ Ako1 ^^^ Abo1 ^^^ Amo0
  let Di1 := Du1 ^^^ Cw
  let Du0 := Cw ^^^ rol32 Cz 1
  let Du1 := Cy ^^^ Cx
  ⟨Da0, Da1, De0, De1, Di0, Di1, Do0, Do1, Du0, Du1⟩

/-- `KeccakRound3`, the rest (KeccakP-1600-inplace32BI.c:838, 860-961); `c0` and `c1` are the two words read
through `pRoundConstants`. -/
def rest3 (D : Effect) (c0 c1 : Word) (S : Half) : Half :=
  let ⟨Aba0, Aba1, Abe0, Abe1, Abi0, Abi1, Abo0, Abo1, Abu0, Abu1, Aga0, Aga1, Age0, Age1, Agi0, Agi1, Ago0, Ago1,
    Agu0, Agu1, Aka0, Aka1, Ake0, Ake1, Aki0, Aki1, Ako0, Ako1, Aku0, Aku1, Ama0, Ama1, Ame0, Ame1, Ami0, Ami1,
    Amo0, Amo1, Amu0, Amu1, Asa0, Asa1, Ase0, Ase1, Asi0, Asi1, Aso0, Aso1, Asu0, Asu1⟩ := S
  let ⟨Da0, Da1, De0, De1, Di0, Di1, Do0, Do1, Du0, Du1⟩ := D
  let Ba := Aba0 ^^^ Da0
  let Be := rol32 (Abe0 ^^^ De0) 22
  let Bi := rol32 (Abi0 ^^^ Di1) 22
  let Bo := rol32 (Abo0 ^^^ Do1) 11
  let Bu := rol32 (Abu0 ^^^ Du0) 7
  let Aba0 := Ba ^^^ (~~~ Be &&& Bi)
  let Aba0 := Aba0 ^^^ c0
  let Abe0 := Be ^^^ (~~~ Bi &&& Bo)
  let Abi0 := Bi ^^^ (~~~ Bo &&& Bu)
  let Abo0 := Bo ^^^ (~~~ Bu &&& Ba)
  let Abu0 := Bu ^^^ (~~~ Ba &&& Be)
  let Ba := Aba1 ^^^ Da1
  let Be := rol32 (Abe1 ^^^ De1) 22
  let Bi := rol32 (Abi1 ^^^ Di0) 21
  let Bo := rol32 (Abo1 ^^^ Do0) 10
  let Bu := rol32 (Abu1 ^^^ Du1) 7
  let Aba1 := Ba ^^^ (~~~ Be &&& Bi)
  let Aba1 := Aba1 ^^^ c1
  let Abe1 := Be ^^^ (~~~ Bi &&& Bo)
  let Abi1 := Bi ^^^ (~~~ Bo &&& Bu)
  let Abo1 := Bo ^^^ (~~~ Bu &&& Ba)
  let Abu1 := Bu ^^^ (~~~ Ba &&& Be)
  let Bi := rol32 (Aga0 ^^^ Da1) 2
  let Bo := rol32 (Age0 ^^^ De1) 23
  let Bu := rol32 (Agi0 ^^^ Di1) 31
  let Ba := rol32 (Ago0 ^^^ Do0) 14
  let Be := rol32 (Agu0 ^^^ Du0) 10
  let Aga0 := Ba ^^^ (~~~ Be &&& Bi)
  let Age0 := Be ^^^ (~~~ Bi &&& Bo)
  let Agi0 := Bi ^^^ (~~~ Bo &&& Bu)
  let Ago0 := Bo ^^^ (~~~ Bu &&& Ba)
  let Agu0 := Bu ^^^ (~~~ Ba &&& Be)
  let Bi := rol32 (Aga1 ^^^ Da0) 1
  let Bo := rol32 (Age1 ^^^ De0) 22
  let Bu := rol32 (Agi1 ^^^ Di0) 30
  let Ba := rol32 (Ago1 ^^^ Do1) 14
  let Be := rol32 (Agu1 ^^^ Du1) 10
  let Aga1 := Ba ^^^ (~~~ Be &&& Bi)
  let Age1 := Be ^^^ (~~~ Bi &&& Bo)
  let Agi1 := Bi ^^^ (~~~ Bo &&& Bu)
  let Ago1 := Bo ^^^ (~~~ Bu &&& Ba)
  let Agu1 := Bu ^^^ (~~~ Ba &&& Be)
  let Bu := rol32 (Aka0 ^^^ Da0) 9
  let Ba := rol32 (Ake0 ^^^ De1) 1
  let Be := rol32 (Aki0 ^^^ Di0) 3
  let Bi := rol32 (Ako0 ^^^ Do1) 13
  let Bo := rol32 (Aku0 ^^^ Du0) 4
  let Aka0 := Ba ^^^ (~~~ Be &&& Bi)
  let Ake0 := Be ^^^ (~~~ Bi &&& Bo)
  let Aki0 := Bi ^^^ (~~~ Bo &&& Bu)
  let Ako0 := Bo ^^^ (~~~ Bu &&& Ba)
  let Aku0 := Bu ^^^ (~~~ Ba &&& Be)
  let Bu := rol32 (Aka1 ^^^ Da1) 9
  let Ba := Ake1 ^^^ De0
  let Be := rol32 (Aki1 ^^^ Di1) 3
  let Bi := rol32 (Ako1 ^^^ Do0) 12
  let Bo := rol32 (Aku1 ^^^ Du1) 4
  let Aka1 := Ba ^^^ (~~~ Be &&& Bi)
  let Ake1 := Be ^^^ (~~~ Bi &&& Bo)
  let Aki1 := Bi ^^^ (~~~ Bo &&& Bu)
  let Ako1 := Bo ^^^ (~~~ Bu &&& Ba)
  let Aku1 := Bu ^^^ (~~~ Ba &&& Be)
  let Be := rol32 (Ama0 ^^^ Da0) 18
  let Bi := rol32 (Ame0 ^^^ De0) 5
  let Bo := rol32 (Ami0 ^^^ Di1) 8
  let Bu := rol32 (Amo0 ^^^ Do0) 28
  let Ba := rol32 (Amu0 ^^^ Du1) 14
  let Ama0 := Ba ^^^ (~~~ Be &&& Bi)
  let Ame0 := Be ^^^ (~~~ Bi &&& Bo)
  let Ami0 := Bi ^^^ (~~~ Bo &&& Bu)
  let Amo0 := Bo ^^^ (~~~ Bu &&& Ba)
  let Amu0 := Bu ^^^ (~~~ Ba &&& Be)
  let Be := rol32 (Ama1 ^^^ Da1) 18
  let Bi := rol32 (Ame1 ^^^ De1) 5
  let Bo := rol32 (Ami1 ^^^ Di0) 7
  let Bu := rol32 (Amo1 ^^^ Do1) 28
  let Ba := rol32 (Amu1 ^^^ Du0) 13
  let Ama1 := Ba ^^^ (~~~ Be &&& Bi)
  let Ame1 := Be ^^^ (~~~ Bi &&& Bo)
  let Ami1 := Bi ^^^ (~~~ Bo &&& Bu)
  let Amo1 := Bo ^^^ (~~~ Bu &&& Ba)
  let Amu1 := Bu ^^^ (~~~ Ba &&& Be)
  let Bo := rol32 (Asa0 ^^^ Da1) 21
  let Bu := rol32 (Ase0 ^^^ De0) 1
  let Ba := rol32 (Asi0 ^^^ Di0) 31
  let Be := rol32 (Aso0 ^^^ Do1) 28
  let Bi := rol32 (Asu0 ^^^ Du1) 20
  let Asa0 := Ba ^^^ (~~~ Be &&& Bi)
  let Ase0 := Be ^^^ (~~~ Bi &&& Bo)
  let Asi0 := Bi ^^^ (~~~ Bo &&& Bu)
  let Aso0 := Bo ^^^ (~~~ Bu &&& Ba)
  let Asu0 := Bu ^^^ (~~~ Ba &&& Be)
  let Bo := rol32 (Asa1 ^^^ Da0) 20
  let Bu := rol32 (Ase1 ^^^ De1) 1
  let Ba := rol32 (Asi1 ^^^ Di1) 31
  let Be := rol32 (Aso1 ^^^ Do0) 27
  let Bi := rol32 (Asu1 ^^^ Du0) 19
  let Asa1 := Ba ^^^ (~~~ Be &&& Bi)
  let Ase1 := Be ^^^ (~~~ Bi &&& Bo)
  let Asi1 := Bi ^^^ (~~~ Bo &&& Bu)
  let Aso1 := Bo ^^^ (~~~ Bu &&& Ba)
  let Asu1 := Bu ^^^ (~~~ Ba &&& Be)
  ⟨Aba0, Aba1, Abe0, Abe1, Abi0, Abi1, Abo0, Abo1, Abu0, Abu1, Aga0, Aga1, Age0, Age1, Agi0, Agi1, Ago0, Ago1,
   Agu0, Agu1, Aka0, Aka1, Ake0, Ake1, Aki0, Aki1, Ako0, Ako1, Aku0, Aku1, Ama0, Ama1, Ame0, Ame1, Ami0, Ami1,
   Amo0, Amo1, Amu0, Amu1, Asa0, Asa1, Ase0, Ase1, Asi0, Asi1, Aso0, Aso1, Asu0, Asu1⟩

/-- `KeccakRound3` (KeccakP-1600-inplace32BI.c:838-961). -/
def round3 (c0 c1 : Word) (S : Half) : Half := rest3 (effect3 S) c0 c1 S
/-- `SwapPI13` (KeccakP-1600-inplace32BI.c:1029-1037); the pointers are indices into the state.  This function and
the next ones only move words, and are written for an arbitrary type of words. -/
def swapPI13 {α : Type} (in0 in1 in2 in3 eo0 eo1 eo2 eo3 : Nat) (A : Fin 50 → α) : Fin 50 → α :=
  let at' (b e : Nat) : Fin 50 := Fin.ofNat 50 (b + e)
  let I0 := A (at' in0 0)
  let I1 := A (at' in0 1)
  let T0 := A (at' in1 0)
  let T1 := A (at' in1 1)
  let A := put (put A (at' in0 eo0) T0) (at' in0 (eo0 ^^^ 1)) T1
  let T0 := A (at' in2 0)
  let T1 := A (at' in2 1)
  let A := put (put A (at' in1 eo1) T0) (at' in1 (eo1 ^^^ 1)) T1
  let T0 := A (at' in3 0)
  let T1 := A (at' in3 1)
  let A := put (put A (at' in2 eo2) T0) (at' in2 (eo2 ^^^ 1)) T1
  put (put A (at' in3 eo3) I0) (at' in3 (eo3 ^^^ 1)) I1

/-- `SwapPI2` (KeccakP-1600-inplace32BI.c:1038-1046). -/
def swapPI2 {α : Type} (in0 in1 in2 in3 : Nat) (A : Fin 50 → α) : Fin 50 → α :=
  let at' (b e : Nat) : Fin 50 := Fin.ofNat 50 (b + e)
  let I0 := A (at' in0 0)
  let I1 := A (at' in0 1)
  let T0 := A (at' in1 0)
  let T1 := A (at' in1 1)
  let A := put (put A (at' in0 1) T0) (at' in0 0) T1
  let A := put (put A (at' in1 1) I0) (at' in1 0) I1
  let I0 := A (at' in2 0)
  let I1 := A (at' in2 1)
  let T0 := A (at' in3 0)
  let T1 := A (at' in3 1)
  let A := put (put A (at' in2 1) T0) (at' in2 0) T1
  put (put A (at' in3 1) I0) (at' in3 0) I1

/-- `SwapEO( even,odd )` (KeccakP-1600-inplace32BI.c:1047). -/
def swapEO {α : Type} (even odd : Fin 50) (A : Fin 50 → α) : Fin 50 → α :=
  let T0 := A even
  let A := put A even (A odd)
  put A odd T0

/-- `case 1` (KeccakP-1600-inplace32BI.c:1049-1057).  `&Aga0` is 10, `&Aka0` 20, etc. -/
def prepare1 {α : Type} (A : Fin 50 → α) : Fin 50 → α :=
  let A := swapPI13 10 20 40 30 1 0 1 0 A
  let A := swapPI13 2 12 32 22 0 1 0 1 A
  let A := swapPI13 4 24 14 44 1 0 1 0 A
  let A := swapEO 34 35 A
  let A := swapPI13 6 36 46 16 1 0 1 0 A
  let A := swapEO 26 27 A
  swapPI13 8 48 28 38 0 1 0 1 A

/-- `case 2` (KeccakP-1600-inplace32BI.c:1059-1065). -/
def prepare2 {α : Type} (A : Fin 50 → α) : Fin 50 → α :=
  let A := swapPI2 10 40 20 30 A
  let A := swapPI2 2 32 12 22 A
  let A := swapPI2 4 14 24 44 A
  let A := swapPI2 6 46 16 36 A
  swapPI2 8 28 38 48 A

/-- `case 3` (KeccakP-1600-inplace32BI.c:1067-1075). -/
def prepare3 {α : Type} (A : Fin 50 → α) : Fin 50 → α :=
  let A := swapPI13 10 30 40 20 0 1 0 1 A
  let A := swapPI13 2 22 32 12 1 0 1 0 A
  let A := swapPI13 4 44 14 24 0 1 0 1 A
  let A := swapEO 34 35 A
  let A := swapPI13 6 16 46 36 0 1 0 1 A
  let A := swapEO 26 27 A
  swapPI13 8 38 28 48 1 0 1 0 A

/-- The first `switch ( nRounds )`, after `nRounds &= 3` (KeccakP-1600-inplace32BI.c:1022-1083). -/
def prepare {α : Type} (nRounds : Nat) (A : Fin 50 → α) : Fin 50 → α :=
  match nRounds with
  | 1 => prepare1 A
  | 2 => prepare2 A
  | 3 => prepare3 A
  | _ => A

/-- One round, which reads two words through `pRoundConstants` and advances it; a list is what remains of the table,
and reading past its end is undefined. -/
def step (round : Word → Word → Half → Half) (st : Half × List Word) : Option (Half × List Word) :=
  match st.2 with
  | c0 :: c1 :: p => some (round c0 c1 st.1, p)
  | _ => none

/-- The second `switch ( nRounds )` (KeccakP-1600-inplace32BI.c:1088-1094); the cases fall through. -/
def rounds (nRounds : Nat) (st : Half × List Word) : Option (Half × List Word) :=
  match nRounds with
  | 0 => do
    let st ← step round0 st
    let st ← step round1 st
    let st ← step round2 st
    step round3 st
  | 3 => do
    let st ← step round1 st
    let st ← step round2 st
    step round3 st
  | 2 => do
    let st ← step round2 st
    step round3 st
  | 1 => step round3 st
  | _ => some st

/-- The `do ... while ( *pRoundConstants != 0xFF )` loop (KeccakP-1600-inplace32BI.c:1085-1097).  Running out of fuel
means that it does not end. -/
def loop : Nat → Nat → Half × List Word → Option Half
  | 0, _, _ => none
  | fuel + 1, nRounds, st => do
    let st ← rounds nRounds st
    let w ← st.2.head?
    if w ≠ 0xFF then loop fuel 0 st else some st.1

/-- `KeccakP1600_Permute_Nrounds` (KeccakP-1600-inplace32BI.c:963-1149).  With more than 24 rounds the pointer
`pRoundConstants` is out of the table: undefined. -/
def permuteNrounds (A : Words) (nRounds : Nat) : Option Words :=
  if nRounds ≤ 24 then do
    let pRoundConstants := roundConstants.drop ((24 - nRounds) * 2)
    let A := prepare (nRounds % 4) A
    let S ← loop 25 (nRounds % 4) (load A, pRoundConstants)
    some (store S)
  else none

/-- `KeccakP1600_Permute_12rounds` (KeccakP-1600-inplace32BI.c:1153-1156). -/
def permute12 (A : Words) : Option Words := permuteNrounds A 12

/-- `KeccakP1600_Permute_24rounds` (KeccakP-1600-inplace32BI.c:1160-1163). -/
def permute24 (A : Words) : Option Words := permuteNrounds A 24

/-! ## byte access -/

/-- `*((uint32_t*)(p+0))`, `*((uint32_t*)(p+4))`: the words `low` and `high` of 8 bytes, on a little-endian platform
(KeccakP-1600-inplace32BI.c:98-99). -/
def words (b : Bytes) : Word × Word := (Ref32.word b 0, Ref32.word b 4)

/-- Combining the two words of a lane with two other words. -/
def onLane (f : Word → Word → Word) (A : Words) (lanePosition : Nat) (w : Word × Word) : Option Words := do
  let a ← getWord A (lanePosition * 2 + 0)
  let A ← setWord A (lanePosition * 2 + 0) (f a w.1)
  let a ← getWord A (lanePosition * 2 + 1)
  setWord A (lanePosition * 2 + 1) (f a w.2)

/-- `KeccakP1600_SetBytesInLaneToZero` (KeccakP-1600-inplace32BI.c:87-111).  Writing beyond the 8 bytes of
`laneAsBytes` is undefined. -/
def setBytesInLaneToZero (A : Words) (lanePosition offset length : Nat) : Option Words :=
  if offset + length ≤ 8 then
    let laneAsBytes := List.replicate offset 0xFF ++ List.replicate length 0x00
      ++ List.replicate (8 - offset - length) 0xFF
    let w := words laneAsBytes
    onLane (· &&& ·) A lanePosition (toBitInterleaving w.1 w.2)
  else none

/-- `KeccakP1600_Initialize` (KeccakP-1600-inplace32BI.c:115-118). -/
def initState : Words := fun _ => 0

/-- `KeccakP1600_AddByte` (KeccakP-1600-inplace32BI.c:122-139). -/
def addByte (A : Words) (b : Byte) (offset : Nat) : Option Words :=
  let lanePosition := offset / 8
  let offsetInLane := offset % 8
  let w : Word × Word :=
    if offsetInLane < 4 then (b.setWidth 32 <<< (offsetInLane * 8), 0)
    else (0, b.setWidth 32 <<< ((offsetInLane - 4) * 8))
  onLane (· ^^^ ·) A lanePosition (toBitInterleaving w.1 w.2)

/-- `KeccakP1600_AddBytesInLane` (KeccakP-1600-inplace32BI.c:143-166). -/
def addBytesInLane (A : Words) (lanePosition : Nat) (data : Bytes) (offset length : Nat) : Option Words := do
  let d ← SnP.readBuf data length
  if offset + length ≤ 8 then
    let laneAsBytes := Bytes.setAt (List.replicate 8 0) offset d
    let w := words laneAsBytes
    onLane (· ^^^ ·) A lanePosition (toBitInterleaving w.1 w.2)
  else none

/-- `KeccakP1600_AddLanes` (KeccakP-1600-inplace32BI.c:170-206): `pI` and `pS` advance by one lane in each of the
`laneCount` iterations. -/
def addLanes (A : Words) (data : Bytes) (laneCount : Nat) : Option Words :=
  loopM (fun i A => do
    let b ← SnP.readBuf (data.drop (i * 8)) 8
    let w := words b
    onLane (· ^^^ ·) A i (toBitInterleaving w.1 w.2)) 0 laneCount A

/-- `KeccakP1600_OverwriteBytesInLane` (KeccakP-1600-inplace32BI.c:217-221). -/
def overwriteBytesInLane (A : Words) (lanePosition : Nat) (data : Bytes) (offset length : Nat) : Option Words := do
  let A ← setBytesInLaneToZero A lanePosition offset length
  addBytesInLane A lanePosition data offset length

/-- `KeccakP1600_OverwriteLanes` (KeccakP-1600-inplace32BI.c:225-261). -/
def overwriteLanes (A : Words) (data : Bytes) (laneCount : Nat) : Option Words :=
  loopM (fun i A => do
    let b ← SnP.readBuf (data.drop (i * 8)) 8
    let w := words b
    onLane (fun _ v => v) A i (toBitInterleaving w.1 w.2)) 0 laneCount A

/-- `KeccakP1600_OverwriteWithZeroes` (KeccakP-1600-inplace32BI.c:272-283). -/
def overwriteWithZeroes (A : Words) (byteCount : Nat) : Option Words := do
  let A ← loopM (fun i A => do
    let A ← setWord A (i * 2 + 0) 0
    setWord A (i * 2 + 1) 0) 0 (byteCount / 8) A
  if byteCount % 8 ≠ 0 then setBytesInLaneToZero A (byteCount / 8) 0 (byteCount % 8) else some A

/-- `laneAsBytes`, filled from `fromBitInterleaving` (KeccakP-1600-inplace32BI.c:293-306, 366-379). -/
def laneBytes (A : Words) (lanePosition : Nat) : Option Bytes := do
  let e ← getWord A (lanePosition * 2)
  let o ← getWord A (lanePosition * 2 + 1)
  let w := fromBitInterleaving e o
  some (Ref32.bytes w.1 ++ Ref32.bytes w.2)

/-- `KeccakP1600_ExtractBytesInLane` (KeccakP-1600-inplace32BI.c:287-308). -/
def extractBytesInLane (A : Words) (lanePosition offset length : Nat) : Option Bytes := do
  let laneAsBytes ← laneBytes A lanePosition
  SnP.readBuf (laneAsBytes.drop offset) length

/-- The loop of `KeccakP1600_ExtractLanes` (KeccakP-1600-inplace32BI.c:319-329). -/
def extractLoop (A : Words) : Nat → Nat → Option Bytes
  | _, 0 => some []
  | i, n + 1 => do
    let o ← laneBytes A i
    let os ← extractLoop A (i + 1) n
    some (o ++ os)

/-- `KeccakP1600_ExtractLanes` (KeccakP-1600-inplace32BI.c:312-348). -/
def extractLanes (A : Words) (laneCount : Nat) : Option Bytes := extractLoop A 0 laneCount

/-- `KeccakP1600_ExtractAndAddBytesInLane` (KeccakP-1600-inplace32BI.c:359-382). -/
def extractAndAddBytesInLane (A : Words) (lanePosition : Nat) (input : Bytes) (offset length : Nat) :
    Option Bytes := do
  let laneAsBytes ← laneBytes A lanePosition
  let d ← SnP.readBuf input length
  let l ← SnP.readBuf (laneAsBytes.drop offset) length
  some (Bytes.xor d l)

/-- The loop of `KeccakP1600_ExtractAndAddLanes` (KeccakP-1600-inplace32BI.c:394-404). -/
def extractAndAddLoop (A : Words) (input : Bytes) : Nat → Nat → Option Bytes
  | _, 0 => some []
  | i, n + 1 => do
    let e ← getWord A (i * 2)
    let o ← getWord A (i * 2 + 1)
    let w := fromBitInterleaving e o
    let b ← SnP.readBuf (input.drop (i * 8)) 8
    let v := words b
    let os ← extractAndAddLoop A input (i + 1) n
    some (Ref32.bytes (v.1 ^^^ w.1) ++ Ref32.bytes (v.2 ^^^ w.2) ++ os)

/-- `KeccakP1600_ExtractAndAddLanes` (KeccakP-1600-inplace32BI.c:386-424), little endian (see finding F17 for the
big-endian lines). -/
def extractAndAddLanes (A : Words) (input : Bytes) (laneCount : Nat) : Option Bytes :=
  extractAndAddLoop A input 0 laneCount

/-- The functions given to the macros of SnP-Relaned.h (KeccakP-1600-inplace32BI.c:210-213, 265-268, 352-355,
427-430). -/
def ops : LaneOps Words where
  addLanes := addLanes
  addBytesInLane := addBytesInLane
  overwriteLanes := overwriteLanes
  overwriteBytesInLane := overwriteBytesInLane
  extractLanes := extractLanes
  extractBytesInLane := extractBytesInLane
  extractAndAddLanes := extractAndAddLanes
  extractAndAddBytesInLane := extractAndAddBytesInLane

/-- The byte access functions (KeccakP-1600-inplace32BI.c:115-430). -/
def access : Access Words where
  init := initState
  addByte := addByte
  addBytes := Relaned.addBytes 8 ops
  overwriteBytes := Relaned.overwriteBytes 8 ops
  overwriteWithZeroes := overwriteWithZeroes
  extractBytes := Relaned.extractBytes 8 ops
  extractAndAddBytes := Relaned.extractAndAddBytes 8 ops

end Inplace32

end KeccakP1600
