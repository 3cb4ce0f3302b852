import Verif.Model.KangarooTwelve
import Verif.Model.ParallelHash

/-!
# The command-line utility KeccakSum

Models `util/KeccakSum/KeccakSum.c` and `util/KeccakSum/base64.c`.

* A character is a byte and a string is the list of its bytes without the terminating zero.
* What the program prints is a list of items: the line with a digest is a text, any other message (errors and the help page) is an item
  without contents.
* A file is its contents: `fread` returns `bufferSize` bytes, or what is left if there are less (the end of the file or an error, which the
  program does not distinguish).  The standard input is such contents too, and what has been read is gone.  `fclose` has no effect.
* The uninitialised local variables `instance` are the parameter `mem`; a member of the structure `specs` that has not been
  assigned is `none`.
* The call `KangarooTwelve_Initialize(&instance->k12, specs->hashbitlen/8)` of line 70 has two arguments while the function declared in
  `KangarooTwelve.h` has three, so that the file does not compile.  It is modelled with 128 as the missing argument, which is
  what this call meant before the argument was introduced.
* `sscanf` with a number that does not fit in an `int` is undefined.
-/

namespace KeccakSum

/-- The bytes of a string of ASCII characters. -/
def str (s : String) : Bytes := s.toList.map fun c => BitVec.ofNat 8 c.toNat

/-! ### Encodings -/

/-- `hexchars` (KeccakSum.c:23). -/
def hexchars : Bytes := str "0123456789abcdef"

/-- The loop of `hexencode` and what follows (KeccakSum.c:28-36).  `r` is what has been written to `result`, so that `resultIndex` is its length. -/
def hexLoop (data : Bytes) (dataLength resultSize : Nat) : Nat → Nat → Bytes → Option (Nat × Bytes)
  | 0, _, _ => none
  | fuel + 1, x, r =>
    if x < dataLength then
      if r.length ≥ resultSize then some (1, r)
      else do
        let d ← data[x]?
        let r := r ++ [← hexchars[d.toNat / 16 % 16]?]
        if r.length ≥ resultSize then some (1, r)
        else do
          let r := r ++ [← hexchars[d.toNat % 16]?]
          hexLoop data dataLength resultSize fuel (x + 1) r
    else if r.length ≥ resultSize then some (1, r)
    else some (0, r ++ [0])

/-- `hexencode` (KeccakSum.c:21-37): the code and what has been written to `result`. -/
def hexencode (data : Bytes) (dataLength resultSize : Nat) : Option (Nat × Bytes) :=
  hexLoop data dataLength resultSize (dataLength + 1) 0 []

/-- `base64chars` (base64.c:15). -/
def base64chars : Bytes := str "ABCDEFGHIJKLMNOPQRSTUVWXYZabcdefghijklmnopqrstuvwxyz0123456789+/"

/-- `if(resultIndex >= resultSize) return 1; result[resultIndex++] = c;`: `Except.error` is the return, with what has been written. -/
def putc (resultSize : Nat) (r : Bytes) (c : Byte) : Except Bytes Bytes := if r.length ≥ resultSize then .error r else .ok (r ++ [c])

/-- The same if `b`. -/
def putcIf (b : Bool) (resultSize : Nat) (r : Bytes) (c : Byte) : Except Bytes Bytes := if b then putc resultSize r c else .ok r

/-- The 24-bit number (base64.c:27-33). -/
def triple (data : Bytes) (dataLength x : Nat) : Option (BitVec 32) := do
  let n := (← data[x]?).setWidth 32 <<< 16
  let n ← if x + 1 < dataLength then do some (n + (← data[x + 1]?).setWidth 32 <<< 8) else some n
  if x + 2 < dataLength then do some (n + (← data[x + 2]?).setWidth 32) else some n

/-- `base64chars[(uint8_t)(n >> k) & 63]` (base64.c:36-39). -/
def sextet (n : BitVec 32) (k : Nat) : Option Byte := base64chars[((n >>> k).setWidth 8 &&& 63#8).toNat]?

/-- The body of the loop (base64.c:27-68). -/
def base64Step (data : Bytes) (dataLength resultSize x : Nat) (r : Bytes) : Option (Except Bytes Bytes) := do
  let n ← triple data dataLength x
  let c0 ← sextet n 18
  let c1 ← sextet n 12
  let c2 ← sextet n 6
  let c3 ← sextet n 0
  some (putc resultSize r c0 >>= fun r => putc resultSize r c1 >>= fun r =>
    putcIf (x + 1 < dataLength) resultSize r c2 >>= fun r => putcIf (x + 2 < dataLength) resultSize r c3)

/-- The loop of the padding, and what follows (base64.c:75-85). -/
def base64Pad (resultSize : Nat) : Nat → Nat → Bytes → Option (Nat × Bytes)
  | 0, _, _ => none
  | fuel + 1, padCount, r =>
    if 0 < padCount ∧ padCount < 3 then
      if r.length ≥ resultSize then some (1, r)
      else base64Pad resultSize fuel (padCount + 1) (r ++ [0x3D])
    else if r.length ≥ resultSize then some (1, r)
    else some (0, r ++ [0])

/-- The loop (base64.c:24-69), and what follows. -/
def base64Loop (data : Bytes) (dataLength resultSize : Nat) : Nat → Nat → Bytes → Option (Nat × Bytes)
  | 0, _, _ => none
  | fuel + 1, x, r =>
    if x < dataLength then do
      match ← base64Step data dataLength resultSize x r with
      | .error r => some (1, r)
      | .ok r => base64Loop data dataLength resultSize fuel (x + 3) r
    else base64Pad resultSize 4 (dataLength % 3) r

/-- `base64encode` (base64.c:13-86): the code and what has been written to `result`. -/
def base64encode (data : Bytes) (dataLength resultSize : Nat) : Option (Nat × Bytes) :=
  base64Loop data dataLength resultSize (dataLength + 1) 0 []

/-! ### Hashing -/

/-- `bufferSize` (KeccakSum.c:39). -/
def bufferSize : Nat := 65536

/-- `Specifications` (KeccakSum.c:44-51). -/
structure Specs where
  algorithm : Nat
  rate : BitVec 32
  capacity : BitVec 32
  hashbitlen : BitVec 32
  delimitedSuffix : Byte
  blockByteLen : Option (BitVec 32)

/-- `algorithm_Keccak` (KeccakSum.c:40). -/
def algorithm_Keccak : Nat := 0

/-- `algorithm_K12` (KeccakSum.c:41). -/
def algorithm_K12 : Nat := 1

/-- `algorithm_ParallelHash` (KeccakSum.c:42). -/
def algorithm_ParallelHash : Nat := 2

/-- `Instance` (KeccakSum.c:53-57); the member in use is the one last written. -/
inductive Inst
  | keccak (i : HashInst)
  | k12 (i : KtInst)
  | ph (i : PhInst)

/-- What the program is linked with and run in: Keccak-p[1600] with 24 and 12 rounds, the parallel implementations, the
contents of the local variables before their initialisation, and the files that can be opened. -/
structure Env where
  P24 : SnP
  P12 : SnP
  ktCfgs : Nat → List PlSnP.Cfg
  phCfgs : Nat → List PlSnP.Cfg
  mem : HashInst × KtInst × PhInst
  files : Bytes → Option Bytes

variable (E : Env)

/-- `hashInitialize` (KeccakSum.c:59-101): `none` inside is the return value -1, after a message; the last `else` prints nothing but cannot be reached. -/
def hashInitialize (specs : Specs) : Option (Option Inst) :=
  if specs.algorithm = algorithm_Keccak then
    let (c, i) := KeccakHash.hashInit E.P24 E.mem.1 specs.rate specs.capacity specs.hashbitlen specs.delimitedSuffix
    some (if c ≠ 0 then none else some (.keccak i))
  else if specs.algorithm = algorithm_K12 then
    let (c, i) := KT.ktInit E.P12 E.mem.2.1 128 (specs.hashbitlen.toNat / 8)
    some (if c ≠ 0 then none else some (.k12 i))
  else if specs.algorithm = algorithm_ParallelHash then
    if specs.capacity = 256 then do
      let B ← specs.blockByteLen
      let (c, i) ← ParallelHash.phInit E.P24 128 E.mem.2.2 B.toNat specs.hashbitlen.toNat [] 0
      some (if c ≠ 0 then none else some (.ph i))
    else if specs.capacity = 512 then do
      let B ← specs.blockByteLen
      let (c, i) ← ParallelHash.phInit E.P24 256 E.mem.2.2 B.toNat specs.hashbitlen.toNat [] 0
      some (if c ≠ 0 then none else some (.ph i))
    else some none
  else some none

/-- `hashUpdate` (KeccakSum.c:103-114), `size` being the length of the buffer; the return codes of the functions are not used. -/
def hashUpdate (i : Inst) (specs : Specs) (buffer : Bytes) : Option Inst :=
  let bits := buffer.length * 8 % 2 ^ 64
  match i with
  | .keccak i => if specs.algorithm = algorithm_Keccak then do some (.keccak (← KeccakHash.hashUpdate E.P24 i buffer bits).2) else none
  | .k12 i => if specs.algorithm = algorithm_K12 then do some (.k12 (← KT.ktUpdate E.P12 E.ktCfgs i buffer).2) else none
  | .ph i =>
    if specs.algorithm = algorithm_ParallelHash then
      if specs.capacity = 256 then do some (.ph (← ParallelHash.phUpdate E.P24 128 (E.phCfgs 128) i buffer bits).2)
      else if specs.capacity = 512 then do some (.ph (← ParallelHash.phUpdate E.P24 256 (E.phCfgs 256) i buffer bits).2)
      else some (.ph i)
    else none

/-- `hashFinal` (KeccakSum.c:116-127): the bytes written to `buffer`, of `bufferSize` bytes. -/
def hashFinal (i : Inst) (specs : Specs) : Option Bytes := do
  let out ← match i with
    | .keccak i => if specs.algorithm = algorithm_Keccak then do some (← KeccakHash.hashFinal E.P24 i).2.2 else none
    | .k12 i => if specs.algorithm = algorithm_K12 then do some (← KT.ktFinal E.P12 E.ktCfgs i []).2.2 else none
    | .ph i =>
      if specs.algorithm = algorithm_ParallelHash then
        if specs.capacity = 256 then do some (← ParallelHash.phFinal E.P24 128 i).2.2
        else if specs.capacity = 512 then do some (← ParallelHash.phFinal E.P24 256 i).2.2
        else some []
      else none
  if out.length ≤ bufferSize then some out else none

/-! ### Files and strings -/

/-- What is printed. -/
inductive Item
  | text (s : Bytes)
  | message
deriving DecidableEq

/-- What `printf("%s", ...)` prints of an array: up to the first zero, which must be there. -/
def cstr (a : Bytes) : Option Bytes := if 0 ∈ a then some (a.takeWhile (· ≠ 0)) else none

/-- The loop of `processFile` (KeccakSum.c:155-159); what is left of the contents is dropped since it is empty. -/
def readLoop (specs : Specs) : Nat → Inst → Bytes → Option Inst
  | 0, _, _ => none
  | fuel + 1, i, contents =>
    let buffer := contents.take bufferSize
    if buffer.length > 0 then do
      let i ← hashUpdate E i specs buffer
      readLoop specs fuel i (contents.drop bufferSize)
    else some i

/-- The end of `processFile` and `processString`: the digest is encoded and printed, followed by `name` (KeccakSum.c:164-178, 196-210). -/
def printDigest (specs : Specs) (base64 : Bool) (buffer name : Bytes) : Option (Int × List Item) := do
  let len := (specs.hashbitlen.toNat + 7) % 2 ^ 32 / 8
  let (c, display) ← if base64 then base64encode buffer len (bufferSize * 2) else hexencode buffer len (bufferSize * 2)
  if c ≠ 0 then some (-1, [.message])
  else some (0, [.text ((← cstr display) ++ str "  " ++ name ++ [0x0A])])

/-- `processFile` from `hashInitialize` on (KeccakSum.c:151-178). -/
def processContents (specs : Specs) (base64 : Bool) (contents name : Bytes) : Option (Int × List Item) := do
  match ← hashInitialize E specs with
  | none => some (-1, [.message])
  | some i =>
    let i ← readLoop E specs (contents.length + 1) i contents
    let buffer ← hashFinal E i specs
    printDigest specs base64 buffer name

/-- `processFile` (KeccakSum.c:129-179): the return value, what is printed and what is left of the standard input. -/
def processFile (stdin fileName : Bytes) (specs : Specs) (base64 : Bool) : Option (Int × List Item × Bytes) :=
  if specs.hashbitlen.toNat > bufferSize * 8 then some (-1, [.message], stdin)
  else if fileName = str "-" then do
    let (c, out) ← processContents E specs base64 stdin fileName
    some (c, out, [])
  else
    match E.files fileName with
    | none => some (-1, [.message], stdin)
    | some contents => do
      let (c, out) ← processContents E specs base64 contents fileName
      some (c, out, stdin)

/-- `processString` (KeccakSum.c:181-211). -/
def processString (input : Bytes) (specs : Specs) (base64 : Bool) : Option (Int × List Item) :=
  if specs.hashbitlen.toNat > bufferSize * 8 then some (-1, [.message])
  else do
    match ← hashInitialize E specs with
    | none => some (-1, [.message])
    | some i =>
      let i ← hashUpdate E i specs input
      let buffer ← hashFinal E i specs
      printDigest specs base64 buffer (str "\"" ++ input ++ str "\"")

/-! ### The command line -/

/-- A character that `isspace` accepts. -/
def isspace (c : Byte) : Bool := (9 ≤ c.toNat ∧ c.toNat ≤ 13) ∨ c.toNat = 32

/-- A decimal digit. -/
def isdigit (c : Byte) : Bool := 48 ≤ c.toNat ∧ c.toNat ≤ 57

/-- The value of a string of digits. -/
def value (s : Bytes) : Nat := s.foldl (fun a c => 10 * a + (c.toNat - 48)) 0

/-- `sscanf(s, "%d", &v)` with `v = 0` before: the value returned and `v`. -/
def sscanf (s : Bytes) : Option (Int × Int) :=
  let s := s.dropWhile isspace
  if s = [] then some (-1, 0)
  else
    let neg := s.head? = some 0x2D
    let s := if s.head? = some 0x2D ∨ s.head? = some 0x2B then s.tail else s
    let digits := s.takeWhile isdigit
    if digits = [] then some (0, 0)
    else
      let v : Int := if neg then -(value digits : Int) else value digits
      if -2 ^ 31 ≤ v ∧ v < 2 ^ 31 then some (1, v) else none

/-- The specifications and `base64`, the variables that the options change. -/
structure Opts where
  specs : Specs
  base64 : Bool

/-- The initial values (KeccakSum.c:241-248). -/
def initial : Opts where
  specs := { algorithm := algorithm_Keccak, rate := 1344, capacity := 256, hashbitlen := 264, delimitedSuffix := 0x1F, blockByteLen := none }
  base64 := true

/-- The options without an argument (KeccakSum.c:252-255, 271-341); `none` if `arg` is not one of them. -/
def setOption (o : Opts) (arg : Bytes) : Option Opts :=
  if str "--base64" = arg then some { o with base64 := true }
  else if str "--hex" = arg then some { o with base64 := false }
  else if str "--shake128" = arg then
    some { specs := { o.specs with rate := 1344, capacity := 256, hashbitlen := 264, delimitedSuffix := 0x1F }, base64 := true }
  else if str "--shake256" = arg then
    some { specs := { o.specs with rate := 1088, capacity := 512, hashbitlen := 528, delimitedSuffix := 0x1F }, base64 := true }
  else if str "--sha3-224" = arg then
    some { specs := { o.specs with rate := 1152, capacity := 448, hashbitlen := 224, delimitedSuffix := 0x06 }, base64 := false }
  else if str "--sha3-256" = arg then
    some { specs := { o.specs with rate := 1088, capacity := 512, hashbitlen := 256, delimitedSuffix := 0x06 }, base64 := false }
  else if str "--sha3-384" = arg then
    some { specs := { o.specs with rate := 832, capacity := 768, hashbitlen := 384, delimitedSuffix := 0x06 }, base64 := false }
  else if str "--sha3-512" = arg then
    some { specs := { o.specs with rate := 576, capacity := 1024, hashbitlen := 512, delimitedSuffix := 0x06 }, base64 := false }
  else if str "--no-suffix" = arg then some { o with specs := { o.specs with delimitedSuffix := 0x01 } }
  else if str "--ethereum" = arg then
    some { specs := { o.specs with rate := 1088, capacity := 512, hashbitlen := 256, delimitedSuffix := 0x01 }, base64 := false }
  else if str "--kangarootwelve" = arg ∨ str "--k12" = arg then
    some { specs := { o.specs with algorithm := algorithm_K12, hashbitlen := 264 }, base64 := true }
  else if str "--ph128" = arg then
    some { specs := { o.specs with algorithm := algorithm_ParallelHash, capacity := 256, hashbitlen := 264, blockByteLen := some 8192 },
           base64 := true }
  else if str "--ph256" = arg then
    some { specs := { o.specs with algorithm := algorithm_ParallelHash, capacity := 512, hashbitlen := 528, blockByteLen := some 8192 },
           base64 := true }
  else none

/-- The option `--outputbits` with the argument `arg` (KeccakSum.c:261-269): `none` inside is the error. -/
def setOutputBits (o : Opts) (arg : Bytes) : Option (Option Opts) := do
  let (c, outputbits) ← sscanf arg
  if c ≠ 0 ∧ outputbits > 0 ∧ outputbits.tmod 8 = 0 then
    some (some { o with specs := { o.specs with hashbitlen := BitVec.ofInt 32 outputbits } })
  else some none

/-- The option `-B` with the argument `arg` (KeccakSum.c:348-356). -/
def setBlock (o : Opts) (arg : Bytes) : Option (Option Opts) := do
  let (c, blockByteLen) ← sscanf arg
  if c ≠ 0 ∧ blockByteLen > 0 then some (some { o with specs := { o.specs with blockByteLen := some (BitVec.ofInt 32 blockByteLen) } })
  else some none

/-- Is the argument refused as an unknown option (KeccakSum.c:371-376)? -/
def unrecognized (arg : Bytes) : Bool := arg.length > 2 ∧ arg.take 2 = str "--"

/-- The options that are followed by an argument (KeccakSum.c:256, 342, 358, 366). -/
inductive Kind | outputbits | block | string | help | other
deriving DecidableEq

/-- The tests of the options not in `setOption`; the order of the tests does not matter, since the strings are different. -/
def kind (arg : Bytes) : Kind :=
  if str "--outputbits" = arg ∨ str "-n" = arg then .outputbits
  else if str "-B" = arg then .block
  else if str "--string" = arg then .string
  else if str "--help" = arg ∨ str "-h" = arg then .help
  else .other

/-- The end of `process` (KeccakSum.c:383-388). -/
def finish (o : Opts) (stdin : Bytes) (wasFilename : Bool) (out : List Item) : Option (Int × List Item) :=
  if wasFilename then some (0, out)
  else do
    let (r, out', _) ← processFile E stdin (str "-") o.specs o.base64
    some (r, out ++ out')

/-- The loop of `process` (KeccakSum.c:250-382) and what follows, on the arguments left. -/
def processArgs : List Bytes → Opts → (stdin : Bytes) → (wasFilename : Bool) → (out : List Item) → Option (Int × List Item)
  | [], o, stdin, was, out => finish E o stdin was out
  | arg :: rest, o, stdin, was, out =>
    match setOption o arg with
    | some o => processArgs rest o stdin was out
    | none =>
      match kind arg, rest with
      | .outputbits, [] => some (-1, out ++ [.message])
      | .outputbits, a :: rest => do
        match ← setOutputBits o a with
        | some o => processArgs rest o stdin was out
        | none => some (-1, out ++ [.message])
      | .block, [] => some (-1, out ++ [.message])
      | .block, a :: rest => do
        match ← setBlock o a with
        | some o => processArgs rest o stdin was out
        | none => some (-1, out ++ [.message])
      | .string, [] => some (-1, out ++ [.message])
      | .string, a :: rest => do
        let (_, out') ← processString E a o.specs o.base64
        processArgs rest o stdin was (out ++ out')
      | .help, _ => some (0, out ++ [.message])
      | .other, rest =>
        if unrecognized arg then some (-1, out ++ [.message])
        else do
          let (r, out', stdin) ← processFile E stdin arg o.specs o.base64
          if r ≠ 0 then some (r, out ++ out') else processArgs rest o stdin true (out ++ out')

/-- `process` and `main` (KeccakSum.c:238-394), on the arguments after the name of the program: the exit status and what is printed. -/
def process (args : List Bytes) (stdin : Bytes) : Option (Int × List Item) := processArgs E args initial stdin false []

end KeccakSum
