import Verif.Spec.KangarooTwelve

/-!
# What KeccakSum is documented to do

From its help page (KeccakSum.c:213-236), RFC 4648 section 4 (base64) and FIPS 202, SP 800-185 and RFC 9861 (the functions).  Nothing here refers to
the model of the code.
-/

namespace Spec.KeccakSum

/-- A string of ASCII characters as bytes. -/
def text (s : String) : Bytes := s.toList.map fun c => BitVec.ofNat 8 c.toNat

/-! ### Encodings -/

/-- The bits of a byte string, the most significant bit of each byte first. -/
def bitsMsb (s : Bytes) : Bits := s.flatMap fun b => (Bits.ofByte b).reverse

/-- The number with the given binary digits, the most significant one first. -/
def number (b : Bits) : Nat := b.foldl (fun a d => 2 * a + d.toNat) 0

/-- The groups of `k` bits of a bit string, the last one filled with zeros (RFC 4648 section 4). -/
def groups (k : Nat) (b : Bits) : List Bits :=
  (List.range ((b.length + k - 1) / k)).map fun i =>
    let g := (b.drop (i * k)).take k
    g ++ List.replicate (k - g.length) false

/-- The base64 alphabet (RFC 4648, table 1). -/
def alphabet : List Char := "ABCDEFGHIJKLMNOPQRSTUVWXYZabcdefghijklmnopqrstuvwxyz0123456789+/".toList

/-- The character of an alphabet for a value. -/
def char (a : List Char) (v : Nat) : Byte := BitVec.ofNat 8 (a.getD v ' ').toNat

/-- The base64 encoding (RFC 4648 section 4): one character for each group of 6 bits, then `=` up to a multiple of four characters. -/
def base64 (s : Bytes) : Bytes :=
  let c := (groups 6 (bitsMsb s)).map fun g => char alphabet (number g)
  c ++ List.replicate ((4 - c.length % 4) % 4) (BitVec.ofNat 8 '='.toNat)

/-- Hexadecimal digits, lower case: one for each group of 4 bits. -/
def hex (s : Bytes) : Bytes := (groups 4 (bitsMsb s)).map fun g => char "0123456789abcdef".toList (number g)

inductive Format | base64 | hex
deriving DecidableEq

def Format.encode : Format → Bytes → Bytes
  | .base64 => KeccakSum.base64
  | .hex => KeccakSum.hex

/-! ### Functions -/

/-- A function that can be selected. -/
inductive Fn
  /-- `KECCAK[c](M || suffix, d)` -/
  | keccak (c : Nat) (suffix : Bits)
  | kt128
  | parallelHash (s B : Nat)
deriving DecidableEq

/-- The digest of `d` bits of the message, for Keccak-p[1600] with 24 rounds (`f`) and 12 rounds (`f12`). -/
def Fn.digest (f f12 : Bits → Bits) : Fn → Bits → Nat → Bits
  | .keccak c suffix, M, d => KECCAK f c (M ++ suffix) d
  | .kt128, M, d => KangarooTwelve f12 128 M [] d
  | .parallelHash s B, M, d => ParallelHash f s M B d []

/-! ### The command line -/

/-- The elements of a command line. -/
inductive Opt
  | base64
  | hex
  /-- `-n` or `--outputbits`, and a string of digits -/
  | outputBits (short : Bool) (digits : Bytes)
  | shake128 | shake256
  | sha3_224 | sha3_256 | sha3_384 | sha3_512
  | noSuffix
  | ethereum
  | k12 (short : Bool)
  | ph128 | ph256
  | block (digits : Bytes)
  | string (s : Bytes)
  | file (name : Bytes)

/-- How it is written. -/
def Opt.words : Opt → List Bytes
  | .base64 => [text "--base64"]
  | .hex => [text "--hex"]
  | .outputBits short d => [if short then text "-n" else text "--outputbits", d]
  | .shake128 => [text "--shake128"]
  | .shake256 => [text "--shake256"]
  | .sha3_224 => [text "--sha3-224"]
  | .sha3_256 => [text "--sha3-256"]
  | .sha3_384 => [text "--sha3-384"]
  | .sha3_512 => [text "--sha3-512"]
  | .noSuffix => [text "--no-suffix"]
  | .ethereum => [text "--ethereum"]
  | .k12 short => [if short then text "--k12" else text "--kangarootwelve"]
  | .ph128 => [text "--ph128"]
  | .ph256 => [text "--ph256"]
  | .block d => [text "-B", d]
  | .string s => [text "--string", s]
  | .file name => [name]

/-- The number written with the given decimal digits. -/
def decimal (d : Bytes) : Nat := d.foldl (fun a c => 10 * a + (c.toNat - '0'.toNat)) 0

/-- A string of decimal digits. -/
def IsDecimal (d : Bytes) : Prop := d ≠ [] ∧ ∀ c ∈ d, '0'.toNat ≤ c.toNat ∧ c.toNat ≤ '9'.toNat

/-- What is selected: function, number of bits and format. -/
structure Setting where
  fn : Fn
  bits : Nat
  format : Format

/-- "By default, it uses SHAKE128 and base64 display." -/
def default : Setting := ⟨.keccak 256 [true, true, true, true], 264, .base64⟩

/-- The effect of an option on what is selected: a function comes with its usual output length and format. -/
def Opt.apply (s : Setting) : Opt → Setting
  | .base64 => { s with format := .base64 }
  | .hex => { s with format := .hex }
  | .outputBits _ d => { s with bits := decimal d }
  | .shake128 => ⟨.keccak 256 [true, true, true, true], 264, .base64⟩
  | .shake256 => ⟨.keccak 512 [true, true, true, true], 528, .base64⟩
  | .sha3_224 => ⟨.keccak 448 [false, true], 224, .hex⟩
  | .sha3_256 => ⟨.keccak 512 [false, true], 256, .hex⟩
  | .sha3_384 => ⟨.keccak 768 [false, true], 384, .hex⟩
  | .sha3_512 => ⟨.keccak 1024 [false, true], 512, .hex⟩
  | .noSuffix => { s with fn := match s.fn with | .keccak c _ => .keccak c [] | g => g }
  | .ethereum => ⟨.keccak 512 [], 256, .hex⟩
  | .k12 _ => ⟨.kt128, 264, .base64⟩
  | .ph128 => ⟨.parallelHash 128 8192, 264, .base64⟩
  | .ph256 => ⟨.parallelHash 256 8192, 528, .base64⟩
  | .block d => { s with fn := match s.fn with | .parallelHash t _ => .parallelHash t (decimal d) | g => g }
  | .string _ => s
  | .file _ => s

/-- Something to hash. -/
structure Job where
  setting : Setting
  contents : Bytes
  /-- what is printed after the digest -/
  label : Bytes

/-- The jobs of a command line, in order: `files` gives the contents of the files; the standard input is read by `-`, once. -/
def jobs (files : Bytes → Bytes) : Setting → (stdin : Bytes) → List Opt → List Job
  | _, _, [] => []
  | s, stdin, .string x :: l => ⟨s, x, text "\"" ++ x ++ text "\""⟩ :: jobs files s stdin l
  | s, stdin, .file name :: l =>
    if name = text "-" then ⟨s, stdin, name⟩ :: jobs files s [] l else ⟨s, files name, name⟩ :: jobs files s stdin l
  | s, stdin, o :: l => jobs files (o.apply s) stdin l

def Opt.isFile : Opt → Bool
  | .file _ => true
  | _ => false

/-- "With no file names, or when file name is -, it reads standard input." -/
def complete (l : List Opt) : List Opt := if l.any Opt.isFile then l else l ++ [.file (text "-")]

/-- The line printed for a digest: `format(digest)  label`. -/
def Job.line (digest : Bytes) (j : Job) : Bytes := j.setting.format.encode digest ++ text "  " ++ j.label ++ text "\n"

end Spec.KeccakSum
