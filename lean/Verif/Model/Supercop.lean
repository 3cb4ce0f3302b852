import Verif.Model.Xoodyak
import Verif.Model.Sponge

/-!
# The SUPERCOP interface

Models the functions that XKCP offers to the benchmarking framework SUPERCOP and to the NIST lightweight cryptography
API: `crypto_aead_encrypt` and `crypto_aead_decrypt` of `tests/SUPERCOP/Xoodyak_aead/encrypt.c` and of
`tests/SUPERCOP/Xoodyak_aead_round3/encrypt.c`, and `crypto_hash` of `Xoodyak_hash/hash.c`, `SHA3-224.c`, `SHA3-256.c`,
`SHA3-384.c`, `SHA3-512.c`, `SHAKE128.c` and `SHAKE256.c` in the same directory.

* `round3` tells the two AEAD files apart; they differ in lines 43-44 and 81-82 only.
* A message or a ciphertext is a list, whose length is the length argument.  `k` and `npub` are buffers, of which 16
  bytes are read.  An output buffer is a list; a write outside of it gives `none`.  Output and input buffers do not
  overlap, as `CRYPTO_NOOVERLAP` in api.h asks for.
* `unsigned long long` is 64 bits wide and so is `size_t`.
* The tracing code under `#if 0` is not modelled.  `nsec` is unused.
* `KangarooTwelve/K12.c` is not modelled: it calls `KangarooTwelve` with six arguments, and the function has seven.
-/

namespace Supercop

/-- `CRYPTO_KEYBYTES` (api.h of both directories, and encrypt.c:22-24). -/
def KEYBYTES : Nat := 16
/-- `CRYPTO_NPUBBYTES` (encrypt.c:25-27). -/
def NPUBBYTES : Nat := 16
/-- `TAGLEN` (encrypt.c:29). -/
def TAGLEN : Nat := 16

/-- `n` bytes read at the address `p`; simplified in that there is no memory around the buffer. -/
def readBuf (p : Bytes) (n : Nat) : Option Bytes := if n ≤ p.length then some (p.take n) else none

/-- The bytes `d` written at offset `off` of an output buffer. -/
def writeBuf (p : Bytes) (off : Nat) (d : Bytes) : Option Bytes :=
  if off + d.length ≤ p.length then some (p.setAt off d) else none

/-- Setting up the instance with the key and the nonce: Xoodyak_aead/encrypt.c:43-44 and 81-82, where the nonce is
absorbed, and Xoodyak_aead_round3/encrypt.c:43 and 80, where it is the identifier. -/
def setup (f : Bytes → Bytes) (full round3 : Bool) (k npub : Bytes) : Option Xoodyak.Inst := do
  let k ← readBuf k KEYBYTES
  let npub ← readBuf npub NPUBBYTES
  if round3 then Xoodyak.initialize' f full k npub []
  else do
    let i ← Xoodyak.initialize' f full k [] []
    Xoodyak.absorb f full i npub

/-- `crypto_aead_encrypt` (Xoodyak_aead/encrypt.c:31-60, Xoodyak_aead_round3/encrypt.c:31-59): the return value,
`*clen` and the buffer `c`. -/
def aeadEncrypt (f : Bytes → Bytes) (full round3 : Bool) (c m ad npub k : Bytes) : Option (Int × Nat × Bytes) := do
  let i ← setup f full round3 k npub
  let i ← Xoodyak.absorb f full i ad
  let r ← Xoodyak.encrypt f full i m
  let c ← writeBuf c 0 r.2
  let r ← Xoodyak.squeeze f full r.1 TAGLEN
  let c ← writeBuf c m.length r.2
  some (0, (m.length + TAGLEN) % 2 ^ 64, c)

/-- The end of `crypto_aead_decrypt`, from the comparison of the tags on (Xoodyak_aead/encrypt.c:86-91,
Xoodyak_aead_round3/encrypt.c:84-89). -/
def checkTag (m tag c : Bytes) (mlen : Nat) : Option (Int × Nat × Bytes) := do
  let t ← readBuf (c.drop mlen) TAGLEN
  if tag ≠ t then do
    let m ← writeBuf m 0 (Bytes.zeros mlen)
    some (-1, 0, m)
  else some (0, mlen, m)

/-- `crypto_aead_decrypt` (Xoodyak_aead/encrypt.c:62-92, Xoodyak_aead_round3/encrypt.c:61-90): the return value, `*mlen`
and the buffer `m`. -/
def aeadDecrypt (f : Bytes → Bytes) (full round3 : Bool) (m c ad npub k : Bytes) : Option (Int × Nat × Bytes) :=
  if c.length < TAGLEN then some (-1, 0, m)
  else do
    let mlen := c.length - TAGLEN
    let i ← setup f full round3 k npub
    let i ← Xoodyak.absorb f full i ad
    let r ← Xoodyak.decrypt f full i (c.take mlen)
    let m ← writeBuf m 0 r.2
    let r ← Xoodyak.squeeze f full r.1 TAGLEN
    checkTag m r.2 c mlen

/-- `crypto_hash` of Xoodyak (Xoodyak_hash/hash.c:25-43): the return value and the buffer `out`. -/
def xoodyakHash (f : Bytes → Bytes) (full : Bool) (out input : Bytes) : Option (Int × Bytes) := do
  let i ← Xoodyak.initialize' f full [] [] []
  let i ← Xoodyak.absorb f full i input
  let r ← Xoodyak.squeeze f full i 32
  let out ← writeBuf out 0 r.2
  some (0, out)

/-- A call of `KeccakWidth1600_Sponge` with its output written to `out`. -/
def spongeInto (P : SnP) (rate capacity : BitVec 32) (input : Bytes) (suffix : Byte) (out : Bytes) (n : Nat) :
    Option (Nat × Bytes) := do
  let r ← Sponge.sponge P rate capacity input suffix n
  let out ← writeBuf out 0 r.2
  some (r.1, out)

/-- `crypto_hash` (SHA3-224/SHA3-224.c:23-26). -/
def sha3_224 (P : SnP) (out input : Bytes) := spongeInto P 1152 448 input 0x06 out 28
/-- `crypto_hash` (SHA3-256/SHA3-256.c:23-26). -/
def sha3_256 (P : SnP) (out input : Bytes) := spongeInto P 1088 512 input 0x06 out 32
/-- `crypto_hash` (SHA3-384/SHA3-384.c:23-26). -/
def sha3_384 (P : SnP) (out input : Bytes) := spongeInto P 832 768 input 0x06 out 48
/-- `crypto_hash` (SHA3-512/SHA3-512.c:23-26). -/
def sha3_512 (P : SnP) (out input : Bytes) := spongeInto P 576 1024 input 0x06 out 64
/-- `crypto_hash` (SHAKE128/SHAKE128.c:23-26). -/
def shake128 (P : SnP) (out input : Bytes) := spongeInto P 1344 256 input 0x1F out 168
/-- `crypto_hash` (SHAKE256/SHAKE256.c:23-26). -/
def shake256 (P : SnP) (out input : Bytes) := spongeInto P 1088 512 input 0x1F out 136

end Supercop
