import Verif.Spec.Cyclist

/-!
# Authenticated encryption and hashing with Xoodyak

The submissions of Xoodyak to the NIST lightweight cryptography process define their AEAD and hash functions as short
scripts of Cyclist operations.  In the first two rounds the nonce is absorbed after the key ("Xoodyak, a lightweight
cryptographic scheme", section 3.2.1); in the third round ("Xoodyak, an update") it is the identifier that is
absorbed together with the key.
-/

namespace Spec.XoodyakAead

open Spec.Cyclist

/-- The object after the key, the nonce and the associated data have gone in. -/
def start (f : Bytes → Bytes) (round3 : Bool) (K N A : Bytes) : St :=
  if round3 then (run f (cyclist f K N []) [.absorb A]).1
  else (run f (cyclist f K [] []) [.absorb N, .absorb A]).1

/-- The ciphertext of `P` followed by a tag of 16 bytes. -/
def encrypt (f : Bytes → Bytes) (round3 : Bool) (K N A P : Bytes) : Bytes :=
  (run f (start f round3 K N A) [.encrypt P, .squeeze 16]).2.flatten

/-- The hash function: 32 bytes squeezed out after the message. -/
def hash (f : Bytes → Bytes) (M : Bytes) : Bytes :=
  (run f (cyclist f [] [] []) [.absorb M, .squeeze 32]).2.flatten

end Spec.XoodyakAead
