import Verif.NFoldSpec
import Verif.Utf8
/-
Specification of the Kerberos encryption schemes, written after the text of RFC 3961 (sections 5.1 and 5.3), RFC 3962
and RFC 4757. Nothing here refers to the model of the code.

`E` is the block cipher under some key, `H` a keyed hash.
-/
namespace Verif.Rfc

/-- the `n` bytes of a number, most significant first (lower `8 n` bits) -/
def bytesOf (n v : Nat) : Bytes := (List.range n).map fun i => UInt8.ofNat (v / 256 ^ (n - 1 - i))

/-- the `n` bytes of a number, least significant first -/
def bytesOfLE (n v : Nat) : Bytes := (List.range n).map fun i => UInt8.ofNat (v / 256 ^ i)

/-- a key usage as a 32-bit number (RFC 3961: "a 32-bit number in network byte order") -/
def usageNumber (u : Int32) : Nat := (u.toInt % 2 ^ 32).toNat

/-- byte-wise exclusive or -/
def xor (a b : Bytes) : Bytes := List.zipWith (· ^^^ ·) a b

/-- RFC 3961 5.1: K1 = E(Key, n-fold(Constant)), K(i+1) = E(Key, Ki); this is K(i+1) -/
def K (E : Bytes → Bytes) (constant : Bytes) : Nat → Bytes
  | 0 => E (bytesOf 16 (NFoldSpec.nFoldValue constant 16))
  | i + 1 => E (K E constant i)

/-- RFC 3961 5.1: DR(Key, Constant) = k-truncate(K1 | K2 | K3 | ...); for AES random-to-key is the identity, so this is
also DK(Key, Constant). `n` is the key size in bytes. -/
def DK (E : Bytes → Bytes) (n : Nat) (constant : Bytes) : Bytes :=
  ((List.range n).flatMap (K E constant)).take n

/-- RFC 3961 5.3: the well-known constant of a usage: 4 bytes of the usage number, then 0x99 (Kc), 0xAA (Ke) or 0x55 (Ki) -/
def wellKnown (u : Int32) (b : UInt8) : Bytes := bytesOf 4 (usageNumber u) ++ [b]

/-- cipher block chaining over whole blocks -/
def cbc (E : Bytes → Bytes) : Bytes → List Bytes → List Bytes
  | _, [] => []
  | iv, p :: ps => E (xor p iv) :: cbc E (E (xor p iv)) ps

/-- RFC 3962 section 5 (CBC with ciphertext stealing, initial vector zero): `c` is the encryption of `p`. A single block is
encrypted alone. Otherwise the last part is filled with zeros to a block, everything is encrypted in CBC mode, the last two
blocks are exchanged, and the one that is now last is cut to the size of the last part. -/
def Cts (E : Bytes → Bytes) (p c : Bytes) : Prop :=
  (p.length = 16 ∧ c = E p) ∨
  ∃ (ps : List Bytes) (last : Bytes) (cs : List Bytes) (c1 c2 : Bytes),
    ps ≠ [] ∧ (∀ b ∈ ps, b.length = 16) ∧ 0 < last.length ∧ last.length ≤ 16 ∧ p = ps.flatten ++ last ∧
    cbc E (List.replicate 16 0) (ps ++ [last ++ List.replicate (16 - last.length) 0]) = cs ++ [c1, c2] ∧
    c = cs.flatten ++ c2 ++ c1.take last.length

/-- RFC 3961 5.3: C1 = E(Ke, conf | plaintext), H1 = HMAC(Ki, conf | plaintext) cut to 12 bytes, ciphertext = C1 | H1 -/
def AesCiphertext (E : Bytes → Bytes → Bytes) (H : Bytes → Bytes → Bytes) (n : Nat) (key : Bytes) (u : Int32)
    (conf plain ct : Bytes) : Prop :=
  ∃ c1, Cts (E (DK (E key) n (wellKnown u 0xaa))) (conf ++ plain) c1 ∧
    ct = c1 ++ (H (DK (E key) n (wellKnown u 0x55)) (conf ++ plain)).take 12

/-- RFC 3961 5.3: get_mic = HMAC(Kc, message) cut to 12 bytes -/
def aesChecksum (E : Bytes → Bytes → Bytes) (H : Bytes → Bytes → Bytes) (n : Nat) (key : Bytes) (u : Int32) (msg : Bytes) : Bytes :=
  (H (DK (E key) n (wellKnown u 0x99)) msg).take 12

/-- RFC 4757 section 3: message type number of a key usage -/
def rc4MessageType (u : Int32) : Int32 := if u = 3 then 8 else if u = 9 then 8 else if u = 23 then 13 else u

/-- RFC 4757 section 5 (non-export case): K1 = HMAC(K, T), K2 = K1, checksum = HMAC(K2, conf | data),
K3 = HMAC(K1, checksum), ciphertext = checksum | RC4(K3, conf | data). `T` in little-endian order. -/
def rc4Ciphertext (H : Bytes → Bytes → Bytes) (R : Bytes → Bytes → Bytes) (key : Bytes) (T : Int32) (conf data : Bytes) : Bytes :=
  let K1 := H key (bytesOfLE 4 (usageNumber T))
  let checksum := H K1 (conf ++ data)
  checksum ++ R (H K1 checksum) (conf ++ data)

/-- RFC 4757 section 4: Ksign = HMAC(K, "signaturekey" with its zero byte), tmp = MD5(T | data), HMAC(Ksign, tmp) -/
def rc4Checksum (H : Bytes → Bytes → Bytes) (M : Bytes → Bytes) (key : Bytes) (T : Int32) (data : Bytes) : Bytes :=
  H (H key (utf8 "signaturekey".toList ++ [0])) (M (bytesOfLE 4 (usageNumber T) ++ data))

/-- RFC 2781: `units` is the UTF-16 form of the character -/
def Utf16 (c : Char) (units : List UInt16) : Prop :=
  (c.toNat < 0x10000 ∧ ∃ u, units = [u] ∧ u.toNat = c.toNat) ∨
  (0x10000 ≤ c.toNat ∧ ∃ hi lo, units = [hi, lo] ∧ 0xd800 ≤ hi.toNat ∧ hi.toNat < 0xdc00 ∧ 0xdc00 ≤ lo.toNat ∧ lo.toNat < 0xe000 ∧
    c.toNat = 0x10000 + (hi.toNat - 0xd800) * 0x400 + (lo.toNat - 0xdc00))

/-- little-endian UTF-16 of a string, character by character -/
inductive Utf16LE : List Char → Bytes → Prop
  | nil : Utf16LE [] []
  | cons (c cs units rest) : Utf16 c units → Utf16LE cs rest →
      Utf16LE (c :: cs) (units.flatMap (fun u => bytesOfLE 2 u.toNat) ++ rest)

end Verif.Rfc
