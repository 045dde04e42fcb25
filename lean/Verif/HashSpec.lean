import Verif.Bytes
/-
The hash functions and RC4 as their standards define them: FIPS 180-4 (SHA-1), RFC 1321 (MD5), RFC 1320 (MD4), RFC 8018 (PBKDF2)
and the usual description of RC4. No code of /repo (which calls the external crates `sha1`, `md5`, `md4`, `pbkdf2`, `rc4`): the
specification for the instance `Verif/StdHash.lean`. Words are bit vectors, the schedule a recurrence, registers a function.
-/
namespace Verif.HashSpec

/-- a 32-bit word -/
abbrev Word := BitVec 32

/-- `p` is the message `m` padded: a one bit, the smallest number of zeros, and 8 bytes, to a multiple of 64 bytes -/
def Padded (m len p : Bytes) : Prop :=
  len.length = 8 ∧ p.length % 64 = 0 ∧ ∃ k, k < 64 ∧ p = m ++ [0x80] ++ List.replicate k 0 ++ len

/-- the number that bytes denote, most significant first -/
def bigEndian (b : Bytes) : Nat := b.foldl (fun n x => 256 * n + x.toNat) 0
/-- the number that bytes denote, least significant first -/
def littleEndian (b : Bytes) : Nat := b.foldr (fun x n => 256 * n + x.toNat) 0

/-- word `n` of the bytes `p`, most significant byte first -/
def wordBE (p : Bytes) (n : Nat) : Word := BitVec.ofNat 32 (bigEndian ((p.drop (4 * n)).take 4))
/-- word `n` of the bytes `p`, least significant byte first -/
def wordLE (p : Bytes) (n : Nat) : Word := BitVec.ofNat 32 (littleEndian ((p.drop (4 * n)).take 4))

/-! ### SHA-1 (FIPS 180-4) -/

/-- 6.1.2 step 1: the schedule, from the words of a block -/
def schedule (M : Nat → Word) (t : Nat) : Word :=
  if _h : t < 16 then M t
  else (schedule M (t - 3) ^^^ schedule M (t - 8) ^^^ schedule M (t - 14) ^^^ schedule M (t - 16)).rotateLeft 1
termination_by t

/-- 4.1.1: the functions -/
def f (t : Nat) (x y z : Word) : Word :=
  if t < 20 then (x &&& y) ^^^ (~~~x &&& z)
  else if t < 40 then x ^^^ y ^^^ z
  else if t < 60 then (x &&& y) ^^^ (x &&& z) ^^^ (y &&& z)
  else x ^^^ y ^^^ z

/-- 4.2.1: the constants -/
def K (t : Nat) : Word :=
  if t < 20 then 0x5a827999#32 else if t < 40 then 0x6ed9eba1#32 else if t < 60 then 0x8f1bbcdc#32 else 0xca62c1d6#32

/-- the working variables -/
structure Five where
  a : Word
  b : Word
  c : Word
  d : Word
  e : Word

/-- 6.1.2 step 3: the working variables after `t` steps -/
def working (M : Nat → Word) (h : Five) : Nat → Five
  | 0 => h
  | t + 1 =>
    let s := working M h t
    ⟨s.a.rotateLeft 5 + f t s.b s.c s.d + s.e + K t + schedule M t, s.a, s.b.rotateLeft 30, s.c, s.d⟩

/-- 5.3.1 and 6.1.2 step 4: the hash value after `i` blocks of `p` -/
def hash (p : Bytes) : Nat → Five
  | 0 => ⟨0x67452301#32, 0xefcdab89#32, 0x98badcfe#32, 0x10325476#32, 0xc3d2e1f0#32⟩
  | i + 1 =>
    let h := hash p i
    let s := working (fun t => wordBE p (16 * i + t)) h 80
    ⟨h.a + s.a, h.b + s.b, h.c + s.c, h.d + s.d, h.e + s.e⟩

/-- `out` is the SHA-1 of `m`; beyond 2^64 bits, where the standard says nothing, the length is taken modulo 2^64 -/
def IsSha1 (m out : Bytes) : Prop :=
  ∃ len p, Padded m len p ∧ bigEndian len = 8 * m.length % 2 ^ 64 ∧ out.length = 20 ∧
    (let h := hash p (p.length / 64)
    [wordBE out 0, wordBE out 1, wordBE out 2, wordBE out 3, wordBE out 4] = [h.a, h.b, h.c, h.d, h.e])

/-! ### MD5 (RFC 1321) and MD4 (RFC 1320) -/

/-- the registers A, B, C, D -/
abbrev Registers := Nat → Word

/-- an operation of a round: the register replaced and the three that follow it, the word of the block, the rotation -/
structure Op where
  target : Nat
  word : Nat
  shift : Nat

/-- one of the 16 operations of a round: [ABCD k s] [DABC k s] [CDAB k s] [BCDA k s] [ABCD k s] ... -/
def ops (words : List Nat) (shifts : List Nat) : List Op :=
  (List.range 16).map fun n => ⟨[0, 3, 2, 1].getD (n % 4) 0, words.getD n 0, shifts.getD (n % 4) 0⟩

/-- RFC 1321 section 3.4: the 64 operations of MD5 -/
def md5Ops : List Op :=
  ops [0, 1, 2, 3, 4, 5, 6, 7, 8, 9, 10, 11, 12, 13, 14, 15] [7, 12, 17, 22] ++
  ops [1, 6, 11, 0, 5, 10, 15, 4, 9, 14, 3, 8, 13, 2, 7, 12] [5, 9, 14, 20] ++
  ops [5, 8, 11, 14, 1, 4, 7, 10, 13, 0, 3, 6, 9, 12, 15, 2] [4, 11, 16, 23] ++
  ops [0, 7, 14, 5, 12, 3, 10, 1, 8, 15, 6, 13, 4, 11, 2, 9] [6, 10, 15, 21]

/-- RFC 1320 section 3.4: the 48 operations of MD4 -/
def md4Ops : List Op :=
  ops [0, 1, 2, 3, 4, 5, 6, 7, 8, 9, 10, 11, 12, 13, 14, 15] [3, 7, 11, 19] ++
  ops [0, 4, 8, 12, 1, 5, 9, 13, 2, 6, 10, 14, 3, 7, 11, 15] [3, 5, 9, 13] ++
  ops [0, 8, 4, 12, 2, 10, 6, 14, 1, 9, 5, 13, 3, 11, 7, 15] [3, 9, 11, 15]

/-- RFC 1321 section 3.4: F, G, H and I -/
def md5Fn (round : Nat) (x y z : Word) : Word :=
  match round with
  | 0 => (x &&& y) ||| (~~~x &&& z)
  | 1 => (x &&& z) ||| (y &&& ~~~z)
  | 2 => x ^^^ y ^^^ z
  | _ => y ^^^ (x ||| ~~~z)

/-- RFC 1320 section 3.4: F, G and H -/
def md4Fn (round : Nat) (x y z : Word) : Word :=
  match round with
  | 0 => (x &&& y) ||| (~~~x &&& z)
  | 1 => (x &&& y) ||| (x &&& z) ||| (y &&& z)
  | _ => x ^^^ y ^^^ z

/-- RFC 1320 section 3.4: the constants of the rounds, the square roots of 2 and 3 -/
def md4Const (round : Nat) : Word :=
  match round with
  | 0 => 0
  | 1 => 0x5a827999#32
  | _ => 0x6ed9eba1#32

/-- RFC 1321: a = b + ((a + F(b,c,d) + X[k] + T[i]) <<< s), where operation `n` (from 0) takes T[n + 1] -/
def md5Do (T : Nat → Word) (X : Nat → Word) (n : Nat) (o : Op) (r : Registers) : Registers :=
  fun q =>
    if q = o.target then
      let a := r o.target
      let b := r ((o.target + 1) % 4)
      let c := r ((o.target + 2) % 4)
      let d := r ((o.target + 3) % 4)
      b + (a + md5Fn (n / 16) b c d + X o.word + T (n + 1)).rotateLeft o.shift
    else r q

/-- RFC 1320: a = (a + F(b,c,d) + X[k] + constant) <<< s -/
def md4Do (X : Nat → Word) (n : Nat) (o : Op) (r : Registers) : Registers :=
  fun q =>
    if q = o.target then
      let a := r o.target
      let b := r ((o.target + 1) % 4)
      let c := r ((o.target + 2) % 4)
      let d := r ((o.target + 3) % 4)
      (a + md4Fn (n / 16) b c d + X o.word + md4Const (n / 16)).rotateLeft o.shift
    else r q

/-- all operations, the first being number `n` -/
def perform (step : Nat → Op → Registers → Registers) : Nat → List Op → Registers → Registers
  | _, [], r => r
  | n, o :: os, r => perform step (n + 1) os (step n o r)

/-- section 3.3: word A: 01 23 45 67, word B: 89 ab cd ef, word C: fe dc ba 98, word D: 76 54 32 10 (low byte first) -/
def initial : Registers := fun q => [0x67452301#32, 0xefcdab89#32, 0x98badcfe#32, 0x10325476#32].getD q 0

/-- the registers after `i` blocks of `p` -/
def mdHash (step : (Nat → Word) → Nat → Op → Registers → Registers) (os : List Op) (p : Bytes) : Nat → Registers
  | 0 => initial
  | i + 1 =>
    let h := mdHash step os p i
    fun q => h q + perform (step fun k => wordLE p (16 * i + k)) 0 os h q

/-- `out` is the digest of `m`; of its length only the low 64 bits are used (section 3.2) -/
def IsMd (step : (Nat → Word) → Nat → Op → Registers → Registers) (os : List Op) (m out : Bytes) : Prop :=
  ∃ len p, Padded m len p ∧ littleEndian len = 8 * m.length % 2 ^ 64 ∧ out.length = 16 ∧
    ∀ q, q < 4 → wordLE out q = mdHash step os p (p.length / 64) q

/-- `out` is the MD4 of `m` -/
def IsMd4 (m out : Bytes) : Prop := IsMd md4Do md4Ops m out
/-- `out` is the MD5 of `m`, with the table `T` -/
def IsMd5 (T : Nat → Word) (m out : Bytes) : Prop := IsMd (md5Do T) md5Ops m out

/-! ### HMAC (RFC 2104) and PBKDF2 (RFC 8018) -/

/-- RFC 2104 section 2: `out` is H(K xor opad, H(K xor ipad, text)), with blocks of 64 bytes -/
def IsHmac (H : Bytes → Bytes) (key text out : Bytes) : Prop :=
  ∃ k ipad opad : Bytes, k.length = 64 ∧ ipad.length = 64 ∧ opad.length = 64 ∧
    (∃ z, k = (if key.length ≤ 64 then key else H key) ++ List.replicate z 0) ∧
    (∀ i, i < 64 → ipad.getD i 0 = k.getD i 0 ^^^ 0x36 ∧ opad.getD i 0 = k.getD i 0 ^^^ 0x5c) ∧
    out = H (opad ++ H (ipad ++ text))

/-- RFC 8018 section 5.2: U_1, U_2, ... of block `i` (from 1) -/
def U (prf : Bytes → Bytes) (salt : Bytes) (i : Bytes) : Nat → Bytes
  | 0 => salt ++ i
  | j + 1 => prf (U prf salt i j)

/-- RFC 8018 section 5.2: byte `n` of the key is byte `n mod h` of U_1 xor .. xor U_c of block `n / h + 1`, `h` the size of the PRF -/
def IsPbkdf2 (prf : Bytes → Bytes) (h : Nat) (salt : Bytes) (c : Nat) (key : Bytes) : Prop :=
  ∀ n, n < key.length → ∃ i : Bytes, i.length = 4 ∧ bigEndian i = (n / h + 1) % 2 ^ 32 ∧
    key.getD n 0 = ((List.range c).map fun j => (U prf salt i (j + 1)).getD (n % h) 0).foldr (· ^^^ ·) 0

/-! ### RC4 -/

/-- a permutation of 0 .. 255 -/
abbrev Perm := Nat → Nat

/-- the values of the permutation at `i` and `j` exchanged -/
def swap (S : Perm) (i j : Nat) : Perm := fun k => if k = i then S j else if k = j then S i else S k

/-- key scheduling: `j` and the permutation before step `i` -/
def ksa (key : Bytes) : Nat → Nat × Perm
  | 0 => (0, fun k => k)
  | i + 1 =>
    let (j, S) := ksa key i
    let j' := (j + S i + (key.getD (i % key.length) 0).toNat) % 256
    (j', swap S i j')

/-- generation: `j` and the permutation after `n` bytes of key stream; `i` is `n mod 256` -/
def prga (key : Bytes) : Nat → Nat × Perm
  | 0 => (0, (ksa key 256).2)
  | n + 1 =>
    let (j, S) := prga key n
    let i := (n + 1) % 256
    let j' := (j + S i) % 256
    (j', swap S i j')

/-- byte `n` of the key stream -/
def streamByte (key : Bytes) (n : Nat) : Nat :=
  let (j, S) := prga key (n + 1)
  S ((S ((n + 1) % 256) + S j) % 256)

/-- `out` is `data` encrypted with RC4: every byte xored with that of the key stream -/
def IsRc4 (key data out : Bytes) : Prop :=
  out.length = data.length ∧ ∀ n, n < data.length → out.getD n 0 = data.getD n 0 ^^^ UInt8.ofNat (streamByte key n)

end Verif.HashSpec
