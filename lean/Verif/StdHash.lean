import Verif.Bytes
/-
The hash functions and RC4 behind kerberos_crypto/src/cryptography (external crates `sha1`, `md5`, `md4`, `hmac`, `pbkdf2`,
`rc4`), written after their standards: RFC 3174 (SHA-1), RFC 1321 (MD5), RFC 1320 (MD4), RFC 2104 (HMAC), RFC 8018 (PBKDF2)
and the usual description of RC4. They are not part of /repo; they give a concrete instance of the parameter `Prims`
(`Verif/StdPrims.lean`) and are checked with the test vectors of the standards and of /repo.

Words are natural numbers below 2^32, so that the kernel can evaluate everything.
-/
namespace Verif.Std

/-- 32-bit rotation to the left -/
def rotl (n x : Nat) : Nat := (x <<< n ||| x >>> (32 - n)) % 4294967296

/-- complement of a 32-bit word -/
def not32 (x : Nat) : Nat := x ^^^ 0xffffffff

/-- addition modulo 2^32 -/
def add32 (x y : Nat) : Nat := (x + y) % 4294967296

/-- words from bytes, most significant byte first; an incomplete last word is dropped (padding leaves none) -/
def wordsBE : Bytes → List Nat
  | a :: b :: c :: d :: r => (((a.toNat * 256 + b.toNat) * 256 + c.toNat) * 256 + d.toNat) :: wordsBE r
  | _ => []

/-- words from bytes, least significant byte first -/
def wordsLE : Bytes → List Nat
  | a :: b :: c :: d :: r => (((d.toNat * 256 + c.toNat) * 256 + b.toNat) * 256 + a.toNat) :: wordsLE r
  | _ => []

/-- the four bytes of a word, most significant first -/
def bytesBE (x : Nat) : Bytes := [UInt8.ofNat (x / 16777216), UInt8.ofNat (x / 65536), UInt8.ofNat (x / 256), UInt8.ofNat x]

/-- the four bytes of a word, least significant first -/
def bytesLE (x : Nat) : Bytes := [UInt8.ofNat x, UInt8.ofNat (x / 256), UInt8.ofNat (x / 65536), UInt8.ofNat (x / 16777216)]

/-- consecutive blocks of 16 words; `n` rounds (the number of words is enough) -/
def blocks : Nat → List Nat → List (List Nat)
  | 0, _ => []
  | _, [] => []
  | n + 1, w => w.take 16 :: blocks n (w.drop 16)

/-- the padding common to the three functions, without the length: a one bit, then zeros up to 56 bytes modulo 64 -/
def pad (len : Nat) : Bytes := 0x80 :: List.replicate ((119 - len % 64) % 64) 0

/-- all blocks of a message for SHA-1: padding, then the number of bits in 8 bytes, most significant first -/
def blocksBE (m : Bytes) : List (List Nat) :=
  let n := 8 * m.length
  let w := wordsBE (m ++ pad m.length) ++ [n / 4294967296 % 4294967296, n % 4294967296]
  blocks w.length w

/-- all blocks of a message for MD4 and MD5: padding, then the number of bits in 8 bytes, least significant first -/
def blocksLE (m : Bytes) : List (List Nat) :=
  let n := 8 * m.length
  let w := wordsLE (m ++ pad m.length) ++ [n % 4294967296, n / 4294967296 % 4294967296]
  blocks w.length w

/-! ### SHA-1 (RFC 3174) -/

/-- the five words of SHA-1 -/
structure Sha where
  a : Nat
  b : Nat
  c : Nat
  d : Nat
  e : Nat
deriving DecidableEq, Repr

/-- RFC 3174 section 6.1 (b): the schedule, latest word first -/
def shaSchedule : Nat → List Nat → List Nat
  | 0, w => w
  | k + 1, w => shaSchedule k (rotl 1 (w.getD 2 0 ^^^ w.getD 7 0 ^^^ w.getD 13 0 ^^^ w.getD 15 0) :: w)

/-- RFC 3174 section 5: the functions f(t) -/
def shaF (t b c d : Nat) : Nat :=
  if t < 20 then (b &&& c) ||| (not32 b &&& d)
  else if t < 40 then b ^^^ c ^^^ d
  else if t < 60 then (b &&& c) ||| (b &&& d) ||| (c &&& d)
  else b ^^^ c ^^^ d

/-- RFC 3174 section 5: the constants K(t) -/
def shaK (t : Nat) : Nat :=
  if t < 20 then 0x5a827999 else if t < 40 then 0x6ed9eba1 else if t < 60 then 0x8f1bbcdc else 0xca62c1d6

/-- RFC 3174 section 6.1 (d) -/
def shaStep (s : Sha) (t w : Nat) : Sha :=
  ⟨(rotl 5 s.a + shaF t s.b s.c s.d + s.e + w + shaK t) % 4294967296, s.a, rotl 30 s.b, s.c, s.d⟩

/-- the steps for the words of the schedule -/
def shaSteps : Nat → List Nat → Sha → Sha
  | _, [], s => s
  | t, w :: ws, s => shaSteps (t + 1) ws (shaStep s t w)

/-- one block -/
def shaBlock (h : Sha) (b : List Nat) : Sha :=
  let s := shaSteps 0 (shaSchedule 64 b.reverse).reverse h
  ⟨add32 h.a s.a, add32 h.b s.b, add32 h.c s.c, add32 h.d s.d, add32 h.e s.e⟩

/-- the initial words -/
def shaInit : Sha := ⟨0x67452301, 0xefcdab89, 0x98badcfe, 0x10325476, 0xc3d2e1f0⟩

/-- SHA-1 -/
def sha1 (m : Bytes) : Bytes :=
  let s := (blocksBE m).foldl shaBlock shaInit
  bytesBE s.a ++ bytesBE s.b ++ bytesBE s.c ++ bytesBE s.d ++ bytesBE s.e

/-! ### MD5 (RFC 1321) and MD4 (RFC 1320) -/

/-- the four words of MD4 and MD5 -/
structure Md where
  a : Nat
  b : Nat
  c : Nat
  d : Nat
deriving DecidableEq, Repr

/-- RFC 1321 section 3.4: T[1..64], the integer parts of 2^32 |sin i| -/
def md5T : List Nat :=
  [0xd76aa478, 0xe8c7b756, 0x242070db, 0xc1bdceee, 0xf57c0faf, 0x4787c62a, 0xa8304613, 0xfd469501,
   0x698098d8, 0x8b44f7af, 0xffff5bb1, 0x895cd7be, 0x6b901122, 0xfd987193, 0xa679438e, 0x49b40821,
   0xf61e2562, 0xc040b340, 0x265e5a51, 0xe9b6c7aa, 0xd62f105d, 0x02441453, 0xd8a1e681, 0xe7d3fbc8,
   0x21e1cde6, 0xc33707d6, 0xf4d50d87, 0x455a14ed, 0xa9e3e905, 0xfcefa3f8, 0x676f02d9, 0x8d2a4c8a,
   0xfffa3942, 0x8771f681, 0x6d9d6122, 0xfde5380c, 0xa4beea44, 0x4bdecfa9, 0xf6bb4b60, 0xbebfbc70,
   0x289b7ec6, 0xeaa127fa, 0xd4ef3085, 0x04881d05, 0xd9d4d039, 0xe6db99e5, 0x1fa27cf8, 0xc4ac5665,
   0xf4292244, 0x432aff97, 0xab9423a7, 0xfc93a039, 0x655b59c3, 0x8f0ccc92, 0xffeff47d, 0x85845dd1,
   0x6fa87e4f, 0xfe2ce6e0, 0xa3014314, 0x4e0811a1, 0xf7537e82, 0xbd3af235, 0x2ad7d2bb, 0xeb86d391]

/-- the functions F, G, H, I of the four rounds -/
def md5F (t b c d : Nat) : Nat :=
  if t < 16 then (b &&& c) ||| (not32 b &&& d)
  else if t < 32 then (b &&& d) ||| (c &&& not32 d)
  else if t < 48 then b ^^^ c ^^^ d
  else c ^^^ (b ||| not32 d)

/-- which word of the block step `t` takes -/
def md5Index (t : Nat) : Nat :=
  if t < 16 then t else if t < 32 then (5 * t + 1) % 16 else if t < 48 then (3 * t + 5) % 16 else 7 * t % 16

/-- rotation of step `t` -/
def md5Shift (t : Nat) : Nat :=
  (if t < 16 then [7, 12, 17, 22] else if t < 32 then [5, 9, 14, 20] else if t < 48 then [4, 11, 16, 23]
    else [6, 10, 15, 21]).getD (t % 4) 0

/-- one step; the words are renamed after it -/
def md5Step (b : List Nat) (s : Md) (t : Nat) : Md :=
  ⟨s.d, add32 s.b (rotl (md5Shift t) ((s.a + md5F t s.b s.c s.d + b.getD (md5Index t) 0 + md5T.getD t 0) % 4294967296)), s.b, s.c⟩

/-- RFC 1320 section 3.4: the functions of the three rounds of MD4 -/
def md4F (t b c d : Nat) : Nat :=
  if t < 16 then (b &&& c) ||| (not32 b &&& d)
  else if t < 32 then (b &&& c) ||| (b &&& d) ||| (c &&& d)
  else b ^^^ c ^^^ d

/-- constants of the rounds -/
def md4K (t : Nat) : Nat := if t < 16 then 0 else if t < 32 then 0x5a827999 else 0x6ed9eba1

/-- which word of the block step `t` takes -/
def md4Index (t : Nat) : Nat :=
  if t < 16 then t else if t < 32 then t % 4 * 4 + (t - 16) / 4
  else [0, 8, 4, 12, 2, 10, 6, 14, 1, 9, 5, 13, 3, 11, 7, 15].getD (t - 32) 0

/-- rotation of step `t` -/
def md4Shift (t : Nat) : Nat :=
  (if t < 16 then [3, 7, 11, 19] else if t < 32 then [3, 5, 9, 13] else [3, 9, 11, 15]).getD (t % 4) 0

/-- one step; the words are renamed after it -/
def md4Step (b : List Nat) (s : Md) (t : Nat) : Md :=
  ⟨s.d, rotl (md4Shift t) ((s.a + md4F t s.b s.c s.d + b.getD (md4Index t) 0 + md4K t) % 4294967296), s.b, s.c⟩

/-- the initial words -/
def mdInit : Md := ⟨0x67452301, 0xefcdab89, 0x98badcfe, 0x10325476⟩

/-- one block with `n` steps -/
def mdBlock (step : List Nat → Md → Nat → Md) (n : Nat) (h : Md) (b : List Nat) : Md :=
  let s := (List.range n).foldl (step b) h
  ⟨add32 h.a s.a, add32 h.b s.b, add32 h.c s.c, add32 h.d s.d⟩

/-- all blocks -/
def mdHash (step : List Nat → Md → Nat → Md) (n : Nat) (m : Bytes) : Bytes :=
  let s := (blocksLE m).foldl (mdBlock step n) mdInit
  bytesLE s.a ++ bytesLE s.b ++ bytesLE s.c ++ bytesLE s.d

/-- MD5; kerberos_crypto/src/cryptography/md5.rs:4-8 -/
def md5 (m : Bytes) : Bytes := mdHash md5Step 64 m
/-- MD4; kerberos_crypto/src/cryptography/md4lib.rs:3-5 -/
def md4 (m : Bytes) : Bytes := mdHash md4Step 48 m

/-! ### HMAC and PBKDF2 -/

/-- RFC 2104: a key of more than 64 bytes is hashed, then zeros are appended up to 64 bytes -/
def hmacKey (h : Bytes → Bytes) (key : Bytes) : Bytes :=
  let k := if 64 < key.length then h key else key
  k ++ List.replicate (64 - k.length) 0

/-- RFC 2104: H(K xor opad, H(K xor ipad, data)) -/
def hmac (h : Bytes → Bytes) (key data : Bytes) : Bytes :=
  let k := hmacKey h key
  h (k.map (· ^^^ 0x5c) ++ h (k.map (· ^^^ 0x36) ++ data))

/-- RFC 8018 section 5.2: U(2) .. xored, `n` further rounds from `u` -/
def pbkdf2Rounds (prf : Bytes → Bytes) : Nat → Bytes → Bytes → Bytes
  | 0, _, acc => acc
  | n + 1, u, acc =>
    let u' := prf u
    pbkdf2Rounds prf n u' (List.zipWith (· ^^^ ·) acc u')

/-- RFC 8018 section 5.2: the block T(i) -/
def pbkdf2Block (prf : Bytes → Bytes) (salt : Bytes) (count i : Nat) : Bytes :=
  let u := prf (salt ++ bytesBE i)
  pbkdf2Rounds prf (count - 1) u u

/-- RFC 8018 section 5.2 with HMAC-SHA1: the first `n` bytes of T(1) | T(2) | ...; blocks have 20 bytes -/
def pbkdf2HmacSha1 (password salt : Bytes) (count n : Nat) : Bytes :=
  ((List.range ((n + 19) / 20)).flatMap fun i => pbkdf2Block (hmac sha1 password) salt count (i + 1)).take n

/-! ### RC4 -/

/-- byte `i` of the permutation, which is a number in base 256 -/
def permGet (s i : Nat) : Nat := s / 256 ^ i % 256

/-- the permutation with bytes `i` and `j` exchanged -/
def permSwap (s i j : Nat) : Nat :=
  s - permGet s i * 256 ^ i - permGet s j * 256 ^ j + permGet s j * 256 ^ i + permGet s i * 256 ^ j

/-- the identity permutation -/
def permInit : Nat := (List.range 256).foldl (fun s i => s + i * 256 ^ i) 0

/-- key scheduling from index `i` with `n` steps left -/
def rc4Schedule (key : Bytes) : Nat → Nat → Nat → Nat → Nat
  | 0, _, _, s => s
  | n + 1, i, j, s =>
    let j' := (j + permGet s i + (key.getD (i % key.length) 0).toNat) % 256
    rc4Schedule key n (i + 1) j' (if i = j' then s else permSwap s i j')

/-- `n` bytes of key stream -/
def rc4Stream : Nat → Nat → Nat → Nat → Bytes
  | 0, _, _, _ => []
  | n + 1, i, j, s =>
    let i' := (i + 1) % 256
    let j' := (j + permGet s i') % 256
    let s' := if i' = j' then s else permSwap s i' j'
    UInt8.ofNat (permGet s' ((permGet s' i' + permGet s' j') % 256)) :: rc4Stream n i' j' s'

/-- RC4; kerberos_crypto/src/cryptography/rc4.rs:6-16 -/
def rc4 (key data : Bytes) : Bytes :=
  List.zipWith (· ^^^ ·) data (rc4Stream data.length 0 0 (rc4Schedule key 256 0 0 permInit))

/-! ### Sizes -/

theorem sha1_length (m : Bytes) : (sha1 m).length = 20 := rfl
theorem md5_length (m : Bytes) : (md5 m).length = 16 := rfl
theorem md4_length (m : Bytes) : (md4 m).length = 16 := rfl
theorem hmac_length {h : Bytes → Bytes} {n : Nat} (hn : ∀ m, (h m).length = n) (k d : Bytes) : (hmac h k d).length = n := hn _

theorem pbkdf2Rounds_length {prf : Bytes → Bytes} (hp : ∀ m, (prf m).length = 20) (n : Nat) : ∀ u acc : Bytes,
    acc.length = 20 → (pbkdf2Rounds prf n u acc).length = 20 := by
  induction n with
  | zero => intro u acc h; exact h
  | succ n ih => intro u acc h; exact ih _ _ (by simp [h, hp])

theorem pbkdf2_length (password salt : Bytes) (count n : Nat) : (pbkdf2HmacSha1 password salt count n).length = n := by
  unfold pbkdf2HmacSha1
  have hb : ∀ i, (pbkdf2Block (hmac sha1 password) salt count i).length = 20 := by
    intro i
    exact pbkdf2Rounds_length (hmac_length sha1_length _) _ _ _ (hmac_length sha1_length _ _)
  have hl : ∀ l : List Nat,
      (l.flatMap fun i => pbkdf2Block (hmac sha1 password) salt count (i + 1)).length = 20 * l.length := by
    intro l
    induction l with
    | nil => rfl
    | cons a l ih => rw [List.flatMap_cons, List.length_append, hb, ih, List.length_cons]; omega
  rw [List.length_take, hl, List.length_range]
  omega

theorem rc4Stream_length (n : Nat) : ∀ i j s, (rc4Stream n i j s).length = n := by
  induction n with
  | zero => intro _ _ _; rfl
  | succ n ih => intro i j s; simp [rc4Stream, ih]

theorem rc4_length (key data : Bytes) : (rc4 key data).length = data.length := by
  simp [rc4, rc4Stream_length]

theorem xor_xor_cancel : ∀ (b k : Bytes), b.length ≤ k.length →
    List.zipWith (· ^^^ ·) (List.zipWith (· ^^^ ·) b k) k = b
  | [], _, _ => by simp
  | b :: bs, [], h => by simp at h
  | b :: bs, k :: ks, h => by
    have := xor_xor_cancel bs ks (by simpa using h)
    simp [this, UInt8.xor_assoc]

theorem rc4_invol (key data : Bytes) : rc4 key (rc4 key data) = data := by
  unfold rc4
  simp only [List.length_zipWith, rc4Stream_length, Nat.min_self]
  exact xor_xor_cancel _ _ (by rw [rc4Stream_length]; exact Nat.le_refl _)

end Verif.Std
