import Verif.Bytes
/-
FIPS 197 (AES) as the standard defines it: bytes as polynomials, the state as a matrix, the substitution by inversion and an affine
map. No code of /repo (which calls the external crate `aes`): the specification for the instance `Verif/StdAes.lean`.
-/
namespace Verif.Fips197

/-- 4.2: product of two polynomials over GF(2), bit i the coefficient of x^i -/
def clmul (a b : Nat) : Nat := (List.range 8).foldl (fun s i => if b.testBit i then s ^^^ (a <<< i) else s) 0

/-- 4.2: remainder modulo x^8 + x^4 + x^3 + x + 1 of a polynomial of degree at most 14 -/
def modM (p : Nat) : Nat :=
  [14, 13, 12, 11, 10, 9, 8].foldl (fun p i => if p.testBit i then p ^^^ (0x11b <<< (i - 8)) else p) p

/-- 4.2: product of two bytes -/
def gmul (a b : UInt8) : UInt8 := UInt8.ofNat (modM (clmul a.toNat b.toNat))

/-- bit `i` of a byte -/
def bit (b : UInt8) (i : Nat) : Bool := b.toNat.testBit (i % 8)

/-- 5.1.1: `s` is the S-box applied to `b`: the inverse of `b` (0 for 0), then the affine map (5.1) -/
def IsSub (b s : UInt8) : Prop :=
  ∃ i, (b = 0 ∧ i = 0 ∨ gmul b i = 1) ∧
    ∀ k, k < 8 → bit s k = ((((bit i k ^^ bit i (k + 4)) ^^ bit i (k + 5)) ^^ bit i (k + 6)) ^^ bit i (k + 7) ^^ bit 0x63 k)

/-- 3.4: the state, row and column -/
abbrev State := Nat → Nat → UInt8

/-- 5.1.1 SubBytes -/
def subBytes (S : UInt8 → UInt8) (s : State) : State := fun r c => S (s r c)

/-- 5.1.2 ShiftRows -/
def shiftRows (s : State) : State := fun r c => s r ((c + r) % 4)

/-- 5.1.3: the coefficients of 3 x^3 + x^2 + x + 2 as a matrix -/
def mixCoeff (r k : Nat) : UInt8 := if k = r then 2 else if k = (r + 1) % 4 then 3 else 1

/-- 5.1.3 MixColumns -/
def mixColumns (s : State) : State := fun r c =>
  gmul (mixCoeff r 0) (s 0 c) ^^^ gmul (mixCoeff r 1) (s 1 c) ^^^ gmul (mixCoeff r 2) (s 2 c) ^^^ gmul (mixCoeff r 3) (s 3 c)

/-- a word of the key schedule: its four bytes -/
abbrev Word := Nat → UInt8

/-- 5.1.4 AddRoundKey -/
def addRoundKey (w : Nat → Word) (round : Nat) (s : State) : State := fun r c => s r c ^^^ w (4 * round + c) r

/-- x^n -/
def xpow : Nat → UInt8
  | 0 => 1
  | n + 1 => gmul 2 (xpow n)

/-- 5.2: the words w[0], .., w[count - 1] for a key of `nk` words -/
def KeySchedule (S : UInt8 → UInt8) (nk count : Nat) (key : Bytes) (w : Nat → Word) : Prop :=
  (∀ i, i < nk → ∀ r, r < 4 → w i r = key.getD (4 * i + r) 0) ∧
  ∀ i, nk ≤ i → i < count → ∀ r, r < 4 → w i r = w (i - nk) r ^^^
    (if i % nk = 0 then S (w (i - 1) ((r + 1) % 4)) ^^^ (if r = 0 then xpow (i / nk - 1) else 0)
     else if 6 < nk ∧ i % nk = 4 then S (w (i - 1) r)
     else w (i - 1) r)

/-- 5.1: the state after the first key and `n` rounds with MixColumns -/
def rounds (S : UInt8 → UInt8) (w : Nat → Word) (input : State) : Nat → State
  | 0 => addRoundKey w 0 input
  | n + 1 => addRoundKey w (n + 1) (mixColumns (shiftRows (subBytes S (rounds S w input n))))

/-- 5.1: Cipher with `nr` rounds; the last one has no MixColumns -/
def cipher (S : UInt8 → UInt8) (w : Nat → Word) (nr : Nat) (input : State) : State :=
  addRoundKey w nr (shiftRows (subBytes S (rounds S w input (nr - 1))))

/-- 3.4: byte `r + 4 c` is row `r` of column `c` -/
def toState (b : Bytes) : State := fun r c => b.getD (r + 4 * c) 0

/-- `out` is the encryption of `block` with `key` (4 `nk` bytes, `nr` rounds) -/
def IsEncryption (nk nr : Nat) (key block out : Bytes) : Prop :=
  ∃ S w, (∀ b, IsSub b (S b)) ∧ KeySchedule S nk (4 * (nr + 1)) key w ∧ out.length = 16 ∧
    ∀ r c, r < 4 → c < 4 → toState out r c = cipher S w nr (toState block) r c

end Verif.Fips197
