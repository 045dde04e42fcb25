import Verif.Bytes
/-
Specification of n-fold, after RFC 3961 section 5.1, over bit positions and natural numbers; it shares
nothing with the implementation model.
-/
namespace Verif.NFoldSpec

/-- Bit `j` of a byte string, most significant bit of the first byte is bit 0. -/
def bitAt (v : Bytes) (j : Nat) : Bool := ((v.getD (j / 8) 0).toNat).testBit (7 - j % 8)

/-- The number whose binary digits, most significant first, are `f 0 … f (len-1)`. -/
def natOfBits (f : Nat → Bool) : Nat → Nat
  | 0 => 0
  | k + 1 => 2 * natOfBits f k + (f k).toNat

/-- Big-endian value of a byte string. -/
def natOf (v : Bytes) : Nat := v.foldl (fun acc b => 256 * acc + b.toNat) 0

/-- Bit `j` of the infinite concatenation `v, v>>>13, v>>>26, …` of rotated copies of `v`: copy number
`c = j / L` (with `L` the bit length of `v`) has at position `p` the bit `p - 13 c` (modulo `L`)
of `v`. -/
def expandedBit (v : Bytes) (j : Nat) : Bool :=
  let L := 8 * v.length
  bitAt v (((j % L : Int) - 13 * (j / L)) % L).toNat

/-- Value of the `m`-th `n`-byte piece of the expansion. -/
def piece (v : Bytes) (n m : Nat) : Nat := natOfBits (fun j => expandedBit v (m * (8 * n) + j)) (8 * n)

/-- Ones-complement sum: the representative of `s` modulo `2^N - 1` in `1 … 2^N - 1`, and 0 for 0. -/
def onesComplement (N s : Nat) : Nat := if s = 0 then 0 else (s - 1) % (2 ^ N - 1) + 1

/-- `n`-fold of `v` as a number: the ones-complement sum of the pieces of one period (`lcm` bytes). -/
def nFoldValue (v : Bytes) (n : Nat) : Nat :=
  onesComplement (8 * n) (((List.range (Nat.lcm n v.length / n)).map (piece v n)).sum)

end Verif.NFoldSpec
