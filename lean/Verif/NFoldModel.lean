import Verif.Bytes
/-
Model of `n_fold`, kerberos_crypto/src/cryptography/nfold_dk.rs:16-112.

Simplifications: indices are computed with unbounded integers instead of `i32` (identical for inputs
shorter than 2^30 bytes; the crate only folds constants of 5 and 8 bytes); the intermediate `u16` sums
never exceed 510, so they are `Nat`. `none` stands for a Rust panic.
-/
namespace Verif.Crypto

/-- Rust's `%` on `i32` is the truncated remainder. The index expression of nfold_dk.rs:41-46 and 101-104. -/
def wrapIndex (x : Int) (len : Nat) : Nat := (x.tmod len + len).toNat % len

theorem wrapIndex_lt {x : Int} {len : Nat} (h : 0 < len) : wrapIndex x len < len := Nat.mod_lt _ h

/-- nfold_dk.rs:34-55 `rotate_rigth_n_bits`, for a non-empty `v` (for an empty one the Rust code panics;
its only caller panics earlier, see `nFold`). -/
def rotateRight (v : Bytes) (nbits : Nat) : Bytes :=
  List.ofFn fun i : Fin v.length =>
    let nbytes := nbits / 8 % v.length
    let nbits_remain := nbits % 8
    let index_a := wrapIndex ((i.val : Int) - nbytes) v.length
    let index_b := wrapIndex ((i.val : Int) - nbytes - 1) v.length
    UInt8.ofNat ((v[index_a]'(wrapIndex_lt (Nat.zero_lt_of_lt i.isLt))).toNat >>> nbits_remain) |||
    UInt8.ofNat ((v[index_b]'(wrapIndex_lt (Nat.zero_lt_of_lt i.isLt))).toNat <<< (8 - nbits_remain))

/-- nfold_dk.rs:22-32 `generate_13_bits_rotations_serie` (non-empty `v`). -/
def rotations13 (v : Bytes) (nbytes : Nat) : Bytes :=
  (List.range (Nat.lcm nbytes v.length / v.length)).flatMap fun i => rotateRight v (13 * i)

/-- nfold_dk.rs:57-67 `divide_in_exact_n_bytes_chunks`: the slice panics when the length is not a multiple
of `nbytes`; with `nbytes = 0` the Rust loop would not end (unreachable: the data is then empty). -/
def exactChunks (nbytes : Nat) (v : Bytes) : Option (List Bytes) :=
  if hv : v = [] then some []
  else if h : v.length < nbytes ∨ nbytes = 0 then none
  else match exactChunks nbytes (v.drop nbytes) with
    | none => none
    | some cs => some (v.take nbytes :: cs)
termination_by v.length
decreasing_by
  have : 0 < v.length := List.length_pos_iff.mpr hv
  simp only [List.length_drop]; omega

/-- nfold_dk.rs:87-95 `add_chunks_as_u16_vector` (equal lengths; a shorter second chunk would panic and
does not occur). -/
def addColumns (a b : Bytes) : List Nat := List.zipWith (fun x y => x.toNat + y.toNat) a b

/-- nfold_dk.rs:97-108 `propagate_carry_bits`. -/
def propagate (t : List Nat) : List Nat :=
  List.ofFn fun i : Fin t.length =>
    let index := wrapIndex ((i.val : Int) - t.length + 1) t.length
    (t[index]'(wrapIndex_lt (Nat.zero_lt_of_lt i.isLt))) / 256 + t[i] % 256

/-- nfold_dk.rs:80-82, the `while` loop; `none` = iterations exhausted (shown never to happen for the
bound used by `addChunk`). -/
def carryLoop : Nat → List Nat → Option (List Nat)
  | 0, _ => none
  | n + 1, t => if t.any (fun x => decide (x > 0xff)) then carryLoop n (propagate t) else some t

/-- nfold_dk.rs:77-85,110-112 `add_chunk_with_1s_complement`. -/
def addChunk (a b : Bytes) : Option Bytes :=
  match carryLoop ((addColumns a b).sum + 1) (addColumns a b) with
  | none => none
  | some t => some (t.map UInt8.ofNat)

/-- nfold_dk.rs:70-75, the fold over the remaining chunks. -/
def addAll : Bytes → List Bytes → Option Bytes
  | acc, [] => some acc
  | acc, c :: cs => match addChunk acc c with
    | none => none
    | some r => addAll r cs

/-- nfold_dk.rs:16-20 `n_fold`. An empty input panics (division by zero at line 26), and so does an output
size of zero (`chunks[0]` of an empty list at line 70). -/
def nFold (v : Bytes) (nbytes : Nat) : Option Bytes :=
  if v.length = 0 then none
  else match exactChunks nbytes (rotations13 v nbytes) with
    | none => none
    | some [] => none
    | some (c :: cs) => addAll c cs

end Verif.Crypto
