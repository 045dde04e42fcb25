import Verif.StdHash
/-
AES with 128- and 256-bit keys (FIPS 197), behind kerberos_crypto/src/cryptography/aes.rs (external crate `aes`). Not part
of /repo; instance of the parameter `Prims`, see `Verif/StdHash.lean`. The state is the list of its 16 bytes in input order
(byte `r + 4 c` is row `r` of column `c`).
-/
namespace Verif.Std

/-- FIPS 197 figure 7 -/
def sboxTable : List Nat :=
  [0x63, 0x7c, 0x77, 0x7b, 0xf2, 0x6b, 0x6f, 0xc5, 0x30, 0x01, 0x67, 0x2b, 0xfe, 0xd7, 0xab, 0x76,
   0xca, 0x82, 0xc9, 0x7d, 0xfa, 0x59, 0x47, 0xf0, 0xad, 0xd4, 0xa2, 0xaf, 0x9c, 0xa4, 0x72, 0xc0,
   0xb7, 0xfd, 0x93, 0x26, 0x36, 0x3f, 0xf7, 0xcc, 0x34, 0xa5, 0xe5, 0xf1, 0x71, 0xd8, 0x31, 0x15,
   0x04, 0xc7, 0x23, 0xc3, 0x18, 0x96, 0x05, 0x9a, 0x07, 0x12, 0x80, 0xe2, 0xeb, 0x27, 0xb2, 0x75,
   0x09, 0x83, 0x2c, 0x1a, 0x1b, 0x6e, 0x5a, 0xa0, 0x52, 0x3b, 0xd6, 0xb3, 0x29, 0xe3, 0x2f, 0x84,
   0x53, 0xd1, 0x00, 0xed, 0x20, 0xfc, 0xb1, 0x5b, 0x6a, 0xcb, 0xbe, 0x39, 0x4a, 0x4c, 0x58, 0xcf,
   0xd0, 0xef, 0xaa, 0xfb, 0x43, 0x4d, 0x33, 0x85, 0x45, 0xf9, 0x02, 0x7f, 0x50, 0x3c, 0x9f, 0xa8,
   0x51, 0xa3, 0x40, 0x8f, 0x92, 0x9d, 0x38, 0xf5, 0xbc, 0xb6, 0xda, 0x21, 0x10, 0xff, 0xf3, 0xd2,
   0xcd, 0x0c, 0x13, 0xec, 0x5f, 0x97, 0x44, 0x17, 0xc4, 0xa7, 0x7e, 0x3d, 0x64, 0x5d, 0x19, 0x73,
   0x60, 0x81, 0x4f, 0xdc, 0x22, 0x2a, 0x90, 0x88, 0x46, 0xee, 0xb8, 0x14, 0xde, 0x5e, 0x0b, 0xdb,
   0xe0, 0x32, 0x3a, 0x0a, 0x49, 0x06, 0x24, 0x5c, 0xc2, 0xd3, 0xac, 0x62, 0x91, 0x95, 0xe4, 0x79,
   0xe7, 0xc8, 0x37, 0x6d, 0x8d, 0xd5, 0x4e, 0xa9, 0x6c, 0x56, 0xf4, 0xea, 0x65, 0x7a, 0xae, 0x08,
   0xba, 0x78, 0x25, 0x2e, 0x1c, 0xa6, 0xb4, 0xc6, 0xe8, 0xdd, 0x74, 0x1f, 0x4b, 0xbd, 0x8b, 0x8a,
   0x70, 0x3e, 0xb5, 0x66, 0x48, 0x03, 0xf6, 0x0e, 0x61, 0x35, 0x57, 0xb9, 0x86, 0xc1, 0x1d, 0x9e,
   0xe1, 0xf8, 0x98, 0x11, 0x69, 0xd9, 0x8e, 0x94, 0x9b, 0x1e, 0x87, 0xe9, 0xce, 0x55, 0x28, 0xdf,
   0x8c, 0xa1, 0x89, 0x0d, 0xbf, 0xe6, 0x42, 0x68, 0x41, 0x99, 0x2d, 0x0f, 0xb0, 0x54, 0xbb, 0x16]

/-- FIPS 197 figure 14 -/
def invSboxTable : List Nat :=
  [0x52, 0x09, 0x6a, 0xd5, 0x30, 0x36, 0xa5, 0x38, 0xbf, 0x40, 0xa3, 0x9e, 0x81, 0xf3, 0xd7, 0xfb,
   0x7c, 0xe3, 0x39, 0x82, 0x9b, 0x2f, 0xff, 0x87, 0x34, 0x8e, 0x43, 0x44, 0xc4, 0xde, 0xe9, 0xcb,
   0x54, 0x7b, 0x94, 0x32, 0xa6, 0xc2, 0x23, 0x3d, 0xee, 0x4c, 0x95, 0x0b, 0x42, 0xfa, 0xc3, 0x4e,
   0x08, 0x2e, 0xa1, 0x66, 0x28, 0xd9, 0x24, 0xb2, 0x76, 0x5b, 0xa2, 0x49, 0x6d, 0x8b, 0xd1, 0x25,
   0x72, 0xf8, 0xf6, 0x64, 0x86, 0x68, 0x98, 0x16, 0xd4, 0xa4, 0x5c, 0xcc, 0x5d, 0x65, 0xb6, 0x92,
   0x6c, 0x70, 0x48, 0x50, 0xfd, 0xed, 0xb9, 0xda, 0x5e, 0x15, 0x46, 0x57, 0xa7, 0x8d, 0x9d, 0x84,
   0x90, 0xd8, 0xab, 0x00, 0x8c, 0xbc, 0xd3, 0x0a, 0xf7, 0xe4, 0x58, 0x05, 0xb8, 0xb3, 0x45, 0x06,
   0xd0, 0x2c, 0x1e, 0x8f, 0xca, 0x3f, 0x0f, 0x02, 0xc1, 0xaf, 0xbd, 0x03, 0x01, 0x13, 0x8a, 0x6b,
   0x3a, 0x91, 0x11, 0x41, 0x4f, 0x67, 0xdc, 0xea, 0x97, 0xf2, 0xcf, 0xce, 0xf0, 0xb4, 0xe6, 0x73,
   0x96, 0xac, 0x74, 0x22, 0xe7, 0xad, 0x35, 0x85, 0xe2, 0xf9, 0x37, 0xe8, 0x1c, 0x75, 0xdf, 0x6e,
   0x47, 0xf1, 0x1a, 0x71, 0x1d, 0x29, 0xc5, 0x89, 0x6f, 0xb7, 0x62, 0x0e, 0xaa, 0x18, 0xbe, 0x1b,
   0xfc, 0x56, 0x3e, 0x4b, 0xc6, 0xd2, 0x79, 0x20, 0x9a, 0xdb, 0xc0, 0xfe, 0x78, 0xcd, 0x5a, 0xf4,
   0x1f, 0xdd, 0xa8, 0x33, 0x88, 0x07, 0xc7, 0x31, 0xb1, 0x12, 0x10, 0x59, 0x27, 0x80, 0xec, 0x5f,
   0x60, 0x51, 0x7f, 0xa9, 0x19, 0xb5, 0x4a, 0x0d, 0x2d, 0xe5, 0x7a, 0x9f, 0x93, 0xc9, 0x9c, 0xef,
   0xa0, 0xe0, 0x3b, 0x4d, 0xae, 0x2a, 0xf5, 0xb0, 0xc8, 0xeb, 0xbb, 0x3c, 0x83, 0x53, 0x99, 0x61,
   0x17, 0x2b, 0x04, 0x7e, 0xba, 0x77, 0xd6, 0x26, 0xe1, 0x69, 0x14, 0x63, 0x55, 0x21, 0x0c, 0x7d]

/-- substitution of a byte -/
def sbox (b : UInt8) : UInt8 := UInt8.ofNat (sboxTable.getD b.toNat 0)
/-- its inverse -/
def invSbox (b : UInt8) : UInt8 := UInt8.ofNat (invSboxTable.getD b.toNat 0)

/-- ShiftRows: row `r` moves `r` columns to the left -/
def shiftRows (s : Bytes) : Bytes := [0, 5, 10, 15, 4, 9, 14, 3, 8, 13, 2, 7, 12, 1, 6, 11].map fun i => s.getD i 0
/-- InvShiftRows -/
def invShiftRows (s : Bytes) : Bytes := [0, 13, 10, 7, 4, 1, 14, 11, 8, 5, 2, 15, 12, 9, 6, 3].map fun i => s.getD i 0

/-- multiplication by x in GF(2^8) modulo x^8 + x^4 + x^3 + x + 1 -/
def xtime (b : UInt8) : UInt8 := (b <<< 1) ^^^ (if b.toBitVec.msb then 0x1b else 0)

/-- multiples of a byte, FIPS 197 section 4.2.1 -/
def mul3 (b : UInt8) : UInt8 := xtime b ^^^ b
/-- 9 = 8 + 1 -/
def mul9 (b : UInt8) : UInt8 := xtime (xtime (xtime b)) ^^^ b
/-- 11 = 8 + 2 + 1 -/
def mul11 (b : UInt8) : UInt8 := xtime (xtime (xtime b)) ^^^ xtime b ^^^ b
/-- 13 = 8 + 4 + 1 -/
def mul13 (b : UInt8) : UInt8 := xtime (xtime (xtime b)) ^^^ xtime (xtime b) ^^^ b
/-- 14 = 8 + 4 + 2 -/
def mul14 (b : UInt8) : UInt8 := xtime (xtime (xtime b)) ^^^ xtime (xtime b) ^^^ xtime b

/-- MixColumns, column by column -/
def mixColumns : Bytes → Bytes
  | a :: b :: c :: d :: r =>
    (xtime a ^^^ mul3 b ^^^ c ^^^ d) :: (a ^^^ xtime b ^^^ mul3 c ^^^ d) :: (a ^^^ b ^^^ xtime c ^^^ mul3 d) ::
      (mul3 a ^^^ b ^^^ c ^^^ xtime d) :: mixColumns r
  | _ => []

/-- InvMixColumns -/
def invMixColumns : Bytes → Bytes
  | a :: b :: c :: d :: r =>
    (mul14 a ^^^ mul11 b ^^^ mul13 c ^^^ mul9 d) :: (mul9 a ^^^ mul14 b ^^^ mul11 c ^^^ mul13 d) ::
      (mul13 a ^^^ mul9 b ^^^ mul14 c ^^^ mul11 d) :: (mul11 a ^^^ mul13 b ^^^ mul9 c ^^^ mul14 d) :: invMixColumns r
  | _ => []

/-- AddRoundKey, also the sum of two words -/
def addKey (s k : Bytes) : Bytes := List.zipWith (· ^^^ ·) s k

/-- the rounds after the first key; the last one has no MixColumns -/
def encRounds : List Bytes → Bytes → Bytes
  | [], s => s
  | [k], s => addKey (shiftRows (s.map sbox)) k
  | k :: k' :: ks, s => encRounds (k' :: ks) (addKey (mixColumns (shiftRows (s.map sbox))) k)

/-- the rounds undone, last key first -/
def decRounds : List Bytes → Bytes → Bytes
  | [], s => s
  | [k], s => (invShiftRows (addKey s k)).map invSbox
  | k :: k' :: ks, s => (invShiftRows (invMixColumns (addKey (decRounds (k' :: ks) s) k))).map invSbox

/-- FIPS 197 5.2: RotWord -/
def rotWord (w : Bytes) : Bytes := w.drop 1 ++ w.take 1

/-- FIPS 197 5.2: the byte of Rcon[i] -/
def rcon (i : Nat) : UInt8 := [0, 0x01, 0x02, 0x04, 0x08, 0x10, 0x20, 0x40, 0x80, 0x1b, 0x36].getD i 0

/-- FIPS 197 5.2: the word added to w[i - Nk], from w[i - 1] -/
def keyTemp (nk i : Nat) (w : Bytes) : Bytes :=
  if i % nk = 0 then addKey ((rotWord w).map sbox) [rcon (i / nk), 0, 0, 0]
  else if 6 < nk ∧ i % nk = 4 then w.map sbox
  else w

/-- FIPS 197 5.2: `n` more words from index `i` on; the words so far, latest first -/
def expandKey (nk : Nat) : Nat → Nat → List Bytes → List Bytes
  | 0, _, ws => ws
  | n + 1, i, ws => expandKey nk n (i + 1) (addKey (ws.getD (nk - 1) []) (keyTemp nk i (ws.headD [])) :: ws)

/-- all round keys for a key of `4 nk` bytes and `nr` rounds -/
def roundKeys (nk nr : Nat) (key : Bytes) : List Bytes :=
  let first := (List.range nk).map fun i => (key.drop (4 * i)).take 4
  let all := (expandKey nk (4 * (nr + 1) - nk) nk first.reverse).reverse.flatten
  (List.range (nr + 1)).map fun i => (all.drop (16 * i)).take 16

/-- encryption of a block with the round keys -/
def encBlock (rk : List Bytes) (b : Bytes) : Bytes :=
  match rk with
  | [] => b
  | k :: ks => encRounds ks (addKey b k)

/-- decryption of a block with the round keys -/
def decBlock (rk : List Bytes) (b : Bytes) : Bytes :=
  match rk with
  | [] => b
  | k :: ks => addKey (decRounds ks b) k

/-! ### Decryption inverts encryption -/

theorem forall_u8 {p : UInt8 → Prop} (h : ∀ n, n < 256 → p (UInt8.ofNat n)) (b : UInt8) : p b := by
  have := h b.toNat b.toNat_lt
  rwa [UInt8.ofNat_toNat] at this

theorem invSbox_sbox (b : UInt8) : invSbox (sbox b) = b :=
  forall_u8 (p := fun b => invSbox (sbox b) = b) (by decide +kernel) b

theorem sbox_invSbox (b : UInt8) : sbox (invSbox b) = b :=
  forall_u8 (p := fun b => sbox (invSbox b) = b) (by decide +kernel) b

theorem xtime_xor (a b : UInt8) : xtime (a ^^^ b) = xtime a ^^^ xtime b := by
  unfold xtime
  have h1 : (a ^^^ b) <<< 1 = (a <<< 1) ^^^ (b <<< 1) := by
    apply UInt8.toBitVec_inj.1
    simp [BitVec.shiftLeft_xor_distrib]
  have h2 : (a ^^^ b).toBitVec.msb = (a.toBitVec.msb ^^ b.toBitVec.msb) := by simp [BitVec.msb_xor]
  rw [h1, h2]
  generalize a <<< 1 = x
  generalize b <<< 1 = y
  cases a.toBitVec.msb <;> cases b.toBitVec.msb <;> simp
  all_goals ac_nf
  all_goals simp

/-- the four bytes of a column -/
structure Col where
  a : UInt8
  b : UInt8
  c : UInt8
  d : UInt8
deriving DecidableEq

/-- sum of columns -/
def Col.add (x y : Col) : Col := ⟨x.a ^^^ y.a, x.b ^^^ y.b, x.c ^^^ y.c, x.d ^^^ y.d⟩

/-- MixColumns of one column -/
def Col.mix (x : Col) : Col :=
  ⟨xtime x.a ^^^ mul3 x.b ^^^ x.c ^^^ x.d, x.a ^^^ xtime x.b ^^^ mul3 x.c ^^^ x.d,
    x.a ^^^ x.b ^^^ xtime x.c ^^^ mul3 x.d, mul3 x.a ^^^ x.b ^^^ x.c ^^^ xtime x.d⟩

/-- InvMixColumns of one column -/
def Col.unmix (x : Col) : Col :=
  ⟨mul14 x.a ^^^ mul11 x.b ^^^ mul13 x.c ^^^ mul9 x.d, mul9 x.a ^^^ mul14 x.b ^^^ mul11 x.c ^^^ mul13 x.d,
    mul13 x.a ^^^ mul9 x.b ^^^ mul14 x.c ^^^ mul11 x.d, mul11 x.a ^^^ mul13 x.b ^^^ mul9 x.c ^^^ mul14 x.d⟩

theorem Col.mix_add (x y : Col) : (x.add y).mix = x.mix.add y.mix := by
  simp only [Col.mix, Col.add, mul3, xtime_xor, Col.mk.injEq]
  refine ⟨?_, ?_, ?_, ?_⟩ <;> ac_rfl

theorem Col.unmix_add (x y : Col) : (x.add y).unmix = x.unmix.add y.unmix := by
  simp only [Col.unmix, Col.add, mul9, mul11, mul13, mul14, xtime_xor, Col.mk.injEq]
  refine ⟨?_, ?_, ?_, ?_⟩ <;> ac_rfl

theorem Col.split (x : Col) : x = Col.add ⟨x.a, 0, 0, 0⟩ (Col.add ⟨0, x.b, 0, 0⟩ (Col.add ⟨0, 0, x.c, 0⟩ ⟨0, 0, 0, x.d⟩)) := by
  simp [Col.add]

theorem Col.unmix_mix (x : Col) : x.mix.unmix = x := by
  conv => lhs; rw [x.split]
  conv => rhs; rw [x.split]
  simp only [Col.mix_add, Col.unmix_add]
  rw [forall_u8 (p := fun b => (Col.mix ⟨b, 0, 0, 0⟩).unmix = ⟨b, 0, 0, 0⟩) (by decide +kernel) x.a,
    forall_u8 (p := fun b => (Col.mix ⟨0, b, 0, 0⟩).unmix = ⟨0, b, 0, 0⟩) (by decide +kernel) x.b,
    forall_u8 (p := fun b => (Col.mix ⟨0, 0, b, 0⟩).unmix = ⟨0, 0, b, 0⟩) (by decide +kernel) x.c,
    forall_u8 (p := fun b => (Col.mix ⟨0, 0, 0, b⟩).unmix = ⟨0, 0, 0, b⟩) (by decide +kernel) x.d]

theorem Col.mix_unmix (x : Col) : x.unmix.mix = x := by
  conv => lhs; rw [x.split]
  conv => rhs; rw [x.split]
  simp only [Col.mix_add, Col.unmix_add]
  rw [forall_u8 (p := fun b => (Col.unmix ⟨b, 0, 0, 0⟩).mix = ⟨b, 0, 0, 0⟩) (by decide +kernel) x.a,
    forall_u8 (p := fun b => (Col.unmix ⟨0, b, 0, 0⟩).mix = ⟨0, b, 0, 0⟩) (by decide +kernel) x.b,
    forall_u8 (p := fun b => (Col.unmix ⟨0, 0, b, 0⟩).mix = ⟨0, 0, b, 0⟩) (by decide +kernel) x.c,
    forall_u8 (p := fun b => (Col.unmix ⟨0, 0, 0, b⟩).mix = ⟨0, 0, 0, b⟩) (by decide +kernel) x.d]

theorem mixColumns_cons (a b c d : UInt8) (r : Bytes) : mixColumns (a :: b :: c :: d :: r) =
    (Col.mix ⟨a, b, c, d⟩).a :: (Col.mix ⟨a, b, c, d⟩).b :: (Col.mix ⟨a, b, c, d⟩).c :: (Col.mix ⟨a, b, c, d⟩).d ::
      mixColumns r := rfl

theorem invMixColumns_cons (a b c d : UInt8) (r : Bytes) : invMixColumns (a :: b :: c :: d :: r) =
    (Col.unmix ⟨a, b, c, d⟩).a :: (Col.unmix ⟨a, b, c, d⟩).b :: (Col.unmix ⟨a, b, c, d⟩).c ::
      (Col.unmix ⟨a, b, c, d⟩).d :: invMixColumns r := rfl

theorem four (s : Bytes) (h : 4 ≤ s.length) : ∃ a b c d r, s = a :: b :: c :: d :: r := by
  match s, h with
  | a :: b :: c :: d :: r, _ => exact ⟨a, b, c, d, r, rfl⟩

theorem mixColumns_spec (n : Nat) : ∀ s : Bytes, s.length = 4 * n →
    (mixColumns s).length = 4 * n ∧ invMixColumns (mixColumns s) = s := by
  induction n with
  | zero => intro s h; rw [List.length_eq_zero_iff.1 h]; exact ⟨rfl, rfl⟩
  | succ n ih =>
    intro s h
    obtain ⟨a, b, c, d, r, rfl⟩ := four s (by omega)
    have hr : r.length = 4 * n := by simp at h; omega
    obtain ⟨h1, h2⟩ := ih r hr
    rw [mixColumns_cons, invMixColumns_cons, h2, Col.unmix_mix]
    exact ⟨by simp [h1]; omega, rfl⟩

theorem invMixColumns_spec (n : Nat) : ∀ s : Bytes, s.length = 4 * n →
    (invMixColumns s).length = 4 * n ∧ mixColumns (invMixColumns s) = s := by
  induction n with
  | zero => intro s h; rw [List.length_eq_zero_iff.1 h]; exact ⟨rfl, rfl⟩
  | succ n ih =>
    intro s h
    obtain ⟨a, b, c, d, r, rfl⟩ := four s (by omega)
    have hr : r.length = 4 * n := by simp at h; omega
    obtain ⟨h1, h2⟩ := ih r hr
    rw [invMixColumns_cons, mixColumns_cons, h2, Col.mix_unmix]
    exact ⟨by simp [h1]; omega, rfl⟩

theorem sixteen (s : Bytes) (h : s.length = 16) : ∃ a b c d e f g i j k l m n o p q,
    s = [a, b, c, d, e, f, g, i, j, k, l, m, n, o, p, q] := by
  match s, h with
  | [a, b, c, d, e, f, g, i, j, k, l, m, n, o, p, q], _ => exact ⟨a, b, c, d, e, f, g, i, j, k, l, m, n, o, p, q, rfl⟩

theorem shiftRows_spec (s : Bytes) (h : s.length = 16) :
    invShiftRows (shiftRows s) = s ∧ shiftRows (invShiftRows s) = s := by
  obtain ⟨a, b, c, d, e, f, g, i, j, k, l, m, n, o, p, q, rfl⟩ := sixteen s h
  exact ⟨rfl, rfl⟩

theorem shiftRows_length (s : Bytes) : (shiftRows s).length = 16 := rfl
theorem invShiftRows_length (s : Bytes) : (invShiftRows s).length = 16 := rfl

theorem addKey_length {s k : Bytes} (hs : s.length = 16) (hk : k.length = 16) : (addKey s k).length = 16 := by
  simp [addKey, hs, hk]

theorem addKey_cancel {s k : Bytes} (hs : s.length = 16) (hk : k.length = 16) : addKey (addKey s k) k = s :=
  xor_xor_cancel s k (by omega)

theorem map_sbox (s : Bytes) : (s.map sbox).map invSbox = s := by
  rw [List.map_map]
  conv => rhs; rw [← List.map_id s]
  exact List.map_congr_left fun b _ => invSbox_sbox b

theorem map_invSbox (s : Bytes) : (s.map invSbox).map sbox = s := by
  rw [List.map_map]
  conv => rhs; rw [← List.map_id s]
  exact List.map_congr_left fun b _ => sbox_invSbox b

theorem encRounds_spec (ks : List Bytes) (hk : ∀ k ∈ ks, k.length = 16) : ∀ s : Bytes, s.length = 16 →
    (encRounds ks s).length = 16 ∧ decRounds ks (encRounds ks s) = s := by
  induction ks with
  | nil => intro s h; exact ⟨h, rfl⟩
  | cons k ks ih =>
    intro s h
    have hk0 := hk k (List.mem_cons_self ..)
    cases ks with
    | nil =>
      refine ⟨addKey_length (shiftRows_length _) hk0, ?_⟩
      show (invShiftRows (addKey (addKey (shiftRows (s.map sbox)) k) k)).map invSbox = s
      rw [addKey_cancel (shiftRows_length _) hk0, (shiftRows_spec _ (by simpa using h)).1, map_sbox]
    | cons k' ks =>
      have hm := mixColumns_spec 4 _ (shiftRows_length (s.map sbox))
      have hl := addKey_length hm.1 hk0
      obtain ⟨h1, h2⟩ := ih (fun x hx => hk x (List.mem_cons_of_mem _ hx)) _ hl
      refine ⟨h1, ?_⟩
      show (invShiftRows (invMixColumns (addKey (decRounds (k' :: ks) (encRounds (k' :: ks) _)) k))).map invSbox = s
      rw [h2, addKey_cancel hm.1 hk0, hm.2, (shiftRows_spec _ (by simpa using h)).1, map_sbox]

theorem decRounds_spec (ks : List Bytes) (hk : ∀ k ∈ ks, k.length = 16) : ∀ s : Bytes, s.length = 16 →
    (decRounds ks s).length = 16 ∧ encRounds ks (decRounds ks s) = s := by
  induction ks with
  | nil => intro s h; exact ⟨h, rfl⟩
  | cons k ks ih =>
    intro s h
    have hk0 := hk k (List.mem_cons_self ..)
    cases ks with
    | nil =>
      refine ⟨by show ((invShiftRows _).map invSbox).length = 16; rw [List.length_map, invShiftRows_length], ?_⟩
      show addKey (shiftRows (((invShiftRows (addKey s k)).map invSbox).map sbox)) k = s
      rw [map_invSbox, (shiftRows_spec _ (addKey_length h hk0)).2, addKey_cancel h hk0]
    | cons k' ks =>
      obtain ⟨h1, h2⟩ := ih (fun x hx => hk x (List.mem_cons_of_mem _ hx)) s h
      have hl := addKey_length h1 hk0
      have hm := invMixColumns_spec 4 _ hl
      refine ⟨by show ((invShiftRows _).map invSbox).length = 16; rw [List.length_map, invShiftRows_length], ?_⟩
      show encRounds (k' :: ks) (addKey (mixColumns (shiftRows (((invShiftRows (invMixColumns
        (addKey (decRounds (k' :: ks) s) k))).map invSbox).map sbox))) k) = s
      rw [map_invSbox, (shiftRows_spec _ hm.1).2, hm.2, addKey_cancel h1 hk0, h2]

theorem block_spec (rk : List Bytes) (hk : ∀ k ∈ rk, k.length = 16) (b : Bytes) (hb : b.length = 16) :
    (encBlock rk b).length = 16 ∧ (decBlock rk b).length = 16 ∧ decBlock rk (encBlock rk b) = b ∧
    encBlock rk (decBlock rk b) = b := by
  cases rk with
  | nil => exact ⟨hb, hb, rfl, rfl⟩
  | cons k ks =>
    have hk0 := hk k (List.mem_cons_self ..)
    have hks : ∀ x ∈ ks, x.length = 16 := fun x hx => hk x (List.mem_cons_of_mem _ hx)
    obtain ⟨h1, h2⟩ := encRounds_spec ks hks _ (addKey_length hb hk0)
    obtain ⟨h3, h4⟩ := decRounds_spec ks hks b hb
    refine ⟨h1, addKey_length h3 hk0, ?_, ?_⟩
    · show addKey (decRounds ks (encRounds ks (addKey b k))) k = b
      rw [h2, addKey_cancel hb hk0]
    · show encRounds ks (addKey (addKey (decRounds ks b) k) k) = b
      rw [addKey_cancel h3 hk0, h4]

/-! ### Round keys have 16 bytes -/

theorem keyTemp_length (nk i : Nat) {w : Bytes} (h : w.length = 4) : (keyTemp nk i w).length = 4 := by
  unfold keyTemp
  split
  · simp [addKey, rotWord, h]
  · split
    · simpa using h
    · exact h

theorem expandKey_spec (nk : Nat) (hn : 0 < nk) (n : Nat) : ∀ i (ws : List Bytes), nk ≤ ws.length →
    (∀ w ∈ ws, w.length = 4) →
    (expandKey nk n i ws).length = n + ws.length ∧ ∀ w ∈ expandKey nk n i ws, w.length = 4 := by
  induction n with
  | zero => intro i ws _ h; exact ⟨by simp [expandKey], h⟩
  | succ n ih =>
    intro i ws hl h
    have h1 : (ws.getD (nk - 1) []).length = 4 := by
      rw [List.getD_eq_getElem?_getD, List.getElem?_eq_getElem (by omega)]
      exact h _ (List.getElem_mem ..)
    have h2 : (ws.headD []).length = 4 := by
      cases ws with
      | nil => simp at hl; omega
      | cons w ws => exact h _ (List.mem_cons_self ..)
    have h3 : (addKey (ws.getD (nk - 1) []) (keyTemp nk i (ws.headD []))).length = 4 := by
      simp only [addKey, List.length_zipWith, h1, keyTemp_length nk i h2, Nat.min_self]
    obtain ⟨h4, h5⟩ := ih (i + 1) (addKey (ws.getD (nk - 1) []) (keyTemp nk i (ws.headD [])) :: ws) (by rw [List.length_cons]; omega) (fun w hw => by
      rcases List.mem_cons.1 hw with rfl | hw
      · exact h3
      · exact h w hw)
    exact ⟨by rw [expandKey, h4, List.length_cons]; omega, h5⟩

theorem flatten_four (ws : List Bytes) (h : ∀ w ∈ ws, w.length = 4) : ws.flatten.length = 4 * ws.length := by
  induction ws with
  | nil => rfl
  | cons w ws ih =>
    rw [List.flatten_cons, List.length_append, ih (fun x hx => h x (List.mem_cons_of_mem _ hx)),
      h w (List.mem_cons_self ..), List.length_cons]
    omega

theorem roundKeys_spec (nk nr : Nat) (hn : 0 < nk) (hr : nk ≤ 4 * (nr + 1)) (key : Bytes) (hk : key.length = 4 * nk) :
    (roundKeys nk nr key).length = nr + 1 ∧ ∀ k ∈ roundKeys nk nr key, k.length = 16 := by
  unfold roundKeys
  dsimp only
  refine ⟨by simp, ?_⟩
  intro k h
  obtain ⟨i, hi, rfl⟩ := List.mem_map.1 h
  have hi := List.mem_range.1 hi
  obtain ⟨h1, h2⟩ := expandKey_spec nk hn (4 * (nr + 1) - nk) nk
    ((List.range nk).map fun i => (key.drop (4 * i)).take 4).reverse (by simp) (by
      intro w hw
      obtain ⟨j, hj, rfl⟩ := List.mem_map.1 (List.mem_reverse.1 hw)
      have hj := List.mem_range.1 hj
      rw [List.length_take, List.length_drop]
      omega)
  rw [List.length_take, List.length_drop, flatten_four _ (fun w hw => h2 w (List.mem_reverse.1 hw)),
    List.length_reverse, h1]
  simp only [List.length_reverse, List.length_map, List.length_range]
  omega

end Verif.Std
