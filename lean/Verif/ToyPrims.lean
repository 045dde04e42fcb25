import Verif.CryptoModel
/-
A lawful suite of primitives (weak on purpose), which shows that `Prims.Lawful` can be met and lets examples be evaluated.
-/
namespace Verif.Crypto

/-- exactly `n` bytes: cut or filled with zeros -/
def fit (n : Nat) (b : Bytes) : Bytes := b.take n ++ List.replicate (n - b.length) 0

theorem fit_length (n b) : (fit n b).length = n := by simp [fit]; omega

/-- some mixing of two byte strings, so that results depend on all of the arguments -/
def mix (k d : Bytes) : Bytes :=
  let f := fun (a : UInt8) (x : UInt8) => a * 31 + x + 7
  let a := d.foldl f (k.foldl f 1)
  [a, a * 3, d.foldl f 5] ++ k ++ d

def toyPrims : Prims where
  aesEnc _ k b := List.zipWith (· ^^^ ·) b (k.take 16)
  aesDec _ k b := List.zipWith (· ^^^ ·) b (k.take 16)
  hmacSha1 k d := fit 20 (mix k d)
  hmacMd5 k d := fit 16 (mix k d)
  md5 d := fit 16 (mix [] d)
  md4 d := fit 16 (mix [1] d)
  rc4 k d := d.map (· ^^^ k.headD 0)
  pbkdf2 p s c n := fit n (mix p (UInt8.ofNat c :: s))

theorem xor_twice : ∀ (b k : Bytes), b.length ≤ k.length →
    List.zipWith (· ^^^ ·) (List.zipWith (· ^^^ ·) b k) k = b
  | [], _, _ => by simp
  | b :: bs, [], h => by simp at h
  | b :: bs, k :: ks, h => by
    have := xor_twice bs ks (by simpa using h)
    simp [this, UInt8.xor_assoc]

theorem toyPrims_lawful : toyPrims.Lawful where
  enc_length sz k b hk hb := by
    have : 16 ≤ k.length := by cases sz <;> simp [hk, AesSizes.keySize]
    simp [toyPrims, hb]; omega
  dec_length sz k b hk hb := by
    have : 16 ≤ k.length := by cases sz <;> simp [hk, AesSizes.keySize]
    simp [toyPrims, hb]; omega
  dec_enc sz k b hk hb := by
    have : 16 ≤ k.length := by cases sz <;> simp [hk, AesSizes.keySize]
    exact xor_twice _ _ (by rw [hb, List.length_take]; omega)
  enc_dec sz k b hk hb := by
    have : 16 ≤ k.length := by cases sz <;> simp [hk, AesSizes.keySize]
    exact xor_twice _ _ (by rw [hb, List.length_take]; omega)
  hmacSha1_length _ _ := fit_length _ _
  hmacMd5_length _ _ := fit_length _ _
  md5_length _ := fit_length _ _
  md4_length _ := fit_length _ _
  rc4_length k d _ := by simp [toyPrims]
  rc4_invol k d _ := by
    simp only [toyPrims, List.map_map]
    conv => rhs; rw [← List.map_id d]
    congr 1
    funext x
    simp [UInt8.xor_assoc]
  pbkdf2_length _ _ _ _ := fit_length _ _

end Verif.Crypto
