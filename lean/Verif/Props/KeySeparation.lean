import Verif.NFoldCert
import Verif.Props.Std
/-
Property theorems C100: no two key usages, and no two purposes of one usage, share a key (AES).
-/
namespace Verif.Crypto
open Verif.Rfc (DK wellKnown Cts bytesOf usageNumber)
open Verif.NFoldSpec (natOf nFoldValue)

/-! ### Lemmas -/

theorem wellKnown_inj {u u' : Int32} {b b' : UInt8} (h : wellKnown u b = wellKnown u' b') : u = u' ∧ b = b' := by
  rw [← wellKnown_eq, ← wellKnown_eq] at h
  unfold usageConst usageBE at h
  have hl : (be32 u.toUInt32).length = (be32 u'.toUInt32).length := rfl
  obtain ⟨h1, h2⟩ := List.append_inj h hl
  refine ⟨i32_toUInt32_inj ?_, by simpa using h2⟩
  have e1 := usageBE_eq u
  have e2 := usageBE_eq u'
  unfold usageBE at e1 e2
  rw [← UInt32.toNat_inj]
  simp only [be32, List.cons.injEq, ← UInt8.toNat_inj, u8_toNat_ofNat] at h1
  have b1 := u.toUInt32.toNat_lt
  have b2 := u'.toUInt32.toNat_lt
  omega

theorem bytesOf_inj {n a b : Nat} (ha : a < 256 ^ n) (hb : b < 256 ^ n) (h : bytesOf n a = bytesOf n b) : a = b := by
  induction n generalizing a b with
  | zero => simp at ha hb; omega
  | succ n ih =>
    rw [bytesOf_succ, bytesOf_succ] at h
    obtain ⟨h1, h2⟩ := List.append_inj' h rfl
    rw [Nat.pow_succ] at ha hb
    have h3 := ih (by omega) (by omega) h1
    simp only [List.cons.injEq, ← UInt8.toNat_inj, u8_toNat_ofNat, and_true] at h2
    omega

theorem nFoldValue_lt (v : Bytes) : nFoldValue v 16 < 256 ^ 16 := by
  unfold nFoldValue NFoldSpec.onesComplement
  split
  · decide
  · generalize ((List.range (Nat.lcm 16 v.length / 16)).map (NFoldSpec.piece v 16)).sum - 1 = s
    have e : (2 : Nat) ^ (8 * 16) - 1 = 340282366920938463463374607431768211455 := by decide
    have e' : (256 : Nat) ^ 16 = 340282366920938463463374607431768211456 := by decide
    rw [e, e']
    omega

/-- a keyed hash that shows its key (lawful: 16 bytes), to tell usages apart -/
def showingHash (k d : Bytes) : Bytes := (k.take 8 ++ d ++ List.replicate 16 0).take 16

theorem rc4_shows {u v : Int32} (h : rc4Encrypt { toyPrims with hmacMd5 := showingHash } [] u [] [] =
    rc4Encrypt { toyPrims with hmacMd5 := showingHash } [] v [] []) : u = v := by
  have key : ∀ w : Int32, ∃ r, rc4Encrypt { toyPrims with hmacMd5 := showingHash } [] w [] [] = .ok (usageLE w ++ r) := by
    intro w
    refine ⟨_, rfl⟩
  obtain ⟨r, e⟩ := key u
  obtain ⟨r', e'⟩ := key v
  rw [e, e'] at h
  injection h with h
  have h1 := (List.append_inj h rfl).1
  apply i32_toUInt32_inj
  rw [← UInt32.toNat_inj]
  unfold usageLE le32 at h1
  replace h1 := List.reverse_inj.mp h1
  simp only [be32] at h1
  simp only [List.cons.injEq, ← UInt8.toNat_inj, u8_toNat_ofNat] at h1
  have b1 := u.toUInt32.toNat_lt
  have b2 := v.toUInt32.toNat_lt
  omega

/-! ### C100 -/

/-- C100. n-fold of the 5-byte derivation constants (usage number and purpose) never maps two of them to the same block. -/
theorem c100_nfold (v v' : Bytes) (hv : v.length = 5) (hv' : v'.length = 5) (h : nFold v 16 = nFold v' 16) : v = v' := by
  have hne : ∀ {w : Bytes}, w.length = 5 → w ≠ [] := fun hw he => by subst he; cases hw
  obtain ⟨f, h1, -, h2⟩ := nFold_spec v 16 (hne hv) (by omega)
  obtain ⟨f', h1', -, h2'⟩ := nFold_spec v' 16 (hne hv') (by omega)
  rw [h1, h1'] at h
  injection h with h
  subst h
  exact NFoldCert.nFoldValue_injective hv hv' (h2.symm.trans h2')

/-- C100. Derivation as RFC 3961 defines it: under any block cipher key, two usages or two purposes (any byte) never have the
same derived key. -/
theorem c100_rfc (E : Bytes → Bytes) (hl : ∀ b, b.length = 16 → (E b).length = 16)
    (hinj : ∀ a b, a.length = 16 → b.length = 16 → E a = E b → a = b) (n : Nat) (hn : 16 ≤ n)
    (u u' : Int32) (b b' : UInt8) (h : DK E n (wellKnown u b) = DK E n (wellKnown u' b')) : u = u' ∧ b = b' := by
  have first : ∀ c, (DK E n c).take 16 = E (bytesOf 16 (nFoldValue c 16)) := by
    intro c
    obtain ⟨m, rfl⟩ : ∃ m, n = m + 1 := ⟨n - 1, by omega⟩
    unfold DK
    rw [List.take_take, Nat.min_eq_left hn, List.range_succ_eq_map, List.flatMap_cons]
    exact List.take_left' (hl _ (by simp [bytesOf]))
  have h1 := congrArg (List.take 16) h
  rw [first, first] at h1
  have h2 := hinj _ _ (by simp [bytesOf]) (by simp [bytesOf]) h1
  have h3 := bytesOf_inj (nFoldValue_lt _) (nFoldValue_lt _) h2
  exact wellKnown_inj (NFoldCert.nFoldValue_injective (by simp [wellKnown, bytesOf]) (by simp [wellKnown, bytesOf]) h3)

section
variable (P : Prims) (hP : P.Lawful) (sz : AesSizes) (key : Bytes) (hk : key.length = sz.keySize)

include hP hk in
theorem derived_inj {u u' : Int32} {b b' : UInt8}
    (h : DK (P.aesEnc sz key) sz.keySize (wellKnown u b) = DK (P.aesEnc sz key) sz.keySize (wellKnown u' b')) : u = u' ∧ b = b' := by
  have hp := hP.perm hk
  refine c100_rfc (P.aesEnc sz key) hp.el (fun a c ha hc he => ?_) sz.keySize (by cases sz <;> decide) u u' b b' h
  rw [← hp.de a ha, he, hp.de c hc]

include hP hk in
/-- C100. The derivation of the library: for every key of the right size, the derived keys are equal only for the same usage and
the same purpose. -/
theorem c100_derived (u u' : Int32) (b b' : UInt8) :
    dk P sz key (usageConst u b) = dk P sz key (usageConst u' b') ↔ u = u' ∧ b = b' := by
  constructor
  · intro h
    rw [c68_dk P hP sz key _ hk (usageConst_ne u b), c68_dk P hP sz key _ hk (usageConst_ne u' b'), wellKnown_eq, wellKnown_eq] at h
    injection h with h
    exact derived_inj P hP sz key hk h
  · rintro ⟨rfl, rfl⟩; rfl

include hP hk in
/-- C100. Messages encrypted for different usages, whatever their contents: four different keys are at work, one to
encrypt and one to authenticate each. -/
theorem c100_ciphertexts (u u' : Int32) (hu : u ≠ u') (plain plain' conf conf' ct ct' : Bytes) (hc : conf.length = 16)
    (hc' : conf'.length = 16) (h : (Cipher.aes sz).encrypt P key u plain conf = .ok ct)
    (h' : (Cipher.aes sz).encrypt P key u' plain' conf' = .ok ct') :
    ∃ ke ki ke' ki' c1 c1', [ke, ki, ke', ki'].Nodup ∧
      Cts (P.aesEnc sz ke) (conf ++ plain) c1 ∧ ct = c1 ++ (P.hmacSha1 ki (conf ++ plain)).take 12 ∧
      Cts (P.aesEnc sz ke') (conf' ++ plain') c1' ∧ ct' = c1' ++ (P.hmacSha1 ki' (conf' ++ plain')).take 12 := by
  obtain ⟨c1, h1, h2⟩ := (c68_aes_ciphertext P hP sz key hk u plain conf ct hc).1 h
  obtain ⟨c1', h1', h2'⟩ := (c68_aes_ciphertext P hP sz key hk u' plain' conf' ct' hc').1 h'
  have inj := fun {u u' : Int32} {b b' : UInt8} => derived_inj P hP sz key hk (u := u) (u' := u') (b := b) (b' := b')
  refine ⟨_, _, _, _, c1, c1', ?_, h1, h2, h1', h2'⟩
  simp only [List.nodup_cons, List.mem_cons, List.not_mem_nil, or_false, not_or, not_false_eq_true, List.nodup_nil, and_true]
  refine ⟨⟨fun h => ?_, fun h => ?_, fun h => ?_⟩, ⟨fun h => ?_, fun h => ?_⟩, fun h => ?_⟩
  · exact absurd (inj h).2 (by decide)
  · exact hu (inj h).1
  · exact hu (inj h).1
  · exact hu (inj h).1
  · exact hu (inj h).1
  · exact absurd (inj h).2 (by decide)

include hP hk in
/-- C100. Checksums have keys of their own: the key of a checksum is that of no other checksum usage and of no
encryption, not even with the same usage. -/
theorem c100_checksums (u : Int32) (msg : Bytes) :
    ∃ kc, checksumShaAes P sz key u msg = .ok ((P.hmacSha1 kc msg).take 12) ∧
      kc = DK (P.aesEnc sz key) sz.keySize (wellKnown u 0x99) ∧
      (∀ u', u' ≠ u → DK (P.aesEnc sz key) sz.keySize (wellKnown u' 0x99) ≠ kc) ∧
      ∀ u' ki ke, generateKiKe P sz key u' = .ok (ki, ke) → ki ≠ kc ∧ ke ≠ kc := by
  refine ⟨_, (c68_checksums P hP key u msg).1 sz hk, rfl, fun u' hu h => hu (derived_inj P hP sz key hk h).1, ?_⟩
  intro u' ki ke h
  unfold generateKiKe at h
  rw [c68_dk P hP sz key _ hk (usageConst_ne u' 0x55), c68_dk P hP sz key _ hk (usageConst_ne u' 0xaa), wellKnown_eq, wellKnown_eq] at h
  injection h with h
  injection h with h1 h2
  subst h1 h2
  exact ⟨fun h => absurd (derived_inj P hP sz key hk h).2 (by decide), fun h => absurd (derived_inj P hP sz key hk h).2 (by decide)⟩

end

/-- C100. With real AES nothing is assumed: for every key. -/
theorem c100_real (sz : AesSizes) (key : Bytes) (hk : key.length = sz.keySize) (u u' : Int32) (b b' : UInt8) :
    dk stdPrims sz key (usageConst u b) = dk stdPrims sz key (usageConst u' b') ↔ u = u' ∧ b = b' :=
  c100_derived stdPrims stdPrims_lawful sz key hk u u' b b'

/-- C100. RC4 is different, as RFC 4757 wants it: usages 3 and 8 are the same, whatever the algorithms, key and message; no
other two are. -/
theorem c100_rc4_shared (u v : Int32) :
    (∀ P key plain conf, Cipher.rc4.encrypt P key u plain conf = Cipher.rc4.encrypt P key v plain conf) ↔
      u = v ∨ (u = 3 ∧ v = 8) ∨ (u = 8 ∧ v = 3) := by
  constructor
  · intro h
    have h1 : rc4Usage u = rc4Usage v := rc4_shows (h { toyPrims with hmacMd5 := showingHash } [] [] [])
    unfold rc4Usage at h1
    split at h1 <;> split at h1 <;> simp_all
  · rintro (rfl | ⟨rfl, rfl⟩ | ⟨rfl, rfl⟩) <;> intros <;> rfl

/-! ### Examples -/

-- the only pair that n-fold tells apart by the choice of the representative alone
example : nFold [0, 0, 0, 0, 0] 16 = some (List.replicate 16 0) ∧ nFold [255, 255, 255, 255, 255] 16 = some (List.replicate 16 255) := by
  decide +kernel

-- n-fold is not injective in general: folding two bytes into one loses their order
example : nFold [1, 2] 1 = some [3] ∧ nFold [2, 1] 1 = some [3] := by decide +kernel

-- two ciphertexts as in `c100_ciphertexts`
example : ((Cipher.aes .aes256).encrypt toyPrims (List.replicate 32 7) 3 [1, 2, 3] (List.replicate 16 1)).toOption.isSome = true ∧
    ((Cipher.aes .aes256).encrypt toyPrims (List.replicate 32 7) 1 [1, 2, 3] (List.replicate 16 1)).toOption.isSome = true := by
  decide +kernel

end Verif.Crypto
