import Verif.CryptoModel
import Verif.NFoldLemmas
namespace Verif.Crypto

/-! ### xor -/

/-- pointwise xor, for proofs -/
def xr (a b : Bytes) : Bytes := List.zipWith (· ^^^ ·) a b

theorem xr_length (a b : Bytes) : (xr a b).length = min a.length b.length := by simp [xr]

theorem xorBytes_ok {a b : Bytes} (h : a.length ≤ b.length) : xorBytes a b = .ok (xr a b) := by
  simp [xorBytes, h, xr]

theorem u8_xor_cancel (a b : UInt8) : (a ^^^ b) ^^^ b = a := by
  rw [UInt8.xor_assoc, UInt8.xor_self, UInt8.xor_zero]

theorem xr_cancel {a b : Bytes} (h : a.length ≤ b.length) : xr (xr a b) b = a := by
  unfold xr
  induction a generalizing b with
  | nil => simp
  | cons x a ih =>
    cases b with
    | nil => simp at h
    | cons y b =>
      simp only [List.length_cons, Nat.add_le_add_iff_right] at h
      simp only [List.zipWith_cons_cons, u8_xor_cancel, ih h]

theorem xr_append {a a' b b' : Bytes} (h : a.length = b.length) : xr (a ++ a') (b ++ b') = xr a b ++ xr a' b' := by
  unfold xr; rw [List.zipWith_append h]

theorem xr_zero_left (b : Bytes) (n : Nat) (h : b.length = n) : xr (List.replicate n 0) b = b := by
  subst h
  unfold xr
  induction b with
  | nil => rfl
  | cons y b ih => simp only [List.length_cons, List.replicate_succ, List.zipWith_cons_cons, ih, UInt8.zero_xor]

theorem xr_zero_right (b : Bytes) (n : Nat) (h : b.length = n) : xr b (List.replicate n 0) = b := by
  subst h
  unfold xr
  induction b with
  | nil => rfl
  | cons y b ih => simp only [List.length_cons, List.replicate_succ, List.zipWith_cons_cons, ih, UInt8.xor_zero]

theorem xr_take (a b : Bytes) (n : Nat) : (xr a b).take n = xr (a.take n) (b.take n) := by
  unfold xr; rw [List.take_zipWith]

theorem xr_drop (a b : Bytes) (n : Nat) : (xr a b).drop n = xr (a.drop n) (b.drop n) := by
  unfold xr; rw [List.drop_zipWith]

/-! ### blocks -/

theorem cbc_nil (E : Bytes → Bytes) (prev : Bytes) : cbcBlocks E prev [] = [] := by
  unfold cbcBlocks; simp

theorem cbc_step (E : Bytes → Bytes) (prev a rest : Bytes) (ha : a.length = 16) :
    cbcBlocks E prev (a ++ rest) = E (xr a prev) ++ cbcBlocks E (E (xr a prev)) rest := by
  rw [cbcBlocks]
  have : ¬ (a ++ rest).length < 16 := by simp; omega
  rw [if_neg this]
  simp [← ha, xr]

theorem ecb_single (D : Bytes → Bytes) (b : Bytes) (hb : b.length = 16) : ecbBlocks D b = D b := by
  rw [ecbBlocks, if_neg (by omega)]
  have : b.drop 16 = [] := by simp [hb]
  have h2 : ecbBlocks D [] = [] := by rw [ecbBlocks]; simp
  rw [this, h2, List.append_nil, ← hb, List.take_length]

/-- last ciphertext block after CBC over whole blocks -/
def cbcLast (E : Bytes → Bytes) : Bytes → List Bytes → Bytes
  | prev, [] => prev
  | prev, b :: bs => cbcLast E (E (xr b prev)) bs

/-- CBC over a list of blocks -/
def cbcList (E : Bytes → Bytes) : Bytes → List Bytes → List Bytes
  | _, [] => []
  | prev, b :: bs => E (xr b prev) :: cbcList E (E (xr b prev)) bs

/-- a list of 16-byte blocks -/
def Blocks (bs : List Bytes) : Prop := ∀ b ∈ bs, b.length = 16

theorem Blocks.cons {b : Bytes} {bs} : Blocks (b :: bs) ↔ b.length = 16 ∧ Blocks bs := by simp [Blocks]

theorem Blocks.flatten_length {bs} (h : Blocks bs) : bs.flatten.length = 16 * bs.length := by
  induction bs with
  | nil => rfl
  | cons b bs ih =>
    rw [Blocks.cons] at h
    rw [List.flatten_cons, List.length_append, h.1, ih h.2, List.length_cons]; omega

/-- a keyed permutation of 16-byte blocks and its inverse -/
structure Perm (E D : Bytes → Bytes) : Prop where
  el : ∀ b, b.length = 16 → (E b).length = 16
  dl : ∀ b, b.length = 16 → (D b).length = 16
  de : ∀ b, b.length = 16 → D (E b) = b
  ed : ∀ b, b.length = 16 → E (D b) = b

theorem Prims.Lawful.perm {P : Prims} (hP : P.Lawful) {sz : AesSizes} {k : Bytes} (hk : k.length = sz.keySize) :
    Perm (P.aesEnc sz k) (P.aesDec sz k) :=
  ⟨fun b hb => hP.enc_length sz k b hk hb, fun b hb => hP.dec_length sz k b hk hb,
    fun b hb => hP.dec_enc sz k b hk hb, fun b hb => hP.enc_dec sz k b hk hb⟩

theorem xr16 {a b : Bytes} (ha : a.length = 16) (hb : b.length = 16) : (xr a b).length = 16 := by
  rw [xr_length]; omega

theorem cbcBlocks_append {E D : Bytes → Bytes} (h : Perm E D) (bs : List Bytes) :
    ∀ (prev rest : Bytes), Blocks bs → prev.length = 16 →
      cbcBlocks E prev (bs.flatten ++ rest) = (cbcList E prev bs).flatten ++ cbcBlocks E (cbcLast E prev bs) rest := by
  induction bs with
  | nil => intro prev rest _ _; rfl
  | cons b bs ih =>
    intro prev rest hb hp
    rw [Blocks.cons] at hb
    rw [List.flatten_cons, List.append_assoc, cbc_step E prev b _ hb.1,
      ih _ rest hb.2 (h.el _ (xr16 hb.1 hp))]
    simp [cbcList, cbcLast]

theorem cbcList_blocks {E D : Bytes → Bytes} (h : Perm E D) (bs : List Bytes) :
    ∀ prev, Blocks bs → prev.length = 16 → Blocks (cbcList E prev bs) := by
  induction bs with
  | nil => intro _ _ _; simp [cbcList, Blocks]
  | cons b bs ih =>
    intro prev hb hp
    rw [Blocks.cons] at hb
    have := h.el _ (xr16 hb.1 hp)
    rw [cbcList, Blocks.cons]
    exact ⟨this, ih _ hb.2 this⟩

theorem cbcList_length (E : Bytes → Bytes) (bs : List Bytes) :
    ∀ prev, (cbcList E prev bs).length = bs.length := by
  induction bs with
  | nil => intro _; rfl
  | cons b bs ih => intro prev; simp [cbcList, ih]

theorem cbcLast_length {E D : Bytes → Bytes} (h : Perm E D) (bs : List Bytes) :
    ∀ prev, Blocks bs → prev.length = 16 → (cbcLast E prev bs).length = 16 := by
  induction bs with
  | nil => intro prev _ hp; exact hp
  | cons b bs ih =>
    intro prev hb hp
    rw [Blocks.cons] at hb
    exact ih _ hb.2 (h.el _ (xr16 hb.1 hp))

theorem divideBlocks_append (bs : List Bytes) (hb : Blocks bs) (rest : Bytes) :
    divideBlocks (bs.flatten ++ rest) = bs ++ divideBlocks rest := by
  induction bs with
  | nil => rfl
  | cons b bs ih =>
    rw [Blocks.cons] at hb
    rw [divideBlocks, if_neg]
    · rw [List.flatten_cons, List.append_assoc]
      have h1 : (b ++ (bs.flatten ++ rest)).take 16 = b := by rw [← hb.1]; simp
      have h2 : (b ++ (bs.flatten ++ rest)).drop 16 = bs.flatten ++ rest := by rw [← hb.1]; simp
      rw [h1, h2, ih hb.2]; rfl
    · intro hnil
      have := congrArg List.length hnil
      simp [hb.1] at this

theorem divideBlocks_short {w : Bytes} (h0 : w ≠ []) (h : w.length ≤ 16) : divideBlocks w = [w] := by
  rw [divideBlocks, if_neg h0]
  have : w.drop 16 = [] := List.drop_eq_nil_of_le h
  rw [this, divideBlocks, if_pos rfl, List.take_of_length_le h]

/-- a byte string of more than 16 bytes is whole blocks, one more block, and 1–16 bytes -/
theorem split_cts (v : Bytes) (h : 16 < v.length) :
    ∃ bs a b, v = bs.flatten ++ (a ++ b) ∧ Blocks bs ∧ a.length = 16 ∧ 0 < b.length ∧ b.length ≤ 16 := by
  suffices H : ∀ n, ∀ v : Bytes, v.length ≤ n → 16 < v.length →
      ∃ bs a b, v = bs.flatten ++ (a ++ b) ∧ Blocks bs ∧ a.length = 16 ∧ 0 < b.length ∧ b.length ≤ 16 from
    H v.length v (Nat.le_refl _) h
  intro n
  induction n with
  | zero => intro v h1 h2; omega
  | succ n ih =>
    intro v h1 h2
    by_cases hs : v.length ≤ 32
    · refine ⟨[], v.take 16, v.drop 16, ?_, by simp [Blocks], ?_, ?_, ?_⟩
      · simp
      · simp; omega
      · simp; omega
      · simp; omega
    · obtain ⟨bs, a, b, hv, hb, ha, hb0, hb1⟩ := ih (v.drop 16) (by simp; omega) (by simp; omega)
      refine ⟨v.take 16 :: bs, a, b, ?_, ?_, ha, hb0, hb1⟩
      · rw [List.flatten_cons, List.append_assoc, ← hv, List.take_append_drop]
      · rw [Blocks.cons]; exact ⟨by simp; omega, hb⟩

theorem decryptAesEcb_block {P : Prims} {sz : AesSizes} {k b : Bytes} (hk : k.length = sz.keySize)
    (hb : b.length = 16) : decryptAesEcb P sz k b = .ok (P.aesDec sz k b) := by
  simp [decryptAesEcb, hk, hb, ecb_single _ b hb]

theorem encryptAesCbc_ok {P : Prims} {sz : AesSizes} {k pt : Bytes} (hk : k.length = sz.keySize)
    (hp : pt.length % 16 = 0) :
    encryptAesCbc P sz k pt = .ok (cbcBlocks (P.aesEnc sz k) (List.replicate 16 0) pt) := by
  simp [encryptAesCbc, hk, hp]

/-- inverse of `cbcList` -/
theorem decryptSeveral_cbc {P : Prims} (hP : P.Lawful) {sz : AesSizes} {k : Bytes} (hk : k.length = sz.keySize)
    (bs : List Bytes) : ∀ prev, Blocks bs → prev.length = 16 →
      decryptSeveral P sz k prev (cbcList (P.aesEnc sz k) prev bs)
        = .ok (bs.flatten, cbcLast (P.aesEnc sz k) prev bs) := by
  have h := hP.perm hk
  induction bs with
  | nil => intro prev _ _; rfl
  | cons b bs ih =>
    intro prev hb hp
    rw [Blocks.cons] at hb
    have h16 := h.el _ (xr16 hb.1 hp)
    rw [cbcList, decryptSeveral, decryptAesEcb_block hk h16, h.de _ (xr16 hb.1 hp)]
    simp only
    rw [xorBytes_ok (by rw [xr16 hb.1 hp, hp]; exact Nat.le_refl _), xr_cancel (by omega)]
    simp only
    rw [ih _ hb.2 h16]
    rfl

/-- every list of ciphertext blocks is the CBC encryption of what it decrypts to -/
theorem cbc_surj {E D : Bytes → Bytes} (h : Perm E D) (cs : List Bytes) : ∀ prev, Blocks cs → prev.length = 16 →
    ∃ bs, Blocks bs ∧ cbcList E prev bs = cs := by
  induction cs with
  | nil => intro prev _ _; exact ⟨[], by simp [Blocks], rfl⟩
  | cons c cs ih =>
    intro prev hc hp
    rw [Blocks.cons] at hc
    obtain ⟨bs, hb, hbs⟩ := ih c hc.2 hc.1
    have hd := h.dl c hc.1
    refine ⟨xr (D c) prev :: bs, ?_, ?_⟩
    · rw [Blocks.cons]; exact ⟨xr16 hd hp, hb⟩
    · have e : E (xr (xr (D c) prev) prev) = c := by rw [xr_cancel (by omega), h.ed c hc.1]
      rw [cbcList, e, hbs]

/-! ### basic encryption -/

/-- Explicit form of ciphertext stealing on whole blocks `bs`, a block `a` and a tail `b`. -/
theorem basicEncrypt_form {P : Prims} (hP : P.Lawful) {sz : AesSizes} {k : Bytes} (hk : k.length = sz.keySize)
    {bs : List Bytes} {a b : Bytes} (hb : Blocks bs) (ha : a.length = 16) (hb0 : 0 < b.length)
    (hb1 : b.length ≤ 16) :
    basicEncrypt P sz k (bs.flatten ++ (a ++ b)) =
      .ok ((cbcList (P.aesEnc sz k) (List.replicate 16 0) bs).flatten
        ++ (P.aesEnc sz k (xr (b ++ List.replicate (16 - b.length) 0)
              (P.aesEnc sz k (xr a (cbcLast (P.aesEnc sz k) (List.replicate 16 0) bs))))
        ++ (P.aesEnc sz k (xr a (cbcLast (P.aesEnc sz k) (List.replicate 16 0) bs))).take b.length)) := by
  have h := hP.perm hk
  generalize hE : P.aesEnc sz k = E at *
  generalize hz : (List.replicate 16 0 : Bytes) = iv
  have hiv : iv.length = 16 := by subst hz; rfl
  have hfl := hb.flatten_length
  have hl := cbcLast_length h bs iv hb hiv
  have hlen : (bs.flatten ++ (a ++ b)).length = 16 * bs.length + 16 + b.length := by simp [hfl, ha]; omega
  have hpad : (blockSize - (bs.flatten ++ (a ++ b)).length % blockSize) % blockSize = 16 - b.length := by
    rw [hlen]; simp only [blockSize]; omega
  unfold basicEncrypt
  simp only [hpad]
  rw [encryptAesCbc_ok hk (by simp only [List.length_append, List.length_replicate, hfl, ha]; omega)]
  rw [hE, hz]
  have hcbc : cbcBlocks E iv (bs.flatten ++ (a ++ b) ++ List.replicate (16 - b.length) 0)
      = (cbcList E iv bs).flatten ++ (E (xr a (cbcLast E iv bs))
          ++ E (xr (b ++ List.replicate (16 - b.length) 0) (E (xr a (cbcLast E iv bs))))) := by
    rw [List.append_assoc, cbcBlocks_append h bs iv _ hb hiv, List.append_assoc, cbc_step _ _ a _ ha]
    have : b ++ List.replicate (16 - b.length) 0 = (b ++ List.replicate (16 - b.length) 0) ++ [] := by simp
    rw [this, cbc_step _ _ _ [] (by simp; omega), cbc_nil]
    simp
  rw [hcbc]
  have hca : (E (xr a (cbcLast E iv bs))).length = 16 := h.el _ (xr16 ha hl)
  have hcb : (E (xr (b ++ List.replicate (16 - b.length) 0) (E (xr a (cbcLast E iv bs))))).length = 16 :=
    h.el _ (xr16 (by simp; omega) hca)
  generalize E (xr a (cbcLast E iv bs)) = Ca at *
  generalize E (xr (b ++ List.replicate (16 - b.length) 0) Ca) = Cb at *
  have hci := (cbcList_blocks h bs iv hb hiv).flatten_length
  rw [cbcList_length] at hci
  generalize (cbcList E iv bs).flatten = ci at *
  have hclen : (ci ++ (Ca ++ Cb)).length = ci.length + 32 := by simp [hca, hcb]
  simp only
  rw [if_neg (by rw [hclen]; simp only [blockSize]; omega)]
  have hstart : (if (ci ++ (Ca ++ Cb)).length > blockSize * 2 then (ci ++ (Ca ++ Cb)).length - blockSize * 2 else 0)
      = ci.length := by
    have hbs : blockSize = 16 := rfl
    rw [hclen, hbs]
    by_cases hz : ci.length + 32 > 16 * 2
    · rw [if_pos hz]; omega
    · rw [if_neg hz]; omega
  simp only [hstart]
  have e1 : (ci ++ (Ca ++ Cb)).take ci.length = ci := by simp
  have e2 : ((ci ++ (Ca ++ Cb)).drop ci.length).take blockSize = Ca := by
    simp [blockSize, ← hca]
  have e3 : (ci ++ (Ca ++ Cb)).drop (ci.length + blockSize) = Cb := by
    rw [← List.drop_drop]; simp [blockSize, ← hca]
  rw [e1, e2, e3]
  have e4 : blockSize - (16 - b.length) = b.length := by simp only [blockSize]; omega
  rw [e4, List.append_assoc]

theorem basicEncrypt_block {P : Prims} (hP : P.Lawful) {sz : AesSizes} {k a : Bytes} (hk : k.length = sz.keySize)
    (ha : a.length = 16) : basicEncrypt P sz k a = .ok (P.aesEnc sz k a) := by
  have h := hP.perm hk
  unfold basicEncrypt
  have hpad : (blockSize - a.length % blockSize) % blockSize = 0 := by rw [ha]; rfl
  simp only [hpad, List.replicate_zero, List.append_nil]
  rw [encryptAesCbc_ok hk (by omega)]
  have : cbcBlocks (P.aesEnc sz k) (List.replicate 16 0) a = P.aesEnc sz k a := by
    have e := cbc_step (P.aesEnc sz k) (List.replicate 16 0) a [] ha
    rw [List.append_nil] at e
    rw [e, cbc_nil, List.append_nil, xr_zero_right a 16 ha]
  rw [this]
  simp only
  rw [if_pos (by rw [h.el a ha]; exact Nat.le_refl _)]

/-- Explicit form of stolen-ciphertext decryption. -/
theorem basicDecrypt_form {P : Prims} (hP : P.Lawful) {sz : AesSizes} {k : Bytes} (hk : k.length = sz.keySize)
    {bs : List Bytes} {u w : Bytes} (hb : Blocks bs) (hu : u.length = 16) (hw0 : 0 < w.length)
    (hw1 : w.length ≤ 16) :
    basicDecrypt P sz k ((cbcList (P.aesEnc sz k) (List.replicate 16 0) bs).flatten ++ (u ++ w)) =
      .ok (bs.flatten ++
        (xr (P.aesDec sz k (w ++ (P.aesDec sz k u).drop w.length))
            (cbcLast (P.aesEnc sz k) (List.replicate 16 0) bs)
         ++ xr ((P.aesDec sz k u).take w.length) w)) := by
  have h := hP.perm hk
  have hiv : (List.replicate 16 (0 : UInt8)).length = 16 := rfl
  have hcb := cbcList_blocks h bs _ hb hiv
  have hcl := hcb.flatten_length
  have hwn : w ≠ [] := List.length_pos_iff.mp hw0
  have hlast := cbcLast_length h bs _ hb hiv
  unfold basicDecrypt
  rw [if_neg (by rw [List.length_append, List.length_append, hcl]; simp only [blockSize]; omega)]
  have hdiv : divideBlocks ((cbcList (P.aesEnc sz k) (List.replicate 16 0) bs).flatten ++ (u ++ w))
      = cbcList (P.aesEnc sz k) (List.replicate 16 0) bs ++ [u, w] := by
    rw [divideBlocks_append _ hcb]
    have : u ++ w = [u].flatten ++ w := by simp
    rw [this, divideBlocks_append [u] (by simp [Blocks, hu]), divideBlocks_short hwn hw1]
    rfl
  simp only [hdiv]
  rw [if_neg (by simp)]
  have hn : (cbcList (P.aesEnc sz k) (List.replicate 16 0) bs ++ [u, w]).length - 2
      = (cbcList (P.aesEnc sz k) (List.replicate 16 0) bs).length := by simp
  rw [hn, List.take_left', decryptSeveral_cbc hP hk bs _ hb hiv]
  · simp only [List.drop_left']
    have hd := h.dl u hu
    have hx : (w ++ (P.aesDec sz k u).drop w.length).length = 16 := by simp [hd]; omega
    unfold decryptLastTwo
    rw [decryptAesEcb_block hk hu]
    simp only
    rw [if_neg (by omega), xorBytes_ok (by simp; omega)]
    simp only
    rw [decryptAesEcb_block hk hx]
    simp only
    rw [xorBytes_ok (by rw [h.dl _ hx, hlast]; exact Nat.le_refl _)]
  · rfl

theorem basic_roundtrip {P : Prims} (hP : P.Lawful) {sz : AesSizes} {k : Bytes} (hk : k.length = sz.keySize)
    (p : Bytes) (hp : 16 ≤ p.length) :
    ∃ c, basicEncrypt P sz k p = .ok c ∧ c.length = p.length ∧ basicDecrypt P sz k c = .ok p := by
  have h := hP.perm hk
  by_cases h16 : p.length = 16
  · refine ⟨_, basicEncrypt_block hP hk h16, by rw [h.el p h16, h16], ?_⟩
    unfold basicDecrypt
    rw [if_pos (show _ = blockSize from h.el p h16), decryptAesEcb_block hk (h.el p h16), h.de p h16]
  · obtain ⟨bs, a, b, rfl, hb, ha, hb0, hb1⟩ := split_cts p (by omega)
    have hiv : (List.replicate 16 (0 : UInt8)).length = 16 := rfl
    have hcl := (cbcList_blocks h bs _ hb hiv).flatten_length
    rw [cbcList_length] at hcl
    have hlast := cbcLast_length h bs _ hb hiv
    have hca := h.el _ (xr16 ha hlast)
    have hpad : (b ++ List.replicate (16 - b.length) (0 : UInt8)).length = 16 := by simp; omega
    have hx := xr16 hpad hca
    have hcbl := h.el _ hx
    have htk : ((P.aesEnc sz k (xr a (cbcLast (P.aesEnc sz k) (List.replicate 16 0) bs))).take b.length).length
        = b.length := by rw [List.length_take]; omega
    refine ⟨_, basicEncrypt_form hP hk hb ha hb0 hb1, ?_, ?_⟩
    · simp only [List.length_append, hcl, hcbl, htk, hb.flatten_length, ha]
    · rw [basicDecrypt_form hP hk hb hcbl (by omega) (by omega), htk, h.de _ hx]
      generalize hA : P.aesEnc sz k (xr a (cbcLast (P.aesEnc sz k) (List.replicate 16 0) bs)) = Ca at *
      have hdrop : (xr (b ++ List.replicate (16 - b.length) 0) Ca).drop b.length = Ca.drop b.length := by
        rw [xr_drop]
        simp only [List.drop_left']
        exact xr_zero_left _ _ (by simp; omega)
      have htake : xr ((xr (b ++ List.replicate (16 - b.length) 0) Ca).take b.length) (Ca.take b.length) = b := by
        rw [xr_take]
        rw [List.take_append_of_le_length (Nat.le_refl _), List.take_length]
        exact xr_cancel (by rw [List.length_take]; omega)
      rw [hdrop, htake, List.take_append_drop, ← hA, h.de _ (xr16 ha hlast), xr_cancel (by omega)]

/-- Every string of at least 16 bytes is the basic encryption of what it decrypts to. -/
theorem basic_surj {P : Prims} (hP : P.Lawful) {sz : AesSizes} {k : Bytes} (hk : k.length = sz.keySize)
    (c : Bytes) (hc : 16 ≤ c.length) :
    ∃ p, p.length = c.length ∧ basicDecrypt P sz k c = .ok p ∧ basicEncrypt P sz k p = .ok c := by
  have h := hP.perm hk
  by_cases h16 : c.length = 16
  · refine ⟨P.aesDec sz k c, by rw [h.dl c h16, h16], ?_, ?_⟩
    · unfold basicDecrypt
      rw [if_pos (show _ = blockSize from h16), decryptAesEcb_block hk h16]
    · rw [basicEncrypt_block hP hk (h.dl c h16), h.ed c h16]
  · obtain ⟨cs, u, w, rfl, hcs, hu, hw0, hw1⟩ := split_cts c (by omega)
    have hiv : (List.replicate 16 (0 : UInt8)).length = 16 := rfl
    obtain ⟨bs, hb, rfl⟩ := cbc_surj h cs (List.replicate 16 0) hcs hiv
    have hlast := cbcLast_length h bs _ hb hiv
    have hd := h.dl u hu
    have hx : (w ++ (P.aesDec sz k u).drop w.length).length = 16 := by simp [hd]; omega
    have hdx := h.dl _ hx
    have ha := xr16 hdx hlast
    have hbl : (xr ((P.aesDec sz k u).take w.length) w).length = w.length := by
      rw [xr_length, List.length_take]; omega
    refine ⟨_, ?_, basicDecrypt_form hP hk hb hu hw0 hw1, ?_⟩
    · simp only [List.length_append, hcs.flatten_length, hb.flatten_length, ha, hbl, hu, cbcList_length]
    · rw [basicEncrypt_form hP hk hb ha (by omega) (by omega), hbl, xr_cancel (by omega), h.ed _ hx]
      have e1 : (w ++ (P.aesDec sz k u).drop w.length).take w.length = w := by simp
      have e2 : xr (xr ((P.aesDec sz k u).take w.length) w ++ List.replicate (16 - w.length) 0)
          (w ++ (P.aesDec sz k u).drop w.length) = P.aesDec sz k u := by
        rw [xr_append hbl, xr_cancel (by simp; omega), xr_zero_left _ _ (by simp; omega),
          List.take_append_drop]
      rw [e1, e2, h.ed u hu]

/-! ### key derivation -/

theorem dk_ok {P : Prims} (hP : P.Lawful) {sz : AesSizes} {k c : Bytes} (hk : k.length = sz.keySize)
    (hc : c ≠ []) : ∃ r, dk P sz k c = .ok r ∧ r.length = sz.keySize := by
  obtain ⟨f, hf, hfl, _⟩ := nFold_spec c 16 hc (by omega)
  have henc : ∀ x : Bytes, x.length = 16 →
      ∃ y, encryptAesCbc P sz k x = .ok y ∧ y.length = 16 := by
    intro x hx
    have e := cbc_step (P.aesEnc sz k) (List.replicate 16 0) x [] hx
    rw [List.append_nil, cbc_nil, List.append_nil] at e
    refine ⟨_, encryptAesCbc_ok hk (by omega), ?_⟩
    rw [e]
    exact (hP.perm hk).el _ (xr16 hx rfl)
  obtain ⟨y, hy, hyl⟩ := henc f hfl
  obtain ⟨z, hz, hzl⟩ := henc y hyl
  unfold dk
  simp only [blockSize, hf]
  cases sz with
  | aes128 =>
    refine ⟨y, ?_, hyl⟩
    show dkLoop P .aes128 k 16 f [] = _
    rw [dkLoop]
    simp only [AesSizes.seedSize, List.length_nil, hy]
    rw [if_pos (by omega), dkLoop]
    simp [AesSizes.seedSize, hyl]
  | aes256 =>
    refine ⟨y ++ z, ?_, by simp [hyl, hzl, AesSizes.keySize]⟩
    show dkLoop P .aes256 k 32 f [] = _
    rw [dkLoop]
    simp only [AesSizes.seedSize, List.length_nil, hy]
    rw [if_pos (by omega), dkLoop]
    simp only [AesSizes.seedSize, List.nil_append, hyl, hz]
    rw [if_pos (by omega), dkLoop]
    simp [AesSizes.seedSize, hyl, hzl]

theorem dk_panic {P : Prims} {sz : AesSizes} {k c : Bytes} (hk : k.length ≠ sz.keySize) :
    dk P sz k c = .error .panic := by
  unfold dk
  cases hf : nFold c blockSize with
  | none => rfl
  | some f =>
    simp only
    cases sz <;> simp [AesSizes.seedSize, dkLoop, encryptAesCbc, hk]

theorem usageConst_ne (u : Int32) (p : UInt8) : usageConst u p ≠ [] := by simp [usageConst]

theorem kike_ok {P : Prims} (hP : P.Lawful) {sz : AesSizes} {k : Bytes} (u : Int32) (hk : k.length = sz.keySize) :
    ∃ ki ke, generateKiKe P sz k u = .ok (ki, ke) ∧ dk P sz k (usageConst u 0x55) = .ok ki ∧
      dk P sz k (usageConst u 0xaa) = .ok ke ∧ ki.length = sz.keySize ∧ ke.length = sz.keySize := by
  obtain ⟨ki, h1, h2⟩ := dk_ok hP hk (usageConst_ne u 0x55)
  obtain ⟨ke, h3, h4⟩ := dk_ok hP hk (usageConst_ne u 0xaa)
  exact ⟨ki, ke, by simp [generateKiKe, h1, h3], h1, h3, h2, h4⟩

end Verif.Crypto
