import Verif.AesSpec
import Verif.Props.Std
/-
C69: the AES of `StdAes` is that of FIPS 197.
-/
namespace Verif.Fips197
open Verif.Std (sbox xtime mul3 addKey keyTemp expandKey roundKeys encRounds encBlock forall_u8 sixteen)

/-! ### Bytes -/

/-- b^254 -/
def inv (b : UInt8) : UInt8 :=
  let b2 := gmul b b
  let b4 := gmul b2 b2
  let b8 := gmul b4 b4
  let b16 := gmul b8 b8
  let b32 := gmul b16 b16
  let b64 := gmul b32 b32
  let b128 := gmul b64 b64
  gmul b2 (gmul b4 (gmul b8 (gmul b16 (gmul b32 (gmul b64 b128)))))

/-- the affine map holds for bit `k` -/
def affineAt (i s : UInt8) (k : Nat) : Bool :=
  bit s k == ((((bit i k ^^ bit i (k + 4)) ^^ bit i (k + 5)) ^^ bit i (k + 6)) ^^ bit i (k + 7) ^^ bit 0x63 k)

def subOk (b : UInt8) : Bool :=
  ((b == 0 && inv b == 0) || gmul b (inv b) == 1) && (List.range 8).all (affineAt (inv b) (sbox b))

theorem subOk_all : ∀ n, n < 256 → subOk (UInt8.ofNat n) = true := by decide +kernel

theorem sbox_isSub (b : UInt8) : IsSub b (sbox b) := by
  have h := forall_u8 (p := fun b => subOk b = true) subOk_all b
  unfold subOk at h
  rw [Bool.and_eq_true, Bool.or_eq_true, Bool.and_eq_true, List.all_eq_true] at h
  refine ⟨inv b, ?_, fun k hk => ?_⟩
  · rcases h.1 with ⟨h1, h2⟩ | h1
    · exact .inl ⟨eq_of_beq h1, eq_of_beq h2⟩
    · exact .inr (eq_of_beq h1)
  · exact eq_of_beq (h.2 k (List.mem_range.2 hk))

theorem gmul_all : ∀ n, n < 256 → gmul 1 (UInt8.ofNat n) = UInt8.ofNat n ∧ gmul 2 (UInt8.ofNat n) = xtime (UInt8.ofNat n) ∧
    gmul 3 (UInt8.ofNat n) = mul3 (UInt8.ofNat n) := by decide +kernel

theorem gmul_one (b : UInt8) : gmul 1 b = b := (forall_u8 (p := fun b => gmul 1 b = b ∧ gmul 2 b = xtime b ∧ gmul 3 b = mul3 b) gmul_all b).1
theorem gmul_two (b : UInt8) : gmul 2 b = xtime b := (forall_u8 (p := fun b => gmul 1 b = b ∧ gmul 2 b = xtime b ∧ gmul 3 b = mul3 b) gmul_all b).2.1
theorem gmul_three (b : UInt8) : gmul 3 b = mul3 b := (forall_u8 (p := fun b => gmul 1 b = b ∧ gmul 2 b = xtime b ∧ gmul 3 b = mul3 b) gmul_all b).2.2

theorem rcon_xpow : ∀ n, n < 10 → Std.rcon (n + 1) = xpow n := by decide +kernel

/-! ### The key schedule -/

theorem expand_inv (nk : Nat) (hn : 0 < nk) (n : Nat) : ∀ (i : Nat) (ws : List Bytes), ws.length = i → nk ≤ i →
    ∃ new : List Bytes, (expandKey nk n i ws).reverse = ws.reverse ++ new ∧ new.length = n ∧
      ∀ j, i ≤ j → j < i + n → (ws.reverse ++ new).getD j [] =
        addKey ((ws.reverse ++ new).getD (j - nk) []) (keyTemp nk j ((ws.reverse ++ new).getD (j - 1) [])) := by
  induction n with
  | zero => intro i ws _ _; exact ⟨[], by simp [expandKey], rfl, fun j h1 h2 => by omega⟩
  | succ n ih =>
    intro i ws hl hi
    simp only [expandKey]
    generalize hw : addKey (ws.getD (nk - 1) []) (keyTemp nk i (ws.headD [])) = w
    obtain ⟨new, h1, h2, h3⟩ := ih (i + 1) (w :: ws) (by simp [hl]) (by omega)
    rw [List.reverse_cons, List.append_assoc] at h1 h3
    refine ⟨[w] ++ new, h1, by simp [h2], fun j hj1 hj2 => ?_⟩
    by_cases hj : j = i
    · subst hj
      have e1 : (ws.reverse ++ ([w] ++ new)).getD j [] = w := by
        simp [List.getD_eq_getElem?_getD, hl]
      have e2 : ∀ k, k < j → (ws.reverse ++ ([w] ++ new)).getD k [] = ws.getD (j - 1 - k) [] := by
        intro k hk
        simp only [List.getD_eq_getElem?_getD]
        rw [List.getElem?_append_left (by simp [hl, hk])]
        rw [List.getElem?_reverse (by omega), hl]
      rw [e1, e2 (j - nk) (by omega), e2 (j - 1) (by omega), ← hw]
      have e3 : j - 1 - (j - nk) = nk - 1 := by omega
      have e4 : j - 1 - (j - 1) = 0 := by omega
      rw [e3, e4]
      cases ws with
      | nil => simp at hl; omega
      | cons a ws => rfl
    · exact h3 j (by omega) (by omega)

theorem flatten_getD : ∀ (ws : List Bytes), (∀ w ∈ ws, w.length = 4) → ∀ a r, r < 4 → a < ws.length →
    ws.flatten.getD (4 * a + r) 0 = (ws.getD a []).getD r 0
  | [], _, a, r, _, h => by simp at h
  | w :: ws, hw, a, r, hr, h => by
    have h4 := hw w List.mem_cons_self
    simp only [List.flatten_cons, List.getD_eq_getElem?_getD]
    cases a with
    | zero =>
      rw [List.getElem?_append_left (by omega)]
      simp
    | succ a =>
      rw [List.getElem?_append_right (by omega), h4]
      have := flatten_getD ws (fun w h => hw w (List.mem_cons_of_mem _ h)) a r hr (by simpa using h)
      simp only [List.getD_eq_getElem?_getD] at this
      rw [show 4 * (a + 1) + r - 4 = 4 * a + r by omega, this]
      simp

/-- the words of the model's key schedule -/
def words (nk nr : Nat) (key : Bytes) : List Bytes :=
  (expandKey nk (4 * (nr + 1) - nk) nk ((List.range nk).map fun i => (key.drop (4 * i)).take 4).reverse).reverse

theorem zip_getD (a b : Bytes) (r : Nat) (ha : r < a.length) (hb : r < b.length) :
    (addKey a b).getD r 0 = a.getD r 0 ^^^ b.getD r 0 := by
  simp [addKey, List.getD_eq_getElem?_getD, List.getElem?_zipWith, ha, hb]

theorem words_spec (nk nr : Nat) (hn : 0 < nk) (hr : nk ≤ 4 * (nr + 1)) (key : Bytes) (hk : key.length = 4 * nk) :
    (words nk nr key).length = 4 * (nr + 1) ∧ (∀ w ∈ words nk nr key, w.length = 4) ∧
    (∀ i, i < nk → (words nk nr key).getD i [] = (key.drop (4 * i)).take 4) ∧
    ∀ j, nk ≤ j → j < 4 * (nr + 1) → (words nk nr key).getD j [] =
        addKey ((words nk nr key).getD (j - nk) []) (keyTemp nk j ((words nk nr key).getD (j - 1) [])) := by
  unfold words
  generalize hf : (List.range nk).map (fun i => (key.drop (4 * i)).take 4) = first
  have hl : first.length = nk := by rw [← hf]; simp
  have h4 : ∀ w ∈ first.reverse, w.length = 4 := by
    intro w hw
    rw [List.mem_reverse, ← hf, List.mem_map] at hw
    obtain ⟨i, hi, rfl⟩ := hw
    rw [List.mem_range] at hi
    rw [List.length_take, List.length_drop]
    omega
  obtain ⟨new, h1, h2, h3⟩ := expand_inv nk hn (4 * (nr + 1) - nk) nk first.reverse (by simp [hl]) (Nat.le_refl _)
  have h5 := Std.expandKey_spec nk hn (4 * (nr + 1) - nk) nk first.reverse
  rw [List.reverse_reverse] at h1 h3
  refine ⟨?_, ?_, ?_, ?_⟩
  · rw [h1, List.length_append, hl, h2]; omega
  · intro w hw
    rw [List.mem_reverse] at hw
    exact (h5 (by simp [hl]) h4).2 w hw
  · intro i hi
    rw [h1]
    simp only [List.getD_eq_getElem?_getD]
    rw [List.getElem?_append_left (by omega), ← hf]
    simp [hi]
  · intro j hj1 hj2
    rw [h1]
    exact h3 j hj1 (by omega)

theorem keyTemp_getD (nk i : Nat) (hnk : 0 < nk) (hi : nk ≤ i) (hq : i / nk ≤ 10) (w : Bytes) (hw : w.length = 4) (r : Nat) (hr : r < 4) :
    (keyTemp nk i w).getD r 0 =
      (if i % nk = 0 then sbox (w.getD ((r + 1) % 4) 0) ^^^ (if r = 0 then xpow (i / nk - 1) else 0)
       else if 6 < nk ∧ i % nk = 4 then sbox (w.getD r 0)
       else w.getD r 0) := by
  have hx : Std.rcon (i / nk) = xpow (i / nk - 1) := by
    have h1 : 1 ≤ i / nk := (Nat.le_div_iff_mul_le hnk).2 (by omega)
    have := rcon_xpow (i / nk - 1) (by omega)
    rwa [show i / nk - 1 + 1 = i / nk by omega] at this
  unfold keyTemp
  match w, hw with
  | [a, b, c, d], _ =>
    split
    · rw [hx]
      generalize xpow (i / nk - 1) = x
      match r, hr with
      | 0, _ => rfl
      | 1, _ => simp [Std.rotWord, addKey]
      | 2, _ => simp [Std.rotWord, addKey]
      | 3, _ => simp [Std.rotWord, addKey]
    · split
      · match r, hr with
        | 0, _ => rfl
        | 1, _ => rfl
        | 2, _ => rfl
        | 3, _ => rfl
      · rfl

theorem getD_length {ws : List Bytes} (h : ∀ w ∈ ws, w.length = 4) {i : Nat} (hi : i < ws.length) : (ws.getD i []).length = 4 := by
  rw [List.getD_eq_getElem?_getD, List.getElem?_eq_getElem hi]
  exact h _ (List.getElem_mem ..)

/-- the words of the model's key schedule are those of the standard -/
theorem words_schedule (nk nr : Nat) (hn : 0 < nk) (hr : nk ≤ 4 * (nr + 1)) (hq : 4 * (nr + 1) ≤ 11 * nk) (key : Bytes)
    (hk : key.length = 4 * nk) :
    KeySchedule sbox nk (4 * (nr + 1)) key (fun i r => ((words nk nr key).getD i []).getD r 0) := by
  obtain ⟨h1, h2, h3, h4⟩ := words_spec nk nr hn hr key hk
  refine ⟨fun i hi r hr' => ?_, fun i hi hc r hr' => ?_⟩
  · dsimp only
    rw [h3 i hi]
    simp [List.getD_eq_getElem?_getD, hr']
  · dsimp only
    have hl : i / nk ≤ 10 := by
      have : i / nk < 11 := (Nat.div_lt_iff_lt_mul hn).2 (by omega)
      omega
    have l1 := getD_length h2 (i := i - nk) (by omega)
    have l2 := getD_length h2 (i := i - 1) (by omega)
    rw [h4 i hi hc, zip_getD _ _ _ (by omega) (by rw [Std.keyTemp_length nk i l2]; exact hr'),
      keyTemp_getD nk i hn hi hl _ l2 r hr']

/-! ### The rounds -/

/-- equal as far as rows and columns go -/
def Same (s t : State) : Prop := ∀ r c, r < 4 → c < 4 → s r c = t r c

theorem sub_same (s : Bytes) (hs : s.length = 16) {t : State} (h : Same (toState s) t) : Same (toState (s.map sbox)) (subBytes sbox t) := by
  intro r c hr hc
  have := h r c hr hc
  unfold toState at this
  unfold toState subBytes
  rw [← this]
  simp only [List.getD_eq_getElem?_getD]
  rw [List.getElem?_map, List.getElem?_eq_getElem (by omega)]
  rfl

theorem cases_four {r : Nat} (h : r < 4) : r = 0 ∨ r = 1 ∨ r = 2 ∨ r = 3 := by omega

theorem shift_same (s : Bytes) (hs : s.length = 16) {t : State} (h : Same (toState s) t) : Same (toState (Std.shiftRows s)) (shiftRows t) := by
  intro r c hr hc
  have := h r ((c + r) % 4) hr (by omega)
  unfold shiftRows
  rw [← this]
  unfold toState
  obtain ⟨a, b, c', d, e, f, g, i, j, k, l, m, n, o, p, q, rfl⟩ := sixteen s hs
  rcases cases_four hr with rfl | rfl | rfl | rfl <;> rcases cases_four hc with rfl | rfl | rfl | rfl <;> rfl

theorem mix_same (s : Bytes) (hs : s.length = 16) {t : State} (h : Same (toState s) t) : Same (toState (Std.mixColumns s)) (mixColumns t) := by
  intro r c hr hc
  have h0 := h 0 c (by omega) hc
  have h1 := h 1 c (by omega) hc
  have h2 := h 2 c (by omega) hc
  have h3 := h 3 c (by omega) hc
  unfold mixColumns
  rw [← h0, ← h1, ← h2, ← h3]
  unfold toState
  obtain ⟨a, b, c', d, e, f, g, i, j, k, l, m, n, o, p, q, rfl⟩ := sixteen s hs
  rcases cases_four hr with rfl | rfl | rfl | rfl <;> rcases cases_four hc with rfl | rfl | rfl | rfl <;>
    simp [mixCoeff, Std.mixColumns, gmul_one, gmul_two, gmul_three]

theorem add_same (s k : Bytes) (hs : s.length = 16) (hk : k.length = 16) {t : State} (h : Same (toState s) t) {w : Nat → Word} {n : Nat}
    (hw : ∀ r c, r < 4 → c < 4 → k.getD (r + 4 * c) 0 = w (4 * n + c) r) : Same (toState (addKey s k)) (addRoundKey w n t) := by
  intro r c hr hc
  have := h r c hr hc
  unfold addRoundKey
  rw [← this, ← hw r c hr hc]
  exact zip_getD s k _ (by omega) (by omega)

theorem rounds_same {w : Nat → Word} {input : State} (ks : List Bytes) (hk : ∀ k ∈ ks, k.length = 16) :
    ∀ (n : Nat) (s : Bytes), s.length = 16 → ks ≠ [] → Same (toState s) (rounds sbox w input n) →
      (∀ i, i < ks.length → ∀ r c, r < 4 → c < 4 → (ks.getD i []).getD (r + 4 * c) 0 = w (4 * (n + 1 + i) + c) r) →
      (encRounds ks s).length = 16 ∧ Same (toState (encRounds ks s)) (cipher sbox w (n + ks.length) input) := by
  induction ks with
  | nil => intro n s _ h; exact absurd rfl h
  | cons k ks ih =>
    intro n s hs _ hS hw
    have k16 := hk k List.mem_cons_self
    have w0 := hw 0 (by simp)
    have a1 := sub_same s hs hS
    have l1 : (s.map sbox).length = 16 := by rw [List.length_map, hs]
    have a2 := shift_same _ l1 a1
    have l2 := Std.shiftRows_length (s.map sbox)
    cases ks with
    | nil =>
      refine ⟨Std.addKey_length l2 k16, ?_⟩
      exact add_same _ k l2 k16 a2 (n := n + 1) w0
    | cons k' ks =>
      have l3 := (Std.mixColumns_spec 4 _ l2).1
      have a3 := mix_same _ l2 a2
      have a4 := add_same _ k l3 k16 a3 (n := n + 1) (w := w) w0
      have := ih (fun k h => hk k (List.mem_cons_of_mem _ h)) (n + 1) (addKey (Std.mixColumns (Std.shiftRows (s.map sbox))) k)
        (Std.addKey_length l3 k16) (by simp) a4 (fun i hi r c hr hc => by
          have := hw (i + 1) (by rw [List.length_cons]; omega) r c hr hc
          rw [show 4 * (n + 1 + 1 + i) + c = 4 * (n + 1 + (i + 1)) + c by omega]
          exact this)
      rw [show n + (k :: k' :: ks).length = n + 1 + (k' :: ks).length by simp only [List.length_cons]; omega]
      exact this

theorem block_same (nk nr : Nat) (hn : 0 < nk) (hr : nk ≤ 4 * (nr + 1)) (h0 : 0 < nr) (hq : 4 * (nr + 1) ≤ 11 * nk) (key block : Bytes)
    (hk : key.length = 4 * nk) (hb : block.length = 16) : IsEncryption nk nr key block (encBlock (roundKeys nk nr key) block) := by
  obtain ⟨h1, h2, h3, h4⟩ := words_spec nk nr hn hr key hk
  have hrk : ∀ i, i < nr + 1 → ∀ r c, r < 4 → c < 4 → ((roundKeys nk nr key).getD i []).getD (r + 4 * c) 0 =
      ((words nk nr key).getD (4 * i + c) []).getD r 0 := by
    intro i hi r c hr' hc
    rw [← flatten_getD _ h2 (4 * i + c) r hr' (by omega)]
    show ((((List.range (nr + 1)).map fun i => ((words nk nr key).flatten.drop (16 * i)).take 16)).getD i []).getD (r + 4 * c) 0 = _
    simp only [List.getD_eq_getElem?_getD]
    rw [List.getElem?_map, List.getElem?_range hi]
    simp only [Option.map_some, Option.getD_some]
    rw [List.getElem?_take, if_pos (by omega), List.getElem?_drop, show 16 * i + (r + 4 * c) = 4 * (4 * i + c) + r by omega]
  obtain ⟨r1, r2⟩ := Std.roundKeys_spec nk nr hn hr key hk
  refine ⟨sbox, fun i r => ((words nk nr key).getD i []).getD r 0, sbox_isSub, words_schedule nk nr hn hr hq key hk, ?_⟩
  revert hrk r1 r2
  generalize roundKeys nk nr key = rk
  intro hrk r1 r2
  cases rk with
  | nil => simp at r1
  | cons k ks =>
    have hl : ks.length = nr := by simpa using r1
    have k16 := r2 k List.mem_cons_self
    have s0 := add_same block k hb k16 (fun _ _ _ _ => rfl) (n := 0) (w := fun i r => ((words nk nr key).getD i []).getD r 0)
      (fun r c hr' hc => hrk 0 (by omega) r c hr' hc)
    have := rounds_same (input := toState block) ks (fun k h => r2 k (List.mem_cons_of_mem _ h)) 0 (addKey block k)
      (Std.addKey_length hb k16) (by intro h; rw [h] at hl; simp at hl; omega) s0 (fun i hi r c hr' hc => by
        have := hrk (i + 1) (by omega) r c hr' hc
        rw [show 0 + 1 + i = i + 1 by omega]
        exact this)
    rw [Nat.zero_add, hl] at this
    exact this

end Verif.Fips197

namespace Verif.Crypto
open Verif.Fips197

/-- C69. AES is that of FIPS 197: the S-box is inversion and an affine map, the columns are multiplied by a polynomial, the round
constants are powers of x; ten rounds for 16-byte keys, fourteen for 32-byte keys. For every key and block. -/
theorem c69_fips197 (key block : Bytes) (hb : block.length = 16) :
    (key.length = 16 → IsEncryption 4 10 key block (stdPrims.aesEnc .aes128 key block)) ∧
    (key.length = 32 → IsEncryption 8 14 key block (stdPrims.aesEnc .aes256 key block)) :=
  ⟨fun hk => block_same 4 10 (by omega) (by omega) (by omega) (by omega) key block (by omega) hb,
   fun hk => block_same 8 14 (by omega) (by omega) (by omega) (by omega) key block (by omega) hb⟩

/-- C69. What AES decrypts to is what the standard encrypts to the ciphertext. -/
theorem c69_fips197_decrypt (key block : Bytes) (hb : block.length = 16) :
    (key.length = 16 → IsEncryption 4 10 key (stdPrims.aesDec .aes128 key block) block) ∧
    (key.length = 32 → IsEncryption 8 14 key (stdPrims.aesDec .aes256 key block) block) := by
  refine ⟨fun hk => ?_, fun hk => ?_⟩
  · have h := (c69_aes .aes128 key block hk hb).2.1
    have hl := stdPrims_lawful.dec_length .aes128 key block hk hb
    have := (c69_fips197 key _ hl).1 hk
    rwa [h] at this
  · have h := (c69_aes .aes256 key block hk hb).2.1
    have hl := stdPrims_lawful.dec_length .aes256 key block hk hb
    have := (c69_fips197 key _ hl).2 hk
    rwa [h] at this

/-- the S-box of the specification at two places of the standard (5.1.1: 0x53 goes to 0xed) -/
example : gmul 0x57 0x83 = 0xc1 ∧ gmul 0x57 0x13 = 0xfe ∧ gmul 0x53 0xca = 1 ∧ Std.sbox 0x53 = 0xed ∧ xpow 9 = 0x36 := by decide +kernel

end Verif.Crypto
