import Verif.LoadModel
import Verif.Props.CCache
import Verif.Props.Keytab
/-
Property theorems C101: memory for loading a cache or keytab is bounded by the size of the file.
-/
namespace Verif

/-! ### Lemmas -/

/-- the metered parser is the parser, with a number -/
def Erases {α} (m : Metered α) (p : Parser α) : Prop := ∀ i, (m i).1 = p i

/-- at most `K` bytes of memory for a byte read, `F` more on failure; at least `m` bytes are read -/
def Costs {α} (K F m : Nat) (p : Metered α) : Prop := ∀ i,
  match p i with
  | (.ok (_, r), c) => r.length + m ≤ i.length ∧ c + K * r.length ≤ K * i.length
  | (.error _, c) => c ≤ K * i.length + F

theorem Metered.bind_def {α β} (p : Metered α) (f : α → Metered β) : (p >>= f) = Metered.bind p f := rfl
theorem Metered.pure_def {α} (a : α) : (Pure.pure a : Metered α) = Metered.pure a := rfl

theorem Metered.step {α β} {p : Metered α} {f : α → Metered β} {i r : Bytes} {a : α} (h : p i = (.ok (a, r), 0)) :
    (p >>= f) i = f a r := by
  rw [Metered.bind_def, Metered.bind, h]
  dsimp only
  rw [Nat.zero_add]

theorem Metered.fail {α β} {p : Metered α} {f : α → Metered β} {i : Bytes} {e : PErr} {c : Nat} (h : p i = (.error e, c)) :
    (p >>= f) i = (.error e, c) := by
  rw [Metered.bind_def, Metered.bind, h]

theorem Erases.bind {α β} {m : Metered α} {p : Parser α} {f : α → Metered β} {q : α → Parser β} (h : Erases m p)
    (hf : ∀ a, Erases (f a) (q a)) : Erases (m >>= f) (p >>= q) := by
  intro i
  have h1 := h i
  rw [Metered.bind_def, bind_def, Metered.bind, ← h1]
  rcases m i with ⟨(e | ⟨a, r⟩), c⟩
  · rfl
  · exact hf a r

theorem Erases.pure {α} (a : α) : Erases (Pure.pure a) (Pure.pure a : Parser α) := fun _ => rfl
theorem Erases.free {α} (p : Parser α) : Erases (free p) p := fun _ => rfl
theorem Erases.copied (p : Parser Bytes) : Erases (copied p) p := by
  intro i; unfold Verif.copied; rcases p i with (e | ⟨a, r⟩) <;> rfl

theorem Erases.manyLoop {α} {m : Metered α} {p : Parser α} (h : Erases m p) (size n : Nat) :
    ∀ len cap, Erases (manyLoop m size n len cap) (manyN p n) := by
  induction n with
  | zero => intro _ _ i; rfl
  | succ n ih =>
    intro len cap i
    have h1 := h i
    simp only [Verif.manyLoop, manyN]
    rw [← h1]
    rcases m i with ⟨(e | ⟨a, r⟩), c⟩
    · rfl
    · dsimp only
      split
      · rfl
      · have h2 := ih (len + 1) (grown len cap) r
        rw [← h2]
        rcases Verif.manyLoop m size n (len + 1) (grown len cap) r with ⟨(e | ⟨as, r'⟩), c'⟩ <;> rfl

theorem Erases.manyN {α} {m : Metered α} {p : Parser α} (h : Erases m p) (limit : Option Nat) (size n : Nat) :
    Erases (metManyN limit size m n) (manyN p n) := fun i => Erases.manyLoop h size n _ _ i

theorem Erases.met0Loop {α} {m : Metered α} {p : Parser α} (h : Erases m p) (size n : Nat) :
    ∀ len cap, Erases (met0Loop m size n len cap) (many0Fuel p n) := by
  induction n with
  | zero => intro _ _ i; rfl
  | succ n ih =>
    intro len cap i
    have h1 := h i
    simp only [Verif.met0Loop, many0Fuel]
    rw [← h1]
    rcases m i with ⟨(e | ⟨a, r⟩), c⟩
    · cases e <;> rfl
    · dsimp only
      split
      · rfl
      · have h2 := ih (len + 1) (grown len cap) r
        rw [← h2]
        rcases Verif.met0Loop m size n (len + 1) (grown len cap) r with ⟨(e | ⟨as, r'⟩), c'⟩ <;> rfl

theorem Erases.many0 {α} {m : Metered α} {p : Parser α} (h : Erases m p) (size : Nat) :
    Erases (metMany0 size m) (many0 p) := fun i => Erases.met0Loop h size _ _ _ i

theorem Costs.mono {α} {K K' F F' m m' : Nat} {p : Metered α} (h : Costs K F m p) (hK : K ≤ K') (hF : F ≤ F') (hm : m' ≤ m) :
    Costs K' F' m' p := by
  intro i
  have h1 := h i
  generalize p i = x at h1 ⊢
  rcases x with ⟨(e | ⟨a, r⟩), c⟩
  · dsimp only at h1 ⊢
    have := Nat.mul_le_mul_right i.length hK
    omega
  · dsimp only at h1 ⊢
    refine ⟨by omega, ?_⟩
    obtain ⟨k, rfl⟩ : ∃ k, K' = K + k := ⟨K' - K, by omega⟩
    have : k * r.length ≤ k * i.length := Nat.mul_le_mul_left k (by omega)
    rw [Nat.add_mul, Nat.add_mul]
    omega

theorem Costs.bind {α β} {K F m m' : Nat} {p : Metered α} {f : α → Metered β} (h : Costs K F m p) (hf : ∀ a, Costs K F m' (f a)) :
    Costs K F (m + m') (p >>= f) := by
  intro i
  have h1 := h i
  rw [Metered.bind_def, Metered.bind]
  generalize p i = x at h1 ⊢
  rcases x with ⟨(e | ⟨a, r⟩), c⟩
  · exact h1
  · dsimp only at h1 ⊢
    have h2 := hf a r
    generalize f a r = x at h2 ⊢
    rcases x with ⟨(e | ⟨b, r'⟩), c'⟩
    · dsimp only at h2 ⊢
      omega
    · dsimp only at h2 ⊢
      omega

theorem Costs.pure {α} (K F : Nat) (a : α) : Costs K F 0 (Pure.pure a) := by
  intro i; exact ⟨by omega, by simp⟩

/-- a parser without memory that reads at least `m` bytes -/
theorem Costs.free {α} {K F m : Nat} {p : Parser α} (h : ∀ i a r, p i = .ok (a, r) → r.length + m ≤ i.length) :
    Costs K F m (free p) := by
  intro i
  unfold Verif.free
  have h1 := h i
  generalize p i = x at h1 ⊢
  rcases x with (e | ⟨a, r⟩)
  · exact Nat.zero_le _
  · have h2 := h1 a r rfl
    refine ⟨h2, ?_⟩
    have : K * r.length ≤ K * i.length := Nat.mul_le_mul_left K (by omega)
    omega

theorem Costs.copied {K F m : Nat} {p : Parser Bytes} (hK : 1 ≤ K) (h : ∀ i a r, p i = .ok (a, r) → r.length + m + a.length ≤ i.length) :
    Costs K F m (copied p) := by
  intro i
  unfold Verif.copied
  have h1 := h i
  generalize p i = x at h1 ⊢
  rcases x with (e | ⟨a, r⟩)
  · exact Nat.zero_le _
  · have h2 := h1 a r rfl
    dsimp only
    refine ⟨by omega, ?_⟩
    obtain ⟨d, e⟩ : ∃ d, i.length = r.length + d := ⟨i.length - r.length, by omega⟩
    rw [e, Nat.mul_add]
    have : 1 * d ≤ K * d := Nat.mul_le_mul_right d hK
    omega

/-- pays for the next growth of a vector -/
def credit (len cap : Nat) : Nat := 4 * len - 2 * cap

theorem growth_credit (size len cap : Nat) :
    growth size len cap + size * credit (len + 1) (grown len cap) ≤ size * 4 + size * credit len cap := by
  unfold growth grown credit
  split
  · rw [← Nat.mul_add, ← Nat.mul_add]
    exact Nat.mul_le_mul_left _ (by omega)
  · rw [Nat.zero_add, ← Nat.mul_add]
    exact Nat.mul_le_mul_left _ (by omega)

theorem Costs.manyLoop {α} {K G F m size : Nat} {p : Metered α} (h : Costs K F m p) (hG : 4 * size ≤ G * m) (n : Nat) :
    ∀ len cap i, match Verif.manyLoop p size n len cap i with
      | (.ok (_, r), c) => r.length + n * m ≤ i.length ∧ c + (K + G) * r.length ≤ (K + G) * i.length + size * credit len cap
      | (.error _, c) => c ≤ (K + G) * i.length + F + size * credit len cap := by
  induction n with
  | zero =>
    intro len cap i
    simp only [Verif.manyLoop]
    exact ⟨by omega, by omega⟩
  | succ n ih =>
    intro len cap i
    have h1 := h i
    simp only [Verif.manyLoop]
    generalize p i = x at h1 ⊢
    rcases x with ⟨(e | ⟨a, r⟩), c⟩
    · dsimp only at h1 ⊢
      rw [Nat.add_mul]
      omega
    · dsimp only at h1 ⊢
      by_cases hl : r.length = i.length
      · rw [if_pos hl]
        dsimp only
        rw [Nat.add_mul]
        rw [hl] at h1
        omega
      · rw [if_neg hl]
        have h2 := ih (len + 1) (grown len cap) r
        have h3 := growth_credit size len cap
        have h4 : G * r.length + G * m ≤ G * i.length := by rw [← Nat.mul_add]; exact Nat.mul_le_mul_left G h1.1
        generalize size * credit len cap = φ at *
        generalize size * credit (len + 1) (grown len cap) = φ' at *
        generalize Verif.manyLoop p size n (len + 1) (grown len cap) r = x at h2 ⊢
        rcases x with ⟨(e | ⟨as, r'⟩), c'⟩
        · dsimp only at h2 ⊢
          rw [Nat.add_mul] at h2 ⊢
          omega
        · dsimp only at h2 ⊢
          simp only [Nat.add_mul, Nat.one_mul] at h2 ⊢
          omega

/-- room reserved at the start, on failure -/
theorem startCapacity_le (limit : Option Nat) (size n : Nat) : startCapacity limit size n ≤ n := by
  unfold startCapacity; split <;> omega

theorem startCapacity_limit (l size n : Nat) : size * startCapacity (some l) size n ≤ l := by
  unfold startCapacity
  exact Nat.le_trans (Nat.mul_le_mul_left _ (Nat.min_le_right _ _)) (Nat.mul_div_le l size)

theorem Costs.manyN {α} {K G H F L m size : Nat} {p : Metered α} (h : Costs K F m p) (hG : 4 * size ≤ G * m) (hH : size ≤ H * m)
    (limit : Option Nat) (n : Nat) (hL : size * startCapacity limit size n ≤ L) :
    Costs (K + G + H) (F + L) (n * m) (metManyN limit size p n) := by
  intro i
  unfold metManyN
  have h1 := Costs.manyLoop h hG n 0 (startCapacity limit size n) i
  have e0 : size * credit 0 (startCapacity limit size n) = 0 := by unfold credit; simp
  rw [e0] at h1
  generalize Verif.manyLoop p size n 0 (startCapacity limit size n) i = x at h1 ⊢
  rcases x with ⟨(e | ⟨as, r⟩), c⟩
  · dsimp only at h1 ⊢
    rw [Nat.add_mul (K + G)]
    omega
  · dsimp only at h1 ⊢
    refine ⟨h1.1, ?_⟩
    have h2 : size * startCapacity limit size n ≤ size * n := Nat.mul_le_mul_left _ (startCapacity_le limit size n)
    have h3 : size * n ≤ H * (n * m) := by
      have := Nat.mul_le_mul_right n hH
      rwa [Nat.mul_assoc, Nat.mul_comm m n] at this
    have h4 : H * r.length + H * (n * m) ≤ H * i.length := by rw [← Nat.mul_add]; exact Nat.mul_le_mul_left H h1.1
    rw [Nat.add_mul (K + G), Nat.add_mul (K + G)]
    omega

/-- a bound for the whole input -/
def Spends {α} (K F : Nat) (p : Metered α) : Prop := ∀ i, (p i).2 ≤ K * i.length + F

theorem Costs.then {α β} {K F m : Nat} {p : Metered α} {f : α → Metered β} (h : Costs K F m p) (hf : ∀ a, Spends K F (f a)) :
    Spends K F (p >>= f) := by
  intro i
  have h1 := h i
  rw [Metered.bind_def, Metered.bind]
  generalize p i = x at h1 ⊢
  rcases x with ⟨(e | ⟨a, r⟩), c⟩
  · exact h1
  · dsimp only at h1 ⊢
    have h2 := hf a r
    omega

theorem Spends.last {α β} {K F : Nat} {p : Metered α} (h : Spends K F p) (f : α → β) : Spends K F (p >>= fun a => Pure.pure (f a)) := by
  intro i
  have h1 := h i
  rw [Metered.bind_def, Metered.bind]
  generalize p i = x at h1 ⊢
  rcases x with ⟨(e | ⟨a, r⟩), c⟩ <;> exact h1

/-- `many0` also succeeds when an element fails -/
theorem Costs.many0 {α} {K G F m size : Nat} {p : Metered α} (h : Costs K F m p) (hG : 4 * size ≤ G * m) :
    Spends (K + G) (F + 4 * size) (metMany0 size p) := by
  intro i
  have loop : ∀ n len cap (i : Bytes), (Verif.met0Loop p size n len cap i).2 ≤ (K + G) * i.length + F + size * credit len cap := by
    intro n
    induction n with
    | zero => intro len cap i; exact Nat.zero_le _
    | succ n ih =>
      intro len cap i
      have h1 := h i
      simp only [Verif.met0Loop]
      generalize p i = x at h1 ⊢
      rcases x with ⟨(e | ⟨a, r⟩), c⟩
      · dsimp only at h1
        cases e <;> dsimp only <;> rw [Nat.add_mul] <;> omega
      · dsimp only at h1 ⊢
        by_cases hl : r.length = i.length
        · rw [if_pos hl]
          dsimp only
          rw [Nat.add_mul]
          rw [hl] at h1
          omega
        · rw [if_neg hl]
          have h2 := ih (len + 1) (grown len cap) r
          have h3 := growth_credit size len cap
          have h4 : G * r.length + G * m ≤ G * i.length := by rw [← Nat.mul_add]; exact Nat.mul_le_mul_left G h1.1
          generalize size * credit len cap = φ at *
          generalize size * credit (len + 1) (grown len cap) = φ' at *
          generalize Verif.met0Loop p size n (len + 1) (grown len cap) r = x at h2 ⊢
          rcases x with ⟨(e | ⟨as, r'⟩), c'⟩ <;>
          · dsimp only at h2 ⊢
            rw [Nat.add_mul] at h2 ⊢
            omega
  have h1 := loop (i.length + 1) 0 4 i
  have e0 : size * credit 0 4 = 0 := by unfold credit; simp
  unfold metMany0
  dsimp only
  rw [e0] at h1
  omega

theorem beU8_reads_more {i a r} (h : beU8 i = .ok (a, r)) : r.length + 1 ≤ i.length := by
  rcases i with _ | ⟨x, t⟩
  · cases h
  · cases h; simp

theorem beU16_reads_more {i a r} (h : beU16 i = .ok (a, r)) : r.length + 2 ≤ i.length := by
  rcases i with _ | ⟨x, _ | ⟨y, t⟩⟩
  · cases h
  · cases h
  · cases h; simp

theorem beU32_reads_more {i a r} (h : beU32 i = .ok (a, r)) : r.length + 4 ≤ i.length := by
  rcases i with _ | ⟨x, _ | ⟨y, _ | ⟨z, _ | ⟨w, t⟩⟩⟩⟩
  · cases h
  · cases h
  · cases h
  · cases h
  · cases h; simp

theorem beI32_reads_more {i a r} (h : beI32 i = .ok (a, r)) : r.length + 4 ≤ i.length := by
  unfold beI32 at h
  split at h
  · rename_i h1; cases h; exact beU32_reads_more h1
  · cases h

theorem lengthDataN_reads_more {n i a r} (h : lengthDataN n i = .ok (a, r)) : r.length + a.length ≤ i.length := by
  unfold lengthDataN at h
  split at h
  · cases h
  · cases h; simp; omega

theorem lengthData16_reads_more {i a r} (h : lengthData16 i = .ok (a, r)) : r.length + 2 + a.length ≤ i.length := by
  obtain ⟨n, r1, h1, h2⟩ := bind_ok.1 h
  have := beU16_reads_more h1
  have := lengthDataN_reads_more h2
  omega

theorem lengthData32_reads_more {i a r} (h : lengthData32 i = .ok (a, r)) : r.length + 4 + a.length ≤ i.length := by
  obtain ⟨n, r1, h1, h2⟩ := bind_ok.1 h
  have := beU32_reads_more h1
  have := lengthDataN_reads_more h2
  omega

theorem tagC_reads_more {t i a r} (h : tagC t i = .ok (a, r)) : r.length + 0 ≤ i.length := by
  unfold tagC at h
  split at h
  · cases h; simp
  · cases h

theorem takeC_reads_more {n i a r} (h : takeC n i = .ok (a, r)) : r.length + a.length ≤ i.length := by
  unfold takeC at h
  split at h
  · cases h
  · cases h; simp; omega

theorem cost_u8 {K F} : Costs K F 1 (free beU8) := Costs.free fun _ _ _ => beU8_reads_more
theorem cost_u16 {K F} : Costs K F 2 (free beU16) := Costs.free fun _ _ _ => beU16_reads_more
theorem cost_u32 {K F} : Costs K F 4 (free beU32) := Costs.free fun _ _ _ => beU32_reads_more
theorem cost_i32 {K F} : Costs K F 4 (free beI32) := Costs.free fun _ _ _ => beI32_reads_more
theorem cost_data16 {K F} (hK : 1 ≤ K) : Costs K F 2 (copied lengthData16) := Costs.copied hK fun _ _ _ => lengthData16_reads_more
theorem cost_data32 {K F} (hK : 1 ≤ K) : Costs K F 4 (copied lengthData32) := Costs.copied hK fun _ _ _ => lengthData32_reads_more

namespace CC

theorem erases_principal (limit : Option Nat) : Erases (metPrincipal limit) Principal.parse :=
  (Erases.free _).bind fun _ => (Erases.free _).bind fun _ => (Erases.copied _).bind fun _ =>
    ((Erases.copied _).manyN limit stringSize _).bind fun _ => Erases.pure _

theorem erases_address : Erases metAddress Address.parse :=
  (Erases.free _).bind fun _ => (Erases.copied _).bind fun _ => Erases.pure _

theorem erases_keyBlock : Erases metKeyBlock KeyBlock.parse :=
  (Erases.free _).bind fun _ => (Erases.free _).bind fun _ => (Erases.copied _).bind fun _ => Erases.pure _

theorem erases_header : Erases metHeader Header.parse :=
  (Erases.free _).bind fun _ => (Erases.copied _).bind fun _ => Erases.pure _

theorem erases_credential (limit : Option Nat) : Erases (metCredential limit) Credential.parse :=
  (erases_principal limit).bind fun _ => (erases_principal limit).bind fun _ => erases_keyBlock.bind fun _ =>
    (Erases.free _).bind fun _ => (Erases.free _).bind fun _ => (Erases.free _).bind fun _ => (Erases.free _).bind fun _ =>
    (erases_address.manyN limit addressSize _).bind fun _ => (Erases.free _).bind fun _ =>
    (erases_address.manyN limit addressSize _).bind fun _ => (Erases.copied _).bind fun _ => (Erases.copied _).bind fun _ =>
    Erases.pure _

theorem erases_ccache (limit : Option Nat) : Erases (metCCache limit) CCache.parse :=
  (Erases.free _).bind fun _ => (Erases.free _).bind fun _ => erases_header.bind fun _ =>
    (erases_principal limit).bind fun _ => ((erases_credential limit).many0 credentialSize).bind fun _ => Erases.pure _

theorem cost_address {F} : Costs 1 F 6 metAddress :=
  (cost_u16.bind fun _ => (cost_data32 (by omega)).bind fun _ => Costs.pure 1 F _ : Costs 1 F (2 + (4 + 0)) metAddress)

theorem cost_keyBlock {K F} (hK : 1 ≤ K) : Costs K F 6 metKeyBlock :=
  (cost_u16.bind fun _ => cost_u16.bind fun _ => (cost_data16 hK).bind fun _ => Costs.pure K F _ :
    Costs K F (2 + (2 + (2 + 0))) metKeyBlock)

theorem cost_header {K F} (hK : 1 ≤ K) : Costs K F 4 metHeader :=
  (cost_u16.bind fun _ => (cost_data16 hK).bind fun _ => Costs.pure K F _ : Costs K F (2 + (2 + 0)) metHeader)

/-- the limit of nom as an upper bound of what one list reserves -/
def Limited (limit : Option Nat) (L : Nat) : Prop := ∀ size n, n < 2^32 → size ≤ 32 → size * startCapacity limit size n ≤ L

theorem cost_principal {limit L} (hl : Limited limit L) : Costs 31 L 12 (metPrincipal limit) := by
  have strings : ∀ n : UInt32, Costs 31 L 0 (metManyN limit stringSize metCos n.toNat) := fun n => by
    have h := Costs.manyN (G := 24) (H := 6) (cost_data32 (K := 1) (F := 0) (by omega)) (by decide) (by decide) limit n.toNat
      (hl stringSize n.toNat n.toNat_lt (by decide))
    exact h.mono (by omega) (by omega) (by omega)
  exact (cost_u32.bind fun _ => cost_u32.bind fun n => (cost_data32 (by omega)).bind fun _ => (strings n).bind fun _ =>
    Costs.pure 31 L _ : Costs 31 L (4 + (4 + (4 + (0 + 0)))) _)

theorem times_reads_more {i a r} (h : Times.parse i = .ok (a, r)) : r.length + 16 ≤ i.length := by
  have := congrArg List.length (times_ok h)
  rw [List.length_append, Times.build] at this
  simp [be32] at this
  omega

theorem cost_credential {limit L} (hl : Limited limit L) : Costs 31 L 63 (metCredential limit) := by
  have addresses : ∀ n : UInt32, Costs 31 L 0 (metManyN limit addressSize metAddress n.toNat) := fun n => by
    have h := Costs.manyN (G := 22) (H := 6) (cost_address (F := 0)) (by decide) (by decide) limit n.toNat
      (hl addressSize n.toNat n.toNat_lt (by decide))
    exact h.mono (by omega) (by omega) (by omega)
  have h : Costs 31 L (12 + (12 + (6 + (16 + (1 + (4 + (4 + (0 + (4 + (0 + (4 + (4 + 0)))))))))))) (metCredential limit) :=
    (cost_principal hl).bind fun _ => (cost_principal hl).bind fun _ => (cost_keyBlock (by omega)).bind fun _ =>
    (Costs.free fun _ _ _ => times_reads_more).bind fun _ => cost_u8.bind fun _ => cost_u32.bind fun _ => cost_u32.bind fun n =>
    (addresses n).bind fun _ => cost_u32.bind fun n' => (addresses n').bind fun _ => (cost_data32 (by omega)).bind fun _ =>
    (cost_data32 (by omega)).bind fun _ => Costs.pure 31 L _
  exact h.mono (by omega) (by omega) (by omega)

theorem cost_ccache {limit L} (hl : Limited limit L) : Spends 49 (L + 1056) (metCCache limit) := by
  have creds : Spends 49 (L + 1056) (metMany0 credentialSize (metCredential limit)) :=
    Costs.many0 (G := 18) (size := 264) (cost_credential hl) (by decide)
  have tag : Costs 49 (L + 1056) 0 (free (tagC [0x05, 0x04])) := Costs.free fun _ _ _ => tagC_reads_more
  exact tag.then fun _ => cost_u16.then fun _ => (cost_header (by omega)).then fun h =>
    ((cost_principal hl).mono (m' := 12) (by omega) (by omega) (by omega)).then fun p => creds.last (CCache.new h p)

theorem limited_some (l : Nat) : Limited (some l) l := fun size n _ _ => startCapacity_limit l size n

end CC

namespace KT

/-- the record body as a parser that leaves the bytes after the key in place -/
def bodyParser : Parser KeytabEntry := do
  let num_components ← beU16
  let realm ← parseCos
  let components ← manyN parseCos num_components.toNat
  let name_type ← beU32
  let timestamp ← beU32
  let vno8 ← beU8
  let key ← KeyBlock.parse
  let vno ← vnoParser
  return ⟨realm, components, name_type, timestamp, vno8, key, vno⟩

theorem erases_body (limit : Option Nat) : Erases (metBody limit) bodyParser :=
  (Erases.free _).bind fun _ => (Erases.copied _).bind fun _ => ((Erases.copied _).manyN limit CC.stringSize _).bind fun _ =>
    (Erases.free _).bind fun _ => (Erases.free _).bind fun _ => (Erases.free _).bind fun _ =>
    ((Erases.free _).bind fun _ => (Erases.copied _).bind fun _ => Erases.pure _ : Erases metKeyBlock KeyBlock.parse).bind fun _ =>
    (Erases.free _).bind fun _ => Erases.pure _

theorem parseBody_eq (i : Bytes) : parseBody i = match bodyParser i with | .ok (e, _) => .ok e | .error e => .error e := by
  unfold parseBody bodyParser
  simp only [Verif.bind_def]
  rcases beU16 i with (e | ⟨n, r⟩)
  · rfl
  dsimp only [Bind.bind, Except.bind]
  rcases parseCos r with (e | ⟨realm, r⟩)
  · rfl
  dsimp only
  rcases manyN parseCos n.toNat r with (e | ⟨cs, r⟩)
  · rfl
  dsimp only
  rcases beU32 r with (e | ⟨nt, r⟩)
  · rfl
  dsimp only
  rcases beU32 r with (e | ⟨ts, r⟩)
  · rfl
  dsimp only
  rcases beU8 r with (e | ⟨v8, r⟩)
  · rfl
  dsimp only
  rcases KeyBlock.parse r with (e | ⟨k, r⟩)
  · rfl
  dsimp only
  unfold vnoParser
  rcases parseVno r with (e | v) <;> rfl

theorem erases_entry (limit : Option Nat) (dbg : Bool) : Erases (metEntry limit dbg) (KeytabEntry.parse dbg) := by
  intro i
  unfold metEntry KeytabEntry.parse
  rw [Metered.bind_def, Metered.bind, free]
  rcases beI32 i with (e | ⟨size, r⟩)
  · rfl
  dsimp only [Bind.bind, Except.bind]
  by_cases h : size < 0
  · rw [if_pos h, if_pos h]
    by_cases h2 : dbg = true ∧ size = Int32.minValue
    · rw [if_pos h2, if_pos h2]; rfl
    · rw [if_neg h2, if_neg h2, Metered.bind, free]
      rcases takeC (asUsize (-size)) r with (e | ⟨x, r'⟩) <;> rfl
  · rw [if_neg h, if_neg h, Metered.bind, free]
    rcases takeC (asUsize size) r with (e | ⟨raw, r'⟩)
    · rfl
    dsimp only
    rw [parseBody_eq, ← erases_body limit raw, metRecord]
    rcases metBody limit raw with ⟨(e | ⟨x, r2⟩), c⟩ <;> rfl

theorem erases_keytab (limit : Option Nat) (dbg : Bool) : Erases (metKeytab limit dbg) (Keytab.parse dbg) :=
  (Erases.free _).bind fun _ => (Erases.free _).bind fun _ => ((erases_entry limit dbg).many0 entrySize).bind fun _ => Erases.pure _

theorem cost_body {limit L} (hl : ∀ n < 2^16, 24 * startCapacity limit 24 n ≤ L) : Costs 61 L 0 (metBody limit) := by
  have strings : ∀ n : UInt16, Costs 61 L 0 (metManyN limit CC.stringSize metCos n.toNat) := fun n => by
    have h := Costs.manyN (G := 48) (H := 12) (size := 24) (cost_data16 (K := 1) (F := 0) (by omega)) (by decide) (by decide) limit n.toNat
      (hl n.toNat n.toNat_lt)
    exact h.mono (by omega) (by omega) (by omega)
  have vno : Costs 61 L 0 (free vnoParser) := Costs.free fun i a r h => by
    unfold vnoParser at h
    split at h <;> cases h
    omega
  have key : Costs 61 L 4 metKeyBlock :=
    (cost_u16.bind fun _ => (cost_data16 (by omega)).bind fun _ => Costs.pure 61 L _ : Costs 61 L (2 + (2 + 0)) metKeyBlock)
  have h : Costs 61 L (2 + (2 + (0 + (4 + (4 + (1 + (4 + (0 + 0)))))))) (metBody limit) :=
    cost_u16.bind fun n => (cost_data16 (by omega)).bind fun _ => (strings n).bind fun _ => cost_u32.bind fun _ =>
      cost_u32.bind fun _ => cost_u8.bind fun _ => key.bind fun _ => vno.bind fun _ => Costs.pure 61 L _
  exact h.mono (by omega) (by omega) (by omega)

theorem cost_entry {limit L} (hl : ∀ n < 2^16, 24 * startCapacity limit 24 n ≤ L) (dbg : Bool) : Costs 61 L 4 (metEntry limit dbg) := by
  have skip : ∀ n, Costs 61 L 0 (free (takeC n)) := fun n => Costs.free fun _ _ _ h => by have := takeC_reads_more h; omega
  refine (cost_i32.bind fun size => ?_ : Costs 61 L (4 + 0) _)
  by_cases h : size < 0
  · rw [if_pos h]
    by_cases h2 : dbg = true ∧ size = Int32.minValue
    · rw [if_pos h2]
      intro i; exact Nat.zero_le _
    · rw [if_neg h2]
      exact ((skip _).bind fun _ => Costs.pure 61 L _ : Costs 61 L (0 + 0) _)
  · rw [if_neg h]
    intro i
    rw [Metered.bind_def, Metered.bind, free]
    rcases h : takeC (asUsize size) i with (e | ⟨raw, r⟩)
    · exact Nat.zero_le _
    dsimp only
    have h1 := takeC_reads_more h
    have h2 := cost_body hl raw
    rw [metRecord]
    generalize metBody limit raw = x at h2 ⊢
    rcases x with ⟨(e | ⟨b, r2⟩), c⟩
    · dsimp only at h2 ⊢
      omega
    · dsimp only at h2 ⊢
      omega

theorem cost_keytab {limit L} (hl : ∀ n < 2^16, 24 * startCapacity limit 24 n ≤ L) (dbg : Bool) :
    Spends 165 (L + 416) (metKeytab limit dbg) := by
  have entries : Spends 165 (L + 416) (metMany0 entrySize (metEntry limit dbg)) :=
    Costs.many0 (G := 104) (size := 104) (cost_entry hl dbg) (by decide)
  exact cost_u8.then fun k => cost_u8.then fun v => entries.last (Keytab.mk k v)

end KT

/-- a cache file that announces `n` name components and ends there -/
def announcing (n : UInt32) : Bytes := [5, 4, 0, 0, 0, 0, 0, 0, 0, 0, 0, 0] ++ (be32 n ++ [0, 0, 0, 0])

/-! ### C101 -/

/-- C101. The metered parsers are the parsers of the library, with the bytes asked from the allocator beside the result. -/
theorem c101_same (limit : Option Nat) (dbg : Bool) (raw : Bytes) :
    (CC.metCCache limit raw).1 = CC.CCache.parse raw ∧ (KT.metKeytab limit dbg raw).1 = KT.Keytab.parse dbg raw :=
  ⟨CC.erases_ccache limit raw, KT.erases_keytab limit dbg raw⟩

/-- C101. Reading a cache file, whatever is in it and whether or not it can be read, asks for at most 49 bytes of memory for a byte
of the file and 65 KiB (nom 7.1.2 and later). -/
theorem c101_cache (raw : Bytes) : (CC.metCCache (some 65536) raw).2 ≤ 49 * raw.length + 66592 :=
  CC.cost_ccache (CC.limited_some 65536) raw

/-- C101. Reading a keytab: at most 165 bytes for a byte of the file and 65 KiB. -/
theorem c101_keytab (dbg : Bool) (raw : Bytes) : (KT.metKeytab (some 65536) dbg raw).2 ≤ 165 * raw.length + 65952 :=
  KT.cost_keytab (fun n _ => startCapacity_limit 65536 24 n) dbg raw

/-- C101. With earlier versions of nom 7 a keytab still cannot do harm, because counts have 16 bits there. -/
theorem c101_keytab_old (dbg : Bool) (raw : Bytes) : (KT.metKeytab none dbg raw).2 ≤ 165 * raw.length + 1573256 :=
  KT.cost_keytab (L := 1572840) (fun n h => by unfold startCapacity; dsimp only; omega) dbg raw

/-- C101. Violated for caches with versions of nom before 7.1.2, which Cargo.toml allows: a file of 20 bytes asks for any amount of
memory in steps of 24 bytes, up to 96 GiB, before it is refused. -/
theorem c101_cache_old (n : Nat) (h0 : 0 < n) (h : n < 2^32) :
    ∃ raw : Bytes, raw.length = 20 ∧ (CC.metCCache none raw).2 = 24 * n ∧ CC.CCache.parse raw = .error .error := by
  have hn : (UInt32.ofNat n).toNat = n := CC.u32_ofNat_toNat h
  obtain ⟨k, rfl⟩ : ∃ k, n = k + 1 := ⟨n - 1, by omega⟩
  generalize UInt32.ofNat (k + 1) = w at hn
  have num : free beU32 (be32 w ++ [0, 0, 0, 0]) = (.ok (w, [0, 0, 0, 0]), 0) := by unfold free; rw [beU32_reads]
  have many : metManyN none CC.stringSize CC.metCos w.toNat [] = (.error .error, 24 * w.toNat) := by rw [hn]; rfl
  have principal : CC.metPrincipal none ([0, 0, 0, 0] ++ (be32 w ++ [0, 0, 0, 0])) = (.error .error, 24 * w.toNat) := by
    refine (Metered.step (a := 0) (r := be32 w ++ [0, 0, 0, 0]) rfl).trans ?_
    refine (Metered.step num).trans ?_
    refine (Metered.step (a := []) (r := []) rfl).trans ?_
    exact Metered.fail many
  have e : CC.metCCache none (announcing w) = (.error .error, 24 * w.toNat) := by
    refine (Metered.step (a := [5, 4]) (r := (announcing w).drop 2) rfl).trans ?_
    refine (Metered.step (a := 0) (r := (announcing w).drop 4) rfl).trans ?_
    refine (Metered.step (a := ⟨0, []⟩) (r := (announcing w).drop 8) rfl).trans ?_
    exact Metered.fail principal
  refine ⟨announcing w, rfl, by rw [e, hn], by rw [← (c101_same none false _).1, e]⟩

/-! ### Examples -/

-- the hostile file of `c101_cache_old` with a version of nom that limits the reservation
example : (CC.metCCache (some 65536) (announcing 0xffffffff)).2 = 65520 := by decide +kernel

-- a file that is read, with strings and elements counted
example : ∃ c, (CC.metCCache (some 65536) CC.sampleCache.build).1 = .ok (c, []) ∧
    (CC.metCCache (some 65536) CC.sampleCache.build).2 ≤ 49 * CC.sampleCache.build.length + 66592 ∧
    CC.sampleCache.build.length < (CC.metCCache (some 65536) CC.sampleCache.build).2 := by
  refine ⟨CC.sampleCache, ?_⟩
  decide +kernel

-- a vector that grows: room for 4, 8 and 16 elements is asked for to hold nine
example : (manyLoop (free beU8) 1 9 0 0 [1, 2, 3, 4, 5, 6, 7, 8, 9]).2 = 28 := by decide +kernel

end Verif
