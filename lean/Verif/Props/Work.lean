import Verif.WorkModel
import Verif.Props.Load
/-
C110: the work to load a cache or keytab is proportional to the size of the file.
-/
namespace Verif

/-! ### Erasing the counter -/

theorem Erases.ticks {α} (n : Nat) (p : Parser α) : Erases (ticks n p) p := fun _ => rfl
theorem Erases.copying (p : Parser Bytes) : Erases (copying p) p := by
  intro i; unfold Verif.copying; rcases p i with (e | ⟨a, r⟩) <;> rfl

theorem Erases.workLoop {α} {m : Metered α} {p : Parser α} (h : Erases m p) (size n : Nat) :
    ∀ len cap, Erases (workLoop m size n len cap) (Verif.manyN p n) := by
  induction n with
  | zero => intro _ _ i; rfl
  | succ n ih =>
    intro len cap i
    have h1 := h i
    simp only [Verif.workLoop, Verif.manyN]
    rw [← h1]
    rcases m i with ⟨(e | ⟨a, r⟩), c⟩
    · rfl
    · dsimp only
      split
      · rfl
      · have h2 := ih (len + 1) (grown len cap) r
        rw [← h2]
        rcases Verif.workLoop m size n (len + 1) (grown len cap) r with ⟨(e | ⟨as, r'⟩), c'⟩ <;> rfl

theorem Erases.workManyN {α} {m : Metered α} {p : Parser α} (h : Erases m p) (limit : Option Nat) (size n : Nat) :
    Erases (workManyN limit size m n) (Verif.manyN p n) := fun i => Erases.workLoop h size n _ _ i

theorem Erases.work0Loop {α} {m : Metered α} {p : Parser α} (h : Erases m p) (size n : Nat) :
    ∀ len cap, Erases (work0Loop m size n len cap) (many0Fuel p n) := by
  induction n with
  | zero => intro _ _ i; rfl
  | succ n ih =>
    intro len cap i
    have h1 := h i
    simp only [Verif.work0Loop, many0Fuel]
    rw [← h1]
    rcases m i with ⟨(e | ⟨a, r⟩), c⟩
    · cases e <;> rfl
    · dsimp only
      split
      · rfl
      · have h2 := ih (len + 1) (grown len cap) r
        rw [← h2]
        rcases Verif.work0Loop m size n (len + 1) (grown len cap) r with ⟨(e | ⟨as, r'⟩), c'⟩ <;> rfl

theorem Erases.workMany0 {α} {m : Metered α} {p : Parser α} (h : Erases m p) (size : Nat) :
    Erases (workMany0 size m) (Verif.many0 p) := fun i => Erases.work0Loop h size _ _ _ i

/-! ### Accounting -/

/-- reading functions that read at least one byte each -/
theorem Costs.ticks {α} {K F m n : Nat} {p : Parser α} (hn : n ≤ K * m) (hF : n ≤ F)
    (h : ∀ i a r, p i = .ok (a, r) → r.length + m ≤ i.length) : Costs K F m (ticks n p) := by
  intro i
  unfold Verif.ticks
  rcases hp : p i with (e | ⟨a, r⟩)
  · dsimp only; omega
  · dsimp only
    have h1 := h i a r hp
    refine ⟨h1, ?_⟩
    have h2 : K * (r.length + m) ≤ K * i.length := Nat.mul_le_mul_left K h1
    rw [Nat.mul_add] at h2
    omega

theorem Costs.copying {K F m : Nat} {p : Parser Bytes} (hK : 1 ≤ K) (hm : 2 ≤ m) (hF : 2 ≤ F)
    (h : ∀ i a r, p i = .ok (a, r) → r.length + m + a.length ≤ i.length) : Costs K F m (copying p) := by
  intro i
  unfold Verif.copying
  rcases hp : p i with (e | ⟨a, r⟩)
  · dsimp only; omega
  · dsimp only
    have h1 := h i a r hp
    refine ⟨by omega, ?_⟩
    obtain ⟨d, e⟩ : ∃ d, i.length = r.length + d := ⟨i.length - r.length, by omega⟩
    rw [e, Nat.mul_add]
    have : 1 * d ≤ K * d := Nat.mul_le_mul_right d hK
    omega

/-- pays for the next move of a vector -/
def moveCredit (len cap : Nat) : Nat := 2 * len - cap

theorem moved_credit (size len cap : Nat) :
    moved size len cap + size * moveCredit (len + 1) (grown len cap) ≤ size * 2 + size * moveCredit len cap := by
  unfold moved grown moveCredit
  split
  · rw [← Nat.mul_add, ← Nat.mul_add]
    exact Nat.mul_le_mul_left _ (by omega)
  · rw [Nat.zero_add, ← Nat.mul_add]
    exact Nat.mul_le_mul_left _ (by omega)

theorem Costs.workLoop {α} {K G F m size : Nat} {p : Metered α} (h : Costs K F m p) (hG : 2 * size ≤ G * m) (n : Nat) :
    ∀ len cap i, match Verif.workLoop p size n len cap i with
      | (.ok (_, r), c) => r.length + n * m ≤ i.length ∧ c + (K + G) * r.length ≤ (K + G) * i.length + size * moveCredit len cap
      | (.error _, c) => c ≤ (K + G) * i.length + F + size * moveCredit len cap := by
  induction n with
  | zero =>
    intro len cap i
    simp only [Verif.workLoop]
    exact ⟨by omega, by omega⟩
  | succ n ih =>
    intro len cap i
    have h1 := h i
    simp only [Verif.workLoop]
    generalize p i = x at h1 ⊢
    rcases x with ⟨(e | ⟨a, r⟩), c⟩
    · dsimp only at h1 ⊢
      rw [Nat.add_mul]
      omega
    · dsimp only at h1 ⊢
      by_cases hl : r.length = i.length
      · rw [if_pos hl]
        dsimp only
        rw [Nat.add_mul]
        rw [hl] at h1
        omega
      · rw [if_neg hl]
        have h2 := ih (len + 1) (grown len cap) r
        have h3 := moved_credit size len cap
        have h4 : G * r.length + G * m ≤ G * i.length := by rw [← Nat.mul_add]; exact Nat.mul_le_mul_left G h1.1
        generalize size * moveCredit len cap = φ at *
        generalize size * moveCredit (len + 1) (grown len cap) = φ' at *
        generalize Verif.workLoop p size n (len + 1) (grown len cap) r = x at h2 ⊢
        rcases x with ⟨(e | ⟨as, r'⟩), c'⟩
        · dsimp only at h2 ⊢
          rw [Nat.add_mul] at h2 ⊢
          omega
        · dsimp only at h2 ⊢
          simp only [Nat.add_mul, Nat.one_mul] at h2 ⊢
          omega

theorem Costs.workManyN {α} {K G F m size : Nat} {p : Metered α} (h : Costs K F m p) (hG : 2 * size ≤ G * m)
    (limit : Option Nat) (n : Nat) : Costs (K + G) F (n * m) (workManyN limit size p n) := by
  intro i
  unfold Verif.workManyN
  have h1 := Costs.workLoop h hG n 0 (startCapacity limit size n) i
  have e0 : size * moveCredit 0 (startCapacity limit size n) = 0 := by unfold moveCredit; simp
  rw [e0] at h1
  generalize Verif.workLoop p size n 0 (startCapacity limit size n) i = x at h1 ⊢
  rcases x with ⟨(e | ⟨as, r⟩), c⟩
  · exact h1
  · exact h1

/-- `many0` also succeeds when an element fails -/
theorem Costs.workMany0 {α} {K G F m size : Nat} {p : Metered α} (h : Costs K F m p) (hG : 2 * size ≤ G * m) :
    Spends (K + G) F (workMany0 size p) := by
  intro i
  have loop : ∀ n len cap (i : Bytes), (Verif.work0Loop p size n len cap i).2 ≤ (K + G) * i.length + F + size * moveCredit len cap := by
    intro n
    induction n with
    | zero => intro len cap i; exact Nat.zero_le _
    | succ n ih =>
      intro len cap i
      have h1 := h i
      simp only [Verif.work0Loop]
      generalize p i = x at h1 ⊢
      rcases x with ⟨(e | ⟨a, r⟩), c⟩
      · dsimp only at h1
        cases e <;> dsimp only <;> rw [Nat.add_mul] <;> omega
      · dsimp only at h1 ⊢
        by_cases hl : r.length = i.length
        · rw [if_pos hl]
          dsimp only
          rw [Nat.add_mul]
          rw [hl] at h1
          omega
        · rw [if_neg hl]
          have h2 := ih (len + 1) (grown len cap) r
          have h3 := moved_credit size len cap
          have h4 : G * r.length + G * m ≤ G * i.length := by rw [← Nat.mul_add]; exact Nat.mul_le_mul_left G h1.1
          generalize size * moveCredit len cap = φ at *
          generalize size * moveCredit (len + 1) (grown len cap) = φ' at *
          generalize Verif.work0Loop p size n (len + 1) (grown len cap) r = x at h2 ⊢
          rcases x with ⟨(e | ⟨as, r'⟩), c'⟩ <;>
          · dsimp only at h2 ⊢
            rw [Nat.add_mul] at h2 ⊢
            omega
  have h1 := loop (i.length + 1) 0 4 i
  have e0 : size * moveCredit 0 4 = 0 := by unfold moveCredit; simp
  unfold Verif.workMany0
  rw [e0] at h1
  omega

theorem work_u8 {K F} (hK : 1 ≤ K) (hF : 1 ≤ F) : Costs K F 1 (ticks 1 beU8) := Costs.ticks (by omega) hF fun _ _ _ => beU8_reads_more
theorem work_u16 {K F} (hK : 1 ≤ K) (hF : 1 ≤ F) : Costs K F 2 (ticks 1 beU16) := Costs.ticks (by omega) hF fun _ _ _ => beU16_reads_more
theorem work_u32 {K F} (hK : 1 ≤ K) (hF : 1 ≤ F) : Costs K F 4 (ticks 1 beU32) := Costs.ticks (by omega) hF fun _ _ _ => beU32_reads_more
theorem work_data16 {K F} (hK : 1 ≤ K) (hF : 2 ≤ F) : Costs K F 2 (copying lengthData16) :=
  Costs.copying hK (by omega) hF fun _ _ _ => lengthData16_reads_more
theorem work_data32 {K F} (hK : 1 ≤ K) (hF : 2 ≤ F) : Costs K F 4 (copying lengthData32) :=
  Costs.copying hK (by omega) hF fun _ _ _ => lengthData32_reads_more

namespace CC

theorem work_erases_principal (limit : Option Nat) : Erases (workPrincipal limit) Principal.parse :=
  (Erases.ticks _ _).bind fun _ => (Erases.ticks _ _).bind fun _ => (Erases.copying _).bind fun _ =>
    ((Erases.copying _).workManyN limit stringSize _).bind fun _ => Erases.pure _

theorem work_erases_address : Erases workAddress Address.parse :=
  (Erases.ticks _ _).bind fun _ => (Erases.copying _).bind fun _ => Erases.pure _

theorem work_erases_keyBlock : Erases workKeyBlock KeyBlock.parse :=
  (Erases.ticks _ _).bind fun _ => (Erases.ticks _ _).bind fun _ => (Erases.copying _).bind fun _ => Erases.pure _

theorem work_erases_header : Erases workHeader Header.parse :=
  (Erases.ticks _ _).bind fun _ => (Erases.copying _).bind fun _ => Erases.pure _

theorem work_erases_credential (limit : Option Nat) : Erases (workCredential limit) Credential.parse :=
  (work_erases_principal limit).bind fun _ => (work_erases_principal limit).bind fun _ => work_erases_keyBlock.bind fun _ =>
    (Erases.ticks _ _).bind fun _ => (Erases.ticks _ _).bind fun _ => (Erases.ticks _ _).bind fun _ => (Erases.ticks _ _).bind fun _ =>
    (work_erases_address.workManyN limit addressSize _).bind fun _ => (Erases.ticks _ _).bind fun _ =>
    (work_erases_address.workManyN limit addressSize _).bind fun _ => (Erases.copying _).bind fun _ => (Erases.copying _).bind fun _ =>
    Erases.pure _

theorem work_erases_ccache (limit : Option Nat) : Erases (workCCache limit) CCache.parse :=
  (Erases.ticks _ _).bind fun _ => (Erases.ticks _ _).bind fun _ => work_erases_header.bind fun _ =>
    (work_erases_principal limit).bind fun _ => ((work_erases_credential limit).workMany0 credentialSize).bind fun _ => Erases.pure _

theorem work_address : Costs 1 4 6 workAddress :=
  (work_u16 (by omega) (by omega)).bind fun _ => (work_data32 (by omega) (by omega)).bind fun _ => Costs.pure 1 4 _

theorem work_keyBlock {K} (hK : 1 ≤ K) : Costs K 4 6 workKeyBlock :=
  (work_u16 hK (by omega)).bind fun _ => (work_u16 hK (by omega)).bind fun _ => (work_data16 hK (by omega)).bind fun _ => Costs.pure K 4 _

theorem work_header {K} (hK : 1 ≤ K) : Costs K 4 4 workHeader :=
  (work_u16 hK (by omega)).bind fun _ => (work_data16 hK (by omega)).bind fun _ => Costs.pure K 4 _

theorem work_principal (limit : Option Nat) : Costs 13 4 12 (workPrincipal limit) := by
  have strings : ∀ n : UInt32, Costs 13 4 0 (workManyN limit stringSize workCos n.toNat) := fun n => by
    have h := Costs.workManyN (G := 12) (size := stringSize) (work_data32 (K := 1) (F := 4) (by omega) (by omega)) (by decide) limit n.toNat
    exact h.mono (by omega) (by omega) (by omega)
  have h : Costs 13 4 (4 + (4 + (4 + (0 + 0)))) (workPrincipal limit) :=
    (work_u32 (by omega) (by omega)).bind fun _ => (work_u32 (by omega) (by omega)).bind fun n =>
    (work_data32 (by omega) (by omega)).bind fun _ => (strings n).bind fun _ => Costs.pure 13 4 _
  exact h

theorem work_credential (limit : Option Nat) : Costs 13 4 67 (workCredential limit) := by
  have addresses : ∀ n : UInt32, Costs 13 4 0 (workManyN limit addressSize workAddress n.toNat) := fun n => by
    have h := Costs.workManyN (G := 11) (size := addressSize) work_address (by decide) limit n.toNat
    exact h.mono (by omega) (by omega) (by omega)
  have h : Costs 13 4 (12 + (12 + (6 + (16 + (1 + (4 + (4 + (0 + (4 + (0 + (4 + (4 + 0)))))))))))) (workCredential limit) :=
    (work_principal limit).bind fun _ => (work_principal limit).bind fun _ => (work_keyBlock (by omega)).bind fun _ =>
    (Costs.ticks (by omega) (by omega) fun _ _ _ => times_reads_more).bind fun _ => (work_u8 (by omega) (by omega)).bind fun _ =>
    (work_u32 (by omega) (by omega)).bind fun _ => (work_u32 (by omega) (by omega)).bind fun n =>
    (addresses n).bind fun _ => (work_u32 (by omega) (by omega)).bind fun n' => (addresses n').bind fun _ =>
    (work_data32 (by omega) (by omega)).bind fun _ => (work_data32 (by omega) (by omega)).bind fun _ => Costs.pure 13 4 _
  exact h

theorem tag_reads {i a r} (h : tagC [0x05, 0x04] i = .ok (a, r)) : r.length + 2 ≤ i.length := by
  have := tagC_ok h
  rw [this]
  simp

theorem work_ccache (limit : Option Nat) : Spends 21 4 (workCCache limit) := by
  have creds : Spends 21 4 (workMany0 credentialSize (workCredential limit)) :=
    Costs.workMany0 (G := 8) (size := 264) (work_credential limit) (by decide)
  have tag : Costs 21 4 2 (ticks 1 (tagC [0x05, 0x04])) := Costs.ticks (by omega) (by omega) fun _ _ _ => tag_reads
  exact tag.then fun _ => (work_u16 (by omega) (by omega)).then fun _ => (work_header (by omega)).then fun h =>
    ((work_principal limit).mono (m' := 12) (by omega) (by omega) (by omega)).then fun p => creds.last (CCache.new h p)

end CC

namespace KT

theorem work_erases_body (limit : Option Nat) : Erases (workBody limit) bodyParser :=
  (Erases.ticks _ _).bind fun _ => (Erases.copying _).bind fun _ => ((Erases.copying _).workManyN limit CC.stringSize _).bind fun _ =>
    (Erases.ticks _ _).bind fun _ => (Erases.ticks _ _).bind fun _ => (Erases.ticks _ _).bind fun _ =>
    ((Erases.ticks _ _).bind fun _ => (Erases.copying _).bind fun _ => Erases.pure _ : Erases workKeyBlock KeyBlock.parse).bind fun _ =>
    (Erases.ticks _ _).bind fun _ => Erases.pure _

theorem work_erases_entry (limit : Option Nat) (dbg : Bool) : Erases (workEntry limit dbg) (KeytabEntry.parse dbg) := by
  intro i
  unfold workEntry KeytabEntry.parse
  rw [Metered.bind_def, Metered.bind, ticks]
  rcases beI32 i with (e | ⟨size, r⟩)
  · rfl
  dsimp only [Bind.bind, Except.bind]
  by_cases h : size < 0
  · rw [if_pos h, if_pos h]
    by_cases h2 : dbg = true ∧ size = Int32.minValue
    · rw [if_pos h2, if_pos h2]; rfl
    · rw [if_neg h2, if_neg h2, Metered.bind, ticks]
      rcases takeC (asUsize (-size)) r with (e | ⟨x, r'⟩) <;> rfl
  · rw [if_neg h, if_neg h, Metered.bind, ticks]
    rcases takeC (asUsize size) r with (e | ⟨raw, r'⟩)
    · rfl
    dsimp only
    rw [parseBody_eq, ← work_erases_body limit raw, workRecord]
    rcases workBody limit raw with ⟨(e | ⟨x, r2⟩), c⟩ <;> rfl

theorem work_erases_keytab (limit : Option Nat) (dbg : Bool) : Erases (workKeytab limit dbg) (Keytab.parse dbg) :=
  (Erases.ticks _ _).bind fun _ => (Erases.ticks _ _).bind fun _ => ((work_erases_entry limit dbg).workMany0 entrySize).bind fun _ =>
    Erases.pure _

theorem work_body (limit : Option Nat) : Spends 25 4 (workBody limit) := by
  have strings : ∀ n : UInt16, Costs 25 4 0 (workManyN limit CC.stringSize workCos n.toNat) := fun n => by
    have h := Costs.workManyN (G := 24) (size := CC.stringSize) (work_data16 (K := 1) (F := 4) (by omega) (by omega)) (by decide) limit n.toNat
    exact h.mono (by omega) (by omega) (by omega)
  have key : Costs 25 4 4 workKeyBlock :=
    ((work_u16 (by omega) (by omega)).bind fun _ => (work_data16 (by omega) (by omega)).bind fun _ => Costs.pure 25 4 _ :
      Costs 25 4 (2 + (2 + 0)) workKeyBlock)
  have vno : Spends 25 4 (ticks 1 vnoParser) := fun i => by unfold ticks; dsimp only; omega
  exact (work_u16 (by omega) (by omega)).then fun n => (work_data16 (by omega) (by omega)).then fun _ => (strings n).then fun _ =>
    (work_u32 (by omega) (by omega)).then fun _ => (work_u32 (by omega) (by omega)).then fun _ => (work_u8 (by omega) (by omega)).then fun _ =>
    key.then fun _ => vno.last _

theorem work_entry (limit : Option Nat) (dbg : Bool) : Costs 25 5 4 (workEntry limit dbg) := by
  intro i
  unfold workEntry
  rw [Metered.bind_def, Metered.bind, ticks]
  rcases h0 : beI32 i with (e | ⟨size, r⟩)
  · dsimp only; omega
  have h0 := beI32_reads_more h0
  dsimp only
  by_cases h : size < 0
  · rw [if_pos h]
    by_cases h2 : dbg = true ∧ size = Int32.minValue
    · rw [if_pos h2]
      unfold workPanic; dsimp only; omega
    · rw [if_neg h2, Metered.bind_def, Metered.bind, ticks]
      rcases h1 : takeC (asUsize (-size)) r with (e | ⟨x, r'⟩)
      · dsimp only; omega
      · have h1 := takeC_reads_more h1
        dsimp only [Pure.pure, Metered.pure]
        omega
  · rw [if_neg h, Metered.bind_def, Metered.bind, ticks]
    rcases h1 : takeC (asUsize size) r with (e | ⟨raw, r'⟩)
    · dsimp only; omega
    have h1 := takeC_reads_more h1
    have h2 := work_body limit raw
    dsimp only
    rw [workRecord]
    generalize workBody limit raw = x at h2 ⊢
    rcases x with ⟨(e | ⟨b, r2⟩), c⟩ <;>
    · dsimp only at h2 ⊢
      omega

theorem work_keytab (limit : Option Nat) (dbg : Bool) : Spends 77 5 (workKeytab limit dbg) := by
  have entries : Spends 77 5 (workMany0 entrySize (workEntry limit dbg)) :=
    Costs.workMany0 (G := 52) (size := 104) (work_entry limit dbg) (by decide)
  exact (work_u8 (by omega) (by omega)).then fun k => (work_u8 (by omega) (by omega)).then fun v => entries.last (Keytab.mk k v)

end KT

/-! ### C110 -/

/-- C110. The counting parsers are the parsers of the library, with the work beside the result. -/
theorem c110_same (limit : Option Nat) (dbg : Bool) (raw : Bytes) :
    (CC.workCCache limit raw).1 = CC.CCache.parse raw ∧ (KT.workKeytab limit dbg raw).1 = KT.Keytab.parse dbg raw :=
  ⟨CC.work_erases_ccache limit raw, KT.work_erases_keytab limit dbg raw⟩

/-- C110. Reading a cache file, whatever is in it, whatever counts and lengths it announces, and whether or not it can be read, takes
at most 21 steps for a byte of the file and 4 more. Holds for every version of nom 7. -/
theorem c110_cache (limit : Option Nat) (raw : Bytes) : (CC.workCCache limit raw).2 ≤ 21 * raw.length + 4 := CC.work_ccache limit raw

/-- C110. Reading a keytab, with holes and records of any sizes: at most 77 steps for a byte of the file and 5 more. -/
theorem c110_keytab (limit : Option Nat) (dbg : Bool) (raw : Bytes) : (KT.workKeytab limit dbg raw).2 ≤ 77 * raw.length + 5 :=
  KT.work_keytab limit dbg raw

/-! ### Examples -/

-- 2^32 - 1 components are announced and none is there: eleven reads
example : (CC.workCCache none (announcing 0xffffffff)).2 = 11 := by decide +kernel

-- a file that is read, bytes copied
example : (CC.workCCache none CC.sampleCache.build).1 = .ok (CC.sampleCache, []) ∧
    CC.sampleCache.build.length < 3 * (CC.workCCache none CC.sampleCache.build).2 ∧
    (CC.workCCache none CC.sampleCache.build).2 ≤ 21 * CC.sampleCache.build.length := by decide +kernel

-- a vector without room at the start moves twice to hold nine elements
example : (workLoop (ticks 1 beU8) 1 9 0 0 [1, 2, 3, 4, 5, 6, 7, 8, 9]).2 = 9 + 4 + 8 := by decide +kernel

end Verif
