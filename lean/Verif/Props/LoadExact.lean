import Verif.Props.Load
import Verif.Props.Work
/-
C101, C110: the bounds of these properties are bounds on something: what the loaded value keeps on the heap is asked for, and
every byte that is read is counted.
-/
namespace Verif

/-! ### What a value keeps on the heap -/

/-- bytes of a vector with elements of `size` bytes each, which keep `f` bytes more -/
def vecHeap {α} (size : Nat) (f : α → Nat) (l : List α) : Nat := size * l.length + (l.map f).sum

/-- buffers of a principal: realm, components (24 bytes of a string and its bytes). kerberos_ccache/src/principal.rs:18-22. -/
def CC.Principal.heap (p : CC.Principal) : Nat := p.realm.length + vecHeap 24 List.length p.components
/-- kerberos_ccache/src/credential.rs:31-42 -/
def CC.Credential.heap (c : CC.Credential) : Nat :=
  c.client.heap + c.server.heap + c.key.keyvalue.length + vecHeap 32 (fun a => a.addrdata.length) c.addrs +
    vecHeap 32 (fun a => a.addrdata.length) c.authdata + c.ticket.length + c.second_ticket.length
/-- kerberos_ccache/src/ccache.rs:33-38 -/
def CC.CCache.heap (c : CC.CCache) : Nat :=
  c.header.tagdata.length + c.primary_principal.heap + vecHeap 264 CC.Credential.heap c.credentials
/-- kerberos_keytab/src/keytab_entry.rs:24-32 -/
def KT.KeytabEntry.heap (e : KT.KeytabEntry) : Nat := e.realm.length + vecHeap 24 List.length e.components + e.key.keyvalue.length
/-- kerberos_keytab/src/keytab.rs:14-18 -/
def KT.Keytab.heap (k : KT.Keytab) : Nat := vecHeap 104 KT.KeytabEntry.heap k.entries

/-! ### Lemmas -/

theorem Metered.bind_ok {α β} {p : Metered α} {f : α → Metered β} {i r : Bytes} {b : β} {c : Nat} (h : (p >>= f) i = (.ok (b, r), c)) :
    ∃ a r' c1 c2, p i = (.ok (a, r'), c1) ∧ f a r' = (.ok (b, r), c2) ∧ c = c1 + c2 := by
  rw [Metered.bind_def, Metered.bind] at h
  rcases hp : p i with ⟨(e | ⟨a, r'⟩), c1⟩
  · rw [hp] at h; cases h
  · rw [hp] at h
    dsimp only at h
    refine ⟨a, r', c1, (f a r').2, rfl, ?_, ?_⟩
    · have := congrArg Prod.fst h
      exact Prod.ext this rfl
    · exact (congrArg Prod.snd h).symm

theorem Metered.pure_ok {α} {a b : α} {i r : Bytes} {c : Nat} (h : (Pure.pure a : Metered α) i = (.ok (b, r), c)) : a = b ∧ i = r ∧ c = 0 := by
  rw [Metered.pure_def, Metered.pure] at h
  injection h with h1 h2
  injection h1 with h1
  injection h1 with h1 h3
  exact ⟨h1, h3, h2.symm⟩

/-- what is kept has been asked for -/
def Keeps {α} (f : α → Nat) (p : Metered α) : Prop := ∀ i a r c, p i = (.ok (a, r), c) → f a ≤ c

/-- at most `K` bytes are read in a step -/
def Counts {α} (K : Nat) (p : Metered α) : Prop := ∀ i a r c, p i = (.ok (a, r), c) → i.length ≤ r.length + K * c

theorem Keeps.copied (p : Parser Bytes) : Keeps List.length (copied p) := by
  intro i a r c h
  unfold Verif.copied at h
  rcases hp : p i with (e | ⟨d, r'⟩)
  · rw [hp] at h; cases h
  · rw [hp] at h; cases h; exact Nat.le_refl _

theorem Keeps.manyLoop {α} {f : α → Nat} {p : Metered α} (h : Keeps f p) (size n : Nat) :
    ∀ len cap i l r c, len ≤ cap → Verif.manyLoop p size n len cap i = (.ok (l, r), c) →
      size * len + vecHeap size f l ≤ size * cap + c := by
  induction n with
  | zero =>
    intro len cap i l r c hle hr
    simp only [Verif.manyLoop] at hr
    injection hr with h1 h2
    injection h1 with h1
    injection h1 with h1 h3
    subst h1
    have := Nat.mul_le_mul_left size hle
    simp [vecHeap]
    omega
  | succ n ih =>
    intro len cap i l r c hle hr
    simp only [Verif.manyLoop] at hr
    rcases hp : p i with ⟨(e | ⟨a, r'⟩), c1⟩
    · rw [hp] at hr; cases hr
    · rw [hp] at hr
      dsimp only at hr
      split at hr
      · cases hr
      · rcases hm : Verif.manyLoop p size n (len + 1) (grown len cap) r' with ⟨(e | ⟨as, r''⟩), c'⟩
        · rw [hm] at hr; cases hr
        · rw [hm] at hr
          cases hr
          have h1 := h _ _ _ _ hp
          have hg : len + 1 ≤ grown len cap ∧ size * grown len cap ≤ size * cap + growth size len cap := by
            unfold grown growth
            split
            · exact ⟨by omega, by omega⟩
            · exact ⟨by omega, by omega⟩
          have h2 := ih _ _ _ _ _ _ hg.1 hm
          simp only [vecHeap, List.length_cons, List.map_cons, List.sum_cons, Nat.mul_add, Nat.mul_one] at h2 ⊢
          omega

theorem Keeps.manyN {α} {f : α → Nat} {p : Metered α} (h : Keeps f p) (limit : Option Nat) (size n : Nat) :
    Keeps (vecHeap size f) (metManyN limit size p n) := by
  intro i l r c hr
  unfold metManyN at hr
  injection hr with h1 h2
  have h3 := Keeps.manyLoop h size n 0 (startCapacity limit size n) i l r _ (Nat.zero_le _) (Prod.ext h1 rfl)
  rw [Nat.mul_zero, Nat.zero_add] at h3
  exact h2 ▸ h3

theorem Keeps.many0 {α} {f : α → Nat} {p : Metered α} (h : Keeps f p) (size : Nat) : Keeps (vecHeap size f) (metMany0 size p) := by
  have loop : ∀ n len cap i l r c, len ≤ cap → Verif.met0Loop p size n len cap i = (.ok (l, r), c) →
      size * len + vecHeap size f l ≤ size * cap + c := by
    intro n
    induction n with
    | zero => intro len cap i l r c _ hr; simp only [Verif.met0Loop] at hr; cases hr
    | succ n ih =>
      intro len cap i l r c hle hr
      simp only [Verif.met0Loop] at hr
      rcases hp : p i with ⟨(e | ⟨a, r'⟩), c1⟩
      · rw [hp] at hr
        have hle' := Nat.mul_le_mul_left size hle
        cases e <;> dsimp only at hr <;> cases hr
        simp [vecHeap]
        omega
      · rw [hp] at hr
        dsimp only at hr
        split at hr
        · cases hr
        · rcases hm : Verif.met0Loop p size n (len + 1) (grown len cap) r' with ⟨(e | ⟨as, r''⟩), c'⟩
          · rw [hm] at hr; cases hr
          · rw [hm] at hr
            cases hr
            have h1 := h _ _ _ _ hp
            have hg : len + 1 ≤ grown len cap ∧ size * grown len cap ≤ size * cap + growth size len cap := by
              unfold grown growth
              split
              · exact ⟨by omega, by omega⟩
              · exact ⟨by omega, by omega⟩
            have h2 := ih _ _ _ _ _ _ hg.1 hm
            simp only [vecHeap, List.length_cons, List.map_cons, List.sum_cons, Nat.mul_add, Nat.mul_one] at h2 ⊢
            omega
  intro i l r c hr
  unfold metMany0 at hr
  injection hr with h1 h2
  have h3 := loop (i.length + 1) 0 4 i l r _ (by omega) (Prod.ext h1 rfl)
  rw [Nat.mul_zero, Nat.zero_add] at h3
  exact h2 ▸ h3

namespace CC

theorem keeps_principal (limit : Option Nat) : Keeps Principal.heap (metPrincipal limit) := by
  intro i a r c h
  unfold metPrincipal at h
  obtain ⟨_, _, _, _, -, h, hc⟩ := Metered.bind_ok h
  obtain ⟨_, _, _, _, -, h, hc⟩ := Metered.bind_ok h
  obtain ⟨_, _, _, _, h1, h, hc⟩ := Metered.bind_ok h
  obtain ⟨_, _, _, _, h2, h, hc⟩ := Metered.bind_ok h
  obtain ⟨rfl, -, hc⟩ := Metered.pure_ok h
  have h1 := Keeps.copied _ _ _ _ _ h1
  have h2 := Keeps.manyN (Keeps.copied lengthData32) limit stringSize _ _ _ _ _ h2
  unfold Principal.heap
  unfold stringSize at h2
  dsimp only
  omega

theorem keeps_address : Keeps (fun a : Address => a.addrdata.length) metAddress := by
  intro i a r c h
  unfold metAddress at h
  obtain ⟨_, _, _, _, -, h, hc⟩ := Metered.bind_ok h
  obtain ⟨_, _, _, _, h1, h, hc⟩ := Metered.bind_ok h
  obtain ⟨rfl, -, hc⟩ := Metered.pure_ok h
  have h1 := Keeps.copied _ _ _ _ _ h1
  dsimp only
  omega

theorem keeps_key : Keeps (fun k : KeyBlock => k.keyvalue.length) metKeyBlock := by
  intro i a r c h
  unfold metKeyBlock at h
  obtain ⟨_, _, _, _, -, h, hc⟩ := Metered.bind_ok h
  obtain ⟨_, _, _, _, -, h, hc⟩ := Metered.bind_ok h
  obtain ⟨_, _, _, _, h1, h, hc⟩ := Metered.bind_ok h
  obtain ⟨rfl, -, hc⟩ := Metered.pure_ok h
  have h1 := Keeps.copied _ _ _ _ _ h1
  dsimp only [KeyBlock.new]
  omega

theorem keeps_credential (limit : Option Nat) : Keeps Credential.heap (metCredential limit) := by
  intro i a r c h
  unfold metCredential at h
  obtain ⟨_, _, _, _, h1, h, hc⟩ := Metered.bind_ok h
  obtain ⟨_, _, _, _, h2, h, hc⟩ := Metered.bind_ok h
  obtain ⟨_, _, _, _, h3, h, hc⟩ := Metered.bind_ok h
  obtain ⟨_, _, _, _, -, h, hc⟩ := Metered.bind_ok h
  obtain ⟨_, _, _, _, -, h, hc⟩ := Metered.bind_ok h
  obtain ⟨_, _, _, _, -, h, hc⟩ := Metered.bind_ok h
  obtain ⟨_, _, _, _, -, h, hc⟩ := Metered.bind_ok h
  obtain ⟨_, _, _, _, h4, h, hc⟩ := Metered.bind_ok h
  obtain ⟨_, _, _, _, -, h, hc⟩ := Metered.bind_ok h
  obtain ⟨_, _, _, _, h5, h, hc⟩ := Metered.bind_ok h
  obtain ⟨_, _, _, _, h6, h, hc⟩ := Metered.bind_ok h
  obtain ⟨_, _, _, _, h7, h, hc⟩ := Metered.bind_ok h
  obtain ⟨rfl, -, hc⟩ := Metered.pure_ok h
  have h1 := keeps_principal _ _ _ _ _ h1
  have h2 := keeps_principal _ _ _ _ _ h2
  have h3 := keeps_key _ _ _ _ h3
  have h4 := Keeps.manyN keeps_address limit addressSize _ _ _ _ _ h4
  have h5 := Keeps.manyN keeps_address limit addressSize _ _ _ _ _ h5
  have h6 := Keeps.copied _ _ _ _ _ h6
  have h7 := Keeps.copied _ _ _ _ _ h7
  unfold Credential.heap Credential.new
  unfold addressSize at h4 h5
  dsimp only at h3 ⊢
  omega

theorem keeps_ccache (limit : Option Nat) : Keeps CCache.heap (metCCache limit) := by
  intro i a r c h
  unfold metCCache at h
  obtain ⟨_, _, _, _, -, h, hc⟩ := Metered.bind_ok h
  obtain ⟨_, _, _, _, -, h, hc⟩ := Metered.bind_ok h
  obtain ⟨_, _, _, _, h1, h, hc⟩ := Metered.bind_ok h
  obtain ⟨_, _, _, _, h2, h, hc⟩ := Metered.bind_ok h
  obtain ⟨_, _, _, _, h3, h, hc⟩ := Metered.bind_ok h
  obtain ⟨rfl, -, hc⟩ := Metered.pure_ok h
  unfold metHeader at h1
  obtain ⟨_, _, _, _, -, h1, hc⟩ := Metered.bind_ok h1
  obtain ⟨_, _, _, _, h4, h1, hc⟩ := Metered.bind_ok h1
  obtain ⟨rfl, -, hc⟩ := Metered.pure_ok h1
  have h4 := Keeps.copied _ _ _ _ _ h4
  have h2 := keeps_principal _ _ _ _ _ h2
  have h3 := Keeps.many0 (keeps_credential limit) credentialSize _ _ _ _ h3
  unfold CCache.heap CCache.new
  unfold credentialSize at h3
  dsimp only
  omega

end CC

namespace KT

theorem keeps_key : Keeps (fun k : KeyBlock => k.keyvalue.length) metKeyBlock := by
  intro i a r c h
  unfold metKeyBlock at h
  obtain ⟨_, _, _, _, -, h, hc⟩ := Metered.bind_ok h
  obtain ⟨_, _, _, _, h1, h, hc⟩ := Metered.bind_ok h
  obtain ⟨rfl, -, hc⟩ := Metered.pure_ok h
  have h1 := Keeps.copied _ _ _ _ _ h1
  dsimp only
  omega

theorem keeps_body (limit : Option Nat) : Keeps KeytabEntry.heap (metBody limit) := by
  intro i a r c h
  unfold metBody at h
  obtain ⟨_, _, _, _, -, h, hc⟩ := Metered.bind_ok h
  obtain ⟨_, _, _, _, h1, h, hc⟩ := Metered.bind_ok h
  obtain ⟨_, _, _, _, h2, h, hc⟩ := Metered.bind_ok h
  obtain ⟨_, _, _, _, -, h, hc⟩ := Metered.bind_ok h
  obtain ⟨_, _, _, _, -, h, hc⟩ := Metered.bind_ok h
  obtain ⟨_, _, _, _, -, h, hc⟩ := Metered.bind_ok h
  obtain ⟨_, _, _, _, h3, h, hc⟩ := Metered.bind_ok h
  obtain ⟨_, _, _, _, -, h, hc⟩ := Metered.bind_ok h
  obtain ⟨rfl, -, hc⟩ := Metered.pure_ok h
  have h1 := Keeps.copied _ _ _ _ _ h1
  have h2 := Keeps.manyN (Keeps.copied lengthData16) limit CC.stringSize _ _ _ _ _ h2
  have h3 := keeps_key _ _ _ _ h3
  unfold KeytabEntry.heap
  unfold CC.stringSize at h2
  dsimp only at h3 ⊢
  omega

theorem keeps_entry (limit : Option Nat) (dbg : Bool) : Keeps KeytabEntry.heap (metEntry limit dbg) := by
  intro i a r c h
  unfold metEntry at h
  obtain ⟨size, _, _, _, -, h, hc⟩ := Metered.bind_ok h
  by_cases hs : size < 0
  · rw [if_pos hs] at h
    by_cases h2 : dbg = true ∧ size = Int32.minValue
    · rw [if_pos h2] at h; unfold metPanic at h; cases h
    · rw [if_neg h2] at h
      obtain ⟨_, _, _, _, -, h, hc⟩ := Metered.bind_ok h
      obtain ⟨rfl, -, hc⟩ := Metered.pure_ok h
      exact Nat.zero_le _
  · rw [if_neg hs] at h
    obtain ⟨raw, _, _, _, -, h, hc⟩ := Metered.bind_ok h
    unfold metRecord at h
    rcases hb : metBody limit raw with ⟨(e | ⟨b, r2⟩), c⟩
    · rw [hb] at h; cases h
    · rw [hb] at h
      cases h
      have := keeps_body _ _ _ _ _ hb
      omega

theorem keeps_keytab (limit : Option Nat) (dbg : Bool) : Keeps Keytab.heap (metKeytab limit dbg) := by
  intro i a r c h
  unfold metKeytab at h
  obtain ⟨_, _, _, _, -, h, hc⟩ := Metered.bind_ok h
  obtain ⟨_, _, _, _, -, h, hc⟩ := Metered.bind_ok h
  obtain ⟨_, _, _, _, h1, h, hc⟩ := Metered.bind_ok h
  obtain ⟨rfl, -, hc⟩ := Metered.pure_ok h
  have h1 := Keeps.many0 (keeps_entry limit dbg) entrySize _ _ _ _ h1
  unfold Keytab.heap
  unfold entrySize at h1
  dsimp only
  omega

end KT

/-! ### Steps -/

theorem Counts.bind {α β} {K : Nat} {p : Metered α} {f : α → Metered β} (h : Counts K p) (hf : ∀ a, Counts K (f a)) : Counts K (p >>= f) := by
  intro i b r c hr
  obtain ⟨a, r', c1, c2, h1, h2, rfl⟩ := Metered.bind_ok hr
  have h1 := h _ _ _ _ h1
  have h2 := hf _ _ _ _ _ h2
  rw [Nat.mul_add]
  omega

theorem Counts.pure {α} (K : Nat) (a : α) : Counts K (Pure.pure a : Metered α) := by
  intro i b r c h
  obtain ⟨-, rfl, rfl⟩ := Metered.pure_ok h
  omega

theorem Counts.ticks {α} {K n : Nat} {p : Parser α} (h : ∀ i a r, p i = .ok (a, r) → i.length ≤ r.length + K * n) : Counts K (ticks n p) := by
  intro i a r c hr
  unfold Verif.ticks at hr
  injection hr with h1 h2
  subst h2
  exact h i a r h1

theorem Counts.copying {K : Nat} {p : Parser Bytes} (h : ∀ i a r, p i = .ok (a, r) → i.length ≤ r.length + K * (2 + a.length)) :
    Counts K (copying p) := by
  intro i a r c hr
  unfold Verif.copying at hr
  rcases hp : p i with (e | ⟨d, r'⟩)
  · rw [hp] at hr; cases hr
  · rw [hp] at hr; cases hr; exact h _ _ _ hp

theorem Counts.manyN {α} {K : Nat} {p : Metered α} (h : Counts K p) (limit : Option Nat) (size n : Nat) : Counts K (workManyN limit size p n) := by
  have loop : ∀ n len cap i l r c, Verif.workLoop p size n len cap i = (.ok (l, r), c) → i.length ≤ r.length + K * c := by
    intro n
    induction n with
    | zero => intro len cap i l r c hr; simp only [Verif.workLoop] at hr; cases hr; omega
    | succ n ih =>
      intro len cap i l r c hr
      simp only [Verif.workLoop] at hr
      rcases hp : p i with ⟨(e | ⟨a, r'⟩), c1⟩
      · rw [hp] at hr; cases hr
      · rw [hp] at hr
        dsimp only at hr
        split at hr
        · cases hr
        · rcases hm : Verif.workLoop p size n (len + 1) (grown len cap) r' with ⟨(e | ⟨as, r''⟩), c'⟩
          · rw [hm] at hr; cases hr
          · rw [hm] at hr
            cases hr
            have h1 := h _ _ _ _ hp
            have h2 := ih _ _ _ _ _ _ hm
            simp only [Nat.mul_add]
            omega
  intro i l r c hr
  exact loop _ _ _ _ _ _ _ hr

theorem Counts.many0 {α} {K : Nat} {p : Metered α} (h : Counts K p) (size : Nat) : Counts K (workMany0 size p) := by
  have loop : ∀ n len cap i l r c, Verif.work0Loop p size n len cap i = (.ok (l, r), c) → i.length ≤ r.length + K * c := by
    intro n
    induction n with
    | zero => intro len cap i l r c hr; simp only [Verif.work0Loop] at hr; cases hr
    | succ n ih =>
      intro len cap i l r c hr
      simp only [Verif.work0Loop] at hr
      rcases hp : p i with ⟨(e | ⟨a, r'⟩), c1⟩
      · rw [hp] at hr
        cases e <;> dsimp only at hr <;> cases hr
        omega
      · rw [hp] at hr
        dsimp only at hr
        split at hr
        · cases hr
        · rcases hm : Verif.work0Loop p size n (len + 1) (grown len cap) r' with ⟨(e | ⟨as, r''⟩), c'⟩
          · rw [hm] at hr; cases hr
          · rw [hm] at hr
            cases hr
            have h1 := h _ _ _ _ hp
            have h2 := ih _ _ _ _ _ _ hm
            simp only [Nat.mul_add]
            omega
  intro i l r c hr
  exact loop _ _ _ _ _ _ _ hr

theorem beU8_len {i r : Bytes} {a} (h : beU8 i = .ok (a, r)) : i.length = r.length + 1 := by
  rcases i with _ | ⟨x, i⟩
  · cases h
  · cases h; rfl
theorem beU16_len {i r : Bytes} {a} (h : beU16 i = .ok (a, r)) : i.length = r.length + 2 := by
  rcases i with _ | ⟨x, _ | ⟨y, i⟩⟩
  · cases h
  · cases h
  · cases h; rfl
theorem beU32_len {i r : Bytes} {a} (h : beU32 i = .ok (a, r)) : i.length = r.length + 4 := by
  rcases i with _ | ⟨x, _ | ⟨y, _ | ⟨z, _ | ⟨w, i⟩⟩⟩⟩ <;> cases h
  rfl
theorem lengthDataN_len {n : Nat} {i r a : Bytes} (h : lengthDataN n i = .ok (a, r)) : i.length = r.length + a.length := by
  unfold lengthDataN at h
  split at h
  · cases h
  · cases h; simp; omega
theorem lengthData16_len {i r a : Bytes} (h : lengthData16 i = .ok (a, r)) : i.length = r.length + 2 + a.length := by
  unfold lengthData16 at h
  rw [bind_def] at h
  rcases h1 : beU16 i with (e | ⟨n, r'⟩)
  · rw [h1] at h; cases h
  · rw [h1] at h
    have := beU16_len h1
    have := lengthDataN_len h
    omega
theorem lengthData32_len {i r a : Bytes} (h : lengthData32 i = .ok (a, r)) : i.length = r.length + 4 + a.length := by
  unfold lengthData32 at h
  rw [bind_def] at h
  rcases h1 : beU32 i with (e | ⟨n, r'⟩)
  · rw [h1] at h; cases h
  · rw [h1] at h
    have := beU32_len h1
    have := lengthDataN_len h
    omega

theorem counts_u8 : Counts 4 (ticks 1 beU8) := Counts.ticks fun _ _ _ h => by have := beU8_len h; omega
theorem counts_u16 : Counts 4 (ticks 1 beU16) := Counts.ticks fun _ _ _ h => by have := beU16_len h; omega
theorem counts_u32 : Counts 4 (ticks 1 beU32) := Counts.ticks fun _ _ _ h => by have := beU32_len h; omega
theorem counts_data16 : Counts 4 (copying lengthData16) := Counts.copying fun _ _ _ h => by have := lengthData16_len h; omega
theorem counts_data32 : Counts 4 (copying lengthData32) := Counts.copying fun _ _ _ h => by have := lengthData32_len h; omega

namespace CC

theorem times_len {i r : Bytes} {a} (h : Times.parse i = .ok (a, r)) : i.length ≤ r.length + 16 := by
  unfold Times.parse at h
  simp only [bind_def] at h
  rcases h1 : beU32 i with (e | ⟨n, r1⟩)
  · rw [h1] at h; cases h
  rw [h1] at h; dsimp only at h
  rcases h2 : beU32 r1 with (e | ⟨n2, r2⟩)
  · rw [h2] at h; cases h
  rw [h2] at h; dsimp only at h
  rcases h3 : beU32 r2 with (e | ⟨n3, r3⟩)
  · rw [h3] at h; cases h
  rw [h3] at h; dsimp only at h
  rcases h4 : beU32 r3 with (e | ⟨n4, r4⟩)
  · rw [h4] at h; cases h
  rw [h4] at h; dsimp only at h
  cases h
  have := beU32_len h1
  have := beU32_len h2
  have := beU32_len h3
  have := beU32_len h4
  omega

theorem counts_principal (limit : Option Nat) : Counts 4 (workPrincipal limit) :=
  counts_u32.bind fun _ => counts_u32.bind fun _ => counts_data32.bind fun _ => (counts_data32.manyN _ _ _).bind fun _ => Counts.pure _ _

theorem counts_address : Counts 4 workAddress := counts_u16.bind fun _ => counts_data32.bind fun _ => Counts.pure _ _

theorem counts_credential (limit : Option Nat) : Counts 4 (workCredential limit) :=
  (counts_principal _).bind fun _ => (counts_principal _).bind fun _ =>
    (counts_u16.bind fun _ => counts_u16.bind fun _ => counts_data16.bind fun _ => Counts.pure _ _ : Counts 4 workKeyBlock).bind fun _ =>
    (Counts.ticks fun _ _ _ h => times_len h).bind fun _ => counts_u8.bind fun _ => counts_u32.bind fun _ => counts_u32.bind fun _ =>
    (counts_address.manyN _ _ _).bind fun _ => counts_u32.bind fun _ => (counts_address.manyN _ _ _).bind fun _ =>
    counts_data32.bind fun _ => counts_data32.bind fun _ => Counts.pure _ _

theorem counts_tag : Counts 4 (ticks 1 (tagC [0x05, 0x04])) := Counts.ticks fun i a r h => by
  unfold tagC at h
  split at h
  · injection h with h
    injection h with _ h
    subst h
    simp
    omega
  · cases h

theorem counts_ccache (limit : Option Nat) : Counts 4 (workCCache limit) :=
  counts_tag.bind fun _ => counts_u16.bind fun _ =>
    (counts_u16.bind fun _ => counts_data16.bind fun _ => Counts.pure _ _ : Counts 4 workHeader).bind fun _ =>
    (counts_principal _).bind fun _ => ((counts_credential _).many0 _).bind fun _ => Counts.pure _ _

end CC

/-! ### C101, C110 -/

/-- C101. What the loaded value keeps on the heap, all strings and the elements of all vectors, is among the bytes counted: the
memory asked for is between the size of the result and the bounds. -/
theorem c101_kept (limit : Option Nat) (dbg : Bool) (raw rest : Bytes) :
    (∀ c, CC.CCache.parse raw = .ok (c, rest) → c.heap ≤ (CC.metCCache limit raw).2) ∧
    (∀ k, KT.Keytab.parse dbg raw = .ok (k, rest) → k.heap ≤ (KT.metKeytab limit dbg raw).2) := by
  refine ⟨fun c h => ?_, fun k h => ?_⟩
  · rw [← (c101_same limit dbg raw).1] at h
    exact CC.keeps_ccache limit raw c rest _ (Prod.ext h rfl)
  · rw [← (c101_same limit dbg raw).2] at h
    exact KT.keeps_keytab limit dbg raw k rest _ (Prod.ext h rfl)

/-- C110. No byte of a cache is read without being counted: at most four bytes are read in a step, so that the steps for a file that
is read to its end are at least a quarter of its bytes. -/
theorem c110_counted (limit : Option Nat) (raw rest : Bytes) (c : CC.CCache) (h : CC.CCache.parse raw = .ok (c, rest)) :
    raw.length ≤ rest.length + 4 * (CC.workCCache limit raw).2 := by
  rw [← (c110_same limit false raw).1] at h
  exact CC.counts_ccache limit raw c rest _ (Prod.ext h rfl)

-- the sample files are read, with something on the heap
example : CC.CCache.parse CC.sampleCache.build = .ok (CC.sampleCache, []) ∧ 264 < CC.sampleCache.heap := by decide +kernel

end Verif
