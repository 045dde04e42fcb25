import Verif.ConstantsModel
import Verif.Props.Asn1
/-
Property theorems C66 (names of error codes) and C67 (flag constants on the wire).
-/
namespace Verif.Const
open Verif.Asn1

/-! ### C66 -/

/-- C66. For every 32-bit code: the text is the name of the constant with that value, and empty exactly if there is none. -/
theorem c66_name (code : Int32) :
    (∀ name, (name, code) ∈ errorConstants → errorCodeToString code = name) ∧
    (errorCodeToString code = "" ↔ ∀ name, (name, code) ∉ errorConstants) := by
  have names : ∀ p ∈ errorConstants, errorCodeToString p.2 = p.1 ∧ p.1 ≠ "" := by decide +kernel
  have none : (∀ name, (name, code) ∉ errorConstants) → errorCodeToString code = "" := by
    intro h
    have hv : ∀ v ∈ errorConstants.map Prod.snd, code ≠ v := by
      intro v hv he
      obtain ⟨p, hp, rfl⟩ := List.mem_map.1 hv
      subst he
      exact h p.1 hp
    unfold errorConstants at hv
    simp only [List.map_cons, List.map_nil, List.forall_mem_cons] at hv
    unfold errorCodeToString
    simp only [hv, if_false]
  refine ⟨fun name h => (names _ h).1, ⟨fun h name hm => ?_, none⟩⟩
  have := names _ hm
  exact this.2 (this.1.symm.trans h)

/-- C66. Different codes with names have different names: the text identifies the error. -/
theorem c66_injective (a b : Int32) (h : errorCodeToString a = errorCodeToString b) (hn : errorCodeToString a ≠ "") : a = b := by
  have has : ∀ c, errorCodeToString c ≠ "" → ∃ name, (name, c) ∈ errorConstants := by
    intro c hc
    refine Classical.byContradiction fun hno => hc (((c66_name c).2).2 fun name hm => hno ⟨name, hm⟩)
  obtain ⟨na, ha⟩ := has a hn
  obtain ⟨nb, hb⟩ := has b (h ▸ hn)
  have e : na = nb := by rw [← (c66_name a).1 na ha, ← (c66_name b).1 nb hb, h]
  subst e
  have inj : ∀ p ∈ errorConstants, ∀ q ∈ errorConstants, p.1 = q.1 → p.2 = q.2 := by decide +kernel
  exact inj _ ha _ hb rfl

example : errorCodeToString 25 = "KDC_ERR_PREAUTH_REQUIRED" ∧ errorCodeToString 30 = "" ∧ errorCodeToString (-1) = "" := by
  decide +kernel

/-! ### C67 -/

/-- bit `i` (counted from the left, as ASN.1 does) of a built flag word: three bytes of header, then the bits -/
def wireBit (raw : Bytes) (i : Nat) : Bool := ((raw.getD (3 + i / 8) 0).toNat).testBit (7 - i % 8)

/-- RFC 4120 5.4.1 KDCOptions, MS-SFU (14), RFC 6806 (15), RFC 6112 (16): bit numbers -/
def kdcOptionBits : List (String × Nat) := [
  ("FORWARDABLE", 1), ("FORWARDED", 2), ("PROXIABLE", 3), ("PROXY", 4), ("ALLOW_POSTDATE", 5), ("POSTDATED", 6),
  ("RENEWABLE", 8), ("OPT_HARDWARE_AUTH", 11), ("CONSTRAINED_DELEGATION", 14), ("CANONICALIZE", 15),
  ("REQUEST_ANONYMOUS", 16), ("DISABLE_TRANSITED_CHECK", 26), ("RENEWABLE_OK", 27), ("ENC_TKT_IN_SKEY", 28),
  ("RENEW", 30), ("VALIDATE", 31)]

/-- RFC 4120 5.3 TicketFlags, RFC 6112 (anonymous, 16), RFC 6806 (15) -/
def ticketFlagBits : List (String × Nat) := [
  ("RESERVED", 0), ("FORWARDABLE", 1), ("FORWARDED", 2), ("PROXIABLE", 3), ("PROXY", 4), ("MAY_POSTDATE", 5),
  ("POSTDATE", 6), ("INVALID", 7), ("RENEWABLE", 8), ("INITIAL", 9), ("PRE_AUTHENT", 10), ("HW_AUTHENT", 11),
  ("TRANSITED_POLICY_CHECKED", 12), ("OK_AS_DELEGATE", 13), ("NAME_CANONICALIZE", 15), ("REQUEST_ANONYMOUS", 16)]

/-- MS-KILE 2.2.10, MS-SFU 2.2.5 PA-PAC-OPTIONS -/
def paPacOptionBits : List (String × Nat) := [
  ("CLAIMS", 0), ("BRANCH_AWARE", 1), ("FORWARD_TO_FULL_DC", 2), ("RESOURCE_BASED_CONSTRAINED_DELEGATION", 3)]

/-- RFC 4120 5.5.1 APOptions -/
def apOptionBits : List (String × Nat) := [("RESERVED", 0), ("USE_SESSION_KEY", 1), ("MUTUAL_REQUIRED", 2)]

/-- adding the flag `mask` to any flag word changes its wire form in exactly one way: bit `i` is set -/
def SetsBit (mask : UInt32) (i : Nat) : Prop :=
  ∀ (g : Cfg) (w : UInt32) (j : Nat), j < 32 →
    wireBit (MsgType.build g .kerberosFlags (w ||| mask)) j = (wireBit (MsgType.build g .kerberosFlags w) j || decide (j = i))

theorem wireBit_build (g : Cfg) (w : UInt32) (j : Nat) (h : j < 32) :
    wireBit (MsgType.build g .kerberosFlags w) j = w.toNat.testBit (31 - j) := by
  rw [c40_wire_bits]
  have low : ∀ (n k : Nat), k < 8 → (UInt8.ofNat n).toNat.testBit k = n.testBit k := by
    intro n k hk
    rw [UInt8.toNat_ofNat', Nat.testBit_mod_two_pow]
    simp [hk]
  have hj : j / 8 = 0 ∨ j / 8 = 1 ∨ j / 8 = 2 ∨ j / 8 = 3 := by omega
  unfold wireBit
  rcases hj with h1 | h1 | h1 | h1 <;> rw [h1]
  · show (UInt8.ofNat (w.toNat / 2^24)).toNat.testBit _ = _
    rw [low _ _ (by omega), Nat.testBit_div_two_pow]
    congr 1; omega
  · show (UInt8.ofNat (w.toNat / 2^16)).toNat.testBit _ = _
    rw [low _ _ (by omega), Nat.testBit_div_two_pow]
    congr 1; omega
  · show (UInt8.ofNat (w.toNat / 2^8)).toNat.testBit _ = _
    rw [low _ _ (by omega), Nat.testBit_div_two_pow]
    congr 1; omega
  · show (UInt8.ofNat w.toNat).toNat.testBit _ = _
    rw [low _ _ (by omega)]
    congr 1; omega

theorem setsBit_of {mask : UInt32} {i : Nat} (hi : i < 32) (h : mask.toNat = 2 ^ (31 - i)) : SetsBit mask i := by
  intro g w j hj
  rw [wireBit_build g _ j hj, wireBit_build g _ j hj, UInt32.toNat_or, Nat.testBit_or, h, Nat.testBit_two_pow]
  congr 1
  apply decide_eq_decide.2
  omega

theorem SetsBit.unique {mask : UInt32} {i i' : Nat} (hi : i < 32) (hi' : i' < 32) (h : SetsBit mask i) (h' : SetsBit mask i') :
    i = i' := by
  have e := (h strictCfg 0 i hi).symm.trans (h' strictCfg 0 i hi)
  have z : wireBit (MsgType.build strictCfg .kerberosFlags (0 : UInt32)) i = false := by
    rw [wireBit_build _ _ _ hi]
    exact Nat.zero_testBit _
  rw [z] at e
  simpa using e

/-- C67. Every KDC option, PA-PAC option and ticket flag except one sets exactly the bit the standard gives it, in every
flag word. -/
theorem c67_standard_bits :
    (∀ name mask i, (name, mask) ∈ kdcOptions → (name, i) ∈ kdcOptionBits → SetsBit mask i) ∧
    (∀ name mask i, (name, mask) ∈ paPacOptions → (name, i) ∈ paPacOptionBits → SetsBit mask i) ∧
    (∀ name mask i, (name, mask) ∈ ticketFlags → (name, i) ∈ ticketFlagBits → name ≠ "REQUEST_ANONYMOUS" → SetsBit mask i) := by
  have h1 : ∀ p ∈ kdcOptions, ∀ q ∈ kdcOptionBits, p.1 = q.1 → q.2 < 32 ∧ p.2.toNat = 2 ^ (31 - q.2) := by decide +kernel
  have h2 : ∀ p ∈ paPacOptions, ∀ q ∈ paPacOptionBits, p.1 = q.1 → q.2 < 32 ∧ p.2.toNat = 2 ^ (31 - q.2) := by decide +kernel
  have h3 : ∀ p ∈ ticketFlags, ∀ q ∈ ticketFlagBits, p.1 = q.1 → p.1 ≠ "REQUEST_ANONYMOUS" →
      q.2 < 32 ∧ p.2.toNat = 2 ^ (31 - q.2) := by decide +kernel
  refine ⟨?_, ?_, ?_⟩
  · intro name mask i hm hi
    obtain ⟨a, b⟩ := h1 _ hm _ hi rfl
    exact setsBit_of a b
  · intro name mask i hm hi
    obtain ⟨a, b⟩ := h2 _ hm _ hi rfl
    exact setsBit_of a b
  · intro name mask i hm hi hn
    obtain ⟨a, b⟩ := h3 _ hm _ hi rfl hn
    exact setsBit_of a b

/-- C67. Every named flag of these words is covered by the tables above (except the empty option word). -/
theorem c67_covered :
    (∀ p ∈ kdcOptions, p.1 = "NO_OPTION" ∧ p.2 = 0 ∨ ∃ i, (p.1, i) ∈ kdcOptionBits) ∧
    (∀ p ∈ paPacOptions, ∃ i, (p.1, i) ∈ paPacOptionBits) ∧ (∀ p ∈ ticketFlags, ∃ i, (p.1, i) ∈ ticketFlagBits) := by
  have h : ∀ (l : List (String × Nat)) (n : String), n ∈ l.map Prod.fst → ∃ i, (n, i) ∈ l := by
    intro l n hn
    obtain ⟨p, hp, rfl⟩ := List.mem_map.1 hn
    exact ⟨p.2, hp⟩
  refine ⟨?_, ?_, ?_⟩
  · have : ∀ p ∈ kdcOptions, p.1 = "NO_OPTION" ∧ p.2 = 0 ∨ p.1 ∈ kdcOptionBits.map Prod.fst := by decide +kernel
    exact fun p hp => (this p hp).imp id (h _ _)
  · have : ∀ p ∈ paPacOptions, p.1 ∈ paPacOptionBits.map Prod.fst := by decide +kernel
    exact fun p hp => h _ _ (this p hp)
  · have : ∀ p ∈ ticketFlags, p.1 ∈ ticketFlagBits.map Prod.fst := by decide +kernel
    exact fun p hp => h _ _ (this p hp)

/-- C67, the violations. The AP options are bit numbers used as flag words: "use session key" sets bit 31 instead of 1,
"mutual required" bit 30 instead of 2, "reserved" no bit at all; the ticket flag for anonymous tickets sets bit 14
instead of 16. -/
theorem c67_wrong_bits :
    (∀ mask, ("USE_SESSION_KEY", mask) ∈ apOptions → SetsBit mask 31 ∧ ¬ SetsBit mask 1) ∧
    (∀ mask, ("MUTUAL_REQUIRED", mask) ∈ apOptions → SetsBit mask 30 ∧ ¬ SetsBit mask 2) ∧
    (∀ mask, ("RESERVED", mask) ∈ apOptions → ∀ i < 32, ¬ SetsBit mask i) ∧
    (∀ mask, ("REQUEST_ANONYMOUS", mask) ∈ ticketFlags → SetsBit mask 14 ∧ ¬ SetsBit mask 16) := by
  have key : ∀ (mask : UInt32) (i k : Nat), i < 32 → k < 32 → i ≠ k → mask.toNat = 2 ^ (31 - i) →
      SetsBit mask i ∧ ¬ SetsBit mask k := by
    intro mask i k hi hk hne h
    refine ⟨setsBit_of hi h, fun h' => hne ((setsBit_of hi h).unique hi hk h')⟩
  have v : ∀ p ∈ apOptions, (p.1 = "USE_SESSION_KEY" → p.2.toNat = 2 ^ (31 - 31)) ∧ (p.1 = "MUTUAL_REQUIRED" → p.2.toNat = 2 ^ (31 - 30)) ∧
      (p.1 = "RESERVED" → p.2 = 0) := by decide +kernel
  have v' : ∀ p ∈ ticketFlags, p.1 = "REQUEST_ANONYMOUS" → p.2.toNat = 2 ^ (31 - 14) := by decide +kernel
  refine ⟨?_, ?_, ?_, ?_⟩
  · exact fun mask h => key mask 31 1 (by omega) (by omega) (by omega) ((v _ h).1 rfl)
  · exact fun mask h => key mask 30 2 (by omega) (by omega) (by omega) ((v _ h).2.1 rfl)
  · intro mask h i hi hs
    have e : mask = 0 := (v _ h).2.2 rfl
    subst e
    have := hs strictCfg 0 i hi
    simp only [UInt32.or_zero, decide_true, Bool.or_true] at this
    rw [wireBit_build _ _ _ hi] at this
    exact absurd this (by rw [show (0 : UInt32).toNat = 0 from rfl, Nat.zero_testBit]; exact Bool.false_ne_true)
  · exact fun mask h => key mask 14 16 (by omega) (by omega) (by omega) (v' _ h rfl)

/-- the hypotheses are met: mutual authentication as an application asks for it -/
example : MsgType.build strictCfg .kerberosFlags ((0 : UInt32) ||| 2) = [3, 5, 0, 0, 0, 0, 2] ∧
    ("MUTUAL_REQUIRED", 2) ∈ apOptions ∧ ("CANONICALIZE", 0x00010000) ∈ kdcOptions := by decide +kernel

end Verif.Const
