import Verif.Props.Dialogue
/-
C83: messages of different kinds are told apart by their application tags (RFC 4120 section 5.10).
-/
namespace Verif.Asn1

/-- RFC 4120 section 5.10, application tag numbers; `none` for the types without one -/
def applicationNumber : MsgType → Option Nat
  | .ticket => some 1
  | .authenticator => some 2
  | .encTicketPart => some 3
  | .asReq => some 10
  | .asRep => some 11
  | .tgsReq => some 12
  | .tgsRep => some 13
  | .apReq => some 14
  | .apRep => some 15
  | .krbSafe => some 20
  | .krbPriv => some 21
  | .krbCred => some 22
  | .encAsRepPart => some 25
  | .encTgsRepPart => some 26
  | .encApRepPart => some 27
  | .encKrbPrivPart => some 28
  | .encKrbCredPart => some 29
  | .krbError => some 30
  | _ => none

theorem tag_of_number (g : Cfg) (T : MsgType) (n : Nat) (h : applicationNumber T = some n) :
    (T.codec g).tag = UInt8.ofNat (0x60 + n) ∧ n ≤ 30 := by
  cases T <;> simp only [applicationNumber, Option.some.injEq, reduceCtorEq] at h <;> subst h <;>
    exact ⟨rfl, by decide⟩

theorem tag_without (g : Cfg) (T : MsgType) (h : applicationNumber T = none) : (T.codec g).tag.toNat < 0x60 := by
  cases T <;> simp only [applicationNumber, reduceCtorEq] at h <;> exact of_decide_eq_true rfl

theorem appByte_inj {n m : Nat} (hn : n ≤ 30) (hm : m ≤ 30) (h : UInt8.ofNat (0x60 + n) = UInt8.ofNat (0x60 + m)) : n = m := by
  have := congrArg UInt8.toNat h
  simp only [UInt8.toNat_ofNat'] at this
  omega

theorem dec_head {α} {g : Cfg} {c : Codec α} {i : Bytes} {v : α} {r : Bytes} (h : c.dec g i = .ok (v, r)) :
    i.head? = some c.tag := by
  unfold Codec.dec at h
  cases hp : parseTlv g c.tag i with
  | error e => simp [hp] at h
  | ok x =>
    cases i with
    | nil => simp [parseTlv] at hp
    | cons t i =>
      by_cases ht : t = c.tag
      · simp [ht]
      · simp [parseTlv, ht] at hp

/-- C83. The first byte of a message with application number `n` is 0x60 + n, of any other type a universal tag. -/
theorem c83_first_byte (g : Cfg) (T : MsgType) (v : T.Value) :
    match applicationNumber T with
    | some n => (T.build g v).head? = some (UInt8.ofNat (0x60 + n))
    | none => ∃ t, (T.build g v).head? = some t ∧ t.toNat < 0x60 := by
  have h0 : (T.build g v).head? = some (T.codec g).tag := rfl
  cases h : applicationNumber T with
  | some n => exact h0.trans (congrArg some (tag_of_number g T n h).1)
  | none => exact ⟨_, h0, tag_without g T h⟩

/-- C83. The bytes of a message with an application number, whatever follows them, are refused by every type with another
or no number; those of a type without a number are refused by every type with one. -/
theorem c83_not_confused (g : Cfg) (T T' : MsgType) (v : T.Value) (rest : Bytes)
    (h : applicationNumber T ≠ applicationNumber T') : T'.parse g (T.build g v ++ rest) = .error .error := by
  have hne : (T.codec g).tag ≠ (T'.codec g).tag := by
    intro he
    cases h1 : applicationNumber T with
    | some n =>
      obtain ⟨t1, l1⟩ := tag_of_number g T n h1
      cases h2 : applicationNumber T' with
      | some m =>
        obtain ⟨t2, l2⟩ := tag_of_number g T' m h2
        rw [t1, t2] at he
        exact h (by rw [h1, h2, appByte_inj l1 l2 he])
      | none =>
        have := tag_without g T' h2
        rw [← he, t1, UInt8.toNat_ofNat'] at this
        omega
    | none =>
      have := tag_without g T h1
      cases h2 : applicationNumber T' with
      | some m =>
        obtain ⟨t2, l2⟩ := tag_of_number g T' m h2
        rw [he, t2, UInt8.toNat_ofNat'] at this
        omega
      | none => exact h (by rw [h1, h2])
  show (T'.codec g).dec g ((T.codec g).enc v ++ rest) = _
  simp [Codec.dec, Codec.enc, tlv, parseTlv, hne]

/-- C83. No bytes at all are read as two different messages with application numbers. -/
theorem c83_one_kind (g : Cfg) (T T' : MsgType) (n n' : Nat) (hn : applicationNumber T = some n)
    (hn' : applicationNumber T' = some n') (i : Bytes) (v v' r r') (h : T.parse g i = .ok (v, r))
    (h' : T'.parse g i = .ok (v', r')) : T = T' := by
  have e := (dec_head h).symm.trans (dec_head h')
  injection e with e
  obtain ⟨t1, l1⟩ := tag_of_number g T n hn
  obtain ⟨t2, l2⟩ := tag_of_number g T' n' hn'
  rw [t1, t2] at e
  have := appByte_inj l1 l2 e
  subst this
  cases T <;> simp only [applicationNumber, Option.some.injEq, reduceCtorEq] at hn <;> subst hn <;>
    cases T' <;> simp only [applicationNumber, Option.some.injEq, reduceCtorEq] at hn' <;> first | rfl | omega

end Verif.Asn1

namespace Verif.Asn1

/-- C83. The parts of AS and TGS replies differ only in their first byte, 0x79 and 0x7a. -/
theorem c83_parts (g : Cfg) (p : EncAsRepPart) :
    ∃ body, MsgType.build g .encAsRepPart p = 0x79 :: body ∧
      MsgType.build g .encTgsRepPart (EncTgsRepPart.ofAs p) = 0x7a :: body :=
  ⟨_, rfl, rfl⟩

/-- C83. Without application numbers nothing tells types apart: a key, an address, a checksum and an authorization-data
entry with the same number and bytes are the same bytes. -/
theorem c83_untagged (g : Cfg) (t : Int32) (b : Bytes) :
    MsgType.build g .encryptionKey ⟨t, b⟩ = MsgType.build g .hostAddress ⟨t, b⟩ ∧
    MsgType.build g .checksum ⟨t, b⟩ = MsgType.build g .hostAddress ⟨t, b⟩ ∧
    MsgType.build g .authorizationDataEntry ⟨t, b⟩ = MsgType.build g .hostAddress ⟨t, b⟩ ∧
    MsgType.build g .transitedEncoding ⟨t, b⟩ = MsgType.build g .hostAddress ⟨t, b⟩ :=
  ⟨rfl, rfl, rfl, rfl⟩

example : applicationNumber .tgsRep ≠ applicationNumber .asRep := by decide
example : MsgType.parse strictCfg .ticket (MsgType.build strictCfg .ticket exTicket) = .ok (exTicket, []) ∧
    MsgType.parse strictCfg .asRep (MsgType.build strictCfg .ticket exTicket) = .error .error := by
  constructor <;> decide +kernel

end Verif.Asn1

namespace Verif.Kb
open Verif.Asn1
open Verif.Crypto (Prims CaseMap Key Cipher)

variable {P : Prims} (hP : P.Lawful) (M : CaseMap) {g : Cfg} (hg : g.Total) (net : Net)
  {e1 e2 : Env} (username : List Char) (key : Option Key) (hk : ∀ k, key = some k → k.WF) (o : Options)

include hP hg hk in
/-- C83. An answer that is a message of any type other than AS-REP and KRB-ERROR is not taken for a reply: the request
ends with a parse error. -/
theorem c83_answers (he1 : EnvOk e1) (T : MsgType) (v : T.Value) (hT : T ≠ .asRep ∧ T ≠ .krbError)
    (h : Decides P M g net e1 e2 username key o (some (T.build g v))) :
    (tgtRequest P M g net e1 e2 username key o).1 = .error .asn1 := by
  have hn : applicationNumber T ≠ some 11 ∧ applicationNumber T ≠ some 30 := by
    obtain ⟨h1, h2⟩ := hT
    cases T <;> simp_all [applicationNumber]
  have q (T' : MsgType) (h' : applicationNumber T ≠ applicationNumber T') := c83_not_confused g T T' v [] h'
  simp only [List.append_nil] at q
  exact c48_determined hP hg key hk (decides_last hP M hg net username key hk o he1 h)
    (.unreadable _ ⟨⟨_, q .krbError hn.2⟩, ⟨_, q .asRep hn.1⟩⟩)

include hP hg in
/-- C83. A reply whose encrypted part is an EncTGSRepPart, which RFC 4120 section 5.4.2 says some KDCs send and allows
clients to accept, is refused, although it decrypts and differs from an accepted one in one byte only. -/
theorem c83_tgs_part_refused (he1 : EnvOk e1) (k : Key) (hkw : k.WF) (a : Bytes) (r : AsRep) (hr : ReadsReply g a r)
    (c : Cipher) (kb : Bytes) (hrk : ReplyKey P g k r c kb) (part : EncAsRepPart) (pad : Bytes)
    (hd : c.decrypt P kb 3 r.enc_part.cipher = .ok (MsgType.build g .encTgsRepPart (.ofAs part) ++ pad))
    (h : Decides P M g net e1 e2 username (some k) o (some a)) :
    (tgtRequest P M g net e1 e2 username (some k) o).1 = .error (.parseAsRep r .asn1) := by
  have hk : ∀ k', some k = some k' → k'.WF := by rintro k' h; injection h with h; subst h; exact hkw
  exact c48_determined hP hg (some k) hk (decides_last hP M hg net username (some k) hk o he1 h)
    (.reply a r _ hr (.badPart k r c kb _ _ hrk hd (c83_not_confused g .encTgsRepPart .encAsRepPart _ pad (by decide))))

open Verif.Crypto (toyPrims toyPrims_lawful asciiCase)

/-- the reply of `exRep` with its part in the form of a TGS reply -/
def tgsPartRep : AsRep :=
  { exRep exCipherKey with enc_part := ⟨23, some 3, ((Cipher.rc4.encrypt toyPrims (exKeyBytes exCipherKey) 3
      (MsgType.build strictCfg .encTgsRepPart (.ofAs exPart)) [1, 2, 3, 4, 5, 6, 7, 8]).toOption.getD [])⟩ }

example : Cipher.rc4.decrypt toyPrims (exKeyBytes exCipherKey) 3 tgsPartRep.enc_part.cipher
    = .ok (MsgType.build strictCfg .encTgsRepPart (.ofAs exPart) ++ []) := by decide +kernel
example : (tgtRequest toyPrims asciiCase strictCfg (fun _ => some (MsgType.build strictCfg .asRep tgsPartRep))
      exEnv exEnv "mickey".toList (some exCipherKey) exOptions).1 = .error (.parseAsRep tgsPartRep .asn1) := by decide +kernel
example : (tgtRequest toyPrims asciiCase strictCfg (fun _ => some (MsgType.build strictCfg .ticket exTicket))
      exEnv exEnv "mickey".toList (some exCipherKey) exOptions).1 = .error .asn1 := by decide +kernel

end Verif.Kb
