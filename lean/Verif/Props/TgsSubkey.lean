import Verif.Props.Journey
/-
C127, the violation for RC4 subkeys.
-/
namespace Verif.Kb
open Verif.Asn1 Verif.Map Verif.Crypto Verif.Kdc

/-- an RC4 subkey -/
def exSubkey : EncryptionKey := ⟨23, List.replicate 16 6⟩

/-- the ticket for the http server -/
def exServicePart : EncTicketPart := { exTicketPart with key := ⟨17, List.replicate 16 8⟩ }

/-- what comes with it -/
def exTgsPart : EncTgsRepPart :=
  ⟨exServicePart.key, [], exBody.nonce, none, 0x40e10000, exServicePart.authtime, none, exServicePart.endtime, some ⟨1700600000, 0⟩,
    exService.realm, ⟨2, exService.name⟩, none, none⟩

/-- encrypted as RFC 4757 prescribes -/
def exTgsCipher : Bytes :=
  Rfc.rc4Ciphertext (Std.hmac Std.md5) Std.rc4 exSubkey.keyvalue (Rfc.rc4MessageType 9) [1, 2, 3, 4, 5, 6, 7, 8] (EncTgsRepPart.der rfc exTgsPart).bytes

theorem exTgsCipher_refused : (Cipher.rc4.decrypt stdPrims exSubkey.keyvalue 9 exTgsCipher).toOption = none ∧ exTgsCipher.length < 2^10 := by
  decide +kernel

theorem readTgsReply_refused {P : Prims} {g : Cfg} {key : EncryptionKey} {u : Int32} {answer : Bytes} {rep : TgsRep} {k : Cipher}
    (hp : MsgType.parse g .tgsRep answer = .ok (rep, [])) (hk : newKerberosCipher rep.enc_part.etype = .ok k)
    (hd : (k.decrypt P key.keyvalue u rep.enc_part.cipher).toOption = none) : ∃ e, readTgsReply P g key u answer = .error e := by
  unfold readTgsReply
  rw [hp]
  simp only [liftP, hk]
  cases hx : k.decrypt P key.keyvalue u rep.enc_part.cipher with
  | error e => exact ⟨_, rfl⟩
  | ok x => rw [hx] at hd; cases hd

/-- the answer of the ticket granting service -/
def exTgsRep (tt : Bytes) : TgsRep :=
  ⟨5, 13, none, exTicketPart.crealm, exTicketPart.cname, ⟨5, exService.realm, ⟨2, exService.name⟩, ⟨exService.etype, none, tt⟩⟩, ⟨23, none, exTgsCipher⟩⟩

/-- C127 (violation). A program that sent an RC4 subkey and reads the answer with the key usage of RFC 4120 for this case, 9, refuses an
answer that follows the RFC. (The library leaves usage 9 as it is, where RFC 4757 has 8.) -/
theorem c127_rc4_subkey_refused : ∃ rep answer,
    IsTgsReplySub exSubkey exService ⟨5, 12, none, exBody⟩ exTicketPart exServicePart rep exTgsPart answer ∧
    ∀ g, ∃ e, readTgsReply stdPrims g exSubkey 9 answer = .error e := by
  have hw : EncTicketPart.WF exServicePart :=
    ⟨by decide +kernel, (fun _ h => nomatch h), by decide +kernel, fun t h => by injection h with h; subst h; decide +kernel⟩
  have hsz : (EncTicketPart.der rfc exServicePart).bytes.length < 2^16 := by decide +kernel
  obtain ⟨tt, htt, htl⟩ := encrypts_small (k := ⟨exService.etype, [], exService.key⟩) (.inr (.inl ⟨rfl, rfl⟩)) (u := 2) (by decide)
    (EncTicketPart.der rfc exServicePart).bytes
  have hans : IsTgsReplySub exSubkey exService ⟨5, 12, none, exBody⟩ exTicketPart exServicePart (exTgsRep tt) exTgsPart (TgsRep.der rfc (exTgsRep tt)).bytes :=
    ⟨rfl, ⟨rfl, rfl⟩, ⟨rfl, rfl, rfl, rfl⟩, ⟨rfl, ⟨rfl, rfl⟩, rfl, htt, hw⟩, rfl, .inl ⟨rfl, rfl⟩, ⟨rfl, rfl, rfl⟩, ⟨rfl, rfl⟩, rfl,
      ⟨(fun _ h => nomatch h), (fun _ h => nomatch h), hw.1, hw.2.1, hw.2.2.1, hw.2.2.2⟩, ⟨(fun _ h => nomatch h), (fun _ h => nomatch h)⟩,
      rfl, .inr (.inr ⟨rfl, rfl, _, rfl, rfl⟩)⟩
  have hsmall : (TgsRep.der rfc (exTgsRep tt)).bytes.length < 2^64 := by
    refine Nat.lt_of_le_of_lt (Der.bytes_le _) ?_
    have h1 : (utf8 exService.realm).length = 14 := by decide
    have h2 : (utf8 "http".toList).length = 4 := by decide
    have h3 : (utf8 "castle".toList).length = 6 := by decide
    have h4 : (utf8 "mickey".toList).length = 6 := by decide
    have h5 := derInt_le (5 : Int32).toInt
    have h6 := derInt_le (13 : Int32).toInt
    have h7 := derInt_le (23 : Int32).toInt
    have h8 := derInt_le (2 : Int32).toInt
    have h9 := derInt_le (1 : Int32).toInt
    have h10 := derInt_le exService.etype.toInt
    have h11 := exTgsCipher_refused.2
    have h12 : (utf8 exTicketPart.crealm).length = 14 := by decide
    have e1 : exTicketPart.cname = ⟨1, ["mickey".toList]⟩ := rfl
    have e2 : exService.name = ["http".toList, "castle".toList] := rfl
    simp only [exTgsRep, TgsRep.der, Ticket.der, EncryptedData.der, Der.bound, Der.listBound, req, opt, PrincipalName.der, dSeqOf, List.map_cons,
      List.map_nil, List.cons_append, List.nil_append, dInt32, dOctets, dString, h1, h2, h3, h4, h12, e1, e2]
    omega
  refine ⟨_, _, hans, fun g => ?_⟩
  have hb : (TgsRep.der rfc (exTgsRep tt)).bytes = MsgType.build g .tgsRep (exTgsRep tt) := (c59_wire_format g .tgsRep _ hans.kvno).symm
  have hp : MsgType.parse g .tgsRep (TgsRep.der rfc (exTgsRep tt)).bytes = .ok (exTgsRep tt, []) := by
    have := c39_roundtrip g .tgsRep (exTgsRep tt) trivial (hb ▸ hsmall) []
    rwa [List.append_nil, ← hb] at this
  have hk : newKerberosCipher (exTgsRep tt).enc_part.etype = .ok .rc4 := by show newKerberosCipher 23 = _; decide
  exact readTgsReply_refused hp hk exTgsCipher_refused.1

end Verif.Kb

namespace Verif.Kb
open Verif.Asn1 Verif.Map Verif.Crypto Verif.Kdc

/-- C127 (violation). No answer to a request with an RC4 subkey is read under usage 9, unless the octets happen to be an encryption for
two different message types of RFC 4757 at once, 8 and 9. -/
theorem c127_rc4_subkey_collision (g : Cfg) (S : Service) (r : TgsReq) (part tpart : EncTicketPart) (rep : TgsRep) (ep : EncTgsRepPart)
    (subkey : EncryptionKey) (hrc4 : subkey.keytype = 23) (answer : Bytes) (ha : IsTgsReplySub subkey S r part tpart rep ep answer)
    (hs : answer.length < 2^64) (c : Credential) (h : readTgsReply stdPrims g subkey 9 answer = .ok c) :
    ∃ conf conf' plain', conf.length = 8 ∧ conf'.length = 8 ∧
      Rfc.rc4Ciphertext (Std.hmac Std.md5) Std.rc4 subkey.keyvalue 8 conf (EncTgsRepPart.der rfc ep).bytes =
      Rfc.rc4Ciphertext (Std.hmac Std.md5) Std.rc4 subkey.keyvalue 9 conf' plain' := by
  have hb : answer = MsgType.build g .tgsRep rep := ha.octets.trans (c59_wire_format g .tgsRep rep ha.kvno).symm
  have hp : MsgType.parse g .tgsRep answer = .ok (rep, []) := by
    have := c39_roundtrip g .tgsRep rep trivial (hb ▸ hs) []
    rwa [List.append_nil, ← hb] at this
  have hk : newKerberosCipher rep.enc_part.etype = .ok .rc4 := by rw [ha.cipher.1, hrc4]; decide
  cases hd : Cipher.rc4.decrypt stdPrims subkey.keyvalue 9 rep.enc_part.cipher with
  | error e =>
    obtain ⟨e', he⟩ := readTgsReply_refused (P := stdPrims) (u := 9) (key := subkey) hp hk (by rw [hd]; rfl)
    rw [he] at h
    cases h
  | ok plain' =>
    obtain ⟨conf', h1, h2⟩ := (c28_accepts_iff stdPrims stdPrims_lawful .rc4 subkey.keyvalue trivial 9 _ _).1 hd
    have h3 := (c68_rc4_untranslated stdPrims stdPrims_lawful subkey.keyvalue plain' conf').1
    rw [h2] at h3
    injection h3 with h3
    rcases ha.cipher.2 with ⟨h4, -⟩ | ⟨h4, -⟩ | ⟨-, -, conf, h5, h6⟩
    · rw [hrc4] at h4; exact absurd h4 (by decide)
    · rw [hrc4] at h4; exact absurd h4 (by decide)
    · exact ⟨conf, conf', plain', h5, h1, h6.symm.trans h3⟩

end Verif.Kb
