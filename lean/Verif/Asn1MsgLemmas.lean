import Verif.Asn1Wf
import Verif.Asn1Lemmas
/-
Each message type of kerberos_asn1 is lawful (round trip, no panic). Regular proofs, one per type.
-/
namespace Verif.Asn1

theorem Fields.Lawful.weaken {α} {g : Cfg} {k k' : Nat} {f : Fields α} {wf} (hk : k ≤ k') (h : f.Lawful g k' wf) :
    f.Lawful g k wf where
  rt := h.rt
  head a := by
    rcases h.head a with h | ⟨t, r, h, ht⟩
    · exact Or.inl h
    · exact Or.inr ⟨t, r, h, by omega⟩
  np := h.np

theorem reqL {α β} {g : Cfg} {c : Codec α} {rest : Fields β} {wa wb} (n m : Nat)
    (hc : c.Lawful g wa) (hr : rest.Lawful g m wb) (h : n < m ∧ n < 32) :
    (reqField g n c rest).Lawful g n (fun v => wa v.1 ∧ wb v.2) :=
  reqField_lawful hc (hr.weaken h.1) (Nat.le_refl _) h.2

theorem optL {α β} {g : Cfg} {c : Codec α} {rest : Fields β} {wa wb} (n m : Nat)
    (hc : c.Lawful g wa) (hr : rest.Lawful g m wb) (h : n < m ∧ n < 32) :
    (optField g n c rest).Lawful g n (fun v => OptOf wa v.1 ∧ wb v.2) :=
  optField_lawful hc (hr.weaken h.1) (Nat.le_refl _) h.2

theorem EncryptedData.fields_lawful (g : Cfg) : (EncryptedData.fields g).Lawful g 0 EncryptedData.WF :=
  Fields.Lawful.imap
    (reqL 0 1 (int32C_lawful g)
      (optL 1 2 (uint32C_lawful g)
      (reqL 2 31 (octetsC_lawful g)
      (noFields_lawful g 31) (by decide)) (by decide)) (by decide))
    _ _ (fun _ => rfl) (fun _ _ => ⟨trivial, (fun _ _ => trivial), trivial, trivial⟩)

theorem encryptedDataC_lawful (g : Cfg) : (encryptedDataC g).Lawful g EncryptedData.WF := seqC_lawful (EncryptedData.fields_lawful g)

theorem ApRep.fields_lawful (g : Cfg) : (ApRep.fields g).Lawful g 0 ApRep.WF :=
  Fields.Lawful.imap
    (reqL 0 1 (int32C_lawful g)
      (reqL 1 2 (int32C_lawful g)
      (reqL 2 31 (encryptedDataC_lawful g)
      (noFields_lawful g 31) (by decide)) (by decide)) (by decide))
    _ _ (fun _ => rfl) (fun _ _ => ⟨trivial, trivial, trivial, trivial⟩)

theorem apRepC_lawful (g : Cfg) : (apRepC g).Lawful g ApRep.WF := appC_lawful (ApRep.fields_lawful g)

theorem PrincipalName.fields_lawful (g : Cfg) : (PrincipalName.fields g).Lawful g 0 PrincipalName.WF :=
  Fields.Lawful.imap
    (reqL 0 1 (int32C_lawful g)
      (reqL 1 31 (seqOfC_lawful (stringC_lawful g))
      (noFields_lawful g 31) (by decide)) (by decide))
    _ _ (fun _ => rfl) (fun _ _ => ⟨trivial, (fun _ _ => trivial), trivial⟩)

theorem principalNameC_lawful (g : Cfg) : (principalNameC g).Lawful g PrincipalName.WF := seqC_lawful (PrincipalName.fields_lawful g)

theorem Ticket.fields_lawful (g : Cfg) : (Ticket.fields g).Lawful g 0 Ticket.WF :=
  Fields.Lawful.imap
    (reqL 0 1 (int32C_lawful g)
      (reqL 1 2 (stringC_lawful g)
      (reqL 2 3 (principalNameC_lawful g)
      (reqL 3 31 (encryptedDataC_lawful g)
      (noFields_lawful g 31) (by decide)) (by decide)) (by decide)) (by decide))
    _ _ (fun _ => rfl) (fun _ _ => ⟨trivial, trivial, trivial, trivial, trivial⟩)

theorem ticketC_lawful (g : Cfg) : (ticketC g).Lawful g Ticket.WF := appC_lawful (Ticket.fields_lawful g)

theorem ApReq.fields_lawful (g : Cfg) : (ApReq.fields g).Lawful g 0 ApReq.WF :=
  Fields.Lawful.imap
    (reqL 0 1 (int32C_lawful g)
      (reqL 1 2 (int32C_lawful g)
      (reqL 2 3 (flagsC_lawful g)
      (reqL 3 4 (ticketC_lawful g)
      (reqL 4 31 (encryptedDataC_lawful g)
      (noFields_lawful g 31) (by decide)) (by decide)) (by decide)) (by decide)) (by decide))
    _ _ (fun _ => rfl) (fun _ _ => ⟨trivial, trivial, trivial, trivial, trivial, trivial⟩)

theorem apReqC_lawful (g : Cfg) : (apReqC g).Lawful g ApReq.WF := appC_lawful (ApReq.fields_lawful g)

theorem PaData.fields_lawful (g : Cfg) : (PaData.fields g).Lawful g 1 PaData.WF :=
  Fields.Lawful.imap
    (reqL 1 2 (int32C_lawful g)
      (reqL 2 31 (octetsC_lawful g)
      (noFields_lawful g 31) (by decide)) (by decide))
    _ _ (fun _ => rfl) (fun _ _ => ⟨trivial, trivial, trivial⟩)

theorem paDataC_lawful (g : Cfg) : (paDataC g).Lawful g PaData.WF := seqC_lawful (PaData.fields_lawful g)

theorem AsRep.fields_lawful (g : Cfg) : (AsRep.fields g).Lawful g 0 AsRep.WF :=
  Fields.Lawful.imap
    (reqL 0 1 (int32C_lawful g)
      (reqL 1 2 (int32C_lawful g)
      (optL 2 3 (seqOfC_lawful (paDataC_lawful g))
      (reqL 3 4 (stringC_lawful g)
      (reqL 4 5 (principalNameC_lawful g)
      (reqL 5 6 (ticketC_lawful g)
      (reqL 6 31 (encryptedDataC_lawful g)
      (noFields_lawful g 31) (by decide)) (by decide)) (by decide)) (by decide)) (by decide)) (by decide)) (by decide))
    _ _ (fun _ => rfl) (fun _ _ => ⟨trivial, trivial, (fun _ _ => (fun _ _ => trivial)), trivial, trivial, trivial, trivial, trivial⟩)

theorem asRepC_lawful (g : Cfg) : (asRepC g).Lawful g AsRep.WF := appC_lawful (AsRep.fields_lawful g)

theorem HostAddress.fields_lawful (g : Cfg) : (HostAddress.fields g).Lawful g 0 HostAddress.WF :=
  Fields.Lawful.imap
    (reqL 0 1 (int32C_lawful g)
      (reqL 1 31 (octetsC_lawful g)
      (noFields_lawful g 31) (by decide)) (by decide))
    _ _ (fun _ => rfl) (fun _ _ => ⟨trivial, trivial, trivial⟩)

theorem hostAddressC_lawful (g : Cfg) : (hostAddressC g).Lawful g HostAddress.WF := seqC_lawful (HostAddress.fields_lawful g)

theorem KdcReqBody.fields_lawful (g : Cfg) : (KdcReqBody.fields g).Lawful g 0 KdcReqBody.WF :=
  Fields.Lawful.imap
    (reqL 0 1 (flagsC_lawful g)
      (optL 1 2 (principalNameC_lawful g)
      (reqL 2 3 (stringC_lawful g)
      (optL 3 4 (principalNameC_lawful g)
      (optL 4 5 (kerberosTimeC_lawful g)
      (reqL 5 6 (kerberosTimeC_lawful g)
      (optL 6 7 (kerberosTimeC_lawful g)
      (reqL 7 8 (uint32C_lawful g)
      (reqL 8 9 (seqOfC_lawful (int32C_lawful g))
      (optL 9 10 (seqOfC_lawful (hostAddressC_lawful g))
      (optL 10 11 (encryptedDataC_lawful g)
      (optL 11 31 (seqOfC_lawful (ticketC_lawful g))
      (noFields_lawful g 31) (by decide)) (by decide)) (by decide)) (by decide)) (by decide)) (by decide)) (by decide)) (by decide)) (by decide)) (by decide)) (by decide)) (by decide))
    _ _ (fun _ => rfl) (fun _ ⟨h1, h2, h3⟩ => ⟨trivial, (fun _ _ => trivial), trivial, (fun _ _ => trivial), h1, h2, h3, trivial, (fun _ _ => trivial), (fun _ _ => (fun _ _ => trivial)), (fun _ _ => trivial), (fun _ _ => (fun _ _ => trivial)), trivial⟩)

theorem kdcReqBodyC_lawful (g : Cfg) : (kdcReqBodyC g).Lawful g KdcReqBody.WF := seqC_lawful (KdcReqBody.fields_lawful g)

theorem AsReq.fields_lawful (g : Cfg) : (AsReq.fields g).Lawful g 1 AsReq.WF :=
  Fields.Lawful.imap
    (reqL 1 2 (int32C_lawful g)
      (reqL 2 3 (int32C_lawful g)
      (optL 3 4 (seqOfC_lawful (paDataC_lawful g))
      (reqL 4 31 (kdcReqBodyC_lawful g)
      (noFields_lawful g 31) (by decide)) (by decide)) (by decide)) (by decide))
    _ _ (fun _ => rfl) (fun _ h1 => ⟨trivial, trivial, (fun _ _ => (fun _ _ => trivial)), h1, trivial⟩)

theorem asReqC_lawful (g : Cfg) : (asReqC g).Lawful g AsReq.WF := appC_lawful (AsReq.fields_lawful g)

theorem Checksum.fields_lawful (g : Cfg) : (Checksum.fields g).Lawful g 0 Checksum.WF :=
  Fields.Lawful.imap
    (reqL 0 1 (int32C_lawful g)
      (reqL 1 31 (octetsC_lawful g)
      (noFields_lawful g 31) (by decide)) (by decide))
    _ _ (fun _ => rfl) (fun _ _ => ⟨trivial, trivial, trivial⟩)

theorem checksumC_lawful (g : Cfg) : (checksumC g).Lawful g Checksum.WF := seqC_lawful (Checksum.fields_lawful g)

theorem EncryptionKey.fields_lawful (g : Cfg) : (EncryptionKey.fields g).Lawful g 0 EncryptionKey.WF :=
  Fields.Lawful.imap
    (reqL 0 1 (int32C_lawful g)
      (reqL 1 31 (octetsC_lawful g)
      (noFields_lawful g 31) (by decide)) (by decide))
    _ _ (fun _ => rfl) (fun _ _ => ⟨trivial, trivial, trivial⟩)

theorem encryptionKeyC_lawful (g : Cfg) : (encryptionKeyC g).Lawful g EncryptionKey.WF := seqC_lawful (EncryptionKey.fields_lawful g)

theorem AuthorizationDataEntry.fields_lawful (g : Cfg) : (AuthorizationDataEntry.fields g).Lawful g 0 AuthorizationDataEntry.WF :=
  Fields.Lawful.imap
    (reqL 0 1 (int32C_lawful g)
      (reqL 1 31 (octetsC_lawful g)
      (noFields_lawful g 31) (by decide)) (by decide))
    _ _ (fun _ => rfl) (fun _ _ => ⟨trivial, trivial, trivial⟩)

theorem authorizationDataEntryC_lawful (g : Cfg) : (authorizationDataEntryC g).Lawful g AuthorizationDataEntry.WF := seqC_lawful (AuthorizationDataEntry.fields_lawful g)

theorem Authenticator.fields_lawful (g : Cfg) : (Authenticator.fields g).Lawful g 0 Authenticator.WF :=
  Fields.Lawful.imap
    (reqL 0 1 (int32C_lawful g)
      (reqL 1 2 (stringC_lawful g)
      (reqL 2 3 (principalNameC_lawful g)
      (optL 3 4 (checksumC_lawful g)
      (reqL 4 5 (int32C_lawful g)
      (reqL 5 6 (kerberosTimeC_lawful g)
      (optL 6 7 (encryptionKeyC_lawful g)
      (optL 7 8 (uint32C_lawful g)
      (optL 8 31 (seqOfC_lawful (authorizationDataEntryC_lawful g))
      (noFields_lawful g 31) (by decide)) (by decide)) (by decide)) (by decide)) (by decide)) (by decide)) (by decide)) (by decide)) (by decide))
    _ _ (fun _ => rfl) (fun _ h1 => ⟨trivial, trivial, trivial, (fun _ _ => trivial), trivial, h1, (fun _ _ => trivial), (fun _ _ => trivial), (fun _ _ => (fun _ _ => trivial)), trivial⟩)

theorem authenticatorC_lawful (g : Cfg) : (authenticatorC g).Lawful g Authenticator.WF := appC_lawful (Authenticator.fields_lawful g)

theorem EncApRepPart.fields_lawful (g : Cfg) : (EncApRepPart.fields g).Lawful g 0 EncApRepPart.WF :=
  Fields.Lawful.imap
    (reqL 0 1 (kerberosTimeC_lawful g)
      (reqL 1 2 (int32C_lawful g)
      (reqL 2 3 (encryptionKeyC_lawful g)
      (reqL 3 31 (uint32C_lawful g)
      (noFields_lawful g 31) (by decide)) (by decide)) (by decide)) (by decide))
    _ _ (fun _ => rfl) (fun _ h1 => ⟨h1, trivial, trivial, trivial, trivial⟩)

theorem encApRepPartC_lawful (g : Cfg) : (encApRepPartC g).Lawful g EncApRepPart.WF := appC_lawful (EncApRepPart.fields_lawful g)

theorem LastReqEntry.fields_lawful (g : Cfg) : (LastReqEntry.fields g).Lawful g 0 LastReqEntry.WF :=
  Fields.Lawful.imap
    (reqL 0 1 (int32C_lawful g)
      (reqL 1 31 (kerberosTimeC_lawful g)
      (noFields_lawful g 31) (by decide)) (by decide))
    _ _ (fun _ => rfl) (fun _ h1 => ⟨trivial, h1, trivial⟩)

theorem lastReqEntryC_lawful (g : Cfg) : (lastReqEntryC g).Lawful g LastReqEntry.WF := seqC_lawful (LastReqEntry.fields_lawful g)

theorem EncAsRepPart.fields_lawful (g : Cfg) : (EncAsRepPart.fields g).Lawful g 0 EncAsRepPart.WF :=
  Fields.Lawful.imap
    (reqL 0 1 (encryptionKeyC_lawful g)
      (reqL 1 2 (seqOfC_lawful (lastReqEntryC_lawful g))
      (reqL 2 3 (uint32C_lawful g)
      (optL 3 4 (kerberosTimeC_lawful g)
      (reqL 4 5 (flagsC_lawful g)
      (reqL 5 6 (kerberosTimeC_lawful g)
      (optL 6 7 (kerberosTimeC_lawful g)
      (reqL 7 8 (kerberosTimeC_lawful g)
      (optL 8 9 (kerberosTimeC_lawful g)
      (reqL 9 10 (stringC_lawful g)
      (reqL 10 11 (principalNameC_lawful g)
      (optL 11 12 (seqOfC_lawful (hostAddressC_lawful g))
      (optL 12 31 (seqOfC_lawful (paDataC_lawful g))
      (noFields_lawful g 31) (by decide)) (by decide)) (by decide)) (by decide)) (by decide)) (by decide)) (by decide)) (by decide)) (by decide)) (by decide)) (by decide)) (by decide)) (by decide))
    _ _ (fun _ => rfl) (fun _ ⟨h1, h2, h3, h4, h5, h6⟩ => ⟨trivial, h1, trivial, h2, trivial, h3, h4, h5, h6, trivial, trivial, (fun _ _ => (fun _ _ => trivial)), (fun _ _ => (fun _ _ => trivial)), trivial⟩)

theorem encAsRepPartC_lawful (g : Cfg) : (encAsRepPartC g).Lawful g EncAsRepPart.WF := appC_lawful (EncAsRepPart.fields_lawful g)

theorem EncKdcRepPart.fields_lawful (g : Cfg) : (EncKdcRepPart.fields g).Lawful g 0 EncKdcRepPart.WF :=
  Fields.Lawful.imap
    (reqL 0 1 (encryptionKeyC_lawful g)
      (reqL 1 2 (seqOfC_lawful (lastReqEntryC_lawful g))
      (reqL 2 3 (uint32C_lawful g)
      (optL 3 4 (kerberosTimeC_lawful g)
      (reqL 4 5 (flagsC_lawful g)
      (reqL 5 6 (kerberosTimeC_lawful g)
      (optL 6 7 (kerberosTimeC_lawful g)
      (reqL 7 8 (kerberosTimeC_lawful g)
      (optL 8 9 (kerberosTimeC_lawful g)
      (reqL 9 10 (stringC_lawful g)
      (reqL 10 11 (principalNameC_lawful g)
      (optL 11 12 (seqOfC_lawful (hostAddressC_lawful g))
      (optL 12 31 (seqOfC_lawful (paDataC_lawful g))
      (noFields_lawful g 31) (by decide)) (by decide)) (by decide)) (by decide)) (by decide)) (by decide)) (by decide)) (by decide)) (by decide)) (by decide)) (by decide)) (by decide)) (by decide))
    _ _ (fun _ => rfl) (fun _ ⟨h1, h2, h3, h4, h5, h6⟩ => ⟨trivial, h1, trivial, h2, trivial, h3, h4, h5, h6, trivial, trivial, (fun _ _ => (fun _ _ => trivial)), (fun _ _ => (fun _ _ => trivial)), trivial⟩)

theorem encKdcRepPartC_lawful (g : Cfg) : (encKdcRepPartC g).Lawful g EncKdcRepPart.WF := seqC_lawful (EncKdcRepPart.fields_lawful g)

theorem KrbCredInfo.fields_lawful (g : Cfg) : (KrbCredInfo.fields g).Lawful g 0 KrbCredInfo.WF :=
  Fields.Lawful.imap
    (reqL 0 1 (encryptionKeyC_lawful g)
      (optL 1 2 (stringC_lawful g)
      (optL 2 3 (principalNameC_lawful g)
      (optL 3 4 (flagsC_lawful g)
      (optL 4 5 (kerberosTimeC_lawful g)
      (optL 5 6 (kerberosTimeC_lawful g)
      (optL 6 7 (kerberosTimeC_lawful g)
      (optL 7 8 (kerberosTimeC_lawful g)
      (optL 8 9 (stringC_lawful g)
      (optL 9 10 (principalNameC_lawful g)
      (optL 10 31 (seqOfC_lawful (hostAddressC_lawful g))
      (noFields_lawful g 31) (by decide)) (by decide)) (by decide)) (by decide)) (by decide)) (by decide)) (by decide)) (by decide)) (by decide)) (by decide)) (by decide))
    _ _ (fun _ => rfl) (fun _ ⟨h1, h2, h3, h4⟩ => ⟨trivial, (fun _ _ => trivial), (fun _ _ => trivial), (fun _ _ => trivial), h1, h2, h3, h4, (fun _ _ => trivial), (fun _ _ => trivial), (fun _ _ => (fun _ _ => trivial)), trivial⟩)

theorem krbCredInfoC_lawful (g : Cfg) : (krbCredInfoC g).Lawful g KrbCredInfo.WF := seqC_lawful (KrbCredInfo.fields_lawful g)

theorem EncKrbCredPart.fields_lawful (g : Cfg) : (EncKrbCredPart.fields g).Lawful g 0 EncKrbCredPart.WF :=
  Fields.Lawful.imap
    (reqL 0 1 (seqOfC_lawful (krbCredInfoC_lawful g))
      (optL 1 2 (uint32C_lawful g)
      (optL 2 3 (kerberosTimeC_lawful g)
      (optL 3 4 (int32C_lawful g)
      (optL 4 5 (hostAddressC_lawful g)
      (optL 5 31 (hostAddressC_lawful g)
      (noFields_lawful g 31) (by decide)) (by decide)) (by decide)) (by decide)) (by decide)) (by decide))
    _ _ (fun _ => rfl) (fun _ ⟨h1, h2⟩ => ⟨h1, (fun _ _ => trivial), h2, (fun _ _ => trivial), (fun _ _ => trivial), (fun _ _ => trivial), trivial⟩)

theorem encKrbCredPartC_lawful (g : Cfg) : (encKrbCredPartC g).Lawful g EncKrbCredPart.WF := appC_lawful (EncKrbCredPart.fields_lawful g)

theorem EncKrbPrivPart.fields_lawful (g : Cfg) : (EncKrbPrivPart.fields g).Lawful g 0 EncKrbPrivPart.WF :=
  Fields.Lawful.imap
    (reqL 0 1 (octetsC_lawful g)
      (optL 1 2 (kerberosTimeC_lawful g)
      (optL 2 3 (int32C_lawful g)
      (optL 3 4 (uint32C_lawful g)
      (reqL 4 5 (hostAddressC_lawful g)
      (optL 5 31 (hostAddressC_lawful g)
      (noFields_lawful g 31) (by decide)) (by decide)) (by decide)) (by decide)) (by decide)) (by decide))
    _ _ (fun _ => rfl) (fun _ h1 => ⟨trivial, h1, (fun _ _ => trivial), (fun _ _ => trivial), trivial, (fun _ _ => trivial), trivial⟩)

theorem encKrbPrivPartC_lawful (g : Cfg) : (encKrbPrivPartC g).Lawful g EncKrbPrivPart.WF := appC_lawful (EncKrbPrivPart.fields_lawful g)

theorem EncTgsRepPart.fields_lawful (g : Cfg) : (EncTgsRepPart.fields g).Lawful g 0 EncTgsRepPart.WF :=
  Fields.Lawful.imap
    (reqL 0 1 (encryptionKeyC_lawful g)
      (reqL 1 2 (seqOfC_lawful (lastReqEntryC_lawful g))
      (reqL 2 3 (uint32C_lawful g)
      (optL 3 4 (kerberosTimeC_lawful g)
      (reqL 4 5 (flagsC_lawful g)
      (reqL 5 6 (kerberosTimeC_lawful g)
      (optL 6 7 (kerberosTimeC_lawful g)
      (reqL 7 8 (kerberosTimeC_lawful g)
      (optL 8 9 (kerberosTimeC_lawful g)
      (reqL 9 10 (stringC_lawful g)
      (reqL 10 11 (principalNameC_lawful g)
      (optL 11 12 (seqOfC_lawful (hostAddressC_lawful g))
      (optL 12 31 (seqOfC_lawful (paDataC_lawful g))
      (noFields_lawful g 31) (by decide)) (by decide)) (by decide)) (by decide)) (by decide)) (by decide)) (by decide)) (by decide)) (by decide)) (by decide)) (by decide)) (by decide)) (by decide))
    _ _ (fun _ => rfl) (fun _ ⟨h1, h2, h3, h4, h5, h6⟩ => ⟨trivial, h1, trivial, h2, trivial, h3, h4, h5, h6, trivial, trivial, (fun _ _ => (fun _ _ => trivial)), (fun _ _ => (fun _ _ => trivial)), trivial⟩)

theorem encTgsRepPartC_lawful (g : Cfg) : (encTgsRepPartC g).Lawful g EncTgsRepPart.WF := appC_lawful (EncTgsRepPart.fields_lawful g)

theorem TransitedEncoding.fields_lawful (g : Cfg) : (TransitedEncoding.fields g).Lawful g 0 TransitedEncoding.WF :=
  Fields.Lawful.imap
    (reqL 0 1 (int32C_lawful g)
      (reqL 1 31 (octetsC_lawful g)
      (noFields_lawful g 31) (by decide)) (by decide))
    _ _ (fun _ => rfl) (fun _ _ => ⟨trivial, trivial, trivial⟩)

theorem transitedEncodingC_lawful (g : Cfg) : (transitedEncodingC g).Lawful g TransitedEncoding.WF := seqC_lawful (TransitedEncoding.fields_lawful g)

theorem EncTicketPart.fields_lawful (g : Cfg) : (EncTicketPart.fields g).Lawful g 0 EncTicketPart.WF :=
  Fields.Lawful.imap
    (reqL 0 1 (flagsC_lawful g)
      (reqL 1 2 (encryptionKeyC_lawful g)
      (reqL 2 3 (stringC_lawful g)
      (reqL 3 4 (principalNameC_lawful g)
      (reqL 4 5 (transitedEncodingC_lawful g)
      (reqL 5 6 (kerberosTimeC_lawful g)
      (optL 6 7 (kerberosTimeC_lawful g)
      (reqL 7 8 (kerberosTimeC_lawful g)
      (optL 8 9 (kerberosTimeC_lawful g)
      (optL 9 10 (seqOfC_lawful (hostAddressC_lawful g))
      (optL 10 31 (seqOfC_lawful (authorizationDataEntryC_lawful g))
      (noFields_lawful g 31) (by decide)) (by decide)) (by decide)) (by decide)) (by decide)) (by decide)) (by decide)) (by decide)) (by decide)) (by decide)) (by decide))
    _ _ (fun _ => rfl) (fun _ ⟨h1, h2, h3, h4⟩ => ⟨trivial, trivial, trivial, trivial, trivial, h1, h2, h3, h4, (fun _ _ => (fun _ _ => trivial)), (fun _ _ => (fun _ _ => trivial)), trivial⟩)

theorem encTicketPartC_lawful (g : Cfg) : (encTicketPartC g).Lawful g EncTicketPart.WF := appC_lawful (EncTicketPart.fields_lawful g)

theorem KdcReq.fields_lawful (g : Cfg) : (KdcReq.fields g).Lawful g 1 KdcReq.WF :=
  Fields.Lawful.imap
    (reqL 1 2 (int32C_lawful g)
      (reqL 2 3 (int32C_lawful g)
      (optL 3 4 (seqOfC_lawful (paDataC_lawful g))
      (reqL 4 31 (kdcReqBodyC_lawful g)
      (noFields_lawful g 31) (by decide)) (by decide)) (by decide)) (by decide))
    _ _ (fun _ => rfl) (fun _ h1 => ⟨trivial, trivial, (fun _ _ => (fun _ _ => trivial)), h1, trivial⟩)

theorem kdcReqC_lawful (g : Cfg) : (kdcReqC g).Lawful g KdcReq.WF := seqC_lawful (KdcReq.fields_lawful g)

theorem KerbAdRestrictionEntry.fields_lawful (g : Cfg) : (KerbAdRestrictionEntry.fields g).Lawful g 0 KerbAdRestrictionEntry.WF :=
  Fields.Lawful.imap
    (reqL 0 1 (int32C_lawful g)
      (reqL 1 31 (octetsC_lawful g)
      (noFields_lawful g 31) (by decide)) (by decide))
    _ _ (fun _ => rfl) (fun _ _ => ⟨trivial, trivial, trivial⟩)

theorem kerbAdRestrictionEntryC_lawful (g : Cfg) : (kerbAdRestrictionEntryC g).Lawful g KerbAdRestrictionEntry.WF := seqC_lawful (KerbAdRestrictionEntry.fields_lawful g)

theorem KerbErrorData.fields_lawful (g : Cfg) : (KerbErrorData.fields g).Lawful g 1 KerbErrorData.WF :=
  Fields.Lawful.imap
    (reqL 1 2 (int32C_lawful g)
      (optL 2 31 (octetsC_lawful g)
      (noFields_lawful g 31) (by decide)) (by decide))
    _ _ (fun _ => rfl) (fun _ _ => ⟨trivial, (fun _ _ => trivial), trivial⟩)

theorem kerbErrorDataC_lawful (g : Cfg) : (kerbErrorDataC g).Lawful g KerbErrorData.WF := seqC_lawful (KerbErrorData.fields_lawful g)

theorem KrbCred.fields_lawful (g : Cfg) : (KrbCred.fields g).Lawful g 0 KrbCred.WF :=
  Fields.Lawful.imap
    (reqL 0 1 (int32C_lawful g)
      (reqL 1 2 (int32C_lawful g)
      (reqL 2 3 (seqOfC_lawful (ticketC_lawful g))
      (reqL 3 31 (encryptedDataC_lawful g)
      (noFields_lawful g 31) (by decide)) (by decide)) (by decide)) (by decide))
    _ _ (fun _ => rfl) (fun _ _ => ⟨trivial, trivial, (fun _ _ => trivial), trivial, trivial⟩)

theorem krbCredC_lawful (g : Cfg) : (krbCredC g).Lawful g KrbCred.WF := appC_lawful (KrbCred.fields_lawful g)

theorem KrbError.fields_lawful (g : Cfg) : (KrbError.fields g).Lawful g 0 KrbError.WF :=
  Fields.Lawful.imap
    (reqL 0 1 (int32C_lawful g)
      (reqL 1 2 (int32C_lawful g)
      (optL 2 3 (kerberosTimeC_lawful g)
      (optL 3 4 (int32C_lawful g)
      (reqL 4 5 (kerberosTimeC_lawful g)
      (reqL 5 6 (int32C_lawful g)
      (reqL 6 7 (int32C_lawful g)
      (optL 7 8 (stringC_lawful g)
      (optL 8 9 (principalNameC_lawful g)
      (reqL 9 10 (stringC_lawful g)
      (reqL 10 11 (principalNameC_lawful g)
      (optL 11 12 (stringC_lawful g)
      (optL 12 31 (octetsC_lawful g)
      (noFields_lawful g 31) (by decide)) (by decide)) (by decide)) (by decide)) (by decide)) (by decide)) (by decide)) (by decide)) (by decide)) (by decide)) (by decide)) (by decide)) (by decide))
    _ _ (fun _ => rfl) (fun _ ⟨h1, h2⟩ => ⟨trivial, trivial, h1, (fun _ _ => trivial), h2, trivial, trivial, (fun _ _ => trivial), (fun _ _ => trivial), trivial, trivial, (fun _ _ => trivial), (fun _ _ => trivial), trivial⟩)

theorem krbErrorC_lawful (g : Cfg) : (krbErrorC g).Lawful g KrbError.WF := appC_lawful (KrbError.fields_lawful g)

theorem KrbPriv.fields_lawful (g : Cfg) : (KrbPriv.fields g).Lawful g 0 KrbPriv.WF :=
  Fields.Lawful.imap
    (reqL 0 1 (int32C_lawful g)
      (reqL 1 3 (int32C_lawful g)
      (reqL 3 31 (encryptedDataC_lawful g)
      (noFields_lawful g 31) (by decide)) (by decide)) (by decide))
    _ _ (fun _ => rfl) (fun _ _ => ⟨trivial, trivial, trivial, trivial⟩)

theorem krbPrivC_lawful (g : Cfg) : (krbPrivC g).Lawful g KrbPriv.WF := appC_lawful (KrbPriv.fields_lawful g)

theorem KrbSafeBody.fields_lawful (g : Cfg) : (KrbSafeBody.fields g).Lawful g 0 KrbSafeBody.WF :=
  Fields.Lawful.imap
    (reqL 0 1 (octetsC_lawful g)
      (optL 1 2 (kerberosTimeC_lawful g)
      (optL 2 3 (int32C_lawful g)
      (optL 3 4 (uint32C_lawful g)
      (reqL 4 5 (hostAddressC_lawful g)
      (optL 5 31 (hostAddressC_lawful g)
      (noFields_lawful g 31) (by decide)) (by decide)) (by decide)) (by decide)) (by decide)) (by decide))
    _ _ (fun _ => rfl) (fun _ h1 => ⟨trivial, h1, (fun _ _ => trivial), (fun _ _ => trivial), trivial, (fun _ _ => trivial), trivial⟩)

theorem krbSafeBodyC_lawful (g : Cfg) : (krbSafeBodyC g).Lawful g KrbSafeBody.WF := seqC_lawful (KrbSafeBody.fields_lawful g)

theorem KrbSafe.fields_lawful (g : Cfg) : (KrbSafe.fields g).Lawful g 0 KrbSafe.WF :=
  Fields.Lawful.imap
    (reqL 0 1 (int32C_lawful g)
      (reqL 1 2 (int32C_lawful g)
      (reqL 2 3 (krbSafeBodyC_lawful g)
      (reqL 3 31 (checksumC_lawful g)
      (noFields_lawful g 31) (by decide)) (by decide)) (by decide)) (by decide))
    _ _ (fun _ => rfl) (fun _ h1 => ⟨trivial, trivial, h1, trivial, trivial⟩)

theorem krbSafeC_lawful (g : Cfg) : (krbSafeC g).Lawful g KrbSafe.WF := appC_lawful (KrbSafe.fields_lawful g)

theorem AdAndOr.fields_lawful (g : Cfg) : (AdAndOr.fields g).Lawful g 0 AdAndOr.WF :=
  Fields.Lawful.imap
    (reqL 0 1 (int32C_lawful g)
      (reqL 1 31 (seqOfC_lawful (authorizationDataEntryC_lawful g))
      (noFields_lawful g 31) (by decide)) (by decide))
    _ _ (fun _ => rfl) (fun _ _ => ⟨trivial, (fun _ _ => trivial), trivial⟩)

theorem adAndOrC_lawful (g : Cfg) : (adAndOrC g).Lawful g AdAndOr.WF := seqC_lawful (AdAndOr.fields_lawful g)

theorem AdKdcIssued.fields_lawful (g : Cfg) : (AdKdcIssued.fields g).Lawful g 0 AdKdcIssued.WF :=
  Fields.Lawful.imap
    (reqL 0 1 (checksumC_lawful g)
      (optL 1 2 (stringC_lawful g)
      (optL 2 3 (principalNameC_lawful g)
      (reqL 3 31 (seqOfC_lawful (authorizationDataEntryC_lawful g))
      (noFields_lawful g 31) (by decide)) (by decide)) (by decide)) (by decide))
    _ _ (fun _ => rfl) (fun _ _ => ⟨trivial, (fun _ _ => trivial), (fun _ _ => trivial), (fun _ _ => trivial), trivial⟩)

theorem adKdcIssuedC_lawful (g : Cfg) : (adKdcIssuedC g).Lawful g AdKdcIssued.WF := seqC_lawful (AdKdcIssued.fields_lawful g)

theorem EtypeInfo2Entry.fields_lawful (g : Cfg) : (EtypeInfo2Entry.fields g).Lawful g 0 EtypeInfo2Entry.WF :=
  Fields.Lawful.imap
    (reqL 0 1 (int32C_lawful g)
      (optL 1 2 (stringC_lawful g)
      (optL 2 31 (octetsC_lawful g)
      (noFields_lawful g 31) (by decide)) (by decide)) (by decide))
    _ _ (fun _ => rfl) (fun _ _ => ⟨trivial, (fun _ _ => trivial), (fun _ _ => trivial), trivial⟩)

theorem etypeInfo2EntryC_lawful (g : Cfg) : (etypeInfo2EntryC g).Lawful g EtypeInfo2Entry.WF := seqC_lawful (EtypeInfo2Entry.fields_lawful g)

theorem EtypeInfoEntry.fields_lawful (g : Cfg) : (EtypeInfoEntry.fields g).Lawful g 0 EtypeInfoEntry.WF :=
  Fields.Lawful.imap
    (reqL 0 1 (int32C_lawful g)
      (optL 1 31 (octetsC_lawful g)
      (noFields_lawful g 31) (by decide)) (by decide))
    _ _ (fun _ => rfl) (fun _ _ => ⟨trivial, (fun _ _ => trivial), trivial⟩)

theorem etypeInfoEntryC_lawful (g : Cfg) : (etypeInfoEntryC g).Lawful g EtypeInfoEntry.WF := seqC_lawful (EtypeInfoEntry.fields_lawful g)

theorem KerbPaPacRequest.fields_lawful (g : Cfg) : (KerbPaPacRequest.fields g).Lawful g 0 KerbPaPacRequest.WF :=
  Fields.Lawful.imap
    (reqL 0 31 (boolC_lawful g)
      (noFields_lawful g 31) (by decide))
    _ _ (fun _ => rfl) (fun _ _ => ⟨trivial, trivial⟩)

theorem kerbPaPacRequestC_lawful (g : Cfg) : (kerbPaPacRequestC g).Lawful g KerbPaPacRequest.WF := seqC_lawful (KerbPaPacRequest.fields_lawful g)

theorem PaEncTsEnc.fields_lawful (g : Cfg) : (PaEncTsEnc.fields g).Lawful g 0 PaEncTsEnc.WF :=
  Fields.Lawful.imap
    (reqL 0 1 (kerberosTimeC_lawful g)
      (optL 1 31 (int32C_lawful g)
      (noFields_lawful g 31) (by decide)) (by decide))
    _ _ (fun _ => rfl) (fun _ h1 => ⟨h1, (fun _ _ => trivial), trivial⟩)

theorem paEncTsEncC_lawful (g : Cfg) : (paEncTsEncC g).Lawful g PaEncTsEnc.WF := seqC_lawful (PaEncTsEnc.fields_lawful g)

theorem PaForUser.fields_lawful (g : Cfg) : (PaForUser.fields g).Lawful g 0 PaForUser.WF :=
  Fields.Lawful.imap
    (reqL 0 1 (principalNameC_lawful g)
      (reqL 1 2 (stringC_lawful g)
      (reqL 2 3 (checksumC_lawful g)
      (reqL 3 31 (stringC_lawful g)
      (noFields_lawful g 31) (by decide)) (by decide)) (by decide)) (by decide))
    _ _ (fun _ => rfl) (fun _ _ => ⟨trivial, trivial, trivial, trivial, trivial⟩)

theorem paForUserC_lawful (g : Cfg) : (paForUserC g).Lawful g PaForUser.WF := seqC_lawful (PaForUser.fields_lawful g)

theorem PaPacOptions.fields_lawful (g : Cfg) : (PaPacOptions.fields g).Lawful g 0 PaPacOptions.WF :=
  Fields.Lawful.imap
    (reqL 0 31 (flagsC_lawful g)
      (noFields_lawful g 31) (by decide))
    _ _ (fun _ => rfl) (fun _ _ => ⟨trivial, trivial⟩)

theorem paPacOptionsC_lawful (g : Cfg) : (paPacOptionsC g).Lawful g PaPacOptions.WF := seqC_lawful (PaPacOptions.fields_lawful g)

theorem S4uUserId.fields_lawful (g : Cfg) : (S4uUserId.fields g).Lawful g 0 S4uUserId.WF :=
  Fields.Lawful.imap
    (reqL 0 1 (uint32C_lawful g)
      (optL 1 2 (principalNameC_lawful g)
      (reqL 2 3 (stringC_lawful g)
      (optL 3 4 (octetsC_lawful g)
      (optL 4 31 (bitStringC_lawful g)
      (noFields_lawful g 31) (by decide)) (by decide)) (by decide)) (by decide)) (by decide))
    _ _ (fun _ => rfl) (fun _ _ => ⟨trivial, (fun _ _ => trivial), trivial, (fun _ _ => trivial), (fun _ _ => trivial), trivial⟩)

theorem s4uUserIdC_lawful (g : Cfg) : (s4uUserIdC g).Lawful g S4uUserId.WF := seqC_lawful (S4uUserId.fields_lawful g)

theorem PaS4uX509User.fields_lawful (g : Cfg) : (PaS4uX509User.fields g).Lawful g 0 PaS4uX509User.WF :=
  Fields.Lawful.imap
    (reqL 0 1 (s4uUserIdC_lawful g)
      (reqL 1 31 (checksumC_lawful g)
      (noFields_lawful g 31) (by decide)) (by decide))
    _ _ (fun _ => rfl) (fun _ _ => ⟨trivial, trivial, trivial⟩)

theorem paS4uX509UserC_lawful (g : Cfg) : (paS4uX509UserC g).Lawful g PaS4uX509User.WF := seqC_lawful (PaS4uX509User.fields_lawful g)

theorem TgsRep.fields_lawful (g : Cfg) : (TgsRep.fields g).Lawful g 0 TgsRep.WF :=
  Fields.Lawful.imap
    (reqL 0 1 (int32C_lawful g)
      (reqL 1 2 (int32C_lawful g)
      (optL 2 3 (seqOfC_lawful (paDataC_lawful g))
      (reqL 3 4 (stringC_lawful g)
      (reqL 4 5 (principalNameC_lawful g)
      (reqL 5 6 (ticketC_lawful g)
      (reqL 6 31 (encryptedDataC_lawful g)
      (noFields_lawful g 31) (by decide)) (by decide)) (by decide)) (by decide)) (by decide)) (by decide)) (by decide))
    _ _ (fun _ => rfl) (fun _ _ => ⟨trivial, trivial, (fun _ _ => (fun _ _ => trivial)), trivial, trivial, trivial, trivial, trivial⟩)

theorem tgsRepC_lawful (g : Cfg) : (tgsRepC g).Lawful g TgsRep.WF := appC_lawful (TgsRep.fields_lawful g)

theorem TgsReq.fields_lawful (g : Cfg) : (TgsReq.fields g).Lawful g 1 TgsReq.WF :=
  Fields.Lawful.imap
    (reqL 1 2 (int32C_lawful g)
      (reqL 2 3 (int32C_lawful g)
      (optL 3 4 (seqOfC_lawful (paDataC_lawful g))
      (reqL 4 31 (kdcReqBodyC_lawful g)
      (noFields_lawful g 31) (by decide)) (by decide)) (by decide)) (by decide))
    _ _ (fun _ => rfl) (fun _ h1 => ⟨trivial, trivial, (fun _ _ => (fun _ _ => trivial)), h1, trivial⟩)

theorem tgsReqC_lawful (g : Cfg) : (tgsReqC g).Lawful g TgsReq.WF := appC_lawful (TgsReq.fields_lawful g)

theorem TypedDataEntry.fields_lawful (g : Cfg) : (TypedDataEntry.fields g).Lawful g 0 TypedDataEntry.WF :=
  Fields.Lawful.imap
    (reqL 0 1 (int32C_lawful g)
      (optL 1 31 (octetsC_lawful g)
      (noFields_lawful g 31) (by decide)) (by decide))
    _ _ (fun _ => rfl) (fun _ _ => ⟨trivial, (fun _ _ => trivial), trivial⟩)

theorem typedDataEntryC_lawful (g : Cfg) : (typedDataEntryC g).Lawful g TypedDataEntry.WF := seqC_lawful (TypedDataEntry.fields_lawful g)

theorem MsgType.lawful (g : Cfg) : (T : MsgType) → (T.codec g).Lawful g T.WF
  | .encryptedData => encryptedDataC_lawful g
  | .apRep => apRepC_lawful g
  | .principalName => principalNameC_lawful g
  | .ticket => ticketC_lawful g
  | .apReq => apReqC_lawful g
  | .paData => paDataC_lawful g
  | .asRep => asRepC_lawful g
  | .hostAddress => hostAddressC_lawful g
  | .kdcReqBody => kdcReqBodyC_lawful g
  | .asReq => asReqC_lawful g
  | .checksum => checksumC_lawful g
  | .encryptionKey => encryptionKeyC_lawful g
  | .authorizationDataEntry => authorizationDataEntryC_lawful g
  | .authenticator => authenticatorC_lawful g
  | .encApRepPart => encApRepPartC_lawful g
  | .lastReqEntry => lastReqEntryC_lawful g
  | .encAsRepPart => encAsRepPartC_lawful g
  | .encKdcRepPart => encKdcRepPartC_lawful g
  | .krbCredInfo => krbCredInfoC_lawful g
  | .encKrbCredPart => encKrbCredPartC_lawful g
  | .encKrbPrivPart => encKrbPrivPartC_lawful g
  | .encTgsRepPart => encTgsRepPartC_lawful g
  | .transitedEncoding => transitedEncodingC_lawful g
  | .encTicketPart => encTicketPartC_lawful g
  | .kdcReq => kdcReqC_lawful g
  | .kerbAdRestrictionEntry => kerbAdRestrictionEntryC_lawful g
  | .kerbErrorData => kerbErrorDataC_lawful g
  | .krbCred => krbCredC_lawful g
  | .krbError => krbErrorC_lawful g
  | .krbPriv => krbPrivC_lawful g
  | .krbSafeBody => krbSafeBodyC_lawful g
  | .krbSafe => krbSafeC_lawful g
  | .adAndOr => adAndOrC_lawful g
  | .adKdcIssued => adKdcIssuedC_lawful g
  | .etypeInfo2Entry => etypeInfo2EntryC_lawful g
  | .etypeInfoEntry => etypeInfoEntryC_lawful g
  | .kerbPaPacRequest => kerbPaPacRequestC_lawful g
  | .paEncTsEnc => paEncTsEncC_lawful g
  | .paForUser => paForUserC_lawful g
  | .paPacOptions => paPacOptionsC_lawful g
  | .s4uUserId => s4uUserIdC_lawful g
  | .paS4uX509User => paS4uX509UserC_lawful g
  | .tgsRep => tgsRepC_lawful g
  | .tgsReq => tgsReqC_lawful g
  | .typedDataEntry => typedDataEntryC_lawful g
  | .hostAddresses => seqOfC_lawful (hostAddressC_lawful g)
  | .authorizationData => seqOfC_lawful (authorizationDataEntryC_lawful g)
  | .lastReq => seqOfC_lawful (lastReqEntryC_lawful g)
  | .typedData => seqOfC_lawful (typedDataEntryC_lawful g)
  | .etypeInfo => seqOfC_lawful (etypeInfoEntryC_lawful g)
  | .etypeInfo2 => seqOfC_lawful (etypeInfo2EntryC_lawful g)
  | .methodData => seqOfC_lawful (paDataC_lawful g)
  | .kerbKeyListRep => seqOfC_lawful (encryptionKeyC_lawful g)
  | .kerbKeyListReq => seqOfC_lawful (int32C_lawful g)
  | .kerbLocal => octetsC_lawful g
  | .realm => stringC_lawful g
  | .int32 => int32C_lawful g
  | .kerberosFlags => flagsC_lawful g
  | .kerberosTime => kerberosTimeC_lawful g
  | .uInt32 => uint32C_lawful g

end Verif.Asn1
