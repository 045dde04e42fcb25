import Verif.Asn1ReadLemmas
/-
Every parser of `Verif.Asn1Messages` reads exactly the spellings of `Verif.Asn1ReadSpec`. Regular proofs, one per type.
-/
namespace Verif.Asn1

theorem encryptedDataC_exact (g : Cfg) : (encryptedDataC g).Exact g EncryptedData.Read :=
  seqC_exact (R := fun (v : EncryptedData) => rReq 0 rInt32 v.etype +> ( rOpt 1 rUInt32 v.kvno +> ( rReq 2 rOctets v.cipher))) <|
  Fields.Exact.imap
    (reqE 0 1 (int32C_exact g)
      (optE 1 2 (uint32C_exact g)
      (reqLastE 2 (octetsC_exact g) (by decide)) (by decide)) (by decide))
    _ _ (fun _ => rfl) (fun _ => rfl)

theorem apRepC_exact (g : Cfg) : (apRepC g).Exact g ApRep.Read :=
  appC_exact (by decide) (R := fun (v : ApRep) => rReq 0 rInt32 v.pvno +> ( rReq 1 rInt32 v.msg_type +> ( rReq 2 EncryptedData.Read v.enc_part))) <|
  Fields.Exact.imap
    (reqE 0 1 (int32C_exact g)
      (reqE 1 2 (int32C_exact g)
      (reqLastE 2 (encryptedDataC_exact g) (by decide)) (by decide)) (by decide))
    _ _ (fun _ => rfl) (fun _ => rfl)

theorem principalNameC_exact (g : Cfg) : (principalNameC g).Exact g PrincipalName.Read :=
  seqC_exact (R := fun (v : PrincipalName) => rReq 0 rInt32 v.name_type +> ( rReq 1 (rSeqOf rString) v.name_string)) <|
  Fields.Exact.imap
    (reqE 0 1 (int32C_exact g)
      (reqLastE 1 (seqOfC_exact (stringC_exact g)) (by decide)) (by decide))
    _ _ (fun _ => rfl) (fun _ => rfl)

theorem ticketC_exact (g : Cfg) : (ticketC g).Exact g Ticket.Read :=
  appC_exact (by decide) (R := fun (v : Ticket) => rReq 0 rInt32 v.tkt_vno +> ( rReq 1 rString v.realm +> ( rReq 2 PrincipalName.Read v.sname +> ( rReq 3 EncryptedData.Read v.enc_part)))) <|
  Fields.Exact.imap
    (reqE 0 1 (int32C_exact g)
      (reqE 1 2 (stringC_exact g)
      (reqE 2 3 (principalNameC_exact g)
      (reqLastE 3 (encryptedDataC_exact g) (by decide)) (by decide)) (by decide)) (by decide))
    _ _ (fun _ => rfl) (fun _ => rfl)

theorem apReqC_exact (g : Cfg) : (apReqC g).Exact g ApReq.Read :=
  appC_exact (by decide) (R := fun (v : ApReq) => rReq 0 rInt32 v.pvno +> ( rReq 1 rInt32 v.msg_type +> ( rReq 2 rFlags v.ap_options +> ( rReq 3 Ticket.Read v.ticket +> ( rReq 4 EncryptedData.Read v.authenticator))))) <|
  Fields.Exact.imap
    (reqE 0 1 (int32C_exact g)
      (reqE 1 2 (int32C_exact g)
      (reqE 2 3 (flagsC_exact g)
      (reqE 3 4 (ticketC_exact g)
      (reqLastE 4 (encryptedDataC_exact g) (by decide)) (by decide)) (by decide)) (by decide)) (by decide))
    _ _ (fun _ => rfl) (fun _ => rfl)

theorem paDataC_exact (g : Cfg) : (paDataC g).Exact g PaData.Read :=
  seqC_exact (R := fun (v : PaData) => rReq 1 rInt32 v.padata_type +> ( rReq 2 rOctets v.padata_value)) <|
  Fields.Exact.imap
    (reqE 1 2 (int32C_exact g)
      (reqLastE 2 (octetsC_exact g) (by decide)) (by decide))
    _ _ (fun _ => rfl) (fun _ => rfl)

theorem asRepC_exact (g : Cfg) : (asRepC g).Exact g AsRep.Read :=
  appC_exact (by decide) (R := fun (v : AsRep) => rReq 0 rInt32 v.pvno +> ( rReq 1 rInt32 v.msg_type +> ( rOpt 2 (rSeqOf PaData.Read) v.padata +> ( rReq 3 rString v.crealm +> ( rReq 4 PrincipalName.Read v.cname +> ( rReq 5 Ticket.Read v.ticket +> ( rReq 6 EncryptedData.Read v.enc_part))))))) <|
  Fields.Exact.imap
    (reqE 0 1 (int32C_exact g)
      (reqE 1 2 (int32C_exact g)
      (optE 2 3 (seqOfC_exact (paDataC_exact g))
      (reqE 3 4 (stringC_exact g)
      (reqE 4 5 (principalNameC_exact g)
      (reqE 5 6 (ticketC_exact g)
      (reqLastE 6 (encryptedDataC_exact g) (by decide)) (by decide)) (by decide)) (by decide)) (by decide)) (by decide)) (by decide))
    _ _ (fun _ => rfl) (fun _ => rfl)

theorem hostAddressC_exact (g : Cfg) : (hostAddressC g).Exact g HostAddress.Read :=
  seqC_exact (R := fun (v : HostAddress) => rReq 0 rInt32 v.addr_type +> ( rReq 1 rOctets v.address)) <|
  Fields.Exact.imap
    (reqE 0 1 (int32C_exact g)
      (reqLastE 1 (octetsC_exact g) (by decide)) (by decide))
    _ _ (fun _ => rfl) (fun _ => rfl)

theorem kdcReqBodyC_exact (g : Cfg) : (kdcReqBodyC g).Exact g KdcReqBody.Read :=
  seqC_exact (R := fun (v : KdcReqBody) => rReq 0 rFlags v.kdc_options +> ( rOpt 1 PrincipalName.Read v.cname +> ( rReq 2 rString v.realm +> ( rOpt 3 PrincipalName.Read v.sname +> ( rOpt 4 rTime v.«from» +> ( rReq 5 rTime v.till +> ( rOpt 6 rTime v.rtime +> ( rReq 7 rUInt32 v.nonce +> ( rReq 8 (rSeqOf rInt32) v.etypes +> ( rOpt 9 (rSeqOf HostAddress.Read) v.addresses +> ( rOpt 10 EncryptedData.Read v.enc_authorization_data +> ( rOpt 11 (rSeqOf Ticket.Read) v.additional_tickets)))))))))))) <|
  Fields.Exact.imap
    (reqE 0 1 (flagsC_exact g)
      (optE 1 2 (principalNameC_exact g)
      (reqE 2 3 (stringC_exact g)
      (optE 3 4 (principalNameC_exact g)
      (optE 4 5 (kerberosTimeC_exact g)
      (reqE 5 6 (kerberosTimeC_exact g)
      (optE 6 7 (kerberosTimeC_exact g)
      (reqE 7 8 (uint32C_exact g)
      (reqE 8 9 (seqOfC_exact (int32C_exact g))
      (optE 9 10 (seqOfC_exact (hostAddressC_exact g))
      (optE 10 11 (encryptedDataC_exact g)
      (optLastE 11 (seqOfC_exact (ticketC_exact g)) (by decide)) (by decide)) (by decide)) (by decide)) (by decide)) (by decide)) (by decide)) (by decide)) (by decide)) (by decide)) (by decide)) (by decide))
    _ _ (fun _ => rfl) (fun _ => rfl)

theorem asReqC_exact (g : Cfg) : (asReqC g).Exact g AsReq.Read :=
  appC_exact (by decide) (R := fun (v : AsReq) => rReq 1 rInt32 v.pvno +> ( rReq 2 rInt32 v.msg_type +> ( rOpt 3 (rSeqOf PaData.Read) v.padata +> ( rReq 4 KdcReqBody.Read v.req_body)))) <|
  Fields.Exact.imap
    (reqE 1 2 (int32C_exact g)
      (reqE 2 3 (int32C_exact g)
      (optE 3 4 (seqOfC_exact (paDataC_exact g))
      (reqLastE 4 (kdcReqBodyC_exact g) (by decide)) (by decide)) (by decide)) (by decide))
    _ _ (fun _ => rfl) (fun _ => rfl)

theorem checksumC_exact (g : Cfg) : (checksumC g).Exact g Checksum.Read :=
  seqC_exact (R := fun (v : Checksum) => rReq 0 rInt32 v.cksumtype +> ( rReq 1 rOctets v.checksum)) <|
  Fields.Exact.imap
    (reqE 0 1 (int32C_exact g)
      (reqLastE 1 (octetsC_exact g) (by decide)) (by decide))
    _ _ (fun _ => rfl) (fun _ => rfl)

theorem encryptionKeyC_exact (g : Cfg) : (encryptionKeyC g).Exact g EncryptionKey.Read :=
  seqC_exact (R := fun (v : EncryptionKey) => rReq 0 rInt32 v.keytype +> ( rReq 1 rOctets v.keyvalue)) <|
  Fields.Exact.imap
    (reqE 0 1 (int32C_exact g)
      (reqLastE 1 (octetsC_exact g) (by decide)) (by decide))
    _ _ (fun _ => rfl) (fun _ => rfl)

theorem authorizationDataEntryC_exact (g : Cfg) : (authorizationDataEntryC g).Exact g AuthorizationDataEntry.Read :=
  seqC_exact (R := fun (v : AuthorizationDataEntry) => rReq 0 rInt32 v.ad_type +> ( rReq 1 rOctets v.ad_data)) <|
  Fields.Exact.imap
    (reqE 0 1 (int32C_exact g)
      (reqLastE 1 (octetsC_exact g) (by decide)) (by decide))
    _ _ (fun _ => rfl) (fun _ => rfl)

theorem authenticatorC_exact (g : Cfg) : (authenticatorC g).Exact g Authenticator.Read :=
  appC_exact (by decide) (R := fun (v : Authenticator) => rReq 0 rInt32 v.authenticator_vno +> ( rReq 1 rString v.crealm +> ( rReq 2 PrincipalName.Read v.cname +> ( rOpt 3 Checksum.Read v.cksum +> ( rReq 4 rInt32 v.cusec +> ( rReq 5 rTime v.ctime +> ( rOpt 6 EncryptionKey.Read v.subkey +> ( rOpt 7 rUInt32 v.seq_number +> ( rOpt 8 (rSeqOf AuthorizationDataEntry.Read) v.authorization_data))))))))) <|
  Fields.Exact.imap
    (reqE 0 1 (int32C_exact g)
      (reqE 1 2 (stringC_exact g)
      (reqE 2 3 (principalNameC_exact g)
      (optE 3 4 (checksumC_exact g)
      (reqE 4 5 (int32C_exact g)
      (reqE 5 6 (kerberosTimeC_exact g)
      (optE 6 7 (encryptionKeyC_exact g)
      (optE 7 8 (uint32C_exact g)
      (optLastE 8 (seqOfC_exact (authorizationDataEntryC_exact g)) (by decide)) (by decide)) (by decide)) (by decide)) (by decide)) (by decide)) (by decide)) (by decide)) (by decide))
    _ _ (fun _ => rfl) (fun _ => rfl)

theorem encApRepPartC_exact (g : Cfg) : (encApRepPartC g).Exact g EncApRepPart.Read :=
  appC_exact (by decide) (R := fun (v : EncApRepPart) => rReq 0 rTime v.ctime +> ( rReq 1 rInt32 v.cusec +> ( rReq 2 EncryptionKey.Read v.subkey +> ( rReq 3 rUInt32 v.seq_number)))) <|
  Fields.Exact.imap
    (reqE 0 1 (kerberosTimeC_exact g)
      (reqE 1 2 (int32C_exact g)
      (reqE 2 3 (encryptionKeyC_exact g)
      (reqLastE 3 (uint32C_exact g) (by decide)) (by decide)) (by decide)) (by decide))
    _ _ (fun _ => rfl) (fun _ => rfl)

theorem lastReqEntryC_exact (g : Cfg) : (lastReqEntryC g).Exact g LastReqEntry.Read :=
  seqC_exact (R := fun (v : LastReqEntry) => rReq 0 rInt32 v.lr_type +> ( rReq 1 rTime v.lr_value)) <|
  Fields.Exact.imap
    (reqE 0 1 (int32C_exact g)
      (reqLastE 1 (kerberosTimeC_exact g) (by decide)) (by decide))
    _ _ (fun _ => rfl) (fun _ => rfl)

theorem encAsRepPartC_exact (g : Cfg) : (encAsRepPartC g).Exact g EncAsRepPart.Read :=
  appC_exact (by decide) (R := fun (v : EncAsRepPart) => rReq 0 EncryptionKey.Read v.key +> ( rReq 1 (rSeqOf LastReqEntry.Read) v.last_req +> ( rReq 2 rUInt32 v.nonce +> ( rOpt 3 rTime v.key_expiration +> ( rReq 4 rFlags v.flags +> ( rReq 5 rTime v.authtime +> ( rOpt 6 rTime v.starttime +> ( rReq 7 rTime v.endtime +> ( rOpt 8 rTime v.renew_till +> ( rReq 9 rString v.srealm +> ( rReq 10 PrincipalName.Read v.sname +> ( rOpt 11 (rSeqOf HostAddress.Read) v.caddr +> ( rOpt 12 (rSeqOf PaData.Read) v.encrypted_pa_data))))))))))))) <|
  Fields.Exact.imap
    (reqE 0 1 (encryptionKeyC_exact g)
      (reqE 1 2 (seqOfC_exact (lastReqEntryC_exact g))
      (reqE 2 3 (uint32C_exact g)
      (optE 3 4 (kerberosTimeC_exact g)
      (reqE 4 5 (flagsC_exact g)
      (reqE 5 6 (kerberosTimeC_exact g)
      (optE 6 7 (kerberosTimeC_exact g)
      (reqE 7 8 (kerberosTimeC_exact g)
      (optE 8 9 (kerberosTimeC_exact g)
      (reqE 9 10 (stringC_exact g)
      (reqE 10 11 (principalNameC_exact g)
      (optE 11 12 (seqOfC_exact (hostAddressC_exact g))
      (optLastE 12 (seqOfC_exact (paDataC_exact g)) (by decide)) (by decide)) (by decide)) (by decide)) (by decide)) (by decide)) (by decide)) (by decide)) (by decide)) (by decide)) (by decide)) (by decide)) (by decide))
    _ _ (fun _ => rfl) (fun _ => rfl)

theorem encKdcRepPartC_exact (g : Cfg) : (encKdcRepPartC g).Exact g EncKdcRepPart.Read :=
  seqC_exact (R := fun (v : EncKdcRepPart) => rReq 0 EncryptionKey.Read v.key +> ( rReq 1 (rSeqOf LastReqEntry.Read) v.last_req +> ( rReq 2 rUInt32 v.nonce +> ( rOpt 3 rTime v.key_expiration +> ( rReq 4 rFlags v.flags +> ( rReq 5 rTime v.authtime +> ( rOpt 6 rTime v.starttime +> ( rReq 7 rTime v.endtime +> ( rOpt 8 rTime v.renew_till +> ( rReq 9 rString v.srealm +> ( rReq 10 PrincipalName.Read v.sname +> ( rOpt 11 (rSeqOf HostAddress.Read) v.caddr +> ( rOpt 12 (rSeqOf PaData.Read) v.encrypted_pa_data))))))))))))) <|
  Fields.Exact.imap
    (reqE 0 1 (encryptionKeyC_exact g)
      (reqE 1 2 (seqOfC_exact (lastReqEntryC_exact g))
      (reqE 2 3 (uint32C_exact g)
      (optE 3 4 (kerberosTimeC_exact g)
      (reqE 4 5 (flagsC_exact g)
      (reqE 5 6 (kerberosTimeC_exact g)
      (optE 6 7 (kerberosTimeC_exact g)
      (reqE 7 8 (kerberosTimeC_exact g)
      (optE 8 9 (kerberosTimeC_exact g)
      (reqE 9 10 (stringC_exact g)
      (reqE 10 11 (principalNameC_exact g)
      (optE 11 12 (seqOfC_exact (hostAddressC_exact g))
      (optLastE 12 (seqOfC_exact (paDataC_exact g)) (by decide)) (by decide)) (by decide)) (by decide)) (by decide)) (by decide)) (by decide)) (by decide)) (by decide)) (by decide)) (by decide)) (by decide)) (by decide))
    _ _ (fun _ => rfl) (fun _ => rfl)

theorem krbCredInfoC_exact (g : Cfg) : (krbCredInfoC g).Exact g KrbCredInfo.Read :=
  seqC_exact (R := fun (v : KrbCredInfo) => rReq 0 EncryptionKey.Read v.key +> ( rOpt 1 rString v.prealm +> ( rOpt 2 PrincipalName.Read v.pname +> ( rOpt 3 rFlags v.flags +> ( rOpt 4 rTime v.authtime +> ( rOpt 5 rTime v.starttime +> ( rOpt 6 rTime v.endtime +> ( rOpt 7 rTime v.renew_till +> ( rOpt 8 rString v.srealm +> ( rOpt 9 PrincipalName.Read v.sname +> ( rOpt 10 (rSeqOf HostAddress.Read) v.caddr))))))))))) <|
  Fields.Exact.imap
    (reqE 0 1 (encryptionKeyC_exact g)
      (optE 1 2 (stringC_exact g)
      (optE 2 3 (principalNameC_exact g)
      (optE 3 4 (flagsC_exact g)
      (optE 4 5 (kerberosTimeC_exact g)
      (optE 5 6 (kerberosTimeC_exact g)
      (optE 6 7 (kerberosTimeC_exact g)
      (optE 7 8 (kerberosTimeC_exact g)
      (optE 8 9 (stringC_exact g)
      (optE 9 10 (principalNameC_exact g)
      (optLastE 10 (seqOfC_exact (hostAddressC_exact g)) (by decide)) (by decide)) (by decide)) (by decide)) (by decide)) (by decide)) (by decide)) (by decide)) (by decide)) (by decide)) (by decide))
    _ _ (fun _ => rfl) (fun _ => rfl)

theorem encKrbCredPartC_exact (g : Cfg) : (encKrbCredPartC g).Exact g EncKrbCredPart.Read :=
  appC_exact (by decide) (R := fun (v : EncKrbCredPart) => rReq 0 (rSeqOf KrbCredInfo.Read) v.ticket_info +> ( rOpt 1 rUInt32 v.nonce +> ( rOpt 2 rTime v.timestamp +> ( rOpt 3 rInt32 v.usec +> ( rOpt 4 HostAddress.Read v.s_address +> ( rOpt 5 HostAddress.Read v.r_address)))))) <|
  Fields.Exact.imap
    (reqE 0 1 (seqOfC_exact (krbCredInfoC_exact g))
      (optE 1 2 (uint32C_exact g)
      (optE 2 3 (kerberosTimeC_exact g)
      (optE 3 4 (int32C_exact g)
      (optE 4 5 (hostAddressC_exact g)
      (optLastE 5 (hostAddressC_exact g) (by decide)) (by decide)) (by decide)) (by decide)) (by decide)) (by decide))
    _ _ (fun _ => rfl) (fun _ => rfl)

theorem encKrbPrivPartC_exact (g : Cfg) : (encKrbPrivPartC g).Exact g EncKrbPrivPart.Read :=
  appC_exact (by decide) (R := fun (v : EncKrbPrivPart) => rReq 0 rOctets v.user_data +> ( rOpt 1 rTime v.timestamp +> ( rOpt 2 rInt32 v.usec +> ( rOpt 3 rUInt32 v.seq_number +> ( rReq 4 HostAddress.Read v.s_address +> ( rOpt 5 HostAddress.Read v.r_address)))))) <|
  Fields.Exact.imap
    (reqE 0 1 (octetsC_exact g)
      (optE 1 2 (kerberosTimeC_exact g)
      (optE 2 3 (int32C_exact g)
      (optE 3 4 (uint32C_exact g)
      (reqE 4 5 (hostAddressC_exact g)
      (optLastE 5 (hostAddressC_exact g) (by decide)) (by decide)) (by decide)) (by decide)) (by decide)) (by decide))
    _ _ (fun _ => rfl) (fun _ => rfl)

theorem encTgsRepPartC_exact (g : Cfg) : (encTgsRepPartC g).Exact g EncTgsRepPart.Read :=
  appC_exact (by decide) (R := fun (v : EncTgsRepPart) => rReq 0 EncryptionKey.Read v.key +> ( rReq 1 (rSeqOf LastReqEntry.Read) v.last_req +> ( rReq 2 rUInt32 v.nonce +> ( rOpt 3 rTime v.key_expiration +> ( rReq 4 rFlags v.flags +> ( rReq 5 rTime v.authtime +> ( rOpt 6 rTime v.starttime +> ( rReq 7 rTime v.endtime +> ( rOpt 8 rTime v.renew_till +> ( rReq 9 rString v.srealm +> ( rReq 10 PrincipalName.Read v.sname +> ( rOpt 11 (rSeqOf HostAddress.Read) v.caddr +> ( rOpt 12 (rSeqOf PaData.Read) v.encrypted_pa_data))))))))))))) <|
  Fields.Exact.imap
    (reqE 0 1 (encryptionKeyC_exact g)
      (reqE 1 2 (seqOfC_exact (lastReqEntryC_exact g))
      (reqE 2 3 (uint32C_exact g)
      (optE 3 4 (kerberosTimeC_exact g)
      (reqE 4 5 (flagsC_exact g)
      (reqE 5 6 (kerberosTimeC_exact g)
      (optE 6 7 (kerberosTimeC_exact g)
      (reqE 7 8 (kerberosTimeC_exact g)
      (optE 8 9 (kerberosTimeC_exact g)
      (reqE 9 10 (stringC_exact g)
      (reqE 10 11 (principalNameC_exact g)
      (optE 11 12 (seqOfC_exact (hostAddressC_exact g))
      (optLastE 12 (seqOfC_exact (paDataC_exact g)) (by decide)) (by decide)) (by decide)) (by decide)) (by decide)) (by decide)) (by decide)) (by decide)) (by decide)) (by decide)) (by decide)) (by decide)) (by decide))
    _ _ (fun _ => rfl) (fun _ => rfl)

theorem transitedEncodingC_exact (g : Cfg) : (transitedEncodingC g).Exact g TransitedEncoding.Read :=
  seqC_exact (R := fun (v : TransitedEncoding) => rReq 0 rInt32 v.tr_type +> ( rReq 1 rOctets v.contents)) <|
  Fields.Exact.imap
    (reqE 0 1 (int32C_exact g)
      (reqLastE 1 (octetsC_exact g) (by decide)) (by decide))
    _ _ (fun _ => rfl) (fun _ => rfl)

theorem encTicketPartC_exact (g : Cfg) : (encTicketPartC g).Exact g EncTicketPart.Read :=
  appC_exact (by decide) (R := fun (v : EncTicketPart) => rReq 0 rFlags v.flags +> ( rReq 1 EncryptionKey.Read v.key +> ( rReq 2 rString v.crealm +> ( rReq 3 PrincipalName.Read v.cname +> ( rReq 4 TransitedEncoding.Read v.transited +> ( rReq 5 rTime v.authtime +> ( rOpt 6 rTime v.starttime +> ( rReq 7 rTime v.endtime +> ( rOpt 8 rTime v.renew_till +> ( rOpt 9 (rSeqOf HostAddress.Read) v.caddr +> ( rOpt 10 (rSeqOf AuthorizationDataEntry.Read) v.authorization_data))))))))))) <|
  Fields.Exact.imap
    (reqE 0 1 (flagsC_exact g)
      (reqE 1 2 (encryptionKeyC_exact g)
      (reqE 2 3 (stringC_exact g)
      (reqE 3 4 (principalNameC_exact g)
      (reqE 4 5 (transitedEncodingC_exact g)
      (reqE 5 6 (kerberosTimeC_exact g)
      (optE 6 7 (kerberosTimeC_exact g)
      (reqE 7 8 (kerberosTimeC_exact g)
      (optE 8 9 (kerberosTimeC_exact g)
      (optE 9 10 (seqOfC_exact (hostAddressC_exact g))
      (optLastE 10 (seqOfC_exact (authorizationDataEntryC_exact g)) (by decide)) (by decide)) (by decide)) (by decide)) (by decide)) (by decide)) (by decide)) (by decide)) (by decide)) (by decide)) (by decide))
    _ _ (fun _ => rfl) (fun _ => rfl)

theorem kdcReqC_exact (g : Cfg) : (kdcReqC g).Exact g KdcReq.Read :=
  seqC_exact (R := fun (v : KdcReq) => rReq 1 rInt32 v.pvno +> ( rReq 2 rInt32 v.msg_type +> ( rOpt 3 (rSeqOf PaData.Read) v.padata +> ( rReq 4 KdcReqBody.Read v.req_body)))) <|
  Fields.Exact.imap
    (reqE 1 2 (int32C_exact g)
      (reqE 2 3 (int32C_exact g)
      (optE 3 4 (seqOfC_exact (paDataC_exact g))
      (reqLastE 4 (kdcReqBodyC_exact g) (by decide)) (by decide)) (by decide)) (by decide))
    _ _ (fun _ => rfl) (fun _ => rfl)

theorem kerbAdRestrictionEntryC_exact (g : Cfg) : (kerbAdRestrictionEntryC g).Exact g KerbAdRestrictionEntry.Read :=
  seqC_exact (R := fun (v : KerbAdRestrictionEntry) => rReq 0 rInt32 v.restriction_type +> ( rReq 1 rOctets v.restriction)) <|
  Fields.Exact.imap
    (reqE 0 1 (int32C_exact g)
      (reqLastE 1 (octetsC_exact g) (by decide)) (by decide))
    _ _ (fun _ => rfl) (fun _ => rfl)

theorem kerbErrorDataC_exact (g : Cfg) : (kerbErrorDataC g).Exact g KerbErrorData.Read :=
  seqC_exact (R := fun (v : KerbErrorData) => rReq 1 rInt32 v.data_type +> ( rOpt 2 rOctets v.data_value)) <|
  Fields.Exact.imap
    (reqE 1 2 (int32C_exact g)
      (optLastE 2 (octetsC_exact g) (by decide)) (by decide))
    _ _ (fun _ => rfl) (fun _ => rfl)

theorem krbCredC_exact (g : Cfg) : (krbCredC g).Exact g KrbCred.Read :=
  appC_exact (by decide) (R := fun (v : KrbCred) => rReq 0 rInt32 v.pvno +> ( rReq 1 rInt32 v.msg_type +> ( rReq 2 (rSeqOf Ticket.Read) v.tickets +> ( rReq 3 EncryptedData.Read v.enc_part)))) <|
  Fields.Exact.imap
    (reqE 0 1 (int32C_exact g)
      (reqE 1 2 (int32C_exact g)
      (reqE 2 3 (seqOfC_exact (ticketC_exact g))
      (reqLastE 3 (encryptedDataC_exact g) (by decide)) (by decide)) (by decide)) (by decide))
    _ _ (fun _ => rfl) (fun _ => rfl)

theorem krbErrorC_exact (g : Cfg) : (krbErrorC g).Exact g KrbError.Read :=
  appC_exact (by decide) (R := fun (v : KrbError) => rReq 0 rInt32 v.pvno +> ( rReq 1 rInt32 v.msg_type +> ( rOpt 2 rTime v.ctime +> ( rOpt 3 rInt32 v.cusec +> ( rReq 4 rTime v.stime +> ( rReq 5 rInt32 v.susec +> ( rReq 6 rInt32 v.error_code +> ( rOpt 7 rString v.crealm +> ( rOpt 8 PrincipalName.Read v.cname +> ( rReq 9 rString v.realm +> ( rReq 10 PrincipalName.Read v.sname +> ( rOpt 11 rString v.e_text +> ( rOpt 12 rOctets v.e_data))))))))))))) <|
  Fields.Exact.imap
    (reqE 0 1 (int32C_exact g)
      (reqE 1 2 (int32C_exact g)
      (optE 2 3 (kerberosTimeC_exact g)
      (optE 3 4 (int32C_exact g)
      (reqE 4 5 (kerberosTimeC_exact g)
      (reqE 5 6 (int32C_exact g)
      (reqE 6 7 (int32C_exact g)
      (optE 7 8 (stringC_exact g)
      (optE 8 9 (principalNameC_exact g)
      (reqE 9 10 (stringC_exact g)
      (reqE 10 11 (principalNameC_exact g)
      (optE 11 12 (stringC_exact g)
      (optLastE 12 (octetsC_exact g) (by decide)) (by decide)) (by decide)) (by decide)) (by decide)) (by decide)) (by decide)) (by decide)) (by decide)) (by decide)) (by decide)) (by decide)) (by decide))
    _ _ (fun _ => rfl) (fun _ => rfl)

theorem krbPrivC_exact (g : Cfg) : (krbPrivC g).Exact g KrbPriv.Read :=
  appC_exact (by decide) (R := fun (v : KrbPriv) => rReq 0 rInt32 v.pvno +> ( rReq 1 rInt32 v.msg_type +> ( rReq 3 EncryptedData.Read v.enc_part))) <|
  Fields.Exact.imap
    (reqE 0 1 (int32C_exact g)
      (reqE 1 3 (int32C_exact g)
      (reqLastE 3 (encryptedDataC_exact g) (by decide)) (by decide)) (by decide))
    _ _ (fun _ => rfl) (fun _ => rfl)

theorem krbSafeBodyC_exact (g : Cfg) : (krbSafeBodyC g).Exact g KrbSafeBody.Read :=
  seqC_exact (R := fun (v : KrbSafeBody) => rReq 0 rOctets v.user_data +> ( rOpt 1 rTime v.timestamp +> ( rOpt 2 rInt32 v.usec +> ( rOpt 3 rUInt32 v.seq_number +> ( rReq 4 HostAddress.Read v.s_address +> ( rOpt 5 HostAddress.Read v.r_address)))))) <|
  Fields.Exact.imap
    (reqE 0 1 (octetsC_exact g)
      (optE 1 2 (kerberosTimeC_exact g)
      (optE 2 3 (int32C_exact g)
      (optE 3 4 (uint32C_exact g)
      (reqE 4 5 (hostAddressC_exact g)
      (optLastE 5 (hostAddressC_exact g) (by decide)) (by decide)) (by decide)) (by decide)) (by decide)) (by decide))
    _ _ (fun _ => rfl) (fun _ => rfl)

theorem krbSafeC_exact (g : Cfg) : (krbSafeC g).Exact g KrbSafe.Read :=
  appC_exact (by decide) (R := fun (v : KrbSafe) => rReq 0 rInt32 v.pvno +> ( rReq 1 rInt32 v.msg_type +> ( rReq 2 KrbSafeBody.Read v.safe_body +> ( rReq 3 Checksum.Read v.cksum)))) <|
  Fields.Exact.imap
    (reqE 0 1 (int32C_exact g)
      (reqE 1 2 (int32C_exact g)
      (reqE 2 3 (krbSafeBodyC_exact g)
      (reqLastE 3 (checksumC_exact g) (by decide)) (by decide)) (by decide)) (by decide))
    _ _ (fun _ => rfl) (fun _ => rfl)

theorem adAndOrC_exact (g : Cfg) : (adAndOrC g).Exact g AdAndOr.Read :=
  seqC_exact (R := fun (v : AdAndOr) => rReq 0 rInt32 v.condition_count +> ( rReq 1 (rSeqOf AuthorizationDataEntry.Read) v.elements)) <|
  Fields.Exact.imap
    (reqE 0 1 (int32C_exact g)
      (reqLastE 1 (seqOfC_exact (authorizationDataEntryC_exact g)) (by decide)) (by decide))
    _ _ (fun _ => rfl) (fun _ => rfl)

theorem adKdcIssuedC_exact (g : Cfg) : (adKdcIssuedC g).Exact g AdKdcIssued.Read :=
  seqC_exact (R := fun (v : AdKdcIssued) => rReq 0 Checksum.Read v.ad_checksum +> ( rOpt 1 rString v.i_realm +> ( rOpt 2 PrincipalName.Read v.i_sname +> ( rReq 3 (rSeqOf AuthorizationDataEntry.Read) v.elements)))) <|
  Fields.Exact.imap
    (reqE 0 1 (checksumC_exact g)
      (optE 1 2 (stringC_exact g)
      (optE 2 3 (principalNameC_exact g)
      (reqLastE 3 (seqOfC_exact (authorizationDataEntryC_exact g)) (by decide)) (by decide)) (by decide)) (by decide))
    _ _ (fun _ => rfl) (fun _ => rfl)

theorem etypeInfo2EntryC_exact (g : Cfg) : (etypeInfo2EntryC g).Exact g EtypeInfo2Entry.Read :=
  seqC_exact (R := fun (v : EtypeInfo2Entry) => rReq 0 rInt32 v.etype +> ( rOpt 1 rString v.salt +> ( rOpt 2 rOctets v.s2kparams))) <|
  Fields.Exact.imap
    (reqE 0 1 (int32C_exact g)
      (optE 1 2 (stringC_exact g)
      (optLastE 2 (octetsC_exact g) (by decide)) (by decide)) (by decide))
    _ _ (fun _ => rfl) (fun _ => rfl)

theorem etypeInfoEntryC_exact (g : Cfg) : (etypeInfoEntryC g).Exact g EtypeInfoEntry.Read :=
  seqC_exact (R := fun (v : EtypeInfoEntry) => rReq 0 rInt32 v.etype +> ( rOpt 1 rOctets v.salt)) <|
  Fields.Exact.imap
    (reqE 0 1 (int32C_exact g)
      (optLastE 1 (octetsC_exact g) (by decide)) (by decide))
    _ _ (fun _ => rfl) (fun _ => rfl)

theorem kerbPaPacRequestC_exact (g : Cfg) : (kerbPaPacRequestC g).Exact g KerbPaPacRequest.Read :=
  seqC_exact (R := fun (v : KerbPaPacRequest) => rReq 0 rBool v.include_pac) <|
  Fields.Exact.imap
    (reqLastE 0 (boolC_exact g) (by decide))
    _ _ (fun _ => rfl) (fun _ => rfl)

theorem paEncTsEncC_exact (g : Cfg) : (paEncTsEncC g).Exact g PaEncTsEnc.Read :=
  seqC_exact (R := fun (v : PaEncTsEnc) => rReq 0 rTime v.patimestamp +> ( rOpt 1 rInt32 v.pausec)) <|
  Fields.Exact.imap
    (reqE 0 1 (kerberosTimeC_exact g)
      (optLastE 1 (int32C_exact g) (by decide)) (by decide))
    _ _ (fun _ => rfl) (fun _ => rfl)

theorem paForUserC_exact (g : Cfg) : (paForUserC g).Exact g PaForUser.Read :=
  seqC_exact (R := fun (v : PaForUser) => rReq 0 PrincipalName.Read v.username +> ( rReq 1 rString v.userrealm +> ( rReq 2 Checksum.Read v.cksum +> ( rReq 3 rString v.auth_package)))) <|
  Fields.Exact.imap
    (reqE 0 1 (principalNameC_exact g)
      (reqE 1 2 (stringC_exact g)
      (reqE 2 3 (checksumC_exact g)
      (reqLastE 3 (stringC_exact g) (by decide)) (by decide)) (by decide)) (by decide))
    _ _ (fun _ => rfl) (fun _ => rfl)

theorem paPacOptionsC_exact (g : Cfg) : (paPacOptionsC g).Exact g PaPacOptions.Read :=
  seqC_exact (R := fun (v : PaPacOptions) => rReq 0 rFlags v.kerberos_flags) <|
  Fields.Exact.imap
    (reqLastE 0 (flagsC_exact g) (by decide))
    _ _ (fun _ => rfl) (fun _ => rfl)

theorem s4uUserIdC_exact (g : Cfg) : (s4uUserIdC g).Exact g S4uUserId.Read :=
  seqC_exact (R := fun (v : S4uUserId) => rReq 0 rUInt32 v.nonce +> ( rOpt 1 PrincipalName.Read v.cname +> ( rReq 2 rString v.crealm +> ( rOpt 3 rOctets v.subject_certificate +> ( rOpt 4 rBits v.options))))) <|
  Fields.Exact.imap
    (reqE 0 1 (uint32C_exact g)
      (optE 1 2 (principalNameC_exact g)
      (reqE 2 3 (stringC_exact g)
      (optE 3 4 (octetsC_exact g)
      (optLastE 4 (bitStringC_exact g) (by decide)) (by decide)) (by decide)) (by decide)) (by decide))
    _ _ (fun _ => rfl) (fun _ => rfl)

theorem paS4uX509UserC_exact (g : Cfg) : (paS4uX509UserC g).Exact g PaS4uX509User.Read :=
  seqC_exact (R := fun (v : PaS4uX509User) => rReq 0 S4uUserId.Read v.user_id +> ( rReq 1 Checksum.Read v.checksum)) <|
  Fields.Exact.imap
    (reqE 0 1 (s4uUserIdC_exact g)
      (reqLastE 1 (checksumC_exact g) (by decide)) (by decide))
    _ _ (fun _ => rfl) (fun _ => rfl)

theorem tgsRepC_exact (g : Cfg) : (tgsRepC g).Exact g TgsRep.Read :=
  appC_exact (by decide) (R := fun (v : TgsRep) => rReq 0 rInt32 v.pvno +> ( rReq 1 rInt32 v.msg_type +> ( rOpt 2 (rSeqOf PaData.Read) v.padata +> ( rReq 3 rString v.crealm +> ( rReq 4 PrincipalName.Read v.cname +> ( rReq 5 Ticket.Read v.ticket +> ( rReq 6 EncryptedData.Read v.enc_part))))))) <|
  Fields.Exact.imap
    (reqE 0 1 (int32C_exact g)
      (reqE 1 2 (int32C_exact g)
      (optE 2 3 (seqOfC_exact (paDataC_exact g))
      (reqE 3 4 (stringC_exact g)
      (reqE 4 5 (principalNameC_exact g)
      (reqE 5 6 (ticketC_exact g)
      (reqLastE 6 (encryptedDataC_exact g) (by decide)) (by decide)) (by decide)) (by decide)) (by decide)) (by decide)) (by decide))
    _ _ (fun _ => rfl) (fun _ => rfl)

theorem tgsReqC_exact (g : Cfg) : (tgsReqC g).Exact g TgsReq.Read :=
  appC_exact (by decide) (R := fun (v : TgsReq) => rReq 1 rInt32 v.pvno +> ( rReq 2 rInt32 v.msg_type +> ( rOpt 3 (rSeqOf PaData.Read) v.padata +> ( rReq 4 KdcReqBody.Read v.req_body)))) <|
  Fields.Exact.imap
    (reqE 1 2 (int32C_exact g)
      (reqE 2 3 (int32C_exact g)
      (optE 3 4 (seqOfC_exact (paDataC_exact g))
      (reqLastE 4 (kdcReqBodyC_exact g) (by decide)) (by decide)) (by decide)) (by decide))
    _ _ (fun _ => rfl) (fun _ => rfl)

theorem typedDataEntryC_exact (g : Cfg) : (typedDataEntryC g).Exact g TypedDataEntry.Read :=
  seqC_exact (R := fun (v : TypedDataEntry) => rReq 0 rInt32 v.data_type +> ( rOpt 1 rOctets v.data_value)) <|
  Fields.Exact.imap
    (reqE 0 1 (int32C_exact g)
      (optLastE 1 (octetsC_exact g) (by decide)) (by decide))
    _ _ (fun _ => rfl) (fun _ => rfl)

theorem MsgType.exact (g : Cfg) : (T : MsgType) → (T.codec g).Exact g T.Read
  | .encryptedData => encryptedDataC_exact g
  | .apRep => apRepC_exact g
  | .principalName => principalNameC_exact g
  | .ticket => ticketC_exact g
  | .apReq => apReqC_exact g
  | .paData => paDataC_exact g
  | .asRep => asRepC_exact g
  | .hostAddress => hostAddressC_exact g
  | .kdcReqBody => kdcReqBodyC_exact g
  | .asReq => asReqC_exact g
  | .checksum => checksumC_exact g
  | .encryptionKey => encryptionKeyC_exact g
  | .authorizationDataEntry => authorizationDataEntryC_exact g
  | .authenticator => authenticatorC_exact g
  | .encApRepPart => encApRepPartC_exact g
  | .lastReqEntry => lastReqEntryC_exact g
  | .encAsRepPart => encAsRepPartC_exact g
  | .encKdcRepPart => encKdcRepPartC_exact g
  | .krbCredInfo => krbCredInfoC_exact g
  | .encKrbCredPart => encKrbCredPartC_exact g
  | .encKrbPrivPart => encKrbPrivPartC_exact g
  | .encTgsRepPart => encTgsRepPartC_exact g
  | .transitedEncoding => transitedEncodingC_exact g
  | .encTicketPart => encTicketPartC_exact g
  | .kdcReq => kdcReqC_exact g
  | .kerbAdRestrictionEntry => kerbAdRestrictionEntryC_exact g
  | .kerbErrorData => kerbErrorDataC_exact g
  | .krbCred => krbCredC_exact g
  | .krbError => krbErrorC_exact g
  | .krbPriv => krbPrivC_exact g
  | .krbSafeBody => krbSafeBodyC_exact g
  | .krbSafe => krbSafeC_exact g
  | .adAndOr => adAndOrC_exact g
  | .adKdcIssued => adKdcIssuedC_exact g
  | .etypeInfo2Entry => etypeInfo2EntryC_exact g
  | .etypeInfoEntry => etypeInfoEntryC_exact g
  | .kerbPaPacRequest => kerbPaPacRequestC_exact g
  | .paEncTsEnc => paEncTsEncC_exact g
  | .paForUser => paForUserC_exact g
  | .paPacOptions => paPacOptionsC_exact g
  | .s4uUserId => s4uUserIdC_exact g
  | .paS4uX509User => paS4uX509UserC_exact g
  | .tgsRep => tgsRepC_exact g
  | .tgsReq => tgsReqC_exact g
  | .typedDataEntry => typedDataEntryC_exact g
  | .hostAddresses => seqOfC_exact (hostAddressC_exact g)
  | .authorizationData => seqOfC_exact (authorizationDataEntryC_exact g)
  | .lastReq => seqOfC_exact (lastReqEntryC_exact g)
  | .typedData => seqOfC_exact (typedDataEntryC_exact g)
  | .etypeInfo => seqOfC_exact (etypeInfoEntryC_exact g)
  | .etypeInfo2 => seqOfC_exact (etypeInfo2EntryC_exact g)
  | .methodData => seqOfC_exact (paDataC_exact g)
  | .kerbKeyListRep => seqOfC_exact (encryptionKeyC_exact g)
  | .kerbKeyListReq => seqOfC_exact (int32C_exact g)
  | .kerbLocal => octetsC_exact g
  | .realm => stringC_exact g
  | .int32 => int32C_exact g
  | .kerberosFlags => flagsC_exact g
  | .kerberosTime => kerberosTimeC_exact g
  | .uInt32 => uint32C_exact g

end Verif.Asn1
