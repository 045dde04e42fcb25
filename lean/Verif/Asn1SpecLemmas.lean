import Verif.Asn1Spec
import Verif.Asn1Lemmas
/-
The encoders of `Verif.Asn1Messages` produce the DER of `Verif.Asn1Spec`. Regular proofs, one per type.
Lengths: the library's length octets agree with DER for sizes below 2^64; a list is not bounded in Lean, so the
comparison is made through `buildLen` (see `buildLen_eq_derLen`).
-/
namespace Verif.Asn1

theorem natBytes_eq : ∀ k n, n ≤ k → natBytes k n = base256 n := by
  intro k
  induction k with
  | zero => intro n h; have : n = 0 := by omega
            subst this; unfold base256; simp [natBytes]
  | succ k ih =>
    intro n h
    unfold natBytes base256
    split
    · rfl
    · rw [ih (n / 256) (by omega)]
      congr 2
      apply u8_ext; simp only [u8_toNat_ofNat]; omega

theorem buildLen_eq_derLen (n : Nat) : buildLen n = derLen n := by
  unfold buildLen derLen
  split
  · rfl
  · rw [natBytes_eq n n (Nat.le_refl _)]

theorem tlv_prim (t c) : tlv t c = (Der.prim t c).bytes := by
  simp [tlv, Der.bytes, buildLen_eq_derLen]

theorem tlv_node (t l) : tlv t (Der.listBytes l) = (Der.node t l).bytes := by
  simp [tlv, Der.bytes, buildLen_eq_derLen]

theorem Der.bytes_node (t l) : (Der.node t l).bytes = tlv t (Der.listBytes l) := (tlv_node t l).symm
theorem Der.listBytes_one (d : Der) : Der.listBytes [d] = d.bytes := by simp [Der.listBytes]
theorem Der.bytes_node1 (t : UInt8) (d : Der) : (Der.node t [d]).bytes = tlv t d.bytes := by
  rw [Der.bytes_node, Der.listBytes_one]
theorem Der.listBytes_append (a b : List Der) : Der.listBytes (a ++ b) = Der.listBytes a ++ Der.listBytes b := by
  induction a with
  | nil => simp [Der.listBytes]
  | cons d a ih => simp [Der.listBytes, ih]

theorem intBytes_eq (x : Int32) : intBytes x = derInt x.toInt := by
  have hu := i32_toUInt32_toNat x
  have h1 := x.toInt_lt
  have h2 := x.le_toInt
  have h3 := x.toUInt32.toNat_lt
  unfold intBytes be32 derInt
  simp only [List.drop]
  generalize x.toUInt32.toNat = u at *
  generalize x.toInt = v at *
  have e : ∀ (a b : Nat), a % 256 = b % 256 → UInt8.ofNat a = UInt8.ofNat b := by
    intro a b h; apply u8_ext; simp only [u8_toNat_ofNat]; exact h
  have e0 : UInt8.ofNat u = UInt8.ofNat (v / 256 ^ 0 % 256).toNat := by apply e; simp; omega
  have e1 : UInt8.ofNat (u / 256) = UInt8.ofNat (v / 256 ^ 1 % 256).toNat := by apply e; simp; omega
  have e2 : UInt8.ofNat (u / 65536) = UInt8.ofNat (v / 256 ^ 2 % 256).toNat := by apply e; simp; omega
  have e3 : UInt8.ofNat (u / 16777216) = UInt8.ofNat (v / 256 ^ 3 % 256).toNat := by apply e; simp; omega
  rw [e0, e1, e2, e3]
  simp only [show ((-2 : Int) ^ 7) = -128 by decide, Int.reducePow, Int.reduceNeg]
  split
  · rfl
  · split
    · rfl
    · split
      · rfl
      · rw [if_pos (by omega)]

/-- what the library writes: the number of the `i32` with the same bits, and chrono's form of the year -/
def lib (g : Cfg) : WireForm := ⟨fun x => x.toInt32.toInt, yearBytes g⟩

theorem twoDigits_eq (n : Nat) : twoDigits n = decimal 2 n := by
  have h : List.range 2 = [0, 1] := by decide
  simp [twoDigits, decimal, dig, h]

theorem yearBytes_eq (g : Cfg) {y : Int} (h : 0 ≤ y ∧ y ≤ 9999) : yearBytes g y = decimal 4 y.toNat := by
  have h4 : List.range 4 = [0, 1, 2, 3] := by decide
  simp [yearBytes, h, decimal, dig, h4]

theorem int32C_der (g : Cfg) (x : Int32) : (int32C g).enc x = (dInt32 x).bytes := by
  simp only [Codec.enc, int32C, tlv_prim, intBytes_eq, dInt32]
theorem uint32C_der (g : Cfg) (x : UInt32) : (uint32C g).enc x = (dUInt32 (lib g) x).bytes := by
  simp only [Codec.enc, uint32C, tlv_prim, intBytes_eq, dUInt32, lib]
theorem boolC_der (g : Cfg) (x : Bool) : (boolC g).enc x = (dBool x).bytes := by
  simp only [Codec.enc, boolC, tlv_prim, dBool]
theorem octetsC_der (x : Bytes) : octetsC.enc x = (dOctets x).bytes := by
  simp only [Codec.enc, octetsC, tlv_prim, dOctets, id]
theorem stringC_der (x : List Char) : stringC.enc x = (dString x).bytes := by
  simp only [Codec.enc, stringC, tlv_prim, dString]
theorem bitStringC_der (x : BitString) : bitStringC.enc x = (dBits x).bytes := by
  simp only [Codec.enc, bitStringC, tlv_prim, dBits]
theorem flagsC_der (x : UInt32) : flagsC.enc x = (dFlags x).bytes := by
  simp only [Codec.enc, flagsC, bitStringC, tlv_prim, dFlags]
theorem kerberosTimeC_der (g : Cfg) (t : DateTime) : (kerberosTimeC g).enc t = (dTime (lib g) t).bytes := by
  rw [Codec.enc, kerberosTimeC_build, tlv_prim]; simp only [genTimeBytes, twoDigits_eq]; rfl

theorem flatMap_der {α} {c : Codec α} {f : α → Der} (h : ∀ a, c.enc a = (f a).bytes) (l : List α) :
    l.flatMap c.enc = Der.listBytes (l.map f) := by
  induction l with
  | nil => simp [Der.listBytes]
  | cons a l ih => simp [Der.listBytes, ih, h]

theorem seqOfC_der {α} {g : Cfg} {c : Codec α} {f : α → Der} (h : ∀ a, c.enc a = (f a).bytes) (l : List α) :
    (seqOfC g c).enc l = (dSeqOf f l).bytes := by
  simp only [Codec.enc, seqOfC, flatMap_der h, tlv_node, dSeqOf]

theorem req_build {α β} {g : Cfg} {n : Nat} {c : Codec α} {rest : Fields β} {f : α → Der} {a : α} {b : β} {ds}
    (h : c.enc a = (f a).bytes) (hr : rest.build b = Der.listBytes ds) :
    (reqField g n c rest).build (a, b) = Der.listBytes (req n f a ++ ds) := by
  simp only [reqField, req, Der.listBytes_append, Der.listBytes_one, Der.bytes_node1, h, hr, ctxTag]

theorem opt_build {α β} {g : Cfg} {n : Nat} {c : Codec α} {rest : Fields β} {f : α → Der} {a : Option α} {b : β} {ds}
    (h : ∀ a, c.enc a = (f a).bytes) (hr : rest.build b = Der.listBytes ds) :
    (optField g n c rest).build (a, b) = Der.listBytes (opt n f a ++ ds) := by
  cases a with
  | none => simp only [optField, opt, List.nil_append, hr]
  | some a => simp only [optField, opt, req, Der.listBytes_append, Der.listBytes_one, Der.bytes_node1, h, hr, ctxTag]

theorem req_last {α} {g : Cfg} {n : Nat} {c : Codec α} {f : α → Der} {a : α}
    (h : c.enc a = (f a).bytes) :
    (reqField g n c noFields).build (a, ()) = Der.listBytes (req n f a) := by
  rw [req_build (ds := []) h (by simp [noFields, Der.listBytes]), List.append_nil]

theorem opt_last {α} {g : Cfg} {n : Nat} {c : Codec α} {f : α → Der} {a : Option α}
    (h : ∀ a, c.enc a = (f a).bytes) :
    (optField g n c noFields).build (a, ()) = Der.listBytes (opt n f a) := by
  rw [opt_build (ds := []) h (by simp [noFields, Der.listBytes]), List.append_nil]

theorem seqC_der {α} {g : Cfg} {fs : Fields α} {v : α} {ds} (h : fs.build v = Der.listBytes ds) :
    (seqC g fs).enc v = (Der.node 0x30 ds).bytes := by
  simp only [Codec.enc, seqC, h, tlv_node]

theorem appC_der {α} {g : Cfg} {n : Nat} {fs : Fields α} {v : α} {ds} {t : UInt8} (ht : appTag n = t)
    (h : fs.build v = Der.listBytes ds) :
    (appC g n fs).enc v = (Der.node t [Der.node 0x30 ds]).bytes := by
  rw [Der.bytes_node1, ← seqC_der (g := g) h, ← ht]
  rfl

theorem encryptedDataC_der (g : Cfg) (v : EncryptedData) : (encryptedDataC g).enc v = (EncryptedData.der (lib g) v).bytes :=
  seqC_der <| (show (EncryptedData.fields g).build v = Der.listBytes (req 0 dInt32 v.etype ++ (opt 1 (dUInt32 (lib g)) v.kvno ++ (req 2 dOctets v.cipher))) from
    req_build (g := g) ((int32C_der g) _) <|
    opt_build (g := g) (uint32C_der g) <|
    req_last (g := g) (octetsC_der _))

theorem apRepC_der (g : Cfg) (v : ApRep) : (apRepC g).enc v = (ApRep.der (lib g) v).bytes :=
  appC_der (by decide) <| (show (ApRep.fields g).build v = Der.listBytes (req 0 dInt32 v.pvno ++ (req 1 dInt32 v.msg_type ++ (req 2 (EncryptedData.der (lib g)) v.enc_part))) from
    req_build (g := g) ((int32C_der g) _) <|
    req_build (g := g) ((int32C_der g) _) <|
    req_last (g := g) ((encryptedDataC_der g) _))

theorem principalNameC_der (g : Cfg) (v : PrincipalName) : (principalNameC g).enc v = (PrincipalName.der v).bytes :=
  seqC_der <| (show (PrincipalName.fields g).build v = Der.listBytes (req 0 dInt32 v.name_type ++ (req 1 (dSeqOf dString) v.name_string)) from
    req_build (g := g) ((int32C_der g) _) <|
    req_last (g := g) ((seqOfC_der stringC_der) _))

theorem ticketC_der (g : Cfg) (v : Ticket) : (ticketC g).enc v = (Ticket.der (lib g) v).bytes :=
  appC_der (by decide) <| (show (Ticket.fields g).build v = Der.listBytes (req 0 dInt32 v.tkt_vno ++ (req 1 dString v.realm ++ (req 2 PrincipalName.der v.sname ++ (req 3 (EncryptedData.der (lib g)) v.enc_part)))) from
    req_build (g := g) ((int32C_der g) _) <|
    req_build (g := g) (stringC_der _) <|
    req_build (g := g) ((principalNameC_der g) _) <|
    req_last (g := g) ((encryptedDataC_der g) _))

theorem apReqC_der (g : Cfg) (v : ApReq) : (apReqC g).enc v = (ApReq.der (lib g) v).bytes :=
  appC_der (by decide) <| (show (ApReq.fields g).build v = Der.listBytes (req 0 dInt32 v.pvno ++ (req 1 dInt32 v.msg_type ++ (req 2 dFlags v.ap_options ++ (req 3 (Ticket.der (lib g)) v.ticket ++ (req 4 (EncryptedData.der (lib g)) v.authenticator))))) from
    req_build (g := g) ((int32C_der g) _) <|
    req_build (g := g) ((int32C_der g) _) <|
    req_build (g := g) (flagsC_der _) <|
    req_build (g := g) ((ticketC_der g) _) <|
    req_last (g := g) ((encryptedDataC_der g) _))

theorem paDataC_der (g : Cfg) (v : PaData) : (paDataC g).enc v = (PaData.der v).bytes :=
  seqC_der <| (show (PaData.fields g).build v = Der.listBytes (req 1 dInt32 v.padata_type ++ (req 2 dOctets v.padata_value)) from
    req_build (g := g) ((int32C_der g) _) <|
    req_last (g := g) (octetsC_der _))

theorem asRepC_der (g : Cfg) (v : AsRep) : (asRepC g).enc v = (AsRep.der (lib g) v).bytes :=
  appC_der (by decide) <| (show (AsRep.fields g).build v = Der.listBytes (req 0 dInt32 v.pvno ++ (req 1 dInt32 v.msg_type ++ (opt 2 (dSeqOf PaData.der) v.padata ++ (req 3 dString v.crealm ++ (req 4 PrincipalName.der v.cname ++ (req 5 (Ticket.der (lib g)) v.ticket ++ (req 6 (EncryptedData.der (lib g)) v.enc_part))))))) from
    req_build (g := g) ((int32C_der g) _) <|
    req_build (g := g) ((int32C_der g) _) <|
    opt_build (g := g) (seqOfC_der (paDataC_der g)) <|
    req_build (g := g) (stringC_der _) <|
    req_build (g := g) ((principalNameC_der g) _) <|
    req_build (g := g) ((ticketC_der g) _) <|
    req_last (g := g) ((encryptedDataC_der g) _))

theorem hostAddressC_der (g : Cfg) (v : HostAddress) : (hostAddressC g).enc v = (HostAddress.der v).bytes :=
  seqC_der <| (show (HostAddress.fields g).build v = Der.listBytes (req 0 dInt32 v.addr_type ++ (req 1 dOctets v.address)) from
    req_build (g := g) ((int32C_der g) _) <|
    req_last (g := g) (octetsC_der _))

theorem kdcReqBodyC_der (g : Cfg) (v : KdcReqBody) : (kdcReqBodyC g).enc v = (KdcReqBody.der (lib g) v).bytes :=
  seqC_der <| (show (KdcReqBody.fields g).build v = Der.listBytes (req 0 dFlags v.kdc_options ++ (opt 1 PrincipalName.der v.cname ++ (req 2 dString v.realm ++ (opt 3 PrincipalName.der v.sname ++ (opt 4 (dTime (lib g)) v.«from» ++ (req 5 (dTime (lib g)) v.till ++ (opt 6 (dTime (lib g)) v.rtime ++ (req 7 (dUInt32 (lib g)) v.nonce ++ (req 8 (dSeqOf dInt32) v.etypes ++ (opt 9 (dSeqOf HostAddress.der) v.addresses ++ (opt 10 (EncryptedData.der (lib g)) v.enc_authorization_data ++ (opt 11 (dSeqOf (Ticket.der (lib g))) v.additional_tickets)))))))))))) from
    req_build (g := g) (flagsC_der _) <|
    opt_build (g := g) (principalNameC_der g) <|
    req_build (g := g) (stringC_der _) <|
    opt_build (g := g) (principalNameC_der g) <|
    opt_build (g := g) (kerberosTimeC_der g) <|
    req_build (g := g) ((kerberosTimeC_der g) _) <|
    opt_build (g := g) (kerberosTimeC_der g) <|
    req_build (g := g) ((uint32C_der g) _) <|
    req_build (g := g) ((seqOfC_der (int32C_der g)) _) <|
    opt_build (g := g) (seqOfC_der (hostAddressC_der g)) <|
    opt_build (g := g) (encryptedDataC_der g) <|
    opt_last (g := g) (seqOfC_der (ticketC_der g)))

theorem asReqC_der (g : Cfg) (v : AsReq) : (asReqC g).enc v = (AsReq.der (lib g) v).bytes :=
  appC_der (by decide) <| (show (AsReq.fields g).build v = Der.listBytes (req 1 dInt32 v.pvno ++ (req 2 dInt32 v.msg_type ++ (opt 3 (dSeqOf PaData.der) v.padata ++ (req 4 (KdcReqBody.der (lib g)) v.req_body)))) from
    req_build (g := g) ((int32C_der g) _) <|
    req_build (g := g) ((int32C_der g) _) <|
    opt_build (g := g) (seqOfC_der (paDataC_der g)) <|
    req_last (g := g) ((kdcReqBodyC_der g) _))

theorem checksumC_der (g : Cfg) (v : Checksum) : (checksumC g).enc v = (Checksum.der v).bytes :=
  seqC_der <| (show (Checksum.fields g).build v = Der.listBytes (req 0 dInt32 v.cksumtype ++ (req 1 dOctets v.checksum)) from
    req_build (g := g) ((int32C_der g) _) <|
    req_last (g := g) (octetsC_der _))

theorem encryptionKeyC_der (g : Cfg) (v : EncryptionKey) : (encryptionKeyC g).enc v = (EncryptionKey.der v).bytes :=
  seqC_der <| (show (EncryptionKey.fields g).build v = Der.listBytes (req 0 dInt32 v.keytype ++ (req 1 dOctets v.keyvalue)) from
    req_build (g := g) ((int32C_der g) _) <|
    req_last (g := g) (octetsC_der _))

theorem authorizationDataEntryC_der (g : Cfg) (v : AuthorizationDataEntry) : (authorizationDataEntryC g).enc v = (AuthorizationDataEntry.der v).bytes :=
  seqC_der <| (show (AuthorizationDataEntry.fields g).build v = Der.listBytes (req 0 dInt32 v.ad_type ++ (req 1 dOctets v.ad_data)) from
    req_build (g := g) ((int32C_der g) _) <|
    req_last (g := g) (octetsC_der _))

theorem authenticatorC_der (g : Cfg) (v : Authenticator) : (authenticatorC g).enc v = (Authenticator.der (lib g) v).bytes :=
  appC_der (by decide) <| (show (Authenticator.fields g).build v = Der.listBytes (req 0 dInt32 v.authenticator_vno ++ (req 1 dString v.crealm ++ (req 2 PrincipalName.der v.cname ++ (opt 3 Checksum.der v.cksum ++ (req 4 dInt32 v.cusec ++ (req 5 (dTime (lib g)) v.ctime ++ (opt 6 EncryptionKey.der v.subkey ++ (opt 7 (dUInt32 (lib g)) v.seq_number ++ (opt 8 (dSeqOf AuthorizationDataEntry.der) v.authorization_data))))))))) from
    req_build (g := g) ((int32C_der g) _) <|
    req_build (g := g) (stringC_der _) <|
    req_build (g := g) ((principalNameC_der g) _) <|
    opt_build (g := g) (checksumC_der g) <|
    req_build (g := g) ((int32C_der g) _) <|
    req_build (g := g) ((kerberosTimeC_der g) _) <|
    opt_build (g := g) (encryptionKeyC_der g) <|
    opt_build (g := g) (uint32C_der g) <|
    opt_last (g := g) (seqOfC_der (authorizationDataEntryC_der g)))

theorem encApRepPartC_der (g : Cfg) (v : EncApRepPart) : (encApRepPartC g).enc v = (EncApRepPart.der (lib g) v).bytes :=
  appC_der (by decide) <| (show (EncApRepPart.fields g).build v = Der.listBytes (req 0 (dTime (lib g)) v.ctime ++ (req 1 dInt32 v.cusec ++ (req 2 EncryptionKey.der v.subkey ++ (req 3 (dUInt32 (lib g)) v.seq_number)))) from
    req_build (g := g) ((kerberosTimeC_der g) _) <|
    req_build (g := g) ((int32C_der g) _) <|
    req_build (g := g) ((encryptionKeyC_der g) _) <|
    req_last (g := g) ((uint32C_der g) _))

theorem lastReqEntryC_der (g : Cfg) (v : LastReqEntry) : (lastReqEntryC g).enc v = (LastReqEntry.der (lib g) v).bytes :=
  seqC_der <| (show (LastReqEntry.fields g).build v = Der.listBytes (req 0 dInt32 v.lr_type ++ (req 1 (dTime (lib g)) v.lr_value)) from
    req_build (g := g) ((int32C_der g) _) <|
    req_last (g := g) ((kerberosTimeC_der g) _))

theorem encAsRepPartC_der (g : Cfg) (v : EncAsRepPart) : (encAsRepPartC g).enc v = (EncAsRepPart.der (lib g) v).bytes :=
  appC_der (by decide) <| (show (EncAsRepPart.fields g).build v = Der.listBytes (req 0 EncryptionKey.der v.key ++ (req 1 (dSeqOf (LastReqEntry.der (lib g))) v.last_req ++ (req 2 (dUInt32 (lib g)) v.nonce ++ (opt 3 (dTime (lib g)) v.key_expiration ++ (req 4 dFlags v.flags ++ (req 5 (dTime (lib g)) v.authtime ++ (opt 6 (dTime (lib g)) v.starttime ++ (req 7 (dTime (lib g)) v.endtime ++ (opt 8 (dTime (lib g)) v.renew_till ++ (req 9 dString v.srealm ++ (req 10 PrincipalName.der v.sname ++ (opt 11 (dSeqOf HostAddress.der) v.caddr ++ (opt 12 (dSeqOf PaData.der) v.encrypted_pa_data))))))))))))) from
    req_build (g := g) ((encryptionKeyC_der g) _) <|
    req_build (g := g) ((seqOfC_der (lastReqEntryC_der g)) _) <|
    req_build (g := g) ((uint32C_der g) _) <|
    opt_build (g := g) (kerberosTimeC_der g) <|
    req_build (g := g) (flagsC_der _) <|
    req_build (g := g) ((kerberosTimeC_der g) _) <|
    opt_build (g := g) (kerberosTimeC_der g) <|
    req_build (g := g) ((kerberosTimeC_der g) _) <|
    opt_build (g := g) (kerberosTimeC_der g) <|
    req_build (g := g) (stringC_der _) <|
    req_build (g := g) ((principalNameC_der g) _) <|
    opt_build (g := g) (seqOfC_der (hostAddressC_der g)) <|
    opt_last (g := g) (seqOfC_der (paDataC_der g)))

theorem encKdcRepPartC_der (g : Cfg) (v : EncKdcRepPart) : (encKdcRepPartC g).enc v = (EncKdcRepPart.der (lib g) v).bytes :=
  seqC_der <| (show (EncKdcRepPart.fields g).build v = Der.listBytes (req 0 EncryptionKey.der v.key ++ (req 1 (dSeqOf (LastReqEntry.der (lib g))) v.last_req ++ (req 2 (dUInt32 (lib g)) v.nonce ++ (opt 3 (dTime (lib g)) v.key_expiration ++ (req 4 dFlags v.flags ++ (req 5 (dTime (lib g)) v.authtime ++ (opt 6 (dTime (lib g)) v.starttime ++ (req 7 (dTime (lib g)) v.endtime ++ (opt 8 (dTime (lib g)) v.renew_till ++ (req 9 dString v.srealm ++ (req 10 PrincipalName.der v.sname ++ (opt 11 (dSeqOf HostAddress.der) v.caddr ++ (opt 12 (dSeqOf PaData.der) v.encrypted_pa_data))))))))))))) from
    req_build (g := g) ((encryptionKeyC_der g) _) <|
    req_build (g := g) ((seqOfC_der (lastReqEntryC_der g)) _) <|
    req_build (g := g) ((uint32C_der g) _) <|
    opt_build (g := g) (kerberosTimeC_der g) <|
    req_build (g := g) (flagsC_der _) <|
    req_build (g := g) ((kerberosTimeC_der g) _) <|
    opt_build (g := g) (kerberosTimeC_der g) <|
    req_build (g := g) ((kerberosTimeC_der g) _) <|
    opt_build (g := g) (kerberosTimeC_der g) <|
    req_build (g := g) (stringC_der _) <|
    req_build (g := g) ((principalNameC_der g) _) <|
    opt_build (g := g) (seqOfC_der (hostAddressC_der g)) <|
    opt_last (g := g) (seqOfC_der (paDataC_der g)))

theorem krbCredInfoC_der (g : Cfg) (v : KrbCredInfo) : (krbCredInfoC g).enc v = (KrbCredInfo.der (lib g) v).bytes :=
  seqC_der <| (show (KrbCredInfo.fields g).build v = Der.listBytes (req 0 EncryptionKey.der v.key ++ (opt 1 dString v.prealm ++ (opt 2 PrincipalName.der v.pname ++ (opt 3 dFlags v.flags ++ (opt 4 (dTime (lib g)) v.authtime ++ (opt 5 (dTime (lib g)) v.starttime ++ (opt 6 (dTime (lib g)) v.endtime ++ (opt 7 (dTime (lib g)) v.renew_till ++ (opt 8 dString v.srealm ++ (opt 9 PrincipalName.der v.sname ++ (opt 10 (dSeqOf HostAddress.der) v.caddr))))))))))) from
    req_build (g := g) ((encryptionKeyC_der g) _) <|
    opt_build (g := g) stringC_der <|
    opt_build (g := g) (principalNameC_der g) <|
    opt_build (g := g) flagsC_der <|
    opt_build (g := g) (kerberosTimeC_der g) <|
    opt_build (g := g) (kerberosTimeC_der g) <|
    opt_build (g := g) (kerberosTimeC_der g) <|
    opt_build (g := g) (kerberosTimeC_der g) <|
    opt_build (g := g) stringC_der <|
    opt_build (g := g) (principalNameC_der g) <|
    opt_last (g := g) (seqOfC_der (hostAddressC_der g)))

theorem encKrbCredPartC_der (g : Cfg) (v : EncKrbCredPart) : (encKrbCredPartC g).enc v = (EncKrbCredPart.der (lib g) v).bytes :=
  appC_der (by decide) <| (show (EncKrbCredPart.fields g).build v = Der.listBytes (req 0 (dSeqOf (KrbCredInfo.der (lib g))) v.ticket_info ++ (opt 1 (dUInt32 (lib g)) v.nonce ++ (opt 2 (dTime (lib g)) v.timestamp ++ (opt 3 dInt32 v.usec ++ (opt 4 HostAddress.der v.s_address ++ (opt 5 HostAddress.der v.r_address)))))) from
    req_build (g := g) ((seqOfC_der (krbCredInfoC_der g)) _) <|
    opt_build (g := g) (uint32C_der g) <|
    opt_build (g := g) (kerberosTimeC_der g) <|
    opt_build (g := g) (int32C_der g) <|
    opt_build (g := g) (hostAddressC_der g) <|
    opt_last (g := g) (hostAddressC_der g))

theorem encKrbPrivPartC_der (g : Cfg) (v : EncKrbPrivPart) : (encKrbPrivPartC g).enc v = (EncKrbPrivPart.der (lib g) v).bytes :=
  appC_der (by decide) <| (show (EncKrbPrivPart.fields g).build v = Der.listBytes (req 0 dOctets v.user_data ++ (opt 1 (dTime (lib g)) v.timestamp ++ (opt 2 dInt32 v.usec ++ (opt 3 (dUInt32 (lib g)) v.seq_number ++ (req 4 HostAddress.der v.s_address ++ (opt 5 HostAddress.der v.r_address)))))) from
    req_build (g := g) (octetsC_der _) <|
    opt_build (g := g) (kerberosTimeC_der g) <|
    opt_build (g := g) (int32C_der g) <|
    opt_build (g := g) (uint32C_der g) <|
    req_build (g := g) ((hostAddressC_der g) _) <|
    opt_last (g := g) (hostAddressC_der g))

theorem encTgsRepPartC_der (g : Cfg) (v : EncTgsRepPart) : (encTgsRepPartC g).enc v = (EncTgsRepPart.der (lib g) v).bytes :=
  appC_der (by decide) <| (show (EncTgsRepPart.fields g).build v = Der.listBytes (req 0 EncryptionKey.der v.key ++ (req 1 (dSeqOf (LastReqEntry.der (lib g))) v.last_req ++ (req 2 (dUInt32 (lib g)) v.nonce ++ (opt 3 (dTime (lib g)) v.key_expiration ++ (req 4 dFlags v.flags ++ (req 5 (dTime (lib g)) v.authtime ++ (opt 6 (dTime (lib g)) v.starttime ++ (req 7 (dTime (lib g)) v.endtime ++ (opt 8 (dTime (lib g)) v.renew_till ++ (req 9 dString v.srealm ++ (req 10 PrincipalName.der v.sname ++ (opt 11 (dSeqOf HostAddress.der) v.caddr ++ (opt 12 (dSeqOf PaData.der) v.encrypted_pa_data))))))))))))) from
    req_build (g := g) ((encryptionKeyC_der g) _) <|
    req_build (g := g) ((seqOfC_der (lastReqEntryC_der g)) _) <|
    req_build (g := g) ((uint32C_der g) _) <|
    opt_build (g := g) (kerberosTimeC_der g) <|
    req_build (g := g) (flagsC_der _) <|
    req_build (g := g) ((kerberosTimeC_der g) _) <|
    opt_build (g := g) (kerberosTimeC_der g) <|
    req_build (g := g) ((kerberosTimeC_der g) _) <|
    opt_build (g := g) (kerberosTimeC_der g) <|
    req_build (g := g) (stringC_der _) <|
    req_build (g := g) ((principalNameC_der g) _) <|
    opt_build (g := g) (seqOfC_der (hostAddressC_der g)) <|
    opt_last (g := g) (seqOfC_der (paDataC_der g)))

theorem transitedEncodingC_der (g : Cfg) (v : TransitedEncoding) : (transitedEncodingC g).enc v = (TransitedEncoding.der v).bytes :=
  seqC_der <| (show (TransitedEncoding.fields g).build v = Der.listBytes (req 0 dInt32 v.tr_type ++ (req 1 dOctets v.contents)) from
    req_build (g := g) ((int32C_der g) _) <|
    req_last (g := g) (octetsC_der _))

theorem encTicketPartC_der (g : Cfg) (v : EncTicketPart) : (encTicketPartC g).enc v = (EncTicketPart.der (lib g) v).bytes :=
  appC_der (by decide) <| (show (EncTicketPart.fields g).build v = Der.listBytes (req 0 dFlags v.flags ++ (req 1 EncryptionKey.der v.key ++ (req 2 dString v.crealm ++ (req 3 PrincipalName.der v.cname ++ (req 4 TransitedEncoding.der v.transited ++ (req 5 (dTime (lib g)) v.authtime ++ (opt 6 (dTime (lib g)) v.starttime ++ (req 7 (dTime (lib g)) v.endtime ++ (opt 8 (dTime (lib g)) v.renew_till ++ (opt 9 (dSeqOf HostAddress.der) v.caddr ++ (opt 10 (dSeqOf AuthorizationDataEntry.der) v.authorization_data))))))))))) from
    req_build (g := g) (flagsC_der _) <|
    req_build (g := g) ((encryptionKeyC_der g) _) <|
    req_build (g := g) (stringC_der _) <|
    req_build (g := g) ((principalNameC_der g) _) <|
    req_build (g := g) ((transitedEncodingC_der g) _) <|
    req_build (g := g) ((kerberosTimeC_der g) _) <|
    opt_build (g := g) (kerberosTimeC_der g) <|
    req_build (g := g) ((kerberosTimeC_der g) _) <|
    opt_build (g := g) (kerberosTimeC_der g) <|
    opt_build (g := g) (seqOfC_der (hostAddressC_der g)) <|
    opt_last (g := g) (seqOfC_der (authorizationDataEntryC_der g)))

theorem kdcReqC_der (g : Cfg) (v : KdcReq) : (kdcReqC g).enc v = (KdcReq.der (lib g) v).bytes :=
  seqC_der <| (show (KdcReq.fields g).build v = Der.listBytes (req 1 dInt32 v.pvno ++ (req 2 dInt32 v.msg_type ++ (opt 3 (dSeqOf PaData.der) v.padata ++ (req 4 (KdcReqBody.der (lib g)) v.req_body)))) from
    req_build (g := g) ((int32C_der g) _) <|
    req_build (g := g) ((int32C_der g) _) <|
    opt_build (g := g) (seqOfC_der (paDataC_der g)) <|
    req_last (g := g) ((kdcReqBodyC_der g) _))

theorem kerbAdRestrictionEntryC_der (g : Cfg) (v : KerbAdRestrictionEntry) : (kerbAdRestrictionEntryC g).enc v = (KerbAdRestrictionEntry.der v).bytes :=
  seqC_der <| (show (KerbAdRestrictionEntry.fields g).build v = Der.listBytes (req 0 dInt32 v.restriction_type ++ (req 1 dOctets v.restriction)) from
    req_build (g := g) ((int32C_der g) _) <|
    req_last (g := g) (octetsC_der _))

theorem kerbErrorDataC_der (g : Cfg) (v : KerbErrorData) : (kerbErrorDataC g).enc v = (KerbErrorData.der v).bytes :=
  seqC_der <| (show (KerbErrorData.fields g).build v = Der.listBytes (req 1 dInt32 v.data_type ++ (opt 2 dOctets v.data_value)) from
    req_build (g := g) ((int32C_der g) _) <|
    opt_last (g := g) octetsC_der)

theorem krbCredC_der (g : Cfg) (v : KrbCred) : (krbCredC g).enc v = (KrbCred.der (lib g) v).bytes :=
  appC_der (by decide) <| (show (KrbCred.fields g).build v = Der.listBytes (req 0 dInt32 v.pvno ++ (req 1 dInt32 v.msg_type ++ (req 2 (dSeqOf (Ticket.der (lib g))) v.tickets ++ (req 3 (EncryptedData.der (lib g)) v.enc_part)))) from
    req_build (g := g) ((int32C_der g) _) <|
    req_build (g := g) ((int32C_der g) _) <|
    req_build (g := g) ((seqOfC_der (ticketC_der g)) _) <|
    req_last (g := g) ((encryptedDataC_der g) _))

theorem krbErrorC_der (g : Cfg) (v : KrbError) : (krbErrorC g).enc v = (KrbError.der (lib g) v).bytes :=
  appC_der (by decide) <| (show (KrbError.fields g).build v = Der.listBytes (req 0 dInt32 v.pvno ++ (req 1 dInt32 v.msg_type ++ (opt 2 (dTime (lib g)) v.ctime ++ (opt 3 dInt32 v.cusec ++ (req 4 (dTime (lib g)) v.stime ++ (req 5 dInt32 v.susec ++ (req 6 dInt32 v.error_code ++ (opt 7 dString v.crealm ++ (opt 8 PrincipalName.der v.cname ++ (req 9 dString v.realm ++ (req 10 PrincipalName.der v.sname ++ (opt 11 dString v.e_text ++ (opt 12 dOctets v.e_data))))))))))))) from
    req_build (g := g) ((int32C_der g) _) <|
    req_build (g := g) ((int32C_der g) _) <|
    opt_build (g := g) (kerberosTimeC_der g) <|
    opt_build (g := g) (int32C_der g) <|
    req_build (g := g) ((kerberosTimeC_der g) _) <|
    req_build (g := g) ((int32C_der g) _) <|
    req_build (g := g) ((int32C_der g) _) <|
    opt_build (g := g) stringC_der <|
    opt_build (g := g) (principalNameC_der g) <|
    req_build (g := g) (stringC_der _) <|
    req_build (g := g) ((principalNameC_der g) _) <|
    opt_build (g := g) stringC_der <|
    opt_last (g := g) octetsC_der)

theorem krbPrivC_der (g : Cfg) (v : KrbPriv) : (krbPrivC g).enc v = (KrbPriv.der (lib g) v).bytes :=
  appC_der (by decide) <| (show (KrbPriv.fields g).build v = Der.listBytes (req 0 dInt32 v.pvno ++ (req 1 dInt32 v.msg_type ++ (req 3 (EncryptedData.der (lib g)) v.enc_part))) from
    req_build (g := g) ((int32C_der g) _) <|
    req_build (g := g) ((int32C_der g) _) <|
    req_last (g := g) ((encryptedDataC_der g) _))

theorem krbSafeBodyC_der (g : Cfg) (v : KrbSafeBody) : (krbSafeBodyC g).enc v = (KrbSafeBody.der (lib g) v).bytes :=
  seqC_der <| (show (KrbSafeBody.fields g).build v = Der.listBytes (req 0 dOctets v.user_data ++ (opt 1 (dTime (lib g)) v.timestamp ++ (opt 2 dInt32 v.usec ++ (opt 3 (dUInt32 (lib g)) v.seq_number ++ (req 4 HostAddress.der v.s_address ++ (opt 5 HostAddress.der v.r_address)))))) from
    req_build (g := g) (octetsC_der _) <|
    opt_build (g := g) (kerberosTimeC_der g) <|
    opt_build (g := g) (int32C_der g) <|
    opt_build (g := g) (uint32C_der g) <|
    req_build (g := g) ((hostAddressC_der g) _) <|
    opt_last (g := g) (hostAddressC_der g))

theorem krbSafeC_der (g : Cfg) (v : KrbSafe) : (krbSafeC g).enc v = (KrbSafe.der (lib g) v).bytes :=
  appC_der (by decide) <| (show (KrbSafe.fields g).build v = Der.listBytes (req 0 dInt32 v.pvno ++ (req 1 dInt32 v.msg_type ++ (req 2 (KrbSafeBody.der (lib g)) v.safe_body ++ (req 3 Checksum.der v.cksum)))) from
    req_build (g := g) ((int32C_der g) _) <|
    req_build (g := g) ((int32C_der g) _) <|
    req_build (g := g) ((krbSafeBodyC_der g) _) <|
    req_last (g := g) ((checksumC_der g) _))

theorem adAndOrC_der (g : Cfg) (v : AdAndOr) : (adAndOrC g).enc v = (AdAndOr.der v).bytes :=
  seqC_der <| (show (AdAndOr.fields g).build v = Der.listBytes (req 0 dInt32 v.condition_count ++ (req 1 (dSeqOf AuthorizationDataEntry.der) v.elements)) from
    req_build (g := g) ((int32C_der g) _) <|
    req_last (g := g) ((seqOfC_der (authorizationDataEntryC_der g)) _))

theorem adKdcIssuedC_der (g : Cfg) (v : AdKdcIssued) : (adKdcIssuedC g).enc v = (AdKdcIssued.der v).bytes :=
  seqC_der <| (show (AdKdcIssued.fields g).build v = Der.listBytes (req 0 Checksum.der v.ad_checksum ++ (opt 1 dString v.i_realm ++ (opt 2 PrincipalName.der v.i_sname ++ (req 3 (dSeqOf AuthorizationDataEntry.der) v.elements)))) from
    req_build (g := g) ((checksumC_der g) _) <|
    opt_build (g := g) stringC_der <|
    opt_build (g := g) (principalNameC_der g) <|
    req_last (g := g) ((seqOfC_der (authorizationDataEntryC_der g)) _))

theorem etypeInfo2EntryC_der (g : Cfg) (v : EtypeInfo2Entry) : (etypeInfo2EntryC g).enc v = (EtypeInfo2Entry.der v).bytes :=
  seqC_der <| (show (EtypeInfo2Entry.fields g).build v = Der.listBytes (req 0 dInt32 v.etype ++ (opt 1 dString v.salt ++ (opt 2 dOctets v.s2kparams))) from
    req_build (g := g) ((int32C_der g) _) <|
    opt_build (g := g) stringC_der <|
    opt_last (g := g) octetsC_der)

theorem etypeInfoEntryC_der (g : Cfg) (v : EtypeInfoEntry) : (etypeInfoEntryC g).enc v = (EtypeInfoEntry.der v).bytes :=
  seqC_der <| (show (EtypeInfoEntry.fields g).build v = Der.listBytes (req 0 dInt32 v.etype ++ (opt 1 dOctets v.salt)) from
    req_build (g := g) ((int32C_der g) _) <|
    opt_last (g := g) octetsC_der)

theorem kerbPaPacRequestC_der (g : Cfg) (v : KerbPaPacRequest) : (kerbPaPacRequestC g).enc v = (KerbPaPacRequest.der v).bytes :=
  seqC_der <| (show (KerbPaPacRequest.fields g).build v = Der.listBytes (req 0 dBool v.include_pac) from
    req_last (g := g) ((boolC_der g) _))

theorem paEncTsEncC_der (g : Cfg) (v : PaEncTsEnc) : (paEncTsEncC g).enc v = (PaEncTsEnc.der (lib g) v).bytes :=
  seqC_der <| (show (PaEncTsEnc.fields g).build v = Der.listBytes (req 0 (dTime (lib g)) v.patimestamp ++ (opt 1 dInt32 v.pausec)) from
    req_build (g := g) ((kerberosTimeC_der g) _) <|
    opt_last (g := g) (int32C_der g))

theorem paForUserC_der (g : Cfg) (v : PaForUser) : (paForUserC g).enc v = (PaForUser.der v).bytes :=
  seqC_der <| (show (PaForUser.fields g).build v = Der.listBytes (req 0 PrincipalName.der v.username ++ (req 1 dString v.userrealm ++ (req 2 Checksum.der v.cksum ++ (req 3 dString v.auth_package)))) from
    req_build (g := g) ((principalNameC_der g) _) <|
    req_build (g := g) (stringC_der _) <|
    req_build (g := g) ((checksumC_der g) _) <|
    req_last (g := g) (stringC_der _))

theorem paPacOptionsC_der (g : Cfg) (v : PaPacOptions) : (paPacOptionsC g).enc v = (PaPacOptions.der v).bytes :=
  seqC_der <| (show (PaPacOptions.fields g).build v = Der.listBytes (req 0 dFlags v.kerberos_flags) from
    req_last (g := g) (flagsC_der _))

theorem s4uUserIdC_der (g : Cfg) (v : S4uUserId) : (s4uUserIdC g).enc v = (S4uUserId.der (lib g) v).bytes :=
  seqC_der <| (show (S4uUserId.fields g).build v = Der.listBytes (req 0 (dUInt32 (lib g)) v.nonce ++ (opt 1 PrincipalName.der v.cname ++ (req 2 dString v.crealm ++ (opt 3 dOctets v.subject_certificate ++ (opt 4 dBits v.options))))) from
    req_build (g := g) ((uint32C_der g) _) <|
    opt_build (g := g) (principalNameC_der g) <|
    req_build (g := g) (stringC_der _) <|
    opt_build (g := g) octetsC_der <|
    opt_last (g := g) bitStringC_der)

theorem paS4uX509UserC_der (g : Cfg) (v : PaS4uX509User) : (paS4uX509UserC g).enc v = (PaS4uX509User.der (lib g) v).bytes :=
  seqC_der <| (show (PaS4uX509User.fields g).build v = Der.listBytes (req 0 (S4uUserId.der (lib g)) v.user_id ++ (req 1 Checksum.der v.checksum)) from
    req_build (g := g) ((s4uUserIdC_der g) _) <|
    req_last (g := g) ((checksumC_der g) _))

theorem tgsRepC_der (g : Cfg) (v : TgsRep) : (tgsRepC g).enc v = (TgsRep.der (lib g) v).bytes :=
  appC_der (by decide) <| (show (TgsRep.fields g).build v = Der.listBytes (req 0 dInt32 v.pvno ++ (req 1 dInt32 v.msg_type ++ (opt 2 (dSeqOf PaData.der) v.padata ++ (req 3 dString v.crealm ++ (req 4 PrincipalName.der v.cname ++ (req 5 (Ticket.der (lib g)) v.ticket ++ (req 6 (EncryptedData.der (lib g)) v.enc_part))))))) from
    req_build (g := g) ((int32C_der g) _) <|
    req_build (g := g) ((int32C_der g) _) <|
    opt_build (g := g) (seqOfC_der (paDataC_der g)) <|
    req_build (g := g) (stringC_der _) <|
    req_build (g := g) ((principalNameC_der g) _) <|
    req_build (g := g) ((ticketC_der g) _) <|
    req_last (g := g) ((encryptedDataC_der g) _))

theorem tgsReqC_der (g : Cfg) (v : TgsReq) : (tgsReqC g).enc v = (TgsReq.der (lib g) v).bytes :=
  appC_der (by decide) <| (show (TgsReq.fields g).build v = Der.listBytes (req 1 dInt32 v.pvno ++ (req 2 dInt32 v.msg_type ++ (opt 3 (dSeqOf PaData.der) v.padata ++ (req 4 (KdcReqBody.der (lib g)) v.req_body)))) from
    req_build (g := g) ((int32C_der g) _) <|
    req_build (g := g) ((int32C_der g) _) <|
    opt_build (g := g) (seqOfC_der (paDataC_der g)) <|
    req_last (g := g) ((kdcReqBodyC_der g) _))

theorem typedDataEntryC_der (g : Cfg) (v : TypedDataEntry) : (typedDataEntryC g).enc v = (TypedDataEntry.der v).bytes :=
  seqC_der <| (show (TypedDataEntry.fields g).build v = Der.listBytes (req 0 dInt32 v.data_type ++ (opt 1 dOctets v.data_value)) from
    req_build (g := g) ((int32C_der g) _) <|
    opt_last (g := g) octetsC_der)

theorem MsgType.build_der (g : Cfg) : (T : MsgType) → (v : T.Value) → T.build g v = (T.der (lib g) v).bytes
  | .encryptedData, v => (encryptedDataC_der g) v
  | .apRep, v => (apRepC_der g) v
  | .principalName, v => (principalNameC_der g) v
  | .ticket, v => (ticketC_der g) v
  | .apReq, v => (apReqC_der g) v
  | .paData, v => (paDataC_der g) v
  | .asRep, v => (asRepC_der g) v
  | .hostAddress, v => (hostAddressC_der g) v
  | .kdcReqBody, v => (kdcReqBodyC_der g) v
  | .asReq, v => (asReqC_der g) v
  | .checksum, v => (checksumC_der g) v
  | .encryptionKey, v => (encryptionKeyC_der g) v
  | .authorizationDataEntry, v => (authorizationDataEntryC_der g) v
  | .authenticator, v => (authenticatorC_der g) v
  | .encApRepPart, v => (encApRepPartC_der g) v
  | .lastReqEntry, v => (lastReqEntryC_der g) v
  | .encAsRepPart, v => (encAsRepPartC_der g) v
  | .encKdcRepPart, v => (encKdcRepPartC_der g) v
  | .krbCredInfo, v => (krbCredInfoC_der g) v
  | .encKrbCredPart, v => (encKrbCredPartC_der g) v
  | .encKrbPrivPart, v => (encKrbPrivPartC_der g) v
  | .encTgsRepPart, v => (encTgsRepPartC_der g) v
  | .transitedEncoding, v => (transitedEncodingC_der g) v
  | .encTicketPart, v => (encTicketPartC_der g) v
  | .kdcReq, v => (kdcReqC_der g) v
  | .kerbAdRestrictionEntry, v => (kerbAdRestrictionEntryC_der g) v
  | .kerbErrorData, v => (kerbErrorDataC_der g) v
  | .krbCred, v => (krbCredC_der g) v
  | .krbError, v => (krbErrorC_der g) v
  | .krbPriv, v => (krbPrivC_der g) v
  | .krbSafeBody, v => (krbSafeBodyC_der g) v
  | .krbSafe, v => (krbSafeC_der g) v
  | .adAndOr, v => (adAndOrC_der g) v
  | .adKdcIssued, v => (adKdcIssuedC_der g) v
  | .etypeInfo2Entry, v => (etypeInfo2EntryC_der g) v
  | .etypeInfoEntry, v => (etypeInfoEntryC_der g) v
  | .kerbPaPacRequest, v => (kerbPaPacRequestC_der g) v
  | .paEncTsEnc, v => (paEncTsEncC_der g) v
  | .paForUser, v => (paForUserC_der g) v
  | .paPacOptions, v => (paPacOptionsC_der g) v
  | .s4uUserId, v => (s4uUserIdC_der g) v
  | .paS4uX509User, v => (paS4uX509UserC_der g) v
  | .tgsRep, v => (tgsRepC_der g) v
  | .tgsReq, v => (tgsReqC_der g) v
  | .typedDataEntry, v => (typedDataEntryC_der g) v
  | .hostAddresses, v => (seqOfC_der (hostAddressC_der g)) v
  | .authorizationData, v => (seqOfC_der (authorizationDataEntryC_der g)) v
  | .lastReq, v => (seqOfC_der (lastReqEntryC_der g)) v
  | .typedData, v => (seqOfC_der (typedDataEntryC_der g)) v
  | .etypeInfo, v => (seqOfC_der (etypeInfoEntryC_der g)) v
  | .etypeInfo2, v => (seqOfC_der (etypeInfo2EntryC_der g)) v
  | .methodData, v => (seqOfC_der (paDataC_der g)) v
  | .kerbKeyListRep, v => (seqOfC_der (encryptionKeyC_der g)) v
  | .kerbKeyListReq, v => (seqOfC_der (int32C_der g)) v
  | .kerbLocal, v => octetsC_der v
  | .realm, v => stringC_der v
  | .int32, v => (int32C_der g) v
  | .kerberosFlags, v => flagsC_der v
  | .kerberosTime, v => (kerberosTimeC_der g) v
  | .uInt32, v => (uint32C_der g) v

theorem req_congr {α} {n : Nat} {f f' : α → Der} {p : α → Prop} {a : α} (h : ∀ {a}, p a → f a = f' a) (ha : p a) :
    req n f a = req n f' a := by simp only [req, h ha]
theorem opt_congr {α} {n : Nat} {f f' : α → Der} {p : α → Prop} {a : Option α} (h : ∀ {a}, p a → f a = f' a)
    (ha : OptOf p a) : opt n f a = opt n f' a := by
  cases a with
  | none => rfl
  | some a => exact req_congr h (ha a rfl)
theorem dSeqOf_congr {α} {f f' : α → Der} {p : α → Prop} (h : ∀ {a}, p a → f a = f' a) {l : List α}
    (ha : AllOf p l) : dSeqOf f l = dSeqOf f' l := by
  simp only [dSeqOf, List.map_congr_left (fun a hm => h (ha a hm))]
theorem dUInt32_congr {g : Cfg} {x : UInt32} (h : U32Ok x) : dUInt32 (lib g) x = dUInt32 rfc x := by
  simp only [dUInt32, lib, rfc]
  have e : x.toInt32.toInt = (x.toNat : Int) := by
    have := i32_toUInt32_toNat x.toInt32
    have h1 := x.toInt32.toInt_lt
    have h2 := x.toInt32.le_toInt
    simp only [UInt32.toUInt32_toInt32] at this
    unfold U32Ok at h
    omega
  rw [e]
theorem dTime_congr {g : Cfg} {t : DateTime} (h : YearOk t) : dTime (lib g) t = dTime rfc t := by
  simp only [dTime, lib, rfc, yearBytes_eq g h]

theorem EncryptedData.der_congr {g : Cfg} {v : EncryptedData} (h : EncryptedData.Plain v) : EncryptedData.der (lib g) v = EncryptedData.der rfc v := by
  have h0 := h
  have e0 : opt 1 (dUInt32 (lib g)) v.kvno = opt 1 (dUInt32 rfc) v.kvno := opt_congr dUInt32_congr h0
  simp only [EncryptedData.der, e0]

theorem ApRep.der_congr {g : Cfg} {v : ApRep} (h : ApRep.Plain v) : ApRep.der (lib g) v = ApRep.der rfc v := by
  have h0 := h
  have e0 : req 2 (EncryptedData.der (lib g)) v.enc_part = req 2 (EncryptedData.der rfc) v.enc_part := req_congr (EncryptedData.der_congr (g := g)) h0
  simp only [ApRep.der, e0]

theorem Ticket.der_congr {g : Cfg} {v : Ticket} (h : Ticket.Plain v) : Ticket.der (lib g) v = Ticket.der rfc v := by
  have h0 := h
  have e0 : req 3 (EncryptedData.der (lib g)) v.enc_part = req 3 (EncryptedData.der rfc) v.enc_part := req_congr (EncryptedData.der_congr (g := g)) h0
  simp only [Ticket.der, e0]

theorem ApReq.der_congr {g : Cfg} {v : ApReq} (h : ApReq.Plain v) : ApReq.der (lib g) v = ApReq.der rfc v := by
  obtain ⟨h0, h1⟩ := h
  have e0 : req 3 (Ticket.der (lib g)) v.ticket = req 3 (Ticket.der rfc) v.ticket := req_congr (Ticket.der_congr (g := g)) h0
  have e1 : req 4 (EncryptedData.der (lib g)) v.authenticator = req 4 (EncryptedData.der rfc) v.authenticator := req_congr (EncryptedData.der_congr (g := g)) h1
  simp only [ApReq.der, e0, e1]

theorem AsRep.der_congr {g : Cfg} {v : AsRep} (h : AsRep.Plain v) : AsRep.der (lib g) v = AsRep.der rfc v := by
  obtain ⟨h0, h1⟩ := h
  have e0 : req 5 (Ticket.der (lib g)) v.ticket = req 5 (Ticket.der rfc) v.ticket := req_congr (Ticket.der_congr (g := g)) h0
  have e1 : req 6 (EncryptedData.der (lib g)) v.enc_part = req 6 (EncryptedData.der rfc) v.enc_part := req_congr (EncryptedData.der_congr (g := g)) h1
  simp only [AsRep.der, e0, e1]

theorem KdcReqBody.der_congr {g : Cfg} {v : KdcReqBody} (h : KdcReqBody.Plain v) : KdcReqBody.der (lib g) v = KdcReqBody.der rfc v := by
  obtain ⟨h0, h1, h2, h3, h4, h5⟩ := h
  have e0 : opt 4 (dTime (lib g)) v.«from» = opt 4 (dTime rfc) v.«from» := opt_congr dTime_congr h0
  have e1 : req 5 (dTime (lib g)) v.till = req 5 (dTime rfc) v.till := req_congr dTime_congr h1
  have e2 : opt 6 (dTime (lib g)) v.rtime = opt 6 (dTime rfc) v.rtime := opt_congr dTime_congr h2
  have e3 : req 7 (dUInt32 (lib g)) v.nonce = req 7 (dUInt32 rfc) v.nonce := req_congr dUInt32_congr h3
  have e4 : opt 10 (EncryptedData.der (lib g)) v.enc_authorization_data = opt 10 (EncryptedData.der rfc) v.enc_authorization_data := opt_congr (EncryptedData.der_congr (g := g)) h4
  have e5 : opt 11 (dSeqOf (Ticket.der (lib g))) v.additional_tickets = opt 11 (dSeqOf (Ticket.der rfc)) v.additional_tickets := opt_congr (dSeqOf_congr (Ticket.der_congr (g := g))) h5
  simp only [KdcReqBody.der, e0, e1, e2, e3, e4, e5]

theorem AsReq.der_congr {g : Cfg} {v : AsReq} (h : AsReq.Plain v) : AsReq.der (lib g) v = AsReq.der rfc v := by
  have h0 := h
  have e0 : req 4 (KdcReqBody.der (lib g)) v.req_body = req 4 (KdcReqBody.der rfc) v.req_body := req_congr (KdcReqBody.der_congr (g := g)) h0
  simp only [AsReq.der, e0]

theorem Authenticator.der_congr {g : Cfg} {v : Authenticator} (h : Authenticator.Plain v) : Authenticator.der (lib g) v = Authenticator.der rfc v := by
  obtain ⟨h0, h1⟩ := h
  have e0 : req 5 (dTime (lib g)) v.ctime = req 5 (dTime rfc) v.ctime := req_congr dTime_congr h0
  have e1 : opt 7 (dUInt32 (lib g)) v.seq_number = opt 7 (dUInt32 rfc) v.seq_number := opt_congr dUInt32_congr h1
  simp only [Authenticator.der, e0, e1]

theorem EncApRepPart.der_congr {g : Cfg} {v : EncApRepPart} (h : EncApRepPart.Plain v) : EncApRepPart.der (lib g) v = EncApRepPart.der rfc v := by
  obtain ⟨h0, h1⟩ := h
  have e0 : req 0 (dTime (lib g)) v.ctime = req 0 (dTime rfc) v.ctime := req_congr dTime_congr h0
  have e1 : req 3 (dUInt32 (lib g)) v.seq_number = req 3 (dUInt32 rfc) v.seq_number := req_congr dUInt32_congr h1
  simp only [EncApRepPart.der, e0, e1]

theorem LastReqEntry.der_congr {g : Cfg} {v : LastReqEntry} (h : LastReqEntry.Plain v) : LastReqEntry.der (lib g) v = LastReqEntry.der rfc v := by
  have h0 := h
  have e0 : req 1 (dTime (lib g)) v.lr_value = req 1 (dTime rfc) v.lr_value := req_congr dTime_congr h0
  simp only [LastReqEntry.der, e0]

theorem EncAsRepPart.der_congr {g : Cfg} {v : EncAsRepPart} (h : EncAsRepPart.Plain v) : EncAsRepPart.der (lib g) v = EncAsRepPart.der rfc v := by
  obtain ⟨h0, h1, h2, h3, h4, h5, h6⟩ := h
  have e0 : req 1 (dSeqOf (LastReqEntry.der (lib g))) v.last_req = req 1 (dSeqOf (LastReqEntry.der rfc)) v.last_req := req_congr (dSeqOf_congr (LastReqEntry.der_congr (g := g))) h0
  have e1 : req 2 (dUInt32 (lib g)) v.nonce = req 2 (dUInt32 rfc) v.nonce := req_congr dUInt32_congr h1
  have e2 : opt 3 (dTime (lib g)) v.key_expiration = opt 3 (dTime rfc) v.key_expiration := opt_congr dTime_congr h2
  have e3 : req 5 (dTime (lib g)) v.authtime = req 5 (dTime rfc) v.authtime := req_congr dTime_congr h3
  have e4 : opt 6 (dTime (lib g)) v.starttime = opt 6 (dTime rfc) v.starttime := opt_congr dTime_congr h4
  have e5 : req 7 (dTime (lib g)) v.endtime = req 7 (dTime rfc) v.endtime := req_congr dTime_congr h5
  have e6 : opt 8 (dTime (lib g)) v.renew_till = opt 8 (dTime rfc) v.renew_till := opt_congr dTime_congr h6
  simp only [EncAsRepPart.der, e0, e1, e2, e3, e4, e5, e6]

theorem EncKdcRepPart.der_congr {g : Cfg} {v : EncKdcRepPart} (h : EncKdcRepPart.Plain v) : EncKdcRepPart.der (lib g) v = EncKdcRepPart.der rfc v := by
  obtain ⟨h0, h1, h2, h3, h4, h5, h6⟩ := h
  have e0 : req 1 (dSeqOf (LastReqEntry.der (lib g))) v.last_req = req 1 (dSeqOf (LastReqEntry.der rfc)) v.last_req := req_congr (dSeqOf_congr (LastReqEntry.der_congr (g := g))) h0
  have e1 : req 2 (dUInt32 (lib g)) v.nonce = req 2 (dUInt32 rfc) v.nonce := req_congr dUInt32_congr h1
  have e2 : opt 3 (dTime (lib g)) v.key_expiration = opt 3 (dTime rfc) v.key_expiration := opt_congr dTime_congr h2
  have e3 : req 5 (dTime (lib g)) v.authtime = req 5 (dTime rfc) v.authtime := req_congr dTime_congr h3
  have e4 : opt 6 (dTime (lib g)) v.starttime = opt 6 (dTime rfc) v.starttime := opt_congr dTime_congr h4
  have e5 : req 7 (dTime (lib g)) v.endtime = req 7 (dTime rfc) v.endtime := req_congr dTime_congr h5
  have e6 : opt 8 (dTime (lib g)) v.renew_till = opt 8 (dTime rfc) v.renew_till := opt_congr dTime_congr h6
  simp only [EncKdcRepPart.der, e0, e1, e2, e3, e4, e5, e6]

theorem KrbCredInfo.der_congr {g : Cfg} {v : KrbCredInfo} (h : KrbCredInfo.Plain v) : KrbCredInfo.der (lib g) v = KrbCredInfo.der rfc v := by
  obtain ⟨h0, h1, h2, h3⟩ := h
  have e0 : opt 4 (dTime (lib g)) v.authtime = opt 4 (dTime rfc) v.authtime := opt_congr dTime_congr h0
  have e1 : opt 5 (dTime (lib g)) v.starttime = opt 5 (dTime rfc) v.starttime := opt_congr dTime_congr h1
  have e2 : opt 6 (dTime (lib g)) v.endtime = opt 6 (dTime rfc) v.endtime := opt_congr dTime_congr h2
  have e3 : opt 7 (dTime (lib g)) v.renew_till = opt 7 (dTime rfc) v.renew_till := opt_congr dTime_congr h3
  simp only [KrbCredInfo.der, e0, e1, e2, e3]

theorem EncKrbCredPart.der_congr {g : Cfg} {v : EncKrbCredPart} (h : EncKrbCredPart.Plain v) : EncKrbCredPart.der (lib g) v = EncKrbCredPart.der rfc v := by
  obtain ⟨h0, h1, h2⟩ := h
  have e0 : req 0 (dSeqOf (KrbCredInfo.der (lib g))) v.ticket_info = req 0 (dSeqOf (KrbCredInfo.der rfc)) v.ticket_info := req_congr (dSeqOf_congr (KrbCredInfo.der_congr (g := g))) h0
  have e1 : opt 1 (dUInt32 (lib g)) v.nonce = opt 1 (dUInt32 rfc) v.nonce := opt_congr dUInt32_congr h1
  have e2 : opt 2 (dTime (lib g)) v.timestamp = opt 2 (dTime rfc) v.timestamp := opt_congr dTime_congr h2
  simp only [EncKrbCredPart.der, e0, e1, e2]

theorem EncKrbPrivPart.der_congr {g : Cfg} {v : EncKrbPrivPart} (h : EncKrbPrivPart.Plain v) : EncKrbPrivPart.der (lib g) v = EncKrbPrivPart.der rfc v := by
  obtain ⟨h0, h1⟩ := h
  have e0 : opt 1 (dTime (lib g)) v.timestamp = opt 1 (dTime rfc) v.timestamp := opt_congr dTime_congr h0
  have e1 : opt 3 (dUInt32 (lib g)) v.seq_number = opt 3 (dUInt32 rfc) v.seq_number := opt_congr dUInt32_congr h1
  simp only [EncKrbPrivPart.der, e0, e1]

theorem EncTgsRepPart.der_congr {g : Cfg} {v : EncTgsRepPart} (h : EncTgsRepPart.Plain v) : EncTgsRepPart.der (lib g) v = EncTgsRepPart.der rfc v := by
  obtain ⟨h0, h1, h2, h3, h4, h5, h6⟩ := h
  have e0 : req 1 (dSeqOf (LastReqEntry.der (lib g))) v.last_req = req 1 (dSeqOf (LastReqEntry.der rfc)) v.last_req := req_congr (dSeqOf_congr (LastReqEntry.der_congr (g := g))) h0
  have e1 : req 2 (dUInt32 (lib g)) v.nonce = req 2 (dUInt32 rfc) v.nonce := req_congr dUInt32_congr h1
  have e2 : opt 3 (dTime (lib g)) v.key_expiration = opt 3 (dTime rfc) v.key_expiration := opt_congr dTime_congr h2
  have e3 : req 5 (dTime (lib g)) v.authtime = req 5 (dTime rfc) v.authtime := req_congr dTime_congr h3
  have e4 : opt 6 (dTime (lib g)) v.starttime = opt 6 (dTime rfc) v.starttime := opt_congr dTime_congr h4
  have e5 : req 7 (dTime (lib g)) v.endtime = req 7 (dTime rfc) v.endtime := req_congr dTime_congr h5
  have e6 : opt 8 (dTime (lib g)) v.renew_till = opt 8 (dTime rfc) v.renew_till := opt_congr dTime_congr h6
  simp only [EncTgsRepPart.der, e0, e1, e2, e3, e4, e5, e6]

theorem EncTicketPart.der_congr {g : Cfg} {v : EncTicketPart} (h : EncTicketPart.Plain v) : EncTicketPart.der (lib g) v = EncTicketPart.der rfc v := by
  obtain ⟨h0, h1, h2, h3⟩ := h
  have e0 : req 5 (dTime (lib g)) v.authtime = req 5 (dTime rfc) v.authtime := req_congr dTime_congr h0
  have e1 : opt 6 (dTime (lib g)) v.starttime = opt 6 (dTime rfc) v.starttime := opt_congr dTime_congr h1
  have e2 : req 7 (dTime (lib g)) v.endtime = req 7 (dTime rfc) v.endtime := req_congr dTime_congr h2
  have e3 : opt 8 (dTime (lib g)) v.renew_till = opt 8 (dTime rfc) v.renew_till := opt_congr dTime_congr h3
  simp only [EncTicketPart.der, e0, e1, e2, e3]

theorem KdcReq.der_congr {g : Cfg} {v : KdcReq} (h : KdcReq.Plain v) : KdcReq.der (lib g) v = KdcReq.der rfc v := by
  have h0 := h
  have e0 : req 4 (KdcReqBody.der (lib g)) v.req_body = req 4 (KdcReqBody.der rfc) v.req_body := req_congr (KdcReqBody.der_congr (g := g)) h0
  simp only [KdcReq.der, e0]

theorem KrbCred.der_congr {g : Cfg} {v : KrbCred} (h : KrbCred.Plain v) : KrbCred.der (lib g) v = KrbCred.der rfc v := by
  obtain ⟨h0, h1⟩ := h
  have e0 : req 2 (dSeqOf (Ticket.der (lib g))) v.tickets = req 2 (dSeqOf (Ticket.der rfc)) v.tickets := req_congr (dSeqOf_congr (Ticket.der_congr (g := g))) h0
  have e1 : req 3 (EncryptedData.der (lib g)) v.enc_part = req 3 (EncryptedData.der rfc) v.enc_part := req_congr (EncryptedData.der_congr (g := g)) h1
  simp only [KrbCred.der, e0, e1]

theorem KrbError.der_congr {g : Cfg} {v : KrbError} (h : KrbError.Plain v) : KrbError.der (lib g) v = KrbError.der rfc v := by
  obtain ⟨h0, h1⟩ := h
  have e0 : opt 2 (dTime (lib g)) v.ctime = opt 2 (dTime rfc) v.ctime := opt_congr dTime_congr h0
  have e1 : req 4 (dTime (lib g)) v.stime = req 4 (dTime rfc) v.stime := req_congr dTime_congr h1
  simp only [KrbError.der, e0, e1]

theorem KrbPriv.der_congr {g : Cfg} {v : KrbPriv} (h : KrbPriv.Plain v) : KrbPriv.der (lib g) v = KrbPriv.der rfc v := by
  have h0 := h
  have e0 : req 3 (EncryptedData.der (lib g)) v.enc_part = req 3 (EncryptedData.der rfc) v.enc_part := req_congr (EncryptedData.der_congr (g := g)) h0
  simp only [KrbPriv.der, e0]

theorem KrbSafeBody.der_congr {g : Cfg} {v : KrbSafeBody} (h : KrbSafeBody.Plain v) : KrbSafeBody.der (lib g) v = KrbSafeBody.der rfc v := by
  obtain ⟨h0, h1⟩ := h
  have e0 : opt 1 (dTime (lib g)) v.timestamp = opt 1 (dTime rfc) v.timestamp := opt_congr dTime_congr h0
  have e1 : opt 3 (dUInt32 (lib g)) v.seq_number = opt 3 (dUInt32 rfc) v.seq_number := opt_congr dUInt32_congr h1
  simp only [KrbSafeBody.der, e0, e1]

theorem KrbSafe.der_congr {g : Cfg} {v : KrbSafe} (h : KrbSafe.Plain v) : KrbSafe.der (lib g) v = KrbSafe.der rfc v := by
  have h0 := h
  have e0 : req 2 (KrbSafeBody.der (lib g)) v.safe_body = req 2 (KrbSafeBody.der rfc) v.safe_body := req_congr (KrbSafeBody.der_congr (g := g)) h0
  simp only [KrbSafe.der, e0]

theorem PaEncTsEnc.der_congr {g : Cfg} {v : PaEncTsEnc} (h : PaEncTsEnc.Plain v) : PaEncTsEnc.der (lib g) v = PaEncTsEnc.der rfc v := by
  have h0 := h
  have e0 : req 0 (dTime (lib g)) v.patimestamp = req 0 (dTime rfc) v.patimestamp := req_congr dTime_congr h0
  simp only [PaEncTsEnc.der, e0]

theorem S4uUserId.der_congr {g : Cfg} {v : S4uUserId} (h : S4uUserId.Plain v) : S4uUserId.der (lib g) v = S4uUserId.der rfc v := by
  have h0 := h
  have e0 : req 0 (dUInt32 (lib g)) v.nonce = req 0 (dUInt32 rfc) v.nonce := req_congr dUInt32_congr h0
  simp only [S4uUserId.der, e0]

theorem PaS4uX509User.der_congr {g : Cfg} {v : PaS4uX509User} (h : PaS4uX509User.Plain v) : PaS4uX509User.der (lib g) v = PaS4uX509User.der rfc v := by
  have h0 := h
  have e0 : req 0 (S4uUserId.der (lib g)) v.user_id = req 0 (S4uUserId.der rfc) v.user_id := req_congr (S4uUserId.der_congr (g := g)) h0
  simp only [PaS4uX509User.der, e0]

theorem TgsRep.der_congr {g : Cfg} {v : TgsRep} (h : TgsRep.Plain v) : TgsRep.der (lib g) v = TgsRep.der rfc v := by
  obtain ⟨h0, h1⟩ := h
  have e0 : req 5 (Ticket.der (lib g)) v.ticket = req 5 (Ticket.der rfc) v.ticket := req_congr (Ticket.der_congr (g := g)) h0
  have e1 : req 6 (EncryptedData.der (lib g)) v.enc_part = req 6 (EncryptedData.der rfc) v.enc_part := req_congr (EncryptedData.der_congr (g := g)) h1
  simp only [TgsRep.der, e0, e1]

theorem TgsReq.der_congr {g : Cfg} {v : TgsReq} (h : TgsReq.Plain v) : TgsReq.der (lib g) v = TgsReq.der rfc v := by
  have h0 := h
  have e0 : req 4 (KdcReqBody.der (lib g)) v.req_body = req 4 (KdcReqBody.der rfc) v.req_body := req_congr (KdcReqBody.der_congr (g := g)) h0
  simp only [TgsReq.der, e0]

theorem MsgType.der_congr {g : Cfg} : (T : MsgType) → {v : T.Value} → T.Plain v → T.der (lib g) v = T.der rfc v
  | .encryptedData, _, h => (EncryptedData.der_congr (g := g)) h
  | .apRep, _, h => (ApRep.der_congr (g := g)) h
  | .principalName, _, h => rfl
  | .ticket, _, h => (Ticket.der_congr (g := g)) h
  | .apReq, _, h => (ApReq.der_congr (g := g)) h
  | .paData, _, h => rfl
  | .asRep, _, h => (AsRep.der_congr (g := g)) h
  | .hostAddress, _, h => rfl
  | .kdcReqBody, _, h => (KdcReqBody.der_congr (g := g)) h
  | .asReq, _, h => (AsReq.der_congr (g := g)) h
  | .checksum, _, h => rfl
  | .encryptionKey, _, h => rfl
  | .authorizationDataEntry, _, h => rfl
  | .authenticator, _, h => (Authenticator.der_congr (g := g)) h
  | .encApRepPart, _, h => (EncApRepPart.der_congr (g := g)) h
  | .lastReqEntry, _, h => (LastReqEntry.der_congr (g := g)) h
  | .encAsRepPart, _, h => (EncAsRepPart.der_congr (g := g)) h
  | .encKdcRepPart, _, h => (EncKdcRepPart.der_congr (g := g)) h
  | .krbCredInfo, _, h => (KrbCredInfo.der_congr (g := g)) h
  | .encKrbCredPart, _, h => (EncKrbCredPart.der_congr (g := g)) h
  | .encKrbPrivPart, _, h => (EncKrbPrivPart.der_congr (g := g)) h
  | .encTgsRepPart, _, h => (EncTgsRepPart.der_congr (g := g)) h
  | .transitedEncoding, _, h => rfl
  | .encTicketPart, _, h => (EncTicketPart.der_congr (g := g)) h
  | .kdcReq, _, h => (KdcReq.der_congr (g := g)) h
  | .kerbAdRestrictionEntry, _, h => rfl
  | .kerbErrorData, _, h => rfl
  | .krbCred, _, h => (KrbCred.der_congr (g := g)) h
  | .krbError, _, h => (KrbError.der_congr (g := g)) h
  | .krbPriv, _, h => (KrbPriv.der_congr (g := g)) h
  | .krbSafeBody, _, h => (KrbSafeBody.der_congr (g := g)) h
  | .krbSafe, _, h => (KrbSafe.der_congr (g := g)) h
  | .adAndOr, _, h => rfl
  | .adKdcIssued, _, h => rfl
  | .etypeInfo2Entry, _, h => rfl
  | .etypeInfoEntry, _, h => rfl
  | .kerbPaPacRequest, _, h => rfl
  | .paEncTsEnc, _, h => (PaEncTsEnc.der_congr (g := g)) h
  | .paForUser, _, h => rfl
  | .paPacOptions, _, h => rfl
  | .s4uUserId, _, h => (S4uUserId.der_congr (g := g)) h
  | .paS4uX509User, _, h => (PaS4uX509User.der_congr (g := g)) h
  | .tgsRep, _, h => (TgsRep.der_congr (g := g)) h
  | .tgsReq, _, h => (TgsReq.der_congr (g := g)) h
  | .typedDataEntry, _, h => rfl
  | .hostAddresses, _, h => rfl
  | .authorizationData, _, h => rfl
  | .lastReq, _, h => (dSeqOf_congr (LastReqEntry.der_congr (g := g))) h
  | .typedData, _, h => rfl
  | .etypeInfo, _, h => rfl
  | .etypeInfo2, _, h => rfl
  | .methodData, _, h => rfl
  | .kerbKeyListRep, _, h => rfl
  | .kerbKeyListReq, _, h => rfl
  | .kerbLocal, _, h => rfl
  | .realm, _, h => rfl
  | .int32, _, h => rfl
  | .kerberosFlags, _, h => rfl
  | .kerberosTime, _, h => dTime_congr h
  | .uInt32, _, h => dUInt32_congr h

end Verif.Asn1
