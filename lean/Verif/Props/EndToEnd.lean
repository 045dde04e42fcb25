import Verif.Props.Mit
import Verif.Props.Warehouse
import Verif.Props.Dialogue
import Verif.Props.Std
/-
C72: from the KDC's reply to the cache file other programs read.
-/
set_option linter.unusedSimpArgs false
namespace Verif.Kb
open Verif.Asn1 Verif.Map Verif.Crypto

/-! ### Specification -/

/-- a Kerberos name in the vocabulary of the cache file format -/
def fileName (realm : List Char) (n : PrincipalName) : Mit.Principal :=
  ⟨n.name_type.toInt.toNat, utf8 realm, n.name_string.map utf8⟩

/-- the cache file a ticket belongs in: the offset of minus one second that the library always writes (C106; tag 1, ff ff ff ff 00 00 00 00), the client
as owner, one credential with the session key, times (no start time: the time of authentication; not renewable: zero),
flags and addresses of the KDC's reply, and the ticket in its ASN.1 form -/
def fileFor (ticket : Bytes) (crealm : List Char) (cname : PrincipalName) (p : EncAsRepPart) : Mit.Cache :=
  { fields := [⟨1, [0xff, 0xff, 0xff, 0xff, 0, 0, 0, 0]⟩]
    principal := fileName crealm cname
    credentials := [{
      client := fileName crealm cname
      server := fileName p.srealm p.sname
      enctype := p.key.keytype.toInt.toNat
      key := p.key.keyvalue
      authtime := p.authtime.secs.toNat
      starttime := (p.starttime.getD p.authtime).secs.toNat
      endtime := p.endtime.secs.toNat
      renewTill := (p.renew_till.map fun t => t.secs.toNat).getD 0
      isSkey := 0
      ticketFlags := p.flags.toNat
      addresses := (p.caddr.getD []).map fun h => ⟨h.addr_type.toInt.toNat, h.address⟩
      authdata := (p.encrypted_pa_data.getD []).map fun x => ⟨x.padata_type.toInt.toNat, x.padata_value⟩
      ticket := ticket
      secondTicket := [] }] }

/-! ### Lemmas -/

theorem toUInt32_toNat {x : Int32} (h : 0 ≤ x.toInt) : x.toUInt32.toNat = x.toInt.toNat := by
  have := i32_toUInt32_toNat x
  have := x.toInt_lt
  omega

theorem i32AsU16_toNat {x : Int32} (h : 0 ≤ x.toInt) (h1 : x.toInt ≤ 65535) : (i32AsU16 x).toNat = x.toInt.toNat := by
  have := i32_toUInt32_toNat x
  unfold i32AsU16
  rw [UInt32.toNat_toUInt16]
  omega

theorem toPrincipal_mit (realm : List Char) (n : PrincipalName) (h : 0 ≤ n.name_type.toInt) :
    (toPrincipal realm n).mit = fileName realm n := by
  unfold toPrincipal CC.Principal.mit fileName
  rw [toUInt32_toNat h]; rfl

theorem cacheable_u32 {t : DateTime} (h : CacheableTime t) : (timestampU32 t).toNat = t.secs.toNat := by
  have := timestampU32_toNat t
  rw [Int.emod_eq_of_lt h.1 h.2.1] at this
  omega

theorem toTimes_file {c : Credential} (h : Cacheable c) :
    (toTimes c.client_part.authtime c.client_part.starttime c.client_part.endtime c.client_part.renew_till).authtime.toNat
      = c.client_part.authtime.secs.toNat ∧
    (toTimes c.client_part.authtime c.client_part.starttime c.client_part.endtime c.client_part.renew_till).starttime.toNat
      = (c.client_part.starttime.getD c.client_part.authtime).secs.toNat ∧
    (toTimes c.client_part.authtime c.client_part.starttime c.client_part.endtime c.client_part.renew_till).endtime.toNat
      = c.client_part.endtime.secs.toNat ∧
    (toTimes c.client_part.authtime c.client_part.starttime c.client_part.endtime c.client_part.renew_till).renew_till.toNat
      = (c.client_part.renew_till.map fun t => t.secs.toNat).getD 0 := by
  refine ⟨cacheable_u32 h.authtime, ?_, cacheable_u32 h.endtime, ?_⟩
  · cases hs : c.client_part.starttime with
    | none => exact cacheable_u32 h.authtime
    | some t => exact cacheable_u32 (h.starttime t hs)
  · cases hs : c.client_part.renew_till with
    | none => rfl
    | some t => exact cacheable_u32 (h.renew_till t hs).1

theorem toCCache_mit (X : Ext) (g : Cfg) (c : Credential) (h : Cacheable c) (hc : 0 ≤ c.cname.name_type.toInt)
    (hs : 0 ≤ c.client_part.sname.name_type.toInt)
    (ha : ∀ l, c.client_part.caddr = some l → ∀ x ∈ l, x.addr_type ≠ 20) :
    ((Warehouse.ofCredential c).toCCache X g).mit
      = fileFor (MsgType.build g .ticket c.ticket) c.crealm c.cname c.client_part := by
  have hcaddr : ((c.client_part.caddr.getD []).map (toAddress X)).map CC.Address.mit
      = (c.client_part.caddr.getD []).map fun x => ⟨x.addr_type.toInt.toNat, x.address⟩ := by
    rw [List.map_map]
    cases hl : c.client_part.caddr with
    | none => rfl
    | some l =>
      apply List.map_congr_left
      intro x hx
      have hf := (h.caddr l hl).2 x hx
      have hn : ¬ x.addr_type = netbios := ha l hl x hx
      simp only [Function.comp, toAddress, CC.Address.mit, if_neg hn, i32AsU16_toNat hf.1 hf.2.1]
  have hpa : ((c.client_part.encrypted_pa_data.getD []).map toAuthData).map CC.Address.mit
      = (c.client_part.encrypted_pa_data.getD []).map fun x => ⟨x.padata_type.toInt.toNat, x.padata_value⟩ := by
    rw [List.map_map]
    cases hl : c.client_part.encrypted_pa_data with
    | none => rfl
    | some l =>
      apply List.map_congr_left
      intro x hx
      have hf := (h.pa l hl).2 x hx
      simp only [Function.comp, toAuthData, CC.Address.mit, i32AsU16_toNat hf.1 hf.2]
  have ht := toTimes_file h
  obtain ⟨t1, t2, t3, t4⟩ := ht
  unfold CC.CCache.mit fileFor
  show (⟨_, _, [(c.toEntry X g).mit]⟩ : Mit.Cache) = _
  rw [toEntry_eq]
  unfold CC.Credential.mit
  dsimp only
  rw [toPrincipal_mit _ _ hc, toPrincipal_mit _ _ hs, hcaddr, hpa, t1, t2, t3, t4]
  simp only [Mit.Cache.mk.injEq, List.cons.injEq, and_true]
  refine ⟨by show CC.Header.dflt.mit = _; decide, toPrincipal_mit _ _ hc, ?_⟩
  simp only [toKeyBlock, CC.KeyBlock.new, i32AsU16_toNat h.keytype.1 h.keytype.2]
  rfl

theorem toCCache_fits (X : Ext) (g : Cfg) (c : Credential) (h : Cacheable c) (hc : 0 ≤ c.cname.name_type.toInt)
    (hs : 0 ≤ c.client_part.sname.name_type.toInt)
    (ha : ∀ l, c.client_part.caddr = some l → ∀ x ∈ l, x.addr_type ≠ 20)
    (hv : (fileFor (MsgType.build g .ticket c.ticket) c.crealm c.cname c.client_part).Valid)
    (hk : c.client_part.key.keyvalue.length < 2 ^ 16) : ((Warehouse.ofCredential c).toCCache X g).Fits := by
  rw [← toCCache_mit X g c h hc hs ha] at hv
  obtain ⟨-, -, hp, hcr⟩ := hv
  refine ⟨rfl, by show CC.Header.dflt.Fits; decide, ⟨hp.2.1, hp.2.2.1, hp.2.2.2⟩, ?_⟩
  intro x hx
  have hx' : x = c.toEntry X g := by
    simpa [Warehouse.toCCache, Warehouse.ofCredential, CC.CCache.new] using hx
  have hm := hcr x.mit (List.mem_map.mpr ⟨x, hx, rfl⟩)
  obtain ⟨c1, c2, -, -, -, -, -, -, -, -, l1, a1, l2, a2, k1, k2⟩ := hm
  have addr : ∀ l : List CC.Address, (∀ a ∈ l.map CC.Address.mit, a.Valid) → ∀ a ∈ l, a.Fits := fun l hl a ha' =>
    (hl a.mit (List.mem_map.mpr ⟨a, ha', rfl⟩)).2
  refine ⟨⟨c1.2.1, c1.2.2.1, c1.2.2.2⟩, ⟨c2.2.1, c2.2.2.1, c2.2.2.2⟩, ?_, by simpa [CC.Credential.mit] using l1,
    addr _ a1, by simpa [CC.Credential.mit] using l2, addr _ a2, k1, k2⟩
  subst hx'
  exact hk

/-! ### C72 -/

/-- C72. From the KDC to the file, with the real algorithms: if the KDC answers (at once, or after demanding
pre-authentication) with the reply issued for the user's key, the request returns the issued ticket; saved to a cache
file it is the valid version 4 file with this ticket, session key and names, byte for byte; and loading that file gives
the ticket back with only the documented losses. The reply must fit the file format (sizes; times between 1970 and 2106;
type numbers from 0 to 65535; no empty names) and carry no NetBIOS addresses (these are stored trimmed, C22). -/
theorem c72_kdc_to_file (M : CaseMap) (g : Cfg) (hg : g.Total) (net : Net) (e1 e2 : Env) (username : List Char)
    (o : Options) (he1 : EnvOk e1) (k : Key) (hkw : k.WF) (r : AsRep) (part : EncAsRepPart)
    (hi : Issued stdPrims g k r part) (hw : MsgType.WF .asRep r) (hs : (MsgType.build g .asRep r).length < 2^64)
    (hw' : MsgType.WF .encAsRepPart part) (hs' : (MsgType.build g .encAsRepPart part).length < 2^64)
    (hd : Decides stdPrims M g net e1 e2 username (some k) o (some (MsgType.build g .asRep r)))
    (hc : Cacheable ⟨r.crealm, r.cname, r.ticket, part⟩) (hn1 : 0 ≤ r.cname.name_type.toInt)
    (hn2 : 0 ≤ part.sname.name_type.toInt) (ha : ∀ l, part.caddr = some l → ∀ x ∈ l, x.addr_type ≠ 20)
    (hv : (fileFor (MsgType.build g .ticket r.ticket) r.crealm r.cname part).Valid)
    (hk : part.key.keyvalue.length < 2 ^ 16) (X : Ext) :
    ∃ c, (tgtRequest stdPrims M g net e1 e2 username (some k) o).1 = .ok c ∧
      ((Warehouse.ofCredential c).toCCache X g).build
        = (fileFor (MsgType.build g .ticket r.ticket) r.crealm r.cname part).bytes ∧
      loadCCache g (fileFor (MsgType.build g .ticket r.ticket) r.crealm r.cname part).bytes
        = .ok (Warehouse.ofCredential (reset c)) := by
  refine ⟨⟨r.crealm, r.cname, r.ticket, part⟩,
    c50_honest stdPrims_lawful M hg net username o he1 k hkw r part hi hw hs hw' hs' hd, ?_⟩
  have hf := toCCache_fits X g ⟨r.crealm, r.cname, r.ticket, part⟩ hc hn1 hn2 ha hv hk
  have hb := (CC.c70_writes_format _ hf (by show CC.Header.dflt.tagdata.length + 4 < 2 ^ 16; decide) (by
    intro x hx
    have hx' : x = Credential.toEntry X g ⟨r.crealm, r.cname, r.ticket, part⟩ := by
      simpa [Warehouse.toCCache, Warehouse.ofCredential, CC.CCache.new] using hx
    subst hx'; rfl)).1
  rw [toCCache_mit X g _ hc hn1 hn2 ha] at hb
  refine ⟨hb, ?_⟩
  rw [← hb]
  have := c25_reload_identity X g (Warehouse.ofCredential ⟨r.crealm, r.cname, r.ticket, part⟩) hf hc.named.1 (by
    intro c hc'
    have : c = ⟨r.crealm, r.cname, r.ticket, part⟩ := by simpa [Warehouse.ofCredential] using hc'
    subst this; exact hc)
  exact this

/-! the hypotheses can be met: RC4 with the real HMAC-MD5, pre-authentication demanded -/

section
set_option maxRecDepth 100000

/-- a client part that fits the file format -/
def filePart : EncAsRepPart :=
  { exPart with
    key := ⟨18, [9, 9, 9]⟩, starttime := none, endtime := ⟨1999999999, 0⟩, renew_till := some ⟨2000000000, 0⟩
    authtime := ⟨1700000000, 0⟩, caddr := some [⟨2, [10, 0, 0, 1]⟩], encrypted_pa_data := some [⟨165, [31, 0]⟩] }

def fileRep : AsRep :=
  ⟨5, 11, none, "KINGDOM.HEARTS".toList, ⟨1, ["mickey".toList]⟩, exTicket,
    ⟨23, some 3, ((Cipher.rc4.encrypt stdPrims exCipherKey.asBytes 3
      (MsgType.build strictCfg .encAsRepPart filePart) [1, 2, 3, 4, 5, 6, 7, 8]).toOption.getD [])⟩⟩

def fileNet : Net := fun sent =>
  if sent.length = 1 then some (MsgType.build strictCfg .krbError exPreauth) else some (MsgType.build strictCfg .asRep fileRep)

theorem filePart_cacheable : Cacheable ⟨fileRep.crealm, fileRep.cname, fileRep.ticket, filePart⟩ := by
  refine ⟨⟨List.cons_ne_nil _ _, List.cons_ne_nil _ _⟩, by decide, ⟨by decide, by decide, rfl⟩, ?_,
    ⟨by decide, by decide, rfl⟩, ?_, ?_, ?_⟩
  · intro t ht; cases ht
  · intro t ht
    have ht := Option.some.inj ht
    subst ht; exact ⟨⟨by decide, by decide, rfl⟩, by decide⟩
  · intro l hl
    have hl := Option.some.inj hl
    subst hl
    refine ⟨by simp, ?_⟩
    intro h hh
    simp only [List.mem_cons, List.not_mem_nil, or_false] at hh
    subst hh
    exact ⟨by decide, by decide, fun h => absurd h (by decide)⟩
  · intro l hl
    have hl := Option.some.inj hl
    subst hl
    refine ⟨by simp, ?_⟩
    intro p hp
    simp only [List.mem_cons, List.not_mem_nil, or_false] at hp
    subst hp; decide

example : Issued stdPrims strictCfg exCipherKey fileRep filePart :=
  ⟨.rc4, exCipherKey.asBytes, [1, 2, 3, 4, 5, 6, 7, 8], by decide +kernel, by decide +kernel, by decide +kernel,
    .inl (.inl ⟨rfl, by decide +kernel⟩)⟩

example : (MsgType.build strictCfg .asRep fileRep).length < 2 ^ 64 ∧
    (MsgType.build strictCfg .encAsRepPart filePart).length < 2 ^ 64 ∧ filePart.key.keyvalue.length < 2 ^ 16 ∧
    0 ≤ fileRep.cname.name_type.toInt ∧ 0 ≤ filePart.sname.name_type.toInt := by decide +kernel

/-- the file, and the program evaluated: the bytes it writes are those of the format description -/
example : (match (tgtRequest stdPrims asciiCase strictCfg fileNet exEnv exEnv "mickey".toList (some exCipherKey) exOptions).1 with
      | .ok c => ((Warehouse.ofCredential c).toCCache exExt strictCfg).build
      | .error _ => [])
    = (fileFor (MsgType.build strictCfg .ticket exTicket) "KINGDOM.HEARTS".toList ⟨1, ["mickey".toList]⟩ filePart).bytes := by
  decide +kernel

end

end Verif.Kb
