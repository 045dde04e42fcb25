import Verif.KdcSpec
import Verif.DerLemmas
import Verif.Props.Std
import Verif.Props.Transport
import Verif.Props.Mit
/-
C73, C74: the client and a KDC that follows RFC 4120.
-/
set_option linter.unusedSimpArgs false
namespace Verif.Kb
open Verif.Asn1 Verif.Crypto Verif.Kdc

/-! ### the RFC's cryptography and the code's -/

theorem encrypts_iff {et : Int32} {c : Cipher} (hc : newKerberosCipher et = .ok c) {key : Bytes} (hk : key.length = keyLength c)
    {u : Int32} (hu : u ≠ 9 ∧ u ≠ 23) (plain ct : Bytes) :
    Encrypts et key u plain ct ↔ ∃ conf, conf.length = c.preambleSize ∧ c.encrypt stdPrims key u plain conf = .ok ct := by
  have hs := (c35_factory et).2.1.1 ⟨c, hc⟩
  rcases hs with rfl | rfl | rfl
  · have : c = .aes .aes256 := by
      have : newKerberosCipher 18 = .ok (.aes .aes256) := by decide
      rw [this] at hc; injection hc with hc; exact hc.symm
    subst this
    have hk : key.length = 32 := hk
    constructor
    · rintro (⟨h, -⟩ | ⟨-, -, conf, h1, h2⟩ | ⟨h, -⟩)
      · cases h
      · exact ⟨conf, h1, (c69_aes_ciphertext .aes256 key hk u plain conf ct h1).2 h2⟩
      · cases h
    · rintro ⟨conf, h1, h2⟩
      exact .inr (.inl ⟨rfl, hk, conf, h1, (c69_aes_ciphertext .aes256 key hk u plain conf ct h1).1 h2⟩)
  · have : c = .aes .aes128 := by
      have : newKerberosCipher 17 = .ok (.aes .aes128) := by decide
      rw [this] at hc; injection hc with hc; exact hc.symm
    subst this
    have hk : key.length = 16 := hk
    constructor
    · rintro (⟨-, -, conf, h1, h2⟩ | ⟨h, -⟩ | ⟨h, -⟩)
      · exact ⟨conf, h1, (c69_aes_ciphertext .aes128 key hk u plain conf ct h1).2 h2⟩
      · cases h
      · cases h
    · rintro ⟨conf, h1, h2⟩
      exact .inl ⟨rfl, hk, conf, h1, (c69_aes_ciphertext .aes128 key hk u plain conf ct h1).1 h2⟩
  · have : c = .rc4 := by
      have : newKerberosCipher 23 = .ok .rc4 := by decide
      rw [this] at hc; injection hc with hc; exact hc.symm
    subst this
    have hk : key.length = 16 := hk
    constructor
    · rintro (⟨h, -⟩ | ⟨h, -⟩ | ⟨-, -, conf, h1, h2⟩)
      · cases h
      · cases h
      · exact ⟨conf, h1, by rw [c69_rc4_ciphertext key u plain conf hu, h2]⟩
    · rintro ⟨conf, h1, h2⟩
      rw [c69_rc4_ciphertext key u plain conf hu] at h2
      injection h2 with h2
      exact .inr (.inr ⟨rfl, hk, conf, h1, h2.symm⟩)

theorem encrypts_ok {et key u plain ct} (h : Encrypts et key u plain ct) :
    ∃ c, newKerberosCipher et = .ok c ∧ key.length = keyLength c ∧ c.keyOk key := by
  rcases h with ⟨rfl, h, -⟩ | ⟨rfl, h, -⟩ | ⟨rfl, h, -⟩
  · exact ⟨.aes .aes128, by decide, h, h⟩
  · exact ⟨.aes .aes256, by decide, h, h⟩
  · exact ⟨.rc4, by decide, h, trivial⟩

theorem stringToKey_eq {et pw salt key c} (h : StringToKey et pw salt key) (hc : newKerberosCipher et = .ok c) (s : Bytes)
    (hs : et ≠ 23 → s = utf8 salt) : c.generateKeyFromString stdPrims pw s = .ok key := by
  rcases h with ⟨rfl, hk⟩ | ⟨rfl, hk⟩ | ⟨rfl, u, h1, hk⟩
  · have h : newKerberosCipher 17 = .ok (.aes .aes128) := by decide
    rw [h] at hc; injection hc with hc; subst hc
    rw [hs (by decide), hk]
    exact (c69_string_to_key pw _).1
  · have h : newKerberosCipher 18 = .ok (.aes .aes256) := by decide
    rw [h] at hc; injection hc with hc; subst hc
    rw [hs (by decide), hk]
    exact (c69_string_to_key pw _).2.1
  · have h : newKerberosCipher 23 = .ok .rc4 := by decide
    rw [h] at hc; injection hc with hc; subst hc
    rw [hk]
    exact (c69_string_to_key pw _).2.2 u h1

/-! ### sizes of parts of a reply -/

theorem cipher_in_reply (w : WireForm) (rep : AsRep) : rep.enc_part.cipher.length < (AsRep.der w rep).bytes.length := by
  unfold AsRep.der
  have h1 := Der.length_prim 4 rep.enc_part.cipher
  have h2 := Der.length_node (t := 0xa2) (List.mem_cons_self (a := dOctets rep.enc_part.cipher) (l := []))
  have h3 : (Der.node 0xa2 [dOctets rep.enc_part.cipher]).bytes.length < (EncryptedData.der w rep.enc_part).bytes.length := by
    apply Der.length_node
    simp only [List.mem_append]
    exact .inr (.inr (List.mem_singleton.2 rfl))
  have h4 := Der.length_node (t := 0xa6) (List.mem_cons_self (a := EncryptedData.der w rep.enc_part) (l := []))
  have h5 : (Der.node 0xa6 [EncryptedData.der w rep.enc_part]).bytes.length < (Der.node 0x30 (
      req 0 dInt32 rep.pvno ++ (req 1 dInt32 rep.msg_type ++ (opt 2 (dSeqOf PaData.der) rep.padata ++ (
      req 3 dString rep.crealm ++ (req 4 PrincipalName.der rep.cname ++ (req 5 (Ticket.der w) rep.ticket ++ (
      req 6 (EncryptedData.der w) rep.enc_part)))))))).bytes.length := by
    apply Der.length_node
    simp only [List.mem_append]
    exact .inr (.inr (.inr (.inr (.inr (.inr (List.mem_singleton.2 rfl))))))
  have h6 := Der.length_node (t := 0x6b) (List.mem_cons_self (a := Der.node 0x30 (
      req 0 dInt32 rep.pvno ++ (req 1 dInt32 rep.msg_type ++ (opt 2 (dSeqOf PaData.der) rep.padata ++ (
      req 3 dString rep.crealm ++ (req 4 PrincipalName.der rep.cname ++ (req 5 (Ticket.der w) rep.ticket ++ (
      req 6 (EncryptedData.der w) rep.enc_part)))))))) (l := []))
  have e : (dOctets rep.enc_part.cipher).bytes = (Der.prim 4 rep.enc_part.cipher).bytes := rfl
  rw [e] at h2
  omega

theorem padata_in_reply (w : WireForm) (rep : AsRep) (p : PaData) (hp : p ∈ rep.padata.getD []) :
    p.padata_value.length < (AsRep.der w rep).bytes.length := by
  cases hl : rep.padata with
  | none => rw [hl] at hp; cases hp
  | some l =>
    rw [hl] at hp
    have hp : p ∈ l := hp
    unfold AsRep.der
    have h1 := Der.length_prim 4 p.padata_value
    have h2 := Der.length_node (t := 0xa2) (List.mem_cons_self (a := dOctets p.padata_value) (l := []))
    have h3 : (Der.node 0xa2 [dOctets p.padata_value]).bytes.length < (PaData.der p).bytes.length := by
      apply Der.length_node
      simp only [List.mem_append]
      exact .inr (List.mem_singleton.2 rfl)
    have h4 : (PaData.der p).bytes.length < (dSeqOf PaData.der l).bytes.length :=
      Der.length_node (List.mem_map.2 ⟨p, hp, rfl⟩)
    have h5 := Der.length_node (t := 0xa2) (List.mem_cons_self (a := dSeqOf PaData.der l) (l := []))
    have h6 : (Der.node 0xa2 [dSeqOf PaData.der l]).bytes.length < (Der.node 0x30 (
        req 0 dInt32 rep.pvno ++ (req 1 dInt32 rep.msg_type ++ (opt 2 (dSeqOf PaData.der) (some l) ++ (
        req 3 dString rep.crealm ++ (req 4 PrincipalName.der rep.cname ++ (req 5 (Ticket.der w) rep.ticket ++ (
        req 6 (EncryptedData.der w) rep.enc_part)))))))).bytes.length := by
      apply Der.length_node
      simp only [List.mem_append]
      exact .inr (.inr (.inl (List.mem_singleton.2 rfl)))
    have h7 := Der.length_node (t := 0x6b) (List.mem_cons_self (a := Der.node 0x30 (
        req 0 dInt32 rep.pvno ++ (req 1 dInt32 rep.msg_type ++ (opt 2 (dSeqOf PaData.der) (some l) ++ (
        req 3 dString rep.crealm ++ (req 4 PrincipalName.der rep.cname ++ (req 5 (Ticket.der w) rep.ticket ++ (
        req 6 (EncryptedData.der w) rep.enc_part)))))))) (l := []))
    have e : (dOctets p.padata_value).bytes = (Der.prim 4 p.padata_value).bytes := rfl
    rw [e] at h2
    rw [hl]
    omega

/-! ### opening the KDC's reply -/

/-- the user's key opens what the KDC encrypts with this key: the password it was made from, or the key itself -/
def Opens : Key → LongTermKey → Prop
  | .secret pw, k => StringToKey k.etype pw k.salt k.key
  | .rc4Key b, k => k.etype = 23 ∧ k.key = b
  | .aes128Key b, k => k.etype = 17 ∧ k.key = b
  | .aes256Key b, k => k.etype = 18 ∧ k.key = b

/-- the salt found in the hints of a reply -/
theorem info_salt (g : Cfg) (k : LongTermKey) (l : List PaData) (hz : ∀ p ∈ l, p.padata_value.length < 2^64)
    (h : ∀ p ∈ l, p.padata_type = 19 → ∃ salt params,
      p.padata_value = (dSeqOf EtypeInfo2Entry.der [⟨k.etype, salt, params⟩]).bytes ∧ (k.etype ≠ 23 → salt = some k.salt)) :
    ∃ s, saltLoop g l = .ok s ∧ (k.etype ≠ 23 → (∃ p ∈ l, p.padata_type = 19) → s = utf8 k.salt) := by
  induction l with
  | nil => exact ⟨[], rfl, fun _ ⟨p, hp, _⟩ => nomatch hp⟩
  | cons p l ih =>
    obtain ⟨s, h1, h2⟩ := ih (fun q hq => hz q (List.mem_cons_of_mem _ hq)) (fun q hq => h q (List.mem_cons_of_mem _ hq))
    by_cases h19 : p.padata_type = 19
    · obtain ⟨salt, params, h3, h4⟩ := h p List.mem_cons_self h19
      have hb : p.padata_value = MsgType.build g .etypeInfo2 [⟨k.etype, salt, params⟩] := by
        rw [h3]; exact (c59_wire_format g .etypeInfo2 [⟨k.etype, salt, params⟩] trivial).symm
      have hp : (seqOfC g (etypeInfo2EntryC g)).dec g p.padata_value = .ok ([⟨k.etype, salt, params⟩], []) := by
        have hl := hz p List.mem_cons_self
        rw [hb] at hl ⊢
        have := c39_roundtrip g .etypeInfo2 [⟨k.etype, salt, params⟩] (by intro x _; trivial) hl []
        rwa [List.append_nil] at this
      cases hsalt : salt with
      | some t =>
        refine ⟨utf8 t, ?_, fun h5 _ => ?_⟩
        · rw [saltLoop, if_pos h19, hp]
          simp only [firstSalt, hsalt]
        · have := h4 h5
          rw [hsalt] at this
          injection this with this
          rw [this]
      | none =>
        refine ⟨s, ?_, fun h5 _ => ?_⟩
        · rw [saltLoop, if_pos h19, hp]
          simp only [firstSalt, hsalt, h1]
        · have := h4 h5
          rw [hsalt] at this; cases this
    · refine ⟨s, by rw [saltLoop, if_neg h19]; exact h1, fun h5 ⟨q, hq, h6⟩ => h2 h5 ⟨q, ?_, h6⟩⟩
      rcases List.mem_cons.1 hq with rfl | hq
      · exact absurd h6 h19
      · exact hq

theorem reply_opened (g : Cfg) {K : Kdc} {a : Account} {r : AsReq} {rep : AsRep} {part : EncAsRepPart} {k : LongTermKey}
    (h : Issues K a r rep part k) (hn : r.req_body.nonce.toNat < 2^31) (hs : (AsRep.der rfc rep).bytes.length < 2^32)
    (key : Key) (ho : Opens key k) :
    LastAnswer stdPrims g (some key) (some (AsRep.der rfc rep).bytes) (.ok ⟨rep.crealm, rep.cname, rep.ticket, part⟩) := by
  have hplain : EncAsRepPart.Plain part := by
    obtain ⟨h1, h2, h3, h4, h5, h6⟩ := h.times
    exact ⟨fun x hx => (h1 x hx).2, by show part.nonce.toNat < 2^31; rw [h.nonce]; exact hn, fun t ht => (h2 t ht).2, h3.2,
      fun t ht => (h4 t ht).2, h5.2, fun t ht => (h6 t ht).2⟩
  have e1 : (AsRep.der rfc rep).bytes = MsgType.build g .asRep rep := (c59_wire_format g .asRep rep h.kvno).symm
  have e2 : (EncAsRepPart.der rfc part).bytes = MsgType.build g .encAsRepPart part :=
    (c59_wire_format g .encAsRepPart part hplain).symm
  obtain ⟨c, hc, hkl, hko⟩ := encrypts_ok h.cipher
  obtain ⟨conf, h1, h2⟩ := (encrypts_iff hc hkl (by decide) _ _).1 h.cipher
  have hsize : (MsgType.build g .encAsRepPart part).length < 2^64 := by
    have h3 := c27_encrypt_size stdPrims stdPrims_lawful c k.key hko 3 _ conf _ h1 h2
    have h4 := cipher_in_reply rfc rep
    rw [← e2]
    omega
  have hdec : c.decrypt stdPrims k.key 3 rep.enc_part.cipher = .ok (MsgType.build g .encAsRepPart part) := by
    rw [← e2]; exact (c28_accepts_iff stdPrims stdPrims_lawful c k.key hko 3 _ _).2 ⟨conf, h1, h2⟩
  have hpart := c39_roundtrip g .encAsRepPart part h.times hsize []
  rw [List.append_nil] at hpart
  have hrk : ReplyKey stdPrims g key rep c k.key := by
    cases key with
    | rc4Key b => obtain ⟨h3, h4⟩ := ho; exact .inl ⟨23, .inl ⟨rfl, by rw [h4]⟩, by rw [← h3]; exact hc⟩
    | aes128Key b => obtain ⟨h3, h4⟩ := ho; exact .inl ⟨17, .inr (.inl ⟨rfl, by rw [h4]⟩), by rw [← h3]; exact hc⟩
    | aes256Key b => obtain ⟨h3, h4⟩ := ho; exact .inl ⟨18, .inr (.inr ⟨rfl, by rw [h4]⟩), by rw [← h3]; exact hc⟩
    | secret pw =>
      obtain ⟨s, h3, h4⟩ := info_salt g k (rep.padata.getD []) (fun p hp => by have := padata_in_reply rfc rep p hp; omega) h.info
      refine .inr ⟨pw, s, rfl, by rw [h.etype]; exact hc, (c53_salt g rep s).1.1 ?_, ?_⟩
      · cases hl : rep.padata with
        | none => rw [hl] at h3; unfold asRepSalt; rw [hl]; exact h3
        | some l => rw [hl] at h3; unfold asRepSalt; rw [hl]; exact h3
      · exact stringToKey_eq ho hc s (fun h5 => h4 h5 (h.hint h5))
  rw [e1]
  rw [e1] at hs
  exact .reply _ rep _ (readsReply_build g rep trivial (by omega)) (.opened key rep c k.key _ [] part hrk hdec hpart)

theorem preauthError_read (g : Cfg) {b : Bytes} (h : IsPreauthError b) (hs : b.length < 2^32) : DemandsPreauth g (some b) := by
  obtain ⟨e, h1, h2, rfl⟩ := h
  have hp : KrbError.Plain e := ⟨fun t ht => (h2.1 t ht).2, h2.2.2⟩
  have e1 : (KrbError.der rfc e).bytes = MsgType.build g .krbError e := (c59_wire_format g .krbError e hp).symm
  rw [e1] at hs ⊢
  have := c39_roundtrip g .krbError e h2 (by omega) []
  rw [List.append_nil] at this
  exact ⟨_, e, rfl, ⟨[], this⟩, h1⟩

/-! ### the requests -/

/-- random bytes and numbers, clocks in years with four digits; the random number for the nonce is below 2^31 (see
`c73_nonce_negative`) -/
structure EnvPlain (e : Env) : Prop where
  ok : EnvOk e
  nonce : e.nonce.toNat < 2^31
  till : YearOk (later e.tillNow)
  rtime : YearOk (later e.rtimeNow)
  stamp : YearOk e.stampNow

theorem asks_plain {e : Env} {username : List Char} {o : Options} {r : AsReq} (he : EnvPlain e) (h : Asks e username o r) :
    AsReq.Plain r := by
  refine ⟨?_, ?_, ?_, ?_, ?_, ?_⟩
  · rw [h.from]; intro _ h'; cases h'
  · rw [h.till]; exact he.till
  · rw [h.rtime]; intro t ht; injection ht with ht; subst ht; exact he.rtime
  · rw [h.nonce]; exact he.nonce
  · rw [h.authdata]; intro _ h'; cases h'
  · rw [h.tickets]; intro _ h'; cases h'

theorem build_of_create {P M g} {e : Env} {username : List Char} {key : Option Key} {o : Options} {r : AsReq}
    (h : createAsReq P M g e username key o = .ok r) : buildAsReq P M g e username key o = .ok (MsgType.build g .asReq r) := by
  unfold buildAsReq
  rw [h]; rfl

theorem first_request (M : CaseMap) (g : Cfg) {e : Env} (he : EnvPlain e) (username : List Char) (o : Options) :
    ∃ r, buildAsReq stdPrims M g e username none o = .ok (AsReq.der rfc r).bytes ∧ Asks e username o r ∧
      r.req_body.etypes = [18, 17, 23].filter (fun t => decide (t ∈ o.etypes)) ∧ ¬ OffersTimestamp r := by
  obtain ⟨r, h1, h2, h3, h4⟩ := c47_without_key stdPrims M g e he.ok username o
  refine ⟨r, ?_, h2, h3, ?_⟩
  · rw [build_of_create h1, c59_wire_format g .asReq r (asks_plain he h2)]; rfl
  · rintro ⟨p, hp, h5⟩
    rw [h4] at hp
    unfold pacRequest at hp
    split at hp
    · rw [List.mem_singleton] at hp; subst hp; cases h5
    · cases hp

theorem clampI32_range (x : Int32) : 0 ≤ (clampI32 x 0 999999).toInt ∧ (clampI32 x 0 999999).toInt ≤ 999999 := by
  unfold clampI32
  split
  · exact ⟨by decide, by decide⟩
  split
  · exact ⟨by decide, by decide⟩
  · rename_i h1 h2
    rw [Int32.lt_iff_toInt_lt] at h1 h2
    have e1 : (0 : Int32).toInt = 0 := by decide
    have e2 : (999999 : Int32).toInt = 999999 := by decide
    omega

theorem second_request (M : CaseMap) (g : Cfg) {e : Env} (he : EnvPlain e) (username : List Char) (o : Options) (key : Key)
    (a : Account) (k : LongTermKey) (hk : k ∈ a.keys) (hkl : k.Ok) (hp : PreauthKey stdPrims M o username key k.etype k.key)
    (now : Int) (h1 : e.stampNow.secs - now ≤ 300) (h2 : now - e.stampNow.secs ≤ 300) :
    ∃ r, buildAsReq stdPrims M g e username (some key) o = .ok (AsReq.der rfc r).bytes ∧ Asks e username o r ∧
      r.req_body.etypes = [k.etype] ∧ Preauthenticated a now r := by
  obtain ⟨c, hc, hl⟩ : ∃ c, newKerberosCipher k.etype = .ok c ∧ k.key.length = keyLength c := by
    rcases hkl with ⟨h, h'⟩ | ⟨h, h'⟩ | ⟨h, h'⟩ <;> rw [h]
    · exact ⟨.aes .aes128, by decide, h'⟩
    · exact ⟨.aes .aes256, by decide, h'⟩
    · exact ⟨.rc4, by decide, h'⟩
  have hko : c.keyOk k.key := by
    cases c with
    | aes sz => cases sz <;> exact hl
    | rc4 => exact trivial
  obtain ⟨data, hd, hdec⟩ := Crypto.c26_cipher_roundtrip stdPrims stdPrims_lawful c k.key hko 1
    (MsgType.build g .paEncTsEnc (PaEncTsEnc.ofTime e.stampNow)) (e.confounder c.preambleSize) (he.ok.confounder _)
  have hx : encryptedTimestamp stdPrims M g e o.realm username key o.sortedEtypes = .ok (k.etype, data) := by
    rw [encryptedTimestamp_preauth hp, withKey_spec hc, hd]; rfl
  have hr := createAsReq_eq (P := stdPrims) (M := M) (g := g) he.ok username (some key) o
  simp only [hx, bind, Except.bind] at hr
  refine ⟨_, ?_, asks_intro (some (pacRequest g o ++ [⟨2, MsgType.build g .encryptedData ⟨k.etype, none, data⟩⟩])) [k.etype], rfl, ?_⟩
  · rw [build_of_create hr]
    refine congrArg Except.ok ?_
    exact c59_wire_format g .asReq _ (asks_plain (username := username) (o := o) he (asks_intro _ _))
  · refine ⟨⟨2, MsgType.build g .encryptedData ⟨k.etype, none, data⟩⟩, List.mem_append_right _ (List.mem_singleton.2 rfl), rfl,
      ⟨k.etype, none, data⟩, k, PaEncTsEnc.ofTime e.stampNow, ?_, hk, rfl, ?_, ?_, he.stamp, h1, h2⟩
    · exact c59_wire_format g .encryptedData ⟨k.etype, none, data⟩ (fun _ h => nomatch h)
    · refine (encrypts_iff hc hl (by decide) _ _).2 ⟨_, he.ok.confounder _, ?_⟩
      have e1 : (PaEncTsEnc.der rfc (PaEncTsEnc.ofTime e.stampNow)).bytes = MsgType.build g .paEncTsEnc (PaEncTsEnc.ofTime e.stampNow) :=
        (c59_wire_format g .paEncTsEnc (PaEncTsEnc.ofTime e.stampNow) he.stamp).symm
      rw [e1]; exact hd
    · intro u hu
      have hu : some _ = some u := hu
      injection hu with hu
      subst hu
      exact clampI32_range _

/-! ### C73 -/

/-- every message sent reaches the KDC and is answered as RFC 4120 demands; `clock n` is the KDC's clock when it answers
the n-th. No message is longer than what TCP can announce. -/
def AnsweredBy (K : Kdc) (clock : Nat → Int) (net : Net) (sent : List Bytes) : Prop :=
  ∀ pre m post, sent = pre ++ m :: post → m.length < 2^32 ∧ ∃ answer, net (pre ++ [m]) = some answer ∧ answer.length < 2^32 ∧
    Answers K (clock (pre.length + 1)) m answer

theorem asks_answers {K : Kdc} {now : Int} {e : Env} {username : List Char} {o : Options} {r : AsReq} {a : Account} {k : LongTermKey}
    {ans : Bytes} (hr : Asks e username o r) (hrealm : o.realm = K.realm) (ha : K.account ⟨1, [username]⟩ = some a)
    (hc : chosen r.req_body.etypes a = some k) (h : Answers K now (AsReq.der rfc r).bytes ans) (hs : (AsReq.der rfc r).bytes.length < 2^32) :
    (¬ OffersTimestamp r → if a.needsPreauth then IsPreauthError ans else IsReply K a r ans) ∧
    (Preauthenticated a now r → IsReply K a r ans) :=
  h r ⟨1, [username]⟩ a k rfl hr.pvno hr.msg_type (by rw [hr.realm, hrealm]) (by rw [hr.server, hrealm]; rfl) hr.client ha hc hs

theorem kdc_core (M : CaseMap) (g : Cfg) (hg : g.Total) (K : Kdc) (clock : Nat → Int) (net : Net) (e1 e2 : Env) (he1 : EnvPlain e1)
    (he2 : EnvPlain e2) (username : List Char) (key : Key) (hkw : key.WF) (o : Options) (a : Account)
    (ha : K.account ⟨1, [username]⟩ = some a) (hrealm : o.realm = K.realm)
    (hans : AnsweredBy K clock net (tgtRequest stdPrims M g net e1 e2 username (some key) o).2)
    (k1 : LongTermKey) (hk1 : chosen ([18, 17, 23].filter fun t => decide (t ∈ o.etypes)) a = some k1)
    (hopen1 : a.needsPreauth = false → Opens key k1)
    (hpre : a.needsPreauth = true → ∃ k ∈ a.keys, k.Ok ∧ PreauthKey stdPrims M o username key k.etype k.key ∧
      ∀ k', chosen [k.etype] a = some k' → Opens key k')
    (hclock : e2.stampNow.secs - clock 2 ≤ 300 ∧ clock 2 - e2.stampNow.secs ≤ 300) :
    ∃ r rep part k, Issues K a r rep part k ∧
      (tgtRequest stdPrims M g net e1 e2 username (some key) o).1 = .ok ⟨rep.crealm, rep.cname, rep.ticket, part⟩ ∧
      part.nonce = (if a.needsPreauth then e2 else e1).nonce ∧
      (tgtRequest stdPrims M g net e1 e2 username (some key) o).2.length = (if a.needsPreauth then 2 else 1) ∧
      ∃ sent, net sent = some (AsRep.der rfc rep).bytes := by
  have hkk : ∀ k', some key = some k' → k'.WF := by rintro k' h; injection h with h; subst h; exact hkw
  obtain ⟨req1, hb1, hd1, hd2⟩ := c48_dialogue stdPrims_lawful M hg net username (some key) hkk o he1.ok (e2 := e2)
  obtain ⟨r1, hr1, hr2, hr3, hr4⟩ := first_request M g he1 username o
  rw [hb1] at hr1
  injection hr1 with hr1
  subst hr1
  rw [← hr3] at hk1
  have hfirst : ∃ post, (tgtRequest stdPrims M g net e1 e2 username (some key) o).2 = (AsReq.der rfc r1).bytes :: post := by
    by_cases hd : DemandsPreauth g (net [(AsReq.der rfc r1).bytes])
    · cases hb : buildAsReq stdPrims M g e2 username (some key) o with
      | ok req2 => exact ⟨[req2], ((hd2 key rfl hd).1 req2 hb).1⟩
      | error x => exact ⟨[], by rw [(hd2 key rfl hd).2 x hb]⟩
    · exact ⟨[], (hd1 (fun h => hd h.1)).1⟩
  obtain ⟨post, hpost⟩ := hfirst
  obtain ⟨hs1, ans1, hn1, hs2, hA⟩ := hans [] _ post hpost
  rw [List.nil_append] at hn1
  have hA := (asks_answers hr2 hrealm ha hk1 hA hs1).1 hr4
  cases hpa : a.needsPreauth with
  | false =>
    rw [hpa] at hA
    obtain ⟨rep, part, k, hi, rfl⟩ := hA
    have hkeq : k = k1 := by
      have := hi.key
      rw [hk1] at this
      injection this with this
      exact this.symm
    subst hkeq
    have hl := reply_opened g hi (by rw [hr2.nonce]; exact he1.nonce) hs2 key (hopen1 hpa)
    have hnd : ¬ (DemandsPreauth g (net [(AsReq.der rfc r1).bytes]) ∧ some key ≠ none) := by
      rintro ⟨⟨b, err, hb, ⟨rest, hre⟩, -⟩, -⟩
      rw [hn1] at hb
      injection hb with hb
      subst hb
      have hrr := readsReply_build g rep trivial (by
        rw [c59_wire_format g .asRep rep hi.kvno]; show (AsRep.der rfc rep).bytes.length < _; omega)
      rw [c59_wire_format g .asRep rep hi.kvno] at hrr
      obtain ⟨⟨x, hx⟩, -⟩ := hrr
      have hre : MsgType.parse g .krbError (MsgType.der rfc .asRep rep).bytes = .ok (err, rest) := hre
      rw [hx] at hre; cases hre
    obtain ⟨hsent, hlast⟩ := hd1 hnd
    rw [hn1] at hlast
    refine ⟨r1, rep, part, k, hi, c48_determined stdPrims_lawful hg (some key) hkk hlast hl, ?_, ?_, _, hn1⟩
    · rw [hi.nonce, hr2.nonce]; rfl
    · rw [hsent]; rfl
  | true =>
    rw [hpa] at hA
    have hd := preauthError_read g hA hs2
    rw [← hn1] at hd
    obtain ⟨k, hk, hok, hp, ho⟩ := hpre hpa
    obtain ⟨r2, hb2, hq1, hq2, hq3⟩ := second_request M g he2 username o key a k hk hok hp (clock 2) hclock.1 hclock.2
    obtain ⟨hsent, hlast⟩ := (hd2 key rfl hd).1 _ hb2
    obtain ⟨hs3, ans2, hn2, hs4, hA2⟩ := hans [(AsReq.der rfc r1).bytes] (AsReq.der rfc r2).bytes [] hsent
    obtain ⟨k', hk'⟩ : ∃ k', chosen [k.etype] a = some k' := by
      cases hx : a.keys.find? (fun x => decide (x.etype = k.etype)) with
      | some y => exact ⟨y, by simp [chosen, hx]⟩
      | none =>
        have := List.find?_eq_none.1 hx k hk
        simp at this
    have hA2 := (asks_answers hq1 hrealm ha (by rw [hq2]; exact hk') hA2 hs3).2 hq3
    obtain ⟨rep, part, k2, hi, rfl⟩ := hA2
    have hkeq : k2 = k' := by
      have := hi.key
      rw [hq2, hk'] at this
      injection this with this
      exact this.symm
    subst hkeq
    have hl := reply_opened g hi (by rw [hq1.nonce]; exact he2.nonce) hs4 key (ho k2 hk')
    have hn2 : net [(AsReq.der rfc r1).bytes, (AsReq.der rfc r2).bytes] = _ := hn2
    rw [hn2] at hlast
    refine ⟨r2, rep, part, k2, hi, c48_determined stdPrims_lawful hg (some key) hkk hlast hl, ?_, ?_, _, hn2⟩
    · rw [hi.nonce, hq1.nonce]; rfl
    · rw [hsent]; rfl

theorem stringToKey_type {et pw salt key} (h : StringToKey et pw salt key) : et = 18 ∨ et = 17 ∨ et = 23 := by
  rcases h with ⟨h, -⟩ | ⟨h, -⟩ | ⟨h, -⟩
  · exact .inr (.inl h)
  · exact .inl h
  · exact .inr (.inr h)

theorem stringToKey_ok {pw} {k : LongTermKey} (h : StringToKey k.etype pw k.salt k.key) : k.Ok := by
  obtain ⟨c, hc⟩ := (c35_factory k.etype).2.1.2 (stringToKey_type h)
  have h1 := stringToKey_eq h hc (utf8 k.salt) (fun _ => rfl)
  obtain ⟨kb, h2, -, h3⟩ := c33_generated_key_from_string stdPrims stdPrims_lawful c pw (utf8 k.salt)
  rw [h1] at h2
  injection h2 with h2
  subst h2
  rcases stringToKey_type h with h' | h' | h' <;> rw [h'] at hc
  · have : newKerberosCipher 18 = .ok (.aes .aes256) := by decide
    rw [this] at hc; injection hc with hc; subst hc
    exact .inr (.inl ⟨h', h3⟩)
  · have : newKerberosCipher 17 = .ok (.aes .aes128) := by decide
    rw [this] at hc; injection hc with hc; subst hc
    exact .inl ⟨h', h3⟩
  · have : newKerberosCipher 23 = .ok .rc4 := by decide
    rw [this] at hc; injection hc with hc; subst hc
    exact .inr (.inr ⟨h', h3⟩)

theorem chosen_mem {l : List Int32} {a : Account} {k : LongTermKey} (h : chosen l a = some k) : k ∈ a.keys ∧ k.etype ∈ l := by
  obtain ⟨t, ht, hf⟩ := List.exists_of_findSome?_eq_some h
  have h1 := List.mem_of_find?_eq_some hf
  have h2 := List.find?_some hf
  simp only [decide_eq_true_eq] at h2
  exact ⟨h1, by rw [h2]; exact ht⟩

theorem chosen_exists {l : List Int32} {a : Account} {k : LongTermKey} (h1 : k ∈ a.keys) (h2 : k.etype ∈ l) : ∃ k', chosen l a = some k' := by
  cases hx : chosen l a with
  | some k' => exact ⟨k', rfl⟩
  | none =>
    have h3 := List.findSome?_eq_none_iff.1 hx k.etype h2
    have h4 := List.find?_eq_none.1 h3 k h1
    simp at h4

theorem filter_mem {o : Options} {t : Int32} (h : t = 18 ∨ t = 17 ∨ t = 23) (ho : t ∈ o.etypes) :
    t ∈ [18, 17, 23].filter (fun t => decide (t ∈ o.etypes)) := by
  rw [List.mem_filter]
  exact ⟨by simpa using h, by simpa using ho⟩

/-- C73. With a password and a KDC that follows RFC 4120 the request returns a ticket granting ticket: the one the KDC
issued and sent, with the nonce of the last message sent, after one message, or two if the account needs pre-authentication.
The account must have a key of an allowed type. If pre-authentication is needed, the strongest allowed type must be
among them, and (unless that is RC4) its salt the one the code computes: for an upper-case realm and a lower-case user
name that does not end in '$' this is RFC 4120's default salt, the realm followed by the name (otherwise see C74). -/
theorem c73_password (M : CaseMap) (g : Cfg) (hg : g.Total) (K : Kdc) (clock : Nat → Int) (net : Net) (e1 e2 : Env) (he1 : EnvPlain e1)
    (he2 : EnvPlain e2) (username pw : List Char) (o : Options) (a : Account) (ha : K.account ⟨1, [username]⟩ = some a)
    (hrealm : o.realm = K.realm) (hkeys : ∀ k ∈ a.keys, StringToKey k.etype pw k.salt k.key)
    (htype : ∃ k ∈ a.keys, k.etype ∈ o.etypes)
    (hpre : a.needsPreauth = true → M.upper K.realm = K.realm ∧ M.lower username = username ∧ username.getLast? ≠ some '$' ∧
      ∃ k ∈ a.keys, [18, 17, 23].find? (fun t => decide (t ∈ o.etypes)) = some k.etype ∧ (k.etype ≠ 23 → k.salt = K.realm ++ username))
    (hclock : e2.stampNow.secs - clock 2 ≤ 300 ∧ clock 2 - e2.stampNow.secs ≤ 300)
    (hans : AnsweredBy K clock net (tgtRequest stdPrims M g net e1 e2 username (some (.secret pw)) o).2) :
    ∃ r rep part k, Issues K a r rep part k ∧
      (tgtRequest stdPrims M g net e1 e2 username (some (.secret pw)) o).1 = .ok ⟨rep.crealm, rep.cname, rep.ticket, part⟩ ∧
      part.nonce = (if a.needsPreauth then e2 else e1).nonce ∧
      (tgtRequest stdPrims M g net e1 e2 username (some (.secret pw)) o).2.length = (if a.needsPreauth then 2 else 1) ∧
      ∃ sent, net sent = some (AsRep.der rfc rep).bytes := by
  obtain ⟨k0, hk0, ht0⟩ := htype
  obtain ⟨k1, hk1⟩ := chosen_exists hk0 (filter_mem (stringToKey_type (hkeys k0 hk0)) ht0)
  refine kdc_core M g hg K clock net e1 e2 he1 he2 username (.secret pw) trivial o a ha hrealm hans k1 hk1
    (fun _ => hkeys k1 (chosen_mem hk1).1) (fun hp => ?_) hclock
  obtain ⟨hu, hl, hd, k, hk, hf, hsalt⟩ := hpre hp
  refine ⟨k, hk, stringToKey_ok (hkeys k hk), ⟨hf, ?_⟩, fun k' hk' => hkeys k' (chosen_mem hk').1⟩
  obtain ⟨c, hc⟩ := (c35_factory k.etype).2.1.2 (stringToKey_type (hkeys k hk))
  refine ⟨c, hc, stringToKey_eq (hkeys k hk) hc _ (fun h23 => ?_)⟩
  rw [if_neg h23, hsalt h23, hrealm]
  unfold calculateAesSalt
  simp only [hl, hu, if_neg hd]

/-- C73. The same with a cipher key: the account must have exactly this key for the key's type, and that type must be
allowed. If pre-authentication is not needed the KDC chooses from all allowed types (C75), so its choice must be this type. -/
theorem c73_cipher_key (M : CaseMap) (g : Cfg) (hg : g.Total) (K : Kdc) (clock : Nat → Int) (net : Net) (e1 e2 : Env) (he1 : EnvPlain e1)
    (he2 : EnvPlain e2) (username : List Char) (key : Key) (hkw : key.WF) (et : Int32) (kb : Bytes) (hck : IsCipherKey key et kb)
    (o : Options) (a : Account) (ha : K.account ⟨1, [username]⟩ = some a) (hrealm : o.realm = K.realm)
    (hkeys : ∀ k ∈ a.keys, k.etype = et → k.key = kb) (htype : et ∈ o.etypes) (hhas : ∃ k ∈ a.keys, k.etype = et)
    (hchoice : a.needsPreauth = false →
      (chosen ([18, 17, 23].filter fun t => decide (t ∈ o.etypes)) a).map (fun k => k.etype) = some et)
    (hclock : e2.stampNow.secs - clock 2 ≤ 300 ∧ clock 2 - e2.stampNow.secs ≤ 300)
    (hans : AnsweredBy K clock net (tgtRequest stdPrims M g net e1 e2 username (some key) o).2) :
    ∃ r rep part k, Issues K a r rep part k ∧
      (tgtRequest stdPrims M g net e1 e2 username (some key) o).1 = .ok ⟨rep.crealm, rep.cname, rep.ticket, part⟩ ∧
      part.nonce = (if a.needsPreauth then e2 else e1).nonce ∧
      (tgtRequest stdPrims M g net e1 e2 username (some key) o).2.length = (if a.needsPreauth then 2 else 1) ∧
      ∃ sent, net sent = some (AsRep.der rfc rep).bytes := by
  have hopens : ∀ k ∈ a.keys, k.etype = et → Opens key k := by
    intro k hk h
    have := hkeys k hk h
    rcases hck with ⟨rfl, rfl⟩ | ⟨rfl, rfl⟩ | ⟨rfl, rfl⟩ <;> exact ⟨h, this⟩
  have h3 : et = 18 ∨ et = 17 ∨ et = 23 := by
    rcases hck with ⟨rfl, -⟩ | ⟨rfl, -⟩ | ⟨rfl, -⟩
    · exact .inr (.inr rfl)
    · exact .inr (.inl rfl)
    · exact .inl rfl
  obtain ⟨k0, hk0, ht0⟩ := hhas
  obtain ⟨k1, hk1⟩ := chosen_exists hk0 (by rw [ht0]; exact filter_mem h3 htype)
  refine kdc_core M g hg K clock net e1 e2 he1 he2 username key hkw o a ha hrealm hans k1 hk1 (fun hp => ?_) (fun _ => ?_) hclock
  · have := hchoice hp
    rw [hk1] at this
    injection this with this
    exact hopens k1 (chosen_mem hk1).1 this
  · have hkey := hkeys k0 hk0 ht0
    refine ⟨k0, hk0, ?_, ?_, fun k' hk' => ?_⟩
    · rcases hck with ⟨rfl, rfl⟩ | ⟨rfl, rfl⟩ | ⟨rfl, rfl⟩
      · exact .inr (.inr ⟨ht0, by rw [hkey]; exact hkw⟩)
      · exact .inl ⟨ht0, by rw [hkey]; exact hkw⟩
      · exact .inr (.inl ⟨ht0, by rw [hkey]; exact hkw⟩)
    · rcases hck with ⟨rfl, rfl⟩ | ⟨rfl, rfl⟩ | ⟨rfl, rfl⟩ <;> exact ⟨ht0, hkey⟩
    · obtain ⟨h1, h2⟩ := chosen_mem hk'
      exact hopens k' h1 ((List.mem_singleton.1 h2).trans ht0)

/-- the transport brings this answer: over TCP the stream starts with its length and bytes, in any pieces and whatever
follows; over UDP it is the first datagram -/
inductive Delivers : Run → Bytes → Bytes → Prop
  | tcp (t request answer rest) (ho : RequestOut t request)
      (hd : delivered t.reads = be32 (UInt32.ofNat answer.length) ++ answer ++ rest) : Delivers (.tcp t) request answer
  | udp (u request answer) (h1 : u.bind = true) (h2 : u.connect = true) (h3 : u.send = true) (h4 : ∀ i, u.peek i = true)
      (h5 : u.recv = true) (hd : u.datagram = some answer) : Delivers (.udp u) request answer

/-- C73. All of this through the sockets: it is enough that each message is written out and that the KDC's answer comes
back over TCP in any pieces, or over UDP as a datagram. -/
theorem c73_transport (K : Kdc) (clock : Nat → Int) (runs : List Bytes → Run) (sent : List Bytes)
    (h : ∀ pre m post, sent = pre ++ m :: post → m.length < 2^32 ∧ ∃ answer, Delivers (runs (pre ++ [m])) m answer ∧
      answer.length < 2^32 ∧ Answers K (clock (pre.length + 1)) m answer) :
    AnsweredBy K clock (runsNet runs) sent := by
  intro pre m post hs
  obtain ⟨h1, answer, h2, h3, h4⟩ := h pre m post hs
  refine ⟨h1, answer, ?_, h3, h4⟩
  unfold runsNet
  rw [show (pre ++ [m]).getLastD [] = m by simp]
  generalize runs (pre ++ [m]) = run at h2
  cases h2 with
  | tcp t _ _ rest ho hd =>
    have := c55_roundtrip t m answer rest ho h3 hd
    simp only [Run.exchange, this]
  | udp u _ _ a1 a2 a3 a4 a5 hd =>
    have := c56_whole u m answer a1 a2 a3 a4 a5 hd
    simp only [Run.exchange, this]

/-- C73 (violation). Half of the random nonces, those of 2^31 and more, make the request a message that is no AS-REQ of
RFC 4120: the nonce is written as a negative number. -/
theorem c73_nonce_negative (P : Prims) (M : CaseMap) (g : Cfg) (e : Env) (he : EnvOk e) (username : List Char) (key : Option Key)
    (o : Options) (raw : Bytes) (hraw : buildAsReq P M g e username key o = .ok raw) (hs : raw.length < 2^64)
    (hn : 2^31 ≤ e.nonce.toNat) (s : AsReq) : raw ≠ (AsReq.der rfc s).bytes := by
  cases hr : createAsReq P M g e username key o with
  | error x => unfold buildAsReq at hraw; rw [hr] at hraw; cases hraw
  | ok r =>
    rw [build_of_create hr] at hraw
    injection hraw with hraw
    subst hraw
    obtain ⟨w, hw, h1, -⟩ := c59_wire_format_all g .asReq r
    have hnonce : r.req_body.nonce = e.nonce := by
      rw [createAsReq_eq he] at hr
      cases key with
      | none => injection hr with hr; rw [← hr]
      | some k =>
        simp only [bind, Except.bind] at hr
        cases hx : encryptedTimestamp P M g e o.realm username k o.sortedEtypes with
        | error x => rw [hx] at hr; cases hr
        | ok x => rw [hx] at hr; injection hr with hr; rw [← hr]
    rw [hw] at hs ⊢
    have h2 := h1 r.req_body.nonce
    rw [hnonce, if_neg (by omega)] at h2
    have h3 := e.nonce.toNat_lt
    exact asReq_negative_nonce (w := w) (r := r) (by rw [hnonce, h2]; omega) hs s

end Verif.Kb
