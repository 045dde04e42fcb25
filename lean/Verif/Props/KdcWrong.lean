import Verif.Props.KdcMore
import Verif.Props.Size
/-
C113: a user whose key is not the account's gets no ticket from a KDC that follows RFC 4120. C74: this happens to a user
with the right password when the account's salt is not the one the client computes.
-/
set_option linter.unusedSimpArgs false
namespace Verif.Kb
open Verif.Asn1 Verif.Crypto Verif.Kdc

theorem padata_in_request (w : WireForm) (r : AsReq) (p : PaData) (hp : p ∈ r.padata.getD []) :
    p.padata_value.length < (AsReq.der w r).bytes.length := by
  cases hl : r.padata with
  | none => rw [hl] at hp; cases hp
  | some l =>
    rw [hl] at hp
    have hp : p ∈ l := hp
    unfold AsReq.der
    have h1 := Der.length_prim 4 p.padata_value
    have h2 := Der.length_node (t := 0xa2) (List.mem_cons_self (a := dOctets p.padata_value) (l := []))
    have h3 : (Der.node 0xa2 [dOctets p.padata_value]).bytes.length < (PaData.der p).bytes.length := by
      apply Der.length_node
      simp only [List.mem_append]
      exact .inr (List.mem_singleton.2 rfl)
    have h4 : (PaData.der p).bytes.length < (dSeqOf PaData.der l).bytes.length :=
      Der.length_node (List.mem_map.2 ⟨p, hp, rfl⟩)
    have h5 := Der.length_node (t := 0xa3) (List.mem_cons_self (a := dSeqOf PaData.der l) (l := []))
    have h6 : (Der.node 0xa3 [dSeqOf PaData.der l]).bytes.length < (Der.node 0x30 (
        req 1 dInt32 r.pvno ++ (req 2 dInt32 r.msg_type ++ (opt 3 (dSeqOf PaData.der) (some l) ++
        req 4 (KdcReqBody.der w) r.req_body)))).bytes.length := by
      apply Der.length_node
      simp only [List.mem_append]
      exact .inr (.inr (.inl (List.mem_singleton.2 rfl)))
    have h7 := Der.length_node (t := 0x6a) (List.mem_cons_self (a := Der.node 0x30 (
        req 1 dInt32 r.pvno ++ (req 2 dInt32 r.msg_type ++ (opt 3 (dSeqOf PaData.der) (some l) ++
        req 4 (KdcReqBody.der w) r.req_body)))) (l := []))
    have e : (dOctets p.padata_value).bytes = (Der.prim 4 p.padata_value).bytes := rfl
    rw [e] at h2
    rw [hl]
    omega

/-- type and octets are read back from an EncryptedData -/
theorem encryptedData_same {d d' : EncryptedData} (hs : (EncryptedData.der rfc d).bytes.length < 2^64)
    (h : (EncryptedData.der rfc d).bytes = (EncryptedData.der rfc d').bytes) : d.etype = d'.etype ∧ d.cipher = d'.cipher := by
  have h := Der.bytes_eq (encryptedData_tagged rfc d) (encryptedData_tagged rfc d') hs h
  obtain ⟨t, v, c⟩ := d
  obtain ⟨t', v', c'⟩ := d'
  simp only [EncryptedData.der, req, opt, List.cons_append, List.nil_append, Der.node.injEq, List.cons.injEq, and_true, true_and] at h
  refine ⟨dInt32_inj h.1, ?_⟩
  have h2 := h.2
  cases v <;> cases v' <;>
    simp only [opt, List.cons_append, List.nil_append, List.cons.injEq, Der.node.injEq, and_true, true_and, List.nil_eq, List.cons_ne_nil, and_false] at h2
  · exact dOctets_inj h2
  · exact dOctets_inj h2.2

/-- the second message of a user with any key -/
theorem second_request_any (M : CaseMap) (g : Cfg) {e : Env} (he : EnvPlain e) (username : List Char) (o : Options) (key : Key)
    (et : Int32) (kb : Bytes) (c : Cipher) (hc : newKerberosCipher et = .ok c) (hl : kb.length = keyLength c)
    (hp : PreauthKey stdPrims M o username key et kb) :
    ∃ r data, buildAsReq stdPrims M g e username (some key) o = .ok (AsReq.der rfc r).bytes ∧ Asks e username o r ∧
      r.req_body.etypes = [et] ∧ OffersTimestamp r ∧
      Encrypts et kb 1 (PaEncTsEnc.der rfc (PaEncTsEnc.ofTime e.stampNow)).bytes data ∧
      ∀ p ∈ r.padata.getD [], p.padata_type = 2 → p.padata_value = (EncryptedData.der rfc ⟨et, none, data⟩).bytes := by
  have hko : c.keyOk kb := by
    cases c with
    | aes sz => cases sz <;> exact hl
    | rc4 => exact trivial
  obtain ⟨data, hd, hdec⟩ := Crypto.c26_cipher_roundtrip stdPrims stdPrims_lawful c kb hko 1
    (MsgType.build g .paEncTsEnc (PaEncTsEnc.ofTime e.stampNow)) (e.confounder c.preambleSize) (he.ok.confounder _)
  have hx : encryptedTimestamp stdPrims M g e o.realm username key o.sortedEtypes = .ok (et, data) := by
    rw [encryptedTimestamp_preauth hp, withKey_spec hc, hd]; rfl
  have hr := createAsReq_eq (P := stdPrims) (M := M) (g := g) he.ok username (some key) o
  simp only [hx, bind, Except.bind] at hr
  have hw : MsgType.build g .encryptedData ⟨et, none, data⟩ = (EncryptedData.der rfc ⟨et, none, data⟩).bytes :=
    c59_wire_format g .encryptedData ⟨et, none, data⟩ (fun _ h => nomatch h)
  refine ⟨_, data, ?_, asks_intro (some (pacRequest g o ++ [⟨2, MsgType.build g .encryptedData ⟨et, none, data⟩⟩])) [et], rfl, ?_, ?_, ?_⟩
  · rw [build_of_create hr]
    refine congrArg Except.ok ?_
    exact c59_wire_format g .asReq _ (asks_plain (username := username) (o := o) he (asks_intro _ _))
  · exact ⟨⟨2, MsgType.build g .encryptedData ⟨et, none, data⟩⟩, List.mem_append_right _ (List.mem_singleton.2 rfl), rfl⟩
  · refine (encrypts_iff hc hl (by decide) _ _).2 ⟨_, he.ok.confounder _, ?_⟩
    have e1 : (PaEncTsEnc.der rfc (PaEncTsEnc.ofTime e.stampNow)).bytes = MsgType.build g .paEncTsEnc (PaEncTsEnc.ofTime e.stampNow) :=
      (c59_wire_format g .paEncTsEnc (PaEncTsEnc.ofTime e.stampNow) he.stamp).symm
    rw [e1]; exact hd
  · intro p hp h2
    have hp : p ∈ pacRequest g o ++ [⟨2, MsgType.build g .encryptedData ⟨et, none, data⟩⟩] := hp
    rcases List.mem_append.1 hp with hp | hp
    · unfold pacRequest at hp
      split at hp
      · rw [List.mem_singleton] at hp; subst hp; cases h2
      · cases hp
    · rw [List.mem_singleton.1 hp]; exact hw

/-- the answers are also such that a bad timestamp is refused -/
def RefusedBy (K : Kdc) (clock : Nat → Int) (net : Net) (sent : List Bytes) : Prop :=
  ∀ pre m post, sent = pre ++ m :: post → ∃ answer, net (pre ++ [m]) = some answer ∧ Refuses K (clock (pre.length + 1)) m answer

theorem preauth_size {M : CaseMap} {o : Options} {username : List Char} {key : Key} (hkw : key.WF) {et : Int32} {kb : Bytes}
    (hp : PreauthKey stdPrims M o username key et kb) : ∃ c, newKerberosCipher et = .ok c ∧ kb.length = keyLength c := by
  cases key with
  | secret pw =>
    obtain ⟨-, c, hc, hg⟩ := hp
    obtain ⟨kb', h2, -, h3⟩ := c33_generated_key_from_string stdPrims stdPrims_lawful c pw
      (if et = 23 then [] else calculateAesSalt M o.realm username)
    rw [hg] at h2
    injection h2 with h2
    subst h2
    exact ⟨c, hc, h3⟩
  | rc4Key b => obtain ⟨rfl, rfl⟩ := hp; exact ⟨.rc4, by decide, hkw⟩
  | aes128Key b => obtain ⟨rfl, rfl⟩ := hp; exact ⟨.aes .aes128, by decide, hkw⟩
  | aes256Key b => obtain ⟨rfl, rfl⟩ := hp; exact ⟨.aes .aes256, by decide, hkw⟩

theorem refusal_read (g : Cfg) {b : Bytes} (h : IsRefusal b) (hs : b.length < 2^32) :
    ∃ err, (err.error_code = 24 ∨ err.error_code = 37) ∧ ReadsError g b err := by
  obtain ⟨e, h1, h2, rfl⟩ := h
  have hp : KrbError.Plain e := ⟨fun t ht => (h2.1 t ht).2, h2.2.2⟩
  have e1 : (KrbError.der rfc e).bytes = MsgType.build g .krbError e := (c59_wire_format g .krbError e hp).symm
  rw [e1] at hs ⊢
  have := c39_roundtrip g .krbError e h2 (by omega) []
  rw [List.append_nil] at this
  exact ⟨e, h1, [], this⟩

/-- C113. The account needs pre-authentication. With any key or password: the KDC can open the timestamp with a key of the
account and finds a time at most five minutes off its clock, or the request ends with the KDC's refusal, after two messages. -/
theorem c113_preauth (M : CaseMap) (g : Cfg) (hg : g.Total) (K : Kdc) (clock : Nat → Int) (net : Net) (e1 e2 : Env) (he1 : EnvPlain e1)
    (he2 : EnvPlain e2) (username : List Char) (key : Key) (hkw : key.WF) (o : Options) (a : Account)
    (ha : K.account ⟨1, [username]⟩ = some a) (hrealm : o.realm = K.realm) (hpa : a.needsPreauth = true)
    (hoffer : ∃ k ∈ a.keys, k.Ok ∧ k.etype ∈ o.etypes)
    (et : Int32) (kb : Bytes) (hp : PreauthKey stdPrims M o username key et kb) (hhas : ∃ k ∈ a.keys, k.etype = et)
    (hans : AnsweredBy K clock net (tgtRequest stdPrims M g net e1 e2 username (some key) o).2)
    (href : RefusedBy K clock net (tgtRequest stdPrims M g net e1 e2 username (some key) o).2) :
    ∃ ct, Encrypts et kb 1 (PaEncTsEnc.der rfc (PaEncTsEnc.ofTime e2.stampNow)).bytes ct ∧
      ((∃ k ∈ a.keys, k.etype = et ∧ ∃ ts, Encrypts et k.key 1 (PaEncTsEnc.der rfc ts).bytes ct ∧ YearOk ts.patimestamp ∧
          ts.patimestamp.secs - clock 2 ≤ 300 ∧ clock 2 - ts.patimestamp.secs ≤ 300) ∨
        ∃ err, (err.error_code = 24 ∨ err.error_code = 37) ∧
          (tgtRequest stdPrims M g net e1 e2 username (some key) o).1 = .error (.krbErrorResponse err) ∧
          (tgtRequest stdPrims M g net e1 e2 username (some key) o).2.length = 2) := by
  have hkk : ∀ k', some key = some k' → k'.WF := by rintro k' h; injection h with h; subst h; exact hkw
  obtain ⟨req1, hb1, hd1, hd2⟩ := c48_dialogue stdPrims_lawful M hg net username (some key) hkk o he1.ok (e2 := e2)
  obtain ⟨r1, hr1, hr2, hr3, hr4⟩ := first_request M g he1 username o
  rw [hb1] at hr1
  injection hr1 with hr1
  subst hr1
  obtain ⟨k0, hk0, hok0, ht0⟩ := hoffer
  obtain ⟨k1, hk1⟩ := chosen_exists hk0 (filter_mem (by rcases hok0 with h | h | h <;> simp [h.1]) ht0)
  rw [← hr3] at hk1
  obtain ⟨c, hc, hl⟩ := preauth_size hkw hp
  obtain ⟨r2, data, hb2, hq1, hq2, hq3, henc, hq4⟩ := second_request_any M g he2 username o key et kb c hc hl hp
  have hfirst : ∃ post, (tgtRequest stdPrims M g net e1 e2 username (some key) o).2 = (AsReq.der rfc r1).bytes :: post := by
    by_cases hd : DemandsPreauth g (net [(AsReq.der rfc r1).bytes])
    · exact ⟨_, ((hd2 key rfl hd).1 _ hb2).1⟩
    · exact ⟨[], (hd1 (fun h => hd h.1)).1⟩
  obtain ⟨post, hpost⟩ := hfirst
  obtain ⟨hs1, ans1, hn1, hs2, hA⟩ := hans [] _ post hpost
  rw [List.nil_append] at hn1
  have hA := (asks_answers hr2 hrealm ha hk1 hA hs1).1 hr4
  rw [hpa] at hA
  have hd := preauthError_read g hA hs2
  rw [← hn1] at hd
  obtain ⟨hsent, hlast⟩ := (hd2 key rfl hd).1 _ hb2
  obtain ⟨hs3, ans2, hn2, hs4, -⟩ := hans [(AsReq.der rfc r1).bytes] (AsReq.der rfc r2).bytes [] hsent
  obtain ⟨ans2', hn2', hR⟩ := href [(AsReq.der rfc r1).bytes] (AsReq.der rfc r2).bytes [] hsent
  rw [hn2] at hn2'
  injection hn2' with hn2'
  subst hn2'
  refine ⟨data, henc, ?_⟩
  obtain ⟨k', hk'⟩ : ∃ k', Kdc.chosen r2.req_body.etypes a = some k' := by
    obtain ⟨k, h1, h2⟩ := hhas
    exact chosen_exists h1 (by rw [hq2, h2]; exact List.mem_singleton.2 rfl)
  by_cases hpre : Preauthenticated a (clock 2) r2
  · left
    obtain ⟨p, h1, h2, d, k, ts, h3, h4, h5, h6, -, h7, h8, h9⟩ := hpre
    have hv := hq4 p h1 h2
    rw [h3] at hv
    have hb := padata_in_request rfc r2 p h1
    rw [h3] at hb
    obtain ⟨e1, e2⟩ := encryptedData_same (by omega) hv
    have e1 : d.etype = et := e1
    have e2 : d.cipher = data := e2
    rw [e2, h5, e1] at h6
    exact ⟨k, h4, h5.trans e1, ts, h6, h7, h8, h9⟩
  · right
    have := hR r2 ⟨1, [username]⟩ a k' rfl hq1.pvno hq1.msg_type (by rw [hq1.realm, hrealm]) (by rw [hq1.server, hrealm]; rfl)
      hq1.client ha hk' hs3 hq3 hpre
    obtain ⟨err, h1, h2⟩ := refusal_read g this hs4
    have hn2 : net [(AsReq.der rfc r1).bytes, (AsReq.der rfc r2).bytes] = _ := hn2
    rw [hn2] at hlast
    exact ⟨err, h1, c48_determined stdPrims_lawful hg (some key) hkk hlast (.refused _ err h2), by rw [hsent]; rfl⟩

/-- the key a user's key or password gives for opening what was encrypted with this key: the cipher key itself, or the key of
the password with the same type and salt -/
def Gives : Key → LongTermKey → Int32 → Bytes → Prop
  | .secret pw, k, et, kb => et = k.etype ∧ StringToKey et pw k.salt kb
  | .rc4Key b, _, et, kb => et = 23 ∧ kb = b
  | .aes128Key b, _, et, kb => et = 17 ∧ kb = b
  | .aes256Key b, _, et, kb => et = 18 ∧ kb = b

/-- C113. The account needs no pre-authentication. With any key or password: the reply of the KDC is encrypted with a key of
the account. Either it happens to open also with the user's key, or the request ends with a decryption error, after one
message. -/
theorem c113_no_preauth (M : CaseMap) (g : Cfg) (hg : g.Total) (K : Kdc) (clock : Nat → Int) (net : Net) (e1 e2 : Env) (he1 : EnvPlain e1)
    (username : List Char) (key : Key) (hkw : key.WF) (o : Options) (a : Account)
    (ha : K.account ⟨1, [username]⟩ = some a) (hrealm : o.realm = K.realm) (hpa : a.needsPreauth = false)
    (hoffer : ∃ k ∈ a.keys, k.Ok ∧ k.etype ∈ o.etypes)
    (hans : AnsweredBy K clock net (tgtRequest stdPrims M g net e1 e2 username (some key) o).2) :
    ∃ r rep part k, Issues K a r rep part k ∧ ((∃ et kb plain, Gives key k et kb ∧ Encrypts et kb 3 plain rep.enc_part.cipher) ∨
      ((∃ e, (tgtRequest stdPrims M g net e1 e2 username (some key) o).1 = .error (.parseAsRep rep (.crypto e))) ∧
        (tgtRequest stdPrims M g net e1 e2 username (some key) o).2.length = 1)) := by
  have hkk : ∀ k', some key = some k' → k'.WF := by rintro k' h; injection h with h; subst h; exact hkw
  obtain ⟨req1, hb1, hd1, hd2⟩ := c48_dialogue stdPrims_lawful M hg net username (some key) hkk o he1.ok (e2 := e2)
  obtain ⟨r1, hr1, hr2, hr3, hr4⟩ := first_request M g he1 username o
  rw [hb1] at hr1
  injection hr1 with hr1
  subst hr1
  obtain ⟨k0, hk0, hok0, ht0⟩ := hoffer
  obtain ⟨k1, hk1⟩ := chosen_exists hk0 (filter_mem (by rcases hok0 with h | h | h <;> simp [h.1]) ht0)
  rw [← hr3] at hk1
  have hfirst : ∃ post, (tgtRequest stdPrims M g net e1 e2 username (some key) o).2 = (AsReq.der rfc r1).bytes :: post := by
    by_cases hd : DemandsPreauth g (net [(AsReq.der rfc r1).bytes])
    · cases hb : buildAsReq stdPrims M g e2 username (some key) o with
      | ok req2 => exact ⟨[req2], ((hd2 key rfl hd).1 req2 hb).1⟩
      | error x => exact ⟨[], by rw [(hd2 key rfl hd).2 x hb]⟩
    · exact ⟨[], (hd1 (fun h => hd h.1)).1⟩
  obtain ⟨post, hpost⟩ := hfirst
  obtain ⟨hs1, ans1, hn1, hs2, hA⟩ := hans [] _ post hpost
  rw [List.nil_append] at hn1
  have hA := (asks_answers hr2 hrealm ha hk1 hA hs1).1 hr4
  rw [hpa] at hA
  obtain ⟨rep, part, k, hi, rfl⟩ := hA
  have hrr := readsReply_build g rep trivial (by
    rw [c59_wire_format g .asRep rep hi.kvno]; show (AsRep.der rfc rep).bytes.length < _; omega)
  rw [c59_wire_format g .asRep rep hi.kvno] at hrr
  have hnd : ¬ (DemandsPreauth g (net [(AsReq.der rfc r1).bytes]) ∧ some key ≠ none) := by
    rintro ⟨⟨b, err, hb, ⟨rest, hre⟩, -⟩, -⟩
    rw [hn1] at hb
    injection hb with hb
    subst hb
    obtain ⟨⟨x, hx⟩, -⟩ := hrr
    have hre : MsgType.parse g .krbError (MsgType.der rfc .asRep rep).bytes = .ok (err, rest) := hre
    rw [hx] at hre; cases hre
  obtain ⟨hsent, hlast⟩ := hd1 hnd
  rw [hn1] at hlast
  refine ⟨r1, rep, part, k, hi, ?_⟩
  obtain ⟨c, hc, -, -⟩ := encrypts_ok hi.cipher
  -- the key tried
  have htry : ∃ et kb c', Gives key k et kb ∧ newKerberosCipher et = .ok c' ∧ kb.length = keyLength c' ∧
      ReplyKey stdPrims g key rep c' kb ∧ ((∃ pw, key = .secret pw) ∨ IsCipherKey key et kb) := by
    cases key with
    | rc4Key b => exact ⟨23, b, .rc4, ⟨rfl, rfl⟩, by decide, hkw, .inl ⟨23, .inl ⟨rfl, rfl⟩, by decide⟩, .inr (.inl ⟨rfl, rfl⟩)⟩
    | aes128Key b => exact ⟨17, b, .aes .aes128, ⟨rfl, rfl⟩, by decide, hkw, .inl ⟨17, .inr (.inl ⟨rfl, rfl⟩), by decide⟩, .inr (.inr (.inl ⟨rfl, rfl⟩))⟩
    | aes256Key b => exact ⟨18, b, .aes .aes256, ⟨rfl, rfl⟩, by decide, hkw, .inl ⟨18, .inr (.inr ⟨rfl, rfl⟩), by decide⟩, .inr (.inr (.inr ⟨rfl, rfl⟩))⟩
    | secret pw =>
      obtain ⟨s, h3, h4⟩ := info_salt g k (rep.padata.getD []) (fun p hp => by have := padata_in_reply rfc rep p hp; omega) hi.info
      have hsalt : SaltIs g (rep.padata.getD []) s := (c53_salt g rep s).1.1 (by
        cases hl : rep.padata with
        | none => rw [hl] at h3; unfold asRepSalt; rw [hl]; exact h3
        | some l => rw [hl] at h3; unfold asRepSalt; rw [hl]; exact h3)
      have h5 : ∃ kb, StringToKey k.etype pw k.salt kb := by
        rcases (c35_factory k.etype).2.1.1 ⟨c, hc⟩ with h | h | h
        · exact ⟨_, .inr (.inl ⟨h, rfl⟩)⟩
        · exact ⟨_, .inl ⟨h, rfl⟩⟩
        · obtain ⟨u, hu⟩ := c68_utf16_exists pw
          exact ⟨_, .inr (.inr ⟨h, u, hu, rfl⟩)⟩
      obtain ⟨kb, h5⟩ := h5
      have h6 := stringToKey_eq h5 hc s (fun h5 => h4 h5 (hi.hint h5))
      obtain ⟨kb', h7, -, h8⟩ := c33_generated_key_from_string stdPrims stdPrims_lawful c pw s
      rw [h6] at h7
      injection h7 with h7
      subst h7
      exact ⟨k.etype, kb, c, ⟨rfl, h5⟩, hc, h8, .inr ⟨pw, s, rfl, by rw [hi.etype]; exact hc, hsalt, h6⟩, .inl ⟨pw, rfl⟩⟩
  obtain ⟨et, kb, c', h1, h2, h3, h4, h5⟩ := htry
  have hko : c'.keyOk kb := by
    cases c' with
    | aes sz => cases sz <;> exact h3
    | rc4 => exact trivial
  cases hd : c'.decrypt stdPrims kb 3 rep.enc_part.cipher with
  | ok plain =>
    obtain ⟨conf, h6, h7⟩ := (c28_accepts_iff stdPrims stdPrims_lawful c' kb hko 3 _ _).1 hd
    exact .inl ⟨et, kb, plain, h1, (encrypts_iff h2 h3 (by decide) _ _).2 ⟨conf, h6, h7⟩⟩
  | error x =>
    right
    refine ⟨?_, by rw [hsent]; rfl⟩
    rcases h5 with ⟨pw, rfl⟩ | hck
    · exact ⟨x, c48_determined stdPrims_lawful hg _ hkk hlast (.reply _ rep _ hrr (.badPassword pw rep c' kb x h4 hd))⟩
    · by_cases he : et = rep.enc_part.etype
      · subst he
        exact ⟨x, c48_determined stdPrims_lawful hg _ hkk hlast (.reply _ rep _ hrr (.badKey key rep c' kb x hck h4 hd))⟩
      · exact ⟨_, c48_determined stdPrims_lawful hg _ hkk hlast (.reply _ rep _ hrr (.wrongType key rep c' et kb x hck he h4 hd))⟩

/-! ### such KDCs exist -/

mutual
/-- a bound for the number of octets -/
def Der.bound : Der → Nat
  | .prim _ c => 2 * c.length + 2
  | .node _ l => 2 * Der.listBound l + 2
def Der.listBound : List Der → Nat
  | [] => 0
  | d :: l => Der.bound d + Der.listBound l
end

theorem base256_le (n : Nat) : (base256 n).length ≤ n := by
  induction n using Nat.strongRecOn with
  | _ n ih =>
    rw [base256]
    split
    · exact Nat.zero_le _
    · have := ih (n / 256) (by omega)
      simp only [List.length_append, List.length_singleton]
      omega

theorem derLen_le (n : Nat) : (derLen n).length ≤ n + 1 := by
  unfold derLen
  split
  · simp
  · have := base256_le n
    simp only [List.length_cons]; omega

mutual
theorem Der.bytes_le : ∀ d : Der, d.bytes.length ≤ Der.bound d
  | .prim _ c => by
    have := derLen_le c.length
    simp only [Der.bytes, Der.bound, List.length_append, List.length_cons]; omega
  | .node _ l => by
    have h := Der.listBytes_le l
    have := derLen_le (Der.listBytes l).length
    simp only [Der.bytes, Der.bound, List.length_append, List.length_cons]; omega
theorem Der.listBytes_le : ∀ l : List Der, (Der.listBytes l).length ≤ Der.listBound l
  | [] => Nat.le_refl _
  | d :: l => by
    have h1 := Der.bytes_le d
    have h2 := Der.listBytes_le l
    simp only [Der.listBytes, Der.listBound, List.length_append]; omega
end

theorem derInt_le (v : Int) : (derInt v).length ≤ 5 := by
  unfold derInt
  dsimp only
  repeat' split
  all_goals simp

theorem decimal_length (w n : Nat) : (decimal w n).length = w := by simp [decimal]

theorem dTime_bound (t : DateTime) : Der.bound (dTime rfc t) = 32 := by
  simp [dTime, Der.bound, decimal_length, rfc]

theorem part_small (realm : List Char) (nonce : UInt32) (h : (utf8 realm).length < 2^14) :
    (EncAsRepPart.der rfc (plainPart realm nonce)).bytes.length < 2^23 := by
  refine Nat.lt_of_le_of_lt (Der.bytes_le _) ?_
  have h1 := derInt_le (rfc.u32 nonce)
  have h2 : (utf8 "krbtgt".toList).length = 6 := by decide
  have h3 := derInt_le (18 : Int32).toInt
  have h4 := derInt_le (0 : Int32).toInt
  have h5 := derInt_le (-3 : Int32).toInt
  have h6 := derInt_le (2 : Int32).toInt
  have h7 := derInt_le (165 : Int32).toInt
  simp only [plainPart, filePart, exPart, EncAsRepPart.der, Der.bound, Der.listBound, req, opt, dSeqOf, EncryptionKey.der, LastReqEntry.der,
    PrincipalName.der, HostAddress.der, PaData.der, List.map_cons, List.map_nil, List.cons_append, List.nil_append, dTime_bound, dInt32,
    dUInt32, dOctets, dString, dFlags, List.length_cons, List.length_nil, be32, h2]
  omega

/-- a reply and its size -/
theorem reply_small (K : Kdc) (a : Account) (r : AsReq) (k : LongTermKey) (hc : Kdc.chosen r.req_body.etypes a = some k) (hk : k.Ok)
    (hr : (utf8 K.realm).length < 2^14) (hs : (utf8 k.salt).length < 2^14) (hn : (Der.bytes (PrincipalName.der a.name)).length < 2^20) :
    ∃ answer, IsReply K a r answer ∧ answer.length < 2^32 := by
  have hp := part_small K.realm r.req_body.nonce hr
  obtain ⟨c, hc1, hl, hko⟩ := ok_cipher hk
  obtain ⟨ct, h1, -⟩ := c26_cipher_roundtrip stdPrims stdPrims_lawful c k.key hko 3
    (EncAsRepPart.der rfc (plainPart K.realm r.req_body.nonce)).bytes (List.replicate c.preambleSize 0) (by simp)
  have hct := (encrypts_iff hc1 hl (by decide) _ ct).2 ⟨_, by simp, h1⟩
  have hsz := c27_encrypt_size stdPrims stdPrims_lawful c k.key hko 3 _ _ ct (by simp) h1
  have ho := overhead_le c
  refine ⟨_, ⟨⟨5, 11, some [⟨19, (dSeqOf EtypeInfo2Entry.der [⟨k.etype, some k.salt, none⟩]).bytes⟩], K.realm, a.name,
    ⟨5, K.realm, K.service, ⟨18, none, [1, 2, 3]⟩⟩, ⟨k.etype, none, ct⟩⟩, plainPart K.realm r.req_body.nonce, k,
    ⟨⟨rfl, rfl⟩, ⟨rfl, rfl⟩, ⟨rfl, rfl, rfl, rfl⟩, rfl, hc, rfl, hct, ?_, ?_, plainPart_wf _ _, ?_⟩, rfl⟩, ?_⟩
  · intro p hp _
    rw [List.mem_singleton.1 hp]
    exact ⟨some k.salt, none, rfl, fun _ => rfl⟩
  · exact fun _ => ⟨_, List.mem_singleton.2 rfl, rfl⟩
  · constructor <;> (intro x hx; cases hx)
  · have hinfo : (dSeqOf EtypeInfo2Entry.der [⟨k.etype, some k.salt, none⟩]).bytes.length < 2^20 := by
      refine Nat.lt_of_le_of_lt (Der.bytes_le _) ?_
      have h1 := derInt_le k.etype.toInt
      simp only [EtypeInfo2Entry.der, Der.bound, Der.listBound, req, opt, dSeqOf, List.map_cons, List.map_nil, List.cons_append, List.nil_append,
        List.append_nil, dInt32, dString]
      omega
    generalize (dSeqOf EtypeInfo2Entry.der [⟨k.etype, some k.salt, none⟩]).bytes = info at hinfo
    have e1 : (AsRep.der rfc ⟨5, 11, some [⟨19, info⟩], K.realm, a.name, ⟨5, K.realm, K.service, ⟨18, none, [1, 2, 3]⟩⟩, ⟨k.etype, none, ct⟩⟩) =
      .node 0x6b [.node 0x30 (req 0 dInt32 5 ++ (req 1 dInt32 11 ++ (req 2 (dSeqOf PaData.der) [⟨19, info⟩] ++ (req 3 dString K.realm ++
        ([.node 0xa4 [PrincipalName.der a.name]] ++ (req 5 (Ticket.der rfc) ⟨5, K.realm, K.service, ⟨18, none, [1, 2, 3]⟩⟩ ++
        req 6 (EncryptedData.der rfc) ⟨k.etype, none, ct⟩))))))] := rfl
    rw [e1]
    have h1 := derInt_le k.etype.toInt
    have h2 := derInt_le (5 : Int32).toInt
    have h3 := derInt_le (11 : Int32).toInt
    have h4 := derInt_le (19 : Int32).toInt
    have h5 := derInt_le (18 : Int32).toInt
    have h6 := derInt_le (2 : Int32).toInt
    have h7 : (utf8 "krbtgt".toList).length = 6 := by decide
    have key : ∀ x y : List Der, (Der.node 0x6b [.node 0x30 (x ++ ([.node 0xa4 [PrincipalName.der a.name]] ++ y))]).bytes.length ≤
        8 * (Der.listBound x + Der.listBound y + 2 * (PrincipalName.der a.name).bytes.length + 6) := by
      intro x y
      have app : ∀ l m : List Der, Der.listBytes (l ++ m) = Der.listBytes l ++ Der.listBytes m := by
        intro l m
        induction l with
        | nil => rfl
        | cons d l ih => simp only [List.cons_append, Der.listBytes, ih, List.append_assoc]
      have n1 : ∀ t l, (Der.node t l).bytes.length ≤ 2 * (Der.listBytes l).length + 2 := by
        intro t l
        have := derLen_le (Der.listBytes l).length
        simp only [Der.bytes, List.length_append, List.length_cons]; omega
      have a1 := Der.listBytes_le x
      have a2 := Der.listBytes_le y
      have b1 := n1 0x6b [.node 0x30 (x ++ ([.node 0xa4 [PrincipalName.der a.name]] ++ y))]
      have b2 := n1 0x30 (x ++ ([.node 0xa4 [PrincipalName.der a.name]] ++ y))
      have b3 := n1 0xa4 [PrincipalName.der a.name]
      have one : ∀ d : Der, Der.listBytes [d] = d.bytes := fun d => by simp only [Der.listBytes, List.append_nil]
      rw [one] at b1 b3
      rw [app, app, one, List.length_append, List.length_append] at b2
      omega
    refine Nat.lt_of_le_of_lt (key (req 0 dInt32 5 ++ (req 1 dInt32 11 ++ (req 2 (dSeqOf PaData.der) [⟨19, info⟩] ++ req 3 dString K.realm))) _) ?_
    generalize (PrincipalName.der a.name).bytes.length = nl at hn
    simp only [Kdc.service, Ticket.der, EncryptedData.der, Der.bound, Der.listBound, req, opt, dSeqOf, PrincipalName.der, PaData.der, List.map_cons,
      List.map_nil, List.cons_append, List.nil_append, dInt32, dOctets, dString, List.length_cons, List.length_nil, h7]
    omega

theorem refusal_exists : ∃ answer, IsRefusal answer ∧ answer.length < 2^32 :=
  ⟨_, ⟨{ exPreauth with error_code := 24 }, .inl rfl, ⟨(fun _ h => nomatch h), by decide⟩, rfl⟩, by decide +kernel⟩

theorem preauthError_small : ∃ answer, IsPreauthError answer ∧ answer.length < 2^32 :=
  ⟨_, ⟨exPreauth, rfl, ⟨(fun _ h => nomatch h), by decide⟩, rfl⟩, by decide +kernel⟩

/-- C113, C73. Whatever its users and clock, there is a network on which the KDC gives every message an answer of the RFC and
refuses bad timestamps: keys of a supported type and size; realm, salts and names not absurdly long. -/
theorem c113_kdc_exists (K : Kdc) (hK : ∀ n a, K.account n = some a → (∀ k ∈ a.keys, k.Ok ∧ (utf8 k.salt).length < 2^14) ∧
      (PrincipalName.der a.name).bytes.length < 2^20) (hr : (utf8 K.realm).length < 2^14) (clock : Nat → Int) :
    ∃ net : Net, ∀ sent : List Bytes, (∀ m ∈ sent, m.length < 2^32) → AnsweredBy K clock net sent ∧ RefusedBy K clock net sent := by
  have one : ∀ (now : Int) (request : Bytes), ∃ answer, answer.length < 2^32 ∧ Answers K now request answer ∧ Refuses K now request answer := by
    intro now request
    by_cases h : ∃ (r : AsReq) (n : PrincipalName) (a : Account) (k : LongTermKey), request = (AsReq.der rfc r).bytes ∧
        request.length < 2^32 ∧ r.req_body.cname = some n ∧ K.account n = some a ∧ Kdc.chosen r.req_body.etypes a = some k
    · obtain ⟨r, n, a, k, h1, h2, h3, h4, h5⟩ := h
      have key := fun answer => answers_intro (K := K) (now := now) (r := r) (a := a) (answer := answer) (by rw [← h1]; exact h2) h3 h4
      rw [← h1] at key
      have same : ∀ (r' : AsReq) (n' : PrincipalName) (a' : Account), request = (AsReq.der rfc r').bytes → r'.req_body.cname = some n' →
          K.account n' = some a' → r.padata = r'.padata ∧ a = a' := by
        intro r' n' a' g1 g3 g4
        have hs : SameRequest r r' := asReq_same (by rw [← h1]; omega) (by rw [← h1]; exact g1)
        have e1 := hs.cname
        rw [h3, g3] at e1
        injection e1 with e1
        subst e1
        rw [h4] at g4
        injection g4 with g4
        exact ⟨hs.padata, g4⟩
      have hko := (hK n a h4).1 k (chosen_mem h5).1
      obtain ⟨rep, hrep, hsz⟩ := reply_small K a r k h5 hko.1 hr hko.2 (hK n a h4).2
      by_cases ho : OffersTimestamp r
      · by_cases hpre : Preauthenticated a now r
        · refine ⟨rep, hsz, key rep ⟨fun h => absurd ho h, fun _ => hrep⟩, ?_⟩
          intro r' n' a' k' g1 _ _ _ _ g3 g4 _ _ _ hno
          obtain ⟨e1, rfl⟩ := same r' n' a' g1 g3 g4
          refine absurd ?_ hno
          unfold Preauthenticated at hpre ⊢
          rwa [← e1]
        · obtain ⟨err, herr, hsz'⟩ := refusal_exists
          exact ⟨err, hsz', key err ⟨fun h => absurd ho h, fun h => absurd h hpre⟩, fun _ _ _ _ _ _ _ _ _ _ _ _ _ _ _ => herr⟩
      · have hR : ∀ answer, Refuses K now request answer := by
          intro answer r' n' a' k' g1 _ _ _ _ g3 g4 _ _ ho' _
          obtain ⟨e1, -⟩ := same r' n' a' g1 g3 g4
          refine absurd ?_ ho
          unfold OffersTimestamp at ho' ⊢
          rwa [e1]
        cases hp : a.needsPreauth with
        | false => exact ⟨rep, hsz, key rep ⟨fun _ => by rw [hp]; exact hrep, fun _ => hrep⟩, hR _⟩
        | true =>
          obtain ⟨err, herr, hsz'⟩ := preauthError_small
          refine ⟨err, hsz', key err ⟨fun _ => by rw [hp]; exact herr, ?_⟩, hR _⟩
          rintro ⟨p, h1, h2, -⟩
          exact absurd ⟨p, h1, h2⟩ ho
    · exact ⟨[], by decide, fun r n a k g1 _ _ _ _ g3 g4 g5 g6 => absurd ⟨r, n, a, k, g1, g6, g3, g4, g5⟩ h,
        fun r n a k g1 _ _ _ _ g3 g4 g5 g6 => absurd ⟨r, n, a, k, g1, g6, g3, g4, g5⟩ h⟩
  refine ⟨fun sent => some (one (clock sent.length) (sent.getLastD [])).choose, fun sent hs => ⟨?_, ?_⟩⟩
  · intro pre m post h
    have h1 := (one (clock (pre ++ [m]).length) ((pre ++ [m]).getLastD [])).choose_spec
    refine ⟨hs m (by rw [h]; simp), _, rfl, h1.1, ?_⟩
    have e1 : (pre ++ [m]).getLastD [] = m := by simp
    have e2 : (pre ++ [m]).length = pre.length + 1 := by simp
    have h2 := h1.2.1
    generalize (one (clock (pre ++ [m]).length) ((pre ++ [m]).getLastD [])).choose = ans at h2
    rwa [e1, e2] at h2
  · intro pre m post h
    have h1 := (one (clock (pre ++ [m]).length) ((pre ++ [m]).getLastD [])).choose_spec
    refine ⟨_, rfl, ?_⟩
    have e1 : (pre ++ [m]).getLastD [] = m := by simp
    have e2 : (pre ++ [m]).length = pre.length + 1 := by simp
    have h2 := h1.2.2
    generalize (one (clock (pre ++ [m]).length) ((pre ++ [m]).getLastD [])).choose = ans at h2
    rwa [e1, e2] at h2

/-! ### C74 -/

/-- C74 (violation). A user with the right password, at a KDC that uses the default salt and demands pre-authentication, for
the strongest type the user allows (one with a salt): the timestamp is encrypted with the key of the password and the
computed salt. Unless it happens to open with the key of the password and the default salt, the request ends with the KDC's
refusal. -/
theorem c74_locked_out (M : CaseMap) (g : Cfg) (hg : g.Total) (K : Kdc) (clock : Nat → Int) (net : Net) (e1 e2 : Env) (he1 : EnvPlain e1)
    (he2 : EnvPlain e2) (username pw : List Char) (o : Options) (a : Account)
    (ha : K.account ⟨1, [username]⟩ = some a) (hrealm : o.realm = K.realm) (hpa : a.needsPreauth = true)
    (hkeys : ∀ k ∈ a.keys, StringToKey k.etype pw k.salt k.key ∧ (k.etype ≠ 23 → k.salt = defaultSalt K.realm ⟨1, [username]⟩))
    (hu : (M.lower username).getLast? ≠ some '$')
    (et : Int32) (het : [18, 17].find? (fun t => decide (t ∈ o.etypes)) = some et) (hhas : ∃ k ∈ a.keys, k.etype = et)
    (hans : AnsweredBy K clock net (tgtRequest stdPrims M g net e1 e2 username (some (.secret pw)) o).2)
    (href : RefusedBy K clock net (tgtRequest stdPrims M g net e1 e2 username (some (.secret pw)) o).2) :
    ∃ kb ct, StringToKey et pw (M.upper K.realm ++ M.lower username) kb ∧
      Encrypts et kb 1 (PaEncTsEnc.der rfc (PaEncTsEnc.ofTime e2.stampNow)).bytes ct ∧
      ((∃ kb' plain, StringToKey et pw (K.realm ++ username) kb' ∧ Encrypts et kb' 1 plain ct) ∨
        ∃ err, (err.error_code = 24 ∨ err.error_code = 37) ∧
          (tgtRequest stdPrims M g net e1 e2 username (some (.secret pw)) o).1 = .error (.krbErrorResponse err)) := by
  have h3 : (et = 18 ∨ et = 17) ∧ et ∈ o.etypes ∧ [18, 17, 23].find? (fun t => decide (t ∈ o.etypes)) = some et := by
    by_cases h18 : (18 : Int32) ∈ o.etypes
    · simp only [List.find?, h18, decide_true] at het ⊢
      injection het with het; subst het
      exact ⟨.inl rfl, h18, rfl⟩
    · by_cases h17 : (17 : Int32) ∈ o.etypes
      · simp only [List.find?, h18, h17, decide_true, decide_false] at het ⊢
        injection het with het; subst het
        exact ⟨.inr rfl, h17, rfl⟩
      · simp only [List.find?, h18, h17, decide_false] at het
        cases het
  obtain ⟨hor, hmem, hfind⟩ := h3
  have hne : et ≠ 23 := by rcases hor with rfl | rfl <;> decide
  have hsalt : calculateAesSalt M o.realm username = utf8 (M.upper K.realm ++ M.lower username) := by
    unfold calculateAesSalt; simp only [if_neg hu, hrealm]
  obtain ⟨c, hc⟩ := (c35_factory et).2.1.2 (by rcases hor with h | h <;> simp [h])
  obtain ⟨kb, hkb⟩ : ∃ kb, StringToKey et pw (M.upper K.realm ++ M.lower username) kb := by
    rcases hor with h | h
    · exact ⟨_, .inr (.inl ⟨h, rfl⟩)⟩
    · exact ⟨_, .inl ⟨h, rfl⟩⟩
  have hp : PreauthKey stdPrims M o username (.secret pw) et kb :=
    ⟨hfind, c, hc, by rw [if_neg hne, hsalt]; exact stringToKey_eq hkb hc _ (fun _ => rfl)⟩
  obtain ⟨k, hk, hke⟩ := hhas
  obtain ⟨ct, h1, h2⟩ := c113_preauth M g hg K clock net e1 e2 he1 he2 username (.secret pw) trivial o a ha hrealm hpa
    ⟨k, hk, stringToKey_ok (hkeys k hk).1, by rw [hke]; exact hmem⟩ et kb hp ⟨k, hk, hke⟩ hans href
  refine ⟨kb, ct, hkb, h1, ?_⟩
  rcases h2 with ⟨k', hk', hke', ts, henc, -⟩ | ⟨err, h2, h3, -⟩
  · have h4 := hkeys k' hk'
    rw [hke'] at h4
    have h5 := h4.1
    rw [h4.2 hne] at h5
    exact .inl ⟨k'.key, _, by simpa [defaultSalt] using h5, henc⟩
  · exact .inr ⟨err, h2, h3⟩

/-! ### cases that meet the hypotheses -/

/-- the AES key of the password and the default salt of an administrator -/
@[irreducible] def adminKeyBytes : Bytes :=
  Rfc.DK (Kdc.aes256 (Std.pbkdf2HmacSha1 (utf8 "pw".toList) (utf8 "K.COMAdministrator".toList) 4096 32)) 32 (utf8 "kerberos".toList)
/-- the account of an administrator with this key -/
def adminAccount : Account := ⟨⟨1, ["Administrator".toList]⟩, [⟨18, "K.COMAdministrator".toList, adminKeyBytes⟩], true⟩
def adminKdc : Kdc := ⟨"K.COM".toList, fun n => if n = ⟨1, ["Administrator".toList]⟩ then some adminAccount else none⟩
def adminOptions : Options := { exOptions with realm := "K.COM".toList }

theorem adminKey : StringToKey 18 "pw".toList "K.COMAdministrator".toList adminKeyBytes := by
  have e : adminKeyBytes = Rfc.DK (Kdc.aes256 (Std.pbkdf2HmacSha1 (utf8 "pw".toList) (utf8 "K.COMAdministrator".toList) 4096 32)) 32
      (utf8 "kerberos".toList) := by unfold adminKeyBytes; exact Eq.refl _
  exact .inr (.inl ⟨rfl, e⟩)

theorem kdcEnv_fourDigits : FourDigits kdcEnv := ⟨by decide +kernel, by decide +kernel, by decide +kernel⟩

/-- on some network `c74_locked_out` applies to this administrator and password, and to other passwords `c113_preauth` -/
example (pw : List Char) : ∃ net : Net,
    AnsweredBy adminKdc (fun _ => 1700000000) net (tgtRequest stdPrims asciiCase strictCfg net kdcEnv kdcEnv "Administrator".toList (some (.secret pw)) adminOptions).2 ∧
    RefusedBy adminKdc (fun _ => 1700000000) net (tgtRequest stdPrims asciiCase strictCfg net kdcEnv kdcEnv "Administrator".toList (some (.secret pw)) adminOptions).2 ∧
    (∀ k ∈ adminAccount.keys, StringToKey k.etype "pw".toList k.salt k.key ∧ (k.etype ≠ 23 → k.salt = defaultSalt adminKdc.realm ⟨1, ["Administrator".toList]⟩)) ∧
    (asciiCase.lower "Administrator".toList).getLast? ≠ some '$' ∧
    asciiCase.upper adminKdc.realm ++ asciiCase.lower "Administrator".toList ≠ adminKdc.realm ++ "Administrator".toList ∧
    [18, 17].find? (fun t => decide (t ∈ adminOptions.etypes)) = some 18 ∧ (∃ k ∈ adminAccount.keys, k.Ok ∧ k.etype = 18) := by
  have hok : ∀ k ∈ adminAccount.keys, k.Ok := fun k hk => by
    rw [List.mem_singleton.1 hk]; exact stringToKey_ok (k := ⟨18, "K.COMAdministrator".toList, _⟩) adminKey
  obtain ⟨net, h⟩ := c113_kdc_exists adminKdc (fun n a ha => by
    have ha : (if n = ⟨1, ["Administrator".toList]⟩ then some adminAccount else none) = some a := ha
    split at ha
    · injection ha with ha
      subst ha
      exact ⟨fun k hk => ⟨hok k hk, by rw [List.mem_singleton.1 hk]; decide⟩, by decide +kernel⟩
    · cases ha) (by decide) (fun _ => 1700000000)
  have hm := c111_dialogue stdPrims stdPrims_lawful asciiCase strictCfg net kdcEnv kdcEnv kdcEnv_plain.ok kdcEnv_plain.ok kdcEnv_fourDigits kdcEnv_fourDigits
    "Administrator".toList (some (.secret pw)) (by rintro k' h; injection h with h; subst h; trivial) adminOptions (by decide)
  obtain ⟨h1, h2⟩ := h _ (fun m hm' => by have := (hm m hm').2.1; omega)
  refine ⟨net, h1, h2, fun k hk => ?_, by decide, by decide, by decide, ⟨_, List.mem_singleton.2 rfl, hok _ (List.mem_singleton.2 rfl), rfl⟩⟩
  rw [List.mem_singleton.1 hk]
  exact ⟨adminKey, fun _ => by decide⟩

/-- on some network `c113_no_preauth` applies to a user with any password or key -/
example (key : Key) (hkw : key.WF) : ∃ net : Net,
    AnsweredBy twoKdc (fun _ => 1700000000) net (tgtRequest stdPrims asciiCase strictCfg net kdcEnv kdcEnv "mickey".toList (some key) exOptions).2 ∧
    twoKdc.account ⟨1, ["mickey".toList]⟩ = some twoKeys ∧ exOptions.realm = twoKdc.realm ∧ twoKeys.needsPreauth = false ∧
    ∃ k ∈ twoKeys.keys, k.Ok ∧ k.etype ∈ exOptions.etypes := by
  have hok : ∀ k ∈ twoKeys.keys, k.Ok ∧ (utf8 k.salt).length < 2^14 := fun k hk => by
    rcases List.mem_cons.1 hk with rfl | hk
    · exact ⟨.inr (.inl ⟨rfl, rfl⟩), by decide⟩
    · rw [List.mem_singleton.1 hk]; exact ⟨.inr (.inr ⟨rfl, rfl⟩), by decide⟩
  obtain ⟨net, h⟩ := c113_kdc_exists twoKdc (fun n a ha => by
    have ha : (if n = ⟨1, ["mickey".toList]⟩ then some twoKeys else none) = some a := ha
    split at ha
    · injection ha with ha
      subst ha
      exact ⟨hok, by decide +kernel⟩
    · cases ha) (by decide) (fun _ => 1700000000)
  have hm := c111_dialogue stdPrims stdPrims_lawful asciiCase strictCfg net kdcEnv kdcEnv kdcEnv_plain.ok kdcEnv_plain.ok kdcEnv_fourDigits kdcEnv_fourDigits
    "mickey".toList (some key) (by rintro k' h; injection h with h; subst h; exact hkw) exOptions (by decide)
  obtain ⟨h1, -⟩ := h _ (fun m hm' => by have := (hm m hm').2.1; omega)
  exact ⟨net, h1, rfl, rfl, rfl, _, List.mem_cons_self, (hok _ List.mem_cons_self).1, by decide⟩

end Verif.Kb
