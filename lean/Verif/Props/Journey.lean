import Verif.Props.Tgs
import Verif.Props.KdcMore
import Verif.Props.KdcWrong
import Verif.Props.Size
/-
C128: from a password to a service, with a cache file in between.
-/
set_option linter.unusedSimpArgs false
namespace Verif.Kb
open Verif.Asn1 Verif.Map Verif.Crypto Verif.Kdc

/-- what remains to be done with a ticket granting ticket `c`: for every service `S` and time `now`, the ticket granting service `T`
accepts a request (with the program's clock and any confounder), and whatever it answers, `S` then accepts the program, as the client
of the ticket granting ticket -/
def ServesWith (g : Cfg) (T : Service) (part : EncTicketPart) (c : Credential) : Prop :=
  ∀ (S : Service) (body : KdcReqBody), KdcReqBody.Plain body →
  ∀ (ctime : DateTime) (cusec : Int32), YearOk ctime →
  ∀ (conf : Bytes) (k : Cipher), newKerberosCipher c.client_part.key.keytype = .ok k → conf.length = k.preambleSize →
  ∀ now : Int, ctime.secs - now ≤ 300 ∧ now - ctime.secs ≤ 300 →
    (part.starttime.getD part.authtime).secs - now ≤ 300 ∧ now - part.endtime.secs ≤ 300 →
  ∃ request r auth, tgsRequest stdPrims g conf c ctime cusec body none = .ok request ∧ r.req_body = body ∧ AsksTgs T now request r part auth ∧
  ∀ (tpart : EncTicketPart) (rep : TgsRep) (ep : EncTgsRepPart) (answer : Bytes), IsTgsReply S r part tpart rep ep answer →
    answer.length < 2^64 → (EncTgsRepPart.der rfc ep).bytes.length < 2^64 →
  ∃ c', readTgsReply stdPrims g c.client_part.key 8 answer = .ok c' ∧ c'.client_part.nonce = body.nonce ∧
  ∀ (ctime' : DateTime) (cusec' : Int32), YearOk ctime' →
  ∀ (options : UInt32) (conf' : Bytes) (k' : Cipher), newKerberosCipher ep.key.keytype = .ok k' → conf'.length = k'.preambleSize →
  ∀ later : Int, ctime'.secs - later ≤ 300 ∧ later - ctime'.secs ≤ 300 →
    (ep.starttime.getD ep.authtime).secs - later ≤ 300 ∧ later - ep.endtime.secs ≤ 300 →
  ∃ request' ap auth', apRequest stdPrims g 11 conf' c' options ⟨5, c.crealm, c.cname, none, cusec', ctime', none, none, none⟩ = .ok request' ∧
    auth'.crealm = part.crealm ∧ auth'.cname = part.cname ∧ Accepts S 11 later request' ap tpart auth'

theorem serves (g : Cfg) (T : Service) (c : Credential) (part : EncTicketPart) (h : Promised T c part) : ServesWith g T part c := by
  intro S body hb ctime cusec hy conf k hk hconf now hnow hvalid
  obtain ⟨request, r, auth, h1, h2, -, -, -, h3⟩ := c127_request g T c part h body hb ctime cusec hy conf k hk hconf now hnow hvalid none
  refine ⟨request, r, auth, h1, h2, h3, fun tpart rep ep answer ha hs hs' => ?_⟩
  have hn : r.req_body.nonce.toNat < 2^31 := by rw [h2]; exact hb.2.2.2.1
  obtain ⟨c', g1, -, -, -, -, -, g2⟩ := c127_reply g T S c part h r hn tpart rep ep answer ha hs hs'
  refine ⟨c', g1, g2.trans (by rw [h2]), fun ctime' cusec' hy' options conf' k' hk' hconf' later hl hv => ?_⟩
  obtain ⟨c2, request', ap, auth', f1, f2, f3, f4, f5⟩ := c127_then_service g T S c part h r hn tpart rep ep answer ha hs hs' ctime' cusec' hy'
    options conf' k' hk' hconf' later hl hv
  rw [g1] at f1
  injection f1 with f1
  subst f1
  exact ⟨request', ap, auth', f2, f3.trans h.client.1, f4.trans h.client.2, f5⟩

theorem grants_promised {T : Service} {rep : AsRep} {part : EncAsRepPart} {tpart : EncTicketPart} (h : Grants T rep part tpart)
    (hk : AsRep.Plain rep) : Promised T ⟨rep.crealm, rep.cname, rep.ticket, part⟩ tpart :=
  ⟨h.ticket, hk.1, h.key.symm, h.keyOk, ⟨h.client.1.symm, h.client.2.symm⟩, h.times⟩

/-- what the file loses does not matter here -/
theorem serves_reset {g : Cfg} {T : Service} {c : Credential} {part : EncTicketPart} (h : ServesWith g T part c) : ServesWith g T part (reset c) := h

/-- C128. A user with a password and a KDC that follows RFC 4120 (conditions as in C73) gets a ticket granting ticket. If the KDC put
into it what it told the client, it serves to get tickets for services from the ticket granting service, and with these the services
accept the user: at once, and also by a program that loads the ticket from the cache file it was saved in, if it has a form there. -/
theorem c128_password_to_service (M : CaseMap) (g : Cfg) (hg : g.Total) (K : Kdc) (clock : Nat → Int) (net : Net) (e1 e2 : Env)
    (he1 : EnvPlain e1) (he2 : EnvPlain e2) (username pw : List Char) (o : Options) (a : Account)
    (ha : K.account ⟨1, [username]⟩ = some a)
    (hrealm : o.realm = K.realm) (hkeys : ∀ k ∈ a.keys, StringToKey k.etype pw k.salt k.key)
    (htype : ∃ k ∈ a.keys, k.etype ∈ o.etypes)
    (hpre : a.needsPreauth = true → M.upper K.realm = K.realm ∧ M.lower username = username ∧ username.getLast? ≠ some '$' ∧
      ∃ k ∈ a.keys, [18, 17, 23].find? (fun t => decide (t ∈ o.etypes)) = some k.etype ∧ (k.etype ≠ 23 → k.salt = K.realm ++ username))
    (hclock : e2.stampNow.secs - clock 2 ≤ 300 ∧ clock 2 - e2.stampNow.secs ≤ 300)
    (hans : AnsweredBy K clock net (tgtRequest stdPrims M g net e1 e2 username (some (.secret pw)) o).2) :
    ∃ r rep part k, Issues K a r rep part k ∧
      (∃ sent, net sent = some (AsRep.der rfc rep).bytes) ∧ part.nonce.toNat < 2^31 ∧
      (tgtRequest stdPrims M g net e1 e2 username (some (.secret pw)) o).1 = .ok ⟨rep.crealm, rep.cname, rep.ticket, part⟩ ∧
      ∀ (T : Service) (tpart : EncTicketPart), Grants T rep part tpart →
        tpart.crealm = K.realm ∧ tpart.cname = a.name ∧
        ServesWith g T tpart ⟨rep.crealm, rep.cname, rep.ticket, part⟩ ∧
        ∀ X : Ext, ((Warehouse.ofCredential ⟨rep.crealm, rep.cname, rep.ticket, part⟩).toCCache X g).Fits →
          Cacheable ⟨rep.crealm, rep.cname, rep.ticket, part⟩ →
          ∃ w c', loadCCache g ((Warehouse.ofCredential ⟨rep.crealm, rep.cname, rep.ticket, part⟩).toCCache X g).build = .ok w ∧
            w.credentials = [c'] ∧ ServesWith g T tpart c' := by
  obtain ⟨r, rep, part, k, h1, h2, h3, -, h4⟩ := c73_password M g hg K clock net e1 e2 he1 he2 username pw o a ha hrealm hkeys htype hpre hclock hans
  have hn : part.nonce.toNat < 2^31 := by
    rw [h3]
    split
    · exact he2.nonce
    · exact he1.nonce
  refine ⟨r, rep, part, k, h1, h4, hn, h2, fun T tpart hgr => ?_⟩
  have hs := serves g T _ tpart (grants_promised hgr h1.kvno)
  refine ⟨hgr.client.1.trans h1.client.1, hgr.client.2.trans h1.client.2, hs, fun X hf hc => ?_⟩
  exact ⟨_, _, c25_reload_identity X g _ hf hc.named.1 (fun c hm => by rw [List.mem_singleton.1 hm]; exact hc), rfl, serves_reset hs⟩

/-! ### The hypotheses can be met -/

/-- a part for the client with a day's ticket -/
def dayPart (K : Kdc) (nonce : UInt32) : EncAsRepPart :=
  ⟨⟨18, List.replicate 32 5⟩, [], nonce, none, 0x40e10000, ⟨1700000000, 0⟩, none, ⟨1700086400, 0⟩, some ⟨1700600000, 0⟩, K.realm, K.service, none, none⟩

/-- the ticket that goes with it -/
def dayTicket (K : Kdc) (a : Account) : EncTicketPart :=
  ⟨0x40e10000, ⟨18, List.replicate 32 5⟩, K.realm, a.name, ⟨1, []⟩, ⟨1700000000, 0⟩, none, ⟨1700086400, 0⟩, some ⟨1700600000, 0⟩, none, none⟩

/-- the reply with both encrypted -/
def dayRep (K : Kdc) (a : Account) (k : LongTermKey) (etype : Int32) (ct tt : Bytes) : AsRep :=
  ⟨5, 11, some [⟨19, (dSeqOf EtypeInfo2Entry.der [⟨k.etype, some k.salt, none⟩]).bytes⟩], K.realm, a.name,
    ⟨5, K.realm, K.service, ⟨etype, none, tt⟩⟩, ⟨k.etype, none, ct⟩⟩

theorem day_reply {K : Kdc} {a : Account} {r : AsReq} {k : LongTermKey} (hc : Kdc.chosen r.req_body.etypes a = some k)
    {etype : Int32} {key ct tt : Bytes} (hct : Encrypts k.etype k.key 3 (EncAsRepPart.der rfc (dayPart K r.req_body.nonce)).bytes ct)
    (htt : Encrypts etype key 2 (EncTicketPart.der rfc (dayTicket K a)).bytes tt) :
    Issues K a r (dayRep K a k etype ct tt) (dayPart K r.req_body.nonce) k ∧
      Grants ⟨K.realm, K.service.name_string, etype, key⟩ (dayRep K a k etype ct tt) (dayPart K r.req_body.nonce) (dayTicket K a) := by
  have t1 : TimeOk ⟨1700000000, 0⟩ := by decide +kernel
  have t2 : TimeOk ⟨1700086400, 0⟩ := by decide +kernel
  have t3 : TimeOk ⟨1700600000, 0⟩ := by decide +kernel
  have some_t3 : ∀ t, (some ⟨1700600000, 0⟩ : Option DateTime) = some t → TimeOk t := fun t h => by injection h with h; subst h; exact t3
  refine ⟨⟨⟨rfl, rfl⟩, ⟨rfl, rfl⟩, ⟨rfl, rfl, rfl, rfl⟩, rfl, hc, rfl, hct, ?_, ?_, ?_, ?_⟩,
    ⟨⟨rfl, ⟨rfl, rfl⟩, rfl, htt, ?_⟩, rfl, .inr (.inl ⟨rfl, rfl⟩), ⟨rfl, rfl⟩, rfl, rfl, rfl⟩⟩
  · intro p hp _
    rw [List.mem_singleton.1 hp]
    exact ⟨some k.salt, none, rfl, fun _ => rfl⟩
  · exact fun _ => ⟨_, List.mem_singleton.2 rfl, rfl⟩
  · exact ⟨(fun _ h => nomatch h), (fun _ h => nomatch h), t1, (fun _ h => nomatch h), t2, some_t3⟩
  · constructor <;> (intro x hx; cases hx)
  · exact ⟨t1, (fun _ h => nomatch h), t2, some_t3⟩

/-- C128. For every request of a user that a KDC knows and for every key of the ticket granting service there is a reply that follows
RFC 4120 in which the ticket carries what the client is told, and it has a form in a cache file. -/
theorem c128_reply_exists (K : Kdc) (a : Account) (hn : a.name.name_string ≠ []) (r : AsReq) (k : LongTermKey)
    (hc : Kdc.chosen r.req_body.etypes a = some k) (hk : k.Ok) (etype : Int32) (key : Bytes) (ht : (⟨etype, [], key⟩ : LongTermKey).Ok) :
    ∃ rep part tpart, Issues K a r rep part k ∧ Grants ⟨K.realm, K.service.name_string, etype, key⟩ rep part tpart ∧
      Cacheable ⟨rep.crealm, rep.cname, rep.ticket, part⟩ := by
  have u1 : CacheableTime ⟨1700000000, 0⟩ := ⟨by decide, by decide, rfl⟩
  have u2 : CacheableTime ⟨1700086400, 0⟩ := ⟨by decide, by decide, rfl⟩
  have u3 : CacheableTime ⟨1700600000, 0⟩ ∧ (1700600000 : Int) ≠ 0 := ⟨⟨by decide, by decide, rfl⟩, by decide⟩
  obtain ⟨ct, hct⟩ := encrypts_exists hk (u := 3) (by decide) (EncAsRepPart.der rfc (dayPart K r.req_body.nonce)).bytes
  obtain ⟨tt, htt⟩ := encrypts_exists ht (u := 2) (by decide) (EncTicketPart.der rfc (dayTicket K a)).bytes
  obtain ⟨h1, h2⟩ := day_reply hc hct htt
  exact ⟨_, _, _, h1, h2, ⟨hn, fun h => nomatch h⟩, ⟨by show (0 : Int) ≤ (18 : Int32).toInt; decide, by show (18 : Int32).toInt ≤ 65535; decide⟩,
      u1, (fun _ h => nomatch h), u2, (fun t h => by injection h with h; subst h; exact u3), (fun _ h => nomatch h), fun _ h => nomatch h⟩

/-! A KDC that always answers so: what it sends determines what it told the client -/

theorem chosen_find {l : List Int32} {a : Account} {k : LongTermKey} (h : Kdc.chosen l a = some k) :
    a.keys.find? (fun x => decide (x.etype = k.etype)) = some k := by
  obtain ⟨t, ht, hf⟩ := List.exists_of_findSome?_eq_some h
  have h2 := List.find?_some hf
  simp only [decide_eq_true_eq] at h2
  rw [h2]
  exact hf

theorem lastReqEntry_tagged (w : WireForm) (v : LastReqEntry) : (LastReqEntry.der w v).Tagged :=
  ⟨by decide, listTagged_append.2 ⟨req_tagged (by omega) (dInt32_tagged _), req_tagged (by omega) (dTime_tagged _ _)⟩⟩

theorem encAsRepPart_tagged (w : WireForm) (v : EncAsRepPart) : (EncAsRepPart.der w v).Tagged := by
  refine ⟨by decide, ⟨⟨by decide, ?_⟩, trivial⟩⟩
  simp only [listTagged_append]
  exact ⟨req_tagged (by decide) (encryptionKey_tagged _), req_tagged (by decide) (seqOf_tagged (lastReqEntry_tagged w) _),
    req_tagged (by decide) (dUInt32_tagged _ _), opt_tagged (by decide) (dTime_tagged _), req_tagged (by decide) (dFlags_tagged _),
    req_tagged (by decide) (dTime_tagged _ _), opt_tagged (by decide) (dTime_tagged _), req_tagged (by decide) (dTime_tagged _ _),
    opt_tagged (by decide) (dTime_tagged _), req_tagged (by decide) (dString_tagged _), req_tagged (by decide) (principalName_tagged _),
    opt_tagged (by decide) (seqOf_tagged hostAddress_tagged), opt_tagged (by decide) (seqOf_tagged paData_tagged)⟩

/-- the nonce can be read off the octets -/
theorem part_nonce {p p' : EncAsRepPart} (hs : (EncAsRepPart.der rfc p).bytes.length < 2^64)
    (h : (EncAsRepPart.der rfc p).bytes = (EncAsRepPart.der rfc p').bytes) : p.nonce = p'.nonce := by
  have h := Der.bytes_eq (encAsRepPart_tagged rfc p) (encAsRepPart_tagged rfc p') hs h
  unfold EncAsRepPart.der at h
  injection h with _ h
  injection h with h
  injection h with _ h
  have h := congrArg (comp 0xa2) h
  rw [comp_req, if_neg (by decide), comp_req, if_neg (by decide), comp_req, if_pos (by decide)] at h
  rw [comp_req, if_neg (by decide), comp_req, if_neg (by decide), comp_req, if_pos (by decide)] at h
  exact dUInt32_rfc_inj (node1_inj h)

theorem issued_once {K : Kdc} {a : Account} {r r' : AsReq} {rep rep' : AsRep} {part part' : EncAsRepPart} {k k' : LongTermKey}
    (h : Issues K a r rep part k) (h' : Issues K a r' rep' part' k') (hn' : part'.nonce.toNat < 2^31)
    (hs : (AsRep.der rfc rep).bytes.length < 2^64) (hs' : (EncAsRepPart.der rfc part).bytes.length < 2^64)
    (e : (AsRep.der rfc rep).bytes = (AsRep.der rfc rep').bytes) : rep = rep' ∧ part = part' := by
  have e1 : rep = rep' := built_eq (g := strictCfg) (T := .asRep) trivial trivial h.kvno h'.kvno hs e
  subst e1
  have e2 := chosen_find h.key
  rw [← h.etype, h'.etype, chosen_find h'.key] at e2
  injection e2 with e2
  subst e2
  have e3 := encrypts_unique (by decide) h.cipher h'.cipher
  have hn : part.nonce.toNat < 2^31 := by rw [part_nonce hs' e3]; exact hn'
  have pl : ∀ {p : EncAsRepPart}, EncAsRepPart.WF p → p.nonce.toNat < 2^31 → EncAsRepPart.Plain p := fun ⟨a, b, c, d, e, f⟩ hn =>
    ⟨fun x hx => (a x hx).2, hn, fun t ht => (b t ht).2, c.2, fun t ht => (d t ht).2, e.2, fun t ht => (f t ht).2⟩
  exact ⟨rfl, built_eq (g := strictCfg) (T := .encAsRepPart) h.times h'.times (pl h.times hn) (pl h'.times hn') hs' e3⟩

theorem list_append (l m : List Der) : Der.listBytes (l ++ m) = Der.listBytes l ++ Der.listBytes m := by
  induction l with
  | nil => rfl
  | cons d l ih => simp only [List.cons_append, Der.listBytes, ih, List.append_assoc]

/-- a bound for a message with a large component -/
theorem named_le (t u v : UInt8) (d : Der) (x y : List Der) : (Der.node t [.node u (x ++ ([.node v [d]] ++ y))]).bytes.length ≤
    8 * (Der.listBound x + Der.listBound y + 2 * d.bytes.length + 6) := by
  have n1 : ∀ t l, (Der.node t l).bytes.length ≤ 2 * (Der.listBytes l).length + 2 := by
    intro t l
    have := derLen_le (Der.listBytes l).length
    simp only [Der.bytes, List.length_append, List.length_cons]; omega
  have a1 := Der.listBytes_le x
  have a2 := Der.listBytes_le y
  have b1 := n1 t [.node u (x ++ ([.node v [d]] ++ y))]
  have b2 := n1 u (x ++ ([.node v [d]] ++ y))
  have b3 := n1 v [d]
  have one : ∀ d : Der, Der.listBytes [d] = d.bytes := fun d => by simp only [Der.listBytes, List.append_nil]
  rw [one] at b1 b3
  rw [list_append, list_append, one, List.length_append, List.length_append] at b2
  omega

theorem dayTicket_small (K : Kdc) (a : Account) (hr : (utf8 K.realm).length < 2^10) (hn : (PrincipalName.der a.name).bytes.length < 2^10) :
    (EncTicketPart.der rfc (dayTicket K a)).bytes.length < 2^17 := by
  have e1 : EncTicketPart.der rfc (dayTicket K a) = .node 0x63 [.node 0x30 ((req 0 dFlags 0x40e10000 ++ (req 1 EncryptionKey.der ⟨18, List.replicate 32 5⟩ ++
    req 2 dString K.realm)) ++ ([.node 0xa3 [PrincipalName.der a.name]] ++ (req 4 TransitedEncoding.der ⟨1, []⟩ ++ (req 5 (dTime rfc) ⟨1700000000, 0⟩ ++
    (req 7 (dTime rfc) ⟨1700086400, 0⟩ ++ (req 8 (dTime rfc) ⟨1700600000, 0⟩ ++ []))))))] := rfl
  rw [e1]
  refine Nat.lt_of_le_of_lt (named_le _ _ _ _ _ _) ?_
  have h3 := derInt_le (18 : Int32).toInt
  have h4 := derInt_le (1 : Int32).toInt
  generalize (PrincipalName.der a.name).bytes.length = nl at hn
  simp only [Der.bound, Der.listBound, req, EncryptionKey.der, TransitedEncoding.der,
    List.cons_append, List.nil_append, List.append_nil, dTime_bound, dInt32, dOctets, dString, dFlags, List.length_cons, List.length_nil, be32,
    List.length_replicate]
  omega

theorem dayPart_small (K : Kdc) (nonce : UInt32) (hr : (utf8 K.realm).length < 2^10) :
    (EncAsRepPart.der rfc (dayPart K nonce)).bytes.length < 2^18 := by
  refine Nat.lt_of_le_of_lt (Der.bytes_le _) ?_
  have h1 := derInt_le (rfc.u32 nonce)
  have h2 : (utf8 "krbtgt".toList).length = 6 := by decide
  have h3 := derInt_le (18 : Int32).toInt
  have h6 := derInt_le (2 : Int32).toInt
  simp only [dayPart, Kdc.service, EncAsRepPart.der, Der.bound, Der.listBound, req, opt, dSeqOf, EncryptionKey.der,
    PrincipalName.der, List.map_cons, List.map_nil, List.cons_append, List.nil_append, List.append_nil, dTime_bound, dInt32,
    dUInt32, dOctets, dString, dFlags, List.length_cons, List.length_nil, be32, h2, List.length_replicate]
  omega

theorem dayRep_small (K : Kdc) (a : Account) (k : LongTermKey) (etype : Int32) (ct tt : Bytes) (hr : (utf8 K.realm).length < 2^10)
    (hs : (utf8 k.salt).length < 2^10) (hn : (PrincipalName.der a.name).bytes.length < 2^10) (hc : ct.length < 2^19) (ht : tt.length < 2^18) :
    (AsRep.der rfc (dayRep K a k etype ct tt)).bytes.length < 2^32 := by
  have hinfo : (dSeqOf EtypeInfo2Entry.der [⟨k.etype, some k.salt, none⟩]).bytes.length < 2^20 := by
    refine Nat.lt_of_le_of_lt (Der.bytes_le _) ?_
    have h1 := derInt_le k.etype.toInt
    simp only [EtypeInfo2Entry.der, Der.bound, Der.listBound, req, opt, dSeqOf, List.map_cons, List.map_nil, List.cons_append, List.nil_append,
      List.append_nil, dInt32, dString]
    omega
  unfold dayRep
  generalize (dSeqOf EtypeInfo2Entry.der [⟨k.etype, some k.salt, none⟩]).bytes = info at hinfo
  have e1 : (AsRep.der rfc ⟨5, 11, some [⟨19, info⟩], K.realm, a.name, ⟨5, K.realm, K.service, ⟨etype, none, tt⟩⟩, ⟨k.etype, none, ct⟩⟩) =
    .node 0x6b [.node 0x30 ((req 0 dInt32 5 ++ (req 1 dInt32 11 ++ (req 2 (dSeqOf PaData.der) [⟨19, info⟩] ++ req 3 dString K.realm))) ++
      ([.node 0xa4 [PrincipalName.der a.name]] ++ (req 5 (Ticket.der rfc) ⟨5, K.realm, K.service, ⟨etype, none, tt⟩⟩ ++
      req 6 (EncryptedData.der rfc) ⟨k.etype, none, ct⟩)))] := rfl
  rw [e1]
  refine Nat.lt_of_le_of_lt (named_le _ _ _ _ _ _) ?_
  have h1 := derInt_le k.etype.toInt
  have h2 := derInt_le (5 : Int32).toInt
  have h3 := derInt_le (11 : Int32).toInt
  have h4 := derInt_le (19 : Int32).toInt
  have h5 := derInt_le etype.toInt
  have h6 := derInt_le (2 : Int32).toInt
  have h7 : (utf8 "krbtgt".toList).length = 6 := by decide
  generalize (PrincipalName.der a.name).bytes.length = nl at hn
  simp only [Kdc.service, Ticket.der, EncryptedData.der, Der.bound, Der.listBound, req, opt, dSeqOf, PrincipalName.der, PaData.der, List.map_cons,
    List.map_nil, List.cons_append, List.nil_append, List.append_nil, dInt32, dOctets, dString, List.length_cons, List.length_nil, h7]
  omega

theorem encrypts_small {k : LongTermKey} (h : k.Ok) {u : Int32} (hu : u ≠ 9 ∧ u ≠ 23) (plain : Bytes) :
    ∃ ct, Encrypts k.etype k.key u plain ct ∧ ct.length ≤ plain.length + 28 := by
  obtain ⟨c, hc, hl, hko⟩ := ok_cipher h
  obtain ⟨ct, h1, -⟩ := c26_cipher_roundtrip stdPrims stdPrims_lawful c k.key hko u plain (List.replicate c.preambleSize 0) (by simp)
  have hsz := c27_encrypt_size stdPrims stdPrims_lawful c k.key hko u _ _ ct (by simp) h1
  have ho := overhead_le c
  exact ⟨ct, (encrypts_iff hc hl hu plain ct).2 ⟨_, by simp, h1⟩, by omega⟩

/-- C128. There are KDCs and networks as assumed: whatever the users (keys of a supported type and size, names that are theirs and not
absurdly long), the clock and the key of the ticket granting service, there is a network on which every message is answered as the
RFC demands and every reply carries a ticket with what it tells the client. -/
theorem c128_kdc_exists (K : Kdc) (hK : ∀ n a, K.account n = some a → a.name = n ∧ (∀ k ∈ a.keys, k.Ok ∧ (utf8 k.salt).length < 2^10) ∧
      (PrincipalName.der a.name).bytes.length < 2^10) (hr : (utf8 K.realm).length < 2^10) (clock : Nat → Int)
    (etype : Int32) (key : Bytes) (ht : (⟨etype, [], key⟩ : LongTermKey).Ok) :
    ∃ net : Net, (∀ sent : List Bytes, (∀ m ∈ sent, m.length < 2^32) → AnsweredBy K clock net sent) ∧
      ∀ sent n a r rep part k, K.account n = some a → Issues K a r rep part k → part.nonce.toNat < 2^31 →
        net sent = some (AsRep.der rfc rep).bytes → ∃ tpart, Grants ⟨K.realm, K.service.name_string, etype, key⟩ rep part tpart := by
  have one : ∀ (now : Int) (request : Bytes), ∃ answer, answer.length < 2^32 ∧ Answers K now request answer ∧
      ∀ n a r rep part k, K.account n = some a → Issues K a r rep part k → part.nonce.toNat < 2^31 →
        answer = (AsRep.der rfc rep).bytes → ∃ tpart, Grants ⟨K.realm, K.service.name_string, etype, key⟩ rep part tpart := by
    intro now request
    by_cases h : ∃ (r : AsReq) (n : PrincipalName) (a : Account) (k : LongTermKey), request = (AsReq.der rfc r).bytes ∧
        request.length < 2^32 ∧ r.req_body.cname = some n ∧ K.account n = some a ∧ Kdc.chosen r.req_body.etypes a = some k
    · obtain ⟨r, n, a, k, h1, h2, h3, h4, h5⟩ := h
      have key' := fun answer => answers_intro (K := K) (now := now) (r := r) (a := a) (answer := answer) (by rw [← h1]; exact h2) h3 h4
      rw [← h1] at key'
      obtain ⟨hname, hkeys, hlen⟩ := hK n a h4
      have hk := hkeys k (chosen_mem h5).1
      have hp := dayPart_small K r.req_body.nonce hr
      have hq := dayTicket_small K a hr hlen
      obtain ⟨ct, hct, hcl⟩ := encrypts_small hk.1 (u := 3) (by decide) (EncAsRepPart.der rfc (dayPart K r.req_body.nonce)).bytes
      obtain ⟨tt, htt, htl⟩ := encrypts_small ht (u := 2) (by decide) (EncTicketPart.der rfc (dayTicket K a)).bytes
      have htt : Encrypts etype key 2 _ tt := htt
      obtain ⟨g1, g2⟩ := day_reply h5 hct htt
      have hsz := dayRep_small K a k etype ct tt hr hk.2 hlen (by omega) (by omega)
      have hrep : IsReply K a r (AsRep.der rfc (dayRep K a k etype ct tt)).bytes := ⟨_, _, _, g1, rfl⟩
      have good : ∀ n' a' r' rep part k', K.account n' = some a' → Issues K a' r' rep part k' → part.nonce.toNat < 2^31 →
          (AsRep.der rfc (dayRep K a k etype ct tt)).bytes = (AsRep.der rfc rep).bytes →
          ∃ tpart, Grants ⟨K.realm, K.service.name_string, etype, key⟩ rep part tpart := by
        intro n' a' r' rep' part' k' i1 i2 i3 i4
        have e1 : dayRep K a k etype ct tt = rep' := built_eq (g := strictCfg) (T := .asRep) trivial trivial g1.kvno i2.kvno (Nat.lt_trans hsz (by decide)) i4
        have e2 : a' = a := by
          have e2 : a.name = a'.name := by
            have := i2.client.2
            rw [← e1] at this
            exact this
          rw [hname, (hK n' a' i1).1] at e2
          rw [← e2, h4] at i1
          injection i1 with i1
          exact i1.symm
        subst e2
        obtain ⟨e3, e4⟩ := issued_once g1 i2 i3 (Nat.lt_trans hsz (by decide)) (Nat.lt_trans hp (by decide)) i4
        subst e3 e4
        exact ⟨_, g2⟩
      by_cases ho : OffersTimestamp r
      · exact ⟨_, hsz, key' _ ⟨fun h => absurd ho h, fun _ => hrep⟩, good⟩
      · cases hpr : a.needsPreauth with
        | false => exact ⟨_, hsz, key' _ ⟨fun _ => by rw [hpr]; exact hrep, fun _ => hrep⟩, good⟩
        | true =>
          obtain ⟨err, herr, hsz'⟩ := preauthError_small
          refine ⟨err, hsz', key' err ⟨fun _ => by rw [hpr]; exact herr, ?_⟩, ?_⟩
          · rintro ⟨p, h1, h2, -⟩
            exact absurd ⟨p, h1, h2⟩ ho
          · intro _ _ _ rep _ _ _ _ _ e
            obtain ⟨er, -, -, he⟩ := herr
            rw [he] at e
            exact absurd (congrArg List.head? e) (by
              show (some (0x7e : UInt8)) ≠ some 0x6b
              decide)
    · refine ⟨[], by decide, fun r n a k g1 _ _ _ _ g3 g4 g5 g6 => absurd ⟨r, n, a, k, g1, g6, g3, g4, g5⟩ h, ?_⟩
      intro _ _ _ rep _ _ _ _ _ e
      exact absurd (congrArg List.head? e) (by
        show (none : Option UInt8) ≠ some 0x6b
        decide)
  refine ⟨fun sent => some (one (clock sent.length) (sent.getLastD [])).choose, fun sent hs => ?_, fun sent n a r rep part k h1 h2 h3 h4 => ?_⟩
  · intro pre m post h
    have h1 := (one (clock (pre ++ [m]).length) ((pre ++ [m]).getLastD [])).choose_spec
    refine ⟨hs m (by rw [h]; simp), _, rfl, h1.1, ?_⟩
    have e1 : (pre ++ [m]).getLastD [] = m := by simp
    have e2 : (pre ++ [m]).length = pre.length + 1 := by simp
    have h2 := h1.2.1
    generalize (one (clock (pre ++ [m]).length) ((pre ++ [m]).getLastD [])).choose = ans at h2
    rwa [e1, e2] at h2
  · injection h4 with h4
    exact (one (clock sent.length) (sent.getLastD [])).choose_spec.2.2 n a r rep part k h1 h2 h3 h4

end Verif.Kb
