import Verif.Props.Mappers
/-
Property theorems C16 to C20 (and the address part of C23): caches and KRB-CRED messages as wholes.
-/
set_option linter.unusedSimpArgs false
namespace Verif.Map
open Verif.Asn1

/-! ### Specification -/

/-- the wire time of an optional time: seconds modulo 2^32, 0 when absent -/
def CacheTime (t : Option DateTime) (n : UInt32) : Prop :=
  (t = none → n = 0) ∧ (∀ d, t = some d → (n.toNat : Int) = d.secs % 2^32)

/-- the cache form of a principal -/
def CachePrincipal (realm : Option (List Char)) (name : Option PrincipalName) (p : CC.Principal) : Prop :=
  ∃ r n, realm = some r ∧ name = some n ∧ p.name_type.toInt32 = n.name_type ∧ p.realm = utf8 r ∧
    p.components = n.name_string.map utf8

/-- the cache form of a host address; a NetBIOS name in UTF-8 loses its trailing white space -/
def CacheAddress (h : HostAddress) (a : CC.Address) : Prop :=
  (a.addrtype.toNat : Int) = h.addr_type.toInt % 65536 ∧
  (h.addr_type ≠ 20 → a.addrdata = h.address) ∧
  (∀ s, h.addr_type = 20 → h.address = utf8 s → a.addrdata = utf8 (trimEnd s))

/-- `c` is the credential made from this info and this ticket -/
structure CredentialOf (g : Cfg) (i : KrbCredInfo) (t : Ticket) (c : CC.Credential) : Prop where
  client : CachePrincipal i.prealm i.pname c.client
  server : CachePrincipal i.srealm i.sname c.server
  keytype : (c.key.keytype.toNat : Int) = i.key.keytype.toInt % 65536
  keyvalue : c.key.keyvalue = i.key.keyvalue
  etype : c.key.etype = 0
  authtime : CacheTime i.authtime c.time.authtime
  starttime : CacheTime i.starttime c.time.starttime
  endtime : CacheTime i.endtime c.time.endtime
  renew_till : CacheTime i.renew_till c.time.renew_till
  flags : i.flags = some c.tktflags
  addrs : List.Forall₂ CacheAddress (i.caddr.getD []) c.addrs
  ticket : c.ticket = MsgType.build g .ticket t
  is_skey : c.is_skey = 0
  authdata : c.authdata = []
  second_ticket : c.second_ticket = []

/-- the fields an info must have, in the order in which they are demanded, and whether they are there -/
def mandatory (i : KrbCredInfo) : List (String × Bool) :=
  [("prealm", i.prealm.isSome), ("pname", i.pname.isSome), ("srealm", i.srealm.isSome), ("sname", i.sname.isSome),
   ("flags", i.flags.isSome)]

/-- name of the first missing mandatory field of a list of infos -/
def firstMissing (infos : List KrbCredInfo) : Option String :=
  ((infos.flatMap mandatory).find? (fun f => !f.2)).map (·.1)

/-! ### Lemmas -/

theorem toCredential_ok {X g i t c} : toCredential X g i t = .ok c ↔
    ∃ pr pn sr sn fl, i.prealm = some pr ∧ i.pname = some pn ∧ i.srealm = some sr ∧ i.sname = some sn ∧
      i.flags = some fl ∧
      c = { client := toPrincipal pr pn, server := toPrincipal sr sn, key := toKeyBlock i.key,
            time := toTimes i.authtime i.starttime i.endtime i.renew_till, is_skey := 0, tktflags := fl,
            addrs := (i.caddr.getD []).map (toAddress X), authdata := [],
            ticket := MsgType.build g .ticket t, second_ticket := [] } := by
  obtain ⟨key, prealm, pname, flags, a, s, e, r, srealm, sname, caddr⟩ := i
  unfold toCredential
  cases prealm <;> cases pname <;> cases srealm <;> cases sname <;> cases flags <;>
    simp only [need, bind, Except.bind, pure, Except.pure, reduceCtorEq, false_iff, not_exists, not_and, false_and,
      exists_false, and_false, not_false_eq_true, Except.ok.injEq, Option.some.injEq, exists_and_left, exists_eq_left',
      implies_true, toTktFlags]
  case some.some.some.some.some pr pn sr sn fl =>
    cases caddr <;> simp only [Option.getD, List.map_nil, toAddresses, MsgType.build, MsgType.codec] <;>
      exact ⟨fun h => h.symm, fun h => h.symm⟩

theorem firstMissing_cons_none {i is} : firstMissing (i :: is) = none ↔ firstMissing [i] = none ∧ firstMissing is = none := by
  simp [firstMissing, List.find?_append]

theorem firstMissing_cons_some {i is n} (h : firstMissing [i] = some n) : firstMissing (i :: is) = some n := by
  simp only [firstMissing, List.flatMap_cons, List.flatMap_nil, List.append_nil, List.find?_append] at h ⊢
  cases hf : (mandatory i).find? (fun f => !f.2) with
  | none => rw [hf] at h; cases h
  | some x => rw [hf] at h; simpa using h

theorem firstMissing_cons_tail {i is} (h : firstMissing [i] = none) : firstMissing (i :: is) = firstMissing is := by
  simp only [firstMissing, List.flatMap_cons, List.flatMap_nil, List.append_nil, List.find?_append] at h ⊢
  cases hf : (mandatory i).find? (fun f => !f.2) with
  | none => simp
  | some x => rw [hf] at h; cases h

theorem toCredential_missing {X g i t n} (h : firstMissing [i] = some n) :
    toCredential X g i t = .error (.missingField n) := by
  obtain ⟨key, prealm, pname, flags, a, s, e, r, srealm, sname, caddr⟩ := i
  unfold toCredential
  revert h
  cases prealm <;> cases pname <;> cases srealm <;> cases sname <;> cases flags <;>
    simp [need, bind, Except.bind, firstMissing, mandatory]

theorem toCredential_complete {X g i t} (h : firstMissing [i] = none) : ∃ c, toCredential X g i t = .ok c := by
  obtain ⟨key, prealm, pname, flags, a, s, e, r, srealm, sname, caddr⟩ := i
  unfold toCredential
  revert h
  cases prealm <;> cases pname <;> cases srealm <;> cases sname <;> cases flags <;>
    simp [need, bind, Except.bind, pure, Except.pure, firstMissing, mandatory]

theorem toCredentials_ok {X g l cs} : toCredentials X g l = .ok cs ↔
    List.Forall₂ (fun it c => toCredential X g it.1 it.2 = .ok c) l cs := by
  induction l generalizing cs with
  | nil => cases cs <;> simp [toCredentials]
  | cons it l ih =>
    obtain ⟨i, t⟩ := it
    rw [toCredentials]
    cases hc : toCredential X g i t with
    | error e => cases cs <;> simp [bind, Except.bind, hc]
    | ok c =>
      cases hl : toCredentials X g l with
      | error e =>
        cases cs with
        | nil => simp [bind, Except.bind, hl]
        | cons c' cs =>
          simp only [bind, Except.bind, List.forall₂_cons, reduceCtorEq, false_iff, not_and]
          rw [← ih, hl]; simp
      | ok ds =>
        cases cs with
        | nil => simp [bind, Except.bind, pure, Except.pure]
        | cons c' cs =>
          simp only [bind, Except.bind, pure, Except.pure, List.forall₂_cons, ← ih, hc, hl, Except.ok.injEq,
            List.cons.injEq]

theorem toCredentials_missing {X g} (infos : List KrbCredInfo) (tickets : List Ticket) :
    (∀ n, firstMissing (infos.take tickets.length) = some n →
      toCredentials X g (infos.zip tickets) = .error (.missingField n)) ∧
    (firstMissing (infos.take tickets.length) = none → ∃ cs, toCredentials X g (infos.zip tickets) = .ok cs) := by
  induction infos generalizing tickets with
  | nil => simp [firstMissing, toCredentials]
  | cons i is ih =>
    cases tickets with
    | nil => simp [firstMissing, toCredentials]
    | cons t ts =>
      simp only [List.length_cons, List.take_succ_cons, List.zip_cons_cons, toCredentials]
      obtain ⟨ih1, ih2⟩ := ih ts
      cases hi : firstMissing [i] with
      | some m =>
        rw [firstMissing_cons_some hi, toCredential_missing hi]
        simp [bind, Except.bind]
      | none =>
        rw [firstMissing_cons_tail hi]
        obtain ⟨c, hc⟩ := toCredential_complete (X := X) (g := g) (t := t) hi
        rw [hc]
        constructor
        · intro n hn; rw [ih1 n hn]; rfl
        · intro hn
          obtain ⟨cs, hcs⟩ := ih2 hn
          exact ⟨c :: cs, by rw [hcs]; rfl⟩

theorem cachePrincipal_to (r : List Char) (n : PrincipalName) : CachePrincipal (some r) (some n) (toPrincipal r n) :=
  ⟨r, n, rfl, rfl, by simp [toPrincipal], rfl, rfl⟩

theorem cacheTime_to (t : Option DateTime) : CacheTime t (toTime t) := by
  refine ⟨fun h => by subst h; rfl, fun d h => by subst h; exact timestampU32_toNat d⟩

theorem cacheAddress_to (X : Ext) (h : HostAddress) : CacheAddress h (toAddress X h) := by
  refine ⟨i32AsU16_toNat _, ?_, ?_⟩
  · intro hn
    show (if h.addr_type = netbios then utf8 (trimEnd (X.lossy h.address)) else h.address) = _
    rw [show netbios = 20 from rfl, if_neg hn]
  · intro s ht hs
    show (if h.addr_type = netbios then utf8 (trimEnd (X.lossy h.address)) else h.address) = _
    rw [show netbios = 20 from rfl, if_pos ht, hs, X.lossy_utf8]

theorem credentialOf_to {X g i t c} (h : toCredential X g i t = .ok c) : CredentialOf g i t c := by
  obtain ⟨pr, pn, sr, sn, fl, h1, h2, h3, h4, h5, rfl⟩ := toCredential_ok.1 h
  refine ⟨?_, ?_, i32AsU16_toNat _, rfl, rfl, cacheTime_to _, cacheTime_to _, cacheTime_to _, cacheTime_to _, h5, ?_,
    rfl, rfl, rfl, rfl⟩
  · rw [h1, h2]; exact cachePrincipal_to _ _
  · rw [h3, h4]; exact cachePrincipal_to _ _
  · rw [List.forall₂_map_right_iff]
    exact List.forall₂_same.2 (fun a _ => cacheAddress_to X a)

/-- what `krbCredToCcache` does once the inner part is read -/
theorem krbCredToCcache_body {X g} {k : KrbCred} {p rest} (he : k.enc_part.etype = 0)
    (hp : MsgType.parse g .encKrbCredPart k.enc_part.cipher = .ok (p, rest)) :
    krbCredToCcache X g k =
      (match k.tickets, p.ticket_info with
      | [], _ => .error (.krbCred "No credentials contained")
      | _, [] => .error (.krbCred "No credentials contained")
      | tickets, info0 :: infos => do
        let realm ← need "prealm" info0.prealm
        let name ← need "pname" info0.pname
        let credentials ← toCredentials X g ((info0 :: infos).zip tickets)
        return CC.CCache.new CC.Header.dflt (toPrincipal realm name) credentials) := by
  have hp' : (encKrbCredPartC g).dec g k.enc_part.cipher = .ok (p, rest) := hp
  unfold krbCredToCcache
  rw [if_neg (by rw [he]; decide), hp']
  rfl

/-- the inner part, when the message converts -/
theorem krbCredToCcache_inv {X g} {k : KrbCred} {c} (h : krbCredToCcache X g k = .ok c) :
    k.enc_part.etype = 0 ∧ ∃ p rest, MsgType.parse g .encKrbCredPart k.enc_part.cipher = .ok (p, rest) ∧
      ∃ i is t ts r n cs, p.ticket_info = i :: is ∧ k.tickets = t :: ts ∧ i.prealm = some r ∧ i.pname = some n ∧
        toCredentials X g ((i :: is).zip (t :: ts)) = .ok cs ∧
        c = CC.CCache.new CC.Header.dflt (toPrincipal r n) cs := by
  have he : k.enc_part.etype = 0 := by
    apply Classical.byContradiction
    intro hn
    unfold krbCredToCcache at h
    rw [if_pos (by simpa [noEncryption] using hn)] at h
    cases h
  refine ⟨he, ?_⟩
  cases hp : MsgType.parse g .encKrbCredPart k.enc_part.cipher with
  | error e =>
    have hp' : (encKrbCredPartC g).dec g k.enc_part.cipher = .error e := hp
    unfold krbCredToCcache at h
    rw [if_neg (by rw [he]; decide), hp'] at h
    cases e <;> cases h
  | ok v =>
    obtain ⟨p, rest⟩ := v
    refine ⟨p, rest, rfl, ?_⟩
    rw [krbCredToCcache_body he hp] at h
    cases ht : k.tickets with
    | nil => rw [ht] at h; cases p.ticket_info <;> cases h
    | cons t ts =>
      cases hi : p.ticket_info with
      | nil => rw [ht, hi] at h; cases h
      | cons i is =>
        rw [ht, hi] at h
        cases h1 : i.prealm with
        | none => simp [h1, need, bind, Except.bind] at h
        | some r =>
          cases h2 : i.pname with
          | none => simp [h1, h2, need, bind, Except.bind] at h
          | some n =>
            simp only [h1, h2, need, bind, Except.bind] at h
            cases h3 : toCredentials X g ((i :: is).zip (t :: ts)) with
            | error e => rw [h3] at h; cases h
            | ok cs =>
              rw [h3] at h
              simp only [pure, Except.pure, Except.ok.injEq] at h
              exact ⟨i, is, t, ts, r, n, cs, rfl, rfl, h1, h2, h3, h.symm⟩

/-! ### C18: what is refused -/

/-- C18. An encrypted message is refused, whatever else is in it. -/
theorem c18_encrypted (X : Ext) (g : Cfg) (k : KrbCred) (h : k.enc_part.etype ≠ 0) :
    krbCredToCcache X g k = .error (.krbCred "User part is encrypted") := by
  unfold krbCredToCcache
  rw [if_pos (by simpa [noEncryption] using h)]

/-- C18. An unencrypted message whose inner part cannot be read is refused with the ASN.1 error. -/
theorem c18_unreadable (X : Ext) (g : Cfg) (hg : g.Total) (k : KrbCred) (h : k.enc_part.etype = 0)
    (hp : ∀ v, MsgType.parse g .encKrbCredPart k.enc_part.cipher ≠ .ok v) :
    krbCredToCcache X g k = .error .asn1 := by
  unfold krbCredToCcache
  rw [if_neg (by rw [h]; decide)]
  have hnp := (encKrbCredPartC_lawful g).noPanic hg k.enc_part.cipher
  cases hd : (encKrbCredPartC g).dec g k.enc_part.cipher with
  | ok v => exact absurd hd (hp v)
  | error e =>
    cases e with
    | panic => exact absurd hd hnp
    | _ => rfl

/-- C18. No ticket or no info. -/
theorem c18_empty (X : Ext) (g : Cfg) (k : KrbCred) (p : EncKrbCredPart) (rest : Bytes) (he : k.enc_part.etype = 0)
    (hp : MsgType.parse g .encKrbCredPart k.enc_part.cipher = .ok (p, rest))
    (h : k.tickets = [] ∨ p.ticket_info = []) :
    krbCredToCcache X g k = .error (.krbCred "No credentials contained") := by
  rw [krbCredToCcache_body he hp]
  rcases h with h | h
  · rw [h]
  · rw [h]; cases k.tickets <;> rfl

/-- C18. The first missing mandatory field of the infos that are converted is named, and if there is none the conversion
succeeds. -/
theorem c18_missing (X : Ext) (g : Cfg) (k : KrbCred) (p : EncKrbCredPart) (rest : Bytes) (he : k.enc_part.etype = 0)
    (hp : MsgType.parse g .encKrbCredPart k.enc_part.cipher = .ok (p, rest))
    (ht : k.tickets ≠ []) (hi : p.ticket_info ≠ []) :
    (∀ name, firstMissing (p.ticket_info.take k.tickets.length) = some name →
      krbCredToCcache X g k = .error (.missingField name)) ∧
    (firstMissing (p.ticket_info.take k.tickets.length) = none → ∃ c, krbCredToCcache X g k = .ok c) := by
  rw [krbCredToCcache_body he hp]
  cases hts : k.tickets with
  | nil => exact absurd hts ht
  | cons t ts =>
    cases his : p.ticket_info with
    | nil => exact absurd his hi
    | cons i is =>
      obtain ⟨h1, h2⟩ := toCredentials_missing (X := X) (g := g) (i :: is) (t :: ts)
      simp only [List.length_cons, List.take_succ_cons] at h1 h2 ⊢
      cases hr : i.prealm with
      | none =>
        have : firstMissing [i] = some "prealm" := by simp [firstMissing, mandatory, hr]
        rw [firstMissing_cons_some this]
        simp [need, bind, Except.bind]
      | some r =>
        cases hn : i.pname with
        | none =>
          have : firstMissing [i] = some "pname" := by simp [firstMissing, mandatory, hr, hn]
          rw [firstMissing_cons_some this]
          simp [need, bind, Except.bind]
        | some n =>
          simp only [need, bind, Except.bind]
          constructor
          · intro name hm; rw [h1 name hm]
          · intro hm
            obtain ⟨cs, hcs⟩ := h2 hm
            exact ⟨_, by rw [hcs]; rfl⟩

/-- C18. All together: a message converts exactly when it is unencrypted, its inner part can be read, it has a ticket and
an info, and every info that has a ticket has all five mandatory fields. -/
theorem c18_converts_iff (X : Ext) (g : Cfg) (k : KrbCred) :
    (∃ c, krbCredToCcache X g k = .ok c) ↔
      k.enc_part.etype = 0 ∧ ∃ p rest, MsgType.parse g .encKrbCredPart k.enc_part.cipher = .ok (p, rest) ∧
        k.tickets ≠ [] ∧ p.ticket_info ≠ [] ∧
        ∀ i ∈ p.ticket_info.take k.tickets.length,
          i.prealm.isSome ∧ i.pname.isSome ∧ i.srealm.isSome ∧ i.sname.isSome ∧ i.flags.isSome := by
  have key : ∀ l : List KrbCredInfo, firstMissing l = none ↔
      ∀ i ∈ l, i.prealm.isSome ∧ i.pname.isSome ∧ i.srealm.isSome ∧ i.sname.isSome ∧ i.flags.isSome := by
    intro l
    simp [firstMissing, mandatory]
  constructor
  · rintro ⟨c, h⟩
    obtain ⟨he, p, rest, hp, i, is, t, ts, r, n, cs, h1, h2, -⟩ := krbCredToCcache_inv h
    refine ⟨he, p, rest, hp, by simp [h2], by simp [h1], ?_⟩
    rw [← key]
    cases hm : firstMissing (p.ticket_info.take k.tickets.length) with
    | none => rfl
    | some name =>
      rw [(c18_missing X g k p rest he hp (by simp [h2]) (by simp [h1])).1 name hm] at h
      cases h
  · rintro ⟨he, p, rest, hp, h1, h2, h3⟩
    exact (c18_missing X g k p rest he hp h1 h2).2 ((key _).2 h3)

/-! ### C19, C20: pairing and primary principal -/

/-- C19. The i-th credential is made from the i-th info and the i-th ticket, and from nothing else; there are as many as
the shorter of the two lists. -/
theorem c19_pairing (X : Ext) (g : Cfg) (k : KrbCred) (c : CC.CCache) (h : krbCredToCcache X g k = .ok c) :
    ∃ p rest, MsgType.parse g .encKrbCredPart k.enc_part.cipher = .ok (p, rest) ∧
      c.credentials.length = min k.tickets.length p.ticket_info.length ∧
      List.Forall₂ (fun it d => CredentialOf g it.1 it.2 d) (p.ticket_info.zip k.tickets) c.credentials := by
  obtain ⟨-, p, rest, hp, i, is, t, ts, r, n, cs, h1, h2, -, -, h5, rfl⟩ := krbCredToCcache_inv h
  refine ⟨p, rest, hp, ?_⟩
  rw [h1, h2]
  have hf := toCredentials_ok.1 h5
  constructor
  · show cs.length = _
    rw [← hf.length_eq, List.length_zip, Nat.min_comm]
  · exact hf.imp (fun it d hd => credentialOf_to hd)

/-- C20. The primary principal is the realm and name of the first info, and the client of the first credential. The
version is 0x0504 and the header the default one. -/
theorem c20_primary (X : Ext) (g : Cfg) (k : KrbCred) (c : CC.CCache) (h : krbCredToCcache X g k = .ok c) :
    (∃ p rest i, MsgType.parse g .encKrbCredPart k.enc_part.cipher = .ok (p, rest) ∧ p.ticket_info.head? = some i ∧
      CachePrincipal i.prealm i.pname c.primary_principal) ∧
    (c.credentials.head?).map (·.client) = some c.primary_principal ∧
    c.file_format_version = 0x0504 ∧ c.header = ⟨1, [0xff, 0xff, 0xff, 0xff, 0, 0, 0, 0]⟩ := by
  obtain ⟨-, p, rest, hp, i, is, t, ts, r, n, cs, h1, h2, h3, h4, h5, rfl⟩ := krbCredToCcache_inv h
  refine ⟨⟨p, rest, i, hp, by rw [h1]; rfl, ?_⟩, ?_, rfl, by
    show CC.Header.dflt = _; decide +kernel⟩
  · rw [h3, h4]; exact cachePrincipal_to r n
  · show (cs.head?).map (·.client) = some (toPrincipal r n)
    rw [List.zip_cons_cons] at h5
    cases cs with
    | nil => exact absurd (toCredentials_ok.1 h5) (by simp)
    | cons d ds =>
      have hd := (List.forall₂_cons.1 (toCredentials_ok.1 h5)).1
      obtain ⟨pr, pn, sr, sn, fl, e1, e2, -, -, -, rfl⟩ := toCredential_ok.1 hd
      simp only at e1 e2
      rw [h3] at e1; rw [h4] at e2
      cases e1; cases e2
      rfl

/-! ### From a cache to a message -/

/-- the message form of a cache time: absent when 0 -/
def MessageTime (n : UInt32) (t : Option DateTime) : Prop :=
  (n = 0 → t = none) ∧ (n ≠ 0 → t = some ⟨n.toNat, 0⟩)

/-- every NetBIOS address of the list is UTF-8 -/
def NetbiosReadable (l : List CC.Address) : Prop := ∀ a ∈ l, a.addrtype = 20 → IsUtf8 a.addrdata

/-- the message form of a cache address: NetBIOS names are padded -/
def MessageAddress (a : CC.Address) (h : HostAddress) : Prop :=
  h.addr_type.toInt = a.addrtype.toNat ∧
  (a.addrtype ≠ 20 → h.address = a.addrdata) ∧
  (∀ s, a.addrtype = 20 → a.addrdata = utf8 s → h.address = utf8 (paddNetbiosString s))

/-- `i` and `t` are the info and the ticket made from this credential -/
structure InfoOf (g : Cfg) (c : CC.Credential) (i : KrbCredInfo) (t : Ticket) : Prop where
  client : CachePrincipal i.prealm i.pname c.client
  server : CachePrincipal i.srealm i.sname c.server
  keytype : i.key.keytype.toInt = c.key.keytype.toNat
  keyvalue : i.key.keyvalue = c.key.keyvalue
  authtime : MessageTime c.time.authtime i.authtime
  starttime : MessageTime c.time.starttime i.starttime
  endtime : MessageTime c.time.endtime i.endtime
  renew_till : MessageTime c.time.renew_till i.renew_till
  flags : i.flags = some c.tktflags
  addrs : c.addrs ≠ [] → NetbiosReadable c.addrs → ∃ l, i.caddr = some l ∧ List.Forall₂ MessageAddress c.addrs l
  no_addrs : c.addrs = [] ∨ ¬ NetbiosReadable c.addrs → i.caddr = none
  ticket : ∃ rest, MsgType.parse g .ticket c.ticket = .ok (t, rest)

/-- the principal has a Kerberos form: UTF-8 strings and at least one component -/
def ReadablePrincipal (p : CC.Principal) : Prop :=
  p.components ≠ [] ∧ IsUtf8 p.realm ∧ ∀ c ∈ p.components, IsUtf8 c

/-- what is left of a credential that went to a message and back -/
structure Kept (g : Cfg) (c c' : CC.Credential) : Prop where
  client : c'.client = c.client
  server : c'.server = c.server
  key : c'.key = { c.key with etype := 0 }
  time : c'.time = c.time
  tktflags : c'.tktflags = c.tktflags
  is_skey : c'.is_skey = 0
  authdata : c'.authdata = []
  second_ticket : c'.second_ticket = []
  ticket : ∃ t rest, MsgType.parse g .ticket c.ticket = .ok (t, rest) ∧ c'.ticket = MsgType.build g .ticket t
  addrs : NetbiosReadable c.addrs → List.Forall₂ (fun a a' => a'.addrtype = a.addrtype ∧
    (a.addrtype ≠ 20 → a' = a) ∧ (∀ s, a.addrtype = 20 → a.addrdata = utf8 s → a'.addrdata = utf8 (trimEnd s)))
    c.addrs c'.addrs
  bad_addrs : ¬ NetbiosReadable c.addrs → c'.addrs = []

theorem readable_iff {p} : ReadablePrincipal p ↔ ∃ r n, fromPrincipal p = .ok (r, n) := by
  constructor
  · rintro ⟨h1, h2, h3⟩
    cases h : fromPrincipal p with
    | ok v => exact ⟨v.1, v.2, rfl⟩
    | error e =>
      rcases (c24_fails_iff p).1 ⟨e, h⟩ with h0 | h0 | ⟨c, hc, h0⟩
      · exact absurd h0 h1
      · exact absurd h2 h0
      · exact absurd (h3 c hc) h0
  · rintro ⟨r, n, h⟩
    have hn : ¬ (∃ e, fromPrincipal p = .error e) := by rintro ⟨e, he⟩; rw [h] at he; cases he
    rw [c24_fails_iff] at hn
    simp only [not_or, not_exists, not_and, Classical.not_not] at hn
    exact hn

theorem fromAddress_spec (a : CC.Address) :
    ((a.addrtype = 20 → IsUtf8 a.addrdata) → ∃ h, fromAddress a = .ok h ∧ MessageAddress a h ∧
      ∀ X, (toAddress X h).addrtype = a.addrtype ∧ (a.addrtype ≠ 20 → toAddress X h = a) ∧
        ∀ s, a.addrtype = 20 → a.addrdata = utf8 s → (toAddress X h).addrdata = utf8 (trimEnd s)) ∧
    (¬ (a.addrtype = 20 → IsUtf8 a.addrdata) → fromAddress a = .error .fromUtf8) := by
  obtain ⟨ty, d⟩ := a
  dsimp only
  by_cases ht : ty = 20
  · subst ht
    constructor
    · intro h
      obtain ⟨s, rfl⟩ := h rfl
      refine ⟨⟨20, utf8 (paddNetbiosString s)⟩, ?_, ⟨by show (20 : Int32).toInt = ((20 : UInt16).toNat : Int); decide, fun h => absurd rfl h, ?_⟩, ?_⟩
      · unfold fromAddress
        simp only [netbios_bits.1, if_true, cosToString_utf8]; rfl
      · intro s' _ he
        rw [utf8_inj he]
      · intro X
        rw [(c22_netbios_conversion X _).1, (c22_trim_undoes s).1]
        refine ⟨rfl, fun h => absurd rfl h, ?_⟩
        intro s' _ he; rw [utf8_inj he]
    · intro h
      have h' : ¬ IsUtf8 d := fun hu => h (fun _ => hu)
      unfold fromAddress
      simp only [netbios_bits.1, if_true, cosToString_err h']; rfl
  · have hne : u16AsI32 ty ≠ netbios := fun e => ht (u16AsI32_netbios.1 e)
    constructor
    · intro _
      refine ⟨⟨u16AsI32 ty, d⟩, ?_, ⟨u16AsI32_toInt _, fun _ => rfl, fun s e => absurd e ht⟩, ?_⟩
      · unfold fromAddress; simp only [if_neg hne]
      · intro X
        have : toAddress X ⟨u16AsI32 ty, d⟩ = ⟨ty, d⟩ := by
          unfold toAddress; simp only [if_neg hne, i32AsU16_u16AsI32]
        rw [this]
        exact ⟨rfl, fun _ => rfl, fun s e => absurd e ht⟩
    · intro h; exact absurd (fun e => absurd e ht) h

theorem fromAddressLoop_spec (l : List CC.Address) :
    (NetbiosReadable l → ∃ hs, fromAddressLoop l = .ok hs ∧ List.Forall₂ MessageAddress l hs ∧
      ∀ X, List.Forall₂ (fun a a' => a'.addrtype = a.addrtype ∧ (a.addrtype ≠ 20 → a' = a) ∧
        (∀ s, a.addrtype = 20 → a.addrdata = utf8 s → a'.addrdata = utf8 (trimEnd s))) l (hs.map (toAddress X))) ∧
    (¬ NetbiosReadable l → fromAddressLoop l = .error .fromUtf8) := by
  induction l with
  | nil => exact ⟨fun _ => ⟨[], rfl, .nil, fun _ => .nil⟩, fun h => absurd (by intro a ha; simp at ha) h⟩
  | cons a l ih =>
    obtain ⟨h1, h2⟩ := fromAddress_spec a
    rw [fromAddressLoop]
    by_cases ha : a.addrtype = 20 → IsUtf8 a.addrdata
    · obtain ⟨h, hh, hm, hx⟩ := h1 ha
      rw [hh]
      by_cases hl : NetbiosReadable l
      · obtain ⟨hs, e1, e2, e3⟩ := ih.1 hl
        rw [e1]
        refine ⟨fun _ => ⟨h :: hs, rfl, .cons hm e2, fun X => .cons (hx X) (e3 X)⟩, fun hn => ?_⟩
        exfalso; apply hn
        intro b hb
        rcases List.mem_cons.1 hb with rfl | hb
        · exact ha
        · exact hl b hb
      · rw [ih.2 hl]
        exact ⟨fun hn => absurd (fun b hb => hn b (List.mem_cons_of_mem _ hb)) hl, fun _ => rfl⟩
    · rw [h2 ha]
      exact ⟨fun hn => absurd (hn a (List.mem_cons_self ..)) ha, fun _ => rfl⟩

theorem fromAddresses_cons (a l) : fromAddresses (a :: l) = fromAddressLoop (a :: l) := rfl

theorem messageTime_from (n : UInt32) : MessageTime n (fromTime n) := by
  unfold fromTime
  exact ⟨fun h => by rw [if_pos h], fun h => by rw [if_neg h]⟩

/-- the info and ticket of a credential, and the credential made from them again -/
theorem fromCredential_spec {g c i t} (h : fromCredential g c = .ok (i, t)) :
    InfoOf g c i t ∧ KrbCredInfo.WF i ∧
    ∀ X, ∃ c', toCredential X g i t = .ok c' ∧ Kept g c c' := by
  obtain ⟨client, server, key, time, is_skey, tktflags, addrs, authdata, ticket, second⟩ := c
  unfold fromCredential at h
  simp only [bind, Except.bind] at h
  cases h1 : fromPrincipal client with
  | error e => rw [h1] at h; cases h
  | ok v =>
  obtain ⟨cr, cn⟩ := v
  rw [h1] at h
  cases h2 : fromPrincipal server with
  | error e => rw [h2] at h; cases h
  | ok v =>
  obtain ⟨sr, sn⟩ := v
  rw [h2] at h
  cases h3 : (ticketC g).dec g ticket with
  | error e => rw [h3] at h; cases e <;> cases h
  | ok v =>
  obtain ⟨t', rest⟩ := v
  rw [h3] at h
  simp only [ofParse, pure, Except.pure, Except.ok.injEq, Prod.mk.injEq, fromTimes, fromTktFlags] at h
  obtain ⟨rfl, rfl⟩ := h
  obtain ⟨rfl, hcn⟩ := fromPrincipal_ok.1 h1
  obtain ⟨rfl, hsn⟩ := fromPrincipal_ok.1 h2
  have hspec := fromAddressLoop_spec addrs
  refine ⟨⟨cachePrincipal_to _ _, cachePrincipal_to _ _, u16AsI32_toInt _, rfl, messageTime_from _, messageTime_from _,
    messageTime_from _, messageTime_from _, rfl, ?_, ?_, ⟨rest, h3⟩⟩, ⟨fromTime_ok _, fromTime_ok _, fromTime_ok _, fromTime_ok _⟩, ?_⟩
  · intro hne hr
    dsimp only at hne hr ⊢
    obtain ⟨hs, e1, e2, -⟩ := hspec.1 hr
    cases addrs with
    | nil => exact absurd rfl hne
    | cons a l => rw [fromAddresses_cons, e1]; exact ⟨hs, rfl, e2⟩
  · intro hor
    dsimp only at hor ⊢
    rcases hor with rfl | hn
    · rfl
    · cases addrs with
      | nil => rfl
      | cons a l => rw [fromAddresses_cons, hspec.2 hn]; rfl
  · intro X
    refine ⟨_, toCredential_ok.2 ⟨cr, cn, sr, sn, tktflags, rfl, rfl, rfl, rfl, rfl, rfl⟩, ?_⟩
    refine ⟨rfl, rfl, ?_, ?_, rfl, rfl, rfl, rfl, ⟨t', rest, h3, rfl⟩, ?_, ?_⟩
    · exact (c23_from_cache key ⟨0, []⟩).1
    · exact (c21_absent_and_cache 0 time).2.2
    · intro hr
      dsimp only at hr ⊢
      obtain ⟨hs, e1, -, e3⟩ := hspec.1 hr
      cases addrs with
      | nil => exact .nil
      | cons a l => rw [fromAddresses_cons, e1]; exact e3 X
    · intro hn
      dsimp only at hn ⊢
      cases addrs with
      | nil => rfl
      | cons a l => rw [fromAddresses_cons, hspec.2 hn]; rfl

theorem fromCredential_converts {g c} : (∃ v, fromCredential g c = .ok v) ↔
    ReadablePrincipal c.client ∧ ReadablePrincipal c.server ∧ ∃ t rest, MsgType.parse g .ticket c.ticket = .ok (t, rest) := by
  rw [readable_iff, readable_iff]
  unfold fromCredential
  simp only [bind, Except.bind]
  show _ ↔ _ ∧ _ ∧ ∃ t rest, (ticketC g).dec g c.ticket = .ok (t, rest)
  cases h1 : fromPrincipal c.client with
  | error e => simp
  | ok v =>
    cases h2 : fromPrincipal c.server with
    | error e => simp
    | ok w =>
      cases h3 : (ticketC g).dec g c.ticket with
      | error e => cases e <;> simp [ofParse]
      | ok u =>
        obtain ⟨v1, v2⟩ := v; obtain ⟨w1, w2⟩ := w; obtain ⟨u1, u2⟩ := u
        simp [ofParse, pure, Except.pure]

theorem fromCredentials_ok {g cs is ts} (h : fromCredentials g cs = .ok (is, ts)) :
    is.length = cs.length ∧ ts.length = cs.length ∧
    List.Forall₂ (fun c it => fromCredential g c = .ok it) cs (is.zip ts) := by
  induction cs generalizing is ts with
  | nil => simp only [fromCredentials, Except.ok.injEq, Prod.mk.injEq] at h; obtain ⟨rfl, rfl⟩ := h; simp
  | cons c cs ih =>
    rw [fromCredentials] at h
    cases h1 : fromCredential g c with
    | error e => rw [h1] at h; cases h
    | ok v =>
      rw [h1] at h
      cases h2 : fromCredentials g cs with
      | error e => rw [h2] at h; cases h
      | ok w =>
        rw [h2] at h
        simp only [bind, Except.bind, pure, Except.pure, Except.ok.injEq, Prod.mk.injEq] at h
        obtain ⟨rfl, rfl⟩ := h
        obtain ⟨e1, e2, e3⟩ := ih h2
        exact ⟨by simp [e1], by simp [e2], by simpa [h1] using e3⟩

theorem fromCredentials_converts {g cs} : (∃ v, fromCredentials g cs = .ok v) ↔ ∀ c ∈ cs, ∃ v, fromCredential g c = .ok v := by
  induction cs with
  | nil => simp [fromCredentials]
  | cons c cs ih =>
    rw [fromCredentials]
    cases h1 : fromCredential g c with
    | error e => simp [bind, Except.bind, h1]
    | ok v =>
      simp only [List.mem_cons, forall_eq_or_imp, h1, Except.ok.injEq, exists_eq', true_and, ← ih]
      cases h2 : fromCredentials g cs with
      | error e => simp [bind, Except.bind]
      | ok w => simp [bind, Except.bind, pure, Except.pure]

theorem ccacheToKrbCred_ok {g c k} : ccacheToKrbCred g c = .ok k ↔
    ∃ is ts, fromCredentials g c.credentials = .ok (is, ts) ∧
      k = ⟨5, 22, ts, ⟨0, none, MsgType.build g .encKrbCredPart ⟨is, none, none, none, none, none⟩⟩⟩ := by
  unfold ccacheToKrbCred
  cases h : fromCredentials g c.credentials with
  | error e => simp [bind, Except.bind]
  | ok v =>
    obtain ⟨is, ts⟩ := v
    simp only [bind, Except.bind, pure, Except.pure, Except.ok.injEq, Prod.mk.injEq]
    constructor
    · intro e; exact ⟨is, ts, ⟨rfl, rfl⟩, e.symm⟩
    · rintro ⟨_, _, ⟨rfl, rfl⟩, e⟩; exact e.symm

/-- C19. The opposite conversion: one ticket and one info per credential, in order, each made from its own credential;
the message is unencrypted and has nothing else in its inner part. -/
theorem c19_pairing_back (g : Cfg) (c : CC.CCache) (k : KrbCred) (h : ccacheToKrbCred g c = .ok k) :
    k.pvno = 5 ∧ k.msg_type = 22 ∧ k.enc_part.etype = 0 ∧ k.enc_part.kvno = none ∧
    ∃ infos, k.enc_part.cipher = MsgType.build g .encKrbCredPart ⟨infos, none, none, none, none, none⟩ ∧
      infos.length = c.credentials.length ∧ k.tickets.length = c.credentials.length ∧
      List.Forall₂ (fun d it => InfoOf g d it.1 it.2) c.credentials (infos.zip k.tickets) := by
  obtain ⟨is, ts, h1, rfl⟩ := ccacheToKrbCred_ok.1 h
  obtain ⟨e1, e2, e3⟩ := fromCredentials_ok h1
  exact ⟨rfl, rfl, rfl, rfl, is, rfl, e1, e2, e3.imp (fun _ _ hd => (fromCredential_spec hd).1)⟩

/-! ### C17: cache to message to cache -/

/-- C17. A cache converts to a message exactly when in each credential both principals have UTF-8 strings and a
component, and the ticket parses. -/
theorem c17_converts_iff (g : Cfg) (c : CC.CCache) :
    (∃ k, ccacheToKrbCred g c = .ok k) ↔
      ∀ d ∈ c.credentials, ReadablePrincipal d.client ∧ ReadablePrincipal d.server ∧
        ∃ t rest, MsgType.parse g .ticket d.ticket = .ok (t, rest) := by
  have : (∃ k, ccacheToKrbCred g c = .ok k) ↔ ∃ v, fromCredentials g c.credentials = .ok v := by
    constructor
    · rintro ⟨k, hk⟩
      obtain ⟨is, ts, h1, -⟩ := ccacheToKrbCred_ok.1 hk
      exact ⟨_, h1⟩
    · rintro ⟨⟨is, ts⟩, h1⟩
      exact ⟨_, ccacheToKrbCred_ok.2 ⟨is, ts, h1, rfl⟩⟩
  rw [this, fromCredentials_converts]
  exact forall_congr' fun d => forall_congr' fun _ => fromCredential_converts

/-- C17. Cache to message to cache: always succeeds when there is a credential, and the result differs from the
original at most as `Kept` says; the header becomes the default one and the primary principal the client of the
first credential. -/
theorem c17_roundtrip (X : Ext) (g : Cfg) (c : CC.CCache) (k : KrbCred) (h : ccacheToKrbCred g c = .ok k)
    (hne : c.credentials ≠ []) (hs : k.enc_part.cipher.length < 2^64) :
    ∃ c', krbCredToCcache X g k = .ok c' ∧ List.Forall₂ (Kept g) c.credentials c'.credentials ∧
      c'.header = ⟨1, [0xff, 0xff, 0xff, 0xff, 0, 0, 0, 0]⟩ ∧ c'.file_format_version = 0x0504 ∧
      (c.credentials.head?).map (·.client) = some c'.primary_principal := by
  obtain ⟨is, ts, h1, rfl⟩ := ccacheToKrbCred_ok.1 h
  obtain ⟨e1, e2, e3⟩ := fromCredentials_ok h1
  have hw : EncKrbCredPart.WF ⟨is, none, none, none, none, none⟩ := by
    refine ⟨?_, nofun⟩
    intro i hi
    obtain ⟨n, hn, rfl⟩ := List.getElem_of_mem hi
    dsimp only at hn
    have hz := (List.forall₂_iff_get.1 e3).2 n (by omega) (by rw [List.length_zip]; omega)
    simp only [List.get_eq_getElem, List.getElem_zip] at hz
    exact (fromCredential_spec hz).2.1
  have hp := c39_roundtrip g .encKrbCredPart _ hw hs []
  rw [List.append_nil] at hp
  have hcs : ∃ cs', toCredentials X g (is.zip ts) = .ok cs' ∧ List.Forall₂ (Kept g) c.credentials cs' := by
    have key : ∀ (cs : List CC.Credential) (its : List (KrbCredInfo × Ticket)),
        List.Forall₂ (fun c it => fromCredential g c = .ok it) cs its →
        ∃ cs', toCredentials X g its = .ok cs' ∧ List.Forall₂ (Kept g) cs cs' := by
      intro cs its hf
      induction hf with
      | nil => exact ⟨[], rfl, .nil⟩
      | @cons c it cs its hd _ ih =>
        obtain ⟨i, t⟩ := it
        obtain ⟨c', a1, a2⟩ := (fromCredential_spec hd).2.2 X
        obtain ⟨cs', b1, b2⟩ := ih
        exact ⟨c' :: cs', by rw [toCredentials, a1, b1]; rfl, .cons a2 b2⟩
    exact key _ _ e3
  obtain ⟨cs', hcs', hk⟩ := hcs
  have hl : c.credentials.length ≠ 0 := by simpa using hne
  have his : is ≠ [] := by intro h0; subst h0; simp at e1; omega
  have hts : ts ≠ [] := by intro h0; subst h0; simp at e2; omega
  have hconv := (c18_converts_iff X g ⟨5, 22, ts, ⟨0, none, MsgType.build g .encKrbCredPart
    ⟨is, none, none, none, none, none⟩⟩⟩).2 ⟨rfl, _, _, hp, hts, his, by
      intro i hi
      obtain ⟨n, hn, rfl⟩ := List.getElem_of_mem (List.mem_of_mem_take hi)
      dsimp only at hn
      have hz := (List.forall₂_iff_get.1 e3).2 n (by omega) (by rw [List.length_zip]; omega)
      simp only [List.get_eq_getElem, List.getElem_zip] at hz
      obtain ⟨r, n', a, b, -⟩ := (fromCredential_spec hz).1.client
      obtain ⟨r', n'', a', b', -⟩ := (fromCredential_spec hz).1.server
      have f := (fromCredential_spec hz).1.flags
      rw [a, b, a', b', f]; simp⟩
  obtain ⟨c', hc'⟩ := hconv
  obtain ⟨-, hprim, hver, hhd⟩ := c20_primary X g _ c' hc'
  have hcred : c'.credentials = cs' := by
    obtain ⟨-, p, rest, hp', i, is', t, ts', r, n, cs'', a1, a2, -, -, a5, rfl⟩ := krbCredToCcache_inv hc'
    dsimp only at hp' a2
    rw [hp] at hp'
    simp only [Except.ok.injEq, Prod.mk.injEq] at hp'
    obtain ⟨rfl, rfl⟩ := hp'
    dsimp only at a1
    rw [← a1, ← a2, hcs'] at a5
    simp only [Except.ok.injEq] at a5
    exact a5.symm
  refine ⟨c', hc', by rw [hcred]; exact hk, hhd, hver, ?_⟩
  rw [← hprim, hcred]
  generalize c.credentials = l at hk
  cases hk with
  | nil => rfl
  | cons a _ => simp [a.client]

/-- C17. A cache without credentials does not come back: the message it converts to is refused. -/
theorem c17_empty (X : Ext) (g : Cfg) (c : CC.CCache) (hne : c.credentials = []) :
    ∃ k, ccacheToKrbCred g c = .ok k ∧ k.tickets = [] ∧
      krbCredToCcache X g k = .error (.krbCred "No credentials contained") := by
  refine ⟨_, ccacheToKrbCred_ok.2 ⟨[], [], by rw [hne]; rfl, rfl⟩, rfl, ?_⟩
  have hw : EncKrbCredPart.WF ⟨[], none, none, none, none, none⟩ :=
    ⟨fun i hi => absurd hi List.not_mem_nil, fun _ h => absurd h (Option.some_ne_none _).symm⟩
  have hs : (MsgType.build g .encKrbCredPart ⟨[], none, none, none, none, none⟩).length < 2^64 := by
    rw [show MsgType.build g .encKrbCredPart ⟨[], none, none, none, none, none⟩ = [125, 6, 48, 4, 160, 2, 48, 0] from rfl]
    decide
  have hp := c39_roundtrip g .encKrbCredPart _ hw hs []
  rw [List.append_nil] at hp
  exact c18_empty X g _ _ _ rfl hp (.inl rfl)

/-- C17. A ticket that is stored in the form the library writes keeps its bytes. -/
theorem c17_ticket_unchanged (g : Cfg) (d d' : CC.Credential) (h : Kept g d d') (t : Ticket)
    (ht : d.ticket = MsgType.build g .ticket t) (hs : d.ticket.length < 2^64) : d'.ticket = d.ticket := by
  obtain ⟨t', rest, h1, h2⟩ := h.ticket
  rw [ht] at h1 hs
  have hp := c39_roundtrip g .ticket t trivial hs []
  rw [List.append_nil, h1] at hp
  simp only [Except.ok.injEq, Prod.mk.injEq] at hp
  rw [h2, ht, hp.1]

/-! ### C16: message to cache to message -/

/-- a time the cache can hold -/
def FitsTime (t : Option DateTime) : Prop := ∀ d, t = some d → 1 ≤ d.secs ∧ d.secs < 2^32 ∧ d.nanos = 0

/-- an address the cache can hold; NetBIOS names are padded to 16 -/
def FitsAddress (h : HostAddress) : Prop :=
  0 ≤ h.addr_type.toInt ∧ h.addr_type.toInt ≤ 65535 ∧
  (h.addr_type = 20 → ∃ s, NoTrailingSpace s ∧ h.address = utf8 (paddNetbiosString s))

/-- an info the cache can hold -/
structure Representable (i : KrbCredInfo) : Prop where
  client : ∃ r n, i.prealm = some r ∧ i.pname = some n ∧ n.name_string ≠ []
  server : ∃ r n, i.srealm = some r ∧ i.sname = some n ∧ n.name_string ≠ []
  flags : i.flags.isSome
  key : 0 ≤ i.key.keytype.toInt ∧ i.key.keytype.toInt ≤ 65535
  authtime : FitsTime i.authtime
  starttime : FitsTime i.starttime
  endtime : FitsTime i.endtime
  renew_till : FitsTime i.renew_till
  addrs : ∀ l, i.caddr = some l → l ≠ [] ∧ ∀ h ∈ l, FitsAddress h

theorem fromTime_fits {t : Option DateTime} (h : FitsTime t) : fromTime (toTime t) = t := by
  cases t with
  | none => rfl
  | some d => exact (c21_unchanged_iff d).2 (h d rfl)

theorem fromAddress_fits {X h} (hf : FitsAddress h) : fromAddress (toAddress X h) = .ok h := by
  obtain ⟨h0, h1, h2⟩ := hf
  obtain ⟨ty, a⟩ := h
  dsimp only at h0 h1 h2
  by_cases ht : ty = 20
  · subst ht
    obtain ⟨s, hs, rfl⟩ := h2 rfl
    exact c22_netbios_unchanged X s hs
  · have e : u16AsI32 (i32AsU16 ty) = ty := u16AsI32_i32AsU16_eq h0 (by omega)
    have hn : ty ≠ netbios := ht
    unfold toAddress fromAddress
    simp only [if_neg hn, e]

theorem fromAddressLoop_fits {X l} (hf : ∀ h ∈ l, FitsAddress h) :
    fromAddressLoop (l.map (toAddress X)) = .ok l := by
  induction l with
  | nil => rfl
  | cons h l ih =>
    rw [List.map_cons, fromAddressLoop, fromAddress_fits (hf h (List.mem_cons_self ..)),
      ih (fun x hx => hf x (List.mem_cons_of_mem _ hx))]
    rfl

theorem fromCredential_toCredential {X g i t c} (hr : Representable i)
    (hs : (MsgType.build g .ticket t).length < 2^64) (h : toCredential X g i t = .ok c) :
    fromCredential g c = .ok (i, t) := by
  obtain ⟨pr, pn, sr, sn, fl, h1, h2, h3, h4, h5, rfl⟩ := toCredential_ok.1 h
  have hp : (ticketC g).dec g (MsgType.build g .ticket t) = .ok (t, []) := by
    have := c39_roundtrip g .ticket t trivial hs []
    rw [List.append_nil] at this; exact this
  obtain ⟨r, n, a1, a2, a3⟩ := hr.client
  obtain ⟨r', n', b1, b2, b3⟩ := hr.server
  rw [h1] at a1; rw [h2] at a2; rw [h3] at b1; rw [h4] at b2
  cases a1; cases a2; cases b1; cases b2
  have hcaddr : (fromAddresses ((i.caddr.getD []).map (toAddress X))).toOption = i.caddr := by
    cases hc : i.caddr with
    | none => rfl
    | some l =>
      obtain ⟨hne, hl⟩ := hr.addrs l hc
      cases l with
      | nil => exact absurd rfl hne
      | cons a l =>
        show (fromAddresses (toAddress X a :: l.map (toAddress X))).toOption = _
        rw [fromAddresses_cons, ← List.map_cons, fromAddressLoop_fits hl]
        rfl
  have hk := (c23_key i.key).2.2.2 hr.key
  unfold fromCredential
  simp only [fromTimes, toTimes, fromTime_fits hr.authtime, fromTime_fits hr.starttime, fromTime_fits hr.endtime,
    fromTime_fits hr.renew_till, c24_roundtrip _ _ a3, c24_roundtrip _ _ b3, hcaddr, hp, hk, fromTktFlags, ofParse,
    bind, Except.bind, pure, Except.pure, Except.ok.injEq, Prod.mk.injEq, and_true]
  cases i
  simp only at h1 h2 h3 h4 h5
  simp [h1, h2, h3, h4, h5]

theorem fromCredentials_toCredentials {X g} {is : List KrbCredInfo} {ts : List Ticket} {cs}
    (hl : is.length = ts.length) (hr : ∀ i ∈ is, Representable i)
    (hs : ∀ t ∈ ts, (MsgType.build g .ticket t).length < 2^64)
    (h : toCredentials X g (is.zip ts) = .ok cs) : fromCredentials g cs = .ok (is, ts) := by
  induction is generalizing ts cs with
  | nil =>
    cases ts with
    | nil => simp only [List.zip_nil_left, toCredentials, Except.ok.injEq] at h; subst h; rfl
    | cons => simp at hl
  | cons i is ih =>
    cases ts with
    | nil => simp at hl
    | cons t ts =>
      rw [List.zip_cons_cons, toCredentials] at h
      cases h1 : toCredential X g i t with
      | error e => rw [h1] at h; cases h
      | ok c =>
        cases h2 : toCredentials X g (is.zip ts) with
        | error e => rw [h1, h2] at h; cases h
        | ok cs' =>
          rw [h1, h2] at h
          simp only [bind, Except.bind, pure, Except.pure, Except.ok.injEq] at h
          subst h
          rw [fromCredentials, fromCredential_toCredential (hr i (List.mem_cons_self ..)) (hs t (List.mem_cons_self ..)) h1,
            ih (by simpa using hl) (fun x hx => hr x (List.mem_cons_of_mem _ hx))
              (fun x hx => hs x (List.mem_cons_of_mem _ hx)) h2]
          rfl

/-- C16. An unencrypted message with as many tickets as infos, at least one, all infos representable, converts to a
cache, and the cache converts back to the message with the same tickets and infos in the same order. -/
theorem c16_roundtrip (X : Ext) (g : Cfg) (k : KrbCred) (p : EncKrbCredPart) (rest : Bytes)
    (he : k.enc_part.etype = 0) (hp : MsgType.parse g .encKrbCredPart k.enc_part.cipher = .ok (p, rest))
    (hl : p.ticket_info.length = k.tickets.length) (hne : k.tickets ≠ [])
    (hr : ∀ i ∈ p.ticket_info, Representable i)
    (hs : ∀ t ∈ k.tickets, (MsgType.build g .ticket t).length < 2^64) :
    ∃ c, krbCredToCcache X g k = .ok c ∧ ccacheToKrbCred g c = .ok
      ⟨5, 22, k.tickets, ⟨0, none, MsgType.build g .encKrbCredPart ⟨p.ticket_info, none, none, none, none, none⟩⟩⟩ := by
  have hl0 : k.tickets.length ≠ 0 := by simpa using hne
  obtain ⟨c, hc⟩ := (c18_converts_iff X g k).2 ⟨he, p, rest, hp, hne, by intro h0; rw [h0] at hl; simp at hl; omega, by
    intro i hi
    have h := hr i (List.mem_of_mem_take hi)
    obtain ⟨r, n, a1, a2, -⟩ := h.client
    obtain ⟨r', n', b1, b2, -⟩ := h.server
    simp [a1, a2, b1, b2, h.flags]⟩
  refine ⟨c, hc, ?_⟩
  obtain ⟨-, p', rest', hp', i, is, t, ts, r, n, cs, a1, a2, -, -, a5, rfl⟩ := krbCredToCcache_inv hc
  rw [hp] at hp'
  simp only [Except.ok.injEq, Prod.mk.injEq] at hp'
  obtain ⟨rfl, rfl⟩ := hp'
  rw [← a1, ← a2] at a5
  exact ccacheToKrbCred_ok.2 ⟨_, _, fromCredentials_toCredentials hl hr hs a5, rfl⟩

/-- C16. A message made of such tickets and infos in the plain form (the form the library itself produces) comes back
as the same value. -/
theorem c16_identity (X : Ext) (g : Cfg) (infos : List KrbCredInfo) (tickets : List Ticket)
    (hl : infos.length = tickets.length) (hne : tickets ≠ []) (hr : ∀ i ∈ infos, Representable i)
    (hs : ∀ t ∈ tickets, (MsgType.build g .ticket t).length < 2^64)
    (hs' : (MsgType.build g .encKrbCredPart ⟨infos, none, none, none, none, none⟩).length < 2^64) :
    ∃ c, krbCredToCcache X g
        ⟨5, 22, tickets, ⟨0, none, MsgType.build g .encKrbCredPart ⟨infos, none, none, none, none, none⟩⟩⟩ = .ok c ∧
      ccacheToKrbCred g c = .ok
        ⟨5, 22, tickets, ⟨0, none, MsgType.build g .encKrbCredPart ⟨infos, none, none, none, none, none⟩⟩⟩ := by
  have hok : ∀ t, FitsTime t → OptOf TimeOk t := by
    intro t ht
    rw [← fromTime_fits ht]; exact fromTime_ok _
  have hw : EncKrbCredPart.WF ⟨infos, none, none, none, none, none⟩ :=
    ⟨fun i hi => ⟨hok _ (hr i hi).authtime, hok _ (hr i hi).starttime, hok _ (hr i hi).endtime, hok _ (hr i hi).renew_till⟩,
      fun _ h => absurd h (Option.some_ne_none _).symm⟩
  have hp := c39_roundtrip g .encKrbCredPart _ hw hs' []
  rw [List.append_nil] at hp
  clear hs'
  generalize hv : (⟨infos, none, none, none, none, none⟩ : EncKrbCredPart) = v at hp ⊢
  have hi : v.ticket_info = infos := by rw [← hv]
  rw [← hi] at hl hr
  obtain ⟨c, h1, h2⟩ := c16_roundtrip X g ⟨5, 22, tickets, ⟨0, none, MsgType.build g .encKrbCredPart v⟩⟩ v [] rfl hp hl hne hr hs
  rw [hi, hv] at h2
  exact ⟨c, h1, h2⟩

/-! ### C23 for addresses -/

/-- C23. A non-NetBIOS address survives the conversion to the cache and back iff its type is in 0..65535. -/
theorem c23_address (X : Ext) (h : HostAddress) (hn : h.addr_type ≠ 20) :
    fromAddress (toAddress X h) = .ok h ↔ 0 ≤ h.addr_type.toInt ∧ h.addr_type.toInt ≤ 65535 := by
  constructor
  · intro he
    have h1 := fromAddress_spec (toAddress X h)
    by_cases hu : (toAddress X h).addrtype = 20 → IsUtf8 (toAddress X h).addrdata
    · obtain ⟨h', e, hm, -⟩ := h1.1 hu
      rw [he] at e
      cases e
      have := (toAddress X h).addrtype.toNat_lt
      have := hm.1
      omega
    · rw [h1.2 hu] at he; cases he
  · rintro ⟨h0, h1⟩
    exact fromAddress_fits ⟨h0, h1, fun e => absurd e hn⟩

/-! ### Examples -/

/-- an info with a NetBIOS and another address, one absent time -/
def exInfo : KrbCredInfo where
  key := ⟨18, [0x77]⟩
  prealm := some "KINGDOM.HEARTS".toList
  pname := some ⟨1, ["mickey".toList]⟩
  flags := some 0x40e10000
  authtime := some ⟨1555567231, 0⟩
  starttime := none
  endtime := some ⟨4294967295, 0⟩
  renew_till := some ⟨1, 0⟩
  srealm := some "KINGDOM.HEARTS".toList
  sname := some ⟨2, ["krbtgt".toList, "KINGDOM.HEARTS".toList]⟩
  caddr := some [⟨20, utf8 "HOLLOWBASTION   ".toList⟩, ⟨2, [10, 0, 0, 1]⟩]

example : Representable exInfo := by
  refine ⟨⟨_, _, rfl, rfl, by decide⟩, ⟨_, _, rfl, rfl, by decide⟩, rfl, by decide +kernel, ?_, ?_, ?_, ?_, ?_⟩
  · intro d h; simp only [exInfo, Option.some.injEq] at h; subst h; decide
  · intro d h; simp [exInfo] at h
  · intro d h; simp only [exInfo, Option.some.injEq] at h; subst h; decide
  · intro d h; simp only [exInfo, Option.some.injEq] at h; subst h; decide
  · intro l h
    simp only [exInfo, Option.some.injEq] at h
    subst h
    refine ⟨by simp, ?_⟩
    intro h hh
    simp only [List.mem_cons, List.not_mem_nil, or_false] at hh
    rcases hh with rfl | rfl
    · refine ⟨by decide +kernel, by decide +kernel, fun _ => ⟨"HOLLOWBASTION".toList, ?_, by decide +kernel⟩⟩
      intro c hc
      have e : "HOLLOWBASTION".toList.getLast? = some 'N' := by decide
      rw [e] at hc; cases hc; decide
    · exact ⟨by decide +kernel, by decide +kernel, fun h => absurd h (by decide)⟩

/-- a message with two credentials -/
def exCred : KrbCred :=
  ⟨5, 22, [exTicket, exTicket], ⟨0, none, MsgType.build strictCfg .encKrbCredPart
    ⟨[exInfo, { exInfo with caddr := none }], none, none, none, none, none⟩⟩⟩

-- C16, C17: the concrete conversions
example : (do ccacheToKrbCred strictCfg (← krbCredToCcache exExt strictCfg exCred)) = .ok exCred := by decide +kernel
-- C18: the first missing field
example : firstMissing [exInfo, { exInfo with sname := none, flags := none }] = some "sname" := by decide +kernel
example : krbCredToCcache exExt strictCfg ⟨5, 22, [exTicket, exTicket], ⟨0, none, MsgType.build strictCfg .encKrbCredPart
    ⟨[exInfo, { exInfo with sname := none, flags := none }], none, none, none, none, none⟩⟩⟩
    = .error (.missingField "sname") := by decide +kernel
-- C19: an info without ticket is not looked at
example : (krbCredToCcache exExt strictCfg ⟨5, 22, [exTicket], ⟨0, none, MsgType.build strictCfg .encKrbCredPart
    ⟨[exInfo, { exInfo with sname := none }], none, none, none, none, none⟩⟩⟩).toOption.map (·.credentials.length)
    = some 1 := by decide +kernel
-- C17: a NetBIOS address that is not UTF-8 makes all addresses of the credential disappear
example : ¬ NetbiosReadable [⟨2, [10, 0, 0, 1]⟩, ⟨20, [0xff]⟩] := by
  intro h
  obtain ⟨s, hs⟩ := h ⟨20, [0xff]⟩ (by simp) rfl
  have h1 : utf8Dec [0xff] = some s := by rw [show ([0xff] : Bytes) = utf8 s from hs]; exact utf8Dec_utf8 s
  have h2 : utf8Dec [0xff] = none := by decide +kernel
  rw [h2] at h1; cases h1
example : (fromAddresses [⟨2, [10, 0, 0, 1]⟩, ⟨20, [0xff]⟩]).toOption = none := by decide +kernel

end Verif.Map
