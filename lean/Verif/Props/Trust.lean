import Verif.Props.Kinds
import Verif.Props.ClientGaps
/-
C92: what the ticket returned proves; C93: whether the user's choice of encryption types is respected.
-/
namespace Verif.Kb
open Verif.Asn1 Verif.Map
open Verif.Crypto (Prims Key CaseMap Cipher newKerberosCipher)

section
variable {P : Prims} (hP : P.Lawful) (M : CaseMap) {g : Cfg} (hg : g.Total) (net : Net)
  {e1 e2 : Env} (username : List Char) (key : Option Key) (hk : ∀ k, key = some k → k.WF) (o : Options)

include hP hg hk in
/-- a run with a result other than a crash has a deciding answer -/
theorem ok_decides (he1 : EnvOk e1) {cred} (h : (tgtRequest P M g net e1 e2 username key o).1 = .ok cred) :
    ∃ a, Decides P M g net e1 e2 username key o a := by
  obtain ⟨req1, h1, -, h4⟩ := c48_dialogue hP M hg net username key hk o he1 (e2 := e2)
  by_cases hd : DemandsPreauth g (net [req1]) ∧ key ≠ none
  · cases key with
    | none => exact absurd rfl hd.2
    | some k =>
      cases hb : buildAsReq P M g e2 username (some k) o with
      | ok req2 => exact ⟨_, req1, h1, .inr ⟨hd.1, k, req2, rfl, hb, rfl⟩⟩
      | error x => rw [(h4 k rfl hd.1).2 x hb] at h; cases h
  · exact ⟨_, req1, h1, .inl ⟨hd, rfl⟩⟩

/-! ### C92 -/

include hP hg hk in
/-- C92. A ticket is returned only if the client part (session key, times, flags, server, addresses) came out of an
encryption under the user's key: the answer has the very ciphertext that encryption of some bytes that read as the client
part gives, under a key that is the user's or made from the user's password, for the use "AS reply part" (3). -/
theorem c92_from_key_holder (he1 : EnvOk e1) {cred} (h : (tgtRequest P M g net e1 e2 username key o).1 = .ok cred) :
    ∃ k sent a r c kb conf plain rest, key = some k ∧ net sent = some a ∧ ReadsReply g a r ∧ ReplyKey P g k r c kb ∧
      conf.length = c.preambleSize ∧ c.encrypt P kb 3 plain conf = .ok r.enc_part.cipher ∧
      MsgType.parse g .encAsRepPart plain = .ok (cred.client_part, rest) := by
  obtain ⟨a, hd⟩ := ok_decides hP M hg net username key hk o he1 h
  have hl := decides_last hP M hg net username key hk o he1 hd
  rw [h] at hl
  have hsent : ∃ sent, a = net sent := by
    obtain ⟨req1, -, ⟨-, h⟩ | ⟨-, k, req2, -, -, h⟩⟩ := hd
    · exact ⟨_, h⟩
    · exact ⟨_, h⟩
  obtain ⟨sent, hsent⟩ := hsent
  cases hl with
  | reply b r _ hb ho =>
    cases ho with
    | opened k _ c kb plain rest part hrk hdec hp =>
      have hf := hrk.fits hP (hk k rfl)
      obtain ⟨conf, hc, he⟩ := (Crypto.c28_accepts_iff P hP c kb hf 3 _ plain).1 hdec
      exact ⟨k, sent, b, r, c, kb, conf, plain, rest, rfl, hsent.symm, hb, hrk, hc, he, hp⟩
end

/-- (specification, no code of /repo) what somebody without any key does to an answer: put another realm, client and ticket into a reply -/
def forge (g : Cfg) (crealm : List Char) (cname : PrincipalName) (ticket : Ticket) (a : Bytes) : Bytes :=
  match MsgType.parse g .krbError a, MsgType.parse g .asRep a with
  | .error _, .ok (r, _) => MsgType.build g .asRep { r with crealm := crealm, cname := cname, ticket := ticket }
  | _, _ => a

theorem forge_error {g : Cfg} {crealm cname ticket a err} (h : ReadsError g a err) : forge g crealm cname ticket a = a := by
  obtain ⟨rest, h⟩ := h
  unfold forge
  rw [h]

theorem forge_reply {g : Cfg} {crealm cname ticket a r} (h : ReadsReply g a r) : forge g crealm cname ticket a =
    MsgType.build g .asRep { r with crealm := crealm, cname := cname, ticket := ticket } := by
  obtain ⟨⟨x, hx⟩, rest, h⟩ := h
  unfold forge
  rw [h, hx]

theorem forge_reads {g : Cfg} {crealm cname ticket a r} (h : ReadsReply g a r)
    (hs : (forge g crealm cname ticket a).length < 2^64) :
    ReadsReply g (forge g crealm cname ticket a) { r with crealm := crealm, cname := cname, ticket := ticket } := by
  rw [forge_reply h] at hs ⊢
  have h1 := c39_roundtrip g .asRep ({ r with crealm := crealm, cname := cname, ticket := ticket } : AsRep) (by trivial) hs []
  have h2 := c83_not_confused g .asRep .krbError ({ r with crealm := crealm, cname := cname, ticket := ticket } : AsRep) [] (by decide)
  rw [List.append_nil] at h1 h2
  exact ⟨⟨_, h2⟩, _, h1⟩

theorem forge_demands {g : Cfg} {crealm cname ticket} {a : Option Bytes}
    (hs : ∀ b, a = some b → (forge g crealm cname ticket b).length < 2^64) :
    DemandsPreauth g (a.map (forge g crealm cname ticket)) ↔ DemandsPreauth g a := by
  constructor
  · rintro ⟨b', err, h1, h2, h3⟩
    cases a with
    | none => cases h1
    | some b =>
      injection h1 with h1
      subst h1
      by_cases he : ∃ err', ReadsError g b err'
      · obtain ⟨err', he⟩ := he
        rw [forge_error he] at h2
        exact ⟨b, err, rfl, h2, h3⟩
      · by_cases hr : ∃ r, ReadsReply g b r
        · obtain ⟨r, hr⟩ := hr
          obtain ⟨⟨x, hx⟩, -⟩ := forge_reads hr (hs b rfl)
          obtain ⟨rest, h2⟩ := h2
          rw [hx] at h2; cases h2
        · have : forge g crealm cname ticket b = b := by
            unfold forge
            cases h4 : MsgType.parse g .krbError b with
            | ok x => rfl
            | error x =>
              cases h5 : MsgType.parse g .asRep b with
              | ok y => exact absurd ⟨y.1, ⟨x, h4⟩, y.2, h5⟩ hr
              | error y => rfl
          rw [this] at h2
          exact absurd ⟨err, h2⟩ he
  · rintro ⟨b, err, rfl, h2, h3⟩
    exact ⟨b, err, by rw [Option.map_some, forge_error h2], h2, h3⟩

section
variable {P : Prims} (hP : P.Lawful) (M : CaseMap) {g : Cfg} (hg : g.Total) (net : Net)
  {e1 e2 : Env} (username : List Char) (key : Option Key) (hk : ∀ k, key = some k → k.WF) (o : Options)

theorem forge_decides {crealm cname ticket}
    (hs : ∀ sent b, net sent = some b → (forge g crealm cname ticket b).length < 2^64) {a}
    (h : Decides P M g net e1 e2 username key o a) :
    Decides P M g (fun sent => (net sent).map (forge g crealm cname ticket)) e1 e2 username key o
      (a.map (forge g crealm cname ticket)) := by
  obtain ⟨req1, h1, ⟨h2, rfl⟩ | ⟨h2, k, req2, h3, h4, rfl⟩⟩ := h
  · exact ⟨req1, h1, .inl ⟨fun h => h2 ⟨(forge_demands (hs _)).1 h.1, h.2⟩, rfl⟩⟩
  · exact ⟨req1, h1, .inr ⟨(forge_demands (hs _)).2 h2, k, req2, h3, h4, rfl⟩⟩

end

/-- C92. Expected: so came realm, client name and ticket. Violated: they are taken from the part of the reply that nothing
protects and compared with nothing. For every realm, client and ticket there is a way to change answers in transit (made
without any key, for all users and KDCs alike) after which every request that would have succeeded succeeds, with this
realm, client and ticket beside the genuine session key. -/
theorem c92_forgeable {g : Cfg} (hg : g.Total) (crealm : List Char) (cname : PrincipalName) (ticket : Ticket) :
    ∃ tamper : Bytes → Bytes, ∀ (P : Prims), P.Lawful → ∀ (M : CaseMap) (net : Net) (e1 e2 : Env), EnvOk e1 →
      ∀ (username : List Char) (key : Option Key), (∀ k, key = some k → k.WF) → ∀ (o : Options) (cred : Credential),
      (∀ sent a, net sent = some a → (tamper a).length < 2^64) →
      (tgtRequest P M g net e1 e2 username key o).1 = .ok cred →
      (tgtRequest P M g (fun sent => (net sent).map tamper) e1 e2 username key o).1 = .ok ⟨crealm, cname, ticket, cred.client_part⟩ := by
  refine ⟨forge g crealm cname ticket, ?_⟩
  intro P hP M net e1 e2 he1 username key hk o cred hs h
  obtain ⟨a, hd⟩ := ok_decides hP M hg net username key hk o he1 h
  have hl := decides_last hP M hg net username key hk o he1 hd
  rw [h] at hl
  have hsent : ∀ b, a = some b → (forge g crealm cname ticket b).length < 2^64 := by
    rintro b rfl
    obtain ⟨req1, -, ⟨-, h⟩ | ⟨-, k, req2, -, -, h⟩⟩ := hd
    · exact hs _ _ h.symm
    · exact hs _ _ h.symm
  have hl' := decides_last hP M hg _ username key hk o he1 (forge_decides M net username key o hs hd)
  cases hl with
  | reply b r _ hb ho =>
    refine c48_determined hP hg key hk hl' (.reply _ _ _ (forge_reads hb (hsent b rfl)) ?_)
    cases ho with
    | opened k _ c kb plain rest part hrk hdec hp => exact .opened k _ c kb plain rest part hrk hdec hp

/-! ### C93 -/

section
variable {P : Prims} (hP : P.Lawful) (M : CaseMap) {g : Cfg} (hg : g.Total) (net : Net)
  {e1 e2 : Env} (username : List Char) (o : Options)

/-- all types that the message offers are among these -/
def OffersOnly (g : Cfg) (types : List Int32) (m : Bytes) : Prop :=
  ∃ r : AsReq, m = MsgType.build g .asReq r ∧ ∀ t ∈ r.req_body.etypes, t ∈ types

theorem first_offers (he1 : EnvOk e1) {req1} (h1 : buildAsReq P M g e1 username none o = .ok req1) : OffersOnly g o.etypes req1 := by
  obtain ⟨r, hr, -, ht, -⟩ := c47_without_key P M g e1 he1 username o
  refine ⟨r, ?_, ?_⟩
  · unfold buildAsReq at h1
    rw [hr] at h1
    injection h1 with h1
    exact h1.symm
  · intro t h
    rw [ht, List.mem_filter] at h
    exact of_decide_eq_true h.2

include hP hg in
/-- C93. Without a key or with a password every message offers only types that the user allows. -/
theorem c93_offered (he1 : EnvOk e1) (he2 : EnvOk e2) (key : Option Key) (hkey : ∀ k, key = some k → ∃ pw, k = .secret pw) :
    ∀ m ∈ (tgtRequest P M g net e1 e2 username key o).2, OffersOnly g o.etypes m := by
  have hk : ∀ k, key = some k → k.WF := by
    intro k h
    obtain ⟨pw, rfl⟩ := hkey k h
    trivial
  obtain ⟨req1, h1, h2, -⟩ := c48_messages hP M hg net username key hk o he1 he2
  have ho1 := first_offers M username o he1 h1
  rcases h2 with h2 | ⟨k, req2, hkk, hb, h2⟩
  · rw [h2]
    intro m hm
    rw [List.mem_singleton] at hm
    rw [hm]; exact ho1
  · rw [h2]
    intro m hm
    rcases List.mem_cons.1 hm with rfl | hm
    · exact ho1
    · rw [List.mem_singleton] at hm
      subst hm
      obtain ⟨pw, rfl⟩ := hkey k hkk
      by_cases hne : ∃ t ∈ [18, 17, 23], t ∈ o.etypes
      · obtain ⟨r, et, kb, c, data, hr, -, ⟨hpk, -⟩, -, het, -⟩ := c47_with_key P hP M g e2 he2 username o (.secret pw) trivial (fun _ => hne)
        refine ⟨r, ?_, ?_⟩
        · unfold buildAsReq at hb
          rw [hr] at hb
          injection hb with hb
          exact hb.symm
        · intro t ht
          rw [het, List.mem_singleton] at ht
          rw [ht]
          have := List.find?_some hpk
          simpa using this
      · obtain ⟨x, hx⟩ := (build_with_key hP M g he2 username o (.secret pw) trivial).2
          ⟨⟨pw, rfl⟩, fun t ht hm => hne ⟨t, ht, hm⟩⟩
        rw [hx] at hb; cases hb

include hP hg in
/-- C93, violation 1. With a cipher key whose type the user does not allow, the second message offers exactly that type (and
the timestamp is encrypted with it). -/
theorem c93_cipher_key (he1 : EnvOk e1) (he2 : EnvOk e2) (k : Key) (hkw : k.WF) (et : Int32) (kb : Bytes) (hi : IsCipherKey k et kb)
    (hno : et ∉ o.etypes) (hd : ∀ req, DemandsPreauth g (net [req])) :
    ∃ req1 req2 r, (tgtRequest P M g net e1 e2 username (some k) o).2 = [req1, req2] ∧ req2 = MsgType.build g .asReq r ∧
      r.req_body.etypes = [et] ∧ ¬ ∀ t ∈ r.req_body.etypes, t ∈ o.etypes := by
  have hk : ∀ k', some k = some k' → k'.WF := by rintro k' h; injection h with h; subst h; exact hkw
  have hsec : ¬ ∃ pw, k = .secret pw := by rintro ⟨pw, rfl⟩; exact hi.notSecret
  obtain ⟨r, et', kb', c, data, hr, -, hpk, -, het, -⟩ := c47_with_key P hP M g e2 he2 username o k hkw (fun h => absurd h hsec)
  have : et' = et := by
    rcases hi with ⟨rfl, rfl⟩ | ⟨rfl, rfl⟩ | ⟨rfl, rfl⟩ <;> exact hpk.1
  subst this
  obtain ⟨req1, h1, -, h3⟩ := c48_dialogue hP M hg net username (some k) hk o he1 (e2 := e2)
  have hb : buildAsReq P M g e2 username (some k) o = .ok (MsgType.build g .asReq r) := by
    unfold buildAsReq; rw [hr]; rfl
  refine ⟨req1, _, r, ((h3 k rfl (hd req1)).1 _ hb).1, rfl, het, ?_⟩
  rw [het]
  exact fun h => hno (h et' (List.mem_singleton.2 rfl))

include hP hg in
/-- C93, violation 2. A reply encrypted with a type that the user does not allow, or with a session key of such a type, is
accepted like any other, for passwords and for cipher keys. (Such replies exist for every key: `c50_exists`.) -/
theorem c93_reply_type (he1 : EnvOk e1) (k : Key) (hkw : k.WF) (r : AsRep) (part : EncAsRepPart)
    (hi : Issued P g k r part) (hs : (MsgType.build g .asRep r).length < 2^64)
    (hw' : MsgType.WF .encAsRepPart part) (hs' : (MsgType.build g .encAsRepPart part).length < 2^64)
    (_hno : r.enc_part.etype ∉ o.etypes ∨ part.key.keytype ∉ o.etypes)
    (h : Decides P M g net e1 e2 username (some k) o (some (MsgType.build g .asRep r))) :
    (tgtRequest P M g net e1 e2 username (some k) o).1 = .ok ⟨r.crealm, r.cname, r.ticket, part⟩ :=
  c50_honest hP M hg net username o he1 k hkw r part hi trivial hs hw' hs' h

end

/-! ### Examples -/

section
open Verif.Crypto (toyPrims toyPrims_lawful asciiCase)

/-- C92: mickey gets a ticket; forged in transit, goofy's of another realm -/
example : (tgtRequest toyPrims asciiCase strictCfg (exNet exCipherKey) exEnv exEnv "mickey".toList (some exCipherKey) exOptions).1
      = .ok ⟨"KINGDOM.HEARTS".toList, ⟨1, ["mickey".toList]⟩, exTicket, exPart⟩ ∧
    (tgtRequest toyPrims asciiCase strictCfg (fun sent => (exNet exCipherKey sent).map (forge strictCfg "EVIL".toList
      ⟨1, ["goofy".toList]⟩ { exTicket with realm := "EVIL".toList })) exEnv exEnv "mickey".toList (some exCipherKey) exOptions).1
      = .ok ⟨"EVIL".toList, ⟨1, ["goofy".toList]⟩, { exTicket with realm := "EVIL".toList }, exPart⟩ := by
  constructor <;> decide +kernel

/-- C93: only AES-128 allowed, the reply and the session key are not -/
example : (tgtRequest toyPrims asciiCase strictCfg (fun _ => some (MsgType.build strictCfg .asRep (exRep exPassword))) exEnv exEnv
      "mickey".toList (some exPassword) { exOptions with etypes := [17] }).1
      = .ok ⟨"KINGDOM.HEARTS".toList, ⟨1, ["mickey".toList]⟩, exTicket, exPart⟩ ∧
    (exRep exPassword).enc_part.etype ∉ [17] ∧ exPart.key.keytype ∉ [17] := by
  refine ⟨?_, ?_, ?_⟩ <;> decide +kernel

end

end Verif.Kb
