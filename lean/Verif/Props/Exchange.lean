import Verif.Props.Dialogue
import Verif.Props.Addresses
/-
C96: the single exchange of the other requester, `AsRequester`.
-/
namespace Verif.Kb
open Verif.Asn1
open Verif.Crypto (toyPrims asciiCase Prims Key CaseMap Cipher newKerberosCipher)

/-- what the caller gets for an answer (`none`: none came): nothing about the answer but its form matters -/
inductive SingleAnswer (g : Cfg) : Option Bytes → Except KErr AsReqResponse → Prop
  | noAnswer : SingleAnswer g none (.error .network)
  | unreadable (a) (h : Unreadable g a) : SingleAnswer g (some a) (.error .asn1)
  | kdcError (a e) (h : ReadsError g a e) : SingleAnswer g (some a) (.ok (.krbError e))
  | reply (a r) (h : ReadsReply g a r) : SingleAnswer g (some a) (.ok (.asRep r))

theorem parseResponse_single {g : Cfg} (hg : g.Total) (a : Bytes) : SingleAnswer g (some a) (parseResponse g a) := by
  rcases answer_cases g a with ⟨e, h⟩ | ⟨r, h⟩ | h
  · rw [parseResponse_error h]; exact .kdcError a e h
  · rw [parseResponse_reply hg h]; exact .reply a r h
  · rw [parseResponse_unreadable hg h]; exact .unreadable a h

section
variable {P : Prims} (hP : P.Lawful) (M : CaseMap) {g : Cfg} (hg : g.Total) (net : Net) {e : Env} (he : EnvOk e)
  (username : List Char) (o : Options)

include hg he in
/-- C96. Without a key: exactly one message, the request of C47 without pre-authentication data, and the caller gets what the
answer is, whoever sent it. -/
theorem c96_without_key :
    ∃ r, createAsReq P M g e username none o = .ok r ∧
      (asRequest P M g net e username none o []).2 = [MsgType.build g .asReq r] ∧
      SingleAnswer g (net [MsgType.build g .asReq r]) (asRequest P M g net e username none o []).1 := by
  obtain ⟨r, h, -⟩ := c47_without_key P M g e he username o
  have hb : buildAsReq P M g e username none o = .ok (MsgType.build g .asReq r) := by
    unfold buildAsReq; rw [h]; rfl
  have h1 := asRequest_eq M net username o (sent := []) hb
  rw [List.nil_append] at h1
  refine ⟨r, h, by rw [h1], ?_⟩
  rw [h1]
  dsimp only
  cases net [MsgType.build g .asReq r] with
  | none => exact .noAnswer
  | some a => exact parseResponse_single hg a

include hP hg he in
/-- C96. With a key: exactly one message, and the first thing that leaves is the time encrypted under the user's key, before
the KDC has said anything; then the caller gets what the answer is. -/
theorem c96_with_key (k : Key) (hk : k.WF) (hne : (∃ pw, k = .secret pw) → ∃ t ∈ [18, 17, 23], t ∈ o.etypes) :
    ∃ r et kb c data, (asRequest P M g net e username (some k) o []).2 = [MsgType.build g .asReq r] ∧
      Asks e username o r ∧ PreauthKey P M o username k et kb ∧ newKerberosCipher et = .ok c ∧ r.req_body.etypes = [et] ∧
      (⟨2, MsgType.build g .encryptedData ⟨et, none, data⟩⟩ : PaData) ∈ r.padata.getD [] ∧
      c.decrypt P kb 1 data = .ok (MsgType.build g .paEncTsEnc (PaEncTsEnc.ofTime e.stampNow)) ∧
      SingleAnswer g (net [MsgType.build g .asReq r]) (asRequest P M g net e username (some k) o []).1 := by
  obtain ⟨r, et, kb, c, data, h, ha, hp, hc, het, hpa, hd⟩ := c47_with_key P hP M g e he username o k hk hne
  have hb : buildAsReq P M g e username (some k) o = .ok (MsgType.build g .asReq r) := by
    unfold buildAsReq; rw [h]; rfl
  have h1 := asRequest_eq M net username o (sent := []) hb
  rw [List.nil_append] at h1
  refine ⟨r, et, kb, c, data, by rw [h1], ha, hp, hc, het, ?_, hd, ?_⟩
  · rw [hpa]
    exact List.mem_append_right _ (List.mem_singleton.2 rfl)
  · rw [h1]
    dsimp only
    cases net [MsgType.build g .asReq r] with
    | none => exact .noAnswer
    | some a => exact parseResponse_single hg a

include he in
/-- C96. A password and no encryption type: a crash, and nothing is sent. -/
theorem c96_crash (pw : List Char) (h : ∀ t ∈ [18, 17, 23], t ∉ o.etypes) :
    asRequest P M g net e username (some (.secret pw)) o [] = (.error .panic, []) := by
  have := c47_no_etype P M g e he username pw o h
  unfold asRequest buildAsReq
  rw [this]
  rfl

include hP hg he in
/-- C96. The key plays no part in what is returned, nor do the names, times or the nonce: whatever reply arrives is handed
over, for any user, options and key (that can be used), none included. -/
theorem c96_unverified (key : Option Key) (hk : ∀ k, key = some k → k.WF)
    (hne : ∀ pw, key = some (.secret pw) → ∃ t ∈ [18, 17, 23], t ∈ o.etypes) (r : AsRep)
    (hs : (MsgType.build g .asRep r).length < 2^64) (hn : ∀ m, net m = some (MsgType.build g .asRep r)) :
    (asRequest P M g net e username key o []).1 = .ok (.asRep r) := by
  have hb : ∃ req, buildAsReq P M g e username key o = .ok req := by
    cases key with
    | none => exact build_without_key P M g he username o
    | some k =>
      cases hx : buildAsReq P M g e username (some k) o with
      | ok req => exact ⟨req, rfl⟩
      | error x =>
        obtain ⟨⟨pw, rfl⟩, hno⟩ := (build_with_key hP M g he username o k (hk k rfl)).1 ⟨x, hx⟩
        obtain ⟨t, ht, hto⟩ := hne pw rfl
        exact absurd hto (hno t ht)
  obtain ⟨req, hb⟩ := hb
  have h1 := asRequest_eq M net username o (sent := []) hb
  rw [hn] at h1
  rw [h1]
  dsimp only
  exact parseResponse_reply hg (readsReply_build g r trivial hs)

end

/-- C96. With the requester as a whole, after every history of calls: the exchange is with port 88 of the address it was made
with, over the transport chosen last, and nothing else on the network matters. -/
theorem c96_only_kdc (P : Prims) (M : CaseMap) (g : Cfg) (os os' : Os) (realm : List Char) (kdc : Bytes) (cs : List Call)
    (e : Env) (username : List Char) (key : Option Key) (h : SameToKdc kdc (chosen cs) os os') :
    ((Requester.new realm kdc).calls cs).exchange P M g os e username key =
      ((Requester.new realm kdc).calls cs).exchange P M g os' e username key := by
  have hd := (c46_history realm kdc cs).2.2.2.2
  rw [← c87_protocol realm kdc cs] at h
  generalize (Requester.new realm kdc).calls cs = r at hd h
  have hr : r.run os = r.run os' := by
    funext sent
    unfold Requester.run
    cases hp : r.protocol with
    | tcp => rw [hp] at h; simp only [SameToKdc] at h; simp only [hd, h]
    | udp => rw [hp] at h; simp only [SameToKdc] at h; simp only [hd, h]
  unfold Requester.exchange; rw [hr]

/-- C96. A KDC that answers is used in the same way over either transport (UDP: if its address is IPv4). -/
theorem c96_either_transport (P : Prims) (M : CaseMap) (g : Cfg) (os : Os) (net : Net) (realm : List Char) (kdc : Bytes)
    (cs : List Call) (e : Env) (username : List Char) (key : Option Key) (h : Serves kdc (chosen cs) os net)
    (h4 : chosen cs = .udp → kdc.length = 4) :
    ((Requester.new realm kdc).calls cs).exchange P M g os e username key =
      asRequest P M g net e username key ((Requester.new realm kdc).calls cs).options [] := by
  unfold Requester.exchange; rw [serves_net os net realm kdc cs h h4]

/-! On a case: an error answer, the crash, and a reply for somebody else. -/

example : exOptions.etypes = [18, 17, 23] ∧ (MsgType.build strictCfg .asRep (exRep exPassword)).length < 2^64 ∧
    (asRequest toyPrims asciiCase strictCfg (exNet exPassword) exEnv "mickey".toList (some exPassword) exOptions []).1
      = .ok (.krbError exPreauth) ∧
    (asRequest toyPrims asciiCase strictCfg (exNet exPassword) exEnv "mickey".toList (some exPassword)
      { exOptions with etypes := [] } []) = (.error .panic, []) ∧
    (asRequest toyPrims asciiCase strictCfg (fun _ => some (MsgType.build strictCfg .asRep (exRep exPassword))) exEnv
      "minnie".toList none { exOptions with realm := "OTHER".toList } []).1 = .ok (.asRep (exRep exPassword)) := by
  decide +kernel

end Verif.Kb
