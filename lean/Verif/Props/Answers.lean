import Verif.Props.Dialogue
import Verif.Props.Trust
/-
Property theorems C105: which parts of the KDC's answers matter. Protocol version and message type inside the answers do not.
-/
namespace Verif.Kb
open Verif.Asn1
open Verif.Crypto (CErr Prims Key Cipher CaseMap newKerberosCipher)

/-! ### Specification -/

/-- two replies with the same client, ticket, encrypted part (type and ciphertext) and ETYPE-INFO2 elements (type 19); they may
differ in protocol version, message type, key version and all other pre-authentication data -/
def SameForClient (r r' : AsRep) : Prop :=
  r.crealm = r'.crealm ∧ r.cname = r'.cname ∧ r.ticket = r'.ticket ∧ r.enc_part.etype = r'.enc_part.etype ∧
    r.enc_part.cipher = r'.enc_part.cipher ∧
    (r.padata.getD []).filter (fun p => decide (p.padata_type = 19)) = (r'.padata.getD []).filter (fun p => decide (p.padata_type = 19))

/-- the same answer (or no answer), or two such replies -/
def SameAnswer (g : Cfg) (a a' : Option Bytes) : Prop :=
  a = a' ∨ ∃ x x' r r', a = some x ∧ a' = some x' ∧ ReadsReply g x r ∧ ReadsReply g x' r' ∧ SameForClient r r'

/-- the same result; an error that quotes a reply quotes the other reply -/
inductive SameResult : Except KErr Credential → Except KErr Credential → Prop
  | same (res) : SameResult res res
  | quoted (r r' e) (h : SameForClient r r') : SameResult (.error (.parseAsRep r e)) (.error (.parseAsRep r' e))

/-! ### Lemmas -/

theorem saltLoop_filter (g : Cfg) (l : List PaData) :
    saltLoop g l = saltLoop g (l.filter (fun p => decide (p.padata_type = 19))) := by
  induction l with
  | nil => rfl
  | cons p ps ih =>
    by_cases h : p.padata_type = 19
    · rw [List.filter_cons_of_pos (by simpa using h)]
      simp only [saltLoop, if_pos h, ih]
    · rw [List.filter_cons_of_neg (by simpa using h), ← ih]
      simp only [saltLoop, if_neg h]

theorem asRepSalt_same {g : Cfg} {r r' : AsRep} (h : SameForClient r r') : asRepSalt g r = asRepSalt g r' := by
  rw [asRepSalt_eq, asRepSalt_eq, saltLoop_filter, h.2.2.2.2.2, ← saltLoop_filter]

theorem kdcRep_same (P : Prims) {g : Cfg} (k : Key) {r r' : AsRep} (h : SameForClient r r') :
    kdcRepToCredential P g k r = kdcRepToCredential P g k r' := by
  have hs := asRepSalt_same (g := g) h
  obtain ⟨h1, h2, h3, h4, h5, -⟩ := h
  have hd : decryptRep P g k r = decryptRep P g k r' := by
    have hk : decryptWithKey P k r = decryptWithKey P k r' := by
      unfold decryptWithKey tryDecryptWithKey
      rw [h4, h5]
    cases k with
    | secret pw =>
      show decryptWithPassword P g pw r = decryptWithPassword P g pw r'
      unfold decryptWithPassword
      rw [h4, h5, hs]
    | rc4Key b => exact hk
    | aes128Key b => exact hk
    | aes256Key b => exact hk
  unfold kdcRepToCredential
  rw [hd, h1, h2, h3]

theorem extract_same (P : Prims) {g : Cfg} (key : Option Key) {r r' : AsRep} (h : SameForClient r r') :
    SameResult (extractCredential P g key r) (extractCredential P g key r') := by
  unfold extractCredential
  cases key with
  | none => exact .quoted r r' _ h
  | some k =>
    dsimp only
    rw [kdcRep_same P k h]
    generalize kdcRepToCredential P g k r' = x
    cases x with
    | ok c => exact .same _
    | error e =>
      cases e <;> first | exact .quoted r r' _ h | exact .same _

/-! ### C105 -/

/-- C105. Only these parts of the replies matter: with answers that agree in them a request sends the same messages and has the
same result (an error that quotes the reply quotes the reply received). -/
theorem c105_what_matters (P : Prims) (M : CaseMap) {g : Cfg} (hg : g.Total) (net net' : Net) (e1 e2 : Env) (username : List Char)
    (key : Option Key) (o : Options) (h : ∀ sent, SameAnswer g (net sent) (net' sent)) :
    (tgtRequest P M g net e1 e2 username key o).2 = (tgtRequest P M g net' e1 e2 username key o).2 ∧
    SameResult (tgtRequest P M g net e1 e2 username key o).1 (tgtRequest P M g net' e1 e2 username key o).1 := by
  have one : ∀ e (k : Option Key) sent, asRequest P M g net e username k o sent = asRequest P M g net' e username k o sent ∨
      ∃ r r' s, asRequest P M g net e username k o sent = (.ok (.asRep r), s) ∧
        asRequest P M g net' e username k o sent = (.ok (.asRep r'), s) ∧ SameForClient r r' := by
    intro e k sent
    unfold asRequest
    cases buildAsReq P M g e username k o with
    | error x => exact .inl rfl
    | ok raw =>
      rcases h (sent ++ [raw]) with h | ⟨x, x', r, r', h1, h2, h3, h4, h5⟩
      · left; dsimp only; rw [h]
      · right
        refine ⟨r, r', sent ++ [raw], ?_, ?_, h5⟩
        · dsimp only; rw [h1]; dsimp only; rw [parseResponse_reply hg h3]
        · dsimp only; rw [h2]; dsimp only; rw [parseResponse_reply hg h4]
  have second : ∀ k sent, (secondRequest P M g net e2 username k o sent).2 = (secondRequest P M g net' e2 username k o sent).2 ∧
      SameResult (secondRequest P M g net e2 username k o sent).1 (secondRequest P M g net' e2 username k o sent).1 := by
    intro k sent
    unfold secondRequest
    rcases one e2 (some k) sent with h | ⟨r, r', s, h1, h2, h3⟩
    · rw [h]; exact ⟨rfl, .same _⟩
    · rw [h1, h2]; exact ⟨rfl, extract_same P (some k) h3⟩
  unfold tgtRequest
  rcases one e1 none [] with h | ⟨r, r', s, h1, h2, h3⟩
  · rw [h]
    generalize asRequest P M g net' e1 username none o [] = x
    rcases x with ⟨x | x | x, s⟩
    · exact ⟨rfl, .same _⟩
    · dsimp only
      by_cases hc : x.error_code ≠ 25
      · rw [if_pos hc, if_pos hc]; exact ⟨rfl, .same _⟩
      · rw [if_neg hc, if_neg hc]
        cases key with
        | none => exact ⟨rfl, .same _⟩
        | some k => exact second k s
    · exact ⟨rfl, .same _⟩
  · rw [h1, h2]; exact ⟨rfl, extract_same P key h3⟩

/-- C105. Client and ticket of the credential are those in the clear part of the reply. -/
theorem c105_contents (P : Prims) (g : Cfg) (key : Option Key) (r : AsRep) (cred : Credential)
    (h : extractCredential P g key r = .ok cred) :
    cred.crealm = r.crealm ∧ cred.cname = r.cname ∧ cred.ticket = r.ticket := by
  unfold extractCredential at h
  cases key with
  | none => cases h
  | some k =>
    dsimp only at h
    cases hk : kdcRepToCredential P g k r with
    | error e => rw [hk] at h; cases e <;> cases h
    | ok c =>
      rw [hk] at h
      injection h with h
      subst h
      unfold kdcRepToCredential at hk
      cases hd : decryptRep P g k r with
      | error e => rw [hd] at hk; cases hk
      | ok plain =>
        rw [hd] at hk
        cases hp : liftP ((encAsRepPartC g).dec g plain) with
        | error e =>
          have : (do let part ← liftP ((encAsRepPartC g).dec g plain); return ⟨r.crealm, r.cname, r.ticket, part⟩ : Except KErr Credential) = .ok c := hk
          rw [hp] at this; cases this
        | ok part =>
          have : (do let part ← liftP ((encAsRepPartC g).dec g plain); return ⟨r.crealm, r.cname, r.ticket, part⟩ : Except KErr Credential) = .ok c := hk
          rw [hp] at this
          have : Except.ok (⟨r.crealm, r.cname, r.ticket, part⟩ : Credential) = Except.ok c := this
          injection this with this
          subst this
          exact ⟨rfl, rfl, rfl⟩

/-- C105. Violated: a reply that gives itself another protocol version and another message type is accepted like a proper one. -/
theorem c105_version_not_checked {P : Prims} (hP : P.Lawful) (M : CaseMap) {g : Cfg} (hg : g.Total) (net : Net) {e1 e2 : Env}
    (username : List Char) (o : Options) (he1 : EnvOk e1) (k : Key) (hkw : k.WF) (r : AsRep) (part : EncAsRepPart)
    (hi : Issued P g k r part) (version type : Int32)
    (hs : (MsgType.build g .asRep { r with pvno := version, msg_type := type }).length < 2^64)
    (hw' : MsgType.WF .encAsRepPart part) (hs' : (MsgType.build g .encAsRepPart part).length < 2^64)
    (h : Decides P M g net e1 e2 username (some k) o (some (MsgType.build g .asRep { r with pvno := version, msg_type := type }))) :
    (tgtRequest P M g net e1 e2 username (some k) o).1 = .ok ⟨r.crealm, r.cname, r.ticket, part⟩ :=
  c50_honest hP M hg net username o he1 k hkw { r with pvno := version, msg_type := type } part hi trivial hs hw' hs' h

/-- C105. Violated: whether an error is a demand for pre-authentication is its code alone; an error message with any protocol version
and message type makes the client send its encrypted timestamp. -/
theorem c105_error_version_not_checked (g : Cfg) (err : KrbError) (hw : MsgType.WF .krbError err) (version type : Int32)
    (hs : (MsgType.build g .krbError { err with pvno := version, msg_type := type }).length < 2^64) (hc : err.error_code = 25) :
    DemandsPreauth g (some (MsgType.build g .krbError { err with pvno := version, msg_type := type })) := by
  refine ⟨_, { err with pvno := version, msg_type := type }, rfl, ⟨[], ?_⟩, hc⟩
  have := c39_roundtrip g .krbError { err with pvno := version, msg_type := type } hw hs []
  rwa [List.append_nil] at this

/-! ### Examples -/

example : SameForClient (exRep exPassword) { exRep exPassword with pvno := 4, msg_type := 99 } := ⟨rfl, rfl, rfl, rfl, rfl, rfl⟩
example : ¬ SameForClient (exRep exPassword) { exRep exPassword with crealm := "OTHER".toList } := fun h => absurd h.1 (by decide)

example : (tgtRequest Crypto.toyPrims Crypto.asciiCase strictCfg (fun _ => some (MsgType.build strictCfg .asRep
      { exRep exPassword with pvno := 4, msg_type := 99 })) exEnv exEnv "mickey".toList (some exPassword) exOptions).1 =
    .ok ⟨(exRep exPassword).crealm, (exRep exPassword).cname, (exRep exPassword).ticket, exPart⟩ := by decide +kernel

end Verif.Kb
