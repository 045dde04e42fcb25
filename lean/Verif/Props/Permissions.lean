import Verif.PermissionModel
import Verif.Props.Warehouse
import Verif.Props.EndToEnd
/-
C89: who may read the files; and C25 in terms of a credential's public functions.
-/
namespace Verif.Kb
open Verif.Asn1 Verif.Map

/-! ### Specification -/

/-- only the owner has any access -/
def Private (mode : UInt16) : Prop := mode &&& 0o077 = 0

/-- every user of the machine may read -/
def WorldReadable (mode : UInt16) : Prop := mode &&& 0o004 ≠ 0

/-! ### Permission bits -/

theorem bv_private (u : BitVec 16) : (0o666#16 &&& ~~~u) &&& 0o077#16 = 0#16 ↔ u &&& 0o066#16 = 0o066#16 := by
  constructor
  · intro h
    apply BitVec.eq_of_getLsbD_eq
    intro i hi
    have := congrArg (fun v => v.getLsbD i) h
    simp only [BitVec.getLsbD_and, BitVec.getLsbD_not, hi, decide_true, Bool.true_and, BitVec.getLsbD_zero] at this ⊢
    have e1 : ((0o666#16).getLsbD i && (0o077#16).getLsbD i) = (0o066#16).getLsbD i := by
      rw [← BitVec.getLsbD_and]; rfl
    rw [← e1]
    revert this
    cases u.getLsbD i <;> cases (0o666#16).getLsbD i <;> cases (0o077#16).getLsbD i <;> simp
  · intro h
    apply BitVec.eq_of_getLsbD_eq
    intro i hi
    have := congrArg (fun v => v.getLsbD i) h
    simp only [BitVec.getLsbD_and, BitVec.getLsbD_not, hi, decide_true, Bool.true_and, BitVec.getLsbD_zero] at this ⊢
    have e1 : ((0o666#16).getLsbD i && (0o077#16).getLsbD i) = (0o066#16).getLsbD i := by
      rw [← BitVec.getLsbD_and]; rfl
    rw [← e1] at this
    revert this
    cases u.getLsbD i <;> cases (0o666#16).getLsbD i <;> cases (0o077#16).getLsbD i <;> simp

theorem private_iff (u : UInt16) : (0o666 &&& ~~~u) &&& 0o077 = 0 ↔ u &&& 0o066 = 0o066 := by
  have h := bv_private u.toBitVec
  constructor
  · intro e
    apply UInt16.toBitVec_inj.1
    exact h.1 (congrArg UInt16.toBitVec e)
  · intro e
    apply UInt16.toBitVec_inj.1
    exact h.2 (congrArg UInt16.toBitVec e)

/-- C89. The permission bits of the file after a save, whatever the disk does and wherever the process stops: those of an
existing file, otherwise 0666 without the bits of the umask. The content is that of C25. -/
theorem c89_mode (umask : UInt16) (d : Disk) (before : Option FileNode) (data : Bytes) :
    (saveNode umask d before data).1 = (saveData d (before.map (·.content)) data).1 ∧
    (saveNode umask d before data).2.map (·.content) = (saveData d (before.map (·.content)) data).2 ∧
    ∀ f, (saveNode umask d before data).2 = some f →
      (∀ b, before = some b → f.mode = b.mode) ∧ (before = none → f.mode = 0o666 &&& ~~~umask) := by
  unfold saveNode saveData
  cases d.create with
  | failed =>
    refine ⟨rfl, rfl, fun f hf => ⟨fun b hb => ?_, fun hb => ?_⟩⟩
    · rw [hb] at hf; cases hf; rfl
    · rw [hb] at hf; cases hf
  | cut =>
    refine ⟨rfl, rfl, fun f hf => ⟨fun b hb => ?_, fun hb => ?_⟩⟩
    · rw [hb] at hf; cases hf; rfl
    · rw [hb] at hf; cases hf
  | done =>
    have key : ∀ f (c : Option Bytes), c.map (fun c => (⟨c, createMode umask before⟩ : FileNode)) = some f →
        (∀ b, before = some b → f.mode = b.mode) ∧ (before = none → f.mode = 0o666 &&& ~~~umask) := by
      intro f c hf
      rw [Option.map_eq_some_iff] at hf
      obtain ⟨x, -, rfl⟩ := hf
      exact ⟨fun b hb => by rw [hb]; rfl, fun hb => by rw [hb]; rfl⟩
    rcases writeAll d.writes data with ⟨e, b⟩
    cases e <;> exact ⟨rfl, rfl, fun f hf => key f (some b) hf⟩

/-- C89. Expected: the file is for its owner only. Violated: a file that is created is private iff the umask removes all access
of group and others; a file that existed iff it was private. Nothing else makes it so, during the save or after it. -/
theorem c89_private_iff (umask : UInt16) (d : Disk) (before : Option FileNode) (data : Bytes) (f : FileNode)
    (hf : (saveNode umask d before data).2 = some f) :
    Private f.mode ↔ (before = none ∧ umask &&& 0o066 = 0o066) ∨ ∃ b, before = some b ∧ Private b.mode := by
  obtain ⟨-, -, h⟩ := c89_mode umask d before data
  obtain ⟨h1, h2⟩ := h f hf
  cases before with
  | none =>
    unfold Private
    rw [h2 rfl, private_iff]
    exact ⟨fun h => .inl ⟨rfl, h⟩, fun h => h.elim (·.2) (fun ⟨_, h, _⟩ => (nomatch h))⟩
  | some b =>
    rw [h1 b rfl]
    exact ⟨fun h => .inr ⟨b, rfl, h⟩, fun h => h.elim (fun h => (nomatch h.1)) (fun ⟨_, h, hp⟩ => by cases h; exact hp)⟩

theorem key_in_build (X : Ext) (g : Cfg) (w : Warehouse) (c : Credential) (hc : c ∈ w.credentials) :
    ∃ pre post, (w.toCCache X g).build = pre ++ c.client_part.key.keyvalue ++ post := by
  have hm : Credential.toEntry X g c ∈ (w.toCCache X g).credentials := List.mem_map.2 ⟨c, hc, rfl⟩
  obtain ⟨l, r, hlr⟩ := List.append_of_mem hm
  have hk : (Credential.toEntry X g c).key.keyvalue = c.client_part.key.keyvalue := rfl
  generalize w.toCCache X g = cc at hlr
  generalize Credential.toEntry X g c = e at hlr hk
  refine ⟨be16 cc.file_format_version ++ be16 (UInt16.ofNat cc.header.build.length) ++ cc.header.build
    ++ cc.primary_principal.build ++ l.flatMap CC.Credential.build ++ e.client.build ++ e.server.build
    ++ (be16 e.key.keytype ++ be16 e.key.etype ++ be16 (UInt16.ofNat e.key.keyvalue.length)),
    e.time.build ++ [e.is_skey] ++ be32 e.tktflags
    ++ be32 (UInt32.ofNat e.addrs.length) ++ e.addrs.flatMap CC.Address.build
    ++ be32 (UInt32.ofNat e.authdata.length) ++ e.authdata.flatMap CC.Address.build
    ++ CC.buildCos e.ticket ++ CC.buildCos e.second_ticket ++ r.flatMap CC.Credential.build, ?_⟩
  rw [← hk]
  simp only [CC.CCache.build, hlr, List.flatMap_append, List.flatMap_cons, CC.Credential.build, CC.KeyBlock.build,
    List.append_assoc]

theorem bv_world (u : BitVec 16) (h : u &&& 0o004#16 = 0#16) : (0o666#16 &&& ~~~u) &&& 0o004#16 ≠ 0#16 := by
  intro h'
  have h1 := congrArg (fun v => v.getLsbD 2) h
  have h2 := congrArg (fun v => v.getLsbD 2) h'
  simp only [BitVec.getLsbD_and, BitVec.getLsbD_not] at h1 h2
  have e1 : (0o004#16).getLsbD 2 = true := rfl
  have e2 : (0o666#16).getLsbD 2 = true := rfl
  have e3 : (0#16).getLsbD 2 = false := rfl
  rw [e1, e3] at h1
  rw [e1, e2, e3] at h2
  revert h1 h2
  cases u.getLsbD 2 <;> simp

theorem world_of_umask (u : UInt16) (h : u &&& 0o004 = 0) : WorldReadable (0o666 &&& ~~~u) := by
  intro h'
  exact bv_world u.toBitVec (congrArg UInt16.toBitVec h) (congrArg UInt16.toBitVec h')

/-- a save to a new file that reports success -/
theorem new_file (umask : UInt16) (d : Disk) (data : Bytes) (hok : (saveNode umask d none data).1 = some (.ok ())) :
    (saveNode umask d none data).2 = some ⟨data, 0o666 &&& ~~~umask⟩ := by
  obtain ⟨h1, h2, h3⟩ := c89_mode umask d none data
  rw [h1] at hok
  have hc := (c25_save d ((none : Option FileNode).map (·.content)) data).2.1 hok
  rw [hc, Option.map_eq_some_iff] at h2
  obtain ⟨f, hf, hd⟩ := h2
  have hm := (h3 f hf).2 rfl
  rw [hf]
  cases f
  simp only at hd hm
  rw [hd, hm]

/-- C89. So with a umask that lets others read (022 is usual), saving to a new file leaves, on success, a file that every user
may read; it holds the session keys in the clear, and whoever loads it gets the credentials. -/
theorem c89_exposed (X : Ext) (g : Cfg) (w : Warehouse) (umask : UInt16) (hu : umask &&& 0o004 = 0) (d : Disk)
    (hok : (saveNode umask d none (w.toCCache X g).build).1 = some (.ok ())) :
    ∃ f, (saveNode umask d none (w.toCCache X g).build).2 = some f ∧ WorldReadable f.mode ∧
      (∀ c ∈ w.credentials, ∃ pre post, f.content = pre ++ c.client_part.key.keyvalue ++ post) ∧
      ((w.toCCache X g).Fits → w.client.name_string ≠ [] → (∀ c ∈ w.credentials, Cacheable c) →
        loadCCache g f.content = .ok { w with credentials := w.credentials.map reset }) :=
  ⟨_, new_file umask d _ hok, world_of_umask umask hu, fun c hc => key_in_build X g w c hc,
    fun h hw hc => c25_reload_identity X g w h hw hc⟩

/-- C89. Likewise for the KRB-CRED file: everybody can read the tickets and, unencrypted, the session keys. -/
theorem c89_exposed_krb_cred (g : Cfg) (w : Warehouse) (umask : UInt16) (hu : umask &&& 0o004 = 0) (d : Disk)
    (ht : ∀ c ∈ w.credentials, TimeOk c.client_part.authtime ∧ TimeOk c.client_part.endtime ∧
      OptOf TimeOk c.client_part.starttime ∧ OptOf TimeOk c.client_part.renew_till)
    (hs : (MsgType.build g .krbCred (w.toKrbCred g)).length < 2^64)
    (hs' : (w.toKrbCred g).enc_part.cipher.length < 2^64)
    (hok : (saveNode umask d none (MsgType.build g .krbCred (w.toKrbCred g))).1 = some (.ok ())) :
    ∃ f, (saveNode umask d none (MsgType.build g .krbCred (w.toKrbCred g))).2 = some f ∧ WorldReadable f.mode ∧
      ∃ k, MsgType.parse g .krbCred f.content = .ok (k, []) ∧ k.tickets = w.credentials.map (·.ticket) ∧
        ∃ p, MsgType.parse g .encKrbCredPart k.enc_part.cipher = .ok (p, []) ∧
          p.ticket_info.map (·.key) = w.credentials.map (·.client_part.key) := by
  obtain ⟨k, h1, -, -, h4, -, -, p, h7, h8, -⟩ := c25_krb_cred g w ht hs hs'
  refine ⟨_, new_file umask d _ hok, world_of_umask umask hu, k, h1, h4, p, h7, ?_⟩
  clear h7 h1 h4 hs hs' ht hok
  generalize w.credentials = cs at h8
  generalize p.ticket_info = is at h8
  induction h8 with
  | nil => rfl
  | cons h _ ih => rw [List.map_cons, List.map_cons, ih, h.key]

/-- a new file under the usual umask, a private one under 077, and a private file that existed -/
example : createMode 0o022 none = 0o644 ∧ createMode 0o077 none = 0o600 ∧ createMode 0o022 (some ⟨[], 0o600⟩) = 0o600 ∧
    (0o022 : UInt16) &&& 0o004 = 0 ∧ (0o077 : UInt16) &&& 0o066 = 0o066 := by decide

example : saveNode 0o022 ⟨.done, [.accept 2, .interrupted, .accept 5]⟩ none [1, 2, 3] = (some (.ok ()), some ⟨[1, 2, 3], 0o644⟩) ∧
    saveNode 0o022 ⟨.done, [.accept 2]⟩ none [1, 2, 3] = (none, some ⟨[1, 2], 0o644⟩) ∧
    saveNode 0o022 ⟨.done, [.fail]⟩ (some ⟨[7], 0o600⟩) [1, 2, 3] = (some (.error .io), some ⟨[], 0o600⟩) := by decide

/-! ### C25 through the public functions -/

/-- C25. A warehouse that fits the file format, saved and loaded again: every function of every credential gives what it gave
before, except that a missing start time has become the time of authentication. -/
theorem c25_getters (X : Ext) (g : Cfg) (w : Warehouse) (h : (w.toCCache X g).Fits)
    (hw : w.client.name_string ≠ []) (hc : ∀ c ∈ w.credentials, Cacheable c) :
    ∃ w', loadCCache g (w.toCCache X g).build = .ok w' ∧ w'.realm = w.realm ∧ w'.client = w.client ∧
      List.Forall₂ (fun c c' : Credential => c'.getters =
        { c.getters with starttime := some (c.getters.starttime.getD c.getters.authtime) }) w.credentials w'.credentials := by
  refine ⟨_, c25_reload_identity X g w h hw hc, rfl, rfl, ?_⟩
  dsimp only
  clear h hw hc
  induction w.credentials with
  | nil => exact .nil
  | cons c cs ih => exact .cons rfl ih

example : (reset ⟨fileRep.crealm, fileRep.cname, fileRep.ticket, filePart⟩).getters ≠
    (⟨fileRep.crealm, fileRep.cname, fileRep.ticket, filePart⟩ : Credential).getters := by
  intro h
  have := congrArg Getters.starttime h
  cases this

/-! ### C50 through the public functions (`Dialogue` shows cases that meet the hypotheses, with a password and with a key) -/

/-- C50. Against a KDC that answers with the reply issued for the user's key, every function of the credential returned gives
the field of that name: realm, client and ticket of the reply; times, flags, session key, server, addresses and encrypted
pre-authentication data of its encrypted part. -/
theorem c50_getters {P : Crypto.Prims} (hP : P.Lawful) (M : Crypto.CaseMap) {g : Cfg} (hg : g.Total) (net : Net) {e1 e2 : Env}
    (username : List Char) (o : Options) (he1 : EnvOk e1) (k : Crypto.Key) (hkw : k.WF) (r : AsRep) (part : EncAsRepPart)
    (hi : Issued P g k r part) (hw : MsgType.WF .asRep r) (hs : (MsgType.build g .asRep r).length < 2^64)
    (hw' : MsgType.WF .encAsRepPart part) (hs' : (MsgType.build g .encAsRepPart part).length < 2^64)
    (h : Decides P M g net e1 e2 username (some k) o (some (MsgType.build g .asRep r))) :
    ∃ c, (tgtRequest P M g net e1 e2 username (some k) o).1 = .ok c ∧
      c.getters = ⟨r.crealm, r.cname, r.ticket, part.authtime, part.starttime, part.endtime, part.renew_till, part.flags,
        part.key, part.srealm, part.sname, part.caddr, part.encrypted_pa_data⟩ :=
  ⟨_, c50_honest hP M hg net username o he1 k hkw r part hi hw hs hw' hs' h, rfl⟩

end Verif.Kb
