import Verif.Props.KdcWrong
import Verif.Props.TwoRoads
import Verif.Props.Addresses
/-
Property theorems C120: the example of the documentation, from the password to the two files.
-/
set_option linter.unusedSimpArgs false
namespace Verif.Kb
open Verif.Asn1 Verif.Map Verif.Crypto Verif.Kdc

/-! ### The program and what is said about it -/

/-- how the program ended: did it reach its end (not if an `unwrap` failed or it was stopped), and what the two files hold -/
structure ReadmeEnd where
  finished : Bool
  krb : Option Bytes
  ccache : Option Bytes
deriving DecidableEq, Repr

/-- kerbeiros/src/lib.rs:12-33, the example of the documentation (README.md has it without the `clone`): ask for a ticket with a new requester, save it as a Windows file, then as a Linux file. `krb` and `cc` are the disk
for either file and what it held before. -/
def readme (M : CaseMap) (g : Cfg) (X : Ext) (os : Os) (krb cc : Disk × Option Bytes) (realm : List Char) (kdc : Bytes)
    (e1 e2 : Env) (username pw : List Char) : ReadmeEnd :=
  match ((Requester.new realm kdc).request stdPrims M g os e1 e2 username (some (.secret pw))).1 with
  | .error _ => ⟨false, krb.2, cc.2⟩
  | .ok c =>
    let s1 := (Warehouse.ofCredential c).saveKrbCred g krb.1 krb.2
    match s1.1 with
    | some (.ok ()) =>
      let s2 := (Warehouse.ofCredential c).saveCCache X g cc.1 cc.2
      ⟨decide (s2.1 = some (.ok ())), s1.2, s2.2⟩
    | _ => ⟨false, s1.2, cc.2⟩

/-- the messages that the program sends -/
def readmeSent (M : CaseMap) (g : Cfg) (os : Os) (realm : List Char) (kdc : Bytes) (e1 e2 : Env) (username pw : List Char) :
    List Bytes :=
  ((Requester.new realm kdc).request stdPrims M g os e1 e2 username (some (.secret pw))).2

/-- a disk that takes `n` octets, in whatever portions -/
def HasRoom (d : Disk) (n : Nat) : Prop :=
  d.create = .done ∧ (∀ e ∈ d.writes, e ≠ .fail ∧ e ≠ .accept 0) ∧
    n ≤ (d.writes.map (fun e => match e with | .accept n => n | _ => 0)).sum

/-- what the KDC issued has a form in both files -/
structure Storable (X : Ext) (g : Cfg) (c : Credential) : Prop where
  cacheable : Cacheable c
  fits : ((Warehouse.ofCredential c).toCCache X g).Fits
  message : (MsgType.build g .krbCred ((Warehouse.ofCredential c).toKrbCred g)).length < 2^64
  part : ((Warehouse.ofCredential c).toKrbCred g).enc_part.cipher.length < 2^64

/-- the KDC `K` is reached at port 88 of the address over TCP: every message gets out and its answer comes back in any pieces -/
def ReachedAt (K : Kdc) (clock : Nat → Int) (os : Os) (kdc : Bytes) (sent : List Bytes) : Prop :=
  ∀ pre m post, sent = pre ++ m :: post → m.length < 2^32 ∧ ∃ answer,
    Delivers (.tcp (os.tcp (kdc, 88) (pre ++ [m]))) m answer ∧ answer.length < 2^32 ∧ Answers K (clock (pre.length + 1)) m answer

/-- the same, and bad timestamps are refused -/
def RefusedAt (K : Kdc) (clock : Nat → Int) (os : Os) (kdc : Bytes) (sent : List Bytes) : Prop :=
  ∀ pre m post, sent = pre ++ m :: post → ∃ answer, Delivers (.tcp (os.tcp (kdc, 88) (pre ++ [m]))) m answer ∧
    answer.length < 2^32 ∧ Refuses K (clock (pre.length + 1)) m answer

/-! ### Lemmas -/

theorem delivers_net {os : Os} {kdc : Bytes} {realm : List Char} {pre : List Bytes} {m answer : Bytes}
    (h : Delivers (.tcp (os.tcp (kdc, 88) (pre ++ [m]))) m answer) (hl : answer.length < 2^32) :
    runsNet ((Requester.new realm kdc).run os) (pre ++ [m]) = some answer := by
  unfold runsNet
  rw [show (pre ++ [m]).getLastD [] = m by simp]
  rw [show (Requester.new realm kdc).run os (pre ++ [m]) = Run.tcp (os.tcp (kdc, 88) (pre ++ [m])) from rfl]
  generalize hrun : Run.tcp (os.tcp (kdc, 88) (pre ++ [m])) = run at h ⊢
  cases h with
  | tcp t _ _ rest ho hd => simp only [Run.exchange, c55_roundtrip t m answer rest ho hl hd]
  | udp u _ _ a1 a2 a3 a4 a5 hd => cases hrun

theorem saved_room {d : Disk} {data : Bytes} (h : HasRoom d data.length) (before : Option Bytes) :
    saveData d before data = (some (.ok ()), some data) := by
  obtain ⟨c, ws⟩ := d
  obtain ⟨h1, h2, h3⟩ := h
  dsimp only at h1 h2 h3
  subst h1
  exact c25_save_succeeds before data ws h2 h3

/-! ### C120 -/

/-- C120. The example works: at a KDC that follows RFC 4120 and has the user's password (conditions as in C73), the program ends
with both files written. The Linux file loads as the credential that the KDC issued, with only the documented losses; the Windows
file reads as a message with the issued ticket, its session key, names and times, and if the issued times include a start time and
there is no padata it converts to exactly the cache in the Linux file. -/
theorem c120_readme (M : CaseMap) (g : Cfg) (hg : g.Total) (X : Ext) (K : Kdc) (clock : Nat → Int) (os : Os)
    (krb cc : Disk × Option Bytes) (kdc : Bytes) (e1 e2 : Env) (he1 : EnvPlain e1) (he2 : EnvPlain e2) (username pw : List Char)
    (a : Account) (ha : K.account ⟨1, [username]⟩ = some a) (hkeys : ∀ k ∈ a.keys, StringToKey k.etype pw k.salt k.key)
    (hsome : a.keys ≠ [])
    (hpre : a.needsPreauth = true → M.upper K.realm = K.realm ∧ M.lower username = username ∧ username.getLast? ≠ some '$' ∧
      ∃ k ∈ a.keys, k.etype = 18 ∧ k.salt = K.realm ++ username)
    (hclock : e2.stampNow.secs - clock 2 ≤ 300 ∧ clock 2 - e2.stampNow.secs ≤ 300)
    (hnet : ReachedAt K clock os kdc (readmeSent M g os K.realm kdc e1 e2 username pw)) :
    ∃ r rep part k, Issues K a r rep part k ∧ ∀ c : Credential, c = ⟨rep.crealm, rep.cname, rep.ticket, part⟩ → Storable X g c →
      HasRoom krb.1 (MsgType.build g .krbCred ((Warehouse.ofCredential c).toKrbCred g)).length →
      HasRoom cc.1 ((Warehouse.ofCredential c).toCCache X g).build.length →
      ∃ krbFile ccFile, readme M g X os krb cc K.realm kdc e1 e2 username pw = ⟨true, some krbFile, some ccFile⟩ ∧
        loadCCache g ccFile = .ok (Warehouse.ofCredential (reset c)) ∧
        ∃ m, MsgType.parse g .krbCred krbFile = .ok (m, []) ∧ m.tickets = [rep.ticket] ∧ m.enc_part.etype = 0 ∧
          (∃ p i, MsgType.parse g .encKrbCredPart m.enc_part.cipher = .ok (p, []) ∧ p.ticket_info = [i] ∧ Exported c i) ∧
          (Lossless c → ∃ cache, krbCredToCcache X g m = .ok cache ∧ cache.build = ccFile) := by
  have hans : AnsweredBy K clock (runsNet ((Requester.new K.realm kdc).run os)) (readmeSent M g os K.realm kdc e1 e2 username pw) := by
    intro pre m post hs
    obtain ⟨h1, answer, h2, h3, h4⟩ := hnet pre m post hs
    exact ⟨h1, answer, delivers_net h2 h3, h3, h4⟩
  obtain ⟨k0, hk0⟩ := List.exists_mem_of_ne_nil _ hsome
  obtain ⟨r, rep, part, k, hi, hres, -, -⟩ := c73_password M g hg K clock (runsNet ((Requester.new K.realm kdc).run os)) e1 e2 he1 he2
    username pw (Options.new K.realm) a ha rfl hkeys
    ⟨k0, hk0, by
      have := stringToKey_type (hkeys k0 hk0)
      show k0.etype ∈ [18, 17, 23]
      simpa using this⟩
    (fun hp => by
      obtain ⟨q1, q2, q3, k, hk, q4, q5⟩ := hpre hp
      exact ⟨q1, q2, q3, k, hk, by rw [q4]; rfl, fun _ => q5⟩) hclock hans
  refine ⟨r, rep, part, k, hi, ?_⟩
  intro c hc hst hr1 hr2
  have hw : ∀ x ∈ (Warehouse.ofCredential c).credentials, WritableTimes x := by
    intro x hx
    rw [List.mem_singleton.1 hx, hc]
    obtain ⟨-, -, t1, t2, t3, t4⟩ := hi.times
    exact ⟨t1, t3, t2, t4⟩
  have ht : c.ticket = rep.ticket := by rw [hc]
  rw [← hc] at hres
  refine ⟨MsgType.build g .krbCred ((Warehouse.ofCredential c).toKrbCred g), ((Warehouse.ofCredential c).toCCache X g).build, ?_, ?_, ?_⟩
  · have e1' := saved_room hr1 krb.2
    have e2' := saved_room hr2 cc.2
    unfold readme
    rw [show ((Requester.new K.realm kdc).request stdPrims M g os e1 e2 username (some (.secret pw))).1 = _ from hres]
    dsimp only
    rw [show (Warehouse.ofCredential c).saveKrbCred g krb.1 krb.2 = _ from e1',
      show (Warehouse.ofCredential c).saveCCache X g cc.1 cc.2 = _ from e2']
    rfl
  · exact c25_reload_identity X g _ hst.fits hst.cacheable.named.1 (fun x hx => by rw [List.mem_singleton.1 hx]; exact hst.cacheable)
  · obtain ⟨m, hm, -, -, hm3, hm4, -, p, hp, hp2, -⟩ := c25_krb_cred g _ hw hst.message hst.part
    refine ⟨m, hm, by rw [hm3, ← ht]; rfl, hm4, ?_, ?_⟩
    · generalize hl : p.ticket_info = l at hp2
      cases hp2 with
      | cons h1 h2 =>
        cases h2
        exact ⟨p, _, hp, hl, h1⟩
    · intro hless
      refine ⟨_, ?_, rfl⟩
      have hm' := c39_roundtrip g .krbCred ((Warehouse.ofCredential c).toKrbCred g) trivial hst.message []
      rw [List.append_nil, hm] at hm'
      have e : m = (Warehouse.ofCredential c).toKrbCred g := by
        exact congrArg Prod.fst (Except.ok.inj hm')
      rw [e]
      exact (c77_agree_iff X g _ c [] rfl hw hst.part).2 ⟨rfl, rfl, fun x hx => by rw [List.mem_singleton.1 hx]; exact hless⟩

/-- C120, violated. For a user name with a capital letter, like the documentation's own "Bob", it does not: at a KDC that uses RFC 4120's
default salt, demands pre-authentication and has the right AES key of the right password, the program ends with a failed `unwrap`
and no file is written, unless the timestamp encrypted with the key of one salt happens to open with the key of another. -/
theorem c120_capital (M : CaseMap) (g : Cfg) (hg : g.Total) (X : Ext) (K : Kdc) (clock : Nat → Int) (os : Os)
    (krb cc : Disk × Option Bytes) (kdc : Bytes) (e1 e2 : Env) (he1 : EnvPlain e1) (he2 : EnvPlain e2) (username pw : List Char)
    (a : Account) (ha : K.account ⟨1, [username]⟩ = some a) (hpa : a.needsPreauth = true)
    (hkeys : ∀ k ∈ a.keys, StringToKey k.etype pw k.salt k.key ∧ (k.etype ≠ 23 → k.salt = K.realm ++ username))
    (hhas : ∃ k ∈ a.keys, k.etype = 18) (hu : (M.lower username).getLast? ≠ some '$')
    (hnet : ReachedAt K clock os kdc (readmeSent M g os K.realm kdc e1 e2 username pw))
    (href : RefusedAt K clock os kdc (readmeSent M g os K.realm kdc e1 e2 username pw)) :
    ∃ key ct, StringToKey 18 pw (M.upper K.realm ++ M.lower username) key ∧
      Encrypts 18 key 1 (PaEncTsEnc.der rfc (PaEncTsEnc.ofTime e2.stampNow)).bytes ct ∧
      ((∃ key' plain, StringToKey 18 pw (K.realm ++ username) key' ∧ Encrypts 18 key' 1 plain ct) ∨
        readme M g X os krb cc K.realm kdc e1 e2 username pw = ⟨false, krb.2, cc.2⟩) := by
  have hans : AnsweredBy K clock (runsNet ((Requester.new K.realm kdc).run os)) (readmeSent M g os K.realm kdc e1 e2 username pw) := by
    intro pre m post hs
    obtain ⟨h1, answer, h2, h3, h4⟩ := hnet pre m post hs
    exact ⟨h1, answer, delivers_net h2 h3, h3, h4⟩
  have href' : RefusedBy K clock (runsNet ((Requester.new K.realm kdc).run os)) (readmeSent M g os K.realm kdc e1 e2 username pw) := by
    intro pre m post hs
    obtain ⟨answer, h2, h3, h4⟩ := href pre m post hs
    exact ⟨answer, delivers_net h2 h3, h4⟩
  obtain ⟨kb, ct, h1, h2, h3⟩ := c74_locked_out M g hg K clock (runsNet ((Requester.new K.realm kdc).run os)) e1 e2 he1 he2
    username pw (Options.new K.realm) a ha rfl hpa
    (fun k hk => ⟨(hkeys k hk).1, fun h => by rw [(hkeys k hk).2 h]; simp [defaultSalt]⟩) hu 18 rfl hhas hans href'
  refine ⟨kb, ct, h1, h2, h3.imp id ?_⟩
  rintro ⟨err, -, he⟩
  unfold readme
  rw [show ((Requester.new K.realm kdc).request stdPrims M g os e1 e2 username (some (.secret pw))).1 = _ from he]

/-- C120. Networks as above exist for every KDC, with keys of a supported type and size and names of reasonable length. -/
theorem c120_exists (K : Kdc) (hK : ∀ n a, K.account n = some a → (∀ k ∈ a.keys, k.Ok ∧ (utf8 k.salt).length < 2^14) ∧
      (PrincipalName.der a.name).bytes.length < 2^20) (hr : (utf8 K.realm).length < 2^14) (clock : Nat → Int) :
    ∃ os : Os, ∀ (M : CaseMap) (g : Cfg) (kdc : Bytes) (e1 e2 : Env) (username pw : List Char), EnvPlain e1 → EnvPlain e2 →
      (utf8 username).length < 2^14 →
      ReachedAt K clock os kdc (readmeSent M g os K.realm kdc e1 e2 username pw) ∧
        RefusedAt K clock os kdc (readmeSent M g os K.realm kdc e1 e2 username pw) := by
  obtain ⟨net, hnet⟩ := c113_kdc_exists K hK hr clock
  refine ⟨⟨fun _ sent => ⟨true, [.accept (2^33)], [.data (be32 (UInt32.ofNat ((net sent).getD []).length) ++ (net sent).getD [])]⟩,
    fun _ _ _ => ⟨false, false, false, fun _ => false, false, none⟩⟩, ?_⟩
  intro M g kdc e1 e2 username pw he1 he2 hu
  have hlen := c111_dialogue stdPrims stdPrims_lawful M g (runsNet ((Requester.new K.realm kdc).run ⟨fun _ sent => ⟨true, [.accept (2^33)],
    [.data (be32 (UInt32.ofNat ((net sent).getD []).length) ++ (net sent).getD [])]⟩,
    fun _ _ _ => ⟨false, false, false, fun _ => false, false, none⟩⟩)) e1 e2 he1.ok he2.ok ⟨he1.stamp, he1.till, he1.rtime⟩
    ⟨he2.stamp, he2.till, he2.rtime⟩ username (some (.secret pw)) (fun k hk => by injection hk with hk; subst hk; trivial)
    (Options.new K.realm) (by show _ + 2 * (utf8 K.realm).length ≤ _; omega)
  have del : ∀ pre m answer, m.length ≤ 65507 → net (pre ++ [m]) = some answer → Delivers (.tcp ⟨true, [.accept (2^33)],
      [.data (be32 (UInt32.ofNat ((net (pre ++ [m])).getD []).length) ++ (net (pre ++ [m])).getD [])]⟩) m answer := by
    intro pre m answer hm ha
    refine .tcp _ _ _ [] ⟨rfl, ?_⟩ ?_
    · have hne : setSizeHeader m ≠ [] := by simp [setSizeHeader, be32]
      have hl : (setSizeHeader m).length ≤ 2^33 := by simp [setSizeHeader, be32]; omega
      obtain ⟨b, bs, hb⟩ := List.exists_cons_of_ne_nil hne
      rw [hb] at hl ⊢
      simp only [writeAll]
      rw [if_neg (by decide), List.drop_eq_nil_of_le hl]
      simp [writeAll]
    · rw [ha]
      simp [delivered, be32]
  have hall : ∀ m ∈ readmeSent M g ⟨fun _ sent => ⟨true, [.accept (2^33)],
    [.data (be32 (UInt32.ofNat ((net sent).getD []).length) ++ (net sent).getD [])]⟩,
    fun _ _ _ => ⟨false, false, false, fun _ => false, false, none⟩⟩ K.realm kdc e1 e2 username pw, m.length ≤ 65507 :=
    fun m hm => (hlen m hm).2.1
  obtain ⟨h1, h2⟩ := hnet _ (fun m hm => by have := hall m hm; omega)
  constructor
  · intro pre m post hs
    obtain ⟨q1, answer, q2, q3, q4⟩ := h1 pre m post hs
    exact ⟨q1, answer, del pre m answer (hall m (by rw [hs]; simp)) q2, q3, q4⟩
  · intro pre m post hs
    obtain ⟨-, answer, q2, q3, -⟩ := h1 pre m post hs
    obtain ⟨answer', p2, p3⟩ := h2 pre m post hs
    rw [q2] at p2
    injection p2 with p2
    subst p2
    exact ⟨answer, del pre m answer (hall m (by rw [hs]; simp)) q2, q3, p3⟩

/-! ### Cases that meet the hypotheses -/

/-- the user of `exKdc`, who need not pre-authenticate here -/
def readmeAccount : Account := { exAccount with needsPreauth := false }
def readmeOs : Os := ⟨fun _ _ => ⟨true, [.accept 20, .interrupted, .accept 1000], [.data (be32 (UInt32.ofNat (AsRep.der rfc kdcRep).bytes.length)),
  .interrupted, .data (AsRep.der rfc kdcRep).bytes]⟩, fun _ _ _ => ⟨false, false, false, fun _ => false, false, none⟩⟩
def readmeCredential : Credential := ⟨kdcRep.crealm, kdcRep.cname, kdcRep.ticket, kdcPart⟩

theorem readmeCredential_storable : Storable exExt strictCfg readmeCredential := by
  refine ⟨?_, by decide +kernel, by decide +kernel, by decide +kernel⟩
  have h := filePart_cacheable
  refine ⟨⟨List.cons_ne_nil _ _, List.cons_ne_nil _ _⟩, h.2, h.3, h.4, h.5, h.6, h.7, h.8⟩

example : (∀ k ∈ readmeAccount.keys, StringToKey k.etype "pw".toList k.salt k.key) ∧ readmeAccount.keys ≠ [] ∧
    HasRoom ⟨.done, [.accept 5, .interrupted, .accept 5000]⟩
      (MsgType.build strictCfg .krbCred ((Warehouse.ofCredential readmeCredential).toKrbCred strictCfg)).length ∧
    HasRoom ⟨.done, [.accept 5000]⟩ ((Warehouse.ofCredential readmeCredential).toCCache exExt strictCfg).build.length := by
  refine ⟨fun k hk => by rw [List.mem_singleton.1 hk]; exact kdcPassword, List.cons_ne_nil _ _, ⟨rfl, by simp, ?_⟩, ⟨rfl, by simp, ?_⟩⟩
  · decide +kernel
  · decide +kernel

/-- the program evaluated: both files are written, and the Linux file loads -/
example : (let x := (readme asciiCase strictCfg exExt readmeOs (⟨.done, [.accept 5, .interrupted, .accept 5000]⟩, none)
      (⟨.done, [.accept 5000]⟩, some [1, 2, 3]) "KINGDOM.HEARTS".toList [192, 168, 0, 1] kdcEnv kdcEnv "mickey".toList "pw".toList);
    x.finished = true ∧ (loadCCache strictCfg (x.ccache.getD [])).toOption = some (Warehouse.ofCredential (reset readmeCredential))) := by
  decide +kernel

/-- with the wrong password neither file is touched -/
example : readme asciiCase strictCfg exExt readmeOs (⟨.done, [.accept 5000]⟩, none) (⟨.done, [.accept 5000]⟩, some [1, 2, 3])
    "KINGDOM.HEARTS".toList [192, 168, 0, 1] kdcEnv kdcEnv "mickey".toList "pW".toList = ⟨false, none, some [1, 2, 3]⟩ := by
  decide +kernel

/-- the name in the documentation: the salt used is not the default salt of the account -/
example : calculateAesSalt asciiCase "CONTOSO.COM".toList "Bob".toList = utf8 "CONTOSO.COMbob".toList ∧
    utf8 "CONTOSO.COMbob".toList ≠ utf8 (defaultSalt "CONTOSO.COM".toList ⟨1, ["Bob".toList]⟩) := by decide +kernel

end Verif.Kb
