import Verif.Props.Dialogue
/-
Property theorems C103: what the messages of a ticket request show of the user's secret.
-/
namespace Verif.Kb
open Verif.Asn1
open Verif.Crypto (CErr Prims Key Cipher CaseMap newKerberosCipher isSupportedEtype calculateAesSalt)

/-! ### Specification -/

/-- the same bytes, except for one run of bytes, which has the same length in both and satisfies `R` -/
def AlikeBut (R : Bytes → Bytes → Prop) (m m' : Bytes) : Prop :=
  ∃ a d d' b, m = a ++ d ++ b ∧ m' = a ++ d' ++ b ∧ d.length = d'.length ∧ R d d'

/-- two ciphertexts of the same text, under the first and the second key -/
def SameText (P : Prims) (c : Cipher) (kb kb' : Bytes) (text : Bytes) (d d' : Bytes) : Prop :=
  c.decrypt P kb 1 d = .ok text ∧ c.decrypt P kb' 1 d' = .ok text

/-! ### Lemmas -/

theorem AlikeBut.length {R m m'} (h : AlikeBut R m m') : m.length = m'.length := by
  obtain ⟨a, d, d', b, rfl, rfl, hl, -⟩ := h
  simp [hl]

theorem AlikeBut.run {R : Bytes → Bytes → Prop} {d d' : Bytes} (h : d.length = d'.length) (hr : R d d') : AlikeBut R d d' :=
  ⟨[], d, d', [], by simp, by simp, h, hr⟩

theorem AlikeBut.before {R m m'} (x : Bytes) (h : AlikeBut R m m') : AlikeBut R (x ++ m) (x ++ m') := by
  obtain ⟨a, d, d', b, rfl, rfl, hl, hr⟩ := h
  exact ⟨x ++ a, d, d', b, by simp, by simp, hl, hr⟩

theorem AlikeBut.after {R m m'} (y : Bytes) (h : AlikeBut R m m') : AlikeBut R (m ++ y) (m' ++ y) := by
  obtain ⟨a, d, d', b, rfl, rfl, hl, hr⟩ := h
  exact ⟨a, d, d', b ++ y, by simp, by simp, hl, hr⟩

theorem AlikeBut.tlv {R m m'} (t : UInt8) (h : AlikeBut R m m') : AlikeBut R (tlv t m) (tlv t m') := by
  unfold Asn1.tlv
  rw [← h.length]
  exact (h.before (buildLen m.length)).before [t]

theorem encryptedData_alike {R} (g : Cfg) (et : Int32) {d d' : Bytes} (h : d.length = d'.length) (hr : R d d') :
    AlikeBut R (MsgType.build g .encryptedData ⟨et, none, d⟩) (MsgType.build g .encryptedData ⟨et, none, d'⟩) := by
  have e : ∀ x : Bytes, MsgType.build g .encryptedData ⟨et, none, x⟩ =
      Asn1.tlv 0x30 (Asn1.tlv 0xa0 (Asn1.tlv 2 (intBytes et)) ++ ([] ++ (Asn1.tlv 0xa2 (Asn1.tlv 4 x) ++ []))) := fun _ => rfl
  rw [e, e]
  exact (((((AlikeBut.run h hr).tlv 4).tlv 0xa2).after []).before [] |>.before _).tlv 0x30

theorem asReq_alike {R} (g : Cfg) (pv mt : Int32) (pre : List PaData) (t : Int32) (body : KdcReqBody) {v v' : Bytes} (h : AlikeBut R v v') :
    AlikeBut R (MsgType.build g .asReq ⟨pv, mt, some (pre ++ [⟨t, v⟩]), body⟩)
      (MsgType.build g .asReq ⟨pv, mt, some (pre ++ [⟨t, v'⟩]), body⟩) := by
  have e : ∀ x : Bytes, MsgType.build g .asReq ⟨pv, mt, some (pre ++ [⟨t, x⟩]), body⟩ =
      Asn1.tlv 0x6a (Asn1.tlv 0x30 (Asn1.tlv 0xa1 (Asn1.tlv 2 (intBytes pv)) ++ (Asn1.tlv 0xa2 (Asn1.tlv 2 (intBytes mt)) ++
        (Asn1.tlv 0xa3 (Asn1.tlv 0x30 ((pre ++ [PaData.mk t x]).flatMap (paDataC g).enc)) ++
          (Asn1.tlv 0xa4 ((kdcReqBodyC g).enc body) ++ []))))) := fun _ => rfl
  have e2 : ∀ x : Bytes, (paDataC g).enc ⟨t, x⟩ =
      Asn1.tlv 0x30 (Asn1.tlv 0xa1 (Asn1.tlv 2 (intBytes t)) ++ (Asn1.tlv 0xa2 (Asn1.tlv 4 x) ++ [])) := fun _ => rfl
  have h1 : AlikeBut R ((paDataC g).enc ⟨t, v⟩) ((paDataC g).enc ⟨t, v'⟩) := by
    rw [e2, e2]
    exact ((((h.tlv 4).tlv 0xa2).after []).before _).tlv 0x30
  have h2 : AlikeBut R ((pre ++ [PaData.mk t v]).flatMap (paDataC g).enc) ((pre ++ [PaData.mk t v']).flatMap (paDataC g).enc) := by
    rw [List.flatMap_append, List.flatMap_append, List.flatMap_singleton, List.flatMap_singleton]
    exact h1.before _
  rw [e, e]
  exact (((((h2.tlv 0x30).tlv 0xa3).after _).before _).before _ |>.tlv 0x30).tlv 0x6a

/-- keys of one kind are used with one type -/
theorem preauth_same_type {P : Prims} (hP : P.Lawful) (M : CaseMap) (o : Options) (username : List Char) {k k' : Key} (hk : k.WF)
    (hk' : k'.WF) (hs : k.etypes = k'.etypes) :
    (∃ pw pw', k = .secret pw ∧ k' = .secret pw' ∧ ∀ t ∈ [18, 17, 23], t ∉ o.etypes) ∨
    ∃ et kb kb' c, PreauthKey P M o username k et kb ∧ PreauthKey P M o username k' et kb' ∧ newKerberosCipher et = .ok c ∧
      c.keyOk kb ∧ c.keyOk kb' := by
  rcases preauth_exists hP M o username k hk with ⟨⟨pw, h1⟩, h2⟩ | ⟨et, kb, c, h1, h2, h3⟩
  · subst h1
    cases k' with
    | secret pw' => exact .inl ⟨pw, pw', rfl, rfl, h2⟩
    | _ => simp [Key.etypes] at hs
  · rcases preauth_exists hP M o username k' hk' with ⟨⟨pw, h1'⟩, h2'⟩ | ⟨et', kb', c', h1', h2', h3'⟩
    · subst h1'
      cases k with
      | secret pw' =>
        have hm := List.mem_of_find?_eq_some h1.1
        have hf := List.find?_some h1.1
        exact absurd (of_decide_eq_true hf) (h2' et hm)
      | _ => simp [Key.etypes] at hs
    · have he : et' = et := by
        cases k <;> cases k' <;> simp [Key.etypes] at hs
        · have a := h1.1
          rw [h1'.1] at a
          exact Option.some.inj a
        all_goals exact h1'.1.trans h1.1.symm
      subst he
      rw [h2] at h2'
      injection h2' with h2'
      subst h2'
      exact .inr ⟨et', kb, kb', c, h1, h1', h2, h3, h3'⟩

theorem buildAsReq_timestamp {P M g} {e : Env} (he : EnvOk e) {username : List Char} {k : Key} {o : Options} {et : Int32} {d : Bytes}
    (hx : encryptedTimestamp P M g e o.realm username k o.sortedEtypes = .ok (et, d)) :
    buildAsReq P M g e username (some k) o = .ok (MsgType.build g .asReq ⟨5, 10,
      some (pacRequest g o ++ [⟨2, MsgType.build g .encryptedData ⟨et, none, d⟩⟩]), ⟨o.kdc_options,
          some ⟨1, [username]⟩, o.realm, some ⟨2, ["krbtgt".toList, o.realm]⟩, none, later e.tillNow,
          some (later e.rtimeNow), e.nonce, [et], none, none, none⟩⟩) := by
  unfold buildAsReq
  rw [createAsReq_eq he]
  simp only [hx]
  rfl

/-! ### C103 -/

/-- C103. The requests with pre-authentication of two users of one name, with secrets of one kind (any two passwords, whatever their
lengths, or any two keys of one type), at the same time with the same nonce and any random bytes: both fail in the same way, or
they differ only in one run of bytes of one length, the encryption of the same current time under their keys. -/
theorem c103_request (P : Prims) (hP : P.Lawful) (M : CaseMap) (g : Cfg) (e : Env) (he : EnvOk e) (cf : Nat → Bytes)
    (hcf : ∀ n, (cf n).length = n) (username : List Char) (o : Options) (k k' : Key) (hk : k.WF) (hk' : k'.WF)
    (hs : k.etypes = k'.etypes) :
    (∃ x, buildAsReq P M g e username (some k) o = .error x ∧
      buildAsReq P M g { e with confounder := cf } username (some k') o = .error x) ∨
    ∃ m m' et kb kb' c, buildAsReq P M g e username (some k) o = .ok m ∧
      buildAsReq P M g { e with confounder := cf } username (some k') o = .ok m' ∧
      PreauthKey P M o username k et kb ∧ PreauthKey P M o username k' et kb' ∧ newKerberosCipher et = .ok c ∧
      AlikeBut (SameText P c kb kb' (MsgType.build g .paEncTsEnc (PaEncTsEnc.ofTime e.stampNow))) m m' := by
  have he' : EnvOk { e with confounder := cf } := ⟨hcf, he.rtime, he.till⟩
  rcases preauth_same_type hP M o username hk hk' hs with ⟨pw, pw', rfl, rfl, hn⟩ | ⟨et, kb, kb', c, h1, h1', h2, h3, h3'⟩
  · left
    refine ⟨.noProvidedSupportedCipherAlgorithm, ?_, ?_⟩
    · unfold buildAsReq
      rw [c47_no_etype P M g e he username pw o hn]
      rfl
    · unfold buildAsReq
      rw [c47_no_etype P M g _ he' username pw' o hn]
      rfl
  · right
    obtain ⟨d, hd, hdec⟩ := Crypto.c26_cipher_roundtrip P hP c kb h3 1
      (MsgType.build g .paEncTsEnc (PaEncTsEnc.ofTime e.stampNow)) (e.confounder c.preambleSize) (he.confounder _)
    obtain ⟨d', hd', hdec'⟩ := Crypto.c26_cipher_roundtrip P hP c kb' h3' 1
      (MsgType.build g .paEncTsEnc (PaEncTsEnc.ofTime e.stampNow)) (cf c.preambleSize) (hcf _)
    have hx : encryptedTimestamp P M g e o.realm username k o.sortedEtypes = .ok (et, d) := by
      rw [encryptedTimestamp_preauth h1, withKey_spec h2, hd]; rfl
    have hx' : encryptedTimestamp P M g { e with confounder := cf } o.realm username k' o.sortedEtypes = .ok (et, d') := by
      rw [encryptedTimestamp_preauth h1', withKey_spec h2, hd']; rfl
    have hl : d.length = d'.length := by
      rw [Crypto.c27_decrypt_size P hP c kb h3 1 _ d hdec, Crypto.c27_decrypt_size P hP c kb' h3' 1 _ d' hdec']
    have hb := buildAsReq_timestamp (P := P) (M := M) (g := g) he hx
    have hb' := buildAsReq_timestamp (P := P) (M := M) (g := g) he' hx'
    exact ⟨_, _, et, kb, kb', c, hb, hb', h1, h1', h2,
      asReq_alike g _ _ _ _ _ (encryptedData_alike g et hl ⟨hdec, hdec'⟩)⟩

/-- C103. The whole exchange: two users of one name with secrets of one kind, who get the same answers at the same times, send
equally many messages, of the same lengths; the first ones are equal, and the second ones are alike but for one run of bytes. -/
theorem c103_exchange (P : Prims) (hP : P.Lawful) (M : CaseMap) (g : Cfg) (hg : g.Total) (answers : Nat → Option Bytes) (e1 e2 : Env)
    (he1 : EnvOk e1) (he2 : EnvOk e2) (cf : Nat → Bytes) (hcf : ∀ n, (cf n).length = n) (username : List Char) (o : Options)
    (k k' : Key) (hk : k.WF) (hk' : k'.WF) (hs : k.etypes = k'.etypes) :
    ∃ first, ((tgtRequest P M g (fun sent => answers sent.length) e1 e2 username (some k) o).2 = [first] ∧
        (tgtRequest P M g (fun sent => answers sent.length) e1 { e2 with confounder := cf } username (some k') o).2 = [first]) ∨
      ∃ m m', (tgtRequest P M g (fun sent => answers sent.length) e1 e2 username (some k) o).2 = [first, m] ∧
        (tgtRequest P M g (fun sent => answers sent.length) e1 { e2 with confounder := cf } username (some k') o).2 = [first, m'] ∧
        AlikeBut (fun _ _ => True) m m' := by
  obtain ⟨first, h1, h2, h3⟩ := c48_dialogue (P := P) (M := M) (g := g) (net := fun sent => answers sent.length) (e2 := e2)
    (username := username) (key := some k) (o := o) hP hg (fun _ h => Option.some.inj h ▸ hk) he1
  obtain ⟨first', h1', h2', h3'⟩ := c48_dialogue (P := P) (M := M) (g := g) (net := fun sent => answers sent.length)
    (e2 := { e2 with confounder := cf }) (username := username) (key := some k') (o := o) hP hg (fun _ h => Option.some.inj h ▸ hk') he1
  rw [h1] at h1'
  injection h1' with h1'
  subst h1'
  refine ⟨first, ?_⟩
  by_cases hd : DemandsPreauth g (answers 1)
  · rcases c103_request P hP M g e2 he2 cf hcf username o k k' hk hk' hs with ⟨x, hb, hb'⟩ |
      ⟨m, m', et, kb, kb', c, hb, hb', -, -, -, a, d, d', b, r1, r2, r3, -⟩
    · left
      have a := (h3 k rfl hd).2 x hb
      have b := (h3' k' rfl hd).2 x hb'
      exact ⟨congrArg Prod.snd a, congrArg Prod.snd b⟩
    · right
      exact ⟨m, m', ((h3 k rfl hd).1 m hb).1, ((h3' k' rfl hd).1 m' hb').1, a, d, d', b, r1, r2, r3, trivial⟩
  · left
    exact ⟨(h2 (fun h => hd h.1)).1, (h2' (fun h => hd h.1)).1⟩

/-! ### Examples -/

open Verif.Crypto (toyPrims asciiCase)

-- a short and a long password, and other random bytes: two messages each, the second ones different but of one length
example : (tgtRequest toyPrims asciiCase strictCfg (exNet exPassword) exEnv exEnv "mickey".toList (some (.secret "x".toList))
      { exOptions with etypes := [23] }).2.map List.length =
    (tgtRequest toyPrims asciiCase strictCfg (exNet exPassword) exEnv { exEnv with confounder := fun n => List.replicate n 9 }
      "mickey".toList (some exPassword) { exOptions with etypes := [23] }).2.map List.length := by decide +kernel
example : (tgtRequest toyPrims asciiCase strictCfg (exNet exPassword) exEnv exEnv "mickey".toList (some (.secret "x".toList))
      { exOptions with etypes := [23] }).2.length = 2 ∧
    (tgtRequest toyPrims asciiCase strictCfg (exNet exPassword) exEnv exEnv "mickey".toList (some (.secret "x".toList))
      { exOptions with etypes := [23] }).2 ≠
    (tgtRequest toyPrims asciiCase strictCfg (exNet exPassword) exEnv { exEnv with confounder := fun n => List.replicate n 9 }
      "mickey".toList (some exPassword) { exOptions with etypes := [23] }).2 := by decide +kernel
-- secrets of different kinds are not alike: the messages of a password (type 18) and of an RC4 key differ in length
example : (buildAsReq toyPrims asciiCase strictCfg exEnv "mickey".toList (some exCipherKey) exOptions).toOption.map List.length ≠
    (buildAsReq toyPrims asciiCase strictCfg exEnv "mickey".toList (some (.aes256Key (List.replicate 32 1))) exOptions).toOption.map
      List.length := by decide +kernel

end Verif.Kb
