import Verif.Props.Session
import Verif.Props.Traffic
/-
C108: which requests are the same message.
-/
namespace Verif.Kb
open Verif.Asn1
open Verif.Crypto (stdPrims toyPrims asciiCase Prims Key CaseMap newKerberosCipher Cipher calculateAesSalt)

/-! ### Specification -/

/-- a usable environment whose clock is in the years that a message can hold: 20 times 52 weeks later it is still before the year
10000 -/
structure EnvDated (e : Env) : Prop where
  ok : EnvOk e
  till : 0 ≤ (later e.tillNow).date.year ∧ (later e.tillNow).date.year ≤ 9999
  rtime : 0 ≤ (later e.rtimeNow).date.year ∧ (later e.rtimeNow).date.year ≤ 9999

/-- the nonces, in the order in which the calls of a history may use them -/
def nonces : List Use → List UInt32
  | [] => []
  | .set _ :: evs => nonces evs
  | .ticket e1 e2 _ _ :: evs => e1.nonce :: e2.nonce :: nonces evs
  | .exchange e _ _ :: evs => e.nonce :: nonces evs

/-- the clock readings of the call are in the years a message can hold -/
def Use.Dated : Use → Prop
  | .set _ => True
  | .ticket e1 e2 _ _ => EnvDated e1 ∧ EnvDated e2
  | .exchange e _ _ => EnvDated e

/-! ### Lemmas -/

/-- the request itself -/
def plainReq (g : Cfg) (e : Env) (username : List Char) (o : Options) : AsReq :=
  ⟨5, 10, if o.pac then some (pacRequest g o) else none, ⟨o.kdc_options, some ⟨1, [username]⟩, o.realm,
    some ⟨2, ["krbtgt".toList, o.realm]⟩, none, later e.tillNow, some (later e.rtimeNow), e.nonce, o.sortedEtypes,
    none, none, none⟩⟩

theorem build_plain (P : Prims) (M : CaseMap) (g : Cfg) {e : Env} (he : EnvOk e) (username : List Char) (o : Options) :
    createAsReq P M g e username none o = .ok (plainReq g e username o) ∧
    buildAsReq P M g e username none o = .ok (MsgType.build g .asReq (plainReq g e username o)) := by
  have h : createAsReq P M g e username none o = .ok (plainReq g e username o) := createAsReq_eq he _ _ _
  exact ⟨h, by unfold buildAsReq; rw [h]; rfl⟩

/-- seconds decide what is written -/
theorem build_secs (g : Cfg) (a b c nonce l) (o : UInt32) (x : Option PrincipalName) (s) (y : Option PrincipalName) (t t' u u' : DateTime)
    (ht : t.secs = t'.secs) (hu : u.secs = u'.secs) :
    MsgType.build g .asReq ⟨a, b, c, ⟨o, x, s, y, none, t, some u, nonce, l, none, none, none⟩⟩ =
      MsgType.build g .asReq ⟨a, b, c, ⟨o, x, s, y, none, t', some u', nonce, l, none, none, none⟩⟩ := by
  cases t; cases t'; cases u; cases u'
  dsimp only at ht hu
  subst ht hu
  simp only [MsgType.build_der]
  rfl

theorem wire {P : Prims} {M : CaseMap} {g : Cfg} {e : Env} (he : EnvDated e) {username : List Char} {key : Option Key}
    {o : Options} {r : AsReq} {raw : Bytes} (hr : createAsReq P M g e username key o = .ok r)
    (hraw : buildAsReq P M g e username key o = .ok raw) (hs : raw.length < 2^64) :
    MsgType.parse g .asReq raw = .ok (truncReq r, []) :=
  c47_wire P M g e username key o r raw hr hraw
    (by intro t ht; rcases ht with rfl | rfl; exacts [he.till, he.rtime]) he.ok hs

theorem later_secs {t u : DateTime} (h : (⟨(later t).secs, 0⟩ : DateTime) = ⟨(later u).secs, 0⟩) : t.secs = u.secs := by
  injection h with h _
  unfold later at h
  dsimp only at h
  omega

theorem sorted_iff (o o' : Options) : o.sortedEtypes = o'.sortedEtypes ↔ ∀ t ∈ [18, 17, 23], (t ∈ o.etypes ↔ t ∈ o'.etypes) := by
  rw [(c46_order o).1, (c46_order o').1]
  constructor
  · intro h t ht
    have h1 : ∀ o : Options, t ∈ o.etypes ↔ t ∈ [18, 17, 23].filter (fun t => decide (t ∈ o.etypes)) := by
      intro o
      rw [List.mem_filter]
      simp [ht]
    rw [h1 o, h1 o', h]
  · intro h
    apply List.filter_congr
    intro t ht
    simp [h t ht]

/-! ### C108 -/

/-- C108. Two requests without pre-authentication are the same message if and only if they are for the same user and realm,
with the same flags and offered types, both with or both without PAC request, and have the same nonce and clock readings, to
the second. -/
theorem c108_without_key (P : Prims) (M : CaseMap) (g : Cfg) {e e' : Env} (he : EnvDated e) (he' : EnvDated e')
    (u u' : List Char) (o o' : Options) (m m' : Bytes) (h : buildAsReq P M g e u none o = .ok m)
    (h' : buildAsReq P M g e' u' none o' = .ok m') (hs : m.length < 2^64) :
    m = m' ↔ u = u' ∧ o.realm = o'.realm ∧ o.kdc_options = o'.kdc_options ∧ o.pac = o'.pac ∧
      (∀ t ∈ [18, 17, 23], (t ∈ o.etypes ↔ t ∈ o'.etypes)) ∧ e.nonce = e'.nonce ∧ e.tillNow.secs = e'.tillNow.secs ∧
      e.rtimeNow.secs = e'.rtimeNow.secs := by
  obtain ⟨h1, h2⟩ := build_plain P M g he.ok u o
  obtain ⟨h1', h2'⟩ := build_plain P M g he'.ok u' o'
  rw [← sorted_iff]
  constructor
  · rintro rfl
    have w := wire he h1 h hs
    rw [wire he' h1' h' hs] at w
    injection w with w
    have w : truncReq (plainReq g e' u' o') = truncReq (plainReq g e u o) := congrArg Prod.fst w
    have wp : (plainReq g e' u' o').padata = (plainReq g e u o).padata := by simpa only [truncReq] using congrArg AsReq.padata w
    have wb := congrArg AsReq.req_body w
    have w1 : some (⟨1, [u']⟩ : PrincipalName) = some ⟨1, [u]⟩ := congrArg KdcReqBody.cname wb
    have w2 : o'.realm = o.realm := congrArg KdcReqBody.realm wb
    have w3 : o'.kdc_options = o.kdc_options := congrArg KdcReqBody.kdc_options wb
    have w4 : e'.nonce = e.nonce := congrArg KdcReqBody.nonce wb
    have w5 : o'.sortedEtypes = o.sortedEtypes := congrArg KdcReqBody.etypes wb
    have w6 : (⟨(later e'.tillNow).secs, 0⟩ : DateTime) = ⟨(later e.tillNow).secs, 0⟩ := congrArg KdcReqBody.till wb
    have w7 : some (⟨(later e'.rtimeNow).secs, 0⟩ : DateTime) = some ⟨(later e.rtimeNow).secs, 0⟩ := congrArg KdcReqBody.rtime wb
    injection w1 with w1
    injection w1 with _ w1
    injection w1 with w1 _
    injection w7 with w7
    refine ⟨w1.symm, w2.symm, w3.symm, ?_, w5.symm, w4.symm, (later_secs w6).symm, (later_secs w7).symm⟩
    unfold plainReq at wp
    dsimp only at wp
    cases hp : o.pac <;> cases hp' : o'.pac <;> rw [hp, hp'] at wp
    · exact nomatch wp
    · exact nomatch wp
  · rintro ⟨a1, a2, a3, a4, a5, a6, a7, a8⟩
    rw [h2] at h
    rw [h2'] at h'
    injection h with h
    injection h' with h'
    rw [← h, ← h']
    unfold plainReq pacRequest
    rw [a1, a2, a3, a4, a5, a6]
    exact build_secs g _ _ _ _ _ _ _ _ _ _ _ _ _ (by unfold later; dsimp only; omega) (by unfold later; dsimp only; omega)

/-! ### with a key -/

theorem padata_length {g : Cfg} {r : AsReq} {l : List PaData} {p : PaData} (hl : r.padata = some l) (hp : p ∈ l) :
    p.padata_value.length < (MsgType.build g .asReq r).length := by
  rw [MsgType.build_der]
  show _ < (AsReq.der (lib g) r).bytes.length
  unfold AsReq.der
  rw [hl]
  have h1 : p.padata_value.length < (dOctets p.padata_value).bytes.length := Der.length_prim _ _
  have h2 : (dOctets p.padata_value).bytes.length < (Der.node (UInt8.ofNat (0xa0 + 2)) [dOctets p.padata_value]).bytes.length :=
    Der.length_node (List.mem_singleton.2 rfl)
  have h3 : (Der.node (UInt8.ofNat (0xa0 + 2)) [dOctets p.padata_value]).bytes.length < (PaData.der p).bytes.length :=
    Der.length_node (by simp [req])
  have h4 : (PaData.der p).bytes.length < (dSeqOf PaData.der l).bytes.length := Der.length_node (List.mem_map_of_mem hp)
  have h5 : (dSeqOf PaData.der l).bytes.length < (Der.node (UInt8.ofNat (0xa0 + 3)) [dSeqOf PaData.der l]).bytes.length :=
    Der.length_node (List.mem_singleton.2 rfl)
  have h6 : (Der.node (UInt8.ofNat (0xa0 + 3)) [dSeqOf PaData.der l]).bytes.length < (Der.node 0x30
      (req 1 dInt32 r.pvno ++ (req 2 dInt32 r.msg_type ++ (opt 3 (dSeqOf PaData.der) (some l) ++
        req 4 (KdcReqBody.der (lib g)) r.req_body)))).bytes.length := Der.length_node (by simp [req, opt])
  have h7 : (Der.node 0x30 (req 1 dInt32 r.pvno ++ (req 2 dInt32 r.msg_type ++ (opt 3 (dSeqOf PaData.der) (some l) ++
        req 4 (KdcReqBody.der (lib g)) r.req_body)))).bytes.length < (Der.node 0x6a [Der.node 0x30 (req 1 dInt32 r.pvno ++
        (req 2 dInt32 r.msg_type ++ (opt 3 (dSeqOf PaData.der) (some l) ++
        req 4 (KdcReqBody.der (lib g)) r.req_body)))]).bytes.length := Der.length_node (List.mem_singleton.2 rfl)
  omega

/-- the request with pre-authentication data -/
def authReq (g : Cfg) (e : Env) (username : List Char) (o : Options) (et : Int32) (d : Bytes) : AsReq :=
  ⟨5, 10, some (pacRequest g o ++ [⟨2, MsgType.build g .encryptedData ⟨et, none, d⟩⟩]), ⟨o.kdc_options,
    some ⟨1, [username]⟩, o.realm, some ⟨2, ["krbtgt".toList, o.realm]⟩, none, later e.tillNow,
    some (later e.rtimeNow), e.nonce, [et], none, none, none⟩⟩

theorem build_auth {P : Prims} (hP : P.Lawful) (M : CaseMap) (g : Cfg) {e : Env} (he : EnvOk e) (username : List Char) (k : Key)
    (o : Options) {et kb c} (h1 : PreauthKey P M o username k et kb) (h2 : newKerberosCipher et = .ok c) (h3 : c.keyOk kb) :
    ∃ d, c.encrypt P kb 1 (MsgType.build g .paEncTsEnc (PaEncTsEnc.ofTime e.stampNow)) (e.confounder c.preambleSize) = .ok d ∧
      createAsReq P M g e username (some k) o = .ok (authReq g e username o et d) ∧
      buildAsReq P M g e username (some k) o = .ok (MsgType.build g .asReq (authReq g e username o et d)) := by
  obtain ⟨d, hd, -⟩ := Crypto.c26_cipher_roundtrip P hP c kb h3 1
      (MsgType.build g .paEncTsEnc (PaEncTsEnc.ofTime e.stampNow)) (e.confounder c.preambleSize) (he.confounder _)
  have hx : encryptedTimestamp P M g e o.realm username k o.sortedEtypes = .ok (et, d) := by
    rw [encryptedTimestamp_preauth h1, withKey_spec h2, hd]; rfl
  refine ⟨d, hd, ?_, buildAsReq_timestamp he hx⟩
  rw [createAsReq_eq he]
  simp only [hx]
  rfl

theorem preauth_keyOk {P : Prims} (hP : P.Lawful) {M : CaseMap} {o : Options} {username : List Char} {k : Key} (hk : k.WF) {et kb c}
    (h1 : PreauthKey P M o username k et kb) (h2 : newKerberosCipher et = .ok c) : c.keyOk kb := by
  cases k with
  | rc4Key k => obtain ⟨rfl, rfl⟩ := h1; injection h2 with h2; subst h2; trivial
  | aes128Key k => obtain ⟨rfl, rfl⟩ := h1; injection h2 with h2; subst h2; exact hk
  | aes256Key k => obtain ⟨rfl, rfl⟩ := h1; injection h2 with h2; subst h2; exact hk
  | secret pw =>
    obtain ⟨-, c', hc', hkb⟩ := h1
    rw [h2] at hc'
    injection hc' with hc'
    subst hc'
    obtain ⟨kb', h3, h4, -⟩ := Crypto.c33_generated_key_from_string P hP c pw
      (if et = 23 then [] else calculateAesSalt M o.realm username)
    rw [hkb] at h3
    injection h3 with h3
    exact h3 ▸ h4

theorem stamp_micros {t u : DateTime} (ht : t.nanos < 10^9) (hu : u.nanos < 10^9)
    (h : (PaEncTsEnc.ofTime t).pausec = (PaEncTsEnc.ofTime u).pausec) : t.nanos / 1000 = u.nanos / 1000 := by
  obtain ⟨-, x, h1, -, -, h2⟩ := c44_microseconds t (by omega)
  obtain ⟨-, y, h3, -, -, h4⟩ := c44_microseconds u (by omega)
  rw [h1, h3] at h
  injection h with h
  have h2 := h2 ht
  have h4 := h4 hu
  rw [h] at h2
  omega

/-- C108. Two requests of one user with pre-authentication, made with the same key and options, are the same message if and only
if they have the same nonce, clock readings (to the second), time stamp (to the microsecond) and random bytes. -/
theorem c108_with_key (P : Prims) (hP : P.Lawful) (M : CaseMap) (g : Cfg) {e e' : Env} (he : EnvDated e) (he' : EnvDated e')
    (hy : 0 ≤ e.stampNow.date.year ∧ e.stampNow.date.year ≤ 9999) (hy' : 0 ≤ e'.stampNow.date.year ∧ e'.stampNow.date.year ≤ 9999)
    (hn : e.stampNow.nanos < 10^9) (hn' : e'.stampNow.nanos < 10^9) (u : List Char) (k : Key) (hk : k.WF) (o : Options)
    {et kb c} (h1 : PreauthKey P M o u k et kb) (h2 : newKerberosCipher et = .ok c) (m m' : Bytes)
    (h : buildAsReq P M g e u (some k) o = .ok m) (h' : buildAsReq P M g e' u (some k) o = .ok m') (hs : m.length < 2^64) :
    m = m' ↔ e.nonce = e'.nonce ∧ e.tillNow.secs = e'.tillNow.secs ∧ e.rtimeNow.secs = e'.rtimeNow.secs ∧
      e.stampNow.secs = e'.stampNow.secs ∧ e.stampNow.nanos / 1000 = e'.stampNow.nanos / 1000 ∧
      e.confounder c.preambleSize = e'.confounder c.preambleSize := by
  have h3 := preauth_keyOk hP hk h1 h2
  obtain ⟨d, hd, a1, a2⟩ := build_auth hP M g he.ok u k o h1 h2 h3
  obtain ⟨d', hd', a1', a2'⟩ := build_auth hP M g he'.ok u k o h1 h2 h3
  have b : m = MsgType.build g .asReq (authReq g e u o et d) := by rw [a2] at h; injection h with h; exact h.symm
  have b' : m' = MsgType.build g .asReq (authReq g e' u o et d') := by rw [a2'] at h'; injection h' with h'; exact h'.symm
  constructor
  · intro hm
    have w := wire he a1 h hs
    rw [hm, wire he' a1' h' (hm ▸ hs)] at w
    injection w with w
    have w : truncReq (authReq g e' u o et d') = truncReq (authReq g e u o et d) := congrArg Prod.fst w
    have wp : (authReq g e' u o et d').padata = (authReq g e u o et d).padata := by
      simpa only [truncReq] using congrArg AsReq.padata w
    have wb := congrArg AsReq.req_body w
    have w4 : e'.nonce = e.nonce := congrArg KdcReqBody.nonce wb
    have w6 : (⟨(later e'.tillNow).secs, 0⟩ : DateTime) = ⟨(later e.tillNow).secs, 0⟩ := congrArg KdcReqBody.till wb
    have w7 : some (⟨(later e'.rtimeNow).secs, 0⟩ : DateTime) = some ⟨(later e.rtimeNow).secs, 0⟩ := congrArg KdcReqBody.rtime wb
    injection w7 with w7
    -- the encrypted data
    have wd : MsgType.build g .encryptedData ⟨et, none, d'⟩ = MsgType.build g .encryptedData ⟨et, none, d⟩ := by
      unfold authReq at wp
      dsimp only at wp
      injection wp with wp
      have := List.append_cancel_left wp
      injection this with this _
      injection this
    have hl : (MsgType.build g .encryptedData ⟨et, none, d⟩).length < 2^64 := by
      have := padata_length (g := g) (r := authReq g e u o et d) (p := ⟨2, MsgType.build g .encryptedData ⟨et, none, d⟩⟩) rfl (by simp)
      rw [← b] at this
      dsimp only at this
      omega
    have r1 := c39_roundtrip g .encryptedData ⟨et, none, d⟩ trivial hl []
    have r2 := c39_roundtrip g .encryptedData ⟨et, none, d'⟩ trivial (by rw [wd]; exact hl) []
    rw [wd, r1] at r2
    injection r2 with r2
    have r2 : (⟨et, none, d⟩ : EncryptedData) = ⟨et, none, d'⟩ := congrArg Prod.fst r2
    injection r2 with _ _ hdd
    subst hdd
    obtain ⟨q1, q2⟩ := Crypto.c28_encrypt_injective P hP c kb h3 1 _ _ _ _ d (he.ok.confounder _) (he'.ok.confounder _) hd hd'
    have hdl : d.length < 2^64 := by
      have : d.length < (MsgType.build g .encryptedData ⟨et, none, d⟩).length := by
        rw [MsgType.build_der]
        exact Nat.lt_trans (Nat.lt_trans (Der.length_prim 0x04 d) (Der.length_node (t := UInt8.ofNat (0xa0 + 2)) (List.mem_singleton.2 rfl)))
          (Der.length_node (t := 0x30) (by simp [req, dOctets]))
      omega
    have hsz := Crypto.c27_encrypt_size P hP c kb h3 1 _ _ d (he.ok.confounder _) hd
    have s1 := c44_wire g e.stampNow hy.1 hy.2 [] (by omega)
    have s2 := c44_wire g e'.stampNow hy'.1 hy'.2 [] (by rw [← q1]; omega)
    rw [q1, s2] at s1
    injection s1 with s1
    have s1 : (⟨⟨e'.stampNow.secs, 0⟩, (PaEncTsEnc.ofTime e'.stampNow).pausec⟩ : PaEncTsEnc) =
      ⟨⟨e.stampNow.secs, 0⟩, (PaEncTsEnc.ofTime e.stampNow).pausec⟩ := congrArg Prod.fst s1
    injection s1 with s3 s4
    injection s3 with s3 _
    exact ⟨w4.symm, (later_secs w6).symm, (later_secs w7).symm, s3.symm, stamp_micros hn hn' s4.symm, q2⟩
  · rintro ⟨c1, c2, c3, c4, c5, c6⟩
    have hst : MsgType.build g .paEncTsEnc (PaEncTsEnc.ofTime e.stampNow) = MsgType.build g .paEncTsEnc (PaEncTsEnc.ofTime e'.stampNow) := by
      unfold PaEncTsEnc.ofTime
      rw [c5]
      generalize e.stampNow = t at *
      generalize e'.stampNow = t' at *
      cases t; cases t'
      dsimp only at c4
      subst c4
      simp only [MsgType.build_der]
      rfl
    rw [hst, c6, hd'] at hd
    injection hd with hd
    subst hd
    rw [b, b']
    unfold authReq
    rw [c1]
    exact build_secs g _ _ _ _ _ _ _ _ _ _ _ _ _ (by unfold later; dsimp only; omega) (by unfold later; dsimp only; omega)

/-- C108. A request with pre-authentication is never the same message as one without. -/
theorem c108_kinds (P : Prims) (hP : P.Lawful) (M : CaseMap) (g : Cfg) {e e' : Env} (he : EnvDated e) (he' : EnvDated e')
    (u u' : List Char) (k : Key) (hk : k.WF) (o o' : Options) (m m' : Bytes) (h : buildAsReq P M g e u none o = .ok m)
    (h' : buildAsReq P M g e' u' (some k) o' = .ok m') (hs : m.length < 2^64) : m ≠ m' := by
  rintro rfl
  obtain ⟨h1, -⟩ := build_plain P M g he.ok u o
  rcases preauth_exists hP M o' u' k hk with ⟨⟨pw, rfl⟩, hn⟩ | ⟨et, kb, c, b1, b2, b3⟩
  · unfold buildAsReq at h'
    rw [c47_no_etype P M g e' he'.ok u' pw o' hn] at h'
    exact nomatch h'
  · obtain ⟨d, -, a1, -⟩ := build_auth hP M g he'.ok u' k o' b1 b2 b3
    have w := wire he h1 h hs
    rw [wire he' a1 h' hs] at w
    injection w with w
    have w : truncReq (authReq g e' u' o' et d) = truncReq (plainReq g e u o) := congrArg Prod.fst w
    have wp : (authReq g e' u' o' et d).padata = (plainReq g e u o).padata := by
      simpa only [truncReq] using congrArg AsReq.padata w
    have hm : (⟨2, MsgType.build g .encryptedData ⟨et, none, d⟩⟩ : PaData) ∈ (plainReq g e u o).padata.getD [] := by
      rw [← wp]; simp [authReq]
    unfold plainReq pacRequest at hm
    dsimp only at hm
    cases hp : o.pac <;> rw [hp] at hm
    · exact nomatch hm
    · rcases List.mem_singleton.1 hm with hm
      injection hm with hm _
      exact absurd hm (by decide)

/-! ### histories -/

/-- the nonce that a reader finds in a message -/
def nonceIn (g : Cfg) (m : Bytes) : Option UInt32 :=
  match MsgType.parse g .asReq m with
  | .ok (r, _) => some (AsReq.req_body r).nonce
  | .error _ => none

theorem nonceIn_built {P : Prims} {M : CaseMap} {g : Cfg} {e : Env} (he : EnvDated e) {u : List Char} {key : Option Key} {o : Options}
    {m : Bytes} (h : buildAsReq P M g e u key o = .ok m) (hs : m.length < 2^64) : nonceIn g m = some e.nonce := by
  cases hr : createAsReq P M g e u key o with
  | error x => unfold buildAsReq at h; rw [hr] at h; exact nomatch h
  | ok r =>
    unfold nonceIn
    rw [wire he hr h hs]
    dsimp only
    congr 1
    show r.req_body.nonce = e.nonce
    rw [createAsReq_eq he.ok] at hr
    cases key with
    | none => injection hr with hr; subst hr; rfl
    | some k =>
      simp only [bind, Except.bind] at hr
      cases hx : encryptedTimestamp P M g e o.realm u k o.sortedEtypes with
      | error x => rw [hx] at hr; exact nomatch hr
      | ok x => rw [hx] at hr; injection hr with hr; subst hr; rfl

theorem asRequest_sent (P : Prims) (M : CaseMap) (g : Cfg) (net : Net) (e : Env) (u : List Char) (key : Option Key) (o : Options)
    (sent : List Bytes) : (asRequest P M g net e u key o sent).2 = sent ∨
      ∃ m, buildAsReq P M g e u key o = .ok m ∧ (asRequest P M g net e u key o sent).2 = sent ++ [m] := by
  unfold asRequest
  cases h : buildAsReq P M g e u key o with
  | error x => exact .inl rfl
  | ok m =>
    refine .inr ⟨m, rfl, ?_⟩
    dsimp only
    cases net (sent ++ [m]) <;> rfl

theorem tgtRequest_sent (P : Prims) (M : CaseMap) (g : Cfg) (net : Net) (e1 e2 : Env) (u : List Char) (key : Option Key) (o : Options) :
    ∃ s, (s = [] ∨ ∃ m, buildAsReq P M g e1 u none o = .ok m ∧ s = [m]) ∧
      ((tgtRequest P M g net e1 e2 u key o).2 = s ∨
        ∃ m, buildAsReq P M g e2 u key o = .ok m ∧ (tgtRequest P M g net e1 e2 u key o).2 = s ++ [m]) := by
  have h1 := asRequest_sent P M g net e1 u none o []
  refine ⟨(asRequest P M g net e1 u none o []).2, by simpa using h1, ?_⟩
  unfold tgtRequest
  generalize asRequest P M g net e1 u none o [] = x
  obtain ⟨r, s⟩ := x
  cases r with
  | error err => exact .inl rfl
  | ok r => cases r with
    | asRep r => exact .inl rfl
    | krbError err =>
      dsimp only
      split
      · exact .inl rfl
      · cases key with
        | none => exact .inl rfl
        | some k =>
          have h2 := asRequest_sent P M g net e2 u (some k) o s
          unfold secondRequest
          dsimp only
          generalize asRequest P M g net e2 u (some k) o s = y at h2
          obtain ⟨r2, s2⟩ := y
          dsimp only at h2
          cases r2 with
          | error err => exact h2
          | ok r2 => cases r2 <;> exact h2

theorem sent_nonces (P : Prims) (M : CaseMap) (g : Cfg) (os : Os) (history : List Use) : ∀ s : Session,
    (∀ ev ∈ history, ev.Dated) → (∀ m ∈ (s.run P M g os history).2.past, m.length < 2^64) →
    ∃ more, (s.run P M g os history).2.past = s.past ++ more ∧ (more.map (nonceIn g)).Sublist ((nonces history).map some) := by
  induction history with
  | nil => intro s _ _; exact ⟨[], by simp [Session.run], List.Sublist.refl _⟩
  | cons ev history ih =>
    intro s hd hl
    have hd' : ∀ ev ∈ history, ev.Dated := fun x hx => hd x (List.mem_cons_of_mem _ hx)
    have hev := hd ev (List.mem_cons_self ..)
    simp only [Session.run] at hl ⊢
    obtain ⟨more, h1, h2⟩ := ih (s.step P M g os ev).2 hd' hl
    have hl2 : ∀ m ∈ (s.step P M g os ev).2.past, m.length < 2^64 := by
      intro m hm; apply hl; rw [h1]; exact List.mem_append_left _ hm
    cases ev with
    | set c => exact ⟨more, h1, h2⟩
    | ticket e1 e2 u key =>
      obtain ⟨he1, he2⟩ := hev
      obtain ⟨a, ha, hb⟩ := tgtRequest_sent P M g (runsNet (s.requester.run (os.after s.past))) e1 e2 u key s.requester.options
      simp only [Session.step, Requester.request] at h1 hl2 ⊢
      generalize (tgtRequest P M g (runsNet (s.requester.run (os.after s.past))) e1 e2 u key s.requester.options).2 = t at hb h1 hl2 ⊢
      refine ⟨t ++ more, by rw [h1, List.append_assoc], ?_⟩
      have hlt : ∀ m ∈ t, m.length < 2^64 := fun m hm => hl2 m (List.mem_append_right _ hm)
      have key : (t.map (nonceIn g)).Sublist [some e1.nonce, some e2.nonce] := by
        have hat : ∀ m ∈ a, m ∈ t := by
          intro m hm
          rcases hb with rfl | ⟨x, -, rfl⟩
          · exact hm
          · exact List.mem_append_left _ hm
        have h3 : (a.map (nonceIn g)).Sublist [some e1.nonce] := by
          rcases ha with rfl | ⟨m, hm, rfl⟩
          · exact List.nil_sublist _
          · rw [List.map_singleton, nonceIn_built he1 hm (hlt m (hat m (by simp)))]
        rcases hb with rfl | ⟨m, hm, rfl⟩
        · exact h3.trans (by simp)
        · rw [List.map_append, List.map_singleton, nonceIn_built he2 hm (hlt m (by simp))]
          exact List.Sublist.append h3 (List.Sublist.refl _)
      rw [List.map_append]
      exact List.Sublist.append key h2
    | exchange e u key =>
      have ha := asRequest_sent P M g (runsNet (s.requester.run (os.after s.past))) e u key s.requester.options []
      simp only [Session.step, Requester.exchange] at h1 hl2 ⊢
      generalize (asRequest P M g (runsNet (s.requester.run (os.after s.past))) e u key s.requester.options []).2 = t at ha h1 hl2 ⊢
      refine ⟨t ++ more, by rw [h1, List.append_assoc], ?_⟩
      have key : (t.map (nonceIn g)).Sublist [some e.nonce] := by
        rcases ha with rfl | ⟨m, hm, rfl⟩
        · exact List.nil_sublist _
        · rw [List.nil_append, List.map_singleton, nonceIn_built hev hm (hl2 m (by simp))]
      rw [List.map_append]
      exact List.Sublist.append key h2

/-- C108. No message is sent twice in the life of a requester, whatever it is used for and whatever the KDC answers, as long as
no random nonce comes up twice: a reader finds in the messages, in this order, nonces drawn for their calls. -/
theorem c108_history (P : Prims) (M : CaseMap) (g : Cfg) (os : Os) (realm : List Char) (kdc : Bytes) (history : List Use)
    (hd : ∀ ev ∈ history, ev.Dated)
    (hl : ∀ m ∈ ((Session.new realm kdc).run P M g os history).2.past, m.length < 2^64) :
    (((Session.new realm kdc).run P M g os history).2.past.map (nonceIn g)).Sublist ((nonces history).map some) ∧
    ((nonces history).Nodup → ((Session.new realm kdc).run P M g os history).2.past.Nodup) := by
  obtain ⟨more, h1, h2⟩ := sent_nonces P M g os history (Session.new realm kdc) hd hl
  have h1 : ((Session.new realm kdc).run P M g os history).2.past = more := by rw [h1]; rfl
  rw [h1]
  refine ⟨h2, fun hn => ?_⟩
  have h3 : ((nonces history).map some).Nodup := by
    rw [List.Nodup, List.pairwise_map]
    exact List.Pairwise.imp (fun h he => h (Option.some.inj he)) hn
  have h4 := h3.sublist h2
  rw [List.Nodup, List.pairwise_map] at h4
  exact List.Pairwise.imp (fun h he => h (congrArg _ he)) h4

/-! ### Cases -/

section
set_option maxRecDepth 100000

theorem exEnv_dated (n : UInt32) : EnvDated { exEnv with nonce := n } := by
  have h : EnvDated exEnv :=
    ⟨⟨fun n => by simp [exEnv], by decide +kernel, by decide +kernel⟩, by decide +kernel, by decide +kernel⟩
  exact ⟨⟨h.ok.confounder, h.ok.rtime, h.ok.till⟩, h.till, h.rtime⟩

/-- two ticket requests and a single exchange -/
def exLife (a b c d f : UInt32) : List Use :=
  [.ticket { exEnv with nonce := a } { exEnv with nonce := b } "mickey".toList (some exCipherKey), .set (.setEtype 18),
    .exchange { exEnv with nonce := c } "mickey".toList none,
    .ticket { exEnv with nonce := d } { exEnv with nonce := f } "mickey".toList (some exCipherKey)]

/-- with distinct nonces all messages differ -/
example : (∀ ev ∈ exLife 1 2 3 4 5, ev.Dated) ∧ (nonces (exLife 1 2 3 4 5)).Nodup ∧
    ((Session.new "KINGDOM.HEARTS".toList exIpv4).run toyPrims asciiCase strictCfg (exOs sessionNet)
      (exLife 1 2 3 4 5)).2.past.map (nonceIn strictCfg) = [some 1, some 2, some 3, some 4] ∧
    (∀ m ∈ ((Session.new "KINGDOM.HEARTS".toList exIpv4).run toyPrims asciiCase strictCfg (exOs sessionNet)
      (exLife 1 2 3 4 5)).2.past, m.length < 2^64) := by
  refine ⟨?_, by decide, by decide +kernel, by decide +kernel⟩
  intro ev hev
  simp only [exLife, List.mem_cons, List.not_mem_nil, or_false] at hev
  rcases hev with rfl | rfl | rfl | rfl
  · exact ⟨exEnv_dated 1, exEnv_dated 2⟩
  · trivial
  · exact exEnv_dated 3
  · exact ⟨exEnv_dated 4, exEnv_dated 5⟩

/-- if a nonce comes up again within a second, a message is repeated -/
example : ((Session.new "KINGDOM.HEARTS".toList exIpv4).run toyPrims asciiCase strictCfg (exOs fun _ => none)
      [.exchange exEnv "mickey".toList none, .exchange exEnv "mickey".toList none]).2.past.Nodup = False := by
  rw [eq_iff_iff]
  exact ⟨by decide +kernel, fun h => h.elim⟩

/-- the premises of `c108_with_key` -/
example : (0 ≤ exEnv.stampNow.date.year ∧ exEnv.stampNow.date.year ≤ 9999) ∧ exEnv.stampNow.nanos < 10^9 ∧
    PreauthKey toyPrims asciiCase exOptions "mickey".toList (.aes128Key (List.replicate 16 7)) 17 (List.replicate 16 7) ∧
    newKerberosCipher 17 = .ok (.aes .aes128) ∧
    ((buildAsReq toyPrims asciiCase strictCfg exEnv "mickey".toList (some (.aes128Key (List.replicate 16 7))) exOptions).toOption.getD []).length > 200 :=
  ⟨by decide +kernel, by decide +kernel, ⟨rfl, rfl⟩, rfl, by decide +kernel⟩

end

end Verif.Kb
