import Verif.Props.Fresh
import Verif.Asn1Growth
/-
C111: how long a request is.
-/
namespace Verif.Kb
open Verif.Asn1
open Verif.Crypto (stdPrims toyPrims asciiCase Prims Key CaseMap Cipher newKerberosCipher)

/-! ### Specification -/

/-- the clock readings of a request fall into years that are written with four digits -/
structure FourDigits (e : Env) : Prop where
  stamp : 0 ≤ e.stampNow.date.year ∧ e.stampNow.date.year ≤ 9999
  till : 0 ≤ (later e.tillNow).date.year ∧ (later e.tillNow).date.year ≤ 9999
  rtime : 0 ≤ (later e.rtimeNow).date.year ∧ (later e.rtimeNow).date.year ≤ 9999

/-! ### Lemmas -/

theorem tlv_le {tag : UInt8} {v : Bytes} {n : Nat} (h : v.length ≤ n) (hn : n < 65536) : (tlv tag v).length ≤ n + 4 := by
  rw [tlv_len]
  have := @buildLen_le v.length 2 (by omega)
  omega

theorem tlv_le_short {tag : UInt8} {v : Bytes} {n : Nat} (h : v.length ≤ n) (hn : n < 128) : (tlv tag v).length ≤ n + 2 := by
  rw [tlv_len]
  have : (buildLen v.length).length = 1 := by unfold buildLen; rw [if_pos (by omega)]; rfl
  omega

theorem append_le {a b : Bytes} {m n : Nat} (ha : a.length ≤ m) (hb : b.length ≤ n) : (a ++ b).length ≤ m + n := by
  rw [List.length_append]; omega

theorem yearBytes_len (g : Cfg) {y : Int} (h : 0 ≤ y ∧ y ≤ 9999) : (yearBytes g y).length = 4 := by
  unfold yearBytes; rw [if_pos h]; rfl

theorem time_len (g : Cfg) (t : DateTime) (h : 0 ≤ t.date.year ∧ t.date.year ≤ 9999) : ((kerberosTimeC g).build t).length = 15 := by
  simp only [kerberosTimeC, withYmdHms_fields]
  unfold genTimeBytes
  simp only [List.length_append]
  have : (DateTime.mk t.secs 0).date = t.date := rfl
  rw [this, yearBytes_len g h]
  rfl

theorem principal_le (g : Cfg) (t : Int32) (names : List (List Char)) {n : Nat}
    (ht : (intBytes t).length = 1) (hn : (names.flatMap stringC.enc).length ≤ n) (hs : n + 13 < 65536) :
    ((principalNameC g).enc ⟨t, names⟩).length ≤ n + 17 := by
  have e : (principalNameC g).enc ⟨t, names⟩ = tlv 0x30 (tlv 0xa0 (tlv 2 (intBytes t)) ++
      (tlv 0xa1 (tlv 0x30 (names.flatMap stringC.enc)) ++ [])) := rfl
  rw [e]
  have h1 := tlv_le_short (tag := 0xa0) (tlv_le_short (tag := 2) (Nat.le_of_eq ht) (by omega)) (by omega)
  have h2 := tlv_le (tag := 0xa1) (tlv_le (tag := 0x30) hn (by omega)) (by omega)
  have h3 := tlv_le (tag := 0x30) (append_le h1 (append_le h2 (Nat.le_refl ([] : Bytes).length))) (by simp; omega)
  refine Nat.le_trans h3 ?_
  simp
  omega

theorem ints_le (g : Cfg) (l : List Int32) (h : ∀ x ∈ l, (intBytes x).length = 1) : (l.flatMap (int32C g).enc).length ≤ 3 * l.length := by
  induction l with
  | nil => simp
  | cons x l ih =>
    rw [List.flatMap_cons, List.length_append, List.length_cons]
    have h1 := ih fun y hy => h y (List.mem_cons_of_mem _ hy)
    have h2 : ((int32C g).enc x).length ≤ 1 + 2 :=
      tlv_le_short (tag := 2) (v := intBytes x) (Nat.le_of_eq (h x (List.mem_cons_self ..))) (by omega)
    omega

theorem body_le (g : Cfg) (flags : UInt32) (user realm : List Char) (till rtime : DateTime) (nonce : UInt32) (etypes : List Int32)
    (ht : 0 ≤ till.date.year ∧ till.date.year ≤ 9999) (hr : 0 ≤ rtime.date.year ∧ rtime.date.year ≤ 9999)
    (he : ∀ x ∈ etypes, (intBytes x).length = 1) (hl : etypes.length ≤ 3)
    (hs : (utf8 user).length + 2 * (utf8 realm).length ≤ 65000) :
    ((kdcReqBodyC g).enc ⟨flags, some ⟨1, [user]⟩, realm, some ⟨2, ["krbtgt".toList, realm]⟩, none, till, some rtime, nonce, etypes,
      none, none, none⟩).length ≤ 138 + ((utf8 user).length + 2 * (utf8 realm).length) := by
  have e : (kdcReqBodyC g).enc ⟨flags, some ⟨1, [user]⟩, realm, some ⟨2, ["krbtgt".toList, realm]⟩, none, till, some rtime, nonce, etypes,
      none, none, none⟩ = tlv 0x30 (tlv 0xa0 (tlv 3 (0 :: be32 flags)) ++ (tlv 0xa1 ((principalNameC g).enc ⟨1, [user]⟩) ++
      (tlv 0xa2 (tlv 0x1b (utf8 realm)) ++ (tlv 0xa3 ((principalNameC g).enc ⟨2, ["krbtgt".toList, realm]⟩) ++ ([] ++
      (tlv 0xa5 (tlv 0x18 ((kerberosTimeC g).build till)) ++ (tlv 0xa6 (tlv 0x18 ((kerberosTimeC g).build rtime)) ++
      (tlv 0xa7 (tlv 2 (intBytes nonce.toInt32)) ++ (tlv 0xa8 (tlv 0x30 (etypes.flatMap (int32C g).enc)) ++ ([] ++ ([] ++ ([] ++ [])))))))))))) := rfl
  rw [e]
  have z : ([] : Bytes).length ≤ 0 := Nat.le_refl _
  have hu : (([user] : List (List Char)).flatMap stringC.enc).length ≤ (utf8 user).length + 4 := by
    rw [List.flatMap_singleton]
    exact tlv_le (tag := 0x1b) (Nat.le_refl _) (by omega)
  have hk : ((["krbtgt".toList, realm] : List (List Char)).flatMap stringC.enc).length ≤ 8 + ((utf8 realm).length + 4) := by
    rw [List.flatMap_cons, List.flatMap_singleton]
    refine append_le (by decide +kernel) ?_
    exact tlv_le (tag := 0x1b) (Nat.le_refl _) (by omega)
  have h0 : (tlv 0xa0 (tlv 3 (0 :: be32 flags))).length ≤ 9 :=
    tlv_le_short (tlv_le_short (n := 5) (Nat.le_refl 5) (by omega)) (by omega)
  have h1 := tlv_le (tag := 0xa1) (principal_le g 1 [user] (by decide +kernel) hu (by omega)) (by omega)
  have h2 := tlv_le (tag := 0xa2) (tlv_le (tag := 0x1b) (v := utf8 realm) (Nat.le_refl _) (by omega)) (by omega)
  have h3 := tlv_le (tag := 0xa3) (principal_le g 2 ["krbtgt".toList, realm] (by decide +kernel) hk (by omega)) (by omega)
  have h5 := tlv_le_short (tag := 0xa5) (tlv_le_short (tag := 0x18) (Nat.le_of_eq (time_len g till ht)) (by omega)) (by omega)
  have h6 := tlv_le_short (tag := 0xa6) (tlv_le_short (tag := 0x18) (Nat.le_of_eq (time_len g rtime hr)) (by omega)) (by omega)
  have h7 := tlv_le_short (tag := 0xa7) (tlv_le_short (tag := 2) (intBytes_length nonce.toInt32).2 (by omega)) (by omega)
  have h8 := tlv_le_short (tag := 0xa8) (tlv_le_short (tag := 0x30) (n := 9)
    (Nat.le_trans (ints_le g etypes he) (by omega)) (by omega)) (by omega)
  have hall := append_le h0 (append_le h1 (append_le h2 (append_le h3 (append_le z (append_le h5 (append_le h6 (append_le h7
    (append_le h8 (append_le z (append_le z (append_le z z)))))))))))
  have := tlv_le (tag := 0x30) hall (by omega)
  omega

theorem asReq_le (g : Cfg) (padata : Option (List PaData)) (body : KdcReqBody) {n : Nat}
    (hb : ((kdcReqBodyC g).enc body).length ≤ n) (hp : ((padata.getD []).flatMap (paDataC g).enc).length ≤ 98) (hn : n + 120 < 65536) :
    (MsgType.build g .asReq ⟨5, 10, padata, body⟩).length ≤ n + 124 := by
  have e : ∀ (a b : Int32) (l : List PaData), MsgType.build g .asReq ⟨a, b, some l, body⟩ =
      tlv 0x6a (tlv 0x30 (tlv 0xa1 (tlv 2 (intBytes a)) ++ (tlv 0xa2 (tlv 2 (intBytes b)) ++
        (tlv 0xa3 (tlv 0x30 (l.flatMap (paDataC g).enc)) ++ (tlv 0xa4 ((kdcReqBodyC g).enc body) ++ []))))) := fun _ _ _ => rfl
  have e' : ∀ (a b : Int32), MsgType.build g .asReq ⟨a, b, none, body⟩ =
      tlv 0x6a (tlv 0x30 (tlv 0xa1 (tlv 2 (intBytes a)) ++ (tlv 0xa2 (tlv 2 (intBytes b)) ++
        ([] ++ (tlv 0xa4 ((kdcReqBodyC g).enc body) ++ []))))) := fun _ _ => rfl
  have z : ([] : Bytes).length ≤ 0 := Nat.le_refl _
  have h1 : (tlv 0xa1 (tlv 2 (intBytes 5))).length ≤ 5 := by decide +kernel
  have h2 : (tlv 0xa2 (tlv 2 (intBytes 10))).length ≤ 5 := by decide +kernel
  have h4 := tlv_le (tag := 0xa4) hb (by omega)
  cases padata with
  | none =>
    rw [e']
    have h5 := tlv_le (tag := 0x6a) (tlv_le (tag := 0x30) (append_le h1 (append_le h2 (append_le z (append_le h4 z)))) (by omega)) (by omega)
    omega
  | some l =>
    rw [e]
    have h3 := tlv_le_short (tag := 0xa3) (tlv_le_short (tag := 0x30) (show (l.flatMap (paDataC g).enc).length ≤ 98 from hp) (by omega))
      (by omega)
    have h5 := tlv_le (tag := 0x6a) (tlv_le (tag := 0x30) (append_le h1 (append_le h2 (append_le h3 (append_le h4 z)))) (by omega)) (by omega)
    omega

theorem paData_le (g : Cfg) (t : Int32) (v : Bytes) {n m : Nat} (ht : (tlv 0xa1 (tlv 2 (intBytes t))).length ≤ m) (hv : v.length ≤ n)
    (hn : m + n < 124) : ((paDataC g).enc ⟨t, v⟩).length ≤ m + n + 6 := by
  have e : (paDataC g).enc ⟨t, v⟩ = tlv 0x30 (tlv 0xa1 (tlv 2 (intBytes t)) ++ (tlv 0xa2 (tlv 4 v) ++ [])) := rfl
  rw [e]
  have z : ([] : Bytes).length ≤ 0 := Nat.le_refl _
  have h1 := tlv_le_short (tag := 0xa2) (tlv_le_short (tag := 4) hv (by omega)) (by omega)
  have h2 := tlv_le_short (tag := 0x30) (append_le ht (append_le h1 z)) (by omega)
  omega

theorem pac_le (g : Cfg) (o : Options) : ((pacRequest g o).flatMap (paDataC g).enc).length ≤ 19 := by
  unfold pacRequest
  split
  · rw [List.flatMap_singleton]
    have e : ∀ b, MsgType.build g .kerbPaPacRequest ⟨b⟩ = tlv 0x30 (tlv 0xa0 (tlv 1 [if b then 0xff else 0]) ++ []) := fun _ => rfl
    have h : (MsgType.build g .kerbPaPacRequest ⟨true⟩).length ≤ 7 := by rw [e]; decide +kernel
    exact paData_le g 128 _ (m := 6) (by decide +kernel) h (by omega)
  · exact Nat.zero_le _

theorem stamp_le (g : Cfg) (e : Env) (h : FourDigits e) : (MsgType.build g .paEncTsEnc (PaEncTsEnc.ofTime e.stampNow)).length ≤ 29 := by
  have ee : ∀ t u, MsgType.build g .paEncTsEnc ⟨t, some u⟩ =
      tlv 0x30 (tlv 0xa0 (tlv 0x18 ((kerberosTimeC g).build t)) ++ (tlv 0xa1 (tlv 2 (intBytes u)) ++ [])) := fun _ _ => rfl
  unfold PaEncTsEnc.ofTime
  rw [ee]
  have z : ([] : Bytes).length ≤ 0 := Nat.le_refl _
  have h1 := tlv_le_short (tag := 0xa0) (tlv_le_short (tag := 0x18) (Nat.le_of_eq (time_len g e.stampNow h.stamp)) (by omega)) (by omega)
  have h2 := tlv_le_short (tag := 0xa1) (tlv_le_short (tag := 2)
    (intBytes_length (clampI32 (UInt32.ofNat (e.stampNow.nanos / 1000)).toInt32 0 999999)).2 (by omega)) (by omega)
  exact tlv_le_short (tag := 0x30) (append_le h1 (append_le h2 z)) (by omega)

theorem preauth_le (g : Cfg) (et : Int32) (data : Bytes) (ht : (intBytes et).length = 1) (hd : data.length ≤ 57) :
    ((paDataC g).enc ⟨2, MsgType.build g .encryptedData ⟨et, none, data⟩⟩).length ≤ 79 := by
  have e : MsgType.build g .encryptedData ⟨et, none, data⟩ = tlv 0x30 (tlv 0xa0 (tlv 2 (intBytes et)) ++ ([] ++
      (tlv 0xa2 (tlv 4 data) ++ []))) := rfl
  have z : ([] : Bytes).length ≤ 0 := Nat.le_refl _
  have h2 := tlv_le_short (tag := 0xa0) (tlv_le_short (tag := 2) (Nat.le_of_eq ht) (by omega)) (by omega)
  have h3 := tlv_le_short (tag := 0xa2) (tlv_le_short (tag := 4) hd (by omega)) (by omega)
  have h4 := tlv_le_short (tag := 0x30) (append_le h2 (append_le z (append_le h3 z))) (by omega)
  rw [← e] at h4
  exact paData_le g 2 _ (m := 5) (by decide +kernel) (Nat.le_trans h4 (by omega : _ ≤ 68)) (by omega)

theorem sorted_short (o : Options) : (∀ x ∈ o.sortedEtypes, (intBytes x).length = 1) ∧ o.sortedEtypes.length ≤ 3 := by
  have h18 : (intBytes 18).length = 1 := by decide +kernel
  have h17 : (intBytes 17).length = 1 := by decide +kernel
  have h23 : (intBytes 23).length = 1 := by decide +kernel
  rw [(c46_order o).1]
  refine ⟨?_, List.length_filter_le _ _⟩
  intro x hx
  have := (List.mem_filter.1 hx).1
  simp only [List.mem_cons, List.not_mem_nil, or_false] at this
  rcases this with rfl | rfl | rfl <;> assumption

theorem overhead_le (c : Cipher) : Crypto.overhead c ≤ 28 := by
  cases c <;> simp [Crypto.overhead]

/-! ### C111 -/

/-- C111. A request, with or without pre-authentication, with any key and options: at most 262 bytes and, in UTF-8, the user name
once and the realm twice. -/
theorem c111_request (P : Prims) (hP : P.Lawful) (M : CaseMap) (g : Cfg) (e : Env) (he : EnvOk e) (hy : FourDigits e)
    (username : List Char) (key : Option Key) (hk : ∀ k, key = some k → k.WF) (o : Options)
    (hs : (utf8 username).length + 2 * (utf8 o.realm).length ≤ 65000) (m : Bytes)
    (h : buildAsReq P M g e username key o = .ok m) :
    m.length ≤ 262 + ((utf8 username).length + 2 * (utf8 o.realm).length) := by
  unfold buildAsReq at h
  rw [createAsReq_eq he] at h
  cases key with
  | none =>
    have h : MsgType.build g .asReq _ = m := Except.ok.inj h
    rw [← h]
    refine Nat.le_trans (asReq_le g _ _ (body_le g o.kdc_options username o.realm _ _ e.nonce _ hy.till hy.rtime
      (sorted_short o).1 (sorted_short o).2 hs) ?_ (by omega)) (by omega)
    have := pac_le g o
    cases ho : o.pac with
    | false => exact Nat.zero_le _
    | true => exact Nat.le_trans this (by omega)
  | some k =>
    rcases preauth_exists hP M o username k (hk k rfl) with ⟨⟨pw, rfl⟩, h2⟩ | ⟨et, kb, c, h1, h2, h3⟩
    · have hx : encryptedTimestamp P M g e o.realm username (.secret pw) o.sortedEtypes = .error .noProvidedSupportedCipherAlgorithm := by
        have a : ∀ t ∈ [18, 17, 23], o.sortedEtypes.contains t = false := fun t ht => by
          rw [Bool.eq_false_iff]
          exact fun hc => h2 t ht ((mem_sorted o t ht).1 hc)
        unfold encryptedTimestamp
        dsimp only
        rw [a 18 (by simp), a 17 (by simp), a 23 (by simp)]
        rfl
      simp only [hx] at h
      cases h
    · obtain ⟨data, hd, hdec⟩ := Crypto.c26_cipher_roundtrip P hP c kb h3 1
        (MsgType.build g .paEncTsEnc (PaEncTsEnc.ofTime e.stampNow)) (e.confounder c.preambleSize) (he.confounder _)
      have hx : encryptedTimestamp P M g e o.realm username k o.sortedEtypes = .ok (et, data) := by
        rw [encryptedTimestamp_preauth h1, withKey_spec h2, hd]; rfl
      have hl := Crypto.c27_encrypt_size P hP c kb h3 1 _ _ data (he.confounder _) hd
      have h28 := overhead_le c
      have h29 := stamp_le g e hy
      have het : (intBytes et).length = 1 := by
        have hm : et = 18 ∨ et = 17 ∨ et = 23 := by
          have := (Crypto.c35_factory et).2.1.1 ⟨c, h2⟩
          simpa using this
        rcases hm with rfl | rfl | rfl <;> decide +kernel
      simp only [hx] at h
      have h : MsgType.build g .asReq _ = m := Except.ok.inj h
      rw [← h]
      refine Nat.le_trans (asReq_le g _ _ (body_le g o.kdc_options username o.realm _ _ e.nonce _ hy.till hy.rtime
        (by intro x hx; rw [List.mem_singleton.1 hx]; exact het) (by simp) hs) ?_ (by omega)) (by omega)
      rw [Option.getD_some, List.flatMap_append, List.flatMap_singleton]
      exact append_le (pac_le g o) (preauth_le g et data het (by omega))

/-- C111. Whatever is answered, every message sent to obtain a ticket is that short; it fits into a UDP datagram (65507 bytes) when
the names take at most 65000, and into an unfragmented one on Ethernet (1472 bytes) when they take at most 1210. -/
theorem c111_dialogue (P : Prims) (hP : P.Lawful) (M : CaseMap) (g : Cfg) (net : Net) (e1 e2 : Env) (h1 : EnvOk e1) (h2 : EnvOk e2)
    (y1 : FourDigits e1) (y2 : FourDigits e2) (username : List Char) (key : Option Key) (hk : ∀ k, key = some k → k.WF) (o : Options)
    (hs : (utf8 username).length + 2 * (utf8 o.realm).length ≤ 65000) :
    ∀ m ∈ (tgtRequest P M g net e1 e2 username key o).2,
      m.length ≤ 262 + ((utf8 username).length + 2 * (utf8 o.realm).length) ∧ m.length ≤ 65507 ∧
      ((utf8 username).length + 2 * (utf8 o.realm).length ≤ 1210 → m.length ≤ 1472) := by
  have key : ∀ m ∈ (tgtRequest P M g net e1 e2 username key o).2,
      m.length ≤ 262 + ((utf8 username).length + 2 * (utf8 o.realm).length) := by
    have r1 := c111_request P hP M g e1 h1 y1 username none (fun _ h => nomatch h) o hs
    have r2 := c111_request P hP M g e2 h2 y2 username key hk o hs
    obtain ⟨s, hs', ht⟩ := tgtRequest_sent P M g net e1 e2 username key o
    have hb : ∀ m ∈ s, m.length ≤ 262 + ((utf8 username).length + 2 * (utf8 o.realm).length) := by
      intro m hm
      rcases hs' with rfl | ⟨a, ha, rfl⟩
      · exact nomatch hm
      · rw [List.mem_singleton.1 hm]; exact r1 a ha
    intro m hm
    rcases ht with ht | ⟨a, ha, ht⟩ <;> rw [ht] at hm
    · exact hb m hm
    · rcases List.mem_append.1 hm with hm | hm
      · exact hb m hm
      · rw [List.mem_singleton.1 hm]; exact r2 a ha
  intro m hm
  have := key m hm
  exact ⟨this, by omega, by omega⟩

/-! ### Examples -/

set_option maxRecDepth 100000

theorem exEnv_fourDigits : FourDigits exEnv := ⟨by decide +kernel, by decide +kernel, by decide +kernel⟩

/-- two messages, the second with a pre-authenticator -/
example : (tgtRequest toyPrims asciiCase strictCfg (exNet exCipherKey) exEnv exEnv "mickey".toList (some exCipherKey) exOptions).2.map
    List.length = [189, 257] := by decide +kernel

example : (utf8 "mickey".toList).length + 2 * (utf8 exOptions.realm).length = 34 := by decide +kernel

end Verif.Kb
