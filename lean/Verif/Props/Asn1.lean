import Verif.Asn1Misc
import Verif.Asn1MsgLemmas
import Verif.Asn1SpecLemmas
/-
Property theorems C39 to C45, C59 to C61: Kerberos messages (kerberos_asn1).
`g : Cfg` is everything about the external ASN.1 crates that /repo does not determine; the theorems hold for all of it.
-/
namespace Verif.Asn1
open Verif.Crypto (CaseMap)

/-- A concrete instance of the external crate, for examples: strict everywhere. -/
def strictCfg : Cfg where
  strictSeq := true
  strictWrap := true
  minimalLen := true
  emptyInt := .error .error
  u32Ext _ := .error .error
  boolExt _ := .error .error
  timeExt _ := .error .error
  yearFmt _ := []

example : strictCfg.Total := ⟨nofun, nofun, nofun, nofun⟩

/-! ### C39: every message reads back -/

/-- C39. For each of the 60 message types: the built bytes, followed by anything, parse to the same value and
leave what followed. `T.WF v`: all times in `v` are whole seconds in years 0 to 9999. -/
theorem c39_roundtrip (g : Cfg) (T : MsgType) (v : T.Value) (hw : T.WF v)
    (hs : (T.build g v).length < 2^64) (rest : Bytes) :
    T.parse g (T.build g v ++ rest) = .ok (v, rest) :=
  (T.lawful g).reads hw hs rest

/-- C39. Different messages have different bytes, and no message is a proper prefix of another. -/
theorem c39_unambiguous (g : Cfg) (T : MsgType) (v w : T.Value) (hv : T.WF v) (hw : T.WF w)
    (hs : (T.build g v).length < 2^64) (hs' : (T.build g w).length < 2^64) (x y : Bytes)
    (h : T.build g v ++ x = T.build g w ++ y) : v = w ∧ x = y :=
  (T.lawful g).enc_append_inj hv hw hs hs' h

/-- a ticket -/
def exTicket : Ticket :=
  Ticket.new "KINGDOM.HEARTS".toList ⟨2, ["krbtgt".toList, "KINGDOM.HEARTS".toList]⟩ ⟨18, some 2, [1, 2, 3]⟩
/-- a reply part with every kind of field, optional ones present and absent -/
def exPart : EncAsRepPart where
  key := ⟨18, [9, 9]⟩
  last_req := [⟨0, ⟨1000000000, 0⟩⟩, ⟨-3, ⟨0, 0⟩⟩]
  nonce := 3245721550
  key_expiration := none
  flags := 0x40e10000
  authtime := ⟨2136422885, 0⟩
  starttime := some ⟨-1, 0⟩
  endtime := ⟨253402300799, 0⟩
  renew_till := none
  srealm := "KINGDOM.HEARTS".toList
  sname := ⟨2, ["krbtgt".toList, "ñ€𝄞".toList]⟩
  caddr := some [⟨20, []⟩]
  encrypted_pa_data := some []

example : MsgType.WF .encAsRepPart exPart ∧ (MsgType.build strictCfg .encAsRepPart exPart).length < 2^64 := by
  refine ⟨⟨?_, ?_, ?_, ?_, ?_, ?_⟩, by decide +kernel⟩
  · intro a ha
    simp only [exPart, List.mem_cons, List.not_mem_nil, or_false] at ha
    rcases ha with rfl | rfl <;> (show TimeOk _) <;> decide +kernel
  · intro a h; simp [exPart] at h
  · show TimeOk _; decide +kernel
  · intro a h; simp only [exPart, Option.some.injEq] at h; subst h; decide +kernel
  · show TimeOk _; decide +kernel
  · intro a h; simp [exPart] at h
example : MsgType.parse strictCfg .encAsRepPart (MsgType.build strictCfg .encAsRepPart exPart ++ [7])
    = .ok (exPart, [7]) := by decide +kernel
example : MsgType.WF .ticket exTicket := trivial
-- int32.rs:17-38
example : MsgType.build strictCfg .int32 (-135 : Int32) = [0x02, 0x02, 0xff, 0x79] := by decide +kernel
-- uint32.rs:15-40
example : MsgType.build strictCfg .uInt32 (3245721550 : UInt32) = [0x02, 0x04, 0xc1, 0x75, 0xc7, 0xce] := by decide +kernel
-- kerberos_time.rs, 2037-09-13 02:48:05
example : MsgType.build strictCfg .kerberosTime (⟨2136422885, 0⟩ : DateTime)
    = 0x18 :: 0x0f :: utf8 "20370913024805Z".toList := by decide +kernel

/-! ### C40: flags -/

/-- C40. A flag word survives build and parse. -/
theorem c40_roundtrip (g : Cfg) (w : UInt32) (rest : Bytes) :
    MsgType.parse g .kerberosFlags (MsgType.build g .kerberosFlags w ++ rest) = .ok (w, rest) :=
  c39_roundtrip g .kerberosFlags w trivial (by
    show (flagsC.enc w).length < 2^64
    simp [flagsC, bitStringC, Codec.enc, tlv, buildLen]) rest

/-- C40. Any received BIT STRING (number of unused bits `p`, octets `b`) gives the flag word whose octets are the
first four of `b`, filled up with zeros on the right; the number of unused bits is ignored. -/
theorem c40_normalise (g : Cfg) (p : UInt8) (b rest : Bytes) (hb : b.length < 2^64 - 1) :
    ∃ w, MsgType.parse g .kerberosFlags ((Der.prim 0x03 (p :: b)).bytes ++ rest) = .ok (w, rest) ∧
      be32 w = (b ++ [0, 0, 0, 0]).take 4 := by
  obtain ⟨w, x, y, z, t, hl, hp⟩ := flagsC_parse_cons p b
  refine ⟨ofBe32 w x y z, ?_, ?_⟩
  · show (flagsC).dec g _ = _
    rw [← tlv_prim]
    unfold Codec.dec
    rw [show parseTlv g flagsC.tag (tlv 3 (p :: b) ++ rest) = _ from
      parseTlv_reads g 3 (p :: b) (by simp [Fits]; omega) rest]
    simp only [hp]
  · rw [be32_ofBe32]
    have h4 : (b ++ List.replicate (4 - b.length) 0).take 4 = [w, x, y, z] := by rw [hl]; rfl
    rw [← h4, List.take_append, List.take_append]
    congr 1
    match b with
    | [] => rfl
    | [_] => rfl
    | [_, _] => rfl
    | [_, _, _] => rfl
    | _ :: _ :: _ :: _ :: _ => simp

/-- C40. Bit 0 of the wire form is the most significant bit of the word. -/
theorem c40_wire_bits (g : Cfg) (w : UInt32) :
    MsgType.build g .kerberosFlags w
      = [3, 5, 0, UInt8.ofNat (w.toNat / 2^24), UInt8.ofNat (w.toNat / 2^16), UInt8.ofNat (w.toNat / 2^8),
          UInt8.ofNat w.toNat] := by
  show flagsC.enc w = _
  simp [flagsC, bitStringC, Codec.enc, tlv, buildLen, be32]

-- kerberos_flags.rs test vectors
example : MsgType.build strictCfg .kerberosFlags (0x40000000 : UInt32) = [3, 5, 0, 0x40, 0, 0, 0] := by decide +kernel
example : MsgType.parse strictCfg .kerberosFlags [3, 2, 0, 0x40] = .ok (0x40000000, []) := by decide +kernel
example : MsgType.parse strictCfg .kerberosFlags [3, 3, 0, 0x28, 0x14, 5] = .ok (0x28140000, [5]) := by decide +kernel
example : MsgType.parse strictCfg .kerberosFlags [3, 6, 0, 1, 2, 3, 4, 5] = .ok (0x01020304, []) := by decide +kernel

/-! ### C41: times -/

/-- C41. A built time never has a fraction: two instants in the same second have the same bytes. -/
theorem c41_no_fraction (g : Cfg) (t t' : DateTime) (h : t.secs = t'.secs) :
    MsgType.build g .kerberosTime t = MsgType.build g .kerberosTime t' := by
  show (kerberosTimeC g).enc t = (kerberosTimeC g).enc t'
  simp only [Codec.enc, kerberosTimeC_build, h]

/-- C41. Reading back a built time gives it truncated to the second, whatever the sub-second part (including leap
seconds), for every instant in years 0 to 9999. -/
theorem c41_truncates (g : Cfg) (t : DateTime) (h0 : 0 ≤ t.date.year) (h1 : t.date.year ≤ 9999) (rest : Bytes) :
    MsgType.parse g .kerberosTime (MsgType.build g .kerberosTime t ++ rest) = .ok (⟨t.secs, 0⟩, rest) := by
  rw [c41_no_fraction g t ⟨t.secs, 0⟩ rfl]
  refine c39_roundtrip g .kerberosTime (⟨t.secs, 0⟩ : DateTime) ⟨rfl, h0, h1⟩ ?_ rest
  show ((kerberosTimeC g).enc _).length < 2^64
  simp only [Codec.enc, kerberosTimeC_build]
  have hl : (genTimeBytes g ⟨t.secs, 0⟩).length = 15 := by
    have hy : yearBytes g (DateTime.date ⟨t.secs, 0⟩).year = _ := yearBytes_eq g ⟨h0, h1⟩
    simp [genTimeBytes, hy, decimal, twoDigits]
  simp [tlv, hl, buildLen]

/-- C41. The wire form is "YYYYMMDDhhmmssZ" of the UTC calendar date and time of day. -/
theorem c41_wire (g : Cfg) (t : DateTime) (h0 : 0 ≤ t.date.year) (h1 : t.date.year ≤ 9999) :
    MsgType.build g .kerberosTime t
      = [0x18, 15] ++ decimal 4 t.date.year.toNat ++ decimal 2 t.date.month ++ decimal 2 t.date.day
          ++ decimal 2 t.hour ++ decimal 2 t.minute ++ decimal 2 t.second ++ [0x5a] := by
  rw [MsgType.build_der]
  show (dTime (lib g) t).bytes = _
  rw [dTime_congr ⟨h0, h1⟩]
  simp [dTime, Der.bytes, rfc, decimal, derLen]

example : MsgType.parse strictCfg .kerberosTime (MsgType.build strictCfg .kerberosTime (⟨2136422885, 999999999⟩ : DateTime))
    = .ok (⟨2136422885, 0⟩, []) := by decide +kernel
example : (0 : Int) ≤ (DateTime.date ⟨-1, 5⟩).year ∧ (DateTime.date ⟨-1, 5⟩).year ≤ 9999 := by decide +kernel

/-! ### C42: principal names -/

/-- C42. Specification: same type, same number of components, components equal up to case. -/
def SameName (M : CaseMap) (a b : PrincipalName) : Prop :=
  a.name_type = b.name_type ∧ a.name_string.map M.lower = b.name_string.map M.lower

theorem nameLoop_iff (M : CaseMap) : ∀ a b : List (List Char), a.length = b.length →
    (nameLoop M (a.zip b) = true ↔ a.map M.lower = b.map M.lower) := by
  intro a
  induction a with
  | nil => intro b h; cases b <;> simp_all [nameLoop]
  | cons x a ih =>
    intro b h
    cases b with
    | nil => simp at h
    | cons y b =>
      simp only [List.length_cons, Nat.add_right_cancel_iff] at h
      simp only [List.zip_cons_cons, nameLoop, List.map_cons, List.cons.injEq, ← ih b h]
      split <;> simp_all

/-- C42. Name comparison. -/
theorem c42_eq_iff (M : CaseMap) (a b : PrincipalName) : PrincipalName.eq M a b = true ↔ SameName M a b := by
  unfold PrincipalName.eq SameName
  by_cases h1 : a.name_type = b.name_type
  · by_cases h2 : a.name_string.length = b.name_string.length
    · simp [h1, h2, nameLoop_iff M _ _ h2]
    · rw [if_neg (not_not_intro h1), if_pos h2]
      simp only [Bool.false_eq_true, false_iff]
      intro h; replace h := h.2; exact h2 (by simpa using congrArg List.length h)
  · simp [h1]

/-- C42. It is an equivalence relation. -/
theorem c42_equivalence (M : CaseMap) : Equivalence (fun a b => PrincipalName.eq M a b = true) where
  refl a := (c42_eq_iff M a a).2 ⟨rfl, rfl⟩
  symm h := (c42_eq_iff M _ _).2 (by have := (c42_eq_iff M _ _).1 h; exact ⟨this.1.symm, this.2.symm⟩)
  trans h h' := (c42_eq_iff M _ _).2 (by
    have h1 := (c42_eq_iff M _ _).1 h
    have h2 := (c42_eq_iff M _ _).1 h'
    exact ⟨h1.1.trans h2.1, h1.2.trans h2.2⟩)

/-- C42. Equal names have the same number of components. -/
theorem c42_same_length (M : CaseMap) (a b : PrincipalName) (h : PrincipalName.eq M a b = true) :
    a.name_string.length = b.name_string.length := by
  simpa using congrArg List.length ((c42_eq_iff M a b).1 h).2

/-- C42. Printing joins the components with '/'. -/
theorem c42_display (p : PrincipalName) (h : p.name_string ≠ []) :
    p.display = .ok (List.intercalate ['/'] p.name_string) := by
  unfold PrincipalName.display PrincipalName.mainName
  match hn : p.name_string, h with
  | s :: r, _ =>
    show Except.ok (List.foldl _ s r) = _
    congr 1
    clear hn
    induction r generalizing s with
    | nil => simp
    | cons t r ih =>
      simp only [List.foldl_cons]
      rw [ih (s ++ '/' :: t) (by simp)]
      cases r <;> simp [List.intercalate, List.intersperse]

/-- C42. The main name is the first component; an empty name makes `main_name` and printing panic. -/
theorem c42_main_name (p : PrincipalName) :
    (∀ s r, p.name_string = s :: r → p.mainName = .ok s) ∧
    (p.name_string = [] → p.mainName = .error .panic ∧ p.display = .error .panic) := by
  constructor
  · intro s r h; simp [PrincipalName.mainName, h]
  · intro h
    have : p.mainName = .error .panic := by simp [PrincipalName.mainName, h]
    refine ⟨this, ?_⟩
    unfold PrincipalName.display; rw [this]; rfl

/-- C42. A name built with `new` and `push` has exactly the given components, and a main name. -/
theorem c42_new_push (t : Int32) (s : List Char) (more : List (List Char)) :
    (more.foldl PrincipalName.push (PrincipalName.new t s)) = ⟨t, s :: more⟩ := by
  have : ∀ (more : List (List Char)) (l : List (List Char)),
      more.foldl PrincipalName.push ⟨t, l⟩ = ⟨t, l ++ more⟩ := by
    intro more
    induction more with
    | nil => intro l; simp
    | cons x more ih => intro l; simp [PrincipalName.push, ih]
  simpa [PrincipalName.new] using this more [s]

/-- case conversion that only knows ASCII -/
def asciiMap : CaseMap := ⟨List.map Char.toUpper, List.map Char.toLower⟩
example : PrincipalName.eq asciiMap ⟨1, ["Mickey".toList, "x".toList]⟩ ⟨1, ["mICKEY".toList, "X".toList]⟩ = true := by
  decide +kernel
example : PrincipalName.eq asciiMap ⟨1, ["mickey".toList]⟩ ⟨1, ["mickey".toList, []]⟩ = false := by decide +kernel
example : (PrincipalName.mk 2 ["krbtgt".toList, "R".toList]).display = .ok "krbtgt/R".toList := by decide +kernel

/-! ### C43: conversions -/

/-- C43. Request conversions: generic to specific sets the message type and keeps the rest; specific to generic keeps
everything; a specific request with its own message type survives the round trip. -/
theorem c43_requests (r : KdcReq) (a : AsReq) (t : TgsReq) :
    KdcReq.ofAsReq (AsReq.ofKdcReq r) = { r with msg_type := 10 } ∧
    KdcReq.ofTgsReq (TgsReq.ofKdcReq r) = { r with msg_type := 12 } ∧
    AsReq.ofKdcReq (KdcReq.ofAsReq a) = { a with msg_type := 10 } ∧
    TgsReq.ofKdcReq (KdcReq.ofTgsReq t) = { t with msg_type := 12 } ∧
    (a.msg_type = 10 → AsReq.ofKdcReq (KdcReq.ofAsReq a) = a) ∧
    (t.msg_type = 12 → TgsReq.ofKdcReq (KdcReq.ofTgsReq t) = t) := by
  refine ⟨rfl, rfl, rfl, rfl, ?_, ?_⟩
  · intro h; cases a; simp_all [AsReq.ofKdcReq, KdcReq.ofAsReq]
  · intro h; cases t; simp_all [TgsReq.ofKdcReq, KdcReq.ofTgsReq]

/-- C43. An AS-REQ made from a generic request has the same body bytes on the wire: only the application tag
(and message type 10) differ from the generic encoding. -/
theorem c43_request_wire (g : Cfg) (r : KdcReq) (h : r.msg_type = 10) :
    MsgType.build g .asReq (AsReq.ofKdcReq r) = tlv 0x6a (MsgType.build g .kdcReq r) := by
  have e : AsReq.ofKdcReq r = ⟨r.pvno, r.msg_type, r.padata, r.req_body⟩ := by rw [h]; rfl
  rw [e]
  rfl

/-- the three forms of a reply part -/
inductive RepForm | as | tgs | kdc
/-- value of a form -/
def RepForm.Value : RepForm → Type
  | .as => EncAsRepPart
  | .tgs => EncTgsRepPart
  | .kdc => EncKdcRepPart
/-- the library's conversion between two forms -/
def RepForm.convert : (a b : RepForm) → a.Value → b.Value
  | .as, .as => id
  | .as, .tgs => EncTgsRepPart.ofAs
  | .as, .kdc => EncKdcRepPart.ofAs
  | .tgs, .as => EncAsRepPart.ofTgs
  | .tgs, .tgs => id
  | .tgs, .kdc => EncKdcRepPart.ofTgs
  | .kdc, .as => EncAsRepPart.ofKdc
  | .kdc, .tgs => EncTgsRepPart.ofKdc
  | .kdc, .kdc => id

/-- C43. Converting in two steps is converting directly; with `a = c` the round trip is the identity, so by induction
any chain of conversions that ends where it started changes nothing. -/
theorem c43_parts_compose (a b c : RepForm) (v : a.Value) :
    RepForm.convert b c (RepForm.convert a b v) = RepForm.convert a c v := by
  cases a <;> cases b <;> cases c <;> rfl

/-- following a chain of conversions -/
def RepForm.chain : (a : RepForm) → (l : List RepForm) → (c : RepForm) → a.Value → c.Value
  | a, [], c, v => RepForm.convert a c v
  | a, b :: l, c, v => RepForm.chain b l c (RepForm.convert a b v)

theorem RepForm.convert_self (a : RepForm) (v : a.Value) : RepForm.convert a a v = v := by cases a <;> rfl

/-- C43. Any chain of conversions starting and ending at the same form is the identity. -/
theorem c43_chain (a : RepForm) (l : List RepForm) (v : a.Value) : RepForm.chain a l a v = v := by
  have : ∀ (l : List RepForm) (a c : RepForm) (v : a.Value), RepForm.chain a l c v = RepForm.convert a c v := by
    intro l
    induction l with
    | nil => intros; rfl
    | cons b l ih => intro a c v; rw [RepForm.chain, ih, c43_parts_compose]
  rw [this, RepForm.convert_self]

/-- the 13 fields of a reply part -/
structure PartFields where
  key : EncryptionKey
  last_req : List LastReqEntry
  nonce : UInt32
  key_expiration : Option DateTime
  flags : UInt32
  authtime : DateTime
  starttime : Option DateTime
  endtime : DateTime
  renew_till : Option DateTime
  srealm : List Char
  sname : PrincipalName
  caddr : Option (List HostAddress)
  encrypted_pa_data : Option (List PaData)

/-- reading the fields of a form by their names -/
def RepForm.fields : (a : RepForm) → a.Value → PartFields
  | .as, (p : EncAsRepPart) => ⟨p.key, p.last_req, p.nonce, p.key_expiration, p.flags, p.authtime, p.starttime, p.endtime,
      p.renew_till, p.srealm, p.sname, p.caddr, p.encrypted_pa_data⟩
  | .tgs, (p : EncTgsRepPart) => ⟨p.key, p.last_req, p.nonce, p.key_expiration, p.flags, p.authtime, p.starttime, p.endtime,
      p.renew_till, p.srealm, p.sname, p.caddr, p.encrypted_pa_data⟩
  | .kdc, (p : EncKdcRepPart) => ⟨p.key, p.last_req, p.nonce, p.key_expiration, p.flags, p.authtime, p.starttime, p.endtime,
      p.renew_till, p.srealm, p.sname, p.caddr, p.encrypted_pa_data⟩

/-- C43. Every field keeps its value under every conversion. -/
theorem c43_fields (a b : RepForm) (v : a.Value) : b.fields (RepForm.convert a b v) = a.fields v := by
  cases a <;> cases b <;> rfl

/-! ### C44: microseconds -/

/-- C44. The pre-authentication timestamp keeps the instant, and its microseconds are in 0..999999 for every clock
value (`nanos` may reach 1999999999 in a leap second); outside leap seconds they are the exact microseconds. -/
theorem c44_microseconds (t : DateTime) (h : t.nanos < 2 * 10^9) :
    (PaEncTsEnc.ofTime t).patimestamp = t ∧
    ∃ us : Int32, (PaEncTsEnc.ofTime t).pausec = some us ∧ 0 ≤ us.toInt ∧ us.toInt ≤ 999999 ∧
      (t.nanos < 10^9 → us.toInt = ((t.nanos / 1000 : Nat) : Int)) := by
  refine ⟨rfl, _, rfl, ?_⟩
  have hu : (UInt32.ofNat (t.nanos / 1000)).toNat = t.nanos / 1000 := by
    rw [UInt32.toNat_ofNat']; omega
  have hi : (UInt32.ofNat (t.nanos / 1000)).toInt32.toInt = ((t.nanos / 1000 : Nat) : Int) := by
    have := i32_toUInt32_toNat (UInt32.ofNat (t.nanos / 1000)).toInt32
    have h1 := (UInt32.ofNat (t.nanos / 1000)).toInt32.toInt_lt
    have h2 := (UInt32.ofNat (t.nanos / 1000)).toInt32.le_toInt
    simp only [UInt32.toUInt32_toInt32, hu] at this
    omega
  have h0 : (0 : Int32).toInt = 0 := by decide
  have hm : (999999 : Int32).toInt = 999999 := by decide
  unfold clampI32
  simp only [Int32.lt_iff_toInt_lt, hi, h0, hm]
  split
  · omega
  · split
    · simp only [hm]; omega
    · rw [hi]; omega

/-- C44. In particular the timestamp can be built and read back by the KDC. -/
theorem c44_wire (g : Cfg) (t : DateTime) (h0 : 0 ≤ t.date.year) (h1 : t.date.year ≤ 9999) (rest : Bytes)
    (hs : (MsgType.build g .paEncTsEnc (PaEncTsEnc.ofTime t)).length < 2^64) :
    MsgType.parse g .paEncTsEnc (MsgType.build g .paEncTsEnc (PaEncTsEnc.ofTime t) ++ rest)
      = .ok (⟨⟨t.secs, 0⟩, (PaEncTsEnc.ofTime t).pausec⟩, rest) := by
  have e : MsgType.build g .paEncTsEnc (PaEncTsEnc.ofTime t)
      = MsgType.build g .paEncTsEnc (⟨⟨t.secs, 0⟩, (PaEncTsEnc.ofTime t).pausec⟩ : PaEncTsEnc) := by
    simp only [MsgType.build_der]
    show (PaEncTsEnc.der _ _).bytes = (PaEncTsEnc.der _ _).bytes
    have : dTime (lib g) t = dTime (lib g) ⟨t.secs, 0⟩ := rfl
    simp only [PaEncTsEnc.der, PaEncTsEnc.ofTime, req, this]
  have hw : PaEncTsEnc.WF ⟨⟨t.secs, 0⟩, (PaEncTsEnc.ofTime t).pausec⟩ := ⟨rfl, h0, h1⟩
  generalize PaEncTsEnc.mk ⟨t.secs, 0⟩ (PaEncTsEnc.ofTime t).pausec = v at e hw ⊢
  rw [e] at hs ⊢
  exact c39_roundtrip g .paEncTsEnc v hw hs rest

/-- C44. The default authenticator divides the clock's nanoseconds by 1000 without clamping: in range outside leap
seconds, out of range in every leap second. -/
theorem c44_authenticator (now : DateTime) (h : now.nanos < 2 * 10^9) :
    (now.nanos < 10^9 ↔ 0 ≤ (Authenticator.default now).cusec.toInt ∧ (Authenticator.default now).cusec.toInt ≤ 999999) := by
  show _ ↔ 0 ≤ (Int32.ofNat (now.nanos / 1000)).toInt ∧ (Int32.ofNat (now.nanos / 1000)).toInt ≤ 999999
  have : (Int32.ofNat (now.nanos / 1000)).toInt = ((now.nanos / 1000 : Nat) : Int) := by
    apply Int32.toInt_ofNat_of_lt; omega
  rw [this]; omega

example : (PaEncTsEnc.ofTime ⟨78796799, 1999999999⟩).pausec = some 999999 := by decide +kernel
example : (PaEncTsEnc.ofTime ⟨78796799, 123456789⟩).pausec = some 123456 := by decide +kernel

/-! ### C45: parsing arbitrary bytes -/

/-- C45. On success the remainder is a proper suffix, and the result depends only on the bytes before it: replacing
what follows by anything gives the same value. -/
theorem c45_local (g : Cfg) (T : MsgType) (i : Bytes) (v : T.Value) (r : Bytes) (h : T.parse g i = .ok (v, r)) :
    ∃ used, used ≠ [] ∧ i = used ++ r ∧ ∀ x, T.parse g (used ++ x) = .ok (v, x) := by
  obtain ⟨u, h1, h2, h3⟩ := Codec.dec_local h
  exact ⟨u, h2, h1, h3⟩

/-- C45. No byte string makes any message parser panic, provided the external ASN.1 crate itself does not panic. -/
theorem c45_no_panic (g : Cfg) (hg : g.Total) (T : MsgType) (i : Bytes) : T.parse g i ≠ .error .panic :=
  (T.lawful g).noPanic hg i

/-- C45. A truncated message is refused: no proper prefix of a built message parses. -/
theorem c45_truncated (g : Cfg) (T : MsgType) (v : T.Value) (hw : T.WF v)
    (hs : (T.build g v).length < 2^64) (p : Bytes) (hp : p <+: T.build g v) (hne : p ≠ T.build g v)
    (w : T.Value) (r : Bytes) : T.parse g p ≠ .ok (w, r) := by
  intro h
  obtain ⟨u, hu, rfl, hx⟩ := c45_local g T p w r h
  obtain ⟨s, hs'⟩ := hp
  have h1 := c39_roundtrip g T v hw hs []
  rw [List.append_nil, ← hs', List.append_assoc, hx] at h1
  simp only [Except.ok.injEq, Prod.mk.injEq, List.append_eq_nil_iff] at h1
  apply hne
  rw [← hs', h1.2.2, List.append_nil]

example : MsgType.parse strictCfg .ticket (MsgType.build strictCfg .ticket exTicket ++ [1, 2]) = .ok (exTicket, [1, 2]) := by
  decide +kernel
example : MsgType.parse strictCfg .krbError [0x7e, 0x84, 0xff, 0xff, 0xff, 0xff, 0] = .error .error := by decide +kernel

/-! ### C59: wire format -/

/-- C59. The bytes of every message are the DER encoding of its ASN.1 type as given by RFC 4120, MS-KILE and MS-SFU
(`Verif.Asn1Spec`), provided all its unsigned numbers are below 2^31 and its times in years 0 to 9999. -/
theorem c59_wire_format (g : Cfg) (T : MsgType) (v : T.Value) (h : T.Plain v) :
    T.build g v = (T.der rfc v).bytes := by
  rw [MsgType.build_der, T.der_congr h]

/-- C59. Without the restriction, only unsigned numbers of 2^31 and more are written differently (as negative
numbers), and years that have no four-digit form. -/
theorem c59_wire_format_all (g : Cfg) (T : MsgType) (v : T.Value) :
    ∃ w : WireForm, T.build g v = (T.der w v).bytes ∧
      (∀ x : UInt32, w.u32 x = if x.toNat < 2^31 then (x.toNat : Int) else (x.toNat : Int) - 2^32) ∧
      (∀ y : Int, 0 ≤ y → y ≤ 9999 → w.year y = decimal 4 y.toNat) := by
  refine ⟨lib g, T.build_der g v, fun x => ?_, fun y h0 h1 => yearBytes_eq g ⟨h0, h1⟩⟩
  show x.toInt32.toInt = _
  have := i32_toUInt32_toNat x.toInt32
  have h1 := x.toInt32.toInt_lt
  have h2 := x.toInt32.le_toInt
  simp only [UInt32.toUInt32_toInt32] at this
  split <;> omega

/-- C59 violated. Every unsigned number of 2^31 and more is written as the INTEGER `n - 2^32`: the bytes differ from
the DER of the number, and a standard decoder reads a negative number. -/
theorem c59_uint32_large (g : Cfg) (x : UInt32) (h : 2^31 ≤ x.toNat) :
    MsgType.build g .uInt32 x ≠ (MsgType.der rfc .uInt32 x).bytes ∧
    MsgType.build g .uInt32 x = (dInt32 (Int32.ofInt ((x.toNat : Int) - 2^32))).bytes := by
  have he : x.toInt32.toInt = (x.toNat : Int) - 2^32 := by
    have := i32_toUInt32_toNat x.toInt32
    have h1 := x.toInt32.toInt_lt
    have h2 := x.toInt32.le_toInt
    simp only [UInt32.toUInt32_toInt32] at this
    omega
  have hb : MsgType.build g .uInt32 x = (Der.prim 2 (derInt x.toInt32.toInt)).bytes := uint32C_der g x
  constructor
  · rw [hb]
    show _ ≠ (Der.prim 2 (derInt (x.toNat : Int))).bytes
    intro hc
    rw [← tlv_prim, ← tlv_prim] at hc
    have hl1 : (derInt x.toInt32.toInt).length ≤ 4 := by rw [← intBytes_eq]; exact (intBytes_length _).2
    have hl2 : (derInt (x.toNat : Int)).length = 5 := by
      unfold derInt
      simp only [Int.reducePow, Int.reduceNeg]
      repeat rw [if_neg (by omega)]
      rfl
    have hlen := congrArg List.length hc
    simp only [tlv, List.length_cons, List.length_append, buildLen, hl2] at hlen
    rw [if_pos (by omega), if_pos (by omega)] at hlen
    simp only [List.length_cons, List.length_nil] at hlen
    omega
  · rw [hb, he, dInt32, ← he]; simp

example : MsgType.Plain .krbError (⟨5, 30, none, none, ⟨5, 0⟩, 3, 25, none, none, "R".toList, ⟨2, []⟩, none, none⟩ : KrbError) := by
  refine ⟨?_, ?_⟩
  · intro a h; cases h
  · show YearOk _; unfold YearOk; decide +kernel

/-! ### C60: optional components -/

/-- ASN.1 of EncAPRepPart in RFC 4120 5.5.2 and in the doc comment of enc_ap_rep_part.rs: `subkey` and `seq-number` are
OPTIONAL. -/
def encApRepPartRfc (ctime : DateTime) (cusec : Int32) (subkey : Option EncryptionKey) (seq : Option UInt32) : Der :=
  .node 0x7b [.node 0x30 (
    req 0 (dTime rfc) ctime ++ (
    req 1 dInt32 cusec ++ (
    opt 2 EncryptionKey.der subkey ++
    opt 3 (dUInt32 rfc) seq)))]

theorem parseWrapped_missing {α} {g : Cfg} {tag : UInt8} {c : Codec α} {i : Bytes} (h : i.head? ≠ some tag) :
    parseWrapped g tag c i = .error .error := by
  unfold parseWrapped parseTlv
  cases i with
  | nil => rfl
  | cons t i => simp only [List.head?_cons, ne_eq, Option.some.injEq] at h; simp [h]

/-- The fields of an AP-REP part with a component missing. -/
theorem apRepFields_refused (g : Cfg) (ctime : DateTime) (cusec : Int32) (subkey : Option EncryptionKey)
    (seq : Option UInt32) (ht : TimeOk ctime) (hm : subkey = none ∨ seq = none)
    (hs : Fits (Der.listBytes (req 0 (dTime rfc) ctime ++ (req 1 dInt32 cusec ++ (opt 2 EncryptionKey.der subkey ++
      opt 3 (dUInt32 rfc) seq))))) :
    (EncApRepPart.fields g).parse (Der.listBytes (req 0 (dTime rfc) ctime ++ (req 1 dInt32 cusec ++
      (opt 2 EncryptionKey.der subkey ++ opt 3 (dUInt32 rfc) seq)))) = .error .error := by
  have hA : Der.listBytes (req 0 (dTime rfc) ctime) = tlv (ctxTag 0) ((kerberosTimeC g).enc ctime) := by
    rw [kerberosTimeC_der, dTime_congr ⟨ht.2.1, ht.2.2⟩, req, Der.listBytes_one, Der.bytes_node1]; rfl
  have hB : Der.listBytes (req 1 dInt32 cusec) = tlv (ctxTag 1) ((int32C g).enc cusec) := by
    rw [int32C_der, req, Der.listBytes_one, Der.bytes_node1]; rfl
  simp only [Der.listBytes_append, hA, hB] at hs ⊢
  have fit : ∀ {a b : Bytes}, Fits (a ++ b) → Fits a ∧ Fits b := by
    intro a b h; unfold Fits at *; simp only [List.length_append] at h; omega
  obtain ⟨fA, hs⟩ := fit hs
  obtain ⟨fB, hs⟩ := fit hs
  obtain ⟨fC, -⟩ := fit hs
  have h3 : ∀ s, (Der.listBytes (opt 3 (dUInt32 rfc) s)).head? ≠ some (ctxTag 2) := by
    intro s
    cases s with
    | none => simp [opt, Der.listBytes]
    | some n => simp [opt, req, Der.listBytes, Der.bytes]; decide
  simp only [EncApRepPart.fields, Fields.imap, reqField]
  rw [parseWrapped_reads (kerberosTimeC_lawful g) _ ht fA]
  simp only []
  rw [parseWrapped_reads (int32C_lawful g) _ trivial fB]
  simp only []
  cases subkey with
  | none => rw [show Der.listBytes (opt 2 EncryptionKey.der none) = [] from by simp [opt, Der.listBytes], List.nil_append,
              parseWrapped_missing (h3 _)]
  | some k =>
    obtain rfl : seq = none := by simpa using hm
    have hC : Der.listBytes (opt 2 EncryptionKey.der (some k)) = tlv (ctxTag 2) ((encryptionKeyC g).enc k) := by
      rw [encryptionKeyC_der, opt, req, Der.listBytes_one, Der.bytes_node1]; rfl
    rw [hC] at fC ⊢
    rw [parseWrapped_reads (encryptionKeyC_lawful g) _ trivial fC]
    simp only []
    rw [parseWrapped_missing (by simp [opt, Der.listBytes])]

/-- C60 violated. A peer's AP-REP part that omits `subkey` or `seq-number`, as the RFC allows, is refused; with both
present (and the number below 2^31) it is read. -/
theorem c60_ap_rep_part (g : Cfg) (ctime : DateTime) (cusec : Int32) (subkey : Option EncryptionKey)
    (seq : Option UInt32) (ht : TimeOk ctime)
    (hs : (encApRepPartRfc ctime cusec subkey seq).bytes.length < 2^64) (rest : Bytes) :
    (subkey = none ∨ seq = none →
      MsgType.parse g .encApRepPart ((encApRepPartRfc ctime cusec subkey seq).bytes ++ rest) = .error .error) ∧
    (∀ k n, subkey = some k → seq = some n → n.toNat < 2^31 →
      MsgType.parse g .encApRepPart ((encApRepPartRfc ctime cusec subkey seq).bytes ++ rest)
        = .ok (⟨ctime, cusec, k, n⟩, rest)) := by
  constructor
  · intro hm
    unfold encApRepPartRfc at hs ⊢
    rw [Der.bytes_node1, Der.bytes_node] at hs ⊢
    have f1 := tlv_fits (tlv_fits hs)
    have hf := apRepFields_refused g ctime cusec subkey seq ht hm f1
    show (appC g 27 (EncApRepPart.fields g)).dec g _ = _
    unfold Codec.dec
    rw [show parseTlv g (appC g 27 (EncApRepPart.fields g)).tag _ = _ from parseTlv_reads g 0x7b _ (tlv_fits hs) rest]
    simp only [appC]
    have := parseTlv_reads g 0x30 _ f1 []
    rw [List.append_nil] at this
    rw [Codec.dec, show parseTlv g (seqC g (EncApRepPart.fields g)).tag _ = _ from this]
    simp only [seqC, hf]
  · rintro k n rfl rfl hn
    have e : (encApRepPartRfc ctime cusec (some k) (some n)).bytes
        = MsgType.build g .encApRepPart (⟨ctime, cusec, k, n⟩ : EncApRepPart) :=
      (c59_wire_format g .encApRepPart (⟨ctime, cusec, k, n⟩ : EncApRepPart) ⟨⟨ht.2.1, ht.2.2⟩, hn⟩).symm
    rw [e] at hs ⊢
    exact c39_roundtrip g .encApRepPart (⟨ctime, cusec, k, n⟩ : EncApRepPart) ht hs rest

example : TimeOk ⟨1000000000, 0⟩ ∧ (encApRepPartRfc ⟨1000000000, 0⟩ 7 none (some 1)).bytes.length < 2^64 ∧
    MsgType.parse strictCfg .encApRepPart (encApRepPartRfc ⟨1000000000, 0⟩ 7 none (some 1)).bytes = .error .error := by
  decide +kernel

/-! ### C61: new messages -/

/-- C61. New messages carry protocol version 5 and the message type of RFC 4120 section 7.5.7. -/
theorem c61_defaults :
    (AsReq.default.pvno = 5 ∧ AsReq.default.msg_type = 10) ∧ (AsRep.default.pvno = 5 ∧ AsRep.default.msg_type = 11) ∧
    (TgsReq.default.pvno = 5 ∧ TgsReq.default.msg_type = 12) ∧ (TgsRep.default.pvno = 5 ∧ TgsRep.default.msg_type = 13) ∧
    (ApReq.default.pvno = 5 ∧ ApReq.default.msg_type = 14) ∧ (∀ now, (Authenticator.default now).authenticator_vno = 5) ∧
    (∀ ts e, (KrbCred.new ts e).pvno = 5 ∧ (KrbCred.new ts e).msg_type = 22 ∧ (KrbCred.new ts e).tickets = ts ∧
      (KrbCred.new ts e).enc_part = e) ∧
    (∀ r s e, Ticket.new r s e = ⟨5, r, s, e⟩) ∧
    (∀ p r c t e, AsRep.new p r c t e = ⟨5, 11, p, r, c, t, e⟩) :=
  ⟨⟨rfl, rfl⟩, ⟨rfl, rfl⟩, ⟨rfl, rfl⟩, ⟨rfl, rfl⟩, ⟨rfl, rfl⟩, fun _ => rfl, fun _ _ => ⟨rfl, rfl, rfl, rfl⟩,
    fun _ _ _ => rfl, fun _ _ _ _ _ => rfl⟩

/-- C61. The constructors of the parts of messages keep their arguments: built and read again, each argument is found in
its field (times to the second). -/
theorem c61_arguments (g : Cfg) (rest : Bytes) :
    (∀ t v, (MsgType.build g .encryptionKey (.new t v)).length < 2^64 → ∃ k : EncryptionKey,
      MsgType.parse g .encryptionKey (MsgType.build g .encryptionKey (.new t v) ++ rest) = .ok (k, rest) ∧
      k.keytype = t ∧ k.keyvalue = v) ∧
    (∀ t v, (MsgType.build g .hostAddress (.new t v)).length < 2^64 → ∃ k : HostAddress,
      MsgType.parse g .hostAddress (MsgType.build g .hostAddress (.new t v) ++ rest) = .ok (k, rest) ∧
      k.addr_type = t ∧ k.address = v) ∧
    (∀ t v, (MsgType.build g .paData (.new t v)).length < 2^64 → ∃ k : PaData,
      MsgType.parse g .paData (MsgType.build g .paData (.new t v) ++ rest) = .ok (k, rest) ∧
      k.padata_type = t ∧ k.padata_value = v) ∧
    (∀ t k s, (MsgType.build g .encryptedData (.new t k s)).length < 2^64 → ∃ e : EncryptedData,
      MsgType.parse g .encryptedData (MsgType.build g .encryptedData (.new t k s) ++ rest) = .ok (e, rest) ∧
      e.etype = t ∧ e.kvno = k ∧ e.cipher = s) ∧
    (∀ t s p, (MsgType.build g .etypeInfo2Entry (.new t s p)).length < 2^64 → ∃ e : EtypeInfo2Entry,
      MsgType.parse g .etypeInfo2Entry (MsgType.build g .etypeInfo2Entry (.new t s p) ++ rest) = .ok (e, rest) ∧
      e.etype = t ∧ e.salt = s ∧ e.s2kparams = p) ∧
    (∀ b, ∃ e : KerbPaPacRequest,
      MsgType.parse g .kerbPaPacRequest (MsgType.build g .kerbPaPacRequest (.new b) ++ rest) = .ok (e, rest) ∧
      e.include_pac = b) ∧
    (∀ t (d : DateTime), d.nanos = 0 → 0 ≤ d.date.year → d.date.year ≤ 9999 →
      (MsgType.build g .lastReqEntry (.new t d)).length < 2^64 → ∃ e : LastReqEntry,
      MsgType.parse g .lastReqEntry (MsgType.build g .lastReqEntry (.new t d) ++ rest) = .ok (e, rest) ∧
      e.lr_type = t ∧ e.lr_value = d) ∧
    (∀ u (d : DateTime), d.nanos = 0 → 0 ≤ d.date.year → d.date.year ≤ 9999 →
      (MsgType.build g .paEncTsEnc (.new d u)).length < 2^64 → ∃ e : PaEncTsEnc,
      MsgType.parse g .paEncTsEnc (MsgType.build g .paEncTsEnc (.new d u) ++ rest) = .ok (e, rest) ∧
      e.patimestamp = d ∧ e.pausec = u) := by
  refine ⟨?_, ?_, ?_, ?_, ?_, ?_, ?_, ?_⟩
  · exact fun t v h => ⟨_, c39_roundtrip g .encryptionKey _ trivial h rest, rfl, rfl⟩
  · exact fun t v h => ⟨_, c39_roundtrip g .hostAddress _ trivial h rest, rfl, rfl⟩
  · exact fun t v h => ⟨_, c39_roundtrip g .paData _ trivial h rest, rfl, rfl⟩
  · exact fun t k v h => ⟨_, c39_roundtrip g .encryptedData _ trivial h rest, rfl, rfl, rfl⟩
  · exact fun t k v h => ⟨_, c39_roundtrip g .etypeInfo2Entry _ trivial h rest, rfl, rfl, rfl⟩
  · exact fun b => ⟨_, c39_roundtrip g .kerbPaPacRequest _ trivial (by
      show ((kerbPaPacRequestC g).enc _).length < 2^64
      simp [kerbPaPacRequestC, KerbPaPacRequest.fields, KerbPaPacRequest.new, seqC, Fields.imap, reqField, noFields, boolC,
        Codec.enc, tlv, buildLen]) rest, rfl⟩
  · exact fun t d h0 h1 h2 h => ⟨_, c39_roundtrip g .lastReqEntry (LastReqEntry.new t d) (show TimeOk d from ⟨h0, h1, h2⟩) h rest, rfl, rfl⟩
  · exact fun u d h0 h1 h2 h => ⟨_, c39_roundtrip g .paEncTsEnc (PaEncTsEnc.new d u) (show TimeOk d from ⟨h0, h1, h2⟩) h rest, rfl, rfl⟩

example : (MsgType.build strictCfg .encryptionKey (.new 18 (List.replicate 32 7))).length < 2^64 := by decide +kernel
example : (MsgType.build strictCfg .paEncTsEnc (.new ⟨1700000000, 0⟩ (some 5))).length < 2^64 := by decide +kernel

end Verif.Asn1
