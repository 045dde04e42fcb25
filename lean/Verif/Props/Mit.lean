import Verif.MitSpec
import Verif.Props.CCache
import Verif.Props.Keytab
/-
C70 and C71: the files against the MIT format descriptions (`Verif.MitSpec`).
-/
set_option linter.unusedSimpArgs false

namespace Verif
open Verif.Rfc (bytesOf)

theorem bytesOf4 (n : Nat) : bytesOf 4 n = be32 (UInt32.ofNat n) := by
  have h1 : UInt8.ofNat (n / 16777216) = UInt8.ofNat (n % 4294967296 / 16777216) := by
    apply u8_ext; rw [u8_toNat_ofNat, u8_toNat_ofNat]; omega
  have h2 : UInt8.ofNat (n / 65536) = UInt8.ofNat (n % 4294967296 / 65536) := by
    apply u8_ext; rw [u8_toNat_ofNat, u8_toNat_ofNat]; omega
  have h3 : UInt8.ofNat (n / 256) = UInt8.ofNat (n % 4294967296 / 256) := by
    apply u8_ext; rw [u8_toNat_ofNat, u8_toNat_ofNat]; omega
  have h4 : UInt8.ofNat n = UInt8.ofNat (n % 4294967296) := by
    apply u8_ext; rw [u8_toNat_ofNat, u8_toNat_ofNat]; omega
  unfold be32
  rw [u32_toNat_ofNat, ← h1, ← h2, ← h3, ← h4]
  simp [bytesOf, List.range_succ]

theorem bytesOf2 (n : Nat) : bytesOf 2 n = be16 (UInt16.ofNat n) := by
  have h3 : UInt8.ofNat (n / 256) = UInt8.ofNat (n % 65536 / 256) := by
    apply u8_ext; rw [u8_toNat_ofNat, u8_toNat_ofNat]; omega
  have h4 : UInt8.ofNat n = UInt8.ofNat (n % 65536) := by
    apply u8_ext; rw [u8_toNat_ofNat, u8_toNat_ofNat]; omega
  unfold be16
  rw [u16_toNat_ofNat, ← h3, ← h4]
  simp [bytesOf, List.range_succ]

theorem bytesOf1 (n : Nat) : bytesOf 1 n = [UInt8.ofNat n] := by simp [bytesOf, List.range_succ]

/-- a 32-bit number below 2^16 is two zero bytes and a 16-bit number -/
theorem be32_small (n : Nat) (h : n < 2 ^ 16) : be32 (UInt32.ofNat n) = be16 0 ++ be16 (UInt16.ofNat n) := by
  unfold be32 be16
  rw [u32_toNat_ofNat, u16_toNat_ofNat, Nat.mod_eq_of_lt (by omega : n < 4294967296),
    Nat.mod_eq_of_lt (by omega : n < 65536), Nat.div_eq_of_lt (by omega : n < 16777216),
    Nat.div_eq_of_lt (by omega : n < 65536)]
  rfl

end Verif

namespace Verif.CC
open Verif.Rfc (bytesOf)

/-! ## C70 -/

/-- The meaning of the parsed values, in the vocabulary of the format description. -/
def Principal.mit (p : Principal) : Mit.Principal := ⟨p.name_type.toNat, p.realm, p.components⟩
def Address.mit (a : Address) : Mit.Typed := ⟨a.addrtype.toNat, a.addrdata⟩
def Header.mit (h : Header) : Mit.Field := ⟨h.tag.toNat, h.tagdata⟩
def Credential.mit (c : Credential) : Mit.Credential :=
  ⟨c.client.mit, c.server.mit, c.key.keytype.toNat, c.key.keyvalue, c.time.authtime.toNat, c.time.starttime.toNat,
    c.time.endtime.toNat, c.time.renew_till.toNat, c.is_skey.toNat, c.tktflags.toNat, c.addrs.map Address.mit,
    c.authdata.map Address.mit, c.ticket, c.second_ticket⟩
def CCache.mit (c : CCache) : Mit.Cache := ⟨[c.header.mit], c.primary_principal.mit, c.credentials.map Credential.mit⟩

theorem data32_eq (d : Bytes) : Mit.data32 d = buildCos d := by simp [Mit.data32, bytesOf4, buildCos]

theorem flatMap_data32 (ds : List Bytes) : ds.flatMap Mit.data32 = ds.flatMap buildCos := by
  congr 1; funext d; exact data32_eq d

theorem principal_mit (p : Principal) : p.mit.bytes = p.build := by
  simp [Mit.Principal.bytes, Principal.mit, Principal.build, bytesOf4, data32_eq, flatMap_data32]

theorem address_mit (a : Address) : a.mit.bytes = a.build := by
  simp [Mit.Typed.bytes, Address.mit, Address.build, bytesOf2, data32_eq]

theorem addresses_mit (as : List Address) : (as.map Address.mit).flatMap Mit.Typed.bytes = as.flatMap Address.build := by
  rw [List.flatMap_map]; congr 1; funext a; exact address_mit a

theorem header_mit (h : Header) : h.mit.bytes = h.build := by
  simp [Mit.Field.bytes, Header.mit, Header.build, bytesOf2]

theorem credential_mit (c : Credential) (h0 : c.key.etype = 0) (h1 : c.key.keyvalue.length < 2 ^ 16) :
    c.mit.bytes = c.build := by
  have hk : bytesOf 2 c.key.keytype.toNat ++ Mit.data32 c.key.keyvalue = c.key.build := by
    simp [Mit.data32, bytesOf2, bytesOf4, be32_small _ h1, KeyBlock.build, h0]
  have ht : bytesOf 4 c.time.authtime.toNat ++ bytesOf 4 c.time.starttime.toNat ++ bytesOf 4 c.time.endtime.toNat
      ++ bytesOf 4 c.time.renew_till.toNat = c.time.build := by
    simp [bytesOf4, Times.build]
  unfold Mit.Credential.bytes Credential.mit
  dsimp only
  rw [hk, ht, principal_mit, principal_mit, addresses_mit, addresses_mit, data32_eq, data32_eq, bytesOf1]
  simp [Credential.build, bytesOf4]

theorem credentials_mit (cs : List Credential) (h : ∀ c ∈ cs, c.key.etype = 0 ∧ c.key.keyvalue.length < 2 ^ 16) :
    (cs.map Credential.mit).flatMap Mit.Credential.bytes = cs.flatMap Credential.build := by
  induction cs with
  | nil => rfl
  | cons c cs ih =>
    rw [List.map_cons, List.flatMap_cons, List.flatMap_cons, ih (fun x hx => h x (by simp [hx])),
      credential_mit c (h c (by simp)).1 (h c (by simp)).2]

theorem ccache_mit (c : CCache) (hv : c.file_format_version = 0x0504)
    (h : ∀ x ∈ c.credentials, x.key.etype = 0 ∧ x.key.keyvalue.length < 2 ^ 16) : c.mit.bytes = c.build := by
  simp [Mit.Cache.bytes, CCache.mit, CCache.build, header_mit, principal_mit, bytesOf2, credentials_mit _ h, hv]
  rfl

theorem principal_mit_valid {p : Principal} (h : p.Fits) : p.mit.Valid :=
  ⟨p.name_type.toNat_lt, h.1, h.2.1, h.2.2⟩
theorem addresses_mit_valid {as : List Address} (h : ∀ a ∈ as, a.Fits) : ∀ a ∈ as.map Address.mit, a.Valid := by
  intro a ha
  obtain ⟨b, hb, rfl⟩ := List.mem_map.mp ha
  exact ⟨b.addrtype.toNat_lt, h b hb⟩
theorem credential_mit_valid {c : Credential} (h : c.Fits) : c.mit.Valid := by
  obtain ⟨h1, h2, h3, h4, h5, h6, h7, h8, h9⟩ := h
  have h3' : c.key.keyvalue.length < 2 ^ 16 := h3
  exact ⟨principal_mit_valid h1, principal_mit_valid h2, c.key.keytype.toNat_lt, by
    show c.key.keyvalue.length < 2 ^ 32; omega, UInt32.toNat_lt _, UInt32.toNat_lt _, UInt32.toNat_lt _,
    UInt32.toNat_lt _, UInt8.toNat_lt _, UInt32.toNat_lt _, by show (c.addrs.map _).length < _; simpa using h4,
    addresses_mit_valid h5, by show (c.authdata.map _).length < _; simpa using h6, addresses_mit_valid h7, h8, h9⟩

/-- C70 (writing). A cache within the limits, whose header field leaves room for its own four bytes and whose keys were
made by the constructor (second type field zero), is written as the valid version 4 file with this content. -/
theorem c70_writes_format (c : CCache) (h : c.Fits) (hh : c.header.tagdata.length + 4 < 2 ^ 16)
    (he : ∀ x ∈ c.credentials, x.key.etype = 0) : c.build = c.mit.bytes ∧ c.mit.Valid := by
  obtain ⟨h1, h2, h3, h4⟩ := h
  refine ⟨(ccache_mit c h1 fun x hx => ⟨he x hx, (h4 x hx).2.2.1⟩).symm, ?_, ?_, principal_mit_valid h3, ?_⟩
  · show (List.flatMap Mit.Field.bytes [c.header.mit]).length < _
    simp only [List.flatMap_cons, List.flatMap_nil, List.append_nil, header_mit]
    simp [Header.build]; omega
  · intro f hf
    rw [show f = c.header.mit from by simpa [CCache.mit] using hf]
    exact ⟨c.header.tag.toNat_lt, h2⟩
  · intro x hx
    obtain ⟨y, hy, rfl⟩ := List.mem_map.mp hx
    exact credential_mit_valid (h4 y hy)

example : sampleCache.Fits ∧ sampleCache.header.tagdata.length + 4 < 2 ^ 16 ∧
    (∀ x ∈ sampleCache.credentials, x.key.etype = 0) ∧ sampleCache.mit.credentials.length = 2 := by decide

/-- the same key with the second type field cleared -/
def Credential.clear (c : Credential) : Credential := { c with key := { c.key with etype := 0 } }

/-- C70 (writing, exact). A non-zero second type field (`etype`, a field of format 3 only) makes the file differ from the
version 4 file with the cache's content. -/
theorem c70_etype_not_format (c : CCache) (h : c.Fits) :
    c.build = c.mit.bytes ↔ ∀ x ∈ c.credentials, x.key.etype = 0 := by
  obtain ⟨h1, h2, h3, h4⟩ := h
  constructor
  · intro hb x hx
    let c' : CCache := { c with credentials := c.credentials.map Credential.clear }
    have hf : c'.Fits := by
      refine ⟨h1, h2, h3, ?_⟩
      intro y hy
      obtain ⟨z, hz, rfl⟩ := List.mem_map.mp hy
      exact h4 z hz
    have hm : c'.mit = c.mit := by
      simp only [CCache.mit, c', List.map_map, Mit.Cache.mk.injEq, true_and]
      apply List.map_congr_left; intro y _; rfl
    have hb' : c'.mit.bytes = c'.build := by
      apply ccache_mit c' h1
      intro y hy
      obtain ⟨z, hz, rfl⟩ := List.mem_map.mp hy
      exact ⟨rfl, (h4 z hz).2.2.1⟩
    have heq : c = c' := c01_build_injective c c' ⟨h1, h2, h3, h4⟩ hf (by rw [hb, ← hm, hb'])
    have hc : c.credentials = c.credentials.map Credential.clear := congrArg CCache.credentials heq
    rw [hc] at hx
    obtain ⟨z, _, rfl⟩ := List.mem_map.mp hx
    rfl
  · intro he
    exact (ccache_mit c h1 fun x hx => ⟨he x hx, (h4 x hx).2.2.1⟩).symm

example : ∃ c : CCache, c.Fits ∧ ¬ ∀ x ∈ c.credentials, x.key.etype = 0 :=
  ⟨{ sampleCache with credentials := [{ sampleCred with key := ⟨18, 18, [1]⟩ }] }, by decide⟩

/-! reading -/

/-- values of the code's types with a given content -/
def principalOf (p : Mit.Principal) : Principal := ⟨UInt32.ofNat p.nameType, p.realm, p.components⟩
def addressOf (a : Mit.Typed) : Address := ⟨UInt16.ofNat a.type, a.data⟩
def headerOf (f : Mit.Field) : Header := ⟨UInt16.ofNat f.tag, f.value⟩
def credentialOf (c : Mit.Credential) : Credential :=
  { client := principalOf c.client, server := principalOf c.server, key := ⟨UInt16.ofNat c.enctype, 0, c.key⟩,
    time := ⟨UInt32.ofNat c.authtime, UInt32.ofNat c.starttime, UInt32.ofNat c.endtime, UInt32.ofNat c.renewTill⟩,
    is_skey := UInt8.ofNat c.isSkey, tktflags := UInt32.ofNat c.ticketFlags, addrs := c.addresses.map addressOf,
    authdata := c.authdata.map addressOf, ticket := c.ticket, second_ticket := c.secondTicket }

theorem principalOf_mit {p : Mit.Principal} (h : p.Valid) : (principalOf p).mit = p := by
  cases p; simp only [principalOf, Principal.mit, u32_ofNat_toNat h.1]
theorem addressesOf_mit {as : List Mit.Typed} (h : ∀ a ∈ as, a.Valid) : (as.map addressOf).map Address.mit = as := by
  rw [List.map_map]
  conv => rhs; rw [← List.map_id as]
  apply List.map_congr_left
  intro a ha
  have := (h a ha).1
  cases a; simp only [Function.comp, addressOf, Address.mit, id, u16_ofNat_toNat this]
theorem headerOf_mit {f : Mit.Field} (h : f.Valid) : (headerOf f).mit = f := by
  cases f; simp only [headerOf, Header.mit, u16_ofNat_toNat h.1]
theorem credentialOf_mit {c : Mit.Credential} (h : c.Valid) : (credentialOf c).mit = c := by
  obtain ⟨h1, h2, h3, -, h4, h5, h6, h7, h8, h9, -, h10, -, h11, -, -⟩ := h
  have e8 : (UInt8.ofNat c.isSkey).toNat = c.isSkey := by rw [u8_toNat_ofNat]; omega
  cases c
  simp only [credentialOf, Credential.mit, principalOf_mit h1, principalOf_mit h2, u16_ofNat_toNat h3,
    u32_ofNat_toNat h4, u32_ofNat_toNat h5, u32_ofNat_toNat h6, u32_ofNat_toNat h7, e8, u32_ofNat_toNat h9,
    addressesOf_mit h10, addressesOf_mit h11]

theorem principalOf_fits {p : Mit.Principal} (h : p.Valid) : (principalOf p).Fits := ⟨h.2.1, h.2.2.1, h.2.2.2⟩
theorem addressesOf_fits {as : List Mit.Typed} (h : ∀ a ∈ as, a.Valid) : ∀ a ∈ as.map addressOf, a.Fits := by
  intro a ha
  obtain ⟨b, hb, rfl⟩ := List.mem_map.mp ha
  exact (h b hb).2
theorem credentialOf_fits {c : Mit.Credential} (h : c.Valid) (hk : c.key.length < 2 ^ 16) : (credentialOf c).Fits := by
  obtain ⟨h1, h2, h3, -, h4, h5, h6, h7, h8, h9, l1, h10, l2, h11, h12, h13⟩ := h
  exact ⟨principalOf_fits h1, principalOf_fits h2, hk, by simpa [credentialOf] using l1, addressesOf_fits h10,
    by simpa [credentialOf] using l2, addressesOf_fits h11, h12, h13⟩

/-- C70 (reading, exact). A valid version 4 file is read with exactly its content and nothing left over if and only if
it has exactly one header field and no key of 65536 bytes or more. (MIT writes no header field when it knows no time
offset to the KDC.) -/
theorem c70_reads_format (m : Mit.Cache) (h : m.Valid) :
    (∃ c, CCache.parse m.bytes = .ok (c, []) ∧ c.mit = m) ↔
      m.fields.length = 1 ∧ ∀ x ∈ m.credentials, x.key.length < 2 ^ 16 := by
  constructor
  · rintro ⟨c, hp, rfl⟩
    refine ⟨rfl, ?_⟩
    intro x hx
    obtain ⟨y, hy, rfl⟩ := List.mem_map.mp hx
    exact ((c03_parse_exact _ _ _ hp).1.2.2.2 y hy).2.2.1
  · rintro ⟨hl, hk⟩
    obtain ⟨-, hf, hp, hc⟩ := h
    obtain ⟨f, hfe⟩ := List.length_eq_one_iff.mp hl
    let c : CCache := CCache.new (headerOf f) (principalOf m.principal) (m.credentials.map credentialOf)
    have hm : c.mit = m := by
      have hcs : (m.credentials.map credentialOf).map Credential.mit = m.credentials := by
        rw [List.map_map]
        conv => rhs; rw [← List.map_id m.credentials]
        apply List.map_congr_left
        intro x hx; exact credentialOf_mit (hc x hx)
      have hfv : f.Valid := hf f (by simp [hfe])
      show (⟨[(headerOf f).mit], (principalOf m.principal).mit, (m.credentials.map credentialOf).map Credential.mit⟩ : Mit.Cache) = m
      rw [headerOf_mit hfv, principalOf_mit hp, hcs, ← hfe]
    have hfit : c.Fits := by
      refine ⟨rfl, (hf f (by simp [hfe])).2, principalOf_fits hp, ?_⟩
      intro x hx
      obtain ⟨y, hy, rfl⟩ := List.mem_map.mp hx
      exact credentialOf_fits (hc y hy) (hk y hy)
    have hb : m.bytes = c.build := by
      rw [← hm]
      apply ccache_mit c rfl
      intro x hx
      obtain ⟨y, hy, rfl⟩ := List.mem_map.mp hx
      exact ⟨rfl, hk y hy⟩
    exact ⟨c, by rw [hb]; exact c01_ccache_roundtrip c hfit, hm⟩

example : sampleCache.mit.Valid ∧ sampleCache.mit.fields.length = 1 ∧ sampleCache.mit.credentials.length = 2 ∧
    ∀ x ∈ sampleCache.mit.credentials, x.key.length < 2 ^ 16 :=
  ⟨(c70_writes_format sampleCache (by decide) (by decide) (by decide)).2, by decide, by decide, by decide⟩

/-- the principal a file without header fields is read with: the first byte of the component count has been taken for
the value of a header field -/
theorem zero_field_principal (m : Mit.Cache) (h : m.Valid) (hf : m.fields = []) (hn : m.principal.nameType = 1)
    (c : CCache) (rest : Bytes) (hp : CCache.parse m.bytes = .ok (c, rest)) :
    c.primary_principal.name_type.toNat
      = (m.principal.components.length % 2 ^ 24) * 256 + m.principal.realm.length / 2 ^ 24 := by
  obtain ⟨-, -, ⟨-, hr, hl, -⟩, -⟩ := h
  rw [parse_eq, bind_ok] at hp
  obtain ⟨⟨hd, p⟩, r1, h1, h2⟩ := hp
  simp only [bind_ok, pure_ok] at h2
  obtain ⟨cs, r2, -, rfl, -⟩ := h2
  unfold preParse at h1
  simp only [bind_ok, pure_ok] at h1
  obtain ⟨t, i1, q1, n, i2, q2, hd', i3, q3, p', i4, q4, e1, -⟩ := h1
  simp only [Prod.mk.injEq] at e1
  obtain ⟨rfl, rfl⟩ := e1
  have hb : m.bytes = [5, 4] ++ ([0, 0] ++ ([0, 0] ++ ([0, 1] ++ (be32 (UInt32.ofNat m.principal.components.length) ++
      (be32 (UInt32.ofNat m.principal.realm.length) ++ (m.principal.realm ++ (m.principal.components.flatMap Mit.data32 ++
        m.credentials.flatMap Mit.Credential.bytes))))))) := by
    simp [Mit.Cache.bytes, hf, Mit.Principal.bytes, hn, Mit.data32, bytesOf4, bytesOf2]
    rfl
  rw [hb, tagC_reads [5, 4] _] at q1
  obtain ⟨rfl, rfl⟩ := Prod.mk.inj (Except.ok.inj q1)
  rw [show ([0, 0] : Bytes) = be16 0 from by decide, beU16_reads 0 _] at q2
  obtain ⟨rfl, rfl⟩ := Prod.mk.inj (Except.ok.inj q2)
  obtain ⟨hfit, e3⟩ := header_ok q3
  obtain ⟨-, e4⟩ := principal_ok q4
  -- compare the bytes
  unfold Header.build at e3
  rw [e4] at e3
  unfold Principal.build at e3
  simp only [List.append_assoc] at e3
  have f1 := List.append_inj e3 (by simp)
  obtain ⟨f1, f2⟩ := f1
  have f3 := List.append_inj f2 (by simp)
  obtain ⟨f3, f4⟩ := f3
  have hlen : hd'.tagdata.length = 1 := by
    rw [show ([0, 1] : Bytes) = be16 1 from by decide] at f3
    have := congrArg UInt16.toNat (be16_inj f3)
    rw [u16_ofNat_toNat hfit] at this
    simpa using this.symm
  obtain ⟨b, hbd⟩ := List.length_eq_one_iff.mp hlen
  rw [hbd] at f4
  unfold be32 at f4
  simp only [List.cons_append, List.nil_append, List.cons.injEq] at f4
  obtain ⟨-, g1, g2, g3, g4, -⟩ := f4
  have g1 := congrArg UInt8.toNat g1
  have g2 := congrArg UInt8.toNat g2
  have g3 := congrArg UInt8.toNat g3
  have g4 := congrArg UInt8.toNat g4
  simp only [u8_toNat_ofNat, u32_toNat_ofNat] at g1 g2 g3 g4
  show p'.name_type.toNat = _
  have := p'.name_type.toNat_lt
  generalize p'.name_type.toNat = x at *
  generalize m.principal.components.length = k at *
  generalize m.principal.realm.length = l at *
  omega

/-- C70 (violation). A file without header fields whose default principal is an ordinary user name (type 1, at least
one and fewer than 2^24 components) is refused or read with another default principal. -/
theorem c70_no_header_field_misread (m : Mit.Cache) (h : m.Valid) (hf : m.fields = [])
    (hn : m.principal.nameType = 1) (h1 : 1 ≤ m.principal.components.length)
    (h2 : m.principal.components.length < 2 ^ 24) (c : CCache) (rest : Bytes) :
    CCache.parse m.bytes = .ok (c, rest) → c.primary_principal.mit ≠ m.principal := by
  intro hp he
  have := zero_field_principal m h hf hn c rest hp
  rw [← he] at hn this h1 h2
  have hn' : c.primary_principal.name_type.toNat = 1 := hn
  omega

example : ∃ m : Mit.Cache, m.Valid ∧ m.fields = [] ∧ m.principal.nameType = 1 ∧ 1 ≤ m.principal.components.length ∧
    m.principal.components.length < 2 ^ 24 :=
  ⟨⟨[], ⟨1, [0x52], [[0x61]]⟩, []⟩, by simp [Mit.Cache.Valid, Mit.Principal.Valid]⟩

end Verif.CC

namespace Verif.KT
open Verif.Rfc (bytesOf)

/-! ## C71 -/

/-- The meaning of an entry, in the vocabulary of the format description. -/
def KeytabEntry.mit (e : KeytabEntry) : Mit.Entry :=
  ⟨e.realm, e.components, e.name_type.toNat, e.timestamp.toNat, e.vno8.toNat, e.key.keytype.toNat, e.key.keyvalue,
    e.vno.map UInt32.toNat⟩

theorem data16_eq (d : Bytes) : Mit.data16 d = buildCos d := by simp [Mit.data16, bytesOf2, buildCos]

theorem flatMap_data16 (ds : List Bytes) : ds.flatMap Mit.data16 = ds.flatMap buildCos := by
  congr 1; funext d; exact data16_eq d

theorem entry_mit (e : KeytabEntry) : e.mit.bytes = e.body := by
  cases hv : e.vno <;>
    simp [Mit.Entry.bytes, KeytabEntry.mit, KeytabEntry.body, hv, bytesOf2, bytesOf4, bytesOf1, data16_eq,
      flatMap_data16, KeyBlock.build, buildCos]

theorem entry_mit_valid {e : KeytabEntry} (h : e.Fits) : e.mit.Valid := by
  refine ⟨h.1, h.2.1, h.2.2.1, UInt32.toNat_lt _, UInt32.toNat_lt _, UInt8.toNat_lt _, UInt16.toNat_lt _,
    h.2.2.2.1, ?_⟩
  intro v hv
  simp only [KeytabEntry.mit, Option.mem_def, Option.map_eq_some_iff] at hv
  obtain ⟨a, -, rfl⟩ := hv
  exact a.toNat_lt

/-- the records of a keytab the library writes: the entries in order, no filler, no deleted slot -/
def records (k : Keytab) : List Mit.Record := k.entries.map fun e => .entry e.mit []

theorem records_bytes (es : List KeytabEntry) :
    (es.map fun e => Mit.Record.entry e.mit []).flatMap Mit.Record.bytes = es.flatMap KeytabEntry.build := by
  rw [List.flatMap_map]; congr 1; funext e
  simp [Mit.Record.bytes, entry_mit, KeytabEntry.build, bytesOf4]

/-- C71 (writing). A keytab within the limits with version bytes 5 and 2 is written as a valid version 2 file that
contains exactly its entries. -/
theorem c71_writes_format (k : Keytab) (h : k.Fits) (h5 : k.kversion = 5) (h2 : k.version = 2) :
    k.build = Mit.keytabBytes (records k) none ∧ (∀ r ∈ records k, r.Valid) ∧
      Mit.entries (records k) = k.entries.map KeytabEntry.mit := by
  refine ⟨?_, ?_, ?_⟩
  · unfold Mit.keytabBytes records
    rw [records_bytes]; simp [Keytab.build, h5, h2, Mit.endMark]
  · intro r hr
    obtain ⟨e, he, rfl⟩ := List.mem_map.mp hr
    refine ⟨entry_mit_valid (h e he), ?_, by simp⟩
    rw [List.append_nil, entry_mit, body_length]
    exact (h e he).2.2.2.2
  · unfold records
    induction k.entries with
    | nil => rfl
    | cons e es ih => simp only [List.map_cons, Mit.entries, ih]

example : sampleKeytab.Fits ∧ sampleKeytab.kversion = 5 ∧ sampleKeytab.version = 2 ∧ sampleKeytab.entries.length = 2 := by
  decide

/-! reading -/

def entryOf (e : Mit.Entry) : KeytabEntry :=
  ⟨e.realm, e.components, UInt32.ofNat e.nameType, UInt32.ofNat e.timestamp, UInt8.ofNat e.vno8,
    ⟨UInt16.ofNat e.enctype, e.key⟩, e.vno32.map UInt32.ofNat⟩

theorem entryOf_mit {e : Mit.Entry} (h : e.Valid) : (entryOf e).mit = e := by
  obtain ⟨-, -, -, h1, h2, h3, h4, -, h5⟩ := h
  have e3 : (UInt8.ofNat e.vno8).toNat = e.vno8 := by rw [u8_toNat_ofNat]; omega
  have e1 : (UInt32.ofNat e.nameType).toNat = e.nameType := by rw [u32_toNat_ofNat]; omega
  have e2 : (UInt32.ofNat e.timestamp).toNat = e.timestamp := by rw [u32_toNat_ofNat]; omega
  have e5 : (e.vno32.map UInt32.ofNat).map UInt32.toNat = e.vno32 := by
    cases hv : e.vno32 with
    | none => rfl
    | some v =>
      have := h5 v (by simp [hv])
      simp only [Option.map_some, u32_toNat_ofNat]
      rw [Nat.mod_eq_of_lt (by omega)]
  cases e
  simp only [entryOf, KeytabEntry.mit, e1, e2, e3, u16_ofNat_toNat h4, e5]

theorem entryOf_fields {e : Mit.Entry} (h : e.Valid) : (entryOf e).FieldsFit := by
  obtain ⟨h1, h2, h3, -, -, -, -, h4, -⟩ := h
  exact ⟨h1, h2, h3, h4⟩

theorem entryOf_body {e : Mit.Entry} (h : e.Valid) : (entryOf e).body = e.bytes := by
  rw [← entry_mit, entryOf_mit h]

/-- what the reader makes of a record: the entry, the blank entry for a deleted slot -/
def shownFor : Mit.Record → KeytabEntry
  | .entry e _ => entryOf e
  | .hole _ => KeytabEntry.dflt

/-- an entry without 32-bit version followed by one to three bytes of filler -/
def Short : Mit.Record → Prop
  | .entry e filler => e.vno32 = none ∧ filler ≠ []
  | .hole _ => False

instance (r : Mit.Record) : Decidable (Short r) := by cases r <;> unfold Short <;> infer_instance

theorem record_reads (dbg : Bool) (r : Mit.Record) (h : r.Valid) (hs : ¬ Short r) :
    Reads (KeytabEntry.parse dbg) r.bytes (shownFor r) := by
  intro rest
  cases r with
  | hole c =>
    have := hole_parse dbg c rest h.1 h.2
    simpa [Mit.Record.bytes, bytesOf4, holeHeader, shownFor] using this
  | entry e filler =>
    obtain ⟨hv, hl, hf⟩ := h
    have hb := entryOf_body hv
    simp only [Mit.Record.bytes, bytesOf4, shownFor]
    rw [← hb] at hl ⊢
    rw [body_eq] at hl ⊢
    cases hvno : (entryOf e).vno with
    | none =>
      have hn : e.vno32 = none := by simpa [entryOf] using hvno
      have hfl : filler = [] := by
        apply Decidable.byContradiction; intro hne; exact hs ⟨hn, hne⟩
      subst hfl
      rw [hvno] at hl
      simp only [List.append_nil] at hl ⊢
      have := fixed_surplus dbg (entryOf e) [] rest (entryOf_fields hv) (by simpa using hl)
      simp only [List.append_nil, if_true] at this
      rw [this]
      have : { entryOf e with vno := none } = entryOf e := by rw [← hvno]
      rw [this]
    | some v =>
      rw [hvno] at hl
      simp only [List.append_assoc] at hl ⊢
      have := fixed_surplus dbg (entryOf e) (be32 v ++ filler) rest (entryOf_fields hv) hl
      simp only [List.append_assoc] at this
      rw [this]
      have hne : be32 v ++ filler ≠ [] := by simp [be32]
      rw [if_neg hne, beU32_reads]
      have : { entryOf e with vno := some v } = entryOf e := by rw [← hvno]
      simp only [this]

theorem record_unread (dbg : Bool) (r : Mit.Record) (h : r.Valid) (hs : Short r) (rest : Bytes) :
    KeytabEntry.parse dbg (r.bytes ++ rest) = .error .error := by
  cases r with
  | hole c => exact absurd hs (by simp [Short])
  | entry e filler =>
    obtain ⟨hv, hl, hf⟩ := h
    obtain ⟨hn, hne⟩ := hs
    have hb := entryOf_body hv
    have h3 := hf hn
    simp only [Mit.Record.bytes, bytesOf4]
    rw [← hb, body_eq] at hl ⊢
    have hvno : (entryOf e).vno = none := by simp [entryOf, hn]
    rw [hvno] at hl ⊢
    simp only [List.append_nil] at hl ⊢
    rw [fixed_surplus dbg (entryOf e) filler rest (entryOf_fields hv) hl, if_neg hne]
    match filler, hne, h3 with
    | [a], _, _ => rfl
    | [a, b], _, _ => rfl
    | [a, b, c], _, _ => rfl
    | a :: b :: c :: d :: r, _, h3 => simp at h3; omega

theorem record_ne (r : Mit.Record) : r.bytes ≠ [] := by
  cases r <;> simp [Mit.Record.bytes, bytesOf4, be32]

theorem records_read (dbg : Bool) (rs : List Mit.Record) (h : ∀ r ∈ rs, r.Valid) (hs : ∀ r ∈ rs, ¬ Short r)
    (rest : Bytes) :
    many0 (KeytabEntry.parse dbg) (rs.flatMap Mit.Record.bytes ++ rest) =
      match many0 (KeytabEntry.parse dbg) rest with
      | .error e => .error e
      | .ok (es, r) => .ok (rs.map shownFor ++ es, r) := by
  induction rs with
  | nil => simp only [List.flatMap_nil, List.nil_append, List.map_nil]; cases many0 _ rest <;> rfl
  | cons s rs ih =>
    rw [List.flatMap_cons, List.append_assoc, many0_unfold (entry_suffix dbg),
      record_reads dbg s (h s (by simp)) (hs s (by simp))]
    have := entry_consumes (record_reads dbg s (h s (by simp)) (hs s (by simp)) (rs.flatMap Mit.Record.bytes ++ rest))
    have hn : ¬ ((rs.flatMap Mit.Record.bytes ++ rest).length
        = (s.bytes ++ (rs.flatMap Mit.Record.bytes ++ rest)).length) := by omega
    simp only [hn, if_false]
    rw [ih (fun x hx => h x (by simp [hx])) (fun x hx => hs x (by simp [hx]))]
    cases many0 (KeytabEntry.parse dbg) rest <;> rfl

/-- the zero size that marks the end of the file is not recognised as such, but ends the reading too -/
theorem zero_unread (dbg : Bool) (t : Bytes) : KeytabEntry.parse dbg (be32 0 ++ t) = .error .error := by
  rw [parse_live dbg 0 (by decide)]
  simp [parseBody, beU16]
  rfl

theorem many0_stop (dbg : Bool) (i : Bytes) (h : KeytabEntry.parse dbg i = .error .error) :
    many0 (KeytabEntry.parse dbg) i = .ok ([], i) := by
  rw [many0_unfold (entry_suffix dbg), h]

theorem takeWhile_all {α} (p : α → Bool) (l : List α) (h : ∀ x ∈ l, p x = true) : l.takeWhile p = l := by
  induction l with
  | nil => rfl
  | cons a l ih => rw [List.takeWhile_cons, if_pos (h a (by simp)), ih fun x hx => h x (by simp [hx])]

/-- C71 (reading). Which entries are shown for a valid version 2 file, whatever its records and end: those before the
first record with one to three bytes of filler, and a blank entry for every deleted slot before it. -/
theorem c71_shown_entries (dbg : Bool) (rs : List Mit.Record) (tail : Option Bytes) (h : ∀ r ∈ rs, r.Valid) :
    ∃ rest, Keytab.parse dbg (Mit.keytabBytes rs tail)
      = .ok (⟨5, 2, (rs.takeWhile fun r => !decide (Short r)).map shownFor⟩, rest) ∧
      (rest = [] ↔ (∀ r ∈ rs, ¬ Short r) ∧ tail = none) := by
  unfold Mit.keytabBytes
  simp only [List.cons_append, List.nil_append, List.append_assoc]
  rw [parse_eq]
  generalize ht : Mit.endMark tail = tb
  have htb : many0 (KeytabEntry.parse dbg) tb = .ok ([], tb) := by
    cases tail with
    | none => subst ht; exact many0_nil dbg
    | some t => subst ht; exact many0_stop dbg _ (by rw [Mit.endMark, bytesOf4]; exact zero_unread dbg t)
  have htn : tb = [] ↔ tail = none := by
    cases tail with
    | none => subst ht; simp [Mit.endMark]
    | some t => subst ht; simp [Mit.endMark, bytesOf4, be32]
  suffices H : ∃ rest, many0 (KeytabEntry.parse dbg) (rs.flatMap Mit.Record.bytes ++ tb)
      = .ok ((rs.takeWhile fun r => !decide (Short r)).map shownFor, rest) ∧
      (rest = [] ↔ (∀ r ∈ rs, ¬ Short r) ∧ tail = none) by
    obtain ⟨rest, h1, h2⟩ := H
    exact ⟨rest, by rw [h1], h2⟩
  by_cases hs : ∀ r ∈ rs, ¬ Short r
  · refine ⟨tb, ?_, ?_⟩
    · rw [records_read dbg rs h hs, htb]
      have : rs.takeWhile (fun r => !decide (Short r)) = rs := by
        exact takeWhile_all _ _ fun r hr => by simpa using hs r hr
      rw [this]; simp
    · rw [htn]; constructor
      · intro h; exact ⟨hs, h⟩
      · intro h; exact h.2
  · obtain ⟨pre, bad, post, rfl, hpre, hbad⟩ : ∃ pre bad post, rs = pre ++ bad :: post ∧ (∀ r ∈ pre, ¬ Short r) ∧ Short bad := by
      clear h htn htb ht
      induction rs with
      | nil => exact absurd (by simp) hs
      | cons r rs ih =>
        by_cases hr : Short r
        · exact ⟨[], r, rs, rfl, by simp, hr⟩
        · obtain ⟨pre, bad, post, rfl, h1, h2⟩ := ih (fun h => hs (by
            intro x hx
            rcases List.mem_cons.mp hx with rfl | hx
            · exact hr
            · exact h x hx))
          exact ⟨r :: pre, bad, post, rfl, by
            intro x hx
            rcases List.mem_cons.mp hx with rfl | hx
            · exact hr
            · exact h1 x hx, h2⟩
    refine ⟨bad.bytes ++ (post.flatMap Mit.Record.bytes ++ tb), ?_, ?_⟩
    · rw [List.flatMap_append, List.flatMap_cons, List.append_assoc, List.append_assoc,
        records_read dbg pre (fun x hx => h x (by simp [hx])) hpre,
        many0_stop dbg _ (record_unread dbg bad (h bad (by simp)) hbad _)]
      have : (pre ++ bad :: post).takeWhile (fun r => !decide (Short r)) = pre := by
        rw [List.takeWhile_append_of_pos (by intro r hr; simpa using hpre r hr), List.takeWhile_cons]
        simp [hbad]
      rw [this]; simp
    · constructor
      · intro h0
        exact absurd (List.append_eq_nil_iff.mp h0).1 (record_ne bad)
      · rintro ⟨h0, -⟩
        exact absurd hbad (h0 bad (by simp))

theorem entries_length (rs : List Mit.Record) :
    (Mit.entries rs).length ≤ rs.length ∧ ((Mit.entries rs).length = rs.length ↔ ∀ c, Mit.Record.hole c ∉ rs) := by
  induction rs with
  | nil => simp [Mit.entries]
  | cons r rs ih =>
    cases r with
    | entry e f => simpa [Mit.entries] using ih
    | hole c =>
      refine ⟨by simp [Mit.entries]; omega, ?_⟩
      simp only [Mit.entries, List.length_cons]
      constructor
      · intro h; omega
      · intro h; exact absurd (by simp) (h c)

/-- C71 (reading, exact). A valid version 2 file is read with exactly its entries and nothing left over if and only if it
contains no deleted slot, no entry with one to three bytes of filler in place of the 32-bit version, and no end mark. -/
theorem c71_reads_format (dbg : Bool) (rs : List Mit.Record) (tail : Option Bytes) (h : ∀ r ∈ rs, r.Valid) :
    (∃ k, Keytab.parse dbg (Mit.keytabBytes rs tail) = .ok (k, []) ∧
        k.entries.map KeytabEntry.mit = Mit.entries rs) ↔
      (∀ c, Mit.Record.hole c ∉ rs) ∧ (∀ e f, Mit.Record.entry e f ∈ rs → e.vno32 = none → f = []) ∧ tail = none := by
  obtain ⟨rest, h1, h2⟩ := c71_shown_entries dbg rs tail h
  have hshort : (∀ r ∈ rs, ¬ Short r) ↔ ∀ e f, Mit.Record.entry e f ∈ rs → e.vno32 = none → f = [] := by
    constructor
    · intro hs e f hm hn
      apply Decidable.byContradiction; intro hf; exact hs _ hm ⟨hn, hf⟩
    · intro hs r hr
      cases r with
      | hole c => simp [Short]
      | entry e f => rintro ⟨hn, hf⟩; exact hf (hs e f hr hn)
  have htw : (∀ r ∈ rs, ¬ Short r) → rs.takeWhile (fun r => !decide (Short r)) = rs := by
    intro hs
    exact takeWhile_all _ _ fun r hr => by simpa using hs r hr
  rw [h1]
  constructor
  · rintro ⟨k, hk, he⟩
    obtain ⟨rfl, rfl⟩ := Prod.mk.inj (Except.ok.inj hk)
    obtain ⟨hs, ht⟩ := h2.mp rfl
    refine ⟨?_, hshort.mp hs, ht⟩
    rw [htw hs] at he
    have := congrArg List.length he
    simp only [List.length_map] at this
    exact (entries_length rs).2.mp this.symm
  · rintro ⟨hh, hf, ht⟩
    have hs := hshort.mpr hf
    refine ⟨_, by rw [h2.mpr ⟨hs, ht⟩], ?_⟩
    rw [htw hs]
    dsimp only
    clear h1 h2 hshort htw hs hf
    induction rs with
    | nil => rfl
    | cons r rs ih =>
      cases r with
      | hole c => exact absurd (by simp) (hh c)
      | entry e f =>
        have hv := (h _ (List.mem_cons_self)).1
        simp only [List.map_cons, shownFor, Mit.entries, entryOf_mit hv]
        rw [ih (fun x hx => h x (by simp [hx])) (fun c hc => hh c (by simp [hc]))]

/-- C71 (violation). The version bytes are not checked: a file of any other version is read by the rules of version 2. -/
theorem c71_version_unchecked (dbg : Bool) (a b : UInt8) (body : Bytes) :
    Keytab.parse dbg ([a, b] ++ body) = match Keytab.parse dbg ([5, 2] ++ body) with
      | .error e => .error e
      | .ok (k, r) => .ok ({ k with kversion := a, version := b }, r) := by
  simp only [List.cons_append, List.nil_append, parse_eq]
  cases many0 (KeytabEntry.parse dbg) body <;> rfl

/-- a version 2 file with a deleted slot between two entries, the second with one byte of filler, and an end mark -/
def sampleRecords : List Mit.Record :=
  [.entry sampleEntry.mit [9], .hole [1, 2, 3], .entry { sampleEntry.mit with vno32 := none } [0], .entry sampleEntry.mit []]

example : ∀ r ∈ sampleRecords, r.Valid := by
  intro r hr
  simp only [sampleRecords, List.mem_cons, List.not_mem_nil, or_false] at hr
  rcases hr with rfl | rfl | rfl | rfl
  · exact ⟨entry_mit_valid (by decide), by decide +kernel, by decide⟩
  · exact ⟨by decide, by decide⟩
  · exact ⟨entry_mit_valid (e := { sampleEntry with vno := none }) (by decide), by decide +kernel, by decide⟩
  · exact ⟨entry_mit_valid (by decide), by decide +kernel, by decide⟩

/-- C71 (violation, concrete). Of the three entries of that file the first is shown, then a blank one, and the other two
are lost without an error. -/
theorem c71_sample_read (dbg : Bool) : ∃ k rest,
    Keytab.parse dbg (Mit.keytabBytes sampleRecords (some [7])) = .ok (k, rest) ∧
      k.entries = [sampleEntry, KeytabEntry.dflt] ∧ (Mit.entries sampleRecords).length = 3 := by
  apply exists_ok; cases dbg <;> decide +kernel

end Verif.KT
