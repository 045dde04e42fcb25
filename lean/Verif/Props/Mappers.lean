import Verif.MappersLemmas
import Verif.Props.Asn1
import Mathlib.Data.List.Forall2
/-
Property theorems C16 to C24: conversions between credential caches and KRB-CRED messages.
-/
namespace Verif.Map
open Verif.Asn1

/-- the standard library, for examples -/
def exExt : Ext := stdExt

/-! ### C24: principals -/

/-- C24. Realm and name with at least one component survive the conversion to a cache principal and back. -/
theorem c24_roundtrip (realm : List Char) (name : PrincipalName) (h : name.name_string ≠ []) :
    fromPrincipal (toPrincipal realm name) = .ok (realm, name) :=
  fromPrincipal_ok.2 ⟨rfl, h⟩

/-- C24. The cache principal: same bits of the name type, UTF-8 of realm and components, same order. -/
theorem c24_principal (realm : List Char) (name : PrincipalName) :
    (toPrincipal realm name).name_type.toInt32 = name.name_type ∧
    (toPrincipal realm name).realm = utf8 realm ∧
    (toPrincipal realm name).components = name.name_string.map utf8 := by
  refine ⟨by simp [toPrincipal], rfl, rfl⟩

/-- C24. The other direction fails exactly when the realm or a component is not UTF-8 or there is no component. -/
theorem c24_fails_iff (p : CC.Principal) :
    (∃ e, fromPrincipal p = .error e) ↔
      p.components = [] ∨ ¬ IsUtf8 p.realm ∨ ∃ c ∈ p.components, ¬ IsUtf8 c := by
  constructor
  · rintro ⟨e, h⟩
    apply Classical.byContradiction
    intro hn
    simp only [not_or, not_exists, not_and, Classical.not_not] at hn
    obtain ⟨h1, ⟨r, hr⟩, h3⟩ := hn
    rcases decodeNames_cases p.components with ⟨ns, hns, -⟩ | ⟨⟨c, hc, hcn⟩, -⟩
    · have : fromPrincipal p = .ok (r, ⟨p.name_type.toInt32, ns⟩) := by
        rw [fromPrincipal_ok]
        obtain ⟨nt, rr, cs⟩ := p
        simp only at hr hns h1 ⊢
        subst hr hns
        refine ⟨by simp [toPrincipal, stringToCos, funext], ?_⟩
        intro h0; subst h0; simp at h1
      rw [this] at h; cases h
    · exact hcn (h3 c hc)
  · intro h
    cases hp : fromPrincipal p with
    | error e => exact ⟨e, rfl⟩
    | ok v =>
      obtain ⟨r, n⟩ := v
      obtain ⟨rfl, hne⟩ := fromPrincipal_ok.1 hp
      rcases h with h | h | ⟨c, hc, hn⟩
      · simp only [toPrincipal, List.map_eq_nil_iff] at h; exact absurd h hne
      · exact absurd ⟨r, rfl⟩ h
      · simp only [toPrincipal, List.mem_map] at hc
        obtain ⟨s, -, rfl⟩ := hc
        exact absurd ⟨s, rfl⟩ hn

/-- C24. When it succeeds it is the inverse: converting the result back gives the principal. -/
theorem c24_reverse (p : CC.Principal) (realm : List Char) (name : PrincipalName)
    (h : fromPrincipal p = .ok (realm, name)) : toPrincipal realm name = p :=
  (fromPrincipal_ok.1 h).1.symm

/-- C24. The error: no component is reported as such, everything else as invalid UTF-8. -/
theorem c24_error (p : CC.Principal) (e : ConvertError) (h : fromPrincipal p = .error e) :
    (e = .noPrincipalName ∧ p.components = []) ∨ (e = .fromUtf8 ∧ p.components ≠ []) := by
  unfold fromPrincipal at h
  rcases decodeNames_cases p.components with ⟨ns, hns, hd⟩ | ⟨⟨c, hc, hcn⟩, hd⟩
  · rw [hd] at h
    cases ns with
    | nil => left; simp only [bind, Except.bind, Except.error.injEq] at h; exact ⟨h.symm, hns⟩
    | cons m more =>
      right
      simp only [bind, Except.bind] at h
      rcases cosToString_cases p.realm with ⟨s, -, hr⟩ | ⟨-, hr⟩
      · rw [hr] at h; cases h
      · rw [hr] at h; simp only [Except.error.injEq] at h; exact ⟨h.symm, by rw [hns]; simp⟩
  · rw [hd] at h
    right
    simp only [bind, Except.bind, Except.error.injEq] at h
    exact ⟨h.symm, by intro h0; rw [h0] at hc; simp at hc⟩

example : fromPrincipal (toPrincipal "R".toList ⟨-5, ["ñ".toList, []]⟩) = .ok ("R".toList, ⟨-5, ["ñ".toList, []]⟩) := by
  decide +kernel
example : fromPrincipal ⟨1, [0xff], [[0x41]]⟩ = .error .fromUtf8 := by decide +kernel

/-! ### C23: 16-bit types -/

/-- C23. A key survives the conversion to the cache and back iff its type is in 0..65535; otherwise it comes back with
its type modulo 65536. -/
theorem c23_key (k : EncryptionKey) :
    (fromKeyBlock (toKeyBlock k)).keyvalue = k.keyvalue ∧
    (fromKeyBlock (toKeyBlock k)).keytype.toInt = k.keytype.toInt % 65536 ∧
    (fromKeyBlock (toKeyBlock k) = k ↔ 0 ≤ k.keytype.toInt ∧ k.keytype.toInt ≤ 65535) := by
  have h := u16AsI32_i32AsU16 k.keytype
  refine ⟨rfl, h, ?_⟩
  constructor
  · intro e
    have : (fromKeyBlock (toKeyBlock k)).keytype.toInt = k.keytype.toInt := by rw [e]
    have h' : (fromKeyBlock (toKeyBlock k)).keytype.toInt = k.keytype.toInt % 65536 := h
    omega
  · intro ⟨h0, h1⟩
    cases k
    dsimp only at h0 h1
    simp only [fromKeyBlock, toKeyBlock, CC.KeyBlock.new, EncryptionKey.mk.injEq, and_true]
    exact u16AsI32_i32AsU16_eq h0 (by omega)

/-- C23. The same for authorization data entries. -/
theorem c23_authdata (p : PaData) :
    (fromAuthData (toAuthData p)).padata_value = p.padata_value ∧
    (fromAuthData (toAuthData p)).padata_type.toInt = p.padata_type.toInt % 65536 ∧
    (fromAuthData (toAuthData p) = p ↔ 0 ≤ p.padata_type.toInt ∧ p.padata_type.toInt ≤ 65535) := by
  have h := u16AsI32_i32AsU16 p.padata_type
  refine ⟨rfl, h, ?_⟩
  constructor
  · intro e
    have : (fromAuthData (toAuthData p)).padata_type.toInt = p.padata_type.toInt := by rw [e]
    have h' : (fromAuthData (toAuthData p)).padata_type.toInt = p.padata_type.toInt % 65536 := h
    omega
  · intro ⟨h0, h1⟩
    cases p
    dsimp only at h0 h1
    simp only [fromAuthData, toAuthData, PaData.mk.injEq, and_true]
    exact u16AsI32_i32AsU16_eq h0 (by omega)

/-- C23. A negative type never survives: it comes back positive. -/
theorem c23_negative (k : EncryptionKey) (p : PaData) (hk : k.keytype.toInt < 0) (hp : p.padata_type.toInt < 0) :
    fromKeyBlock (toKeyBlock k) ≠ k ∧ 0 ≤ (fromKeyBlock (toKeyBlock k)).keytype.toInt ∧
    fromAuthData (toAuthData p) ≠ p ∧ 0 ≤ (fromAuthData (toAuthData p)).padata_type.toInt := by
  obtain ⟨-, h1, h2⟩ := c23_key k
  obtain ⟨-, h3, h4⟩ := c23_authdata p
  refine ⟨fun e => ?_, by omega, fun e => ?_, by omega⟩
  · have := h2.1 e; omega
  · have := h4.1 e; omega

/-- C23. From the cache the conversion is exact: only the second type field of a key is lost. -/
theorem c23_from_cache (k : CC.KeyBlock) (a : CC.Address) :
    toKeyBlock (fromKeyBlock k) = { k with etype := 0 } ∧ toAuthData (fromAuthData a) = a := by
  constructor
  · cases k; simp [toKeyBlock, fromKeyBlock, CC.KeyBlock.new, i32AsU16_u16AsI32]
  · cases a; simp [toAuthData, fromAuthData, i32AsU16_u16AsI32]

example : (fromKeyBlock (toKeyBlock ⟨-135, [1]⟩)).keytype = 65401 := by decide +kernel
example : fromKeyBlock (toKeyBlock ⟨18, [1]⟩) = ⟨18, [1]⟩ := by decide +kernel

/-! ### C21: times -/

/-- C21. A present time comes back unchanged iff its epoch second is in 1..2^32-1 and it has no fraction. -/
theorem c21_unchanged_iff (t : DateTime) :
    fromTime (toTime (some t)) = some t ↔ 1 ≤ t.secs ∧ t.secs < 2^32 ∧ t.nanos = 0 := by
  have h := timestampU32_toNat t
  have e2 : (2 : Int)^32 = 4294967296 := by decide
  rw [e2] at h ⊢
  show (if timestampU32 t = 0 then none else some (⟨((timestampU32 t).toNat : Nat), 0⟩ : DateTime)) = some t ↔ _
  constructor
  · intro e
    by_cases hn : timestampU32 t = 0
    · rw [if_pos hn] at e; cases e
    · rw [if_neg hn] at e
      simp only [Option.some.injEq] at e
      have h0 : ((timestampU32 t).toNat : Int) = t.secs := by rw [← congrArg DateTime.secs e]
      have h1 : t.nanos = 0 := by rw [← congrArg DateTime.nanos e]
      have h2 : (timestampU32 t).toNat ≠ 0 := fun h => hn (u32_ext h)
      have := (timestampU32 t).toNat_lt
      omega
  · rintro ⟨h1, h2, h3⟩
    have h4 : timestampU32 t ≠ 0 := by
      intro h0; rw [h0] at h; simp at h; omega
    rw [if_neg h4]
    cases t with
    | mk s n =>
      simp only at h1 h2 h3 h
      simp only [Option.some.injEq, DateTime.mk.injEq]
      exact ⟨by omega, h3.symm⟩

/-- C21. In every other case: the second modulo 2^32, without fraction; 0 comes back absent. -/
theorem c21_comes_back (t : DateTime) :
    fromTime (toTime (some t)) = if t.secs % 2^32 = 0 then none else some ⟨t.secs % 2^32, 0⟩ := by
  have h := timestampU32_toNat t
  have e2 : (2 : Int)^32 = 4294967296 := by decide
  rw [e2] at h ⊢
  unfold fromTime toTime
  by_cases h0 : t.secs % 4294967296 = 0
  · rw [if_pos h0, if_pos (u32_ext (by simp; omega))]
  · rw [if_neg h0, if_neg (by intro e; simp only [] at e; rw [e] at h; simp at h; omega), h]

/-- C21. An absent time comes back absent; a cache time converted to a message time and back is always unchanged. -/
theorem c21_absent_and_cache (n : UInt32) (t : CC.Times) :
    fromTime (toTime none) = none ∧ toTime (fromTime n) = n ∧
    toTimes (fromTimes t).1 (fromTimes t).2.1 (fromTimes t).2.2.1 (fromTimes t).2.2.2 = t := by
  refine ⟨rfl, toTime_fromTime n, ?_⟩
  cases t; simp [toTimes, fromTimes, toTime_fromTime]

/-- C21. All four times are converted, each on its own. -/
theorem c21_all_four (a s e r : Option DateTime) :
    fromTimes (toTimes a s e r)
      = (fromTime (toTime a), fromTime (toTime s), fromTime (toTime e), fromTime (toTime r)) := rfl

example : fromTime (toTime (some ⟨2136422885, 0⟩)) = some ⟨2136422885, 0⟩ := by decide +kernel
example : fromTime (toTime (some ⟨4294967296 + 5, 7⟩)) = some ⟨5, 0⟩ := by decide +kernel
example : fromTime (toTime (some ⟨0, 0⟩)) = none := by decide +kernel

/-! ### C22: NetBIOS padding -/

/-- specification: the code points with the property White_Space, from the Unicode character database (PropList.txt) -/
def whiteSpaceCodes : List Nat :=
  [0x9, 0xa, 0xb, 0xc, 0xd, 0x20, 0x85, 0xa0, 0x1680, 0x2000, 0x2001, 0x2002, 0x2003, 0x2004, 0x2005, 0x2006, 0x2007,
    0x2008, 0x2009, 0x200a, 0x2028, 0x2029, 0x202f, 0x205f, 0x3000]

/-- specification: the name does not end in white space -/
def NoTrailingSpace (s : List Char) : Prop := ∀ c, s.getLast? = some c → c.toNat ∉ whiteSpaceCodes

/-- specification: `t` is `s` without the white space at its end -/
def IsTrimmed (s t : List Char) : Prop := NoTrailingSpace t ∧ ∃ w, s = t ++ w ∧ ∀ c ∈ w, c.toNat ∈ whiteSpaceCodes

theorem isWhitespace_iff (c : Char) : isWhitespace c = true ↔ c.toNat ∈ whiteSpaceCodes := by
  unfold isWhitespace whiteSpaceCodes
  generalize c.toNat = n
  simp only [Bool.or_eq_true, Bool.and_eq_true, decide_eq_true_eq, beq_iff_eq, List.mem_cons, List.not_mem_nil,
    or_false]
  omega

theorem isWhitespace_not (c : Char) : isWhitespace c = false ↔ c.toNat ∉ whiteSpaceCodes := by
  rw [← isWhitespace_iff, Bool.not_eq_true]

theorem padd_spec (s : List Char) : ∃ k, k < 16 ∧ paddNetbiosString s = s ++ List.replicate k ' ' ∧
    ((utf8 s).length + k) % 16 = 0 := by
  unfold paddNetbiosString
  simp only
  split
  · exact ⟨16 - (utf8 s).length % 16, by omega, rfl, by omega⟩
  · exact ⟨0, by omega, by simp, by omega⟩

theorem utf8_replicate_space (k : Nat) : (utf8 (List.replicate k ' ')).length = k := by
  induction k with
  | zero => rfl
  | succ k ih =>
    rw [List.replicate_succ]
    show (utf8Char ' ' ++ utf8 (List.replicate k ' ')).length = _
    rw [List.length_append, ih]
    have : (utf8Char ' ').length = 1 := by decide
    omega

theorem trimEnd_noTrailing {s : List Char} (h : NoTrailingSpace s) : trimEnd s = s := by
  unfold trimEnd
  have : s.reverse.dropWhile isWhitespace = s.reverse := by
    cases hr : s.reverse with
    | nil => rfl
    | cons c r =>
      have hc := (isWhitespace_not c).2 (h c (by rw [← List.head?_reverse, hr]; rfl))
      rw [List.dropWhile_cons_of_neg (by simp [hc])]
  rw [this, List.reverse_reverse]

theorem trimEnd_append_spaces (s : List Char) (k : Nat) : trimEnd (s ++ List.replicate k ' ') = trimEnd s := by
  unfold trimEnd
  rw [List.reverse_append, List.reverse_replicate]
  congr 1
  induction k with
  | zero => simp
  | succ k ih => rw [List.replicate_succ, List.cons_append, List.dropWhile_cons_of_pos (by decide), ih]

theorem trimEnd_no_trailing (s : List Char) : NoTrailingSpace (trimEnd s) := by
  intro c hc
  rw [← isWhitespace_not]
  unfold trimEnd at hc
  rw [List.getLast?_reverse] at hc
  have := List.head?_dropWhile_not isWhitespace s.reverse
  rw [hc] at this
  simpa using this

/-- C22. Trimming removes exactly the white space at the end: the result is the only one the specification allows. -/
theorem c22_trim_spec (s t : List Char) : trimEnd s = t ↔ IsTrimmed s t := by
  constructor
  · rintro rfl
    refine ⟨trimEnd_no_trailing s, (s.reverse.takeWhile isWhitespace).reverse, ?_, ?_⟩
    · unfold trimEnd
      rw [← List.reverse_append, List.takeWhile_append_dropWhile, List.reverse_reverse]
    · intro c hc
      rw [← isWhitespace_iff]
      exact List.all_eq_true.1 (List.all_takeWhile) c (List.mem_reverse.1 hc)
  · rintro ⟨h, w, rfl, hw⟩
    have h' := trimEnd_noTrailing h
    unfold trimEnd at h' ⊢
    rw [List.reverse_append, List.dropWhile_append_of_pos, h']
    intro c hc
    exact (isWhitespace_iff c).2 (hw c (List.mem_reverse.1 hc))

/-- C22. Padding appends fewer than 16 spaces and makes the byte length a multiple of 16; a name whose length is a
multiple already is unchanged. -/
theorem c22_padding (s : List Char) :
    (utf8 (paddNetbiosString s)).length % 16 = 0 ∧
    (∃ k, k < 16 ∧ paddNetbiosString s = s ++ List.replicate k ' ') ∧
    ((utf8 s).length % 16 = 0 → paddNetbiosString s = s) := by
  obtain ⟨k, hk, he, hm⟩ := padd_spec s
  refine ⟨?_, ⟨k, hk, he⟩, ?_⟩
  · rw [he, utf8_append, List.length_append, utf8_replicate_space, hm]
  · intro h0
    have : k = 0 := by omega
    subst this; simpa using he

/-- C22. Padding twice is padding once, and trimming undoes it for names without trailing white space. -/
theorem c22_idempotent (s : List Char) : paddNetbiosString (paddNetbiosString s) = paddNetbiosString s :=
  (c22_padding (paddNetbiosString s)).2.2 (c22_padding s).1

/-- C22 -/
theorem c22_trim_undoes (s : List Char) :
    trimEnd (paddNetbiosString s) = trimEnd s ∧ (NoTrailingSpace s → trimEnd (paddNetbiosString s) = s) := by
  obtain ⟨k, -, he, -⟩ := padd_spec s
  have h1 : trimEnd (paddNetbiosString s) = trimEnd s := by rw [he, trimEnd_append_spaces]
  exact ⟨h1, fun h => by rw [h1, trimEnd_noTrailing h]⟩

theorem netbios_bits : u16AsI32 20 = netbios ∧ i32AsU16 netbios = 20 := by decide +kernel

theorem u16AsI32_netbios {x : UInt16} : u16AsI32 x = netbios ↔ x = 20 := by
  constructor
  · intro h
    have := u16AsI32_toInt x
    rw [h] at this
    have hn : netbios.toInt = 20 := by decide
    apply u16_ext
    have e : (20 : UInt16).toNat = 20 := rfl
    omega
  · rintro rfl; exact netbios_bits.1

/-- C22. A NetBIOS host address survives the conversion to the cache and back up to padding of the trimmed name. -/
theorem c22_netbios_conversion (X : Ext) (s : List Char) :
    toAddress X ⟨20, utf8 s⟩ = ⟨20, utf8 (trimEnd s)⟩ ∧
    fromAddress (toAddress X ⟨20, utf8 s⟩) = .ok ⟨20, utf8 (paddNetbiosString (trimEnd s))⟩ := by
  have h1 : toAddress X ⟨20, utf8 s⟩ = ⟨20, utf8 (trimEnd s)⟩ := by
    unfold toAddress
    simp only [show ((20 : Int32) = netbios) from rfl, if_true, X.lossy_utf8]
    rw [netbios_bits.2]
  refine ⟨h1, ?_⟩
  rw [h1]
  unfold fromAddress
  simp only [netbios_bits.1, if_true, cosToString_utf8]
  rfl

/-- C22. In particular a padded name without other trailing white space is unchanged. -/
theorem c22_netbios_unchanged (X : Ext) (s : List Char) (h : NoTrailingSpace s) :
    fromAddress (toAddress X ⟨20, utf8 (paddNetbiosString s)⟩) = .ok ⟨20, utf8 (paddNetbiosString s)⟩ := by
  rw [(c22_netbios_conversion X _).2, (c22_trim_undoes s).2 h]

/-- C22. A NetBIOS address survives the conversion to the cache and back exactly if it is a padded UTF-8 name without other
trailing white space. So names in a Windows code page with other letters, or filled up with zeros, do not survive. -/
theorem c22_survives_iff (X : Ext) (b : Bytes) :
    fromAddress (toAddress X ⟨20, b⟩) = .ok ⟨20, b⟩ ↔ ∃ s, NoTrailingSpace s ∧ b = utf8 (paddNetbiosString s) := by
  constructor
  · intro h
    have h1 : toAddress X ⟨20, b⟩ = ⟨20, utf8 (trimEnd (X.lossy b))⟩ := by
      unfold toAddress
      simp only [show ((20 : Int32) = netbios) from rfl, if_true]
      rw [netbios_bits.2]
    rw [h1] at h
    unfold fromAddress at h
    simp only [netbios_bits.1, if_true, cosToString_utf8] at h
    have h2 : (⟨netbios, utf8 (paddNetbiosString (trimEnd (X.lossy b)))⟩ : HostAddress) = ⟨20, b⟩ := Except.ok.inj h
    injection h2 with _ h2
    exact ⟨_, trimEnd_no_trailing _, h2.symm⟩
  · rintro ⟨s, hs, rfl⟩
    exact c22_netbios_unchanged X s hs

/-- C22. What is written for any bytes in a NetBIOS address: its text, with each maximal ill-formed part replaced by U+FFFD
as Unicode recommends, without the white space at the end. -/
theorem c22_any_bytes (b : Bytes) (s t : List Char) (hs : IsLossy b s) (ht : IsTrimmed s t) :
    toAddress stdExt ⟨20, b⟩ = ⟨20, utf8 t⟩ := by
  unfold toAddress
  simp only [show ((20 : Int32) = netbios) from rfl, if_true]
  rw [netbios_bits.2, show stdExt.lossy b = s from (utf8Lossy_iff b s).2 hs, (c22_trim_spec s t).2 ht]

/-- C22. There are always such texts. -/
theorem c22_any_bytes_exists (b : Bytes) : ∃ s t, IsLossy b s ∧ IsTrimmed s t :=
  ⟨utf8Lossy b, trimEnd (utf8Lossy b), utf8Lossy_spec b, (c22_trim_spec _ _).1 rfl⟩

/-- "CAFÉ" in Latin-1, padded -/
example : toAddress stdExt ⟨20, [0x43, 0x41, 0x46, 0xc9] ++ List.replicate 12 0x20⟩ = ⟨20, utf8 "CAF\uFFFD".toList⟩ := by
  decide +kernel
/-- a name filled up with zeros gets spaces behind the zeros -/
example : fromAddress (toAddress stdExt ⟨20, [0x41, 0, 0]⟩) = .ok ⟨20, [0x41, 0, 0] ++ List.replicate 13 0x20⟩ := by
  decide +kernel

example : NoTrailingSpace "HOLLOWBASTION".toList := by
  intro c h
  have : c = 'N' := by
    have e : "HOLLOWBASTION".toList.getLast? = some 'N' := by decide
    rw [e] at h; exact (Option.some.inj h).symm
  subst this; decide
example : paddNetbiosString "HOLLOWBASTION".toList = "HOLLOWBASTION   ".toList := by decide +kernel

end Verif.Map
