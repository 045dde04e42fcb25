import Verif.CCacheLemmas
/-
Properties C01–C09: the credential cache file format.
-/
namespace Verif.CC

/-! ## C01 -/

/-- C01. Building a representable cache and parsing the bytes gives the cache back, nothing left. -/
theorem c01_ccache_roundtrip (c : CCache) (h : c.Fits) : CCache.parse c.build = .ok (c, []) := by
  rw [parse_eq, bind_def, build_eq, preParse_reads h]
  simp only [bind_def]
  have := creds_reads c.credentials h.2.2.2 []
  rw [List.append_nil, many0_nil] at this
  rw [this]
  have hv := h.1
  simp only [pure_def, Except.ok.injEq, Prod.mk.injEq, and_true, List.append_nil]
  cases c; simp_all [CCache.new]

example : sampleCache.Fits ∧ sampleCache.credentials.length = 2 := by decide

/-- C01. Two different representable caches never have the same bytes. -/
theorem c01_build_injective (c c' : CCache) (h : c.Fits) (h' : c'.Fits) (e : c.build = c'.build) :
    c = c' := by
  have h1 := c01_ccache_roundtrip c h
  rw [e, c01_ccache_roundtrip c' h'] at h1
  simpa using h1.symm

example : ∃ c c' : CCache, c.Fits ∧ c'.Fits ∧ c ≠ c' :=
  ⟨sampleCache, { sampleCache with credentials := [] }, by decide⟩

/-! ## C02 -/

/-- C02 (counted strings). -/
theorem c02_counted_string (d : Bytes) (h : d.length < 2^32) (rest : Bytes) :
    parseCos (buildCos d ++ rest) = .ok (d, rest) := cos_reads h rest
/-- C02 (key blocks). -/
theorem c02_key_block (k : KeyBlock) (h : k.keyvalue.length < 2^16) (rest : Bytes) :
    KeyBlock.parse (k.build ++ rest) = .ok (k, rest) := keyBlock_reads h rest
/-- C02 (addresses and authorization data). -/
theorem c02_address (a : Address) (h : a.addrdata.length < 2^32) (rest : Bytes) :
    Address.parse (a.build ++ rest) = .ok (a, rest) := address_reads h rest
/-- C02 (times). -/
theorem c02_times (t : Times) (rest : Bytes) :
    Times.parse (t.build ++ rest) = .ok (t, rest) := times_reads t rest
/-- C02 (principals). -/
theorem c02_principal (p : Principal) (h : p.Fits) (rest : Bytes) :
    Principal.parse (p.build ++ rest) = .ok (p, rest) := principal_reads h rest
/-- C02 (delta time). -/
theorem c02_delta_time (t : DeltaTime) (rest : Bytes) :
    DeltaTime.parse (t.build ++ rest) = .ok (t, rest) := deltaTime_reads t rest
/-- C02 (header field). -/
theorem c02_header (x : Header) (h : x.tagdata.length < 2^16) (rest : Bytes) :
    Header.parse (x.build ++ rest) = .ok (x, rest) := header_reads h rest
/-- C02 (credentials). -/
theorem c02_credential (c : Credential) (h : c.Fits) (rest : Bytes) :
    Credential.parse (c.build ++ rest) = .ok (c, rest) := credential_reads h rest

example : sampleCred.Fits ∧ sampleCred.addrs ≠ [] ∧ sampleCred.authdata ≠ [] := by decide

/-! ## C03 -/

/-- C03. An accepted input is, byte for byte, the serialisation of the parsed cache followed by the
remainder, except for the two header-length bytes at offset 2; and the parsed cache is
representable. -/
theorem c03_parse_exact (raw : Bytes) (c : CCache) (rest : Bytes)
    (h : CCache.parse raw = .ok (c, rest)) :
    c.Fits ∧ raw.take 2 = c.build.take 2 ∧ raw.drop 4 = c.build.drop 4 ++ rest := by
  rw [parse_eq, bind_ok] at h
  obtain ⟨⟨hd, p⟩, r1, h1, h2⟩ := h
  simp only [bind_ok, pure_ok] at h2
  obtain ⟨cs, r2, h2, rfl, rfl⟩ := h2
  obtain ⟨f1, f2, n, e1⟩ := preParse_ok h1
  obtain ⟨f3, e2, -⟩ := many0_ok (P := Credential.Fits) credential_exact
    (fun _ _ _ h => (credential_ok h).1) _ _ _ h2
  refine ⟨⟨rfl, f1, f2, f3⟩, ?_, ?_⟩
  · rw [e1]; simp [CCache.build, CCache.new, be16]
  · rw [e1, e2]; simp [CCache.build, CCache.new, be16]

/-- C03. Two inputs read as the same cache with the same remainder differ at most in the header-length
bytes. -/
theorem c03_no_alias (raw raw' : Bytes) (c : CCache) (rest : Bytes)
    (h : CCache.parse raw = .ok (c, rest)) (h' : CCache.parse raw' = .ok (c, rest)) :
    raw.take 2 = raw'.take 2 ∧ raw.drop 4 = raw'.drop 4 := by
  obtain ⟨_, h1, h2⟩ := c03_parse_exact _ _ _ h
  obtain ⟨_, h3, h4⟩ := c03_parse_exact _ _ _ h'
  exact ⟨h1.trans h3.symm, h2.trans h4.symm⟩

/-- C03. What was loaded can be saved and loaded again without change. -/
theorem c03_resave (raw : Bytes) (c : CCache) (rest : Bytes)
    (h : CCache.parse raw = .ok (c, rest)) : CCache.parse c.build = .ok (c, []) :=
  c01_ccache_roundtrip c (c03_parse_exact _ _ _ h).1

example : CCache.parse (sampleCache.build ++ [9, 9]) = .ok (sampleCache, [9, 9]) := by decide +kernel

/-! ## C04 -/

theorem creds_prefix (cs : List Credential) (h : ∀ c ∈ cs, c.Fits) (k : Nat)
    (hk : k ≤ (cs.flatMap Credential.build).length) :
    (∃ e, e ≠ PErr.panic ∧ many0 Credential.parse ((cs.flatMap Credential.build).take k) = .error e) ∨
    ∃ j rest, j ≤ cs.length ∧
      many0 Credential.parse ((cs.flatMap Credential.build).take k) = .ok (cs.take j, rest) ∧
      (cs.flatMap Credential.build).take k = (cs.take j).flatMap Credential.build ++ rest ∧
      (∀ x ∈ cs[j]?, rest.length < x.build.length) := by
  induction cs generalizing k with
  | nil =>
    right
    refine ⟨0, [], by simp, ?_, by simp, by simp⟩
    simp [many0_nil]
  | cons c cs ih =>
    have hc := h c (by simp)
    by_cases hlt : k < c.build.length
    · have e1 : (List.flatMap Credential.build (c :: cs)).take k = c.build.take k := by
        rw [List.flatMap_cons, List.take_append_of_le_length (by omega)]
      obtain ⟨e, he⟩ := credential_stable.prefix_fails (credential_reads hc) hlt
      have hnp := credential_noPanic (c.build.take k)
      rw [e1, many0_unfold credential_suffix, he]
      rw [he] at hnp
      cases e with
      | error =>
        right
        refine ⟨0, c.build.take k, by simp, rfl, by simp, ?_⟩
        simp; omega
      | incomplete => left; exact ⟨.incomplete, by simp, rfl⟩
      | panic => simp at hnp
    · have e1 : (List.flatMap Credential.build (c :: cs)).take k =
          [c].flatMap Credential.build ++ (List.flatMap Credential.build cs).take (k - c.build.length) := by
        rw [List.flatMap_cons, List.take_append, List.take_of_length_le (by omega)]; simp
      have hk' : k - c.build.length ≤ (List.flatMap Credential.build cs).length := by
        rw [List.flatMap_cons, List.length_append] at hk; omega
      have e2 := creds_reads [c] (by simpa using hc)
        ((List.flatMap Credential.build cs).take (k - c.build.length))
      rcases ih (fun x hx => h x (by simp [hx])) _ hk' with ⟨e, he, he'⟩ | ⟨j, rest, hj, hm, hb, hr⟩
      · left
        refine ⟨e, he, ?_⟩
        rw [e1, e2, he']
      · right
        refine ⟨j + 1, rest, by simpa using hj, ?_, ?_, by simpa using hr⟩
        · rw [e1, e2, hm]; rfl
        · rw [e1, hb]; simp

/-- C04. Cut a well-formed cache file at any byte `k`: parsing fails (without panic), or returns the same
header and primary principal with exactly the credentials that are complete in the cut file (a prefix
of the originals), and the bytes of the incomplete next credential are the returned remainder. -/
theorem c04_truncated_file (c : CCache) (h : c.Fits) (k : Nat) (hk : k ≤ c.build.length) :
    (∃ e, e ≠ PErr.panic ∧ CCache.parse (c.build.take k) = .error e) ∨
    ∃ j rest, j ≤ c.credentials.length ∧
      CCache.parse (c.build.take k)
        = .ok ({ c with credentials := c.credentials.take j }, rest) ∧
      c.build.take k = { c with credentials := c.credentials.take j }.build ++ rest ∧
      (∀ x ∈ c.credentials[j]?, rest.length < x.build.length) := by
  have hv := h.1
  by_cases hlt : k < c.pre.length
  · left
    have e1 : c.build.take k = c.pre.take k := by
      rw [build_eq, List.take_append_of_le_length (by omega)]
    obtain ⟨e, he⟩ := preParse_stable.prefix_fails (preParse_reads h) hlt
    have hnp := preParse_noPanic (c.pre.take k)
    refine ⟨e, ?_, ?_⟩
    · rw [he] at hnp; simpa using hnp
    · rw [e1, parse_eq, bind_def, he]
  · have e1 : c.build.take k =
        c.pre ++ (c.credentials.flatMap Credential.build).take (k - c.pre.length) := by
      rw [build_eq, List.take_append, List.take_of_length_le (by omega)]
    have hk' : k - c.pre.length ≤ (c.credentials.flatMap Credential.build).length := by
      rw [build_eq, List.length_append] at hk; omega
    rw [e1, parse_eq, bind_def, preParse_reads h]
    simp only [bind_def]
    rcases creds_prefix c.credentials h.2.2.2 _ hk' with ⟨e, he, he'⟩ | ⟨j, rest, hj, hm, hb, hr⟩
    · left; exact ⟨e, he, by rw [he']⟩
    · right
      refine ⟨j, rest, hj, ?_, ?_, hr⟩
      · rw [hm]; cases c; simp_all [CCache.new, pure_def]
      · rw [hb]; simp [build_eq, CCache.pre]

/-- C04. A cut exactly behind the `j`-th credential yields exactly the first `j` credentials. -/
theorem c04_cut_at_record_boundary (c : CCache) (h : c.Fits) (j : Nat) :
    CCache.parse (c.build.take ({ c with credentials := c.credentials.take j }.build.length))
      = .ok ({ c with credentials := c.credentials.take j }, []) := by
  have hb : c.build.take ({ c with credentials := c.credentials.take j }.build.length)
      = { c with credentials := c.credentials.take j }.build := by
    have : c.build = { c with credentials := c.credentials.take j }.build
        ++ (c.credentials.drop j).flatMap Credential.build := by
      rw [build_eq, build_eq, List.append_assoc, ← List.flatMap_append, List.take_append_drop]
      rfl
    rw [this]; simp
  rw [hb]
  exact c01_ccache_roundtrip _
    ⟨h.1, h.2.1, h.2.2.1, fun x hx => h.2.2.2 x (List.mem_of_mem_take hx)⟩

theorem beU32_short {i : Bytes} (h : i.length < 4) : beU32 i = .error .error := by
  match i, h with
  | [], _ => rfl
  | [_], _ => rfl
  | [_, _], _ => rfl
  | [_, _, _], _ => rfl
  | _ :: _ :: _ :: _ :: _, h => simp at h; omega

theorem beU32_some {i : Bytes} (h : ¬ i.length < 4) : ∃ x, beU32 i = .ok (x, i.drop 4) := by
  match i, h with
  | [], h => simp at h
  | [_], h => simp at h
  | [_, _], h => simp at h
  | [_, _, _], h => simp at h
  | _ :: _ :: _ :: _ :: _, _ => exact ⟨_, rfl⟩

theorem credential_short {i : Bytes} (h : i.length < 12) : Credential.parse i = .error .error := by
  have hp : Principal.parse i = .error .error := by
    unfold Principal.parse
    rw [bind_def]
    by_cases h1 : i.length < 4
    · rw [beU32_short h1]
    · obtain ⟨x, hx⟩ := beU32_some h1
      rw [hx]; dsimp only; rw [bind_def]
      by_cases h2 : (i.drop 4).length < 4
      · rw [beU32_short h2]
      · obtain ⟨y, hy⟩ := beU32_some h2
        rw [hy]; dsimp only; rw [bind_def]
        have h3 : ((i.drop 4).drop 4).length < 4 := by simp only [List.length_drop]; omega
        have h4 : parseCos ((i.drop 4).drop 4) = .error .error := by
          unfold parseCos lengthData32
          rw [bind_def, beU32_short h3]
        rw [h4]
  unfold Credential.parse
  rw [bind_def, hp]

theorem credential_long (c : Credential) : 12 ≤ c.build.length := by
  simp only [Credential.build, Principal.build, buildCos, be32, List.length_append, List.length_cons, List.length_nil]
  omega

/-- C04, the failure that is not reported: every well-formed file, cut in the first twelve bytes of any of its credentials, is
read without error as a cache that lacks this credential and all behind it; the loss shows only in the remainder. -/
theorem c04_silent_loss (c : CCache) (h : c.Fits) (j : Nat) (hj : j < c.credentials.length) (i : Nat) (hi : i < 12) :
    ∃ rest, CCache.parse (c.build.take ({ c with credentials := c.credentials.take j }.build.length + i))
        = .ok ({ c with credentials := c.credentials.take j }, rest) ∧ rest.length = i := by
  have e : c.build = { c with credentials := c.credentials.take j }.build
      ++ (c.credentials.drop j).flatMap Credential.build := by
    rw [build_eq, build_eq, List.append_assoc, ← List.flatMap_append, List.take_append_drop]
    rfl
  rw [List.drop_eq_getElem_cons hj, List.flatMap_cons] at e
  have hl := credential_long c.credentials[j]
  refine ⟨(c.credentials[j].build ++ (c.credentials.drop (j+1)).flatMap Credential.build).take i, ?_, by
    rw [List.length_take, List.length_append]; omega⟩
  have hlen : ((c.credentials[j].build ++ (c.credentials.drop (j+1)).flatMap Credential.build).take i).length < 12 := by
    rw [List.length_take]; omega
  rw [e, List.take_length_add_append]
  generalize (c.credentials[j].build ++ (c.credentials.drop (j+1)).flatMap Credential.build).take i = t at hlen
  have hf : ({ c with credentials := c.credentials.take j } : CCache).Fits :=
    ⟨h.1, h.2.1, h.2.2.1, fun x hx => h.2.2.2 x (List.mem_of_mem_take hx)⟩
  rw [build_eq, List.append_assoc, parse_eq, bind_def, preParse_reads hf]
  simp only [bind_def]
  rw [creds_reads _ hf.2.2.2, many0_unfold credential_suffix, credential_short hlen]
  have hv := h.1
  cases c
  simp_all [CCache.new, pure_def]

example : sampleCache.Fits ∧ 0 < sampleCache.credentials.length ∧ 42 ≤ sampleCache.build.length := by decide +kernel

/-! ## C05 -/

/-- C05. Adding credentials at the end of a cache appends their bytes to the file. -/
theorem c05_build_append (c : CCache) (new : List Credential) :
    { c with credentials := c.credentials ++ new }.build
      = c.build ++ new.flatMap Credential.build := by
  simp [build_eq, CCache.pre]

/-- C05. Parsing a cache file with further encoded credentials appended returns the old ones followed by
the appended ones. -/
theorem c05_parse_append (c : CCache) (h : c.Fits) (new : List Credential)
    (hn : ∀ x ∈ new, x.Fits) :
    CCache.parse (c.build ++ new.flatMap Credential.build)
      = .ok ({ c with credentials := c.credentials ++ new }, []) := by
  rw [← c05_build_append]
  apply c01_ccache_roundtrip
  refine ⟨h.1, h.2.1, h.2.2.1, ?_⟩
  intro x hx
  rcases List.mem_append.mp hx with hx | hx
  · exact h.2.2.2 x hx
  · exact hn x hx

example : sampleCache.Fits ∧ ∀ x ∈ [sampleCred], x.Fits := by decide

/-! ## C06 -/

/-- C06. What the round-trip of a counted string of any length returns: the first `len mod 2^32` bytes,
the rest being left over. -/
theorem c06_counted_string_result (d : Bytes) :
    parseCos (buildCos d) = .ok (d.take (d.length % 2^32), d.drop (d.length % 2^32)) := by
  exact lengthData32_wrap d

/-- C06. The 32-bit limit is exact. -/
theorem c06_counted_string_limit (d : Bytes) :
    parseCos (buildCos d) = .ok (d, []) ↔ d.length < 2^32 := by
  rw [c06_counted_string_result]
  simp only [Except.ok.injEq, Prod.mk.injEq, List.drop_eq_nil_iff]
  have := Nat.mod_lt d.length (show 2^32 > 0 by decide)
  constructor
  · intro h; omega
  · intro h; rw [Nat.mod_eq_of_lt h, List.take_length]; simp

/-- C06. Key values: what the round-trip returns for any length. -/
theorem c06_key_block_result (k : KeyBlock) :
    KeyBlock.parse k.build = .ok ({ k with keyvalue := k.keyvalue.take (k.keyvalue.length % 2^16) },
      k.keyvalue.drop (k.keyvalue.length % 2^16)) := by
  unfold KeyBlock.parse KeyBlock.build
  simp only [List.append_assoc, bind_def, beU16_reads k.keytype _, beU16_reads k.etype _,
    lengthData16_wrap, pure_def, KeyBlock.new]

/-- C06. The 16-bit limit of key values is exact: longer keys are corrupted, not rejected. -/
theorem c06_key_block_limit (k : KeyBlock) :
    KeyBlock.parse k.build = .ok (k, []) ↔ k.keyvalue.length < 2^16 := by
  constructor
  · intro h
    rw [c06_key_block_result] at h
    simp only [Except.ok.injEq, Prod.mk.injEq, List.drop_eq_nil_iff] at h
    have := Nat.mod_lt k.keyvalue.length (show 2^16 > 0 by decide)
    omega
  · intro h; simpa using keyBlock_reads h []

/-- C06. The 16-bit limit of header data is exact. -/
theorem c06_header_limit (x : Header) :
    Header.parse x.build = .ok (x, []) ↔ x.tagdata.length < 2^16 := by
  constructor
  · intro h
    unfold Header.parse Header.build at h
    simp only [List.append_assoc, bind_def, beU16_reads x.tag _, lengthData16_wrap, pure_def,
      Except.ok.injEq, Prod.mk.injEq, List.drop_eq_nil_iff] at h
    have := Nat.mod_lt x.tagdata.length (show 2^16 > 0 by decide)
    omega
  · intro h; simpa using header_reads (h := x) h []

/-- C06. For whole caches the limits are exact: the round-trip works iff every count and length fits its
field and the version is 0x0504. -/
theorem c06_ccache_limit (c : CCache) : CCache.parse c.build = .ok (c, []) ↔ c.Fits :=
  ⟨fun h => (c03_parse_exact _ _ _ h).1, c01_ccache_roundtrip c⟩

/-- An oversize key really exists in the model (no limit is enforced by the constructor). -/
example : ∃ k : KeyBlock, ¬ k.keyvalue.length < 2^16 := ⟨⟨18, 0, List.replicate 65536 1⟩, by
  simp only [List.length_replicate]; decide⟩

/-! ## C07 -/

/-- C07. The header-length bytes have no influence on the result. -/
theorem c07_header_length_ignored (n m : UInt16) (body : Bytes) :
    CCache.parse ([5, 4] ++ be16 n ++ body) = CCache.parse ([5, 4] ++ be16 m ++ body) := by
  unfold CCache.parse
  simp only [bind_def, List.append_assoc]
  have : ∀ k : UInt16, tagC [5, 4] ([5, 4] ++ (be16 k ++ body)) = .ok ([5, 4], be16 k ++ body) :=
    fun k => tagC_reads [5, 4] _
  rw [this, this]
  simp only [beU16_reads _ _]

/-- C07 (violation of faithful reading). A file laid out with any list of header fields is read back
(principal, credentials, nothing left) iff it has exactly one header field: the zero-field and
multi-field files MIT Kerberos can produce are refused or misread. -/
theorem c07_only_single_field (fields : List Header) (p : Principal) (cs : List Credential)
    (hf : ∀ x ∈ fields, x.Fits) (hp : p.Fits) (hc : ∀ x ∈ cs, x.Fits) :
    (∃ hd, CCache.parse (mitFile fields p cs) = .ok (CCache.new hd p cs, [])) ↔
      fields.length = 1 := by
  constructor
  · rintro ⟨hd, h⟩
    obtain ⟨hfit, -, h2⟩ := c03_parse_exact _ _ _ h
    have e1 : (mitFile fields p cs).drop 4
        = fields.flatMap Header.build ++ p.build ++ cs.flatMap Credential.build := by
      simp [mitFile, be16]
    have e2 : (CCache.new hd p cs).build.drop 4 = hd.build ++ p.build ++ cs.flatMap Credential.build := by
      simp [CCache.build, CCache.new, be16]
    rw [e1, e2, List.append_nil] at h2
    have h3 : fields.flatMap Header.build = hd.build :=
      List.append_cancel_right (List.append_cancel_right h2)
    match fields, hf, h3 with
    | [], _, h3 => simp [Header.build, be16] at h3
    | [x], _, _ => rfl
    | x :: y :: t, hf, h3 =>
      exfalso
      have r1 := header_reads (hf x (by simp)) (List.flatMap Header.build (y :: t))
      rw [← List.flatMap_cons, h3, ← List.append_nil hd.build,
        header_reads (h := hd) (show hd.Fits from hfit.2.1) []] at r1
      simp [Header.build, be16] at r1
  · intro hl
    match fields, hf, hl with
    | [x], hf, _ =>
      refine ⟨x, ?_⟩
      have := c01_ccache_roundtrip (CCache.new x p cs) ⟨rfl, hf x (by simp), hp, hc⟩
      rw [← this]
      congr 1
      simp [mitFile, CCache.build, CCache.new, be16]

/-- C07. A concrete two-field file that is accepted, but with a principal nobody wrote (type 8, empty
realm, no name) while the true principal is left over as garbage. -/
theorem c07_misread_witness : ∃ c rest, CCache.parse
    (mitFile [Header.dflt, ⟨0, [0, 0, 0, 0, 0, 0, 0, 0]⟩] sampleClient []) = .ok (c, rest) ∧
      c.primary_principal = ⟨8, [], []⟩ ∧ rest = sampleClient.build :=
  exists_ok (by decide +kernel)

/-- C07. A concrete zero-field file (header length 0) that is refused. -/
theorem c07_zero_field_refused :
    CCache.parse (mitFile [] sampleClient [sampleCred]) = .error .incomplete := by decide +kernel

example : (∀ x ∈ [Header.dflt, ⟨2, [1]⟩], x.Fits) ∧ sampleClient.Fits ∧ sampleCred.Fits := by decide

/-! ## C08 (cache part) -/

/-- C08. The cache parser never panics. (It is a total function, hence terminates on every input.) -/
theorem c08_ccache_no_panic (raw : Bytes) : CCache.parse raw ≠ .error .panic := by
  rw [parse_eq]
  exact preParse_noPanic.bind (fun _ =>
    (many0_noPanic credential_suffix credential_noPanic).bind fun _ => NoPanic.pure _) raw

/-- C08. The remainder is a suffix of the input and at least the 20 fixed bytes were consumed. -/
theorem c08_ccache_suffix (raw : Bytes) (c : CCache) (rest : Bytes)
    (h : CCache.parse raw = .ok (c, rest)) :
    ∃ consumed, raw = consumed ++ rest ∧ 20 ≤ consumed.length := by
  obtain ⟨_, h1, h2⟩ := c03_parse_exact _ _ _ h
  refine ⟨raw.take 4 ++ c.build.drop 4, ?_, ?_⟩
  · rw [List.append_assoc, ← h2, List.take_append_drop]
  · have : 20 ≤ c.build.length := by
      simp [CCache.build, Header.build, Principal.build, buildCos]; omega
    have h3 : 4 ≤ raw.length := by
      apply Decidable.byContradiction; intro hlt
      rw [List.drop_eq_nil_of_le (by omega)] at h2
      have := congrArg List.length h2
      simp at this; omega
    simp; omega

/-! ## C09 -/

/-- C09. Anything not starting with 05 04 is refused (with nom's ordinary error). -/
theorem c09_bad_version (raw : Bytes) (h : raw.take 2 ≠ [5, 4]) :
    CCache.parse raw = .error .error := by
  unfold CCache.parse
  rw [bind_def]
  simp [tagC, h]

/-- C09. Every accepted cache reports version 0x0504. -/
theorem c09_reported_version (raw : Bytes) (c : CCache) (rest : Bytes)
    (h : CCache.parse raw = .ok (c, rest)) : c.file_format_version = 0x0504 ∧ raw.take 2 = [5, 4] := by
  obtain ⟨h0, h1, _⟩ := c03_parse_exact _ _ _ h
  refine ⟨h0.1, ?_⟩
  rw [h1]
  simp [CCache.build, h0.1, be16]

example : ([5, 3, 0, 0] : Bytes).take 2 ≠ [5, 4] := by decide

end Verif.CC
