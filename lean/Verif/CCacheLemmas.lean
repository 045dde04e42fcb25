import Verif.CCacheSpec
/- Helper lemmas for the credential cache format. -/
namespace Verif.CC

theorem u16_ofNat_toNat {n : Nat} (h : n < 2^16) : (UInt16.ofNat n).toNat = n := by
  rw [u16_toNat_ofNat]; omega
theorem u32_ofNat_toNat {n : Nat} (h : n < 2^32) : (UInt32.ofNat n).toNat = n := by
  rw [u32_toNat_ofNat]; omega

/-! ### reading back -/

theorem cos_reads {d} (h : CosFits d) : Reads parseCos (buildCos d) d := lengthData32_reads d h
theorem buildCos_ne (d) : buildCos d ≠ [] := by simp [buildCos, be32]

theorem keyBlock_reads {k : KeyBlock} (h : k.Fits) : Reads KeyBlock.parse k.build k := by
  refine (beU16_reads k.keytype).seq ((beU16_reads k.etype).seq
    ((lengthData16_reads k.keyvalue h).seq (Reads.pure k) rfl) rfl) ?_
  simp [KeyBlock.build]

theorem address_reads {a : Address} (h : a.Fits) : Reads Address.parse a.build a := by
  refine (beU16_reads a.addrtype).seq ((cos_reads h).seq (Reads.pure a) rfl) ?_
  simp [Address.build]

theorem Address.build_ne (a : Address) : a.build ≠ [] := by simp [Address.build, be16]

theorem times_reads (t : Times) : Reads Times.parse t.build t := by
  refine (beU32_reads _).seq ((beU32_reads _).seq ((beU32_reads _).seq ((beU32_reads _).seq
    (Reads.pure t) rfl) rfl) rfl) ?_
  simp [Times.build]

theorem deltaTime_reads (t : DeltaTime) : Reads DeltaTime.parse t.build t := by
  refine (beU32_reads _).seq ((beU32_reads _).seq (Reads.pure t) rfl) ?_
  simp [DeltaTime.build]

theorem header_reads {h : Header} (hf : h.Fits) : Reads Header.parse h.build h := by
  refine (beU16_reads _).seq ((lengthData16_reads _ hf).seq (Reads.pure h) rfl) ?_
  simp [Header.build]

theorem manyN32_reads {α} {p : Parser α} {b : α → Bytes} (as : List α) (hl : as.length < 2^32)
    (h : ∀ a ∈ as, Reads p (b a) a) (hne : ∀ a ∈ as, b a ≠ []) :
    Reads (manyN p (UInt32.ofNat as.length).toNat) (as.flatMap b) as := by
  rw [u32_ofNat_toNat hl]; exact manyN_reads as h hne

theorem principal_reads {p : Principal} (h : p.Fits) : Reads Principal.parse p.build p := by
  obtain ⟨h1, h2, h3⟩ := h
  refine (beU32_reads _).seq ((beU32_reads (UInt32.ofNat p.components.length)).seq
    ((cos_reads h1).seq
      ((manyN32_reads p.components h2 (fun c hc => cos_reads (h3 c hc))
        (fun c _ => buildCos_ne c)).seq (Reads.pure p) rfl) rfl) rfl) ?_
  simp [Principal.build]

theorem credential_reads {c : Credential} (h : c.Fits) : Reads Credential.parse c.build c := by
  obtain ⟨h1, h2, h3, h4, h5, h6, h7, h8, h9⟩ := h
  refine (principal_reads h1).seq ((principal_reads h2).seq ((keyBlock_reads h3).seq
    ((times_reads _).seq ((beU8_reads _).seq ((beU32_reads _).seq ((beU32_reads _).seq
    ((manyN32_reads c.addrs h4 (fun a ha => address_reads (h5 a ha))
      (fun a _ => a.build_ne)).seq ((beU32_reads _).seq
    ((manyN32_reads c.authdata h6 (fun a ha => address_reads (h7 a ha))
      (fun a _ => a.build_ne)).seq ((cos_reads h8).seq ((cos_reads h9).seq (Reads.pure c)
      rfl) rfl) rfl) rfl) rfl) rfl) rfl) rfl) rfl) rfl) rfl) ?_
  simp [Credential.build]

theorem Credential.build_ne (c : Credential) : c.build ≠ [] := by
  simp [Credential.build, Principal.build, be32]

/-! ### inversion: what an accepted input looks like -/

theorem cos_ok {i d r} (h : parseCos i = .ok (d, r)) : CosFits d ∧ i = buildCos d ++ r :=
  lengthData32_ok h

theorem keyBlock_ok {i k r} (h : KeyBlock.parse i = .ok (k, r)) : k.Fits ∧ i = k.build ++ r := by
  unfold KeyBlock.parse at h
  simp only [bind_ok, pure_ok] at h
  obtain ⟨a, r1, h1, b, r2, h2, c, r3, h3, rfl, rfl⟩ := h
  have e1 := beU16_exact _ _ _ h1
  have e2 := beU16_exact _ _ _ h2
  obtain ⟨f3, e3⟩ := lengthData16_ok h3
  refine ⟨f3, ?_⟩
  rw [e1, e2, e3]; simp [KeyBlock.build, KeyBlock.new]

theorem address_ok {i a r} (h : Address.parse i = .ok (a, r)) : a.Fits ∧ i = a.build ++ r := by
  unfold Address.parse at h
  simp only [bind_ok, pure_ok] at h
  obtain ⟨a, r1, h1, b, r2, h2, rfl, rfl⟩ := h
  have e1 := beU16_exact _ _ _ h1
  obtain ⟨f2, e2⟩ := cos_ok h2
  exact ⟨f2, by rw [e1, e2]; simp [Address.build]⟩

theorem times_ok {i t r} (h : Times.parse i = .ok (t, r)) : i = t.build ++ r := by
  unfold Times.parse at h
  simp only [bind_ok, pure_ok] at h
  obtain ⟨a, r1, h1, b, r2, h2, c, r3, h3, d, r4, h4, rfl, rfl⟩ := h
  rw [beU32_exact _ _ _ h1, beU32_exact _ _ _ h2, beU32_exact _ _ _ h3, beU32_exact _ _ _ h4]
  simp [Times.build]

theorem deltaTime_ok {i t r} (h : DeltaTime.parse i = .ok (t, r)) : i = t.build ++ r := by
  unfold DeltaTime.parse at h
  simp only [bind_ok, pure_ok] at h
  obtain ⟨a, r1, h1, b, r2, h2, rfl, rfl⟩ := h
  rw [beU32_exact _ _ _ h1, beU32_exact _ _ _ h2]
  simp [DeltaTime.build]

theorem header_ok {i hd r} (h : Header.parse i = .ok (hd, r)) : hd.Fits ∧ i = hd.build ++ r := by
  unfold Header.parse at h
  simp only [bind_ok, pure_ok] at h
  obtain ⟨a, r1, h1, b, r2, h2, rfl, rfl⟩ := h
  obtain ⟨f2, e2⟩ := lengthData16_ok h2
  refine ⟨f2, ?_⟩
  rw [beU16_exact _ _ _ h1, e2]; simp [Header.build]

theorem principal_ok {i p r} (h : Principal.parse i = .ok (p, r)) : p.Fits ∧ i = p.build ++ r := by
  unfold Principal.parse at h
  simp only [bind_ok, pure_ok] at h
  obtain ⟨nt, r1, h1, n, r2, h2, rl, r3, h3, cs, r4, h4, rfl, rfl⟩ := h
  obtain ⟨f3, e3⟩ := cos_ok h3
  obtain ⟨l4, f4, e4⟩ := manyN_ok (P := CosFits) (fun _ _ _ h => (cos_ok h).2)
    (fun _ _ _ h => (cos_ok h).1) _ _ _ _ h4
  refine ⟨⟨f3, ?_, f4⟩, ?_⟩
  · have := n.toNat_lt; simp only; omega
  · rw [beU32_exact _ _ _ h1, beU32_exact _ _ _ h2, e3, e4]; simp [Principal.build, l4]

theorem credential_ok {i c r} (h : Credential.parse i = .ok (c, r)) :
    c.Fits ∧ i = c.build ++ r := by
  unfold Credential.parse at h
  simp only [bind_ok, pure_ok] at h
  obtain ⟨cl, r1, h1, sv, r2, h2, k, r3, h3, t, r4, h4, sk, r5, h5, fl, r6, h6, na, r7, h7,
    as, r8, h8, nd, r9, h9, ds, r10, h10, tk, r11, h11, tk2, r12, h12, rfl, rfl⟩ := h
  obtain ⟨f1, e1⟩ := principal_ok h1
  obtain ⟨f2, e2⟩ := principal_ok h2
  obtain ⟨f3, e3⟩ := keyBlock_ok h3
  have e4 := times_ok h4
  have e5 := beU8_exact _ _ _ h5
  have e6 := beU32_exact _ _ _ h6
  have e7 := beU32_exact _ _ _ h7
  obtain ⟨l8, f8, e8⟩ := manyN_ok (P := Address.Fits) (fun _ _ _ h => (address_ok h).2)
    (fun _ _ _ h => (address_ok h).1) _ _ _ _ h8
  have e9 := beU32_exact _ _ _ h9
  obtain ⟨l10, f10, e10⟩ := manyN_ok (P := Address.Fits) (fun _ _ _ h => (address_ok h).2)
    (fun _ _ _ h => (address_ok h).1) _ _ _ _ h10
  obtain ⟨f11, e11⟩ := cos_ok h11
  obtain ⟨f12, e12⟩ := cos_ok h12
  refine ⟨⟨f1, f2, f3, ?_, f8, ?_, f10, f11, f12⟩, ?_⟩
  · have := na.toNat_lt; simp only; omega
  · have := nd.toNat_lt; simp only; omega
  · rw [e1, e2, e3, e4, e5, e6, e7, e8, e9, e10, e11, e12]
    simp [Credential.build, Credential.new, l8, l10]

theorem credential_exact : Exact Credential.parse Credential.build :=
  fun _ _ _ h => (credential_ok h).2
theorem credential_suffix : Suffix Credential.parse :=
  fun _ _ _ h => ⟨_, (credential_ok h).2⟩

/-! ### stability and absence of panics -/

theorem keyBlock_stable : Stable KeyBlock.parse :=
  beU16_stable.bind fun _ => beU16_stable.bind fun _ => lengthData16_stable.bind fun _ =>
    Stable.pure _
theorem address_stable : Stable Address.parse :=
  beU16_stable.bind fun _ => lengthData32_stable.bind fun _ => Stable.pure _
theorem times_stable : Stable Times.parse :=
  beU32_stable.bind fun _ => beU32_stable.bind fun _ => beU32_stable.bind fun _ =>
    beU32_stable.bind fun _ => Stable.pure _
theorem deltaTime_stable : Stable DeltaTime.parse :=
  beU32_stable.bind fun _ => beU32_stable.bind fun _ => Stable.pure _
theorem header_stable : Stable Header.parse :=
  beU16_stable.bind fun _ => lengthData16_stable.bind fun _ => Stable.pure _
theorem principal_stable : Stable Principal.parse :=
  beU32_stable.bind fun _ => beU32_stable.bind fun _ => lengthData32_stable.bind fun _ =>
    (manyN_stable lengthData32_stable _).bind fun _ => Stable.pure _
theorem credential_stable : Stable Credential.parse :=
  principal_stable.bind fun _ => principal_stable.bind fun _ => keyBlock_stable.bind fun _ =>
  times_stable.bind fun _ => beU8_stable.bind fun _ => beU32_stable.bind fun _ =>
  beU32_stable.bind fun _ => (manyN_stable address_stable _).bind fun _ =>
  beU32_stable.bind fun _ => (manyN_stable address_stable _).bind fun _ =>
  lengthData32_stable.bind fun _ => lengthData32_stable.bind fun _ => Stable.pure _

theorem keyBlock_noPanic : NoPanic KeyBlock.parse :=
  beU16_noPanic.bind fun _ => beU16_noPanic.bind fun _ => lengthData16_noPanic.bind fun _ =>
    NoPanic.pure _
theorem address_noPanic : NoPanic Address.parse :=
  beU16_noPanic.bind fun _ => lengthData32_noPanic.bind fun _ => NoPanic.pure _
theorem times_noPanic : NoPanic Times.parse :=
  beU32_noPanic.bind fun _ => beU32_noPanic.bind fun _ => beU32_noPanic.bind fun _ =>
    beU32_noPanic.bind fun _ => NoPanic.pure _
theorem deltaTime_noPanic : NoPanic DeltaTime.parse :=
  beU32_noPanic.bind fun _ => beU32_noPanic.bind fun _ => NoPanic.pure _
theorem header_noPanic : NoPanic Header.parse :=
  beU16_noPanic.bind fun _ => lengthData16_noPanic.bind fun _ => NoPanic.pure _
theorem principal_noPanic : NoPanic Principal.parse :=
  beU32_noPanic.bind fun _ => beU32_noPanic.bind fun _ => lengthData32_noPanic.bind fun _ =>
    (manyN_noPanic lengthData32_noPanic _).bind fun _ => NoPanic.pure _
theorem credential_noPanic : NoPanic Credential.parse :=
  principal_noPanic.bind fun _ => principal_noPanic.bind fun _ => keyBlock_noPanic.bind fun _ =>
  times_noPanic.bind fun _ => beU8_noPanic.bind fun _ => beU32_noPanic.bind fun _ =>
  beU32_noPanic.bind fun _ => (manyN_noPanic address_noPanic _).bind fun _ =>
  beU32_noPanic.bind fun _ => (manyN_noPanic address_noPanic _).bind fun _ =>
  lengthData32_noPanic.bind fun _ => lengthData32_noPanic.bind fun _ => NoPanic.pure _

/-! ### the whole cache -/

/-- The fixed part of a cache file: everything before the credentials. -/
def CCache.pre (c : CCache) : Bytes :=
  be16 c.file_format_version ++ be16 (UInt16.ofNat c.header.build.length) ++ c.header.build
    ++ c.primary_principal.build

theorem build_eq (c : CCache) : c.build = c.pre ++ c.credentials.flatMap Credential.build := rfl

/-- Parser of the fixed part. -/
def preParse : Parser (Header × Principal) := do
  let _ ← tagC [0x05, 0x04]
  let _ ← beU16
  let header ← Header.parse
  let primary_principal ← Principal.parse
  return (header, primary_principal)

theorem parse_eq (i : Bytes) : CCache.parse i =
    (preParse >>= fun hp => many0 Credential.parse >>= fun cs =>
      pure (CCache.new hp.1 hp.2 cs)) i := by
  unfold CCache.parse preParse
  simp only [bind_def, pure_def]
  cases tagC [5, 4] i with
  | error e => rfl
  | ok v =>
    simp only
    cases beU16 v.2 with
    | error e => rfl
    | ok v =>
      simp only
      cases Header.parse v.2 with
      | error e => rfl
      | ok v =>
        simp only
        cases Principal.parse v.2 with
        | error e => rfl
        | ok v => rfl

theorem preParse_stable : Stable preParse :=
  (tagC_stable _).bind fun _ => beU16_stable.bind fun _ => header_stable.bind fun _ =>
    principal_stable.bind fun _ => Stable.pure _
theorem preParse_noPanic : NoPanic preParse :=
  (tagC_noPanic _).bind fun _ => beU16_noPanic.bind fun _ => header_noPanic.bind fun _ =>
    principal_noPanic.bind fun _ => NoPanic.pure _

theorem preParse_reads {c : CCache} (h : c.Fits) :
    Reads preParse c.pre (c.header, c.primary_principal) := by
  obtain ⟨h1, h2, h3, _⟩ := h
  refine (tagC_reads _).seq ((beU16_reads (UInt16.ofNat c.header.build.length)).seq ((header_reads h2).seq
    ((principal_reads h3).seq (Reads.pure _) rfl) rfl) rfl) ?_
  simp [CCache.pre, h1]; rfl

theorem preParse_ok {i hp r} (h : preParse i = .ok (hp, r)) :
    hp.1.Fits ∧ hp.2.Fits ∧ ∃ n : UInt16,
      i = [5, 4] ++ be16 n ++ hp.1.build ++ hp.2.build ++ r := by
  unfold preParse at h
  simp only [bind_ok, pure_ok] at h
  obtain ⟨t, r1, h1, n, r2, h2, hd, r3, h3, p, r4, h4, rfl, rfl⟩ := h
  obtain ⟨f3, e3⟩ := header_ok h3
  obtain ⟨f4, e4⟩ := principal_ok h4
  exact ⟨f3, f4, n, by rw [tagC_ok h1, beU16_exact _ _ _ h2, e3, e4]; simp⟩

theorem many0_nil : many0 Credential.parse [] = .ok ([], []) := by
  rw [many0_unfold credential_suffix]; rfl

theorem creds_reads (cs : List Credential) (h : ∀ c ∈ cs, c.Fits) (rest : Bytes) :
    many0 Credential.parse (cs.flatMap Credential.build ++ rest) =
      match many0 Credential.parse rest with
      | .error e => .error e
      | .ok (cs', r') => .ok (cs ++ cs', r') := by
  rw [many0_reads (b := Credential.build) credential_suffix cs rest
    (fun c hc => credential_reads (h c hc)) (fun c _ => c.build_ne)]
  cases many0 Credential.parse rest <;> rfl

end Verif.CC
