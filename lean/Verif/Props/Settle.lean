import Verif.Props.KrbCred
/-
Property theorems C99: converting between cache and KRB-CRED back and forth settles after one step.
-/
namespace Verif.Map
open Verif.Asn1

/-! ### Specification -/

/-- a cache converted to a message and that converted to a cache, `n` times -/
def roundTrips (X : Ext) (g : Cfg) : Nat → CC.CCache → Except ConvertError CC.CCache
  | 0, c => .ok c
  | n + 1, c => do
    let k ← ccacheToKrbCred g c
    let c' ← krbCredToCcache X g k
    roundTrips X g n c'

/-- the cache can be in memory as a message: the encoded infos and each ticket have a 64-bit length -/
def InMemory (g : Cfg) (c : CC.CCache) : Prop :=
  (∀ d ∈ c.credentials, d.ticket.length < 2^64) ∧ ∀ k, ccacheToKrbCred g c = .ok k → k.enc_part.cipher.length < 2^64

/-! ### Lemmas -/

/-- a credential as a conversion leaves it -/
structure Normal (g : Cfg) (d : CC.Credential) : Prop where
  key : d.key.etype = 0
  is_skey : d.is_skey = 0
  authdata : d.authdata = []
  second_ticket : d.second_ticket = []
  ticket : ∃ t, d.ticket = MsgType.build g .ticket t
  addrs : ∀ a ∈ d.addrs, a.addrtype = 20 → ∃ s, a.addrdata = utf8 s ∧ NoTrailingSpace s

theorem forall₂_mem_right {α β} {R : α → β → Prop} {l : List α} {l' : List β} (h : List.Forall₂ R l l') :
    ∀ b ∈ l', ∃ a ∈ l, R a b := by
  induction h with
  | nil => intro b hb; cases hb
  | cons h1 _ ih =>
    intro b hb
    rcases List.mem_cons.1 hb with rfl | hb
    · exact ⟨_, by simp, h1⟩
    · obtain ⟨a, ha, hr⟩ := ih b hb
      exact ⟨a, by simp [ha], hr⟩

theorem forall₂_eq {α} {R : α → α → Prop} {l l' : List α} (h : List.Forall₂ R l l')
    (he : ∀ a ∈ l, ∀ b, R a b → b = a) : l' = l := by
  induction h with
  | nil => rfl
  | cons h1 _ ih => rw [he _ (by simp) _ h1, ih (fun a ha b hb => he a (by simp [ha]) b hb)]

theorem Kept.normal {g d d'} (h : Kept g d d') : Normal g d' := by
  refine ⟨by rw [h.key], h.is_skey, h.authdata, h.second_ticket, ?_, ?_⟩
  · obtain ⟨t, -, -, h2⟩ := h.ticket
    exact ⟨t, h2⟩
  · intro a' ha' ht
    by_cases hr : NetbiosReadable d.addrs
    · obtain ⟨a, ha, h1, -, h3⟩ := forall₂_mem_right (h.addrs hr) a' ha'
      rw [ht] at h1
      obtain ⟨s, hs⟩ := hr a ha h1.symm
      exact ⟨trimEnd s, h3 s h1.symm hs, trimEnd_no_trailing s⟩
    · rw [h.bad_addrs hr] at ha'; cases ha'

theorem Normal.kept {g d d'} (hn : Normal g d) (h : Kept g d d') (hs : d.ticket.length < 2^64) : d' = d := by
  obtain ⟨t, ht⟩ := hn.ticket
  have h1 := c17_ticket_unchanged g d d' h t ht hs
  have hr : NetbiosReadable d.addrs := fun a ha h20 => by
    obtain ⟨s, h, -⟩ := hn.addrs a ha h20
    exact ⟨s, h⟩
  have h2 : d'.addrs = d.addrs := forall₂_eq (h.addrs hr) (by
    rintro a ha b ⟨hb1, hb2, hb3⟩
    by_cases h20 : a.addrtype = 20
    · obtain ⟨s, e1, e2⟩ := hn.addrs a ha h20
      have := hb3 s h20 e1
      rw [trimEnd_noTrailing e2, ← e1] at this
      cases a; cases b; simp_all
    · exact hb2 h20)
  have h3 : d'.key = d.key := by
    rw [h.key]
    have := hn.key
    cases hk : d.key
    rw [hk] at this
    simp_all
  have e1 := h.client; have e2 := h.server; have e3 := h.time; have e4 := h.tktflags
  have e5 := h.is_skey.trans hn.is_skey.symm
  have e6 := h.authdata.trans hn.authdata.symm
  have e7 := h.second_ticket.trans hn.second_ticket.symm
  cases d; cases d'
  simp_all

theorem toCredential_normal {X g i t c} (h : toCredential X g i t = .ok c)
    (ha : ∀ l, i.caddr = some l → ∀ x ∈ l, 0 ≤ x.addr_type.toInt ∧ x.addr_type.toInt ≤ 65535) : Normal g c := by
  obtain ⟨pr, pn, sr, sn, fl, -, -, -, -, -, rfl⟩ := toCredential_ok.1 h
  refine ⟨rfl, rfl, rfl, rfl, ⟨t, rfl⟩, ?_⟩
  intro a ham h20
  dsimp only at ham
  cases hc : i.caddr with
  | none => rw [hc] at ham; cases ham
  | some l =>
    rw [hc] at ham
    obtain ⟨x, hx, rfl⟩ := List.mem_map.1 ham
    obtain ⟨b1, b2⟩ := ha l hc x hx
    have h20 : i32AsU16 x.addr_type = 20 := h20
    have : x.addr_type = netbios := by
      rw [← u16AsI32_i32AsU16_eq b1 (by omega), h20]; rfl
    refine ⟨trimEnd (X.lossy x.address), ?_, trimEnd_no_trailing _⟩
    unfold toAddress
    rw [if_pos this]

/-- what conversion to a message and back does to a cache in the settled form -/
theorem settled {X g} {c c' : CC.CCache} {k : KrbCred} (hc : ∀ d ∈ c.credentials, Normal g d)
    (hv : c.file_format_version = 0x0504) (hh : c.header = ⟨1, [0xff, 0xff, 0xff, 0xff, 0, 0, 0, 0]⟩)
    (hp : (c.credentials.head?).map (·.client) = some c.primary_principal)
    (h : ccacheToKrbCred g c = .ok k) (h' : krbCredToCcache X g k = .ok c') (hm : InMemory g c) : c' = c := by
  have hne : c.credentials ≠ [] := fun hne => by rw [hne] at hp; cases hp
  obtain ⟨c2, e1, e2, e3, e4, e5⟩ := c17_roundtrip X g c k h hne (hm.2 k h)
  rw [h'] at e1; injection e1 with e1; subst e1
  have e6 : c'.credentials = c.credentials :=
    forall₂_eq e2 (fun d hd d' hk => (hc d hd).kept hk (hm.1 d hd))
  rw [hp] at e5; injection e5 with e5
  have e7 := e4.trans hv.symm
  have e8 := e3.trans hh.symm
  cases c; cases c'
  simp_all

/-! ### C99 -/

/-- C99. After a cache was converted to a message and back, a further conversion to a message succeeds and gives the same
cache back: whatever the first conversion loses, nothing more is lost. -/
theorem c99_once (X : Ext) (g : Cfg) (c c1 : CC.CCache) (k : KrbCred) (h : ccacheToKrbCred g c = .ok k)
    (h1 : krbCredToCcache X g k = .ok c1) (hm : InMemory g c) (hm1 : InMemory g c1) :
    ∃ k1, ccacheToKrbCred g c1 = .ok k1 ∧ krbCredToCcache X g k1 = .ok c1 := by
  have hne : c.credentials ≠ [] := by
    intro hne
    obtain ⟨k', h2, -, h3⟩ := c17_empty X g c hne
    rw [h] at h2; injection h2 with h2; subst h2
    rw [h1] at h3; cases h3
  obtain ⟨c2, e1, e2, e3, e4, e5⟩ := c17_roundtrip X g c k h hne (hm.2 k h)
  rw [h1] at e1; injection e1 with e1; subst e1
  have hn : ∀ d ∈ c1.credentials, Normal g d := fun d hd => by
    obtain ⟨a, -, hk⟩ := forall₂_mem_right e2 d hd
    exact hk.normal
  have hconv : ∃ k1, ccacheToKrbCred g c1 = .ok k1 := by
    rw [c17_converts_iff]
    intro d hd
    obtain ⟨a, ha, hk⟩ := forall₂_mem_right e2 d hd
    obtain ⟨r1, r2, -⟩ := (c17_converts_iff g c).1 ⟨k, h⟩ a ha
    refine ⟨by rw [hk.client]; exact r1, by rw [hk.server]; exact r2, ?_⟩
    obtain ⟨t, -, -, ht⟩ := hk.ticket
    have hl := hm1.1 d hd
    rw [ht] at hl ⊢
    have hp := c39_roundtrip g .ticket t trivial hl []
    rw [List.append_nil] at hp
    exact ⟨t, [], hp⟩
  obtain ⟨k1, hk1⟩ := hconv
  refine ⟨k1, hk1, ?_⟩
  have hpr := (c20_primary X g k c1 h1).2.1
  have hne1 : c1.credentials ≠ [] := fun hne => by rw [hne] at hpr; cases hpr
  obtain ⟨c2, f1, -⟩ := c17_roundtrip X g c1 k1 hk1 hne1 (hm1.2 k1 hk1)
  rw [f1, settled hn e4 e3 hpr hk1 f1 hm1]

/-- C99. Any number of conversions back and forth, at least one, has the result of the first. -/
theorem c99_any_number (X : Ext) (g : Cfg) (c c1 : CC.CCache) (h : roundTrips X g 1 c = .ok c1) (hm : InMemory g c)
    (hm1 : InMemory g c1) (n : Nat) : roundTrips X g (n + 1) c = .ok c1 := by
  have hstep : ∀ (m : Nat) (c : CC.CCache) (k : KrbCred) (c' : CC.CCache), ccacheToKrbCred g c = .ok k →
      krbCredToCcache X g k = .ok c' → roundTrips X g (m + 1) c = roundTrips X g m c' := by
    intro m c k c' h1 h2
    show (ccacheToKrbCred g c >>= fun k => krbCredToCcache X g k >>= fun c' => roundTrips X g m c') = _
    rw [h1]
    show (krbCredToCcache X g k >>= fun c' => roundTrips X g m c') = _
    rw [h2]; rfl
  obtain ⟨k, hk, hc⟩ : ∃ k, ccacheToKrbCred g c = .ok k ∧ krbCredToCcache X g k = .ok c1 := by
    have h : (ccacheToKrbCred g c >>= fun k => krbCredToCcache X g k >>= fun c' => Except.ok c') = .ok c1 := h
    cases hk : ccacheToKrbCred g c with
    | error e => rw [hk] at h; cases h
    | ok k =>
      rw [hk] at h
      have h : (krbCredToCcache X g k >>= fun c' => Except.ok c') = .ok c1 := h
      refine ⟨k, rfl, ?_⟩
      cases hc : krbCredToCcache X g k with
      | error e => rw [hc] at h; cases h
      | ok c' => rw [hc] at h; exact h
  obtain ⟨k1, hk1, hc1⟩ := c99_once X g c c1 k hk hc hm hm1
  rw [hstep n c k c1 hk hc]
  induction n with
  | zero => rfl
  | succ n ih => rw [hstep n c1 k1 c1 hk1 hc1]; exact ih

/-- C99. Starting from a message whose address types are 16-bit numbers (the standard's are): if the cache made of it
converts back, the message obtained gives the same cache again. -/
theorem c99_message (X : Ext) (g : Cfg) (k k1 : KrbCred) (c : CC.CCache) (p : EncKrbCredPart) (rest : Bytes)
    (hp : MsgType.parse g .encKrbCredPart k.enc_part.cipher = .ok (p, rest))
    (ha : ∀ i ∈ p.ticket_info, ∀ l, i.caddr = some l → ∀ x ∈ l, 0 ≤ x.addr_type.toInt ∧ x.addr_type.toInt ≤ 65535)
    (h : krbCredToCcache X g k = .ok c) (h1 : ccacheToKrbCred g c = .ok k1) (hm : InMemory g c) :
    krbCredToCcache X g k1 = .ok c := by
  obtain ⟨-, hpr, hv, hh⟩ := c20_primary X g k c h
  have hne : c.credentials ≠ [] := fun hne => by rw [hne] at hpr; cases hpr
  obtain ⟨c2, f1, -⟩ := c17_roundtrip X g c k1 h1 hne (hm.2 k1 h1)
  have hn : ∀ d ∈ c.credentials, Normal g d := by
    obtain ⟨-, p', rest', hp', i, is, t, ts, r, n, cs, e1, e2, -, -, e5, rfl⟩ := krbCredToCcache_inv h
    have hp' : MsgType.parse g .encKrbCredPart k.enc_part.cipher = .ok (p', rest') := hp'
    rw [hp] at hp'; injection hp' with hp'; injection hp' with hp' _; subst hp'
    intro d hd
    obtain ⟨it, hit, hd'⟩ := forall₂_mem_right (toCredentials_ok.1 e5) d hd
    refine toCredential_normal hd' (ha it.1 ?_)
    rw [e1]
    exact (List.of_mem_zip hit).1
  rw [f1, settled hn hv hh hpr h1 f1 hm]

/-! ### Examples -/

/-- a cache entry with everything a conversion changes: second type field, is_skey, authdata, second ticket, white space
at the end of a NetBIOS name, another address -/
def unsettledEntry : CC.Credential where
  client := ⟨1, utf8 "KINGDOM.HEARTS".toList, [utf8 "mickey".toList]⟩
  server := ⟨2, utf8 "KINGDOM.HEARTS".toList, [utf8 "krbtgt".toList, utf8 "KINGDOM.HEARTS".toList]⟩
  key := ⟨18, 7, [1, 2, 3]⟩
  time := ⟨1555567231, 0, 4294967295, 1⟩
  is_skey := 1
  tktflags := 0x40e10000
  addrs := [⟨20, utf8 "HOLLOW\t ".toList⟩, ⟨2, [10, 0, 0, 1]⟩]
  authdata := [⟨1, [5]⟩]
  ticket := MsgType.build strictCfg .ticket exTicket
  second_ticket := [9]

/-- a cache that a conversion changes -/
def unsettled : CC.CCache := CC.CCache.new ⟨1, [1, 2, 3, 4, 5, 6, 7, 8]⟩ ⟨1, utf8 "R".toList, [utf8 "owner".toList]⟩ [unsettledEntry]

-- the conversion changes it, and the next one does not
example : (match roundTrips exExt strictCfg 1 unsettled with
    | .ok c1 => decide (c1 ≠ unsettled) && decide (roundTrips exExt strictCfg 3 unsettled = .ok c1)
    | .error _ => false) = true := by decide +kernel

theorem inMemory_of {g : Cfg} {c : CC.CCache} (h1 : ∀ d ∈ c.credentials, d.ticket.length < 2^64)
    (h2 : (match ccacheToKrbCred g c with
      | .ok k => decide (k.enc_part.cipher.length < 2^64)
      | .error _ => true) = true) : InMemory g c := by
  refine ⟨h1, fun k hk => ?_⟩
  rw [hk] at h2
  exact of_decide_eq_true h2

/-- what the conversion makes of it -/
def settledCache : CC.CCache := (roundTrips exExt strictCfg 1 unsettled).toOption.getD unsettled

/-- the theorem applied -/
example (n : Nat) : roundTrips exExt strictCfg (n + 1) unsettled = .ok settledCache :=
  c99_any_number exExt strictCfg unsettled settledCache (by decide +kernel)
    (inMemory_of (by decide +kernel) (by decide +kernel)) (inMemory_of (by decide +kernel) (by decide +kernel)) n

/-- the address type 65556 is stored as 20: the next conversion takes the address for a NetBIOS name and trims it, so the
condition of `c99_message` is needed -/
def wideType : KrbCred :=
  ⟨5, 22, [exTicket], ⟨0, none, MsgType.build strictCfg .encKrbCredPart
    ⟨[{ exInfo with caddr := some [⟨65556, [65, 32]⟩] }], none, none, none, none, none⟩⟩⟩

example : (do
      let c ← krbCredToCcache exExt strictCfg wideType
      let c' ← krbCredToCcache exExt strictCfg (← ccacheToKrbCred strictCfg c)
      return (c.credentials.map CC.Credential.addrs, c'.credentials.map CC.Credential.addrs))
    = (.ok ([[⟨20, [65, 32]⟩]], [[⟨20, [65]⟩]]) : Except ConvertError (List (List CC.Address) × List (List CC.Address))) := by decide +kernel

end Verif.Map
