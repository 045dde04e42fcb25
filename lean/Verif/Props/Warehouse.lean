import Verif.WarehouseModel
import Verif.Props.KrbCred
import Verif.Props.CCache
/-
Property theorems C25: credential warehouses and their files.
-/
set_option linter.unusedSimpArgs false
namespace Verif.Kb
open Verif.Asn1 Verif.Map

/-! ### Specification -/

/-- what a time becomes in a cache file: whole seconds modulo 2^32 -/
def wrap (t : DateTime) : DateTime := ⟨t.secs % 2^32, 0⟩

/-- `c'` is what is left of `c` after saving and loading -/
structure Reloaded (c c' : Credential) : Prop where
  crealm : c'.crealm = c.crealm
  cname : c'.cname = c.cname
  ticket : c'.ticket = c.ticket
  srealm : c'.client_part.srealm = c.client_part.srealm
  sname : c'.client_part.sname = c.client_part.sname
  keytype : c'.client_part.key.keytype.toInt = c.client_part.key.keytype.toInt % 65536
  keyvalue : c'.client_part.key.keyvalue = c.client_part.key.keyvalue
  flags : c'.client_part.flags = c.client_part.flags
  authtime : c'.client_part.authtime = wrap c.client_part.authtime
  starttime : c'.client_part.starttime = some (wrap (c.client_part.starttime.getD c.client_part.authtime))
  endtime : c'.client_part.endtime = wrap c.client_part.endtime
  renew_till : c'.client_part.renew_till = (c.client_part.renew_till.map wrap).filter (·.secs ≠ 0)
  caddr_none : c.client_part.caddr.getD [] = [] → c'.client_part.caddr = none
  caddr_some : ∀ l, c.client_part.caddr = some l → l ≠ [] →
    (∀ h ∈ l, 0 ≤ h.addr_type.toInt ∧ h.addr_type.toInt ≤ 65535 ∧ (h.addr_type = 20 → IsUtf8 h.address)) →
    ∃ l', c'.client_part.caddr = some l' ∧ List.Forall₂ (fun h h' => h'.addr_type = h.addr_type ∧
      (h.addr_type ≠ 20 → h'.address = h.address) ∧
      (∀ s, h.addr_type = 20 → h.address = utf8 s → h'.address = utf8 (paddNetbiosString (trimEnd s)))) l l'
  pa_none : c.client_part.encrypted_pa_data.getD [] = [] → c'.client_part.encrypted_pa_data = none
  pa_some : ∀ l, c.client_part.encrypted_pa_data = some l → l ≠ [] → ∃ l', c'.client_part.encrypted_pa_data = some l' ∧
    List.Forall₂ (fun p p' => p'.padata_type.toInt = p.padata_type.toInt % 65536 ∧ p'.padata_value = p.padata_value) l l'
  last_req : c'.client_part.last_req = []
  nonce : c'.client_part.nonce = 0
  key_expiration : c'.client_part.key_expiration = none

/-- no name without components -/
def Named (c : Credential) : Prop := c.cname.name_string ≠ [] ∧ c.client_part.sname.name_string ≠ []

/-- a whole second between 1970 and 2106 -/
def CacheableTime (t : DateTime) : Prop := 0 ≤ t.secs ∧ t.secs < 2^32 ∧ t.nanos = 0

/-- everything in the credential that goes to the file has a form there -/
structure Cacheable (c : Credential) : Prop where
  named : Named c
  keytype : 0 ≤ c.client_part.key.keytype.toInt ∧ c.client_part.key.keytype.toInt ≤ 65535
  authtime : CacheableTime c.client_part.authtime
  starttime : ∀ t, c.client_part.starttime = some t → CacheableTime t
  endtime : CacheableTime c.client_part.endtime
  renew_till : ∀ t, c.client_part.renew_till = some t → CacheableTime t ∧ t.secs ≠ 0
  caddr : ∀ l, c.client_part.caddr = some l → l ≠ [] ∧ ∀ h ∈ l, FitsAddress h
  pa : ∀ l, c.client_part.encrypted_pa_data = some l →
    l ≠ [] ∧ ∀ p ∈ l, 0 ≤ p.padata_type.toInt ∧ p.padata_type.toInt ≤ 65535

/-- the documented losses of a cacheable credential -/
def reset (c : Credential) : Credential :=
  { c with client_part := { c.client_part with
      last_req := [], nonce := 0, key_expiration := none,
      starttime := some (c.client_part.starttime.getD c.client_part.authtime) } }

/-! ### Lemmas -/

theorem ofU32_timestamp (t : DateTime) : ofU32 (timestampU32 t) = wrap t := by
  unfold ofU32 wrap
  rw [timestampU32_toNat]

theorem fromTimes_toTimes (a : DateTime) (s : Option DateTime) (e : DateTime) (r : Option DateTime) :
    fromTimes (toTimes a s e r) = (wrap a, wrap (s.getD a), wrap e, (r.map wrap).filter (·.secs ≠ 0)) := by
  have hs : ofU32 (toTimes a s e r).starttime = wrap (s.getD a) := by
    cases s <;> exact ofU32_timestamp _
  have hr : (if (toTimes a s e r).renew_till = 0 then none else some (ofU32 (toTimes a s e r).renew_till))
      = (r.map wrap).filter (·.secs ≠ 0) := by
    cases r with
    | none => rfl
    | some t =>
      have h := timestampU32_toNat t
      show (if timestampU32 t = 0 then none else some (ofU32 (timestampU32 t))) = (some (wrap t)).filter _
      rw [ofU32_timestamp]
      by_cases h0 : timestampU32 t = 0
      · rw [if_pos h0]
        rw [h0] at h
        have : (wrap t).secs = 0 := by
          show t.secs % 2^32 = 0
          rw [← h]; rfl
        simp [Option.filter, this]
      · rw [if_neg h0]
        have : (wrap t).secs ≠ 0 := by
          show t.secs % 2^32 ≠ 0
          rw [← h]
          intro he
          apply h0
          have he' : (timestampU32 t).toNat = 0 := by omega
          rw [← UInt32.toNat_inj]; exact he'
        simp [Option.filter, this]
  unfold fromTimes
  rw [hs, hr]
  show (ofU32 (timestampU32 a), _, ofU32 (timestampU32 e), _) = _
  rw [ofU32_timestamp, ofU32_timestamp]

theorem wrap_cacheable {t : DateTime} (h : CacheableTime t) : wrap t = t := by
  obtain ⟨secs, nanos⟩ := t
  obtain ⟨h0, h1, h2⟩ := h
  dsimp only at h0 h1 h2
  subst h2
  show (⟨secs % 2^32, 0⟩ : DateTime) = ⟨secs, 0⟩
  rw [Int.emod_eq_of_lt h0 h1]

/-- what loading makes of a saved credential -/
def afterFile (X : Ext) (c : Credential) : Credential :=
  let p := c.client_part
  { c with client_part := {
      key := fromKeyBlock (toKeyBlock p.key), last_req := [], nonce := 0, key_expiration := none, flags := p.flags
      authtime := wrap p.authtime, starttime := some (wrap (p.starttime.getD p.authtime)), endtime := wrap p.endtime
      renew_till := (p.renew_till.map wrap).filter (·.secs ≠ 0), srealm := p.srealm, sname := p.sname
      caddr := (fromAddresses ((p.caddr.getD []).map (toAddress X))).toOption
      encrypted_pa_data := if (p.encrypted_pa_data.getD []).isEmpty then none
        else some ((p.encrypted_pa_data.getD []).map (fun x => fromAuthData (toAuthData x))) } }

theorem toEntry_eq (X : Ext) (g : Cfg) (c : Credential) : c.toEntry X g =
    { client := toPrincipal c.crealm c.cname, server := toPrincipal c.client_part.srealm c.client_part.sname,
      key := toKeyBlock c.client_part.key,
      time := toTimes c.client_part.authtime c.client_part.starttime c.client_part.endtime c.client_part.renew_till,
      is_skey := 0, tktflags := c.client_part.flags, addrs := (c.client_part.caddr.getD []).map (toAddress X),
      authdata := (c.client_part.encrypted_pa_data.getD []).map toAuthData, ticket := MsgType.build g .ticket c.ticket,
      second_ticket := [] } := by
  obtain ⟨crealm, cname, ticket, p⟩ := c
  obtain ⟨key, lr, nonce, ke, fl, a, s, e, r, sr, sn, caddr, pa⟩ := p
  cases caddr <;> cases pa <;> rfl

theorem ofEntry_toEntry {X g} {c : Credential} (h : Named c) (hs : (MsgType.build g .ticket c.ticket).length < 2^64) :
    Credential.ofEntry g (c.toEntry X g) = .ok (afterFile X c) := by
  have hp : (ticketC g).dec g (MsgType.build g .ticket c.ticket) = .ok (c.ticket, []) := by
    have := c39_roundtrip g .ticket c.ticket trivial hs []
    rw [List.append_nil] at this; exact this
  rw [toEntry_eq]
  unfold Credential.ofEntry
  simp only [fromTimes_toTimes, c24_roundtrip _ _ h.1, c24_roundtrip _ _ h.2, hp, liftC, liftP, bind, Except.bind, pure,
    Except.pure, fromTktFlags, fromAuthDatas, List.map_map, Function.comp_def, List.isEmpty_map]
  rfl

theorem ofEntry_unnamed {X g} {c : Credential} (h : ¬ Named c) :
    Credential.ofEntry g (c.toEntry X g) = .error .noPrincipalName := by
  have key : ∀ (r : List Char) (n : PrincipalName), n.name_string = [] →
      liftC (fromPrincipal (toPrincipal r n)) = .error .noPrincipalName := by
    intro r n hn
    unfold fromPrincipal
    simp [toPrincipal, hn, decodeNames, bind, Except.bind, liftC, KErr.ofConvert]
  rw [toEntry_eq]
  unfold Credential.ofEntry
  by_cases h1 : c.cname.name_string = []
  · simp only [key _ _ h1, bind, Except.bind]
  · have h2 : c.client_part.sname.name_string = [] := by
      apply Classical.byContradiction
      intro hn; exact h ⟨h1, hn⟩
    simp only [key _ _ h2, c24_roundtrip _ _ h1, bind, Except.bind]
    simp [liftC]

theorem reloaded_afterFile (X : Ext) (c : Credential) : Reloaded c (afterFile X c) := by
  refine ⟨rfl, rfl, rfl, rfl, rfl, (c23_key _).2.1, rfl, rfl, rfl, rfl, rfl, rfl, ?_, ?_, ?_, ?_, rfl, rfl, rfl⟩
  · intro h
    show (fromAddresses ((c.client_part.caddr.getD []).map (toAddress X))).toOption = none
    rw [h]; rfl
  · intro l hl hne hf
    have hr : NetbiosReadable (l.map (toAddress X)) := by
      intro a ha h20
      obtain ⟨h, hh, rfl⟩ := List.mem_map.1 ha
      obtain ⟨h0, h1, h2⟩ := hf h hh
      have ht : h.addr_type = 20 := by
        have e1 := (cacheAddress_to X h).1
        rw [h20] at e1
        have e2 : h.addr_type.toInt = 20 := by
          have : ((20 : UInt16).toNat : Int) = 20 := rfl
          omega
        rw [← Int32.toInt_inj]; rw [e2]; rfl
      obtain ⟨s, hs⟩ := h2 ht
      rw [(cacheAddress_to X h).2.2 s ht hs]
      exact ⟨_, rfl⟩
    obtain ⟨hs, e1, e2, -⟩ := (fromAddressLoop_spec (l.map (toAddress X))).1 hr
    refine ⟨hs, ?_, ?_⟩
    · show (fromAddresses ((c.client_part.caddr.getD []).map (toAddress X))).toOption = some hs
      rw [hl]
      show (fromAddresses (l.map (toAddress X))).toOption = some hs
      cases l with
      | nil => exact absurd rfl hne
      | cons a l => rw [List.map_cons, fromAddresses_cons, ← List.map_cons, e1]; rfl
    · rw [List.forall₂_map_left_iff] at e2
      refine (List.forall₂_iff_get.2 ⟨e2.length_eq, ?_⟩)
      intro n h1 h2
      have hm := (List.forall₂_iff_get.1 e2).2 n h1 h2
      have hb := hf (l.get ⟨n, h1⟩) (List.get_mem ..)
      generalize l.get ⟨n, h1⟩ = h at hm hb ⊢
      generalize hs.get ⟨n, h2⟩ = h' at hm ⊢
      obtain ⟨b0, b1, b2⟩ := hb
      obtain ⟨c1, c2, c3⟩ := cacheAddress_to X h
      obtain ⟨m1, m2, m3⟩ := hm
      generalize toAddress X h = a at c1 c2 c3 m1 m2 m3
      have he : h'.addr_type = h.addr_type := by rw [← Int32.toInt_inj]; omega
      have h20 : a.addrtype = 20 ↔ h.addr_type = 20 := by
        constructor
        · intro e
          rw [← Int32.toInt_inj]
          rw [e] at c1
          have : ((20 : UInt16).toNat : Int) = 20 := rfl
          have : (20 : Int32).toInt = 20 := rfl
          omega
        · intro e
          rw [← UInt16.toNat_inj]
          rw [e] at c1
          have : ((20 : UInt16).toNat) = 20 := rfl
          have : (20 : Int32).toInt = 20 := rfl
          omega
      refine ⟨he, ?_, ?_⟩
      · intro hn
        rw [m2 (fun e => hn (h20.1 e)), c2 hn]
      · intro s hx hs
        exact m3 _ (h20.2 hx) (c3 s hx hs)
  · intro h
    show (if (c.client_part.encrypted_pa_data.getD []).isEmpty then none else _) = none
    rw [h]; rfl
  · intro l hl hne
    refine ⟨l.map (fun x => fromAuthData (toAuthData x)), ?_, ?_⟩
    · show (if (c.client_part.encrypted_pa_data.getD []).isEmpty then none else _) = _
      rw [hl]
      show (if l.isEmpty = true then none else _) = _
      rw [if_neg (by simpa using hne)]; rfl
    · rw [List.forall₂_map_right_iff]
      exact List.forall₂_same.2 (fun p _ => ⟨(c23_authdata p).2.1, (c23_authdata p).1⟩)

theorem afterFile_cacheable {X : Ext} {c : Credential} (h : Cacheable c) : afterFile X c = reset c := by
  obtain ⟨-, h1, h2, h3, h4, h5, h6, h7⟩ := h
  obtain ⟨crealm, cname, ticket, p⟩ := c
  obtain ⟨key, lr, nonce, ke, fl, a, s, e, r, sr, sn, caddr, pa⟩ := p
  dsimp only at h1 h2 h3 h4 h5 h6 h7
  have ek := (c23_key key).2.2.2 h1
  have es : wrap (s.getD a) = s.getD a := by
    cases s with
    | none => exact wrap_cacheable h2
    | some t => exact wrap_cacheable (h3 t rfl)
  have er : (r.map wrap).filter (·.secs ≠ 0) = r := by
    cases r with
    | none => rfl
    | some t =>
      obtain ⟨x, y⟩ := h5 t rfl
      show (some (wrap t)).filter _ = _
      rw [wrap_cacheable x]
      simp [Option.filter, y]
  have ea : (fromAddresses ((caddr.getD []).map (toAddress X))).toOption = caddr := by
    cases caddr with
    | none => rfl
    | some l =>
      obtain ⟨hne, hl⟩ := h6 l rfl
      cases l with
      | nil => exact absurd rfl hne
      | cons a l =>
        show (fromAddresses (toAddress X a :: l.map (toAddress X))).toOption = _
        rw [fromAddresses_cons, ← List.map_cons, fromAddressLoop_fits hl]
        rfl
  have ep : (if (pa.getD []).isEmpty then none else some ((pa.getD []).map (fun x => fromAuthData (toAuthData x)))) = pa := by
    cases pa with
    | none => rfl
    | some l =>
      obtain ⟨hne, hl⟩ := h7 l rfl
      show (if l.isEmpty = true then none else _) = _
      rw [if_neg (by simpa using hne)]
      show some (l.map _) = _
      congr 1
      rw [List.map_congr_left (fun x hx => (c23_authdata x).2.2.2 (hl x hx)), List.map_id']
  unfold afterFile reset
  simp only [ek, wrap_cacheable h2, wrap_cacheable h4, es, er, ea, ep]

theorem ofEntries_map {X g} {l : List Credential} (h : ∀ c ∈ l, Named c)
    (hs : ∀ c ∈ l, (MsgType.build g .ticket c.ticket).length < 2^64) :
    ofEntries g (l.map (Credential.toEntry X g)) = .ok (l.map (afterFile X)) := by
  induction l with
  | nil => rfl
  | cons c l ih =>
    rw [List.map_cons, ofEntries, ofEntry_toEntry (h c (List.mem_cons_self ..)) (hs c (List.mem_cons_self ..)),
      ih (fun x hx => h x (List.mem_cons_of_mem _ hx)) (fun x hx => hs x (List.mem_cons_of_mem _ hx))]
    rfl

theorem ofEntries_unnamed {X g} {l : List Credential} (h : ∃ c ∈ l, ¬ Named c)
    (hs : ∀ c ∈ l, (MsgType.build g .ticket c.ticket).length < 2^64) :
    ofEntries g (l.map (Credential.toEntry X g)) = .error .noPrincipalName := by
  induction l with
  | nil => simp at h
  | cons c l ih =>
    rw [List.map_cons, ofEntries]
    by_cases hc : Named c
    · rw [ofEntry_toEntry hc (hs c (List.mem_cons_self ..)), ih ?_ (fun x hx => hs x (List.mem_cons_of_mem _ hx))]
      · rfl
      · obtain ⟨x, hx, hn⟩ := h
        rcases List.mem_cons.1 hx with rfl | hx
        · exact absurd hc hn
        · exact ⟨x, hx, hn⟩
    · rw [ofEntry_unnamed hc]; rfl

theorem ofCCache_toCCache {X g} {w : Warehouse} (hw : w.client.name_string ≠ []) (h : ∀ c ∈ w.credentials, Named c)
    (hs : ∀ c ∈ w.credentials, (MsgType.build g .ticket c.ticket).length < 2^64) :
    Warehouse.ofCCache g (w.toCCache X g) = .ok ⟨w.credentials.map (afterFile X), w.realm, w.client⟩ := by
  have h1 : fromPrincipal (w.toCCache X g).primary_principal = .ok (w.realm, w.client) := c24_roundtrip _ _ hw
  have h2 : ofEntries g (w.toCCache X g).credentials = .ok (w.credentials.map (afterFile X)) := ofEntries_map h hs
  unfold Warehouse.ofCCache
  rw [h1, h2]
  rfl

theorem fits_tickets {X g} {w : Warehouse} (h : (w.toCCache X g).Fits) :
    ∀ c ∈ w.credentials, (MsgType.build g .ticket c.ticket).length < 2^64 := by
  intro c hc
  have h1 := h.2.2.2 (c.toEntry X g) (List.mem_map_of_mem hc)
  have h2 := h1.2.2.2.2.2.2.2.1
  rw [toEntry_eq] at h2
  unfold CC.CosFits at h2
  dsimp only at h2
  omega

theorem toCCache_take {X g} (w : Warehouse) (j : Nat) :
    { w.toCCache X g with credentials := (w.toCCache X g).credentials.take j }
      = Warehouse.toCCache X g { w with credentials := w.credentials.take j } := by
  show CC.CCache.mk _ _ _ _ = CC.CCache.mk _ _ _ _
  congr 1
  show (w.credentials.map _).take j = (w.credentials.take j).map _
  rw [List.map_take]

theorem forall₂_map_same {α β} {R : α → β → Prop} {f : α → β} (h : ∀ a, R a (f a)) (l : List α) :
    List.Forall₂ R l (l.map f) := by
  rw [List.forall₂_map_right_iff]; exact List.forall₂_same.2 (fun a _ => h a)

theorem loadCCache_ok {g data c rest} (h : CC.CCache.parse data = .ok (c, rest)) :
    loadCCache g data = Warehouse.ofCCache g c := by
  unfold loadCCache; rw [h]

/-! ### C25: saving and loading -/

/-- C25. A warehouse that fits the file format, without empty names, saved and loaded again: same owner, and each
credential changed only as `Reloaded` says. -/
theorem c25_reload (X : Ext) (g : Cfg) (w : Warehouse) (h : (w.toCCache X g).Fits) (hw : w.client.name_string ≠ [])
    (hn : ∀ c ∈ w.credentials, Named c) :
    ∃ w', loadCCache g (w.toCCache X g).build = .ok w' ∧ w'.realm = w.realm ∧ w'.client = w.client ∧
      List.Forall₂ Reloaded w.credentials w'.credentials := by
  refine ⟨⟨w.credentials.map (afterFile X), w.realm, w.client⟩, ?_, rfl, rfl, forall₂_map_same (reloaded_afterFile X) _⟩
  rw [loadCCache_ok (CC.c01_ccache_roundtrip _ h), ofCCache_toCCache hw hn (fits_tickets h)]

/-- C25. If also everything in the credentials has a form in the file, the only losses are the documented ones. -/
theorem c25_reload_identity (X : Ext) (g : Cfg) (w : Warehouse) (h : (w.toCCache X g).Fits)
    (hw : w.client.name_string ≠ []) (hc : ∀ c ∈ w.credentials, Cacheable c) :
    loadCCache g (w.toCCache X g).build = .ok { w with credentials := w.credentials.map reset } := by
  rw [loadCCache_ok (CC.c01_ccache_roundtrip _ h), ofCCache_toCCache hw (fun c hc' => (hc c hc').named) (fits_tickets h)]
  congr 2
  exact List.map_congr_left (fun c hc' => afterFile_cacheable (hc c hc'))

/-- C25. What was loaded from a saved file is saved and loaded again without change. -/
theorem c25_reload_stable (X : Ext) (c : Credential) (h : Cacheable c) : Cacheable (reset c) ∧ reset (reset c) = reset c ∧
    afterFile X (reset c) = reset c := by
  have h' : Cacheable (reset c) := by
    obtain ⟨h0, h1, h2, h3, h4, h5, h6, h7⟩ := h
    refine ⟨h0, h1, h2, ?_, h4, h5, h6, h7⟩
    intro t ht
    have ht : c.client_part.starttime.getD c.client_part.authtime = t := Option.some.inj ht
    subst ht
    cases hs : c.client_part.starttime with
    | none => exact h2
    | some t => exact h3 t hs
  exact ⟨h', rfl, (afterFile_cacheable h').trans rfl⟩

/-- C25. A warehouse with an empty name is saved without complaint but cannot be loaded. -/
theorem c25_unnamed (X : Ext) (g : Cfg) (w : Warehouse) (h : (w.toCCache X g).Fits)
    (hw : w.client.name_string = [] ∨ ∃ c ∈ w.credentials, ¬ Named c) :
    loadCCache g (w.toCCache X g).build = .error .noPrincipalName := by
  rw [loadCCache_ok (CC.c01_ccache_roundtrip _ h)]
  by_cases hc : w.client.name_string = []
  · have h1 : fromPrincipal (w.toCCache X g).primary_principal = .error .noPrincipalName := by
      show fromPrincipal (toPrincipal w.realm w.client) = _
      unfold fromPrincipal
      simp [toPrincipal, hc, decodeNames, bind, Except.bind]
    unfold Warehouse.ofCCache
    rw [h1]; rfl
  · have h1 : fromPrincipal (w.toCCache X g).primary_principal = .ok (w.realm, w.client) := c24_roundtrip _ _ hc
    have h2 : ofEntries g (w.toCCache X g).credentials = .error .noPrincipalName :=
      ofEntries_unnamed (hw.resolve_left hc) (fits_tickets h)
    unfold Warehouse.ofCCache
    rw [h1, h2]; rfl

/-! ### C25: crashes -/

theorem writeAll_spec (es : List WriteEvent) (data : Bytes) :
    ∃ k, k ≤ data.length ∧ (writeAll es data).2 = data.take k ∧ ((writeAll es data).1 = .done → k = data.length) := by
  induction es generalizing data with
  | nil => cases data with
    | nil => exact ⟨0, Nat.le_refl _, rfl, fun _ => rfl⟩
    | cons b bs => exact ⟨0, Nat.zero_le _, rfl, fun h => by cases h⟩
  | cons e es ih =>
    cases data with
    | nil => exact ⟨0, Nat.le_refl _, by cases e <;> simp [writeAll], fun _ => rfl⟩
    | cons b bs =>
      cases e with
      | interrupted => rw [writeAll]; exact ih _; simp
      | fail => exact ⟨0, Nat.zero_le _, rfl, fun h => by cases h⟩
      | accept n =>
        rw [writeAll]
        by_cases h0 : n = 0
        · rw [if_pos h0]; exact ⟨0, Nat.zero_le _, rfl, fun h => by cases h⟩
        · rw [if_neg h0]
          obtain ⟨k, h1, h2, h3⟩ := ih ((b :: bs).drop n)
          rw [List.length_drop] at h1 h3
          refine ⟨min n (b :: bs).length + k, by omega, ?_, fun h => by have := h3 h; omega⟩
          show (b :: bs).take n ++ (writeAll es ((b :: bs).drop n)).2 = _
          rw [h2]
          by_cases hn : n ≤ (b :: bs).length
          · rw [Nat.min_eq_left hn, List.take_add]
          · rw [Nat.min_eq_right (by omega), List.take_of_length_le (by omega), List.drop_eq_nil_of_le (by omega),
              List.take_nil, List.append_nil, List.take_of_length_le (by omega)]

/-- C25. Whatever the disk does and wherever the process stops, the file is as it was or holds a prefix of the data; it
is whole if success was reported. Every failure that is reported is an I/O error. -/
theorem c25_save (d : Disk) (before : Option Bytes) (data : Bytes) :
    ((saveData d before data).2 = before ∨ ∃ k, k ≤ data.length ∧ (saveData d before data).2 = some (data.take k)) ∧
    ((saveData d before data).1 = some (.ok ()) → (saveData d before data).2 = some data) ∧
    (∀ e, (saveData d before data).1 = some (.error e) → e = .io) := by
  obtain ⟨k, h1, h2, h3⟩ := writeAll_spec d.writes data
  unfold saveData
  cases d.create with
  | failed => refine ⟨.inl rfl, fun h => by simp at h, fun e h => by simp at h; exact h.symm⟩
  | cut => exact ⟨.inl rfl, fun h => by simp at h, fun e h => by simp at h⟩
  | done =>
    rcases hw : writeAll d.writes data with ⟨r, b⟩
    rw [hw] at h2 h3
    dsimp only at h2 h3
    subst h2
    cases r with
    | done =>
      refine ⟨.inr ⟨k, h1, rfl⟩, fun _ => ?_, fun e h => by simp at h⟩
      show some (data.take k) = some data
      rw [h3 rfl, List.take_length]
    | failed => exact ⟨.inr ⟨k, h1, rfl⟩, fun h => by simp at h, fun e h => by simp at h; exact h.symm⟩
    | cut => exact ⟨.inr ⟨k, h1, rfl⟩, fun h => by simp at h, fun e h => by simp at h⟩

/-- C25. A disk that takes all bytes, in whatever portions and with whatever interruptions, gives success. -/
theorem c25_save_succeeds (before : Option Bytes) (data : Bytes) (es : List WriteEvent)
    (h : ∀ e ∈ es, e ≠ .fail ∧ e ≠ .accept 0)
    (hl : data.length ≤ (es.map (fun e => match e with | .accept n => n | _ => 0)).sum) :
    saveData ⟨.done, es⟩ before data = (some (.ok ()), some data) := by
  have key : ∀ (es : List WriteEvent) (data : Bytes), (∀ e ∈ es, e ≠ .fail ∧ e ≠ .accept 0) →
      data.length ≤ (es.map (fun e => match e with | .accept n => n | _ => 0)).sum → (writeAll es data).1 = .done := by
    intro es
    induction es with
    | nil =>
      intro data _ hl
      cases data with
      | nil => rfl
      | cons b bs => simp at hl
    | cons e es ih =>
      intro data hf hl
      cases data with
      | nil => cases e <;> simp [writeAll]
      | cons b bs =>
        have hf' : ∀ x ∈ es, x ≠ .fail ∧ x ≠ .accept 0 := fun x hx => hf x (List.mem_cons_of_mem _ hx)
        cases e with
        | fail => exact absurd rfl (hf .fail (List.mem_cons_self ..)).1
        | interrupted =>
          rw [writeAll]
          · exact ih _ hf' (by simpa using hl)
          · simp
        | accept n =>
          have h0 : n ≠ 0 := by
            intro h0; subst h0
            exact (hf _ (List.mem_cons_self ..)).2 rfl
          rw [writeAll, if_neg h0]
          refine ih _ hf' ?_
          rw [List.length_drop]
          simp only [List.map_cons, List.sum_cons] at hl
          omega
  have hd := key es data h hl
  have hs := c25_save ⟨.done, es⟩ before data
  unfold saveData at hs ⊢
  dsimp only at hs ⊢
  rcases hw : writeAll es data with ⟨r, b⟩
  rw [hw] at hd hs
  dsimp only at hd
  subst hd
  have := hs.2.1 rfl
  dsimp only at this ⊢
  rw [this]

/-- C25. Loading what a crash at any byte of the write left gives an error, never a panic, or a warehouse of the same
owner whose credentials are the first ones of the saved warehouse. -/
theorem c25_crash (X : Ext) (g : Cfg) (w : Warehouse) (h : (w.toCCache X g).Fits) (k : Nat)
    (hk : k ≤ (w.toCCache X g).build.length) :
    (∃ e, e ≠ KErr.panic ∧ loadCCache g ((w.toCCache X g).build.take k) = .error e) ∨
    ∃ w' j, loadCCache g ((w.toCCache X g).build.take k) = .ok w' ∧ w'.realm = w.realm ∧ w'.client = w.client ∧
      List.Forall₂ Reloaded (w.credentials.take j) w'.credentials := by
  rcases CC.c04_truncated_file _ h k hk with ⟨e, he, hp⟩ | ⟨j, rest, hj, hp, -, -⟩
  · left
    unfold loadCCache
    rw [hp]
    cases e with
    | panic => exact absurd rfl he
    | _ => exact ⟨.binaryParse, by simp, rfl⟩
  · rw [loadCCache_ok hp, toCCache_take]
    have ht := fits_tickets h
    by_cases hw : w.client.name_string = []
    · left
      refine ⟨.noPrincipalName, by simp, ?_⟩
      have h1 : fromPrincipal (Warehouse.toCCache X g { w with credentials := w.credentials.take j }).primary_principal
          = .error .noPrincipalName := by
        show fromPrincipal (toPrincipal w.realm w.client) = _
        unfold fromPrincipal
        simp [toPrincipal, hw, decodeNames, bind, Except.bind]
      unfold Warehouse.ofCCache
      rw [h1]; rfl
    · by_cases hn : ∀ c ∈ w.credentials.take j, Named c
      · right
        refine ⟨⟨(w.credentials.take j).map (afterFile X), w.realm, w.client⟩, j, ?_, rfl, rfl,
          forall₂_map_same (reloaded_afterFile X) _⟩
        exact ofCCache_toCCache (w := { w with credentials := w.credentials.take j }) hw hn
          (fun c hc => ht c (List.mem_of_mem_take hc))
      · left
        refine ⟨.noPrincipalName, by simp, ?_⟩
        have h1 : fromPrincipal (Warehouse.toCCache X g { w with credentials := w.credentials.take j }).primary_principal
            = .ok (w.realm, w.client) := c24_roundtrip _ _ hw
        have h2 : ofEntries g (Warehouse.toCCache X g { w with credentials := w.credentials.take j }).credentials
            = .error .noPrincipalName := by
          refine ofEntries_unnamed ?_ (fun c hc => ht c (List.mem_of_mem_take hc))
          apply Classical.byContradiction
          intro hne
          exact hn (fun c hc => Classical.byContradiction fun hx => hne ⟨c, hc, hx⟩)
        unfold Warehouse.ofCCache
        rw [h1, h2]; rfl

/-- C25. The two together: save over any file, on any disk, stopping anywhere; then load. -/
theorem c25_save_then_load (X : Ext) (g : Cfg) (w : Warehouse) (h : (w.toCCache X g).Fits) (d : Disk)
    (before : Option Bytes) (content : Bytes) (hc : (w.saveCCache X g d before).2 = some content) :
    before = some content ∨ (∃ e, e ≠ KErr.panic ∧ loadCCache g content = .error e) ∨
    ∃ w' j, loadCCache g content = .ok w' ∧ w'.realm = w.realm ∧ w'.client = w.client ∧
      List.Forall₂ Reloaded (w.credentials.take j) w'.credentials := by
  rcases (c25_save d before (w.toCCache X g).build).1 with h1 | ⟨k, hk, h1⟩
  · left; rw [← h1]; exact hc
  · right
    have : content = (w.toCCache X g).build.take k := by
      have hc' : (saveData d before (w.toCCache X g).build).2 = some content := hc
      rw [h1] at hc'
      exact (Option.some.inj hc').symm
    rw [this]
    exact c25_crash X g w h k hk

/-! ### C25: KRB-CRED files -/

/-- what a credential becomes in a KRB-CRED file: everything but last-req, nonce, key expiration and padata -/
structure Exported (c : Credential) (i : KrbCredInfo) : Prop where
  key : i.key = c.client_part.key
  prealm : i.prealm = some c.crealm
  pname : i.pname = some c.cname
  flags : i.flags = some c.client_part.flags
  authtime : i.authtime = some c.client_part.authtime
  starttime : i.starttime = c.client_part.starttime
  endtime : i.endtime = some c.client_part.endtime
  renew_till : i.renew_till = c.client_part.renew_till
  srealm : i.srealm = some c.client_part.srealm
  sname : i.sname = some c.client_part.sname
  caddr : i.caddr = c.client_part.caddr

/-- C25. A warehouse saved as KRB-CRED: the file parses to an unencrypted message with the tickets in order, whose inner
part parses to the infos in order. -/
theorem c25_krb_cred (g : Cfg) (w : Warehouse)
    (ht : ∀ c ∈ w.credentials, TimeOk c.client_part.authtime ∧ TimeOk c.client_part.endtime ∧
      OptOf TimeOk c.client_part.starttime ∧ OptOf TimeOk c.client_part.renew_till)
    (hs : (MsgType.build g .krbCred (w.toKrbCred g)).length < 2^64)
    (hs' : (w.toKrbCred g).enc_part.cipher.length < 2^64) :
    ∃ k, MsgType.parse g .krbCred (MsgType.build g .krbCred (w.toKrbCred g)) = .ok (k, []) ∧
      k.pvno = 5 ∧ k.msg_type = 22 ∧ k.tickets = w.credentials.map (·.ticket) ∧ k.enc_part.etype = 0 ∧
      k.enc_part.kvno = none ∧
      ∃ p, MsgType.parse g .encKrbCredPart k.enc_part.cipher = .ok (p, []) ∧
        List.Forall₂ Exported w.credentials p.ticket_info ∧
        p.nonce = none ∧ p.timestamp = none ∧ p.usec = none ∧ p.s_address = none ∧ p.r_address = none := by
  refine ⟨w.toKrbCred g, ?_, rfl, rfl, ?_, rfl, rfl, ⟨w.credentials.map (fun c => c.toInfo.1), none, none, none, none, none⟩,
    ?_, ?_, rfl, rfl, rfl, rfl, rfl⟩
  · have := c39_roundtrip g .krbCred (w.toKrbCred g) trivial hs []
    rwa [List.append_nil] at this
  · show (w.credentials.map Credential.toInfo).map (·.2) = _
    rw [List.map_map]; rfl
  · have he : (w.toKrbCred g).enc_part.cipher = MsgType.build g .encKrbCredPart
        ⟨w.credentials.map (fun c => c.toInfo.1), none, none, none, none, none⟩ := by
      show (encKrbCredPartC g).enc ⟨(w.credentials.map Credential.toInfo).map (·.1), none, none, none, none, none⟩ = _
      rw [List.map_map]; rfl
    rw [he] at hs' ⊢
    have hw : EncKrbCredPart.WF ⟨w.credentials.map (fun c => c.toInfo.1), none, none, none, none, none⟩ := by
      refine ⟨?_, fun _ h => absurd h (Option.some_ne_none _).symm⟩
      intro i hi
      obtain ⟨c, hc, rfl⟩ := List.mem_map.1 hi
      obtain ⟨t1, t2, t3, t4⟩ := ht c hc
      exact ⟨fun d hd => by cases hd; exact t1, t3, fun d hd => by cases hd; exact t2, t4⟩
    have := c39_roundtrip g .encKrbCredPart _ hw hs' []
    rwa [List.append_nil] at this
  · exact forall₂_map_same (fun c => ⟨rfl, rfl, rfl, rfl, rfl, rfl, rfl, rfl, rfl, rfl, rfl⟩) _

/-- C25. A KRB-CRED file cut short anywhere is refused. -/
theorem c25_krb_cred_crash (g : Cfg) (w : Warehouse) (hs : (MsgType.build g .krbCred (w.toKrbCred g)).length < 2^64)
    (k : Nat) (hk : k < (MsgType.build g .krbCred (w.toKrbCred g)).length) :
    ∃ e, MsgType.parse g .krbCred ((MsgType.build g .krbCred (w.toKrbCred g)).take k) = .error e := by
  have h := c45_truncated g .krbCred (w.toKrbCred g) trivial hs _ (List.take_prefix k _)
    (fun e => by have := congrArg List.length e; rw [List.length_take] at this; omega)
  cases hp : MsgType.parse g .krbCred ((MsgType.build g .krbCred (w.toKrbCred g)).take k) with
  | error e => exact ⟨e, rfl⟩
  | ok v => exact absurd hp (h v.1 v.2)

/-! ### Any file -/

theorem bind_ne_panic {α β} {r : Except KErr α} {f : α → Except KErr β} (h1 : r ≠ .error .panic)
    (h2 : ∀ a, f a ≠ .error .panic) : (r >>= f) ≠ .error .panic := by
  cases r with
  | error e => intro h; apply h1; injection h with h; rw [h]
  | ok a => exact h2 a

theorem fromPrincipal_ne_panic (p) : liftC (fromPrincipal p) ≠ .error .panic := by
  cases h : fromPrincipal p with
  | ok => simp [liftC]
  | error e => rcases c24_error p e h with ⟨rfl, -⟩ | ⟨rfl, -⟩ <;> simp [liftC, KErr.ofConvert]

theorem liftP_ne_panic {α} {r : Except PErr (α × Bytes)} (h : r ≠ .error .panic) : liftP r ≠ .error .panic := by
  cases r with
  | ok v => simp [liftP]
  | error e => cases e <;> simp_all [liftP]

theorem ofEntry_ne_panic {g : Cfg} (hg : g.Total) (e) : Credential.ofEntry g e ≠ .error .panic := by
  unfold Credential.ofEntry
  refine bind_ne_panic (fromPrincipal_ne_panic _) fun v => bind_ne_panic (fromPrincipal_ne_panic _) fun w => ?_
  refine bind_ne_panic (liftP_ne_panic ((ticketC_lawful g).noPanic hg _)) fun t => by simp [pure, Except.pure]

theorem ofEntries_ne_panic {g : Cfg} (hg : g.Total) (l) : ofEntries g l ≠ .error .panic := by
  induction l with
  | nil => simp [ofEntries]
  | cons e l ih =>
    exact bind_ne_panic (ofEntry_ne_panic hg e) fun v => bind_ne_panic ih fun w => by simp [pure, Except.pure]

/-- C25. Loading any bytes at all never panics. -/
theorem c25_load_no_panic (g : Cfg) (hg : g.Total) (data : Bytes) : loadCCache g data ≠ .error .panic := by
  unfold loadCCache
  have hnp := CC.c08_ccache_no_panic data
  cases hd : CC.CCache.parse data with
  | error x =>
    rw [hd] at hnp
    cases x with
    | panic => exact absurd rfl hnp
    | _ => simp
  | ok v =>
    exact bind_ne_panic (fromPrincipal_ne_panic _) fun v => bind_ne_panic (ofEntries_ne_panic hg _) fun w => by
      simp [pure, Except.pure]

/-! ### Examples -/

/-- a credential with all optional parts, and one with none -/
def exCredential : Credential where
  crealm := "KINGDOM.HEARTS".toList
  cname := ⟨1, ["mickey".toList]⟩
  ticket := exTicket
  client_part := {
    key := ⟨18, [1, 2, 3]⟩, last_req := [⟨0, ⟨5, 0⟩⟩], nonce := 77, key_expiration := some ⟨9, 0⟩, flags := 0x40e10000
    authtime := ⟨1555567231, 0⟩, starttime := none, endtime := ⟨1555667231, 0⟩, renew_till := some ⟨1556567231, 0⟩
    srealm := "KINGDOM.HEARTS".toList, sname := ⟨2, ["krbtgt".toList, "KINGDOM.HEARTS".toList]⟩
    caddr := some [⟨20, utf8 "HOLLOWBASTION   ".toList⟩], encrypted_pa_data := some [⟨165, [31, 0]⟩] }

def exWarehouse : Warehouse :=
  ⟨[exCredential, { exCredential with client_part := { exCredential.client_part with
      caddr := none, encrypted_pa_data := none, renew_till := none, starttime := some ⟨0, 0⟩ } }],
    "KINGDOM.HEARTS".toList, ⟨1, ["mickey".toList]⟩⟩

example : (exWarehouse.toCCache exExt strictCfg).Fits ∧ exWarehouse.client.name_string ≠ [] ∧
    ∀ c ∈ exWarehouse.credentials, Named c := by
  refine ⟨by decide +kernel, by decide, ?_⟩
  intro c hc
  simp only [exWarehouse, List.mem_cons, List.not_mem_nil, or_false] at hc
  rcases hc with rfl | rfl <;> exact ⟨List.cons_ne_nil _ _, List.cons_ne_nil _ _⟩

example : Cacheable exCredential := by
  refine ⟨⟨List.cons_ne_nil _ _, List.cons_ne_nil _ _⟩, by decide +kernel, ⟨by decide, by decide, rfl⟩, ?_,
    ⟨by decide, by decide, rfl⟩, ?_, ?_, ?_⟩
  · intro t ht; cases ht
  · intro t ht
    have ht := Option.some.inj ht
    subst ht; exact ⟨⟨by decide, by decide, rfl⟩, by decide⟩
  · intro l hl
    have hl := Option.some.inj hl
    subst hl
    refine ⟨by simp, ?_⟩
    intro h hh
    simp only [List.mem_cons, List.not_mem_nil, or_false] at hh
    subst hh
    refine ⟨by decide +kernel, by decide +kernel, fun _ => ⟨"HOLLOWBASTION".toList, ?_, by decide +kernel⟩⟩
    intro c hc
    have e : "HOLLOWBASTION".toList.getLast? = some 'N' := by decide
    rw [e] at hc; cases hc; decide
  · intro l hl
    have hl := Option.some.inj hl
    subst hl
    refine ⟨by simp, ?_⟩
    intro p hp
    simp only [List.mem_cons, List.not_mem_nil, or_false] at hp
    subst hp; decide

-- the concrete file, loaded again
example : loadCCache strictCfg (exWarehouse.toCCache exExt strictCfg).build
    = .ok { exWarehouse with credentials := exWarehouse.credentials.map reset } := by decide +kernel
-- C25: saving is not atomic: a failing disk destroys the old file
example : saveData ⟨.done, [.accept 2, .interrupted, .fail]⟩ (some [9, 9, 9]) [1, 2, 3] = (some (.error .io), some [1, 2]) := by
  decide +kernel
example : saveData ⟨.done, [.accept 2, .interrupted, .accept 1]⟩ none [1, 2, 3] = (some (.ok ()), some [1, 2, 3]) := by
  decide +kernel
-- C25: the hypotheses of the KRB-CRED theorems
example : (MsgType.build strictCfg .krbCred (exWarehouse.toKrbCred strictCfg)).length < 2^64 ∧
    (exWarehouse.toKrbCred strictCfg).enc_part.cipher.length < 2^64 := by decide +kernel

end Verif.Kb
