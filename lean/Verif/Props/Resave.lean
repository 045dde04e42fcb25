import Verif.Props.TwoRoads
/-
Property theorems C82: a credential cache file loaded into a warehouse and saved again (kerbeiros/src/credentials).
-/
set_option linter.unusedSimpArgs false
namespace Verif.Kb
open Verif.Asn1 Verif.Map

/-! ### Specification -/

/-- a credential of a file that can be loaded: both principals are UTF-8 with at least one component, and the ticket
is a ticket (perhaps followed by something) -/
structure Loadable (g : Cfg) (e : CC.Credential) : Prop where
  client : ReadablePrincipal e.client
  server : ReadablePrincipal e.server
  ticket : ∃ t rest, MsgType.parse g .ticket e.ticket = .ok (t, rest)

/-- `e'` is what a credential `e` of a file has become in the file saved again -/
structure Rewritten (g : Cfg) (e e' : CC.Credential) : Prop where
  client : e'.client = e.client
  server : e'.server = e.server
  key : e'.key = { e.key with etype := 0 }
  time : e'.time = e.time
  tktflags : e'.tktflags = e.tktflags
  is_skey : e'.is_skey = 0
  authdata : e'.authdata = e.authdata
  second_ticket : e'.second_ticket = []
  ticket : ∃ t rest, MsgType.parse g .ticket e.ticket = .ok (t, rest) ∧ e'.ticket = MsgType.build g .ticket t
  addrs : NetbiosReadable e.addrs → List.Forall₂ (fun a a' => a'.addrtype = a.addrtype ∧
    (a.addrtype ≠ 20 → a' = a) ∧ (∀ s, a.addrtype = 20 → a.addrdata = utf8 s → a'.addrdata = utf8 (trimEnd s)))
    e.addrs e'.addrs
  bad_addrs : ¬ NetbiosReadable e.addrs → e'.addrs = []

/-! ### Lemmas -/

theorem timestamp_ofU32 (n : UInt32) : timestampU32 (ofU32 n) = n := by
  rw [← UInt32.toNat_inj]
  have h := timestampU32_toNat (ofU32 n)
  have h1 : (ofU32 n).secs = (n.toNat : Int) := rfl
  have h2 := n.toNat_lt
  rw [h1] at h
  omega

theorem toTimes_fromTimes (t : CC.Times) :
    toTimes (fromTimes t).1 (some (fromTimes t).2.1) (fromTimes t).2.2.1 (fromTimes t).2.2.2 = t := by
  obtain ⟨a, s, e, r⟩ := t
  unfold fromTimes toTimes
  simp only [timestamp_ofU32]
  by_cases hr : r = 0
  · simp only [hr, if_true]
  · simp only [if_neg hr, timestamp_ofU32]

theorem toAuthDatas_from (l : List CC.Address) : (l.map fromAuthData).map toAuthData = l := by
  rw [List.map_map]
  conv => rhs; rw [← List.map_id l]
  apply List.map_congr_left
  intro a _
  obtain ⟨t, d⟩ := a
  show (⟨i32AsU16 (u16AsI32 t), d⟩ : CC.Address) = ⟨t, d⟩
  rw [i32AsU16_u16AsI32]

theorem toKeyBlock_from (k : CC.KeyBlock) : toKeyBlock (fromKeyBlock k) = { k with etype := 0 } := by
  obtain ⟨t, e, v⟩ := k
  show CC.KeyBlock.new (i32AsU16 (u16AsI32 t)) v = _
  rw [i32AsU16_u16AsI32]; rfl

theorem ofEntry_ok {g : Cfg} {e : CC.Credential} {c : Credential} (h : Credential.ofEntry g e = .ok c) :
    ∃ t rest, fromPrincipal e.client = .ok (c.crealm, c.cname) ∧
      fromPrincipal e.server = .ok (c.client_part.srealm, c.client_part.sname) ∧
      MsgType.parse g .ticket e.ticket = .ok (t, rest) ∧ c =
      ⟨c.crealm, c.cname, t, ⟨fromKeyBlock e.key, [], 0, none, e.tktflags, (fromTimes e.time).1, some (fromTimes e.time).2.1,
        (fromTimes e.time).2.2.1, (fromTimes e.time).2.2.2, c.client_part.srealm, c.client_part.sname,
        (fromAddresses e.addrs).toOption,
        if (e.authdata.map fromAuthData).isEmpty then none else some (e.authdata.map fromAuthData)⟩⟩ := by
  unfold Credential.ofEntry at h
  simp only [bind, Except.bind] at h
  cases h1 : fromPrincipal e.client with
  | error x => rw [h1] at h; cases h
  | ok v =>
  rw [h1] at h
  cases h2 : fromPrincipal e.server with
  | error x => rw [h2] at h; cases h
  | ok u =>
  rw [h2] at h
  cases h3 : (ticketC g).dec g e.ticket with
  | error x => rw [h3] at h; cases x <;> cases h
  | ok q =>
  rw [h3] at h
  simp only [liftC, liftP, pure, Except.pure, Except.ok.injEq] at h
  subst h
  exact ⟨q.1, q.2, rfl, rfl, h3, rfl⟩

theorem loadable_iff {g : Cfg} {e : CC.Credential} : Loadable g e ↔ ∃ c, Credential.ofEntry g e = .ok c := by
  constructor
  · rintro ⟨h1, h2, t, rest, h3⟩
    obtain ⟨r, n, h1⟩ := readable_iff.1 h1
    obtain ⟨r', n', h2⟩ := readable_iff.1 h2
    unfold Credential.ofEntry
    simp only [h1, h2, show (ticketC g).dec g e.ticket = _ from h3, bind, Except.bind, liftC, liftP, pure, Except.pure]
    exact ⟨_, rfl⟩
  · rintro ⟨c, h⟩
    obtain ⟨t, rest, h1, h2, h3, -⟩ := ofEntry_ok h
    exact ⟨readable_iff.2 ⟨_, _, h1⟩, readable_iff.2 ⟨_, _, h2⟩, t, rest, h3⟩

theorem rewritten_of {X : Ext} {g : Cfg} {e : CC.Credential} {c : Credential} (h : Credential.ofEntry g e = .ok c) :
    Rewritten g e (c.toEntry X g) := by
  obtain ⟨t, rest, h1, h2, h3, hc⟩ := ofEntry_ok h
  have e1 := c24_reverse _ _ _ h1
  have e2 := c24_reverse _ _ _ h2
  rw [toEntry_eq]
  obtain ⟨cr, cn, tk, p⟩ := c
  obtain ⟨key, lr, nonce, ke, fl, a, s, en, r, sr, sn, caddr, pa⟩ := p
  simp only [Credential.mk.injEq, EncAsRepPart.mk.injEq, true_and] at hc e1 e2
  obtain ⟨rfl, rfl, rfl, rfl, rfl, rfl, rfl, rfl, rfl, rfl, rfl, rfl⟩ := hc
  refine ⟨e1, e2, toKeyBlock_from _, toTimes_fromTimes _, rfl, rfl, ?_, rfl, ⟨_, _, h3, rfl⟩, ?_, ?_⟩
  · by_cases hp : e.authdata = []
    · simp [hp]
    · dsimp only
      rw [if_neg (by simpa using hp)]
      exact toAuthDatas_from _
  · intro hr
    obtain ⟨hs, l1, -, l2⟩ := (fromAddressLoop_spec e.addrs).1 hr
    dsimp only
    cases ha : e.addrs with
    | nil => exact .nil
    | cons x l =>
      rw [fromAddresses_cons, ← ha, l1]
      exact l2 X
  · intro hr
    dsimp only
    cases ha : e.addrs with
    | nil => rw [ha] at hr; exact absurd (fun _ hx => absurd hx List.not_mem_nil) hr
    | cons x l =>
      rw [fromAddresses_cons, ← ha, (fromAddressLoop_spec e.addrs).2 hr]
      rfl

theorem ofCCache_ok {g : Cfg} {c : CC.CCache} {w : Warehouse} (h : Warehouse.ofCCache g c = .ok w) :
    fromPrincipal c.primary_principal = .ok (w.realm, w.client) ∧
    List.Forall₂ (fun e c => Credential.ofEntry g e = .ok c) c.credentials w.credentials := by
  refine ⟨?_, ofEntries_forall₂ (ofCCache_inv h)⟩
  unfold Warehouse.ofCCache at h
  simp only [bind, Except.bind] at h
  cases h1 : fromPrincipal c.primary_principal with
  | error x => rw [h1] at h; cases h
  | ok v =>
    rw [h1] at h
    cases h2 : ofEntries g c.credentials with
    | error x => rw [h2] at h; cases h
    | ok l =>
      rw [h2] at h
      simp only [liftC, pure, Except.pure, Except.ok.injEq] at h
      subst h; rfl

theorem ofEntries_all {g : Cfg} {es : List CC.Credential} (h : ∀ e ∈ es, Loadable g e) : ∃ cs, ofEntries g es = .ok cs := by
  induction es with
  | nil => exact ⟨[], rfl⟩
  | cons e es ih =>
    obtain ⟨c, hc⟩ := loadable_iff.1 (h e (List.mem_cons_self ..))
    obtain ⟨cs, hcs⟩ := ih (fun x hx => h x (List.mem_cons_of_mem _ hx))
    refine ⟨c :: cs, ?_⟩
    simp only [ofEntries, hc, hcs, bind, Except.bind, pure, Except.pure]

/-! ### Theorems -/

/-- C82. Which files can be loaded: those that parse as a cache and in which the principals of the cache and of every
credential are UTF-8 with at least one component and every ticket is a ticket. One credential that is not so makes the
whole file unusable. -/
theorem c82_loads_iff (g : Cfg) (data : Bytes) :
    (∃ w, loadCCache g data = .ok w) ↔ ∃ c rest, CC.CCache.parse data = .ok (c, rest) ∧
      ReadablePrincipal c.primary_principal ∧ ∀ e ∈ c.credentials, Loadable g e := by
  constructor
  · rintro ⟨w, h⟩
    unfold loadCCache at h
    split at h
    · cases h
    · cases h
    · rename_i c rest hp
      obtain ⟨h1, h2⟩ := ofCCache_ok h
      refine ⟨c, rest, hp, readable_iff.2 ⟨_, _, h1⟩, ?_⟩
      generalize w.credentials = cs at h2
      generalize c.credentials = es at h2
      induction h2 with
      | nil => exact fun _ hx => absurd hx List.not_mem_nil
      | cons a _ ih =>
        intro e he
        rcases List.mem_cons.1 he with rfl | he
        · exact loadable_iff.2 ⟨_, a⟩
        · exact ih e he
  · rintro ⟨c, rest, hp, h1, h2⟩
    obtain ⟨r, n, h1⟩ := readable_iff.1 h1
    obtain ⟨cs, hcs⟩ := ofEntries_all h2
    rw [loadCCache_ok hp]
    unfold Warehouse.ofCCache
    simp only [h1, hcs, bind, Except.bind, liftC, pure, Except.pure]
    exact ⟨_, rfl⟩

/-- C82. What saving a loaded file changes: the header becomes the default one; every credential stays, in order, changed
only as `Rewritten` says; the owner stays. -/
theorem c82_load_save (X : Ext) (g : Cfg) (data : Bytes) (c : CC.CCache) (rest : Bytes) (w : Warehouse)
    (hp : CC.CCache.parse data = .ok (c, rest)) (h : loadCCache g data = .ok w) :
    (w.toCCache X g).file_format_version = 0x0504 ∧
    (w.toCCache X g).header = ⟨1, [0xff, 0xff, 0xff, 0xff, 0, 0, 0, 0]⟩ ∧
    (w.toCCache X g).primary_principal = c.primary_principal ∧
    List.Forall₂ (Rewritten g) c.credentials (w.toCCache X g).credentials := by
  rw [loadCCache_ok hp] at h
  obtain ⟨h1, h2⟩ := ofCCache_ok h
  refine ⟨rfl, by show CC.Header.dflt = _; decide +kernel, c24_reverse _ _ _ h1, ?_⟩
  show List.Forall₂ _ _ (w.credentials.map (Credential.toEntry X g))
  rw [List.forall₂_map_right_iff]
  exact h2.imp (fun _ _ h => rewritten_of h)

theorem trimEnd_length (s : List Char) : (utf8 (trimEnd s)).length ≤ (utf8 s).length := by
  obtain ⟨-, w, hw, -⟩ := (c22_trim_spec s (trimEnd s)).1 rfl
  conv => rhs; rw [hw]
  rw [utf8_append, List.length_append]; omega

theorem Rewritten.fits {g : Cfg} {e e' : CC.Credential} (h : Rewritten g e e') (hf : e.Fits) (ht : CC.CosFits e'.ticket) :
    e'.Fits := by
  obtain ⟨f1, f2, f3, f4, f5, f6, f7, -, -⟩ := hf
  have ha : e'.addrs.length < 2^32 ∧ ∀ a ∈ e'.addrs, a.Fits := by
    by_cases hr : NetbiosReadable e.addrs
    · have hl := h.addrs hr
      refine ⟨by rw [← hl.length_eq]; exact f4, ?_⟩
      generalize e'.addrs = l' at hl
      clear f4
      generalize e.addrs = l at hl f5 hr
      induction hl with
      | nil => exact fun _ hx => absurd hx List.not_mem_nil
      | @cons a a' l l' hh _ ih =>
        have hr' : NetbiosReadable l := fun b hb => hr b (List.mem_cons_of_mem _ hb)
        intro b hb
        rcases List.mem_cons.1 hb with rfl | hb
        · have fa := f5 a (List.mem_cons_self ..)
          by_cases h20 : a.addrtype = 20
          · obtain ⟨s, hs⟩ := hr a (List.mem_cons_self ..) h20
            have := trimEnd_length s
            unfold CC.Address.Fits CC.CosFits at fa ⊢
            rw [hh.2.2 s h20 hs]
            rw [hs] at fa
            omega
          · rw [hh.2.1 h20]; exact fa
        · exact ih (fun x hx => f5 x (List.mem_cons_of_mem _ hx)) hr' b hb
    · rw [h.bad_addrs hr]
      exact ⟨by decide, fun _ hx => absurd hx List.not_mem_nil⟩
  refine ⟨by rw [h.client]; exact f1, by rw [h.server]; exact f2, by rw [h.key]; exact f3, ha.1, ha.2,
    by rw [h.authdata]; exact f6, by rw [h.authdata]; exact f7, ht, by rw [h.second_ticket]; unfold CC.CosFits; decide⟩

/-- C82. A file that was loaded can be saved: all its lengths fit, if the tickets in the form the library writes are
below 4 GiB. -/
theorem c82_fits (X : Ext) (g : Cfg) (data : Bytes) (w : Warehouse) (h : loadCCache g data = .ok w)
    (ht : ∀ c ∈ w.credentials, (MsgType.build g .ticket c.ticket).length < 2^32) : (w.toCCache X g).Fits := by
  obtain ⟨c, rest, hp, -, -⟩ := (c82_loads_iff g data).1 ⟨w, h⟩
  obtain ⟨h1, h2, h3, h4⟩ := c82_load_save X g data c rest w hp h
  have hf := (CC.c03_parse_exact _ _ _ hp).1
  refine ⟨h1, by rw [h2]; show List.length _ < _; decide, by rw [h3]; exact hf.2.2.1, ?_⟩
  have ht' : ∀ e' ∈ (w.toCCache X g).credentials, CC.CosFits e'.ticket := by
    intro e' he
    obtain ⟨x, hx, rfl⟩ := List.mem_map.1 he
    rw [toEntry_eq]
    exact ht x hx
  have hf' := hf.2.2.2
  generalize (w.toCCache X g).credentials = l' at h4 ht'
  generalize c.credentials = l at h4 hf'
  induction h4 with
  | nil => exact fun _ hx => absurd hx List.not_mem_nil
  | cons a _ ih =>
    intro x hx
    rcases List.mem_cons.1 hx with rfl | hx
    · exact a.fits (hf' _ (List.mem_cons_self ..)) (ht' _ (List.mem_cons_self ..))
    · exact ih (fun y hy => ht' y (List.mem_cons_of_mem _ hy)) (fun y hy => hf' y (List.mem_cons_of_mem _ hy)) x hx

theorem Rewritten.readable {g : Cfg} {e e' : CC.Credential} (h : Rewritten g e e') :
    NetbiosReadable e'.addrs ∧ ∀ a ∈ e'.addrs, a.addrtype = 20 → ∀ s, a.addrdata = utf8 s → trimEnd s = s := by
  by_cases hr : NetbiosReadable e.addrs
  · have hl := h.addrs hr
    generalize e'.addrs = l' at hl
    generalize e.addrs = l at hl hr
    induction hl with
    | nil => exact ⟨fun _ hx => absurd hx List.not_mem_nil, fun _ hx => absurd hx List.not_mem_nil⟩
    | @cons a a' l l' hh _ ih =>
      obtain ⟨i1, i2⟩ := ih (fun b hb => hr b (List.mem_cons_of_mem _ hb))
      have hx : a'.addrtype = 20 → ∃ s, a'.addrdata = utf8 (trimEnd s) := by
        intro h20
        rw [hh.1] at h20
        obtain ⟨s, hs⟩ := hr a (List.mem_cons_self ..) h20
        exact ⟨s, hh.2.2 s h20 hs⟩
      constructor
      · intro b hb h20
        rcases List.mem_cons.1 hb with rfl | hb
        · obtain ⟨s, hs⟩ := hx h20; exact ⟨_, hs⟩
        · exact i1 b hb h20
      · intro b hb h20 s hs
        rcases List.mem_cons.1 hb with rfl | hb
        · obtain ⟨s', hs'⟩ := hx h20
          rw [hs] at hs'
          rw [utf8_inj hs']
          exact trimEnd_noTrailing (trimEnd_no_trailing s')
        · exact i2 b hb h20 s hs
  · rw [h.bad_addrs hr]
    exact ⟨fun _ hx => absurd hx List.not_mem_nil, fun _ hx => absurd hx List.not_mem_nil⟩

/-- rewriting what was rewritten changes nothing -/
theorem Rewritten.fix {g : Cfg} {e e' e'' : CC.Credential} (h : Rewritten g e e') (h' : Rewritten g e' e'')
    (hs : CC.CosFits e'.ticket) : e'' = e' := by
  obtain ⟨r1, r2⟩ := h.readable
  have ha : e''.addrs = e'.addrs := by
    have hl := h'.addrs r1
    generalize e''.addrs = l' at hl
    generalize e'.addrs = l at hl r1 r2
    induction hl with
    | nil => rfl
    | @cons a a' l l' hh _ ih =>
      rw [ih (fun b hb => r1 b (List.mem_cons_of_mem _ hb)) (fun b hb => r2 b (List.mem_cons_of_mem _ hb))]
      congr 1
      by_cases h20 : a.addrtype = 20
      · obtain ⟨s, hs⟩ := r1 a (List.mem_cons_self ..) h20
        have e1 := hh.2.2 s h20 hs
        rw [r2 a (List.mem_cons_self ..) h20 s hs, ← hs] at e1
        obtain ⟨t, d⟩ := a; obtain ⟨t', d'⟩ := a'
        dsimp only at e1 hh
        rw [e1, hh.1]
      · exact hh.2.1 h20
  have ht : e''.ticket = e'.ticket := by
    obtain ⟨t, rest, -, k2⟩ := h.ticket
    obtain ⟨t', rest', k3, k4⟩ := h'.ticket
    unfold CC.CosFits at hs
    rw [k2] at hs k3
    have k5 := c39_roundtrip g .ticket t trivial (Nat.lt_trans hs (by decide)) []
    rw [List.append_nil, k3] at k5
    simp only [Except.ok.injEq, Prod.mk.injEq] at k5
    rw [k4, k5.1, k2]
  have hk : e''.key = e'.key := by rw [h'.key, h.key]
  obtain ⟨x1, x2, x3, x4, x5, x6, x7, x8, x9, x10⟩ := e''
  obtain ⟨y1, y2, y3, y4, y5, y6, y7, y8, y9, y10⟩ := e'
  have z1 := h'.client; have z2 := h'.server; have z3 := h'.time; have z4 := h'.tktflags; have z5 := h'.is_skey
  have z6 := h'.authdata; have z7 := h'.second_ticket; have w5 := h.is_skey; have w7 := h.second_ticket
  dsimp only at ha ht hk z1 z2 z3 z4 z5 z6 z7 w5 w7
  subst z1 z2 z3 z4 z5 z6 z7 w5 w7 ha ht hk
  rfl

/-- C82. A file that was loaded and saved is stable: loading it succeeds and saving that gives the same file, byte for
byte. -/
theorem c82_stable (X : Ext) (g : Cfg) (data : Bytes) (w : Warehouse) (h : loadCCache g data = .ok w)
    (ht : ∀ c ∈ w.credentials, (MsgType.build g .ticket c.ticket).length < 2^32) :
    ∃ w', loadCCache g (w.toCCache X g).build = .ok w' ∧ (w'.toCCache X g).build = (w.toCCache X g).build ∧
      w'.realm = w.realm ∧ w'.client = w.client ∧ w'.credentials.length = w.credentials.length := by
  have hf := c82_fits X g data w h ht
  obtain ⟨c, rest, hp, h0, hl⟩ := (c82_loads_iff g data).1 ⟨w, h⟩
  obtain ⟨h1, h2, h3, h4⟩ := c82_load_save X g data c rest w hp h
  have hp' := CC.c01_ccache_roundtrip _ hf
  obtain ⟨p1, p2⟩ := ofCCache_ok (by rw [loadCCache_ok hp] at h; exact h)
  have hn : w.client.name_string ≠ [] := (fromPrincipal_ok.1 p1).2
  have hnm : ∀ x ∈ w.credentials, Named x := by
    generalize w.credentials = cs at p2
    generalize c.credentials = es at p2
    induction p2 with
    | nil => exact fun _ hx => absurd hx List.not_mem_nil
    | cons a _ ih =>
      intro x hx
      rcases List.mem_cons.1 hx with rfl | hx
      · obtain ⟨t, r, k1, k2, -, -⟩ := ofEntry_ok a
        exact ⟨(fromPrincipal_ok.1 k1).2, (fromPrincipal_ok.1 k2).2⟩
      · exact ih x hx
  have hload : loadCCache g (w.toCCache X g).build = .ok ⟨w.credentials.map (afterFile X), w.realm, w.client⟩ := by
    rw [loadCCache_ok hp', ofCCache_toCCache hn hnm (fits_tickets hf)]
  refine ⟨_, hload, ?_, rfl, rfl, by simp⟩
  congr 1
  obtain ⟨k1, k2, k3, k4⟩ := c82_load_save X g _ _ _ _ hp' hload
  have hcs : (Warehouse.toCCache X g ⟨w.credentials.map (afterFile X), w.realm, w.client⟩).credentials
      = (w.toCCache X g).credentials := by
    have ht' : ∀ e' ∈ (w.toCCache X g).credentials, CC.CosFits e'.ticket := fun e' he => (hf.2.2.2 e' he).2.2.2.2.2.2.2.1
    generalize (Warehouse.toCCache X g ⟨w.credentials.map (afterFile X), w.realm, w.client⟩).credentials = l3 at k4
    generalize (w.toCCache X g).credentials = l2 at k4 h4 ht'
    generalize c.credentials = l1 at h4
    clear h3 h2 h1 hl h0 hp p2
    induction h4 generalizing l3 with
    | nil => cases k4; rfl
    | cons a _ ih =>
      cases k4 with
      | cons b k4 =>
        rw [a.fix b (ht' _ (List.mem_cons_self ..)), ih _ k4 (fun y hy => ht' y (List.mem_cons_of_mem _ hy))]
  show CC.CCache.mk _ _ _ _ = CC.CCache.mk _ _ _ _
  congr 1

theorem ofEntry_cacheable {g : Cfg} {e : CC.Credential} {c : Credential} (h : Credential.ofEntry g e = .ok c)
    (ha : ∀ a ∈ e.addrs, a.addrtype = 20 → ∀ s, a.addrdata = utf8 s → NoTrailingSpace s) :
    Cacheable c ∧ reset c = c := by
  obtain ⟨t, rest, h1, h2, -, hc⟩ := ofEntry_ok h
  have n1 := (fromPrincipal_ok.1 h1).2
  have n2 := (fromPrincipal_ok.1 h2).2
  have hu : ∀ n : UInt32, CacheableTime (ofU32 n) := by
    intro n
    have := n.toNat_lt
    refine ⟨?_, ?_, rfl⟩
    · show (0 : Int) ≤ (n.toNat : Int); omega
    · show (n.toNat : Int) < 2^32; omega
  have h16 : ∀ n : UInt16, 0 ≤ (u16AsI32 n).toInt ∧ (u16AsI32 n).toInt ≤ 65535 := by
    intro n
    rw [u16AsI32_toInt]
    have := n.toNat_lt
    omega
  obtain ⟨cr, cn, tk, p⟩ := c
  obtain ⟨key, lr, nonce, ke, fl, a, s, en, r, sr, sn, caddr, pa⟩ := p
  simp only [Credential.mk.injEq, EncAsRepPart.mk.injEq, true_and] at hc
  obtain ⟨rfl, rfl, rfl, rfl, rfl, rfl, rfl, rfl, rfl, rfl, rfl, rfl⟩ := hc
  refine ⟨⟨⟨n1, n2⟩, h16 _, hu _, ?_, hu _, ?_, ?_, ?_⟩, rfl⟩
  · intro t ht
    have ht := Option.some.inj ht; subst ht; exact hu _
  · intro t ht
    dsimp only [fromTimes] at ht
    by_cases hz : e.time.renew_till = 0
    · rw [if_pos hz] at ht; cases ht
    · rw [if_neg hz] at ht
      have ht := Option.some.inj ht; subst ht
      refine ⟨hu _, fun h0 => hz ?_⟩
      have h0 : (e.time.renew_till.toNat : Int) = 0 := h0
      rw [← UInt32.toNat_inj]
      show e.time.renew_till.toNat = 0
      omega
  · intro l hl
    dsimp only at hl
    cases hx : e.addrs with
    | nil => rw [hx] at hl; cases hl
    | cons x xs =>
      rw [hx, fromAddresses_cons, ← hx] at hl
      by_cases hr : NetbiosReadable e.addrs
      · obtain ⟨hs, l1, l2, -⟩ := (fromAddressLoop_spec e.addrs).1 hr
        rw [l1] at hl
        have hl := Option.some.inj hl; subst hl
        refine ⟨fun h0 => ?_, ?_⟩
        · rw [h0, hx] at l2; cases l2
        clear hx l1 hl
        generalize e.addrs = as at l2 ha hr
        induction l2 with
        | nil => exact fun _ hx => absurd hx List.not_mem_nil
        | @cons a b as bs hm _ ih =>
          intro h hh
          rcases List.mem_cons.1 hh with rfl | hh
          · obtain ⟨m1, m2, m3⟩ := hm
            have := a.addrtype.toNat_lt
            refine ⟨by omega, by omega, fun h20 => ?_⟩
            have ht : a.addrtype = 20 := by
              rw [h20] at m1
              rw [← UInt16.toNat_inj]
              have : (20 : Int32).toInt = 20 := rfl
              have : (20 : UInt16).toNat = 20 := rfl
              omega
            obtain ⟨s, hs⟩ := hr a (List.mem_cons_self ..) ht
            exact ⟨s, ha a (List.mem_cons_self ..) ht s hs, m3 s ht hs⟩
          · exact ih (fun x hx => ha x (List.mem_cons_of_mem _ hx)) (fun x hx => hr x (List.mem_cons_of_mem _ hx)) h hh
      · rw [(fromAddressLoop_spec e.addrs).2 hr] at hl; cases hl
  · intro l hl
    dsimp only at hl
    by_cases hp : e.authdata = []
    · simp [hp] at hl
    · rw [if_neg (by simpa using hp)] at hl
      have hl := Option.some.inj hl; subst hl
      refine ⟨by simpa using hp, ?_⟩
      intro p hpm
      obtain ⟨x, -, rfl⟩ := List.mem_map.1 hpm
      exact h16 _

/-- C82. If no NetBIOS address of the file ends in white space, the saved file holds exactly what was loaded: loading it
gives the same warehouse. -/
theorem c82_identity (X : Ext) (g : Cfg) (data : Bytes) (c : CC.CCache) (rest : Bytes) (w : Warehouse)
    (hp : CC.CCache.parse data = .ok (c, rest)) (h : loadCCache g data = .ok w)
    (ht : ∀ x ∈ w.credentials, (MsgType.build g .ticket x.ticket).length < 2^32)
    (ha : ∀ e ∈ c.credentials, ∀ a ∈ e.addrs, a.addrtype = 20 → ∀ s, a.addrdata = utf8 s → NoTrailingSpace s) :
    loadCCache g (w.toCCache X g).build = .ok w := by
  have hf := c82_fits X g data w h ht
  obtain ⟨p1, p2⟩ := ofCCache_ok (by rw [loadCCache_ok hp] at h; exact h)
  have hall : ∀ x ∈ w.credentials, Cacheable x ∧ reset x = x := by
    generalize w.credentials = cs at p2
    generalize c.credentials = es at p2 ha
    induction p2 with
    | nil => exact fun _ hx => absurd hx List.not_mem_nil
    | cons a _ ih =>
      intro x hx
      rcases List.mem_cons.1 hx with rfl | hx
      · exact ofEntry_cacheable a (ha _ (List.mem_cons_self ..))
      · exact ih (fun e he => ha e (List.mem_cons_of_mem _ he)) x hx
  rw [c25_reload_identity X g w hf (fromPrincipal_ok.1 p1).2 (fun x hx => (hall x hx).1),
    List.map_congr_left (fun x hx => (hall x hx).2), List.map_id']

/-! A file with a NetBIOS name that ends in a tab: it is loaded with the tab, saved without, and stable from then on. -/

def tabFile : CC.CCache :=
  CC.CCache.new ⟨1, [0, 0, 0, 1, 0, 0, 0, 0]⟩ CC.sampleClient
    [{ CC.sampleCred with addrs := [⟨20, [0x48, 0x09]⟩, ⟨2, [10, 0, 0, 1]⟩],
                          ticket := MsgType.build strictCfg .ticket exCredential.ticket }]

def tabLoaded : Warehouse := match loadCCache strictCfg tabFile.build with | .ok w => w | .error _ => ⟨[], [], ⟨0, []⟩⟩

example : loadCCache strictCfg tabFile.build = .ok tabLoaded ∧
    (tabLoaded.credentials.map (fun c => c.client_part.caddr.map (·.map (·.address)))) =
      [some [[0x48, 0x09, 32, 32, 32, 32, 32, 32, 32, 32, 32, 32, 32, 32, 32, 32], [10, 0, 0, 1]]] ∧
    (∀ x ∈ tabLoaded.credentials, (MsgType.build strictCfg .ticket x.ticket).length < 2^32) ∧
    ((tabLoaded.toCCache exExt strictCfg).credentials.map (·.addrs)) = [[⟨20, [0x48]⟩, ⟨2, [10, 0, 0, 1]⟩]] := by
  decide +kernel

end Verif.Kb
