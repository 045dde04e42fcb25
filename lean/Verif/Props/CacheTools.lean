import Verif.Props.Config

/-! C123: credential caches maintained with the MIT tools and with the library, in any order.

MIT initialises the file with a header and the default principal, stores a credential by appending it to the file, and removes
one (since version 1.18) by overwriting its times in place: the end becomes zero and the time of authentication -1 (for
configuration entries the realm of the server is overwritten too). -/

namespace Verif.Mit

/-- how MIT recognises a credential that was removed -/
def Credential.Removed (c : Credential) : Prop := c.endtime = 0 ∧ c.authtime ≠ 0

instance (c : Credential) : Decidable c.Removed := by unfold Credential.Removed; infer_instance

/-- What is done to a cache. -/
inductive CcOp
  /-- a credential is stored, by MIT or by the library -/
  | store (c : Credential)
  /-- a credential is removed by MIT -/
  | remove (c : Credential)
  /-- the cache is loaded by the library and saved again unchanged -/
  | resave

/-- the credentials a user expects in the cache; the last operation is the head of the list -/
def expected : List CcOp → List Credential
  | [] => []
  | .store c :: ops => c :: expected ops
  | .remove c :: ops => (expected ops).erase c
  | .resave :: ops => expected ops

/-- how often credentials were removed -/
def removedCount : List CcOp → Nat
  | [] => 0
  | .remove _ :: ops => removedCount ops + 1
  | _ :: ops => removedCount ops

end Verif.Mit

namespace Verif.CC
open Verif.Mit (CcOp expected removedCount)

/-- The cache files that arise (operations newest first) from an initialised one. -/
inductive CacheHistory (f : Mit.Field) (p : Mit.Principal) : List CcOp → Bytes → Mit.Cache → Prop
  /-- `kinit`: header and default principal -/
  | init (hf : f.Valid) (hl : f.bytes.length < 2 ^ 16) (hp : p.Valid) :
      CacheHistory f p [] (Mit.Cache.bytes ⟨[f], p, []⟩) ⟨[f], p, []⟩
  /-- MIT stores a credential: its octets are appended to the file -/
  | store {ops file m} (c : Mit.Credential) (h : CacheHistory f p ops file m) (hv : c.Valid) (hk : c.key.length < 2 ^ 16)
      (ha : ¬ c.Removed) :
      CacheHistory f p (.store c :: ops) (file ++ c.bytes) { m with credentials := m.credentials ++ [c] }
  /-- MIT removes a credential: times and, for a configuration entry, the realm of the server are overwritten -/
  | remove {ops before after pre post} (c : Mit.Credential) (realm : Bytes)
      (h : CacheHistory f p ops (before ++ c.bytes ++ after) ⟨[f], p, pre ++ c :: post⟩) (ha : ¬ c.Removed)
      (hb : before = Mit.Cache.bytes ⟨[f], p, pre⟩) (hr : realm.length = c.server.realm.length) :
      CacheHistory f p (.remove c :: ops)
        (before ++ Mit.Credential.bytes
          { c with authtime := 2 ^ 32 - 1, endtime := 0, server := { c.server with realm := realm } } ++ after)
        ⟨[f], p, pre ++ { c with authtime := 2 ^ 32 - 1, endtime := 0, server := { c.server with realm := realm } } :: post⟩
  /-- loaded and saved with the library -/
  | resave {ops file m} (c : CCache) (rest : Bytes) (h : CacheHistory f p ops file m)
      (hp : CCache.parse file = .ok (c, rest)) : CacheHistory f p (.resave :: ops) c.build m
  /-- loaded with the library, a credential added, saved with the library -/
  | push {ops file m} (c : CCache) (rest : Bytes) (e : Credential) (h : CacheHistory f p ops file m)
      (hp : CCache.parse file = .ok (c, rest)) (he : e.Fits) (h0 : e.key.etype = 0) (ha : ¬ e.mit.Removed) :
      CacheHistory f p (.store e.mit :: ops) (CCache.build { c with credentials := c.credentials ++ [e] })
        { m with credentials := m.credentials ++ [e.mit] }

/-- the invariant of all histories -/
structure KeptCache (f : Mit.Field) (p : Mit.Principal) (ops : List CcOp) (file : Bytes) (m : Mit.Cache) : Prop where
  file : file = m.bytes
  fields : m.fields = [f]
  principal : m.principal = p
  valid : m.Valid
  keys : ∀ x ∈ m.credentials, x.key.length < 2 ^ 16
  live : (m.credentials.filter fun c => ¬ c.Removed).Perm (expected ops)
  count : m.credentials.length = (expected ops).length + removedCount ops

/-- the value a valid file with one header field is read as -/
theorem reads_built (m : Mit.Cache) (h : m.Valid) {f : Mit.Field} (hfe : m.fields = [f])
    (hk : ∀ x ∈ m.credentials, x.key.length < 2 ^ 16) :
    ∃ c : CCache, c.Fits ∧ c.mit = m ∧ c.build = m.bytes ∧ ∀ x ∈ c.credentials, x.key.etype = 0 := by
  obtain ⟨-, hf, hp, hc⟩ := h
  let c : CCache := CCache.new (headerOf f) (principalOf m.principal) (m.credentials.map credentialOf)
  have hm : c.mit = m := by
    have hcs : (m.credentials.map credentialOf).map Credential.mit = m.credentials := by
      rw [List.map_map]
      conv => rhs; rw [← List.map_id m.credentials]
      apply List.map_congr_left
      intro x hx; exact credentialOf_mit (hc x hx)
    have hfv : f.Valid := hf f (by simp [hfe])
    show (⟨[(headerOf f).mit], (principalOf m.principal).mit, (m.credentials.map credentialOf).map Credential.mit⟩ : Mit.Cache) = m
    rw [headerOf_mit hfv, principalOf_mit hp, hcs, ← hfe]
  have hfit : c.Fits := by
    refine ⟨rfl, (hf f (by simp [hfe])).2, principalOf_fits hp, ?_⟩
    intro x hx
    obtain ⟨y, hy, rfl⟩ := List.mem_map.mp hx
    exact credentialOf_fits (hc y hy) (hk y hy)
  have h0 : ∀ x ∈ c.credentials, x.key.etype = 0 := by
    intro x hx
    obtain ⟨y, hy, rfl⟩ := List.mem_map.mp hx
    rfl
  exact ⟨c, hfit, hm, by rw [(c70_etype_not_format c hfit).mpr h0, hm], h0⟩

theorem KeptCache.parse {f p ops file m} (h : KeptCache f p ops file m) :
    ∃ c, CCache.parse file = .ok (c, []) ∧ c.mit = m ∧ c.build = file ∧ c.Fits ∧ ∀ x ∈ c.credentials, x.key.etype = 0 := by
  obtain ⟨c, h1, h2, h3, h4⟩ := reads_built m h.valid h.fields h.keys
  refine ⟨c, ?_, h2, by rw [h3, h.file], h1, h4⟩
  rw [h.file, ← h3]
  exact c01_ccache_roundtrip c h1

theorem removed_valid {c : Mit.Credential} (h : c.Valid) {realm : Bytes} (hr : realm.length = c.server.realm.length) :
    Mit.Credential.Valid { c with authtime := 2 ^ 32 - 1, endtime := 0, server := { c.server with realm := realm } } := by
  obtain ⟨h1, ⟨s1, s2, s3⟩, h3, h4, -, h6, -, h8⟩ := h
  exact ⟨h1, ⟨s1, by show realm.length < _; rw [hr]; exact s2, s3⟩, h3, h4, by show 2 ^ 32 - 1 < 2 ^ 32; decide, h6, by show 0 < 2 ^ 32; decide, h8⟩

theorem cache_bytes_append (m : Mit.Cache) (c : Mit.Credential) :
    Mit.Cache.bytes { m with credentials := m.credentials ++ [c] } = m.bytes ++ c.bytes := by
  simp [Mit.Cache.bytes]

theorem kept {f p ops file m} (h : CacheHistory f p ops file m) : KeptCache f p ops file m := by
  induction h with
  | init hf hl hp =>
    exact ⟨rfl, rfl, rfl, ⟨by simpa using hl, by simpa using hf, hp, by simp⟩, by simp, by simp [expected],
      by simp [expected, removedCount]⟩
  | @store ops file m c h hv hk ha ih =>
    refine ⟨by rw [cache_bytes_append, ih.file], ih.fields, ih.principal, ⟨ih.valid.1, ih.valid.2.1, ih.valid.2.2.1, ?_⟩, ?_, ?_, ?_⟩
    · intro x hx
      rcases List.mem_append.mp hx with hx | hx
      · exact ih.valid.2.2.2 x hx
      · rw [List.mem_singleton.mp hx]; exact hv
    · intro x hx
      rcases List.mem_append.mp hx with hx | hx
      · exact ih.keys x hx
      · rw [List.mem_singleton.mp hx]; exact hk
    · dsimp only
      rw [List.filter_append, List.filter_cons_of_pos (by simpa using ha)]
      exact (List.perm_append_singleton _ _).trans (ih.live.cons c)
    · simp [expected, removedCount, ih.count]; omega
  | @remove ops before after pre post c realm h ha hb hr ih =>
    subst hb
    have hc : c ∈ (⟨[f], p, pre ++ c :: post⟩ : Mit.Cache).credentials := by simp
    have hrem : Mit.Credential.Removed
        { c with authtime := 2 ^ 32 - 1, endtime := 0, server := { c.server with realm := realm } } :=
      ⟨rfl, by show 2 ^ 32 - 1 ≠ 0; decide⟩
    refine ⟨?_, rfl, rfl, ⟨ih.valid.1, ih.valid.2.1, ih.valid.2.2.1, ?_⟩, ?_, ?_, ?_⟩
    · have := ih.file
      have hafter : after = post.flatMap Mit.Credential.bytes := by
        simpa [Mit.Cache.bytes] using this
      simp [Mit.Cache.bytes, hafter]
    · intro x hx
      rcases List.mem_append.mp hx with hx | hx
      · exact ih.valid.2.2.2 x (by simp [hx])
      · rcases List.mem_cons.mp hx with rfl | hx
        · exact removed_valid (ih.valid.2.2.2 c hc) hr
        · exact ih.valid.2.2.2 x (by simp [hx])
    · intro x hx
      rcases List.mem_append.mp hx with hx | hx
      · exact ih.keys x (by simp [hx])
      · rcases List.mem_cons.mp hx with rfl | hx
        · exact ih.keys c hc
        · exact ih.keys x (by simp [hx])
    · have hl := ih.live
      dsimp only at hl ⊢
      rw [List.filter_append, List.filter_cons_of_pos (by simpa using ha)] at hl
      rw [List.filter_append, List.filter_cons_of_neg (by simpa using hrem)]
      have := (List.perm_middle.symm.trans hl).erase c
      rwa [List.erase_cons_head] at this
    · have hl := ih.live
      have hcount := ih.count
      have hmem : c ∈ expected ops := hl.mem_iff.mp (List.mem_filter.mpr ⟨hc, by simpa using ha⟩)
      have := List.length_erase_of_mem hmem
      have hpos := List.length_pos_of_mem hmem
      simp only [expected, removedCount, List.length_append, List.length_cons] at hcount ⊢
      omega
  | @resave ops file m c rest h hp ih =>
    obtain ⟨c', h1, h2, h3, -⟩ := ih.parse
    rw [h1] at hp
    obtain ⟨rfl, -⟩ := Prod.mk.inj (Except.ok.inj hp)
    exact ⟨by rw [h3, ih.file], ih.fields, ih.principal, ih.valid, ih.keys, ih.live, ih.count⟩
  | @push ops file m c rest e h hp he h0 ha ih =>
    obtain ⟨c', h1, h2, h3, h4, h5⟩ := ih.parse
    rw [h1] at hp
    obtain ⟨rfl, -⟩ := Prod.mk.inj (Except.ok.inj hp)
    have hv := credential_mit_valid he
    refine ⟨?_, ih.fields, ih.principal, ⟨ih.valid.1, ih.valid.2.1, ih.valid.2.2.1, ?_⟩, ?_, ?_, ?_⟩
    · rw [cache_bytes_append, c05_build_append, h3, ih.file, credential_mit e h0 he.2.2.1]; simp
    · intro x hx
      rcases List.mem_append.mp hx with hx | hx
      · exact ih.valid.2.2.2 x hx
      · rw [List.mem_singleton.mp hx]; exact hv
    · intro x hx
      rcases List.mem_append.mp hx with hx | hx
      · exact ih.keys x hx
      · rw [List.mem_singleton.mp hx]; exact he.2.2.1
    · dsimp only
      rw [List.filter_append, List.filter_cons_of_pos (by simpa using ha)]
      exact (List.perm_append_singleton _ _).trans (ih.live.cons e.mit)
    · simp [expected, removedCount, ih.count]; omega

/-- C123. Whatever was done to a cache, with the MIT tools and with the library in any order: it loads completely, with the
header field and default principal it was initialised with; the credentials shown that are not marked as removed are exactly
the expected ones (those stored and not removed, with all their fields and as often as expected), and besides them there is
one marked credential for every removal. -/
theorem c123_loads (f : Mit.Field) (p : Mit.Principal) (ops : List CcOp) (file : Bytes) (m : Mit.Cache)
    (h : CacheHistory f p ops file m) :
    ∃ c, CCache.parse file = .ok (c, []) ∧ c.header.mit = f ∧ c.primary_principal.mit = p ∧
      ((c.credentials.map Credential.mit).filter fun x => ¬ x.Removed).Perm (expected ops) ∧
      c.credentials.length = (expected ops).length + removedCount ops := by
  have hk := kept h
  obtain ⟨c, h1, rfl, -⟩ := hk.parse
  refine ⟨c, h1, ?_, hk.principal, hk.live, ?_⟩
  · have := hk.fields
    exact (List.cons.inj this).1
  · have := hk.count
    rwa [show c.mit.credentials = c.credentials.map Credential.mit from rfl, List.length_map] at this

/-- C123 (saving). Loading and saving with the library leaves the file as it is, octet for octet; adding a credential with the
library gives the same file as storing it with the MIT tools. -/
theorem c123_saved (f : Mit.Field) (p : Mit.Principal) (ops : List CcOp) (file : Bytes) (m : Mit.Cache)
    (h : CacheHistory f p ops file m) (c : CCache) (rest : Bytes) (hp : CCache.parse file = .ok (c, rest))
    (e : Credential) (he : e.Fits) (h0 : e.key.etype = 0) :
    c.build = file ∧ CCache.build { c with credentials := c.credentials ++ [e] } = file ++ e.mit.bytes := by
  obtain ⟨c', h1, -, h3, -⟩ := (kept h).parse
  rw [h1] at hp
  obtain ⟨rfl, -⟩ := Prod.mk.inj (Except.ok.inj hp)
  exact ⟨h3, by rw [c05_build_append, h3, credential_mit e h0 he.2.2.1]; simp⟩

/-- C123 (nothing removed). If nothing was removed the cache shows the stored credentials in the order they were stored. -/
theorem c123_stored_in_order (f : Mit.Field) (p : Mit.Principal) (ops : List CcOp) (file : Bytes) (m : Mit.Cache)
    (h : CacheHistory f p ops file m) (h0 : removedCount ops = 0) :
    ∃ c, CCache.parse file = .ok (c, []) ∧ c.credentials.map Credential.mit = (expected ops).reverse := by
  obtain ⟨c, h1, h2, -⟩ := (kept h).parse
  refine ⟨c, h1, ?_⟩
  rw [show c.credentials.map Credential.mit = c.mit.credentials from rfl, h2]
  clear h1 h2
  induction h with
  | init => rfl
  | store c h hv hk ha ih => rw [ih h0]; simp [expected]
  | remove => simp [removedCount] at h0
  | resave c rest h hp ih => rw [ih h0]; rfl
  | push c rest e h hp he h0' ha ih => rw [ih h0]; simp [expected]

/-! a history: two credentials stored, the first removed, saved by the library, another one added by the library -/

def historyField : Mit.Field := sampleCache.header.mit

theorem sample_cache_history : ∃ x y file m,
    x ≠ y ∧ CacheHistory historyField sampleCache.primary_principal.mit
      [.store x, .resave, .remove x, .store y, .store x] file m := by
  have hfit : sampleCache.Fits := by decide
  obtain ⟨-, hfv, hp, -⟩ := (c70_writes_format sampleCache hfit (by decide) (by decide)).2
  obtain ⟨a, ha⟩ : ∃ a, sampleCache.credentials[0]? = some a := ⟨_, rfl⟩
  have ham : a ∈ sampleCache.credentials := List.mem_of_getElem? ha
  have haf := hfit.2.2.2 a ham
  have ha0 : a.key.etype = 0 := by injection ha with e; subst e; decide
  have har : ¬ a.mit.Removed := by injection ha with e; subst e; decide
  have hav := credential_mit_valid haf
  let y : Mit.Credential := { a.mit with isSkey := 1 }
  have hyv : y.Valid := by
    obtain ⟨h1, h2, h3, h4, h5, h6, h7, h8, -, h9⟩ := hav
    exact ⟨h1, h2, h3, h4, h5, h6, h7, h8, by show 1 < 2 ^ 8; decide, h9⟩
  have hne : a.mit ≠ y := by injection ha with e; subst e; decide
  have h0 := CacheHistory.init (f := historyField) (p := sampleCache.primary_principal.mit) (hfv _ (by decide)) (by decide +kernel) hp
  have h1 := CacheHistory.store a.mit h0 hav haf.2.2.1 har
  have h2 := CacheHistory.store y h1 hyv haf.2.2.1 har
  have h3 := CacheHistory.remove (pre := []) (post := [y]) a.mit a.mit.server.realm h2 har rfl rfl
  obtain ⟨c, hc, -⟩ := (kept h3).parse
  have h4 := CacheHistory.resave c [] h3 hc
  obtain ⟨c', hc', -⟩ := (kept h4).parse
  have h5 := CacheHistory.push c' [] a h4 hc' haf ha0 har
  exact ⟨a.mit, y, _, _, hne, h5⟩

end Verif.CC

namespace Verif.Kb
open Verif.Asn1 Verif.Map Verif.CC
open Verif.Mit (CcOp expected removedCount)

/-- C123 (violation). The library does not know the mark: every removed credential is a credential of the warehouse and of
the KRB-CRED message the cache is converted to, and in the message its time of end is missing, so that it looks like one that
never ends. -/
theorem c123_removed_shown (g : Cfg) (f : Mit.Field) (p : Mit.Principal) (ops : List CcOp) (file : Bytes) (m : Mit.Cache)
    (h : CacheHistory f p ops file m) (c : CC.CCache) (rest : Bytes) (hp : CC.CCache.parse file = .ok (c, rest)) :
    (∀ w, loadCCache g file = .ok w → w.credentials.length = (expected ops).length + removedCount ops) ∧
    ∀ k, ccacheToKrbCred g c = .ok k → k.tickets.length = (expected ops).length + removedCount ops ∧
      ∃ infos, k.enc_part.cipher = MsgType.build g .encKrbCredPart ⟨infos, none, none, none, none, none⟩ ∧
        List.Forall₂ (fun e (it : KrbCredInfo × Ticket) => e.mit.Removed → it.1.endtime = none ∧ it.1.authtime ≠ none)
          c.credentials (infos.zip k.tickets) := by
  obtain ⟨c', h1, -, -, -, h2⟩ := c123_loads f p ops file m h
  rw [h1] at hp
  obtain ⟨rfl, -⟩ := Prod.mk.inj (Except.ok.inj hp)
  constructor
  · intro w hw
    unfold loadCCache at hw
    rw [h1] at hw
    rw [← h2]
    exact (ofCCache_ok hw).2.length_eq.symm
  · intro k hk
    obtain ⟨-, -, -, -, infos, e1, -, e3, e4⟩ := c19_pairing_back g c' k hk
    refine ⟨by rw [e3, h2], infos, e1, e4.imp ?_⟩
    intro e it hi hr
    have r1 : e.time.endtime = 0 := u32_ext (by have := hr.1; simpa [CC.Credential.mit] using this)
    have r2 : e.time.authtime ≠ 0 := by
      intro h0; exact hr.2 (by simp [CC.Credential.mit, h0])
    exact ⟨hi.endtime.1 r1, by rw [hi.authtime.2 r2]; simp⟩

end Verif.Kb
