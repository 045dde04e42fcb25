import Verif.Props.Power
import Verif.Props.Keytab
/-
Property theorems C119: files damaged on the disk or on the way.
-/
set_option linter.unusedSimpArgs false
namespace Verif.Kb
open Verif.Asn1 Verif.Map

/-! ### Specification -/

/-- the session key of a credential replaced -/
def withKey (c : Credential) (x : Bytes) : Credential :=
  { c with client_part := { c.client_part with key := { c.client_part.key with keyvalue := x } } }

/-- the encrypted part of the ticket of a credential replaced -/
def withTicketBytes (c : Credential) (x : Bytes) : Credential := { c with ticket := withCipher c.ticket x }

/-- `file'` is `file` with the octets from `start` on, `old.length` of them, replaced by others -/
def Replaced (file file' old new : Bytes) (start : Nat) : Prop :=
  old.length = new.length ∧ file.length = file'.length ∧ (file.drop start).take old.length = old ∧
    (file'.drop start).take old.length = new ∧
    ∀ i, (i < start ∨ start + old.length ≤ i) → file'[i]? = file[i]?

theorem replaced_mid (a z old new : Bytes) (h : old.length = new.length) :
    Replaced (a ++ old ++ z) (a ++ new ++ z) old new a.length := by
  refine ⟨h, by simp [h], by simp, ?_, ?_⟩
  · simp [h]
  · intro i hi
    rcases hi with hi | hi
    · rw [List.append_assoc, List.append_assoc, List.getElem?_append_left hi, List.getElem?_append_left hi]
    · rw [List.getElem?_append_right (by rw [List.length_append]; omega),
        List.getElem?_append_right (by rw [List.length_append]; omega)]
      simp [h]

/-! ### Lemmas -/

theorem framed_key (X : Ext) (g : Cfg) (w : Warehouse) (pre post : List Credential) (c : Credential) (n : Nat) :
    Framed n (fun x => (Warehouse.toCCache X g { w with credentials := pre ++ withKey c x :: post }).build) := by
  let e : CC.Credential := c.toEntry X g
  have h1 : Framed n (fun x => be16 (UInt16.ofNat x.length) ++ x) := (framed_id n).lengthed (fun k => be16 (UInt16.ofNat k))
  have h2 : Framed n (fun x => (Credential.toEntry X g (withKey c x)).build) := by
    refine Framed.congr ((h1.before (e.client.build ++ e.server.build ++ be16 e.key.keytype ++ be16 e.key.etype)).after
      (e.time.build ++ [e.is_skey]
      ++ be32 e.tktflags ++ be32 (UInt32.ofNat e.addrs.length) ++ e.addrs.flatMap CC.Address.build
      ++ be32 (UInt32.ofNat e.authdata.length) ++ e.authdata.flatMap CC.Address.build ++ CC.buildCos e.ticket
      ++ CC.buildCos e.second_ticket)) (fun x => ?_)
    simp only [e, toEntry_eq, withKey, CC.Credential.build, CC.KeyBlock.build, toKeyBlock, CC.KeyBlock.new, List.append_assoc]
  have h3 := ((h2.after (post.flatMap (fun c => (c.toEntry X g).build))).before
    (pre.flatMap (fun c => (c.toEntry X g).build))).before (CC.CCache.build (Warehouse.toCCache X g { w with credentials := [] }))
  refine h3.congr (fun x => ?_)
  simp [Warehouse.toCCache, CC.CCache.build, CC.CCache.new, List.flatMap_append, List.flatMap_map]

theorem fits_withKey {X g} {w : Warehouse} {pre post : List Credential} {c : Credential}
    (hw : w.credentials = pre ++ c :: post) (h : (w.toCCache X g).Fits) (x : Bytes)
    (hx : x.length = c.client_part.key.keyvalue.length) :
    (Warehouse.toCCache X g { w with credentials := pre ++ withKey c x :: post }).Fits := by
  obtain ⟨h1, h2, h3, h4⟩ := h
  refine ⟨h1, h2, h3, ?_⟩
  intro e he
  obtain ⟨k, hk, rfl⟩ := List.mem_map.1 he
  have old : ∀ k ∈ w.credentials, (k.toEntry X g).Fits := fun k hk => h4 _ (List.mem_map_of_mem hk)
  rw [hw] at old
  rcases List.mem_append.1 hk with hk | hk
  · exact old k (List.mem_append_left _ hk)
  rcases List.mem_cons.1 hk with rfl | hk
  · have h5 := old c (by simp)
    rw [toEntry_eq] at h5 ⊢
    obtain ⟨p1, p2, p3, p4, p5, p6, p7, p8, p9⟩ := h5
    refine ⟨p1, p2, ?_, p4, p5, p6, p7, p8, p9⟩
    have p3' : c.client_part.key.keyvalue.length < 2^16 := p3
    show x.length < 2^16
    omega
  · exact old k (by simp [hk])

theorem cacheable_withKey {c : Credential} (h : Cacheable c) (x : Bytes) : Cacheable (withKey c x) :=
  ⟨⟨h.1.1, h.1.2⟩, h.2, h.3, h.4, h.5, h.6, h.7, h.8⟩

theorem cacheable_withTicket {c : Credential} (h : Cacheable c) (x : Bytes) : Cacheable (withTicketBytes c x) :=
  ⟨⟨h.1.1, h.1.2⟩, h.2, h.3, h.4, h.5, h.6, h.7, h.8⟩

theorem mem_replaced {P : Credential → Prop} {l pre post : List Credential} {c c' : Credential} (hl : l = pre ++ c :: post)
    (h : ∀ c ∈ l, P c) (hc : P c') : ∀ c ∈ pre ++ c' :: post, P c := by
  subst hl
  intro k hk
  rcases List.mem_append.1 hk with hk | hk
  · exact h k (List.mem_append_left _ hk)
  rcases List.mem_cons.1 hk with rfl | hk
  · exact hc
  · exact h k (by simp [hk])

/-! ### C119 -/

/-- C119. A damaged cache file is refused or gives another cache: what was saved is read only from a file that has the same octets,
except for the third and fourth, which are not looked at. -/
theorem c119_damage_shows (c : CC.CCache) (h : c.Fits) (file : Bytes) (i : Nat) (hi : i ≠ 2 ∧ i ≠ 3)
    (hd : file[i]? ≠ c.build[i]?) : CC.CCache.parse file ≠ .ok (c, []) := by
  intro hp
  obtain ⟨h1, h2⟩ := CC.c03_no_alias _ _ _ _ hp (CC.c01_ccache_roundtrip c h)
  apply hd
  by_cases hlt : i < 2
  · have e1 := congrArg (·[i]?) h1
    simpa [List.getElem?_take, hlt] using e1
  · have e2 := congrArg (·[i - 4]?) h2
    simp only [List.getElem?_drop] at e2
    rwa [show 4 + (i - 4) = i by omega] at e2

/-- C119, violated. Damage to a session key is not noticed: other octets in its place are loaded as the key, and all else as it was
saved. -/
theorem c119_key (X : Ext) (g : Cfg) (w : Warehouse) (pre post : List Credential) (c : Credential)
    (hw : w.credentials = pre ++ c :: post) (h : (w.toCCache X g).Fits) (hn : w.client.name_string ≠ [])
    (hc : ∀ c ∈ w.credentials, Cacheable c) (x : Bytes) (hx : x.length = c.client_part.key.keyvalue.length) :
    ∃ start file', Replaced (w.toCCache X g).build file' c.client_part.key.keyvalue x start ∧
      loadCCache g file' = .ok { w with credentials := pre.map reset ++ withKey (reset c) x :: post.map reset } := by
  obtain ⟨a, z, hf⟩ := framed_key X g w pre post c c.client_part.key.keyvalue.length
  refine ⟨a.length, a ++ x ++ z, ?_, ?_⟩
  · have hs : (w.toCCache X g).build = a ++ c.client_part.key.keyvalue ++ z := by
      rw [← hf _ rfl]
      have e : ({ w with credentials := pre ++ withKey c c.client_part.key.keyvalue :: post } : Warehouse) = w := by
        have e : withKey c c.client_part.key.keyvalue = c := rfl
        rw [e, ← hw]
      exact (congrArg (fun w : Warehouse => (w.toCCache X g).build) e).symm
    rw [hs]
    exact replaced_mid a z _ x hx.symm
  · rw [← hf x hx, c25_reload_identity X g _ (fits_withKey hw h x hx) hn
      (mem_replaced hw hc (cacheable_withKey (hc c (by rw [hw]; simp)) x)), List.map_append, List.map_cons]
    rfl

/-- C119, violated. Nor is damage to the encrypted part of a ticket. -/
theorem c119_ticket (X : Ext) (g : Cfg) (w : Warehouse) (pre post : List Credential) (c : Credential)
    (hw : w.credentials = pre ++ c :: post) (h : (w.toCCache X g).Fits) (hn : w.client.name_string ≠ [])
    (hc : ∀ c ∈ w.credentials, Cacheable c) (x : Bytes) (hx : x.length = c.ticket.enc_part.cipher.length) :
    ∃ start file', Replaced (w.toCCache X g).build file' c.ticket.enc_part.cipher x start ∧
      loadCCache g file' = .ok { w with credentials := pre.map reset ++ withTicketBytes (reset c) x :: post.map reset } := by
  obtain ⟨a, z, hf⟩ := framed_cache X g w pre post c c.ticket.enc_part.cipher.length
  refine ⟨a.length, a ++ x ++ z, ?_, ?_⟩
  · have hs : (w.toCCache X g).build = a ++ c.ticket.enc_part.cipher ++ z := by
      rw [← hf _ rfl]
      have e : ({ w with credentials := pre ++ { c with ticket := withCipher c.ticket c.ticket.enc_part.cipher } :: post } :
          Warehouse) = w := by
        have e : withCipher c.ticket c.ticket.enc_part.cipher = c.ticket := rfl
        rw [e, ← hw]
      exact (congrArg (fun w : Warehouse => (w.toCCache X g).build) e).symm
    rw [hs]
    exact replaced_mid a z _ x hx.symm
  · rw [← hf x hx, c25_reload_identity X g _ (fits_withCipher hw h x hx) hn
      (mem_replaced hw hc (cacheable_withTicket (hc c (by rw [hw]; simp)) x)), List.map_append, List.map_cons]
    rfl

/-- C119, violated. Nor is damage to a key in a keytab. -/
theorem c119_keytab (dbg : Bool) (k : KT.Keytab) (hf : k.Fits) (pre post : List KT.KeytabEntry) (e : KT.KeytabEntry)
    (hk : k.entries = pre ++ e :: post) (x : Bytes) (hx : x.length = e.key.keyvalue.length) :
    ∃ start file', Replaced k.build file' e.key.keyvalue x start ∧
      KT.Keytab.parse dbg file' =
        .ok ({ k with entries := pre ++ { e with key := { e.key with keyvalue := x } } :: post }, []) := by
  have fr : Framed e.key.keyvalue.length (fun x => (KT.KeytabEntry.build { e with key := { e.key with keyvalue := x } })) := by
    have h1 : Framed e.key.keyvalue.length (fun x => be16 (UInt16.ofNat x.length) ++ x) :=
      (framed_id _).lengthed (fun k => be16 (UInt16.ofNat k))
    have h2 : Framed e.key.keyvalue.length (fun x => (KT.KeytabEntry.body { e with key := { e.key with keyvalue := x } })) := by
      refine Framed.congr ((h1.before (be16 (UInt16.ofNat e.components.length) ++ KT.buildCos e.realm
        ++ e.components.flatMap KT.buildCos ++ be32 e.name_type ++ be32 e.timestamp ++ [e.vno8] ++ be16 e.key.keytype)).after
        (match e.vno with | some v => be32 v | none => [])) (fun x => ?_)
      simp only [KT.KeytabEntry.body, KT.KeyBlock.build, List.append_assoc]
      cases e.vno <;> rfl
    exact h2.lengthed (fun k => be32 (UInt32.ofNat k))
  have fr2 : Framed e.key.keyvalue.length (fun x => KT.Keytab.build
      { k with entries := pre ++ { e with key := { e.key with keyvalue := x } } :: post }) := by
    refine Framed.congr (((fr.after (post.flatMap KT.KeytabEntry.build)).before (pre.flatMap KT.KeytabEntry.build)).before
      [k.kversion, k.version]) (fun x => ?_)
    simp [KT.Keytab.build, List.flatMap_append]
  obtain ⟨a, z, h⟩ := fr2
  refine ⟨a.length, a ++ x ++ z, ?_, ?_⟩
  · have hs : k.build = a ++ e.key.keyvalue ++ z := by
      rw [← h _ rfl]
      have e' : ({ k with entries := pre ++ { e with key := { e.key with keyvalue := e.key.keyvalue } } :: post } : KT.Keytab) = k := by
        rw [show ({ e with key := { e.key with keyvalue := e.key.keyvalue } } : KT.KeytabEntry) = e from rfl, ← hk]
      exact (congrArg KT.Keytab.build e').symm
    rw [hs]
    exact replaced_mid a z _ x hx.symm
  · rw [← h x hx]
    refine KT.c10_keytab_roundtrip dbg _ ?_
    intro t ht
    have old : ∀ t ∈ pre ++ e :: post, t.Fits := fun t ht => hf t (by rw [hk]; exact ht)
    rcases List.mem_append.1 ht with ht | ht
    · exact old t (List.mem_append_left _ ht)
    rcases List.mem_cons.1 ht with rfl | ht
    · obtain ⟨q1, q2, q3, q4, q5⟩ := old e (by simp)
      refine ⟨q1, q2, q3, by rw [← hx] at q4; exact q4, ?_⟩
      unfold KT.KeytabEntry.bodySize at q5 ⊢
      rw [← hx] at q5
      exact q5
    · exact old t (by simp [ht])

/-! ### Cases that meet the hypotheses -/

example : exPages.credentials = [] ++ exPage :: [] ∧ (exPages.toCCache exExt strictCfg).Fits ∧ exPages.client.name_string ≠ [] ∧
    (∀ c ∈ exPages.credentials, Cacheable c) ∧ [9, 9, 9].length = exPage.client_part.key.keyvalue.length ∧
    withKey exPage [9, 9, 9] ≠ exPage :=
  ⟨rfl, exPages_fits, List.cons_ne_nil _ _, fun c hc => (List.mem_singleton.1 hc) ▸ exPage_cacheable, rfl,
    fun h => absurd (congrArg (fun c : Credential => c.client_part.key.keyvalue) h) (by decide)⟩

example : KT.sampleKeytab.Fits ∧ KT.sampleKeytab.entries = [KT.sampleEntry] ++ { KT.sampleEntry with vno := none } :: [] ∧
    KT.sampleEntry.key.keyvalue ≠ [] := by decide

/-- an octet of a cache file changed: another cache; the fourth octet changed: the same cache -/
example : CC.CCache.parse (CC.sampleCache.build.set 20 0xee) ≠ .ok (CC.sampleCache, []) ∧
    CC.CCache.parse (CC.sampleCache.build.set 3 0xee) = .ok (CC.sampleCache, []) := by decide +kernel

end Verif.Kb
