import Verif.Props.Resave
import Verif.Props.Mit
/-
C94: configuration entries of MIT caches.
-/
namespace Verif.Asn1

theorem parseTlv_mem {g : Cfg} {tag i v r} (h : parseTlv g tag i = .ok (v, r)) : i.head? = some tag ∧ ∀ b ∈ v, b ∈ i := by
  cases i with
  | nil => cases h
  | cons t i =>
    simp only [parseTlv] at h
    split at h
    · cases h
    · rename_i ht
      have ht : t = tag := by simpa using ht
      refine ⟨by rw [ht]; rfl, ?_⟩
      split at h
      · cases h
      · rename_i n r' hl
        split at h
        · cases h
        · injection h with h
          injection h with h1 h2
          intro b hb
          rw [← h1] at hb
          have hb := List.mem_of_mem_take hb
          refine List.mem_cons_of_mem _ ?_
          cases i with
          | nil => cases hl
          | cons x i =>
            simp only [parseLen] at hl
            split at hl
            · injection hl with hl; injection hl with _ hl; rw [← hl] at hb; exact List.mem_cons_of_mem _ hb
            · split at hl
              · cases hl
              · split at hl
                · cases hl
                · injection hl with hl; injection hl with _ hl; rw [← hl] at hb
                  exact List.mem_cons_of_mem _ (List.mem_of_mem_drop hb)

/-- whatever is read as a ticket begins with 0x61 and has a byte 0xa0 in it -/
theorem ticket_bytes {g : Cfg} {i t r} (h : MsgType.parse g .ticket i = .ok (t, r)) : i.head? = some 0x61 ∧ (0xa0 : UInt8) ∈ i := by
  have h : (ticketC g).dec g i = .ok (t, r) := h
  simp only [Codec.dec] at h
  split at h
  · cases h
  · rename_i v1 r1 h1
    obtain ⟨a1, b1⟩ := parseTlv_mem h1
    refine ⟨a1, ?_⟩
    split at h
    · cases h
    · rename_i t' h2
      simp only [ticketC, appC] at h2
      split at h2
      · cases h2
      · rename_i t2 left h3
        simp only [Codec.dec] at h3
        split at h3
        · cases h3
        · rename_i v2 r2 h4
          obtain ⟨-, b2⟩ := parseTlv_mem h4
          split at h3
          · cases h3
          · rename_i t3 h5
            simp only [seqC] at h5
            split at h5
            · cases h5
            · rename_i t4 left4 h6
              simp only [Ticket.fields, Fields.imap] at h6
              split at h6
              · cases h6
              · rename_i x y h7
                rw [reqField] at h7
                dsimp only at h7
                split at h7
                · cases h7
                · rename_i z1 z2 h8
                  simp only [parseWrapped] at h8
                  split at h8
                  · cases h8
                  · rename_i v5 r5 h9
                    obtain ⟨a3, -⟩ := parseTlv_mem h9
                    refine b1 _ (b2 _ ?_)
                    exact List.mem_of_mem_head? a3

end Verif.Asn1

namespace Verif.Kb
open Verif.Asn1 Verif.Map

/-- a configuration entry ("Credential cache file format": "Configuration entries are encoded as credential entries with the
server principal krb5_ccache_conf_data/..., realm X-CACHECONF:, and the value in the ticket") -/
def ConfigEntry (e : Mit.Credential) : Prop :=
  e.server.realm = utf8 "X-CACHECONF:".toList ∧ e.server.components.head? = some (utf8 "krb5_ccache_conf_data".toList)

instance (e : Mit.Credential) : Decidable (ConfigEntry e) := by unfold ConfigEntry; infer_instance

/-- C94 (violation). A valid MIT cache with a configuration entry whose value is ASCII text (like all that kinit writes:
"yes", numbers, JSON) is refused, whatever tickets it holds: as a warehouse and by the conversion to KRB-CRED. -/
theorem c94_refused (g : Cfg) (hg : g.Total) (m : Mit.Cache) (hv : m.Valid) (h1 : m.fields.length = 1)
    (h2 : ∀ x ∈ m.credentials, x.key.length < 2 ^ 16) (e : Mit.Credential) (he : e ∈ m.credentials) (_hc : ConfigEntry e)
    (ht : ∀ b ∈ e.ticket, b.toNat < 128) :
    (∃ err, err ≠ KErr.panic ∧ loadCCache g m.bytes = .error err) ∧
    ∃ c, CC.CCache.parse m.bytes = .ok (c, []) ∧ ∀ k, ccacheToKrbCred g c ≠ .ok k := by
  obtain ⟨c, hp, rfl⟩ := (CC.c70_reads_format m hv).2 ⟨h1, h2⟩
  obtain ⟨x, hx, rfl⟩ := List.mem_map.1 he
  have hno : ∀ t r, MsgType.parse g .ticket x.ticket ≠ .ok (t, r) := by
    intro t r h
    have := ht _ (ticket_bytes h).2
    exact absurd this (by decide)
  refine ⟨?_, c, hp, ?_⟩
  · cases hl : loadCCache g c.mit.bytes with
    | error err => exact ⟨err, fun h => c25_load_no_panic g hg c.mit.bytes (by rw [hl, h]), rfl⟩
    | ok w =>
      obtain ⟨c', rest, hp', -, h⟩ := (c82_loads_iff g c.mit.bytes).1 ⟨w, hl⟩
      rw [hp] at hp'
      injection hp' with hp'
      injection hp' with hp'
      subst hp'
      obtain ⟨t, r, ht⟩ := (h x hx).ticket
      exact absurd ht (hno t r)
  · intro k hk
    obtain ⟨-, -, t, r, ht⟩ := (c17_converts_iff g c).1 ⟨k, hk⟩ x hx
    exact hno t r ht

/-- the cache without its configuration entries -/
def withoutConfig (m : Mit.Cache) : Mit.Cache := { m with credentials := m.credentials.filter fun e => ¬ ConfigEntry e }

/-- C94. It is only the configuration entries: without them the file loads, with all its tickets, if the names in it are
UTF-8 and not empty and its tickets are tickets. -/
theorem c94_without (g : Cfg) (m : Mit.Cache) (hv : m.Valid) (h1 : m.fields.length = 1)
    (h2 : ∀ x ∈ m.credentials, x.key.length < 2 ^ 16)
    (ho : m.principal.components ≠ [] ∧ IsUtf8 m.principal.realm ∧ ∀ c ∈ m.principal.components, IsUtf8 c)
    (h3 : ∀ e ∈ m.credentials, ¬ ConfigEntry e →
      (e.client.components ≠ [] ∧ IsUtf8 e.client.realm ∧ ∀ c ∈ e.client.components, IsUtf8 c) ∧
      (e.server.components ≠ [] ∧ IsUtf8 e.server.realm ∧ ∀ c ∈ e.server.components, IsUtf8 c) ∧
      ∃ t rest, MsgType.parse g .ticket e.ticket = .ok (t, rest)) :
    ∃ w, loadCCache g (withoutConfig m).bytes = .ok w ∧
      List.Forall₂ (fun e (c : Credential) => ∃ rest, MsgType.parse g .ticket e.ticket = .ok (c.ticket, rest))
        (withoutConfig m).credentials w.credentials := by
  have hmem : ∀ x ∈ (withoutConfig m).credentials, x ∈ m.credentials ∧ ¬ ConfigEntry x := by
    intro x hx
    have := List.mem_filter.1 hx
    exact ⟨this.1, by simpa using this.2⟩
  have hv' : (withoutConfig m).Valid := ⟨hv.1, hv.2.1, hv.2.2.1, fun x hx => hv.2.2.2 x (hmem x hx).1⟩
  obtain ⟨c, hp, hc⟩ := (CC.c70_reads_format _ hv').2 ⟨h1, fun x hx => h2 x (hmem x hx).1⟩
  have hcred : c.credentials.map CC.Credential.mit = (withoutConfig m).credentials := congrArg Mit.Cache.credentials hc
  have hprin : c.primary_principal.mit = m.principal := congrArg Mit.Cache.principal hc
  obtain ⟨w, hw⟩ := (c82_loads_iff g (withoutConfig m).bytes).2 ⟨c, [], hp, by
    rw [← hprin] at ho; exact ho, by
    intro e he
    have hm : e.mit ∈ (withoutConfig m).credentials := by rw [← hcred]; exact List.mem_map_of_mem he
    obtain ⟨q1, q2, q3⟩ := h3 _ (hmem _ hm).1 (hmem _ hm).2
    exact ⟨q1, q2, q3⟩⟩
  refine ⟨w, hw, ?_⟩
  rw [← hcred]
  rw [loadCCache_ok hp] at hw
  obtain ⟨-, h⟩ := ofCCache_ok hw
  generalize w.credentials = cs at h
  generalize c.credentials = es at h
  induction h with
  | nil => exact .nil
  | cons a _ ih =>
    refine .cons ?_ ih
    obtain ⟨t, rest, -, -, h3, hc⟩ := ofEntry_ok a
    exact ⟨rest, by rw [hc]; exact h3⟩

/-- what `kinit` adds to a cache: fast_avail = yes -/
def fastAvail (p : Mit.Principal) : Mit.Credential :=
  ⟨p, ⟨1, utf8 "X-CACHECONF:".toList, [utf8 "krb5_ccache_conf_data".toList, utf8 "fast_avail".toList, utf8 "krbtgt/R@R".toList]⟩,
    0, [], 0, 0, 0, 0, 0, 0, [], [], utf8 "yes".toList, []⟩

def configured : Mit.Cache :=
  { tabFile.mit with credentials := fastAvail tabFile.mit.principal :: tabFile.mit.credentials }

set_option maxRecDepth 100000 in
example : configured.Valid ∧ configured.fields.length = 1 ∧ (∀ x ∈ configured.credentials, x.key.length < 2 ^ 16) ∧
    ConfigEntry (fastAvail tabFile.mit.principal) ∧ (∀ b ∈ (fastAvail tabFile.mit.principal).ticket, b.toNat < 128) ∧
    (withoutConfig configured).bytes = tabFile.build ∧
    (loadCCache strictCfg configured.bytes).toOption = none ∧ (loadCCache strictCfg (withoutConfig configured).bytes).toOption = some tabLoaded := by
  unfold Mit.Cache.Valid Mit.Credential.Valid Mit.Principal.Valid Mit.Typed.Valid Mit.Field.Valid
  decide +kernel

end Verif.Kb
