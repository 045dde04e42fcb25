import Verif.Asn1OptionalLemmas
import Verif.Props.Reading
/-
Property theorems C60: components of messages that are left out (kerberos_asn1).
-/
namespace Verif.Asn1

/-- C60. For every message type but the AP-REP part: from every encoding, any of the components that the standard calls OPTIONAL
can be left out, and it is still read: as the message whose standard encoding is that of the whole one without these components.
Whatever the external crate tolerates. -/
theorem c60_may_be_missing (g : Cfg) (T : MsgType) (hT : T ≠ .encApRepPart) (v : T.Value) (d : Der) (h : T.Read v d)
    (gone : Nat → Bool) (hg : ∀ n, gone n = true → n ∈ optionalComponents T) (hs : (d.without gone).bytes.length < 2^64)
    (rest : Bytes) :
    ∃ v', T.parse g ((d.without gone).bytes ++ rest) = .ok (v', rest) ∧ T.der rfc v' = (T.der rfc v).without gone := by
  obtain ⟨v', h1, h2⟩ := MsgType.read_without gone T hT v d h (fun n hn => by
    cases hgn : gone n
    · rfl
    · exact absurd (hg n hgn) hn)
  exact ⟨v', c76_reads g T v' _ h1 hs rest, h2⟩

theorem refused_without {g : Cfg} (hg : g.Strict) {T : MsgType} {v : T.Value} {d : Der} (h : T.Read v d) {gone : Nat → Bool} {n : Nat}
    (hn : gone n = true) (hr : ∀ v' d', T.Read v' d' → n ∈ nums d'.components) (rest : Bytes)
    (hs : (d.without gone).bytes.length + rest.length < 2^64) (v' : T.Value) (r : Bytes) :
    T.parse g ((d.without gone).bytes ++ rest) ≠ .ok (v', r) := by
  intro hp
  have hs' : ((d.without gone).bytes ++ rest).length < 2^64 := by rw [List.length_append]; exact hs
  obtain ⟨d', h1, h2⟩ := (c76_exact g hg T _ hs' v' r).1 hp
  have hl : d'.bytes.length < 2^64 := by
    have := congrArg List.length h2
    rw [List.length_append] at this hs'
    rw [List.length_append] at this
    omega
  obtain ⟨rfl, -⟩ := Der.bytes_inj _ _ _ _ (without_tagged gone d (T.read_tagged v d h)) (T.read_tagged v' d' h1)
    (by omega) hl h2
  have := hr v' _ h1
  rw [components_without] at this
  rw [nums_leave gone _ n this] at hn
  exact nomatch hn

/-- C60. A component the standard does not call OPTIONAL can not be left out: what is left of any encoding is refused, whatever
follows it. -/
theorem c60_must_be_there (g : Cfg) (hg : g.Strict) (T : MsgType) (v : T.Value) (d : Der) (h : T.Read v d) (gone : Nat → Bool) (n : Nat)
    (hn : n ∈ requiredComponents T) (hgone : gone n = true) (rest : Bytes)
    (hs : (d.without gone).bytes.length + rest.length < 2^64) (v' : T.Value) (r : Bytes) :
    T.parse g ((d.without gone).bytes ++ rest) ≠ .ok (v', r) := by
  refine refused_without hg h hgone (fun v' d' h' => ?_) rest hs v' r
  by_cases hT : T = .encApRepPart
  · subst hT
    refine (EncApRepPart_read_comps v' d' h').1 n ?_
    revert hn
    rw [show requiredComponents .encApRepPart = [0, 1] from rfl]
    intro hn
    exact List.mem_append_left [2, 3] hn
  · exact (T.read_has v' d' h' hT (fun h0 => by rw [h0] at hn; exact nomatch hn)).1 n hn

/-- C60 violated. From no encoding of an AP-REP part can `subkey` [2] or `seq-number` [3] be left out, although the standard calls
both OPTIONAL. -/
theorem c60_ap_rep_strict (g : Cfg) (hg : g.Strict) (v : EncApRepPart) (d : Der) (h : MsgType.Read .encApRepPart v d)
    (gone : Nat → Bool) (n : Nat) (hn : n ∈ optionalComponents .encApRepPart) (hgone : gone n = true) (rest : Bytes)
    (hs : (d.without gone).bytes.length + rest.length < 2^64) (v' : EncApRepPart) (r : Bytes) :
    MsgType.parse g .encApRepPart ((d.without gone).bytes ++ rest) ≠ .ok (v', r) :=
  refused_without hg (T := .encApRepPart) h hgone (fun v' d' h' =>
    (EncApRepPart_read_comps v' d' h').1 n (List.mem_append_right [0, 1] hn)) rest hs v' r

/-- C60. The tables are complete: every numbered component of an encoding of a SEQUENCE message is in exactly one of them, and
every one of the first table is there. -/
theorem c60_components (T : MsgType) (hT : requiredComponents T ≠ []) (v : T.Value) (d : Der) (h : T.Read v d) :
    (∀ x ∈ d.components, ∀ n, x.number? = some n → n ∈ requiredComponents T ∨ n ∈ optionalComponents T) ∧
    (∀ n ∈ requiredComponents T, n ∉ optionalComponents T ∧ ∃ x ∈ d.components, x.number? = some n) := by
  have hh : Has d (requiredComponents T) (optionalComponents T) := by
    by_cases he : T = .encApRepPart
    · subst he
      obtain ⟨h1, h2⟩ := EncApRepPart_read_comps v d h
      refine ⟨fun n hn => h1 n (List.mem_append_left [2, 3] hn), fun n hn => ?_⟩
      have := h2 n hn
      have h3 : n ∈ [0, 1] ++ [2, 3] := this.resolve_right nofun
      exact List.mem_append.1 h3
    · exact T.read_has v d h he hT
  refine ⟨fun x hx n hn => hh.2 n (List.mem_filterMap.2 ⟨x, hx, hn⟩), fun n hn => ⟨?_, List.mem_filterMap.1 (hh.1 n hn)⟩⟩
  revert n
  clear hh h hT
  cases T <;> decide

/-! Concrete: an encryption with a key version, spelled with its number in two octets; leaving out the version gives the same without
it, leaving out the ciphertext is refused. -/

def exSpelling : Der :=
  .node 0x30 [.node 0xa0 [.prim 0x02 [0, 18]], .node 0xa1 [.prim 0x02 [7]], .node 0xa2 [.prim 0x04 [1, 2, 3]]]

theorem exSpelling_read : MsgType.Read .encryptedData ⟨18, some 7, [1, 2, 3]⟩ exSpelling := by
  refine ⟨_, rfl, [.node 0xa0 [.prim 0x02 [0, 18]]], [.node 0xa1 [.prim 0x02 [7]], .node 0xa2 [.prim 0x04 [1, 2, 3]]], rfl,
    ⟨_, rfl, [0, 18], rfl, by decide, by decide, by decide +kernel⟩, [.node 0xa1 [.prim 0x02 [7]]], [.node 0xa2 [.prim 0x04 [1, 2, 3]]], rfl,
    ⟨_, rfl, [7], rfl, by decide, by decide, by decide +kernel⟩, ⟨_, rfl, rfl⟩⟩

example : ∃ v', MsgType.parse strictCfg .encryptedData ((exSpelling.without (fun n => n = 1)).bytes ++ [9]) = .ok (v', [9]) ∧
    MsgType.der rfc .encryptedData v' = (MsgType.der rfc .encryptedData ⟨18, some 7, [1, 2, 3]⟩).without (fun n => n = 1) :=
  c60_may_be_missing strictCfg .encryptedData (fun h => nomatch h) _ _ exSpelling_read _ (by simp [optionalComponents]) (by decide +kernel) [9]

example : MsgType.parse strictCfg .encryptedData ((exSpelling.without (fun n => n = 1)).bytes ++ [9]) = .ok (⟨18, none, [1, 2, 3]⟩, [9]) := by
  decide +kernel

example (v' r) : MsgType.parse strictCfg .encryptedData ((exSpelling.without (fun n => n = 2)).bytes ++ [9]) ≠ .ok (v', r) :=
  c60_must_be_there strictCfg strictCfg_strict .encryptedData _ _ exSpelling_read _ 2 (by decide) rfl [9] (by decide +kernel) v' r

/-- an AP-REP part with both optional components, 1970-01-01 00:00:00 -/
def exApPart : Der :=
  .node 0x7b [.node 0x30 [.node 0xa0 [dTime rfc ⟨0, 0⟩], .node 0xa1 [.prim 0x02 [5]],
    .node 0xa2 [.node 0x30 [.node 0xa0 [.prim 0x02 [18]], .node 0xa1 [.prim 0x04 [8]]]], .node 0xa3 [.prim 0x02 [1, 0]]]]

theorem exApPart_read : MsgType.Read .encApRepPart ⟨⟨0, 0⟩, 5, ⟨18, [8]⟩, 256⟩ exApPart := by
  refine ⟨_, rfl, _, rfl, [_], [_, _, _], rfl, ⟨_, rfl, ⟨rfl, by decide +kernel, by decide +kernel⟩, rfl⟩, [_], [_, _], rfl,
    ⟨_, rfl, [5], rfl, by decide, by decide, by decide +kernel⟩, [_], [_], rfl,
    ⟨_, rfl, _, rfl, [_], [_], rfl, ⟨_, rfl, [18], rfl, by decide, by decide, by decide +kernel⟩, ⟨_, rfl, rfl⟩⟩,
    ⟨_, rfl, [1, 0], rfl, by decide, by decide, by decide +kernel⟩⟩

example (v' r) : MsgType.parse strictCfg .encApRepPart ((exApPart.without (fun n => n = 3)).bytes ++ []) ≠ .ok (v', r) :=
  c60_ap_rep_strict strictCfg strictCfg_strict _ _ exApPart_read _ 3 (by decide) rfl [] (by decide +kernel) v' r

end Verif.Asn1
