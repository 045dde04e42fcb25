import Verif.Asn1ReadMsgs
import Verif.Props.Asn1
/-
Property theorems C76: what is read as a Kerberos message (kerberos_asn1).
-/
namespace Verif.Asn1

/-- C76. Whatever the external crate tolerates: every spelling of a message, followed by anything, is read as that message and
what followed is left. -/
theorem c76_reads (g : Cfg) (T : MsgType) (v : T.Value) (d : Der) (h : T.Read v d) (hs : d.bytes.length < 2^64) (rest : Bytes) :
    T.parse g (d.bytes ++ rest) = .ok (v, rest) :=
  (T.exact g).dec_reads h hs rest

/-- C76. With an external crate that adds no leniencies of its own, nothing else is read: an input is read as the message `v`
with `r` left if and only if it is a spelling of `v` followed by `r`. -/
theorem c76_exact (g : Cfg) (hg : g.Strict) (T : MsgType) (i : Bytes) (hs : i.length < 2^64) (v : T.Value) (r : Bytes) :
    T.parse g i = .ok (v, r) ↔ ∃ d, T.Read v d ∧ i = d.bytes ++ r := by
  constructor
  · intro h
    exact (T.exact g).dec_only hg h
  · rintro ⟨d, h1, rfl⟩
    rw [List.length_append] at hs
    exact c76_reads g T v d h1 (by omega) r

/-- C76. A DER value is a spelling of at most one message of a type. -/
theorem c76_one_value (T : MsgType) (v w : T.Value) (d : Der) (hv : T.Read v d) (hw : T.Read w d) (hs : d.bytes.length < 2^64) : v = w := by
  have h1 := c76_reads strictCfg T v d hv hs []
  rw [c76_reads strictCfg T w d hw hs []] at h1
  simp only [Except.ok.injEq, Prod.mk.injEq, and_true] at h1
  exact h1.symm

theorem strictCfg_strict : strictCfg.Strict where
  seq := rfl
  wrap := rfl
  len := rfl
  emptyInt _ := nofun
  u32Ext _ _ := nofun
  boolExt _ _ := nofun
  timeExt _ _ := nofun

/-- C76. What is written is a spelling: the bytes built for a message are those of a DER value that spells it. -/
theorem c76_written (g : Cfg) (hg : g.Strict) (T : MsgType) (v : T.Value) (hw : T.WF v) (hs : (T.build g v).length < 2^64) :
    ∃ d, T.Read v d ∧ T.build g v = d.bytes := by
  have h := c39_roundtrip g T v hw hs []
  obtain ⟨d, h1, h2⟩ := (c76_exact g hg T _ (by simpa using hs) v []).1 h
  exact ⟨d, h1, by simpa using h2⟩

/-! A spelling that is not what is written: a key with type 18 in two octets. Read as the same key as the shortest form. -/
example : MsgType.Read .encryptionKey ⟨18, [9]⟩
    (.node 0x30 [.node 0xa0 [.prim 0x02 [0, 18]], .node 0xa1 [.prim 0x04 [9]]]) := by
  refine ⟨_, rfl, [.node 0xa0 [.prim 0x02 [0, 18]]], [.node 0xa1 [.prim 0x04 [9]]], rfl, ⟨_, rfl, [0, 18], rfl, by decide, by decide, ?_⟩,
    ⟨_, rfl, rfl⟩⟩
  decide +kernel

/-- short flags (RFC 4120 5.2.8): missing bits are zero -/
example : MsgType.Read .kerberosFlags 0x40000000 (.prim 0x03 [6, 0x40]) := by
  refine ⟨6, [0x40], rfl, ?_⟩
  intro i hi
  match i, hi with
  | 0, _ => decide +kernel
  | 1, _ => decide +kernel
  | 2, _ => decide +kernel
  | 3, _ => decide +kernel

/-- not a digit: refused -/
example : MsgType.parse strictCfg .kerberosTime (Der.prim 0x18 "2019092:105115Z".toUTF8.data.toList).bytes = .error .error := by
  decide +kernel

/-- five octets: refused -/
example : MsgType.parse strictCfg .uInt32 [2, 5, 0, 0xff, 0, 0, 0] = .error .error := by decide +kernel

/-- a key whose value is missing, or with something after it: refused -/
example : MsgType.parse strictCfg .encryptionKey [0x30, 5, 0xa0, 3, 2, 1, 18] = .error .error := by decide +kernel
example : MsgType.parse strictCfg .encryptionKey [0x30, 12, 0xa0, 3, 2, 1, 18, 0xa1, 3, 4, 1, 9, 5, 0] = .error .error := by
  decide +kernel

end Verif.Asn1
