import Verif.Asn1Growth
import Verif.Props.Resave
/-
C95: the length of a message that is read and written again; C82 without the condition on the size of tickets.
-/
namespace Verif.Asn1

/-- C95. Reading a message and writing it again never makes it longer, for every type without flags in it, whatever other
leniencies the external crate has (longer lengths, data left over, longer numbers). -/
theorem c95_not_longer (g : Cfg) (hg : g.NoShort) (T : MsgType) (hT : T.hasFlags = false) (i : Bytes) (v : T.Value) (r : Bytes)
    (h : T.parse g i = .ok (v, r)) : (T.build g v).length + r.length ≤ i.length := by
  have := (MsgType.grows1 (.inl rfl) hg T (by rw [hT]; decide)).dec (.inl rfl) h
  rw [Nat.one_mul, Nat.one_mul] at this
  exact this

/-- a key with a type of two octets and with something behind it -/
example : strictCfg.NoShort ∧ MsgType.hasFlags .encryptionKey = false ∧
    (∃ v, MsgType.parse strictCfg .encryptionKey [0x30, 12, 0xa0, 4, 2, 2, 0, 18, 0xa1, 4, 4, 2, 7, 8, 9] = .ok (v, [9]) ∧
      MsgType.build strictCfg .encryptionKey v = [0x30, 11, 0xa0, 3, 2, 1, 18, 0xa1, 4, 4, 2, 7, 8]) :=
  ⟨⟨(fun _ h => nomatch h), (fun _ h => nomatch h), (fun _ h => nomatch h), (fun _ _ h => nomatch h)⟩, rfl,
    ⟨18, [7, 8]⟩, by decide +kernel, by decide +kernel⟩

/-- C95. For the other types it becomes at most five times as long. -/
theorem c95_five_times (g : Cfg) (hg : g.NoShort) (T : MsgType) (i : Bytes) (v : T.Value) (r : Bytes)
    (h : T.parse g i = .ok (v, r)) : (T.build g v).length + 5 * r.length ≤ 5 * i.length :=
  (MsgType.grows5 (.inr rfl) hg T).dec (.inr rfl) h

/-- an encoding of each type with flags, in which the flags have no octets -/
def shortFlags : MsgType → Bytes
  | .apReq =>
    [0x6e, 0x4d, 0x30, 0x4b, 0xa0, 0x03, 0x02, 0x01, 0x05, 0xa1, 0x03, 0x02, 0x01, 0x0e, 0xa2, 0x03, 0x03, 0x01,
      0x00, 0xa3, 0x2c, 0x61, 0x2a, 0x30, 0x28, 0xa0, 0x03, 0x02, 0x01, 0x05, 0xa1, 0x03, 0x1b, 0x01, 0x52, 0xa2,
      0x0e, 0x30, 0x0c, 0xa0, 0x03, 0x02, 0x01, 0x01, 0xa1, 0x05, 0x30, 0x03, 0x1b, 0x01, 0x75, 0xa3, 0x0c, 0x30,
      0x0a, 0xa0, 0x03, 0x02, 0x01, 0x12, 0xa2, 0x03, 0x04, 0x01, 0x07, 0xa4, 0x0c, 0x30, 0x0a, 0xa0, 0x03, 0x02,
      0x01, 0x12, 0xa2, 0x03, 0x04, 0x01, 0x07]
  | .kdcReqBody =>
    [0x30, 0x29, 0xa0, 0x03, 0x03, 0x01, 0x00, 0xa2, 0x03, 0x1b, 0x01, 0x52, 0xa5, 0x11, 0x18, 0x0f, 0x32, 0x30,
      0x32, 0x36, 0x30, 0x31, 0x30, 0x31, 0x30, 0x30, 0x30, 0x30, 0x30, 0x30, 0x5a, 0xa7, 0x03, 0x02, 0x01, 0x09,
      0xa8, 0x05, 0x30, 0x03, 0x02, 0x01, 0x12]
  | .asReq =>
    [0x6a, 0x39, 0x30, 0x37, 0xa1, 0x03, 0x02, 0x01, 0x05, 0xa2, 0x03, 0x02, 0x01, 0x0a, 0xa4, 0x2b, 0x30, 0x29,
      0xa0, 0x03, 0x03, 0x01, 0x00, 0xa2, 0x03, 0x1b, 0x01, 0x52, 0xa5, 0x11, 0x18, 0x0f, 0x32, 0x30, 0x32, 0x36,
      0x30, 0x31, 0x30, 0x31, 0x30, 0x30, 0x30, 0x30, 0x30, 0x30, 0x5a, 0xa7, 0x03, 0x02, 0x01, 0x09, 0xa8, 0x05,
      0x30, 0x03, 0x02, 0x01, 0x12]
  | .encAsRepPart =>
    [0x79, 0x74, 0x30, 0x72, 0xa0, 0x0d, 0x30, 0x0b, 0xa0, 0x03, 0x02, 0x01, 0x12, 0xa1, 0x04, 0x04, 0x02, 0x01,
      0x02, 0xa1, 0x1c, 0x30, 0x1a, 0x30, 0x18, 0xa0, 0x03, 0x02, 0x01, 0x00, 0xa1, 0x11, 0x18, 0x0f, 0x32, 0x30,
      0x32, 0x36, 0x30, 0x31, 0x30, 0x31, 0x30, 0x30, 0x30, 0x30, 0x30, 0x30, 0x5a, 0xa2, 0x03, 0x02, 0x01, 0x09,
      0xa4, 0x03, 0x03, 0x01, 0x00, 0xa5, 0x11, 0x18, 0x0f, 0x32, 0x30, 0x32, 0x36, 0x30, 0x31, 0x30, 0x31, 0x30,
      0x30, 0x30, 0x30, 0x30, 0x30, 0x5a, 0xa7, 0x11, 0x18, 0x0f, 0x32, 0x30, 0x32, 0x36, 0x30, 0x31, 0x30, 0x31,
      0x30, 0x30, 0x30, 0x30, 0x30, 0x30, 0x5a, 0xa9, 0x03, 0x1b, 0x01, 0x52, 0xaa, 0x0e, 0x30, 0x0c, 0xa0, 0x03,
      0x02, 0x01, 0x01, 0xa1, 0x05, 0x30, 0x03, 0x1b, 0x01, 0x75]
  | .encKdcRepPart =>
    [0x30, 0x72, 0xa0, 0x0d, 0x30, 0x0b, 0xa0, 0x03, 0x02, 0x01, 0x12, 0xa1, 0x04, 0x04, 0x02, 0x01, 0x02, 0xa1,
      0x1c, 0x30, 0x1a, 0x30, 0x18, 0xa0, 0x03, 0x02, 0x01, 0x00, 0xa1, 0x11, 0x18, 0x0f, 0x32, 0x30, 0x32, 0x36,
      0x30, 0x31, 0x30, 0x31, 0x30, 0x30, 0x30, 0x30, 0x30, 0x30, 0x5a, 0xa2, 0x03, 0x02, 0x01, 0x09, 0xa4, 0x03,
      0x03, 0x01, 0x00, 0xa5, 0x11, 0x18, 0x0f, 0x32, 0x30, 0x32, 0x36, 0x30, 0x31, 0x30, 0x31, 0x30, 0x30, 0x30,
      0x30, 0x30, 0x30, 0x5a, 0xa7, 0x11, 0x18, 0x0f, 0x32, 0x30, 0x32, 0x36, 0x30, 0x31, 0x30, 0x31, 0x30, 0x30,
      0x30, 0x30, 0x30, 0x30, 0x5a, 0xa9, 0x03, 0x1b, 0x01, 0x52, 0xaa, 0x0e, 0x30, 0x0c, 0xa0, 0x03, 0x02, 0x01,
      0x01, 0xa1, 0x05, 0x30, 0x03, 0x1b, 0x01, 0x75]
  | .krbCredInfo =>
    [0x30, 0x14, 0xa0, 0x0d, 0x30, 0x0b, 0xa0, 0x03, 0x02, 0x01, 0x12, 0xa1, 0x04, 0x04, 0x02, 0x01, 0x02, 0xa3,
      0x03, 0x03, 0x01, 0x00]
  | .encKrbCredPart =>
    [0x7d, 0x1c, 0x30, 0x1a, 0xa0, 0x18, 0x30, 0x16, 0x30, 0x14, 0xa0, 0x0d, 0x30, 0x0b, 0xa0, 0x03, 0x02, 0x01,
      0x12, 0xa1, 0x04, 0x04, 0x02, 0x01, 0x02, 0xa3, 0x03, 0x03, 0x01, 0x00]
  | .encTgsRepPart =>
    [0x7a, 0x74, 0x30, 0x72, 0xa0, 0x0d, 0x30, 0x0b, 0xa0, 0x03, 0x02, 0x01, 0x12, 0xa1, 0x04, 0x04, 0x02, 0x01,
      0x02, 0xa1, 0x1c, 0x30, 0x1a, 0x30, 0x18, 0xa0, 0x03, 0x02, 0x01, 0x00, 0xa1, 0x11, 0x18, 0x0f, 0x32, 0x30,
      0x32, 0x36, 0x30, 0x31, 0x30, 0x31, 0x30, 0x30, 0x30, 0x30, 0x30, 0x30, 0x5a, 0xa2, 0x03, 0x02, 0x01, 0x09,
      0xa4, 0x03, 0x03, 0x01, 0x00, 0xa5, 0x11, 0x18, 0x0f, 0x32, 0x30, 0x32, 0x36, 0x30, 0x31, 0x30, 0x31, 0x30,
      0x30, 0x30, 0x30, 0x30, 0x30, 0x5a, 0xa7, 0x11, 0x18, 0x0f, 0x32, 0x30, 0x32, 0x36, 0x30, 0x31, 0x30, 0x31,
      0x30, 0x30, 0x30, 0x30, 0x30, 0x30, 0x5a, 0xa9, 0x03, 0x1b, 0x01, 0x52, 0xaa, 0x0e, 0x30, 0x0c, 0xa0, 0x03,
      0x02, 0x01, 0x01, 0xa1, 0x05, 0x30, 0x03, 0x1b, 0x01, 0x75]
  | .encTicketPart =>
    [0x63, 0x5e, 0x30, 0x5c, 0xa0, 0x03, 0x03, 0x01, 0x00, 0xa1, 0x0d, 0x30, 0x0b, 0xa0, 0x03, 0x02, 0x01, 0x12,
      0xa1, 0x04, 0x04, 0x02, 0x01, 0x02, 0xa2, 0x03, 0x1b, 0x01, 0x52, 0xa3, 0x0e, 0x30, 0x0c, 0xa0, 0x03, 0x02,
      0x01, 0x01, 0xa1, 0x05, 0x30, 0x03, 0x1b, 0x01, 0x75, 0xa4, 0x0b, 0x30, 0x09, 0xa0, 0x03, 0x02, 0x01, 0x00,
      0xa1, 0x02, 0x04, 0x00, 0xa5, 0x11, 0x18, 0x0f, 0x32, 0x30, 0x32, 0x36, 0x30, 0x31, 0x30, 0x31, 0x30, 0x30,
      0x30, 0x30, 0x30, 0x30, 0x5a, 0xa7, 0x11, 0x18, 0x0f, 0x32, 0x30, 0x32, 0x36, 0x30, 0x31, 0x30, 0x31, 0x30,
      0x30, 0x30, 0x30, 0x30, 0x30, 0x5a]
  | .kdcReq =>
    [0x30, 0x37, 0xa1, 0x03, 0x02, 0x01, 0x05, 0xa2, 0x03, 0x02, 0x01, 0x0a, 0xa4, 0x2b, 0x30, 0x29, 0xa0, 0x03,
      0x03, 0x01, 0x00, 0xa2, 0x03, 0x1b, 0x01, 0x52, 0xa5, 0x11, 0x18, 0x0f, 0x32, 0x30, 0x32, 0x36, 0x30, 0x31,
      0x30, 0x31, 0x30, 0x30, 0x30, 0x30, 0x30, 0x30, 0x5a, 0xa7, 0x03, 0x02, 0x01, 0x09, 0xa8, 0x05, 0x30, 0x03,
      0x02, 0x01, 0x12]
  | .paPacOptions =>
    [0x30, 0x05, 0xa0, 0x03, 0x03, 0x01, 0x00]
  | .tgsReq =>
    [0x6c, 0x39, 0x30, 0x37, 0xa1, 0x03, 0x02, 0x01, 0x05, 0xa2, 0x03, 0x02, 0x01, 0x0c, 0xa4, 0x2b, 0x30, 0x29,
      0xa0, 0x03, 0x03, 0x01, 0x00, 0xa2, 0x03, 0x1b, 0x01, 0x52, 0xa5, 0x11, 0x18, 0x0f, 0x32, 0x30, 0x32, 0x36,
      0x30, 0x31, 0x30, 0x31, 0x30, 0x30, 0x30, 0x30, 0x30, 0x30, 0x5a, 0xa7, 0x03, 0x02, 0x01, 0x09, 0xa8, 0x05,
      0x30, 0x03, 0x02, 0x01, 0x12]
  | .kerberosFlags =>
    [0x03, 0x01, 0x00]
  | _ => []

/-- read completely, and longer when written -/
def growsOn (T : MsgType) (i : Bytes) : Bool :=
  match T.parse strictCfg i with
  | .ok (v, []) => i.length < (T.build strictCfg v).length
  | _ => false

/-- C95 (violation). Each of the other types has encodings that become longer: flags with fewer than 32 bits, which a
receiver should take (RFC 4120 section 5.2.8), are written with 32 bits. -/
theorem c95_flags_grow (T : MsgType) (hT : T.hasFlags = true) :
    ∃ i v, T.parse strictCfg i = .ok (v, []) ∧ i.length < (T.build strictCfg v).length := by
  have h : growsOn T (shortFlags T) = true := by
    revert hT
    cases T <;> first | (intro h; exact absurd h (by decide)) | (intro _; decide +kernel)
  unfold growsOn at h
  split at h
  · rename_i v hv
    exact ⟨_, v, hv, by simpa using h⟩
  · cases h

/-- C95. The bound is reached: the content of flags, one octet, becomes five. -/
theorem c95_five_reached : flagsC.parse [0] = .ok 0 ∧ (flagsC.build 0).length = 5 * [(0 : UInt8)].length := by decide +kernel

end Verif.Asn1

namespace Verif.Kb
open Verif.Asn1 Verif.Map

/-- the tickets of a loaded file are below 4 GiB in the form the library writes -/
theorem loaded_tickets {g : Cfg} (hg : g.NoShort) {data : Bytes} {w : Warehouse} (h : loadCCache g data = .ok w) :
    ∀ x ∈ w.credentials, (MsgType.build g .ticket x.ticket).length < 2^32 := by
  obtain ⟨c, rest, hp, -, -⟩ := (c82_loads_iff g data).1 ⟨w, h⟩
  have hf := (CC.c03_parse_exact _ _ _ hp).1.2.2.2
  rw [loadCCache_ok hp] at h
  obtain ⟨-, h⟩ := ofCCache_ok h
  generalize w.credentials = cs at h
  generalize c.credentials = es at h hf
  induction h with
  | nil => exact fun _ hx => absurd hx List.not_mem_nil
  | @cons e x _ _ a _ ih =>
    intro y hy
    rcases List.mem_cons.1 hy with rfl | hy
    · obtain ⟨t, rest, -, -, h3, hc⟩ := ofEntry_ok a
      have h1 := c95_not_longer g hg .ticket rfl _ _ _ h3
      have h2 : CC.CosFits e.ticket := (hf e (List.mem_cons_self ..)).2.2.2.2.2.2.2.1
      rw [hc]
      exact Nat.lt_of_le_of_lt (Nat.le_trans (Nat.le_add_right _ _) h1) h2
    · exact ih (fun z hz => hf z (List.mem_cons_of_mem _ hz)) y hy

/-- C82. Every file that loads can be saved, and the saved file is stable: loading it succeeds and saving that gives the
same file, byte for byte. -/
theorem c82_saves (X : Ext) (g : Cfg) (hg : g.NoShort) (data : Bytes) (w : Warehouse) (h : loadCCache g data = .ok w) :
    (w.toCCache X g).Fits ∧
    ∃ w', loadCCache g (w.toCCache X g).build = .ok w' ∧ (w'.toCCache X g).build = (w.toCCache X g).build ∧
      w'.realm = w.realm ∧ w'.client = w.client ∧ w'.credentials.length = w.credentials.length :=
  ⟨c82_fits X g data w h (loaded_tickets hg h), c82_stable X g data w h (loaded_tickets hg h)⟩

example : strictCfg.NoShort ∧ loadCCache strictCfg tabFile.build = .ok tabLoaded :=
  ⟨⟨(fun _ h => nomatch h), (fun _ h => nomatch h), (fun _ h => nomatch h), (fun _ _ h => nomatch h)⟩, by decide +kernel⟩

end Verif.Kb
