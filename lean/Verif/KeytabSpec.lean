import Verif.KeytabModel
/- Size limits of the keytab format, stated on the data. -/
namespace Verif.KT

/-- Number of bytes a record's content occupies: 2 (component count) + realm + components +
name type, timestamp, 8-bit version, key, optional 32-bit version. -/
def KeytabEntry.bodySize (e : KeytabEntry) : Nat :=
  2 + (2 + e.realm.length) + (e.components.map fun c => 2 + c.length).sum + 4 + 4 + 1
    + (2 + 2 + e.key.keyvalue.length) + (if e.vno.isSome then 4 else 0)

/-- The entry is representable: 16-bit counts and lengths, 31-bit record size. -/
def KeytabEntry.Fits (e : KeytabEntry) : Prop :=
  e.realm.length < 2^16 ∧ e.components.length < 2^16 ∧ (∀ c ∈ e.components, c.length < 2^16)
  ∧ e.key.keyvalue.length < 2^16 ∧ e.bodySize < 2^31

instance (e : KeytabEntry) : Decidable e.Fits := by unfold KeytabEntry.Fits; infer_instance

def Keytab.Fits (k : Keytab) : Prop := ∀ e ∈ k.entries, e.Fits

instance (k : Keytab) : Decidable k.Fits := by unfold Keytab.Fits; infer_instance

/-- The record header of a deleted slot of `n` bytes: the two's complement of `n`, big endian. -/
def holeHeader (n : Nat) : Bytes := be32 (UInt32.ofNat (2^32 - n))

/-- A keytab file is a sequence of live entries and deleted slots. -/
inductive Slot
  | live (e : KeytabEntry)
  | hole (content : Bytes)

def Slot.Fits : Slot → Prop
  | .live e => e.Fits
  | .hole c => 0 < c.length ∧ c.length < 2^31

def Slot.bytes : Slot → Bytes
  | .live e => e.build
  | .hole c => holeHeader c.length ++ c

/-- What the reader shows for a slot. -/
def Slot.shown : Slot → KeytabEntry
  | .live e => e
  | .hole _ => ⟨[], [], 0, 0, 0, ⟨0, []⟩, some 0⟩

def sampleEntry : KeytabEntry :=
  ⟨[0x52], [[0x68], [0x78, 0x79]], 1, 0x5f000000, 3, ⟨18, [1, 2, 3, 4]⟩, some 3⟩
def sampleKeytab : Keytab := ⟨5, 2, [sampleEntry, { sampleEntry with vno := none }]⟩

end Verif.KT
