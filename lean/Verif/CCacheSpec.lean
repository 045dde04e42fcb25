import Verif.CCacheModel
/-
What "fits the format" means for each record: the counted fields respect the width of their length
prefix. These predicates mention only the data, not the serialiser.
-/
namespace Verif.CC

/-- A counted string fits a 32-bit length. -/
def CosFits (d : Bytes) : Prop := d.length < 2^32

def KeyBlock.Fits (k : KeyBlock) : Prop := k.keyvalue.length < 2^16
def Address.Fits (a : Address) : Prop := CosFits a.addrdata
def Header.Fits (h : Header) : Prop := h.tagdata.length < 2^16

def Principal.Fits (p : Principal) : Prop :=
  CosFits p.realm ∧ p.components.length < 2^32 ∧ ∀ c ∈ p.components, CosFits c

def Credential.Fits (c : Credential) : Prop :=
  c.client.Fits ∧ c.server.Fits ∧ c.key.Fits
  ∧ c.addrs.length < 2^32 ∧ (∀ a ∈ c.addrs, a.Fits)
  ∧ c.authdata.length < 2^32 ∧ (∀ a ∈ c.authdata, a.Fits)
  ∧ CosFits c.ticket ∧ CosFits c.second_ticket

/-- The cache is representable in format 5.4. -/
def CCache.Fits (c : CCache) : Prop :=
  c.file_format_version = 0x0504 ∧ c.header.Fits ∧ c.primary_principal.Fits
  ∧ ∀ x ∈ c.credentials, x.Fits

end Verif.CC

namespace Verif.CC

instance (d : Bytes) : Decidable (CosFits d) := inferInstanceAs (Decidable (_ < _))
instance (k : KeyBlock) : Decidable k.Fits := inferInstanceAs (Decidable (_ < _))
instance (k : Address) : Decidable k.Fits := inferInstanceAs (Decidable (_ < _))
instance (k : Header) : Decidable k.Fits := inferInstanceAs (Decidable (_ < _))
instance (p : Principal) : Decidable p.Fits := by unfold Principal.Fits; infer_instance
instance (p : Credential) : Decidable p.Fits := by unfold Credential.Fits; infer_instance
instance (p : CCache) : Decidable p.Fits := by unfold CCache.Fits; infer_instance

/-- A realistic cache used in the non-vacuity examples: user `a` of realm `R`, one TGT and one service
credential with an address and an authdata element. -/
def sampleClient : Principal := ⟨1, [0x52], [[0x61]]⟩
def sampleTgs : Principal := ⟨2, [0x52], [[0x6b, 0x72, 0x62], [0x52]]⟩
def sampleCred : Credential :=
  { client := sampleClient, server := sampleTgs, key := ⟨18, 0, [1, 2, 3]⟩,
    time := ⟨10, 20, 30, 40⟩, is_skey := 0, tktflags := 0x40e00000,
    addrs := [⟨2, [10, 0, 0, 1]⟩], authdata := [⟨1, [7]⟩], ticket := [0x61, 0x00],
    second_ticket := [] }
def sampleCache : CCache :=
  CCache.new Header.dflt sampleClient
    [sampleCred, { sampleCred with server := ⟨3, [0x52], [[0x68], [0x78]]⟩, addrs := [] }]

/-- A cache file as MIT Kerberos lays it out, with any number of header fields: the 16-bit length
covers all the fields. (Format description: MIT "Credential cache file format", version 4.) -/
def mitFile (fields : List Header) (p : Principal) (cs : List Credential) : Bytes :=
  [5, 4] ++ be16 (UInt16.ofNat (fields.flatMap Header.build).length) ++ fields.flatMap Header.build
    ++ p.build ++ cs.flatMap Credential.build

end Verif.CC
