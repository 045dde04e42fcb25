import Verif.Props.Mit
import Verif.Props.Resave
/-
C106: the time offset in the header of a cache file.
-/
namespace Verif.Mit
open Verif.Rfc (bytesOf)

/-! ### Specification -/

/-- value of header field 1 (MIT, "Credential cache file format": the "time offset of the KDC relative to the client"): seconds
and microseconds, each a signed 32-bit number -/
def offsetBytes (secs usecs : Int) : Bytes := bytesOf 4 (secs % 2^32).toNat ++ bytesOf 4 (usecs % 2^32).toNat

/-- the number fits a signed 32-bit field -/
def Signed32 (x : Int) : Prop := -2^31 ≤ x ∧ x < 2^31

/-- the file says that the clock of the KDC is this much ahead of the client's -/
def Cache.StatesOffset (m : Cache) (secs usecs : Int) : Prop :=
  Signed32 secs ∧ Signed32 usecs ∧ ⟨1, offsetBytes secs usecs⟩ ∈ m.fields

/-! ### Lemmas -/

theorem offsetBytes_inj {s u s' u' : Int} (h : Signed32 s ∧ Signed32 u) (h' : Signed32 s' ∧ Signed32 u')
    (he : offsetBytes s u = offsetBytes s' u') : s = s' ∧ u = u' := by
  have key : ∀ a b : Int, bytesOf 4 (a % 2^32).toNat = bytesOf 4 (b % 2^32).toNat → a % 2^32 = b % 2^32 := by
    intro a b hab
    rw [bytesOf4, bytesOf4] at hab
    have h3 := congrArg UInt32.toNat (be32_inj hab)
    rw [CC.u32_ofNat_toNat (by omega), CC.u32_ofNat_toNat (by omega)] at h3
    omega
  have hl := List.append_inj he (by simp [bytesOf])
  have h1 := key _ _ hl.1
  have h2 := key _ _ hl.2
  unfold Signed32 at h h'
  omega

theorem offsetBytes_be {a b : UInt32} {s u : Int} (ha : s % 2^32 = a.toNat) (hb : u % 2^32 = b.toNat) :
    offsetBytes s u = be32 a ++ be32 b := by
  unfold offsetBytes
  rw [ha, hb, bytesOf4, bytesOf4]
  simp

end Verif.Mit

namespace Verif.CC

theorem parse_after_header (n : UInt16) {h : Header} (hf : h.Fits) (t : Bytes) :
    CCache.parse ([5, 4] ++ be16 n ++ (h.build ++ t)) =
      (Principal.parse >>= fun p => many0 Credential.parse >>= fun cs => pure (CCache.new h p cs) : Parser CCache) t := by
  unfold CCache.parse
  simp only [bind_def, List.append_assoc]
  rw [tagC_reads [5, 4] _]
  dsimp only
  rw [beU16_reads n _]
  dsimp only
  rw [header_reads hf t]

/-- C106. The library's `DeltaTime` can write and read every offset, and what it wrote stands for this offset only. -/
theorem c106_delta_time (s u : Int) (hs : Mit.Signed32 s) (hu : Mit.Signed32 u) (rest : Bytes) :
    ∃ d : DeltaTime, d.build = Mit.offsetBytes s u ∧ DeltaTime.parse (Mit.offsetBytes s u ++ rest) = .ok (d, rest) ∧
      ∀ s' u', Mit.Signed32 s' → Mit.Signed32 u' → d.build = Mit.offsetBytes s' u' → s' = s ∧ u' = u := by
  let d : DeltaTime := ⟨UInt32.ofNat (s % 2^32).toNat, UInt32.ofNat (u % 2^32).toNat⟩
  have hd : d.build = Mit.offsetBytes s u := by
    refine (Mit.offsetBytes_be ?_ ?_).symm
    · show _ = ((UInt32.ofNat (s % 2^32).toNat).toNat : Int)
      rw [u32_ofNat_toNat (by omega)]; omega
    · show _ = ((UInt32.ofNat (u % 2^32).toNat).toNat : Int)
      rw [u32_ofNat_toNat (by omega)]; omega
  refine ⟨d, hd, ?_, fun s' u' hs' hu' he => ?_⟩
  · rw [← hd]
    exact deltaTime_reads d rest
  · exact Mit.offsetBytes_inj ⟨hs', hu'⟩ ⟨hs, hu⟩ (he.symm.trans hd)

end Verif.CC

namespace Verif.Kb
open Verif.Asn1 Verif.Map

/-! ### C106 -/

/-- C106, violated: every file the library saves says that the clock of the KDC is one second behind, whatever the KDC's clock
and the origin of the credentials. -/
theorem c106_saved (X : Ext) (g : Cfg) (w : Warehouse) (h : (w.toCCache X g).Fits) (d : Disk) (before : Option Bytes)
    (hok : (w.saveCCache X g d before).1 = some (.ok ())) :
    ∃ m : Mit.Cache, (w.saveCCache X g d before).2 = some m.bytes ∧ m.Valid ∧
      ∀ s u, m.StatesOffset s u ↔ s = -1 ∧ u = 0 := by
  have he : ∀ x ∈ (w.toCCache X g).credentials, x.key.etype = 0 := by
    intro x hx
    obtain ⟨c, -, rfl⟩ := List.mem_map.1 hx
    rfl
  obtain ⟨h1, h2⟩ := CC.c70_writes_format (w.toCCache X g) h (show CC.Header.dflt.tagdata.length + 4 < 2 ^ 16 by decide) he
  refine ⟨(w.toCCache X g).mit, ?_, h2, ?_⟩
  · rw [← h1]
    exact (c25_save d before (w.toCCache X g).build).2.1 hok
  · have hm : (⟨1, Mit.offsetBytes (-1) 0⟩ : Mit.Field) = CC.Header.dflt.mit := by decide +kernel
    have h0 : Mit.Signed32 (-1) ∧ Mit.Signed32 0 := ⟨⟨by decide, by decide⟩, ⟨by decide, by decide⟩⟩
    intro s u
    constructor
    · rintro ⟨hs, hu, hf⟩
      have hf : (⟨1, Mit.offsetBytes s u⟩ : Mit.Field) ∈ [CC.Header.dflt.mit] := hf
      rw [List.mem_singleton, ← hm] at hf
      injection hf with _ hf
      exact Mit.offsetBytes_inj ⟨hs, hu⟩ h0 hf
    · rintro ⟨rfl, rfl⟩
      exact ⟨h0.1, h0.2, by rw [hm]; exact List.mem_singleton.2 rfl⟩

theorem ofCCache_header (g : Cfg) (h h' : CC.Header) (p : CC.Principal) (cs : List CC.Credential) :
    Warehouse.ofCCache g (CC.CCache.new h p cs) = Warehouse.ofCCache g (CC.CCache.new h' p cs) := by
  unfold Warehouse.ofCCache CC.CCache.new
  dsimp only

theorem load_header (g : Cfg) (n n' : UInt16) {h h' : CC.Header} (hf : h.Fits) (hf' : h'.Fits) (t : Bytes) :
    loadCCache g ([5, 4] ++ be16 n ++ (h.build ++ t)) = loadCCache g ([5, 4] ++ be16 n' ++ (h'.build ++ t)) := by
  unfold loadCCache
  rw [CC.parse_after_header n hf, CC.parse_after_header n' hf']
  simp only [bind_def, pure_def]
  generalize CC.Principal.parse t = x
  rcases x with e | ⟨p, t⟩
  · dsimp only
  · dsimp only
    generalize many0 CC.Credential.parse t = y
    rcases y with e | ⟨cs, r⟩
    · dsimp only
    · exact ofCCache_header g h h' p cs

/-- C106, violated: an offset in a file that is loaded is not noticed: two files that differ only in the value of their header
field load alike. -/
theorem c106_not_used (g : Cfg) (m : Mit.Cache) (f f' : Mit.Field) (hf : f.Valid) (hf' : f'.Valid) :
    loadCCache g { m with fields := [f] }.bytes = loadCCache g { m with fields := [f'] }.bytes := by
  have hb : ∀ f : Mit.Field, f.Valid → ({ m with fields := [f] } : Mit.Cache).bytes =
      [5, 4] ++ be16 (UInt16.ofNat f.bytes.length) ++ ((CC.headerOf f).build ++ (m.principal.bytes ++ m.credentials.flatMap Mit.Credential.bytes)) := by
    intro f hf
    have h1 : (CC.headerOf f).mit = f := by
      cases f
      simp [CC.headerOf, CC.Header.mit, hf.1]
    rw [← CC.header_mit, h1]
    simp [Mit.Cache.bytes, bytesOf2]
  rw [hb f hf, hb f' hf']
  exact load_header g _ _ (h := CC.headerOf f) (h' := CC.headerOf f') hf.2 hf'.2 _

/-- C106. So an offset is lost: whatever a loaded file said, the file saved afterwards says one second behind. -/
theorem c106_lost (X : Ext) (g : Cfg) (data : Bytes) (w : Warehouse) (h : loadCCache g data = .ok w)
    (ht : ∀ c ∈ w.credentials, (MsgType.build g .ticket c.ticket).length < 2^32) (d : Disk) (before : Option Bytes)
    (hok : (w.saveCCache X g d before).1 = some (.ok ())) :
    ∃ m : Mit.Cache, (w.saveCCache X g d before).2 = some m.bytes ∧ m.Valid ∧ m.StatesOffset (-1) 0 := by
  obtain ⟨m, h1, h2, h3⟩ := c106_saved X g w (c82_fits X g data w h ht) d before hok
  exact ⟨m, h1, h2, (h3 _ _).2 ⟨rfl, rfl⟩⟩

/-- a file that says the KDC is 300 seconds ahead (minus five microseconds) loads, and what is saved says minus one second -/
example : Mit.Signed32 300 ∧ Mit.Signed32 (-5) ∧ (⟨1, Mit.offsetBytes 300 (-5)⟩ : Mit.Field).Valid ∧
    loadCCache strictCfg ({ tabFile.mit with fields := [⟨1, Mit.offsetBytes 300 (-5)⟩] } : Mit.Cache).bytes = .ok tabLoaded ∧
    (tabLoaded.saveCCache exExt strictCfg ⟨.done, [.accept 1000]⟩ none).1 = some (.ok ()) ∧
    ((tabLoaded.saveCCache exExt strictCfg ⟨.done, [.accept 1000]⟩ none).2.getD []).take 16 =
      [5, 4, 0, 12, 0, 1, 0, 8, 255, 255, 255, 255, 0, 0, 0, 0] :=
  ⟨⟨by decide, by decide⟩, ⟨by decide, by decide⟩, ⟨by decide, by decide +kernel⟩, by decide +kernel, by decide +kernel,
    by decide +kernel⟩

end Verif.Kb
