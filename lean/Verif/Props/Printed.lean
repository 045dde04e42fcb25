import Verif.Props.Asn1
import Verif.Props.Trust
import Verif.Props.Warehouse
/-
Property theorems C102: what the printed form of a principal name tells.
-/
namespace Verif.Asn1

/-! ### Lemmas -/

theorem intercalate_slash_cons (a : List Char) (l : List (List Char)) (hl : l ≠ []) :
    List.intercalate ['/'] (a :: l) = a ++ '/' :: List.intercalate ['/'] l := by
  cases l with
  | nil => exact absurd rfl hl
  | cons b t => simp [List.intercalate, List.intersperse]

/-- the text before the first slash and the text after it -/
theorem slash_split {a b x y : List Char} (ha : '/' ∉ a) (hb : '/' ∉ b) (h : a ++ '/' :: x = b ++ '/' :: y) : a = b ∧ x = y := by
  induction a generalizing b with
  | nil =>
    cases b with
    | nil => exact ⟨rfl, (List.cons.inj h).2⟩
    | cons c b => exact absurd ((List.cons.inj h).1 ▸ List.mem_cons_self) hb
  | cons c a ih =>
    cases b with
    | nil => exact absurd ((List.cons.inj h).1 ▸ List.mem_cons_self) ha
    | cons d b =>
      obtain ⟨h1, h2⟩ := List.cons.inj h
      obtain ⟨h3, h4⟩ := ih (fun hm => ha (List.mem_cons_of_mem _ hm)) (fun hm => hb (List.mem_cons_of_mem _ hm)) h2
      exact ⟨by rw [h1, h3], h4⟩

theorem intercalate_slash_inj : ∀ {l m : List (List Char)}, l ≠ [] → m ≠ [] → (∀ s ∈ l, '/' ∉ s) → (∀ s ∈ m, '/' ∉ s) →
    List.intercalate ['/'] l = List.intercalate ['/'] m → l = m
  | [], _, h, _, _, _, _ => absurd rfl h
  | _, [], _, h, _, _, _ => absurd rfl h
  | [a], [b], _, _, _, _, h => by simpa [List.intercalate, List.intersperse] using h
  | [a], b :: c :: t, _, _, hl, _, h => by
    rw [intercalate_slash_cons b _ (by simp)] at h
    have : List.intercalate ['/'] [a] = a := by simp [List.intercalate, List.intersperse]
    rw [this] at h
    exact absurd (h ▸ List.mem_append_right _ List.mem_cons_self) (hl a List.mem_cons_self)
  | a :: c :: t, [b], _, _, _, hm, h => by
    rw [intercalate_slash_cons a _ (by simp)] at h
    have : List.intercalate ['/'] [b] = b := by simp [List.intercalate, List.intersperse]
    rw [this] at h
    exact absurd (h ▸ List.mem_append_right _ List.mem_cons_self) (hm b List.mem_cons_self)
  | a :: c :: t, b :: d :: u, _, _, hl, hm, h => by
    rw [intercalate_slash_cons a _ (by simp), intercalate_slash_cons b _ (by simp)] at h
    obtain ⟨h1, h2⟩ := slash_split (hl a List.mem_cons_self) (hm b List.mem_cons_self) h
    rw [h1, intercalate_slash_inj (by simp) (by simp) (fun s hs => hl s (List.mem_cons_of_mem _ hs))
      (fun s hs => hm s (List.mem_cons_of_mem _ hs)) h2]

theorem tlv_short (tag : UInt8) {v : Bytes} (h : v.length < 128) : (tlv tag v).length = v.length + 2 := by
  unfold tlv buildLen
  rw [if_pos h]
  simp

theorem nameless_short (g : Cfg) (t : Int32) : (MsgType.build g .principalName ⟨t, []⟩).length < 2^64 := by
  have e : MsgType.build g .principalName ⟨t, []⟩ =
      tlv 0x30 (tlv 0xa0 (tlv 2 (intBytes t)) ++ (tlv 0xa1 (tlv 0x30 []) ++ [])) := rfl
  have h0 := (intBytes_length t).2
  have h1 := tlv_short 2 (v := intBytes t) (by omega)
  have h2 := tlv_short 0xa0 (v := tlv 2 (intBytes t)) (by omega)
  have h3 : (tlv 0xa1 (tlv 0x30 []) ++ [] : Bytes).length = 4 := rfl
  have h4 := tlv_short 0x30 (v := tlv 0xa0 (tlv 2 (intBytes t)) ++ (tlv 0xa1 (tlv 0x30 []) ++ []))
    (by rw [List.length_append]; omega)
  rw [List.length_append] at h4
  rw [e]
  omega

/-! ### C102 -/

/-- C102. Two names without slashes inside their components are printed alike only if they have the same components. -/
theorem c102_identifies (p q : PrincipalName) (hp : p.name_string ≠ []) (hq : q.name_string ≠ [])
    (hps : ∀ s ∈ p.name_string, '/' ∉ s) (hqs : ∀ s ∈ q.name_string, '/' ∉ s) :
    p.display = q.display ↔ p.name_string = q.name_string := by
  rw [c42_display p hp, c42_display q hq]
  constructor
  · intro h
    injection h with h
    exact intercalate_slash_inj hp hq hps hqs h
  · intro h; rw [h]

/-- C102. Violated in general: a slash inside a component is printed like the one between components, so for all texts and name
types a name of two components is printed like one of a single component. -/
theorem c102_ambiguous (t t' : Int32) (a b : List Char) :
    (PrincipalName.mk t [a, b]).display = (PrincipalName.mk t' [a ++ '/' :: b]).display ∧ [a, b] ≠ [a ++ '/' :: b] := by
  refine ⟨?_, fun h => absurd (congrArg List.length h) (by simp)⟩
  rw [c42_display _ (by simp), c42_display _ (by simp)]
  simp [List.intercalate, List.intersperse]

/-- C102. Violated: names without components are read from the wire, and printing such a name, or asking for its main name, crashes. -/
theorem c102_empty (g : Cfg) (t : Int32) (rest : Bytes) :
    ∃ bytes, MsgType.parse g .principalName (bytes ++ rest) = .ok (⟨t, []⟩, rest) ∧
      (PrincipalName.mk t []).display = .error .panic ∧ (PrincipalName.mk t []).mainName = .error .panic := by
  refine ⟨MsgType.build g .principalName ⟨t, []⟩, c39_roundtrip g .principalName ⟨t, []⟩ ?_ ?_ rest,
    ((c42_main_name _).2 rfl).2, ((c42_main_name _).2 rfl).1⟩
  · trivial
  · exact nameless_short g t

/-! ### Examples -/

example : (PrincipalName.mk 1 ["host".toList, "a/b".toList]).display = .ok "host/a/b".toList := by decide +kernel
example : (PrincipalName.mk 2 ["krbtgt".toList, "R".toList]).display ≠ (PrincipalName.mk 2 ["krbtgt".toList, "S".toList]).display := by
  decide +kernel

end Verif.Asn1

namespace Verif.Kb
open Verif.Asn1 Verif.Crypto Verif.Map

/-- C102. Violated end to end: answers can be changed in transit, without any key, so that every request that would have succeeded
returns a credential whose client name crashes the program that prints it, and which is saved but cannot be loaded. -/
theorem c102_poison {g : Cfg} (hg : g.Total) :
    ∃ tamper : Bytes → Bytes, ∀ (P : Prims), P.Lawful → ∀ (M : CaseMap) (net : Net) (e1 e2 : Env), EnvOk e1 →
      ∀ (username : List Char) (key : Option Key), (∀ k, key = some k → k.WF) → ∀ (o : Options) (cred : Credential),
      (∀ sent a, net sent = some a → (tamper a).length < 2^64) →
      (tgtRequest P M g net e1 e2 username key o).1 = .ok cred →
      ∃ cred', (tgtRequest P M g (fun sent => (net sent).map tamper) e1 e2 username key o).1 = .ok cred' ∧
        cred'.client_part = cred.client_part ∧ cred'.cname.display = .error .panic ∧
        ∀ X, ((Warehouse.ofCredential cred').toCCache X g).Fits →
          loadCCache g ((Warehouse.ofCredential cred').toCCache X g).build = .error .noPrincipalName := by
  obtain ⟨tamper, h⟩ := c92_forgeable hg [] ⟨1, []⟩ ⟨5, [], ⟨2, [[]]⟩, ⟨0, none, []⟩⟩
  refine ⟨tamper, fun P hP M net e1 e2 he username key hk o cred hs hc => ?_⟩
  refine ⟨_, h P hP M net e1 e2 he username key hk o cred hs hc, rfl, ((c42_main_name _).2 rfl).2, fun X hf => ?_⟩
  exact c25_unnamed X g _ hf (.inl rfl)

-- the file of a poisoned credential is within the limits of the format
example : ((Warehouse.ofCredential { exCredential with crealm := [], cname := ⟨1, []⟩ }).toCCache exExt strictCfg).Fits := by decide +kernel

end Verif.Kb
