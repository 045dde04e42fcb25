import Verif.MappersModel
import Verif.Asn1MsgLemmas
/-
Lemmas for the conversions of `Verif.MappersModel`.
-/
namespace Verif.Map
open Verif.Asn1

/-! ### UTF-8 -/

/-- the bytes are valid UTF-8 -/
def IsUtf8 (b : Bytes) : Prop := ∃ s, b = utf8 s

theorem cosToString_ok {b s} : cosToString b = .ok s ↔ b = utf8 s := by
  unfold cosToString
  split
  · rename_i t h
    rw [utf8Dec_iff] at h
    constructor
    · intro e; cases e; exact h
    · intro e; rw [h] at e; rw [utf8_inj e]
  · rename_i h
    constructor
    · intro e; cases e
    · intro e; rw [e, utf8Dec_utf8] at h; cases h

theorem cosToString_err {b} (h : ¬ IsUtf8 b) : cosToString b = .error .fromUtf8 := by
  unfold cosToString
  split
  · rename_i t h'; exact absurd ⟨t, (utf8Dec_iff b t).1 h'⟩ h
  · rfl

theorem cosToString_utf8 (s) : cosToString (utf8 s) = .ok s := cosToString_ok.2 rfl

theorem cosToString_cases (b) : (∃ s, b = utf8 s ∧ cosToString b = .ok s) ∨
    (¬ IsUtf8 b ∧ cosToString b = .error .fromUtf8) := by
  by_cases h : IsUtf8 b
  · obtain ⟨s, rfl⟩ := h; exact .inl ⟨s, rfl, cosToString_utf8 s⟩
  · exact .inr ⟨h, cosToString_err h⟩

theorem decodeNames_ok {cs ns} : decodeNames cs = .ok ns ↔ cs = ns.map utf8 := by
  induction cs generalizing ns with
  | nil => cases ns <;> simp [decodeNames]
  | cons c cs ih =>
    rw [decodeNames]
    rcases cosToString_cases c with ⟨s, rfl, h⟩ | ⟨hn, h⟩
    · rw [h]
      cases hd : decodeNames cs with
      | ok ms =>
        have := ih.1 hd
        subst this
        cases ns with
        | nil => simp [bind, Except.bind, pure, Except.pure]
        | cons n ns =>
          simp only [bind, Except.bind, pure, Except.pure, Except.ok.injEq, List.cons.injEq, List.map_cons]
          constructor
          · rintro ⟨rfl, rfl⟩; exact ⟨rfl, rfl⟩
          · rintro ⟨h1, h2⟩
            exact ⟨utf8_inj h1, (List.map_inj_right (fun _ _ => utf8_inj)).1 h2⟩
      | error e =>
        simp only [bind, Except.bind]
        constructor
        · intro h; cases h
        · intro h
          cases ns with
          | nil => simp at h
          | cons n ns =>
            simp only [List.map_cons, List.cons.injEq] at h
            rw [ih.2 h.2] at hd; cases hd
    · rw [h]
      simp only [bind, Except.bind]
      constructor
      · intro h; cases h
      · intro e
        cases ns with
        | nil => simp at e
        | cons n ns => simp only [List.map_cons, List.cons.injEq] at e; exact absurd ⟨n, e.1⟩ hn

theorem decodeNames_err {cs} (h : ∃ c ∈ cs, ¬ IsUtf8 c) : decodeNames cs = .error .fromUtf8 := by
  induction cs with
  | nil => simp at h
  | cons c cs ih =>
    rw [decodeNames]
    rcases cosToString_cases c with ⟨s, rfl, h'⟩ | ⟨hn, h'⟩
    · rw [h']
      have : ∃ c ∈ cs, ¬ IsUtf8 c := by
        obtain ⟨d, hd, hn⟩ := h
        rcases List.mem_cons.1 hd with rfl | hd
        · exact absurd ⟨s, rfl⟩ hn
        · exact ⟨d, hd, hn⟩
      rw [ih this]; rfl
    · rw [h']; rfl

theorem decodeNames_cases (cs) : (∃ ns, cs = ns.map utf8 ∧ decodeNames cs = .ok ns) ∨
    ((∃ c ∈ cs, ¬ IsUtf8 c) ∧ decodeNames cs = .error .fromUtf8) := by
  by_cases h : ∃ c ∈ cs, ¬ IsUtf8 c
  · exact .inr ⟨h, decodeNames_err h⟩
  · left
    have h' : ∀ c ∈ cs, IsUtf8 c := by
      intro c hc; exact Classical.byContradiction fun hn => h ⟨c, hc, hn⟩
    have : ∃ ns : List (List Char), cs = ns.map utf8 := by
      clear h
      induction cs with
      | nil => exact ⟨[], rfl⟩
      | cons c cs ih =>
        obtain ⟨ns, hns⟩ := ih (fun d hd => h' d (List.mem_cons_of_mem _ hd))
        obtain ⟨s, rfl⟩ := h' c (List.mem_cons_self ..)
        exact ⟨s :: ns, by simp [hns]⟩
    obtain ⟨ns, h1⟩ := this
    exact ⟨ns, h1, decodeNames_ok.2 h1⟩

theorem push_fold (t : Int32) (s : List Char) (more : List (List Char)) :
    more.foldl PrincipalName.push (PrincipalName.new t s) = ⟨t, s :: more⟩ := by
  have : ∀ (more : List (List Char)) (l : List (List Char)),
      more.foldl PrincipalName.push ⟨t, l⟩ = ⟨t, l ++ more⟩ := by
    intro more
    induction more with
    | nil => intro l; simp
    | cons x more ih => intro l; simp [PrincipalName.push, ih]
  simpa [PrincipalName.new] using this more [s]

theorem fromPrincipal_ok {p r n} :
    fromPrincipal p = .ok (r, n) ↔ p = toPrincipal r n ∧ n.name_string ≠ [] := by
  obtain ⟨nt, realm, comps⟩ := p
  obtain ⟨nt', ns'⟩ := n
  simp only [fromPrincipal, toPrincipal, stringToCos, CC.Principal.mk.injEq]
  constructor
  · intro h
    rcases decodeNames_cases comps with ⟨ns, rfl, hd⟩ | ⟨-, hd⟩
    · rw [hd] at h
      cases ns with
      | nil => simp [bind, Except.bind] at h
      | cons m more =>
        simp only [bind, Except.bind, push_fold] at h
        rcases cosToString_cases realm with ⟨s, rfl, hr⟩ | ⟨-, hr⟩
        · rw [hr] at h
          simp only [pure, Except.pure, Except.ok.injEq, Prod.mk.injEq, PrincipalName.mk.injEq] at h
          obtain ⟨rfl, rfl, rfl⟩ := h
          refine ⟨⟨by simp, rfl, rfl⟩, by simp⟩
        · rw [hr] at h; cases h
    · rw [hd] at h; cases h
  · rintro ⟨⟨rfl, rfl, rfl⟩, hne⟩
    rw [show decodeNames (List.map stringToCos ns') = .ok ns' from decodeNames_ok.2 rfl]
    cases ns' with
    | nil => exact absurd rfl hne
    | cons m more =>
      simp only [bind, Except.bind, push_fold, cosToString_utf8]
      simp [pure, Except.pure]

/-! ### numbers -/

theorem u16AsI32_toInt (x : UInt16) : (u16AsI32 x).toInt = x.toNat := by
  unfold u16AsI32
  have h := x.toNat_lt
  have e : x.toUInt32.toNat = x.toNat := by simp
  have h1 := u32_toInt32_toInt x.toUInt32
  rw [e] at h1
  rw [h1]
  rw [if_pos (by omega)]

theorem i32AsU16_toNat (x : Int32) : ((i32AsU16 x).toNat : Int) = x.toInt % 65536 := by
  unfold i32AsU16
  have h := i32_toUInt32_toNat x
  have e : x.toUInt32.toUInt16.toNat = x.toUInt32.toNat % 65536 := by simp
  rw [e]
  omega

theorem i32AsU16_u16AsI32 (x : UInt16) : i32AsU16 (u16AsI32 x) = x := by
  apply u16_ext
  have h1 := i32AsU16_toNat (u16AsI32 x)
  rw [u16AsI32_toInt] at h1
  have := x.toNat_lt
  omega

theorem u16AsI32_i32AsU16 (x : Int32) : (u16AsI32 (i32AsU16 x)).toInt = x.toInt % 65536 := by
  rw [u16AsI32_toInt, i32AsU16_toNat]

theorem u16AsI32_i32AsU16_eq {x : Int32} (h0 : 0 ≤ x.toInt) (h1 : x.toInt < 65536) : u16AsI32 (i32AsU16 x) = x := by
  apply Int32.toInt_inj.1
  rw [u16AsI32_i32AsU16]; omega

/-! ### times -/

theorem timestampU32_toNat (t : DateTime) : ((timestampU32 t).toNat : Int) = t.secs % 2^32 := by
  unfold timestampU32
  rw [u32_toNat_ofNat]
  have : (2 : Int)^32 = 4294967296 := by decide
  rw [this]
  omega

theorem toTime_fromTime (n : UInt32) : toTime (fromTime n) = n := by
  unfold fromTime
  split
  · rename_i h; simp [toTime, h]
  · apply u32_ext
    have h := timestampU32_toNat ⟨n.toNat, 0⟩
    have hn := n.toNat_lt
    have : (2 : Int)^32 = 4294967296 := by decide
    rw [this] at h
    dsimp only at h
    simp only [toTime]
    omega

theorem year_of_u32 (n : UInt32) : TimeOk ⟨n.toNat, 0⟩ := by
  have hn := n.toNat_lt
  refine ⟨rfl, ?_⟩
  have h := Date.toDays_ofDays ((n.toNat : Int) / 86400)
  have hv := Date.ofDays_valid ((n.toNat : Int) / 86400)
  obtain ⟨y, doy, h1, h2, h3, -, h4, -⟩ := Date.march_of_valid hv
  rw [h] at h1
  simp only [DateTime.date]
  generalize Date.ofDays ((n.toNat : Int) / 86400) = d at *
  constructor
  · split at h4 <;> omega
  · split at h4 <;> omega

theorem fromTime_ok (n : UInt32) : OptOf TimeOk (fromTime n) := by
  unfold fromTime
  split
  · intro a h; cases h
  · intro a h; simp only [Option.some.injEq] at h; subst h; exact year_of_u32 n

end Verif.Map
