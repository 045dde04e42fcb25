import Verif.Bytes
/-
Dates and times: the external crate `chrono`, `DateTime<Utc>` (proleptic Gregorian calendar).
-/
namespace Verif

/-- `chrono::DateTime<Utc>`: seconds since 1970-01-01T00:00:00Z (`timestamp()`) and nanoseconds
(`timestamp_subsec_nanos()`, at least 10^9 during a leap second). -/
structure DateTime where
  secs : Int
  nanos : Nat
deriving DecidableEq, Repr

/-- A calendar date. -/
structure Date where
  year : Int
  month : Nat
  day : Nat
deriving DecidableEq, Repr

/-- The Gregorian leap year rule. -/
def isLeap (y : Int) : Bool := y % 4 = 0 ∧ (y % 100 ≠ 0 ∨ y % 400 = 0)

/-- Days of a month. -/
def daysInMonth (y : Int) (m : Nat) : Nat :=
  if m = 2 then (if isLeap y then 29 else 28)
  else if m = 4 ∨ m = 6 ∨ m = 9 ∨ m = 11 then 30 else 31

/-- A date that exists (`NaiveDate::from_ymd_opt(..).is_some()`; chrono's year range is not modelled). -/
def Date.Valid (d : Date) : Prop :=
  1 ≤ d.month ∧ d.month ≤ 12 ∧ 1 ≤ d.day ∧ d.day ≤ daysInMonth d.year d.month

instance (d : Date) : Decidable d.Valid := by unfold Date.Valid; infer_instance

/-- Day number (1970-01-01 is day 0) of a date. -/
def Date.toDays (d : Date) : Int :=
  let y := if d.month ≤ 2 then d.year - 1 else d.year
  let mp := (d.month + 9) % 12
  let doy : Int := (153 * mp + 2) / 5 + d.day - 1
  365 * y + y / 4 - y / 100 + y / 400 + doy - 719468

/-- Year (starting on 1 March) and day in it (from 0), counting days from 1 March of year 0: 400-year eras of
146097 days, in them centuries of 36524, quadrennia of 1461 and years of 365 days, the last one of each longer. -/
def marchYear (z : Int) : Int × Int :=
  let era := z / 146097
  let doe := z % 146097
  let c := if doe = 146096 then 3 else doe / 36524
  let doc := doe - 36524 * c
  let q := doc / 1461
  let doq := doc % 1461
  let yy := if doq = 1460 then 3 else doq / 365
  (400 * era + 100 * c + 4 * q + yy, doq - 365 * yy)

/-- Date of a day number. -/
def Date.ofDays (z : Int) : Date :=
  let y := (marchYear (z + 719468)).1
  let doy := (marchYear (z + 719468)).2
  let mp := (5 * doy + 2) / 153
  let d := doy - (153 * mp + 2) / 5 + 1
  if mp < 10 then ⟨y, (mp + 3).toNat, d.toNat⟩ else ⟨y + 1, (mp - 9).toNat, d.toNat⟩

/-- The calendar date of an instant (`Datelike` of chrono). -/
def DateTime.date (t : DateTime) : Date := Date.ofDays (t.secs / 86400)
/-- `Timelike::hour` -/
def DateTime.hour (t : DateTime) : Nat := (t.secs % 86400 / 3600).toNat
/-- `Timelike::minute` -/
def DateTime.minute (t : DateTime) : Nat := (t.secs % 3600 / 60).toNat
/-- `Timelike::second` (59 during a leap second) -/
def DateTime.second (t : DateTime) : Nat := (t.secs % 60).toNat

/-- `Utc.with_ymd_and_hms(..).single()`: `none` for a date or time of day that does not exist. -/
def withYmdHms (d : Date) (h mi s : Nat) : Option DateTime :=
  if d.Valid ∧ h < 24 ∧ mi < 60 ∧ s < 60 then
    some ⟨86400 * d.toDays + 3600 * h + 60 * mi + s, 0⟩
  else none

/-! ### The calendar functions are inverse to each other and follow the Gregorian rules -/

theorem isLeap_iff (y : Int) : isLeap y = true ↔ y % 4 = 0 ∧ (y % 100 ≠ 0 ∨ y % 400 = 0) := by
  simp [isLeap]

theorem marchYear_spec (z : Int) :
    let y := (marchYear z).1
    let doy := (marchYear z).2
    z = 365 * y + y / 4 - y / 100 + y / 400 + doy ∧ 0 ≤ doy ∧ doy ≤ 365 ∧
      (doy = 365 → (y + 1) % 4 = 0 ∧ ((y + 1) % 100 ≠ 0 ∨ (y + 1) % 400 = 0)) := by
  unfold marchYear
  dsimp only
  obtain ⟨era, he⟩ : ∃ era, era = z / 146097 := ⟨_, rfl⟩
  obtain ⟨doe, hd⟩ : ∃ doe, doe = z % 146097 := ⟨_, rfl⟩
  rw [← he, ← hd]
  have hz : z = 146097 * era + doe ∧ 0 ≤ doe ∧ doe ≤ 146096 := by omega
  obtain ⟨hz, hd0, hd1⟩ := hz
  subst hz
  clear he hd
  obtain ⟨c, hc⟩ : ∃ c, c = if doe = 146096 then 3 else doe / 36524 := ⟨_, rfl⟩
  rw [← hc]
  obtain ⟨doc, hdoc⟩ : ∃ doc, doc = doe - 36524 * c := ⟨_, rfl⟩
  rw [← hdoc]
  have h1 : 0 ≤ c ∧ c ≤ 3 ∧ 0 ≤ doc ∧ doc ≤ 36524 ∧ (doc = 36524 → c = 3) := by
    split at hc <;> omega
  have hde : doe = 36524 * c + doc := by omega
  subst hde
  clear hc hdoc hd0 hd1
  obtain ⟨hc0, hc3, hdoc0, hdoc1, hdoc2⟩ := h1
  obtain ⟨q, hq⟩ : ∃ q, q = doc / 1461 := ⟨_, rfl⟩
  obtain ⟨doq, hdoq⟩ : ∃ doq, doq = doc % 1461 := ⟨_, rfl⟩
  rw [← hq, ← hdoq]
  have h2 : 0 ≤ q ∧ q ≤ 24 ∧ 0 ≤ doq ∧ doq ≤ 1460 ∧ doc = 1461 * q + doq ∧ (q = 24 ∧ doq = 1460 → c = 3) := by
    omega
  obtain ⟨hq0, hq1, hdoq0, hdoq1, rfl, hq2⟩ := h2
  clear hq hdoq hdoc0 hdoc1 hdoc2
  obtain ⟨yy, hyy⟩ : ∃ yy, yy = if doq = 1460 then 3 else doq / 365 := ⟨_, rfl⟩
  rw [← hyy]
  have h3 : 0 ≤ yy ∧ yy ≤ 3 ∧ 0 ≤ doq - 365 * yy ∧ doq - 365 * yy ≤ 365 ∧ (doq - 365 * yy = 365 → yy = 3 ∧ doq = 1460) := by
    split at hyy <;> omega
  obtain ⟨hy0, hy1, hy2, hy3, hy4⟩ := h3
  have e4 : (400 * era + 100 * c + 4 * q + yy) / 4 = 100 * era + 25 * c + q := by omega
  have e100 : (400 * era + 100 * c + 4 * q + yy) / 100 = 4 * era + c := by omega
  have e400 : (400 * era + 100 * c + 4 * q + yy) / 400 = era := by omega
  rw [e4, e100, e400]
  refine ⟨by omega, hy2, hy3, ?_⟩
  intro h
  obtain ⟨h5, h6⟩ := hy4 h
  subst h5
  refine ⟨by omega, ?_⟩
  by_cases h24 : q = 24
  · right; have := hq2 ⟨h24, h6⟩; omega
  · left; omega

theorem Date.ofDays_march (y doy : Int) (h0 : 0 ≤ doy) (h1 : doy ≤ 365)
    (z : Int) (hz : (marchYear (z + 719468)) = (y, doy)) :
    (Date.ofDays z).toDays = 365 * y + y / 4 - y / 100 + y / 400 + doy - 719468 := by
  unfold Date.ofDays
  simp only [hz]
  obtain ⟨mp, hmp⟩ : ∃ mp, mp = (5 * doy + 2) / 153 := ⟨_, rfl⟩
  rw [← hmp]
  have hb : 0 ≤ mp ∧ mp ≤ 11 ∧ 0 ≤ doy - (153 * mp + 2) / 5 := by omega
  split
  · unfold Date.toDays
    dsimp only
    have e : ((mp + 3).toNat + 9) % 12 = mp.toNat := by omega
    have e2 : ((mp.toNat : Nat) : Int) = mp := by omega
    rw [if_neg (by omega), e, e2]
    omega
  · unfold Date.toDays
    dsimp only
    have e : ((mp - 9).toNat + 9) % 12 = mp.toNat := by omega
    have e2 : ((mp.toNat : Nat) : Int) = mp := by omega
    rw [if_pos (by omega), show y + 1 - 1 = y by omega, e, e2]
    omega

theorem Date.toDays_ofDays (z : Int) : (Date.ofDays z).toDays = z := by
  obtain ⟨h1, h2, h3, -⟩ := marchYear_spec (z + 719468)
  cases hw : marchYear (z + 719468) with
  | mk y doy =>
    rw [hw] at h1 h2 h3
    rw [Date.ofDays_march y doy h2 h3 z hw]
    dsimp only at h1
    rw [← h1]
    omega

theorem Date.ofDays_valid (z : Int) : (Date.ofDays z).Valid := by
  obtain ⟨-, h2, h3, h4⟩ := marchYear_spec (z + 719468)
  unfold Date.ofDays
  dsimp only at *
  generalize (marchYear (z + 719468)).1 = y at *
  generalize (marchYear (z + 719468)).2 = doy at *
  obtain ⟨mp, hmp⟩ : ∃ mp, mp = (5 * doy + 2) / 153 := ⟨_, rfl⟩
  rw [← hmp]
  have hb : 0 ≤ mp ∧ mp ≤ 11 ∧ 0 ≤ doy - (153 * mp + 2) / 5 := by omega
  unfold Date.Valid daysInMonth
  split
  · dsimp only
    rw [if_neg (by omega)]
    refine ⟨by omega, by omega, by omega, ?_⟩
    split <;> omega
  · dsimp only
    refine ⟨by omega, by omega, by omega, ?_⟩
    split
    · split
      · omega
      · rename_i hl
        rw [isLeap_iff] at hl
        have : doy ≠ 365 := fun h => hl (h4 h)
        omega
    · split <;> omega

/-- Year and day counted from 1 March, of a valid date. -/
theorem Date.march_of_valid {d : Date} (h : d.Valid) :
    ∃ y doy : Int, d.toDays = 365 * y + y / 4 - y / 100 + y / 400 + doy - 719468 ∧ 0 ≤ doy ∧ doy ≤ 365 ∧
      (doy = 365 → (y + 1) % 4 = 0 ∧ ((y + 1) % 100 ≠ 0 ∨ (y + 1) % 400 = 0)) ∧
      y = (if d.month ≤ 2 then d.year - 1 else d.year) ∧
      d.month = (if (5 * doy + 2) / 153 < 10 then (5 * doy + 2) / 153 + 3 else (5 * doy + 2) / 153 - 9) ∧
      d.day = doy - (153 * ((5 * doy + 2) / 153) + 2) / 5 + 1 := by
  obtain ⟨y, m, d⟩ := d
  obtain ⟨h1, h2, h3, h4⟩ := h
  dsimp only at *
  refine ⟨_, (153 * (((m + 9) % 12 : Nat) : Int) + 2) / 5 + d - 1, by unfold Date.toDays; dsimp only, ?_⟩
  have hm : m = 1 ∨ m = 2 ∨ m = 3 ∨ m = 4 ∨ m = 5 ∨ m = 6 ∨ m = 7 ∨ m = 8 ∨ m = 9 ∨ m = 10 ∨ m = 11 ∨ m = 12 := by
    omega
  by_cases h2m : m = 2
  · subst h2m
    by_cases hl : isLeap y
    · simp only [daysInMonth, if_true, hl] at h4
      rw [isLeap_iff] at hl
      simp only [show (2 : Nat) ≤ 2 from Nat.le_refl _, if_true, show y - 1 + 1 = y by omega]
      have hd : (5 * ((153 * (((2 + 9) % 12 : Nat) : Int) + 2) / 5 + (d : Int) - 1) + 2) / 153 = 11 := by omega
      rw [hd]
      refine ⟨by omega, by omega, fun _ => hl, trivial, by simp, by omega⟩
    · simp only [daysInMonth, if_true, hl] at h4
      simp only [show (2 : Nat) ≤ 2 from Nat.le_refl _, if_true, show y - 1 + 1 = y by omega]
      have hd : (5 * ((153 * (((2 + 9) % 12 : Nat) : Int) + 2) / 5 + (d : Int) - 1) + 2) / 153 = 11 := by
        simp at h4; omega
      rw [hd]
      simp at h4
      refine ⟨by omega, by omega, fun h => by omega, trivial, by simp, by omega⟩
  · rcases hm with rfl | rfl | rfl | rfl | rfl | rfl | rfl | rfl | rfl | rfl | rfl | rfl
    all_goals first | (exact absurd rfl h2m) | skip
    all_goals
      simp [daysInMonth] at h4
      simp only [show ((1 : Nat) ≤ 2) = True by simp, if_true, Nat.reduceLeDiff, if_false]
      refine ⟨by omega, by omega, fun h => by omega, trivial, ?_, by omega⟩
      split <;> omega

theorem yearStart_mono {a b : Int} (h : a ≤ b) :
    365 * a + a / 4 - a / 100 + a / 400 ≤ 365 * b + b / 4 - b / 100 + b / 400 := by
  by_cases e : a = b
  · subst e; omega
  · omega

theorem yearStart_lt {a b n m : Int} (h : a < b) (hn : n ≤ 365) (hm : 0 ≤ m)
    (p : n = 365 → (a + 1) % 4 = 0 ∧ ((a + 1) % 100 ≠ 0 ∨ (a + 1) % 400 = 0)) :
    365 * a + a / 4 - a / 100 + a / 400 + n < 365 * b + b / 4 - b / 100 + b / 400 + m := by
  have := yearStart_mono (a := a + 1) (b := b) h
  generalize 365 * b + b / 4 - b / 100 + b / 400 = fb at *
  by_cases h365 : n = 365
  · obtain ⟨q1, q2⟩ := p h365
    rcases q2 with q2 | q2 <;> omega
  · omega

/-- The day number determines the date. -/
theorem Date.toDays_inj {a b : Date} (ha : a.Valid) (hb : b.Valid) (h : a.toDays = b.toDays) : a = b := by
  obtain ⟨y1, n1, e1, l1, u1, p1, hy1, hm1, hd1⟩ := Date.march_of_valid ha
  obtain ⟨y2, n2, e2, l2, u2, p2, hy2, hm2, hd2⟩ := Date.march_of_valid hb
  rw [e1, e2] at h
  clear e1 e2
  have hy : y1 = y2 := by
    rcases Int.lt_trichotomy y1 y2 with hlt | heq | hlt
    · exfalso; have := yearStart_lt hlt u1 l2 p1; omega
    · exact heq
    · exfalso; have := yearStart_lt hlt u2 l1 p2; omega
  subst hy
  have hn : n1 = n2 := by omega
  subst hn
  obtain ⟨ya, ma, da⟩ := a
  obtain ⟨yb, mb, db⟩ := b
  dsimp only at *
  have hm : ma = mb := by omega
  have hd : da = db := by omega
  subst hm hd
  have : ya = yb := by split at hy1 <;> split at hy2 <;> omega
  rw [this]

theorem Date.ofDays_toDays {d : Date} (h : d.Valid) : Date.ofDays d.toDays = d :=
  Date.toDays_inj (Date.ofDays_valid _) h (Date.toDays_ofDays _)

/-- The instant rebuilt from its calendar fields is the instant cut to the second. -/
theorem withYmdHms_fields (t : DateTime) :
    withYmdHms t.date t.hour t.minute t.second = some ⟨t.secs, 0⟩ := by
  unfold withYmdHms DateTime.date DateTime.hour DateTime.minute DateTime.second
  have hv := Date.ofDays_valid (t.secs / 86400)
  rw [if_pos ⟨hv, by omega, by omega, by omega⟩, Date.toDays_ofDays]
  congr 2
  omega

/-- The fields of an instant given by fields are these fields. -/
theorem fields_withYmdHms {d h mi s t} (e : withYmdHms d h mi s = some t) :
    t.date = d ∧ t.hour = h ∧ t.minute = mi ∧ t.second = s ∧ t.nanos = 0 := by
  unfold withYmdHms at e
  split at e
  · rename_i hv
    obtain ⟨hv, h1, h2, h3⟩ := hv
    simp only [Option.some.injEq] at e
    subst e
    unfold DateTime.date DateTime.hour DateTime.minute DateTime.second
    dsimp only
    refine ⟨?_, by omega, by omega, by omega, rfl⟩
    rw [show (86400 * d.toDays + 3600 * (h : Int) + 60 * mi + s) / 86400 = d.toDays by omega]
    exact Date.ofDays_toDays hv
  · simp at e

/-! The calendar is the Gregorian one: it starts at 1970-01-01 and every day is followed by the next one. -/

/-- The day after a date, by the rules of the calendar. -/
def Date.next (d : Date) : Date :=
  if d.day < daysInMonth d.year d.month then ⟨d.year, d.month, d.day + 1⟩
  else if d.month < 12 then ⟨d.year, d.month + 1, 1⟩
  else ⟨d.year + 1, 1, 1⟩

theorem Date.epoch : Date.ofDays 0 = ⟨1970, 1, 1⟩ := by decide +kernel

theorem daysInMonth_pos (y m) : 1 ≤ daysInMonth y m := by
  unfold daysInMonth; split <;> split <;> omega

theorem Date.next_valid {d : Date} (h : d.Valid) : d.next.Valid := by
  obtain ⟨h1, h2, h3, h4⟩ := h
  unfold Date.next
  have hp := daysInMonth_pos d.year (d.month + 1)
  have hp' := daysInMonth_pos (d.year + 1) 1
  split
  · exact ⟨h1, h2, by dsimp only; omega, by dsimp only; omega⟩
  · split
    · exact ⟨by dsimp only; omega, by dsimp only; omega, by dsimp only; omega, by dsimp only; omega⟩
    · exact ⟨by dsimp only; omega, by dsimp only; omega, by dsimp only; omega, by dsimp only; omega⟩

theorem Date.toDays_next {d : Date} (h : d.Valid) : d.next.toDays = d.toDays + 1 := by
  obtain ⟨y, m, d⟩ := d
  obtain ⟨h1, h2, h3, h4⟩ := h
  dsimp only at *
  unfold Date.next
  dsimp only
  split
  · unfold Date.toDays; dsimp only; omega
  · have hd : d = daysInMonth y m := by omega
    subst hd
    have hm : m = 1 ∨ m = 2 ∨ m = 3 ∨ m = 4 ∨ m = 5 ∨ m = 6 ∨ m = 7 ∨ m = 8 ∨ m = 9 ∨ m = 10 ∨ m = 11 ∨ m = 12 := by
      omega
    by_cases h2m : m = 2
    · subst h2m
      by_cases hl : isLeap y
      · simp only [daysInMonth, if_true, hl]
        rw [isLeap_iff] at hl
        unfold Date.toDays; dsimp only
        rcases hl with ⟨q1, q2 | q2⟩ <;> simp <;> omega
      · simp only [daysInMonth, if_true, hl]
        rw [isLeap_iff] at hl
        unfold Date.toDays; dsimp only
        simp
        by_cases q1 : y % 4 = 0
        · have q2 : y % 100 = 0 := by
            apply Classical.byContradiction; intro hc; exact hl ⟨q1, Or.inl hc⟩
          have q3 : ¬ y % 400 = 0 := fun hc => hl ⟨q1, Or.inr hc⟩
          omega
        · omega
    · rcases hm with rfl | rfl | rfl | rfl | rfl | rfl | rfl | rfl | rfl | rfl | rfl | rfl
      all_goals first | (exact absurd rfl h2m) | skip
      all_goals
        simp [daysInMonth, Date.toDays]
        try omega

/-- Consecutive day numbers are consecutive calendar days. -/
theorem Date.ofDays_succ (z : Int) : Date.ofDays (z + 1) = (Date.ofDays z).next := by
  apply Date.toDays_inj (Date.ofDays_valid _) (Date.next_valid (Date.ofDays_valid _))
  rw [Date.toDays_ofDays, Date.toDays_next (Date.ofDays_valid _), Date.toDays_ofDays]

end Verif
