import Verif.ConcurrentModel
import Verif.Props.CCache
import Verif.Props.Warehouse
/-
C85: several processes saving to one path at the same time.
-/
namespace Verif.Kb
open Verif.CC

theorem length_putAt (f : Bytes) (pos : Nat) (chunk : Bytes) : (putAt f pos chunk).length = max f.length (pos + chunk.length) := by
  simp only [putAt, List.length_append, List.length_take, List.length_replicate, List.length_drop]
  omega

theorem getElem?_putAt (f : Bytes) (pos : Nat) (chunk : Bytes) (i : Nat) : (putAt f pos chunk)[i]? =
    if i < pos then (if i < f.length then f[i]? else some 0)
    else if i < pos + chunk.length then chunk[i - pos]? else f[i]? := by
  simp only [putAt, List.append_assoc, List.getElem?_append, List.length_take, List.length_replicate]
  by_cases h1 : i < pos
  · rw [if_pos h1]
    by_cases h2 : i < f.length
    · rw [if_pos (by omega), if_pos h2, List.getElem?_take, if_pos h1]
    · rw [if_neg (by omega), if_neg h2, if_pos (by omega), List.getElem?_replicate, if_pos (by omega)]
  · rw [if_neg h1, if_neg (by omega), if_neg (by omega)]
    have e : i - min pos f.length - (pos - f.length) = i - pos := by omega
    rw [e]
    by_cases h2 : i < pos + chunk.length
    · rw [if_pos h2, if_pos (by omega)]
    · rw [if_neg h2, if_neg (by omega), List.getElem?_drop]
      congr 1; omega

/-- an invariant of single steps is one of schedules -/
theorem runShared_induction {P : Shared → Prop} (h : ∀ st ev, P st → P (sharedStep st ev)) (st : Shared) (h0 : P st)
    (schedule : List (Nat × FileCall)) : P (runShared st schedule) := by
  induction schedule generalizing st with
  | nil => exact h0
  | cons e es ih => exact ih _ (h _ _ h0)

/-- what one call can do -/
inductive Does (file : Option Bytes) (s : Saver) : Option Bytes → Saver → Prop where
  | nothing : Does file s file s
  | creates : s.phase = .start → Does file s (some []) { s with phase := if s.data = [] then .ok else .writing }
  | gives_up : (s.phase = .start ∨ s.phase = .writing) → Does file s file { s with phase := .err }
  | writes (n : Nat) : s.phase = .writing → 0 < n →
      Does file s (some (putAt (file.getD []) s.pos ((s.data.drop s.pos).take n)))
        { s with pos := s.pos + ((s.data.drop s.pos).take n).length,
                 phase := if s.pos + ((s.data.drop s.pos).take n).length = s.data.length then .ok else .writing }

theorem saverStep_does (file : Option Bytes) (s : Saver) (c : FileCall) : Does file s (saverStep file s c).1 (saverStep file s c).2 := by
  unfold saverStep
  cases c with
  | create => dsimp only; split
              · exact .creates ‹_›
              · exact .nothing
  | createFails => dsimp only; split
                   · exact .gives_up (.inl ‹_›)
                   · exact .nothing
  | write e =>
    dsimp only; split
    · cases e with
      | interrupted => exact .nothing
      | fail => exact .gives_up (.inr ‹_›)
      | accept n =>
        dsimp only; split
        · exact .gives_up (.inr ‹_›)
        · exact .writes n ‹_› (by omega)
    · exact .nothing

/-- what can be said of the processes alone: their data never change, they are as far as their offset, and `Ok(())` means
that all is written -/
def Sound (datas : List Bytes) (st : Shared) : Prop :=
  st.savers.map (·.data) = datas ∧
  ∀ s ∈ st.savers, s.pos ≤ s.data.length ∧ (s.phase = .ok → s.pos = s.data.length) ∧ (s.phase = .start → s.pos = 0)

theorem sound_step {datas : List Bytes} (st : Shared) (ev : Nat × FileCall) (h : Sound datas st) : Sound datas (sharedStep st ev) := by
  unfold sharedStep
  split
  · exact h
  · next s hs =>
    have hd := saverStep_does st.file s ev.2
    have hmem := List.mem_of_getElem? hs
    have hp := h.2 s hmem
    have key : ∀ s' : Saver, s'.data = s.data →
        (s'.pos ≤ s'.data.length ∧ (s'.phase = .ok → s'.pos = s'.data.length) ∧ (s'.phase = .start → s'.pos = 0)) →
        ∀ f, Sound datas ⟨f, st.savers.set ev.1 s'⟩ := by
      intro s' e hs' f
      refine ⟨?_, ?_⟩
      · rw [← h.1]
        apply List.ext_getElem?
        intro i
        simp only [List.getElem?_map, List.getElem?_set]
        split
        · next hi => subst hi; rw [hs]; split <;> simp_all
        · rfl
      · intro x hx
        rcases List.mem_or_eq_of_mem_set hx with hx | hx
        · exact h.2 x hx
        · subst hx; exact hs'
    dsimp only
    generalize saverStep st.file s ev.2 = r at hd ⊢
    obtain ⟨f', s'⟩ := r
    dsimp only at hd ⊢
    cases hd with
    | nothing => exact key s rfl hp _
    | creates h0 =>
      refine key { s with phase := if s.data = [] then .ok else .writing } rfl ⟨hp.1, ?_, ?_⟩ _
      · dsimp only; intro hok
        have := hp.2.2 h0
        split at hok
        · next e => rw [e, this]; rfl
        · cases hok
      · dsimp only; intro hst; split at hst <;> cases hst
    | gives_up h0 => exact key { s with phase := .err } rfl ⟨hp.1, (fun hx => nomatch hx), (fun hx => nomatch hx)⟩ _
    | writes n h0 hn =>
      have hlen : s.pos + ((s.data.drop s.pos).take n).length ≤ s.data.length := by
        have := hp.1
        simp only [List.length_take, List.length_drop]; omega
      refine key { s with pos := s.pos + ((s.data.drop s.pos).take n).length,
                          phase := if s.pos + ((s.data.drop s.pos).take n).length = s.data.length then .ok else .writing }
        rfl ⟨hlen, ?_, ?_⟩ _
      · dsimp only; intro hok
        split at hok
        · assumption
        · cases hok
      · dsimp only; intro hst; split at hst <;> cases hst

theorem sound_init (before : Option Bytes) (datas : List Bytes) : Sound datas (savers before datas) := by
  refine ⟨by simp [savers, Function.comp_def], ?_⟩
  intro s hs
  simp only [savers, List.mem_map] at hs
  obtain ⟨d, _, rfl⟩ := hs
  exact ⟨by simp, (fun h => nomatch h), fun _ => rfl⟩

theorem sound_run (before : Option Bytes) (datas : List Bytes) (schedule : List (Nat × FileCall)) :
    Sound datas (runShared (savers before datas) schedule) :=
  runShared_induction sound_step _ (sound_init before datas) schedule

/-- the file holds only bytes some process meant for that place, or zeros -/
def Woven (datas : List Bytes) (f : Bytes) : Prop :=
  (∀ (i : Nat) (b : UInt8), f[i]? = some b → b = 0 ∨ ∃ d ∈ datas, d[i]? = some b) ∧ ∃ d ∈ datas, f.length ≤ d.length

/-- C85. Whatever the number of processes, the order of their calls, and what the operating system answers: as long as no
process has opened the file it is as before; afterwards nothing of the old content is left, the file is not longer than
the data of some process, and the byte at each place is the one some process has for that place, or zero. -/
theorem c85_bytes (before : Option Bytes) (datas : List Bytes) (schedule : List (Nat × FileCall)) :
    ((runShared (savers before datas) schedule).file = before ∧
      ∀ s ∈ (runShared (savers before datas) schedule).savers, s.phase = .start ∨ s.phase = .err) ∨
    ∃ f, (runShared (savers before datas) schedule).file = some f ∧ Woven datas f := by
  suffices h : ∀ st, (Sound datas st ∧ ((st.file = before ∧ ∀ s ∈ st.savers, s.phase = .start ∨ s.phase = .err) ∨
      ∃ f, st.file = some f ∧ Woven datas f)) → ∀ ev,
      (Sound datas (sharedStep st ev) ∧
      (((sharedStep st ev).file = before ∧ ∀ s ∈ (sharedStep st ev).savers, s.phase = .start ∨ s.phase = .err) ∨
      ∃ f, (sharedStep st ev).file = some f ∧ Woven datas f)) by
    refine (runShared_induction (P := fun st => Sound datas st ∧ ((st.file = before ∧ ∀ s ∈ st.savers, s.phase = .start ∨
      s.phase = .err) ∨ ∃ f, st.file = some f ∧ Woven datas f)) (fun st ev hs => h st hs ev) _ ?_ schedule).2
    refine ⟨sound_init before datas, .inl ⟨rfl, ?_⟩⟩
    intro s hs
    simp only [savers, List.mem_map] at hs
    obtain ⟨d, _, rfl⟩ := hs
    exact .inl rfl
  intro st ⟨hs, h⟩ ev
  refine ⟨sound_step st ev hs, ?_⟩
  unfold sharedStep
  split
  · exact h
  · next s hget =>
    have hd := saverStep_does st.file s ev.2
    have hmem := List.mem_of_getElem? hget
    have hdat : s.data ∈ datas := by rw [← hs.1]; exact List.mem_map.mpr ⟨s, hmem, rfl⟩
    have hp := (hs.2 s hmem).1
    dsimp only
    generalize saverStep st.file s ev.2 = r at hd ⊢
    obtain ⟨f', s'⟩ := r
    dsimp only at hd ⊢
    cases hd with
    | nothing =>
      rcases h with h | h
      · refine .inl ⟨h.1, fun x hx => ?_⟩
        rcases List.mem_or_eq_of_mem_set hx with hx | hx
        · exact h.2 x hx
        · subst hx; exact h.2 x hmem
      · exact .inr h
    | creates h0 => exact .inr ⟨[], rfl, (fun i b hb => by simp at hb), s.data, hdat, by simp⟩
    | gives_up h0 =>
      rcases h with h | h
      · refine .inl ⟨h.1, fun x hx => ?_⟩
        rcases List.mem_or_eq_of_mem_set hx with hx | hx
        · exact h.2 x hx
        · subst hx; exact .inr rfl
      · exact .inr h
    | writes n h0 hn =>
      rcases h with h | ⟨f, hf, hw⟩
      · have := h.2 s hmem; rw [h0] at this; rcases this with h | h <;> cases h
      · refine .inr ⟨_, rfl, ?_, ?_⟩
        · intro i b hb
          rw [hf, Option.getD_some, getElem?_putAt] at hb
          split at hb
          · split at hb
            · exact hw.1 i b hb
            · exact .inl (Option.some.inj hb).symm
          · split at hb
            · refine .inr ⟨s.data, hdat, ?_⟩
              rw [List.getElem?_take] at hb
              split at hb
              · rw [List.getElem?_drop] at hb
                rw [← hb]; congr 1; omega
              · cases hb
            · exact hw.1 i b hb
        · rw [hf, Option.getD_some, length_putAt]
          obtain ⟨d, hdm, hdl⟩ := hw.2
          have : s.pos + ((s.data.drop s.pos).take n).length ≤ s.data.length := by
            simp only [List.length_take, List.length_drop]; omega
          by_cases hle : f.length ≤ s.pos + ((s.data.drop s.pos).take n).length
          · exact ⟨s.data, hdat, by omega⟩
          · exact ⟨d, hdm, by omega⟩

/-- C85. Processes that save the same data do no harm to each other: when those that began have all returned `Ok(())`, the
file holds the data. -/
theorem c85_same (before : Option Bytes) (n : Nat) (d : Bytes) (schedule : List (Nat × FileCall))
    (h : ∀ s ∈ (runShared (savers before (List.replicate n d)) schedule).savers, s.phase = .start ∨ s.phase = .ok)
    (h1 : ∃ s ∈ (runShared (savers before (List.replicate n d)) schedule).savers, s.phase = .ok) :
    (runShared (savers before (List.replicate n d)) schedule).file = some d := by
  suffices hinv : ∀ st, (Sound (List.replicate n d) st ∧ ((∀ s ∈ st.savers, s.phase = .start ∨ s.phase = .err) ∨
      ∃ (l : Nat) (s : Saver) (f : Bytes), st.savers[l]? = some s ∧ s.phase ≠ .start ∧ st.file = some f ∧ s.pos ≤ f.length ∧
        f.length ≤ d.length ∧ ∀ i, i < s.pos → f[i]? = d[i]?)) → ∀ ev,
      (Sound (List.replicate n d) (sharedStep st ev) ∧ ((∀ s ∈ (sharedStep st ev).savers, s.phase = .start ∨ s.phase = .err) ∨
      ∃ (l : Nat) (s : Saver) (f : Bytes), (sharedStep st ev).savers[l]? = some s ∧ s.phase ≠ .start ∧
        (sharedStep st ev).file = some f ∧ s.pos ≤ f.length ∧ f.length ≤ d.length ∧ ∀ i, i < s.pos → f[i]? = d[i]?)) by
    have hend := runShared_induction (P := fun st => Sound (List.replicate n d) st ∧
      ((∀ s ∈ st.savers, s.phase = .start ∨ s.phase = .err) ∨
      ∃ (l : Nat) (s : Saver) (f : Bytes), st.savers[l]? = some s ∧ s.phase ≠ .start ∧ st.file = some f ∧ s.pos ≤ f.length ∧
        f.length ≤ d.length ∧ ∀ i, i < s.pos → f[i]? = d[i]?)) (fun st ev hs => hinv st hs ev)
        (savers before (List.replicate n d)) ?_ schedule
    · generalize runShared (savers before (List.replicate n d)) schedule = st at h h1 hend ⊢
      obtain ⟨hs, hend⟩ := hend
      rcases hend with hend | ⟨l, s, f, hl, hp, hf, h2, h3, h4⟩
      · obtain ⟨s, hs1, hs2⟩ := h1
        rcases hend s hs1 with he | he <;> rw [he] at hs2 <;> cases hs2
      · have hmem := List.mem_of_getElem? hl
        have hok : s.phase = .ok := by rcases h s hmem with h | h; exact absurd h hp; exact h
        have hd : s.data = d := by
          have : s.data ∈ List.replicate n d := by rw [← hs.1]; exact List.mem_map.mpr ⟨s, hmem, rfl⟩
          exact (List.mem_replicate.mp this).2
        have hpos := (hs.2 s hmem).2.1 hok
        rw [hd] at hpos
        rw [hf]; congr 1
        apply List.ext_getElem?
        intro i
        by_cases hi : i < s.pos
        · exact h4 i hi
        · rw [List.getElem?_eq_none (by omega), List.getElem?_eq_none (by omega)]
    · refine ⟨sound_init _ _, .inl ?_⟩
      intro s hs
      simp only [savers, List.mem_map] at hs
      obtain ⟨d, _, rfl⟩ := hs
      exact .inl rfl
  intro st ⟨hs, hi⟩ ev
  refine ⟨sound_step st ev hs, ?_⟩
  unfold sharedStep
  split
  · exact hi
  · next s hget =>
    have hd := saverStep_does st.file s ev.2
    have hmem := List.mem_of_getElem? hget
    have hlt : ev.1 < st.savers.length := by
      rcases Nat.lt_or_ge ev.1 st.savers.length with h | h
      · exact h
      · rw [List.getElem?_eq_none h] at hget; cases hget
    have hdat : s.data = d := by
      have : s.data ∈ List.replicate n d := by rw [← hs.1]; exact List.mem_map.mpr ⟨s, hmem, rfl⟩
      exact (List.mem_replicate.mp this).2
    have hp := hs.2 s hmem
    dsimp only
    generalize saverStep st.file s ev.2 = r at hd ⊢
    obtain ⟨f', s'⟩ := r
    dsimp only at hd ⊢
    cases hd with
    | nothing =>
      have : st.savers.set ev.1 s = st.savers := by
        apply List.ext_getElem?
        intro i
        rw [List.getElem?_set]
        split
        · next e => subst e; exact hget.symm
        · rfl
      rw [this]; exact hi
    | creates h0 =>
      refine .inr ⟨ev.1, _, [], by rw [List.getElem?_set, if_pos rfl, if_pos hlt], ?_, rfl, ?_, by simp, ?_⟩
      · dsimp only; split <;> (intro hx; cases hx)
      · have := hp.2.2 h0; dsimp only; omega
      · have := hp.2.2 h0; dsimp only; intro i hi; omega
    | gives_up h0 =>
      rcases hi with hi | ⟨l, t, f, hl, ht, hf, h2, h3, h4⟩
      · refine .inl fun x hx => ?_
        rcases List.mem_or_eq_of_mem_set hx with hx | hx
        · exact hi x hx
        · subst hx; exact .inr rfl
      · by_cases e : ev.1 = l
        · subst e
          rw [hget] at hl; cases hl
          exact .inr ⟨ev.1, { s with phase := .err }, f, by rw [List.getElem?_set, if_pos rfl, if_pos hlt], (fun hx => nomatch hx),
            hf, h2, h3, h4⟩
        · exact .inr ⟨l, t, f, by rw [List.getElem?_set, if_neg e]; exact hl, ht, hf, h2, h3, h4⟩
    | writes k h0 hk =>
      rcases hi with hi | ⟨l, t, f, hl, ht, hf, h2, h3, h4⟩
      · have := hi s hmem; rw [h0] at this; rcases this with h | h <;> cases h
      · have hchunk : ∀ i, ¬ i < s.pos → i < s.pos + ((s.data.drop s.pos).take k).length →
            ((s.data.drop s.pos).take k)[i - s.pos]? = d[i]? := by
          intro i hi1 hi2
          have h5 : i - s.pos < k := by
            simp only [List.length_take, List.length_drop] at hi2; omega
          rw [List.getElem?_take, if_pos h5, List.getElem?_drop, hdat]
          congr 1; omega
        have hlen : s.pos + ((s.data.drop s.pos).take k).length ≤ d.length := by
          have := hp.1
          rw [hdat] at this ⊢
          simp only [List.length_take, List.length_drop]; omega
        have hgood : ∀ i, i < t.pos → (putAt (st.file.getD []) s.pos ((s.data.drop s.pos).take k))[i]? = d[i]? := by
          intro i hi
          rw [hf, Option.getD_some, getElem?_putAt]
          split
          · rw [if_pos (by omega)]; exact h4 i hi
          · split
            · exact hchunk i ‹_› ‹_›
            · exact h4 i hi
        by_cases e : ev.1 = l
        · subst e
          rw [hget] at hl; cases hl
          refine .inr ⟨ev.1, _, _, by rw [List.getElem?_set, if_pos rfl, if_pos hlt], ?_, rfl, ?_, ?_, ?_⟩
          · dsimp only; split <;> (intro hx; cases hx)
          · rw [length_putAt]; dsimp only; omega
          · rw [length_putAt, hf, Option.getD_some]; omega
          · dsimp only
            intro i hi
            by_cases hi2 : i < s.pos
            · exact hgood i hi2
            · rw [hf, Option.getD_some, getElem?_putAt, if_neg hi2, if_pos hi]
              exact hchunk i hi2 hi
        · refine .inr ⟨l, t, _, by rw [List.getElem?_set, if_neg e]; exact hl, ht, rfl, ?_, ?_, hgood⟩
          · rw [length_putAt, hf, Option.getD_some]; omega
          · rw [length_putAt, hf, Option.getD_some]; omega

/-- a process alone, in the middle of `write_all` -/
theorem run_writes (p : Nat) (es : List WriteEvent) (st : Shared) (s : Saver) (f : Bytes) (hs : st.savers[p]? = some s)
    (hf : st.file = some f) (hpos : s.pos = f.length) (hle : s.pos ≤ s.data.length)
    (hph : s.phase = if s.pos = s.data.length then .ok else .writing) :
    (runShared st (es.map fun e => (p, .write e))).file = some (f ++ (writeAll es (s.data.drop s.pos)).2) ∧
    ∃ s', (runShared st (es.map fun e => (p, .write e))).savers[p]? = some s' ∧
      s'.phase = match (writeAll es (s.data.drop s.pos)).1 with | .done => .ok | .failed => .err | .cut => .writing := by
  have stay : ∀ (es : List WriteEvent) (st : Shared) (s : Saver), st.savers[p]? = some s → s.phase ≠ .writing →
      s.phase ≠ .start →
      (runShared st (es.map fun e => (p, .write e))).file = st.file ∧
        (runShared st (es.map fun e => (p, .write e))).savers[p]? = some s := by
    intro es
    induction es with
    | nil => exact fun st s h _ _ => ⟨rfl, h⟩
    | cons e es ih =>
      intro st s h1 h2 h3
      have hstep : saverStep st.file s (.write e) = (st.file, s) := by
        unfold saverStep; dsimp only; split
        · exact absurd ‹_› h2
        · rfl
      have hlt : p < st.savers.length := by
        rcases Nat.lt_or_ge p st.savers.length with h | h
        · exact h
        · rw [List.getElem?_eq_none h] at h1; cases h1
      have := ih (sharedStep st (p, .write e)) s (by
        simp only [sharedStep, h1, hstep, List.getElem?_set]; rw [if_pos trivial, if_pos hlt]) h2 h3
      simp only [List.map_cons, runShared, List.foldl_cons] at this ⊢
      refine ⟨this.1.trans ?_, this.2⟩
      simp only [sharedStep, h1, hstep]
  induction es generalizing st s f with
  | nil =>
    refine ⟨?_, s, hs, ?_⟩
    · by_cases h : s.pos = s.data.length
      · simp [runShared, h, writeAll, hf]
      · cases hd : s.data.drop s.pos with
        | nil => have := congrArg List.length hd; simp only [List.length_drop, List.length_nil] at this; omega
        | cons b bs => simp [runShared, writeAll, hf]
    · by_cases h : s.pos = s.data.length
      · rw [hph, if_pos h, h, List.drop_length]; rfl
      · cases hd : s.data.drop s.pos with
        | nil => have := congrArg List.length hd; simp only [List.length_drop, List.length_nil] at this; omega
        | cons b bs => rw [hph, if_neg h]; rfl
  | cons e es ih =>
    have hlt : p < st.savers.length := by
      rcases Nat.lt_or_ge p st.savers.length with h | h
      · exact h
      · rw [List.getElem?_eq_none h] at hs; cases hs
    by_cases h : s.pos = s.data.length
    · rw [if_pos h] at hph
      have hw : writeAll (e :: es) (s.data.drop s.pos) = (.done, []) := by rw [h, List.drop_length]; simp [writeAll]
      rw [hw]
      have := stay (e :: es) st s hs (by rw [hph]; exact (fun h => nomatch h)) (by rw [hph]; exact (fun h => nomatch h))
      exact ⟨by rw [this.1, hf]; simp, s, this.2, hph⟩
    · rw [if_neg h] at hph
      obtain ⟨b, bs, hd⟩ : ∃ b bs, s.data.drop s.pos = b :: bs := by
        cases hd : s.data.drop s.pos with
        | nil => have := congrArg List.length hd; simp only [List.length_drop, List.length_nil] at this; omega
        | cons b bs => exact ⟨b, bs, rfl⟩
      have herr : ∀ (hstep : saverStep st.file s (.write e) = (st.file, { s with phase := .err })),
          (runShared st ((e :: es).map fun e => (p, .write e))).file = st.file ∧
            (runShared st ((e :: es).map fun e => (p, .write e))).savers[p]? = some { s with phase := .err } := by
        intro hstep
        have := stay es (sharedStep st (p, .write e)) { s with phase := .err } (by
          simp only [sharedStep, hs, hstep, List.getElem?_set]; rw [if_pos trivial, if_pos hlt]) (fun h => nomatch h) (fun h => nomatch h)
        simp only [List.map_cons, runShared, List.foldl_cons] at this ⊢
        refine ⟨this.1.trans ?_, this.2⟩
        simp only [sharedStep, hs, hstep]
      cases e with
      | interrupted =>
        have hstep : saverStep st.file s (.write .interrupted) = (st.file, s) := by simp [saverStep, hph]
        have hw : writeAll (.interrupted :: es) (s.data.drop s.pos) = writeAll es (s.data.drop s.pos) := by rw [hd]; simp [writeAll]
        have := ih (sharedStep st (p, .write .interrupted)) s f (by
          simp only [sharedStep, hs, hstep, List.getElem?_set]; rw [if_pos trivial, if_pos hlt])
          (by simp only [sharedStep, hs, hstep]; exact hf) hpos hle (by rw [hph, if_neg h])
        rw [hw]; exact this
      | fail =>
        have hw : writeAll (.fail :: es) (s.data.drop s.pos) = (.failed, []) := by rw [hd]; simp [writeAll]
        have := herr (by simp [saverStep, hph])
        rw [hw]
        exact ⟨by rw [this.1, hf]; simp, _, this.2, rfl⟩
      | accept n =>
        by_cases hn : n = 0
        · have hw : writeAll (.accept n :: es) (s.data.drop s.pos) = (.failed, []) := by rw [hd]; simp [writeAll, hn]
          have := herr (by simp [saverStep, hph, hn])
          rw [hw]
          exact ⟨by rw [this.1, hf]; simp, _, this.2, rfl⟩
        · have hw : writeAll (.accept n :: es) (s.data.drop s.pos) =
              ((writeAll es ((s.data.drop s.pos).drop n)).1,
                (s.data.drop s.pos).take n ++ (writeAll es ((s.data.drop s.pos).drop n)).2) := by rw [hd]; simp [writeAll, hn]
          have hstep : saverStep st.file s (.write (.accept n)) = (some (f ++ (s.data.drop s.pos).take n),
              { s with pos := s.pos + ((s.data.drop s.pos).take n).length,
                       phase := if s.pos + ((s.data.drop s.pos).take n).length = s.data.length then .ok else .writing }) := by
            have hput : putAt f f.length ((s.data.drop f.length).take n) = f ++ (s.data.drop f.length).take n := by
              simp [putAt]
            simp [saverStep, hph, hn, hf, hpos, hput]
          have hdrop : s.data.drop (s.pos + ((s.data.drop s.pos).take n).length) = (s.data.drop s.pos).drop n := by
            rw [List.drop_drop, List.length_take, List.length_drop]
            rcases Nat.le_total n (s.data.length - s.pos) with h | h
            · rw [Nat.min_eq_left h]
            · rw [Nat.min_eq_right h, List.drop_eq_nil_of_le (by omega), List.drop_eq_nil_of_le (by omega)]
          have := ih (sharedStep st (p, .write (.accept n)))
            { s with pos := s.pos + ((s.data.drop s.pos).take n).length,
                     phase := if s.pos + ((s.data.drop s.pos).take n).length = s.data.length then .ok else .writing }
            (f ++ (s.data.drop s.pos).take n) (by
              simp only [sharedStep, hs, hstep, List.getElem?_set]; rw [if_pos trivial, if_pos hlt])
            (by simp only [sharedStep, hs, hstep]) (by simp [hpos])
            (by dsimp only; simp only [List.length_take, List.length_drop]; omega) rfl
          dsimp only at this
          rw [hdrop] at this
          rw [hw]
          refine ⟨?_, this.2⟩
          have h3 := this.1
          rw [List.append_assoc] at h3
          exact h3

/-- C85. A process that runs alone from the moment it opens the file, whatever others did before (they may be in the
middle of writing), does exactly what `saveData` (C25) says: same file, same result. -/
theorem c85_alone (st : Shared) (p : Nat) (data : Bytes) (hs : st.savers[p]? = some ⟨data, .start, 0⟩) (es : List WriteEvent) :
    (runShared st ((p, .create) :: es.map fun e => (p, .write e))).file = (saveData ⟨.done, es⟩ st.file data).2 ∧
    ∃ s', (runShared st ((p, .create) :: es.map fun e => (p, .write e))).savers[p]? = some s' ∧
      ((saveData ⟨.done, es⟩ st.file data).1 = some (.ok ()) ↔ s'.phase = .ok) ∧
      ((saveData ⟨.done, es⟩ st.file data).1 = some (.error .io) ↔ s'.phase = .err) ∧
      ((saveData ⟨.done, es⟩ st.file data).1 = none ↔ s'.phase = .writing) := by
  have hlt : p < st.savers.length := by
    rcases Nat.lt_or_ge p st.savers.length with h | h
    · exact h
    · rw [List.getElem?_eq_none h] at hs; cases hs
  have := run_writes p es (sharedStep st (p, .create)) ⟨data, if data = [] then .ok else .writing, 0⟩ [] (by
    simp only [sharedStep, hs, saverStep, List.getElem?_set]; rw [if_pos trivial, if_pos hlt])
    (by simp only [sharedStep, hs, saverStep]) rfl (Nat.zero_le _) (by
      dsimp only
      by_cases h : data = []
      · subst h; rfl
      · have : (0 : Nat) ≠ data.length := fun e => h (List.eq_nil_of_length_eq_zero e.symm)
        rw [if_neg h, if_neg this])
  dsimp only at this
  rw [List.drop_zero, List.nil_append] at this
  obtain ⟨h1, s', h2, h3⟩ := this
  refine ⟨?_, s', h2, ?_⟩
  · rw [runShared, List.foldl_cons]
    refine h1.trans ?_
    simp only [saveData]
    generalize writeAll es data = r
    obtain ⟨e, b⟩ := r
    cases e <;> rfl
  · revert h3
    simp only [saveData]
    generalize writeAll es data = r
    obtain ⟨e, b⟩ := r
    intro h3
    dsimp only at h3
    cases e <;> (dsimp only at h3 ⊢; rw [h3]; simp)

/-- C85. The last to open the file, if left alone from there and told `Ok(())`, gets what it saved, whatever happened before. -/
theorem c85_last_alone (before : Option Bytes) (datas : List Bytes) (earlier : List (Nat × FileCall)) (p : Nat) (data : Bytes)
    (es : List WriteEvent)
    (hs : (runShared (savers before datas) earlier).savers[p]? = some ⟨data, .start, 0⟩)
    (hok : ∃ s', (runShared (savers before datas) (earlier ++ (p, .create) :: es.map fun e => (p, .write e))).savers[p]? =
      some s' ∧ s'.phase = .ok) :
    (runShared (savers before datas) (earlier ++ (p, .create) :: es.map fun e => (p, .write e))).file = some data := by
  obtain ⟨h1, s', h2, h3, _, _⟩ := c85_alone _ p data hs es
  obtain ⟨t, ht, hph⟩ := hok
  rw [runShared, List.foldl_append] at ht ⊢
  have e := h2.symm.trans ht
  cases e
  refine h1.trans ?_
  exact ((c25_save ⟨.done, es⟩ _ data).2).1 (h3.mpr hph)

/-- C85, the violation. For any two contents there is an order of the calls in which both processes are told `Ok(())` and the
file is the second's data followed by the tail of the first's. (Both open, then each writes all it has.) -/
theorem c85_mixture (before : Option Bytes) (a b : Bytes) (ha : a ≠ []) (hb : b ≠ []) :
    ∃ schedule, (runShared (savers before [a, b]) schedule).savers.map (·.phase) = [.ok, .ok] ∧
      (runShared (savers before [a, b]) schedule).file = some (b ++ a.drop b.length) := by
  refine ⟨[(0, .create), (1, .create), (0, .write (.accept a.length)), (1, .write (.accept b.length))], ?_, ?_⟩
  · have h1 : a.length ≠ 0 := fun e => ha (List.eq_nil_of_length_eq_zero e)
    have h2 : b.length ≠ 0 := fun e => hb (List.eq_nil_of_length_eq_zero e)
    simp [runShared, savers, sharedStep, saverStep, ha, hb]
  · have h1 : a.length ≠ 0 := fun e => ha (List.eq_nil_of_length_eq_zero e)
    have h2 : b.length ≠ 0 := fun e => hb (List.eq_nil_of_length_eq_zero e)
    simp [runShared, savers, sharedStep, saverStep, ha, hb, putAt]

/-- so the file holds neither content as soon as one is longer than the other and does not begin with it -/
theorem c85_mixture_neither (before : Option Bytes) (a b : Bytes) (hb : b ≠ []) (hl : b.length < a.length) (hp : ¬ b <+: a) :
    ∃ schedule f, (runShared (savers before [a, b]) schedule).savers.map (·.phase) = [.ok, .ok] ∧
      (runShared (savers before [a, b]) schedule).file = some f ∧ f ≠ a ∧ f ≠ b := by
  obtain ⟨sch, h1, h2⟩ := c85_mixture before a b (by intro e; rw [e] at hl; simp at hl) hb
  refine ⟨sch, _, h1, h2, ?_, ?_⟩
  · intro e; exact hp ⟨_, e⟩
  · intro e
    have := congrArg List.length e
    simp only [List.length_append, List.length_drop] at this
    omega

/-- C85, the violation with a hole. If the first process has written `k` bytes when the second opens the file, and the second
has less than that to write, then the file keeps zeros nobody meant to write, and again both are told `Ok(())`. -/
theorem c85_hole (before : Option Bytes) (a b : Bytes) (hb : b ≠ []) (k : Nat) (hk : b.length < k) (hka : k < a.length) :
    ∃ schedule, (runShared (savers before [a, b]) schedule).savers.map (·.phase) = [.ok, .ok] ∧
      (runShared (savers before [a, b]) schedule).file = some (b ++ List.replicate (k - b.length) 0 ++ a.drop k) := by
  have h0 : a ≠ [] := by intro e; rw [e] at hka; simp at hka
  have h1 : b.length ≠ 0 := fun e => hb (List.eq_nil_of_length_eq_zero e)
  have h2 : k ≠ 0 := by omega
  have h3 : ¬ (k = a.length) := by omega
  have h4 : min k a.length = k := by omega
  have h5 : a.length ≠ 0 := by omega
  have h6 : k + (a.length - k) = a.length := by omega
  have h7 : b.take k = b := List.take_of_length_le (by omega)
  have h8 : (a.drop k).take a.length = a.drop k := List.take_of_length_le (by simp)
  have h9 : b.drop a.length = [] := List.drop_eq_nil_of_le (by omega)
  refine ⟨[(0, .create), (0, .write (.accept k)), (1, .create), (1, .write (.accept b.length)),
    (0, .write (.accept a.length))], ?_, ?_⟩
  · simp [runShared, savers, sharedStep, saverStep, h0, hb, h1, h2, h3, h4, h5, h6]
  · simp [runShared, savers, sharedStep, saverStep, h0, hb, h1, h2, h3, h4, h5, h6, h7, h8, h9, putAt]

/-- C85, the violation for credential caches. Two processes save caches of the same owner, `x` and `y ++ z`, and the records
of `x` take as many bytes as those of `y` (as after a renewal of `y`). The file may end up as a sound cache of `x ++ z`, which
neither saved, and both are told `Ok(())`. -/
theorem c85_mixed_cache (before : Option Bytes) (c : CCache) (x y z : List CC.Credential)
    (h1 : ({ c with credentials := y ++ z } : CCache).Fits) (h2 : ({ c with credentials := x } : CCache).Fits)
    (hl : (x.flatMap Credential.build).length = (y.flatMap Credential.build).length) :
    ∃ schedule f,
      (runShared (savers before [({ c with credentials := y ++ z } : CCache).build, ({ c with credentials := x } : CCache).build])
        schedule).savers.map (·.phase) = [.ok, .ok] ∧
      (runShared (savers before [({ c with credentials := y ++ z } : CCache).build, ({ c with credentials := x } : CCache).build])
        schedule).file = some f ∧
      CCache.parse f = .ok ({ c with credentials := x ++ z }, []) := by
  have e1 : ({ c with credentials := y ++ z } : CCache).build =
      ({ c with credentials := y } : CCache).build ++ z.flatMap Credential.build := c05_build_append { c with credentials := y } z
  have ex : ({ c with credentials := x } : CCache).build = ({ c with credentials := [] } : CCache).build ++ x.flatMap Credential.build :=
    c05_build_append { c with credentials := [] } x
  have ey : ({ c with credentials := y } : CCache).build = ({ c with credentials := [] } : CCache).build ++ y.flatMap Credential.build :=
    c05_build_append { c with credentials := [] } y
  have hlen : ({ c with credentials := x } : CCache).build.length = ({ c with credentials := y } : CCache).build.length := by
    rw [ex, ey, List.length_append, List.length_append, hl]
  have hne : ∀ cc : CCache, cc.build ≠ [] := by
    intro cc e
    have := congrArg List.length e
    simp [CCache.build] at this
  obtain ⟨sch, hs1, hs2⟩ := c85_mixture before _ _ (hne { c with credentials := y ++ z }) (hne { c with credentials := x })
  refine ⟨sch, _, hs1, hs2, ?_⟩
  have : ({ c with credentials := y ++ z } : CCache).build.drop ({ c with credentials := x } : CCache).build.length =
      z.flatMap Credential.build := by
    rw [e1, hlen, List.drop_left]
  rw [this]
  exact c05_parse_append _ h2 z (fun w hw => h1.2.2.2 w (List.mem_append_right _ hw))

/-! ### Examples -/

/-- three processes with different data, interleaved, one failing: the second opens last and is interrupted once -/
example : (runShared (savers (some [9, 9, 9, 9, 9]) [[1, 2, 3], [4, 5], [6]])
    [(0, .create), (0, .write (.accept 2)), (1, .create), (1, .write .interrupted), (2, .createFails), (0, .write (.accept 9)),
     (1, .write (.accept 1)), (1, .write (.accept 1))]) =
    ⟨some [4, 5, 3], [⟨[1, 2, 3], .ok, 3⟩, ⟨[4, 5], .ok, 2⟩, ⟨[6], .err, 0⟩]⟩ := by decide

/-- the hypotheses of `c85_same`: both open before either writes, with short writes -/
example : let st := (runShared (savers none (List.replicate 3 [1, 2, 3]))
      [(0, .create), (0, .write (.accept 2)), (1, .create), (0, .write (.accept 2)), (1, .write (.accept 2)), (1, .write (.accept 1))])
    (∀ s ∈ st.savers, s.phase = .start ∨ s.phase = .ok) ∧ (∃ s ∈ st.savers, s.phase = .ok) ∧ st.file = some [1, 2, 3] := by decide

/-- the hypotheses of `c85_last_alone`: the first is stopped in the middle, the second then saves -/
example : let st := runShared (savers none [[1, 2, 3], [4]]) [(0, .create), (0, .write (.accept 2))]
    st.savers[1]? = some ⟨[4], .start, 0⟩ ∧ st.file = some [1, 2] ∧
    (runShared st [(1, .create), (1, .write (.accept 1))]).file = some [4] := by decide

/-- the hypotheses of `c85_mixed_cache`: a cache with two tickets, and the same with the first renewed and the second gone -/
example : ∃ x y z, sampleCache.credentials = y ++ z ∧ z ≠ [] ∧ x ≠ y ∧
    ({ sampleCache with credentials := y ++ z } : CCache).Fits ∧ ({ sampleCache with credentials := x } : CCache).Fits ∧
    (x.flatMap Credential.build).length = (y.flatMap Credential.build).length :=
  ⟨[{ sampleCred with time := { sampleCred.time with endtime := 77 } }], [sampleCred],
    [{ sampleCred with server := ⟨3, [0x52], [[0x68], [0x78]]⟩, addrs := [] }], by decide⟩

end Verif.Kb
