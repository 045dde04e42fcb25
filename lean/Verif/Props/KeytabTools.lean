import Verif.Props.Mit

/-! C122: keytabs maintained with the MIT tools and with the library, in any order.

`ktadd` of the MIT tools puts an entry, always with its 32-bit key version, at the end of the file or into a deleted slot
that is large enough, whose size it keeps, so that old octets stay behind the entry. `ktremove` makes the slot of an entry a
deleted slot of the same size. The library loads the whole file and writes it anew, perhaps with a further entry. -/

namespace Verif.Mit

/-- What is done to a keytab. -/
inductive KtOp
  /-- an entry is added, with `ktadd` or with the library -/
  | add (e : Entry)
  /-- an entry is removed with `ktremove` -/
  | remove (e : Entry)
  /-- the keytab is loaded with the library and saved again unchanged -/
  | resave

/-- the entries a user expects in the keytab; the last operation is the head of the list -/
def live : List KtOp → List Entry
  | [] => []
  | .add e :: ops => e :: live ops
  | .remove e :: ops => (live ops).erase e
  | .resave :: ops => live ops

/-- how often entries were removed -/
def removals : List KtOp → Nat
  | [] => 0
  | .remove _ :: ops => removals ops + 1
  | _ :: ops => removals ops

/-- an entry of nobody: no realm, no name, no key -/
def nobody : Entry := ⟨[], [], 0, 0, 0, 0, [], some 0⟩

end Verif.Mit

namespace Verif.KT
open Verif.Mit (KtOp live removals nobody)

/-- The records of a keytab of version 2 after the operations (the last one first), starting from an empty file. -/
inductive History : List KtOp → List Mit.Record → Prop
  | empty : History [] []
  /-- `ktadd` at the end of the file -/
  | append {ops rs} (e : Mit.Entry) (h : History ops rs) (hv : e.Valid) (hs : e.bytes.length < 2 ^ 31)
      (h32 : e.vno32.isSome) (hn : e ≠ nobody) : History (.add e :: ops) (rs ++ [.entry e []])
  /-- `ktadd` into a deleted slot: the size of the slot stays -/
  | reuse {ops pre post} (c : Bytes) (e : Mit.Entry) (filler : Bytes) (h : History ops (pre ++ .hole c :: post))
      (hv : e.Valid) (hs : (e.bytes ++ filler).length = c.length) (h32 : e.vno32.isSome) (hn : e ≠ nobody) :
      History (.add e :: ops) (pre ++ .entry e filler :: post)
  /-- `ktremove`: whatever the slot contains afterwards -/
  | remove {ops pre post} (e : Mit.Entry) (filler c : Bytes) (h : History ops (pre ++ .entry e filler :: post))
      (hc : c.length = (e.bytes ++ filler).length) : History (.remove e :: ops) (pre ++ .hole c :: post)
  /-- loaded and saved with the library -/
  | resave {ops rs} (dbg : Bool) (k : Keytab) (rest : Bytes) (h : History ops rs)
      (hp : Keytab.parse dbg (Mit.keytabBytes rs none) = .ok (k, rest)) : History (.resave :: ops) (records k)
  /-- loaded with the library, an entry added, saved with the library -/
  | push {ops rs} (dbg : Bool) (k : Keytab) (rest : Bytes) (e : KeytabEntry) (h : History ops rs)
      (hp : Keytab.parse dbg (Mit.keytabBytes rs none) = .ok (k, rest)) (he : e.Fits) (hn : e.mit ≠ nobody) :
      History (.add e.mit :: ops) (records { k with entries := k.entries ++ [e] })

theorem parsed_fits {dbg : Bool} {raw rest : Bytes} {k : Keytab} (h : Keytab.parse dbg raw = .ok (k, rest)) : k.Fits := by
  unfold Keytab.parse at h
  simp only [bind_ok, pure_ok] at h
  obtain ⟨a, r1, h1, b, r2, h2, es, r3, h3, rfl, rfl⟩ := h
  exact many0_all (P := KeytabEntry.Fits) (entry_suffix dbg) (fun _ _ _ h => entry_fits h) _ _ _ h3

theorem entry_bytes_pos (e : Mit.Entry) : 0 < e.bytes.length := by
  simp [Mit.Entry.bytes, bytesOf2, be16]

/-- loading a file of records that are not cut short -/
theorem loads_shown (dbg : Bool) {rs : List Mit.Record} (hv : ∀ r ∈ rs, r.Valid) (hs : ∀ r ∈ rs, ¬ Short r) :
    Keytab.parse dbg (Mit.keytabBytes rs none) = .ok (⟨5, 2, rs.map shownFor⟩, []) := by
  obtain ⟨rest, h1, h2⟩ := c71_shown_entries dbg rs none hv
  have := h2.mpr ⟨hs, rfl⟩
  subst this
  rw [h1, takeWhile_all _ _ fun r hr => by simpa using hs r hr]

theorem records_valid {k : Keytab} (h : k.Fits) : (∀ r ∈ records k, r.Valid) ∧ ∀ r ∈ records k, ¬ Short r := by
  constructor
  · intro r hr
    obtain ⟨e, he, rfl⟩ := List.mem_map.mp hr
    refine ⟨entry_mit_valid (h e he), ?_, by simp⟩
    rw [List.append_nil, entry_mit, body_length]
    exact (h e he).2.2.2.2
  · intro r hr
    obtain ⟨e, he, rfl⟩ := List.mem_map.mp hr
    simp [Short]

theorem push_fits {k : Keytab} {e : KeytabEntry} (h : k.Fits) (he : e.Fits) :
    Keytab.Fits { k with entries := k.entries ++ [e] } := by
  intro x hx
  rcases List.mem_append.mp hx with hx | hx
  · exact h x hx
  · rw [List.mem_singleton.mp hx]; exact he

/-- after any history all records are valid and none is cut short -/
theorem history_valid {ops : List KtOp} {rs : List Mit.Record} (h : History ops rs) :
    (∀ r ∈ rs, r.Valid) ∧ ∀ r ∈ rs, ¬ Short r := by
  induction h with
  | empty => simp
  | append e h hv hs h32 hn ih =>
    constructor
    · intro r hr
      rcases List.mem_append.mp hr with hr | hr
      · exact ih.1 r hr
      · rw [List.mem_singleton.mp hr]; exact ⟨hv, by simpa using hs, by simp⟩
    · intro r hr
      rcases List.mem_append.mp hr with hr | hr
      · exact ih.2 r hr
      · rw [List.mem_singleton.mp hr]; simp [Short]
  | @reuse ops pre post c e filler h hv hs h32 hn ih =>
    have hc := ih.1 (.hole c) (by simp)
    have hnone : e.vno32 ≠ none := by intro h0; rw [h0] at h32; cases h32
    constructor
    · intro r hr
      rcases List.mem_append.mp hr with hr | hr
      · exact ih.1 r (by simp [hr])
      · rcases List.mem_cons.mp hr with rfl | hr
        · exact ⟨hv, by rw [hs]; exact hc.2, fun h0 => absurd h0 hnone⟩
        · exact ih.1 r (by simp [hr])
    · intro r hr
      rcases List.mem_append.mp hr with hr | hr
      · exact ih.2 r (by simp [hr])
      · rcases List.mem_cons.mp hr with rfl | hr
        · exact fun h0 => hnone h0.1
        · exact ih.2 r (by simp [hr])
  | @remove ops pre post e filler c h hc ih =>
    have he := ih.1 (.entry e filler) (by simp)
    have := entry_bytes_pos e
    constructor
    · intro r hr
      rcases List.mem_append.mp hr with hr | hr
      · exact ih.1 r (by simp [hr])
      · rcases List.mem_cons.mp hr with rfl | hr
        · refine ⟨?_, by rw [hc]; exact he.2.1⟩
          rw [hc, List.length_append]; omega
        · exact ih.1 r (by simp [hr])
    · intro r hr
      rcases List.mem_append.mp hr with hr | hr
      · exact ih.2 r (by simp [hr])
      · rcases List.mem_cons.mp hr with rfl | hr
        · simp [Short]
        · exact ih.2 r (by simp [hr])
  | resave dbg k rest h hp ih => exact records_valid (parsed_fits hp)
  | push dbg k rest e h hp he hn ih => exact records_valid (push_fits (parsed_fits hp) he)

theorem entries_append (a b : List Mit.Record) : Mit.entries (a ++ b) = Mit.entries a ++ Mit.entries b := by
  induction a with
  | nil => rfl
  | cons r a ih => cases r <;> simp [Mit.entries, ih]

theorem entries_records (k : Keytab) : Mit.entries (records k) = k.entries.map KeytabEntry.mit := by
  unfold records
  induction k.entries with
  | nil => rfl
  | cons e es ih => simp only [List.map_cons, Mit.entries, ih]

/-- the entries of somebody -/
def somebody (es : List Mit.Entry) : List Mit.Entry := es.filter fun e => e ≠ nobody

theorem blank_mit : KeytabEntry.dflt.mit = nobody := by decide

/-- the entries of somebody in what is shown are those of the file -/
theorem shown_somebody {rs : List Mit.Record} (hv : ∀ r ∈ rs, r.Valid) :
    somebody ((rs.map shownFor).map KeytabEntry.mit) = somebody (Mit.entries rs) := by
  induction rs with
  | nil => rfl
  | cons r rs ih =>
    have hr := ih fun x hx => hv x (by simp [hx])
    cases r with
    | entry e f =>
      have := (hv _ List.mem_cons_self).1
      simp only [List.map_cons, shownFor, entryOf_mit this, Mit.entries]
      unfold somebody at hr ⊢
      rw [List.filter_cons, List.filter_cons, hr]
    | hole c =>
      simp only [List.map_cons, shownFor, blank_mit, Mit.entries]
      unfold somebody at hr ⊢
      rw [List.filter_cons_of_neg (by simp), hr]

theorem somebody_append (a b : List Mit.Entry) : somebody (a ++ b) = somebody a ++ somebody b := List.filter_append ..

/-- after any history the entries of somebody in the file are the expected ones -/
theorem history_live {ops : List KtOp} {rs : List Mit.Record} (h : History ops rs) :
    (somebody (Mit.entries rs)).Perm (live ops) := by
  induction h with
  | empty => exact List.Perm.refl _
  | append e h hv hs h32 hn ih =>
    rw [entries_append, somebody_append]
    have : somebody (Mit.entries [Mit.Record.entry e []]) = [e] := by simp [somebody, Mit.entries, hn]
    rw [this]
    exact (List.perm_append_singleton _ _).trans (ih.cons e)
  | @reuse ops pre post c e filler h hv hs h32 hn ih =>
    rw [entries_append, somebody_append] at ih ⊢
    have e1 : somebody (Mit.entries (.entry e filler :: post)) = e :: somebody (Mit.entries post) := by
      simp [somebody, Mit.entries, hn]
    rw [e1]
    exact List.perm_middle.trans (ih.cons e)
  | @remove ops pre post e filler c h hc ih =>
    rw [entries_append, somebody_append] at ih ⊢
    show (somebody (Mit.entries pre) ++ somebody (Mit.entries post)).Perm ((live ops).erase e)
    by_cases hn : e = nobody
    · have e1 : somebody (Mit.entries (.entry e filler :: post)) = somebody (Mit.entries post) := by
        simp [somebody, Mit.entries, hn]
      rw [e1] at ih
      have hnot : e ∉ live ops := by
        intro hm
        have := ih.mem_iff.mpr hm
        rw [← somebody_append] at this
        have := (List.mem_filter.mp this).2
        simp [hn] at this
      rw [List.erase_of_not_mem hnot]
      exact ih
    · have e1 : somebody (Mit.entries (.entry e filler :: post)) = e :: somebody (Mit.entries post) := by
        simp [somebody, Mit.entries, hn]
      rw [e1] at ih
      have := (List.perm_middle.symm.trans ih).erase e
      rwa [List.erase_cons_head] at this
  | @resave ops rs dbg k rest h hp ih =>
    obtain ⟨hv, hs⟩ := history_valid h
    rw [loads_shown dbg hv hs] at hp
    obtain ⟨rfl, -⟩ := Prod.mk.inj (Except.ok.inj hp)
    rw [entries_records, shown_somebody hv]
    exact ih
  | @push ops rs dbg k rest e h hp he hn ih =>
    obtain ⟨hv, hs⟩ := history_valid h
    rw [loads_shown dbg hv hs] at hp
    obtain ⟨rfl, -⟩ := Prod.mk.inj (Except.ok.inj hp)
    rw [entries_records]
    dsimp only
    rw [List.map_append, somebody_append, shown_somebody hv]
    have : somebody ([e].map KeytabEntry.mit) = [e.mit] := by simp [somebody, hn]
    rw [this]
    exact (List.perm_append_singleton _ _).trans (ih.cons e.mit)

/-- the slots of the file: one for every addition at most, and none for less than an expected entry -/
theorem history_slots {ops : List KtOp} {rs : List Mit.Record} (h : History ops rs) :
    rs.length ≤ (live ops).length + removals ops := by
  induction h with
  | empty => simp
  | append e h hv hs h32 hn ih => simp [live, removals]; omega
  | reuse c e filler h hv hs h32 hn ih => simp [live, removals] at ih ⊢; omega
  | @remove ops pre post e filler c h hc ih =>
    simp only [live, removals, List.length_append, List.length_cons] at ih ⊢
    have := List.length_erase (a := e) (l := live ops)
    split at this <;> omega
  | @resave ops rs dbg k rest h hp ih =>
    obtain ⟨hv, hs⟩ := history_valid h
    rw [loads_shown dbg hv hs] at hp
    obtain ⟨rfl, -⟩ := Prod.mk.inj (Except.ok.inj hp)
    simpa [records, live, removals] using ih
  | @push ops rs dbg k rest e h hp he hn ih =>
    obtain ⟨hv, hs⟩ := history_valid h
    rw [loads_shown dbg hv hs] at hp
    obtain ⟨rfl, -⟩ := Prod.mk.inj (Except.ok.inj hp)
    simp only [records, live, removals, List.length_map, List.length_append, List.length_cons, List.length_nil]
    omega

/-- C122. Whatever was done to a keytab, with the MIT tools and with the library in any order: it loads completely, the
entries of somebody that are shown are exactly the expected ones (those added and not removed, with all their fields and as
often as expected), and the rest are entries of nobody, at most one for every removal. -/
theorem c122_loads (dbg : Bool) (ops : List KtOp) (rs : List Mit.Record) (h : History ops rs) :
    ∃ k, Keytab.parse dbg (Mit.keytabBytes rs none) = .ok (k, []) ∧
      ((k.entries.map KeytabEntry.mit).filter fun e => e ≠ nobody).Perm (live ops) ∧
      k.entries.length ≤ (live ops).length + removals ops := by
  obtain ⟨hv, hs⟩ := history_valid h
  refine ⟨_, loads_shown dbg hv hs, ?_, ?_⟩
  · have := history_live h
    rw [← shown_somebody hv] at this
    exact this
  · rw [List.length_map]; exact history_slots h

/-- C122 (the file). What the library writes is the file of the records the history continues with. -/
theorem c122_saved (dbg : Bool) (ops : List KtOp) (rs : List Mit.Record) (h : History ops rs) (k : Keytab) (rest : Bytes)
    (hp : Keytab.parse dbg (Mit.keytabBytes rs none) = .ok (k, rest)) (e : KeytabEntry) (he : e.Fits) :
    k.build = Mit.keytabBytes (records k) none ∧
      Keytab.build { k with entries := k.entries ++ [e] }
        = Mit.keytabBytes (records { k with entries := k.entries ++ [e] }) none := by
  have hk := parsed_fits hp
  obtain ⟨hv, hs⟩ := history_valid h
  rw [loads_shown dbg hv hs] at hp
  obtain ⟨rfl, -⟩ := Prod.mk.inj (Except.ok.inj hp)
  exact ⟨(c71_writes_format _ hk rfl rfl).1, (c71_writes_format _ (push_fits hk he) rfl rfl).1⟩

/-- C122 (removed). An entry that was removed and is not expected any more is not shown. -/
theorem c122_removed (dbg : Bool) (ops : List KtOp) (rs : List Mit.Record) (h : History ops rs) (e : KeytabEntry)
    (hn : e.mit ≠ nobody) (hr : e.mit ∉ live ops) (k : Keytab) (rest : Bytes)
    (hp : Keytab.parse dbg (Mit.keytabBytes rs none) = .ok (k, rest)) : e ∉ k.entries := by
  intro hm
  obtain ⟨k', h1, h2, -⟩ := c122_loads dbg ops rs h
  rw [h1] at hp
  obtain ⟨rfl, -⟩ := Prod.mk.inj (Except.ok.inj hp)
  exact hr (h2.mem_iff.mp (List.mem_filter.mpr ⟨List.mem_map.mpr ⟨e, hm, rfl⟩, by simpa using hn⟩))

theorem no_holes {ops : List KtOp} {rs : List Mit.Record} (h : History ops rs) :
    removals ops = 0 → (∀ c, Mit.Record.hole c ∉ rs) ∧ Mit.entries rs = (live ops).reverse := by
  induction h with
  | empty => intro _; simp [Mit.entries, live]
  | append e h hv hs h32 hn ih =>
    intro h0
    obtain ⟨i1, i2⟩ := ih h0
    refine ⟨by simpa using i1, ?_⟩
    rw [entries_append, i2]; simp [Mit.entries, live]
  | @reuse ops pre post c e filler h hv hs h32 hn ih =>
    intro h0
    exact absurd (by simp) ((ih h0).1 c)
  | remove e filler c h hc ih => intro h0; simp [removals] at h0
  | @resave ops rs dbg k rest h hp ih =>
    intro h0
    obtain ⟨i1, i2⟩ := ih h0
    obtain ⟨hv, hs⟩ := history_valid h
    obtain ⟨k', h1, h2⟩ := (c71_reads_format dbg rs none hv).mpr
      ⟨i1, fun e f hm hx => Decidable.byContradiction fun hf => hs _ hm ⟨hx, hf⟩, rfl⟩
    rw [h1] at hp
    obtain ⟨rfl, -⟩ := Prod.mk.inj (Except.ok.inj hp)
    refine ⟨by intro c hc; simp [records] at hc, ?_⟩
    rw [entries_records, h2, i2]; rfl
  | @push ops rs dbg k rest e h hp he hn ih =>
    intro h0
    obtain ⟨i1, i2⟩ := ih h0
    obtain ⟨hv, hs⟩ := history_valid h
    obtain ⟨k', h1, h2⟩ := (c71_reads_format dbg rs none hv).mpr
      ⟨i1, fun e f hm hx => Decidable.byContradiction fun hf => hs _ hm ⟨hx, hf⟩, rfl⟩
    rw [h1] at hp
    obtain ⟨rfl, -⟩ := Prod.mk.inj (Except.ok.inj hp)
    refine ⟨by intro c hc; simp [records] at hc, ?_⟩
    rw [entries_records]; dsimp only
    rw [List.map_append, h2, i2]; simp [live]

/-- C122 (nothing removed). If nothing was ever removed the keytab shows the added entries, in the order they were added, and
nothing else. -/
theorem c122_added_in_order (dbg : Bool) (ops : List KtOp) (rs : List Mit.Record) (h : History ops rs)
    (h0 : removals ops = 0) :
    ∃ k, Keytab.parse dbg (Mit.keytabBytes rs none) = .ok (k, []) ∧
      k.entries.map KeytabEntry.mit = (live ops).reverse := by
  obtain ⟨i1, i2⟩ := no_holes h h0
  obtain ⟨hv, hs⟩ := history_valid h
  obtain ⟨k', h1, h2⟩ := (c71_reads_format dbg rs none hv).mpr
    ⟨i1, fun e f hm hx => Decidable.byContradiction fun hf => hs _ hm ⟨hx, hf⟩, rfl⟩
  exact ⟨k', h1, by rw [h2, i2]⟩

/-- C122 (violation). Every slot is a live entry after the library saved the file, for the MIT tools as well: a deleted slot
is an entry of nobody from then on, and is not used again by `ktadd`. -/
theorem c122_slots_become_entries (dbg : Bool) (ops : List KtOp) (rs : List Mit.Record) (h : History ops rs)
    (k : Keytab) (rest : Bytes) (hp : Keytab.parse dbg (Mit.keytabBytes rs none) = .ok (k, rest)) :
    ∃ rs', k.build = Mit.keytabBytes rs' none ∧ History (.resave :: ops) rs' ∧ (∀ c, Mit.Record.hole c ∉ rs') ∧
      (Mit.entries rs').length = rs.length := by
  refine ⟨records k, (c122_saved dbg ops rs h k rest hp KeytabEntry.dflt (by decide)).1, .resave dbg k rest h hp,
    by intro c hc; simp [records] at hc, ?_⟩
  obtain ⟨hv, hs⟩ := history_valid h
  rw [loads_shown dbg hv hs] at hp
  obtain ⟨rfl, -⟩ := Prod.mk.inj (Except.ok.inj hp)
  rw [entries_records]; simp

/-! a history: two entries added, the first removed, a shorter one put into its slot, the second removed, saved by the library -/

/-- the same principal with a shorter key -/
def shortEntry : Mit.Entry := { sampleEntry.mit with key := [1, 2, 3] }

def sampleHistory : List KtOp :=
  [.resave, .remove sampleEntry.mit, .add shortEntry, .remove sampleEntry.mit, .add sampleEntry.mit, .add sampleEntry.mit]

/-- octets left behind the shorter entry -/
def sampleLeft : Bytes := List.replicate (sampleEntry.mit.bytes.length - shortEntry.bytes.length) 7

theorem sample_history : ∃ rs k, History sampleHistory rs ∧ rs = records k ∧
    k.entries = [entryOf shortEntry, KeytabEntry.dflt] := by
  have hvalid : sampleEntry.mit.Valid := entry_mit_valid (by decide)
  have hsv : shortEntry.Valid := entry_mit_valid (e := { sampleEntry with key := ⟨sampleEntry.key.keytype, [1, 2, 3]⟩ }) (by decide)
  have hlen : sampleEntry.mit.bytes.length < 2 ^ 31 := by decide +kernel
  have h1 := History.append sampleEntry.mit .empty hvalid hlen (by decide) (by decide)
  have h2 := History.append sampleEntry.mit h1 hvalid hlen (by decide) (by decide)
  have h3 := History.remove (pre := []) (post := [.entry sampleEntry.mit []]) sampleEntry.mit []
    (List.replicate sampleEntry.mit.bytes.length 0) h2 (by simp)
  have h4 := History.reuse (pre := []) (post := [.entry sampleEntry.mit []]) _ shortEntry sampleLeft h3 hsv
    (by decide +kernel) (by decide) (by decide)
  have h5 := History.remove (pre := [.entry shortEntry sampleLeft]) (post := []) sampleEntry.mit []
    (List.replicate sampleEntry.mit.bytes.length 0) h4 (by simp)
  obtain ⟨hv, hs⟩ := history_valid h5
  have h6 := History.resave true _ _ h5 (loads_shown true hv hs)
  exact ⟨_, _, h6, rfl, rfl⟩

example : live sampleHistory = [shortEntry] ∧ removals sampleHistory = 2 ∧ sampleLeft ≠ [] := by decide +kernel

end Verif.KT
