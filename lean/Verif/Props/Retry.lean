import Verif.Props.Warehouse
/-
Property theorems C118: saves that fail, and saving again.
-/
namespace Verif.Kb
open Verif.Asn1 Verif.Map

/-! ### Specification -/

/-- content of a file after a history of saves, one after the other, each with what the operating system did (a save that never
returned is one whose process was stopped) -/
def afterSaves (before : Option Bytes) (history : List (Disk × Bytes)) : Option Bytes :=
  history.foldl (fun c s => (saveData s.1 c s.2).2) before

/-- the save got as far as opening the file -/
def Opened (s : Disk × Bytes) : Prop := s.1.create = .done

theorem saveData_not_opened {d : Disk} {before : Option Bytes} {data : Bytes} (h : d.create ≠ .done) :
    (saveData d before data).2 = before ∧ (saveData d before data).1 ≠ some (.ok ()) := by
  unfold saveData
  cases hd : d.create with
  | done => exact absurd hd h
  | failed => exact ⟨rfl, by simp⟩
  | cut => exact ⟨rfl, by simp⟩

theorem saveData_opened {d : Disk} {before : Option Bytes} {data : Bytes} (h : d.create = .done) :
    (saveData d before data).2 = some (writeAll d.writes data).2 ∧
    ((saveData d before data).1 = some (.ok ()) ↔ (writeAll d.writes data).1 = .done) ∧
    ((saveData d before data).1 = some (.error .io) ↔ (writeAll d.writes data).1 = .failed) := by
  unfold saveData
  rw [h]
  dsimp only
  generalize writeAll d.writes data = x
  obtain ⟨r, b⟩ := x
  cases r <;> simp

theorem afterSaves_snoc (before : Option Bytes) (history : List (Disk × Bytes)) (s : Disk × Bytes) :
    afterSaves before (history ++ [s]) = (saveData s.1 (afterSaves before history) s.2).2 := by
  simp [afterSaves, List.foldl_append]

theorem afterSaves_none (before : Option Bytes) (history : List (Disk × Bytes)) (h : ∀ s ∈ history, ¬ Opened s) :
    afterSaves before history = before := by
  induction history generalizing before with
  | nil => rfl
  | cons s hs ih =>
    show afterSaves (saveData s.1 before s.2).2 hs = before
    rw [(saveData_not_opened (h s (List.mem_cons_self ..))).1]
    exact ih before (fun s hm => h s (List.mem_cons_of_mem _ hm))

/-! ### C118 -/

/-- C118. A save keeps the old file exactly if it did not get as far as opening it, or wrote the same content. -/
theorem c118_kept_iff (d : Disk) (old data : Bytes) :
    (saveData d (some old) data).2 = some old ↔ d.create ≠ .done ∨ (writeAll d.writes data).2 = old := by
  by_cases h : d.create = .done
  · rw [(saveData_opened h).1]
    constructor
    · intro e; exact .inr (Option.some.inj e)
    · rintro (e | e)
      · exact absurd h e
      · rw [e]
  · rw [(saveData_not_opened h).1]
    exact ⟨fun _ => .inl h, fun _ => rfl⟩

/-- C118, violated. On a full disk (the file can be opened, nothing more can be written) a save of anything reports an error and
leaves an empty file, whatever was there; and an empty file cannot be loaded. -/
theorem c118_full_disk (g : Cfg) (before : Option Bytes) (data : Bytes) (hd : data ≠ []) :
    saveData ⟨.done, [.fail]⟩ before data = (some (.error .io), some []) ∧ loadCCache g [] = .error .binaryParse := by
  cases data with
  | nil => exact absurd rfl hd
  | cons b bs => exact ⟨rfl, rfl⟩

/-- C118, violated. A disk with room for `n` octets less than needed leaves the first `n` of the new file, and the save
reports an error. -/
theorem c118_nearly_full_disk (before : Option Bytes) (data : Bytes) (n : Nat) (hn : 0 < n) (h : n < data.length) :
    saveData ⟨.done, [.accept n, .fail]⟩ before data = (some (.error .io), some (data.take n)) := by
  cases data with
  | nil => simp at h
  | cons b bs =>
    have hd : (b :: bs).drop n ≠ [] := by
      intro e
      have := congrArg List.length e
      simp only [List.length_drop, List.length_nil] at this
      omega
    have hw : writeAll [.accept n, .fail] (b :: bs) = (.failed, (b :: bs).take n) := by
      rw [writeAll, if_neg (by omega)]
      generalize hx : (b :: bs).drop n = x at hd
      cases x with
      | nil => exact absurd rfl hd
      | cons y ys => simp [writeAll]
    unfold saveData
    dsimp only
    rw [hw]

/-- C118. After any history of saves, failed, stopped and successful ones, the file is as before if none of them opened it;
else it is a first part of what the last one that did had to save, all of it if that one reported success, whatever the
earlier ones left. -/
theorem c118_history (before : Option Bytes) (history : List (Disk × Bytes)) :
    ((∀ s ∈ history, ¬ Opened s) ∧ afterSaves before history = before) ∨
    ∃ pre s post k, history = pre ++ s :: post ∧ Opened s ∧ (∀ t ∈ post, ¬ Opened t) ∧
      afterSaves before history = some (s.2.take k) ∧
      ((saveData s.1 (afterSaves before pre) s.2).1 = some (.ok ()) → afterSaves before history = some s.2) := by
  have split : ∀ l : List (Disk × Bytes), (∀ s ∈ l, ¬ Opened s) ∨
      ∃ pre s post, l = pre ++ s :: post ∧ Opened s ∧ ∀ t ∈ post, ¬ Opened t := by
    intro l
    induction l with
    | nil => exact .inl (by simp)
    | cons s l ih =>
      rcases ih with ih | ⟨pre, s', post, rfl, h1, h2⟩
      · by_cases hs : Opened s
        · exact .inr ⟨[], s, l, rfl, hs, ih⟩
        · refine .inl ?_
          intro t ht
          rcases List.mem_cons.1 ht with rfl | ht
          · exact hs
          · exact ih t ht
      · exact .inr ⟨s :: pre, s', post, rfl, h1, h2⟩
  rcases split history with h | ⟨pre, s, post, rfl, h1, h2⟩
  · exact .inl ⟨h, afterSaves_none before history h⟩
  · right
    have e : afterSaves before (pre ++ s :: post) = (saveData s.1 (afterSaves before pre) s.2).2 := by
      have : afterSaves before (pre ++ s :: post) = afterSaves (afterSaves before (pre ++ [s])) post := by
        simp [afterSaves, List.foldl_append]
      rw [this, afterSaves_none _ _ h2, afterSaves_snoc]
    obtain ⟨k, -, hk, -⟩ := writeAll_spec s.1.writes s.2
    refine ⟨pre, s, post, k, rfl, h1, h2, ?_, ?_⟩
    · rw [e, (saveData_opened h1).1, hk]
    · intro hok
      rw [e]
      exact (c25_save s.1 (afterSaves before pre) s.2).2.1 hok

/-- C118. Saving again repairs the file: if the last save of a history reports success, its credentials are loaded, whatever the
earlier ones left. -/
theorem c118_retry (X : Ext) (g : Cfg) (w : Warehouse) (h : (w.toCCache X g).Fits) (hw : w.client.name_string ≠ [])
    (hc : ∀ c ∈ w.credentials, Cacheable c) (before : Option Bytes) (history : List (Disk × Bytes)) (d : Disk)
    (hok : (w.saveCCache X g d (afterSaves before history)).1 = some (.ok ())) :
    ∃ content, afterSaves before (history ++ [(d, (w.toCCache X g).build)]) = some content ∧
      loadCCache g content = .ok { w with credentials := w.credentials.map reset } := by
  refine ⟨_, ?_, c25_reload_identity X g w h hw hc⟩
  rw [afterSaves_snoc]
  exact (c25_save d (afterSaves before history) (w.toCCache X g).build).2.1 hok

/-- C118. And what loads after a history of saves of credentials is the old file, or the first credentials of one of those saved:
a failure never mixes two of them. -/
theorem c118_never_mixed (X : Ext) (g : Cfg) (before : Option Bytes) (history : List (Disk × Warehouse))
    (hf : ∀ s ∈ history, (s.2.toCCache X g).Fits) (content : Bytes)
    (hc : afterSaves before (history.map fun s => (s.1, (s.2.toCCache X g).build)) = some content) :
    before = some content ∨ (∃ e, e ≠ KErr.panic ∧ loadCCache g content = .error e) ∨
    ∃ s ∈ history, ∃ w' j, loadCCache g content = .ok w' ∧ w'.realm = s.2.realm ∧ w'.client = s.2.client ∧
      List.Forall₂ Reloaded (s.2.credentials.take j) w'.credentials := by
  rcases c118_history before (history.map fun s => (s.1, (s.2.toCCache X g).build)) with
    ⟨-, h⟩ | ⟨pre, s, post, k, h1, -, -, h2, -⟩
  · exact .inl (h.symm.trans hc)
  · have hm : s ∈ history.map fun s => (s.1, (s.2.toCCache X g).build) := by rw [h1]; simp
    obtain ⟨s', hs', rfl⟩ := List.mem_map.1 hm
    have e : content = (s'.2.toCCache X g).build.take (min k (s'.2.toCCache X g).build.length) := by
      rw [← List.take_take, List.take_length]
      exact (Option.some.inj (h2.symm.trans hc)).symm
    rw [e]
    rcases c25_crash X g s'.2 (hf s' hs') (min k (s'.2.toCCache X g).build.length) (by omega) with h3 | ⟨w', j, h3⟩
    · exact .inr (.inl h3)
    · exact .inr (.inr ⟨s', hs', w', j, h3⟩)

/-! ### Cases that meet the hypotheses -/

/-- a full disk, then a save that succeeds: the history of c118_history and c118_retry -/
example (old new : Bytes) (h : new ≠ []) :
    afterSaves (some old) [(⟨.done, [.fail]⟩, new)] = some [] ∧
    afterSaves (some old) [(⟨.done, [.fail]⟩, new), (⟨.failed, []⟩, old), (⟨.done, [.accept new.length]⟩, new)] = some new := by
  cases new with
  | nil => exact absurd rfl h
  | cons b bs => simp [afterSaves, saveData, writeAll]

example : ∀ s ∈ [((⟨.done, [.accept 9, .fail]⟩ : Disk), exWarehouse), (⟨.failed, []⟩, exWarehouse)],
    (s.2.toCCache exExt strictCfg).Fits := by
  intro s hs
  simp only [List.mem_cons, List.not_mem_nil, or_false] at hs
  rcases hs with rfl | rfl <;> decide +kernel

end Verif.Kb
