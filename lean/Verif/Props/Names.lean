import Verif.ConcurrentModel

/-! C124: names and files. A path is a name of a file; another process can give the file other names, put another file under
the name, remove the name, or make it a symbolic link, before or while a save is going on. -/

namespace Verif.Kb

/-- what a name stands for -/
inductive NameOf where
  | file (i : Nat)
  | symlink (target : String)
deriving DecidableEq

/-- a POSIX file system: names, contents of files by number, the number of the next new file -/
structure Fs where
  dir : String → Option NameOf
  files : Nat → Bytes
  next : Nat

def setAt {α β} [DecidableEq α] (f : α → β) (a : α) (b : β) : α → β := fun x => if x = a then b else f x

/-- POSIX path resolution with at most `n` symbolic links: the last name and the file under it, if there is one; `none` if
there are too many links -/
def Fs.resolve (fs : Fs) : Nat → String → Option (String × Option Nat)
  | 0, p => match fs.dir p with
    | none => some (p, none)
    | some (.file i) => some (p, some i)
    | some (.symlink _) => none
  | n + 1, p => match fs.dir p with
    | none => some (p, none)
    | some (.file i) => some (p, some i)
    | some (.symlink q) => fs.resolve n q

/-- what a program that opens the path reads (`none`: no such file) -/
def Fs.read (fs : Fs) (p : String) : Option Bytes :=
  match fs.resolve 40 p with
  | some (_, some i) => some (fs.files i)
  | _ => none

/-- `File::create` (kerbeiros/src/credentials/file.rs:37: `O_WRONLY | O_CREAT | O_TRUNC`, links are followed): the file is
emptied, or made under the last name -/
def Fs.create (fs : Fs) (p : String) : Option (Nat × Fs) :=
  match fs.resolve 40 p with
  | none => none
  | some (_, some i) => some (i, { fs with files := setAt fs.files i [] })
  | some (q, none) => some (fs.next, ⟨setAt fs.dir q (some (.file fs.next)), setAt fs.files fs.next [], fs.next + 1⟩)

/-- what other processes do -/
inductive DirOp where
  /-- a new file with this content is put under the name (written elsewhere and renamed) -/
  | replace (p : String) (content : Bytes)
  | remove (p : String)
  /-- `q` becomes another name of what `p` stands for -/
  | hardlink (p q : String)
  /-- `p` becomes a symbolic link to `q` -/
  | symlink (p q : String)

def Fs.apply (fs : Fs) : DirOp → Fs
  | .replace p b => ⟨setAt fs.dir p (some (.file fs.next)), setAt fs.files fs.next b, fs.next + 1⟩
  | .remove p => { fs with dir := setAt fs.dir p none }
  | .hardlink p q => { fs with dir := setAt fs.dir q (fs.dir p) }
  | .symlink p q => { fs with dir := setAt fs.dir p (some (.symlink q)) }

/-- a save going on: the process and the file it has opened -/
structure NamedSave where
  fs : Fs
  saver : Saver
  fd : Option Nat

inductive FsEvent where
  /-- the next system call of the save -/
  | mine (c : FileCall)
  | other (o : DirOp)

/-- one system call of `save_data_to_file` (file.rs:36-42, `saverStep`) on the file it has opened, or an action of another
process; `File::create` opens what the path stands for at that moment -/
def nameStep (path : String) (w : NamedSave) : FsEvent → NamedSave
  | .other o => { w with fs := w.fs.apply o }
  | .mine c => match w.fd with
    | some i =>
      let r := saverStep (some (w.fs.files i)) w.saver c
      ⟨{ w.fs with files := setAt w.fs.files i (r.1.getD []) }, r.2, some i⟩
    | none => match c, w.saver.phase with
      | .create, .start => match w.fs.create path with
        | none => { w with saver := (saverStep none w.saver .createFails).2 }
        | some (i, fs') => ⟨fs', (saverStep none w.saver .create).2, some i⟩
      | c, _ => { w with saver := (saverStep none w.saver c).2 }

def runNames (path : String) (w : NamedSave) (schedule : List FsEvent) : NamedSave := schedule.foldl (nameStep path) w

/-- a save about to begin -/
def beginSave (fs : Fs) (data : Bytes) : NamedSave := ⟨fs, ⟨data, .start, 0⟩, none⟩

/-- names stand for files that exist -/
def Fs.Ok (fs : Fs) : Prop := ∀ p i, fs.dir p = some (.file i) → i < fs.next

theorem putAt_take (d : Bytes) (pos n : Nat) (h : pos ≤ d.length) :
    putAt (d.take pos) pos ((d.drop pos).take n) = d.take (pos + ((d.drop pos).take n).length) := by
  unfold putAt
  have h1 : (d.take pos).length = pos := by rw [List.length_take]; omega
  rw [List.take_take, Nat.min_self, h1, Nat.sub_self, List.replicate_zero, List.append_nil,
    List.drop_of_length_le (i := pos + _) (by rw [h1]; omega), List.append_nil, List.take_add]
  congr 1
  rw [List.length_take]
  by_cases hn : n ≤ (d.drop pos).length
  · rw [Nat.min_eq_left hn]
  · rw [Nat.min_eq_right (by omega), List.take_length, List.take_of_length_le (by omega)]

/-- the invariant of a save -/
structure SaveInv (data : Bytes) (w : NamedSave) : Prop where
  ok : w.fs.Ok
  same : w.saver.data = data
  closed : w.fd = none → (w.saver.phase = .start ∨ w.saver.phase = .err) ∧ w.saver.pos = 0
  opened : ∀ i, w.fd = some i → i < w.fs.next ∧ w.fs.files i = data.take w.saver.pos ∧ w.saver.pos ≤ data.length ∧
    w.saver.phase ≠ .start ∧ (w.saver.phase = .ok → w.saver.pos = data.length)

theorem resolve_lt {fs : Fs} (h : fs.Ok) {n p q i} (hr : fs.resolve n p = some (q, some i)) : i < fs.next := by
  induction n generalizing p with
  | zero =>
    unfold Fs.resolve at hr
    split at hr
    · simp at hr
    · rename_i j hj; simp at hr; obtain ⟨rfl, rfl⟩ := hr; exact h _ _ hj
    · simp at hr
  | succ n ih =>
    unfold Fs.resolve at hr
    split at hr
    · simp at hr
    · rename_i j hj; simp at hr; obtain ⟨rfl, rfl⟩ := hr; exact h _ _ hj
    · exact ih hr

theorem create_spec {fs fs' : Fs} (h : fs.Ok) {p i} (hc : fs.create p = some (i, fs')) :
    fs'.Ok ∧ i < fs'.next ∧ fs'.files i = [] ∧ fs.next ≤ fs'.next ∧ ∀ j, j < fs.next → j ≠ i → fs'.files j = fs.files j := by
  unfold Fs.create at hc
  split at hc
  · cases hc
  · rename_i q k hr
    simp at hc; obtain ⟨rfl, rfl⟩ := hc
    exact ⟨h, resolve_lt h hr, by simp [setAt], Nat.le_refl _, fun j _ hj => by simp [setAt, hj]⟩
  · rename_i q hr
    simp at hc; obtain ⟨rfl, rfl⟩ := hc
    refine ⟨?_, Nat.lt_succ_self _, by simp [setAt], Nat.le_succ _, fun j hj _ => by simp [setAt, Nat.ne_of_lt hj]⟩
    intro p j hj
    simp only [setAt] at hj
    split at hj
    · simp at hj; subst hj; exact Nat.lt_succ_self _
    · exact Nat.lt_succ_of_lt (h _ _ hj)

theorem apply_spec {fs : Fs} (h : fs.Ok) (o : DirOp) :
    (fs.apply o).Ok ∧ fs.next ≤ (fs.apply o).next ∧ ∀ j, j < fs.next → (fs.apply o).files j = fs.files j := by
  cases o with
  | replace p b =>
    refine ⟨?_, Nat.le_succ _, fun j hj => by simp [Fs.apply, setAt, Nat.ne_of_lt hj]⟩
    intro q j hj
    simp only [Fs.apply, setAt] at hj ⊢
    split at hj
    · simp at hj; subst hj; exact Nat.lt_succ_self _
    · exact Nat.lt_succ_of_lt (h _ _ hj)
  | remove p =>
    refine ⟨?_, Nat.le_refl _, fun j hj => rfl⟩
    intro q j hj
    simp only [Fs.apply, setAt] at hj ⊢
    split at hj
    · cases hj
    · exact h _ _ hj
  | hardlink p q =>
    refine ⟨?_, Nat.le_refl _, fun j hj => rfl⟩
    intro r j hj
    simp only [Fs.apply, setAt] at hj ⊢
    split at hj
    · exact h _ _ hj
    · exact h _ _ hj
  | symlink p q =>
    refine ⟨?_, Nat.le_refl _, fun j hj => rfl⟩
    intro r j hj
    simp only [Fs.apply, setAt] at hj ⊢
    split at hj
    · cases hj
    · exact h _ _ hj

theorem setAt_self {α β} [DecidableEq α] (f : α → β) (a : α) : setAt f a (f a) = f := by
  funext x; unfold setAt; split
  · next h => rw [h]
  · rfl

theorem setAt_files (fs : Fs) (i : Nat) : ({ fs with files := setAt fs.files i (fs.files i) } : Fs) = fs := by
  rw [setAt_self]

theorem inv_step {data : Bytes} {path : String} {w : NamedSave} (h : SaveInv data w) (e : FsEvent) :
    SaveInv data (nameStep path w e) ∧ w.fs.next ≤ (nameStep path w e).fs.next ∧
    (∀ i, w.fd = some i → (nameStep path w e).fd = some i) ∧
    ∀ j, j < w.fs.next → (nameStep path w e).fd ≠ some j → (nameStep path w e).fs.files j = w.fs.files j := by
  cases e with
  | other o =>
    obtain ⟨a1, a2, a3⟩ := apply_spec h.ok o
    refine ⟨⟨a1, h.same, h.closed, ?_⟩, a2, fun i hi => hi, fun j hj _ => a3 j hj⟩
    intro i hi
    obtain ⟨b1, b2, b3⟩ := h.opened i hi
    exact ⟨Nat.lt_of_lt_of_le b1 a2, by show (w.fs.apply o).files i = _; rw [a3 i b1, b2]; rfl, b3⟩
  | mine c =>
    obtain ⟨fs, ⟨d, ph, pos⟩, fd⟩ := w
    obtain rfl : d = data := h.same
    cases fd with
    | some i =>
      obtain ⟨b1, b2, b3, b4, b5⟩ := h.opened i rfl
      dsimp only at b1 b2 b3 b4 b5
      -- only the file the save has open is written
      refine ⟨⟨?_, ?_, ?_, ?_⟩, Nat.le_refl _, fun j hj => hj, ?_⟩
      · exact h.ok
      · have := h.same
        cases c <;> cases ph <;> simp only [nameStep, saverStep]
        rename_i e; cases e <;> simp only []
        split <;> rfl
      · intro h0; cases h0
      · intro j hj
        obtain rfl : i = j := by simpa [nameStep] using hj
        refine ⟨b1, ?_⟩
        cases c with
        | create => cases ph <;> first | exact absurd rfl b4 | (simp only [nameStep, saverStep, setAt, if_true, Option.getD_some]; exact ⟨b2, b3, b4, by first | exact fun _ => b5 rfl | exact nofun⟩)
        | createFails => cases ph <;> first | exact absurd rfl b4 | (simp only [nameStep, saverStep, setAt, if_true, Option.getD_some]; exact ⟨b2, b3, b4, by first | exact fun _ => b5 rfl | exact nofun⟩)
        | write e =>
          cases ph with
          | start => exact absurd rfl b4
          | ok => simp only [nameStep, saverStep, setAt, if_true, Option.getD_some]; exact ⟨b2, b3, b4, fun _ => b5 rfl⟩
          | err => simp only [nameStep, saverStep, setAt, if_true, Option.getD_some]; exact ⟨b2, b3, b4, nofun⟩
          | writing =>
            cases e with
            | interrupted => simp only [nameStep, saverStep, setAt, if_true, Option.getD_some]; exact ⟨b2, b3, b4, nofun⟩
            | fail => simp only [nameStep, saverStep, setAt, if_true, Option.getD_some]; exact ⟨b2, b3, by decide, nofun⟩
            | accept n =>
              by_cases hn : n = 0
              · simp only [nameStep, saverStep, setAt, if_true, Option.getD_some, if_pos hn]; exact ⟨b2, b3, by decide, nofun⟩
              · simp only [nameStep, saverStep, setAt, if_true, Option.getD_some, if_neg hn]
                rw [b2, putAt_take d pos n b3]
                refine ⟨rfl, ?_, ?_, ?_⟩
                · rw [List.length_take, List.length_drop]; omega
                · split <;> decide
                · intro hp
                  split at hp
                  · assumption
                  · cases hp
      · intro j hj hne
        have : j ≠ i := fun e => hne (by rw [e]; rfl)
        simp [nameStep, setAt, this]
    | none =>
      obtain ⟨b1, b2⟩ := h.closed rfl
      dsimp only at b1 b2
      subst b2
      have keep : ∀ s : Saver, s.data = d → (s.phase = .start ∨ s.phase = .err) → s.pos = 0 →
          SaveInv d ⟨fs, s, none⟩ := fun s e1 e2 e3 => ⟨h.ok, e1, fun _ => ⟨e2, e3⟩, nofun⟩
      cases c with
      | create =>
        rcases b1 with rfl | rfl
        · cases hc : fs.create path with
          | none =>
            simp only [nameStep, hc, saverStep]
            exact ⟨keep _ rfl (.inr rfl) rfl, Nat.le_refl _, nofun, fun _ _ _ => trivial⟩
          | some r =>
            obtain ⟨i, fs'⟩ := r
            obtain ⟨c1, c2, c3, c4, c5⟩ := create_spec h.ok hc
            simp only [nameStep, hc, saverStep]
            refine ⟨⟨c1, rfl, nofun, ?_⟩, c4, nofun, ?_⟩
            · intro j hj
              obtain rfl : i = j := by simpa using hj
              refine ⟨c2, by simpa using c3, Nat.zero_le _, by dsimp only; split <;> decide, ?_⟩
              intro hp
              dsimp only at hp ⊢
              split at hp
              · next e => rw [e]; rfl
              · cases hp
            · intro j hj hne
              exact c5 j hj fun e => hne (by simp [e])
        · exact ⟨keep _ rfl (.inr rfl) rfl, Nat.le_refl _, nofun, fun _ _ _ => rfl⟩
      | createFails =>
        rcases b1 with rfl | rfl
        · exact ⟨keep _ rfl (.inr rfl) rfl, Nat.le_refl _, nofun, fun _ _ _ => rfl⟩
        · exact ⟨keep _ rfl (.inr rfl) rfl, Nat.le_refl _, nofun, fun _ _ _ => rfl⟩
      | write e =>
        rcases b1 with rfl | rfl
        · exact ⟨keep _ rfl (.inl rfl) rfl, Nat.le_refl _, nofun, fun _ _ _ => rfl⟩
        · exact ⟨keep _ rfl (.inr rfl) rfl, Nat.le_refl _, nofun, fun _ _ _ => rfl⟩

theorem inv_run {data : Bytes} {path : String} (schedule : List FsEvent) {w : NamedSave} (h : SaveInv data w) :
    SaveInv data (runNames path w schedule) ∧ w.fs.next ≤ (runNames path w schedule).fs.next ∧
    (∀ i, w.fd = some i → (runNames path w schedule).fd = some i) ∧
    ∀ j, j < w.fs.next → (runNames path w schedule).fd ≠ some j → (runNames path w schedule).fs.files j = w.fs.files j := by
  induction schedule generalizing w with
  | nil => exact ⟨h, Nat.le_refl _, fun _ h => h, fun _ _ _ => rfl⟩
  | cons e es ih =>
    obtain ⟨a1, a2, a3, a4⟩ := inv_step (path := path) h e
    obtain ⟨b1, b2, b3, b4⟩ := ih a1
    refine ⟨b1, Nat.le_trans a2 b2, fun i hi => b3 i (a3 i hi), fun j hj hne => ?_⟩
    show (runNames path (nameStep path w e) es).fs.files j = _
    rw [b4 j (Nat.lt_of_lt_of_le hj a2) hne]
    exact a4 j hj fun hj' => hne (b3 j hj')

theorem inv_begin {fs : Fs} (h : fs.Ok) (data : Bytes) : SaveInv data (beginSave fs data) :=
  ⟨h, rfl, fun _ => ⟨.inl rfl, rfl⟩, nofun⟩

theorem runNames_append (path : String) (w : NamedSave) (a b : List FsEvent) :
    runNames path w (a ++ b) = runNames path (runNames path w a) b := List.foldl_append ..

/-- C124. Whatever others do to the names, the file a save has opened holds a first part of what is saved, all of it when the
save returned `Ok(())`. -/
theorem c124_content (fs : Fs) (h : fs.Ok) (path : String) (data : Bytes) (schedule : List FsEvent) (i : Nat)
    (hi : (runNames path (beginSave fs data) schedule).fd = some i) :
    (∃ k, (runNames path (beginSave fs data) schedule).fs.files i = data.take k) ∧
    ((runNames path (beginSave fs data) schedule).saver.phase = .ok →
      (runNames path (beginSave fs data) schedule).fs.files i = data) := by
  obtain ⟨-, a2, a3, -, a5⟩ := (inv_run schedule (inv_begin h data)).1.opened i hi
  exact ⟨⟨_, a2⟩, fun hp => by rw [a2, a5 hp, List.take_length]⟩

/-- C124. A save changes no file but the one it opens: every other file there is at some moment, old ones and those that
others put in its place, keeps its content. -/
theorem c124_others (fs : Fs) (h : fs.Ok) (path : String) (data : Bytes) (pre post : List FsEvent) (j : Nat)
    (hj : j < (runNames path (beginSave fs data) pre).fs.next)
    (hne : (runNames path (beginSave fs data) (pre ++ post)).fd ≠ some j) :
    (runNames path (beginSave fs data) (pre ++ post)).fs.files j = (runNames path (beginSave fs data) pre).fs.files j := by
  rw [runNames_append] at hne ⊢
  exact (inv_run post (inv_run pre (inv_begin h data)).1).2.2.2 j hj hne

theorem resolve_none {fs : Fs} {n p q} (h : fs.resolve n p = some (q, none)) : fs.dir q = none := by
  induction n generalizing p with
  | zero =>
    unfold Fs.resolve at h
    split at h
    · rename_i hd; simp at h; rw [← h]; exact hd
    · simp at h
    · simp at h
  | succ n ih =>
    unfold Fs.resolve at h
    split at h
    · rename_i hd; simp at h; rw [← h]; exact hd
    · simp at h
    · exact ih h

theorem resolve_made {fs fs' : Fs} {n p q k} (h : fs.resolve n p = some (q, none))
    (hd : fs'.dir = setAt fs.dir q (some (.file k))) : fs'.resolve n p = some (q, some k) := by
  induction n generalizing p with
  | zero =>
    unfold Fs.resolve at h ⊢
    split at h
    · simp at h; subst h; simp [hd, setAt]
    · simp at h
    · simp at h
  | succ n ih =>
    have hq := resolve_none h
    unfold Fs.resolve at h ⊢
    split at h
    · simp at h; subst h; simp [hd, setAt]
    · simp at h
    · rename_i r hr
      have hp : p ≠ q := fun e => by rw [e, hq] at hr; cases hr
      simp only [hd, setAt, if_neg hp, hr]
      exact ih h

theorem resolve_dir {fs fs' : Fs} (h : fs'.dir = fs.dir) (n p) : fs'.resolve n p = fs.resolve n p := by
  induction n generalizing p with
  | zero => unfold Fs.resolve; rw [h]
  | succ n ih =>
    unfold Fs.resolve; rw [h]
    split
    · rfl
    · rfl
    · exact ih _

/-- own calls after the file was opened leave the names alone -/
theorem mine_dir (path : String) (calls : List FileCall) {w : NamedSave} {i} (hi : w.fd = some i) :
    (runNames path w (calls.map .mine)).fs.dir = w.fs.dir := by
  induction calls generalizing w with
  | nil => rfl
  | cons c cs ih =>
    show (runNames path (nameStep path w (.mine c)) (cs.map .mine)).fs.dir = _
    obtain ⟨fs, s, fd⟩ := w
    obtain rfl : fd = some i := hi
    rw [ih (by rfl)]; rfl

theorem create_resolve {fs fs' : Fs} {p i} (hc : fs.create p = some (i, fs')) :
    ∃ q, fs'.resolve 40 p = some (q, some i) := by
  unfold Fs.create at hc
  split at hc
  · cases hc
  · rename_i q k hr
    simp at hc; obtain ⟨rfl, rfl⟩ := hc
    exact ⟨q, by rw [← hr]; exact resolve_dir rfl _ _⟩
  · rename_i q hr
    simp at hc; obtain ⟨rfl, rfl⟩ := hc
    exact ⟨q, resolve_made hr rfl⟩

/-- own calls that do not open the file -/
theorem closed_stays (path : String) (calls : List FileCall) {data : Bytes} {w : NamedSave} (h : SaveInv data w)
    (h0 : w.fd = none) :
    ((runNames path w (calls.map .mine)).fd = none ∧ (runNames path w (calls.map .mine)).fs = w.fs) ∨
    ∃ i q, (runNames path w (calls.map .mine)).fd = some i ∧
      (runNames path w (calls.map .mine)).fs.resolve 40 path = some (q, some i) ∧
      ∃ fs', w.fs.create path = some (i, fs') ∧ (runNames path w (calls.map .mine)).fs.dir = fs'.dir := by
  induction calls generalizing w with
  | nil => exact .inl ⟨h0, rfl⟩
  | cons c cs ih =>
    obtain ⟨fs, s, fd⟩ := w
    obtain rfl : fd = none := h0
    have hinv := (inv_step (path := path) h (.mine c)).1
    have goes : ∀ s', nameStep path ⟨fs, s, none⟩ (.mine c) = ⟨fs, s', none⟩ →
        ((runNames path ⟨fs, s, none⟩ ((c :: cs).map .mine)).fd = none ∧ (runNames path ⟨fs, s, none⟩ ((c :: cs).map .mine)).fs = fs) ∨
        ∃ i q, (runNames path ⟨fs, s, none⟩ ((c :: cs).map .mine)).fd = some i ∧
          (runNames path ⟨fs, s, none⟩ ((c :: cs).map .mine)).fs.resolve 40 path = some (q, some i) ∧
          ∃ fs', fs.create path = some (i, fs') ∧ (runNames path ⟨fs, s, none⟩ ((c :: cs).map .mine)).fs.dir = fs'.dir := by
      intro s' e
      have hrun : runNames path ⟨fs, s, none⟩ ((c :: cs).map .mine) = runNames path ⟨fs, s', none⟩ (cs.map .mine) := by
        show runNames path (nameStep path ⟨fs, s, none⟩ (.mine c)) _ = _
        rw [e]
      rw [hrun]
      rw [e] at hinv
      exact ih hinv rfl
    cases c with
    | createFails => exact goes _ rfl
    | write e => exact goes _ rfl
    | create =>
      cases hp : s.phase with
      | start =>
        have hcs : fs.create path = none ∨ ∃ i fs', fs.create path = some (i, fs') := by
          rcases fs.create path with _ | ⟨i, fs'⟩
          · exact .inl rfl
          · exact .inr ⟨i, fs', rfl⟩
        rcases hcs with hc | ⟨i, fs', hc⟩
        · exact goes (saverStep none s .createFails).2 (by simp only [nameStep, hp, hc])
        · refine .inr ⟨i, ?_⟩
          have hrun : runNames path ⟨fs, s, none⟩ ((FileCall.create :: cs).map .mine)
              = runNames path ⟨fs', (saverStep none s .create).2, some i⟩ (cs.map .mine) := by
            show runNames path (nameStep path ⟨fs, s, none⟩ (.mine .create)) _ = _
            simp only [nameStep, hp, hc]
          rw [hrun]
          obtain ⟨q, hq⟩ := create_resolve hc
          have hd := mine_dir path cs (w := ⟨fs', (saverStep none s .create).2, some i⟩) rfl
          refine ⟨q, ?_, by rw [resolve_dir hd]; exact hq, fs', hc, hd⟩
          have hrun2 := hinv
          simp only [nameStep, hp, hc] at hrun2
          exact (inv_run (cs.map .mine) hrun2).2.2.1 i rfl
      | writing => exact goes (saverStep none s .create).2 (by simp only [nameStep, hp])
      | ok => exact goes (saverStep none s .create).2 (by simp only [nameStep, hp])
      | err => exact goes (saverStep none s .create).2 (by simp only [nameStep, hp])

/-- C124. If nobody changes names from the opening on, whatever they did before, then a save that returned `Ok(())` has put
its data under the path. -/
theorem c124_success (fs : Fs) (h : fs.Ok) (path : String) (data : Bytes) (pre : List FsEvent) (calls : List FileCall)
    (h0 : (runNames path (beginSave fs data) pre).fd = none)
    (hok : (runNames path (beginSave fs data) (pre ++ calls.map .mine)).saver.phase = .ok) :
    (runNames path (beginSave fs data) (pre ++ calls.map .mine)).fs.read path = some data := by
  have hinv := (inv_run (path := path) pre (inv_begin h data)).1
  rw [runNames_append] at hok ⊢
  have hend := (inv_run (path := path) (calls.map .mine) hinv).1
  rcases closed_stays path calls hinv h0 with ⟨h1, -⟩ | ⟨i, q, h1, h2, -⟩
  · obtain ⟨h3 | h3, -⟩ := hend.closed h1 <;> rw [h3] at hok <;> cases hok
  · unfold Fs.read
    rw [h2]
    obtain ⟨-, a2, -, -, a5⟩ := hend.opened i h1
    simp only [a2, a5 hok, List.take_length]

/-- C124 (violation: other names). Before the save, the path and another name stood for the same file: the path was a symbolic
link to it, planted by anybody, or another name of it. From the moment the save has opened the path, the old content
of the other name is gone, and once the save returned `Ok(())` it has the credentials. -/
theorem c124_other_name (fs : Fs) (h : fs.Ok) (path other : String) (p q : String) (i : Nat) (data : Bytes)
    (calls : List FileCall) (h1 : fs.resolve 40 path = some (p, some i)) (h2 : fs.resolve 40 other = some (q, some i))
    (hopen : (runNames path (beginSave fs data) (calls.map .mine)).fd ≠ none) :
    (∃ k, (runNames path (beginSave fs data) (calls.map .mine)).fs.read other = some (data.take k)) ∧
    ((runNames path (beginSave fs data) (calls.map .mine)).saver.phase = .ok →
      (runNames path (beginSave fs data) (calls.map .mine)).fs.read other = some data) := by
  have hinv := inv_begin h data
  rcases closed_stays path calls hinv rfl with ⟨h3, -⟩ | ⟨j, r, h3, -, fs', h4, h5⟩
  · exact absurd h3 hopen
  · have hc : fs.create path = some (i, { fs with files := setAt fs.files i [] }) := by simp only [Fs.create, h1]
    have h4 : fs.create path = some (j, fs') := h4
    rw [hc] at h4
    simp at h4
    obtain ⟨rfl, rfl⟩ := h4
    have hr : (runNames path (beginSave fs data) (calls.map .mine)).fs.read other
        = some ((runNames path (beginSave fs data) (calls.map .mine)).fs.files i) := by
      unfold Fs.read
      rw [resolve_dir (fs := fs) h5, h2]
    rw [hr]
    obtain ⟨⟨k, e1⟩, e2⟩ := c124_content fs h path data (calls.map .mine) i h3
    exact ⟨⟨k, by rw [e1]⟩, fun hp => by rw [e2 hp]⟩

/-- C124 (violation: replaced or removed). Somebody puts another file under the path, or removes it, after the save opened it.
Whatever calls the save makes after that, also if it returns `Ok(())`, the path stands for the other file, whole, or for none. -/
theorem c124_lost (fs : Fs) (h : fs.Ok) (path : String) (data content : Bytes) (pre : List FsEvent) (calls : List FileCall)
    (hopen : (runNames path (beginSave fs data) pre).fd ≠ none) :
    (runNames path (beginSave fs data) (pre ++ .other (.replace path content) :: calls.map .mine)).fs.read path = some content ∧
    (runNames path (beginSave fs data) (pre ++ .other (.remove path) :: calls.map .mine)).fs.read path = none := by
  have hinv := (inv_run (path := path) pre (inv_begin h data)).1
  rw [runNames_append, runNames_append]
  generalize runNames path (beginSave fs data) pre = w at hopen hinv ⊢
  obtain ⟨i, hi⟩ := Option.ne_none_iff_exists'.mp hopen
  constructor
  · have hinv' := (inv_step (path := path) hinv (.other (.replace path content))).1
    have hd := mine_dir path calls (w := nameStep path w (.other (.replace path content))) (i := i) hi
    have hkeep := (inv_run (path := path) (calls.map .mine) hinv')
    show (runNames path (nameStep path w (.other (.replace path content))) (calls.map .mine)).fs.read path = _
    have hfd := hkeep.2.2.1 i hi
    have hlt := (hinv.opened i hi).1
    have hfile := hkeep.2.2.2 w.fs.next (Nat.lt_succ_self _) (by rw [hfd]; simp; omega)
    unfold Fs.read
    rw [resolve_dir hd]
    simp only [Fs.resolve, nameStep, Fs.apply, setAt, if_true]
    simp only [nameStep, Fs.apply, setAt, if_true] at hfile
    rw [hfile]
  · have hd := mine_dir path calls (w := nameStep path w (.other (.remove path))) (i := i) hi
    show (runNames path (nameStep path w (.other (.remove path))) (calls.map .mine)).fs.read path = _
    unfold Fs.read
    rw [resolve_dir hd]
    simp only [Fs.resolve, nameStep, Fs.apply, setAt, if_true]

/-- C124 (violation). And `Ok(())` is what the save returns: for all data, whatever the path is, if it can be opened, and
whatever file somebody puts there. -/
theorem c124_lost_ok (fs : Fs) (h : fs.Ok) (path : String) (data content : Bytes) (hd : data ≠ [])
    (hp : fs.resolve 40 path ≠ none) :
    ∃ schedule, (runNames path (beginSave fs data) schedule).saver.phase = .ok ∧
      (runNames path (beginSave fs data) schedule).fs.read path = some content := by
  obtain ⟨i, fs', hc⟩ : ∃ i fs', fs.create path = some (i, fs') := by
    unfold Fs.create
    split
    · contradiction
    · exact ⟨_, _, rfl⟩
    · exact ⟨_, _, rfl⟩
  have h1 : runNames path (beginSave fs data) [.mine .create] = ⟨fs', ⟨data, .writing, 0⟩, some i⟩ := by
    simp [runNames, nameStep, beginSave, hc, saverStep, hd]
  have hl := (c124_lost fs h path data content [.mine .create] [.write (.accept data.length)] (by rw [h1]; simp)).1
  refine ⟨_, ?_, hl⟩
  rw [runNames_append, h1]
  have : data.length ≠ 0 := by simpa using hd
  simp [runNames, nameStep, saverStep, this]

/-! a file system with a victim's file, a symbolic link to it and a file with two names -/

def exFs : Fs :=
  ⟨fun p => if p = "/home/alice/notes" then some (.file 0) else if p = "/tmp/krb5cc_1000" then some (.symlink "/home/alice/notes")
      else if p = "/tmp/a" ∨ p = "/tmp/b" then some (.file 1) else none,
    fun i => if i = 0 then [1, 2, 3] else [4], 2⟩

theorem exFs_ok : exFs.Ok := by
  intro p i h
  simp only [exFs] at h ⊢
  split at h
  · simp at h; omega
  · split at h
    · simp at h
    · split at h
      · simp at h; omega
      · cases h

example : exFs.resolve 40 "/tmp/krb5cc_1000" = some ("/home/alice/notes", some 0) ∧
    exFs.resolve 40 "/home/alice/notes" = some ("/home/alice/notes", some 0) ∧
    (runNames "/tmp/krb5cc_1000" (beginSave exFs [9, 8]) ([.create, .write (.accept 2)].map .mine)).fd ≠ none ∧
    (runNames "/tmp/krb5cc_1000" (beginSave exFs [9, 8]) ([.create, .write (.accept 2)].map .mine)).saver.phase = .ok := by
  decide +kernel

end Verif.Kb
