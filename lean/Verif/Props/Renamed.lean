import Verif.Props.Names

/-! C125: a reader, while other programs replace the file by renaming and the library saves in place. -/

namespace Verif.Kb

theorem snoc_ind {α : Type} {P : List α → Prop} (nil : P []) (append_singleton : ∀ s e, P s → P (s ++ [e])) (s : List α) : P s := by
  rw [← List.reverse_reverse s]
  induction s.reverse with
  | nil => exact nil
  | cons a l ih => rw [List.reverse_cons]; exact append_singleton _ _ ih

/-- a save (C124), a reader and the file it has opened -/
structure NamedWorld where
  save : NamedSave
  reader : Reader
  rfd : Option Nat

inductive WorldEvent where
  /-- the save or another process does something -/
  | save (e : FsEvent)
  /-- the next system call of the reader -/
  | load (c : ReadCall)

/-- one step; the reader (`fs::read` as at kerbeiros/src/credentials/credential_warehouse.rs:19) opens what its path stands for
at that moment and reads from that file -/
def namedWorldStep (path rpath : String) (w : NamedWorld) : WorldEvent → NamedWorld
  | .save e => { w with save := nameStep path w.save e }
  | .load c => match w.rfd with
    | some j => { w with reader := readerStep (some (w.save.fs.files j)) w.reader c }
    | none => match c, w.reader.phase, w.save.fs.resolve 40 rpath with
      | .opens, .start, some (_, some j) => ⟨w.save, readerStep (some (w.save.fs.files j)) w.reader .opens, some j⟩
      | c, _, _ => { w with reader := readerStep none w.reader c }

def runNamedWorld (path rpath : String) (w : NamedWorld) (schedule : List WorldEvent) : NamedWorld :=
  schedule.foldl (namedWorldStep path rpath) w

/-- before a save of `data` and a reading -/
def beginWorld (fs : Fs) (data : Bytes) : NamedWorld := ⟨beginSave fs data, reader, none⟩

theorem runNamedWorld_snoc (path rpath : String) (w : NamedWorld) (s : List WorldEvent) (e : WorldEvent) :
    runNamedWorld path rpath w (s ++ [e]) = namedWorldStep path rpath (runNamedWorld path rpath w s) e := by
  simp [runNamedWorld]

/-- the invariant: `first` are the events up to the opening -/
structure ReadInv (path rpath : String) (fs : Fs) (data : Bytes) (schedule : List WorldEvent) (w : NamedWorld) : Prop where
  save : SaveInv data w.save
  closed : w.rfd = none → (w.reader.phase = .start ∨ w.reader.phase = .err) ∧ w.reader.got = []
  opened : ∀ j, w.rfd = some j → j < w.save.fs.next ∧ w.reader.phase ≠ .start ∧
    (w.save.fd ≠ some j →
      w.reader.got = (w.save.fs.files j).take w.reader.got.length ∧
      (w.reader.phase = .done → w.reader.got = w.save.fs.files j) ∧
      ∃ pre post, schedule = pre ++ .load .opens :: post ∧
        (runNamedWorld path rpath (beginWorld fs data) pre).save.fs.read rpath = some (w.save.fs.files j))

theorem readInv (path rpath : String) (fs : Fs) (h : fs.Ok) (data : Bytes) (schedule : List WorldEvent) :
    ReadInv path rpath fs data schedule (runNamedWorld path rpath (beginWorld fs data) schedule) := by
  induction schedule using snoc_ind with
  | nil => exact ⟨inv_begin h data, fun _ => ⟨.inl rfl, rfl⟩, nofun⟩
  | append_singleton s e ih =>
    rw [runNamedWorld_snoc]
    have hpre : (runNamedWorld path rpath (beginWorld fs data) s) = runNamedWorld path rpath (beginWorld fs data) s := rfl
    revert hpre
    generalize hw : runNamedWorld path rpath (beginWorld fs data) s = w at ih ⊢
    intro hpre
    cases e with
    | save e =>
      obtain ⟨a1, a2, a3, a4⟩ := inv_step (path := path) ih.save e
      refine ⟨a1, ih.closed, ?_⟩
      intro j hj
      obtain ⟨b1, b2, b3⟩ := ih.opened j hj
      refine ⟨Nat.lt_of_lt_of_le b1 a2, b2, fun hne => ?_⟩
      have hne' : w.save.fd ≠ some j := fun h0 => hne (a3 j h0)
      have hsame : (nameStep path w.save e).fs.files j = w.save.fs.files j := a4 j b1 hne
      obtain ⟨c1, c2, pre, post, c3, c4⟩ := b3 hne'
      show w.reader.got = ((nameStep path w.save e).fs.files j).take _ ∧ (_ → w.reader.got = (nameStep path w.save e).fs.files j) ∧
        ∃ pre post, _ ∧ _ = some ((nameStep path w.save e).fs.files j)
      rw [hsame]
      exact ⟨c1, c2, pre, post ++ [.save e], by rw [c3]; simp, c4⟩
    | load c =>
      obtain ⟨sv, ⟨ph, got⟩, rfd⟩ := w
      cases rfd with
      | some j =>
        obtain ⟨b1, b2, b3⟩ := ih.opened j rfl
        dsimp only at b1 b2 b3
        refine ⟨ih.save, nofun, ?_⟩
        intro k hk
        obtain rfl : j = k := by simpa [namedWorldStep] using hk
        refine ⟨b1, ?_, ?_⟩
        · cases c <;> cases ph <;> simp only [namedWorldStep, readerStep] <;>
            first | exact absurd rfl b2 | (split <;> nofun) | nofun
        · intro hne
          obtain ⟨c1, c2, pre, post, c3, c4⟩ := b3 hne
          have hs : s ++ [.load c] = pre ++ .load .opens :: (post ++ [.load c]) := by rw [c3]; simp
          have rest : (namedWorldStep path rpath ⟨sv, ⟨ph, got⟩, some j⟩ (.load c)).save = sv := rfl
          suffices hgot : (readerStep (some (sv.fs.files j)) ⟨ph, got⟩ c).got
                = (sv.fs.files j).take (readerStep (some (sv.fs.files j)) ⟨ph, got⟩ c).got.length ∧
              ((readerStep (some (sv.fs.files j)) ⟨ph, got⟩ c).phase = .done →
                (readerStep (some (sv.fs.files j)) ⟨ph, got⟩ c).got = sv.fs.files j) from
            ⟨hgot.1, hgot.2, pre, _, hs, c4⟩
          cases c with
          | opens => cases ph <;> first | exact absurd rfl b2 | exact ⟨c1, c2⟩
          | readFails => cases ph <;> first | exact absurd rfl b2 | exact ⟨c1, c2⟩ | exact ⟨c1, nofun⟩
          | read n =>
            cases ph with
            | start => exact absurd rfl b2
            | done => exact ⟨c1, c2⟩
            | err => exact ⟨c1, c2⟩
            | reading =>
              simp only [readerStep, Option.getD_some]
              by_cases hchunk : ((sv.fs.files j).drop got.length).take (n + 1) = []
              · rw [if_pos hchunk]
                refine ⟨c1, fun _ => ?_⟩
                have hlen := congrArg List.length hchunk
                rw [List.length_take, List.length_drop, List.length_nil] at hlen
                show got = sv.fs.files j
                rw [c1, List.take_of_length_le (by omega)]
              · rw [if_neg hchunk]
                refine ⟨?_, nofun⟩
                show got ++ _ = (sv.fs.files j).take (got ++ _).length
                have happ := List.take_add (l := sv.fs.files j) (i := got.length)
                  (j := (((sv.fs.files j).drop got.length).take (n + 1)).length)
                rw [← c1] at happ
                rw [List.length_append, happ]
                congr 1
                rw [List.length_take]
                by_cases hn : n + 1 ≤ ((sv.fs.files j).drop got.length).length
                · rw [Nat.min_eq_left hn]
                · rw [Nat.min_eq_right (by omega), List.take_length, List.take_of_length_le (by omega)]
      | none =>
        obtain ⟨b1, b2⟩ := ih.closed rfl
        dsimp only at b1 b2
        subst b2
        have keep : ∀ r : Reader, (r.phase = .start ∨ r.phase = .err) → r.got = [] →
            ReadInv path rpath fs data (s ++ [.load c]) ⟨sv, r, none⟩ :=
          fun r e1 e2 => ⟨ih.save, fun _ => ⟨e1, e2⟩, nofun⟩
        cases c with
        | readFails => rcases b1 with rfl | rfl <;> exact keep _ (by first | exact .inl rfl | exact .inr rfl) rfl
        | read n => rcases b1 with rfl | rfl <;> exact keep _ (by first | exact .inl rfl | exact .inr rfl) rfl
        | opens =>
          rcases b1 with rfl | rfl
          · have hcs : (∃ q j, sv.fs.resolve 40 rpath = some (q, some j)) ∨
                namedWorldStep path rpath ⟨sv, ⟨.start, []⟩, none⟩ (.load .opens) = ⟨sv, ⟨.err, []⟩, none⟩ := by
              rcases hr : sv.fs.resolve 40 rpath with _ | ⟨q, _ | j⟩
              · exact .inr (by simp only [namedWorldStep, hr, readerStep])
              · exact .inr (by simp only [namedWorldStep, hr, readerStep])
              · exact .inl ⟨q, j, rfl⟩
            rcases hcs with ⟨q, j, hr⟩ | hcs
            · have hstep : namedWorldStep path rpath ⟨sv, ⟨.start, []⟩, none⟩ (.load .opens) = ⟨sv, ⟨.reading, []⟩, some j⟩ := by
                simp only [namedWorldStep, hr, readerStep]
              rw [hstep]
              refine ⟨ih.save, nofun, ?_⟩
              intro k hk
              obtain rfl : j = k := by simpa using hk
              refine ⟨resolve_lt ih.save.ok hr, nofun, fun _ => ⟨by simp, nofun, s, [], rfl, ?_⟩⟩
              rw [hw]
              unfold Fs.read
              dsimp only
              rw [hr]
            · rw [hcs]; exact keep _ (.inr rfl) rfl
          · exact keep _ (.inr rfl) rfl

/-- C125. Others replace, remove and link files as they like, and the library may be saving. A reader that comes to the end
of a file other than the one the library writes in place has read exactly the whole content that its path had at
the moment when it opened it, whatever happened to the name afterwards. -/
theorem c125_whole (path rpath : String) (fs : Fs) (h : fs.Ok) (data : Bytes) (schedule : List WorldEvent)
    (hd : (runNamedWorld path rpath (beginWorld fs data) schedule).reader.phase = .done)
    (hne : (runNamedWorld path rpath (beginWorld fs data) schedule).save.fd
      ≠ (runNamedWorld path rpath (beginWorld fs data) schedule).rfd) :
    ∃ pre post, schedule = pre ++ .load .opens :: post ∧
      (runNamedWorld path rpath (beginWorld fs data) pre).save.fs.read rpath
        = some (runNamedWorld path rpath (beginWorld fs data) schedule).reader.got := by
  have hi := readInv path rpath fs h data schedule
  cases hr : (runNamedWorld path rpath (beginWorld fs data) schedule).rfd with
  | none => obtain ⟨h0 | h0, -⟩ := hi.closed hr <;> rw [h0] at hd <;> cases hd
  | some j =>
    rw [hr] at hne
    obtain ⟨-, -, h3⟩ := hi.opened j hr
    obtain ⟨-, h5, pre, post, h6, h7⟩ := h3 hne
    exact ⟨pre, post, h6, by rw [h7, h5 hd]⟩

/-- C125. In particular, if the library is not saving, everybody who replaces the file by renaming is read whole: a reader gets
one content the path really had. -/
theorem c125_renames_only (rpath : String) (fs : Fs) (h : fs.Ok) (data : Bytes) (schedule : List WorldEvent)
    (hs : ∀ e ∈ schedule, (∃ o, e = .save (.other o)) ∨ ∃ c, e = .load c)
    (hd : (runNamedWorld "" rpath (beginWorld fs data) schedule).reader.phase = .done) :
    ∃ pre post, schedule = pre ++ .load .opens :: post ∧
      (runNamedWorld "" rpath (beginWorld fs data) pre).save.fs.read rpath
        = some (runNamedWorld "" rpath (beginWorld fs data) schedule).reader.got := by
  apply c125_whole "" rpath fs h data schedule hd
  have hfd : (runNamedWorld "" rpath (beginWorld fs data) schedule).save.fd = none := by
    clear hd
    induction schedule using snoc_ind with
    | nil => rfl
    | append_singleton s e ih =>
      rw [runNamedWorld_snoc]
      have := ih fun x hx => hs x (by simp [hx])
      rcases hs e (by simp) with ⟨o, rfl⟩ | ⟨c, rfl⟩
      · exact this
      · unfold namedWorldStep
        dsimp only
        split
        · exact this
        · split <;> exact this
  rw [hfd]
  intro h0
  obtain ⟨h1 | h1, -⟩ := (readInv "" rpath fs h data schedule).closed h0.symm <;> rw [h1] at hd <;> cases hd

/-- C125. A reader that opens nothing (no file of that name at that moment) ends with an error and reads nothing. -/
theorem c125_nothing (path rpath : String) (fs : Fs) (h : fs.Ok) (data : Bytes) (schedule : List WorldEvent)
    (h0 : (runNamedWorld path rpath (beginWorld fs data) schedule).rfd = none) :
    (runNamedWorld path rpath (beginWorld fs data) schedule).reader.phase ≠ .done ∧
    (runNamedWorld path rpath (beginWorld fs data) schedule).reader.got = [] := by
  obtain ⟨h1, h2⟩ := (readInv path rpath fs h data schedule).closed h0
  refine ⟨?_, h2⟩
  rcases h1 with h1 | h1 <;> rw [h1] <;> decide

/-! a reading during which another program renames a new file into place and the library saves there -/

def exWorldSchedule : List WorldEvent :=
  [.load .opens, .load (.read 0), .save (.other (.replace "/tmp/a" [7, 7])), .save (.mine .create),
    .save (.mine (.write (.accept 1))), .load (.read 5), .load (.read 0)]

example : (runNamedWorld "/tmp/a" "/tmp/a" (beginWorld exFs [9, 8]) exWorldSchedule).reader = ⟨.done, [4]⟩ ∧
    (runNamedWorld "/tmp/a" "/tmp/a" (beginWorld exFs [9, 8]) exWorldSchedule).save.fd
      ≠ (runNamedWorld "/tmp/a" "/tmp/a" (beginWorld exFs [9, 8]) exWorldSchedule).rfd := by decide +kernel

end Verif.Kb
