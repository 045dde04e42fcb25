import Verif.WarehouseModel
/-
Several processes (or threads) saving to the same path: kerbeiros/src/credentials/file.rs:36-42 `save_data_to_file`, one
system call at a time, interleaved in any order. The file system is POSIX: `File::create` empties the file, each process
writes at its own offset, bytes skipped by a write read as zero, one `write` call is atomic.
-/
namespace Verif.Kb

/-- where a process is in `save_data_to_file`. credentials/file.rs:36-41. -/
inductive Phase where
  /-- before line 37 -/
  | start
  /-- in `write_all` (line 39) -/
  | writing
  /-- returned `Ok(())` -/
  | ok
  /-- returned `Err(IOError)` -/
  | err
deriving DecidableEq, Repr

/-- a process: its data, its phase, how many bytes it has written -/
structure Saver where
  data : Bytes
  phase : Phase
  pos : Nat
deriving DecidableEq, Repr

/-- result of the next system call of a process. credentials/file.rs:37,39. -/
inductive FileCall where
  /-- `File::create` succeeds -/
  | create
  /-- `File::create` fails -/
  | createFails
  /-- a `write` call of `write_all` -/
  | write (e : WriteEvent)
deriving DecidableEq, Repr

/-- the file (`none`: does not exist) and the processes -/
structure Shared where
  file : Option Bytes
  savers : List Saver
deriving DecidableEq, Repr

/-- POSIX `write` of `chunk` at offset `pos` -/
def putAt (f : Bytes) (pos : Nat) (chunk : Bytes) : Bytes :=
  f.take pos ++ List.replicate (pos - f.length) 0 ++ chunk ++ f.drop (pos + chunk.length)

/-- file.rs:36-42: one system call of one process. `write_all` returns when nothing is left; a call that does not fit the
phase of the process does not happen. -/
def saverStep (file : Option Bytes) (s : Saver) : FileCall → Option Bytes × Saver
  | .create => match s.phase with
    | .start => (some [], { s with phase := if s.data = [] then .ok else .writing })
    | _ => (file, s)
  | .createFails => match s.phase with
    | .start => (file, { s with phase := .err })
    | _ => (file, s)
  | .write e => match s.phase with
    | .writing => match e with
      | .interrupted => (file, s)
      | .fail => (file, { s with phase := .err })
      | .accept n =>
        if n = 0 then (file, { s with phase := .err })
        else
          let chunk := (s.data.drop s.pos).take n
          (some (putAt (file.getD []) s.pos chunk),
            { s with pos := s.pos + chunk.length, phase := if s.pos + chunk.length = s.data.length then .ok else .writing })
    | _ => (file, s)

/-- one step of the system: process number `i` makes a call. credentials/file.rs:36-41. -/
def sharedStep (st : Shared) (ev : Nat × FileCall) : Shared :=
  match st.savers[ev.1]? with
  | none => st
  | some s =>
    let r := saverStep st.file s ev.2
    ⟨r.1, st.savers.set ev.1 r.2⟩

/-- a schedule: who makes which call, in order -/
def runShared (st : Shared) (schedule : List (Nat × FileCall)) : Shared := schedule.foldl sharedStep st

/-- processes about to save these data -/
def savers (before : Option Bytes) (datas : List Bytes) : Shared := ⟨before, datas.map (⟨·, .start, 0⟩)⟩

/-! ### A reader

`fs::read` as in the documented way of loading a file (kerbeiros/src/credentials/credential_warehouse.rs:19,
kerberos_ccache/src/lib.rs:9): open, then read at a growing offset until a read returns nothing. The file keeps its identity
when it is saved (`File::create` empties it in place), so the reader sees every change. -/

/-- where a reader is -/
inductive RPhase where
  | start
  | reading
  | done
  | err
deriving DecidableEq, Repr

/-- a reader and the bytes it has -/
structure Reader where
  phase : RPhase
  got : Bytes
deriving DecidableEq, Repr

/-- next system call of the reader; `read n`: at most `n` bytes are returned -/
inductive ReadCall where
  | opens
  | read (n : Nat)
  | readFails
deriving DecidableEq, Repr

/-- std `fs::read`: one system call. A file that does not exist cannot be opened. A read of no byte ends it. -/
def readerStep (file : Option Bytes) (r : Reader) : ReadCall → Reader
  | .opens => match r.phase with
    | .start => match file with
      | none => { r with phase := .err }
      | some _ => { r with phase := .reading }
    | _ => r
  | .readFails => match r.phase with
    | .reading => { r with phase := .err }
    | _ => r
  | .read n => match r.phase with
    | .reading =>
      let chunk := ((file.getD []).drop r.got.length).take (n + 1)
      if chunk = [] then { r with phase := .done } else { r with got := r.got ++ chunk }
    | _ => r

/-- what happens next: a process that saves makes a call, or the reader does -/
inductive Event where
  | save (i : Nat) (c : FileCall)
  | load (c : ReadCall)
deriving DecidableEq, Repr

/-- one step of savers and a reader -/
def worldStep (w : Shared × Reader) : Event → Shared × Reader
  | .save i c => (sharedStep w.1 (i, c), w.2)
  | .load c => (w.1, readerStep w.1.file w.2 c)

/-- a schedule of savers and a reader -/
def runWorld (w : Shared × Reader) (schedule : List Event) : Shared × Reader := schedule.foldl worldStep w

/-- a reader about to begin -/
def reader : Reader := ⟨.start, []⟩

end Verif.Kb
