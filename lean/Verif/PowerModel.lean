import Verif.WarehouseModel
/-
C116: the system calls of a save, in order, and what a power failure leaves of a file whose changes were not flushed to
the device. `saveData` (`WarehouseModel`) has only the content seen by other processes.
-/
namespace Verif.Kb

/-- a change of a file, or a flush to the device (`fsync`, `File::sync_all`). kerbeiros/src/credentials/file.rs:37-39 has
only the first two. -/
inductive FsOp where
  /-- `File::create` that succeeded: the file exists and is empty -/
  | create
  /-- a `write` that took these bytes -/
  | append (b : Bytes)
  /-- `File::sync_all` that succeeded -/
  | sync
deriving DecidableEq, Repr

/-- content of a file (`none`: no file) after a change. kerbeiros/src/credentials/file.rs:37-39. -/
def FsOp.apply : FsOp → Option Bytes → Option Bytes
  | .create, _ => some []
  | .append b, c => c.map (· ++ b)
  | .sync, c => c

/-- content after a sequence of changes, as at kerbeiros/src/credentials/file.rs:36-42 -/
def contentAfter (before : Option Bytes) (ops : List FsOp) : Option Bytes := ops.foldl (fun c o => o.apply c) before

/-- the `write` calls of `write_all` that took bytes, as at kerbeiros/src/credentials/file.rs:39: how it ended and what
was taken call by call -/
def writeOps : List WriteEvent → Bytes → Ended × List FsOp
  | _, [] => (.done, [])
  | [], _ :: _ => (.cut, [])
  | .interrupted :: es, b => writeOps es b
  | .fail :: _, _ :: _ => (.failed, [])
  | .accept n :: es, b :: bs =>
    if n = 0 then (.failed, [])
    else
      let r := writeOps es ((b :: bs).drop n)
      (r.1, .append ((b :: bs).take n) :: r.2)

/-- kerbeiros/src/credentials/file.rs:36-42 `save_data_to_file`: result (`none`: never returned) and the changes made, in
order. There is no `sync_all`. -/
def saveOps (d : Disk) (data : Bytes) : Option (Except KErr Unit) × List FsOp :=
  match d.create with
  | .failed => (some (.error .io), [])
  | .cut => (none, [])
  | .done =>
    match writeOps d.writes data with
    | (.done, ops) => (some (.ok ()), .create :: ops)
    | (.failed, ops) => (some (.error .io), .create :: ops)
    | (.cut, ops) => (none, .create :: ops)

end Verif.Kb
