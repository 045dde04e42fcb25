import Verif.WarehouseModel
/-
Who may read the files that kerbeiros writes, and what a credential says through its public functions.
-/
namespace Verif.Kb
open Verif.Asn1 Verif.Map

/-- a file: content and permission bits (`rwxrwxrwx`, for owner, group and others). credentials/file.rs:37. -/
structure FileNode where
  content : Bytes
  mode : UInt16
deriving DecidableEq, Repr

/-- `File::create` (kerbeiros/src/credentials/file.rs:37): `open` with `O_CREAT | O_TRUNC` and the standard library's default
mode 0666, from which the operating system removes the bits of the process's umask; an existing file keeps its mode.
Not modelled: access control lists, other file systems than POSIX ones. -/
def createMode (umask : UInt16) (before : Option FileNode) : UInt16 :=
  match before with
  | some f => f.mode
  | none => 0o666 &&& ~~~umask

/-- file.rs:36-42 `save_data_to_file` with the permission bits: they are those of `File::create`, from the moment the file
exists; nothing changes them. -/
def saveNode (umask : UInt16) (d : Disk) (before : Option FileNode) (data : Bytes) :
    Option (Except KErr Unit) × Option FileNode :=
  match d.create with
  | .failed => (some (.error .io), before)
  | .cut => (none, before)
  | .done =>
    ((saveData d (before.map (·.content)) data).1,
      (saveData d (before.map (·.content)) data).2.map fun c => ⟨c, createMode umask before⟩)

/-! ### Public functions of a credential -/

/-- kerbeiros/src/credentials/credential.rs:46-96: everything a user can ask a credential for -/
structure Getters where
  crealm : List Char
  cname : PrincipalName
  ticket : Ticket
  authtime : DateTime
  starttime : Option DateTime
  endtime : DateTime
  renew_till : Option DateTime
  flags : UInt32
  key : EncryptionKey
  srealm : List Char
  sname : PrincipalName
  caddr : Option (List HostAddress)
  encrypted_pa_data : Option (List PaData)
deriving DecidableEq, Repr

/-- credential.rs:46-96 -/
def Credential.getters (c : Credential) : Getters where
  crealm := c.crealm
  cname := c.cname
  ticket := c.ticket
  authtime := c.client_part.authtime
  starttime := c.client_part.starttime
  endtime := c.client_part.endtime
  renew_till := c.client_part.renew_till
  flags := c.client_part.flags
  key := c.client_part.key
  srealm := c.client_part.srealm
  sname := c.client_part.sname
  caddr := c.client_part.caddr
  encrypted_pa_data := c.client_part.encrypted_pa_data

end Verif.Kb
