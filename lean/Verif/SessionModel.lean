import Verif.AddressModel
/-
kerbeiros/src/requesters: a requester object over its whole life, that is any sequence of settings and requests.

`request` takes `&self` and the object has no interior mutability (an `AsReqOptions`, a transporter that holds only the socket
address, the KDC address), so a request leaves it as it was, also when it crashes and the crash is caught.
-/
namespace Verif.Kb
open Verif.Asn1
open Verif.Crypto (Prims Key CaseMap)

/-- a call of the owner of a requester. requesters/tgt_requester.rs:43-95. -/
inductive Use where
  /-- as_requester.rs:84-106, tgt_requester.rs:62-83: a setting -/
  | set (c : Call)
  /-- tgt_requester.rs:50-56 `TgtRequester::request` -/
  | ticket (e1 e2 : Env) (username : List Char) (key : Option Key)
  /-- as_requester.rs:67-79 `AsRequester::request` -/
  | exchange (e : Env) (username : List Char) (key : Option Key)

/-- what a call returns -/
inductive Outcome where
  | set (r : Except KErr Unit)
  | ticket (r : Except KErr Credential)
  | exchange (r : Except KErr AsReqResponse)
deriving DecidableEq, Repr

/-- The operating system (and the KDC behind it) after the given messages: its behaviour may depend on all of them. -/
def Os.after (os : Os) (past : List Bytes) : Os where
  tcp d sent := os.tcp d (past ++ sent)
  udp l d sent := os.udp l d (past ++ sent)

/-- a requester in use: the object, and the messages handed to its transporter so far -/
structure Session where
  requester : Requester
  past : List Bytes
deriving DecidableEq, Repr

/-- one call. requesters/tgt_requester.rs:43-95. -/
def Session.step (P : Prims) (M : CaseMap) (g : Cfg) (os : Os) (s : Session) : Use → Outcome × Session
  | .set c =>
    let x := s.requester.call c
    (.set x.1, { s with requester := x.2 })
  | .ticket e1 e2 username key =>
    let x := s.requester.request P M g (os.after s.past) e1 e2 username key
    (.ticket x.1, { s with past := s.past ++ x.2 })
  | .exchange e username key =>
    let x := s.requester.exchange P M g (os.after s.past) e username key
    (.exchange x.1, { s with past := s.past ++ x.2 })

/-- any sequence of calls: what each returned, and the session afterwards -/
def Session.run (P : Prims) (M : CaseMap) (g : Cfg) (os : Os) (s : Session) : List Use → List Outcome × Session
  | [] => ([], s)
  | ev :: evs =>
    let x := s.step P M g os ev
    let y := x.2.run P M g os evs
    (x.1 :: y.1, y.2)

/-- as_requester.rs:59-65, tgt_requester.rs:44-48: a new requester; nothing has been sent -/
def Session.new (realm : List Char) (kdc : Bytes) : Session := ⟨Requester.new realm kdc, []⟩

end Verif.Kb
