import Verif.ClientModel
/-
Ticket requests running at the same time, in any number of threads. `TgtRequester::request` takes `&self` (tgt_requester.rs:50-56), so
threads may share a requester, and none can change its settings meanwhile (the setters take `&mut self`). The crates have no
mutable statics; `thread_rng` is the thread's own.

A thread's request is cut where other threads can be noticed: at handing a message to the transporter and at taking its answer.
-/
namespace Verif.Kb
open Verif.Asn1
open Verif.Crypto (Prims Key CaseMap)

/-- one thread's call. tgt_requester.rs:50-56; the settings are those of the requester it uses. -/
structure Job where
  e1 : Env
  e2 : Env
  username : List Char
  key : Option Key
  options : Options

/-- where a thread is in tgt_requester.rs:98-143 -/
inductive ReqPhase where
  /-- before the first message -/
  | first
  /-- waiting for the answer to it -/
  | wait1
  /-- before the second message, made with the key -/
  | second (k : Key)
  /-- waiting for the answer to it -/
  | wait2 (k : Key)
  /-- the call has returned -/
  | done (r : Except KErr Credential)

/-- all KDCs and networks: the answer for a thread may depend on everything that all threads have sent so far -/
abbrev World := List (Nat × Bytes) → Nat → Option Bytes

/-- the next step of thread `i`; also the message it hands to its transporter. tgt_requester.rs:98-174, as_requester.rs:110-128. -/
def threadStep (P : Prims) (M : CaseMap) (g : Cfg) (w : World) (log : List (Nat × Bytes)) (i : Nat) (j : Job) :
    ReqPhase → ReqPhase × Option Bytes
  | .first => match buildAsReq P M g j.e1 j.username none j.options with
    | .error _ => (.done (.error .panic), none)
    | .ok m => (.wait1, some m)
  | .wait1 => match w log i with
    | none => (.done (.error .network), none)
    | some a => match parseResponse g a with
      | .error e => (.done (.error e), none)
      | .ok (.asRep r) => (.done (extractCredential P g j.key r), none)
      | .ok (.krbError err) =>
        if err.error_code ≠ 25 then (.done (.error (.krbErrorResponse err)), none)
        else match j.key with
          | some k => (.second k, none)
          | none => (.done (.error (.krbErrorResponse err)), none)
  | .second k => match buildAsReq P M g j.e2 j.username (some k) j.options with
    | .error _ => (.done (.error .panic), none)
    | .ok m => (.wait2 k, some m)
  | .wait2 k => match w log i with
    | none => (.done (.error .network), none)
    | some a => match parseResponse g a with
      | .error e => (.done (.error e), none)
      | .ok (.asRep r) => (.done (extractCredential P g (some k) r), none)
      | .ok (.krbError err) => (.done (.error (.krbErrorResponse err)), none)
  | .done r => (.done r, none)

/-- all threads, and what they have sent, in the order of time -/
structure Threads where
  phase : Nat → ReqPhase
  log : List (Nat × Bytes)

/-- thread `i` makes a step -/
def Threads.step (P : Prims) (M : CaseMap) (g : Cfg) (w : World) (jobs : Nat → Job) (s : Threads) (i : Nat) : Threads :=
  let x := threadStep P M g w s.log i (jobs i) (s.phase i)
  ⟨fun n => if n = i then x.1 else s.phase n, match x.2 with
    | some m => s.log ++ [(i, m)]
    | none => s.log⟩

/-- all threads before their first step -/
def Threads.start : Threads := ⟨fun _ => .first, []⟩

/-- the threads make steps in the given order -/
def Threads.run (P : Prims) (M : CaseMap) (g : Cfg) (w : World) (jobs : Nat → Job) (s : Threads) (schedule : List Nat) : Threads :=
  schedule.foldl (Threads.step P M g w jobs) s

end Verif.Kb
