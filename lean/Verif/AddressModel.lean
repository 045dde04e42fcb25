import Verif.TransportModel
/-
kerbeiros/src/requesters over kerbeiros/src/transporter: a requester together with the sockets of its operating system.

An IP address is the list of its octets: four for IPv4, sixteen for IPv6 (its flow label and scope are left out).
-/
namespace Verif.Kb
open Verif.Asn1
open Verif.Crypto (Prims Key CaseMap)

/-- The operating system, per exchange: what its calls do for a connection to a destination, after the given messages of the
request (the last of them is the one being sent). A UDP socket has also the address that it was bound to. -/
structure Os where
  tcp : Bytes × UInt16 → List Bytes → TcpRun
  udp : Bytes → Bytes × UInt16 → List Bytes → UdpRun

/-- kerbeiros/src/transporter/udp_transporter.rs:22: `UdpSocket::bind("0.0.0.0:0")` -/
def udpLocal : Bytes := [0, 0, 0, 0]

/-- transporter/mod.rs:32-39, tcp_transporter.rs:23-24, udp_transporter.rs:22-23: the exchange of a requester's transporter -/
def Requester.run (os : Os) (r : Requester) (sent : List Bytes) : Run :=
  match r.protocol with
  | .tcp => .tcp (os.tcp r.destination sent)
  | .udp => .udp (os.udp udpLocal r.destination sent)

/-- kerbeiros/src/requesters/tgt_requester.rs:50-56 `TgtRequester::request`, for exchanges that return -/
def Requester.request (P : Prims) (M : CaseMap) (g : Cfg) (os : Os) (r : Requester) (e1 e2 : Env) (username : List Char)
    (key : Option Key) : Except KErr Credential × List Bytes :=
  tgtRequest P M g (runsNet (r.run os)) e1 e2 username key r.options

/-- kerbeiros/src/requesters/as_requester.rs:67-79 `AsRequester::request`, for an exchange that returns: result and messages
sent -/
def Requester.exchange (P : Prims) (M : CaseMap) (g : Cfg) (os : Os) (r : Requester) (e : Env) (username : List Char)
    (key : Option Key) : Except KErr AsReqResponse × List Bytes :=
  asRequest P M g (runsNet (r.run os)) e username key r.options []

/-- what an exchange puts on the network: the bytes of a stream, or a datagram -/
inductive Wire where
  | stream (b : Bytes)
  | datagram (b : Bytes)
deriving DecidableEq, Repr

/-- tcp_transporter.rs:26-27, udp_transporter.rs:25: what leaves for the destination in one exchange -/
def Run.wire (r : Run) (request : Bytes) : List Wire :=
  match r with
  | .tcp t => if (tcpExchange t request).2 = [] then [] else [.stream (tcpExchange t request).2]
  | .udp u => ((udpExchange u request).2.map Wire.datagram).toList

/-- The network traffic of a request: destination and content for every message, in order. `sent` are the messages handed to
the transporter. -/
def Requester.traffic (os : Os) (r : Requester) (sent : List Bytes) : List ((Bytes × UInt16) × Wire) :=
  (List.range sent.length).flatMap fun i =>
    ((r.run os (sent.take (i + 1))).wire ((sent.take (i + 1)).getLastD [])).map fun w => (r.destination, w)

/-- kerbeiros/src/utils.rs:12-21, then tgt_requester.rs:44-56: find the KDC of a realm by name, ask it for a TGT with the
default settings changed by `calls` -/
def resolveAndRequest (P : Prims) (M : CaseMap) (g : Cfg) (lookup : List Char → Option (List Bytes)) (os : Os)
    (realm : List Char) (calls : List Call) (e1 e2 : Env) (username : List Char) (key : Option Key) :
    Except KErr Credential × List Bytes :=
  match resolveRealmKdc lookup realm with
  | .error x => (.error x, [])
  | .ok kdc => ((Requester.new realm kdc).calls calls).request P M g os e1 e2 username key

end Verif.Kb
