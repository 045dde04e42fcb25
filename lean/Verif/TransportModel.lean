import Verif.ClientModel
/-
kerbeiros/src/transporter and kerbeiros/src/utils.rs: exchanges over TCP and UDP, choice of the KDC address.

The operating system is a list of results of its calls. Not modelled: the five seconds of the connection timeout,
memory exhaustion by a large announced length (its size: `ResourceModel`).
-/
namespace Verif.Kb

/-- result of one `read` call on a stream. Under tcp_transporter.rs:31,35. -/
inductive ReadEvent where
  /-- these bytes are available (a call takes as many of them as fit; the others stay); no bytes: end of stream -/
  | data (b : Bytes)
  /-- `Err(Interrupted)` -/
  | interrupted
  /-- any other error -/
  | fail
deriving DecidableEq, Repr

/-- `std::io::Read::read_exact` of `n` bytes: how it ended (`cut`: nothing more arrives, the call blocks), the bytes read,
what is left of the stream. Used at tcp_transporter.rs:31,35. -/
def readExact : List ReadEvent → Nat → Ended × Bytes × List ReadEvent
  | es, 0 => (.done, [], es)
  | [], _ + 1 => (.cut, [], [])
  | .interrupted :: es, n + 1 => readExact es (n + 1)
  | .fail :: es, _ + 1 => (.failed, [], es)
  | .data b :: es, n + 1 =>
    if b.length = 0 then (.failed, [], es)
    else if b.length ≤ n + 1 then
      let r := readExact es (n + 1 - b.length)
      (r.1, b ++ r.2.1, r.2.2)
    else (.done, b.take (n + 1), .data (b.drop (n + 1)) :: es)

/-- what the operating system does in one TCP exchange. tcp_transporter.rs:20-38. -/
structure TcpRun where
  connect : Bool
  writes : List WriteEvent
  reads : List ReadEvent

/-- kerbeiros/src/transporter/tcp_transporter.rs:41-48: `len() as u32` keeps the low 32 bits -/
def setSizeHeader (request : Bytes) : Bytes := be32 (UInt32.ofNat request.length) ++ request

/-- tcp_transporter.rs:20-39,51-58: result (`none`: blocks for ever) and the bytes that went out -/
def tcpExchange (t : TcpRun) (request : Bytes) : Option (Except KErr Bytes) × Bytes :=
  if t.connect = false then (some (.error .network), [])
  else match writeAll t.writes (setSizeHeader request) with
    | (.failed, w) => (some (.error .network), w)
    | (.cut, w) => (none, w)
    | (.done, w) => match readExact t.reads 4 with
      | (.failed, _, _) => (some (.error .network), w)
      | (.cut, _, _) => (none, w)
      | (.done, l, es) => match readExact es (ofBe32 (l.getD 0 0) (l.getD 1 0) (l.getD 2 0) (l.getD 3 0)).toNat with
        | (.failed, _, _) => (some (.error .network), w)
        | (.cut, _, _) => (none, w)
        | (.done, r, _) => (some (.ok r), w)

/-- what the operating system does in one UDP exchange; `datagram` is the first to arrive (`none`: none ever does). udp_transporter.rs:18-46. -/
structure UdpRun where
  bind : Bool
  connect : Bool
  send : Bool
  /-- does the n-th peek succeed -/
  peek : Nat → Bool
  recv : Bool
  datagram : Option Bytes

/-- kerbeiros/src/transporter/udp_transporter.rs:38-49, the loop from the `i`-th peek with a buffer of `n` bytes on: a peek
returns the smaller of buffer and datagram size (as on Linux). Result: size found (`none`: I/O error) and the last buffer
size. -/
def peekLoop (ok : Nat → Bool) (d : Nat) (i n : Nat) (hn : 0 < n) : Option Nat × Nat :=
  if ok i = false then (none, n)
  else if min n d = n then peekLoop ok d (i + 1) (n + n) (by omega)
  else (some (min n d), n)
termination_by d + 1 - n
decreasing_by
  rename_i h
  rw [Nat.min_def] at h
  split at h <;> omega

/-- udp_transporter.rs:19-36,52-59: result and the datagram that went out -/
def udpExchange (u : UdpRun) (request : Bytes) : Option (Except KErr Bytes) × Option Bytes :=
  if u.bind = false then (some (.error .network), none)
  else if u.connect = false then (some (.error .network), none)
  else if u.send = false then (some (.error .network), none)
  else match u.datagram with
    | none => (if u.peek 0 = false then some (.error .network) else none, some request)
    | some d => match (peekLoop u.peek d.length 0 2048 (by omega)).1 with
      | none => (some (.error .network), some request)
      | some n =>
        if u.recv = false then (some (.error .network), some request)
        else (some (.ok (d.take n ++ List.replicate (n - d.length) 0)), some request)

/-- kerbeiros/src/utils.rs:12-21; `lookup` is the result of `dns_lookup::lookup_host` -/
def resolveRealmKdc (lookup : List Char → Option (List Bytes)) (realm : List Char) : Except KErr Bytes :=
  match lookup realm with
  | none => .error (.nameResolution realm)
  | some ips => match ips with
    | [] => .error (.nameResolution realm)
    | ip :: _ => .ok ip

/-- kerbeiros/src/transporter/mod.rs:26-40: the exchange of the configured protocol -/
inductive Run where
  | tcp (t : TcpRun)
  | udp (u : UdpRun)

/-- result of an exchange -/
def Run.exchange (r : Run) (request : Bytes) : Option (Except KErr Bytes) :=
  match r with
  | .tcp t => (tcpExchange t request).1
  | .udp u => (udpExchange u request).1

/-- The network made of one run per exchange, for runs that return. -/
def runsNet (runs : List Bytes → Run) : Net := fun sent =>
  match (runs sent).exchange (sent.getLastD []) with
  | some (.ok a) => some a
  | _ => none

end Verif.Kb
