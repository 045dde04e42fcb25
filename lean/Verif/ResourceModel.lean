import Verif.TransportModel
/-
Memory reserved for the answer by kerbeiros/src/transporter. Only the buffers for the answer are counted.
-/
namespace Verif.Kb

/-- kerbeiros/src/transporter/tcp_transporter.rs:34, `vec![0; data_length as usize]`, reached if connecting, sending and
reading the four length bytes succeed (lines 24-32): size of the buffer for the answer (0 if not reached) -/
def tcpReserved (t : TcpRun) (request : Bytes) : Nat :=
  if t.connect = false then 0
  else match writeAll t.writes (setSizeHeader request) with
    | (.done, _) => match readExact t.reads 4 with
      | (.done, l, _) => (ofBe32 (l.getD 0 0) (l.getD 1 0) (l.getD 2 0) (l.getD 3 0)).toNat
      | _ => 0
    | _ => 0

/-- kerbeiros/src/transporter/udp_transporter.rs:42-46: size of the largest buffer for the answer (the one of line 31 is
not larger) -/
def udpReserved (u : UdpRun) : Nat :=
  if u.bind = false ∨ u.connect = false ∨ u.send = false then 0
  else match u.datagram with
    | none => 2048
    | some d => (peekLoop u.peek d.length 0 2048 (by omega)).2

end Verif.Kb
