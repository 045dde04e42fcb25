import Verif.AddressModel
import Verif.Props.EndToEnd
import Verif.Props.ClientGaps
import Verif.Props.Transport
/-
C87, C88: where a requester's messages go, and over which transport.
-/
namespace Verif.Kb
open Verif.Asn1
open Verif.Crypto (Prims Key CaseMap)

/-! ### Specification -/

/-- the transport that a history of calls leaves: the last one chosen, TCP if none was -/
def chosen (cs : List Call) : Protocol :=
  (cs.filterMap fun c => match c with
    | .setTransportProtocol p => some p
    | _ => none).getLastD .tcp

/-- Rule of operating systems: a UDP socket bound to an address of one family (IPv4: four octets, IPv6: sixteen) does not
connect to an address of the other. -/
def Os.Families (os : Os) : Prop := ∀ l d sent, (os.udp l d sent).connect = true → l.length = d.1.length

/-- Both operating systems treat port 88 of the address the same way for this transport. -/
def SameToKdc (kdc : Bytes) (p : Protocol) (os os' : Os) : Prop :=
  match p with
  | .tcp => os.tcp (kdc, 88) = os'.tcp (kdc, 88)
  | .udp => ∀ l, os.udp l (kdc, 88) = os'.udp l (kdc, 88)

/-- Over this transport, port 88 of the address behaves like `net`: it delivers the answers of `net`, and breaks where `net`
does not answer (for UDP: to sockets of the address family). -/
def Serves (kdc : Bytes) (p : Protocol) (os : Os) (net : Net) : Prop :=
  match p with
  | .tcp => ∀ sent,
    (∀ a, net sent = some a → RequestOut (os.tcp (kdc, 88) sent) (sent.getLastD []) ∧ a.length < 2 ^ 32 ∧
      ∃ rest, delivered (os.tcp (kdc, 88) sent).reads = be32 (UInt32.ofNat a.length) ++ a ++ rest) ∧
    (net sent = none → (os.tcp (kdc, 88) sent).connect = false)
  | .udp => ∀ l sent, l.length = kdc.length →
    (∀ a, net sent = some a → (os.udp l (kdc, 88) sent).bind = true ∧ (os.udp l (kdc, 88) sent).connect = true ∧
      (os.udp l (kdc, 88) sent).send = true ∧ (∀ i, (os.udp l (kdc, 88) sent).peek i = true) ∧
      (os.udp l (kdc, 88) sent).recv = true ∧ (os.udp l (kdc, 88) sent).datagram = some a) ∧
    (net sent = none → (os.udp l (kdc, 88) sent).send = false)

/-! ### C87 -/

theorem getLastD_append_singleton {α} (l : List α) (a d : α) : (l ++ [a]).getLastD d = a := by
  simp [List.getLastD_eq_getLast?]

theorem call_protocol (r : Requester) (c : Call) : (r.call c).2.protocol =
    (match c with
      | .setTransportProtocol p => p
      | _ => r.protocol) := by
  cases c <;> rfl

theorem calls_protocol (r : Requester) (cs : List Call) : (r.calls cs).protocol =
    (cs.filterMap fun c => match c with
      | .setTransportProtocol p => some p
      | _ => none).getLastD r.protocol := by
  induction cs generalizing r with
  | nil => rfl
  | cons c cs ih =>
    show ((r.call c).2.calls cs).protocol = _
    rw [ih, call_protocol]
    cases c with
    | setEtype e => rfl
    | setEtypes l => rfl
    | setTransportProtocol p =>
      simp only [List.filterMap_cons]
      rw [List.getLastD_cons]

/-- C87. After every history of calls the transport is the last one chosen, TCP if none was. -/
theorem c87_protocol (realm : List Char) (kdc : Bytes) (cs : List Call) :
    ((Requester.new realm kdc).calls cs).protocol = chosen cs := calls_protocol _ cs

example : chosen [.setTransportProtocol .udp, .setEtype 23] = .udp ∧ chosen [.setEtype 99] = .tcp ∧
    chosen [.setTransportProtocol .udp, .setEtype 99, .setTransportProtocol .tcp] = .tcp := by decide

theorem wire_kind (os : Os) (r : Requester) (sent : List Bytes) (request : Bytes) (w : Wire)
    (h : w ∈ (r.run os sent).wire request) : (∃ b, w = .stream b) ↔ r.protocol = .tcp := by
  unfold Requester.run at h
  cases hp : r.protocol with
  | tcp =>
    rw [hp] at h
    simp only [Run.wire] at h
    split at h
    · cases h
    · rw [List.mem_singleton] at h
      exact ⟨fun _ => rfl, fun _ => ⟨_, h⟩⟩
  | udp =>
    rw [hp] at h
    simp only [Run.wire, Option.mem_toList, Option.map_eq_some_iff] at h
    obtain ⟨b, -, rfl⟩ := h
    exact ⟨fun ⟨_, hb⟩ => (nomatch hb), fun h => (nomatch h)⟩

/-- C87. Whatever a requester with a history of calls sends goes to port 88 of the KDC address that it was made with, over the
transport chosen last. -/
theorem c87_destination (os : Os) (realm : List Char) (kdc : Bytes) (cs : List Call) (sent : List Bytes)
    (x : (Bytes × UInt16) × Wire) (hx : x ∈ ((Requester.new realm kdc).calls cs).traffic os sent) :
    x.1 = (kdc, 88) ∧ ((∃ b, x.2 = .stream b) ↔ chosen cs = .tcp) := by
  unfold Requester.traffic at hx
  rw [List.mem_flatMap] at hx
  obtain ⟨i, -, hx⟩ := hx
  rw [List.mem_map] at hx
  obtain ⟨w, hw, rfl⟩ := hx
  refine ⟨(c46_history realm kdc cs).2.2.2.2, ?_⟩
  rw [← c87_protocol realm kdc cs]
  exact wire_kind os _ _ _ _ hw

/-- C87. Nothing else on the network matters: two operating systems that treat port 88 of the KDC address the same way for the
chosen transport give the same result, the same messages and the same traffic. -/
theorem c87_only_kdc (P : Prims) (M : CaseMap) (g : Cfg) (os os' : Os) (realm : List Char) (kdc : Bytes) (cs : List Call)
    (e1 e2 : Env) (username : List Char) (key : Option Key) (h : SameToKdc kdc (chosen cs) os os') :
    ((Requester.new realm kdc).calls cs).request P M g os e1 e2 username key =
      ((Requester.new realm kdc).calls cs).request P M g os' e1 e2 username key ∧
    ∀ sent, ((Requester.new realm kdc).calls cs).traffic os sent = ((Requester.new realm kdc).calls cs).traffic os' sent := by
  have hd := (c46_history realm kdc cs).2.2.2.2
  rw [← c87_protocol realm kdc cs] at h
  generalize (Requester.new realm kdc).calls cs = r at hd h
  have hr : r.run os = r.run os' := by
    funext sent
    unfold Requester.run
    cases hp : r.protocol with
    | tcp => rw [hp] at h; simp only [SameToKdc] at h; simp only [hd, h]
    | udp => rw [hp] at h; simp only [SameToKdc] at h; simp only [hd, h]
  refine ⟨?_, ?_⟩
  · unfold Requester.request; rw [hr]
  · intro sent; unfold Requester.traffic; rw [hr]

/-- the network that a served requester sees -/
theorem serves_net (os : Os) (net : Net) (realm : List Char) (kdc : Bytes) (cs : List Call)
    (h : Serves kdc (chosen cs) os net) (h4 : chosen cs = .udp → kdc.length = 4) :
    runsNet (((Requester.new realm kdc).calls cs).run os) = net := by
  have hd := (c46_history realm kdc cs).2.2.2.2
  rw [← c87_protocol realm kdc cs] at h h4
  generalize (Requester.new realm kdc).calls cs = r at hd h h4
  funext sent
  unfold runsNet Requester.run
  cases hp : r.protocol with
  | tcp =>
    rw [hp] at h
    obtain ⟨h1, h2⟩ := h sent
    simp only [Run.exchange, hd]
    cases hs : net sent with
    | some a =>
      obtain ⟨ho, hl, rest, hr⟩ := h1 a hs
      rw [c55_roundtrip _ _ a rest ho hl hr]
    | none => rw [show tcpExchange (os.tcp (kdc, 88) sent) (sent.getLastD []) = (some (.error .network), []) from by
        unfold tcpExchange; rw [if_pos (h2 hs)]]
  | udp =>
    rw [hp] at h
    obtain ⟨h1, h2⟩ := h udpLocal sent (h4 hp).symm
    simp only [Run.exchange, hd]
    cases hs : net sent with
    | some a =>
      obtain ⟨b1, b2, b3, b4, b5, b6⟩ := h1 a hs
      rw [c56_whole _ _ a b1 b2 b3 b4 b5 b6]
    | none =>
      have h3 := h2 hs
      have : (udpExchange (os.udp udpLocal (kdc, 88) sent) (sent.getLastD [])).1 = some (.error .network) := by
        unfold udpExchange
        rw [h3]
        split
        · rfl
        · split <;> rfl
      rw [this]

/-- C87. Over either transport a KDC that answers is used in the same way (over UDP: if its address is IPv4, see `c87_ipv6`):
the result and the messages are those of the network `net` that the KDC makes. -/
theorem c87_either_transport (P : Prims) (M : CaseMap) (g : Cfg) (os : Os) (net : Net) (realm : List Char) (kdc : Bytes)
    (cs : List Call) (e1 e2 : Env) (username : List Char) (key : Option Key) (h : Serves kdc (chosen cs) os net)
    (h4 : chosen cs = .udp → kdc.length = 4) :
    ((Requester.new realm kdc).calls cs).request P M g os e1 e2 username key =
      tgtRequest P M g net e1 e2 username key ((Requester.new realm kdc).calls cs).options := by
  unfold Requester.request; rw [serves_net os net realm kdc cs h h4]

theorem udp_other_family {os : Os} (ho : os.Families) {r : Requester} (hp : r.protocol = .udp)
    (hl : r.destination.1.length ≠ 4) (sent : List Bytes) (request : Bytes) :
    (r.run os sent).exchange request = some (.error .network) ∧ (r.run os sent).wire request = [] := by
  have hc : (os.udp udpLocal r.destination sent).connect = false := by
    cases h : (os.udp udpLocal r.destination sent).connect with
    | false => rfl
    | true => exact absurd (ho _ _ _ h).symm hl
  have he : udpExchange (os.udp udpLocal r.destination sent) request = (some (.error .network), none) := by
    unfold udpExchange
    rw [hc]
    split <;> rfl
  unfold Requester.run
  rw [hp]
  simp only [Run.exchange, Run.wire, he]
  exact ⟨trivial, rfl⟩

/-- C87. Expected: a KDC is used whatever the family of its address. Violated: over UDP, with a KDC address that is not IPv4,
every request of every requester fails with the network error, and nothing is sent. -/
theorem c87_ipv6 {P : Prims} (hP : P.Lawful) (M : CaseMap) {g : Cfg} (hg : g.Total) {os : Os} (ho : os.Families)
    (realm : List Char) (kdc : Bytes) (hkdc : kdc.length ≠ 4) (cs : List Call) (hc : chosen cs = .udp)
    {e1 e2 : Env} (he1 : EnvOk e1) (username : List Char) (key : Option Key) (hk : ∀ k, key = some k → k.WF) :
    (((Requester.new realm kdc).calls cs).request P M g os e1 e2 username key).1 = .error .network ∧
    ∀ sent, ((Requester.new realm kdc).calls cs).traffic os sent = [] := by
  have hd := (c46_history realm kdc cs).2.2.2.2
  have hp := c87_protocol realm kdc cs
  rw [hc] at hp
  generalize (Requester.new realm kdc).calls cs = r at hd hp
  have hl : r.destination.1.length ≠ 4 := by rw [hd]; exact hkdc
  refine ⟨?_, ?_⟩
  · exact c57_transport hP M hg (r.run os) he1 username key hk r.options _ rfl
      (udp_other_family ho hp hl _ _).1
  · intro sent
    unfold Requester.traffic
    rw [List.flatMap_eq_nil_iff]
    intro i _
    rw [(udp_other_family ho hp hl _ _).2]
    rfl

/-- C87. Also when name resolution finds IPv4 addresses as well: only the first address counts. -/
theorem c87_ipv6_first {P : Prims} (hP : P.Lawful) (M : CaseMap) {g : Cfg} (hg : g.Total) {os : Os} (ho : os.Families)
    (lookup : List Char → Option (List Bytes)) (realm : List Char) (kdc : Bytes) (others : List Bytes)
    (hlk : lookup realm = some (kdc :: others)) (hkdc : kdc.length ≠ 4) (cs : List Call) (hc : chosen cs = .udp)
    {e1 e2 : Env} (he1 : EnvOk e1) (username : List Char) (key : Option Key) (hk : ∀ k, key = some k → k.WF) :
    (resolveAndRequest P M g lookup os realm cs e1 e2 username key).1 = .error .network := by
  unfold resolveAndRequest resolveRealmKdc
  rw [hlk]
  exact (c87_ipv6 hP M hg ho realm kdc hkdc cs hc he1 username key hk).1

/-- C87. A request by realm name is the request to the first address found, and fails without any exchange if there is none. -/
theorem c87_by_name (P : Prims) (M : CaseMap) (g : Cfg) (os : Os)
    (lookup : List Char → Option (List Bytes)) (realm : List Char) (cs : List Call)
    (e1 e2 : Env) (username : List Char) (key : Option Key) :
    (∀ kdc others, lookup realm = some (kdc :: others) → resolveAndRequest P M g lookup os realm cs e1 e2 username key =
      ((Requester.new realm kdc).calls cs).request P M g os e1 e2 username key) ∧
    ((lookup realm = none ∨ lookup realm = some []) → resolveAndRequest P M g lookup os realm cs e1 e2 username key =
      (.error (.nameResolution realm), [])) := by
  unfold resolveAndRequest resolveRealmKdc
  refine ⟨?_, ?_⟩
  · intro kdc others h; rw [h]
  · rintro (h | h) <;> rw [h]

/-! ### C88 -/

/-- C88. Expected (RFC 4120 7.2.1): when the KDC answers over UDP that its reply is too big for a datagram (error 52), the
client asks again over TCP. Violated: if that is the answer to the first message, the error is returned after this message and
nothing leaves over TCP, whatever TCP to that KDC would give. -/
theorem c88_too_big {P : Prims} (hP : P.Lawful) (M : CaseMap) {g : Cfg} (hg : g.Total) (os : Os)
    (realm : List Char) (kdc : Bytes) (h4 : kdc.length = 4) (cs : List Call) (hc : chosen cs = .udp)
    {e1 e2 : Env} (he1 : EnvOk e1) (username : List Char) (key : Option Key) (hk : ∀ k, key = some k → k.WF)
    (net : Net) (hs : Serves kdc .udp os net) (err : KrbError) (h52 : err.error_code = 52)
    (ha : ∀ req1, ∃ a, net [req1] = some a ∧ ReadsError g a err) :
    ∃ req1, buildAsReq P M g e1 username none ((Requester.new realm kdc).calls cs).options = .ok req1 ∧
      ((Requester.new realm kdc).calls cs).request P M g os e1 e2 username key =
        (.error (.krbErrorResponse err), [req1]) ∧
      ((Requester.new realm kdc).calls cs).traffic os [req1] = [((kdc, 88), .datagram req1)] := by
  obtain ⟨req1, h1, h2, -⟩ := c65_final hP M hg username ((Requester.new realm kdc).calls cs).options key hk he1 net (e2 := e2)
  obtain ⟨a, hna, hra⟩ := ha req1
  refine ⟨req1, h1, ?_, ?_⟩
  · rw [c87_either_transport P M g os net realm kdc cs e1 e2 username key (by rw [hc]; exact hs) (fun _ => h4)]
    exact h2 a err hna hra (by rw [h52]; decide)
  · have hd := (c46_history realm kdc cs).2.2.2.2
    have hp := c87_protocol realm kdc cs
    rw [hc] at hp
    generalize (Requester.new realm kdc).calls cs = r at hd hp
    obtain ⟨b1, b2, b3, b4, b5, b6⟩ := (hs udpLocal [req1] h4.symm).1 a hna
    have := c56_whole _ req1 a b1 b2 b3 b4 b5 b6
    simp [Requester.traffic, Requester.run, hp, hd, Run.wire, this]

/-- C88. Likewise if the KDC first demands pre-authentication and then answers that its reply is too big: the error is
returned after the two messages, both of them datagrams. -/
theorem c88_too_big_second {P : Prims} (hP : P.Lawful) (M : CaseMap) {g : Cfg} (hg : g.Total) (os : Os)
    (realm : List Char) (kdc : Bytes) (h4 : kdc.length = 4) (cs : List Call) (hc : chosen cs = .udp)
    {e1 e2 : Env} (he1 : EnvOk e1) (username : List Char) (k : Key) (hk : k.WF)
    (net : Net) (hs : Serves kdc .udp os net) (err : KrbError) (_h52 : err.error_code = 52)
    (hd : ∀ req1, DemandsPreauth g (net [req1])) (ha : ∀ req1 req2, ∃ a, net [req1, req2] = some a ∧ ReadsError g a err)
    (req2 : Bytes) (h2 : buildAsReq P M g e2 username (some k) ((Requester.new realm kdc).calls cs).options = .ok req2) :
    ∃ req1, buildAsReq P M g e1 username none ((Requester.new realm kdc).calls cs).options = .ok req1 ∧
      ((Requester.new realm kdc).calls cs).request P M g os e1 e2 username (some k) =
        (.error (.krbErrorResponse err), [req1, req2]) ∧
      ((Requester.new realm kdc).calls cs).traffic os [req1, req2] =
        [((kdc, 88), .datagram req1), ((kdc, 88), .datagram req2)] := by
  obtain ⟨req1, h1, -, h3⟩ := c65_final hP M hg username ((Requester.new realm kdc).calls cs).options (some k)
    (fun k' hk' => by cases hk'; exact hk) he1 net (e2 := e2)
  obtain ⟨a, hna, hra⟩ := ha req1 req2
  refine ⟨req1, h1, ?_, ?_⟩
  · rw [c87_either_transport P M g os net realm kdc cs e1 e2 username (some k) (by rw [hc]; exact hs) (fun _ => h4)]
    exact h3 k req2 a err rfl (hd req1) h2 hna hra
  · have hde := (c46_history realm kdc cs).2.2.2.2
    have hp := c87_protocol realm kdc cs
    rw [hc] at hp
    generalize (Requester.new realm kdc).calls cs = r at hde hp
    obtain ⟨a1, _, hn1, -⟩ := hd req1
    obtain ⟨b1, b2, b3, b4, b5, b6⟩ := (hs udpLocal [req1] h4.symm).1 a1 hn1
    have t1 := c56_whole _ req1 a1 b1 b2 b3 b4 b5 b6
    obtain ⟨b1, b2, b3, b4, b5, b6⟩ := (hs udpLocal [req1, req2] h4.symm).1 a hna
    have t2 := c56_whole _ req2 a b1 b2 b3 b4 b5 b6
    simp [Requester.traffic, Requester.run, hp, hde, Run.wire, t1, t2, List.range_succ]

/-- C88. The user can do it: after choosing TCP the same requester gets what the KDC says over TCP. -/
theorem c88_by_hand (P : Prims) (M : CaseMap) (g : Cfg) (os : Os) (net : Net) (realm : List Char) (kdc : Bytes)
    (cs : List Call) (e1 e2 : Env) (username : List Char) (key : Option Key) (h : Serves kdc .tcp os net) :
    ((Requester.new realm kdc).calls (cs ++ [.setTransportProtocol .tcp])).request P M g os e1 e2 username key =
      tgtRequest P M g net e1 e2 username key ((Requester.new realm kdc).calls cs).options := by
  have hc : chosen (cs ++ [.setTransportProtocol .tcp]) = .tcp := by
    unfold chosen
    rw [List.filterMap_append]
    exact getLastD_append_singleton _ _ _
  rw [c87_either_transport P M g os net realm kdc _ e1 e2 username key (by rw [hc]; exact h) (by rw [hc]; exact fun h => (nomatch h)), calls_append]
  rfl

/-! ### Witnesses -/

/-- an operating system that serves `net` over TCP everywhere and over UDP within one address family -/
def exOs (net : Net) : Os where
  tcp _ sent := match net sent with
    | some a => ⟨true, [.accept (4 + (sent.getLastD []).length)], [.data (be32 (UInt32.ofNat a.length) ++ a)]⟩
    | none => ⟨false, [], []⟩
  udp l d sent := match net sent with
    | some a => ⟨true, l.length == d.1.length, true, fun _ => true, true, some a⟩
    | none => ⟨true, l.length == d.1.length, false, fun _ => true, true, none⟩

example (net : Net) : (exOs net).Families := by
  intro l d sent h
  unfold exOs at h
  dsimp only at h
  cases hn : net sent <;> rw [hn] at h <;> simpa using h

theorem exOs_tcp (net : Net) (hl : ∀ sent a, net sent = some a → a.length < 2 ^ 32) (kdc : Bytes) :
    Serves kdc .tcp (exOs net) net := by
  intro sent
  unfold exOs
  dsimp only
  cases hn : net sent with
  | none => exact ⟨fun a h => (nomatch h), fun _ => rfl⟩
  | some a =>
    refine ⟨?_, fun h => (nomatch h)⟩
    intro b hb
    have hb := Option.some.inj hb
    subst hb
    refine ⟨⟨rfl, ?_⟩, hl sent a hn, [], ?_⟩
    · have : (setSizeHeader (sent.getLastD [])).length = 4 + (sent.getLastD []).length := by
        simp [setSizeHeader, be32]; omega
      generalize setSizeHeader (sent.getLastD []) = m at this
      cases m with
      | nil => rfl
      | cons x m => rw [← this]; simp [writeAll]
    · simp [delivered, be32]

theorem exOs_udp (net : Net) (kdc : Bytes) : Serves kdc .udp (exOs net) net := by
  intro l sent hl
  unfold exOs
  dsimp only
  cases hn : net sent with
  | none => exact ⟨fun a h => (nomatch h), fun _ => rfl⟩
  | some a =>
    refine ⟨?_, fun h => (nomatch h)⟩
    intro b hb
    have hb := Option.some.inj hb
    subst hb
    refine ⟨rfl, ?_, rfl, fun _ => rfl, rfl, rfl⟩
    simp [hl]

/-- two operating systems that differ everywhere but at the KDC -/
example (net net' : Net) (kdc : Bytes) (p : Protocol) : SameToKdc kdc p (exOs net)
    ⟨fun d => if d = (kdc, 88) then (exOs net).tcp d else (exOs net').tcp d,
      fun l d => if d = (kdc, 88) then (exOs net).udp l d else (exOs net').udp l d⟩ := by
  cases p with
  | tcp => show _ = (if _ then _ else _); rw [if_pos rfl]
  | udp => intro l; show _ = (if _ then _ else _); rw [if_pos rfl]

section
set_option maxRecDepth 100000
open Verif.Crypto (stdPrims asciiCase)

def exIpv4 : Bytes := [192, 168, 0, 1]
def exIpv6 : Bytes := [0x20, 1, 0xd, 0xb8, 0, 0, 0, 0, 0, 0, 0, 0, 0, 0, 0, 1]

/-- The same KDC on an IPv6 address: over TCP the client gets its ticket, over UDP the network error; on an IPv4 address both
work. -/
example :
    ((Requester.new "KINGDOM.HEARTS".toList exIpv6).request stdPrims asciiCase strictCfg (exOs fileNet) exEnv exEnv
      "mickey".toList (some exCipherKey)).1.toOption.isSome = true ∧
    (((Requester.new "KINGDOM.HEARTS".toList exIpv6).calls [.setTransportProtocol .udp]).request stdPrims asciiCase strictCfg
      (exOs fileNet) exEnv exEnv "mickey".toList (some exCipherKey)).1.toOption.isSome = false ∧
    (((Requester.new "KINGDOM.HEARTS".toList exIpv4).calls [.setTransportProtocol .udp]).request stdPrims asciiCase strictCfg
      (exOs fileNet) exEnv exEnv "mickey".toList (some exCipherKey)).1.toOption.isSome = true := by
  decide +kernel

/-- the KDC of `fileNet` when its reply does not fit a datagram -/
def tooBigNet : Net := fun sent =>
  if sent.length = 1 then some (MsgType.build strictCfg .krbError exPreauth)
  else some (MsgType.build strictCfg .krbError { exPreauth with error_code := 52 })

/-- Its second answer is error 52, the client stops there, after two datagrams. -/
example : (∀ req1, DemandsPreauth strictCfg (tooBigNet [req1])) ∧
    (∀ req1 req2, ∃ a, tooBigNet [req1, req2] = some a ∧ ReadsError strictCfg a { exPreauth with error_code := 52 }) ∧
    (match ((Requester.new "KINGDOM.HEARTS".toList exIpv4).calls [.setTransportProtocol .udp]).request stdPrims asciiCase strictCfg
      (exOs tooBigNet) exEnv exEnv "mickey".toList (some exCipherKey) with
      | (.error (.krbErrorResponse e), sent) => e.error_code == 52 && sent.length == 2 &&
        (((Requester.new "KINGDOM.HEARTS".toList exIpv4).calls [.setTransportProtocol .udp]).traffic (exOs tooBigNet) sent) ==
          sent.map fun m => ((exIpv4, 88), .datagram m)
      | _ => false) = true := by
  refine ⟨fun req1 => ⟨_, exPreauth, rfl, ⟨[], by decide +kernel⟩, rfl⟩,
    fun req1 req2 => ⟨_, rfl, [], by decide +kernel⟩, by decide +kernel⟩

end

end Verif.Kb
