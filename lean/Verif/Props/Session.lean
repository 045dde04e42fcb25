import Verif.SessionModel
import Verif.Props.Exchange
import Verif.Props.KdcMore
/-
C97: a requester that is used again and again.
-/
namespace Verif.Kb
open Verif.Asn1
open Verif.Crypto (stdPrims toyPrims asciiCase Prims Key CaseMap)

/-- the settings among the calls of a history -/
def settings (evs : List Use) : List Call :=
  evs.filterMap fun ev => match ev with
    | .set c => some c
    | _ => none

theorem settings_append (a b : List Use) : settings (a ++ b) = settings a ++ settings b := List.filterMap_append

theorem run_append (P : Prims) (M : CaseMap) (g : Cfg) (os : Os) (a b : List Use) : ∀ s : Session,
    s.run P M g os (a ++ b) = ((s.run P M g os a).1 ++ ((s.run P M g os a).2.run P M g os b).1,
      ((s.run P M g os a).2.run P M g os b).2) := by
  induction a with
  | nil => intro s; rfl
  | cons x a ih => intro s; simp only [List.cons_append, Session.run]; rw [ih]

theorem run_length (P : Prims) (M : CaseMap) (g : Cfg) (os : Os) (a : List Use) : ∀ s : Session,
    (s.run P M g os a).1.length = a.length := by
  induction a with
  | nil => intro s; rfl
  | cons x a ih => intro s; simp only [Session.run, List.length_cons]; rw [ih]

theorem run_requester (P : Prims) (M : CaseMap) (g : Cfg) (os : Os) (a : List Use) : ∀ s : Session,
    (s.run P M g os a).2.requester = s.requester.calls (settings a) := by
  induction a with
  | nil => intro s; rfl
  | cons x a ih =>
    intro s
    simp only [Session.run]
    rw [ih]
    cases x <;> rfl

theorem run_at (P : Prims) (M : CaseMap) (g : Cfg) (os : Os) (s : Session) (before : List Use) (ev : Use)
    (later : List Use) : (s.run P M g os (before ++ ev :: later)).1[before.length]? =
      some ((s.run P M g os before).2.step P M g os ev).1 := by
  rw [run_append, ← run_length P M g os before s, List.getElem?_append_right (Nat.le_refl _), Nat.sub_self]
  rfl

/-- C97. Only the settings change a requester: after every history it is the one that got just the settings of the history,
whatever the requests in between did. -/
theorem c97_settings (P : Prims) (M : CaseMap) (g : Cfg) (os : Os) (realm : List Char) (kdc : Bytes) (history : List Use) :
    ((Session.new realm kdc).run P M g os history).2.requester = (Requester.new realm kdc).calls (settings history) :=
  run_requester P M g os history _

/-- C97. What a call returns after any history (and whatever is done later) is what it returns on a new requester with the
same settings: earlier requests matter only through what the KDC makes of their messages. -/
theorem c97_as_new (P : Prims) (M : CaseMap) (g : Cfg) (os : Os) (realm : List Char) (kdc : Bytes) (before later : List Use)
    (ev : Use) :
    ((Session.new realm kdc).run P M g os (before ++ ev :: later)).1[before.length]? =
      some (match ev with
        | .set c => .set (((Requester.new realm kdc).calls (settings before)).call c).1
        | .ticket e1 e2 username key => .ticket (((Requester.new realm kdc).calls (settings before)).request P M g
            (os.after ((Session.new realm kdc).run P M g os before).2.past) e1 e2 username key).1
        | .exchange e username key => .exchange (((Requester.new realm kdc).calls (settings before)).exchange P M g
            (os.after ((Session.new realm kdc).run P M g os before).2.past) e username key).1) := by
  rw [run_at, ← c97_settings P M g os realm kdc before]
  cases ev <;> rfl

/-! ### Messages -/

theorem asRequest_sent_le (P : Prims) (M : CaseMap) (g : Cfg) (net : Net) (e : Env) (username : List Char) (key : Option Key)
    (o : Options) (sent : List Bytes) : (asRequest P M g net e username key o sent).2.length ≤ sent.length + 1 := by
  unfold asRequest
  cases buildAsReq P M g e username key o with
  | error x => simp
  | ok raw =>
    dsimp only
    cases net (sent ++ [raw]) <;> simp

theorem tgtRequest_sent_le (P : Prims) (M : CaseMap) (g : Cfg) (net : Net) (e1 e2 : Env) (username : List Char)
    (key : Option Key) (o : Options) : (tgtRequest P M g net e1 e2 username key o).2.length ≤ 2 := by
  have h1 := asRequest_sent_le P M g net e1 username none o []
  unfold tgtRequest
  generalize asRequest P M g net e1 username none o [] = x at h1
  obtain ⟨r, s⟩ := x
  dsimp only [List.length_nil] at h1
  cases r with
  | error err => dsimp only; omega
  | ok r => cases r with
    | asRep r => dsimp only; omega
    | krbError err =>
      dsimp only
      split
      · dsimp only; omega
      · cases key with
        | none => dsimp only; omega
        | some k =>
          have h2 := asRequest_sent_le P M g net e2 username (some k) o s
          unfold secondRequest
          dsimp only
          generalize asRequest P M g net e2 username (some k) o s = y at h2
          obtain ⟨r2, s2⟩ := y
          dsimp only at h2
          cases r2 with
          | error err => dsimp only; omega
          | ok r2 => cases r2 <;> dsimp only <;> omega

/-- how many messages the calls of a history may send -/
def allowance : List Use → Nat
  | [] => 0
  | .set _ :: evs => allowance evs
  | .ticket .. :: evs => 2 + allowance evs
  | .exchange .. :: evs => 1 + allowance evs

/-- C97. Settings send nothing, a ticket request at most two messages, a single exchange at most one. -/
theorem c97_messages (P : Prims) (M : CaseMap) (g : Cfg) (os : Os) (history : List Use) : ∀ s : Session,
    (s.run P M g os history).2.past.length ≤ s.past.length + allowance history := by
  induction history with
  | nil => intro s; exact Nat.le_refl _
  | cons ev history ih =>
    intro s
    have h := ih (s.step P M g os ev).2
    simp only [Session.run]
    cases ev with
    | set c => exact h
    | ticket e1 e2 username key =>
      have h2 := tgtRequest_sent_le P M g (runsNet (s.requester.run (os.after s.past))) e1 e2 username key s.requester.options
      simp only [Session.step, Requester.request, List.length_append, allowance] at h ⊢
      omega
    | exchange e username key =>
      have h2 := asRequest_sent_le P M g (runsNet (s.requester.run (os.after s.past))) e username key s.requester.options []
      rw [List.length_nil] at h2
      simp only [Session.step, Requester.exchange, List.length_append, allowance] at h ⊢
      omega

/-- C97. Every ticket request starts anew: after any history, also one in which the KDC has demanded pre-authentication, its
first message has no encrypted timestamp and is the same for every key; another one follows only if the KDC answers this one
with a demand. -/
theorem c97_starts_anew {P : Prims} (hP : P.Lawful) (M : CaseMap) {g : Cfg} (hg : g.Total) (os : Os) (realm : List Char)
    (kdc : Bytes) (before : List Use) {e1 e2 : Env} (he1 : EnvOk e1) (he2 : EnvOk e2) (username : List Char) :
    ∃ r, ¬ HasTimestamp r ∧ ∀ key : Option Key, (∀ k, key = some k → k.WF) →
      ∃ more, ((Session.new realm kdc).run P M g os (before ++ [.ticket e1 e2 username key])).2.past =
          ((Session.new realm kdc).run P M g os before).2.past ++ MsgType.build g .asReq r :: more ∧ more.length ≤ 1 ∧
        (more ≠ [] → key ≠ none ∧ DemandsPreauth g (runsNet (((Requester.new realm kdc).calls (settings before)).run os)
          (((Session.new realm kdc).run P M g os before).2.past ++ [MsgType.build g .asReq r]))) := by
  obtain ⟨r, h4, -, -, -⟩ := c47_without_key P M g e1 he1 username ((Requester.new realm kdc).calls (settings before)).options
  have hb : buildAsReq P M g e1 username none ((Requester.new realm kdc).calls (settings before)).options =
      .ok (MsgType.build g .asReq r) := by
    unfold buildAsReq; rw [h4]; rfl
  generalize hs : ((Session.new realm kdc).run P M g os before).2 = s
  have hr : s.requester = (Requester.new realm kdc).calls (settings before) := by
    rw [← hs]; exact c97_settings P M g os realm kdc before
  have hnet : runsNet (((Requester.new realm kdc).calls (settings before)).run (os.after s.past)) =
      fun sent => match (((Requester.new realm kdc).calls (settings before)).run os (s.past ++ sent)).exchange
        (sent.getLastD []) with
      | some (.ok a) => some a
      | _ => none := by
    funext sent
    unfold runsNet
    unfold Requester.run Os.after
    rfl
  have hat : ∀ m, runsNet (((Requester.new realm kdc).calls (settings before)).run (os.after s.past)) [m] =
      runsNet (((Requester.new realm kdc).calls (settings before)).run os) (s.past ++ [m]) := by
    intro m
    rw [hnet]
    unfold runsNet
    rw [getLastD_append_singleton]
    rfl
  refine ⟨r, ?_, ?_⟩
  · obtain ⟨r', req1, h5, -, h6, -⟩ := c49_independent hP M hg
      (runsNet (((Requester.new realm kdc).calls (settings before)).run (os.after s.past))) username
      ((Requester.new realm kdc).calls (settings before)).options he1 he2
    rw [h4] at h5
    injection h5 with h5
    subst h5
    exact h6
  · intro key hk
    rw [run_append, hs]
    simp only [Session.run, Session.step, Requester.request, hr]
    obtain ⟨req1, h5, h6, h7⟩ := c48_messages hP M hg
      (runsNet (((Requester.new realm kdc).calls (settings before)).run (os.after s.past))) username key hk
      ((Requester.new realm kdc).calls (settings before)).options he1 he2
    rw [hb] at h5
    injection h5 with h5
    subst h5
    rcases h6 with h6 | ⟨k, req2, h8, -, h6⟩
    · refine ⟨[], ?_, by decide, fun h => absurd rfl h⟩
      rw [h6]
    · refine ⟨[req2], ?_, Nat.le_refl _, fun _ => ?_⟩
      · rw [h6]
      · refine ⟨by rw [h8]; exact fun h => (nomatch h), ?_⟩
        rw [← hat]
        exact (h7.1 (by rw [h6]; rfl)).1

/-! ### Keys -/

/-- two histories that differ at most in the keys of ticket requests -/
inductive SameButKeys : List Use → List Use → Prop
  | nil : SameButKeys [] []
  | set (c) {a b} (h : SameButKeys a b) : SameButKeys (.set c :: a) (.set c :: b)
  | ticket (e1 e2 username) (key key' : Option Key) {a b} (h : SameButKeys a b) :
    SameButKeys (.ticket e1 e2 username key :: a) (.ticket e1 e2 username key' :: b)
  | exchange (e username key) {a b} (h : SameButKeys a b) :
    SameButKeys (.exchange e username key :: a) (.exchange e username key :: b)

/-- sensible clocks, randomness of the right length and keys of the right size -/
def Use.Ok : Use → Prop
  | .set _ => True
  | .ticket e1 e2 _ key => EnvOk e1 ∧ EnvOk e2 ∧ ∀ k, key = some k → k.WF
  | .exchange e _ key => EnvOk e ∧ ∀ k, key = some k → k.WF

theorem runsNet_after (os : Os) (r : Requester) (past : List Bytes) (m : Bytes) :
    runsNet (r.run (os.after past)) [m] = runsNet (r.run os) (past ++ [m]) := by
  unfold runsNet
  rw [getLastD_append_singleton]
  rfl

theorem same_but_keys {P : Prims} (hP : P.Lawful) (M : CaseMap) {g : Cfg} (hg : g.Total) (os : Os)
    (hd : ∀ (r : Requester) (sent : List Bytes), ¬ DemandsPreauth g (runsNet (r.run os) sent)) {a b : List Use}
    (h : SameButKeys a b) : ∀ s : Session, (∀ ev ∈ a, ev.Ok) → (∀ ev ∈ b, ev.Ok) →
      (s.run P M g os a).2 = (s.run P M g os b).2 := by
  induction h with
  | nil => intro s _ _; rfl
  | set c h ih =>
    intro s ha hb
    simp only [Session.run, Session.step]
    exact ih _ (fun ev hev => ha ev (List.mem_cons_of_mem _ hev)) (fun ev hev => hb ev (List.mem_cons_of_mem _ hev))
  | exchange e username key h ih =>
    intro s ha hb
    simp only [Session.run, Session.step]
    exact ih _ (fun ev hev => ha ev (List.mem_cons_of_mem _ hev)) (fun ev hev => hb ev (List.mem_cons_of_mem _ hev))
  | ticket e1 e2 username key key' h ih =>
    intro s ha hb
    have ha1 : EnvOk e1 ∧ EnvOk e2 ∧ ∀ k, key = some k → k.WF := ha _ (List.mem_cons_self ..)
    have hb1 : EnvOk e1 ∧ EnvOk e2 ∧ ∀ k, key' = some k → k.WF := hb _ (List.mem_cons_self ..)
    obtain ⟨r, req1, -, h5, -, -, h6⟩ := c49_independent hP M hg
      (runsNet (s.requester.run (os.after s.past))) username s.requester.options ha1.1 ha1.2.1
    have hnd : ¬ DemandsPreauth g (runsNet (s.requester.run (os.after s.past)) [req1]) := by
      rw [runsNet_after]; exact hd _ _
    simp only [Session.run, Session.step, Requester.request]
    rw [h6 key ha1.2.2 hnd, h6 key' hb1.2.2 hnd]
    exact ih _ (fun ev hev => ha ev (List.mem_cons_of_mem _ hev)) (fun ev hev => hb ev (List.mem_cons_of_mem _ hev))

/-- C97. Ticket requests leave no trace of their keys on the network as long as the KDC never demands pre-authentication: two
lives of a requester that differ only in these keys send the same messages. -/
theorem c97_no_trace {P : Prims} (hP : P.Lawful) (M : CaseMap) {g : Cfg} (hg : g.Total) (os : Os)
    (hd : ∀ (r : Requester) (sent : List Bytes), ¬ DemandsPreauth g (runsNet (r.run os) sent)) (realm : List Char) (kdc : Bytes)
    (a b : List Use) (h : SameButKeys a b) (ha : ∀ ev ∈ a, ev.Ok) (hb : ∀ ev ∈ b, ev.Ok) :
    ((Session.new realm kdc).run P M g os a).2.past = ((Session.new realm kdc).run P M g os b).2.past := by
  rw [same_but_keys hP M hg os hd h _ ha hb]

/-! ### Trying again -/

open Verif.Kdc (Kdc Account Issues StringToKey) in
/-- C97. After any history (wrong passwords, errors, broken connections, caught crashes) a request with the account's password
to a KDC that follows RFC 4120 returns the ticket that the KDC issues: the conditions are those of C73 for this request alone. -/
theorem c97_recovers (M : CaseMap) (g : Cfg) (hg : g.Total) (os : Os) (kdc : Bytes) (K : Kdc) (before later : List Use)
    (clock : Nat → Int) (e1 e2 : Env) (he1 : EnvPlain e1) (he2 : EnvPlain e2) (username pw : List Char) (a : Account)
    (ha : K.account ⟨1, [username]⟩ = some a) (hkeys : ∀ k ∈ a.keys, StringToKey k.etype pw k.salt k.key)
    (r : Requester) (hr : r = (Requester.new K.realm kdc).calls (settings before))
    (htype : ∃ k ∈ a.keys, k.etype ∈ r.options.etypes)
    (hpre : a.needsPreauth = true → M.upper K.realm = K.realm ∧ M.lower username = username ∧ username.getLast? ≠ some '$' ∧
      ∃ k ∈ a.keys, [18, 17, 23].find? (fun t => decide (t ∈ r.options.etypes)) = some k.etype ∧
        (k.etype ≠ 23 → k.salt = K.realm ++ username))
    (hclock : e2.stampNow.secs - clock 2 ≤ 300 ∧ clock 2 - e2.stampNow.secs ≤ 300)
    (past : List Bytes) (hpast : past = ((Session.new K.realm kdc).run stdPrims M g os before).2.past)
    (hans : AnsweredBy K clock (runsNet (r.run (os.after past)))
      (r.request stdPrims M g (os.after past) e1 e2 username (some (.secret pw))).2) :
    ∃ q rep part k, Issues K a q rep part k ∧
      ((Session.new K.realm kdc).run stdPrims M g os (before ++ .ticket e1 e2 username (some (.secret pw)) :: later)).1[before.length]? =
        some (.ticket (.ok ⟨rep.crealm, rep.cname, rep.ticket, part⟩)) ∧
      part.nonce = (if a.needsPreauth then e2 else e1).nonce := by
  have hrealm : r.options.realm = K.realm := by rw [hr]; exact (c46_history K.realm kdc _).2.1
  obtain ⟨q, rep, part, k, h1, h2, h3, -⟩ := c73_password M g hg K clock (runsNet (r.run (os.after past))) e1 e2 he1 he2 username pw
    r.options a ha hrealm hkeys htype hpre hclock hans
  refine ⟨q, rep, part, k, h1, ?_, h3⟩
  rw [c97_as_new]
  dsimp only
  rw [← hpast, ← hr]
  exact congrArg (fun x => some (Outcome.ticket x)) h2

/-! ### Cases -/

section
set_option maxRecDepth 100000

/-- a KDC that demands pre-authentication with every other message -/
def sessionNet : Net := fun sent =>
  if sent.length % 2 = 1 then some (MsgType.build strictCfg .krbError exPreauth)
  else some (MsgType.build strictCfg .asRep fileRep)

/-- a wrong key, a setting that is refused, the right key -/
def exHistory : List Use :=
  [.ticket exEnv exEnv "mickey".toList (some (.rc4Key (List.replicate 16 1))), .set (.setEtype 3),
    .ticket exEnv exEnv "mickey".toList (some exCipherKey)]

/-- The first request fails, the setting is refused, the second request returns the ticket; four messages were sent, and the
first of each request is the same. -/
example :
    ((Session.new "KINGDOM.HEARTS".toList exIpv4).run stdPrims asciiCase strictCfg (exOs sessionNet) exHistory).1.map
      (fun x => match x with
        | .set r => r.toOption.isSome
        | .ticket r => r.toOption.isSome
        | .exchange r => r.toOption.isSome) = [false, false, true] ∧
    ((Session.new "KINGDOM.HEARTS".toList exIpv4).run stdPrims asciiCase strictCfg (exOs sessionNet) exHistory).2.past.length = 4 ∧
    ((Session.new "KINGDOM.HEARTS".toList exIpv4).run stdPrims asciiCase strictCfg (exOs sessionNet) exHistory).2.past[0]? =
      ((Session.new "KINGDOM.HEARTS".toList exIpv4).run stdPrims asciiCase strictCfg (exOs sessionNet) exHistory).2.past[2]? ∧
    settings exHistory = [.setEtype 3] ∧ allowance exHistory = 4 := by
  decide +kernel

/-- the premise of `c97_no_trace`: a KDC that answers with replies only, over both transports -/
example (r : Requester) (sent : List Bytes) :
    ¬ DemandsPreauth strictCfg (runsNet (r.run (exOs fun _ => some (MsgType.build strictCfg .asRep fileRep))) sent) := by
  rintro ⟨a, err, h1, h2, -⟩
  have hx : ∀ b e, b = MsgType.build strictCfg .asRep fileRep → ¬ ReadsError strictCfg b e := by
    rintro b e rfl ⟨t, h⟩
    have hd : (match MsgType.parse strictCfg .krbError (MsgType.build strictCfg .asRep fileRep) with
      | .ok _ => false
      | .error _ => true) = true := by decide +kernel
    rw [h] at hd
    cases hd
  refine hx a err ?_ h2
  have ho := exOs_tcp (fun _ => some (MsgType.build strictCfg .asRep fileRep)) (by
    rintro s b h
    have h := Option.some.inj h
    rw [← h]
    decide +kernel)
  unfold runsNet Requester.run at h1
  cases hp : r.protocol with
  | tcp =>
    simp only [hp, Run.exchange] at h1
    obtain ⟨g1, g2, rest, g3⟩ := (ho r.destination.1 sent).1 _ rfl
    rw [show (exOs fun _ => some (MsgType.build strictCfg .asRep fileRep)).tcp r.destination sent =
      (exOs fun _ => some (MsgType.build strictCfg .asRep fileRep)).tcp (r.destination.1, 88) sent from rfl,
      c55_roundtrip _ _ _ rest g1 g2 g3] at h1
    exact (Option.some.inj h1).symm
  | udp =>
    simp only [hp, Run.exchange] at h1
    unfold udpExchange exOs at h1
    simp only [Bool.true_eq_false, if_false] at h1
    cases hc : (udpLocal.length == r.destination.1.length) with
    | false => rw [hc] at h1; simp at h1
    | true =>
      have h5 := c56_whole ((exOs fun _ => some (MsgType.build strictCfg .asRep fileRep)).udp udpLocal r.destination sent)
        (sent.getLastD []) (MsgType.build strictCfg .asRep fileRep) rfl hc rfl (fun _ => rfl) rfl rfl
      unfold udpExchange exOs at h5
      simp only [Bool.true_eq_false, if_false] at h5
      rw [h5] at h1
      exact (Option.some.inj h1).symm

/-- a request with a wrong key, then another type and another transport -/
def exBefore : List Use :=
  [.ticket exEnv exEnv "mickey".toList (some (.rc4Key (List.replicate 16 1))), .set (.setEtype 23),
    .set (.setTransportProtocol .udp)]

/-- the KDC of `kdcNet`, which takes every two messages for a request of their own -/
def exTwice : Os := exOs fun sent => if sent.length ≤ 2 then kdcNet sent else kdcNet (sent.drop 2)

/-- the premises of `c97_recovers` that are about the session hold here (the others are those of `c73_password`, see there),
and the first request has failed -/
example : ∃ past, past = ((Session.new "KINGDOM.HEARTS".toList exIpv4).run stdPrims asciiCase strictCfg exTwice exBefore).2.past ∧
    past.length = 2 ∧
    AnsweredBy exKdc (fun _ => 1700000000)
      (runsNet (((Requester.new exKdc.realm exIpv4).calls (settings exBefore)).run (exTwice.after past)))
      (((Requester.new exKdc.realm exIpv4).calls (settings exBefore)).request stdPrims asciiCase strictCfg (exTwice.after past)
        kdcEnv kdcEnv "mickey".toList (some (.secret "pw".toList))).2 := by
  refine ⟨_, rfl, ?_⟩
  have hl : ((Session.new "KINGDOM.HEARTS".toList exIpv4).run stdPrims asciiCase strictCfg exTwice exBefore).2.past.length = 2 := by
    decide +kernel
  generalize ((Session.new "KINGDOM.HEARTS".toList exIpv4).run stdPrims asciiCase strictCfg exTwice exBefore).2.past = past at hl
  refine ⟨hl, ?_⟩
  have hs : Serves exIpv4 (chosen (settings exBefore)) (exTwice.after past) kdcNet := by
    show Serves exIpv4 .udp (exTwice.after past) kdcNet
    have hn : (fun sent => if (past ++ sent).length ≤ 2 then kdcNet (past ++ sent) else kdcNet ((past ++ sent).drop 2)) = kdcNet := by
      funext sent
      rw [List.length_append, hl, ← hl, List.drop_left, hl]
      cases sent with
      | nil =>
        rw [if_pos (by decide), List.append_nil]
        unfold kdcNet
        rw [hl]; rfl
      | cons x sent => rw [if_neg (by simp only [List.length_cons]; omega)]
    have h := exOs_udp kdcNet exIpv4
    rw [← hn] at h
    rw [← hn]
    exact h
  have hr := serves_net (exTwice.after past) kdcNet exKdc.realm exIpv4 (settings exBefore) hs (fun _ => rfl)
  unfold Requester.request
  rw [hr, show ((Requester.new exKdc.realm exIpv4).calls (settings exBefore)).options = kdcOptions from by decide]
  exact kdcAnswered _ trivial ⟨by decide, .rc4, by decide, by decide +kernel⟩ (by decide +kernel)

end

end Verif.Kb
