import Verif.ClientModel
import Verif.Props.Crypto
import Verif.Props.Keys
import Verif.Props.Warehouse
/-
Property theorems C46, C47: options of a requester and the requests it builds.
-/
set_option linter.unusedSimpArgs false
namespace Verif.Kb
open Verif.Asn1
open Verif.Crypto (CErr Prims Key Cipher CaseMap newKerberosCipher isSupportedEtype calculateAesSalt)

/-! ### C46: options -/

theorem supported_iff (e : Int32) : isSupportedEtype e = true ↔ e ∈ [18, 17, 23] := by
  simp [isSupportedEtype, Crypto.supportedEtypes]

theorem errorIfUnsupported_spec (l : List Int32) :
    (errorIfUnsupported l = .ok () ↔ ∀ e ∈ l, e ∈ [18, 17, 23]) ∧
    (∀ x, errorIfUnsupported l = .error x → ∃ e ∈ l, e ∉ [18, 17, 23] ∧ x = .crypto (.unsupported e)) := by
  induction l with
  | nil => simp [errorIfUnsupported]
  | cons e l ih =>
    rw [errorIfUnsupported]
    by_cases h : isSupportedEtype e = true
    · rw [if_neg (by simp [h])]
      refine ⟨?_, ?_⟩
      · rw [ih.1]
        have := (supported_iff e).1 h
        constructor
        · intro hl x hx
          rcases List.mem_cons.1 hx with rfl | hx
          · exact this
          · exact hl x hx
        · intro hl x hx; exact hl x (List.mem_cons_of_mem _ hx)
      · intro x hx
        obtain ⟨a, b, c, d⟩ := ih.2 x hx
        exact ⟨a, List.mem_cons_of_mem _ b, c, d⟩
    · have hn : e ∉ [18, 17, 23] := fun hm => h ((supported_iff e).2 hm)
      rw [if_pos (by simpa using h)]
      refine ⟨?_, ?_⟩
      · constructor
        · intro hx; cases hx
        · intro hl; exact absurd (hl e (List.mem_cons_self ..)) hn
      · intro x hx
        injection hx with hx
        exact ⟨e, List.mem_cons_self .., hn, hx.symm⟩

/-- the encryption types a call asks for -/
def Call.asked : Call → List Int32
  | .setEtype e => [e]
  | .setEtypes l => l
  | .setTransportProtocol _ => []

/-- C46. A call succeeds iff all types it names are supported. -/
theorem c46_succeeds_iff (r : Requester) (c : Call) :
    (r.call c).1 = .ok () ↔ ∀ e ∈ c.asked, e = 18 ∨ e = 17 ∨ e = 23 := by
  have key : ∀ (o : Options) l, (o.setEtypes l).1 = .ok () ↔ ∀ e ∈ l, e = 18 ∨ e = 17 ∨ e = 23 := by
    intro o l
    have h := (errorIfUnsupported_spec l).1
    simp only [List.mem_cons, List.not_mem_nil, or_false] at h
    rw [← h]
    unfold Options.setEtypes
    cases errorIfUnsupported l with
    | error x => simp
    | ok u => simp
  cases c with
  | setEtype e => exact key _ _
  | setEtypes l => exact key _ _
  | setTransportProtocol p => simp [Requester.call, Call.asked]

/-- C46. A failing call changes nothing and names an unsupported type that it was given. -/
theorem c46_failed_call (r : Requester) (c : Call) (x : KErr) (h : (r.call c).1 = .error x) :
    (r.call c).2 = r ∧ ∃ e ∈ c.asked, (e ≠ 18 ∧ e ≠ 17 ∧ e ≠ 23) ∧ x = .crypto (.unsupported e) := by
  have key : ∀ (o : Options) l x, (o.setEtypes l).1 = .error x →
      (o.setEtypes l).2 = o ∧ ∃ e ∈ l, (e ≠ 18 ∧ e ≠ 17 ∧ e ≠ 23) ∧ x = .crypto (.unsupported e) := by
    intro o l x hx
    have h := (errorIfUnsupported_spec l).2
    unfold Options.setEtypes at hx ⊢
    cases he : errorIfUnsupported l with
    | ok u => rw [he] at hx; cases hx
    | error y =>
      rw [he] at hx
      injection hx with hx
      subst hx
      obtain ⟨e, h1, h2, h3⟩ := h _ he
      refine ⟨rfl, e, h1, ?_, h3⟩
      simpa using h2
  cases c with
  | setEtype e =>
    obtain ⟨h1, h2⟩ := key r.options [e] x h
    refine ⟨?_, h2⟩
    show ({ r with options := (r.options.setEtypes [e]).2 } : Requester) = r
    rw [h1]
  | setEtypes l =>
    obtain ⟨h1, h2⟩ := key r.options l x h
    refine ⟨?_, h2⟩
    show ({ r with options := (r.options.setEtypes l).2 } : Requester) = r
    rw [h1]
  | setTransportProtocol p => cases h

/-- C46. A successful call changes exactly the setting it names: the set of types, or the protocol. -/
theorem c46_successful_call (r : Requester) (c : Call) (h : (r.call c).1 = .ok ()) :
    (∀ e, c = .setEtype e → (r.call c).2 = { r with options := { r.options with etypes := [e] } }) ∧
    (∀ l, c = .setEtypes l → (r.call c).2 = { r with options := { r.options with etypes := l } }) ∧
    (∀ p, c = .setTransportProtocol p → (r.call c).2 = { r with destination := (r.kdc, 88), protocol := p }) := by
  have key : ∀ (o : Options) l, (o.setEtypes l).1 = .ok () → (o.setEtypes l).2 = { o with etypes := l } := by
    intro o l hx
    unfold Options.setEtypes at hx ⊢
    cases he : errorIfUnsupported l with
    | ok u => rfl
    | error y => rw [he] at hx; cases hx
  refine ⟨?_, ?_, ?_⟩
  · rintro e rfl
    show ({ r with options := (r.options.setEtypes [e]).2 } : Requester) = _
    rw [key _ _ h]
  · rintro l rfl
    show ({ r with options := (r.options.setEtypes l).2 } : Requester) = _
    rw [key _ _ h]
  · rintro p rfl; rfl

theorem calls_append (r : Requester) (a b : List Call) : r.calls (a ++ b) = (r.calls a).calls b := by
  induction a generalizing r with
  | nil => rfl
  | cons c a ih => exact ih _

theorem calls_invariant {Q : Requester → Prop} (hs : ∀ r c, Q r → Q (r.call c).2) (r : Requester) (l : List Call)
    (h : Q r) : Q (r.calls l) := by
  induction l generalizing r with
  | nil => exact h
  | cons c l ih => exact ih _ (hs r c h)

/-- C46. After every history of calls the set of types contains only supported ones; realm, KDC flags, PAC request and
destination (port 88 of the given address) are still the initial ones. -/
theorem c46_history (realm : List Char) (kdc : Bytes) (l : List Call) :
    (∀ e ∈ ((Requester.new realm kdc).calls l).options.etypes, e = 18 ∨ e = 17 ∨ e = 23) ∧
    ((Requester.new realm kdc).calls l).options.realm = realm ∧
    ((Requester.new realm kdc).calls l).options.kdc_options = 0x40810010 ∧
    ((Requester.new realm kdc).calls l).options.pac = true ∧
    ((Requester.new realm kdc).calls l).destination = (kdc, 88) := by
  have := calls_invariant (Q := fun r => (∀ e ∈ r.options.etypes, e = 18 ∨ e = 17 ∨ e = 23) ∧
    r.options.realm = realm ∧ r.options.kdc_options = 0x40810010 ∧ r.options.pac = true ∧ r.destination = (kdc, 88) ∧
    r.kdc = kdc) (r := Requester.new realm kdc) (l := l) ?_ ?_
  · exact ⟨this.1, this.2.1, this.2.2.1, this.2.2.2.1, this.2.2.2.2.1⟩
  · rintro r c ⟨h1, h2, h3, h4, h5, h6⟩
    cases hc : (r.call c).1 with
    | error x => rw [(c46_failed_call r c x hc).1]; exact ⟨h1, h2, h3, h4, h5, h6⟩
    | ok u =>
      have hs := c46_successful_call r c hc
      have ha := (c46_succeeds_iff r c).1 hc
      cases c with
      | setEtype e => rw [hs.1 e rfl]; exact ⟨ha, h2, h3, h4, h5, h6⟩
      | setEtypes l => rw [hs.2.1 l rfl]; exact ⟨ha, h2, h3, h4, h5, h6⟩
      | setTransportProtocol p => rw [hs.2.2 p rfl]; exact ⟨h1, h2, h3, h4, by rw [h6], h6⟩
  · refine ⟨?_, rfl, by show FORWARDABLE ||| RENEWABLE ||| CANONICALIZE ||| RENEWABLE_OK = 0x40810010; decide, rfl, rfl, rfl⟩
    intro e he
    have he : e ∈ [18, 17, 23] := he
    simpa using he

/-- calls that set no types, and calls that fail, leave the types -/
theorem calls_keep_types (t : Requester) (m : List Call)
    (hm : ∀ d ∈ m, (∃ p, d = .setTransportProtocol p) ∨ ∃ e ∈ d.asked, e ≠ 18 ∧ e ≠ 17 ∧ e ≠ 23) :
    (t.calls m).options.etypes = t.options.etypes := by
  induction m generalizing t with
  | nil => rfl
  | cons d m ih =>
    show ((t.call d).2.calls m).options.etypes = _
    rw [ih _ (fun x hx => hm x (List.mem_cons_of_mem _ hx))]
    rcases hm d (List.mem_cons_self ..) with ⟨p, rfl⟩ | ⟨e, he, hne⟩
    · rfl
    · cases hd : (t.call d).1 with
      | error x => rw [(c46_failed_call t d x hd).1]
      | ok u =>
        rcases (c46_succeeds_iff t d).1 hd e he with h | h | h
        · exact absurd h hne.1
        · exact absurd h hne.2.1
        · exact absurd h hne.2.2

/-- C46. After a history the types are those of the last successful call that set types; all three if there was none. -/
theorem c46_last_wins (r : Requester) (realm : List Char) (kdc : Bytes) (m : List Call)
    (hm : ∀ d ∈ m, (∃ p, d = .setTransportProtocol p) ∨ ∃ e ∈ d.asked, e ≠ 18 ∧ e ≠ 17 ∧ e ≠ 23) :
    (∀ (l : List Call) (c : Call) (es : List Int32), (c = .setEtypes es ∨ ∃ e, es = [e] ∧ c = .setEtype e) →
      (∀ e ∈ es, e = 18 ∨ e = 17 ∨ e = 23) → (r.calls (l ++ c :: m)).options.etypes = es) ∧
    ((Requester.new realm kdc).calls m).options.etypes = [18, 17, 23] := by
  refine ⟨?_, calls_keep_types _ m hm⟩
  intro l c es hc hes
  rw [calls_append]
  generalize r.calls l = s
  show ((s.call c).2.calls m).options.etypes = es
  rw [calls_keep_types _ m hm]
  have hok : (s.call c).1 = .ok () := (c46_succeeds_iff s c).2 (by
    rcases hc with rfl | ⟨e, rfl, rfl⟩ <;> exact hes)
  rcases hc with rfl | ⟨e, rfl, rfl⟩
  · rw [(c46_successful_call s _ hok).2.1 es rfl]
  · rw [(c46_successful_call s _ hok).1 e rfl]

/-- C46. The offered order is 18, 17, 23 restricted to the set, whatever the order of the set. -/
theorem c46_order (o : Options) : o.sortedEtypes = [18, 17, 23].filter (fun e => decide (e ∈ o.etypes)) ∧
    o.sortedEtypes.Nodup := by
  have : o.sortedEtypes = [18, 17, 23].filter (fun e => decide (e ∈ o.etypes)) := by
    unfold Options.sortedEtypes
    by_cases h1 : (18 : Int32) ∈ o.etypes <;> by_cases h2 : (17 : Int32) ∈ o.etypes <;>
      by_cases h3 : (23 : Int32) ∈ o.etypes <;> simp [List.filter, h1, h2, h3]
  refine ⟨this, ?_⟩
  rw [this]
  exact List.Nodup.sublist List.filter_sublist (by decide)

example : ((Requester.new "R".toList [10, 0, 0, 1]).calls [.setEtypes [23, 18], .setEtype 3, .setTransportProtocol .udp]).options.sortedEtypes
    = [18, 23] := by decide +kernel

/-! ### C47: requests -/

/-- the environment is usable: random bytes of the asked size, clock before the end of time minus 20 years -/
structure EnvOk (e : Env) : Prop where
  confounder : ∀ n, (e.confounder n).length = n
  rtime : e.rtimeNow.secs + twentyYears ≤ chronoMax
  till : e.tillNow.secs + twentyYears ≤ chronoMax

/-- 20 times 52 weeks later -/
def later (t : DateTime) : DateTime := ⟨t.secs + 20 * 52 * 604800, t.nanos⟩

/-- what every request says -/
structure Asks (e : Env) (username : List Char) (o : Options) (r : AsReq) : Prop where
  pvno : r.pvno = 5
  msg_type : r.msg_type = 10
  client : r.req_body.cname = some ⟨1, [username]⟩
  realm : r.req_body.realm = o.realm
  server : r.req_body.sname = some ⟨2, ["krbtgt".toList, o.realm]⟩
  options : r.req_body.kdc_options = o.kdc_options
  «from» : r.req_body.from = none
  till : r.req_body.till = later e.tillNow
  rtime : r.req_body.rtime = some (later e.rtimeNow)
  nonce : r.req_body.nonce = e.nonce
  addresses : r.req_body.addresses = none
  authdata : r.req_body.enc_authorization_data = none
  tickets : r.req_body.additional_tickets = none

/-- the PAC request, when configured -/
def pacRequest (g : Cfg) (o : Options) : List PaData :=
  if o.pac then [⟨128, MsgType.build g .kerbPaPacRequest ⟨true⟩⟩] else []

theorem addTwentyYears_ok {t : DateTime} (h : t.secs + twentyYears ≤ chronoMax) : addTwentyYears t = .ok (later t) := by
  unfold addTwentyYears
  rw [if_pos h]; rfl

theorem addTwentyYears_inv {t u : DateTime} (h : addTwentyYears t = .ok u) : u = later t := by
  unfold addTwentyYears at h
  split at h
  · injection h with h; exact h.symm
  · cases h

theorem asks_intro {e : Env} {username : List Char} {o : Options} (padata : Option (List PaData)) (etypes : List Int32) :
    Asks e username o ⟨5, 10, padata, ⟨o.kdc_options, some ⟨1, [username]⟩, o.realm, some ⟨2, ["krbtgt".toList, o.realm]⟩,
      none, later e.tillNow, some (later e.rtimeNow), e.nonce, etypes, none, none, none⟩⟩ :=
  ⟨rfl, rfl, rfl, rfl, rfl, rfl, rfl, rfl, rfl, rfl, rfl, rfl, rfl⟩

theorem createAsReq_eq {P M g} {e : Env} (he : EnvOk e) (username : List Char) (key : Option Key) (o : Options) :
    createAsReq P M g e username key o =
      (match key with
      | none => .ok ⟨5, 10, if o.pac then some (pacRequest g o) else none, ⟨o.kdc_options, some ⟨1, [username]⟩, o.realm,
          some ⟨2, ["krbtgt".toList, o.realm]⟩, none, later e.tillNow, some (later e.rtimeNow), e.nonce, o.sortedEtypes,
          none, none, none⟩⟩
      | some k => do
        let x ← encryptedTimestamp P M g e o.realm username k o.sortedEtypes
        return ⟨5, 10, some (pacRequest g o ++ [⟨2, MsgType.build g .encryptedData ⟨x.1, none, x.2⟩⟩]), ⟨o.kdc_options,
          some ⟨1, [username]⟩, o.realm, some ⟨2, ["krbtgt".toList, o.realm]⟩, none, later e.tillNow,
          some (later e.rtimeNow), e.nonce, [x.1], none, none, none⟩⟩) := by
  unfold createAsReq
  rw [addTwentyYears_ok he.rtime, addTwentyYears_ok he.till]
  cases key with
  | none =>
    unfold pacRequest
    cases o.pac <;> rfl
  | some k =>
    unfold pacRequest
    simp only [bind, Except.bind]
    cases encryptedTimestamp P M g e o.realm username k o.sortedEtypes with
    | error x => rfl
    | ok x => cases o.pac <;> rfl

/-- C47. Without a key: the request says what was configured, offers the configured types in the fixed order, and has no
pre-authentication data but the PAC request. -/
theorem c47_without_key (P : Prims) (M : CaseMap) (g : Cfg) (e : Env) (he : EnvOk e) (username : List Char) (o : Options) :
    ∃ r, createAsReq P M g e username none o = .ok r ∧ Asks e username o r ∧
      r.req_body.etypes = [18, 17, 23].filter (fun t => decide (t ∈ o.etypes)) ∧
      r.padata.getD [] = pacRequest g o := by
  refine ⟨_, createAsReq_eq he _ _ _, asks_intro _ _, (c46_order o).1, ?_⟩
  unfold pacRequest
  cases o.pac <;> rfl

theorem year_succ (z : Int) : (Date.ofDays z).year ≤ (Date.ofDays (z + 1)).year := by
  rw [Date.ofDays_succ]
  unfold Date.next
  split
  · exact Int.le_refl _
  · split <;> dsimp only <;> omega

theorem year_mono (z : Int) : ∀ n : Nat, (Date.ofDays z).year ≤ (Date.ofDays (z + n)).year := by
  intro n
  induction n with
  | zero => simp
  | succ n ih =>
    have := year_succ (z + n)
    rw [show z + (n + 1 : Nat) = z + n + 1 by omega]
    omega

/-- the last second chrono can hold is that of the year 262142 -/
theorem chronoMax_iff (t : DateTime) : t.secs ≤ chronoMax ↔ t.date.year ≤ 262142 := by
  have h1 : (Date.ofDays (chronoMax / 86400)).year = 262142 := by decide +kernel
  have h2 : (Date.ofDays ((chronoMax + 1) / 86400)).year = 262143 := by decide +kernel
  unfold DateTime.date
  constructor
  · intro h
    have := year_mono (t.secs / 86400) (chronoMax / 86400 - t.secs / 86400).toNat
    rw [show t.secs / 86400 + ((chronoMax / 86400 - t.secs / 86400).toNat : Int) = chronoMax / 86400 by omega, h1] at this
    exact this
  · intro h
    apply Classical.byContradiction
    intro hn
    have := year_mono ((chronoMax + 1) / 86400) (t.secs / 86400 - (chronoMax + 1) / 86400).toNat
    rw [show (chronoMax + 1) / 86400 + ((t.secs / 86400 - (chronoMax + 1) / 86400).toNat : Int) = t.secs / 86400 by omega, h2] at this
    omega

/-- C47. Building a request crashes if and only if a clock reading is so late that 20 times 52 weeks later is after the last year
chrono can hold, 262142 (for requests without a key; with one, encryption has its own errors). -/
theorem c47_clock (P : Prims) (M : CaseMap) (g : Cfg) (e : Env) (username : List Char) (o : Options) :
    createAsReq P M g e username none o = .error .panic ↔
      262142 < (later e.rtimeNow).date.year ∨ 262142 < (later e.tillNow).date.year := by
  have key : ∀ t, addTwentyYears t = if 262142 < (later t).date.year then .error .panic else .ok (later t) := by
    intro t
    have := chronoMax_iff (later t)
    by_cases h : t.secs + twentyYears ≤ chronoMax
    · rw [addTwentyYears_ok h, if_neg]
      have : (later t).secs ≤ chronoMax := h
      omega
    · rw [if_pos]
      · unfold addTwentyYears; rw [if_neg h]
      · have : ¬ (later t).secs ≤ chronoMax := h
        omega
  unfold createAsReq
  rw [key, key]
  by_cases h1 : 262142 < (later e.rtimeNow).date.year
  · rw [if_pos h1]; simp [h1, bind, Except.bind]
  · rw [if_neg h1]
    by_cases h2 : 262142 < (later e.tillNow).date.year
    · rw [if_pos h2]; simp [h2, bind, Except.bind]
    · rw [if_neg h2]; simp [h1, h2, bind, Except.bind, pure, Except.pure]

/-- the clock condition of `EnvOk` in years -/
theorem c47_clock_ok (e : Env) (he : EnvOk e) : (later e.rtimeNow).date.year ≤ 262142 ∧ (later e.tillNow).date.year ≤ 262142 :=
  ⟨(chronoMax_iff _).1 he.rtime, (chronoMax_iff _).1 he.till⟩

/-- the type and key bytes used for pre-authentication: a cipher key is used as it is; a password with the strongest
configured type, salted with realm and user name unless that type is RC4 -/
def PreauthKey (P : Prims) (M : CaseMap) (o : Options) (username : List Char) : Key → Int32 → Bytes → Prop
  | .secret pw, et, kb => [18, 17, 23].find? (fun t => decide (t ∈ o.etypes)) = some et ∧
      ∃ c, newKerberosCipher et = .ok c ∧
        c.generateKeyFromString P pw (if et = 23 then [] else calculateAesSalt M o.realm username) = .ok kb
  | .rc4Key k, et, kb => et = 23 ∧ kb = k
  | .aes128Key k, et, kb => et = 17 ∧ kb = k
  | .aes256Key k, et, kb => et = 18 ∧ kb = k

theorem liftX_ok {α} {x : Except CErr α} {a} : liftX x = .ok a ↔ x = .ok a := by
  cases x with
  | ok b => simp [liftX]
  | error e => cases e <;> simp [liftX]

theorem mem_sorted (o : Options) (t : Int32) (ht : t ∈ [18, 17, 23]) : o.sortedEtypes.contains t = true ↔ t ∈ o.etypes := by
  rw [(c46_order o).1]
  simp [List.mem_filter] at ht ⊢
  intro _; exact ht

theorem find_sorted (o : Options) (et : Int32) : [18, 17, 23].find? (fun t => decide (t ∈ o.etypes)) = some et ↔
    (18 ∈ o.etypes ∧ et = 18) ∨ (18 ∉ o.etypes ∧ 17 ∈ o.etypes ∧ et = 17) ∨
    (18 ∉ o.etypes ∧ 17 ∉ o.etypes ∧ 23 ∈ o.etypes ∧ et = 23) := by
  by_cases h1 : (18 : Int32) ∈ o.etypes
  · simp [List.find?, h1, eq_comm]
  · by_cases h2 : (17 : Int32) ∈ o.etypes
    · simp [List.find?, h1, h2, eq_comm]
    · by_cases h3 : (23 : Int32) ∈ o.etypes
      · simp [List.find?, h1, h2, h3, eq_comm]
      · simp [List.find?, h1, h2, h3]

theorem withKey_spec {P g} {e : Env} {et : Int32} {c : Cipher} {kb : Bytes} (hc : newKerberosCipher et = .ok c) :
    encryptTimestampWithKey P g e et kb =
      (liftX (c.encrypt P kb 1 (MsgType.build g .paEncTsEnc (PaEncTsEnc.ofTime e.stampNow)) (e.confounder c.preambleSize))
        >>= fun d => .ok (et, d)) := by
  unfold encryptTimestampWithKey
  rw [hc]; rfl

theorem withPassword_spec {P g} {e : Env} {et : Int32} {c : Cipher} {kb : Bytes} {pw salt} (hc : newKerberosCipher et = .ok c)
    (hk : c.generateKeyFromString P pw salt = .ok kb) :
    encryptTimestampWithPassword P g e et pw salt = encryptTimestampWithKey P g e et kb := by
  rw [withKey_spec hc]
  unfold encryptTimestampWithPassword
  rw [hc]
  simp only [Cipher.generateKeyFromStringAndEncrypt, hk, liftX, bind, Except.bind, pure, Except.pure]
  rfl

/-- the timestamp is encrypted with the pre-authentication key -/
theorem encryptedTimestamp_preauth {P M g} {e : Env} {o : Options} {username : List Char} {k : Key} {et kb}
    (h : PreauthKey P M o username k et kb) :
    encryptedTimestamp P M g e o.realm username k o.sortedEtypes = encryptTimestampWithKey P g e et kb := by
  cases k with
  | rc4Key k => obtain ⟨rfl, rfl⟩ := h; rfl
  | aes128Key k => obtain ⟨rfl, rfl⟩ := h; rfl
  | aes256Key k => obtain ⟨rfl, rfl⟩ := h; rfl
  | secret pw =>
    obtain ⟨h1, c, h2, h3⟩ := h
    have a18 := mem_sorted o 18 (by simp)
    have a17 := mem_sorted o 17 (by simp)
    have a23 := mem_sorted o 23 (by simp)
    show (if o.sortedEtypes.contains 18 then _ else if o.sortedEtypes.contains 17 then _ else
      if o.sortedEtypes.contains 23 then _ else _) = _
    rcases (find_sorted o et).1 h1 with ⟨b1, rfl⟩ | ⟨b1, b2, rfl⟩ | ⟨b1, b2, b3, rfl⟩
    · rw [if_pos (a18.2 b1)]
      exact withPassword_spec h2 h3
    · rw [if_neg (fun h => b1 (a18.1 h)), if_pos (a17.2 b2)]
      exact withPassword_spec h2 h3
    · rw [if_neg (fun h => b1 (a18.1 h)), if_neg (fun h => b2 (a17.1 h)), if_pos (a23.2 b3)]
      exact withPassword_spec h2 h3

/-- a pre-authentication key exists unless the key is a password and no type is configured; it fits its cipher -/
theorem preauth_exists {P : Prims} (hP : P.Lawful) (M : CaseMap) (o : Options) (username : List Char) (k : Key) (hk : k.WF) :
    ((∃ pw, k = .secret pw) ∧ (∀ t ∈ [18, 17, 23], t ∉ o.etypes)) ∨
    ∃ et kb c, PreauthKey P M o username k et kb ∧ newKerberosCipher et = .ok c ∧ c.keyOk kb := by
  cases k with
  | rc4Key k => exact .inr ⟨23, k, .rc4, ⟨rfl, rfl⟩, rfl, trivial⟩
  | aes128Key k => exact .inr ⟨17, k, .aes .aes128, ⟨rfl, rfl⟩, rfl, hk⟩
  | aes256Key k => exact .inr ⟨18, k, .aes .aes256, ⟨rfl, rfl⟩, rfl, hk⟩
  | secret pw =>
    cases hf : [18, 17, 23].find? (fun t => decide (t ∈ o.etypes)) with
    | none =>
      left
      refine ⟨⟨pw, rfl⟩, ?_⟩
      intro t ht
      have := List.find?_eq_none.1 hf t ht
      simpa using this
    | some et =>
      right
      have hm : et ∈ [18, 17, 23] := List.mem_of_find?_eq_some hf
      obtain ⟨c, hc⟩ : ∃ c, newKerberosCipher et = .ok c := (Crypto.c35_factory et).2.1.2 (by simpa using hm)
      obtain ⟨kb, h1, h2, -⟩ := Crypto.c33_generated_key_from_string P hP c pw
        (if et = 23 then [] else calculateAesSalt M o.realm username)
      exact ⟨et, kb, c, ⟨hf, c, hc, h1⟩, hc, h2⟩

/-- C47. With a key: the request says what was configured, offers the single type of the key used, and carries the
current time encrypted under that key with usage 1, which the KDC's decryption recovers. -/
theorem c47_with_key (P : Prims) (hP : P.Lawful) (M : CaseMap) (g : Cfg) (e : Env) (he : EnvOk e) (username : List Char)
    (o : Options) (k : Key) (hk : k.WF) (hne : (∃ pw, k = .secret pw) → ∃ t ∈ [18, 17, 23], t ∈ o.etypes) :
    ∃ r et kb c data, createAsReq P M g e username (some k) o = .ok r ∧ Asks e username o r ∧
      PreauthKey P M o username k et kb ∧ newKerberosCipher et = .ok c ∧ r.req_body.etypes = [et] ∧
      r.padata = some (pacRequest g o ++ [⟨2, MsgType.build g .encryptedData ⟨et, none, data⟩⟩]) ∧
      c.decrypt P kb 1 data = .ok (MsgType.build g .paEncTsEnc (PaEncTsEnc.ofTime e.stampNow)) := by
  rcases preauth_exists hP M o username k hk with ⟨h1, h2⟩ | ⟨et, kb, c, h1, h2, h3⟩
  · obtain ⟨t, h3, h4⟩ := hne h1
    exact absurd h4 (h2 t h3)
  · obtain ⟨data, hd, hdec⟩ := Crypto.c26_cipher_roundtrip P hP c kb h3 1
      (MsgType.build g .paEncTsEnc (PaEncTsEnc.ofTime e.stampNow)) (e.confounder c.preambleSize) (he.confounder _)
    have hx : encryptedTimestamp P M g e o.realm username k o.sortedEtypes = .ok (et, data) := by
      rw [encryptedTimestamp_preauth h1, withKey_spec h2, hd]; rfl
    refine ⟨_, et, kb, c, data, ?_, asks_intro _ _, h1, h2, rfl, rfl, hdec⟩
    rw [createAsReq_eq he]
    simp only [hx]
    rfl

/-- C47. The one configuration that cannot be pre-authenticated: a password and no encryption type. -/
theorem c47_no_etype (P : Prims) (M : CaseMap) (g : Cfg) (e : Env) (he : EnvOk e) (username pw : List Char) (o : Options)
    (h : ∀ t ∈ [18, 17, 23], t ∉ o.etypes) :
    createAsReq P M g e username (some (.secret pw)) o = .error .noProvidedSupportedCipherAlgorithm := by
  rw [createAsReq_eq he]
  have hn : ∀ t : Int32, t ∈ [18, 17, 23] → o.sortedEtypes.contains t = false := by
    intro t ht
    cases hc : o.sortedEtypes.contains t with
    | false => rfl
    | true => exact absurd ((mem_sorted o t ht).1 hc) (h t ht)
  have : encryptedTimestamp P M g e o.realm username (.secret pw) o.sortedEtypes = .error .noProvidedSupportedCipherAlgorithm := by
    show (if o.sortedEtypes.contains 18 then _ else if o.sortedEtypes.contains 17 then _ else
      if o.sortedEtypes.contains 23 then _ else _) = _
    rw [hn 18 (by simp), hn 17 (by simp), hn 23 (by simp)]
    rfl
  simp only [this]
  rfl

/-- truncation of the two times to whole seconds, which is what the wire format holds -/
def truncReq (r : AsReq) : AsReq :=
  { r with req_body := { r.req_body with
      till := ⟨r.req_body.till.secs, 0⟩, rtime := r.req_body.rtime.map (fun t => ⟨t.secs, 0⟩) } }

/-- C47. On the wire: whoever parses the sent bytes reads the request, with times in whole seconds. -/
theorem c47_wire (P : Prims) (M : CaseMap) (g : Cfg) (e : Env) (username : List Char) (key : Option Key)
    (o : Options) (r : AsReq) (raw : Bytes) (hr : createAsReq P M g e username key o = .ok r)
    (hraw : buildAsReq P M g e username key o = .ok raw)
    (hy : ∀ t, t = e.tillNow ∨ t = e.rtimeNow → 0 ≤ (later t).date.year ∧ (later t).date.year ≤ 9999)
    (he : EnvOk e) (hs : raw.length < 2^64) : MsgType.parse g .asReq raw = .ok (truncReq r, []) := by
  have hb : raw = MsgType.build g .asReq r := by
    unfold buildAsReq at hraw
    rw [hr] at hraw
    injection hraw with hraw
    exact hraw.symm
  obtain ⟨pd, ets, hr'⟩ : ∃ pd ets, r = ⟨5, 10, pd, ⟨o.kdc_options, some ⟨1, [username]⟩, o.realm,
      some ⟨2, ["krbtgt".toList, o.realm]⟩, none, later e.tillNow, some (later e.rtimeNow), e.nonce, ets, none, none,
      none⟩⟩ := by
    rw [createAsReq_eq he] at hr
    cases key with
    | none => injection hr with hr; exact ⟨_, _, hr.symm⟩
    | some k =>
      simp only [bind, Except.bind] at hr
      cases hx : encryptedTimestamp P M g e o.realm username k o.sortedEtypes with
      | error x => rw [hx] at hr; cases hr
      | ok x => rw [hx] at hr; injection hr with hr; exact ⟨_, _, hr.symm⟩
  have e1 : MsgType.build g .asReq r = MsgType.build g .asReq (truncReq r) := by
    subst hr'
    simp only [MsgType.build_der]
    rfl
  have hw : AsReq.WF (truncReq r) := by
    subst hr'
    have h1 := hy _ (.inl rfl)
    have h2 := hy _ (.inr rfl)
    refine ⟨fun _ h => absurd h (Option.some_ne_none _).symm, ⟨rfl, h1⟩, fun t ht => ?_⟩
    have ht := Option.some.inj ht
    subst ht
    exact ⟨rfl, h2⟩
  rw [hb, e1] at hs ⊢
  have := c39_roundtrip g .asReq (truncReq r) hw hs []
  rwa [List.append_nil] at this

end Verif.Kb
