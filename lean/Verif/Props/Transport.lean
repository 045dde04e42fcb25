import Verif.TransportModel
import Verif.Props.Dialogue
/-
Property theorems C55, C56, C58 and the transport part of C57.
-/
set_option linter.unusedSimpArgs false
namespace Verif.Kb
open Verif.Asn1
open Verif.Crypto (Prims Key CaseMap)

/-! ### Specification of a stream -/

/-- the bytes a stream delivers before it ends, breaks or falls silent, however they are cut into pieces -/
def delivered : List ReadEvent → Bytes
  | [] => []
  | .interrupted :: es => delivered es
  | .fail :: _ => []
  | .data b :: es => if b = [] then [] else b ++ delivered es

/-- does the stream fall silent for ever (without ending or breaking) after those bytes -/
def Silent : List ReadEvent → Prop
  | [] => True
  | .interrupted :: es => Silent es
  | .fail :: _ => False
  | .data b :: es => b ≠ [] ∧ Silent es

/-! ### C55: TCP -/

theorem readExact_enough (es : List ReadEvent) (n : Nat) (h : n ≤ (delivered es).length) :
    ∃ es', readExact es n = (.done, (delivered es).take n, es') ∧ delivered es' = (delivered es).drop n ∧
      (Silent es' ↔ Silent es) := by
  induction es generalizing n with
  | nil =>
    have : n = 0 := by simpa [delivered] using h
    subst this
    exact ⟨[], rfl, rfl, Iff.rfl⟩
  | cons e es ih =>
    cases n with
    | zero => exact ⟨e :: es, by simp [readExact], by simp, Iff.rfl⟩
    | succ n =>
      cases e with
      | interrupted =>
        obtain ⟨es', h1, h2, h3⟩ := ih (n + 1) h
        exact ⟨es', by rw [readExact]; exact h1, h2, h3⟩
      | fail => simp [delivered] at h
      | data b =>
        by_cases hb : b = []
        · simp [delivered, hb] at h
        · have hd : delivered (.data b :: es) = b ++ delivered es := by simp [delivered, hb]
          have hbl : b.length ≠ 0 := fun h => hb (List.eq_nil_of_length_eq_zero h)
          rw [hd] at h ⊢
          rw [readExact, if_neg hbl]
          by_cases hle : b.length ≤ n + 1
          · rw [if_pos hle]
            obtain ⟨es', h1, h2, h3⟩ := ih (n + 1 - b.length) (by rw [List.length_append] at h; omega)
            refine ⟨es', ?_, ?_, ?_⟩
            · simp only [h1]
              rw [List.take_append, List.take_of_length_le hle]
            · rw [h2, List.drop_append, List.drop_eq_nil_of_le hle, List.nil_append]
            · rw [h3]; simp [Silent, hb]
          · rw [if_neg hle]
            have hdr : b.drop (n + 1) ≠ [] := fun h => by
              have := congrArg List.length h
              rw [List.length_drop, List.length_nil] at this; omega
            refine ⟨.data (b.drop (n + 1)) :: es, ?_, ?_, ?_⟩
            · exact congrArg (fun x => (Ended.done, x, ReadEvent.data (b.drop (n + 1)) :: es))
                (by rw [List.take_append_of_le_length (by omega)])
            · simp only [delivered, if_neg hdr]
              rw [List.drop_append_of_le_length (by omega)]
            · simp [Silent, hb, hdr]

theorem readExact_short (es : List ReadEvent) (n : Nat) (h : (delivered es).length < n) :
    (Silent es → (readExact es n).1 = .cut) ∧ (¬ Silent es → (readExact es n).1 = .failed) := by
  induction es generalizing n with
  | nil =>
    cases n with
    | zero => simp [delivered] at h
    | succ n => exact ⟨fun _ => rfl, fun h => absurd trivial h⟩
  | cons e es ih =>
    cases n with
    | zero => omega
    | succ n =>
      cases e with
      | interrupted =>
        obtain ⟨h1, h2⟩ := ih (n + 1) h
        refine ⟨fun hs => ?_, fun hs => ?_⟩
        · rw [readExact]; exact h1 hs
        · rw [readExact]; exact h2 hs
      | fail => exact ⟨fun hs => hs.elim, fun _ => by rw [readExact]⟩
      | data b =>
        by_cases hb : b = []
        · subst hb
          exact ⟨fun hs => absurd rfl hs.1, fun _ => by simp [readExact]⟩
        · have hd : delivered (.data b :: es) = b ++ delivered es := by simp [delivered, hb]
          have hbl : b.length ≠ 0 := fun h => hb (List.eq_nil_of_length_eq_zero h)
          rw [hd, List.length_append] at h
          rw [readExact, if_neg hbl, if_pos (by omega)]
          obtain ⟨h1, h2⟩ := ih (n + 1 - b.length) (by omega)
          exact ⟨fun hs => h1 hs.2, fun hs => h2 (fun h => hs ⟨hb, h⟩)⟩

/-- the number in the four length bytes -/
def announced (b : Bytes) : Nat :=
  (b.getD 0 0).toNat * 2^24 + (b.getD 1 0).toNat * 2^16 + (b.getD 2 0).toNat * 2^8 + (b.getD 3 0).toNat

theorem announced_eq (b : Bytes) : (ofBe32 (b.getD 0 0) (b.getD 1 0) (b.getD 2 0) (b.getD 3 0)).toNat = announced b := by
  have h0 := (b.getD 0 0).toNat_lt; have h1 := (b.getD 1 0).toNat_lt
  have h2 := (b.getD 2 0).toNat_lt; have h3 := (b.getD 3 0).toNat_lt
  unfold ofBe32 announced
  rw [u32_toNat_ofNat]
  omega

theorem announced_take (b : Bytes) (h : 4 ≤ b.length) : announced (b.take 4) = announced b := by
  match b, h with
  | a :: b :: c :: d :: _, _ => rfl

theorem announced_be32 (n : Nat) (h : n < 2^32) (rest : Bytes) : announced (be32 (UInt32.ofNat n) ++ rest) = n := by
  rw [← announced_take _ (by simp), List.take_append_of_le_length (by simp), List.take_of_length_le (by simp), ← announced_eq]
  have := ofBe32_be32 (UInt32.ofNat n)
  show (ofBe32 (UInt8.ofNat ((UInt32.ofNat n).toNat / 16777216)) (UInt8.ofNat ((UInt32.ofNat n).toNat / 65536))
    (UInt8.ofNat ((UInt32.ofNat n).toNat / 256)) (UInt8.ofNat (UInt32.ofNat n).toNat)).toNat = n
  rw [this, u32_toNat_ofNat]
  omega

/-- everything up to and including the request was handed to the operating system -/
def RequestOut (t : TcpRun) (request : Bytes) : Prop :=
  t.connect = true ∧ (writeAll t.writes (setSizeHeader request)).1 = .done

/-- C55. What goes out is a prefix of the framed request: four bytes of length, big-endian, then the request; all of it
before anything is read. -/
theorem c55_request (t : TcpRun) (request : Bytes) :
    (∃ k, (tcpExchange t request).2 = (be32 (UInt32.ofNat request.length) ++ request).take k) ∧
    (RequestOut t request → (tcpExchange t request).2 = be32 (UInt32.ofNat request.length) ++ request) ∧
    (¬ RequestOut t request → ∀ a, (tcpExchange t request).1 ≠ some (.ok a)) := by
  obtain ⟨k, h1, h2, h3⟩ := writeAll_spec t.writes (setSizeHeader request)
  have snd : t.connect = true → (tcpExchange t request).2 = (writeAll t.writes (setSizeHeader request)).2 := by
    intro hc
    unfold tcpExchange
    rw [if_neg (by rw [hc]; exact fun h => nomatch h)]
    rcases writeAll t.writes (setSizeHeader request) with ⟨x, w⟩
    cases x with
    | failed => rfl
    | cut => rfl
    | done =>
      simp only
      rcases readExact t.reads 4 with ⟨y, l, es⟩
      cases y with
      | failed => rfl
      | cut => rfl
      | done =>
        simp only
        rcases readExact es _ with ⟨z, r, es'⟩
        cases z <;> rfl
  have nc : t.connect = false → tcpExchange t request = (some (.error .network), []) := by
    intro hc
    unfold tcpExchange
    rw [if_pos hc]
  refine ⟨?_, ?_, ?_⟩
  · cases hc : t.connect with
    | true => exact ⟨k, (snd hc).trans h2⟩
    | false => exact ⟨0, by rw [nc hc]; rfl⟩
  · rintro ⟨hc, hd⟩
    rw [snd hc, h2, h3 hd, List.take_length]; rfl
  · intro hn a
    cases hc : t.connect with
    | false => rw [nc hc]; exact fun h => nomatch (Option.some.inj h)
    | true =>
      have hd : (writeAll t.writes (setSizeHeader request)).1 ≠ .done := fun h => hn ⟨hc, h⟩
      unfold tcpExchange
      rw [if_neg (by rw [hc]; exact fun h => nomatch h)]
      revert hd
      rcases writeAll t.writes (setSizeHeader request) with ⟨x, w⟩
      intro hd
      cases x with
      | failed => exact fun h => nomatch (Option.some.inj h)
      | cut => exact fun h => nomatch h
      | done => exact absurd rfl hd

/-- C55. A KDC that splits the outgoing stream by the length field finds the request (if shorter than 2^32 bytes). -/
theorem c55_framing (request rest : Bytes) (h : request.length < 2^32) :
    announced (setSizeHeader request ++ rest) = request.length ∧
    ((setSizeHeader request ++ rest).drop 4).take (announced (setSizeHeader request ++ rest)) = request := by
  have e : setSizeHeader request ++ rest = be32 (UInt32.ofNat request.length) ++ (request ++ rest) := by
    simp [setSizeHeader]
  have h1 : announced (setSizeHeader request ++ rest) = request.length := by rw [e, announced_be32 _ h]
  refine ⟨h1, ?_⟩
  rw [h1, e, List.drop_left' (by simp), List.take_left' rfl]

/-- the stream holds a whole answer: four bytes of length and that many bytes -/
def HasAnswer (s : Bytes) : Prop := 4 ≤ s.length ∧ 4 + announced s ≤ s.length

/-- C55. What comes back depends only on the bytes the stream delivers and on how it stops after them, not on how they
are cut: if they hold a whole answer, exactly the announced bytes; otherwise the network error if the stream ends or
breaks, and no return at all if it falls silent. -/
theorem c55_answer (t : TcpRun) (request : Bytes) (ho : RequestOut t request) :
    (HasAnswer (delivered t.reads) → (tcpExchange t request).1 =
      some (.ok (((delivered t.reads).drop 4).take (announced (delivered t.reads))))) ∧
    (¬ HasAnswer (delivered t.reads) → ¬ Silent t.reads → (tcpExchange t request).1 = some (.error .network)) ∧
    (¬ HasAnswer (delivered t.reads) → Silent t.reads → (tcpExchange t request).1 = none) := by
  obtain ⟨hc, hw⟩ := ho
  have step : (tcpExchange t request).1 = (match readExact t.reads 4 with
      | (.failed, _, _) => some (.error .network)
      | (.cut, _, _) => none
      | (.done, l, es) => match readExact es (announced l) with
        | (.failed, _, _) => some (.error .network)
        | (.cut, _, _) => none
        | (.done, r, _) => some (.ok r)) := by
    unfold tcpExchange
    rw [if_neg (by rw [hc]; exact fun h => nomatch h)]
    revert hw
    rcases writeAll t.writes (setSizeHeader request) with ⟨x, w⟩
    rintro rfl
    simp only [announced_eq]
    rcases readExact t.reads 4 with ⟨y, l, es⟩
    cases y with
    | failed => rfl
    | cut => rfl
    | done =>
      simp only
      rcases readExact es (announced l) with ⟨z, r, es'⟩
      cases z <;> rfl
  rw [step]
  by_cases h4 : 4 ≤ (delivered t.reads).length
  · obtain ⟨es, h1, h2, h3⟩ := readExact_enough t.reads 4 h4
    rw [h1]
    simp only [announced_take _ h4]
    by_cases ha : HasAnswer (delivered t.reads)
    · obtain ⟨es', h5, -⟩ := readExact_enough es (announced (delivered t.reads)) (by
        rw [h2, List.length_drop]; have := ha.2; omega)
      rw [h5, h2]
      exact ⟨fun _ => rfl, fun h => absurd ha h, fun h => absurd ha h⟩
    · have hs := readExact_short es (announced (delivered t.reads)) (by
        rw [h2, List.length_drop]
        apply Classical.byContradiction
        intro h
        exact ha ⟨h4, by omega⟩)
      rw [h3] at hs
      refine ⟨fun h => absurd h ha, fun _ hn => ?_, fun _ hn => ?_⟩
      · have := hs.2 hn
        revert this
        rcases readExact es (announced (delivered t.reads)) with ⟨z, r, es'⟩
        rintro rfl; rfl
      · have := hs.1 hn
        revert this
        rcases readExact es (announced (delivered t.reads)) with ⟨z, r, es'⟩
        rintro rfl; rfl
  · have hs := readExact_short t.reads 4 (by omega)
    refine ⟨fun h => absurd h.1 h4, fun _ hn => ?_, fun _ hn => ?_⟩
    · have := hs.2 hn
      revert this
      rcases readExact t.reads 4 with ⟨z, r, es'⟩
      rintro rfl; rfl
    · have := hs.1 hn
      revert this
      rcases readExact t.reads 4 with ⟨z, r, es'⟩
      rintro rfl; rfl

/-- C55. Segmentation does not matter: streams delivering the same bytes and stopping alike give the same result. -/
theorem c55_segmentation (t t' : TcpRun) (request : Bytes) (ho : RequestOut t request) (ho' : RequestOut t' request)
    (hd : delivered t.reads = delivered t'.reads) (hs : Silent t.reads ↔ Silent t'.reads) :
    (tcpExchange t request).1 = (tcpExchange t' request).1 := by
  have h := c55_answer t request ho
  have h' := c55_answer t' request ho'
  rw [hd] at h
  by_cases ha : HasAnswer (delivered t'.reads)
  · rw [h.1 ha, h'.1 ha]
  · by_cases hss : Silent t'.reads
    · rw [h.2.2 ha (hs.2 hss), h'.2.2 ha hss]
    · rw [h.2.1 ha (fun x => hss (hs.1 x)), h'.2.1 ha hss]

/-- C55. A peer that frames its answer the same way is understood, in any pieces and whatever follows. -/
theorem c55_roundtrip (t : TcpRun) (request answer rest : Bytes) (ho : RequestOut t request) (hl : answer.length < 2^32)
    (hd : delivered t.reads = be32 (UInt32.ofNat answer.length) ++ answer ++ rest) :
    (tcpExchange t request).1 = some (.ok answer) := by
  have ha : announced (delivered t.reads) = answer.length := by
    rw [hd, List.append_assoc, announced_be32 _ hl]
  have : HasAnswer (delivered t.reads) := by
    refine ⟨by rw [hd]; simp, ?_⟩
    rw [ha, hd]; simp
  rw [(c55_answer t request ho).1 this, ha, hd, List.append_assoc, List.drop_left' (by simp), List.take_left' rfl]

example : (tcpExchange ⟨true, [.accept 3, .interrupted, .accept 100],
    [.data [0, 0], .interrupted, .data [0, 3, 7], .data [8], .data [9, 10], .fail]⟩ [1, 2, 3]) =
    (some (.ok [7, 8, 9]), [0, 0, 0, 3, 1, 2, 3]) := by decide +kernel

/-! ### C56: UDP -/

theorem peekLoop_spec (ok : Nat → Bool) (d : Nat) (i n : Nat) (hn : 0 < n) :
    (∃ j, i ≤ j ∧ ok j = false ∧ (peekLoop ok d i n hn).1 = none) ∨
    ((peekLoop ok d i n hn).1 = some d ∧ d < (peekLoop ok d i n hn).2 ∧
      ((peekLoop ok d i n hn).2 = n ∨ (peekLoop ok d i n hn).2 ≤ 2 * d)) := by
  induction hm : d + 1 - n using Nat.strongRecOn generalizing i n with
  | _ m ih =>
    rw [peekLoop]
    by_cases h1 : ok i = false
    · rw [if_pos h1]; exact .inl ⟨i, Nat.le_refl _, h1, rfl⟩
    · rw [if_neg h1]
      by_cases h2 : min n d = n
      · rw [if_pos h2]
        have hnd : n ≤ d := by rw [Nat.min_def] at h2; split at h2 <;> omega
        rcases ih (d + 1 - (n + n)) (by omega) (i + 1) (n + n) (by omega) rfl with ⟨j, a, b, c⟩ | ⟨a, b, c⟩
        · exact .inl ⟨j, by omega, b, c⟩
        · refine .inr ⟨a, b, .inr ?_⟩
          rcases c with c | c <;> omega
      · rw [if_neg h2]
        have hnd : d < n := by rw [Nat.min_def] at h2; split at h2 <;> omega
        refine .inr ⟨?_, hnd, .inl rfl⟩
        rw [Nat.min_eq_right (by omega)]

/-- C56. If the calls succeed the answer is exactly the datagram that arrived, of whatever length, and the request goes
out as one datagram. -/
theorem c56_whole (u : UdpRun) (request d : Bytes) (h1 : u.bind = true) (h2 : u.connect = true) (h3 : u.send = true)
    (h4 : ∀ i, u.peek i = true) (h5 : u.recv = true) (hd : u.datagram = some d) :
    udpExchange u request = (some (.ok d), some request) := by
  unfold udpExchange
  rw [h1, h2, h3, h5, hd]
  simp only [Bool.true_eq_false, if_false]
  rcases peekLoop_spec u.peek d.length 0 2048 (by omega) with ⟨j, _, h, _⟩ | ⟨h, _⟩
  · rw [h4 j] at h; cases h
  · simp only [h, Nat.sub_self, List.take_length, List.replicate_zero, List.append_nil]

/-- C56. The buffer used for measuring is the initial one or at most twice as large as the datagram, and always larger
than it. -/
theorem c56_buffer (ok : Nat → Bool) (d : Nat) (h : ∀ i, ok i = true) :
    d < (peekLoop ok d 0 2048 (by omega)).2 ∧
    ((peekLoop ok d 0 2048 (by omega)).2 = 2048 ∨ (peekLoop ok d 0 2048 (by omega)).2 ≤ 2 * d) := by
  rcases peekLoop_spec ok d 0 2048 (by omega) with ⟨j, _, hj, _⟩ | ⟨_, hb, hc⟩
  · rw [h j] at hj; cases hj
  · exact ⟨hb, hc⟩

/-- C56. In every other case: the network error, or no return when nothing arrives; never other bytes. -/
theorem c56_results (u : UdpRun) (request : Bytes) :
    (∃ d, u.datagram = some d ∧ (udpExchange u request).1 = some (.ok d)) ∨
    (udpExchange u request).1 = some (.error .network) ∨
    (u.datagram = none ∧ (udpExchange u request).1 = none) := by
  unfold udpExchange
  by_cases h1 : u.bind = false
  · rw [if_pos h1]; exact .inr (.inl rfl)
  · rw [if_neg h1]
    by_cases h2 : u.connect = false
    · rw [if_pos h2]; exact .inr (.inl rfl)
    · rw [if_neg h2]
      by_cases h3 : u.send = false
      · rw [if_pos h3]; exact .inr (.inl rfl)
      · rw [if_neg h3]
        cases hd : u.datagram with
        | none =>
          by_cases h4 : u.peek 0 = false
          · rw [if_pos h4]; exact .inr (.inl rfl)
          · rw [if_neg h4]; exact .inr (.inr ⟨rfl, rfl⟩)
        | some d =>
          rcases peekLoop_spec u.peek d.length 0 2048 (by omega) with ⟨j, _, _, h⟩ | ⟨h, _⟩
          · simp only [h]; exact .inr (.inl trivial)
          · simp only [h]
            by_cases h5 : u.recv = false
            · rw [if_pos h5]; exact .inr (.inl rfl)
            · rw [if_neg h5]
              refine .inl ⟨d, rfl, ?_⟩
              simp only [Nat.sub_self, List.take_length, List.replicate_zero, List.append_nil]

/-- C56. What goes out: the whole request as one datagram if the socket is bound, connected and sends, otherwise nothing;
whatever happens afterwards. -/
theorem c56_request (u : UdpRun) (request : Bytes) :
    (udpExchange u request).2 = if u.bind ∧ u.connect ∧ u.send then some request else none := by
  unfold udpExchange
  cases u.bind with
  | false => simp
  | true =>
    cases u.connect with
    | false => simp
    | true =>
      cases u.send with
      | false => simp
      | true =>
        simp only [Bool.true_eq_false, if_false, and_self, if_true]
        cases u.datagram with
        | none => rfl
        | some d =>
          dsimp only
          cases (peekLoop u.peek d.length 0 2048 (by omega)).1 with
          | none => rfl
          | some n => dsimp only; split <;> rfl

/-- C56. The client waits for ever exactly if the request went out, no datagram comes and waiting for it does not fail (there is
no time limit). -/
theorem c56_waits_iff (u : UdpRun) (request : Bytes) :
    (udpExchange u request).1 = none ↔
      u.bind = true ∧ u.connect = true ∧ u.send = true ∧ u.datagram = none ∧ u.peek 0 = true := by
  unfold udpExchange
  cases u.bind with
  | false => simp
  | true =>
    cases u.connect with
    | false => simp
    | true =>
      cases u.send with
      | false => simp
      | true =>
        simp only [Bool.true_eq_false, if_false, true_and]
        cases u.datagram with
        | none => cases u.peek 0 <;> simp
        | some d =>
          dsimp only
          cases (peekLoop u.peek d.length 0 2048 (by omega)).1 with
          | none => simp
          | some n => cases u.recv <;> simp

/-- a datagram of exactly the initial buffer size takes a second peek with twice the size -/
example : peekLoop (fun _ => true) 2048 0 2048 (by omega) = (some 2048, 4096) := by
  rw [peekLoop, if_neg (by decide), if_pos (by decide), peekLoop, if_neg (by decide), if_neg (by decide)]; rfl

/-! ### C58: name resolution -/

/-- C58. -/
theorem c58_first (lookup : List Char → Option (List Bytes)) (realm : List Char) :
    (∀ ip rest, lookup realm = some (ip :: rest) → resolveRealmKdc lookup realm = .ok ip) ∧
    ((lookup realm = none ∨ lookup realm = some []) → resolveRealmKdc lookup realm = .error (.nameResolution realm)) := by
  refine ⟨?_, ?_⟩
  · intro ip rest h
    simp only [resolveRealmKdc, h]
  · rintro (h | h) <;> simp only [resolveRealmKdc, h]

example : resolveRealmKdc (fun _ => some [[10, 0, 0, 1], [10, 0, 0, 2]]) "R".toList = .ok [10, 0, 0, 1] := by decide +kernel

/-! ### C57: transport and dialogue -/

/-- C57. Every exchange of either protocol that returns gives an answer or the network error. -/
theorem c57_exchange (r : Run) (request : Bytes) :
    r.exchange request = none ∨ r.exchange request = some (.error .network) ∨ ∃ a, r.exchange request = some (.ok a) := by
  cases r with
  | udp u =>
    show (udpExchange u request).1 = _ ∨ (udpExchange u request).1 = _ ∨ _
    rcases c56_results u request with ⟨d, -, h⟩ | h | ⟨-, h⟩
    · exact .inr (.inr ⟨d, h⟩)
    · exact .inr (.inl h)
    · exact .inl h
  | tcp t =>
    show (tcpExchange t request).1 = _ ∨ (tcpExchange t request).1 = _ ∨ ∃ a, (tcpExchange t request).1 = _
    unfold tcpExchange
    by_cases hc : t.connect = false
    · rw [if_pos hc]; exact .inr (.inl rfl)
    · rw [if_neg hc]
      rcases writeAll t.writes (setSizeHeader request) with ⟨x, w⟩
      cases x with
      | failed => exact .inr (.inl rfl)
      | cut => exact .inl rfl
      | done =>
        simp only
        rcases readExact t.reads 4 with ⟨y, l, es⟩
        cases y with
        | failed => exact .inr (.inl rfl)
        | cut => exact .inl rfl
        | done =>
          simp only
          rcases readExact es _ with ⟨z, r, es'⟩
          cases z with
          | failed => exact .inr (.inl rfl)
          | cut => exact .inl rfl
          | done => exact .inr (.inr ⟨r, rfl⟩)

/-- C57. Through either transport: if the exchange of the last message sent fails, the request returns the network error. -/
theorem c57_transport {P : Prims} (hP : P.Lawful) (M : CaseMap) {g : Cfg} (hg : g.Total) (runs : List Bytes → Run)
    {e1 e2 : Env} (he1 : EnvOk e1) (username : List Char) (key : Option Key) (hk : ∀ k, key = some k → k.WF) (o : Options)
    (sent : List Bytes) (hs : (tgtRequest P M g (runsNet runs) e1 e2 username key o).2 = sent)
    (hf : (runs sent).exchange (sent.getLastD []) = some (.error .network)) :
    (tgtRequest P M g (runsNet runs) e1 e2 username key o).1 = .error .network := by
  have hn : runsNet runs sent = none := by
    unfold runsNet
    rw [hf]
  obtain ⟨req1, h1, h2, h3⟩ := c48_dialogue hP M hg (runsNet runs) username key hk o he1 (e2 := e2)
  by_cases hd : DemandsPreauth g (runsNet runs [req1]) ∧ key ≠ none
  · cases hkk : key with
    | none => exact absurd hkk hd.2
    | some k =>
      rw [hkk] at h3 hs
      cases hb : buildAsReq P M g e2 username (some k) o with
      | ok req2 =>
        obtain ⟨h4, h5⟩ := (h3 k rfl hd.1).1 req2 hb
        rw [hs] at h4
        subst h4
        rw [hn] at h5
        generalize (tgtRequest P M g (runsNet runs) e1 e2 username (some k) o).1 = res at h5
        cases h5; rfl
      | error x =>
        rw [(h3 k rfl hd.1).2 x hb] at hs
        have hs : [req1] = sent := hs
        subst hs
        obtain ⟨⟨a, err, ha, -⟩, -⟩ := hd
        rw [hn] at ha; cases ha
  · obtain ⟨h4, h5⟩ := h2 hd
    rw [hs] at h4
    subst h4
    rw [hn] at h5
    generalize (tgtRequest P M g (runsNet runs) e1 e2 username key o).1 = res at h5
    cases h5; rfl

end Verif.Kb
