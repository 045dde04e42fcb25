import Verif.ResourceModel
import Verif.Props.Transport
/-
Property theorems C80: memory reserved for answers.
-/
namespace Verif.Kb

/-- C80. Over TCP the buffer for the answer has the announced size as soon as four bytes of answer are there, whatever
follows. -/
theorem c80_tcp (t : TcpRun) (request : Bytes) (ho : RequestOut t request) :
    tcpReserved t request = if 4 ≤ (delivered t.reads).length then announced (delivered t.reads) else 0 := by
  obtain ⟨hc, hw⟩ := ho
  unfold tcpReserved
  rw [if_neg (by rw [hc]; exact fun h => nomatch h)]
  rcases h1 : writeAll t.writes (setSizeHeader request) with ⟨x, w⟩
  rw [h1] at hw
  dsimp only at hw
  subst hw
  dsimp only
  by_cases h4 : 4 ≤ (delivered t.reads).length
  · rw [if_pos h4]
    obtain ⟨es, h2, -⟩ := readExact_enough t.reads 4 h4
    rw [h2]
    dsimp only
    rw [announced_eq, announced_take _ h4]
  · rw [if_neg h4]
    have h2 := readExact_short t.reads 4 (by omega)
    rcases h5 : readExact t.reads 4 with ⟨y, l, es⟩
    rw [h5] at h2
    dsimp only at h2 ⊢
    cases y with
    | done =>
      by_cases hs : Silent t.reads
      · cases h2.1 hs
      · cases h2.2 hs
    | _ => rfl

/-- C80. Nothing is reserved before the connection stands and the request is out. -/
theorem c80_tcp_before (t : TcpRun) (request : Bytes) (ho : ¬ RequestOut t request) : tcpReserved t request = 0 := by
  unfold tcpReserved
  split
  · rfl
  · next hc =>
    rcases h1 : writeAll t.writes (setSizeHeader request) with ⟨x, w⟩
    cases x with
    | done => exact absurd ⟨by simpa using hc, by rw [h1]⟩ ho
    | failed => rfl
    | cut => rfl

/-- C80. Expected: memory is bounded by what the peer sent, for some bound. Violated over TCP: four bytes, and the end of
the connection right after them, make the client reserve any number of bytes up to 2^32 - 1, for any request. -/
theorem c80_tcp_violated (request : Bytes) (n : Nat) (h : n < 2^32) :
    ∃ t : TcpRun, (delivered t.reads).length = 4 ∧ tcpReserved t request = n ∧
      (0 < n → (tcpExchange t request).1 = some (.error .network)) := by
  refine ⟨⟨true, [.accept (setSizeHeader request).length], [.data (be32 (UInt32.ofNat n)), .fail]⟩, rfl, ?_, ?_⟩
  · have ho : RequestOut ⟨true, [.accept (setSizeHeader request).length], [.data (be32 (UInt32.ofNat n)), .fail]⟩ request := by
      refine ⟨rfl, ?_⟩
      have hl : (setSizeHeader request).length ≠ 0 := by simp [setSizeHeader]
      generalize setSizeHeader request = s at *
      match s, hl with
      | b :: bs, hl =>
        show (if (b :: bs).length = 0 then _ else _ : Ended × Bytes).1 = _
        rw [if_neg hl, List.drop_length]
        rfl
    rw [c80_tcp _ _ ho]
    have hd : delivered [.data (be32 (UInt32.ofNat n)), .fail] = be32 (UInt32.ofNat n) := rfl
    dsimp only
    rw [hd, if_pos (by simp)]
    have := announced_be32 n h []
    rwa [List.append_nil] at this
  · intro hn
    have ho : RequestOut ⟨true, [.accept (setSizeHeader request).length], [.data (be32 (UInt32.ofNat n)), .fail]⟩ request := by
      refine ⟨rfl, ?_⟩
      have hl : (setSizeHeader request).length ≠ 0 := by simp [setSizeHeader]
      generalize setSizeHeader request = s at *
      match s, hl with
      | b :: bs, hl =>
        show (if (b :: bs).length = 0 then _ else _ : Ended × Bytes).1 = _
        rw [if_neg hl, List.drop_length]
        rfl
    have hd : delivered [.data (be32 (UInt32.ofNat n)), .fail] = be32 (UInt32.ofNat n) := rfl
    have ha := announced_be32 n h []
    rw [List.append_nil] at ha
    refine (c55_answer _ _ ho).2.1 ?_ ?_
    · dsimp only
      rw [hd]
      rintro ⟨-, h2⟩
      rw [ha] at h2
      have : (be32 (UInt32.ofNat n)).length = 4 := by simp
      omega
    · dsimp only
      intro hs
      simp [Silent] at hs

theorem peekLoop_size (ok : Nat → Bool) (d : Nat) (i n : Nat) (hn : 0 < n) :
    (peekLoop ok d i n hn).2 = n ∨ (peekLoop ok d i n hn).2 ≤ 2 * d := by
  induction hm : d + 1 - n using Nat.strongRecOn generalizing i n with
  | _ m ih =>
    rw [peekLoop]
    by_cases h1 : ok i = false
    · rw [if_pos h1]; exact .inl rfl
    · rw [if_neg h1]
      by_cases h2 : min n d = n
      · rw [if_pos h2]
        have hnd : n ≤ d := by rw [Nat.min_def] at h2; split at h2 <;> omega
        rcases ih (d + 1 - (n + n)) (by omega) (i + 1) (n + n) (by omega) rfl with c | c
        · exact .inr (by omega)
        · exact .inr c
      · rw [if_neg h2]; exact .inl rfl

/-- C80. Over UDP the largest buffer is the first one or at most twice the size of the datagram, also if calls fail. -/
theorem c80_udp (u : UdpRun) : udpReserved u ≤ 2048 ∨ ∃ d, u.datagram = some d ∧ udpReserved u ≤ 2 * d.length := by
  unfold udpReserved
  split
  · exact .inl (by omega)
  · split
    · exact .inl (Nat.le_refl _)
    · next d hd =>
      rcases peekLoop_size u.peek d.length 0 2048 (by omega) with h | h
      · exact .inl (by omega)
      · exact .inr ⟨d, hd, h⟩

/-! ### Examples -/

example : ¬ RequestOut ⟨false, [.accept 7], [.data [0, 0, 1, 0]]⟩ [1, 2, 3] := fun h => nomatch h.1

example : RequestOut ⟨true, [.accept 7], [.data [255, 255, 255, 255], .fail]⟩ [1, 2, 3] ∧
    tcpReserved ⟨true, [.accept 7], [.data [255, 255, 255, 255], .fail]⟩ [1, 2, 3] = 4294967295 :=
  ⟨⟨rfl, by decide +kernel⟩, by decide +kernel⟩
example : udpReserved ⟨true, true, true, fun _ => true, true, some (List.replicate 3000 7)⟩ = 4096 := by decide +kernel

end Verif.Kb
