import Verif.Props.Concurrent
/-
C86: reading a file while it is being saved.
-/
namespace Verif.Kb
open Verif.CC

/-- the savers' part of a schedule -/
def saves : List Event → List (Nat × FileCall)
  | [] => []
  | .save i c :: es => (i, c) :: saves es
  | .load _ :: es => saves es

/-- a reader changes nothing -/
theorem runWorld_fst (w : Shared × Reader) (schedule : List Event) : (runWorld w schedule).1 = runShared w.1 (saves schedule) := by
  induction schedule generalizing w with
  | nil => rfl
  | cons e es ih =>
    rw [runWorld, List.foldl_cons]
    refine (ih _).trans ?_
    cases e <;> rfl

theorem runShared_append (st : Shared) (a b : List (Nat × FileCall)) : runShared st (a ++ b) = runShared (runShared st a) b := by
  simp [runShared, List.foldl_append]
theorem runWorld_append (w : Shared × Reader) (a b : List Event) : runWorld w (a ++ b) = runWorld (runWorld w a) b := by
  simp [runWorld, List.foldl_append]
theorem saves_append (a b : List Event) : saves (a ++ b) = saves a ++ saves b := by
  induction a with
  | nil => rfl
  | cons e es ih => cases e <;> simp [saves, ih]

/-- C86. A reader gets, at each place, the byte of the old content, or one that some process had for that place, or zero. -/
theorem c86_bytes (before : Option Bytes) (datas : List Bytes) (schedule : List Event) (i : Nat) (b : UInt8)
    (h : (runWorld (savers before datas, reader) schedule).2.got[i]? = some b) :
    (∃ old, before = some old ∧ old[i]? = some b) ∨ b = 0 ∨ ∃ d ∈ datas, d[i]? = some b := by
  suffices hs : ∀ (pre post : List Event) (w : Shared × Reader), w = runWorld (savers before datas, reader) pre →
      (∀ (i : Nat) (b : UInt8), w.2.got[i]? = some b →
        (∃ old, before = some old ∧ old[i]? = some b) ∨ b = 0 ∨ ∃ d ∈ datas, d[i]? = some b) →
      ∀ (i : Nat) (b : UInt8), (runWorld w post).2.got[i]? = some b →
        (∃ old, before = some old ∧ old[i]? = some b) ∨ b = 0 ∨ ∃ d ∈ datas, d[i]? = some b from
    hs [] schedule _ rfl (fun i b hb => by simp [reader, runWorld] at hb) i b h
  intro pre post
  induction post generalizing pre with
  | nil => intro w _ hw i b hb; exact hw i b hb
  | cons e es ih =>
    intro w hw hinv i b hb
    refine ih (pre ++ [e]) (worldStep w e) (by rw [runWorld_append, ← hw]; rfl) ?_ i b hb
    intro i b hb
    cases e with
    | save j c => exact hinv i b hb
    | load c =>
      simp only [worldStep] at hb
      cases c with
      | opens =>
        simp only [readerStep] at hb
        split at hb
        · split at hb <;> exact hinv i b hb
        · exact hinv i b hb
      | readFails =>
        simp only [readerStep] at hb
        split at hb <;> exact hinv i b hb
      | read n =>
        simp only [readerStep] at hb
        split at hb
        · split at hb
          · exact hinv i b hb
          · dsimp only at hb
            rw [List.getElem?_append] at hb
            split at hb
            · exact hinv i b hb
            · next hlt =>
              rw [List.getElem?_take] at hb
              split at hb
              · rw [List.getElem?_drop] at hb
                have e : w.2.got.length + (i - w.2.got.length) = i := by omega
                rw [e] at hb
                have hf : w.1 = runShared (savers before datas) (saves pre) := by rw [hw, runWorld_fst]
                rcases c85_bytes before datas (saves pre) with ⟨h1, -⟩ | ⟨f, h1, h2⟩
                · rw [hf, h1] at hb
                  cases before with
                  | none => simp at hb
                  | some old => exact .inl ⟨old, rfl, hb⟩
                · rw [hf, h1] at hb
                  rcases h2.1 i b hb with h | h
                  · exact .inr (.inl h)
                  · exact .inr (.inr h)
              · cases hb
        · exact hinv i b hb

/-- a reader that is not disturbed, in the middle of its work -/
theorem run_reads (f : Bytes) (rs : List ReadCall) (st : Shared) (hf : st.file = some f) (r : Reader)
    (hr : r.phase = .reading) (hp : r.got = f.take r.got.length)
    (hd : (runWorld (st, r) (rs.map .load)).2.phase = .done) : (runWorld (st, r) (rs.map .load)).2.got = f := by
  have stay : ∀ (rs : List ReadCall) (r : Reader), r.phase = .done ∨ r.phase = .err → runWorld (st, r) (rs.map .load) = (st, r) := by
    intro rs
    induction rs with
    | nil => exact fun _ _ => rfl
    | cons c rs ih =>
      intro r hr
      have : readerStep st.file r c = r := by cases c <;> rcases hr with h | h <;> simp [readerStep, h]
      rw [List.map_cons, runWorld, List.foldl_cons]
      show runWorld (st, readerStep st.file r c) (rs.map .load) = _
      rw [this]; exact ih r hr
  induction rs generalizing r with
  | nil => rw [show (runWorld (st, r) ([].map Event.load)).2 = r from rfl, hr] at hd; cases hd
  | cons c rs ih =>
    rw [List.map_cons, runWorld, List.foldl_cons] at hd ⊢
    change (runWorld (st, readerStep st.file r c) (rs.map .load)).2.phase = .done at hd
    change (runWorld (st, readerStep st.file r c) (rs.map .load)).2.got = f
    cases c with
    | opens => rw [show readerStep st.file r .opens = r by simp [readerStep, hr]] at hd ⊢; exact ih r hr hp hd
    | readFails =>
      rw [show readerStep st.file r .readFails = { r with phase := .err } by simp [readerStep, hr]] at hd
      rw [stay rs _ (.inr rfl)] at hd; cases hd
    | read n =>
      have he : readerStep st.file r (.read n) = if ((f.drop r.got.length).take (n + 1)) = [] then { r with phase := .done }
          else { r with got := r.got ++ (f.drop r.got.length).take (n + 1) } := by simp [readerStep, hr, hf]
      rw [he] at hd ⊢
      split
      · next hnil =>
        rw [stay rs _ (.inl rfl)]
        have hz : f.drop r.got.length = [] := by
          cases hx : f.drop r.got.length with
          | nil => rfl
          | cons b bs => rw [hx] at hnil; simp at hnil
        have := List.take_append_drop r.got.length f
        rw [hz, List.append_nil] at this
        dsimp only
        rw [hp]; exact this
      · next hne =>
        rw [if_neg hne] at hd
        refine ih _ hr ?_ hd
        dsimp only
        generalize n + 1 = m
        rw [List.length_append, List.take_add, ← hp]
        congr 1
        rw [List.length_take, List.length_drop]
        rcases Nat.le_total m (f.length - r.got.length) with h | h
        · rw [Nat.min_eq_left h]
        · rw [Nat.min_eq_right h, List.take_of_length_le (by simp; omega), List.take_of_length_le (by simp)]

/-- C86. A reader during whose work no process makes a call gets the whole content of that moment, however the reads are
cut; if there is no file it fails. -/
theorem c86_undisturbed (before : Option Bytes) (datas : List Bytes) (earlier : List (Nat × FileCall)) (rs : List ReadCall)
    (hd : (runWorld (runShared (savers before datas) earlier, reader) ((.opens :: rs).map .load)).2.phase = .done) :
    (runShared (savers before datas) earlier).file =
      some (runWorld (runShared (savers before datas) earlier, reader) ((.opens :: rs).map .load)).2.got := by
  generalize runShared (savers before datas) earlier = st at hd ⊢
  rw [List.map_cons, runWorld, List.foldl_cons] at hd ⊢
  change (runWorld (st, readerStep st.file reader .opens) (rs.map .load)).2.phase = .done at hd
  change _ = some (runWorld (st, readerStep st.file reader .opens) (rs.map .load)).2.got
  cases hf : st.file with
  | none =>
    exfalso
    rw [hf] at hd
    have : ∀ rs : List ReadCall, (runWorld (st, ⟨.err, []⟩) (rs.map .load)).2.phase = .err := by
      intro rs
      induction rs with
      | nil => rfl
      | cons c rs ih =>
        rw [List.map_cons, runWorld, List.foldl_cons]
        change (runWorld (st, readerStep st.file ⟨.err, []⟩ c) (rs.map .load)).2.phase = .err
        rw [show readerStep st.file ⟨.err, []⟩ c = ⟨.err, []⟩ by cases c <;> rfl]
        exact ih
    have h2 : readerStep none reader .opens = ⟨.err, []⟩ := rfl
    rw [h2, this] at hd
    cases hd
  | some f =>
    rw [hf] at hd
    have := run_reads f rs st hf (readerStep (some f) reader .opens) rfl rfl hd
    rw [this]

/-- C86. With a single process saving, a reader that is not disturbed gets a beginning of the new content once the process
has opened the file (and the old content before, `c86_undisturbed`), however far the process has come. -/
theorem c86_single (before : Option Bytes) (data : Bytes) (es : List WriteEvent) (rs : List ReadCall)
    (hd : (runWorld (runShared (savers before [data]) ((0, .create) :: es.map fun e => (0, .write e)), reader)
      ((.opens :: rs).map .load)).2.phase = .done) :
    ∃ k, k ≤ data.length ∧
      (runWorld (runShared (savers before [data]) ((0, .create) :: es.map fun e => (0, .write e)), reader)
        ((.opens :: rs).map .load)).2.got = data.take k := by
  have h := c86_undisturbed before [data] _ rs hd
  rw [(c85_alone (savers before [data]) 0 data rfl es).1] at h
  have hw : (saveData ⟨.done, es⟩ (savers before [data]).file data).2 = some (writeAll es data).2 := by
    simp only [saveData]
    generalize writeAll es data = r
    obtain ⟨e, b⟩ := r
    cases e <;> rfl
  obtain ⟨k, h1, h2, -⟩ := writeAll_spec es data
  refine ⟨k, h1, ?_⟩
  rw [hw, h2] at h
  exact (Option.some.inj h).symm

/-- C86, the violation. For any old and new content and any place `k` in both: the reader has `k` bytes of the old file when a
process saves the new content and is told `Ok(())`; the reader goes on and, without any error, ends up with the beginning
of the old and the end of the new. -/
theorem c86_torn (old new : Bytes) (k : Nat) (hk : 0 < k) (hko : k ≤ old.length) (hkn : k < new.length) :
    ∃ schedule,
      (runWorld (savers (some old) [new], reader) schedule).1 = ⟨some new, [⟨new, .ok, new.length⟩]⟩ ∧
      (runWorld (savers (some old) [new], reader) schedule).2 = ⟨.done, old.take k ++ new.drop k⟩ := by
  have h0 : new ≠ [] := by intro e; rw [e] at hkn; simp at hkn
  have h1 : new.length ≠ 0 := by omega
  refine ⟨[.load .opens, .load (.read (k - 1)), .save 0 .create, .save 0 (.write (.accept new.length)),
    .load (.read new.length), .load (.read 0)], ?_, ?_⟩
  · rw [runWorld_fst]
    simp [saves, runShared, savers, sharedStep, saverStep, h0, putAt]
  · have e1 : k - 1 + 1 = k := by omega
    have h2 : old.take k ≠ [] := by
      intro e; have := congrArg List.length e; simp only [List.length_take, List.length_nil] at this; omega
    have h3 : min k old.length = k := by omega
    have h4 : (new.drop k).take (new.length + 1) = new.drop k := List.take_of_length_le (by simp; omega)
    have h5 : new.drop k ≠ [] := by
      intro e; have := congrArg List.length e; simp only [List.length_drop, List.length_nil] at this; omega
    have h6 : (new.drop (k + (new.length - k))).take 1 = [] := by
      rw [show k + (new.length - k) = new.length by omega]; simp
    have h7 : ¬ (old.length ≤ 0 ∨ k = 0) := by omega
    simp only [runWorld, List.foldl_cons, List.foldl_nil, worldStep, readerStep, savers, reader, List.map_cons, List.map_nil,
      sharedStep, saverStep, List.getElem?_cons_zero, List.set_cons_zero, Option.getD_some, List.length_nil, List.drop_zero,
      e1, if_neg h2, h0, if_false, h1, List.length_take, List.length_append, List.nil_append, List.length_drop, h3, h4,
      List.take_length, putAt, List.take_nil, Nat.zero_add, Nat.sub_self, List.replicate_zero, List.drop_nil, List.append_nil, h5]
    rw [h6]; simp
/-- C86, the violation for credential caches. The old file has the credential `x`, the new one `y`, for the same client and
server, with the same addresses and authorization data and a key of the same size (a renewed ticket). The reader may load,
without any error, the key, times and flags of `x` with the ticket of `y`. -/
theorem c86_wrong_pair (c : CCache) (x y : CC.Credential)
    (h1 : ({ c with credentials := [x] } : CCache).Fits) (h2 : ({ c with credentials := [y] } : CCache).Fits)
    (hc : x.client = y.client) (hs : x.server = y.server) (hk : x.key.keyvalue.length = y.key.keyvalue.length)
    (ha : x.addrs = y.addrs) (hd : x.authdata = y.authdata) :
    ∃ schedule got,
      (runWorld (savers (some ({ c with credentials := [x] } : CCache).build) [({ c with credentials := [y] } : CCache).build],
        reader) schedule).1.savers.map (·.phase) = [.ok] ∧
      (runWorld (savers (some ({ c with credentials := [x] } : CCache).build) [({ c with credentials := [y] } : CCache).build],
        reader) schedule).2 = ⟨.done, got⟩ ∧
      CCache.parse got =
        .ok ({ c with credentials := [{ x with ticket := y.ticket, second_ticket := y.second_ticket }] }, []) := by
  let head : CC.Credential → Bytes := fun x =>
    x.client.build ++ x.server.build ++ x.key.build ++ x.time.build ++ [x.is_skey] ++ be32 x.tktflags
    ++ be32 (UInt32.ofNat x.addrs.length) ++ x.addrs.flatMap Address.build
    ++ be32 (UInt32.ofNat x.authdata.length) ++ x.authdata.flatMap Address.build
  let tail : CC.Credential → Bytes := fun x => buildCos x.ticket ++ buildCos x.second_ticket
  have hb : ∀ z : CC.Credential, ({ c with credentials := [z] } : CCache).build =
      ({ c with credentials := [] } : CCache).build ++ head z ++ tail z := by
    intro z
    have := c05_build_append { c with credentials := [] } [z]
    rw [show ({ c with credentials := [] } : CCache).credentials ++ [z] = [z] from rfl] at this
    refine this.trans ?_
    simp [Credential.build, head, tail]
  have hl : (head x).length = (head y).length := by
    simp [head, hc, hs, ha, hd, KeyBlock.build, Times.build, hk]
  have hpre : 0 < ({ c with credentials := [] } : CCache).build.length := by simp [CCache.build]; omega
  have htail : 0 < (tail y).length := by simp [tail, buildCos]; omega
  obtain ⟨sch, e1, e2⟩ := c86_torn ({ c with credentials := [x] } : CCache).build ({ c with credentials := [y] } : CCache).build
    (({ c with credentials := [] } : CCache).build ++ head x).length (by simp only [List.length_append]; omega)
    (by rw [hb x]; simp only [List.length_append]; omega) (by rw [hb y]; simp only [List.length_append]; omega)
  refine ⟨sch, _, by rw [e1]; rfl, e2, ?_⟩
  have hgot : List.take (({ c with credentials := [] } : CCache).build ++ head x).length ({ c with credentials := [x] } : CCache).build ++
      List.drop (({ c with credentials := [] } : CCache).build ++ head x).length ({ c with credentials := [y] } : CCache).build =
      ({ c with credentials := [{ x with ticket := y.ticket, second_ticket := y.second_ticket }] } : CCache).build := by
    rw [hb x, hb y, hb { x with ticket := y.ticket, second_ticket := y.second_ticket }, List.take_left']
    rw [show (({ c with credentials := [] } : CCache).build ++ head x).length =
      (({ c with credentials := [] } : CCache).build ++ head y).length by simp only [List.length_append, hl], List.drop_left]
    rfl
  rw [hgot]
  apply c01_ccache_roundtrip
  refine ⟨h1.1, h1.2.1, h1.2.2.1, ?_⟩
  intro z hz
  rw [List.mem_singleton] at hz
  subst hz
  have f1 := h1.2.2.2 x (by simp)
  have f2 := h2.2.2.2 y (by simp)
  exact ⟨f1.1, f1.2.1, f1.2.2.1, f1.2.2.2.1, f1.2.2.2.2.1, f1.2.2.2.2.2.1, f1.2.2.2.2.2.2.1, f2.2.2.2.2.2.2.2.1, f2.2.2.2.2.2.2.2.2⟩

/-! ### Examples -/

/-- the hypotheses of `c86_undisturbed` and `c86_single`: read in three pieces when two of three bytes are written -/
example : let w := (runWorld (runShared (savers (some [9]) [[1, 2, 3]]) [(0, .create), (0, .write (.accept 2))], reader)
      ([.opens, .read 0, .read 7, .read 7].map .load))
    w.2.phase = .done ∧ w.2.got = [1, 2] := by decide

/-- a torn read: two bytes of the old, one of the new -/
example : (runWorld (savers (some [9, 8]) [[1, 2, 3]], reader) [.load .opens, .load (.read 1), .save 0 .create,
    .save 0 (.write (.accept 3)), .load (.read 7), .load (.read 7)]).2 = ⟨.done, [9, 8, 3]⟩ := by decide

/-- the hypotheses of `c86_wrong_pair`: a ticket renewed, with a new session key of the same size -/
example : ∃ x y : CC.Credential, ({ sampleCache with credentials := [x] } : CCache).Fits ∧
    ({ sampleCache with credentials := [y] } : CCache).Fits ∧ x.client = y.client ∧ x.server = y.server ∧
    x.key.keyvalue.length = y.key.keyvalue.length ∧ x.key ≠ y.key ∧ x.ticket ≠ y.ticket ∧ x.addrs = y.addrs ∧
    x.authdata = y.authdata :=
  ⟨sampleCred, { sampleCred with key := ⟨sampleCred.key.keytype, sampleCred.key.etype, sampleCred.key.keyvalue.map (· + 1)⟩,
                                 ticket := sampleCred.ticket ++ [1] }, by decide⟩

end Verif.Kb
