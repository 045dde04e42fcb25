import Verif.ParallelModel
import Verif.Props.Session
/-
C109: ticket requests running at the same time.
-/
namespace Verif.Kb
open Verif.Asn1
open Verif.Crypto (stdPrims toyPrims asciiCase Prims Key CaseMap)

/-! ### Specification -/

/-- what thread `i` has sent -/
def sentBy (i : Nat) (log : List (Nat × Bytes)) : List Bytes :=
  log.filterMap fun x => if x.1 = i then some x.2 else none

/-- the network as thread `i` saw it: after each of its messages it got what the world gave it at some moment when it had sent
just this much -/
def SeenBy (w : World) (i : Nat) (log : List (Nat × Bytes)) (net : Net) : Prop :=
  ∀ s, s ≠ [] → s <+: sentBy i log → ∃ l, l <+: log ∧ sentBy i l = s ∧ net s = w l i

/-! ### Lemmas -/

theorem sentBy_append (i : Nat) (a b : List (Nat × Bytes)) : sentBy i (a ++ b) = sentBy i a ++ sentBy i b := List.filterMap_append

theorem sentBy_own (i : Nat) (m : Bytes) : sentBy i [(i, m)] = [m] := by simp [sentBy]

theorem sentBy_other {i j : Nat} (h : j ≠ i) (m : Bytes) : sentBy i [(j, m)] = [] := by simp [sentBy, h]

/-- what is known about thread `i` -/
def Known (P : Prims) (M : CaseMap) (g : Cfg) (w : World) (i : Nat) (j : Job) (log : List (Nat × Bytes)) : ReqPhase → Prop
  | .first => sentBy i log = []
  | .wait1 => ∃ m, buildAsReq P M g j.e1 j.username none j.options = .ok m ∧ sentBy i log = [m]
  | .second k => ∃ m l a err, buildAsReq P M g j.e1 j.username none j.options = .ok m ∧ sentBy i log = [m] ∧ l <+: log ∧
      sentBy i l = [m] ∧ w l i = some a ∧ parseResponse g a = .ok (.krbError err) ∧ err.error_code = 25 ∧ j.key = some k
  | .wait2 k => ∃ m m2 l a err, buildAsReq P M g j.e1 j.username none j.options = .ok m ∧
      buildAsReq P M g j.e2 j.username (some k) j.options = .ok m2 ∧ sentBy i log = [m, m2] ∧ l <+: log ∧
      sentBy i l = [m] ∧ w l i = some a ∧ parseResponse g a = .ok (.krbError err) ∧ err.error_code = 25 ∧ j.key = some k
  | .done r => ∃ net, SeenBy w i log net ∧ tgtRequest P M g net j.e1 j.e2 j.username j.key j.options = (r, sentBy i log)

theorem prefix_one {s : List Bytes} {m : Bytes} (h0 : s ≠ []) (h : s <+: [m]) : s = [m] := by
  obtain ⟨t, h⟩ := h
  cases s with
  | nil => exact absurd rfl h0
  | cons x s =>
    simp only [List.cons_append] at h
    injection h with h1 h2
    rw [h1, (List.append_eq_nil_iff.1 h2).1]

theorem prefix_two {s : List Bytes} {m m2 : Bytes} (h0 : s ≠ []) (h : s <+: [m, m2]) : s = [m] ∨ s = [m, m2] := by
  obtain ⟨t, h⟩ := h
  cases s with
  | nil => exact absurd rfl h0
  | cons x s =>
    simp only [List.cons_append] at h
    injection h with h1 h2
    cases s with
    | nil => exact .inl (by rw [h1])
    | cons y s => exact .inr (by rw [h1, prefix_one (by simp) ⟨t, h2⟩])

/-- steps of other threads change nothing -/
theorem Known.other {P : Prims} {M : CaseMap} {g : Cfg} {w : World} {i : Nat} {j : Job} {log more : List (Nat × Bytes)} {ph : ReqPhase}
    (h : Known P M g w i j log ph) (hm : sentBy i more = []) : Known P M g w i j (log ++ more) ph := by
  have hs : sentBy i (log ++ more) = sentBy i log := by rw [sentBy_append, hm, List.append_nil]
  have hp : ∀ l, l <+: log → l <+: log ++ more := fun l h => h.trans (List.prefix_append ..)
  cases ph with
  | first => exact hs.trans h
  | wait1 => obtain ⟨m, h1, h2⟩ := h; exact ⟨m, h1, hs.trans h2⟩
  | second k => obtain ⟨m, l, a, err, h1, h2, h3, h4⟩ := h; exact ⟨m, l, a, err, h1, hs.trans h2, hp l h3, h4⟩
  | wait2 k => obtain ⟨m, m2, l, a, err, h0, h1, h2, h3, h4⟩ := h; exact ⟨m, m2, l, a, err, h0, h1, hs.trans h2, hp l h3, h4⟩
  | done r =>
    obtain ⟨net, h1, h2⟩ := h
    refine ⟨net, ?_, by rw [hs]; exact h2⟩
    intro s h0 hpre
    rw [hs] at hpre
    obtain ⟨l, h3, h4⟩ := h1 s h0 hpre
    exact ⟨l, hp l h3, h4⟩

/-- a thread that finishes after one answer -/
theorem done_one {P : Prims} {M : CaseMap} {g : Cfg} {w : World} {i : Nat} {j : Job} {log : List (Nat × Bytes)} {m : Bytes}
    {r : Except KErr Credential} (hl : sentBy i log = [m])
    (h : tgtRequest P M g (fun _ => w log i) j.e1 j.e2 j.username j.key j.options = (r, [m])) :
    Known P M g w i j log (.done r) := by
  refine ⟨fun _ => w log i, ?_, by rw [hl]; exact h⟩
  intro s h0 hs
  rw [hl] at hs
  exact ⟨log, List.prefix_refl _, by rw [hl, prefix_one h0 hs], rfl⟩

/-- one exchange that gets no answer -/
theorem tgt_none {P : Prims} {M : CaseMap} {g : Cfg} {net : Net} {j : Job} {m : Bytes}
    (hb : buildAsReq P M g j.e1 j.username none j.options = .ok m) (hw : net [m] = none) :
    tgtRequest P M g net j.e1 j.e2 j.username j.key j.options = (.error .network, [m]) := by
  unfold tgtRequest asRequest
  rw [hb]; dsimp only
  rw [List.nil_append, hw]

/-- one exchange with an answer that is not understood -/
theorem tgt_error {P : Prims} {M : CaseMap} {g : Cfg} {net : Net} {j : Job} {m a : Bytes} {x : KErr}
    (hb : buildAsReq P M g j.e1 j.username none j.options = .ok m) (hw : net [m] = some a) (hr : parseResponse g a = .error x) :
    tgtRequest P M g net j.e1 j.e2 j.username j.key j.options = (.error x, [m]) := by
  unfold tgtRequest asRequest
  rw [hb]; dsimp only
  rw [List.nil_append, hw]; dsimp only
  rw [hr]

/-- one exchange with a reply -/
theorem tgt_reply {P : Prims} {M : CaseMap} {g : Cfg} {net : Net} {j : Job} {m a : Bytes} {r : AsRep}
    (hb : buildAsReq P M g j.e1 j.username none j.options = .ok m) (hw : net [m] = some a) (hr : parseResponse g a = .ok (.asRep r)) :
    tgtRequest P M g net j.e1 j.e2 j.username j.key j.options = (extractCredential P g j.key r, [m]) := by
  unfold tgtRequest asRequest
  rw [hb]; dsimp only
  rw [List.nil_append, hw]; dsimp only
  rw [hr]

/-- one exchange with an error that ends the request -/
theorem tgt_krbError {P : Prims} {M : CaseMap} {g : Cfg} {net : Net} {j : Job} {m a : Bytes} {err : KrbError}
    (hb : buildAsReq P M g j.e1 j.username none j.options = .ok m) (hw : net [m] = some a)
    (hr : parseResponse g a = .ok (.krbError err)) (hc : err.error_code = 25 → j.key = none) :
    tgtRequest P M g net j.e1 j.e2 j.username j.key j.options = (.error (.krbErrorResponse err), [m]) := by
  unfold tgtRequest asRequest
  rw [hb]; dsimp only
  rw [List.nil_append, hw]; dsimp only
  rw [hr]; dsimp only
  by_cases h : err.error_code = 25
  · rw [if_neg (fun h' => h' h), hc h]
  · rw [if_pos h]

/-- two exchanges; `x` is what the second gives -/
theorem tgt_two {P : Prims} {M : CaseMap} {g : Cfg} {net : Net} {j : Job} {m a : Bytes} {err : KrbError} {k : Key}
    (hb : buildAsReq P M g j.e1 j.username none j.options = .ok m) (hw : net [m] = some a)
    (hr : parseResponse g a = .ok (.krbError err)) (hc : err.error_code = 25) (hk : j.key = some k) :
    tgtRequest P M g net j.e1 j.e2 j.username j.key j.options = secondRequest P M g net j.e2 j.username k j.options [m] := by
  unfold tgtRequest
  conv => lhs; unfold asRequest
  rw [hb]; dsimp only
  rw [List.nil_append, hw]; dsimp only
  rw [hr]; dsimp only
  rw [if_neg (fun h => h hc), hk]

theorem tgt_second_panic {P : Prims} {M : CaseMap} {g : Cfg} {net : Net} {j : Job} {m a : Bytes} {err : KrbError} {k : Key} {x : KErr}
    (hb : buildAsReq P M g j.e1 j.username none j.options = .ok m) (hw : net [m] = some a)
    (hr : parseResponse g a = .ok (.krbError err)) (hc : err.error_code = 25) (hk : j.key = some k)
    (hb2 : buildAsReq P M g j.e2 j.username (some k) j.options = .error x) :
    tgtRequest P M g net j.e1 j.e2 j.username j.key j.options = (.error .panic, [m]) := by
  rw [tgt_two hb hw hr hc hk]
  unfold secondRequest asRequest
  rw [hb2]

theorem tgt_second {P : Prims} {M : CaseMap} {g : Cfg} {net : Net} {j : Job} {m m2 a : Bytes} {err : KrbError} {k : Key}
    {r : Except KErr Credential} {b : Option Bytes}
    (hb : buildAsReq P M g j.e1 j.username none j.options = .ok m) (hw : net [m] = some a)
    (hr : parseResponse g a = .ok (.krbError err)) (hc : err.error_code = 25) (hk : j.key = some k)
    (hb2 : buildAsReq P M g j.e2 j.username (some k) j.options = .ok m2)
    (hres : (match b with
      | none => (.error .network : Except KErr Credential)
      | some a => match parseResponse g a with
        | .error e => .error e
        | .ok (.asRep r) => extractCredential P g (some k) r
        | .ok (.krbError err) => .error (.krbErrorResponse err)) = r) (hw2 : net [m, m2] = b) :
    tgtRequest P M g net j.e1 j.e2 j.username j.key j.options = (r, [m, m2]) := by
  rw [tgt_two hb hw hr hc hk]
  unfold secondRequest asRequest
  rw [hb2]
  have : [m] ++ [m2] = [m, m2] := rfl
  dsimp only
  rw [this, hw2]
  cases b with
  | none => subst hres; rfl
  | some a2 =>
    dsimp only at hres ⊢
    cases hr2 : parseResponse g a2 with
    | error x => rw [hr2] at hres; subst hres; rfl
    | ok x => rw [hr2] at hres; cases x <;> (subst hres; rfl)

theorem Known.step {P : Prims} {M : CaseMap} {g : Cfg} {w : World} {i : Nat} {j : Job} {log : List (Nat × Bytes)} {ph : ReqPhase}
    (h : Known P M g w i j log ph) :
    Known P M g w i j (match (threadStep P M g w log i j ph).2 with
      | some m => log ++ [(i, m)]
      | none => log) (threadStep P M g w log i j ph).1 := by
  cases ph with
  | first =>
    have h : sentBy i log = [] := h
    simp only [threadStep]
    cases hb : buildAsReq P M g j.e1 j.username none j.options with
    | error x =>
      refine ⟨fun _ => none, ?_, ?_⟩
      · intro s h0 hs
        dsimp only at hs
        rw [h] at hs
        exact absurd (List.prefix_nil.1 hs) h0
      · dsimp only
        rw [h]
        unfold tgtRequest asRequest
        rw [hb]
    | ok m => exact ⟨m, hb, by rw [sentBy_append, h, sentBy_own]; rfl⟩
  | wait1 =>
    obtain ⟨m, hb, hl⟩ := h
    simp only [threadStep]
    cases hw : w log i with
    | none => exact done_one hl (tgt_none hb hw)
    | some a =>
      dsimp only
      cases hr : parseResponse g a with
      | error x => exact done_one hl (tgt_error hb hw hr)
      | ok x =>
        cases x with
        | asRep r => exact done_one hl (tgt_reply hb hw hr)
        | krbError err =>
          dsimp only
          by_cases hc : err.error_code = 25
          · rw [if_neg (fun h => h hc)]
            cases hk : j.key with
            | some k => exact ⟨m, log, a, err, hb, hl, List.prefix_refl _, hl, hw, hr, hc, hk⟩
            | none => exact done_one hl (tgt_krbError hb hw hr (fun _ => hk))
          · rw [if_pos hc]
            exact done_one hl (tgt_krbError hb hw hr (fun h => absurd h hc))
  | second k =>
    obtain ⟨m, l, a, err, hb, hl, hp, hl1, hw1, hr1, hc, hk⟩ := h
    simp only [threadStep]
    cases hb2 : buildAsReq P M g j.e2 j.username (some k) j.options with
    | error x =>
      refine ⟨fun _ => w l i, ?_, ?_⟩
      · intro s h0 hs
        dsimp only at hs
        rw [hl] at hs
        exact ⟨l, hp, by rw [hl1, prefix_one h0 hs], rfl⟩
      · dsimp only
        rw [hl]
        exact tgt_second_panic hb hw1 hr1 hc hk hb2
    | ok m2 =>
      exact ⟨m, m2, l, a, err, hb, hb2, by rw [sentBy_append, hl, sentBy_own]; rfl, hp.trans (List.prefix_append ..), hl1, hw1, hr1, hc, hk⟩
  | wait2 k =>
    obtain ⟨m, m2, l, a, err, hb, hb2, hl, hp, hl1, hw1, hr1, hc, hk⟩ := h
    have fin : ∀ r, (match w log i with
        | none => (.error .network : Except KErr Credential)
        | some a => match parseResponse g a with
          | .error e => .error e
          | .ok (.asRep r) => extractCredential P g (some k) r
          | .ok (.krbError err) => .error (.krbErrorResponse err)) = r → Known P M g w i j log (.done r) := by
      intro r hres
      refine ⟨fun s => if s = [m] then w l i else w log i, ?_, ?_⟩
      · intro s h0 hs
        rw [hl] at hs
        rcases prefix_two h0 hs with rfl | rfl
        · exact ⟨l, hp, hl1, if_pos rfl⟩
        · exact ⟨log, List.prefix_refl _, hl, if_neg (by simp)⟩
      · rw [hl]
        exact tgt_second hb (a := a) ((if_pos rfl).trans hw1) hr1 hc hk hb2 (b := w log i) hres (if_neg (by simp))
    simp only [threadStep]
    cases hw : w log i with
    | none => exact fin _ (by rw [hw])
    | some a2 =>
      dsimp only
      cases hr : parseResponse g a2 with
      | error x => exact fin _ (by rw [hw]; dsimp only; rw [hr])
      | ok x => cases x <;> exact fin _ (by rw [hw]; dsimp only; rw [hr])
  | done r => exact h

theorem known_run {P : Prims} {M : CaseMap} {g : Cfg} {w : World} {jobs : Nat → Job} (schedule : List Nat) : ∀ s : Threads,
    (∀ i, Known P M g w i (jobs i) s.log (s.phase i)) →
    ∀ i, Known P M g w i (jobs i) (s.run P M g w jobs schedule).log ((s.run P M g w jobs schedule).phase i) := by
  induction schedule with
  | nil => intro s h; exact h
  | cons n schedule ih =>
    intro s h
    refine ih (s.step P M g w jobs n) fun i => ?_
    unfold Threads.step
    dsimp only
    by_cases hi : i = n
    · subst hi
      rw [if_pos rfl]
      exact (h i).step
    · rw [if_neg hi]
      have h1 := h i
      generalize (threadStep P M g w s.log n (jobs n) (s.phase n)).2 = x
      cases x with
      | none => exact h1
      | some m => exact h1.other (sentBy_other (Ne.symm hi) m)

/-! ### C109 -/

/-- C109. Any number of ticket requests running at the same time, the threads making their steps in any order, the answers
depending in any way on everything that anyone has sent: a request that has returned has returned, and has sent, what it does
alone with a network that gives it the answers it was given here. So everything that holds of a single request, with whatever
network, holds of each of several. -/
theorem c109_as_alone (P : Prims) (M : CaseMap) (g : Cfg) (w : World) (jobs : Nat → Job) (schedule : List Nat) (i : Nat)
    (r : Except KErr Credential) (h : (Threads.start.run P M g w jobs schedule).phase i = .done r) :
    ∃ net, SeenBy w i (Threads.start.run P M g w jobs schedule).log net ∧
      tgtRequest P M g net (jobs i).e1 (jobs i).e2 (jobs i).username (jobs i).key (jobs i).options =
        (r, sentBy i (Threads.start.run P M g w jobs schedule).log) := by
  have := known_run (P := P) (M := M) (g := g) (w := w) (jobs := jobs) schedule Threads.start (fun _ => rfl) i
  rw [h] at this
  exact this

/-- how many steps a request still needs at most -/
def stepsLeft : ReqPhase → Nat
  | .first => 4
  | .wait1 => 3
  | .second _ => 2
  | .wait2 _ => 1
  | .done _ => 0

theorem stepsLeft_step (P : Prims) (M : CaseMap) (g : Cfg) (w : World) (log : List (Nat × Bytes)) (i : Nat) (j : Job) (ph : ReqPhase) :
    stepsLeft (threadStep P M g w log i j ph).1 ≤ stepsLeft ph - 1 := by
  cases ph <;> simp only [threadStep] <;> (repeat' split) <;> simp [stepsLeft]

theorem stepsLeft_run {P : Prims} {M : CaseMap} {g : Cfg} {w : World} {jobs : Nat → Job} (i : Nat) (schedule : List Nat) :
    ∀ s : Threads, stepsLeft ((s.run P M g w jobs schedule).phase i) ≤ stepsLeft (s.phase i) - schedule.count i := by
  induction schedule with
  | nil => intro s; exact Nat.le_refl _
  | cons n schedule ih =>
    intro s
    refine Nat.le_trans (ih (s.step P M g w jobs n)) ?_
    have hp : (s.step P M g w jobs n).phase i =
        if i = n then (threadStep P M g w s.log n (jobs n) (s.phase n)).1 else s.phase i := rfl
    rw [hp, List.count_cons]
    by_cases hi : i = n
    · subst hi
      have := stepsLeft_step P M g w s.log i (jobs i) (s.phase i)
      simp only [if_pos, beq_self_eq_true]
      omega
    · rw [if_neg hi, if_neg (by simpa using Ne.symm hi)]
      omega

/-- C109. No request waits for another thread: one that gets four turns (it sends, takes the answer, sends, takes the answer) has
returned, whatever the others do and however their turns lie between its own. -/
theorem c109_no_waiting (P : Prims) (M : CaseMap) (g : Cfg) (w : World) (jobs : Nat → Job) (schedule : List Nat) (i : Nat)
    (h : 4 ≤ schedule.count i) : ∃ r, (Threads.start.run P M g w jobs schedule).phase i = .done r := by
  have := stepsLeft_run (P := P) (M := M) (g := g) (w := w) (jobs := jobs) i schedule Threads.start
  have h4 : stepsLeft (Threads.start.phase i) = 4 := rfl
  rw [h4] at this
  cases hp : (Threads.start.run P M g w jobs schedule).phase i with
  | done r => exact ⟨r, rfl⟩
  | _ => rw [hp] at this; simp only [stepsLeft] at this; omega

/-- only the answers to what is sent matter -/
theorem tgtRequest_local {P : Prims} {M : CaseMap} {g : Cfg} {net net' : Net} {j : Job}
    (h : ∀ s, s ≠ [] → s <+: (tgtRequest P M g net j.e1 j.e2 j.username j.key j.options).2 → net' s = net s) :
    tgtRequest P M g net' j.e1 j.e2 j.username j.key j.options = tgtRequest P M g net j.e1 j.e2 j.username j.key j.options := by
  cases hb : buildAsReq P M g j.e1 j.username none j.options with
  | error x => unfold tgtRequest asRequest; rw [hb]
  | ok m =>
    have h1 : net' [m] = net [m] := by
      refine h _ (by simp) ?_
      cases hw : net [m] with
      | none => rw [tgt_none hb hw]; exact List.prefix_refl _
      | some a =>
        cases hr : parseResponse g a with
        | error x => rw [tgt_error hb hw hr]; exact List.prefix_refl _
        | ok x =>
          cases x with
          | asRep r => rw [tgt_reply hb hw hr]; exact List.prefix_refl _
          | krbError err =>
            by_cases hc : err.error_code = 25 ∧ ∃ k, j.key = some k
            · obtain ⟨hc, k, hk⟩ := hc
              rw [tgt_two hb hw hr hc hk]
              unfold secondRequest asRequest
              cases buildAsReq P M g j.e2 j.username (some k) j.options with
              | error _ => exact List.prefix_refl _
              | ok m2 =>
                refine ⟨[m2], ?_⟩
                dsimp only
                cases net ([m] ++ [m2]) with
                | none => rfl
                | some a2 =>
                  dsimp only
                  cases parseResponse g a2 with
                  | error _ => rfl
                  | ok x => cases x <;> rfl
            · rw [tgt_krbError hb hw hr (fun h25 => by
                cases hk : j.key with
                | none => rfl
                | some k => exact absurd ⟨h25, k, hk⟩ hc)]
              exact List.prefix_refl _
    cases hw : net [m] with
    | none => rw [tgt_none hb hw, tgt_none hb (h1.trans hw)]
    | some a =>
      cases hr : parseResponse g a with
      | error x => rw [tgt_error hb hw hr, tgt_error hb (h1.trans hw) hr]
      | ok x =>
        cases x with
        | asRep r => rw [tgt_reply hb hw hr, tgt_reply hb (h1.trans hw) hr]
        | krbError err =>
          by_cases hc : err.error_code = 25 ∧ ∃ k, j.key = some k
          · obtain ⟨hc, k, hk⟩ := hc
            cases hb2 : buildAsReq P M g j.e2 j.username (some k) j.options with
            | error x => rw [tgt_second_panic hb hw hr hc hk hb2, tgt_second_panic hb (h1.trans hw) hr hc hk hb2]
            | ok m2 =>
              have e1 := tgt_second hb hw hr hc hk hb2 rfl rfl
              have h2 : net' [m, m2] = net [m, m2] := h _ (by simp) (by rw [e1]; exact List.prefix_refl _)
              rw [e1]
              exact tgt_second hb (h1.trans hw) hr hc hk hb2 rfl h2
          · have hn : err.error_code = 25 → j.key = none := fun h25 => by
              cases hk : j.key with
              | none => rfl
              | some k => exact absurd ⟨h25, k, hk⟩ hc
            rw [tgt_krbError hb hw hr hn, tgt_krbError hb (h1.trans hw) hr hn]

/-- C109. If the KDCs answer each thread by what this thread has sent (`nets i` is how thread `i` is answered), then each request
that got its four turns returns and has sent exactly what it does alone: every order of the steps has the same results. -/
theorem c109_any_order (P : Prims) (M : CaseMap) (g : Cfg) (nets : Nat → Net) (jobs : Nat → Job) (schedule : List Nat) (i : Nat)
    (h : 4 ≤ schedule.count i) :
    ∃ r, (Threads.start.run P M g (fun log n => nets n (sentBy n log)) jobs schedule).phase i = .done r ∧
      tgtRequest P M g (nets i) (jobs i).e1 (jobs i).e2 (jobs i).username (jobs i).key (jobs i).options =
        (r, sentBy i (Threads.start.run P M g (fun log n => nets n (sentBy n log)) jobs schedule).log) := by
  obtain ⟨r, hr⟩ := c109_no_waiting P M g (fun log n => nets n (sentBy n log)) jobs schedule i h
  refine ⟨r, hr, ?_⟩
  obtain ⟨net, hs, ht⟩ := c109_as_alone P M g _ jobs schedule i r hr
  rw [← ht]
  refine tgtRequest_local (j := jobs i) ?_
  intro s h0 hp
  rw [ht] at hp
  obtain ⟨l, -, h2, h3⟩ := hs s h0 hp
  rw [h3]
  dsimp only
  rw [h2]

/-! ### An example -/

/-- thread 0 has the right key, thread 1 a wrong one, the others none -/
def exJobs (i : Nat) : Job :=
  ⟨exEnv, exEnv, "mickey".toList,
    if i = 0 then some exCipherKey else if i = 1 then some (.rc4Key (List.replicate 16 1)) else none, exOptions⟩

/-- a KDC that demands pre-authentication until it has seen four messages, whoever sent them -/
def exWorld : World := fun log _ =>
  if log.length < 4 then some (MsgType.build strictCfg .krbError exPreauth) else some (MsgType.build strictCfg .asRep fileRep)

def exSchedule : List Nat := [0, 1, 2, 1, 0, 0, 2, 2, 1, 1, 0, 2]

/-- Thread 0 gets its ticket, the others do not; five messages were sent, two by thread 0, two by thread 1, one by thread 2. -/
example :
    (List.range 3).map (fun i => match (Threads.start.run stdPrims asciiCase strictCfg exWorld exJobs exSchedule).phase i with
      | .done r => some r.toOption.isSome
      | _ => none) = [some true, some false, some false] ∧
    (Threads.start.run stdPrims asciiCase strictCfg exWorld exJobs exSchedule).log.map Prod.fst = [0, 1, 2, 0, 1] ∧
    exSchedule.count 0 = 4 := by
  decide +kernel

end Verif.Kb
