import Verif.Props.Answers
/-
Property theorems C117: what a client does not know in the controller's answers does not matter.
-/
namespace Verif.Kb
open Verif.Asn1
open Verif.Crypto (CErr Prims Key Cipher CaseMap newKerberosCipher)

/-! ### Specification -/

/-- the only kind of pre-authentication data the client reads: ETYPE-INFO2 -/
def ReadByClient (p : PaData) : Prop := p.padata_type = 19

instance : DecidablePred ReadByClient := fun p => inferInstanceAs (Decidable (p.padata_type = 19))

/-- `l'` is `l` with other elements put in or taken out at any places, all of kinds the client does not know -/
inductive Padded : List PaData → List PaData → Prop
  | nil : Padded [] []
  | both (p) {l l'} (h : Padded l l') : Padded (p :: l) (p :: l')
  | left (p) {l l'} (hp : ¬ ReadByClient p) (h : Padded l l') : Padded (p :: l) l'
  | right (p) {l l'} (hp : ¬ ReadByClient p) (h : Padded l l') : Padded l (p :: l')

/-- the pre-authentication data of two replies do not differ in what matters: for a key, whatever they are; for a password, the
one is the other with unknown elements put in or taken out, or in another order if there is only one element of the known
kind -/
def PadataAgree (key : Option Key) (l l' : List PaData) : Prop :=
  (∃ k, key = some k ∧ ∀ pw, k ≠ .secret pw) ∨ Padded l l' ∨ (l.Perm l' ∧ (l.filter (fun p => decide (ReadByClient p))).length ≤ 1)

/-- two replies that differ at most in version numbers and in pre-authentication data that do not matter -/
def RepliesAgree (key : Option Key) (r r' : AsRep) : Prop :=
  r.crealm = r'.crealm ∧ r.cname = r'.cname ∧ r.ticket = r'.ticket ∧ r.enc_part.etype = r'.enc_part.etype ∧
    r.enc_part.cipher = r'.enc_part.cipher ∧ PadataAgree key (r.padata.getD []) (r'.padata.getD [])

/-- two answers: the same, or two such replies -/
def AnswersAgree (g : Cfg) (key : Option Key) (a a' : Option Bytes) : Prop :=
  a = a' ∨ ∃ x x' r r', a = some x ∧ a' = some x' ∧ ReadsReply g x r ∧ ReadsReply g x' r' ∧ RepliesAgree key r r'

/-- two answers to the first request: as above, or two demands for pre-authentication, whatever else is in them, for a client
that has a key or a password -/
def FirstAgree (g : Cfg) (key : Option Key) (a a' : Option Bytes) : Prop :=
  AnswersAgree g key a a' ∨ (key ≠ none ∧ DemandsPreauth g a ∧ DemandsPreauth g a')

/-- the same result; an error that quotes a reply quotes the other reply -/
def ResultsAgree (res res' : Except KErr Credential) : Prop :=
  res = res' ∨ ∃ r r' e, res = .error (.parseAsRep r e) ∧ res' = .error (.parseAsRep r' e)

/-! ### Lemmas -/

theorem padded_filter {l l' : List PaData} (h : Padded l l') :
    l.filter (fun p => decide (p.padata_type = 19)) = l'.filter (fun p => decide (p.padata_type = 19)) := by
  induction h with
  | nil => rfl
  | both p _ ih => rw [List.filter_cons, List.filter_cons, ih]
  | left p hp _ ih => rw [List.filter_cons_of_neg (by simpa [ReadByClient] using hp), ih]
  | right p hp _ ih => rw [List.filter_cons_of_neg (by simpa [ReadByClient] using hp), ih]

theorem perm_short {α} {l l' : List α} (h : l.Perm l') (hl : l.length ≤ 1) : l = l' := by
  match l, l' with
  | [], l' => exact (List.nil_perm.1 h).symm
  | [a], l' => exact (List.singleton_perm.1 h)
  | a :: b :: l, l' => simp at hl

theorem padata_filter {l l' : List PaData}
    (h : Padded l l' ∨ (l.Perm l' ∧ (l.filter (fun p => decide (ReadByClient p))).length ≤ 1)) :
    l.filter (fun p => decide (p.padata_type = 19)) = l'.filter (fun p => decide (p.padata_type = 19)) := by
  rcases h with h | ⟨h1, h2⟩
  · exact padded_filter h
  · exact perm_short (h1.filter _) h2

theorem kdcRep_agree (P : Prims) (g : Cfg) (k : Key) {r r' : AsRep} (h : RepliesAgree (some k) r r') :
    kdcRepToCredential P g k r = kdcRepToCredential P g k r' := by
  obtain ⟨h1, h2, h3, h4, h5, h6⟩ := h
  rcases h6 with ⟨k', hk, hs⟩ | h6
  · injection hk with hk
    subst hk
    have hk : decryptWithKey P k r = decryptWithKey P k r' := by
      unfold decryptWithKey tryDecryptWithKey
      rw [h4, h5]
    have hd : decryptRep P g k r = decryptRep P g k r' := by
      cases k with
      | secret pw => exact absurd rfl (hs pw)
      | rc4Key b => exact hk
      | aes128Key b => exact hk
      | aes256Key b => exact hk
    unfold kdcRepToCredential
    rw [hd, h1, h2, h3]
  · exact kdcRep_same P k ⟨h1, h2, h3, h4, h5, padata_filter h6⟩

theorem extract_agree (P : Prims) (g : Cfg) (key : Option Key) {r r' : AsRep} (h : RepliesAgree key r r') :
    ResultsAgree (extractCredential P g key r) (extractCredential P g key r') := by
  unfold extractCredential
  cases key with
  | none => exact .inr ⟨r, r', _, rfl, rfl⟩
  | some k =>
    dsimp only
    rw [kdcRep_agree P g k h]
    generalize kdcRepToCredential P g k r' = x
    cases x with
    | ok c => exact .inl rfl
    | error e => cases e <;> first | exact .inr ⟨r, r', _, rfl, rfl⟩ | exact .inl rfl

/-! ### C117 -/

/-- C117. What the client does not know in the controller's answers has no influence: with answers that agree in the rest the
same messages are sent and the result is the same. -/
theorem c117_unknown_ignored (P : Prims) (M : CaseMap) {g : Cfg} (hg : g.Total) (net net' : Net) (e1 e2 : Env)
    (username : List Char) (key : Option Key) (o : Options)
    (h1 : ∀ req, FirstAgree g key (net [req]) (net' [req]))
    (h2 : ∀ req req', AnswersAgree g key (net [req, req']) (net' [req, req'])) :
    (tgtRequest P M g net e1 e2 username key o).2 = (tgtRequest P M g net' e1 e2 username key o).2 ∧
    ResultsAgree (tgtRequest P M g net e1 e2 username key o).1 (tgtRequest P M g net' e1 e2 username key o).1 := by
  have second : ∀ k req, key = some k →
      (secondRequest P M g net e2 username k o [req]).2 = (secondRequest P M g net' e2 username k o [req]).2 ∧
      ResultsAgree (secondRequest P M g net e2 username k o [req]).1 (secondRequest P M g net' e2 username k o [req]).1 := by
    intro k req hk
    unfold secondRequest asRequest
    cases buildAsReq P M g e2 username (some k) o with
    | error x => exact ⟨rfl, .inl rfl⟩
    | ok raw =>
      rcases h2 req raw with h | ⟨x, x', r, r', a1, a2, a3, a4, a5⟩
      · have e : net ([req] ++ [raw]) = net' ([req] ++ [raw]) := h
        dsimp only
        rw [e]
        exact ⟨rfl, .inl rfl⟩
      · have e : net ([req] ++ [raw]) = some x := a1
        have e' : net' ([req] ++ [raw]) = some x' := a2
        dsimp only
        rw [e, e']
        dsimp only
        rw [parseResponse_reply hg a3, parseResponse_reply hg a4]
        exact ⟨rfl, extract_agree P g (some k) (hk ▸ a5)⟩
  unfold tgtRequest asRequest
  cases buildAsReq P M g e1 username none o with
  | error x => exact ⟨rfl, .inl rfl⟩
  | ok raw =>
    rcases h1 raw with (h | ⟨x, x', r, r', a1, a2, a3, a4, a5⟩) | ⟨hk, hd, hd'⟩
    · have e : net ([] ++ [raw]) = net' ([] ++ [raw]) := h
      dsimp only
      rw [e]
      generalize net' ([] ++ [raw]) = a
      cases a with
      | none => exact ⟨rfl, .inl rfl⟩
      | some answer =>
        dsimp only
        generalize parseResponse g answer = x
        rcases x with x | x | x
        · exact ⟨rfl, .inl rfl⟩
        · dsimp only
          by_cases hc : x.error_code ≠ 25
          · rw [if_pos hc, if_pos hc]; exact ⟨rfl, .inl rfl⟩
          · rw [if_neg hc, if_neg hc]
            cases key with
            | none => exact ⟨rfl, .inl rfl⟩
            | some k => exact second k raw rfl
        · exact ⟨rfl, .inl rfl⟩
    · have e : net ([] ++ [raw]) = some x := a1
      have e' : net' ([] ++ [raw]) = some x' := a2
      dsimp only
      rw [e, e']
      dsimp only
      rw [parseResponse_reply hg a3, parseResponse_reply hg a4]
      exact ⟨rfl, extract_agree P g key a5⟩
    · obtain ⟨x, err, b1, b2, b3⟩ := hd
      obtain ⟨x', err', b1', b2', b3'⟩ := hd'
      have e : net ([] ++ [raw]) = some x := b1
      have e' : net' ([] ++ [raw]) = some x' := b1'
      cases key with
      | none => exact absurd rfl hk
      | some k =>
        dsimp only
        rw [e, e']
        dsimp only
        rw [parseResponse_error b2, parseResponse_error b2']
        dsimp only
        rw [if_neg (by rw [b3]; decide), if_neg (by rw [b3']; decide)]
        exact second k raw rfl

/-- C117. So a ticket obtained from a controller is obtained, with the same contents, from one that adds what the client does
not know. -/
theorem c117_same_ticket (P : Prims) (M : CaseMap) {g : Cfg} (hg : g.Total) (net net' : Net) (e1 e2 : Env)
    (username : List Char) (key : Option Key) (o : Options)
    (h1 : ∀ req, FirstAgree g key (net [req]) (net' [req]))
    (h2 : ∀ req req', AnswersAgree g key (net [req, req']) (net' [req, req'])) (c : Credential)
    (h : (tgtRequest P M g net e1 e2 username key o).1 = .ok c) : (tgtRequest P M g net' e1 e2 username key o).1 = .ok c := by
  rcases (c117_unknown_ignored P M hg net net' e1 e2 username key o h1 h2).2 with h3 | ⟨r, r', e, h3, -⟩
  · rw [← h3, h]
  · rw [h] at h3; cases h3

/-! ### Cases that meet the hypotheses, and cases that do not -/

/-- FX-COOKIE (133), SPAKE (151) and PA-PK-AS-REP (17) elements put around an ETYPE-INFO2 -/
def exUnknown (l : List PaData) : List PaData := ⟨133, [1, 2]⟩ :: l ++ [⟨151, []⟩, ⟨17, [48]⟩]

theorem padded_refl (l : List PaData) : Padded l l := by
  induction l with
  | nil => exact .nil
  | cons p l ih => exact .both p ih

theorem exUnknown_padded (l : List PaData) : Padded l (exUnknown l) := by
  refine .right _ (by unfold ReadByClient; decide) ?_
  induction l with
  | nil => exact .right _ (by unfold ReadByClient; decide) (.right _ (by unfold ReadByClient; decide) .nil)
  | cons p l ih => exact .both p ih

example (key : Option Key) : RepliesAgree key (exRep exPassword)
    { exRep exPassword with pvno := 6, padata := some (exUnknown ((exRep exPassword).padata.getD [])) } :=
  ⟨rfl, rfl, rfl, rfl, rfl, .inr (.inl (exUnknown_padded _))⟩

/-- c117_same_ticket: two controllers, the second of which answers with more -/
example :
    (tgtRequest Crypto.toyPrims Crypto.asciiCase strictCfg (fun _ => some (MsgType.build strictCfg .asRep
      { exRep exPassword with padata := some (exUnknown ((exRep exPassword).padata.getD [])) }))
      exEnv exEnv "mickey".toList (some exPassword) exOptions).1 =
      .ok ⟨(exRep exPassword).crealm, (exRep exPassword).cname, (exRep exPassword).ticket, exPart⟩ := by
  have ha : AnswersAgree strictCfg (some exPassword) (some (MsgType.build strictCfg .asRep (exRep exPassword)))
      (some (MsgType.build strictCfg .asRep { exRep exPassword with padata := some (exUnknown ((exRep exPassword).padata.getD [])) })) := by
    refine .inr ⟨_, _, exRep exPassword, { exRep exPassword with padata := some (exUnknown ((exRep exPassword).padata.getD [])) },
      rfl, rfl, ⟨⟨.error, by decide +kernel⟩, [], by decide +kernel⟩, ⟨⟨.error, by decide +kernel⟩, [], by decide +kernel⟩,
      rfl, rfl, rfl, rfl, rfl, .inr (.inl (exUnknown_padded _))⟩
  exact c117_same_ticket _ _ (⟨nofun, nofun, nofun, nofun⟩ : strictCfg.Total)
    (fun _ => some (MsgType.build strictCfg .asRep (exRep exPassword))) _ _ _ _ _ _ (fun _ => .inl ha) (fun _ _ => ha) _
    (by decide +kernel)

/-- with a key even an unreadable ETYPE-INFO2 does no harm -/
example (b : Bytes) : RepliesAgree (some (.aes256Key b)) (exRep exPassword)
    { exRep exPassword with padata := some [⟨19, [0xff]⟩] } :=
  ⟨rfl, rfl, rfl, rfl, rfl, .inl ⟨_, rfl, fun _ h => Key.noConfusion h⟩⟩

/-- with a password it matters, and so does the order of two readable ones -/
example : ¬ PadataAgree (some exPassword) [] [⟨19, [0xff]⟩] := by
  rintro (⟨k, h1, h2⟩ | h | ⟨h, -⟩)
  · injection h1 with h1
    exact h2 _ h1.symm
  · have := padded_filter h
    revert this; decide
  · exact absurd h.length_eq (by decide)

end Verif.Kb
